import Verif.Params.Model

/-
C20: parameter scopes. C48: values set through the API. C49: references inside text. C50: values set by the
declaration callback.
-/
namespace Verif.Params

/-! ### A language of nested scopes -/

/-- Declarations, assignments and nested scopes, in any order. -/
inductive Item where
  | declare (x : XDecl)
  | set (name v : Text)
  | scope (body : List Item)

mutual
/-- A scope is opened by one restore point and closed by one restore. -/
def Item.run (cv : Conv) (p : Params) : Item → Option Params
  | .declare x => Params.declare cv p x
  | .set n v => some (setByString cv p n v).1
  | .scope b => (Item.runAll cv (createRestorePoint p) b).bind restore

def Item.runAll (cv : Conv) (p : Params) : List Item → Option Params
  | [] => some p
  | i :: r => (Item.run cv p i).bind (fun p => Item.runAll cv p r)
end

mutual
/-- The names assigned in an item, at any depth. -/
def Item.sets : Item → List Text
  | .declare _ => []
  | .set n _ => [n]
  | .scope b => Item.setsAll b

def Item.setsAll : List Item → List Text
  | [] => []
  | i :: r => Item.sets i ++ Item.setsAll r
end

/-- The names declared by the items themselves, not by nested scopes. -/
def Item.declared : List Item → List Text
  | [] => []
  | .declare x :: r => x.name :: declared r
  | _ :: r => declared r

/-- A name used in an assignment or look-up refers to a declared name, with or without prefix. -/
def refers (name declared : Text) : Prop := name = declared ∨ name = '$' :: declared

theorem matchesName_iff (name : Text) (d : Decl) : matchesName name d = true ↔ refers name d.name := by
  unfold matchesName refers
  simp only [Bool.or_eq_true, beq_iff_eq]
  constructor
  · rintro (h | h)
    · exact Or.inr h.symm
    · exact Or.inl h.symm
  · rintro (h | h)
    · exact Or.inr h.symm
    · exact Or.inl h.symm

/-- Specification: the same declarations; only those referred to by an assignment may have changed their value. -/
def Survives (sets : List Text) (before after : List Decl) : Prop :=
  before.length = after.length ∧
  ∀ (i : Nat) (a b : Decl), before[i]? = some a → after[i]? = some b →
    a.name = b.name ∧ a.type = b.type ∧ (a = b ∨ ∃ n ∈ sets, refers n a.name)

theorem Survives.refl (s : List Text) (l : List Decl) : Survives s l l :=
  ⟨rfl, fun i a b ha hb => by rw [ha] at hb; cases hb; exact ⟨rfl, rfl, Or.inl rfl⟩⟩

theorem Survives.mono {s t : List Text} (h : ∀ n ∈ s, n ∈ t) {l m : List Decl} (hs : Survives s l m) : Survives t l m :=
  ⟨hs.1, fun i a b ha hb => by
    obtain ⟨h1, h2, h3⟩ := hs.2 i a b ha hb
    refine ⟨h1, h2, ?_⟩
    rcases h3 with h3 | ⟨n, hn, h3⟩
    · exact Or.inl h3
    · exact Or.inr ⟨n, h n hn, h3⟩⟩

theorem Survives.trans {s : List Text} {l m n : List Decl} (h1 : Survives s l m) (h2 : Survives s m n) : Survives s l n := by
  refine ⟨h1.1.trans h2.1, fun i a c ha hc => ?_⟩
  have hi : i < m.length := by rw [← h1.1]; exact (List.getElem?_eq_some_iff.1 ha).1
  obtain ⟨a1, a2, a3⟩ := h1.2 i a m[i] ha (List.getElem?_eq_getElem hi)
  obtain ⟨b1, b2, b3⟩ := h2.2 i m[i] c (List.getElem?_eq_getElem hi) hc
  refine ⟨a1.trans b1, a2.trans b2, ?_⟩
  rcases a3 with a3 | a3
  · rcases b3 with b3 | ⟨k, hk, b3⟩
    · exact Or.inl (a3.trans b3)
    · exact Or.inr ⟨k, hk, by rw [a1]; exact b3⟩
  · exact Or.inr a3

theorem Survives.drop {s : List Text} {l m : List Decl} (h : Survives s l m) (k : Nat) : Survives s (l.drop k) (m.drop k) := by
  refine ⟨by simp [h.1], fun i a b ha hb => ?_⟩
  rw [List.getElem?_drop] at ha hb
  exact h.2 _ a b ha hb

theorem modifyFirst_survives (n : Text) (f : Decl → Decl) (hf : ∀ d, (f d).name = d.name ∧ (f d).type = d.type)
    (l : List Decl) : Survives [n] l (modifyFirst n f l) := by
  induction l with
  | nil => exact Survives.refl _ _
  | cons d r ih =>
    unfold modifyFirst
    split
    · next h =>
      refine ⟨rfl, fun i a b ha hb => ?_⟩
      cases i with
      | zero =>
        simp at ha hb; subst ha; subst hb
        exact ⟨(hf d).1.symm, (hf d).2.symm, Or.inr ⟨n, by simp, (matchesName_iff n d).1 h⟩⟩
      | succ i =>
        simp at ha hb; rw [ha] at hb; cases hb
        exact ⟨rfl, rfl, Or.inl rfl⟩
    · refine ⟨by simp [ih.1], fun i a b ha hb => ?_⟩
      cases i with
      | zero => simp at ha hb; subst ha; subst hb; exact ⟨rfl, rfl, Or.inl rfl⟩
      | succ i => simp at ha hb; exact ih.2 i a b ha hb

/-- What running items does: new declarations in front, the old ones survive. -/
def Ext (names sets : List Text) (p q : Params) : Prop :=
  q.marks = p.marks ∧ ∃ inner outer, q.decls = inner ++ outer ∧ Survives sets p.decls outer ∧ ∀ d ∈ inner, d.name ∈ names

theorem Ext.mono {n n' s s' : List Text} {p q : Params} (hn : ∀ x ∈ n, x ∈ n') (hs : ∀ x ∈ s, x ∈ s') (h : Ext n s p q) :
    Ext n' s' p q := by
  obtain ⟨h1, i, o, h2, h3, h4⟩ := h
  exact ⟨h1, i, o, h2, h3.mono hs, fun d hd => hn _ (h4 d hd)⟩

theorem survives_split {s : List Text} {i o m : List Decl} (h : Survives s (i ++ o) m) :
    ∃ i' o', m = i' ++ o' ∧ Survives s i i' ∧ Survives s o o' := by
  refine ⟨m.take i.length, m.drop i.length, (List.take_append_drop _ _).symm, ?_, ?_⟩
  · refine ⟨by have := h.1; simp at this; simp; omega, fun k a b ha hb => ?_⟩
    have hk : k < i.length := (List.getElem?_eq_some_iff.1 ha).1
    rw [List.getElem?_take_of_lt hk] at hb
    exact h.2 k a b (by rw [List.getElem?_append_left hk]; exact ha) hb
  · have := h.drop i.length
    simpa using this

theorem Ext.trans {n s : List Text} {p q r : Params} (h1 : Ext n s p q) (h2 : Ext n s q r) : Ext n s p r := by
  obtain ⟨m1, i1, o1, e1, s1, d1⟩ := h1
  obtain ⟨m2, i2, o2, e2, s2, d2⟩ := h2
  rw [e1] at s2
  obtain ⟨i3, o3, e3, s3, s4⟩ := survives_split s2
  refine ⟨m2.trans m1, i2 ++ i3, o3, by rw [e2, e3, List.append_assoc], s1.trans s4, ?_⟩
  intro d hd
  rw [List.mem_append] at hd
  rcases hd with hd | hd
  · exact d2 d hd
  · obtain ⟨k, hk⟩ := List.mem_iff_getElem?.1 hd
    have hlt : k < i1.length := by rw [s3.1]; exact (List.getElem?_eq_some_iff.1 hk).1
    have := s3.2 k _ d (List.getElem?_eq_getElem hlt) hk
    rw [← this.1]
    exact d1 _ (List.getElem_mem hlt)

theorem declare_ext (cv : Conv) (p q : Params) (x : XDecl) (h : declare cv p x = some q) :
    Ext [x.name] [] p q ∧ q.assignments = p.assignments := by
  have base : Ext [x.name] [] p p :=
    ⟨rfl, [], p.decls, rfl, Survives.refl _ _, fun d hd => by simp at hd⟩
  unfold declare at h
  split at h
  · split at h
    · split at h
      · injection h with h; subst h; exact ⟨base, rfl⟩
      · injection h with h; subst h
        exact ⟨⟨rfl, [_], p.decls, rfl, Survives.refl _ _, fun d hd => by simp at hd; simp [hd, newDecl]⟩, rfl⟩
    · injection h with h; subst h
      exact ⟨⟨rfl, [_], p.decls, rfl, Survives.refl _ _, fun d hd => by simp at hd; simp [hd, newDecl]⟩, rfl⟩
  · cases h

theorem setByString_ext (cv : Conv) (p : Params) (n v : Text) : Ext [] [n] p (setByString cv p n v).1 := by
  unfold setByString
  split
  · exact ⟨rfl, [], p.decls, rfl, Survives.refl _ _, fun d hd => by simp at hd⟩
  · refine ⟨rfl, [], _, rfl, modifyFirst_survives n (withString cv v) (fun d => ⟨rfl, rfl⟩) _, fun d hd => by simp at hd⟩

/-- Restoring cuts off exactly what was put in front since the mark. -/
theorem restore_ext {n s : List Text} {p q r : Params} (h : Ext n s (createRestorePoint p) q) (hr : restore q = some r) :
    Survives s p.decls r.decls ∧ r.marks = p.marks ∧ r.assignments = [] := by
  obtain ⟨h1, i, o, h2, h3, _⟩ := h
  have hm : q.marks = p.decls.length :: p.marks := h1
  unfold restore at hr
  rw [hm] at hr
  simp only at hr
  split at hr
  · injection hr with hr
    subst hr
    have hl : p.decls.length = o.length := h3.1
    refine ⟨?_, rfl, rfl⟩
    simp only
    rw [h2, List.length_append, hl, Nat.add_sub_cancel, List.drop_left]
    exact h3
  · cases hr

mutual
theorem Item.run_ext (cv : Conv) (p q : Params) : ∀ i : Item, Item.run cv p i = some q →
    Ext (Item.declared [i]) (Item.sets i) p q
  | .declare x, h => by
    simp only [Item.run] at h
    exact (declare_ext cv p q x h).1
  | .set n v, h => by
    simp only [Item.run, Option.some.injEq] at h
    subst h
    exact setByString_ext cv p n v
  | .scope b, h => by
    simp only [Item.run, Option.bind_eq_some_iff] at h
    obtain ⟨p', h1, h2⟩ := h
    have := restore_ext (Item.runAll_ext cv _ p' b h1) h2
    exact ⟨this.2.1, [], q.decls, rfl, this.1, fun d hd => by simp at hd⟩

theorem Item.runAll_ext (cv : Conv) (p q : Params) : ∀ l : List Item, Item.runAll cv p l = some q →
    Ext (Item.declared l) (Item.setsAll l) p q
  | [], h => by
    simp only [Item.runAll, Option.some.injEq] at h
    subst h
    exact ⟨rfl, [], p.decls, rfl, Survives.refl _ _, fun d hd => by simp at hd⟩
  | i :: r, h => by
    simp only [Item.runAll, Option.bind_eq_some_iff] at h
    obtain ⟨p', h1, h2⟩ := h
    have a := Item.run_ext cv p p' i h1
    have b := Item.runAll_ext cv p' q r h2
    refine (a.mono ?_ ?_).trans (b.mono ?_ ?_)
    · intro x hx
      cases i <;> simp [Item.declared] at hx ⊢
      simp [hx]
    · intro x hx; simp [Item.setsAll, hx]
    · intro x hx
      cases i <;> simp [Item.declared, hx]
    · intro x hx; simp [Item.setsAll, hx]
end

/-- **C20**: leaving a scope (one restore point, one restore) brings back exactly the declarations from before, in the
same order and with the same types; only values assigned inside differ. -/
theorem scope_restores (cv : Conv) (p q : Params) (body : List Item) (h : Item.run cv p (.scope body) = some q) :
    Survives (Item.setsAll body) p.decls q.decls ∧ q.marks = p.marks := by
  simp only [Item.run, Option.bind_eq_some_iff] at h
  obtain ⟨p', h1, h2⟩ := h
  have := restore_ext (Item.runAll_ext cv _ p' body h1) h2
  exact ⟨this.1, this.2.1⟩

theorem survives_find {s : List Text} {l m : List Decl} (h : Survives s l m) (n : Text)
    (hn : ∀ d ∈ l, refers n d.name → ∀ k ∈ s, ¬ refers k d.name) : getParameterEntry m n = getParameterEntry l n := by
  unfold getParameterEntry
  induction l generalizing m with
  | nil =>
    have : m = [] := List.length_eq_zero_iff.1 h.1.symm
    rw [this]
  | cons a l ih =>
    cases m with
    | nil => have := h.1; simp at this
    | cons b m =>
      have h0 := h.2 0 a b rfl rfl
      have ht : Survives s l m := h.drop 1
      have hb : matchesName n b = matchesName n a := by
        rw [Bool.eq_iff_iff, matchesName_iff, matchesName_iff, h0.1]
      rw [List.find?_cons, List.find?_cons, hb]
      cases hm : matchesName n a with
      | true =>
        rcases h0.2.2 with e | ⟨k, hk, hr⟩
        · rw [e]
        · exact absurd hr (hn a (by simp) ((matchesName_iff n a).1 hm) k hk)
      | false => exact ih ht (fun d hd => hn d (by simp [hd]))

/-- Two names that can refer to the same declaration. -/
def related (m n : Text) : Prop := m = n ∨ m = '$' :: n ∨ n = '$' :: m

theorem related_of_refers {m n d : Text} (h1 : refers m d) (h2 : refers n d) : related m n := by
  rcases h1 with rfl | rfl <;> rcases h2 with rfl | rfl
  · exact Or.inl rfl
  · exact Or.inr (Or.inr rfl)
  · exact Or.inr (Or.inl rfl)
  · exact Or.inl rfl

/-- **C20**: a parameter that is not assigned inside a scope reads the same after it, whatever is declared inside. -/
theorem scope_lookup (cv : Conv) (p q : Params) (body : List Item) (n : Text)
    (h : Item.run cv p (.scope body) = some q) (hn : ∀ m ∈ Item.setsAll body, ¬ related m n) :
    getParameterEntry q.decls n = getParameterEntry p.decls n :=
  survives_find (scope_restores cv p q body h).1 n
    (fun _ _ h1 k hk h2 => hn k hk (related_of_refers h2 h1))

theorem find_modifyFirst (n : Text) (f : Decl → Decl) (hf : ∀ d, (f d).name = d.name) (l : List Decl) :
    getParameterEntry (modifyFirst n f l) n = (getParameterEntry l n).map f := by
  unfold getParameterEntry
  induction l with
  | nil => rfl
  | cons d r ih =>
    unfold modifyFirst
    split
    · next h =>
      have : matchesName n (f d) = true := by
        rw [matchesName_iff, hf]; exact (matchesName_iff n d).1 h
      rw [List.find?_cons, List.find?_cons, this, h]; rfl
    · next h => rw [List.find?_cons, List.find?_cons]; simp [h, ih]

/-- Names not declared in front do not change which declaration is found. -/
theorem find_append_avoid {inner outer : List Decl} {n : Text} (h : ∀ d ∈ inner, ¬ refers n d.name) :
    getParameterEntry (inner ++ outer) n = getParameterEntry outer n := by
  unfold getParameterEntry
  rw [List.find?_append]
  have : List.find? (matchesName n) inner = none := by
    rw [List.find?_eq_none]
    intro d hd hm
    exact h d hd ((matchesName_iff n d).1 hm)
  rw [this]; rfl

theorem modifyFirst_append_avoid (n : Text) (f : Decl → Decl) (inner outer : List Decl)
    (h : ∀ d ∈ inner, ¬ refers n d.name) : modifyFirst n f (inner ++ outer) = inner ++ modifyFirst n f outer := by
  induction inner with
  | nil => rfl
  | cons d r ih =>
    have : matchesName n d = false := by
      rw [Bool.eq_false_iff]; intro hm; exact h d (by simp) ((matchesName_iff n d).1 hm)
    rw [List.cons_append, modifyFirst, this]
    simp only [Bool.false_eq_true, if_false, List.cons_append]
    rw [ih (fun d hd => h d (by simp [hd]))]

/-- **C20**: a value assigned inside a scope to a parameter of the surrounding scope (one that the scope itself does not
declare) is still there after the scope. -/
theorem assignment_survives (cv : Conv) (p q : Params) (pre post : List Item) (n v : Text)
    (h : Item.run cv p (.scope (pre ++ .set n v :: post)) = some q)
    (hex : (getParameterEntry p.decls n).isSome)
    (hdecl : ∀ m ∈ Item.declared pre, ¬ refers n m)
    (hset : ∀ m ∈ Item.setsAll post, ¬ related m n) :
    getParameter q.decls n = some v := by
  have happ : ∀ (a b : List Item) (p : Params),
      Item.runAll cv p (a ++ b) = (Item.runAll cv p a).bind (fun p => Item.runAll cv p b) := by
    intro a b
    induction a with
    | nil => intro p; simp [Item.runAll]
    | cons i r ih =>
      intro p
      simp only [List.cons_append, Item.runAll, Option.bind_assoc]
      congr 1
      funext p
      exact ih p
  simp only [Item.run, happ, Option.bind_eq_some_iff] at h
  obtain ⟨p3, ⟨p1, h1, h3⟩, h4⟩ := h
  simp only [Item.runAll, Item.run, Option.bind_some] at h3
  obtain ⟨m1, i1, o1, e1, s1, d1⟩ := Item.runAll_ext cv _ p1 pre h1
  have hav : ∀ d ∈ i1, ¬ refers n d.name := fun d hd => hdecl _ (d1 d hd)
  -- the assignment hits a declaration of the surrounding scope
  have hsome : (getParameterEntry o1 n).isSome := by
    have hs1 : Survives _ p.decls o1 := s1
    unfold getParameterEntry at hex ⊢
    rw [List.find?_isSome] at hex ⊢
    obtain ⟨d, hd, hm⟩ := hex
    obtain ⟨k, hk⟩ := List.mem_iff_getElem?.1 hd
    have hlt : k < o1.length := by rw [← hs1.1]; exact (List.getElem?_eq_some_iff.1 hk).1
    refine ⟨o1[k], List.getElem_mem hlt, ?_⟩
    have := hs1.2 k d _ hk (List.getElem?_eq_getElem hlt)
    rw [matchesName_iff, ← this.1]
    exact (matchesName_iff n d).1 hm
  have hp1 : getParameterEntry p1.decls n = getParameterEntry o1 n := by rw [e1]; exact find_append_avoid hav
  obtain ⟨d0, hd0⟩ := Option.isSome_iff_exists.1 hsome
  -- decls after the assignment
  obtain ⟨f, hf1, hf2, hf3, hset1⟩ : ∃ f : Decl → Decl, (∀ d, (f d).name = d.name) ∧ (∀ d, (f d).type = d.type) ∧
      (∀ d, (f d).str = v) ∧
      (setByString cv p1 n v).1 = { p1 with decls := modifyFirst n f p1.decls } := by
    exact ⟨withString cv v, fun _ => rfl, fun _ => rfl, fun _ => rfl, by unfold setByString; rw [hp1, hd0]⟩
  rw [hset1] at h3
  obtain ⟨m3, i3, o3, e3, s3, d3⟩ := Item.runAll_ext cv _ p3 post h3
  simp only at s3
  rw [e1, modifyFirst_append_avoid n f i1 o1 hav] at s3
  obtain ⟨i4, o4, e4, s4, s5⟩ := survives_split s3
  -- the restore keeps exactly o4
  have hmk : p3.marks = p.decls.length :: p.marks := by rw [m3, m1]; rfl
  have hlen : o4.length = p.decls.length := by
    have a : p.decls.length = o1.length := s1.1
    have b := (modifyFirst_survives n f (fun d => ⟨hf1 d, hf2 d⟩) o1).1
    have c := s5.1
    omega
  have hq : q.decls = o4 := by
    unfold restore at h4
    rw [hmk] at h4
    simp only at h4
    split at h4
    · injection h4 with h4
      subst h4
      simp only
      rw [e3, e4, ← List.append_assoc, List.length_append, hlen, Nat.add_sub_cancel, List.drop_left]
    · cases h4
  have hfin : getParameterEntry o4 n = getParameterEntry (modifyFirst n f o1) n :=
    survives_find s5 n (fun _ _ h1 k hk h2 => hset k hk (related_of_refers h2 h1))
  unfold getParameter
  rw [hq, hfin, find_modifyFirst n f hf1, hd0]
  simp [hf3]

/-- **C20**, **C48**: an assignment changes the first matching declaration, the one a look-up finds, and no other. -/
theorem modifyFirst_exact (n : Text) (f : Decl → Decl) (d : Decl) (l : List Decl) (h : getParameterEntry l n = some d) :
    ∃ a b, l = a ++ d :: b ∧ (∀ e ∈ a, ¬ refers n e.name) ∧ modifyFirst n f l = a ++ f d :: b := by
  unfold getParameterEntry at h
  induction l with
  | nil => simp at h
  | cons e r ih =>
    rw [List.find?_cons] at h
    cases hm : matchesName n e with
    | true =>
      rw [hm] at h
      simp only [Option.some.injEq] at h
      subst h
      exact ⟨[], r, rfl, by simp, by simp [modifyFirst, hm]⟩
    | false =>
      rw [hm] at h
      obtain ⟨a, b, h1, h2, h3⟩ := ih h
      refine ⟨e :: a, b, by rw [h1]; rfl, ?_, by simp [modifyFirst, hm, h3]⟩
      intro x hx
      rcases List.mem_cons.1 hx with rfl | hx
      · intro hr; rw [(matchesName_iff n x).2 hr] at hm; cases hm
      · exact h2 x hx

/-- **C20**: an assignment inside a scope leaves a shadowed declaration alone. -/
theorem assignment_hits_visible (cv : Conv) (p q : Params) (n v : Text) (h : setByString cv p n v = (q, 0)) :
    ∃ a d b, p.decls = a ++ d :: b ∧ (∀ e ∈ a, ¬ refers n e.name) ∧ refers n d.name ∧
      q.decls = a ++ withString cv v d :: b := by
  unfold setByString at h
  split at h
  · injection h with _ h; omega
  · next d hd =>
    injection h with h _
    subst h
    obtain ⟨a, b, h1, h2, h3⟩ := modifyFirst_exact n (withString cv v) d p.decls hd
    exact ⟨a, d, b, h1, h2, (matchesName_iff n d).1 (List.find?_some hd), h3⟩

/-- **C20**: while the scope is open, a declaration shadows an outer one with the same name, unless the outer one was
assigned before; other names are not affected. -/
theorem declare_shadows (cv : Conv) (p q : Params) (x : XDecl) (v : Text) (h : declare cv p x = some q)
    (hclean : ∀ d ∈ p.decls, d.name = x.name → d.dirty = false) (hv : readAttribute cv p.decls x.value = some v)
    (has : ∀ a ∈ p.assignments, a.1 ≠ x.name) :
    getParameter q.decls x.name = some v ∧ getParameter q.decls ('$' :: x.name) = some v ∧
    ∀ n, ¬ refers n x.name → getParameterEntry q.decls n = getParameterEntry p.decls n := by
  have hna : p.assignments.reverse.find? (fun a => a.1 == x.name) = none := by
    rw [List.find?_eq_none]
    intro a ha
    simpa using has a (by simpa using ha)
  have key : ∃ d : Decl, d.name = x.name ∧ d.str = v ∧ q.decls = d :: p.decls := by
    unfold declare at h
    rw [hv] at h
    split at h
    · next w t hw ht =>
      injection hw with hw
      subst hw
      have hav : assignedValue p.assignments x.name v = v := by unfold assignedValue; rw [hna]; rfl
      rw [hav] at h
      split at h
      · next d hd =>
        have := hclean d (List.mem_of_find?_eq_some hd) (by simpa using List.find?_some hd)
        rw [this] at h
        simp only [Bool.false_eq_true, if_false, Option.some.injEq] at h
        subst h
        exact ⟨_, rfl, rfl, rfl⟩
      · injection h with h
        subst h
        exact ⟨_, rfl, rfl, rfl⟩
    · cases h
  obtain ⟨d, h1, h2, h3⟩ := key
  have m1 : matchesName x.name d = true := (matchesName_iff _ _).2 (by rw [h1]; exact Or.inl rfl)
  have m2 : matchesName ('$' :: x.name) d = true := (matchesName_iff _ _).2 (by rw [h1]; exact Or.inr rfl)
  refine ⟨?_, ?_, ?_⟩
  · unfold getParameter getParameterEntry; rw [h3, List.find?_cons, m1]; simp [h2]
  · unfold getParameter getParameterEntry; rw [h3, List.find?_cons, m2]; simp [h2]
  · intro n hn
    unfold getParameterEntry
    have : matchesName n d = false := by
      rw [Bool.eq_false_iff]; intro hm; exact hn (by rw [← h1]; exact (matchesName_iff n d).1 hm)
    rw [h3, List.find?_cons, this]

/-- **C20**: a value assigned by a catalog reference replaces the declared one; of several the last counts. -/
theorem catalog_assignment (cv : Conv) (p q : Params) (x : XDecl) (as bs : List (Text × Text)) (v : Text)
    (h : declare cv p x = some q) (hclean : ∀ d ∈ p.decls, d.name = x.name → d.dirty = false)
    (ha : p.assignments = as ++ (x.name, v) :: bs) (hb : ∀ b ∈ bs, b.1 ≠ x.name) :
    getParameter q.decls x.name = some v := by
  have hav : ∀ w, assignedValue p.assignments x.name w = v := by
    intro w
    unfold assignedValue
    rw [ha, List.reverse_append, List.find?_append, List.reverse_cons, List.find?_append]
    have : bs.reverse.find? (fun b => b.1 == x.name) = none := by
      rw [List.find?_eq_none]
      intro b hbm
      simpa using hb b (by simpa using hbm)
    rw [this]
    simp
  have key : ∃ d : Decl, d.name = x.name ∧ d.str = v ∧ q.decls = d :: p.decls := by
    unfold declare at h
    split at h
    · next w t hw ht =>
      rw [hav] at h
      split at h
      · next d hd =>
        have := hclean d (List.mem_of_find?_eq_some hd) (by simpa using List.find?_some hd)
        rw [this] at h
        simp only [Bool.false_eq_true, if_false, Option.some.injEq] at h
        subst h
        exact ⟨_, rfl, rfl, rfl⟩
      · injection h with h
        subst h
        exact ⟨_, rfl, rfl, rfl⟩
    · cases h
  obtain ⟨d, h1, h2, h3⟩ := key
  have m1 : matchesName x.name d = true := (matchesName_iff _ _).2 (by rw [h1]; exact Or.inl rfl)
  unfold getParameter getParameterEntry
  rw [h3, List.find?_cons, m1]
  simp [h2]

/-! ### The scopes of the scenario reader -/

theorem declareAll_pre (cv : Conv) (xs : List XDecl) : ∀ p q : Params, declareAll cv p xs = some q →
    (∃ inner, q.decls = inner ++ p.decls) ∧ q.marks = p.marks ∧ q.assignments = p.assignments := by
  induction xs with
  | nil => intro p q h; simp only [declareAll, Option.some.injEq] at h; subst h; exact ⟨⟨[], rfl⟩, rfl, rfl⟩
  | cons x xs ih =>
    intro p q h
    simp only [declareAll, Option.bind_eq_some_iff] at h
    obtain ⟨p', h1, h2⟩ := h
    obtain ⟨⟨i, e⟩, m, a⟩ := ih p' q h2
    have hd : (∃ inner, p'.decls = inner ++ p.decls) ∧ p'.marks = p.marks ∧ p'.assignments = p.assignments := by
      unfold declare at h1
      split at h1
      · split at h1
        · split at h1
          · injection h1 with h1; subst h1; exact ⟨⟨[], rfl⟩, rfl, rfl⟩
          · injection h1 with h1; subst h1; exact ⟨⟨[_], rfl⟩, rfl, rfl⟩
        · injection h1 with h1; subst h1; exact ⟨⟨[_], rfl⟩, rfl, rfl⟩
      · cases h1
    obtain ⟨⟨i', e'⟩, m', a'⟩ := hd
    exact ⟨⟨i ++ i', by rw [e, e', List.append_assoc]⟩, m.trans m', a.trans a'⟩

theorem restore_same {q : Params} {inner outer : List Decl} {ms : List Nat} (hd : q.decls = inner ++ outer)
    (hm : q.marks = outer.length :: ms) : restore q = some { decls := outer, marks := ms, assignments := [] } := by
  unfold restore
  rw [hm, hd]
  simp

mutual
/-- The element contains no declarations or scopes of its own. -/
def Node.silent : Node → Bool
  | .maneuver none b => Node.silentAll b
  | _ => false

def Node.silentAll : List Node → Bool
  | [] => true
  | n :: r => Node.silent n && Node.silentAll r
end

/-- No parameters declared. -/
def declaresNothing : Option (List XDecl) → Bool
  | none => true
  | some xs => xs.isEmpty

mutual
/-- Elements that declare parameters contain nothing that opens a scope. -/
def Node.clean : Node → Bool
  | .object ds b => (ds.isEmpty || b.isEmpty) && Node.cleanAll b
  | .trailerRef _ n => Node.clean n
  | .catalog _ n => Node.clean n
  | .maneuver ds b => declaresNothing ds && Node.cleanAll b
  | .story ds b => (declaresNothing ds && Node.cleanAll b) || Node.silentAll b

def Node.cleanAll : List Node → Bool
  | [] => true
  | n :: r => Node.clean n && Node.cleanAll r
end

mutual
theorem read_silent (cv : Conv) (p q : Params) : ∀ n : Node, n.silent = true → read cv p n = some q → q = p
  | .maneuver none b, h, hr => by
    simp only [Node.silent] at h
    simp only [read, optDeclare, Option.bind_some] at hr
    exact readAll_silent cv p q b h hr
  | .maneuver (some _) b, h, hr => by simp [Node.silent] at h
  | .object _ _, h, hr => by simp [Node.silent] at h
  | .trailerRef _ _, h, hr => by simp [Node.silent] at h
  | .catalog _ _, h, hr => by simp [Node.silent] at h
  | .story _ _, h, hr => by simp [Node.silent] at h

theorem readAll_silent (cv : Conv) (p q : Params) : ∀ l : List Node, Node.silentAll l = true → readAll cv p l = some q → q = p
  | [], _, hr => by simp only [readAll, Option.some.injEq] at hr; exact hr.symm
  | n :: r, h, hr => by
    simp only [Node.silentAll, Bool.and_eq_true] at h
    simp only [readAll, Option.bind_eq_some_iff] at hr
    obtain ⟨p', h1, h2⟩ := hr
    have := read_silent cv p p' n h.1 h1
    subst this
    exact readAll_silent cv p' q r h.2 h2
end

/-- Same declarations; some left-over marks that all equal the current number of declarations. -/
def Kept (p q : Params) : Prop :=
  q.decls = p.decls ∧ ∃ k, q.marks = List.replicate k p.decls.length ++ p.marks

theorem Kept.refl (p : Params) : Kept p p := ⟨rfl, 0, rfl⟩

theorem Kept.trans {p q r : Params} (h1 : Kept p q) (h2 : Kept q r) : Kept p r := by
  obtain ⟨a, k, b⟩ := h1
  obtain ⟨c, j, d⟩ := h2
  refine ⟨c.trans a, j + k, ?_⟩
  rw [d, b, a, ← List.append_assoc, List.replicate_append_replicate]

/-- After a scope was opened at the same size, a restore keeps the declarations. -/
theorem kept_restore {p q r : Params} {ms : List Nat} (h : Kept p q) (hm : p.marks = p.decls.length :: ms)
    (hr : restore q = some r) : r.decls = p.decls ∧ ∃ k, r.marks = List.replicate k p.decls.length ++ ms := by
  obtain ⟨a, k, b⟩ := h
  have hq : q.marks = p.decls.length :: (List.replicate k p.decls.length ++ ms) := by
    rw [b, hm]
    clear b hm
    induction k with
    | zero => rfl
    | succ k ih => rw [List.replicate_succ, List.cons_append, ih, List.cons_append]
  rw [restore_same (inner := []) (outer := p.decls) (by simpa using a) hq] at hr
  injection hr with hr
  subst hr
  exact ⟨rfl, k, rfl⟩

theorem replicate_cons (k m : Nat) (l : List Nat) : List.replicate k m ++ m :: l = List.replicate (k + 1) m ++ l := by
  induction k with
  | zero => rfl
  | succ k ih => rw [List.replicate_succ, List.cons_append, ih, List.replicate_succ (n := k + 1), List.cons_append]

mutual
theorem read_clean (cv : Conv) (p q : Params) : ∀ n : Node, n.clean = true → read cv p n = some q → Kept p q
  | .object ds b, h, hr => by
    simp only [Node.clean, Bool.and_eq_true, Bool.or_eq_true] at h
    simp only [read, Option.bind_eq_some_iff] at hr
    obtain ⟨p2, ⟨p1, h1, h2⟩, h3⟩ := hr
    rcases h.1 with he | he
    · have : ds = [] := by simpa using he
      subst this
      simp only [addParameterDeclarations, declareAll, Option.some.injEq] at h1
      subst h1
      have hk := readAll_clean cv _ p2 b h.2 h2
      obtain ⟨a, k, c⟩ := kept_restore hk rfl h3
      refine ⟨a, k + 1, ?_⟩
      rw [c]
      exact replicate_cons _ _ _
    · have : b = [] := by simpa using he
      subst this
      simp only [readAll, Option.some.injEq] at h2
      subst h2
      obtain ⟨⟨i, e⟩, m, _⟩ := declareAll_pre cv ds _ _ h1
      rw [restore_same (inner := i) (outer := p.decls) e m] at h3
      injection h3 with h3
      subst h3
      exact ⟨rfl, 1, rfl⟩
  | .trailerRef as n, h, hr => by
    simp only [Node.clean] at h
    simp only [read] at hr
    exact read_clean cv { p with assignments := p.assignments ++ as } q n h hr
  | .catalog as n, h, hr => by
    simp only [Node.clean] at h
    simp only [read, Option.bind_eq_some_iff] at hr
    obtain ⟨p1, h1, h2⟩ := hr
    have hk := read_clean cv _ p1 n h h1
    have := kept_restore hk rfl h2
    exact this
  | .maneuver ds b, h, hr => by
    simp only [Node.clean, Bool.and_eq_true] at h
    simp only [read, Option.bind_eq_some_iff] at hr
    obtain ⟨p1, h1, h2⟩ := hr
    have hk1 : Kept p p1 := by
      cases ds with
      | none => simp only [optDeclare, Option.some.injEq] at h1; subst h1; exact Kept.refl p
      | some xs =>
        have : xs = [] := by simpa [declaresNothing] using h.1
        subst this
        simp only [optDeclare, addParameterDeclarations, declareAll, Option.some.injEq] at h1
        subst h1
        exact ⟨rfl, 1, rfl⟩
    exact hk1.trans (readAll_clean cv p1 q b h.2 h2)
  | .story ds b, h, hr => by
    simp only [Node.clean, Bool.or_eq_true, Bool.and_eq_true] at h
    simp only [read, Option.bind_eq_some_iff] at hr
    obtain ⟨p2, ⟨p1, h1, h2⟩, h3⟩ := hr
    rcases h with ⟨hn, hb⟩ | hs
    · have hk1 : Kept (createRestorePoint p) p1 := by
        cases ds with
        | none => simp only [optDeclare, Option.some.injEq] at h1; subst h1; exact Kept.refl _
        | some xs =>
          have : xs = [] := by simpa [declaresNothing] using hn
          subst this
          simp only [optDeclare, addParameterDeclarations, declareAll, Option.some.injEq] at h1
          subst h1
          exact ⟨rfl, 1, rfl⟩
      have hk := hk1.trans (readAll_clean cv p1 p2 b hb h2)
      have := kept_restore hk rfl h3
      exact this
    · have := readAll_silent cv p1 p2 b hs h2
      subst this
      cases ds with
      | none =>
        simp only [optDeclare, Option.some.injEq] at h1
        subst h1
        have := kept_restore (Kept.refl (createRestorePoint p)) rfl h3
        exact this
      | some xs =>
        simp only [optDeclare] at h1
        obtain ⟨⟨i, e⟩, m, _⟩ := declareAll_pre cv xs _ _ h1
        rw [restore_same (inner := i) (outer := p.decls) e m] at h3
        injection h3 with h3
        subst h3
        exact ⟨rfl, 1, rfl⟩

theorem readAll_clean (cv : Conv) (p q : Params) : ∀ l : List Node, Node.cleanAll l = true → readAll cv p l = some q → Kept p q
  | [], _, hr => by simp only [readAll, Option.some.injEq] at hr; subst hr; exact Kept.refl p
  | n :: r, h, hr => by
    simp only [Node.cleanAll, Bool.and_eq_true] at h
    simp only [readAll, Option.bind_eq_some_iff] at hr
    obtain ⟨p', h1, h2⟩ := hr
    exact (read_clean cv p p' n h.1 h1).trans (readAll_clean cv p' q r h.2 h2)
end

/-- **C20, partial**: reading elements leaves the parameters exactly as they were, if elements that declare parameters
contain nothing that opens a scope itself. Missing: all other scenarios, see the witnesses below. -/
theorem reader_restores_partial (cv : Conv) (p q : Params) (l : List Node) (h : Node.cleanAll l = true)
    (hr : readAll cv p l = some q) : q.decls = p.decls :=
  (readAll_clean cv p q l h hr).1

/-! Concrete library functions and scenarios. -/

def cv0 : Conv :=
  { strtoi := fun t => t.length, strtod := fun t => t.length, fmtInt := fun _ => [], fmtDouble := fun _ => [],
    eval := fun _ _ => none }

def empty : Params := ⟨[], [], []⟩
def xd (n v : String) : XDecl := ⟨n.toList, v.toList, some .string⟩

/-- A global parameter `speed` with value 10. -/
def globals : Params := { empty with decls := [newDecl cv0 "speed".toList "10".toList .string] }

example : Node.cleanAll [.catalog [("speed".toList, "30".toList)] (.object [xd "speed" "20"] []),
    .story none [.maneuver none [.object [xd "a" "1"] []]], .story (some [xd "speed" "5"]) [.maneuver none []]] = true := by
  decide
example : ((readAll cv0 globals [.catalog [("speed".toList, "30".toList)] (.object [xd "speed" "20"] []),
    .story none [.maneuver none [.object [xd "a" "1"] []]]]).map (·.decls)) = some globals.decls := by decide
example : ((Item.run cv0 globals (.scope [.declare (xd "a" "1"), .scope [.declare (xd "speed" "2")],
    .set "$speed".toList "7".toList])).map (fun p => getParameter p.decls "speed".toList)) = some (some "7".toList) := by
  decide

/-- **C20 fails**: the parameter of a vehicle with a trailer stays declared after the vehicle and hides the global
parameter of the same name. -/
theorem vehicle_with_trailer_fails : ∃ (p q : Params) (n : Node), n = .object [xd "speed" "20"] [.object [] []] ∧
    read cv0 p n = some q ∧ getParameter p.decls "$speed".toList = some "10".toList ∧
    getParameter q.decls "$speed".toList = some "20".toList :=
  ⟨globals, ⟨newDecl cv0 "speed".toList "20".toList .string :: globals.decls, [1, 1], []⟩, _, rfl, by decide, by decide, by decide⟩

/-- **C20 fails**: the parameter of a story stays declared after the story, if an event of it contains a controller. -/
theorem story_fails : ∃ (p q : Params) (n : Node), n = .story (some [xd "speed" "20"]) [.maneuver none [.object [] []]] ∧
    read cv0 p n = some q ∧ getParameter p.decls "$speed".toList = some "10".toList ∧
    getParameter q.decls "$speed".toList = some "20".toList :=
  ⟨globals, ⟨newDecl cv0 "speed".toList "20".toList .string :: globals.decls, [1, 1], []⟩, _, rfl, by decide, by decide, by decide⟩

/-- **C20 fails**: the parameters of a maneuver stay declared for the following maneuver and, with two such maneuvers, after
the story. -/
theorem maneuver_fails : ∃ (p q : Params) (n : Node), n = .story none [.maneuver (some [xd "speed" "20"]) [],
      .maneuver (some [xd "a" "1"]) []] ∧ read cv0 p n = some q ∧
    getParameter p.decls "$speed".toList = some "10".toList ∧ getParameter q.decls "$speed".toList = some "20".toList :=
  ⟨globals, ⟨newDecl cv0 "speed".toList "20".toList .string :: globals.decls, [1, 1], []⟩, _, rfl, by decide, by decide, by decide⟩

/-- **C20 fails**: a declaration does not shadow an outer parameter that was assigned before. -/
theorem shadow_assigned_fails : ∃ (p q : Params) (x : XDecl), declare cv0 p x = some q ∧ p.assignments = [] ∧
    x.value = "20".toList ∧ getParameter q.decls x.name = some "11".toList :=
  ⟨(setByString cv0 globals "speed".toList "11".toList).1, (setByString cv0 globals "speed".toList "11".toList).1,
    xd "speed" "20", by decide, by decide, by decide, by decide⟩

/-! ### C48: values set through the API -/

theorem setTyped_spec (t : PType) (f : Decl → Decl) (p q : Params) (n : Text) (r : Int)
    (h : setTyped t f p n = (q, r)) (hf : ∀ d, (f d).name = d.name ∧ (f d).type = d.type) :
    (r = 0 ∧ (∃ d, getParameterEntry p.decls n = some d ∧ d.type = t ∧ getParameterEntry q.decls n = some (f d)) ∧
      Survives [n] p.decls q.decls) ∨
    (r = -1 ∧ q = p ∧ ∀ d, getParameterEntry p.decls n = some d → d.type ≠ t) := by
  unfold setTyped at h
  split at h
  · next hn =>
    injection h with h1 h2
    exact Or.inr ⟨h2.symm, h1.symm, by simp [hn]⟩
  · next d hd =>
    split at h
    · next ht =>
      injection h with h1 h2
      refine Or.inr ⟨h2.symm, h1.symm, ?_⟩
      intro d' hd'; rw [hd] at hd'; cases hd'; exact ht
    · next ht =>
      injection h with h1 h2
      subst h1
      refine Or.inl ⟨h2.symm, ⟨d, hd, Decidable.not_not.1 ht, ?_⟩, modifyFirst_survives n f hf _⟩
      show getParameterEntry (modifyFirst n f p.decls) n = _
      rw [find_modifyFirst n f (fun d => (hf d).1), hd]; rfl

/-- **C48**: an integer that is accepted is read back. -/
theorem setInt_get (cv : Conv) (p q : Params) (n : Text) (v : Int) (h : setInt cv p n v = (q, 0)) :
    getInt q n = some v ∧ getAsString cv q n = cv.fmtInt v := by
  rcases setTyped_spec _ _ p q n 0 h (fun d => ⟨rfl, rfl⟩) with ⟨_, ⟨d, h1, h2, h3⟩, _⟩ | ⟨h1, _⟩
  · simp [getInt, getAsString, h3, h2]
  · omega

/-- **C48**: a number that is accepted is read back. -/
theorem setDouble_get (cv : Conv) (p q : Params) (n : Text) (v : Rat) (h : setDouble cv p n v = (q, 0)) :
    getDouble q n = some v ∧ getAsString cv q n = cv.fmtDouble v := by
  rcases setTyped_spec _ _ p q n 0 h (fun d => ⟨rfl, rfl⟩) with ⟨_, ⟨d, h1, h2, h3⟩, _⟩ | ⟨h1, _⟩
  · simp [getDouble, getAsString, h3, h2]
  · omega

/-- **C48**: a string that is accepted is read back. -/
theorem setStr_get (cv : Conv) (p q : Params) (n v : Text) (h : setStr p n v = (q, 0)) :
    getStr q n = some v ∧ getAsString cv q n = v ∧ getParameter q.decls n = some v := by
  rcases setTyped_spec _ _ p q n 0 h (fun d => ⟨rfl, rfl⟩) with ⟨_, ⟨d, h1, h2, h3⟩, _⟩ | ⟨h1, _⟩
  · simp [getStr, getAsString, getParameter, h3, h2]
  · omega

/-- **C48**: a truth value that is accepted is read back. -/
theorem setBool_get (cv : Conv) (p q : Params) (n : Text) (v : Bool) (h : setBool p n v = (q, 0)) :
    getBool q n = some v ∧ getAsString cv q n = (if v then "true".toList else "false".toList) := by
  rcases setTyped_spec _ _ p q n 0 h (fun d => ⟨rfl, rfl⟩) with ⟨_, ⟨d, h1, h2, h3⟩, _⟩ | ⟨h1, _⟩
  · simp [getBool, getAsString, h3, h2]
  · omega

/-- **C48**: a setter is accepted exactly if the parameter exists and has that type; a refused call changes nothing. -/
theorem setters_accept (cv : Conv) (p : Params) (n : Text) (i : Int) (x : Rat) (s : Text) (b : Bool) :
    ((setInt cv p n i).2 = 0 ↔ (getInt p n).isSome) ∧ ((setDouble cv p n x).2 = 0 ↔ (getDouble p n).isSome) ∧
    ((setStr p n s).2 = 0 ↔ (getStr p n).isSome) ∧ ((setBool p n b).2 = 0 ↔ (getBool p n).isSome) ∧
    ((setInt cv p n i).2 ≠ 0 → (setInt cv p n i).1 = p) ∧ ((setDouble cv p n x).2 ≠ 0 → (setDouble cv p n x).1 = p) ∧
    ((setStr p n s).2 ≠ 0 → (setStr p n s).1 = p) ∧ ((setBool p n b).2 ≠ 0 → (setBool p n b).1 = p) := by
  unfold setInt setDouble setStr setBool setTyped getInt getDouble getStr getBool
  cases h : getParameterEntry p.decls n with
  | none => simp
  | some d => cases ht : d.type <;> simp [ht]

/-- **C48**: an accepted call changes only the declaration a look-up finds; a shadowed one keeps its value. -/
theorem setTyped_exact (t : PType) (f : Decl → Decl) (p q : Params) (n : Text) (h : setTyped t f p n = (q, 0)) :
    ∃ a d b, p.decls = a ++ d :: b ∧ (∀ e ∈ a, ¬ refers n e.name) ∧ refers n d.name ∧ q.decls = a ++ f d :: b := by
  unfold setTyped at h
  split at h
  · injection h with _ h; omega
  · next d hd =>
    split at h
    · injection h with _ h; omega
    · injection h with h _
      subst h
      obtain ⟨a, b, h1, h2, h3⟩ := modifyFirst_exact n f d p.decls hd
      exact ⟨a, d, b, h1, h2, (matchesName_iff n d).1 (List.find?_some hd), h3⟩

/-- **C48**: a call does not change a parameter with an unrelated name. -/
theorem setters_frame (cv : Conv) (p : Params) (n m : Text) (i : Int) (x : Rat) (s : Text) (b : Bool) (h : ¬ related n m) :
    getParameterEntry (setInt cv p n i).1.decls m = getParameterEntry p.decls m ∧
    getParameterEntry (setDouble cv p n x).1.decls m = getParameterEntry p.decls m ∧
    getParameterEntry (setStr p n s).1.decls m = getParameterEntry p.decls m ∧
    getParameterEntry (setBool p n b).1.decls m = getParameterEntry p.decls m ∧
    getParameterEntry (setByString cv p n s).1.decls m = getParameterEntry p.decls m := by
  have key : ∀ q : Params, Survives [n] p.decls q.decls → getParameterEntry q.decls m = getParameterEntry p.decls m :=
    fun q hq => survives_find hq m (fun d _ h1 k hk h2 => by
      simp at hk; subst hk; exact h (related_of_refers h2 h1))
  have typed : ∀ t f, (∀ d : Decl, (f d).name = d.name ∧ (f d).type = d.type) →
      getParameterEntry (setTyped t f p n).1.decls m = getParameterEntry p.decls m := by
    intro t f hf
    rcases setTyped_spec t f p (setTyped t f p n).1 n (setTyped t f p n).2 rfl hf with ⟨_, _, h3⟩ | ⟨_, h2, _⟩
    · exact key _ h3
    · rw [h2]
  refine ⟨typed _ _ (fun d => ⟨rfl, rfl⟩), typed _ _ (fun d => ⟨rfl, rfl⟩), typed _ _ (fun d => ⟨rfl, rfl⟩),
    typed _ _ (fun d => ⟨rfl, rfl⟩), ?_⟩
  obtain ⟨_, i, o, e, hs, hi⟩ := setByString_ext cv p n s
  have : i = [] := by
    cases i with
    | nil => rfl
    | cons d _ => exact absurd (hi d (by simp)) (by simp)
  subst this
  rw [List.nil_append] at e
  exact key _ (by rw [e]; exact hs)

/-- **C48**: setting by text converts to the declared type. -/
theorem setByString_get (cv : Conv) (p q : Params) (n v : Text) (h : setByString cv p n v = (q, 0)) :
    getParameter q.decls n = some v ∧
    (∀ i, getInt p n = some i → getInt q n = some (cv.strtoi v)) ∧
    (∀ i, getDouble p n = some i → getDouble q n = some (cv.strtod v)) ∧
    (∀ i, getStr p n = some i → getStr q n = some v) ∧
    (∀ i, getBool p n = some i → getBool q n = some (v == "true".toList)) := by
  unfold setByString at h
  split at h
  · injection h with _ h; omega
  · next d hd =>
    injection h with h _
    subst h
    have hg := find_modifyFirst n (withString cv v) (fun _ => rfl) p.decls
    rw [hd] at hg
    simp only [Option.map_some] at hg
    unfold getParameter getInt getDouble getStr getBool
    simp only [hg, hd, Option.map_some, Option.bind_some]
    cases ht : d.type <;> simp [ht, withString]

example : (setInt cv0 { empty with decls := [newDecl cv0 "n".toList "10".toList .integer] } "$n".toList 7).2 = 0 := by decide
example : (setBool globals "speed".toList true).2 = -1 := by decide

end Verif.Params
