import Verif.File.Spec

/-!
# Lemmas on paths
-/

namespace Verif.File

/-- The segments of a path. -/
abbrev segs (s : Text) : List Text := s.splitOnP (fun c => c == '/' || c == '\\')

theorem split_slash (s : Text) : (s.map slash).splitOn '/' = segs s := by
  induction s with
  | nil => rfl
  | cons c r ih =>
    rw [List.map_cons, List.splitOn_cons_eq_if_modifyHead, segs,
      List.splitOnP_cons_eq_if_modifyHead, ih]
    by_cases h1 : c = '\\'
    · subst h1; simp [slash]
    · by_cases h2 : c = '/'
      · subst h2; simp [slash]
      · simp [slash, h1, h2]

theorem seg_clean (s : Text) : ∀ g ∈ segs s, ∀ c ∈ g, c ≠ '/' ∧ c ≠ '\\' := by
  induction s with
  | nil => intro g hg; simp [segs] at hg; subst hg; simp
  | cons c r ih =>
    intro g hg
    simp only [segs, List.splitOnP_cons_eq_if_modifyHead] at hg
    split at hg
    · rcases List.mem_cons.1 hg with rfl | hg
      · simp
      · exact ih g hg
    · rename_i hc
      have hne := List.splitOnP_ne_nil (fun c => c == '/' || c == '\\') r
      cases hs : List.splitOnP (fun c => c == '/' || c == '\\') r with
      | nil => exact absurd hs hne
      | cons a t =>
        rw [hs, List.modifyHead_cons] at hg
        simp only [segs, hs] at ih
        simp at hc
        rcases List.mem_cons.1 hg with rfl | hg
        · intro d hd
          rcases List.mem_cons.1 hd with rfl | hd
          · exact hc
          · exact ih a (by simp) d hd
        · exact ih g (by simp [hg])

theorem abs_iff (s : Text) : isAbsolute s = true ↔ Rooted s := by
  cases s with
  | nil => simp [isAbsolute, Rooted]
  | cons c r =>
    simp only [isAbsolute, List.map_cons, slash, Rooted, beq_iff_eq]
    constructor
    · intro h
      refine ⟨c, r, rfl, ?_⟩
      split at h
      · right; assumption
      · left; exact h
    · rintro ⟨c', r', h, hc⟩
      cases h
      rcases hc with rfl | rfl <;> simp

/-- A stack of components as built by the normalization: proper names above
leading `..`, none for a rooted path. -/
def Good (abs : Bool) : List Text → Prop
  | [] => True
  | g :: r => g ≠ [] ∧ g ≠ ['.'] ∧ (∀ c ∈ g, c ≠ '/' ∧ c ≠ '\\') ∧
      (g = ['.', '.'] → abs = false ∧ ∀ h ∈ r, h = ['.', '.']) ∧ Good abs r

theorem push_good {abs : Bool} {st : List Text} {g : Text} (h : Good abs st)
    (hg : ∀ c ∈ g, c ≠ '/' ∧ c ≠ '\\') : Good abs (pushSeg abs st g) := by
  unfold pushSeg
  split
  · exact h
  rename_i h1
  simp only [not_or] at h1
  split
  · rename_i h2
    subst h2
    cases st with
    | nil =>
      cases abs
      · simp only [Bool.false_eq_true, if_false]
        exact ⟨h1.1, h1.2, hg, fun _ => ⟨rfl, by simp⟩, trivial⟩
      · simp [Good]
    | cons t r =>
      simp only
      split
      · exact h.2.2.2.2
      · rename_i h3
        have h3 := Classical.not_not.1 h3
        obtain ⟨ha, hr⟩ := h.2.2.2.1 h3
        refine ⟨h1.1, h1.2, hg, fun _ => ⟨ha, ?_⟩, h⟩
        intro x hx
        rcases List.mem_cons.1 hx with rfl | hx
        · exact h3
        · exact hr x hx
  · rename_i h2
    exact ⟨h1.1, h1.2, hg, fun e => absurd e h2, h⟩

theorem fold_good {abs : Bool} (l : List Text) (hl : ∀ g ∈ l, ∀ c ∈ g, c ≠ '/' ∧ c ≠ '\\') :
    ∀ st, Good abs st → Good abs (l.foldl (pushSeg abs) st) := by
  induction l with
  | nil => intro st h; exact h
  | cons g r ih =>
    intro st h
    exact ih (fun x hx => hl x (by simp [hx])) _ (push_good h (hl g (by simp)))

/-- The location of a stack. -/
def eval (base : Loc) (st : List Text) : Loc := st.foldr (fun g l => walk l g) base

theorem push_eval {abs : Bool} {base : Loc} (hb : abs = true → base = []) {st : List Text}
    (h : Good abs st) (g : Text) :
    eval base (pushSeg abs st g) = walk (eval base st) g := by
  unfold pushSeg
  split
  · rename_i h1; simp [walk, h1]
  rename_i h1
  split
  · rename_i h2
    subst h2
    cases st with
    | nil =>
      cases abs
      · rfl
      · simp [eval, walk, hb rfl]
    | cons t r =>
      simp only
      split
      · rename_i h3
        have ht : walk (eval base r) t = t :: eval base r := by
          unfold walk
          rw [if_neg (by simp [h.1, h.2.1]), if_neg h3]
        have : eval base (t :: r) = t :: eval base r := ht
        rw [this]
        simp [walk]
      · rfl
  · rfl

theorem fold_eval {abs : Bool} {base : Loc} (hb : abs = true → base = []) (l : List Text)
    (hl : ∀ g ∈ l, ∀ c ∈ g, c ≠ '/' ∧ c ≠ '\\') :
    ∀ st, Good abs st → eval base (l.foldl (pushSeg abs) st) = l.foldl walk (eval base st) := by
  induction l with
  | nil => intro st h; rfl
  | cons g r ih =>
    intro st h
    rw [List.foldl_cons, ih (fun x hx => hl x (by simp [hx])) _ (push_good h (hl g (by simp))),
      push_eval hb h, List.foldl_cons]

theorem eval_reverse (base : Loc) (st : List Text) : eval base st = st.reverse.foldl walk base := by
  rw [List.foldl_reverse]; rfl

theorem good_mem {abs : Bool} {st : List Text} (h : Good abs st) :
    ∀ g ∈ st, g ≠ [] ∧ g ≠ ['.'] ∧ ∀ c ∈ g, c ≠ '/' ∧ c ≠ '\\' := by
  induction st with
  | nil => simp
  | cons a r ih =>
    intro g hg
    rcases List.mem_cons.1 hg with rfl | hg
    · exact ⟨h.1, h.2.1, h.2.2.1⟩
    · exact ih h.2.2.2.2 g hg

theorem segs_join : ∀ (l : List Text), l ≠ [] → (∀ g ∈ l, ∀ c ∈ g, c ≠ '/' ∧ c ≠ '\\') →
    segs (join l) = l
  | [], h, _ => absurd rfl h
  | [a], _, h => by
    simp only [join, segs]
    rw [List.splitOnP_eq_singleton]
    intro c hc
    have := h a (by simp) c hc
    simp [this.1, this.2]
  | a :: b :: r, _, h => by
    simp only [join, segs]
    rw [List.splitOnP_append_cons_of_forall_mem]
    · rw [show List.splitOnP (fun c => c == '/' || c == '\\') (join (b :: r)) = b :: r from
        segs_join (b :: r) (by simp) (fun g hg => h g (by simp [List.mem_cons.1 hg]))]
    · intro c hc
      have := h a (by simp) c hc
      simp [this.1, this.2]
    · rfl

theorem join_head : ∀ (l : List Text), l ≠ [] →
    (∀ g ∈ l, g ≠ [] ∧ ∀ c ∈ g, c ≠ '/' ∧ c ≠ '\\') →
    ∃ c r, join l = c :: r ∧ c ≠ '/' ∧ c ≠ '\\'
  | [], h, _ => absurd rfl h
  | [] :: _, _, h => absurd rfl (h [] (by simp)).1
  | [c :: t], _, h => ⟨c, t, rfl, (h (c :: t) (by simp)).2 c (by simp)⟩
  | (c :: t) :: b :: r, _, h =>
    ⟨c, t ++ '/' :: join (b :: r), rfl, (h (c :: t) (by simp)).2 c (by simp)⟩

/-- The stack left by the loop of the normalization. -/
theorem stack_good (s : Text) : Good (isAbsolute s) (components s).reverse := by
  unfold components
  rw [List.reverse_reverse, split_slash]
  exact fold_good _ (seg_clean s) [] trivial

theorem comps_mem (s : Text) :
    ∀ g ∈ components s, g ≠ [] ∧ g ≠ ['.'] ∧ ∀ c ∈ g, c ≠ '/' ∧ c ≠ '\\' := by
  intro g hg
  exact good_mem (stack_good s) g (by simp [hg])

/-- The three shapes of a normalized path. -/
theorem normalize_cases (s : Text) :
    (isAbsolute s = true ∧ normalize s = '/' :: join (components s)) ∨
    (isAbsolute s = false ∧ components s = [] ∧ normalize s = ['.']) ∨
    (isAbsolute s = false ∧ components s ≠ [] ∧ normalize s = join (components s)) := by
  cases ha : isAbsolute s
  · by_cases hc : components s = []
    · right; left; simp [normalize, ha, hc, join]
    · right; right
      obtain ⟨c, r, h, _⟩ := join_head _ hc (fun g hg =>
        ⟨(comps_mem s g hg).1, (comps_mem s g hg).2.2⟩)
      refine ⟨rfl, hc, ?_⟩
      simp [normalize, ha, h]
  · left; simp [normalize, ha]

/-- A normalized path begins at the root if the path does. -/
theorem normalize_abs (s : Text) : isAbsolute (normalize s) = isAbsolute s := by
  rcases normalize_cases s with ⟨h1, h2⟩ | ⟨h1, -, h2⟩ | ⟨h1, hc, h2⟩
  · rw [h1, h2]; rfl
  · rw [h1, h2]; rfl
  · obtain ⟨c, r, h, h3, h4⟩ := join_head _ hc (fun g hg =>
        ⟨(comps_mem s g hg).1, (comps_mem s g hg).2.2⟩)
    rw [h1, h2, h]
    simp [isAbsolute, slash, h3, h4]

/-- The segments of a normalized path. -/
theorem segs_normalize (s : Text) :
    segs (normalize s) = (if isAbsolute s then [[]] else []) ++
      (if components s = [] then [if isAbsolute s then [] else ['.']] else components s) := by
  rcases normalize_cases s with ⟨h1, h2⟩ | ⟨h1, hc, h2⟩ | ⟨h1, hc, h2⟩
  · rw [h1, h2]
    have : segs ('/' :: join (components s)) = [] :: segs (join (components s)) := by
      simp [segs, List.splitOnP_cons_eq_if_modifyHead]
    rw [this]
    by_cases hc : components s = []
    · simp [hc, join, segs]
    · rw [segs_join _ hc (fun g hg => (comps_mem s g hg).2.2)]
      simp [hc]
  · rw [h1, h2, hc]; rfl
  · rw [h1, h2, segs_join _ hc (fun g hg => (comps_mem s g hg).2.2)]
    simp [hc]

/-- Pushing the components of a good stack onto the empty stack gives it back. -/
theorem fold_self {abs : Bool} : ∀ {st : List Text}, Good abs st →
    st.reverse.foldl (pushSeg abs) [] = st
  | [], _ => rfl
  | g :: r, h => by
    rw [List.reverse_cons, List.foldl_append, fold_self h.2.2.2.2, List.foldl_cons, List.foldl_nil]
    unfold pushSeg
    rw [if_neg (by simp [h.1, h.2.1])]
    split
    · rename_i hg
      obtain ⟨ha, hr⟩ := h.2.2.2.1 hg
      cases r with
      | nil => simp [ha]
      | cons t r => simp [hr t (by simp)]
    · rfl

theorem resolve_def (cwd : Loc) (s : Text) :
    resolve cwd s = (segs s).foldl walk (if isAbsolute s then [] else cwd) := by
  simp only [resolve, abs_iff, segs]

/-! ### The last separator -/

theorem findLast_none {p : Char → Bool} : ∀ {s : Text}, findLast p s = none ↔ ∀ c ∈ s, p c = false
  | [] => by simp [findLast]
  | c :: r => by
    simp only [findLast, Option.or_eq_none_iff, Option.map_eq_none_iff, findLast_none,
      List.mem_cons, forall_eq_or_imp]
    by_cases h : p c <;> simp [h]

theorem findLast_some {p : Char → Bool} : ∀ {s : Text} {i : Nat}, findLast p s = some i ↔
    ∃ a c b, s = a ++ c :: b ∧ a.length = i ∧ p c = true ∧ ∀ x ∈ b, p x = false
  | [], i => by simp [findLast]
  | c :: r, i => by
    simp only [findLast]
    cases h : findLast p r with
    | none =>
      have hn := findLast_none.1 h
      simp only [Option.map_none, Option.none_or]
      constructor
      · intro hi
        split at hi
        · rename_i hp
          cases hi
          exact ⟨[], c, r, rfl, rfl, hp, hn⟩
        · cases hi
      · rintro ⟨a, d, b, hs, hl, hp, hb⟩
        cases a with
        | nil => cases hs; simp [hp, ← hl]
        | cons x a =>
          simp only [List.cons_append, List.cons.injEq] at hs
          have := hn d (by rw [hs.2]; simp)
          simp [hp] at this
    | some j =>
      obtain ⟨a, d, b, hs, hl, hp, hb⟩ := findLast_some.1 h
      simp only [Option.map_some, Option.some_or, Option.some.injEq]
      constructor
      · intro hi
        exact ⟨c :: a, d, b, by rw [hs]; rfl, by simp [hl, hi], hp, hb⟩
      · rintro ⟨a', d', b', hs', hl', hp', hb'⟩
        cases a' with
        | nil =>
          cases hs'
          have := hb' d (by rw [hs]; simp)
          simp [hp] at this
        | cons x a' =>
          simp only [List.cons_append, List.cons.injEq] at hs'
          have := (findLast_some (p := p) (s := r) (i := a'.length)).2
            ⟨a', d', b', hs'.2, rfl, hp', hb'⟩
          rw [h] at this
          cases this
          simpa using hl'

theorem isSep_iff {c : Char} : isSep c = true ↔ c = '/' ∨ c = '\\' := by simp [isSep]

theorem isSep_false {c : Char} : isSep c = false ↔ c ≠ '/' ∧ c ≠ '\\' := by simp [isSep]

/-- A path without a separator, or one with its last separator. -/
theorem sep_cases (s : Text) :
    ((∀ c ∈ s, c ≠ '/' ∧ c ≠ '\\') ∧ findLast isSep s = none) ∨
    ∃ d c n, s = d ++ c :: n ∧ (c = '/' ∨ c = '\\') ∧ (∀ x ∈ n, x ≠ '/' ∧ x ≠ '\\') ∧
      findLast isSep s = some d.length := by
  cases h : findLast isSep s with
  | none =>
    left
    exact ⟨fun c hc => isSep_false.1 (findLast_none.1 h c hc), rfl⟩
  | some i =>
    right
    obtain ⟨a, c, b, hs, hl, hp, hb⟩ := findLast_some.1 h
    exact ⟨a, c, b, hs, isSep_iff.1 hp, fun x hx => isSep_false.1 (hb x hx), by rw [hl]⟩

theorem isName_fileNameOf (s : Text) : IsName s (fileNameOf s) := by
  rcases sep_cases s with ⟨h, hf⟩ | ⟨d, c, n, hs, hc, hn, hf⟩
  · simp only [fileNameOf, hf]
    exact ⟨h, Or.inl rfl⟩
  · have : fileNameOf s = n := by simp only [fileNameOf, hf]; rw [hs]; simp
    rw [this]
    exact ⟨hn, Or.inr ⟨d, c, hs, hc⟩⟩

theorem isName_unique {s n m : Text} (h : IsName s n) (h' : IsName s m) : n = m := by
  have key : ∀ {d : Text} {c : Char} {n m : Text}, (c = '/' ∨ c = '\\') → d ++ c :: n = m →
      (∀ x ∈ m, x ≠ '/' ∧ x ≠ '\\') → False := by
    intro d c n m hc hm hx
    have := hx c (by rw [← hm]; simp)
    rcases hc with rfl | rfl
    · exact this.1 rfl
    · exact this.2 rfl
  obtain ⟨hn, h⟩ := h
  obtain ⟨hm, h'⟩ := h'
  rcases h with rfl | ⟨d, c, hs, hc⟩ <;> rcases h' with h' | ⟨d', c', hs', hc'⟩
  · exact h'
  · exact (key hc' hs'.symm hn).elim
  · exact (key hc (hs.symm.trans h') hm).elim
  · have e1 := (findLast_some (p := isSep)).2 ⟨d, c, n, hs, rfl, isSep_iff.2 hc,
      fun x hx => isSep_false.2 (hn x hx)⟩
    have e2 := (findLast_some (p := isSep)).2 ⟨d', c', m, hs', rfl, isSep_iff.2 hc',
      fun x hx => isSep_false.2 (hm x hx)⟩
    rw [e1] at e2
    have hl : d.length = d'.length := by simpa using e2
    rw [hs] at hs'
    have := (List.append_inj hs' hl).2
    simpa using (List.cons.inj this).2

end Verif.File
