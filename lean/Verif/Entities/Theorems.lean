import Verif.Entities.Model

namespace Verif.Entities

/-! ## Specification -/

/-- The registry knows the object. -/
def Registered (r : Reg) (o : Nat) : Prop := o ∈ r.active ∨ o ∈ r.pool

/-- What C21 asks of a registry state. -/
structure Consistent (r : Reg) : Prop where
  /-- listed once, in one list -/
  nodup : (r.active ++ r.pool).Nodup
  /-- the active flag tells the list -/
  flag : ∀ o, Registered r o → (r.isAct o = true ↔ o ∈ r.active)
  /-- ids are those handed out -/
  idlt : ∀ o, Registered r o → 0 ≤ r.idOf o ∧ r.idOf o < r.nextId
  /-- ids are unique -/
  inj : ∀ o p, Registered r o → Registered r p → r.idOf o = r.idOf p → o = p
  /-- no deleted object is listed -/
  alive : ∀ o, Registered r o → o ∉ r.freed

/-- No live object refers to a deleted trailer. -/
def NoDangling (r : Reg) : Prop := ∀ o t, o ∉ r.freed → r.trailer o = some t → t ∉ r.freed

/-- The trailer of a registered vehicle is registered. -/
def Closed (r : Reg) : Prop := ∀ o t, Registered r o → r.trailer o = some t → Registered r t

/-- `c` is the vehicle `o` followed by all its trailers. -/
inductive Convoy (tr : Nat → Option Nat) : Nat → List Nat → Prop
  | last {o} : tr o = none → Convoy tr o [o]
  | cons {o t c} : tr o = some t → Convoy tr t c → o ∉ c → Convoy tr o (o :: c)

theorem nodup_disj {a p : List Nat} (h : (a ++ p).Nodup) : a.Nodup ∧ p.Nodup ∧ ∀ x, x ∈ a → x ∉ p := by
  rw [List.nodup_append] at h
  exact ⟨h.1, h.2.1, fun x hx hp => h.2.2 x hx x hp rfl⟩

theorem nodup_of_disj {a p : List Nat} (ha : a.Nodup) (hp : p.Nodup) (h : ∀ x, x ∈ a → x ∉ p) : (a ++ p).Nodup := by
  rw [List.nodup_append]
  exact ⟨ha, hp, fun x hx y hy e => h x hx (e ▸ hy)⟩

theorem nodup_snoc {l : List Nat} {o : Nat} (h : l.Nodup) (ho : o ∉ l) : (l ++ [o]).Nodup := by
  apply nodup_of_disj h (by simp)
  intro x hx hx'
  simp only [List.mem_singleton] at hx'
  exact ho (hx' ▸ hx)

theorem count_zero {l : List Nat} {o : Nat} (h : o ∉ l) : l.count o = 0 := List.count_eq_zero.2 h

theorem count_one {l : List Nat} {o : Nat} (hn : l.Nodup) (h : o ∈ l) : l.count o = 1 := by
  have h1 := List.nodup_iff_count.1 hn o
  have h2 := List.count_pos_iff.2 h
  omega

/-! ## Single object steps keep the registry consistent -/

/-- The ids of `r'` are those of `r` or new. -/
structure Grow (r r' : Reg) : Prop where
  next : r.nextId ≤ r'.nextId
  ids : ∀ q, Registered r' q → (Registered r q ∧ r'.idOf q = r.idOf q) ∨ (r.nextId : Int) ≤ r'.idOf q
  freed : ∀ q, q ∈ r.freed → q ∈ r'.freed

theorem Grow.refl (r : Reg) : Grow r r := ⟨Nat.le_refl _, fun _ h => .inl ⟨h, rfl⟩, fun _ h => h⟩

theorem Grow.trans {a b c : Reg} (h1 : Grow a b) (h2 : Grow b c) : Grow a c := by
  refine ⟨Nat.le_trans h1.next h2.next, fun q hq => ?_, fun q h => h2.freed q (h1.freed q h)⟩
  rcases h2.ids q hq with ⟨hb, e⟩ | h
  · rcases h1.ids q hb with ⟨ha, e'⟩ | h'
    · exact .inl ⟨ha, by rw [e, e']⟩
    · exact .inr (by rw [e]; exact h')
  · have := h1.next
    exact .inr (by omega)

theorem activateSelf_pool {r : Reg} {o : Nat} (h : Consistent r) (ho : o ∈ r.pool) (p : Nat) :
    p ∈ (activateSelf r o).pool ↔ p ∈ r.pool ∧ p ≠ o := by
  have hd := nodup_disj h.nodup
  simp [activateSelf, count_one hd.2.1 ho, List.mem_filter]

theorem activateSelf_reg {r : Reg} {o : Nat} (h : Consistent r) (ho : o ∈ r.pool) (p : Nat) :
    Registered (activateSelf r o) p ↔ Registered r p := by
  have h1 := activateSelf_pool h ho p
  have h2 : p ∈ (activateSelf r o).active ↔ p ∈ r.active ∨ p = o := by simp [activateSelf]
  unfold Registered
  rw [h1, h2]
  by_cases e : p = o
  · subst e; simp [ho]
  · simp [e]

theorem activateSelf_ok {r : Reg} {o : Nat} (h : Consistent r) (ho : o ∈ r.pool) : Consistent (activateSelf r o) := by
  have hd := nodup_disj h.nodup
  have hna : o ∉ r.active := fun ha => hd.2.2 o ha ho
  constructor
  · apply nodup_of_disj
    · exact nodup_snoc hd.1 hna
    · simp only [activateSelf, count_one hd.2.1 ho, if_true]
      exact hd.2.1.filter _
    · intro x hx hx'
      rw [activateSelf_pool h ho] at hx'
      simp only [activateSelf, List.mem_append, List.mem_singleton] at hx
      rcases hx with hx | hx
      · exact hd.2.2 x hx hx'.1
      · exact hx'.2 hx
  · intro p hp
    rw [activateSelf_reg h ho] at hp
    simp only [activateSelf, upd, List.mem_append, List.mem_singleton]
    by_cases e : p = o
    · simp [e]
    · simp [e, h.flag p hp]
  · intro p hp
    exact h.idlt p ((activateSelf_reg h ho p).1 hp)
  · intro p q hp hq e
    exact h.inj p q ((activateSelf_reg h ho p).1 hp) ((activateSelf_reg h ho q).1 hq) e
  · intro p hp
    exact h.alive p ((activateSelf_reg h ho p).1 hp)

theorem deactivateSelf_pool {r : Reg} {o : Nat} (h : Consistent r) (ho : o ∈ r.active) (p : Nat) :
    p ∈ (deactivateSelf r o).pool ↔ p ∈ r.pool ∨ p = o := by
  have hd := nodup_disj h.nodup
  simp [deactivateSelf, count_zero (hd.2.2 o ho)]

theorem deactivateSelf_reg {r : Reg} {o : Nat} (h : Consistent r) (ho : o ∈ r.active) (p : Nat) :
    Registered (deactivateSelf r o) p ↔ Registered r p := by
  have h1 := deactivateSelf_pool h ho p
  have h2 : p ∈ (deactivateSelf r o).active ↔ p ∈ r.active ∧ p ≠ o := by simp [deactivateSelf]
  unfold Registered
  rw [h1, h2]
  by_cases e : p = o
  · subst e; simp [ho]
  · simp [e]

theorem deactivateSelf_ok {r : Reg} {o : Nat} (h : Consistent r) (ho : o ∈ r.active) :
    Consistent (deactivateSelf r o) := by
  have hd := nodup_disj h.nodup
  have hnp : o ∉ r.pool := hd.2.2 o ho
  constructor
  · apply nodup_of_disj
    · exact hd.1.filter _
    · simp only [deactivateSelf, count_zero hnp, if_true]
      exact nodup_snoc hd.2.1 hnp
    · intro x hx hx'
      rw [deactivateSelf_pool h ho] at hx'
      simp only [deactivateSelf, List.mem_filter, decide_not, Bool.not_eq_eq_eq_not, Bool.not_true,
        decide_eq_false_iff_not] at hx
      rcases hx' with hx' | hx'
      · exact hd.2.2 x hx.1 hx'
      · exact hx.2 hx'
  · intro p hp
    rw [deactivateSelf_reg h ho] at hp
    simp only [deactivateSelf, upd, List.mem_filter]
    by_cases e : p = o
    · simp [e]
    · simp [e, h.flag p hp]
  · intro p hp
    exact h.idlt p ((deactivateSelf_reg h ho p).1 hp)
  · intro p q hp hq e
    exact h.inj p q ((deactivateSelf_reg h ho p).1 hp) ((deactivateSelf_reg h ho q).1 hq) e
  · intro p hp
    exact h.alive p ((deactivateSelf_reg h ho p).1 hp)

theorem addSelf_reg (r : Reg) (o : Nat) (act : Bool) (p : Nat) :
    Registered (addSelf r o act) p ↔ Registered r p ∨ p = o := by
  cases act <;> simp [Registered, addSelf] <;> grind

theorem addSelf_ok {r : Reg} {o : Nat} (act : Bool) (h : Consistent r) (ho : ¬Registered r o) (hf : o ∉ r.freed) :
    Consistent (addSelf r o act) := by
  have hd := nodup_disj h.nodup
  have hna : o ∉ r.active := fun x => ho (.inl x)
  have hnp : o ∉ r.pool := fun x => ho (.inr x)
  have ne : ∀ p, Registered r p → p ≠ o := fun p hp e => ho (e ▸ hp)
  constructor
  · cases act with
    | true =>
      apply nodup_of_disj (nodup_snoc hd.1 hna) hd.2.1
      intro x hx
      simp only [List.mem_append, List.mem_singleton] at hx
      rcases hx with hx | hx
      · exact hd.2.2 x hx
      · exact hx ▸ hnp
    | false =>
      apply nodup_of_disj hd.1 (nodup_snoc hd.2.1 hnp)
      intro x hx hx'
      simp only [List.mem_append, List.mem_singleton] at hx'
      rcases hx' with hx' | hx'
      · exact hd.2.2 x hx hx'
      · exact hna (hx' ▸ hx)
  · intro p hp
    rw [addSelf_reg] at hp
    by_cases e : p = o
    · subst e
      cases act <;> simp [addSelf, upd, hna]
    · have hp' : Registered r p := by simpa [e] using hp
      have := h.flag p hp'
      cases act <;> simp [addSelf, upd, e, this]
  · intro p hp
    rw [addSelf_reg] at hp
    by_cases e : p = o
    · subst e; simp only [addSelf, upd, if_true]; omega
    · have hp' : Registered r p := by simpa [e] using hp
      have := h.idlt p hp'
      simp only [addSelf, upd, e, if_false]; omega
  · intro p q hp hq hpq
    rw [addSelf_reg] at hp hq
    simp only [addSelf, upd] at hpq
    by_cases ep : p = o <;> by_cases eq : q = o
    · rw [ep, eq]
    · have hq' : Registered r q := by simpa [eq] using hq
      have := h.idlt q hq'
      simp only [ep, eq, if_true, if_false] at hpq; omega
    · have hp' : Registered r p := by simpa [ep] using hp
      have := h.idlt p hp'
      simp only [ep, eq, if_true, if_false] at hpq; omega
    · simp only [ep, eq, if_false] at hpq
      exact h.inj p q (by simpa [ep] using hp) (by simpa [eq] using hq) hpq
  · intro p hp
    rw [addSelf_reg] at hp
    rcases hp with hp | hp
    · exact h.alive p hp
    · exact hp ▸ hf

theorem nameTrailer_same (r : Reg) (o t : Nat) : (nameTrailer r o t).active = r.active ∧ (nameTrailer r o t).pool = r.pool ∧
    (nameTrailer r o t).nextId = r.nextId ∧ (nameTrailer r o t).idOf = r.idOf ∧ (nameTrailer r o t).isAct = r.isAct ∧
    (nameTrailer r o t).trailer = r.trailer ∧ (nameTrailer r o t).freed = r.freed ∧ (nameTrailer r o t).tow = r.tow := by
  unfold nameTrailer
  split <;> simp

theorem nameTrailer_reg (r : Reg) (o t p : Nat) : Registered (nameTrailer r o t) p ↔ Registered r p := by
  simp [Registered, nameTrailer_same]

theorem nameTrailer_ok {r : Reg} (o t : Nat) (h : Consistent r) : Consistent (nameTrailer r o t) := by
  have e := nameTrailer_same r o t
  refine ⟨by rw [e.1, e.2.1]; exact h.nodup, ?_, ?_, ?_, ?_⟩
  · intro p hp; rw [e.2.2.2.2.1, e.1]; exact h.flag p ((nameTrailer_reg ..).1 hp)
  · intro p hp; rw [e.2.2.2.1, e.2.2.1]; exact h.idlt p ((nameTrailer_reg ..).1 hp)
  · intro p q hp hq; rw [e.2.2.2.1]; exact h.inj p q ((nameTrailer_reg ..).1 hp) ((nameTrailer_reg ..).1 hq)
  · intro p hp; rw [e.2.2.2.2.2.2.1]; exact h.alive p ((nameTrailer_reg ..).1 hp)

/-! ## Operations -/

/-- What (de)activation may change: the lists and flags, not what is registered. -/
structure Same (r r' : Reg) : Prop where
  reg : ∀ p, Registered r' p ↔ Registered r p
  id : r'.idOf = r.idOf
  next : r'.nextId = r.nextId
  tr : r'.trailer = r.trailer
  tow : r'.tow = r.tow
  freed : r'.freed = r.freed
  name : r'.name = r.name

theorem Same.refl (r : Reg) : Same r r := ⟨fun _ => Iff.rfl, rfl, rfl, rfl, rfl, rfl, rfl⟩

theorem Same.trans {a b c : Reg} (h1 : Same a b) (h2 : Same b c) : Same a c :=
  ⟨fun p => (h2.reg p).trans (h1.reg p), h2.id.trans h1.id, h2.next.trans h1.next, h2.tr.trans h1.tr, h2.tow.trans h1.tow,
    h2.freed.trans h1.freed, h2.name.trans h1.name⟩

theorem Same.grow {a b : Reg} (h : Same a b) : Grow a b :=
  ⟨by rw [h.next]; exact Nat.le_refl _, fun q hq => .inl ⟨(h.reg q).1 hq, by rw [h.id]⟩, fun q hq => by rw [h.freed]; exact hq⟩

theorem activateSelf_same {r : Reg} {o : Nat} (h : Consistent r) (ho : o ∈ r.pool) : Same r (activateSelf r o) :=
  ⟨fun p => activateSelf_reg h ho p, rfl, rfl, rfl, rfl, rfl, rfl⟩

theorem deactivateSelf_same {r : Reg} {o : Nat} (h : Consistent r) (ho : o ∈ r.active) : Same r (deactivateSelf r o) :=
  ⟨fun p => deactivateSelf_reg h ho p, rfl, rfl, rfl, rfl, rfl, rfl⟩

theorem Same.closed {a b : Reg} (h : Same a b) (hc : Closed a) : Closed b := fun o t ho ht =>
  (h.reg t).2 (hc o t ((h.reg o).1 ho) (by rw [← h.tr]; exact ht))

/-- Activating a registered object. -/
theorem activateObject_ok (n : Nat) : ∀ (r : Reg) (o : Nat) (r' : Reg) (k : Int), Consistent r → Closed r → Registered r o →
    activateObject n r o = some (r', k) → Consistent r' ∧ Same r r' ∧ o ∈ r'.active ∧
      (k = 0 ↔ o ∉ r.active) ∧ (∀ p, p ∈ r.active → p ∈ r'.active) := by
  induction n with
  | zero => intro r o r' k _ _ _ h; simp [activateObject] at h
  | succ n ih =>
    intro r o r' k hc hcl ho h
    have hd := nodup_disj hc.nodup
    unfold activateObject at h
    by_cases hz : r.active.count o = 0
    · have hna : o ∉ r.active := List.count_eq_zero.1 hz
      have hp : o ∈ r.pool := by rcases ho with ho | ho; exact absurd ho hna; exact ho
      have h1 : ¬ 1 < r.pool.count o := by rw [count_one hd.2.1 hp]; omega
      have hok := activateSelf_ok hc hp
      have hsame := activateSelf_same hc hp
      have hin : o ∈ (activateSelf r o).active := by simp [activateSelf]
      have hmono : ∀ p, p ∈ r.active → p ∈ (activateSelf r o).active := by
        intro p hp; simp [activateSelf, hp]
      simp only [hz, if_true, h1, if_false] at h
      split at h
      · cases h
        exact ⟨hok, hsame, hin, by simp [hna], hmono⟩
      · rename_i t ht
        split at h
        · cases h
          exact ⟨hok, hsame, hin, by simp [hna], hmono⟩
        · rename_i hne
          simp only [Option.map_eq_some_iff] at h
          obtain ⟨⟨r2, k2⟩, h2, e⟩ := h
          cases e
          have hclosed := hsame.closed hcl
          have hreg : Registered (activateSelf r o) t := (hsame.reg t).2 (hcl o t ho ht)
          obtain ⟨a, b, c, _, e⟩ := ih _ t _ k2 hok hclosed hreg h2
          exact ⟨a, hsame.trans b, e o hin, by simp [hna], fun p hp => e p (hmono p hp)⟩
    · have ha : o ∈ r.active := by
        apply Decidable.byContradiction
        intro hn; exact hz (count_zero hn)
      simp only [hz, if_false] at h
      cases h
      exact ⟨hc, Same.refl r, ha, by simp [ha], fun p hp => hp⟩

/-- Deactivating an object. -/
theorem deactivateObject_ok (n : Nat) : ∀ (r : Reg) (o : Nat) (r' : Reg) (k : Int), Consistent r →
    deactivateObject n r o = some (r', k) → Consistent r' ∧ Same r r' ∧ o ∉ r'.active ∧
      (k = 0 ↔ o ∈ r.active) ∧ (∀ p, p ∈ r'.active → p ∈ r.active) := by
  induction n with
  | zero => intro r o r' k _ h; simp [deactivateObject] at h
  | succ n ih =>
    intro r o r' k hc h
    have hd := nodup_disj hc.nodup
    unfold deactivateObject at h
    by_cases hz : r.active.count o = 1
    · have ha : o ∈ r.active := List.count_pos_iff.1 (by omega)
      have hok := deactivateSelf_ok hc ha
      have hsame := deactivateSelf_same hc ha
      have hin : o ∉ (deactivateSelf r o).active := by simp [deactivateSelf]
      have hmono : ∀ p, p ∈ (deactivateSelf r o).active → p ∈ r.active := by
        intro p hp; simp [deactivateSelf] at hp; exact hp.1
      simp only [hz, if_true] at h
      split at h
      · cases h
        exact ⟨hok, hsame, hin, by simp [ha], hmono⟩
      · rename_i t ht
        split at h
        · cases h
          exact ⟨hok, hsame, hin, by simp [ha], hmono⟩
        · rename_i hne
          simp only [Option.map_eq_some_iff] at h
          obtain ⟨⟨r2, k2⟩, h2, e⟩ := h
          cases e
          obtain ⟨a, b, c, _, e⟩ := ih _ t _ k2 hok h2
          exact ⟨a, hsame.trans b, fun hx => hin (e o hx), by simp [ha], fun p hp => hmono p (e p hp)⟩
    · have ha : o ∉ r.active := by
        intro hn; exact hz (count_one hd.1 hn)
      simp only [hz, if_false] at h
      cases h
      exact ⟨hc, Same.refl r, ha, by simp [ha], fun p hp => hp⟩

theorem addSelf_grow (r : Reg) (o : Nat) (act : Bool) : Grow r (addSelf r o act) := by
  refine ⟨by simp [addSelf], fun q hq => ?_, fun q h => h⟩
  rw [addSelf_reg] at hq
  simp only [addSelf, upd]
  by_cases e : q = o
  · right; simp [e]
  · left; exact ⟨by simpa [e] using hq, by simp [e]⟩

theorem nameTrailer_grow (r : Reg) (o t : Nat) : Grow r (nameTrailer r o t) := by
  have e := nameTrailer_same r o t
  refine ⟨by rw [e.2.2.1]; exact Nat.le_refl _, fun q hq => .inl ⟨(nameTrailer_reg r o t q).1 hq, by rw [e.2.2.2.1]⟩, fun q hq => ?_⟩
  rw [e.2.2.2.2.2.2.1]; exact hq

/-- The trailer of a registered vehicle is registered, or is `o`. -/
def ClosedTo (r : Reg) (o : Nat) : Prop := ∀ p t, Registered r p → r.trailer p = some t → Registered r t ∨ t = o

theorem addSelf_closedTo {r : Reg} {o t : Nat} (act : Bool) (h : ClosedTo r o) (ht : ∀ u, r.trailer o = some u → u = t) :
    ClosedTo (addSelf r o act) t := by
  intro p u hp hu
  rw [addSelf_reg] at hp
  rw [addSelf_reg]
  have hu' : r.trailer p = some u := hu
  rcases hp with hp | hp
  · rcases h p u hp hu' with h | h
    · exact .inl (.inl h)
    · exact .inl (.inr h)
  · exact .inr (ht u (hp ▸ hu'))

theorem closed_of_closedTo {r : Reg} {o : Nat} (h : ClosedTo r o) (ho : Registered r o) : Closed r := by
  intro p t hp ht
  rcases h p t hp ht with h | h
  · exact h
  · exact h ▸ ho

/-- The result of adding: registered, with the next id, everything else as before. -/
structure Added (r : Reg) (o : Nat) (r' : Reg) (k : Int) : Prop where
  ok : Consistent r'
  closed : Closed r'
  keeps : ∀ p, Registered r p → Registered r' p
  reg : Registered r' o
  grow : Grow r r'
  keepId : ∀ p, Registered r p → r'.idOf p = r.idOf p
  ret : k = r.nextId
  id : r'.idOf o = r.nextId
  tr : r'.trailer = r.trailer
  tow : r'.tow = r.tow
  freed : r'.freed = r.freed

/-- Adding an object that is not registered. -/
theorem addObject_ok (n : Nat) : ∀ (r : Reg) (o : Nat) (act : Bool) (r' : Reg) (k : Int), Consistent r →
    ClosedTo r o → NoDangling r → ¬Registered r o → o ∉ r.freed → addObject n r o act = some (r', k) →
    Added r o r' k := by
  induction n with
  | zero => intro r o act r' k _ _ _ _ _ h; simp [addObject] at h
  | succ n ih =>
    intro r o act r' k hc hcl hnd hreg hfr h
    have hok := addSelf_ok act hc hreg hfr
    have hself : Registered (addSelf r o act) o := (addSelf_reg ..).2 (.inr rfl)
    have hkeep : ∀ p, Registered r p → Registered (addSelf r o act) p := fun p hp => (addSelf_reg ..).2 (.inl hp)
    have hid : (addSelf r o act).idOf o = r.nextId := by simp [addSelf, upd]
    have hki : ∀ p, Registered r p → (addSelf r o act).idOf p = r.idOf p := by
      intro p hp
      have : p ≠ o := fun e => hreg (e ▸ hp)
      simp [addSelf, upd, this]
    have hgrow := addSelf_grow r o act
    unfold addObject at h
    split at h
    · rename_i hn
      cases h
      exact ⟨hok, closed_of_closedTo (o := o) (addSelf_closedTo act hcl (by simp [hn])) hself, hkeep, hself, hgrow, hki,
        rfl, hid, rfl, rfl, rfl⟩
    · rename_i t ht
      have hct : ClosedTo (addSelf r o act) t := addSelf_closedTo act hcl (by simp [ht])
      split at h
      · rename_i e
        cases h
        exact ⟨hok, closed_of_closedTo hct (e ▸ hself), hkeep, hself, hgrow, hki, rfl, hid, rfl, rfl, rfl⟩
      · rename_i hne
        have hnt := nameTrailer_same (addSelf r o act) o t
        have hok2 := nameTrailer_ok o t hok
        have hct2 : ClosedTo (nameTrailer (addSelf r o act) o t) t := by
          intro p u hp hu
          rw [nameTrailer_reg] at *
          rw [hnt.2.2.2.2.2.1] at hu
          exact hct p u hp hu
        have hself2 := (nameTrailer_reg (addSelf r o act) o t o).2 hself
        have hkeep2 : ∀ p, Registered r p → Registered (nameTrailer (addSelf r o act) o t) p := fun p hp =>
          (nameTrailer_reg ..).2 (hkeep p hp)
        have hgrow2 := hgrow.trans (nameTrailer_grow (addSelf r o act) o t)
        have hid2 : (nameTrailer (addSelf r o act) o t).idOf o = r.nextId := by rw [hnt.2.2.2.1, hid]
        -- what a (de)activation of the trailer gives
        have fin : ∀ r2 : Reg, Consistent r2 → Same (nameTrailer (addSelf r o act) o t) r2 →
            Registered (nameTrailer (addSelf r o act) o t) t → Added r o r2 r.nextId := by
          intro r2 c2 s2 ht2
          refine ⟨c2, s2.closed (closed_of_closedTo hct2 ht2), fun p hp => (s2.reg p).2 (hkeep2 p hp), (s2.reg o).2 hself2,
            hgrow2.trans s2.grow, fun p hp => by rw [s2.id, hnt.2.2.2.1, hki p hp], rfl, by rw [s2.id, hid2], ?_, ?_, ?_⟩
          · rw [s2.tr, hnt.2.2.2.2.2.1]; rfl
          · rw [s2.tow, hnt.2.2.2.2.2.2.2]; rfl
          · rw [s2.freed, hnt.2.2.2.2.2.2.1]; rfl
        split at h
        · rename_i h1
          simp only [Option.map_eq_some_iff] at h
          obtain ⟨⟨r2, k2⟩, h2, e⟩ := h
          cases e
          obtain ⟨a, b, _⟩ := deactivateObject_ok _ _ _ _ _ hok2 h2
          exact fin _ a b ((nameTrailer_reg ..).2 (.inl h1.1))
        · split at h
          · rename_i h1 h3
            simp only [Option.map_eq_some_iff] at h
            obtain ⟨⟨r2, k2⟩, h2, e⟩ := h
            cases e
            have htr : Registered (nameTrailer (addSelf r o act) o t) t := (nameTrailer_reg ..).2 (.inr h3.1)
            obtain ⟨a, b, _⟩ := activateObject_ok _ _ _ _ _ hok2 (closed_of_closedTo hct2 htr) htr h2
            exact fin _ a b htr
          · split at h
            · rename_i h1 h3 h4
              simp only [Option.map_eq_some_iff] at h
              obtain ⟨⟨r2, k2⟩, h2, e⟩ := h
              cases e
              have hnr : ¬Registered (nameTrailer (addSelf r o act) o t) t := by
                rw [nameTrailer_reg]; rintro (x | x); exact h4.1 x; exact h4.2 x
              have hnd2 : NoDangling (nameTrailer (addSelf r o act) o t) := by
                intro p u hp hu
                rw [hnt.2.2.2.2.2.2.1] at *
                rw [hnt.2.2.2.2.2.1] at hu
                exact hnd p u hp hu
              have hfr2 : t ∉ (nameTrailer (addSelf r o act) o t).freed := by
                rw [hnt.2.2.2.2.2.2.1]; exact hnd o t hfr ht
              have A := ih _ t act _ k2 hok2 hct2 hnd2 hnr hfr2 h2
              refine ⟨A.ok, A.closed, fun p hp => A.keeps p (hkeep2 p hp), A.keeps o hself2, hgrow2.trans A.grow, fun p hp => ?_,
                rfl, ?_, ?_, ?_, ?_⟩
              · rw [A.keepId p (hkeep2 p hp), hnt.2.2.2.1, hki p hp]
              · rw [A.keepId o hself2, hid2]
              · rw [A.tr, hnt.2.2.2.2.2.1]; rfl
              · rw [A.tow, hnt.2.2.2.2.2.2.2]; rfl
              · rw [A.freed, hnt.2.2.2.2.2.2.1]; rfl
            · rename_i h1 h3 h4
              cases h
              refine fin _ hok2 (Same.refl _) ?_
              rw [nameTrailer_reg]
              unfold Registered
              grind

/-! ## Removal -/

theorem removeSelf_reg {r : Reg} {o p : Nat} (hp : o ∉ r.pool) :
    Registered (removeSelf r o) p ↔ Registered r p ∧ p ≠ o := by
  simp only [Registered, removeSelf, List.mem_filter, decide_not, Bool.not_eq_eq_eq_not, Bool.not_true,
    decide_eq_false_iff_not]
  constructor
  · rintro (⟨h, e⟩ | h)
    · exact ⟨.inl h, e⟩
    · exact ⟨.inr h, fun e => hp (e ▸ h)⟩
  · rintro ⟨h | h, e⟩
    · exact .inl ⟨h, e⟩
    · exact .inr h

/-- Removing a convoy whose vehicles are all active: exactly these leave the active list and are deleted. -/
theorem removeObject_convoy {tr : Nat → Option Nat} {o : Nat} {c : List Nat} (h : Convoy tr o c) :
    ∀ (r : Reg) (n : Nat), r.trailer = tr → (∀ x, x ∈ c → x ∈ r.active) → c.length ≤ n →
    removeObject n r o true = some { r with active := r.active.filter (· ∉ c), freed := c ++ r.freed } := by
  induction h with
  | last h =>
    intro r n htr hin hn
    obtain ⟨n, rfl⟩ : ∃ m, n = m + 1 := ⟨n - 1, by simp at hn; omega⟩
    subst htr
    simp [removeObject, h, removeSelf]
    
  | @cons o t c h hc hne ih =>
    intro r n htr hin hn
    obtain ⟨n, rfl⟩ : ∃ m, n = m + 1 := ⟨n - 1, by simp at hn; omega⟩
    have ho : o ∈ r.active := hin o (by simp)
    have e := ih r n htr (fun x hx => hin x (by simp [hx])) (by simp at hn; omega)
    subst htr
    simp only [removeObject, ho, and_self, if_true, h, e, Option.map_some, removeSelf, List.filter_filter,
      List.cons_append, Option.some.injEq, Reg.mk.injEq, and_true]
    apply List.filter_congr
    intro x _
    simp

/-- The objects a removal takes away. -/
def Victims (r : Reg) (o : Nat) (recursive : Bool) (c : List Nat) : Prop :=
  if recursive then Convoy r.trailer o c else c = [o]

theorem removeObject_eq {r r' : Reg} {o : Nat} {b : Bool} {c : List Nat} {n : Nat} (hv : Victims r o b c)
    (hin : ∀ x, x ∈ c → x ∈ r.active) (h : removeObject n r o b = some r') :
    r' = { r with active := r.active.filter (· ∉ c), freed := c ++ r.freed } := by
  cases b with
  | true =>
    have hv : Convoy r.trailer o c := by simpa [Victims] using hv
    have key : ∀ (o c), Convoy r.trailer o c → ∀ n r', (∀ x, x ∈ c → x ∈ r.active) → removeObject n r o true = some r' →
        c.length ≤ n := by
      intro o c hv
      induction hv with
      | last _ =>
        intro n r' _ h
        cases n with
        | zero => simp [removeObject] at h
        | succ n => simp
      | cons ht hc hne ih =>
        intro n r' hin h
        cases n with
        | zero => simp [removeObject] at h
        | succ n =>
          have ho := hin _ (List.mem_cons_self)
          simp only [removeObject, ho, and_self, if_true, ht, Option.map_eq_some_iff] at h
          obtain ⟨r2, h2, _⟩ := h
          have := ih n r2 (fun x hx => hin x (by simp [hx])) h2
          simpa using this
    have := removeObject_convoy hv r n rfl hin (key o c hv n r' hin h)
    rw [this] at h
    cases h; rfl
  | false =>
    have hv : c = [o] := by simpa [Victims] using hv
    subst hv
    cases n with
    | zero => simp [removeObject] at h
    | succ n =>
      simp only [removeObject, Bool.false_eq_true, false_and, if_false] at h
      cases h
      simp [removeSelf]

/-! ## Histories -/

/-- The registry operations. -/
inductive Op
  | add (o : Nat) (act : Bool)
  | activate (o : Nat)
  | deactivate (o : Nat)
  | remove (o : Nat) (recursive : Bool)
  | connect (o t : Nat)
  | disconnect (o : Nat)

def step (r : Reg) : Op → Option Reg
  | .add o act => (addObject 100 r o act).map (·.1)
  | .activate o => (activateObject 100 r o).map (·.1)
  | .deactivate o => (deactivateObject 100 r o).map (·.1)
  | .remove o b => removeObject 1000000 r o b
  | .connect o t => some (connectAction r o t)
  | .disconnect o => some (disconnectTrailer r o)

/-- What the caller must respect. -/
def Legal (r : Reg) : Op → Prop
  | .add o _ => ¬Registered r o ∧ o ∉ r.freed
  | .activate o => Registered r o
  | .deactivate _ => True
  /- what is removed is active and not towed by something that stays -/
  | .remove o b => ∃ c, Victims r o b c ∧ (∀ x, x ∈ c → x ∈ r.active) ∧
      ∀ q t, q ∉ r.freed → q ∉ c → r.trailer q = some t → t ∉ c
  | .connect o t => Registered r o ∧ Registered r t
  | .disconnect _ => True

/-- A history in which every operation is legal when it is executed. -/
inductive Run : Reg → Reg → Prop
  | refl {r} : Run r r
  | step {a b c op} : Run a b → Legal b op → step b op = some c → Run a c

/-- Everything kept along a history. -/
structure Good (r : Reg) : Prop where
  ok : Consistent r
  closed : Closed r
  nd : NoDangling r

theorem relink_good {r : Reg} (tw tr : Nat → Option Nat) (h : Good r)
    (hx : ∀ p t, tr p = some t → r.trailer p = some t ∨ Registered r t) :
    Good { r with tow := tw, trailer := tr } ∧ Grow r { r with tow := tw, trailer := tr } := by
  refine ⟨⟨⟨h.ok.nodup, h.ok.flag, h.ok.idlt, h.ok.inj, h.ok.alive⟩, ?_, ?_⟩, ⟨Nat.le_refl _, fun q hq => .inl ⟨hq, rfl⟩, fun _ h => h⟩⟩
  · intro p t hp ht
    rcases hx p t ht with h' | h'
    · exact h.closed p t hp h'
    · exact h'
  · intro p t hp ht
    rcases hx p t ht with h' | h'
    · exact h.nd p t hp h'
    · exact h.ok.alive t h'

theorem connect_good {r : Reg} {o t : Nat} (h : Good r) (ht : Registered r t) :
    Good (connectTrailer r o t).1 ∧ Grow r (connectTrailer r o t).1 := by
  unfold connectTrailer
  split
  · split
    · apply relink_good _ _ h
      intro p u hu
      simp only [upd] at hu
      split at hu
      · cases hu; exact .inr ht
      · exact .inl hu
    · exact relink_good _ r.trailer h (fun p u hu => .inl hu)
  · exact ⟨h, Grow.refl r⟩

theorem disconnect_good {r : Reg} (o : Nat) (h : Good r) : Good (disconnectTrailer r o) ∧ Grow r (disconnectTrailer r o) := by
  unfold disconnectTrailer
  split
  · apply relink_good _ _ h
    intro p u hu
    simp only [upd] at hu
    split at hu
    · cases hu
    · exact .inl hu
  · exact ⟨h, Grow.refl r⟩

theorem disconnect_reg (r : Reg) (o p : Nat) : Registered (disconnectTrailer r o) p ↔ Registered r p := by
  unfold disconnectTrailer
  split <;> simp [Registered]

/-- Taking away the objects of `c`. -/
theorem remove_good {r : Reg} {c : List Nat} (h : Good r) (hin : ∀ x, x ∈ c → x ∈ r.active)
    (htow : ∀ q t, q ∉ r.freed → q ∉ c → r.trailer q = some t → t ∉ c) :
    Good { r with active := r.active.filter (· ∉ c), freed := c ++ r.freed } ∧
      Grow r { r with active := r.active.filter (· ∉ c), freed := c ++ r.freed } := by
  have hd := nodup_disj h.ok.nodup
  have reg : ∀ p, Registered { r with active := r.active.filter (· ∉ c), freed := c ++ r.freed } p →
      Registered r p ∧ p ∉ c := by
    rintro p (hp | hp)
    · simp only [List.mem_filter, decide_not, Bool.not_eq_eq_eq_not, Bool.not_true, decide_eq_false_iff_not] at hp
      exact ⟨.inl hp.1, hp.2⟩
    · exact ⟨.inr hp, fun hc => hd.2.2 p (hin p hc) hp⟩
  have reg' : ∀ p, Registered r p → p ∉ c →
      Registered { r with active := r.active.filter (· ∉ c), freed := c ++ r.freed } p := by
    rintro p (hp | hp) hc
    · left; simp [hp, hc]
    · exact .inr hp
  refine ⟨⟨⟨?_, ?_, ?_, ?_, ?_⟩, ?_, ?_⟩, ⟨Nat.le_refl _, fun q hq => .inl ⟨(reg q hq).1, rfl⟩, fun q hq => by simp [hq]⟩⟩
  · refine nodup_of_disj (hd.1.filter _) hd.2.1 (fun x hx => ?_)
    exact hd.2.2 x (List.mem_filter.1 hx).1
  · intro p hp
    have := reg p hp
    simp [h.ok.flag p this.1, this.2]
  · intro p hp; exact h.ok.idlt p (reg p hp).1
  · intro p q hp hq e; exact h.ok.inj p q (reg p hp).1 (reg q hq).1 e
  · intro p hp
    have := reg p hp
    simp [this.2, h.ok.alive p this.1]
  · intro p t hp ht
    have := reg p hp
    exact reg' t (h.closed p t this.1 ht) (htow p t (h.ok.alive p this.1) this.2 ht)
  · intro p t hp ht
    simp only [List.mem_append, not_or] at hp ⊢
    exact ⟨htow p t hp.2 hp.1 ht, h.nd p t hp.2 ht⟩

theorem step_good {r r' : Reg} {op : Op} (h : Good r) (hl : Legal r op) (hs : step r op = some r') : Good r' ∧ Grow r r' := by
  cases op with
  | add o act =>
    simp only [step, Option.map_eq_some_iff] at hs
    obtain ⟨⟨r2, k⟩, h2, rfl⟩ := hs
    have A := addObject_ok _ _ _ _ _ _ h.ok (fun p t hp ht => .inl (h.closed p t hp ht)) h.nd hl.1 hl.2 h2
    exact ⟨⟨A.ok, A.closed, fun p t hp ht => by rw [A.freed] at *; rw [A.tr] at ht; exact h.nd p t hp ht⟩, A.grow⟩
  | activate o =>
    simp only [step, Option.map_eq_some_iff] at hs
    obtain ⟨⟨r2, k⟩, h2, rfl⟩ := hs
    obtain ⟨a, b, _⟩ := activateObject_ok _ _ _ _ _ h.ok h.closed hl h2
    exact ⟨⟨a, b.closed h.closed, fun p t hp ht => by rw [b.freed] at *; rw [b.tr] at ht; exact h.nd p t hp ht⟩, b.grow⟩
  | deactivate o =>
    simp only [step, Option.map_eq_some_iff] at hs
    obtain ⟨⟨r2, k⟩, h2, rfl⟩ := hs
    obtain ⟨a, b, _⟩ := deactivateObject_ok _ _ _ _ _ h.ok h2
    exact ⟨⟨a, b.closed h.closed, fun p t hp ht => by rw [b.freed] at *; rw [b.tr] at ht; exact h.nd p t hp ht⟩, b.grow⟩
  | remove o b =>
    obtain ⟨c, hv, hin, htow⟩ := hl
    have := removeObject_eq hv hin hs
    subst this
    exact remove_good h hin htow
  | connect o t =>
    simp only [step, Option.some.injEq] at hs
    subst hs
    unfold connectAction
    split
    · exact ⟨h, Grow.refl r⟩
    · have h1 := disconnect_good o h
      have h2 := connect_good (o := o) h1.1 ((disconnect_reg r o t).2 hl.2)
      exact ⟨h2.1, h1.2.trans h2.2⟩
  | disconnect o =>
    simp only [step, Option.some.injEq] at hs
    subst hs
    exact disconnect_good o h

theorem run_good {a b : Reg} (h : Run a b) (ha : Good a) : Good b ∧ Grow a b := by
  induction h with
  | refl => exact ⟨ha, Grow.refl _⟩
  | step _ hl hs ih =>
    have h1 := ih
    have h2 := step_good h1.1 hl hs
    exact ⟨h2.1, h1.2.trans h2.2⟩

theorem initial_good (nm tr tw hi co) : Good (Reg.initial nm tr tw hi co) := by
  constructor
  · constructor <;> simp [Reg.initial, Registered]
  · intro o t ho; simp [Reg.initial, Registered] at ho
  · intro o t _ _; simp [Reg.initial]

/-- C21: whatever is added, activated, deactivated, removed, connected and disconnected, the registry stays consistent. -/
theorem registry_consistent {nm tr tw hi co} {r : Reg} (h : Run (Reg.initial nm tr tw hi co) r) : Consistent r :=
  (run_good h (initial_good ..)).1.ok

/-- C21: an id denotes the same object at all later times: it is never given to another object. -/
theorem ids_never_reused {nm tr tw hi co} {a b : Reg} {p q : Nat} (h0 : Run (Reg.initial nm tr tw hi co) a) (h : Run a b)
    (hp : Registered a p) (hq : Registered b q) (e : a.idOf p = b.idOf q) : p = q := by
  have ga := (run_good h0 (initial_good ..)).1
  have gb := run_good h ga
  rcases gb.2.ids q hq with ⟨hqa, e2⟩ | hlt
  · exact ga.ok.inj p q hp hqa (by rw [e, e2])
  · have := ga.ok.idlt p hp
    omega

/-- C21: adding an object that is not registered returns an id that no registered object has or had, and gives it to the
object. -/
theorem add_new_id {nm tr tw hi co} {r r' : Reg} {o : Nat} {act : Bool} {k : Int} (h0 : Run (Reg.initial nm tr tw hi co) r)
    (hl : Legal r (.add o act)) (h : addObject 100 r o act = some (r', k)) :
    r'.idOf o = k ∧ (∀ p, Registered r p → r.idOf p < k ∧ Registered r' p ∧ r'.idOf p = r.idOf p) := by
  have g := (run_good h0 (initial_good ..)).1
  have A := addObject_ok _ _ _ _ _ _ g.ok (fun p t hp ht => .inl (g.closed p t hp ht)) g.nd hl.1 hl.2 h
  refine ⟨by rw [A.id, A.ret], fun p hp => ⟨?_, A.keeps p hp, A.keepId p hp⟩⟩
  rw [A.ret]
  exact (g.ok.idlt p hp).2

/-! ## Vehicles with trailers -/

theorem filter_notin_cons (l : List Nat) (o : Nat) (c : List Nat) :
    (l.filter (· ≠ o)).filter (· ∉ c) = l.filter (· ∉ o :: c) := by
  rw [List.filter_filter]
  apply List.filter_congr
  intro x _
  simp [Bool.and_comm]

theorem convoy_ne {tr o c} (h : Convoy tr o c) : o ∈ c := by
  cases h <;> simp

/-- C21: activating a vehicle that is, with all its trailers, deactivated, activates exactly the vehicle and its trailers. -/
theorem activate_convoy {tr : Nat → Option Nat} {o : Nat} {c : List Nat} (h : Convoy tr o c) :
    ∀ (r : Reg) (n : Nat), r.trailer = tr → Consistent r → (∀ x, x ∈ c → x ∈ r.pool) → c.length ≤ n →
    ∃ r', activateObject n r o = some (r', 0) ∧ r'.active = r.active ++ c ∧ r'.pool = r.pool.filter (· ∉ c) := by
  induction h with
  | last h =>
    intro r n htr hc hin hn
    obtain ⟨n, rfl⟩ : ∃ m, n = m + 1 := ⟨n - 1, by simp at hn; omega⟩
    subst htr
    have hd := nodup_disj hc.nodup
    rename_i o
    have hp : o ∈ r.pool := hin o (by simp)
    have h0 : r.active.count o = 0 := count_zero (fun ha => hd.2.2 o ha hp)
    have h1 := count_one hd.2.1 hp
    refine ⟨activateSelf r o, ?_, ?_, ?_⟩
    · simp [activateObject, h0, h1, h]
    · simp [activateSelf]
    · simp [activateSelf, h1]
  | @cons o t c h hcv hne ih =>
    intro r n htr hc hin hn
    obtain ⟨n, rfl⟩ : ∃ m, n = m + 1 := ⟨n - 1, by simp at hn; omega⟩
    have hd := nodup_disj hc.nodup
    have hp : o ∈ r.pool := hin o (by simp)
    have h0 : r.active.count o = 0 := count_zero (fun ha => hd.2.2 o ha hp)
    have h1 := count_one hd.2.1 hp
    have hto : t ≠ o := fun e => hne (e ▸ convoy_ne hcv)
    obtain ⟨r', e, ea, ep⟩ := ih (activateSelf r o) n htr (activateSelf_ok hc hp) (by
      intro x hx
      rw [activateSelf_pool hc hp]
      exact ⟨hin x (by simp [hx]), fun e => hne (e ▸ hx)⟩) (by simp at hn; omega)
    subst htr
    refine ⟨r', ?_, ?_, ?_⟩
    · simp [activateObject, h0, h1, h, hto, e]
    · rw [ea]; simp [activateSelf]
    · rw [ep, ← filter_notin_cons]; simp [activateSelf, h1]

/-- C21: deactivating a vehicle that is, with all its trailers, active, deactivates exactly the vehicle and its trailers. -/
theorem deactivate_convoy {tr : Nat → Option Nat} {o : Nat} {c : List Nat} (h : Convoy tr o c) :
    ∀ (r : Reg) (n : Nat), r.trailer = tr → Consistent r → (∀ x, x ∈ c → x ∈ r.active) → c.length ≤ n →
    ∃ r', deactivateObject n r o = some (r', 0) ∧ r'.active = r.active.filter (· ∉ c) ∧ r'.pool = r.pool ++ c := by
  induction h with
  | last h =>
    intro r n htr hc hin hn
    obtain ⟨n, rfl⟩ : ∃ m, n = m + 1 := ⟨n - 1, by simp at hn; omega⟩
    subst htr
    have hd := nodup_disj hc.nodup
    rename_i o
    have hp : o ∈ r.active := hin o (by simp)
    have h0 : r.pool.count o = 0 := count_zero (hd.2.2 o hp)
    have h1 := count_one hd.1 hp
    refine ⟨deactivateSelf r o, ?_, ?_, ?_⟩
    · simp [deactivateObject, h1, h]
    · simp [deactivateSelf]
    · simp [deactivateSelf, h0]
  | @cons o t c h hcv hne ih =>
    intro r n htr hc hin hn
    obtain ⟨n, rfl⟩ : ∃ m, n = m + 1 := ⟨n - 1, by simp at hn; omega⟩
    have hd := nodup_disj hc.nodup
    have hp : o ∈ r.active := hin o (by simp)
    have h0 : r.pool.count o = 0 := count_zero (hd.2.2 o hp)
    have h1 := count_one hd.1 hp
    have hto : t ≠ o := fun e => hne (e ▸ convoy_ne hcv)
    obtain ⟨r', e, ea, ep⟩ := ih (deactivateSelf r o) n htr (deactivateSelf_ok hc hp) (by
      intro x hx
      have h2 : x ≠ o := fun e => hne (e ▸ hx)
      simp [deactivateSelf, hin x (by simp [hx]), h2]) (by simp at hn; omega)
    subst htr
    refine ⟨r', ?_, ?_, ?_⟩
    · simp [deactivateObject, h1, h, hto, e]
    · rw [ea, ← filter_notin_cons]; simp [deactivateSelf]
    · rw [ep]; simp [deactivateSelf, h0]

/-- C21: adding a vehicle that is, with all its trailers, not registered, adds exactly the vehicle and its trailers, with
consecutive ids from front to rear. -/
theorem add_convoy {tr : Nat → Option Nat} {o : Nat} {c : List Nat} (h : Convoy tr o c) :
    ∀ (r : Reg) (n : Nat) (act : Bool), r.trailer = tr → (∀ x, x ∈ c → ¬Registered r x) → c.length ≤ n →
    ∃ r' : Reg, addObject n r o act = some (r', (r.nextId : Int)) ∧ r'.active = r.active ++ (if act then c else []) ∧
      r'.pool = r.pool ++ (if act then [] else c) ∧ (∀ (i : Nat) x, c[i]? = some x → r'.idOf x = r.nextId + i) ∧
      ∀ x, x ∉ c → r'.idOf x = r.idOf x := by
  induction h with
  | last h =>
    intro r n act htr hin hn
    obtain ⟨n, rfl⟩ : ∃ m, n = m + 1 := ⟨n - 1, by simp at hn; omega⟩
    subst htr
    rename_i o
    refine ⟨addSelf r o act, ?_, ?_, ?_, ?_, ?_⟩
    · simp [addObject, h]
    · cases act <;> simp [addSelf]
    · cases act <;> simp [addSelf]
    · intro i x hx
      cases i with
      | zero => simp at hx; subst hx; simp [addSelf, upd]
      | succ i => simp at hx
    · intro x hx; simp at hx; simp [addSelf, upd, hx]
  | @cons o t c h hcv hne ih =>
    intro r n act htr hin hn
    obtain ⟨n, rfl⟩ : ∃ m, n = m + 1 := ⟨n - 1, by simp at hn; omega⟩
    have hto : t ≠ o := fun e => hne (e ▸ convoy_ne hcv)
    have hnt := nameTrailer_same (addSelf r o act) o t
    obtain ⟨r', e, ea, ep, ei, ef⟩ := ih (nameTrailer (addSelf r o act) o t) n act (by rw [hnt.2.2.2.2.2.1]; exact htr) (by
      intro x hx
      rw [nameTrailer_reg, addSelf_reg]
      rintro (h | h)
      · exact hin x (by simp [hx]) h
      · exact hne (h ▸ hx)) (by simp at hn; omega)
    subst htr
    have ht := hin t (by simp [convoy_ne hcv])
    have h1 : t ∉ (addSelf r o act).active := fun hx => by
      have : Registered (addSelf r o act) t := .inl hx
      rw [addSelf_reg] at this
      rcases this with h | h
      · exact ht h
      · exact hto h
    have h2 : t ∉ (addSelf r o act).pool := fun hx => by
      have : Registered (addSelf r o act) t := .inr hx
      rw [addSelf_reg] at this
      rcases this with h | h
      · exact ht h
      · exact hto h
    refine ⟨r', ?_, ?_, ?_, ?_, ?_⟩
    · simp [addObject, h, hto, h1, h2, e]
    · rw [ea, hnt.1]; cases act <;> simp [addSelf]
    · rw [ep, hnt.2.1]; cases act <;> simp [addSelf]
    · intro i x hx
      cases i with
      | zero =>
        simp at hx; subst hx
        rw [ef o hne, hnt.2.2.2.1]
        simp [addSelf, upd]
      | succ i =>
        have := ei i x (by simpa using hx)
        rw [this, hnt.2.2.1]
        simp only [addSelf]
        omega
    · intro x hx
      simp at hx
      rw [ef x hx.2, hnt.2.2.2.1]
      simp [addSelf, upd, hx.1]

/-! ## Look-up -/

theorem getObjectById_eq (r : Reg) (id : Int) :
    getObjectById r id = (r.active ++ r.pool).find? (fun o => decide (r.idOf o = id)) := by
  unfold getObjectById
  rw [List.find?_append]
  cases r.active.find? (fun o => decide (r.idOf o = id)) <;> rfl

theorem getObjectByName_eq (r : Reg) (nm : String) :
    getObjectByName r nm = (r.active ++ r.pool).find? (fun o => decide (r.name o = nm)) := by
  unfold getObjectByName
  rw [List.find?_append]
  cases r.active.find? (fun o => decide (r.name o = nm)) <;> rfl

/-- C21: look-up by id finds exactly the registered object with that id. -/
theorem getObjectById_exact {r : Reg} (h : Consistent r) (id : Int) (o : Nat) :
    getObjectById r id = some o ↔ Registered r o ∧ r.idOf o = id := by
  rw [getObjectById_eq]
  constructor
  · intro hf
    have h1 := List.mem_of_find?_eq_some hf
    have h2 := List.find?_some hf
    exact ⟨by simpa [Registered] using h1, by simpa using h2⟩
  · rintro ⟨hr, e⟩
    cases hf : (r.active ++ r.pool).find? (fun o => decide (r.idOf o = id)) with
    | none =>
      rw [List.find?_eq_none] at hf
      exact absurd e (by simpa using hf o (by simpa [Registered] using hr))
    | some p =>
      have h1 := List.mem_of_find?_eq_some hf
      have h2 := List.find?_some hf
      rw [h.inj p o (by simpa [Registered] using h1) hr (by simp at h2; rw [h2, e])]

/-- C21: look-up by name finds a registered object with that name if there is one. -/
theorem getObjectByName_exact (r : Reg) (nm : String) :
    (∀ o, getObjectByName r nm = some o → Registered r o ∧ r.name o = nm) ∧
    (getObjectByName r nm = none ↔ ∀ o, Registered r o → r.name o ≠ nm) := by
  rw [getObjectByName_eq]
  constructor
  · intro o hf
    have h1 := List.mem_of_find?_eq_some hf
    have h2 := List.find?_some hf
    exact ⟨by simpa [Registered] using h1, by simpa using h2⟩
  · rw [List.find?_eq_none]
    simp [Registered]

/-- C21: the index is that of the active object with the id, −1 if none. -/
theorem getObjectIdxById_exact {r : Reg} (id : Int) :
    (∀ i : Nat, getObjectIdxById r id = i → ∃ o, r.active[i]? = some o ∧ r.idOf o = id) ∧
    (getObjectIdxById r id = -1 ↔ ∀ o, o ∈ r.active → r.idOf o ≠ id) := by
  unfold getObjectIdxById
  cases hf : r.active.findIdx? (fun o => decide (r.idOf o = id)) with
  | none =>
    rw [List.findIdx?_eq_none_iff] at hf
    refine ⟨fun i hi => ?_, ?_⟩
    · simp at hi
    · simpa using hf
  | some j =>
    rw [List.findIdx?_eq_some_iff_getElem] at hf
    obtain ⟨hj, h1, h2⟩ := hf
    refine ⟨fun i hi => ?_, ?_⟩
    · have : j = i := by simp only at hi; omega
      subst this
      exact ⟨r.active[j], by simp [hj], by simpa using h1⟩
    · constructor
      · intro h; simp at h
      · intro h; exact absurd (by simpa using h1) (h _ (List.getElem_mem hj))

/-- `nameExists` tells whether an active object has the name. -/
theorem nameExists_active (r : Reg) (nm : String) : nameExists r nm = true ↔ ∃ o, o ∈ r.active ∧ r.name o = nm := by
  simp [nameExists]

/-- Removal by id, when the id is that of an active object, removes that object. -/
theorem removeById_exact {r : Reg} (h : Consistent r) {o : Nat} (ho : o ∈ r.active) (n : Nat) (b : Bool) :
    removeById n r (r.idOf o) b = removeObject n r o b := by
  unfold removeById
  cases hf : r.active.find? (fun p => decide (r.idOf p = r.idOf o)) with
  | none =>
    rw [List.find?_eq_none] at hf
    exact absurd (rfl : r.idOf o = r.idOf o) (by simpa using hf o ho)
  | some p =>
    have h1 := List.mem_of_find?_eq_some hf
    have h2 := List.find?_some hf
    rw [h.inj p o (.inl h1) (.inl ho) (by simpa using h2)]

/-! ## Concrete histories -/

/-- A truck (1) with a trailer (2), and a car (3). -/
def fleet : Reg := Reg.initial (fun o => if o = 1 then "truck" else if o = 3 then "car" else "")
  (fun o => if o = 1 then some 2 else none) (fun o => if o = 2 then some 1 else none) (fun o => o = 1 || o = 3) (fun o => o = 2)

def after (r : Reg) (ops : List Op) : Option Reg := ops.foldl (fun s op => s.bind (step · op)) (some r)

/-- The observable part of a state: active and deactivated objects with their ids. -/
def view (r : Option Reg) : Option (List (Nat × Int) × List (Nat × Int)) :=
  r.map fun r => (r.active.map fun o => (o, r.idOf o), r.pool.map fun o => (o, r.idOf o))

example : view (after fleet [.add 1 false, .add 3 false, .activate 1, .activate 3, .deactivate 3]) =
    some ([(1, 0), (2, 1)], [(3, 2)]) := by decide +kernel

example : Convoy fleet.trailer 1 [1, 2] := .cons rfl (.last rfl) (by simp)

example : Legal fleet (.add 1 false) ∧ ∃ r, Run fleet r ∧ r.active = [1, 2] := by
  refine ⟨by simp [Legal, fleet, Reg.initial, Registered], ?_⟩
  obtain ⟨r', e, ea, _⟩ := add_convoy (o := 1) (c := [1, 2]) (tr := fleet.trailer) (.cons rfl (.last rfl) (by simp)) fleet 100
    true rfl (by simp [fleet, Reg.initial, Registered]) (by simp)
  refine ⟨r', .step (op := .add 1 true) .refl (by simp [Legal, fleet, Reg.initial, Registered]) (by simp [step, e]), ?_⟩
  rw [ea]; simp [fleet, Reg.initial]

/-- The trailer gets its name from the truck. -/
example : (after fleet [.add 1 false]).map (fun r => r.name 2) = some "truck+" := by decide +kernel

/-! ## What does not hold -/

/-- C21 fails for `indexExists`: it answers the opposite. -/
theorem indexExists_fails (r : Reg) (id : Int) : indexExists r id = true ↔ ¬∃ o, o ∈ r.active ∧ r.idOf o = id := by
  simp [indexExists]

/-- C21 fails: removing a truck whose trailer is deactivated deletes the trailer but leaves it listed. -/
theorem remove_pooled_trailer_fails : ∃ ops, (after fleet ops).map (fun r => (r.pool, r.freed)) = some ([2], [1, 2]) :=
  ⟨[.add 1 true, .deactivate 2, .remove 1 true], by decide +kernel⟩

/-- C21 fails: removing a trailer alone leaves the truck with a link to a deleted object, which activation then lists. -/
theorem remove_trailer_fails : ∃ ops, (after fleet ops).map (fun r => (r.active, r.freed)) = some ([1, 2], [2]) :=
  ⟨[.add 1 true, .remove 2 true, .deactivate 1, .activate 1], by decide +kernel⟩

/-- C21 fails: an object added twice is listed twice, can not be deactivated any more, and its first id is lost. -/
theorem add_twice_fails : ∃ r, after fleet [.add 3 true, .add 3 true] = some r ∧ r.active = [3, 3] ∧ r.idOf 3 = 1 ∧
    getObjectById r 0 = none ∧ (deactivateObject 100 r 3).map (·.2) = some (-1) :=
  ⟨_, rfl, by decide +kernel, by decide +kernel, by decide +kernel, by decide +kernel⟩

/-- C21 fails: the library call to delete a deactivated object reports success and does nothing. -/
theorem delete_deactivated_fails : ∃ r r', after fleet [.add 3 false] = some r ∧ seDeleteObject 100 r 0 = some (r', 0) ∧
    getObjectById r' 0 = some 3 :=
  ⟨_, _, rfl, rfl, by decide +kernel⟩

/-- C21: activating a truck stops at the first active trailer; a trailer behind it stays deactivated. -/
theorem activate_stops_fails :
    let r0 := Reg.initial (fun _ => "") (fun o => if o = 1 then some 2 else if o = 2 then some 3 else none)
      (fun o => if o = 3 then some 2 else if o = 2 then some 1 else none) (fun _ => true) (fun _ => true)
    (after r0 [.add 1 false, .activate 2, .deactivate 3, .activate 1]).map (fun r => (r.active, r.pool)) = some ([2, 1], [3]) := by
  decide +kernel

/-- A vehicle in its own convoy: removal does not come back, whatever the stack size. -/
theorem remove_cycle_fails (r : Reg) {o t : Nat} (ho : o ∈ r.active) (ht : t ∈ r.active) (h1 : r.trailer o = some t)
    (h2 : r.trailer t = some o) (n : Nat) : removeObject n r o true = none ∧ removeObject n r t true = none := by
  induction n with
  | zero => simp [removeObject]
  | succ n ih => simp [removeObject, ho, ht, h1, h2, ih.1, ih.2]

/-! ## C51: trailer links -/

/-- A vehicle and its trailer point at each other. -/
def Linked (r : Reg) : Prop := ∀ o t, r.trailer o = some t ↔ r.tow t = some o

/-- C51: disconnecting keeps links mutual and removes the link of the vehicle only. -/
theorem disconnect_linked {r : Reg} (o : Nat) (h : Linked r) : Linked (disconnectTrailer r o) ∧
    (disconnectTrailer r o).trailer o = none ∧ ∀ p, p ≠ o → (disconnectTrailer r o).trailer p = r.trailer p := by
  unfold disconnectTrailer
  split
  · rename_i t ht
    refine ⟨?_, by simp [upd], fun p hp => by simp [upd, hp]⟩
    intro p u
    have h1 := h p u
    have h2 := (h o t).1 ht
    simp only [upd]
    by_cases e1 : p = o <;> by_cases e2 : u = t
    · simp [e1, e2]
    · subst e1
      simp only [if_true, e2, if_false]
      constructor
      · intro h; simp at h
      · intro hu
        have := (h p u).2 hu
        rw [ht] at this
        exact absurd (Option.some.inj this).symm e2
    · subst e2
      simp only [e1, if_false, if_true]
      constructor
      · intro hp
        have := (h p u).1 hp
        rw [h2] at this
        exact absurd (Option.some.inj this).symm e1
      · intro h; simp at h
    · simp [e1, e2, h1]
  · rename_i hn
    exact ⟨h, hn, fun _ _ => rfl⟩

/-- C51 (partial): connecting a vehicle with a hitch to a free trailer with a coupler links the two and disconnects the
vehicle's former trailer; other links stay. Missing: the trailer must not be towed already. -/
theorem connect_linked_partial {r : Reg} {o t : Nat} (h : Linked r) (hh : r.hasHitch o = true) (hcp : r.hasCoupler t = true)
    (hfree : r.tow t = none ∨ r.tow t = some o) : Linked (connectAction r o t) ∧ (connectAction r o t).trailer o = some t ∧
      ∀ p, p ≠ o → (connectAction r o t).trailer p = r.trailer p := by
  unfold connectAction
  by_cases e : r.trailer o = some t
  · rw [if_pos e]
    exact ⟨h, e, fun _ _ => rfl⟩
  · simp only [e, if_false]
    have hd := disconnect_linked o h
    have hfr : r.tow t = none := by
      rcases hfree with h' | h'
      · exact h'
      · exact absurd ((h o t).2 h') e
    have htow : (disconnectTrailer r o).tow t = none := by
      unfold disconnectTrailer
      split
      · simp [upd, hfr]
      · exact hfr
    have hc1 : (disconnectTrailer r o).hasCoupler t = true := by unfold disconnectTrailer; split <;> exact hcp
    have hc2 : (disconnectTrailer r o).hasHitch o = true := by unfold disconnectTrailer; split <;> exact hh
    simp only [connectTrailer, hc1, if_true, hc2]
    refine ⟨?_, by simp [upd], fun p hp => by simp [upd, hp, hd.2.2 p hp]⟩
    intro p u
    have h1 := hd.1 p u
    simp only [upd]
    by_cases e1 : p = o <;> by_cases e2 : u = t
    · simp [e1, e2]
    · subst e1
      simp only [if_true, e2, if_false]
      constructor
      · intro h; exact absurd (Option.some.inj h).symm e2
      · intro hu
        have := (hd.1 p u).2 hu
        rw [hd.2.1] at this; cases this
    · subst e2
      simp only [e1, if_false, if_true]
      constructor
      · intro hp
        have := (hd.1 p u).1 hp
        rw [htow] at this; cases this
      · intro h; exact absurd (Option.some.inj h).symm e1
    · simp [e1, e2, h1]

/-- C51 fails: a trailer that another vehicle tows ends up towed by both. -/
theorem connect_stolen_fails : ∃ r, Linked r ∧ (connectAction r 3 2).trailer 1 = some 2 ∧
    (connectAction r 3 2).trailer 3 = some 2 ∧ (connectAction r 3 2).tow 2 = some 3 := by
  refine ⟨fleet, ?_, by decide +kernel, by decide +kernel, by decide +kernel⟩
  intro o t
  simp only [fleet, Reg.initial]
  by_cases h1 : o = 1 <;> by_cases h2 : t = 2 <;> simp_all <;> omega

/-- C51 fails: connecting to a vehicle without hitch leaves the trailer believing it is towed. -/
theorem connect_no_hitch_fails : ∃ r, Linked r ∧ (connectAction r 4 2).trailer 4 = none ∧ (connectAction r 4 2).tow 2 = some 4 := by
  refine ⟨{ fleet with trailer := fun _ => none, tow := fun _ => none }, ?_, by decide +kernel, by decide +kernel⟩
  intro o t; simp

example : Linked fleet ∧ fleet.hasHitch 3 = true ∧ (disconnectTrailer fleet 1).tow 2 = none := by
  refine ⟨?_, by decide +kernel, by decide +kernel⟩
  intro o t
  simp only [fleet, Reg.initial]
  by_cases h1 : o = 1 <;> by_cases h2 : t = 2 <;> simp_all <;> omega

end Verif.Entities
