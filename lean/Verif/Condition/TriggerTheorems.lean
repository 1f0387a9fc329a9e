import Verif.Condition.Theorems

/-! C09: triggers, groups and conditions over time. -/
namespace Verif.Condition
open Verif.Common

/-- A step in the life of a trigger: it is evaluated at time `t` while the logical expression of
condition `i` has the value `ω i`; or it is reset. -/
inductive TStep where
  | eval (t : Rat) (ω : Nat → Bool)
  | reset

/-- What happened: an evaluation with its result, or a reset. -/
inductive TEvent where
  | eval (t : Rat) (ω : Nat → Bool) (out : Bool)
  | reset

/-- Perform the steps and record what happened. -/
def runTrig (T : Trig) : List TStep → Option (Trig × List TEvent)
  | [] => some (T, [])
  | .eval t ω :: r => do
    let (T, b) ← evalTrig t ω T
    let (T, es) ← runTrig T r
    some (T, .eval t ω b :: es)
  | .reset :: r => do
    let (T, es) ← runTrig T.reset r
    some (T, .reset :: es)

/-- The same history seen by condition `i`: it is evaluated at each evaluation of the trigger. -/
def opsOf (i : Nat) : List TEvent → List Op
  | [] => []
  | .eval t ω out :: r => .eval t (ω i) :: ((if out then [.fired] else []) ++ opsOf i r)
  | .reset :: r => .reset :: opsOf i r

/-- Specification: condition with identity `i`, edge `e` and delay `d` is true at time `t` after history `tr`. -/
def CondTrue (i : Nat) (e : Edge) (d : Rat) (tr : List TEvent) (t : Rat) (ω : Nat → Bool) : Prop :=
  Delayed d (signal e none [] (opsOf i tr)) ⟨t, decide (IsEdge e (prevResult none (opsOf i tr)) (ω i))⟩

/-- Specification of a trigger: some group has only true conditions (and at least one). -/
def TrigTrue (T : Trig) (tr : List TEvent) (t : Rat) (ω : Nat → Bool) : Prop :=
  (T.groups = [] ∧ T.default = true) ∨
  ∃ g ∈ T.groups, g ≠ [] ∧ ∀ c ∈ g, CondTrue c.id c.edge c.delay tr t ω

/-- evaluation times of a list of steps -/
def times : List TStep → List Rat
  | [] => []
  | .eval t _ :: r => t :: times r
  | .reset :: r => times r

def tracetimes : List TEvent → List Rat
  | [] => []
  | .eval t _ _ :: r => t :: tracetimes r
  | .reset :: r => tracetimes r

/-- time moves forward by at least `SMALL_NUMBER` between evaluations -/
def TForward (l : List TStep) : Prop := (times l).Pairwise (fun a b => a + small ≤ b)

/-- conditions for which the order within a group does not matter: no edge, or a delay -/
def OrderSafe (c : Cond) : Prop := 0 ≤ c.delay ∧ (c.edge = .none ∨ 0 < c.delay)

/-- as the scenario reader leaves it -/
def Cond.IsFresh (c : Cond) : Prop := c = fresh c.id c.edge c.delay

theorem prevResult_append (p) (l r : List Op) : prevResult p (l ++ r) = prevResult (prevResult p l) r := by
  induction l generalizing p with
  | nil => rfl
  | cons o l ih => cases o <;> simp [prevResult, ih]

theorem signal_append (e p acc) (l r : List Op) :
    signal e p acc (l ++ r) = signal e (prevResult p l) (signal e p acc l) r := by
  induction l generalizing p acc with
  | nil => rfl
  | cons o l ih => cases o <;> simp [signal, prevResult, ih]

theorem opsOf_append (i) (l r : List TEvent) : opsOf i (l ++ r) = opsOf i l ++ opsOf i r := by
  induction l with
  | nil => rfl
  | cons o l ih => cases o <;> simp [opsOf, ih]

theorem tracetimes_append (l r : List TEvent) : tracetimes (l ++ r) = tracetimes l ++ tracetimes r := by
  induction l with
  | nil => rfl
  | cons o l ih => cases o <;> simp [tracetimes, ih]

/-- What is known of a condition of the trigger after history `tr`, except whether the last
result put it to idle. -/
structure CInv (tr : List TEvent) (c : Cond) : Prop where
  safe : OrderSafe c
  timed : 0 < c.delay → CondOK c.edge c.delay (prevResult none (opsOf c.id tr)) (signal c.edge none [] (opsOf c.id tr)) c ∧
      Sorted (signal c.edge none [] (opsOf c.id tr)) ∧
      ∀ x ∈ signal c.edge none [] (opsOf c.id tr), x.time ∈ tracetimes tr
  plain : ¬ 0 < c.delay → ∃ p s, CondOK .none 0 p s c ∧ Sorted s ∧ ∀ x ∈ s, x.time ∈ tracetimes tr

def key (c : Cond) : Nat × Edge × Rat := (c.id, c.edge, c.delay)

theorem condTrue_plain {c : Cond} {tr t ω} (hs : OrderSafe c) (hd : ¬ 0 < c.delay)
    (hord : ∀ x ∈ signal c.edge none [] (opsOf c.id tr), x.time + small ≤ t)
    (hsrt : Sorted (signal c.edge none [] (opsOf c.id tr))) :
    CondTrue c.id c.edge c.delay tr t ω ↔ ω c.id = true := by
  have h0 : c.delay = 0 := by have := hs.1; grind
  have he : c.edge = .none := by rcases hs.2 with h | h; exact h; exact absurd h hd
  unfold CondTrue
  rw [h0, delayed_zero]
  · simp [he, IsEdge]
  · refine List.pairwise_append.2 ⟨hsrt, by simp, ?_⟩
    intro x hx y hy
    simp at hy; subst hy
    exact hord x hx

/-- The signal of a condition only has samples at evaluation times, in order. -/
theorem signal_times (e : Edge) (i : Nat) (tr : List TEvent) (hf : (tracetimes tr).Pairwise (fun a b => a + small ≤ b)) :
    ∀ (p : Option Bool) (acc : List Entry), Sorted acc → (∀ x ∈ acc, ∀ y ∈ tracetimes tr, x.time + small ≤ y) →
      Sorted (signal e p acc (opsOf i tr)) ∧
      ∀ x ∈ signal e p acc (opsOf i tr), x ∈ acc ∨ x.time ∈ tracetimes tr := by
  induction tr with
  | nil => intro p acc h _; exact ⟨h, fun x hx => Or.inl hx⟩
  | cons ev tr ih =>
    intro p acc ha hb
    cases ev with
    | eval t ω out =>
      have hf' := List.pairwise_cons.1 hf
      have hacc : Sorted (acc ++ [⟨t, decide (IsEdge e p (ω i))⟩]) := by
        refine List.pairwise_append.2 ⟨ha, by simp, ?_⟩
        intro x hx y hy
        simp at hy; subst hy
        exact hb x hx t (by simp [tracetimes])
      have hb2 : ∀ x ∈ acc ++ [⟨t, decide (IsEdge e p (ω i))⟩], ∀ y ∈ tracetimes tr, x.time + small ≤ y := by
        intro x hx y hy
        rcases List.mem_append.1 hx with hx | hx
        · exact hb x hx y (by simp [tracetimes, hy])
        · simp at hx; subst hx; exact hf'.1 y hy
      have key : ∀ q, Sorted (signal e q (acc ++ [⟨t, decide (IsEdge e p (ω i))⟩]) (opsOf i tr)) ∧
          ∀ x ∈ signal e q (acc ++ [⟨t, decide (IsEdge e p (ω i))⟩]) (opsOf i tr),
            x ∈ acc ∨ x.time ∈ tracetimes (.eval t ω out :: tr) := by
        intro q
        obtain ⟨h1, h2⟩ := ih hf'.2 q _ hacc hb2
        refine ⟨h1, ?_⟩
        intro x hx
        rcases h2 x hx with h | h
        · rcases List.mem_append.1 h with h | h
          · exact Or.inl h
          · simp at h; subst h; exact Or.inr (by simp [tracetimes])
        · exact Or.inr (by simp [tracetimes, h])
      cases out
      · simpa [opsOf, signal] using key (some (ω i))
      · simpa [opsOf, signal] using key none
    | reset =>
      obtain ⟨h1, h2⟩ := ih hf p [] List.Pairwise.nil (by simp)
      refine ⟨h1, ?_⟩
      intro x hx
      rcases h2 x hx with h | h
      · simp at h
      · exact Or.inr h

theorem signal_ok (e : Edge) (i : Nat) (tr : List TEvent) (hf : (tracetimes tr).Pairwise (fun a b => a + small ≤ b)) :
    Sorted (signal e none [] (opsOf i tr)) ∧ ∀ x ∈ signal e none [] (opsOf i tr), x.time ∈ tracetimes tr := by
  obtain ⟨h1, h2⟩ := signal_times e i tr hf none [] List.Pairwise.nil (by simp)
  exact ⟨h1, fun x hx => (h2 x hx).resolve_left (by simp)⟩

/-- A condition that is evaluated. -/
theorem cinv_eval {tr : List TEvent} {c : Cond} (h : CInv tr c) (t : Rat) (ω : Nat → Bool)
    (hf : (tracetimes tr ++ [t]).Pairwise (fun a b => a + small ≤ b)) :
    ∃ c' b, evalCond t (ω c.id) c = some (c', b) ∧ key c' = key c ∧
      CInv (tr ++ [.eval t ω false]) c' ∧ (b = true ↔ CondTrue c.id c.edge c.delay tr t ω) := by
  have hfa := List.pairwise_append.1 hf
  have hlt : ∀ y ∈ tracetimes tr, y + small ≤ t := fun y hy => hfa.2.2 y hy t (by simp)
  have hops : opsOf c.id (tr ++ [.eval t ω false]) = opsOf c.id tr ++ [.eval t (ω c.id)] := by
    rw [opsOf_append]; simp [opsOf]
  by_cases hd : 0 < c.delay
  · obtain ⟨hok, hs, hm⟩ := h.timed hd
    have hsx : Sorted (signal c.edge none [] (opsOf c.id tr) ++
        [⟨t, decide (IsEdge c.edge (prevResult none (opsOf c.id tr)) (ω c.id))⟩]) := by
      refine List.pairwise_append.2 ⟨hs, by simp, ?_⟩
      intro x hx y hy
      simp at hy; subst hy
      exact hlt _ (hm x hx)
    obtain ⟨c', b, h1, hid, hok', hb⟩ := evalCond_spec h.safe.1 hok t (ω c.id) hsx
    refine ⟨c', b, h1, ?_, ?_, hb⟩
    · simp [key, hid, hok'.edge, hok'.delay]
    · refine ⟨?_, ?_, ?_⟩
      · unfold OrderSafe; rw [hok'.edge, hok'.delay]; exact h.safe
      · intro _
        rw [hid, hok'.edge, hok'.delay, hops, prevResult_append, signal_append]
        refine ⟨hok', hsx, ?_⟩
        intro x hx
        rw [tracetimes_append]
        simp only [signal] at hx
        rcases List.mem_append.1 hx with hx | hx
        · exact List.mem_append_left _ (hm x hx)
        · simp at hx; subst hx; simp [tracetimes]
      · intro hn; rw [hok'.delay] at hn; exact absurd hd hn
  · obtain ⟨p, s, hok, hs, hm⟩ := h.plain hd
    have hsx : Sorted (s ++ [⟨t, decide (IsEdge .none p (ω c.id))⟩]) := by
      refine List.pairwise_append.2 ⟨hs, by simp, ?_⟩
      intro x hx y hy
      simp at hy; subst hy
      exact hlt _ (hm x hx)
    obtain ⟨c', b, h1, hid, hok', hb⟩ := evalCond_spec Rat.le_refl hok t (ω c.id) hsx
    refine ⟨c', b, h1, ?_, ?_, ?_⟩
    · simp [key, hid, hok'.edge, hok'.delay, hok.edge, hok.delay]
    · refine ⟨?_, ?_, ?_⟩
      · unfold OrderSafe; rw [hok'.edge, hok'.delay]; exact ⟨Rat.le_refl, Or.inl rfl⟩
      · intro hn; rw [hok'.delay] at hn; exact absurd hn (by decide +kernel)
      · intro _
        refine ⟨_, _, hok', hsx, ?_⟩
        intro x hx
        rw [tracetimes_append]
        rcases List.mem_append.1 hx with hx | hx
        · exact List.mem_append_left _ (hm x hx)
        · simp at hx; subst hx; simp [tracetimes]
    · obtain ⟨h2, h3⟩ := signal_ok c.edge c.id tr hfa.1
      rw [hb, delayed_zero hsx, condTrue_plain h.safe hd (fun x hx => hlt _ (h3 x hx)) h2]
      rw [decide_eq_true_iff]
      exact Iff.rfl

/-- A condition without delay that is skipped. -/
theorem cinv_skip {tr : List TEvent} {c : Cond} (h : CInv tr c) (hd : ¬ 0 < c.delay) (t : Rat) (ω : Nat → Bool) :
    CInv (tr ++ [.eval t ω false]) c := by
  obtain ⟨p, s, hok, hs, hm⟩ := h.plain hd
  refine ⟨h.safe, fun hn => absurd hn hd, fun _ => ⟨p, s, hok, hs, ?_⟩⟩
  intro x hx
  rw [tracetimes_append]
  exact List.mem_append_left _ (hm x hx)

theorem evalConds_spec {tr : List TEvent} (t : Rat) (ω : Nat → Bool)
    (hf : (tracetimes tr ++ [t]).Pairwise (fun a b => a + small ≤ b)) (cs : List Cond) :
    ∀ r, (∀ c ∈ cs, CInv tr c) →
    ∃ cs' r', evalConds t ω r cs = some (cs', r') ∧ cs'.map key = cs.map key ∧
      (∀ c ∈ cs', CInv (tr ++ [.eval t ω false]) c) ∧
      (r' = true ↔ r = true ∧ ∀ c ∈ cs, CondTrue c.id c.edge c.delay tr t ω) := by
  induction cs with
  | nil => intro r _; exact ⟨[], r, rfl, rfl, by simp, by simp⟩
  | cons c cs ih =>
    intro r hc
    have hcs : ∀ c ∈ cs, CInv tr c := fun c' h => hc c' (List.mem_cons_of_mem _ h)
    simp only [evalConds]
    by_cases hcond : r = true ∨ c.delay > 0
    · rw [if_pos hcond]
      obtain ⟨c', b, h1, hk, hinv, hb⟩ := cinv_eval (hc c List.mem_cons_self) t ω hf
      obtain ⟨cs', r', h2, hk2, hinv2, hr⟩ := ih (r && b) hcs
      refine ⟨c' :: cs', r', ?_, by simp [hk, hk2], ?_, ?_⟩
      · simp [h1, h2]
      · intro x hx
        rcases List.mem_cons.1 hx with rfl | hx
        · exact hinv
        · exact hinv2 x hx
      · rw [hr]; simp only [Bool.and_eq_true, hb, List.mem_cons, forall_eq_or_imp, and_assoc]
    · rw [if_neg hcond]
      have hr0 : r = false := by cases r <;> simp_all
      have hd : ¬ 0 < c.delay := fun h => hcond (Or.inr h)
      obtain ⟨cs', r', h2, hk2, hinv2, hr⟩ := ih r hcs
      refine ⟨c :: cs', r', by simp [h2], by simp [hk2], ?_, ?_⟩
      · intro x hx
        rcases List.mem_cons.1 hx with rfl | hx
        · exact cinv_skip (hc x List.mem_cons_self) hd t ω
        · exact hinv2 x hx
      · rw [hr]; simp [hr0]

theorem evalGroups_spec {tr : List TEvent} (t : Rat) (ω : Nat → Bool)
    (hf : (tracetimes tr ++ [t]).Pairwise (fun a b => a + small ≤ b)) (gs : List (List Cond)) :
    ∀ r, (∀ g ∈ gs, ∀ c ∈ g, CInv tr c) →
    ∃ gs' r', evalGroups t ω r gs = some (gs', r') ∧ gs'.map (·.map key) = gs.map (·.map key) ∧
      (∀ g ∈ gs', ∀ c ∈ g, CInv (tr ++ [.eval t ω false]) c) ∧
      (r' = true ↔ r = true ∨ ∃ g ∈ gs, g ≠ [] ∧ ∀ c ∈ g, CondTrue c.id c.edge c.delay tr t ω) := by
  induction gs with
  | nil => intro r _; exact ⟨[], r, rfl, rfl, by simp, by simp⟩
  | cons g gs ih =>
    intro r hg
    have hgs : ∀ g ∈ gs, ∀ c ∈ g, CInv tr c := fun g' h => hg g' (List.mem_cons_of_mem _ h)
    obtain ⟨g', b, h1, hk, hinv, hb⟩ : ∃ g' b, evalGroup t ω g = some (g', b) ∧ g'.map key = g.map key ∧
        (∀ c ∈ g', CInv (tr ++ [.eval t ω false]) c) ∧
        (b = true ↔ g ≠ [] ∧ ∀ c ∈ g, CondTrue c.id c.edge c.delay tr t ω) := by
      unfold evalGroup
      by_cases h0 : g = []
      · subst h0; exact ⟨[], false, by simp, rfl, by simp, by simp⟩
      · rw [if_neg h0]
        obtain ⟨g', b, h1, hk, hinv, hb⟩ := evalConds_spec t ω hf g true (hg g List.mem_cons_self)
        exact ⟨g', b, h1, hk, hinv, by rw [hb]; simp [h0]⟩
    obtain ⟨gs', r', h2, hk2, hinv2, hr⟩ := ih (r || b) hgs
    refine ⟨g' :: gs', r', ?_, by simp [hk, hk2], ?_, ?_⟩
    · simp [evalGroups, h1, h2]
    · intro x hx
      rcases List.mem_cons.1 hx with rfl | hx
      · exact hinv
      · exact hinv2 x hx
    · rw [hr]
      simp only [Bool.or_eq_true, hb, List.mem_cons, exists_eq_or_imp, or_assoc]

theorem cinv_fired {tr : List TEvent} {t ω} {c : Cond} (h : CInv (tr ++ [.eval t ω false]) c) :
    CInv (tr ++ [.eval t ω true]) c.idle := by
  have hops : opsOf c.id (tr ++ [.eval t ω true]) = opsOf c.id (tr ++ [.eval t ω false]) ++ [.fired] := by
    simp [opsOf_append, opsOf]
  have htt : tracetimes (tr ++ [.eval t ω true]) = tracetimes (tr ++ [.eval t ω false]) := by
    simp [tracetimes_append, tracetimes]
  refine ⟨h.safe, ?_, ?_⟩
  · intro hd
    obtain ⟨hok, hs, hm⟩ := h.timed hd
    show CondOK c.edge c.delay (prevResult none (opsOf c.id _)) (signal c.edge none [] (opsOf c.id _)) c.idle ∧
      Sorted (signal c.edge none [] (opsOf c.id _)) ∧ ∀ x ∈ signal c.edge none [] (opsOf c.id _), _
    rw [hops, prevResult_append, signal_append, htt]
    exact ⟨⟨hok.edge, hok.delay, rfl, by simp [prevResult], hok.hist⟩, hs, hm⟩
  · intro hd
    obtain ⟨p, s, hok, hs, hm⟩ := h.plain hd
    rw [htt]
    exact ⟨none, s, ⟨hok.edge, hok.delay, rfl, by simp, hok.hist⟩, hs, hm⟩

theorem cinv_reset {tr : List TEvent} {c : Cond} (h : CInv tr c) : CInv (tr ++ [.reset]) c.reset := by
  have hops : opsOf c.id (tr ++ [.reset]) = opsOf c.id tr ++ [.reset] := by simp [opsOf_append, opsOf]
  refine ⟨h.safe, ?_, ?_⟩
  · intro hd
    obtain ⟨hok, hs, hm⟩ := h.timed hd
    show CondOK c.edge c.delay (prevResult none (opsOf c.id _)) (signal c.edge none [] (opsOf c.id _)) c.reset ∧
      Sorted (signal c.edge none [] (opsOf c.id _)) ∧ ∀ x ∈ signal c.edge none [] (opsOf c.id _), _
    rw [hops, prevResult_append, signal_append]
    exact ⟨⟨hok.edge, hok.delay, hok.evaluated, hok.last, rfl⟩, List.Pairwise.nil, by simp [signal]⟩
  · intro hd
    obtain ⟨p, s, hok, hs, hm⟩ := h.plain hd
    exact ⟨p, [], ⟨hok.edge, hok.delay, hok.evaluated, hok.last, rfl⟩, List.Pairwise.nil, by simp⟩

theorem cinv_fresh {c : Cond} (hf : c.IsFresh) (hs : OrderSafe c) : CInv [] c := by
  refine ⟨hs, ?_, ?_⟩
  · intro _
    refine ⟨?_, List.Pairwise.nil, by simp [opsOf, signal]⟩
    have := fresh_ok c.id c.edge c.delay
    unfold Cond.IsFresh at hf
    rw [← hf] at this
    exact this
  · intro hd
    have h0 : c.delay = 0 := by have := hs.1; grind
    have he : c.edge = .none := by rcases hs.2 with h | h; exact h; exact absurd h hd
    have := fresh_ok c.id c.edge c.delay
    unfold Cond.IsFresh at hf
    rw [← hf, h0, he] at this
    exact ⟨none, [], this, List.Pairwise.nil, by simp⟩

theorem keys_true {gs gs' : List (List Cond)} (hk : gs'.map (·.map key) = gs.map (·.map key)) {tr t ω}
    (h : ∃ g ∈ gs', g ≠ [] ∧ ∀ c ∈ g, CondTrue c.id c.edge c.delay tr t ω) :
    ∃ g ∈ gs, g ≠ [] ∧ ∀ c ∈ g, CondTrue c.id c.edge c.delay tr t ω := by
  obtain ⟨g', hg', hne, hc⟩ := h
  have : g'.map key ∈ gs.map (·.map key) := by rw [← hk]; exact List.mem_map_of_mem hg'
  obtain ⟨g, hg, hgk⟩ := List.mem_map.1 this
  refine ⟨g, hg, ?_, ?_⟩
  · intro h0; subst h0; simp at hgk; exact hne hgk
  · intro c hcm
    have hm : key c ∈ g'.map key := by rw [← hgk]; exact List.mem_map_of_mem hcm
    obtain ⟨c', hc', hkc⟩ := List.mem_map.1 hm
    have h1 := hc c' hc'
    simp only [key, Prod.mk.injEq] at hkc
    rw [hkc.1, hkc.2.1, hkc.2.2] at h1
    exact h1

theorem evalTrig_spec {T0 T : Trig} {tr : List TEvent} (hd : T.default = T0.default)
    (hk : T.groups.map (·.map key) = T0.groups.map (·.map key))
    (hi : ∀ g ∈ T.groups, ∀ c ∈ g, CInv tr c) (t : Rat) (ω : Nat → Bool)
    (hf : (tracetimes tr ++ [t]).Pairwise (fun a b => a + small ≤ b)) :
    ∃ T' b, evalTrig t ω T = some (T', b) ∧ T'.default = T0.default ∧
      T'.groups.map (·.map key) = T0.groups.map (·.map key) ∧
      (∀ g ∈ T'.groups, ∀ c ∈ g, CInv (tr ++ [.eval t ω b]) c) ∧ (b = true ↔ TrigTrue T0 tr t ω) := by
  have hnil : T.groups = [] ↔ T0.groups = [] := by
    constructor
    · intro h; rw [h] at hk; simpa using hk.symm
    · intro h; rw [h] at hk; simpa using hk
  obtain ⟨gs, r, h1, hk1, hi1, hr⟩ : ∃ gs r,
      trigResult t ω T = some (gs, r) ∧
      gs.map (·.map key) = T0.groups.map (·.map key) ∧
      (∀ g ∈ gs, ∀ c ∈ g, CInv (tr ++ [.eval t ω false]) c) ∧ (r = true ↔ TrigTrue T0 tr t ω) := by
    unfold trigResult
    by_cases h0 : T.groups = []
    · rw [if_pos h0]
      have h0' := hnil.1 h0
      exact ⟨[], T.default, rfl, by simp [h0'], by simp, by simp [TrigTrue, h0', hd]⟩
    · rw [if_neg h0]
      obtain ⟨gs', r', h1, hk1, hi1, hr⟩ := evalGroups_spec t ω hf T.groups false hi
      refine ⟨gs', r', h1, hk1.trans hk, hi1, ?_⟩
      rw [hr]
      have h0' : T0.groups ≠ [] := fun h => h0 (hnil.2 h)
      simp only [TrigTrue, h0', false_and, false_or, Bool.false_eq_true]
      exact ⟨keys_true hk, keys_true hk.symm⟩
  refine ⟨⟨if r then gs.map (·.map Cond.idle) else gs, T.default⟩, r, ?_, hd, ?_, ?_, hr⟩
  · unfold evalTrig
    simp only [h1, bind, Option.bind_some]
  · cases r
    · simpa using hk1
    · simp only [if_true, List.map_map]
      rw [← hk1]
      apply List.map_congr_left
      intro g _
      simp only [Function.comp, List.map_map]
      apply List.map_congr_left
      intro c _; rfl
  · cases r
    · simpa using hi1
    · intro g hg c hc
      simp only [if_true] at hg
      obtain ⟨g0, hg0, rfl⟩ := List.mem_map.1 hg
      obtain ⟨c0, hc0, rfl⟩ := List.mem_map.1 hc
      exact cinv_fired (hi1 g0 hg0 c0 hc0)

theorem runTrig_spec {T0 : Trig} (steps : List TStep) :
    ∀ (T : Trig) (tr : List TEvent), T.default = T0.default →
      T.groups.map (·.map key) = T0.groups.map (·.map key) →
      (∀ g ∈ T.groups, ∀ c ∈ g, CInv tr c) →
      (tracetimes tr ++ times steps).Pairwise (fun a b => a + small ≤ b) →
      ∃ T' es, runTrig T steps = some (T', es) ∧
        ∀ pre t ω out post, es = pre ++ .eval t ω out :: post → (out = true ↔ TrigTrue T0 (tr ++ pre) t ω) := by
  induction steps with
  | nil =>
    intro T tr _ _ _ _
    exact ⟨T, [], rfl, by simp⟩
  | cons st steps ih =>
    intro T tr hd hk hi hf
    cases st with
    | eval t ω =>
      have hf1 : (tracetimes tr ++ [t]).Pairwise (fun a b => a + small ≤ b) := by
        refine hf.sublist ?_
        simp [times]
      obtain ⟨T1, b, h1, hd1, hk1, hi1, hb⟩ := evalTrig_spec hd hk hi t ω hf1
      obtain ⟨T2, es, h2, hes⟩ := ih T1 (tr ++ [.eval t ω b]) hd1 hk1 hi1 (by
        rw [tracetimes_append]; simpa [tracetimes, times] using hf)
      refine ⟨T2, .eval t ω b :: es, by simp [runTrig, h1, h2], ?_⟩
      intro pre t' ω' out post heq
      cases pre with
      | nil =>
        simp only [List.nil_append, List.cons.injEq, TEvent.eval.injEq] at heq
        obtain ⟨⟨rfl, rfl, rfl⟩, _⟩ := heq
        simpa using hb
      | cons x pre =>
        simp only [List.cons_append, List.cons.injEq] at heq
        obtain ⟨rfl, heq⟩ := heq
        have := hes pre t' ω' out post heq
        simpa using this
    | reset =>
      obtain ⟨T2, es, h2, hes⟩ := ih T.reset (tr ++ [.reset]) hd (by
          rw [← hk]
          simp only [Trig.reset, List.map_map]
          apply List.map_congr_left
          intro g _
          simp only [Function.comp, List.map_map]
          apply List.map_congr_left
          intro c _; rfl) (by
          intro g hg c hc
          simp only [Trig.reset] at hg
          obtain ⟨g0, hg0, rfl⟩ := List.mem_map.1 hg
          obtain ⟨c0, hc0, rfl⟩ := List.mem_map.1 hc
          exact cinv_reset (hi g0 hg0 c0 hc0)) (by
        rw [tracetimes_append]; simpa [tracetimes, times] using hf)
      refine ⟨T2, .reset :: es, by simp [runTrig, h2], ?_⟩
      intro pre t' ω' out post heq
      cases pre with
      | nil => simp at heq
      | cons x pre =>
        simp only [List.cons_append, List.cons.injEq] at heq
        obtain ⟨rfl, heq⟩ := heq
        have := hes pre t' ω' out post heq
        simpa using this

/-- **C09.** For every trigger made of conditions that have no edge or have a delay, and every history
of evaluations (times moving forward) and resets: nothing undefined happens, and at each evaluation
the trigger is true iff some group has only true conditions and at least one; an empty trigger gives its
default. The truth of each condition depends only on its own logical expression over time and on when the
trigger fired and was reset. -/
theorem trigger_or_of_and (T : Trig) (hfr : ∀ g ∈ T.groups, ∀ c ∈ g, c.IsFresh)
    (hsafe : ∀ g ∈ T.groups, ∀ c ∈ g, OrderSafe c) (steps : List TStep) (hf : TForward steps) :
    ∃ T' es, runTrig T steps = some (T', es) ∧
      ∀ pre t ω out post, es = pre ++ .eval t ω out :: post → (out = true ↔ TrigTrue T pre t ω) := by
  have := runTrig_spec (T0 := T) steps T [] rfl rfl
    (fun g hg c hc => cinv_fresh (hfr g hg c hc) (hsafe g hg c hc)) (by simpa [tracetimes, TForward] using hf)
  simpa using this

theorem runTrig_times (T : Trig) (steps : List TStep) (T' es) (h : runTrig T steps = some (T', es)) :
    tracetimes es = times steps := by
  induction steps generalizing T es with
  | nil => simp [runTrig] at h; simp [h.2, tracetimes, times]
  | cons s steps ih =>
    cases s with
    | eval t ω =>
      simp only [runTrig, bind, Option.bind_eq_some_iff] at h
      obtain ⟨⟨T1, b⟩, _, ⟨T2, es2⟩, h2, h3⟩ := h
      simp only [Option.some.injEq, Prod.mk.injEq] at h3
      rw [← h3.2]
      have := ih _ _ (h3.1 ▸ h2)
      simp [tracetimes, times, this]
    | reset =>
      simp only [runTrig, bind, Option.bind_eq_some_iff] at h
      obtain ⟨⟨T2, es2⟩, h2, h3⟩ := h
      simp only [Option.some.injEq, Prod.mk.injEq] at h3
      rw [← h3.2]
      have := ih _ _ (h3.1 ▸ h2)
      simp [tracetimes, times, this]

/-- **C09** without edges and delays: at each evaluation the result is the disjunction over the groups of
the conjunction of the logical expressions as they are now. -/
theorem trigger_plain (T : Trig) (hfr : ∀ g ∈ T.groups, ∀ c ∈ g, c.IsFresh)
    (hplain : ∀ g ∈ T.groups, ∀ c ∈ g, c.edge = .none ∧ c.delay = 0) (steps : List TStep) (hf : TForward steps) :
    ∃ T' es, runTrig T steps = some (T', es) ∧
      ∀ pre t ω out post, es = pre ++ .eval t ω out :: post →
        (out = true ↔ (T.groups = [] ∧ T.default = true) ∨ ∃ g ∈ T.groups, g ≠ [] ∧ ∀ c ∈ g, ω c.id = true) := by
  obtain ⟨T', es, h, hes⟩ := trigger_or_of_and T hfr
    (fun g hg c hc => ⟨by rw [(hplain g hg c hc).2]; exact Rat.le_refl, Or.inl (hplain g hg c hc).1⟩) steps hf
  refine ⟨T', es, h, ?_⟩
  intro pre t ω out post heq
  rw [hes pre t ω out post heq]
  unfold TrigTrue
  have ht := runTrig_times _ _ _ _ h
  rw [heq, tracetimes_append] at ht
  unfold TForward at hf
  rw [← ht] at hf
  have hfp := List.pairwise_append.1 hf
  have hct : ∀ g ∈ T.groups, ∀ c ∈ g, (CondTrue c.id c.edge c.delay pre t ω ↔ ω c.id = true) := by
    intro g hg c hc
    obtain ⟨h1, h2⟩ := signal_ok c.edge c.id pre hfp.1
    refine condTrue_plain ?_ ?_ ?_ h1
    · exact ⟨by rw [(hplain g hg c hc).2]; exact Rat.le_refl, Or.inl (hplain g hg c hc).1⟩
    · rw [(hplain g hg c hc).2]; exact Rat.lt_irrefl
    · intro x hx
      exact hfp.2.2 _ (h2 x hx) t (by simp [tracetimes])
  refine or_congr Iff.rfl ?_
  constructor
  · rintro ⟨g, hg, hne, hc⟩
    exact ⟨g, hg, hne, fun c hcm => (hct g hg c hcm).1 (hc c hcm)⟩
  · rintro ⟨g, hg, hne, hc⟩
    exact ⟨g, hg, hne, fun c hcm => (hct g hg c hcm).2 (hc c hcm)⟩

/-- results of the evaluations -/
def outputs : List TEvent → List Bool
  | [] => []
  | .eval _ _ b :: r => b :: outputs r
  | .reset :: r => outputs r

/-- the same conditions, with the order inside the groups changed -/
structure SameUpToOrder (T U : Trig) : Prop where
  default : T.default = U.default
  length : T.groups.length = U.groups.length
  perm : ∀ i (h : i < T.groups.length), (T.groups[i]).Perm (U.groups[i]'(length ▸ h))

theorem SameUpToOrder.exists_iff {T U : Trig} (h : SameUpToOrder T U) (s : List Cond → Prop)
    (hs : ∀ g h, g.Perm h → s g → s h) : (∃ g ∈ T.groups, s g) ↔ ∃ g ∈ U.groups, s g := by
  have hlen := h.length
  refine ⟨?_, ?_⟩
  · rintro ⟨g, hg, hsg⟩
    obtain ⟨i, hi, rfl⟩ := List.mem_iff_getElem.1 hg
    exact ⟨_, List.getElem_mem (hlen ▸ hi), hs _ _ (h.perm i hi) hsg⟩
  · rintro ⟨g, hg, hsg⟩
    obtain ⟨i, hi, rfl⟩ := List.mem_iff_getElem.1 hg
    exact ⟨_, List.getElem_mem (hlen ▸ hi), hs _ _ (h.perm i (hlen ▸ hi)).symm hsg⟩

theorem trigTrue_order {T U : Trig} (h : SameUpToOrder T U) (tr t ω) : TrigTrue T tr t ω ↔ TrigTrue U tr t ω := by
  unfold TrigTrue
  have hnil : T.groups = [] ↔ U.groups = [] := by
    rw [← List.length_eq_zero_iff, ← List.length_eq_zero_iff, h.length]
  rw [hnil, h.default]
  refine or_congr Iff.rfl ?_
  refine h.exists_iff (fun g => g ≠ [] ∧ ∀ c ∈ g, CondTrue c.id c.edge c.delay tr t ω) ?_
  intro g g' hp hs
  refine ⟨fun h0 => hs.1 (by subst h0; exact hp.eq_nil), fun c hc => hs.2 c (hp.mem_iff.2 hc)⟩

theorem runTrig_shape (T : Trig) (steps : List TStep) (T' es) (h : runTrig T steps = some (T', es)) :
    es.length = steps.length ∧ ∀ (i : Nat),
      (∀ t ω, steps[i]? = some (.eval t ω) → ∃ b, es[i]? = some (.eval t ω b)) ∧
      (steps[i]? = some .reset → es[i]? = some .reset) := by
  induction steps generalizing T es with
  | nil => simp [runTrig] at h; simp [h.2]
  | cons s steps ih =>
    cases s with
    | eval t ω =>
      simp only [runTrig, bind, Option.bind_eq_some_iff] at h
      obtain ⟨⟨T1, b⟩, _, ⟨T2, es2⟩, h2, h3⟩ := h
      simp only [Option.some.injEq, Prod.mk.injEq] at h3
      rw [← h3.2]
      obtain ⟨hl, hi⟩ := ih _ _ (h3.1 ▸ h2)
      refine ⟨by simp [hl], fun i => ?_⟩
      cases i with
      | zero => simp
      | succ i => simpa using hi i
    | reset =>
      simp only [runTrig, bind, Option.bind_eq_some_iff] at h
      obtain ⟨⟨T2, es2⟩, h2, h3⟩ := h
      simp only [Option.some.injEq, Prod.mk.injEq] at h3
      rw [← h3.2]
      obtain ⟨hl, hi⟩ := ih _ _ (h3.1 ▸ h2)
      refine ⟨by simp [hl], fun i => ?_⟩
      cases i with
      | zero => simp
      | succ i => simpa using hi i

/-- **C09**, order independence over all histories: two triggers that differ only in the order of conditions
within groups record exactly the same results, if no condition has an edge
without a delay. -/
theorem trigger_order_irrelevant (T U : Trig) (hTU : SameUpToOrder T U)
    (hfT : ∀ g ∈ T.groups, ∀ c ∈ g, c.IsFresh) (hsT : ∀ g ∈ T.groups, ∀ c ∈ g, OrderSafe c)
    (hfU : ∀ g ∈ U.groups, ∀ c ∈ g, c.IsFresh) (hsU : ∀ g ∈ U.groups, ∀ c ∈ g, OrderSafe c)
    (steps : List TStep) (hf : TForward steps) :
    ∃ T' U' es, runTrig T steps = some (T', es) ∧ runTrig U steps = some (U', es) := by
  obtain ⟨T', es, h1, h2⟩ := trigger_or_of_and T hfT hsT steps hf
  obtain ⟨U', fs, h3, h4⟩ := trigger_or_of_and U hfU hsU steps hf
  obtain ⟨hl1, hi1⟩ := runTrig_shape _ _ _ _ h1
  obtain ⟨hl3, hi3⟩ := runTrig_shape _ _ _ _ h3
  have hpre : ∀ n, n ≤ steps.length → es.take n = fs.take n := by
    intro n
    induction n with
    | zero => simp
    | succ n ih =>
      intro hn
      have ih := ih (by omega)
      have hes : es = es.take n ++ es[n]'(by omega) :: es.drop (n+1) := by
        rw [← List.drop_eq_getElem_cons, List.take_append_drop]
      have hfs : fs = fs.take n ++ fs[n]'(by omega) :: fs.drop (n+1) := by
        rw [← List.drop_eq_getElem_cons, List.take_append_drop]
      have heq : es[n]'(by omega) = fs[n]'(by omega) := by
        have hsn : steps[n]? = some (steps[n]'(by omega)) := List.getElem?_eq_getElem _
        cases hst : steps[n]'(by omega) with
        | reset =>
          rw [hst] at hsn
          have ha := (hi1 n).2 hsn
          have hb := (hi3 n).2 hsn
          rw [List.getElem?_eq_getElem (by omega)] at ha hb
          simp only [Option.some.injEq] at ha hb
          rw [ha, hb]
        | eval t ω =>
          rw [hst] at hsn
          obtain ⟨a, ha⟩ := (hi1 n).1 t ω hsn
          obtain ⟨b, hb⟩ := (hi3 n).1 t ω hsn
          rw [List.getElem?_eq_getElem (by omega)] at ha hb
          simp only [Option.some.injEq] at ha hb
          rw [ha] at hes ⊢
          rw [hb] at hfs ⊢
          have ea := h2 _ t ω a _ hes
          have eb := h4 _ t ω b _ hfs
          rw [ih, trigTrue_order hTU] at ea
          have : a = b := by
            rw [Bool.eq_iff_iff]; exact ea.trans eb.symm
          rw [this]
      rw [List.take_succ_eq_append_getElem (by omega : n < es.length),
          List.take_succ_eq_append_getElem (by omega : n < fs.length), ih, heq]
  have := hpre steps.length (Nat.le_refl _)
  rw [List.take_of_length_le (by omega), List.take_of_length_le (by omega)] at this
  exact ⟨T', U', es, h1, this ▸ h3⟩

/-! Concrete cases -/

/-- two groups, one with a delayed rising edge and a plain condition, one with a plain condition -/
def exTrig : Trig := ⟨[[fresh 0 .none 0, fresh 1 .rising 1], [fresh 2 .none 0]], true⟩

example : (∀ g ∈ exTrig.groups, ∀ c ∈ g, c.IsFresh) ∧ (∀ g ∈ exTrig.groups, ∀ c ∈ g, OrderSafe c) := by
  simp only [Cond.IsFresh, OrderSafe]; decide +kernel
example : (runTrig exTrig [.eval 0 (fun i => i == 0), .eval 1 (fun i => i == 0 || i == 1), .eval 2 (fun i => i == 0),
    .eval 3 (fun i => i == 2), .reset, .eval 4 (fun _ => false)]).map (fun x => outputs x.2)
    = some [false, false, true, true, false] := by decide +kernel
example : TForward [.eval 0 (fun i => i == 0), .eval 1 (fun i => i == 0 || i == 1), .eval 2 (fun i => i == 0),
    .eval 3 (fun i => i == 2), .reset, .eval 4 (fun _ => false)] := by
  simp only [TForward, times]; decide +kernel

/-! ### C44 (violated): the order of conditions in a group matters for edges without delay -/

/-- A rising edge listed after a condition that is still false is not seen: the two orders of the same
group give different results on the same history. The full claim, "for every trigger the order of
conditions within a group does not matter", is false. -/
theorem edge_order_witness :
    ∃ (a b : Cond) (steps : List TStep), TForward steps ∧ a.IsFresh ∧ b.IsFresh ∧
      (runTrig ⟨[[a, b]], false⟩ steps).map (fun x => outputs x.2) = some [false, false] ∧
      (runTrig ⟨[[b, a]], false⟩ steps).map (fun x => outputs x.2) = some [false, true] := by
  refine ⟨fresh 0 .none 0, fresh 1 .rising 0,
    [.eval 0 (fun _ => false), .eval 1 (fun _ => true)], ?_, rfl, rfl, ?_, ?_⟩
  · simp only [TForward, times]; decide +kernel
  · decide +kernel
  · decide +kernel

end Verif.Condition
