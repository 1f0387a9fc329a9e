import Verif.Swarm.Model
/-
The pool of vehicles for swarm traffic and for vehicles from SUMO: C159.
Code: EnvironmentSimulator/Modules/ScenarioEngine/SourceFiles/VehiclePool.cpp:76-145, 183-218, VehiclePool.hpp:23-51; categories: Entities.cpp:1870-1897.

Simplifications
* A category is given by its name (Category2String), a vehicle by a number, its category and whether it has a trailer. Weights are rational numbers.
* The random number for the category is any number from zero to the total weight (zero if that is zero), the one for the vehicle any natural number.
-/
namespace Verif.Swarm.Pool

/-- A vehicle of a catalog. -/
structure Vehicle where
  key : Nat
  cat : String
  trailer : Bool
deriving DecidableEq, Repr

/-- `VehicleGroup` (VehiclePool.hpp:23-27). -/
structure Group where
  vehicles : List Vehicle := []
  weight : Rat := 1

/-- The map from categories to groups, sorted by name. -/
abbrev Map := List (String × Group)

/-- Change of the group with the name `k`, which is created if missing (`std::map::operator[]`). -/
def upsert (k : String) (f : Group → Group) : Map → Map
  | [] => [(k, f {})]
  | (k', g) :: t => if k < k' then (k, f {}) :: (k', g) :: t else if k = k' then (k', f g) :: t else (k', g) :: upsert k f t

/-- Weight of a category in the list given to `Initialize`. -/
def weightOf (cats : List (String × Rat)) (k : String) : Option Rat := (cats.find? fun c => c.1 == k).map (·.2)

/-- The categories used if none are given (VehiclePool.cpp:81-89). -/
def defaults : List (String × Rat) := [("car", 5), ("bus", 1), ("truck", 2), ("van", 2), ("motorbike", 1)]

/-- The test of a vehicle (VehiclePool.cpp:107-118). -/
def accepts (cats : List (String × Rat)) (carTrailers : Bool) (v : Vehicle) : Bool :=
  (weightOf cats v.cat).isSome && !(v.trailer && !(cats.any fun c => c.1 == "trailer")) && !(!carTrailers && v.trailer && v.cat == "car")

/-- One vehicle of a catalog (VehiclePool.cpp:105-126). -/
def load (cats : List (String × Rat)) (carTrailers : Bool) (m : Map) (v : Vehicle) : Map :=
  if accepts cats carTrailers v then
    upsert v.cat (fun g => { g with vehicles := g.vehicles ++ [v], weight := (weightOf cats v.cat).getD 0 }) m
  else m

/-- The pool with its total weight. -/
structure State where
  map : Map
  total : Rat

/-- `Initialize` (VehiclePool.cpp:76-135) of an empty pool for the vehicles of all vehicle catalogs in order. -/
def fill (cats : List (String × Rat)) (carTrailers : Bool) (vs : List Vehicle) : State :=
  let cats := if cats.isEmpty then defaults else cats
  let m := vs.foldl (load cats carTrailers) []
  ⟨m, m.foldl (fun s c => s + c.2.weight) 0⟩

/-- `AddVehicle` (VehiclePool.cpp:137-145). -/
def addVehicle (s : State) (v : Vehicle) : State := { s with map := upsert v.cat (fun g => { g with vehicles := g.vehicles ++ [v] }) s.map }

/-- The choice of a category for a random number (VehiclePool.cpp:190-202). -/
def walk (r : Rat) : Rat → Map → Option (String × Group)
  | _, [] => none
  | c, x :: t => if r < c + x.2.weight + 1 / 1000000 then some x else walk r (c + x.2.weight) t

/-- `GetRandomVehicle` (VehiclePool.cpp:183-218). -/
def random (s : State) (cat : String) (r : Rat) (draw : Nat) : Option Vehicle :=
  match (match s.map.find? fun x => x.1 == cat with
    | some x => some x
    | none => walk r 0 s.map) with
  | none => none
  | some x => if x.2.vehicles.isEmpty then none else x.2.vehicles[(between 0 (x.2.vehicles.length - 1 : Nat) draw).toNat]?

/-! ### Content of the pool -/

theorem upsert_mem (k : String) (f : Group → Group) (m : Map) (x : String × Group) (h : x ∈ upsert k f m) :
    x ∈ m ∨ (x.1 = k ∧ (x.2 = f {} ∨ ∃ g, (k, g) ∈ m ∧ x.2 = f g)) := by
  induction m with
  | nil => simp only [upsert, List.mem_singleton] at h; subst h; exact Or.inr ⟨rfl, Or.inl rfl⟩
  | cons y t ih =>
    obtain ⟨k', g⟩ := y
    simp only [upsert] at h
    split at h
    · rcases List.mem_cons.mp h with rfl | h
      · exact Or.inr ⟨rfl, Or.inl rfl⟩
      · exact Or.inl h
    · split at h
      · rename_i hk
        rcases List.mem_cons.mp h with rfl | h
        · exact Or.inr ⟨hk.symm, Or.inr ⟨g, by rw [hk]; exact List.mem_cons_self, rfl⟩⟩
        · exact Or.inl (List.mem_cons_of_mem _ h)
      · rcases List.mem_cons.mp h with rfl | h
        · exact Or.inl List.mem_cons_self
        · rcases ih h with h | ⟨h1, h2 | ⟨g', h2, h3⟩⟩
          · exact Or.inl (List.mem_cons_of_mem _ h)
          · exact Or.inr ⟨h1, Or.inl h2⟩
          · exact Or.inr ⟨h1, Or.inr ⟨g', List.mem_cons_of_mem _ h2, h3⟩⟩

theorem upsert_new (k : String) (f : Group → Group) (m : Map) : ∃ g, (k, f g) ∈ upsert k f m := by
  induction m with
  | nil => exact ⟨{}, by simp [upsert]⟩
  | cons y t ih =>
    obtain ⟨k', g⟩ := y
    simp only [upsert]
    split
    · exact ⟨{}, List.mem_cons_self⟩
    · split
      · rename_i hk; exact ⟨g, by rw [hk]; exact List.mem_cons_self⟩
      · obtain ⟨g', h⟩ := ih; exact ⟨g', List.mem_cons_of_mem _ h⟩

/-- Groups that are not changed stay; the changed one was there before. -/
theorem upsert_old (k : String) (f : Group → Group) (m : Map) (x : String × Group) (h : x ∈ m) :
    x ∈ upsert k f m ∨ (x.1 = k ∧ (k, f x.2) ∈ upsert k f m) := by
  induction m with
  | nil => simp at h
  | cons y t ih =>
    obtain ⟨k', g⟩ := y
    simp only [upsert]
    split
    · exact Or.inl (List.mem_cons_of_mem _ h)
    · split
      · rename_i hk
        rcases List.mem_cons.mp h with rfl | h
        · exact Or.inr ⟨hk.symm, by rw [hk]; exact List.mem_cons_self⟩
        · exact Or.inl (List.mem_cons_of_mem _ h)
      · rcases List.mem_cons.mp h with rfl | h
        · exact Or.inl List.mem_cons_self
        · rcases ih h with h | ⟨h1, h2⟩
          · exact Or.inl (List.mem_cons_of_mem _ h)
          · exact Or.inr ⟨h1, List.mem_cons_of_mem _ h2⟩

/-- The vehicle is in the pool. -/
def In (m : Map) (v : Vehicle) : Prop := ∃ x ∈ m, v ∈ x.2.vehicles

/-- Every group has the name of the category of its vehicles, is not empty and has the weight of the category. -/
def Good (cats : List (String × Rat)) (m : Map) : Prop :=
  ∀ x ∈ m, x.2.vehicles ≠ [] ∧ (∀ v ∈ x.2.vehicles, v.cat = x.1) ∧ weightOf cats x.1 = some x.2.weight

theorem load_good (cats : List (String × Rat)) (ct : Bool) (m : Map) (v : Vehicle) (h : Good cats m) : Good cats (load cats ct m v) := by
  unfold load
  split
  · rename_i ha
    intro x hx
    have hw : ∃ w, weightOf cats v.cat = some w := by
      unfold accepts at ha
      simp only [Bool.and_eq_true] at ha
      exact Option.isSome_iff_exists.mp ha.1.1
    obtain ⟨w, hw⟩ := hw
    rcases upsert_mem _ _ _ _ hx with hx | ⟨h1, h2⟩
    · exact h x hx
    · have h3 : ∃ g : Group, (∀ u ∈ g.vehicles, u.cat = v.cat) ∧ x.2 = { g with vehicles := g.vehicles ++ [v], weight := (weightOf cats v.cat).getD 0 } := by
        rcases h2 with h2 | ⟨g, hg, h2⟩
        · exact ⟨{}, by simp, h2⟩
        · exact ⟨g, fun u hu => (h _ hg).2.1 u hu, h2⟩
      obtain ⟨g, h4, h5⟩ := h3
      rw [h5, h1]
      refine ⟨by simp, ?_, by simp [hw]⟩
      intro u hu
      simp only [List.mem_append, List.mem_singleton] at hu
      rcases hu with hu | rfl
      · exact h4 u hu
      · rfl
  · exact h

theorem load_in (cats : List (String × Rat)) (ct : Bool) (m : Map) (v u : Vehicle) :
    In (load cats ct m v) u ↔ In m u ∨ (u = v ∧ accepts cats ct v = true) := by
  unfold load
  split
  · rename_i ha
    constructor
    · rintro ⟨x, hx, hu⟩
      rcases upsert_mem _ _ _ _ hx with hx | ⟨h1, h2 | ⟨g, hg, h2⟩⟩
      · exact Or.inl ⟨x, hx, hu⟩
      · rw [h2] at hu
        simp only [List.nil_append, List.mem_singleton] at hu
        exact Or.inr ⟨hu, ha⟩
      · rw [h2] at hu
        simp only [List.mem_append, List.mem_singleton] at hu
        rcases hu with hu | hu
        · exact Or.inl ⟨_, hg, hu⟩
        · exact Or.inr ⟨hu, ha⟩
    · rintro (⟨x, hx, hu⟩ | ⟨rfl, _⟩)
      · rcases upsert_old v.cat (fun g => { g with vehicles := g.vehicles ++ [v], weight := (weightOf cats v.cat).getD 0 }) m x hx with h | ⟨_, h⟩
        · exact ⟨x, h, hu⟩
        · exact ⟨_, h, List.mem_append_left _ hu⟩
      · obtain ⟨g, h⟩ := upsert_new u.cat (fun g => { g with vehicles := g.vehicles ++ [u], weight := (weightOf cats u.cat).getD 0 }) m
        exact ⟨_, h, by simp⟩
  · rename_i ha
    constructor
    · exact Or.inl
    · rintro (h | ⟨_, h⟩)
      · exact h
      · exact absurd h ha

theorem foldl_good (cats : List (String × Rat)) (ct : Bool) (vs : List Vehicle) (m : Map) (h : Good cats m) : Good cats (vs.foldl (load cats ct) m) := by
  induction vs generalizing m with
  | nil => exact h
  | cons v t ih => exact ih _ (load_good cats ct m v h)

theorem foldl_in (cats : List (String × Rat)) (ct : Bool) (vs : List Vehicle) (m : Map) (u : Vehicle) :
    In (vs.foldl (load cats ct) m) u ↔ In m u ∨ (u ∈ vs ∧ accepts cats ct u = true) := by
  induction vs generalizing m with
  | nil => simp
  | cons v t ih =>
    rw [List.foldl_cons, ih, load_in]
    constructor
    · rintro ((h | ⟨rfl, h⟩) | ⟨h1, h2⟩)
      · exact Or.inl h
      · exact Or.inr ⟨List.mem_cons_self, h⟩
      · exact Or.inr ⟨List.mem_cons_of_mem _ h1, h2⟩
    · rintro (h | ⟨h1, h2⟩)
      · exact Or.inl (Or.inl h)
      · rcases List.mem_cons.mp h1 with rfl | h1
        · exact Or.inl (Or.inr ⟨rfl, h2⟩)
        · exact Or.inr ⟨h1, h2⟩

/-- The categories that count. -/
def used (cats : List (String × Rat)) : List (String × Rat) := if cats.isEmpty then defaults else cats

/-- C159: the pool holds exactly the vehicles of the catalogs that are of one of the categories, leaving out those with a trailer unless trailers are among the categories,
and cars with a trailer unless accepted. -/
theorem pool_content (cats : List (String × Rat)) (ct : Bool) (vs : List Vehicle) (u : Vehicle) :
    In (fill cats ct vs).map u ↔ u ∈ vs ∧ (∃ c ∈ used cats, c.1 = u.cat) ∧
      (u.trailer = true → ∃ c ∈ used cats, c.1 = "trailer") ∧ (u.trailer = true → u.cat = "car" → ct = true) := by
  have h1 : In (fill cats ct vs).map u ↔ (u ∈ vs ∧ accepts (used cats) ct u = true) := by
    show In (vs.foldl (load (used cats) ct) []) u ↔ _
    rw [foldl_in]
    constructor
    · rintro (⟨x, hx, _⟩ | h)
      · simp at hx
      · exact h
    · exact Or.inr
  rw [h1]
  unfold accepts weightOf
  have h2 : ((used cats).find? fun c => c.1 == u.cat).isSome = true ↔ ∃ c ∈ used cats, c.1 = u.cat := by
    rw [List.find?_isSome]; simp
  have h3 : ((used cats).any fun c => c.1 == "trailer") = true ↔ ∃ c ∈ used cats, c.1 = "trailer" := by
    rw [List.any_eq_true]; simp
  rw [← h2, ← h3]
  simp only [Option.isSome_map, Bool.and_eq_true]
  generalize ((used cats).find? fun c => c.1 == u.cat).isSome = a
  generalize ((used cats).any fun c => c.1 == "trailer") = b
  cases a <;> cases b <;> cases ct <;> cases u.trailer <;> by_cases hc : u.cat = "car" <;> simp [hc]

/-! ### Random vehicles -/

theorem pick_mem (l : List Vehicle) (draw : Nat) (h : l ≠ []) : ∃ v ∈ l, l[(between 0 (l.length - 1 : Nat) draw).toNat]? = some v := by
  have hl : 0 < l.length := List.length_pos_of_ne_nil h
  have hb : (between 0 ((l.length - 1 : Nat) : Int) draw).toNat < l.length := by
    unfold between
    rw [if_neg (by omega)]
    have := Nat.mod_lt draw (show 0 < (((l.length - 1 : Nat) : Int) - 0 + 1).toNat by omega)
    omega
  exact ⟨_, List.getElem_mem hb, List.getElem?_eq_getElem hb⟩

/-- C159: a vehicle asked for by a category in the pool is of that category. -/
theorem random_of_category (cats : List (String × Rat)) (ct : Bool) (vs : List Vehicle) (cat : String) (r : Rat) (draw : Nat)
    (h : ∃ u, In (fill cats ct vs).map u ∧ u.cat = cat) :
    ∃ v, random (fill cats ct vs) cat r draw = some v ∧ v.cat = cat ∧ In (fill cats ct vs).map v := by
  have hg : Good (used cats) (fill cats ct vs).map := foldl_good (used cats) ct vs [] (by intro x hx; simp at hx)
  obtain ⟨u, ⟨x, hx, hu⟩, hc⟩ := h
  have hk : x.1 = cat := by rw [← hc]; exact ((hg x hx).2.1 u hu).symm
  have hf : ((fill cats ct vs).map.find? fun x => x.1 == cat).isSome := by
    rw [List.find?_isSome]; exact ⟨x, hx, by simp [hk]⟩
  obtain ⟨y, hy⟩ := Option.isSome_iff_exists.mp hf
  have hym := List.mem_of_find?_eq_some hy
  have hyk : y.1 = cat := by simpa using List.find?_some hy
  obtain ⟨v, hv, he⟩ := pick_mem y.2.vehicles draw (hg y hym).1
  refine ⟨v, ?_, ?_, ⟨y, hym, hv⟩⟩
  · unfold random
    simp only [hy]
    rw [if_neg (by simpa using (hg y hym).1)]
    exact he
  · rw [← hyk]; exact (hg y hym).2.1 v hv

/-- Sum of the weights. -/
def weights (m : Map) : Rat := (m.map fun x => x.2.weight).sum

theorem foldl_weights (m : Map) (c : Rat) : m.foldl (fun s x => s + x.2.weight) c = c + weights m := by
  induction m generalizing c with
  | nil => simp [weights]
  | cons x t ih => rw [List.foldl_cons, ih]; simp only [weights, List.map_cons, List.sum_cons]; grind

theorem walk_spec (r c : Rat) (m : Map) (x : String × Group) (h : walk r c m = some x) :
    ∃ a b, m = a ++ x :: b ∧ r < c + weights a + x.2.weight + 1 / 1000000 ∧
      ∀ a' y b', a = a' ++ y :: b' → c + weights a' + y.2.weight + 1 / 1000000 ≤ r := by
  induction m generalizing c with
  | nil => simp [walk] at h
  | cons y t ih =>
    simp only [walk] at h
    split at h
    · simp only [Option.some.injEq] at h
      subst h
      refine ⟨[], t, rfl, ?_, ?_⟩
      · simp only [weights, List.map_nil, List.sum_nil]; grind
      · intro a' z b' hz; simp at hz
    · rename_i hn
      obtain ⟨a, b, h1, h2, h3⟩ := ih _ h
      refine ⟨y :: a, b, by rw [h1]; rfl, ?_, ?_⟩
      · simp only [weights, List.map_cons, List.sum_cons] at h2 ⊢; grind
      · intro a' z b' hz
        cases a' with
        | nil =>
          simp only [List.nil_append, List.cons.injEq] at hz
          obtain ⟨rfl, _⟩ := hz
          simp only [weights, List.map_nil, List.sum_nil]; grind
        | cons w a' =>
          simp only [List.cons_append, List.cons.injEq] at hz
          obtain ⟨rfl, hz⟩ := hz
          have := h3 a' z b' hz
          simp only [weights, List.map_cons, List.sum_cons] at this ⊢; grind

theorem walk_some (r c : Rat) (m : Map) (hm : m ≠ []) (hr : r ≤ c + weights m) : (walk r c m).isSome := by
  induction m generalizing c with
  | nil => exact absurd rfl hm
  | cons y t ih =>
    simp only [walk]
    split
    · rfl
    · rename_i hn
      cases t with
      | nil => simp only [weights, List.map_cons, List.map_nil, List.sum_cons, List.sum_nil] at hr; grind
      | cons z t => exact ih _ (by simp) (by simp only [weights, List.map_cons, List.sum_cons] at hr ⊢; grind)

/-- C159: without a category in the pool asked for, a vehicle of the pool is returned unless the pool is empty. -/
theorem random_of_any (cats : List (String × Rat)) (ct : Bool) (vs : List Vehicle) (cat : String) (r : Rat) (draw : Nat)
    (hr : r ≤ (fill cats ct vs).total) (hne : ∃ u, In (fill cats ct vs).map u) :
    ∃ v, random (fill cats ct vs) cat r draw = some v ∧ In (fill cats ct vs).map v := by
  have hg : Good (used cats) (fill cats ct vs).map := foldl_good (used cats) ct vs [] (by intro x hx; simp at hx)
  have ht : (fill cats ct vs).total = weights (fill cats ct vs).map := by
    show List.foldl _ _ _ = _
    rw [foldl_weights]; simp [fill]
  have hm : (fill cats ct vs).map ≠ [] := by
    obtain ⟨u, x, hx, _⟩ := hne
    intro h; rw [h] at hx; simp at hx
  have hs : ∃ y, (match (fill cats ct vs).map.find? fun x => x.1 == cat with
      | some x => some x
      | none => walk r 0 (fill cats ct vs).map) = some y ∧ y ∈ (fill cats ct vs).map := by
    cases hf : (fill cats ct vs).map.find? fun x => x.1 == cat with
    | some y => exact ⟨y, rfl, List.mem_of_find?_eq_some hf⟩
    | none =>
      obtain ⟨y, hy⟩ := Option.isSome_iff_exists.mp (walk_some r 0 _ hm (by rw [← ht]; grind))
      refine ⟨y, hy, ?_⟩
      obtain ⟨a, b, h1, _⟩ := walk_spec _ _ _ _ hy
      rw [h1]; simp
  obtain ⟨y, hy, hym⟩ := hs
  obtain ⟨v, hv, he⟩ := pick_mem y.2.vehicles draw (hg y hym).1
  refine ⟨v, ?_, ⟨y, hym, hv⟩⟩
  unfold random
  rw [hy]
  simp only
  rw [if_neg (by simpa using (hg y hym).1)]
  exact he

theorem weights_append (a b : Map) : weights (a ++ b) = weights a + weights b := by
  induction a with
  | nil => simp [weights]
  | cons y t ih => simp only [weights, List.cons_append, List.map_cons, List.sum_cons] at ih ⊢; grind

theorem weights_nonneg (l : Map) (h : ∀ z ∈ l, 0 ≤ z.2.weight) : 0 ≤ weights l := by
  induction l with
  | nil => simp [weights]
  | cons z l ihl =>
    have h3 := ihl fun w hw' => h w (List.mem_cons_of_mem _ hw')
    have h4 := h z List.mem_cons_self
    simp only [weights, List.map_cons, List.sum_cons] at h3 ⊢; grind

theorem walk_share (r c : Rat) (a b : Map) (x : String × Group) (hw : ∀ y ∈ a, 0 ≤ y.2.weight)
    (h1 : a = [] ∨ c + weights a + 1 / 1000000 ≤ r) (h2 : r < c + weights a + x.2.weight + 1 / 1000000) : walk r c (a ++ x :: b) = some x := by
  induction a generalizing c with
  | nil =>
    simp only [List.nil_append, walk]
    rw [if_pos]
    simp only [weights, List.map_nil, List.sum_nil] at h2; grind
  | cons y t ih =>
    have hy := hw y List.mem_cons_self
    have ht := weights_nonneg t fun z hz => hw z (List.mem_cons_of_mem _ hz)
    have h1' : c + weights (y :: t) + 1 / 1000000 ≤ r := by rcases h1 with h1 | h1; exact absurd h1 (by simp); exact h1
    simp only [weights, List.map_cons, List.sum_cons] at h1' h2 ht
    simp only [List.cons_append, walk]
    rw [if_neg (by grind)]
    refine ih (c + y.2.weight) (fun z hz => hw z (List.mem_cons_of_mem _ hz)) ?_ ?_
    · cases t with
      | nil => exact Or.inl rfl
      | cons z t => right; simp only [weights]; grind
    · simp only [weights]; grind

/-- C159: a category has its share of the random numbers: it is chosen from a millionth after the sum of the weights before it, or from zero for the first category, until
a millionth after the sum of the weights up to it. -/
theorem category_share (s : State) (cat : String) (r : Rat) (draw : Nat) (a b : Map) (x : String × Group) (hm : s.map = a ++ x :: b)
    (hc : ∀ y ∈ s.map, y.1 ≠ cat) (hw : ∀ y ∈ a, 0 ≤ y.2.weight) (h1 : a = [] ∨ weights a + 1 / 1000000 ≤ r)
    (h2 : r < weights a + x.2.weight + 1 / 1000000) (v : Vehicle) (hv : random s cat r draw = some v) : v ∈ x.2.vehicles := by
  have hf : (s.map.find? fun x => x.1 == cat) = none := by
    rw [List.find?_eq_none]; intro y hy; simpa using hc y hy
  unfold random at hv
  simp only [hf] at hv
  rw [hm, walk_share r 0 a b x hw (by rcases h1 with h | h; exact Or.inl h; right; grind) (by grind)] at hv
  simp only at hv
  split at hv
  · simp at hv
  · exact List.mem_of_getElem? hv

/-- C159, partial: a category with weight zero is chosen only if it is the first one in the pool. -/
theorem zero_weight_partial (r : Rat) (m : Map) (x : String × Group) (h : walk r 0 m = some x) (hx : x.2.weight = 0) : m.head? = some x := by
  obtain ⟨a, b, h1, h2, h3⟩ := walk_spec r 0 m x h
  cases a with
  | nil => rw [h1]; rfl
  | cons y t =>
    exfalso
    have hne : y :: t ≠ [] := by simp
    have hd := List.dropLast_append_getLast hne
    have h4 := h3 (y :: t).dropLast ((y :: t).getLast hne) [] hd.symm
    have h5 : weights (y :: t) = weights (y :: t).dropLast + ((y :: t).getLast hne).2.weight := by
      conv => lhs; rw [← hd]
      rw [weights_append]; simp [weights]
    rw [h5, hx] at h2
    grind

/-- The categories of swarm traffic (OSCGlobalAction.cpp:400-405). -/
def swarmCats : List (String × Rat) := [("car", 5), ("trailer", 0), ("van", 2), ("bus", 1), ("truck", 2), ("motorbike", 1)]

/-- C159 does not hold as "no single trailers are taken": with a trailer and a truck in the catalogs, the number zero gives the trailer, and with trailers only they are always
taken. -/
theorem single_trailer_fails :
    (random (fill swarmCats true [⟨1, "truck", false⟩, ⟨2, "trailer", false⟩]) "" 0 0).map (·.cat) = some "trailer" ∧
    (∀ draw, (random (fill swarmCats true [⟨2, "trailer", false⟩]) "" 0 draw).map (·.cat) = some "trailer") := by
  refine ⟨by decide +kernel, fun draw => ?_⟩
  obtain ⟨v, h1, h2⟩ := random_of_any swarmCats true [⟨2, "trailer", false⟩] "" 0 draw (by decide +kernel)
    ⟨⟨2, "trailer", false⟩, (pool_content _ _ _ _).mpr (by simp [used, swarmCats])⟩
  rw [h1]
  have h3 := ((pool_content _ _ _ _).mp h2).1
  simp only [List.mem_singleton] at h3
  rw [h3]; rfl

/-- C159: the vehicle put into an empty pool (a copy of the central entity) is the one that is returned. -/
theorem fallback (v : Vehicle) (draw : Nat) (hv : v.cat ≠ "") : random (addVehicle ⟨[], 0⟩ v) "" 0 draw = some v := by
  unfold random addVehicle
  have h1 : (v.cat == "") = false := by simpa using hv
  simp only [upsert, List.find?_cons, h1, List.find?_nil, walk]
  rw [if_pos (by decide +kernel)]
  simp only [List.nil_append, List.isEmpty_cons, Bool.false_eq_true, if_false, List.length_singleton]
  have : between 0 ((1 - 1 : Nat) : Int) draw = 0 := by unfold between; rw [if_neg (by omega)]; simp
  rw [this]; rfl

/-- Concrete case: two cars, a bus with a trailer and a bicycle; the bicycle is not taken. The number 3 falls into the share of the cars (1 to 6). -/
example : (random (fill swarmCats true [⟨1, "car", false⟩, ⟨2, "bus", true⟩, ⟨3, "bicycle", false⟩, ⟨4, "car", true⟩]) "" 3 1).map (·.key) = some 4 := by
  decide +kernel

end Verif.Swarm.Pool
