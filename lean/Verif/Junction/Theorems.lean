import Verif.Junction.Model
/-
Theorems on junction look-ups (C37).
-/
namespace Verif.Junction

/-! ## Specification -/

/-- All lane links of the junction that leave lane `lane` of road `road`, in order. -/
def linksFrom (cs : List Conn) (road : Nat) (lane : Int) : List (Conn × Int) :=
  (cs.filter (fun c => c.incoming.map (·.id) == some road)).flatMap
    (fun c => (c.links.filter (fun l => l.1 == lane)).map (fun l => (c, l.2)))

/-- All connections of the junction with incoming road `road`, in order. -/
def connsFrom (cs : List Conn) (road : Nat) : List Conn :=
  cs.filter (fun c => c.incoming.map (·.id) == some road)

/-- Every connecting road has a lane section. -/
def Sectioned (cs : List Conn) : Prop := ∀ c ∈ cs, c.connecting.sections ≠ []

/-- The result for a lane link. -/
def resultOf (lane : Int) (x : Conn × Int) : Result := ⟨lane, some x.1.contact, some x.1.connecting.id, x.2⟩

/-- Two roads into a junction; lane -1 of road 1 has three continuations. -/
def demo : List Conn := [
  ⟨some ⟨1, [[(-1, 1)]]⟩, ⟨10, [[(0, 0), (-1, 1)]]⟩, 0, [(-1, -1), (1, 1)]⟩,
  ⟨some ⟨2, [[(-1, 1)]]⟩, ⟨11, [[(0, 0), (-1, 1)]]⟩, 0, [(-1, -1)]⟩,
  ⟨none, ⟨12, [[(0, 0), (-1, 1)]]⟩, 1, [(-1, -1)]⟩,
  ⟨some ⟨1, [[(-1, 1)]]⟩, ⟨13, [[(0, 0)], [(1, 1), (0, 0)]]⟩, 1, [(-1, 1), (-1, -1)]⟩]

theorem linksFrom_cons (c : Conn) (cs : List Conn) (road : Nat) (lane : Int) :
    linksFrom (c :: cs) road lane =
      (if c.incoming.map (·.id) = some road then
        (c.links.filter (fun l => l.1 == lane)).map (fun l => (c, l.2)) else []) ++ linksFrom cs road lane := by
  unfold linksFrom
  by_cases h : c.incoming.map (·.id) = some road
  · rw [if_pos h, List.filter_cons_of_pos (by simpa using h), List.flatMap_cons]
  · rw [if_neg h, List.filter_cons_of_neg (by simpa using h)]; rfl

theorem countLinks_eq (lane : Int) (ls : List (Int × Int)) (n : Nat) :
    countLinks lane ls n = n + (ls.filter (fun l => l.1 == lane)).length := by
  induction ls generalizing n with
  | nil => rfl
  | cons l ls ih =>
    unfold countLinks
    by_cases h : lane = l.1
    · rw [if_pos h, ih, List.filter_cons_of_pos (by simp [h])]; simp; omega
    · rw [if_neg h, ih, List.filter_cons_of_neg (by simp; exact fun e => h e.symm)]

theorem count_eq_aux (cs : List Conn) (road : Nat) (lane : Int) (n : Nat) :
    count road lane cs n = n + (linksFrom cs road lane).length := by
  induction cs generalizing n with
  | nil => rfl
  | cons c cs ih =>
    unfold count
    rw [linksFrom_cons]
    cases hc : c.incoming with
    | none => simp [ih]
    | some r =>
      simp only [Option.map_some]
      by_cases h : road = r.id
      · rw [if_pos h, if_pos (by rw [h]), ih, countLinks_eq]; simp; omega
      · rw [if_neg h, if_neg (by simp; exact fun e => h e.symm), ih]; simp

/-- The reported number of connections of a road and lane is the number of its lane links. -/
theorem count_eq (cs : List Conn) (road : Nat) (lane : Int) :
    count road lane cs 0 = (linksFrom cs road lane).length := by
  rw [count_eq_aux]; omega

example : count 1 (-1) demo 0 = 3 ∧ count 2 (-1) demo 0 = 1 ∧ count 1 5 demo 0 = 0 := by decide

theorem targetLane_some (r : Road) (to : Int) (h : r.sections ≠ []) : targetLane r to = some () := by
  have hpos : 0 < r.sections.length := List.length_pos_iff.mpr h
  unfold targetLane
  simp only
  by_cases ht : to < 0
  · rw [if_pos ht, List.getElem?_eq_getElem hpos]
  · rw [if_neg ht, List.getElem?_eq_getElem (by omega)]

theorem findLink_eq (c : Conn) (lane : Int) (idx : Nat) (ls : List (Int × Int)) (n : Nat) (hn : n ≤ idx)
    (hs : c.connecting.sections ≠ []) :
    findLink c lane idx ls n =
      match (ls.filter (fun l => l.1 == lane))[idx - n]? with
      | some l => some (.inr ⟨lane, some c.contact, some c.connecting.id, l.2⟩)
      | none => some (.inl (n + (ls.filter (fun l => l.1 == lane)).length)) := by
  induction ls generalizing n with
  | nil => rfl
  | cons l ls ih =>
    unfold findLink
    by_cases h : lane = l.1
    · rw [if_pos h, List.filter_cons_of_pos (by simp [h])]
      by_cases hni : n = idx
      · rw [if_pos hni, targetLane_some _ _ hs]
        simp [hni]
      · rw [if_neg hni, ih (n + 1) (by omega)]
        have e : idx - n = (idx - (n + 1)) + 1 := by omega
        rw [e, List.getElem?_cons_succ]
        cases (ls.filter (fun l => l.1 == lane))[idx - (n + 1)]? with
        | some _ => rfl
        | none => simp; omega
    · rw [if_neg h, ih n hn, List.filter_cons_of_neg (by simp; exact fun e => h e.symm)]

theorem byIdx_eq_aux (cs : List Conn) (road : Nat) (lane : Int) (idx n : Nat) (hn : n ≤ idx) (hs : Sectioned cs) :
    byIdx road lane idx cs n =
      match (linksFrom cs road lane)[idx - n]? with
      | some x => some (resultOf lane x)
      | none => some Result.default := by
  induction cs generalizing n with
  | nil => rfl
  | cons c cs ih =>
    have hs' : Sectioned cs := fun d hd => hs d (List.mem_cons_of_mem _ hd)
    unfold byIdx
    rw [linksFrom_cons]
    cases hc : c.incoming with
    | none => simp [ih n hn hs']
    | some r =>
      simp only [Option.map_some]
      by_cases h : road = r.id
      · rw [if_pos h, if_pos (by rw [h]), findLink_eq c lane idx c.links n hn (hs c List.mem_cons_self)]
        rcases Nat.lt_or_ge (idx - n) (c.links.filter (fun l => l.1 == lane)).length with hlt | hge
        · rw [List.getElem?_append_left (by simpa using hlt), List.getElem?_map, List.getElem?_eq_getElem hlt]
          rfl
        · rw [List.getElem?_append_right (by simpa using hge), List.getElem?_eq_none hge]
          simp only [List.length_map]
          rw [ih _ (by omega) hs']
          congr 2; omega
      · rw [if_neg h, if_neg (by simp; exact fun e => h e.symm), ih n hn hs']; rfl

/-- The look-up by index returns each lane link of the road and lane once and in order, and the default
result for an index beyond the reported number, if every connecting road has a lane section. -/
theorem byIdx_eq (cs : List Conn) (road : Nat) (lane : Int) (idx : Nat) (hs : Sectioned cs) :
    byIdx road lane idx cs 0 =
      match (linksFrom cs road lane)[idx]? with
      | some x => some (resultOf lane x)
      | none => some Result.default := byIdx_eq_aux cs road lane idx 0 (by omega) hs

example : linksFrom demo 1 (-1) ≠ [] ∧ Sectioned demo := by
  refine ⟨by decide, ?_⟩
  intro c hc; simp [demo] at hc; rcases hc with rfl | rfl | rfl | rfl <;> simp

/-- Taking the look-ups for all indices below the reported number gives exactly the lane links. -/
theorem enumeration (cs : List Conn) (road : Nat) (lane : Int) (hs : Sectioned cs) :
    (List.range (count road lane cs 0)).map (fun i => byIdx road lane i cs 0) =
      (linksFrom cs road lane).map (fun x => some (resultOf lane x)) := by
  rw [count_eq]
  apply List.ext_getElem
  · simp
  · intro i h1 h2
    simp only [List.getElem_map, List.getElem_range]
    rw [byIdx_eq cs road lane i hs, List.getElem?_eq_getElem (by simpa using h2)]

example : Sectioned demo ∧ count 1 (-1) demo 0 = 3 ∧
    (List.range 4).map (fun i => byIdx 1 (-1) i demo 0) =
      [some ⟨-1, some 0, some 10, -1⟩, some ⟨-1, some 1, some 13, 1⟩, some ⟨-1, some 1, some 13, -1⟩,
       some Result.default] := by
  refine ⟨?_, ?_, ?_⟩
  · intro c hc; simp [demo] at hc; rcases hc with rfl | rfl | rfl | rfl <;> simp
  all_goals decide

/-- A connecting road without lane section makes the look-up dereference a null pointer, though the link
is counted. -/
theorem byIdx_without_section_fails :
    ¬ ∀ (cs : List Conn) (road : Nat) (lane : Int) (idx : Nat), idx < count road lane cs 0 →
      byIdx road lane idx cs 0 ≠ none := by
  intro h
  exact h [⟨some ⟨1, []⟩, ⟨2, []⟩, 0, [(-1, -1)]⟩] 1 (-1) 0 (by decide) (by decide)

theorem connsFrom_cons (c : Conn) (cs : List Conn) (road : Nat) :
    connsFrom (c :: cs) road = (if c.incoming.map (·.id) = some road then [c] else []) ++ connsFrom cs road := by
  unfold connsFrom
  by_cases h : c.incoming.map (·.id) = some road
  · rw [if_pos h, List.filter_cons_of_pos (by simpa using h)]; rfl
  · rw [if_neg h, List.filter_cons_of_neg (by simpa using h)]; rfl

theorem countRoads_aux (cs : List Conn) (road n : Nat) (hi : ∀ c ∈ cs, c.incoming ≠ none) :
    countRoads road cs n = some (n + (connsFrom cs road).length) := by
  induction cs generalizing n with
  | nil => rfl
  | cons c cs ih =>
    unfold countRoads
    rw [connsFrom_cons]
    cases hc : c.incoming with
    | none => exact absurd hc (hi c List.mem_cons_self)
    | some r =>
      simp only [Option.map_some, Option.some.injEq]
      rw [ih _ (fun d hd => hi d (List.mem_cons_of_mem _ hd))]
      by_cases h : r.id = road
      · rw [if_pos h, if_pos h]; simp; omega
      · rw [if_neg h, if_neg h]; simp

theorem roadByIdx_aux (cs : List Conn) (road idx n : Nat) (hn : n ≤ idx) (hi : ∀ c ∈ cs, c.incoming ≠ none) :
    roadByIdx road idx cs n = some ((connsFrom cs road)[idx - n]?.map (·.connecting.id)) := by
  induction cs generalizing n with
  | nil => rfl
  | cons c cs ih =>
    have hi' : ∀ d ∈ cs, d.incoming ≠ none := fun d hd => hi d (List.mem_cons_of_mem _ hd)
    unfold roadByIdx
    rw [connsFrom_cons]
    cases hc : c.incoming with
    | none => exact absurd hc (hi c List.mem_cons_self)
    | some r =>
      simp only [Option.map_some, Option.some.injEq]
      by_cases h : r.id = road
      · rw [if_pos h, if_pos h]
        by_cases hni : n = idx
        · rw [if_pos hni]; simp [hni]
        · rw [if_neg hni, ih (n + 1) (by omega) hi']
          have e : idx - n = (idx - (n + 1)) + 1 := by omega
          rw [e]; rfl
      · rw [if_neg h, if_neg h, ih n hn hi']; rfl

/-- If every connection has an incoming road: the number of connections of a road, and the connecting
road of each, in order, undefined beyond the number. -/
theorem roads_partial (cs : List Conn) (road : Nat) (hi : ∀ c ∈ cs, c.incoming ≠ none) :
    countRoads road cs 0 = some (connsFrom cs road).length ∧
    ∀ idx, roadByIdx road idx cs 0 = some ((connsFrom cs road)[idx]?.map (·.connecting.id)) := by
  refine ⟨?_, fun idx => ?_⟩
  · rw [countRoads_aux cs road 0 hi]; simp
  · exact roadByIdx_aux cs road idx 0 (by omega) hi

example : countRoads 1 (demo.eraseIdx 2) 0 = some 2 ∧ roadByIdx 1 1 (demo.eraseIdx 2) 0 = some (some 13) ∧
    roadByIdx 1 2 (demo.eraseIdx 2) 0 = some none := by decide

/-- With a connection without incoming road these two look-ups dereference a null pointer while the
look-ups by lane do not. -/
theorem roads_null_fails : countRoads 1 demo 0 = none ∧ roadByIdx 1 5 demo 0 = none ∧
    byIdx 1 (-1) 5 demo 0 = some Result.default := by decide

/-- Lane in the connecting road: the target of the first lane link, of the road and lane, into that
road; 0 if there is none. -/
theorem throughJunction_eq (cs : List Conn) (road : Nat) (lane : Int) (target : Nat) (hs : Sectioned cs) :
    throughJunction cs road true lane target =
      some (((linksFrom cs road lane).find? (fun x => x.1.connecting.id == target)).elim 0 (·.2)) := by
  have key : ∀ k i, k = count road lane cs 0 - i →
      laneLoop cs road lane target (count road lane cs 0) i =
        some ((((linksFrom cs road lane).drop i).find? (fun x => x.1.connecting.id == target)).elim 0 (·.2)) := by
    intro k
    induction k with
    | zero =>
      intro i hk
      unfold laneLoop
      rw [dif_neg (by omega), List.drop_eq_nil_of_le (by rw [← count_eq]; omega)]
      rfl
    | succ k ih =>
      intro i hk
      have hlt : i < (linksFrom cs road lane).length := by rw [← count_eq]; omega
      unfold laneLoop
      rw [dif_pos (by omega), byIdx_eq cs road lane i hs, List.getElem?_eq_getElem hlt]
      simp only [resultOf, Option.some.injEq]
      rw [List.drop_eq_getElem_cons hlt]
      by_cases h : (linksFrom cs road lane)[i].1.connecting.id = target
      · rw [if_pos h, List.find?_cons_of_pos (by simpa using h)]; rfl
      · rw [if_neg h, List.find?_cons_of_neg (by simpa using h), ih (i + 1) (by omega)]
  unfold throughJunction
  rw [if_pos rfl, key _ 0 rfl, List.drop_zero]

example : throughJunction demo 1 true (-1) 13 = some 1 ∧ throughJunction demo 1 true (-1) 11 = some 0 := by decide +kernel

/-- The lane link of one connection: the first link from the lane; 0 if there is none. -/
theorem connectingLane_mem (c : Conn) (lane : Int) :
    (∃ l ∈ c.links, l.1 = lane ∧ c.connectingLane lane = l.2) ∨
    ((∀ l ∈ c.links, l.1 ≠ lane) ∧ c.connectingLane lane = 0) := by
  unfold Conn.connectingLane
  cases h : c.links.find? (fun l => l.1 == lane) with
  | some l =>
    exact Or.inl ⟨l, List.mem_of_find?_eq_some h, by simpa using List.find?_some h, rfl⟩
  | none =>
    refine Or.inr ⟨fun l hl he => ?_, rfl⟩
    have := List.find?_eq_none.mp h l hl
    simp [he] at this

example : (demo[3]).connectingLane (-1) = 1 ∧ (demo[3]).connectingLane 2 = 0 := by decide

end Verif.Junction
