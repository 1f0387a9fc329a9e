import Verif.Options.Model

/-!
# C25: the value given last is the one read, persistent options survive a reset
-/
namespace Verif.Options

/-! ## Specification: how a command line reads

An argument vector is a sequence of option names, values that belong to the option named most recently, and
arguments that belong to no option.  The parameters of a viewer argument belong to nobody. -/

/-- One item of a command line. -/
inductive Item where
  | name (o : String)
  | value (o v : String)
  | free (v : String)
deriving DecidableEq

/-- Reading from left to right; `skip` arguments still belong to a viewer argument, `cur` is the option that
collects values. -/
def reading (known takes : String → Bool) : Nat → Option String → List String → List Item
  | _, _, [] => []
  | skip + 1, _, _ :: as => reading known takes skip none as
  | 0, cur, a :: as =>
    if isOpt a then
      if known (optName a) then
        .name (optName a) :: reading known takes 0 (if takes (optName a) then some (optName a) else none) as
      else reading known takes ((osgParams a).getD 0) none as
    else match cur with
      | some o => .value o a :: reading known takes 0 (some o) as
      | none => .free a :: reading known takes 0 none as

/-- The values given to option `o`, in order. -/
def given (o : String) : List Item → List String
  | [] => []
  | .value p v :: is => if p = o then v :: given o is else given o is
  | .name _ :: is => given o is
  | .free _ :: is => given o is

/-- Is option `o` named? -/
def Named (o : String) (is : List Item) : Prop := Item.name o ∈ is

instance (o is) : Decidable (Named o is) := inferInstanceAs (Decidable (_ ∈ _))

/-- The first argument that belongs to no option. -/
def firstFree : List Item → Option String
  | [] => none
  | .free v :: _ => some v
  | .name _ :: is => firstFree is
  | .value _ _ :: is => firstFree is

/-- Which options take values. -/
def takes (s : Options) (o : String) : Bool := decide ((s.opts o).arg ≠ "")

/-- The items of the arguments that follow the program name. -/
def items (known : String → Bool) (s : Options) (args : List String) : List Item :=
  reading known (takes s) 0 none args

/-! ## Lemmas on the reading -/

theorem given_append (o : String) (xs ys : List Item) : given o (xs ++ ys) = given o xs ++ given o ys := by
  induction xs with
  | nil => rfl
  | cons x xs ih => cases x <;> simp only [List.cons_append, given, ih] <;> split <;> simp

theorem given_values (o p : String) (vs : List String) : given o (vs.map (.value p)) = if p = o then vs else [] := by
  induction vs with
  | nil => simp [given]
  | cons v vs ih => simp only [List.map_cons, given, ih]; split <;> rfl

theorem firstFree_append (xs ys : List Item) : firstFree (xs ++ ys) = (firstFree xs).or (firstFree ys) := by
  induction xs with
  | nil => simp [firstFree]
  | cons x xs ih => cases x <;> simp [firstFree, ih]

theorem firstFree_values (p : String) (vs : List String) : firstFree (vs.map (.value p)) = none := by
  induction vs with
  | nil => rfl
  | cons v vs ih => simpa [firstFree] using ih

theorem reading_skip (known tk) (n : Nat) (as : List String) :
    reading known tk n none as = reading known tk 0 none (as.drop n) := by
  induction n generalizing as with
  | zero => simp
  | succ n ih => cases as with
    | nil => simp [reading]
    | cons a as => simp [reading, ih]

theorem reading_cur (known tk) (o : String) (as : List String) :
    reading known tk 0 (some o) as = (as.takeWhile (fun b => !isOpt b)).map (.value o) ++
      reading known tk 0 none (as.dropWhile (fun b => !isOpt b)) := by
  induction as with
  | nil => simp [reading]
  | cons a as ih =>
    by_cases h : isOpt a
    · simp [reading, h]
    · simp [reading, h, ih]

theorem takeValues_spec (x : Opt) (vs : List String) :
    (takeValues x vs).values.head? = vs.getLast?.or x.values.head? ∧
    (takeValues x vs).arg = x.arg ∧ (takeValues x vs).default = x.default ∧ (takeValues x vs).set = x.set ∧
    (takeValues x vs).persistent = x.persistent ∧ (takeValues x vs).autoApply = x.autoApply ∧
    (takeValues x vs).specified = x.specified := by
  induction vs generalizing x with
  | nil => simp [takeValues]
  | cons v vs ih =>
    simp only [takeValues]
    obtain ⟨h1, h2⟩ := ih { x with values := v :: (if x.single then [] else x.values) }
    refine ⟨?_, by simpa using h2⟩
    rw [h1]
    rcases vs with _ | ⟨w, ws⟩
    · simp
    · simp [List.getLast?_cons]

/-- What one use of an option leaves alone. -/
theorem useOption_keeps (x : Opt) (vs : List String) :
    (useOption x vs).1.arg = x.arg ∧ (useOption x vs).1.default = x.default ∧
    (useOption x vs).1.persistent = x.persistent ∧ (useOption x vs).1.autoApply = x.autoApply ∧
    (useOption x vs).1.specified = x.specified := by
  simp only [useOption]
  split
  · simp
  · split
    · have := takeValues_spec { x with set := true } vs
      exact ⟨this.2.1, this.2.2.1, this.2.2.2.2⟩
    · split <;> simp

/-- The value in front after one use of a value option. -/
theorem useOption_head (x : Opt) (vs : List String) (hx : x.arg ≠ "") :
    (useOption x vs).1.values.head? =
      (vs.getLast?.or x.values.head?).or (if vs = [] ∧ x.default ≠ "" then some x.default else none) := by
  simp only [useOption, hx, if_false]
  split
  · rename_i h
    rw [(takeValues_spec _ vs).1]
    simp [h]
  · rename_i h
    have h : vs = [] := by simpa using h
    subst h
    split
    · rename_i hd; rcases x.values with _ | ⟨w, ws⟩ <;> simp [hd]
    · rename_i hd; simp only [Decidable.not_not] at hd; simp [hd]

/-- The set mark and the error after one use of an option. -/
theorem useOption_set (x : Opt) (vs : List String) :
    (useOption x vs).2 = decide (x.arg ≠ "" ∧ vs = [] ∧ x.default = "") ∧
    (useOption x vs).1.set = !(useOption x vs).2 := by
  simp only [useOption]
  split
  · rename_i h; simp [h]
  · split
    · rename_i h; simp [h, (takeValues_spec _ vs).2.2.2.1]
    · rename_i h
      have h : vs = [] := by simpa using h
      split
      · rename_i hd; simp [hd]
      · rename_i ha h2 hd; simp only [Decidable.not_not] at hd; simp [hd, h, ha]

theorem put_same (s : Options) (o : String) (x : Opt) : (s.put o x).opts o = x := by simp [Options.put]

theorem put_other (s : Options) {o p : String} (x : Opt) (h : p ≠ o) : (s.put o x).opts p = s.opts p := by
  simp [Options.put, h]

theorem takes_put (s : Options) (o : String) (x : Opt) (h : x.arg = (s.opts o).arg) : takes (s.put o x) = takes s := by
  funext p
  by_cases hp : p = o
  · subst hp; simp [takes, put_same, h]
  · simp [takes, put_other s x hp]

/-- One option named with its values, read as items. -/
theorem items_named {known : String → Bool} {s : Options} {a : String} {rest : List String} (ha : isOpt a = true)
    (hk : known (optName a) = true) (hs : (s.opts (optName a)).arg ≠ "") :
    items known s (a :: rest) = .name (optName a) :: ((rest.takeWhile (fun b => !isOpt b)).map (.value (optName a)) ++
      items known s (rest.dropWhile (fun b => !isOpt b))) := by
  have ht : takes s (optName a) = true := by simp [takes, hs]
  rw [items, reading]
  simp only [ha, hk, if_true, ht]
  rw [reading_cur]
  rfl

theorem items_flag {known : String → Bool} {s : Options} {a : String} {rest : List String} (ha : isOpt a = true)
    (hk : known (optName a) = true) (hs : (s.opts (optName a)).arg = "") :
    items known s (a :: rest) = .name (optName a) :: items known s rest := by
  have ht : takes s (optName a) = false := by simp [takes, hs]
  rw [items, reading]
  simp [ha, hk, ht, items]

theorem items_unknown {known : String → Bool} {s : Options} {a : String} {rest : List String} (ha : isOpt a = true)
    (hk : ¬ known (optName a) = true) : items known s (a :: rest) = items known s (rest.drop ((osgParams a).getD 0)) := by
  rw [items, reading]
  simp only [ha, hk, if_true]
  rw [reading_skip]
  rfl

theorem items_free {known : String → Bool} {s : Options} {a : String} {rest : List String} (ha : ¬ isOpt a = true) :
    items known s (a :: rest) = .free a :: items known s rest := by
  rw [items, reading]
  simp [ha, items]

theorem items_put {known : String → Bool} (s : Options) (o : String) (x : Opt) (h : x.arg = (s.opts o).arg)
    (args : List String) : items known (s.put o x) args = items known s args := by
  rw [items, takes_put s o x h]; rfl

theorem takeFree_arg (x : Opt) (a : String) : (x.takeFree a).arg = x.arg := by
  simp only [Opt.takeFree]; split <;> rfl

/-! ## What the main loop does to one option -/

/-- The value in front of an option that takes values and is not the default option. -/
theorem parseLoop_value {known : String → Bool} {s s' : Options} {args : List String} {ok : Bool}
    (h : parseLoop known s args = some (s', ok)) {o : String} (ho : (s.opts o).arg ≠ "") (hD : s.defaultOpt ≠ some o) :
    (s'.opts o).values.head? = (((given o (items known s args)).getLast?.or (s.opts o).values.head?).or
      (if Named o (items known s args) ∧ (s.opts o).default ≠ "" then some (s.opts o).default else none)) ∧
    (s'.opts o).arg = (s.opts o).arg ∧ (s'.opts o).default = (s.opts o).default ∧
    (s'.opts o).persistent = (s.opts o).persistent ∧ (s'.opts o).autoApply = (s.opts o).autoApply ∧
    (s'.opts o).specified = (s.opts o).specified := by
  revert s' ok
  fun_induction parseLoop known s args with
  | case1 s =>
    intro s' ok h
    simp only [Option.some.injEq, Prod.mk.injEq] at h
    obtain ⟨rfl, rfl⟩ := h
    simp [items, reading, given, Named]
  | case2 s a rest ha hk hs ih =>
    intro s' ok h
    have hne : o ≠ optName a := by intro e; rw [e] at ho; exact ho hs
    have hput := put_other s (useOption (s.opts (optName a)) []).1 hne
    have ih := ih (by rw [hput]; exact ho) hD h
    rw [items_put s _ _ (useOption_keeps _ _).1, hput] at ih
    rw [items_flag ha hk hs]
    have e : Named o (.name (optName a) :: items known s rest) ↔ Named o (items known s rest) := by simp [Named, hne]
    simp only [e, given]
    exact ih
  | case3 s a rest ha hk hs ih =>
    intro s' ok h
    simp only [Option.map_eq_some_iff, Prod.mk.injEq] at h
    obtain ⟨⟨s1, ok1⟩, h, rfl, -⟩ := h
    rw [items_named ha hk hs]
    by_cases hne : o = optName a
    · subst hne
      obtain ⟨k1, k2, k3, k4, k5⟩ := useOption_keeps (s.opts (optName a)) (rest.takeWhile (fun b => !isOpt b))
      have ih := ih (by rw [put_same, k1]; exact ho) hD h
      rw [items_put s _ _ k1, put_same, k1, k2, k3, k4, k5, useOption_head _ _ hs] at ih
      refine ⟨?_, ih.2⟩
      rw [ih.1]
      have hN : Named (optName a) (.name (optName a) ::
        ((rest.takeWhile (fun b => !isOpt b)).map (.value (optName a)) ++
          items known s (rest.dropWhile (fun b => !isOpt b)))) := List.mem_cons_self
      simp only [given, given_append, given_values, if_true, List.getLast?_append, hN, true_and]
      generalize rest.takeWhile (fun b => !isOpt b) = vs
      generalize given (optName a) (items known s (rest.dropWhile (fun b => !isOpt b))) = g
      by_cases hd : (s.opts (optName a)).default = ""
      · simp [hd, Option.or_assoc]
      · rcases vs with _ | ⟨v, vs⟩
        · cases g.getLast? <;> cases (s.opts (optName a)).values.head? <;> simp [hd]
        · cases g.getLast? <;> simp [List.getLast?_cons, hd]
    · have hput := put_other s (useOption (s.opts (optName a)) (rest.takeWhile (fun b => !isOpt b))).1 hne
      have ih := ih (by rw [hput]; exact ho) hD h
      rw [items_put s _ _ (useOption_keeps _ _).1, hput] at ih
      have e : Named o (.name (optName a) :: ((rest.takeWhile (fun b => !isOpt b)).map (.value (optName a)) ++
          items known s (rest.dropWhile (fun b => !isOpt b)))) ↔
          Named o (items known s (rest.dropWhile (fun b => !isOpt b))) := by simp [Named, hne]
      simp only [e, given, given_append, given_values, if_neg (Ne.symm hne), List.nil_append]
      exact ih
  | case4 s a rest ha hk n hn ih =>
    intro s' ok h
    rw [items_unknown ha hk, hn]
    exact ih ho hD h
  | case5 s a rest ha hk hn ih =>
    intro s' ok h
    rw [items_unknown ha hk, hn]
    exact ih ho hD h
  | case6 s a rest ha hd => intro s' ok h; simp at h
  | case7 s a rest ha d hd ih =>
    intro s' ok h
    have hne : o ≠ d := by rintro rfl; exact hD hd
    have hput := put_other s ((s.opts d).takeFree a) hne
    have ih := ih (by rw [hput]; exact ho) hD h
    rw [items_put s _ _ (takeFree_arg _ _), hput] at ih
    rw [items_free ha]
    have e : Named o (.free a :: items known s rest) ↔ Named o (items known s rest) := by simp [Named]
    simp only [e, given]
    exact ih

/-- The default option when it has no default value: first argument that belongs to no option, unless it has a value. -/
theorem parseLoop_default {known : String → Bool} {s s' : Options} {args : List String} {ok : Bool}
    (h : parseLoop known s args = some (s', ok)) {o : String} (ho : (s.opts o).arg ≠ "") (hD : s.defaultOpt = some o)
    (hdef : (s.opts o).default = "") :
    (s'.opts o).values.head? = ((given o (items known s args)).getLast?.or (s.opts o).values.head?).or
      (firstFree (items known s args)) := by
  revert s' ok
  fun_induction parseLoop known s args with
  | case1 s =>
    intro s' ok h
    simp only [Option.some.injEq, Prod.mk.injEq] at h
    obtain ⟨rfl, rfl⟩ := h
    simp [items, reading, given, firstFree]
  | case2 s a rest ha hk hs ih =>
    intro s' ok h
    have hne : o ≠ optName a := by intro e; rw [e] at ho; exact ho hs
    have hput := put_other s (useOption (s.opts (optName a)) []).1 hne
    have ih := ih (by rw [hput]; exact ho) hD (by rw [hput]; exact hdef) h
    rw [items_put s _ _ (useOption_keeps _ _).1, hput] at ih
    rw [items_flag ha hk hs]
    exact ih
  | case3 s a rest ha hk hs ih =>
    intro s' ok h
    simp only [Option.map_eq_some_iff, Prod.mk.injEq] at h
    obtain ⟨⟨s1, ok1⟩, h, rfl, -⟩ := h
    rw [items_named ha hk hs]
    simp only [given, firstFree, given_append, given_values, firstFree_append, firstFree_values, Option.none_or]
    by_cases hne : o = optName a
    · subst hne
      obtain ⟨k1, k2, -⟩ := useOption_keeps (s.opts (optName a)) (rest.takeWhile (fun b => !isOpt b))
      have ih := ih (by rw [put_same, k1]; exact ho) hD (by rw [put_same, k2]; exact hdef) h
      rw [items_put s _ _ k1, put_same, useOption_head _ _ hs] at ih
      rw [ih]
      simp [hdef, Option.or_assoc, List.getLast?_append]
    · have hput := put_other s (useOption (s.opts (optName a)) (rest.takeWhile (fun b => !isOpt b))).1 hne
      have ih := ih (by rw [hput]; exact ho) hD (by rw [hput]; exact hdef) h
      rw [items_put s _ _ (useOption_keeps _ _).1, hput] at ih
      simp only [if_neg (Ne.symm hne), List.nil_append]
      exact ih
  | case4 s a rest ha hk n hn ih =>
    intro s' ok h
    rw [items_unknown ha hk, hn]
    exact ih ho hD hdef h
  | case5 s a rest ha hk hn ih =>
    intro s' ok h
    rw [items_unknown ha hk, hn]
    exact ih ho hD hdef h
  | case6 s a rest ha hd => intro s' ok h; simp at h
  | case7 s a rest ha d hd ih =>
    intro s' ok h
    obtain rfl : o = d := by rw [hD] at hd; exact Option.some.inj hd
    have e : ((s.opts o).takeFree a).default = (s.opts o).default := by simp only [Opt.takeFree]; split <;> rfl
    have ih := ih (by rw [put_same, takeFree_arg]; exact ho) hD (by rw [put_same, e]; exact hdef) h
    rw [items_put s _ _ (takeFree_arg _ _), put_same] at ih
    rw [items_free ha, ih]
    simp only [given, firstFree]
    have e : ((s.opts o).takeFree a).values.head? = (s.opts o).values.head?.or (some a) := by
      simp only [Opt.takeFree]
      rcases hv : (s.opts o).values with _ | ⟨v, vs⟩ <;> simp [hv]
    rw [e, ← Option.or_assoc, Option.or_assoc]
    simp

/-- An option named with its argument missing, no default value being there to replace it. -/
def MissingArgument (s : Options) (is : List Item) : Prop :=
  ∃ pre o post, is = pre ++ .name o :: post ∧ (s.opts o).arg ≠ "" ∧ (s.opts o).default = "" ∧
    ∀ v post', post ≠ .value o v :: post'

theorem missing_append {s : Options} {p : String} (vs : List String) (is : List Item) :
    MissingArgument s (vs.map (.value p) ++ is) ↔ MissingArgument s is := by
  constructor
  · rintro ⟨pre, o, post, e, h⟩
    induction vs generalizing pre with
    | nil => exact ⟨pre, o, post, e, h⟩
    | cons v vs ih =>
      rcases pre with _ | ⟨x, pre⟩
      · simp at e
      · simp only [List.map_cons, List.cons_append, List.cons.injEq] at e
        exact ih _ e.2
  · rintro ⟨pre, o, post, e, h⟩
    exact ⟨vs.map (.value p) ++ pre, o, post, by rw [e]; simp, h⟩

theorem missing_free {s : Options} {a : String} (is : List Item) :
    MissingArgument s (.free a :: is) ↔ MissingArgument s is := by
  constructor
  · rintro ⟨pre, o, post, e, h⟩
    rcases pre with _ | ⟨x, pre⟩
    · simp at e
    · simp only [List.cons_append, List.cons.injEq] at e
      exact ⟨pre, o, post, e.2, h⟩
  · rintro ⟨pre, o, post, e, h⟩
    exact ⟨.free a :: pre, o, post, by rw [e]; simp, h⟩

theorem missing_name {s : Options} {p : String} (is : List Item) :
    MissingArgument s (.name p :: is) ↔ MissingArgument s is ∨
      ((s.opts p).arg ≠ "" ∧ (s.opts p).default = "" ∧ ∀ v post', is ≠ .value p v :: post') := by
  constructor
  · rintro ⟨pre, o, post, e, h⟩
    rcases pre with _ | ⟨x, pre⟩
    · simp only [List.nil_append, List.cons.injEq, Item.name.injEq] at e
      obtain ⟨rfl, rfl⟩ := e
      exact Or.inr h
    · simp only [List.cons_append, List.cons.injEq] at e
      exact Or.inl ⟨pre, o, post, e.2, h⟩
  · rintro (⟨pre, o, post, e, h⟩ | h)
    · exact ⟨.name p :: pre, o, post, by rw [e]; simp, h⟩
    · exact ⟨[], p, is, by simp, h⟩

theorem missing_put {s : Options} {o : String} {x : Opt} (h : x.arg = (s.opts o).arg)
    (h2 : x.default = (s.opts o).default) (is : List Item) : MissingArgument (s.put o x) is ↔ MissingArgument s is := by
  have e : ∀ p, ((s.put o x).opts p).arg = (s.opts p).arg ∧ ((s.put o x).opts p).default = (s.opts p).default := by
    intro p
    by_cases hp : p = o
    · subst hp; rw [put_same]; exact ⟨h, h2⟩
    · rw [put_other s x hp]; exact ⟨rfl, rfl⟩
  simp only [MissingArgument, (e _).1, (e _).2]

/-- After the values of an option comes an item that is not one of its values. -/
theorem items_dropWhile {known : String → Bool} {s : Options} (rest : List String) (o v : String) (post : List Item) :
    items known s (rest.dropWhile (fun b => !isOpt b)) ≠ .value o v :: post := by
  have key : ∀ (n : Nat) (l : List String), reading known (takes s) n none l ≠ .value o v :: post := by
    intro n l
    induction l generalizing n with
    | nil => simp [reading]
    | cons a l ih =>
      cases n with
      | succ n => simpa [reading] using ih n
      | zero =>
        rw [reading]
        split
        · split
          · simp
          · exact ih _
        · simp
  exact key 0 _

/-- The parser reports an error exactly when an option lacks its argument. -/
theorem parseLoop_ok {known : String → Bool} {s s' : Options} {args : List String} {ok : Bool}
    (h : parseLoop known s args = some (s', ok)) : ok = false ↔ MissingArgument s (items known s args) := by
  revert s' ok
  fun_induction parseLoop known s args with
  | case1 s =>
    intro s' ok h
    simp only [Option.some.injEq, Prod.mk.injEq] at h
    obtain ⟨rfl, rfl⟩ := h
    simp [items, reading, MissingArgument]
  | case2 s a rest ha hk hs ih =>
    intro s' ok h
    obtain ⟨k1, k2, -⟩ := useOption_keeps (s.opts (optName a)) []
    rw [ih h, items_put s _ _ k1, missing_put k1 k2, items_flag ha hk hs, missing_name]
    simp [hs]
  | case3 s a rest ha hk hs ih =>
    intro s' ok h
    simp only [Option.map_eq_some_iff, Prod.mk.injEq] at h
    obtain ⟨⟨s1, ok1⟩, h, rfl, rfl⟩ := h
    obtain ⟨k1, k2, -⟩ := useOption_keeps (s.opts (optName a)) (rest.takeWhile (fun b => !isOpt b))
    have ih := ih h
    rw [items_put s _ _ k1, missing_put k1 k2] at ih
    rw [items_named ha hk hs, missing_name, missing_append, ← ih, (useOption_set _ _).1]
    have e : ∀ vs : List String, (vs = [] ↔ ∀ v post', vs.map (.value (optName a)) ++
        items known s (rest.dropWhile (fun b => !isOpt b)) ≠ .value (optName a) v :: post') := by
      intro vs
      rcases vs with _ | ⟨v, vs⟩
      · simp [items_dropWhile]
      · simp
    rw [← e]
    cases ok1 <;> simp [hs, and_comm]
  | case4 s a rest ha hk n hn ih =>
    intro s' ok h
    rw [items_unknown ha hk, hn]
    exact ih h
  | case5 s a rest ha hk hn ih =>
    intro s' ok h
    rw [items_unknown ha hk, hn]
    exact ih h
  | case6 s a rest ha hd => intro s' ok h; simp at h
  | case7 s a rest ha d hd ih =>
    intro s' ok h
    have e : ((s.opts d).takeFree a).default = (s.opts d).default := by simp only [Opt.takeFree]; split <;> rfl
    rw [ih h, items_put s _ _ (takeFree_arg _ _), missing_put (takeFree_arg _ _) e, items_free ha, missing_free]

/-- The parser dereferences a null pointer exactly when there is no default option and some argument belongs to none. -/
theorem parseLoop_none {known : String → Bool} {s : Options} {args : List String} :
    parseLoop known s args = none ↔ s.defaultOpt = none ∧ firstFree (items known s args) ≠ none := by
  fun_induction parseLoop known s args with
  | case1 s => simp [items, reading, firstFree]
  | case2 s a rest ha hk hs ih =>
    rw [ih, items_put s _ _ (useOption_keeps _ _).1, items_flag ha hk hs]
    simp [firstFree, Options.put]
  | case3 s a rest ha hk hs ih =>
    rw [Option.map_eq_none_iff, ih, items_put s _ _ (useOption_keeps _ _).1, items_named ha hk hs]
    simp [firstFree, firstFree_append, firstFree_values, Options.put]
  | case4 s a rest ha hk n hn ih => rw [items_unknown ha hk, hn]; exact ih
  | case5 s a rest ha hk hn ih => rw [items_unknown ha hk, hn]; exact ih
  | case6 s a rest ha hd => simp [items_free ha, firstFree, hd]
  | case7 s a rest ha d hd ih =>
    rw [ih]
    simp [Options.put, hd]

theorem parseLoop_keeps {known : String → Bool} {s s' : Options} {args : List String} {ok : Bool}
    (h : parseLoop known s args = some (s', ok)) (o : String) :
    (s'.opts o).arg = (s.opts o).arg ∧ (s'.opts o).default = (s.opts o).default ∧
    (s'.opts o).autoApply = (s.opts o).autoApply ∧ (s'.opts o).persistent = (s.opts o).persistent := by
  revert s' ok
  have hput : ∀ (s : Options) (p : String) (x : Opt), x.arg = (s.opts p).arg → x.default = (s.opts p).default →
      x.autoApply = (s.opts p).autoApply → x.persistent = (s.opts p).persistent →
      ((s.put p x).opts o).arg = (s.opts o).arg ∧ ((s.put p x).opts o).default = (s.opts o).default ∧
      ((s.put p x).opts o).autoApply = (s.opts o).autoApply ∧ ((s.put p x).opts o).persistent = (s.opts o).persistent := by
    intro s p x h1 h2 h3 h4
    by_cases hp : o = p
    · subst hp; rw [put_same]; exact ⟨h1, h2, h3, h4⟩
    · rw [put_other s x hp]; exact ⟨rfl, rfl, rfl, rfl⟩
  fun_induction parseLoop known s args with
  | case1 s => intro s' ok h; simp only [Option.some.injEq, Prod.mk.injEq] at h; obtain ⟨rfl, rfl⟩ := h; simp
  | case2 s a rest ha hk hs ih =>
    intro s' ok h
    obtain ⟨k1, k2, k3, k4, -⟩ := useOption_keeps (s.opts (optName a)) []
    have := hput s _ _ k1 k2 k4 k3
    have ih := ih h
    exact ⟨ih.1.trans this.1, ih.2.1.trans this.2.1, ih.2.2.1.trans this.2.2.1, ih.2.2.2.trans this.2.2.2⟩
  | case3 s a rest ha hk hs ih =>
    intro s' ok h
    simp only [Option.map_eq_some_iff, Prod.mk.injEq] at h
    obtain ⟨⟨s1, ok1⟩, h, rfl, -⟩ := h
    obtain ⟨k1, k2, k3, k4, -⟩ := useOption_keeps (s.opts (optName a)) (rest.takeWhile (fun b => !isOpt b))
    have := hput s _ _ k1 k2 k4 k3
    have ih := ih h
    exact ⟨ih.1.trans this.1, ih.2.1.trans this.2.1, ih.2.2.1.trans this.2.2.1, ih.2.2.2.trans this.2.2.2⟩
  | case4 s a rest ha hk n hn ih => intro s' ok h; exact ih h
  | case5 s a rest ha hk hn ih => intro s' ok h; exact ih h
  | case6 s a rest ha hd => intro s' ok h; simp at h
  | case7 s a rest ha d hd ih =>
    intro s' ok h
    have k : ((s.opts d).takeFree a).default = (s.opts d).default ∧
      ((s.opts d).takeFree a).autoApply = (s.opts d).autoApply ∧
      ((s.opts d).takeFree a).persistent = (s.opts d).persistent := by
      simp only [Opt.takeFree]; split <;> simp
    have := hput s _ _ (takeFree_arg _ a) k.1 k.2.1 k.2.2
    have ih := ih h
    exact ⟨ih.1.trans this.1, ih.2.1.trans this.2.1, ih.2.2.1.trans this.2.2.1, ih.2.2.2.trans this.2.2.2⟩

theorem parseLoop_defaultOpt {known : String → Bool} {s s' : Options} {args : List String} {ok : Bool}
    (h : parseLoop known s args = some (s', ok)) : s'.defaultOpt = s.defaultOpt := by
  revert s' ok
  fun_induction parseLoop known s args with
  | case1 s => intro s' ok h; simp only [Option.some.injEq, Prod.mk.injEq] at h; obtain ⟨rfl, rfl⟩ := h; simp
  | case2 s a rest ha hk hs ih => intro s' ok h; exact ih h
  | case3 s a rest ha hk hs ih =>
    intro s' ok h
    simp only [Option.map_eq_some_iff, Prod.mk.injEq] at h
    obtain ⟨⟨s1, ok1⟩, h, rfl, -⟩ := h
    exact ih h
  | case4 s a rest ha hk n hn ih => intro s' ok h; exact ih h
  | case5 s a rest ha hk hn ih => intro s' ok h; exact ih h
  | case6 s a rest ha hd => intro s' ok h; simp at h
  | case7 s a rest ha d hd ih => intro s' ok h; exact ih h

/-- When no error is reported: an option other than the default one is set afterwards exactly when it was set before
or is named. -/
theorem parseLoop_set {known : String → Bool} {s s' : Options} {args : List String} {ok : Bool} (hok : ok = true)
    (h : parseLoop known s args = some (s', ok)) {o : String} (hD : s.defaultOpt ≠ some o) :
    (s'.opts o).set = true ↔ (s.opts o).set = true ∨ Named o (items known s args) := by
  revert s' ok
  fun_induction parseLoop known s args with
  | case1 s =>
    intro s' ok hok h
    simp only [Option.some.injEq, Prod.mk.injEq] at h
    obtain ⟨rfl, rfl⟩ := h
    simp [items, reading, Named]
  | case2 s a rest ha hk hs ih =>
    intro s' ok hok h
    have ih := ih hD hok h
    rw [ih, items_put s _ _ (useOption_keeps _ _).1, items_flag ha hk hs]
    by_cases hne : o = optName a
    · subst hne
      rw [put_same, (useOption_set _ _).2, (useOption_set _ _).1]
      simp [Named, hs]
    · rw [put_other s _ hne]
      simp [Named, hne]
  | case3 s a rest ha hk hs ih =>
    intro s' ok hok h
    simp only [Option.map_eq_some_iff, Prod.mk.injEq] at h
    obtain ⟨⟨s1, ok1⟩, h, rfl, rfl⟩ := h
    have hok : ok1 = true ∧ (useOption (s.opts (optName a)) (rest.takeWhile (fun b => !isOpt b))).2 = false := by
      revert hok; cases ok1 <;> simp
    have ih := ih hD hok.1 h
    rw [ih, items_put s _ _ (useOption_keeps _ _).1, items_named ha hk hs]
    by_cases hne : o = optName a
    · subst hne
      rw [put_same, (useOption_set _ _).2, hok.2]
      simp [Named]
    · rw [put_other s _ hne]
      simp [Named, hne]
  | case4 s a rest ha hk n hn ih =>
    intro s' ok hok h
    rw [items_unknown ha hk, hn]
    exact ih hD hok h
  | case5 s a rest ha hk hn ih =>
    intro s' ok hok h
    rw [items_unknown ha hk, hn]
    exact ih hD hok h
  | case6 s a rest ha hd => intro s' ok hok h; simp at h
  | case7 s a rest ha d hd ih =>
    intro s' ok hok h
    have hne : o ≠ d := by rintro rfl; exact hD hd
    have ih := ih hD hok h
    rw [ih, items_put s _ _ (takeFree_arg _ _), put_other s _ hne, items_free ha]
    simp [Named]

/-! ## C25 at the level of the calls -/

theorem applyDefault_keeps (x : Opt) : (applyDefault x).arg = x.arg ∧ (applyDefault x).default = x.default ∧
    (applyDefault x).persistent = x.persistent ∧ (applyDefault x).specified = x.specified := by
  simp only [applyDefault]; split <;> simp

theorem applyDefault_nodefault (x : Opt) (h : x.default = "") : applyDefault x = x := by simp [applyDefault, h]

/-- **C25, command line**: after parsing, an option that takes a value and has no default value reads as the value
given to it last on the command line; when none is given it reads as before. -/
theorem parse_last_wins {known : String → Bool} {s s' : Options} {app : String} {args : List String} {ok : Bool}
    (h : parseArgs known s (app :: args) = some (s', ok)) {o : String} (hk : known o = true)
    (ho : (s.opts o).arg ≠ "") (hD : s.defaultOpt ≠ some o) (hdef : (s.opts o).default = "") :
    getOptionValue known s' o 0 = ((given o (items known s args)).getLast?).getD (getOptionValue known s o 0) := by
  simp only [parseArgs, Option.map_eq_some_iff, Prod.mk.injEq] at h
  obtain ⟨⟨s1, ok1⟩, h, rfl, -⟩ := h
  obtain ⟨h1, h2, h3, -⟩ := parseLoop_value h ho hD
  simp only [hdef] at h1 h3
  simp only [getOptionValue, getOption, hk, if_true, Opt.value, applyDefaults, applyDefault_nodefault _ h3, h2]
  simp only [ne_eq, not_true_eq_false, and_false, if_false, Option.or_none] at h1
  simp only [List.getD_eq_getElem?_getD, List.head?_eq_getElem?] at h1 ⊢
  rw [h1]
  cases (given o (items known s args)).getLast? <;> simp [ho]

/-- **C25, command line, option with a default value**: the value given last; else the value it had; else the default
value, provided the option is named without value, or is set without value, or is one whose default value
applies by itself and is not set. -/
theorem parse_default_value {known : String → Bool} {s s' : Options} {app : String} {args : List String}
    (h : parseArgs known s (app :: args) = some (s', true)) {o : String} (hk : known o = true)
    (ho : (s.opts o).arg ≠ "") (hD : s.defaultOpt ≠ some o) (hdef : (s.opts o).default ≠ "")
    (hv : (s.opts o).values = []) (hg : given o (items known s args) = []) :
    (Named o (items known s args) ∨ ((s.opts o).autoApply = true ↔ (s.opts o).set = false) →
      getOptionValue known s' o 0 = (s.opts o).default) ∧
    (¬ (Named o (items known s args) ∨ ((s.opts o).autoApply = true ↔ (s.opts o).set = false)) →
      getOptionValue known s' o 0 = "") := by
  simp only [parseArgs, Option.map_eq_some_iff, Prod.mk.injEq] at h
  obtain ⟨⟨s1, ok1⟩, h, rfl, rfl⟩ := h
  obtain ⟨h1, h2, h3, h4, h5, h6⟩ := parseLoop_value h ho hD
  have hset := parseLoop_set rfl h hD
  simp only [hg, List.getLast?_nil, hv, List.head?_nil, Option.or_none, Option.none_or] at h1
  simp only [getOptionValue, getOption, hk, if_true, Opt.value, applyDefaults, (applyDefault_keeps _).1, h2, ho, ne_eq,
    not_false_eq_true]
  by_cases hN : Named o (items known s args)
  · simp only [hN, true_or, true_and, if_pos hdef, true_implies, not_true_eq_false, false_implies, and_true] at h1 ⊢
    rcases hvs : (s1.opts o).values with _ | ⟨v, vs⟩
    · rw [hvs] at h1; simp at h1
    · rw [hvs] at h1
      simp only [List.head?_cons, Option.some.injEq] at h1
      simp [applyDefault, hvs, h1]
  · simp only [hN, false_and, if_false, List.head?_eq_none_iff] at h1
    simp only [hN, or_false] at hset
    simp only [hN, false_or, applyDefault, h1, h3, h5, true_and]
    cases hs : (s.opts o).set <;> cases hs1 : (s1.opts o).set <;> cases ha : (s.opts o).autoApply <;>
      simp_all

/-- **C25, command line, default option**: without value of its own it takes the first argument that belongs to no
option. -/
theorem parse_default_option {known : String → Bool} {s s' : Options} {app : String} {args : List String} {ok : Bool}
    (h : parseArgs known s (app :: args) = some (s', ok)) {o : String} (hk : known o = true)
    (ho : (s.opts o).arg ≠ "") (hD : s.defaultOpt = some o) (hdef : (s.opts o).default = "") (hv : (s.opts o).values = []) :
    getOptionValue known s' o 0 =
      (((given o (items known s args)).getLast?).or (firstFree (items known s args))).getD "" := by
  simp only [parseArgs, Option.map_eq_some_iff, Prod.mk.injEq] at h
  obtain ⟨⟨s1, ok1⟩, h, rfl, -⟩ := h
  have h1 := parseLoop_default h ho hD hdef
  have hk2 : (s1.opts o).arg = (s.opts o).arg ∧ (s1.opts o).default = (s.opts o).default :=
    ⟨(parseLoop_keeps h o).1, (parseLoop_keeps h o).2.1⟩
  simp only [getOptionValue, getOption, hk, if_true, Opt.value, applyDefaults,
    applyDefault_nodefault _ (hk2.2.trans hdef), hk2.1]
  simp only [hv, List.head?_nil, Option.or_none] at h1
  simp only [List.getD_eq_getElem?_getD, List.head?_eq_getElem?] at h1 ⊢
  rw [h1]
  simp [ho]

/-- **C25, command line, errors**: parsing succeeds exactly when no named option lacks its argument. -/
theorem parse_ok_iff {known : String → Bool} {s s' : Options} {app : String} {args : List String} {ok : Bool}
    (h : parseArgs known s (app :: args) = some (s', ok)) :
    ok = true ↔ ¬ MissingArgument s (items known s args) := by
  simp only [parseArgs, Option.map_eq_some_iff, Prod.mk.injEq] at h
  obtain ⟨⟨s1, ok1⟩, h, rfl, rfl⟩ := h
  rw [← parseLoop_ok h]
  cases ok1 <;> simp

/-- **C25, command line, no crash**: with a default option in place parsing never dereferences a null pointer, and
without one it does exactly when an argument belongs to no option. -/
theorem parse_crash_iff {known : String → Bool} {s : Options} {app : String} {args : List String} :
    parseArgs known s (app :: args) = none ↔ s.defaultOpt = none ∧ firstFree (items known s args) ≠ none := by
  rw [parseArgs, Option.map_eq_none_iff, parseLoop_none]

/-- **C25, command line, set mark**: after a successful parse an option is set exactly when it was set before, is
named, or gets its default value by itself. -/
theorem parse_set_iff {known : String → Bool} {s s' : Options} {app : String} {args : List String}
    (h : parseArgs known s (app :: args) = some (s', true)) {o : String} (hk : known o = true)
    (hD : s.defaultOpt ≠ some o) (hdef : (s.opts o).default = "" ∨ (s.opts o).autoApply = false) :
    getOptionSet known s' o = true ↔ getOptionSet known s o = true ∨ Named o (items known s args) := by
  simp only [parseArgs, Option.map_eq_some_iff, Prod.mk.injEq] at h
  obtain ⟨⟨s1, ok1⟩, h, rfl, rfl⟩ := h
  have hset := parseLoop_set rfl h hD
  have hk2 := parseLoop_keeps h o
  have e : (applyDefault (s1.opts o)).set = (s1.opts o).set := by
    simp only [applyDefault]
    split
    · rename_i hc
      rcases hdef with hd | hd
      · rw [hk2.2.1, hd] at hc; simp at hc
      · rw [hk2.2.2.1, hd] at hc
        simp at hc
        exact hc.2.2.symm
    · rfl
  simp only [getOptionSet, getOption, hk, if_true, applyDefaults, e]
  exact hset

/-- **C25, set**: a value set through the interface is the one read, and the option is set. -/
theorem set_then_get {known : String → Bool} {s : Options} {o value : String} (add pers : Bool) (hk : known o = true)
    (hv : value ≠ "") (hs : (s.opts o).specified = true → (s.opts o).arg ≠ "") :
    (setOptionValue known s o value add pers).2 = 0 ∧
    getOptionValue known (setOptionValue known s o value add pers).1 o 0 = value ∧
    getOptionSet known (setOptionValue known s o value add pers).1 o = true := by
  have harg : (prelim (s.opts o) value).arg ≠ "" := by
    simp only [prelim]
    split
    · rename_i h; exact hs h
    · exact hv
  simp only [setOptionValue, hk, if_true, if_pos hv, if_pos harg, getOptionValue, getOption, put_same, getOptionSet,
    Opt.give, Opt.value, true_and, and_true]
  simp

/-- **C25, frame**: setting, unsetting, clearing or changing one option leaves every other option as it is. -/
theorem other_options_untouched {known : String → Bool} {s : Options} {o p : String} (hp : p ≠ o) (value : String)
    (add pers : Bool) (i : Int) :
    ((setOptionValue known s o value add pers).1).opts p = s.opts p ∧ (unsetOption known s o).opts p = s.opts p ∧
    (clearOption known s o).opts p = s.opts p ∧ ((changeOptionArg known s o value i).1).opts p = s.opts p := by
  refine ⟨?_, ?_, ?_, ?_⟩
  · simp only [setOptionValue]; split <;> try rfl
    split <;> try exact put_other _ _ hp
    split <;> exact put_other _ _ hp
  · simp only [unsetOption]; split <;> first | rfl | exact put_other _ _ hp
  · simp only [clearOption]; split <;> first | rfl | exact put_other _ _ hp
  · simp only [changeOptionArg]; split <;> try rfl
    split <;> first | rfl | exact put_other _ _ hp

/-- **C25, change**: changing a value by its position succeeds exactly when there is such a value; then that value reads
as the new one and all others as before; otherwise nothing changes. -/
theorem change_value {known : String → Bool} {s : Options} {o : String} (hk : known o = true) (ha : (s.opts o).arg ≠ "")
    (value : String) (i : Int) :
    ((changeOptionArg known s o value i).2 = 0 ↔ 0 ≤ i ∧ i < (s.opts o).values.length) ∧
    ((changeOptionArg known s o value i).2 = 0 → ∀ j : Nat, getOptionValue known (changeOptionArg known s o value i).1 o j =
      if (j : Int) = i then value else getOptionValue known s o j) ∧
    ((changeOptionArg known s o value i).2 ≠ 0 → (changeOptionArg known s o value i).1 = s) := by
  simp only [changeOptionArg, hk, if_true]
  by_cases hi : i < 0 ∨ (s.opts o).values.length ≤ i.toNat
  · rw [if_pos hi]
    simp
    omega
  · rw [if_neg hi]
    simp only [getOptionValue, getOption, hk, if_true, put_same, Opt.value, Opt.change, ne_eq, ha, not_false_eq_true]
    refine ⟨by simp; omega, fun _ j => ?_, by simp⟩
    by_cases hj : (j : Int) = i
    · subst hj
      simp at hi
      simp [hi]
    · rw [if_neg hj]
      have : i.toNat ≠ j := by omega
      simp [List.getD_eq_getElem?_getD, List.getElem?_set_ne this]

/-- **C25, all values**: adding values one after the other keeps them all, the last one first. -/
theorem added_values {known : String → Bool} {s : Options} {o : String} (hk : known o = true)
    (hs : (s.opts o).specified = true) (ha : (s.opts o).arg ≠ "") (vs : List String) (hvs : ∀ v ∈ vs, v ≠ "") :
    ((vs.foldl (fun s v => (setOptionValue known s o v true false).1) s).opts o).values =
      vs.reverse ++ (s.opts o).values := by
  induction vs generalizing s with
  | nil => simp
  | cons v vs ih =>
    have hv : v ≠ "" := hvs v List.mem_cons_self
    have e : (setOptionValue known s o v true false).1.opts o = (s.opts o).give (v :: (s.opts o).values) false := by
      simp only [setOptionValue, hk, if_true, if_pos hv, prelim, hs, if_pos ha, put_same]
    rw [List.foldl_cons, ih (by rw [e]; exact hs) (by rw [e]; exact ha) (fun w hw => hvs w (List.mem_cons_of_mem _ hw)), e]
    simp [Opt.give]

/-- **C25, reset**: afterwards exactly the options marked persistent are still set, with their values. -/
theorem reset_keeps_persistent (known : String → Bool) (s : Options) (o : String) :
    (getOptionSet known (reset s) o = true ↔ getOptionSet known s o = true ∧ (s.opts o).persistent = true) ∧
    ((s.opts o).persistent = true → ∀ i, getOptionValue known (reset s) o i = getOptionValue known s o i) ∧
    ((s.opts o).persistent = false → ∀ i, getOptionValue known (reset s) o i = "") := by
  simp only [getOptionSet, getOptionValue, getOption, reset, Opt.reset]
  cases known o
  · simp
  · cases (s.opts o).persistent <;> simp [Opt.value]

/-- **C25, early values**: a value set through the interface before the program has declared its options survives
the declaration. -/
theorem value_survives_declaration {known : String → Bool} {s s' : Options} {o value arg default : String}
    {pers auto single isDef : Bool} (hk : known o = true) (hv : value ≠ "") (harg : arg ≠ "")
    (hb : (s.opts o).specified = false)
    (h : addOption known (setOptionValue known s o value false pers).1 o arg default auto single isDef = some s') :
    getOptionValue known s' o 0 = value ∧ getOptionSet known s' o = true := by
  simp only [addOption, hk, if_true, Option.some.injEq] at h
  subst h
  have e : (setOptionValue known s o value false pers).1.opts o = (prelim (s.opts o) value).give [value] pers := by
    simp [setOptionValue, hk, hv, prelim, hb, put_same]
  simp only [getOptionValue, getOptionSet, getOption, hk, if_true, put_same, e]
  simp [Opt.value, harg, Opt.give]

/-! ## C25 for sequences of calls -/

/-- A call that changes options. -/
inductive Op where
  | set (o value : String) (add persistent : Bool)
  | unset (o : String)
  | clear (o : String)
  | parse (app : String) (args : List String)
  | reset

/-- Perform one call; `none` for the null pointer dereference. -/
def perform (known : String → Bool) (s : Options) : Op → Option Options
  | .set o v add p => some (setOptionValue known s o v add p).1
  | .unset o => some (unsetOption known s o)
  | .clear o => some (clearOption known s o)
  | .parse app args => (parseArgs known s (app :: args)).map (·.1)
  | .reset => some (reset s)

/-- Perform calls one after the other. -/
def performAll (known : String → Bool) (s : Options) : List Op → Option Options
  | [] => some s
  | op :: ops => (perform known s op).bind (fun s => performAll known s ops)

/-- What a user expects of one option, given only the calls: the value given last and whether it is persistent.
For the command line, `takesValue` says which options take values. -/
def expect (known takesValue : String → Bool) (o : String) (r : Option String × Bool) : Op → Option String × Bool
  | .set p v _ pers => if p = o then (if v = "" then r.1 else some v, pers) else r
  | .unset p => if p = o then (none, false) else r
  | .clear p => if p = o then (none, r.2) else r
  | .parse _ args => (((given o (reading known takesValue 0 none args)).getLast?).or r.1, r.2)
  | .reset => if r.2 then r else (none, r.2)

theorem given_reading_congr {known t t' : String → Bool} {o : String} (h : t o = t' o) (n : Nat) (c c' : Option String)
    (hc : c = some o ↔ c' = some o) (args : List String) :
    given o (reading known t n c args) = given o (reading known t' n c' args) := by
  induction args generalizing n c c' with
  | nil => simp [reading]
  | cons a as ih =>
    cases n with
    | succ n => simp only [reading]; exact ih n none none Iff.rfl
    | zero =>
      simp only [reading]
      split
      · split
        · simp only [given]
          apply ih
          by_cases e : optName a = o
          · rw [e, h]
          · split <;> split <;> simp [e]
        · exact ih _ _ _ Iff.rfl
      · cases c with
        | none =>
          cases c' with
          | none => simp only [given]; exact ih _ _ _ Iff.rfl
          | some q =>
            have hq : q ≠ o := by intro e; subst e; simp at hc
            simp only [given, if_neg hq]
            exact ih _ _ _ hc
        | some p =>
          cases c' with
          | none =>
            have hp : p ≠ o := by intro e; subst e; simp at hc
            simp only [given, if_neg hp]
            exact ih _ _ _ hc
          | some q =>
            by_cases hp : p = o
            · have hq : q = o := by simpa using hc.1 (by rw [hp])
              subst hp; subst hq
              simp only [given, if_true]
              rw [ih _ _ _ hc]
            · have hq : q ≠ o := by intro e; exact hp (by simpa using hc.2 (by rw [e]))
              simp only [given, if_neg hp, if_neg hq]
              exact ih _ _ _ hc

/-- What the calls keep about a declared option without default value. -/
structure Plain (s : Options) (o : String) : Prop where
  specified : (s.opts o).specified = true
  takes : (s.opts o).arg ≠ ""
  nodefault : (s.opts o).default = ""
  notDefaultOption : s.defaultOpt ≠ some o

theorem perform_spec {known : String → Bool} {o : String} (hk : known o = true) {tk : String → Bool} (htk : tk o = true)
    {s s' : Options} (hp : Plain s o) {op : Op} (h : perform known s op = some s') :
    Plain s' o ∧ (((s'.opts o).values.head?, (s'.opts o).persistent) =
      expect known tk o ((s.opts o).values.head?, (s.opts o).persistent) op) := by
  obtain ⟨a1, a2, a3, a4⟩ := hp
  cases op with
  | set p v add pers =>
    simp only [perform, Option.some.injEq] at h
    subst h
    by_cases hpo : p = o
    · subst hpo
      by_cases hv : v = ""
      · have e : (setOptionValue known s p v add pers).1 = s.put p ((s.opts p).mark pers) := by
          simp [setOptionValue, hk, hv, prelim, a1]
        rw [e]
        refine ⟨⟨?_, ?_, ?_, ?_⟩, ?_⟩ <;> simp [put_same, Opt.mark, a1, a2, a3, expect, hv]
        exact a4
      · have e : (setOptionValue known s p v add pers).1 =
            s.put p ((s.opts p).give (v :: (if add then (s.opts p).values else [])) pers) := by
          simp [setOptionValue, hk, hv, prelim, a1, a2]
        rw [e]
        refine ⟨⟨?_, ?_, ?_, ?_⟩, ?_⟩ <;> simp [put_same, Opt.give, a1, a2, a3, expect, hv]
        exact a4
    · have e := (other_options_untouched (known := known) (s := s) (Ne.symm hpo) v add pers 0).1
      refine ⟨⟨?_, ?_, ?_, ?_⟩, ?_⟩ <;> simp [e, a1, a2, a3, expect, hpo]
      have : (setOptionValue known s p v add pers).1.defaultOpt = s.defaultOpt := by
        simp only [setOptionValue]; split <;> try rfl
        split <;> try rfl
        split <;> rfl
      rw [this]; exact a4
  | unset p =>
    simp only [perform, Option.some.injEq] at h
    subst h
    by_cases hpo : p = o
    · subst hpo
      simp only [unsetOption, hk, if_true]
      refine ⟨⟨?_, ?_, ?_, ?_⟩, ?_⟩ <;> simp [put_same, Opt.unset, a1, a2, a3, expect]
      exact a4
    · have e := (other_options_untouched (known := known) (s := s) (Ne.symm hpo) "" false false 0).2.1
      refine ⟨⟨?_, ?_, ?_, ?_⟩, ?_⟩ <;> simp [e, a1, a2, a3, expect, hpo]
      have : (unsetOption known s p).defaultOpt = s.defaultOpt := by simp only [unsetOption]; split <;> rfl
      rw [this]; exact a4
  | clear p =>
    simp only [perform, Option.some.injEq] at h
    subst h
    by_cases hpo : p = o
    · subst hpo
      simp only [clearOption, hk, if_true]
      refine ⟨⟨?_, ?_, ?_, ?_⟩, ?_⟩ <;> simp [put_same, Opt.clear, a1, a2, a3, expect]
      exact a4
    · have e := (other_options_untouched (known := known) (s := s) (Ne.symm hpo) "" false false 0).2.2.1
      refine ⟨⟨?_, ?_, ?_, ?_⟩, ?_⟩ <;> simp [e, a1, a2, a3, expect, hpo]
      have : (clearOption known s p).defaultOpt = s.defaultOpt := by simp only [clearOption]; split <;> rfl
      rw [this]; exact a4
  | parse app args =>
    simp only [perform, parseArgs, Option.map_map, Option.map_eq_some_iff, Function.comp_def] at h
    obtain ⟨⟨s1, ok1⟩, h, rfl⟩ := h
    obtain ⟨h1, h2, h3, h4, h5, h6⟩ := parseLoop_value h a2 a4
    have e : (applyDefaults s1).opts o = s1.opts o := applyDefault_nodefault _ (h3.trans a3)
    have hd : (applyDefaults s1).defaultOpt = s.defaultOpt := (parseLoop_defaultOpt h : s1.defaultOpt = _)
    refine ⟨⟨?_, ?_, ?_, ?_⟩, ?_⟩
    · rw [e, h6, a1]
    · rw [e, h2]; exact a2
    · rw [e, h3, a3]
    · rw [hd]; exact a4
    · simp only [e, h1, h4, a3, ne_eq, not_true_eq_false, and_false, if_false, Option.or_none, expect]
      rw [items, given_reading_congr (t' := tk) (by rw [htk]; simp [takes, a2]) 0 none none Iff.rfl]
  | reset =>
    simp only [perform, Option.some.injEq] at h
    subst h
    simp only [reset, expect, Opt.reset]
    refine ⟨⟨?_, ?_, ?_, ?_⟩, ?_⟩ <;> cases hq : (s.opts o).persistent <;> simp [hq, a1, a2, a3, a4]

/-- **C25**: after any sequence of calls that set, unset, clear, parse command lines and reset, reading a declared
option that takes a value returns the value given to it last and not withdrawn since. -/
theorem last_value_wins {known : String → Bool} {o : String} (hk : known o = true) {tk : String → Bool} (htk : tk o = true)
    {s s' : Options} (hp : Plain s o) {ops : List Op} (h : performAll known s ops = some s') :
    getOptionValue known s' o 0 =
      ((ops.foldl (expect known tk o) ((s.opts o).values.head?, (s.opts o).persistent)).1).getD "" := by
  induction ops generalizing s with
  | nil =>
    simp only [performAll, Option.some.injEq] at h
    subst h
    simp [getOptionValue, getOption, hk, Opt.value, hp.takes, List.getD_eq_getElem?_getD, List.head?_eq_getElem?]
  | cons op ops ih =>
    simp only [performAll, Option.bind_eq_some_iff] at h
    obtain ⟨s1, h1, h⟩ := h
    obtain ⟨hp1, e⟩ := perform_spec hk htk hp h1
    rw [ih hp1 h, List.foldl_cons, e]

/-! ## Concrete cases and deviations -/

/-- A small program: `osc` is the default option, `seed` takes one value, `path` takes several, `headless` takes
none, `fixed_timestep` has a default value. -/
def demoKnown (o : String) : Bool := ["osc", "seed", "path", "headless", "fixed_timestep"].contains o

def demo : Options where
  opts := fun o =>
    if o = "osc" then ⟨true, "filename", false, [], "", false, false, true⟩
    else if o = "seed" then ⟨true, "number", false, [], "", false, false, true⟩
    else if o = "path" then ⟨true, "path", false, [], "", false, false, false⟩
    else if o = "headless" then ⟨true, "", false, [], "", false, false, true⟩
    else if o = "fixed_timestep" then ⟨true, "dt", false, [], "0.05", false, false, true⟩
    else .blank
  defaultOpt := some "osc"
  unknown := []

/-- Read one option after parsing. -/
def readAfter (s : Options) (args : List String) (o : String) : Option (String × Bool × Bool) :=
  (parseArgs demoKnown s ("app" :: args)).map (fun r => (getOptionValue demoKnown r.1 o 0, getOptionSet demoKnown r.1 o, r.2))

example : Plain demo "seed" := ⟨by decide, by decide, by decide, by decide⟩

example : readAfter demo ["--seed", "5", "--window", "1", "2", "3", "4", "my.xosc", "--seed", "7"] "seed" =
    some ("7", true, true) := by decide +kernel

example : readAfter demo ["--seed", "5", "--window", "1", "2", "3", "4", "my.xosc", "--seed", "7"] "osc" =
    some ("my.xosc", true, true) := by decide +kernel

example : readAfter demo ["--fixed_timestep"] "fixed_timestep" = some ("0.05", true, true) := by decide +kernel

example : (items demoKnown demo ["--path", "a", "b", "--headless", "c"]) =
    [.name "path", .value "path" "a", .value "path" "b", .name "headless", .free "c"] := by decide +kernel

/-- **C25 deviates**: an option whose default value stands in for an omitted value keeps reading as the earlier value
when it is named again without value. -/
theorem default_after_value_witness :
    readAfter demo ["--fixed_timestep", "0.1", "--fixed_timestep"] "fixed_timestep" = some ("0.1", true, true) := by
  decide +kernel

/-- **C25 deviates**: an option named again without its value is reported as not set while it still reads as its
earlier value. -/
theorem bare_repeat_witness : readAfter demo ["--seed", "5", "--seed"] "seed" = some ("5", false, false) := by
  decide +kernel

/-- **C25 deviates**: setting an undeclared option without value declares it as one that takes no value, so a value
set afterwards is refused and reading returns nothing. -/
theorem flag_then_value_fails {known : String → Bool} {s : Options} {o value : String} (hk : known o = true)
    (hb : (s.opts o).specified = false) (hv : value ≠ "") (pers pers' : Bool) :
    (setOptionValue known (setOptionValue known s o "" false pers).1 o value false pers').2 = -1 ∧
    getOptionValue known (setOptionValue known (setOptionValue known s o "" false pers).1 o value false pers').1 o 0 = "" := by
  simp [setOptionValue, hk, hv, prelim, hb, Opt.mark, getOptionValue, getOption, Opt.value, put_same]

end Verif.Options
