import Verif.Util.StringTheorems

/-! C24: lexical normalisation of paths. -/
namespace Verif.Util

/-- Specification: both slashes separate components. -/
def IsSep (c : Char) : Prop := c = '/' ∨ c = '\\'

instance (c) : Decidable (IsSep c) := inferInstanceAs (Decidable (_ ∨ _))

/-- Specification: the components of a path. -/
def comps : List Char → List (List Char)
  | [] => [[]]
  | c :: r =>
    if IsSep c then [] :: comps r
    else match comps r with
      | [] => [[c]]
      | h :: t => (c :: h) :: t

/-- A place in a directory tree: `up` levels above the start, then down along `names` (last name first). -/
structure Loc where
  up : Nat
  names : List (List Char)
deriving DecidableEq, Repr

/-- Specification: following one component. At the root of an absolute path `..` leads nowhere. -/
def walk (absolute : Bool) (l : Loc) (c : List Char) : Loc :=
  if c = [] ∨ c = ['.'] then l
  else if c = ['.', '.'] then
    match l.names with
    | _ :: r => { l with names := r }
    | [] => if absolute then l else { l with up := l.up + 1 }
  else { l with names := c :: l.names }

/-- Specification: a path is absolute if it starts with a separator. -/
def absoluteSpec : List Char → Bool
  | [] => false
  | c :: _ => decide (IsSep c)

/-- Specification: what a path denotes: whether it is absolute, and the place it leads to. -/
def denotes (s : List Char) : Bool × Loc :=
  (absoluteSpec s, (comps s).foldl (walk (absoluteSpec s)) ⟨0, []⟩)

theorem isAbsolute_spec (s : List Char) : isAbsolute s = absoluteSpec s := by
  cases s with
  | nil => rfl
  | cons c r => simp [isAbsolute, absoluteSpec, IsSep]; grind

def toSlash (c : Char) : Char := if c = '\\' then '/' else c

theorem comps_ne_nil (s) : comps s ≠ [] := by
  cases s with
  | nil => simp [comps]
  | cons c r => simp only [comps]; split; simp; split <;> simp

theorem comps_eq (s : List Char) : comps s = splitFrom '/' (s.map toSlash) := by
  induction s with
  | nil => rw [splitFrom_clean (by simp)]; rfl
  | cons c r ih =>
    simp only [comps, List.map_cons]
    split
    · next h =>
      have : toSlash c = '/' := by unfold toSlash; rcases h with rfl | rfl <;> decide
      rw [this, ih]
      exact (splitFrom_append (d := '/') (p := []) (by simp)).symm
    · next h =>
      have hc : toSlash c = c ∧ c ≠ '/' := by
        simp only [IsSep, not_or] at h
        exact ⟨by simp [toSlash, h.2], h.1⟩
      rw [hc.1]
      have key : ∀ u : List Char, splitFrom '/' (c :: u) = (match splitFrom '/' u with
          | [] => [[c]] | h :: t => (c :: h) :: t) := by
        intro u
        cases hu : cut '/' u with
        | none =>
          have h1 := cut_none.1 hu
          rw [splitFrom_clean h1, splitFrom_clean (by simp [h1, Ne.symm hc.2])]
        | some x =>
          obtain ⟨a, b⟩ := x
          obtain ⟨rfl, h2⟩ := cut_some hu
          rw [splitFrom_append h2]
          have := splitFrom_append (d := '/') (p := c :: a) (r := b) (by simp [h2, Ne.symm hc.2])
          simpa using this
      rw [key, ih]

theorem foldl_pathTokens {α : Type} (f : α → List Char → α) (a : α) (hf : ∀ a, f a [] = a) (s : List Char) :
    (pathTokens s).foldl f a = (comps s).foldl f a := by
  rw [comps_eq]
  unfold pathTokens splitString
  show List.foldl f a (if s.map toSlash = [] then [] else splitFrom '/' (s.map toSlash)) = _
  split
  · next h =>
    rw [h, splitFrom_clean (by simp)]
    simp [hf]
  · rfl

/-- a proper name of a file or directory -/
structure Name (n : List Char) : Prop where
  ne : n ≠ []
  dot : n ≠ ['.']
  dotdot : n ≠ ['.', '.']
  clean : ∀ c ∈ n, ¬ IsSep c

structure Loc.OK (absolute : Bool) (l : Loc) : Prop where
  names : ∀ n ∈ l.names, Name n
  root : absolute = true → l.up = 0

/-- the components of the normal form -/
def Loc.render (l : Loc) : List (List Char) := List.replicate l.up ['.', '.'] ++ l.names.reverse

theorem comps_clean (s : List Char) : ∀ n ∈ comps s, ∀ c ∈ n, ¬ IsSep c := by
  induction s with
  | nil => simp [comps]
  | cons c r ih =>
    simp only [comps]
    split
    · intro n hn
      rcases List.mem_cons.1 hn with rfl | hn
      · simp
      · exact ih n hn
    · next h =>
      split
      · intro n hn; simp at hn; subst hn; simpa using h
      · next hd tl heq =>
        rw [heq] at ih
        intro n hn
        rcases List.mem_cons.1 hn with rfl | hn
        · intro x hx
          rcases List.mem_cons.1 hx with rfl | hx
          · exact h
          · exact ih hd List.mem_cons_self x hx
        · exact ih n (List.mem_cons_of_mem _ hn)

theorem walk_ok {a : Bool} {l : Loc} (h : l.OK a) {c : List Char} (hc : ∀ x ∈ c, ¬ IsSep x) : (walk a l c).OK a := by
  unfold walk
  split
  · exact h
  · next h1 =>
    split
    · split
      · next x r heq => exact ⟨fun n hn => h.names n (by rw [heq]; exact List.mem_cons_of_mem _ hn), h.root⟩
      · split
        · exact h
        · next ha => exact ⟨h.names, fun ht => absurd ht ha⟩
    · next h2 =>
      refine ⟨?_, h.root⟩
      intro n hn
      rcases List.mem_cons.1 hn with rfl | hn
      · simp only [not_or] at h1
        exact ⟨h1.1, h1.2, h2, hc⟩
      · exact h.names n hn

theorem normStep_eq (a : Bool) (cs : List (List Char)) (c : List Char) : normStep a cs c =
    if c = [] ∨ c = ['.'] then cs
    else if c = ['.', '.'] then
      if cs ≠ [] ∧ cs.getLast? ≠ some ['.', '.'] then cs.dropLast
      else if ¬(a = true ∧ cs = []) then cs ++ [c] else cs
    else cs ++ [c] := rfl

theorem normStep_render {a : Bool} {l : Loc} (h : l.OK a) (c : List Char) :
    normStep a l.render c = (walk a l c).render := by
  rw [normStep_eq]
  unfold walk
  by_cases h1 : c = [] ∨ c = ['.']
  · rw [if_pos h1, if_pos h1]
  · rw [if_neg h1, if_neg h1]
    by_cases h2 : c = ['.', '.']
    · rw [if_pos h2, if_pos h2]
      subst h2
      cases hn : l.names with
      | nil =>
        have hr : l.render = List.replicate l.up ['.', '.'] := by simp [Loc.render, hn]
        have hcond : ¬ (l.render ≠ [] ∧ l.render.getLast? ≠ some ['.', '.']) := by
          rw [hr]
          cases hu : l.up with
          | zero => simp
          | succ k => simp [List.getLast?_replicate]
        rw [if_neg hcond]
        cases a with
        | true =>
          have := h.root rfl
          rw [hr, this]; simp [Loc.render, hn, this]
        | false =>
          rw [hr]
          simp [Loc.render, List.replicate_succ']
      | cons x r =>
        have hx := h.names x (by rw [hn]; exact List.mem_cons_self)
        have hr : l.render = (List.replicate l.up ['.', '.'] ++ r.reverse) ++ [x] := by simp [Loc.render, hn]
        rw [if_pos]
        · rw [hr, List.dropLast_concat]; rfl
        · rw [hr]; simp [hx.dotdot]
    · rw [if_neg h2, if_neg h2]
      simp [Loc.render]

theorem walk_nil (a : Bool) (l : Loc) : walk a l [] = l := by simp [walk]

theorem foldl_norm {a : Bool} (cs : List (List Char)) (hcs : ∀ n ∈ cs, ∀ c ∈ n, ¬ IsSep c) (l : Loc) (h : l.OK a) :
    cs.foldl (normStep a) l.render = (cs.foldl (walk a) l).render ∧ (cs.foldl (walk a) l).OK a := by
  induction cs generalizing l with
  | nil => exact ⟨rfl, h⟩
  | cons c cs ih =>
    simp only [List.foldl_cons]
    rw [normStep_render h]
    exact ih (fun n hn => hcs n (List.mem_cons_of_mem _ hn)) _ (walk_ok h (hcs c List.mem_cons_self))

/-- The normal form written out. -/
def renderPath (a : Bool) (l : Loc) : List Char :=
  let p := (if a then ['/'] else []) ++ intercalate '/' l.render
  if p = [] then ['.'] else p

theorem joinPath_eq (l) : joinPath l = intercalate '/' l := by
  induction l with
  | nil => rfl
  | cons c r ih =>
    cases r with
    | nil => rfl
    | cons d r => simp [joinPath, intercalate, ih]

theorem ok0 (a) : (⟨0, []⟩ : Loc).OK a := ⟨by simp, fun _ => rfl⟩

theorem denotes_ok (s) : (denotes s).2.OK (denotes s).1 := (foldl_norm (comps s) (comps_clean s) ⟨0, []⟩ (ok0 _)).2

theorem normalizePath_eq (s : List Char) : normalizePath s = renderPath (denotes s).1 (denotes s).2 := by
  unfold normalizePath renderPath denotes
  simp only
  rw [isAbsolute_spec, foldl_pathTokens _ _ (by intro a; simp [normStep])]
  have := (foldl_norm (a := absoluteSpec s) (comps s) (comps_clean s) ⟨0, []⟩ (ok0 _)).1
  have h0 : (⟨0, []⟩ : Loc).render = [] := rfl
  rw [h0] at this
  rw [this, joinPath_eq]
  cases absoluteSpec s <;> simp

theorem intercalate_mem {d : Char} {ps : List (List Char)} {c : Char} (h : c ∈ intercalate d ps) :
    c = d ∨ ∃ p ∈ ps, c ∈ p := by
  induction ps with
  | nil => simp [intercalate] at h
  | cons p r ih =>
    cases r with
    | nil => exact Or.inr ⟨p, by simp, h⟩
    | cons q r =>
      rw [intercalate_cons _ _ _ (by simp)] at h
      rcases List.mem_append.1 h with h | h
      · exact Or.inr ⟨p, by simp, h⟩
      · rcases List.mem_cons.1 h with h | h
        · exact Or.inl h
        · rcases ih h with h | ⟨q', hq, hc⟩
          · exact Or.inl h
          · exact Or.inr ⟨q', List.mem_cons_of_mem _ hq, hc⟩

theorem render_clean {a l} (h : Loc.OK a l) : ∀ p ∈ l.render, p ≠ [] ∧ ∀ c ∈ p, ¬ IsSep c := by
  intro p hp
  rcases List.mem_append.1 hp with hp | hp
  · have := (List.mem_replicate.1 hp).2
    subst this
    exact ⟨by simp, by decide⟩
  · have := h.names p (List.mem_reverse.1 hp)
    exact ⟨this.ne, this.clean⟩

theorem comps_intercalate (ps : List (List Char)) (hne : ps ≠ []) (h : ∀ p ∈ ps, ∀ c ∈ p, ¬ IsSep c) :
    comps (intercalate '/' ps) = ps := by
  rw [comps_eq]
  have : (intercalate '/' ps).map toSlash = intercalate '/' ps := by
    conv => rhs; rw [← List.map_id (intercalate '/' ps)]
    apply List.map_congr_left
    intro c hc
    rcases intercalate_mem hc with rfl | ⟨p, hp, hcp⟩
    · rfl
    · have := h p hp c hcp
      simp only [IsSep, not_or] at this
      simp [toSlash, this.2]
  rw [this]
  exact splitFrom_intercalate '/' ps hne (fun p hp hc => h p hp '/' hc (Or.inl rfl))

theorem walk_replicate (l : Loc) (hl : l.names = []) (k : Nat) :
    (List.replicate k ['.', '.']).foldl (walk false) l = ⟨l.up + k, []⟩ := by
  induction k generalizing l with
  | zero => cases l; simp at hl; simp [hl]
  | succ k ih =>
    rw [List.replicate_succ, List.foldl_cons]
    have : walk false l ['.', '.'] = ⟨l.up + 1, []⟩ := by simp [walk, hl]
    rw [this, ih _ rfl]
    simp; omega

theorem walk_names (a : Bool) (l : Loc) (ns : List (List Char)) (h : ∀ n ∈ ns, Name n) :
    ns.foldl (walk a) l = ⟨l.up, ns.reverse ++ l.names⟩ := by
  induction ns generalizing l with
  | nil => simp
  | cons n r ih =>
    have hn := h n List.mem_cons_self
    have : walk a l n = ⟨l.up, n :: l.names⟩ := by simp [walk, hn.ne, hn.dot, hn.dotdot]
    rw [List.foldl_cons, this, ih _ (fun x hx => h x (List.mem_cons_of_mem _ hx))]
    simp

theorem walk_render {a l} (h : Loc.OK a l) : l.render.foldl (walk a) ⟨0, []⟩ = l := by
  unfold Loc.render
  rw [List.foldl_append]
  have hrep : (List.replicate l.up ['.', '.']).foldl (walk a) ⟨0, []⟩ = ⟨l.up, []⟩ := by
    cases a with
    | true => rw [h.root rfl]; rfl
    | false => rw [walk_replicate _ rfl]; simp
  rw [hrep, walk_names _ _ _ (fun n hn => h.names n (List.mem_reverse.1 hn))]
  simp

theorem denotes_render {a l} (h : Loc.OK a l) : denotes (renderPath a l) = (a, l) := by
  have hcl := render_clean h
  have hcl' : ∀ p ∈ l.render, ∀ c ∈ p, ¬ IsSep c := fun p hp => (hcl p hp).2
  have hw := walk_render h
  cases hr : l.render with
  | nil =>
    rw [hr] at hw
    simp at hw
    cases a
    · have : renderPath false l = ['.'] := by simp [renderPath, hr, intercalate]
      rw [this, ← hw]; decide
    · have : renderPath true l = ['/'] := by simp [renderPath, hr, intercalate]
      rw [this, ← hw]; decide
  | cons p ps =>
    have hp := hcl p (by rw [hr]; exact List.mem_cons_self)
    obtain ⟨c, cs, hpc⟩ : ∃ c cs, p = c :: cs := by
      cases p with
      | nil => exact absurd rfl hp.1
      | cons c cs => exact ⟨c, cs, rfl⟩
    have hhead : ∃ rest, intercalate '/' l.render = c :: rest := by
      rw [hr, hpc]
      cases ps with
      | nil => exact ⟨cs, rfl⟩
      | cons q ps => rw [intercalate_cons _ _ _ (by simp)]; exact ⟨_, rfl⟩
    obtain ⟨rest, hrest⟩ := hhead
    have hcsep : ¬ IsSep c := hp.2 c (by rw [hpc]; exact List.mem_cons_self)
    have hcomps := comps_intercalate l.render (by rw [hr]; simp) hcl'
    cases a
    · have : renderPath false l = intercalate '/' l.render := by simp [renderPath, hrest]
      rw [this]
      unfold denotes
      have habs : absoluteSpec (intercalate '/' l.render) = false := by rw [hrest]; simp [absoluteSpec, hcsep]
      rw [habs, hcomps, hw]
    · have : renderPath true l = '/' :: intercalate '/' l.render := by simp [renderPath]
      rw [this]
      unfold denotes
      have habs : absoluteSpec ('/' :: intercalate '/' l.render) = true := by simp [absoluteSpec, IsSep]
      rw [habs]
      have : comps ('/' :: intercalate '/' l.render) = [] :: comps (intercalate '/' l.render) := by
        simp [comps, IsSep]
      rw [this, List.foldl_cons, walk_nil, hcomps, hw]

/-- **C24**: the normal form leads to the same place as the path. -/
theorem normalize_same_place (s : List Char) : denotes (normalizePath s) = denotes s := by
  rw [normalizePath_eq, denotes_render (denotes_ok s)]

/-- **C24**: two paths have the same normal form iff they lead to the same place. -/
theorem normalize_canonical (s t : List Char) : normalizePath s = normalizePath t ↔ denotes s = denotes t := by
  constructor
  · intro h
    rw [← normalize_same_place s, ← normalize_same_place t, h]
  · intro h
    rw [normalizePath_eq, normalizePath_eq, h]

/-- **C24**: normalising twice is normalising once. -/
theorem normalize_idempotent (s : List Char) : normalizePath (normalizePath s) = normalizePath s :=
  (normalize_canonical _ _).2 (normalize_same_place s)

/-- **C24**: the normal form is `.`, `/`, or a list of components without empty and `.` components and
without `..` after a name; an absolute one has no `..` at all. -/
theorem normalize_shape (s : List Char) :
    normalizePath s = ['.'] ∨ ∃ (k : Nat) (ns : List (List Char)),
      (∀ n ∈ ns, Name n) ∧ (absoluteSpec s = true → k = 0) ∧
      normalizePath s = (if absoluteSpec s then ['/'] else []) ++ intercalate '/' (List.replicate k ['.', '.'] ++ ns) := by
  rw [normalizePath_eq]
  unfold renderPath
  simp only
  by_cases hp : (if (denotes s).1 = true then ['/'] else []) ++ intercalate '/' (denotes s).2.render = []
  · rw [if_pos hp]; exact Or.inl rfl
  · rw [if_neg hp]
    refine Or.inr ⟨(denotes s).2.up, (denotes s).2.names.reverse, ?_, ?_, rfl⟩
    · intro n hn; exact (denotes_ok s).names n (List.mem_reverse.1 hn)
    · exact (denotes_ok s).root

example : denotes "a/./b\\..//../../c".toList = denotes "../c".toList := by decide
example : denotes "/../x/".toList = denotes "/x".toList := by decide

end Verif.Util
