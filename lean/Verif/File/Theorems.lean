import Verif.File.Lemmas

/-!
# Normalized paths, the search for files, names of output files
-/

namespace Verif.File

/-! ## Normalization -/

/-- The normalized path names the same location as the path, from every
directory. -/
theorem normalize_same (cwd : Loc) (s : Text) : resolve cwd (normalize s) = resolve cwd s := by
  have hb : isAbsolute s = true → (if isAbsolute s then ([] : Loc) else cwd) = [] := by
    intro h; simp [h]
  have key : (components s).foldl walk (if isAbsolute s then ([] : Loc) else cwd)
      = resolve cwd s := by
    rw [resolve_def, ← List.reverse_reverse (components s), ← eval_reverse]
    unfold components
    rw [List.reverse_reverse, split_slash, fold_eval hb _ (seg_clean s) [] trivial]
    rfl
  rw [resolve_def, normalize_abs, segs_normalize, ← key]
  by_cases hc : components s = []
  · cases isAbsolute s <;> simp [hc, walk]
  · cases isAbsolute s <;> simp [hc, walk]

example : normalize "..\\x/./a//../b/".toList = "../x/b".toList ∧
    resolve [['d'], ['c']] "..\\x/./a//../b/".toList = [['b'], ['x'], ['c']] := by decide +kernel

/-- Where a stack of components leads: to its names, below the directory
reached by its leading `..`. -/
theorem good_split {abs : Bool} : ∀ {st : List Text}, Good abs st →
    ∃ (names : List Text) (k : Nat), st = names ++ List.replicate k ['.', '.'] ∧
      (abs = true → k = 0) ∧ ∀ base, eval base st = names ++ base.drop k
  | [], _ => ⟨[], 0, rfl, fun _ => rfl, fun base => by simp [eval]⟩
  | g :: r, h => by
    obtain ⟨names, k, hst, hk, he⟩ := good_split h.2.2.2.2
    by_cases hg : g = ['.', '.']
    · obtain ⟨ha, hr⟩ := h.2.2.2.1 hg
      have hn : names = [] := by
        cases names with
        | nil => rfl
        | cons a t =>
          have h1 := he []
          have hall : ∀ (l : List Text), (∀ x ∈ l, x = ['.', '.']) → eval [] l = [] := by
            intro l
            induction l with
            | nil => intro _; rfl
            | cons y l ih =>
              intro hl
              have : eval [] (y :: l) = walk (eval [] l) y := rfl
              rw [this, ih (fun x hx => hl x (by simp [hx])), hl y (by simp)]
              rfl
          rw [hall r hr] at h1
          simp at h1
      subst hn
      refine ⟨[], k + 1, ?_, by simp [ha], ?_⟩
      · rw [hst, hg]; simp [List.replicate_succ]
      · intro base
        have : eval base (g :: r) = walk (eval base r) g := rfl
        rw [this, he base, hg]
        simp [walk]
    · refine ⟨g :: names, k, by rw [hst]; rfl, hk, ?_⟩
      intro base
      have : eval base (g :: r) = walk (eval base r) g := rfl
      rw [this, he base]
      simp [walk, h.1, h.2.1, hg]

theorem resolve_split (s : Text) : ∃ (names : List Text) (k : Nat),
    (components s).reverse = names ++ List.replicate k ['.', '.'] ∧
    (isAbsolute s = true → k = 0) ∧
    ∀ cwd, resolve cwd s = names ++ (if isAbsolute s then [] else cwd.drop k) := by
  obtain ⟨names, k, hst, hk, he⟩ := good_split (stack_good s)
  refine ⟨names, k, hst, hk, ?_⟩
  intro cwd
  have hb : isAbsolute s = true → (if isAbsolute s then ([] : Loc) else cwd) = [] := by
    intro h; simp [h]
  have := he (if isAbsolute s then ([] : Loc) else cwd)
  have h2 : resolve cwd s = eval (if isAbsolute s then ([] : Loc) else cwd) (components s).reverse := by
    rw [resolve_def]
    unfold components
    rw [List.reverse_reverse, split_slash, fold_eval hb _ (seg_clean s) [] trivial]
    rfl
  rw [h2, this]
  cases isAbsolute s <;> simp

/-- Two paths that name the same location from every directory have the same
normalized path, and only such paths have. -/
theorem normalize_complete (s t : Text) :
    normalize s = normalize t ↔ ∀ cwd, resolve cwd s = resolve cwd t := by
  constructor
  · intro h cwd
    rw [← normalize_same cwd s, h, normalize_same]
  · intro h
    obtain ⟨n, k, hs, hk, he⟩ := resolve_split s
    obtain ⟨m, j, ht, hj, hf⟩ := resolve_split t
    have hnm : n = m := by
      have := h []
      rw [he, hf] at this
      simpa using this
    subst hnm
    have hl : ∀ cwd : Loc, (if isAbsolute s then 0 else cwd.length - k)
        = (if isAbsolute t then 0 else cwd.length - j) := by
      intro cwd
      have := congrArg List.length (h cwd)
      rw [he, hf] at this
      cases h1 : isAbsolute s <;> cases h2 : isAbsolute t <;> simp [h1, h2] at this ⊢ <;> omega
    have h1 := hl (List.replicate (k + j + 1) [])
    simp only [List.length_replicate] at h1
    have hab : isAbsolute s = isAbsolute t := by
      cases ha : isAbsolute s <;> cases hb : isAbsolute t <;> simp [ha, hb] at h1 ⊢ <;> omega
    have hkj : k = j := by
      cases ha : isAbsolute s
      · rw [ha, ← hab, ha] at h1
        simp at h1; omega
      · rw [hk ha, hj (hab ▸ ha)]
    have hc : components s = components t := by
      have : (components s).reverse = (components t).reverse := by rw [hs, ht, hkj]
      simpa using congrArg List.reverse this
    simp only [normalize, hc, hab]

example : normalize "a/../b".toList = normalize "./b/".toList ∧
    normalize "/a/../../b".toList ≠ normalize "b".toList := by decide +kernel

/-- Normalizing twice changes nothing. -/
theorem normalize_idem (s : Text) : normalize (normalize s) = normalize s :=
  (normalize_complete _ _).2 fun cwd => normalize_same cwd s

/-! ### The normalized path is the shortest -/

/-- Characters of a stack, one separator for each component. -/
def cost : List Text → Nat
  | [] => 0
  | g :: r => g.length + 1 + cost r

theorem cost_append (a b : List Text) : cost (a ++ b) = cost a + cost b := by
  induction a with
  | nil => simp [cost]
  | cons g r ih => simp only [List.cons_append, cost, ih]; omega

theorem cost_reverse (a : List Text) : cost a.reverse = cost a := by
  induction a with
  | nil => rfl
  | cons g r ih => rw [List.reverse_cons, cost_append, ih]; simp only [cost]; omega

theorem cost_push (abs : Bool) (st : List Text) (g : Text) :
    cost (pushSeg abs st g) ≤ cost st + (g.length + 1) ∧
      (g = [] → cost (pushSeg abs st g) = cost st) := by
  unfold pushSeg
  split
  · exact ⟨by omega, fun _ => rfl⟩
  · rename_i h1
    refine ⟨?_, fun h => absurd (Or.inl h) h1⟩
    split
    · cases st with
      | nil => cases abs <;> simp [cost]
      | cons t r =>
        simp only
        split
        · simp only [cost]; omega
        · simp only [cost]; omega
    · simp only [cost]; omega

theorem cost_fold (abs : Bool) (l : List Text) :
    ∀ st, cost (l.foldl (pushSeg abs) st) ≤ cost st + cost l := by
  induction l with
  | nil => intro st; simp [cost]
  | cons g r ih =>
    intro st
    have h1 := ih (pushSeg abs st g)
    have h2 := (cost_push abs st g).1
    simp only [List.foldl_cons, cost]
    omega

theorem cost_segs (s : Text) : cost (segs s) = s.length + 1 := by
  induction s with
  | nil => rfl
  | cons c r ih =>
    simp only [segs, List.splitOnP_cons_eq_if_modifyHead]
    split
    · simp only [segs] at ih
      simp only [cost, ih, List.length_nil, List.length_cons]; omega
    · have hne := List.splitOnP_ne_nil (fun c => c == '/' || c == '\\') r
      simp only [segs] at ih
      cases hs : List.splitOnP (fun c => c == '/' || c == '\\') r with
      | nil => exact absurd hs hne
      | cons a t =>
        rw [hs] at ih
        simp only [cost] at ih
        simp only [List.modifyHead_cons, cost, List.length_cons]; omega

theorem join_length : ∀ (l : List Text), l ≠ [] → (join l).length + 1 = cost l
  | [], h => absurd rfl h
  | [a], _ => by simp [join, cost]
  | a :: b :: r, _ => by
    have := join_length (b :: r) (by simp)
    simp only [join, cost, List.length_append, List.length_cons] at this ⊢
    omega

/-- No path that names the same location from every directory is shorter than
the normalized path, except the empty one for the current directory. -/
theorem normalize_shortest (s t : Text) (ht : t ≠ [])
    (h : ∀ cwd, resolve cwd s = resolve cwd t) : (normalize s).length ≤ t.length := by
  rw [(normalize_complete s t).2 h]
  have hpos : 0 < t.length := List.length_pos_iff.2 ht
  have hcost : cost (components t) ≤ t.length + 1 ∧
      (isAbsolute t = true → cost (components t) ≤ t.length) := by
    have h0 : cost (components t) = cost ((segs t).foldl (pushSeg (isAbsolute t)) []) := by
      unfold components
      rw [cost_reverse, split_slash]
    have h1 := cost_fold (isAbsolute t) (segs t) []
    rw [cost_segs] at h1
    refine ⟨by simp only [cost] at h1; omega, ?_⟩
    intro ha
    obtain ⟨c, r, hcr, hc⟩ := (abs_iff t).1 ha
    have hseg : segs t = [] :: segs r := by
      rw [hcr]
      rcases hc with rfl | rfl <;> simp [segs, List.splitOnP_cons_eq_if_modifyHead]
    rw [h0, hseg, List.foldl_cons]
    have h2 := cost_fold (isAbsolute t) (segs r) (pushSeg (isAbsolute t) [] [])
    rw [(cost_push (isAbsolute t) [] []).2 rfl, cost_segs] at h2
    simp only [cost] at h2
    have h3 : t.length = r.length + 1 := by rw [hcr, List.length_cons]
    omega
  rcases normalize_cases t with ⟨ha, hn⟩ | ⟨-, -, hn⟩ | ⟨-, hc, hn⟩
  · rw [hn, List.length_cons]
    by_cases hc : components t = []
    · rw [hc]; simp only [join, List.length_nil]; omega
    · have := join_length _ hc
      have := hcost.2 ha
      omega
  · rw [hn]; exact hpos
  · rw [hn]
    have := join_length _ hc
    omega

example : normalize "a/b/..".toList = ['a'] ∧
    (∀ cwd, resolve cwd "a/b/..".toList = resolve cwd "a".toList) := by
  refine ⟨by decide +kernel, (normalize_complete _ _).1 (by decide +kernel)⟩

/-- A normalized path has no `\`. -/
theorem normalize_slashes (s : Text) : '\\' ∉ normalize s := by
  have hj : ∀ l : List Text, (∀ g ∈ l, ∀ c ∈ g, c ≠ '/' ∧ c ≠ '\\') → '\\' ∉ join l := by
    intro l
    induction l with
    | nil => intro _; simp [join]
    | cons a r ih =>
      intro hl
      have ha : '\\' ∉ a := fun h => (hl a (by simp) _ h).2 rfl
      have hr := ih (fun g hg => hl g (by simp [hg]))
      cases r with
      | nil => simpa [join] using ha
      | cons b r => simp [join, ha, hr]
  have := hj (components s) (fun g hg => (comps_mem s g hg).2.2)
  rcases normalize_cases s with ⟨-, h⟩ | ⟨-, -, h⟩ | ⟨-, -, h⟩ <;> rw [h]
  · simpa using this
  · simp
  · exact this

/-! ## The search for a file -/

theorem resolve_append (cwd : Loc) (d s : Text) (hd : d ≠ []) (c : Char) (hc : c = '/' ∨ c = '\\') :
    resolve cwd (d ++ c :: s) = (segs s).foldl walk (resolve cwd d) := by
  have ha : isAbsolute (d ++ c :: s) = isAbsolute d := by
    cases d with
    | nil => exact absurd rfl hd
    | cons x r => rfl
  rw [resolve_def, ha, resolve_def, segs, List.splitOnP_append_cons, List.foldl_append]
  rcases hc with rfl | rfl <;> rfl

/-- A relative path put behind a directory names what it names from that
directory; a rooted one keeps its meaning. -/
theorem combine_spec (cwd : Loc) (dir file : Text) (hf : file ≠ []) (hcolon : ':' ∉ file) :
    resolve cwd (combine dir file) = resolve (resolve cwd dir) file := by
  cases file with
  | nil => exact absurd rfl hf
  | cons c r =>
    have hr : r.head? ≠ some ':' := by
      intro h
      cases r with
      | nil => simp at h
      | cons x y => simp at h; apply hcolon; simp [h]
    simp only [combine]
    by_cases hs : c = '/' ∨ c = '\\'
    · rw [if_neg (by rintro ⟨h1, h2, -⟩; rcases hs with h | h <;> contradiction)]
      have ha : isAbsolute (c :: r) = true := (abs_iff _).2 ⟨c, r, rfl, hs⟩
      rw [resolve_def, resolve_def, ha]; rfl
    · have hs' := not_or.1 hs
      rw [if_pos ⟨hs'.1, hs'.2, hr⟩]
      have ha : isAbsolute (c :: r) = false := by
        rw [Bool.eq_false_iff]; intro h
        obtain ⟨c', r', h1, h2⟩ := (abs_iff _).1 h
        cases h1; exact hs h2
      have hpath : ∀ base : Loc, (segs (if c ≠ '.' then '.' :: '/' :: c :: r else c :: r)).foldl
          walk base = (segs (c :: r)).foldl walk base := by
        intro base
        split
        · have : segs ('.' :: '/' :: c :: r) = ['.'] :: segs (c :: r) := by
            simp only [segs]
            rw [show ('.' :: '/' :: c :: r) = ['.'] ++ '/' :: (c :: r) from rfl,
              List.splitOnP_append_cons_of_forall_mem (by simp) '/' (by rfl)]
          rw [this, List.foldl_cons]; rfl
        · rfl
      have habs : isAbsolute (if c ≠ '.' then '.' :: '/' :: c :: r else c :: r) = false := by
        split
        · rfl
        · exact ha
      by_cases hd : dir = []
      · rw [if_neg (by simp [hd]), resolve_def, habs, hpath, resolve_def _ (c :: r), ha, hd]
        rfl
      · rw [if_pos hd, resolve_append _ _ _ hd _ (Or.inl rfl), hpath, resolve_def _ (c :: r), ha]
        rfl

example : combine "../res".toList "a/b.xodr".toList = "../res/./a/b.xodr".toList ∧
    combine "../res".toList "/b.xodr".toList = "/b.xodr".toList := by decide +kernel

theorem find_inDir (cwd : Loc) (E : Loc → Bool) (file dir : Text) (hf : file ≠ [])
    (hcolon : ':' ∉ file) (hn : fileNameOf file ≠ []) (hnc : ':' ∉ fileNameOf file) :
    ((inDir file dir).map (resolve cwd)).find? E =
      [resolve (resolve cwd dir) file, resolve (resolve cwd dir) (fileNameOf file)].find? E := by
  unfold inDir
  split
  · simp [combine_spec cwd dir _ hf hcolon, combine_spec cwd dir _ hn hnc]
  · rename_i h
    rw [Classical.not_not.1 h]
    simp only [List.map_cons, List.map_nil, combine_spec cwd dir _ hf hcolon]
    simp only [List.find?_cons, List.find?_nil]
    cases E (resolve (resolve cwd dir) file) <;> rfl

theorem find_flat (cwd : Loc) (E : Loc → Bool) (file : Text) (hf : file ≠ [])
    (hcolon : ':' ∉ file) (hn : fileNameOf file ≠ []) (hnc : ':' ∉ fileNameOf file)
    (dirs : List Text) :
    ((dirs.flatMap (inDir file)).map (resolve cwd)).find? E =
      ((dirs.map (resolve cwd)).flatMap
        (fun b => [resolve b file, resolve b (fileNameOf file)])).find? E := by
  induction dirs with
  | nil => rfl
  | cons d r ih =>
    rw [List.flatMap_cons, List.map_append, List.find?_append, ih,
      find_inDir cwd E file d hf hcolon hn hnc, List.map_cons, List.flatMap_cons, List.find?_append]

theorem name_sub {s n : Text} (h : IsName s n) {c : Char} (hc : c ∉ s) : c ∉ n := by
  rcases h.2 with rfl | ⟨d, x, hs, -⟩
  · exact hc
  · intro hm; exact hc (by rw [hs]; simp [hm])

/-- The search finds a file exactly if there is one in a place of the
documented list, and then returns the (normalized) path of the first such place;
otherwise it returns the path as specified.  `E` says which locations exist. -/
theorem locate_first (cwd : Loc) (E : Loc → Bool) (ex : Text → Bool)
    (hex : ∀ t, ex t = E (resolve cwd t)) (env dirs : List Text) (file name : Text)
    (hname : IsName file name) (hn : name ≠ []) (hcolon : ':' ∉ file) :
    (∀ l, (places cwd env dirs file name).find? E = some l →
      (locate ex env dirs file).1 = true ∧ resolve cwd (locate ex env dirs file).2 = l ∧
        normalize (locate ex env dirs file).2 = (locate ex env dirs file).2) ∧
    ((places cwd env dirs file name).find? E = none →
      locate ex env dirs file = (false, file)) := by
  have hnm : fileNameOf file = name := isName_unique (isName_fileNameOf file) hname
  have hf : file ≠ [] := by
    rintro rfl
    rcases hname.2 with h | ⟨d, c, h, -⟩
    · exact hn h.symm
    · simp at h
  have hn' : fileNameOf file ≠ [] := hnm ▸ hn
  have hnc : ':' ∉ fileNameOf file := by rw [hnm]; exact name_sub hname hcolon
  have key : ((candidates env dirs file).find? ex).map (resolve cwd)
      = (places cwd env dirs file name).find? E := by
    have e1 : ex = E ∘ resolve cwd := funext hex
    have e2 : ((candidates env dirs file).find? ex).map (resolve cwd)
        = ((candidates env dirs file).map (resolve cwd)).find? E := by
      rw [e1, List.find?_map]
    rw [e2]
    have e3 : ((if fileNameOf file ≠ file then [file, fileNameOf file] else [file]).map
        (resolve cwd)).find? E = [resolve cwd file, resolve cwd (fileNameOf file)].find? E := by
      split
      · rfl
      · rename_i h
        rw [Classical.not_not.1 h]
        simp only [List.map_cons, List.map_nil, List.find?_cons, List.find?_nil]
        cases E (resolve cwd file) <;> rfl
    unfold candidates places
    rw [List.map_append, List.map_append, List.find?_append, List.find?_append, e3,
      find_flat cwd E file hf hcolon hn' hnc env, find_flat cwd E file hf hcolon hn' hnc dirs, hnm,
      List.flatMap_cons, List.flatMap_append, List.find?_append, List.find?_append, Option.or_assoc]
  constructor
  · intro l hl
    rw [← key] at hl
    cases hc : (candidates env dirs file).find? ex with
    | none => rw [hc] at hl; cases hl
    | some c =>
      rw [hc] at hl
      have : resolve cwd c = l := by simpa using hl
      simp only [locate, hc, normalize_same, normalize_idem, this, and_self]
  · intro hl
    rw [← key] at hl
    cases hc : (candidates env dirs file).find? ex with
    | none => simp only [locate, hc]
    | some c => rw [hc] at hl; cases hl

/-- A road file beside the scenario in `/p/xosc`, the process being in `/w`. -/
def exE (l : Loc) : Bool := l == ["r.xodr".toList, "xosc".toList, "p".toList]

example : let cwd : Loc := ["w".toList]
    let ex := fun t => exE (resolve cwd t)
    IsName "../xodr/r.xodr".toList "r.xodr".toList ∧ ':' ∉ "../xodr/r.xodr".toList ∧
    (places cwd [] ["../p/xosc".toList] "../xodr/r.xodr".toList "r.xodr".toList).find? exE
      = some ["r.xodr".toList, "xosc".toList, "p".toList] ∧
    locate ex [] ["../p/xosc".toList] "../xodr/r.xodr".toList
      = (true, "../p/xosc/r.xodr".toList) := by
  refine ⟨⟨by decide +kernel, Or.inr ⟨"../xodr".toList, '/', by decide +kernel⟩⟩,
    by decide +kernel, by decide +kernel, by decide +kernel⟩

/-! ## Directory and name of a file -/

/-- The directory of a file is the one that contains it, and its file name is
the last name, unless the file is in the root directory (or its path ends in a
separator, `.` or `..`). -/
theorem dirName_partial (cwd : Loc) (s name : Text) (h : IsName s name)
    (h1 : name ≠ []) (h2 : name ≠ ['.']) (h3 : name ≠ ['.', '.'])
    (hroot : s ≠ '/' :: name ∧ s ≠ '\\' :: name) :
    fileNameOf s = name ∧ resolve cwd s = name :: resolve cwd (dirNameOf s) := by
  have hnm : fileNameOf s = name := isName_unique (isName_fileNameOf s) h
  refine ⟨hnm, ?_⟩
  have hw : ∀ l : Loc, walk l name = name :: l := by
    intro l; simp [walk, h1, h2, h3]
  have hsplit : ∀ {n : Text}, (∀ x ∈ n, x ≠ '/' ∧ x ≠ '\\') → segs n = [n] := by
    intro n hn
    simp only [segs]
    rw [List.splitOnP_eq_singleton]
    intro x hx
    simp [(hn x hx).1, (hn x hx).2]
  rcases sep_cases s with ⟨hs, hf⟩ | ⟨d, c, n, hs, hc, hn, hf⟩
  · have he : s = name := by rw [← hnm]; simp [fileNameOf, hf]
    have hd : dirNameOf s = ['.', '/'] := by
      have : s ≠ [] := he ▸ h1
      simp [dirNameOf, hf, this]
    have ha : isAbsolute s = false := by
      rw [Bool.eq_false_iff]; intro habs
      obtain ⟨c, r, h4, h5⟩ := (abs_iff _).1 habs
      have := hs c (by rw [h4]; simp)
      rcases h5 with rfl | rfl
      · exact this.1 rfl
      · exact this.2 rfl
    rw [hd, resolve_def, hsplit hs, ha, he]
    simp only [Bool.false_eq_true, if_false, List.foldl_cons, List.foldl_nil, hw]
    rfl
  · have he : n = name := by rw [← hnm]; simp only [fileNameOf, hf]; rw [hs]; simp
    subst he
    have hd0 : d ≠ [] := by
      rintro rfl
      rcases hc with rfl | rfl
      · exact hroot.1 hs
      · exact hroot.2 hs
    have hd : dirNameOf s = d := by
      have : s ≠ [] := by rw [hs]; simp
      simp only [dirNameOf, hf]
      rw [if_neg (by simp [this]), hs]
      simp
    rw [hd, hs, resolve_append _ _ _ hd0 _ hc, hsplit hn]
    exact hw _

example : IsName "a.b/../s.xosc".toList "s.xosc".toList ∧
    dirNameOf "a.b/../s.xosc".toList = "a.b/..".toList ∧
    fileNameOf "a.b/../s.xosc".toList = "s.xosc".toList := by
  refine ⟨⟨by decide +kernel, Or.inr ⟨"a.b/..".toList, '/', by decide +kernel⟩⟩,
    by decide +kernel, by decide +kernel⟩

/-- The directory of a file in the root directory is taken to be the current
one. -/
theorem dirName_fails : ∃ (cwd : Loc) (s name : Text), IsName s name ∧ name ≠ [] ∧
    resolve cwd s = [name] ∧ resolve cwd (dirNameOf s) = cwd ∧ cwd ≠ [] := by
  refine ⟨["w".toList], "/s.xosc".toList, "s.xosc".toList,
    ⟨by decide +kernel, Or.inr ⟨[], '/', by decide +kernel⟩⟩, ?_⟩
  decide +kernel

/-- A road file beside a scenario is found from every directory, unless the
scenario is in the root directory or a file of the same path or name is in an
earlier place of the list. -/
theorem beside_scenario_partial (cwd : Loc) (E : Loc → Bool) (ex : Text → Bool)
    (hex : ∀ t, ex t = E (resolve cwd t)) (scenario sname file : Text)
    (hs : IsName scenario sname) (h1 : sname ≠ []) (h2 : sname ≠ ['.']) (h3 : sname ≠ ['.', '.'])
    (hroot : scenario ≠ '/' :: sname ∧ scenario ≠ '\\' :: sname)
    (hfile : ∀ c ∈ file, c ≠ '/' ∧ c ≠ '\\' ∧ c ≠ ':') (hf0 : file ≠ []) (hf1 : file ≠ ['.'])
    (hf2 : file ≠ ['.', '.'])
    (hE : E (file :: (resolve cwd scenario).tail) = true) (hcwd : E (file :: cwd) = false) :
    (locate ex [] [dirNameOf scenario] file).1 = true ∧
    resolve cwd (locate ex [] [dirNameOf scenario] file).2
      = file :: (resolve cwd scenario).tail := by
  have hd := (dirName_partial cwd scenario sname hs h1 h2 h3 hroot).2
  have hr : ∀ b : Loc, resolve b file = file :: b := by
    intro b
    have hcl : ∀ x ∈ file, x ≠ '/' ∧ x ≠ '\\' := fun x hx => ⟨(hfile x hx).1, (hfile x hx).2.1⟩
    have ha : isAbsolute file = false := by
      rw [Bool.eq_false_iff]; intro habs
      obtain ⟨c, r, h4, h5⟩ := (abs_iff _).1 habs
      have := hcl c (by rw [h4]; simp)
      rcases h5 with rfl | rfl
      · exact this.1 rfl
      · exact this.2 rfl
    rw [resolve_def, ha]
    simp only [segs]
    rw [List.splitOnP_eq_singleton (by intro x hx; simp [(hcl x hx).1, (hcl x hx).2])]
    simp [walk, hf0, hf1, hf2]
  have hname : IsName file file := ⟨fun c hc => ⟨(hfile c hc).1, (hfile c hc).2.1⟩, Or.inl rfl⟩
  have h := (locate_first cwd E ex hex [] [dirNameOf scenario] file file hname hf0
    (fun h => (hfile _ h).2.2 rfl)).1 (file :: (resolve cwd scenario).tail) (by
      rw [hd] at hE ⊢
      simp only [List.tail_cons] at hE ⊢
      simp [places, hr, hcwd, hE])
  exact ⟨h.1, h.2.1⟩

example : exE ("r.xodr".toList :: (resolve ["w".toList] "/p/xosc/s.xosc".toList).tail) = true ∧
    exE ["r.xodr".toList, "w".toList] = false := by decide +kernel

/-- A road file beside a scenario in the root directory is not found from
another directory. -/
theorem beside_scenario_fails : ∃ (cwd : Loc) (E : Loc → Bool) (scenario file : Text),
    resolve cwd scenario = ["s.xosc".toList] ∧ file = "r.xodr".toList ∧
    E (file :: (resolve cwd scenario).tail) = true ∧
    (locate (fun t => E (resolve cwd t)) [] [dirNameOf scenario] file).1 = false := by
  refine ⟨["w".toList], fun l => l == ["r.xodr".toList], "/s.xosc".toList, "r.xodr".toList, ?_⟩
  decide +kernel

/-! ## Stem and extension -/

/-- The name without extension is the file name up to its last dot, whatever
the directories are called. -/
theorem stem_spec (s name : Text) (h : IsName s name) :
    (∀ b e, name = b ++ '.' :: e → '.' ∉ e → fileNameWithoutExtOf s = b) ∧
    ('.' ∉ name → fileNameWithoutExtOf s = name) := by
  have hdrop : s.drop (nameStart s) = name ∧ nameStart s + name.length = s.length := by
    have hnm : fileNameOf s = name := isName_unique (isName_fileNameOf s) h
    rcases sep_cases s with ⟨hs, hf⟩ | ⟨d, c, n, hs, hc, hn, hf⟩
    · simp only [fileNameOf, hf] at hnm
      simp only [nameStart, hf]
      rw [hnm]; simp
    · simp only [fileNameOf, hf] at hnm
      simp only [nameStart, hf]
      refine ⟨hnm, ?_⟩
      rw [← hnm, List.length_drop, hs]; simp
  have hsplit : s = s.take (nameStart s) ++ name := by
    rw [← hdrop.1, List.take_append_drop]
  have hlen : (s.take (nameStart s)).length = nameStart s := by
    rw [List.length_take]; omega
  constructor
  · intro b e hb he
    have hl : findLast isDot s = some (nameStart s + b.length) := by
      refine findLast_some.2 ⟨s.take (nameStart s) ++ b, '.', e, ?_, ?_, rfl, ?_⟩
      · rw [List.append_assoc, ← hb]; exact hsplit
      · rw [List.length_append, hlen]
      · intro x hx; simp only [isDot, beq_eq_false_iff_ne]; rintro rfl; exact he hx
    simp only [fileNameWithoutExtOf, hl, substrTo]
    rw [if_neg (by omega), hdrop.1, hb]
    simp
  · intro hd
    unfold fileNameWithoutExtOf
    cases hl : findLast isDot s with
    | none => exact hdrop.1
    | some i =>
      obtain ⟨a, c, r, hs, hlen', hc, hr⟩ := findLast_some.1 hl
      have hlt : i < nameStart s := by
        apply Classical.byContradiction
        intro hge
        have hge : nameStart s ≤ a.length := by omega
        have hm : c ∈ s.drop (nameStart s) := by
          rw [hs, List.drop_append_of_le_length (hs ▸ hge)]
          simp
        rw [hdrop.1] at hm
        simp only [isDot, beq_iff_eq] at hc
        exact hd (hc ▸ hm)
      simp only [substrTo, if_pos hlt]
      exact hdrop.1

example : fileNameWithoutExtOf "../v1.2/run".toList = "run".toList ∧
    fileNameWithoutExtOf "../v1.2/a.b.xosc".toList = "a.b".toList := by decide +kernel

/-! ## Output files of the runs of a parameter distribution -/

theorem digits_inj {m n : Nat} (h : digits m = digits n) : m = n := by
  have := congrArg (fun t => Nat.ofDigitChars 10 t 0) h
  simpa [digits] using this

/-- The files of different runs have different names. -/
theorem runs_distinct (i j num : Nat) (file : Text) (h : addInfo i num file = addInfo j num file) :
    i = j := by
  simp only [addInfo, List.append_assoc, List.append_cancel_left_eq, List.cons_append,
    List.cons.injEq, true_and] at h
  have h' : digits (i + 1) = digits (j + 1) := by
    have := (List.append_left_inj (s₁ := digits (i + 1)) (s₂ := digits (j + 1))
      (t := '_' :: 'o' :: 'f' :: '_' :: (digits num ++ fileNameExtOf file))).1 (by simpa using h)
    exact this
  have := digits_inj h'
  omega

/-- The file of a run is in the directory of the specified file and has its
extension: the number of the run is put between name and extension.  This holds
if the file name has an extension or the path has no dot at all. -/
theorem run_name_partial (i num : Nat) (dir base ext : Text)
    (hbase : ∀ c ∈ base, c ≠ '/' ∧ c ≠ '\\')
    (hdir : dir = [] ∨ ∃ d c, dir = d ++ [c] ∧ (c = '/' ∨ c = '\\'))
    (hext : (∃ e, ext = '.' :: e ∧ ∀ c ∈ e, c ≠ '.' ∧ c ≠ '/' ∧ c ≠ '\\') ∨
      (ext = [] ∧ '.' ∉ dir ++ base)) :
    addInfo i num (dir ++ base ++ ext)
      = dir ++ (base ++ '_' :: digits (i + 1) ++ "_of_".toList ++ digits num) ++ ext ∧
    dirNameOf (addInfo i num (dir ++ base ++ ext)) = dirNameOf (dir ++ (base ++ ['_']) ++ ext) := by
  have h1 : addInfo i num (dir ++ base ++ ext)
      = dir ++ (base ++ '_' :: digits (i + 1) ++ "_of_".toList ++ digits num) ++ ext := by
    rcases hext with ⟨e, rfl, he⟩ | ⟨rfl, hno⟩
    · have hl : findLast isDot (dir ++ base ++ '.' :: e) = some (dir ++ base).length :=
        findLast_some.2 ⟨dir ++ base, '.', e, rfl, rfl, rfl, fun x hx => by
          simp [isDot, (he x hx).1]⟩
      simp only [addInfo, filePathWithoutExtOf, fileNameExtOf, hl, List.take_left, List.drop_left]
      simp
    · have hl : findLast isDot (dir ++ base ++ []) = none := by
        refine findLast_none.2 fun c hc => ?_
        simp only [isDot, beq_eq_false_iff_ne]; rintro rfl
        exact hno (by simpa using hc)
      simp only [addInfo, filePathWithoutExtOf, fileNameExtOf, hl]
      simp
  refine ⟨h1, ?_⟩
  rw [h1]
  have hdig : ∀ n, ∀ c ∈ digits n, c ≠ '/' ∧ c ≠ '\\' := by
    intro n c hc
    have := Nat.isDigit_of_mem_toDigits (by decide) (by decide) hc
    constructor <;> (rintro rfl; revert this; decide)
  have hextc : ∀ c ∈ ext, c ≠ '/' ∧ c ≠ '\\' := by
    rcases hext with ⟨e, rfl, he⟩ | ⟨rfl, -⟩
    · intro c hc
      rcases List.mem_cons.1 hc with rfl | hc
      · decide
      · exact (he c hc).2
    · simp
  have key : ∀ mid : Text, mid ≠ [] → (∀ c ∈ mid, c ≠ '/' ∧ c ≠ '\\') →
      dirNameOf (dir ++ mid ++ ext) = if dir = [] then ['.', '/'] else dir.dropLast := by
    intro mid hm0 hm
    have hclean : ∀ c ∈ mid ++ ext, isSep c = false := by
      intro c hc
      rcases List.mem_append.1 hc with hc | hc
      · exact isSep_false.2 (hm c hc)
      · exact isSep_false.2 (hextc c hc)
    have hne : (dir ++ mid ++ ext).isEmpty = false := by simp [hm0]
    simp only [dirNameOf, hne, Bool.false_eq_true, if_false]
    rcases hdir with rfl | ⟨d, c, rfl, hc⟩
    · rw [findLast_none.2 (by simpa using hclean)]
      simp
    · rw [findLast_some.2 ⟨d, c, mid ++ ext, by simp, rfl, isSep_iff.2 hc, hclean⟩]
      simp
  have hof : ∀ c ∈ "_of_".toList, c ≠ '/' ∧ c ≠ '\\' := by decide
  rw [key _ (by simp) (by
      intro c hc
      simp only [List.mem_append, List.mem_cons] at hc
      rcases hc with ((hc | (rfl | hc)) | hc) | hc
      · exact hbase c hc
      · decide
      · exact hdig _ c hc
      · exact hof c hc
      · exact hdig _ c hc),
    key _ (by simp) (by
      intro c hc
      simp only [List.mem_append, List.mem_singleton] at hc
      rcases hc with hc | rfl
      · exact hbase c hc
      · decide)]

example : addInfo 1 12 "../out.d/log.v1.csv".toList = "../out.d/log.v1_2_of_12.csv".toList := by
  decide +kernel

/-- For a file without extension the number is put into the name of a directory
that has a dot: the file of the run is not in the directory of the specified
file. -/
theorem run_name_fails : ∃ (i num : Nat) (file : Text),
    IsName file "sim".toList ∧ dirNameOf file = "../out".toList ∧
    addInfo i num file = "._1_of_3./out/sim".toList ∧
    ∃ cwd, resolve cwd (dirNameOf (addInfo i num file)) ≠ resolve cwd (dirNameOf file) := by
  refine ⟨0, 3, "../out/sim".toList, ⟨by decide +kernel, Or.inr ⟨"../out".toList, '/',
    by decide +kernel⟩⟩, by decide +kernel, by decide +kernel, [], by decide +kernel⟩

end Verif.File
