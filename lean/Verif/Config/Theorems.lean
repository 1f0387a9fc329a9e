import Verif.Config.Model

/-!
# C26, C55, C56: config files and command line overrides
-/
namespace Verif.Config

/-! ## C55: the contents of a config file stand in for the option that names it -/

/-- Specification: the arguments a list of entries stands for, and the number of files loaded on the way.  Entries of
other applications count for nothing, an entry that names a config file stands for the contents of that file. -/
inductive Means (files : String → Option (List Entry)) (app : String) : List Entry → List String → Nat → Prop where
  | nil : Means files app [] [] 0
  | other {e es t k} : e.app ≠ app → Means files app es t k → Means files app (e :: es) t k
  | plain {e es t k} : e.app = app → ¬ (e.key = configKey ∧ e.value ≠ "") → Means files app es t k →
      Means files app (e :: es) (entryArgs e.key e.value ++ t) k
  | file {e es es' t t' k k'} : e.app = app → e.key = configKey → e.value ≠ "" → files e.value = some es' →
      Means files app es' t' k' → Means files app es t k → Means files app (e :: es) (t' ++ t) (k' + 1 + k)

theorem loadEntries_complete {files app} {es : List Entry} {t : List String} {k : Nat} (h : Means files app es t k) :
    ∀ depth r, k ≤ depth → loadEntries app (loadFile files app depth) (r + k) es = some (t, r) := by
  induction h with
  | nil => intro d r _; simp [loadEntries]
  | other ha _ ih => intro d r hd; simp [loadEntries, ha, ih d r hd]
  | plain ha hc _ ih =>
    intro d r hd
    rw [loadEntries, if_pos ha, if_neg hc, ih d r hd]; rfl
  | @file e es es' t t' k k' ha hk hv hf _ _ ih' ih =>
    intro d r hd
    obtain ⟨d, rfl⟩ : ∃ c, d = c + 1 := ⟨d - 1, by omega⟩
    rw [loadEntries, if_pos ha, if_pos ⟨hk, hv⟩, loadFile, hf]
    have e1 : r + (k' + 1 + k) - 1 = (r + k) + k' := by omega
    simp only [e1, if_neg (by omega : ¬ r + (k' + 1 + k) = 0), ih' d (r + k) (by omega), ih (d + 1) r (by omega),
      Option.map_some]

theorem loadEntries_sound {files app} : ∀ (depth : Nat) (es : List Entry) (budget r : Nat) (t : List String),
    loadEntries app (loadFile files app depth) budget es = some (t, r) → ∃ k, Means files app es t k ∧ budget = r + k := by
  intro depth
  induction depth with
  | zero =>
    intro es
    induction es with
    | nil => intro b r t h; simp only [loadEntries, Option.some.injEq, Prod.mk.injEq] at h; obtain ⟨rfl, rfl⟩ := h; exact ⟨0, .nil, by simp⟩
    | cons e es ih =>
      intro b r t h
      rw [loadEntries] at h
      split at h
      · rename_i ha
        split at h
        · simp [loadFile] at h
        · rename_i hc
          simp only [Option.map_eq_some_iff, Prod.mk.injEq] at h
          obtain ⟨⟨t1, r1⟩, h1, rfl, rfl⟩ := h
          obtain ⟨k, hk, rfl⟩ := ih _ _ _ h1
          exact ⟨k, .plain ha hc hk, rfl⟩
      · rename_i ha
        obtain ⟨k, hk, rfl⟩ := ih _ _ _ h
        exact ⟨k, .other ha hk, rfl⟩
  | succ d ihd =>
    intro es
    induction es with
    | nil => intro b r t h; simp only [loadEntries, Option.some.injEq, Prod.mk.injEq] at h; obtain ⟨rfl, rfl⟩ := h; exact ⟨0, .nil, by simp⟩
    | cons e es ih =>
      intro b r t h
      rw [loadEntries] at h
      split at h
      · rename_i ha
        split at h
        · rename_i hc
          split at h
          · simp at h
          · rename_i t1 b1 h1
            simp only [Option.map_eq_some_iff, Prod.mk.injEq] at h
            obtain ⟨⟨t2, r2⟩, h2, rfl, rfl⟩ := h
            rw [loadFile] at h1
            split at h1
            · simp at h1
            · rename_i es' hf
              split at h1
              · simp at h1
              · obtain ⟨k1, m1, e1⟩ := ihd _ _ _ _ h1
                obtain ⟨k2, m2, e2⟩ := ih _ _ _ h2
                exact ⟨k1 + 1 + k2, .file ha hc.1 hc.2 hf m1 m2, by simp at e2 ⊢; omega⟩
        · rename_i hc
          simp only [Option.map_eq_some_iff, Prod.mk.injEq] at h
          obtain ⟨⟨t1, r1⟩, h1, rfl, rfl⟩ := h
          obtain ⟨k, hk, rfl⟩ := ih _ _ _ h1
          exact ⟨k, .plain ha hc hk, rfl⟩
      · rename_i ha
        obtain ⟨k, hk, rfl⟩ := ih _ _ _ h
        exact ⟨k, .other ha hk, rfl⟩

/-- A file stands for the arguments of its entries. -/
def FileMeans (files : String → Option (List Entry)) (app f : String) (t : List String) (k : Nat) : Prop :=
  ∃ es k', files f = some es ∧ Means files app es t k' ∧ k = k' + 1

/-- **C55, one file**: loading a config file yields exactly the arguments it stands for; it fails exactly when the file
or one it refers to is missing, when files refer to each other in a circle, or when the limit on the number of files
is reached. -/
theorem loadFile_iff {files app f} {budget r : Nat} {t : List String} :
    loadFile files app budget budget f = some (t, r) ↔ ∃ k, FileMeans files app f t k ∧ budget = r + k := by
  constructor
  · intro h
    cases budget with
    | zero => simp [loadFile] at h
    | succ b =>
      rw [loadFile] at h
      split at h
      · simp at h
      · rename_i es hf
        rw [if_neg (by omega)] at h
        obtain ⟨k, m, e⟩ := loadEntries_sound _ _ _ _ _ h
        exact ⟨k + 1, ⟨es, k, hf, m, rfl⟩, by omega⟩
  · rintro ⟨_, ⟨es, k, hf, m, rfl⟩, rfl⟩
    show loadFile files app ((r + k) + 1) _ f = _
    rw [loadFile, hf]
    have e1 : r + (k + 1) - 1 = r + k := by omega
    simp only [e1, if_neg (by omega : ¬ r + (k + 1) = 0)]
    exact loadEntries_complete m _ _ (by omega)

theorem means_unique {files app es t t' k k'} (h : Means files app es t k) (h' : Means files app es t' k') :
    t = t' ∧ k = k' := by
  have a := loadEntries_complete h (k + k') k' (by omega)
  have b := loadEntries_complete h' (k + k') k (by omega)
  rw [Nat.add_comm k k'] at a b
  rw [a] at b
  simp only [Option.some.injEq, Prod.mk.injEq] at b
  exact ⟨b.1, b.2.symm⟩

/-- Specification: the command line in which every option naming a config file, together with the file name, is
replaced by what the file stands for; everything else stays in place. -/
inductive Expanded (files : String → Option (List Entry)) (app : String) : List String → List String → Nat → Prop where
  | nil : Expanded files app [] [] 0
  | last (a) : Expanded files app [a] [a] 0
  | plain {a f rest out k} : a ≠ configOpt → Expanded files app (f :: rest) out k →
      Expanded files app (a :: f :: rest) (a :: out) k
  | file {f rest t out k k'} : FileMeans files app f t k' → Expanded files app rest out k →
      Expanded files app (configOpt :: f :: rest) (t ++ out) (k' + k)

/-- No config file brings back the option that names a config file: entries with that key have a value (the YAML reader
rejects others) and no value contains it as a word. -/
def NoReopen (files : String → Option (List Entry)) : Prop :=
  ∀ f es, files f = some es → ∀ e ∈ es, (e.key = configKey → e.value ≠ "") ∧ configOpt ∉ splitValue e.value

theorem dashes_inj {k k' : String} (h : "--" ++ k = "--" ++ k') : k = k' := by
  have := congrArg String.toList h
  exact String.toList_inj.1 (by simpa using this)

theorem entryArgs_clean {key value : String} (hk : key ≠ configKey) (hv : configOpt ∉ splitValue value) :
    configOpt ∉ entryArgs key value := by
  have h0 : configOpt ≠ "--" ++ key := by
    intro e
    exact hk (dashes_inj (k' := configKey) (e.symm.trans (by decide)))
  simp only [entryArgs]
  split
  · rename_i v hs
    rw [hs] at hv
    split
    · simpa using h0
    · simp
    · simp only [List.mem_cons, List.not_mem_nil, or_false] at hv ⊢
      rintro (h | h)
      · exact h0 h
      · exact hv h
  · simp only [List.mem_cons]
    rintro (h | h)
    · exact h0 h
    · exact hv h

theorem means_clean {files app es t k} (hn : NoReopen files)
    (hes : ∀ e ∈ es, (e.key = configKey → e.value ≠ "") ∧ configOpt ∉ splitValue e.value)
    (h : Means files app es t k) : configOpt ∉ t := by
  induction h with
  | nil => simp
  | other _ _ ih => exact ih (fun e he => hes e (List.mem_cons_of_mem _ he))
  | plain _ hc _ ih =>
    rename_i e es t k _ _
    have he := hes e List.mem_cons_self
    have hk : e.key ≠ configKey := fun h => hc ⟨h, he.1 h⟩
    simp only [List.mem_append, not_or]
    exact ⟨entryArgs_clean hk he.2, ih (fun e he => hes e (List.mem_cons_of_mem _ he))⟩
  | file _ _ _ hf _ _ ih' ih =>
    simp only [List.mem_append, not_or]
    exact ⟨ih' (hn _ _ hf), ih (fun e he => hes e (List.mem_cons_of_mem _ he))⟩

theorem expandLoop_append {files app} {budget : Nat} {t : List String} (rest : List String) (ht : configOpt ∉ t) :
    expandLoop files app budget (t ++ rest) = (expandLoop files app budget rest).map (fun r => (t ++ r.1, r.2)) := by
  induction t with
  | nil => simp
  | cons a t ih =>
    simp only [List.mem_cons, not_or] at ht
    have ih := ih ht.2
    rw [List.cons_append]
    rcases hl : t ++ rest with _ | ⟨b, l⟩
    · have : t = [] ∧ rest = [] := by simpa using hl
      simp [expandLoop, this]
    · rw [expandLoop, if_neg (Ne.symm ht.1), ← hl, ih, Option.map_map]
      rfl

/-- **C55, command line**: scanning the command line replaces every option naming a config file by what the file stands
for and leaves everything else in place and in order; it fails exactly when a file cannot be loaded. -/
theorem expandLoop_iff {files app} (hn : NoReopen files) {budget r : Nat} {args out : List String} :
    expandLoop files app budget args = some (out, r) ↔ ∃ k, Expanded files app args out k ∧ budget = r + k := by
  constructor
  · revert budget r out
    induction hlen : args.length using Nat.strongRecOn generalizing args with
    | _ n ih =>
      intro budget r out h
      rcases args with _ | ⟨a, _ | ⟨f, rest⟩⟩
      · simp only [expandLoop, Option.some.injEq, Prod.mk.injEq] at h
        obtain ⟨rfl, rfl⟩ := h
        exact ⟨0, .nil, rfl⟩
      · simp only [expandLoop, Option.some.injEq, Prod.mk.injEq] at h
        obtain ⟨rfl, rfl⟩ := h
        exact ⟨0, .last a, rfl⟩
      · rw [expandLoop] at h
        split at h
        · rename_i ha
          subst ha
          split at h
          · simp at h
          · rename_i t b hl
            split at h
            · obtain ⟨k1, m1, e1⟩ := loadFile_iff.1 hl
              have hc : configOpt ∉ t := by
                obtain ⟨es, k', hf, m, -⟩ := m1
                exact means_clean hn (hn _ _ hf) m
              rw [expandLoop_append _ hc] at h
              simp only [Option.map_eq_some_iff, Prod.mk.injEq] at h
              obtain ⟨⟨o2, r2⟩, h, rfl, rfl⟩ := h
              obtain ⟨k2, m2, e2⟩ := ih rest.length (by simp at hlen; omega) rfl h
              exact ⟨k1 + k2, .file m1 m2, by simp; omega⟩
            · simp at h
        · rename_i ha
          simp only [Option.map_eq_some_iff, Prod.mk.injEq] at h
          obtain ⟨⟨o2, r2⟩, h, rfl, rfl⟩ := h
          obtain ⟨k2, m2, e2⟩ := ih (f :: rest).length (by simp at hlen ⊢; omega) rfl h
          exact ⟨k2, .plain ha m2, e2⟩
  · rintro ⟨k, h, rfl⟩
    induction h generalizing r with
    | nil => simp [expandLoop]
    | last a => simp [expandLoop]
    | plain ha _ ih => rw [expandLoop, if_neg ha, ih]; rfl
    | @file f rest t out k k' m _ ih =>
      have hl : loadFile files app (r + (k' + k)) (r + (k' + k)) f = some (t, r + k) :=
        loadFile_iff.2 ⟨k', m, by omega⟩
      have hk : 0 < k' := by obtain ⟨_, _, _, _, rfl⟩ := m; omega
      have hc : configOpt ∉ t := by
        obtain ⟨es, k', hf, m, -⟩ := m
        exact means_clean hn (hn _ _ hf) m
      rw [expandLoop, if_pos rfl, hl]
      simp only [if_pos (by omega : r + k < r + (k' + k)), expandLoop_append _ hc, ih, Option.map_some]

/-- What several files stand for, in order. -/
inductive FilesMean (files : String → Option (List Entry)) (app : String) : List String → List String → Nat → Prop where
  | nil : FilesMean files app [] [] 0
  | cons {f fs t t' k k'} : FileMeans files app f t k → FilesMean files app fs t' k' →
      FilesMean files app (f :: fs) (t ++ t') (k + k')

theorem loadFiles_iff {files app} {fs : List String} {budget r : Nat} {t : List String} :
    loadFiles files app budget fs = some (t, r) ↔ ∃ k, FilesMean files app fs t k ∧ budget = r + k := by
  constructor
  · intro h
    induction fs generalizing budget r t with
    | nil => simp only [loadFiles, Option.some.injEq, Prod.mk.injEq] at h; obtain ⟨rfl, rfl⟩ := h; exact ⟨0, .nil, rfl⟩
    | cons f fs ih =>
      rw [loadFiles] at h
      split at h
      · simp at h
      · rename_i a b hl
        simp only [Option.map_eq_some_iff, Prod.mk.injEq] at h
        obtain ⟨⟨t2, r2⟩, h, rfl, rfl⟩ := h
        obtain ⟨k1, m1, e1⟩ := loadFile_iff.1 hl
        obtain ⟨k2, m2, e2⟩ := ih h
        exact ⟨k1 + k2, .cons m1 m2, by simp; omega⟩
  · rintro ⟨k, h, rfl⟩
    induction h generalizing r with
    | nil => simp [loadFiles]
    | @cons f fs t t' k k' m _ ih =>
      have hl : loadFile files app (r + (k + k')) (r + (k + k')) f = some (t, r + k') := loadFile_iff.2 ⟨k, m, by omega⟩
      simp [loadFiles, hl, ih]

/-- **C55**: the final command line before overrides is the program name, then the contents of the default and
environment files, then the contents of the files named through the interface in the order they were named, then the
given arguments with every config file expanded in place. -/
theorem load_iff {files app} (hn : NoReopen files) {budget r : Nat} {paths apiValues args out : List String} {exe : String} :
    load files app budget paths apiValues (exe :: args) = some (out, r) ↔
      ∃ a c e k1 k2 k3, FilesMean files app paths a k1 ∧ FilesMean files app apiValues.reverse c k2 ∧
        Expanded files app args e k3 ∧ budget = r + (k1 + k2 + k3) ∧ postProcess (exe :: (a ++ c ++ e)) = some out := by
  constructor
  · intro h
    rw [load] at h
    split at h
    · simp at h
    · rename_i a b1 h1
      split at h
      · simp at h
      · rename_i c b2 h2
        split at h
        · simp at h
        · rename_i e b3 h3
          simp only [Option.map_eq_some_iff, Prod.mk.injEq] at h
          obtain ⟨x, h, rfl, rfl⟩ := h
          obtain ⟨k1, m1, e1⟩ := loadFiles_iff.1 h1
          obtain ⟨k2, m2, e2⟩ := loadFiles_iff.1 h2
          obtain ⟨k3, m3, e3⟩ := (expandLoop_iff hn).1 h3
          exact ⟨a, c, e, k1, k2, k3, m1, m2, m3, by omega, h⟩
  · rintro ⟨a, c, e, k1, k2, k3, m1, m2, m3, hb, h⟩
    rw [load, loadFiles_iff.2 ⟨k1, m1, (by omega : budget = (r + k3 + k2) + k1)⟩]
    simp only
    rw [loadFiles_iff.2 ⟨k2, m2, rfl⟩]
    simp only
    rw [(expandLoop_iff hn).2 ⟨k3, m3, rfl⟩]
    simp only [h, Option.map_some]

/-! A concrete set of files: one that includes another, and an entry for another program. -/

def demoFiles (f : String) : Option (List Entry) :=
  if f = "a.yml" then some [⟨"esmini", "headless", "true"⟩, ⟨"esmini", "config_file_path", "b.yml"⟩,
    ⟨"replayer", "res_path", "x"⟩, ⟨"esmini", "seed", "5"⟩]
  else if f = "b.yml" then some [⟨"esmini", "fixed_timestep", "0.1"⟩, ⟨"esmini", "disable_log", "false"⟩]
  else if f = "loop.yml" then some [⟨"esmini", "config_file_path", "loop.yml"⟩]
  else none

theorem demo_a : loadFile demoFiles "esmini" 100 100 "a.yml" =
    some (["--headless", "--fixed_timestep", "0.1", "--seed", "5"], 98) := by decide +kernel

theorem demo_loop : loadFile demoFiles "esmini" 100 100 "loop.yml" = none := by decide +kernel

example : load demoFiles "esmini" 100 [] [] ["esmini", "--osc", "my.xosc", "--config_file_path", "a.yml", "--seed", "7"] =
    some (["esmini", "--osc", "my.xosc", "--headless", "--fixed_timestep", "0.1", "--seed", "5", "--seed", "7"], 98) := by
  have h : expandLoop demoFiles "esmini" 100 ["--osc", "my.xosc", "--config_file_path", "a.yml", "--seed", "7"] =
      some (["--osc", "my.xosc", "--headless", "--fixed_timestep", "0.1", "--seed", "5", "--seed", "7"], 98) := by
    simp [expandLoop, configOpt, demo_a]
  simp only [load, loadFiles, List.reverse_nil, h]
  decide +kernel

example : load demoFiles "esmini" 100 [] [] ["esmini", "--config_file_path", "loop.yml"] = none := by
  simp [load, loadFiles, expandLoop, configOpt, demo_loop]

example : NoReopen demoFiles := by
  intro f es h
  unfold demoFiles at h
  split at h
  · cases h; decide +kernel
  · split at h
    · cases h; decide +kernel
    · split at h
      · cases h; decide +kernel
      · cases h

/-! ## C56: the number of initialisations is not limited -/

/-- Initialise `n` times, each time with one config file. -/
def initialise (files : String → Option (List Entry)) (app f : String) : Nat → Nat → Option Nat
  | 0, budget => some budget
  | n + 1, budget => (loadFiles files app budget [f]).bind (fun r => initialise files app f n r.2)

/-- **C56 fails**: the counter of loaded files belongs to the process, so with a config file that loads one file at a
time, exactly the first `budget` initialisations of a process succeed (the code starts with 100), although nothing
refers to anything in a circle. -/
theorem initialise_limit_fails {files app f} {t : List String} {k : Nat} (m : FileMeans files app f t k) (n budget : Nat) :
    initialise files app f n budget = none ↔ budget < n * k := by
  induction n generalizing budget with
  | zero => simp [initialise]
  | succ n ih =>
    rw [initialise]
    by_cases hb : k ≤ budget
    · have : loadFiles files app budget [f] = some (t, budget - k) :=
        loadFiles_iff.2 ⟨k, by simpa using FilesMean.cons m .nil, by omega⟩
      rw [this]
      simp only [Option.bind_some, ih]
      rw [Nat.add_mul]
      omega
    · have hnone : loadFiles files app budget [f] = none := by
        cases hl : loadFiles files app budget [f] with
        | none => rfl
        | some x =>
          obtain ⟨t', r⟩ := x
          obtain ⟨k', m', e⟩ := loadFiles_iff.1 hl
          cases m' with
          | @cons _ _ t1 t2 k1 k2 m1 m2 =>
            cases m2
            obtain ⟨es, j, hf, mm, rfl⟩ := m
            obtain ⟨es', j', hf', mm', rfl⟩ := m1
            rw [hf] at hf'
            cases hf'
            have := (means_unique mm mm').2
            omega
      rw [hnone]
      have : k ≤ (n + 1) * k := Nat.le_mul_of_pos_left k (by omega)
      simp
      omega

example : FileMeans demoFiles "esmini" "b.yml" ["--fixed_timestep", "0.1"] 1 :=
  ⟨_, 0, rfl, by
    have := Means.plain (files := demoFiles) (app := "esmini") (e := ⟨"esmini", "fixed_timestep", "0.1"⟩) rfl (by decide)
      (Means.plain (e := ⟨"esmini", "disable_log", "false"⟩) rfl (by decide) Means.nil)
    have e : entryArgs "fixed_timestep" "0.1" ++ (entryArgs "disable_log" "false" ++ []) = ["--fixed_timestep", "0.1"] := by
      decide +kernel
    rw [e] at this
    exact this, rfl⟩

/-- **C56**: as long as the process has loaded fewer files than the limit allows, loading gives the same arguments at
every initialisation.  Missing: any number of initialisations. -/
theorem same_arguments_partial {files app f} {t : List String} {k : Nat} (m : FileMeans files app f t k) (b b' : Nat)
    (hb : k ≤ b) (hb' : k ≤ b') :
    ∃ r r', loadFile files app b b f = some (t, r) ∧ loadFile files app b' b' f = some (t, r') :=
  ⟨b - k, b' - k, loadFile_iff.2 ⟨k, m, by omega⟩, loadFile_iff.2 ⟨k, m, by omega⟩⟩

/-! ## C26: overrides -/

/-- Specification: the list without the option `o` and the `n` arguments behind each occurrence. -/
def without (o : String) (n : Nat) : List String → List String
  | [] => []
  | a :: as => if a = o then without o n (as.drop n) else a :: without o n as
termination_by l => l.length
decreasing_by all_goals simp; try omega

/-- A list in which every occurrence of the option has its `n` arguments, and is not directly followed by another
occurrence. -/
inductive Separated (o : String) (n : Nat) : List String → Prop where
  | nil : Separated o n []
  | other {a l} : a ≠ o → Separated o n l → Separated o n (a :: l)
  | block {vs l} : vs.length = n → l.head? ≠ some o → Separated o n l → Separated o n (o :: (vs ++ l))

theorem lastIndex_append {o : String} {pre post : List String} (h : o ∉ post) :
    lastIndex o (pre ++ o :: post) = some pre.length := by
  have hp : lastIndex o post = none := by
    induction post with
    | nil => rfl
    | cons a as ih => simp only [List.mem_cons, not_or] at h; simp [lastIndex, ih h.2, Ne.symm h.1]
  induction pre with
  | nil => simp [lastIndex, hp]
  | cons a as ih => simp [lastIndex, ih]

theorem lastIndex_none {o : String} {l : List String} : lastIndex o l = none ↔ o ∉ l := by
  induction l with
  | nil => simp [lastIndex]
  | cons a as ih =>
    rw [lastIndex]
    cases hl : lastIndex o as with
    | some i =>
      have : ¬ o ∉ as := by rw [← ih, hl]; simp
      simp only [Decidable.not_not] at this
      simp [this]
    | none =>
      have := ih.1 hl
      by_cases ha : a = o
      · simp [ha]
      · simp [ha, this, Ne.symm ha]

theorem lastIndex_prefix {o : String} {pre post : List String} (h : o ∉ post) :
    lastIndex o (pre ++ post) = lastIndex o pre := by
  induction pre with
  | nil => simp [lastIndex_none.2 h, lastIndex]
  | cons a as ih => simp [lastIndex, ih]

theorem lastIndex_lt {o : String} {l : List String} {i : Nat} (h : lastIndex o l = some i) : i < l.length := by
  induction l generalizing i with
  | nil => simp [lastIndex] at h
  | cons a as ih =>
    rw [lastIndex] at h
    cases hl : lastIndex o as with
    | some j => rw [hl] at h; simp at h; have := ih hl; simp; omega
    | none => rw [hl] at h; simp at h; simp; omega

theorem removeLoop_separated {o : String} {n : Nat} {l : List String} (hs : Separated o n l) (done post : List String) :
    removeLoop o n (done ++ l ++ post) done.length (done.length + l.length) =
      some (done ++ without o n l ++ post) := by
  induction hs generalizing done with
  | nil => rw [removeLoop]; simp [without]
  | @other a l ha _ ih =>
    rw [removeLoop]
    have h1 : (done ++ a :: l ++ post)[done.length]? = some a := by simp
    simp only [h1, if_neg ha, List.length_cons]
    rw [if_pos (by omega)]
    have := ih (done ++ [a])
    rw [without, if_neg ha]
    simp only [List.length_append, List.length_cons, List.length_nil, List.append_assoc,
      List.cons_append, List.nil_append] at this ⊢
    rw [← this]
    congr 1
    omega
  | @block vs l hn hh hsl ih =>
    rw [removeLoop]
    have h1 : (done ++ o :: (vs ++ l) ++ post)[done.length]? = some o := by simp
    have hlen : (done ++ o :: (vs ++ l) ++ post).length = done.length + (n + 1) + l.length + post.length := by
      simp [hn]; omega
    have hmin : min ((done ++ o :: (vs ++ l) ++ post).length - done.length) (n + 1) = n + 1 := by omega
    have htake : (done ++ o :: (vs ++ l) ++ post).take done.length ++
        (done ++ o :: (vs ++ l) ++ post).drop (done.length + (n + 1)) = done ++ l ++ post := by
      have e : done ++ o :: (vs ++ l) ++ post = done ++ ((o :: vs) ++ (l ++ post)) := by simp
      have hv : (o :: vs).length = n + 1 := by simp [hn]
      rw [e, List.take_left, ← List.drop_drop, List.drop_left, ← hv, List.drop_left]
      simp
    simp only [h1, if_true, hmin, htake]
    have hstop : done.length + (o :: (vs ++ l)).length - (n + 1) = done.length + l.length := by
      simp [hn]; omega
    rw [hstop, if_pos (by simp), if_neg (by rw [hlen]; simp [hn]; omega)]
    have hw : without o n (o :: (vs ++ l)) = without o n l := by
      rw [without, if_pos rfl, ← hn, List.drop_left]
    rw [hw]
    cases hsl with
    | nil =>
      rw [removeLoop, if_neg (by simp)]
      simp [without]
    | @other a l' ha hsl' =>
      have := ih done
      rw [removeLoop] at this
      have h2 : (done ++ a :: l' ++ post)[done.length]? = some a := by simp
      simp only [h2, if_neg ha, List.length_cons] at this
      rw [if_pos (by omega)] at this
      exact this
    | block hn' hh' hsl' => exact absurd (by simp) hh

/-- Nothing is overridden by `over` in this list. -/
def Quiet (o over : String) (args : List String) : Prop :=
  ∀ i j, lastIndex o args = some i → lastIndex over args = some j → j ≤ i

theorem override_quiet {o over : String} {n : Nat} {args : List String} (h : Quiet o over args) (args' : List String) :
    override o n (lastIndex o args) (lastIndex over args) args' = some args' := by
  simp only [override]
  split
  · rename_i i j hi hj
    rw [if_neg (by have := h i j hi hj; omega)]
  · rfl

theorem override_split {o over : String} {n : Nat} {pre post : List String} (hne : o ≠ over) (hpost : over ∉ post)
    (ho : o ∈ pre) (ho' : o ∉ post) (hs : Separated o n pre) :
    override o n (lastIndex o (pre ++ over :: post)) (lastIndex over (pre ++ over :: post)) (pre ++ over :: post) =
      some (without o n pre ++ over :: post) := by
  have h1 : lastIndex over (pre ++ over :: post) = some pre.length := lastIndex_append hpost
  have h2 : lastIndex o (pre ++ over :: post) = lastIndex o pre := lastIndex_prefix (by simp [hne, ho'])
  cases hi : lastIndex o pre with
  | none => exact absurd ho (lastIndex_none.1 hi)
  | some i =>
    have := lastIndex_lt hi
    simp only [h1, h2, hi, override, if_pos this]
    simpa using removeLoop_separated hs [] (over :: post)

/-- **C26, nothing to override**: the arguments are left alone. -/
theorem postProcess_quiet {args : List String} (h1 : Quiet "--window" "--headless" args)
    (h2 : Quiet "--osc" "--osc_str" args) (h3 : Quiet "--osc_str" "--osc" args) : postProcess args = some args := by
  simp [postProcess, override_quiet h1, override_quiet h2, override_quiet h3]

/-- **C26, headless**: a window option before the last headless option disappears with its four numbers, everything
else stays in order.  Missing: repeated window options that follow each other directly, incomplete window options,
and a scenario override in the same command line (see the witnesses). -/
theorem postProcess_window_partial {pre post : List String} (hpost : "--headless" ∉ post) (ho : "--window" ∈ pre)
    (ho' : "--window" ∉ post) (hs : Separated "--window" 4 pre)
    (h2 : Quiet "--osc" "--osc_str" (pre ++ "--headless" :: post))
    (h3 : Quiet "--osc_str" "--osc" (pre ++ "--headless" :: post)) :
    postProcess (pre ++ "--headless" :: post) = some (without "--window" 4 pre ++ "--headless" :: post) := by
  simp only [postProcess, override_split (by decide) hpost ho ho' hs, Option.bind_some, override_quiet h2,
    override_quiet h3]

theorem quiet_of_split {o over : String} {pre post : List String} (hne : o ≠ over) (hpost : over ∉ post)
    (ho' : o ∉ post) : Quiet over o (pre ++ over :: post) := by
  intro i j hi hj
  rw [lastIndex_append hpost] at hi
  rw [lastIndex_prefix (by simp [hne, ho'])] at hj
  have := lastIndex_lt hj
  simp at hi
  omega

/-- **C26, scenario text**: a scenario file named before the last scenario text disappears, everything else stays in
order.  Missing as above. -/
theorem postProcess_osc_partial {pre post : List String} (hpost : "--osc_str" ∉ post) (ho : "--osc" ∈ pre)
    (ho' : "--osc" ∉ post) (hs : Separated "--osc" 1 pre)
    (h1 : Quiet "--window" "--headless" (pre ++ "--osc_str" :: post)) :
    postProcess (pre ++ "--osc_str" :: post) = some (without "--osc" 1 pre ++ "--osc_str" :: post) := by
  simp only [postProcess, override_quiet h1, Option.bind_some, override_split (by decide) hpost ho ho' hs,
    override_quiet (quiet_of_split (by decide) hpost ho')]

/-- **C26, scenario file**: a scenario text given before the last scenario file disappears, everything else stays in
order.  Missing as above. -/
theorem postProcess_osc_str_partial {pre post : List String} (hpost : "--osc" ∉ post) (ho : "--osc_str" ∈ pre)
    (ho' : "--osc_str" ∉ post) (hs : Separated "--osc_str" 1 pre)
    (h1 : Quiet "--window" "--headless" (pre ++ "--osc" :: post)) :
    postProcess (pre ++ "--osc" :: post) = some (without "--osc_str" 1 pre ++ "--osc" :: post) := by
  simp only [postProcess, override_quiet h1, Option.bind_some,
    override_quiet (quiet_of_split (o := "--osc_str") (by decide) hpost ho'),
    override_split (by decide) hpost ho ho' hs]

theorem without_sublist (o : String) (n : Nat) (l : List String) : (without o n l).Sublist l := by
  fun_induction without o n l with
  | case1 => exact List.Sublist.refl _
  | case2 as ih => exact ((ih.trans (List.drop_sublist _ _)).trans (List.sublist_cons_self _ _))
  | case3 a as _ ih => exact ih.cons_cons a

/-- What `without` is for: the option is gone, and what remains is a part of the list in its order. -/
theorem without_spec (o : String) (n : Nat) (l : List String) : o ∉ without o n l ∧ (without o n l).Sublist l := by
  refine ⟨?_, without_sublist o n l⟩
  fun_induction without o n l with
  | case1 => simp
  | case2 as ih => exact ih
  | case3 a as h ih => simp [Ne.symm h, ih]

theorem removeLoop_sublist {o : String} {n : Nat} {args r : List String} {i stop : Nat}
    (h : removeLoop o n args i stop = some r) : r.Sublist args := by
  fun_induction removeLoop o n args i stop with
  | case1 => simp at h
  | case2 => simp at h
  | case3 args i stop hi ha hl ih =>
    refine (ih h).trans ?_
    have := List.drop_sublist (n + 1) (args.drop i)
    rw [List.drop_drop] at this
    have e := List.Sublist.append_left this (args.take i)
    rwa [List.take_append_drop] at e
  | case4 args i stop hi a ha hc ih => exact ih h
  | case5 => simp at h; subst h; exact List.Sublist.refl _

/-- **C26, in every case that does not crash**: nothing is invented and nothing is reordered. -/
theorem postProcess_sublist {args r : List String} (h : postProcess args = some r) : r.Sublist args := by
  have key : ∀ {o n i j a b}, override o n i j a = some b → b.Sublist a := by
    intro o n i j a b h
    simp only [override] at h
    split at h
    · split at h
      · exact removeLoop_sublist h
      · simp at h; subst h; exact List.Sublist.refl _
    · simp at h; subst h; exact List.Sublist.refl _
  simp only [postProcess, Option.bind_eq_some_iff] at h
  obtain ⟨b, ⟨a, h1, h2⟩, h3⟩ := h
  exact (key h3).trans ((key h2).trans (key h1))

example : postProcess ["esmini", "--window", "60", "60", "800", "400", "--seed", "1", "--headless", "--osc", "a.xosc"] =
    some ["esmini", "--seed", "1", "--headless", "--osc", "a.xosc"] := by decide +kernel

example : Separated "--osc" 1 ["esmini", "--osc", "a", "--seed", "1", "--osc", "b"] :=
  .other (by decide) (.block (vs := ["a"]) rfl (by decide) (.other (by decide) (.other (by decide)
    (.block (vs := ["b"]) rfl (by decide) .nil))))

/-- **C26 fails**: of two scenario files named one directly after the other, only the first one is removed. -/
theorem adjacent_fails : postProcess ["esmini", "--osc", "a.xosc", "--osc", "b.xosc", "--osc_str", "<x/>"] =
    some ["esmini", "--osc", "b.xosc", "--osc_str", "<x/>"] := by decide +kernel

/-- **C26 fails**: a window option without its numbers makes the program run out of the argument vector. -/
theorem incomplete_window_witness : postProcess ["esmini", "--window", "--headless"] = none := by decide +kernel

/-- **C26 fails**: with a window override and a scenario override in one command line the second removal uses a position
from before the first one and reads slots that no longer belong to the argument vector. -/
theorem stale_index_witness : postProcess ["esmini", "--window", "60", "60", "800", "400", "--headless", "--osc", "a.xosc",
    "--disable_log", "--disable_stdout", "--osc_str", "<x/>"] = none := by decide +kernel

end Verif.Config
