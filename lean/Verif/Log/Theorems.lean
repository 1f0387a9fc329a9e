import Verif.Log.Model
/-
The text log: C169.
-/
namespace Verif.Log

/-! ### Specification -/

/-- The levels included by a configured level, as the user guide lists them. -/
def upTo : Level → List Level
  | .error => [.error]
  | .warn => [.error, .warn]
  | .info => [.error, .warn, .info]
  | .debug => [.error, .warn, .info, .debug]

/-- `file` belongs to module `m`: its name without directories and extension. -/
def InModule (file m : Text) : Prop :=
  m ≠ [] ∧ m ≠ ['.'] ∧ ∃ d e, (d = [] ∨ ∃ d', d = d' ++ ['/']) ∧ file = d ++ m ++ '.' :: e ∧ '/' ∉ m ∧ '/' ∉ e ∧
    '.' ∉ e

/-- A message with its level and module. -/
structure Msg where
  level : Level
  mod : Text
  text : Text

/-- The user wants the message: level and module filters. -/
def Wanted (level : Level) (only skip : List Text) (m : Msg) : Prop :=
  m.level ∈ upTo level ∧ (only ≠ [] → m.mod ∈ only) ∧ (only = [] → m.mod ∉ skip)

instance (level : Level) (only skip : List Text) (m : Msg) : Decidable (Wanted level only skip m) :=
  inferInstanceAs (Decidable (_ ∧ _ ∧ _))

/-- Texts of the wanted messages. -/
def wanted (w : World) (l : List Msg) : List Text :=
  (l.filter fun m => decide (Wanted w.level w.only w.skip m)).map Msg.text

/-- Each message logged from some file of its module. -/
inductive Logs : List Op → List Msg → Prop
  | nil : Logs [] []
  | cons {ops : List Op} {l : List Msg} {m : Msg} {f : Text} :
      InModule f m.mod → Logs ops l → Logs (.log m.level f (some m.text) :: ops) (m :: l)

/-! ### Paths -/

theorem takeWhile_ne {c : Char} {f : Text} (h : c ∉ f) (g : Text) :
    (f ++ c :: g).takeWhile (· ≠ c) = f ∧ (f ++ c :: g).dropWhile (· ≠ c) = c :: g := by
  induction f with
  | nil => simp
  | cons a f ih =>
    simp only [List.mem_cons, not_or] at h
    have := ih h.2
    have ha : a ≠ c := fun hh => h.1 hh.symm
    simp only [ne_eq, decide_not] at this
    constructor <;> simp [ha, this]

theorem takeWhile_all {c : Char} {f : Text} (h : c ∉ f) :
    f.takeWhile (· ≠ c) = f ∧ f.dropWhile (· ≠ c) = [] := by
  induction f with
  | nil => simp
  | cons a f ih =>
    simp only [List.mem_cons, not_or] at h
    have := ih h.2
    have ha : a ≠ c := fun hh => h.1 hh.symm
    simp only [ne_eq, decide_not] at this
    constructor <;> simp [ha, this]

theorem filename_slash (d : Text) {f : Text} (h : '/' ∉ f) :
    filename (d ++ '/' :: f) = f ∧ dirPart (d ++ '/' :: f) = d ++ ['/'] := by
  have := takeWhile_ne (c := '/') (f := f.reverse) (by simpa using h) d.reverse
  unfold filename dirPart
  have e : (d ++ '/' :: f).reverse = f.reverse ++ '/' :: d.reverse := by simp
  rw [e, this.1, this.2]
  simp

theorem filename_plain {f : Text} (h : '/' ∉ f) : filename f = f ∧ dirPart f = [] := by
  have := takeWhile_all (c := '/') (f := f.reverse) (by simpa using h)
  unfold filename dirPart
  rw [this.1, this.2]
  simp

/-- Every path is a plain name or has a last separator. -/
theorem path_cases (p : Text) : '/' ∉ p ∨ ∃ d f, p = d ++ '/' :: f ∧ '/' ∉ f := by
  induction p with
  | nil => simp
  | cons a p ih =>
    rcases ih with h | ⟨d, f, rfl, hf⟩
    · by_cases ha : a = '/'
      · subst ha; exact .inr ⟨[], p, rfl, h⟩
      · exact .inl (by simp [h, Ne.symm ha])
    · exact .inr ⟨a :: d, f, rfl, hf⟩

theorem stem_of {m e : Text} (hm : m ≠ []) (he : '.' ∉ e) (hne : m ++ '.' :: e ≠ ['.', '.']) :
    stem (m ++ '.' :: e) = m ∧ hasExt (m ++ '.' :: e) = true := by
  have hx : hasExt (m ++ '.' :: e) = true := by
    cases m with
    | nil => simp at hm
    | cons a m => simp [hasExt]; by_cases ha : a = '.' <;> simp_all
  refine ⟨?_, hx⟩
  unfold stem
  rw [if_pos hx]
  have := takeWhile_ne (c := '.') (f := e.reverse) (by simpa using he) m.reverse
  have e' : (m ++ '.' :: e).reverse = e.reverse ++ '.' :: m.reverse := by simp
  rw [e', this.2]
  simp

theorem stem_module {f m : Text} (h : InModule f m) : stem (filename f) = m := by
  obtain ⟨hm, hd, d, e, hd', rfl, h1, h2, h3⟩ := h
  have hs : '/' ∉ m ++ '.' :: e := by simp [h1, h2]
  have hf : filename (d ++ m ++ '.' :: e) = m ++ '.' :: e := by
    rcases hd' with rfl | ⟨d', rfl⟩
    · simpa using (filename_plain hs).1
    · have := (filename_slash d' hs).1
      simpa using this
  rw [hf]
  refine (stem_of hm h3 ?_).1
  intro hh
  cases m with
  | nil => simp at hm
  | cons a m =>
    cases m with
    | nil => simp at hh; exact hd (by simp [hh.1])
    | cons b m => simp at hh

/-! ### One message -/

theorem createFile_frame {fs : Fs} {w w' : World} {b : Bool} (h : createFile fs w = some (w', b)) :
    ∃ f c ff d, w' = { w with file := f, current := c, firstFile := ff, disk := d } := by
  unfold createFile stopFile at h
  split at h
  · simp at h
  · split at h
    · simp at h; exact ⟨w.file, w.current, w.firstFile, w.disk, by simp [h.1]⟩
    · dsimp only at h
      split at h <;> split at h <;> try split at h
      all_goals (simp only [Option.some.injEq, Prod.mk.injEq] at h; obtain ⟨rfl, _⟩ := h)
      all_goals exact ⟨_, _, _, _, rfl⟩

theorem put_frame (w : World) (x : Piece) : ∃ d, put w x = { w with disk := d } := by
  unfold put
  split
  · exact ⟨_, rfl⟩
  · exact ⟨w.disk, rfl⟩

theorem toOpenFile_frame (m : Text) (w : World) :
    ∃ ff d, toOpenFile m w = { w with firstFile := ff, disk := d } := by
  unfold toOpenFile
  dsimp only
  split
  · obtain ⟨d, hd⟩ := put_frame w .version
    rw [hd]
    obtain ⟨d', hd'⟩ := put_frame { w with disk := d, firstFile := false } (.msg m)
    exact ⟨_, d', hd'⟩
  · obtain ⟨d', hd'⟩ := put_frame w (.msg m)
    exact ⟨w.firstFile, d', hd'⟩

theorem toFile_frame (fs : Fs) (m : Text) (w : World) :
    ∃ f c ff d, toFile fs m w = { w with file := f, current := c, firstFile := ff, disk := d } := by
  unfold toFile
  split
  · split
    · split
      · exact ⟨w.file, w.current, w.firstFile, w.disk, rfl⟩
      · next w' h => exact createFile_frame h
      · next w' h =>
        obtain ⟨f, c, ff, d, rfl⟩ := createFile_frame h
        obtain ⟨ff', d', h'⟩ := toOpenFile_frame m
          { w with file := f, current := c, firstFile := ff, disk := d }
        exact ⟨f, c, ff', d', h'⟩
    · obtain ⟨ff', d', h'⟩ := toOpenFile_frame m w
      exact ⟨w.file, w.current, ff', d', h'⟩
  · exact ⟨w.file, w.current, w.firstFile, w.disk, rfl⟩

/-- What `emit` does besides the file. -/
theorem emit_spec (fs : Fs) (m : Text) (w : World) :
    (emit fs m w).opts = w.opts ∧ (emit fs m w).level = w.level ∧ (emit fs m w).only = w.only ∧
    (emit fs m w).skip = w.skip ∧ (emit fs m w).callbacks = w.callbacks ∧
    (emit fs m w).cap = w.cap ∧ (emit fs m w).consoleOn = w.consoleOn ∧
    (emit fs m w).fileOn = w.fileOn ∧
    (emit fs m w).calls = w.calls ++ w.callbacks.map (·, m) ∧
    (emit fs m w).console = (if w.consoleOn then
      w.console ++ (if w.firstConsole then [.version] else []) ++ [.msg m] else w.console) ∧
    (emit fs m w).firstConsole = (w.firstConsole && !w.consoleOn) ∧
    (emit fs m w).buffer = (if w.cap > 0 then
      (if (w.buffer ++ [m]).length > w.cap then (w.buffer ++ [m]).drop 1 else w.buffer ++ [m])
      else w.buffer) := by
  unfold emit
  obtain ⟨f, c, ff, d, h⟩ := toFile_frame fs m
    (toConsole m (toBuffer m { w with calls := w.calls ++ w.callbacks.map (·, m) }))
  rw [h]
  unfold toConsole toBuffer
  cases h1 : w.consoleOn <;> by_cases h2 : w.cap > 0 <;> simp [h1, h2]

/-- The switches a message sets. -/
def arm (w : World) : World := { w with consoleOn := !w.opts.noStdout, fileOn := !w.opts.noLog }

theorem level_iff (a b : Level) : ¬ a.num > b.num ↔ b ∈ upTo a := by
  cases a <;> cases b <;> decide

theorem should_iff (w : World) (f m : Text) (hm : InModule f m) :
    shouldLog w f = true ↔ (w.only ≠ [] → m ∈ w.only) ∧ (w.only = [] → m ∉ w.skip) := by
  unfold shouldLog
  rw [stem_module hm]
  by_cases h : w.only = []
  · by_cases h' : w.skip = [] <;> simp [h, h']
  · simp [h]

theorem log_eq (fs : Fs) (w : World) (m : Msg) (f : Text) (hm : InModule f m.mod) :
    log fs m.level f (some m.text) w = some (
      if Wanted w.level w.only w.skip m then
        if w.opts.noLog = false ∨ w.opts.noStdout = false then emit fs m.text (arm w) else arm w
      else w) := by
  have h1 := level_iff w.level m.level
  have h2 := should_iff w f m.mod hm
  have hW : Wanted w.level w.only w.skip m ↔
      ¬ w.level.num > m.level.num ∧ shouldLog w f = true := by rw [h1, h2]; rfl
  by_cases hw : Wanted w.level w.only w.skip m
  · obtain ⟨k1, k2⟩ := hW.1 hw
    rw [if_pos hw]
    unfold log arm
    rw [if_neg k1, if_neg (by simp [k2])]
    cases w.opts.noLog <;> cases w.opts.noStdout <;> simp
  · rw [if_neg hw]
    unfold log
    by_cases k1 : w.level.num > m.level.num
    · rw [if_pos k1]
    · rw [if_neg k1, if_pos]
      cases hs : shouldLog w f
      · rfl
      · exact absurd (hW.2 ⟨k1, hs⟩) hw

/-! ### Sequences of messages -/

/-- What messages leave as it is. -/
theorem log_keeps {fs : Fs} {w w' : World} {m : Msg} {f : Text} (hm : InModule f m.mod)
    (h : log fs m.level f (some m.text) w = some w') :
    w'.opts = w.opts ∧ w'.level = w.level ∧ w'.only = w.only ∧ w'.skip = w.skip ∧
      w'.callbacks = w.callbacks ∧ w'.cap = w.cap := by
  rw [log_eq fs w m f hm] at h
  cases h
  split
  · split
    · obtain ⟨a, b, c, d, e, f, -⟩ := emit_spec fs m.text (arm w)
      exact ⟨a, b, c, d, e, f⟩
    · simp [arm]
  · simp

theorem wanted_cons (w : World) (m : Msg) (l : List Msg) :
    wanted w (m :: l) = (if Wanted w.level w.only w.skip m then [m.text] else []) ++ wanted w l := by
  unfold wanted
  by_cases h : Wanted w.level w.only w.skip m <;> simp [h]

theorem wanted_congr {w w' : World} (h1 : w'.level = w.level) (h2 : w'.only = w.only)
    (h3 : w'.skip = w.skip) (l : List Msg) : wanted w' l = wanted w l := by
  simp [wanted, h1, h2, h3]

/-- C169: logging never fails if the messages can be formatted. -/
theorem logging_succeeds (fs : Fs) {ops : List Op} {l : List Msg} (h : Logs ops l) :
    ∀ w : World, ∃ w', run fs w ops = some w' := by
  induction h with
  | nil => exact fun w => ⟨w, rfl⟩
  | cons hm _ ih =>
    intro w
    obtain ⟨w', h'⟩ := ih _
    refine ⟨w', ?_⟩
    rw [run, List.foldlM_cons]
    show (log _ _ _ _ _ >>= _) = _
    rw [log_eq fs w _ _ hm]
    exact h'

theorem run_cons {fs : Fs} {w w' : World} {m : Msg} {f : Text} {ops : List Op}
    (h : run fs w (.log m.level f (some m.text) :: ops) = some w') :
    ∃ v, log fs m.level f (some m.text) w = some v ∧ run fs v ops = some w' := by
  rw [run, List.foldlM_cons] at h
  exact Option.bind_eq_some_iff.1 h

/-- C169: the console shows exactly the wanted messages, in order, after the version text; nothing if
it is disabled. -/
theorem console_messages (fs : Fs) {ops : List Op} {l : List Msg} (hl : Logs ops l) :
    ∀ {w w' : World}, run fs w ops = some w' →
    w'.console = w.console ++ (if w.opts.noStdout = true ∨ wanted w l = [] then [] else
      (if w.firstConsole then [.version] else []) ++ (wanted w l).map .msg) := by
  induction hl with
  | nil => intro w w' h; simp [run] at h; subst h; simp [wanted]
  | @cons ops l m f hm hl ih =>
    intro w w' h
    obtain ⟨v, h1, h2⟩ := run_cons h
    have hk := log_keeps hm h1
    have hi := ih h2
    rw [wanted_congr hk.2.1 hk.2.2.1 hk.2.2.2.1, hk.1] at hi
    rw [log_eq fs w m f hm] at h1
    cases h1
    rw [hi, wanted_cons]
    by_cases hw : Wanted w.level w.only w.skip m
    · simp only [if_pos hw]
      cases hn : w.opts.noStdout
      · rw [if_pos (.inr rfl)]
        have he := emit_spec fs m.text (arm w)
        obtain ⟨-, -, -, -, -, -, -, -, -, e10, e11, -⟩ := he
        rw [e10, e11]
        by_cases hx : wanted w l = [] <;> simp [arm, hn, hx]
      · split
        · have he := emit_spec fs m.text (arm w)
          obtain ⟨-, -, -, -, -, -, -, -, -, e10, e11, -⟩ := he
          rw [e10]; simp [arm, hn]
        · simp [arm]
    · simp [if_neg hw]

/-- C169: each callback gets each wanted message once, in order, unless console and file are both
disabled. -/
theorem callback_messages_partial (fs : Fs) {ops : List Op} {l : List Msg} (hl : Logs ops l) :
    ∀ {w w' : World}, (w.opts.noLog = false ∨ w.opts.noStdout = false) → run fs w ops = some w' →
    w'.calls = w.calls ++ (wanted w l).flatMap fun t => w.callbacks.map (·, t) := by
  induction hl with
  | nil => intro w w' _ h; simp [run] at h; subst h; simp [wanted]
  | @cons ops l m f hm hl ih =>
    intro w w' ho h
    obtain ⟨v, h1, h2⟩ := run_cons h
    have hk := log_keeps hm h1
    have hi := ih (by rw [hk.1]; exact ho) h2
    rw [wanted_congr hk.2.1 hk.2.2.1 hk.2.2.2.1, hk.2.2.2.2.1] at hi
    rw [log_eq fs w m f hm] at h1
    cases h1
    rw [hi, wanted_cons]
    by_cases hw : Wanted w.level w.only w.skip m
    · simp only [if_pos hw, if_pos ho]
      have he := emit_spec fs m.text (arm w)
      rw [he.2.2.2.2.2.2.2.2.1]
      simp [arm]
    · simp [if_neg hw]

/-- C169: the first hundred callbacks are registered, in order. -/
theorem registered (fs : Fs) (cs : List Nat) : ∀ {w w' : World}, w.callbacks.length ≤ 100 →
    run fs w (cs.map .register) = some w' → w'.callbacks = (w.callbacks ++ cs).take 100 := by
  induction cs with
  | nil =>
    intro w w' hw h; simp [run] at h; subst h
    rw [List.append_nil, List.take_of_length_le hw]
  | cons c cs ih =>
    intro w w' hw h
    rw [List.map_cons, run, List.foldlM_cons] at h
    obtain ⟨v, h1, h2⟩ := Option.bind_eq_some_iff.1 h
    simp only [step, register, Option.some.injEq] at h1
    by_cases hl : w.callbacks.length < 100
    · rw [if_pos hl] at h1
      have := ih (by rw [← h1]; simp; omega) h2
      rw [this, ← h1]; simp
    · rw [if_neg hl] at h1
      have := ih (by rw [← h1]; exact hw) h2
      rw [this, ← h1, List.take_append_of_le_length (by omega),
        List.take_append_of_le_length (by omega)]

/-- The last `n` elements. -/
def lastN (n : Nat) (l : List Text) : List Text := l.drop (l.length - n)

/-- C169: the buffer holds the last wanted messages, as many as it is asked to, unless it already held
more. -/
theorem buffer_messages_partial (fs : Fs) {ops : List Op} {l : List Msg} (hl : Logs ops l) :
    ∀ {w w' : World}, (w.opts.noLog = false ∨ w.opts.noStdout = false) → 0 < w.cap →
    w.buffer.length ≤ w.cap → run fs w ops = some w' →
    w'.buffer = lastN w.cap (w.buffer ++ wanted w l) := by
  induction hl with
  | nil =>
    intro w w' _ _ hb h; simp [run] at h; subst h
    simp [wanted, lastN, Nat.sub_eq_zero_of_le hb]
  | @cons ops l m f hm hl ih =>
    intro w w' ho hc hb h
    obtain ⟨v, h1, h2⟩ := run_cons h
    have hk := log_keeps hm h1
    by_cases hw : Wanted w.level w.only w.skip m
    · rw [log_eq fs w m f hm, if_pos hw, if_pos ho] at h1
      have he := (emit_spec fs m.text (arm w)).2.2.2.2.2.2.2.2.2.2.2
      cases h1
      rw [if_pos (show (arm w).cap > 0 from hc)] at he
      have hbw : (arm w).buffer = w.buffer := rfl
      have hcw : (arm w).cap = w.cap := rfl
      rw [hbw, hcw] at he
      have hlen : (emit fs m.text (arm w)).buffer.length ≤ w.cap := by
        rw [he]; split <;> simp <;> simp at * <;> omega
      have hi := ih (by rw [hk.1]; exact ho) (by rw [hk.2.2.2.2.2]; exact hc)
        (by rw [hk.2.2.2.2.2]; exact hlen) h2
      rw [wanted_congr hk.2.1 hk.2.2.1 hk.2.2.2.1, hk.2.2.2.2.2] at hi
      rw [hi, wanted_cons, if_pos hw, he]
      split
      · next hgt =>
        simp at hgt
        have : w.buffer.length = w.cap := by omega
        cases hbuf : w.buffer with
        | nil => simp [hbuf] at this; omega
        | cons a b =>
          simp only [hbuf, List.length_cons] at this
          simp only [lastN, List.cons_append, List.drop_succ_cons, List.drop_zero,
            List.length_append, List.length_cons, List.append_assoc, List.nil_append,
            List.singleton_append, List.length_nil]
          have e1 : b.length + ((wanted w l).length + 1) + 1 - w.cap =
            b.length + ((wanted w l).length + 1) - w.cap + 1 := by omega
          rw [e1, List.drop_succ_cons]
      · simp [lastN]
    · rw [log_eq fs w m f hm, if_neg hw] at h1
      cases h1
      have hi := ih ho hc hb h2
      rw [hi, wanted_cons, if_neg hw]; rfl

/-! ### The file -/

/-- The options name file `q`, and it can be written. -/
structure Target (fs : Fs) (w : World) (q : Text) : Prop where
  on : w.opts.noLog = false
  path : w.opts.path ≠ []
  valid : validate fs.ex w.opts.path logName "txt".toList = some q
  open_ : fs.canOpen q = true

theorem validate_ne {ex : Text → Bool} {p name ext q : Text} (hn : name ≠ [])
    (h : validate ex p name ext = some q) : q ≠ [] := by
  unfold validate at h
  split at h
  · simp at h
  · split at h
    · cases h; simp [hn]
    · split at h
      · split at h <;> (cases h; simp)
      · next h1 _ => cases h; rintro rfl; exact h1 rfl

theorem toOpenFile_spec {w : World} {q : Text} (hf : w.file = some q) (m : Text) :
    (toOpenFile m w).file = some q ∧ (toOpenFile m w).firstFile = false ∧
    ∀ p, (toOpenFile m w).disk p = if p = q then
      w.disk q ++ (if w.firstFile then [.version] else []) ++ [.msg m] else w.disk p := by
  unfold toOpenFile
  cases h : w.firstFile
  · simp [put, hf, h, setDisk]
  · simp only [if_true]
    refine ⟨by simp [put, hf], by simp [put, hf], fun p => ?_⟩
    by_cases hp : p = q <;> simp [put, hf, setDisk, hp]

theorem toFile_spec {fs : Fs} {w : World} {q : Text} (ht : Target fs w q) (hon : w.fileOn = true)
    (hf : w.file = none ∨ w.file = some q) (m : Text) :
    (toFile fs m w).file = some q ∧ (toFile fs m w).firstFile = false ∧
    ∀ p, (toFile fs m w).disk p = if p = q then
      (if w.file = some q ∨ w.opts.append = true then w.disk q else []) ++
        (if w.firstFile then [.version] else []) ++ [.msg m] else w.disk p := by
  have hq := validate_ne (by decide) ht.valid
  unfold toFile
  rw [if_pos hon]
  rcases hf with hf | hf
  · rw [if_pos hf]
    have hc : createFile fs w = some ((if w.opts.append then
        { w with file := some q, current := q }
        else { w with file := some q, current := q, disk := setDisk w.disk q [] }), true) := by
      unfold createFile createPath
      rw [if_neg (by simp [ht.on]), if_neg ht.path, ht.valid]
      dsimp only
      rw [if_neg hq, if_neg (by simp [ht.open_])]
      simp only [hf, Option.isSome_none, Bool.false_eq_true, if_false]
      cases w.opts.append <;> simp
    rw [hc]
    dsimp only
    cases ha : w.opts.append
    · simp only [Bool.false_eq_true, if_false, hf]
      obtain ⟨a, b, c⟩ := toOpenFile_spec
        (w := { w with file := some q, current := q, disk := setDisk w.disk q [] }) rfl m
      refine ⟨a, b, fun p => ?_⟩
      rw [c]
      by_cases hp : p = q <;> simp [setDisk, hp]
    · simp only [if_true, hf]
      obtain ⟨a, b, c⟩ := toOpenFile_spec (w := { w with file := some q, current := q }) rfl m
      refine ⟨a, b, fun p => ?_⟩
      rw [c]
      by_cases hp : p = q <;> simp [hp]
  · rw [if_neg (by simp [hf])]
    obtain ⟨a, b, c⟩ := toOpenFile_spec hf m
    refine ⟨a, b, fun p => ?_⟩
    rw [c]
    simp [hf]

theorem pre_frame (m : Text) (w : World) : ∃ c fc b cs,
    toConsole m (toBuffer m { w with calls := w.calls ++ w.callbacks.map (·, m) }) =
      { w with console := c, firstConsole := fc, buffer := b, calls := cs } := by
  let v := toConsole m (toBuffer m { w with calls := w.calls ++ w.callbacks.map (·, m) })
  refine ⟨v.console, v.firstConsole, v.buffer, v.calls, ?_⟩
  simp only [v, toConsole, toBuffer]
  cases h1 : w.consoleOn <;> by_cases h2 : w.cap > 0 <;> simp [h1, h2]

theorem emit_file {fs : Fs} {w : World} {q : Text} (ht : Target fs w q) (hon : w.fileOn = true)
    (hf : w.file = none ∨ w.file = some q) (m : Text) :
    (emit fs m w).file = some q ∧ (emit fs m w).firstFile = false ∧
    ∀ p, (emit fs m w).disk p = if p = q then
      (if w.file = some q ∨ w.opts.append = true then w.disk q else []) ++
        (if w.firstFile then [.version] else []) ++ [.msg m] else w.disk p := by
  obtain ⟨c, fc, b, cs, h⟩ := pre_frame m w
  unfold emit
  rw [h]
  exact toFile_spec (w := { w with console := c, firstConsole := fc, buffer := b, calls := cs })
    ⟨ht.on, ht.path, ht.valid, ht.open_⟩ hon hf m

/-- C169: the log file holds exactly the wanted messages, in order, after the version text, following
the earlier content if that is to be kept; no other file is touched. -/
theorem file_messages (fs : Fs) {q : Text} {ops : List Op} {l : List Msg} (hl : Logs ops l) :
    ∀ {w w' : World}, Target fs w q → (w.file = none ∨ w.file = some q) → run fs w ops = some w' →
    ∀ p, w'.disk p = if p = q ∧ wanted w l ≠ [] then
      (if w.file = some q ∨ w.opts.append = true then w.disk q else []) ++
        (if w.firstFile then [.version] else []) ++ (wanted w l).map .msg else w.disk p := by
  induction hl with
  | nil => intro w w' _ _ h p; simp [run] at h; subst h; simp [wanted]
  | @cons ops l m f hm hl ih =>
    intro w w' ht hf h p
    obtain ⟨v, h1, h2⟩ := run_cons h
    have hk := log_keeps hm h1
    have htv : Target fs v q :=
      ⟨by rw [hk.1]; exact ht.on, by rw [hk.1]; exact ht.path, by rw [hk.1]; exact ht.valid, ht.open_⟩
    by_cases hw : Wanted w.level w.only w.skip m
    · rw [log_eq fs w m f hm, if_pos hw, if_pos (.inl ht.on)] at h1
      obtain ⟨e1, e2, e3⟩ := emit_file (w := arm w) ⟨ht.on, ht.path, ht.valid, ht.open_⟩
        (by simp [arm, ht.on]) hf m.text
      cases h1
      have hi := ih htv (.inr e1) h2 p
      rw [wanted_congr hk.2.1 hk.2.2.1 hk.2.2.2.1] at hi
      rw [hi, wanted_cons, if_pos hw, e1, e2]
      simp only [e3]
      have a1 : (arm w).file = w.file := rfl
      have a2 : (arm w).opts = w.opts := rfl
      have a3 : (arm w).disk = w.disk := rfl
      have a4 : (arm w).firstFile = w.firstFile := rfl
      rw [a1, a2, a3, a4]
      by_cases hp : p = q
      · by_cases hx : wanted w l = [] <;> simp [hp, hx]
      · simp [hp]
    · rw [log_eq fs w m f hm, if_neg hw] at h1
      cases h1
      rw [ih ht hf h2 p, wanted_cons, if_neg hw]
      rfl

/-- C169: with the log file disabled messages touch no file. -/
theorem no_file (fs : Fs) {ops : List Op} {l : List Msg} (hl : Logs ops l) :
    ∀ {w w' : World}, w.opts.noLog = true ∨ w.opts.path = [] ∧ w.file = none →
    run fs w ops = some w' → w'.disk = w.disk := by
  induction hl with
  | nil => intro w w' _ h; simp [run] at h; subst h; rfl
  | @cons ops l m f hm hl ih =>
    intro w w' ho h
    obtain ⟨v, h1, h2⟩ := run_cons h
    have hk := log_keeps hm h1
    rw [log_eq fs w m f hm] at h1
    suffices hs : v.disk = w.disk ∧ (w.file = none → v.file = none) by
      rw [ih (ho.imp (by rw [hk.1]; exact id) (fun h => ⟨by rw [hk.1]; exact h.1, hs.2 h.2⟩)) h2, hs.1]
    cases h1
    split
    · split
      · obtain ⟨c, fc, b, cs, h⟩ := pre_frame m.text (arm w)
        unfold emit
        rw [h]
        rcases ho with ho | ⟨ho, hf⟩
        · simp [toFile, arm, ho]
        · by_cases hn : w.opts.noLog = true
          · simp [toFile, arm, hn]
          · simp [toFile, arm, hn, hf, createFile, createPath, ho]
      · exact ⟨rfl, id⟩
    · exact ⟨rfl, id⟩

/-! ### Any use of the log -/

/-- Content of files: earlier content is only dropped when a file is opened, and then the version
text comes first. -/
structure Good (w : World) : Prop where
  head : ∀ p, w.disk p = [] ∨ ∃ r, w.disk p = .version :: r
  begun : w.firstFile = false → ∃ p, w.file = some p ∧ w.disk p ≠ []

theorem Good.stopFile {w : World} (h : Good w) : Good (stopFile w) :=
  ⟨h.head, by simp [Log.stopFile]⟩

theorem Good.createFile {fs : Fs} {w w' : World} {b : Bool} (h : Good w) (hf : w.firstFile = true)
    (hc : createFile fs w = some (w', b)) : Good w' ∧ w'.firstFile = true ∧
      (b = true → ∃ p, w'.file = some p) := by
  unfold Log.createFile at hc
  split at hc
  · simp at hc
  · next p _ =>
    split at hc
    · simp at hc; obtain ⟨rfl, rfl⟩ := hc; exact ⟨h, hf, by simp⟩
    · have hv : Good (if w.file.isSome then Log.stopFile w else w) ∧
          (if w.file.isSome then Log.stopFile w else w).firstFile = true := by
        split
        · exact ⟨h.stopFile, rfl⟩
        · exact ⟨h, hf⟩
      generalize (if w.file.isSome then Log.stopFile w else w) = v at hc hv
      obtain ⟨hv, hvf⟩ := hv
      dsimp only at hc
      split at hc
      · cases hc; exact ⟨⟨hv.head, by simp [hvf]⟩, hvf, by simp⟩
      · split at hc
        · cases hc; exact ⟨⟨hv.head, by simp [hvf]⟩, hvf, by simp⟩
        · cases hc
          refine ⟨⟨fun q => ?_, by simp [hvf]⟩, hvf, by simp⟩
          by_cases hq : q = p
          · simp [setDisk, hq]
          · simpa [setDisk, hq] using hv.head q

theorem Good.toOpenFile {w : World} {p : Text} (h : Good w) (hf : w.file = some p) (m : Text) :
    Good (toOpenFile m w) := by
  obtain ⟨a, b, c⟩ := toOpenFile_spec hf m
  refine ⟨fun q => ?_, fun _ => ⟨p, a, by rw [c]; simp⟩⟩
  rw [c]
  by_cases hq : q = p
  · rw [if_pos hq]
    right
    rcases h.head p with h0 | ⟨r, hr⟩
    · cases hff : w.firstFile
      · obtain ⟨p', hp', hne⟩ := h.begun hff
        rw [hf] at hp'; cases hp'
        exact absurd h0 hne
      · rw [h0]; exact ⟨_, rfl⟩
    · rw [hr]; exact ⟨_, rfl⟩
  · rw [if_neg hq]; exact h.head q

theorem Good.emit {fs : Fs} {w : World} (h : Good w) (m : Text) : Good (emit fs m w) := by
  obtain ⟨c, fc, b, cs, hp⟩ := pre_frame m w
  unfold Log.emit
  rw [hp]
  have hg : Good { w with console := c, firstConsole := fc, buffer := b, calls := cs } :=
    ⟨h.head, h.begun⟩
  generalize ({ w with console := c, firstConsole := fc, buffer := b, calls := cs } : World) = v at hg
  unfold toFile
  split
  · split
    · next hn =>
      have hff : v.firstFile = true := by
        cases hx : v.firstFile
        · obtain ⟨p, hp, _⟩ := hg.begun hx; rw [hn] at hp; simp at hp
        · rfl
      split
      · exact hg
      · next hc => exact (hg.createFile hff hc).1
      · next hc =>
        obtain ⟨g, _, hx⟩ := hg.createFile hff hc
        obtain ⟨p, hp⟩ := hx rfl
        exact g.toOpenFile hp m
    · next hn =>
      cases hx : v.file with
      | none => exact absurd hx hn
      | some p => exact hg.toOpenFile hx m
  · exact hg

theorem Good.step {fs : Fs} {w w' : World} (h : Good w) {o : Op} (hs : step fs w o = some w') :
    Good w' := by
  cases o <;> simp only [Log.step, Option.some.injEq] at hs
  case log l f m =>
    unfold log at hs
    split at hs
    · cases hs; exact h
    · split at hs
      · cases hs; exact h
      · dsimp only at hs
        split at hs
        · cases m with
          | none => simp at hs
          | some m =>
            simp only [Option.map_some, Option.some.injEq] at hs
            subst hs
            exact Good.emit (w := arm w) ⟨h.head, h.begun⟩ m
        · cases hs; exact ⟨h.head, h.begun⟩
  case timeOnly m => subst hs; exact h.emit m
  case setPath p =>
    unfold setPath at hs
    split at hs
    · simp at hs
    · split at hs
      · cases hs; exact h
      · simp only [Option.map_eq_some_iff] at hs
        obtain ⟨⟨v, b⟩, hc, rfl⟩ := hs
        refine (Good.createFile ?_ rfl hc).1
        exact ⟨h.stopFile.head, h.stopFile.begun⟩
  case stopFile => subst hs; exact h.stopFile
  case stop => subst hs; exact ⟨h.stopFile.head, h.stopFile.begun⟩
  case register c => subst hs; unfold register; split <;> exact ⟨h.head, h.begun⟩
  all_goals (subst hs; exact ⟨h.head, h.begun⟩)

/-- C169: whatever is done with the log, a file that is not empty starts with the version text. -/
theorem files_start_with_version (fs : Fs) (ops : List Op) :
    ∀ {w w' : World}, (∀ p, w.disk p = []) → w.firstFile = true → run fs w ops = some w' →
    ∀ p, w'.disk p = [] ∨ ∃ r, w'.disk p = .version :: r := by
  intro w w' hd hf h
  suffices hg : ∀ (ops : List Op) (w : World), Good w → run fs w ops = some w' → Good w' from
    (hg ops w ⟨fun p => .inl (hd p), by simp [hf]⟩ h).head
  intro ops
  induction ops with
  | nil => intro w hg h; simp [run] at h; subst h; exact hg
  | cons o ops ih =>
    intro w hg h
    rw [run, List.foldlM_cons] at h
    obtain ⟨v, h1, h2⟩ := Option.bind_eq_some_iff.1 h
    exact ih v (hg.step h1) h2

theorem setDisk_prefix {d : Text → List Piece} {p : Text} {x : Piece} (q : Text) :
    d q <+: setDisk d p (d p ++ [x]) q := by
  unfold setDisk
  split
  · next h => rw [h]; exact List.prefix_append _ _
  · exact List.prefix_refl _

theorem put_prefix (w : World) (x : Piece) (q : Text) : w.disk q <+: (put w x).disk q := by
  unfold put
  split
  · exact setDisk_prefix q
  · exact List.prefix_refl _

theorem toOpenFile_prefix (m : Text) (w : World) (q : Text) :
    w.disk q <+: (toOpenFile m w).disk q := by
  unfold toOpenFile
  dsimp only
  split
  · exact (put_prefix w .version q).trans (put_prefix { put w .version with firstFile := false } _ q)
  · exact put_prefix _ _ q

theorem createFile_prefix {fs : Fs} {w w' : World} {b : Bool} (ha : w.opts.append = true)
    (h : createFile fs w = some (w', b)) : w'.disk = w.disk ∧ w'.opts = w.opts := by
  unfold createFile at h
  split at h
  · simp at h
  · split at h
    · cases h; exact ⟨rfl, rfl⟩
    · have hv : (if w.file.isSome then Log.stopFile w else w).disk = w.disk ∧
          (if w.file.isSome then Log.stopFile w else w).opts = w.opts := by
        split <;> exact ⟨rfl, rfl⟩
      generalize (if w.file.isSome then Log.stopFile w else w) = v at h hv
      dsimp only at h
      split at h
      · cases h; exact hv
      · rw [if_pos (by rw [hv.2]; exact ha)] at h
        cases h; exact hv

theorem emit_prefix {fs : Fs} {w : World} (ha : w.opts.append = true) (m q : Text) :
    w.disk q <+: (emit fs m w).disk q := by
  obtain ⟨c, fc, b, cs, hp⟩ := pre_frame m w
  unfold emit
  rw [hp]
  show ({ w with console := c, firstConsole := fc, buffer := b, calls := cs } : World).disk q <+: _
  have hav : ({ w with console := c, firstConsole := fc, buffer := b, calls := cs } : World).opts.append
    = true := ha
  generalize ({ w with console := c, firstConsole := fc, buffer := b, calls := cs } : World) = v at hav
  unfold toFile
  split
  · split
    · split
      · exact List.prefix_refl _
      · next hc => rw [(createFile_prefix hav hc).1]; exact List.prefix_refl _
      · next hc =>
        rw [← (createFile_prefix hav hc).1]
        exact toOpenFile_prefix m _ q
    · exact toOpenFile_prefix m v q
  · exact List.prefix_refl _

/-- C169: with `log_append` nothing that has been written to any file is lost, whatever is done with
the log. -/
theorem append_keeps (fs : Fs) : ∀ (ops : List Op) {w w' : World}, w.opts.append = true →
    (∀ o, Op.setOpts o ∈ ops → o.append = true) → run fs w ops = some w' →
    ∀ q, w.disk q <+: w'.disk q := by
  intro ops
  induction ops with
  | nil => intro w w' _ _ h q; simp [run] at h; subst h; exact List.prefix_refl _
  | cons o ops ih =>
    intro w w' ha ho h q
    rw [run, List.foldlM_cons] at h
    obtain ⟨v, h1, h2⟩ := Option.bind_eq_some_iff.1 h
    suffices hs : v.opts.append = true ∧ w.disk q <+: v.disk q from
      hs.2.trans (ih hs.1 (fun o' h' => ho o' (by simp [h'])) h2 q)
    cases o <;> simp only [step, Option.some.injEq] at h1
    case log l f m =>
      unfold log at h1
      split at h1
      · cases h1; exact ⟨ha, List.prefix_refl _⟩
      · split at h1
        · cases h1; exact ⟨ha, List.prefix_refl _⟩
        · dsimp only at h1
          split at h1
          · cases m with
            | none => simp at h1
            | some m =>
              simp only [Option.map_some, Option.some.injEq] at h1
              subst h1
              exact ⟨by rw [(emit_spec fs m _).1]; exact ha,
                emit_prefix (w := arm w) ha m q⟩
          · cases h1; exact ⟨ha, List.prefix_refl _⟩
    case timeOnly m =>
      subst h1
      exact ⟨by rw [timeOnly, (emit_spec fs m w).1]; exact ha, emit_prefix ha m q⟩
    case setPath p =>
      unfold setPath at h1
      split at h1
      · simp at h1
      · split at h1
        · cases h1; exact ⟨ha, List.prefix_refl _⟩
        · simp only [Option.map_eq_some_iff] at h1
          obtain ⟨⟨v', b⟩, hc, rfl⟩ := h1
          obtain ⟨k1, k2⟩ := createFile_prefix (by exact ha) hc
          dsimp only
          rw [k1, k2]
          exact ⟨ha, List.prefix_refl _⟩
    case register c =>
      subst h1; unfold register; split <;> exact ⟨ha, List.prefix_refl _⟩
    case setOpts o => subst h1; exact ⟨ho o (by simp), List.prefix_refl _⟩
    all_goals (subst h1; exact ⟨ha, List.prefix_refl _⟩)

/-! ### Paths of log files -/

theorem parent_slash (d : Text) {f : Text} (hf : '/' ∉ f) (hd : d ≠ []) (hl : d.getLast? ≠ some '/') :
    parent (d ++ '/' :: f) = d := by
  unfold parent
  rw [(filename_slash d hf).2]
  obtain ⟨x, r, hr⟩ : ∃ x r, d.reverse = x :: r := by
    cases h : d.reverse with
    | nil => simp at h; exact absurd h hd
    | cons x r => exact ⟨x, r, rfl⟩
  have hx : x ≠ '/' := by
    rintro rfl
    apply hl
    have : d = r.reverse ++ ['/'] := by rw [← List.reverse_reverse d, hr]; simp
    rw [this]; simp
  have hdrop : ((d ++ ['/']).reverse.dropWhile (· = '/')).reverse = d := by
    rw [List.reverse_append, List.reverse_singleton, List.singleton_append, hr]
    simp [hx]
    rw [← List.reverse_reverse d, hr]; simp
  rw [if_neg (by simp), hdrop, if_neg hd]

/-- C169: a file name with extension in an existing directory is used as it is. -/
theorem path_file (ex : Text → Bool) {d f : Text} (hd : d ≠ []) (hl : d.getLast? ≠ some '/')
    (hex : ex d = true) {n e : Text} (hf : f = n ++ '.' :: e) (hn : n ≠ []) (hs : '/' ∉ f)
    (he : '.' ∉ e) (hdd : f ≠ ['.', '.']) :
    validate ex (d ++ '/' :: f) logName "txt".toList = some (d ++ '/' :: f) := by
  have hx := (stem_of hn he (hf ▸ hdd)).2
  unfold validate
  rw [parent_slash d hs hd hl, (filename_slash d hs).1, if_neg (by simp [hex]),
    if_neg (by rw [hf]; simp), if_neg (by rw [hf, hx]; simp)]

/-- C169: a file name alone is used in the current directory. -/
theorem path_name (ex : Text → Bool) {f n e : Text} (hf : f = n ++ '.' :: e) (hn : n ≠ [])
    (hs : '/' ∉ f) (he : '.' ∉ e) (hdd : f ≠ ['.', '.']) :
    validate ex f logName "txt".toList = some f := by
  have hx := (stem_of hn he (hf ▸ hdd)).2
  unfold validate
  have hp : parent f = [] := by simp [parent, (filename_plain hs).2]
  rw [hp, (filename_plain hs).1, if_neg (by simp), if_neg (by rw [hf]; simp),
    if_neg (by rw [hf, hx]; simp)]

/-- C169: a directory, written with a final separator, gets the default file name. -/
theorem path_directory (ex : Text → Bool) {d : Text} (hd : d ≠ []) (hl : d.getLast? ≠ some '/')
    (hex : ex d = true) :
    validate ex (d ++ ['/']) logName "txt".toList = some (d ++ '/' :: "log.txt".toList) := by
  unfold validate
  rw [parent_slash d (f := []) (by simp) hd hl, (filename_slash d (f := []) (by simp)).1,
    if_neg (by simp [hex]), if_pos rfl]
  simp [logName]

/-- C169: a path in a directory that does not exist is refused. -/
theorem path_missing (ex : Text → Bool) {d f : Text} (hd : d ≠ []) (hl : d.getLast? ≠ some '/')
    (hex : ex d = false) (hs : '/' ∉ f) : validate ex (d ++ '/' :: f) logName "txt".toList = none := by
  unfold validate
  rw [parent_slash d hs hd hl, if_pos ⟨hd, hex⟩]

/-- C169: a name without extension is a directory if it exists, and else gets the extension. -/
theorem path_no_extension (ex : Text → Bool) {f : Text} (hs : '/' ∉ f) (hne : f ≠ [])
    (hd : '.' ∉ f) : validate ex f logName "txt".toList =
      some (if ex f then f ++ "/log.txt".toList else f ++ ".txt".toList) := by
  unfold validate
  have hp : parent f = [] := by simp [parent, (filename_plain hs).2]
  have hx : hasExt f = false := by
    unfold hasExt
    cases f with
    | nil => simp at hne
    | cons a f => simp only [List.mem_cons, not_or] at hd; simp [hd.2]
  rw [hp, (filename_plain hs).1, if_neg (by simp), if_neg hne, if_pos hx]
  split <;> simp_all [logName]

theorem hasExt_txt {n : Text} (hn : n ≠ []) : hasExt (n ++ ".txt".toList) = true := by
  refine (stem_of hn (e := "txt".toList) (by decide) ?_).2
  cases n with
  | nil => simp at hn
  | cons a n => simp; intro _ h; have := congrArg List.length h; simp at this

/-- C169: a path that has been completed stays as it is. -/
theorem validate_idem (ex : Text → Bool) {p q : Text}
    (h : validate ex p logName "txt".toList = some q) :
    validate ex q logName "txt".toList = some q := by
  have hkeep : ∀ q, ¬ (parent q ≠ [] ∧ ex (parent q) = false) → hasExt (filename q) = true →
      validate ex q logName "txt".toList = some q := by
    intro q h1 h2
    unfold validate
    rw [if_neg h1, if_neg (by intro h; rw [h] at h2; exact absurd h2 (by decide)),
      if_neg (by simp [h2])]
  have h0 := h
  unfold validate at h
  split at h
  · simp at h
  next hpar =>
  split at h
  · next hfn =>
    cases h
    rcases path_cases p with hp | ⟨d, f, rfl, hf⟩
    · rw [(filename_plain hp).1] at hfn
      subst hfn
      exact path_name ex (n := "log".toList) (e := "txt".toList) (by decide) (by decide) (by decide)
        (by decide) (by decide)
    · rw [(filename_slash d hf).1] at hfn
      subst hfn
      have hl := filename_slash d (f := logName) (by decide)
      have hd := filename_slash d (f := []) (by decide)
      have e : d ++ ['/'] ++ logName = d ++ '/' :: logName := by simp
      rw [e]
      apply hkeep
      · unfold parent at hpar ⊢
        rw [hl.2]; rw [hd.2] at hpar; exact hpar
      · rw [hl.1]; decide
  next hfn =>
  split at h
  · next hx =>
    split at h
    · next hexp =>
      cases h
      have hl := filename_slash p (f := logName) (by decide)
      apply hkeep
      · rw [parent_slash p (by decide) (by rintro rfl; exact hfn rfl) ?_]
        · simp [hexp]
        · intro hlast
          apply hfn
          obtain ⟨r, rfl⟩ : ∃ r, p = r ++ ['/'] := by
            rw [List.getLast?_eq_some_iff] at hlast; exact hlast
          exact (filename_slash r (f := []) (by decide)).1
      · rw [hl.1]; decide
    · cases h
      have e : p ++ '.' :: "txt".toList = p ++ ".txt".toList := rfl
      rw [e]
      rcases path_cases p with hp | ⟨d, f, rfl, hf⟩
      · have hs : '/' ∉ p ++ ".txt".toList := by simp [hp]
        rw [(filename_plain hp).1] at hfn
        apply hkeep
        · have hpp : parent (p ++ ".txt".toList) = [] := by
            unfold parent; rw [(filename_plain hs).2]; rfl
          rw [hpp]; simp
        · rw [(filename_plain hs).1]; exact hasExt_txt hfn
      · have hs : '/' ∉ f ++ ".txt".toList := by simp [hf]
        rw [(filename_slash d hf).1] at hfn
        have e : d ++ '/' :: f ++ ".txt".toList = d ++ '/' :: (f ++ ".txt".toList) := by simp
        rw [e]
        apply hkeep
        · unfold parent at hpar ⊢
          rw [(filename_slash d hs).2]; rw [(filename_slash d hf).2] at hpar; exact hpar
        · rw [(filename_slash d hs).1]; exact hasExt_txt hfn
  · cases h; exact h0

/-- C169: after setting the path of the log the following messages go to that file. -/
theorem setPath_target (fs : Fs) {p q : Text} {w w' : World} (hp : p ≠ [])
    (hv : validate fs.ex p logName "txt".toList = some q) (hon : w.opts.noLog = false)
    (ho : fs.canOpen q = true) (hc : w.current ≠ q) (h : setPath fs p w = some w') :
    Target fs w' q ∧ w'.file = some q ∧ w'.firstFile = true ∧
      w'.disk = (if w.opts.append then w.disk else setDisk w.disk q []) := by
  have hq := validate_ne (by decide) hv
  unfold setPath at h
  rw [hv] at h
  dsimp only at h
  rw [if_neg (by simp [hp, hc])] at h
  simp only [createFile, createPath, stopFile, hon, if_neg hq, validate_idem fs.ex hv, ho,
    Bool.false_eq_true, if_false, Option.isSome_none, Bool.true_eq_false] at h
  cases ha : w.opts.append <;> simp only [ha, Bool.false_eq_true, if_false, if_true,
    Option.map_some, Option.some.injEq] at h <;> subst h <;>
    exact ⟨⟨rfl, hq, validate_idem fs.ex hv, ho⟩, rfl, rfl, rfl⟩

/-- C169 fails: an existing directory with a dot in its name, without final separator, is taken for
a file. -/
theorem path_dotted_fails : ∃ (ex : Text → Bool) (d : Text), ex d = true ∧
    validate ex d logName "txt".toList ≠ some (d ++ "/log.txt".toList) :=
  ⟨fun _ => true, "run.1".toList, rfl, by decide⟩

example : validate (fun p => p = "out".toList) "out/a.log".toList logName "txt".toList =
    some "out/a.log".toList := by decide

example : validate (fun p => p = "out".toList) "out".toList logName "txt".toList =
    some "out/log.txt".toList := by decide

/-! ### Single messages through the library -/

theorem fmt0_plain : ∀ {t : Text}, '{' ∉ t → '}' ∉ t → fmt0 t = some t := by
  intro t
  induction t with
  | nil => intros; rfl
  | cons c t ih =>
    intro h1 h2
    simp only [List.mem_cons, not_or] at h1 h2
    have e := ih h1.2 h2.2
    unfold fmt0
    split
    · next h => simp at h
    · next h => simp only [List.cons.injEq] at h; exact absurd h.1.symm h1.1
    · next h => simp only [List.cons.injEq] at h; exact absurd h.1.symm h2.1
    · next c' r _ _ h =>
      simp only [List.cons.injEq] at h
      obtain ⟨rfl, rfl⟩ := h
      rw [if_neg (by simp [Ne.symm h1.1, Ne.symm h2.1]), e]
      rfl

/-- C169: a message without braces given to the library is shown and written as it is. -/
theorem message_partial (fs : Fs) {q pre text : Text} {w : World} (ht : Target fs w q)
    (hc : w.opts.noStdout = false) (hf : w.file = some q) (h1 : w.firstFile = false)
    (h2 : w.firstConsole = false) (hl : .info ∈ upTo w.level) (ho : w.only = []) (hs : w.skip = [])
    (hp : '{' ∉ pre ∧ '}' ∉ pre) (hb : '{' ∉ text ∧ '}' ∉ text) :
    ∃ w', seLogMessage fs pre text w = some w' ∧
      w'.console = w.console ++ [.msg (pre ++ text ++ ['\n'])] ∧
      w'.disk q = w.disk q ++ [.msg (pre ++ text ++ ['\n'])] := by
  have hfm : fmt0 (pre ++ text ++ ['\n']) = some (pre ++ text ++ ['\n']) :=
    fmt0_plain (by simp [hp.1, hb.1]) (by simp [hp.2, hb.2])
  have hm : InModule "esminiLib.cpp".toList "esminiLib".toList :=
    ⟨by decide, by decide, [], "cpp".toList, .inl rfl, by decide, by decide, by decide, by decide⟩
  let m : Msg := ⟨.info, "esminiLib".toList, pre ++ text ++ ['\n']⟩
  have hw : Wanted w.level w.only w.skip m := ⟨hl, by simp [ho], by simp [hs]⟩
  refine ⟨emit fs m.text (arm w), ?_, ?_, ?_⟩
  · unfold seLogMessage
    rw [hfm]
    have := log_eq fs w m _ hm
    rw [if_pos hw, if_pos (.inl ht.on)] at this
    exact this
  · have := (emit_spec fs m.text (arm w)).2.2.2.2.2.2.2.2.2.1
    rw [this]
    simp [arm, hc, h2, m]
  · have := (emit_file (w := arm w) ⟨ht.on, ht.path, ht.valid, ht.open_⟩ (by simp [arm, ht.on])
      (.inr hf) m.text).2.2 q
    rw [this, if_pos rfl]
    simp [arm, hf, h1, m]

/-- A file system where everything can be written. -/
def anyFs : Fs := ⟨fun _ => true, fun _ => true⟩

/-- The world after a first message with default options. -/
def begun : World := emit anyFs "a".toList {}

example : Target anyFs begun "log.txt".toList :=
  ⟨rfl, by decide, by decide, rfl⟩

example : begun.file = some "log.txt".toList ∧ begun.firstFile = false ∧
    begun.firstConsole = false ∧ begun.disk "log.txt".toList = [.version, .msg "a".toList] := by decide

example : Logs [.log .debug "x/Server.cpp".toList (some "m".toList),
      .log .error "Server.cpp".toList (some "n".toList)]
    [⟨.debug, "Server".toList, "m".toList⟩, ⟨.error, "Server".toList, "n".toList⟩] :=
  .cons (m := ⟨.debug, "Server".toList, "m".toList⟩) (f := "x/Server.cpp".toList)
    ⟨by decide, by decide, "x/".toList, "cpp".toList, .inr ⟨"x".toList, rfl⟩, by decide, by decide,
      by decide, by decide⟩
    (.cons (m := ⟨.error, "Server".toList, "n".toList⟩) (f := "Server.cpp".toList)
      ⟨by decide, by decide, [], "cpp".toList, .inl rfl, by decide, by decide, by decide, by decide⟩
      .nil)

example : wanted { only := ["Server".toList] } [⟨.debug, "Server".toList, "m".toList⟩,
    ⟨.error, "Server".toList, "n".toList⟩, ⟨.error, "Replay".toList, "o".toList⟩] = ["n".toList] := by
  decide

/-- C169 fails: a message with a brace given to the library throws, in any state in which information
is logged. -/
theorem message_fails (fs : Fs) (w : World) (hl : .info ∈ upTo w.level) (ho : w.only = [])
    (hs : w.skip = []) (hn : w.opts.noLog = false) (pre : Text) (hp : '{' ∉ pre ∧ '}' ∉ pre) :
    seLogMessage fs pre "{".toList w = none := by
  have hf : fmt0 (pre ++ "{".toList ++ ['\n']) = none := by
    induction pre with
    | nil => decide
    | cons c pre ih =>
      simp only [List.mem_cons, not_or] at hp
      obtain ⟨hp1, hp2⟩ := hp
      have e := ih ⟨hp1.2, hp2.2⟩
      simp only [List.cons_append]
      unfold fmt0
      split
      · next h => simp at h
      · next h => simp only [List.cons.injEq] at h; exact absurd h.1.symm hp1.1
      · next h => simp only [List.cons.injEq] at h; exact absurd h.1.symm hp2.1
      · next c' r _ _ h =>
        simp only [List.cons.injEq] at h
        obtain ⟨rfl, rfl⟩ := h
        rw [if_neg (by simp [Ne.symm hp1.1, Ne.symm hp2.1]), e]
        rfl
  unfold seLogMessage log
  rw [hf, if_neg ((level_iff w.level .info).2 hl), if_neg (by simp [shouldLog, ho, hs])]
  simp [hn]

/-- C169 fails: doubled braces are written once. -/
theorem message_braces_fails : ∃ w', seLogMessage anyFs [] "{{}}".toList begun = some w' ∧
    w'.console = begun.console ++ [.msg "{}\n".toList] := ⟨_, rfl, by decide⟩

/-- C169 fails: the line with the time of the start goes to the console though that is disabled, if
no message came before. -/
theorem time_line_fails : ∃ w' , run anyFs {} [.setOpts { noStdout := true }, .timeOnly "t".toList] =
    some w' ∧ w'.console = [.version, .msg "t".toList] := ⟨_, rfl, by decide⟩

/-- C169 fails: with console and file disabled callbacks get nothing. -/
theorem callback_fails : ∃ w', run anyFs {} [.register 1, .setOpts { noStdout := true, noLog := true },
    .log .error "a.cpp".toList (some "m".toList)] = some w' ∧ w'.calls = [] := ⟨_, rfl, by decide⟩

/-- C169 fails: a buffer that is asked to hold less messages does not shrink. -/
theorem buffer_fails : ∃ w', run anyFs {} [.setCap 2, .log .error "a.cpp".toList (some "1".toList),
    .log .error "a.cpp".toList (some "2".toList), .setCap 1,
    .log .error "a.cpp".toList (some "3".toList)] = some w' ∧
    w'.cap = 1 ∧ w'.buffer = ["2".toList, "3".toList] := ⟨_, rfl, rfl, by decide⟩

/-- C169 fails: a path set during the run is not used, messages still go to the first file. -/
theorem setPath_fails : ∃ w', log anyFs .info "a.cpp".toList (some "m".toList)
      (seSetPath "b.txt".toList begun) = some w' ∧
    w'.disk "b.txt".toList = [] ∧ w'.disk "log.txt".toList = [.version, .msg "a".toList, .msg "m".toList] :=
  ⟨_, rfl, by decide, by decide⟩

/-- C169 fails: asking for the version writes to the open file if the file is disabled, and else not. -/
theorem version_fails :
    (∃ w', version anyFs begun = some w' ∧ w'.disk = begun.disk) ∧
    (∃ w', version anyFs { begun with opts := { noLog := true } } = some w' ∧
      w'.disk "log.txt".toList = begun.disk "log.txt".toList ++ [.version]) :=
  ⟨⟨_, rfl, rfl⟩, ⟨_, rfl, by decide⟩⟩

end Verif.Log
