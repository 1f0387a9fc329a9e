/-
Model of `SE_Semaphore`, EnvironmentSimulator/Modules/CommonMini/CommonMini.hpp lines 903-949 (the
branch with mutex and condition variable).

Every member function holds the mutex, so that a call is one atomic event, except `Wait`, which gives
the mutex up inside `cv.wait` and continues later.  Any number of threads may call any function.  The
condition variable follows the C++ standard: `notify_one` wakes one of the waiting threads if there is
one, and a waiting thread may also wake up spuriously.
-/
namespace Verif.Semaphore

/-- Where a thread is: not in `Wait`, in `Wait` and about to return, inside `cv.wait`, woken up by
`notify_one` but not yet back. -/
inductive Pos where
  | out | ready | blocked | notified
deriving Repr, DecidableEq

/-- The flag and the position of every thread. -/
structure St where
  flag : Bool
  pos : Nat → Pos

/-- Constructor, 905-907. -/
def St.init : St := ⟨false, fun _ => .out⟩

/-- What is observed: calls of `Set` and `Release`, the entry into `Wait` and the return from it. -/
inductive Ev where
  | set | release | enter (t : Nat) | ret (t : Nat)
deriving Repr, DecidableEq

/-- Thread `t` moves to position `p`. -/
def St.move (s : St) (t : Nat) (p : Pos) : St := ⟨s.flag, fun u => if u = t then p else s.pos u⟩

/-- The steps; `spurious` says whether spurious wake-ups occur. -/
inductive Step (spurious : Bool) : St → Ev → St → Prop where
  /-- `Set`, 909-917. -/
  | set (s : St) : Step spurious s .set ⟨true, s.pos⟩
  /-- `Release`, 919-928, no thread waiting. -/
  | releaseNone (s : St) (h : ∀ t, s.pos t ≠ .blocked) : Step spurious s .release ⟨false, s.pos⟩
  /-- `Release`, 919-928: `notify_one` wakes thread `t`. -/
  | releaseOne (s : St) (t : Nat) (h : s.pos t = .blocked) :
      Step spurious s .release (St.move ⟨false, s.pos⟩ t .notified)
  /-- `Wait`, 930-939, with the flag down: no waiting. -/
  | enterFree (s : St) (t : Nat) (h : s.pos t = .out) (hf : s.flag = false) :
      Step spurious s (.enter t) (s.move t .ready)
  /-- `Wait`, 930-939, with the flag up: `cv.wait`. -/
  | enterBlock (s : St) (t : Nat) (h : s.pos t = .out) (hf : s.flag = true) :
      Step spurious s (.enter t) (s.move t .blocked)
  /-- Return from `Wait` without having waited. -/
  | retReady (s : St) (t : Nat) (h : s.pos t = .ready) : Step spurious s (.ret t) (s.move t .out)
  /-- Return from `Wait` after a wake-up; the flag is not looked at again. -/
  | retNotified (s : St) (t : Nat) (h : s.pos t = .notified) : Step spurious s (.ret t) (s.move t .out)
  /-- Return from `Wait` after a spurious wake-up. -/
  | retSpurious (s : St) (t : Nat) (h : s.pos t = .blocked) (hs : spurious = true) :
      Step spurious s (.ret t) (s.move t .out)

/-- Executions: the events so far, oldest first, and the state reached. -/
inductive Run (spurious : Bool) : List Ev → St → Prop where
  | nil : Run spurious [] St.init
  | snoc {tr s e s'} : Run spurious tr s → Step spurious s e s' → Run spurious (tr ++ [e]) s'

end Verif.Semaphore
