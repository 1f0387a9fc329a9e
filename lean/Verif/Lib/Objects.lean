import Verif.Entities.Model
/-!
Settings of an object by its id, and the deletion of an object with its controllers.
Code: EnvironmentSimulator/Libraries/esminiLib/esminiLib.cpp:170-186, 1163-1185, 1372-1413,
EnvironmentSimulator/Modules/ScenarioEngine/SourceFiles/Entities.cpp:134-144, ScenarioReader.cpp:122-135.

Simplifications: the settings (lane types to snap to, lock on lane) are the set of objects they were accepted for. The vector of
controllers is its memory and its size; memory past the size keeps the old pointers, as with the common implementations of
`std::vector::erase` (reading it is undefined behaviour in the standard). A deleted controller is one in `freed`; using it ends the model.
-/
namespace Verif.Lib
open Verif.Entities (Reg getObjectById upd seDeleteObject addObject)

/-- `SE_SetSnapLaneTypes` and `SE_SetLockOnLane`: returned number and the object changed (esminiLib.cpp:1372-1413). -/
def setById (r : Reg) (id : Int) : Int × Option Nat :=
  match getObjectById r id with
  | none => (-1, none)
  | some o => bif decide (0 ≤ id) && decide (id < r.active.length) then (0, some o) else (-1, none)

/-- The vector `controllers_`, the deleted controllers, and those still registered in the reader. -/
structure Ctrls where
  mem : List Nat
  size : Nat
  freed : List Nat
  reader : List Nat
deriving DecidableEq, Repr

/-- The controllers of the object. -/
def Ctrls.list (c : Ctrls) : List Nat := c.mem.take c.size

/-- `erase(remove(..))` of the vector: the kept ones move to the front, the memory behind is left as it was. -/
def Ctrls.erase (c : Ctrls) (x : Nat) : Ctrls :=
  { c with mem := c.list.filter (· ≠ x) ++ c.mem.drop (c.list.filter (· ≠ x)).length, size := (c.list.filter (· ≠ x)).length }

/-- Use of a controller. -/
def Ctrls.use (c : Ctrls) (x : Nat) : Option Unit := bif decide (x ∈ c.freed) then none else some ()

/-- `Object::UnassignController` (Entities.cpp:134-144). -/
def unassign (c : Ctrls) (x : Nat) : Option Ctrls := do
  bif decide (x ∈ c.list) then c.use x else some ()
  return c.erase x

/-- `ScenarioReader::RemoveController` (ScenarioReader.cpp:122-135). -/
def removeCtrl (c : Ctrls) (x : Nat) : Ctrls :=
  bif decide (x ∈ c.reader) then { c with freed := x :: c.freed, reader := c.reader.erase x } else c

/-- One round of the loop of `SE_DeleteObject`: the reference names a place, not a controller (esminiLib.cpp:1174-1179). -/
def deleteRound (c : Ctrls) (i : Nat) : Option Ctrls := do
  let x ← c.mem[i]?
  let c ← unassign c x
  let y ← c.mem[i]?
  c.use y
  return removeCtrl c y

/-- The loop; its end was fixed before. -/
def deleteLoop : Nat → Nat → Ctrls → Option Ctrls
  | 0, _, c => some c
  | n + 1, i, c => (deleteRound c i).bind fun c => deleteLoop n (i + 1) c

/-- `SE_DeleteObject` on the controllers of the object. -/
def deleteControllers (ctrls reader : List Nat) : Option Ctrls := deleteLoop ctrls.length 0 ⟨ctrls, ctrls.length, [], reader⟩

/-- As long as ids are the places in the list, as without any deletion or deactivation, a setting is accepted exactly for the ids
of existing objects and changes that object. Missing: registries with gaps. -/
theorem setById_partial {r : Reg} (hp : r.pool = []) (hid : ∀ (i : Nat) o, r.active[i]? = some o → r.idOf o = (i : Int)) (id : Int) :
    ((setById r id).1 = 0 ↔ ∃ o, o ∈ r.active ∧ r.idOf o = id) ∧ ∀ o, (setById r id).2 = some o → o ∈ r.active ∧ r.idOf o = id := by
  have hg : getObjectById r id = r.active.find? (fun o => r.idOf o = id) := by
    unfold getObjectById
    rw [hp]
    cases r.active.find? fun o => decide (r.idOf o = id) <;> rfl
  unfold setById
  rw [hg]
  cases hf : r.active.find? (fun o => decide (r.idOf o = id)) with
  | none =>
    simp only [List.find?_eq_none, decide_eq_true_eq] at hf
    refine ⟨⟨fun h => by simp at h, fun ⟨o, h1, h2⟩ => absurd h2 (hf o h1)⟩, by simp⟩
  | some o =>
    have h1 := List.mem_of_find?_eq_some hf
    have h2 : r.idOf o = id := by simpa using List.find?_some hf
    obtain ⟨i, hi, rfl⟩ := List.getElem_of_mem h1
    have h3 := hid i _ (List.getElem?_eq_getElem hi)
    have h4 : (0 ≤ id ∧ id < (r.active.length : Int)) := by omega
    simp only [h4.1, h4.2, decide_true, Bool.and_self, cond_true]
    refine ⟨⟨fun _ => ⟨_, h1, h2⟩, fun _ => trivial⟩, ?_⟩
    intro o ho
    rw [Option.some.injEq] at ho
    exact ho ▸ ⟨h1, h2⟩

/-- Objects that are added only have their places as ids. -/
theorem added_ids {r r' : Reg} {o : Nat} {k : Int} {n : Nat} (hid : ∀ (i : Nat) o, r.active[i]? = some o → r.idOf o = (i : Int))
    (hn : r.nextId = r.active.length) (ho : o ∉ r.active) (ht : r.trailer o = none) (h : addObject (n + 1) r o true = some (r', k)) :
    (∀ (i : Nat) o, r'.active[i]? = some o → r'.idOf o = (i : Int)) ∧ r'.nextId = r'.active.length ∧ r'.pool = r.pool := by
  simp only [addObject, ht, Option.some.injEq, Prod.mk.injEq] at h
  obtain ⟨rfl, -⟩ := h
  refine ⟨?_, by simp [Verif.Entities.addSelf, hn], by simp [Verif.Entities.addSelf]⟩
  intro i p hp
  simp only [Verif.Entities.addSelf, if_true] at hp ⊢
  rcases Nat.lt_or_ge i r.active.length with hi | hi
  · rw [List.getElem?_append_left hi] at hp
    have hne : p ≠ o := fun he => ho (he ▸ List.mem_of_getElem? hp)
    simp only [upd, hne, if_false]
    exact hid i p hp
  · rw [List.getElem?_append_right hi, List.getElem?_singleton] at hp
    split at hp
    · rw [Option.some.injEq] at hp
      subst hp
      simp only [upd, if_true]
      omega
    · simp at hp

/-- Two objects added and the first deleted: the second exists, and its settings are refused. -/
theorem setById_fails : ∃ (r r1 r2 r3 : Reg) (k : Int), r.active = [] ∧ addObject 1 r 10 true = some (r1, 0) ∧
    addObject 1 r1 11 true = some (r2, k) ∧ seDeleteObject 1 r2 0 = some (r3, 0) ∧
    getObjectById r3 k = some 11 ∧ setById r3 k = (-1, none) := by
  let r := Reg.initial (fun _ => "") (fun _ => none) (fun _ => none) (fun _ => false) (fun _ => false)
  let r1 := Verif.Entities.addSelf r 10 true
  let r2 := Verif.Entities.addSelf r1 11 true
  let r3 := Verif.Entities.removeSelf r2 10
  refine ⟨r, r1, r2, r3, 1, rfl, rfl, rfl, ?_, ?_, ?_⟩ <;> rfl

/-- An object without controllers, or with one: the controller is deleted and out of the registry. -/
theorem delete_one_partial (a : Nat) (reader : List Nat) (h : a ∈ reader) :
    deleteControllers [] reader = some ⟨[], 0, [], reader⟩ ∧
    ∃ c, deleteControllers [a] reader = some c ∧ c.list = [] ∧ c.freed = [a] ∧ c.reader = reader.erase a := by
  refine ⟨rfl, ⟨[a], 0, [a], reader.erase a⟩, ?_, rfl, rfl, rfl⟩
  simp [deleteControllers, deleteLoop, deleteRound, unassign, Ctrls.list, Ctrls.use, Ctrls.erase, removeCtrl, h]

/-- An object with two controllers: the second is deleted in the first round and used in the second. -/
theorem delete_two_fails (a b : Nat) (reader : List Nat) (hab : a ≠ b) (hb : b ∈ reader) :
    (∃ c, deleteRound ⟨[a, b], 2, [], reader⟩ 0 = some c ∧ c.freed = [b] ∧ c.list = [b]) ∧ deleteControllers [a, b] reader = none := by
  have h1 : deleteRound ⟨[a, b], 2, [], reader⟩ 0 = some ⟨[b, b], 1, [b], reader.erase b⟩ := by
    simp [deleteRound, unassign, Ctrls.list, Ctrls.use, Ctrls.erase, removeCtrl, hb, Ne.symm hab]
  refine ⟨⟨_, h1, rfl, rfl⟩, ?_⟩
  rw [deleteControllers]
  show (deleteRound ⟨[a, b], 2, [], reader⟩ 0).bind _ = none
  rw [h1]
  simp [deleteLoop, deleteRound, unassign, Ctrls.list, Ctrls.use]

example : ∃ r1 r2 : Reg, addObject 1 (Reg.initial (fun _ => "") (fun _ => none) (fun _ => none) (fun _ => false) (fun _ => false)) 10 true = some (r1, 0) ∧
    addObject 1 r1 11 true = some (r2, 1) ∧ r2.pool = [] ∧ r2.active = [10, 11] ∧ setById r2 1 = (0, some 11) ∧ setById r2 2 = (-1, none) :=
  ⟨_, _, rfl, rfl, rfl, rfl, rfl, rfl⟩

end Verif.Lib
