import Verif.Model.Py

/-!
# `StoredInfo` and the amplitude/residual setters

Model of `StoredInfo` (`/repo/UT2/run_ccd.py:19-105`) with Python's reference semantics: dictionaries live
in a heap, fields hold references, and the default arguments `={}` of `__init__` are five dictionaries
created once, when the module is imported. Also `UltT2CC.set_tamps`/`set_resid`
(`/repo/UT2/kernel.py:182-202`).
-/

namespace Verif.Stored
open Verif.Py
variable {V : Type}

/-- The five fields set by `__init__` (`run_ccd.py:42-46`; the `tamps` and `resid` arguments are not
stored). -/
inductive Field | occ | occSlice | denom | ccRun | ints
  deriving DecidableEq

/-- Heap of dictionaries (address = position), and the fields of the current `StoredInfo`. -/
structure St (V : Type) where
  heap : List (Dict V)
  cur : Field → ℕ

/-- Addresses of the shared default dictionaries. -/
def Field.default : Field → ℕ
  | .occ => 0 | .occSlice => 1 | .denom => 2 | .ccRun => 3 | .ints => 4

/-- After importing the module: the defaults are empty. (No `StoredInfo` exists yet; the fields are set
by the first `new`.) -/
def imported : St V := ⟨[[], [], [], [], []], Field.default⟩

/-- What a program does with these objects. -/
inductive Op (V : Type)
  /-- `StoredInfo()` (`run_ccd.py:127`) -/
  | new
  /-- `set_occInfo(d)` etc. with a dictionary created for the purpose (`run_ccd.py:47-65`) -/
  | set (f : Field) (d : Dict V)
  /-- in-place `storedInfo.field.update({k: v})` (as in `run_ccd.py:171`) -/
  | update (f : Field) (k : String) (v : V)

def St.step (s : St V) : Op V → St V
  | .new => { s with cur := Field.default }
  | .set f d => { heap := s.heap ++ [d], cur := fun g => if g = f then s.heap.length else s.cur g }
  | .update f k v => { s with heap := s.heap.modify (s.cur f) (fun d => Dict.set d k v) }

def St.run (s : St V) (ops : List (Op V)) : St V := ops.foldl St.step s

/-- The dictionary a field refers to. -/
def St.dict (s : St V) (f : Field) : Option (Dict V) := s.heap[s.cur f]?

inductive Err | keyError | typeError
  deriving DecidableEq

/-- `get_denoms(key)`, `get_occSliceInfo(key)`, `get_cc_runtype(key)` (`run_ccd.py:67-93`): index, with a
`KeyError` for a missing key. -/
def St.getStrict (s : St V) (f : Field) (k : String) : Except Err V :=
  match s.dict f with
  | none => .error .typeError
  | some d => match d.get? k with
    | some v => .ok v
    | none => .error .keyError

/-- `get_occInfo(key)` (`run_ccd.py:74-79`): `None` for a missing key. -/
def St.getOcc (s : St V) (k : String) : Option V :=
  match s.dict .occ with
  | none => none
  | some d => d.get? k

/-! ## Setters of `UltT2CC` -/

/-- `set_tamps(x, label)` / `set_resid(x, label)`: with a label one entry is set, without one the whole
dictionary is replaced. -/
def setAmps (cur : Dict V) : (Dict V) ⊕ (String × V) → Dict V
  | .inl d => d
  | .inr (k, v) => Dict.set cur k v

end Verif.Stored
