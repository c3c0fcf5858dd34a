import Verif.Model.Py

/-!
# Which arrays `DriveCC` sets up, reads and updates

Model of the substring dispatch in `/repo/UT2/test.py` (class `SetupCC`, `DriveCC`), `/repo/UT2/tamps.py` and
`/repo/UT2/cc_eqns.py`. A rank `k` stands for the amplitudes `t{k}aa` and the denominators `D{k}aa`. The numerical
content is in the einsum models.
-/

namespace Verif.Drive
open Verif.Py

inductive Err | keyError | unboundLocal | nameError | attributeError
  deriving DecidableEq, Repr

/-- Ranks with denominators: `get_denomsSlow` (`test.py:36-48`). -/
def denomRanks (s : String) : List ℕ :=
  (if hasSub "S" s then [1] else []) ++ (if hasSub "D" s then [2] else []) ++ (if hasSub "T" s then [3] else []) ++
    (if hasSub "UT2" s || hasSub "X" s || hasSub "Qdebug" s || hasSub "Q" s then [4] else [])

/-- Ranks with amplitudes: `set_tampsSLOW` (`tamps.py:4-27`). -/
def ampRanks (s : String) : List ℕ :=
  (if hasSub "S" s then [1] else []) ++ (if hasSub "D" s then [2] else []) ++ (if hasSub "T" s then [3] else []) ++
    (if hasSub "Q" s then [4] else [])

/-- Ranks in the DIIS vector: `get_oldvec` (`tamps.py:30-47`), before looking the arrays up. -/
def vecRanks (s : String) : Option (List ℕ) :=
  if hasSub "DQ" s then some [2, 4]
  else if hasSub "SDT" s then some [1, 2, 3]
  else if hasSub "SD" s then some [1, 2]
  else if hasSub "D" s then some [2]
  else none

/-- Ranks whose amplitudes and denominators `cceqns_driver` reads, and whose amplitudes it replaces
(`cc_eqns.py:15-65`). Without any of the four substrings it does nothing. -/
def eqnRanks (s : String) : List ℕ :=
  if hasSub "CCSDT" s then [1, 2, 3]
  else if hasSub "CCSD" s then [1, 2]
  else if hasSub "CCDQ" s then [2, 4]
  else if hasSub "D" s then [2]
  else []

/-- Every requested key is present. -/
def lookupAll (have' want : List ℕ) : Except Err Unit :=
  if want.all (fun k => have'.contains k) then .ok () else .error .keyError

/-- `DriveCC.__init__` (`test.py:152-175`): the first guess reads `D2aa`; with DIIS the vector is built as well. -/
def init (s : String) (diis : Bool) : Except Err Unit :=
  match lookupAll (denomRanks s) [2] with
  | .error e => .error e
  | .ok _ =>
    if diis then
      match vecRanks s with
      | none => .error .unboundLocal
      | some v => lookupAll (ampRanks s) v
    else .ok ()

/-- One call of `cceqns_driver`. -/
def equations (s : String) : Except Err Unit :=
  match lookupAll (ampRanks s) (eqnRanks s) with
  | .error e => .error e
  | .ok _ => lookupAll (denomRanks s) (eqnRanks s)

/-- The end of `DriveCC.kernel` and `finalizeCC` (`test.py:208-235`): without convergence `sys.exit()`, but `sys` is
not imported; a name with `(` asks `perturbE_driver` for corrections, which returns `None` unless the name contains
`(qf)` (`cc_energy.py:46-88`), and `None` has no `keys`. -/
def finish (s : String) (converged : Bool) : Except Err Unit :=
  if converged then
    if hasSub "(" s then (if hasSub "(qf)" s then .ok () else .error .attributeError) else .ok ()
  else .error .nameError

end Verif.Drive
