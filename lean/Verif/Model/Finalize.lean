import Verif.Model.Py
import Mathlib.Algebra.Field.Basic
import Mathlib.Tactic.Ring

/-!
# Reporting the energies

Model of `UltT2CC.finalize` (`/repo/UT2/kernel.py:226-280`) and of the energy bookkeeping of
`DriveCC.kernel` (`/repo/UT2/test.py:194-195`). Printing is dropped. The perturbative corrections
computed at lines 253-260 and 270 are inputs (`qf`, `ut2`).
-/

namespace Verif.Finalize
open Verif.Py

variable {K : Type} [Field K]

/-- The five names compared at `kernel.py:250`. -/
def qfNames : List String := ["CCD(Qf)", "CCD(Qf*)", "CCSDT(Qf)", "CCSDT(Qf*)", "CCSD(Qf)"]

/-- `finalize(nucE, current_energy, hf_energy)`: returns `(tfinalEnergy, corrE)`. The variables are
threaded in the order of the source: lines 244-248, 250-266, 268-274. `none` would be an unassigned
variable; the proofs show it does not occur. -/
def finalize (ccType : String) (nucE cur hf qf ut2 : K) : Option (K × K) :=
  let s0 : Option (K × K) :=
    if ccType ≠ "CCD(Qf)" then some (cur + nucE, nucE + cur - hf) else none
  let s1 : Option (K × K) :=
    if ccType ∈ qfNames then some (cur + nucE + qf, qf) else s0
  if hasSub "UT2" ccType then s1.map fun p => (cur + nucE + ut2, p.2 + ut2) else s1

/-- `DriveCC.kernel` stores `totalCorrE` and `totalE` (`test.py:194-195`); pairs are
`(totalE, totalCorrE)`. -/
def driveReport (nucE cur hf : K) : K × K := (cur, nucE + cur - hf)

/-- The legacy reporting of `/repo/UT2/run_ccd.py:577-601`: `(tfinalEnergy, corrE)`. -/
def legacyReport (ccType : String) (nucE cur qf : K) : K × K :=
  if ccType = "CCD(Qf)" then (cur + nucE + qf, qf) else (cur + nucE, nucE + cur)

end Verif.Finalize
