import Verif.Model.Kernel
import Verif.Model.Drive
import Verif.Fn.All
import Mathlib.Data.Real.Basic

/-!
# A `DriveCC` calculation from start to end

`DriveCC.__init__` and `DriveCC.kernel` (`/repo/UT2/test.py` 151-245) with their parts filled in: the equations of
`cc_eqns.cceqns_driver`, the energy of `cc_energy.ccenergy_driver` and the denominators of `set_denoms.py`. Numbers are real, not
floating point; a denominator `1/0` is `0` here and `inf` there. `D 0` are the occupied, `D 1` the virtual spin orbitals. The entry
`[i,j,a,b]` of the Python array `t2aa` is `t2 a b i j` here.
-/

namespace Verif.WholeDrive

open Verif.Ein Verif.UT2 Verif.Kernel Verif.Py

variable {I : Type} [Inhabited I] (D : Nat → Finset I)

/-- `D1denomSlow` (`set_denoms.py` 3-6), entry `[i,a]`. -/
noncomputable def den1 (ε : I → ℝ) (a i : I) : ℝ := 1 / (-ε a + ε i)

/-- `D2denomSlow` (`set_denoms.py` 8-16), entry `[i,j,a,b]`. -/
noncomputable def den2 (ε : I → ℝ) (a b i j : I) : ℝ := 1 / (-ε a - ε b + ε i + ε j)

/-- `D3denomSlow` (`set_denoms.py` 18-27), entry `[i,j,k,a,b,c]`. -/
noncomputable def den3 (ε : I → ℝ) (a b c i j k : I) : ℝ := 1 / (-ε a - ε b - ε c + ε i + ε j + ε k)

/-- `D4denomSlow` (`set_denoms.py` 30-41), entry `[i,j,k,l,a,b,c,d]`. -/
noncomputable def den4 (ε : I → ℝ) (a b c d i j k l : I) : ℝ := 1 / (-ε a - ε b - ε c - ε d + ε i + ε j + ε k + ε l)

/-- `resid += np.reciprocal(D)*T` and `resid*D` (`cc_eqns.py` 30-34, 45-47, 57-59, 64-65). -/
noncomputable def next (d r t : ℝ) : ℝ := (r + d⁻¹ * t) * d

/-- The branches of `cceqns_driver`. -/
inductive Eqns | ccsdt | ccsd | ccdq | ccd
  deriving DecidableEq

/-- Which branch is taken (`cc_eqns.py` 17, 36, 49, 61). The set-up has failed before for names without a `"D"`. -/
def eqns (s : String) : Eqns :=
  if hasSub "CCSDT" s then .ccsdt else if hasSub "CCSD" s then .ccsd else if hasSub "CCDQ" s then .ccdq else .ccd

/-- `cceqns_driver`, branch `CCSDT` (`cc_eqns.py` 17-34). -/
noncomputable def passCcsdt (ε : I → ℝ) (S : SO I ℝ) : SO I ℝ :=
  { S with
    t1 := fun a i => next (den1 ε a i) (ccsdt_t1eqns D S i a) (S.t1 a i)
    t2 := fun a b i j => next (den2 ε a b i j) (ccsdt_t2eqns D S i j a b) (S.t2 a b i j)
    t3 := fun a b c i j k => next (den3 ε a b c i j k) (ccsdt_t3eqns D S i j k a b c) (S.t3 a b c i j k) }

/-- `cceqns_driver`, branch `CCSD` (`cc_eqns.py` 36-47). -/
noncomputable def passCcsd (ε : I → ℝ) (S : SO I ℝ) : SO I ℝ :=
  { S with
    t1 := fun a i => next (den1 ε a i) (ccsd_t1resid D S i a) (S.t1 a i)
    t2 := fun a b i j => next (den2 ε a b i j) (ccsd_t2resid D S i j a b) (S.t2 a b i j) }

/-- `cceqns_driver`, branch `CCDQ` (`cc_eqns.py` 49-59). -/
noncomputable def passCcdq (ε : I → ℝ) (S : SO I ℝ) : SO I ℝ :=
  { S with
    t2 := fun a b i j => next (den2 ε a b i j) (ccdq_t2eqns D S i j a b) (S.t2 a b i j)
    t4 := fun a b c d i j k l => next (den4 ε a b c d i j k l) (ccdq_t4eqns D S i j k l a b c d) (S.t4 a b c d i j k l) }

/-- `np.zeros((nocc,nvirt))` for the singles (`cc_eqns.py` 63). -/
def noSingles (S : SO I ℝ) : SO I ℝ := { S with t1 := fun _ _ => 0 }

/-- `cceqns_driver`, last branch (`cc_eqns.py` 61-65). -/
noncomputable def passCcd (ε : I → ℝ) (S : SO I ℝ) : SO I ℝ :=
  { S with t2 := fun a b i j => next (den2 ε a b i j) (ccsd_t2resid D (noSingles S) i j a b) (S.t2 a b i j) }

/-- `cceqns_driver` (`cc_eqns.py` 6-65). -/
noncomputable def pass (m : Eqns) (ε : I → ℝ) (S : SO I ℝ) : SO I ℝ :=
  match m with
  | .ccsdt => passCcsdt D ε S
  | .ccsd => passCcsd D ε S
  | .ccdq => passCcdq D ε S
  | .ccd => passCcd D ε S

/-- `ccenergy_driver` (`cc_energy.py` 8-24): the singles are read if they were set up, that is for names with an `"S"`
(`tamps.py` 6-8). -/
noncomputable def energy (name : String) (S : SO I ℝ) : ℝ := if hasSub "S" name then spinorbitalCCSDE D S else spinorbitalCCDE D S

/-- Options: `cc_info["slowSOcalc"]`, orbital energies, `max_iter`, `stopping_eps`, `diis_size`, and the contents of `t2ampFile`
(entry `[i,j,a,b]`). -/
structure Opts (I : Type) where
  cc_type : String
  ε : I → ℝ
  maxIter : ℕ
  eps : ℝ
  diis : Option ℕ
  file : Option (I → I → I → I → ℝ)

/-- The amplitudes before the first pass (`test.py` 167, `tamps.py` 4-29): the doubles of the file, or `tei[o,o,v,v]*D2aa`; all others
are zero. -/
noncomputable def start (o : Opts I) (S : SO I ℝ) : SO I ℝ :=
  { S with
    t1 := fun _ _ => 0
    t2 := fun a b i j => match o.file with
      | some x => x i j a b
      | none => S.g i j a b * den2 o.ε a b i j
    t3 := fun _ _ _ _ _ _ => 0
    t4 := fun _ _ _ _ _ _ _ _ => 0 }

/-- The parts of `DriveCC.kernel`. `self.diis_update` is set up (`test.py` 171-174) but not used in the loop. -/
noncomputable def cfg (o : Opts I) : Cfg (SO I ℝ) Unit ℝ where
  maxIter := o.maxIter
  eps := o.eps
  resid S _ := .ok (pass D (eqns o.cc_type) o.ε S)
  accel d S := .ok (d, S)
  energy S := .ok (energy D o.cc_type S)
  dag := id

/-- `DriveCC(...)` and the loop of `kernel` (`test.py` 151-216) with the integrals in `S`. Names without `"D"` fail in the set-up
with a `KeyError`, the error 3; nothing is missing for the others (C55). -/
noncomputable def calculate (o : Opts I) (S : SO I ℝ) : Except Err (Res (SO I ℝ) Unit ℝ) :=
  if hasSub "D" o.cc_type then (cfg D o).driveRun ⟨start o S, S, ()⟩ else .error (.other 3)

/-- `self.correlationE` at the end. -/
structure Report where
  mp2e : ℝ
  totalCorrE : ℝ
  totalE : ℝ

/-- `self.correlationE` (`test.py` 187, 193, 194) after the loop, and `finalizeCC` (219-237): names with `"("` but without `"(qf)"`
end with an `AttributeError`, the error 4 (C72). -/
noncomputable def finish (o : Opts I) (nucE hf : ℝ) (S : SO I ℝ) (r : Res (SO I ℝ) Unit ℝ) : Except Err Report :=
  if hasSub "(" o.cc_type && !hasSub "(qf)" o.cc_type then .error (.other 4)
  else .ok ⟨energy D o.cc_type (start o S), nucE + r.energy - hf, r.energy⟩

end Verif.WholeDrive
