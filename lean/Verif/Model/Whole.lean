import Verif.Model.Kernel
import Verif.Model.Finalize
import Verif.Model.Diis
import Verif.Model.Resid
import Verif.Fn.All
import Verif.Model.Setup
import Mathlib.Data.Fintype.Prod
import Mathlib.Data.Finset.Attach

/-!
# A spin-integrated calculation from start to end

`UltT2CC.kernel` (`/repo/UT2/kernel.py` 282-475) with its parts filled in for `cc_label == "ccdType"`: the residual code of
`t2residEqns.residMain`, DIIS on the three blocks of the amplitudes, and the energy of `t2energy.ccd_energyMain`. Numbers are
real, not floating point. `D 0` are the occupied, `D 1` the virtual orbitals.
-/

namespace Verif.Whole

open Verif.Ein Verif.UT2 Verif.Kernel

variable {I : Type} [DecidableEq I] [Inhabited I] (D : Nat → Finset I)

/-- Positions in the DIIS vector (`kernel.py` 361-367): block (0 `t2aa`, 1 `t2bb`, 2 `t2ab`) and orbitals. That
`hstack`, slices and `reshape` are inverse to each other is C16. -/
abbrev Slot : Type := Fin 3 × {a // a ∈ D 1} × {a // a ∈ D 1} × {i // i ∈ D 0} × {i // i ∈ D 0}

/-- The block with this number. -/
def block (A : SI I ℝ) (k : Fin 3) : I → I → I → I → ℝ :=
  if k = 0 then A.t2_aaaa else if k = 1 then A.t2_bbbb else A.t2_abab

/-- `np.hstack((t2aa.flatten(), t2bb.flatten(), t2ab.flatten()))` (`kernel.py` 361-367). -/
def pack (A : SI I ℝ) : Slot D → ℝ := fun ⟨k, a, b, i, j⟩ => block A k a b i j

/-- A block read from the vector; entries that the Python array does not have are left alone. -/
def fill (v : Slot D → ℝ) (k : Fin 3) (x : I → I → I → I → ℝ) (a b i j : I) : ℝ :=
  if h : a ∈ D 1 ∧ b ∈ D 1 ∧ i ∈ D 0 ∧ j ∈ D 0 then v (k, ⟨a, h.1⟩, ⟨b, h.2.1⟩, ⟨i, h.2.2.1⟩, ⟨j, h.2.2.2⟩) else x a b i j

/-- The slices and `reshape`s of `kernel.py` 422-435. -/
def unpack (v : Slot D → ℝ) (A : SI I ℝ) : SI I ℝ :=
  { A with
    t2_aaaa := fill D v 0 A.t2_aaaa
    t2_bbbb := fill D v 1 A.t2_bbbb
    t2_abab := fill D v 2 A.t2_abab }

/-- `self.diis_update` and `self.old_vec`. -/
abbrev Acc : Type := Diis.State (Slot D) × (Slot D → ℝ)

/-- The DIIS section (`kernel.py` 338-436); `on` is `diis_size is not None`. A singular matrix is the error 0. Names with
`"CCDQ"` in them read `self.tamps["t4aaaa"]` (348-359), which these calculations do not have: the `KeyError` is the error 3
(C17). Names with `"UCC(4)"` in them, which belong to `ccdTypeSlow`, are not modelled with DIIS; the error 9 stands for them. -/
noncomputable def accel (name : String) (on : Bool) (d : Acc D) (A : SI I ℝ) : Except Err (Acc D × SI I ℝ) :=
  if on then
    if Verif.Py.hasSub "UCC(4)" name then .error (.other 9) else
    if Verif.Py.hasSub "CCDQ" name then .error (.other 3) else
    match d.1.newVec (pack D A) (d.2 - pack D A) with
    | none => .error (.other 0)
    | some v => .ok ((d.1.push (pack D A) (d.2 - pack D A), v), unpack D v A)
  else .ok (d, A)

/-- Options of the calculation: `cc_type`, denominators, `max_iter`, `stopping_eps`, and `diis_size`, `diis_start_cycle`. -/
structure Opts (I : Type) where
  cc_type : String
  d2aa : I → I → I → I → ℝ
  d2bb : I → I → I → I → ℝ
  d2ab : I → I → I → I → ℝ
  maxIter : ℕ
  eps : ℝ
  diis : Option ℕ
  start : ℕ

/-- The parts of `UltT2CC.kernel` for `ccdType`: `residMain` with the de-excitation amplitudes `l` set by `set_l2amps`
(`kernel.py` 204-206, 320-324), DIIS, and the energy (439-440). -/
noncomputable def cfg (o : Opts I) : Cfg (SI I ℝ) (Acc D) ℝ where
  maxIter := o.maxIter
  eps := o.eps
  resid A l := .ok (residMain D o.cc_type o.d2aa o.d2bb o.d2ab { A with l2_aaaa := l.l2_aaaa, l2_abab := l.l2_abab, l2_bbbb := l.l2_bbbb })
  accel := accel D o.cc_type o.diis.isSome
  energy A := .ok (ccd_energy_with_spin D A)
  dag := set_l2amps

/-- The object made by `__init__` (`kernel.py` 124-141): `old_vec` is the vector of the starting amplitudes. -/
def initial (o : Opts I) (A : SI I ℝ) : St (SI I ℝ) (Acc D) := ⟨A, A, (Diis.init (o.diis.getD 0) o.start, pack D A)⟩

/-- The calculation with integrals and starting amplitudes `A`. -/
noncomputable def calculate (o : Opts I) (A : SI I ℝ) : Except Err (Res (SI I ℝ) (Acc D) ℝ) := (cfg D o).run (initial D o A)

/-- Arrays with the de-excitation amplitudes of `l`. -/
def withL2 (A l : SI I ℝ) : SI I ℝ := { A with l2_aaaa := l.l2_aaaa, l2_abab := l.l2_abab, l2_bbbb := l.l2_bbbb }

/-- `t2energy.ccd_energyMain(self, get_perturbCorr=True)` (`t2energy.py` 50-54): amplitudes of the last pass and `self.l2`, which
`set_l2amps` filled before it (`kernel.py` 320). -/
noncomputable def correction (r : Res (SI I ℝ) (Acc D) ℝ) : ℝ := si_energy_pertQf D (withL2 r.st.amps r.st.l2)

/-- `finalize` (`kernel.py` 226-280) for `cc_label == "ccdType"`: total energy and `corrE`. For names with "UT2" it calls
`t2energySlow`, which slices the dictionary of integrals: a `TypeError` (`.other 1`). -/
noncomputable def finish (o : Opts I) (nucE hf : ℝ) (r : Res (SI I ℝ) (Acc D) ℝ) : Except Err (Option (ℝ × ℝ)) :=
  if Verif.Py.hasSub "UT2" o.cc_type = true then .error (.other 1)
  else .ok (Finalize.finalize o.cc_type nucE r.energy hf (if o.cc_type ∈ Finalize.qfNames then correction D r else 0) 0)

end Verif.Whole
