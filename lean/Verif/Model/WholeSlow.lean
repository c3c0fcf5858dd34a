import Verif.Model.Kernel
import Verif.Model.Diis
import Verif.Model.Driver
import Verif.Model.Resid
import Verif.Model.XccdBase
import Verif.Model.Finalize
import Mathlib.Data.Fintype.Prod
import Mathlib.Data.Finset.Attach
import Mathlib.Algebra.Group.Pi.Basic

/-!
# A spin-orbital calculation from start to end

`UltT2CC.kernel` (`/repo/UT2/kernel.py` 282-475) with its parts filled in for `cc_label == "ccdTypeSlow"` and the methods
that use `t2residEqnsSlow.residMain` (CCD, LCCD, pCCD, `XCCD(n)`, `UT2-CCD(n)`): the residual, DIIS, the energy of
`t2energySlow.ccd_energyMain`, and the perturbative energy added by `finalize`. Numbers are real, not floating point.
`D 0` are the occupied, `D 1` the virtual spin orbitals. UCC(4) and CCSD(Qf), which have drivers of their own, are not
covered. The blocks `t2bb` and `t2ab` of the DIIS vector are `resid_aaaa*0.0` (`t2residEqnsSlow.py` 80, 82) in every pass;
they are left out of the vector.
-/

namespace Verif.WholeSlow

open Verif.Ein Verif.UT2 Verif.Kernel Verif.Py

variable {I : Type} [DecidableEq I] [Inhabited I] (D : Nat → Finset I)

/-- Positions in the DIIS vector (`kernel.py` 361-367), the block `t2aa`. -/
abbrev Slot : Type := {a // a ∈ D 1} × {a // a ∈ D 1} × {i // i ∈ D 0} × {i // i ∈ D 0}

/-- `t2aa.flatten()` (`kernel.py` 363). -/
def pack (S : SO I ℝ) : Slot D → ℝ := fun ⟨a, b, i, j⟩ => S.t2 a b i j

/-- The slice and `reshape` of `kernel.py` 428; entries that the Python array does not have are left alone. -/
def unpack (v : Slot D → ℝ) (S : SO I ℝ) : SO I ℝ :=
  { S with
    t2 := fun a b i j =>
      if h : a ∈ D 1 ∧ b ∈ D 1 ∧ i ∈ D 0 ∧ j ∈ D 0 then v (⟨a, h.1⟩, ⟨b, h.2.1⟩, ⟨i, h.2.2.1⟩, ⟨j, h.2.2.2⟩) else S.t2 a b i j }

/-- `self.diis_update` and `self.old_vec`. -/
abbrev Acc : Type := Diis.State (Slot D) × (Slot D → ℝ)

/-- The DIIS section (`kernel.py` 338-436); `on` is `diis_size is not None`. A singular matrix is the error 0. Names with
`"CCDQ"` in them read `self.tamps["t4aaaa"]` (348-359), which these calculations do not have: the `KeyError` is the error 3. -/
noncomputable def accel (name : String) (on : Bool) (d : Acc D) (S : SO I ℝ) : Except Err (Acc D × SO I ℝ) :=
  if on then
    if Verif.Py.hasSub "CCDQ" name then .error (.other 3) else
    match d.1.newVec (pack D S) (d.2 - pack D S) with
    | none => .error (.other 0)
    | some v => .ok ((d.1.push (pack D S) (d.2 - pack D S), v), unpack D v S)
  else .ok (d, S)

/-- Options of the calculation: `cc_type`, `denom["D2aa"]`, `max_iter`, `stopping_eps`, `diis_size`, `diis_start_cycle`. -/
structure Opts (I : Type) where
  cc_type : String
  d2 : I → I → I → I → ℝ
  maxIter : ℕ
  eps : ℝ
  diis : Option ℕ
  start : ℕ

/-- `self.pertOrder` (`kernel.py` 178). -/
def pertOrder (cc_type : String) : Option (List ℕ) := Driver.extractInteger cc_type.toList

/-- `t2residEqnsSlow.py` 55-58: the sum of the base terms of the orders. `none`: an order that is not modelled. -/
noncomputable def xccTerms (S : SO I ℝ) (orders : List ℕ) : Option (I → I → I → I → ℝ) :=
  orders.foldlM (fun x order => (build_XCCDbase D S order).map (x + ·)) 0

/-- `t2residEqnsSlow.residMain` with `xccd_resids = "X" in cc_type` (`kernel.py` 122). Iterating over `None` is a
`TypeError`, the error 2; the error 1 stands for the orders of `build_XCCDbase` that are not modelled. -/
noncomputable def resid (cc_type : String) (d2 : I → I → I → I → ℝ) (S : SO I ℝ) : Except Err (SO I ℝ) :=
  if hasSub "X" cc_type then
    match pertOrder cc_type with
    | none => .error (.other 2)
    | some l =>
      match xccTerms D S l with
      | none => .error (.other 1)
      | some x => .ok (residMainSlow D cc_type (fun _ => x) d2 S)
  else .ok (residMainSlow D cc_type (fun _ _ _ _ _ => 0) d2 S)

/-- `add_XCCenergy(factorization, ccd_kernel)` with the orders of the method. -/
noncomputable def pertEnergy (cc_type : String) (d2 : I → I → I → I → ℝ) (factorization : Bool) (S : SO I ℝ) : Except Err ℝ :=
  match pertOrder cc_type with
  | none => .error (.other 2)
  | some l =>
    match add_XCCenergy D S d2 factorization l with
    | none => .error (.other 1)
    | some e => .ok e

/-- `XCCD_Flag` (`t2energySlow.py` 32, 33). -/
def xccdFlag (cc_type : String) : Bool :=
  ["XCCD(5)", "XCCD(6)", "XCCD(7)", "XCCD(8)", "XCCD(9)"].any fun m => hasSub m cc_type

/-- `t2energySlow.ccd_energyMain(ccd_kernel)` (`t2energySlow.py` 14-63) without the flag `get_perturbCorr`. -/
noncomputable def energy (cc_type : String) (d2 : I → I → I → I → ℝ) (S : SO I ℝ) : Except Err ℝ :=
  if xccdFlag cc_type then (pertEnergy D cc_type d2 false S).map (ccdEnergy D S + ·) else .ok (ccdEnergy D S)

/-- The parts of `UltT2CC.kernel`. -/
noncomputable def cfg (o : Opts I) : Cfg (SO I ℝ) (Acc D) ℝ where
  maxIter := o.maxIter
  eps := o.eps
  resid S _ := resid D o.cc_type o.d2 S
  accel := accel D o.cc_type o.diis.isSome
  energy := energy D o.cc_type o.d2
  dag := id

/-- The amplitudes set before the first pass (`kernel.py` 301): `g[va,va,oa,oa]*D2`. -/
noncomputable def start (d2 : I → I → I → I → ℝ) (S : SO I ℝ) : SO I ℝ := { S with t2 := fun a b i j => S.g a b i j * d2 a b i j }

/-- The object before the first pass. `old_vec` is made by `__init__` (`kernel.py` 141) when the amplitudes are zero. -/
noncomputable def initial (o : Opts I) (S : SO I ℝ) : St (SO I ℝ) (Acc D) := ⟨start o.d2 S, S, (Diis.init (o.diis.getD 0) o.start, 0)⟩

/-- The calculation with the integrals in `S`. -/
noncomputable def calculate (o : Opts I) (S : SO I ℝ) : Except Err (Res (SO I ℝ) (Acc D) ℝ) := (cfg D o).run (initial D o S)

/-- `finalize` (`kernel.py` 226-280): total energy and `corrE`. For the "(Qf)" names and the names with "UT2" the
factorised perturbative energy of the returned amplitudes is computed. -/
noncomputable def finish (o : Opts I) (nucE hf : ℝ) (r : Res (SO I ℝ) (Acc D) ℝ) : Except Err (Option (ℝ × ℝ)) :=
  if o.cc_type ∈ Finalize.qfNames ∨ hasSub "UT2" o.cc_type = true then
    (pertEnergy D o.cc_type o.d2 true r.st.amps).map fun e => Finalize.finalize o.cc_type nucE r.energy hf e e
  else .ok (Finalize.finalize o.cc_type nucE r.energy hf 0 0)

end Verif.WholeSlow
