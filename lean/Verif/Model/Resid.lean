import Verif.Fn.All

/-!
# One pass of the residual drivers

`t2residEqnsSlow.residMain`, `t2residEqns.residMain` and `drive_ucc4.resid_main`: evaluate the residual with the
einsum functions, add `reciprocal(D2)*t2`, multiply by `D2`, and store the new amplitudes. An array entry is a
function of orbitals; only entries with virtual and occupied orbitals in the right places belong to the Python
arrays, the same formula is used for all of them.
-/

namespace Verif.UT2

open Verif.Ein

variable {I K : Type} [Field K] [Inhabited I] (D : Nat → Finset I)

/-- `t2residEqnsSlow.py` 35-50: the CCD residual, for `LCCD` minus the offset. The terms added for
`ccd_kernel.xccd_resids` (53-59) are the argument `x`, a function of the
amplitudes. The early return for
`cc_label == "UCC(4)"` (47-48) is not modelled: no caller sets that label. -/
def residSlow (cc_type : String) (x : SO I K → I → I → I → I → K) (A : SO I K) (a b i j : I) : K :=
  if cc_type = "pCCD" then ccd_t2residual D A a b i j + x A a b i j
  else if cc_type = "LCCD" then ccd_t2residual D A a b i j - doubles_resLCCDoffset D A a b i j + x A a b i j
  else ccd_t2residual D A a b i j + x A a b i j

/-- `t2residEqnsSlow.py` 10-105, `residMain`: the arrays after one pass. For `pCCD` only the entries `[a,a,i,i]`
of the new amplitudes are stored (72-80). -/
def residMainSlow [DecidableEq I] (cc_type : String) (x : SO I K → I → I → I → I → K) (d2 : I → I → I → I → K)
    (A : SO I K) : SO I K :=
  { A with
    t2 := fun a b i j =>
      if cc_type = "pCCD" then
        if a = b ∧ i = j then (residSlow D cc_type x A a b i j + (d2 a b i j)⁻¹ * A.t2 a b i j) * d2 a b i j else 0
      else (residSlow D cc_type x A a b i j + (d2 a b i j)⁻¹ * A.t2 a b i j) * d2 a b i j }

/-- `drive_ucc4.py` 27-93, `resid_main`: the arrays after one pass; `t2_dag` is the transpose of `t2` (48). -/
def residUcc4 (d1 : I → I → K) (d2 : I → I → I → I → K) (d3 : I → I → I → I → I → I → K) (A : SO I K) : SO I K :=
  let B : SO I K := { A with l2 := fun i j a b => A.t2 a b i j }
  { A with
    t1 := fun a i => (t1_residEqns D B a i + (d1 a i)⁻¹ * A.t1 a i) * d1 a i
    t2 := fun a b i j =>
      (ccd_t2residual D B a b i j - offset_t2resid_t2squared D B a b i j + offset_t2resid_t2dag_w_t2 D B a b i j
        + offset_t2resid_T1_T3 D B a b i j + (d2 a b i j)⁻¹ * A.t2 a b i j) * d2 a b i j
    t3 := fun a b c i j k => (t3_resid D B a b c i j k + (d3 a b c i j k)⁻¹ * A.t3 a b c i j k) * d3 a b c i j k }

/-- `kernel.py` 204-206, `set_l2amps()`: the de-excitation amplitudes are the transposed amplitudes. -/
def set_l2amps (A : SI I K) : SI I K :=
  { A with
    l2_aaaa := fun i j a b => A.t2_aaaa a b i j
    l2_bbbb := fun i j a b => A.t2_bbbb a b i j
    l2_abab := fun i j a b => A.t2_abab a b i j }

/-- `t2residEqns.py` 54-78: coefficients of the factorised-quadruples corrections. -/
def qfWeights (cc_type : String) : ℚ × ℚ :=
  if cc_type = "CCDQf-1" then (1/2, 0) else if cc_type = "CCDQf-2" then (1/2, 1/6) else (0, 0)

/-- `t2residEqns.py` 49-78: the three blocks of the residual. -/
def resid_aaaa (cc_type : String) (A : SI I K) (a b i j : I) : K :=
  ccd_t2_aaaa D A a b i j + ((qfWeights cc_type).1 : K) * residQf1_aaaa D A a b i j +
    ((qfWeights cc_type).2 : K) * residQf2_aaaa D A a b i j

/-- `t2residEqns.py` 50, 54-78. -/
def resid_bbbb (cc_type : String) (A : SI I K) (a b i j : I) : K :=
  ccd_t2_bbbb D A a b i j + ((qfWeights cc_type).1 : K) * residQf1_bbbb D A a b i j +
    ((qfWeights cc_type).2 : K) * residQf2_bbbb D A a b i j

/-- `t2residEqns.py` 51, 54-78. -/
def resid_abab (cc_type : String) (A : SI I K) (a b i j : I) : K :=
  ccd_t2_abab D A a b i j + ((qfWeights cc_type).1 : K) * residQf1_abab D A a b i j +
    ((qfWeights cc_type).2 : K) * residQf2_abab D A a b i j

/-- `t2residEqns.py` 6-93, `residMain`: the arrays after one pass. -/
def residMain (cc_type : String) (d2aa d2bb d2ab : I → I → I → I → K) (A : SI I K) : SI I K :=
  { A with
    t2_aaaa := fun a b i j => (resid_aaaa D cc_type A a b i j + (d2aa a b i j)⁻¹ * A.t2_aaaa a b i j) * d2aa a b i j
    t2_bbbb := fun a b i j => (resid_bbbb D cc_type A a b i j + (d2bb a b i j)⁻¹ * A.t2_bbbb a b i j) * d2bb a b i j
    t2_abab := fun a b i j => (resid_abab D cc_type A a b i j + (d2ab a b i j)⁻¹ * A.t2_abab a b i j) * d2ab a b i j }

/-- `kernel.py` 320-324: one iteration of the spin-integrated loop. -/
def iterSi (cc_type : String) (d2aa d2bb d2ab : I → I → I → I → K) (A : SI I K) : SI I K :=
  residMain D cc_type d2aa d2bb d2ab (set_l2amps A)

end Verif.UT2
