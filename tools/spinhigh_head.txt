import Verif.Props.SpinProjected
import Verif.Props.Matrix
import Verif.Props.XccdBase
import Verif.Lemmas.Witness
import Verif.Cert.Thin
import Verif.Cert.MatLin
import Verif.Cert.SpinCcT3
import Verif.Cert.SpinCcT4_0
import Verif.Cert.SpinCcT4_1
import Verif.Cert.SpinCcT4_2
import Verif.Cert.SpinCcT4_3
import Verif.Cert.SpinCcT4_4
import Verif.Cert.SpinQfT4
import Verif.Cert.SpinT4
import Verif.Fn.SiCcsdtT3_0
import Verif.Fn.SiCcsdtT3_1
import Verif.Fn.SiCcsdtT3_2
import Verif.Fn.SiCcsdtT3_3
import Verif.Fn.SiCcdqT4_0
import Verif.Fn.SiCcdqT4_1
import Verif.Fn.SiCcdqT4_2
import Verif.Fn.SiCcdqT4_3
import Verif.Fn.SiCcdqT4_4
import Verif.Fn.SiT4_0
import Verif.Fn.SiT4_1
import Verif.Fn.SiT4_2
import Verif.Fn.SiT4_3
import Verif.Fn.SiT4_4
import Verif.Fn.SiT4cub_0
import Verif.Fn.SiT4cub_1
import Verif.Fn.SiT4cub_2
import Verif.Fn.SiT4cub_3
import Verif.Fn.SiT4cub_4
import Verif.Fn.SiTest_aaaa
import Verif.Fn.SiTest_abab
import Verif.Fn.SiTest_bbbb
import Verif.Fn.SiQf

/-!
# Spin blocks of the triples and quadruples residuals (C83)

The CCSDT triples residual of `fullCCresidEqns.py`, the CCDQ quadruples residual of `ccdq_resids.py`, the perturbative
quadruples of `fullCCenergy.py`, the doubles residual with quadruples of `testing_modifyT2eqns_with_T4.py` and the energy of
`fullCCenergy.py`: each block against the spin-orbital function and against matrix elements of the Hamiltonian. `A.so` is
the spin-orbital form of the arrays `A`; `roundoff P` collects what the printed coefficients of a function `P` are off.
Written by `/verif/tools/spinhigh.py`.
-/

set_option maxRecDepth 100000

namespace Verif.Props

open Verif.Ein Verif.UT2 Verif.Wick

variable {I K R : Type} [DecidableEq I] [Field K] [CharZero K] [Ring R] [Algebra K R] [Inhabited I] {D : Nat → Finset I}
  (F : Fermi (I × Bool) K R (spinD D))

/-! ## the antisymmetrised spin-orbital functions, equal transposes taken together -/

section thin
variable {J : Type} [Inhabited J] {E : Nat → Finset J} (S : SO J K) (hS : S.Sym)
include hS

theorem t3_thin (xs : List J) (hx : xs.length = 6) : (Prog.ideal Gen.ccsdt_t3eqns).eval E S.T xs =
    (Prog.thin Gen.split_ccsdt_t3 (Prog.ideal (Gen.ccsdt_t3eqns_0 ++ Gen.ccsdt_t3eqns_1))).eval E S.T xs := by
  have ht : Gen.ccsdt_t3eqns.ideal =
      Prog.through Gen.tamps_antisym_T3 (Prog.ideal (Gen.ccsdt_t3eqns_0 ++ Gen.ccsdt_t3eqns_1)) := by
    rw [← through_ideal]
    unfold Gen.ccsdt_t3eqns Prog.through
    rw [List.map_append]
  rw [ht]
  exact Prog.eval_thin E S.T (perm_of_sortRows Cert.all3_rows) (by decide +kernel) (by decide +kernel) _
    Cert.split_ccsdt_t3_ok _ (by decide +kernel) Cert.split_ccsdt_t3_idx
    (antiOk_eval E S.T N.kinds hS.holds _ _ _ _ _ Cert.split_ccsdt_t3_anti) xs hx

theorem t4_thin (xs : List J) (hx : xs.length = 8) : (Prog.ideal Gen.ccdq_t4eqns).eval E S.T xs =
    (Prog.thin Gen.split_ccdq_t4 (Prog.ideal Gen.ccdq_t4eqns_0)).eval E S.T xs := by
  have ht : Gen.ccdq_t4eqns.ideal = Prog.through Gen.tamps_antisym_T4 (Prog.ideal Gen.ccdq_t4eqns_0) := by
    rw [← through_ideal]; rfl
  rw [ht]
  exact Prog.eval_thin E S.T (perm_of_sortRows Cert.all4_rows) (by decide +kernel) (by decide +kernel) _
    Cert.split_ccdq_t4_ok _ (by decide +kernel) Cert.split_ccdq_t4_idx
    (antiOk_eval E S.T N.kinds hS.holds _ _ _ _ _ Cert.split_ccdq_t4_anti) xs hx

theorem quad_thin (xs : List J) (hx : xs.length = 8) : (Prog.part [[23, 39, 39]] Gen.wnT2cubed_toT4).eval E S.T xs =
    (Prog.thin Gen.split_quad_t4 (Prog.part [[23, 39, 39]] Gen.wnT2cubed_toT4_0)).eval E S.T xs := by
  unfold Gen.wnT2cubed_toT4
  rw [through_part]
  exact Prog.eval_thin E S.T (perm_of_sortRows Cert.all4_rows) (by decide +kernel) (by decide +kernel) _
    Cert.split_quad_t4_ok _ (by decide +kernel) Cert.split_quad_t4_idx
    (antiOk_eval E S.T N.kinds hS.holds _ _ _ _ _ Cert.split_quad_t4_anti) xs hx

theorem cub_thin (xs : List J) (hx : xs.length = 8) : (Prog.part [[23, 39, 39, 39]] Gen.wnT2cubed_toT4).eval E S.T xs =
    (Prog.thin Gen.split_cub_t4 (Prog.part [[23, 39, 39, 39]] Gen.wnT2cubed_toT4_0)).eval E S.T xs := by
  unfold Gen.wnT2cubed_toT4
  rw [through_part]
  exact Prog.eval_thin E S.T (perm_of_sortRows Cert.all4_rows) (by decide +kernel) (by decide +kernel) _
    Cert.split_cub_t4_ok _ (by decide +kernel) Cert.split_cub_t4_idx
    (antiOk_eval E S.T N.kinds hS.holds _ _ _ _ _ Cert.split_cub_t4_anti) xs hx

theorem lin_thin (xs : List J) (hx : xs.length = 8) : (Prog.through Gen.tamps_antisym_T4 Gen.linT3).eval E S.T xs =
    (Prog.thin Gen.split_lin_t4 Gen.linT3).eval E S.T xs :=
  Prog.eval_thin E S.T (perm_of_sortRows Cert.all4_rows) (by decide +kernel) (by decide +kernel) _
    Cert.split_lin_t4_ok _ (by decide +kernel) Cert.split_lin_t4_idx
    (antiOk_eval E S.T N.kinds hS.holds _ _ _ _ _ Cert.split_lin_t4_anti) xs hx

end thin

section lin
variable {J : Type} [Inhabited J] [DecidableEq J] {E : Nat → Finset J} (F' : Fermi J K R E)

/-- `linT3`, antisymmetrised, is `⟨Φ_ijkl^abcd| [V, T3] |Φ⟩`. -/
theorem lin_eval (hD : Disjoint (E 0) (E 1)) (S : SO J K) (hS : S.Sym) (h : J → J → K) (hf : IsFock E h S.f S.g) (a b c d i j k l : J) (ha : a ∈ E 1)
    (hb : b ∈ E 1) (hc : c ∈ E 1) (hd : d ∈ E 1) (hi : i ∈ E 0) (hj : j ∈ E 0) (hk : k ∈ E 0) (hl : l ∈ E 0) :
    (Prog.through Gen.tamps_antisym_T4 Gen.linT3).eval E S.T [i, j, k, l, a, b, c, d] =
      F'.ω (F'.bra4 a b c d i j k l * com (F'.fluct h S.f S.g) (F'.T3 S.t3)) := by
  have e : ∀ S' : SO J K, S'.Sym → _ := fun S' hS' =>
    eval_eq_of_isZero E S'.T N.kinds hS'.holds _ _ _ _ _ Cert.T4_lin_mat [] rfl
  have m := capped4 F' hD S hS h hf _ (by decide +kernel) _ (by decide +kernel) (by decide +kernel) e a b c d i j k l ha hb hc
    hd hi hj hk hl
  have h31 := C31_antisym_T4 (Prog.eval E S.T Gen.linT3) ![i, j, k, l] ![a, b, c, d]
  rw [Prog.eval_through E S.T 8 _ (by decide +kernel) _ (by decide +kernel) _ rfl]
  refine (h31.trans m.symm).trans ?_
  mat_close

end lin

theorem split_lin_wf : (Prog.thin Gen.split_lin_t4 Gen.linT3).wf 8 = true := by decide +kernel
theorem split_lin_cap : ((Prog.thin Gen.split_lin_t4 Gen.linT3).outs [4, 5, 0, 1, 2, 3, 6, 7]).capOk 4 [0, 0, 1, 1] = true := by
  decide +kernel

/-! ## the blocks -/

