import Verif.Fn.All
import Verif.Cert.SpinCc
import Verif.Cert.SpinT3
import Verif.Ein.Anti
import Verif.Ein.SpinSym
import Verif.Ein.SpinArrays
import Verif.Lemmas.Witness

/-!
# Spin-integrated higher methods (C64)

`fullCCresidEqns.py`, `fullCCenergy.py`, `ccdq_resids.py`, `build_approxT3full.py` and `square_brakT_corr.py` compute the
spin blocks of what `ccsdt_eqns.py`, `cc_eqns.py`, `ccdq_eqns.py` and `pdagq_T3corr.py` compute for spin orbitals. `A.so`
is the spin-orbital form of the spin-integrated arrays `A`: a spin orbital is a pair of a spatial orbital and a spin
(`false` alpha, `true` beta). Written by `/verif/tools/spincc.py`.
-/

namespace Verif.Props

open Verif.Ein Verif.UT2

variable {I K : Type} [Field K] [CharZero K] [Inhabited I] (D : Nat → Finset I)

/-- CCSD energy. -/
theorem C64_ccsd_energy (A : SI I K) (hA : A.Sym) : ccsd_energy_with_spin D A = spinorbitalCCSDE (spinD D) A.so :=
  (so_eval_of_isZero D A hA _ _ [] _ _ _ Cert.ccsd_energy (by decide +kernel) (by decide +kernel) rfl [] rfl).symm

/-- The `[T]` energy. -/
theorem C64_squareT (A : SI I K) (hA : A.Sym) : square_brakT D A = pdagq_T3energy (spinD D) A.so :=
  (so_eval_of_isZero D A hA _ _ [] _ _ _ Cert.squareT_spin (by decide +kernel) (by decide +kernel) rfl [] rfl).symm

/-- CCSDT singles residual, block `aa`. -/
theorem C64_ccsdt_t1_aa (A : SI I K) (hA : A.Sym) (a i : I) :
    ccsdt_t1_aa D A a i = ccsdt_t1eqns (spinD D) A.so (i, false) (a, false) := by
  have h := so_eval_of_isZero D A hA _ _ [false, false] _ _ _ Cert.ccsdt_t1_aa (by decide +kernel) (by decide +kernel) rfl
    [a, i] rfl
  rw [Prog.eval_outs' (spinD D) A.so.T 2 _ (by decide) _ (by decide +kernel) _ rfl] at h
  exact h.symm

/-- CCSDT singles residual, block `bb`. -/
theorem C64_ccsdt_t1_bb (A : SI I K) (hA : A.Sym) (a i : I) :
    ccsdt_t1_bb D A a i = ccsdt_t1eqns (spinD D) A.so (i, true) (a, true) := by
  have h := so_eval_of_isZero D A hA _ _ [true, true] _ _ _ Cert.ccsdt_t1_bb (by decide +kernel) (by decide +kernel) rfl
    [a, i] rfl
  rw [Prog.eval_outs' (spinD D) A.so.T 2 _ (by decide) _ (by decide +kernel) _ rfl] at h
  exact h.symm

/-- CCSDT doubles residual, block `aaaa`. -/
theorem C64_ccsdt_t2_aaaa (A : SI I K) (hA : A.Sym) (a b i j : I) :
    ccsdt_t2_aaaa D A a b i j = ccsdt_t2eqns (spinD D) A.so (i, false) (j, false) (a, false) (b, false) := by
  have h := so_eval_of_isZero D A hA _ _ [false, false, false, false] _ _ _ Cert.ccsdt_t2_aaaa (by decide +kernel) (by decide +kernel) rfl
    [a, b, i, j] rfl
  rw [Prog.eval_outs' (spinD D) A.so.T 4 _ (by decide) _ (by decide +kernel) _ rfl] at h
  exact h.symm

/-- CCSDT doubles residual, block `abab`. -/
theorem C64_ccsdt_t2_abab (A : SI I K) (hA : A.Sym) (a b i j : I) :
    ccsdt_t2_abab D A a b i j = ccsdt_t2eqns (spinD D) A.so (i, false) (j, true) (a, false) (b, true) := by
  have h := so_eval_of_isZero D A hA _ _ [false, true, false, true] _ _ _ Cert.ccsdt_t2_abab (by decide +kernel) (by decide +kernel) rfl
    [a, b, i, j] rfl
  rw [Prog.eval_outs' (spinD D) A.so.T 4 _ (by decide) _ (by decide +kernel) _ rfl] at h
  exact h.symm

/-- CCSDT doubles residual, block `bbbb`. -/
theorem C64_ccsdt_t2_bbbb (A : SI I K) (hA : A.Sym) (a b i j : I) :
    ccsdt_t2_bbbb D A a b i j = ccsdt_t2eqns (spinD D) A.so (i, true) (j, true) (a, true) (b, true) := by
  have h := so_eval_of_isZero D A hA _ _ [true, true, true, true] _ _ _ Cert.ccsdt_t2_bbbb (by decide +kernel) (by decide +kernel) rfl
    [a, b, i, j] rfl
  rw [Prog.eval_outs' (spinD D) A.so.T 4 _ (by decide) _ (by decide +kernel) _ rfl] at h
  exact h.symm

/-- CCDQ doubles residual, block `aaaa`. -/
theorem C64_ccdq_t2_aaaa (A : SI I K) (hA : A.Sym) (a b i j : I) :
    ccdq_t2_aaaa D A a b i j = ccdq_t2eqns (spinD D) A.so (i, false) (j, false) (a, false) (b, false) := by
  have h := so_eval_of_isZero D A hA _ _ [false, false, false, false] _ _ _ Cert.ccdq_t2_aaaa (by decide +kernel) (by decide +kernel) rfl
    [a, b, i, j] rfl
  rw [Prog.eval_outs' (spinD D) A.so.T 4 _ (by decide) _ (by decide +kernel) _ rfl] at h
  exact h.symm

/-- CCDQ doubles residual, block `abab`. -/
theorem C64_ccdq_t2_abab (A : SI I K) (hA : A.Sym) (a b i j : I) :
    ccdq_t2_abab D A a b i j = ccdq_t2eqns (spinD D) A.so (i, false) (j, true) (a, false) (b, true) := by
  have h := so_eval_of_isZero D A hA _ _ [false, true, false, true] _ _ _ Cert.ccdq_t2_abab (by decide +kernel) (by decide +kernel) rfl
    [a, b, i, j] rfl
  rw [Prog.eval_outs' (spinD D) A.so.T 4 _ (by decide) _ (by decide +kernel) _ rfl] at h
  exact h.symm

/-- CCDQ doubles residual, block `bbbb`. -/
theorem C64_ccdq_t2_bbbb (A : SI I K) (hA : A.Sym) (a b i j : I) :
    ccdq_t2_bbbb D A a b i j = ccdq_t2eqns (spinD D) A.so (i, true) (j, true) (a, true) (b, true) := by
  have h := so_eval_of_isZero D A hA _ _ [true, true, true, true] _ _ _ Cert.ccdq_t2_bbbb (by decide +kernel) (by decide +kernel) rfl
    [a, b, i, j] rfl
  rw [Prog.eval_outs' (spinD D) A.so.T 4 _ (by decide) _ (by decide +kernel) _ rfl] at h
  exact h.symm

/-- Approximate triples residual, block `aaaaaa`. -/
theorem C64_approxT3_aaaaaa (A : SI I K) (hA : A.Sym) (a b c i j k : I) :
    approxT3_aaaaaa D A a b c i j k = build_T3 (spinD D) A.so (a, false) (b, false) (c, false) (i, false) (j, false) (k, false) := by
  have h := so_eval_of_isZero D A hA _ _ [false, false, false, false, false, false] _ _ _ Cert.approxT3_aaaaaa (by decide +kernel) (by decide +kernel) rfl
    [a, b, c, i, j, k] rfl
  exact h.symm

/-- Approximate triples residual, block `aabaab`. -/
theorem C64_approxT3_aabaab (A : SI I K) (hA : A.Sym) (a b c i j k : I) :
    approxT3_aabaab D A a b c i j k = build_T3 (spinD D) A.so (a, false) (b, false) (c, true) (i, false) (j, false) (k, true) := by
  have h := so_eval_of_isZero D A hA _ _ [false, false, true, false, false, true] _ _ _ Cert.approxT3_aabaab (by decide +kernel) (by decide +kernel) rfl
    [a, b, c, i, j, k] rfl
  exact h.symm

/-- Approximate triples residual, block `abbabb`. -/
theorem C64_approxT3_abbabb (A : SI I K) (hA : A.Sym) (a b c i j k : I) :
    approxT3_abbabb D A a b c i j k = build_T3 (spinD D) A.so (a, false) (b, true) (c, true) (i, false) (j, true) (k, true) := by
  have h := so_eval_of_isZero D A hA _ _ [false, true, true, false, true, true] _ _ _ Cert.approxT3_abbabb (by decide +kernel) (by decide +kernel) rfl
    [a, b, c, i, j, k] rfl
  exact h.symm

/-- Approximate triples residual, block `bbbbbb`. -/
theorem C64_approxT3_bbbbbb (A : SI I K) (hA : A.Sym) (a b c i j k : I) :
    approxT3_bbbbbb D A a b c i j k = build_T3 (spinD D) A.so (a, true) (b, true) (c, true) (i, true) (j, true) (k, true) := by
  have h := so_eval_of_isZero D A hA _ _ [true, true, true, true, true, true] _ _ _ Cert.approxT3_bbbbbb (by decide +kernel) (by decide +kernel) rfl
    [a, b, c, i, j, k] rfl
  exact h.symm

/-- The hypotheses can be met with arrays for which the blocks do not vanish. -/
example : Witness.si.Sym ∧ ccsdt_t1_aa Witness.D Witness.si 2 0 ≠ 0 ∧ approxT3_aabaab Witness.D Witness.si 2 3 2 0 1 0 ≠ 0 :=
  ⟨Witness.si_sym, by decide +kernel, by decide +kernel⟩

end Verif.Props
