import Verif.Props.SpinProjected
import Verif.Props.Matrix
import Verif.Props.XccdBase
import Verif.Lemmas.Witness
import Verif.Cert.Thin
import Verif.Cert.MatLin
import Verif.Cert.SpinCcT3
import Verif.Cert.SpinCcT4_0
import Verif.Cert.SpinCcT4_1
import Verif.Cert.SpinCcT4_2
import Verif.Cert.SpinCcT4_3
import Verif.Cert.SpinCcT4_4
import Verif.Cert.SpinQfT4
import Verif.Cert.SpinT4
import Verif.Fn.All

/-!
# Spin blocks of the triples and quadruples residuals (C83)

The CCSDT triples residual of `fullCCresidEqns.py`, the CCDQ quadruples residual of `ccdq_resids.py`, the perturbative
quadruples of `fullCCenergy.py`, the doubles residual with quadruples of `testing_modifyT2eqns_with_T4.py` and the energy of
`fullCCenergy.py`: each block against the spin-orbital function and against matrix elements of the Hamiltonian. `A.so` is
the spin-orbital form of the arrays `A`; `roundoff P` collects what the printed coefficients of a function `P` are off.
Written by `/verif/tools/spinhigh.py`.
-/

set_option maxRecDepth 100000

namespace Verif.Props

open Verif.Ein Verif.UT2 Verif.Wick

variable {I K R : Type} [DecidableEq I] [Field K] [CharZero K] [Ring R] [Algebra K R] [Inhabited I] {D : Nat → Finset I}
  (F : Fermi (I × Bool) K R (spinD D))

/-! ## the antisymmetrised spin-orbital functions, equal transposes taken together -/

section thin
variable {J : Type} [Inhabited J] {E : Nat → Finset J} (S : SO J K) (hS : S.Sym)
include hS

theorem t3_thin (xs : List J) (hx : xs.length = 6) : (Prog.ideal Gen.ccsdt_t3eqns).eval E S.T xs =
    (Prog.thin Gen.split_ccsdt_t3 (Prog.ideal (Gen.ccsdt_t3eqns_0 ++ Gen.ccsdt_t3eqns_1))).eval E S.T xs := by
  have ht : Gen.ccsdt_t3eqns.ideal =
      Prog.through Gen.tamps_antisym_T3 (Prog.ideal (Gen.ccsdt_t3eqns_0 ++ Gen.ccsdt_t3eqns_1)) := by
    rw [← through_ideal]
    unfold Gen.ccsdt_t3eqns Prog.through
    rw [List.map_append]
  rw [ht]
  exact Prog.eval_thin E S.T (perm_of_sortRows Cert.all3_rows) (by decide +kernel) (by decide +kernel) _
    Cert.split_ccsdt_t3_ok _ (by decide +kernel) Cert.split_ccsdt_t3_idx
    (antiOk_eval E S.T N.kinds hS.holds _ _ _ _ _ Cert.split_ccsdt_t3_anti) xs hx

theorem t4_thin (xs : List J) (hx : xs.length = 8) : (Prog.ideal Gen.ccdq_t4eqns).eval E S.T xs =
    (Prog.thin Gen.split_ccdq_t4 (Prog.ideal Gen.ccdq_t4eqns_0)).eval E S.T xs := by
  have ht : Gen.ccdq_t4eqns.ideal = Prog.through Gen.tamps_antisym_T4 (Prog.ideal Gen.ccdq_t4eqns_0) := by
    rw [← through_ideal]; rfl
  rw [ht]
  exact Prog.eval_thin E S.T (perm_of_sortRows Cert.all4_rows) (by decide +kernel) (by decide +kernel) _
    Cert.split_ccdq_t4_ok _ (by decide +kernel) Cert.split_ccdq_t4_idx
    (antiOk_eval E S.T N.kinds hS.holds _ _ _ _ _ Cert.split_ccdq_t4_anti) xs hx

theorem quad_thin (xs : List J) (hx : xs.length = 8) : (Prog.part [[23, 39, 39]] Gen.wnT2cubed_toT4).eval E S.T xs =
    (Prog.thin Gen.split_quad_t4 (Prog.part [[23, 39, 39]] Gen.wnT2cubed_toT4_0)).eval E S.T xs := by
  unfold Gen.wnT2cubed_toT4
  rw [through_part]
  exact Prog.eval_thin E S.T (perm_of_sortRows Cert.all4_rows) (by decide +kernel) (by decide +kernel) _
    Cert.split_quad_t4_ok _ (by decide +kernel) Cert.split_quad_t4_idx
    (antiOk_eval E S.T N.kinds hS.holds _ _ _ _ _ Cert.split_quad_t4_anti) xs hx

theorem cub_thin (xs : List J) (hx : xs.length = 8) : (Prog.part [[23, 39, 39, 39]] Gen.wnT2cubed_toT4).eval E S.T xs =
    (Prog.thin Gen.split_cub_t4 (Prog.part [[23, 39, 39, 39]] Gen.wnT2cubed_toT4_0)).eval E S.T xs := by
  unfold Gen.wnT2cubed_toT4
  rw [through_part]
  exact Prog.eval_thin E S.T (perm_of_sortRows Cert.all4_rows) (by decide +kernel) (by decide +kernel) _
    Cert.split_cub_t4_ok _ (by decide +kernel) Cert.split_cub_t4_idx
    (antiOk_eval E S.T N.kinds hS.holds _ _ _ _ _ Cert.split_cub_t4_anti) xs hx

theorem lin_thin (xs : List J) (hx : xs.length = 8) : (Prog.through Gen.tamps_antisym_T4 Gen.linT3).eval E S.T xs =
    (Prog.thin Gen.split_lin_t4 Gen.linT3).eval E S.T xs :=
  Prog.eval_thin E S.T (perm_of_sortRows Cert.all4_rows) (by decide +kernel) (by decide +kernel) _
    Cert.split_lin_t4_ok _ (by decide +kernel) Cert.split_lin_t4_idx
    (antiOk_eval E S.T N.kinds hS.holds _ _ _ _ _ Cert.split_lin_t4_anti) xs hx

end thin

section lin
variable {J : Type} [Inhabited J] [DecidableEq J] {E : Nat → Finset J} (F' : Fermi J K R E)

/-- `linT3`, antisymmetrised, is `⟨Φ_ijkl^abcd| [V, T3] |Φ⟩`. -/
theorem lin_eval (hD : Disjoint (E 0) (E 1)) (S : SO J K) (hS : S.Sym) (h : J → J → K) (hf : IsFock E h S.f S.g) (a b c d i j k l : J) (ha : a ∈ E 1)
    (hb : b ∈ E 1) (hc : c ∈ E 1) (hd : d ∈ E 1) (hi : i ∈ E 0) (hj : j ∈ E 0) (hk : k ∈ E 0) (hl : l ∈ E 0) :
    (Prog.through Gen.tamps_antisym_T4 Gen.linT3).eval E S.T [i, j, k, l, a, b, c, d] =
      F'.ω (F'.bra4 a b c d i j k l * com (F'.fluct h S.f S.g) (F'.T3 S.t3)) := by
  have e : ∀ S' : SO J K, S'.Sym → _ := fun S' hS' =>
    eval_eq_of_isZero E S'.T N.kinds hS'.holds _ _ _ _ _ Cert.T4_lin_mat [] rfl
  have m := capped4 F' hD S hS h hf _ (by decide +kernel) _ (by decide +kernel) (by decide +kernel) e a b c d i j k l ha hb hc
    hd hi hj hk hl
  have h31 := C31_antisym_T4 (Prog.eval E S.T Gen.linT3) ![i, j, k, l] ![a, b, c, d]
  rw [Prog.eval_through E S.T 8 _ (by decide +kernel) _ (by decide +kernel) _ rfl]
  refine (h31.trans m.symm).trans ?_
  mat_close

end lin

theorem split_lin_wf : (Prog.thin Gen.split_lin_t4 Gen.linT3).wf 8 = true := by decide +kernel
theorem split_lin_cap : ((Prog.thin Gen.split_lin_t4 Gen.linT3).outs [4, 5, 0, 1, 2, 3, 6, 7]).capOk 4 [0, 0, 1, 1] = true := by
  decide +kernel

/-! ## the blocks -/


section blocks
omit [DecidableEq I]

theorem ccsdt_t3_aaaaaa_ideal (A : SI I K) (hA : A.Sym) (a b c i j k : I) :
    (Prog.ideal Gen.ccsdt_t3_aaaaaa).eval D A.T [a, b, c, i, j, k] =
      (Prog.ideal Gen.ccsdt_t3eqns).eval (spinD D) A.so.T [(i, false), (j, false), (k, false), (a, false), (b, false), (c, false)] := by
  have h := so_eval_of_isZero D A hA _ _ [false, false, false, false, false, false] _ _ _ Cert.ccsdt_t3_aaaaaa (by decide +kernel) (by decide +kernel) rfl
    [a, b, c, i, j, k] rfl
  rw [Prog.eval_outs' (spinD D) A.so.T 6 _ (by decide) _ (by decide +kernel) _ rfl] at h
  exact (h.symm.trans (t3_thin A.so hA.so _ rfl).symm)

/-- Block `aaaaaa` against `ccsdt_t3eqns`. -/
theorem C83_ccsdt_t3_aaaaaa (A : SI I K) (hA : A.Sym) (a b c i j k : I) :
    ccsdt_t3_aaaaaa D A a b c i j k - (roundoff Gen.ccsdt_t3_aaaaaa).eval D A.T [a, b, c, i, j, k] =
      ccsdt_t3eqns (spinD D) A.so (i, false) (j, false) (k, false) (a, false) (b, false) (c, false) -
        (roundoff Gen.ccsdt_t3eqns).eval (spinD D) A.so.T [(i, false), (j, false), (k, false), (a, false), (b, false), (c, false)] := by
  have h := ccsdt_t3_aaaaaa_ideal (D := D) A hA a b c i j k
  unfold ccsdt_t3_aaaaaa ccsdt_t3eqns
  rw [eval_roundoff (D := D) A.T Gen.ccsdt_t3_aaaaaa, eval_roundoff (D := spinD D) A.so.T Gen.ccsdt_t3eqns, h]
  ring

/-- No coefficient of the block `aaaaaa` is off by more than `2·10⁻¹³`. -/
theorem C83_ccsdt_t3_aaaaaa_roundoff : ∀ b ∈ roundoff Gen.ccsdt_t3_aaaaaa, |b.c| ≤ 1 / 5000000000000 := by decide +kernel

theorem ccsdt_t3_aabaab_ideal (A : SI I K) (hA : A.Sym) (a b c i j k : I) :
    (Prog.ideal Gen.ccsdt_t3_aabaab).eval D A.T [a, b, c, i, j, k] =
      (Prog.ideal Gen.ccsdt_t3eqns).eval (spinD D) A.so.T [(i, false), (j, false), (k, true), (a, false), (b, false), (c, true)] := by
  have h := so_eval_of_isZero D A hA _ _ [false, false, true, false, false, true] _ _ _ Cert.ccsdt_t3_aabaab (by decide +kernel) (by decide +kernel) rfl
    [a, b, c, i, j, k] rfl
  rw [Prog.eval_outs' (spinD D) A.so.T 6 _ (by decide) _ (by decide +kernel) _ rfl] at h
  exact (h.symm.trans (t3_thin A.so hA.so _ rfl).symm)

/-- Block `aabaab` against `ccsdt_t3eqns`. -/
theorem C83_ccsdt_t3_aabaab (A : SI I K) (hA : A.Sym) (a b c i j k : I) :
    ccsdt_t3_aabaab D A a b c i j k - (roundoff Gen.ccsdt_t3_aabaab).eval D A.T [a, b, c, i, j, k] =
      ccsdt_t3eqns (spinD D) A.so (i, false) (j, false) (k, true) (a, false) (b, false) (c, true) -
        (roundoff Gen.ccsdt_t3eqns).eval (spinD D) A.so.T [(i, false), (j, false), (k, true), (a, false), (b, false), (c, true)] := by
  have h := ccsdt_t3_aabaab_ideal (D := D) A hA a b c i j k
  unfold ccsdt_t3_aabaab ccsdt_t3eqns
  rw [eval_roundoff (D := D) A.T Gen.ccsdt_t3_aabaab, eval_roundoff (D := spinD D) A.so.T Gen.ccsdt_t3eqns, h]
  ring

/-- No coefficient of the block `aabaab` is off by more than `2·10⁻¹³`. -/
theorem C83_ccsdt_t3_aabaab_roundoff : ∀ b ∈ roundoff Gen.ccsdt_t3_aabaab, |b.c| ≤ 1 / 5000000000000 := by decide +kernel

theorem ccsdt_t3_abbabb_ideal (A : SI I K) (hA : A.Sym) (a b c i j k : I) :
    (Prog.ideal Gen.ccsdt_t3_abbabb).eval D A.T [a, b, c, i, j, k] =
      (Prog.ideal Gen.ccsdt_t3eqns).eval (spinD D) A.so.T [(i, false), (j, true), (k, true), (a, false), (b, true), (c, true)] := by
  have h := so_eval_of_isZero D A hA _ _ [false, true, true, false, true, true] _ _ _ Cert.ccsdt_t3_abbabb (by decide +kernel) (by decide +kernel) rfl
    [a, b, c, i, j, k] rfl
  rw [Prog.eval_outs' (spinD D) A.so.T 6 _ (by decide) _ (by decide +kernel) _ rfl] at h
  exact (h.symm.trans (t3_thin A.so hA.so _ rfl).symm)

/-- Block `abbabb` against `ccsdt_t3eqns`. -/
theorem C83_ccsdt_t3_abbabb (A : SI I K) (hA : A.Sym) (a b c i j k : I) :
    ccsdt_t3_abbabb D A a b c i j k - (roundoff Gen.ccsdt_t3_abbabb).eval D A.T [a, b, c, i, j, k] =
      ccsdt_t3eqns (spinD D) A.so (i, false) (j, true) (k, true) (a, false) (b, true) (c, true) -
        (roundoff Gen.ccsdt_t3eqns).eval (spinD D) A.so.T [(i, false), (j, true), (k, true), (a, false), (b, true), (c, true)] := by
  have h := ccsdt_t3_abbabb_ideal (D := D) A hA a b c i j k
  unfold ccsdt_t3_abbabb ccsdt_t3eqns
  rw [eval_roundoff (D := D) A.T Gen.ccsdt_t3_abbabb, eval_roundoff (D := spinD D) A.so.T Gen.ccsdt_t3eqns, h]
  ring

/-- No coefficient of the block `abbabb` is off by more than `2·10⁻¹³`. -/
theorem C83_ccsdt_t3_abbabb_roundoff : ∀ b ∈ roundoff Gen.ccsdt_t3_abbabb, |b.c| ≤ 1 / 5000000000000 := by decide +kernel

theorem ccsdt_t3_bbbbbb_ideal (A : SI I K) (hA : A.Sym) (a b c i j k : I) :
    (Prog.ideal Gen.ccsdt_t3_bbbbbb).eval D A.T [a, b, c, i, j, k] =
      (Prog.ideal Gen.ccsdt_t3eqns).eval (spinD D) A.so.T [(i, true), (j, true), (k, true), (a, true), (b, true), (c, true)] := by
  have h := so_eval_of_isZero D A hA _ _ [true, true, true, true, true, true] _ _ _ Cert.ccsdt_t3_bbbbbb (by decide +kernel) (by decide +kernel) rfl
    [a, b, c, i, j, k] rfl
  rw [Prog.eval_outs' (spinD D) A.so.T 6 _ (by decide) _ (by decide +kernel) _ rfl] at h
  exact (h.symm.trans (t3_thin A.so hA.so _ rfl).symm)

/-- Block `bbbbbb` against `ccsdt_t3eqns`. -/
theorem C83_ccsdt_t3_bbbbbb (A : SI I K) (hA : A.Sym) (a b c i j k : I) :
    ccsdt_t3_bbbbbb D A a b c i j k - (roundoff Gen.ccsdt_t3_bbbbbb).eval D A.T [a, b, c, i, j, k] =
      ccsdt_t3eqns (spinD D) A.so (i, true) (j, true) (k, true) (a, true) (b, true) (c, true) -
        (roundoff Gen.ccsdt_t3eqns).eval (spinD D) A.so.T [(i, true), (j, true), (k, true), (a, true), (b, true), (c, true)] := by
  have h := ccsdt_t3_bbbbbb_ideal (D := D) A hA a b c i j k
  unfold ccsdt_t3_bbbbbb ccsdt_t3eqns
  rw [eval_roundoff (D := D) A.T Gen.ccsdt_t3_bbbbbb, eval_roundoff (D := spinD D) A.so.T Gen.ccsdt_t3eqns, h]
  ring

/-- No coefficient of the block `bbbbbb` is off by more than `2·10⁻¹³`. -/
theorem C83_ccsdt_t3_bbbbbb_roundoff : ∀ b ∈ roundoff Gen.ccsdt_t3_bbbbbb, |b.c| ≤ 1 / 5000000000000 := by decide +kernel

theorem ccdq_t4_aaaaaaaa_ideal (A : SI I K) (hA : A.Sym) (a b c d i j k l : I) :
    (Prog.ideal Gen.ccdq_t4_aaaaaaaa).eval D A.T [a, b, c, d, i, j, k, l] =
      (Prog.ideal Gen.ccdq_t4eqns).eval (spinD D) A.so.T [(i, false), (j, false), (k, false), (l, false), (a, false), (b, false), (c, false), (d, false)] := by
  have h := so_eval_of_isZero D A hA _ _ [false, false, false, false, false, false, false, false] _ _ _ Cert.ccdq_t4_aaaaaaaa (by decide +kernel) (by decide +kernel) rfl
    [a, b, c, d, i, j, k, l] rfl
  rw [Prog.eval_outs' (spinD D) A.so.T 8 _ (by decide) _ (by decide +kernel) _ rfl] at h
  exact (h.symm.trans (t4_thin A.so hA.so _ rfl).symm)

/-- Block `aaaaaaaa` against `ccdq_t4eqns`. -/
theorem C83_ccdq_t4_aaaaaaaa (A : SI I K) (hA : A.Sym) (a b c d i j k l : I) :
    ccdq_t4_aaaaaaaa D A a b c d i j k l - (roundoff Gen.ccdq_t4_aaaaaaaa).eval D A.T [a, b, c, d, i, j, k, l] =
      ccdq_t4eqns (spinD D) A.so (i, false) (j, false) (k, false) (l, false) (a, false) (b, false) (c, false) (d, false) -
        (roundoff Gen.ccdq_t4eqns).eval (spinD D) A.so.T [(i, false), (j, false), (k, false), (l, false), (a, false), (b, false), (c, false), (d, false)] := by
  have h := ccdq_t4_aaaaaaaa_ideal (D := D) A hA a b c d i j k l
  unfold ccdq_t4_aaaaaaaa ccdq_t4eqns
  rw [eval_roundoff (D := D) A.T Gen.ccdq_t4_aaaaaaaa, eval_roundoff (D := spinD D) A.so.T Gen.ccdq_t4eqns, h]
  ring

/-- No coefficient of the block `aaaaaaaa` is off by more than `2·10⁻¹³`. -/
theorem C83_ccdq_t4_aaaaaaaa_roundoff : ∀ b ∈ roundoff Gen.ccdq_t4_aaaaaaaa, |b.c| ≤ 1 / 5000000000000 := by decide +kernel

theorem ccdq_t4_aaabaaab_ideal (A : SI I K) (hA : A.Sym) (a b c d i j k l : I) :
    (Prog.ideal Gen.ccdq_t4_aaabaaab).eval D A.T [a, b, c, d, i, j, k, l] =
      (Prog.ideal Gen.ccdq_t4eqns).eval (spinD D) A.so.T [(i, false), (j, false), (k, false), (l, true), (a, false), (b, false), (c, false), (d, true)] := by
  have h := so_eval_of_isZero D A hA _ _ [false, false, false, true, false, false, false, true] _ _ _ Cert.ccdq_t4_aaabaaab (by decide +kernel) (by decide +kernel) rfl
    [a, b, c, d, i, j, k, l] rfl
  rw [Prog.eval_outs' (spinD D) A.so.T 8 _ (by decide) _ (by decide +kernel) _ rfl] at h
  exact (h.symm.trans (t4_thin A.so hA.so _ rfl).symm)

/-- Block `aaabaaab` against `ccdq_t4eqns`. -/
theorem C83_ccdq_t4_aaabaaab (A : SI I K) (hA : A.Sym) (a b c d i j k l : I) :
    ccdq_t4_aaabaaab D A a b c d i j k l - (roundoff Gen.ccdq_t4_aaabaaab).eval D A.T [a, b, c, d, i, j, k, l] =
      ccdq_t4eqns (spinD D) A.so (i, false) (j, false) (k, false) (l, true) (a, false) (b, false) (c, false) (d, true) -
        (roundoff Gen.ccdq_t4eqns).eval (spinD D) A.so.T [(i, false), (j, false), (k, false), (l, true), (a, false), (b, false), (c, false), (d, true)] := by
  have h := ccdq_t4_aaabaaab_ideal (D := D) A hA a b c d i j k l
  unfold ccdq_t4_aaabaaab ccdq_t4eqns
  rw [eval_roundoff (D := D) A.T Gen.ccdq_t4_aaabaaab, eval_roundoff (D := spinD D) A.so.T Gen.ccdq_t4eqns, h]
  ring

/-- No coefficient of the block `aaabaaab` is off by more than `2·10⁻¹³`. -/
theorem C83_ccdq_t4_aaabaaab_roundoff : ∀ b ∈ roundoff Gen.ccdq_t4_aaabaaab, |b.c| ≤ 1 / 5000000000000 := by decide +kernel

theorem ccdq_t4_aabbaabb_ideal (A : SI I K) (hA : A.Sym) (a b c d i j k l : I) :
    (Prog.ideal Gen.ccdq_t4_aabbaabb).eval D A.T [a, b, c, d, i, j, k, l] =
      (Prog.ideal Gen.ccdq_t4eqns).eval (spinD D) A.so.T [(i, false), (j, false), (k, true), (l, true), (a, false), (b, false), (c, true), (d, true)] := by
  have h := so_eval_of_isZero D A hA _ _ [false, false, true, true, false, false, true, true] _ _ _ Cert.ccdq_t4_aabbaabb (by decide +kernel) (by decide +kernel) rfl
    [a, b, c, d, i, j, k, l] rfl
  rw [Prog.eval_outs' (spinD D) A.so.T 8 _ (by decide) _ (by decide +kernel) _ rfl] at h
  exact (h.symm.trans (t4_thin A.so hA.so _ rfl).symm)

/-- Block `aabbaabb` against `ccdq_t4eqns`. -/
theorem C83_ccdq_t4_aabbaabb (A : SI I K) (hA : A.Sym) (a b c d i j k l : I) :
    ccdq_t4_aabbaabb D A a b c d i j k l - (roundoff Gen.ccdq_t4_aabbaabb).eval D A.T [a, b, c, d, i, j, k, l] =
      ccdq_t4eqns (spinD D) A.so (i, false) (j, false) (k, true) (l, true) (a, false) (b, false) (c, true) (d, true) -
        (roundoff Gen.ccdq_t4eqns).eval (spinD D) A.so.T [(i, false), (j, false), (k, true), (l, true), (a, false), (b, false), (c, true), (d, true)] := by
  have h := ccdq_t4_aabbaabb_ideal (D := D) A hA a b c d i j k l
  unfold ccdq_t4_aabbaabb ccdq_t4eqns
  rw [eval_roundoff (D := D) A.T Gen.ccdq_t4_aabbaabb, eval_roundoff (D := spinD D) A.so.T Gen.ccdq_t4eqns, h]
  ring

/-- No coefficient of the block `aabbaabb` is off by more than `2·10⁻¹³`. -/
theorem C83_ccdq_t4_aabbaabb_roundoff : ∀ b ∈ roundoff Gen.ccdq_t4_aabbaabb, |b.c| ≤ 1 / 5000000000000 := by decide +kernel

theorem ccdq_t4_abbbabbb_ideal (A : SI I K) (hA : A.Sym) (a b c d i j k l : I) :
    (Prog.ideal Gen.ccdq_t4_abbbabbb).eval D A.T [a, b, c, d, i, j, k, l] =
      (Prog.ideal Gen.ccdq_t4eqns).eval (spinD D) A.so.T [(i, false), (j, true), (k, true), (l, true), (a, false), (b, true), (c, true), (d, true)] := by
  have h := so_eval_of_isZero D A hA _ _ [false, true, true, true, false, true, true, true] _ _ _ Cert.ccdq_t4_abbbabbb (by decide +kernel) (by decide +kernel) rfl
    [a, b, c, d, i, j, k, l] rfl
  rw [Prog.eval_outs' (spinD D) A.so.T 8 _ (by decide) _ (by decide +kernel) _ rfl] at h
  exact (h.symm.trans (t4_thin A.so hA.so _ rfl).symm)

/-- Block `abbbabbb` against `ccdq_t4eqns`. -/
theorem C83_ccdq_t4_abbbabbb (A : SI I K) (hA : A.Sym) (a b c d i j k l : I) :
    ccdq_t4_abbbabbb D A a b c d i j k l - (roundoff Gen.ccdq_t4_abbbabbb).eval D A.T [a, b, c, d, i, j, k, l] =
      ccdq_t4eqns (spinD D) A.so (i, false) (j, true) (k, true) (l, true) (a, false) (b, true) (c, true) (d, true) -
        (roundoff Gen.ccdq_t4eqns).eval (spinD D) A.so.T [(i, false), (j, true), (k, true), (l, true), (a, false), (b, true), (c, true), (d, true)] := by
  have h := ccdq_t4_abbbabbb_ideal (D := D) A hA a b c d i j k l
  unfold ccdq_t4_abbbabbb ccdq_t4eqns
  rw [eval_roundoff (D := D) A.T Gen.ccdq_t4_abbbabbb, eval_roundoff (D := spinD D) A.so.T Gen.ccdq_t4eqns, h]
  ring

/-- No coefficient of the block `abbbabbb` is off by more than `2·10⁻¹³`. -/
theorem C83_ccdq_t4_abbbabbb_roundoff : ∀ b ∈ roundoff Gen.ccdq_t4_abbbabbb, |b.c| ≤ 1 / 5000000000000 := by decide +kernel

theorem ccdq_t4_bbbbbbbb_ideal (A : SI I K) (hA : A.Sym) (a b c d i j k l : I) :
    (Prog.ideal Gen.ccdq_t4_bbbbbbbb).eval D A.T [a, b, c, d, i, j, k, l] =
      (Prog.ideal Gen.ccdq_t4eqns).eval (spinD D) A.so.T [(i, true), (j, true), (k, true), (l, true), (a, true), (b, true), (c, true), (d, true)] := by
  have h := so_eval_of_isZero D A hA _ _ [true, true, true, true, true, true, true, true] _ _ _ Cert.ccdq_t4_bbbbbbbb (by decide +kernel) (by decide +kernel) rfl
    [a, b, c, d, i, j, k, l] rfl
  rw [Prog.eval_outs' (spinD D) A.so.T 8 _ (by decide) _ (by decide +kernel) _ rfl] at h
  exact (h.symm.trans (t4_thin A.so hA.so _ rfl).symm)

/-- Block `bbbbbbbb` against `ccdq_t4eqns`. -/
theorem C83_ccdq_t4_bbbbbbbb (A : SI I K) (hA : A.Sym) (a b c d i j k l : I) :
    ccdq_t4_bbbbbbbb D A a b c d i j k l - (roundoff Gen.ccdq_t4_bbbbbbbb).eval D A.T [a, b, c, d, i, j, k, l] =
      ccdq_t4eqns (spinD D) A.so (i, true) (j, true) (k, true) (l, true) (a, true) (b, true) (c, true) (d, true) -
        (roundoff Gen.ccdq_t4eqns).eval (spinD D) A.so.T [(i, true), (j, true), (k, true), (l, true), (a, true), (b, true), (c, true), (d, true)] := by
  have h := ccdq_t4_bbbbbbbb_ideal (D := D) A hA a b c d i j k l
  unfold ccdq_t4_bbbbbbbb ccdq_t4eqns
  rw [eval_roundoff (D := D) A.T Gen.ccdq_t4_bbbbbbbb, eval_roundoff (D := spinD D) A.so.T Gen.ccdq_t4eqns, h]
  ring

/-- No coefficient of the block `bbbbbbbb` is off by more than `2·10⁻¹³`. -/
theorem C83_ccdq_t4_bbbbbbbb_roundoff : ∀ b ∈ roundoff Gen.ccdq_t4_bbbbbbbb, |b.c| ≤ 1 / 5000000000000 := by decide +kernel

end blocks

/-- Block `aaaaaa`. -/
theorem C83_ccsdt_t3_aaaaaa_projected (hD : Disjoint (D 0) (D 1)) (A : SI I K) (hA : A.Sym)
    (h : I × Bool → I × Bool → K) (hf : IsFock (spinD D) h A.so.f A.so.g)
    (a b c i j k : I) (ha : a ∈ D 1) (hb : b ∈ D 1) (hc : c ∈ D 1) (hi : i ∈ D 0) (hj : j ∈ D 0) (hk : k ∈ D 0)
    (n : Nat) (hn : 6 ≤ n) :
    ccsdt_t3_aaaaaa D A a b c i j k = F.ω (F.bra3 (a, false) (b, false) (c, false) (i, false) (j, false) (k, false) *
      hbar F h A.so.g n (F.T1 A.so.t1 + F.T2 A.so.t2 + F.T3 A.so.t3)) + (roundoff Gen.ccsdt_t3_aaaaaa).eval D A.T [a, b, c, i, j, k] := by
  have p := C75_ccsdt_t3 F (spinD_disjoint hD) A.so hA.so h hf (a, false) (b, false) (c, false) (i, false) (j, false) (k, false) (mem_spinD ha _) (mem_spinD hb _) (mem_spinD hc _)
    (mem_spinD hi _) (mem_spinD hj _) (mem_spinD hk _) n hn
  have e := C83_ccsdt_t3_aaaaaa (D := D) A hA a b c i j k
  linear_combination e - p

/-- Block `aabaab`. -/
theorem C83_ccsdt_t3_aabaab_projected (hD : Disjoint (D 0) (D 1)) (A : SI I K) (hA : A.Sym)
    (h : I × Bool → I × Bool → K) (hf : IsFock (spinD D) h A.so.f A.so.g)
    (a b c i j k : I) (ha : a ∈ D 1) (hb : b ∈ D 1) (hc : c ∈ D 1) (hi : i ∈ D 0) (hj : j ∈ D 0) (hk : k ∈ D 0)
    (n : Nat) (hn : 6 ≤ n) :
    ccsdt_t3_aabaab D A a b c i j k = F.ω (F.bra3 (a, false) (b, false) (c, true) (i, false) (j, false) (k, true) *
      hbar F h A.so.g n (F.T1 A.so.t1 + F.T2 A.so.t2 + F.T3 A.so.t3)) + (roundoff Gen.ccsdt_t3_aabaab).eval D A.T [a, b, c, i, j, k] := by
  have p := C75_ccsdt_t3 F (spinD_disjoint hD) A.so hA.so h hf (a, false) (b, false) (c, true) (i, false) (j, false) (k, true) (mem_spinD ha _) (mem_spinD hb _) (mem_spinD hc _)
    (mem_spinD hi _) (mem_spinD hj _) (mem_spinD hk _) n hn
  have e := C83_ccsdt_t3_aabaab (D := D) A hA a b c i j k
  linear_combination e - p

/-- Block `abbabb`. -/
theorem C83_ccsdt_t3_abbabb_projected (hD : Disjoint (D 0) (D 1)) (A : SI I K) (hA : A.Sym)
    (h : I × Bool → I × Bool → K) (hf : IsFock (spinD D) h A.so.f A.so.g)
    (a b c i j k : I) (ha : a ∈ D 1) (hb : b ∈ D 1) (hc : c ∈ D 1) (hi : i ∈ D 0) (hj : j ∈ D 0) (hk : k ∈ D 0)
    (n : Nat) (hn : 6 ≤ n) :
    ccsdt_t3_abbabb D A a b c i j k = F.ω (F.bra3 (a, false) (b, true) (c, true) (i, false) (j, true) (k, true) *
      hbar F h A.so.g n (F.T1 A.so.t1 + F.T2 A.so.t2 + F.T3 A.so.t3)) + (roundoff Gen.ccsdt_t3_abbabb).eval D A.T [a, b, c, i, j, k] := by
  have p := C75_ccsdt_t3 F (spinD_disjoint hD) A.so hA.so h hf (a, false) (b, true) (c, true) (i, false) (j, true) (k, true) (mem_spinD ha _) (mem_spinD hb _) (mem_spinD hc _)
    (mem_spinD hi _) (mem_spinD hj _) (mem_spinD hk _) n hn
  have e := C83_ccsdt_t3_abbabb (D := D) A hA a b c i j k
  linear_combination e - p

/-- Block `bbbbbb`. -/
theorem C83_ccsdt_t3_bbbbbb_projected (hD : Disjoint (D 0) (D 1)) (A : SI I K) (hA : A.Sym)
    (h : I × Bool → I × Bool → K) (hf : IsFock (spinD D) h A.so.f A.so.g)
    (a b c i j k : I) (ha : a ∈ D 1) (hb : b ∈ D 1) (hc : c ∈ D 1) (hi : i ∈ D 0) (hj : j ∈ D 0) (hk : k ∈ D 0)
    (n : Nat) (hn : 6 ≤ n) :
    ccsdt_t3_bbbbbb D A a b c i j k = F.ω (F.bra3 (a, true) (b, true) (c, true) (i, true) (j, true) (k, true) *
      hbar F h A.so.g n (F.T1 A.so.t1 + F.T2 A.so.t2 + F.T3 A.so.t3)) + (roundoff Gen.ccsdt_t3_bbbbbb).eval D A.T [a, b, c, i, j, k] := by
  have p := C75_ccsdt_t3 F (spinD_disjoint hD) A.so hA.so h hf (a, true) (b, true) (c, true) (i, true) (j, true) (k, true) (mem_spinD ha _) (mem_spinD hb _) (mem_spinD hc _)
    (mem_spinD hi _) (mem_spinD hj _) (mem_spinD hk _) n hn
  have e := C83_ccsdt_t3_bbbbbb (D := D) A hA a b c i j k
  linear_combination e - p

/-- Block `aaaaaaaa`. -/
theorem C83_ccdq_t4_aaaaaaaa_projected (hD : Disjoint (D 0) (D 1)) (A : SI I K) (hA : A.Sym)
    (h : I × Bool → I × Bool → K) (hf : IsFock (spinD D) h A.so.f A.so.g)
    (a b c d i j k l : I) (ha : a ∈ D 1) (hb : b ∈ D 1) (hc : c ∈ D 1) (hd : d ∈ D 1) (hi : i ∈ D 0) (hj : j ∈ D 0) (hk : k ∈ D 0) (hl : l ∈ D 0)
    (n : Nat) (hn : 4 ≤ n) :
    ccdq_t4_aaaaaaaa D A a b c d i j k l = F.ω (F.bra4 (a, false) (b, false) (c, false) (d, false) (i, false) (j, false) (k, false) (l, false) *
      hbar F h A.so.g n (F.T2 A.so.t2 + F.T4 A.so.t4)) + (roundoff Gen.ccdq_t4_aaaaaaaa).eval D A.T [a, b, c, d, i, j, k, l] := by
  have p := C75_ccdq_t4 F (spinD_disjoint hD) A.so hA.so h hf (a, false) (b, false) (c, false) (d, false) (i, false) (j, false) (k, false) (l, false) (mem_spinD ha _) (mem_spinD hb _) (mem_spinD hc _) (mem_spinD hd _)
    (mem_spinD hi _) (mem_spinD hj _) (mem_spinD hk _) (mem_spinD hl _) n hn
  have e := C83_ccdq_t4_aaaaaaaa (D := D) A hA a b c d i j k l
  linear_combination e - p

/-- Block `aaabaaab`. -/
theorem C83_ccdq_t4_aaabaaab_projected (hD : Disjoint (D 0) (D 1)) (A : SI I K) (hA : A.Sym)
    (h : I × Bool → I × Bool → K) (hf : IsFock (spinD D) h A.so.f A.so.g)
    (a b c d i j k l : I) (ha : a ∈ D 1) (hb : b ∈ D 1) (hc : c ∈ D 1) (hd : d ∈ D 1) (hi : i ∈ D 0) (hj : j ∈ D 0) (hk : k ∈ D 0) (hl : l ∈ D 0)
    (n : Nat) (hn : 4 ≤ n) :
    ccdq_t4_aaabaaab D A a b c d i j k l = F.ω (F.bra4 (a, false) (b, false) (c, false) (d, true) (i, false) (j, false) (k, false) (l, true) *
      hbar F h A.so.g n (F.T2 A.so.t2 + F.T4 A.so.t4)) + (roundoff Gen.ccdq_t4_aaabaaab).eval D A.T [a, b, c, d, i, j, k, l] := by
  have p := C75_ccdq_t4 F (spinD_disjoint hD) A.so hA.so h hf (a, false) (b, false) (c, false) (d, true) (i, false) (j, false) (k, false) (l, true) (mem_spinD ha _) (mem_spinD hb _) (mem_spinD hc _) (mem_spinD hd _)
    (mem_spinD hi _) (mem_spinD hj _) (mem_spinD hk _) (mem_spinD hl _) n hn
  have e := C83_ccdq_t4_aaabaaab (D := D) A hA a b c d i j k l
  linear_combination e - p

/-- Block `aabbaabb`. -/
theorem C83_ccdq_t4_aabbaabb_projected (hD : Disjoint (D 0) (D 1)) (A : SI I K) (hA : A.Sym)
    (h : I × Bool → I × Bool → K) (hf : IsFock (spinD D) h A.so.f A.so.g)
    (a b c d i j k l : I) (ha : a ∈ D 1) (hb : b ∈ D 1) (hc : c ∈ D 1) (hd : d ∈ D 1) (hi : i ∈ D 0) (hj : j ∈ D 0) (hk : k ∈ D 0) (hl : l ∈ D 0)
    (n : Nat) (hn : 4 ≤ n) :
    ccdq_t4_aabbaabb D A a b c d i j k l = F.ω (F.bra4 (a, false) (b, false) (c, true) (d, true) (i, false) (j, false) (k, true) (l, true) *
      hbar F h A.so.g n (F.T2 A.so.t2 + F.T4 A.so.t4)) + (roundoff Gen.ccdq_t4_aabbaabb).eval D A.T [a, b, c, d, i, j, k, l] := by
  have p := C75_ccdq_t4 F (spinD_disjoint hD) A.so hA.so h hf (a, false) (b, false) (c, true) (d, true) (i, false) (j, false) (k, true) (l, true) (mem_spinD ha _) (mem_spinD hb _) (mem_spinD hc _) (mem_spinD hd _)
    (mem_spinD hi _) (mem_spinD hj _) (mem_spinD hk _) (mem_spinD hl _) n hn
  have e := C83_ccdq_t4_aabbaabb (D := D) A hA a b c d i j k l
  linear_combination e - p

/-- Block `abbbabbb`. -/
theorem C83_ccdq_t4_abbbabbb_projected (hD : Disjoint (D 0) (D 1)) (A : SI I K) (hA : A.Sym)
    (h : I × Bool → I × Bool → K) (hf : IsFock (spinD D) h A.so.f A.so.g)
    (a b c d i j k l : I) (ha : a ∈ D 1) (hb : b ∈ D 1) (hc : c ∈ D 1) (hd : d ∈ D 1) (hi : i ∈ D 0) (hj : j ∈ D 0) (hk : k ∈ D 0) (hl : l ∈ D 0)
    (n : Nat) (hn : 4 ≤ n) :
    ccdq_t4_abbbabbb D A a b c d i j k l = F.ω (F.bra4 (a, false) (b, true) (c, true) (d, true) (i, false) (j, true) (k, true) (l, true) *
      hbar F h A.so.g n (F.T2 A.so.t2 + F.T4 A.so.t4)) + (roundoff Gen.ccdq_t4_abbbabbb).eval D A.T [a, b, c, d, i, j, k, l] := by
  have p := C75_ccdq_t4 F (spinD_disjoint hD) A.so hA.so h hf (a, false) (b, true) (c, true) (d, true) (i, false) (j, true) (k, true) (l, true) (mem_spinD ha _) (mem_spinD hb _) (mem_spinD hc _) (mem_spinD hd _)
    (mem_spinD hi _) (mem_spinD hj _) (mem_spinD hk _) (mem_spinD hl _) n hn
  have e := C83_ccdq_t4_abbbabbb (D := D) A hA a b c d i j k l
  linear_combination e - p

/-- Block `bbbbbbbb`. -/
theorem C83_ccdq_t4_bbbbbbbb_projected (hD : Disjoint (D 0) (D 1)) (A : SI I K) (hA : A.Sym)
    (h : I × Bool → I × Bool → K) (hf : IsFock (spinD D) h A.so.f A.so.g)
    (a b c d i j k l : I) (ha : a ∈ D 1) (hb : b ∈ D 1) (hc : c ∈ D 1) (hd : d ∈ D 1) (hi : i ∈ D 0) (hj : j ∈ D 0) (hk : k ∈ D 0) (hl : l ∈ D 0)
    (n : Nat) (hn : 4 ≤ n) :
    ccdq_t4_bbbbbbbb D A a b c d i j k l = F.ω (F.bra4 (a, true) (b, true) (c, true) (d, true) (i, true) (j, true) (k, true) (l, true) *
      hbar F h A.so.g n (F.T2 A.so.t2 + F.T4 A.so.t4)) + (roundoff Gen.ccdq_t4_bbbbbbbb).eval D A.T [a, b, c, d, i, j, k, l] := by
  have p := C75_ccdq_t4 F (spinD_disjoint hD) A.so hA.so h hf (a, true) (b, true) (c, true) (d, true) (i, true) (j, true) (k, true) (l, true) (mem_spinD ha _) (mem_spinD hb _) (mem_spinD hc _) (mem_spinD hd _)
    (mem_spinD hi _) (mem_spinD hj _) (mem_spinD hk _) (mem_spinD hl _) n hn
  have e := C83_ccdq_t4_bbbbbbbb (D := D) A hA a b c d i j k l
  linear_combination e - p

/-- Block `aaaaaaaa`: `⟨Φ_ijkl^abcd| 1/2 [[V, T2], T2] + [V, T3] |Φ⟩`. -/
theorem C83_ccsdtq_t4_aaaaaaaa (hD : Disjoint (D 0) (D 1)) (A : SI I K) (hA : A.Sym)
    (h : I × Bool → I × Bool → K) (hf : IsFock (spinD D) h A.so.f A.so.g)
    (a b c d i j k l : I) (ha : a ∈ D 1) (hb : b ∈ D 1) (hc : c ∈ D 1) (hd : d ∈ D 1)
    (hi : i ∈ D 0) (hj : j ∈ D 0) (hk : k ∈ D 0) (hl : l ∈ D 0) :
    ccsdtq_t4_aaaaaaaa D A a b c d i j k l = F.ω (F.bra4 (a, false) (b, false) (c, false) (d, false) (i, false) (j, false) (k, false) (l, false) *
      ((1/2 : K) • com (com (F.fluct h A.so.f A.so.g) (F.T2 A.so.t2)) (F.T2 A.so.t2) +
        com (F.fluct h A.so.f A.so.g) (F.T3 A.so.t3))) := by
  have e := so_eval_of_isZero D A hA _ _ [false, false, false, false, false, false, false, false] _ _ _ Cert.ccsdtq_t4_aaaaaaaa (by decide +kernel) (by decide +kernel) rfl
    [a, b, c, d, i, j, k, l] rfl
  rw [Prog.eval_outs' (spinD D) A.so.T 8 _ (by decide) _ (by decide +kernel) _ rfl] at e
  rw [Prog.eval_append] at e
  have q := (quad_thin A.so hA.so [(i, false), (j, false), (k, false), (l, false), (a, false), (b, false), (c, false), (d, false)] rfl).symm.trans (T4_quad_eval F (spinD_disjoint hD) A.so hA.so h hf (a, false) (b, false) (c, false) (d, false) (i, false) (j, false) (k, false) (l, false)
    (mem_spinD ha _) (mem_spinD hb _) (mem_spinD hc _) (mem_spinD hd _) (mem_spinD hi _) (mem_spinD hj _) (mem_spinD hk _) (mem_spinD hl _))
  have l := (lin_thin A.so hA.so [(i, false), (j, false), (k, false), (l, false), (a, false), (b, false), (c, false), (d, false)] rfl).symm.trans (lin_eval F (spinD_disjoint hD) A.so hA.so h hf (a, false) (b, false) (c, false) (d, false) (i, false) (j, false) (k, false) (l, false)
    (mem_spinD ha _) (mem_spinD hb _) (mem_spinD hc _) (mem_spinD hd _) (mem_spinD hi _) (mem_spinD hj _) (mem_spinD hk _) (mem_spinD hl _))
  rw [mul_add, map_add, ← q, ← l]
  exact e.symm

/-- Block `aaabaaab`: `⟨Φ_ijkl^abcd| 1/2 [[V, T2], T2] + [V, T3] |Φ⟩`. -/
theorem C83_ccsdtq_t4_aaabaaab (hD : Disjoint (D 0) (D 1)) (A : SI I K) (hA : A.Sym)
    (h : I × Bool → I × Bool → K) (hf : IsFock (spinD D) h A.so.f A.so.g)
    (a b c d i j k l : I) (ha : a ∈ D 1) (hb : b ∈ D 1) (hc : c ∈ D 1) (hd : d ∈ D 1)
    (hi : i ∈ D 0) (hj : j ∈ D 0) (hk : k ∈ D 0) (hl : l ∈ D 0) :
    ccsdtq_t4_aaabaaab D A a b c d i j k l = F.ω (F.bra4 (a, false) (b, false) (c, false) (d, true) (i, false) (j, false) (k, false) (l, true) *
      ((1/2 : K) • com (com (F.fluct h A.so.f A.so.g) (F.T2 A.so.t2)) (F.T2 A.so.t2) +
        com (F.fluct h A.so.f A.so.g) (F.T3 A.so.t3))) := by
  have e := so_eval_of_isZero D A hA _ _ [false, false, false, true, false, false, false, true] _ _ _ Cert.ccsdtq_t4_aaabaaab (by decide +kernel) (by decide +kernel) rfl
    [a, b, c, d, i, j, k, l] rfl
  rw [Prog.eval_outs' (spinD D) A.so.T 8 _ (by decide) _ (by decide +kernel) _ rfl] at e
  rw [Prog.eval_append] at e
  have q := (quad_thin A.so hA.so [(i, false), (j, false), (k, false), (l, true), (a, false), (b, false), (c, false), (d, true)] rfl).symm.trans (T4_quad_eval F (spinD_disjoint hD) A.so hA.so h hf (a, false) (b, false) (c, false) (d, true) (i, false) (j, false) (k, false) (l, true)
    (mem_spinD ha _) (mem_spinD hb _) (mem_spinD hc _) (mem_spinD hd _) (mem_spinD hi _) (mem_spinD hj _) (mem_spinD hk _) (mem_spinD hl _))
  have l := (lin_thin A.so hA.so [(i, false), (j, false), (k, false), (l, true), (a, false), (b, false), (c, false), (d, true)] rfl).symm.trans (lin_eval F (spinD_disjoint hD) A.so hA.so h hf (a, false) (b, false) (c, false) (d, true) (i, false) (j, false) (k, false) (l, true)
    (mem_spinD ha _) (mem_spinD hb _) (mem_spinD hc _) (mem_spinD hd _) (mem_spinD hi _) (mem_spinD hj _) (mem_spinD hk _) (mem_spinD hl _))
  rw [mul_add, map_add, ← q, ← l]
  exact e.symm

/-- Block `aabbaabb`: `⟨Φ_ijkl^abcd| 1/2 [[V, T2], T2] + [V, T3] |Φ⟩`. -/
theorem C83_ccsdtq_t4_aabbaabb (hD : Disjoint (D 0) (D 1)) (A : SI I K) (hA : A.Sym)
    (h : I × Bool → I × Bool → K) (hf : IsFock (spinD D) h A.so.f A.so.g)
    (a b c d i j k l : I) (ha : a ∈ D 1) (hb : b ∈ D 1) (hc : c ∈ D 1) (hd : d ∈ D 1)
    (hi : i ∈ D 0) (hj : j ∈ D 0) (hk : k ∈ D 0) (hl : l ∈ D 0) :
    ccsdtq_t4_aabbaabb D A a b c d i j k l = F.ω (F.bra4 (a, false) (b, false) (c, true) (d, true) (i, false) (j, false) (k, true) (l, true) *
      ((1/2 : K) • com (com (F.fluct h A.so.f A.so.g) (F.T2 A.so.t2)) (F.T2 A.so.t2) +
        com (F.fluct h A.so.f A.so.g) (F.T3 A.so.t3))) := by
  have e := so_eval_of_isZero D A hA _ _ [false, false, true, true, false, false, true, true] _ _ _ Cert.ccsdtq_t4_aabbaabb (by decide +kernel) (by decide +kernel) rfl
    [a, b, c, d, i, j, k, l] rfl
  rw [Prog.eval_outs' (spinD D) A.so.T 8 _ (by decide) _ (by decide +kernel) _ rfl] at e
  rw [Prog.eval_append] at e
  have q := (quad_thin A.so hA.so [(i, false), (j, false), (k, true), (l, true), (a, false), (b, false), (c, true), (d, true)] rfl).symm.trans (T4_quad_eval F (spinD_disjoint hD) A.so hA.so h hf (a, false) (b, false) (c, true) (d, true) (i, false) (j, false) (k, true) (l, true)
    (mem_spinD ha _) (mem_spinD hb _) (mem_spinD hc _) (mem_spinD hd _) (mem_spinD hi _) (mem_spinD hj _) (mem_spinD hk _) (mem_spinD hl _))
  have l := (lin_thin A.so hA.so [(i, false), (j, false), (k, true), (l, true), (a, false), (b, false), (c, true), (d, true)] rfl).symm.trans (lin_eval F (spinD_disjoint hD) A.so hA.so h hf (a, false) (b, false) (c, true) (d, true) (i, false) (j, false) (k, true) (l, true)
    (mem_spinD ha _) (mem_spinD hb _) (mem_spinD hc _) (mem_spinD hd _) (mem_spinD hi _) (mem_spinD hj _) (mem_spinD hk _) (mem_spinD hl _))
  rw [mul_add, map_add, ← q, ← l]
  exact e.symm

/-- Block `abbbabbb`: `⟨Φ_ijkl^abcd| 1/2 [[V, T2], T2] + [V, T3] |Φ⟩`. -/
theorem C83_ccsdtq_t4_abbbabbb (hD : Disjoint (D 0) (D 1)) (A : SI I K) (hA : A.Sym)
    (h : I × Bool → I × Bool → K) (hf : IsFock (spinD D) h A.so.f A.so.g)
    (a b c d i j k l : I) (ha : a ∈ D 1) (hb : b ∈ D 1) (hc : c ∈ D 1) (hd : d ∈ D 1)
    (hi : i ∈ D 0) (hj : j ∈ D 0) (hk : k ∈ D 0) (hl : l ∈ D 0) :
    ccsdtq_t4_abbbabbb D A a b c d i j k l = F.ω (F.bra4 (a, false) (b, true) (c, true) (d, true) (i, false) (j, true) (k, true) (l, true) *
      ((1/2 : K) • com (com (F.fluct h A.so.f A.so.g) (F.T2 A.so.t2)) (F.T2 A.so.t2) +
        com (F.fluct h A.so.f A.so.g) (F.T3 A.so.t3))) := by
  have e := so_eval_of_isZero D A hA _ _ [false, true, true, true, false, true, true, true] _ _ _ Cert.ccsdtq_t4_abbbabbb (by decide +kernel) (by decide +kernel) rfl
    [a, b, c, d, i, j, k, l] rfl
  rw [Prog.eval_outs' (spinD D) A.so.T 8 _ (by decide) _ (by decide +kernel) _ rfl] at e
  rw [Prog.eval_append] at e
  have q := (quad_thin A.so hA.so [(i, false), (j, true), (k, true), (l, true), (a, false), (b, true), (c, true), (d, true)] rfl).symm.trans (T4_quad_eval F (spinD_disjoint hD) A.so hA.so h hf (a, false) (b, true) (c, true) (d, true) (i, false) (j, true) (k, true) (l, true)
    (mem_spinD ha _) (mem_spinD hb _) (mem_spinD hc _) (mem_spinD hd _) (mem_spinD hi _) (mem_spinD hj _) (mem_spinD hk _) (mem_spinD hl _))
  have l := (lin_thin A.so hA.so [(i, false), (j, true), (k, true), (l, true), (a, false), (b, true), (c, true), (d, true)] rfl).symm.trans (lin_eval F (spinD_disjoint hD) A.so hA.so h hf (a, false) (b, true) (c, true) (d, true) (i, false) (j, true) (k, true) (l, true)
    (mem_spinD ha _) (mem_spinD hb _) (mem_spinD hc _) (mem_spinD hd _) (mem_spinD hi _) (mem_spinD hj _) (mem_spinD hk _) (mem_spinD hl _))
  rw [mul_add, map_add, ← q, ← l]
  exact e.symm

/-- Block `bbbbbbbb`: `⟨Φ_ijkl^abcd| 1/2 [[V, T2], T2] + [V, T3] |Φ⟩`. -/
theorem C83_ccsdtq_t4_bbbbbbbb (hD : Disjoint (D 0) (D 1)) (A : SI I K) (hA : A.Sym)
    (h : I × Bool → I × Bool → K) (hf : IsFock (spinD D) h A.so.f A.so.g)
    (a b c d i j k l : I) (ha : a ∈ D 1) (hb : b ∈ D 1) (hc : c ∈ D 1) (hd : d ∈ D 1)
    (hi : i ∈ D 0) (hj : j ∈ D 0) (hk : k ∈ D 0) (hl : l ∈ D 0) :
    ccsdtq_t4_bbbbbbbb D A a b c d i j k l = F.ω (F.bra4 (a, true) (b, true) (c, true) (d, true) (i, true) (j, true) (k, true) (l, true) *
      ((1/2 : K) • com (com (F.fluct h A.so.f A.so.g) (F.T2 A.so.t2)) (F.T2 A.so.t2) +
        com (F.fluct h A.so.f A.so.g) (F.T3 A.so.t3))) := by
  have e := so_eval_of_isZero D A hA _ _ [true, true, true, true, true, true, true, true] _ _ _ Cert.ccsdtq_t4_bbbbbbbb (by decide +kernel) (by decide +kernel) rfl
    [a, b, c, d, i, j, k, l] rfl
  rw [Prog.eval_outs' (spinD D) A.so.T 8 _ (by decide) _ (by decide +kernel) _ rfl] at e
  rw [Prog.eval_append] at e
  have q := (quad_thin A.so hA.so [(i, true), (j, true), (k, true), (l, true), (a, true), (b, true), (c, true), (d, true)] rfl).symm.trans (T4_quad_eval F (spinD_disjoint hD) A.so hA.so h hf (a, true) (b, true) (c, true) (d, true) (i, true) (j, true) (k, true) (l, true)
    (mem_spinD ha _) (mem_spinD hb _) (mem_spinD hc _) (mem_spinD hd _) (mem_spinD hi _) (mem_spinD hj _) (mem_spinD hk _) (mem_spinD hl _))
  have l := (lin_thin A.so hA.so [(i, true), (j, true), (k, true), (l, true), (a, true), (b, true), (c, true), (d, true)] rfl).symm.trans (lin_eval F (spinD_disjoint hD) A.so hA.so h hf (a, true) (b, true) (c, true) (d, true) (i, true) (j, true) (k, true) (l, true)
    (mem_spinD ha _) (mem_spinD hb _) (mem_spinD hc _) (mem_spinD hd _) (mem_spinD hi _) (mem_spinD hj _) (mem_spinD hk _) (mem_spinD hl _))
  rw [mul_add, map_add, ← q, ← l]
  exact e.symm

/-- Block `aaaaaaaa`: `⟨Φ_ijkl^abcd| 1/6 [[[V, T2], T2], T2] |Φ⟩`. -/
theorem C83_ccsdtqT2cubed_t4_aaaaaaaa (hD : Disjoint (D 0) (D 1)) (A : SI I K) (hA : A.Sym)
    (h : I × Bool → I × Bool → K) (hf : IsFock (spinD D) h A.so.f A.so.g)
    (a b c d i j k l : I) (ha : a ∈ D 1) (hb : b ∈ D 1) (hc : c ∈ D 1) (hd : d ∈ D 1)
    (hi : i ∈ D 0) (hj : j ∈ D 0) (hk : k ∈ D 0) (hl : l ∈ D 0) :
    ccsdtqT2cubed_t4_aaaaaaaa D A a b c d i j k l = F.ω (F.bra4 (a, false) (b, false) (c, false) (d, false) (i, false) (j, false) (k, false) (l, false) *
      ((1/6 : K) • com (com (com (F.fluct h A.so.f A.so.g) (F.T2 A.so.t2)) (F.T2 A.so.t2)) (F.T2 A.so.t2))) := by
  have e := so_eval_of_isZero D A hA _ _ [false, false, false, false, false, false, false, false] _ _ _ Cert.ccsdtqT2cubed_t4_aaaaaaaa (by decide +kernel) (by decide +kernel) rfl
    [a, b, c, d, i, j, k, l] rfl
  rw [Prog.eval_outs' (spinD D) A.so.T 8 _ (by decide) _ (by decide +kernel) _ rfl] at e
  exact e.symm.trans ((cub_thin A.so hA.so _ rfl).symm.trans (T4_cub_eval F (spinD_disjoint hD) A.so hA.so h hf (a, false) (b, false) (c, false) (d, false) (i, false) (j, false) (k, false) (l, false)
    (mem_spinD ha _) (mem_spinD hb _) (mem_spinD hc _) (mem_spinD hd _) (mem_spinD hi _) (mem_spinD hj _) (mem_spinD hk _) (mem_spinD hl _)))

/-- Block `aaabaaab`: `⟨Φ_ijkl^abcd| 1/6 [[[V, T2], T2], T2] |Φ⟩`. -/
theorem C83_ccsdtqT2cubed_t4_aaabaaab (hD : Disjoint (D 0) (D 1)) (A : SI I K) (hA : A.Sym)
    (h : I × Bool → I × Bool → K) (hf : IsFock (spinD D) h A.so.f A.so.g)
    (a b c d i j k l : I) (ha : a ∈ D 1) (hb : b ∈ D 1) (hc : c ∈ D 1) (hd : d ∈ D 1)
    (hi : i ∈ D 0) (hj : j ∈ D 0) (hk : k ∈ D 0) (hl : l ∈ D 0) :
    ccsdtqT2cubed_t4_aaabaaab D A a b c d i j k l = F.ω (F.bra4 (a, false) (b, false) (c, false) (d, true) (i, false) (j, false) (k, false) (l, true) *
      ((1/6 : K) • com (com (com (F.fluct h A.so.f A.so.g) (F.T2 A.so.t2)) (F.T2 A.so.t2)) (F.T2 A.so.t2))) := by
  have e := so_eval_of_isZero D A hA _ _ [false, false, false, true, false, false, false, true] _ _ _ Cert.ccsdtqT2cubed_t4_aaabaaab (by decide +kernel) (by decide +kernel) rfl
    [a, b, c, d, i, j, k, l] rfl
  rw [Prog.eval_outs' (spinD D) A.so.T 8 _ (by decide) _ (by decide +kernel) _ rfl] at e
  exact e.symm.trans ((cub_thin A.so hA.so _ rfl).symm.trans (T4_cub_eval F (spinD_disjoint hD) A.so hA.so h hf (a, false) (b, false) (c, false) (d, true) (i, false) (j, false) (k, false) (l, true)
    (mem_spinD ha _) (mem_spinD hb _) (mem_spinD hc _) (mem_spinD hd _) (mem_spinD hi _) (mem_spinD hj _) (mem_spinD hk _) (mem_spinD hl _)))

/-- Block `aabbaabb`: `⟨Φ_ijkl^abcd| 1/6 [[[V, T2], T2], T2] |Φ⟩`. -/
theorem C83_ccsdtqT2cubed_t4_aabbaabb (hD : Disjoint (D 0) (D 1)) (A : SI I K) (hA : A.Sym)
    (h : I × Bool → I × Bool → K) (hf : IsFock (spinD D) h A.so.f A.so.g)
    (a b c d i j k l : I) (ha : a ∈ D 1) (hb : b ∈ D 1) (hc : c ∈ D 1) (hd : d ∈ D 1)
    (hi : i ∈ D 0) (hj : j ∈ D 0) (hk : k ∈ D 0) (hl : l ∈ D 0) :
    ccsdtqT2cubed_t4_aabbaabb D A a b c d i j k l = F.ω (F.bra4 (a, false) (b, false) (c, true) (d, true) (i, false) (j, false) (k, true) (l, true) *
      ((1/6 : K) • com (com (com (F.fluct h A.so.f A.so.g) (F.T2 A.so.t2)) (F.T2 A.so.t2)) (F.T2 A.so.t2))) := by
  have e := so_eval_of_isZero D A hA _ _ [false, false, true, true, false, false, true, true] _ _ _ Cert.ccsdtqT2cubed_t4_aabbaabb (by decide +kernel) (by decide +kernel) rfl
    [a, b, c, d, i, j, k, l] rfl
  rw [Prog.eval_outs' (spinD D) A.so.T 8 _ (by decide) _ (by decide +kernel) _ rfl] at e
  exact e.symm.trans ((cub_thin A.so hA.so _ rfl).symm.trans (T4_cub_eval F (spinD_disjoint hD) A.so hA.so h hf (a, false) (b, false) (c, true) (d, true) (i, false) (j, false) (k, true) (l, true)
    (mem_spinD ha _) (mem_spinD hb _) (mem_spinD hc _) (mem_spinD hd _) (mem_spinD hi _) (mem_spinD hj _) (mem_spinD hk _) (mem_spinD hl _)))

/-- Block `abbbabbb`: `⟨Φ_ijkl^abcd| 1/6 [[[V, T2], T2], T2] |Φ⟩`. -/
theorem C83_ccsdtqT2cubed_t4_abbbabbb (hD : Disjoint (D 0) (D 1)) (A : SI I K) (hA : A.Sym)
    (h : I × Bool → I × Bool → K) (hf : IsFock (spinD D) h A.so.f A.so.g)
    (a b c d i j k l : I) (ha : a ∈ D 1) (hb : b ∈ D 1) (hc : c ∈ D 1) (hd : d ∈ D 1)
    (hi : i ∈ D 0) (hj : j ∈ D 0) (hk : k ∈ D 0) (hl : l ∈ D 0) :
    ccsdtqT2cubed_t4_abbbabbb D A a b c d i j k l = F.ω (F.bra4 (a, false) (b, true) (c, true) (d, true) (i, false) (j, true) (k, true) (l, true) *
      ((1/6 : K) • com (com (com (F.fluct h A.so.f A.so.g) (F.T2 A.so.t2)) (F.T2 A.so.t2)) (F.T2 A.so.t2))) := by
  have e := so_eval_of_isZero D A hA _ _ [false, true, true, true, false, true, true, true] _ _ _ Cert.ccsdtqT2cubed_t4_abbbabbb (by decide +kernel) (by decide +kernel) rfl
    [a, b, c, d, i, j, k, l] rfl
  rw [Prog.eval_outs' (spinD D) A.so.T 8 _ (by decide) _ (by decide +kernel) _ rfl] at e
  exact e.symm.trans ((cub_thin A.so hA.so _ rfl).symm.trans (T4_cub_eval F (spinD_disjoint hD) A.so hA.so h hf (a, false) (b, true) (c, true) (d, true) (i, false) (j, true) (k, true) (l, true)
    (mem_spinD ha _) (mem_spinD hb _) (mem_spinD hc _) (mem_spinD hd _) (mem_spinD hi _) (mem_spinD hj _) (mem_spinD hk _) (mem_spinD hl _)))

/-- Block `bbbbbbbb`: `⟨Φ_ijkl^abcd| 1/6 [[[V, T2], T2], T2] |Φ⟩`. -/
theorem C83_ccsdtqT2cubed_t4_bbbbbbbb (hD : Disjoint (D 0) (D 1)) (A : SI I K) (hA : A.Sym)
    (h : I × Bool → I × Bool → K) (hf : IsFock (spinD D) h A.so.f A.so.g)
    (a b c d i j k l : I) (ha : a ∈ D 1) (hb : b ∈ D 1) (hc : c ∈ D 1) (hd : d ∈ D 1)
    (hi : i ∈ D 0) (hj : j ∈ D 0) (hk : k ∈ D 0) (hl : l ∈ D 0) :
    ccsdtqT2cubed_t4_bbbbbbbb D A a b c d i j k l = F.ω (F.bra4 (a, true) (b, true) (c, true) (d, true) (i, true) (j, true) (k, true) (l, true) *
      ((1/6 : K) • com (com (com (F.fluct h A.so.f A.so.g) (F.T2 A.so.t2)) (F.T2 A.so.t2)) (F.T2 A.so.t2))) := by
  have e := so_eval_of_isZero D A hA _ _ [true, true, true, true, true, true, true, true] _ _ _ Cert.ccsdtqT2cubed_t4_bbbbbbbb (by decide +kernel) (by decide +kernel) rfl
    [a, b, c, d, i, j, k, l] rfl
  rw [Prog.eval_outs' (spinD D) A.so.T 8 _ (by decide) _ (by decide +kernel) _ rfl] at e
  exact e.symm.trans ((cub_thin A.so hA.so _ rfl).symm.trans (T4_cub_eval F (spinD_disjoint hD) A.so hA.so h hf (a, true) (b, true) (c, true) (d, true) (i, true) (j, true) (k, true) (l, true)
    (mem_spinD ha _) (mem_spinD hb _) (mem_spinD hc _) (mem_spinD hd _) (mem_spinD hi _) (mem_spinD hj _) (mem_spinD hk _) (mem_spinD hl _)))

/-- Block `aaaa`: `⟨Φ_ij^ab| L2 (1/2 [[V, T2], T2] + [V, T3]) |Φ⟩`. -/
theorem C83_test_t2_aaaa (hD : Disjoint (D 0) (D 1)) (A : SI I K) (hA : A.Sym)
    (h : I × Bool → I × Bool → K) (hf : IsFock (spinD D) h A.so.f A.so.g)
    (a b i j : I) (ha : a ∈ D 1) (hb : b ∈ D 1) (hi : i ∈ D 0) (hj : j ∈ D 0) :
    test_t2_aaaa D A a b i j = F.ω (F.bra2 (a, false) (b, false) (i, false) (j, false) * F.L2 A.so.l2 *
      ((1/2 : K) • com (com (F.fluct h A.so.f A.so.g) (F.T2 A.so.t2)) (F.T2 A.so.t2) +
        com (F.fluct h A.so.f A.so.g) (F.T3 A.so.t3))) := by
  have e := so_eval_of_isZero D A hA _ _ [false, false, false, false] _ _ _ Cert.test_t2_aaaa (by decide +kernel) (by decide +kernel) rfl
    [a, b, i, j] rfl
  rw [Prog.eval_append] at e
  have q := C77_residQf1 F (spinD_disjoint hD) A.so hA.so h hf (a, false) (b, false) (i, false) (j, false) (mem_spinD ha _) (mem_spinD hb _) (mem_spinD hi _) (mem_spinD hj _)
  have l := capL2 F _ split_lin_wf split_lin_cap A.so _ (spinD_disjoint hD)
    (fun a b c d i j k l ha hb hc hd hi hj hk hl => (lin_thin A.so hA.so _ rfl).symm.trans
      (lin_eval F (spinD_disjoint hD) A.so hA.so h hf a b c d i j k l ha hb hc hd hi hj hk hl)) (a, false) (b, false) (i, false) (j, false) (mem_spinD ha _) (mem_spinD hb _) (mem_spinD hi _) (mem_spinD hj _)
  rw [mul_add, map_add, q, ← l]
  exact e.symm

/-- Block `abab`: `⟨Φ_ij^ab| L2 (1/2 [[V, T2], T2] + [V, T3]) |Φ⟩`. -/
theorem C83_test_t2_abab (hD : Disjoint (D 0) (D 1)) (A : SI I K) (hA : A.Sym)
    (h : I × Bool → I × Bool → K) (hf : IsFock (spinD D) h A.so.f A.so.g)
    (a b i j : I) (ha : a ∈ D 1) (hb : b ∈ D 1) (hi : i ∈ D 0) (hj : j ∈ D 0) :
    test_t2_abab D A a b i j = F.ω (F.bra2 (a, false) (b, true) (i, false) (j, true) * F.L2 A.so.l2 *
      ((1/2 : K) • com (com (F.fluct h A.so.f A.so.g) (F.T2 A.so.t2)) (F.T2 A.so.t2) +
        com (F.fluct h A.so.f A.so.g) (F.T3 A.so.t3))) := by
  have e := so_eval_of_isZero D A hA _ _ [false, true, false, true] _ _ _ Cert.test_t2_abab (by decide +kernel) (by decide +kernel) rfl
    [a, b, i, j] rfl
  rw [Prog.eval_append] at e
  have q := C77_residQf1 F (spinD_disjoint hD) A.so hA.so h hf (a, false) (b, true) (i, false) (j, true) (mem_spinD ha _) (mem_spinD hb _) (mem_spinD hi _) (mem_spinD hj _)
  have l := capL2 F _ split_lin_wf split_lin_cap A.so _ (spinD_disjoint hD)
    (fun a b c d i j k l ha hb hc hd hi hj hk hl => (lin_thin A.so hA.so _ rfl).symm.trans
      (lin_eval F (spinD_disjoint hD) A.so hA.so h hf a b c d i j k l ha hb hc hd hi hj hk hl)) (a, false) (b, true) (i, false) (j, true) (mem_spinD ha _) (mem_spinD hb _) (mem_spinD hi _) (mem_spinD hj _)
  rw [mul_add, map_add, q, ← l]
  exact e.symm

/-- Block `bbbb`: `⟨Φ_ij^ab| L2 (1/2 [[V, T2], T2] + [V, T3]) |Φ⟩`. -/
theorem C83_test_t2_bbbb (hD : Disjoint (D 0) (D 1)) (A : SI I K) (hA : A.Sym)
    (h : I × Bool → I × Bool → K) (hf : IsFock (spinD D) h A.so.f A.so.g)
    (a b i j : I) (ha : a ∈ D 1) (hb : b ∈ D 1) (hi : i ∈ D 0) (hj : j ∈ D 0) :
    test_t2_bbbb D A a b i j = F.ω (F.bra2 (a, true) (b, true) (i, true) (j, true) * F.L2 A.so.l2 *
      ((1/2 : K) • com (com (F.fluct h A.so.f A.so.g) (F.T2 A.so.t2)) (F.T2 A.so.t2) +
        com (F.fluct h A.so.f A.so.g) (F.T3 A.so.t3))) := by
  have e := so_eval_of_isZero D A hA _ _ [true, true, true, true] _ _ _ Cert.test_t2_bbbb (by decide +kernel) (by decide +kernel) rfl
    [a, b, i, j] rfl
  rw [Prog.eval_append] at e
  have q := C77_residQf1 F (spinD_disjoint hD) A.so hA.so h hf (a, true) (b, true) (i, true) (j, true) (mem_spinD ha _) (mem_spinD hb _) (mem_spinD hi _) (mem_spinD hj _)
  have l := capL2 F _ split_lin_wf split_lin_cap A.so _ (spinD_disjoint hD)
    (fun a b c d i j k l ha hb hc hd hi hj hk hl => (lin_thin A.so hA.so _ rfl).symm.trans
      (lin_eval F (spinD_disjoint hD) A.so hA.so h hf a b c d i j k l ha hb hc hd hi hj hk hl)) (a, true) (b, true) (i, true) (j, true) (mem_spinD ha _) (mem_spinD hb _) (mem_spinD hi _) (mem_spinD hj _)
  rw [mul_add, map_add, q, ← l]
  exact e.symm

omit [DecidableEq I] in
/-- `energy_pertQf` of `fullCCenergy.py`, written with spin orbitals. -/
theorem C83_pertQf_t4 (A : SI I K) (hA : A.Sym) : si_energy_pertQf_t4 D A = 1 / 16 *
    ∑ a ∈ spinD D 1, ∑ b ∈ spinD D 1, ∑ c ∈ spinD D 1, ∑ d ∈ spinD D 1, ∑ i ∈ spinD D 0, ∑ j ∈ spinD D 0,
      ∑ k ∈ spinD D 0, ∑ l ∈ spinD D 0, A.so.g i j a b * A.so.l2 k l c d * A.so.t4 a b c d i j k l := by
  have e := so_eval_of_isZero D A hA _ _ [] _ _ _ Cert.pertQf_t4_spin (by decide +kernel) (by decide +kernel) rfl [] rfl
  refine e.symm.trans ?_
  simp [Gen.pertT4, Prog.eval, Blk.eval, termVal, dums, vars, varsIx, insertNew, sumOver, evalFs, SO.T, sp, N.g, N.l2, N.t4,
    Ein.bind, Function.update, N.aᵥ, N.bᵥ, N.cᵥ, N.dᵥ, N.iₒ, N.jₒ, N.kₒ, N.lₒ, at4, at8, mul_assoc]

/-- The matrix elements are not all zero. -/
example : ∃ (F : Fermi (ℕ × Bool) ℚ (Module.End ℚ (Fock (ℕ × Bool) ℚ)) (spinD Witness.D)) (h : ℕ × Bool → ℕ × Bool → ℚ),
    F.ω (F.bra4 (2, false) (3, false) (2, true) (3, true) (0, false) (1, false) (0, true) (1, true) *
      ((1/2 : ℚ) • com (com (F.fluct h Witness.si.so.f Witness.si.so.g) (F.T2 Witness.si.so.t2)) (F.T2 Witness.si.so.t2) +
        com (F.fluct h Witness.si.so.f Witness.si.so.g) (F.T3 Witness.si.so.t3))) ≠ 0 := by
  obtain ⟨F⟩ := exists_fermi (K := ℚ) (spinD_disjoint (D := Witness.D) (by decide))
  obtain ⟨h, hf⟩ := exists_isFock (D := spinD Witness.D) Witness.si.so
  have e : ccsdtq_t4_aabbaabb Witness.D Witness.si 2 3 2 3 0 1 0 1 ≠ 0 := by decide +kernel
  refine ⟨F, h, ?_⟩
  rwa [← C83_ccsdtq_t4_aabbaabb F (by decide) Witness.si Witness.si_sym h hf 2 3 2 3 0 1 0 1 (by decide) (by decide) (by decide)
    (by decide) (by decide) (by decide) (by decide) (by decide)]

end Verif.Props
