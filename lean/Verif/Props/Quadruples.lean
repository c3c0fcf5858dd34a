import Verif.Model.Antisym
import Verif.Fn.All
import Verif.Cert.So
import Verif.Cert.So2
import Verif.Cert.SoT4
import Verif.Ein.Anti
import Verif.Ein.Degree
import Verif.Lemmas.Witness
import Mathlib.Tactic.LinearCombination

/-!
# Factorised quadruples computed in different ways (C65, C66)

`modify_T2resid_T4Qf1Slow.py`, `cc_energy.py`, `build_qf_correction.py` and `antisym_t4resids.py` contain several
generated forms of the same contributions.
-/

namespace Verif.Props

open Verif.Ein Verif.UT2

variable {I K : Type} [Field K] [CharZero K] [Inhabited I] (D : Nat → Finset I)

theorem t2_len {I : Type} (l : List I) (h : l.length = 4) : ∃ a b i j, l = [a, b, i, j] := by
  match l, h with
  | [a, b, i, j], _ => exact ⟨a, b, i, j, rfl⟩

omit [CharZero K] in
/-- If the de-excitation amplitudes are the transposed amplitudes, they may be replaced in a program. -/
theorem eval_rep_l2 (A : SO I K) (hl : ∀ i j a b, A.l2 i j a b = A.t2 a b i j) (P : Prog)
    (hP : P.allFac (fun f => !Nat.beq f.t 71 || Nat.beq f.ix.length 4) = true) (xs : List I) :
    (P.rep 71 39 [2, 3, 0, 1]).eval D A.T xs = P.eval D A.T xs := by
  refine Prog.eval_rep D A.T 71 39 4 [2, 3, 0, 1] P (by decide) hP (fun l h => ?_) xs
  obtain ⟨i, j, a, b, rfl⟩ := t2_len l h
  simpa [SO.T, at4, pick] using hl i j a b

/-! ## C65 -/

/-- `antisym_T2(optWnT2sqr(W,T2,o,v))` (`cc_energy.py` 137-138) is the array `residQf1` of
`modify_T2resid_T4Qf1Slow.py`, with the axes exchanged, when `l2` is the transpose of `t2`. -/
theorem C65_qf1 (A : SO I K) (hA : A.Sym) (hl : ∀ i j a b, A.l2 i j a b = A.t2 a b i j) (a b i j : I) :
    antisym_T2 (fun xs => Gen.optWnT2sqr.eval D A.T xs) [i, j, a, b] = residQf1 D A a b i j := by
  have h := eval_eq_of_isZero D A.T N.kinds hA.holds _ _ _ _ _ Cert.Qf1_wicked [a, b, i, j] rfl
  rw [eval_rep_l2 D A hl _ (by decide +kernel), Prog.eval_outs' D A.T 4 _ (by decide) _ (by decide +kernel) _ rfl,
    Prog.eval_through D A.T 4 _ (by decide +kernel) _ (by decide +kernel) _ rfl] at h
  exact h

/-- `wnT2cubed_toT2` of `build_qf_correction.py` is the array `residQf2` with the axes exchanged, when `l2` is the
transpose of `t2`. -/
theorem C65_qf2 (A : SO I K) (hA : A.Sym) (hl : ∀ i j a b, A.l2 i j a b = A.t2 a b i j) (a b i j : I) :
    wnT2cubed_toT2 D A i j a b = residQf2 D A a b i j := by
  have h := eval_eq_of_isZero D A.T N.kinds hA.holds _ _ _ _ _ Cert.Qf2_wicked [a, b, i, j] rfl
  rw [eval_rep_l2 D A hl _ (by decide +kernel), Prog.eval_outs' D A.T 4 _ (by decide) _ (by decide +kernel) _ rfl] at h
  exact h

/-- The two forms of the triples contribution in `cc_energy.py` (177-196 and 235-249) are equal. -/
theorem C65_triples (A : SO I K) (hA : A.Sym) (i j a b : I) : optWnT3 D A i j a b = T3portion_Qf D A i j a b := by
  have h := eval_eq_of_isZero D A.T N.kinds hA.holds _ _ _ _ _ Cert.optWnT3_eq [a, b, i, j] rfl
  rw [Prog.eval_outs' D A.T 4 _ (by decide) _ (by decide +kernel) _ rfl,
    Prog.eval_outs' D A.T 4 _ (by decide) _ (by decide +kernel) _ rfl] at h
  exact h

/-- The hypotheses can be met by arrays that are not zero. -/
example : Witness.so.Sym ∧ (∀ i j a b, Witness.so.l2 i j a b = Witness.so.t2 a b i j) ∧
    Witness.so.t2 2 3 0 1 ≠ 0 ∧ optWnT3 Witness.D33 Witness.so 0 1 3 4 ≠ 0 :=
  ⟨Witness.so_sym, fun _ _ _ _ => rfl, by decide +kernel, by decide +kernel⟩

/-! ## C66 -/

/-- `antisym_T4` of the unsymmetrised residuals of `modify_T2resid_T4Qf1Slow.py`, entry `[a,b,c,d,i,j,k,l]`. -/
def t4Qf1 (A : SO I K) (a b c d i j k l : I) : K :=
  antisym_T4 (fun xs => Gen.unsym_residQf1.eval D A.T xs) [a, b, c, d, i, j, k, l]
def t4Qf2 (A : SO I K) (a b c d i j k l : I) : K :=
  antisym_T4 (fun xs => Gen.unsym_residQf2.eval D A.T xs) [a, b, c, d, i, j, k, l]

/-- The generated quadruples residual of `antisym_t4resids.py` is the antisymmetrised short form. -/
theorem C66_pdagq (A : SO I K) (hA : A.Sym) (a b c d i j k l : I) :
    t4_test_residual D A a b c d i j k l = t4Qf1 D A a b c d i j k l := by
  have h := eval_eq_of_isZero D A.T N.kinds hA.holds _ _ _ _ _ Cert.T4_pdagq [a, b, c, d, i, j, k, l] rfl
  rw [Prog.eval_through D A.T 8 _ (by decide +kernel) _ (by decide +kernel) _ rfl] at h
  exact h

theorem cubed_rest : Gen.wnT2cubed_toT4.rest [[23, 39, 39]] = Gen.wnT2cubed_toT4.part [[23, 39, 39, 39]] := by rfl

/-- `wnT2cubed_toT4` of `build_qf_correction.py` is the sum of the antisymmetrised quadratic and cubic short forms,
with the axes exchanged. -/
theorem C66_wicked (A : SO I K) (hA : A.Sym) (a b c d i j k l : I) :
    wnT2cubed_toT4 D A i j k l a b c d = t4Qf1 D A a b c d i j k l + t4Qf2 D A a b c d i j k l := by
  have h1 := eval_eq_of_isZero D A.T N.kinds hA.holds _ _ _ _ _ Cert.T4_quad [a, b, c, d, i, j, k, l] rfl
  have h2 := eval_eq_of_isZero D A.T N.kinds hA.holds _ _ _ _ _ Cert.T4_cub [a, b, c, d, i, j, k, l] rfl
  rw [Prog.eval_through D A.T 8 _ (by decide +kernel) _ (by decide +kernel) _ rfl,
    Prog.eval_outs' D A.T 8 _ (by decide) _ (by decide +kernel) _ rfl] at h1 h2
  have h := Prog.eval_part D A.T [[23, 39, 39]] Gen.wnT2cubed_toT4 [i, j, k, l, a, b, c, d]
  rw [cubed_rest] at h
  unfold wnT2cubed_toT4
  rw [h]
  exact congrArg₂ (· + ·) h1 h2

end Verif.Props
