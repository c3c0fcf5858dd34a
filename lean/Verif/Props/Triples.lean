import Verif.Model.Antisym
import Verif.Fn.All
import Verif.Cert.So
import Verif.Cert.SoT3
import Verif.Cert.SpinT3
import Verif.Ein.Anti
import Verif.Ein.SpinSym
import Verif.Ein.SpinArrays
import Verif.Lemmas.Witness
import Mathlib.Tactic.LinearCombination

/-!
# Perturbative triples (C50, C51)

`D 0` is the set of occupied, `D 1` the set of virtual orbitals, of any size; `A` holds the arrays; `A.Sym` says that
the integrals and amplitudes have their symmetries (real orbitals).
-/

namespace Verif.Props

open Verif.Ein Verif.UT2

variable {I K : Type} [Field K] [CharZero K] [Inhabited I] (D : Nat → Finset I)

/-! ## C51 -/

/-- `wicked_T3corr.py` 76-81 (also `amphandler.py` 401-402): the second-order triples residual of the wicked route,
`antisym_T3(build_T3_secondO(g,o,v,t2))`, entry `[i,j,k,a,b,c]`. -/
def t3Wicked (A : SO I K) (i j k a b c : I) : K :=
  wicked_antisym_T3 (fun xs => Gen.build_T3_secondO.eval D A.T xs) [i, j, k, a, b, c]

/-- `cc_energy.py` 146: the same through `antisym_T3` of `tamps.py`, `antisym_T3(build_approxT3(g,o,v,t2))`. -/
def t3Approx (A : SO I K) (i j k a b c : I) : K :=
  antisym_T3 (fun xs => Gen.build_approxT3.eval D A.T xs) [i, j, k, a, b, c]

/-- The triples residuals of `pdagq_T3corr` and `wicked_T3corr` are the same array with the axes exchanged. -/
theorem C51_wicked (A : SO I K) (hA : A.Sym) (i j k a b c : I) :
    t3Wicked D A i j k a b c = build_T3 D A a b c i j k := by
  have h := eval_eq_of_isZero D A.T N.kinds hA.holds _ _ _ _ _ Cert.T3_wicked [a, b, c, i, j, k] rfl
  rw [Prog.eval_outs' D A.T 6 _ (by decide) _ (by decide +kernel) _ rfl,
    Prog.eval_through D A.T 6 _ (by decide +kernel) _ (by decide +kernel) _ rfl] at h
  exact h

/-- The triples residuals of `pdagq_T3corr` and `cc_energy` are the same array with the axes exchanged. -/
theorem C51_approx (A : SO I K) (hA : A.Sym) (i j k a b c : I) :
    t3Approx D A i j k a b c = build_T3 D A a b c i j k := by
  have h := eval_eq_of_isZero D A.T N.kinds hA.holds _ _ _ _ _ Cert.T3_tamps [a, b, c, i, j, k] rfl
  rw [Prog.eval_outs' D A.T 6 _ (by decide) _ (by decide +kernel) _ rfl,
    Prog.eval_through D A.T 6 _ (by decide +kernel) _ (by decide +kernel) _ rfl] at h
  exact h

/-- The doubles parts of the triples energy of the two modules agree: `pdagq_T3energy` and `getE_squareBrackT`. -/
theorem C51_energy (A : SO I K) (hA : A.Sym) : pdagq_T3energy D A = getE_squareBrackT D A :=
  eval_eq_of_isZero D A.T N.kinds hA.holds _ _ _ _ _ Cert.squareT [] rfl

/-! ## C50 -/

/-- The part of the triples energy with a singles bra, `1/4 Σ l1[i,a] <jk||bc> t3[a,b,c,i,j,k]`. -/
def tSingles (A : SO I K) : K :=
  1 / 4 * ∑ i ∈ D 0, ∑ a ∈ D 1, ∑ b ∈ D 1, ∑ c ∈ D 1, ∑ j ∈ D 0, ∑ k ∈ D 0, A.l1 i a * A.g j k b c * A.t3 a b c i j k

/-- The part with a doubles bra, `1/4 Σ l2[i,j,b,a] <lk||cj> t3[c,b,a,i,l,k] + 1/4 Σ l2[i,j,b,a] <kb||cd> t3[c,d,a,i,j,k]`. -/
def tDoubles (A : SO I K) : K :=
  1 / 4 * ∑ j ∈ D 0, ∑ c ∈ D 1, ∑ b ∈ D 1, ∑ a ∈ D 1, ∑ i ∈ D 0, ∑ l ∈ D 0, ∑ k ∈ D 0,
    A.l2 i j b a * A.g l k c j * A.t3 c b a i l k +
  1 / 4 * ∑ b ∈ D 1, ∑ c ∈ D 1, ∑ d ∈ D 1, ∑ a ∈ D 1, ∑ i ∈ D 0, ∑ j ∈ D 0, ∑ k ∈ D 0,
    A.l2 i j b a * A.g k b c d * A.t3 c d a i j k

/-- What `pdagq_T3energy` returns is the doubles part alone: the singles part of line 41 is overwritten in line 44. -/
theorem C50_pdagq_partial (A : SO I K) : pdagq_T3energy D A = tDoubles D A := by
  simp [pdagq_T3energy, Gen.pdagq_T3energy, tDoubles, Prog.eval, Blk.eval, termVal, dums, vars, varsIx, insertNew,
    sumOver, evalFs, SO.T, sp, N.g, N.l2, N.t3, Ein.bind, Function.update, N.aᵥ, N.bᵥ, N.cᵥ, N.dᵥ, N.iₒ,
    N.jₒ, N.kₒ, N.lₒ, at4, at6, mul_comm, mul_left_comm]

/-- The value printed by the wicked route (`amphandler.py` 409-412), `getE_squareBrackT + getE_parenT_t1`, does
contain both parts. -/
theorem C50_wicked (A : SO I K) (hA : A.Sym) :
    getE_squareBrackT D A + getE_parenT_t1 D A = tSingles D A + tDoubles D A := by
  rw [← C51_energy D A hA, C50_pdagq_partial, add_comm]
  congr 1
  have e : ∀ b c j k, A.g b c j k = A.g j k b c := fun b c j k => hA.g_herm ..
  simp [getE_parenT_t1, Gen.getE_parenT_t1, tSingles, Prog.eval, Blk.eval, termVal, dums, vars, varsIx, insertNew,
    sumOver, evalFs, SO.T, sp, N.g, N.l1, N.t3, Ein.bind, Function.update, N.aᵥ, N.bᵥ, N.cᵥ, N.iₒ,
    N.jₒ, N.kₒ, at2, at4, at6, e, mul_comm, mul_left_comm]

/-- The (T) energy of `pdagq_T3energy` is not the sum of the two parts, for arrays with all symmetries. -/
theorem C50_violated : ∃ A : SO ℕ ℚ, A.Sym ∧ pdagq_T3energy Witness.D33 A ≠ tSingles Witness.D33 A + tDoubles Witness.D33 A := by
  refine ⟨Witness.so, Witness.so_sym, fun h => ?_⟩
  rw [C50_pdagq_partial] at h
  have : tSingles Witness.D33 Witness.so ≠ 0 := by decide +kernel
  exact this (by linear_combination -h)

example : t3Wicked Witness.D33 Witness.so 0 1 2 3 4 5 ≠ 0 := by decide +kernel

end Verif.Props
