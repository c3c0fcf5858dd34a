import Verif.Lemmas.Antisym
import Mathlib.Tactic.FinCases
import Mathlib.Tactic.Ring

/-!
# Antisymmetrisers (C29, C30, C31)

An array with `m + n` axes is a function of the index list; `List.ofFn o ++ List.ofFn v` is the entry with first
indices `o` and last indices `v`. `permutationSum` is the reference: the signed sum over all pairs of permutations.
-/

namespace Verif.Props

open Verif.Ein Verif.UT2 Equiv

variable {I K : Type} [Field K] [Inhabited I]

/-- The signed sum over all permutations of the first `m` and of the last `n` indices. -/
def permutationSum (m n : Nat) (R : List I → K) (o : Fin m → I) (v : Fin n → I) : K :=
  ∑ σ : Perm (Fin m), ∑ τ : Perm (Fin n),
    ((Perm.sign σ : ℤ) : K) * ((Perm.sign τ : ℤ) : K) * R (List.ofFn (o ∘ σ) ++ List.ofFn (v ∘ τ))

/-- An array changes sign when two of the first `m` or two of the last `n` indices are exchanged. -/
structure Antisymmetric (m n : Nat) (R : List I → K) : Prop where
  first : ∀ (i j : Fin m) (o : Fin m → I) (v : Fin n → I), i ≠ j →
    R (List.ofFn (o ∘ Equiv.swap i j) ++ List.ofFn v) = - R (List.ofFn o ++ List.ofFn v)
  last : ∀ (i j : Fin n) (o : Fin m → I) (v : Fin n → I), i ≠ j →
    R (List.ofFn o ++ List.ofFn (v ∘ Equiv.swap i j)) = - R (List.ofFn o ++ List.ofFn v)

omit [Inhabited I] in
theorem antisymmetric_of_sum (m n : Nat) (R S : List I → K)
    (h : ∀ (o : Fin m → I) (v : Fin n → I), R (List.ofFn o ++ List.ofFn v) = permutationSum m n S o v) :
    Antisymmetric m n R := by
  constructor
  · intro i j o v hij
    rw [h, h]
    have := fullSum_left m n S o v (Equiv.swap i j)
    rw [Perm.sign_swap hij] at this
    simpa [fullSum, permutationSum] using this
  · intro i j o v hij
    rw [h, h]
    have := fullSum_right m n S o v (Equiv.swap i j)
    rw [Perm.sign_swap hij] at this
    simpa [fullSum, permutationSum] using this

omit [Inhabited I] in
theorem sum_of_antisymmetric (m n : Nat) (R : List I → K) (h : Antisymmetric m n R) (o : Fin m → I)
    (v : Fin n → I) :
    permutationSum m n R o v = (m.factorial : K) * (n.factorial : K) * R (List.ofFn o ++ List.ofFn v) := by
  refine fullSum_of_anti m n R (fun x y π => ?_) (fun x y π => ?_) o v
  · exact anti_of_swaps (fun x => R (List.ofFn x ++ List.ofFn y)) (fun i j x hij => h.first i j x y hij) π x
  · exact anti_of_swaps (fun y => R (List.ofFn x ++ List.ofFn y)) (fun i j y hij => h.last i j x y hij) π y

/-- `antisym_T2` is the full signed permutation sum. -/
theorem C31_antisym_T2 (R : List I → K) (o : Fin 2 → I) (v : Fin 2 → I) :
    antisym_T2 R (List.ofFn o ++ List.ofFn v) = permutationSum 2 2 R o v :=
  antisym_eq_fullSum _ perms2 perms2 perms2_univ perms2_univ (perm_of_sortRows tamps_T2_rows) R o v

/-- `antisym_T2` returns an antisymmetric array, whatever it is given. -/
theorem C29_antisym_T2 (R : List I → K) : Antisymmetric 2 2 (antisym_T2 R) :=
  antisymmetric_of_sum 2 2 _ R (C31_antisym_T2 R)

/-- `antisym_T2` multiplies an antisymmetric array by 4. -/
theorem C30_antisym_T2 (R : List I → K) (h : Antisymmetric 2 2 R) (o : Fin 2 → I) (v : Fin 2 → I) :
    antisym_T2 R (List.ofFn o ++ List.ofFn v) = 4 * R (List.ofFn o ++ List.ofFn v) := by
  rw [C31_antisym_T2, sum_of_antisymmetric 2 2 R h]
  norm_num [Nat.factorial]

/-- `wicked_antisym_T2` is the full signed permutation sum. -/
theorem C31_wicked_antisym_T2 (R : List I → K) (o : Fin 2 → I) (v : Fin 2 → I) :
    wicked_antisym_T2 R (List.ofFn o ++ List.ofFn v) = permutationSum 2 2 R o v :=
  antisym_eq_fullSum _ perms2 perms2 perms2_univ perms2_univ (perm_of_sortRows wicked_T2_rows) R o v

/-- `wicked_antisym_T2` returns an antisymmetric array, whatever it is given. -/
theorem C29_wicked_antisym_T2 (R : List I → K) : Antisymmetric 2 2 (wicked_antisym_T2 R) :=
  antisymmetric_of_sum 2 2 _ R (C31_wicked_antisym_T2 R)

/-- `wicked_antisym_T2` multiplies an antisymmetric array by 4. -/
theorem C30_wicked_antisym_T2 (R : List I → K) (h : Antisymmetric 2 2 R) (o : Fin 2 → I) (v : Fin 2 → I) :
    wicked_antisym_T2 R (List.ofFn o ++ List.ofFn v) = 4 * R (List.ofFn o ++ List.ofFn v) := by
  rw [C31_wicked_antisym_T2, sum_of_antisymmetric 2 2 R h]
  norm_num [Nat.factorial]

/-- `antisymmetrize_residual_2_2` is the full signed permutation sum. -/
theorem C31_antisymmetrize_residual_2_2 (R : List I → K) (o : Fin 2 → I) (v : Fin 2 → I) :
    antisymmetrize_residual_2_2 R (List.ofFn o ++ List.ofFn v) = permutationSum 2 2 R o v :=
  antisym_eq_fullSum _ perms2 perms2 perms2_univ perms2_univ (perm_of_sortRows t4resids_2_2_rows) R o v

/-- `antisymmetrize_residual_2_2` returns an antisymmetric array, whatever it is given. -/
theorem C29_antisymmetrize_residual_2_2 (R : List I → K) : Antisymmetric 2 2 (antisymmetrize_residual_2_2 R) :=
  antisymmetric_of_sum 2 2 _ R (C31_antisymmetrize_residual_2_2 R)

/-- `antisymmetrize_residual_2_2` multiplies an antisymmetric array by 4. -/
theorem C30_antisymmetrize_residual_2_2 (R : List I → K) (h : Antisymmetric 2 2 R) (o : Fin 2 → I) (v : Fin 2 → I) :
    antisymmetrize_residual_2_2 R (List.ofFn o ++ List.ofFn v) = 4 * R (List.ofFn o ++ List.ofFn v) := by
  rw [C31_antisymmetrize_residual_2_2, sum_of_antisymmetric 2 2 R h]
  norm_num [Nat.factorial]

/-- `antisym_T3` is the full signed permutation sum. -/
theorem C31_antisym_T3 (R : List I → K) (o : Fin 3 → I) (v : Fin 3 → I) :
    antisym_T3 R (List.ofFn o ++ List.ofFn v) = permutationSum 3 3 R o v :=
  antisym_eq_fullSum _ perms3 perms3 perms3_univ perms3_univ (perm_of_sortRows tamps_T3_rows) R o v

/-- `antisym_T3` returns an antisymmetric array, whatever it is given. -/
theorem C29_antisym_T3 (R : List I → K) : Antisymmetric 3 3 (antisym_T3 R) :=
  antisymmetric_of_sum 3 3 _ R (C31_antisym_T3 R)

/-- `antisym_T3` multiplies an antisymmetric array by 36. -/
theorem C30_antisym_T3 (R : List I → K) (h : Antisymmetric 3 3 R) (o : Fin 3 → I) (v : Fin 3 → I) :
    antisym_T3 R (List.ofFn o ++ List.ofFn v) = 36 * R (List.ofFn o ++ List.ofFn v) := by
  rw [C31_antisym_T3, sum_of_antisymmetric 3 3 R h]
  norm_num [Nat.factorial]

/-- `wicked_antisym_T3` is the full signed permutation sum. -/
theorem C31_wicked_antisym_T3 (R : List I → K) (o : Fin 3 → I) (v : Fin 3 → I) :
    wicked_antisym_T3 R (List.ofFn o ++ List.ofFn v) = permutationSum 3 3 R o v :=
  antisym_eq_fullSum _ perms3 perms3 perms3_univ perms3_univ (perm_of_sortRows wicked_T3_rows) R o v

/-- `wicked_antisym_T3` returns an antisymmetric array, whatever it is given. -/
theorem C29_wicked_antisym_T3 (R : List I → K) : Antisymmetric 3 3 (wicked_antisym_T3 R) :=
  antisymmetric_of_sum 3 3 _ R (C31_wicked_antisym_T3 R)

/-- `wicked_antisym_T3` multiplies an antisymmetric array by 36. -/
theorem C30_wicked_antisym_T3 (R : List I → K) (h : Antisymmetric 3 3 R) (o : Fin 3 → I) (v : Fin 3 → I) :
    wicked_antisym_T3 R (List.ofFn o ++ List.ofFn v) = 36 * R (List.ofFn o ++ List.ofFn v) := by
  rw [C31_wicked_antisym_T3, sum_of_antisymmetric 3 3 R h]
  norm_num [Nat.factorial]

/-- `t4resids_antisym_T3` is the full signed permutation sum. -/
theorem C31_t4resids_antisym_T3 (R : List I → K) (o : Fin 2 → I) (v : Fin 4 → I) :
    t4resids_antisym_T3 R (List.ofFn o ++ List.ofFn v) = permutationSum 2 4 R o v :=
  antisym_eq_fullSum _ perms2 perms4 perms2_univ perms4_univ (perm_of_sortRows t4resids_T3_rows) R o v

/-- `t4resids_antisym_T3` returns an antisymmetric array, whatever it is given. -/
theorem C29_t4resids_antisym_T3 (R : List I → K) : Antisymmetric 2 4 (t4resids_antisym_T3 R) :=
  antisymmetric_of_sum 2 4 _ R (C31_t4resids_antisym_T3 R)

/-- `t4resids_antisym_T3` multiplies an antisymmetric array by 48. -/
theorem C30_t4resids_antisym_T3 (R : List I → K) (h : Antisymmetric 2 4 R) (o : Fin 2 → I) (v : Fin 4 → I) :
    t4resids_antisym_T3 R (List.ofFn o ++ List.ofFn v) = 48 * R (List.ofFn o ++ List.ofFn v) := by
  rw [C31_t4resids_antisym_T3, sum_of_antisymmetric 2 4 R h]
  norm_num [Nat.factorial]

/-- `antisym_T4` is the full signed permutation sum. -/
theorem C31_antisym_T4 (R : List I → K) (o : Fin 4 → I) (v : Fin 4 → I) :
    antisym_T4 R (List.ofFn o ++ List.ofFn v) = permutationSum 4 4 R o v :=
  antisym_eq_fullSum _ perms4 perms4 perms4_univ perms4_univ (perm_of_sortRows tamps_T4_rows) R o v

/-- `antisym_T4` returns an antisymmetric array, whatever it is given. -/
theorem C29_antisym_T4 (R : List I → K) : Antisymmetric 4 4 (antisym_T4 R) :=
  antisymmetric_of_sum 4 4 _ R (C31_antisym_T4 R)

/-- `antisym_T4` multiplies an antisymmetric array by 576. -/
theorem C30_antisym_T4 (R : List I → K) (h : Antisymmetric 4 4 R) (o : Fin 4 → I) (v : Fin 4 → I) :
    antisym_T4 R (List.ofFn o ++ List.ofFn v) = 576 * R (List.ofFn o ++ List.ofFn v) := by
  rw [C31_antisym_T4, sum_of_antisymmetric 4 4 R h]
  norm_num [Nat.factorial]

/-- `antisym_t4_residual` is the full signed permutation sum. -/
theorem C31_antisym_t4_residual (R : List I → K) (o : Fin 4 → I) (v : Fin 4 → I) :
    antisym_t4_residual R (List.ofFn o ++ List.ofFn v) = permutationSum 4 4 R o v :=
  antisym_eq_fullSum _ perms4 perms4 perms4_univ perms4_univ (perm_of_sortRows t4resids_T4_rows) R o v

/-- `antisym_t4_residual` returns an antisymmetric array, whatever it is given. -/
theorem C29_antisym_t4_residual (R : List I → K) : Antisymmetric 4 4 (antisym_t4_residual R) :=
  antisymmetric_of_sum 4 4 _ R (C31_antisym_t4_residual R)

/-- `antisym_t4_residual` multiplies an antisymmetric array by 576. -/
theorem C30_antisym_t4_residual (R : List I → K) (h : Antisymmetric 4 4 R) (o : Fin 4 → I) (v : Fin 4 → I) :
    antisym_t4_residual R (List.ofFn o ++ List.ofFn v) = 576 * R (List.ofFn o ++ List.ofFn v) := by
  rw [C31_antisym_t4_residual, sum_of_antisymmetric 4 4 R h]
  norm_num [Nat.factorial]

/-! ## Concrete cases -/

/-- An array without any symmetry and the antisymmetrised one. -/
def sample : List ℕ → ℚ
  | [i, j, a, b] => (i : ℚ) * i * j * (a + 2 * b)
  | _ => 0

example : antisym_T2 sample [1, 2, 3, 5] ≠ 0 := by decide +kernel

/-- The product of differences is antisymmetric and not zero. -/
def vander : List ℕ → ℚ
  | [i, j, a, b] => ((i : ℚ) - j) * (a - b)
  | _ => 0

example : Antisymmetric 2 2 vander := by
  constructor <;> intro i j o v hij <;> fin_cases i <;> fin_cases j <;> simp at hij <;>
    simp [vander, Equiv.swap_apply_def, Function.comp] <;> ring

example : antisym_T2 vander [1, 2, 3, 5] = 4 * vander [1, 2, 3, 5] ∧ vander [1, 2, 3, 5] ≠ 0 := by decide +kernel

end Verif.Props
