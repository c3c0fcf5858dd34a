import Verif.Ein.Ops2
import Mathlib.GroupTheory.Perm.Sign
import Mathlib.Data.Fintype.Perm
import Mathlib.Data.List.OfFn
import Mathlib.Algebra.BigOperators.Group.Finset.Basic
import Mathlib.Algebra.BigOperators.GroupWithZero.Action
import Mathlib.Data.Fintype.BigOperators

/-!
# Antisymmetrisers

`antisym tab R` is the array computed by a function that accumulates signed transposes of the array `R`
(`tamps.py` 53-692, `wicked_T3corr.py` 146-195); `tab` lists the signs and the output positions of the `einsum`
calls. `fullSum` is the full signed sum over permutations of the two halves of the axes, the reference for such
functions.
-/

namespace Verif.Ein

open Equiv

/-- The list `l` with `pick π l = xs`. -/
def unpick {α : Type} (d : α) (π : List Nat) (xs : List α) : List α :=
  (List.range π.length).map fun j => xs.getD (π.idxOf j) d

variable {I K : Type} [Field K] [Inhabited I]

/-- `res += s * einsum('ijab->…', R)` for every entry of the table: the entry of the transposed array with
output positions `π` at `xs` is the entry of `R` at `unpick π xs`. -/
def antisym (tab : List (ℤ × List Nat)) (R : List I → K) (xs : List I) : K :=
  (tab.map fun q => (q.1 : K) * R (unpick default q.2 xs)).sum

/-- Sum over all permutations of the first `m` and of the last `n` axes, with their signs. -/
def fullSum (m n : Nat) (R : List I → K) (x : Fin m → I) (y : Fin n → I) : K :=
  ∑ σ : Perm (Fin m), ∑ τ : Perm (Fin n),
    ((Perm.sign σ : ℤ) : K) * ((Perm.sign τ : ℤ) : K) * R (List.ofFn (x ∘ σ) ++ List.ofFn (y ∘ τ))

/-! ## transposes -/

theorem isPerm_nodup (n : Nat) (π : List Nat) (hπ : isPerm n π = true) :
    π.length = n ∧ π.Nodup ∧ ∀ k < n, k ∈ π := by
  simp only [isPerm, Bool.and_eq_true, Nat.beq_eq, List.all_eq_true, List.mem_range, List.elem_eq_mem,
    decide_eq_true_eq] at hπ
  obtain ⟨h1, h2⟩ := hπ
  refine ⟨h1, ?_, h2⟩
  have hsub : (List.range n).Subperm π := List.subperm_of_subset List.nodup_range fun k hk =>
    h2 k (List.mem_range.1 hk)
  have hp : (List.range n).Perm π := hsub.perm_of_length_le (by simp [h1])
  exact hp.nodup_iff.1 List.nodup_range

theorem unpick_pick {α : Type} (d : α) (n : Nat) (π : List Nat) (hπ : isPerm n π = true) (l : List α)
    (hl : l.length = n) : unpick d π (pick d π l) = l := by
  obtain ⟨h1, h2, h3⟩ := isPerm_nodup n π hπ
  apply List.ext_getElem
  · simp [unpick, h1, hl]
  · intro j hj hj'
    simp only [unpick, List.getElem_map, List.getElem_range]
    have hm : j ∈ π := h3 j (by omega)
    have hi : π.idxOf j < π.length := List.idxOf_lt_length_of_mem hm
    rw [List.getD_eq_getElem _ _ (by simpa [pick] using hi), pick_getElem _ _ _ _ _ hi, List.getElem_idxOf,
      List.getD_eq_getElem _ _ hj']

theorem pick_unpick {α : Type} (d : α) (n : Nat) (π : List Nat) (hπ : isPerm n π = true) (xs : List α)
    (hl : xs.length = n) : pick d π (unpick d π xs) = xs := by
  obtain ⟨h1, h2, h3⟩ := isPerm_nodup n π hπ
  apply List.ext_getElem
  · simp [pick, h1, hl]
  · intro k hk hk'
    have hkp : k < π.length := by omega
    rw [pick_getElem _ _ _ _ _ hkp]
    have hlt := isPerm_lt n π hπ _ (List.getElem_mem hkp)
    rw [List.getD_eq_getElem _ _ (by simp [unpick]; omega)]
    simp only [unpick, List.getElem_map, List.getElem_range]
    rw [List.Nodup.idxOf_getElem h2, List.getD_eq_getElem _ _ hk']

theorem length_unpick {α : Type} (d : α) (π : List Nat) (xs : List α) : (unpick d π xs).length = π.length := by
  simp [unpick]

variable (D : Nat → Finset I) (T : Nat → List I → K)

theorem Prog.eval_outs' (n : Nat) (π : List Nat) (hπ : isPerm n π = true) (P : Prog) (hP : P.wf n = true)
    (xs : List I) (hx : xs.length = n) : (P.outs π).eval D T xs = P.eval D T (unpick default π xs) := by
  rw [← Prog.eval_outs D T n π hπ P hP _ (by rw [length_unpick]; exact (isPerm_nodup n π hπ).1),
    pick_unpick default n π hπ xs hx]

/-- A program sent through an antisymmetriser gives the antisymmetrised array. -/
theorem Prog.eval_through (n : Nat) (tab : List (ℤ × List Nat)) (ht : tab.all (fun q => isPerm n q.2) = true)
    (P : Prog) (hP : P.wf n = true) (xs : List I) (hx : xs.length = n) :
    (P.through tab).eval D T xs = antisym tab (P.eval D T) xs := by
  induction tab with
  | nil => rw [Prog.eval_through_nil]; rfl
  | cons q tab ih =>
    simp only [List.all_cons, Bool.and_eq_true] at ht
    rw [Prog.eval_through_cons, ih ht.2, Prog.eval_outs' D T n q.2 ht.1 P hP xs hx]
    rfl

/-! ## full signed sums -/

theorem antisym_perm {tab tab' : List (ℤ × List Nat)} (h : tab.Perm tab') (R : List I → K) (xs : List I) :
    antisym tab R xs = antisym tab' R xs := (h.map _).sum_eq

/-- The row of a table for a pair of permutations. -/
def row {m n : Nat} (σ : Perm (Fin m)) (τ : Perm (Fin n)) : ℤ × List Nat :=
  ((Perm.sign σ : ℤ) * (Perm.sign τ : ℤ), (List.ofFn fun k => (σ k : Nat)) ++ List.ofFn fun k => m + (τ k : Nat))

theorem isPerm_row {m n : Nat} (σ : Perm (Fin m)) (τ : Perm (Fin n)) : isPerm (m + n) (row σ τ).2 = true := by
  simp only [isPerm, Bool.and_eq_true, Nat.beq_eq, List.all_eq_true, List.mem_range, List.elem_eq_mem,
    decide_eq_true_eq, row, List.length_append, List.length_ofFn, List.mem_append, List.mem_ofFn]
  refine ⟨trivial, fun k hk => ?_⟩
  by_cases h : k < m
  · exact Or.inl ⟨σ.symm ⟨k, h⟩, by simp⟩
  · exact Or.inr ⟨τ.symm ⟨k - m, by omega⟩, by simp; omega⟩

theorem pick_row {α : Type} (d : α) {m n : Nat} (σ : Perm (Fin m)) (τ : Perm (Fin n)) (x : Fin m → α) (y : Fin n → α) :
    pick d (row σ τ).2 (List.ofFn (x ∘ σ.symm) ++ List.ofFn (y ∘ τ.symm)) = List.ofFn x ++ List.ofFn y := by
  simp only [pick, row, List.map_append, List.map_ofFn]
  congr 1
  · congr 1
    funext k
    simp only [Function.comp]
    rw [List.getD_eq_getElem _ _ (by simp; omega), List.getElem_append_left (by simp)]
    simp
  · congr 1
    funext k
    simp only [Function.comp]
    rw [List.getD_eq_getElem _ _ (by simp), List.getElem_append_right (by simp)]
    simp

theorem unpick_row {α : Type} (d : α) {m n : Nat} (σ : Perm (Fin m)) (τ : Perm (Fin n)) (x : Fin m → α) (y : Fin n → α) :
    unpick d (row σ τ).2 (List.ofFn x ++ List.ofFn y) =
      List.ofFn (x ∘ σ.symm) ++ List.ofFn (y ∘ τ.symm) := by
  rw [← pick_row d σ τ x y, unpick_pick d (m + n) _ (isPerm_row σ τ) _ (by simp)]

/-- A table that lists all pairs of permutations with their signs computes the full signed sum. -/
theorem antisym_eq_fullSum {m n : Nat} (tab : List (ℤ × List Nat)) (ps : List (Perm (Fin m)))
    (qs : List (Perm (Fin n))) (hps : (ps : Multiset (Perm (Fin m))) = Finset.univ.val)
    (hqs : (qs : Multiset (Perm (Fin n))) = Finset.univ.val)
    (htab : tab.Perm (ps.flatMap fun σ => qs.map fun τ => row σ τ))
    (R : List I → K) (x : Fin m → I) (y : Fin n → I) :
    antisym tab R (List.ofFn x ++ List.ofFn y) = fullSum m n R x y := by
  rw [antisym_perm htab]
  have hsum : ∀ F : Perm (Fin m) → K, (ps.map F).sum = ∑ σ, F σ := by
    intro F
    rw [Finset.sum_eq_multiset_sum, ← hps, Multiset.map_coe, Multiset.sum_coe]
  have hsum' : ∀ F : Perm (Fin n) → K, (qs.map F).sum = ∑ σ, F σ := by
    intro F
    rw [Finset.sum_eq_multiset_sum, ← hqs, Multiset.map_coe, Multiset.sum_coe]
  have hflat : ∀ l : List (Perm (Fin m)),
      antisym (l.flatMap fun σ => qs.map fun τ => row σ τ) R (List.ofFn x ++ List.ofFn y) =
        (l.map fun σ => (qs.map fun τ => (((row σ τ).1 : ℤ) : K) *
          R (unpick default (row σ τ).2 (List.ofFn x ++ List.ofFn y))).sum).sum := by
    intro l
    induction l with
    | nil => rfl
    | cons σ l ih =>
      rw [List.map_cons, List.sum_cons, ← ih]
      simp only [antisym, List.flatMap_cons, List.map_append, List.sum_append, List.map_map]
      rfl
  rw [hflat, hsum]
  unfold fullSum
  rw [← Equiv.sum_comp (Equiv.inv (Perm (Fin m)))]
  refine Finset.sum_congr rfl fun σ _ => ?_
  rw [hsum', ← Equiv.sum_comp (Equiv.inv (Perm (Fin n)))]
  refine Finset.sum_congr rfl fun τ _ => ?_
  rw [unpick_row]
  simp only [row, Equiv.inv_apply, Perm.sign_inv]
  push_cast
  rfl

theorem sign_mul_self (n : Nat) (π : Perm (Fin n)) : ((Perm.sign π : ℤ) : K) * ((Perm.sign π : ℤ) : K) = 1 := by
  rcases Int.units_eq_one_or (Perm.sign π) with h | h <;> simp [h]

omit [Inhabited I] in
/-- The full signed sum is antisymmetric in the first half of the axes … -/
theorem fullSum_left (m n : Nat) (R : List I → K) (x : Fin m → I) (y : Fin n → I) (π : Perm (Fin m)) :
    fullSum m n R (x ∘ π) y = ((Perm.sign π : ℤ) : K) * fullSum m n R x y := by
  unfold fullSum
  rw [Finset.mul_sum, ← Equiv.sum_comp (Equiv.mulLeft π)]
  conv_rhs => rw [← Equiv.sum_comp (Equiv.mulLeft π)]
  rw [← Equiv.sum_comp (Equiv.mulLeft π⁻¹)]
  refine Finset.sum_congr rfl fun σ _ => ?_
  rw [Finset.mul_sum]
  refine Finset.sum_congr rfl fun τ _ => ?_
  have e : (x ∘ ⇑π) ∘ ⇑((Equiv.mulLeft π) ((Equiv.mulLeft π⁻¹) σ)) = x ∘ ⇑((Equiv.mulLeft π) σ) := by
    funext k; simp
  rw [e]
  simp only [Equiv.coe_mulLeft, mul_inv_cancel_left, Perm.sign_mul, Units.val_mul, Int.cast_mul]
  linear_combination (- ((Perm.sign σ : ℤ) : K) * ((Perm.sign τ : ℤ) : K) *
    R (List.ofFn (x ∘ ⇑(π * σ)) ++ List.ofFn (y ∘ ⇑τ))) * sign_mul_self (K := K) m π

omit [Inhabited I] in
/-- … and in the second. -/
theorem fullSum_right (m n : Nat) (R : List I → K) (x : Fin m → I) (y : Fin n → I) (π : Perm (Fin n)) :
    fullSum m n R x (y ∘ π) = ((Perm.sign π : ℤ) : K) * fullSum m n R x y := by
  unfold fullSum
  rw [Finset.mul_sum]
  refine Finset.sum_congr rfl fun σ _ => ?_
  rw [Finset.mul_sum, ← Equiv.sum_comp (Equiv.mulLeft π)]
  conv_rhs => rw [← Equiv.sum_comp (Equiv.mulLeft π)]
  rw [← Equiv.sum_comp (Equiv.mulLeft π⁻¹)]
  refine Finset.sum_congr rfl fun τ _ => ?_
  have e : (y ∘ ⇑π) ∘ ⇑((Equiv.mulLeft π) ((Equiv.mulLeft π⁻¹) τ)) = y ∘ ⇑((Equiv.mulLeft π) τ) := by
    funext k; simp
  rw [e]
  simp only [Equiv.coe_mulLeft, mul_inv_cancel_left, Perm.sign_mul, Units.val_mul, Int.cast_mul]
  linear_combination (- ((Perm.sign σ : ℤ) : K) * ((Perm.sign τ : ℤ) : K) *
    R (List.ofFn (x ∘ ⇑σ) ++ List.ofFn (y ∘ ⇑(π * τ)))) * sign_mul_self (K := K) n π

omit [Inhabited I] in
/-- An antisymmetric array is multiplied by `m! n!`. -/
theorem fullSum_of_anti (m n : Nat) (R : List I → K)
    (h1 : ∀ (x : Fin m → I) (y : Fin n → I) (π : Perm (Fin m)),
      R (List.ofFn (x ∘ π) ++ List.ofFn y) = ((Perm.sign π : ℤ) : K) * R (List.ofFn x ++ List.ofFn y))
    (h2 : ∀ (x : Fin m → I) (y : Fin n → I) (π : Perm (Fin n)),
      R (List.ofFn x ++ List.ofFn (y ∘ π)) = ((Perm.sign π : ℤ) : K) * R (List.ofFn x ++ List.ofFn y))
    (x : Fin m → I) (y : Fin n → I) :
    fullSum m n R x y = (Nat.factorial m : K) * (Nat.factorial n : K) * R (List.ofFn x ++ List.ofFn y) := by
  unfold fullSum
  have e : ∀ (σ : Perm (Fin m)) (τ : Perm (Fin n)),
      ((Perm.sign σ : ℤ) : K) * ((Perm.sign τ : ℤ) : K) * R (List.ofFn (x ∘ σ) ++ List.ofFn (y ∘ τ)) =
        R (List.ofFn x ++ List.ofFn y) := by
    intro σ τ
    rw [h1, h2]
    linear_combination R (List.ofFn x ++ List.ofFn y) * ((Perm.sign τ : ℤ) : K) * ((Perm.sign τ : ℤ) : K) *
      sign_mul_self (K := K) m σ + R (List.ofFn x ++ List.ofFn y) * sign_mul_self (K := K) n τ
  simp only [e, Finset.sum_const, Finset.card_univ, Fintype.card_perm, Fintype.card_fin, nsmul_eq_mul]
  ring

omit [Inhabited I] in
/-- Antisymmetry under all exchanges of two indices is antisymmetry under all permutations. -/
theorem anti_of_swaps {n : Nat} (F : (Fin n → I) → K) (h : ∀ (i j : Fin n) (x : Fin n → I), i ≠ j →
    F (x ∘ Equiv.swap i j) = - F x) (π : Perm (Fin n)) (x : Fin n → I) :
    F (x ∘ π) = ((Perm.sign π : ℤ) : K) * F x := by
  induction π using Perm.swap_induction_on generalizing x with
  | one => simp
  | swap_mul f i j hij ih =>
    have e : x ∘ ⇑(Equiv.swap i j * f) = (x ∘ Equiv.swap i j) ∘ f := by funext k; simp
    rw [e, ih, h i j x hij]
    simp [Perm.sign_swap hij]

end Verif.Ein
