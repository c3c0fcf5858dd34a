import Verif.Wick.Nest
import Verif.Wick.Hamilton
import Mathlib.Algebra.BigOperators.NatAntidiagonal
import Mathlib.Algebra.Module.LinearMap.End

/-!
# The commutator expansion of `e^{-X} Y e^{X}`
-/

namespace Verif.Wick

open Verif.Ein

variable {I K A : Type} [DecidableEq I] [Field K] [Ring A] [Algebra K A] {D : Nat → Finset I} (F : Fermi I K A D)

/-- Commutator with `X` as a linear map. -/
def ad (K : Type) {A : Type} [Field K] [Ring A] [Algebra K A] (X : A) : Module.End K A :=
  - LinearMap.mulLeft K X + LinearMap.mulRight K X

theorem ad_apply (X Y : A) : ad K X Y = Y * X - X * Y := by
  simp [ad]; abel

theorem ad_pow (X Y : A) (k : Nat) : (ad K X ^ k) Y =
    ∑ m ∈ Finset.range (k + 1), ((-1 : K) ^ m * (k.choose m : K)) • (X ^ m * Y * X ^ (k - m)) := by
  have hc : Commute (- LinearMap.mulLeft K X) (LinearMap.mulRight K X) :=
    (LinearMap.commute_mulLeft_right X X).neg_left
  rw [ad, hc.add_pow, LinearMap.sum_apply]
  refine Finset.sum_congr rfl fun m _ => ?_
  rw [neg_pow (LinearMap.mulLeft K X), LinearMap.pow_mulLeft, LinearMap.pow_mulRight]
  have h1 : ((-1 : Module.End K A) ^ m * LinearMap.mulLeft K (X ^ m) * LinearMap.mulRight K (X ^ (k - m)) *
      ((k.choose m : ℕ) : Module.End K A)) Y = ((-1 : Module.End K A) ^ m) (X ^ m * (((k.choose m : ℕ) : K) • Y *
        X ^ (k - m))) := by
    simp [Module.End.mul_apply, Module.End.natCast_apply, Nat.cast_smul_eq_nsmul]
  rw [h1]
  have h2 : ∀ Z : A, ((-1 : Module.End K A) ^ m) Z = (-1 : K) ^ m • Z := by
    intro Z
    rcases Nat.even_or_odd m with h | h
    · rw [h.neg_one_pow (α := K), h.neg_one_pow (α := Module.End K A)]; simp
    · rw [h.neg_one_pow (α := K), h.neg_one_pow (α := Module.End K A)]; simp
  rw [h2]
  simp only [smul_mul_assoc, mul_smul_comm, smul_smul, mul_assoc]

/-- The words with `k` letters from a list, up to order, with the product of the factorials of the multiplicities. -/
def words : List Nat → Nat → List (List Nat × Nat)
  | [], 0 => [([], 1)]
  | [], _ + 1 => []
  | a :: ks, k => (List.range (k + 1)).flatMap fun m =>
      (words ks (k - m)).map fun u => (List.replicate m a ++ u.1, m.factorial * u.2)

theorem range_sum {M : Type} [AddCommMonoid M] (n : Nat) (f : Nat → M) :
    ∑ k ∈ Finset.range n, f k = ((List.range n).map f).sum := by
  induction n with
  | zero => rfl
  | succ n ih => rw [Finset.sum_range_succ, List.range_succ, List.map_append, List.sum_append, ih]; simp

theorem words_sum [CharZero K] (X : Nat → Module.End K A) (hX : ∀ a b, Commute (X a) (X b)) (ks : List Nat) : ∀ k : Nat,
    (1 / (k.factorial : K)) • (ks.map X).sum ^ k =
      ((words ks k).map fun u => (1 / (u.2 : K)) • (u.1.map X).reverse.prod).sum := by
  induction ks with
  | nil =>
    intro k
    cases k with
    | zero => simp [words]
    | succ k => simp [words]
  | cons a ks ih =>
    intro k
    have hc : Commute (X a) (ks.map X).sum := by
      clear ih
      induction ks with
      | nil => simp
      | cons b ks ih => rw [List.map_cons, List.sum_cons]; exact (hX a b).add_right ih
    rw [List.map_cons, List.sum_cons, hc.add_pow, words, map_sum_flatMap, ← range_sum, Finset.smul_sum]
    refine Finset.sum_congr rfl fun m hm => ?_
    have hmk : m ≤ k := by rw [Finset.mem_range] at hm; omega
    rw [List.map_map]
    have h1 : ((words ks (k - m)).map ((fun u : List Nat × Nat => (1 / (u.2 : K)) • (u.1.map X).reverse.prod) ∘
        fun u => (List.replicate m a ++ u.1, m.factorial * u.2))) =
        (words ks (k - m)).map fun u => (1 / (u.2 : K)) • (u.1.map X).reverse.prod *
          ((1 / (m.factorial : K)) • X a ^ m) := by
      refine List.map_congr_left fun u _ => ?_
      simp only [Function.comp, List.map_append, List.reverse_append, List.prod_append, List.map_replicate,
        List.reverse_replicate, List.prod_replicate]
      rw [smul_mul_assoc, mul_smul_comm, smul_smul]
      congr 1
      push_cast
      rw [one_div_mul_one_div, mul_comm]
    rw [h1, List.sum_map_mul_right, ← ih (k - m), smul_mul_assoc, mul_smul_comm, smul_smul, (hc.pow_pow m (k - m)).eq]
    have h2 : (((k.choose m : ℕ) : Module.End K A)) = ((k.choose m : ℕ) : K) • (1 : Module.End K A) := by
      rw [Nat.cast_smul_eq_nsmul, nsmul_eq_mul, mul_one]
    rw [h2, mul_smul_comm, mul_one, smul_smul]
    congr 1
    have h3 := Nat.choose_mul_factorial_mul_factorial hmk
    have h4 : (k.factorial : K) = (k.choose m : K) * m.factorial * (k - m).factorial := by
      rw [← h3]; push_cast; ring
    have f1 : (m.factorial : K) ≠ 0 := by exact_mod_cast Nat.factorial_ne_zero m
    have f2 : ((k - m).factorial : K) ≠ 0 := by exact_mod_cast Nat.factorial_ne_zero (k - m)
    have f3 : (k.choose m : K) ≠ 0 := by exact_mod_cast (Nat.choose_pos hmk).ne'
    rw [h4]
    field_simp

theorem adW_eq (Xs : List A) (Y : A) : adW Xs Y = (Xs.map (ad K)).reverse.prod Y := by
  induction Xs generalizing Y with
  | nil => simp [adW]
  | cons X Xs ih =>
    rw [adW, ih, List.map_cons, List.reverse_cons, List.prod_append, List.prod_singleton, Module.End.mul_apply, ad_apply]

theorem ad_commute (X Y : A) (h : Commute X Y) : Commute (ad K X) (ad K Y) := by
  refine LinearMap.ext fun Z => ?_
  simp only [Module.End.mul_apply, ad_apply, mul_sub, sub_mul]
  have e : X * Y = Y * X := h
  have h1 : Z * Y * X = Z * X * Y := by rw [mul_assoc, mul_assoc, e]
  have h2 : X * (Y * Z) = Y * (X * Z) := by rw [← mul_assoc, ← mul_assoc, e]
  rw [h1, h2, mul_assoc X Z Y, mul_assoc Y Z X]
  simp only [← mul_assoc]
  abel

theorem ad_add (X Y : A) : ad K (X + Y) = ad K X + ad K Y := by
  refine LinearMap.ext fun Z => ?_
  simp only [LinearMap.add_apply, ad_apply, mul_add, add_mul]
  abel

theorem ad_sum (X : Nat → A) (ks : List Nat) : ad K (ks.map X).sum = (ks.map fun k => ad K (X k)).sum := by
  induction ks with
  | nil => refine LinearMap.ext fun Z => ?_; simp [ad_apply]
  | cons k ks ih => rw [List.map_cons, List.sum_cons, ad_add, ih, List.map_cons, List.sum_cons]

/-- `⟨b e^{-X} H e^{X}⟩` by commutators, when only powers of `X` below `L` can contribute. -/
theorem bch [CharZero K] (φ : A →ₗ[K] K) (b H : A) (X : Nat → A) (hX : ∀ a b, Commute (X a) (X b)) (ks : List Nat)
    (L : Nat) (hz : ∀ m n, L ≤ m + n → φ (b * (ks.map X).sum ^ m * H * (ks.map X).sum ^ n) = 0) (M N : Nat)
    (hM : L ≤ M) (hN : L ≤ N) :
    φ (b * expS K M (-(ks.map X).sum) * H * expS K N (ks.map X).sum) =
      (((List.range L).flatMap (words ks)).map fun u => (1 / (u.2 : K)) * φ (b * adW (u.1.map X) H)).sum := by
  set Y := (ks.map X).sum with hY
  have e1 : φ (b * expS K M (-Y) * H * expS K N Y) =
      ∑ m ∈ Finset.range M, ∑ n ∈ Finset.range N, ((-1 : K) ^ m / (m.factorial * n.factorial)) *
        φ (b * Y ^ m * H * Y ^ n) := by
    unfold expS
    rw [Finset.mul_sum, map_sum]
    simp only [Finset.mul_sum, Finset.sum_mul, map_sum]
    rw [Finset.sum_comm]
    refine Finset.sum_congr rfl fun m _ => Finset.sum_congr rfl fun n _ => ?_
    rw [show (-Y) ^ m = (-1 : K) ^ m • Y ^ m by rw [← neg_one_smul K Y, smul_pow]]
    simp only [mul_smul_comm, smul_mul_assoc, map_smul, smul_eq_mul]
    field_simp
  set f : Nat → Nat → K := fun m n => ((-1 : K) ^ m / (m.factorial * n.factorial)) * φ (b * Y ^ m * H * Y ^ n) with hf
  have hf0 : ∀ m n, L ≤ m + n → f m n = 0 := fun m n h => by rw [hf]; simp only; rw [hz m n h, mul_zero]
  have h1 : ∀ m, ∑ n ∈ Finset.range N, f m n = ∑ n ∈ Finset.range (L - m), f m n := by
    intro m
    symm
    refine Finset.sum_subset ?_ ?_
    · intro x hx; rw [Finset.mem_range] at *; omega
    · intro x _ hx; rw [Finset.mem_range] at hx; exact hf0 m x (by omega)
  have h2 : ∑ m ∈ Finset.range M, ∑ n ∈ Finset.range N, f m n =
      ∑ m ∈ Finset.range L, ∑ n ∈ Finset.range (L - m), f m n := by
    symm
    simp only [h1]
    refine Finset.sum_subset ?_ ?_
    · intro x hx; rw [Finset.mem_range] at *; omega
    · intro x _ hx
      rw [Finset.mem_range] at hx
      rw [show L - x = 0 by omega]
      rfl
  rw [e1, h2, ← Finset.sum_range_diag_flip, map_sum_flatMap, ← range_sum]
  refine Finset.sum_congr rfl fun k _ => ?_
  have h3 := words_sum (K := K) (fun a => ad K (X a)) (fun a b => ad_commute _ _ (hX a b)) ks k
  rw [← ad_sum] at h3
  have h4 := congrArg (fun Z : Module.End K A => φ (b * Z H)) h3
  simp only [LinearMap.smul_apply, mul_smul_comm, map_smul, smul_eq_mul] at h4
  have h5 : φ (b * ((words ks k).map fun u => (1 / (u.2 : K)) • (u.1.map fun a => ad K (X a)).reverse.prod).sum H) =
      ((words ks k).map fun u => (1 / (u.2 : K)) * φ (b * adW (u.1.map X) H)).sum := by
    rw [show ((words ks k).map fun u => (1 / (u.2 : K)) • (u.1.map fun a => ad K (X a)).reverse.prod).sum H =
      ((words ks k).map fun u => ((1 / (u.2 : K)) • (u.1.map fun a => ad K (X a)).reverse.prod) H).sum by
        induction words ks k with
        | nil => simp
        | cons u l ih => simp only [List.map_cons, List.sum_cons, LinearMap.add_apply, ih]]
    rw [← List.sum_map_mul_left, map_list_sum, List.map_map]
    congr 1
    refine List.map_congr_left fun u _ => ?_
    simp only [Function.comp, LinearMap.smul_apply, mul_smul_comm, map_smul, smul_eq_mul]
    rw [adW_eq (K := K), List.map_map]
    rfl
  rw [← h5, ← h4, ← hY, ad_pow, Finset.mul_sum, map_sum, Finset.mul_sum]
  refine Finset.sum_congr rfl fun m hm => ?_
  have hmk : m ≤ k := by rw [Finset.mem_range] at hm; omega
  rw [hf]
  simp only [mul_smul_comm, map_smul, smul_eq_mul]
  rw [← mul_assoc, ← mul_assoc b, ← mul_assoc b]
  congr 1
  have h6 := Nat.choose_mul_factorial_mul_factorial hmk
  have h7 : (k.factorial : K) = (k.choose m : K) * m.factorial * (k - m).factorial := by
    rw [← h6]; push_cast; ring
  have f1 : (m.factorial : K) ≠ 0 := by exact_mod_cast Nat.factorial_ne_zero m
  have f2 : ((k - m).factorial : K) ≠ 0 := by exact_mod_cast Nat.factorial_ne_zero (k - m)
  have f3 : (k.choose m : K) ≠ 0 := by exact_mod_cast (Nat.choose_pos hmk).ne'
  rw [h7]
  field_simp

end Verif.Wick
