import Verif.Model.Setup
import Mathlib.Algebra.BigOperators.Ring.Finset
import Mathlib.Algebra.BigOperators.Intervals
import Mathlib.Tactic.Ring
import Mathlib.Tactic.LinearCombination

/-! Lemmas about the set-up model: the four-index transformation, blocks of the coefficient matrix, assignments. -/

namespace Verif.Setup

open Verif.Ein Finset

variable {K : Type} [Field K]

/-- Permutational symmetry of real two-electron integrals `(xy|zw)`. -/
structure EriSym (I : Tei K) : Prop where
  bra : ∀ x y z w, I x y z w = I y x z w
  ket : ∀ x y z w, I x y z w = I x y w z
  swap : ∀ x y z w, I x y z w = I z w x y

omit [Field K] in
theorem EriSym.rev {I : Tei K} (h : EriSym I) (x y z w : ℕ) : I w z y x = I x y z w := by
  rw [h.bra w z, h.ket z w, h.swap z w]

theorem sum4_swap (n : ℕ) (f : ℕ → ℕ → ℕ → ℕ → K) :
    (∑ x ∈ range n, ∑ y ∈ range n, ∑ z ∈ range n, ∑ w ∈ range n, f x y z w) =
      ∑ x ∈ range n, ∑ y ∈ range n, ∑ z ∈ range n, ∑ w ∈ range n, f z w x y := by
  have e := sum_comm (s := range n ×ˢ range n) (t := range n ×ˢ range n) (f := fun a b => f a.1 a.2 b.1 b.2)
  simp only [sum_product] at e
  exact e

theorem general_bra {I : Tei K} (h : EriSym I) (n : ℕ) (C D E : Mat K) (p q r s : ℕ) :
    general n I C C D E p q r s = general n I C C D E q p r s := by
  unfold general
  rw [sum_comm]
  refine sum_congr rfl fun x _ => sum_congr rfl fun y _ => sum_congr rfl fun z _ => sum_congr rfl fun w _ => ?_
  rw [h.bra y x]; ring

theorem general_ket {I : Tei K} (h : EriSym I) (n : ℕ) (C D E : Mat K) (p q r s : ℕ) :
    general n I C D E E p q r s = general n I C D E E p q s r := by
  unfold general
  refine sum_congr rfl fun x _ => sum_congr rfl fun y _ => ?_
  rw [sum_comm]
  refine sum_congr rfl fun z _ => sum_congr rfl fun w _ => ?_
  rw [h.ket x y w z]; ring

theorem general_swap {I : Tei K} (h : EriSym I) (n : ℕ) (C D E F : Mat K) (p q r s : ℕ) :
    general n I C D E F p q r s = general n I E F C D r s p q := by
  unfold general
  rw [sum4_swap]
  refine sum_congr rfl fun x _ => sum_congr rfl fun y _ => sum_congr rfl fun z _ => sum_congr rfl fun w _ => ?_
  rw [h.swap z w x y]; ring

theorem oneBody_symm {F : Mat K} (h : ∀ x y, F x y = F y x) (n : ℕ) (C : Mat K) (p q : ℕ) :
    oneBody n F C p q = oneBody n F C q p := by
  unfold oneBody
  rw [sum_comm]
  refine sum_congr rfl fun x _ => sum_congr rfl fun y _ => ?_
  rw [h y x]; ring

/-- The spatial orbital and the spin (`true` = beta) of a position in the concatenated list of `n` alpha and `n` beta
orbitals. -/
def lab (n P : ℕ) : ℕ × Bool := if P < n then (P, false) else (P - n, true)

theorem lab_injective (n : ℕ) : Function.Injective (lab n) := by
  intro x y h
  unfold lab at h
  split_ifs at h <;> simp at h <;> omega

/-- Coefficients of a spin. -/
def coef (Ca Cb : Mat K) : Bool → Mat K
  | false => Ca
  | true => Cb

theorem sum_block (n : ℕ) (Ca Cb : Mat K) (X : ℕ → K) (Q : ℕ) :
    ∑ P ∈ range (2 * n), X P * block n Ca Cb P Q =
      ∑ x ∈ range n, X (x + (lab n Q).2.toNat * n) * coef Ca Cb (lab n Q).2 x (lab n Q).1 := by
  rw [two_mul, sum_range_add]
  by_cases h : Q < n
  · have h2 : ∑ x ∈ range n, X (n + x) * block n Ca Cb (n + x) Q = 0 :=
      sum_eq_zero fun x _ => by simp [block, h]
    rw [h2, add_zero]
    refine sum_congr rfl fun x hx => ?_
    simp [block, lab, h, coef, mem_range.1 hx]
  · have h2 : ∑ x ∈ range n, X x * block n Ca Cb x Q = 0 :=
      sum_eq_zero fun x hx => by simp [block, h, mem_range.1 hx]
    rw [h2, zero_add]
    refine sum_congr rfl fun x hx => ?_
    simp [block, lab, h, coef, add_comm]

theorem div_mod_spin {n x : ℕ} (hx : x < n) (a : Bool) : (x + a.toNat * n) / n = a.toNat ∧ (x + a.toNat * n) % n = x := by
  have hn : 0 < n := by omega
  constructor
  · rw [Nat.add_mul_div_right _ _ hn, Nat.div_eq_of_lt hx, zero_add]
  · rw [Nat.add_mul_mod_self_right, Nat.mod_eq_of_lt hx]

theorem toNat_inj (a b : Bool) : a.toNat = b.toNat ↔ a = b := by cases a <;> cases b <;> simp

/-! ### assignments -/

omit [Field K] in
theorem store_append {X : Type} [DecidableEq X] (A : X → K) (u v : List (X × K)) :
    store A (u ++ v) = store (store A u) v := by simp [store]

omit [Field K] in
/-- If all assignments to a position carry the same value, that value is stored; a position that is never assigned
keeps its value. -/
theorem store_eq {X : Type} [DecidableEq X] (A : X → K) (ws : List (X × K)) (x : X) (v : K)
    (hv : ∀ w ∈ ws, w.1 = x → w.2 = v) :
    store A ws x = if ∃ w ∈ ws, w.1 = x then v else A x := by
  induction ws generalizing A with
  | nil => simp [store]
  | cons w ws ih =>
    have e : store A (w :: ws) = store (Function.update A w.1 w.2) ws := rfl
    rw [e, ih _ fun w' h => hv w' (List.mem_cons_of_mem _ h)]
    by_cases h : ∃ w' ∈ ws, w'.1 = x
    · rw [if_pos h, if_pos]
      obtain ⟨w', h1, h2⟩ := h
      exact ⟨w', List.mem_cons_of_mem _ h1, h2⟩
    · rw [if_neg h]
      by_cases hx : w.1 = x
      · rw [if_pos ⟨w, List.mem_cons_self .., hx⟩, ← hx, Function.update_self]
        exact hv w (List.mem_cons_self ..) hx
      · rw [if_neg, Function.update_of_ne (Ne.symm hx)]
        rintro ⟨w', h1, h2⟩
        rcases List.mem_cons.1 h1 with rfl | h1
        · exact hx h2
        · exact h ⟨w', h1, h2⟩

end Verif.Setup
