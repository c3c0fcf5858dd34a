import Verif.Wick.Algebra
import Mathlib.Algebra.Module.LinearMap.End
import Mathlib.Algebra.Algebra.Defs
import Mathlib.Data.Finset.Card
import Mathlib.Algebra.Order.Group.Nat
import Mathlib.Order.Interval.Finset.Defs
import Mathlib.Algebra.Algebra.Bilinear

/-!
# The Fock space

A state gives a coefficient to every set of occupied orbitals (every determinant). The operators carry the sign
`(-1)^n`, where `n` is the number of occupied orbitals before the one that is created or removed.
-/

namespace Verif.Wick

variable {I K : Type} [LinearOrder I] [Field K]

/-- States. -/
abbrev Fock (I K : Type) := Finset I → K

/-- The sign of orbital `p` in the determinant `S`. -/
def fsgn (p : I) (S : Finset I) : K := (-1) ^ (S.filter (· < p)).card

/-- Annihilation operator. -/
def ann (p : I) : Module.End K (Fock I K) where
  toFun ψ S := if p ∈ S then 0 else fsgn p S * ψ (insert p S)
  map_add' ψ φ := by
    funext S
    simp only [Pi.add_apply]
    split_ifs
    · simp
    · ring
  map_smul' a ψ := by
    funext S
    simp only [Pi.smul_apply, smul_eq_mul, RingHom.id_apply]
    split_ifs
    · simp
    · ring

/-- Creation operator. -/
def cre (p : I) : Module.End K (Fock I K) where
  toFun ψ S := if p ∈ S then fsgn p S * ψ (S.erase p) else 0
  map_add' ψ φ := by
    funext S
    simp only [Pi.add_apply]
    split_ifs
    · ring
    · simp
  map_smul' a ψ := by
    funext S
    simp only [Pi.smul_apply, smul_eq_mul, RingHom.id_apply]
    split_ifs
    · ring
    · simp

theorem ann_apply (p : I) (ψ : Fock I K) (S : Finset I) :
    ann p ψ S = if p ∈ S then 0 else fsgn p S * ψ (insert p S) := rfl

theorem cre_apply (p : I) (ψ : Fock I K) (S : Finset I) :
    cre p ψ S = if p ∈ S then fsgn p S * ψ (S.erase p) else 0 := rfl

theorem fsgn_insert (p q : I) (S : Finset I) (h : p ∉ S) :
    (fsgn q (insert p S) : K) = if p < q then - fsgn q S else fsgn q S := by
  unfold fsgn
  rw [Finset.filter_insert]
  split_ifs
  · rw [Finset.card_insert_of_notMem (by simp [h]), pow_succ]; ring
  · rfl

theorem fsgn_erase (p q : I) (S : Finset I) (h : p ∈ S) :
    (fsgn q (S.erase p) : K) = if p < q then - fsgn q S else fsgn q S := by
  have := fsgn_insert (K := K) p q (S.erase p) (by simp)
  rw [Finset.insert_erase h] at this
  rw [this]
  split_ifs <;> simp

theorem fsgn_sq (p : I) (S : Finset I) : (fsgn p S : K) * fsgn p S = 1 := by
  unfold fsgn
  rw [← mul_pow]
  simp

/-- The Fock space has the properties used: the expectation value is the coefficient of the determinant `D 0` in
`X Φ`, where `Φ` is that determinant. -/
def fock (D : Nat → Finset I) (hD : Disjoint (D 0) (D 1)) : Fermi I K (Module.End K (Fock I K)) D where
  c := ann
  cd := cre
  ω := (LinearMap.proj (D 0)).comp (LinearMap.applyₗ (Pi.single (D 0) 1))
  cc p q := by
    ext1 ψ; funext S
    simp only [Module.End.mul_apply, LinearMap.neg_apply, Pi.neg_apply, ann_apply, Finset.mem_insert]
    rcases lt_trichotomy p q with h | rfl | h
    · by_cases hp : p ∈ S <;> by_cases hq : q ∈ S <;>
        simp [hp, hq, h.ne, h.ne', fsgn_insert, h, not_lt_of_gt h]
      rw [Finset.insert_comm]; ring
    · by_cases hp : p ∈ S <;> simp [hp]
    · by_cases hp : p ∈ S <;> by_cases hq : q ∈ S <;>
        simp [hp, hq, h.ne, h.ne', fsgn_insert, h, not_lt_of_gt h]
      rw [Finset.insert_comm]; ring
  dd p q := by
    ext1 ψ; funext S
    simp only [Module.End.mul_apply, LinearMap.neg_apply, Pi.neg_apply, cre_apply, Finset.mem_erase]
    rcases lt_trichotomy p q with h | rfl | h
    · by_cases hp : p ∈ S <;> by_cases hq : q ∈ S <;>
        simp [hp, hq, h.ne, h.ne', fsgn_erase, h, not_lt_of_gt h]
      rw [Finset.erase_right_comm]; ring
    · by_cases hp : p ∈ S <;> simp [hp]
    · by_cases hp : p ∈ S <;> by_cases hq : q ∈ S <;>
        simp [hp, hq, h.ne, h.ne', fsgn_erase, h, not_lt_of_gt h]
      rw [Finset.erase_right_comm]; ring
  cd_anti p q := by
    by_cases e : p = q
    · subst e
      rw [if_pos rfl]
      ext1 ψ; funext S
      simp only [Module.End.mul_apply, LinearMap.sub_apply, Pi.sub_apply, cre_apply, ann_apply,
        Module.End.one_apply]
      by_cases hp : p ∈ S
      · simp only [hp, if_true, Finset.mem_erase, ne_eq, not_true_eq_false, false_and, if_false,
          Finset.insert_erase hp, fsgn_erase p p S hp, lt_irrefl]
        rw [← mul_assoc, fsgn_sq]; simp
      · simp only [hp, if_false, Finset.mem_insert_self, if_true, Finset.erase_insert hp,
          fsgn_insert p p S hp, lt_irrefl]
        rw [← mul_assoc, fsgn_sq]; simp
    · rw [if_neg e]
      ext1 ψ; funext S
      simp only [Module.End.mul_apply, LinearMap.sub_apply, Pi.sub_apply, cre_apply, ann_apply,
        LinearMap.zero_apply, Pi.zero_apply, Finset.mem_insert, Finset.mem_erase]
      have e' : q ≠ p := fun h => e h.symm
      by_cases hp : p ∈ S <;> by_cases hq : q ∈ S <;> simp [hp, hq, e, e']
      rw [fsgn_insert p q S hp, fsgn_erase q p S hq, Finset.erase_insert_of_ne e]
      rcases lt_or_gt_of_ne e with h | h
      · simp [h, not_lt_of_gt h]; ring
      · simp [h, not_lt_of_gt h]; ring
  one := by simp
  occ_right p hp x := by
    have : cre p (Pi.single (D 0) 1 : Fock I K) = 0 := by
      funext S
      rw [cre_apply, Pi.zero_apply]
      split_ifs with h
      · rw [Pi.single_eq_of_ne, mul_zero]
        intro e
        rw [← e] at hp
        simp at hp
      · rfl
    simp [this]
  occ_left p hp x := by simp [ann_apply, hp]
  virt_right p hp x := by
    have : ann p (Pi.single (D 0) 1 : Fock I K) = 0 := by
      funext S
      rw [ann_apply, Pi.zero_apply]
      split_ifs with h
      · rfl
      · rw [Pi.single_eq_of_ne, mul_zero]
        intro e
        have h2 := Finset.mem_insert_self p S
        rw [e] at h2
        exact Finset.disjoint_left.1 hD h2 hp
    simp [this]
  virt_left p hp x := by
    have : p ∉ D 0 := fun h => Finset.disjoint_left.1 hD h hp
    simp [cre_apply, this]

end Verif.Wick
