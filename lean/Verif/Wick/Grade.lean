import Verif.Wick.Algebra
import Mathlib.Algebra.Algebra.Operations

/-!
# Counting quasi-particles

A product of operators with more quasi-particle creators than annihilators has expectation value zero. This is why the
exponential series of coupled-cluster theory end.
-/

namespace Verif.Wick

variable {I K A : Type} [DecidableEq I] [Field K] [Ring A] [Algebra K A] {D : Nat → Finset I}
  (F : Fermi I K A D)

/-- Creators minus annihilators. -/
def chg (D : Nat → Finset I) (l : List (Bool × I)) : ℤ :=
  (l.map fun x => if x.2 ∈ D (if x.1 then 0 else 1) then (-1 : ℤ) else 1).sum

/-- All orbitals are occupied or virtual. -/
def inD (D : Nat → Finset I) (l : List (Bool × I)) : Prop := ∀ x ∈ l, x.2 ∈ D 0 ∨ x.2 ∈ D 1

/-- Sums of products with at least `k` more creators than annihilators. -/
def Fermi.Ge (k : ℤ) : Submodule K A := Submodule.span K {x | ∃ l, inD D l ∧ k ≤ chg D l ∧ F.prod l = x}

theorem perm_of_picks {α : Type} (l : List α) : ∀ p ∈ picks l, l.Perm (p.2.1 :: p.2.2) := by
  induction l with
  | nil => simp [picks]
  | cons y l ih =>
    intro p hp
    simp only [picks, List.mem_cons, List.mem_map] at hp
    rcases hp with rfl | ⟨q, hq, rfl⟩
    · exact List.Perm.refl _
    · exact ((ih q hq).cons y).trans (List.Perm.swap _ _ _)

theorem chg_perm {l l' : List (Bool × I)} (h : l.Perm l') : chg D l = chg D l' := (h.map _).sum_eq

theorem chg_cons (x : Bool × I) (l : List (Bool × I)) :
    chg D (x :: l) = (if x.2 ∈ D (if x.1 then 0 else 1) then (-1 : ℤ) else 1) + chg D l := by simp [chg]

theorem chg_append (l l' : List (Bool × I)) : chg D (l ++ l') = chg D l + chg D l' := by simp [chg]

theorem Fermi.ω_prod_zero (hD : Disjoint (D 0) (D 1)) : ∀ (n : Nat) (l : List (Bool × I)), l.length ≤ n → inD D l →
    chg D l ≠ 0 → F.ω (F.prod l) = 0 := by
  intro n
  induction n with
  | zero =>
    intro l hl _ hc
    have : l = [] := List.length_eq_zero_iff.1 (by omega)
    subst this
    simp [chg] at hc
  | succ n ih =>
    intro l hl hi hc
    cases l with
    | nil => simp [chg] at hc
    | cons x l =>
      by_cases hx : x.2 ∈ D (if x.1 then 0 else 1)
      · rw [F.wick x hx]
        refine List.sum_eq_zero fun y hy => ?_
        obtain ⟨p, hp, rfl⟩ := List.mem_map.1 hy
        have hperm := perm_of_picks l p hp
        by_cases ha : x.1 ≠ p.2.1.1 ∧ x.2 = p.2.1.2
        · rw [ih p.2.2, mul_zero]
          · have := hperm.length_eq
            simp only [List.length_cons] at this hl
            omega
          · exact fun y hy => hi y (List.mem_cons_of_mem _ (hperm.mem_iff.2 (List.mem_cons_of_mem _ hy)))
          · rw [chg_cons, if_pos hx, chg_perm hperm, chg_cons, if_neg] at hc
            · omega
            · rw [← ha.2]
              intro h2
              have h1 := ha.1
              cases hb : x.1 <;> cases hb' : p.2.1.1 <;> simp [hb, hb'] at hx h2 h1
              · exact Finset.disjoint_left.1 hD h2 hx
              · exact Finset.disjoint_left.1 hD hx h2
        · rw [show (acc x p.2.1 : K) = 0 from if_neg ha]
          ring
      · have h1 : F.prod (x :: l) = F.op x * F.prod l := by simp [Fermi.prod]
        rw [h1, F.left]
        unfold quasiL
        have := hi x List.mem_cons_self
        cases hb : x.1 <;> simp [hb] at hx ⊢ <;> tauto

theorem Fermi.ω_Ge (hD : Disjoint (D 0) (D 1)) (k : ℤ) (hk : 0 < k) (x : A) (hx : x ∈ F.Ge k) : F.ω x = 0 := by
  induction hx using Submodule.span_induction with
  | mem x h => obtain ⟨l, h1, h2, rfl⟩ := h; exact F.ω_prod_zero hD l.length l le_rfl h1 (by omega)
  | zero => simp
  | add x y _ _ hx hy => rw [map_add, hx, hy, add_zero]
  | smul a x _ hx => rw [map_smul, hx, smul_zero]

theorem Fermi.mul_Ge {j k : ℤ} {x y : A} (hx : x ∈ F.Ge j) (hy : y ∈ F.Ge k) : x * y ∈ F.Ge (j + k) := by
  have h := Submodule.mul_mem_mul hx hy
  rw [Fermi.Ge, Fermi.Ge, Submodule.span_mul_span] at h
  refine Submodule.span_mono ?_ h
  rintro _ ⟨_, ⟨l, h1, h2, rfl⟩, _, ⟨l', h1', h2', rfl⟩, rfl⟩
  refine ⟨l ++ l', ?_, ?_, ?_⟩
  · intro z hz
    rcases List.mem_append.1 hz with h | h
    · exact h1 z h
    · exact h1' z h
  · rw [chg_append]; omega
  · simp [Fermi.prod]

theorem Fermi.Ge_mono {j k : ℤ} (h : j ≤ k) : F.Ge k ≤ F.Ge j :=
  Submodule.span_mono fun _ ⟨l, h1, h2, h3⟩ => ⟨l, h1, by omega, h3⟩

theorem Fermi.one_Ge : (1 : A) ∈ F.Ge 0 := Submodule.subset_span ⟨[], by simp [inD], by simp [chg], by simp [Fermi.prod]⟩

theorem Fermi.pow_Ge {k : ℤ} {x : A} (hx : x ∈ F.Ge k) (n : Nat) : x ^ n ∈ F.Ge (k * n) := by
  induction n with
  | zero => simpa using F.one_Ge
  | succ n ih =>
    rw [pow_succ]
    have := F.mul_Ge ih hx
    rw [show k * (n + 1 : ℕ) = k * n + k by push_cast; ring]
    exact this

theorem chg_ge (l : List (Bool × I)) : - (l.length : ℤ) ≤ chg D l := by
  induction l with
  | nil => simp [chg]
  | cons x l ih =>
    rw [chg_cons]
    have : (-1 : ℤ) ≤ if x.2 ∈ D (if x.1 then 0 else 1) then (-1 : ℤ) else 1 := by split_ifs <;> omega
    push_cast [List.length_cons]
    omega

theorem Fermi.prod_Ge (l : List (Bool × I)) (h : inD D l) (k : ℤ) (hk : k ≤ chg D l) : F.prod l ∈ F.Ge k :=
  Submodule.subset_span ⟨l, h, hk, rfl⟩

/-- Sums of products with exactly `k` more creators than annihilators. -/
def Fermi.Gr (k : ℤ) : Submodule K A := Submodule.span K {x | ∃ l, inD D l ∧ chg D l = k ∧ F.prod l = x}

theorem Fermi.ω_Gr (hD : Disjoint (D 0) (D 1)) (k : ℤ) (hk : k ≠ 0) (x : A) (hx : x ∈ F.Gr k) : F.ω x = 0 := by
  induction hx using Submodule.span_induction with
  | mem x h => obtain ⟨l, h1, h2, rfl⟩ := h; exact F.ω_prod_zero hD l.length l le_rfl h1 (by omega)
  | zero => simp
  | add x y _ _ hx hy => rw [map_add, hx, hy, add_zero]
  | smul a x _ hx => rw [map_smul, hx, smul_zero]

theorem Fermi.mul_Gr {j k : ℤ} {x y : A} (hx : x ∈ F.Gr j) (hy : y ∈ F.Gr k) : x * y ∈ F.Gr (j + k) := by
  have h := Submodule.mul_mem_mul hx hy
  rw [Fermi.Gr, Fermi.Gr, Submodule.span_mul_span] at h
  refine Submodule.span_mono ?_ h
  rintro _ ⟨_, ⟨l, h1, h2, rfl⟩, _, ⟨l', h1', h2', rfl⟩, rfl⟩
  refine ⟨l ++ l', ?_, ?_, ?_⟩
  · intro z hz
    rcases List.mem_append.1 hz with h | h
    · exact h1 z h
    · exact h1' z h
  · rw [chg_append]; omega
  · simp [Fermi.prod]

theorem Fermi.prod_Gr (l : List (Bool × I)) (h : inD D l) (k : ℤ) (hk : chg D l = k) : F.prod l ∈ F.Gr k :=
  Submodule.subset_span ⟨l, h, hk, rfl⟩

end Verif.Wick
