import Mathlib.Algebra.Algebra.Basic
import Mathlib.Algebra.BigOperators.Group.List.Basic
import Mathlib.LinearAlgebra.Pi
import Mathlib.Tactic.NoncommRing
import Mathlib.Tactic.Abel
import Mathlib.Tactic.Module

/-!
# Fermion operators

Annihilation operators `c p` and creation operators `cd p` with the canonical anticommutation relations, and the
expectation value `ω` in the determinant `Φ` whose occupied orbitals are `D 0` and virtual orbitals `D 1`. This is the
language in which coupled-cluster theory is written; the residual functions of `/repo/UT2` are compared with it in
`Verif/Props/Projected.lean`. `Verif/Wick/Fock.lean` gives the Fock space as an instance.
-/

namespace Verif.Wick

/-- Fermion operators in an algebra and the expectation value in a determinant. -/
structure Fermi (I K A : Type) [DecidableEq I] [Field K] [Ring A] [Algebra K A] (D : Nat → Finset I) where
  /-- annihilation operator -/
  c : I → A
  /-- creation operator -/
  cd : I → A
  /-- `⟨Φ| X |Φ⟩` -/
  ω : A →ₗ[K] K
  cc : ∀ p q, c p * c q = - (c q * c p)
  dd : ∀ p q, cd p * cd q = - (cd q * cd p)
  cd_anti : ∀ p q, c p * cd q = (if p = q then 1 else 0) - cd q * c p
  one : ω 1 = 1
  /-- an occupied orbital cannot be filled -/
  occ_right : ∀ p ∈ D 0, ∀ x, ω (x * cd p) = 0
  occ_left : ∀ p ∈ D 0, ∀ x, ω (c p * x) = 0
  /-- a virtual orbital cannot be emptied -/
  virt_right : ∀ p ∈ D 1, ∀ x, ω (x * c p) = 0
  virt_left : ∀ p ∈ D 1, ∀ x, ω (cd p * x) = 0

variable {I K A : Type} [DecidableEq I] [Field K] [Ring A] [Algebra K A] {D : Nat → Finset I}
  (F : Fermi I K A D)

/-- `true`: creation, `false`: annihilation. -/
def Fermi.op (x : Bool × I) : A := if x.1 then F.cd x.2 else F.c x.2

/-- Product of operators. -/
def Fermi.prod (l : List (Bool × I)) : A := (l.map F.op).prod

/-- The anticommutator of two operators is a number. -/
def acc (x y : Bool × I) : K := if x.1 ≠ y.1 ∧ x.2 = y.2 then 1 else 0

theorem Fermi.op_op (x y : Bool × I) :
    F.op x * F.op y = (acc x y : K) • (1 : A) - F.op y * F.op x := by
  obtain ⟨b, p⟩ := x
  obtain ⟨b', q⟩ := y
  cases b <;> cases b' <;> simp only [Fermi.op, acc, if_true, ne_eq, not_true_eq_false, false_and, if_false,
    zero_smul, zero_sub, Bool.false_eq_true, not_false_eq_true, true_and, reduceCtorEq]
  · exact F.cc p q
  · rw [F.cd_anti]; split_ifs <;> simp
  · have := F.cd_anti q p
    rw [this]
    by_cases h : p = q
    · simp [h]
    · simp [h, Ne.symm h]
  · exact F.dd p q

/-- Every way to take one element out of a list, with the parity of its position. -/
def picks {α : Type} : List α → List (Bool × α × List α)
  | [] => []
  | y :: l => (false, y, l) :: (picks l).map fun p => (!p.1, p.2.1, y :: p.2.2)

/-- Sign. -/
def sg (b : Bool) : K := if b then -1 else 1

omit [DecidableEq I] in
theorem sg_not (b : Bool) : (sg (!b) : K) = - sg b := by cases b <;> simp [sg]

omit [DecidableEq I] in
theorem sg_xor (a b : Bool) : (sg (a ^^ b) : K) = sg a * sg b := by cases a <;> cases b <;> simp [sg]

/-- Moving an operator through a product. -/
theorem Fermi.move (x : Bool × I) (l : List (Bool × I)) :
    F.op x * F.prod l = ((picks l).map fun p => (sg p.1 * acc x p.2.1 : K) • F.prod p.2.2).sum +
      ((-1 : K) ^ l.length) • (F.prod l * F.op x) := by
  induction l with
  | nil => simp [picks, Fermi.prod]
  | cons y l ih =>
    have h1 : F.prod (y :: l) = F.op y * F.prod l := by simp [Fermi.prod]
    rw [h1, ← mul_assoc, F.op_op, sub_mul, mul_assoc, ih]
    simp only [picks, List.map_cons, List.sum_cons, List.map_map, mul_add, List.length_cons, pow_succ, smul_mul_assoc,
      one_mul]
    have h2 : ((picks l).map ((fun p : Bool × (Bool × I) × List (Bool × I) =>
        (sg p.1 * acc x p.2.1 : K) • F.prod p.2.2) ∘ fun p => (!p.1, p.2.1, y :: p.2.2))).sum =
        - (F.op y * ((picks l).map fun p => (sg p.1 * acc x p.2.1 : K) • F.prod p.2.2).sum) := by
      generalize picks l = ps
      induction ps with
      | nil => simp
      | cons p ps ih2 =>
        simp only [List.map_cons, List.sum_cons, ih2, mul_add, neg_add, Function.comp, sg_not]
        congr 1
        rw [Fermi.prod, List.map_cons, List.prod_cons, ← Fermi.prod, mul_smul_comm, neg_mul, neg_smul]
    rw [h2]
    simp only [sg, Bool.false_eq_true, if_false, one_mul, mul_neg, mul_one, neg_smul, mul_smul_comm, mul_assoc]
    abel

/-- The operators that give zero on `Φ`: creation of an occupied, annihilation of a virtual orbital. -/
def quasi (D : Nat → Finset I) (x : Bool × I) : Prop := x.2 ∈ D (if x.1 then 0 else 1)

/-- Those that give zero on the left. -/
def quasiL (D : Nat → Finset I) (x : Bool × I) : Prop := x.2 ∈ D (if x.1 then 1 else 0)

theorem Fermi.left (x : Bool × I) (h : quasiL D x) (y : A) : F.ω (F.op x * y) = 0 := by
  obtain ⟨b, p⟩ := x
  cases b
  · exact F.occ_left p (by simpa [quasiL] using h) y
  · exact F.virt_left p (by simpa [quasiL] using h) y

theorem Fermi.right (x : Bool × I) (h : quasi D x) (y : A) : F.ω (y * F.op x) = 0 := by
  obtain ⟨b, p⟩ := x
  cases b
  · exact F.virt_right p (by simpa [quasi] using h) y
  · exact F.occ_right p (by simpa [quasi] using h) y

/-- Wick's theorem, one step. -/
theorem Fermi.wick (x : Bool × I) (h : quasi D x) (l : List (Bool × I)) :
    F.ω (F.prod (x :: l)) = ((picks l).map fun p => (sg p.1 * acc x p.2.1 : K) * F.ω (F.prod p.2.2)).sum := by
  have h1 : F.prod (x :: l) = F.op x * F.prod l := by simp [Fermi.prod]
  rw [h1, F.move, map_add, map_smul, F.right x h, smul_zero, add_zero, map_list_sum, List.map_map]
  congr 1
  refine List.map_congr_left fun p _ => ?_
  simp

end Verif.Wick
