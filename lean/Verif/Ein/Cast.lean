import Verif.Ein.Arrays
import Mathlib.Data.Rat.BigOperators

/-!
# Programs over rational and over real numbers

The value of a program for rational arrays, read as a number of a larger field, is its value for the arrays read so. It lets
concrete cases be computed with rational numbers.
-/

namespace Verif.Ein

variable {I K : Type} [Field K] [CharZero K] [Inhabited I] (D : Nat → Finset I) (T : Nat → List I → ℚ)

omit [Inhabited I] in
theorem evalFs_cast (fs : List Fac) (ρ : Var → I) : ((evalFs T fs ρ : ℚ) : K) = evalFs (fun t l => (T t l : K)) fs ρ := by
  induction fs with
  | nil => simp [evalFs]
  | cons f fs ih => simp only [evalFs, Rat.cast_mul, ih]

omit [Inhabited I] in
theorem sumOver_cast (L : List Var) (F : (Var → I) → ℚ) : ∀ ρ, ((sumOver D L F ρ : ℚ) : K) = sumOver D L (fun σ => (F σ : K)) ρ := by
  induction L with
  | nil => intro ρ; rfl
  | cons x L ih => intro ρ; simp only [sumOver, Rat.cast_sum, ih]

/-- Rational arrays give rational values, the same over the larger field. -/
theorem Prog.eval_cast (P : Prog) (xs : List I) : ((P.eval D T xs : ℚ) : K) = P.eval D (fun t l => (T t l : K)) xs := by
  have hsum : ∀ l : List ℚ, ((l.sum : ℚ) : K) = (l.map fun x : ℚ => (x : K)).sum := by
    intro l
    induction l with
    | nil => simp
    | cons x l ih => simp [ih]
  simp only [Prog.eval, Blk.eval, hsum, List.map_map]
  congr 1
  refine List.map_congr_left fun b _ => ?_
  simp only [Function.comp, hsum, List.map_map]
  congr 1
  refine List.map_congr_left fun p _ => ?_
  simp only [Function.comp, termVal, Rat.cast_mul, Rat.cast_intCast, sumOver_cast, evalFs_cast]
  rfl

/-- Arrays of rational numbers read as arrays of numbers of a larger field. -/
def SO.cast (K : Type) [Field K] (A : SO I ℚ) : SO I K where
  f p q := A.f p q
  g p q r s := A.g p q r s
  t1 p q := A.t1 p q
  t2 p q r s := A.t2 p q r s
  t3 p q r s u v := A.t3 p q r s u v
  t4 p q r s u v w z := A.t4 p q r s u v w z
  l1 p q := A.l1 p q
  l2 p q r s := A.l2 p q r s
  l3 p q r s u v := A.l3 p q r s u v
  l4 p q r s u v w z := A.l4 p q r s u v w z

omit [CharZero K] [Inhabited I] in
theorem SO.cast_T (A : SO I ℚ) (t : Nat) (l : List I) : (A.cast K).T t l = ((A.T t l : ℚ) : K) := by
  have h2 : ∀ (h : I → I → ℚ) (l : List I), at2 (fun p q => (h p q : K)) l = ((at2 h l : ℚ) : K) := by
    intro h l; unfold at2; split <;> simp
  have h4 : ∀ (h : I → I → I → I → ℚ) (l : List I), at4 (fun p q r s => (h p q r s : K)) l = ((at4 h l : ℚ) : K) := by
    intro h l; unfold at4; split <;> simp
  have h6 : ∀ (h : I → I → I → I → I → I → ℚ) (l : List I), at6 (fun p q r s u v => (h p q r s u v : K)) l = ((at6 h l : ℚ) : K) := by
    intro h l; unfold at6; split <;> simp
  have h8 : ∀ (h : I → I → I → I → I → I → I → I → ℚ) (l : List I),
      at8 (fun p q r s u v w z => (h p q r s u v w z : K)) l = ((at8 h l : ℚ) : K) := by
    intro h l; unfold at8; split <;> simp
  by_cases h15 : t = 15
  · subst h15; exact h2 A.f l
  by_cases h23 : t = 23
  · subst h23; exact h4 A.g l
  by_cases h31 : t = 31
  · subst h31; exact h2 A.t1 l
  by_cases h39 : t = 39
  · subst h39; exact h4 A.t2 l
  by_cases h47 : t = 47
  · subst h47; exact h6 A.t3 l
  by_cases h55 : t = 55
  · subst h55; exact h8 A.t4 l
  by_cases h63 : t = 63
  · subst h63; exact h2 A.l1 l
  by_cases h71 : t = 71
  · subst h71; exact h4 A.l2 l
  by_cases h79 : t = 79
  · subst h79; exact h6 A.l3 l
  by_cases h119 : t = 119
  · subst h119; exact h8 A.l4 l
  unfold SO.T
  rw [if_neg h15, if_neg h23, if_neg h31, if_neg h39, if_neg h47, if_neg h55, if_neg h63, if_neg h71, if_neg h79, if_neg h119]
  simp only [if_neg h15, if_neg h23, if_neg h31, if_neg h39, if_neg h47, if_neg h55, if_neg h63, if_neg h71, if_neg h79, if_neg h119, Rat.cast_zero]

theorem SO.eval_cast (A : SO I ℚ) (P : Prog) (xs : List I) : P.eval D (A.cast K).T xs = ((P.eval D A.T xs : ℚ) : K) := by
  rw [Prog.eval_cast]
  congr 1
  funext t l
  exact SO.cast_T A t l

end Verif.Ein
