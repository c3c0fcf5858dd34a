import Verif.Ein.Generic
import Verif.Ein.Ops2

/-!
# Degree in a tensor

A program all of whose terms contain a tensor exactly `k` times is homogeneous of degree `k` in it; a program is the
sum of the terms with given operands and the others.
-/

namespace Verif.Ein

variable {I K : Type} [Field K] [Inhabited I]

/-- The terms whose operands are not among those listed. -/
def Prog.rest (sigs : List (List Nat)) (P : Prog) : Prog := P.filter fun b => !sigs.elem (signature b.fs)

theorem Prog.eval_part (D : Nat → Finset I) (T : Nat → List I → K) (sigs : List (List Nat)) (P : Prog) (xs : List I) :
    P.eval D T xs = (P.part sigs).eval D T xs + (P.rest sigs).eval D T xs := by
  induction P with
  | nil => simp [Prog.part, Prog.rest, Prog.eval]
  | cons b P ih =>
    rw [Prog.eval_cons, ih]
    simp only [Prog.part, Prog.rest, List.filter_cons]
    cases sigs.elem (signature b.fs)
    · simp only [Bool.false_eq_true, if_false, Bool.not_false, if_true, Prog.eval_cons]; ring
    · simp only [if_true, Bool.not_true, Bool.false_eq_true, if_false, Prog.eval_cons]; ring

omit [Inhabited I] in
theorem evalFs_homog (t : Nat) (s : K) (T U : Nat → List I → K) (h1 : ∀ r, r ≠ t → ∀ l, T r l = U r l)
    (h2 : ∀ l, T t l = s * U t l) (fs : List Fac) (ρ : Var → I) :
    evalFs T fs ρ = s ^ occurs t fs * evalFs U fs ρ := by
  induction fs with
  | nil => simp [evalFs, occurs]
  | cons f fs ih =>
    simp only [evalFs, occurs, List.filter_cons]
    by_cases hf : f.t = t
    · have hb : Nat.beq f.t t = true := by simp [hf]
      rw [if_pos hb, List.length_cons, pow_succ, hf, h2, ih, occurs]; ring
    · have hb : ¬ Nat.beq f.t t = true := by simpa using hf
      rw [if_neg hb, h1 _ hf, ih, occurs]; ring

/-- Homogeneity. -/
theorem Prog.eval_homog (D : Nat → Finset I) (t k : Nat) (s : K) (T U : Nat → List I → K)
    (h1 : ∀ r, r ≠ t → ∀ l, T r l = U r l) (h2 : ∀ l, T t l = s * U t l) (P : Prog) (hP : P.degEq t k = true)
    (xs : List I) : P.eval D T xs = s ^ k * P.eval D U xs := by
  unfold Prog.eval
  rw [← List.sum_map_mul_left]
  congr 1
  refine List.map_congr_left fun b hb => ?_
  simp only [Prog.degEq, List.all_eq_true, Nat.beq_eq] at hP
  simp only [Blk.eval]
  rw [← List.sum_map_mul_left]
  congr 1
  refine List.map_congr_left fun p _ => ?_
  have : sumOver D (dums p.2 b.fs) (evalFs T b.fs) (Ein.bind (fun _ => default) p.2 xs) =
      s ^ k * sumOver D (dums p.2 b.fs) (evalFs U b.fs) (Ein.bind (fun _ => default) p.2 xs) := by
    rw [← sumOver_mul]
    congr 1
    funext ρ
    rw [evalFs_homog t s T U h1 h2, hP b hb]
  simp only [termVal, this]
  ring

end Verif.Ein
