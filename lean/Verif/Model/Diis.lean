import Mathlib.LinearAlgebra.Matrix.NonsingularInverse
import Mathlib.LinearAlgebra.Matrix.ToLinearEquiv
import Mathlib.LinearAlgebra.AffineSpace.Independent
import Mathlib.LinearAlgebra.AffineSpace.FiniteDimensional
import Mathlib.Data.Real.Basic
import Mathlib.Data.Matrix.Block
import Mathlib.Tactic.Linarith
import Mathlib.Tactic.LinearCombination

/-!
# DIIS

Model of `/repo/UT2/diis.py:24-103`. Vectors are real functions on a finite index type (the flattened
amplitudes; the one-dimensional branch of `edot`, line 96-97, which is the one the drivers use).
`np.linalg.solve` is modelled by the inverse matrix, with an error for a singular matrix.
-/

namespace Verif.Diis
open Matrix

variable {ι : Type} [Fintype ι]

/-- The attributes of a `DIIS` object (`diis.py:34-38`). -/
structure State (ι : Type) where
  nvecs : ℕ
  startIter : ℕ
  prev : List (ι → ℝ) := []
  errs : List (ι → ℝ) := []
  iterIdx : ℕ := 0

/-- `DIIS(num_diis_vecs, start_iter)` (`diis.py:26-38`). -/
def init (nvecs startIter : ℕ) : State ι := { nvecs, startIter }

/-- `edot` for one-dimensional arrays (`diis.py:96-97`). -/
def edot (e f : ι → ℝ) : ℝ := ∑ x, e x * f x

/-- `get_bmat`, the matrix (`diis.py:76-84`): Gram matrix of the errors bordered by `-1`, corner `0`.
Only `i ≤ j` is computed and mirrored. -/
def bmat {n : ℕ} (e : Fin n → ι → ℝ) : Matrix (Fin n ⊕ Unit) (Fin n ⊕ Unit) ℝ :=
  Matrix.fromBlocks (Matrix.of fun i j => if i ≤ j then edot (e i) (e j) else edot (e j) (e i))
    (Matrix.of fun _ _ => -1) (Matrix.of fun _ _ => -1) (Matrix.of fun _ _ => 0)

/-- `get_bmat`, the right-hand side (`diis.py:85-86`). -/
def rhs (n : ℕ) : Fin n ⊕ Unit → ℝ := Sum.elim (fun _ => 0) (fun _ => -1)

open Classical in
/-- `np.linalg.solve(b_mat, rhs)` (`diis.py:64`); `none` is `LinAlgError: Singular matrix`. -/
noncomputable def solve {n : ℕ} (e : Fin n → ι → ℝ) : Option (Fin n ⊕ Unit → ℝ) :=
  if IsUnit (bmat e).det then some ((bmat e)⁻¹ *ᵥ rhs n) else none

/-- The state change of `compute_new_vec` (`diis.py:46-60`); it happens before the solve, so it is the
same whether the solve fails or not. -/
def State.push (s : State ι) (iterate error : ι → ℝ) : State ι :=
  if s.iterIdx < s.startIter then { s with iterIdx := s.iterIdx + 1 }
  else
    let p := s.prev ++ [iterate]
    let q := s.errs ++ [error]
    if p.length > s.nvecs then { s with prev := p.tail, errs := q.tail, iterIdx := s.iterIdx + 1 }
    else { s with prev := p, errs := q, iterIdx := s.iterIdx + 1 }

/-- The extrapolation (`diis.py:63-70`): `dim = len(prev_vecs)`, `error_vecs[i]` for `i < dim`.
Indexing outside `error_vecs` (impossible by `Props.C10_history_window`) reads `0` here. -/
noncomputable def extrapolate (prev errs : List (ι → ℝ)) : Option (ι → ℝ) :=
  (solve (fun i : Fin prev.length => errs.getD i 0)).map fun c =>
    ∑ i : Fin prev.length, c (Sum.inl i) • prev[i]

/-- The value returned by `compute_new_vec` (`diis.py:40-70`), `none` for `LinAlgError`. -/
noncomputable def State.newVec (s : State ι) (iterate error : ι → ℝ) : Option (ι → ℝ) :=
  if s.iterIdx < s.startIter then some iterate
  else extrapolate (s.push iterate error).prev (s.push iterate error).errs

/-- The object after a sequence of calls. -/
def State.pushAll (s : State ι) (calls : List ((ι → ℝ) × (ι → ℝ))) : State ι :=
  calls.foldl (fun s c => s.push c.1 c.2) s

end Verif.Diis
