import Mathlib.Algebra.Field.Defs
import Mathlib.Data.List.Basic
import Verif.Model.Setup

/-!
# The reader of external amplitudes and integrals

Model of `run_xacc` (`/repo/UT2/xacc.py`). A text line is represented by its tokens; splitting a line at blanks and
the decimal syntax of numbers are not modelled.
-/

namespace Verif.Xacc
open Verif.Setup

inductive Err | valueError | indexError
  deriving DecidableEq, Repr

/-- A token of a line, as `int(token.strip('^'))` sees it: a number, the separator `|`, or something that is not a
number (`xacc.py:86-89`, `116-119`). -/
inductive Tok | op (z : ℤ) | bar | bad
  deriving DecidableEq, Repr

/-- A line: does it start with `+++++` (`xacc.py:137`); its tokens except the last one (`line.split()[:-1]`, line 112);
the last token as an operator (only `read_tei` looks at it, line 84); the value of the last token (`float(...)`, lines
83 and 110) or the exception that computing it raises. -/
structure Line (K : Type) where
  marker : Bool
  toks : List Tok
  last : Tok
  val : Except Err K

/-- The loop `for operator in range(4)` (`xacc.py:86-89`, `116-119`): operators up to the first `|`. The end of the
list stands for the separator that line 113 appends. -/
def ops : ℕ → List Tok → Except Err (List ℤ)
  | 0, _ => .ok []
  | _ + 1, [] => .ok []
  | _ + 1, .bar :: _ => .ok []
  | _ + 1, .bad :: _ => .error .valueError
  | n + 1, .op z :: ts =>
    match ops n ts with
    | .ok l => .ok (z :: l)
    | .error e => .error e

/-- Position on an axis of length `n` addressed by the index `z`: negative indices count from the end, others raise
`IndexError` (NumPy). -/
def pyIdx (n : ℕ) (z : ℤ) : Option ℕ :=
  if 0 ≤ z then (if z < n then some z.toNat else none) else if -(n : ℤ) ≤ z then some (z + n).toNat else none

variable {K : Type} [Field K]

/-- `self.t1amps`, `self.t2amps` and the local flag `read_amps`. -/
structure Amps (K : Type) where
  t1 : ℕ × ℕ → K
  t2 : ℕ × ℕ × ℕ × ℕ → K
  read : Bool

/-- Before reading: zero arrays (`xacc.py:16-17`, `105`). -/
def Amps.init : Amps K := ⟨fun _ => 0, fun _ => 0, false⟩

/-- The four assignments for a doubles record (`xacc.py:127-130`). -/
def doublesWrites (a b i j : ℕ) (x : K) : List ((ℕ × ℕ × ℕ × ℕ) × K) :=
  [((a, b, i, j), x), ((b, a, i, j), -1 * x), ((a, b, j, i), -1 * x), ((b, a, j, i), x)]

/-- Reading one line after the marker (`xacc.py:109-135`). -/
def readRecord (nocc nvirt : ℕ) (A : Amps K) (l : Line K) : Except Err (Amps K) :=
  match l.val with
  | .error e => .error e
  | .ok x =>
    match ops 4 l.toks with
    | .error e => .error e
    | .ok [p, q, r, s] =>
      match pyIdx nvirt (p - nocc), pyIdx nvirt (q - nocc), pyIdx nocc r, pyIdx nocc s with
      | some a, some b, some i, some j => .ok { A with t2 := store A.t2 (doublesWrites a b i j x) }
      | _, _, _, _ => .error .indexError
    | .ok (p :: r :: _) =>
      match pyIdx nvirt (p - nocc), pyIdx nocc r with
      | some a, some i => .ok { A with t1 := store A.t1 [((a, i), x)] }
      | _, _ => .error .indexError
    | .ok _ => .error .indexError

/-- The body of the loop over lines (`xacc.py:107-138`). -/
def readLine (nocc nvirt : ℕ) (A : Amps K) (l : Line K) : Except Err (Amps K) :=
  match (if A.read then readRecord nocc nvirt A l else .ok A) with
  | .error e => .error e
  | .ok B => .ok (if l.marker then { B with read := true } else B)

/-- The loop over lines, from a given state. -/
def readLines (nocc nvirt : ℕ) : Amps K → List (Line K) → Except Err (Amps K)
  | A, [] => .ok A
  | A, l :: ls =>
    match readLine nocc nvirt A l with
    | .error e => .error e
    | .ok B => readLines nocc nvirt B ls

/-- `read_tamps` (`xacc.py:102-142`). -/
def read_tamps (nocc nvirt : ℕ) (file : List (Line K)) : Except Err (Amps K) :=
  readLines nocc nvirt Amps.init file

/-- Reading one line of the integral file (`xacc.py:82-96`). With fewer than four operators some index (line 87, 91 or 95)
is out of range. The dictionary `tei` (line 98) is not used afterwards and left out. -/
def readTeiLine (nbas : ℕ) (T : ℕ × ℕ × ℕ × ℕ → K) (l : Line K) : Except Err (ℕ × ℕ × ℕ × ℕ → K) :=
  match l.val with
  | .error e => .error e
  | .ok x =>
    match ops 4 (l.toks ++ [l.last]) with
    | .error e => .error e
    | .ok [p, q, r, s] =>
      match pyIdx nbas p, pyIdx nbas q, pyIdx nbas r, pyIdx nbas s with
      | some a, some b, some c, some d => .ok (store T [((a, b, c, d), 4 * x)])
      | _, _, _, _ => .error .indexError
    | .ok _ => .error .indexError

def readTeiLines (nbas : ℕ) : (ℕ × ℕ × ℕ × ℕ → K) → List (Line K) → Except Err (ℕ × ℕ × ℕ × ℕ → K)
  | T, [] => .ok T
  | T, l :: ls =>
    match readTeiLine nbas T l with
    | .error e => .error e
    | .ok U => readTeiLines nbas U ls

/-- `read_tei` (`xacc.py:79-98`). -/
def read_tei (nbas : ℕ) (file : List (Line K)) : Except Err (ℕ × ℕ × ℕ × ℕ → K) :=
  readTeiLines nbas (fun _ => 0) file

end Verif.Xacc
