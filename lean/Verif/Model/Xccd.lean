import Verif.Model.Driver

/-!
# The quadruples file of the XCCD builder

Model of the file traffic of `build_XCCDbase` (`/repo/UT2/XCCDbasebuilder.py:6-87`) and of the loops over
perturbation orders that call it (`/repo/UT2/t2residEqnsSlow.py:54-60`, `/repo/UT2/t2energySlow.py:79-82`,
`/repo/UT2/kernel.py:524-550`). The tensors are abstract: `T` is everything order 5 computes from (doubles
amplitudes, integrals), `Q` the quadruples array. Other processes writing to the same directory are not
modelled.
-/

namespace Verif.Xccd
open Verif.Driver

/-- Exceptions of this part. -/
inductive Err | fileNotFound | nameError | typeError
  deriving DecidableEq

variable {T Q : Type}

/-- One call of `build_XCCDbase` with `order`: the content of `roooovvvv_t4_third.pickle` afterwards, and
the quadruples array that was read from it, if any. Order 5 writes (lines 32-40), 7 and 9 read
(lines 53-57, 72-76), 6 and 8 do not touch it, anything else calls `sys.exit` without `sys` having been
imported (line 84). -/
def call (build : T → Q) (file : Option Q) (t : T) (order : ℕ) : Except Err (Option Q × Option Q) :=
  if order = 5 then .ok (some (build t), none)
  else if order = 6 ∨ order = 8 then .ok (file, none)
  else if order = 7 ∨ order = 9 then
    match file with
    | some q => .ok (file, some q)
    | none => .error .fileNotFound
  else .error .nameError

/-- The loop over orders of one evaluation: final file and the arrays read, in order. -/
def loop (build : T → Q) (t : T) : List ℕ → Option Q → Except Err (Option Q × List Q)
  | [], f => .ok (f, [])
  | n :: ns, f =>
    match call build f t n with
    | .error e => .error e
    | .ok (f', r) =>
      match loop build t ns f' with
      | .error e => .error e
      | .ok (f'', rs) => .ok (f'', r.toList ++ rs)

/-- One evaluation (residual or energy) for a method name: `for order in pertOrder`. -/
def eval (build : T → Q) (name : List Char) (t : T) (f : Option Q) :
    Except Err (Option Q × List Q) :=
  match extractInteger name with
  | none => .error .typeError
  | some l => loop build t l f

/-- A history: evaluations one after the other, by any number of calculations; per evaluation its
inputs and what it read. -/
def history (build : T → Q) : List (List Char × T) → Option Q → Except Err (List (T × List Q))
  | [], _ => .ok []
  | (name, t) :: rest, f =>
    match eval build name t f with
    | .error e => .error e
    | .ok (f', rs) =>
      match history build rest f' with
      | .error e => .error e
      | .ok tr => .ok ((t, rs) :: tr)

end Verif.Xccd
