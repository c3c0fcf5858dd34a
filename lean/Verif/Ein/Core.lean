import Mathlib.Data.Rat.Cast.CharZero
import Mathlib.Algebra.BigOperators.Group.Finset.Basic
import Mathlib.Algebra.BigOperators.Group.List.Basic

/-!
# einsum programs: syntax and meaning

The residual and energy modules of `/repo/UT2` are straight-line sequences of statements

    res += c * einsum('nmkl,kldc,dcjm,abin->abij', g[o,o,o,o], l2, t2, t2)

or

    ci = c * einsum('kj,abik->abij', f[o,o], t2)
    res += 1.0*ci + -1.0*einsum('abij->abji', ci)

This file gives such a sequence as data (`Prog`) and its meaning for tensors of any size (`Prog.eval`).
The data of each Python function is written by `/verif/tools/gen.py` from the Python source (modules
`Verif/Gen/*`).

Index letters are numbers; the parity gives the range (even: occupied, odd: virtual), as established by
the generator from the slices and array shapes of the source. Tensors are functions of lists of orbitals:
entry `[a,b,i,j]` of an array with virtual axes first is the value at the orbitals those positions stand
for (position `a` of a virtual axis is orbital `nocc + a`). So one index type serves all arrays and
`g[o,v,v,o]` is `g` read at occupied and virtual orbitals. Floating-point rounding is not modelled: the
entries are elements of a field of characteristic zero, coefficients are the exact decimal numbers of the
source.
-/

namespace Verif.Ein

/-- An index letter. -/
abbrev Var := Nat

/-- Range of an index letter: 0 occupied, 1 virtual. -/
def sp (x : Var) : Nat := x % 2

/-- One operand of an einsum: tensor number and its index letters. -/
structure Fac where
  t : Nat
  ix : List Var
  deriving DecidableEq

/-- One einsum with coefficient and the outputs it is accumulated to: for every `(s, w)` the array with
output letters `w` is added with sign `s` (`einsum('abij->abji', ci)` has `w = [a,b,j,i]`). -/
structure Blk where
  c : ℚ
  fs : List Fac
  ps : List (ℤ × List Var)

/-- A Python function: the statements accumulating to its result. -/
abbrev Prog := List Blk

/-- Letters of the operands, without repetition. -/
def insertNew (x : Var) (l : List Var) : List Var := if l.elem x then l else x :: l

def varsIx (ix : List Var) (acc : List Var) : List Var := ix.foldr insertNew acc

def vars (fs : List Fac) : List Var := fs.foldr (fun f acc => varsIx f.ix acc) []

/-- The letters summed over: those not among the output letters. -/
def dums (w : List Var) (fs : List Fac) : List Var := (vars fs).filter (fun x => !w.elem x)

variable {I K : Type} [Field K]

/-- Assign values to letters. -/
def bind (ρ : Var → I) : List Var → List I → Var → I
  | x :: xs, i :: is => bind (Function.update ρ x i) xs is
  | _, _ => ρ

/-- Sum over all values of the given letters; `D` gives the set of orbitals of each range. -/
def sumOver (D : Nat → Finset I) : List Var → ((Var → I) → K) → (Var → I) → K
  | [], f, ρ => f ρ
  | x :: xs, f, ρ => ∑ i ∈ D (sp x), sumOver D xs f (Function.update ρ x i)

/-- Product of the operands. -/
def evalFs (T : Nat → List I → K) : List Fac → (Var → I) → K
  | [], _ => 1
  | f :: fs, ρ => T f.t (f.ix.map ρ) * evalFs T fs ρ

/-- Value of `c * einsum(...)` with output letters `w` at the orbitals `xs`. -/
def termVal [Inhabited I] (D : Nat → Finset I) (T : Nat → List I → K) (c : ℚ) (fs : List Fac) (w : List Var)
    (xs : List I) : K :=
  (c : K) * sumOver D (dums w fs) (evalFs T fs) (bind (fun _ => default) w xs)

def Blk.eval [Inhabited I] (D : Nat → Finset I) (T : Nat → List I → K) (b : Blk) (xs : List I) : K :=
  (b.ps.map fun p => (p.1 : K) * termVal D T b.c b.fs p.2 xs).sum

/-- Value of the result array of a function at the orbitals `xs`. -/
def Prog.eval [Inhabited I] (D : Nat → Finset I) (T : Nat → List I → K) (P : Prog) (xs : List I) : K :=
  (P.map fun b => b.eval D T xs).sum

/-! ## Symmetry of tensors -/

/-- Symmetry of a tensor used by the normaliser: `links` says for every axis whether it is antisymmetric
with the next one, `herm` whether the two halves of the axes may be exchanged. -/
structure Kind where
  links : List Bool
  herm : Bool

/-- A tensor has the symmetry described by a `Kind`. -/
structure Kind.Holds (k : Kind) (t : List I → K) : Prop where
  anti : ∀ l₁ x y l₂, k.links[l₁.length]? = some true → t (l₁ ++ x :: y :: l₂) = - t (l₁ ++ y :: x :: l₂)
  herm : k.herm = true → ∀ l₁ l₂, l₁.length = l₂.length → t (l₁ ++ l₂) = t (l₂ ++ l₁)

end Verif.Ein
