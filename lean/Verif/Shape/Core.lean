import Mathlib.Data.List.Basic
import Mathlib.Logic.Function.Basic

/-!
# Shapes of numpy arrays in straight-line code (C45)

The residual and energy functions of /repo/UT2 are straight-line programs: assignments and augmented assignments whose
right-hand sides are sums of (scaled) `np.einsum` calls on slices and transposes of arrays. Here such a function is a
list of statements that keeps, of every call, the subscripts and the operands exactly as written; numerical factors are
dropped, since they do not change shapes.

The interpreter is written once, for any algebra of dimensions. With numbers as dimensions it is the run-time check
that numpy makes (`Alg.num`), with the letters occupied/virtual/all as dimensions it is a type checker (`Alg.sym`).
-/

namespace Verif.Shape

/-- Slices used in subscripts: `:`, `o = slice(None, nocc)`, `v = slice(nocc, None)` (`run_ccd.py` 652-655, 726-727). -/
inductive Sl
  | all | o | v | ob | vb

/-- Operations on an array operand: `x[o,v,..]` and `x.transpose(..)`. -/
inductive Op
  | sl (s : List Sl)
  | tr (p : List Nat)

/-- An operand: a variable with the operations applied to it. -/
structure Arg where
  x : Nat
  ops : List Op := []

/-- A summand of a right-hand side. Subscript letters are numbers. -/
inductive Term
  /-- `np.einsum("ins->out", args)` -/
  | ein (ins : List (List Nat)) (out : List Nat) (args : List Arg)
  /-- an array as it stands -/
  | arg (a : Arg)
  /-- `np.zeros((n1, .., nk))`, the dimensions being integer variables -/
  | zeros (dims : List Nat)
  /-- a number -/
  | num
  /-- elementwise product -/
  | mul (a b : Arg)
  /-- call of another function of the package -/
  | call (f : Nat) (args : List Arg)
  /-- the constant `None` -/
  | none

/-- Statements. A sum of several terms is evaluated from left to right. -/
inductive Stmt
  /-- `x = t1 + t2 + ..` -/
  | set (x : Nat) (ts : List Term)
  /-- `x += t1 + ..` or `x -= ..` -/
  | aug (x : Nat) (ts : List Term)
  /-- `x = y.shape[k]` -/
  | dim (x y k : Nat)

/-- A function: parameters, body, returned values. -/
structure Fn where
  params : List Nat
  body : List Stmt
  ret : List Arg

/-- Values as far as shapes are concerned: arrays (numbers are arrays without axes), integers, `None`. -/
inductive Val (δ : Type)
  | arr (s : List δ)
  | int (n : δ)
  | none

/-- What the interpreter has to know about dimensions: slicing an axis, and broadcasting two axes against each other. -/
structure Alg (δ : Type) where
  slice : Sl → δ → Option δ
  join : δ → δ → Option δ

variable {δ : Type} (A : Alg δ)

def lookup {α : Type} : List (Nat × α) → Nat → Option α
  | [], _ => .none
  | (y, a) :: m, x => if Nat.beq y x then some a else lookup m x

/-- `x[s1,..,sk]`: at most as many slices as axes. -/
def slices : List Sl → List δ → Option (List δ)
  | [], ds => some ds
  | _ :: _, [] => .none
  | s :: ss, d :: ds => match A.slice s d with
    | some e => match slices ss ds with
      | some es => some (e :: es)
      | .none => .none
    | .none => .none

def nodupB : List Nat → Bool
  | [] => true
  | x :: xs => !xs.any (Nat.beq x) && nodupB xs

def getAll {α : Type} (f : Nat → Option α) : List Nat → Option (List α)
  | [] => some []
  | k :: ks => match f k with
    | some a => match getAll f ks with
      | some as => some (a :: as)
      | .none => .none
    | .none => .none

def nth {α : Type} : List α → Nat → Option α
  | [], _ => .none
  | a :: _, 0 => some a
  | _ :: as, k + 1 => nth as k

/-- `x.transpose(p)`: `p` must be a permutation of the axes; axis `k` of the result is axis `p[k]` of `x`. -/
def transpose (p : List Nat) (ds : List δ) : Option (List δ) :=
  if Nat.beq p.length ds.length && nodupB p then getAll (nth ds) p else .none

def applyOps : List Op → List δ → Option (List δ)
  | [], ds => some ds
  | .sl s :: ops, ds => match slices A s ds with
    | some es => applyOps ops es
    | .none => .none
  | .tr p :: ops, ds => match transpose p ds with
    | some es => applyOps ops es
    | .none => .none

/-- Shape of an operand. -/
def argShape (ρ : List (Nat × Val δ)) (a : Arg) : Option (List δ) :=
  match lookup ρ a.x with
  | some (.arr s) => applyOps A a.ops s
  | _ => .none

/-- Value handed to a call: operands may also be integers or `None`. -/
def argVal (ρ : List (Nat × Val δ)) (a : Arg) : Option (Val δ) :=
  match lookup ρ a.x with
  | some (.arr s) => match applyOps A a.ops s with
    | some t => some (.arr t)
    | .none => .none
  | some w => match a.ops with
    | [] => some w
    | _ :: _ => .none
  | .none => .none

/-- The letters of one operand of `einsum`: as many as axes, each letter with one dimension (up to broadcasting). -/
def assign : List Nat → List δ → List (Nat × δ) → Option (List (Nat × δ))
  | [], [], m => some m
  | l :: ls, d :: ds, m => match lookup m l with
    | .none => assign ls ds ((l, d) :: m)
    | some e => match A.join e d with
      | some r => assign ls ds ((l, r) :: m)
      | .none => .none
  | _, _, _ => .none

/-- All operands of `einsum`: as many subscripts as operands. -/
def assigns (ρ : List (Nat × Val δ)) : List (List Nat) → List Arg → List (Nat × δ) → Option (List (Nat × δ))
  | [], [], m => some m
  | ls :: lss, a :: as, m => match argShape A ρ a with
    | some s => match assign A ls s m with
      | some m' => assigns ρ lss as m'
      | .none => .none
    | .none => .none
  | _, _, _ => .none

/-- Broadcasting of two shapes, last axes first (arguments reversed). -/
def bcastRev : List δ → List δ → Option (List δ)
  | [], ts => some ts
  | ss, [] => some ss
  | s :: ss, t :: ts => match A.join s t with
    | some r => match bcastRev ss ts with
      | some rs => some (r :: rs)
      | .none => .none
    | .none => .none

/-- Shape of `x + y`. -/
def bcast (s t : List δ) : Option (List δ) :=
  match bcastRev A s.reverse t.reverse with
  | some r => some r.reverse
  | .none => .none

/-- What calls of other functions return. -/
abbrev Calls (δ : Type) := Nat → List (Val δ) → Option (Val δ)

def mapArgs (ρ : List (Nat × Val δ)) : List Arg → Option (List (Val δ))
  | [] => some []
  | a :: as => match argVal A ρ a with
    | some w => match mapArgs ρ as with
      | some ws => some (w :: ws)
      | .none => .none
    | .none => .none

def intOf (ρ : List (Nat × Val δ)) (x : Nat) : Option δ :=
  match lookup ρ x with
  | some (.int n) => some n
  | _ => .none

variable (Φ : Calls δ)

/-- Value of a summand. The letters of the output of `einsum` are distinct and occur in the input. -/
def termVal (ρ : List (Nat × Val δ)) : Term → Option (Val δ)
  | .ein ins out args => match assigns A ρ ins args [] with
    | some m => if nodupB out then match getAll (lookup m) out with
        | some s => some (.arr s)
        | .none => .none
      else .none
    | .none => .none
  | .arg a => argVal A ρ a
  | .zeros ds => match getAll (intOf ρ) ds with
    | some s => some (.arr s)
    | .none => .none
  | .num => some (.arr [])
  | .mul a b => match argShape A ρ a with
    | some s => match argShape A ρ b with
      | some t => match bcast A s t with
        | some r => some (.arr r)
        | .none => .none
      | .none => .none
    | .none => .none
  | .call f args => match mapArgs A ρ args with
    | some ws => Φ f ws
    | .none => .none
  | .none => some .none

/-- `s + t1 + ..` for an array `s`. -/
def addTerms (ρ : List (Nat × Val δ)) : List δ → List Term → Option (List δ)
  | s, [] => some s
  | s, t :: ts => match termVal A Φ ρ t with
    | some (.arr u) => match bcast A s u with
      | some r => addTerms ρ r ts
      | .none => .none
    | _ => .none

/-- Value of a right-hand side. -/
def rhs (ρ : List (Nat × Val δ)) : List Term → Option (Val δ)
  | [] => .none
  | [t] => termVal A Φ ρ t
  | t :: ts => match termVal A Φ ρ t with
    | some (.arr s) => match addTerms A Φ ρ s ts with
      | some r => some (.arr r)
      | .none => .none
    | _ => .none

/-- In-place addition of an array of shape `t` to one of shape `s`: `t` must broadcast to exactly `s`. Arguments are
reversed. -/
def fitsRev (eqv : δ → δ → Bool) : List δ → List δ → Bool
  | _, [] => true
  | [], _ :: _ => false
  | s :: ss, t :: ts => (match A.join s t with
    | some r => eqv r s
    | .none => false) && fitsRev eqv ss ts

/-- A statement. `x += y` on a number rebinds `x`; on an array it works in place and cannot change the shape. -/
def exec (eqv : δ → δ → Bool) (ρ : List (Nat × Val δ)) : Stmt → Option (List (Nat × Val δ))
  | .set x ts => match rhs A Φ ρ ts with
    | some w => some ((x, w) :: ρ)
    | .none => .none
  | .aug x ts => match lookup ρ x with
    | some (.arr s) => match rhs A Φ ρ ts with
      | some (.arr t) => match s with
        | [] => match t with
          | [] => some ρ
          | e :: es => some ((x, .arr (e :: es)) :: ρ)
        | d :: ds => if fitsRev A eqv (d :: ds).reverse t.reverse then some ρ else .none
      | _ => .none
    | _ => .none
  | .dim x y k => match lookup ρ y with
    | some (.arr s) => match nth s k with
      | some d => some ((x, .int d) :: ρ)
      | .none => .none
    | _ => .none

def execs (eqv : δ → δ → Bool) (ρ : List (Nat × Val δ)) : List Stmt → Option (List (Nat × Val δ))
  | [] => some ρ
  | s :: ss => match exec A Φ eqv ρ s with
    | some ρ' => execs eqv ρ' ss
    | .none => .none

def bindParams : List Nat → List (Val δ) → Option (List (Nat × Val δ))
  | [], [] => some []
  | x :: xs, w :: ws => match bindParams xs ws with
    | some ρ => some ((x, w) :: ρ)
    | .none => .none
  | _, _ => .none

/-- Result of a function on arguments of the given shapes; `none` if some statement raises. -/
def run (eqv : δ → δ → Bool) (f : Fn) (ws : List (Val δ)) : Option (List (Val δ)) :=
  match bindParams f.params ws with
  | some ρ => match execs A Φ eqv ρ f.body with
    | some ρ' => mapArgs A ρ' f.ret
    | .none => .none
  | .none => .none

/-! ## Dimensions as numbers -/

/-- Numbers of occupied and virtual orbitals, and for open shells those of beta spin. -/
structure Sizes where
  no : Nat
  nv : Nat
  nob : Nat := no
  nvb : Nat := nv

/-- numpy: `o` keeps the first `nocc` entries of an axis, `v` the entries after the first `nocc`; two axes broadcast
if they are equal or one has length one. -/
def Alg.num (z : Sizes) : Alg Nat where
  slice
    | .all, d => some d
    | .o, d => some (min z.no d)
    | .v, d => some (d - z.no)
    | .ob, d => some (min z.nob d)
    | .vb, d => some (d - z.nob)
  join d e := if d = e then some d else if d = 1 then some e else if e = 1 then some d else .none

/-- A function on arrays of the given shapes: the shapes returned, or `none` if a statement raises. -/
def Fn.exec (z : Sizes) (Φ : Calls Nat) (f : Fn) (ws : List (Val Nat)) : Option (List (Val Nat)) :=
  run (Alg.num z) Φ Nat.beq f ws

/-! ## Dimensions as letters -/

/-- Occupied, virtual, all orbitals. -/
inductive Dim
  | o | v | n
  deriving Repr

/-- Two different letters never fit together. -/
def Alg.sym : Alg Dim where
  slice
    | .all, d => some d
    | .o, .n => some .o
    | .v, .n => some .v
    | _, _ => .none
  join
    | .o, .o => some .o
    | .v, .v => some .v
    | .n, .n => some .n
    | _, _ => .none

def Dim.eqb : Dim → Dim → Bool
  | .o, .o => true
  | .v, .v => true
  | .n, .n => true
  | _, _ => false

/-- The dimension a letter stands for. -/
def Dim.size (z : Sizes) : Dim → Nat
  | .o => z.no
  | .v => z.nv
  | .n => z.no + z.nv

def Val.map {α β : Type} (f : α → β) : Val α → Val β
  | .arr s => .arr (s.map f)
  | .int n => .int (f n)
  | .none => .none

end Verif.Shape
