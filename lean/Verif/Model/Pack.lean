import Mathlib.Data.List.Basic
import Mathlib.Algebra.BigOperators.Group.List.Basic

/-!
# Packing of amplitude arrays into the DIIS vector

Model of the `flatten`/`hstack`/slice/`reshape` code of `UltT2CC.kernel`
(`/repo/UT2/kernel.py:338-436`). An array is a shape together with an entry for every multi-index; NumPy
stores and flattens it in row-major order. Numbers are elements of any type.
-/

namespace Verif.Pack
variable {K : Type}

/-- A multi-index is inside a shape. -/
def InBounds : List ℕ → List ℕ → Prop
  | [], [] => True
  | n :: sh, i :: ix => i < n ∧ InBounds sh ix
  | _, _ => False

/-- `A.size` -/
def size : List ℕ → ℕ
  | [] => 1
  | n :: sh => n * size sh

/-- `A.flatten()`: the entries in row-major order. -/
def flatten : List ℕ → (List ℕ → K) → List K
  | [], f => [f []]
  | n :: sh, f => (List.range n).flatMap (fun i => flatten sh (fun ix => f (i :: ix)))

/-- Row-major position of a multi-index. -/
def offset : List ℕ → List ℕ → ℕ
  | _ :: sh, i :: ix => i * size sh + offset sh ix
  | _, _ => 0

/-- `v.reshape(sh)[ix]`; `none` when NumPy would refuse (length different from the size) or the index is
outside. -/
def reshape (sh : List ℕ) (v : List K) (ix : List ℕ) : Option K :=
  if v.length = size sh then v[offset sh ix]? else none

/-- `v[a:b]` for `0 ≤ a ≤ b`. -/
def slice (v : List K) (a b : ℕ) : List K := (v.take b).drop a

/-- The general branch (`kernel.py:361-367`): three doubles blocks. -/
def packD (t2aa t2bb t2ab : List K) : List K := t2aa ++ t2bb ++ t2ab

/-- `kernel.py:421-433`, with `d1,d2` the sizes of the first two blocks. -/
def unpackD (d1 d2 : ℕ) (v : List K) : List K × List K × List K :=
  (v.take d1, slice v d1 (d1 + d2), v.drop (d1 + d2))

/-- The `UCC(4)` branch (`kernel.py:339-346`): singles, doubles, triples. -/
def packUCC4 (t1 t2 t3 : List K) : List K := t1 ++ t2 ++ t3

/-- `kernel.py:373-387`. -/
def unpackUCC4 (d1 d2 : ℕ) (v : List K) : List K × List K × List K :=
  (v.take d1, slice v d1 (d1 + d2), v.drop (d1 + d2))

/-- The blocks of the `CCDQ` layout in the order in which they are packed (`kernel.py:348-359`). -/
structure Q (α : Type) where
  (aa bb ab aaaa aaab aabb abbb bbbb : α)

/-- `kernel.py:347-359` -/
def packQ (q : Q (List K)) : List K :=
  q.aa ++ q.bb ++ q.ab ++ q.aaaa ++ q.aaab ++ q.aabb ++ q.abbb ++ q.bbbb

/-- `kernel.py:388-420`, with `d` the sizes of the present blocks; the last slice is open ended
(line 418). -/
def unpackQ (d : Q ℕ) (v : List K) : Q (List K) :=
  let start := d.aa + d.bb + d.ab
  let d1 := d.aa + d.bb + d.ab + d.aaaa
  let d2 := d1 + d.aaab
  let d3 := d2 + d.aabb
  let d4 := d3 + d.abbb
  { aa := v.take d.aa
    bb := slice v d.aa (d.aa + d.bb)
    ab := slice v (d.aa + d.bb) (d.aa + d.bb + d.ab)
    aaaa := slice v start d1
    aaab := slice v d1 d2
    aabb := slice v d2 d3
    abbb := slice v d3 d4
    bbbb := v.drop d4 }

end Verif.Pack
