import Verif.Fn.All
import Verif.Model.Antisym

/-!
# The XCCD base terms

`/repo/UT2/XCCDbasebuilder.py` and the energies made from them in `/repo/UT2/kernel.py`. The pickle file that orders 7
and 9 read is the array written at order 5 (`Verif/Model/Xccd.lean` models the file); here it is passed directly.
-/

namespace Verif.UT2

open Verif.Ein

variable {I K : Type} [Field K] [Inhabited I] (D : Nat → Finset I)

/-- `XCCDbasebuilder.py` 29-36: the array `t4` at order 5, axes `(o,o,o,o,v,v,v,v)`; it is also what is pickled. -/
def xccd5_t4 (S : SO I K) : List I → K := antisym_t4_residual (Gen.xccd5_quad.eval D S.T)

/-- `XCCDbasebuilder.py` 44-48: `t4` at order 6. -/
def xccd6_t4 (S : SO I K) : List I → K := antisym_t4_residual (Gen.xccd6_quad.eval D S.T)

/-- `XCCDbasebuilder.py` 54-57: the arrays `get_xcc7residual` is called with: the pickled `t4` and `t_dag`, which has
the entries of `t2`. -/
def xccd7_args (S : SO I K) : SO I K :=
  { S with
    l2 := fun i j a b => S.t2 a b i j
    t4 := fun a b c d i j k l => xccd5_t4 D S [i, j, k, l, a, b, c, d] }

/-- `XCCDbasebuilder.py` 58, 59: `t4` at order 7. -/
def xccd7_t4 (S : SO I K) : List I → K := antisym_t4_residual (Gen.get_xcc7residual.eval D (xccd7_args D S).T)

/-- `einsum('klcd,abcdijkl->abij', t2_dag, t4)` with `t2_dag = t2_aa.transpose(2,3,0,1)` (17, 18) and `t4` transposed to
`(v,v,v,v,o,o,o,o)` (38, 39; 48, 49; 59, 60). -/
def capDag (S : SO I K) (t4 : List I → K) (a b i j : I) : K :=
  ∑ k ∈ D 0, ∑ l ∈ D 0, ∑ c ∈ D 1, ∑ d ∈ D 1, S.t2 c d k l * t4 [i, j, k, l, a, b, c, d]

/-- `XCCDbasebuilder.py` 6-87, `build_XCCDbase` at orders 5, 6 and 7. `none` stands for the other orders: 8 and 9 are
not modelled, further ones stop the program. -/
def build_XCCDbase (S : SO I K) (order : Nat) : Option (I → I → I → I → K) :=
  if order = 5 then some fun a b i j => 1 / 8 * capDag D S (xccd5_t4 D S) a b i j
  else if order = 6 then some fun a b i j => 1 / 8 * capDag D S (xccd6_t4 D S) a b i j
  else if order = 7 then some fun a b i j => 1 / 24 * capDag D S (xccd7_t4 D S) a b i j
  else none

/-- `kernel.py` 541, 544: `t2_dag1`. With `factorization` it is `g[va,va,oa,oa] * D2`, otherwise the amplitudes. -/
def t2_dag1 (S : SO I K) (D2 : I → I → I → I → K) (factorization : Bool) (i j a b : I) : K :=
  if factorization then S.g a b i j * D2 a b i j else S.t2 a b i j

/-- `kernel.py` 524-550, `buildXCCD_T2energy(order, factorization)`. -/
def buildXCCD_T2energy (S : SO I K) (D2 : I → I → I → I → K) (order : Nat) (factorization : Bool) : Option K :=
  (build_XCCDbase D S order).map fun t2_order =>
    1 / 4 * ∑ i ∈ D 0, ∑ j ∈ D 0, ∑ a ∈ D 1, ∑ b ∈ D 1, t2_dag1 S D2 factorization i j a b * t2_order a b i j

/-- `t2energySlow.py` 66-84, `add_XCCenergy`: the sum over the orders in `pertOrder`. -/
def add_XCCenergy (S : SO I K) (D2 : I → I → I → I → K) (factorization : Bool) (pertOrder : List Nat) : Option K :=
  pertOrder.foldlM (fun e order => (buildXCCD_T2energy D S D2 order factorization).map (e + ·)) 0

end Verif.UT2
