import Verif.Fn.All
import Verif.Model.Antisym

/-!
# The fourth and fifth order triples energies of `wicked_T3corr.py`

`wicked_main` of `/repo/UT2/wicked_T3corr.py` (4-29) with `get_fourthOrder` (68-71), `get_fifthOrder` (31-47) and `build_T3_resids`
(76-88). The printed numbers are collected in a record. Numbers are elements of a field, not floating point. The entry `[i,j,a,b]` of the
Python array `t2` is `S.t2 a b i j`, the entry `[a,b,i,j]` of `t2_dag` is `S.l2 i j a b`.
-/

namespace Verif.Wicked

open Verif.Ein Verif.UT2

variable {I K : Type} [Field K] [Inhabited I] (D : Nat → Finset I)

/-- `t3resids[2]` of `build_T3_resids` (`wicked_T3corr.py` 79-81), entry `[i,j,k,a,b,c]`. -/
def second (S : SO I K) (i j k a b c : I) : K := wicked_antisym_T3 (fun xs => Gen.build_T3_secondO.eval D S.T xs) [i, j, k, a, b, c]

/-- `t3resids[3]` of `build_T3_resids` (`wicked_T3corr.py` 84-86), entry `[i,j,k,a,b,c]`. -/
def third (S : SO I K) (i j k a b c : I) : K := wicked_antisym_T3 (fun xs => Gen.build_T3_thirdO.eval D S.T xs) [i, j, k, a, b, c]

/-- `contractE(X, Y)` (`wicked_T3corr.py` 73-74) for arrays `X` with the axes `ijkabc` and `Y` with the axes `abcijk`. The other arrays
of `S` are not read. -/
def contract (S : SO I K) (X Y : I → I → I → I → I → I → K) : K :=
  contractE D { S with t3 := fun a b c i j k => X i j k a b c, l3 := fun i j k a b c => Y a b c i j k }

/-- `t2_firstO` (`wicked_T3corr.py` 8-9) in the place of `t2`. -/
def firstOrder (D2 : I → I → I → I → K) (S : SO I K) : SO I K := { S with t2 := fun a b i j => S.g a b i j * D2 a b i j }

/-- `get_fourthOrder(t3resid, D3denom)` (`wicked_T3corr.py` 68-71). -/
def fourthOrder (D3 : I → I → I → I → I → I → K) (S : SO I K) : K :=
  contract D S (second D S) fun a b c i j k => second D S i j k a b c * D3 a b c i j k

/-- `newwayE` (`wicked_T3corr.py` 10-13). -/
def twoCap (D2 : I → I → I → I → K) (D3 : I → I → I → I → I → I → K) (S : SO I K) : K :=
  contract D S (second D S) fun a b c i j k => second D (firstOrder D2 S) i j k a b c * D3 a b c i j k

/-- `capA_energy` (`wicked_T3corr.py` 33-34). -/
def capA (D3 : I → I → I → I → I → I → K) (S : SO I K) : K :=
  contract D S (second D S) fun a b c i j k => D3 a b c i j k * fifthOrder_capA D S a b c i j k

/-- `capB_energy` (`wicked_T3corr.py` 38-40). -/
def capB (D3 : I → I → I → I → I → I → K) (S : SO I K) : K :=
  contract D S (third D S) fun a b c i j k => second D S i j k a b c * D3 a b c i j k

/-- `capC_energy` (`wicked_T3corr.py` 44-46). -/
def capC (D3 : I → I → I → I → I → I → K) (S : SO I K) : K :=
  contract D S (second D S) fun a b c i j k => fifthOrder_capC D S a b c i j k * D3 a b c i j k

/-- The printed numbers. Every line prints a number and a multiple of it. -/
@[ext] structure Printed (K : Type) where
  /-- `2e cap is:` (14). -/
  twoCap : K × K
  /-- `fourthOenergy:` (22). -/
  fourth : K × K
  /-- `capA_energy:` (35). -/
  capA : K × K
  /-- `capB_energy` (41). -/
  capB : K × K
  /-- `capC_energy` (47). -/
  capC : K × K

/-- `wicked_main` (`wicked_T3corr.py` 4-29): what is printed and what is returned. The arguments `t1` and `t1_dag` are not used. -/
def wicked_main (D2 : I → I → I → I → K) (D3 : I → I → I → I → I → I → K) (S : SO I K) : Printed K × K :=
  ({ twoCap := (twoCap D D2 D3 S, twoCap D D2 D3 S * (1 / 4))
     fourth := (fourthOrder D D3 S, 1 / 4 * fourthOrder D D3 S)
     capA := (capA D D3 S, -1 / 8 * capA D D3 S)
     capB := (capB D D3 S, 1 / 4 * capB D D3 S)
     capC := (capC D D3 S, 1 / 4 * capC D D3 S) }, 1 / 4 * fourthOrder D D3 S)

end Verif.Wicked
