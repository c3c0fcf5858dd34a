import Mathlib.Algebra.Field.Basic
import Mathlib.Algebra.BigOperators.Group.List.Basic

/-!
# Orbital-energy denominators

Model of `get_denoms` (`/repo/UT2/run_ccd.py:946-1142`), of the denominators of the perturbative branch
of `ccd_main` (`run_ccd.py:165-171`), of `set_denoms.py` and of `xacc.set_denoms`
(`/repo/UT2/xacc.py:27-38`). The numbers are elements of a field; NumPy's result of dividing by zero
(`inf`) is `none`.

A denominator array is described by the list of its axes exactly as written in the source: for every axis
which energy array is read (`epsaa` or `epsbb`), through which slice (`occ_aa`, `occ_bb`, `virt_aa`,
`virt_bb`); virtual axes enter with a minus sign, occupied axes with a plus sign.
-/

namespace Verif.Denoms

inductive Spin | a | b
  deriving DecidableEq

/-- Orbital energies of both spins (by orbital number) and numbers of occupied orbitals: the contents of
the `eps` dictionary and of the slices `slice(None,n)`, `slice(n,None)`
(`run_ccd.py:652-659`). -/
structure Orbs (K : Type) where
  epsA : ℕ → K
  epsB : ℕ → K
  na : ℕ
  nb : ℕ

variable {K : Type}

def Orbs.eps (O : Orbs K) : Spin → ℕ → K
  | .a => O.epsA
  | .b => O.epsB

def Orbs.n (O : Orbs K) : Spin → ℕ
  | .a => O.na
  | .b => O.nb

/-- One axis as written in the source: energy array and slice. -/
structure Axis where
  arr : Spin
  sl : Spin

/-- `eps_arr[virt_sl][x]` -/
def Orbs.virt (O : Orbs K) (ax : Axis) (x : ℕ) : K := O.eps ax.arr (O.n ax.sl + x)
/-- `eps_arr[occ_sl][x]` -/
def Orbs.occ (O : Orbs K) (ax : Axis) (x : ℕ) : K := O.eps ax.arr x

/-- A denominator array: its virtual and its occupied axes. -/
structure Den where
  vs : List Axis
  os : List Axis

variable [Field K] [DecidableEq K]

/-- Entry `[a,b,..,i,j,..]` of `1.0/(-eps[..] - eps[..] + eps[..] + eps[..])`. -/
def Den.entry (D : Den) (O : Orbs K) (vix oix : List ℕ) : Option K :=
  let s := -((List.zipWith (O.virt) D.vs vix).sum) + (List.zipWith (O.occ) D.os oix).sum
  if s = 0 then none else some (1 / s)

/-- Axis with energy array and slice of the same spin / as given. -/
abbrev x (arr sl : Spin) : Axis := ⟨arr, sl⟩

open Spin

/-- `eabij_aa` (`run_ccd.py:994-999`), also for spin orbitals, and `D2denomSlow`
(`set_denoms.py:8-16`, which then transposes to `oovv`). -/
def D2aa : Den := ⟨[x a a, x a a], [x a a, x a a]⟩
/-- `eabij_bb` (`run_ccd.py:980-985`) -/
def D2bb : Den := ⟨[x b b, x b b], [x b b, x b b]⟩
/-- `eabij_ab` (`run_ccd.py:986-991`) -/
def D2ab : Den := ⟨[x a a, x b b], [x a a, x b b]⟩
/-- `D1` / `eai_aa` (`run_ccd.py:1003`, `1039`), `D1denomSlow` (`set_denoms.py:3-6`) -/
def D1aa : Den := ⟨[x a a], [x a a]⟩
/-- `eai_bb` (`run_ccd.py:1040`): the occupied energies are read from `epsaa`. -/
def D1bb : Den := ⟨[x b b], [x a b]⟩
/-- `D3` / `eabcijk_aa` (`run_ccd.py:1004-1005`, `1045-1052`), `D3denomSlow` -/
def D3aaa : Den := ⟨[x a a, x a a, x a a], [x a a, x a a, x a a]⟩
/-- `eabcijk_bb` (`run_ccd.py:1055-1062`) -/
def D3bbb : Den := ⟨[x b b, x b b, x b b], [x b b, x b b, x b b]⟩
/-- `eabcijk_aab` (`run_ccd.py:1064-1071`) -/
def D3aab : Den := ⟨[x a a, x b a, x a b], [x a a, x b a, x a b]⟩
/-- `eabcijk_abb` (`run_ccd.py:1073-1080`) -/
def D3abb : Den := ⟨[x a a, x b b, x a b], [x a a, x b b, x a b]⟩
/-- `D4` / `eabcdijkl_aaaa` (`run_ccd.py:1014-1021`, `1085-1094`), `D4denomSlow` -/
def D4aaaa : Den := ⟨[x a a, x a a, x a a, x a a], [x a a, x a a, x a a, x a a]⟩
/-- `eabcdijkl_bbbb` (`run_ccd.py:1096-1105`) -/
def D4bbbb : Den := ⟨[x b b, x b b, x b b, x b b], [x b b, x b b, x b b, x b b]⟩
/-- `eabcdijkl_aabb` (`run_ccd.py:1107-1116`) -/
def D4aabb : Den := ⟨[x a a, x a b, x b a, x b b], [x a a, x a b, x b a, x b b]⟩
/-- `eabcdijkl_aaab` (`run_ccd.py:1117-1126`) -/
def D4aaab : Den := ⟨[x a a, x a b, x a a, x b b], [x a a, x a b, x a a, x b b]⟩
/-- `eabcdijkl_abbb` (`run_ccd.py:1127-1136`) -/
def D4abbb : Den := ⟨[x a a, x b b, x b a, x b b], [x a a, x b b, x b a, x b b]⟩

/-- The key of each array in `denomInfo` (`run_ccd.py:992,1000,1006,1081-1083,1138-1140`), as the spin
letters after `D1`..`D4`. `D1ab` is the constant `0.0` (line 1041) and not a denominator; left out. -/
def table : List (String × List Spin × Den) :=
  [("D2aa", [a, a], D2aa), ("D2bb", [b, b], D2bb), ("D2ab", [a, b], D2ab),
   ("D1aa", [a], D1aa), ("D1bb", [b], D1bb),
   ("D3aaa", [a, a, a], D3aaa), ("D3bbb", [b, b, b], D3bbb), ("D3aab", [a, a, b], D3aab),
   ("D3abb", [a, b, b], D3abb), ("D4aaaa", [a, a, a, a], D4aaaa), ("D4bbbb", [b, b, b, b], D4bbbb),
   ("D4aaab", [a, a, a, b], D4aaab), ("D4aabb", [a, a, b, b], D4aabb), ("D4abbb", [a, b, b, b], D4abbb)]

end Verif.Denoms
