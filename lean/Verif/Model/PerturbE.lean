import Verif.Model.WholeDrive
import Verif.Fn.All
import Verif.Model.Antisym

/-!
# The `(qf)` corrections of `DriveCC`

`perturbE_driver` of `/repo/UT2/cc_energy.py` (46-88) with the functions it calls (91-175). The numbers are only printed: the
returned dictionary is `{"help": 2}` whatever they are. They are collected here in a record. Numbers are real, not floating point.
The entry `[i,j,a,b]` of the Python array `T2` is `t2 a b i j` here.
-/

namespace Verif.PerturbE

open Verif.Ein Verif.UT2 Verif.Py Verif.WholeDrive

variable {I : Type} [Inhabited I] (D : Nat → Finset I)

/-- `T2.transpose(2,3,0,1)` as the second argument of `residQf1_aaaa`, whose first is `T2` (`cc_energy.py` 64). -/
def dagged (S : SO I ℝ) : SO I ℝ := { S with l2 := fun i j a b => S.t2 a b i j }

/-- `tamps.antisym_T3(build_approxT3(W,T2,o,v))` (`cc_energy.py` 61-62), entry `[i,j,k,a,b,c]`. It is not multiplied by `D3`. -/
noncomputable def approxT3 (S : SO I ℝ) (a b c i j k : I) : ℝ :=
  antisym_T3 (fun xs => Gen.build_approxT3.eval D S.T xs) [i, j, k, a, b, c]

/-- The triples in use (`cc_energy.py` 51, 60-62): those of the calculation, which exist for names with a `"T"` (`tamps.py` 4-29),
or the approximate ones. -/
noncomputable def withT3 (name : String) (S : SO I ℝ) : SO I ℝ :=
  if hasSub "T" name then S else { S with t3 := approxT3 D S }

/-- `0.25*np.einsum('jiab,abji',W[o,o,v,v]*D2,R)` (`cc_energy.py` 65, 67, 78; with other letters 95, 102, 109, 115, 133, 140, 148,
160, 174). -/
noncomputable def pair (ε : I → ℝ) (S : SO I ℝ) (R : I → I → I → I → ℝ) : ℝ :=
  1 / 4 * ∑ i ∈ D 0, ∑ j ∈ D 0, ∑ a ∈ D 1, ∑ b ∈ D 1, S.g i j a b * den2 ε a b i j * R a b i j

/-- `np.einsum('klcd,abcdijkl->abij',T2,X.transpose(4,5,6,7,0,1,2,3))` (`cc_energy.py` 93-94, 107-108, 130-132, 157-159, 170-172). -/
noncomputable def close (S : SO I ℝ) (X : List I → ℝ) (a b i j : I) : ℝ :=
  ∑ k ∈ D 0, ∑ l ∈ D 0, ∑ c ∈ D 1, ∑ d ∈ D 1, S.t2 c d k l * X [i, j, k, l, a, b, c, d]

open Verif.Ein.N in
/-- `Roooovvvv` of `long_testQf5Order` before it is antisymmetrised (`cc_energy.py` 125-127). -/
def quadShort : Prog := [
  ⟨-1/16, [t2 [aᵥ, bᵥ, iₒ, mₒ], t2 [cᵥ, dᵥ, jₒ, nₒ], g [kₒ, lₒ, mₒ, nₒ]], [(1, [iₒ, jₒ, kₒ, lₒ, aᵥ, bᵥ, cᵥ, dᵥ])]⟩,
  ⟨-1/4, [t2 [aᵥ, bᵥ, iₒ, mₒ], t2 [cᵥ, eᵥ, jₒ, kₒ], g [lₒ, eᵥ, mₒ, dᵥ]], [(1, [iₒ, jₒ, kₒ, lₒ, aᵥ, bᵥ, cᵥ, dᵥ])]⟩,
  ⟨-1/16, [t2 [aᵥ, eᵥ, iₒ, jₒ], t2 [bᵥ, fᵥ, kₒ, lₒ], g [eᵥ, fᵥ, cᵥ, dᵥ]], [(1, [iₒ, jₒ, kₒ, lₒ, aᵥ, bᵥ, cᵥ, dᵥ])]⟩]

open Verif.Ein.N in
/-- `Roooovvvv` of the triples part before it is antisymmetrised (`cc_energy.py` 153-154, 166-167), with the printed factors. -/
def linShort : Prog := [
  ⟨-41666667/1000000000, [t3 [aᵥ, bᵥ, cᵥ, iₒ, jₒ, mₒ], g [kₒ, lₒ, mₒ, dᵥ]], [(1, [iₒ, jₒ, kₒ, lₒ, aᵥ, bᵥ, cᵥ, dᵥ])]⟩,
  ⟨-41666667/1000000000, [t3 [aᵥ, bᵥ, eᵥ, iₒ, jₒ, kₒ], g [lₒ, eᵥ, cᵥ, dᵥ]], [(1, [iₒ, jₒ, kₒ, lₒ, aᵥ, bᵥ, cᵥ, dᵥ])]⟩]

/-- `tamps.antisym_T4(Roooovvvv)` for the doubles (`cc_energy.py` 129). -/
noncomputable def quadT4 (S : SO I ℝ) (xs : List I) : ℝ := antisym_T4 (fun ys => quadShort.eval D S.T ys) xs

/-- `tamps.antisym_T4(Roooovvvv)` for the triples (`cc_energy.py` 156, 169). -/
noncomputable def linT4 (S : SO I ℝ) (xs : List I) : ℝ := antisym_T4 (fun ys => linShort.eval D S.T ys) xs

/-- `[T]` (`cc_energy.py` 71-74): the triples times the triples times the denominators. -/
noncomputable def squareT (ε : I → ℝ) (S : SO I ℝ) : ℝ :=
  1 / 4 * (111111111 / 1000000000) * ∑ i ∈ D 0, ∑ j ∈ D 0, ∑ k ∈ D 0, ∑ a ∈ D 1, ∑ b ∈ D 1, ∑ c ∈ D 1,
    S.t3 a b c i j k * (S.t3 a b c i j k * den3 ε a b c i j k)

/-- The printed numbers. -/
@[ext] structure Printed where
  /-- `5th order energy:` (68), the first number; the second is four times the first. -/
  fifth : ℝ
  fifth4 : ℝ
  /-- `[T] correction to CCSD:` (75). -/
  squareT : ℝ
  /-- `t3 contribution to Qf:` (79). -/
  t3 : ℝ
  /-- `Combined Qf correction:` (81). -/
  combined : ℝ
  /-- `WnT2^2 contribution to (Qf):` (134). -/
  quadLong : ℝ
  /-- `test WnT2^2 scaling faster:` (141). -/
  quadFast : ℝ
  /-- `test WnT3 scaling faster:` (149). -/
  t3Fast : ℝ
  /-- `WnT3 contribution to (Qf):` (161). -/
  t3Long : ℝ
  /-- `total Qf:` (162). -/
  total : ℝ
  /-- `WnT3 contribution to (Qf):` (175), both numbers. -/
  t3Anti : ℝ
  t3AntiHalf : ℝ
  /-- `WnT2T3 contribution to (Qf):` (110) and its `faster T2 route` (116). -/
  t2t3Long : ℝ
  t2t3Fast : ℝ
  /-- `WnT2^3 contribution to (Qf):` (96) and its `faster T2 route` (103). -/
  cubicLong : ℝ
  cubicFast : ℝ

/-- `t3contrib` (`cc_energy.py` 76-78). -/
noncomputable def t3contrib (ε : I → ℝ) (S : SO I ℝ) : ℝ :=
  pair D ε S fun a b i j => antisym_T2 (fun xs => 1 / 4 * Gen.T3portion_Qf.eval D S.T xs) [i, j, a, b]

/-- `fifthO_improvement` (`cc_energy.py` 64-67). -/
noncomputable def fifthE (ε : I → ℝ) (S : SO I ℝ) : ℝ := pair D ε S fun a b i j => 1 / 2 * residQf1 D (dagged S) a b i j

/-- `fifthorder_wnt2` (`cc_energy.py` 132-133). -/
noncomputable def quadE (ε : I → ℝ) (S : SO I ℝ) : ℝ := pair D ε S fun a b i j => 1 / 8 * close D S (quadT4 D S) a b i j

/-- `fifthorder_wnt3` (`cc_energy.py` 159-160). -/
noncomputable def linE (ε : I → ℝ) (S : SO I ℝ) : ℝ := pair D ε S fun a b i j => 1 / 8 * close D S (linT4 D S) a b i j

/-- `fifthorder_wnt3` of the last lines (`cc_energy.py` 172-174): `antisym_T2` acts on the axes `a,b` and `i,j`. -/
noncomputable def antiE (ε : I → ℝ) (S : SO I ℝ) : ℝ :=
  pair D ε S fun a b i j => antisym_T2 (fun xs => 1 / 16 * at4 (close D S (linT4 D S)) xs) [a, b, i, j]

/-- What is printed for the amplitudes and integrals `S` (`cc_energy.py` 64-87, 91-175). -/
noncomputable def report (ε : I → ℝ) (S : SO I ℝ) : Printed where
  fifth := fifthE D ε S
  fifth4 := 4 * fifthE D ε S
  squareT := squareT D ε S
  t3 := 2 * t3contrib D ε S
  combined := 2 * t3contrib D ε S + fifthE D ε S
  quadLong := quadE D ε S
  quadFast := pair D ε S fun a b i j => antisym_T2 (fun xs => 1 / 2 * Gen.optWnT2sqr.eval D S.T xs) [i, j, a, b]
  t3Fast := pair D ε S fun a b i j => antisym_T2 (fun xs => 1 / 2 * Gen.optWnT3.eval D S.T xs) [i, j, a, b]
  t3Long := linE D ε S
  total := linE D ε S + quadE D ε S
  t3Anti := antiE D ε S
  t3AntiHalf := antiE D ε S * (1 / 2)
  t2t3Long := pair D ε S fun a b i j => 1 / 8 * close D S (fun xs => Gen.wnT2T3_toT4.eval D S.T xs) a b i j
  t2t3Fast := pair D ε S fun a b i j => 1 / 2 * wnT2T3_toT2 D S i j a b
  cubicLong := pair D ε S fun a b i j => 1 / 8 * close D S (fun xs => Gen.wnT2cubed_toT4.eval D S.T xs) a b i j
  cubicFast := pair D ε S fun a b i j => 1 / 2 * wnT2cubed_toT2 D S i j a b

/-- `perturbE_driver(CCobj, name)` (`cc_energy.py` 46-88): what is printed, or nothing for names without `"(qf)"`. -/
noncomputable def perturbE (name : String) (ε : I → ℝ) (S : SO I ℝ) : Option Printed :=
  if hasSub "(qf)" name then some (report D ε (withT3 D name S)) else none

end Verif.PerturbE
