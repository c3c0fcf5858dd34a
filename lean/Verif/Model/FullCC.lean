import Verif.Model.Resid
import Verif.Fn.All

/-!
# The energy driver of the spin-integrated CCSDT code

Model of `fullCC_energyMain` (`/repo/UT2/fullCCenergy.py` 9-162): the energy of an iteration and the factorised
perturbative corrections "(Qf)" and "(Qf*)". The arrays of the kernel object are an `SI`; its denominators are a `FullDen`.
Dropped: printing, the reading of `l2dic` (lines 60-63), whose entries are replaced at once (lines 66-68), and the `[T]`
energy, which is printed and not used (lines 81-82).
-/

namespace Verif.UT2

open Verif.Ein

/-- The denominators of the kernel object used here: `denom["D2aa"]`, ..., `denom["D3bbb"]`. -/
structure FullDen (I K : Type) where
  aa : I → I → I → I → K
  ab : I → I → I → I → K
  bb : I → I → I → I → K
  aaa : I → I → I → I → I → I → K
  aab : I → I → I → I → I → I → K
  abb : I → I → I → I → I → I → K
  bbb : I → I → I → I → I → I → K

variable {I K : Type} [Field K] [Inhabited I] (D : Nat → Finset I)

/-- `fullCCenergy.py` 70-79: the triples of "CCSD(Qf)" are made from the doubles; other methods keep theirs. -/
def fullT3 (d : FullDen I K) (cc_type : String) (A : SI I K) : SI I K :=
  if cc_type = "CCSD(Qf)" then
    { A with
      t3_aaaaaa := fun a b c i j k => approxT3_aaaaaa D A a b c i j k * d.aaa a b c i j k
      t3_aabaab := fun a b c i j k => approxT3_aabaab D A a b c i j k * d.aab a b c i j k
      t3_abbabb := fun a b c i j k => approxT3_abbabb D A a b c i j k * d.abb a b c i j k
      t3_bbbbbb := fun a b c i j k => approxT3_bbbbbb D A a b c i j k * d.bbb a b c i j k }
  else A

/-- `fullCCenergy.py` 84-108: the quadruples residuals, stored under the names of amplitudes (no denominator). -/
def fullT4 (A : SI I K) : SI I K :=
  { A with
    t4_aaaaaaaa := ccsdtq_t4_aaaaaaaa D A
    t4_aaabaaab := ccsdtq_t4_aaabaaab D A
    t4_aabbaabb := ccsdtq_t4_aabbaabb D A
    t4_abbbabbb := ccsdtq_t4_abbbabbb D A
    t4_bbbbbbbb := ccsdtq_t4_bbbbbbbb D A }

/-- `fullCCenergy.py` 127-156: the methods with a star add the terms with three doubles. The residuals are computed from
the arrays `A`, the results are added to the quadruples in `B`. -/
def fullT4star (A B : SI I K) : SI I K :=
  { B with
    t4_aaaaaaaa := fun a b c d i j k l => B.t4_aaaaaaaa a b c d i j k l + ccsdtqT2cubed_t4_aaaaaaaa D A a b c d i j k l
    t4_aaabaaab := fun a b c d i j k l => B.t4_aaabaaab a b c d i j k l + ccsdtqT2cubed_t4_aaabaaab D A a b c d i j k l
    t4_aabbaabb := fun a b c d i j k l => B.t4_aabbaabb a b c d i j k l + ccsdtqT2cubed_t4_aabbaabb D A a b c d i j k l
    t4_abbbabbb := fun a b c d i j k l => B.t4_abbbabbb a b c d i j k l + ccsdtqT2cubed_t4_abbbabbb D A a b c d i j k l
    t4_bbbbbbbb := fun a b c d i j k l => B.t4_bbbbbbbb a b c d i j k l + ccsdtqT2cubed_t4_bbbbbbbb D A a b c d i j k l }

/-- `fullCCenergy.py` 112-119: `(g[v,v,o,o] * D2).transpose(2,3,0,1)`, passed to `energy_pertQf` in place of the integrals. -/
def firstOrderDag (d : FullDen I K) (A B : SI I K) : SI I K :=
  { B with
    g_aaaa := fun i j a b => A.g_aaaa a b i j * d.aa a b i j
    g_abab := fun i j a b => A.g_abab a b i j * d.ab a b i j
    g_bbbb := fun i j a b => A.g_bbbb a b i j * d.bb a b i j }

/-- `fullCC_energyMain(ccd_kernel, get_perturbCorr)`, `fullCCenergy.py` 9-162. -/
def fullCC_energyMain (d : FullDen I K) (cc_type : String) (A : SI I K) (get_perturbCorr : Bool) : K :=
  if get_perturbCorr then
    let A := fullT3 D d cc_type (set_l2amps A)
    let B := fullT4 D A
    let B := if cc_type = "CCSDT(Qf*)" ∨ cc_type = "CCD(Qf*)" then fullT4star D A B else B
    si_energy_pertQf_t4 D (firstOrderDag d A B) * (1 / 2)
  else ccsd_energy_with_spin D A

end Verif.UT2
