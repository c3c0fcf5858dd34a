import Verif.Ein.Maps
import Verif.Model.Resid
import Verif.Lemmas.Witness
import Verif.Fn.All

/-!
# Relabelling orbitals (C42)

Written by `/verif/tools/relabel.py`. `e` renames orbitals, occupied ones among themselves and virtual ones among
themselves; `A.comap e` are the arrays with renamed orbitals, `(A.comap e).g p q r s = A.g (e p) (e q) (e r) (e s)`.
-/

namespace Verif.Props

open Verif.Ein Verif.UT2

variable {I K : Type} [Field K] [Inhabited I] (D : Nat → Finset I) (e : I ≃ I) (hD : ∀ s x, e x ∈ D s ↔ x ∈ D s)

include hD

/-- Spin-orbital CCD and LCCD, `t2residEqnsSlow.py`, `t2energySlow.py`. -/
theorem C42_so_ccd (A : SO I K) :
    (∀ a b i j, ccd_t2residual D (A.comap e) a b i j = ccd_t2residual D A (e a) (e b) (e i) (e j)) ∧
    (∀ a b i j, doubles_resLCCDoffset D (A.comap e) a b i j = doubles_resLCCDoffset D A (e a) (e b) (e i) (e j)) ∧
    ccdEnergy D (A.comap e) = ccdEnergy D A ∧
    pccdEnergy D (A.comap e) = pccdEnergy D A :=
  ⟨fun a b i j => Prog.eval_relabel e D hD A.T _ (SO.comap_T e A) 4 Gen.ccd_t2residual (by decide +kernel) [a, b, i, j] rfl,
   fun a b i j => Prog.eval_relabel e D hD A.T _ (SO.comap_T e A) 4 Gen.doubles_resLCCDoffset (by decide +kernel) [a, b, i, j] rfl,
   Prog.eval_relabel e D hD A.T _ (SO.comap_T e A) 0 Gen.ccdEnergy (by decide +kernel) [] rfl,
   Prog.eval_relabel e D hD A.T _ (SO.comap_T e A) 0 Gen.pccdEnergy (by decide +kernel) [] rfl⟩

/-- Spin-orbital CCSD, `cc_eqns.py`, `cc_energy.py`. -/
theorem C42_so_ccsd (A : SO I K) :
    spinorbitalCCSDE D (A.comap e) = spinorbitalCCSDE D A ∧
    spinorbitalCCDE D (A.comap e) = spinorbitalCCDE D A ∧
    (∀ i a, ccsd_t1resid D (A.comap e) i a = ccsd_t1resid D A (e i) (e a)) ∧
    (∀ i j a b, ccsd_t2resid D (A.comap e) i j a b = ccsd_t2resid D A (e i) (e j) (e a) (e b)) :=
  ⟨Prog.eval_relabel e D hD A.T _ (SO.comap_T e A) 0 Gen.spinorbitalCCSDE (by decide +kernel) [] rfl,
   Prog.eval_relabel e D hD A.T _ (SO.comap_T e A) 0 Gen.spinorbitalCCDE (by decide +kernel) [] rfl,
   fun i a => Prog.eval_relabel e D hD A.T _ (SO.comap_T e A) 2 Gen.ccsd_t1resid (by decide +kernel) [i, a] rfl,
   fun i j a b => Prog.eval_relabel e D hD A.T _ (SO.comap_T e A) 4 Gen.ccsd_t2resid (by decide +kernel) [i, j, a, b] rfl⟩

/-- Spin-orbital CCSDT, `ccsdt_eqns.py`. -/
theorem C42_so_ccsdt (A : SO I K) :
    (∀ i a, ccsdt_t1eqns D (A.comap e) i a = ccsdt_t1eqns D A (e i) (e a)) ∧
    (∀ i j a b, ccsdt_t2eqns D (A.comap e) i j a b = ccsdt_t2eqns D A (e i) (e j) (e a) (e b)) ∧
    (∀ i j k a b c, ccsdt_t3eqns D (A.comap e) i j k a b c = ccsdt_t3eqns D A (e i) (e j) (e k) (e a) (e b) (e c)) :=
  ⟨fun i a => Prog.eval_relabel e D hD A.T _ (SO.comap_T e A) 2 Gen.ccsdt_t1eqns (by decide +kernel) [i, a] rfl,
   fun i j a b => Prog.eval_relabel e D hD A.T _ (SO.comap_T e A) 4 Gen.ccsdt_t2eqns (by decide +kernel) [i, j, a, b] rfl,
   fun i j k a b c => Prog.eval_relabel e D hD A.T _ (SO.comap_T e A) 6 Gen.ccsdt_t3eqns (by decide +kernel) [i, j, k, a, b, c] rfl⟩

/-- Spin-orbital CCDQ, `ccdq_eqns.py`. -/
theorem C42_so_ccdq (A : SO I K) :
    (∀ i j a b, ccdq_t2eqns D (A.comap e) i j a b = ccdq_t2eqns D A (e i) (e j) (e a) (e b)) ∧
    (∀ i j k l a b c d, ccdq_t4eqns D (A.comap e) i j k l a b c d = ccdq_t4eqns D A (e i) (e j) (e k) (e l) (e a) (e b) (e c) (e d)) :=
  ⟨fun i j a b => Prog.eval_relabel e D hD A.T _ (SO.comap_T e A) 4 Gen.ccdq_t2eqns (by decide +kernel) [i, j, a, b] rfl,
   fun i j k l a b c d => Prog.eval_relabel e D hD A.T _ (SO.comap_T e A) 8 Gen.ccdq_t4eqns (by decide +kernel) [i, j, k, l, a, b, c, d] rfl⟩

/-- Spin-orbital factorised quadruples. -/
theorem C42_so_qf (A : SO I K) :
    (∀ a b i j, residQf1 D (A.comap e) a b i j = residQf1 D A (e a) (e b) (e i) (e j)) ∧
    (∀ a b i j, residQf2 D (A.comap e) a b i j = residQf2 D A (e a) (e b) (e i) (e j)) ∧
    (∀ a b c d i j k l, unsym_residQf1 D (A.comap e) a b c d i j k l = unsym_residQf1 D A (e a) (e b) (e c) (e d) (e i) (e j) (e k) (e l)) ∧
    (∀ a b c d i j k l, unsym_residQf2 D (A.comap e) a b c d i j k l = unsym_residQf2 D A (e a) (e b) (e c) (e d) (e i) (e j) (e k) (e l)) ∧
    energy_pertQf D (A.comap e) = energy_pertQf D A ∧
    (∀ i j a b, optWnT3 D (A.comap e) i j a b = optWnT3 D A (e i) (e j) (e a) (e b)) ∧
    (∀ i j a b, optWnT2sqr D (A.comap e) i j a b = optWnT2sqr D A (e i) (e j) (e a) (e b)) ∧
    (∀ i j a b, T3portion_Qf D (A.comap e) i j a b = T3portion_Qf D A (e i) (e j) (e a) (e b)) ∧
    (∀ i j k a b c, build_approxT3 D (A.comap e) i j k a b c = build_approxT3 D A (e i) (e j) (e k) (e a) (e b) (e c)) ∧
    (∀ i j k l a b c d, wnT2T3_toT4 D (A.comap e) i j k l a b c d = wnT2T3_toT4 D A (e i) (e j) (e k) (e l) (e a) (e b) (e c) (e d)) ∧
    (∀ i j k l a b c d, wnT2cubed_toT4 D (A.comap e) i j k l a b c d = wnT2cubed_toT4 D A (e i) (e j) (e k) (e l) (e a) (e b) (e c) (e d)) ∧
    (∀ i j a b, wnT2cubed_toT2 D (A.comap e) i j a b = wnT2cubed_toT2 D A (e i) (e j) (e a) (e b)) ∧
    (∀ i j a b, wnT2T3_toT2 D (A.comap e) i j a b = wnT2T3_toT2 D A (e i) (e j) (e a) (e b)) ∧
    (∀ a b c d i j k l, t4_test_residual D (A.comap e) a b c d i j k l = t4_test_residual D A (e a) (e b) (e c) (e d) (e i) (e j) (e k) (e l)) ∧
    (∀ a b c d i j k l, t4_test_residual_oo D (A.comap e) a b c d i j k l = t4_test_residual_oo D A (e a) (e b) (e c) (e d) (e i) (e j) (e k) (e l)) :=
  ⟨fun a b i j => Prog.eval_relabel e D hD A.T _ (SO.comap_T e A) 4 Gen.residQf1 (by decide +kernel) [a, b, i, j] rfl,
   fun a b i j => Prog.eval_relabel e D hD A.T _ (SO.comap_T e A) 4 Gen.residQf2 (by decide +kernel) [a, b, i, j] rfl,
   fun a b c d i j k l => Prog.eval_relabel e D hD A.T _ (SO.comap_T e A) 8 Gen.unsym_residQf1 (by decide +kernel) [a, b, c, d, i, j, k, l] rfl,
   fun a b c d i j k l => Prog.eval_relabel e D hD A.T _ (SO.comap_T e A) 8 Gen.unsym_residQf2 (by decide +kernel) [a, b, c, d, i, j, k, l] rfl,
   Prog.eval_relabel e D hD A.T _ (SO.comap_T e A) 0 Gen.energy_pertQf (by decide +kernel) [] rfl,
   fun i j a b => Prog.eval_relabel e D hD A.T _ (SO.comap_T e A) 4 Gen.optWnT3 (by decide +kernel) [i, j, a, b] rfl,
   fun i j a b => Prog.eval_relabel e D hD A.T _ (SO.comap_T e A) 4 Gen.optWnT2sqr (by decide +kernel) [i, j, a, b] rfl,
   fun i j a b => Prog.eval_relabel e D hD A.T _ (SO.comap_T e A) 4 Gen.T3portion_Qf (by decide +kernel) [i, j, a, b] rfl,
   fun i j k a b c => Prog.eval_relabel e D hD A.T _ (SO.comap_T e A) 6 Gen.build_approxT3 (by decide +kernel) [i, j, k, a, b, c] rfl,
   fun i j k l a b c d => Prog.eval_relabel e D hD A.T _ (SO.comap_T e A) 8 Gen.wnT2T3_toT4 (by decide +kernel) [i, j, k, l, a, b, c, d] rfl,
   fun i j k l a b c d => Prog.eval_relabel e D hD A.T _ (SO.comap_T e A) 8 Gen.wnT2cubed_toT4 (by decide +kernel) [i, j, k, l, a, b, c, d] rfl,
   fun i j a b => Prog.eval_relabel e D hD A.T _ (SO.comap_T e A) 4 Gen.wnT2cubed_toT2 (by decide +kernel) [i, j, a, b] rfl,
   fun i j a b => Prog.eval_relabel e D hD A.T _ (SO.comap_T e A) 4 Gen.wnT2T3_toT2 (by decide +kernel) [i, j, a, b] rfl,
   fun a b c d i j k l => Prog.eval_relabel e D hD A.T _ (SO.comap_T e A) 8 Gen.t4_test_residual (by decide +kernel) [a, b, c, d, i, j, k, l] rfl,
   fun a b c d i j k l => Prog.eval_relabel e D hD A.T _ (SO.comap_T e A) 8 Gen.t4_test_residual_oo (by decide +kernel) [a, b, c, d, i, j, k, l] rfl⟩

/-- Spin-orbital triples corrections. -/
theorem C42_so_triples (A : SO I K) :
    (∀ a b c i j k, build_T3 D (A.comap e) a b c i j k = build_T3 D A (e a) (e b) (e c) (e i) (e j) (e k)) ∧
    pdagq_T3energy D (A.comap e) = pdagq_T3energy D A ∧
    pdagq_ccsd_energy D (A.comap e) = pdagq_ccsd_energy D A ∧
    (∀ i j k a b c, fifthOrder_capC D (A.comap e) i j k a b c = fifthOrder_capC D A (e i) (e j) (e k) (e a) (e b) (e c)) ∧
    (∀ i j k a b c, fifthOrder_capA D (A.comap e) i j k a b c = fifthOrder_capA D A (e i) (e j) (e k) (e a) (e b) (e c)) ∧
    contractE D (A.comap e) = contractE D A ∧
    (∀ i j k a b c, build_T3_thirdO D (A.comap e) i j k a b c = build_T3_thirdO D A (e i) (e j) (e k) (e a) (e b) (e c)) ∧
    (∀ i j a b, build_netT2 D (A.comap e) i j a b = build_netT2 D A (e i) (e j) (e a) (e b)) ∧
    (∀ i j k a b c, build_T3_secondO D (A.comap e) i j k a b c = build_T3_secondO D A (e i) (e j) (e k) (e a) (e b) (e c)) ∧
    getE_squareBrackT D (A.comap e) = getE_squareBrackT D A ∧
    getE_parenT_t1 D (A.comap e) = getE_parenT_t1 D A ∧
    (∀ i a, get_netT1_fromT2 D (A.comap e) i a = get_netT1_fromT2 D A (e i) (e a)) ∧
    (∀ i a, get_netT1_thirdO D (A.comap e) i a = get_netT1_thirdO D A (e i) (e a)) ∧
    (∀ i j a b, get_T2resid_fromT1bar D (A.comap e) i j a b = get_T2resid_fromT1bar D A (e i) (e j) (e a) (e b)) :=
  ⟨fun a b c i j k => Prog.eval_relabel e D hD A.T _ (SO.comap_T e A) 6 Gen.build_T3 (by decide +kernel) [a, b, c, i, j, k] rfl,
   Prog.eval_relabel e D hD A.T _ (SO.comap_T e A) 0 Gen.pdagq_T3energy (by decide +kernel) [] rfl,
   Prog.eval_relabel e D hD A.T _ (SO.comap_T e A) 0 Gen.pdagq_ccsd_energy (by decide +kernel) [] rfl,
   fun i j k a b c => Prog.eval_relabel e D hD A.T _ (SO.comap_T e A) 6 Gen.fifthOrder_capC (by decide +kernel) [i, j, k, a, b, c] rfl,
   fun i j k a b c => Prog.eval_relabel e D hD A.T _ (SO.comap_T e A) 6 Gen.fifthOrder_capA (by decide +kernel) [i, j, k, a, b, c] rfl,
   Prog.eval_relabel e D hD A.T _ (SO.comap_T e A) 0 Gen.contractE (by decide +kernel) [] rfl,
   fun i j k a b c => Prog.eval_relabel e D hD A.T _ (SO.comap_T e A) 6 Gen.build_T3_thirdO (by decide +kernel) [i, j, k, a, b, c] rfl,
   fun i j a b => Prog.eval_relabel e D hD A.T _ (SO.comap_T e A) 4 Gen.build_netT2 (by decide +kernel) [i, j, a, b] rfl,
   fun i j k a b c => Prog.eval_relabel e D hD A.T _ (SO.comap_T e A) 6 Gen.build_T3_secondO (by decide +kernel) [i, j, k, a, b, c] rfl,
   Prog.eval_relabel e D hD A.T _ (SO.comap_T e A) 0 Gen.getE_squareBrackT (by decide +kernel) [] rfl,
   Prog.eval_relabel e D hD A.T _ (SO.comap_T e A) 0 Gen.getE_parenT_t1 (by decide +kernel) [] rfl,
   fun i a => Prog.eval_relabel e D hD A.T _ (SO.comap_T e A) 2 Gen.get_netT1_fromT2 (by decide +kernel) [i, a] rfl,
   fun i a => Prog.eval_relabel e D hD A.T _ (SO.comap_T e A) 2 Gen.get_netT1_thirdO (by decide +kernel) [i, a] rfl,
   fun i j a b => Prog.eval_relabel e D hD A.T _ (SO.comap_T e A) 4 Gen.get_T2resid_fromT1bar (by decide +kernel) [i, j, a, b] rfl⟩

/-- UCC(4), `drive_ucc4.py`. -/
theorem C42_so_ucc4 (A : SO I K) :
    (∀ a i, t1_residEqns D (A.comap e) a i = t1_residEqns D A (e a) (e i)) ∧
    (∀ a b c i j k, t3_resid D (A.comap e) a b c i j k = t3_resid D A (e a) (e b) (e c) (e i) (e j) (e k)) ∧
    (∀ a b i j, offset_t2resid_t2squared D (A.comap e) a b i j = offset_t2resid_t2squared D A (e a) (e b) (e i) (e j)) ∧
    (∀ a b i j, offset_t2resid_t2dag_w_t2 D (A.comap e) a b i j = offset_t2resid_t2dag_w_t2 D A (e a) (e b) (e i) (e j)) ∧
    (∀ a b i j, offset_t2resid_T1_T3 D (A.comap e) a b i j = offset_t2resid_T1_T3 D A (e a) (e b) (e i) (e j)) :=
  ⟨fun a i => Prog.eval_relabel e D hD A.T _ (SO.comap_T e A) 2 Gen.t1_residEqns (by decide +kernel) [a, i] rfl,
   fun a b c i j k => Prog.eval_relabel e D hD A.T _ (SO.comap_T e A) 6 Gen.t3_resid (by decide +kernel) [a, b, c, i, j, k] rfl,
   fun a b i j => Prog.eval_relabel e D hD A.T _ (SO.comap_T e A) 4 Gen.offset_t2resid_t2squared (by decide +kernel) [a, b, i, j] rfl,
   fun a b i j => Prog.eval_relabel e D hD A.T _ (SO.comap_T e A) 4 Gen.offset_t2resid_t2dag_w_t2 (by decide +kernel) [a, b, i, j] rfl,
   fun a b i j => Prog.eval_relabel e D hD A.T _ (SO.comap_T e A) 4 Gen.offset_t2resid_T1_T3 (by decide +kernel) [a, b, i, j] rfl⟩

/-- Spin-integrated CCD, `t2residEqns.py`, `t2energy.py`. -/
theorem C42_si_ccd (A : SI I K) :
    (∀ a b i j, ccd_t2_aaaa D (A.comap e) a b i j = ccd_t2_aaaa D A (e a) (e b) (e i) (e j)) ∧
    (∀ a b i j, ccd_t2_bbbb D (A.comap e) a b i j = ccd_t2_bbbb D A (e a) (e b) (e i) (e j)) ∧
    (∀ a b i j, ccd_t2_abab D (A.comap e) a b i j = ccd_t2_abab D A (e a) (e b) (e i) (e j)) ∧
    ccd_energy_with_spin D (A.comap e) = ccd_energy_with_spin D A :=
  ⟨fun a b i j => Prog.eval_relabel e D hD A.T _ (SI.comap_T e A) 4 Gen.ccd_t2_aaaa (by decide +kernel) [a, b, i, j] rfl,
   fun a b i j => Prog.eval_relabel e D hD A.T _ (SI.comap_T e A) 4 Gen.ccd_t2_bbbb (by decide +kernel) [a, b, i, j] rfl,
   fun a b i j => Prog.eval_relabel e D hD A.T _ (SI.comap_T e A) 4 Gen.ccd_t2_abab (by decide +kernel) [a, b, i, j] rfl,
   Prog.eval_relabel e D hD A.T _ (SI.comap_T e A) 0 Gen.ccd_energy_with_spin (by decide +kernel) [] rfl⟩

/-- Spin-integrated factorised quadruples. -/
theorem C42_si_qf (A : SI I K) :
    (∀ a b i j, residQf1_aaaa D (A.comap e) a b i j = residQf1_aaaa D A (e a) (e b) (e i) (e j)) ∧
    (∀ a b i j, residQf1_abab D (A.comap e) a b i j = residQf1_abab D A (e a) (e b) (e i) (e j)) ∧
    (∀ a b i j, residQf1_bbbb D (A.comap e) a b i j = residQf1_bbbb D A (e a) (e b) (e i) (e j)) ∧
    (∀ a b i j, residQf2_aaaa D (A.comap e) a b i j = residQf2_aaaa D A (e a) (e b) (e i) (e j)) ∧
    (∀ a b i j, residQf2_abab D (A.comap e) a b i j = residQf2_abab D A (e a) (e b) (e i) (e j)) ∧
    (∀ a b i j, residQf2_bbbb D (A.comap e) a b i j = residQf2_bbbb D A (e a) (e b) (e i) (e j)) ∧
    si_energy_pertQf D (A.comap e) = si_energy_pertQf D A ∧
    si_energy_pertQf_t4 D (A.comap e) = si_energy_pertQf_t4 D A :=
  ⟨fun a b i j => Prog.eval_relabel e D hD A.T _ (SI.comap_T e A) 4 Gen.residQf1_aaaa (by decide +kernel) [a, b, i, j] rfl,
   fun a b i j => Prog.eval_relabel e D hD A.T _ (SI.comap_T e A) 4 Gen.residQf1_abab (by decide +kernel) [a, b, i, j] rfl,
   fun a b i j => Prog.eval_relabel e D hD A.T _ (SI.comap_T e A) 4 Gen.residQf1_bbbb (by decide +kernel) [a, b, i, j] rfl,
   fun a b i j => Prog.eval_relabel e D hD A.T _ (SI.comap_T e A) 4 Gen.residQf2_aaaa (by decide +kernel) [a, b, i, j] rfl,
   fun a b i j => Prog.eval_relabel e D hD A.T _ (SI.comap_T e A) 4 Gen.residQf2_abab (by decide +kernel) [a, b, i, j] rfl,
   fun a b i j => Prog.eval_relabel e D hD A.T _ (SI.comap_T e A) 4 Gen.residQf2_bbbb (by decide +kernel) [a, b, i, j] rfl,
   Prog.eval_relabel e D hD A.T _ (SI.comap_T e A) 0 Gen.si_energy_pertQf (by decide +kernel) [] rfl,
   Prog.eval_relabel e D hD A.T _ (SI.comap_T e A) 0 Gen.si_energy_pertQf_t4 (by decide +kernel) [] rfl⟩

/-- Spin-integrated CCSDT, `fullCCresidEqns.py`, `fullCCenergy.py`. -/
theorem C42_si_ccsdt (A : SI I K) :
    ccsd_energy_with_spin D (A.comap e) = ccsd_energy_with_spin D A ∧
    (∀ a i, ccsdt_t1_aa D (A.comap e) a i = ccsdt_t1_aa D A (e a) (e i)) ∧
    (∀ a i, ccsdt_t1_bb D (A.comap e) a i = ccsdt_t1_bb D A (e a) (e i)) ∧
    (∀ a b i j, ccsdt_t2_aaaa D (A.comap e) a b i j = ccsdt_t2_aaaa D A (e a) (e b) (e i) (e j)) ∧
    (∀ a b i j, ccsdt_t2_bbbb D (A.comap e) a b i j = ccsdt_t2_bbbb D A (e a) (e b) (e i) (e j)) ∧
    (∀ a b i j, ccsdt_t2_abab D (A.comap e) a b i j = ccsdt_t2_abab D A (e a) (e b) (e i) (e j)) ∧
    (∀ a b c i j k, ccsdt_t3_aaaaaa D (A.comap e) a b c i j k = ccsdt_t3_aaaaaa D A (e a) (e b) (e c) (e i) (e j) (e k)) ∧
    (∀ a b c i j k, ccsdt_t3_aabaab D (A.comap e) a b c i j k = ccsdt_t3_aabaab D A (e a) (e b) (e c) (e i) (e j) (e k)) ∧
    (∀ a b c i j k, ccsdt_t3_abbabb D (A.comap e) a b c i j k = ccsdt_t3_abbabb D A (e a) (e b) (e c) (e i) (e j) (e k)) ∧
    (∀ a b c i j k, ccsdt_t3_bbbbbb D (A.comap e) a b c i j k = ccsdt_t3_bbbbbb D A (e a) (e b) (e c) (e i) (e j) (e k)) :=
  ⟨Prog.eval_relabel e D hD A.T _ (SI.comap_T e A) 0 Gen.ccsd_energy_with_spin (by decide +kernel) [] rfl,
   fun a i => Prog.eval_relabel e D hD A.T _ (SI.comap_T e A) 2 Gen.ccsdt_t1_aa (by decide +kernel) [a, i] rfl,
   fun a i => Prog.eval_relabel e D hD A.T _ (SI.comap_T e A) 2 Gen.ccsdt_t1_bb (by decide +kernel) [a, i] rfl,
   fun a b i j => Prog.eval_relabel e D hD A.T _ (SI.comap_T e A) 4 Gen.ccsdt_t2_aaaa (by decide +kernel) [a, b, i, j] rfl,
   fun a b i j => Prog.eval_relabel e D hD A.T _ (SI.comap_T e A) 4 Gen.ccsdt_t2_bbbb (by decide +kernel) [a, b, i, j] rfl,
   fun a b i j => Prog.eval_relabel e D hD A.T _ (SI.comap_T e A) 4 Gen.ccsdt_t2_abab (by decide +kernel) [a, b, i, j] rfl,
   fun a b c i j k => Prog.eval_relabel e D hD A.T _ (SI.comap_T e A) 6 Gen.ccsdt_t3_aaaaaa (by decide +kernel) [a, b, c, i, j, k] rfl,
   fun a b c i j k => Prog.eval_relabel e D hD A.T _ (SI.comap_T e A) 6 Gen.ccsdt_t3_aabaab (by decide +kernel) [a, b, c, i, j, k] rfl,
   fun a b c i j k => Prog.eval_relabel e D hD A.T _ (SI.comap_T e A) 6 Gen.ccsdt_t3_abbabb (by decide +kernel) [a, b, c, i, j, k] rfl,
   fun a b c i j k => Prog.eval_relabel e D hD A.T _ (SI.comap_T e A) 6 Gen.ccsdt_t3_bbbbbb (by decide +kernel) [a, b, c, i, j, k] rfl⟩

/-- Spin-integrated CCDQ, `ccdq_resids.py`. -/
theorem C42_si_ccdq (A : SI I K) :
    (∀ a b i j, ccdq_t2_aaaa D (A.comap e) a b i j = ccdq_t2_aaaa D A (e a) (e b) (e i) (e j)) ∧
    (∀ a b i j, ccdq_t2_bbbb D (A.comap e) a b i j = ccdq_t2_bbbb D A (e a) (e b) (e i) (e j)) ∧
    (∀ a b i j, ccdq_t2_abab D (A.comap e) a b i j = ccdq_t2_abab D A (e a) (e b) (e i) (e j)) ∧
    (∀ a b c d i j k l, ccdq_t4_aaaaaaaa D (A.comap e) a b c d i j k l = ccdq_t4_aaaaaaaa D A (e a) (e b) (e c) (e d) (e i) (e j) (e k) (e l)) ∧
    (∀ a b c d i j k l, ccdq_t4_aaabaaab D (A.comap e) a b c d i j k l = ccdq_t4_aaabaaab D A (e a) (e b) (e c) (e d) (e i) (e j) (e k) (e l)) ∧
    (∀ a b c d i j k l, ccdq_t4_aabbaabb D (A.comap e) a b c d i j k l = ccdq_t4_aabbaabb D A (e a) (e b) (e c) (e d) (e i) (e j) (e k) (e l)) ∧
    (∀ a b c d i j k l, ccdq_t4_abbbabbb D (A.comap e) a b c d i j k l = ccdq_t4_abbbabbb D A (e a) (e b) (e c) (e d) (e i) (e j) (e k) (e l)) ∧
    (∀ a b c d i j k l, ccdq_t4_bbbbbbbb D (A.comap e) a b c d i j k l = ccdq_t4_bbbbbbbb D A (e a) (e b) (e c) (e d) (e i) (e j) (e k) (e l)) :=
  ⟨fun a b i j => Prog.eval_relabel e D hD A.T _ (SI.comap_T e A) 4 Gen.ccdq_t2_aaaa (by decide +kernel) [a, b, i, j] rfl,
   fun a b i j => Prog.eval_relabel e D hD A.T _ (SI.comap_T e A) 4 Gen.ccdq_t2_bbbb (by decide +kernel) [a, b, i, j] rfl,
   fun a b i j => Prog.eval_relabel e D hD A.T _ (SI.comap_T e A) 4 Gen.ccdq_t2_abab (by decide +kernel) [a, b, i, j] rfl,
   fun a b c d i j k l => Prog.eval_relabel e D hD A.T _ (SI.comap_T e A) 8 Gen.ccdq_t4_aaaaaaaa (by decide +kernel) [a, b, c, d, i, j, k, l] rfl,
   fun a b c d i j k l => Prog.eval_relabel e D hD A.T _ (SI.comap_T e A) 8 Gen.ccdq_t4_aaabaaab (by decide +kernel) [a, b, c, d, i, j, k, l] rfl,
   fun a b c d i j k l => Prog.eval_relabel e D hD A.T _ (SI.comap_T e A) 8 Gen.ccdq_t4_aabbaabb (by decide +kernel) [a, b, c, d, i, j, k, l] rfl,
   fun a b c d i j k l => Prog.eval_relabel e D hD A.T _ (SI.comap_T e A) 8 Gen.ccdq_t4_abbbabbb (by decide +kernel) [a, b, c, d, i, j, k, l] rfl,
   fun a b c d i j k l => Prog.eval_relabel e D hD A.T _ (SI.comap_T e A) 8 Gen.ccdq_t4_bbbbbbbb (by decide +kernel) [a, b, c, d, i, j, k, l] rfl⟩

/-- Spin-integrated quadruples, `fullCCenergy.py`. -/
theorem C42_si_t4 (A : SI I K) :
    (∀ a b c d i j k l, ccsdtq_t4_aaaaaaaa D (A.comap e) a b c d i j k l = ccsdtq_t4_aaaaaaaa D A (e a) (e b) (e c) (e d) (e i) (e j) (e k) (e l)) ∧
    (∀ a b c d i j k l, ccsdtq_t4_aaabaaab D (A.comap e) a b c d i j k l = ccsdtq_t4_aaabaaab D A (e a) (e b) (e c) (e d) (e i) (e j) (e k) (e l)) ∧
    (∀ a b c d i j k l, ccsdtq_t4_aabbaabb D (A.comap e) a b c d i j k l = ccsdtq_t4_aabbaabb D A (e a) (e b) (e c) (e d) (e i) (e j) (e k) (e l)) ∧
    (∀ a b c d i j k l, ccsdtq_t4_abbbabbb D (A.comap e) a b c d i j k l = ccsdtq_t4_abbbabbb D A (e a) (e b) (e c) (e d) (e i) (e j) (e k) (e l)) ∧
    (∀ a b c d i j k l, ccsdtq_t4_bbbbbbbb D (A.comap e) a b c d i j k l = ccsdtq_t4_bbbbbbbb D A (e a) (e b) (e c) (e d) (e i) (e j) (e k) (e l)) ∧
    (∀ a b c d i j k l, ccsdtqT2cubed_t4_aaaaaaaa D (A.comap e) a b c d i j k l = ccsdtqT2cubed_t4_aaaaaaaa D A (e a) (e b) (e c) (e d) (e i) (e j) (e k) (e l)) ∧
    (∀ a b c d i j k l, ccsdtqT2cubed_t4_aaabaaab D (A.comap e) a b c d i j k l = ccsdtqT2cubed_t4_aaabaaab D A (e a) (e b) (e c) (e d) (e i) (e j) (e k) (e l)) ∧
    (∀ a b c d i j k l, ccsdtqT2cubed_t4_aabbaabb D (A.comap e) a b c d i j k l = ccsdtqT2cubed_t4_aabbaabb D A (e a) (e b) (e c) (e d) (e i) (e j) (e k) (e l)) ∧
    (∀ a b c d i j k l, ccsdtqT2cubed_t4_abbbabbb D (A.comap e) a b c d i j k l = ccsdtqT2cubed_t4_abbbabbb D A (e a) (e b) (e c) (e d) (e i) (e j) (e k) (e l)) ∧
    (∀ a b c d i j k l, ccsdtqT2cubed_t4_bbbbbbbb D (A.comap e) a b c d i j k l = ccsdtqT2cubed_t4_bbbbbbbb D A (e a) (e b) (e c) (e d) (e i) (e j) (e k) (e l)) :=
  ⟨fun a b c d i j k l => Prog.eval_relabel e D hD A.T _ (SI.comap_T e A) 8 Gen.ccsdtq_t4_aaaaaaaa (by decide +kernel) [a, b, c, d, i, j, k, l] rfl,
   fun a b c d i j k l => Prog.eval_relabel e D hD A.T _ (SI.comap_T e A) 8 Gen.ccsdtq_t4_aaabaaab (by decide +kernel) [a, b, c, d, i, j, k, l] rfl,
   fun a b c d i j k l => Prog.eval_relabel e D hD A.T _ (SI.comap_T e A) 8 Gen.ccsdtq_t4_aabbaabb (by decide +kernel) [a, b, c, d, i, j, k, l] rfl,
   fun a b c d i j k l => Prog.eval_relabel e D hD A.T _ (SI.comap_T e A) 8 Gen.ccsdtq_t4_abbbabbb (by decide +kernel) [a, b, c, d, i, j, k, l] rfl,
   fun a b c d i j k l => Prog.eval_relabel e D hD A.T _ (SI.comap_T e A) 8 Gen.ccsdtq_t4_bbbbbbbb (by decide +kernel) [a, b, c, d, i, j, k, l] rfl,
   fun a b c d i j k l => Prog.eval_relabel e D hD A.T _ (SI.comap_T e A) 8 Gen.ccsdtqT2cubed_t4_aaaaaaaa (by decide +kernel) [a, b, c, d, i, j, k, l] rfl,
   fun a b c d i j k l => Prog.eval_relabel e D hD A.T _ (SI.comap_T e A) 8 Gen.ccsdtqT2cubed_t4_aaabaaab (by decide +kernel) [a, b, c, d, i, j, k, l] rfl,
   fun a b c d i j k l => Prog.eval_relabel e D hD A.T _ (SI.comap_T e A) 8 Gen.ccsdtqT2cubed_t4_aabbaabb (by decide +kernel) [a, b, c, d, i, j, k, l] rfl,
   fun a b c d i j k l => Prog.eval_relabel e D hD A.T _ (SI.comap_T e A) 8 Gen.ccsdtqT2cubed_t4_abbbabbb (by decide +kernel) [a, b, c, d, i, j, k, l] rfl,
   fun a b c d i j k l => Prog.eval_relabel e D hD A.T _ (SI.comap_T e A) 8 Gen.ccsdtqT2cubed_t4_bbbbbbbb (by decide +kernel) [a, b, c, d, i, j, k, l] rfl⟩

/-- Spin-integrated triples, `build_approxT3full.py`, `square_brakT_corr.py`. -/
theorem C42_si_triples (A : SI I K) :
    (∀ a b c i j k, approxT3_aaaaaa D (A.comap e) a b c i j k = approxT3_aaaaaa D A (e a) (e b) (e c) (e i) (e j) (e k)) ∧
    (∀ a b c i j k, approxT3_aabaab D (A.comap e) a b c i j k = approxT3_aabaab D A (e a) (e b) (e c) (e i) (e j) (e k)) ∧
    (∀ a b c i j k, approxT3_abbabb D (A.comap e) a b c i j k = approxT3_abbabb D A (e a) (e b) (e c) (e i) (e j) (e k)) ∧
    (∀ a b c i j k, approxT3_bbbbbb D (A.comap e) a b c i j k = approxT3_bbbbbb D A (e a) (e b) (e c) (e i) (e j) (e k)) ∧
    square_brakT D (A.comap e) = square_brakT D A :=
  ⟨fun a b c i j k => Prog.eval_relabel e D hD A.T _ (SI.comap_T e A) 6 Gen.approxT3_aaaaaa (by decide +kernel) [a, b, c, i, j, k] rfl,
   fun a b c i j k => Prog.eval_relabel e D hD A.T _ (SI.comap_T e A) 6 Gen.approxT3_aabaab (by decide +kernel) [a, b, c, i, j, k] rfl,
   fun a b c i j k => Prog.eval_relabel e D hD A.T _ (SI.comap_T e A) 6 Gen.approxT3_abbabb (by decide +kernel) [a, b, c, i, j, k] rfl,
   fun a b c i j k => Prog.eval_relabel e D hD A.T _ (SI.comap_T e A) 6 Gen.approxT3_bbbbbb (by decide +kernel) [a, b, c, i, j, k] rfl,
   Prog.eval_relabel e D hD A.T _ (SI.comap_T e A) 0 Gen.square_brakT (by decide +kernel) [] rfl⟩

/-- `testing_modifyT2eqns_with_T4.py`. -/
theorem C42_si_test (A : SI I K) :
    (∀ a b i j, test_t2_aaaa D (A.comap e) a b i j = test_t2_aaaa D A (e a) (e b) (e i) (e j)) ∧
    (∀ a b i j, test_t2_abab D (A.comap e) a b i j = test_t2_abab D A (e a) (e b) (e i) (e j)) ∧
    (∀ a b i j, test_t2_bbbb D (A.comap e) a b i j = test_t2_bbbb D A (e a) (e b) (e i) (e j)) :=
  ⟨fun a b i j => Prog.eval_relabel e D hD A.T _ (SI.comap_T e A) 4 Gen.test_t2_aaaa (by decide +kernel) [a, b, i, j] rfl,
   fun a b i j => Prog.eval_relabel e D hD A.T _ (SI.comap_T e A) 4 Gen.test_t2_abab (by decide +kernel) [a, b, i, j] rfl,
   fun a b i j => Prog.eval_relabel e D hD A.T _ (SI.comap_T e A) 4 Gen.test_t2_bbbb (by decide +kernel) [a, b, i, j] rfl⟩

/-- One pass of the spin-orbital residual driver commutes with renaming. -/
theorem C42_step_so [DecidableEq I] (cc_type : String) (d2 : I → I → I → I → K) (A : SO I K) :
    residMainSlow D cc_type (fun _ _ _ _ _ => 0) (fun a b i j => d2 (e a) (e b) (e i) (e j)) (A.comap e) =
      (residMainSlow D cc_type (fun _ _ _ _ _ => 0) d2 A).comap e := by
  obtain ⟨h1, h2, -⟩ := C42_so_ccd D e hD A
  simp only [residMainSlow, residSlow, h1, h2]
  simp [SO.comap]

/-- One iteration of the spin-integrated code commutes with renaming. -/
theorem C42_step_si (cc_type : String) (daa dbb dab : I → I → I → I → K) (A : SI I K) :
    iterSi D cc_type (fun a b i j => daa (e a) (e b) (e i) (e j)) (fun a b i j => dbb (e a) (e b) (e i) (e j))
        (fun a b i j => dab (e a) (e b) (e i) (e j)) (A.comap e) =
      (iterSi D cc_type daa dbb dab A).comap e := by
  have h0 : set_l2amps (A.comap e) = (set_l2amps A).comap e := rfl
  unfold iterSi
  rw [h0]
  generalize set_l2amps A = A
  obtain ⟨h1, h2, h3, -⟩ := C42_si_ccd D e hD A
  obtain ⟨q1, q2, q3, q4, q5, q6, -⟩ := C42_si_qf D e hD A
  simp only [residMain, resid_aaaa, resid_bbbb, resid_abab, h1, h2, h3, q1, q2, q3, q4, q5, q6]
  rfl

/-- All iterates and their energies: a calculation with renamed orbitals gives the renamed amplitudes and the same
energies in every iteration. -/
theorem C42_iterates (cc_type : String) (daa dbb dab : I → I → I → I → K) (A : SI I K) (n : Nat) :
    ∃ B, B = (iterSi D cc_type daa dbb dab)^[n] A ∧
    (iterSi D cc_type (fun a b i j => daa (e a) (e b) (e i) (e j)) (fun a b i j => dbb (e a) (e b) (e i) (e j))
        (fun a b i j => dab (e a) (e b) (e i) (e j)))^[n] (A.comap e) = B.comap e ∧
    ccd_energy_with_spin D (B.comap e) = ccd_energy_with_spin D B := by
  refine ⟨_, rfl, ?_, (C42_si_ccd D e hD _).2.2.2⟩
  induction n with
  | zero => rfl
  | succ n ih => rw [Function.iterate_succ_apply', ih, C42_step_si D e hD, Function.iterate_succ_apply']

omit hD in
/-- The exchange of two virtual orbitals of the concrete system is such a renaming. -/
example : (∀ s x, (Equiv.swap 2 3 : ℕ ≃ ℕ) x ∈ Witness.D s ↔ x ∈ Witness.D s) ∧
    ccdEnergy Witness.D (Witness.so.comap (Equiv.swap 2 3)) = ccdEnergy Witness.D Witness.so := by
  have h : ∀ s x, (Equiv.swap 2 3 : ℕ ≃ ℕ) x ∈ Witness.D s ↔ x ∈ Witness.D s := by
    intro s x
    by_cases h2 : x = 2
    · subst h2; by_cases hs : s = 0 <;> simp [Witness.D, hs]
    by_cases h3 : x = 3
    · subst h3; by_cases hs : s = 0 <;> simp [Witness.D, hs]
    rw [Equiv.swap_apply_of_ne_of_ne h2 h3]
  exact ⟨h, (C42_so_ccd Witness.D _ h _).2.2.1⟩

end Verif.Props
