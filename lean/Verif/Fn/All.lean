import Verif.Ein.Arrays
import Verif.Gen.Ccd
import Verif.Gen.Ccdq
import Verif.Gen.Ccsd
import Verif.Gen.Ccsdt
import Verif.Gen.Qf
import Verif.Gen.SiCcd
import Verif.Gen.SiCcdq
import Verif.Gen.SiCcdqT4_0
import Verif.Gen.SiCcdqT4_1
import Verif.Gen.SiCcdqT4_2
import Verif.Gen.SiCcdqT4_3
import Verif.Gen.SiCcdqT4_4
import Verif.Gen.SiCcsdt
import Verif.Gen.SiCcsdtT3_0
import Verif.Gen.SiCcsdtT3_1
import Verif.Gen.SiCcsdtT3_2
import Verif.Gen.SiCcsdtT3_3
import Verif.Gen.SiQf
import Verif.Gen.SiQf1_aaaa
import Verif.Gen.SiQf1_abab
import Verif.Gen.SiQf1_bbbb
import Verif.Gen.SiQf2_aaaa
import Verif.Gen.SiQf2_abab
import Verif.Gen.SiQf2_bbbb
import Verif.Gen.SiQfE
import Verif.Gen.SiT3
import Verif.Gen.SiT4_0
import Verif.Gen.SiT4_1
import Verif.Gen.SiT4_2
import Verif.Gen.SiT4_3
import Verif.Gen.SiT4_4
import Verif.Gen.SiT4cub_0
import Verif.Gen.SiT4cub_1
import Verif.Gen.SiT4cub_2
import Verif.Gen.SiT4cub_3
import Verif.Gen.SiT4cub_4
import Verif.Gen.SiTest_aaaa
import Verif.Gen.SiTest_abab
import Verif.Gen.SiTest_bbbb
import Verif.Gen.Triples
import Verif.Gen.Ucc4
import Verif.Gen.Xccd

/-! Written by `/verif/tools/gen.py`. The functions of `/repo/UT2` as functions of arrays and orbitals. -/

namespace Verif.UT2

open Verif.Ein

variable {I K : Type} [Field K] [Inhabited I] (D : Nat → Finset I)

/-- `UT2/t2residEqnsSlow.py` 141-180, `ccd_t2residual`: the entry `[a,b,i,j]`. -/
def ccd_t2residual (A : SO I K) (a b i j : I) : K := Gen.ccd_t2residual.eval D A.T [a, b, i, j]

/-- `UT2/t2residEqnsSlow.py` 182-200, `doubles_resLCCDoffset`: the entry `[a,b,i,j]`. -/
def doubles_resLCCDoffset (A : SO I K) (a b i j : I) : K := Gen.doubles_resLCCDoffset.eval D A.T [a, b, i, j]

/-- `UT2/t2energySlow.py` 101-120, `ccdEnergy`: a number. -/
def ccdEnergy (A : SO I K) : K := Gen.ccdEnergy.eval D A.T []

/-- `UT2/t2energySlow.py` 95-99, `pccdEnergy`: a number. -/
def pccdEnergy (A : SO I K) : K := Gen.pccdEnergy.eval D A.T []

/-- `UT2/ccdq_eqns.py` 5-19, `ccdq_t2eqns`: the entry `[i,j,a,b]`. -/
def ccdq_t2eqns (A : SO I K) (i j a b : I) : K := Gen.ccdq_t2eqns.eval D A.T [i, j, a, b]

/-- `UT2/ccdq_eqns.py` 22-44, `ccdq_t4eqns`: the entry `[i,j,k,l,a,b,c,d]`. -/
def ccdq_t4eqns (A : SO I K) (i j k l a b c d : I) : K := Gen.ccdq_t4eqns.eval D A.T [i, j, k, l, a, b, c, d]

/-- `UT2/cc_energy.py` 28-40, `spinorbitalCCSDE`: a number. -/
def spinorbitalCCSDE (A : SO I K) : K := Gen.spinorbitalCCSDE.eval D A.T []

/-- `UT2/cc_energy.py` 28-40, `spinorbitalCCSDE` with `T1=None`: a number. -/
def spinorbitalCCDE (A : SO I K) : K := Gen.spinorbitalCCDE.eval D A.T []

/-- `UT2/cc_eqns.py` 67-83, `ccsd_t1resid`: the entry `[i,a]`. -/
def ccsd_t1resid (A : SO I K) (i a : I) : K := Gen.ccsd_t1resid.eval D A.T [i, a]

/-- `UT2/cc_eqns.py` 86-122, `ccsd_t2resid`: the entry `[i,j,a,b]`. -/
def ccsd_t2resid (A : SO I K) (i j a b : I) : K := Gen.ccsd_t2resid.eval D A.T [i, j, a, b]

/-- `UT2/ccsdt_eqns.py` 5-22, `ccsdt_t1eqns`: the entry `[i,a]`. -/
def ccsdt_t1eqns (A : SO I K) (i a : I) : K := Gen.ccsdt_t1eqns.eval D A.T [i, a]

/-- `UT2/ccsdt_eqns.py` 24-66, `ccsdt_t2eqns`: the entry `[i,j,a,b]`. -/
def ccsdt_t2eqns (A : SO I K) (i j a b : I) : K := Gen.ccsdt_t2eqns.eval D A.T [i, j, a, b]

/-- `UT2/ccsdt_eqns.py` 69-122, `ccsdt_t3eqns`: the entry `[i,j,k,a,b,c]`. -/
def ccsdt_t3eqns (A : SO I K) (i j k a b c : I) : K := Gen.ccsdt_t3eqns.eval D A.T [i, j, k, a, b, c]

/-- `UT2/modify_T2resid_T4Qf1Slow.py` 33-159, `residQf1_aaaa`: the entry `[a,b,i,j]`. -/
def residQf1 (A : SO I K) (a b i j : I) : K := Gen.residQf1.eval D A.T [a, b, i, j]

/-- `UT2/modify_T2resid_T4Qf2Slow.py` 6-164, `residQf2_aaaa`: the entry `[a,b,i,j]`. -/
def residQf2 (A : SO I K) (a b i j : I) : K := Gen.residQf2.eval D A.T [a, b, i, j]

/-- `UT2/modify_T2resid_T4Qf1Slow.py` 5-18, `unsym_residQf1`: the entry `[a,b,c,d,i,j,k,l]`. -/
def unsym_residQf1 (A : SO I K) (a b c d i j k l : I) : K := Gen.unsym_residQf1.eval D A.T [a, b, c, d, i, j, k, l]

/-- `UT2/modify_T2resid_T4Qf1Slow.py` 21-30, `unsym_residQf2`: the entry `[a,b,c,d,i,j,k,l]`. -/
def unsym_residQf2 (A : SO I K) (a b c d i j k l : I) : K := Gen.unsym_residQf2.eval D A.T [a, b, c, d, i, j, k, l]

/-- `UT2/modify_T2energy_pertQfSlow.py` 4-103, `energy_pertQf`: a number. -/
def energy_pertQf (A : SO I K) : K := Gen.energy_pertQf.eval D A.T []

/-- `UT2/cc_energy.py` 177-193, `optWnT3`: the entry `[i,j,a,b]`. -/
def optWnT3 (A : SO I K) (i j a b : I) : K := Gen.optWnT3.eval D A.T [i, j, a, b]

/-- `UT2/cc_energy.py` 198-231, `optWnT2sqr`: the entry `[i,j,a,b]`. -/
def optWnT2sqr (A : SO I K) (i j a b : I) : K := Gen.optWnT2sqr.eval D A.T [i, j, a, b]

/-- `UT2/cc_energy.py` 235-249, `T3portion_Qf`: the entry `[i,j,a,b]`. -/
def T3portion_Qf (A : SO I K) (i j a b : I) : K := Gen.T3portion_Qf.eval D A.T [i, j, a, b]

/-- `UT2/cc_energy.py` 251-255, `build_approxT3`: the entry `[i,j,k,a,b,c]`. -/
def build_approxT3 (A : SO I K) (i j k a b c : I) : K := Gen.build_approxT3.eval D A.T [i, j, k, a, b, c]

/-- `UT2/build_qf_correction.py` 6-17, `wnT2T3_toT4`: the entry `[i,j,k,l,a,b,c,d]`. -/
def wnT2T3_toT4 (A : SO I K) (i j k l a b c d : I) : K := Gen.wnT2T3_toT4.eval D A.T [i, j, k, l, a, b, c, d]

/-- `UT2/build_qf_correction.py` 20-29, `wnT2cubed_toT4`: the entry `[i,j,k,l,a,b,c,d]`. -/
def wnT2cubed_toT4 (A : SO I K) (i j k l a b c d : I) : K := Gen.wnT2cubed_toT4.eval D A.T [i, j, k, l, a, b, c, d]

/-- `UT2/build_qf_correction.py` 32-67, `wnT2cubed_toT2`: the entry `[i,j,a,b]`. -/
def wnT2cubed_toT2 (A : SO I K) (i j a b : I) : K := Gen.wnT2cubed_toT2.eval D A.T [i, j, a, b]

/-- `UT2/build_qf_correction.py` 70-142, `wnT2T3_toT2`: the entry `[i,j,a,b]`. -/
def wnT2T3_toT2 (A : SO I K) (i j a b : I) : K := Gen.wnT2T3_toT2.eval D A.T [i, j, a, b]

/-- `UT2/pdagq_t4resid.py` 3-240, `t4_test_residual`: the entry `[a,b,c,d,i,j,k,l]`. -/
def t4_test_residual (A : SO I K) (a b c d i j k l : I) : K := Gen.t4_test_residual.eval D A.T [a, b, c, d, i, j, k, l]

/-- `UT2/pdagq_t4resid.py` 3-240, `t4_test_residual`: the entry `[a,b,c,d,i,j,k,l]`. -/
def t4_test_residual_oo (A : SO I K) (a b c d i j k l : I) : K := Gen.t4_test_residual_oo.eval D A.T [a, b, c, d, i, j, k, l]

/-- `UT2/t2residEqns.py` 92-174, `ccd_t2_aaaa_residual`: the entry `[a,b,i,j]`. -/
def ccd_t2_aaaa (A : SI I K) (a b i j : I) : K := Gen.ccd_t2_aaaa.eval D A.T [a, b, i, j]

/-- `UT2/t2residEqns.py` 177-258, `ccd_t2_bbbb_residual`: the entry `[a,b,i,j]`. -/
def ccd_t2_bbbb (A : SI I K) (a b i j : I) : K := Gen.ccd_t2_bbbb.eval D A.T [a, b, i, j]

/-- `UT2/t2residEqns.py` 261-376, `ccd_t2_abab_residual`: the entry `[a,b,i,j]`. -/
def ccd_t2_abab (A : SI I K) (a b i j : I) : K := Gen.ccd_t2_abab.eval D A.T [a, b, i, j]

/-- `UT2/t2energy.py` 58-103, `ccd_energy_with_spin`: a number. -/
def ccd_energy_with_spin (A : SI I K) : K := Gen.ccd_energy_with_spin.eval D A.T []

/-- `UT2/ccdq_resids.py` 3-104, `ccdq_t2_aaaa_residual`: the entry `[a,b,i,j]`. -/
def ccdq_t2_aaaa (A : SI I K) (a b i j : I) : K := Gen.ccdq_t2_aaaa.eval D A.T [a, b, i, j]

/-- `UT2/ccdq_resids.py` 245-346, `ccdq_t2_bbbb_residual`: the entry `[a,b,i,j]`. -/
def ccdq_t2_bbbb (A : SI I K) (a b i j : I) : K := Gen.ccdq_t2_bbbb.eval D A.T [a, b, i, j]

/-- `UT2/ccdq_resids.py` 107-242, `ccdq_t2_abab_residual`: the entry `[a,b,i,j]`. -/
def ccdq_t2_abab (A : SI I K) (a b i j : I) : K := Gen.ccdq_t2_abab.eval D A.T [a, b, i, j]

/-- `UT2/ccdq_resids.py` 349-1418, `ccdq_t4_aaaaaaaa_residual`: the entry `[a,b,c,d,i,j,k,l]`. -/
def ccdq_t4_aaaaaaaa (A : SI I K) (a b c d i j k l : I) : K := Gen.ccdq_t4_aaaaaaaa.eval D A.T [a, b, c, d, i, j, k, l]

/-- `UT2/ccdq_resids.py` 1421-2679, `ccdq_t4_aaabaaab_residual`: the entry `[a,b,c,d,i,j,k,l]`. -/
def ccdq_t4_aaabaaab (A : SI I K) (a b c d i j k l : I) : K := Gen.ccdq_t4_aaabaaab.eval D A.T [a, b, c, d, i, j, k, l]

/-- `UT2/ccdq_resids.py` 2682-4075, `ccdq_t4_aabbaabb_residual`: the entry `[a,b,c,d,i,j,k,l]`. -/
def ccdq_t4_aabbaabb (A : SI I K) (a b c d i j k l : I) : K := Gen.ccdq_t4_aabbaabb.eval D A.T [a, b, c, d, i, j, k, l]

/-- `UT2/ccdq_resids.py` 4078-5600, `ccdq_t4_abbbabbb_residual`: the entry `[a,b,c,d,i,j,k,l]`. -/
def ccdq_t4_abbbabbb (A : SI I K) (a b c d i j k l : I) : K := Gen.ccdq_t4_abbbabbb.eval D A.T [a, b, c, d, i, j, k, l]

/-- `UT2/ccdq_resids.py` 5603-6672, `ccdq_t4_bbbbbbbb_residual`: the entry `[a,b,c,d,i,j,k,l]`. -/
def ccdq_t4_bbbbbbbb (A : SI I K) (a b c d i j k l : I) : K := Gen.ccdq_t4_bbbbbbbb.eval D A.T [a, b, c, d, i, j, k, l]

/-- `UT2/fullCCenergy.py` 165-226, `ccsd_energy_with_spin`: a number. -/
def ccsd_energy_with_spin (A : SI I K) : K := Gen.ccsd_energy_with_spin.eval D A.T []

/-- `UT2/fullCCresidEqns.py` 184-299, `ccsdt_t1_aa_residual`: the entry `[a,i]`. -/
def ccsdt_t1_aa (A : SI I K) (a i : I) : K := Gen.ccsdt_t1_aa.eval D A.T [a, i]

/-- `UT2/fullCCresidEqns.py` 302-417, `ccsdt_t1_bb_residual`: the entry `[a,i]`. -/
def ccsdt_t1_bb (A : SI I K) (a i : I) : K := Gen.ccsdt_t1_bb.eval D A.T [a, i]

/-- `UT2/fullCCresidEqns.py` 420-674, `ccsdt_t2_aaaa_residual`: the entry `[a,b,i,j]`. -/
def ccsdt_t2_aaaa (A : SI I K) (a b i j : I) : K := Gen.ccsdt_t2_aaaa.eval D A.T [a, b, i, j]

/-- `UT2/fullCCresidEqns.py` 677-931, `ccsdt_t2_bbbb_residual`: the entry `[a,b,i,j]`. -/
def ccsdt_t2_bbbb (A : SI I K) (a b i j : I) : K := Gen.ccsdt_t2_bbbb.eval D A.T [a, b, i, j]

/-- `UT2/fullCCresidEqns.py` 934-1334, `ccsdt_t2_abab_residual`: the entry `[a,b,i,j]`. -/
def ccsdt_t2_abab (A : SI I K) (a b i j : I) : K := Gen.ccsdt_t2_abab.eval D A.T [a, b, i, j]

/-- `UT2/fullCCresidEqns.py` 1340-2346, `ccsdt_t3_aaaaaa_residual`: the entry `[a,b,c,i,j,k]`. -/
def ccsdt_t3_aaaaaa (A : SI I K) (a b c i j k : I) : K := Gen.ccsdt_t3_aaaaaa.eval D A.T [a, b, c, i, j, k]

/-- `UT2/fullCCresidEqns.py` 2349-3568, `ccsdt_t3_aabaab_residual`: the entry `[a,b,c,i,j,k]`. -/
def ccsdt_t3_aabaab (A : SI I K) (a b c i j k : I) : K := Gen.ccsdt_t3_aabaab.eval D A.T [a, b, c, i, j, k]

/-- `UT2/fullCCresidEqns.py` 3571-4946, `ccsdt_t3_abbabb_residual`: the entry `[a,b,c,i,j,k]`. -/
def ccsdt_t3_abbabb (A : SI I K) (a b c i j k : I) : K := Gen.ccsdt_t3_abbabb.eval D A.T [a, b, c, i, j, k]

/-- `UT2/fullCCresidEqns.py` 4949-5955, `ccsdt_t3_bbbbbb_residual`: the entry `[a,b,c,i,j,k]`. -/
def ccsdt_t3_bbbbbb (A : SI I K) (a b c i j k : I) : K := Gen.ccsdt_t3_bbbbbb.eval D A.T [a, b, c, i, j, k]

/-- `UT2/fullCCenergy.py` 230-342, `energy_pertQf`: a number. -/
def si_energy_pertQf_t4 (A : SI I K) : K := Gen.si_energy_pertQf_t4.eval D A.T []

/-- `UT2/modify_T2resid_T4Qf1.py` 6-611, `residQf1_aaaa`: the entry `[a,b,i,j]`. -/
def residQf1_aaaa (A : SI I K) (a b i j : I) : K := Gen.residQf1_aaaa.eval D A.T [a, b, i, j]

/-- `UT2/modify_T2resid_T4Qf1.py` 1222-2335, `residQf1_abab`: the entry `[a,b,i,j]`. -/
def residQf1_abab (A : SI I K) (a b i j : I) : K := Gen.residQf1_abab.eval D A.T [a, b, i, j]

/-- `UT2/modify_T2resid_T4Qf1.py` 615-1220, `residQf1_bbbb`: the entry `[a,b,i,j]`. -/
def residQf1_bbbb (A : SI I K) (a b i j : I) : K := Gen.residQf1_bbbb.eval D A.T [a, b, i, j]

/-- `UT2/modify_T2resid_T4Qf2.py` 6-1308, `residQf2_aaaa`: the entry `[a,b,i,j]`. -/
def residQf2_aaaa (A : SI I K) (a b i j : I) : K := Gen.residQf2_aaaa.eval D A.T [a, b, i, j]

/-- `UT2/modify_T2resid_T4Qf2.py` 2620-4752, `residQf2_abab`: the entry `[a,b,i,j]`. -/
def residQf2_abab (A : SI I K) (a b i j : I) : K := Gen.residQf2_abab.eval D A.T [a, b, i, j]

/-- `UT2/modify_T2resid_T4Qf2.py` 1311-2614, `residQf2_bbbb`: the entry `[a,b,i,j]`. -/
def residQf2_bbbb (A : SI I K) (a b i j : I) : K := Gen.residQf2_bbbb.eval D A.T [a, b, i, j]

/-- `UT2/modify_T2energy_pertQf.py` 4-2778, `energy_pertQf`: a number. -/
def si_energy_pertQf (A : SI I K) : K := Gen.si_energy_pertQf.eval D A.T []

/-- `UT2/build_approxT3full.py` 5-43, `ccsdtq_t3_aaaaaa_residual`: the entry `[a,b,c,i,j,k]`. -/
def approxT3_aaaaaa (A : SI I K) (a b c i j k : I) : K := Gen.approxT3_aaaaaa.eval D A.T [a, b, c, i, j, k]

/-- `UT2/build_approxT3full.py` 46-91, `ccsdtq_t3_aabaab_residual`: the entry `[a,b,c,i,j,k]`. -/
def approxT3_aabaab (A : SI I K) (a b c i j k : I) : K := Gen.approxT3_aabaab.eval D A.T [a, b, c, i, j, k]

/-- `UT2/build_approxT3full.py` 94-139, `ccsdtq_t3_abbabb_residual`: the entry `[a,b,c,i,j,k]`. -/
def approxT3_abbabb (A : SI I K) (a b c i j k : I) : K := Gen.approxT3_abbabb.eval D A.T [a, b, c, i, j, k]

/-- `UT2/build_approxT3full.py` 142-181, `ccsdtq_t3_bbbbbb_residual`: the entry `[a,b,c,i,j,k]`. -/
def approxT3_bbbbbb (A : SI I K) (a b c i j k : I) : K := Gen.approxT3_bbbbbb.eval D A.T [a, b, c, i, j, k]

/-- `UT2/square_brakT_corr.py` 4-114, `square_brakT`: a number. -/
def square_brakT (A : SI I K) : K := Gen.square_brakT.eval D A.T []

/-- `UT2/fullCCenergy.py` 344-631, `ccsdtq_t4_aaaaaaaa_residual`: the entry `[a,b,c,d,i,j,k,l]`. -/
def ccsdtq_t4_aaaaaaaa (A : SI I K) (a b c d i j k l : I) : K := Gen.ccsdtq_t4_aaaaaaaa.eval D A.T [a, b, c, d, i, j, k, l]

/-- `UT2/fullCCenergy.py` 634-956, `ccsdtq_t4_aaabaaab_residual`: the entry `[a,b,c,d,i,j,k,l]`. -/
def ccsdtq_t4_aaabaaab (A : SI I K) (a b c d i j k l : I) : K := Gen.ccsdtq_t4_aaabaaab.eval D A.T [a, b, c, d, i, j, k, l]

/-- `UT2/fullCCenergy.py` 959-1340, `ccsdtq_t4_aabbaabb_residual`: the entry `[a,b,c,d,i,j,k,l]`. -/
def ccsdtq_t4_aabbaabb (A : SI I K) (a b c d i j k l : I) : K := Gen.ccsdtq_t4_aabbaabb.eval D A.T [a, b, c, d, i, j, k, l]

/-- `UT2/fullCCenergy.py` 1343-1785, `ccsdtq_t4_abbbabbb_residual`: the entry `[a,b,c,d,i,j,k,l]`. -/
def ccsdtq_t4_abbbabbb (A : SI I K) (a b c d i j k l : I) : K := Gen.ccsdtq_t4_abbbabbb.eval D A.T [a, b, c, d, i, j, k, l]

/-- `UT2/fullCCenergy.py` 1788-2075, `ccsdtq_t4_bbbbbbbb_residual`: the entry `[a,b,c,d,i,j,k,l]`. -/
def ccsdtq_t4_bbbbbbbb (A : SI I K) (a b c d i j k l : I) : K := Gen.ccsdtq_t4_bbbbbbbb.eval D A.T [a, b, c, d, i, j, k, l]

/-- `UT2/fullCCenergy.py` 2078-2569, `ccsdtqT2cubed_t4_aaaaaaaa_residual`: the entry `[a,b,c,d,i,j,k,l]`. -/
def ccsdtqT2cubed_t4_aaaaaaaa (A : SI I K) (a b c d i j k l : I) : K := Gen.ccsdtqT2cubed_t4_aaaaaaaa.eval D A.T [a, b, c, d, i, j, k, l]

/-- `UT2/fullCCenergy.py` 2572-3045, `ccsdtqT2cubed_t4_aaabaaab_residual`: the entry `[a,b,c,d,i,j,k,l]`. -/
def ccsdtqT2cubed_t4_aaabaaab (A : SI I K) (a b c d i j k l : I) : K := Gen.ccsdtqT2cubed_t4_aaabaaab.eval D A.T [a, b, c, d, i, j, k, l]

/-- `UT2/fullCCenergy.py` 3048-3673, `ccsdtqT2cubed_t4_aabbaabb_residual`: the entry `[a,b,c,d,i,j,k,l]`. -/
def ccsdtqT2cubed_t4_aabbaabb (A : SI I K) (a b c d i j k l : I) : K := Gen.ccsdtqT2cubed_t4_aabbaabb.eval D A.T [a, b, c, d, i, j, k, l]

/-- `UT2/fullCCenergy.py` 3676-4293, `ccsdtqT2cubed_t4_abbbabbb_residual`: the entry `[a,b,c,d,i,j,k,l]`. -/
def ccsdtqT2cubed_t4_abbbabbb (A : SI I K) (a b c d i j k l : I) : K := Gen.ccsdtqT2cubed_t4_abbbabbb.eval D A.T [a, b, c, d, i, j, k, l]

/-- `UT2/fullCCenergy.py` 4296-4787, `ccsdtqT2cubed_t4_bbbbbbbb_residual`: the entry `[a,b,c,d,i,j,k,l]`. -/
def ccsdtqT2cubed_t4_bbbbbbbb (A : SI I K) (a b c d i j k l : I) : K := Gen.ccsdtqT2cubed_t4_bbbbbbbb.eval D A.T [a, b, c, d, i, j, k, l]

/-- `UT2/testing_modifyT2eqns_with_T4.py` 4-831, `ccsdt_t2_aaaa_residual_Qf`: the entry `[a,b,i,j]`. -/
def test_t2_aaaa (A : SI I K) (a b i j : I) : K := Gen.test_t2_aaaa.eval D A.T [a, b, i, j]

/-- `UT2/testing_modifyT2eqns_with_T4.py` 1665-3143, `ccsdt_t2_abab_residual_Qf`: the entry `[a,b,i,j]`. -/
def test_t2_abab (A : SI I K) (a b i j : I) : K := Gen.test_t2_abab.eval D A.T [a, b, i, j]

/-- `UT2/testing_modifyT2eqns_with_T4.py` 834-1661, `ccsdt_t2_bbbb_residual_Qf`: the entry `[a,b,i,j]`. -/
def test_t2_bbbb (A : SI I K) (a b i j : I) : K := Gen.test_t2_bbbb.eval D A.T [a, b, i, j]

/-- `UT2/pdagq_T3corr.py` 4-37, `build_T3`: the entry `[a,b,c,i,j,k]`. -/
def build_T3 (A : SO I K) (a b c i j k : I) : K := Gen.build_T3.eval D A.T [a, b, c, i, j, k]

/-- `UT2/pdagq_T3corr.py` 39-49, `pdagq_T3energy`: a number. -/
def pdagq_T3energy (A : SO I K) : K := Gen.pdagq_T3energy.eval D A.T []

/-- `UT2/pdagq_T3corr.py` 51-68, `ccsd_energy`: a number. -/
def pdagq_ccsd_energy (A : SO I K) : K := Gen.pdagq_ccsd_energy.eval D A.T []

/-- `UT2/wicked_T3corr.py` 49-55, `fifthOrder_capC`: the entry `[a,b,c,i,j,k]`. -/
def fifthOrder_capC (A : SO I K) (a b c i j k : I) : K := Gen.fifthOrder_capC.eval D A.T [a, b, c, i, j, k]

/-- `UT2/wicked_T3corr.py` 57-65, `fifthOrder_capA`: the entry `[a,b,c,i,j,k]`. -/
def fifthOrder_capA (A : SO I K) (a b c i j k : I) : K := Gen.fifthOrder_capA.eval D A.T [a, b, c, i, j, k]

/-- `UT2/wicked_T3corr.py` 73-74, `contractE`: a number. -/
def contractE (A : SO I K) : K := Gen.contractE.eval D A.T []

/-- `UT2/wicked_T3corr.py` 90-95, `build_T3_thirdO`: the entry `[i,j,k,a,b,c]`. -/
def build_T3_thirdO (A : SO I K) (i j k a b c : I) : K := Gen.build_T3_thirdO.eval D A.T [i, j, k, a, b, c]

/-- `UT2/wicked_T3corr.py` 97-101, `build_netT2`: the entry `[i,j,a,b]`. -/
def build_netT2 (A : SO I K) (i j a b : I) : K := Gen.build_netT2.eval D A.T [i, j, a, b]

/-- `UT2/wicked_T3corr.py` 103-107, `build_T3_secondO`: the entry `[i,j,k,a,b,c]`. -/
def build_T3_secondO (A : SO I K) (i j k a b c : I) : K := Gen.build_T3_secondO.eval D A.T [i, j, k, a, b, c]

/-- `UT2/wicked_T3corr.py` 109-113, `getE_squareBrackT`: a number. -/
def getE_squareBrackT (A : SO I K) : K := Gen.getE_squareBrackT.eval D A.T []

/-- `UT2/wicked_T3corr.py` 115-118, `getE_parenT_t1`: a number. -/
def getE_parenT_t1 (A : SO I K) : K := Gen.getE_parenT_t1.eval D A.T []

/-- `UT2/wicked_T3corr.py` 122-125, `get_netT1_fromT2`: the entry `[i,a]`. -/
def get_netT1_fromT2 (A : SO I K) (i a : I) : K := Gen.get_netT1_fromT2.eval D A.T [i, a]

/-- `UT2/wicked_T3corr.py` 127-137, `get_netT1_thirdO`: the entry `[i,a]`. -/
def get_netT1_thirdO (A : SO I K) (i a : I) : K := Gen.get_netT1_thirdO.eval D A.T [i, a]

/-- `UT2/wicked_T3corr.py` 139-142, `get_T2resid_fromT1bar`: the entry `[i,j,a,b]`. -/
def get_T2resid_fromT1bar (A : SO I K) (i j a b : I) : K := Gen.get_T2resid_fromT1bar.eval D A.T [i, j, a, b]

/-- `UT2/drive_ucc4.py` 97-112, `t1_residEqns`: the entry `[a,i]`. -/
def t1_residEqns (A : SO I K) (a i : I) : K := Gen.t1_residEqns.eval D A.T [a, i]

/-- `UT2/drive_ucc4.py` 123-167, `t3_resid`: the entry `[a,b,c,i,j,k]`. -/
def t3_resid (A : SO I K) (a b c i j k : I) : K := Gen.t3_resid.eval D A.T [a, b, c, i, j, k]

/-- `UT2/drive_ucc4.py` 175-193, `offset_t2resid_t2squared`: the entry `[a,b,i,j]`. -/
def offset_t2resid_t2squared (A : SO I K) (a b i j : I) : K := Gen.offset_t2resid_t2squared.eval D A.T [a, b, i, j]

/-- `UT2/drive_ucc4.py` 195-213, `offset_t2resid_t2dag_w_t2`: the entry `[a,b,i,j]`. -/
def offset_t2resid_t2dag_w_t2 (A : SO I K) (a b i j : I) : K := Gen.offset_t2resid_t2dag_w_t2.eval D A.T [a, b, i, j]

/-- `UT2/drive_ucc4.py` 215-237, `offset_t2resid_T1_T3`: the entry `[a,b,i,j]`. -/
def offset_t2resid_T1_T3 (A : SO I K) (a b i j : I) : K := Gen.offset_t2resid_T1_T3.eval D A.T [a, b, i, j]

/-- `UT2/XCCDbasebuilder.py` 6-87, `build_XCCDbase`: the entry `[i,j,k,l,a,b,c,d]`. -/
def xccd5_quad (A : SO I K) (i j k l a b c d : I) : K := Gen.xccd5_quad.eval D A.T [i, j, k, l, a, b, c, d]

/-- `UT2/XCCDbasebuilder.py` 6-87, `build_XCCDbase`: the entry `[i,j,k,l,a,b,c,d]`. -/
def xccd6_quad (A : SO I K) (i j k l a b c d : I) : K := Gen.xccd6_quad.eval D A.T [i, j, k, l, a, b, c, d]

/-- `UT2/XCCDbasebuilder.py` 90-110, `get_xcc7residual`: the entry `[i,j,k,l,a,b,c,d]`. -/
def get_xcc7residual (A : SO I K) (i j k l a b c d : I) : K := Gen.get_xcc7residual.eval D A.T [i, j, k, l, a, b, c, d]

/-- `UT2/XCCDbasebuilder.py` 114-149, `get_xcc8residual`: the entry `[i,j,k,l,a,b,c,d]`. -/
def get_xcc8residual (A : SO I K) (i j k l a b c d : I) : K := Gen.get_xcc8residual.eval D A.T [i, j, k, l, a, b, c, d]

/-- `UT2/XCCDbasebuilder.py` 151-290, `get_xcc9residual`: the entry `[i,j,k,l,a,b,c,d]`. -/
def get_xcc9residual (A : SO I K) (i j k l a b c d : I) : K := Gen.get_xcc9residual.eval D A.T [i, j, k, l, a, b, c, d]

end Verif.UT2
