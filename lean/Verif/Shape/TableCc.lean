import Verif.Shape.Lib
import Verif.Shape.Cc

/-!
# Shapes of the arguments and results of cc_eqns.py, ccsdt_eqns.py, ccdq_eqns.py, build_qf_correction.py, cc_energy.py, pdagq_t4resid.py, build_approxT3full.py, square_brakT_corr.py (generated by tools/shapegen.py)
-/

namespace Verif.Shape

/-- Functions with the shapes of their parameters and of what they return. -/
def tableCc : List Entry := [
  ⟨"cc_eqns.ccsd_t1resid", Prog.cc_eqns_ccsd_t1resid,
    [.arr [.n, .n], .arr [.o, .v], .arr [.o, .o, .v, .v], .arr [.n, .n, .n, .n]],
    [.arr [.o, .v]]⟩,
  ⟨"cc_eqns.ccsd_t2resid", Prog.cc_eqns_ccsd_t2resid,
    [.arr [.n, .n], .arr [.o, .o, .v, .v], .arr [.o, .v], .arr [.n, .n, .n, .n], .int .o, .int .v],
    [.arr [.o, .o, .v, .v]]⟩,
  ⟨"ccsdt_eqns.ccsdt_t1eqns", Prog.ccsdt_eqns_ccsdt_t1eqns,
    [.arr [.n, .n], .arr [.o, .v], .arr [.o, .o, .v, .v], .arr [.n, .n, .n, .n], .arr [.o, .o, .o, .v, .v, .v]],
    [.arr [.o, .v]]⟩,
  ⟨"ccsdt_eqns.ccsdt_t2eqns", Prog.ccsdt_eqns_ccsdt_t2eqns,
    [.arr [.n, .n], .arr [.o, .o, .v, .v], .arr [.o, .v], .arr [.o, .o, .o, .v, .v, .v], .arr [.n, .n, .n, .n]],
    [.arr [.o, .o, .v, .v]]⟩,
  ⟨"ccsdt_eqns.ccsdt_t3eqns", Prog.ccsdt_eqns_ccsdt_t3eqns,
    [.arr [.n, .n], .arr [.o, .o, .o, .v, .v, .v], .arr [.o, .v], .arr [.o, .o, .v, .v], .arr [.n, .n, .n, .n]],
    [.arr [.o, .o, .o, .v, .v, .v]]⟩,
  ⟨"ccdq_eqns.ccdq_t2eqns", Prog.ccdq_eqns_ccdq_t2eqns,
    [.arr [.n, .n], .arr [.o, .o, .v, .v], .arr [.n, .n, .n, .n], .arr [.o, .o, .o, .o, .v, .v, .v, .v]],
    [.arr [.o, .o, .v, .v]]⟩,
  ⟨"ccdq_eqns.ccdq_t4eqns", Prog.ccdq_eqns_ccdq_t4eqns,
    [.arr [.n, .n], .arr [.o, .o, .o, .o, .v, .v, .v, .v], .arr [.o, .o, .v, .v], .arr [.n, .n, .n, .n]],
    [.arr [.o, .o, .o, .o, .v, .v, .v, .v]]⟩,
  ⟨"build_qf_correction.wnT2T3_toT4", Prog.build_qf_correction_wnT2T3_toT4,
    [.arr [.n, .n, .n, .n], .arr [.o, .o, .v, .v], .arr [.o, .o, .o, .v, .v, .v]],
    [.arr [.o, .o, .o, .o, .v, .v, .v, .v]]⟩,
  ⟨"build_qf_correction.wnT2cubed_toT4", Prog.build_qf_correction_wnT2cubed_toT4,
    [.arr [.n, .n, .n, .n], .arr [.o, .o, .v, .v]],
    [.arr [.o, .o, .o, .o, .v, .v, .v, .v]]⟩,
  ⟨"build_qf_correction.wnT2cubed_toT2", Prog.build_qf_correction_wnT2cubed_toT2,
    [.arr [.n, .n, .n, .n], .arr [.o, .o, .v, .v]],
    [.arr [.o, .o, .v, .v]]⟩,
  ⟨"build_qf_correction.wnT2T3_toT2", Prog.build_qf_correction_wnT2T3_toT2,
    [.arr [.n, .n, .n, .n], .arr [.o, .o, .v, .v], .arr [.o, .o, .o, .v, .v, .v]],
    [.arr [.o, .o, .v, .v]]⟩,
  ⟨"cc_energy.spinorbitalCCSDE", Prog.cc_energy_spinorbitalCCSDE,
    [.arr [.n, .n], .arr [.n, .n, .n, .n], .arr [.o, .o, .v, .v], .arr [.o, .v]],
    [.arr []]⟩,
  ⟨"cc_energy.spinorbitalCCSDE_noT1", Prog.cc_energy_spinorbitalCCSDE_noT1,
    [.arr [.n, .n], .arr [.n, .n, .n, .n], .arr [.o, .o, .v, .v]],
    [.arr []]⟩,
  ⟨"cc_energy.sixthOrderQf_wnT2cubed", Prog.cc_energy_sixthOrderQf_wnT2cubed,
    [.arr [.n, .n, .n, .n], .arr [.o, .o, .v, .v], .arr [.o, .o, .v, .v]],
    []⟩,
  ⟨"cc_energy.sixthOrderQf_wnT2T3", Prog.cc_energy_sixthOrderQf_wnT2T3,
    [.arr [.n, .n, .n, .n], .arr [.o, .o, .v, .v], .arr [.o, .o, .o, .v, .v, .v], .arr [.o, .o, .v, .v]],
    []⟩,
  ⟨"cc_energy.long_testQf5Order", Prog.cc_energy_long_testQf5Order,
    [.arr [.n, .n, .n, .n], .arr [.o, .o, .v, .v], .arr [.o, .o, .v, .v], .arr [.o, .o, .o, .v, .v, .v]],
    []⟩,
  ⟨"cc_energy.optWnT3", Prog.cc_energy_optWnT3,
    [.arr [.n, .n, .n, .n], .arr [.o, .o, .o, .v, .v, .v], .arr [.o, .o, .v, .v]],
    [.arr [.o, .o, .v, .v]]⟩,
  ⟨"cc_energy.optWnT2sqr", Prog.cc_energy_optWnT2sqr,
    [.arr [.n, .n, .n, .n], .arr [.o, .o, .v, .v]],
    [.arr [.o, .o, .v, .v]]⟩,
  ⟨"cc_energy.T3portion_Qf", Prog.cc_energy_T3portion_Qf,
    [.arr [.v, .v, .o, .o], .arr [.o, .o, .o, .v, .v, .v], .arr [.n, .n, .n, .n]],
    [.arr [.o, .o, .v, .v]]⟩,
  ⟨"cc_energy.build_approxT3", Prog.cc_energy_build_approxT3,
    [.arr [.o, .o, .v, .v], .arr [.n, .n, .n, .n]],
    [.arr [.o, .o, .o, .v, .v, .v]]⟩,
  ⟨"pdagq_t4resid.t4_test_residual", Prog.pdagq_t4resid_t4_test_residual,
    [.arr [.n, .n, .n, .n], .arr [.v, .v, .o, .o]],
    [.arr [.v, .v, .v, .v, .o, .o, .o, .o], .arr [.v, .v, .v, .v, .o, .o, .o, .o]]⟩,
  ⟨"build_approxT3full.ccsdtq_t3_aaaaaa_residual", Prog.build_approxT3full_ccsdtq_t3_aaaaaa_residual,
    [.arr [.n, .n, .n, .n], .arr [.v, .v, .o, .o]],
    [.arr [.v, .v, .v, .o, .o, .o]]⟩,
  ⟨"build_approxT3full.ccsdtq_t3_aabaab_residual", Prog.build_approxT3full_ccsdtq_t3_aabaab_residual,
    [.arr [.n, .n, .n, .n], .arr [.v, .v, .o, .o], .arr [.n, .n, .n, .n], .arr [.v, .v, .o, .o]],
    [.arr [.v, .v, .v, .o, .o, .o]]⟩,
  ⟨"build_approxT3full.ccsdtq_t3_abbabb_residual", Prog.build_approxT3full_ccsdtq_t3_abbabb_residual,
    [.arr [.n, .n, .n, .n], .arr [.v, .v, .o, .o], .arr [.n, .n, .n, .n], .arr [.v, .v, .o, .o]],
    [.arr [.v, .v, .v, .o, .o, .o]]⟩,
  ⟨"build_approxT3full.ccsdtq_t3_bbbbbb_residual", Prog.build_approxT3full_ccsdtq_t3_bbbbbb_residual,
    [.arr [.n, .n, .n, .n], .arr [.v, .v, .o, .o]],
    [.arr [.v, .v, .v, .o, .o, .o]]⟩,
  ⟨"square_brakT_corr.square_brakT", Prog.square_brakT_corr_square_brakT,
    [.arr [.n, .n, .n, .n], .arr [.o, .o, .v, .v], .arr [.v, .v, .v, .o, .o, .o], .arr [.n, .n, .n, .n], .arr [.v, .v, .v, .o, .o, .o], .arr [.o, .o, .v, .v], .arr [.n, .n, .n, .n], .arr [.v, .v, .v, .o, .o, .o], .arr [.o, .o, .v, .v], .arr [.v, .v, .v, .o, .o, .o]],
    [.arr []]⟩]

set_option maxRecDepth 100000 in
theorem tableCc_ok : tableCc.all (Entry.ok lib.sigs) = true := by decide +kernel

end Verif.Shape
