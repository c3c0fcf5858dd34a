import Verif.Shape.Lib
import Verif.Shape.Doubles

/-!
# Shapes of the arguments and results of t2residEqnsSlow.py, t2energySlow.py, t2residEqns.py, t2energy.py, modify_T2resid_T4Qf1Slow.py, modify_T2resid_T4Qf2Slow.py, modify_T2energy_pertQfSlow.py, drive_ucc4.py, pdagq_T3corr.py (generated by tools/shapegen.py)
-/

namespace Verif.Shape

/-- Functions with the shapes of their parameters and of what they return. -/
def tableDoubles : List Entry := [
  ⟨"t2residEqnsSlow.ccd_t2residual", Prog.t2residEqnsSlow_ccd_t2residual,
    [.arr [.n, .n], .arr [.v, .v, .o, .o], .arr [.n, .n, .n, .n]],
    [.arr [.v, .v, .o, .o]]⟩,
  ⟨"t2residEqnsSlow.doubles_resLCCDoffset", Prog.t2residEqnsSlow_doubles_resLCCDoffset,
    [.arr [.n, .n, .n, .n], .arr [.v, .v, .o, .o]],
    [.arr [.v, .v, .o, .o]]⟩,
  ⟨"t2energySlow.pccdEnergy", Prog.t2energySlow_pccdEnergy,
    [.arr [.n, .n], .arr [.n, .n, .n, .n], .arr [.v, .v, .o, .o]],
    [.arr []]⟩,
  ⟨"t2energySlow.ccdEnergy", Prog.t2energySlow_ccdEnergy,
    [.arr [.n, .n], .arr [.n, .n, .n, .n], .arr [.v, .v, .o, .o]],
    [.arr []]⟩,
  ⟨"t2residEqns.ccd_t2_aaaa_residual", Prog.t2residEqns_ccd_t2_aaaa_residual,
    [.arr [.n, .n], .arr [.v, .v, .o, .o], .arr [.n, .n, .n, .n], .arr [.n, .n, .n, .n], .arr [.v, .v, .o, .o], .arr [.n, .n, .n, .n]],
    [.arr [.v, .v, .o, .o]]⟩,
  ⟨"t2residEqns.ccd_t2_bbbb_residual", Prog.t2residEqns_ccd_t2_bbbb_residual,
    [.arr [.n, .n], .arr [.v, .v, .o, .o], .arr [.n, .n, .n, .n], .arr [.n, .n, .n, .n], .arr [.v, .v, .o, .o], .arr [.n, .n, .n, .n]],
    [.arr [.v, .v, .o, .o]]⟩,
  ⟨"t2residEqns.ccd_t2_abab_residual", Prog.t2residEqns_ccd_t2_abab_residual,
    [.arr [.n, .n], .arr [.v, .v, .o, .o], .arr [.n, .n], .arr [.n, .n, .n, .n], .arr [.v, .v, .o, .o], .arr [.n, .n, .n, .n], .arr [.n, .n, .n, .n], .arr [.v, .v, .o, .o]],
    [.arr [.v, .v, .o, .o]]⟩,
  ⟨"t2energy.ccd_energy_with_spin", Prog.t2energy_ccd_energy_with_spin,
    [.arr [.n, .n], .arr [.n, .n], .arr [.n, .n, .n, .n], .arr [.n, .n, .n, .n], .arr [.n, .n, .n, .n], .arr [.v, .v, .o, .o], .arr [.v, .v, .o, .o], .arr [.v, .v, .o, .o]],
    [.arr []]⟩,
  ⟨"modify_T2resid_T4Qf1Slow.unsym_residQf1", Prog.modify_T2resid_T4Qf1Slow_unsym_residQf1,
    [.arr [.v, .v, .o, .o], .arr [.n, .n, .n, .n]],
    [.arr [.v, .v, .v, .v, .o, .o, .o, .o]]⟩,
  ⟨"modify_T2resid_T4Qf1Slow.unsym_residQf2", Prog.modify_T2resid_T4Qf1Slow_unsym_residQf2,
    [.arr [.v, .v, .o, .o], .arr [.n, .n, .n, .n]],
    [.arr [.v, .v, .v, .v, .o, .o, .o, .o]]⟩,
  ⟨"modify_T2resid_T4Qf1Slow.residQf1_aaaa", Prog.modify_T2resid_T4Qf1Slow_residQf1_aaaa,
    [.arr [.n, .n, .n, .n], .arr [.o, .o, .v, .v], .arr [.v, .v, .o, .o]],
    [.arr [.v, .v, .o, .o]]⟩,
  ⟨"modify_T2resid_T4Qf2Slow.residQf2_aaaa", Prog.modify_T2resid_T4Qf2Slow_residQf2_aaaa,
    [.arr [.n, .n, .n, .n], .arr [.o, .o, .v, .v], .arr [.v, .v, .o, .o]],
    [.arr [.v, .v, .o, .o]]⟩,
  ⟨"modify_T2energy_pertQfSlow.energy_pertQf", Prog.modify_T2energy_pertQfSlow_energy_pertQf,
    [.arr [.n, .n, .n, .n], .arr [.o, .o, .v, .v], .arr [.v, .v, .o, .o]],
    [.arr []]⟩,
  ⟨"drive_ucc4.t1_residEqns", Prog.drive_ucc4_t1_residEqns,
    [.arr [.n, .n, .n, .n], .arr [.v, .v, .o, .o], .arr [.n, .n], .arr [.v, .o]],
    [.arr [.v, .o]]⟩,
  ⟨"drive_ucc4.t3_resid", Prog.drive_ucc4_t3_resid,
    [.arr [.n, .n], .arr [.v, .v, .v, .o, .o, .o], .arr [.n, .n, .n, .n], .arr [.v, .v, .o, .o]],
    [.arr [.v, .v, .v, .o, .o, .o]]⟩,
  ⟨"drive_ucc4.offset_t2resid_t2squared", Prog.drive_ucc4_offset_t2resid_t2squared,
    [.arr [.n, .n, .n, .n], .arr [.v, .v, .o, .o]],
    [.arr [.v, .v, .o, .o]]⟩,
  ⟨"drive_ucc4.offset_t2resid_t2dag_w_t2", Prog.drive_ucc4_offset_t2resid_t2dag_w_t2,
    [.arr [.o, .o, .v, .v], .arr [.n, .n, .n, .n], .arr [.v, .v, .o, .o]],
    [.arr [.v, .v, .o, .o]]⟩,
  ⟨"drive_ucc4.offset_t2resid_T1_T3", Prog.drive_ucc4_offset_t2resid_T1_T3,
    [.arr [.n, .n, .n, .n], .arr [.v, .o], .arr [.v, .v, .v, .o, .o, .o]],
    [.arr [.v, .v, .o, .o]]⟩,
  ⟨"pdagq_T3corr.build_T3", Prog.pdagq_T3corr_build_T3,
    [.arr [.n, .n, .n, .n], .arr [.v, .v, .o, .o]],
    [.arr [.v, .v, .v, .o, .o, .o]]⟩,
  ⟨"pdagq_T3corr.pdagq_T3energy", Prog.pdagq_T3corr_pdagq_T3energy,
    [.arr [.n, .n, .n, .n], .arr [.o, .v], .arr [.v, .v, .v, .o, .o, .o], .arr [.o, .o, .v, .v]],
    [.arr []]⟩,
  ⟨"pdagq_T3corr.ccsd_energy", Prog.pdagq_T3corr_ccsd_energy,
    [.arr [.n, .n], .arr [.v, .o], .arr [.n, .n, .n, .n], .arr [.v, .v, .o, .o]],
    []⟩]

set_option maxRecDepth 100000 in
theorem tableDoubles_ok : tableDoubles.all (Entry.ok lib.sigs) = true := by decide +kernel

end Verif.Shape
