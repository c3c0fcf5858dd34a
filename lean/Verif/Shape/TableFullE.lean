import Verif.Shape.Lib
import Verif.Shape.FullE

/-!
# Shapes of the arguments and results of fullCCenergy.py (generated by tools/shapegen.py)
-/

namespace Verif.Shape

/-- Functions with the shapes of their parameters and of what they return. -/
def tableFullE : List Entry := [
  ⟨"fullCCenergy.ccsd_energy_with_spin", Prog.fullCCenergy_ccsd_energy_with_spin,
    [.arr [.n, .n], .arr [.n, .n], .arr [.v, .o], .arr [.v, .o], .arr [.n, .n, .n, .n], .arr [.n, .n, .n, .n], .arr [.n, .n, .n, .n], .arr [.v, .v, .o, .o], .arr [.v, .v, .o, .o], .arr [.v, .v, .o, .o]],
    [.arr []]⟩,
  ⟨"fullCCenergy.energy_pertQf", Prog.fullCCenergy_energy_pertQf,
    [.arr [.o, .o, .v, .v], .arr [.o, .o, .v, .v], .arr [.v, .v, .v, .v, .o, .o, .o, .o], .arr [.o, .o, .v, .v], .arr [.v, .v, .v, .v, .o, .o, .o, .o], .arr [.o, .o, .v, .v], .arr [.v, .v, .v, .v, .o, .o, .o, .o], .arr [.o, .o, .v, .v], .arr [.v, .v, .v, .v, .o, .o, .o, .o], .arr [.o, .o, .v, .v], .arr [.v, .v, .v, .v, .o, .o, .o, .o]],
    [.arr []]⟩,
  ⟨"fullCCenergy.ccsdtq_t4_aaaaaaaa_residual", Prog.fullCCenergy_ccsdtq_t4_aaaaaaaa_residual,
    [.arr [.n, .n, .n, .n], .arr [.v, .v, .o, .o], .arr [.v, .v, .v, .o, .o, .o]],
    [.arr [.v, .v, .v, .v, .o, .o, .o, .o]]⟩,
  ⟨"fullCCenergy.ccsdtq_t4_aaabaaab_residual", Prog.fullCCenergy_ccsdtq_t4_aaabaaab_residual,
    [.arr [.n, .n, .n, .n], .arr [.v, .v, .o, .o], .arr [.v, .v, .o, .o], .arr [.n, .n, .n, .n], .arr [.v, .v, .v, .o, .o, .o], .arr [.v, .v, .v, .o, .o, .o]],
    [.arr [.v, .v, .v, .v, .o, .o, .o, .o]]⟩,
  ⟨"fullCCenergy.ccsdtq_t4_aabbaabb_residual", Prog.fullCCenergy_ccsdtq_t4_aabbaabb_residual,
    [.arr [.n, .n, .n, .n], .arr [.v, .v, .o, .o], .arr [.n, .n, .n, .n], .arr [.v, .v, .o, .o], .arr [.v, .v, .o, .o], .arr [.n, .n, .n, .n], .arr [.v, .v, .v, .o, .o, .o], .arr [.v, .v, .v, .o, .o, .o]],
    [.arr [.v, .v, .v, .v, .o, .o, .o, .o]]⟩,
  ⟨"fullCCenergy.ccsdtq_t4_abbbabbb_residual", Prog.fullCCenergy_ccsdtq_t4_abbbabbb_residual,
    [.arr [.n, .n, .n, .n], .arr [.v, .v, .o, .o], .arr [.v, .v, .o, .o], .arr [.n, .n, .n, .n], .arr [.v, .v, .v, .o, .o, .o], .arr [.v, .v, .v, .o, .o, .o]],
    [.arr [.v, .v, .v, .v, .o, .o, .o, .o]]⟩,
  ⟨"fullCCenergy.ccsdtq_t4_bbbbbbbb_residual", Prog.fullCCenergy_ccsdtq_t4_bbbbbbbb_residual,
    [.arr [.n, .n, .n, .n], .arr [.v, .v, .o, .o], .arr [.v, .v, .v, .o, .o, .o]],
    [.arr [.v, .v, .v, .v, .o, .o, .o, .o]]⟩,
  ⟨"fullCCenergy.ccsdtqT2cubed_t4_aaaaaaaa_residual", Prog.fullCCenergy_ccsdtqT2cubed_t4_aaaaaaaa_residual,
    [.arr [.n, .n, .n, .n], .arr [.v, .v, .o, .o], .arr [.n, .n, .n, .n], .arr [.v, .v, .o, .o]],
    [.arr [.v, .v, .v, .v, .o, .o, .o, .o]]⟩,
  ⟨"fullCCenergy.ccsdtqT2cubed_t4_aaabaaab_residual", Prog.fullCCenergy_ccsdtqT2cubed_t4_aaabaaab_residual,
    [.arr [.n, .n, .n, .n], .arr [.v, .v, .o, .o], .arr [.v, .v, .o, .o], .arr [.n, .n, .n, .n], .arr [.n, .n, .n, .n], .arr [.v, .v, .o, .o]],
    [.arr [.v, .v, .v, .v, .o, .o, .o, .o]]⟩,
  ⟨"fullCCenergy.ccsdtqT2cubed_t4_aabbaabb_residual", Prog.fullCCenergy_ccsdtqT2cubed_t4_aabbaabb_residual,
    [.arr [.n, .n, .n, .n], .arr [.v, .v, .o, .o], .arr [.v, .v, .o, .o], .arr [.n, .n, .n, .n], .arr [.v, .v, .o, .o], .arr [.n, .n, .n, .n]],
    [.arr [.v, .v, .v, .v, .o, .o, .o, .o]]⟩,
  ⟨"fullCCenergy.ccsdtqT2cubed_t4_abbbabbb_residual", Prog.fullCCenergy_ccsdtqT2cubed_t4_abbbabbb_residual,
    [.arr [.n, .n, .n, .n], .arr [.v, .v, .o, .o], .arr [.v, .v, .o, .o], .arr [.n, .n, .n, .n], .arr [.n, .n, .n, .n], .arr [.v, .v, .o, .o]],
    [.arr [.v, .v, .v, .v, .o, .o, .o, .o]]⟩,
  ⟨"fullCCenergy.ccsdtqT2cubed_t4_bbbbbbbb_residual", Prog.fullCCenergy_ccsdtqT2cubed_t4_bbbbbbbb_residual,
    [.arr [.n, .n, .n, .n], .arr [.v, .v, .o, .o], .arr [.n, .n, .n, .n], .arr [.v, .v, .o, .o]],
    [.arr [.v, .v, .v, .v, .o, .o, .o, .o]]⟩]

set_option maxRecDepth 100000 in
theorem tableFullE_ok : tableFullE.all (Entry.ok lib.sigs) = true := by decide +kernel

end Verif.Shape
