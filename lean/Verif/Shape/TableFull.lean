import Verif.Shape.Lib
import Verif.Shape.Full

/-!
# Shapes of the arguments and results of fullCCresidEqns.py (generated by tools/shapegen.py)
-/

namespace Verif.Shape

/-- Functions with the shapes of their parameters and of what they return. -/
def tableFull : List Entry := [
  ⟨"fullCCresidEqns.ccsdt_t1_aa_residual", Prog.fullCCresidEqns_ccsdt_t1_aa_residual,
    [.arr [.n, .n], .arr [.v, .o], .arr [.v, .v, .o, .o], .arr [.n, .n], .arr [.v, .v, .o, .o], .arr [.n, .n, .n, .n], .arr [.n, .n, .n, .n], .arr [.v, .o], .arr [.v, .v, .v, .o, .o, .o], .arr [.v, .v, .v, .o, .o, .o], .arr [.n, .n, .n, .n], .arr [.v, .v, .v, .o, .o, .o]],
    [.arr [.v, .o]]⟩,
  ⟨"fullCCresidEqns.ccsdt_t1_bb_residual", Prog.fullCCresidEqns_ccsdt_t1_bb_residual,
    [.arr [.n, .n], .arr [.v, .o], .arr [.n, .n], .arr [.v, .v, .o, .o], .arr [.v, .v, .o, .o], .arr [.n, .n, .n, .n], .arr [.v, .o], .arr [.n, .n, .n, .n], .arr [.n, .n, .n, .n], .arr [.v, .v, .v, .o, .o, .o], .arr [.v, .v, .v, .o, .o, .o], .arr [.v, .v, .v, .o, .o, .o]],
    [.arr [.v, .o]]⟩,
  ⟨"fullCCresidEqns.ccsdt_t2_aaaa_residual", Prog.fullCCresidEqns_ccsdt_t2_aaaa_residual,
    [.arr [.n, .n], .arr [.v, .v, .o, .o], .arr [.v, .v, .v, .o, .o, .o], .arr [.n, .n], .arr [.v, .v, .v, .o, .o, .o], .arr [.v, .o], .arr [.n, .n, .n, .n], .arr [.n, .n, .n, .n], .arr [.v, .v, .o, .o], .arr [.v, .o], .arr [.n, .n, .n, .n]],
    [.arr [.v, .v, .o, .o]]⟩,
  ⟨"fullCCresidEqns.ccsdt_t2_bbbb_residual", Prog.fullCCresidEqns_ccsdt_t2_bbbb_residual,
    [.arr [.n, .n], .arr [.v, .v, .o, .o], .arr [.n, .n], .arr [.v, .v, .v, .o, .o, .o], .arr [.v, .v, .v, .o, .o, .o], .arr [.v, .o], .arr [.n, .n, .n, .n], .arr [.n, .n, .n, .n], .arr [.v, .v, .o, .o], .arr [.v, .o], .arr [.n, .n, .n, .n]],
    [.arr [.v, .v, .o, .o]]⟩,
  ⟨"fullCCresidEqns.ccsdt_t2_abab_residual", Prog.fullCCresidEqns_ccsdt_t2_abab_residual,
    [.arr [.n, .n], .arr [.v, .v, .o, .o], .arr [.n, .n], .arr [.v, .v, .v, .o, .o, .o], .arr [.v, .v, .v, .o, .o, .o], .arr [.v, .o], .arr [.v, .o], .arr [.n, .n, .n, .n], .arr [.v, .v, .o, .o], .arr [.n, .n, .n, .n], .arr [.n, .n, .n, .n], .arr [.v, .v, .o, .o]],
    [.arr [.v, .v, .o, .o]]⟩,
  ⟨"fullCCresidEqns.ccsdt_t3_aaaaaa_residual", Prog.fullCCresidEqns_ccsdt_t3_aaaaaa_residual,
    [.arr [.n, .n], .arr [.v, .v, .v, .o, .o, .o], .arr [.v, .o], .arr [.v, .v, .o, .o], .arr [.n, .n, .n, .n], .arr [.n, .n, .n, .n], .arr [.v, .v, .v, .o, .o, .o], .arr [.v, .o], .arr [.v, .v, .o, .o], .arr [.n, .n, .n, .n]],
    [.arr [.v, .v, .v, .o, .o, .o]]⟩,
  ⟨"fullCCresidEqns.ccsdt_t3_aabaab_residual", Prog.fullCCresidEqns_ccsdt_t3_aabaab_residual,
    [.arr [.n, .n], .arr [.v, .v, .v, .o, .o, .o], .arr [.n, .n], .arr [.v, .o], .arr [.v, .o], .arr [.v, .v, .o, .o], .arr [.v, .v, .o, .o], .arr [.n, .n, .n, .n], .arr [.n, .n, .n, .n], .arr [.v, .v, .v, .o, .o, .o], .arr [.v, .v, .v, .o, .o, .o], .arr [.n, .n, .n, .n], .arr [.v, .v, .o, .o]],
    [.arr [.v, .v, .v, .o, .o, .o]]⟩,
  ⟨"fullCCresidEqns.ccsdt_t3_abbabb_residual", Prog.fullCCresidEqns_ccsdt_t3_abbabb_residual,
    [.arr [.n, .n], .arr [.v, .v, .v, .o, .o, .o], .arr [.n, .n], .arr [.v, .o], .arr [.v, .o], .arr [.v, .v, .o, .o], .arr [.v, .v, .o, .o], .arr [.n, .n, .n, .n], .arr [.n, .n, .n, .n], .arr [.v, .v, .v, .o, .o, .o], .arr [.n, .n, .n, .n], .arr [.v, .v, .v, .o, .o, .o], .arr [.v, .v, .o, .o]],
    [.arr [.v, .v, .v, .o, .o, .o]]⟩,
  ⟨"fullCCresidEqns.ccsdt_t3_bbbbbb_residual", Prog.fullCCresidEqns_ccsdt_t3_bbbbbb_residual,
    [.arr [.n, .n], .arr [.v, .v, .v, .o, .o, .o], .arr [.v, .o], .arr [.v, .v, .o, .o], .arr [.n, .n, .n, .n], .arr [.n, .n, .n, .n], .arr [.v, .v, .v, .o, .o, .o], .arr [.v, .o], .arr [.v, .v, .o, .o], .arr [.n, .n, .n, .n]],
    [.arr [.v, .v, .v, .o, .o, .o]]⟩]

set_option maxRecDepth 100000 in
theorem tableFull_ok : tableFull.all (Entry.ok lib.sigs) = true := by decide +kernel

end Verif.Shape
