import Verif.Shape.Lib
import Verif.Shape.Test

/-!
# Shapes of the arguments and results of testing_modifyT2eqns_with_T4.py (generated by tools/shapegen.py)
-/

namespace Verif.Shape

/-- Functions with the shapes of their parameters and of what they return. -/
def tableTest : List Entry := [
  ⟨"testing_modifyT2eqns_with_T4.ccsdt_t2_aaaa_residual_Qf", Prog.testing_modifyT2eqns_with_T4_ccsdt_t2_aaaa_residual_Qf,
    [.arr [.n, .n, .n, .n], .arr [.o, .o, .v, .v], .arr [.v, .v, .o, .o], .arr [.n, .n, .n, .n], .arr [.o, .o, .v, .v], .arr [.v, .v, .o, .o], .arr [.n, .n, .n, .n], .arr [.o, .o, .v, .v], .arr [.v, .v, .o, .o], .arr [.v, .v, .v, .o, .o, .o], .arr [.v, .v, .v, .o, .o, .o], .arr [.v, .v, .v, .o, .o, .o]],
    [.arr [.v, .v, .o, .o]]⟩,
  ⟨"testing_modifyT2eqns_with_T4.ccsdt_t2_bbbb_residual_Qf", Prog.testing_modifyT2eqns_with_T4_ccsdt_t2_bbbb_residual_Qf,
    [.arr [.n, .n, .n, .n], .arr [.o, .o, .v, .v], .arr [.v, .v, .o, .o], .arr [.v, .v, .o, .o], .arr [.n, .n, .n, .n], .arr [.o, .o, .v, .v], .arr [.n, .n, .n, .n], .arr [.o, .o, .v, .v], .arr [.v, .v, .o, .o], .arr [.v, .v, .v, .o, .o, .o], .arr [.v, .v, .v, .o, .o, .o], .arr [.v, .v, .v, .o, .o, .o]],
    [.arr [.v, .v, .o, .o]]⟩,
  ⟨"testing_modifyT2eqns_with_T4.ccsdt_t2_abab_residual_Qf", Prog.testing_modifyT2eqns_with_T4_ccsdt_t2_abab_residual_Qf,
    [.arr [.n, .n, .n, .n], .arr [.o, .o, .v, .v], .arr [.v, .v, .o, .o], .arr [.n, .n, .n, .n], .arr [.o, .o, .v, .v], .arr [.v, .v, .o, .o], .arr [.n, .n, .n, .n], .arr [.o, .o, .v, .v], .arr [.v, .v, .o, .o], .arr [.v, .v, .v, .o, .o, .o], .arr [.v, .v, .v, .o, .o, .o], .arr [.v, .v, .v, .o, .o, .o], .arr [.v, .v, .v, .o, .o, .o]],
    [.arr [.v, .v, .o, .o]]⟩]

set_option maxRecDepth 100000 in
theorem tableTest_ok : tableTest.all (Entry.ok lib.sigs) = true := by decide +kernel

end Verif.Shape
