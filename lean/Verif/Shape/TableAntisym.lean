import Verif.Shape.Lib
import Verif.Shape.Antisym

/-!
# Shapes of the arguments and results of tamps.py, wicked_T3corr.py, antisym_t4resids.py (generated by tools/shapegen.py)
-/

namespace Verif.Shape

/-- Functions with the shapes of their parameters and of what they return. -/
def tableAntisym : List Entry := [
  ⟨"tamps.antisym_T2", Prog.tamps_antisym_T2,
    [.arr [.o, .o, .v, .v], .none, .none],
    [.arr [.o, .o, .v, .v]]⟩,
  ⟨"tamps.antisym_T3", Prog.tamps_antisym_T3,
    [.arr [.o, .o, .o, .v, .v, .v], .none, .none],
    [.arr [.o, .o, .o, .v, .v, .v]]⟩,
  ⟨"tamps.antisym_T4", Prog.tamps_antisym_T4,
    [.arr [.o, .o, .o, .o, .v, .v, .v, .v], .none, .none],
    [.arr [.o, .o, .o, .o, .v, .v, .v, .v]]⟩,
  ⟨"wicked_T3corr.fifthOrder_capC", Prog.wicked_T3corr_fifthOrder_capC,
    [.arr [.v, .v, .o, .o], .arr [.n, .n, .n, .n], .int .o, .int .v],
    [.arr [.v, .v, .v, .o, .o, .o]]⟩,
  ⟨"wicked_T3corr.fifthOrder_capA", Prog.wicked_T3corr_fifthOrder_capA,
    [.arr [.v, .v, .o, .o], .arr [.n, .n, .n, .n], .int .o, .int .v],
    [.arr [.v, .v, .v, .o, .o, .o]]⟩,
  ⟨"wicked_T3corr.contractE", Prog.wicked_T3corr_contractE,
    [.arr [.o, .o, .o, .v, .v, .v], .arr [.v, .v, .v, .o, .o, .o]],
    [.arr []]⟩,
  ⟨"wicked_T3corr.build_T3_thirdO", Prog.wicked_T3corr_build_T3_thirdO,
    [.arr [.o, .o, .v, .v], .arr [.n, .n, .n, .n]],
    [.arr [.o, .o, .o, .v, .v, .v]]⟩,
  ⟨"wicked_T3corr.build_netT2", Prog.wicked_T3corr_build_netT2,
    [.arr [.o, .o, .o, .v, .v, .v], .arr [.n, .n, .n, .n]],
    [.arr [.o, .o, .v, .v]]⟩,
  ⟨"wicked_T3corr.build_T3_secondO", Prog.wicked_T3corr_build_T3_secondO,
    [.arr [.o, .o, .v, .v], .arr [.n, .n, .n, .n]],
    [.arr [.o, .o, .o, .v, .v, .v]]⟩,
  ⟨"wicked_T3corr.getE_squareBrackT", Prog.wicked_T3corr_getE_squareBrackT,
    [.arr [.o, .o, .o, .v, .v, .v], .arr [.v, .v, .o, .o], .arr [.n, .n, .n, .n]],
    [.arr []]⟩,
  ⟨"wicked_T3corr.getE_parenT_t1", Prog.wicked_T3corr_getE_parenT_t1,
    [.arr [.o, .o, .o, .v, .v, .v], .arr [.v, .o], .arr [.n, .n, .n, .n]],
    [.arr []]⟩,
  ⟨"wicked_T3corr.get_netT1_fromT2", Prog.wicked_T3corr_get_netT1_fromT2,
    [.arr [.o, .o, .v, .v], .arr [.n, .n, .n, .n]],
    [.arr [.o, .v]]⟩,
  ⟨"wicked_T3corr.get_netT1_thirdO", Prog.wicked_T3corr_get_netT1_thirdO,
    [.arr [.o, .o, .v, .v], .arr [.n, .n, .n, .n]],
    [.arr [.o, .v]]⟩,
  ⟨"wicked_T3corr.get_T2resid_fromT1bar", Prog.wicked_T3corr_get_T2resid_fromT1bar,
    [.arr [.o, .v], .arr [.n, .n, .n, .n]],
    [.arr [.o, .o, .v, .v]]⟩,
  ⟨"wicked_T3corr.antisym_T3", Prog.wicked_T3corr_antisym_T3,
    [.arr [.o, .o, .o, .v, .v, .v], .int .o, .int .v],
    [.arr [.o, .o, .o, .v, .v, .v]]⟩,
  ⟨"wicked_T3corr.antisym_T2", Prog.wicked_T3corr_antisym_T2,
    [.int .o, .int .v, .arr [.o, .o, .v, .v]],
    [.arr [.o, .o, .v, .v]]⟩,
  ⟨"antisym_t4resids.antisymmetrize_residual_2_2", Prog.antisym_t4resids_antisymmetrize_residual_2_2,
    [.arr [.o, .o, .v, .v], .int .o, .int .v],
    [.arr [.o, .o, .v, .v]]⟩,
  ⟨"antisym_t4resids.antisym_A", Prog.antisym_t4resids_antisym_A,
    [.arr [.o, .o, .v, .v, .v, .v]],
    [.arr [.o, .o, .v, .v, .v, .v]]⟩,
  ⟨"antisym_t4resids.antisym_T3", Prog.antisym_t4resids_antisym_T3,
    [.arr [.o, .o, .v, .v, .v, .v]],
    [.arr [.o, .o, .v, .v, .v, .v]]⟩,
  ⟨"antisym_t4resids.xccd_6", Prog.antisym_t4resids_xccd_6,
    [.int .o, .int .v, .arr [.v, .v, .o, .o], .arr [.n, .n, .n, .n]],
    [.arr [.o, .o, .o, .o, .v, .v, .v, .v]]⟩,
  ⟨"antisym_t4resids.antisym_t4_residual", Prog.antisym_t4resids_antisym_t4_residual,
    [.arr [.o, .o, .o, .o, .v, .v, .v, .v], .int .o, .int .v],
    [.arr [.o, .o, .o, .o, .v, .v, .v, .v]]⟩]

set_option maxRecDepth 100000 in
theorem tableAntisym_ok : tableAntisym.all (Entry.ok lib.sigs) = true := by decide +kernel

end Verif.Shape
