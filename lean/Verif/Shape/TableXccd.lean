import Verif.Shape.Lib
import Verif.Shape.Xccd

/-!
# Shapes of the arguments and results of XCCDbasebuilder.py, xccd_resid.py (generated by tools/shapegen.py)
-/

namespace Verif.Shape

/-- Functions with the shapes of their parameters and of what they return. -/
def tableXccd : List Entry := [
  ⟨"XCCDbasebuilder.build_XCCDbase_5", Prog.XCCDbasebuilder_build_XCCDbase_5,
    [.int .o, .int .v, .arr [.v, .v, .o, .o], .arr [.n, .n, .n, .n]],
    [.arr [.v, .v, .o, .o]]⟩,
  ⟨"XCCDbasebuilder.build_XCCDbase_6", Prog.XCCDbasebuilder_build_XCCDbase_6,
    [.int .o, .int .v, .arr [.v, .v, .o, .o], .arr [.n, .n, .n, .n]],
    [.arr [.v, .v, .o, .o]]⟩,
  ⟨"XCCDbasebuilder.build_XCCDbase_7", Prog.XCCDbasebuilder_build_XCCDbase_7,
    [.int .o, .int .v, .arr [.v, .v, .o, .o], .arr [.n, .n, .n, .n], .arr [.o, .o, .o, .o, .v, .v, .v, .v]],
    [.arr [.v, .v, .o, .o]]⟩,
  ⟨"XCCDbasebuilder.build_XCCDbase_8", Prog.XCCDbasebuilder_build_XCCDbase_8,
    [.int .o, .int .v, .arr [.v, .v, .o, .o], .arr [.n, .n, .n, .n]],
    [.arr [.v, .v, .o, .o]]⟩,
  ⟨"XCCDbasebuilder.build_XCCDbase_9", Prog.XCCDbasebuilder_build_XCCDbase_9,
    [.int .o, .int .v, .arr [.v, .v, .o, .o], .arr [.n, .n, .n, .n], .arr [.o, .o, .o, .o, .v, .v, .v, .v]],
    [.arr [.v, .v, .o, .o]]⟩,
  ⟨"XCCDbasebuilder.get_xcc7residual", Prog.XCCDbasebuilder_get_xcc7residual,
    [.int .o, .int .v, .arr [.o, .o, .o, .o, .v, .v, .v, .v], .arr [.o, .o, .v, .v], .arr [.v, .v, .o, .o]],
    [.arr [.o, .o, .o, .o, .v, .v, .v, .v]]⟩,
  ⟨"XCCDbasebuilder.get_xcc8residual", Prog.XCCDbasebuilder_get_xcc8residual,
    [.int .o, .int .v, .arr [.o, .o, .v, .v], .arr [.v, .v, .o, .o], .arr [.v, .v, .o, .o]],
    [.arr [.o, .o, .o, .o, .v, .v, .v, .v]]⟩,
  ⟨"XCCDbasebuilder.get_xcc9residual", Prog.XCCDbasebuilder_get_xcc9residual,
    [.int .o, .int .v, .arr [.o, .o, .o, .o, .v, .v, .v, .v], .arr [.o, .o, .v, .v], .arr [.v, .v, .o, .o]],
    [.arr [.o, .o, .o, .o, .v, .v, .v, .v]]⟩,
  ⟨"xccd_resid.xccd_7", Prog.xccd_resid_xccd_7,
    [.arr [.v, .v, .o, .o], .arr [.n, .n, .n, .n], .int .o, .int .v],
    [.arr [.o, .o, .o, .o, .v, .v, .v, .v]]⟩]

set_option maxRecDepth 100000 in
theorem tableXccd_ok : tableXccd.all (Entry.ok lib.sigs) = true := by decide +kernel

end Verif.Shape
