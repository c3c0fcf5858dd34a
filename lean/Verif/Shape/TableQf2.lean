import Verif.Shape.Lib
import Verif.Shape.Qf2

/-!
# Shapes of the arguments and results of modify_T2resid_T4Qf2.py (generated by tools/shapegen.py)
-/

namespace Verif.Shape

/-- Functions with the shapes of their parameters and of what they return. -/
def tableQf2 : List Entry := [
  ⟨"modify_T2resid_T4Qf2.residQf2_aaaa", Prog.modify_T2resid_T4Qf2_residQf2_aaaa,
    [.arr [.n, .n, .n, .n], .arr [.n, .n, .n, .n], .arr [.n, .n, .n, .n], .arr [.o, .o, .v, .v], .arr [.o, .o, .v, .v], .arr [.o, .o, .v, .v], .arr [.v, .v, .o, .o], .arr [.v, .v, .o, .o], .arr [.v, .v, .o, .o]],
    [.arr [.v, .v, .o, .o]]⟩,
  ⟨"modify_T2resid_T4Qf2.residQf2_bbbb", Prog.modify_T2resid_T4Qf2_residQf2_bbbb,
    [.arr [.n, .n, .n, .n], .arr [.n, .n, .n, .n], .arr [.n, .n, .n, .n], .arr [.o, .o, .v, .v], .arr [.o, .o, .v, .v], .arr [.o, .o, .v, .v], .arr [.v, .v, .o, .o], .arr [.v, .v, .o, .o], .arr [.v, .v, .o, .o]],
    [.arr [.v, .v, .o, .o]]⟩,
  ⟨"modify_T2resid_T4Qf2.residQf2_abab", Prog.modify_T2resid_T4Qf2_residQf2_abab,
    [.arr [.n, .n, .n, .n], .arr [.n, .n, .n, .n], .arr [.n, .n, .n, .n], .arr [.o, .o, .v, .v], .arr [.o, .o, .v, .v], .arr [.o, .o, .v, .v], .arr [.v, .v, .o, .o], .arr [.v, .v, .o, .o], .arr [.v, .v, .o, .o]],
    [.arr [.v, .v, .o, .o]]⟩]

set_option maxRecDepth 100000 in
theorem tableQf2_ok : tableQf2.all (Entry.ok lib.sigs) = true := by decide +kernel

end Verif.Shape
