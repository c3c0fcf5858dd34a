import Verif.Shape.Lib
import Verif.Shape.Qf1

/-!
# Shapes of the arguments and results of modify_T2resid_T4Qf1.py (generated by tools/shapegen.py)
-/

namespace Verif.Shape

/-- Functions with the shapes of their parameters and of what they return. -/
def tableQf1 : List Entry := [
  ⟨"modify_T2resid_T4Qf1.residQf1_aaaa", Prog.modify_T2resid_T4Qf1_residQf1_aaaa,
    [.arr [.n, .n, .n, .n], .arr [.n, .n, .n, .n], .arr [.n, .n, .n, .n], .arr [.o, .o, .v, .v], .arr [.o, .o, .v, .v], .arr [.o, .o, .v, .v], .arr [.v, .v, .o, .o], .arr [.v, .v, .o, .o], .arr [.v, .v, .o, .o]],
    [.arr [.v, .v, .o, .o]]⟩,
  ⟨"modify_T2resid_T4Qf1.residQf1_bbbb", Prog.modify_T2resid_T4Qf1_residQf1_bbbb,
    [.arr [.n, .n, .n, .n], .arr [.n, .n, .n, .n], .arr [.n, .n, .n, .n], .arr [.o, .o, .v, .v], .arr [.o, .o, .v, .v], .arr [.o, .o, .v, .v], .arr [.v, .v, .o, .o], .arr [.v, .v, .o, .o], .arr [.v, .v, .o, .o]],
    [.arr [.v, .v, .o, .o]]⟩,
  ⟨"modify_T2resid_T4Qf1.residQf1_abab", Prog.modify_T2resid_T4Qf1_residQf1_abab,
    [.arr [.n, .n, .n, .n], .arr [.n, .n, .n, .n], .arr [.n, .n, .n, .n], .arr [.o, .o, .v, .v], .arr [.o, .o, .v, .v], .arr [.o, .o, .v, .v], .arr [.v, .v, .o, .o], .arr [.v, .v, .o, .o], .arr [.v, .v, .o, .o]],
    [.arr [.v, .v, .o, .o]]⟩]

set_option maxRecDepth 100000 in
theorem tableQf1_ok : tableQf1.all (Entry.ok lib.sigs) = true := by decide +kernel

end Verif.Shape
