import Verif.Shape.Lib
import Verif.Shape.QfE

/-!
# Shapes of the arguments and results of modify_T2energy_pertQf.py (generated by tools/shapegen.py)
-/

namespace Verif.Shape

/-- Functions with the shapes of their parameters and of what they return. -/
def tableQfE : List Entry := [
  ⟨"modify_T2energy_pertQf.energy_pertQf", Prog.modify_T2energy_pertQf_energy_pertQf,
    [.arr [.n, .n, .n, .n], .arr [.n, .n, .n, .n], .arr [.n, .n, .n, .n], .arr [.o, .o, .v, .v], .arr [.o, .o, .v, .v], .arr [.o, .o, .v, .v], .arr [.v, .v, .o, .o], .arr [.v, .v, .o, .o], .arr [.v, .v, .o, .o]],
    [.arr []]⟩]

set_option maxRecDepth 100000 in
theorem tableQfE_ok : tableQfE.all (Entry.ok lib.sigs) = true := by decide +kernel

end Verif.Shape
