import Verif.Shape.Lib
import Verif.Shape.Ccdq

/-!
# Shapes of the arguments and results of ccdq_resids.py (generated by tools/shapegen.py)
-/

namespace Verif.Shape

/-- Functions with the shapes of their parameters and of what they return. -/
def tableCcdq : List Entry := [
  ⟨"ccdq_resids.ccdq_t2_aaaa_residual", Prog.ccdq_resids_ccdq_t2_aaaa_residual,
    [.arr [.n, .n], .arr [.v, .v, .o, .o], .arr [.n, .n, .n, .n], .arr [.n, .n, .n, .n], .arr [.v, .v, .o, .o], .arr [.v, .v, .v, .v, .o, .o, .o, .o], .arr [.v, .v, .v, .v, .o, .o, .o, .o], .arr [.n, .n, .n, .n], .arr [.v, .v, .v, .v, .o, .o, .o, .o]],
    [.arr [.v, .v, .o, .o]]⟩,
  ⟨"ccdq_resids.ccdq_t2_abab_residual", Prog.ccdq_resids_ccdq_t2_abab_residual,
    [.arr [.n, .n], .arr [.v, .v, .o, .o], .arr [.n, .n], .arr [.n, .n, .n, .n], .arr [.v, .v, .o, .o], .arr [.n, .n, .n, .n], .arr [.n, .n, .n, .n], .arr [.v, .v, .o, .o], .arr [.v, .v, .v, .v, .o, .o, .o, .o], .arr [.v, .v, .v, .v, .o, .o, .o, .o], .arr [.v, .v, .v, .v, .o, .o, .o, .o]],
    [.arr [.v, .v, .o, .o]]⟩,
  ⟨"ccdq_resids.ccdq_t2_bbbb_residual", Prog.ccdq_resids_ccdq_t2_bbbb_residual,
    [.arr [.n, .n], .arr [.v, .v, .o, .o], .arr [.n, .n, .n, .n], .arr [.n, .n, .n, .n], .arr [.v, .v, .o, .o], .arr [.n, .n, .n, .n], .arr [.v, .v, .v, .v, .o, .o, .o, .o], .arr [.v, .v, .v, .v, .o, .o, .o, .o], .arr [.v, .v, .v, .v, .o, .o, .o, .o]],
    [.arr [.v, .v, .o, .o]]⟩,
  ⟨"ccdq_resids.ccdq_t4_aaaaaaaa_residual", Prog.ccdq_resids_ccdq_t4_aaaaaaaa_residual,
    [.arr [.n, .n], .arr [.v, .v, .v, .v, .o, .o, .o, .o], .arr [.n, .n, .n, .n], .arr [.n, .n, .n, .n], .arr [.v, .v, .v, .v, .o, .o, .o, .o], .arr [.v, .v, .o, .o], .arr [.v, .v, .o, .o], .arr [.n, .n, .n, .n]],
    [.arr [.v, .v, .v, .v, .o, .o, .o, .o]]⟩,
  ⟨"ccdq_resids.ccdq_t4_aaabaaab_residual", Prog.ccdq_resids_ccdq_t4_aaabaaab_residual,
    [.arr [.n, .n], .arr [.v, .v, .v, .v, .o, .o, .o, .o], .arr [.n, .n], .arr [.n, .n, .n, .n], .arr [.n, .n, .n, .n], .arr [.v, .v, .v, .v, .o, .o, .o, .o], .arr [.v, .v, .v, .v, .o, .o, .o, .o], .arr [.n, .n, .n, .n], .arr [.v, .v, .o, .o], .arr [.v, .v, .o, .o], .arr [.v, .v, .o, .o]],
    [.arr [.v, .v, .v, .v, .o, .o, .o, .o]]⟩,
  ⟨"ccdq_resids.ccdq_t4_aabbaabb_residual", Prog.ccdq_resids_ccdq_t4_aabbaabb_residual,
    [.arr [.n, .n], .arr [.v, .v, .v, .v, .o, .o, .o, .o], .arr [.n, .n], .arr [.n, .n, .n, .n], .arr [.n, .n, .n, .n], .arr [.n, .n, .n, .n], .arr [.v, .v, .v, .v, .o, .o, .o, .o], .arr [.v, .v, .v, .v, .o, .o, .o, .o], .arr [.v, .v, .o, .o], .arr [.v, .v, .o, .o], .arr [.v, .v, .o, .o]],
    [.arr [.v, .v, .v, .v, .o, .o, .o, .o]]⟩,
  ⟨"ccdq_resids.ccdq_t4_abbbabbb_residual", Prog.ccdq_resids_ccdq_t4_abbbabbb_residual,
    [.arr [.n, .n], .arr [.v, .v, .v, .v, .o, .o, .o, .o], .arr [.n, .n], .arr [.n, .n, .n, .n], .arr [.n, .n, .n, .n], .arr [.v, .v, .v, .v, .o, .o, .o, .o], .arr [.n, .n, .n, .n], .arr [.v, .v, .v, .v, .o, .o, .o, .o], .arr [.v, .v, .o, .o], .arr [.v, .v, .o, .o], .arr [.v, .v, .o, .o]],
    [.arr [.v, .v, .v, .v, .o, .o, .o, .o]]⟩,
  ⟨"ccdq_resids.ccdq_t4_bbbbbbbb_residual", Prog.ccdq_resids_ccdq_t4_bbbbbbbb_residual,
    [.arr [.n, .n], .arr [.v, .v, .v, .v, .o, .o, .o, .o], .arr [.n, .n, .n, .n], .arr [.n, .n, .n, .n], .arr [.v, .v, .v, .v, .o, .o, .o, .o], .arr [.v, .v, .o, .o], .arr [.v, .v, .o, .o], .arr [.n, .n, .n, .n]],
    [.arr [.v, .v, .v, .v, .o, .o, .o, .o]]⟩]

set_option maxRecDepth 100000 in
theorem tableCcdq_ok : tableCcdq.all (Entry.ok lib.sigs) = true := by decide +kernel

end Verif.Shape
