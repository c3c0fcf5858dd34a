import Verif.Shape.Sound
import Verif.Shape.Antisym
import Verif.Shape.Cc
import Verif.Shape.Xccd

/-!
# Functions called by other functions, and their declared shapes (generated by tools/shapegen.py)
-/

namespace Verif.Shape

/-- Functions that are called by others, callers before callees, with the shapes they are used at. -/
def lib : List Item := [
  ⟨F.XCCDbasebuilder_get_xcc9residual, Prog.XCCDbasebuilder_get_xcc9residual, [
    ([.int .o, .int .v, .arr [.o, .o, .o, .o, .v, .v, .v, .v], .arr [.o, .o, .v, .v], .arr [.v, .v, .o, .o]], .arr [.o, .o, .o, .o, .v, .v, .v, .v])]⟩,
  ⟨F.XCCDbasebuilder_get_xcc8residual, Prog.XCCDbasebuilder_get_xcc8residual, [
    ([.int .o, .int .v, .arr [.o, .o, .v, .v], .arr [.v, .v, .o, .o], .arr [.v, .v, .o, .o]], .arr [.o, .o, .o, .o, .v, .v, .v, .v])]⟩,
  ⟨F.XCCDbasebuilder_get_xcc7residual, Prog.XCCDbasebuilder_get_xcc7residual, [
    ([.int .o, .int .v, .arr [.o, .o, .o, .o, .v, .v, .v, .v], .arr [.o, .o, .v, .v], .arr [.v, .v, .o, .o]], .arr [.o, .o, .o, .o, .v, .v, .v, .v])]⟩,
  ⟨F.cc_energy_optWnT3, Prog.cc_energy_optWnT3, [
    ([.arr [.n, .n, .n, .n], .arr [.o, .o, .o, .v, .v, .v], .arr [.o, .o, .v, .v]], .arr [.o, .o, .v, .v])]⟩,
  ⟨F.cc_energy_optWnT2sqr, Prog.cc_energy_optWnT2sqr, [
    ([.arr [.n, .n, .n, .n], .arr [.o, .o, .v, .v]], .arr [.o, .o, .v, .v])]⟩,
  ⟨F.build_qf_correction_wnT2T3_toT2, Prog.build_qf_correction_wnT2T3_toT2, [
    ([.arr [.n, .n, .n, .n], .arr [.o, .o, .v, .v], .arr [.o, .o, .o, .v, .v, .v]], .arr [.o, .o, .v, .v])]⟩,
  ⟨F.build_qf_correction_wnT2T3_toT4, Prog.build_qf_correction_wnT2T3_toT4, [
    ([.arr [.n, .n, .n, .n], .arr [.o, .o, .v, .v], .arr [.o, .o, .o, .v, .v, .v]], .arr [.o, .o, .o, .o, .v, .v, .v, .v])]⟩,
  ⟨F.build_qf_correction_wnT2cubed_toT2, Prog.build_qf_correction_wnT2cubed_toT2, [
    ([.arr [.n, .n, .n, .n], .arr [.o, .o, .v, .v]], .arr [.o, .o, .v, .v])]⟩,
  ⟨F.build_qf_correction_wnT2cubed_toT4, Prog.build_qf_correction_wnT2cubed_toT4, [
    ([.arr [.n, .n, .n, .n], .arr [.o, .o, .v, .v]], .arr [.o, .o, .o, .o, .v, .v, .v, .v])]⟩,
  ⟨F.tamps_antisym_T4, Prog.tamps_antisym_T4, [
    ([.arr [.o, .o, .o, .o, .v, .v, .v, .v], .none, .none], .arr [.o, .o, .o, .o, .v, .v, .v, .v])]⟩,
  ⟨F.tamps_antisym_T3, Prog.tamps_antisym_T3, [
    ([.arr [.o, .o, .o, .v, .v, .v], .none, .none], .arr [.o, .o, .o, .v, .v, .v])]⟩,
  ⟨F.tamps_antisym_T2, Prog.tamps_antisym_T2, [
    ([.arr [.o, .o, .v, .v], .int .o, .int .v], .arr [.o, .o, .v, .v]),
    ([.arr [.o, .o, .v, .v], .none, .none], .arr [.o, .o, .v, .v]),
    ([.arr [.v, .v, .o, .o], .none, .none], .arr [.v, .v, .o, .o])]⟩,
  ⟨F.antisym_t4resids_antisym_t4_residual, Prog.antisym_t4resids_antisym_t4_residual, [
    ([.arr [.o, .o, .o, .o, .v, .v, .v, .v], .int .o, .int .v], .arr [.o, .o, .o, .o, .v, .v, .v, .v])]⟩,
  ⟨F.wicked_T3corr_antisym_T3, Prog.wicked_T3corr_antisym_T3, [
    ([.arr [.o, .o, .o, .v, .v, .v], .int .o, .int .v], .arr [.o, .o, .o, .v, .v, .v])]⟩]

set_option maxRecDepth 20000 in
theorem lib_ok : libOk lib = true := by decide +kernel

end Verif.Shape
