import Verif.Shape.TableAntisym
import Verif.Shape.TableDoubles
import Verif.Shape.TableCc
import Verif.Shape.TableXccd
import Verif.Shape.TableQf1
import Verif.Shape.TableQf2
import Verif.Shape.TableQfE
import Verif.Shape.TableFull
import Verif.Shape.TableFullE
import Verif.Shape.TableCcdq
import Verif.Shape.TableTest

/-!
# No contraction can fail because of its dimensions (C45)

The tables list functions of the package with the shapes of their arguments and results; `o`, `v` and `n` stand for the
numbers of occupied, virtual and all orbitals. In the spin-integrated functions alpha and beta numbers are equal; what
happens otherwise is said at the end.
-/

namespace Verif.Props

open Verif.Shape

/-- All functions with their shapes. -/
def shapeTable : List Entry :=
  tableAntisym ++ tableDoubles ++ tableCc ++ tableXccd ++ tableQf1 ++ tableQf2 ++ tableQfE ++ tableFull ++ tableFullE
    ++ tableCcdq ++ tableTest

theorem shapeTable_ok (e : Entry) (he : e ∈ shapeTable) : e.ok lib.sigs = true := by
  simp only [shapeTable, List.mem_append] at he
  rcases he with (((((((((h | h) | h) | h) | h) | h) | h) | h) | h) | h) | h
  · exact List.all_eq_true.1 tableAntisym_ok e h
  · exact List.all_eq_true.1 tableDoubles_ok e h
  · exact List.all_eq_true.1 tableCc_ok e h
  · exact List.all_eq_true.1 tableXccd_ok e h
  · exact List.all_eq_true.1 tableQf1_ok e h
  · exact List.all_eq_true.1 tableQf2_ok e h
  · exact List.all_eq_true.1 tableQfE_ok e h
  · exact List.all_eq_true.1 tableFull_ok e h
  · exact List.all_eq_true.1 tableFullE_ok e h
  · exact List.all_eq_true.1 tableCcdq_ok e h
  · exact List.all_eq_true.1 tableTest_ok e h

/-- Shapes for `no` occupied and `nv` virtual orbitals. -/
def shapesAt (no nv : Nat) (ws : List (Val Dim)) : List (Val Nat) := ws.map (Val.map (Dim.size ⟨no, nv, no, nv⟩))

/-- The functions that are called by others, at run time. -/
def libCalls (no nv : Nat) : Calls Nat := callTable ⟨no, nv, no, nv⟩ lib

/-- Whatever the numbers of occupied and virtual orbitals (zero and one included), no statement of the listed functions
raises on arguments of the listed shapes: no einsum call has operands of inconsistent dimensions, no sum or in-place
sum has terms of different shapes, no name is used before it is assigned. The functions return arrays of the listed
shapes. `pccd_t2resid` is not in the list, see below. -/
theorem C45_shape_safe_partial (e : Entry) (he : e ∈ shapeTable) (no nv : Nat) :
    e.fn.exec ⟨no, nv, no, nv⟩ (libCalls no nv) (shapesAt no nv e.ins) = some (shapesAt no nv e.outs) :=
  Fn.check_sound (lib_sound _ lib lib_ok) (shapeTable_ok e he)

/-- How many einsum calls this covers. -/
def einsums (f : Fn) : Nat :=
  (f.body.map fun
    | .set _ ts => (ts.filter fun | .ein _ _ _ => true | _ => false).length
    | .aug _ ts => (ts.filter fun | .ein _ _ _ => true | _ => false).length
    | .dim _ _ _ => 0).sum

/-- The table has 116 functions. -/
theorem C45_table_length : shapeTable.length = 116 := by decide +kernel

set_option maxRecDepth 100000 in
/-- They make more than eighteen thousand einsum calls. -/
theorem C45_table_calls : (shapeTable.map fun e => einsums e.fn).sum = 18258 := by decide +kernel

/-- For example `ccd_t2residual` returns an array with two virtual and two occupied axes. -/
theorem C45_ccd_partial (no nv : Nat) :
    Prog.t2residEqnsSlow_ccd_t2residual.exec ⟨no, nv, no, nv⟩ (libCalls no nv)
      [.arr [no + nv, no + nv], .arr [nv, nv, no, no], .arr [no + nv, no + nv, no + nv, no + nv]]
      = some [.arr [nv, nv, no, no]] :=
  C45_shape_safe_partial ⟨"t2residEqnsSlow.ccd_t2residual", Prog.t2residEqnsSlow_ccd_t2residual,
    [.arr [.n, .n], .arr [.v, .v, .o, .o], .arr [.n, .n, .n, .n]], [.arr [.v, .v, .o, .o]]⟩
    (by simp [shapeTable, tableDoubles]) no nv

/-! ## `pccd_t2resid` -/

/-- `t2residEqnsSlow.py` 131 takes the diagonal `iaai` of `g[o,v,o,v]`: unless there are as many occupied as virtual
orbitals (or only one of either), the call raises. -/
theorem C45_pccd_violated (no nv : Nat) (h : no ≠ nv) (ho : no ≠ 1) (hv : nv ≠ 1) :
    Prog.t2residEqnsSlow_pccd_t2resid.exec ⟨no, nv, no, nv⟩ (libCalls no nv)
      [.arr [no + nv, no + nv, no + nv, no + nv], .arr [no + nv, no + nv], .arr [nv, nv, no, no]] = none := by
  simp [Fn.exec, run, Prog.t2residEqnsSlow_pccd_t2resid, bindParams, execs, exec, rhs, termVal, assigns, argShape,
    assign, lookup, applyOps, slices, Alg.num, nodupB, getAll, addTerms, X.g, X.f, X.t2, X.doubles_res, X.reduced, Q.g_vvoo, Q.f_vv,
    Q.t2, Q.f_oo, Q.g_oovv, Q.g_ovov, L.aaii, L.aa, L.ii, L.jjaa, L.aajj, L.iibb, L.bbii, L.iaia, L.iaai, ho, hv,
    h.symm]

/-! ## Different numbers of alpha and beta electrons

`oa`, `va`, `ob`, `vb`: numbers of occupied and virtual orbitals of either spin. The functions slice the integrals of
all spins with the alpha slices. -/

/-- Arguments of `ccd_energy_with_spin` for an open shell. -/
def openEnergyArgs (oa va ob vb : Nat) : List (Val Nat) :=
  [.arr [oa + va, oa + va], .arr [oa + va, oa + va], .arr [oa + va, oa + va, oa + va, oa + va],
    .arr [oa + va, oa + va, oa + va, oa + va], .arr [oa + va, oa + va, oa + va, oa + va], .arr [va, va, oa, oa],
    .arr [va, vb, oa, ob], .arr [vb, vb, ob, ob]]

/-- The energy raises unless one spin has a single electron. -/
theorem C45_open_energy_violated (oa va ob vb : Nat) (h : oa ≠ ob) (ha : oa ≠ 1) (hb : ob ≠ 1) (Φ : Calls Nat) :
    Prog.t2energy_ccd_energy_with_spin.exec ⟨oa, va, ob, vb⟩ Φ (openEnergyArgs oa va ob vb) = none := by
  by_cases h1 : va = vb
  · subst h1
    simp [Fn.exec, run, Prog.t2energy_ccd_energy_with_spin, openEnergyArgs, bindParams, execs, exec, rhs, termVal,
      assigns, argShape, assign, lookup, applyOps, slices, Alg.num, nodupB, getAll, X.f_aa, X.f_bb, X.g_aaaa, X.g_abab,
      X.g_bbbb, X.t2_aaaa, X.t2_abab, X.t2_bbbb, X.energy, Q.f_aa_oaoa, Q.f_bb_oaoa, Q.g_aaaa_oaoaoaoa,
      Q.g_abab_oaoaoaoa, Q.g_bbbb_oaoaoaoa, Q.g_aaaa_oaoavava, Q.t2_aaaa, Q.g_abab_oaoavava, Q.t2_abab, L.ii, L.jiji,
      L.ijij, L.jiab, L.abji, h, ha, hb]
  by_cases h2 : va = 1
  · subst h2
    simp [Fn.exec, run, Prog.t2energy_ccd_energy_with_spin, openEnergyArgs, bindParams, execs, exec, rhs, termVal,
      assigns, argShape, assign, lookup, applyOps, slices, Alg.num, nodupB, getAll, X.f_aa, X.f_bb, X.g_aaaa, X.g_abab,
      X.g_bbbb, X.t2_aaaa, X.t2_abab, X.t2_bbbb, X.energy, Q.f_aa_oaoa, Q.f_bb_oaoa, Q.g_aaaa_oaoaoaoa,
      Q.g_abab_oaoaoaoa, Q.g_bbbb_oaoaoaoa, Q.g_aaaa_oaoavava, Q.t2_aaaa, Q.g_abab_oaoavava, Q.t2_abab, L.ii, L.jiji,
      L.ijij, L.jiab, L.abji, h, ha, hb, h1]
  by_cases h3 : vb = 1
  all_goals
    simp [Fn.exec, run, Prog.t2energy_ccd_energy_with_spin, openEnergyArgs, bindParams, execs, exec, rhs, termVal,
      assigns, argShape, assign, lookup, applyOps, slices, Alg.num, nodupB, getAll, X.f_aa, X.f_bb, X.g_aaaa, X.g_abab,
      X.g_bbbb, X.t2_aaaa, X.t2_abab, X.t2_bbbb, X.energy, Q.f_aa_oaoa, Q.f_bb_oaoa, Q.g_aaaa_oaoaoaoa,
      Q.g_abab_oaoaoaoa, Q.g_bbbb_oaoaoaoa, Q.g_aaaa_oaoavava, Q.t2_aaaa, Q.g_abab_oaoavava, Q.t2_abab, L.ii, L.jiji,
      L.ijij, L.jiab, L.abji, h, ha, hb, h1, h2, h3]

/-- The alpha-beta doubles residual: its first contraction pairs the beta Fock matrix, sliced with the alpha occupied
range, with the beta axis of the amplitudes. -/
theorem C45_open_residual_violated (oa va ob vb : Nat) (h : oa ≠ ob) (ha : oa ≠ 1) (hb : ob ≠ 1) (Φ : Calls Nat) :
    Prog.t2residEqns_ccd_t2_abab_residual.exec ⟨oa, va, ob, vb⟩ Φ
      [.arr [oa + va, oa + va], .arr [va, vb, oa, ob], .arr [oa + va, oa + va],
        .arr [oa + va, oa + va, oa + va, oa + va], .arr [va, va, oa, oa], .arr [oa + va, oa + va, oa + va, oa + va],
        .arr [oa + va, oa + va, oa + va, oa + va], .arr [vb, vb, ob, ob]] = none := by
  simp [Fn.exec, run, Prog.t2residEqns_ccd_t2_abab_residual, bindParams, execs, exec, rhs, termVal, assigns, argShape,
    assign, lookup, applyOps, slices, Alg.num, X.f_aa, X.f_bb, X.g_aaaa, X.g_abab, X.g_bbbb, X.t2_aaaa, X.t2_abab,
    X.t2_bbbb, Q.f_bb_oaoa, Q.t2_abab, L.in, L.efmi, h, ha, hb]

/-- With a single beta electron nothing raises in the energy: numpy stretches the beta axis of the amplitudes, which
has one entry, over the alpha range. The result is then wrong, see `C56_violated`. -/
example : Prog.t2energy_ccd_energy_with_spin.exec ⟨2, 1, 1, 2⟩ (fun _ _ => none) (openEnergyArgs 2 1 1 2)
    = some [.arr []] := rfl

end Verif.Props
