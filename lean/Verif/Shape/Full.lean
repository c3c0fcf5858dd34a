import Verif.Shape.Names

/-!
# Shape programs of fullCCresidEqns.py (generated by tools/shapegen.py)

Every statement of the functions with the subscripts and operands as written; see `Verif.Shape.Core`.
-/

set_option maxRecDepth 100000

namespace Verif.Shape.Prog

open Verif.Shape

/-- `fullCCresidEqns.py` 184-299: `ccsdt_t1_aa_residual`; 36 einsum calls. -/
def fullCCresidEqns_ccsdt_t1_aa_residual : Fn where
  params := [X.f_aa, X.t1_aa, X.t2_aaaa, X.f_bb, X.t2_abab, X.g_aaaa, X.g_abab, X.t1_bb, X.t3_aaaaaa, X.t3_aabaab, X.g_bbbb, X.t3_abbabb]
  body := [
    set1 X.singles_res (ein1 L.ai L.ai Q.f_aa_vaoa),
    aug1 X.singles_res (ein2 L.ji L.aj L.ai Q.f_aa_oaoa Q.t1_aa),
    aug1 X.singles_res (ein2 L.ab L.bi L.ai Q.f_aa_vava Q.t1_aa),
    aug1 X.singles_res (ein2 L.jb L.baij L.ai Q.f_aa_oava Q.t2_aaaa),
    aug1 X.singles_res (ein2 L.jb L.abij L.ai Q.f_bb_oava Q.t2_abab),
    aug1 X.singles_res (ein3 L.jb L.bi L.aj L.ai Q.f_aa_oava Q.t1_aa Q.t1_aa),
    aug1 X.singles_res (ein2 L.jabi L.bj L.ai Q.g_aaaa_oavavaoa Q.t1_aa),
    aug1 X.singles_res (ein2 L.ajib L.bj L.ai Q.g_abab_vaoaoava Q.t1_bb),
    aug1 X.singles_res (ein2 L.kjbi L.bakj L.ai Q.g_aaaa_oaoavaoa Q.t2_aaaa),
    aug1 X.singles_res (ein2 L.kjib L.abkj L.ai Q.g_abab_oaoaoava Q.t2_abab),
    aug1 X.singles_res (ein2 L.jkib L.abjk L.ai Q.g_abab_oaoaoava Q.t2_abab),
    aug1 X.singles_res (ein2 L.jabc L.bcij L.ai Q.g_aaaa_oavavava Q.t2_aaaa),
    aug1 X.singles_res (ein2 L.ajbc L.bcij L.ai Q.g_abab_vaoavava Q.t2_abab),
    aug1 X.singles_res (ein2 L.ajcb L.cbij L.ai Q.g_abab_vaoavava Q.t2_abab),
    aug1 X.singles_res (ein2 L.kjbc L.bcaikj L.ai Q.g_aaaa_oaoavava Q.t3_aaaaaa),
    aug1 X.singles_res (ein2 L.kjbc L.bacikj L.ai Q.g_abab_oaoavava Q.t3_aabaab),
    aug1 X.singles_res (ein2 L.jkbc L.bacijk L.ai Q.g_abab_oaoavava Q.t3_aabaab),
    aug1 X.singles_res (ein2 L.kjcb L.acbikj L.ai Q.g_abab_oaoavava Q.t3_aabaab),
    aug1 X.singles_res (ein2 L.jkcb L.acbijk L.ai Q.g_abab_oaoavava Q.t3_aabaab),
    aug1 X.singles_res (ein2 L.kjbc L.acbikj L.ai Q.g_bbbb_oaoavava Q.t3_abbabb),
    aug1 X.singles_res (ein3 L.kjbc L.bj L.caik L.ai Q.g_aaaa_oaoavava Q.t1_aa Q.t2_aaaa),
    aug1 X.singles_res (ein3 L.jkbc L.bj L.acik L.ai Q.g_abab_oaoavava Q.t1_aa Q.t2_abab),
    aug1 X.singles_res (ein3 L.kjcb L.bj L.caik L.ai Q.g_abab_oaoavava Q.t1_bb Q.t2_aaaa),
    aug1 X.singles_res (ein3 L.kjbc L.bj L.acik L.ai Q.g_bbbb_oaoavava Q.t1_bb Q.t2_abab),
    aug1 X.singles_res (ein3 L.kjbc L.bi L.cakj L.ai Q.g_aaaa_oaoavava Q.t1_aa Q.t2_aaaa),
    aug1 X.singles_res (ein3 L.kjbc L.bi L.ackj L.ai Q.g_abab_oaoavava Q.t1_aa Q.t2_abab),
    aug1 X.singles_res (ein3 L.jkbc L.bi L.acjk L.ai Q.g_abab_oaoavava Q.t1_aa Q.t2_abab),
    aug1 X.singles_res (ein3 L.kjbc L.aj L.bcik L.ai Q.g_aaaa_oaoavava Q.t1_aa Q.t2_aaaa),
    aug1 X.singles_res (ein3 L.jkbc L.aj L.bcik L.ai Q.g_abab_oaoavava Q.t1_aa Q.t2_abab),
    aug1 X.singles_res (ein3 L.jkcb L.aj L.cbik L.ai Q.g_abab_oaoavava Q.t1_aa Q.t2_abab),
    aug1 X.singles_res (ein3 L.kjbi L.bj L.ak L.ai Q.g_aaaa_oaoavaoa Q.t1_aa Q.t1_aa),
    aug1 X.singles_res (ein3 L.kjib L.bj L.ak L.ai Q.g_abab_oaoaoava Q.t1_bb Q.t1_aa),
    aug1 X.singles_res (ein3 L.jabc L.bj L.ci L.ai Q.g_aaaa_oavavava Q.t1_aa Q.t1_aa),
    aug1 X.singles_res (ein3 L.ajcb L.bj L.ci L.ai Q.g_abab_vaoavava Q.t1_bb Q.t1_aa),
    aug1 X.singles_res (ein4 L.kjbc L.bj L.ci L.ak L.ai Q.g_aaaa_oaoavava Q.t1_aa Q.t1_aa Q.t1_aa),
    aug1 X.singles_res (ein4 L.kjcb L.bj L.ci L.ak L.ai Q.g_abab_oaoavava Q.t1_bb Q.t1_aa Q.t1_aa)]
  ret := [Q.singles_res]

/-- `fullCCresidEqns.py` 302-417: `ccsdt_t1_bb_residual`; 36 einsum calls. -/
def fullCCresidEqns_ccsdt_t1_bb_residual : Fn where
  params := [X.f_bb, X.t1_bb, X.f_aa, X.t2_abab, X.t2_bbbb, X.g_abab, X.t1_aa, X.g_bbbb, X.g_aaaa, X.t3_aabaab, X.t3_abbabb, X.t3_bbbbbb]
  body := [
    set1 X.singles_res (ein1 L.ai L.ai Q.f_bb_vaoa),
    aug1 X.singles_res (ein2 L.ji L.aj L.ai Q.f_bb_oaoa Q.t1_bb),
    aug1 X.singles_res (ein2 L.ab L.bi L.ai Q.f_bb_vava Q.t1_bb),
    aug1 X.singles_res (ein2 L.jb L.baji L.ai Q.f_aa_oava Q.t2_abab),
    aug1 X.singles_res (ein2 L.jb L.baij L.ai Q.f_bb_oava Q.t2_bbbb),
    aug1 X.singles_res (ein3 L.jb L.bi L.aj L.ai Q.f_bb_oava Q.t1_bb Q.t1_bb),
    aug1 X.singles_res (ein2 L.jabi L.bj L.ai Q.g_abab_oavavaoa Q.t1_aa),
    aug1 X.singles_res (ein2 L.jabi L.bj L.ai Q.g_bbbb_oavavaoa Q.t1_bb),
    aug1 X.singles_res (ein2 L.kjbi L.bakj L.ai Q.g_abab_oaoavaoa Q.t2_abab),
    aug1 X.singles_res (ein2 L.jkbi L.bajk L.ai Q.g_abab_oaoavaoa Q.t2_abab),
    aug1 X.singles_res (ein2 L.kjbi L.bakj L.ai Q.g_bbbb_oaoavaoa Q.t2_bbbb),
    aug1 X.singles_res (ein2 L.jabc L.bcji L.ai Q.g_abab_oavavava Q.t2_abab),
    aug1 X.singles_res (ein2 L.jacb L.cbji L.ai Q.g_abab_oavavava Q.t2_abab),
    aug1 X.singles_res (ein2 L.jabc L.bcij L.ai Q.g_bbbb_oavavava Q.t2_bbbb),
    aug1 X.singles_res (ein2 L.kjbc L.bcajki L.ai Q.g_aaaa_oaoavava Q.t3_aabaab),
    aug1 X.singles_res (ein2 L.kjbc L.bcakij L.ai Q.g_abab_oaoavava Q.t3_abbabb),
    aug1 X.singles_res (ein2 L.jkbc L.bcajki L.ai Q.g_abab_oaoavava Q.t3_abbabb),
    aug1 X.singles_res (ein2 L.kjcb L.cbakij L.ai Q.g_abab_oaoavava Q.t3_abbabb),
    aug1 X.singles_res (ein2 L.jkcb L.cbajki L.ai Q.g_abab_oaoavava Q.t3_abbabb),
    aug1 X.singles_res (ein2 L.kjbc L.bcaikj L.ai Q.g_bbbb_oaoavava Q.t3_bbbbbb),
    aug1 X.singles_res (ein3 L.kjbc L.bj L.caki L.ai Q.g_aaaa_oaoavava Q.t1_aa Q.t2_abab),
    aug1 X.singles_res (ein3 L.jkbc L.bj L.caik L.ai Q.g_abab_oaoavava Q.t1_aa Q.t2_bbbb),
    aug1 X.singles_res (ein3 L.kjcb L.bj L.caki L.ai Q.g_abab_oaoavava Q.t1_bb Q.t2_abab),
    aug1 X.singles_res (ein3 L.kjbc L.bj L.caik L.ai Q.g_bbbb_oaoavava Q.t1_bb Q.t2_bbbb),
    aug1 X.singles_res (ein3 L.kjcb L.bi L.cakj L.ai Q.g_abab_oaoavava Q.t1_bb Q.t2_abab),
    aug1 X.singles_res (ein3 L.jkcb L.bi L.cajk L.ai Q.g_abab_oaoavava Q.t1_bb Q.t2_abab),
    aug1 X.singles_res (ein3 L.kjbc L.bi L.cakj L.ai Q.g_bbbb_oaoavava Q.t1_bb Q.t2_bbbb),
    aug1 X.singles_res (ein3 L.kjbc L.aj L.bcki L.ai Q.g_abab_oaoavava Q.t1_bb Q.t2_abab),
    aug1 X.singles_res (ein3 L.kjcb L.aj L.cbki L.ai Q.g_abab_oaoavava Q.t1_bb Q.t2_abab),
    aug1 X.singles_res (ein3 L.kjbc L.aj L.bcik L.ai Q.g_bbbb_oaoavava Q.t1_bb Q.t2_bbbb),
    aug1 X.singles_res (ein3 L.jkbi L.bj L.ak L.ai Q.g_abab_oaoavaoa Q.t1_aa Q.t1_bb),
    aug1 X.singles_res (ein3 L.kjbi L.bj L.ak L.ai Q.g_bbbb_oaoavaoa Q.t1_bb Q.t1_bb),
    aug1 X.singles_res (ein3 L.jabc L.bj L.ci L.ai Q.g_abab_oavavava Q.t1_aa Q.t1_bb),
    aug1 X.singles_res (ein3 L.jabc L.bj L.ci L.ai Q.g_bbbb_oavavava Q.t1_bb Q.t1_bb),
    aug1 X.singles_res (ein4 L.jkbc L.bj L.ci L.ak L.ai Q.g_abab_oaoavava Q.t1_aa Q.t1_bb Q.t1_bb),
    aug1 X.singles_res (ein4 L.kjbc L.bj L.ci L.ak L.ai Q.g_bbbb_oaoavava Q.t1_bb Q.t1_bb Q.t1_bb)]
  ret := [Q.singles_res]

/-- `fullCCresidEqns.py` 420-674: `ccsdt_t2_aaaa_residual`; 131 einsum calls. -/
def fullCCresidEqns_ccsdt_t2_aaaa_residual : Fn where
  params := [X.f_aa, X.t2_aaaa, X.t3_aaaaaa, X.f_bb, X.t3_aabaab, X.t1_aa, X.g_aaaa, X.g_abab, X.t2_abab, X.t1_bb, X.g_bbbb]
  body := [
    set1 X.contracted_intermediate (ein2 L.kj L.abik L.abij Q.f_aa_oaoa Q.t2_aaaa),
    .set X.doubles_res [.arg Q.contracted_intermediate, ein1 L.abij L.abji Q.contracted_intermediate],
    set1 X.contracted_intermediate (ein2 L.ac L.cbij L.abij Q.f_aa_vava Q.t2_aaaa),
    .aug X.doubles_res [.arg Q.contracted_intermediate, ein1 L.abij L.baij Q.contracted_intermediate],
    aug1 X.doubles_res (ein2 L.kc L.cabijk L.abij Q.f_aa_oava Q.t3_aaaaaa),
    aug1 X.doubles_res (ein2 L.kc L.bacijk L.abij Q.f_bb_oava Q.t3_aabaab),
    set1 X.contracted_intermediate (ein3 L.kc L.cj L.abik L.abij Q.f_aa_oava Q.t1_aa Q.t2_aaaa),
    .aug X.doubles_res [.arg Q.contracted_intermediate, ein1 L.abij L.abji Q.contracted_intermediate],
    set1 X.contracted_intermediate (ein3 L.kc L.ak L.cbij L.abij Q.f_aa_oava Q.t1_aa Q.t2_aaaa),
    .aug X.doubles_res [.arg Q.contracted_intermediate, ein1 L.abij L.baij Q.contracted_intermediate],
    aug1 X.doubles_res (ein1 L.abij L.abij Q.g_aaaa_vavaoaoa),
    set1 X.contracted_intermediate (ein2 L.kaij L.bk L.abij Q.g_aaaa_oavaoaoa Q.t1_aa),
    .aug X.doubles_res [.arg Q.contracted_intermediate, ein1 L.abij L.baij Q.contracted_intermediate],
    set1 X.contracted_intermediate (ein2 L.abcj L.ci L.abij Q.g_aaaa_vavavaoa Q.t1_aa),
    .aug X.doubles_res [.arg Q.contracted_intermediate, ein1 L.abij L.abji Q.contracted_intermediate],
    aug1 X.doubles_res (ein2 L.lkij L.ablk L.abij Q.g_aaaa_oaoaoaoa Q.t2_aaaa),
    set1 X.contracted_intermediate (ein2 L.kacj L.cbik L.abij Q.g_aaaa_oavavaoa Q.t2_aaaa),
    .aug X.doubles_res [.arg Q.contracted_intermediate, ein1 L.abij L.abji Q.contracted_intermediate, ein1 L.abij L.baij Q.contracted_intermediate, ein1 L.abij L.baji Q.contracted_intermediate],
    set1 X.contracted_intermediate (ein2 L.akjc L.bcik L.abij Q.g_abab_vaoaoava Q.t2_abab),
    .aug X.doubles_res [.arg Q.contracted_intermediate, ein1 L.abij L.abji Q.contracted_intermediate, ein1 L.abij L.baij Q.contracted_intermediate, ein1 L.abij L.baji Q.contracted_intermediate],
    aug1 X.doubles_res (ein2 L.abcd L.cdij L.abij Q.g_aaaa_vavavava Q.t2_aaaa),
    set1 X.contracted_intermediate (ein2 L.lkcj L.cabilk L.abij Q.g_aaaa_oaoavaoa Q.t3_aaaaaa),
    .aug X.doubles_res [.arg Q.contracted_intermediate, ein1 L.abij L.abji Q.contracted_intermediate],
    set1 X.contracted_intermediate (ein2 L.lkjc L.bacilk L.abij Q.g_abab_oaoaoava Q.t3_aabaab),
    .aug X.doubles_res [.arg Q.contracted_intermediate, ein1 L.abij L.abji Q.contracted_intermediate],
    set1 X.contracted_intermediate (ein2 L.kljc L.bacikl L.abij Q.g_abab_oaoaoava Q.t3_aabaab),
    .aug X.doubles_res [.arg Q.contracted_intermediate, ein1 L.abij L.abji Q.contracted_intermediate],
    set1 X.contracted_intermediate (ein2 L.kacd L.cdbijk L.abij Q.g_aaaa_oavavava Q.t3_aaaaaa),
    .aug X.doubles_res [.arg Q.contracted_intermediate, ein1 L.abij L.baij Q.contracted_intermediate],
    set1 X.contracted_intermediate (ein2 L.akcd L.cbdijk L.abij Q.g_abab_vaoavava Q.t3_aabaab),
    .aug X.doubles_res [.arg Q.contracted_intermediate, ein1 L.abij L.baij Q.contracted_intermediate],
    set1 X.contracted_intermediate (ein2 L.akdc L.bdcijk L.abij Q.g_abab_vaoavava Q.t3_aabaab),
    .aug X.doubles_res [.arg Q.contracted_intermediate, ein1 L.abij L.baij Q.contracted_intermediate],
    set1 X.contracted_intermediate (ein3 L.lkcj L.ck L.abil L.abij Q.g_aaaa_oaoavaoa Q.t1_aa Q.t2_aaaa),
    .aug X.doubles_res [.arg Q.contracted_intermediate, ein1 L.abij L.abji Q.contracted_intermediate],
    set1 X.contracted_intermediate (ein3 L.lkjc L.ck L.abil L.abij Q.g_abab_oaoaoava Q.t1_bb Q.t2_aaaa),
    .aug X.doubles_res [.arg Q.contracted_intermediate, ein1 L.abij L.abji Q.contracted_intermediate],
    set1 X.contracted_intermediate (ein3 L.lkcj L.ci L.ablk L.abij Q.g_aaaa_oaoavaoa Q.t1_aa Q.t2_aaaa),
    .aug X.doubles_res [.arg Q.contracted_intermediate, ein1 L.abij L.abji Q.contracted_intermediate],
    set1 X.contracted_intermediate (ein3 L.lkcj L.ak L.cbil L.abij Q.g_aaaa_oaoavaoa Q.t1_aa Q.t2_aaaa),
    .aug X.doubles_res [.arg Q.contracted_intermediate, ein1 L.abij L.abji Q.contracted_intermediate, ein1 L.abij L.baij Q.contracted_intermediate, ein1 L.abij L.baji Q.contracted_intermediate],
    set1 X.contracted_intermediate (ein3 L.kljc L.ak L.bcil L.abij Q.g_abab_oaoaoava Q.t1_aa Q.t2_abab),
    .aug X.doubles_res [.arg Q.contracted_intermediate, ein1 L.abij L.abji Q.contracted_intermediate, ein1 L.abij L.baij Q.contracted_intermediate, ein1 L.abij L.baji Q.contracted_intermediate],
    set1 X.contracted_intermediate (ein3 L.kacd L.ck L.dbij L.abij Q.g_aaaa_oavavava Q.t1_aa Q.t2_aaaa),
    .aug X.doubles_res [.arg Q.contracted_intermediate, ein1 L.abij L.baij Q.contracted_intermediate],
    set1 X.contracted_intermediate (ein3 L.akdc L.ck L.dbij L.abij Q.g_abab_vaoavava Q.t1_bb Q.t2_aaaa),
    .aug X.doubles_res [.arg Q.contracted_intermediate, ein1 L.abij L.baij Q.contracted_intermediate],
    set1 X.contracted_intermediate (ein3 L.kacd L.cj L.dbik L.abij Q.g_aaaa_oavavava Q.t1_aa Q.t2_aaaa),
    .aug X.doubles_res [.arg Q.contracted_intermediate, ein1 L.abij L.abji Q.contracted_intermediate, ein1 L.abij L.baij Q.contracted_intermediate, ein1 L.abij L.baji Q.contracted_intermediate],
    set1 X.contracted_intermediate (ein3 L.akcd L.cj L.bdik L.abij Q.g_abab_vaoavava Q.t1_aa Q.t2_abab),
    .aug X.doubles_res [.arg Q.contracted_intermediate, ein1 L.abij L.abji Q.contracted_intermediate, ein1 L.abij L.baij Q.contracted_intermediate, ein1 L.abij L.baji Q.contracted_intermediate],
    set1 X.contracted_intermediate (ein3 L.kacd L.bk L.cdij L.abij Q.g_aaaa_oavavava Q.t1_aa Q.t2_aaaa),
    .aug X.doubles_res [.arg Q.contracted_intermediate, ein1 L.abij L.baij Q.contracted_intermediate],
    aug1 X.doubles_res (ein3 L.lkcd L.ck L.dabijl L.abij Q.g_aaaa_oaoavava Q.t1_aa Q.t3_aaaaaa),
    aug1 X.doubles_res (ein3 L.klcd L.ck L.badijl L.abij Q.g_abab_oaoavava Q.t1_aa Q.t3_aabaab),
    aug1 X.doubles_res (ein3 L.lkdc L.ck L.dabijl L.abij Q.g_abab_oaoavava Q.t1_bb Q.t3_aaaaaa),
    aug1 X.doubles_res (ein3 L.lkcd L.ck L.badijl L.abij Q.g_bbbb_oaoavava Q.t1_bb Q.t3_aabaab),
    set1 X.contracted_intermediate (ein3 L.lkcd L.cj L.dabilk L.abij Q.g_aaaa_oaoavava Q.t1_aa Q.t3_aaaaaa),
    .aug X.doubles_res [.arg Q.contracted_intermediate, ein1 L.abij L.abji Q.contracted_intermediate],
    set1 X.contracted_intermediate (ein3 L.lkcd L.cj L.badilk L.abij Q.g_abab_oaoavava Q.t1_aa Q.t3_aabaab),
    .aug X.doubles_res [.arg Q.contracted_intermediate, ein1 L.abij L.abji Q.contracted_intermediate],
    set1 X.contracted_intermediate (ein3 L.klcd L.cj L.badikl L.abij Q.g_abab_oaoavava Q.t1_aa Q.t3_aabaab),
    .aug X.doubles_res [.arg Q.contracted_intermediate, ein1 L.abij L.abji Q.contracted_intermediate],
    set1 X.contracted_intermediate (ein3 L.lkcd L.ak L.cdbijl L.abij Q.g_aaaa_oaoavava Q.t1_aa Q.t3_aaaaaa),
    .aug X.doubles_res [.arg Q.contracted_intermediate, ein1 L.abij L.baij Q.contracted_intermediate],
    set1 X.contracted_intermediate (ein3 L.klcd L.ak L.cbdijl L.abij Q.g_abab_oaoavava Q.t1_aa Q.t3_aabaab),
    .aug X.doubles_res [.arg Q.contracted_intermediate, ein1 L.abij L.baij Q.contracted_intermediate],
    set1 X.contracted_intermediate (ein3 L.kldc L.ak L.bdcijl L.abij Q.g_abab_oaoavava Q.t1_aa Q.t3_aabaab),
    .aug X.doubles_res [.arg Q.contracted_intermediate, ein1 L.abij L.baij Q.contracted_intermediate],
    aug1 X.doubles_res (ein3 L.lkij L.ak L.bl L.abij Q.g_aaaa_oaoaoaoa Q.t1_aa Q.t1_aa),
    set1 X.contracted_intermediate (ein3 L.kacj L.ci L.bk L.abij Q.g_aaaa_oavavaoa Q.t1_aa Q.t1_aa),
    .aug X.doubles_res [.arg Q.contracted_intermediate, ein1 L.abij L.abji Q.contracted_intermediate, ein1 L.abij L.baij Q.contracted_intermediate, ein1 L.abij L.baji Q.contracted_intermediate],
    aug1 X.doubles_res (ein3 L.abcd L.cj L.di L.abij Q.g_aaaa_vavavava Q.t1_aa Q.t1_aa),
    set1 X.contracted_intermediate (ein3 L.lkcd L.cdjk L.abil L.abij Q.g_aaaa_oaoavava Q.t2_aaaa Q.t2_aaaa),
    .aug X.doubles_res [.arg Q.contracted_intermediate, ein1 L.abij L.abji Q.contracted_intermediate],
    set1 X.contracted_intermediate (ein3 L.lkcd L.cdjk L.abil L.abij Q.g_abab_oaoavava Q.t2_abab Q.t2_aaaa),
    .aug X.doubles_res [.arg Q.contracted_intermediate, ein1 L.abij L.abji Q.contracted_intermediate],
    set1 X.contracted_intermediate (ein3 L.lkdc L.dcjk L.abil L.abij Q.g_abab_oaoavava Q.t2_abab Q.t2_aaaa),
    .aug X.doubles_res [.arg Q.contracted_intermediate, ein1 L.abij L.abji Q.contracted_intermediate],
    aug1 X.doubles_res (ein3 L.lkcd L.cdij L.ablk L.abij Q.g_aaaa_oaoavava Q.t2_aaaa Q.t2_aaaa),
    aug1 X.doubles_res (ein3 L.lkcd L.calk L.dbij L.abij Q.g_aaaa_oaoavava Q.t2_aaaa Q.t2_aaaa),
    aug1 X.doubles_res (ein3 L.lkdc L.aclk L.dbij L.abij Q.g_abab_oaoavava Q.t2_abab Q.t2_aaaa),
    aug1 X.doubles_res (ein3 L.kldc L.ackl L.dbij L.abij Q.g_abab_oaoavava Q.t2_abab Q.t2_aaaa),
    set1 X.contracted_intermediate (ein3 L.lkcd L.cajk L.dbil L.abij Q.g_aaaa_oaoavava Q.t2_aaaa Q.t2_aaaa),
    .aug X.doubles_res [.arg Q.contracted_intermediate, ein1 L.abij L.abji Q.contracted_intermediate],
    set1 X.contracted_intermediate (ein3 L.klcd L.cajk L.bdil L.abij Q.g_abab_oaoavava Q.t2_aaaa Q.t2_abab),
    .aug X.doubles_res [.arg Q.contracted_intermediate, ein1 L.abij L.abji Q.contracted_intermediate],
    set1 X.contracted_intermediate (ein3 L.lkdc L.acjk L.dbil L.abij Q.g_abab_oaoavava Q.t2_abab Q.t2_aaaa),
    .aug X.doubles_res [.arg Q.contracted_intermediate, ein1 L.abij L.abji Q.contracted_intermediate],
    set1 X.contracted_intermediate (ein3 L.lkcd L.acjk L.bdil L.abij Q.g_bbbb_oaoavava Q.t2_abab Q.t2_abab),
    .aug X.doubles_res [.arg Q.contracted_intermediate, ein1 L.abij L.abji Q.contracted_intermediate],
    aug1 X.doubles_res (ein3 L.lkcd L.caij L.dblk L.abij Q.g_aaaa_oaoavava Q.t2_aaaa Q.t2_aaaa),
    aug1 X.doubles_res (ein3 L.lkcd L.caij L.bdlk L.abij Q.g_abab_oaoavava Q.t2_aaaa Q.t2_abab),
    aug1 X.doubles_res (ein3 L.klcd L.caij L.bdkl L.abij Q.g_abab_oaoavava Q.t2_aaaa Q.t2_abab),
    set1 X.contracted_intermediate (ein4 L.lkcd L.ck L.dj L.abil L.abij Q.g_aaaa_oaoavava Q.t1_aa Q.t1_aa Q.t2_aaaa),
    .aug X.doubles_res [.arg Q.contracted_intermediate, ein1 L.abij L.abji Q.contracted_intermediate],
    set1 X.contracted_intermediate (ein4 L.lkdc L.ck L.dj L.abil L.abij Q.g_abab_oaoavava Q.t1_bb Q.t1_aa Q.t2_aaaa),
    .aug X.doubles_res [.arg Q.contracted_intermediate, ein1 L.abij L.abji Q.contracted_intermediate],
    set1 X.contracted_intermediate (ein4 L.lkcd L.ck L.al L.dbij L.abij Q.g_aaaa_oaoavava Q.t1_aa Q.t1_aa Q.t2_aaaa),
    .aug X.doubles_res [.arg Q.contracted_intermediate, ein1 L.abij L.baij Q.contracted_intermediate],
    set1 X.contracted_intermediate (ein4 L.lkdc L.ck L.al L.dbij L.abij Q.g_abab_oaoavava Q.t1_bb Q.t1_aa Q.t2_aaaa),
    .aug X.doubles_res [.arg Q.contracted_intermediate, ein1 L.abij L.baij Q.contracted_intermediate],
    aug1 X.doubles_res (ein4 L.lkcd L.cj L.di L.ablk L.abij Q.g_aaaa_oaoavava Q.t1_aa Q.t1_aa Q.t2_aaaa),
    set1 X.contracted_intermediate (ein4 L.lkcd L.cj L.ak L.dbil L.abij Q.g_aaaa_oaoavava Q.t1_aa Q.t1_aa Q.t2_aaaa),
    .aug X.doubles_res [.arg Q.contracted_intermediate, ein1 L.abij L.abji Q.contracted_intermediate, ein1 L.abij L.baij Q.contracted_intermediate, ein1 L.abij L.baji Q.contracted_intermediate],
    set1 X.contracted_intermediate (ein4 L.klcd L.cj L.ak L.bdil L.abij Q.g_abab_oaoavava Q.t1_aa Q.t1_aa Q.t2_abab),
    .aug X.doubles_res [.arg Q.contracted_intermediate, ein1 L.abij L.abji Q.contracted_intermediate, ein1 L.abij L.baij Q.contracted_intermediate, ein1 L.abij L.baji Q.contracted_intermediate],
    aug1 X.doubles_res (ein4 L.lkcd L.ak L.bl L.cdij L.abij Q.g_aaaa_oaoavava Q.t1_aa Q.t1_aa Q.t2_aaaa),
    set1 X.contracted_intermediate (ein4 L.lkcj L.ci L.ak L.bl L.abij Q.g_aaaa_oaoavaoa Q.t1_aa Q.t1_aa Q.t1_aa),
    .aug X.doubles_res [.arg Q.contracted_intermediate, ein1 L.abij L.abji Q.contracted_intermediate],
    set1 X.contracted_intermediate (ein4 L.kacd L.cj L.di L.bk L.abij Q.g_aaaa_oavavava Q.t1_aa Q.t1_aa Q.t1_aa),
    .aug X.doubles_res [.arg Q.contracted_intermediate, ein1 L.abij L.baij Q.contracted_intermediate],
    aug1 X.doubles_res (ein5 L.lkcd L.cj L.di L.ak L.bl L.abij Q.g_aaaa_oaoavava Q.t1_aa Q.t1_aa Q.t1_aa Q.t1_aa)]
  ret := [Q.doubles_res]

/-- `fullCCresidEqns.py` 677-931: `ccsdt_t2_bbbb_residual`; 131 einsum calls. -/
def fullCCresidEqns_ccsdt_t2_bbbb_residual : Fn where
  params := [X.f_bb, X.t2_bbbb, X.f_aa, X.t3_abbabb, X.t3_bbbbbb, X.t1_bb, X.g_bbbb, X.g_abab, X.t2_abab, X.t1_aa, X.g_aaaa]
  body := [
    set1 X.contracted_intermediate (ein2 L.kj L.abik L.abij Q.f_bb_oaoa Q.t2_bbbb),
    .set X.doubles_res [.arg Q.contracted_intermediate, ein1 L.abij L.abji Q.contracted_intermediate],
    set1 X.contracted_intermediate (ein2 L.ac L.cbij L.abij Q.f_bb_vava Q.t2_bbbb),
    .aug X.doubles_res [.arg Q.contracted_intermediate, ein1 L.abij L.baij Q.contracted_intermediate],
    aug1 X.doubles_res (ein2 L.kc L.cabkji L.abij Q.f_aa_oava Q.t3_abbabb),
    aug1 X.doubles_res (ein2 L.kc L.cabijk L.abij Q.f_bb_oava Q.t3_bbbbbb),
    set1 X.contracted_intermediate (ein3 L.kc L.cj L.abik L.abij Q.f_bb_oava Q.t1_bb Q.t2_bbbb),
    .aug X.doubles_res [.arg Q.contracted_intermediate, ein1 L.abij L.abji Q.contracted_intermediate],
    set1 X.contracted_intermediate (ein3 L.kc L.ak L.cbij L.abij Q.f_bb_oava Q.t1_bb Q.t2_bbbb),
    .aug X.doubles_res [.arg Q.contracted_intermediate, ein1 L.abij L.baij Q.contracted_intermediate],
    aug1 X.doubles_res (ein1 L.abij L.abij Q.g_bbbb_vavaoaoa),
    set1 X.contracted_intermediate (ein2 L.kaij L.bk L.abij Q.g_bbbb_oavaoaoa Q.t1_bb),
    .aug X.doubles_res [.arg Q.contracted_intermediate, ein1 L.abij L.baij Q.contracted_intermediate],
    set1 X.contracted_intermediate (ein2 L.abcj L.ci L.abij Q.g_bbbb_vavavaoa Q.t1_bb),
    .aug X.doubles_res [.arg Q.contracted_intermediate, ein1 L.abij L.abji Q.contracted_intermediate],
    aug1 X.doubles_res (ein2 L.lkij L.ablk L.abij Q.g_bbbb_oaoaoaoa Q.t2_bbbb),
    set1 X.contracted_intermediate (ein2 L.kacj L.cbki L.abij Q.g_abab_oavavaoa Q.t2_abab),
    .aug X.doubles_res [.arg Q.contracted_intermediate, ein1 L.abij L.abji Q.contracted_intermediate, ein1 L.abij L.baij Q.contracted_intermediate, ein1 L.abij L.baji Q.contracted_intermediate],
    set1 X.contracted_intermediate (ein2 L.kacj L.cbik L.abij Q.g_bbbb_oavavaoa Q.t2_bbbb),
    .aug X.doubles_res [.arg Q.contracted_intermediate, ein1 L.abij L.abji Q.contracted_intermediate, ein1 L.abij L.baij Q.contracted_intermediate, ein1 L.abij L.baji Q.contracted_intermediate],
    aug1 X.doubles_res (ein2 L.abcd L.cdij L.abij Q.g_bbbb_vavavava Q.t2_bbbb),
    set1 X.contracted_intermediate (ein2 L.lkcj L.cablik L.abij Q.g_abab_oaoavaoa Q.t3_abbabb),
    .aug X.doubles_res [.arg Q.contracted_intermediate, ein1 L.abij L.abji Q.contracted_intermediate],
    set1 X.contracted_intermediate (ein2 L.klcj L.cabkli L.abij Q.g_abab_oaoavaoa Q.t3_abbabb),
    .aug X.doubles_res [.arg Q.contracted_intermediate, ein1 L.abij L.abji Q.contracted_intermediate],
    set1 X.contracted_intermediate (ein2 L.lkcj L.cabilk L.abij Q.g_bbbb_oaoavaoa Q.t3_bbbbbb),
    .aug X.doubles_res [.arg Q.contracted_intermediate, ein1 L.abij L.abji Q.contracted_intermediate],
    set1 X.contracted_intermediate (ein2 L.kacd L.cdbkji L.abij Q.g_abab_oavavava Q.t3_abbabb),
    .aug X.doubles_res [.arg Q.contracted_intermediate, ein1 L.abij L.baij Q.contracted_intermediate],
    set1 X.contracted_intermediate (ein2 L.kadc L.dcbkji L.abij Q.g_abab_oavavava Q.t3_abbabb),
    .aug X.doubles_res [.arg Q.contracted_intermediate, ein1 L.abij L.baij Q.contracted_intermediate],
    set1 X.contracted_intermediate (ein2 L.kacd L.cdbijk L.abij Q.g_bbbb_oavavava Q.t3_bbbbbb),
    .aug X.doubles_res [.arg Q.contracted_intermediate, ein1 L.abij L.baij Q.contracted_intermediate],
    set1 X.contracted_intermediate (ein3 L.klcj L.ck L.abil L.abij Q.g_abab_oaoavaoa Q.t1_aa Q.t2_bbbb),
    .aug X.doubles_res [.arg Q.contracted_intermediate, ein1 L.abij L.abji Q.contracted_intermediate],
    set1 X.contracted_intermediate (ein3 L.lkcj L.ck L.abil L.abij Q.g_bbbb_oaoavaoa Q.t1_bb Q.t2_bbbb),
    .aug X.doubles_res [.arg Q.contracted_intermediate, ein1 L.abij L.abji Q.contracted_intermediate],
    set1 X.contracted_intermediate (ein3 L.lkcj L.ci L.ablk L.abij Q.g_bbbb_oaoavaoa Q.t1_bb Q.t2_bbbb),
    .aug X.doubles_res [.arg Q.contracted_intermediate, ein1 L.abij L.abji Q.contracted_intermediate],
    set1 X.contracted_intermediate (ein3 L.lkcj L.ak L.cbli L.abij Q.g_abab_oaoavaoa Q.t1_bb Q.t2_abab),
    .aug X.doubles_res [.arg Q.contracted_intermediate, ein1 L.abij L.abji Q.contracted_intermediate, ein1 L.abij L.baij Q.contracted_intermediate, ein1 L.abij L.baji Q.contracted_intermediate],
    set1 X.contracted_intermediate (ein3 L.lkcj L.ak L.cbil L.abij Q.g_bbbb_oaoavaoa Q.t1_bb Q.t2_bbbb),
    .aug X.doubles_res [.arg Q.contracted_intermediate, ein1 L.abij L.abji Q.contracted_intermediate, ein1 L.abij L.baij Q.contracted_intermediate, ein1 L.abij L.baji Q.contracted_intermediate],
    set1 X.contracted_intermediate (ein3 L.kacd L.ck L.dbij L.abij Q.g_abab_oavavava Q.t1_aa Q.t2_bbbb),
    .aug X.doubles_res [.arg Q.contracted_intermediate, ein1 L.abij L.baij Q.contracted_intermediate],
    set1 X.contracted_intermediate (ein3 L.kacd L.ck L.dbij L.abij Q.g_bbbb_oavavava Q.t1_bb Q.t2_bbbb),
    .aug X.doubles_res [.arg Q.contracted_intermediate, ein1 L.abij L.baij Q.contracted_intermediate],
    set1 X.contracted_intermediate (ein3 L.kadc L.cj L.dbki L.abij Q.g_abab_oavavava Q.t1_bb Q.t2_abab),
    .aug X.doubles_res [.arg Q.contracted_intermediate, ein1 L.abij L.abji Q.contracted_intermediate, ein1 L.abij L.baij Q.contracted_intermediate, ein1 L.abij L.baji Q.contracted_intermediate],
    set1 X.contracted_intermediate (ein3 L.kacd L.cj L.dbik L.abij Q.g_bbbb_oavavava Q.t1_bb Q.t2_bbbb),
    .aug X.doubles_res [.arg Q.contracted_intermediate, ein1 L.abij L.abji Q.contracted_intermediate, ein1 L.abij L.baij Q.contracted_intermediate, ein1 L.abij L.baji Q.contracted_intermediate],
    set1 X.contracted_intermediate (ein3 L.kacd L.bk L.cdij L.abij Q.g_bbbb_oavavava Q.t1_bb Q.t2_bbbb),
    .aug X.doubles_res [.arg Q.contracted_intermediate, ein1 L.abij L.baij Q.contracted_intermediate],
    aug1 X.doubles_res (ein3 L.lkcd L.ck L.dablji L.abij Q.g_aaaa_oaoavava Q.t1_aa Q.t3_abbabb),
    aug1 X.doubles_res (ein3 L.klcd L.ck L.dabijl L.abij Q.g_abab_oaoavava Q.t1_aa Q.t3_bbbbbb),
    aug1 X.doubles_res (ein3 L.lkdc L.ck L.dablji L.abij Q.g_abab_oaoavava Q.t1_bb Q.t3_abbabb),
    aug1 X.doubles_res (ein3 L.lkcd L.ck L.dabijl L.abij Q.g_bbbb_oaoavava Q.t1_bb Q.t3_bbbbbb),
    set1 X.contracted_intermediate (ein3 L.lkdc L.cj L.dablik L.abij Q.g_abab_oaoavava Q.t1_bb Q.t3_abbabb),
    .aug X.doubles_res [.arg Q.contracted_intermediate, ein1 L.abij L.abji Q.contracted_intermediate],
    set1 X.contracted_intermediate (ein3 L.kldc L.cj L.dabkli L.abij Q.g_abab_oaoavava Q.t1_bb Q.t3_abbabb),
    .aug X.doubles_res [.arg Q.contracted_intermediate, ein1 L.abij L.abji Q.contracted_intermediate],
    set1 X.contracted_intermediate (ein3 L.lkcd L.cj L.dabilk L.abij Q.g_bbbb_oaoavava Q.t1_bb Q.t3_bbbbbb),
    .aug X.doubles_res [.arg Q.contracted_intermediate, ein1 L.abij L.abji Q.contracted_intermediate],
    set1 X.contracted_intermediate (ein3 L.lkcd L.ak L.cdblji L.abij Q.g_abab_oaoavava Q.t1_bb Q.t3_abbabb),
    .aug X.doubles_res [.arg Q.contracted_intermediate, ein1 L.abij L.baij Q.contracted_intermediate],
    set1 X.contracted_intermediate (ein3 L.lkdc L.ak L.dcblji L.abij Q.g_abab_oaoavava Q.t1_bb Q.t3_abbabb),
    .aug X.doubles_res [.arg Q.contracted_intermediate, ein1 L.abij L.baij Q.contracted_intermediate],
    set1 X.contracted_intermediate (ein3 L.lkcd L.ak L.cdbijl L.abij Q.g_bbbb_oaoavava Q.t1_bb Q.t3_bbbbbb),
    .aug X.doubles_res [.arg Q.contracted_intermediate, ein1 L.abij L.baij Q.contracted_intermediate],
    aug1 X.doubles_res (ein3 L.lkij L.ak L.bl L.abij Q.g_bbbb_oaoaoaoa Q.t1_bb Q.t1_bb),
    set1 X.contracted_intermediate (ein3 L.kacj L.ci L.bk L.abij Q.g_bbbb_oavavaoa Q.t1_bb Q.t1_bb),
    .aug X.doubles_res [.arg Q.contracted_intermediate, ein1 L.abij L.abji Q.contracted_intermediate, ein1 L.abij L.baij Q.contracted_intermediate, ein1 L.abij L.baji Q.contracted_intermediate],
    aug1 X.doubles_res (ein3 L.abcd L.cj L.di L.abij Q.g_bbbb_vavavava Q.t1_bb Q.t1_bb),
    set1 X.contracted_intermediate (ein3 L.klcd L.cdkj L.abil L.abij Q.g_abab_oaoavava Q.t2_abab Q.t2_bbbb),
    .aug X.doubles_res [.arg Q.contracted_intermediate, ein1 L.abij L.abji Q.contracted_intermediate],
    set1 X.contracted_intermediate (ein3 L.kldc L.dckj L.abil L.abij Q.g_abab_oaoavava Q.t2_abab Q.t2_bbbb),
    .aug X.doubles_res [.arg Q.contracted_intermediate, ein1 L.abij L.abji Q.contracted_intermediate],
    set1 X.contracted_intermediate (ein3 L.lkcd L.cdjk L.abil L.abij Q.g_bbbb_oaoavava Q.t2_bbbb Q.t2_bbbb),
    .aug X.doubles_res [.arg Q.contracted_intermediate, ein1 L.abij L.abji Q.contracted_intermediate],
    aug1 X.doubles_res (ein3 L.lkcd L.cdij L.ablk L.abij Q.g_bbbb_oaoavava Q.t2_bbbb Q.t2_bbbb),
    aug1 X.doubles_res (ein3 L.lkcd L.calk L.dbij L.abij Q.g_abab_oaoavava Q.t2_abab Q.t2_bbbb),
    aug1 X.doubles_res (ein3 L.klcd L.cakl L.dbij L.abij Q.g_abab_oaoavava Q.t2_abab Q.t2_bbbb),
    aug1 X.doubles_res (ein3 L.lkcd L.calk L.dbij L.abij Q.g_bbbb_oaoavava Q.t2_bbbb Q.t2_bbbb),
    set1 X.contracted_intermediate (ein3 L.lkcd L.cakj L.dbli L.abij Q.g_aaaa_oaoavava Q.t2_abab Q.t2_abab),
    .aug X.doubles_res [.arg Q.contracted_intermediate, ein1 L.abij L.abji Q.contracted_intermediate],
    set1 X.contracted_intermediate (ein3 L.klcd L.cakj L.dbil L.abij Q.g_abab_oaoavava Q.t2_abab Q.t2_bbbb),
    .aug X.doubles_res [.arg Q.contracted_intermediate, ein1 L.abij L.abji Q.contracted_intermediate],
    set1 X.contracted_intermediate (ein3 L.lkdc L.cajk L.dbli L.abij Q.g_abab_oaoavava Q.t2_bbbb Q.t2_abab),
    .aug X.doubles_res [.arg Q.contracted_intermediate, ein1 L.abij L.abji Q.contracted_intermediate],
    set1 X.contracted_intermediate (ein3 L.lkcd L.cajk L.dbil L.abij Q.g_bbbb_oaoavava Q.t2_bbbb Q.t2_bbbb),
    .aug X.doubles_res [.arg Q.contracted_intermediate, ein1 L.abij L.abji Q.contracted_intermediate],
    aug1 X.doubles_res (ein3 L.lkdc L.caij L.dblk L.abij Q.g_abab_oaoavava Q.t2_bbbb Q.t2_abab),
    aug1 X.doubles_res (ein3 L.kldc L.caij L.dbkl L.abij Q.g_abab_oaoavava Q.t2_bbbb Q.t2_abab),
    aug1 X.doubles_res (ein3 L.lkcd L.caij L.dblk L.abij Q.g_bbbb_oaoavava Q.t2_bbbb Q.t2_bbbb),
    set1 X.contracted_intermediate (ein4 L.klcd L.ck L.dj L.abil L.abij Q.g_abab_oaoavava Q.t1_aa Q.t1_bb Q.t2_bbbb),
    .aug X.doubles_res [.arg Q.contracted_intermediate, ein1 L.abij L.abji Q.contracted_intermediate],
    set1 X.contracted_intermediate (ein4 L.lkcd L.ck L.dj L.abil L.abij Q.g_bbbb_oaoavava Q.t1_bb Q.t1_bb Q.t2_bbbb),
    .aug X.doubles_res [.arg Q.contracted_intermediate, ein1 L.abij L.abji Q.contracted_intermediate],
    set1 X.contracted_intermediate (ein4 L.klcd L.ck L.al L.dbij L.abij Q.g_abab_oaoavava Q.t1_aa Q.t1_bb Q.t2_bbbb),
    .aug X.doubles_res [.arg Q.contracted_intermediate, ein1 L.abij L.baij Q.contracted_intermediate],
    set1 X.contracted_intermediate (ein4 L.lkcd L.ck L.al L.dbij L.abij Q.g_bbbb_oaoavava Q.t1_bb Q.t1_bb Q.t2_bbbb),
    .aug X.doubles_res [.arg Q.contracted_intermediate, ein1 L.abij L.baij Q.contracted_intermediate],
    aug1 X.doubles_res (ein4 L.lkcd L.cj L.di L.ablk L.abij Q.g_bbbb_oaoavava Q.t1_bb Q.t1_bb Q.t2_bbbb),
    set1 X.contracted_intermediate (ein4 L.lkdc L.cj L.ak L.dbli L.abij Q.g_abab_oaoavava Q.t1_bb Q.t1_bb Q.t2_abab),
    .aug X.doubles_res [.arg Q.contracted_intermediate, ein1 L.abij L.abji Q.contracted_intermediate, ein1 L.abij L.baij Q.contracted_intermediate, ein1 L.abij L.baji Q.contracted_intermediate],
    set1 X.contracted_intermediate (ein4 L.lkcd L.cj L.ak L.dbil L.abij Q.g_bbbb_oaoavava Q.t1_bb Q.t1_bb Q.t2_bbbb),
    .aug X.doubles_res [.arg Q.contracted_intermediate, ein1 L.abij L.abji Q.contracted_intermediate, ein1 L.abij L.baij Q.contracted_intermediate, ein1 L.abij L.baji Q.contracted_intermediate],
    aug1 X.doubles_res (ein4 L.lkcd L.ak L.bl L.cdij L.abij Q.g_bbbb_oaoavava Q.t1_bb Q.t1_bb Q.t2_bbbb),
    set1 X.contracted_intermediate (ein4 L.lkcj L.ci L.ak L.bl L.abij Q.g_bbbb_oaoavaoa Q.t1_bb Q.t1_bb Q.t1_bb),
    .aug X.doubles_res [.arg Q.contracted_intermediate, ein1 L.abij L.abji Q.contracted_intermediate],
    set1 X.contracted_intermediate (ein4 L.kacd L.cj L.di L.bk L.abij Q.g_bbbb_oavavava Q.t1_bb Q.t1_bb Q.t1_bb),
    .aug X.doubles_res [.arg Q.contracted_intermediate, ein1 L.abij L.baij Q.contracted_intermediate],
    aug1 X.doubles_res (ein5 L.lkcd L.cj L.di L.ak L.bl L.abij Q.g_bbbb_oaoavava Q.t1_bb Q.t1_bb Q.t1_bb Q.t1_bb)]
  ret := [Q.doubles_res]

/-- `fullCCresidEqns.py` 934-1334: `ccsdt_t2_abab_residual`; 131 einsum calls. -/
def fullCCresidEqns_ccsdt_t2_abab_residual : Fn where
  params := [X.f_bb, X.t2_abab, X.f_aa, X.t3_aabaab, X.t3_abbabb, X.t1_bb, X.t1_aa, X.g_abab, X.t2_aaaa, X.g_bbbb, X.g_aaaa, X.t2_bbbb]
  body := [
    set1 X.doubles_res (ein2 L.kj L.abik L.abij Q.f_bb_oaoa Q.t2_abab),
    aug1 X.doubles_res (ein2 L.ki L.abkj L.abij Q.f_aa_oaoa Q.t2_abab),
    aug1 X.doubles_res (ein2 L.ac L.cbij L.abij Q.f_aa_vava Q.t2_abab),
    aug1 X.doubles_res (ein2 L.bc L.acij L.abij Q.f_bb_vava Q.t2_abab),
    aug1 X.doubles_res (ein2 L.kc L.cabikj L.abij Q.f_aa_oava Q.t3_aabaab),
    aug1 X.doubles_res (ein2 L.kc L.acbijk L.abij Q.f_bb_oava Q.t3_abbabb),
    aug1 X.doubles_res (ein3 L.kc L.cj L.abik L.abij Q.f_bb_oava Q.t1_bb Q.t2_abab),
    aug1 X.doubles_res (ein3 L.kc L.ci L.abkj L.abij Q.f_aa_oava Q.t1_aa Q.t2_abab),
    aug1 X.doubles_res (ein3 L.kc L.ak L.cbij L.abij Q.f_aa_oava Q.t1_aa Q.t2_abab),
    aug1 X.doubles_res (ein3 L.kc L.bk L.acij L.abij Q.f_bb_oava Q.t1_bb Q.t2_abab),
    aug1 X.doubles_res (ein1 L.abij L.abij Q.g_abab_vavaoaoa),
    aug1 X.doubles_res (ein2 L.akij L.bk L.abij Q.g_abab_vaoaoaoa Q.t1_bb),
    aug1 X.doubles_res (ein2 L.kbij L.ak L.abij Q.g_abab_oavaoaoa Q.t1_aa),
    aug1 X.doubles_res (ein2 L.abcj L.ci L.abij Q.g_abab_vavavaoa Q.t1_aa),
    aug1 X.doubles_res (ein2 L.abic L.cj L.abij Q.g_abab_vavaoava Q.t1_bb),
    aug1 X.doubles_res (ein2 L.lkij L.ablk L.abij Q.g_abab_oaoaoaoa Q.t2_abab),
    aug1 X.doubles_res (ein2 L.klij L.abkl L.abij Q.g_abab_oaoaoaoa Q.t2_abab),
    aug1 X.doubles_res (ein2 L.akcj L.cbik L.abij Q.g_abab_vaoavaoa Q.t2_abab),
    aug1 X.doubles_res (ein2 L.kbcj L.caik L.abij Q.g_abab_oavavaoa Q.t2_aaaa),
    aug1 X.doubles_res (ein2 L.kbcj L.acik L.abij Q.g_bbbb_oavavaoa Q.t2_abab),
    aug1 X.doubles_res (ein2 L.kaci L.cbkj L.abij Q.g_aaaa_oavavaoa Q.t2_abab),
    aug1 X.doubles_res (ein2 L.akic L.cbjk L.abij Q.g_abab_vaoaoava Q.t2_bbbb),
    aug1 X.doubles_res (ein2 L.kbic L.ackj L.abij Q.g_abab_oavaoava Q.t2_abab),
    aug1 X.doubles_res (ein2 L.abcd L.cdij L.abij Q.g_abab_vavavava Q.t2_abab),
    aug1 X.doubles_res (ein2 L.abdc L.dcij L.abij Q.g_abab_vavavava Q.t2_abab),
    aug1 X.doubles_res (ein2 L.lkcj L.cabilk L.abij Q.g_abab_oaoavaoa Q.t3_aabaab),
    aug1 X.doubles_res (ein2 L.klcj L.cabikl L.abij Q.g_abab_oaoavaoa Q.t3_aabaab),
    aug1 X.doubles_res (ein2 L.lkcj L.acbilk L.abij Q.g_bbbb_oaoavaoa Q.t3_abbabb),
    aug1 X.doubles_res (ein2 L.lkci L.cabklj L.abij Q.g_aaaa_oaoavaoa Q.t3_aabaab),
    aug1 X.doubles_res (ein2 L.lkic L.acbljk L.abij Q.g_abab_oaoaoava Q.t3_abbabb),
    aug1 X.doubles_res (ein2 L.klic L.acbklj L.abij Q.g_abab_oaoaoava Q.t3_abbabb),
    aug1 X.doubles_res (ein2 L.kacd L.cdbikj L.abij Q.g_aaaa_oavavava Q.t3_aabaab),
    aug1 X.doubles_res (ein2 L.akcd L.cdbijk L.abij Q.g_abab_vaoavava Q.t3_abbabb),
    aug1 X.doubles_res (ein2 L.akdc L.dcbijk L.abij Q.g_abab_vaoavava Q.t3_abbabb),
    aug1 X.doubles_res (ein2 L.kbcd L.cadikj L.abij Q.g_abab_oavavava Q.t3_aabaab),
    aug1 X.doubles_res (ein2 L.kbdc L.adcikj L.abij Q.g_abab_oavavava Q.t3_aabaab),
    aug1 X.doubles_res (ein2 L.kbcd L.adcijk L.abij Q.g_bbbb_oavavava Q.t3_abbabb),
    aug1 X.doubles_res (ein3 L.klcj L.ck L.abil L.abij Q.g_abab_oaoavaoa Q.t1_aa Q.t2_abab),
    aug1 X.doubles_res (ein3 L.lkcj L.ck L.abil L.abij Q.g_bbbb_oaoavaoa Q.t1_bb Q.t2_abab),
    aug1 X.doubles_res (ein3 L.lkci L.ck L.ablj L.abij Q.g_aaaa_oaoavaoa Q.t1_aa Q.t2_abab),
    aug1 X.doubles_res (ein3 L.lkic L.ck L.ablj L.abij Q.g_abab_oaoaoava Q.t1_bb Q.t2_abab),
    aug1 X.doubles_res (ein3 L.lkcj L.ci L.ablk L.abij Q.g_abab_oaoavaoa Q.t1_aa Q.t2_abab),
    aug1 X.doubles_res (ein3 L.klcj L.ci L.abkl L.abij Q.g_abab_oaoavaoa Q.t1_aa Q.t2_abab),
    aug1 X.doubles_res (ein3 L.lkic L.cj L.ablk L.abij Q.g_abab_oaoaoava Q.t1_bb Q.t2_abab),
    aug1 X.doubles_res (ein3 L.klic L.cj L.abkl L.abij Q.g_abab_oaoaoava Q.t1_bb Q.t2_abab),
    aug1 X.doubles_res (ein3 L.klcj L.ak L.cbil L.abij Q.g_abab_oaoavaoa Q.t1_aa Q.t2_abab),
    aug1 X.doubles_res (ein3 L.lkcj L.bk L.cail L.abij Q.g_abab_oaoavaoa Q.t1_bb Q.t2_aaaa),
    aug1 X.doubles_res (ein3 L.lkcj L.bk L.acil L.abij Q.g_bbbb_oaoavaoa Q.t1_bb Q.t2_abab),
    aug1 X.doubles_res (ein3 L.lkci L.ak L.cblj L.abij Q.g_aaaa_oaoavaoa Q.t1_aa Q.t2_abab),
    aug1 X.doubles_res (ein3 L.klic L.ak L.cbjl L.abij Q.g_abab_oaoaoava Q.t1_aa Q.t2_bbbb),
    aug1 X.doubles_res (ein3 L.lkic L.bk L.aclj L.abij Q.g_abab_oaoaoava Q.t1_bb Q.t2_abab),
    aug1 X.doubles_res (ein3 L.kacd L.ck L.dbij L.abij Q.g_aaaa_oavavava Q.t1_aa Q.t2_abab),
    aug1 X.doubles_res (ein3 L.akdc L.ck L.dbij L.abij Q.g_abab_vaoavava Q.t1_bb Q.t2_abab),
    aug1 X.doubles_res (ein3 L.kbcd L.ck L.adij L.abij Q.g_abab_oavavava Q.t1_aa Q.t2_abab),
    aug1 X.doubles_res (ein3 L.kbcd L.ck L.adij L.abij Q.g_bbbb_oavavava Q.t1_bb Q.t2_abab),
    aug1 X.doubles_res (ein3 L.akdc L.cj L.dbik L.abij Q.g_abab_vaoavava Q.t1_bb Q.t2_abab),
    aug1 X.doubles_res (ein3 L.kbdc L.cj L.daik L.abij Q.g_abab_oavavava Q.t1_bb Q.t2_aaaa),
    aug1 X.doubles_res (ein3 L.kbcd L.cj L.adik L.abij Q.g_bbbb_oavavava Q.t1_bb Q.t2_abab),
    aug1 X.doubles_res (ein3 L.kacd L.ci L.dbkj L.abij Q.g_aaaa_oavavava Q.t1_aa Q.t2_abab),
    aug1 X.doubles_res (ein3 L.akcd L.ci L.dbjk L.abij Q.g_abab_vaoavava Q.t1_aa Q.t2_bbbb),
    aug1 X.doubles_res (ein3 L.kbcd L.ci L.adkj L.abij Q.g_abab_oavavava Q.t1_aa Q.t2_abab),
    aug1 X.doubles_res (ein3 L.akcd L.bk L.cdij L.abij Q.g_abab_vaoavava Q.t1_bb Q.t2_abab),
    aug1 X.doubles_res (ein3 L.akdc L.bk L.dcij L.abij Q.g_abab_vaoavava Q.t1_bb Q.t2_abab),
    aug1 X.doubles_res (ein3 L.kbcd L.ak L.cdij L.abij Q.g_abab_oavavava Q.t1_aa Q.t2_abab),
    aug1 X.doubles_res (ein3 L.kbdc L.ak L.dcij L.abij Q.g_abab_oavavava Q.t1_aa Q.t2_abab),
    aug1 X.doubles_res (ein3 L.lkcd L.ck L.dabilj L.abij Q.g_aaaa_oaoavava Q.t1_aa Q.t3_aabaab),
    aug1 X.doubles_res (ein3 L.klcd L.ck L.adbijl L.abij Q.g_abab_oaoavava Q.t1_aa Q.t3_abbabb),
    aug1 X.doubles_res (ein3 L.lkdc L.ck L.dabilj L.abij Q.g_abab_oaoavava Q.t1_bb Q.t3_aabaab),
    aug1 X.doubles_res (ein3 L.lkcd L.ck L.adbijl L.abij Q.g_bbbb_oaoavava Q.t1_bb Q.t3_abbabb),
    aug1 X.doubles_res (ein3 L.lkdc L.cj L.dabilk L.abij Q.g_abab_oaoavava Q.t1_bb Q.t3_aabaab),
    aug1 X.doubles_res (ein3 L.kldc L.cj L.dabikl L.abij Q.g_abab_oaoavava Q.t1_bb Q.t3_aabaab),
    aug1 X.doubles_res (ein3 L.lkcd L.cj L.adbilk L.abij Q.g_bbbb_oaoavava Q.t1_bb Q.t3_abbabb),
    aug1 X.doubles_res (ein3 L.lkcd L.ci L.dabklj L.abij Q.g_aaaa_oaoavava Q.t1_aa Q.t3_aabaab),
    aug1 X.doubles_res (ein3 L.lkcd L.ci L.adbljk L.abij Q.g_abab_oaoavava Q.t1_aa Q.t3_abbabb),
    aug1 X.doubles_res (ein3 L.klcd L.ci L.adbklj L.abij Q.g_abab_oaoavava Q.t1_aa Q.t3_abbabb),
    aug1 X.doubles_res (ein3 L.lkcd L.ak L.cdbilj L.abij Q.g_aaaa_oaoavava Q.t1_aa Q.t3_aabaab),
    aug1 X.doubles_res (ein3 L.klcd L.ak L.cdbijl L.abij Q.g_abab_oaoavava Q.t1_aa Q.t3_abbabb),
    aug1 X.doubles_res (ein3 L.kldc L.ak L.dcbijl L.abij Q.g_abab_oaoavava Q.t1_aa Q.t3_abbabb),
    aug1 X.doubles_res (ein3 L.lkcd L.bk L.cadilj L.abij Q.g_abab_oaoavava Q.t1_bb Q.t3_aabaab),
    aug1 X.doubles_res (ein3 L.lkdc L.bk L.adcilj L.abij Q.g_abab_oaoavava Q.t1_bb Q.t3_aabaab),
    aug1 X.doubles_res (ein3 L.lkcd L.bk L.adcijl L.abij Q.g_bbbb_oaoavava Q.t1_bb Q.t3_abbabb),
    aug1 X.doubles_res (ein3 L.klij L.ak L.bl L.abij Q.g_abab_oaoaoaoa Q.t1_aa Q.t1_bb),
    aug1 X.doubles_res (ein3 L.akcj L.ci L.bk L.abij Q.g_abab_vaoavaoa Q.t1_aa Q.t1_bb),
    aug1 X.doubles_res (ein3 L.kbcj L.ci L.ak L.abij Q.g_abab_oavavaoa Q.t1_aa Q.t1_aa),
    aug1 X.doubles_res (ein3 L.akic L.cj L.bk L.abij Q.g_abab_vaoaoava Q.t1_bb Q.t1_bb),
    aug1 X.doubles_res (ein3 L.kbic L.cj L.ak L.abij Q.g_abab_oavaoava Q.t1_bb Q.t1_aa),
    aug1 X.doubles_res (ein3 L.abdc L.cj L.di L.abij Q.g_abab_vavavava Q.t1_bb Q.t1_aa),
    aug1 X.doubles_res (ein3 L.klcd L.cdkj L.abil L.abij Q.g_abab_oaoavava Q.t2_abab Q.t2_abab),
    aug1 X.doubles_res (ein3 L.kldc L.dckj L.abil L.abij Q.g_abab_oaoavava Q.t2_abab Q.t2_abab),
    aug1 X.doubles_res (ein3 L.lkcd L.cdjk L.abil L.abij Q.g_bbbb_oaoavava Q.t2_bbbb Q.t2_abab),
    aug1 X.doubles_res (ein3 L.lkcd L.cdik L.ablj L.abij Q.g_aaaa_oaoavava Q.t2_aaaa Q.t2_abab),
    aug1 X.doubles_res (ein3 L.lkcd L.cdik L.ablj L.abij Q.g_abab_oaoavava Q.t2_abab Q.t2_abab),
    aug1 X.doubles_res (ein3 L.lkdc L.dcik L.ablj L.abij Q.g_abab_oaoavava Q.t2_abab Q.t2_abab),
    aug1 X.doubles_res (ein3 L.lkcd L.cdij L.ablk L.abij Q.g_abab_oaoavava Q.t2_abab Q.t2_abab),
    aug1 X.doubles_res (ein3 L.klcd L.cdij L.abkl L.abij Q.g_abab_oaoavava Q.t2_abab Q.t2_abab),
    aug1 X.doubles_res (ein3 L.lkdc L.dcij L.ablk L.abij Q.g_abab_oaoavava Q.t2_abab Q.t2_abab),
    aug1 X.doubles_res (ein3 L.kldc L.dcij L.abkl L.abij Q.g_abab_oaoavava Q.t2_abab Q.t2_abab),
    aug1 X.doubles_res (ein3 L.lkcd L.calk L.dbij L.abij Q.g_aaaa_oaoavava Q.t2_aaaa Q.t2_abab),
    aug1 X.doubles_res (ein3 L.lkdc L.aclk L.dbij L.abij Q.g_abab_oaoavava Q.t2_abab Q.t2_abab),
    aug1 X.doubles_res (ein3 L.kldc L.ackl L.dbij L.abij Q.g_abab_oaoavava Q.t2_abab Q.t2_abab),
    aug1 X.doubles_res (ein3 L.kldc L.ackj L.dbil L.abij Q.g_abab_oaoavava Q.t2_abab Q.t2_abab),
    aug1 X.doubles_res (ein3 L.lkcd L.caik L.dblj L.abij Q.g_aaaa_oaoavava Q.t2_aaaa Q.t2_abab),
    aug1 X.doubles_res (ein3 L.klcd L.caik L.dbjl L.abij Q.g_abab_oaoavava Q.t2_aaaa Q.t2_bbbb),
    aug1 X.doubles_res (ein3 L.lkdc L.acik L.dblj L.abij Q.g_abab_oaoavava Q.t2_abab Q.t2_abab),
    aug1 X.doubles_res (ein3 L.lkcd L.acik L.dbjl L.abij Q.g_bbbb_oaoavava Q.t2_abab Q.t2_bbbb),
    aug1 X.doubles_res (ein3 L.lkdc L.acij L.dblk L.abij Q.g_abab_oaoavava Q.t2_abab Q.t2_abab),
    aug1 X.doubles_res (ein3 L.kldc L.acij L.dbkl L.abij Q.g_abab_oaoavava Q.t2_abab Q.t2_abab),
    aug1 X.doubles_res (ein3 L.lkcd L.acij L.dblk L.abij Q.g_bbbb_oaoavava Q.t2_abab Q.t2_bbbb),
    aug1 X.doubles_res (ein4 L.klcd L.ck L.dj L.abil L.abij Q.g_abab_oaoavava Q.t1_aa Q.t1_bb Q.t2_abab),
    aug1 X.doubles_res (ein4 L.lkcd L.ck L.dj L.abil L.abij Q.g_bbbb_oaoavava Q.t1_bb Q.t1_bb Q.t2_abab),
    aug1 X.doubles_res (ein4 L.lkcd L.ck L.di L.ablj L.abij Q.g_aaaa_oaoavava Q.t1_aa Q.t1_aa Q.t2_abab),
    aug1 X.doubles_res (ein4 L.lkdc L.ck L.di L.ablj L.abij Q.g_abab_oaoavava Q.t1_bb Q.t1_aa Q.t2_abab),
    aug1 X.doubles_res (ein4 L.lkcd L.ck L.al L.dbij L.abij Q.g_aaaa_oaoavava Q.t1_aa Q.t1_aa Q.t2_abab),
    aug1 X.doubles_res (ein4 L.lkdc L.ck L.al L.dbij L.abij Q.g_abab_oaoavava Q.t1_bb Q.t1_aa Q.t2_abab),
    aug1 X.doubles_res (ein4 L.klcd L.ck L.bl L.adij L.abij Q.g_abab_oaoavava Q.t1_aa Q.t1_bb Q.t2_abab),
    aug1 X.doubles_res (ein4 L.lkcd L.ck L.bl L.adij L.abij Q.g_bbbb_oaoavava Q.t1_bb Q.t1_bb Q.t2_abab),
    aug1 X.doubles_res (ein4 L.lkdc L.cj L.di L.ablk L.abij Q.g_abab_oaoavava Q.t1_bb Q.t1_aa Q.t2_abab),
    aug1 X.doubles_res (ein4 L.kldc L.cj L.di L.abkl L.abij Q.g_abab_oaoavava Q.t1_bb Q.t1_aa Q.t2_abab),
    aug1 X.doubles_res (ein4 L.kldc L.cj L.ak L.dbil L.abij Q.g_abab_oaoavava Q.t1_bb Q.t1_aa Q.t2_abab),
    aug1 X.doubles_res (ein4 L.lkdc L.cj L.bk L.dail L.abij Q.g_abab_oaoavava Q.t1_bb Q.t1_bb Q.t2_aaaa),
    aug1 X.doubles_res (ein4 L.lkcd L.cj L.bk L.adil L.abij Q.g_bbbb_oaoavava Q.t1_bb Q.t1_bb Q.t2_abab),
    aug1 X.doubles_res (ein4 L.lkcd L.ci L.ak L.dblj L.abij Q.g_aaaa_oaoavava Q.t1_aa Q.t1_aa Q.t2_abab),
    aug1 X.doubles_res (ein4 L.klcd L.ci L.ak L.dbjl L.abij Q.g_abab_oaoavava Q.t1_aa Q.t1_aa Q.t2_bbbb),
    aug1 X.doubles_res (ein4 L.lkcd L.ci L.bk L.adlj L.abij Q.g_abab_oaoavava Q.t1_aa Q.t1_bb Q.t2_abab),
    aug1 X.doubles_res (ein4 L.klcd L.ak L.bl L.cdij L.abij Q.g_abab_oaoavava Q.t1_aa Q.t1_bb Q.t2_abab),
    aug1 X.doubles_res (ein4 L.kldc L.ak L.bl L.dcij L.abij Q.g_abab_oaoavava Q.t1_aa Q.t1_bb Q.t2_abab),
    aug1 X.doubles_res (ein4 L.klcj L.ci L.ak L.bl L.abij Q.g_abab_oaoavaoa Q.t1_aa Q.t1_aa Q.t1_bb),
    aug1 X.doubles_res (ein4 L.klic L.cj L.ak L.bl L.abij Q.g_abab_oaoaoava Q.t1_bb Q.t1_aa Q.t1_bb),
    aug1 X.doubles_res (ein4 L.akdc L.cj L.di L.bk L.abij Q.g_abab_vaoavava Q.t1_bb Q.t1_aa Q.t1_bb),
    aug1 X.doubles_res (ein4 L.kbdc L.cj L.di L.ak L.abij Q.g_abab_oavavava Q.t1_bb Q.t1_aa Q.t1_aa),
    aug1 X.doubles_res (ein5 L.kldc L.cj L.di L.ak L.bl L.abij Q.g_abab_oaoavava Q.t1_bb Q.t1_aa Q.t1_aa Q.t1_bb)]
  ret := [Q.doubles_res]

/-- `fullCCresidEqns.py` 1340-2346: `ccsdt_t3_aaaaaa_residual`; 597 einsum calls. -/
def fullCCresidEqns_ccsdt_t3_aaaaaa_residual : Fn where
  params := [X.f_aa, X.t3_aaaaaa, X.t1_aa, X.t2_aaaa, X.g_aaaa, X.g_abab, X.t3_aabaab, X.t1_bb, X.t2_abab, X.g_bbbb]
  body := [
    set1 X.contracted_intermediate (ein2 L.lk L.abcijl L.abcijk Q.f_aa_oaoa Q.t3_aaaaaa),
    .set X.triples_res [.arg Q.contracted_intermediate, ein1 L.abcijk L.abcikj Q.contracted_intermediate],
    aug1 X.triples_res (ein2 L.li L.abcjkl L.abcijk Q.f_aa_oaoa Q.t3_aaaaaa),
    set1 X.contracted_intermediate (ein2 L.ad L.dbcijk L.abcijk Q.f_aa_vava Q.t3_aaaaaa),
    .aug X.triples_res [.arg Q.contracted_intermediate, ein1 L.abcijk L.bacijk Q.contracted_intermediate],
    aug1 X.triples_res (ein2 L.cd L.dabijk L.abcijk Q.f_aa_vava Q.t3_aaaaaa),
    set1 X.contracted_intermediate (ein3 L.ld L.dk L.abcijl L.abcijk Q.f_aa_oava Q.t1_aa Q.t3_aaaaaa),
    .aug X.triples_res [.arg Q.contracted_intermediate, ein1 L.abcijk L.abcikj Q.contracted_intermediate],
    aug1 X.triples_res (ein3 L.ld L.di L.abcjkl L.abcijk Q.f_aa_oava Q.t1_aa Q.t3_aaaaaa),
    set1 X.contracted_intermediate (ein3 L.ld L.al L.dbcijk L.abcijk Q.f_aa_oava Q.t1_aa Q.t3_aaaaaa),
    .aug X.triples_res [.arg Q.contracted_intermediate, ein1 L.abcijk L.bacijk Q.contracted_intermediate],
    aug1 X.triples_res (ein3 L.ld L.cl L.dabijk L.abcijk Q.f_aa_oava Q.t1_aa Q.t3_aaaaaa),
    set1 X.contracted_intermediate (ein3 L.ld L.dajk L.bcil L.abcijk Q.f_aa_oava Q.t2_aaaa Q.t2_aaaa),
    .aug X.triples_res [.arg Q.contracted_intermediate, ein1 L.abcijk L.abcjik Q.contracted_intermediate, ein1 L.abcijk L.bacijk Q.contracted_intermediate, ein1 L.abcijk L.bacjik Q.contracted_intermediate],
    set1 X.contracted_intermediate (ein3 L.ld L.daij L.bckl L.abcijk Q.f_aa_oava Q.t2_aaaa Q.t2_aaaa),
    .aug X.triples_res [.arg Q.contracted_intermediate, ein1 L.abcijk L.bacijk Q.contracted_intermediate],
    set1 X.contracted_intermediate (ein3 L.ld L.dcjk L.abil L.abcijk Q.f_aa_oava Q.t2_aaaa Q.t2_aaaa),
    .aug X.triples_res [.arg Q.contracted_intermediate, ein1 L.abcijk L.abcjik Q.contracted_intermediate],
    aug1 X.triples_res (ein3 L.ld L.dcij L.abkl L.abcijk Q.f_aa_oava Q.t2_aaaa Q.t2_aaaa),
    set1 X.contracted_intermediate (ein2 L.lajk L.bcil L.abcijk Q.g_aaaa_oavaoaoa Q.t2_aaaa),
    .aug X.triples_res [.arg Q.contracted_intermediate, ein1 L.abcijk L.abcjik Q.contracted_intermediate, ein1 L.abcijk L.bacijk Q.contracted_intermediate, ein1 L.abcijk L.bacjik Q.contracted_intermediate],
    set1 X.contracted_intermediate (ein2 L.laij L.bckl L.abcijk Q.g_aaaa_oavaoaoa Q.t2_aaaa),
    .aug X.triples_res [.arg Q.contracted_intermediate, ein1 L.abcijk L.bacijk Q.contracted_intermediate],
    set1 X.contracted_intermediate (ein2 L.lcjk L.abil L.abcijk Q.g_aaaa_oavaoaoa Q.t2_aaaa),
    .aug X.triples_res [.arg Q.contracted_intermediate, ein1 L.abcijk L.abcjik Q.contracted_intermediate],
    aug1 X.triples_res (ein2 L.lcij L.abkl L.abcijk Q.g_aaaa_oavaoaoa Q.t2_aaaa),
    set1 X.contracted_intermediate (ein2 L.abdk L.dcij L.abcijk Q.g_aaaa_vavavaoa Q.t2_aaaa),
    .aug X.triples_res [.arg Q.contracted_intermediate, ein1 L.abcijk L.abcikj Q.contracted_intermediate, ein1 L.abcijk L.acbijk Q.contracted_intermediate, ein1 L.abcijk L.acbikj Q.contracted_intermediate],
    set1 X.contracted_intermediate (ein2 L.abdi L.dcjk L.abcijk Q.g_aaaa_vavavaoa Q.t2_aaaa),
    .aug X.triples_res [.arg Q.contracted_intermediate, ein1 L.abcijk L.acbijk Q.contracted_intermediate],
    set1 X.contracted_intermediate (ein2 L.bcdk L.daij L.abcijk Q.g_aaaa_vavavaoa Q.t2_aaaa),
    .aug X.triples_res [.arg Q.contracted_intermediate, ein1 L.abcijk L.abcikj Q.contracted_intermediate],
    aug1 X.triples_res (ein2 L.bcdi L.dajk L.abcijk Q.g_aaaa_vavavaoa Q.t2_aaaa),
    set1 X.contracted_intermediate (ein2 L.mljk L.abciml L.abcijk Q.g_aaaa_oaoaoaoa Q.t3_aaaaaa),
    .aug X.triples_res [.arg Q.contracted_intermediate, ein1 L.abcijk L.abcjik Q.contracted_intermediate],
    aug1 X.triples_res (ein2 L.mlij L.abckml L.abcijk Q.g_aaaa_oaoaoaoa Q.t3_aaaaaa),
    set1 X.contracted_intermediate (ein2 L.ladk L.dbcijl L.abcijk Q.g_aaaa_oavavaoa Q.t3_aaaaaa),
    .aug X.triples_res [.arg Q.contracted_intermediate, ein1 L.abcijk L.abcikj Q.contracted_intermediate, ein1 L.abcijk L.bacijk Q.contracted_intermediate, ein1 L.abcijk L.bacikj Q.contracted_intermediate],
    set1 X.contracted_intermediate (ein2 L.alkd L.cbdijl L.abcijk Q.g_abab_vaoaoava Q.t3_aabaab),
    .aug X.triples_res [.arg Q.contracted_intermediate, ein1 L.abcijk L.abcikj Q.contracted_intermediate, ein1 L.abcijk L.bacijk Q.contracted_intermediate, ein1 L.abcijk L.bacikj Q.contracted_intermediate],
    set1 X.contracted_intermediate (ein2 L.ladi L.dbcjkl L.abcijk Q.g_aaaa_oavavaoa Q.t3_aaaaaa),
    .aug X.triples_res [.arg Q.contracted_intermediate, ein1 L.abcijk L.bacijk Q.contracted_intermediate],
    set1 X.contracted_intermediate (ein2 L.alid L.cbdjkl L.abcijk Q.g_abab_vaoaoava Q.t3_aabaab),
    .aug X.triples_res [.arg Q.contracted_intermediate, ein1 L.abcijk L.bacijk Q.contracted_intermediate],
    set1 X.contracted_intermediate (ein2 L.lcdk L.dabijl L.abcijk Q.g_aaaa_oavavaoa Q.t3_aaaaaa),
    .aug X.triples_res [.arg Q.contracted_intermediate, ein1 L.abcijk L.abcikj Q.contracted_intermediate],
    set1 X.contracted_intermediate (ein2 L.clkd L.badijl L.abcijk Q.g_abab_vaoaoava Q.t3_aabaab),
    .aug X.triples_res [.arg Q.contracted_intermediate, ein1 L.abcijk L.abcikj Q.contracted_intermediate],
    aug1 X.triples_res (ein2 L.lcdi L.dabjkl L.abcijk Q.g_aaaa_oavavaoa Q.t3_aaaaaa),
    aug1 X.triples_res (ein2 L.clid L.badjkl L.abcijk Q.g_abab_vaoaoava Q.t3_aabaab),
    set1 X.contracted_intermediate (ein2 L.abde L.decijk L.abcijk Q.g_aaaa_vavavava Q.t3_aaaaaa),
    .aug X.triples_res [.arg Q.contracted_intermediate, ein1 L.abcijk L.acbijk Q.contracted_intermediate],
    aug1 X.triples_res (ein2 L.bcde L.deaijk L.abcijk Q.g_aaaa_vavavava Q.t3_aaaaaa),
    set1 X.contracted_intermediate (ein3 L.mljk L.al L.bcim L.abcijk Q.g_aaaa_oaoaoaoa Q.t1_aa Q.t2_aaaa),
    .aug X.triples_res [.arg Q.contracted_intermediate, ein1 L.abcijk L.abcjik Q.contracted_intermediate, ein1 L.abcijk L.bacijk Q.contracted_intermediate, ein1 L.abcijk L.bacjik Q.contracted_intermediate],
    set1 X.contracted_intermediate (ein3 L.mljk L.cl L.abim L.abcijk Q.g_aaaa_oaoaoaoa Q.t1_aa Q.t2_aaaa),
    .aug X.triples_res [.arg Q.contracted_intermediate, ein1 L.abcijk L.abcjik Q.contracted_intermediate],
    set1 X.contracted_intermediate (ein3 L.mlij L.al L.bckm L.abcijk Q.g_aaaa_oaoaoaoa Q.t1_aa Q.t2_aaaa),
    .aug X.triples_res [.arg Q.contracted_intermediate, ein1 L.abcijk L.bacijk Q.contracted_intermediate],
    aug1 X.triples_res (ein3 L.mlij L.cl L.abkm L.abcijk Q.g_aaaa_oaoaoaoa Q.t1_aa Q.t2_aaaa),
    set1 X.contracted_intermediate (ein3 L.ladk L.dj L.bcil L.abcijk Q.g_aaaa_oavavaoa Q.t1_aa Q.t2_aaaa),
    .aug X.triples_res [.arg Q.contracted_intermediate, ein1 L.abcijk L.abcjik Q.contracted_intermediate, ein1 L.abcijk L.bacijk Q.contracted_intermediate, ein1 L.abcijk L.bacjik Q.contracted_intermediate],
    set1 X.contracted_intermediate (ein3 L.ladk L.bl L.dcij L.abcijk Q.g_aaaa_oavavaoa Q.t1_aa Q.t2_aaaa),
    .aug X.triples_res [.arg Q.contracted_intermediate, ein1 L.abcijk L.abcikj Q.contracted_intermediate, ein1 L.abcijk L.acbijk Q.contracted_intermediate, ein1 L.abcijk L.acbikj Q.contracted_intermediate],
    set1 X.contracted_intermediate (ein3 L.ladj L.dk L.bcil L.abcijk Q.g_aaaa_oavavaoa Q.t1_aa Q.t2_aaaa),
    .aug X.triples_res [.arg Q.contracted_intermediate, ein1 L.abcijk L.abckji Q.contracted_intermediate, ein1 L.abcijk L.bacijk Q.contracted_intermediate, ein1 L.abcijk L.backji Q.contracted_intermediate],
    set1 X.contracted_intermediate (ein3 L.ladi L.dk L.bcjl L.abcijk Q.g_aaaa_oavavaoa Q.t1_aa Q.t2_aaaa),
    .aug X.triples_res [.arg Q.contracted_intermediate, ein1 L.abcijk L.abcikj Q.contracted_intermediate, ein1 L.abcijk L.bacijk Q.contracted_intermediate, ein1 L.abcijk L.bacikj Q.contracted_intermediate],
    set1 X.contracted_intermediate (ein3 L.ladi L.bl L.dcjk L.abcijk Q.g_aaaa_oavavaoa Q.t1_aa Q.t2_aaaa),
    .aug X.triples_res [.arg Q.contracted_intermediate, ein1 L.abcijk L.acbijk Q.contracted_intermediate],
    set1 X.contracted_intermediate (ein3 L.lbdk L.al L.dcij L.abcijk Q.g_aaaa_oavavaoa Q.t1_aa Q.t2_aaaa),
    .aug X.triples_res [.arg Q.contracted_intermediate, ein1 L.abcijk L.abcikj Q.contracted_intermediate, ein1 L.abcijk L.cbaijk Q.contracted_intermediate, ein1 L.abcijk L.cbaikj Q.contracted_intermediate],
    set1 X.contracted_intermediate (ein3 L.lbdi L.al L.dcjk L.abcijk Q.g_aaaa_oavavaoa Q.t1_aa Q.t2_aaaa),
    .aug X.triples_res [.arg Q.contracted_intermediate, ein1 L.abcijk L.cbaijk Q.contracted_intermediate],
    set1 X.contracted_intermediate (ein3 L.lcdk L.dj L.abil L.abcijk Q.g_aaaa_oavavaoa Q.t1_aa Q.t2_aaaa),
    .aug X.triples_res [.arg Q.contracted_intermediate, ein1 L.abcijk L.abcjik Q.contracted_intermediate],
    set1 X.contracted_intermediate (ein3 L.lcdk L.al L.dbij L.abcijk Q.g_aaaa_oavavaoa Q.t1_aa Q.t2_aaaa),
    .aug X.triples_res [.arg Q.contracted_intermediate, ein1 L.abcijk L.abcikj Q.contracted_intermediate, ein1 L.abcijk L.bacijk Q.contracted_intermediate, ein1 L.abcijk L.bacikj Q.contracted_intermediate],
    set1 X.contracted_intermediate (ein3 L.lcdj L.dk L.abil L.abcijk Q.g_aaaa_oavavaoa Q.t1_aa Q.t2_aaaa),
    .aug X.triples_res [.arg Q.contracted_intermediate, ein1 L.abcijk L.abckji Q.contracted_intermediate],
    set1 X.contracted_intermediate (ein3 L.lcdi L.dk L.abjl L.abcijk Q.g_aaaa_oavavaoa Q.t1_aa Q.t2_aaaa),
    .aug X.triples_res [.arg Q.contracted_intermediate, ein1 L.abcijk L.abcikj Q.contracted_intermediate],
    set1 X.contracted_intermediate (ein3 L.lcdi L.al L.dbjk L.abcijk Q.g_aaaa_oavavaoa Q.t1_aa Q.t2_aaaa),
    .aug X.triples_res [.arg Q.contracted_intermediate, ein1 L.abcijk L.bacijk Q.contracted_intermediate],
    set1 X.contracted_intermediate (ein3 L.abde L.dk L.ecij L.abcijk Q.g_aaaa_vavavava Q.t1_aa Q.t2_aaaa),
    .aug X.triples_res [.arg Q.contracted_intermediate, ein1 L.abcijk L.abcikj Q.contracted_intermediate, ein1 L.abcijk L.acbijk Q.contracted_intermediate, ein1 L.abcijk L.acbikj Q.contracted_intermediate],
    set1 X.contracted_intermediate (ein3 L.abde L.di L.ecjk L.abcijk Q.g_aaaa_vavavava Q.t1_aa Q.t2_aaaa),
    .aug X.triples_res [.arg Q.contracted_intermediate, ein1 L.abcijk L.acbijk Q.contracted_intermediate],
    set1 X.contracted_intermediate (ein3 L.bcde L.dk L.eaij L.abcijk Q.g_aaaa_vavavava Q.t1_aa Q.t2_aaaa),
    .aug X.triples_res [.arg Q.contracted_intermediate, ein1 L.abcijk L.abcikj Q.contracted_intermediate],
    aug1 X.triples_res (ein3 L.bcde L.di L.eajk L.abcijk Q.g_aaaa_vavavava Q.t1_aa Q.t2_aaaa),
    set1 X.contracted_intermediate (ein3 L.mldk L.dl L.abcijm L.abcijk Q.g_aaaa_oaoavaoa Q.t1_aa Q.t3_aaaaaa),
    .aug X.triples_res [.arg Q.contracted_intermediate, ein1 L.abcijk L.abcikj Q.contracted_intermediate],
    set1 X.contracted_intermediate (ein3 L.mlkd L.dl L.abcijm L.abcijk Q.g_abab_oaoaoava Q.t1_bb Q.t3_aaaaaa),
    .aug X.triples_res [.arg Q.contracted_intermediate, ein1 L.abcijk L.abcikj Q.contracted_intermediate],
    set1 X.contracted_intermediate (ein3 L.mldk L.dj L.abciml L.abcijk Q.g_aaaa_oaoavaoa Q.t1_aa Q.t3_aaaaaa),
    .aug X.triples_res [.arg Q.contracted_intermediate, ein1 L.abcijk L.abcjik Q.contracted_intermediate],
    set1 X.contracted_intermediate (ein3 L.mldk L.al L.dbcijm L.abcijk Q.g_aaaa_oaoavaoa Q.t1_aa Q.t3_aaaaaa),
    .aug X.triples_res [.arg Q.contracted_intermediate, ein1 L.abcijk L.abcikj Q.contracted_intermediate, ein1 L.abcijk L.bacijk Q.contracted_intermediate, ein1 L.abcijk L.bacikj Q.contracted_intermediate],
    set1 X.contracted_intermediate (ein3 L.lmkd L.al L.cbdijm L.abcijk Q.g_abab_oaoaoava Q.t1_aa Q.t3_aabaab),
    .aug X.triples_res [.arg Q.contracted_intermediate, ein1 L.abcijk L.abcikj Q.contracted_intermediate, ein1 L.abcijk L.bacijk Q.contracted_intermediate, ein1 L.abcijk L.bacikj Q.contracted_intermediate],
    set1 X.contracted_intermediate (ein3 L.mldk L.cl L.dabijm L.abcijk Q.g_aaaa_oaoavaoa Q.t1_aa Q.t3_aaaaaa),
    .aug X.triples_res [.arg Q.contracted_intermediate, ein1 L.abcijk L.abcikj Q.contracted_intermediate],
    set1 X.contracted_intermediate (ein3 L.lmkd L.cl L.badijm L.abcijk Q.g_abab_oaoaoava Q.t1_aa Q.t3_aabaab),
    .aug X.triples_res [.arg Q.contracted_intermediate, ein1 L.abcijk L.abcikj Q.contracted_intermediate],
    set1 X.contracted_intermediate (ein3 L.mldj L.dk L.abciml L.abcijk Q.g_aaaa_oaoavaoa Q.t1_aa Q.t3_aaaaaa),
    .aug X.triples_res [.arg Q.contracted_intermediate, ein1 L.abcijk L.abckji Q.contracted_intermediate],
    aug1 X.triples_res (ein3 L.mldi L.dl L.abcjkm L.abcijk Q.g_aaaa_oaoavaoa Q.t1_aa Q.t3_aaaaaa),
    aug1 X.triples_res (ein3 L.mlid L.dl L.abcjkm L.abcijk Q.g_abab_oaoaoava Q.t1_bb Q.t3_aaaaaa),
    set1 X.contracted_intermediate (ein3 L.mldi L.dk L.abcjml L.abcijk Q.g_aaaa_oaoavaoa Q.t1_aa Q.t3_aaaaaa),
    .aug X.triples_res [.arg Q.contracted_intermediate, ein1 L.abcijk L.abcikj Q.contracted_intermediate],
    set1 X.contracted_intermediate (ein3 L.mldi L.al L.dbcjkm L.abcijk Q.g_aaaa_oaoavaoa Q.t1_aa Q.t3_aaaaaa),
    .aug X.triples_res [.arg Q.contracted_intermediate, ein1 L.abcijk L.bacijk Q.contracted_intermediate],
    set1 X.contracted_intermediate (ein3 L.lmid L.al L.cbdjkm L.abcijk Q.g_abab_oaoaoava Q.t1_aa Q.t3_aabaab),
    .aug X.triples_res [.arg Q.contracted_intermediate, ein1 L.abcijk L.bacijk Q.contracted_intermediate],
    aug1 X.triples_res (ein3 L.mldi L.cl L.dabjkm L.abcijk Q.g_aaaa_oaoavaoa Q.t1_aa Q.t3_aaaaaa),
    aug1 X.triples_res (ein3 L.lmid L.cl L.badjkm L.abcijk Q.g_abab_oaoaoava Q.t1_aa Q.t3_aabaab),
    set1 X.contracted_intermediate (ein3 L.lade L.dl L.ebcijk L.abcijk Q.g_aaaa_oavavava Q.t1_aa Q.t3_aaaaaa),
    .aug X.triples_res [.arg Q.contracted_intermediate, ein1 L.abcijk L.bacijk Q.contracted_intermediate],
    set1 X.contracted_intermediate (ein3 L.aled L.dl L.ebcijk L.abcijk Q.g_abab_vaoavava Q.t1_bb Q.t3_aaaaaa),
    .aug X.triples_res [.arg Q.contracted_intermediate, ein1 L.abcijk L.bacijk Q.contracted_intermediate],
    set1 X.contracted_intermediate (ein3 L.lade L.dk L.ebcijl L.abcijk Q.g_aaaa_oavavava Q.t1_aa Q.t3_aaaaaa),
    .aug X.triples_res [.arg Q.contracted_intermediate, ein1 L.abcijk L.abcikj Q.contracted_intermediate, ein1 L.abcijk L.bacijk Q.contracted_intermediate, ein1 L.abcijk L.bacikj Q.contracted_intermediate],
    set1 X.contracted_intermediate (ein3 L.alde L.dk L.cbeijl L.abcijk Q.g_abab_vaoavava Q.t1_aa Q.t3_aabaab),
    .aug X.triples_res [.arg Q.contracted_intermediate, ein1 L.abcijk L.abcikj Q.contracted_intermediate, ein1 L.abcijk L.bacijk Q.contracted_intermediate, ein1 L.abcijk L.bacikj Q.contracted_intermediate],
    set1 X.contracted_intermediate (ein3 L.lade L.di L.ebcjkl L.abcijk Q.g_aaaa_oavavava Q.t1_aa Q.t3_aaaaaa),
    .aug X.triples_res [.arg Q.contracted_intermediate, ein1 L.abcijk L.bacijk Q.contracted_intermediate],
    set1 X.contracted_intermediate (ein3 L.alde L.di L.cbejkl L.abcijk Q.g_abab_vaoavava Q.t1_aa Q.t3_aabaab),
    .aug X.triples_res [.arg Q.contracted_intermediate, ein1 L.abcijk L.bacijk Q.contracted_intermediate],
    set1 X.contracted_intermediate (ein3 L.lade L.bl L.decijk L.abcijk Q.g_aaaa_oavavava Q.t1_aa Q.t3_aaaaaa),
    .aug X.triples_res [.arg Q.contracted_intermediate, ein1 L.abcijk L.acbijk Q.contracted_intermediate],
    set1 X.contracted_intermediate (ein3 L.lbde L.al L.decijk L.abcijk Q.g_aaaa_oavavava Q.t1_aa Q.t3_aaaaaa),
    .aug X.triples_res [.arg Q.contracted_intermediate, ein1 L.abcijk L.cbaijk Q.contracted_intermediate],
    aug1 X.triples_res (ein3 L.lcde L.dl L.eabijk L.abcijk Q.g_aaaa_oavavava Q.t1_aa Q.t3_aaaaaa),
    aug1 X.triples_res (ein3 L.cled L.dl L.eabijk L.abcijk Q.g_abab_vaoavava Q.t1_bb Q.t3_aaaaaa),
    set1 X.contracted_intermediate (ein3 L.lcde L.dk L.eabijl L.abcijk Q.g_aaaa_oavavava Q.t1_aa Q.t3_aaaaaa),
    .aug X.triples_res [.arg Q.contracted_intermediate, ein1 L.abcijk L.abcikj Q.contracted_intermediate],
    set1 X.contracted_intermediate (ein3 L.clde L.dk L.baeijl L.abcijk Q.g_abab_vaoavava Q.t1_aa Q.t3_aabaab),
    .aug X.triples_res [.arg Q.contracted_intermediate, ein1 L.abcijk L.abcikj Q.contracted_intermediate],
    aug1 X.triples_res (ein3 L.lcde L.di L.eabjkl L.abcijk Q.g_aaaa_oavavava Q.t1_aa Q.t3_aaaaaa),
    aug1 X.triples_res (ein3 L.clde L.di L.baejkl L.abcijk Q.g_abab_vaoavava Q.t1_aa Q.t3_aabaab),
    set1 X.contracted_intermediate (ein3 L.lcde L.al L.debijk L.abcijk Q.g_aaaa_oavavava Q.t1_aa Q.t3_aaaaaa),
    .aug X.triples_res [.arg Q.contracted_intermediate, ein1 L.abcijk L.bacijk Q.contracted_intermediate],
    set1 X.contracted_intermediate (ein3 L.mlde L.dekl L.abcijm L.abcijk Q.g_aaaa_oaoavava Q.t2_aaaa Q.t3_aaaaaa),
    .aug X.triples_res [.arg Q.contracted_intermediate, ein1 L.abcijk L.abcikj Q.contracted_intermediate],
    set1 X.contracted_intermediate (ein3 L.mlde L.dekl L.abcijm L.abcijk Q.g_abab_oaoavava Q.t2_abab Q.t3_aaaaaa),
    .aug X.triples_res [.arg Q.contracted_intermediate, ein1 L.abcijk L.abcikj Q.contracted_intermediate],
    set1 X.contracted_intermediate (ein3 L.mled L.edkl L.abcijm L.abcijk Q.g_abab_oaoavava Q.t2_abab Q.t3_aaaaaa),
    .aug X.triples_res [.arg Q.contracted_intermediate, ein1 L.abcijk L.abcikj Q.contracted_intermediate],
    aug1 X.triples_res (ein3 L.mlde L.deil L.abcjkm L.abcijk Q.g_aaaa_oaoavava Q.t2_aaaa Q.t3_aaaaaa),
    aug1 X.triples_res (ein3 L.mlde L.deil L.abcjkm L.abcijk Q.g_abab_oaoavava Q.t2_abab Q.t3_aaaaaa),
    aug1 X.triples_res (ein3 L.mled L.edil L.abcjkm L.abcijk Q.g_abab_oaoavava Q.t2_abab Q.t3_aaaaaa),
    set1 X.contracted_intermediate (ein3 L.mlde L.dejk L.abciml L.abcijk Q.g_aaaa_oaoavava Q.t2_aaaa Q.t3_aaaaaa),
    .aug X.triples_res [.arg Q.contracted_intermediate, ein1 L.abcijk L.abcjik Q.contracted_intermediate],
    aug1 X.triples_res (ein3 L.mlde L.deij L.abckml L.abcijk Q.g_aaaa_oaoavava Q.t2_aaaa Q.t3_aaaaaa),
    set1 X.contracted_intermediate (ein3 L.mlde L.daml L.ebcijk L.abcijk Q.g_aaaa_oaoavava Q.t2_aaaa Q.t3_aaaaaa),
    .aug X.triples_res [.arg Q.contracted_intermediate, ein1 L.abcijk L.bacijk Q.contracted_intermediate],
    set1 X.contracted_intermediate (ein3 L.mled L.adml L.ebcijk L.abcijk Q.g_abab_oaoavava Q.t2_abab Q.t3_aaaaaa),
    .aug X.triples_res [.arg Q.contracted_intermediate, ein1 L.abcijk L.bacijk Q.contracted_intermediate],
    set1 X.contracted_intermediate (ein3 L.lmed L.adlm L.ebcijk L.abcijk Q.g_abab_oaoavava Q.t2_abab Q.t3_aaaaaa),
    .aug X.triples_res [.arg Q.contracted_intermediate, ein1 L.abcijk L.bacijk Q.contracted_intermediate],
    set1 X.contracted_intermediate (ein3 L.mlde L.dakl L.ebcijm L.abcijk Q.g_aaaa_oaoavava Q.t2_aaaa Q.t3_aaaaaa),
    .aug X.triples_res [.arg Q.contracted_intermediate, ein1 L.abcijk L.abcikj Q.contracted_intermediate, ein1 L.abcijk L.bacijk Q.contracted_intermediate, ein1 L.abcijk L.bacikj Q.contracted_intermediate],
    set1 X.contracted_intermediate (ein3 L.lmde L.dakl L.cbeijm L.abcijk Q.g_abab_oaoavava Q.t2_aaaa Q.t3_aabaab),
    .aug X.triples_res [.arg Q.contracted_intermediate, ein1 L.abcijk L.abcikj Q.contracted_intermediate, ein1 L.abcijk L.bacijk Q.contracted_intermediate, ein1 L.abcijk L.bacikj Q.contracted_intermediate],
    set1 X.contracted_intermediate (ein3 L.mled L.adkl L.ebcijm L.abcijk Q.g_abab_oaoavava Q.t2_abab Q.t3_aaaaaa),
    .aug X.triples_res [.arg Q.contracted_intermediate, ein1 L.abcijk L.abcikj Q.contracted_intermediate, ein1 L.abcijk L.bacijk Q.contracted_intermediate, ein1 L.abcijk L.bacikj Q.contracted_intermediate],
    set1 X.contracted_intermediate (ein3 L.mlde L.adkl L.cbeijm L.abcijk Q.g_bbbb_oaoavava Q.t2_abab Q.t3_aabaab),
    .aug X.triples_res [.arg Q.contracted_intermediate, ein1 L.abcijk L.abcikj Q.contracted_intermediate, ein1 L.abcijk L.bacijk Q.contracted_intermediate, ein1 L.abcijk L.bacikj Q.contracted_intermediate],
    set1 X.contracted_intermediate (ein3 L.mlde L.dail L.ebcjkm L.abcijk Q.g_aaaa_oaoavava Q.t2_aaaa Q.t3_aaaaaa),
    .aug X.triples_res [.arg Q.contracted_intermediate, ein1 L.abcijk L.bacijk Q.contracted_intermediate],
    set1 X.contracted_intermediate (ein3 L.lmde L.dail L.cbejkm L.abcijk Q.g_abab_oaoavava Q.t2_aaaa Q.t3_aabaab),
    .aug X.triples_res [.arg Q.contracted_intermediate, ein1 L.abcijk L.bacijk Q.contracted_intermediate],
    set1 X.contracted_intermediate (ein3 L.mled L.adil L.ebcjkm L.abcijk Q.g_abab_oaoavava Q.t2_abab Q.t3_aaaaaa),
    .aug X.triples_res [.arg Q.contracted_intermediate, ein1 L.abcijk L.bacijk Q.contracted_intermediate],
    set1 X.contracted_intermediate (ein3 L.mlde L.adil L.cbejkm L.abcijk Q.g_bbbb_oaoavava Q.t2_abab Q.t3_aabaab),
    .aug X.triples_res [.arg Q.contracted_intermediate, ein1 L.abcijk L.bacijk Q.contracted_intermediate],
    set1 X.contracted_intermediate (ein3 L.mlde L.dajk L.ebciml L.abcijk Q.g_aaaa_oaoavava Q.t2_aaaa Q.t3_aaaaaa),
    .aug X.triples_res [.arg Q.contracted_intermediate, ein1 L.abcijk L.abcjik Q.contracted_intermediate, ein1 L.abcijk L.bacijk Q.contracted_intermediate, ein1 L.abcijk L.bacjik Q.contracted_intermediate],
    set1 X.contracted_intermediate (ein3 L.mlde L.dajk L.cbeiml L.abcijk Q.g_abab_oaoavava Q.t2_aaaa Q.t3_aabaab),
    .aug X.triples_res [.arg Q.contracted_intermediate, ein1 L.abcijk L.abcjik Q.contracted_intermediate, ein1 L.abcijk L.bacijk Q.contracted_intermediate, ein1 L.abcijk L.bacjik Q.contracted_intermediate],
    set1 X.contracted_intermediate (ein3 L.lmde L.dajk L.cbeilm L.abcijk Q.g_abab_oaoavava Q.t2_aaaa Q.t3_aabaab),
    .aug X.triples_res [.arg Q.contracted_intermediate, ein1 L.abcijk L.abcjik Q.contracted_intermediate, ein1 L.abcijk L.bacijk Q.contracted_intermediate, ein1 L.abcijk L.bacjik Q.contracted_intermediate],
    set1 X.contracted_intermediate (ein3 L.mlde L.daij L.ebckml L.abcijk Q.g_aaaa_oaoavava Q.t2_aaaa Q.t3_aaaaaa),
    .aug X.triples_res [.arg Q.contracted_intermediate, ein1 L.abcijk L.bacijk Q.contracted_intermediate],
    set1 X.contracted_intermediate (ein3 L.mlde L.daij L.cbekml L.abcijk Q.g_abab_oaoavava Q.t2_aaaa Q.t3_aabaab),
    .aug X.triples_res [.arg Q.contracted_intermediate, ein1 L.abcijk L.bacijk Q.contracted_intermediate],
    set1 X.contracted_intermediate (ein3 L.lmde L.daij L.cbeklm L.abcijk Q.g_abab_oaoavava Q.t2_aaaa Q.t3_aabaab),
    .aug X.triples_res [.arg Q.contracted_intermediate, ein1 L.abcijk L.bacijk Q.contracted_intermediate],
    aug1 X.triples_res (ein3 L.mlde L.dcml L.eabijk L.abcijk Q.g_aaaa_oaoavava Q.t2_aaaa Q.t3_aaaaaa),
    aug1 X.triples_res (ein3 L.mled L.cdml L.eabijk L.abcijk Q.g_abab_oaoavava Q.t2_abab Q.t3_aaaaaa),
    aug1 X.triples_res (ein3 L.lmed L.cdlm L.eabijk L.abcijk Q.g_abab_oaoavava Q.t2_abab Q.t3_aaaaaa),
    set1 X.contracted_intermediate (ein3 L.mlde L.dckl L.eabijm L.abcijk Q.g_aaaa_oaoavava Q.t2_aaaa Q.t3_aaaaaa),
    .aug X.triples_res [.arg Q.contracted_intermediate, ein1 L.abcijk L.abcikj Q.contracted_intermediate],
    set1 X.contracted_intermediate (ein3 L.lmde L.dckl L.baeijm L.abcijk Q.g_abab_oaoavava Q.t2_aaaa Q.t3_aabaab),
    .aug X.triples_res [.arg Q.contracted_intermediate, ein1 L.abcijk L.abcikj Q.contracted_intermediate],
    set1 X.contracted_intermediate (ein3 L.mled L.cdkl L.eabijm L.abcijk Q.g_abab_oaoavava Q.t2_abab Q.t3_aaaaaa),
    .aug X.triples_res [.arg Q.contracted_intermediate, ein1 L.abcijk L.abcikj Q.contracted_intermediate],
    set1 X.contracted_intermediate (ein3 L.mlde L.cdkl L.baeijm L.abcijk Q.g_bbbb_oaoavava Q.t2_abab Q.t3_aabaab),
    .aug X.triples_res [.arg Q.contracted_intermediate, ein1 L.abcijk L.abcikj Q.contracted_intermediate],
    aug1 X.triples_res (ein3 L.mlde L.dcil L.eabjkm L.abcijk Q.g_aaaa_oaoavava Q.t2_aaaa Q.t3_aaaaaa),
    aug1 X.triples_res (ein3 L.lmde L.dcil L.baejkm L.abcijk Q.g_abab_oaoavava Q.t2_aaaa Q.t3_aabaab),
    aug1 X.triples_res (ein3 L.mled L.cdil L.eabjkm L.abcijk Q.g_abab_oaoavava Q.t2_abab Q.t3_aaaaaa),
    aug1 X.triples_res (ein3 L.mlde L.cdil L.baejkm L.abcijk Q.g_bbbb_oaoavava Q.t2_abab Q.t3_aabaab),
    set1 X.contracted_intermediate (ein3 L.mlde L.dcjk L.eabiml L.abcijk Q.g_aaaa_oaoavava Q.t2_aaaa Q.t3_aaaaaa),
    .aug X.triples_res [.arg Q.contracted_intermediate, ein1 L.abcijk L.abcjik Q.contracted_intermediate],
    set1 X.contracted_intermediate (ein3 L.mlde L.dcjk L.baeiml L.abcijk Q.g_abab_oaoavava Q.t2_aaaa Q.t3_aabaab),
    .aug X.triples_res [.arg Q.contracted_intermediate, ein1 L.abcijk L.abcjik Q.contracted_intermediate],
    set1 X.contracted_intermediate (ein3 L.lmde L.dcjk L.baeilm L.abcijk Q.g_abab_oaoavava Q.t2_aaaa Q.t3_aabaab),
    .aug X.triples_res [.arg Q.contracted_intermediate, ein1 L.abcijk L.abcjik Q.contracted_intermediate],
    aug1 X.triples_res (ein3 L.mlde L.dcij L.eabkml L.abcijk Q.g_aaaa_oaoavava Q.t2_aaaa Q.t3_aaaaaa),
    aug1 X.triples_res (ein3 L.mlde L.dcij L.baekml L.abcijk Q.g_abab_oaoavava Q.t2_aaaa Q.t3_aabaab),
    aug1 X.triples_res (ein3 L.lmde L.dcij L.baeklm L.abcijk Q.g_abab_oaoavava Q.t2_aaaa Q.t3_aabaab),
    set1 X.contracted_intermediate (ein3 L.mlde L.abml L.decijk L.abcijk Q.g_aaaa_oaoavava Q.t2_aaaa Q.t3_aaaaaa),
    .aug X.triples_res [.arg Q.contracted_intermediate, ein1 L.abcijk L.acbijk Q.contracted_intermediate],
    set1 X.contracted_intermediate (ein3 L.mlde L.abkl L.decijm L.abcijk Q.g_aaaa_oaoavava Q.t2_aaaa Q.t3_aaaaaa),
    .aug X.triples_res [.arg Q.contracted_intermediate, ein1 L.abcijk L.abcikj Q.contracted_intermediate, ein1 L.abcijk L.acbijk Q.contracted_intermediate, ein1 L.abcijk L.acbikj Q.contracted_intermediate],
    set1 X.contracted_intermediate (ein3 L.lmde L.abkl L.dceijm L.abcijk Q.g_abab_oaoavava Q.t2_aaaa Q.t3_aabaab),
    .aug X.triples_res [.arg Q.contracted_intermediate, ein1 L.abcijk L.abcikj Q.contracted_intermediate, ein1 L.abcijk L.acbijk Q.contracted_intermediate, ein1 L.abcijk L.acbikj Q.contracted_intermediate],
    set1 X.contracted_intermediate (ein3 L.lmed L.abkl L.cedijm L.abcijk Q.g_abab_oaoavava Q.t2_aaaa Q.t3_aabaab),
    .aug X.triples_res [.arg Q.contracted_intermediate, ein1 L.abcijk L.abcikj Q.contracted_intermediate, ein1 L.abcijk L.acbijk Q.contracted_intermediate, ein1 L.abcijk L.acbikj Q.contracted_intermediate],
    set1 X.contracted_intermediate (ein3 L.mlde L.abil L.decjkm L.abcijk Q.g_aaaa_oaoavava Q.t2_aaaa Q.t3_aaaaaa),
    .aug X.triples_res [.arg Q.contracted_intermediate, ein1 L.abcijk L.acbijk Q.contracted_intermediate],
    set1 X.contracted_intermediate (ein3 L.lmde L.abil L.dcejkm L.abcijk Q.g_abab_oaoavava Q.t2_aaaa Q.t3_aabaab),
    .aug X.triples_res [.arg Q.contracted_intermediate, ein1 L.abcijk L.acbijk Q.contracted_intermediate],
    set1 X.contracted_intermediate (ein3 L.lmed L.abil L.cedjkm L.abcijk Q.g_abab_oaoavava Q.t2_aaaa Q.t3_aabaab),
    .aug X.triples_res [.arg Q.contracted_intermediate, ein1 L.abcijk L.acbijk Q.contracted_intermediate],
    aug1 X.triples_res (ein3 L.mlde L.bcml L.deaijk L.abcijk Q.g_aaaa_oaoavava Q.t2_aaaa Q.t3_aaaaaa),
    set1 X.contracted_intermediate (ein3 L.mlde L.bckl L.deaijm L.abcijk Q.g_aaaa_oaoavava Q.t2_aaaa Q.t3_aaaaaa),
    .aug X.triples_res [.arg Q.contracted_intermediate, ein1 L.abcijk L.abcikj Q.contracted_intermediate],
    set1 X.contracted_intermediate (ein3 L.lmde L.bckl L.daeijm L.abcijk Q.g_abab_oaoavava Q.t2_aaaa Q.t3_aabaab),
    .aug X.triples_res [.arg Q.contracted_intermediate, ein1 L.abcijk L.abcikj Q.contracted_intermediate],
    set1 X.contracted_intermediate (ein3 L.lmed L.bckl L.aedijm L.abcijk Q.g_abab_oaoavava Q.t2_aaaa Q.t3_aabaab),
    .aug X.triples_res [.arg Q.contracted_intermediate, ein1 L.abcijk L.abcikj Q.contracted_intermediate],
    aug1 X.triples_res (ein3 L.mlde L.bcil L.deajkm L.abcijk Q.g_aaaa_oaoavava Q.t2_aaaa Q.t3_aaaaaa),
    aug1 X.triples_res (ein3 L.lmde L.bcil L.daejkm L.abcijk Q.g_abab_oaoavava Q.t2_aaaa Q.t3_aabaab),
    aug1 X.triples_res (ein3 L.lmed L.bcil L.aedjkm L.abcijk Q.g_abab_oaoavava Q.t2_aaaa Q.t3_aabaab),
    set1 X.contracted_intermediate (ein3 L.mldk L.dajl L.bcim L.abcijk Q.g_aaaa_oaoavaoa Q.t2_aaaa Q.t2_aaaa),
    .aug X.triples_res [.arg Q.contracted_intermediate, ein1 L.abcijk L.abcjik Q.contracted_intermediate, ein1 L.abcijk L.bacijk Q.contracted_intermediate, ein1 L.abcijk L.bacjik Q.contracted_intermediate],
    set1 X.contracted_intermediate (ein3 L.mlkd L.adjl L.bcim L.abcijk Q.g_abab_oaoaoava Q.t2_abab Q.t2_aaaa),
    .aug X.triples_res [.arg Q.contracted_intermediate, ein1 L.abcijk L.abcjik Q.contracted_intermediate, ein1 L.abcijk L.bacijk Q.contracted_intermediate, ein1 L.abcijk L.bacjik Q.contracted_intermediate],
    set1 X.contracted_intermediate (ein3 L.mldk L.daij L.bcml L.abcijk Q.g_aaaa_oaoavaoa Q.t2_aaaa Q.t2_aaaa),
    .aug X.triples_res [.arg Q.contracted_intermediate, ein1 L.abcijk L.abcikj Q.contracted_intermediate, ein1 L.abcijk L.bacijk Q.contracted_intermediate, ein1 L.abcijk L.bacikj Q.contracted_intermediate],
    set1 X.contracted_intermediate (ein3 L.mldk L.dcjl L.abim L.abcijk Q.g_aaaa_oaoavaoa Q.t2_aaaa Q.t2_aaaa),
    .aug X.triples_res [.arg Q.contracted_intermediate, ein1 L.abcijk L.abcjik Q.contracted_intermediate],
    set1 X.contracted_intermediate (ein3 L.mlkd L.cdjl L.abim L.abcijk Q.g_abab_oaoaoava Q.t2_abab Q.t2_aaaa),
    .aug X.triples_res [.arg Q.contracted_intermediate, ein1 L.abcijk L.abcjik Q.contracted_intermediate],
    set1 X.contracted_intermediate (ein3 L.mldk L.dcij L.abml L.abcijk Q.g_aaaa_oaoavaoa Q.t2_aaaa Q.t2_aaaa),
    .aug X.triples_res [.arg Q.contracted_intermediate, ein1 L.abcijk L.abcikj Q.contracted_intermediate],
    set1 X.contracted_intermediate (ein3 L.mldj L.dakl L.bcim L.abcijk Q.g_aaaa_oaoavaoa Q.t2_aaaa Q.t2_aaaa),
    .aug X.triples_res [.arg Q.contracted_intermediate, ein1 L.abcijk L.abckji Q.contracted_intermediate, ein1 L.abcijk L.bacijk Q.contracted_intermediate, ein1 L.abcijk L.backji Q.contracted_intermediate],
    set1 X.contracted_intermediate (ein3 L.mljd L.adkl L.bcim L.abcijk Q.g_abab_oaoaoava Q.t2_abab Q.t2_aaaa),
    .aug X.triples_res [.arg Q.contracted_intermediate, ein1 L.abcijk L.abckji Q.contracted_intermediate, ein1 L.abcijk L.bacijk Q.contracted_intermediate, ein1 L.abcijk L.backji Q.contracted_intermediate],
    set1 X.contracted_intermediate (ein3 L.mldj L.dckl L.abim L.abcijk Q.g_aaaa_oaoavaoa Q.t2_aaaa Q.t2_aaaa),
    .aug X.triples_res [.arg Q.contracted_intermediate, ein1 L.abcijk L.abckji Q.contracted_intermediate],
    set1 X.contracted_intermediate (ein3 L.mljd L.cdkl L.abim L.abcijk Q.g_abab_oaoaoava Q.t2_abab Q.t2_aaaa),
    .aug X.triples_res [.arg Q.contracted_intermediate, ein1 L.abcijk L.abckji Q.contracted_intermediate],
    set1 X.contracted_intermediate (ein3 L.mldi L.dakl L.bcjm L.abcijk Q.g_aaaa_oaoavaoa Q.t2_aaaa Q.t2_aaaa),
    .aug X.triples_res [.arg Q.contracted_intermediate, ein1 L.abcijk L.abcikj Q.contracted_intermediate, ein1 L.abcijk L.bacijk Q.contracted_intermediate, ein1 L.abcijk L.bacikj Q.contracted_intermediate],
    set1 X.contracted_intermediate (ein3 L.mlid L.adkl L.bcjm L.abcijk Q.g_abab_oaoaoava Q.t2_abab Q.t2_aaaa),
    .aug X.triples_res [.arg Q.contracted_intermediate, ein1 L.abcijk L.abcikj Q.contracted_intermediate, ein1 L.abcijk L.bacijk Q.contracted_intermediate, ein1 L.abcijk L.bacikj Q.contracted_intermediate],
    set1 X.contracted_intermediate (ein3 L.mldi L.dajk L.bcml L.abcijk Q.g_aaaa_oaoavaoa Q.t2_aaaa Q.t2_aaaa),
    .aug X.triples_res [.arg Q.contracted_intermediate, ein1 L.abcijk L.bacijk Q.contracted_intermediate],
    set1 X.contracted_intermediate (ein3 L.mldi L.dckl L.abjm L.abcijk Q.g_aaaa_oaoavaoa Q.t2_aaaa Q.t2_aaaa),
    .aug X.triples_res [.arg Q.contracted_intermediate, ein1 L.abcijk L.abcikj Q.contracted_intermediate],
    set1 X.contracted_intermediate (ein3 L.mlid L.cdkl L.abjm L.abcijk Q.g_abab_oaoaoava Q.t2_abab Q.t2_aaaa),
    .aug X.triples_res [.arg Q.contracted_intermediate, ein1 L.abcijk L.abcikj Q.contracted_intermediate],
    aug1 X.triples_res (ein3 L.mldi L.dcjk L.abml L.abcijk Q.g_aaaa_oaoavaoa Q.t2_aaaa Q.t2_aaaa),
    set1 X.contracted_intermediate (ein3 L.lade L.dejk L.bcil L.abcijk Q.g_aaaa_oavavava Q.t2_aaaa Q.t2_aaaa),
    .aug X.triples_res [.arg Q.contracted_intermediate, ein1 L.abcijk L.abcjik Q.contracted_intermediate, ein1 L.abcijk L.bacijk Q.contracted_intermediate, ein1 L.abcijk L.bacjik Q.contracted_intermediate],
    set1 X.contracted_intermediate (ein3 L.lade L.deij L.bckl L.abcijk Q.g_aaaa_oavavava Q.t2_aaaa Q.t2_aaaa),
    .aug X.triples_res [.arg Q.contracted_intermediate, ein1 L.abcijk L.bacijk Q.contracted_intermediate],
    set1 X.contracted_intermediate (ein3 L.lade L.dbkl L.ecij L.abcijk Q.g_aaaa_oavavava Q.t2_aaaa Q.t2_aaaa),
    .aug X.triples_res [.arg Q.contracted_intermediate, ein1 L.abcijk L.abcikj Q.contracted_intermediate, ein1 L.abcijk L.bacijk Q.contracted_intermediate, ein1 L.abcijk L.bacikj Q.contracted_intermediate],
    set1 X.contracted_intermediate (ein3 L.aled L.bdkl L.ecij L.abcijk Q.g_abab_vaoavava Q.t2_abab Q.t2_aaaa),
    .aug X.triples_res [.arg Q.contracted_intermediate, ein1 L.abcijk L.abcikj Q.contracted_intermediate, ein1 L.abcijk L.bacijk Q.contracted_intermediate, ein1 L.abcijk L.bacikj Q.contracted_intermediate],
    set1 X.contracted_intermediate (ein3 L.lade L.dbil L.ecjk L.abcijk Q.g_aaaa_oavavava Q.t2_aaaa Q.t2_aaaa),
    .aug X.triples_res [.arg Q.contracted_intermediate, ein1 L.abcijk L.bacijk Q.contracted_intermediate],
    set1 X.contracted_intermediate (ein3 L.aled L.bdil L.ecjk L.abcijk Q.g_abab_vaoavava Q.t2_abab Q.t2_aaaa),
    .aug X.triples_res [.arg Q.contracted_intermediate, ein1 L.abcijk L.bacijk Q.contracted_intermediate],
    set1 X.contracted_intermediate (ein3 L.lade L.dbjk L.ecil L.abcijk Q.g_aaaa_oavavava Q.t2_aaaa Q.t2_aaaa),
    .aug X.triples_res [.arg Q.contracted_intermediate, ein1 L.abcijk L.abcjik Q.contracted_intermediate, ein1 L.abcijk L.bacijk Q.contracted_intermediate, ein1 L.abcijk L.bacjik Q.contracted_intermediate],
    set1 X.contracted_intermediate (ein3 L.alde L.dbjk L.ceil L.abcijk Q.g_abab_vaoavava Q.t2_aaaa Q.t2_abab),
    .aug X.triples_res [.arg Q.contracted_intermediate, ein1 L.abcijk L.abcjik Q.contracted_intermediate, ein1 L.abcijk L.bacijk Q.contracted_intermediate, ein1 L.abcijk L.bacjik Q.contracted_intermediate],
    set1 X.contracted_intermediate (ein3 L.lade L.dbij L.eckl L.abcijk Q.g_aaaa_oavavava Q.t2_aaaa Q.t2_aaaa),
    .aug X.triples_res [.arg Q.contracted_intermediate, ein1 L.abcijk L.bacijk Q.contracted_intermediate],
    set1 X.contracted_intermediate (ein3 L.alde L.dbij L.cekl L.abcijk Q.g_abab_vaoavava Q.t2_aaaa Q.t2_abab),
    .aug X.triples_res [.arg Q.contracted_intermediate, ein1 L.abcijk L.bacijk Q.contracted_intermediate],
    set1 X.contracted_intermediate (ein3 L.lcde L.dejk L.abil L.abcijk Q.g_aaaa_oavavava Q.t2_aaaa Q.t2_aaaa),
    .aug X.triples_res [.arg Q.contracted_intermediate, ein1 L.abcijk L.abcjik Q.contracted_intermediate],
    aug1 X.triples_res (ein3 L.lcde L.deij L.abkl L.abcijk Q.g_aaaa_oavavava Q.t2_aaaa Q.t2_aaaa),
    set1 X.contracted_intermediate (ein3 L.lcde L.dakl L.ebij L.abcijk Q.g_aaaa_oavavava Q.t2_aaaa Q.t2_aaaa),
    .aug X.triples_res [.arg Q.contracted_intermediate, ein1 L.abcijk L.abcikj Q.contracted_intermediate],
    set1 X.contracted_intermediate (ein3 L.cled L.adkl L.ebij L.abcijk Q.g_abab_vaoavava Q.t2_abab Q.t2_aaaa),
    .aug X.triples_res [.arg Q.contracted_intermediate, ein1 L.abcijk L.abcikj Q.contracted_intermediate],
    aug1 X.triples_res (ein3 L.lcde L.dail L.ebjk L.abcijk Q.g_aaaa_oavavava Q.t2_aaaa Q.t2_aaaa),
    aug1 X.triples_res (ein3 L.cled L.adil L.ebjk L.abcijk Q.g_abab_vaoavava Q.t2_abab Q.t2_aaaa),
    set1 X.contracted_intermediate (ein3 L.lcde L.dajk L.ebil L.abcijk Q.g_aaaa_oavavava Q.t2_aaaa Q.t2_aaaa),
    .aug X.triples_res [.arg Q.contracted_intermediate, ein1 L.abcijk L.abcjik Q.contracted_intermediate],
    set1 X.contracted_intermediate (ein3 L.clde L.dajk L.beil L.abcijk Q.g_abab_vaoavava Q.t2_aaaa Q.t2_abab),
    .aug X.triples_res [.arg Q.contracted_intermediate, ein1 L.abcijk L.abcjik Q.contracted_intermediate],
    aug1 X.triples_res (ein3 L.lcde L.daij L.ebkl L.abcijk Q.g_aaaa_oavavava Q.t2_aaaa Q.t2_aaaa),
    aug1 X.triples_res (ein3 L.clde L.daij L.bekl L.abcijk Q.g_abab_vaoavava Q.t2_aaaa Q.t2_abab),
    set1 X.contracted_intermediate (ein4 L.mlde L.dl L.eajk L.bcim L.abcijk Q.g_aaaa_oaoavava Q.t1_aa Q.t2_aaaa Q.t2_aaaa),
    .aug X.triples_res [.arg Q.contracted_intermediate, ein1 L.abcijk L.abcjik Q.contracted_intermediate, ein1 L.abcijk L.bacijk Q.contracted_intermediate, ein1 L.abcijk L.bacjik Q.contracted_intermediate],
    set1 X.contracted_intermediate (ein4 L.mled L.dl L.eajk L.bcim L.abcijk Q.g_abab_oaoavava Q.t1_bb Q.t2_aaaa Q.t2_aaaa),
    .aug X.triples_res [.arg Q.contracted_intermediate, ein1 L.abcijk L.abcjik Q.contracted_intermediate, ein1 L.abcijk L.bacijk Q.contracted_intermediate, ein1 L.abcijk L.bacjik Q.contracted_intermediate],
    set1 X.contracted_intermediate (ein4 L.mlde L.dl L.eaij L.bckm L.abcijk Q.g_aaaa_oaoavava Q.t1_aa Q.t2_aaaa Q.t2_aaaa),
    .aug X.triples_res [.arg Q.contracted_intermediate, ein1 L.abcijk L.bacijk Q.contracted_intermediate],
    set1 X.contracted_intermediate (ein4 L.mled L.dl L.eaij L.bckm L.abcijk Q.g_abab_oaoavava Q.t1_bb Q.t2_aaaa Q.t2_aaaa),
    .aug X.triples_res [.arg Q.contracted_intermediate, ein1 L.abcijk L.bacijk Q.contracted_intermediate],
    set1 X.contracted_intermediate (ein4 L.mlde L.dl L.ecjk L.abim L.abcijk Q.g_aaaa_oaoavava Q.t1_aa Q.t2_aaaa Q.t2_aaaa),
    .aug X.triples_res [.arg Q.contracted_intermediate, ein1 L.abcijk L.abcjik Q.contracted_intermediate],
    set1 X.contracted_intermediate (ein4 L.mled L.dl L.ecjk L.abim L.abcijk Q.g_abab_oaoavava Q.t1_bb Q.t2_aaaa Q.t2_aaaa),
    .aug X.triples_res [.arg Q.contracted_intermediate, ein1 L.abcijk L.abcjik Q.contracted_intermediate],
    aug1 X.triples_res (ein4 L.mlde L.dl L.ecij L.abkm L.abcijk Q.g_aaaa_oaoavava Q.t1_aa Q.t2_aaaa Q.t2_aaaa),
    aug1 X.triples_res (ein4 L.mled L.dl L.ecij L.abkm L.abcijk Q.g_abab_oaoavava Q.t1_bb Q.t2_aaaa Q.t2_aaaa),
    set1 X.contracted_intermediate (ein4 L.mlde L.dk L.eajl L.bcim L.abcijk Q.g_aaaa_oaoavava Q.t1_aa Q.t2_aaaa Q.t2_aaaa),
    .aug X.triples_res [.arg Q.contracted_intermediate, ein1 L.abcijk L.abcjik Q.contracted_intermediate, ein1 L.abcijk L.bacijk Q.contracted_intermediate, ein1 L.abcijk L.bacjik Q.contracted_intermediate],
    set1 X.contracted_intermediate (ein4 L.mlde L.dk L.aejl L.bcim L.abcijk Q.g_abab_oaoavava Q.t1_aa Q.t2_abab Q.t2_aaaa),
    .aug X.triples_res [.arg Q.contracted_intermediate, ein1 L.abcijk L.abcjik Q.contracted_intermediate, ein1 L.abcijk L.bacijk Q.contracted_intermediate, ein1 L.abcijk L.bacjik Q.contracted_intermediate],
    set1 X.contracted_intermediate (ein4 L.mlde L.dk L.eaij L.bcml L.abcijk Q.g_aaaa_oaoavava Q.t1_aa Q.t2_aaaa Q.t2_aaaa),
    .aug X.triples_res [.arg Q.contracted_intermediate, ein1 L.abcijk L.abcikj Q.contracted_intermediate, ein1 L.abcijk L.bacijk Q.contracted_intermediate, ein1 L.abcijk L.bacikj Q.contracted_intermediate],
    set1 X.contracted_intermediate (ein4 L.mlde L.dk L.ecjl L.abim L.abcijk Q.g_aaaa_oaoavava Q.t1_aa Q.t2_aaaa Q.t2_aaaa),
    .aug X.triples_res [.arg Q.contracted_intermediate, ein1 L.abcijk L.abcjik Q.contracted_intermediate],
    set1 X.contracted_intermediate (ein4 L.mlde L.dk L.cejl L.abim L.abcijk Q.g_abab_oaoavava Q.t1_aa Q.t2_abab Q.t2_aaaa),
    .aug X.triples_res [.arg Q.contracted_intermediate, ein1 L.abcijk L.abcjik Q.contracted_intermediate],
    set1 X.contracted_intermediate (ein4 L.mlde L.dk L.ecij L.abml L.abcijk Q.g_aaaa_oaoavava Q.t1_aa Q.t2_aaaa Q.t2_aaaa),
    .aug X.triples_res [.arg Q.contracted_intermediate, ein1 L.abcijk L.abcikj Q.contracted_intermediate],
    set1 X.contracted_intermediate (ein4 L.mlde L.dj L.eakl L.bcim L.abcijk Q.g_aaaa_oaoavava Q.t1_aa Q.t2_aaaa Q.t2_aaaa),
    .aug X.triples_res [.arg Q.contracted_intermediate, ein1 L.abcijk L.abckji Q.contracted_intermediate, ein1 L.abcijk L.bacijk Q.contracted_intermediate, ein1 L.abcijk L.backji Q.contracted_intermediate],
    set1 X.contracted_intermediate (ein4 L.mlde L.dj L.aekl L.bcim L.abcijk Q.g_abab_oaoavava Q.t1_aa Q.t2_abab Q.t2_aaaa),
    .aug X.triples_res [.arg Q.contracted_intermediate, ein1 L.abcijk L.abckji Q.contracted_intermediate, ein1 L.abcijk L.bacijk Q.contracted_intermediate, ein1 L.abcijk L.backji Q.contracted_intermediate],
    set1 X.contracted_intermediate (ein4 L.mlde L.dj L.eckl L.abim L.abcijk Q.g_aaaa_oaoavava Q.t1_aa Q.t2_aaaa Q.t2_aaaa),
    .aug X.triples_res [.arg Q.contracted_intermediate, ein1 L.abcijk L.abckji Q.contracted_intermediate],
    set1 X.contracted_intermediate (ein4 L.mlde L.dj L.cekl L.abim L.abcijk Q.g_abab_oaoavava Q.t1_aa Q.t2_abab Q.t2_aaaa),
    .aug X.triples_res [.arg Q.contracted_intermediate, ein1 L.abcijk L.abckji Q.contracted_intermediate],
    set1 X.contracted_intermediate (ein4 L.mlde L.di L.eakl L.bcjm L.abcijk Q.g_aaaa_oaoavava Q.t1_aa Q.t2_aaaa Q.t2_aaaa),
    .aug X.triples_res [.arg Q.contracted_intermediate, ein1 L.abcijk L.abcikj Q.contracted_intermediate, ein1 L.abcijk L.bacijk Q.contracted_intermediate, ein1 L.abcijk L.bacikj Q.contracted_intermediate],
    set1 X.contracted_intermediate (ein4 L.mlde L.di L.aekl L.bcjm L.abcijk Q.g_abab_oaoavava Q.t1_aa Q.t2_abab Q.t2_aaaa),
    .aug X.triples_res [.arg Q.contracted_intermediate, ein1 L.abcijk L.abcikj Q.contracted_intermediate, ein1 L.abcijk L.bacijk Q.contracted_intermediate, ein1 L.abcijk L.bacikj Q.contracted_intermediate],
    set1 X.contracted_intermediate (ein4 L.mlde L.di L.eajk L.bcml L.abcijk Q.g_aaaa_oaoavava Q.t1_aa Q.t2_aaaa Q.t2_aaaa),
    .aug X.triples_res [.arg Q.contracted_intermediate, ein1 L.abcijk L.bacijk Q.contracted_intermediate],
    set1 X.contracted_intermediate (ein4 L.mlde L.di L.eckl L.abjm L.abcijk Q.g_aaaa_oaoavava Q.t1_aa Q.t2_aaaa Q.t2_aaaa),
    .aug X.triples_res [.arg Q.contracted_intermediate, ein1 L.abcijk L.abcikj Q.contracted_intermediate],
    set1 X.contracted_intermediate (ein4 L.mlde L.di L.cekl L.abjm L.abcijk Q.g_abab_oaoavava Q.t1_aa Q.t2_abab Q.t2_aaaa),
    .aug X.triples_res [.arg Q.contracted_intermediate, ein1 L.abcijk L.abcikj Q.contracted_intermediate],
    aug1 X.triples_res (ein4 L.mlde L.di L.ecjk L.abml L.abcijk Q.g_aaaa_oaoavava Q.t1_aa Q.t2_aaaa Q.t2_aaaa),
    set1 X.contracted_intermediate (ein4 L.mlde L.al L.dejk L.bcim L.abcijk Q.g_aaaa_oaoavava Q.t1_aa Q.t2_aaaa Q.t2_aaaa),
    .aug X.triples_res [.arg Q.contracted_intermediate, ein1 L.abcijk L.abcjik Q.contracted_intermediate, ein1 L.abcijk L.bacijk Q.contracted_intermediate, ein1 L.abcijk L.bacjik Q.contracted_intermediate],
    set1 X.contracted_intermediate (ein4 L.mlde L.al L.deij L.bckm L.abcijk Q.g_aaaa_oaoavava Q.t1_aa Q.t2_aaaa Q.t2_aaaa),
    .aug X.triples_res [.arg Q.contracted_intermediate, ein1 L.abcijk L.bacijk Q.contracted_intermediate],
    set1 X.contracted_intermediate (ein4 L.mlde L.al L.dbkm L.ecij L.abcijk Q.g_aaaa_oaoavava Q.t1_aa Q.t2_aaaa Q.t2_aaaa),
    .aug X.triples_res [.arg Q.contracted_intermediate, ein1 L.abcijk L.abcikj Q.contracted_intermediate, ein1 L.abcijk L.bacijk Q.contracted_intermediate, ein1 L.abcijk L.bacikj Q.contracted_intermediate],
    set1 X.contracted_intermediate (ein4 L.lmed L.al L.bdkm L.ecij L.abcijk Q.g_abab_oaoavava Q.t1_aa Q.t2_abab Q.t2_aaaa),
    .aug X.triples_res [.arg Q.contracted_intermediate, ein1 L.abcijk L.abcikj Q.contracted_intermediate, ein1 L.abcijk L.bacijk Q.contracted_intermediate, ein1 L.abcijk L.bacikj Q.contracted_intermediate],
    set1 X.contracted_intermediate (ein4 L.mlde L.al L.dbim L.ecjk L.abcijk Q.g_aaaa_oaoavava Q.t1_aa Q.t2_aaaa Q.t2_aaaa),
    .aug X.triples_res [.arg Q.contracted_intermediate, ein1 L.abcijk L.bacijk Q.contracted_intermediate],
    set1 X.contracted_intermediate (ein4 L.lmed L.al L.bdim L.ecjk L.abcijk Q.g_abab_oaoavava Q.t1_aa Q.t2_abab Q.t2_aaaa),
    .aug X.triples_res [.arg Q.contracted_intermediate, ein1 L.abcijk L.bacijk Q.contracted_intermediate],
    set1 X.contracted_intermediate (ein4 L.mlde L.al L.dbjk L.ecim L.abcijk Q.g_aaaa_oaoavava Q.t1_aa Q.t2_aaaa Q.t2_aaaa),
    .aug X.triples_res [.arg Q.contracted_intermediate, ein1 L.abcijk L.abcjik Q.contracted_intermediate, ein1 L.abcijk L.bacijk Q.contracted_intermediate, ein1 L.abcijk L.bacjik Q.contracted_intermediate],
    set1 X.contracted_intermediate (ein4 L.lmde L.al L.dbjk L.ceim L.abcijk Q.g_abab_oaoavava Q.t1_aa Q.t2_aaaa Q.t2_abab),
    .aug X.triples_res [.arg Q.contracted_intermediate, ein1 L.abcijk L.abcjik Q.contracted_intermediate, ein1 L.abcijk L.bacijk Q.contracted_intermediate, ein1 L.abcijk L.bacjik Q.contracted_intermediate],
    set1 X.contracted_intermediate (ein4 L.mlde L.al L.dbij L.eckm L.abcijk Q.g_aaaa_oaoavava Q.t1_aa Q.t2_aaaa Q.t2_aaaa),
    .aug X.triples_res [.arg Q.contracted_intermediate, ein1 L.abcijk L.bacijk Q.contracted_intermediate],
    set1 X.contracted_intermediate (ein4 L.lmde L.al L.dbij L.cekm L.abcijk Q.g_abab_oaoavava Q.t1_aa Q.t2_aaaa Q.t2_abab),
    .aug X.triples_res [.arg Q.contracted_intermediate, ein1 L.abcijk L.bacijk Q.contracted_intermediate],
    set1 X.contracted_intermediate (ein4 L.mlde L.cl L.dejk L.abim L.abcijk Q.g_aaaa_oaoavava Q.t1_aa Q.t2_aaaa Q.t2_aaaa),
    .aug X.triples_res [.arg Q.contracted_intermediate, ein1 L.abcijk L.abcjik Q.contracted_intermediate],
    aug1 X.triples_res (ein4 L.mlde L.cl L.deij L.abkm L.abcijk Q.g_aaaa_oaoavava Q.t1_aa Q.t2_aaaa Q.t2_aaaa),
    set1 X.contracted_intermediate (ein4 L.mlde L.cl L.dakm L.ebij L.abcijk Q.g_aaaa_oaoavava Q.t1_aa Q.t2_aaaa Q.t2_aaaa),
    .aug X.triples_res [.arg Q.contracted_intermediate, ein1 L.abcijk L.abcikj Q.contracted_intermediate],
    set1 X.contracted_intermediate (ein4 L.lmed L.cl L.adkm L.ebij L.abcijk Q.g_abab_oaoavava Q.t1_aa Q.t2_abab Q.t2_aaaa),
    .aug X.triples_res [.arg Q.contracted_intermediate, ein1 L.abcijk L.abcikj Q.contracted_intermediate],
    aug1 X.triples_res (ein4 L.mlde L.cl L.daim L.ebjk L.abcijk Q.g_aaaa_oaoavava Q.t1_aa Q.t2_aaaa Q.t2_aaaa),
    aug1 X.triples_res (ein4 L.lmed L.cl L.adim L.ebjk L.abcijk Q.g_abab_oaoavava Q.t1_aa Q.t2_abab Q.t2_aaaa),
    set1 X.contracted_intermediate (ein4 L.mlde L.cl L.dajk L.ebim L.abcijk Q.g_aaaa_oaoavava Q.t1_aa Q.t2_aaaa Q.t2_aaaa),
    .aug X.triples_res [.arg Q.contracted_intermediate, ein1 L.abcijk L.abcjik Q.contracted_intermediate],
    set1 X.contracted_intermediate (ein4 L.lmde L.cl L.dajk L.beim L.abcijk Q.g_abab_oaoavava Q.t1_aa Q.t2_aaaa Q.t2_abab),
    .aug X.triples_res [.arg Q.contracted_intermediate, ein1 L.abcijk L.abcjik Q.contracted_intermediate],
    aug1 X.triples_res (ein4 L.mlde L.cl L.daij L.ebkm L.abcijk Q.g_aaaa_oaoavava Q.t1_aa Q.t2_aaaa Q.t2_aaaa),
    aug1 X.triples_res (ein4 L.lmde L.cl L.daij L.bekm L.abcijk Q.g_abab_oaoavava Q.t1_aa Q.t2_aaaa Q.t2_abab),
    set1 X.contracted_intermediate (ein4 L.mldk L.dj L.al L.bcim L.abcijk Q.g_aaaa_oaoavaoa Q.t1_aa Q.t1_aa Q.t2_aaaa),
    .aug X.triples_res [.arg Q.contracted_intermediate, ein1 L.abcijk L.abcjik Q.contracted_intermediate, ein1 L.abcijk L.bacijk Q.contracted_intermediate, ein1 L.abcijk L.bacjik Q.contracted_intermediate],
    set1 X.contracted_intermediate (ein4 L.mldk L.dj L.cl L.abim L.abcijk Q.g_aaaa_oaoavaoa Q.t1_aa Q.t1_aa Q.t2_aaaa),
    .aug X.triples_res [.arg Q.contracted_intermediate, ein1 L.abcijk L.abcjik Q.contracted_intermediate],
    set1 X.contracted_intermediate (ein4 L.mldk L.al L.bm L.dcij L.abcijk Q.g_aaaa_oaoavaoa Q.t1_aa Q.t1_aa Q.t2_aaaa),
    .aug X.triples_res [.arg Q.contracted_intermediate, ein1 L.abcijk L.abcikj Q.contracted_intermediate, ein1 L.abcijk L.acbijk Q.contracted_intermediate, ein1 L.abcijk L.acbikj Q.contracted_intermediate],
    set1 X.contracted_intermediate (ein4 L.mldk L.bl L.cm L.daij L.abcijk Q.g_aaaa_oaoavaoa Q.t1_aa Q.t1_aa Q.t2_aaaa),
    .aug X.triples_res [.arg Q.contracted_intermediate, ein1 L.abcijk L.abcikj Q.contracted_intermediate],
    set1 X.contracted_intermediate (ein4 L.mldj L.dk L.al L.bcim L.abcijk Q.g_aaaa_oaoavaoa Q.t1_aa Q.t1_aa Q.t2_aaaa),
    .aug X.triples_res [.arg Q.contracted_intermediate, ein1 L.abcijk L.abckji Q.contracted_intermediate, ein1 L.abcijk L.bacijk Q.contracted_intermediate, ein1 L.abcijk L.backji Q.contracted_intermediate],
    set1 X.contracted_intermediate (ein4 L.mldj L.dk L.cl L.abim L.abcijk Q.g_aaaa_oaoavaoa Q.t1_aa Q.t1_aa Q.t2_aaaa),
    .aug X.triples_res [.arg Q.contracted_intermediate, ein1 L.abcijk L.abckji Q.contracted_intermediate],
    set1 X.contracted_intermediate (ein4 L.mldi L.dk L.al L.bcjm L.abcijk Q.g_aaaa_oaoavaoa Q.t1_aa Q.t1_aa Q.t2_aaaa),
    .aug X.triples_res [.arg Q.contracted_intermediate, ein1 L.abcijk L.abcikj Q.contracted_intermediate, ein1 L.abcijk L.bacijk Q.contracted_intermediate, ein1 L.abcijk L.bacikj Q.contracted_intermediate],
    set1 X.contracted_intermediate (ein4 L.mldi L.dk L.cl L.abjm L.abcijk Q.g_aaaa_oaoavaoa Q.t1_aa Q.t1_aa Q.t2_aaaa),
    .aug X.triples_res [.arg Q.contracted_intermediate, ein1 L.abcijk L.abcikj Q.contracted_intermediate],
    set1 X.contracted_intermediate (ein4 L.mldi L.al L.bm L.dcjk L.abcijk Q.g_aaaa_oaoavaoa Q.t1_aa Q.t1_aa Q.t2_aaaa),
    .aug X.triples_res [.arg Q.contracted_intermediate, ein1 L.abcijk L.acbijk Q.contracted_intermediate],
    aug1 X.triples_res (ein4 L.mldi L.bl L.cm L.dajk L.abcijk Q.g_aaaa_oaoavaoa Q.t1_aa Q.t1_aa Q.t2_aaaa),
    set1 X.contracted_intermediate (ein4 L.lade L.dk L.ej L.bcil L.abcijk Q.g_aaaa_oavavava Q.t1_aa Q.t1_aa Q.t2_aaaa),
    .aug X.triples_res [.arg Q.contracted_intermediate, ein1 L.abcijk L.abcjik Q.contracted_intermediate, ein1 L.abcijk L.bacijk Q.contracted_intermediate, ein1 L.abcijk L.bacjik Q.contracted_intermediate],
    set1 X.contracted_intermediate (ein4 L.lade L.dk L.bl L.ecij L.abcijk Q.g_aaaa_oavavava Q.t1_aa Q.t1_aa Q.t2_aaaa),
    .aug X.triples_res [.arg Q.contracted_intermediate, ein1 L.abcijk L.abcikj Q.contracted_intermediate, ein1 L.abcijk L.acbijk Q.contracted_intermediate, ein1 L.abcijk L.acbikj Q.contracted_intermediate],
    set1 X.contracted_intermediate (ein4 L.lade L.dj L.ei L.bckl L.abcijk Q.g_aaaa_oavavava Q.t1_aa Q.t1_aa Q.t2_aaaa),
    .aug X.triples_res [.arg Q.contracted_intermediate, ein1 L.abcijk L.bacijk Q.contracted_intermediate],
    set1 X.contracted_intermediate (ein4 L.lade L.di L.bl L.ecjk L.abcijk Q.g_aaaa_oavavava Q.t1_aa Q.t1_aa Q.t2_aaaa),
    .aug X.triples_res [.arg Q.contracted_intermediate, ein1 L.abcijk L.acbijk Q.contracted_intermediate],
    set1 X.contracted_intermediate (ein4 L.lbde L.dk L.al L.ecij L.abcijk Q.g_aaaa_oavavava Q.t1_aa Q.t1_aa Q.t2_aaaa),
    .aug X.triples_res [.arg Q.contracted_intermediate, ein1 L.abcijk L.abcikj Q.contracted_intermediate, ein1 L.abcijk L.cbaijk Q.contracted_intermediate, ein1 L.abcijk L.cbaikj Q.contracted_intermediate],
    set1 X.contracted_intermediate (ein4 L.lbde L.di L.al L.ecjk L.abcijk Q.g_aaaa_oavavava Q.t1_aa Q.t1_aa Q.t2_aaaa),
    .aug X.triples_res [.arg Q.contracted_intermediate, ein1 L.abcijk L.cbaijk Q.contracted_intermediate],
    set1 X.contracted_intermediate (ein4 L.lcde L.dk L.ej L.abil L.abcijk Q.g_aaaa_oavavava Q.t1_aa Q.t1_aa Q.t2_aaaa),
    .aug X.triples_res [.arg Q.contracted_intermediate, ein1 L.abcijk L.abcjik Q.contracted_intermediate],
    set1 X.contracted_intermediate (ein4 L.lcde L.dk L.al L.ebij L.abcijk Q.g_aaaa_oavavava Q.t1_aa Q.t1_aa Q.t2_aaaa),
    .aug X.triples_res [.arg Q.contracted_intermediate, ein1 L.abcijk L.abcikj Q.contracted_intermediate, ein1 L.abcijk L.bacijk Q.contracted_intermediate, ein1 L.abcijk L.bacikj Q.contracted_intermediate],
    aug1 X.triples_res (ein4 L.lcde L.dj L.ei L.abkl L.abcijk Q.g_aaaa_oavavava Q.t1_aa Q.t1_aa Q.t2_aaaa),
    set1 X.contracted_intermediate (ein4 L.lcde L.di L.al L.ebjk L.abcijk Q.g_aaaa_oavavava Q.t1_aa Q.t1_aa Q.t2_aaaa),
    .aug X.triples_res [.arg Q.contracted_intermediate, ein1 L.abcijk L.bacijk Q.contracted_intermediate],
    set1 X.contracted_intermediate (ein4 L.mlde L.dl L.ek L.abcijm L.abcijk Q.g_aaaa_oaoavava Q.t1_aa Q.t1_aa Q.t3_aaaaaa),
    .aug X.triples_res [.arg Q.contracted_intermediate, ein1 L.abcijk L.abcikj Q.contracted_intermediate],
    set1 X.contracted_intermediate (ein4 L.mled L.dl L.ek L.abcijm L.abcijk Q.g_abab_oaoavava Q.t1_bb Q.t1_aa Q.t3_aaaaaa),
    .aug X.triples_res [.arg Q.contracted_intermediate, ein1 L.abcijk L.abcikj Q.contracted_intermediate],
    aug1 X.triples_res (ein4 L.mlde L.dl L.ei L.abcjkm L.abcijk Q.g_aaaa_oaoavava Q.t1_aa Q.t1_aa Q.t3_aaaaaa),
    aug1 X.triples_res (ein4 L.mled L.dl L.ei L.abcjkm L.abcijk Q.g_abab_oaoavava Q.t1_bb Q.t1_aa Q.t3_aaaaaa),
    set1 X.contracted_intermediate (ein4 L.mlde L.dl L.am L.ebcijk L.abcijk Q.g_aaaa_oaoavava Q.t1_aa Q.t1_aa Q.t3_aaaaaa),
    .aug X.triples_res [.arg Q.contracted_intermediate, ein1 L.abcijk L.bacijk Q.contracted_intermediate],
    set1 X.contracted_intermediate (ein4 L.mled L.dl L.am L.ebcijk L.abcijk Q.g_abab_oaoavava Q.t1_bb Q.t1_aa Q.t3_aaaaaa),
    .aug X.triples_res [.arg Q.contracted_intermediate, ein1 L.abcijk L.bacijk Q.contracted_intermediate],
    aug1 X.triples_res (ein4 L.mlde L.dl L.cm L.eabijk L.abcijk Q.g_aaaa_oaoavava Q.t1_aa Q.t1_aa Q.t3_aaaaaa),
    aug1 X.triples_res (ein4 L.mled L.dl L.cm L.eabijk L.abcijk Q.g_abab_oaoavava Q.t1_bb Q.t1_aa Q.t3_aaaaaa),
    set1 X.contracted_intermediate (ein4 L.mlde L.dk L.ej L.abciml L.abcijk Q.g_aaaa_oaoavava Q.t1_aa Q.t1_aa Q.t3_aaaaaa),
    .aug X.triples_res [.arg Q.contracted_intermediate, ein1 L.abcijk L.abcjik Q.contracted_intermediate],
    set1 X.contracted_intermediate (ein4 L.mlde L.dk L.al L.ebcijm L.abcijk Q.g_aaaa_oaoavava Q.t1_aa Q.t1_aa Q.t3_aaaaaa),
    .aug X.triples_res [.arg Q.contracted_intermediate, ein1 L.abcijk L.abcikj Q.contracted_intermediate, ein1 L.abcijk L.bacijk Q.contracted_intermediate, ein1 L.abcijk L.bacikj Q.contracted_intermediate],
    set1 X.contracted_intermediate (ein4 L.lmde L.dk L.al L.cbeijm L.abcijk Q.g_abab_oaoavava Q.t1_aa Q.t1_aa Q.t3_aabaab),
    .aug X.triples_res [.arg Q.contracted_intermediate, ein1 L.abcijk L.abcikj Q.contracted_intermediate, ein1 L.abcijk L.bacijk Q.contracted_intermediate, ein1 L.abcijk L.bacikj Q.contracted_intermediate],
    set1 X.contracted_intermediate (ein4 L.mlde L.dk L.cl L.eabijm L.abcijk Q.g_aaaa_oaoavava Q.t1_aa Q.t1_aa Q.t3_aaaaaa),
    .aug X.triples_res [.arg Q.contracted_intermediate, ein1 L.abcijk L.abcikj Q.contracted_intermediate],
    set1 X.contracted_intermediate (ein4 L.lmde L.dk L.cl L.baeijm L.abcijk Q.g_abab_oaoavava Q.t1_aa Q.t1_aa Q.t3_aabaab),
    .aug X.triples_res [.arg Q.contracted_intermediate, ein1 L.abcijk L.abcikj Q.contracted_intermediate],
    aug1 X.triples_res (ein4 L.mlde L.dj L.ei L.abckml L.abcijk Q.g_aaaa_oaoavava Q.t1_aa Q.t1_aa Q.t3_aaaaaa),
    set1 X.contracted_intermediate (ein4 L.mlde L.di L.al L.ebcjkm L.abcijk Q.g_aaaa_oaoavava Q.t1_aa Q.t1_aa Q.t3_aaaaaa),
    .aug X.triples_res [.arg Q.contracted_intermediate, ein1 L.abcijk L.bacijk Q.contracted_intermediate],
    set1 X.contracted_intermediate (ein4 L.lmde L.di L.al L.cbejkm L.abcijk Q.g_abab_oaoavava Q.t1_aa Q.t1_aa Q.t3_aabaab),
    .aug X.triples_res [.arg Q.contracted_intermediate, ein1 L.abcijk L.bacijk Q.contracted_intermediate],
    aug1 X.triples_res (ein4 L.mlde L.di L.cl L.eabjkm L.abcijk Q.g_aaaa_oaoavava Q.t1_aa Q.t1_aa Q.t3_aaaaaa),
    aug1 X.triples_res (ein4 L.lmde L.di L.cl L.baejkm L.abcijk Q.g_abab_oaoavava Q.t1_aa Q.t1_aa Q.t3_aabaab),
    set1 X.contracted_intermediate (ein4 L.mlde L.al L.bm L.decijk L.abcijk Q.g_aaaa_oaoavava Q.t1_aa Q.t1_aa Q.t3_aaaaaa),
    .aug X.triples_res [.arg Q.contracted_intermediate, ein1 L.abcijk L.acbijk Q.contracted_intermediate],
    aug1 X.triples_res (ein4 L.mlde L.bl L.cm L.deaijk L.abcijk Q.g_aaaa_oaoavava Q.t1_aa Q.t1_aa Q.t3_aaaaaa),
    set1 X.contracted_intermediate (ein5 L.mlde L.dk L.ej L.al L.bcim L.abcijk Q.g_aaaa_oaoavava Q.t1_aa Q.t1_aa Q.t1_aa Q.t2_aaaa),
    .aug X.triples_res [.arg Q.contracted_intermediate, ein1 L.abcijk L.abcjik Q.contracted_intermediate, ein1 L.abcijk L.bacijk Q.contracted_intermediate, ein1 L.abcijk L.bacjik Q.contracted_intermediate],
    set1 X.contracted_intermediate (ein5 L.mlde L.dk L.ej L.cl L.abim L.abcijk Q.g_aaaa_oaoavava Q.t1_aa Q.t1_aa Q.t1_aa Q.t2_aaaa),
    .aug X.triples_res [.arg Q.contracted_intermediate, ein1 L.abcijk L.abcjik Q.contracted_intermediate],
    set1 X.contracted_intermediate (ein5 L.mlde L.dk L.al L.bm L.ecij L.abcijk Q.g_aaaa_oaoavava Q.t1_aa Q.t1_aa Q.t1_aa Q.t2_aaaa),
    .aug X.triples_res [.arg Q.contracted_intermediate, ein1 L.abcijk L.abcikj Q.contracted_intermediate, ein1 L.abcijk L.acbijk Q.contracted_intermediate, ein1 L.abcijk L.acbikj Q.contracted_intermediate],
    set1 X.contracted_intermediate (ein5 L.mlde L.dk L.bl L.cm L.eaij L.abcijk Q.g_aaaa_oaoavava Q.t1_aa Q.t1_aa Q.t1_aa Q.t2_aaaa),
    .aug X.triples_res [.arg Q.contracted_intermediate, ein1 L.abcijk L.abcikj Q.contracted_intermediate],
    set1 X.contracted_intermediate (ein5 L.mlde L.dj L.ei L.al L.bckm L.abcijk Q.g_aaaa_oaoavava Q.t1_aa Q.t1_aa Q.t1_aa Q.t2_aaaa),
    .aug X.triples_res [.arg Q.contracted_intermediate, ein1 L.abcijk L.bacijk Q.contracted_intermediate],
    aug1 X.triples_res (ein5 L.mlde L.dj L.ei L.cl L.abkm L.abcijk Q.g_aaaa_oaoavava Q.t1_aa Q.t1_aa Q.t1_aa Q.t2_aaaa),
    set1 X.contracted_intermediate (ein5 L.mlde L.di L.al L.bm L.ecjk L.abcijk Q.g_aaaa_oaoavava Q.t1_aa Q.t1_aa Q.t1_aa Q.t2_aaaa),
    .aug X.triples_res [.arg Q.contracted_intermediate, ein1 L.abcijk L.acbijk Q.contracted_intermediate],
    aug1 X.triples_res (ein5 L.mlde L.di L.bl L.cm L.eajk L.abcijk Q.g_aaaa_oaoavava Q.t1_aa Q.t1_aa Q.t1_aa Q.t2_aaaa)]
  ret := [Q.triples_res]

/-- `fullCCresidEqns.py` 2349-3568: `ccsdt_t3_aabaab_residual`; 552 einsum calls. -/
def fullCCresidEqns_ccsdt_t3_aabaab_residual : Fn where
  params := [X.f_bb, X.t3_aabaab, X.f_aa, X.t1_bb, X.t1_aa, X.t2_abab, X.t2_aaaa, X.g_abab, X.g_aaaa, X.t3_abbabb, X.t3_aaaaaa, X.g_bbbb, X.t2_bbbb]
  body := [
    set1 X.triples_res (ein2 L.lk L.abcijl L.abcijk Q.f_bb_oaoa Q.t3_aabaab),
    aug1 X.triples_res (ein2 L.lj L.abcilk L.abcijk Q.f_aa_oaoa Q.t3_aabaab),
    aug1 X.triples_res (ein2 L.li L.abcjlk L.abcijk Q.f_aa_oaoa Q.t3_aabaab),
    set1 X.contracted_intermediate (ein2 L.ad L.dbcijk L.abcijk Q.f_aa_vava Q.t3_aabaab),
    .aug X.triples_res [.arg Q.contracted_intermediate, ein1 L.abcijk L.bacijk Q.contracted_intermediate],
    aug1 X.triples_res (ein2 L.cd L.badijk L.abcijk Q.f_bb_vava Q.t3_aabaab),
    aug1 X.triples_res (ein3 L.ld L.dk L.abcijl L.abcijk Q.f_bb_oava Q.t1_bb Q.t3_aabaab),
    aug1 X.triples_res (ein3 L.ld L.dj L.abcilk L.abcijk Q.f_aa_oava Q.t1_aa Q.t3_aabaab),
    aug1 X.triples_res (ein3 L.ld L.di L.abcjlk L.abcijk Q.f_aa_oava Q.t1_aa Q.t3_aabaab),
    set1 X.contracted_intermediate (ein3 L.ld L.al L.dbcijk L.abcijk Q.f_aa_oava Q.t1_aa Q.t3_aabaab),
    .aug X.triples_res [.arg Q.contracted_intermediate, ein1 L.abcijk L.bacijk Q.contracted_intermediate],
    aug1 X.triples_res (ein3 L.ld L.cl L.badijk L.abcijk Q.f_bb_oava Q.t1_bb Q.t3_aabaab),
    set1 X.contracted_intermediate (ein3 L.ld L.adjk L.bcil L.abcijk Q.f_bb_oava Q.t2_abab Q.t2_abab),
    .aug X.triples_res [.arg Q.contracted_intermediate, ein1 L.abcijk L.abcjik Q.contracted_intermediate, ein1 L.abcijk L.bacijk Q.contracted_intermediate, ein1 L.abcijk L.bacjik Q.contracted_intermediate],
    set1 X.contracted_intermediate (ein3 L.ld L.daij L.bclk L.abcijk Q.f_aa_oava Q.t2_aaaa Q.t2_abab),
    .aug X.triples_res [.arg Q.contracted_intermediate, ein1 L.abcijk L.bacijk Q.contracted_intermediate],
    set1 X.contracted_intermediate (ein3 L.ld L.dcjk L.abil L.abcijk Q.f_aa_oava Q.t2_abab Q.t2_aaaa),
    .aug X.triples_res [.arg Q.contracted_intermediate, ein1 L.abcijk L.abcjik Q.contracted_intermediate],
    set1 X.contracted_intermediate (ein2 L.aljk L.bcil L.abcijk Q.g_abab_vaoaoaoa Q.t2_abab),
    .aug X.triples_res [.arg Q.contracted_intermediate, ein1 L.abcijk L.abcjik Q.contracted_intermediate, ein1 L.abcijk L.bacijk Q.contracted_intermediate, ein1 L.abcijk L.bacjik Q.contracted_intermediate],
    set1 X.contracted_intermediate (ein2 L.laij L.bclk L.abcijk Q.g_aaaa_oavaoaoa Q.t2_abab),
    .aug X.triples_res [.arg Q.contracted_intermediate, ein1 L.abcijk L.bacijk Q.contracted_intermediate],
    set1 X.contracted_intermediate (ein2 L.lcjk L.abil L.abcijk Q.g_abab_oavaoaoa Q.t2_aaaa),
    .aug X.triples_res [.arg Q.contracted_intermediate, ein1 L.abcijk L.abcjik Q.contracted_intermediate],
    aug1 X.triples_res (ein2 L.acdk L.dbij L.abcijk Q.g_abab_vavavaoa Q.t2_aaaa),
    aug1 X.triples_res (ein2 L.abdj L.dcik L.abcijk Q.g_aaaa_vavavaoa Q.t2_abab),
    aug1 X.triples_res (ein2 L.acjd L.bdik L.abcijk Q.g_abab_vavaoava Q.t2_abab),
    aug1 X.triples_res (ein2 L.abdi L.dcjk L.abcijk Q.g_aaaa_vavavaoa Q.t2_abab),
    aug1 X.triples_res (ein2 L.acid L.bdjk L.abcijk Q.g_abab_vavaoava Q.t2_abab),
    aug1 X.triples_res (ein2 L.bcdk L.daij L.abcijk Q.g_abab_vavavaoa Q.t2_aaaa),
    aug1 X.triples_res (ein2 L.bcjd L.adik L.abcijk Q.g_abab_vavaoava Q.t2_abab),
    aug1 X.triples_res (ein2 L.bcid L.adjk L.abcijk Q.g_abab_vavaoava Q.t2_abab),
    set1 X.contracted_intermediate (ein2 L.mljk L.abciml L.abcijk Q.g_abab_oaoaoaoa Q.t3_aabaab),
    .aug X.triples_res [.arg Q.contracted_intermediate, ein1 L.abcijk L.abcjik Q.contracted_intermediate],
    set1 X.contracted_intermediate (ein2 L.lmjk L.abcilm L.abcijk Q.g_abab_oaoaoaoa Q.t3_aabaab),
    .aug X.triples_res [.arg Q.contracted_intermediate, ein1 L.abcijk L.abcjik Q.contracted_intermediate],
    aug1 X.triples_res (ein2 L.mlij L.abclmk L.abcijk Q.g_aaaa_oaoaoaoa Q.t3_aabaab),
    set1 X.contracted_intermediate (ein2 L.aldk L.dbcijl L.abcijk Q.g_abab_vaoavaoa Q.t3_aabaab),
    .aug X.triples_res [.arg Q.contracted_intermediate, ein1 L.abcijk L.bacijk Q.contracted_intermediate],
    set1 X.contracted_intermediate (ein2 L.ladj L.dbcilk L.abcijk Q.g_aaaa_oavavaoa Q.t3_aabaab),
    .aug X.triples_res [.arg Q.contracted_intermediate, ein1 L.abcijk L.bacijk Q.contracted_intermediate],
    set1 X.contracted_intermediate (ein2 L.aljd L.bdcikl L.abcijk Q.g_abab_vaoaoava Q.t3_abbabb),
    .aug X.triples_res [.arg Q.contracted_intermediate, ein1 L.abcijk L.bacijk Q.contracted_intermediate],
    set1 X.contracted_intermediate (ein2 L.ladi L.dbcjlk L.abcijk Q.g_aaaa_oavavaoa Q.t3_aabaab),
    .aug X.triples_res [.arg Q.contracted_intermediate, ein1 L.abcijk L.bacijk Q.contracted_intermediate],
    set1 X.contracted_intermediate (ein2 L.alid L.bdcjkl L.abcijk Q.g_abab_vaoaoava Q.t3_abbabb),
    .aug X.triples_res [.arg Q.contracted_intermediate, ein1 L.abcijk L.bacijk Q.contracted_intermediate],
    aug1 X.triples_res (ein2 L.lcdk L.dabijl L.abcijk Q.g_abab_oavavaoa Q.t3_aaaaaa),
    aug1 X.triples_res (ein2 L.lcdk L.badijl L.abcijk Q.g_bbbb_oavavaoa Q.t3_aabaab),
    aug1 X.triples_res (ein2 L.lcjd L.badilk L.abcijk Q.g_abab_oavaoava Q.t3_aabaab),
    aug1 X.triples_res (ein2 L.lcid L.badjlk L.abcijk Q.g_abab_oavaoava Q.t3_aabaab),
    aug1 X.triples_res (ein2 L.abde L.decijk L.abcijk Q.g_aaaa_vavavava Q.t3_aabaab),
    aug1 X.triples_res (ein2 L.acde L.dbeijk L.abcijk Q.g_abab_vavavava Q.t3_aabaab),
    aug1 X.triples_res (ein2 L.aced L.bedijk L.abcijk Q.g_abab_vavavava Q.t3_aabaab),
    aug1 X.triples_res (ein2 L.bcde L.daeijk L.abcijk Q.g_abab_vavavava Q.t3_aabaab),
    aug1 X.triples_res (ein2 L.bced L.aedijk L.abcijk Q.g_abab_vavavava Q.t3_aabaab),
    set1 X.contracted_intermediate (ein3 L.lmjk L.al L.bcim L.abcijk Q.g_abab_oaoaoaoa Q.t1_aa Q.t2_abab),
    .aug X.triples_res [.arg Q.contracted_intermediate, ein1 L.abcijk L.abcjik Q.contracted_intermediate, ein1 L.abcijk L.bacijk Q.contracted_intermediate, ein1 L.abcijk L.bacjik Q.contracted_intermediate],
    set1 X.contracted_intermediate (ein3 L.mljk L.cl L.abim L.abcijk Q.g_abab_oaoaoaoa Q.t1_bb Q.t2_aaaa),
    .aug X.triples_res [.arg Q.contracted_intermediate, ein1 L.abcijk L.abcjik Q.contracted_intermediate],
    set1 X.contracted_intermediate (ein3 L.mlij L.al L.bcmk L.abcijk Q.g_aaaa_oaoaoaoa Q.t1_aa Q.t2_abab),
    .aug X.triples_res [.arg Q.contracted_intermediate, ein1 L.abcijk L.bacijk Q.contracted_intermediate],
    set1 X.contracted_intermediate (ein3 L.aldk L.dj L.bcil L.abcijk Q.g_abab_vaoavaoa Q.t1_aa Q.t2_abab),
    .aug X.triples_res [.arg Q.contracted_intermediate, ein1 L.abcijk L.abcjik Q.contracted_intermediate, ein1 L.abcijk L.bacijk Q.contracted_intermediate, ein1 L.abcijk L.bacjik Q.contracted_intermediate],
    aug1 X.triples_res (ein3 L.aldk L.cl L.dbij L.abcijk Q.g_abab_vaoavaoa Q.t1_bb Q.t2_aaaa),
    aug1 X.triples_res (ein3 L.ladj L.bl L.dcik L.abcijk Q.g_aaaa_oavavaoa Q.t1_aa Q.t2_abab),
    aug1 X.triples_res (ein3 L.aljd L.cl L.bdik L.abcijk Q.g_abab_vaoaoava Q.t1_bb Q.t2_abab),
    set1 X.contracted_intermediate (ein3 L.aljd L.dk L.bcil L.abcijk Q.g_abab_vaoaoava Q.t1_bb Q.t2_abab),
    .aug X.triples_res [.arg Q.contracted_intermediate, ein1 L.abcijk L.bacijk Q.contracted_intermediate],
    set1 X.contracted_intermediate (ein3 L.ladj L.di L.bclk L.abcijk Q.g_aaaa_oavavaoa Q.t1_aa Q.t2_abab),
    .aug X.triples_res [.arg Q.contracted_intermediate, ein1 L.abcijk L.bacijk Q.contracted_intermediate],
    set1 X.contracted_intermediate (ein3 L.alid L.dk L.bcjl L.abcijk Q.g_abab_vaoaoava Q.t1_bb Q.t2_abab),
    .aug X.triples_res [.arg Q.contracted_intermediate, ein1 L.abcijk L.bacijk Q.contracted_intermediate],
    set1 X.contracted_intermediate (ein3 L.ladi L.dj L.bclk L.abcijk Q.g_aaaa_oavavaoa Q.t1_aa Q.t2_abab),
    .aug X.triples_res [.arg Q.contracted_intermediate, ein1 L.abcijk L.bacijk Q.contracted_intermediate],
    aug1 X.triples_res (ein3 L.ladi L.bl L.dcjk L.abcijk Q.g_aaaa_oavavaoa Q.t1_aa Q.t2_abab),
    aug1 X.triples_res (ein3 L.alid L.cl L.bdjk L.abcijk Q.g_abab_vaoaoava Q.t1_bb Q.t2_abab),
    aug1 X.triples_res (ein3 L.bldk L.cl L.daij L.abcijk Q.g_abab_vaoavaoa Q.t1_bb Q.t2_aaaa),
    aug1 X.triples_res (ein3 L.lbdj L.al L.dcik L.abcijk Q.g_aaaa_oavavaoa Q.t1_aa Q.t2_abab),
    aug1 X.triples_res (ein3 L.bljd L.cl L.adik L.abcijk Q.g_abab_vaoaoava Q.t1_bb Q.t2_abab),
    aug1 X.triples_res (ein3 L.lbdi L.al L.dcjk L.abcijk Q.g_aaaa_oavavaoa Q.t1_aa Q.t2_abab),
    aug1 X.triples_res (ein3 L.blid L.cl L.adjk L.abcijk Q.g_abab_vaoaoava Q.t1_bb Q.t2_abab),
    set1 X.contracted_intermediate (ein3 L.lcdk L.dj L.abil L.abcijk Q.g_abab_oavavaoa Q.t1_aa Q.t2_aaaa),
    .aug X.triples_res [.arg Q.contracted_intermediate, ein1 L.abcijk L.abcjik Q.contracted_intermediate],
    set1 X.contracted_intermediate (ein3 L.lcdk L.al L.dbij L.abcijk Q.g_abab_oavavaoa Q.t1_aa Q.t2_aaaa),
    .aug X.triples_res [.arg Q.contracted_intermediate, ein1 L.abcijk L.bacijk Q.contracted_intermediate],
    set1 X.contracted_intermediate (ein3 L.lcjd L.al L.bdik L.abcijk Q.g_abab_oavaoava Q.t1_aa Q.t2_abab),
    .aug X.triples_res [.arg Q.contracted_intermediate, ein1 L.abcijk L.bacijk Q.contracted_intermediate],
    aug1 X.triples_res (ein3 L.lcjd L.dk L.abil L.abcijk Q.g_abab_oavaoava Q.t1_bb Q.t2_aaaa),
    aug1 X.triples_res (ein3 L.lcid L.dk L.abjl L.abcijk Q.g_abab_oavaoava Q.t1_bb Q.t2_aaaa),
    set1 X.contracted_intermediate (ein3 L.lcid L.al L.bdjk L.abcijk Q.g_abab_oavaoava Q.t1_aa Q.t2_abab),
    .aug X.triples_res [.arg Q.contracted_intermediate, ein1 L.abcijk L.bacijk Q.contracted_intermediate],
    aug1 X.triples_res (ein3 L.aced L.dk L.ebij L.abcijk Q.g_abab_vavavava Q.t1_bb Q.t2_aaaa),
    aug1 X.triples_res (ein3 L.abde L.dj L.ecik L.abcijk Q.g_aaaa_vavavava Q.t1_aa Q.t2_abab),
    aug1 X.triples_res (ein3 L.acde L.dj L.beik L.abcijk Q.g_abab_vavavava Q.t1_aa Q.t2_abab),
    aug1 X.triples_res (ein3 L.abde L.di L.ecjk L.abcijk Q.g_aaaa_vavavava Q.t1_aa Q.t2_abab),
    aug1 X.triples_res (ein3 L.acde L.di L.bejk L.abcijk Q.g_abab_vavavava Q.t1_aa Q.t2_abab),
    aug1 X.triples_res (ein3 L.bced L.dk L.eaij L.abcijk Q.g_abab_vavavava Q.t1_bb Q.t2_aaaa),
    aug1 X.triples_res (ein3 L.bcde L.dj L.aeik L.abcijk Q.g_abab_vavavava Q.t1_aa Q.t2_abab),
    aug1 X.triples_res (ein3 L.bcde L.di L.aejk L.abcijk Q.g_abab_vavavava Q.t1_aa Q.t2_abab),
    aug1 X.triples_res (ein3 L.lmdk L.dl L.abcijm L.abcijk Q.g_abab_oaoavaoa Q.t1_aa Q.t3_aabaab),
    aug1 X.triples_res (ein3 L.mldk L.dl L.abcijm L.abcijk Q.g_bbbb_oaoavaoa Q.t1_bb Q.t3_aabaab),
    aug1 X.triples_res (ein3 L.mldj L.dl L.abcimk L.abcijk Q.g_aaaa_oaoavaoa Q.t1_aa Q.t3_aabaab),
    aug1 X.triples_res (ein3 L.mljd L.dl L.abcimk L.abcijk Q.g_abab_oaoaoava Q.t1_bb Q.t3_aabaab),
    set1 X.contracted_intermediate (ein3 L.mldk L.dj L.abciml L.abcijk Q.g_abab_oaoavaoa Q.t1_aa Q.t3_aabaab),
    .aug X.triples_res [.arg Q.contracted_intermediate, ein1 L.abcijk L.abcjik Q.contracted_intermediate],
    set1 X.contracted_intermediate (ein3 L.lmdk L.dj L.abcilm L.abcijk Q.g_abab_oaoavaoa Q.t1_aa Q.t3_aabaab),
    .aug X.triples_res [.arg Q.contracted_intermediate, ein1 L.abcijk L.abcjik Q.contracted_intermediate],
    set1 X.contracted_intermediate (ein3 L.lmdk L.al L.dbcijm L.abcijk Q.g_abab_oaoavaoa Q.t1_aa Q.t3_aabaab),
    .aug X.triples_res [.arg Q.contracted_intermediate, ein1 L.abcijk L.bacijk Q.contracted_intermediate],
    set1 X.contracted_intermediate (ein3 L.mldj L.al L.dbcimk L.abcijk Q.g_aaaa_oaoavaoa Q.t1_aa Q.t3_aabaab),
    .aug X.triples_res [.arg Q.contracted_intermediate, ein1 L.abcijk L.bacijk Q.contracted_intermediate],
    set1 X.contracted_intermediate (ein3 L.lmjd L.al L.bdcikm L.abcijk Q.g_abab_oaoaoava Q.t1_aa Q.t3_abbabb),
    .aug X.triples_res [.arg Q.contracted_intermediate, ein1 L.abcijk L.bacijk Q.contracted_intermediate],
    aug1 X.triples_res (ein3 L.mldk L.cl L.dabijm L.abcijk Q.g_abab_oaoavaoa Q.t1_bb Q.t3_aaaaaa),
    aug1 X.triples_res (ein3 L.mldk L.cl L.badijm L.abcijk Q.g_bbbb_oaoavaoa Q.t1_bb Q.t3_aabaab),
    aug1 X.triples_res (ein3 L.mljd L.cl L.badimk L.abcijk Q.g_abab_oaoaoava Q.t1_bb Q.t3_aabaab),
    aug1 X.triples_res (ein3 L.mljd L.dk L.abciml L.abcijk Q.g_abab_oaoaoava Q.t1_bb Q.t3_aabaab),
    aug1 X.triples_res (ein3 L.lmjd L.dk L.abcilm L.abcijk Q.g_abab_oaoaoava Q.t1_bb Q.t3_aabaab),
    aug1 X.triples_res (ein3 L.mldj L.di L.abclmk L.abcijk Q.g_aaaa_oaoavaoa Q.t1_aa Q.t3_aabaab),
    aug1 X.triples_res (ein3 L.mldi L.dl L.abcjmk L.abcijk Q.g_aaaa_oaoavaoa Q.t1_aa Q.t3_aabaab),
    aug1 X.triples_res (ein3 L.mlid L.dl L.abcjmk L.abcijk Q.g_abab_oaoaoava Q.t1_bb Q.t3_aabaab),
    aug1 X.triples_res (ein3 L.mlid L.dk L.abcjml L.abcijk Q.g_abab_oaoaoava Q.t1_bb Q.t3_aabaab),
    aug1 X.triples_res (ein3 L.lmid L.dk L.abcjlm L.abcijk Q.g_abab_oaoaoava Q.t1_bb Q.t3_aabaab),
    aug1 X.triples_res (ein3 L.mldi L.dj L.abclmk L.abcijk Q.g_aaaa_oaoavaoa Q.t1_aa Q.t3_aabaab),
    set1 X.contracted_intermediate (ein3 L.mldi L.al L.dbcjmk L.abcijk Q.g_aaaa_oaoavaoa Q.t1_aa Q.t3_aabaab),
    .aug X.triples_res [.arg Q.contracted_intermediate, ein1 L.abcijk L.bacijk Q.contracted_intermediate],
    set1 X.contracted_intermediate (ein3 L.lmid L.al L.bdcjkm L.abcijk Q.g_abab_oaoaoava Q.t1_aa Q.t3_abbabb),
    .aug X.triples_res [.arg Q.contracted_intermediate, ein1 L.abcijk L.bacijk Q.contracted_intermediate],
    aug1 X.triples_res (ein3 L.mlid L.cl L.badjmk L.abcijk Q.g_abab_oaoaoava Q.t1_bb Q.t3_aabaab),
    set1 X.contracted_intermediate (ein3 L.lade L.dl L.ebcijk L.abcijk Q.g_aaaa_oavavava Q.t1_aa Q.t3_aabaab),
    .aug X.triples_res [.arg Q.contracted_intermediate, ein1 L.abcijk L.bacijk Q.contracted_intermediate],
    set1 X.contracted_intermediate (ein3 L.aled L.dl L.ebcijk L.abcijk Q.g_abab_vaoavava Q.t1_bb Q.t3_aabaab),
    .aug X.triples_res [.arg Q.contracted_intermediate, ein1 L.abcijk L.bacijk Q.contracted_intermediate],
    set1 X.contracted_intermediate (ein3 L.aled L.dk L.ebcijl L.abcijk Q.g_abab_vaoavava Q.t1_bb Q.t3_aabaab),
    .aug X.triples_res [.arg Q.contracted_intermediate, ein1 L.abcijk L.bacijk Q.contracted_intermediate],
    set1 X.contracted_intermediate (ein3 L.lade L.dj L.ebcilk L.abcijk Q.g_aaaa_oavavava Q.t1_aa Q.t3_aabaab),
    .aug X.triples_res [.arg Q.contracted_intermediate, ein1 L.abcijk L.bacijk Q.contracted_intermediate],
    set1 X.contracted_intermediate (ein3 L.alde L.dj L.becikl L.abcijk Q.g_abab_vaoavava Q.t1_aa Q.t3_abbabb),
    .aug X.triples_res [.arg Q.contracted_intermediate, ein1 L.abcijk L.bacijk Q.contracted_intermediate],
    set1 X.contracted_intermediate (ein3 L.lade L.di L.ebcjlk L.abcijk Q.g_aaaa_oavavava Q.t1_aa Q.t3_aabaab),
    .aug X.triples_res [.arg Q.contracted_intermediate, ein1 L.abcijk L.bacijk Q.contracted_intermediate],
    set1 X.contracted_intermediate (ein3 L.alde L.di L.becjkl L.abcijk Q.g_abab_vaoavava Q.t1_aa Q.t3_abbabb),
    .aug X.triples_res [.arg Q.contracted_intermediate, ein1 L.abcijk L.bacijk Q.contracted_intermediate],
    aug1 X.triples_res (ein3 L.lade L.bl L.decijk L.abcijk Q.g_aaaa_oavavava Q.t1_aa Q.t3_aabaab),
    aug1 X.triples_res (ein3 L.alde L.cl L.dbeijk L.abcijk Q.g_abab_vaoavava Q.t1_bb Q.t3_aabaab),
    aug1 X.triples_res (ein3 L.aled L.cl L.bedijk L.abcijk Q.g_abab_vaoavava Q.t1_bb Q.t3_aabaab),
    aug1 X.triples_res (ein3 L.lbde L.al L.decijk L.abcijk Q.g_aaaa_oavavava Q.t1_aa Q.t3_aabaab),
    aug1 X.triples_res (ein3 L.blde L.cl L.daeijk L.abcijk Q.g_abab_vaoavava Q.t1_bb Q.t3_aabaab),
    aug1 X.triples_res (ein3 L.bled L.cl L.aedijk L.abcijk Q.g_abab_vaoavava Q.t1_bb Q.t3_aabaab),
    aug1 X.triples_res (ein3 L.lcde L.dl L.baeijk L.abcijk Q.g_abab_oavavava Q.t1_aa Q.t3_aabaab),
    aug1 X.triples_res (ein3 L.lcde L.dl L.baeijk L.abcijk Q.g_bbbb_oavavava Q.t1_bb Q.t3_aabaab),
    aug1 X.triples_res (ein3 L.lced L.dk L.eabijl L.abcijk Q.g_abab_oavavava Q.t1_bb Q.t3_aaaaaa),
    aug1 X.triples_res (ein3 L.lcde L.dk L.baeijl L.abcijk Q.g_bbbb_oavavava Q.t1_bb Q.t3_aabaab),
    aug1 X.triples_res (ein3 L.lcde L.dj L.baeilk L.abcijk Q.g_abab_oavavava Q.t1_aa Q.t3_aabaab),
    aug1 X.triples_res (ein3 L.lcde L.di L.baejlk L.abcijk Q.g_abab_oavavava Q.t1_aa Q.t3_aabaab),
    set1 X.contracted_intermediate (ein3 L.lcde L.al L.dbeijk L.abcijk Q.g_abab_oavavava Q.t1_aa Q.t3_aabaab),
    .aug X.triples_res [.arg Q.contracted_intermediate, ein1 L.abcijk L.bacijk Q.contracted_intermediate],
    set1 X.contracted_intermediate (ein3 L.lced L.al L.bedijk L.abcijk Q.g_abab_oavavava Q.t1_aa Q.t3_aabaab),
    .aug X.triples_res [.arg Q.contracted_intermediate, ein1 L.abcijk L.bacijk Q.contracted_intermediate],
    aug1 X.triples_res (ein3 L.lmde L.delk L.abcijm L.abcijk Q.g_abab_oaoavava Q.t2_abab Q.t3_aabaab),
    aug1 X.triples_res (ein3 L.lmed L.edlk L.abcijm L.abcijk Q.g_abab_oaoavava Q.t2_abab Q.t3_aabaab),
    aug1 X.triples_res (ein3 L.mlde L.dekl L.abcijm L.abcijk Q.g_bbbb_oaoavava Q.t2_bbbb Q.t3_aabaab),
    aug1 X.triples_res (ein3 L.mlde L.dejl L.abcimk L.abcijk Q.g_aaaa_oaoavava Q.t2_aaaa Q.t3_aabaab),
    aug1 X.triples_res (ein3 L.mlde L.dejl L.abcimk L.abcijk Q.g_abab_oaoavava Q.t2_abab Q.t3_aabaab),
    aug1 X.triples_res (ein3 L.mled L.edjl L.abcimk L.abcijk Q.g_abab_oaoavava Q.t2_abab Q.t3_aabaab),
    aug1 X.triples_res (ein3 L.mlde L.deil L.abcjmk L.abcijk Q.g_aaaa_oaoavava Q.t2_aaaa Q.t3_aabaab),
    aug1 X.triples_res (ein3 L.mlde L.deil L.abcjmk L.abcijk Q.g_abab_oaoavava Q.t2_abab Q.t3_aabaab),
    aug1 X.triples_res (ein3 L.mled L.edil L.abcjmk L.abcijk Q.g_abab_oaoavava Q.t2_abab Q.t3_aabaab),
    set1 X.contracted_intermediate (ein3 L.mlde L.dejk L.abciml L.abcijk Q.g_abab_oaoavava Q.t2_abab Q.t3_aabaab),
    .aug X.triples_res [.arg Q.contracted_intermediate, ein1 L.abcijk L.abcjik Q.contracted_intermediate],
    set1 X.contracted_intermediate (ein3 L.lmde L.dejk L.abcilm L.abcijk Q.g_abab_oaoavava Q.t2_abab Q.t3_aabaab),
    .aug X.triples_res [.arg Q.contracted_intermediate, ein1 L.abcijk L.abcjik Q.contracted_intermediate],
    set1 X.contracted_intermediate (ein3 L.mled L.edjk L.abciml L.abcijk Q.g_abab_oaoavava Q.t2_abab Q.t3_aabaab),
    .aug X.triples_res [.arg Q.contracted_intermediate, ein1 L.abcijk L.abcjik Q.contracted_intermediate],
    set1 X.contracted_intermediate (ein3 L.lmed L.edjk L.abcilm L.abcijk Q.g_abab_oaoavava Q.t2_abab Q.t3_aabaab),
    .aug X.triples_res [.arg Q.contracted_intermediate, ein1 L.abcijk L.abcjik Q.contracted_intermediate],
    aug1 X.triples_res (ein3 L.mlde L.deij L.abclmk L.abcijk Q.g_aaaa_oaoavava Q.t2_aaaa Q.t3_aabaab),
    set1 X.contracted_intermediate (ein3 L.mlde L.daml L.ebcijk L.abcijk Q.g_aaaa_oaoavava Q.t2_aaaa Q.t3_aabaab),
    .aug X.triples_res [.arg Q.contracted_intermediate, ein1 L.abcijk L.bacijk Q.contracted_intermediate],
    set1 X.contracted_intermediate (ein3 L.mled L.adml L.ebcijk L.abcijk Q.g_abab_oaoavava Q.t2_abab Q.t3_aabaab),
    .aug X.triples_res [.arg Q.contracted_intermediate, ein1 L.abcijk L.bacijk Q.contracted_intermediate],
    set1 X.contracted_intermediate (ein3 L.lmed L.adlm L.ebcijk L.abcijk Q.g_abab_oaoavava Q.t2_abab Q.t3_aabaab),
    .aug X.triples_res [.arg Q.contracted_intermediate, ein1 L.abcijk L.bacijk Q.contracted_intermediate],
    set1 X.contracted_intermediate (ein3 L.lmed L.adlk L.ebcijm L.abcijk Q.g_abab_oaoavava Q.t2_abab Q.t3_aabaab),
    .aug X.triples_res [.arg Q.contracted_intermediate, ein1 L.abcijk L.bacijk Q.contracted_intermediate],
    set1 X.contracted_intermediate (ein3 L.mlde L.dajl L.ebcimk L.abcijk Q.g_aaaa_oaoavava Q.t2_aaaa Q.t3_aabaab),
    .aug X.triples_res [.arg Q.contracted_intermediate, ein1 L.abcijk L.bacijk Q.contracted_intermediate],
    set1 X.contracted_intermediate (ein3 L.lmde L.dajl L.becikm L.abcijk Q.g_abab_oaoavava Q.t2_aaaa Q.t3_abbabb),
    .aug X.triples_res [.arg Q.contracted_intermediate, ein1 L.abcijk L.bacijk Q.contracted_intermediate],
    set1 X.contracted_intermediate (ein3 L.mled L.adjl L.ebcimk L.abcijk Q.g_abab_oaoavava Q.t2_abab Q.t3_aabaab),
    .aug X.triples_res [.arg Q.contracted_intermediate, ein1 L.abcijk L.bacijk Q.contracted_intermediate],
    set1 X.contracted_intermediate (ein3 L.mlde L.adjl L.becikm L.abcijk Q.g_bbbb_oaoavava Q.t2_abab Q.t3_abbabb),
    .aug X.triples_res [.arg Q.contracted_intermediate, ein1 L.abcijk L.bacijk Q.contracted_intermediate],
    set1 X.contracted_intermediate (ein3 L.mlde L.dail L.ebcjmk L.abcijk Q.g_aaaa_oaoavava Q.t2_aaaa Q.t3_aabaab),
    .aug X.triples_res [.arg Q.contracted_intermediate, ein1 L.abcijk L.bacijk Q.contracted_intermediate],
    set1 X.contracted_intermediate (ein3 L.lmde L.dail L.becjkm L.abcijk Q.g_abab_oaoavava Q.t2_aaaa Q.t3_abbabb),
    .aug X.triples_res [.arg Q.contracted_intermediate, ein1 L.abcijk L.bacijk Q.contracted_intermediate],
    set1 X.contracted_intermediate (ein3 L.mled L.adil L.ebcjmk L.abcijk Q.g_abab_oaoavava Q.t2_abab Q.t3_aabaab),
    .aug X.triples_res [.arg Q.contracted_intermediate, ein1 L.abcijk L.bacijk Q.contracted_intermediate],
    set1 X.contracted_intermediate (ein3 L.mlde L.adil L.becjkm L.abcijk Q.g_bbbb_oaoavava Q.t2_abab Q.t3_abbabb),
    .aug X.triples_res [.arg Q.contracted_intermediate, ein1 L.abcijk L.bacijk Q.contracted_intermediate],
    set1 X.contracted_intermediate (ein3 L.mled L.adjk L.ebciml L.abcijk Q.g_abab_oaoavava Q.t2_abab Q.t3_aabaab),
    .aug X.triples_res [.arg Q.contracted_intermediate, ein1 L.abcijk L.abcjik Q.contracted_intermediate, ein1 L.abcijk L.bacijk Q.contracted_intermediate, ein1 L.abcijk L.bacjik Q.contracted_intermediate],
    set1 X.contracted_intermediate (ein3 L.lmed L.adjk L.ebcilm L.abcijk Q.g_abab_oaoavava Q.t2_abab Q.t3_aabaab),
    .aug X.triples_res [.arg Q.contracted_intermediate, ein1 L.abcijk L.abcjik Q.contracted_intermediate, ein1 L.abcijk L.bacijk Q.contracted_intermediate, ein1 L.abcijk L.bacjik Q.contracted_intermediate],
    set1 X.contracted_intermediate (ein3 L.mlde L.adjk L.beciml L.abcijk Q.g_bbbb_oaoavava Q.t2_abab Q.t3_abbabb),
    .aug X.triples_res [.arg Q.contracted_intermediate, ein1 L.abcijk L.abcjik Q.contracted_intermediate, ein1 L.abcijk L.bacijk Q.contracted_intermediate, ein1 L.abcijk L.bacjik Q.contracted_intermediate],
    set1 X.contracted_intermediate (ein3 L.mlde L.daij L.ebclmk L.abcijk Q.g_aaaa_oaoavava Q.t2_aaaa Q.t3_aabaab),
    .aug X.triples_res [.arg Q.contracted_intermediate, ein1 L.abcijk L.bacijk Q.contracted_intermediate],
    set1 X.contracted_intermediate (ein3 L.mlde L.daij L.becmkl L.abcijk Q.g_abab_oaoavava Q.t2_aaaa Q.t3_abbabb),
    .aug X.triples_res [.arg Q.contracted_intermediate, ein1 L.abcijk L.bacijk Q.contracted_intermediate],
    set1 X.contracted_intermediate (ein3 L.lmde L.daij L.beclmk L.abcijk Q.g_abab_oaoavava Q.t2_aaaa Q.t3_abbabb),
    .aug X.triples_res [.arg Q.contracted_intermediate, ein1 L.abcijk L.bacijk Q.contracted_intermediate],
    aug1 X.triples_res (ein3 L.mlde L.dcml L.baeijk L.abcijk Q.g_abab_oaoavava Q.t2_abab Q.t3_aabaab),
    aug1 X.triples_res (ein3 L.lmde L.dclm L.baeijk L.abcijk Q.g_abab_oaoavava Q.t2_abab Q.t3_aabaab),
    aug1 X.triples_res (ein3 L.mlde L.dcml L.baeijk L.abcijk Q.g_bbbb_oaoavava Q.t2_bbbb Q.t3_aabaab),
    aug1 X.triples_res (ein3 L.mlde L.dclk L.eabijm L.abcijk Q.g_aaaa_oaoavava Q.t2_abab Q.t3_aaaaaa),
    aug1 X.triples_res (ein3 L.lmde L.dclk L.baeijm L.abcijk Q.g_abab_oaoavava Q.t2_abab Q.t3_aabaab),
    aug1 X.triples_res (ein3 L.mled L.dckl L.eabijm L.abcijk Q.g_abab_oaoavava Q.t2_bbbb Q.t3_aaaaaa),
    aug1 X.triples_res (ein3 L.mlde L.dckl L.baeijm L.abcijk Q.g_bbbb_oaoavava Q.t2_bbbb Q.t3_aabaab),
    aug1 X.triples_res (ein3 L.mlde L.dcjl L.baeimk L.abcijk Q.g_abab_oaoavava Q.t2_abab Q.t3_aabaab),
    aug1 X.triples_res (ein3 L.mlde L.dcil L.baejmk L.abcijk Q.g_abab_oaoavava Q.t2_abab Q.t3_aabaab),
    set1 X.contracted_intermediate (ein3 L.mlde L.dcjk L.eabiml L.abcijk Q.g_aaaa_oaoavava Q.t2_abab Q.t3_aaaaaa),
    .aug X.triples_res [.arg Q.contracted_intermediate, ein1 L.abcijk L.abcjik Q.contracted_intermediate],
    set1 X.contracted_intermediate (ein3 L.mlde L.dcjk L.baeiml L.abcijk Q.g_abab_oaoavava Q.t2_abab Q.t3_aabaab),
    .aug X.triples_res [.arg Q.contracted_intermediate, ein1 L.abcijk L.abcjik Q.contracted_intermediate],
    set1 X.contracted_intermediate (ein3 L.lmde L.dcjk L.baeilm L.abcijk Q.g_abab_oaoavava Q.t2_abab Q.t3_aabaab),
    .aug X.triples_res [.arg Q.contracted_intermediate, ein1 L.abcijk L.abcjik Q.contracted_intermediate],
    aug1 X.triples_res (ein3 L.mlde L.abml L.decijk L.abcijk Q.g_aaaa_oaoavava Q.t2_aaaa Q.t3_aabaab),
    aug1 X.triples_res (ein3 L.mlde L.acml L.dbeijk L.abcijk Q.g_abab_oaoavava Q.t2_abab Q.t3_aabaab),
    aug1 X.triples_res (ein3 L.mled L.acml L.bedijk L.abcijk Q.g_abab_oaoavava Q.t2_abab Q.t3_aabaab),
    aug1 X.triples_res (ein3 L.lmde L.aclm L.dbeijk L.abcijk Q.g_abab_oaoavava Q.t2_abab Q.t3_aabaab),
    aug1 X.triples_res (ein3 L.lmed L.aclm L.bedijk L.abcijk Q.g_abab_oaoavava Q.t2_abab Q.t3_aabaab),
    aug1 X.triples_res (ein3 L.mlde L.aclk L.debijm L.abcijk Q.g_aaaa_oaoavava Q.t2_abab Q.t3_aaaaaa),
    aug1 X.triples_res (ein3 L.lmde L.aclk L.dbeijm L.abcijk Q.g_abab_oaoavava Q.t2_abab Q.t3_aabaab),
    aug1 X.triples_res (ein3 L.lmed L.aclk L.bedijm L.abcijk Q.g_abab_oaoavava Q.t2_abab Q.t3_aabaab),
    aug1 X.triples_res (ein3 L.mlde L.abjl L.decimk L.abcijk Q.g_aaaa_oaoavava Q.t2_aaaa Q.t3_aabaab),
    aug1 X.triples_res (ein3 L.lmde L.abjl L.decikm L.abcijk Q.g_abab_oaoavava Q.t2_aaaa Q.t3_abbabb),
    aug1 X.triples_res (ein3 L.lmed L.abjl L.edcikm L.abcijk Q.g_abab_oaoavava Q.t2_aaaa Q.t3_abbabb),
    aug1 X.triples_res (ein3 L.mlde L.acjl L.dbeimk L.abcijk Q.g_abab_oaoavava Q.t2_abab Q.t3_aabaab),
    aug1 X.triples_res (ein3 L.mled L.acjl L.bedimk L.abcijk Q.g_abab_oaoavava Q.t2_abab Q.t3_aabaab),
    aug1 X.triples_res (ein3 L.mlde L.acjl L.bedikm L.abcijk Q.g_bbbb_oaoavava Q.t2_abab Q.t3_abbabb),
    aug1 X.triples_res (ein3 L.mlde L.abil L.decjmk L.abcijk Q.g_aaaa_oaoavava Q.t2_aaaa Q.t3_aabaab),
    aug1 X.triples_res (ein3 L.lmde L.abil L.decjkm L.abcijk Q.g_abab_oaoavava Q.t2_aaaa Q.t3_abbabb),
    aug1 X.triples_res (ein3 L.lmed L.abil L.edcjkm L.abcijk Q.g_abab_oaoavava Q.t2_aaaa Q.t3_abbabb),
    aug1 X.triples_res (ein3 L.mlde L.acil L.dbejmk L.abcijk Q.g_abab_oaoavava Q.t2_abab Q.t3_aabaab),
    aug1 X.triples_res (ein3 L.mled L.acil L.bedjmk L.abcijk Q.g_abab_oaoavava Q.t2_abab Q.t3_aabaab),
    aug1 X.triples_res (ein3 L.mlde L.acil L.bedjkm L.abcijk Q.g_bbbb_oaoavava Q.t2_abab Q.t3_abbabb),
    aug1 X.triples_res (ein3 L.mlde L.bcml L.daeijk L.abcijk Q.g_abab_oaoavava Q.t2_abab Q.t3_aabaab),
    aug1 X.triples_res (ein3 L.mled L.bcml L.aedijk L.abcijk Q.g_abab_oaoavava Q.t2_abab Q.t3_aabaab),
    aug1 X.triples_res (ein3 L.lmde L.bclm L.daeijk L.abcijk Q.g_abab_oaoavava Q.t2_abab Q.t3_aabaab),
    aug1 X.triples_res (ein3 L.lmed L.bclm L.aedijk L.abcijk Q.g_abab_oaoavava Q.t2_abab Q.t3_aabaab),
    aug1 X.triples_res (ein3 L.mlde L.bclk L.deaijm L.abcijk Q.g_aaaa_oaoavava Q.t2_abab Q.t3_aaaaaa),
    aug1 X.triples_res (ein3 L.lmde L.bclk L.daeijm L.abcijk Q.g_abab_oaoavava Q.t2_abab Q.t3_aabaab),
    aug1 X.triples_res (ein3 L.lmed L.bclk L.aedijm L.abcijk Q.g_abab_oaoavava Q.t2_abab Q.t3_aabaab),
    aug1 X.triples_res (ein3 L.mlde L.bcjl L.daeimk L.abcijk Q.g_abab_oaoavava Q.t2_abab Q.t3_aabaab),
    aug1 X.triples_res (ein3 L.mled L.bcjl L.aedimk L.abcijk Q.g_abab_oaoavava Q.t2_abab Q.t3_aabaab),
    aug1 X.triples_res (ein3 L.mlde L.bcjl L.aedikm L.abcijk Q.g_bbbb_oaoavava Q.t2_abab Q.t3_abbabb),
    aug1 X.triples_res (ein3 L.mlde L.bcil L.daejmk L.abcijk Q.g_abab_oaoavava Q.t2_abab Q.t3_aabaab),
    aug1 X.triples_res (ein3 L.mled L.bcil L.aedjmk L.abcijk Q.g_abab_oaoavava Q.t2_abab Q.t3_aabaab),
    aug1 X.triples_res (ein3 L.mlde L.bcil L.aedjkm L.abcijk Q.g_bbbb_oaoavava Q.t2_abab Q.t3_abbabb),
    set1 X.contracted_intermediate (ein3 L.lmdk L.dajl L.bcim L.abcijk Q.g_abab_oaoavaoa Q.t2_aaaa Q.t2_abab),
    .aug X.triples_res [.arg Q.contracted_intermediate, ein1 L.abcijk L.abcjik Q.contracted_intermediate, ein1 L.abcijk L.bacijk Q.contracted_intermediate, ein1 L.abcijk L.bacjik Q.contracted_intermediate],
    set1 X.contracted_intermediate (ein3 L.mldk L.adjl L.bcim L.abcijk Q.g_bbbb_oaoavaoa Q.t2_abab Q.t2_abab),
    .aug X.triples_res [.arg Q.contracted_intermediate, ein1 L.abcijk L.abcjik Q.contracted_intermediate, ein1 L.abcijk L.bacijk Q.contracted_intermediate, ein1 L.abcijk L.bacjik Q.contracted_intermediate],
    set1 X.contracted_intermediate (ein3 L.mldk L.daij L.bcml L.abcijk Q.g_abab_oaoavaoa Q.t2_aaaa Q.t2_abab),
    .aug X.triples_res [.arg Q.contracted_intermediate, ein1 L.abcijk L.bacijk Q.contracted_intermediate],
    set1 X.contracted_intermediate (ein3 L.lmdk L.daij L.bclm L.abcijk Q.g_abab_oaoavaoa Q.t2_aaaa Q.t2_abab),
    .aug X.triples_res [.arg Q.contracted_intermediate, ein1 L.abcijk L.bacijk Q.contracted_intermediate],
    set1 X.contracted_intermediate (ein3 L.mljd L.adik L.bcml L.abcijk Q.g_abab_oaoaoava Q.t2_abab Q.t2_abab),
    .aug X.triples_res [.arg Q.contracted_intermediate, ein1 L.abcijk L.bacijk Q.contracted_intermediate],
    set1 X.contracted_intermediate (ein3 L.lmjd L.adik L.bclm L.abcijk Q.g_abab_oaoaoava Q.t2_abab Q.t2_abab),
    .aug X.triples_res [.arg Q.contracted_intermediate, ein1 L.abcijk L.bacijk Q.contracted_intermediate],
    set1 X.contracted_intermediate (ein3 L.mldk L.dcjl L.abim L.abcijk Q.g_abab_oaoavaoa Q.t2_abab Q.t2_aaaa),
    .aug X.triples_res [.arg Q.contracted_intermediate, ein1 L.abcijk L.abcjik Q.contracted_intermediate],
    aug1 X.triples_res (ein3 L.mldj L.dcik L.abml L.abcijk Q.g_aaaa_oaoavaoa Q.t2_abab Q.t2_aaaa),
    set1 X.contracted_intermediate (ein3 L.lmjd L.adlk L.bcim L.abcijk Q.g_abab_oaoaoava Q.t2_abab Q.t2_abab),
    .aug X.triples_res [.arg Q.contracted_intermediate, ein1 L.abcijk L.bacijk Q.contracted_intermediate],
    set1 X.contracted_intermediate (ein3 L.mldj L.dail L.bcmk L.abcijk Q.g_aaaa_oaoavaoa Q.t2_aaaa Q.t2_abab),
    .aug X.triples_res [.arg Q.contracted_intermediate, ein1 L.abcijk L.bacijk Q.contracted_intermediate],
    set1 X.contracted_intermediate (ein3 L.mljd L.adil L.bcmk L.abcijk Q.g_abab_oaoaoava Q.t2_abab Q.t2_abab),
    .aug X.triples_res [.arg Q.contracted_intermediate, ein1 L.abcijk L.bacijk Q.contracted_intermediate],
    aug1 X.triples_res (ein3 L.mldj L.dclk L.abim L.abcijk Q.g_aaaa_oaoavaoa Q.t2_abab Q.t2_aaaa),
    aug1 X.triples_res (ein3 L.mljd L.dckl L.abim L.abcijk Q.g_abab_oaoaoava Q.t2_bbbb Q.t2_aaaa),
    set1 X.contracted_intermediate (ein3 L.lmid L.adlk L.bcjm L.abcijk Q.g_abab_oaoaoava Q.t2_abab Q.t2_abab),
    .aug X.triples_res [.arg Q.contracted_intermediate, ein1 L.abcijk L.bacijk Q.contracted_intermediate],
    set1 X.contracted_intermediate (ein3 L.mldi L.dajl L.bcmk L.abcijk Q.g_aaaa_oaoavaoa Q.t2_aaaa Q.t2_abab),
    .aug X.triples_res [.arg Q.contracted_intermediate, ein1 L.abcijk L.bacijk Q.contracted_intermediate],
    set1 X.contracted_intermediate (ein3 L.mlid L.adjl L.bcmk L.abcijk Q.g_abab_oaoaoava Q.t2_abab Q.t2_abab),
    .aug X.triples_res [.arg Q.contracted_intermediate, ein1 L.abcijk L.bacijk Q.contracted_intermediate],
    set1 X.contracted_intermediate (ein3 L.mlid L.adjk L.bcml L.abcijk Q.g_abab_oaoaoava Q.t2_abab Q.t2_abab),
    .aug X.triples_res [.arg Q.contracted_intermediate, ein1 L.abcijk L.bacijk Q.contracted_intermediate],
    set1 X.contracted_intermediate (ein3 L.lmid L.adjk L.bclm L.abcijk Q.g_abab_oaoaoava Q.t2_abab Q.t2_abab),
    .aug X.triples_res [.arg Q.contracted_intermediate, ein1 L.abcijk L.bacijk Q.contracted_intermediate],
    aug1 X.triples_res (ein3 L.mldi L.dclk L.abjm L.abcijk Q.g_aaaa_oaoavaoa Q.t2_abab Q.t2_aaaa),
    aug1 X.triples_res (ein3 L.mlid L.dckl L.abjm L.abcijk Q.g_abab_oaoaoava Q.t2_bbbb Q.t2_aaaa),
    aug1 X.triples_res (ein3 L.mldi L.dcjk L.abml L.abcijk Q.g_aaaa_oaoavaoa Q.t2_abab Q.t2_aaaa),
    set1 X.contracted_intermediate (ein3 L.alde L.dejk L.bcil L.abcijk Q.g_abab_vaoavava Q.t2_abab Q.t2_abab),
    .aug X.triples_res [.arg Q.contracted_intermediate, ein1 L.abcijk L.abcjik Q.contracted_intermediate, ein1 L.abcijk L.bacijk Q.contracted_intermediate, ein1 L.abcijk L.bacjik Q.contracted_intermediate],
    set1 X.contracted_intermediate (ein3 L.aled L.edjk L.bcil L.abcijk Q.g_abab_vaoavava Q.t2_abab Q.t2_abab),
    .aug X.triples_res [.arg Q.contracted_intermediate, ein1 L.abcijk L.abcjik Q.contracted_intermediate, ein1 L.abcijk L.bacijk Q.contracted_intermediate, ein1 L.abcijk L.bacjik Q.contracted_intermediate],
    set1 X.contracted_intermediate (ein3 L.lade L.deij L.bclk L.abcijk Q.g_aaaa_oavavava Q.t2_aaaa Q.t2_abab),
    .aug X.triples_res [.arg Q.contracted_intermediate, ein1 L.abcijk L.bacijk Q.contracted_intermediate],
    set1 X.contracted_intermediate (ein3 L.lade L.dbjl L.ecik L.abcijk Q.g_aaaa_oavavava Q.t2_aaaa Q.t2_abab),
    .aug X.triples_res [.arg Q.contracted_intermediate, ein1 L.abcijk L.bacijk Q.contracted_intermediate],
    set1 X.contracted_intermediate (ein3 L.aled L.bdjl L.ecik L.abcijk Q.g_abab_vaoavava Q.t2_abab Q.t2_abab),
    .aug X.triples_res [.arg Q.contracted_intermediate, ein1 L.abcijk L.bacijk Q.contracted_intermediate],
    set1 X.contracted_intermediate (ein3 L.lade L.dbil L.ecjk L.abcijk Q.g_aaaa_oavavava Q.t2_aaaa Q.t2_abab),
    .aug X.triples_res [.arg Q.contracted_intermediate, ein1 L.abcijk L.bacijk Q.contracted_intermediate],
    set1 X.contracted_intermediate (ein3 L.aled L.bdil L.ecjk L.abcijk Q.g_abab_vaoavava Q.t2_abab Q.t2_abab),
    .aug X.triples_res [.arg Q.contracted_intermediate, ein1 L.abcijk L.bacijk Q.contracted_intermediate],
    set1 X.contracted_intermediate (ein3 L.aled L.bdjk L.ecil L.abcijk Q.g_abab_vaoavava Q.t2_abab Q.t2_abab),
    .aug X.triples_res [.arg Q.contracted_intermediate, ein1 L.abcijk L.abcjik Q.contracted_intermediate, ein1 L.abcijk L.bacijk Q.contracted_intermediate, ein1 L.abcijk L.bacjik Q.contracted_intermediate],
    set1 X.contracted_intermediate (ein3 L.lade L.dbij L.eclk L.abcijk Q.g_aaaa_oavavava Q.t2_aaaa Q.t2_abab),
    .aug X.triples_res [.arg Q.contracted_intermediate, ein1 L.abcijk L.bacijk Q.contracted_intermediate],
    set1 X.contracted_intermediate (ein3 L.alde L.dbij L.eckl L.abcijk Q.g_abab_vaoavava Q.t2_aaaa Q.t2_bbbb),
    .aug X.triples_res [.arg Q.contracted_intermediate, ein1 L.abcijk L.bacijk Q.contracted_intermediate],
    set1 X.contracted_intermediate (ein3 L.lcde L.dejk L.abil L.abcijk Q.g_abab_oavavava Q.t2_abab Q.t2_aaaa),
    .aug X.triples_res [.arg Q.contracted_intermediate, ein1 L.abcijk L.abcjik Q.contracted_intermediate],
    set1 X.contracted_intermediate (ein3 L.lced L.edjk L.abil L.abcijk Q.g_abab_oavavava Q.t2_abab Q.t2_aaaa),
    .aug X.triples_res [.arg Q.contracted_intermediate, ein1 L.abcijk L.abcjik Q.contracted_intermediate],
    aug1 X.triples_res (ein3 L.lced L.adlk L.ebij L.abcijk Q.g_abab_oavavava Q.t2_abab Q.t2_aaaa),
    aug1 X.triples_res (ein3 L.lcde L.dajl L.beik L.abcijk Q.g_abab_oavavava Q.t2_aaaa Q.t2_abab),
    aug1 X.triples_res (ein3 L.lcde L.adjl L.beik L.abcijk Q.g_bbbb_oavavava Q.t2_abab Q.t2_abab),
    aug1 X.triples_res (ein3 L.lcde L.dail L.bejk L.abcijk Q.g_abab_oavavava Q.t2_aaaa Q.t2_abab),
    aug1 X.triples_res (ein3 L.lcde L.adil L.bejk L.abcijk Q.g_bbbb_oavavava Q.t2_abab Q.t2_abab),
    set1 X.contracted_intermediate (ein3 L.lced L.adjk L.ebil L.abcijk Q.g_abab_oavavava Q.t2_abab Q.t2_aaaa),
    .aug X.triples_res [.arg Q.contracted_intermediate, ein1 L.abcijk L.abcjik Q.contracted_intermediate],
    set1 X.contracted_intermediate (ein3 L.lcde L.adjk L.beil L.abcijk Q.g_bbbb_oavavava Q.t2_abab Q.t2_abab),
    .aug X.triples_res [.arg Q.contracted_intermediate, ein1 L.abcijk L.abcjik Q.contracted_intermediate],
    aug1 X.triples_res (ein3 L.lcde L.daij L.belk L.abcijk Q.g_abab_oavavava Q.t2_aaaa Q.t2_abab),
    set1 X.contracted_intermediate (ein4 L.lmde L.dl L.aejk L.bcim L.abcijk Q.g_abab_oaoavava Q.t1_aa Q.t2_abab Q.t2_abab),
    .aug X.triples_res [.arg Q.contracted_intermediate, ein1 L.abcijk L.abcjik Q.contracted_intermediate, ein1 L.abcijk L.bacijk Q.contracted_intermediate, ein1 L.abcijk L.bacjik Q.contracted_intermediate],
    set1 X.contracted_intermediate (ein4 L.mlde L.dl L.aejk L.bcim L.abcijk Q.g_bbbb_oaoavava Q.t1_bb Q.t2_abab Q.t2_abab),
    .aug X.triples_res [.arg Q.contracted_intermediate, ein1 L.abcijk L.abcjik Q.contracted_intermediate, ein1 L.abcijk L.bacijk Q.contracted_intermediate, ein1 L.abcijk L.bacjik Q.contracted_intermediate],
    set1 X.contracted_intermediate (ein4 L.mlde L.dl L.eaij L.bcmk L.abcijk Q.g_aaaa_oaoavava Q.t1_aa Q.t2_aaaa Q.t2_abab),
    .aug X.triples_res [.arg Q.contracted_intermediate, ein1 L.abcijk L.bacijk Q.contracted_intermediate],
    set1 X.contracted_intermediate (ein4 L.mled L.dl L.eaij L.bcmk L.abcijk Q.g_abab_oaoavava Q.t1_bb Q.t2_aaaa Q.t2_abab),
    .aug X.triples_res [.arg Q.contracted_intermediate, ein1 L.abcijk L.bacijk Q.contracted_intermediate],
    set1 X.contracted_intermediate (ein4 L.mlde L.dl L.ecjk L.abim L.abcijk Q.g_aaaa_oaoavava Q.t1_aa Q.t2_abab Q.t2_aaaa),
    .aug X.triples_res [.arg Q.contracted_intermediate, ein1 L.abcijk L.abcjik Q.contracted_intermediate],
    set1 X.contracted_intermediate (ein4 L.mled L.dl L.ecjk L.abim L.abcijk Q.g_abab_oaoavava Q.t1_bb Q.t2_abab Q.t2_aaaa),
    .aug X.triples_res [.arg Q.contracted_intermediate, ein1 L.abcijk L.abcjik Q.contracted_intermediate],
    set1 X.contracted_intermediate (ein4 L.lmed L.dk L.eajl L.bcim L.abcijk Q.g_abab_oaoavava Q.t1_bb Q.t2_aaaa Q.t2_abab),
    .aug X.triples_res [.arg Q.contracted_intermediate, ein1 L.abcijk L.abcjik Q.contracted_intermediate, ein1 L.abcijk L.bacijk Q.contracted_intermediate, ein1 L.abcijk L.bacjik Q.contracted_intermediate],
    set1 X.contracted_intermediate (ein4 L.mlde L.dk L.aejl L.bcim L.abcijk Q.g_bbbb_oaoavava Q.t1_bb Q.t2_abab Q.t2_abab),
    .aug X.triples_res [.arg Q.contracted_intermediate, ein1 L.abcijk L.abcjik Q.contracted_intermediate, ein1 L.abcijk L.bacijk Q.contracted_intermediate, ein1 L.abcijk L.bacjik Q.contracted_intermediate],
    set1 X.contracted_intermediate (ein4 L.mled L.dk L.eaij L.bcml L.abcijk Q.g_abab_oaoavava Q.t1_bb Q.t2_aaaa Q.t2_abab),
    .aug X.triples_res [.arg Q.contracted_intermediate, ein1 L.abcijk L.bacijk Q.contracted_intermediate],
    set1 X.contracted_intermediate (ein4 L.lmed L.dk L.eaij L.bclm L.abcijk Q.g_abab_oaoavava Q.t1_bb Q.t2_aaaa Q.t2_abab),
    .aug X.triples_res [.arg Q.contracted_intermediate, ein1 L.abcijk L.bacijk Q.contracted_intermediate],
    set1 X.contracted_intermediate (ein4 L.mlde L.dj L.aeik L.bcml L.abcijk Q.g_abab_oaoavava Q.t1_aa Q.t2_abab Q.t2_abab),
    .aug X.triples_res [.arg Q.contracted_intermediate, ein1 L.abcijk L.bacijk Q.contracted_intermediate],
    set1 X.contracted_intermediate (ein4 L.lmde L.dj L.aeik L.bclm L.abcijk Q.g_abab_oaoavava Q.t1_aa Q.t2_abab Q.t2_abab),
    .aug X.triples_res [.arg Q.contracted_intermediate, ein1 L.abcijk L.bacijk Q.contracted_intermediate],
    set1 X.contracted_intermediate (ein4 L.mled L.dk L.ecjl L.abim L.abcijk Q.g_abab_oaoavava Q.t1_bb Q.t2_abab Q.t2_aaaa),
    .aug X.triples_res [.arg Q.contracted_intermediate, ein1 L.abcijk L.abcjik Q.contracted_intermediate],
    aug1 X.triples_res (ein4 L.mlde L.dj L.ecik L.abml L.abcijk Q.g_aaaa_oaoavava Q.t1_aa Q.t2_abab Q.t2_aaaa),
    set1 X.contracted_intermediate (ein4 L.lmde L.dj L.aelk L.bcim L.abcijk Q.g_abab_oaoavava Q.t1_aa Q.t2_abab Q.t2_abab),
    .aug X.triples_res [.arg Q.contracted_intermediate, ein1 L.abcijk L.bacijk Q.contracted_intermediate],
    set1 X.contracted_intermediate (ein4 L.mlde L.dj L.eail L.bcmk L.abcijk Q.g_aaaa_oaoavava Q.t1_aa Q.t2_aaaa Q.t2_abab),
    .aug X.triples_res [.arg Q.contracted_intermediate, ein1 L.abcijk L.bacijk Q.contracted_intermediate],
    set1 X.contracted_intermediate (ein4 L.mlde L.dj L.aeil L.bcmk L.abcijk Q.g_abab_oaoavava Q.t1_aa Q.t2_abab Q.t2_abab),
    .aug X.triples_res [.arg Q.contracted_intermediate, ein1 L.abcijk L.bacijk Q.contracted_intermediate],
    aug1 X.triples_res (ein4 L.mlde L.dj L.eclk L.abim L.abcijk Q.g_aaaa_oaoavava Q.t1_aa Q.t2_abab Q.t2_aaaa),
    aug1 X.triples_res (ein4 L.mlde L.dj L.eckl L.abim L.abcijk Q.g_abab_oaoavava Q.t1_aa Q.t2_bbbb Q.t2_aaaa),
    set1 X.contracted_intermediate (ein4 L.lmde L.di L.aelk L.bcjm L.abcijk Q.g_abab_oaoavava Q.t1_aa Q.t2_abab Q.t2_abab),
    .aug X.triples_res [.arg Q.contracted_intermediate, ein1 L.abcijk L.bacijk Q.contracted_intermediate],
    set1 X.contracted_intermediate (ein4 L.mlde L.di L.eajl L.bcmk L.abcijk Q.g_aaaa_oaoavava Q.t1_aa Q.t2_aaaa Q.t2_abab),
    .aug X.triples_res [.arg Q.contracted_intermediate, ein1 L.abcijk L.bacijk Q.contracted_intermediate],
    set1 X.contracted_intermediate (ein4 L.mlde L.di L.aejl L.bcmk L.abcijk Q.g_abab_oaoavava Q.t1_aa Q.t2_abab Q.t2_abab),
    .aug X.triples_res [.arg Q.contracted_intermediate, ein1 L.abcijk L.bacijk Q.contracted_intermediate],
    set1 X.contracted_intermediate (ein4 L.mlde L.di L.aejk L.bcml L.abcijk Q.g_abab_oaoavava Q.t1_aa Q.t2_abab Q.t2_abab),
    .aug X.triples_res [.arg Q.contracted_intermediate, ein1 L.abcijk L.bacijk Q.contracted_intermediate],
    set1 X.contracted_intermediate (ein4 L.lmde L.di L.aejk L.bclm L.abcijk Q.g_abab_oaoavava Q.t1_aa Q.t2_abab Q.t2_abab),
    .aug X.triples_res [.arg Q.contracted_intermediate, ein1 L.abcijk L.bacijk Q.contracted_intermediate],
    aug1 X.triples_res (ein4 L.mlde L.di L.eclk L.abjm L.abcijk Q.g_aaaa_oaoavava Q.t1_aa Q.t2_abab Q.t2_aaaa),
    aug1 X.triples_res (ein4 L.mlde L.di L.eckl L.abjm L.abcijk Q.g_abab_oaoavava Q.t1_aa Q.t2_bbbb Q.t2_aaaa),
    aug1 X.triples_res (ein4 L.mlde L.di L.ecjk L.abml L.abcijk Q.g_aaaa_oaoavava Q.t1_aa Q.t2_abab Q.t2_aaaa),
    set1 X.contracted_intermediate (ein4 L.lmde L.al L.dejk L.bcim L.abcijk Q.g_abab_oaoavava Q.t1_aa Q.t2_abab Q.t2_abab),
    .aug X.triples_res [.arg Q.contracted_intermediate, ein1 L.abcijk L.abcjik Q.contracted_intermediate, ein1 L.abcijk L.bacijk Q.contracted_intermediate, ein1 L.abcijk L.bacjik Q.contracted_intermediate],
    set1 X.contracted_intermediate (ein4 L.lmed L.al L.edjk L.bcim L.abcijk Q.g_abab_oaoavava Q.t1_aa Q.t2_abab Q.t2_abab),
    .aug X.triples_res [.arg Q.contracted_intermediate, ein1 L.abcijk L.abcjik Q.contracted_intermediate, ein1 L.abcijk L.bacijk Q.contracted_intermediate, ein1 L.abcijk L.bacjik Q.contracted_intermediate],
    set1 X.contracted_intermediate (ein4 L.mlde L.al L.deij L.bcmk L.abcijk Q.g_aaaa_oaoavava Q.t1_aa Q.t2_aaaa Q.t2_abab),
    .aug X.triples_res [.arg Q.contracted_intermediate, ein1 L.abcijk L.bacijk Q.contracted_intermediate],
    set1 X.contracted_intermediate (ein4 L.mlde L.al L.dbjm L.ecik L.abcijk Q.g_aaaa_oaoavava Q.t1_aa Q.t2_aaaa Q.t2_abab),
    .aug X.triples_res [.arg Q.contracted_intermediate, ein1 L.abcijk L.bacijk Q.contracted_intermediate],
    set1 X.contracted_intermediate (ein4 L.lmed L.al L.bdjm L.ecik L.abcijk Q.g_abab_oaoavava Q.t1_aa Q.t2_abab Q.t2_abab),
    .aug X.triples_res [.arg Q.contracted_intermediate, ein1 L.abcijk L.bacijk Q.contracted_intermediate],
    set1 X.contracted_intermediate (ein4 L.mlde L.al L.dbim L.ecjk L.abcijk Q.g_aaaa_oaoavava Q.t1_aa Q.t2_aaaa Q.t2_abab),
    .aug X.triples_res [.arg Q.contracted_intermediate, ein1 L.abcijk L.bacijk Q.contracted_intermediate],
    set1 X.contracted_intermediate (ein4 L.lmed L.al L.bdim L.ecjk L.abcijk Q.g_abab_oaoavava Q.t1_aa Q.t2_abab Q.t2_abab),
    .aug X.triples_res [.arg Q.contracted_intermediate, ein1 L.abcijk L.bacijk Q.contracted_intermediate],
    set1 X.contracted_intermediate (ein4 L.lmed L.al L.bdjk L.ecim L.abcijk Q.g_abab_oaoavava Q.t1_aa Q.t2_abab Q.t2_abab),
    .aug X.triples_res [.arg Q.contracted_intermediate, ein1 L.abcijk L.abcjik Q.contracted_intermediate, ein1 L.abcijk L.bacijk Q.contracted_intermediate, ein1 L.abcijk L.bacjik Q.contracted_intermediate],
    set1 X.contracted_intermediate (ein4 L.mlde L.al L.dbij L.ecmk L.abcijk Q.g_aaaa_oaoavava Q.t1_aa Q.t2_aaaa Q.t2_abab),
    .aug X.triples_res [.arg Q.contracted_intermediate, ein1 L.abcijk L.bacijk Q.contracted_intermediate],
    set1 X.contracted_intermediate (ein4 L.lmde L.al L.dbij L.eckm L.abcijk Q.g_abab_oaoavava Q.t1_aa Q.t2_aaaa Q.t2_bbbb),
    .aug X.triples_res [.arg Q.contracted_intermediate, ein1 L.abcijk L.bacijk Q.contracted_intermediate],
    set1 X.contracted_intermediate (ein4 L.mlde L.cl L.dejk L.abim L.abcijk Q.g_abab_oaoavava Q.t1_bb Q.t2_abab Q.t2_aaaa),
    .aug X.triples_res [.arg Q.contracted_intermediate, ein1 L.abcijk L.abcjik Q.contracted_intermediate],
    set1 X.contracted_intermediate (ein4 L.mled L.cl L.edjk L.abim L.abcijk Q.g_abab_oaoavava Q.t1_bb Q.t2_abab Q.t2_aaaa),
    .aug X.triples_res [.arg Q.contracted_intermediate, ein1 L.abcijk L.abcjik Q.contracted_intermediate],
    aug1 X.triples_res (ein4 L.mled L.cl L.admk L.ebij L.abcijk Q.g_abab_oaoavava Q.t1_bb Q.t2_abab Q.t2_aaaa),
    aug1 X.triples_res (ein4 L.mlde L.cl L.dajm L.beik L.abcijk Q.g_abab_oaoavava Q.t1_bb Q.t2_aaaa Q.t2_abab),
    aug1 X.triples_res (ein4 L.mlde L.cl L.adjm L.beik L.abcijk Q.g_bbbb_oaoavava Q.t1_bb Q.t2_abab Q.t2_abab),
    aug1 X.triples_res (ein4 L.mlde L.cl L.daim L.bejk L.abcijk Q.g_abab_oaoavava Q.t1_bb Q.t2_aaaa Q.t2_abab),
    aug1 X.triples_res (ein4 L.mlde L.cl L.adim L.bejk L.abcijk Q.g_bbbb_oaoavava Q.t1_bb Q.t2_abab Q.t2_abab),
    set1 X.contracted_intermediate (ein4 L.mled L.cl L.adjk L.ebim L.abcijk Q.g_abab_oaoavava Q.t1_bb Q.t2_abab Q.t2_aaaa),
    .aug X.triples_res [.arg Q.contracted_intermediate, ein1 L.abcijk L.abcjik Q.contracted_intermediate],
    set1 X.contracted_intermediate (ein4 L.mlde L.cl L.adjk L.beim L.abcijk Q.g_bbbb_oaoavava Q.t1_bb Q.t2_abab Q.t2_abab),
    .aug X.triples_res [.arg Q.contracted_intermediate, ein1 L.abcijk L.abcjik Q.contracted_intermediate],
    aug1 X.triples_res (ein4 L.mlde L.cl L.daij L.bemk L.abcijk Q.g_abab_oaoavava Q.t1_bb Q.t2_aaaa Q.t2_abab),
    set1 X.contracted_intermediate (ein4 L.lmdk L.dj L.al L.bcim L.abcijk Q.g_abab_oaoavaoa Q.t1_aa Q.t1_aa Q.t2_abab),
    .aug X.triples_res [.arg Q.contracted_intermediate, ein1 L.abcijk L.abcjik Q.contracted_intermediate, ein1 L.abcijk L.bacijk Q.contracted_intermediate, ein1 L.abcijk L.bacjik Q.contracted_intermediate],
    set1 X.contracted_intermediate (ein4 L.mldk L.dj L.cl L.abim L.abcijk Q.g_abab_oaoavaoa Q.t1_aa Q.t1_bb Q.t2_aaaa),
    .aug X.triples_res [.arg Q.contracted_intermediate, ein1 L.abcijk L.abcjik Q.contracted_intermediate],
    aug1 X.triples_res (ein4 L.lmdk L.al L.cm L.dbij L.abcijk Q.g_abab_oaoavaoa Q.t1_aa Q.t1_bb Q.t2_aaaa),
    aug1 X.triples_res (ein4 L.mldj L.al L.bm L.dcik L.abcijk Q.g_aaaa_oaoavaoa Q.t1_aa Q.t1_aa Q.t2_abab),
    aug1 X.triples_res (ein4 L.lmjd L.al L.cm L.bdik L.abcijk Q.g_abab_oaoaoava Q.t1_aa Q.t1_bb Q.t2_abab),
    aug1 X.triples_res (ein4 L.lmdk L.bl L.cm L.daij L.abcijk Q.g_abab_oaoavaoa Q.t1_aa Q.t1_bb Q.t2_aaaa),
    aug1 X.triples_res (ein4 L.lmjd L.bl L.cm L.adik L.abcijk Q.g_abab_oaoaoava Q.t1_aa Q.t1_bb Q.t2_abab),
    set1 X.contracted_intermediate (ein4 L.lmjd L.dk L.al L.bcim L.abcijk Q.g_abab_oaoaoava Q.t1_bb Q.t1_aa Q.t2_abab),
    .aug X.triples_res [.arg Q.contracted_intermediate, ein1 L.abcijk L.bacijk Q.contracted_intermediate],
    set1 X.contracted_intermediate (ein4 L.mldj L.di L.al L.bcmk L.abcijk Q.g_aaaa_oaoavaoa Q.t1_aa Q.t1_aa Q.t2_abab),
    .aug X.triples_res [.arg Q.contracted_intermediate, ein1 L.abcijk L.bacijk Q.contracted_intermediate],
    aug1 X.triples_res (ein4 L.mljd L.dk L.cl L.abim L.abcijk Q.g_abab_oaoaoava Q.t1_bb Q.t1_bb Q.t2_aaaa),
    set1 X.contracted_intermediate (ein4 L.lmid L.dk L.al L.bcjm L.abcijk Q.g_abab_oaoaoava Q.t1_bb Q.t1_aa Q.t2_abab),
    .aug X.triples_res [.arg Q.contracted_intermediate, ein1 L.abcijk L.bacijk Q.contracted_intermediate],
    set1 X.contracted_intermediate (ein4 L.mldi L.dj L.al L.bcmk L.abcijk Q.g_aaaa_oaoavaoa Q.t1_aa Q.t1_aa Q.t2_abab),
    .aug X.triples_res [.arg Q.contracted_intermediate, ein1 L.abcijk L.bacijk Q.contracted_intermediate],
    aug1 X.triples_res (ein4 L.mlid L.dk L.cl L.abjm L.abcijk Q.g_abab_oaoaoava Q.t1_bb Q.t1_bb Q.t2_aaaa),
    aug1 X.triples_res (ein4 L.mldi L.al L.bm L.dcjk L.abcijk Q.g_aaaa_oaoavaoa Q.t1_aa Q.t1_aa Q.t2_abab),
    aug1 X.triples_res (ein4 L.lmid L.al L.cm L.bdjk L.abcijk Q.g_abab_oaoaoava Q.t1_aa Q.t1_bb Q.t2_abab),
    aug1 X.triples_res (ein4 L.lmid L.bl L.cm L.adjk L.abcijk Q.g_abab_oaoaoava Q.t1_aa Q.t1_bb Q.t2_abab),
    set1 X.contracted_intermediate (ein4 L.aled L.dk L.ej L.bcil L.abcijk Q.g_abab_vaoavava Q.t1_bb Q.t1_aa Q.t2_abab),
    .aug X.triples_res [.arg Q.contracted_intermediate, ein1 L.abcijk L.abcjik Q.contracted_intermediate, ein1 L.abcijk L.bacijk Q.contracted_intermediate, ein1 L.abcijk L.bacjik Q.contracted_intermediate],
    aug1 X.triples_res (ein4 L.aled L.dk L.cl L.ebij L.abcijk Q.g_abab_vaoavava Q.t1_bb Q.t1_bb Q.t2_aaaa),
    aug1 X.triples_res (ein4 L.lade L.dj L.bl L.ecik L.abcijk Q.g_aaaa_oavavava Q.t1_aa Q.t1_aa Q.t2_abab),
    aug1 X.triples_res (ein4 L.alde L.dj L.cl L.beik L.abcijk Q.g_abab_vaoavava Q.t1_aa Q.t1_bb Q.t2_abab),
    set1 X.contracted_intermediate (ein4 L.lade L.dj L.ei L.bclk L.abcijk Q.g_aaaa_oavavava Q.t1_aa Q.t1_aa Q.t2_abab),
    .aug X.triples_res [.arg Q.contracted_intermediate, ein1 L.abcijk L.bacijk Q.contracted_intermediate],
    aug1 X.triples_res (ein4 L.lade L.di L.bl L.ecjk L.abcijk Q.g_aaaa_oavavava Q.t1_aa Q.t1_aa Q.t2_abab),
    aug1 X.triples_res (ein4 L.alde L.di L.cl L.bejk L.abcijk Q.g_abab_vaoavava Q.t1_aa Q.t1_bb Q.t2_abab),
    aug1 X.triples_res (ein4 L.bled L.dk L.cl L.eaij L.abcijk Q.g_abab_vaoavava Q.t1_bb Q.t1_bb Q.t2_aaaa),
    aug1 X.triples_res (ein4 L.lbde L.dj L.al L.ecik L.abcijk Q.g_aaaa_oavavava Q.t1_aa Q.t1_aa Q.t2_abab),
    aug1 X.triples_res (ein4 L.blde L.dj L.cl L.aeik L.abcijk Q.g_abab_vaoavava Q.t1_aa Q.t1_bb Q.t2_abab),
    aug1 X.triples_res (ein4 L.lbde L.di L.al L.ecjk L.abcijk Q.g_aaaa_oavavava Q.t1_aa Q.t1_aa Q.t2_abab),
    aug1 X.triples_res (ein4 L.blde L.di L.cl L.aejk L.abcijk Q.g_abab_vaoavava Q.t1_aa Q.t1_bb Q.t2_abab),
    set1 X.contracted_intermediate (ein4 L.lced L.dk L.ej L.abil L.abcijk Q.g_abab_oavavava Q.t1_bb Q.t1_aa Q.t2_aaaa),
    .aug X.triples_res [.arg Q.contracted_intermediate, ein1 L.abcijk L.abcjik Q.contracted_intermediate],
    set1 X.contracted_intermediate (ein4 L.lced L.dk L.al L.ebij L.abcijk Q.g_abab_oavavava Q.t1_bb Q.t1_aa Q.t2_aaaa),
    .aug X.triples_res [.arg Q.contracted_intermediate, ein1 L.abcijk L.bacijk Q.contracted_intermediate],
    set1 X.contracted_intermediate (ein4 L.lcde L.dj L.al L.beik L.abcijk Q.g_abab_oavavava Q.t1_aa Q.t1_aa Q.t2_abab),
    .aug X.triples_res [.arg Q.contracted_intermediate, ein1 L.abcijk L.bacijk Q.contracted_intermediate],
    set1 X.contracted_intermediate (ein4 L.lcde L.di L.al L.bejk L.abcijk Q.g_abab_oavavava Q.t1_aa Q.t1_aa Q.t2_abab),
    .aug X.triples_res [.arg Q.contracted_intermediate, ein1 L.abcijk L.bacijk Q.contracted_intermediate],
    aug1 X.triples_res (ein4 L.lmde L.dl L.ek L.abcijm L.abcijk Q.g_abab_oaoavava Q.t1_aa Q.t1_bb Q.t3_aabaab),
    aug1 X.triples_res (ein4 L.mlde L.dl L.ek L.abcijm L.abcijk Q.g_bbbb_oaoavava Q.t1_bb Q.t1_bb Q.t3_aabaab),
    aug1 X.triples_res (ein4 L.mlde L.dl L.ej L.abcimk L.abcijk Q.g_aaaa_oaoavava Q.t1_aa Q.t1_aa Q.t3_aabaab),
    aug1 X.triples_res (ein4 L.mled L.dl L.ej L.abcimk L.abcijk Q.g_abab_oaoavava Q.t1_bb Q.t1_aa Q.t3_aabaab),
    aug1 X.triples_res (ein4 L.mlde L.dl L.ei L.abcjmk L.abcijk Q.g_aaaa_oaoavava Q.t1_aa Q.t1_aa Q.t3_aabaab),
    aug1 X.triples_res (ein4 L.mled L.dl L.ei L.abcjmk L.abcijk Q.g_abab_oaoavava Q.t1_bb Q.t1_aa Q.t3_aabaab),
    set1 X.contracted_intermediate (ein4 L.mlde L.dl L.am L.ebcijk L.abcijk Q.g_aaaa_oaoavava Q.t1_aa Q.t1_aa Q.t3_aabaab),
    .aug X.triples_res [.arg Q.contracted_intermediate, ein1 L.abcijk L.bacijk Q.contracted_intermediate],
    set1 X.contracted_intermediate (ein4 L.mled L.dl L.am L.ebcijk L.abcijk Q.g_abab_oaoavava Q.t1_bb Q.t1_aa Q.t3_aabaab),
    .aug X.triples_res [.arg Q.contracted_intermediate, ein1 L.abcijk L.bacijk Q.contracted_intermediate],
    aug1 X.triples_res (ein4 L.lmde L.dl L.cm L.baeijk L.abcijk Q.g_abab_oaoavava Q.t1_aa Q.t1_bb Q.t3_aabaab),
    aug1 X.triples_res (ein4 L.mlde L.dl L.cm L.baeijk L.abcijk Q.g_bbbb_oaoavava Q.t1_bb Q.t1_bb Q.t3_aabaab),
    set1 X.contracted_intermediate (ein4 L.mled L.dk L.ej L.abciml L.abcijk Q.g_abab_oaoavava Q.t1_bb Q.t1_aa Q.t3_aabaab),
    .aug X.triples_res [.arg Q.contracted_intermediate, ein1 L.abcijk L.abcjik Q.contracted_intermediate],
    set1 X.contracted_intermediate (ein4 L.lmed L.dk L.ej L.abcilm L.abcijk Q.g_abab_oaoavava Q.t1_bb Q.t1_aa Q.t3_aabaab),
    .aug X.triples_res [.arg Q.contracted_intermediate, ein1 L.abcijk L.abcjik Q.contracted_intermediate],
    set1 X.contracted_intermediate (ein4 L.lmed L.dk L.al L.ebcijm L.abcijk Q.g_abab_oaoavava Q.t1_bb Q.t1_aa Q.t3_aabaab),
    .aug X.triples_res [.arg Q.contracted_intermediate, ein1 L.abcijk L.bacijk Q.contracted_intermediate],
    set1 X.contracted_intermediate (ein4 L.mlde L.dj L.al L.ebcimk L.abcijk Q.g_aaaa_oaoavava Q.t1_aa Q.t1_aa Q.t3_aabaab),
    .aug X.triples_res [.arg Q.contracted_intermediate, ein1 L.abcijk L.bacijk Q.contracted_intermediate],
    set1 X.contracted_intermediate (ein4 L.lmde L.dj L.al L.becikm L.abcijk Q.g_abab_oaoavava Q.t1_aa Q.t1_aa Q.t3_abbabb),
    .aug X.triples_res [.arg Q.contracted_intermediate, ein1 L.abcijk L.bacijk Q.contracted_intermediate],
    aug1 X.triples_res (ein4 L.mled L.dk L.cl L.eabijm L.abcijk Q.g_abab_oaoavava Q.t1_bb Q.t1_bb Q.t3_aaaaaa),
    aug1 X.triples_res (ein4 L.mlde L.dk L.cl L.baeijm L.abcijk Q.g_bbbb_oaoavava Q.t1_bb Q.t1_bb Q.t3_aabaab),
    aug1 X.triples_res (ein4 L.mlde L.dj L.cl L.baeimk L.abcijk Q.g_abab_oaoavava Q.t1_aa Q.t1_bb Q.t3_aabaab),
    aug1 X.triples_res (ein4 L.mlde L.dj L.ei L.abclmk L.abcijk Q.g_aaaa_oaoavava Q.t1_aa Q.t1_aa Q.t3_aabaab),
    set1 X.contracted_intermediate (ein4 L.mlde L.di L.al L.ebcjmk L.abcijk Q.g_aaaa_oaoavava Q.t1_aa Q.t1_aa Q.t3_aabaab),
    .aug X.triples_res [.arg Q.contracted_intermediate, ein1 L.abcijk L.bacijk Q.contracted_intermediate],
    set1 X.contracted_intermediate (ein4 L.lmde L.di L.al L.becjkm L.abcijk Q.g_abab_oaoavava Q.t1_aa Q.t1_aa Q.t3_abbabb),
    .aug X.triples_res [.arg Q.contracted_intermediate, ein1 L.abcijk L.bacijk Q.contracted_intermediate],
    aug1 X.triples_res (ein4 L.mlde L.di L.cl L.baejmk L.abcijk Q.g_abab_oaoavava Q.t1_aa Q.t1_bb Q.t3_aabaab),
    aug1 X.triples_res (ein4 L.mlde L.al L.bm L.decijk L.abcijk Q.g_aaaa_oaoavava Q.t1_aa Q.t1_aa Q.t3_aabaab),
    aug1 X.triples_res (ein4 L.lmde L.al L.cm L.dbeijk L.abcijk Q.g_abab_oaoavava Q.t1_aa Q.t1_bb Q.t3_aabaab),
    aug1 X.triples_res (ein4 L.lmed L.al L.cm L.bedijk L.abcijk Q.g_abab_oaoavava Q.t1_aa Q.t1_bb Q.t3_aabaab),
    aug1 X.triples_res (ein4 L.lmde L.bl L.cm L.daeijk L.abcijk Q.g_abab_oaoavava Q.t1_aa Q.t1_bb Q.t3_aabaab),
    aug1 X.triples_res (ein4 L.lmed L.bl L.cm L.aedijk L.abcijk Q.g_abab_oaoavava Q.t1_aa Q.t1_bb Q.t3_aabaab),
    set1 X.contracted_intermediate (ein5 L.lmed L.dk L.ej L.al L.bcim L.abcijk Q.g_abab_oaoavava Q.t1_bb Q.t1_aa Q.t1_aa Q.t2_abab),
    .aug X.triples_res [.arg Q.contracted_intermediate, ein1 L.abcijk L.abcjik Q.contracted_intermediate, ein1 L.abcijk L.bacijk Q.contracted_intermediate, ein1 L.abcijk L.bacjik Q.contracted_intermediate],
    set1 X.contracted_intermediate (ein5 L.mled L.dk L.ej L.cl L.abim L.abcijk Q.g_abab_oaoavava Q.t1_bb Q.t1_aa Q.t1_bb Q.t2_aaaa),
    .aug X.triples_res [.arg Q.contracted_intermediate, ein1 L.abcijk L.abcjik Q.contracted_intermediate],
    aug1 X.triples_res (ein5 L.lmed L.dk L.al L.cm L.ebij L.abcijk Q.g_abab_oaoavava Q.t1_bb Q.t1_aa Q.t1_bb Q.t2_aaaa),
    aug1 X.triples_res (ein5 L.mlde L.dj L.al L.bm L.ecik L.abcijk Q.g_aaaa_oaoavava Q.t1_aa Q.t1_aa Q.t1_aa Q.t2_abab),
    aug1 X.triples_res (ein5 L.lmde L.dj L.al L.cm L.beik L.abcijk Q.g_abab_oaoavava Q.t1_aa Q.t1_aa Q.t1_bb Q.t2_abab),
    aug1 X.triples_res (ein5 L.lmed L.dk L.bl L.cm L.eaij L.abcijk Q.g_abab_oaoavava Q.t1_bb Q.t1_aa Q.t1_bb Q.t2_aaaa),
    aug1 X.triples_res (ein5 L.lmde L.dj L.bl L.cm L.aeik L.abcijk Q.g_abab_oaoavava Q.t1_aa Q.t1_aa Q.t1_bb Q.t2_abab),
    set1 X.contracted_intermediate (ein5 L.mlde L.dj L.ei L.al L.bcmk L.abcijk Q.g_aaaa_oaoavava Q.t1_aa Q.t1_aa Q.t1_aa Q.t2_abab),
    .aug X.triples_res [.arg Q.contracted_intermediate, ein1 L.abcijk L.bacijk Q.contracted_intermediate],
    aug1 X.triples_res (ein5 L.mlde L.di L.al L.bm L.ecjk L.abcijk Q.g_aaaa_oaoavava Q.t1_aa Q.t1_aa Q.t1_aa Q.t2_abab),
    aug1 X.triples_res (ein5 L.lmde L.di L.al L.cm L.bejk L.abcijk Q.g_abab_oaoavava Q.t1_aa Q.t1_aa Q.t1_bb Q.t2_abab),
    aug1 X.triples_res (ein5 L.lmde L.di L.bl L.cm L.aejk L.abcijk Q.g_abab_oaoavava Q.t1_aa Q.t1_aa Q.t1_bb Q.t2_abab)]
  ret := [Q.triples_res]

/-- `fullCCresidEqns.py` 3571-4946: `ccsdt_t3_abbabb_residual`; 552 einsum calls. -/
def fullCCresidEqns_ccsdt_t3_abbabb_residual : Fn where
  params := [X.f_bb, X.t3_abbabb, X.f_aa, X.t1_bb, X.t1_aa, X.t2_bbbb, X.t2_abab, X.g_bbbb, X.g_abab, X.t3_aabaab, X.g_aaaa, X.t3_bbbbbb, X.t2_aaaa]
  body := [
    set1 X.contracted_intermediate (ein2 L.lk L.abcijl L.abcijk Q.f_bb_oaoa Q.t3_abbabb),
    .set X.triples_res [.arg Q.contracted_intermediate, ein1 L.abcijk L.abcikj Q.contracted_intermediate],
    aug1 X.triples_res (ein2 L.li L.abclkj L.abcijk Q.f_aa_oaoa Q.t3_abbabb),
    aug1 X.triples_res (ein2 L.ad L.dbcijk L.abcijk Q.f_aa_vava Q.t3_abbabb),
    aug1 X.triples_res (ein2 L.bd L.adcijk L.abcijk Q.f_bb_vava Q.t3_abbabb),
    aug1 X.triples_res (ein2 L.cd L.adbijk L.abcijk Q.f_bb_vava Q.t3_abbabb),
    set1 X.contracted_intermediate (ein3 L.ld L.dk L.abcijl L.abcijk Q.f_bb_oava Q.t1_bb Q.t3_abbabb),
    .aug X.triples_res [.arg Q.contracted_intermediate, ein1 L.abcijk L.abcikj Q.contracted_intermediate],
    aug1 X.triples_res (ein3 L.ld L.di L.abclkj L.abcijk Q.f_aa_oava Q.t1_aa Q.t3_abbabb),
    aug1 X.triples_res (ein3 L.ld L.al L.dbcijk L.abcijk Q.f_aa_oava Q.t1_aa Q.t3_abbabb),
    aug1 X.triples_res (ein3 L.ld L.bl L.adcijk L.abcijk Q.f_bb_oava Q.t1_bb Q.t3_abbabb),
    aug1 X.triples_res (ein3 L.ld L.cl L.adbijk L.abcijk Q.f_bb_oava Q.t1_bb Q.t3_abbabb),
    aug1 X.triples_res (ein3 L.ld L.dbjk L.acil L.abcijk Q.f_bb_oava Q.t2_bbbb Q.t2_abab),
    aug1 X.triples_res (ein3 L.ld L.adik L.bcjl L.abcijk Q.f_bb_oava Q.t2_abab Q.t2_bbbb),
    aug1 X.triples_res (ein3 L.ld L.dbik L.aclj L.abcijk Q.f_aa_oava Q.t2_abab Q.t2_abab),
    aug1 X.triples_res (ein3 L.ld L.adij L.bckl L.abcijk Q.f_bb_oava Q.t2_abab Q.t2_bbbb),
    aug1 X.triples_res (ein3 L.ld L.dbij L.aclk L.abcijk Q.f_aa_oava Q.t2_abab Q.t2_abab),
    aug1 X.triples_res (ein3 L.ld L.dcjk L.abil L.abcijk Q.f_bb_oava Q.t2_bbbb Q.t2_abab),
    aug1 X.triples_res (ein3 L.ld L.dcik L.ablj L.abcijk Q.f_aa_oava Q.t2_abab Q.t2_abab),
    aug1 X.triples_res (ein3 L.ld L.dcij L.ablk L.abcijk Q.f_aa_oava Q.t2_abab Q.t2_abab),
    aug1 X.triples_res (ein2 L.lbjk L.acil L.abcijk Q.g_bbbb_oavaoaoa Q.t2_abab),
    aug1 X.triples_res (ein2 L.alik L.bcjl L.abcijk Q.g_abab_vaoaoaoa Q.t2_bbbb),
    aug1 X.triples_res (ein2 L.lbik L.aclj L.abcijk Q.g_abab_oavaoaoa Q.t2_abab),
    aug1 X.triples_res (ein2 L.alij L.bckl L.abcijk Q.g_abab_vaoaoaoa Q.t2_bbbb),
    aug1 X.triples_res (ein2 L.lbij L.aclk L.abcijk Q.g_abab_oavaoaoa Q.t2_abab),
    aug1 X.triples_res (ein2 L.lcjk L.abil L.abcijk Q.g_bbbb_oavaoaoa Q.t2_abab),
    aug1 X.triples_res (ein2 L.lcik L.ablj L.abcijk Q.g_abab_oavaoaoa Q.t2_abab),
    aug1 X.triples_res (ein2 L.lcij L.ablk L.abcijk Q.g_abab_oavaoaoa Q.t2_abab),
    set1 X.contracted_intermediate (ein2 L.abdk L.dcij L.abcijk Q.g_abab_vavavaoa Q.t2_abab),
    .aug X.triples_res [.arg Q.contracted_intermediate, ein1 L.abcijk L.abcikj Q.contracted_intermediate, ein1 L.abcijk L.acbijk Q.contracted_intermediate, ein1 L.abcijk L.acbikj Q.contracted_intermediate],
    set1 X.contracted_intermediate (ein2 L.abid L.dcjk L.abcijk Q.g_abab_vavaoava Q.t2_bbbb),
    .aug X.triples_res [.arg Q.contracted_intermediate, ein1 L.abcijk L.acbijk Q.contracted_intermediate],
    set1 X.contracted_intermediate (ein2 L.bcdk L.adij L.abcijk Q.g_bbbb_vavavaoa Q.t2_abab),
    .aug X.triples_res [.arg Q.contracted_intermediate, ein1 L.abcijk L.abcikj Q.contracted_intermediate],
    aug1 X.triples_res (ein2 L.mljk L.abciml L.abcijk Q.g_bbbb_oaoaoaoa Q.t3_abbabb),
    aug1 X.triples_res (ein2 L.mlik L.abcmjl L.abcijk Q.g_abab_oaoaoaoa Q.t3_abbabb),
    aug1 X.triples_res (ein2 L.lmik L.abclmj L.abcijk Q.g_abab_oaoaoaoa Q.t3_abbabb),
    aug1 X.triples_res (ein2 L.mlij L.abcmkl L.abcijk Q.g_abab_oaoaoaoa Q.t3_abbabb),
    aug1 X.triples_res (ein2 L.lmij L.abclmk L.abcijk Q.g_abab_oaoaoaoa Q.t3_abbabb),
    set1 X.contracted_intermediate (ein2 L.aldk L.dbcijl L.abcijk Q.g_abab_vaoavaoa Q.t3_abbabb),
    .aug X.triples_res [.arg Q.contracted_intermediate, ein1 L.abcijk L.abcikj Q.contracted_intermediate],
    set1 X.contracted_intermediate (ein2 L.lbdk L.dacilj L.abcijk Q.g_abab_oavavaoa Q.t3_aabaab),
    .aug X.triples_res [.arg Q.contracted_intermediate, ein1 L.abcijk L.abcikj Q.contracted_intermediate],
    set1 X.contracted_intermediate (ein2 L.lbdk L.adcijl L.abcijk Q.g_bbbb_oavavaoa Q.t3_abbabb),
    .aug X.triples_res [.arg Q.contracted_intermediate, ein1 L.abcijk L.abcikj Q.contracted_intermediate],
    aug1 X.triples_res (ein2 L.ladi L.dbclkj L.abcijk Q.g_aaaa_oavavaoa Q.t3_abbabb),
    aug1 X.triples_res (ein2 L.alid L.dbcjkl L.abcijk Q.g_abab_vaoaoava Q.t3_bbbbbb),
    aug1 X.triples_res (ein2 L.lbid L.adclkj L.abcijk Q.g_abab_oavaoava Q.t3_abbabb),
    set1 X.contracted_intermediate (ein2 L.lcdk L.dabilj L.abcijk Q.g_abab_oavavaoa Q.t3_aabaab),
    .aug X.triples_res [.arg Q.contracted_intermediate, ein1 L.abcijk L.abcikj Q.contracted_intermediate],
    set1 X.contracted_intermediate (ein2 L.lcdk L.adbijl L.abcijk Q.g_bbbb_oavavaoa Q.t3_abbabb),
    .aug X.triples_res [.arg Q.contracted_intermediate, ein1 L.abcijk L.abcikj Q.contracted_intermediate],
    aug1 X.triples_res (ein2 L.lcid L.adblkj L.abcijk Q.g_abab_oavaoava Q.t3_abbabb),
    set1 X.contracted_intermediate (ein2 L.abde L.decijk L.abcijk Q.g_abab_vavavava Q.t3_abbabb),
    .aug X.triples_res [.arg Q.contracted_intermediate, ein1 L.abcijk L.acbijk Q.contracted_intermediate],
    set1 X.contracted_intermediate (ein2 L.abed L.edcijk L.abcijk Q.g_abab_vavavava Q.t3_abbabb),
    .aug X.triples_res [.arg Q.contracted_intermediate, ein1 L.abcijk L.acbijk Q.contracted_intermediate],
    aug1 X.triples_res (ein2 L.bcde L.aedijk L.abcijk Q.g_bbbb_vavavava Q.t3_abbabb),
    aug1 X.triples_res (ein3 L.mljk L.bl L.acim L.abcijk Q.g_bbbb_oaoaoaoa Q.t1_bb Q.t2_abab),
    aug1 X.triples_res (ein3 L.lmik L.al L.bcjm L.abcijk Q.g_abab_oaoaoaoa Q.t1_aa Q.t2_bbbb),
    aug1 X.triples_res (ein3 L.mlik L.bl L.acmj L.abcijk Q.g_abab_oaoaoaoa Q.t1_bb Q.t2_abab),
    aug1 X.triples_res (ein3 L.mljk L.cl L.abim L.abcijk Q.g_bbbb_oaoaoaoa Q.t1_bb Q.t2_abab),
    aug1 X.triples_res (ein3 L.mlik L.cl L.abmj L.abcijk Q.g_abab_oaoaoaoa Q.t1_bb Q.t2_abab),
    aug1 X.triples_res (ein3 L.lmij L.al L.bckm L.abcijk Q.g_abab_oaoaoaoa Q.t1_aa Q.t2_bbbb),
    aug1 X.triples_res (ein3 L.mlij L.bl L.acmk L.abcijk Q.g_abab_oaoaoaoa Q.t1_bb Q.t2_abab),
    aug1 X.triples_res (ein3 L.mlij L.cl L.abmk L.abcijk Q.g_abab_oaoaoaoa Q.t1_bb Q.t2_abab),
    aug1 X.triples_res (ein3 L.lbdk L.dj L.acil L.abcijk Q.g_bbbb_oavavaoa Q.t1_bb Q.t2_abab),
    aug1 X.triples_res (ein3 L.aldk L.di L.bcjl L.abcijk Q.g_abab_vaoavaoa Q.t1_aa Q.t2_bbbb),
    aug1 X.triples_res (ein3 L.lbdk L.di L.aclj L.abcijk Q.g_abab_oavavaoa Q.t1_aa Q.t2_abab),
    set1 X.contracted_intermediate (ein3 L.aldk L.bl L.dcij L.abcijk Q.g_abab_vaoavaoa Q.t1_bb Q.t2_abab),
    .aug X.triples_res [.arg Q.contracted_intermediate, ein1 L.abcijk L.abcikj Q.contracted_intermediate, ein1 L.abcijk L.acbijk Q.contracted_intermediate, ein1 L.abcijk L.acbikj Q.contracted_intermediate],
    aug1 X.triples_res (ein3 L.lbdj L.dk L.acil L.abcijk Q.g_bbbb_oavavaoa Q.t1_bb Q.t2_abab),
    aug1 X.triples_res (ein3 L.aldj L.di L.bckl L.abcijk Q.g_abab_vaoavaoa Q.t1_aa Q.t2_bbbb),
    aug1 X.triples_res (ein3 L.lbdj L.di L.aclk L.abcijk Q.g_abab_oavavaoa Q.t1_aa Q.t2_abab),
    set1 X.contracted_intermediate (ein3 L.alid L.dk L.bcjl L.abcijk Q.g_abab_vaoaoava Q.t1_bb Q.t2_bbbb),
    .aug X.triples_res [.arg Q.contracted_intermediate, ein1 L.abcijk L.abcikj Q.contracted_intermediate],
    set1 X.contracted_intermediate (ein3 L.lbid L.dk L.aclj L.abcijk Q.g_abab_oavaoava Q.t1_bb Q.t2_abab),
    .aug X.triples_res [.arg Q.contracted_intermediate, ein1 L.abcijk L.abcikj Q.contracted_intermediate],
    set1 X.contracted_intermediate (ein3 L.alid L.bl L.dcjk L.abcijk Q.g_abab_vaoaoava Q.t1_bb Q.t2_bbbb),
    .aug X.triples_res [.arg Q.contracted_intermediate, ein1 L.abcijk L.acbijk Q.contracted_intermediate],
    set1 X.contracted_intermediate (ein3 L.lbdk L.al L.dcij L.abcijk Q.g_abab_oavavaoa Q.t1_aa Q.t2_abab),
    .aug X.triples_res [.arg Q.contracted_intermediate, ein1 L.abcijk L.abcikj Q.contracted_intermediate],
    set1 X.contracted_intermediate (ein3 L.lbdk L.cl L.adij L.abcijk Q.g_bbbb_oavavaoa Q.t1_bb Q.t2_abab),
    .aug X.triples_res [.arg Q.contracted_intermediate, ein1 L.abcijk L.abcikj Q.contracted_intermediate],
    aug1 X.triples_res (ein3 L.lbid L.al L.dcjk L.abcijk Q.g_abab_oavaoava Q.t1_aa Q.t2_bbbb),
    aug1 X.triples_res (ein3 L.lcdk L.dj L.abil L.abcijk Q.g_bbbb_oavavaoa Q.t1_bb Q.t2_abab),
    aug1 X.triples_res (ein3 L.lcdk L.di L.ablj L.abcijk Q.g_abab_oavavaoa Q.t1_aa Q.t2_abab),
    set1 X.contracted_intermediate (ein3 L.lcdk L.al L.dbij L.abcijk Q.g_abab_oavavaoa Q.t1_aa Q.t2_abab),
    .aug X.triples_res [.arg Q.contracted_intermediate, ein1 L.abcijk L.abcikj Q.contracted_intermediate],
    set1 X.contracted_intermediate (ein3 L.lcdk L.bl L.adij L.abcijk Q.g_bbbb_oavavaoa Q.t1_bb Q.t2_abab),
    .aug X.triples_res [.arg Q.contracted_intermediate, ein1 L.abcijk L.abcikj Q.contracted_intermediate],
    aug1 X.triples_res (ein3 L.lcdj L.dk L.abil L.abcijk Q.g_bbbb_oavavaoa Q.t1_bb Q.t2_abab),
    aug1 X.triples_res (ein3 L.lcdj L.di L.ablk L.abcijk Q.g_abab_oavavaoa Q.t1_aa Q.t2_abab),
    set1 X.contracted_intermediate (ein3 L.lcid L.dk L.ablj L.abcijk Q.g_abab_oavaoava Q.t1_bb Q.t2_abab),
    .aug X.triples_res [.arg Q.contracted_intermediate, ein1 L.abcijk L.abcikj Q.contracted_intermediate],
    aug1 X.triples_res (ein3 L.lcid L.al L.dbjk L.abcijk Q.g_abab_oavaoava Q.t1_aa Q.t2_bbbb),
    set1 X.contracted_intermediate (ein3 L.abed L.dk L.ecij L.abcijk Q.g_abab_vavavava Q.t1_bb Q.t2_abab),
    .aug X.triples_res [.arg Q.contracted_intermediate, ein1 L.abcijk L.abcikj Q.contracted_intermediate, ein1 L.abcijk L.acbijk Q.contracted_intermediate, ein1 L.abcijk L.acbikj Q.contracted_intermediate],
    set1 X.contracted_intermediate (ein3 L.abde L.di L.ecjk L.abcijk Q.g_abab_vavavava Q.t1_aa Q.t2_bbbb),
    .aug X.triples_res [.arg Q.contracted_intermediate, ein1 L.abcijk L.acbijk Q.contracted_intermediate],
    set1 X.contracted_intermediate (ein3 L.bcde L.dk L.aeij L.abcijk Q.g_bbbb_vavavava Q.t1_bb Q.t2_abab),
    .aug X.triples_res [.arg Q.contracted_intermediate, ein1 L.abcijk L.abcikj Q.contracted_intermediate],
    set1 X.contracted_intermediate (ein3 L.lmdk L.dl L.abcijm L.abcijk Q.g_abab_oaoavaoa Q.t1_aa Q.t3_abbabb),
    .aug X.triples_res [.arg Q.contracted_intermediate, ein1 L.abcijk L.abcikj Q.contracted_intermediate],
    set1 X.contracted_intermediate (ein3 L.mldk L.dl L.abcijm L.abcijk Q.g_bbbb_oaoavaoa Q.t1_bb Q.t3_abbabb),
    .aug X.triples_res [.arg Q.contracted_intermediate, ein1 L.abcijk L.abcikj Q.contracted_intermediate],
    aug1 X.triples_res (ein3 L.mldk L.dj L.abciml L.abcijk Q.g_bbbb_oaoavaoa Q.t1_bb Q.t3_abbabb),
    aug1 X.triples_res (ein3 L.mldk L.di L.abcmjl L.abcijk Q.g_abab_oaoavaoa Q.t1_aa Q.t3_abbabb),
    aug1 X.triples_res (ein3 L.lmdk L.di L.abclmj L.abcijk Q.g_abab_oaoavaoa Q.t1_aa Q.t3_abbabb),
    set1 X.contracted_intermediate (ein3 L.lmdk L.al L.dbcijm L.abcijk Q.g_abab_oaoavaoa Q.t1_aa Q.t3_abbabb),
    .aug X.triples_res [.arg Q.contracted_intermediate, ein1 L.abcijk L.abcikj Q.contracted_intermediate],
    set1 X.contracted_intermediate (ein3 L.mldk L.bl L.dacimj L.abcijk Q.g_abab_oaoavaoa Q.t1_bb Q.t3_aabaab),
    .aug X.triples_res [.arg Q.contracted_intermediate, ein1 L.abcijk L.abcikj Q.contracted_intermediate],
    set1 X.contracted_intermediate (ein3 L.mldk L.bl L.adcijm L.abcijk Q.g_bbbb_oaoavaoa Q.t1_bb Q.t3_abbabb),
    .aug X.triples_res [.arg Q.contracted_intermediate, ein1 L.abcijk L.abcikj Q.contracted_intermediate],
    set1 X.contracted_intermediate (ein3 L.mldk L.cl L.dabimj L.abcijk Q.g_abab_oaoavaoa Q.t1_bb Q.t3_aabaab),
    .aug X.triples_res [.arg Q.contracted_intermediate, ein1 L.abcijk L.abcikj Q.contracted_intermediate],
    set1 X.contracted_intermediate (ein3 L.mldk L.cl L.adbijm L.abcijk Q.g_bbbb_oaoavaoa Q.t1_bb Q.t3_abbabb),
    .aug X.triples_res [.arg Q.contracted_intermediate, ein1 L.abcijk L.abcikj Q.contracted_intermediate],
    aug1 X.triples_res (ein3 L.mldj L.dk L.abciml L.abcijk Q.g_bbbb_oaoavaoa Q.t1_bb Q.t3_abbabb),
    aug1 X.triples_res (ein3 L.mldj L.di L.abcmkl L.abcijk Q.g_abab_oaoavaoa Q.t1_aa Q.t3_abbabb),
    aug1 X.triples_res (ein3 L.lmdj L.di L.abclmk L.abcijk Q.g_abab_oaoavaoa Q.t1_aa Q.t3_abbabb),
    aug1 X.triples_res (ein3 L.mldi L.dl L.abcmkj L.abcijk Q.g_aaaa_oaoavaoa Q.t1_aa Q.t3_abbabb),
    aug1 X.triples_res (ein3 L.mlid L.dl L.abcmkj L.abcijk Q.g_abab_oaoaoava Q.t1_bb Q.t3_abbabb),
    set1 X.contracted_intermediate (ein3 L.mlid L.dk L.abcmjl L.abcijk Q.g_abab_oaoaoava Q.t1_bb Q.t3_abbabb),
    .aug X.triples_res [.arg Q.contracted_intermediate, ein1 L.abcijk L.abcikj Q.contracted_intermediate],
    set1 X.contracted_intermediate (ein3 L.lmid L.dk L.abclmj L.abcijk Q.g_abab_oaoaoava Q.t1_bb Q.t3_abbabb),
    .aug X.triples_res [.arg Q.contracted_intermediate, ein1 L.abcijk L.abcikj Q.contracted_intermediate],
    aug1 X.triples_res (ein3 L.mldi L.al L.dbcmkj L.abcijk Q.g_aaaa_oaoavaoa Q.t1_aa Q.t3_abbabb),
    aug1 X.triples_res (ein3 L.lmid L.al L.dbcjkm L.abcijk Q.g_abab_oaoaoava Q.t1_aa Q.t3_bbbbbb),
    aug1 X.triples_res (ein3 L.mlid L.bl L.adcmkj L.abcijk Q.g_abab_oaoaoava Q.t1_bb Q.t3_abbabb),
    aug1 X.triples_res (ein3 L.mlid L.cl L.adbmkj L.abcijk Q.g_abab_oaoaoava Q.t1_bb Q.t3_abbabb),
    aug1 X.triples_res (ein3 L.lade L.dl L.ebcijk L.abcijk Q.g_aaaa_oavavava Q.t1_aa Q.t3_abbabb),
    aug1 X.triples_res (ein3 L.aled L.dl L.ebcijk L.abcijk Q.g_abab_vaoavava Q.t1_bb Q.t3_abbabb),
    aug1 X.triples_res (ein3 L.lbde L.dl L.aecijk L.abcijk Q.g_abab_oavavava Q.t1_aa Q.t3_abbabb),
    aug1 X.triples_res (ein3 L.lbde L.dl L.aecijk L.abcijk Q.g_bbbb_oavavava Q.t1_bb Q.t3_abbabb),
    set1 X.contracted_intermediate (ein3 L.aled L.dk L.ebcijl L.abcijk Q.g_abab_vaoavava Q.t1_bb Q.t3_abbabb),
    .aug X.triples_res [.arg Q.contracted_intermediate, ein1 L.abcijk L.abcikj Q.contracted_intermediate],
    set1 X.contracted_intermediate (ein3 L.lbed L.dk L.eacilj L.abcijk Q.g_abab_oavavava Q.t1_bb Q.t3_aabaab),
    .aug X.triples_res [.arg Q.contracted_intermediate, ein1 L.abcijk L.abcikj Q.contracted_intermediate],
    set1 X.contracted_intermediate (ein3 L.lbde L.dk L.aecijl L.abcijk Q.g_bbbb_oavavava Q.t1_bb Q.t3_abbabb),
    .aug X.triples_res [.arg Q.contracted_intermediate, ein1 L.abcijk L.abcikj Q.contracted_intermediate],
    aug1 X.triples_res (ein3 L.lade L.di L.ebclkj L.abcijk Q.g_aaaa_oavavava Q.t1_aa Q.t3_abbabb),
    aug1 X.triples_res (ein3 L.alde L.di L.ebcjkl L.abcijk Q.g_abab_vaoavava Q.t1_aa Q.t3_bbbbbb),
    aug1 X.triples_res (ein3 L.lbde L.di L.aeclkj L.abcijk Q.g_abab_oavavava Q.t1_aa Q.t3_abbabb),
    set1 X.contracted_intermediate (ein3 L.alde L.bl L.decijk L.abcijk Q.g_abab_vaoavava Q.t1_bb Q.t3_abbabb),
    .aug X.triples_res [.arg Q.contracted_intermediate, ein1 L.abcijk L.acbijk Q.contracted_intermediate],
    set1 X.contracted_intermediate (ein3 L.aled L.bl L.edcijk L.abcijk Q.g_abab_vaoavava Q.t1_bb Q.t3_abbabb),
    .aug X.triples_res [.arg Q.contracted_intermediate, ein1 L.abcijk L.acbijk Q.contracted_intermediate],
    aug1 X.triples_res (ein3 L.lbde L.al L.decijk L.abcijk Q.g_abab_oavavava Q.t1_aa Q.t3_abbabb),
    aug1 X.triples_res (ein3 L.lbed L.al L.edcijk L.abcijk Q.g_abab_oavavava Q.t1_aa Q.t3_abbabb),
    aug1 X.triples_res (ein3 L.lbde L.cl L.aedijk L.abcijk Q.g_bbbb_oavavava Q.t1_bb Q.t3_abbabb),
    aug1 X.triples_res (ein3 L.lcde L.dl L.aebijk L.abcijk Q.g_abab_oavavava Q.t1_aa Q.t3_abbabb),
    aug1 X.triples_res (ein3 L.lcde L.dl L.aebijk L.abcijk Q.g_bbbb_oavavava Q.t1_bb Q.t3_abbabb),
    set1 X.contracted_intermediate (ein3 L.lced L.dk L.eabilj L.abcijk Q.g_abab_oavavava Q.t1_bb Q.t3_aabaab),
    .aug X.triples_res [.arg Q.contracted_intermediate, ein1 L.abcijk L.abcikj Q.contracted_intermediate],
    set1 X.contracted_intermediate (ein3 L.lcde L.dk L.aebijl L.abcijk Q.g_bbbb_oavavava Q.t1_bb Q.t3_abbabb),
    .aug X.triples_res [.arg Q.contracted_intermediate, ein1 L.abcijk L.abcikj Q.contracted_intermediate],
    aug1 X.triples_res (ein3 L.lcde L.di L.aeblkj L.abcijk Q.g_abab_oavavava Q.t1_aa Q.t3_abbabb),
    aug1 X.triples_res (ein3 L.lcde L.al L.debijk L.abcijk Q.g_abab_oavavava Q.t1_aa Q.t3_abbabb),
    aug1 X.triples_res (ein3 L.lced L.al L.edbijk L.abcijk Q.g_abab_oavavava Q.t1_aa Q.t3_abbabb),
    aug1 X.triples_res (ein3 L.lcde L.bl L.aedijk L.abcijk Q.g_bbbb_oavavava Q.t1_bb Q.t3_abbabb),
    set1 X.contracted_intermediate (ein3 L.lmde L.delk L.abcijm L.abcijk Q.g_abab_oaoavava Q.t2_abab Q.t3_abbabb),
    .aug X.triples_res [.arg Q.contracted_intermediate, ein1 L.abcijk L.abcikj Q.contracted_intermediate],
    set1 X.contracted_intermediate (ein3 L.lmed L.edlk L.abcijm L.abcijk Q.g_abab_oaoavava Q.t2_abab Q.t3_abbabb),
    .aug X.triples_res [.arg Q.contracted_intermediate, ein1 L.abcijk L.abcikj Q.contracted_intermediate],
    set1 X.contracted_intermediate (ein3 L.mlde L.dekl L.abcijm L.abcijk Q.g_bbbb_oaoavava Q.t2_bbbb Q.t3_abbabb),
    .aug X.triples_res [.arg Q.contracted_intermediate, ein1 L.abcijk L.abcikj Q.contracted_intermediate],
    aug1 X.triples_res (ein3 L.mlde L.deil L.abcmkj L.abcijk Q.g_aaaa_oaoavava Q.t2_aaaa Q.t3_abbabb),
    aug1 X.triples_res (ein3 L.mlde L.deil L.abcmkj L.abcijk Q.g_abab_oaoavava Q.t2_abab Q.t3_abbabb),
    aug1 X.triples_res (ein3 L.mled L.edil L.abcmkj L.abcijk Q.g_abab_oaoavava Q.t2_abab Q.t3_abbabb),
    aug1 X.triples_res (ein3 L.mlde L.dejk L.abciml L.abcijk Q.g_bbbb_oaoavava Q.t2_bbbb Q.t3_abbabb),
    aug1 X.triples_res (ein3 L.mlde L.deik L.abcmjl L.abcijk Q.g_abab_oaoavava Q.t2_abab Q.t3_abbabb),
    aug1 X.triples_res (ein3 L.lmde L.deik L.abclmj L.abcijk Q.g_abab_oaoavava Q.t2_abab Q.t3_abbabb),
    aug1 X.triples_res (ein3 L.mled L.edik L.abcmjl L.abcijk Q.g_abab_oaoavava Q.t2_abab Q.t3_abbabb),
    aug1 X.triples_res (ein3 L.lmed L.edik L.abclmj L.abcijk Q.g_abab_oaoavava Q.t2_abab Q.t3_abbabb),
    aug1 X.triples_res (ein3 L.mlde L.deij L.abcmkl L.abcijk Q.g_abab_oaoavava Q.t2_abab Q.t3_abbabb),
    aug1 X.triples_res (ein3 L.lmde L.deij L.abclmk L.abcijk Q.g_abab_oaoavava Q.t2_abab Q.t3_abbabb),
    aug1 X.triples_res (ein3 L.mled L.edij L.abcmkl L.abcijk Q.g_abab_oaoavava Q.t2_abab Q.t3_abbabb),
    aug1 X.triples_res (ein3 L.lmed L.edij L.abclmk L.abcijk Q.g_abab_oaoavava Q.t2_abab Q.t3_abbabb),
    aug1 X.triples_res (ein3 L.mlde L.daml L.ebcijk L.abcijk Q.g_aaaa_oaoavava Q.t2_aaaa Q.t3_abbabb),
    aug1 X.triples_res (ein3 L.mled L.adml L.ebcijk L.abcijk Q.g_abab_oaoavava Q.t2_abab Q.t3_abbabb),
    aug1 X.triples_res (ein3 L.lmed L.adlm L.ebcijk L.abcijk Q.g_abab_oaoavava Q.t2_abab Q.t3_abbabb),
    aug1 X.triples_res (ein3 L.mlde L.dbml L.aecijk L.abcijk Q.g_abab_oaoavava Q.t2_abab Q.t3_abbabb),
    aug1 X.triples_res (ein3 L.lmde L.dblm L.aecijk L.abcijk Q.g_abab_oaoavava Q.t2_abab Q.t3_abbabb),
    aug1 X.triples_res (ein3 L.mlde L.dbml L.aecijk L.abcijk Q.g_bbbb_oaoavava Q.t2_bbbb Q.t3_abbabb),
    set1 X.contracted_intermediate (ein3 L.lmed L.adlk L.ebcijm L.abcijk Q.g_abab_oaoavava Q.t2_abab Q.t3_abbabb),
    .aug X.triples_res [.arg Q.contracted_intermediate, ein1 L.abcijk L.abcikj Q.contracted_intermediate],
    set1 X.contracted_intermediate (ein3 L.mlde L.dblk L.eacimj L.abcijk Q.g_aaaa_oaoavava Q.t2_abab Q.t3_aabaab),
    .aug X.triples_res [.arg Q.contracted_intermediate, ein1 L.abcijk L.abcikj Q.contracted_intermediate],
    set1 X.contracted_intermediate (ein3 L.lmde L.dblk L.aecijm L.abcijk Q.g_abab_oaoavava Q.t2_abab Q.t3_abbabb),
    .aug X.triples_res [.arg Q.contracted_intermediate, ein1 L.abcijk L.abcikj Q.contracted_intermediate],
    set1 X.contracted_intermediate (ein3 L.mled L.dbkl L.eacimj L.abcijk Q.g_abab_oaoavava Q.t2_bbbb Q.t3_aabaab),
    .aug X.triples_res [.arg Q.contracted_intermediate, ein1 L.abcijk L.abcikj Q.contracted_intermediate],
    set1 X.contracted_intermediate (ein3 L.mlde L.dbkl L.aecijm L.abcijk Q.g_bbbb_oaoavava Q.t2_bbbb Q.t3_abbabb),
    .aug X.triples_res [.arg Q.contracted_intermediate, ein1 L.abcijk L.abcikj Q.contracted_intermediate],
    aug1 X.triples_res (ein3 L.mlde L.dail L.ebcmkj L.abcijk Q.g_aaaa_oaoavava Q.t2_aaaa Q.t3_abbabb),
    aug1 X.triples_res (ein3 L.lmde L.dail L.ebcjkm L.abcijk Q.g_abab_oaoavava Q.t2_aaaa Q.t3_bbbbbb),
    aug1 X.triples_res (ein3 L.mled L.adil L.ebcmkj L.abcijk Q.g_abab_oaoavava Q.t2_abab Q.t3_abbabb),
    aug1 X.triples_res (ein3 L.mlde L.adil L.ebcjkm L.abcijk Q.g_bbbb_oaoavava Q.t2_abab Q.t3_bbbbbb),
    aug1 X.triples_res (ein3 L.mlde L.dbil L.aecmkj L.abcijk Q.g_abab_oaoavava Q.t2_abab Q.t3_abbabb),
    aug1 X.triples_res (ein3 L.mled L.dbjk L.eaciml L.abcijk Q.g_abab_oaoavava Q.t2_bbbb Q.t3_aabaab),
    aug1 X.triples_res (ein3 L.lmed L.dbjk L.eacilm L.abcijk Q.g_abab_oaoavava Q.t2_bbbb Q.t3_aabaab),
    aug1 X.triples_res (ein3 L.mlde L.dbjk L.aeciml L.abcijk Q.g_bbbb_oaoavava Q.t2_bbbb Q.t3_abbabb),
    aug1 X.triples_res (ein3 L.mled L.adik L.ebcmjl L.abcijk Q.g_abab_oaoavava Q.t2_abab Q.t3_abbabb),
    aug1 X.triples_res (ein3 L.lmed L.adik L.ebclmj L.abcijk Q.g_abab_oaoavava Q.t2_abab Q.t3_abbabb),
    aug1 X.triples_res (ein3 L.mlde L.adik L.ebcjml L.abcijk Q.g_bbbb_oaoavava Q.t2_abab Q.t3_bbbbbb),
    aug1 X.triples_res (ein3 L.mlde L.dbik L.eaclmj L.abcijk Q.g_aaaa_oaoavava Q.t2_abab Q.t3_aabaab),
    aug1 X.triples_res (ein3 L.mlde L.dbik L.aecmjl L.abcijk Q.g_abab_oaoavava Q.t2_abab Q.t3_abbabb),
    aug1 X.triples_res (ein3 L.lmde L.dbik L.aeclmj L.abcijk Q.g_abab_oaoavava Q.t2_abab Q.t3_abbabb),
    aug1 X.triples_res (ein3 L.mled L.adij L.ebcmkl L.abcijk Q.g_abab_oaoavava Q.t2_abab Q.t3_abbabb),
    aug1 X.triples_res (ein3 L.lmed L.adij L.ebclmk L.abcijk Q.g_abab_oaoavava Q.t2_abab Q.t3_abbabb),
    aug1 X.triples_res (ein3 L.mlde L.adij L.ebckml L.abcijk Q.g_bbbb_oaoavava Q.t2_abab Q.t3_bbbbbb),
    aug1 X.triples_res (ein3 L.mlde L.dbij L.eaclmk L.abcijk Q.g_aaaa_oaoavava Q.t2_abab Q.t3_aabaab),
    aug1 X.triples_res (ein3 L.mlde L.dbij L.aecmkl L.abcijk Q.g_abab_oaoavava Q.t2_abab Q.t3_abbabb),
    aug1 X.triples_res (ein3 L.lmde L.dbij L.aeclmk L.abcijk Q.g_abab_oaoavava Q.t2_abab Q.t3_abbabb),
    aug1 X.triples_res (ein3 L.mlde L.dcml L.aebijk L.abcijk Q.g_abab_oaoavava Q.t2_abab Q.t3_abbabb),
    aug1 X.triples_res (ein3 L.lmde L.dclm L.aebijk L.abcijk Q.g_abab_oaoavava Q.t2_abab Q.t3_abbabb),
    aug1 X.triples_res (ein3 L.mlde L.dcml L.aebijk L.abcijk Q.g_bbbb_oaoavava Q.t2_bbbb Q.t3_abbabb),
    set1 X.contracted_intermediate (ein3 L.mlde L.dclk L.eabimj L.abcijk Q.g_aaaa_oaoavava Q.t2_abab Q.t3_aabaab),
    .aug X.triples_res [.arg Q.contracted_intermediate, ein1 L.abcijk L.abcikj Q.contracted_intermediate],
    set1 X.contracted_intermediate (ein3 L.lmde L.dclk L.aebijm L.abcijk Q.g_abab_oaoavava Q.t2_abab Q.t3_abbabb),
    .aug X.triples_res [.arg Q.contracted_intermediate, ein1 L.abcijk L.abcikj Q.contracted_intermediate],
    set1 X.contracted_intermediate (ein3 L.mled L.dckl L.eabimj L.abcijk Q.g_abab_oaoavava Q.t2_bbbb Q.t3_aabaab),
    .aug X.triples_res [.arg Q.contracted_intermediate, ein1 L.abcijk L.abcikj Q.contracted_intermediate],
    set1 X.contracted_intermediate (ein3 L.mlde L.dckl L.aebijm L.abcijk Q.g_bbbb_oaoavava Q.t2_bbbb Q.t3_abbabb),
    .aug X.triples_res [.arg Q.contracted_intermediate, ein1 L.abcijk L.abcikj Q.contracted_intermediate],
    aug1 X.triples_res (ein3 L.mlde L.dcil L.aebmkj L.abcijk Q.g_abab_oaoavava Q.t2_abab Q.t3_abbabb),
    aug1 X.triples_res (ein3 L.mled L.dcjk L.eabiml L.abcijk Q.g_abab_oaoavava Q.t2_bbbb Q.t3_aabaab),
    aug1 X.triples_res (ein3 L.lmed L.dcjk L.eabilm L.abcijk Q.g_abab_oaoavava Q.t2_bbbb Q.t3_aabaab),
    aug1 X.triples_res (ein3 L.mlde L.dcjk L.aebiml L.abcijk Q.g_bbbb_oaoavava Q.t2_bbbb Q.t3_abbabb),
    aug1 X.triples_res (ein3 L.mlde L.dcik L.eablmj L.abcijk Q.g_aaaa_oaoavava Q.t2_abab Q.t3_aabaab),
    aug1 X.triples_res (ein3 L.mlde L.dcik L.aebmjl L.abcijk Q.g_abab_oaoavava Q.t2_abab Q.t3_abbabb),
    aug1 X.triples_res (ein3 L.lmde L.dcik L.aeblmj L.abcijk Q.g_abab_oaoavava Q.t2_abab Q.t3_abbabb),
    aug1 X.triples_res (ein3 L.mlde L.dcij L.eablmk L.abcijk Q.g_aaaa_oaoavava Q.t2_abab Q.t3_aabaab),
    aug1 X.triples_res (ein3 L.mlde L.dcij L.aebmkl L.abcijk Q.g_abab_oaoavava Q.t2_abab Q.t3_abbabb),
    aug1 X.triples_res (ein3 L.lmde L.dcij L.aeblmk L.abcijk Q.g_abab_oaoavava Q.t2_abab Q.t3_abbabb),
    set1 X.contracted_intermediate (ein3 L.mlde L.abml L.decijk L.abcijk Q.g_abab_oaoavava Q.t2_abab Q.t3_abbabb),
    .aug X.triples_res [.arg Q.contracted_intermediate, ein1 L.abcijk L.acbijk Q.contracted_intermediate],
    set1 X.contracted_intermediate (ein3 L.mled L.abml L.edcijk L.abcijk Q.g_abab_oaoavava Q.t2_abab Q.t3_abbabb),
    .aug X.triples_res [.arg Q.contracted_intermediate, ein1 L.abcijk L.acbijk Q.contracted_intermediate],
    set1 X.contracted_intermediate (ein3 L.lmde L.ablm L.decijk L.abcijk Q.g_abab_oaoavava Q.t2_abab Q.t3_abbabb),
    .aug X.triples_res [.arg Q.contracted_intermediate, ein1 L.abcijk L.acbijk Q.contracted_intermediate],
    set1 X.contracted_intermediate (ein3 L.lmed L.ablm L.edcijk L.abcijk Q.g_abab_oaoavava Q.t2_abab Q.t3_abbabb),
    .aug X.triples_res [.arg Q.contracted_intermediate, ein1 L.abcijk L.acbijk Q.contracted_intermediate],
    set1 X.contracted_intermediate (ein3 L.mlde L.ablk L.decimj L.abcijk Q.g_aaaa_oaoavava Q.t2_abab Q.t3_aabaab),
    .aug X.triples_res [.arg Q.contracted_intermediate, ein1 L.abcijk L.abcikj Q.contracted_intermediate, ein1 L.abcijk L.acbijk Q.contracted_intermediate, ein1 L.abcijk L.acbikj Q.contracted_intermediate],
    set1 X.contracted_intermediate (ein3 L.lmde L.ablk L.decijm L.abcijk Q.g_abab_oaoavava Q.t2_abab Q.t3_abbabb),
    .aug X.triples_res [.arg Q.contracted_intermediate, ein1 L.abcijk L.abcikj Q.contracted_intermediate, ein1 L.abcijk L.acbijk Q.contracted_intermediate, ein1 L.abcijk L.acbikj Q.contracted_intermediate],
    set1 X.contracted_intermediate (ein3 L.lmed L.ablk L.edcijm L.abcijk Q.g_abab_oaoavava Q.t2_abab Q.t3_abbabb),
    .aug X.triples_res [.arg Q.contracted_intermediate, ein1 L.abcijk L.abcikj Q.contracted_intermediate, ein1 L.abcijk L.acbijk Q.contracted_intermediate, ein1 L.abcijk L.acbikj Q.contracted_intermediate],
    set1 X.contracted_intermediate (ein3 L.mlde L.abil L.decmkj L.abcijk Q.g_abab_oaoavava Q.t2_abab Q.t3_abbabb),
    .aug X.triples_res [.arg Q.contracted_intermediate, ein1 L.abcijk L.acbijk Q.contracted_intermediate],
    set1 X.contracted_intermediate (ein3 L.mled L.abil L.edcmkj L.abcijk Q.g_abab_oaoavava Q.t2_abab Q.t3_abbabb),
    .aug X.triples_res [.arg Q.contracted_intermediate, ein1 L.abcijk L.acbijk Q.contracted_intermediate],
    set1 X.contracted_intermediate (ein3 L.mlde L.abil L.decjkm L.abcijk Q.g_bbbb_oaoavava Q.t2_abab Q.t3_bbbbbb),
    .aug X.triples_res [.arg Q.contracted_intermediate, ein1 L.abcijk L.acbijk Q.contracted_intermediate],
    aug1 X.triples_res (ein3 L.mlde L.bcml L.aedijk L.abcijk Q.g_bbbb_oaoavava Q.t2_bbbb Q.t3_abbabb),
    set1 X.contracted_intermediate (ein3 L.mlde L.bckl L.daeimj L.abcijk Q.g_abab_oaoavava Q.t2_bbbb Q.t3_aabaab),
    .aug X.triples_res [.arg Q.contracted_intermediate, ein1 L.abcijk L.abcikj Q.contracted_intermediate],
    set1 X.contracted_intermediate (ein3 L.mled L.bckl L.aedimj L.abcijk Q.g_abab_oaoavava Q.t2_bbbb Q.t3_aabaab),
    .aug X.triples_res [.arg Q.contracted_intermediate, ein1 L.abcijk L.abcikj Q.contracted_intermediate],
    set1 X.contracted_intermediate (ein3 L.mlde L.bckl L.aedijm L.abcijk Q.g_bbbb_oaoavava Q.t2_bbbb Q.t3_abbabb),
    .aug X.triples_res [.arg Q.contracted_intermediate, ein1 L.abcijk L.abcikj Q.contracted_intermediate],
    aug1 X.triples_res (ein3 L.lmdk L.dblj L.acim L.abcijk Q.g_abab_oaoavaoa Q.t2_abab Q.t2_abab),
    aug1 X.triples_res (ein3 L.mldk L.dbjl L.acim L.abcijk Q.g_bbbb_oaoavaoa Q.t2_bbbb Q.t2_abab),
    aug1 X.triples_res (ein3 L.lmdk L.dail L.bcjm L.abcijk Q.g_abab_oaoavaoa Q.t2_aaaa Q.t2_bbbb),
    aug1 X.triples_res (ein3 L.mldk L.adil L.bcjm L.abcijk Q.g_bbbb_oaoavaoa Q.t2_abab Q.t2_bbbb),
    aug1 X.triples_res (ein3 L.mldk L.dbil L.acmj L.abcijk Q.g_abab_oaoavaoa Q.t2_abab Q.t2_abab),
    set1 X.contracted_intermediate (ein3 L.mldk L.adij L.bcml L.abcijk Q.g_bbbb_oaoavaoa Q.t2_abab Q.t2_bbbb),
    .aug X.triples_res [.arg Q.contracted_intermediate, ein1 L.abcijk L.abcikj Q.contracted_intermediate],
    set1 X.contracted_intermediate (ein3 L.mldk L.dbij L.acml L.abcijk Q.g_abab_oaoavaoa Q.t2_abab Q.t2_abab),
    .aug X.triples_res [.arg Q.contracted_intermediate, ein1 L.abcijk L.abcikj Q.contracted_intermediate],
    set1 X.contracted_intermediate (ein3 L.lmdk L.dbij L.aclm L.abcijk Q.g_abab_oaoavaoa Q.t2_abab Q.t2_abab),
    .aug X.triples_res [.arg Q.contracted_intermediate, ein1 L.abcijk L.abcikj Q.contracted_intermediate],
    aug1 X.triples_res (ein3 L.lmdk L.dclj L.abim L.abcijk Q.g_abab_oaoavaoa Q.t2_abab Q.t2_abab),
    aug1 X.triples_res (ein3 L.mldk L.dcjl L.abim L.abcijk Q.g_bbbb_oaoavaoa Q.t2_bbbb Q.t2_abab),
    aug1 X.triples_res (ein3 L.mldk L.dcil L.abmj L.abcijk Q.g_abab_oaoavaoa Q.t2_abab Q.t2_abab),
    set1 X.contracted_intermediate (ein3 L.mldk L.dcij L.abml L.abcijk Q.g_abab_oaoavaoa Q.t2_abab Q.t2_abab),
    .aug X.triples_res [.arg Q.contracted_intermediate, ein1 L.abcijk L.abcikj Q.contracted_intermediate],
    set1 X.contracted_intermediate (ein3 L.lmdk L.dcij L.ablm L.abcijk Q.g_abab_oaoavaoa Q.t2_abab Q.t2_abab),
    .aug X.triples_res [.arg Q.contracted_intermediate, ein1 L.abcijk L.abcikj Q.contracted_intermediate],
    aug1 X.triples_res (ein3 L.lmdj L.dblk L.acim L.abcijk Q.g_abab_oaoavaoa Q.t2_abab Q.t2_abab),
    aug1 X.triples_res (ein3 L.mldj L.dbkl L.acim L.abcijk Q.g_bbbb_oaoavaoa Q.t2_bbbb Q.t2_abab),
    aug1 X.triples_res (ein3 L.lmdj L.dail L.bckm L.abcijk Q.g_abab_oaoavaoa Q.t2_aaaa Q.t2_bbbb),
    aug1 X.triples_res (ein3 L.mldj L.adil L.bckm L.abcijk Q.g_bbbb_oaoavaoa Q.t2_abab Q.t2_bbbb),
    aug1 X.triples_res (ein3 L.mldj L.dbil L.acmk L.abcijk Q.g_abab_oaoavaoa Q.t2_abab Q.t2_abab),
    aug1 X.triples_res (ein3 L.lmdj L.dclk L.abim L.abcijk Q.g_abab_oaoavaoa Q.t2_abab Q.t2_abab),
    aug1 X.triples_res (ein3 L.mldj L.dckl L.abim L.abcijk Q.g_bbbb_oaoavaoa Q.t2_bbbb Q.t2_abab),
    aug1 X.triples_res (ein3 L.mldj L.dcil L.abmk L.abcijk Q.g_abab_oaoavaoa Q.t2_abab Q.t2_abab),
    set1 X.contracted_intermediate (ein3 L.lmid L.adlk L.bcjm L.abcijk Q.g_abab_oaoaoava Q.t2_abab Q.t2_bbbb),
    .aug X.triples_res [.arg Q.contracted_intermediate, ein1 L.abcijk L.abcikj Q.contracted_intermediate],
    set1 X.contracted_intermediate (ein3 L.mldi L.dblk L.acmj L.abcijk Q.g_aaaa_oaoavaoa Q.t2_abab Q.t2_abab),
    .aug X.triples_res [.arg Q.contracted_intermediate, ein1 L.abcijk L.abcikj Q.contracted_intermediate],
    set1 X.contracted_intermediate (ein3 L.mlid L.dbkl L.acmj L.abcijk Q.g_abab_oaoaoava Q.t2_bbbb Q.t2_abab),
    .aug X.triples_res [.arg Q.contracted_intermediate, ein1 L.abcijk L.abcikj Q.contracted_intermediate],
    aug1 X.triples_res (ein3 L.mlid L.dbjk L.acml L.abcijk Q.g_abab_oaoaoava Q.t2_bbbb Q.t2_abab),
    aug1 X.triples_res (ein3 L.lmid L.dbjk L.aclm L.abcijk Q.g_abab_oaoaoava Q.t2_bbbb Q.t2_abab),
    set1 X.contracted_intermediate (ein3 L.mldi L.dclk L.abmj L.abcijk Q.g_aaaa_oaoavaoa Q.t2_abab Q.t2_abab),
    .aug X.triples_res [.arg Q.contracted_intermediate, ein1 L.abcijk L.abcikj Q.contracted_intermediate],
    set1 X.contracted_intermediate (ein3 L.mlid L.dckl L.abmj L.abcijk Q.g_abab_oaoaoava Q.t2_bbbb Q.t2_abab),
    .aug X.triples_res [.arg Q.contracted_intermediate, ein1 L.abcijk L.abcikj Q.contracted_intermediate],
    aug1 X.triples_res (ein3 L.mlid L.dcjk L.abml L.abcijk Q.g_abab_oaoaoava Q.t2_bbbb Q.t2_abab),
    aug1 X.triples_res (ein3 L.lmid L.dcjk L.ablm L.abcijk Q.g_abab_oaoaoava Q.t2_bbbb Q.t2_abab),
    aug1 X.triples_res (ein3 L.lbde L.dejk L.acil L.abcijk Q.g_bbbb_oavavava Q.t2_bbbb Q.t2_abab),
    aug1 X.triples_res (ein3 L.alde L.deik L.bcjl L.abcijk Q.g_abab_vaoavava Q.t2_abab Q.t2_bbbb),
    aug1 X.triples_res (ein3 L.aled L.edik L.bcjl L.abcijk Q.g_abab_vaoavava Q.t2_abab Q.t2_bbbb),
    aug1 X.triples_res (ein3 L.lbde L.deik L.aclj L.abcijk Q.g_abab_oavavava Q.t2_abab Q.t2_abab),
    aug1 X.triples_res (ein3 L.lbed L.edik L.aclj L.abcijk Q.g_abab_oavavava Q.t2_abab Q.t2_abab),
    aug1 X.triples_res (ein3 L.alde L.deij L.bckl L.abcijk Q.g_abab_vaoavava Q.t2_abab Q.t2_bbbb),
    aug1 X.triples_res (ein3 L.aled L.edij L.bckl L.abcijk Q.g_abab_vaoavava Q.t2_abab Q.t2_bbbb),
    aug1 X.triples_res (ein3 L.lbde L.deij L.aclk L.abcijk Q.g_abab_oavavava Q.t2_abab Q.t2_abab),
    aug1 X.triples_res (ein3 L.lbed L.edij L.aclk L.abcijk Q.g_abab_oavavava Q.t2_abab Q.t2_abab),
    set1 X.contracted_intermediate (ein3 L.lade L.dblk L.ecij L.abcijk Q.g_aaaa_oavavava Q.t2_abab Q.t2_abab),
    .aug X.triples_res [.arg Q.contracted_intermediate, ein1 L.abcijk L.abcikj Q.contracted_intermediate],
    set1 X.contracted_intermediate (ein3 L.aled L.dbkl L.ecij L.abcijk Q.g_abab_vaoavava Q.t2_bbbb Q.t2_abab),
    .aug X.triples_res [.arg Q.contracted_intermediate, ein1 L.abcijk L.abcikj Q.contracted_intermediate],
    set1 X.contracted_intermediate (ein3 L.lbed L.adlk L.ecij L.abcijk Q.g_abab_oavavava Q.t2_abab Q.t2_abab),
    .aug X.triples_res [.arg Q.contracted_intermediate, ein1 L.abcijk L.abcikj Q.contracted_intermediate],
    aug1 X.triples_res (ein3 L.alde L.dbil L.ecjk L.abcijk Q.g_abab_vaoavava Q.t2_abab Q.t2_bbbb),
    aug1 X.triples_res (ein3 L.lbde L.dail L.ecjk L.abcijk Q.g_abab_oavavava Q.t2_aaaa Q.t2_bbbb),
    aug1 X.triples_res (ein3 L.lbde L.adil L.ecjk L.abcijk Q.g_bbbb_oavavava Q.t2_abab Q.t2_bbbb),
    aug1 X.triples_res (ein3 L.aled L.dbjk L.ecil L.abcijk Q.g_abab_vaoavava Q.t2_bbbb Q.t2_abab),
    aug1 X.triples_res (ein3 L.lade L.dbik L.eclj L.abcijk Q.g_aaaa_oavavava Q.t2_abab Q.t2_abab),
    aug1 X.triples_res (ein3 L.alde L.dbik L.ecjl L.abcijk Q.g_abab_vaoavava Q.t2_abab Q.t2_bbbb),
    aug1 X.triples_res (ein3 L.lbed L.adik L.eclj L.abcijk Q.g_abab_oavavava Q.t2_abab Q.t2_abab),
    aug1 X.triples_res (ein3 L.lbde L.adik L.ecjl L.abcijk Q.g_bbbb_oavavava Q.t2_abab Q.t2_bbbb),
    aug1 X.triples_res (ein3 L.lade L.dbij L.eclk L.abcijk Q.g_aaaa_oavavava Q.t2_abab Q.t2_abab),
    aug1 X.triples_res (ein3 L.alde L.dbij L.eckl L.abcijk Q.g_abab_vaoavava Q.t2_abab Q.t2_bbbb),
    aug1 X.triples_res (ein3 L.lbed L.adij L.eclk L.abcijk Q.g_abab_oavavava Q.t2_abab Q.t2_abab),
    aug1 X.triples_res (ein3 L.lbde L.adij L.eckl L.abcijk Q.g_bbbb_oavavava Q.t2_abab Q.t2_bbbb),
    aug1 X.triples_res (ein3 L.lcde L.dejk L.abil L.abcijk Q.g_bbbb_oavavava Q.t2_bbbb Q.t2_abab),
    aug1 X.triples_res (ein3 L.lcde L.deik L.ablj L.abcijk Q.g_abab_oavavava Q.t2_abab Q.t2_abab),
    aug1 X.triples_res (ein3 L.lced L.edik L.ablj L.abcijk Q.g_abab_oavavava Q.t2_abab Q.t2_abab),
    aug1 X.triples_res (ein3 L.lcde L.deij L.ablk L.abcijk Q.g_abab_oavavava Q.t2_abab Q.t2_abab),
    aug1 X.triples_res (ein3 L.lced L.edij L.ablk L.abcijk Q.g_abab_oavavava Q.t2_abab Q.t2_abab),
    set1 X.contracted_intermediate (ein3 L.lced L.adlk L.ebij L.abcijk Q.g_abab_oavavava Q.t2_abab Q.t2_abab),
    .aug X.triples_res [.arg Q.contracted_intermediate, ein1 L.abcijk L.abcikj Q.contracted_intermediate],
    aug1 X.triples_res (ein3 L.lcde L.dail L.ebjk L.abcijk Q.g_abab_oavavava Q.t2_aaaa Q.t2_bbbb),
    aug1 X.triples_res (ein3 L.lcde L.adil L.ebjk L.abcijk Q.g_bbbb_oavavava Q.t2_abab Q.t2_bbbb),
    aug1 X.triples_res (ein3 L.lced L.adik L.eblj L.abcijk Q.g_abab_oavavava Q.t2_abab Q.t2_abab),
    aug1 X.triples_res (ein3 L.lcde L.adik L.ebjl L.abcijk Q.g_bbbb_oavavava Q.t2_abab Q.t2_bbbb),
    aug1 X.triples_res (ein3 L.lced L.adij L.eblk L.abcijk Q.g_abab_oavavava Q.t2_abab Q.t2_abab),
    aug1 X.triples_res (ein3 L.lcde L.adij L.ebkl L.abcijk Q.g_bbbb_oavavava Q.t2_abab Q.t2_bbbb),
    aug1 X.triples_res (ein4 L.lmde L.dl L.ebjk L.acim L.abcijk Q.g_abab_oaoavava Q.t1_aa Q.t2_bbbb Q.t2_abab),
    aug1 X.triples_res (ein4 L.mlde L.dl L.ebjk L.acim L.abcijk Q.g_bbbb_oaoavava Q.t1_bb Q.t2_bbbb Q.t2_abab),
    aug1 X.triples_res (ein4 L.lmde L.dl L.aeik L.bcjm L.abcijk Q.g_abab_oaoavava Q.t1_aa Q.t2_abab Q.t2_bbbb),
    aug1 X.triples_res (ein4 L.mlde L.dl L.aeik L.bcjm L.abcijk Q.g_bbbb_oaoavava Q.t1_bb Q.t2_abab Q.t2_bbbb),
    aug1 X.triples_res (ein4 L.mlde L.dl L.ebik L.acmj L.abcijk Q.g_aaaa_oaoavava Q.t1_aa Q.t2_abab Q.t2_abab),
    aug1 X.triples_res (ein4 L.mled L.dl L.ebik L.acmj L.abcijk Q.g_abab_oaoavava Q.t1_bb Q.t2_abab Q.t2_abab),
    aug1 X.triples_res (ein4 L.lmde L.dl L.aeij L.bckm L.abcijk Q.g_abab_oaoavava Q.t1_aa Q.t2_abab Q.t2_bbbb),
    aug1 X.triples_res (ein4 L.mlde L.dl L.aeij L.bckm L.abcijk Q.g_bbbb_oaoavava Q.t1_bb Q.t2_abab Q.t2_bbbb),
    aug1 X.triples_res (ein4 L.mlde L.dl L.ebij L.acmk L.abcijk Q.g_aaaa_oaoavava Q.t1_aa Q.t2_abab Q.t2_abab),
    aug1 X.triples_res (ein4 L.mled L.dl L.ebij L.acmk L.abcijk Q.g_abab_oaoavava Q.t1_bb Q.t2_abab Q.t2_abab),
    aug1 X.triples_res (ein4 L.lmde L.dl L.ecjk L.abim L.abcijk Q.g_abab_oaoavava Q.t1_aa Q.t2_bbbb Q.t2_abab),
    aug1 X.triples_res (ein4 L.mlde L.dl L.ecjk L.abim L.abcijk Q.g_bbbb_oaoavava Q.t1_bb Q.t2_bbbb Q.t2_abab),
    aug1 X.triples_res (ein4 L.mlde L.dl L.ecik L.abmj L.abcijk Q.g_aaaa_oaoavava Q.t1_aa Q.t2_abab Q.t2_abab),
    aug1 X.triples_res (ein4 L.mled L.dl L.ecik L.abmj L.abcijk Q.g_abab_oaoavava Q.t1_bb Q.t2_abab Q.t2_abab),
    aug1 X.triples_res (ein4 L.mlde L.dl L.ecij L.abmk L.abcijk Q.g_aaaa_oaoavava Q.t1_aa Q.t2_abab Q.t2_abab),
    aug1 X.triples_res (ein4 L.mled L.dl L.ecij L.abmk L.abcijk Q.g_abab_oaoavava Q.t1_bb Q.t2_abab Q.t2_abab),
    aug1 X.triples_res (ein4 L.lmed L.dk L.eblj L.acim L.abcijk Q.g_abab_oaoavava Q.t1_bb Q.t2_abab Q.t2_abab),
    aug1 X.triples_res (ein4 L.mlde L.dk L.ebjl L.acim L.abcijk Q.g_bbbb_oaoavava Q.t1_bb Q.t2_bbbb Q.t2_abab),
    aug1 X.triples_res (ein4 L.lmed L.dk L.eail L.bcjm L.abcijk Q.g_abab_oaoavava Q.t1_bb Q.t2_aaaa Q.t2_bbbb),
    aug1 X.triples_res (ein4 L.mlde L.dk L.aeil L.bcjm L.abcijk Q.g_bbbb_oaoavava Q.t1_bb Q.t2_abab Q.t2_bbbb),
    aug1 X.triples_res (ein4 L.mled L.dk L.ebil L.acmj L.abcijk Q.g_abab_oaoavava Q.t1_bb Q.t2_abab Q.t2_abab),
    set1 X.contracted_intermediate (ein4 L.mlde L.dk L.aeij L.bcml L.abcijk Q.g_bbbb_oaoavava Q.t1_bb Q.t2_abab Q.t2_bbbb),
    .aug X.triples_res [.arg Q.contracted_intermediate, ein1 L.abcijk L.abcikj Q.contracted_intermediate],
    set1 X.contracted_intermediate (ein4 L.mled L.dk L.ebij L.acml L.abcijk Q.g_abab_oaoavava Q.t1_bb Q.t2_abab Q.t2_abab),
    .aug X.triples_res [.arg Q.contracted_intermediate, ein1 L.abcijk L.abcikj Q.contracted_intermediate],
    set1 X.contracted_intermediate (ein4 L.lmed L.dk L.ebij L.aclm L.abcijk Q.g_abab_oaoavava Q.t1_bb Q.t2_abab Q.t2_abab),
    .aug X.triples_res [.arg Q.contracted_intermediate, ein1 L.abcijk L.abcikj Q.contracted_intermediate],
    aug1 X.triples_res (ein4 L.lmed L.dk L.eclj L.abim L.abcijk Q.g_abab_oaoavava Q.t1_bb Q.t2_abab Q.t2_abab),
    aug1 X.triples_res (ein4 L.mlde L.dk L.ecjl L.abim L.abcijk Q.g_bbbb_oaoavava Q.t1_bb Q.t2_bbbb Q.t2_abab),
    aug1 X.triples_res (ein4 L.mled L.dk L.ecil L.abmj L.abcijk Q.g_abab_oaoavava Q.t1_bb Q.t2_abab Q.t2_abab),
    set1 X.contracted_intermediate (ein4 L.mled L.dk L.ecij L.abml L.abcijk Q.g_abab_oaoavava Q.t1_bb Q.t2_abab Q.t2_abab),
    .aug X.triples_res [.arg Q.contracted_intermediate, ein1 L.abcijk L.abcikj Q.contracted_intermediate],
    set1 X.contracted_intermediate (ein4 L.lmed L.dk L.ecij L.ablm L.abcijk Q.g_abab_oaoavava Q.t1_bb Q.t2_abab Q.t2_abab),
    .aug X.triples_res [.arg Q.contracted_intermediate, ein1 L.abcijk L.abcikj Q.contracted_intermediate],
    aug1 X.triples_res (ein4 L.lmed L.dj L.eblk L.acim L.abcijk Q.g_abab_oaoavava Q.t1_bb Q.t2_abab Q.t2_abab),
    aug1 X.triples_res (ein4 L.mlde L.dj L.ebkl L.acim L.abcijk Q.g_bbbb_oaoavava Q.t1_bb Q.t2_bbbb Q.t2_abab),
    aug1 X.triples_res (ein4 L.lmed L.dj L.eail L.bckm L.abcijk Q.g_abab_oaoavava Q.t1_bb Q.t2_aaaa Q.t2_bbbb),
    aug1 X.triples_res (ein4 L.mlde L.dj L.aeil L.bckm L.abcijk Q.g_bbbb_oaoavava Q.t1_bb Q.t2_abab Q.t2_bbbb),
    aug1 X.triples_res (ein4 L.mled L.dj L.ebil L.acmk L.abcijk Q.g_abab_oaoavava Q.t1_bb Q.t2_abab Q.t2_abab),
    aug1 X.triples_res (ein4 L.lmed L.dj L.eclk L.abim L.abcijk Q.g_abab_oaoavava Q.t1_bb Q.t2_abab Q.t2_abab),
    aug1 X.triples_res (ein4 L.mlde L.dj L.eckl L.abim L.abcijk Q.g_bbbb_oaoavava Q.t1_bb Q.t2_bbbb Q.t2_abab),
    aug1 X.triples_res (ein4 L.mled L.dj L.ecil L.abmk L.abcijk Q.g_abab_oaoavava Q.t1_bb Q.t2_abab Q.t2_abab),
    set1 X.contracted_intermediate (ein4 L.lmde L.di L.aelk L.bcjm L.abcijk Q.g_abab_oaoavava Q.t1_aa Q.t2_abab Q.t2_bbbb),
    .aug X.triples_res [.arg Q.contracted_intermediate, ein1 L.abcijk L.abcikj Q.contracted_intermediate],
    set1 X.contracted_intermediate (ein4 L.mlde L.di L.eblk L.acmj L.abcijk Q.g_aaaa_oaoavava Q.t1_aa Q.t2_abab Q.t2_abab),
    .aug X.triples_res [.arg Q.contracted_intermediate, ein1 L.abcijk L.abcikj Q.contracted_intermediate],
    set1 X.contracted_intermediate (ein4 L.mlde L.di L.ebkl L.acmj L.abcijk Q.g_abab_oaoavava Q.t1_aa Q.t2_bbbb Q.t2_abab),
    .aug X.triples_res [.arg Q.contracted_intermediate, ein1 L.abcijk L.abcikj Q.contracted_intermediate],
    aug1 X.triples_res (ein4 L.mlde L.di L.ebjk L.acml L.abcijk Q.g_abab_oaoavava Q.t1_aa Q.t2_bbbb Q.t2_abab),
    aug1 X.triples_res (ein4 L.lmde L.di L.ebjk L.aclm L.abcijk Q.g_abab_oaoavava Q.t1_aa Q.t2_bbbb Q.t2_abab),
    set1 X.contracted_intermediate (ein4 L.mlde L.di L.eclk L.abmj L.abcijk Q.g_aaaa_oaoavava Q.t1_aa Q.t2_abab Q.t2_abab),
    .aug X.triples_res [.arg Q.contracted_intermediate, ein1 L.abcijk L.abcikj Q.contracted_intermediate],
    set1 X.contracted_intermediate (ein4 L.mlde L.di L.eckl L.abmj L.abcijk Q.g_abab_oaoavava Q.t1_aa Q.t2_bbbb Q.t2_abab),
    .aug X.triples_res [.arg Q.contracted_intermediate, ein1 L.abcijk L.abcikj Q.contracted_intermediate],
    aug1 X.triples_res (ein4 L.mlde L.di L.ecjk L.abml L.abcijk Q.g_abab_oaoavava Q.t1_aa Q.t2_bbbb Q.t2_abab),
    aug1 X.triples_res (ein4 L.lmde L.di L.ecjk L.ablm L.abcijk Q.g_abab_oaoavava Q.t1_aa Q.t2_bbbb Q.t2_abab),
    aug1 X.triples_res (ein4 L.mlde L.bl L.dejk L.acim L.abcijk Q.g_bbbb_oaoavava Q.t1_bb Q.t2_bbbb Q.t2_abab),
    aug1 X.triples_res (ein4 L.lmde L.al L.deik L.bcjm L.abcijk Q.g_abab_oaoavava Q.t1_aa Q.t2_abab Q.t2_bbbb),
    aug1 X.triples_res (ein4 L.lmed L.al L.edik L.bcjm L.abcijk Q.g_abab_oaoavava Q.t1_aa Q.t2_abab Q.t2_bbbb),
    aug1 X.triples_res (ein4 L.mlde L.bl L.deik L.acmj L.abcijk Q.g_abab_oaoavava Q.t1_bb Q.t2_abab Q.t2_abab),
    aug1 X.triples_res (ein4 L.mled L.bl L.edik L.acmj L.abcijk Q.g_abab_oaoavava Q.t1_bb Q.t2_abab Q.t2_abab),
    aug1 X.triples_res (ein4 L.lmde L.al L.deij L.bckm L.abcijk Q.g_abab_oaoavava Q.t1_aa Q.t2_abab Q.t2_bbbb),
    aug1 X.triples_res (ein4 L.lmed L.al L.edij L.bckm L.abcijk Q.g_abab_oaoavava Q.t1_aa Q.t2_abab Q.t2_bbbb),
    aug1 X.triples_res (ein4 L.mlde L.bl L.deij L.acmk L.abcijk Q.g_abab_oaoavava Q.t1_bb Q.t2_abab Q.t2_abab),
    aug1 X.triples_res (ein4 L.mled L.bl L.edij L.acmk L.abcijk Q.g_abab_oaoavava Q.t1_bb Q.t2_abab Q.t2_abab),
    set1 X.contracted_intermediate (ein4 L.mlde L.al L.dbmk L.ecij L.abcijk Q.g_aaaa_oaoavava Q.t1_aa Q.t2_abab Q.t2_abab),
    .aug X.triples_res [.arg Q.contracted_intermediate, ein1 L.abcijk L.abcikj Q.contracted_intermediate],
    set1 X.contracted_intermediate (ein4 L.lmed L.al L.dbkm L.ecij L.abcijk Q.g_abab_oaoavava Q.t1_aa Q.t2_bbbb Q.t2_abab),
    .aug X.triples_res [.arg Q.contracted_intermediate, ein1 L.abcijk L.abcikj Q.contracted_intermediate],
    set1 X.contracted_intermediate (ein4 L.mled L.bl L.admk L.ecij L.abcijk Q.g_abab_oaoavava Q.t1_bb Q.t2_abab Q.t2_abab),
    .aug X.triples_res [.arg Q.contracted_intermediate, ein1 L.abcijk L.abcikj Q.contracted_intermediate],
    aug1 X.triples_res (ein4 L.lmde L.al L.dbim L.ecjk L.abcijk Q.g_abab_oaoavava Q.t1_aa Q.t2_abab Q.t2_bbbb),
    aug1 X.triples_res (ein4 L.mlde L.bl L.daim L.ecjk L.abcijk Q.g_abab_oaoavava Q.t1_bb Q.t2_aaaa Q.t2_bbbb),
    aug1 X.triples_res (ein4 L.mlde L.bl L.adim L.ecjk L.abcijk Q.g_bbbb_oaoavava Q.t1_bb Q.t2_abab Q.t2_bbbb),
    aug1 X.triples_res (ein4 L.lmed L.al L.dbjk L.ecim L.abcijk Q.g_abab_oaoavava Q.t1_aa Q.t2_bbbb Q.t2_abab),
    aug1 X.triples_res (ein4 L.mlde L.al L.dbik L.ecmj L.abcijk Q.g_aaaa_oaoavava Q.t1_aa Q.t2_abab Q.t2_abab),
    aug1 X.triples_res (ein4 L.lmde L.al L.dbik L.ecjm L.abcijk Q.g_abab_oaoavava Q.t1_aa Q.t2_abab Q.t2_bbbb),
    aug1 X.triples_res (ein4 L.mled L.bl L.adik L.ecmj L.abcijk Q.g_abab_oaoavava Q.t1_bb Q.t2_abab Q.t2_abab),
    aug1 X.triples_res (ein4 L.mlde L.bl L.adik L.ecjm L.abcijk Q.g_bbbb_oaoavava Q.t1_bb Q.t2_abab Q.t2_bbbb),
    aug1 X.triples_res (ein4 L.mlde L.al L.dbij L.ecmk L.abcijk Q.g_aaaa_oaoavava Q.t1_aa Q.t2_abab Q.t2_abab),
    aug1 X.triples_res (ein4 L.lmde L.al L.dbij L.eckm L.abcijk Q.g_abab_oaoavava Q.t1_aa Q.t2_abab Q.t2_bbbb),
    aug1 X.triples_res (ein4 L.mled L.bl L.adij L.ecmk L.abcijk Q.g_abab_oaoavava Q.t1_bb Q.t2_abab Q.t2_abab),
    aug1 X.triples_res (ein4 L.mlde L.bl L.adij L.eckm L.abcijk Q.g_bbbb_oaoavava Q.t1_bb Q.t2_abab Q.t2_bbbb),
    aug1 X.triples_res (ein4 L.mlde L.cl L.dejk L.abim L.abcijk Q.g_bbbb_oaoavava Q.t1_bb Q.t2_bbbb Q.t2_abab),
    aug1 X.triples_res (ein4 L.mlde L.cl L.deik L.abmj L.abcijk Q.g_abab_oaoavava Q.t1_bb Q.t2_abab Q.t2_abab),
    aug1 X.triples_res (ein4 L.mled L.cl L.edik L.abmj L.abcijk Q.g_abab_oaoavava Q.t1_bb Q.t2_abab Q.t2_abab),
    aug1 X.triples_res (ein4 L.mlde L.cl L.deij L.abmk L.abcijk Q.g_abab_oaoavava Q.t1_bb Q.t2_abab Q.t2_abab),
    aug1 X.triples_res (ein4 L.mled L.cl L.edij L.abmk L.abcijk Q.g_abab_oaoavava Q.t1_bb Q.t2_abab Q.t2_abab),
    set1 X.contracted_intermediate (ein4 L.mled L.cl L.admk L.ebij L.abcijk Q.g_abab_oaoavava Q.t1_bb Q.t2_abab Q.t2_abab),
    .aug X.triples_res [.arg Q.contracted_intermediate, ein1 L.abcijk L.abcikj Q.contracted_intermediate],
    aug1 X.triples_res (ein4 L.mlde L.cl L.daim L.ebjk L.abcijk Q.g_abab_oaoavava Q.t1_bb Q.t2_aaaa Q.t2_bbbb),
    aug1 X.triples_res (ein4 L.mlde L.cl L.adim L.ebjk L.abcijk Q.g_bbbb_oaoavava Q.t1_bb Q.t2_abab Q.t2_bbbb),
    aug1 X.triples_res (ein4 L.mled L.cl L.adik L.ebmj L.abcijk Q.g_abab_oaoavava Q.t1_bb Q.t2_abab Q.t2_abab),
    aug1 X.triples_res (ein4 L.mlde L.cl L.adik L.ebjm L.abcijk Q.g_bbbb_oaoavava Q.t1_bb Q.t2_abab Q.t2_bbbb),
    aug1 X.triples_res (ein4 L.mled L.cl L.adij L.ebmk L.abcijk Q.g_abab_oaoavava Q.t1_bb Q.t2_abab Q.t2_abab),
    aug1 X.triples_res (ein4 L.mlde L.cl L.adij L.ebkm L.abcijk Q.g_bbbb_oaoavava Q.t1_bb Q.t2_abab Q.t2_bbbb),
    aug1 X.triples_res (ein4 L.mldk L.dj L.bl L.acim L.abcijk Q.g_bbbb_oaoavaoa Q.t1_bb Q.t1_bb Q.t2_abab),
    aug1 X.triples_res (ein4 L.lmdk L.di L.al L.bcjm L.abcijk Q.g_abab_oaoavaoa Q.t1_aa Q.t1_aa Q.t2_bbbb),
    aug1 X.triples_res (ein4 L.mldk L.di L.bl L.acmj L.abcijk Q.g_abab_oaoavaoa Q.t1_aa Q.t1_bb Q.t2_abab),
    aug1 X.triples_res (ein4 L.mldk L.dj L.cl L.abim L.abcijk Q.g_bbbb_oaoavaoa Q.t1_bb Q.t1_bb Q.t2_abab),
    aug1 X.triples_res (ein4 L.mldk L.di L.cl L.abmj L.abcijk Q.g_abab_oaoavaoa Q.t1_aa Q.t1_bb Q.t2_abab),
    set1 X.contracted_intermediate (ein4 L.lmdk L.al L.bm L.dcij L.abcijk Q.g_abab_oaoavaoa Q.t1_aa Q.t1_bb Q.t2_abab),
    .aug X.triples_res [.arg Q.contracted_intermediate, ein1 L.abcijk L.abcikj Q.contracted_intermediate, ein1 L.abcijk L.acbijk Q.contracted_intermediate, ein1 L.abcijk L.acbikj Q.contracted_intermediate],
    set1 X.contracted_intermediate (ein4 L.mldk L.bl L.cm L.adij L.abcijk Q.g_bbbb_oaoavaoa Q.t1_bb Q.t1_bb Q.t2_abab),
    .aug X.triples_res [.arg Q.contracted_intermediate, ein1 L.abcijk L.abcikj Q.contracted_intermediate],
    aug1 X.triples_res (ein4 L.mldj L.dk L.bl L.acim L.abcijk Q.g_bbbb_oaoavaoa Q.t1_bb Q.t1_bb Q.t2_abab),
    aug1 X.triples_res (ein4 L.lmdj L.di L.al L.bckm L.abcijk Q.g_abab_oaoavaoa Q.t1_aa Q.t1_aa Q.t2_bbbb),
    aug1 X.triples_res (ein4 L.mldj L.di L.bl L.acmk L.abcijk Q.g_abab_oaoavaoa Q.t1_aa Q.t1_bb Q.t2_abab),
    aug1 X.triples_res (ein4 L.mldj L.dk L.cl L.abim L.abcijk Q.g_bbbb_oaoavaoa Q.t1_bb Q.t1_bb Q.t2_abab),
    aug1 X.triples_res (ein4 L.mldj L.di L.cl L.abmk L.abcijk Q.g_abab_oaoavaoa Q.t1_aa Q.t1_bb Q.t2_abab),
    set1 X.contracted_intermediate (ein4 L.lmid L.dk L.al L.bcjm L.abcijk Q.g_abab_oaoaoava Q.t1_bb Q.t1_aa Q.t2_bbbb),
    .aug X.triples_res [.arg Q.contracted_intermediate, ein1 L.abcijk L.abcikj Q.contracted_intermediate],
    set1 X.contracted_intermediate (ein4 L.mlid L.dk L.bl L.acmj L.abcijk Q.g_abab_oaoaoava Q.t1_bb Q.t1_bb Q.t2_abab),
    .aug X.triples_res [.arg Q.contracted_intermediate, ein1 L.abcijk L.abcikj Q.contracted_intermediate],
    set1 X.contracted_intermediate (ein4 L.mlid L.dk L.cl L.abmj L.abcijk Q.g_abab_oaoaoava Q.t1_bb Q.t1_bb Q.t2_abab),
    .aug X.triples_res [.arg Q.contracted_intermediate, ein1 L.abcijk L.abcikj Q.contracted_intermediate],
    set1 X.contracted_intermediate (ein4 L.lmid L.al L.bm L.dcjk L.abcijk Q.g_abab_oaoaoava Q.t1_aa Q.t1_bb Q.t2_bbbb),
    .aug X.triples_res [.arg Q.contracted_intermediate, ein1 L.abcijk L.acbijk Q.contracted_intermediate],
    aug1 X.triples_res (ein4 L.lbde L.dk L.ej L.acil L.abcijk Q.g_bbbb_oavavava Q.t1_bb Q.t1_bb Q.t2_abab),
    aug1 X.triples_res (ein4 L.aled L.dk L.ei L.bcjl L.abcijk Q.g_abab_vaoavava Q.t1_bb Q.t1_aa Q.t2_bbbb),
    aug1 X.triples_res (ein4 L.lbed L.dk L.ei L.aclj L.abcijk Q.g_abab_oavavava Q.t1_bb Q.t1_aa Q.t2_abab),
    set1 X.contracted_intermediate (ein4 L.aled L.dk L.bl L.ecij L.abcijk Q.g_abab_vaoavava Q.t1_bb Q.t1_bb Q.t2_abab),
    .aug X.triples_res [.arg Q.contracted_intermediate, ein1 L.abcijk L.abcikj Q.contracted_intermediate, ein1 L.abcijk L.acbijk Q.contracted_intermediate, ein1 L.abcijk L.acbikj Q.contracted_intermediate],
    aug1 X.triples_res (ein4 L.aled L.dj L.ei L.bckl L.abcijk Q.g_abab_vaoavava Q.t1_bb Q.t1_aa Q.t2_bbbb),
    aug1 X.triples_res (ein4 L.lbed L.dj L.ei L.aclk L.abcijk Q.g_abab_oavavava Q.t1_bb Q.t1_aa Q.t2_abab),
    set1 X.contracted_intermediate (ein4 L.alde L.di L.bl L.ecjk L.abcijk Q.g_abab_vaoavava Q.t1_aa Q.t1_bb Q.t2_bbbb),
    .aug X.triples_res [.arg Q.contracted_intermediate, ein1 L.abcijk L.acbijk Q.contracted_intermediate],
    set1 X.contracted_intermediate (ein4 L.lbed L.dk L.al L.ecij L.abcijk Q.g_abab_oavavava Q.t1_bb Q.t1_aa Q.t2_abab),
    .aug X.triples_res [.arg Q.contracted_intermediate, ein1 L.abcijk L.abcikj Q.contracted_intermediate],
    set1 X.contracted_intermediate (ein4 L.lbde L.dk L.cl L.aeij L.abcijk Q.g_bbbb_oavavava Q.t1_bb Q.t1_bb Q.t2_abab),
    .aug X.triples_res [.arg Q.contracted_intermediate, ein1 L.abcijk L.abcikj Q.contracted_intermediate],
    aug1 X.triples_res (ein4 L.lbde L.di L.al L.ecjk L.abcijk Q.g_abab_oavavava Q.t1_aa Q.t1_aa Q.t2_bbbb),
    aug1 X.triples_res (ein4 L.lcde L.dk L.ej L.abil L.abcijk Q.g_bbbb_oavavava Q.t1_bb Q.t1_bb Q.t2_abab),
    aug1 X.triples_res (ein4 L.lced L.dk L.ei L.ablj L.abcijk Q.g_abab_oavavava Q.t1_bb Q.t1_aa Q.t2_abab),
    set1 X.contracted_intermediate (ein4 L.lced L.dk L.al L.ebij L.abcijk Q.g_abab_oavavava Q.t1_bb Q.t1_aa Q.t2_abab),
    .aug X.triples_res [.arg Q.contracted_intermediate, ein1 L.abcijk L.abcikj Q.contracted_intermediate],
    set1 X.contracted_intermediate (ein4 L.lcde L.dk L.bl L.aeij L.abcijk Q.g_bbbb_oavavava Q.t1_bb Q.t1_bb Q.t2_abab),
    .aug X.triples_res [.arg Q.contracted_intermediate, ein1 L.abcijk L.abcikj Q.contracted_intermediate],
    aug1 X.triples_res (ein4 L.lced L.dj L.ei L.ablk L.abcijk Q.g_abab_oavavava Q.t1_bb Q.t1_aa Q.t2_abab),
    aug1 X.triples_res (ein4 L.lcde L.di L.al L.ebjk L.abcijk Q.g_abab_oavavava Q.t1_aa Q.t1_aa Q.t2_bbbb),
    set1 X.contracted_intermediate (ein4 L.lmde L.dl L.ek L.abcijm L.abcijk Q.g_abab_oaoavava Q.t1_aa Q.t1_bb Q.t3_abbabb),
    .aug X.triples_res [.arg Q.contracted_intermediate, ein1 L.abcijk L.abcikj Q.contracted_intermediate],
    set1 X.contracted_intermediate (ein4 L.mlde L.dl L.ek L.abcijm L.abcijk Q.g_bbbb_oaoavava Q.t1_bb Q.t1_bb Q.t3_abbabb),
    .aug X.triples_res [.arg Q.contracted_intermediate, ein1 L.abcijk L.abcikj Q.contracted_intermediate],
    aug1 X.triples_res (ein4 L.mlde L.dl L.ei L.abcmkj L.abcijk Q.g_aaaa_oaoavava Q.t1_aa Q.t1_aa Q.t3_abbabb),
    aug1 X.triples_res (ein4 L.mled L.dl L.ei L.abcmkj L.abcijk Q.g_abab_oaoavava Q.t1_bb Q.t1_aa Q.t3_abbabb),
    aug1 X.triples_res (ein4 L.mlde L.dl L.am L.ebcijk L.abcijk Q.g_aaaa_oaoavava Q.t1_aa Q.t1_aa Q.t3_abbabb),
    aug1 X.triples_res (ein4 L.mled L.dl L.am L.ebcijk L.abcijk Q.g_abab_oaoavava Q.t1_bb Q.t1_aa Q.t3_abbabb),
    aug1 X.triples_res (ein4 L.lmde L.dl L.bm L.aecijk L.abcijk Q.g_abab_oaoavava Q.t1_aa Q.t1_bb Q.t3_abbabb),
    aug1 X.triples_res (ein4 L.mlde L.dl L.bm L.aecijk L.abcijk Q.g_bbbb_oaoavava Q.t1_bb Q.t1_bb Q.t3_abbabb),
    aug1 X.triples_res (ein4 L.lmde L.dl L.cm L.aebijk L.abcijk Q.g_abab_oaoavava Q.t1_aa Q.t1_bb Q.t3_abbabb),
    aug1 X.triples_res (ein4 L.mlde L.dl L.cm L.aebijk L.abcijk Q.g_bbbb_oaoavava Q.t1_bb Q.t1_bb Q.t3_abbabb),
    aug1 X.triples_res (ein4 L.mlde L.dk L.ej L.abciml L.abcijk Q.g_bbbb_oaoavava Q.t1_bb Q.t1_bb Q.t3_abbabb),
    aug1 X.triples_res (ein4 L.mled L.dk L.ei L.abcmjl L.abcijk Q.g_abab_oaoavava Q.t1_bb Q.t1_aa Q.t3_abbabb),
    aug1 X.triples_res (ein4 L.lmed L.dk L.ei L.abclmj L.abcijk Q.g_abab_oaoavava Q.t1_bb Q.t1_aa Q.t3_abbabb),
    set1 X.contracted_intermediate (ein4 L.lmed L.dk L.al L.ebcijm L.abcijk Q.g_abab_oaoavava Q.t1_bb Q.t1_aa Q.t3_abbabb),
    .aug X.triples_res [.arg Q.contracted_intermediate, ein1 L.abcijk L.abcikj Q.contracted_intermediate],
    set1 X.contracted_intermediate (ein4 L.mled L.dk L.bl L.eacimj L.abcijk Q.g_abab_oaoavava Q.t1_bb Q.t1_bb Q.t3_aabaab),
    .aug X.triples_res [.arg Q.contracted_intermediate, ein1 L.abcijk L.abcikj Q.contracted_intermediate],
    set1 X.contracted_intermediate (ein4 L.mlde L.dk L.bl L.aecijm L.abcijk Q.g_bbbb_oaoavava Q.t1_bb Q.t1_bb Q.t3_abbabb),
    .aug X.triples_res [.arg Q.contracted_intermediate, ein1 L.abcijk L.abcikj Q.contracted_intermediate],
    set1 X.contracted_intermediate (ein4 L.mled L.dk L.cl L.eabimj L.abcijk Q.g_abab_oaoavava Q.t1_bb Q.t1_bb Q.t3_aabaab),
    .aug X.triples_res [.arg Q.contracted_intermediate, ein1 L.abcijk L.abcikj Q.contracted_intermediate],
    set1 X.contracted_intermediate (ein4 L.mlde L.dk L.cl L.aebijm L.abcijk Q.g_bbbb_oaoavava Q.t1_bb Q.t1_bb Q.t3_abbabb),
    .aug X.triples_res [.arg Q.contracted_intermediate, ein1 L.abcijk L.abcikj Q.contracted_intermediate],
    aug1 X.triples_res (ein4 L.mled L.dj L.ei L.abcmkl L.abcijk Q.g_abab_oaoavava Q.t1_bb Q.t1_aa Q.t3_abbabb),
    aug1 X.triples_res (ein4 L.lmed L.dj L.ei L.abclmk L.abcijk Q.g_abab_oaoavava Q.t1_bb Q.t1_aa Q.t3_abbabb),
    aug1 X.triples_res (ein4 L.mlde L.di L.al L.ebcmkj L.abcijk Q.g_aaaa_oaoavava Q.t1_aa Q.t1_aa Q.t3_abbabb),
    aug1 X.triples_res (ein4 L.lmde L.di L.al L.ebcjkm L.abcijk Q.g_abab_oaoavava Q.t1_aa Q.t1_aa Q.t3_bbbbbb),
    aug1 X.triples_res (ein4 L.mlde L.di L.bl L.aecmkj L.abcijk Q.g_abab_oaoavava Q.t1_aa Q.t1_bb Q.t3_abbabb),
    aug1 X.triples_res (ein4 L.mlde L.di L.cl L.aebmkj L.abcijk Q.g_abab_oaoavava Q.t1_aa Q.t1_bb Q.t3_abbabb),
    set1 X.contracted_intermediate (ein4 L.lmde L.al L.bm L.decijk L.abcijk Q.g_abab_oaoavava Q.t1_aa Q.t1_bb Q.t3_abbabb),
    .aug X.triples_res [.arg Q.contracted_intermediate, ein1 L.abcijk L.acbijk Q.contracted_intermediate],
    set1 X.contracted_intermediate (ein4 L.lmed L.al L.bm L.edcijk L.abcijk Q.g_abab_oaoavava Q.t1_aa Q.t1_bb Q.t3_abbabb),
    .aug X.triples_res [.arg Q.contracted_intermediate, ein1 L.abcijk L.acbijk Q.contracted_intermediate],
    aug1 X.triples_res (ein4 L.mlde L.bl L.cm L.aedijk L.abcijk Q.g_bbbb_oaoavava Q.t1_bb Q.t1_bb Q.t3_abbabb),
    aug1 X.triples_res (ein5 L.mlde L.dk L.ej L.bl L.acim L.abcijk Q.g_bbbb_oaoavava Q.t1_bb Q.t1_bb Q.t1_bb Q.t2_abab),
    aug1 X.triples_res (ein5 L.lmed L.dk L.ei L.al L.bcjm L.abcijk Q.g_abab_oaoavava Q.t1_bb Q.t1_aa Q.t1_aa Q.t2_bbbb),
    aug1 X.triples_res (ein5 L.mled L.dk L.ei L.bl L.acmj L.abcijk Q.g_abab_oaoavava Q.t1_bb Q.t1_aa Q.t1_bb Q.t2_abab),
    aug1 X.triples_res (ein5 L.mlde L.dk L.ej L.cl L.abim L.abcijk Q.g_bbbb_oaoavava Q.t1_bb Q.t1_bb Q.t1_bb Q.t2_abab),
    aug1 X.triples_res (ein5 L.mled L.dk L.ei L.cl L.abmj L.abcijk Q.g_abab_oaoavava Q.t1_bb Q.t1_aa Q.t1_bb Q.t2_abab),
    set1 X.contracted_intermediate (ein5 L.lmed L.dk L.al L.bm L.ecij L.abcijk Q.g_abab_oaoavava Q.t1_bb Q.t1_aa Q.t1_bb Q.t2_abab),
    .aug X.triples_res [.arg Q.contracted_intermediate, ein1 L.abcijk L.abcikj Q.contracted_intermediate, ein1 L.abcijk L.acbijk Q.contracted_intermediate, ein1 L.abcijk L.acbikj Q.contracted_intermediate],
    set1 X.contracted_intermediate (ein5 L.mlde L.dk L.bl L.cm L.aeij L.abcijk Q.g_bbbb_oaoavava Q.t1_bb Q.t1_bb Q.t1_bb Q.t2_abab),
    .aug X.triples_res [.arg Q.contracted_intermediate, ein1 L.abcijk L.abcikj Q.contracted_intermediate],
    aug1 X.triples_res (ein5 L.lmed L.dj L.ei L.al L.bckm L.abcijk Q.g_abab_oaoavava Q.t1_bb Q.t1_aa Q.t1_aa Q.t2_bbbb),
    aug1 X.triples_res (ein5 L.mled L.dj L.ei L.bl L.acmk L.abcijk Q.g_abab_oaoavava Q.t1_bb Q.t1_aa Q.t1_bb Q.t2_abab),
    aug1 X.triples_res (ein5 L.mled L.dj L.ei L.cl L.abmk L.abcijk Q.g_abab_oaoavava Q.t1_bb Q.t1_aa Q.t1_bb Q.t2_abab),
    set1 X.contracted_intermediate (ein5 L.lmde L.di L.al L.bm L.ecjk L.abcijk Q.g_abab_oaoavava Q.t1_aa Q.t1_aa Q.t1_bb Q.t2_bbbb),
    .aug X.triples_res [.arg Q.contracted_intermediate, ein1 L.abcijk L.acbijk Q.contracted_intermediate]]
  ret := [Q.triples_res]

/-- `fullCCresidEqns.py` 4949-5955: `ccsdt_t3_bbbbbb_residual`; 597 einsum calls. -/
def fullCCresidEqns_ccsdt_t3_bbbbbb_residual : Fn where
  params := [X.f_bb, X.t3_bbbbbb, X.t1_bb, X.t2_bbbb, X.g_bbbb, X.g_abab, X.t3_abbabb, X.t1_aa, X.t2_abab, X.g_aaaa]
  body := [
    set1 X.contracted_intermediate (ein2 L.lk L.abcijl L.abcijk Q.f_bb_oaoa Q.t3_bbbbbb),
    .set X.triples_res [.arg Q.contracted_intermediate, ein1 L.abcijk L.abcikj Q.contracted_intermediate],
    aug1 X.triples_res (ein2 L.li L.abcjkl L.abcijk Q.f_bb_oaoa Q.t3_bbbbbb),
    set1 X.contracted_intermediate (ein2 L.ad L.dbcijk L.abcijk Q.f_bb_vava Q.t3_bbbbbb),
    .aug X.triples_res [.arg Q.contracted_intermediate, ein1 L.abcijk L.bacijk Q.contracted_intermediate],
    aug1 X.triples_res (ein2 L.cd L.dabijk L.abcijk Q.f_bb_vava Q.t3_bbbbbb),
    set1 X.contracted_intermediate (ein3 L.ld L.dk L.abcijl L.abcijk Q.f_bb_oava Q.t1_bb Q.t3_bbbbbb),
    .aug X.triples_res [.arg Q.contracted_intermediate, ein1 L.abcijk L.abcikj Q.contracted_intermediate],
    aug1 X.triples_res (ein3 L.ld L.di L.abcjkl L.abcijk Q.f_bb_oava Q.t1_bb Q.t3_bbbbbb),
    set1 X.contracted_intermediate (ein3 L.ld L.al L.dbcijk L.abcijk Q.f_bb_oava Q.t1_bb Q.t3_bbbbbb),
    .aug X.triples_res [.arg Q.contracted_intermediate, ein1 L.abcijk L.bacijk Q.contracted_intermediate],
    aug1 X.triples_res (ein3 L.ld L.cl L.dabijk L.abcijk Q.f_bb_oava Q.t1_bb Q.t3_bbbbbb),
    set1 X.contracted_intermediate (ein3 L.ld L.dajk L.bcil L.abcijk Q.f_bb_oava Q.t2_bbbb Q.t2_bbbb),
    .aug X.triples_res [.arg Q.contracted_intermediate, ein1 L.abcijk L.abcjik Q.contracted_intermediate, ein1 L.abcijk L.bacijk Q.contracted_intermediate, ein1 L.abcijk L.bacjik Q.contracted_intermediate],
    set1 X.contracted_intermediate (ein3 L.ld L.daij L.bckl L.abcijk Q.f_bb_oava Q.t2_bbbb Q.t2_bbbb),
    .aug X.triples_res [.arg Q.contracted_intermediate, ein1 L.abcijk L.bacijk Q.contracted_intermediate],
    set1 X.contracted_intermediate (ein3 L.ld L.dcjk L.abil L.abcijk Q.f_bb_oava Q.t2_bbbb Q.t2_bbbb),
    .aug X.triples_res [.arg Q.contracted_intermediate, ein1 L.abcijk L.abcjik Q.contracted_intermediate],
    aug1 X.triples_res (ein3 L.ld L.dcij L.abkl L.abcijk Q.f_bb_oava Q.t2_bbbb Q.t2_bbbb),
    set1 X.contracted_intermediate (ein2 L.lajk L.bcil L.abcijk Q.g_bbbb_oavaoaoa Q.t2_bbbb),
    .aug X.triples_res [.arg Q.contracted_intermediate, ein1 L.abcijk L.abcjik Q.contracted_intermediate, ein1 L.abcijk L.bacijk Q.contracted_intermediate, ein1 L.abcijk L.bacjik Q.contracted_intermediate],
    set1 X.contracted_intermediate (ein2 L.laij L.bckl L.abcijk Q.g_bbbb_oavaoaoa Q.t2_bbbb),
    .aug X.triples_res [.arg Q.contracted_intermediate, ein1 L.abcijk L.bacijk Q.contracted_intermediate],
    set1 X.contracted_intermediate (ein2 L.lcjk L.abil L.abcijk Q.g_bbbb_oavaoaoa Q.t2_bbbb),
    .aug X.triples_res [.arg Q.contracted_intermediate, ein1 L.abcijk L.abcjik Q.contracted_intermediate],
    aug1 X.triples_res (ein2 L.lcij L.abkl L.abcijk Q.g_bbbb_oavaoaoa Q.t2_bbbb),
    set1 X.contracted_intermediate (ein2 L.abdk L.dcij L.abcijk Q.g_bbbb_vavavaoa Q.t2_bbbb),
    .aug X.triples_res [.arg Q.contracted_intermediate, ein1 L.abcijk L.abcikj Q.contracted_intermediate, ein1 L.abcijk L.acbijk Q.contracted_intermediate, ein1 L.abcijk L.acbikj Q.contracted_intermediate],
    set1 X.contracted_intermediate (ein2 L.abdi L.dcjk L.abcijk Q.g_bbbb_vavavaoa Q.t2_bbbb),
    .aug X.triples_res [.arg Q.contracted_intermediate, ein1 L.abcijk L.acbijk Q.contracted_intermediate],
    set1 X.contracted_intermediate (ein2 L.bcdk L.daij L.abcijk Q.g_bbbb_vavavaoa Q.t2_bbbb),
    .aug X.triples_res [.arg Q.contracted_intermediate, ein1 L.abcijk L.abcikj Q.contracted_intermediate],
    aug1 X.triples_res (ein2 L.bcdi L.dajk L.abcijk Q.g_bbbb_vavavaoa Q.t2_bbbb),
    set1 X.contracted_intermediate (ein2 L.mljk L.abciml L.abcijk Q.g_bbbb_oaoaoaoa Q.t3_bbbbbb),
    .aug X.triples_res [.arg Q.contracted_intermediate, ein1 L.abcijk L.abcjik Q.contracted_intermediate],
    aug1 X.triples_res (ein2 L.mlij L.abckml L.abcijk Q.g_bbbb_oaoaoaoa Q.t3_bbbbbb),
    set1 X.contracted_intermediate (ein2 L.ladk L.dbclji L.abcijk Q.g_abab_oavavaoa Q.t3_abbabb),
    .aug X.triples_res [.arg Q.contracted_intermediate, ein1 L.abcijk L.abcikj Q.contracted_intermediate, ein1 L.abcijk L.bacijk Q.contracted_intermediate, ein1 L.abcijk L.bacikj Q.contracted_intermediate],
    set1 X.contracted_intermediate (ein2 L.ladk L.dbcijl L.abcijk Q.g_bbbb_oavavaoa Q.t3_bbbbbb),
    .aug X.triples_res [.arg Q.contracted_intermediate, ein1 L.abcijk L.abcikj Q.contracted_intermediate, ein1 L.abcijk L.bacijk Q.contracted_intermediate, ein1 L.abcijk L.bacikj Q.contracted_intermediate],
    set1 X.contracted_intermediate (ein2 L.ladi L.dbclkj L.abcijk Q.g_abab_oavavaoa Q.t3_abbabb),
    .aug X.triples_res [.arg Q.contracted_intermediate, ein1 L.abcijk L.bacijk Q.contracted_intermediate],
    set1 X.contracted_intermediate (ein2 L.ladi L.dbcjkl L.abcijk Q.g_bbbb_oavavaoa Q.t3_bbbbbb),
    .aug X.triples_res [.arg Q.contracted_intermediate, ein1 L.abcijk L.bacijk Q.contracted_intermediate],
    set1 X.contracted_intermediate (ein2 L.lcdk L.dablji L.abcijk Q.g_abab_oavavaoa Q.t3_abbabb),
    .aug X.triples_res [.arg Q.contracted_intermediate, ein1 L.abcijk L.abcikj Q.contracted_intermediate],
    set1 X.contracted_intermediate (ein2 L.lcdk L.dabijl L.abcijk Q.g_bbbb_oavavaoa Q.t3_bbbbbb),
    .aug X.triples_res [.arg Q.contracted_intermediate, ein1 L.abcijk L.abcikj Q.contracted_intermediate],
    aug1 X.triples_res (ein2 L.lcdi L.dablkj L.abcijk Q.g_abab_oavavaoa Q.t3_abbabb),
    aug1 X.triples_res (ein2 L.lcdi L.dabjkl L.abcijk Q.g_bbbb_oavavaoa Q.t3_bbbbbb),
    set1 X.contracted_intermediate (ein2 L.abde L.decijk L.abcijk Q.g_bbbb_vavavava Q.t3_bbbbbb),
    .aug X.triples_res [.arg Q.contracted_intermediate, ein1 L.abcijk L.acbijk Q.contracted_intermediate],
    aug1 X.triples_res (ein2 L.bcde L.deaijk L.abcijk Q.g_bbbb_vavavava Q.t3_bbbbbb),
    set1 X.contracted_intermediate (ein3 L.mljk L.al L.bcim L.abcijk Q.g_bbbb_oaoaoaoa Q.t1_bb Q.t2_bbbb),
    .aug X.triples_res [.arg Q.contracted_intermediate, ein1 L.abcijk L.abcjik Q.contracted_intermediate, ein1 L.abcijk L.bacijk Q.contracted_intermediate, ein1 L.abcijk L.bacjik Q.contracted_intermediate],
    set1 X.contracted_intermediate (ein3 L.mljk L.cl L.abim L.abcijk Q.g_bbbb_oaoaoaoa Q.t1_bb Q.t2_bbbb),
    .aug X.triples_res [.arg Q.contracted_intermediate, ein1 L.abcijk L.abcjik Q.contracted_intermediate],
    set1 X.contracted_intermediate (ein3 L.mlij L.al L.bckm L.abcijk Q.g_bbbb_oaoaoaoa Q.t1_bb Q.t2_bbbb),
    .aug X.triples_res [.arg Q.contracted_intermediate, ein1 L.abcijk L.bacijk Q.contracted_intermediate],
    aug1 X.triples_res (ein3 L.mlij L.cl L.abkm L.abcijk Q.g_bbbb_oaoaoaoa Q.t1_bb Q.t2_bbbb),
    set1 X.contracted_intermediate (ein3 L.ladk L.dj L.bcil L.abcijk Q.g_bbbb_oavavaoa Q.t1_bb Q.t2_bbbb),
    .aug X.triples_res [.arg Q.contracted_intermediate, ein1 L.abcijk L.abcjik Q.contracted_intermediate, ein1 L.abcijk L.bacijk Q.contracted_intermediate, ein1 L.abcijk L.bacjik Q.contracted_intermediate],
    set1 X.contracted_intermediate (ein3 L.ladk L.bl L.dcij L.abcijk Q.g_bbbb_oavavaoa Q.t1_bb Q.t2_bbbb),
    .aug X.triples_res [.arg Q.contracted_intermediate, ein1 L.abcijk L.abcikj Q.contracted_intermediate, ein1 L.abcijk L.acbijk Q.contracted_intermediate, ein1 L.abcijk L.acbikj Q.contracted_intermediate],
    set1 X.contracted_intermediate (ein3 L.ladj L.dk L.bcil L.abcijk Q.g_bbbb_oavavaoa Q.t1_bb Q.t2_bbbb),
    .aug X.triples_res [.arg Q.contracted_intermediate, ein1 L.abcijk L.abckji Q.contracted_intermediate, ein1 L.abcijk L.bacijk Q.contracted_intermediate, ein1 L.abcijk L.backji Q.contracted_intermediate],
    set1 X.contracted_intermediate (ein3 L.ladi L.dk L.bcjl L.abcijk Q.g_bbbb_oavavaoa Q.t1_bb Q.t2_bbbb),
    .aug X.triples_res [.arg Q.contracted_intermediate, ein1 L.abcijk L.abcikj Q.contracted_intermediate, ein1 L.abcijk L.bacijk Q.contracted_intermediate, ein1 L.abcijk L.bacikj Q.contracted_intermediate],
    set1 X.contracted_intermediate (ein3 L.ladi L.bl L.dcjk L.abcijk Q.g_bbbb_oavavaoa Q.t1_bb Q.t2_bbbb),
    .aug X.triples_res [.arg Q.contracted_intermediate, ein1 L.abcijk L.acbijk Q.contracted_intermediate],
    set1 X.contracted_intermediate (ein3 L.lbdk L.al L.dcij L.abcijk Q.g_bbbb_oavavaoa Q.t1_bb Q.t2_bbbb),
    .aug X.triples_res [.arg Q.contracted_intermediate, ein1 L.abcijk L.abcikj Q.contracted_intermediate, ein1 L.abcijk L.cbaijk Q.contracted_intermediate, ein1 L.abcijk L.cbaikj Q.contracted_intermediate],
    set1 X.contracted_intermediate (ein3 L.lbdi L.al L.dcjk L.abcijk Q.g_bbbb_oavavaoa Q.t1_bb Q.t2_bbbb),
    .aug X.triples_res [.arg Q.contracted_intermediate, ein1 L.abcijk L.cbaijk Q.contracted_intermediate],
    set1 X.contracted_intermediate (ein3 L.lcdk L.dj L.abil L.abcijk Q.g_bbbb_oavavaoa Q.t1_bb Q.t2_bbbb),
    .aug X.triples_res [.arg Q.contracted_intermediate, ein1 L.abcijk L.abcjik Q.contracted_intermediate],
    set1 X.contracted_intermediate (ein3 L.lcdk L.al L.dbij L.abcijk Q.g_bbbb_oavavaoa Q.t1_bb Q.t2_bbbb),
    .aug X.triples_res [.arg Q.contracted_intermediate, ein1 L.abcijk L.abcikj Q.contracted_intermediate, ein1 L.abcijk L.bacijk Q.contracted_intermediate, ein1 L.abcijk L.bacikj Q.contracted_intermediate],
    set1 X.contracted_intermediate (ein3 L.lcdj L.dk L.abil L.abcijk Q.g_bbbb_oavavaoa Q.t1_bb Q.t2_bbbb),
    .aug X.triples_res [.arg Q.contracted_intermediate, ein1 L.abcijk L.abckji Q.contracted_intermediate],
    set1 X.contracted_intermediate (ein3 L.lcdi L.dk L.abjl L.abcijk Q.g_bbbb_oavavaoa Q.t1_bb Q.t2_bbbb),
    .aug X.triples_res [.arg Q.contracted_intermediate, ein1 L.abcijk L.abcikj Q.contracted_intermediate],
    set1 X.contracted_intermediate (ein3 L.lcdi L.al L.dbjk L.abcijk Q.g_bbbb_oavavaoa Q.t1_bb Q.t2_bbbb),
    .aug X.triples_res [.arg Q.contracted_intermediate, ein1 L.abcijk L.bacijk Q.contracted_intermediate],
    set1 X.contracted_intermediate (ein3 L.abde L.dk L.ecij L.abcijk Q.g_bbbb_vavavava Q.t1_bb Q.t2_bbbb),
    .aug X.triples_res [.arg Q.contracted_intermediate, ein1 L.abcijk L.abcikj Q.contracted_intermediate, ein1 L.abcijk L.acbijk Q.contracted_intermediate, ein1 L.abcijk L.acbikj Q.contracted_intermediate],
    set1 X.contracted_intermediate (ein3 L.abde L.di L.ecjk L.abcijk Q.g_bbbb_vavavava Q.t1_bb Q.t2_bbbb),
    .aug X.triples_res [.arg Q.contracted_intermediate, ein1 L.abcijk L.acbijk Q.contracted_intermediate],
    set1 X.contracted_intermediate (ein3 L.bcde L.dk L.eaij L.abcijk Q.g_bbbb_vavavava Q.t1_bb Q.t2_bbbb),
    .aug X.triples_res [.arg Q.contracted_intermediate, ein1 L.abcijk L.abcikj Q.contracted_intermediate],
    aug1 X.triples_res (ein3 L.bcde L.di L.eajk L.abcijk Q.g_bbbb_vavavava Q.t1_bb Q.t2_bbbb),
    set1 X.contracted_intermediate (ein3 L.lmdk L.dl L.abcijm L.abcijk Q.g_abab_oaoavaoa Q.t1_aa Q.t3_bbbbbb),
    .aug X.triples_res [.arg Q.contracted_intermediate, ein1 L.abcijk L.abcikj Q.contracted_intermediate],
    set1 X.contracted_intermediate (ein3 L.mldk L.dl L.abcijm L.abcijk Q.g_bbbb_oaoavaoa Q.t1_bb Q.t3_bbbbbb),
    .aug X.triples_res [.arg Q.contracted_intermediate, ein1 L.abcijk L.abcikj Q.contracted_intermediate],
    set1 X.contracted_intermediate (ein3 L.mldk L.dj L.abciml L.abcijk Q.g_bbbb_oaoavaoa Q.t1_bb Q.t3_bbbbbb),
    .aug X.triples_res [.arg Q.contracted_intermediate, ein1 L.abcijk L.abcjik Q.contracted_intermediate],
    set1 X.contracted_intermediate (ein3 L.mldk L.al L.dbcmji L.abcijk Q.g_abab_oaoavaoa Q.t1_bb Q.t3_abbabb),
    .aug X.triples_res [.arg Q.contracted_intermediate, ein1 L.abcijk L.abcikj Q.contracted_intermediate, ein1 L.abcijk L.bacijk Q.contracted_intermediate, ein1 L.abcijk L.bacikj Q.contracted_intermediate],
    set1 X.contracted_intermediate (ein3 L.mldk L.al L.dbcijm L.abcijk Q.g_bbbb_oaoavaoa Q.t1_bb Q.t3_bbbbbb),
    .aug X.triples_res [.arg Q.contracted_intermediate, ein1 L.abcijk L.abcikj Q.contracted_intermediate, ein1 L.abcijk L.bacijk Q.contracted_intermediate, ein1 L.abcijk L.bacikj Q.contracted_intermediate],
    set1 X.contracted_intermediate (ein3 L.mldk L.cl L.dabmji L.abcijk Q.g_abab_oaoavaoa Q.t1_bb Q.t3_abbabb),
    .aug X.triples_res [.arg Q.contracted_intermediate, ein1 L.abcijk L.abcikj Q.contracted_intermediate],
    set1 X.contracted_intermediate (ein3 L.mldk L.cl L.dabijm L.abcijk Q.g_bbbb_oaoavaoa Q.t1_bb Q.t3_bbbbbb),
    .aug X.triples_res [.arg Q.contracted_intermediate, ein1 L.abcijk L.abcikj Q.contracted_intermediate],
    set1 X.contracted_intermediate (ein3 L.mldj L.dk L.abciml L.abcijk Q.g_bbbb_oaoavaoa Q.t1_bb Q.t3_bbbbbb),
    .aug X.triples_res [.arg Q.contracted_intermediate, ein1 L.abcijk L.abckji Q.contracted_intermediate],
    aug1 X.triples_res (ein3 L.lmdi L.dl L.abcjkm L.abcijk Q.g_abab_oaoavaoa Q.t1_aa Q.t3_bbbbbb),
    aug1 X.triples_res (ein3 L.mldi L.dl L.abcjkm L.abcijk Q.g_bbbb_oaoavaoa Q.t1_bb Q.t3_bbbbbb),
    set1 X.contracted_intermediate (ein3 L.mldi L.dk L.abcjml L.abcijk Q.g_bbbb_oaoavaoa Q.t1_bb Q.t3_bbbbbb),
    .aug X.triples_res [.arg Q.contracted_intermediate, ein1 L.abcijk L.abcikj Q.contracted_intermediate],
    set1 X.contracted_intermediate (ein3 L.mldi L.al L.dbcmkj L.abcijk Q.g_abab_oaoavaoa Q.t1_bb Q.t3_abbabb),
    .aug X.triples_res [.arg Q.contracted_intermediate, ein1 L.abcijk L.bacijk Q.contracted_intermediate],
    set1 X.contracted_intermediate (ein3 L.mldi L.al L.dbcjkm L.abcijk Q.g_bbbb_oaoavaoa Q.t1_bb Q.t3_bbbbbb),
    .aug X.triples_res [.arg Q.contracted_intermediate, ein1 L.abcijk L.bacijk Q.contracted_intermediate],
    aug1 X.triples_res (ein3 L.mldi L.cl L.dabmkj L.abcijk Q.g_abab_oaoavaoa Q.t1_bb Q.t3_abbabb),
    aug1 X.triples_res (ein3 L.mldi L.cl L.dabjkm L.abcijk Q.g_bbbb_oaoavaoa Q.t1_bb Q.t3_bbbbbb),
    set1 X.contracted_intermediate (ein3 L.lade L.dl L.ebcijk L.abcijk Q.g_abab_oavavava Q.t1_aa Q.t3_bbbbbb),
    .aug X.triples_res [.arg Q.contracted_intermediate, ein1 L.abcijk L.bacijk Q.contracted_intermediate],
    set1 X.contracted_intermediate (ein3 L.lade L.dl L.ebcijk L.abcijk Q.g_bbbb_oavavava Q.t1_bb Q.t3_bbbbbb),
    .aug X.triples_res [.arg Q.contracted_intermediate, ein1 L.abcijk L.bacijk Q.contracted_intermediate],
    set1 X.contracted_intermediate (ein3 L.laed L.dk L.ebclji L.abcijk Q.g_abab_oavavava Q.t1_bb Q.t3_abbabb),
    .aug X.triples_res [.arg Q.contracted_intermediate, ein1 L.abcijk L.abcikj Q.contracted_intermediate, ein1 L.abcijk L.bacijk Q.contracted_intermediate, ein1 L.abcijk L.bacikj Q.contracted_intermediate],
    set1 X.contracted_intermediate (ein3 L.lade L.dk L.ebcijl L.abcijk Q.g_bbbb_oavavava Q.t1_bb Q.t3_bbbbbb),
    .aug X.triples_res [.arg Q.contracted_intermediate, ein1 L.abcijk L.abcikj Q.contracted_intermediate, ein1 L.abcijk L.bacijk Q.contracted_intermediate, ein1 L.abcijk L.bacikj Q.contracted_intermediate],
    set1 X.contracted_intermediate (ein3 L.laed L.di L.ebclkj L.abcijk Q.g_abab_oavavava Q.t1_bb Q.t3_abbabb),
    .aug X.triples_res [.arg Q.contracted_intermediate, ein1 L.abcijk L.bacijk Q.contracted_intermediate],
    set1 X.contracted_intermediate (ein3 L.lade L.di L.ebcjkl L.abcijk Q.g_bbbb_oavavava Q.t1_bb Q.t3_bbbbbb),
    .aug X.triples_res [.arg Q.contracted_intermediate, ein1 L.abcijk L.bacijk Q.contracted_intermediate],
    set1 X.contracted_intermediate (ein3 L.lade L.bl L.decijk L.abcijk Q.g_bbbb_oavavava Q.t1_bb Q.t3_bbbbbb),
    .aug X.triples_res [.arg Q.contracted_intermediate, ein1 L.abcijk L.acbijk Q.contracted_intermediate],
    set1 X.contracted_intermediate (ein3 L.lbde L.al L.decijk L.abcijk Q.g_bbbb_oavavava Q.t1_bb Q.t3_bbbbbb),
    .aug X.triples_res [.arg Q.contracted_intermediate, ein1 L.abcijk L.cbaijk Q.contracted_intermediate],
    aug1 X.triples_res (ein3 L.lcde L.dl L.eabijk L.abcijk Q.g_abab_oavavava Q.t1_aa Q.t3_bbbbbb),
    aug1 X.triples_res (ein3 L.lcde L.dl L.eabijk L.abcijk Q.g_bbbb_oavavava Q.t1_bb Q.t3_bbbbbb),
    set1 X.contracted_intermediate (ein3 L.lced L.dk L.eablji L.abcijk Q.g_abab_oavavava Q.t1_bb Q.t3_abbabb),
    .aug X.triples_res [.arg Q.contracted_intermediate, ein1 L.abcijk L.abcikj Q.contracted_intermediate],
    set1 X.contracted_intermediate (ein3 L.lcde L.dk L.eabijl L.abcijk Q.g_bbbb_oavavava Q.t1_bb Q.t3_bbbbbb),
    .aug X.triples_res [.arg Q.contracted_intermediate, ein1 L.abcijk L.abcikj Q.contracted_intermediate],
    aug1 X.triples_res (ein3 L.lced L.di L.eablkj L.abcijk Q.g_abab_oavavava Q.t1_bb Q.t3_abbabb),
    aug1 X.triples_res (ein3 L.lcde L.di L.eabjkl L.abcijk Q.g_bbbb_oavavava Q.t1_bb Q.t3_bbbbbb),
    set1 X.contracted_intermediate (ein3 L.lcde L.al L.debijk L.abcijk Q.g_bbbb_oavavava Q.t1_bb Q.t3_bbbbbb),
    .aug X.triples_res [.arg Q.contracted_intermediate, ein1 L.abcijk L.bacijk Q.contracted_intermediate],
    set1 X.contracted_intermediate (ein3 L.lmde L.delk L.abcijm L.abcijk Q.g_abab_oaoavava Q.t2_abab Q.t3_bbbbbb),
    .aug X.triples_res [.arg Q.contracted_intermediate, ein1 L.abcijk L.abcikj Q.contracted_intermediate],
    set1 X.contracted_intermediate (ein3 L.lmed L.edlk L.abcijm L.abcijk Q.g_abab_oaoavava Q.t2_abab Q.t3_bbbbbb),
    .aug X.triples_res [.arg Q.contracted_intermediate, ein1 L.abcijk L.abcikj Q.contracted_intermediate],
    set1 X.contracted_intermediate (ein3 L.mlde L.dekl L.abcijm L.abcijk Q.g_bbbb_oaoavava Q.t2_bbbb Q.t3_bbbbbb),
    .aug X.triples_res [.arg Q.contracted_intermediate, ein1 L.abcijk L.abcikj Q.contracted_intermediate],
    aug1 X.triples_res (ein3 L.lmde L.deli L.abcjkm L.abcijk Q.g_abab_oaoavava Q.t2_abab Q.t3_bbbbbb),
    aug1 X.triples_res (ein3 L.lmed L.edli L.abcjkm L.abcijk Q.g_abab_oaoavava Q.t2_abab Q.t3_bbbbbb),
    aug1 X.triples_res (ein3 L.mlde L.deil L.abcjkm L.abcijk Q.g_bbbb_oaoavava Q.t2_bbbb Q.t3_bbbbbb),
    set1 X.contracted_intermediate (ein3 L.mlde L.dejk L.abciml L.abcijk Q.g_bbbb_oaoavava Q.t2_bbbb Q.t3_bbbbbb),
    .aug X.triples_res [.arg Q.contracted_intermediate, ein1 L.abcijk L.abcjik Q.contracted_intermediate],
    aug1 X.triples_res (ein3 L.mlde L.deij L.abckml L.abcijk Q.g_bbbb_oaoavava Q.t2_bbbb Q.t3_bbbbbb),
    set1 X.contracted_intermediate (ein3 L.mlde L.daml L.ebcijk L.abcijk Q.g_abab_oaoavava Q.t2_abab Q.t3_bbbbbb),
    .aug X.triples_res [.arg Q.contracted_intermediate, ein1 L.abcijk L.bacijk Q.contracted_intermediate],
    set1 X.contracted_intermediate (ein3 L.lmde L.dalm L.ebcijk L.abcijk Q.g_abab_oaoavava Q.t2_abab Q.t3_bbbbbb),
    .aug X.triples_res [.arg Q.contracted_intermediate, ein1 L.abcijk L.bacijk Q.contracted_intermediate],
    set1 X.contracted_intermediate (ein3 L.mlde L.daml L.ebcijk L.abcijk Q.g_bbbb_oaoavava Q.t2_bbbb Q.t3_bbbbbb),
    .aug X.triples_res [.arg Q.contracted_intermediate, ein1 L.abcijk L.bacijk Q.contracted_intermediate],
    set1 X.contracted_intermediate (ein3 L.mlde L.dalk L.ebcmji L.abcijk Q.g_aaaa_oaoavava Q.t2_abab Q.t3_abbabb),
    .aug X.triples_res [.arg Q.contracted_intermediate, ein1 L.abcijk L.abcikj Q.contracted_intermediate, ein1 L.abcijk L.bacijk Q.contracted_intermediate, ein1 L.abcijk L.bacikj Q.contracted_intermediate],
    set1 X.contracted_intermediate (ein3 L.lmde L.dalk L.ebcijm L.abcijk Q.g_abab_oaoavava Q.t2_abab Q.t3_bbbbbb),
    .aug X.triples_res [.arg Q.contracted_intermediate, ein1 L.abcijk L.abcikj Q.contracted_intermediate, ein1 L.abcijk L.bacijk Q.contracted_intermediate, ein1 L.abcijk L.bacikj Q.contracted_intermediate],
    set1 X.contracted_intermediate (ein3 L.mled L.dakl L.ebcmji L.abcijk Q.g_abab_oaoavava Q.t2_bbbb Q.t3_abbabb),
    .aug X.triples_res [.arg Q.contracted_intermediate, ein1 L.abcijk L.abcikj Q.contracted_intermediate, ein1 L.abcijk L.bacijk Q.contracted_intermediate, ein1 L.abcijk L.bacikj Q.contracted_intermediate],
    set1 X.contracted_intermediate (ein3 L.mlde L.dakl L.ebcijm L.abcijk Q.g_bbbb_oaoavava Q.t2_bbbb Q.t3_bbbbbb),
    .aug X.triples_res [.arg Q.contracted_intermediate, ein1 L.abcijk L.abcikj Q.contracted_intermediate, ein1 L.abcijk L.bacijk Q.contracted_intermediate, ein1 L.abcijk L.bacikj Q.contracted_intermediate],
    set1 X.contracted_intermediate (ein3 L.mlde L.dali L.ebcmkj L.abcijk Q.g_aaaa_oaoavava Q.t2_abab Q.t3_abbabb),
    .aug X.triples_res [.arg Q.contracted_intermediate, ein1 L.abcijk L.bacijk Q.contracted_intermediate],
    set1 X.contracted_intermediate (ein3 L.lmde L.dali L.ebcjkm L.abcijk Q.g_abab_oaoavava Q.t2_abab Q.t3_bbbbbb),
    .aug X.triples_res [.arg Q.contracted_intermediate, ein1 L.abcijk L.bacijk Q.contracted_intermediate],
    set1 X.contracted_intermediate (ein3 L.mled L.dail L.ebcmkj L.abcijk Q.g_abab_oaoavava Q.t2_bbbb Q.t3_abbabb),
    .aug X.triples_res [.arg Q.contracted_intermediate, ein1 L.abcijk L.bacijk Q.contracted_intermediate],
    set1 X.contracted_intermediate (ein3 L.mlde L.dail L.ebcjkm L.abcijk Q.g_bbbb_oaoavava Q.t2_bbbb Q.t3_bbbbbb),
    .aug X.triples_res [.arg Q.contracted_intermediate, ein1 L.abcijk L.bacijk Q.contracted_intermediate],
    set1 X.contracted_intermediate (ein3 L.mled L.dajk L.ebcmil L.abcijk Q.g_abab_oaoavava Q.t2_bbbb Q.t3_abbabb),
    .aug X.triples_res [.arg Q.contracted_intermediate, ein1 L.abcijk L.abcjik Q.contracted_intermediate, ein1 L.abcijk L.bacijk Q.contracted_intermediate, ein1 L.abcijk L.bacjik Q.contracted_intermediate],
    set1 X.contracted_intermediate (ein3 L.lmed L.dajk L.ebclmi L.abcijk Q.g_abab_oaoavava Q.t2_bbbb Q.t3_abbabb),
    .aug X.triples_res [.arg Q.contracted_intermediate, ein1 L.abcijk L.abcjik Q.contracted_intermediate, ein1 L.abcijk L.bacijk Q.contracted_intermediate, ein1 L.abcijk L.bacjik Q.contracted_intermediate],
    set1 X.contracted_intermediate (ein3 L.mlde L.dajk L.ebciml L.abcijk Q.g_bbbb_oaoavava Q.t2_bbbb Q.t3_bbbbbb),
    .aug X.triples_res [.arg Q.contracted_intermediate, ein1 L.abcijk L.abcjik Q.contracted_intermediate, ein1 L.abcijk L.bacijk Q.contracted_intermediate, ein1 L.abcijk L.bacjik Q.contracted_intermediate],
    set1 X.contracted_intermediate (ein3 L.mled L.daij L.ebcmkl L.abcijk Q.g_abab_oaoavava Q.t2_bbbb Q.t3_abbabb),
    .aug X.triples_res [.arg Q.contracted_intermediate, ein1 L.abcijk L.bacijk Q.contracted_intermediate],
    set1 X.contracted_intermediate (ein3 L.lmed L.daij L.ebclmk L.abcijk Q.g_abab_oaoavava Q.t2_bbbb Q.t3_abbabb),
    .aug X.triples_res [.arg Q.contracted_intermediate, ein1 L.abcijk L.bacijk Q.contracted_intermediate],
    set1 X.contracted_intermediate (ein3 L.mlde L.daij L.ebckml L.abcijk Q.g_bbbb_oaoavava Q.t2_bbbb Q.t3_bbbbbb),
    .aug X.triples_res [.arg Q.contracted_intermediate, ein1 L.abcijk L.bacijk Q.contracted_intermediate],
    aug1 X.triples_res (ein3 L.mlde L.dcml L.eabijk L.abcijk Q.g_abab_oaoavava Q.t2_abab Q.t3_bbbbbb),
    aug1 X.triples_res (ein3 L.lmde L.dclm L.eabijk L.abcijk Q.g_abab_oaoavava Q.t2_abab Q.t3_bbbbbb),
    aug1 X.triples_res (ein3 L.mlde L.dcml L.eabijk L.abcijk Q.g_bbbb_oaoavava Q.t2_bbbb Q.t3_bbbbbb),
    set1 X.contracted_intermediate (ein3 L.mlde L.dclk L.eabmji L.abcijk Q.g_aaaa_oaoavava Q.t2_abab Q.t3_abbabb),
    .aug X.triples_res [.arg Q.contracted_intermediate, ein1 L.abcijk L.abcikj Q.contracted_intermediate],
    set1 X.contracted_intermediate (ein3 L.lmde L.dclk L.eabijm L.abcijk Q.g_abab_oaoavava Q.t2_abab Q.t3_bbbbbb),
    .aug X.triples_res [.arg Q.contracted_intermediate, ein1 L.abcijk L.abcikj Q.contracted_intermediate],
    set1 X.contracted_intermediate (ein3 L.mled L.dckl L.eabmji L.abcijk Q.g_abab_oaoavava Q.t2_bbbb Q.t3_abbabb),
    .aug X.triples_res [.arg Q.contracted_intermediate, ein1 L.abcijk L.abcikj Q.contracted_intermediate],
    set1 X.contracted_intermediate (ein3 L.mlde L.dckl L.eabijm L.abcijk Q.g_bbbb_oaoavava Q.t2_bbbb Q.t3_bbbbbb),
    .aug X.triples_res [.arg Q.contracted_intermediate, ein1 L.abcijk L.abcikj Q.contracted_intermediate],
    aug1 X.triples_res (ein3 L.mlde L.dcli L.eabmkj L.abcijk Q.g_aaaa_oaoavava Q.t2_abab Q.t3_abbabb),
    aug1 X.triples_res (ein3 L.lmde L.dcli L.eabjkm L.abcijk Q.g_abab_oaoavava Q.t2_abab Q.t3_bbbbbb),
    aug1 X.triples_res (ein3 L.mled L.dcil L.eabmkj L.abcijk Q.g_abab_oaoavava Q.t2_bbbb Q.t3_abbabb),
    aug1 X.triples_res (ein3 L.mlde L.dcil L.eabjkm L.abcijk Q.g_bbbb_oaoavava Q.t2_bbbb Q.t3_bbbbbb),
    set1 X.contracted_intermediate (ein3 L.mled L.dcjk L.eabmil L.abcijk Q.g_abab_oaoavava Q.t2_bbbb Q.t3_abbabb),
    .aug X.triples_res [.arg Q.contracted_intermediate, ein1 L.abcijk L.abcjik Q.contracted_intermediate],
    set1 X.contracted_intermediate (ein3 L.lmed L.dcjk L.eablmi L.abcijk Q.g_abab_oaoavava Q.t2_bbbb Q.t3_abbabb),
    .aug X.triples_res [.arg Q.contracted_intermediate, ein1 L.abcijk L.abcjik Q.contracted_intermediate],
    set1 X.contracted_intermediate (ein3 L.mlde L.dcjk L.eabiml L.abcijk Q.g_bbbb_oaoavava Q.t2_bbbb Q.t3_bbbbbb),
    .aug X.triples_res [.arg Q.contracted_intermediate, ein1 L.abcijk L.abcjik Q.contracted_intermediate],
    aug1 X.triples_res (ein3 L.mled L.dcij L.eabmkl L.abcijk Q.g_abab_oaoavava Q.t2_bbbb Q.t3_abbabb),
    aug1 X.triples_res (ein3 L.lmed L.dcij L.eablmk L.abcijk Q.g_abab_oaoavava Q.t2_bbbb Q.t3_abbabb),
    aug1 X.triples_res (ein3 L.mlde L.dcij L.eabkml L.abcijk Q.g_bbbb_oaoavava Q.t2_bbbb Q.t3_bbbbbb),
    set1 X.contracted_intermediate (ein3 L.mlde L.abml L.decijk L.abcijk Q.g_bbbb_oaoavava Q.t2_bbbb Q.t3_bbbbbb),
    .aug X.triples_res [.arg Q.contracted_intermediate, ein1 L.abcijk L.acbijk Q.contracted_intermediate],
    set1 X.contracted_intermediate (ein3 L.mlde L.abkl L.decmji L.abcijk Q.g_abab_oaoavava Q.t2_bbbb Q.t3_abbabb),
    .aug X.triples_res [.arg Q.contracted_intermediate, ein1 L.abcijk L.abcikj Q.contracted_intermediate, ein1 L.abcijk L.acbijk Q.contracted_intermediate, ein1 L.abcijk L.acbikj Q.contracted_intermediate],
    set1 X.contracted_intermediate (ein3 L.mled L.abkl L.edcmji L.abcijk Q.g_abab_oaoavava Q.t2_bbbb Q.t3_abbabb),
    .aug X.triples_res [.arg Q.contracted_intermediate, ein1 L.abcijk L.abcikj Q.contracted_intermediate, ein1 L.abcijk L.acbijk Q.contracted_intermediate, ein1 L.abcijk L.acbikj Q.contracted_intermediate],
    set1 X.contracted_intermediate (ein3 L.mlde L.abkl L.decijm L.abcijk Q.g_bbbb_oaoavava Q.t2_bbbb Q.t3_bbbbbb),
    .aug X.triples_res [.arg Q.contracted_intermediate, ein1 L.abcijk L.abcikj Q.contracted_intermediate, ein1 L.abcijk L.acbijk Q.contracted_intermediate, ein1 L.abcijk L.acbikj Q.contracted_intermediate],
    set1 X.contracted_intermediate (ein3 L.mlde L.abil L.decmkj L.abcijk Q.g_abab_oaoavava Q.t2_bbbb Q.t3_abbabb),
    .aug X.triples_res [.arg Q.contracted_intermediate, ein1 L.abcijk L.acbijk Q.contracted_intermediate],
    set1 X.contracted_intermediate (ein3 L.mled L.abil L.edcmkj L.abcijk Q.g_abab_oaoavava Q.t2_bbbb Q.t3_abbabb),
    .aug X.triples_res [.arg Q.contracted_intermediate, ein1 L.abcijk L.acbijk Q.contracted_intermediate],
    set1 X.contracted_intermediate (ein3 L.mlde L.abil L.decjkm L.abcijk Q.g_bbbb_oaoavava Q.t2_bbbb Q.t3_bbbbbb),
    .aug X.triples_res [.arg Q.contracted_intermediate, ein1 L.abcijk L.acbijk Q.contracted_intermediate],
    aug1 X.triples_res (ein3 L.mlde L.bcml L.deaijk L.abcijk Q.g_bbbb_oaoavava Q.t2_bbbb Q.t3_bbbbbb),
    set1 X.contracted_intermediate (ein3 L.mlde L.bckl L.deamji L.abcijk Q.g_abab_oaoavava Q.t2_bbbb Q.t3_abbabb),
    .aug X.triples_res [.arg Q.contracted_intermediate, ein1 L.abcijk L.abcikj Q.contracted_intermediate],
    set1 X.contracted_intermediate (ein3 L.mled L.bckl L.edamji L.abcijk Q.g_abab_oaoavava Q.t2_bbbb Q.t3_abbabb),
    .aug X.triples_res [.arg Q.contracted_intermediate, ein1 L.abcijk L.abcikj Q.contracted_intermediate],
    set1 X.contracted_intermediate (ein3 L.mlde L.bckl L.deaijm L.abcijk Q.g_bbbb_oaoavava Q.t2_bbbb Q.t3_bbbbbb),
    .aug X.triples_res [.arg Q.contracted_intermediate, ein1 L.abcijk L.abcikj Q.contracted_intermediate],
    aug1 X.triples_res (ein3 L.mlde L.bcil L.deamkj L.abcijk Q.g_abab_oaoavava Q.t2_bbbb Q.t3_abbabb),
    aug1 X.triples_res (ein3 L.mled L.bcil L.edamkj L.abcijk Q.g_abab_oaoavava Q.t2_bbbb Q.t3_abbabb),
    aug1 X.triples_res (ein3 L.mlde L.bcil L.deajkm L.abcijk Q.g_bbbb_oaoavava Q.t2_bbbb Q.t3_bbbbbb),
    set1 X.contracted_intermediate (ein3 L.lmdk L.dalj L.bcim L.abcijk Q.g_abab_oaoavaoa Q.t2_abab Q.t2_bbbb),
    .aug X.triples_res [.arg Q.contracted_intermediate, ein1 L.abcijk L.abcjik Q.contracted_intermediate, ein1 L.abcijk L.bacijk Q.contracted_intermediate, ein1 L.abcijk L.bacjik Q.contracted_intermediate],
    set1 X.contracted_intermediate (ein3 L.mldk L.dajl L.bcim L.abcijk Q.g_bbbb_oaoavaoa Q.t2_bbbb Q.t2_bbbb),
    .aug X.triples_res [.arg Q.contracted_intermediate, ein1 L.abcijk L.abcjik Q.contracted_intermediate, ein1 L.abcijk L.bacijk Q.contracted_intermediate, ein1 L.abcijk L.bacjik Q.contracted_intermediate],
    set1 X.contracted_intermediate (ein3 L.mldk L.daij L.bcml L.abcijk Q.g_bbbb_oaoavaoa Q.t2_bbbb Q.t2_bbbb),
    .aug X.triples_res [.arg Q.contracted_intermediate, ein1 L.abcijk L.abcikj Q.contracted_intermediate, ein1 L.abcijk L.bacijk Q.contracted_intermediate, ein1 L.abcijk L.bacikj Q.contracted_intermediate],
    set1 X.contracted_intermediate (ein3 L.lmdk L.dclj L.abim L.abcijk Q.g_abab_oaoavaoa Q.t2_abab Q.t2_bbbb),
    .aug X.triples_res [.arg Q.contracted_intermediate, ein1 L.abcijk L.abcjik Q.contracted_intermediate],
    set1 X.contracted_intermediate (ein3 L.mldk L.dcjl L.abim L.abcijk Q.g_bbbb_oaoavaoa Q.t2_bbbb Q.t2_bbbb),
    .aug X.triples_res [.arg Q.contracted_intermediate, ein1 L.abcijk L.abcjik Q.contracted_intermediate],
    set1 X.contracted_intermediate (ein3 L.mldk L.dcij L.abml L.abcijk Q.g_bbbb_oaoavaoa Q.t2_bbbb Q.t2_bbbb),
    .aug X.triples_res [.arg Q.contracted_intermediate, ein1 L.abcijk L.abcikj Q.contracted_intermediate],
    set1 X.contracted_intermediate (ein3 L.lmdj L.dalk L.bcim L.abcijk Q.g_abab_oaoavaoa Q.t2_abab Q.t2_bbbb),
    .aug X.triples_res [.arg Q.contracted_intermediate, ein1 L.abcijk L.abckji Q.contracted_intermediate, ein1 L.abcijk L.bacijk Q.contracted_intermediate, ein1 L.abcijk L.backji Q.contracted_intermediate],
    set1 X.contracted_intermediate (ein3 L.mldj L.dakl L.bcim L.abcijk Q.g_bbbb_oaoavaoa Q.t2_bbbb Q.t2_bbbb),
    .aug X.triples_res [.arg Q.contracted_intermediate, ein1 L.abcijk L.abckji Q.contracted_intermediate, ein1 L.abcijk L.bacijk Q.contracted_intermediate, ein1 L.abcijk L.backji Q.contracted_intermediate],
    set1 X.contracted_intermediate (ein3 L.lmdj L.dclk L.abim L.abcijk Q.g_abab_oaoavaoa Q.t2_abab Q.t2_bbbb),
    .aug X.triples_res [.arg Q.contracted_intermediate, ein1 L.abcijk L.abckji Q.contracted_intermediate],
    set1 X.contracted_intermediate (ein3 L.mldj L.dckl L.abim L.abcijk Q.g_bbbb_oaoavaoa Q.t2_bbbb Q.t2_bbbb),
    .aug X.triples_res [.arg Q.contracted_intermediate, ein1 L.abcijk L.abckji Q.contracted_intermediate],
    set1 X.contracted_intermediate (ein3 L.lmdi L.dalk L.bcjm L.abcijk Q.g_abab_oaoavaoa Q.t2_abab Q.t2_bbbb),
    .aug X.triples_res [.arg Q.contracted_intermediate, ein1 L.abcijk L.abcikj Q.contracted_intermediate, ein1 L.abcijk L.bacijk Q.contracted_intermediate, ein1 L.abcijk L.bacikj Q.contracted_intermediate],
    set1 X.contracted_intermediate (ein3 L.mldi L.dakl L.bcjm L.abcijk Q.g_bbbb_oaoavaoa Q.t2_bbbb Q.t2_bbbb),
    .aug X.triples_res [.arg Q.contracted_intermediate, ein1 L.abcijk L.abcikj Q.contracted_intermediate, ein1 L.abcijk L.bacijk Q.contracted_intermediate, ein1 L.abcijk L.bacikj Q.contracted_intermediate],
    set1 X.contracted_intermediate (ein3 L.mldi L.dajk L.bcml L.abcijk Q.g_bbbb_oaoavaoa Q.t2_bbbb Q.t2_bbbb),
    .aug X.triples_res [.arg Q.contracted_intermediate, ein1 L.abcijk L.bacijk Q.contracted_intermediate],
    set1 X.contracted_intermediate (ein3 L.lmdi L.dclk L.abjm L.abcijk Q.g_abab_oaoavaoa Q.t2_abab Q.t2_bbbb),
    .aug X.triples_res [.arg Q.contracted_intermediate, ein1 L.abcijk L.abcikj Q.contracted_intermediate],
    set1 X.contracted_intermediate (ein3 L.mldi L.dckl L.abjm L.abcijk Q.g_bbbb_oaoavaoa Q.t2_bbbb Q.t2_bbbb),
    .aug X.triples_res [.arg Q.contracted_intermediate, ein1 L.abcijk L.abcikj Q.contracted_intermediate],
    aug1 X.triples_res (ein3 L.mldi L.dcjk L.abml L.abcijk Q.g_bbbb_oaoavaoa Q.t2_bbbb Q.t2_bbbb),
    set1 X.contracted_intermediate (ein3 L.lade L.dejk L.bcil L.abcijk Q.g_bbbb_oavavava Q.t2_bbbb Q.t2_bbbb),
    .aug X.triples_res [.arg Q.contracted_intermediate, ein1 L.abcijk L.abcjik Q.contracted_intermediate, ein1 L.abcijk L.bacijk Q.contracted_intermediate, ein1 L.abcijk L.bacjik Q.contracted_intermediate],
    set1 X.contracted_intermediate (ein3 L.lade L.deij L.bckl L.abcijk Q.g_bbbb_oavavava Q.t2_bbbb Q.t2_bbbb),
    .aug X.triples_res [.arg Q.contracted_intermediate, ein1 L.abcijk L.bacijk Q.contracted_intermediate],
    set1 X.contracted_intermediate (ein3 L.lade L.dblk L.ecij L.abcijk Q.g_abab_oavavava Q.t2_abab Q.t2_bbbb),
    .aug X.triples_res [.arg Q.contracted_intermediate, ein1 L.abcijk L.abcikj Q.contracted_intermediate, ein1 L.abcijk L.bacijk Q.contracted_intermediate, ein1 L.abcijk L.bacikj Q.contracted_intermediate],
    set1 X.contracted_intermediate (ein3 L.lade L.dbkl L.ecij L.abcijk Q.g_bbbb_oavavava Q.t2_bbbb Q.t2_bbbb),
    .aug X.triples_res [.arg Q.contracted_intermediate, ein1 L.abcijk L.abcikj Q.contracted_intermediate, ein1 L.abcijk L.bacijk Q.contracted_intermediate, ein1 L.abcijk L.bacikj Q.contracted_intermediate],
    set1 X.contracted_intermediate (ein3 L.lade L.dbli L.ecjk L.abcijk Q.g_abab_oavavava Q.t2_abab Q.t2_bbbb),
    .aug X.triples_res [.arg Q.contracted_intermediate, ein1 L.abcijk L.bacijk Q.contracted_intermediate],
    set1 X.contracted_intermediate (ein3 L.lade L.dbil L.ecjk L.abcijk Q.g_bbbb_oavavava Q.t2_bbbb Q.t2_bbbb),
    .aug X.triples_res [.arg Q.contracted_intermediate, ein1 L.abcijk L.bacijk Q.contracted_intermediate],
    set1 X.contracted_intermediate (ein3 L.laed L.dbjk L.ecli L.abcijk Q.g_abab_oavavava Q.t2_bbbb Q.t2_abab),
    .aug X.triples_res [.arg Q.contracted_intermediate, ein1 L.abcijk L.abcjik Q.contracted_intermediate, ein1 L.abcijk L.bacijk Q.contracted_intermediate, ein1 L.abcijk L.bacjik Q.contracted_intermediate],
    set1 X.contracted_intermediate (ein3 L.lade L.dbjk L.ecil L.abcijk Q.g_bbbb_oavavava Q.t2_bbbb Q.t2_bbbb),
    .aug X.triples_res [.arg Q.contracted_intermediate, ein1 L.abcijk L.abcjik Q.contracted_intermediate, ein1 L.abcijk L.bacijk Q.contracted_intermediate, ein1 L.abcijk L.bacjik Q.contracted_intermediate],
    set1 X.contracted_intermediate (ein3 L.laed L.dbij L.eclk L.abcijk Q.g_abab_oavavava Q.t2_bbbb Q.t2_abab),
    .aug X.triples_res [.arg Q.contracted_intermediate, ein1 L.abcijk L.bacijk Q.contracted_intermediate],
    set1 X.contracted_intermediate (ein3 L.lade L.dbij L.eckl L.abcijk Q.g_bbbb_oavavava Q.t2_bbbb Q.t2_bbbb),
    .aug X.triples_res [.arg Q.contracted_intermediate, ein1 L.abcijk L.bacijk Q.contracted_intermediate],
    set1 X.contracted_intermediate (ein3 L.lcde L.dejk L.abil L.abcijk Q.g_bbbb_oavavava Q.t2_bbbb Q.t2_bbbb),
    .aug X.triples_res [.arg Q.contracted_intermediate, ein1 L.abcijk L.abcjik Q.contracted_intermediate],
    aug1 X.triples_res (ein3 L.lcde L.deij L.abkl L.abcijk Q.g_bbbb_oavavava Q.t2_bbbb Q.t2_bbbb),
    set1 X.contracted_intermediate (ein3 L.lcde L.dalk L.ebij L.abcijk Q.g_abab_oavavava Q.t2_abab Q.t2_bbbb),
    .aug X.triples_res [.arg Q.contracted_intermediate, ein1 L.abcijk L.abcikj Q.contracted_intermediate],
    set1 X.contracted_intermediate (ein3 L.lcde L.dakl L.ebij L.abcijk Q.g_bbbb_oavavava Q.t2_bbbb Q.t2_bbbb),
    .aug X.triples_res [.arg Q.contracted_intermediate, ein1 L.abcijk L.abcikj Q.contracted_intermediate],
    aug1 X.triples_res (ein3 L.lcde L.dali L.ebjk L.abcijk Q.g_abab_oavavava Q.t2_abab Q.t2_bbbb),
    aug1 X.triples_res (ein3 L.lcde L.dail L.ebjk L.abcijk Q.g_bbbb_oavavava Q.t2_bbbb Q.t2_bbbb),
    set1 X.contracted_intermediate (ein3 L.lced L.dajk L.ebli L.abcijk Q.g_abab_oavavava Q.t2_bbbb Q.t2_abab),
    .aug X.triples_res [.arg Q.contracted_intermediate, ein1 L.abcijk L.abcjik Q.contracted_intermediate],
    set1 X.contracted_intermediate (ein3 L.lcde L.dajk L.ebil L.abcijk Q.g_bbbb_oavavava Q.t2_bbbb Q.t2_bbbb),
    .aug X.triples_res [.arg Q.contracted_intermediate, ein1 L.abcijk L.abcjik Q.contracted_intermediate],
    aug1 X.triples_res (ein3 L.lced L.daij L.eblk L.abcijk Q.g_abab_oavavava Q.t2_bbbb Q.t2_abab),
    aug1 X.triples_res (ein3 L.lcde L.daij L.ebkl L.abcijk Q.g_bbbb_oavavava Q.t2_bbbb Q.t2_bbbb),
    set1 X.contracted_intermediate (ein4 L.lmde L.dl L.eajk L.bcim L.abcijk Q.g_abab_oaoavava Q.t1_aa Q.t2_bbbb Q.t2_bbbb),
    .aug X.triples_res [.arg Q.contracted_intermediate, ein1 L.abcijk L.abcjik Q.contracted_intermediate, ein1 L.abcijk L.bacijk Q.contracted_intermediate, ein1 L.abcijk L.bacjik Q.contracted_intermediate],
    set1 X.contracted_intermediate (ein4 L.mlde L.dl L.eajk L.bcim L.abcijk Q.g_bbbb_oaoavava Q.t1_bb Q.t2_bbbb Q.t2_bbbb),
    .aug X.triples_res [.arg Q.contracted_intermediate, ein1 L.abcijk L.abcjik Q.contracted_intermediate, ein1 L.abcijk L.bacijk Q.contracted_intermediate, ein1 L.abcijk L.bacjik Q.contracted_intermediate],
    set1 X.contracted_intermediate (ein4 L.lmde L.dl L.eaij L.bckm L.abcijk Q.g_abab_oaoavava Q.t1_aa Q.t2_bbbb Q.t2_bbbb),
    .aug X.triples_res [.arg Q.contracted_intermediate, ein1 L.abcijk L.bacijk Q.contracted_intermediate],
    set1 X.contracted_intermediate (ein4 L.mlde L.dl L.eaij L.bckm L.abcijk Q.g_bbbb_oaoavava Q.t1_bb Q.t2_bbbb Q.t2_bbbb),
    .aug X.triples_res [.arg Q.contracted_intermediate, ein1 L.abcijk L.bacijk Q.contracted_intermediate],
    set1 X.contracted_intermediate (ein4 L.lmde L.dl L.ecjk L.abim L.abcijk Q.g_abab_oaoavava Q.t1_aa Q.t2_bbbb Q.t2_bbbb),
    .aug X.triples_res [.arg Q.contracted_intermediate, ein1 L.abcijk L.abcjik Q.contracted_intermediate],
    set1 X.contracted_intermediate (ein4 L.mlde L.dl L.ecjk L.abim L.abcijk Q.g_bbbb_oaoavava Q.t1_bb Q.t2_bbbb Q.t2_bbbb),
    .aug X.triples_res [.arg Q.contracted_intermediate, ein1 L.abcijk L.abcjik Q.contracted_intermediate],
    aug1 X.triples_res (ein4 L.lmde L.dl L.ecij L.abkm L.abcijk Q.g_abab_oaoavava Q.t1_aa Q.t2_bbbb Q.t2_bbbb),
    aug1 X.triples_res (ein4 L.mlde L.dl L.ecij L.abkm L.abcijk Q.g_bbbb_oaoavava Q.t1_bb Q.t2_bbbb Q.t2_bbbb),
    set1 X.contracted_intermediate (ein4 L.lmed L.dk L.ealj L.bcim L.abcijk Q.g_abab_oaoavava Q.t1_bb Q.t2_abab Q.t2_bbbb),
    .aug X.triples_res [.arg Q.contracted_intermediate, ein1 L.abcijk L.abcjik Q.contracted_intermediate, ein1 L.abcijk L.bacijk Q.contracted_intermediate, ein1 L.abcijk L.bacjik Q.contracted_intermediate],
    set1 X.contracted_intermediate (ein4 L.mlde L.dk L.eajl L.bcim L.abcijk Q.g_bbbb_oaoavava Q.t1_bb Q.t2_bbbb Q.t2_bbbb),
    .aug X.triples_res [.arg Q.contracted_intermediate, ein1 L.abcijk L.abcjik Q.contracted_intermediate, ein1 L.abcijk L.bacijk Q.contracted_intermediate, ein1 L.abcijk L.bacjik Q.contracted_intermediate],
    set1 X.contracted_intermediate (ein4 L.mlde L.dk L.eaij L.bcml L.abcijk Q.g_bbbb_oaoavava Q.t1_bb Q.t2_bbbb Q.t2_bbbb),
    .aug X.triples_res [.arg Q.contracted_intermediate, ein1 L.abcijk L.abcikj Q.contracted_intermediate, ein1 L.abcijk L.bacijk Q.contracted_intermediate, ein1 L.abcijk L.bacikj Q.contracted_intermediate],
    set1 X.contracted_intermediate (ein4 L.lmed L.dk L.eclj L.abim L.abcijk Q.g_abab_oaoavava Q.t1_bb Q.t2_abab Q.t2_bbbb),
    .aug X.triples_res [.arg Q.contracted_intermediate, ein1 L.abcijk L.abcjik Q.contracted_intermediate],
    set1 X.contracted_intermediate (ein4 L.mlde L.dk L.ecjl L.abim L.abcijk Q.g_bbbb_oaoavava Q.t1_bb Q.t2_bbbb Q.t2_bbbb),
    .aug X.triples_res [.arg Q.contracted_intermediate, ein1 L.abcijk L.abcjik Q.contracted_intermediate],
    set1 X.contracted_intermediate (ein4 L.mlde L.dk L.ecij L.abml L.abcijk Q.g_bbbb_oaoavava Q.t1_bb Q.t2_bbbb Q.t2_bbbb),
    .aug X.triples_res [.arg Q.contracted_intermediate, ein1 L.abcijk L.abcikj Q.contracted_intermediate],
    set1 X.contracted_intermediate (ein4 L.lmed L.dj L.ealk L.bcim L.abcijk Q.g_abab_oaoavava Q.t1_bb Q.t2_abab Q.t2_bbbb),
    .aug X.triples_res [.arg Q.contracted_intermediate, ein1 L.abcijk L.abckji Q.contracted_intermediate, ein1 L.abcijk L.bacijk Q.contracted_intermediate, ein1 L.abcijk L.backji Q.contracted_intermediate],
    set1 X.contracted_intermediate (ein4 L.mlde L.dj L.eakl L.bcim L.abcijk Q.g_bbbb_oaoavava Q.t1_bb Q.t2_bbbb Q.t2_bbbb),
    .aug X.triples_res [.arg Q.contracted_intermediate, ein1 L.abcijk L.abckji Q.contracted_intermediate, ein1 L.abcijk L.bacijk Q.contracted_intermediate, ein1 L.abcijk L.backji Q.contracted_intermediate],
    set1 X.contracted_intermediate (ein4 L.lmed L.dj L.eclk L.abim L.abcijk Q.g_abab_oaoavava Q.t1_bb Q.t2_abab Q.t2_bbbb),
    .aug X.triples_res [.arg Q.contracted_intermediate, ein1 L.abcijk L.abckji Q.contracted_intermediate],
    set1 X.contracted_intermediate (ein4 L.mlde L.dj L.eckl L.abim L.abcijk Q.g_bbbb_oaoavava Q.t1_bb Q.t2_bbbb Q.t2_bbbb),
    .aug X.triples_res [.arg Q.contracted_intermediate, ein1 L.abcijk L.abckji Q.contracted_intermediate],
    set1 X.contracted_intermediate (ein4 L.lmed L.di L.ealk L.bcjm L.abcijk Q.g_abab_oaoavava Q.t1_bb Q.t2_abab Q.t2_bbbb),
    .aug X.triples_res [.arg Q.contracted_intermediate, ein1 L.abcijk L.abcikj Q.contracted_intermediate, ein1 L.abcijk L.bacijk Q.contracted_intermediate, ein1 L.abcijk L.bacikj Q.contracted_intermediate],
    set1 X.contracted_intermediate (ein4 L.mlde L.di L.eakl L.bcjm L.abcijk Q.g_bbbb_oaoavava Q.t1_bb Q.t2_bbbb Q.t2_bbbb),
    .aug X.triples_res [.arg Q.contracted_intermediate, ein1 L.abcijk L.abcikj Q.contracted_intermediate, ein1 L.abcijk L.bacijk Q.contracted_intermediate, ein1 L.abcijk L.bacikj Q.contracted_intermediate],
    set1 X.contracted_intermediate (ein4 L.mlde L.di L.eajk L.bcml L.abcijk Q.g_bbbb_oaoavava Q.t1_bb Q.t2_bbbb Q.t2_bbbb),
    .aug X.triples_res [.arg Q.contracted_intermediate, ein1 L.abcijk L.bacijk Q.contracted_intermediate],
    set1 X.contracted_intermediate (ein4 L.lmed L.di L.eclk L.abjm L.abcijk Q.g_abab_oaoavava Q.t1_bb Q.t2_abab Q.t2_bbbb),
    .aug X.triples_res [.arg Q.contracted_intermediate, ein1 L.abcijk L.abcikj Q.contracted_intermediate],
    set1 X.contracted_intermediate (ein4 L.mlde L.di L.eckl L.abjm L.abcijk Q.g_bbbb_oaoavava Q.t1_bb Q.t2_bbbb Q.t2_bbbb),
    .aug X.triples_res [.arg Q.contracted_intermediate, ein1 L.abcijk L.abcikj Q.contracted_intermediate],
    aug1 X.triples_res (ein4 L.mlde L.di L.ecjk L.abml L.abcijk Q.g_bbbb_oaoavava Q.t1_bb Q.t2_bbbb Q.t2_bbbb),
    set1 X.contracted_intermediate (ein4 L.mlde L.al L.dejk L.bcim L.abcijk Q.g_bbbb_oaoavava Q.t1_bb Q.t2_bbbb Q.t2_bbbb),
    .aug X.triples_res [.arg Q.contracted_intermediate, ein1 L.abcijk L.abcjik Q.contracted_intermediate, ein1 L.abcijk L.bacijk Q.contracted_intermediate, ein1 L.abcijk L.bacjik Q.contracted_intermediate],
    set1 X.contracted_intermediate (ein4 L.mlde L.al L.deij L.bckm L.abcijk Q.g_bbbb_oaoavava Q.t1_bb Q.t2_bbbb Q.t2_bbbb),
    .aug X.triples_res [.arg Q.contracted_intermediate, ein1 L.abcijk L.bacijk Q.contracted_intermediate],
    set1 X.contracted_intermediate (ein4 L.mlde L.al L.dbmk L.ecij L.abcijk Q.g_abab_oaoavava Q.t1_bb Q.t2_abab Q.t2_bbbb),
    .aug X.triples_res [.arg Q.contracted_intermediate, ein1 L.abcijk L.abcikj Q.contracted_intermediate, ein1 L.abcijk L.bacijk Q.contracted_intermediate, ein1 L.abcijk L.bacikj Q.contracted_intermediate],
    set1 X.contracted_intermediate (ein4 L.mlde L.al L.dbkm L.ecij L.abcijk Q.g_bbbb_oaoavava Q.t1_bb Q.t2_bbbb Q.t2_bbbb),
    .aug X.triples_res [.arg Q.contracted_intermediate, ein1 L.abcijk L.abcikj Q.contracted_intermediate, ein1 L.abcijk L.bacijk Q.contracted_intermediate, ein1 L.abcijk L.bacikj Q.contracted_intermediate],
    set1 X.contracted_intermediate (ein4 L.mlde L.al L.dbmi L.ecjk L.abcijk Q.g_abab_oaoavava Q.t1_bb Q.t2_abab Q.t2_bbbb),
    .aug X.triples_res [.arg Q.contracted_intermediate, ein1 L.abcijk L.bacijk Q.contracted_intermediate],
    set1 X.contracted_intermediate (ein4 L.mlde L.al L.dbim L.ecjk L.abcijk Q.g_bbbb_oaoavava Q.t1_bb Q.t2_bbbb Q.t2_bbbb),
    .aug X.triples_res [.arg Q.contracted_intermediate, ein1 L.abcijk L.bacijk Q.contracted_intermediate],
    set1 X.contracted_intermediate (ein4 L.mled L.al L.dbjk L.ecmi L.abcijk Q.g_abab_oaoavava Q.t1_bb Q.t2_bbbb Q.t2_abab),
    .aug X.triples_res [.arg Q.contracted_intermediate, ein1 L.abcijk L.abcjik Q.contracted_intermediate, ein1 L.abcijk L.bacijk Q.contracted_intermediate, ein1 L.abcijk L.bacjik Q.contracted_intermediate],
    set1 X.contracted_intermediate (ein4 L.mlde L.al L.dbjk L.ecim L.abcijk Q.g_bbbb_oaoavava Q.t1_bb Q.t2_bbbb Q.t2_bbbb),
    .aug X.triples_res [.arg Q.contracted_intermediate, ein1 L.abcijk L.abcjik Q.contracted_intermediate, ein1 L.abcijk L.bacijk Q.contracted_intermediate, ein1 L.abcijk L.bacjik Q.contracted_intermediate],
    set1 X.contracted_intermediate (ein4 L.mled L.al L.dbij L.ecmk L.abcijk Q.g_abab_oaoavava Q.t1_bb Q.t2_bbbb Q.t2_abab),
    .aug X.triples_res [.arg Q.contracted_intermediate, ein1 L.abcijk L.bacijk Q.contracted_intermediate],
    set1 X.contracted_intermediate (ein4 L.mlde L.al L.dbij L.eckm L.abcijk Q.g_bbbb_oaoavava Q.t1_bb Q.t2_bbbb Q.t2_bbbb),
    .aug X.triples_res [.arg Q.contracted_intermediate, ein1 L.abcijk L.bacijk Q.contracted_intermediate],
    set1 X.contracted_intermediate (ein4 L.mlde L.cl L.dejk L.abim L.abcijk Q.g_bbbb_oaoavava Q.t1_bb Q.t2_bbbb Q.t2_bbbb),
    .aug X.triples_res [.arg Q.contracted_intermediate, ein1 L.abcijk L.abcjik Q.contracted_intermediate],
    aug1 X.triples_res (ein4 L.mlde L.cl L.deij L.abkm L.abcijk Q.g_bbbb_oaoavava Q.t1_bb Q.t2_bbbb Q.t2_bbbb),
    set1 X.contracted_intermediate (ein4 L.mlde L.cl L.damk L.ebij L.abcijk Q.g_abab_oaoavava Q.t1_bb Q.t2_abab Q.t2_bbbb),
    .aug X.triples_res [.arg Q.contracted_intermediate, ein1 L.abcijk L.abcikj Q.contracted_intermediate],
    set1 X.contracted_intermediate (ein4 L.mlde L.cl L.dakm L.ebij L.abcijk Q.g_bbbb_oaoavava Q.t1_bb Q.t2_bbbb Q.t2_bbbb),
    .aug X.triples_res [.arg Q.contracted_intermediate, ein1 L.abcijk L.abcikj Q.contracted_intermediate],
    aug1 X.triples_res (ein4 L.mlde L.cl L.dami L.ebjk L.abcijk Q.g_abab_oaoavava Q.t1_bb Q.t2_abab Q.t2_bbbb),
    aug1 X.triples_res (ein4 L.mlde L.cl L.daim L.ebjk L.abcijk Q.g_bbbb_oaoavava Q.t1_bb Q.t2_bbbb Q.t2_bbbb),
    set1 X.contracted_intermediate (ein4 L.mled L.cl L.dajk L.ebmi L.abcijk Q.g_abab_oaoavava Q.t1_bb Q.t2_bbbb Q.t2_abab),
    .aug X.triples_res [.arg Q.contracted_intermediate, ein1 L.abcijk L.abcjik Q.contracted_intermediate],
    set1 X.contracted_intermediate (ein4 L.mlde L.cl L.dajk L.ebim L.abcijk Q.g_bbbb_oaoavava Q.t1_bb Q.t2_bbbb Q.t2_bbbb),
    .aug X.triples_res [.arg Q.contracted_intermediate, ein1 L.abcijk L.abcjik Q.contracted_intermediate],
    aug1 X.triples_res (ein4 L.mled L.cl L.daij L.ebmk L.abcijk Q.g_abab_oaoavava Q.t1_bb Q.t2_bbbb Q.t2_abab),
    aug1 X.triples_res (ein4 L.mlde L.cl L.daij L.ebkm L.abcijk Q.g_bbbb_oaoavava Q.t1_bb Q.t2_bbbb Q.t2_bbbb),
    set1 X.contracted_intermediate (ein4 L.mldk L.dj L.al L.bcim L.abcijk Q.g_bbbb_oaoavaoa Q.t1_bb Q.t1_bb Q.t2_bbbb),
    .aug X.triples_res [.arg Q.contracted_intermediate, ein1 L.abcijk L.abcjik Q.contracted_intermediate, ein1 L.abcijk L.bacijk Q.contracted_intermediate, ein1 L.abcijk L.bacjik Q.contracted_intermediate],
    set1 X.contracted_intermediate (ein4 L.mldk L.dj L.cl L.abim L.abcijk Q.g_bbbb_oaoavaoa Q.t1_bb Q.t1_bb Q.t2_bbbb),
    .aug X.triples_res [.arg Q.contracted_intermediate, ein1 L.abcijk L.abcjik Q.contracted_intermediate],
    set1 X.contracted_intermediate (ein4 L.mldk L.al L.bm L.dcij L.abcijk Q.g_bbbb_oaoavaoa Q.t1_bb Q.t1_bb Q.t2_bbbb),
    .aug X.triples_res [.arg Q.contracted_intermediate, ein1 L.abcijk L.abcikj Q.contracted_intermediate, ein1 L.abcijk L.acbijk Q.contracted_intermediate, ein1 L.abcijk L.acbikj Q.contracted_intermediate],
    set1 X.contracted_intermediate (ein4 L.mldk L.bl L.cm L.daij L.abcijk Q.g_bbbb_oaoavaoa Q.t1_bb Q.t1_bb Q.t2_bbbb),
    .aug X.triples_res [.arg Q.contracted_intermediate, ein1 L.abcijk L.abcikj Q.contracted_intermediate],
    set1 X.contracted_intermediate (ein4 L.mldj L.dk L.al L.bcim L.abcijk Q.g_bbbb_oaoavaoa Q.t1_bb Q.t1_bb Q.t2_bbbb),
    .aug X.triples_res [.arg Q.contracted_intermediate, ein1 L.abcijk L.abckji Q.contracted_intermediate, ein1 L.abcijk L.bacijk Q.contracted_intermediate, ein1 L.abcijk L.backji Q.contracted_intermediate],
    set1 X.contracted_intermediate (ein4 L.mldj L.dk L.cl L.abim L.abcijk Q.g_bbbb_oaoavaoa Q.t1_bb Q.t1_bb Q.t2_bbbb),
    .aug X.triples_res [.arg Q.contracted_intermediate, ein1 L.abcijk L.abckji Q.contracted_intermediate],
    set1 X.contracted_intermediate (ein4 L.mldi L.dk L.al L.bcjm L.abcijk Q.g_bbbb_oaoavaoa Q.t1_bb Q.t1_bb Q.t2_bbbb),
    .aug X.triples_res [.arg Q.contracted_intermediate, ein1 L.abcijk L.abcikj Q.contracted_intermediate, ein1 L.abcijk L.bacijk Q.contracted_intermediate, ein1 L.abcijk L.bacikj Q.contracted_intermediate],
    set1 X.contracted_intermediate (ein4 L.mldi L.dk L.cl L.abjm L.abcijk Q.g_bbbb_oaoavaoa Q.t1_bb Q.t1_bb Q.t2_bbbb),
    .aug X.triples_res [.arg Q.contracted_intermediate, ein1 L.abcijk L.abcikj Q.contracted_intermediate],
    set1 X.contracted_intermediate (ein4 L.mldi L.al L.bm L.dcjk L.abcijk Q.g_bbbb_oaoavaoa Q.t1_bb Q.t1_bb Q.t2_bbbb),
    .aug X.triples_res [.arg Q.contracted_intermediate, ein1 L.abcijk L.acbijk Q.contracted_intermediate],
    aug1 X.triples_res (ein4 L.mldi L.bl L.cm L.dajk L.abcijk Q.g_bbbb_oaoavaoa Q.t1_bb Q.t1_bb Q.t2_bbbb),
    set1 X.contracted_intermediate (ein4 L.lade L.dk L.ej L.bcil L.abcijk Q.g_bbbb_oavavava Q.t1_bb Q.t1_bb Q.t2_bbbb),
    .aug X.triples_res [.arg Q.contracted_intermediate, ein1 L.abcijk L.abcjik Q.contracted_intermediate, ein1 L.abcijk L.bacijk Q.contracted_intermediate, ein1 L.abcijk L.bacjik Q.contracted_intermediate],
    set1 X.contracted_intermediate (ein4 L.lade L.dk L.bl L.ecij L.abcijk Q.g_bbbb_oavavava Q.t1_bb Q.t1_bb Q.t2_bbbb),
    .aug X.triples_res [.arg Q.contracted_intermediate, ein1 L.abcijk L.abcikj Q.contracted_intermediate, ein1 L.abcijk L.acbijk Q.contracted_intermediate, ein1 L.abcijk L.acbikj Q.contracted_intermediate],
    set1 X.contracted_intermediate (ein4 L.lade L.dj L.ei L.bckl L.abcijk Q.g_bbbb_oavavava Q.t1_bb Q.t1_bb Q.t2_bbbb),
    .aug X.triples_res [.arg Q.contracted_intermediate, ein1 L.abcijk L.bacijk Q.contracted_intermediate],
    set1 X.contracted_intermediate (ein4 L.lade L.di L.bl L.ecjk L.abcijk Q.g_bbbb_oavavava Q.t1_bb Q.t1_bb Q.t2_bbbb),
    .aug X.triples_res [.arg Q.contracted_intermediate, ein1 L.abcijk L.acbijk Q.contracted_intermediate],
    set1 X.contracted_intermediate (ein4 L.lbde L.dk L.al L.ecij L.abcijk Q.g_bbbb_oavavava Q.t1_bb Q.t1_bb Q.t2_bbbb),
    .aug X.triples_res [.arg Q.contracted_intermediate, ein1 L.abcijk L.abcikj Q.contracted_intermediate, ein1 L.abcijk L.cbaijk Q.contracted_intermediate, ein1 L.abcijk L.cbaikj Q.contracted_intermediate],
    set1 X.contracted_intermediate (ein4 L.lbde L.di L.al L.ecjk L.abcijk Q.g_bbbb_oavavava Q.t1_bb Q.t1_bb Q.t2_bbbb),
    .aug X.triples_res [.arg Q.contracted_intermediate, ein1 L.abcijk L.cbaijk Q.contracted_intermediate],
    set1 X.contracted_intermediate (ein4 L.lcde L.dk L.ej L.abil L.abcijk Q.g_bbbb_oavavava Q.t1_bb Q.t1_bb Q.t2_bbbb),
    .aug X.triples_res [.arg Q.contracted_intermediate, ein1 L.abcijk L.abcjik Q.contracted_intermediate],
    set1 X.contracted_intermediate (ein4 L.lcde L.dk L.al L.ebij L.abcijk Q.g_bbbb_oavavava Q.t1_bb Q.t1_bb Q.t2_bbbb),
    .aug X.triples_res [.arg Q.contracted_intermediate, ein1 L.abcijk L.abcikj Q.contracted_intermediate, ein1 L.abcijk L.bacijk Q.contracted_intermediate, ein1 L.abcijk L.bacikj Q.contracted_intermediate],
    aug1 X.triples_res (ein4 L.lcde L.dj L.ei L.abkl L.abcijk Q.g_bbbb_oavavava Q.t1_bb Q.t1_bb Q.t2_bbbb),
    set1 X.contracted_intermediate (ein4 L.lcde L.di L.al L.ebjk L.abcijk Q.g_bbbb_oavavava Q.t1_bb Q.t1_bb Q.t2_bbbb),
    .aug X.triples_res [.arg Q.contracted_intermediate, ein1 L.abcijk L.bacijk Q.contracted_intermediate],
    set1 X.contracted_intermediate (ein4 L.lmde L.dl L.ek L.abcijm L.abcijk Q.g_abab_oaoavava Q.t1_aa Q.t1_bb Q.t3_bbbbbb),
    .aug X.triples_res [.arg Q.contracted_intermediate, ein1 L.abcijk L.abcikj Q.contracted_intermediate],
    set1 X.contracted_intermediate (ein4 L.mlde L.dl L.ek L.abcijm L.abcijk Q.g_bbbb_oaoavava Q.t1_bb Q.t1_bb Q.t3_bbbbbb),
    .aug X.triples_res [.arg Q.contracted_intermediate, ein1 L.abcijk L.abcikj Q.contracted_intermediate],
    aug1 X.triples_res (ein4 L.lmde L.dl L.ei L.abcjkm L.abcijk Q.g_abab_oaoavava Q.t1_aa Q.t1_bb Q.t3_bbbbbb),
    aug1 X.triples_res (ein4 L.mlde L.dl L.ei L.abcjkm L.abcijk Q.g_bbbb_oaoavava Q.t1_bb Q.t1_bb Q.t3_bbbbbb),
    set1 X.contracted_intermediate (ein4 L.lmde L.dl L.am L.ebcijk L.abcijk Q.g_abab_oaoavava Q.t1_aa Q.t1_bb Q.t3_bbbbbb),
    .aug X.triples_res [.arg Q.contracted_intermediate, ein1 L.abcijk L.bacijk Q.contracted_intermediate],
    set1 X.contracted_intermediate (ein4 L.mlde L.dl L.am L.ebcijk L.abcijk Q.g_bbbb_oaoavava Q.t1_bb Q.t1_bb Q.t3_bbbbbb),
    .aug X.triples_res [.arg Q.contracted_intermediate, ein1 L.abcijk L.bacijk Q.contracted_intermediate],
    aug1 X.triples_res (ein4 L.lmde L.dl L.cm L.eabijk L.abcijk Q.g_abab_oaoavava Q.t1_aa Q.t1_bb Q.t3_bbbbbb),
    aug1 X.triples_res (ein4 L.mlde L.dl L.cm L.eabijk L.abcijk Q.g_bbbb_oaoavava Q.t1_bb Q.t1_bb Q.t3_bbbbbb),
    set1 X.contracted_intermediate (ein4 L.mlde L.dk L.ej L.abciml L.abcijk Q.g_bbbb_oaoavava Q.t1_bb Q.t1_bb Q.t3_bbbbbb),
    .aug X.triples_res [.arg Q.contracted_intermediate, ein1 L.abcijk L.abcjik Q.contracted_intermediate],
    set1 X.contracted_intermediate (ein4 L.mled L.dk L.al L.ebcmji L.abcijk Q.g_abab_oaoavava Q.t1_bb Q.t1_bb Q.t3_abbabb),
    .aug X.triples_res [.arg Q.contracted_intermediate, ein1 L.abcijk L.abcikj Q.contracted_intermediate, ein1 L.abcijk L.bacijk Q.contracted_intermediate, ein1 L.abcijk L.bacikj Q.contracted_intermediate],
    set1 X.contracted_intermediate (ein4 L.mlde L.dk L.al L.ebcijm L.abcijk Q.g_bbbb_oaoavava Q.t1_bb Q.t1_bb Q.t3_bbbbbb),
    .aug X.triples_res [.arg Q.contracted_intermediate, ein1 L.abcijk L.abcikj Q.contracted_intermediate, ein1 L.abcijk L.bacijk Q.contracted_intermediate, ein1 L.abcijk L.bacikj Q.contracted_intermediate],
    set1 X.contracted_intermediate (ein4 L.mled L.dk L.cl L.eabmji L.abcijk Q.g_abab_oaoavava Q.t1_bb Q.t1_bb Q.t3_abbabb),
    .aug X.triples_res [.arg Q.contracted_intermediate, ein1 L.abcijk L.abcikj Q.contracted_intermediate],
    set1 X.contracted_intermediate (ein4 L.mlde L.dk L.cl L.eabijm L.abcijk Q.g_bbbb_oaoavava Q.t1_bb Q.t1_bb Q.t3_bbbbbb),
    .aug X.triples_res [.arg Q.contracted_intermediate, ein1 L.abcijk L.abcikj Q.contracted_intermediate],
    aug1 X.triples_res (ein4 L.mlde L.dj L.ei L.abckml L.abcijk Q.g_bbbb_oaoavava Q.t1_bb Q.t1_bb Q.t3_bbbbbb),
    set1 X.contracted_intermediate (ein4 L.mled L.di L.al L.ebcmkj L.abcijk Q.g_abab_oaoavava Q.t1_bb Q.t1_bb Q.t3_abbabb),
    .aug X.triples_res [.arg Q.contracted_intermediate, ein1 L.abcijk L.bacijk Q.contracted_intermediate],
    set1 X.contracted_intermediate (ein4 L.mlde L.di L.al L.ebcjkm L.abcijk Q.g_bbbb_oaoavava Q.t1_bb Q.t1_bb Q.t3_bbbbbb),
    .aug X.triples_res [.arg Q.contracted_intermediate, ein1 L.abcijk L.bacijk Q.contracted_intermediate],
    aug1 X.triples_res (ein4 L.mled L.di L.cl L.eabmkj L.abcijk Q.g_abab_oaoavava Q.t1_bb Q.t1_bb Q.t3_abbabb),
    aug1 X.triples_res (ein4 L.mlde L.di L.cl L.eabjkm L.abcijk Q.g_bbbb_oaoavava Q.t1_bb Q.t1_bb Q.t3_bbbbbb),
    set1 X.contracted_intermediate (ein4 L.mlde L.al L.bm L.decijk L.abcijk Q.g_bbbb_oaoavava Q.t1_bb Q.t1_bb Q.t3_bbbbbb),
    .aug X.triples_res [.arg Q.contracted_intermediate, ein1 L.abcijk L.acbijk Q.contracted_intermediate],
    aug1 X.triples_res (ein4 L.mlde L.bl L.cm L.deaijk L.abcijk Q.g_bbbb_oaoavava Q.t1_bb Q.t1_bb Q.t3_bbbbbb),
    set1 X.contracted_intermediate (ein5 L.mlde L.dk L.ej L.al L.bcim L.abcijk Q.g_bbbb_oaoavava Q.t1_bb Q.t1_bb Q.t1_bb Q.t2_bbbb),
    .aug X.triples_res [.arg Q.contracted_intermediate, ein1 L.abcijk L.abcjik Q.contracted_intermediate, ein1 L.abcijk L.bacijk Q.contracted_intermediate, ein1 L.abcijk L.bacjik Q.contracted_intermediate],
    set1 X.contracted_intermediate (ein5 L.mlde L.dk L.ej L.cl L.abim L.abcijk Q.g_bbbb_oaoavava Q.t1_bb Q.t1_bb Q.t1_bb Q.t2_bbbb),
    .aug X.triples_res [.arg Q.contracted_intermediate, ein1 L.abcijk L.abcjik Q.contracted_intermediate],
    set1 X.contracted_intermediate (ein5 L.mlde L.dk L.al L.bm L.ecij L.abcijk Q.g_bbbb_oaoavava Q.t1_bb Q.t1_bb Q.t1_bb Q.t2_bbbb),
    .aug X.triples_res [.arg Q.contracted_intermediate, ein1 L.abcijk L.abcikj Q.contracted_intermediate, ein1 L.abcijk L.acbijk Q.contracted_intermediate, ein1 L.abcijk L.acbikj Q.contracted_intermediate],
    set1 X.contracted_intermediate (ein5 L.mlde L.dk L.bl L.cm L.eaij L.abcijk Q.g_bbbb_oaoavava Q.t1_bb Q.t1_bb Q.t1_bb Q.t2_bbbb),
    .aug X.triples_res [.arg Q.contracted_intermediate, ein1 L.abcijk L.abcikj Q.contracted_intermediate],
    set1 X.contracted_intermediate (ein5 L.mlde L.dj L.ei L.al L.bckm L.abcijk Q.g_bbbb_oaoavava Q.t1_bb Q.t1_bb Q.t1_bb Q.t2_bbbb),
    .aug X.triples_res [.arg Q.contracted_intermediate, ein1 L.abcijk L.bacijk Q.contracted_intermediate],
    aug1 X.triples_res (ein5 L.mlde L.dj L.ei L.cl L.abkm L.abcijk Q.g_bbbb_oaoavava Q.t1_bb Q.t1_bb Q.t1_bb Q.t2_bbbb),
    set1 X.contracted_intermediate (ein5 L.mlde L.di L.al L.bm L.ecjk L.abcijk Q.g_bbbb_oaoavava Q.t1_bb Q.t1_bb Q.t1_bb Q.t2_bbbb),
    .aug X.triples_res [.arg Q.contracted_intermediate, ein1 L.abcijk L.acbijk Q.contracted_intermediate],
    aug1 X.triples_res (ein5 L.mlde L.di L.bl L.cm L.eajk L.abcijk Q.g_bbbb_oaoavava Q.t1_bb Q.t1_bb Q.t1_bb Q.t2_bbbb)]
  ret := [Q.triples_res]

end Verif.Shape.Prog
