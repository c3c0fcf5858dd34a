import Verif.Shape.Names

/-!
# Shape programs of ccdq_resids.py (generated by tools/shapegen.py)

Every statement of the functions with the subscripts and operands as written; see `Verif.Shape.Core`.
-/

set_option maxRecDepth 100000

namespace Verif.Shape.Prog

open Verif.Shape

/-- `ccdq_resids.py` 3-104: `ccdq_t2_aaaa_residual`; 42 einsum calls. -/
def ccdq_resids_ccdq_t2_aaaa_residual : Fn where
  params := [X.f_aa, X.t2_aaaa, X.g_aaaa, X.g_abab, X.t2_abab, X.t4_aaaaaaaa, X.t4_aaabaaab, X.g_bbbb, X.t4_aabbaabb]
  body := [
    set1 X.contracted_intermediate (ein2 L.kj L.abik L.abij Q.f_aa_oaoa Q.t2_aaaa),
    .set X.doubles_res [.arg Q.contracted_intermediate, ein1 L.abij L.abji Q.contracted_intermediate],
    set1 X.contracted_intermediate (ein2 L.ac L.cbij L.abij Q.f_aa_vava Q.t2_aaaa),
    .aug X.doubles_res [.arg Q.contracted_intermediate, ein1 L.abij L.baij Q.contracted_intermediate],
    aug1 X.doubles_res (ein1 L.abij L.abij Q.g_aaaa_vavaoaoa),
    aug1 X.doubles_res (ein2 L.lkij L.ablk L.abij Q.g_aaaa_oaoaoaoa Q.t2_aaaa),
    set1 X.contracted_intermediate (ein2 L.kacj L.cbik L.abij Q.g_aaaa_oavavaoa Q.t2_aaaa),
    .aug X.doubles_res [.arg Q.contracted_intermediate, ein1 L.abij L.abji Q.contracted_intermediate, ein1 L.abij L.baij Q.contracted_intermediate, ein1 L.abij L.baji Q.contracted_intermediate],
    set1 X.contracted_intermediate (ein2 L.akjc L.bcik L.abij Q.g_abab_vaoaoava Q.t2_abab),
    .aug X.doubles_res [.arg Q.contracted_intermediate, ein1 L.abij L.abji Q.contracted_intermediate, ein1 L.abij L.baij Q.contracted_intermediate, ein1 L.abij L.baji Q.contracted_intermediate],
    aug1 X.doubles_res (ein2 L.abcd L.cdij L.abij Q.g_aaaa_vavavava Q.t2_aaaa),
    aug1 X.doubles_res (ein2 L.lkcd L.cdabijlk L.abij Q.g_aaaa_oaoavava Q.t4_aaaaaaaa_xxxxxxxx),
    aug1 X.doubles_res (ein2 L.lkcd L.cbadijlk L.abij Q.g_abab_oaoavava Q.t4_aaabaaab_xxxxxxxx),
    aug1 X.doubles_res (ein2 L.klcd L.cbadijkl L.abij Q.g_abab_oaoavava Q.t4_aaabaaab_xxxxxxxx),
    aug1 X.doubles_res (ein2 L.lkdc L.bdacijlk L.abij Q.g_abab_oaoavava Q.t4_aaabaaab_xxxxxxxx),
    aug1 X.doubles_res (ein2 L.kldc L.bdacijkl L.abij Q.g_abab_oaoavava Q.t4_aaabaaab_xxxxxxxx),
    aug1 X.doubles_res (ein2 L.lkcd L.abcdijlk L.abij Q.g_bbbb_oaoavava Q.t4_aabbaabb_xxxxxxxx),
    set1 X.contracted_intermediate (ein3 L.lkcd L.cdjk L.abil L.abij Q.g_aaaa_oaoavava Q.t2_aaaa Q.t2_aaaa),
    .aug X.doubles_res [.arg Q.contracted_intermediate, ein1 L.abij L.abji Q.contracted_intermediate],
    set1 X.contracted_intermediate (ein3 L.lkcd L.cdjk L.abil L.abij Q.g_abab_oaoavava Q.t2_abab Q.t2_aaaa),
    .aug X.doubles_res [.arg Q.contracted_intermediate, ein1 L.abij L.abji Q.contracted_intermediate],
    set1 X.contracted_intermediate (ein3 L.lkdc L.dcjk L.abil L.abij Q.g_abab_oaoavava Q.t2_abab Q.t2_aaaa),
    .aug X.doubles_res [.arg Q.contracted_intermediate, ein1 L.abij L.abji Q.contracted_intermediate],
    aug1 X.doubles_res (ein3 L.lkcd L.cdij L.ablk L.abij Q.g_aaaa_oaoavava Q.t2_aaaa Q.t2_aaaa),
    aug1 X.doubles_res (ein3 L.lkcd L.calk L.dbij L.abij Q.g_aaaa_oaoavava Q.t2_aaaa Q.t2_aaaa),
    aug1 X.doubles_res (ein3 L.lkdc L.aclk L.dbij L.abij Q.g_abab_oaoavava Q.t2_abab Q.t2_aaaa),
    aug1 X.doubles_res (ein3 L.kldc L.ackl L.dbij L.abij Q.g_abab_oaoavava Q.t2_abab Q.t2_aaaa),
    set1 X.contracted_intermediate (ein3 L.lkcd L.cajk L.dbil L.abij Q.g_aaaa_oaoavava Q.t2_aaaa Q.t2_aaaa),
    .aug X.doubles_res [.arg Q.contracted_intermediate, ein1 L.abij L.abji Q.contracted_intermediate],
    set1 X.contracted_intermediate (ein3 L.klcd L.cajk L.bdil L.abij Q.g_abab_oaoavava Q.t2_aaaa Q.t2_abab),
    .aug X.doubles_res [.arg Q.contracted_intermediate, ein1 L.abij L.abji Q.contracted_intermediate],
    set1 X.contracted_intermediate (ein3 L.lkdc L.acjk L.dbil L.abij Q.g_abab_oaoavava Q.t2_abab Q.t2_aaaa),
    .aug X.doubles_res [.arg Q.contracted_intermediate, ein1 L.abij L.abji Q.contracted_intermediate],
    set1 X.contracted_intermediate (ein3 L.lkcd L.acjk L.bdil L.abij Q.g_bbbb_oaoavava Q.t2_abab Q.t2_abab),
    .aug X.doubles_res [.arg Q.contracted_intermediate, ein1 L.abij L.abji Q.contracted_intermediate],
    aug1 X.doubles_res (ein3 L.lkcd L.caij L.dblk L.abij Q.g_aaaa_oaoavava Q.t2_aaaa Q.t2_aaaa),
    aug1 X.doubles_res (ein3 L.lkcd L.caij L.bdlk L.abij Q.g_abab_oaoavava Q.t2_aaaa Q.t2_abab),
    aug1 X.doubles_res (ein3 L.klcd L.caij L.bdkl L.abij Q.g_abab_oaoavava Q.t2_aaaa Q.t2_abab)]
  ret := [Q.doubles_res]

/-- `ccdq_resids.py` 107-242: `ccdq_t2_abab_residual`; 42 einsum calls. -/
def ccdq_resids_ccdq_t2_abab_residual : Fn where
  params := [X.f_bb, X.t2_abab, X.f_aa, X.g_abab, X.t2_aaaa, X.g_bbbb, X.g_aaaa, X.t2_bbbb, X.t4_aaabaaab, X.t4_aabbaabb, X.t4_abbbabbb]
  body := [
    set1 X.doubles_res (ein2 L.kj L.abik L.abij Q.f_bb_oaoa Q.t2_abab),
    aug1 X.doubles_res (ein2 L.ki L.abkj L.abij Q.f_aa_oaoa Q.t2_abab),
    aug1 X.doubles_res (ein2 L.ac L.cbij L.abij Q.f_aa_vava Q.t2_abab),
    aug1 X.doubles_res (ein2 L.bc L.acij L.abij Q.f_bb_vava Q.t2_abab),
    aug1 X.doubles_res (ein1 L.abij L.abij Q.g_abab_vavaoaoa),
    aug1 X.doubles_res (ein2 L.lkij L.ablk L.abij Q.g_abab_oaoaoaoa Q.t2_abab),
    aug1 X.doubles_res (ein2 L.klij L.abkl L.abij Q.g_abab_oaoaoaoa Q.t2_abab),
    aug1 X.doubles_res (ein2 L.akcj L.cbik L.abij Q.g_abab_vaoavaoa Q.t2_abab),
    aug1 X.doubles_res (ein2 L.kbcj L.caik L.abij Q.g_abab_oavavaoa Q.t2_aaaa),
    aug1 X.doubles_res (ein2 L.kbcj L.acik L.abij Q.g_bbbb_oavavaoa Q.t2_abab),
    aug1 X.doubles_res (ein2 L.kaci L.cbkj L.abij Q.g_aaaa_oavavaoa Q.t2_abab),
    aug1 X.doubles_res (ein2 L.akic L.cbjk L.abij Q.g_abab_vaoaoava Q.t2_bbbb),
    aug1 X.doubles_res (ein2 L.kbic L.ackj L.abij Q.g_abab_oavaoava Q.t2_abab),
    aug1 X.doubles_res (ein2 L.abcd L.cdij L.abij Q.g_abab_vavavava Q.t2_abab),
    aug1 X.doubles_res (ein2 L.abdc L.dcij L.abij Q.g_abab_vavavava Q.t2_abab),
    aug1 X.doubles_res (ein2 L.lkcd L.cdabiklj L.abij Q.g_aaaa_oaoavava Q.t4_aaabaaab_xxxxxxxx),
    aug1 X.doubles_res (ein2 L.lkcd L.cadbiljk L.abij Q.g_abab_oaoavava Q.t4_aabbaabb_xxxxxxxx),
    aug1 X.doubles_res (ein2 L.klcd L.cadbiklj L.abij Q.g_abab_oaoavava Q.t4_aabbaabb_xxxxxxxx),
    aug1 X.doubles_res (ein2 L.lkdc L.adcbiljk L.abij Q.g_abab_oaoavava Q.t4_aabbaabb_xxxxxxxx),
    aug1 X.doubles_res (ein2 L.kldc L.adcbiklj L.abij Q.g_abab_oaoavava Q.t4_aabbaabb_xxxxxxxx),
    aug1 X.doubles_res (ein2 L.lkcd L.adcbijlk L.abij Q.g_bbbb_oaoavava Q.t4_abbbabbb_xxxxxxxx),
    aug1 X.doubles_res (ein3 L.klcd L.cdkj L.abil L.abij Q.g_abab_oaoavava Q.t2_abab Q.t2_abab),
    aug1 X.doubles_res (ein3 L.kldc L.dckj L.abil L.abij Q.g_abab_oaoavava Q.t2_abab Q.t2_abab),
    aug1 X.doubles_res (ein3 L.lkcd L.cdjk L.abil L.abij Q.g_bbbb_oaoavava Q.t2_bbbb Q.t2_abab),
    aug1 X.doubles_res (ein3 L.lkcd L.cdik L.ablj L.abij Q.g_aaaa_oaoavava Q.t2_aaaa Q.t2_abab),
    aug1 X.doubles_res (ein3 L.lkcd L.cdik L.ablj L.abij Q.g_abab_oaoavava Q.t2_abab Q.t2_abab),
    aug1 X.doubles_res (ein3 L.lkdc L.dcik L.ablj L.abij Q.g_abab_oaoavava Q.t2_abab Q.t2_abab),
    aug1 X.doubles_res (ein3 L.lkcd L.cdij L.ablk L.abij Q.g_abab_oaoavava Q.t2_abab Q.t2_abab),
    aug1 X.doubles_res (ein3 L.klcd L.cdij L.abkl L.abij Q.g_abab_oaoavava Q.t2_abab Q.t2_abab),
    aug1 X.doubles_res (ein3 L.lkdc L.dcij L.ablk L.abij Q.g_abab_oaoavava Q.t2_abab Q.t2_abab),
    aug1 X.doubles_res (ein3 L.kldc L.dcij L.abkl L.abij Q.g_abab_oaoavava Q.t2_abab Q.t2_abab),
    aug1 X.doubles_res (ein3 L.lkcd L.calk L.dbij L.abij Q.g_aaaa_oaoavava Q.t2_aaaa Q.t2_abab),
    aug1 X.doubles_res (ein3 L.lkdc L.aclk L.dbij L.abij Q.g_abab_oaoavava Q.t2_abab Q.t2_abab),
    aug1 X.doubles_res (ein3 L.kldc L.ackl L.dbij L.abij Q.g_abab_oaoavava Q.t2_abab Q.t2_abab),
    aug1 X.doubles_res (ein3 L.kldc L.ackj L.dbil L.abij Q.g_abab_oaoavava Q.t2_abab Q.t2_abab),
    aug1 X.doubles_res (ein3 L.lkcd L.caik L.dblj L.abij Q.g_aaaa_oaoavava Q.t2_aaaa Q.t2_abab),
    aug1 X.doubles_res (ein3 L.klcd L.caik L.dbjl L.abij Q.g_abab_oaoavava Q.t2_aaaa Q.t2_bbbb),
    aug1 X.doubles_res (ein3 L.lkdc L.acik L.dblj L.abij Q.g_abab_oaoavava Q.t2_abab Q.t2_abab),
    aug1 X.doubles_res (ein3 L.lkcd L.acik L.dbjl L.abij Q.g_bbbb_oaoavava Q.t2_abab Q.t2_bbbb),
    aug1 X.doubles_res (ein3 L.lkdc L.acij L.dblk L.abij Q.g_abab_oaoavava Q.t2_abab Q.t2_abab),
    aug1 X.doubles_res (ein3 L.kldc L.acij L.dbkl L.abij Q.g_abab_oaoavava Q.t2_abab Q.t2_abab),
    aug1 X.doubles_res (ein3 L.lkcd L.acij L.dblk L.abij Q.g_bbbb_oaoavava Q.t2_abab Q.t2_bbbb)]
  ret := [Q.doubles_res]

/-- `ccdq_resids.py` 245-346: `ccdq_t2_bbbb_residual`; 42 einsum calls. -/
def ccdq_resids_ccdq_t2_bbbb_residual : Fn where
  params := [X.f_bb, X.t2_bbbb, X.g_bbbb, X.g_abab, X.t2_abab, X.g_aaaa, X.t4_aabbaabb, X.t4_abbbabbb, X.t4_bbbbbbbb]
  body := [
    set1 X.contracted_intermediate (ein2 L.kj L.abik L.abij Q.f_bb_oaoa Q.t2_bbbb),
    .set X.doubles_res [.arg Q.contracted_intermediate, ein1 L.abij L.abji Q.contracted_intermediate],
    set1 X.contracted_intermediate (ein2 L.ac L.cbij L.abij Q.f_bb_vava Q.t2_bbbb),
    .aug X.doubles_res [.arg Q.contracted_intermediate, ein1 L.abij L.baij Q.contracted_intermediate],
    aug1 X.doubles_res (ein1 L.abij L.abij Q.g_bbbb_vavaoaoa),
    aug1 X.doubles_res (ein2 L.lkij L.ablk L.abij Q.g_bbbb_oaoaoaoa Q.t2_bbbb),
    set1 X.contracted_intermediate (ein2 L.kacj L.cbki L.abij Q.g_abab_oavavaoa Q.t2_abab),
    .aug X.doubles_res [.arg Q.contracted_intermediate, ein1 L.abij L.abji Q.contracted_intermediate, ein1 L.abij L.baij Q.contracted_intermediate, ein1 L.abij L.baji Q.contracted_intermediate],
    set1 X.contracted_intermediate (ein2 L.kacj L.cbik L.abij Q.g_bbbb_oavavaoa Q.t2_bbbb),
    .aug X.doubles_res [.arg Q.contracted_intermediate, ein1 L.abij L.abji Q.contracted_intermediate, ein1 L.abij L.baij Q.contracted_intermediate, ein1 L.abij L.baji Q.contracted_intermediate],
    aug1 X.doubles_res (ein2 L.abcd L.cdij L.abij Q.g_bbbb_vavavava Q.t2_bbbb),
    aug1 X.doubles_res (ein2 L.lkcd L.cdablkij L.abij Q.g_aaaa_oaoavava Q.t4_aabbaabb_xxxxxxxx),
    aug1 X.doubles_res (ein2 L.lkcd L.cdabljik L.abij Q.g_abab_oaoavava Q.t4_abbbabbb_xxxxxxxx),
    aug1 X.doubles_res (ein2 L.klcd L.cdabkjli L.abij Q.g_abab_oaoavava Q.t4_abbbabbb_xxxxxxxx),
    aug1 X.doubles_res (ein2 L.lkdc L.dcabljik L.abij Q.g_abab_oaoavava Q.t4_abbbabbb_xxxxxxxx),
    aug1 X.doubles_res (ein2 L.kldc L.dcabkjli L.abij Q.g_abab_oaoavava Q.t4_abbbabbb_xxxxxxxx),
    aug1 X.doubles_res (ein2 L.lkcd L.cdabijlk L.abij Q.g_bbbb_oaoavava Q.t4_bbbbbbbb_xxxxxxxx),
    set1 X.contracted_intermediate (ein3 L.klcd L.cdkj L.abil L.abij Q.g_abab_oaoavava Q.t2_abab Q.t2_bbbb),
    .aug X.doubles_res [.arg Q.contracted_intermediate, ein1 L.abij L.abji Q.contracted_intermediate],
    set1 X.contracted_intermediate (ein3 L.kldc L.dckj L.abil L.abij Q.g_abab_oaoavava Q.t2_abab Q.t2_bbbb),
    .aug X.doubles_res [.arg Q.contracted_intermediate, ein1 L.abij L.abji Q.contracted_intermediate],
    set1 X.contracted_intermediate (ein3 L.lkcd L.cdjk L.abil L.abij Q.g_bbbb_oaoavava Q.t2_bbbb Q.t2_bbbb),
    .aug X.doubles_res [.arg Q.contracted_intermediate, ein1 L.abij L.abji Q.contracted_intermediate],
    aug1 X.doubles_res (ein3 L.lkcd L.cdij L.ablk L.abij Q.g_bbbb_oaoavava Q.t2_bbbb Q.t2_bbbb),
    aug1 X.doubles_res (ein3 L.lkcd L.calk L.dbij L.abij Q.g_abab_oaoavava Q.t2_abab Q.t2_bbbb),
    aug1 X.doubles_res (ein3 L.klcd L.cakl L.dbij L.abij Q.g_abab_oaoavava Q.t2_abab Q.t2_bbbb),
    aug1 X.doubles_res (ein3 L.lkcd L.calk L.dbij L.abij Q.g_bbbb_oaoavava Q.t2_bbbb Q.t2_bbbb),
    set1 X.contracted_intermediate (ein3 L.lkcd L.cakj L.dbli L.abij Q.g_aaaa_oaoavava Q.t2_abab Q.t2_abab),
    .aug X.doubles_res [.arg Q.contracted_intermediate, ein1 L.abij L.abji Q.contracted_intermediate],
    set1 X.contracted_intermediate (ein3 L.klcd L.cakj L.dbil L.abij Q.g_abab_oaoavava Q.t2_abab Q.t2_bbbb),
    .aug X.doubles_res [.arg Q.contracted_intermediate, ein1 L.abij L.abji Q.contracted_intermediate],
    set1 X.contracted_intermediate (ein3 L.lkdc L.cajk L.dbli L.abij Q.g_abab_oaoavava Q.t2_bbbb Q.t2_abab),
    .aug X.doubles_res [.arg Q.contracted_intermediate, ein1 L.abij L.abji Q.contracted_intermediate],
    set1 X.contracted_intermediate (ein3 L.lkcd L.cajk L.dbil L.abij Q.g_bbbb_oaoavava Q.t2_bbbb Q.t2_bbbb),
    .aug X.doubles_res [.arg Q.contracted_intermediate, ein1 L.abij L.abji Q.contracted_intermediate],
    aug1 X.doubles_res (ein3 L.lkdc L.caij L.dblk L.abij Q.g_abab_oaoavava Q.t2_bbbb Q.t2_abab),
    aug1 X.doubles_res (ein3 L.kldc L.caij L.dbkl L.abij Q.g_abab_oaoavava Q.t2_bbbb Q.t2_abab),
    aug1 X.doubles_res (ein3 L.lkcd L.caij L.dblk L.abij Q.g_bbbb_oaoavava Q.t2_bbbb Q.t2_bbbb)]
  ret := [Q.doubles_res]

/-- `ccdq_resids.py` 349-1418: `ccdq_t4_aaaaaaaa_residual`; 872 einsum calls. -/
def ccdq_resids_ccdq_t4_aaaaaaaa_residual : Fn where
  params := [X.f_aa, X.t4_aaaaaaaa, X.g_aaaa, X.g_abab, X.t4_aaabaaab, X.t2_aaaa, X.t2_abab, X.g_bbbb]
  body := [
    set1 X.contracted_intermediate (ein2 L.ml L.abcdijkm L.abcdijkl Q.f_aa_oaoa Q.t4_aaaaaaaa_xxxxxxxx),
    .set X.quadruples_res [.arg Q.contracted_intermediate, ein1 L.abcdijkl L.abcdijlk Q.contracted_intermediate],
    set1 X.contracted_intermediate (ein2 L.mj L.abcdiklm L.abcdijkl Q.f_aa_oaoa Q.t4_aaaaaaaa_xxxxxxxx),
    .aug X.quadruples_res [.arg Q.contracted_intermediate, ein1 L.abcdijkl L.abcdjikl Q.contracted_intermediate],
    set1 X.contracted_intermediate (ein2 L.ae L.ebcdijkl L.abcdijkl Q.f_aa_vava Q.t4_aaaaaaaa_xxxxxxxx),
    .aug X.quadruples_res [.arg Q.contracted_intermediate, ein1 L.abcdijkl L.bacdijkl Q.contracted_intermediate],
    set1 X.contracted_intermediate (ein2 L.ce L.eabdijkl L.abcdijkl Q.f_aa_vava Q.t4_aaaaaaaa_xxxxxxxx),
    .aug X.quadruples_res [.arg Q.contracted_intermediate, ein1 L.abcdijkl L.abdcijkl Q.contracted_intermediate],
    set1 X.contracted_intermediate (ein2 L.nmkl L.abcdijnm L.abcdijkl Q.g_aaaa_oaoaoaoa Q.t4_aaaaaaaa_xxxxxxxx),
    .aug X.quadruples_res [.arg Q.contracted_intermediate, ein1 L.abcdijkl L.abcdikjl Q.contracted_intermediate],
    set1 X.contracted_intermediate (ein2 L.nmil L.abcdjknm L.abcdijkl Q.g_aaaa_oaoaoaoa Q.t4_aaaaaaaa_xxxxxxxx),
    .aug X.quadruples_res [.arg Q.contracted_intermediate, ein1 L.abcdijkl L.abcdijlk Q.contracted_intermediate],
    set1 X.contracted_intermediate (ein2 L.nmjk L.abcdilnm L.abcdijkl Q.g_aaaa_oaoaoaoa Q.t4_aaaaaaaa_xxxxxxxx),
    .aug X.quadruples_res [.arg Q.contracted_intermediate, ein1 L.abcdijkl L.abcdkjil Q.contracted_intermediate],
    set1 X.contracted_intermediate (ein2 L.mael L.ebcdijkm L.abcdijkl Q.g_aaaa_oavavaoa Q.t4_aaaaaaaa_xxxxxxxx),
    .aug X.quadruples_res [.arg Q.contracted_intermediate, ein1 L.abcdijkl L.abcdijlk Q.contracted_intermediate, ein1 L.abcdijkl L.bacdijkl Q.contracted_intermediate, ein1 L.abcdijkl L.bacdijlk Q.contracted_intermediate],
    set1 X.contracted_intermediate (ein2 L.amle L.dbceijkm L.abcdijkl Q.g_abab_vaoaoava Q.t4_aaabaaab_xxxxxxxx),
    .aug X.quadruples_res [.arg Q.contracted_intermediate, ein1 L.abcdijkl L.abcdijlk Q.contracted_intermediate, ein1 L.abcdijkl L.bacdijkl Q.contracted_intermediate, ein1 L.abcdijkl L.bacdijlk Q.contracted_intermediate],
    set1 X.contracted_intermediate (ein2 L.maej L.ebcdiklm L.abcdijkl Q.g_aaaa_oavavaoa Q.t4_aaaaaaaa_xxxxxxxx),
    .aug X.quadruples_res [.arg Q.contracted_intermediate, ein1 L.abcdijkl L.abcdjikl Q.contracted_intermediate, ein1 L.abcdijkl L.bacdijkl Q.contracted_intermediate, ein1 L.abcdijkl L.bacdjikl Q.contracted_intermediate],
    set1 X.contracted_intermediate (ein2 L.amje L.dbceiklm L.abcdijkl Q.g_abab_vaoaoava Q.t4_aaabaaab_xxxxxxxx),
    .aug X.quadruples_res [.arg Q.contracted_intermediate, ein1 L.abcdijkl L.abcdjikl Q.contracted_intermediate, ein1 L.abcdijkl L.bacdijkl Q.contracted_intermediate, ein1 L.abcdijkl L.bacdjikl Q.contracted_intermediate],
    set1 X.contracted_intermediate (ein2 L.mcel L.eabdijkm L.abcdijkl Q.g_aaaa_oavavaoa Q.t4_aaaaaaaa_xxxxxxxx),
    .aug X.quadruples_res [.arg Q.contracted_intermediate, ein1 L.abcdijkl L.abcdijlk Q.contracted_intermediate, ein1 L.abcdijkl L.abdcijkl Q.contracted_intermediate, ein1 L.abcdijkl L.abdcijlk Q.contracted_intermediate],
    set1 X.contracted_intermediate (ein2 L.cmle L.dabeijkm L.abcdijkl Q.g_abab_vaoaoava Q.t4_aaabaaab_xxxxxxxx),
    .aug X.quadruples_res [.arg Q.contracted_intermediate, ein1 L.abcdijkl L.abcdijlk Q.contracted_intermediate, ein1 L.abcdijkl L.abdcijkl Q.contracted_intermediate, ein1 L.abcdijkl L.abdcijlk Q.contracted_intermediate],
    set1 X.contracted_intermediate (ein2 L.mcej L.eabdiklm L.abcdijkl Q.g_aaaa_oavavaoa Q.t4_aaaaaaaa_xxxxxxxx),
    .aug X.quadruples_res [.arg Q.contracted_intermediate, ein1 L.abcdijkl L.abcdjikl Q.contracted_intermediate, ein1 L.abcdijkl L.abdcijkl Q.contracted_intermediate, ein1 L.abcdijkl L.abdcjikl Q.contracted_intermediate],
    set1 X.contracted_intermediate (ein2 L.cmje L.dabeiklm L.abcdijkl Q.g_abab_vaoaoava Q.t4_aaabaaab_xxxxxxxx),
    .aug X.quadruples_res [.arg Q.contracted_intermediate, ein1 L.abcdijkl L.abcdjikl Q.contracted_intermediate, ein1 L.abcdijkl L.abdcijkl Q.contracted_intermediate, ein1 L.abcdijkl L.abdcjikl Q.contracted_intermediate],
    set1 X.contracted_intermediate (ein2 L.abef L.efcdijkl L.abcdijkl Q.g_aaaa_vavavava Q.t4_aaaaaaaa_xxxxxxxx),
    .aug X.quadruples_res [.arg Q.contracted_intermediate, ein1 L.abcdijkl L.acbdijkl Q.contracted_intermediate],
    set1 X.contracted_intermediate (ein2 L.adef L.efbcijkl L.abcdijkl Q.g_aaaa_vavavava Q.t4_aaaaaaaa_xxxxxxxx),
    .aug X.quadruples_res [.arg Q.contracted_intermediate, ein1 L.abcdijkl L.bacdijkl Q.contracted_intermediate],
    set1 X.contracted_intermediate (ein2 L.bcef L.efadijkl L.abcdijkl Q.g_aaaa_vavavava Q.t4_aaaaaaaa_xxxxxxxx),
    .aug X.quadruples_res [.arg Q.contracted_intermediate, ein1 L.abcdijkl L.adcbijkl Q.contracted_intermediate],
    set1 X.contracted_intermediate (ein3 L.nmef L.eflm L.abcdijkn L.abcdijkl Q.g_aaaa_oaoavava Q.t2_aaaa Q.t4_aaaaaaaa_xxxxxxxx),
    .aug X.quadruples_res [.arg Q.contracted_intermediate, ein1 L.abcdijkl L.abcdijlk Q.contracted_intermediate],
    set1 X.contracted_intermediate (ein3 L.nmef L.eflm L.abcdijkn L.abcdijkl Q.g_abab_oaoavava Q.t2_abab Q.t4_aaaaaaaa_xxxxxxxx),
    .aug X.quadruples_res [.arg Q.contracted_intermediate, ein1 L.abcdijkl L.abcdijlk Q.contracted_intermediate],
    set1 X.contracted_intermediate (ein3 L.nmfe L.felm L.abcdijkn L.abcdijkl Q.g_abab_oaoavava Q.t2_abab Q.t4_aaaaaaaa_xxxxxxxx),
    .aug X.quadruples_res [.arg Q.contracted_intermediate, ein1 L.abcdijkl L.abcdijlk Q.contracted_intermediate],
    set1 X.contracted_intermediate (ein3 L.nmef L.efjm L.abcdikln L.abcdijkl Q.g_aaaa_oaoavava Q.t2_aaaa Q.t4_aaaaaaaa_xxxxxxxx),
    .aug X.quadruples_res [.arg Q.contracted_intermediate, ein1 L.abcdijkl L.abcdjikl Q.contracted_intermediate],
    set1 X.contracted_intermediate (ein3 L.nmef L.efjm L.abcdikln L.abcdijkl Q.g_abab_oaoavava Q.t2_abab Q.t4_aaaaaaaa_xxxxxxxx),
    .aug X.quadruples_res [.arg Q.contracted_intermediate, ein1 L.abcdijkl L.abcdjikl Q.contracted_intermediate],
    set1 X.contracted_intermediate (ein3 L.nmfe L.fejm L.abcdikln L.abcdijkl Q.g_abab_oaoavava Q.t2_abab Q.t4_aaaaaaaa_xxxxxxxx),
    .aug X.quadruples_res [.arg Q.contracted_intermediate, ein1 L.abcdijkl L.abcdjikl Q.contracted_intermediate],
    set1 X.contracted_intermediate (ein3 L.nmef L.efkl L.abcdijnm L.abcdijkl Q.g_aaaa_oaoavava Q.t2_aaaa Q.t4_aaaaaaaa_xxxxxxxx),
    .aug X.quadruples_res [.arg Q.contracted_intermediate, ein1 L.abcdijkl L.abcdikjl Q.contracted_intermediate],
    set1 X.contracted_intermediate (ein3 L.nmef L.efil L.abcdjknm L.abcdijkl Q.g_aaaa_oaoavava Q.t2_aaaa Q.t4_aaaaaaaa_xxxxxxxx),
    .aug X.quadruples_res [.arg Q.contracted_intermediate, ein1 L.abcdijkl L.abcdijlk Q.contracted_intermediate],
    set1 X.contracted_intermediate (ein3 L.nmef L.efjk L.abcdilnm L.abcdijkl Q.g_aaaa_oaoavava Q.t2_aaaa Q.t4_aaaaaaaa_xxxxxxxx),
    .aug X.quadruples_res [.arg Q.contracted_intermediate, ein1 L.abcdijkl L.abcdkjil Q.contracted_intermediate],
    set1 X.contracted_intermediate (ein3 L.nmef L.eanm L.fbcdijkl L.abcdijkl Q.g_aaaa_oaoavava Q.t2_aaaa Q.t4_aaaaaaaa_xxxxxxxx),
    .aug X.quadruples_res [.arg Q.contracted_intermediate, ein1 L.abcdijkl L.bacdijkl Q.contracted_intermediate],
    set1 X.contracted_intermediate (ein3 L.nmfe L.aenm L.fbcdijkl L.abcdijkl Q.g_abab_oaoavava Q.t2_abab Q.t4_aaaaaaaa_xxxxxxxx),
    .aug X.quadruples_res [.arg Q.contracted_intermediate, ein1 L.abcdijkl L.bacdijkl Q.contracted_intermediate],
    set1 X.contracted_intermediate (ein3 L.mnfe L.aemn L.fbcdijkl L.abcdijkl Q.g_abab_oaoavava Q.t2_abab Q.t4_aaaaaaaa_xxxxxxxx),
    .aug X.quadruples_res [.arg Q.contracted_intermediate, ein1 L.abcdijkl L.bacdijkl Q.contracted_intermediate],
    set1 X.contracted_intermediate (ein3 L.nmef L.ealm L.fbcdijkn L.abcdijkl Q.g_aaaa_oaoavava Q.t2_aaaa Q.t4_aaaaaaaa_xxxxxxxx),
    .aug X.quadruples_res [.arg Q.contracted_intermediate, ein1 L.abcdijkl L.abcdijlk Q.contracted_intermediate, ein1 L.abcdijkl L.bacdijkl Q.contracted_intermediate, ein1 L.abcdijkl L.bacdijlk Q.contracted_intermediate],
    set1 X.contracted_intermediate (ein3 L.mnef L.ealm L.dbcfijkn L.abcdijkl Q.g_abab_oaoavava Q.t2_aaaa Q.t4_aaabaaab_xxxxxxxx),
    .aug X.quadruples_res [.arg Q.contracted_intermediate, ein1 L.abcdijkl L.abcdijlk Q.contracted_intermediate, ein1 L.abcdijkl L.bacdijkl Q.contracted_intermediate, ein1 L.abcdijkl L.bacdijlk Q.contracted_intermediate],
    set1 X.contracted_intermediate (ein3 L.nmfe L.aelm L.fbcdijkn L.abcdijkl Q.g_abab_oaoavava Q.t2_abab Q.t4_aaaaaaaa_xxxxxxxx),
    .aug X.quadruples_res [.arg Q.contracted_intermediate, ein1 L.abcdijkl L.abcdijlk Q.contracted_intermediate, ein1 L.abcdijkl L.bacdijkl Q.contracted_intermediate, ein1 L.abcdijkl L.bacdijlk Q.contracted_intermediate],
    set1 X.contracted_intermediate (ein3 L.nmef L.aelm L.dbcfijkn L.abcdijkl Q.g_bbbb_oaoavava Q.t2_abab Q.t4_aaabaaab_xxxxxxxx),
    .aug X.quadruples_res [.arg Q.contracted_intermediate, ein1 L.abcdijkl L.abcdijlk Q.contracted_intermediate, ein1 L.abcdijkl L.bacdijkl Q.contracted_intermediate, ein1 L.abcdijkl L.bacdijlk Q.contracted_intermediate],
    set1 X.contracted_intermediate (ein3 L.nmef L.eajm L.fbcdikln L.abcdijkl Q.g_aaaa_oaoavava Q.t2_aaaa Q.t4_aaaaaaaa_xxxxxxxx),
    .aug X.quadruples_res [.arg Q.contracted_intermediate, ein1 L.abcdijkl L.abcdjikl Q.contracted_intermediate, ein1 L.abcdijkl L.bacdijkl Q.contracted_intermediate, ein1 L.abcdijkl L.bacdjikl Q.contracted_intermediate],
    set1 X.contracted_intermediate (ein3 L.mnef L.eajm L.dbcfikln L.abcdijkl Q.g_abab_oaoavava Q.t2_aaaa Q.t4_aaabaaab_xxxxxxxx),
    .aug X.quadruples_res [.arg Q.contracted_intermediate, ein1 L.abcdijkl L.abcdjikl Q.contracted_intermediate, ein1 L.abcdijkl L.bacdijkl Q.contracted_intermediate, ein1 L.abcdijkl L.bacdjikl Q.contracted_intermediate],
    set1 X.contracted_intermediate (ein3 L.nmfe L.aejm L.fbcdikln L.abcdijkl Q.g_abab_oaoavava Q.t2_abab Q.t4_aaaaaaaa_xxxxxxxx),
    .aug X.quadruples_res [.arg Q.contracted_intermediate, ein1 L.abcdijkl L.abcdjikl Q.contracted_intermediate, ein1 L.abcdijkl L.bacdijkl Q.contracted_intermediate, ein1 L.abcdijkl L.bacdjikl Q.contracted_intermediate],
    set1 X.contracted_intermediate (ein3 L.nmef L.aejm L.dbcfikln L.abcdijkl Q.g_bbbb_oaoavava Q.t2_abab Q.t4_aaabaaab_xxxxxxxx),
    .aug X.quadruples_res [.arg Q.contracted_intermediate, ein1 L.abcdijkl L.abcdjikl Q.contracted_intermediate, ein1 L.abcdijkl L.bacdijkl Q.contracted_intermediate, ein1 L.abcdijkl L.bacdjikl Q.contracted_intermediate],
    set1 X.contracted_intermediate (ein3 L.nmef L.eakl L.fbcdijnm L.abcdijkl Q.g_aaaa_oaoavava Q.t2_aaaa Q.t4_aaaaaaaa_xxxxxxxx),
    .aug X.quadruples_res [.arg Q.contracted_intermediate, ein1 L.abcdijkl L.abcdikjl Q.contracted_intermediate, ein1 L.abcdijkl L.bacdijkl Q.contracted_intermediate, ein1 L.abcdijkl L.bacdikjl Q.contracted_intermediate],
    set1 X.contracted_intermediate (ein3 L.nmef L.eakl L.dbcfijnm L.abcdijkl Q.g_abab_oaoavava Q.t2_aaaa Q.t4_aaabaaab_xxxxxxxx),
    .aug X.quadruples_res [.arg Q.contracted_intermediate, ein1 L.abcdijkl L.abcdikjl Q.contracted_intermediate, ein1 L.abcdijkl L.bacdijkl Q.contracted_intermediate, ein1 L.abcdijkl L.bacdikjl Q.contracted_intermediate],
    set1 X.contracted_intermediate (ein3 L.mnef L.eakl L.dbcfijmn L.abcdijkl Q.g_abab_oaoavava Q.t2_aaaa Q.t4_aaabaaab_xxxxxxxx),
    .aug X.quadruples_res [.arg Q.contracted_intermediate, ein1 L.abcdijkl L.abcdikjl Q.contracted_intermediate, ein1 L.abcdijkl L.bacdijkl Q.contracted_intermediate, ein1 L.abcdijkl L.bacdikjl Q.contracted_intermediate],
    set1 X.contracted_intermediate (ein3 L.nmef L.eail L.fbcdjknm L.abcdijkl Q.g_aaaa_oaoavava Q.t2_aaaa Q.t4_aaaaaaaa_xxxxxxxx),
    .aug X.quadruples_res [.arg Q.contracted_intermediate, ein1 L.abcdijkl L.abcdijlk Q.contracted_intermediate, ein1 L.abcdijkl L.bacdijkl Q.contracted_intermediate, ein1 L.abcdijkl L.bacdijlk Q.contracted_intermediate],
    set1 X.contracted_intermediate (ein3 L.nmef L.eail L.dbcfjknm L.abcdijkl Q.g_abab_oaoavava Q.t2_aaaa Q.t4_aaabaaab_xxxxxxxx),
    .aug X.quadruples_res [.arg Q.contracted_intermediate, ein1 L.abcdijkl L.abcdijlk Q.contracted_intermediate, ein1 L.abcdijkl L.bacdijkl Q.contracted_intermediate, ein1 L.abcdijkl L.bacdijlk Q.contracted_intermediate],
    set1 X.contracted_intermediate (ein3 L.mnef L.eail L.dbcfjkmn L.abcdijkl Q.g_abab_oaoavava Q.t2_aaaa Q.t4_aaabaaab_xxxxxxxx),
    .aug X.quadruples_res [.arg Q.contracted_intermediate, ein1 L.abcdijkl L.abcdijlk Q.contracted_intermediate, ein1 L.abcdijkl L.bacdijkl Q.contracted_intermediate, ein1 L.abcdijkl L.bacdijlk Q.contracted_intermediate],
    set1 X.contracted_intermediate (ein3 L.nmef L.eajk L.fbcdilnm L.abcdijkl Q.g_aaaa_oaoavava Q.t2_aaaa Q.t4_aaaaaaaa_xxxxxxxx),
    .aug X.quadruples_res [.arg Q.contracted_intermediate, ein1 L.abcdijkl L.abcdkjil Q.contracted_intermediate, ein1 L.abcdijkl L.bacdijkl Q.contracted_intermediate, ein1 L.abcdijkl L.bacdkjil Q.contracted_intermediate],
    set1 X.contracted_intermediate (ein3 L.nmef L.eajk L.dbcfilnm L.abcdijkl Q.g_abab_oaoavava Q.t2_aaaa Q.t4_aaabaaab_xxxxxxxx),
    .aug X.quadruples_res [.arg Q.contracted_intermediate, ein1 L.abcdijkl L.abcdkjil Q.contracted_intermediate, ein1 L.abcdijkl L.bacdijkl Q.contracted_intermediate, ein1 L.abcdijkl L.bacdkjil Q.contracted_intermediate],
    set1 X.contracted_intermediate (ein3 L.mnef L.eajk L.dbcfilmn L.abcdijkl Q.g_abab_oaoavava Q.t2_aaaa Q.t4_aaabaaab_xxxxxxxx),
    .aug X.quadruples_res [.arg Q.contracted_intermediate, ein1 L.abcdijkl L.abcdkjil Q.contracted_intermediate, ein1 L.abcdijkl L.bacdijkl Q.contracted_intermediate, ein1 L.abcdijkl L.bacdkjil Q.contracted_intermediate],
    set1 X.contracted_intermediate (ein3 L.nmef L.ecnm L.fabdijkl L.abcdijkl Q.g_aaaa_oaoavava Q.t2_aaaa Q.t4_aaaaaaaa_xxxxxxxx),
    .aug X.quadruples_res [.arg Q.contracted_intermediate, ein1 L.abcdijkl L.abdcijkl Q.contracted_intermediate],
    set1 X.contracted_intermediate (ein3 L.nmfe L.cenm L.fabdijkl L.abcdijkl Q.g_abab_oaoavava Q.t2_abab Q.t4_aaaaaaaa_xxxxxxxx),
    .aug X.quadruples_res [.arg Q.contracted_intermediate, ein1 L.abcdijkl L.abdcijkl Q.contracted_intermediate],
    set1 X.contracted_intermediate (ein3 L.mnfe L.cemn L.fabdijkl L.abcdijkl Q.g_abab_oaoavava Q.t2_abab Q.t4_aaaaaaaa_xxxxxxxx),
    .aug X.quadruples_res [.arg Q.contracted_intermediate, ein1 L.abcdijkl L.abdcijkl Q.contracted_intermediate],
    set1 X.contracted_intermediate (ein3 L.nmef L.eclm L.fabdijkn L.abcdijkl Q.g_aaaa_oaoavava Q.t2_aaaa Q.t4_aaaaaaaa_xxxxxxxx),
    .aug X.quadruples_res [.arg Q.contracted_intermediate, ein1 L.abcdijkl L.abcdijlk Q.contracted_intermediate, ein1 L.abcdijkl L.abdcijkl Q.contracted_intermediate, ein1 L.abcdijkl L.abdcijlk Q.contracted_intermediate],
    set1 X.contracted_intermediate (ein3 L.mnef L.eclm L.dabfijkn L.abcdijkl Q.g_abab_oaoavava Q.t2_aaaa Q.t4_aaabaaab_xxxxxxxx),
    .aug X.quadruples_res [.arg Q.contracted_intermediate, ein1 L.abcdijkl L.abcdijlk Q.contracted_intermediate, ein1 L.abcdijkl L.abdcijkl Q.contracted_intermediate, ein1 L.abcdijkl L.abdcijlk Q.contracted_intermediate],
    set1 X.contracted_intermediate (ein3 L.nmfe L.celm L.fabdijkn L.abcdijkl Q.g_abab_oaoavava Q.t2_abab Q.t4_aaaaaaaa_xxxxxxxx),
    .aug X.quadruples_res [.arg Q.contracted_intermediate, ein1 L.abcdijkl L.abcdijlk Q.contracted_intermediate, ein1 L.abcdijkl L.abdcijkl Q.contracted_intermediate, ein1 L.abcdijkl L.abdcijlk Q.contracted_intermediate],
    set1 X.contracted_intermediate (ein3 L.nmef L.celm L.dabfijkn L.abcdijkl Q.g_bbbb_oaoavava Q.t2_abab Q.t4_aaabaaab_xxxxxxxx),
    .aug X.quadruples_res [.arg Q.contracted_intermediate, ein1 L.abcdijkl L.abcdijlk Q.contracted_intermediate, ein1 L.abcdijkl L.abdcijkl Q.contracted_intermediate, ein1 L.abcdijkl L.abdcijlk Q.contracted_intermediate],
    set1 X.contracted_intermediate (ein3 L.nmef L.ecjm L.fabdikln L.abcdijkl Q.g_aaaa_oaoavava Q.t2_aaaa Q.t4_aaaaaaaa_xxxxxxxx),
    .aug X.quadruples_res [.arg Q.contracted_intermediate, ein1 L.abcdijkl L.abcdjikl Q.contracted_intermediate, ein1 L.abcdijkl L.abdcijkl Q.contracted_intermediate, ein1 L.abcdijkl L.abdcjikl Q.contracted_intermediate],
    set1 X.contracted_intermediate (ein3 L.mnef L.ecjm L.dabfikln L.abcdijkl Q.g_abab_oaoavava Q.t2_aaaa Q.t4_aaabaaab_xxxxxxxx),
    .aug X.quadruples_res [.arg Q.contracted_intermediate, ein1 L.abcdijkl L.abcdjikl Q.contracted_intermediate, ein1 L.abcdijkl L.abdcijkl Q.contracted_intermediate, ein1 L.abcdijkl L.abdcjikl Q.contracted_intermediate],
    set1 X.contracted_intermediate (ein3 L.nmfe L.cejm L.fabdikln L.abcdijkl Q.g_abab_oaoavava Q.t2_abab Q.t4_aaaaaaaa_xxxxxxxx),
    .aug X.quadruples_res [.arg Q.contracted_intermediate, ein1 L.abcdijkl L.abcdjikl Q.contracted_intermediate, ein1 L.abcdijkl L.abdcijkl Q.contracted_intermediate, ein1 L.abcdijkl L.abdcjikl Q.contracted_intermediate],
    set1 X.contracted_intermediate (ein3 L.nmef L.cejm L.dabfikln L.abcdijkl Q.g_bbbb_oaoavava Q.t2_abab Q.t4_aaabaaab_xxxxxxxx),
    .aug X.quadruples_res [.arg Q.contracted_intermediate, ein1 L.abcdijkl L.abcdjikl Q.contracted_intermediate, ein1 L.abcdijkl L.abdcijkl Q.contracted_intermediate, ein1 L.abcdijkl L.abdcjikl Q.contracted_intermediate],
    set1 X.contracted_intermediate (ein3 L.nmef L.eckl L.fabdijnm L.abcdijkl Q.g_aaaa_oaoavava Q.t2_aaaa Q.t4_aaaaaaaa_xxxxxxxx),
    .aug X.quadruples_res [.arg Q.contracted_intermediate, ein1 L.abcdijkl L.abcdikjl Q.contracted_intermediate, ein1 L.abcdijkl L.abdcijkl Q.contracted_intermediate, ein1 L.abcdijkl L.abdcikjl Q.contracted_intermediate],
    set1 X.contracted_intermediate (ein3 L.nmef L.eckl L.dabfijnm L.abcdijkl Q.g_abab_oaoavava Q.t2_aaaa Q.t4_aaabaaab_xxxxxxxx),
    .aug X.quadruples_res [.arg Q.contracted_intermediate, ein1 L.abcdijkl L.abcdikjl Q.contracted_intermediate, ein1 L.abcdijkl L.abdcijkl Q.contracted_intermediate, ein1 L.abcdijkl L.abdcikjl Q.contracted_intermediate],
    set1 X.contracted_intermediate (ein3 L.mnef L.eckl L.dabfijmn L.abcdijkl Q.g_abab_oaoavava Q.t2_aaaa Q.t4_aaabaaab_xxxxxxxx),
    .aug X.quadruples_res [.arg Q.contracted_intermediate, ein1 L.abcdijkl L.abcdikjl Q.contracted_intermediate, ein1 L.abcdijkl L.abdcijkl Q.contracted_intermediate, ein1 L.abcdijkl L.abdcikjl Q.contracted_intermediate],
    set1 X.contracted_intermediate (ein3 L.nmef L.ecil L.fabdjknm L.abcdijkl Q.g_aaaa_oaoavava Q.t2_aaaa Q.t4_aaaaaaaa_xxxxxxxx),
    .aug X.quadruples_res [.arg Q.contracted_intermediate, ein1 L.abcdijkl L.abcdijlk Q.contracted_intermediate, ein1 L.abcdijkl L.abdcijkl Q.contracted_intermediate, ein1 L.abcdijkl L.abdcijlk Q.contracted_intermediate],
    set1 X.contracted_intermediate (ein3 L.nmef L.ecil L.dabfjknm L.abcdijkl Q.g_abab_oaoavava Q.t2_aaaa Q.t4_aaabaaab_xxxxxxxx),
    .aug X.quadruples_res [.arg Q.contracted_intermediate, ein1 L.abcdijkl L.abcdijlk Q.contracted_intermediate, ein1 L.abcdijkl L.abdcijkl Q.contracted_intermediate, ein1 L.abcdijkl L.abdcijlk Q.contracted_intermediate],
    set1 X.contracted_intermediate (ein3 L.mnef L.ecil L.dabfjkmn L.abcdijkl Q.g_abab_oaoavava Q.t2_aaaa Q.t4_aaabaaab_xxxxxxxx),
    .aug X.quadruples_res [.arg Q.contracted_intermediate, ein1 L.abcdijkl L.abcdijlk Q.contracted_intermediate, ein1 L.abcdijkl L.abdcijkl Q.contracted_intermediate, ein1 L.abcdijkl L.abdcijlk Q.contracted_intermediate],
    set1 X.contracted_intermediate (ein3 L.nmef L.ecjk L.fabdilnm L.abcdijkl Q.g_aaaa_oaoavava Q.t2_aaaa Q.t4_aaaaaaaa_xxxxxxxx),
    .aug X.quadruples_res [.arg Q.contracted_intermediate, ein1 L.abcdijkl L.abcdkjil Q.contracted_intermediate, ein1 L.abcdijkl L.abdcijkl Q.contracted_intermediate, ein1 L.abcdijkl L.abdckjil Q.contracted_intermediate],
    set1 X.contracted_intermediate (ein3 L.nmef L.ecjk L.dabfilnm L.abcdijkl Q.g_abab_oaoavava Q.t2_aaaa Q.t4_aaabaaab_xxxxxxxx),
    .aug X.quadruples_res [.arg Q.contracted_intermediate, ein1 L.abcdijkl L.abcdkjil Q.contracted_intermediate, ein1 L.abcdijkl L.abdcijkl Q.contracted_intermediate, ein1 L.abcdijkl L.abdckjil Q.contracted_intermediate],
    set1 X.contracted_intermediate (ein3 L.mnef L.ecjk L.dabfilmn L.abcdijkl Q.g_abab_oaoavava Q.t2_aaaa Q.t4_aaabaaab_xxxxxxxx),
    .aug X.quadruples_res [.arg Q.contracted_intermediate, ein1 L.abcdijkl L.abcdkjil Q.contracted_intermediate, ein1 L.abcdijkl L.abdcijkl Q.contracted_intermediate, ein1 L.abcdijkl L.abdckjil Q.contracted_intermediate],
    set1 X.contracted_intermediate (ein3 L.nmef L.abnm L.efcdijkl L.abcdijkl Q.g_aaaa_oaoavava Q.t2_aaaa Q.t4_aaaaaaaa_xxxxxxxx),
    .aug X.quadruples_res [.arg Q.contracted_intermediate, ein1 L.abcdijkl L.acbdijkl Q.contracted_intermediate],
    set1 X.contracted_intermediate (ein3 L.nmef L.ablm L.efcdijkn L.abcdijkl Q.g_aaaa_oaoavava Q.t2_aaaa Q.t4_aaaaaaaa_xxxxxxxx),
    .aug X.quadruples_res [.arg Q.contracted_intermediate, ein1 L.abcdijkl L.abcdijlk Q.contracted_intermediate, ein1 L.abcdijkl L.acbdijkl Q.contracted_intermediate, ein1 L.abcdijkl L.acbdijlk Q.contracted_intermediate],
    set1 X.contracted_intermediate (ein3 L.mnef L.ablm L.edcfijkn L.abcdijkl Q.g_abab_oaoavava Q.t2_aaaa Q.t4_aaabaaab_xxxxxxxx),
    .aug X.quadruples_res [.arg Q.contracted_intermediate, ein1 L.abcdijkl L.abcdijlk Q.contracted_intermediate, ein1 L.abcdijkl L.acbdijkl Q.contracted_intermediate, ein1 L.abcdijkl L.acbdijlk Q.contracted_intermediate],
    set1 X.contracted_intermediate (ein3 L.mnfe L.ablm L.dfceijkn L.abcdijkl Q.g_abab_oaoavava Q.t2_aaaa Q.t4_aaabaaab_xxxxxxxx),
    .aug X.quadruples_res [.arg Q.contracted_intermediate, ein1 L.abcdijkl L.abcdijlk Q.contracted_intermediate, ein1 L.abcdijkl L.acbdijkl Q.contracted_intermediate, ein1 L.abcdijkl L.acbdijlk Q.contracted_intermediate],
    set1 X.contracted_intermediate (ein3 L.nmef L.abjm L.efcdikln L.abcdijkl Q.g_aaaa_oaoavava Q.t2_aaaa Q.t4_aaaaaaaa_xxxxxxxx),
    .aug X.quadruples_res [.arg Q.contracted_intermediate, ein1 L.abcdijkl L.abcdjikl Q.contracted_intermediate, ein1 L.abcdijkl L.acbdijkl Q.contracted_intermediate, ein1 L.abcdijkl L.acbdjikl Q.contracted_intermediate],
    set1 X.contracted_intermediate (ein3 L.mnef L.abjm L.edcfikln L.abcdijkl Q.g_abab_oaoavava Q.t2_aaaa Q.t4_aaabaaab_xxxxxxxx),
    .aug X.quadruples_res [.arg Q.contracted_intermediate, ein1 L.abcdijkl L.abcdjikl Q.contracted_intermediate, ein1 L.abcdijkl L.acbdijkl Q.contracted_intermediate, ein1 L.abcdijkl L.acbdjikl Q.contracted_intermediate],
    set1 X.contracted_intermediate (ein3 L.mnfe L.abjm L.dfceikln L.abcdijkl Q.g_abab_oaoavava Q.t2_aaaa Q.t4_aaabaaab_xxxxxxxx),
    .aug X.quadruples_res [.arg Q.contracted_intermediate, ein1 L.abcdijkl L.abcdjikl Q.contracted_intermediate, ein1 L.abcdijkl L.acbdijkl Q.contracted_intermediate, ein1 L.abcdijkl L.acbdjikl Q.contracted_intermediate],
    set1 X.contracted_intermediate (ein3 L.nmef L.adnm L.efbcijkl L.abcdijkl Q.g_aaaa_oaoavava Q.t2_aaaa Q.t4_aaaaaaaa_xxxxxxxx),
    .aug X.quadruples_res [.arg Q.contracted_intermediate, ein1 L.abcdijkl L.bacdijkl Q.contracted_intermediate],
    set1 X.contracted_intermediate (ein3 L.nmef L.adlm L.efbcijkn L.abcdijkl Q.g_aaaa_oaoavava Q.t2_aaaa Q.t4_aaaaaaaa_xxxxxxxx),
    .aug X.quadruples_res [.arg Q.contracted_intermediate, ein1 L.abcdijkl L.abcdijlk Q.contracted_intermediate, ein1 L.abcdijkl L.bacdijkl Q.contracted_intermediate, ein1 L.abcdijkl L.bacdijlk Q.contracted_intermediate],
    set1 X.contracted_intermediate (ein3 L.mnef L.adlm L.ecbfijkn L.abcdijkl Q.g_abab_oaoavava Q.t2_aaaa Q.t4_aaabaaab_xxxxxxxx),
    .aug X.quadruples_res [.arg Q.contracted_intermediate, ein1 L.abcdijkl L.abcdijlk Q.contracted_intermediate, ein1 L.abcdijkl L.bacdijkl Q.contracted_intermediate, ein1 L.abcdijkl L.bacdijlk Q.contracted_intermediate],
    set1 X.contracted_intermediate (ein3 L.mnfe L.adlm L.cfbeijkn L.abcdijkl Q.g_abab_oaoavava Q.t2_aaaa Q.t4_aaabaaab_xxxxxxxx),
    .aug X.quadruples_res [.arg Q.contracted_intermediate, ein1 L.abcdijkl L.abcdijlk Q.contracted_intermediate, ein1 L.abcdijkl L.bacdijkl Q.contracted_intermediate, ein1 L.abcdijkl L.bacdijlk Q.contracted_intermediate],
    set1 X.contracted_intermediate (ein3 L.nmef L.adjm L.efbcikln L.abcdijkl Q.g_aaaa_oaoavava Q.t2_aaaa Q.t4_aaaaaaaa_xxxxxxxx),
    .aug X.quadruples_res [.arg Q.contracted_intermediate, ein1 L.abcdijkl L.abcdjikl Q.contracted_intermediate, ein1 L.abcdijkl L.bacdijkl Q.contracted_intermediate, ein1 L.abcdijkl L.bacdjikl Q.contracted_intermediate],
    set1 X.contracted_intermediate (ein3 L.mnef L.adjm L.ecbfikln L.abcdijkl Q.g_abab_oaoavava Q.t2_aaaa Q.t4_aaabaaab_xxxxxxxx),
    .aug X.quadruples_res [.arg Q.contracted_intermediate, ein1 L.abcdijkl L.abcdjikl Q.contracted_intermediate, ein1 L.abcdijkl L.bacdijkl Q.contracted_intermediate, ein1 L.abcdijkl L.bacdjikl Q.contracted_intermediate],
    set1 X.contracted_intermediate (ein3 L.mnfe L.adjm L.cfbeikln L.abcdijkl Q.g_abab_oaoavava Q.t2_aaaa Q.t4_aaabaaab_xxxxxxxx),
    .aug X.quadruples_res [.arg Q.contracted_intermediate, ein1 L.abcdijkl L.abcdjikl Q.contracted_intermediate, ein1 L.abcdijkl L.bacdijkl Q.contracted_intermediate, ein1 L.abcdijkl L.bacdjikl Q.contracted_intermediate],
    set1 X.contracted_intermediate (ein3 L.nmef L.bcnm L.efadijkl L.abcdijkl Q.g_aaaa_oaoavava Q.t2_aaaa Q.t4_aaaaaaaa_xxxxxxxx),
    .aug X.quadruples_res [.arg Q.contracted_intermediate, ein1 L.abcdijkl L.adcbijkl Q.contracted_intermediate],
    set1 X.contracted_intermediate (ein3 L.nmef L.bclm L.efadijkn L.abcdijkl Q.g_aaaa_oaoavava Q.t2_aaaa Q.t4_aaaaaaaa_xxxxxxxx),
    .aug X.quadruples_res [.arg Q.contracted_intermediate, ein1 L.abcdijkl L.abcdijlk Q.contracted_intermediate, ein1 L.abcdijkl L.adcbijkl Q.contracted_intermediate, ein1 L.abcdijkl L.adcbijlk Q.contracted_intermediate],
    set1 X.contracted_intermediate (ein3 L.mnef L.bclm L.edafijkn L.abcdijkl Q.g_abab_oaoavava Q.t2_aaaa Q.t4_aaabaaab_xxxxxxxx),
    .aug X.quadruples_res [.arg Q.contracted_intermediate, ein1 L.abcdijkl L.abcdijlk Q.contracted_intermediate, ein1 L.abcdijkl L.adcbijkl Q.contracted_intermediate, ein1 L.abcdijkl L.adcbijlk Q.contracted_intermediate],
    set1 X.contracted_intermediate (ein3 L.mnfe L.bclm L.dfaeijkn L.abcdijkl Q.g_abab_oaoavava Q.t2_aaaa Q.t4_aaabaaab_xxxxxxxx),
    .aug X.quadruples_res [.arg Q.contracted_intermediate, ein1 L.abcdijkl L.abcdijlk Q.contracted_intermediate, ein1 L.abcdijkl L.adcbijkl Q.contracted_intermediate, ein1 L.abcdijkl L.adcbijlk Q.contracted_intermediate],
    set1 X.contracted_intermediate (ein3 L.nmef L.bcjm L.efadikln L.abcdijkl Q.g_aaaa_oaoavava Q.t2_aaaa Q.t4_aaaaaaaa_xxxxxxxx),
    .aug X.quadruples_res [.arg Q.contracted_intermediate, ein1 L.abcdijkl L.abcdjikl Q.contracted_intermediate, ein1 L.abcdijkl L.adcbijkl Q.contracted_intermediate, ein1 L.abcdijkl L.adcbjikl Q.contracted_intermediate],
    set1 X.contracted_intermediate (ein3 L.mnef L.bcjm L.edafikln L.abcdijkl Q.g_abab_oaoavava Q.t2_aaaa Q.t4_aaabaaab_xxxxxxxx),
    .aug X.quadruples_res [.arg Q.contracted_intermediate, ein1 L.abcdijkl L.abcdjikl Q.contracted_intermediate, ein1 L.abcdijkl L.adcbijkl Q.contracted_intermediate, ein1 L.abcdijkl L.adcbjikl Q.contracted_intermediate],
    set1 X.contracted_intermediate (ein3 L.mnfe L.bcjm L.dfaeikln L.abcdijkl Q.g_abab_oaoavava Q.t2_aaaa Q.t4_aaabaaab_xxxxxxxx),
    .aug X.quadruples_res [.arg Q.contracted_intermediate, ein1 L.abcdijkl L.abcdjikl Q.contracted_intermediate, ein1 L.abcdijkl L.adcbijkl Q.contracted_intermediate, ein1 L.abcdijkl L.adcbjikl Q.contracted_intermediate],
    set1 X.contracted_intermediate (ein3 L.nmkl L.abjm L.cdin L.abcdijkl Q.g_aaaa_oaoaoaoa Q.t2_aaaa Q.t2_aaaa),
    .aug X.quadruples_res [.arg Q.contracted_intermediate, ein1 L.abcdijkl L.abcdjikl Q.contracted_intermediate, ein1 L.abcdijkl L.acbdijkl Q.contracted_intermediate, ein1 L.abcdijkl L.acbdjikl Q.contracted_intermediate],
    set1 X.contracted_intermediate (ein3 L.nmkl L.adjm L.bcin L.abcdijkl Q.g_aaaa_oaoaoaoa Q.t2_aaaa Q.t2_aaaa),
    .aug X.quadruples_res [.arg Q.contracted_intermediate, ein1 L.abcdijkl L.abcdjikl Q.contracted_intermediate],
    set1 X.contracted_intermediate (ein3 L.nmjl L.abkm L.cdin L.abcdijkl Q.g_aaaa_oaoaoaoa Q.t2_aaaa Q.t2_aaaa),
    .aug X.quadruples_res [.arg Q.contracted_intermediate, ein1 L.abcdijkl L.abcdkjil Q.contracted_intermediate, ein1 L.abcdijkl L.acbdijkl Q.contracted_intermediate, ein1 L.abcdijkl L.acbdkjil Q.contracted_intermediate],
    set1 X.contracted_intermediate (ein3 L.nmjl L.adkm L.bcin L.abcdijkl Q.g_aaaa_oaoaoaoa Q.t2_aaaa Q.t2_aaaa),
    .aug X.quadruples_res [.arg Q.contracted_intermediate, ein1 L.abcdijkl L.abcdkjil Q.contracted_intermediate],
    set1 X.contracted_intermediate (ein3 L.nmil L.abkm L.cdjn L.abcdijkl Q.g_aaaa_oaoaoaoa Q.t2_aaaa Q.t2_aaaa),
    .aug X.quadruples_res [.arg Q.contracted_intermediate, ein1 L.abcdijkl L.abcdikjl Q.contracted_intermediate, ein1 L.abcdijkl L.acbdijkl Q.contracted_intermediate, ein1 L.abcdijkl L.acbdikjl Q.contracted_intermediate],
    set1 X.contracted_intermediate (ein3 L.nmil L.adkm L.bcjn L.abcdijkl Q.g_aaaa_oaoaoaoa Q.t2_aaaa Q.t2_aaaa),
    .aug X.quadruples_res [.arg Q.contracted_intermediate, ein1 L.abcdijkl L.abcdikjl Q.contracted_intermediate],
    set1 X.contracted_intermediate (ein3 L.nmjk L.ablm L.cdin L.abcdijkl Q.g_aaaa_oaoaoaoa Q.t2_aaaa Q.t2_aaaa),
    .aug X.quadruples_res [.arg Q.contracted_intermediate, ein1 L.abcdijkl L.abcdljki Q.contracted_intermediate, ein1 L.abcdijkl L.acbdijkl Q.contracted_intermediate, ein1 L.abcdijkl L.acbdljki Q.contracted_intermediate],
    set1 X.contracted_intermediate (ein3 L.nmjk L.adlm L.bcin L.abcdijkl Q.g_aaaa_oaoaoaoa Q.t2_aaaa Q.t2_aaaa),
    .aug X.quadruples_res [.arg Q.contracted_intermediate, ein1 L.abcdijkl L.abcdljki Q.contracted_intermediate],
    set1 X.contracted_intermediate (ein3 L.nmik L.ablm L.cdjn L.abcdijkl Q.g_aaaa_oaoaoaoa Q.t2_aaaa Q.t2_aaaa),
    .aug X.quadruples_res [.arg Q.contracted_intermediate, ein1 L.abcdijkl L.abcdilkj Q.contracted_intermediate, ein1 L.abcdijkl L.acbdijkl Q.contracted_intermediate, ein1 L.abcdijkl L.acbdilkj Q.contracted_intermediate],
    set1 X.contracted_intermediate (ein3 L.nmik L.adlm L.bcjn L.abcdijkl Q.g_aaaa_oaoaoaoa Q.t2_aaaa Q.t2_aaaa),
    .aug X.quadruples_res [.arg Q.contracted_intermediate, ein1 L.abcdijkl L.abcdilkj Q.contracted_intermediate],
    set1 X.contracted_intermediate (ein3 L.nmij L.ablm L.cdkn L.abcdijkl Q.g_aaaa_oaoaoaoa Q.t2_aaaa Q.t2_aaaa),
    .aug X.quadruples_res [.arg Q.contracted_intermediate, ein1 L.abcdijkl L.abcdijlk Q.contracted_intermediate, ein1 L.abcdijkl L.acbdijkl Q.contracted_intermediate, ein1 L.abcdijkl L.acbdijlk Q.contracted_intermediate],
    set1 X.contracted_intermediate (ein3 L.nmij L.adlm L.bckn L.abcdijkl Q.g_aaaa_oaoaoaoa Q.t2_aaaa Q.t2_aaaa),
    .aug X.quadruples_res [.arg Q.contracted_intermediate, ein1 L.abcdijkl L.abcdijlk Q.contracted_intermediate],
    set1 X.contracted_intermediate (ein3 L.mael L.ebjk L.cdim L.abcdijkl Q.g_aaaa_oavavaoa Q.t2_aaaa Q.t2_aaaa),
    .aug X.quadruples_res [.arg Q.contracted_intermediate, ein1 L.abcdijkl L.abcdjikl Q.contracted_intermediate, ein1 L.abcdijkl L.acbdijkl Q.contracted_intermediate, ein1 L.abcdijkl L.acbdjikl Q.contracted_intermediate],
    set1 X.contracted_intermediate (ein3 L.mael L.ebij L.cdkm L.abcdijkl Q.g_aaaa_oavavaoa Q.t2_aaaa Q.t2_aaaa),
    .aug X.quadruples_res [.arg Q.contracted_intermediate, ein1 L.abcdijkl L.abcdijlk Q.contracted_intermediate, ein1 L.abcdijkl L.acbdijkl Q.contracted_intermediate, ein1 L.abcdijkl L.acbdijlk Q.contracted_intermediate],
    set1 X.contracted_intermediate (ein3 L.mael L.edjk L.bcim L.abcdijkl Q.g_aaaa_oavavaoa Q.t2_aaaa Q.t2_aaaa),
    .aug X.quadruples_res [.arg Q.contracted_intermediate, ein1 L.abcdijkl L.abcdjikl Q.contracted_intermediate, ein1 L.abcdijkl L.bacdijkl Q.contracted_intermediate, ein1 L.abcdijkl L.bacdjikl Q.contracted_intermediate],
    set1 X.contracted_intermediate (ein3 L.mael L.edij L.bckm L.abcdijkl Q.g_aaaa_oavavaoa Q.t2_aaaa Q.t2_aaaa),
    .aug X.quadruples_res [.arg Q.contracted_intermediate, ein1 L.abcdijkl L.abcdijlk Q.contracted_intermediate, ein1 L.abcdijkl L.bacdijkl Q.contracted_intermediate, ein1 L.abcdijkl L.bacdijlk Q.contracted_intermediate],
    set1 X.contracted_intermediate (ein3 L.maek L.ebjl L.cdim L.abcdijkl Q.g_aaaa_oavavaoa Q.t2_aaaa Q.t2_aaaa),
    .aug X.quadruples_res [.arg Q.contracted_intermediate, ein1 L.abcdijkl L.abcdjikl Q.contracted_intermediate, ein1 L.abcdijkl L.acbdijkl Q.contracted_intermediate, ein1 L.abcdijkl L.acbdjikl Q.contracted_intermediate],
    set1 X.contracted_intermediate (ein3 L.maek L.edjl L.bcim L.abcdijkl Q.g_aaaa_oavavaoa Q.t2_aaaa Q.t2_aaaa),
    .aug X.quadruples_res [.arg Q.contracted_intermediate, ein1 L.abcdijkl L.abcdjikl Q.contracted_intermediate, ein1 L.abcdijkl L.bacdijkl Q.contracted_intermediate, ein1 L.abcdijkl L.bacdjikl Q.contracted_intermediate],
    set1 X.contracted_intermediate (ein3 L.maej L.ebkl L.cdim L.abcdijkl Q.g_aaaa_oavavaoa Q.t2_aaaa Q.t2_aaaa),
    .aug X.quadruples_res [.arg Q.contracted_intermediate, ein1 L.abcdijkl L.abcdkjil Q.contracted_intermediate, ein1 L.abcdijkl L.acbdijkl Q.contracted_intermediate, ein1 L.abcdijkl L.acbdkjil Q.contracted_intermediate],
    set1 X.contracted_intermediate (ein3 L.maej L.ebik L.cdlm L.abcdijkl Q.g_aaaa_oavavaoa Q.t2_aaaa Q.t2_aaaa),
    .aug X.quadruples_res [.arg Q.contracted_intermediate, ein1 L.abcdijkl L.abcdjikl Q.contracted_intermediate, ein1 L.abcdijkl L.acbdijkl Q.contracted_intermediate, ein1 L.abcdijkl L.acbdjikl Q.contracted_intermediate],
    set1 X.contracted_intermediate (ein3 L.maej L.edkl L.bcim L.abcdijkl Q.g_aaaa_oavavaoa Q.t2_aaaa Q.t2_aaaa),
    .aug X.quadruples_res [.arg Q.contracted_intermediate, ein1 L.abcdijkl L.abcdkjil Q.contracted_intermediate, ein1 L.abcdijkl L.bacdijkl Q.contracted_intermediate, ein1 L.abcdijkl L.bacdkjil Q.contracted_intermediate],
    set1 X.contracted_intermediate (ein3 L.maej L.edik L.bclm L.abcdijkl Q.g_aaaa_oavavaoa Q.t2_aaaa Q.t2_aaaa),
    .aug X.quadruples_res [.arg Q.contracted_intermediate, ein1 L.abcdijkl L.abcdjikl Q.contracted_intermediate, ein1 L.abcdijkl L.bacdijkl Q.contracted_intermediate, ein1 L.abcdijkl L.bacdjikl Q.contracted_intermediate],
    set1 X.contracted_intermediate (ein3 L.maei L.ebkl L.cdjm L.abcdijkl Q.g_aaaa_oavavaoa Q.t2_aaaa Q.t2_aaaa),
    .aug X.quadruples_res [.arg Q.contracted_intermediate, ein1 L.abcdijkl L.abcdikjl Q.contracted_intermediate, ein1 L.abcdijkl L.acbdijkl Q.contracted_intermediate, ein1 L.abcdijkl L.acbdikjl Q.contracted_intermediate],
    set1 X.contracted_intermediate (ein3 L.maei L.edkl L.bcjm L.abcdijkl Q.g_aaaa_oavavaoa Q.t2_aaaa Q.t2_aaaa),
    .aug X.quadruples_res [.arg Q.contracted_intermediate, ein1 L.abcdijkl L.abcdikjl Q.contracted_intermediate, ein1 L.abcdijkl L.bacdijkl Q.contracted_intermediate, ein1 L.abcdijkl L.bacdikjl Q.contracted_intermediate],
    set1 X.contracted_intermediate (ein3 L.mbel L.eajk L.cdim L.abcdijkl Q.g_aaaa_oavavaoa Q.t2_aaaa Q.t2_aaaa),
    .aug X.quadruples_res [.arg Q.contracted_intermediate, ein1 L.abcdijkl L.abcdjikl Q.contracted_intermediate, ein1 L.abcdijkl L.cbadijkl Q.contracted_intermediate, ein1 L.abcdijkl L.cbadjikl Q.contracted_intermediate],
    set1 X.contracted_intermediate (ein3 L.mbel L.eaij L.cdkm L.abcdijkl Q.g_aaaa_oavavaoa Q.t2_aaaa Q.t2_aaaa),
    .aug X.quadruples_res [.arg Q.contracted_intermediate, ein1 L.abcdijkl L.abcdijlk Q.contracted_intermediate, ein1 L.abcdijkl L.cbadijkl Q.contracted_intermediate, ein1 L.abcdijkl L.cbadijlk Q.contracted_intermediate],
    set1 X.contracted_intermediate (ein3 L.mbek L.eajl L.cdim L.abcdijkl Q.g_aaaa_oavavaoa Q.t2_aaaa Q.t2_aaaa),
    .aug X.quadruples_res [.arg Q.contracted_intermediate, ein1 L.abcdijkl L.abcdjikl Q.contracted_intermediate, ein1 L.abcdijkl L.cbadijkl Q.contracted_intermediate, ein1 L.abcdijkl L.cbadjikl Q.contracted_intermediate],
    set1 X.contracted_intermediate (ein3 L.mbej L.eakl L.cdim L.abcdijkl Q.g_aaaa_oavavaoa Q.t2_aaaa Q.t2_aaaa),
    .aug X.quadruples_res [.arg Q.contracted_intermediate, ein1 L.abcdijkl L.abcdkjil Q.contracted_intermediate, ein1 L.abcdijkl L.cbadijkl Q.contracted_intermediate, ein1 L.abcdijkl L.cbadkjil Q.contracted_intermediate],
    set1 X.contracted_intermediate (ein3 L.mbej L.eaik L.cdlm L.abcdijkl Q.g_aaaa_oavavaoa Q.t2_aaaa Q.t2_aaaa),
    .aug X.quadruples_res [.arg Q.contracted_intermediate, ein1 L.abcdijkl L.abcdjikl Q.contracted_intermediate, ein1 L.abcdijkl L.cbadijkl Q.contracted_intermediate, ein1 L.abcdijkl L.cbadjikl Q.contracted_intermediate],
    set1 X.contracted_intermediate (ein3 L.mbei L.eakl L.cdjm L.abcdijkl Q.g_aaaa_oavavaoa Q.t2_aaaa Q.t2_aaaa),
    .aug X.quadruples_res [.arg Q.contracted_intermediate, ein1 L.abcdijkl L.abcdikjl Q.contracted_intermediate, ein1 L.abcdijkl L.cbadijkl Q.contracted_intermediate, ein1 L.abcdijkl L.cbadikjl Q.contracted_intermediate],
    set1 X.contracted_intermediate (ein3 L.mcel L.eajk L.bdim L.abcdijkl Q.g_aaaa_oavavaoa Q.t2_aaaa Q.t2_aaaa),
    .aug X.quadruples_res [.arg Q.contracted_intermediate, ein1 L.abcdijkl L.abcdjikl Q.contracted_intermediate, ein1 L.abcdijkl L.bacdijkl Q.contracted_intermediate, ein1 L.abcdijkl L.bacdjikl Q.contracted_intermediate],
    set1 X.contracted_intermediate (ein3 L.mcel L.eaij L.bdkm L.abcdijkl Q.g_aaaa_oavavaoa Q.t2_aaaa Q.t2_aaaa),
    .aug X.quadruples_res [.arg Q.contracted_intermediate, ein1 L.abcdijkl L.abcdijlk Q.contracted_intermediate, ein1 L.abcdijkl L.bacdijkl Q.contracted_intermediate, ein1 L.abcdijkl L.bacdijlk Q.contracted_intermediate],
    set1 X.contracted_intermediate (ein3 L.mcel L.edjk L.abim L.abcdijkl Q.g_aaaa_oavavaoa Q.t2_aaaa Q.t2_aaaa),
    .aug X.quadruples_res [.arg Q.contracted_intermediate, ein1 L.abcdijkl L.abcdjikl Q.contracted_intermediate, ein1 L.abcdijkl L.abdcijkl Q.contracted_intermediate, ein1 L.abcdijkl L.abdcjikl Q.contracted_intermediate],
    set1 X.contracted_intermediate (ein3 L.mcel L.edij L.abkm L.abcdijkl Q.g_aaaa_oavavaoa Q.t2_aaaa Q.t2_aaaa),
    .aug X.quadruples_res [.arg Q.contracted_intermediate, ein1 L.abcdijkl L.abcdijlk Q.contracted_intermediate, ein1 L.abcdijkl L.abdcijkl Q.contracted_intermediate, ein1 L.abcdijkl L.abdcijlk Q.contracted_intermediate],
    set1 X.contracted_intermediate (ein3 L.mcek L.eajl L.bdim L.abcdijkl Q.g_aaaa_oavavaoa Q.t2_aaaa Q.t2_aaaa),
    .aug X.quadruples_res [.arg Q.contracted_intermediate, ein1 L.abcdijkl L.abcdjikl Q.contracted_intermediate, ein1 L.abcdijkl L.bacdijkl Q.contracted_intermediate, ein1 L.abcdijkl L.bacdjikl Q.contracted_intermediate],
    set1 X.contracted_intermediate (ein3 L.mcek L.edjl L.abim L.abcdijkl Q.g_aaaa_oavavaoa Q.t2_aaaa Q.t2_aaaa),
    .aug X.quadruples_res [.arg Q.contracted_intermediate, ein1 L.abcdijkl L.abcdjikl Q.contracted_intermediate, ein1 L.abcdijkl L.abdcijkl Q.contracted_intermediate, ein1 L.abcdijkl L.abdcjikl Q.contracted_intermediate],
    set1 X.contracted_intermediate (ein3 L.mcej L.eakl L.bdim L.abcdijkl Q.g_aaaa_oavavaoa Q.t2_aaaa Q.t2_aaaa),
    .aug X.quadruples_res [.arg Q.contracted_intermediate, ein1 L.abcdijkl L.abcdkjil Q.contracted_intermediate, ein1 L.abcdijkl L.bacdijkl Q.contracted_intermediate, ein1 L.abcdijkl L.bacdkjil Q.contracted_intermediate],
    set1 X.contracted_intermediate (ein3 L.mcej L.eaik L.bdlm L.abcdijkl Q.g_aaaa_oavavaoa Q.t2_aaaa Q.t2_aaaa),
    .aug X.quadruples_res [.arg Q.contracted_intermediate, ein1 L.abcdijkl L.abcdjikl Q.contracted_intermediate, ein1 L.abcdijkl L.bacdijkl Q.contracted_intermediate, ein1 L.abcdijkl L.bacdjikl Q.contracted_intermediate],
    set1 X.contracted_intermediate (ein3 L.mcej L.edkl L.abim L.abcdijkl Q.g_aaaa_oavavaoa Q.t2_aaaa Q.t2_aaaa),
    .aug X.quadruples_res [.arg Q.contracted_intermediate, ein1 L.abcdijkl L.abcdkjil Q.contracted_intermediate, ein1 L.abcdijkl L.abdcijkl Q.contracted_intermediate, ein1 L.abcdijkl L.abdckjil Q.contracted_intermediate],
    set1 X.contracted_intermediate (ein3 L.mcej L.edik L.ablm L.abcdijkl Q.g_aaaa_oavavaoa Q.t2_aaaa Q.t2_aaaa),
    .aug X.quadruples_res [.arg Q.contracted_intermediate, ein1 L.abcdijkl L.abcdjikl Q.contracted_intermediate, ein1 L.abcdijkl L.abdcijkl Q.contracted_intermediate, ein1 L.abcdijkl L.abdcjikl Q.contracted_intermediate],
    set1 X.contracted_intermediate (ein3 L.mcei L.eakl L.bdjm L.abcdijkl Q.g_aaaa_oavavaoa Q.t2_aaaa Q.t2_aaaa),
    .aug X.quadruples_res [.arg Q.contracted_intermediate, ein1 L.abcdijkl L.abcdikjl Q.contracted_intermediate, ein1 L.abcdijkl L.bacdijkl Q.contracted_intermediate, ein1 L.abcdijkl L.bacdikjl Q.contracted_intermediate],
    set1 X.contracted_intermediate (ein3 L.mcei L.edkl L.abjm L.abcdijkl Q.g_aaaa_oavavaoa Q.t2_aaaa Q.t2_aaaa),
    .aug X.quadruples_res [.arg Q.contracted_intermediate, ein1 L.abcdijkl L.abcdikjl Q.contracted_intermediate, ein1 L.abcdijkl L.abdcijkl Q.contracted_intermediate, ein1 L.abcdijkl L.abdcikjl Q.contracted_intermediate],
    set1 X.contracted_intermediate (ein3 L.mdel L.eajk L.bcim L.abcdijkl Q.g_aaaa_oavavaoa Q.t2_aaaa Q.t2_aaaa),
    .aug X.quadruples_res [.arg Q.contracted_intermediate, ein1 L.abcdijkl L.abcdjikl Q.contracted_intermediate, ein1 L.abcdijkl L.bacdijkl Q.contracted_intermediate, ein1 L.abcdijkl L.bacdjikl Q.contracted_intermediate],
    set1 X.contracted_intermediate (ein3 L.mdel L.eaij L.bckm L.abcdijkl Q.g_aaaa_oavavaoa Q.t2_aaaa Q.t2_aaaa),
    .aug X.quadruples_res [.arg Q.contracted_intermediate, ein1 L.abcdijkl L.abcdijlk Q.contracted_intermediate, ein1 L.abcdijkl L.bacdijkl Q.contracted_intermediate, ein1 L.abcdijkl L.bacdijlk Q.contracted_intermediate],
    set1 X.contracted_intermediate (ein3 L.mdek L.eajl L.bcim L.abcdijkl Q.g_aaaa_oavavaoa Q.t2_aaaa Q.t2_aaaa),
    .aug X.quadruples_res [.arg Q.contracted_intermediate, ein1 L.abcdijkl L.abcdjikl Q.contracted_intermediate, ein1 L.abcdijkl L.bacdijkl Q.contracted_intermediate, ein1 L.abcdijkl L.bacdjikl Q.contracted_intermediate],
    set1 X.contracted_intermediate (ein3 L.mdej L.eakl L.bcim L.abcdijkl Q.g_aaaa_oavavaoa Q.t2_aaaa Q.t2_aaaa),
    .aug X.quadruples_res [.arg Q.contracted_intermediate, ein1 L.abcdijkl L.abcdkjil Q.contracted_intermediate, ein1 L.abcdijkl L.bacdijkl Q.contracted_intermediate, ein1 L.abcdijkl L.bacdkjil Q.contracted_intermediate],
    set1 X.contracted_intermediate (ein3 L.mdej L.eaik L.bclm L.abcdijkl Q.g_aaaa_oavavaoa Q.t2_aaaa Q.t2_aaaa),
    .aug X.quadruples_res [.arg Q.contracted_intermediate, ein1 L.abcdijkl L.abcdjikl Q.contracted_intermediate, ein1 L.abcdijkl L.bacdijkl Q.contracted_intermediate, ein1 L.abcdijkl L.bacdjikl Q.contracted_intermediate],
    set1 X.contracted_intermediate (ein3 L.mdei L.eakl L.bcjm L.abcdijkl Q.g_aaaa_oavavaoa Q.t2_aaaa Q.t2_aaaa),
    .aug X.quadruples_res [.arg Q.contracted_intermediate, ein1 L.abcdijkl L.abcdikjl Q.contracted_intermediate, ein1 L.abcdijkl L.bacdijkl Q.contracted_intermediate, ein1 L.abcdijkl L.bacdikjl Q.contracted_intermediate],
    set1 X.contracted_intermediate (ein3 L.abef L.eckl L.fdij L.abcdijkl Q.g_aaaa_vavavava Q.t2_aaaa Q.t2_aaaa),
    .aug X.quadruples_res [.arg Q.contracted_intermediate, ein1 L.abcdijkl L.abcdikjl Q.contracted_intermediate, ein1 L.abcdijkl L.acbdijkl Q.contracted_intermediate, ein1 L.abcdijkl L.acbdikjl Q.contracted_intermediate],
    set1 X.contracted_intermediate (ein3 L.abef L.ecil L.fdjk L.abcdijkl Q.g_aaaa_vavavava Q.t2_aaaa Q.t2_aaaa),
    .aug X.quadruples_res [.arg Q.contracted_intermediate, ein1 L.abcdijkl L.abcdijlk Q.contracted_intermediate, ein1 L.abcdijkl L.acbdijkl Q.contracted_intermediate, ein1 L.abcdijkl L.acbdijlk Q.contracted_intermediate],
    set1 X.contracted_intermediate (ein3 L.abef L.ecjk L.fdil L.abcdijkl Q.g_aaaa_vavavava Q.t2_aaaa Q.t2_aaaa),
    .aug X.quadruples_res [.arg Q.contracted_intermediate, ein1 L.abcdijkl L.abcdkjil Q.contracted_intermediate, ein1 L.abcdijkl L.acbdijkl Q.contracted_intermediate, ein1 L.abcdijkl L.acbdkjil Q.contracted_intermediate],
    set1 X.contracted_intermediate (ein3 L.adef L.ebkl L.fcij L.abcdijkl Q.g_aaaa_vavavava Q.t2_aaaa Q.t2_aaaa),
    .aug X.quadruples_res [.arg Q.contracted_intermediate, ein1 L.abcdijkl L.abcdikjl Q.contracted_intermediate, ein1 L.abcdijkl L.bacdijkl Q.contracted_intermediate, ein1 L.abcdijkl L.bacdikjl Q.contracted_intermediate],
    set1 X.contracted_intermediate (ein3 L.adef L.ebil L.fcjk L.abcdijkl Q.g_aaaa_vavavava Q.t2_aaaa Q.t2_aaaa),
    .aug X.quadruples_res [.arg Q.contracted_intermediate, ein1 L.abcdijkl L.abcdijlk Q.contracted_intermediate, ein1 L.abcdijkl L.bacdijkl Q.contracted_intermediate, ein1 L.abcdijkl L.bacdijlk Q.contracted_intermediate],
    set1 X.contracted_intermediate (ein3 L.adef L.ebjk L.fcil L.abcdijkl Q.g_aaaa_vavavava Q.t2_aaaa Q.t2_aaaa),
    .aug X.quadruples_res [.arg Q.contracted_intermediate, ein1 L.abcdijkl L.abcdkjil Q.contracted_intermediate, ein1 L.abcdijkl L.bacdijkl Q.contracted_intermediate, ein1 L.abcdijkl L.bacdkjil Q.contracted_intermediate],
    set1 X.contracted_intermediate (ein3 L.bcef L.eakl L.fdij L.abcdijkl Q.g_aaaa_vavavava Q.t2_aaaa Q.t2_aaaa),
    .aug X.quadruples_res [.arg Q.contracted_intermediate, ein1 L.abcdijkl L.abcdikjl Q.contracted_intermediate, ein1 L.abcdijkl L.adcbijkl Q.contracted_intermediate, ein1 L.abcdijkl L.adcbikjl Q.contracted_intermediate],
    set1 X.contracted_intermediate (ein3 L.bcef L.eail L.fdjk L.abcdijkl Q.g_aaaa_vavavava Q.t2_aaaa Q.t2_aaaa),
    .aug X.quadruples_res [.arg Q.contracted_intermediate, ein1 L.abcdijkl L.abcdijlk Q.contracted_intermediate, ein1 L.abcdijkl L.adcbijkl Q.contracted_intermediate, ein1 L.abcdijkl L.adcbijlk Q.contracted_intermediate],
    set1 X.contracted_intermediate (ein3 L.bcef L.eajk L.fdil L.abcdijkl Q.g_aaaa_vavavava Q.t2_aaaa Q.t2_aaaa),
    .aug X.quadruples_res [.arg Q.contracted_intermediate, ein1 L.abcdijkl L.abcdkjil Q.contracted_intermediate, ein1 L.abcdijkl L.adcbijkl Q.contracted_intermediate, ein1 L.abcdijkl L.adcbkjil Q.contracted_intermediate],
    set1 X.contracted_intermediate (ein4 L.nmef L.efkl L.abjm L.cdin L.abcdijkl Q.g_aaaa_oaoavava Q.t2_aaaa Q.t2_aaaa Q.t2_aaaa),
    .aug X.quadruples_res [.arg Q.contracted_intermediate, ein1 L.abcdijkl L.abcdjikl Q.contracted_intermediate, ein1 L.abcdijkl L.acbdijkl Q.contracted_intermediate, ein1 L.abcdijkl L.acbdjikl Q.contracted_intermediate],
    set1 X.contracted_intermediate (ein4 L.nmef L.efkl L.adjm L.bcin L.abcdijkl Q.g_aaaa_oaoavava Q.t2_aaaa Q.t2_aaaa Q.t2_aaaa),
    .aug X.quadruples_res [.arg Q.contracted_intermediate, ein1 L.abcdijkl L.abcdjikl Q.contracted_intermediate],
    set1 X.contracted_intermediate (ein4 L.nmef L.efjl L.abkm L.cdin L.abcdijkl Q.g_aaaa_oaoavava Q.t2_aaaa Q.t2_aaaa Q.t2_aaaa),
    .aug X.quadruples_res [.arg Q.contracted_intermediate, ein1 L.abcdijkl L.abcdkjil Q.contracted_intermediate, ein1 L.abcdijkl L.acbdijkl Q.contracted_intermediate, ein1 L.abcdijkl L.acbdkjil Q.contracted_intermediate],
    set1 X.contracted_intermediate (ein4 L.nmef L.efjl L.adkm L.bcin L.abcdijkl Q.g_aaaa_oaoavava Q.t2_aaaa Q.t2_aaaa Q.t2_aaaa),
    .aug X.quadruples_res [.arg Q.contracted_intermediate, ein1 L.abcdijkl L.abcdkjil Q.contracted_intermediate],
    set1 X.contracted_intermediate (ein4 L.nmef L.efil L.abkm L.cdjn L.abcdijkl Q.g_aaaa_oaoavava Q.t2_aaaa Q.t2_aaaa Q.t2_aaaa),
    .aug X.quadruples_res [.arg Q.contracted_intermediate, ein1 L.abcdijkl L.abcdikjl Q.contracted_intermediate, ein1 L.abcdijkl L.acbdijkl Q.contracted_intermediate, ein1 L.abcdijkl L.acbdikjl Q.contracted_intermediate],
    set1 X.contracted_intermediate (ein4 L.nmef L.efil L.adkm L.bcjn L.abcdijkl Q.g_aaaa_oaoavava Q.t2_aaaa Q.t2_aaaa Q.t2_aaaa),
    .aug X.quadruples_res [.arg Q.contracted_intermediate, ein1 L.abcdijkl L.abcdikjl Q.contracted_intermediate],
    set1 X.contracted_intermediate (ein4 L.nmef L.efjk L.ablm L.cdin L.abcdijkl Q.g_aaaa_oaoavava Q.t2_aaaa Q.t2_aaaa Q.t2_aaaa),
    .aug X.quadruples_res [.arg Q.contracted_intermediate, ein1 L.abcdijkl L.abcdljki Q.contracted_intermediate, ein1 L.abcdijkl L.acbdijkl Q.contracted_intermediate, ein1 L.abcdijkl L.acbdljki Q.contracted_intermediate],
    set1 X.contracted_intermediate (ein4 L.nmef L.efjk L.adlm L.bcin L.abcdijkl Q.g_aaaa_oaoavava Q.t2_aaaa Q.t2_aaaa Q.t2_aaaa),
    .aug X.quadruples_res [.arg Q.contracted_intermediate, ein1 L.abcdijkl L.abcdljki Q.contracted_intermediate],
    set1 X.contracted_intermediate (ein4 L.nmef L.efik L.ablm L.cdjn L.abcdijkl Q.g_aaaa_oaoavava Q.t2_aaaa Q.t2_aaaa Q.t2_aaaa),
    .aug X.quadruples_res [.arg Q.contracted_intermediate, ein1 L.abcdijkl L.abcdilkj Q.contracted_intermediate, ein1 L.abcdijkl L.acbdijkl Q.contracted_intermediate, ein1 L.abcdijkl L.acbdilkj Q.contracted_intermediate],
    set1 X.contracted_intermediate (ein4 L.nmef L.efik L.adlm L.bcjn L.abcdijkl Q.g_aaaa_oaoavava Q.t2_aaaa Q.t2_aaaa Q.t2_aaaa),
    .aug X.quadruples_res [.arg Q.contracted_intermediate, ein1 L.abcdijkl L.abcdilkj Q.contracted_intermediate],
    set1 X.contracted_intermediate (ein4 L.nmef L.efij L.ablm L.cdkn L.abcdijkl Q.g_aaaa_oaoavava Q.t2_aaaa Q.t2_aaaa Q.t2_aaaa),
    .aug X.quadruples_res [.arg Q.contracted_intermediate, ein1 L.abcdijkl L.abcdijlk Q.contracted_intermediate, ein1 L.abcdijkl L.acbdijkl Q.contracted_intermediate, ein1 L.abcdijkl L.acbdijlk Q.contracted_intermediate],
    set1 X.contracted_intermediate (ein4 L.nmef L.efij L.adlm L.bckn L.abcdijkl Q.g_aaaa_oaoavava Q.t2_aaaa Q.t2_aaaa Q.t2_aaaa),
    .aug X.quadruples_res [.arg Q.contracted_intermediate, ein1 L.abcdijkl L.abcdijlk Q.contracted_intermediate],
    set1 X.contracted_intermediate (ein4 L.nmef L.ealm L.fbjk L.cdin L.abcdijkl Q.g_aaaa_oaoavava Q.t2_aaaa Q.t2_aaaa Q.t2_aaaa),
    .aug X.quadruples_res [.arg Q.contracted_intermediate, ein1 L.abcdijkl L.abcdjikl Q.contracted_intermediate, ein1 L.abcdijkl L.acbdijkl Q.contracted_intermediate, ein1 L.abcdijkl L.acbdjikl Q.contracted_intermediate],
    set1 X.contracted_intermediate (ein4 L.nmfe L.aelm L.fbjk L.cdin L.abcdijkl Q.g_abab_oaoavava Q.t2_abab Q.t2_aaaa Q.t2_aaaa),
    .aug X.quadruples_res [.arg Q.contracted_intermediate, ein1 L.abcdijkl L.abcdjikl Q.contracted_intermediate, ein1 L.abcdijkl L.acbdijkl Q.contracted_intermediate, ein1 L.abcdijkl L.acbdjikl Q.contracted_intermediate],
    set1 X.contracted_intermediate (ein4 L.nmef L.ealm L.fbij L.cdkn L.abcdijkl Q.g_aaaa_oaoavava Q.t2_aaaa Q.t2_aaaa Q.t2_aaaa),
    .aug X.quadruples_res [.arg Q.contracted_intermediate, ein1 L.abcdijkl L.abcdijlk Q.contracted_intermediate, ein1 L.abcdijkl L.acbdijkl Q.contracted_intermediate, ein1 L.abcdijkl L.acbdijlk Q.contracted_intermediate],
    set1 X.contracted_intermediate (ein4 L.nmfe L.aelm L.fbij L.cdkn L.abcdijkl Q.g_abab_oaoavava Q.t2_abab Q.t2_aaaa Q.t2_aaaa),
    .aug X.quadruples_res [.arg Q.contracted_intermediate, ein1 L.abcdijkl L.abcdijlk Q.contracted_intermediate, ein1 L.abcdijkl L.acbdijkl Q.contracted_intermediate, ein1 L.abcdijkl L.acbdijlk Q.contracted_intermediate],
    set1 X.contracted_intermediate (ein4 L.nmef L.ealm L.fdjk L.bcin L.abcdijkl Q.g_aaaa_oaoavava Q.t2_aaaa Q.t2_aaaa Q.t2_aaaa),
    .aug X.quadruples_res [.arg Q.contracted_intermediate, ein1 L.abcdijkl L.abcdjikl Q.contracted_intermediate, ein1 L.abcdijkl L.bacdijkl Q.contracted_intermediate, ein1 L.abcdijkl L.bacdjikl Q.contracted_intermediate],
    set1 X.contracted_intermediate (ein4 L.nmfe L.aelm L.fdjk L.bcin L.abcdijkl Q.g_abab_oaoavava Q.t2_abab Q.t2_aaaa Q.t2_aaaa),
    .aug X.quadruples_res [.arg Q.contracted_intermediate, ein1 L.abcdijkl L.abcdjikl Q.contracted_intermediate, ein1 L.abcdijkl L.bacdijkl Q.contracted_intermediate, ein1 L.abcdijkl L.bacdjikl Q.contracted_intermediate],
    set1 X.contracted_intermediate (ein4 L.nmef L.ealm L.fdij L.bckn L.abcdijkl Q.g_aaaa_oaoavava Q.t2_aaaa Q.t2_aaaa Q.t2_aaaa),
    .aug X.quadruples_res [.arg Q.contracted_intermediate, ein1 L.abcdijkl L.abcdijlk Q.contracted_intermediate, ein1 L.abcdijkl L.bacdijkl Q.contracted_intermediate, ein1 L.abcdijkl L.bacdijlk Q.contracted_intermediate],
    set1 X.contracted_intermediate (ein4 L.nmfe L.aelm L.fdij L.bckn L.abcdijkl Q.g_abab_oaoavava Q.t2_abab Q.t2_aaaa Q.t2_aaaa),
    .aug X.quadruples_res [.arg Q.contracted_intermediate, ein1 L.abcdijkl L.abcdijlk Q.contracted_intermediate, ein1 L.abcdijkl L.bacdijkl Q.contracted_intermediate, ein1 L.abcdijkl L.bacdijlk Q.contracted_intermediate],
    set1 X.contracted_intermediate (ein4 L.nmef L.eakm L.fbjl L.cdin L.abcdijkl Q.g_aaaa_oaoavava Q.t2_aaaa Q.t2_aaaa Q.t2_aaaa),
    .aug X.quadruples_res [.arg Q.contracted_intermediate, ein1 L.abcdijkl L.abcdjikl Q.contracted_intermediate, ein1 L.abcdijkl L.acbdijkl Q.contracted_intermediate, ein1 L.abcdijkl L.acbdjikl Q.contracted_intermediate],
    set1 X.contracted_intermediate (ein4 L.nmfe L.aekm L.fbjl L.cdin L.abcdijkl Q.g_abab_oaoavava Q.t2_abab Q.t2_aaaa Q.t2_aaaa),
    .aug X.quadruples_res [.arg Q.contracted_intermediate, ein1 L.abcdijkl L.abcdjikl Q.contracted_intermediate, ein1 L.abcdijkl L.acbdijkl Q.contracted_intermediate, ein1 L.abcdijkl L.acbdjikl Q.contracted_intermediate],
    set1 X.contracted_intermediate (ein4 L.nmef L.eakm L.fdjl L.bcin L.abcdijkl Q.g_aaaa_oaoavava Q.t2_aaaa Q.t2_aaaa Q.t2_aaaa),
    .aug X.quadruples_res [.arg Q.contracted_intermediate, ein1 L.abcdijkl L.abcdjikl Q.contracted_intermediate, ein1 L.abcdijkl L.bacdijkl Q.contracted_intermediate, ein1 L.abcdijkl L.bacdjikl Q.contracted_intermediate],
    set1 X.contracted_intermediate (ein4 L.nmfe L.aekm L.fdjl L.bcin L.abcdijkl Q.g_abab_oaoavava Q.t2_abab Q.t2_aaaa Q.t2_aaaa),
    .aug X.quadruples_res [.arg Q.contracted_intermediate, ein1 L.abcdijkl L.abcdjikl Q.contracted_intermediate, ein1 L.abcdijkl L.bacdijkl Q.contracted_intermediate, ein1 L.abcdijkl L.bacdjikl Q.contracted_intermediate],
    set1 X.contracted_intermediate (ein4 L.nmef L.eajm L.fbkl L.cdin L.abcdijkl Q.g_aaaa_oaoavava Q.t2_aaaa Q.t2_aaaa Q.t2_aaaa),
    .aug X.quadruples_res [.arg Q.contracted_intermediate, ein1 L.abcdijkl L.abcdkjil Q.contracted_intermediate, ein1 L.abcdijkl L.acbdijkl Q.contracted_intermediate, ein1 L.abcdijkl L.acbdkjil Q.contracted_intermediate],
    set1 X.contracted_intermediate (ein4 L.nmfe L.aejm L.fbkl L.cdin L.abcdijkl Q.g_abab_oaoavava Q.t2_abab Q.t2_aaaa Q.t2_aaaa),
    .aug X.quadruples_res [.arg Q.contracted_intermediate, ein1 L.abcdijkl L.abcdkjil Q.contracted_intermediate, ein1 L.abcdijkl L.acbdijkl Q.contracted_intermediate, ein1 L.abcdijkl L.acbdkjil Q.contracted_intermediate],
    set1 X.contracted_intermediate (ein4 L.nmef L.eajm L.fbik L.cdln L.abcdijkl Q.g_aaaa_oaoavava Q.t2_aaaa Q.t2_aaaa Q.t2_aaaa),
    .aug X.quadruples_res [.arg Q.contracted_intermediate, ein1 L.abcdijkl L.abcdjikl Q.contracted_intermediate, ein1 L.abcdijkl L.acbdijkl Q.contracted_intermediate, ein1 L.abcdijkl L.acbdjikl Q.contracted_intermediate],
    set1 X.contracted_intermediate (ein4 L.nmfe L.aejm L.fbik L.cdln L.abcdijkl Q.g_abab_oaoavava Q.t2_abab Q.t2_aaaa Q.t2_aaaa),
    .aug X.quadruples_res [.arg Q.contracted_intermediate, ein1 L.abcdijkl L.abcdjikl Q.contracted_intermediate, ein1 L.abcdijkl L.acbdijkl Q.contracted_intermediate, ein1 L.abcdijkl L.acbdjikl Q.contracted_intermediate],
    set1 X.contracted_intermediate (ein4 L.nmef L.eajm L.fdkl L.bcin L.abcdijkl Q.g_aaaa_oaoavava Q.t2_aaaa Q.t2_aaaa Q.t2_aaaa),
    .aug X.quadruples_res [.arg Q.contracted_intermediate, ein1 L.abcdijkl L.abcdkjil Q.contracted_intermediate, ein1 L.abcdijkl L.bacdijkl Q.contracted_intermediate, ein1 L.abcdijkl L.bacdkjil Q.contracted_intermediate],
    set1 X.contracted_intermediate (ein4 L.nmfe L.aejm L.fdkl L.bcin L.abcdijkl Q.g_abab_oaoavava Q.t2_abab Q.t2_aaaa Q.t2_aaaa),
    .aug X.quadruples_res [.arg Q.contracted_intermediate, ein1 L.abcdijkl L.abcdkjil Q.contracted_intermediate, ein1 L.abcdijkl L.bacdijkl Q.contracted_intermediate, ein1 L.abcdijkl L.bacdkjil Q.contracted_intermediate],
    set1 X.contracted_intermediate (ein4 L.nmef L.eajm L.fdik L.bcln L.abcdijkl Q.g_aaaa_oaoavava Q.t2_aaaa Q.t2_aaaa Q.t2_aaaa),
    .aug X.quadruples_res [.arg Q.contracted_intermediate, ein1 L.abcdijkl L.abcdjikl Q.contracted_intermediate, ein1 L.abcdijkl L.bacdijkl Q.contracted_intermediate, ein1 L.abcdijkl L.bacdjikl Q.contracted_intermediate],
    set1 X.contracted_intermediate (ein4 L.nmfe L.aejm L.fdik L.bcln L.abcdijkl Q.g_abab_oaoavava Q.t2_abab Q.t2_aaaa Q.t2_aaaa),
    .aug X.quadruples_res [.arg Q.contracted_intermediate, ein1 L.abcdijkl L.abcdjikl Q.contracted_intermediate, ein1 L.abcdijkl L.bacdijkl Q.contracted_intermediate, ein1 L.abcdijkl L.bacdjikl Q.contracted_intermediate],
    set1 X.contracted_intermediate (ein4 L.nmef L.eaim L.fbkl L.cdjn L.abcdijkl Q.g_aaaa_oaoavava Q.t2_aaaa Q.t2_aaaa Q.t2_aaaa),
    .aug X.quadruples_res [.arg Q.contracted_intermediate, ein1 L.abcdijkl L.abcdikjl Q.contracted_intermediate, ein1 L.abcdijkl L.acbdijkl Q.contracted_intermediate, ein1 L.abcdijkl L.acbdikjl Q.contracted_intermediate],
    set1 X.contracted_intermediate (ein4 L.nmfe L.aeim L.fbkl L.cdjn L.abcdijkl Q.g_abab_oaoavava Q.t2_abab Q.t2_aaaa Q.t2_aaaa),
    .aug X.quadruples_res [.arg Q.contracted_intermediate, ein1 L.abcdijkl L.abcdikjl Q.contracted_intermediate, ein1 L.abcdijkl L.acbdijkl Q.contracted_intermediate, ein1 L.abcdijkl L.acbdikjl Q.contracted_intermediate],
    set1 X.contracted_intermediate (ein4 L.nmef L.eaim L.fdkl L.bcjn L.abcdijkl Q.g_aaaa_oaoavava Q.t2_aaaa Q.t2_aaaa Q.t2_aaaa),
    .aug X.quadruples_res [.arg Q.contracted_intermediate, ein1 L.abcdijkl L.abcdikjl Q.contracted_intermediate, ein1 L.abcdijkl L.bacdijkl Q.contracted_intermediate, ein1 L.abcdijkl L.bacdikjl Q.contracted_intermediate],
    set1 X.contracted_intermediate (ein4 L.nmfe L.aeim L.fdkl L.bcjn L.abcdijkl Q.g_abab_oaoavava Q.t2_abab Q.t2_aaaa Q.t2_aaaa),
    .aug X.quadruples_res [.arg Q.contracted_intermediate, ein1 L.abcdijkl L.abcdikjl Q.contracted_intermediate, ein1 L.abcdijkl L.bacdijkl Q.contracted_intermediate, ein1 L.abcdijkl L.bacdikjl Q.contracted_intermediate],
    set1 X.contracted_intermediate (ein4 L.nmef L.eakl L.fbjm L.cdin L.abcdijkl Q.g_aaaa_oaoavava Q.t2_aaaa Q.t2_aaaa Q.t2_aaaa),
    .aug X.quadruples_res [.arg Q.contracted_intermediate, ein1 L.abcdijkl L.abcdjikl Q.contracted_intermediate, ein1 L.abcdijkl L.acbdijkl Q.contracted_intermediate, ein1 L.abcdijkl L.acbdjikl Q.contracted_intermediate],
    set1 X.contracted_intermediate (ein4 L.nmef L.eakl L.bfjm L.cdin L.abcdijkl Q.g_abab_oaoavava Q.t2_aaaa Q.t2_abab Q.t2_aaaa),
    .aug X.quadruples_res [.arg Q.contracted_intermediate, ein1 L.abcdijkl L.abcdjikl Q.contracted_intermediate, ein1 L.abcdijkl L.acbdijkl Q.contracted_intermediate, ein1 L.abcdijkl L.acbdjikl Q.contracted_intermediate],
    set1 X.contracted_intermediate (ein4 L.nmef L.eakl L.fbij L.cdnm L.abcdijkl Q.g_aaaa_oaoavava Q.t2_aaaa Q.t2_aaaa Q.t2_aaaa),
    .aug X.quadruples_res [.arg Q.contracted_intermediate, ein1 L.abcdijkl L.abcdikjl Q.contracted_intermediate, ein1 L.abcdijkl L.acbdijkl Q.contracted_intermediate, ein1 L.abcdijkl L.acbdikjl Q.contracted_intermediate],
    set1 X.contracted_intermediate (ein4 L.nmef L.eakl L.fdjm L.bcin L.abcdijkl Q.g_aaaa_oaoavava Q.t2_aaaa Q.t2_aaaa Q.t2_aaaa),
    .aug X.quadruples_res [.arg Q.contracted_intermediate, ein1 L.abcdijkl L.abcdjikl Q.contracted_intermediate, ein1 L.abcdijkl L.bacdijkl Q.contracted_intermediate, ein1 L.abcdijkl L.bacdjikl Q.contracted_intermediate],
    set1 X.contracted_intermediate (ein4 L.nmef L.eakl L.dfjm L.bcin L.abcdijkl Q.g_abab_oaoavava Q.t2_aaaa Q.t2_abab Q.t2_aaaa),
    .aug X.quadruples_res [.arg Q.contracted_intermediate, ein1 L.abcdijkl L.abcdjikl Q.contracted_intermediate, ein1 L.abcdijkl L.bacdijkl Q.contracted_intermediate, ein1 L.abcdijkl L.bacdjikl Q.contracted_intermediate],
    set1 X.contracted_intermediate (ein4 L.nmef L.eakl L.fdij L.bcnm L.abcdijkl Q.g_aaaa_oaoavava Q.t2_aaaa Q.t2_aaaa Q.t2_aaaa),
    .aug X.quadruples_res [.arg Q.contracted_intermediate, ein1 L.abcdijkl L.abcdikjl Q.contracted_intermediate, ein1 L.abcdijkl L.bacdijkl Q.contracted_intermediate, ein1 L.abcdijkl L.bacdikjl Q.contracted_intermediate],
    set1 X.contracted_intermediate (ein4 L.nmef L.eajl L.fbkm L.cdin L.abcdijkl Q.g_aaaa_oaoavava Q.t2_aaaa Q.t2_aaaa Q.t2_aaaa),
    .aug X.quadruples_res [.arg Q.contracted_intermediate, ein1 L.abcdijkl L.abcdkjil Q.contracted_intermediate, ein1 L.abcdijkl L.acbdijkl Q.contracted_intermediate, ein1 L.abcdijkl L.acbdkjil Q.contracted_intermediate],
    set1 X.contracted_intermediate (ein4 L.nmef L.eajl L.bfkm L.cdin L.abcdijkl Q.g_abab_oaoavava Q.t2_aaaa Q.t2_abab Q.t2_aaaa),
    .aug X.quadruples_res [.arg Q.contracted_intermediate, ein1 L.abcdijkl L.abcdkjil Q.contracted_intermediate, ein1 L.abcdijkl L.acbdijkl Q.contracted_intermediate, ein1 L.abcdijkl L.acbdkjil Q.contracted_intermediate],
    set1 X.contracted_intermediate (ein4 L.nmef L.eajl L.fdkm L.bcin L.abcdijkl Q.g_aaaa_oaoavava Q.t2_aaaa Q.t2_aaaa Q.t2_aaaa),
    .aug X.quadruples_res [.arg Q.contracted_intermediate, ein1 L.abcdijkl L.abcdkjil Q.contracted_intermediate, ein1 L.abcdijkl L.bacdijkl Q.contracted_intermediate, ein1 L.abcdijkl L.bacdkjil Q.contracted_intermediate],
    set1 X.contracted_intermediate (ein4 L.nmef L.eajl L.dfkm L.bcin L.abcdijkl Q.g_abab_oaoavava Q.t2_aaaa Q.t2_abab Q.t2_aaaa),
    .aug X.quadruples_res [.arg Q.contracted_intermediate, ein1 L.abcdijkl L.abcdkjil Q.contracted_intermediate, ein1 L.abcdijkl L.bacdijkl Q.contracted_intermediate, ein1 L.abcdijkl L.bacdkjil Q.contracted_intermediate],
    set1 X.contracted_intermediate (ein4 L.nmef L.eail L.fbkm L.cdjn L.abcdijkl Q.g_aaaa_oaoavava Q.t2_aaaa Q.t2_aaaa Q.t2_aaaa),
    .aug X.quadruples_res [.arg Q.contracted_intermediate, ein1 L.abcdijkl L.abcdikjl Q.contracted_intermediate, ein1 L.abcdijkl L.acbdijkl Q.contracted_intermediate, ein1 L.abcdijkl L.acbdikjl Q.contracted_intermediate],
    set1 X.contracted_intermediate (ein4 L.nmef L.eail L.bfkm L.cdjn L.abcdijkl Q.g_abab_oaoavava Q.t2_aaaa Q.t2_abab Q.t2_aaaa),
    .aug X.quadruples_res [.arg Q.contracted_intermediate, ein1 L.abcdijkl L.abcdikjl Q.contracted_intermediate, ein1 L.abcdijkl L.acbdijkl Q.contracted_intermediate, ein1 L.abcdijkl L.acbdikjl Q.contracted_intermediate],
    set1 X.contracted_intermediate (ein4 L.nmef L.eail L.fbjk L.cdnm L.abcdijkl Q.g_aaaa_oaoavava Q.t2_aaaa Q.t2_aaaa Q.t2_aaaa),
    .aug X.quadruples_res [.arg Q.contracted_intermediate, ein1 L.abcdijkl L.abcdijlk Q.contracted_intermediate, ein1 L.abcdijkl L.acbdijkl Q.contracted_intermediate, ein1 L.abcdijkl L.acbdijlk Q.contracted_intermediate],
    set1 X.contracted_intermediate (ein4 L.nmef L.eail L.fdkm L.bcjn L.abcdijkl Q.g_aaaa_oaoavava Q.t2_aaaa Q.t2_aaaa Q.t2_aaaa),
    .aug X.quadruples_res [.arg Q.contracted_intermediate, ein1 L.abcdijkl L.abcdikjl Q.contracted_intermediate, ein1 L.abcdijkl L.bacdijkl Q.contracted_intermediate, ein1 L.abcdijkl L.bacdikjl Q.contracted_intermediate],
    set1 X.contracted_intermediate (ein4 L.nmef L.eail L.dfkm L.bcjn L.abcdijkl Q.g_abab_oaoavava Q.t2_aaaa Q.t2_abab Q.t2_aaaa),
    .aug X.quadruples_res [.arg Q.contracted_intermediate, ein1 L.abcdijkl L.abcdikjl Q.contracted_intermediate, ein1 L.abcdijkl L.bacdijkl Q.contracted_intermediate, ein1 L.abcdijkl L.bacdikjl Q.contracted_intermediate],
    set1 X.contracted_intermediate (ein4 L.nmef L.eail L.fdjk L.bcnm L.abcdijkl Q.g_aaaa_oaoavava Q.t2_aaaa Q.t2_aaaa Q.t2_aaaa),
    .aug X.quadruples_res [.arg Q.contracted_intermediate, ein1 L.abcdijkl L.abcdijlk Q.contracted_intermediate, ein1 L.abcdijkl L.bacdijkl Q.contracted_intermediate, ein1 L.abcdijkl L.bacdijlk Q.contracted_intermediate],
    set1 X.contracted_intermediate (ein4 L.nmef L.eajk L.fblm L.cdin L.abcdijkl Q.g_aaaa_oaoavava Q.t2_aaaa Q.t2_aaaa Q.t2_aaaa),
    .aug X.quadruples_res [.arg Q.contracted_intermediate, ein1 L.abcdijkl L.abcdljki Q.contracted_intermediate, ein1 L.abcdijkl L.acbdijkl Q.contracted_intermediate, ein1 L.abcdijkl L.acbdljki Q.contracted_intermediate],
    set1 X.contracted_intermediate (ein4 L.nmef L.eajk L.bflm L.cdin L.abcdijkl Q.g_abab_oaoavava Q.t2_aaaa Q.t2_abab Q.t2_aaaa),
    .aug X.quadruples_res [.arg Q.contracted_intermediate, ein1 L.abcdijkl L.abcdljki Q.contracted_intermediate, ein1 L.abcdijkl L.acbdijkl Q.contracted_intermediate, ein1 L.abcdijkl L.acbdljki Q.contracted_intermediate],
    set1 X.contracted_intermediate (ein4 L.nmef L.eajk L.fbil L.cdnm L.abcdijkl Q.g_aaaa_oaoavava Q.t2_aaaa Q.t2_aaaa Q.t2_aaaa),
    .aug X.quadruples_res [.arg Q.contracted_intermediate, ein1 L.abcdijkl L.abcdkjil Q.contracted_intermediate, ein1 L.abcdijkl L.acbdijkl Q.contracted_intermediate, ein1 L.abcdijkl L.acbdkjil Q.contracted_intermediate],
    set1 X.contracted_intermediate (ein4 L.nmef L.eajk L.fdlm L.bcin L.abcdijkl Q.g_aaaa_oaoavava Q.t2_aaaa Q.t2_aaaa Q.t2_aaaa),
    .aug X.quadruples_res [.arg Q.contracted_intermediate, ein1 L.abcdijkl L.abcdljki Q.contracted_intermediate, ein1 L.abcdijkl L.bacdijkl Q.contracted_intermediate, ein1 L.abcdijkl L.bacdljki Q.contracted_intermediate],
    set1 X.contracted_intermediate (ein4 L.nmef L.eajk L.dflm L.bcin L.abcdijkl Q.g_abab_oaoavava Q.t2_aaaa Q.t2_abab Q.t2_aaaa),
    .aug X.quadruples_res [.arg Q.contracted_intermediate, ein1 L.abcdijkl L.abcdljki Q.contracted_intermediate, ein1 L.abcdijkl L.bacdijkl Q.contracted_intermediate, ein1 L.abcdijkl L.bacdljki Q.contracted_intermediate],
    set1 X.contracted_intermediate (ein4 L.nmef L.eajk L.fdil L.bcnm L.abcdijkl Q.g_aaaa_oaoavava Q.t2_aaaa Q.t2_aaaa Q.t2_aaaa),
    .aug X.quadruples_res [.arg Q.contracted_intermediate, ein1 L.abcdijkl L.abcdkjil Q.contracted_intermediate, ein1 L.abcdijkl L.bacdijkl Q.contracted_intermediate, ein1 L.abcdijkl L.bacdkjil Q.contracted_intermediate],
    set1 X.contracted_intermediate (ein4 L.nmef L.eaik L.fblm L.cdjn L.abcdijkl Q.g_aaaa_oaoavava Q.t2_aaaa Q.t2_aaaa Q.t2_aaaa),
    .aug X.quadruples_res [.arg Q.contracted_intermediate, ein1 L.abcdijkl L.abcdilkj Q.contracted_intermediate, ein1 L.abcdijkl L.acbdijkl Q.contracted_intermediate, ein1 L.abcdijkl L.acbdilkj Q.contracted_intermediate],
    set1 X.contracted_intermediate (ein4 L.nmef L.eaik L.bflm L.cdjn L.abcdijkl Q.g_abab_oaoavava Q.t2_aaaa Q.t2_abab Q.t2_aaaa),
    .aug X.quadruples_res [.arg Q.contracted_intermediate, ein1 L.abcdijkl L.abcdilkj Q.contracted_intermediate, ein1 L.abcdijkl L.acbdijkl Q.contracted_intermediate, ein1 L.abcdijkl L.acbdilkj Q.contracted_intermediate],
    set1 X.contracted_intermediate (ein4 L.nmef L.eaik L.fdlm L.bcjn L.abcdijkl Q.g_aaaa_oaoavava Q.t2_aaaa Q.t2_aaaa Q.t2_aaaa),
    .aug X.quadruples_res [.arg Q.contracted_intermediate, ein1 L.abcdijkl L.abcdilkj Q.contracted_intermediate, ein1 L.abcdijkl L.bacdijkl Q.contracted_intermediate, ein1 L.abcdijkl L.bacdilkj Q.contracted_intermediate],
    set1 X.contracted_intermediate (ein4 L.nmef L.eaik L.dflm L.bcjn L.abcdijkl Q.g_abab_oaoavava Q.t2_aaaa Q.t2_abab Q.t2_aaaa),
    .aug X.quadruples_res [.arg Q.contracted_intermediate, ein1 L.abcdijkl L.abcdilkj Q.contracted_intermediate, ein1 L.abcdijkl L.bacdijkl Q.contracted_intermediate, ein1 L.abcdijkl L.bacdilkj Q.contracted_intermediate],
    set1 X.contracted_intermediate (ein4 L.nmef L.eaij L.fblm L.cdkn L.abcdijkl Q.g_aaaa_oaoavava Q.t2_aaaa Q.t2_aaaa Q.t2_aaaa),
    .aug X.quadruples_res [.arg Q.contracted_intermediate, ein1 L.abcdijkl L.abcdijlk Q.contracted_intermediate, ein1 L.abcdijkl L.acbdijkl Q.contracted_intermediate, ein1 L.abcdijkl L.acbdijlk Q.contracted_intermediate],
    set1 X.contracted_intermediate (ein4 L.nmef L.eaij L.bflm L.cdkn L.abcdijkl Q.g_abab_oaoavava Q.t2_aaaa Q.t2_abab Q.t2_aaaa),
    .aug X.quadruples_res [.arg Q.contracted_intermediate, ein1 L.abcdijkl L.abcdijlk Q.contracted_intermediate, ein1 L.abcdijkl L.acbdijkl Q.contracted_intermediate, ein1 L.abcdijkl L.acbdijlk Q.contracted_intermediate],
    set1 X.contracted_intermediate (ein4 L.nmef L.eaij L.fdlm L.bckn L.abcdijkl Q.g_aaaa_oaoavava Q.t2_aaaa Q.t2_aaaa Q.t2_aaaa),
    .aug X.quadruples_res [.arg Q.contracted_intermediate, ein1 L.abcdijkl L.abcdijlk Q.contracted_intermediate, ein1 L.abcdijkl L.bacdijkl Q.contracted_intermediate, ein1 L.abcdijkl L.bacdijlk Q.contracted_intermediate],
    set1 X.contracted_intermediate (ein4 L.nmef L.eaij L.dflm L.bckn L.abcdijkl Q.g_abab_oaoavava Q.t2_aaaa Q.t2_abab Q.t2_aaaa),
    .aug X.quadruples_res [.arg Q.contracted_intermediate, ein1 L.abcdijkl L.abcdijlk Q.contracted_intermediate, ein1 L.abcdijkl L.bacdijkl Q.contracted_intermediate, ein1 L.abcdijkl L.bacdijlk Q.contracted_intermediate],
    set1 X.contracted_intermediate (ein4 L.nmef L.eblm L.fcjk L.adin L.abcdijkl Q.g_aaaa_oaoavava Q.t2_aaaa Q.t2_aaaa Q.t2_aaaa),
    .aug X.quadruples_res [.arg Q.contracted_intermediate, ein1 L.abcdijkl L.abcdjikl Q.contracted_intermediate],
    set1 X.contracted_intermediate (ein4 L.nmfe L.belm L.fcjk L.adin L.abcdijkl Q.g_abab_oaoavava Q.t2_abab Q.t2_aaaa Q.t2_aaaa),
    .aug X.quadruples_res [.arg Q.contracted_intermediate, ein1 L.abcdijkl L.abcdjikl Q.contracted_intermediate],
    set1 X.contracted_intermediate (ein4 L.nmef L.eblm L.fcij L.adkn L.abcdijkl Q.g_aaaa_oaoavava Q.t2_aaaa Q.t2_aaaa Q.t2_aaaa),
    .aug X.quadruples_res [.arg Q.contracted_intermediate, ein1 L.abcdijkl L.abcdijlk Q.contracted_intermediate],
    set1 X.contracted_intermediate (ein4 L.nmfe L.belm L.fcij L.adkn L.abcdijkl Q.g_abab_oaoavava Q.t2_abab Q.t2_aaaa Q.t2_aaaa),
    .aug X.quadruples_res [.arg Q.contracted_intermediate, ein1 L.abcdijkl L.abcdijlk Q.contracted_intermediate],
    set1 X.contracted_intermediate (ein4 L.nmef L.ebkm L.fcjl L.adin L.abcdijkl Q.g_aaaa_oaoavava Q.t2_aaaa Q.t2_aaaa Q.t2_aaaa),
    .aug X.quadruples_res [.arg Q.contracted_intermediate, ein1 L.abcdijkl L.abcdjikl Q.contracted_intermediate],
    set1 X.contracted_intermediate (ein4 L.nmfe L.bekm L.fcjl L.adin L.abcdijkl Q.g_abab_oaoavava Q.t2_abab Q.t2_aaaa Q.t2_aaaa),
    .aug X.quadruples_res [.arg Q.contracted_intermediate, ein1 L.abcdijkl L.abcdjikl Q.contracted_intermediate],
    set1 X.contracted_intermediate (ein4 L.nmef L.ebjm L.fckl L.adin L.abcdijkl Q.g_aaaa_oaoavava Q.t2_aaaa Q.t2_aaaa Q.t2_aaaa),
    .aug X.quadruples_res [.arg Q.contracted_intermediate, ein1 L.abcdijkl L.abcdkjil Q.contracted_intermediate],
    set1 X.contracted_intermediate (ein4 L.nmfe L.bejm L.fckl L.adin L.abcdijkl Q.g_abab_oaoavava Q.t2_abab Q.t2_aaaa Q.t2_aaaa),
    .aug X.quadruples_res [.arg Q.contracted_intermediate, ein1 L.abcdijkl L.abcdkjil Q.contracted_intermediate],
    set1 X.contracted_intermediate (ein4 L.nmef L.ebjm L.fcik L.adln L.abcdijkl Q.g_aaaa_oaoavava Q.t2_aaaa Q.t2_aaaa Q.t2_aaaa),
    .aug X.quadruples_res [.arg Q.contracted_intermediate, ein1 L.abcdijkl L.abcdjikl Q.contracted_intermediate],
    set1 X.contracted_intermediate (ein4 L.nmfe L.bejm L.fcik L.adln L.abcdijkl Q.g_abab_oaoavava Q.t2_abab Q.t2_aaaa Q.t2_aaaa),
    .aug X.quadruples_res [.arg Q.contracted_intermediate, ein1 L.abcdijkl L.abcdjikl Q.contracted_intermediate],
    set1 X.contracted_intermediate (ein4 L.nmef L.ebim L.fckl L.adjn L.abcdijkl Q.g_aaaa_oaoavava Q.t2_aaaa Q.t2_aaaa Q.t2_aaaa),
    .aug X.quadruples_res [.arg Q.contracted_intermediate, ein1 L.abcdijkl L.abcdikjl Q.contracted_intermediate],
    set1 X.contracted_intermediate (ein4 L.nmfe L.beim L.fckl L.adjn L.abcdijkl Q.g_abab_oaoavava Q.t2_abab Q.t2_aaaa Q.t2_aaaa),
    .aug X.quadruples_res [.arg Q.contracted_intermediate, ein1 L.abcdijkl L.abcdikjl Q.contracted_intermediate],
    set1 X.contracted_intermediate (ein4 L.nmef L.ebkl L.fcjm L.adin L.abcdijkl Q.g_aaaa_oaoavava Q.t2_aaaa Q.t2_aaaa Q.t2_aaaa),
    .aug X.quadruples_res [.arg Q.contracted_intermediate, ein1 L.abcdijkl L.abcdjikl Q.contracted_intermediate],
    set1 X.contracted_intermediate (ein4 L.nmef L.ebkl L.cfjm L.adin L.abcdijkl Q.g_abab_oaoavava Q.t2_aaaa Q.t2_abab Q.t2_aaaa),
    .aug X.quadruples_res [.arg Q.contracted_intermediate, ein1 L.abcdijkl L.abcdjikl Q.contracted_intermediate],
    set1 X.contracted_intermediate (ein4 L.nmef L.ebkl L.fcij L.adnm L.abcdijkl Q.g_aaaa_oaoavava Q.t2_aaaa Q.t2_aaaa Q.t2_aaaa),
    .aug X.quadruples_res [.arg Q.contracted_intermediate, ein1 L.abcdijkl L.abcdikjl Q.contracted_intermediate],
    set1 X.contracted_intermediate (ein4 L.nmef L.ebjl L.fckm L.adin L.abcdijkl Q.g_aaaa_oaoavava Q.t2_aaaa Q.t2_aaaa Q.t2_aaaa),
    .aug X.quadruples_res [.arg Q.contracted_intermediate, ein1 L.abcdijkl L.abcdkjil Q.contracted_intermediate],
    set1 X.contracted_intermediate (ein4 L.nmef L.ebjl L.cfkm L.adin L.abcdijkl Q.g_abab_oaoavava Q.t2_aaaa Q.t2_abab Q.t2_aaaa),
    .aug X.quadruples_res [.arg Q.contracted_intermediate, ein1 L.abcdijkl L.abcdkjil Q.contracted_intermediate],
    set1 X.contracted_intermediate (ein4 L.nmef L.ebil L.fckm L.adjn L.abcdijkl Q.g_aaaa_oaoavava Q.t2_aaaa Q.t2_aaaa Q.t2_aaaa),
    .aug X.quadruples_res [.arg Q.contracted_intermediate, ein1 L.abcdijkl L.abcdikjl Q.contracted_intermediate],
    set1 X.contracted_intermediate (ein4 L.nmef L.ebil L.cfkm L.adjn L.abcdijkl Q.g_abab_oaoavava Q.t2_aaaa Q.t2_abab Q.t2_aaaa),
    .aug X.quadruples_res [.arg Q.contracted_intermediate, ein1 L.abcdijkl L.abcdikjl Q.contracted_intermediate],
    set1 X.contracted_intermediate (ein4 L.nmef L.ebil L.fcjk L.adnm L.abcdijkl Q.g_aaaa_oaoavava Q.t2_aaaa Q.t2_aaaa Q.t2_aaaa),
    .aug X.quadruples_res [.arg Q.contracted_intermediate, ein1 L.abcdijkl L.abcdijlk Q.contracted_intermediate],
    set1 X.contracted_intermediate (ein4 L.nmef L.ebjk L.fclm L.adin L.abcdijkl Q.g_aaaa_oaoavava Q.t2_aaaa Q.t2_aaaa Q.t2_aaaa),
    .aug X.quadruples_res [.arg Q.contracted_intermediate, ein1 L.abcdijkl L.abcdljki Q.contracted_intermediate],
    set1 X.contracted_intermediate (ein4 L.nmef L.ebjk L.cflm L.adin L.abcdijkl Q.g_abab_oaoavava Q.t2_aaaa Q.t2_abab Q.t2_aaaa),
    .aug X.quadruples_res [.arg Q.contracted_intermediate, ein1 L.abcdijkl L.abcdljki Q.contracted_intermediate],
    set1 X.contracted_intermediate (ein4 L.nmef L.ebjk L.fcil L.adnm L.abcdijkl Q.g_aaaa_oaoavava Q.t2_aaaa Q.t2_aaaa Q.t2_aaaa),
    .aug X.quadruples_res [.arg Q.contracted_intermediate, ein1 L.abcdijkl L.abcdkjil Q.contracted_intermediate],
    set1 X.contracted_intermediate (ein4 L.nmef L.ebik L.fclm L.adjn L.abcdijkl Q.g_aaaa_oaoavava Q.t2_aaaa Q.t2_aaaa Q.t2_aaaa),
    .aug X.quadruples_res [.arg Q.contracted_intermediate, ein1 L.abcdijkl L.abcdilkj Q.contracted_intermediate],
    set1 X.contracted_intermediate (ein4 L.nmef L.ebik L.cflm L.adjn L.abcdijkl Q.g_abab_oaoavava Q.t2_aaaa Q.t2_abab Q.t2_aaaa),
    .aug X.quadruples_res [.arg Q.contracted_intermediate, ein1 L.abcdijkl L.abcdilkj Q.contracted_intermediate],
    set1 X.contracted_intermediate (ein4 L.nmef L.ebij L.fclm L.adkn L.abcdijkl Q.g_aaaa_oaoavava Q.t2_aaaa Q.t2_aaaa Q.t2_aaaa),
    .aug X.quadruples_res [.arg Q.contracted_intermediate, ein1 L.abcdijkl L.abcdijlk Q.contracted_intermediate],
    set1 X.contracted_intermediate (ein4 L.nmef L.ebij L.cflm L.adkn L.abcdijkl Q.g_abab_oaoavava Q.t2_aaaa Q.t2_abab Q.t2_aaaa),
    .aug X.quadruples_res [.arg Q.contracted_intermediate, ein1 L.abcdijkl L.abcdijlk Q.contracted_intermediate],
    set1 X.contracted_intermediate (ein4 L.nmef L.eclm L.fdjk L.abin L.abcdijkl Q.g_aaaa_oaoavava Q.t2_aaaa Q.t2_aaaa Q.t2_aaaa),
    .aug X.quadruples_res [.arg Q.contracted_intermediate, ein1 L.abcdijkl L.abcdjikl Q.contracted_intermediate],
    set1 X.contracted_intermediate (ein4 L.nmfe L.celm L.fdjk L.abin L.abcdijkl Q.g_abab_oaoavava Q.t2_abab Q.t2_aaaa Q.t2_aaaa),
    .aug X.quadruples_res [.arg Q.contracted_intermediate, ein1 L.abcdijkl L.abcdjikl Q.contracted_intermediate],
    set1 X.contracted_intermediate (ein4 L.nmef L.eclm L.fdij L.abkn L.abcdijkl Q.g_aaaa_oaoavava Q.t2_aaaa Q.t2_aaaa Q.t2_aaaa),
    .aug X.quadruples_res [.arg Q.contracted_intermediate, ein1 L.abcdijkl L.abcdijlk Q.contracted_intermediate],
    set1 X.contracted_intermediate (ein4 L.nmfe L.celm L.fdij L.abkn L.abcdijkl Q.g_abab_oaoavava Q.t2_abab Q.t2_aaaa Q.t2_aaaa),
    .aug X.quadruples_res [.arg Q.contracted_intermediate, ein1 L.abcdijkl L.abcdijlk Q.contracted_intermediate],
    set1 X.contracted_intermediate (ein4 L.nmef L.eckm L.fdjl L.abin L.abcdijkl Q.g_aaaa_oaoavava Q.t2_aaaa Q.t2_aaaa Q.t2_aaaa),
    .aug X.quadruples_res [.arg Q.contracted_intermediate, ein1 L.abcdijkl L.abcdjikl Q.contracted_intermediate],
    set1 X.contracted_intermediate (ein4 L.nmfe L.cekm L.fdjl L.abin L.abcdijkl Q.g_abab_oaoavava Q.t2_abab Q.t2_aaaa Q.t2_aaaa),
    .aug X.quadruples_res [.arg Q.contracted_intermediate, ein1 L.abcdijkl L.abcdjikl Q.contracted_intermediate],
    set1 X.contracted_intermediate (ein4 L.nmef L.ecjm L.fdkl L.abin L.abcdijkl Q.g_aaaa_oaoavava Q.t2_aaaa Q.t2_aaaa Q.t2_aaaa),
    .aug X.quadruples_res [.arg Q.contracted_intermediate, ein1 L.abcdijkl L.abcdkjil Q.contracted_intermediate],
    set1 X.contracted_intermediate (ein4 L.nmfe L.cejm L.fdkl L.abin L.abcdijkl Q.g_abab_oaoavava Q.t2_abab Q.t2_aaaa Q.t2_aaaa),
    .aug X.quadruples_res [.arg Q.contracted_intermediate, ein1 L.abcdijkl L.abcdkjil Q.contracted_intermediate],
    set1 X.contracted_intermediate (ein4 L.nmef L.ecjm L.fdik L.abln L.abcdijkl Q.g_aaaa_oaoavava Q.t2_aaaa Q.t2_aaaa Q.t2_aaaa),
    .aug X.quadruples_res [.arg Q.contracted_intermediate, ein1 L.abcdijkl L.abcdjikl Q.contracted_intermediate],
    set1 X.contracted_intermediate (ein4 L.nmfe L.cejm L.fdik L.abln L.abcdijkl Q.g_abab_oaoavava Q.t2_abab Q.t2_aaaa Q.t2_aaaa),
    .aug X.quadruples_res [.arg Q.contracted_intermediate, ein1 L.abcdijkl L.abcdjikl Q.contracted_intermediate],
    set1 X.contracted_intermediate (ein4 L.nmef L.ecim L.fdkl L.abjn L.abcdijkl Q.g_aaaa_oaoavava Q.t2_aaaa Q.t2_aaaa Q.t2_aaaa),
    .aug X.quadruples_res [.arg Q.contracted_intermediate, ein1 L.abcdijkl L.abcdikjl Q.contracted_intermediate],
    set1 X.contracted_intermediate (ein4 L.nmfe L.ceim L.fdkl L.abjn L.abcdijkl Q.g_abab_oaoavava Q.t2_abab Q.t2_aaaa Q.t2_aaaa),
    .aug X.quadruples_res [.arg Q.contracted_intermediate, ein1 L.abcdijkl L.abcdikjl Q.contracted_intermediate],
    set1 X.contracted_intermediate (ein4 L.nmef L.eckl L.fdjm L.abin L.abcdijkl Q.g_aaaa_oaoavava Q.t2_aaaa Q.t2_aaaa Q.t2_aaaa),
    .aug X.quadruples_res [.arg Q.contracted_intermediate, ein1 L.abcdijkl L.abcdjikl Q.contracted_intermediate],
    set1 X.contracted_intermediate (ein4 L.nmef L.eckl L.dfjm L.abin L.abcdijkl Q.g_abab_oaoavava Q.t2_aaaa Q.t2_abab Q.t2_aaaa),
    .aug X.quadruples_res [.arg Q.contracted_intermediate, ein1 L.abcdijkl L.abcdjikl Q.contracted_intermediate],
    set1 X.contracted_intermediate (ein4 L.nmef L.eckl L.fdij L.abnm L.abcdijkl Q.g_aaaa_oaoavava Q.t2_aaaa Q.t2_aaaa Q.t2_aaaa),
    .aug X.quadruples_res [.arg Q.contracted_intermediate, ein1 L.abcdijkl L.abcdikjl Q.contracted_intermediate],
    set1 X.contracted_intermediate (ein4 L.nmef L.ecjl L.fdkm L.abin L.abcdijkl Q.g_aaaa_oaoavava Q.t2_aaaa Q.t2_aaaa Q.t2_aaaa),
    .aug X.quadruples_res [.arg Q.contracted_intermediate, ein1 L.abcdijkl L.abcdkjil Q.contracted_intermediate],
    set1 X.contracted_intermediate (ein4 L.nmef L.ecjl L.dfkm L.abin L.abcdijkl Q.g_abab_oaoavava Q.t2_aaaa Q.t2_abab Q.t2_aaaa),
    .aug X.quadruples_res [.arg Q.contracted_intermediate, ein1 L.abcdijkl L.abcdkjil Q.contracted_intermediate],
    set1 X.contracted_intermediate (ein4 L.nmef L.ecil L.fdkm L.abjn L.abcdijkl Q.g_aaaa_oaoavava Q.t2_aaaa Q.t2_aaaa Q.t2_aaaa),
    .aug X.quadruples_res [.arg Q.contracted_intermediate, ein1 L.abcdijkl L.abcdikjl Q.contracted_intermediate],
    set1 X.contracted_intermediate (ein4 L.nmef L.ecil L.dfkm L.abjn L.abcdijkl Q.g_abab_oaoavava Q.t2_aaaa Q.t2_abab Q.t2_aaaa),
    .aug X.quadruples_res [.arg Q.contracted_intermediate, ein1 L.abcdijkl L.abcdikjl Q.contracted_intermediate],
    set1 X.contracted_intermediate (ein4 L.nmef L.ecil L.fdjk L.abnm L.abcdijkl Q.g_aaaa_oaoavava Q.t2_aaaa Q.t2_aaaa Q.t2_aaaa),
    .aug X.quadruples_res [.arg Q.contracted_intermediate, ein1 L.abcdijkl L.abcdijlk Q.contracted_intermediate],
    set1 X.contracted_intermediate (ein4 L.nmef L.ecjk L.fdlm L.abin L.abcdijkl Q.g_aaaa_oaoavava Q.t2_aaaa Q.t2_aaaa Q.t2_aaaa),
    .aug X.quadruples_res [.arg Q.contracted_intermediate, ein1 L.abcdijkl L.abcdljki Q.contracted_intermediate],
    set1 X.contracted_intermediate (ein4 L.nmef L.ecjk L.dflm L.abin L.abcdijkl Q.g_abab_oaoavava Q.t2_aaaa Q.t2_abab Q.t2_aaaa),
    .aug X.quadruples_res [.arg Q.contracted_intermediate, ein1 L.abcdijkl L.abcdljki Q.contracted_intermediate],
    set1 X.contracted_intermediate (ein4 L.nmef L.ecjk L.fdil L.abnm L.abcdijkl Q.g_aaaa_oaoavava Q.t2_aaaa Q.t2_aaaa Q.t2_aaaa),
    .aug X.quadruples_res [.arg Q.contracted_intermediate, ein1 L.abcdijkl L.abcdkjil Q.contracted_intermediate],
    set1 X.contracted_intermediate (ein4 L.nmef L.ecik L.fdlm L.abjn L.abcdijkl Q.g_aaaa_oaoavava Q.t2_aaaa Q.t2_aaaa Q.t2_aaaa),
    .aug X.quadruples_res [.arg Q.contracted_intermediate, ein1 L.abcdijkl L.abcdilkj Q.contracted_intermediate],
    set1 X.contracted_intermediate (ein4 L.nmef L.ecik L.dflm L.abjn L.abcdijkl Q.g_abab_oaoavava Q.t2_aaaa Q.t2_abab Q.t2_aaaa),
    .aug X.quadruples_res [.arg Q.contracted_intermediate, ein1 L.abcdijkl L.abcdilkj Q.contracted_intermediate],
    set1 X.contracted_intermediate (ein4 L.nmef L.ecij L.fdlm L.abkn L.abcdijkl Q.g_aaaa_oaoavava Q.t2_aaaa Q.t2_aaaa Q.t2_aaaa),
    .aug X.quadruples_res [.arg Q.contracted_intermediate, ein1 L.abcdijkl L.abcdijlk Q.contracted_intermediate],
    set1 X.contracted_intermediate (ein4 L.nmef L.ecij L.dflm L.abkn L.abcdijkl Q.g_abab_oaoavava Q.t2_aaaa Q.t2_abab Q.t2_aaaa),
    .aug X.quadruples_res [.arg Q.contracted_intermediate, ein1 L.abcdijkl L.abcdijlk Q.contracted_intermediate]]
  ret := [Q.quadruples_res]

/-- `ccdq_resids.py` 1421-2679: `ccdq_t4_aaabaaab_residual`; 737 einsum calls. -/
def ccdq_resids_ccdq_t4_aaabaaab_residual : Fn where
  params := [X.f_bb, X.t4_aaabaaab, X.f_aa, X.g_abab, X.g_aaaa, X.t4_aabbaabb, X.t4_aaaaaaaa, X.g_bbbb, X.t2_abab, X.t2_bbbb, X.t2_aaaa]
  body := [
    set1 X.quadruples_res (ein2 L.ml L.abcdijkm L.abcdijkl Q.f_bb_oaoa Q.t4_aaabaaab_xxxxxxxx),
    aug1 X.quadruples_res (ein2 L.mk L.abcdijml L.abcdijkl Q.f_aa_oaoa Q.t4_aaabaaab_xxxxxxxx),
    set1 X.contracted_intermediate (ein2 L.mj L.abcdikml L.abcdijkl Q.f_aa_oaoa Q.t4_aaabaaab_xxxxxxxx),
    .aug X.quadruples_res [.arg Q.contracted_intermediate, ein1 L.abcdijkl L.abcdjikl Q.contracted_intermediate],
    set1 X.contracted_intermediate (ein2 L.ae L.ebcdijkl L.abcdijkl Q.f_aa_vava Q.t4_aaabaaab_xxxxxxxx),
    .aug X.quadruples_res [.arg Q.contracted_intermediate, ein1 L.abcdijkl L.bacdijkl Q.contracted_intermediate],
    aug1 X.quadruples_res (ein2 L.ce L.eabdijkl L.abcdijkl Q.f_aa_vava Q.t4_aaabaaab_xxxxxxxx),
    aug1 X.quadruples_res (ein2 L.de L.cabeijkl L.abcdijkl Q.f_bb_vava Q.t4_aaabaaab_xxxxxxxx),
    set1 X.contracted_intermediate (ein2 L.nmkl L.abcdijnm L.abcdijkl Q.g_abab_oaoaoaoa Q.t4_aaabaaab_xxxxxxxx),
    .aug X.quadruples_res [.arg Q.contracted_intermediate, ein1 L.abcdijkl L.abcdikjl Q.contracted_intermediate],
    set1 X.contracted_intermediate (ein2 L.mnkl L.abcdijmn L.abcdijkl Q.g_abab_oaoaoaoa Q.t4_aaabaaab_xxxxxxxx),
    .aug X.quadruples_res [.arg Q.contracted_intermediate, ein1 L.abcdijkl L.abcdikjl Q.contracted_intermediate],
    aug1 X.quadruples_res (ein2 L.nmil L.abcdjknm L.abcdijkl Q.g_abab_oaoaoaoa Q.t4_aaabaaab_xxxxxxxx),
    aug1 X.quadruples_res (ein2 L.mnil L.abcdjkmn L.abcdijkl Q.g_abab_oaoaoaoa Q.t4_aaabaaab_xxxxxxxx),
    aug1 X.quadruples_res (ein2 L.nmik L.abcdjmnl L.abcdijkl Q.g_aaaa_oaoaoaoa Q.t4_aaabaaab_xxxxxxxx),
    set1 X.contracted_intermediate (ein2 L.nmjk L.abcdimnl L.abcdijkl Q.g_aaaa_oaoaoaoa Q.t4_aaabaaab_xxxxxxxx),
    .aug X.quadruples_res [.arg Q.contracted_intermediate, ein1 L.abcdijkl L.abcdkjil Q.contracted_intermediate],
    set1 X.contracted_intermediate (ein2 L.amel L.ebcdijkm L.abcdijkl Q.g_abab_vaoavaoa Q.t4_aaabaaab_xxxxxxxx),
    .aug X.quadruples_res [.arg Q.contracted_intermediate, ein1 L.abcdijkl L.bacdijkl Q.contracted_intermediate],
    set1 X.contracted_intermediate (ein2 L.maek L.ebcdijml L.abcdijkl Q.g_aaaa_oavavaoa Q.t4_aaabaaab_xxxxxxxx),
    .aug X.quadruples_res [.arg Q.contracted_intermediate, ein1 L.abcdijkl L.bacdijkl Q.contracted_intermediate],
    set1 X.contracted_intermediate (ein2 L.amke L.cbedijlm L.abcdijkl Q.g_abab_vaoaoava Q.t4_aabbaabb_xxxxxxxx),
    .aug X.quadruples_res [.arg Q.contracted_intermediate, ein1 L.abcdijkl L.bacdijkl Q.contracted_intermediate],
    set1 X.contracted_intermediate (ein2 L.maej L.ebcdikml L.abcdijkl Q.g_aaaa_oavavaoa Q.t4_aaabaaab_xxxxxxxx),
    .aug X.quadruples_res [.arg Q.contracted_intermediate, ein1 L.abcdijkl L.abcdjikl Q.contracted_intermediate, ein1 L.abcdijkl L.bacdijkl Q.contracted_intermediate, ein1 L.abcdijkl L.bacdjikl Q.contracted_intermediate],
    set1 X.contracted_intermediate (ein2 L.amje L.cbediklm L.abcdijkl Q.g_abab_vaoaoava Q.t4_aabbaabb_xxxxxxxx),
    .aug X.quadruples_res [.arg Q.contracted_intermediate, ein1 L.abcdijkl L.abcdjikl Q.contracted_intermediate, ein1 L.abcdijkl L.bacdijkl Q.contracted_intermediate, ein1 L.abcdijkl L.bacdjikl Q.contracted_intermediate],
    aug1 X.quadruples_res (ein2 L.cmel L.eabdijkm L.abcdijkl Q.g_abab_vaoavaoa Q.t4_aaabaaab_xxxxxxxx),
    aug1 X.quadruples_res (ein2 L.mdel L.eabcijkm L.abcdijkl Q.g_abab_oavavaoa Q.t4_aaaaaaaa_xxxxxxxx),
    aug1 X.quadruples_res (ein2 L.mdel L.cabeijkm L.abcdijkl Q.g_bbbb_oavavaoa Q.t4_aaabaaab_xxxxxxxx),
    aug1 X.quadruples_res (ein2 L.mcek L.eabdijml L.abcdijkl Q.g_aaaa_oavavaoa Q.t4_aaabaaab_xxxxxxxx),
    aug1 X.quadruples_res (ein2 L.cmke L.baedijlm L.abcdijkl Q.g_abab_vaoaoava Q.t4_aabbaabb_xxxxxxxx),
    aug1 X.quadruples_res (ein2 L.mdke L.cabeijml L.abcdijkl Q.g_abab_oavaoava Q.t4_aaabaaab_xxxxxxxx),
    set1 X.contracted_intermediate (ein2 L.mcej L.eabdikml L.abcdijkl Q.g_aaaa_oavavaoa Q.t4_aaabaaab_xxxxxxxx),
    .aug X.quadruples_res [.arg Q.contracted_intermediate, ein1 L.abcdijkl L.abcdjikl Q.contracted_intermediate],
    set1 X.contracted_intermediate (ein2 L.cmje L.baediklm L.abcdijkl Q.g_abab_vaoaoava Q.t4_aabbaabb_xxxxxxxx),
    .aug X.quadruples_res [.arg Q.contracted_intermediate, ein1 L.abcdijkl L.abcdjikl Q.contracted_intermediate],
    set1 X.contracted_intermediate (ein2 L.mdje L.cabeikml L.abcdijkl Q.g_abab_oavaoava Q.t4_aaabaaab_xxxxxxxx),
    .aug X.quadruples_res [.arg Q.contracted_intermediate, ein1 L.abcdijkl L.abcdjikl Q.contracted_intermediate],
    set1 X.contracted_intermediate (ein2 L.abef L.efcdijkl L.abcdijkl Q.g_aaaa_vavavava Q.t4_aaabaaab_xxxxxxxx),
    .aug X.quadruples_res [.arg Q.contracted_intermediate, ein1 L.abcdijkl L.acbdijkl Q.contracted_intermediate],
    set1 X.contracted_intermediate (ein2 L.adef L.ecbfijkl L.abcdijkl Q.g_abab_vavavava Q.t4_aaabaaab_xxxxxxxx),
    .aug X.quadruples_res [.arg Q.contracted_intermediate, ein1 L.abcdijkl L.bacdijkl Q.contracted_intermediate],
    set1 X.contracted_intermediate (ein2 L.adfe L.cfbeijkl L.abcdijkl Q.g_abab_vavavava Q.t4_aaabaaab_xxxxxxxx),
    .aug X.quadruples_res [.arg Q.contracted_intermediate, ein1 L.abcdijkl L.bacdijkl Q.contracted_intermediate],
    aug1 X.quadruples_res (ein2 L.bcef L.efadijkl L.abcdijkl Q.g_aaaa_vavavava Q.t4_aaabaaab_xxxxxxxx),
    aug1 X.quadruples_res (ein2 L.cdef L.ebafijkl L.abcdijkl Q.g_abab_vavavava Q.t4_aaabaaab_xxxxxxxx),
    aug1 X.quadruples_res (ein2 L.cdfe L.bfaeijkl L.abcdijkl Q.g_abab_vavavava Q.t4_aaabaaab_xxxxxxxx),
    aug1 X.quadruples_res (ein3 L.mnef L.efml L.abcdijkn L.abcdijkl Q.g_abab_oaoavava Q.t2_abab Q.t4_aaabaaab_xxxxxxxx),
    aug1 X.quadruples_res (ein3 L.mnfe L.feml L.abcdijkn L.abcdijkl Q.g_abab_oaoavava Q.t2_abab Q.t4_aaabaaab_xxxxxxxx),
    aug1 X.quadruples_res (ein3 L.nmef L.eflm L.abcdijkn L.abcdijkl Q.g_bbbb_oaoavava Q.t2_bbbb Q.t4_aaabaaab_xxxxxxxx),
    aug1 X.quadruples_res (ein3 L.nmef L.efkm L.abcdijnl L.abcdijkl Q.g_aaaa_oaoavava Q.t2_aaaa Q.t4_aaabaaab_xxxxxxxx),
    aug1 X.quadruples_res (ein3 L.nmef L.efkm L.abcdijnl L.abcdijkl Q.g_abab_oaoavava Q.t2_abab Q.t4_aaabaaab_xxxxxxxx),
    aug1 X.quadruples_res (ein3 L.nmfe L.fekm L.abcdijnl L.abcdijkl Q.g_abab_oaoavava Q.t2_abab Q.t4_aaabaaab_xxxxxxxx),
    set1 X.contracted_intermediate (ein3 L.nmef L.efjm L.abcdiknl L.abcdijkl Q.g_aaaa_oaoavava Q.t2_aaaa Q.t4_aaabaaab_xxxxxxxx),
    .aug X.quadruples_res [.arg Q.contracted_intermediate, ein1 L.abcdijkl L.abcdjikl Q.contracted_intermediate],
    set1 X.contracted_intermediate (ein3 L.nmef L.efjm L.abcdiknl L.abcdijkl Q.g_abab_oaoavava Q.t2_abab Q.t4_aaabaaab_xxxxxxxx),
    .aug X.quadruples_res [.arg Q.contracted_intermediate, ein1 L.abcdijkl L.abcdjikl Q.contracted_intermediate],
    set1 X.contracted_intermediate (ein3 L.nmfe L.fejm L.abcdiknl L.abcdijkl Q.g_abab_oaoavava Q.t2_abab Q.t4_aaabaaab_xxxxxxxx),
    .aug X.quadruples_res [.arg Q.contracted_intermediate, ein1 L.abcdijkl L.abcdjikl Q.contracted_intermediate],
    set1 X.contracted_intermediate (ein3 L.nmef L.efkl L.abcdijnm L.abcdijkl Q.g_abab_oaoavava Q.t2_abab Q.t4_aaabaaab_xxxxxxxx),
    .aug X.quadruples_res [.arg Q.contracted_intermediate, ein1 L.abcdijkl L.abcdikjl Q.contracted_intermediate],
    set1 X.contracted_intermediate (ein3 L.mnef L.efkl L.abcdijmn L.abcdijkl Q.g_abab_oaoavava Q.t2_abab Q.t4_aaabaaab_xxxxxxxx),
    .aug X.quadruples_res [.arg Q.contracted_intermediate, ein1 L.abcdijkl L.abcdikjl Q.contracted_intermediate],
    set1 X.contracted_intermediate (ein3 L.nmfe L.fekl L.abcdijnm L.abcdijkl Q.g_abab_oaoavava Q.t2_abab Q.t4_aaabaaab_xxxxxxxx),
    .aug X.quadruples_res [.arg Q.contracted_intermediate, ein1 L.abcdijkl L.abcdikjl Q.contracted_intermediate],
    set1 X.contracted_intermediate (ein3 L.mnfe L.fekl L.abcdijmn L.abcdijkl Q.g_abab_oaoavava Q.t2_abab Q.t4_aaabaaab_xxxxxxxx),
    .aug X.quadruples_res [.arg Q.contracted_intermediate, ein1 L.abcdijkl L.abcdikjl Q.contracted_intermediate],
    aug1 X.quadruples_res (ein3 L.nmef L.efil L.abcdjknm L.abcdijkl Q.g_abab_oaoavava Q.t2_abab Q.t4_aaabaaab_xxxxxxxx),
    aug1 X.quadruples_res (ein3 L.mnef L.efil L.abcdjkmn L.abcdijkl Q.g_abab_oaoavava Q.t2_abab Q.t4_aaabaaab_xxxxxxxx),
    aug1 X.quadruples_res (ein3 L.nmfe L.feil L.abcdjknm L.abcdijkl Q.g_abab_oaoavava Q.t2_abab Q.t4_aaabaaab_xxxxxxxx),
    aug1 X.quadruples_res (ein3 L.mnfe L.feil L.abcdjkmn L.abcdijkl Q.g_abab_oaoavava Q.t2_abab Q.t4_aaabaaab_xxxxxxxx),
    aug1 X.quadruples_res (ein3 L.nmef L.efik L.abcdjmnl L.abcdijkl Q.g_aaaa_oaoavava Q.t2_aaaa Q.t4_aaabaaab_xxxxxxxx),
    set1 X.contracted_intermediate (ein3 L.nmef L.efjk L.abcdimnl L.abcdijkl Q.g_aaaa_oaoavava Q.t2_aaaa Q.t4_aaabaaab_xxxxxxxx),
    .aug X.quadruples_res [.arg Q.contracted_intermediate, ein1 L.abcdijkl L.abcdkjil Q.contracted_intermediate],
    set1 X.contracted_intermediate (ein3 L.nmef L.eanm L.fbcdijkl L.abcdijkl Q.g_aaaa_oaoavava Q.t2_aaaa Q.t4_aaabaaab_xxxxxxxx),
    .aug X.quadruples_res [.arg Q.contracted_intermediate, ein1 L.abcdijkl L.bacdijkl Q.contracted_intermediate],
    set1 X.contracted_intermediate (ein3 L.nmfe L.aenm L.fbcdijkl L.abcdijkl Q.g_abab_oaoavava Q.t2_abab Q.t4_aaabaaab_xxxxxxxx),
    .aug X.quadruples_res [.arg Q.contracted_intermediate, ein1 L.abcdijkl L.bacdijkl Q.contracted_intermediate],
    set1 X.contracted_intermediate (ein3 L.mnfe L.aemn L.fbcdijkl L.abcdijkl Q.g_abab_oaoavava Q.t2_abab Q.t4_aaabaaab_xxxxxxxx),
    .aug X.quadruples_res [.arg Q.contracted_intermediate, ein1 L.abcdijkl L.bacdijkl Q.contracted_intermediate],
    set1 X.contracted_intermediate (ein3 L.mnfe L.aeml L.fbcdijkn L.abcdijkl Q.g_abab_oaoavava Q.t2_abab Q.t4_aaabaaab_xxxxxxxx),
    .aug X.quadruples_res [.arg Q.contracted_intermediate, ein1 L.abcdijkl L.bacdijkl Q.contracted_intermediate],
    set1 X.contracted_intermediate (ein3 L.nmef L.eakm L.fbcdijnl L.abcdijkl Q.g_aaaa_oaoavava Q.t2_aaaa Q.t4_aaabaaab_xxxxxxxx),
    .aug X.quadruples_res [.arg Q.contracted_intermediate, ein1 L.abcdijkl L.bacdijkl Q.contracted_intermediate],
    set1 X.contracted_intermediate (ein3 L.mnef L.eakm L.cbfdijln L.abcdijkl Q.g_abab_oaoavava Q.t2_aaaa Q.t4_aabbaabb_xxxxxxxx),
    .aug X.quadruples_res [.arg Q.contracted_intermediate, ein1 L.abcdijkl L.bacdijkl Q.contracted_intermediate],
    set1 X.contracted_intermediate (ein3 L.nmfe L.aekm L.fbcdijnl L.abcdijkl Q.g_abab_oaoavava Q.t2_abab Q.t4_aaabaaab_xxxxxxxx),
    .aug X.quadruples_res [.arg Q.contracted_intermediate, ein1 L.abcdijkl L.bacdijkl Q.contracted_intermediate],
    set1 X.contracted_intermediate (ein3 L.nmef L.aekm L.cbfdijln L.abcdijkl Q.g_bbbb_oaoavava Q.t2_abab Q.t4_aabbaabb_xxxxxxxx),
    .aug X.quadruples_res [.arg Q.contracted_intermediate, ein1 L.abcdijkl L.bacdijkl Q.contracted_intermediate],
    set1 X.contracted_intermediate (ein3 L.nmef L.eajm L.fbcdiknl L.abcdijkl Q.g_aaaa_oaoavava Q.t2_aaaa Q.t4_aaabaaab_xxxxxxxx),
    .aug X.quadruples_res [.arg Q.contracted_intermediate, ein1 L.abcdijkl L.abcdjikl Q.contracted_intermediate, ein1 L.abcdijkl L.bacdijkl Q.contracted_intermediate, ein1 L.abcdijkl L.bacdjikl Q.contracted_intermediate],
    set1 X.contracted_intermediate (ein3 L.mnef L.eajm L.cbfdikln L.abcdijkl Q.g_abab_oaoavava Q.t2_aaaa Q.t4_aabbaabb_xxxxxxxx),
    .aug X.quadruples_res [.arg Q.contracted_intermediate, ein1 L.abcdijkl L.abcdjikl Q.contracted_intermediate, ein1 L.abcdijkl L.bacdijkl Q.contracted_intermediate, ein1 L.abcdijkl L.bacdjikl Q.contracted_intermediate],
    set1 X.contracted_intermediate (ein3 L.nmfe L.aejm L.fbcdiknl L.abcdijkl Q.g_abab_oaoavava Q.t2_abab Q.t4_aaabaaab_xxxxxxxx),
    .aug X.quadruples_res [.arg Q.contracted_intermediate, ein1 L.abcdijkl L.abcdjikl Q.contracted_intermediate, ein1 L.abcdijkl L.bacdijkl Q.contracted_intermediate, ein1 L.abcdijkl L.bacdjikl Q.contracted_intermediate],
    set1 X.contracted_intermediate (ein3 L.nmef L.aejm L.cbfdikln L.abcdijkl Q.g_bbbb_oaoavava Q.t2_abab Q.t4_aabbaabb_xxxxxxxx),
    .aug X.quadruples_res [.arg Q.contracted_intermediate, ein1 L.abcdijkl L.abcdjikl Q.contracted_intermediate, ein1 L.abcdijkl L.bacdijkl Q.contracted_intermediate, ein1 L.abcdijkl L.bacdjikl Q.contracted_intermediate],
    set1 X.contracted_intermediate (ein3 L.nmfe L.aekl L.fbcdijnm L.abcdijkl Q.g_abab_oaoavava Q.t2_abab Q.t4_aaabaaab_xxxxxxxx),
    .aug X.quadruples_res [.arg Q.contracted_intermediate, ein1 L.abcdijkl L.abcdikjl Q.contracted_intermediate, ein1 L.abcdijkl L.bacdijkl Q.contracted_intermediate, ein1 L.abcdijkl L.bacdikjl Q.contracted_intermediate],
    set1 X.contracted_intermediate (ein3 L.mnfe L.aekl L.fbcdijmn L.abcdijkl Q.g_abab_oaoavava Q.t2_abab Q.t4_aaabaaab_xxxxxxxx),
    .aug X.quadruples_res [.arg Q.contracted_intermediate, ein1 L.abcdijkl L.abcdikjl Q.contracted_intermediate, ein1 L.abcdijkl L.bacdijkl Q.contracted_intermediate, ein1 L.abcdijkl L.bacdikjl Q.contracted_intermediate],
    set1 X.contracted_intermediate (ein3 L.nmef L.aekl L.cbfdijnm L.abcdijkl Q.g_bbbb_oaoavava Q.t2_abab Q.t4_aabbaabb_xxxxxxxx),
    .aug X.quadruples_res [.arg Q.contracted_intermediate, ein1 L.abcdijkl L.abcdikjl Q.contracted_intermediate, ein1 L.abcdijkl L.bacdijkl Q.contracted_intermediate, ein1 L.abcdijkl L.bacdikjl Q.contracted_intermediate],
    set1 X.contracted_intermediate (ein3 L.nmfe L.aeil L.fbcdjknm L.abcdijkl Q.g_abab_oaoavava Q.t2_abab Q.t4_aaabaaab_xxxxxxxx),
    .aug X.quadruples_res [.arg Q.contracted_intermediate, ein1 L.abcdijkl L.bacdijkl Q.contracted_intermediate],
    set1 X.contracted_intermediate (ein3 L.mnfe L.aeil L.fbcdjkmn L.abcdijkl Q.g_abab_oaoavava Q.t2_abab Q.t4_aaabaaab_xxxxxxxx),
    .aug X.quadruples_res [.arg Q.contracted_intermediate, ein1 L.abcdijkl L.bacdijkl Q.contracted_intermediate],
    set1 X.contracted_intermediate (ein3 L.nmef L.aeil L.cbfdjknm L.abcdijkl Q.g_bbbb_oaoavava Q.t2_abab Q.t4_aabbaabb_xxxxxxxx),
    .aug X.quadruples_res [.arg Q.contracted_intermediate, ein1 L.abcdijkl L.bacdijkl Q.contracted_intermediate],
    set1 X.contracted_intermediate (ein3 L.nmef L.eaik L.fbcdjmnl L.abcdijkl Q.g_aaaa_oaoavava Q.t2_aaaa Q.t4_aaabaaab_xxxxxxxx),
    .aug X.quadruples_res [.arg Q.contracted_intermediate, ein1 L.abcdijkl L.bacdijkl Q.contracted_intermediate],
    set1 X.contracted_intermediate (ein3 L.nmef L.eaik L.cbfdjnlm L.abcdijkl Q.g_abab_oaoavava Q.t2_aaaa Q.t4_aabbaabb_xxxxxxxx),
    .aug X.quadruples_res [.arg Q.contracted_intermediate, ein1 L.abcdijkl L.bacdijkl Q.contracted_intermediate],
    set1 X.contracted_intermediate (ein3 L.mnef L.eaik L.cbfdjmnl L.abcdijkl Q.g_abab_oaoavava Q.t2_aaaa Q.t4_aabbaabb_xxxxxxxx),
    .aug X.quadruples_res [.arg Q.contracted_intermediate, ein1 L.abcdijkl L.bacdijkl Q.contracted_intermediate],
    set1 X.contracted_intermediate (ein3 L.nmef L.eajk L.fbcdimnl L.abcdijkl Q.g_aaaa_oaoavava Q.t2_aaaa Q.t4_aaabaaab_xxxxxxxx),
    .aug X.quadruples_res [.arg Q.contracted_intermediate, ein1 L.abcdijkl L.abcdkjil Q.contracted_intermediate, ein1 L.abcdijkl L.bacdijkl Q.contracted_intermediate, ein1 L.abcdijkl L.bacdkjil Q.contracted_intermediate],
    set1 X.contracted_intermediate (ein3 L.nmef L.eajk L.cbfdinlm L.abcdijkl Q.g_abab_oaoavava Q.t2_aaaa Q.t4_aabbaabb_xxxxxxxx),
    .aug X.quadruples_res [.arg Q.contracted_intermediate, ein1 L.abcdijkl L.abcdkjil Q.contracted_intermediate, ein1 L.abcdijkl L.bacdijkl Q.contracted_intermediate, ein1 L.abcdijkl L.bacdkjil Q.contracted_intermediate],
    set1 X.contracted_intermediate (ein3 L.mnef L.eajk L.cbfdimnl L.abcdijkl Q.g_abab_oaoavava Q.t2_aaaa Q.t4_aabbaabb_xxxxxxxx),
    .aug X.quadruples_res [.arg Q.contracted_intermediate, ein1 L.abcdijkl L.abcdkjil Q.contracted_intermediate, ein1 L.abcdijkl L.bacdijkl Q.contracted_intermediate, ein1 L.abcdijkl L.bacdkjil Q.contracted_intermediate],
    aug1 X.quadruples_res (ein3 L.nmef L.ecnm L.fabdijkl L.abcdijkl Q.g_aaaa_oaoavava Q.t2_aaaa Q.t4_aaabaaab_xxxxxxxx),
    aug1 X.quadruples_res (ein3 L.nmfe L.cenm L.fabdijkl L.abcdijkl Q.g_abab_oaoavava Q.t2_abab Q.t4_aaabaaab_xxxxxxxx),
    aug1 X.quadruples_res (ein3 L.mnfe L.cemn L.fabdijkl L.abcdijkl Q.g_abab_oaoavava Q.t2_abab Q.t4_aaabaaab_xxxxxxxx),
    aug1 X.quadruples_res (ein3 L.nmef L.ednm L.cabfijkl L.abcdijkl Q.g_abab_oaoavava Q.t2_abab Q.t4_aaabaaab_xxxxxxxx),
    aug1 X.quadruples_res (ein3 L.mnef L.edmn L.cabfijkl L.abcdijkl Q.g_abab_oaoavava Q.t2_abab Q.t4_aaabaaab_xxxxxxxx),
    aug1 X.quadruples_res (ein3 L.nmef L.ednm L.cabfijkl L.abcdijkl Q.g_bbbb_oaoavava Q.t2_bbbb Q.t4_aaabaaab_xxxxxxxx),
    aug1 X.quadruples_res (ein3 L.mnfe L.ceml L.fabdijkn L.abcdijkl Q.g_abab_oaoavava Q.t2_abab Q.t4_aaabaaab_xxxxxxxx),
    aug1 X.quadruples_res (ein3 L.nmef L.edml L.fabcijkn L.abcdijkl Q.g_aaaa_oaoavava Q.t2_abab Q.t4_aaaaaaaa_xxxxxxxx),
    aug1 X.quadruples_res (ein3 L.mnef L.edml L.cabfijkn L.abcdijkl Q.g_abab_oaoavava Q.t2_abab Q.t4_aaabaaab_xxxxxxxx),
    aug1 X.quadruples_res (ein3 L.nmfe L.edlm L.fabcijkn L.abcdijkl Q.g_abab_oaoavava Q.t2_bbbb Q.t4_aaaaaaaa_xxxxxxxx),
    aug1 X.quadruples_res (ein3 L.nmef L.edlm L.cabfijkn L.abcdijkl Q.g_bbbb_oaoavava Q.t2_bbbb Q.t4_aaabaaab_xxxxxxxx),
    aug1 X.quadruples_res (ein3 L.nmef L.eckm L.fabdijnl L.abcdijkl Q.g_aaaa_oaoavava Q.t2_aaaa Q.t4_aaabaaab_xxxxxxxx),
    aug1 X.quadruples_res (ein3 L.mnef L.eckm L.bafdijln L.abcdijkl Q.g_abab_oaoavava Q.t2_aaaa Q.t4_aabbaabb_xxxxxxxx),
    aug1 X.quadruples_res (ein3 L.nmfe L.cekm L.fabdijnl L.abcdijkl Q.g_abab_oaoavava Q.t2_abab Q.t4_aaabaaab_xxxxxxxx),
    aug1 X.quadruples_res (ein3 L.nmef L.cekm L.bafdijln L.abcdijkl Q.g_bbbb_oaoavava Q.t2_abab Q.t4_aabbaabb_xxxxxxxx),
    aug1 X.quadruples_res (ein3 L.nmef L.edkm L.cabfijnl L.abcdijkl Q.g_abab_oaoavava Q.t2_abab Q.t4_aaabaaab_xxxxxxxx),
    set1 X.contracted_intermediate (ein3 L.nmef L.ecjm L.fabdiknl L.abcdijkl Q.g_aaaa_oaoavava Q.t2_aaaa Q.t4_aaabaaab_xxxxxxxx),
    .aug X.quadruples_res [.arg Q.contracted_intermediate, ein1 L.abcdijkl L.abcdjikl Q.contracted_intermediate],
    set1 X.contracted_intermediate (ein3 L.mnef L.ecjm L.bafdikln L.abcdijkl Q.g_abab_oaoavava Q.t2_aaaa Q.t4_aabbaabb_xxxxxxxx),
    .aug X.quadruples_res [.arg Q.contracted_intermediate, ein1 L.abcdijkl L.abcdjikl Q.contracted_intermediate],
    set1 X.contracted_intermediate (ein3 L.nmfe L.cejm L.fabdiknl L.abcdijkl Q.g_abab_oaoavava Q.t2_abab Q.t4_aaabaaab_xxxxxxxx),
    .aug X.quadruples_res [.arg Q.contracted_intermediate, ein1 L.abcdijkl L.abcdjikl Q.contracted_intermediate],
    set1 X.contracted_intermediate (ein3 L.nmef L.cejm L.bafdikln L.abcdijkl Q.g_bbbb_oaoavava Q.t2_abab Q.t4_aabbaabb_xxxxxxxx),
    .aug X.quadruples_res [.arg Q.contracted_intermediate, ein1 L.abcdijkl L.abcdjikl Q.contracted_intermediate],
    set1 X.contracted_intermediate (ein3 L.nmef L.edjm L.cabfiknl L.abcdijkl Q.g_abab_oaoavava Q.t2_abab Q.t4_aaabaaab_xxxxxxxx),
    .aug X.quadruples_res [.arg Q.contracted_intermediate, ein1 L.abcdijkl L.abcdjikl Q.contracted_intermediate],
    set1 X.contracted_intermediate (ein3 L.nmfe L.cekl L.fabdijnm L.abcdijkl Q.g_abab_oaoavava Q.t2_abab Q.t4_aaabaaab_xxxxxxxx),
    .aug X.quadruples_res [.arg Q.contracted_intermediate, ein1 L.abcdijkl L.abcdikjl Q.contracted_intermediate],
    set1 X.contracted_intermediate (ein3 L.mnfe L.cekl L.fabdijmn L.abcdijkl Q.g_abab_oaoavava Q.t2_abab Q.t4_aaabaaab_xxxxxxxx),
    .aug X.quadruples_res [.arg Q.contracted_intermediate, ein1 L.abcdijkl L.abcdikjl Q.contracted_intermediate],
    set1 X.contracted_intermediate (ein3 L.nmef L.cekl L.bafdijnm L.abcdijkl Q.g_bbbb_oaoavava Q.t2_abab Q.t4_aabbaabb_xxxxxxxx),
    .aug X.quadruples_res [.arg Q.contracted_intermediate, ein1 L.abcdijkl L.abcdikjl Q.contracted_intermediate],
    set1 X.contracted_intermediate (ein3 L.nmef L.edkl L.fabcijnm L.abcdijkl Q.g_aaaa_oaoavava Q.t2_abab Q.t4_aaaaaaaa_xxxxxxxx),
    .aug X.quadruples_res [.arg Q.contracted_intermediate, ein1 L.abcdijkl L.abcdikjl Q.contracted_intermediate],
    set1 X.contracted_intermediate (ein3 L.nmef L.edkl L.cabfijnm L.abcdijkl Q.g_abab_oaoavava Q.t2_abab Q.t4_aaabaaab_xxxxxxxx),
    .aug X.quadruples_res [.arg Q.contracted_intermediate, ein1 L.abcdijkl L.abcdikjl Q.contracted_intermediate],
    set1 X.contracted_intermediate (ein3 L.mnef L.edkl L.cabfijmn L.abcdijkl Q.g_abab_oaoavava Q.t2_abab Q.t4_aaabaaab_xxxxxxxx),
    .aug X.quadruples_res [.arg Q.contracted_intermediate, ein1 L.abcdijkl L.abcdikjl Q.contracted_intermediate],
    aug1 X.quadruples_res (ein3 L.nmfe L.ceil L.fabdjknm L.abcdijkl Q.g_abab_oaoavava Q.t2_abab Q.t4_aaabaaab_xxxxxxxx),
    aug1 X.quadruples_res (ein3 L.mnfe L.ceil L.fabdjkmn L.abcdijkl Q.g_abab_oaoavava Q.t2_abab Q.t4_aaabaaab_xxxxxxxx),
    aug1 X.quadruples_res (ein3 L.nmef L.ceil L.bafdjknm L.abcdijkl Q.g_bbbb_oaoavava Q.t2_abab Q.t4_aabbaabb_xxxxxxxx),
    aug1 X.quadruples_res (ein3 L.nmef L.edil L.fabcjknm L.abcdijkl Q.g_aaaa_oaoavava Q.t2_abab Q.t4_aaaaaaaa_xxxxxxxx),
    aug1 X.quadruples_res (ein3 L.nmef L.edil L.cabfjknm L.abcdijkl Q.g_abab_oaoavava Q.t2_abab Q.t4_aaabaaab_xxxxxxxx),
    aug1 X.quadruples_res (ein3 L.mnef L.edil L.cabfjkmn L.abcdijkl Q.g_abab_oaoavava Q.t2_abab Q.t4_aaabaaab_xxxxxxxx),
    aug1 X.quadruples_res (ein3 L.nmef L.ecik L.fabdjmnl L.abcdijkl Q.g_aaaa_oaoavava Q.t2_aaaa Q.t4_aaabaaab_xxxxxxxx),
    aug1 X.quadruples_res (ein3 L.nmef L.ecik L.bafdjnlm L.abcdijkl Q.g_abab_oaoavava Q.t2_aaaa Q.t4_aabbaabb_xxxxxxxx),
    aug1 X.quadruples_res (ein3 L.mnef L.ecik L.bafdjmnl L.abcdijkl Q.g_abab_oaoavava Q.t2_aaaa Q.t4_aabbaabb_xxxxxxxx),
    set1 X.contracted_intermediate (ein3 L.nmef L.ecjk L.fabdimnl L.abcdijkl Q.g_aaaa_oaoavava Q.t2_aaaa Q.t4_aaabaaab_xxxxxxxx),
    .aug X.quadruples_res [.arg Q.contracted_intermediate, ein1 L.abcdijkl L.abcdkjil Q.contracted_intermediate],
    set1 X.contracted_intermediate (ein3 L.nmef L.ecjk L.bafdinlm L.abcdijkl Q.g_abab_oaoavava Q.t2_aaaa Q.t4_aabbaabb_xxxxxxxx),
    .aug X.quadruples_res [.arg Q.contracted_intermediate, ein1 L.abcdijkl L.abcdkjil Q.contracted_intermediate],
    set1 X.contracted_intermediate (ein3 L.mnef L.ecjk L.bafdimnl L.abcdijkl Q.g_abab_oaoavava Q.t2_aaaa Q.t4_aabbaabb_xxxxxxxx),
    .aug X.quadruples_res [.arg Q.contracted_intermediate, ein1 L.abcdijkl L.abcdkjil Q.contracted_intermediate],
    set1 X.contracted_intermediate (ein3 L.nmef L.abnm L.efcdijkl L.abcdijkl Q.g_aaaa_oaoavava Q.t2_aaaa Q.t4_aaabaaab_xxxxxxxx),
    .aug X.quadruples_res [.arg Q.contracted_intermediate, ein1 L.abcdijkl L.acbdijkl Q.contracted_intermediate],
    set1 X.contracted_intermediate (ein3 L.nmef L.abkm L.efcdijnl L.abcdijkl Q.g_aaaa_oaoavava Q.t2_aaaa Q.t4_aaabaaab_xxxxxxxx),
    .aug X.quadruples_res [.arg Q.contracted_intermediate, ein1 L.abcdijkl L.acbdijkl Q.contracted_intermediate],
    set1 X.contracted_intermediate (ein3 L.mnef L.abkm L.ecfdijln L.abcdijkl Q.g_abab_oaoavava Q.t2_aaaa Q.t4_aabbaabb_xxxxxxxx),
    .aug X.quadruples_res [.arg Q.contracted_intermediate, ein1 L.abcdijkl L.acbdijkl Q.contracted_intermediate],
    set1 X.contracted_intermediate (ein3 L.mnfe L.abkm L.cfedijln L.abcdijkl Q.g_abab_oaoavava Q.t2_aaaa Q.t4_aabbaabb_xxxxxxxx),
    .aug X.quadruples_res [.arg Q.contracted_intermediate, ein1 L.abcdijkl L.acbdijkl Q.contracted_intermediate],
    set1 X.contracted_intermediate (ein3 L.nmef L.abjm L.efcdiknl L.abcdijkl Q.g_aaaa_oaoavava Q.t2_aaaa Q.t4_aaabaaab_xxxxxxxx),
    .aug X.quadruples_res [.arg Q.contracted_intermediate, ein1 L.abcdijkl L.abcdjikl Q.contracted_intermediate, ein1 L.abcdijkl L.acbdijkl Q.contracted_intermediate, ein1 L.abcdijkl L.acbdjikl Q.contracted_intermediate],
    set1 X.contracted_intermediate (ein3 L.mnef L.abjm L.ecfdikln L.abcdijkl Q.g_abab_oaoavava Q.t2_aaaa Q.t4_aabbaabb_xxxxxxxx),
    .aug X.quadruples_res [.arg Q.contracted_intermediate, ein1 L.abcdijkl L.abcdjikl Q.contracted_intermediate, ein1 L.abcdijkl L.acbdijkl Q.contracted_intermediate, ein1 L.abcdijkl L.acbdjikl Q.contracted_intermediate],
    set1 X.contracted_intermediate (ein3 L.mnfe L.abjm L.cfedikln L.abcdijkl Q.g_abab_oaoavava Q.t2_aaaa Q.t4_aabbaabb_xxxxxxxx),
    .aug X.quadruples_res [.arg Q.contracted_intermediate, ein1 L.abcdijkl L.abcdjikl Q.contracted_intermediate, ein1 L.abcdijkl L.acbdijkl Q.contracted_intermediate, ein1 L.abcdijkl L.acbdjikl Q.contracted_intermediate],
    set1 X.contracted_intermediate (ein3 L.nmef L.adnm L.ecbfijkl L.abcdijkl Q.g_abab_oaoavava Q.t2_abab Q.t4_aaabaaab_xxxxxxxx),
    .aug X.quadruples_res [.arg Q.contracted_intermediate, ein1 L.abcdijkl L.bacdijkl Q.contracted_intermediate],
    set1 X.contracted_intermediate (ein3 L.nmfe L.adnm L.cfbeijkl L.abcdijkl Q.g_abab_oaoavava Q.t2_abab Q.t4_aaabaaab_xxxxxxxx),
    .aug X.quadruples_res [.arg Q.contracted_intermediate, ein1 L.abcdijkl L.bacdijkl Q.contracted_intermediate],
    set1 X.contracted_intermediate (ein3 L.mnef L.admn L.ecbfijkl L.abcdijkl Q.g_abab_oaoavava Q.t2_abab Q.t4_aaabaaab_xxxxxxxx),
    .aug X.quadruples_res [.arg Q.contracted_intermediate, ein1 L.abcdijkl L.bacdijkl Q.contracted_intermediate],
    set1 X.contracted_intermediate (ein3 L.mnfe L.admn L.cfbeijkl L.abcdijkl Q.g_abab_oaoavava Q.t2_abab Q.t4_aaabaaab_xxxxxxxx),
    .aug X.quadruples_res [.arg Q.contracted_intermediate, ein1 L.abcdijkl L.bacdijkl Q.contracted_intermediate],
    set1 X.contracted_intermediate (ein3 L.nmef L.adml L.efbcijkn L.abcdijkl Q.g_aaaa_oaoavava Q.t2_abab Q.t4_aaaaaaaa_xxxxxxxx),
    .aug X.quadruples_res [.arg Q.contracted_intermediate, ein1 L.abcdijkl L.bacdijkl Q.contracted_intermediate],
    set1 X.contracted_intermediate (ein3 L.mnef L.adml L.ecbfijkn L.abcdijkl Q.g_abab_oaoavava Q.t2_abab Q.t4_aaabaaab_xxxxxxxx),
    .aug X.quadruples_res [.arg Q.contracted_intermediate, ein1 L.abcdijkl L.bacdijkl Q.contracted_intermediate],
    set1 X.contracted_intermediate (ein3 L.mnfe L.adml L.cfbeijkn L.abcdijkl Q.g_abab_oaoavava Q.t2_abab Q.t4_aaabaaab_xxxxxxxx),
    .aug X.quadruples_res [.arg Q.contracted_intermediate, ein1 L.abcdijkl L.bacdijkl Q.contracted_intermediate],
    set1 X.contracted_intermediate (ein3 L.nmef L.adkm L.ecbfijnl L.abcdijkl Q.g_abab_oaoavava Q.t2_abab Q.t4_aaabaaab_xxxxxxxx),
    .aug X.quadruples_res [.arg Q.contracted_intermediate, ein1 L.abcdijkl L.bacdijkl Q.contracted_intermediate],
    set1 X.contracted_intermediate (ein3 L.nmfe L.adkm L.cfbeijnl L.abcdijkl Q.g_abab_oaoavava Q.t2_abab Q.t4_aaabaaab_xxxxxxxx),
    .aug X.quadruples_res [.arg Q.contracted_intermediate, ein1 L.abcdijkl L.bacdijkl Q.contracted_intermediate],
    set1 X.contracted_intermediate (ein3 L.nmef L.adkm L.bcefijln L.abcdijkl Q.g_bbbb_oaoavava Q.t2_abab Q.t4_aabbaabb_xxxxxxxx),
    .aug X.quadruples_res [.arg Q.contracted_intermediate, ein1 L.abcdijkl L.bacdijkl Q.contracted_intermediate],
    set1 X.contracted_intermediate (ein3 L.nmef L.adjm L.ecbfiknl L.abcdijkl Q.g_abab_oaoavava Q.t2_abab Q.t4_aaabaaab_xxxxxxxx),
    .aug X.quadruples_res [.arg Q.contracted_intermediate, ein1 L.abcdijkl L.abcdjikl Q.contracted_intermediate, ein1 L.abcdijkl L.bacdijkl Q.contracted_intermediate, ein1 L.abcdijkl L.bacdjikl Q.contracted_intermediate],
    set1 X.contracted_intermediate (ein3 L.nmfe L.adjm L.cfbeiknl L.abcdijkl Q.g_abab_oaoavava Q.t2_abab Q.t4_aaabaaab_xxxxxxxx),
    .aug X.quadruples_res [.arg Q.contracted_intermediate, ein1 L.abcdijkl L.abcdjikl Q.contracted_intermediate, ein1 L.abcdijkl L.bacdijkl Q.contracted_intermediate, ein1 L.abcdijkl L.bacdjikl Q.contracted_intermediate],
    set1 X.contracted_intermediate (ein3 L.nmef L.adjm L.bcefikln L.abcdijkl Q.g_bbbb_oaoavava Q.t2_abab Q.t4_aabbaabb_xxxxxxxx),
    .aug X.quadruples_res [.arg Q.contracted_intermediate, ein1 L.abcdijkl L.abcdjikl Q.contracted_intermediate, ein1 L.abcdijkl L.bacdijkl Q.contracted_intermediate, ein1 L.abcdijkl L.bacdjikl Q.contracted_intermediate],
    aug1 X.quadruples_res (ein3 L.nmef L.bcnm L.efadijkl L.abcdijkl Q.g_aaaa_oaoavava Q.t2_aaaa Q.t4_aaabaaab_xxxxxxxx),
    aug1 X.quadruples_res (ein3 L.nmef L.cdnm L.ebafijkl L.abcdijkl Q.g_abab_oaoavava Q.t2_abab Q.t4_aaabaaab_xxxxxxxx),
    aug1 X.quadruples_res (ein3 L.nmfe L.cdnm L.bfaeijkl L.abcdijkl Q.g_abab_oaoavava Q.t2_abab Q.t4_aaabaaab_xxxxxxxx),
    aug1 X.quadruples_res (ein3 L.mnef L.cdmn L.ebafijkl L.abcdijkl Q.g_abab_oaoavava Q.t2_abab Q.t4_aaabaaab_xxxxxxxx),
    aug1 X.quadruples_res (ein3 L.mnfe L.cdmn L.bfaeijkl L.abcdijkl Q.g_abab_oaoavava Q.t2_abab Q.t4_aaabaaab_xxxxxxxx),
    aug1 X.quadruples_res (ein3 L.nmef L.cdml L.efabijkn L.abcdijkl Q.g_aaaa_oaoavava Q.t2_abab Q.t4_aaaaaaaa_xxxxxxxx),
    aug1 X.quadruples_res (ein3 L.mnef L.cdml L.ebafijkn L.abcdijkl Q.g_abab_oaoavava Q.t2_abab Q.t4_aaabaaab_xxxxxxxx),
    aug1 X.quadruples_res (ein3 L.mnfe L.cdml L.bfaeijkn L.abcdijkl Q.g_abab_oaoavava Q.t2_abab Q.t4_aaabaaab_xxxxxxxx),
    aug1 X.quadruples_res (ein3 L.nmef L.bckm L.efadijnl L.abcdijkl Q.g_aaaa_oaoavava Q.t2_aaaa Q.t4_aaabaaab_xxxxxxxx),
    aug1 X.quadruples_res (ein3 L.mnef L.bckm L.eafdijln L.abcdijkl Q.g_abab_oaoavava Q.t2_aaaa Q.t4_aabbaabb_xxxxxxxx),
    aug1 X.quadruples_res (ein3 L.mnfe L.bckm L.afedijln L.abcdijkl Q.g_abab_oaoavava Q.t2_aaaa Q.t4_aabbaabb_xxxxxxxx),
    aug1 X.quadruples_res (ein3 L.nmef L.cdkm L.ebafijnl L.abcdijkl Q.g_abab_oaoavava Q.t2_abab Q.t4_aaabaaab_xxxxxxxx),
    aug1 X.quadruples_res (ein3 L.nmfe L.cdkm L.bfaeijnl L.abcdijkl Q.g_abab_oaoavava Q.t2_abab Q.t4_aaabaaab_xxxxxxxx),
    aug1 X.quadruples_res (ein3 L.nmef L.cdkm L.abefijln L.abcdijkl Q.g_bbbb_oaoavava Q.t2_abab Q.t4_aabbaabb_xxxxxxxx),
    set1 X.contracted_intermediate (ein3 L.nmef L.bcjm L.efadiknl L.abcdijkl Q.g_aaaa_oaoavava Q.t2_aaaa Q.t4_aaabaaab_xxxxxxxx),
    .aug X.quadruples_res [.arg Q.contracted_intermediate, ein1 L.abcdijkl L.abcdjikl Q.contracted_intermediate],
    set1 X.contracted_intermediate (ein3 L.mnef L.bcjm L.eafdikln L.abcdijkl Q.g_abab_oaoavava Q.t2_aaaa Q.t4_aabbaabb_xxxxxxxx),
    .aug X.quadruples_res [.arg Q.contracted_intermediate, ein1 L.abcdijkl L.abcdjikl Q.contracted_intermediate],
    set1 X.contracted_intermediate (ein3 L.mnfe L.bcjm L.afedikln L.abcdijkl Q.g_abab_oaoavava Q.t2_aaaa Q.t4_aabbaabb_xxxxxxxx),
    .aug X.quadruples_res [.arg Q.contracted_intermediate, ein1 L.abcdijkl L.abcdjikl Q.contracted_intermediate],
    set1 X.contracted_intermediate (ein3 L.nmef L.cdjm L.ebafiknl L.abcdijkl Q.g_abab_oaoavava Q.t2_abab Q.t4_aaabaaab_xxxxxxxx),
    .aug X.quadruples_res [.arg Q.contracted_intermediate, ein1 L.abcdijkl L.abcdjikl Q.contracted_intermediate],
    set1 X.contracted_intermediate (ein3 L.nmfe L.cdjm L.bfaeiknl L.abcdijkl Q.g_abab_oaoavava Q.t2_abab Q.t4_aaabaaab_xxxxxxxx),
    .aug X.quadruples_res [.arg Q.contracted_intermediate, ein1 L.abcdijkl L.abcdjikl Q.contracted_intermediate],
    set1 X.contracted_intermediate (ein3 L.nmef L.cdjm L.abefikln L.abcdijkl Q.g_bbbb_oaoavava Q.t2_abab Q.t4_aabbaabb_xxxxxxxx),
    .aug X.quadruples_res [.arg Q.contracted_intermediate, ein1 L.abcdijkl L.abcdjikl Q.contracted_intermediate],
    set1 X.contracted_intermediate (ein3 L.mnkl L.abjm L.cdin L.abcdijkl Q.g_abab_oaoaoaoa Q.t2_aaaa Q.t2_abab),
    .aug X.quadruples_res [.arg Q.contracted_intermediate, ein1 L.abcdijkl L.abcdjikl Q.contracted_intermediate, ein1 L.abcdijkl L.acbdijkl Q.contracted_intermediate, ein1 L.abcdijkl L.acbdjikl Q.contracted_intermediate],
    set1 X.contracted_intermediate (ein3 L.nmkl L.adjm L.bcin L.abcdijkl Q.g_abab_oaoaoaoa Q.t2_abab Q.t2_aaaa),
    .aug X.quadruples_res [.arg Q.contracted_intermediate, ein1 L.abcdijkl L.abcdjikl Q.contracted_intermediate],
    set1 X.contracted_intermediate (ein3 L.mnjl L.abkm L.cdin L.abcdijkl Q.g_abab_oaoaoaoa Q.t2_aaaa Q.t2_abab),
    .aug X.quadruples_res [.arg Q.contracted_intermediate, ein1 L.abcdijkl L.abcdkjil Q.contracted_intermediate, ein1 L.abcdijkl L.acbdijkl Q.contracted_intermediate, ein1 L.abcdijkl L.acbdkjil Q.contracted_intermediate],
    set1 X.contracted_intermediate (ein3 L.nmjl L.adkm L.bcin L.abcdijkl Q.g_abab_oaoaoaoa Q.t2_abab Q.t2_aaaa),
    .aug X.quadruples_res [.arg Q.contracted_intermediate, ein1 L.abcdijkl L.abcdkjil Q.contracted_intermediate],
    set1 X.contracted_intermediate (ein3 L.mnil L.abkm L.cdjn L.abcdijkl Q.g_abab_oaoaoaoa Q.t2_aaaa Q.t2_abab),
    .aug X.quadruples_res [.arg Q.contracted_intermediate, ein1 L.abcdijkl L.abcdikjl Q.contracted_intermediate, ein1 L.abcdijkl L.acbdijkl Q.contracted_intermediate, ein1 L.abcdijkl L.acbdikjl Q.contracted_intermediate],
    set1 X.contracted_intermediate (ein3 L.nmil L.adkm L.bcjn L.abcdijkl Q.g_abab_oaoaoaoa Q.t2_abab Q.t2_aaaa),
    .aug X.quadruples_res [.arg Q.contracted_intermediate, ein1 L.abcdijkl L.abcdikjl Q.contracted_intermediate],
    set1 X.contracted_intermediate (ein3 L.nmjk L.abim L.cdnl L.abcdijkl Q.g_aaaa_oaoaoaoa Q.t2_aaaa Q.t2_abab),
    .aug X.quadruples_res [.arg Q.contracted_intermediate, ein1 L.abcdijkl L.acbdijkl Q.contracted_intermediate],
    aug1 X.quadruples_res (ein3 L.nmjk L.adml L.bcin L.abcdijkl Q.g_aaaa_oaoaoaoa Q.t2_abab Q.t2_aaaa),
    set1 X.contracted_intermediate (ein3 L.nmik L.abjm L.cdnl L.abcdijkl Q.g_aaaa_oaoaoaoa Q.t2_aaaa Q.t2_abab),
    .aug X.quadruples_res [.arg Q.contracted_intermediate, ein1 L.abcdijkl L.acbdijkl Q.contracted_intermediate],
    aug1 X.quadruples_res (ein3 L.nmik L.adml L.bcjn L.abcdijkl Q.g_aaaa_oaoaoaoa Q.t2_abab Q.t2_aaaa),
    set1 X.contracted_intermediate (ein3 L.nmij L.abkm L.cdnl L.abcdijkl Q.g_aaaa_oaoaoaoa Q.t2_aaaa Q.t2_abab),
    .aug X.quadruples_res [.arg Q.contracted_intermediate, ein1 L.abcdijkl L.acbdijkl Q.contracted_intermediate],
    aug1 X.quadruples_res (ein3 L.nmij L.adml L.bckn L.abcdijkl Q.g_aaaa_oaoaoaoa Q.t2_abab Q.t2_aaaa),
    set1 X.contracted_intermediate (ein3 L.amel L.ebjk L.cdim L.abcdijkl Q.g_abab_vaoavaoa Q.t2_aaaa Q.t2_abab),
    .aug X.quadruples_res [.arg Q.contracted_intermediate, ein1 L.abcdijkl L.abcdjikl Q.contracted_intermediate, ein1 L.abcdijkl L.acbdijkl Q.contracted_intermediate, ein1 L.abcdijkl L.acbdjikl Q.contracted_intermediate],
    set1 X.contracted_intermediate (ein3 L.amel L.ebij L.cdkm L.abcdijkl Q.g_abab_vaoavaoa Q.t2_aaaa Q.t2_abab),
    .aug X.quadruples_res [.arg Q.contracted_intermediate, ein1 L.abcdijkl L.acbdijkl Q.contracted_intermediate],
    set1 X.contracted_intermediate (ein3 L.maek L.ebij L.cdml L.abcdijkl Q.g_aaaa_oavavaoa Q.t2_aaaa Q.t2_abab),
    .aug X.quadruples_res [.arg Q.contracted_intermediate, ein1 L.abcdijkl L.acbdijkl Q.contracted_intermediate],
    set1 X.contracted_intermediate (ein3 L.amke L.bejl L.cdim L.abcdijkl Q.g_abab_vaoaoava Q.t2_abab Q.t2_abab),
    .aug X.quadruples_res [.arg Q.contracted_intermediate, ein1 L.abcdijkl L.abcdjikl Q.contracted_intermediate, ein1 L.abcdijkl L.acbdijkl Q.contracted_intermediate, ein1 L.abcdijkl L.acbdjikl Q.contracted_intermediate],
    set1 X.contracted_intermediate (ein3 L.maek L.edjl L.bcim L.abcdijkl Q.g_aaaa_oavavaoa Q.t2_abab Q.t2_aaaa),
    .aug X.quadruples_res [.arg Q.contracted_intermediate, ein1 L.abcdijkl L.abcdjikl Q.contracted_intermediate, ein1 L.abcdijkl L.bacdijkl Q.contracted_intermediate, ein1 L.abcdijkl L.bacdjikl Q.contracted_intermediate],
    set1 X.contracted_intermediate (ein3 L.amje L.bekl L.cdim L.abcdijkl Q.g_abab_vaoaoava Q.t2_abab Q.t2_abab),
    .aug X.quadruples_res [.arg Q.contracted_intermediate, ein1 L.abcdijkl L.abcdkjil Q.contracted_intermediate, ein1 L.abcdijkl L.acbdijkl Q.contracted_intermediate, ein1 L.abcdijkl L.acbdkjil Q.contracted_intermediate],
    set1 X.contracted_intermediate (ein3 L.maej L.ebik L.cdml L.abcdijkl Q.g_aaaa_oavavaoa Q.t2_aaaa Q.t2_abab),
    .aug X.quadruples_res [.arg Q.contracted_intermediate, ein1 L.abcdijkl L.abcdjikl Q.contracted_intermediate, ein1 L.abcdijkl L.acbdijkl Q.contracted_intermediate, ein1 L.abcdijkl L.acbdjikl Q.contracted_intermediate],
    set1 X.contracted_intermediate (ein3 L.maej L.edkl L.bcim L.abcdijkl Q.g_aaaa_oavavaoa Q.t2_abab Q.t2_aaaa),
    .aug X.quadruples_res [.arg Q.contracted_intermediate, ein1 L.abcdijkl L.abcdkjil Q.contracted_intermediate, ein1 L.abcdijkl L.bacdijkl Q.contracted_intermediate, ein1 L.abcdijkl L.bacdkjil Q.contracted_intermediate],
    set1 X.contracted_intermediate (ein3 L.amie L.bekl L.cdjm L.abcdijkl Q.g_abab_vaoaoava Q.t2_abab Q.t2_abab),
    .aug X.quadruples_res [.arg Q.contracted_intermediate, ein1 L.abcdijkl L.abcdikjl Q.contracted_intermediate, ein1 L.abcdijkl L.acbdijkl Q.contracted_intermediate, ein1 L.abcdijkl L.acbdikjl Q.contracted_intermediate],
    set1 X.contracted_intermediate (ein3 L.maei L.edkl L.bcjm L.abcdijkl Q.g_aaaa_oavavaoa Q.t2_abab Q.t2_aaaa),
    .aug X.quadruples_res [.arg Q.contracted_intermediate, ein1 L.abcdijkl L.abcdikjl Q.contracted_intermediate, ein1 L.abcdijkl L.bacdijkl Q.contracted_intermediate, ein1 L.abcdijkl L.bacdikjl Q.contracted_intermediate],
    set1 X.contracted_intermediate (ein3 L.bmel L.eajk L.cdim L.abcdijkl Q.g_abab_vaoavaoa Q.t2_aaaa Q.t2_abab),
    .aug X.quadruples_res [.arg Q.contracted_intermediate, ein1 L.abcdijkl L.abcdjikl Q.contracted_intermediate, ein1 L.abcdijkl L.cbadijkl Q.contracted_intermediate, ein1 L.abcdijkl L.cbadjikl Q.contracted_intermediate],
    set1 X.contracted_intermediate (ein3 L.bmel L.eaij L.cdkm L.abcdijkl Q.g_abab_vaoavaoa Q.t2_aaaa Q.t2_abab),
    .aug X.quadruples_res [.arg Q.contracted_intermediate, ein1 L.abcdijkl L.cbadijkl Q.contracted_intermediate],
    set1 X.contracted_intermediate (ein3 L.mbek L.eaij L.cdml L.abcdijkl Q.g_aaaa_oavavaoa Q.t2_aaaa Q.t2_abab),
    .aug X.quadruples_res [.arg Q.contracted_intermediate, ein1 L.abcdijkl L.cbadijkl Q.contracted_intermediate],
    set1 X.contracted_intermediate (ein3 L.bmke L.aejl L.cdim L.abcdijkl Q.g_abab_vaoaoava Q.t2_abab Q.t2_abab),
    .aug X.quadruples_res [.arg Q.contracted_intermediate, ein1 L.abcdijkl L.abcdjikl Q.contracted_intermediate, ein1 L.abcdijkl L.cbadijkl Q.contracted_intermediate, ein1 L.abcdijkl L.cbadjikl Q.contracted_intermediate],
    set1 X.contracted_intermediate (ein3 L.bmje L.aekl L.cdim L.abcdijkl Q.g_abab_vaoaoava Q.t2_abab Q.t2_abab),
    .aug X.quadruples_res [.arg Q.contracted_intermediate, ein1 L.abcdijkl L.abcdkjil Q.contracted_intermediate, ein1 L.abcdijkl L.cbadijkl Q.contracted_intermediate, ein1 L.abcdijkl L.cbadkjil Q.contracted_intermediate],
    set1 X.contracted_intermediate (ein3 L.mbej L.eaik L.cdml L.abcdijkl Q.g_aaaa_oavavaoa Q.t2_aaaa Q.t2_abab),
    .aug X.quadruples_res [.arg Q.contracted_intermediate, ein1 L.abcdijkl L.abcdjikl Q.contracted_intermediate, ein1 L.abcdijkl L.cbadijkl Q.contracted_intermediate, ein1 L.abcdijkl L.cbadjikl Q.contracted_intermediate],
    set1 X.contracted_intermediate (ein3 L.bmie L.aekl L.cdjm L.abcdijkl Q.g_abab_vaoaoava Q.t2_abab Q.t2_abab),
    .aug X.quadruples_res [.arg Q.contracted_intermediate, ein1 L.abcdijkl L.abcdikjl Q.contracted_intermediate, ein1 L.abcdijkl L.cbadijkl Q.contracted_intermediate, ein1 L.abcdijkl L.cbadikjl Q.contracted_intermediate],
    set1 X.contracted_intermediate (ein3 L.cmel L.eajk L.bdim L.abcdijkl Q.g_abab_vaoavaoa Q.t2_aaaa Q.t2_abab),
    .aug X.quadruples_res [.arg Q.contracted_intermediate, ein1 L.abcdijkl L.abcdjikl Q.contracted_intermediate, ein1 L.abcdijkl L.bacdijkl Q.contracted_intermediate, ein1 L.abcdijkl L.bacdjikl Q.contracted_intermediate],
    set1 X.contracted_intermediate (ein3 L.cmel L.eaij L.bdkm L.abcdijkl Q.g_abab_vaoavaoa Q.t2_aaaa Q.t2_abab),
    .aug X.quadruples_res [.arg Q.contracted_intermediate, ein1 L.abcdijkl L.bacdijkl Q.contracted_intermediate],
    set1 X.contracted_intermediate (ein3 L.mcek L.eaij L.bdml L.abcdijkl Q.g_aaaa_oavavaoa Q.t2_aaaa Q.t2_abab),
    .aug X.quadruples_res [.arg Q.contracted_intermediate, ein1 L.abcdijkl L.bacdijkl Q.contracted_intermediate],
    set1 X.contracted_intermediate (ein3 L.mdel L.ecjk L.abim L.abcdijkl Q.g_abab_oavavaoa Q.t2_aaaa Q.t2_aaaa),
    .aug X.quadruples_res [.arg Q.contracted_intermediate, ein1 L.abcdijkl L.abcdjikl Q.contracted_intermediate],
    aug1 X.quadruples_res (ein3 L.mdel L.ecij L.abkm L.abcdijkl Q.g_abab_oavavaoa Q.t2_aaaa Q.t2_aaaa),
    set1 X.contracted_intermediate (ein3 L.cmke L.aejl L.bdim L.abcdijkl Q.g_abab_vaoaoava Q.t2_abab Q.t2_abab),
    .aug X.quadruples_res [.arg Q.contracted_intermediate, ein1 L.abcdijkl L.abcdjikl Q.contracted_intermediate, ein1 L.abcdijkl L.bacdijkl Q.contracted_intermediate, ein1 L.abcdijkl L.bacdjikl Q.contracted_intermediate],
    set1 X.contracted_intermediate (ein3 L.mcek L.edjl L.abim L.abcdijkl Q.g_aaaa_oavavaoa Q.t2_abab Q.t2_aaaa),
    .aug X.quadruples_res [.arg Q.contracted_intermediate, ein1 L.abcdijkl L.abcdjikl Q.contracted_intermediate],
    set1 X.contracted_intermediate (ein3 L.mdke L.cejl L.abim L.abcdijkl Q.g_abab_oavaoava Q.t2_abab Q.t2_aaaa),
    .aug X.quadruples_res [.arg Q.contracted_intermediate, ein1 L.abcdijkl L.abcdjikl Q.contracted_intermediate],
    set1 X.contracted_intermediate (ein3 L.cmje L.aekl L.bdim L.abcdijkl Q.g_abab_vaoaoava Q.t2_abab Q.t2_abab),
    .aug X.quadruples_res [.arg Q.contracted_intermediate, ein1 L.abcdijkl L.abcdkjil Q.contracted_intermediate, ein1 L.abcdijkl L.bacdijkl Q.contracted_intermediate, ein1 L.abcdijkl L.bacdkjil Q.contracted_intermediate],
    set1 X.contracted_intermediate (ein3 L.mcej L.eaik L.bdml L.abcdijkl Q.g_aaaa_oavavaoa Q.t2_aaaa Q.t2_abab),
    .aug X.quadruples_res [.arg Q.contracted_intermediate, ein1 L.abcdijkl L.abcdjikl Q.contracted_intermediate, ein1 L.abcdijkl L.bacdijkl Q.contracted_intermediate, ein1 L.abcdijkl L.bacdjikl Q.contracted_intermediate],
    set1 X.contracted_intermediate (ein3 L.mcej L.edkl L.abim L.abcdijkl Q.g_aaaa_oavavaoa Q.t2_abab Q.t2_aaaa),
    .aug X.quadruples_res [.arg Q.contracted_intermediate, ein1 L.abcdijkl L.abcdkjil Q.contracted_intermediate],
    set1 X.contracted_intermediate (ein3 L.mdje L.cekl L.abim L.abcdijkl Q.g_abab_oavaoava Q.t2_abab Q.t2_aaaa),
    .aug X.quadruples_res [.arg Q.contracted_intermediate, ein1 L.abcdijkl L.abcdkjil Q.contracted_intermediate],
    set1 X.contracted_intermediate (ein3 L.cmie L.aekl L.bdjm L.abcdijkl Q.g_abab_vaoaoava Q.t2_abab Q.t2_abab),
    .aug X.quadruples_res [.arg Q.contracted_intermediate, ein1 L.abcdijkl L.abcdikjl Q.contracted_intermediate, ein1 L.abcdijkl L.bacdijkl Q.contracted_intermediate, ein1 L.abcdijkl L.bacdikjl Q.contracted_intermediate],
    set1 X.contracted_intermediate (ein3 L.mcei L.edkl L.abjm L.abcdijkl Q.g_aaaa_oavavaoa Q.t2_abab Q.t2_aaaa),
    .aug X.quadruples_res [.arg Q.contracted_intermediate, ein1 L.abcdijkl L.abcdikjl Q.contracted_intermediate],
    set1 X.contracted_intermediate (ein3 L.mdie L.cekl L.abjm L.abcdijkl Q.g_abab_oavaoava Q.t2_abab Q.t2_aaaa),
    .aug X.quadruples_res [.arg Q.contracted_intermediate, ein1 L.abcdijkl L.abcdikjl Q.contracted_intermediate],
    set1 X.contracted_intermediate (ein3 L.mdel L.eajk L.bcim L.abcdijkl Q.g_abab_oavavaoa Q.t2_aaaa Q.t2_aaaa),
    .aug X.quadruples_res [.arg Q.contracted_intermediate, ein1 L.abcdijkl L.abcdjikl Q.contracted_intermediate, ein1 L.abcdijkl L.bacdijkl Q.contracted_intermediate, ein1 L.abcdijkl L.bacdjikl Q.contracted_intermediate],
    set1 X.contracted_intermediate (ein3 L.mdel L.eaij L.bckm L.abcdijkl Q.g_abab_oavavaoa Q.t2_aaaa Q.t2_aaaa),
    .aug X.quadruples_res [.arg Q.contracted_intermediate, ein1 L.abcdijkl L.bacdijkl Q.contracted_intermediate],
    set1 X.contracted_intermediate (ein3 L.mdke L.aejl L.bcim L.abcdijkl Q.g_abab_oavaoava Q.t2_abab Q.t2_aaaa),
    .aug X.quadruples_res [.arg Q.contracted_intermediate, ein1 L.abcdijkl L.abcdjikl Q.contracted_intermediate, ein1 L.abcdijkl L.bacdijkl Q.contracted_intermediate, ein1 L.abcdijkl L.bacdjikl Q.contracted_intermediate],
    set1 X.contracted_intermediate (ein3 L.mdje L.aekl L.bcim L.abcdijkl Q.g_abab_oavaoava Q.t2_abab Q.t2_aaaa),
    .aug X.quadruples_res [.arg Q.contracted_intermediate, ein1 L.abcdijkl L.abcdkjil Q.contracted_intermediate, ein1 L.abcdijkl L.bacdijkl Q.contracted_intermediate, ein1 L.abcdijkl L.bacdkjil Q.contracted_intermediate],
    set1 X.contracted_intermediate (ein3 L.mdie L.aekl L.bcjm L.abcdijkl Q.g_abab_oavaoava Q.t2_abab Q.t2_aaaa),
    .aug X.quadruples_res [.arg Q.contracted_intermediate, ein1 L.abcdijkl L.abcdikjl Q.contracted_intermediate, ein1 L.abcdijkl L.bacdijkl Q.contracted_intermediate, ein1 L.abcdijkl L.bacdikjl Q.contracted_intermediate],
    set1 X.contracted_intermediate (ein3 L.abef L.ecik L.fdjl L.abcdijkl Q.g_aaaa_vavavava Q.t2_aaaa Q.t2_abab),
    .aug X.quadruples_res [.arg Q.contracted_intermediate, ein1 L.abcdijkl L.acbdijkl Q.contracted_intermediate],
    set1 X.contracted_intermediate (ein3 L.abef L.ecjk L.fdil L.abcdijkl Q.g_aaaa_vavavava Q.t2_aaaa Q.t2_abab),
    .aug X.quadruples_res [.arg Q.contracted_intermediate, ein1 L.abcdijkl L.abcdkjil Q.contracted_intermediate, ein1 L.abcdijkl L.acbdijkl Q.contracted_intermediate, ein1 L.abcdijkl L.acbdkjil Q.contracted_intermediate],
    set1 X.contracted_intermediate (ein3 L.adfe L.bekl L.fcij L.abcdijkl Q.g_abab_vavavava Q.t2_abab Q.t2_aaaa),
    .aug X.quadruples_res [.arg Q.contracted_intermediate, ein1 L.abcdijkl L.abcdikjl Q.contracted_intermediate, ein1 L.abcdijkl L.bacdijkl Q.contracted_intermediate, ein1 L.abcdijkl L.bacdikjl Q.contracted_intermediate],
    set1 X.contracted_intermediate (ein3 L.adfe L.beil L.fcjk L.abcdijkl Q.g_abab_vavavava Q.t2_abab Q.t2_aaaa),
    .aug X.quadruples_res [.arg Q.contracted_intermediate, ein1 L.abcdijkl L.bacdijkl Q.contracted_intermediate],
    set1 X.contracted_intermediate (ein3 L.adef L.ebik L.cfjl L.abcdijkl Q.g_abab_vavavava Q.t2_aaaa Q.t2_abab),
    .aug X.quadruples_res [.arg Q.contracted_intermediate, ein1 L.abcdijkl L.bacdijkl Q.contracted_intermediate],
    set1 X.contracted_intermediate (ein3 L.adef L.ebjk L.cfil L.abcdijkl Q.g_abab_vavavava Q.t2_aaaa Q.t2_abab),
    .aug X.quadruples_res [.arg Q.contracted_intermediate, ein1 L.abcdijkl L.abcdkjil Q.contracted_intermediate, ein1 L.abcdijkl L.bacdijkl Q.contracted_intermediate, ein1 L.abcdijkl L.bacdkjil Q.contracted_intermediate],
    set1 X.contracted_intermediate (ein3 L.cdfe L.aekl L.fbij L.abcdijkl Q.g_abab_vavavava Q.t2_abab Q.t2_aaaa),
    .aug X.quadruples_res [.arg Q.contracted_intermediate, ein1 L.abcdijkl L.abcdikjl Q.contracted_intermediate],
    aug1 X.quadruples_res (ein3 L.cdfe L.aeil L.fbjk L.abcdijkl Q.g_abab_vavavava Q.t2_abab Q.t2_aaaa),
    aug1 X.quadruples_res (ein3 L.bcef L.eaik L.fdjl L.abcdijkl Q.g_aaaa_vavavava Q.t2_aaaa Q.t2_abab),
    aug1 X.quadruples_res (ein3 L.cdef L.eaik L.bfjl L.abcdijkl Q.g_abab_vavavava Q.t2_aaaa Q.t2_abab),
    set1 X.contracted_intermediate (ein3 L.bcef L.eajk L.fdil L.abcdijkl Q.g_aaaa_vavavava Q.t2_aaaa Q.t2_abab),
    .aug X.quadruples_res [.arg Q.contracted_intermediate, ein1 L.abcdijkl L.abcdkjil Q.contracted_intermediate],
    set1 X.contracted_intermediate (ein3 L.cdef L.eajk L.bfil L.abcdijkl Q.g_abab_vavavava Q.t2_aaaa Q.t2_abab),
    .aug X.quadruples_res [.arg Q.contracted_intermediate, ein1 L.abcdijkl L.abcdkjil Q.contracted_intermediate],
    set1 X.contracted_intermediate (ein4 L.mnef L.efkl L.abjm L.cdin L.abcdijkl Q.g_abab_oaoavava Q.t2_abab Q.t2_aaaa Q.t2_abab),
    .aug X.quadruples_res [.arg Q.contracted_intermediate, ein1 L.abcdijkl L.abcdjikl Q.contracted_intermediate, ein1 L.abcdijkl L.acbdijkl Q.contracted_intermediate, ein1 L.abcdijkl L.acbdjikl Q.contracted_intermediate],
    set1 X.contracted_intermediate (ein4 L.mnfe L.fekl L.abjm L.cdin L.abcdijkl Q.g_abab_oaoavava Q.t2_abab Q.t2_aaaa Q.t2_abab),
    .aug X.quadruples_res [.arg Q.contracted_intermediate, ein1 L.abcdijkl L.abcdjikl Q.contracted_intermediate, ein1 L.abcdijkl L.acbdijkl Q.contracted_intermediate, ein1 L.abcdijkl L.acbdjikl Q.contracted_intermediate],
    set1 X.contracted_intermediate (ein4 L.nmef L.efkl L.adjm L.bcin L.abcdijkl Q.g_abab_oaoavava Q.t2_abab Q.t2_abab Q.t2_aaaa),
    .aug X.quadruples_res [.arg Q.contracted_intermediate, ein1 L.abcdijkl L.abcdjikl Q.contracted_intermediate],
    set1 X.contracted_intermediate (ein4 L.nmfe L.fekl L.adjm L.bcin L.abcdijkl Q.g_abab_oaoavava Q.t2_abab Q.t2_abab Q.t2_aaaa),
    .aug X.quadruples_res [.arg Q.contracted_intermediate, ein1 L.abcdijkl L.abcdjikl Q.contracted_intermediate],
    set1 X.contracted_intermediate (ein4 L.mnef L.efjl L.abkm L.cdin L.abcdijkl Q.g_abab_oaoavava Q.t2_abab Q.t2_aaaa Q.t2_abab),
    .aug X.quadruples_res [.arg Q.contracted_intermediate, ein1 L.abcdijkl L.abcdkjil Q.contracted_intermediate, ein1 L.abcdijkl L.acbdijkl Q.contracted_intermediate, ein1 L.abcdijkl L.acbdkjil Q.contracted_intermediate],
    set1 X.contracted_intermediate (ein4 L.mnfe L.fejl L.abkm L.cdin L.abcdijkl Q.g_abab_oaoavava Q.t2_abab Q.t2_aaaa Q.t2_abab),
    .aug X.quadruples_res [.arg Q.contracted_intermediate, ein1 L.abcdijkl L.abcdkjil Q.contracted_intermediate, ein1 L.abcdijkl L.acbdijkl Q.contracted_intermediate, ein1 L.abcdijkl L.acbdkjil Q.contracted_intermediate],
    set1 X.contracted_intermediate (ein4 L.nmef L.efjl L.adkm L.bcin L.abcdijkl Q.g_abab_oaoavava Q.t2_abab Q.t2_abab Q.t2_aaaa),
    .aug X.quadruples_res [.arg Q.contracted_intermediate, ein1 L.abcdijkl L.abcdkjil Q.contracted_intermediate],
    set1 X.contracted_intermediate (ein4 L.nmfe L.fejl L.adkm L.bcin L.abcdijkl Q.g_abab_oaoavava Q.t2_abab Q.t2_abab Q.t2_aaaa),
    .aug X.quadruples_res [.arg Q.contracted_intermediate, ein1 L.abcdijkl L.abcdkjil Q.contracted_intermediate],
    set1 X.contracted_intermediate (ein4 L.mnef L.efil L.abkm L.cdjn L.abcdijkl Q.g_abab_oaoavava Q.t2_abab Q.t2_aaaa Q.t2_abab),
    .aug X.quadruples_res [.arg Q.contracted_intermediate, ein1 L.abcdijkl L.abcdikjl Q.contracted_intermediate, ein1 L.abcdijkl L.acbdijkl Q.contracted_intermediate, ein1 L.abcdijkl L.acbdikjl Q.contracted_intermediate],
    set1 X.contracted_intermediate (ein4 L.mnfe L.feil L.abkm L.cdjn L.abcdijkl Q.g_abab_oaoavava Q.t2_abab Q.t2_aaaa Q.t2_abab),
    .aug X.quadruples_res [.arg Q.contracted_intermediate, ein1 L.abcdijkl L.abcdikjl Q.contracted_intermediate, ein1 L.abcdijkl L.acbdijkl Q.contracted_intermediate, ein1 L.abcdijkl L.acbdikjl Q.contracted_intermediate],
    set1 X.contracted_intermediate (ein4 L.nmef L.efil L.adkm L.bcjn L.abcdijkl Q.g_abab_oaoavava Q.t2_abab Q.t2_abab Q.t2_aaaa),
    .aug X.quadruples_res [.arg Q.contracted_intermediate, ein1 L.abcdijkl L.abcdikjl Q.contracted_intermediate],
    set1 X.contracted_intermediate (ein4 L.nmfe L.feil L.adkm L.bcjn L.abcdijkl Q.g_abab_oaoavava Q.t2_abab Q.t2_abab Q.t2_aaaa),
    .aug X.quadruples_res [.arg Q.contracted_intermediate, ein1 L.abcdijkl L.abcdikjl Q.contracted_intermediate],
    set1 X.contracted_intermediate (ein4 L.nmef L.efjk L.abim L.cdnl L.abcdijkl Q.g_aaaa_oaoavava Q.t2_aaaa Q.t2_aaaa Q.t2_abab),
    .aug X.quadruples_res [.arg Q.contracted_intermediate, ein1 L.abcdijkl L.acbdijkl Q.contracted_intermediate],
    aug1 X.quadruples_res (ein4 L.nmef L.efjk L.adml L.bcin L.abcdijkl Q.g_aaaa_oaoavava Q.t2_aaaa Q.t2_abab Q.t2_aaaa),
    set1 X.contracted_intermediate (ein4 L.nmef L.efik L.abjm L.cdnl L.abcdijkl Q.g_aaaa_oaoavava Q.t2_aaaa Q.t2_aaaa Q.t2_abab),
    .aug X.quadruples_res [.arg Q.contracted_intermediate, ein1 L.abcdijkl L.acbdijkl Q.contracted_intermediate],
    aug1 X.quadruples_res (ein4 L.nmef L.efik L.adml L.bcjn L.abcdijkl Q.g_aaaa_oaoavava Q.t2_aaaa Q.t2_abab Q.t2_aaaa),
    set1 X.contracted_intermediate (ein4 L.nmef L.efij L.abkm L.cdnl L.abcdijkl Q.g_aaaa_oaoavava Q.t2_aaaa Q.t2_aaaa Q.t2_abab),
    .aug X.quadruples_res [.arg Q.contracted_intermediate, ein1 L.abcdijkl L.acbdijkl Q.contracted_intermediate],
    aug1 X.quadruples_res (ein4 L.nmef L.efij L.adml L.bckn L.abcdijkl Q.g_aaaa_oaoavava Q.t2_aaaa Q.t2_abab Q.t2_aaaa),
    set1 X.contracted_intermediate (ein4 L.mnfe L.aeml L.fbjk L.cdin L.abcdijkl Q.g_abab_oaoavava Q.t2_abab Q.t2_aaaa Q.t2_abab),
    .aug X.quadruples_res [.arg Q.contracted_intermediate, ein1 L.abcdijkl L.abcdjikl Q.contracted_intermediate, ein1 L.abcdijkl L.acbdijkl Q.contracted_intermediate, ein1 L.abcdijkl L.acbdjikl Q.contracted_intermediate],
    set1 X.contracted_intermediate (ein4 L.mnfe L.aeml L.fbij L.cdkn L.abcdijkl Q.g_abab_oaoavava Q.t2_abab Q.t2_aaaa Q.t2_abab),
    .aug X.quadruples_res [.arg Q.contracted_intermediate, ein1 L.abcdijkl L.acbdijkl Q.contracted_intermediate],
    set1 X.contracted_intermediate (ein4 L.nmef L.eakm L.fbij L.cdnl L.abcdijkl Q.g_aaaa_oaoavava Q.t2_aaaa Q.t2_aaaa Q.t2_abab),
    .aug X.quadruples_res [.arg Q.contracted_intermediate, ein1 L.abcdijkl L.acbdijkl Q.contracted_intermediate],
    set1 X.contracted_intermediate (ein4 L.nmfe L.aekm L.fbij L.cdnl L.abcdijkl Q.g_abab_oaoavava Q.t2_abab Q.t2_aaaa Q.t2_abab),
    .aug X.quadruples_res [.arg Q.contracted_intermediate, ein1 L.abcdijkl L.acbdijkl Q.contracted_intermediate],
    set1 X.contracted_intermediate (ein4 L.mnef L.eakm L.bfjl L.cdin L.abcdijkl Q.g_abab_oaoavava Q.t2_aaaa Q.t2_abab Q.t2_abab),
    .aug X.quadruples_res [.arg Q.contracted_intermediate, ein1 L.abcdijkl L.abcdjikl Q.contracted_intermediate, ein1 L.abcdijkl L.acbdijkl Q.contracted_intermediate, ein1 L.abcdijkl L.acbdjikl Q.contracted_intermediate],
    set1 X.contracted_intermediate (ein4 L.nmef L.aekm L.bfjl L.cdin L.abcdijkl Q.g_bbbb_oaoavava Q.t2_abab Q.t2_abab Q.t2_abab),
    .aug X.quadruples_res [.arg Q.contracted_intermediate, ein1 L.abcdijkl L.abcdjikl Q.contracted_intermediate, ein1 L.abcdijkl L.acbdijkl Q.contracted_intermediate, ein1 L.abcdijkl L.acbdjikl Q.contracted_intermediate],
    set1 X.contracted_intermediate (ein4 L.nmef L.eakm L.fdjl L.bcin L.abcdijkl Q.g_aaaa_oaoavava Q.t2_aaaa Q.t2_abab Q.t2_aaaa),
    .aug X.quadruples_res [.arg Q.contracted_intermediate, ein1 L.abcdijkl L.abcdjikl Q.contracted_intermediate, ein1 L.abcdijkl L.bacdijkl Q.contracted_intermediate, ein1 L.abcdijkl L.bacdjikl Q.contracted_intermediate],
    set1 X.contracted_intermediate (ein4 L.nmfe L.aekm L.fdjl L.bcin L.abcdijkl Q.g_abab_oaoavava Q.t2_abab Q.t2_abab Q.t2_aaaa),
    .aug X.quadruples_res [.arg Q.contracted_intermediate, ein1 L.abcdijkl L.abcdjikl Q.contracted_intermediate, ein1 L.abcdijkl L.bacdijkl Q.contracted_intermediate, ein1 L.abcdijkl L.bacdjikl Q.contracted_intermediate],
    set1 X.contracted_intermediate (ein4 L.mnef L.eajm L.bfkl L.cdin L.abcdijkl Q.g_abab_oaoavava Q.t2_aaaa Q.t2_abab Q.t2_abab),
    .aug X.quadruples_res [.arg Q.contracted_intermediate, ein1 L.abcdijkl L.abcdkjil Q.contracted_intermediate, ein1 L.abcdijkl L.acbdijkl Q.contracted_intermediate, ein1 L.abcdijkl L.acbdkjil Q.contracted_intermediate],
    set1 X.contracted_intermediate (ein4 L.nmef L.aejm L.bfkl L.cdin L.abcdijkl Q.g_bbbb_oaoavava Q.t2_abab Q.t2_abab Q.t2_abab),
    .aug X.quadruples_res [.arg Q.contracted_intermediate, ein1 L.abcdijkl L.abcdkjil Q.contracted_intermediate, ein1 L.abcdijkl L.acbdijkl Q.contracted_intermediate, ein1 L.abcdijkl L.acbdkjil Q.contracted_intermediate],
    set1 X.contracted_intermediate (ein4 L.nmef L.eajm L.fbik L.cdnl L.abcdijkl Q.g_aaaa_oaoavava Q.t2_aaaa Q.t2_aaaa Q.t2_abab),
    .aug X.quadruples_res [.arg Q.contracted_intermediate, ein1 L.abcdijkl L.abcdjikl Q.contracted_intermediate, ein1 L.abcdijkl L.acbdijkl Q.contracted_intermediate, ein1 L.abcdijkl L.acbdjikl Q.contracted_intermediate],
    set1 X.contracted_intermediate (ein4 L.nmfe L.aejm L.fbik L.cdnl L.abcdijkl Q.g_abab_oaoavava Q.t2_abab Q.t2_aaaa Q.t2_abab),
    .aug X.quadruples_res [.arg Q.contracted_intermediate, ein1 L.abcdijkl L.abcdjikl Q.contracted_intermediate, ein1 L.abcdijkl L.acbdijkl Q.contracted_intermediate, ein1 L.abcdijkl L.acbdjikl Q.contracted_intermediate],
    set1 X.contracted_intermediate (ein4 L.nmef L.eajm L.fdkl L.bcin L.abcdijkl Q.g_aaaa_oaoavava Q.t2_aaaa Q.t2_abab Q.t2_aaaa),
    .aug X.quadruples_res [.arg Q.contracted_intermediate, ein1 L.abcdijkl L.abcdkjil Q.contracted_intermediate, ein1 L.abcdijkl L.bacdijkl Q.contracted_intermediate, ein1 L.abcdijkl L.bacdkjil Q.contracted_intermediate],
    set1 X.contracted_intermediate (ein4 L.nmfe L.aejm L.fdkl L.bcin L.abcdijkl Q.g_abab_oaoavava Q.t2_abab Q.t2_abab Q.t2_aaaa),
    .aug X.quadruples_res [.arg Q.contracted_intermediate, ein1 L.abcdijkl L.abcdkjil Q.contracted_intermediate, ein1 L.abcdijkl L.bacdijkl Q.contracted_intermediate, ein1 L.abcdijkl L.bacdkjil Q.contracted_intermediate],
    set1 X.contracted_intermediate (ein4 L.mnef L.eaim L.bfkl L.cdjn L.abcdijkl Q.g_abab_oaoavava Q.t2_aaaa Q.t2_abab Q.t2_abab),
    .aug X.quadruples_res [.arg Q.contracted_intermediate, ein1 L.abcdijkl L.abcdikjl Q.contracted_intermediate, ein1 L.abcdijkl L.acbdijkl Q.contracted_intermediate, ein1 L.abcdijkl L.acbdikjl Q.contracted_intermediate],
    set1 X.contracted_intermediate (ein4 L.nmef L.aeim L.bfkl L.cdjn L.abcdijkl Q.g_bbbb_oaoavava Q.t2_abab Q.t2_abab Q.t2_abab),
    .aug X.quadruples_res [.arg Q.contracted_intermediate, ein1 L.abcdijkl L.abcdikjl Q.contracted_intermediate, ein1 L.abcdijkl L.acbdijkl Q.contracted_intermediate, ein1 L.abcdijkl L.acbdikjl Q.contracted_intermediate],
    set1 X.contracted_intermediate (ein4 L.nmef L.eaim L.fdkl L.bcjn L.abcdijkl Q.g_aaaa_oaoavava Q.t2_aaaa Q.t2_abab Q.t2_aaaa),
    .aug X.quadruples_res [.arg Q.contracted_intermediate, ein1 L.abcdijkl L.abcdikjl Q.contracted_intermediate, ein1 L.abcdijkl L.bacdijkl Q.contracted_intermediate, ein1 L.abcdijkl L.bacdikjl Q.contracted_intermediate],
    set1 X.contracted_intermediate (ein4 L.nmfe L.aeim L.fdkl L.bcjn L.abcdijkl Q.g_abab_oaoavava Q.t2_abab Q.t2_abab Q.t2_aaaa),
    .aug X.quadruples_res [.arg Q.contracted_intermediate, ein1 L.abcdijkl L.abcdikjl Q.contracted_intermediate, ein1 L.abcdijkl L.bacdijkl Q.contracted_intermediate, ein1 L.abcdijkl L.bacdikjl Q.contracted_intermediate],
    set1 X.contracted_intermediate (ein4 L.mnfe L.aekl L.fbjm L.cdin L.abcdijkl Q.g_abab_oaoavava Q.t2_abab Q.t2_aaaa Q.t2_abab),
    .aug X.quadruples_res [.arg Q.contracted_intermediate, ein1 L.abcdijkl L.abcdjikl Q.contracted_intermediate, ein1 L.abcdijkl L.acbdijkl Q.contracted_intermediate, ein1 L.abcdijkl L.acbdjikl Q.contracted_intermediate],
    set1 X.contracted_intermediate (ein4 L.nmef L.aekl L.bfjm L.cdin L.abcdijkl Q.g_bbbb_oaoavava Q.t2_abab Q.t2_abab Q.t2_abab),
    .aug X.quadruples_res [.arg Q.contracted_intermediate, ein1 L.abcdijkl L.abcdjikl Q.contracted_intermediate, ein1 L.abcdijkl L.acbdijkl Q.contracted_intermediate, ein1 L.abcdijkl L.acbdjikl Q.contracted_intermediate],
    set1 X.contracted_intermediate (ein4 L.nmfe L.aekl L.fbij L.cdnm L.abcdijkl Q.g_abab_oaoavava Q.t2_abab Q.t2_aaaa Q.t2_abab),
    .aug X.quadruples_res [.arg Q.contracted_intermediate, ein1 L.abcdijkl L.abcdikjl Q.contracted_intermediate, ein1 L.abcdijkl L.acbdijkl Q.contracted_intermediate, ein1 L.abcdijkl L.acbdikjl Q.contracted_intermediate],
    set1 X.contracted_intermediate (ein4 L.mnfe L.aekl L.fbij L.cdmn L.abcdijkl Q.g_abab_oaoavava Q.t2_abab Q.t2_aaaa Q.t2_abab),
    .aug X.quadruples_res [.arg Q.contracted_intermediate, ein1 L.abcdijkl L.abcdikjl Q.contracted_intermediate, ein1 L.abcdijkl L.acbdijkl Q.contracted_intermediate, ein1 L.abcdijkl L.acbdikjl Q.contracted_intermediate],
    set1 X.contracted_intermediate (ein4 L.nmfe L.aekl L.fdjm L.bcin L.abcdijkl Q.g_abab_oaoavava Q.t2_abab Q.t2_abab Q.t2_aaaa),
    .aug X.quadruples_res [.arg Q.contracted_intermediate, ein1 L.abcdijkl L.abcdjikl Q.contracted_intermediate, ein1 L.abcdijkl L.bacdijkl Q.contracted_intermediate, ein1 L.abcdijkl L.bacdjikl Q.contracted_intermediate],
    set1 X.contracted_intermediate (ein4 L.mnfe L.aejl L.fbkm L.cdin L.abcdijkl Q.g_abab_oaoavava Q.t2_abab Q.t2_aaaa Q.t2_abab),
    .aug X.quadruples_res [.arg Q.contracted_intermediate, ein1 L.abcdijkl L.abcdkjil Q.contracted_intermediate, ein1 L.abcdijkl L.acbdijkl Q.contracted_intermediate, ein1 L.abcdijkl L.acbdkjil Q.contracted_intermediate],
    set1 X.contracted_intermediate (ein4 L.nmef L.aejl L.bfkm L.cdin L.abcdijkl Q.g_bbbb_oaoavava Q.t2_abab Q.t2_abab Q.t2_abab),
    .aug X.quadruples_res [.arg Q.contracted_intermediate, ein1 L.abcdijkl L.abcdkjil Q.contracted_intermediate, ein1 L.abcdijkl L.acbdijkl Q.contracted_intermediate, ein1 L.abcdijkl L.acbdkjil Q.contracted_intermediate],
    set1 X.contracted_intermediate (ein4 L.nmfe L.aejl L.fdkm L.bcin L.abcdijkl Q.g_abab_oaoavava Q.t2_abab Q.t2_abab Q.t2_aaaa),
    .aug X.quadruples_res [.arg Q.contracted_intermediate, ein1 L.abcdijkl L.abcdkjil Q.contracted_intermediate, ein1 L.abcdijkl L.bacdijkl Q.contracted_intermediate, ein1 L.abcdijkl L.bacdkjil Q.contracted_intermediate],
    set1 X.contracted_intermediate (ein4 L.mnfe L.aeil L.fbkm L.cdjn L.abcdijkl Q.g_abab_oaoavava Q.t2_abab Q.t2_aaaa Q.t2_abab),
    .aug X.quadruples_res [.arg Q.contracted_intermediate, ein1 L.abcdijkl L.abcdikjl Q.contracted_intermediate, ein1 L.abcdijkl L.acbdijkl Q.contracted_intermediate, ein1 L.abcdijkl L.acbdikjl Q.contracted_intermediate],
    set1 X.contracted_intermediate (ein4 L.nmef L.aeil L.bfkm L.cdjn L.abcdijkl Q.g_bbbb_oaoavava Q.t2_abab Q.t2_abab Q.t2_abab),
    .aug X.quadruples_res [.arg Q.contracted_intermediate, ein1 L.abcdijkl L.abcdikjl Q.contracted_intermediate, ein1 L.abcdijkl L.acbdijkl Q.contracted_intermediate, ein1 L.abcdijkl L.acbdikjl Q.contracted_intermediate],
    set1 X.contracted_intermediate (ein4 L.nmfe L.aeil L.fbjk L.cdnm L.abcdijkl Q.g_abab_oaoavava Q.t2_abab Q.t2_aaaa Q.t2_abab),
    .aug X.quadruples_res [.arg Q.contracted_intermediate, ein1 L.abcdijkl L.acbdijkl Q.contracted_intermediate],
    set1 X.contracted_intermediate (ein4 L.mnfe L.aeil L.fbjk L.cdmn L.abcdijkl Q.g_abab_oaoavava Q.t2_abab Q.t2_aaaa Q.t2_abab),
    .aug X.quadruples_res [.arg Q.contracted_intermediate, ein1 L.abcdijkl L.acbdijkl Q.contracted_intermediate],
    set1 X.contracted_intermediate (ein4 L.nmef L.eaik L.bfjl L.cdnm L.abcdijkl Q.g_abab_oaoavava Q.t2_aaaa Q.t2_abab Q.t2_abab),
    .aug X.quadruples_res [.arg Q.contracted_intermediate, ein1 L.abcdijkl L.acbdijkl Q.contracted_intermediate],
    set1 X.contracted_intermediate (ein4 L.mnef L.eaik L.bfjl L.cdmn L.abcdijkl Q.g_abab_oaoavava Q.t2_aaaa Q.t2_abab Q.t2_abab),
    .aug X.quadruples_res [.arg Q.contracted_intermediate, ein1 L.abcdijkl L.acbdijkl Q.contracted_intermediate],
    set1 X.contracted_intermediate (ein4 L.nmfe L.aeil L.fdkm L.bcjn L.abcdijkl Q.g_abab_oaoavava Q.t2_abab Q.t2_abab Q.t2_aaaa),
    .aug X.quadruples_res [.arg Q.contracted_intermediate, ein1 L.abcdijkl L.abcdikjl Q.contracted_intermediate, ein1 L.abcdijkl L.bacdijkl Q.contracted_intermediate, ein1 L.abcdijkl L.bacdikjl Q.contracted_intermediate],
    set1 X.contracted_intermediate (ein4 L.nmef L.eaik L.fdjl L.bcnm L.abcdijkl Q.g_aaaa_oaoavava Q.t2_aaaa Q.t2_abab Q.t2_aaaa),
    .aug X.quadruples_res [.arg Q.contracted_intermediate, ein1 L.abcdijkl L.bacdijkl Q.contracted_intermediate],
    set1 X.contracted_intermediate (ein4 L.mnef L.eajk L.bfml L.cdin L.abcdijkl Q.g_abab_oaoavava Q.t2_aaaa Q.t2_abab Q.t2_abab),
    .aug X.quadruples_res [.arg Q.contracted_intermediate, ein1 L.abcdijkl L.acbdijkl Q.contracted_intermediate],
    set1 X.contracted_intermediate (ein4 L.nmef L.eajk L.fbim L.cdnl L.abcdijkl Q.g_aaaa_oaoavava Q.t2_aaaa Q.t2_aaaa Q.t2_abab),
    .aug X.quadruples_res [.arg Q.contracted_intermediate, ein1 L.abcdijkl L.acbdijkl Q.contracted_intermediate],
    set1 X.contracted_intermediate (ein4 L.nmef L.eajk L.bfim L.cdnl L.abcdijkl Q.g_abab_oaoavava Q.t2_aaaa Q.t2_abab Q.t2_abab),
    .aug X.quadruples_res [.arg Q.contracted_intermediate, ein1 L.abcdijkl L.acbdijkl Q.contracted_intermediate],
    set1 X.contracted_intermediate (ein4 L.nmef L.eajk L.bfil L.cdnm L.abcdijkl Q.g_abab_oaoavava Q.t2_aaaa Q.t2_abab Q.t2_abab),
    .aug X.quadruples_res [.arg Q.contracted_intermediate, ein1 L.abcdijkl L.abcdkjil Q.contracted_intermediate, ein1 L.abcdijkl L.acbdijkl Q.contracted_intermediate, ein1 L.abcdijkl L.acbdkjil Q.contracted_intermediate],
    set1 X.contracted_intermediate (ein4 L.mnef L.eajk L.bfil L.cdmn L.abcdijkl Q.g_abab_oaoavava Q.t2_aaaa Q.t2_abab Q.t2_abab),
    .aug X.quadruples_res [.arg Q.contracted_intermediate, ein1 L.abcdijkl L.abcdkjil Q.contracted_intermediate, ein1 L.abcdijkl L.acbdijkl Q.contracted_intermediate, ein1 L.abcdijkl L.acbdkjil Q.contracted_intermediate],
    set1 X.contracted_intermediate (ein4 L.nmef L.eajk L.fdml L.bcin L.abcdijkl Q.g_aaaa_oaoavava Q.t2_aaaa Q.t2_abab Q.t2_aaaa),
    .aug X.quadruples_res [.arg Q.contracted_intermediate, ein1 L.abcdijkl L.bacdijkl Q.contracted_intermediate],
    set1 X.contracted_intermediate (ein4 L.nmef L.eajk L.fdlm L.bcin L.abcdijkl Q.g_abab_oaoavava Q.t2_aaaa Q.t2_bbbb Q.t2_aaaa),
    .aug X.quadruples_res [.arg Q.contracted_intermediate, ein1 L.abcdijkl L.bacdijkl Q.contracted_intermediate],
    set1 X.contracted_intermediate (ein4 L.nmef L.eajk L.fdil L.bcnm L.abcdijkl Q.g_aaaa_oaoavava Q.t2_aaaa Q.t2_abab Q.t2_aaaa),
    .aug X.quadruples_res [.arg Q.contracted_intermediate, ein1 L.abcdijkl L.abcdkjil Q.contracted_intermediate, ein1 L.abcdijkl L.bacdijkl Q.contracted_intermediate, ein1 L.abcdijkl L.bacdkjil Q.contracted_intermediate],
    set1 X.contracted_intermediate (ein4 L.mnef L.eaik L.bfml L.cdjn L.abcdijkl Q.g_abab_oaoavava Q.t2_aaaa Q.t2_abab Q.t2_abab),
    .aug X.quadruples_res [.arg Q.contracted_intermediate, ein1 L.abcdijkl L.acbdijkl Q.contracted_intermediate],
    set1 X.contracted_intermediate (ein4 L.nmef L.eaik L.fbjm L.cdnl L.abcdijkl Q.g_aaaa_oaoavava Q.t2_aaaa Q.t2_aaaa Q.t2_abab),
    .aug X.quadruples_res [.arg Q.contracted_intermediate, ein1 L.abcdijkl L.acbdijkl Q.contracted_intermediate],
    set1 X.contracted_intermediate (ein4 L.nmef L.eaik L.bfjm L.cdnl L.abcdijkl Q.g_abab_oaoavava Q.t2_aaaa Q.t2_abab Q.t2_abab),
    .aug X.quadruples_res [.arg Q.contracted_intermediate, ein1 L.abcdijkl L.acbdijkl Q.contracted_intermediate],
    set1 X.contracted_intermediate (ein4 L.nmef L.eaik L.fdml L.bcjn L.abcdijkl Q.g_aaaa_oaoavava Q.t2_aaaa Q.t2_abab Q.t2_aaaa),
    .aug X.quadruples_res [.arg Q.contracted_intermediate, ein1 L.abcdijkl L.bacdijkl Q.contracted_intermediate],
    set1 X.contracted_intermediate (ein4 L.nmef L.eaik L.fdlm L.bcjn L.abcdijkl Q.g_abab_oaoavava Q.t2_aaaa Q.t2_bbbb Q.t2_aaaa),
    .aug X.quadruples_res [.arg Q.contracted_intermediate, ein1 L.abcdijkl L.bacdijkl Q.contracted_intermediate],
    set1 X.contracted_intermediate (ein4 L.mnef L.eaij L.bfml L.cdkn L.abcdijkl Q.g_abab_oaoavava Q.t2_aaaa Q.t2_abab Q.t2_abab),
    .aug X.quadruples_res [.arg Q.contracted_intermediate, ein1 L.abcdijkl L.acbdijkl Q.contracted_intermediate],
    set1 X.contracted_intermediate (ein4 L.nmef L.eaij L.fbkm L.cdnl L.abcdijkl Q.g_aaaa_oaoavava Q.t2_aaaa Q.t2_aaaa Q.t2_abab),
    .aug X.quadruples_res [.arg Q.contracted_intermediate, ein1 L.abcdijkl L.acbdijkl Q.contracted_intermediate],
    set1 X.contracted_intermediate (ein4 L.nmef L.eaij L.bfkm L.cdnl L.abcdijkl Q.g_abab_oaoavava Q.t2_aaaa Q.t2_abab Q.t2_abab),
    .aug X.quadruples_res [.arg Q.contracted_intermediate, ein1 L.abcdijkl L.acbdijkl Q.contracted_intermediate],
    set1 X.contracted_intermediate (ein4 L.nmef L.eaij L.fdml L.bckn L.abcdijkl Q.g_aaaa_oaoavava Q.t2_aaaa Q.t2_abab Q.t2_aaaa),
    .aug X.quadruples_res [.arg Q.contracted_intermediate, ein1 L.abcdijkl L.bacdijkl Q.contracted_intermediate],
    set1 X.contracted_intermediate (ein4 L.nmef L.eaij L.fdlm L.bckn L.abcdijkl Q.g_abab_oaoavava Q.t2_aaaa Q.t2_bbbb Q.t2_aaaa),
    .aug X.quadruples_res [.arg Q.contracted_intermediate, ein1 L.abcdijkl L.bacdijkl Q.contracted_intermediate],
    set1 X.contracted_intermediate (ein4 L.mnfe L.beml L.fcjk L.adin L.abcdijkl Q.g_abab_oaoavava Q.t2_abab Q.t2_aaaa Q.t2_abab),
    .aug X.quadruples_res [.arg Q.contracted_intermediate, ein1 L.abcdijkl L.abcdjikl Q.contracted_intermediate],
    aug1 X.quadruples_res (ein4 L.mnfe L.beml L.fcij L.adkn L.abcdijkl Q.g_abab_oaoavava Q.t2_abab Q.t2_aaaa Q.t2_abab),
    aug1 X.quadruples_res (ein4 L.nmef L.ebkm L.fcij L.adnl L.abcdijkl Q.g_aaaa_oaoavava Q.t2_aaaa Q.t2_aaaa Q.t2_abab),
    aug1 X.quadruples_res (ein4 L.nmfe L.bekm L.fcij L.adnl L.abcdijkl Q.g_abab_oaoavava Q.t2_abab Q.t2_aaaa Q.t2_abab),
    set1 X.contracted_intermediate (ein4 L.mnef L.ebkm L.cfjl L.adin L.abcdijkl Q.g_abab_oaoavava Q.t2_aaaa Q.t2_abab Q.t2_abab),
    .aug X.quadruples_res [.arg Q.contracted_intermediate, ein1 L.abcdijkl L.abcdjikl Q.contracted_intermediate],
    set1 X.contracted_intermediate (ein4 L.nmef L.bekm L.cfjl L.adin L.abcdijkl Q.g_bbbb_oaoavava Q.t2_abab Q.t2_abab Q.t2_abab),
    .aug X.quadruples_res [.arg Q.contracted_intermediate, ein1 L.abcdijkl L.abcdjikl Q.contracted_intermediate],
    set1 X.contracted_intermediate (ein4 L.mnef L.ebjm L.cfkl L.adin L.abcdijkl Q.g_abab_oaoavava Q.t2_aaaa Q.t2_abab Q.t2_abab),
    .aug X.quadruples_res [.arg Q.contracted_intermediate, ein1 L.abcdijkl L.abcdkjil Q.contracted_intermediate],
    set1 X.contracted_intermediate (ein4 L.nmef L.bejm L.cfkl L.adin L.abcdijkl Q.g_bbbb_oaoavava Q.t2_abab Q.t2_abab Q.t2_abab),
    .aug X.quadruples_res [.arg Q.contracted_intermediate, ein1 L.abcdijkl L.abcdkjil Q.contracted_intermediate],
    set1 X.contracted_intermediate (ein4 L.nmef L.ebjm L.fcik L.adnl L.abcdijkl Q.g_aaaa_oaoavava Q.t2_aaaa Q.t2_aaaa Q.t2_abab),
    .aug X.quadruples_res [.arg Q.contracted_intermediate, ein1 L.abcdijkl L.abcdjikl Q.contracted_intermediate],
    set1 X.contracted_intermediate (ein4 L.nmfe L.bejm L.fcik L.adnl L.abcdijkl Q.g_abab_oaoavava Q.t2_abab Q.t2_aaaa Q.t2_abab),
    .aug X.quadruples_res [.arg Q.contracted_intermediate, ein1 L.abcdijkl L.abcdjikl Q.contracted_intermediate],
    set1 X.contracted_intermediate (ein4 L.mnef L.ebim L.cfkl L.adjn L.abcdijkl Q.g_abab_oaoavava Q.t2_aaaa Q.t2_abab Q.t2_abab),
    .aug X.quadruples_res [.arg Q.contracted_intermediate, ein1 L.abcdijkl L.abcdikjl Q.contracted_intermediate],
    set1 X.contracted_intermediate (ein4 L.nmef L.beim L.cfkl L.adjn L.abcdijkl Q.g_bbbb_oaoavava Q.t2_abab Q.t2_abab Q.t2_abab),
    .aug X.quadruples_res [.arg Q.contracted_intermediate, ein1 L.abcdijkl L.abcdikjl Q.contracted_intermediate],
    set1 X.contracted_intermediate (ein4 L.mnfe L.bekl L.fcjm L.adin L.abcdijkl Q.g_abab_oaoavava Q.t2_abab Q.t2_aaaa Q.t2_abab),
    .aug X.quadruples_res [.arg Q.contracted_intermediate, ein1 L.abcdijkl L.abcdjikl Q.contracted_intermediate],
    set1 X.contracted_intermediate (ein4 L.nmef L.bekl L.cfjm L.adin L.abcdijkl Q.g_bbbb_oaoavava Q.t2_abab Q.t2_abab Q.t2_abab),
    .aug X.quadruples_res [.arg Q.contracted_intermediate, ein1 L.abcdijkl L.abcdjikl Q.contracted_intermediate],
    set1 X.contracted_intermediate (ein4 L.nmfe L.bekl L.fcij L.adnm L.abcdijkl Q.g_abab_oaoavava Q.t2_abab Q.t2_aaaa Q.t2_abab),
    .aug X.quadruples_res [.arg Q.contracted_intermediate, ein1 L.abcdijkl L.abcdikjl Q.contracted_intermediate],
    set1 X.contracted_intermediate (ein4 L.mnfe L.bekl L.fcij L.admn L.abcdijkl Q.g_abab_oaoavava Q.t2_abab Q.t2_aaaa Q.t2_abab),
    .aug X.quadruples_res [.arg Q.contracted_intermediate, ein1 L.abcdijkl L.abcdikjl Q.contracted_intermediate],
    set1 X.contracted_intermediate (ein4 L.mnfe L.bejl L.fckm L.adin L.abcdijkl Q.g_abab_oaoavava Q.t2_abab Q.t2_aaaa Q.t2_abab),
    .aug X.quadruples_res [.arg Q.contracted_intermediate, ein1 L.abcdijkl L.abcdkjil Q.contracted_intermediate],
    set1 X.contracted_intermediate (ein4 L.nmef L.bejl L.cfkm L.adin L.abcdijkl Q.g_bbbb_oaoavava Q.t2_abab Q.t2_abab Q.t2_abab),
    .aug X.quadruples_res [.arg Q.contracted_intermediate, ein1 L.abcdijkl L.abcdkjil Q.contracted_intermediate],
    set1 X.contracted_intermediate (ein4 L.mnfe L.beil L.fckm L.adjn L.abcdijkl Q.g_abab_oaoavava Q.t2_abab Q.t2_aaaa Q.t2_abab),
    .aug X.quadruples_res [.arg Q.contracted_intermediate, ein1 L.abcdijkl L.abcdikjl Q.contracted_intermediate],
    set1 X.contracted_intermediate (ein4 L.nmef L.beil L.cfkm L.adjn L.abcdijkl Q.g_bbbb_oaoavava Q.t2_abab Q.t2_abab Q.t2_abab),
    .aug X.quadruples_res [.arg Q.contracted_intermediate, ein1 L.abcdijkl L.abcdikjl Q.contracted_intermediate],
    aug1 X.quadruples_res (ein4 L.nmfe L.beil L.fcjk L.adnm L.abcdijkl Q.g_abab_oaoavava Q.t2_abab Q.t2_aaaa Q.t2_abab),
    aug1 X.quadruples_res (ein4 L.mnfe L.beil L.fcjk L.admn L.abcdijkl Q.g_abab_oaoavava Q.t2_abab Q.t2_aaaa Q.t2_abab),
    aug1 X.quadruples_res (ein4 L.nmef L.ebik L.cfjl L.adnm L.abcdijkl Q.g_abab_oaoavava Q.t2_aaaa Q.t2_abab Q.t2_abab),
    aug1 X.quadruples_res (ein4 L.mnef L.ebik L.cfjl L.admn L.abcdijkl Q.g_abab_oaoavava Q.t2_aaaa Q.t2_abab Q.t2_abab),
    aug1 X.quadruples_res (ein4 L.mnef L.ebjk L.cfml L.adin L.abcdijkl Q.g_abab_oaoavava Q.t2_aaaa Q.t2_abab Q.t2_abab),
    aug1 X.quadruples_res (ein4 L.nmef L.ebjk L.fcim L.adnl L.abcdijkl Q.g_aaaa_oaoavava Q.t2_aaaa Q.t2_aaaa Q.t2_abab),
    aug1 X.quadruples_res (ein4 L.nmef L.ebjk L.cfim L.adnl L.abcdijkl Q.g_abab_oaoavava Q.t2_aaaa Q.t2_abab Q.t2_abab),
    set1 X.contracted_intermediate (ein4 L.nmef L.ebjk L.cfil L.adnm L.abcdijkl Q.g_abab_oaoavava Q.t2_aaaa Q.t2_abab Q.t2_abab),
    .aug X.quadruples_res [.arg Q.contracted_intermediate, ein1 L.abcdijkl L.abcdkjil Q.contracted_intermediate],
    set1 X.contracted_intermediate (ein4 L.mnef L.ebjk L.cfil L.admn L.abcdijkl Q.g_abab_oaoavava Q.t2_aaaa Q.t2_abab Q.t2_abab),
    .aug X.quadruples_res [.arg Q.contracted_intermediate, ein1 L.abcdijkl L.abcdkjil Q.contracted_intermediate],
    aug1 X.quadruples_res (ein4 L.mnef L.ebik L.cfml L.adjn L.abcdijkl Q.g_abab_oaoavava Q.t2_aaaa Q.t2_abab Q.t2_abab),
    aug1 X.quadruples_res (ein4 L.nmef L.ebik L.fcjm L.adnl L.abcdijkl Q.g_aaaa_oaoavava Q.t2_aaaa Q.t2_aaaa Q.t2_abab),
    aug1 X.quadruples_res (ein4 L.nmef L.ebik L.cfjm L.adnl L.abcdijkl Q.g_abab_oaoavava Q.t2_aaaa Q.t2_abab Q.t2_abab),
    aug1 X.quadruples_res (ein4 L.mnef L.ebij L.cfml L.adkn L.abcdijkl Q.g_abab_oaoavava Q.t2_aaaa Q.t2_abab Q.t2_abab),
    aug1 X.quadruples_res (ein4 L.nmef L.ebij L.fckm L.adnl L.abcdijkl Q.g_aaaa_oaoavava Q.t2_aaaa Q.t2_aaaa Q.t2_abab),
    aug1 X.quadruples_res (ein4 L.nmef L.ebij L.cfkm L.adnl L.abcdijkl Q.g_abab_oaoavava Q.t2_aaaa Q.t2_abab Q.t2_abab),
    set1 X.contracted_intermediate (ein4 L.nmef L.eckm L.fdjl L.abin L.abcdijkl Q.g_aaaa_oaoavava Q.t2_aaaa Q.t2_abab Q.t2_aaaa),
    .aug X.quadruples_res [.arg Q.contracted_intermediate, ein1 L.abcdijkl L.abcdjikl Q.contracted_intermediate],
    set1 X.contracted_intermediate (ein4 L.nmfe L.cekm L.fdjl L.abin L.abcdijkl Q.g_abab_oaoavava Q.t2_abab Q.t2_abab Q.t2_aaaa),
    .aug X.quadruples_res [.arg Q.contracted_intermediate, ein1 L.abcdijkl L.abcdjikl Q.contracted_intermediate],
    set1 X.contracted_intermediate (ein4 L.nmef L.ecjm L.fdkl L.abin L.abcdijkl Q.g_aaaa_oaoavava Q.t2_aaaa Q.t2_abab Q.t2_aaaa),
    .aug X.quadruples_res [.arg Q.contracted_intermediate, ein1 L.abcdijkl L.abcdkjil Q.contracted_intermediate],
    set1 X.contracted_intermediate (ein4 L.nmfe L.cejm L.fdkl L.abin L.abcdijkl Q.g_abab_oaoavava Q.t2_abab Q.t2_abab Q.t2_aaaa),
    .aug X.quadruples_res [.arg Q.contracted_intermediate, ein1 L.abcdijkl L.abcdkjil Q.contracted_intermediate],
    set1 X.contracted_intermediate (ein4 L.nmef L.ecim L.fdkl L.abjn L.abcdijkl Q.g_aaaa_oaoavava Q.t2_aaaa Q.t2_abab Q.t2_aaaa),
    .aug X.quadruples_res [.arg Q.contracted_intermediate, ein1 L.abcdijkl L.abcdikjl Q.contracted_intermediate],
    set1 X.contracted_intermediate (ein4 L.nmfe L.ceim L.fdkl L.abjn L.abcdijkl Q.g_abab_oaoavava Q.t2_abab Q.t2_abab Q.t2_aaaa),
    .aug X.quadruples_res [.arg Q.contracted_intermediate, ein1 L.abcdijkl L.abcdikjl Q.contracted_intermediate],
    set1 X.contracted_intermediate (ein4 L.nmfe L.cekl L.fdjm L.abin L.abcdijkl Q.g_abab_oaoavava Q.t2_abab Q.t2_abab Q.t2_aaaa),
    .aug X.quadruples_res [.arg Q.contracted_intermediate, ein1 L.abcdijkl L.abcdjikl Q.contracted_intermediate],
    set1 X.contracted_intermediate (ein4 L.nmfe L.cejl L.fdkm L.abin L.abcdijkl Q.g_abab_oaoavava Q.t2_abab Q.t2_abab Q.t2_aaaa),
    .aug X.quadruples_res [.arg Q.contracted_intermediate, ein1 L.abcdijkl L.abcdkjil Q.contracted_intermediate],
    set1 X.contracted_intermediate (ein4 L.nmfe L.ceil L.fdkm L.abjn L.abcdijkl Q.g_abab_oaoavava Q.t2_abab Q.t2_abab Q.t2_aaaa),
    .aug X.quadruples_res [.arg Q.contracted_intermediate, ein1 L.abcdijkl L.abcdikjl Q.contracted_intermediate],
    aug1 X.quadruples_res (ein4 L.nmef L.ecik L.fdjl L.abnm L.abcdijkl Q.g_aaaa_oaoavava Q.t2_aaaa Q.t2_abab Q.t2_aaaa),
    aug1 X.quadruples_res (ein4 L.nmef L.ecjk L.fdml L.abin L.abcdijkl Q.g_aaaa_oaoavava Q.t2_aaaa Q.t2_abab Q.t2_aaaa),
    aug1 X.quadruples_res (ein4 L.nmef L.ecjk L.fdlm L.abin L.abcdijkl Q.g_abab_oaoavava Q.t2_aaaa Q.t2_bbbb Q.t2_aaaa),
    set1 X.contracted_intermediate (ein4 L.nmef L.ecjk L.fdil L.abnm L.abcdijkl Q.g_aaaa_oaoavava Q.t2_aaaa Q.t2_abab Q.t2_aaaa),
    .aug X.quadruples_res [.arg Q.contracted_intermediate, ein1 L.abcdijkl L.abcdkjil Q.contracted_intermediate],
    aug1 X.quadruples_res (ein4 L.nmef L.ecik L.fdml L.abjn L.abcdijkl Q.g_aaaa_oaoavava Q.t2_aaaa Q.t2_abab Q.t2_aaaa),
    aug1 X.quadruples_res (ein4 L.nmef L.ecik L.fdlm L.abjn L.abcdijkl Q.g_abab_oaoavava Q.t2_aaaa Q.t2_bbbb Q.t2_aaaa),
    aug1 X.quadruples_res (ein4 L.nmef L.ecij L.fdml L.abkn L.abcdijkl Q.g_aaaa_oaoavava Q.t2_aaaa Q.t2_abab Q.t2_aaaa),
    aug1 X.quadruples_res (ein4 L.nmef L.ecij L.fdlm L.abkn L.abcdijkl Q.g_abab_oaoavava Q.t2_aaaa Q.t2_bbbb Q.t2_aaaa)]
  ret := [Q.quadruples_res]

/-- `ccdq_resids.py` 2682-4075: `ccdq_t4_aabbaabb_residual`; 696 einsum calls. -/
def ccdq_resids_ccdq_t4_aabbaabb_residual : Fn where
  params := [X.f_bb, X.t4_aabbaabb, X.f_aa, X.g_bbbb, X.g_abab, X.g_aaaa, X.t4_abbbabbb, X.t4_aaabaaab, X.t2_abab, X.t2_bbbb, X.t2_aaaa]
  body := [
    set1 X.contracted_intermediate (ein2 L.ml L.abcdijkm L.abcdijkl Q.f_bb_oaoa Q.t4_aabbaabb_xxxxxxxx),
    .set X.quadruples_res [.arg Q.contracted_intermediate, ein1 L.abcdijkl L.abcdijlk Q.contracted_intermediate],
    set1 X.contracted_intermediate (ein2 L.mj L.abcdimlk L.abcdijkl Q.f_aa_oaoa Q.t4_aabbaabb_xxxxxxxx),
    .aug X.quadruples_res [.arg Q.contracted_intermediate, ein1 L.abcdijkl L.abcdjikl Q.contracted_intermediate],
    set1 X.contracted_intermediate (ein2 L.ae L.ebcdijkl L.abcdijkl Q.f_aa_vava Q.t4_aabbaabb_xxxxxxxx),
    .aug X.quadruples_res [.arg Q.contracted_intermediate, ein1 L.abcdijkl L.bacdijkl Q.contracted_intermediate],
    set1 X.contracted_intermediate (ein2 L.ce L.baedijkl L.abcdijkl Q.f_bb_vava Q.t4_aabbaabb_xxxxxxxx),
    .aug X.quadruples_res [.arg Q.contracted_intermediate, ein1 L.abcdijkl L.abdcijkl Q.contracted_intermediate],
    aug1 X.quadruples_res (ein2 L.nmkl L.abcdijnm L.abcdijkl Q.g_bbbb_oaoaoaoa Q.t4_aabbaabb_xxxxxxxx),
    aug1 X.quadruples_res (ein2 L.nmjl L.abcdinkm L.abcdijkl Q.g_abab_oaoaoaoa Q.t4_aabbaabb_xxxxxxxx),
    aug1 X.quadruples_res (ein2 L.mnjl L.abcdimnk L.abcdijkl Q.g_abab_oaoaoaoa Q.t4_aabbaabb_xxxxxxxx),
    set1 X.contracted_intermediate (ein2 L.nmil L.abcdjnkm L.abcdijkl Q.g_abab_oaoaoaoa Q.t4_aabbaabb_xxxxxxxx),
    .aug X.quadruples_res [.arg Q.contracted_intermediate, ein1 L.abcdijkl L.abcdijlk Q.contracted_intermediate],
    set1 X.contracted_intermediate (ein2 L.mnil L.abcdjmnk L.abcdijkl Q.g_abab_oaoaoaoa Q.t4_aabbaabb_xxxxxxxx),
    .aug X.quadruples_res [.arg Q.contracted_intermediate, ein1 L.abcdijkl L.abcdijlk Q.contracted_intermediate],
    aug1 X.quadruples_res (ein2 L.nmjk L.abcdinlm L.abcdijkl Q.g_abab_oaoaoaoa Q.t4_aabbaabb_xxxxxxxx),
    aug1 X.quadruples_res (ein2 L.mnjk L.abcdimnl L.abcdijkl Q.g_abab_oaoaoaoa Q.t4_aabbaabb_xxxxxxxx),
    aug1 X.quadruples_res (ein2 L.nmji L.abcdnmkl L.abcdijkl Q.g_aaaa_oaoaoaoa Q.t4_aabbaabb_xxxxxxxx),
    set1 X.contracted_intermediate (ein2 L.amel L.ebcdijkm L.abcdijkl Q.g_abab_vaoavaoa Q.t4_aabbaabb_xxxxxxxx),
    .aug X.quadruples_res [.arg Q.contracted_intermediate, ein1 L.abcdijkl L.abcdijlk Q.contracted_intermediate, ein1 L.abcdijkl L.bacdijkl Q.contracted_intermediate, ein1 L.abcdijkl L.bacdijlk Q.contracted_intermediate],
    set1 X.contracted_intermediate (ein2 L.maej L.ebcdimlk L.abcdijkl Q.g_aaaa_oavavaoa Q.t4_aabbaabb_xxxxxxxx),
    .aug X.quadruples_res [.arg Q.contracted_intermediate, ein1 L.abcdijkl L.abcdjikl Q.contracted_intermediate, ein1 L.abcdijkl L.bacdijkl Q.contracted_intermediate, ein1 L.abcdijkl L.bacdjikl Q.contracted_intermediate],
    set1 X.contracted_intermediate (ein2 L.amje L.becdiklm L.abcdijkl Q.g_abab_vaoaoava Q.t4_abbbabbb_xxxxxxxx),
    .aug X.quadruples_res [.arg Q.contracted_intermediate, ein1 L.abcdijkl L.abcdjikl Q.contracted_intermediate, ein1 L.abcdijkl L.bacdijkl Q.contracted_intermediate, ein1 L.abcdijkl L.bacdjikl Q.contracted_intermediate],
    set1 X.contracted_intermediate (ein2 L.mcel L.eabdijmk L.abcdijkl Q.g_abab_oavavaoa Q.t4_aaabaaab_xxxxxxxx),
    .aug X.quadruples_res [.arg Q.contracted_intermediate, ein1 L.abcdijkl L.abcdijlk Q.contracted_intermediate, ein1 L.abcdijkl L.abdcijkl Q.contracted_intermediate, ein1 L.abcdijkl L.abdcijlk Q.contracted_intermediate],
    set1 X.contracted_intermediate (ein2 L.mcel L.baedijkm L.abcdijkl Q.g_bbbb_oavavaoa Q.t4_aabbaabb_xxxxxxxx),
    .aug X.quadruples_res [.arg Q.contracted_intermediate, ein1 L.abcdijkl L.abcdijlk Q.contracted_intermediate, ein1 L.abcdijkl L.abdcijkl Q.contracted_intermediate, ein1 L.abcdijkl L.abdcijlk Q.contracted_intermediate],
    set1 X.contracted_intermediate (ein2 L.mcje L.baedimlk L.abcdijkl Q.g_abab_oavaoava Q.t4_aabbaabb_xxxxxxxx),
    .aug X.quadruples_res [.arg Q.contracted_intermediate, ein1 L.abcdijkl L.abcdjikl Q.contracted_intermediate, ein1 L.abcdijkl L.abdcijkl Q.contracted_intermediate, ein1 L.abcdijkl L.abdcjikl Q.contracted_intermediate],
    aug1 X.quadruples_res (ein2 L.abef L.efcdijkl L.abcdijkl Q.g_aaaa_vavavava Q.t4_aabbaabb_xxxxxxxx),
    aug1 X.quadruples_res (ein2 L.acef L.ebfdijkl L.abcdijkl Q.g_abab_vavavava Q.t4_aabbaabb_xxxxxxxx),
    aug1 X.quadruples_res (ein2 L.acfe L.bfedijkl L.abcdijkl Q.g_abab_vavavava Q.t4_aabbaabb_xxxxxxxx),
    set1 X.contracted_intermediate (ein2 L.adef L.ebfcijkl L.abcdijkl Q.g_abab_vavavava Q.t4_aabbaabb_xxxxxxxx),
    .aug X.quadruples_res [.arg Q.contracted_intermediate, ein1 L.abcdijkl L.bacdijkl Q.contracted_intermediate],
    set1 X.contracted_intermediate (ein2 L.adfe L.bfecijkl L.abcdijkl Q.g_abab_vavavava Q.t4_aabbaabb_xxxxxxxx),
    .aug X.quadruples_res [.arg Q.contracted_intermediate, ein1 L.abcdijkl L.bacdijkl Q.contracted_intermediate],
    aug1 X.quadruples_res (ein2 L.bcef L.eafdijkl L.abcdijkl Q.g_abab_vavavava Q.t4_aabbaabb_xxxxxxxx),
    aug1 X.quadruples_res (ein2 L.bcfe L.afedijkl L.abcdijkl Q.g_abab_vavavava Q.t4_aabbaabb_xxxxxxxx),
    aug1 X.quadruples_res (ein2 L.dcef L.abefijkl L.abcdijkl Q.g_bbbb_vavavava Q.t4_aabbaabb_xxxxxxxx),
    set1 X.contracted_intermediate (ein3 L.mnef L.efml L.abcdijkn L.abcdijkl Q.g_abab_oaoavava Q.t2_abab Q.t4_aabbaabb_xxxxxxxx),
    .aug X.quadruples_res [.arg Q.contracted_intermediate, ein1 L.abcdijkl L.abcdijlk Q.contracted_intermediate],
    set1 X.contracted_intermediate (ein3 L.mnfe L.feml L.abcdijkn L.abcdijkl Q.g_abab_oaoavava Q.t2_abab Q.t4_aabbaabb_xxxxxxxx),
    .aug X.quadruples_res [.arg Q.contracted_intermediate, ein1 L.abcdijkl L.abcdijlk Q.contracted_intermediate],
    set1 X.contracted_intermediate (ein3 L.nmef L.eflm L.abcdijkn L.abcdijkl Q.g_bbbb_oaoavava Q.t2_bbbb Q.t4_aabbaabb_xxxxxxxx),
    .aug X.quadruples_res [.arg Q.contracted_intermediate, ein1 L.abcdijkl L.abcdijlk Q.contracted_intermediate],
    set1 X.contracted_intermediate (ein3 L.nmef L.efjm L.abcdinlk L.abcdijkl Q.g_aaaa_oaoavava Q.t2_aaaa Q.t4_aabbaabb_xxxxxxxx),
    .aug X.quadruples_res [.arg Q.contracted_intermediate, ein1 L.abcdijkl L.abcdjikl Q.contracted_intermediate],
    set1 X.contracted_intermediate (ein3 L.nmef L.efjm L.abcdinlk L.abcdijkl Q.g_abab_oaoavava Q.t2_abab Q.t4_aabbaabb_xxxxxxxx),
    .aug X.quadruples_res [.arg Q.contracted_intermediate, ein1 L.abcdijkl L.abcdjikl Q.contracted_intermediate],
    set1 X.contracted_intermediate (ein3 L.nmfe L.fejm L.abcdinlk L.abcdijkl Q.g_abab_oaoavava Q.t2_abab Q.t4_aabbaabb_xxxxxxxx),
    .aug X.quadruples_res [.arg Q.contracted_intermediate, ein1 L.abcdijkl L.abcdjikl Q.contracted_intermediate],
    aug1 X.quadruples_res (ein3 L.nmef L.efkl L.abcdijnm L.abcdijkl Q.g_bbbb_oaoavava Q.t2_bbbb Q.t4_aabbaabb_xxxxxxxx),
    aug1 X.quadruples_res (ein3 L.nmef L.efjl L.abcdinkm L.abcdijkl Q.g_abab_oaoavava Q.t2_abab Q.t4_aabbaabb_xxxxxxxx),
    aug1 X.quadruples_res (ein3 L.mnef L.efjl L.abcdimnk L.abcdijkl Q.g_abab_oaoavava Q.t2_abab Q.t4_aabbaabb_xxxxxxxx),
    aug1 X.quadruples_res (ein3 L.nmfe L.fejl L.abcdinkm L.abcdijkl Q.g_abab_oaoavava Q.t2_abab Q.t4_aabbaabb_xxxxxxxx),
    aug1 X.quadruples_res (ein3 L.mnfe L.fejl L.abcdimnk L.abcdijkl Q.g_abab_oaoavava Q.t2_abab Q.t4_aabbaabb_xxxxxxxx),
    set1 X.contracted_intermediate (ein3 L.nmef L.efil L.abcdjnkm L.abcdijkl Q.g_abab_oaoavava Q.t2_abab Q.t4_aabbaabb_xxxxxxxx),
    .aug X.quadruples_res [.arg Q.contracted_intermediate, ein1 L.abcdijkl L.abcdijlk Q.contracted_intermediate],
    set1 X.contracted_intermediate (ein3 L.mnef L.efil L.abcdjmnk L.abcdijkl Q.g_abab_oaoavava Q.t2_abab Q.t4_aabbaabb_xxxxxxxx),
    .aug X.quadruples_res [.arg Q.contracted_intermediate, ein1 L.abcdijkl L.abcdijlk Q.contracted_intermediate],
    set1 X.contracted_intermediate (ein3 L.nmfe L.feil L.abcdjnkm L.abcdijkl Q.g_abab_oaoavava Q.t2_abab Q.t4_aabbaabb_xxxxxxxx),
    .aug X.quadruples_res [.arg Q.contracted_intermediate, ein1 L.abcdijkl L.abcdijlk Q.contracted_intermediate],
    set1 X.contracted_intermediate (ein3 L.mnfe L.feil L.abcdjmnk L.abcdijkl Q.g_abab_oaoavava Q.t2_abab Q.t4_aabbaabb_xxxxxxxx),
    .aug X.quadruples_res [.arg Q.contracted_intermediate, ein1 L.abcdijkl L.abcdijlk Q.contracted_intermediate],
    aug1 X.quadruples_res (ein3 L.nmef L.efjk L.abcdinlm L.abcdijkl Q.g_abab_oaoavava Q.t2_abab Q.t4_aabbaabb_xxxxxxxx),
    aug1 X.quadruples_res (ein3 L.mnef L.efjk L.abcdimnl L.abcdijkl Q.g_abab_oaoavava Q.t2_abab Q.t4_aabbaabb_xxxxxxxx),
    aug1 X.quadruples_res (ein3 L.nmfe L.fejk L.abcdinlm L.abcdijkl Q.g_abab_oaoavava Q.t2_abab Q.t4_aabbaabb_xxxxxxxx),
    aug1 X.quadruples_res (ein3 L.mnfe L.fejk L.abcdimnl L.abcdijkl Q.g_abab_oaoavava Q.t2_abab Q.t4_aabbaabb_xxxxxxxx),
    aug1 X.quadruples_res (ein3 L.nmef L.efji L.abcdnmkl L.abcdijkl Q.g_aaaa_oaoavava Q.t2_aaaa Q.t4_aabbaabb_xxxxxxxx),
    set1 X.contracted_intermediate (ein3 L.nmef L.eanm L.fbcdijkl L.abcdijkl Q.g_aaaa_oaoavava Q.t2_aaaa Q.t4_aabbaabb_xxxxxxxx),
    .aug X.quadruples_res [.arg Q.contracted_intermediate, ein1 L.abcdijkl L.bacdijkl Q.contracted_intermediate],
    set1 X.contracted_intermediate (ein3 L.nmfe L.aenm L.fbcdijkl L.abcdijkl Q.g_abab_oaoavava Q.t2_abab Q.t4_aabbaabb_xxxxxxxx),
    .aug X.quadruples_res [.arg Q.contracted_intermediate, ein1 L.abcdijkl L.bacdijkl Q.contracted_intermediate],
    set1 X.contracted_intermediate (ein3 L.mnfe L.aemn L.fbcdijkl L.abcdijkl Q.g_abab_oaoavava Q.t2_abab Q.t4_aabbaabb_xxxxxxxx),
    .aug X.quadruples_res [.arg Q.contracted_intermediate, ein1 L.abcdijkl L.bacdijkl Q.contracted_intermediate],
    set1 X.contracted_intermediate (ein3 L.mnfe L.aeml L.fbcdijkn L.abcdijkl Q.g_abab_oaoavava Q.t2_abab Q.t4_aabbaabb_xxxxxxxx),
    .aug X.quadruples_res [.arg Q.contracted_intermediate, ein1 L.abcdijkl L.abcdijlk Q.contracted_intermediate, ein1 L.abcdijkl L.bacdijkl Q.contracted_intermediate, ein1 L.abcdijkl L.bacdijlk Q.contracted_intermediate],
    set1 X.contracted_intermediate (ein3 L.nmef L.eajm L.fbcdinlk L.abcdijkl Q.g_aaaa_oaoavava Q.t2_aaaa Q.t4_aabbaabb_xxxxxxxx),
    .aug X.quadruples_res [.arg Q.contracted_intermediate, ein1 L.abcdijkl L.abcdjikl Q.contracted_intermediate, ein1 L.abcdijkl L.bacdijkl Q.contracted_intermediate, ein1 L.abcdijkl L.bacdjikl Q.contracted_intermediate],
    set1 X.contracted_intermediate (ein3 L.mnef L.eajm L.bfcdikln L.abcdijkl Q.g_abab_oaoavava Q.t2_aaaa Q.t4_abbbabbb_xxxxxxxx),
    .aug X.quadruples_res [.arg Q.contracted_intermediate, ein1 L.abcdijkl L.abcdjikl Q.contracted_intermediate, ein1 L.abcdijkl L.bacdijkl Q.contracted_intermediate, ein1 L.abcdijkl L.bacdjikl Q.contracted_intermediate],
    set1 X.contracted_intermediate (ein3 L.nmfe L.aejm L.fbcdinlk L.abcdijkl Q.g_abab_oaoavava Q.t2_abab Q.t4_aabbaabb_xxxxxxxx),
    .aug X.quadruples_res [.arg Q.contracted_intermediate, ein1 L.abcdijkl L.abcdjikl Q.contracted_intermediate, ein1 L.abcdijkl L.bacdijkl Q.contracted_intermediate, ein1 L.abcdijkl L.bacdjikl Q.contracted_intermediate],
    set1 X.contracted_intermediate (ein3 L.nmef L.aejm L.bfcdikln L.abcdijkl Q.g_bbbb_oaoavava Q.t2_abab Q.t4_abbbabbb_xxxxxxxx),
    .aug X.quadruples_res [.arg Q.contracted_intermediate, ein1 L.abcdijkl L.abcdjikl Q.contracted_intermediate, ein1 L.abcdijkl L.bacdijkl Q.contracted_intermediate, ein1 L.abcdijkl L.bacdjikl Q.contracted_intermediate],
    set1 X.contracted_intermediate (ein3 L.nmfe L.aejl L.fbcdinkm L.abcdijkl Q.g_abab_oaoavava Q.t2_abab Q.t4_aabbaabb_xxxxxxxx),
    .aug X.quadruples_res [.arg Q.contracted_intermediate, ein1 L.abcdijkl L.bacdijkl Q.contracted_intermediate],
    set1 X.contracted_intermediate (ein3 L.mnfe L.aejl L.fbcdimnk L.abcdijkl Q.g_abab_oaoavava Q.t2_abab Q.t4_aabbaabb_xxxxxxxx),
    .aug X.quadruples_res [.arg Q.contracted_intermediate, ein1 L.abcdijkl L.bacdijkl Q.contracted_intermediate],
    set1 X.contracted_intermediate (ein3 L.nmef L.aejl L.bfcdiknm L.abcdijkl Q.g_bbbb_oaoavava Q.t2_abab Q.t4_abbbabbb_xxxxxxxx),
    .aug X.quadruples_res [.arg Q.contracted_intermediate, ein1 L.abcdijkl L.bacdijkl Q.contracted_intermediate],
    set1 X.contracted_intermediate (ein3 L.nmfe L.aeil L.fbcdjnkm L.abcdijkl Q.g_abab_oaoavava Q.t2_abab Q.t4_aabbaabb_xxxxxxxx),
    .aug X.quadruples_res [.arg Q.contracted_intermediate, ein1 L.abcdijkl L.abcdijlk Q.contracted_intermediate, ein1 L.abcdijkl L.bacdijkl Q.contracted_intermediate, ein1 L.abcdijkl L.bacdijlk Q.contracted_intermediate],
    set1 X.contracted_intermediate (ein3 L.mnfe L.aeil L.fbcdjmnk L.abcdijkl Q.g_abab_oaoavava Q.t2_abab Q.t4_aabbaabb_xxxxxxxx),
    .aug X.quadruples_res [.arg Q.contracted_intermediate, ein1 L.abcdijkl L.abcdijlk Q.contracted_intermediate, ein1 L.abcdijkl L.bacdijkl Q.contracted_intermediate, ein1 L.abcdijkl L.bacdijlk Q.contracted_intermediate],
    set1 X.contracted_intermediate (ein3 L.nmef L.aeil L.bfcdjknm L.abcdijkl Q.g_bbbb_oaoavava Q.t2_abab Q.t4_abbbabbb_xxxxxxxx),
    .aug X.quadruples_res [.arg Q.contracted_intermediate, ein1 L.abcdijkl L.abcdijlk Q.contracted_intermediate, ein1 L.abcdijkl L.bacdijkl Q.contracted_intermediate, ein1 L.abcdijkl L.bacdijlk Q.contracted_intermediate],
    set1 X.contracted_intermediate (ein3 L.nmfe L.aejk L.fbcdinlm L.abcdijkl Q.g_abab_oaoavava Q.t2_abab Q.t4_aabbaabb_xxxxxxxx),
    .aug X.quadruples_res [.arg Q.contracted_intermediate, ein1 L.abcdijkl L.bacdijkl Q.contracted_intermediate],
    set1 X.contracted_intermediate (ein3 L.mnfe L.aejk L.fbcdimnl L.abcdijkl Q.g_abab_oaoavava Q.t2_abab Q.t4_aabbaabb_xxxxxxxx),
    .aug X.quadruples_res [.arg Q.contracted_intermediate, ein1 L.abcdijkl L.bacdijkl Q.contracted_intermediate],
    set1 X.contracted_intermediate (ein3 L.nmef L.aejk L.bfcdilnm L.abcdijkl Q.g_bbbb_oaoavava Q.t2_abab Q.t4_abbbabbb_xxxxxxxx),
    .aug X.quadruples_res [.arg Q.contracted_intermediate, ein1 L.abcdijkl L.bacdijkl Q.contracted_intermediate],
    set1 X.contracted_intermediate (ein3 L.nmef L.eaji L.fbcdnmkl L.abcdijkl Q.g_aaaa_oaoavava Q.t2_aaaa Q.t4_aabbaabb_xxxxxxxx),
    .aug X.quadruples_res [.arg Q.contracted_intermediate, ein1 L.abcdijkl L.bacdijkl Q.contracted_intermediate],
    set1 X.contracted_intermediate (ein3 L.nmef L.eaji L.bfcdnlkm L.abcdijkl Q.g_abab_oaoavava Q.t2_aaaa Q.t4_abbbabbb_xxxxxxxx),
    .aug X.quadruples_res [.arg Q.contracted_intermediate, ein1 L.abcdijkl L.bacdijkl Q.contracted_intermediate],
    set1 X.contracted_intermediate (ein3 L.mnef L.eaji L.bfcdmlnk L.abcdijkl Q.g_abab_oaoavava Q.t2_aaaa Q.t4_abbbabbb_xxxxxxxx),
    .aug X.quadruples_res [.arg Q.contracted_intermediate, ein1 L.abcdijkl L.bacdijkl Q.contracted_intermediate],
    set1 X.contracted_intermediate (ein3 L.nmef L.ecnm L.bafdijkl L.abcdijkl Q.g_abab_oaoavava Q.t2_abab Q.t4_aabbaabb_xxxxxxxx),
    .aug X.quadruples_res [.arg Q.contracted_intermediate, ein1 L.abcdijkl L.abdcijkl Q.contracted_intermediate],
    set1 X.contracted_intermediate (ein3 L.mnef L.ecmn L.bafdijkl L.abcdijkl Q.g_abab_oaoavava Q.t2_abab Q.t4_aabbaabb_xxxxxxxx),
    .aug X.quadruples_res [.arg Q.contracted_intermediate, ein1 L.abcdijkl L.abdcijkl Q.contracted_intermediate],
    set1 X.contracted_intermediate (ein3 L.nmef L.ecnm L.bafdijkl L.abcdijkl Q.g_bbbb_oaoavava Q.t2_bbbb Q.t4_aabbaabb_xxxxxxxx),
    .aug X.quadruples_res [.arg Q.contracted_intermediate, ein1 L.abcdijkl L.abdcijkl Q.contracted_intermediate],
    set1 X.contracted_intermediate (ein3 L.nmef L.ecml L.fabdijnk L.abcdijkl Q.g_aaaa_oaoavava Q.t2_abab Q.t4_aaabaaab_xxxxxxxx),
    .aug X.quadruples_res [.arg Q.contracted_intermediate, ein1 L.abcdijkl L.abcdijlk Q.contracted_intermediate, ein1 L.abcdijkl L.abdcijkl Q.contracted_intermediate, ein1 L.abcdijkl L.abdcijlk Q.contracted_intermediate],
    set1 X.contracted_intermediate (ein3 L.mnef L.ecml L.bafdijkn L.abcdijkl Q.g_abab_oaoavava Q.t2_abab Q.t4_aabbaabb_xxxxxxxx),
    .aug X.quadruples_res [.arg Q.contracted_intermediate, ein1 L.abcdijkl L.abcdijlk Q.contracted_intermediate, ein1 L.abcdijkl L.abdcijkl Q.contracted_intermediate, ein1 L.abcdijkl L.abdcijlk Q.contracted_intermediate],
    set1 X.contracted_intermediate (ein3 L.nmfe L.eclm L.fabdijnk L.abcdijkl Q.g_abab_oaoavava Q.t2_bbbb Q.t4_aaabaaab_xxxxxxxx),
    .aug X.quadruples_res [.arg Q.contracted_intermediate, ein1 L.abcdijkl L.abcdijlk Q.contracted_intermediate, ein1 L.abcdijkl L.abdcijkl Q.contracted_intermediate, ein1 L.abcdijkl L.abdcijlk Q.contracted_intermediate],
    set1 X.contracted_intermediate (ein3 L.nmef L.eclm L.bafdijkn L.abcdijkl Q.g_bbbb_oaoavava Q.t2_bbbb Q.t4_aabbaabb_xxxxxxxx),
    .aug X.quadruples_res [.arg Q.contracted_intermediate, ein1 L.abcdijkl L.abcdijlk Q.contracted_intermediate, ein1 L.abcdijkl L.abdcijkl Q.contracted_intermediate, ein1 L.abcdijkl L.abdcijlk Q.contracted_intermediate],
    set1 X.contracted_intermediate (ein3 L.nmef L.ecjm L.bafdinlk L.abcdijkl Q.g_abab_oaoavava Q.t2_abab Q.t4_aabbaabb_xxxxxxxx),
    .aug X.quadruples_res [.arg Q.contracted_intermediate, ein1 L.abcdijkl L.abcdjikl Q.contracted_intermediate, ein1 L.abcdijkl L.abdcijkl Q.contracted_intermediate, ein1 L.abcdijkl L.abdcjikl Q.contracted_intermediate],
    set1 X.contracted_intermediate (ein3 L.nmfe L.eckl L.fabdijnm L.abcdijkl Q.g_abab_oaoavava Q.t2_bbbb Q.t4_aaabaaab_xxxxxxxx),
    .aug X.quadruples_res [.arg Q.contracted_intermediate, ein1 L.abcdijkl L.abdcijkl Q.contracted_intermediate],
    set1 X.contracted_intermediate (ein3 L.mnfe L.eckl L.fabdijmn L.abcdijkl Q.g_abab_oaoavava Q.t2_bbbb Q.t4_aaabaaab_xxxxxxxx),
    .aug X.quadruples_res [.arg Q.contracted_intermediate, ein1 L.abcdijkl L.abdcijkl Q.contracted_intermediate],
    set1 X.contracted_intermediate (ein3 L.nmef L.eckl L.bafdijnm L.abcdijkl Q.g_bbbb_oaoavava Q.t2_bbbb Q.t4_aabbaabb_xxxxxxxx),
    .aug X.quadruples_res [.arg Q.contracted_intermediate, ein1 L.abcdijkl L.abdcijkl Q.contracted_intermediate],
    set1 X.contracted_intermediate (ein3 L.nmef L.ecjl L.fabdimnk L.abcdijkl Q.g_aaaa_oaoavava Q.t2_abab Q.t4_aaabaaab_xxxxxxxx),
    .aug X.quadruples_res [.arg Q.contracted_intermediate, ein1 L.abcdijkl L.abdcijkl Q.contracted_intermediate],
    set1 X.contracted_intermediate (ein3 L.nmef L.ecjl L.bafdinkm L.abcdijkl Q.g_abab_oaoavava Q.t2_abab Q.t4_aabbaabb_xxxxxxxx),
    .aug X.quadruples_res [.arg Q.contracted_intermediate, ein1 L.abcdijkl L.abdcijkl Q.contracted_intermediate],
    set1 X.contracted_intermediate (ein3 L.mnef L.ecjl L.bafdimnk L.abcdijkl Q.g_abab_oaoavava Q.t2_abab Q.t4_aabbaabb_xxxxxxxx),
    .aug X.quadruples_res [.arg Q.contracted_intermediate, ein1 L.abcdijkl L.abdcijkl Q.contracted_intermediate],
    set1 X.contracted_intermediate (ein3 L.nmef L.ecil L.fabdjmnk L.abcdijkl Q.g_aaaa_oaoavava Q.t2_abab Q.t4_aaabaaab_xxxxxxxx),
    .aug X.quadruples_res [.arg Q.contracted_intermediate, ein1 L.abcdijkl L.abcdijlk Q.contracted_intermediate, ein1 L.abcdijkl L.abdcijkl Q.contracted_intermediate, ein1 L.abcdijkl L.abdcijlk Q.contracted_intermediate],
    set1 X.contracted_intermediate (ein3 L.nmef L.ecil L.bafdjnkm L.abcdijkl Q.g_abab_oaoavava Q.t2_abab Q.t4_aabbaabb_xxxxxxxx),
    .aug X.quadruples_res [.arg Q.contracted_intermediate, ein1 L.abcdijkl L.abcdijlk Q.contracted_intermediate, ein1 L.abcdijkl L.abdcijkl Q.contracted_intermediate, ein1 L.abcdijkl L.abdcijlk Q.contracted_intermediate],
    set1 X.contracted_intermediate (ein3 L.mnef L.ecil L.bafdjmnk L.abcdijkl Q.g_abab_oaoavava Q.t2_abab Q.t4_aabbaabb_xxxxxxxx),
    .aug X.quadruples_res [.arg Q.contracted_intermediate, ein1 L.abcdijkl L.abcdijlk Q.contracted_intermediate, ein1 L.abcdijkl L.abdcijkl Q.contracted_intermediate, ein1 L.abcdijkl L.abdcijlk Q.contracted_intermediate],
    set1 X.contracted_intermediate (ein3 L.nmef L.ecjk L.fabdimnl L.abcdijkl Q.g_aaaa_oaoavava Q.t2_abab Q.t4_aaabaaab_xxxxxxxx),
    .aug X.quadruples_res [.arg Q.contracted_intermediate, ein1 L.abcdijkl L.abdcijkl Q.contracted_intermediate],
    set1 X.contracted_intermediate (ein3 L.nmef L.ecjk L.bafdinlm L.abcdijkl Q.g_abab_oaoavava Q.t2_abab Q.t4_aabbaabb_xxxxxxxx),
    .aug X.quadruples_res [.arg Q.contracted_intermediate, ein1 L.abcdijkl L.abdcijkl Q.contracted_intermediate],
    set1 X.contracted_intermediate (ein3 L.mnef L.ecjk L.bafdimnl L.abcdijkl Q.g_abab_oaoavava Q.t2_abab Q.t4_aabbaabb_xxxxxxxx),
    .aug X.quadruples_res [.arg Q.contracted_intermediate, ein1 L.abcdijkl L.abdcijkl Q.contracted_intermediate],
    aug1 X.quadruples_res (ein3 L.nmef L.abnm L.efcdijkl L.abcdijkl Q.g_aaaa_oaoavava Q.t2_aaaa Q.t4_aabbaabb_xxxxxxxx),
    aug1 X.quadruples_res (ein3 L.nmef L.acnm L.ebfdijkl L.abcdijkl Q.g_abab_oaoavava Q.t2_abab Q.t4_aabbaabb_xxxxxxxx),
    aug1 X.quadruples_res (ein3 L.nmfe L.acnm L.bfedijkl L.abcdijkl Q.g_abab_oaoavava Q.t2_abab Q.t4_aabbaabb_xxxxxxxx),
    aug1 X.quadruples_res (ein3 L.mnef L.acmn L.ebfdijkl L.abcdijkl Q.g_abab_oaoavava Q.t2_abab Q.t4_aabbaabb_xxxxxxxx),
    aug1 X.quadruples_res (ein3 L.mnfe L.acmn L.bfedijkl L.abcdijkl Q.g_abab_oaoavava Q.t2_abab Q.t4_aabbaabb_xxxxxxxx),
    set1 X.contracted_intermediate (ein3 L.nmef L.acml L.efbdijnk L.abcdijkl Q.g_aaaa_oaoavava Q.t2_abab Q.t4_aaabaaab_xxxxxxxx),
    .aug X.quadruples_res [.arg Q.contracted_intermediate, ein1 L.abcdijkl L.abcdijlk Q.contracted_intermediate],
    set1 X.contracted_intermediate (ein3 L.mnef L.acml L.ebfdijkn L.abcdijkl Q.g_abab_oaoavava Q.t2_abab Q.t4_aabbaabb_xxxxxxxx),
    .aug X.quadruples_res [.arg Q.contracted_intermediate, ein1 L.abcdijkl L.abcdijlk Q.contracted_intermediate],
    set1 X.contracted_intermediate (ein3 L.mnfe L.acml L.bfedijkn L.abcdijkl Q.g_abab_oaoavava Q.t2_abab Q.t4_aabbaabb_xxxxxxxx),
    .aug X.quadruples_res [.arg Q.contracted_intermediate, ein1 L.abcdijkl L.abcdijlk Q.contracted_intermediate],
    set1 X.contracted_intermediate (ein3 L.nmef L.abjm L.efcdinlk L.abcdijkl Q.g_aaaa_oaoavava Q.t2_aaaa Q.t4_aabbaabb_xxxxxxxx),
    .aug X.quadruples_res [.arg Q.contracted_intermediate, ein1 L.abcdijkl L.abcdjikl Q.contracted_intermediate],
    set1 X.contracted_intermediate (ein3 L.mnef L.abjm L.efcdikln L.abcdijkl Q.g_abab_oaoavava Q.t2_aaaa Q.t4_abbbabbb_xxxxxxxx),
    .aug X.quadruples_res [.arg Q.contracted_intermediate, ein1 L.abcdijkl L.abcdjikl Q.contracted_intermediate],
    set1 X.contracted_intermediate (ein3 L.mnfe L.abjm L.fecdikln L.abcdijkl Q.g_abab_oaoavava Q.t2_aaaa Q.t4_abbbabbb_xxxxxxxx),
    .aug X.quadruples_res [.arg Q.contracted_intermediate, ein1 L.abcdijkl L.abcdjikl Q.contracted_intermediate],
    set1 X.contracted_intermediate (ein3 L.nmef L.acjm L.ebfdinlk L.abcdijkl Q.g_abab_oaoavava Q.t2_abab Q.t4_aabbaabb_xxxxxxxx),
    .aug X.quadruples_res [.arg Q.contracted_intermediate, ein1 L.abcdijkl L.abcdjikl Q.contracted_intermediate],
    set1 X.contracted_intermediate (ein3 L.nmfe L.acjm L.bfedinlk L.abcdijkl Q.g_abab_oaoavava Q.t2_abab Q.t4_aabbaabb_xxxxxxxx),
    .aug X.quadruples_res [.arg Q.contracted_intermediate, ein1 L.abcdijkl L.abcdjikl Q.contracted_intermediate],
    set1 X.contracted_intermediate (ein3 L.nmef L.acjm L.bfedikln L.abcdijkl Q.g_bbbb_oaoavava Q.t2_abab Q.t4_abbbabbb_xxxxxxxx),
    .aug X.quadruples_res [.arg Q.contracted_intermediate, ein1 L.abcdijkl L.abcdjikl Q.contracted_intermediate],
    set1 X.contracted_intermediate (ein3 L.nmef L.adnm L.ebfcijkl L.abcdijkl Q.g_abab_oaoavava Q.t2_abab Q.t4_aabbaabb_xxxxxxxx),
    .aug X.quadruples_res [.arg Q.contracted_intermediate, ein1 L.abcdijkl L.bacdijkl Q.contracted_intermediate],
    set1 X.contracted_intermediate (ein3 L.nmfe L.adnm L.bfecijkl L.abcdijkl Q.g_abab_oaoavava Q.t2_abab Q.t4_aabbaabb_xxxxxxxx),
    .aug X.quadruples_res [.arg Q.contracted_intermediate, ein1 L.abcdijkl L.bacdijkl Q.contracted_intermediate],
    set1 X.contracted_intermediate (ein3 L.mnef L.admn L.ebfcijkl L.abcdijkl Q.g_abab_oaoavava Q.t2_abab Q.t4_aabbaabb_xxxxxxxx),
    .aug X.quadruples_res [.arg Q.contracted_intermediate, ein1 L.abcdijkl L.bacdijkl Q.contracted_intermediate],
    set1 X.contracted_intermediate (ein3 L.mnfe L.admn L.bfecijkl L.abcdijkl Q.g_abab_oaoavava Q.t2_abab Q.t4_aabbaabb_xxxxxxxx),
    .aug X.quadruples_res [.arg Q.contracted_intermediate, ein1 L.abcdijkl L.bacdijkl Q.contracted_intermediate],
    set1 X.contracted_intermediate (ein3 L.nmef L.adml L.efbcijnk L.abcdijkl Q.g_aaaa_oaoavava Q.t2_abab Q.t4_aaabaaab_xxxxxxxx),
    .aug X.quadruples_res [.arg Q.contracted_intermediate, ein1 L.abcdijkl L.abcdijlk Q.contracted_intermediate, ein1 L.abcdijkl L.bacdijkl Q.contracted_intermediate, ein1 L.abcdijkl L.bacdijlk Q.contracted_intermediate],
    set1 X.contracted_intermediate (ein3 L.mnef L.adml L.ebfcijkn L.abcdijkl Q.g_abab_oaoavava Q.t2_abab Q.t4_aabbaabb_xxxxxxxx),
    .aug X.quadruples_res [.arg Q.contracted_intermediate, ein1 L.abcdijkl L.abcdijlk Q.contracted_intermediate, ein1 L.abcdijkl L.bacdijkl Q.contracted_intermediate, ein1 L.abcdijkl L.bacdijlk Q.contracted_intermediate],
    set1 X.contracted_intermediate (ein3 L.mnfe L.adml L.bfecijkn L.abcdijkl Q.g_abab_oaoavava Q.t2_abab Q.t4_aabbaabb_xxxxxxxx),
    .aug X.quadruples_res [.arg Q.contracted_intermediate, ein1 L.abcdijkl L.abcdijlk Q.contracted_intermediate, ein1 L.abcdijkl L.bacdijkl Q.contracted_intermediate, ein1 L.abcdijkl L.bacdijlk Q.contracted_intermediate],
    set1 X.contracted_intermediate (ein3 L.nmef L.adjm L.ebfcinlk L.abcdijkl Q.g_abab_oaoavava Q.t2_abab Q.t4_aabbaabb_xxxxxxxx),
    .aug X.quadruples_res [.arg Q.contracted_intermediate, ein1 L.abcdijkl L.abcdjikl Q.contracted_intermediate, ein1 L.abcdijkl L.bacdijkl Q.contracted_intermediate, ein1 L.abcdijkl L.bacdjikl Q.contracted_intermediate],
    set1 X.contracted_intermediate (ein3 L.nmfe L.adjm L.bfecinlk L.abcdijkl Q.g_abab_oaoavava Q.t2_abab Q.t4_aabbaabb_xxxxxxxx),
    .aug X.quadruples_res [.arg Q.contracted_intermediate, ein1 L.abcdijkl L.abcdjikl Q.contracted_intermediate, ein1 L.abcdijkl L.bacdijkl Q.contracted_intermediate, ein1 L.abcdijkl L.bacdjikl Q.contracted_intermediate],
    set1 X.contracted_intermediate (ein3 L.nmef L.adjm L.bfecikln L.abcdijkl Q.g_bbbb_oaoavava Q.t2_abab Q.t4_abbbabbb_xxxxxxxx),
    .aug X.quadruples_res [.arg Q.contracted_intermediate, ein1 L.abcdijkl L.abcdjikl Q.contracted_intermediate, ein1 L.abcdijkl L.bacdijkl Q.contracted_intermediate, ein1 L.abcdijkl L.bacdjikl Q.contracted_intermediate],
    aug1 X.quadruples_res (ein3 L.nmef L.bcnm L.eafdijkl L.abcdijkl Q.g_abab_oaoavava Q.t2_abab Q.t4_aabbaabb_xxxxxxxx),
    aug1 X.quadruples_res (ein3 L.nmfe L.bcnm L.afedijkl L.abcdijkl Q.g_abab_oaoavava Q.t2_abab Q.t4_aabbaabb_xxxxxxxx),
    aug1 X.quadruples_res (ein3 L.mnef L.bcmn L.eafdijkl L.abcdijkl Q.g_abab_oaoavava Q.t2_abab Q.t4_aabbaabb_xxxxxxxx),
    aug1 X.quadruples_res (ein3 L.mnfe L.bcmn L.afedijkl L.abcdijkl Q.g_abab_oaoavava Q.t2_abab Q.t4_aabbaabb_xxxxxxxx),
    aug1 X.quadruples_res (ein3 L.nmef L.dcnm L.abefijkl L.abcdijkl Q.g_bbbb_oaoavava Q.t2_bbbb Q.t4_aabbaabb_xxxxxxxx),
    set1 X.contracted_intermediate (ein3 L.nmef L.bcml L.efadijnk L.abcdijkl Q.g_aaaa_oaoavava Q.t2_abab Q.t4_aaabaaab_xxxxxxxx),
    .aug X.quadruples_res [.arg Q.contracted_intermediate, ein1 L.abcdijkl L.abcdijlk Q.contracted_intermediate],
    set1 X.contracted_intermediate (ein3 L.mnef L.bcml L.eafdijkn L.abcdijkl Q.g_abab_oaoavava Q.t2_abab Q.t4_aabbaabb_xxxxxxxx),
    .aug X.quadruples_res [.arg Q.contracted_intermediate, ein1 L.abcdijkl L.abcdijlk Q.contracted_intermediate],
    set1 X.contracted_intermediate (ein3 L.mnfe L.bcml L.afedijkn L.abcdijkl Q.g_abab_oaoavava Q.t2_abab Q.t4_aabbaabb_xxxxxxxx),
    .aug X.quadruples_res [.arg Q.contracted_intermediate, ein1 L.abcdijkl L.abcdijlk Q.contracted_intermediate],
    set1 X.contracted_intermediate (ein3 L.nmef L.dclm L.ebafijnk L.abcdijkl Q.g_abab_oaoavava Q.t2_bbbb Q.t4_aaabaaab_xxxxxxxx),
    .aug X.quadruples_res [.arg Q.contracted_intermediate, ein1 L.abcdijkl L.abcdijlk Q.contracted_intermediate],
    set1 X.contracted_intermediate (ein3 L.nmfe L.dclm L.bfaeijnk L.abcdijkl Q.g_abab_oaoavava Q.t2_bbbb Q.t4_aaabaaab_xxxxxxxx),
    .aug X.quadruples_res [.arg Q.contracted_intermediate, ein1 L.abcdijkl L.abcdijlk Q.contracted_intermediate],
    set1 X.contracted_intermediate (ein3 L.nmef L.dclm L.abefijkn L.abcdijkl Q.g_bbbb_oaoavava Q.t2_bbbb Q.t4_aabbaabb_xxxxxxxx),
    .aug X.quadruples_res [.arg Q.contracted_intermediate, ein1 L.abcdijkl L.abcdijlk Q.contracted_intermediate],
    set1 X.contracted_intermediate (ein3 L.nmef L.bcjm L.eafdinlk L.abcdijkl Q.g_abab_oaoavava Q.t2_abab Q.t4_aabbaabb_xxxxxxxx),
    .aug X.quadruples_res [.arg Q.contracted_intermediate, ein1 L.abcdijkl L.abcdjikl Q.contracted_intermediate],
    set1 X.contracted_intermediate (ein3 L.nmfe L.bcjm L.afedinlk L.abcdijkl Q.g_abab_oaoavava Q.t2_abab Q.t4_aabbaabb_xxxxxxxx),
    .aug X.quadruples_res [.arg Q.contracted_intermediate, ein1 L.abcdijkl L.abcdjikl Q.contracted_intermediate],
    set1 X.contracted_intermediate (ein3 L.nmef L.bcjm L.afedikln L.abcdijkl Q.g_bbbb_oaoavava Q.t2_abab Q.t4_abbbabbb_xxxxxxxx),
    .aug X.quadruples_res [.arg Q.contracted_intermediate, ein1 L.abcdijkl L.abcdjikl Q.contracted_intermediate],
    set1 X.contracted_intermediate (ein3 L.nmkl L.acjm L.bdin L.abcdijkl Q.g_bbbb_oaoaoaoa Q.t2_abab Q.t2_abab),
    .aug X.quadruples_res [.arg Q.contracted_intermediate, ein1 L.abcdijkl L.abcdjikl Q.contracted_intermediate],
    set1 X.contracted_intermediate (ein3 L.nmkl L.adjm L.bcin L.abcdijkl Q.g_bbbb_oaoaoaoa Q.t2_abab Q.t2_abab),
    .aug X.quadruples_res [.arg Q.contracted_intermediate, ein1 L.abcdijkl L.abcdjikl Q.contracted_intermediate],
    aug1 X.quadruples_res (ein3 L.mnjl L.acmk L.bdin L.abcdijkl Q.g_abab_oaoaoaoa Q.t2_abab Q.t2_abab),
    aug1 X.quadruples_res (ein3 L.mnjl L.abim L.cdkn L.abcdijkl Q.g_abab_oaoaoaoa Q.t2_aaaa Q.t2_bbbb),
    aug1 X.quadruples_res (ein3 L.nmjl L.acim L.bdnk L.abcdijkl Q.g_abab_oaoaoaoa Q.t2_abab Q.t2_abab),
    aug1 X.quadruples_res (ein3 L.mnjl L.admk L.bcin L.abcdijkl Q.g_abab_oaoaoaoa Q.t2_abab Q.t2_abab),
    aug1 X.quadruples_res (ein3 L.nmjl L.adim L.bcnk L.abcdijkl Q.g_abab_oaoaoaoa Q.t2_abab Q.t2_abab),
    aug1 X.quadruples_res (ein3 L.mnil L.acmk L.bdjn L.abcdijkl Q.g_abab_oaoaoaoa Q.t2_abab Q.t2_abab),
    aug1 X.quadruples_res (ein3 L.mnil L.abjm L.cdkn L.abcdijkl Q.g_abab_oaoaoaoa Q.t2_aaaa Q.t2_bbbb),
    aug1 X.quadruples_res (ein3 L.nmil L.acjm L.bdnk L.abcdijkl Q.g_abab_oaoaoaoa Q.t2_abab Q.t2_abab),
    aug1 X.quadruples_res (ein3 L.mnil L.admk L.bcjn L.abcdijkl Q.g_abab_oaoaoaoa Q.t2_abab Q.t2_abab),
    aug1 X.quadruples_res (ein3 L.nmil L.adjm L.bcnk L.abcdijkl Q.g_abab_oaoaoaoa Q.t2_abab Q.t2_abab),
    aug1 X.quadruples_res (ein3 L.mnjk L.acml L.bdin L.abcdijkl Q.g_abab_oaoaoaoa Q.t2_abab Q.t2_abab),
    aug1 X.quadruples_res (ein3 L.mnjk L.abim L.cdln L.abcdijkl Q.g_abab_oaoaoaoa Q.t2_aaaa Q.t2_bbbb),
    aug1 X.quadruples_res (ein3 L.nmjk L.acim L.bdnl L.abcdijkl Q.g_abab_oaoaoaoa Q.t2_abab Q.t2_abab),
    aug1 X.quadruples_res (ein3 L.mnjk L.adml L.bcin L.abcdijkl Q.g_abab_oaoaoaoa Q.t2_abab Q.t2_abab),
    aug1 X.quadruples_res (ein3 L.nmjk L.adim L.bcnl L.abcdijkl Q.g_abab_oaoaoaoa Q.t2_abab Q.t2_abab),
    aug1 X.quadruples_res (ein3 L.mnik L.acml L.bdjn L.abcdijkl Q.g_abab_oaoaoaoa Q.t2_abab Q.t2_abab),
    aug1 X.quadruples_res (ein3 L.mnik L.abjm L.cdln L.abcdijkl Q.g_abab_oaoaoaoa Q.t2_aaaa Q.t2_bbbb),
    aug1 X.quadruples_res (ein3 L.nmik L.acjm L.bdnl L.abcdijkl Q.g_abab_oaoaoaoa Q.t2_abab Q.t2_abab),
    aug1 X.quadruples_res (ein3 L.mnik L.adml L.bcjn L.abcdijkl Q.g_abab_oaoaoaoa Q.t2_abab Q.t2_abab),
    aug1 X.quadruples_res (ein3 L.nmik L.adjm L.bcnl L.abcdijkl Q.g_abab_oaoaoaoa Q.t2_abab Q.t2_abab),
    set1 X.contracted_intermediate (ein3 L.nmij L.acml L.bdnk L.abcdijkl Q.g_aaaa_oaoaoaoa Q.t2_abab Q.t2_abab),
    .aug X.quadruples_res [.arg Q.contracted_intermediate, ein1 L.abcdijkl L.abcdijlk Q.contracted_intermediate],
    set1 X.contracted_intermediate (ein3 L.nmij L.adml L.bcnk L.abcdijkl Q.g_aaaa_oaoaoaoa Q.t2_abab Q.t2_abab),
    .aug X.quadruples_res [.arg Q.contracted_intermediate, ein1 L.abcdijkl L.abcdijlk Q.contracted_intermediate],
    set1 X.contracted_intermediate (ein3 L.amel L.ecjk L.bdim L.abcdijkl Q.g_abab_vaoavaoa Q.t2_abab Q.t2_abab),
    .aug X.quadruples_res [.arg Q.contracted_intermediate, ein1 L.abcdijkl L.abcdjikl Q.contracted_intermediate],
    set1 X.contracted_intermediate (ein3 L.amel L.ebij L.cdkm L.abcdijkl Q.g_abab_vaoavaoa Q.t2_aaaa Q.t2_bbbb),
    .aug X.quadruples_res [.arg Q.contracted_intermediate, ein1 L.abcdijkl L.abcdijlk Q.contracted_intermediate],
    set1 X.contracted_intermediate (ein3 L.amel L.edjk L.bcim L.abcdijkl Q.g_abab_vaoavaoa Q.t2_abab Q.t2_abab),
    .aug X.quadruples_res [.arg Q.contracted_intermediate, ein1 L.abcdijkl L.abcdjikl Q.contracted_intermediate, ein1 L.abcdijkl L.bacdijkl Q.contracted_intermediate, ein1 L.abcdijkl L.bacdjikl Q.contracted_intermediate],
    set1 X.contracted_intermediate (ein3 L.amek L.ecjl L.bdim L.abcdijkl Q.g_abab_vaoavaoa Q.t2_abab Q.t2_abab),
    .aug X.quadruples_res [.arg Q.contracted_intermediate, ein1 L.abcdijkl L.abcdjikl Q.contracted_intermediate],
    set1 X.contracted_intermediate (ein3 L.amek L.edjl L.bcim L.abcdijkl Q.g_abab_vaoavaoa Q.t2_abab Q.t2_abab),
    .aug X.quadruples_res [.arg Q.contracted_intermediate, ein1 L.abcdijkl L.abcdjikl Q.contracted_intermediate, ein1 L.abcdijkl L.bacdijkl Q.contracted_intermediate, ein1 L.abcdijkl L.bacdjikl Q.contracted_intermediate],
    aug1 X.quadruples_res (ein3 L.amje L.eckl L.bdim L.abcdijkl Q.g_abab_vaoaoava Q.t2_bbbb Q.t2_abab),
    aug1 X.quadruples_res (ein3 L.amje L.beil L.cdkm L.abcdijkl Q.g_abab_vaoaoava Q.t2_abab Q.t2_bbbb),
    aug1 X.quadruples_res (ein3 L.maej L.ecil L.bdmk L.abcdijkl Q.g_aaaa_oavavaoa Q.t2_abab Q.t2_abab),
    set1 X.contracted_intermediate (ein3 L.amje L.beik L.cdlm L.abcdijkl Q.g_abab_vaoaoava Q.t2_abab Q.t2_bbbb),
    .aug X.quadruples_res [.arg Q.contracted_intermediate, ein1 L.abcdijkl L.abcdjikl Q.contracted_intermediate],
    set1 X.contracted_intermediate (ein3 L.maej L.ecik L.bdml L.abcdijkl Q.g_aaaa_oavavaoa Q.t2_abab Q.t2_abab),
    .aug X.quadruples_res [.arg Q.contracted_intermediate, ein1 L.abcdijkl L.abcdjikl Q.contracted_intermediate],
    set1 X.contracted_intermediate (ein3 L.amje L.edkl L.bcim L.abcdijkl Q.g_abab_vaoaoava Q.t2_bbbb Q.t2_abab),
    .aug X.quadruples_res [.arg Q.contracted_intermediate, ein1 L.abcdijkl L.bacdijkl Q.contracted_intermediate],
    set1 X.contracted_intermediate (ein3 L.maej L.edil L.bcmk L.abcdijkl Q.g_aaaa_oavavaoa Q.t2_abab Q.t2_abab),
    .aug X.quadruples_res [.arg Q.contracted_intermediate, ein1 L.abcdijkl L.bacdijkl Q.contracted_intermediate],
    set1 X.contracted_intermediate (ein3 L.maej L.edik L.bcml L.abcdijkl Q.g_aaaa_oavavaoa Q.t2_abab Q.t2_abab),
    .aug X.quadruples_res [.arg Q.contracted_intermediate, ein1 L.abcdijkl L.abcdjikl Q.contracted_intermediate, ein1 L.abcdijkl L.bacdijkl Q.contracted_intermediate, ein1 L.abcdijkl L.bacdjikl Q.contracted_intermediate],
    aug1 X.quadruples_res (ein3 L.amie L.eckl L.bdjm L.abcdijkl Q.g_abab_vaoaoava Q.t2_bbbb Q.t2_abab),
    aug1 X.quadruples_res (ein3 L.amie L.bejl L.cdkm L.abcdijkl Q.g_abab_vaoaoava Q.t2_abab Q.t2_bbbb),
    aug1 X.quadruples_res (ein3 L.maei L.ecjl L.bdmk L.abcdijkl Q.g_aaaa_oavavaoa Q.t2_abab Q.t2_abab),
    set1 X.contracted_intermediate (ein3 L.amie L.edkl L.bcjm L.abcdijkl Q.g_abab_vaoaoava Q.t2_bbbb Q.t2_abab),
    .aug X.quadruples_res [.arg Q.contracted_intermediate, ein1 L.abcdijkl L.bacdijkl Q.contracted_intermediate],
    set1 X.contracted_intermediate (ein3 L.maei L.edjl L.bcmk L.abcdijkl Q.g_aaaa_oavavaoa Q.t2_abab Q.t2_abab),
    .aug X.quadruples_res [.arg Q.contracted_intermediate, ein1 L.abcdijkl L.bacdijkl Q.contracted_intermediate],
    set1 X.contracted_intermediate (ein3 L.bmel L.ecjk L.adim L.abcdijkl Q.g_abab_vaoavaoa Q.t2_abab Q.t2_abab),
    .aug X.quadruples_res [.arg Q.contracted_intermediate, ein1 L.abcdijkl L.abcdjikl Q.contracted_intermediate],
    set1 X.contracted_intermediate (ein3 L.bmel L.eaij L.cdkm L.abcdijkl Q.g_abab_vaoavaoa Q.t2_aaaa Q.t2_bbbb),
    .aug X.quadruples_res [.arg Q.contracted_intermediate, ein1 L.abcdijkl L.abcdijlk Q.contracted_intermediate],
    set1 X.contracted_intermediate (ein3 L.bmek L.ecjl L.adim L.abcdijkl Q.g_abab_vaoavaoa Q.t2_abab Q.t2_abab),
    .aug X.quadruples_res [.arg Q.contracted_intermediate, ein1 L.abcdijkl L.abcdjikl Q.contracted_intermediate],
    aug1 X.quadruples_res (ein3 L.bmje L.eckl L.adim L.abcdijkl Q.g_abab_vaoaoava Q.t2_bbbb Q.t2_abab),
    aug1 X.quadruples_res (ein3 L.bmje L.aeil L.cdkm L.abcdijkl Q.g_abab_vaoaoava Q.t2_abab Q.t2_bbbb),
    aug1 X.quadruples_res (ein3 L.mbej L.ecil L.admk L.abcdijkl Q.g_aaaa_oavavaoa Q.t2_abab Q.t2_abab),
    set1 X.contracted_intermediate (ein3 L.bmje L.aeik L.cdlm L.abcdijkl Q.g_abab_vaoaoava Q.t2_abab Q.t2_bbbb),
    .aug X.quadruples_res [.arg Q.contracted_intermediate, ein1 L.abcdijkl L.abcdjikl Q.contracted_intermediate],
    set1 X.contracted_intermediate (ein3 L.mbej L.ecik L.adml L.abcdijkl Q.g_aaaa_oavavaoa Q.t2_abab Q.t2_abab),
    .aug X.quadruples_res [.arg Q.contracted_intermediate, ein1 L.abcdijkl L.abcdjikl Q.contracted_intermediate],
    aug1 X.quadruples_res (ein3 L.bmie L.eckl L.adjm L.abcdijkl Q.g_abab_vaoaoava Q.t2_bbbb Q.t2_abab),
    aug1 X.quadruples_res (ein3 L.bmie L.aejl L.cdkm L.abcdijkl Q.g_abab_vaoaoava Q.t2_abab Q.t2_bbbb),
    aug1 X.quadruples_res (ein3 L.mbei L.ecjl L.admk L.abcdijkl Q.g_aaaa_oavavaoa Q.t2_abab Q.t2_abab),
    set1 X.contracted_intermediate (ein3 L.mcel L.aejk L.bdim L.abcdijkl Q.g_bbbb_oavavaoa Q.t2_abab Q.t2_abab),
    .aug X.quadruples_res [.arg Q.contracted_intermediate, ein1 L.abcdijkl L.abcdjikl Q.contracted_intermediate, ein1 L.abcdijkl L.bacdijkl Q.contracted_intermediate, ein1 L.abcdijkl L.bacdjikl Q.contracted_intermediate],
    set1 X.contracted_intermediate (ein3 L.mcel L.eaij L.bdmk L.abcdijkl Q.g_abab_oavavaoa Q.t2_aaaa Q.t2_abab),
    .aug X.quadruples_res [.arg Q.contracted_intermediate, ein1 L.abcdijkl L.abcdijlk Q.contracted_intermediate, ein1 L.abcdijkl L.bacdijkl Q.contracted_intermediate, ein1 L.abcdijkl L.bacdijlk Q.contracted_intermediate],
    set1 X.contracted_intermediate (ein3 L.mcel L.edjk L.abim L.abcdijkl Q.g_abab_oavavaoa Q.t2_abab Q.t2_aaaa),
    .aug X.quadruples_res [.arg Q.contracted_intermediate, ein1 L.abcdijkl L.abcdjikl Q.contracted_intermediate, ein1 L.abcdijkl L.abdcijkl Q.contracted_intermediate, ein1 L.abcdijkl L.abdcjikl Q.contracted_intermediate],
    set1 X.contracted_intermediate (ein3 L.mcek L.aejl L.bdim L.abcdijkl Q.g_bbbb_oavavaoa Q.t2_abab Q.t2_abab),
    .aug X.quadruples_res [.arg Q.contracted_intermediate, ein1 L.abcdijkl L.abcdjikl Q.contracted_intermediate, ein1 L.abcdijkl L.bacdijkl Q.contracted_intermediate, ein1 L.abcdijkl L.bacdjikl Q.contracted_intermediate],
    set1 X.contracted_intermediate (ein3 L.mcek L.edjl L.abim L.abcdijkl Q.g_abab_oavavaoa Q.t2_abab Q.t2_aaaa),
    .aug X.quadruples_res [.arg Q.contracted_intermediate, ein1 L.abcdijkl L.abcdjikl Q.contracted_intermediate, ein1 L.abcdijkl L.abdcijkl Q.contracted_intermediate, ein1 L.abcdijkl L.abdcjikl Q.contracted_intermediate],
    set1 X.contracted_intermediate (ein3 L.mcje L.aeil L.bdmk L.abcdijkl Q.g_abab_oavaoava Q.t2_abab Q.t2_abab),
    .aug X.quadruples_res [.arg Q.contracted_intermediate, ein1 L.abcdijkl L.bacdijkl Q.contracted_intermediate],
    set1 X.contracted_intermediate (ein3 L.mcje L.aeik L.bdml L.abcdijkl Q.g_abab_oavaoava Q.t2_abab Q.t2_abab),
    .aug X.quadruples_res [.arg Q.contracted_intermediate, ein1 L.abcdijkl L.abcdjikl Q.contracted_intermediate, ein1 L.abcdijkl L.bacdijkl Q.contracted_intermediate, ein1 L.abcdijkl L.bacdjikl Q.contracted_intermediate],
    set1 X.contracted_intermediate (ein3 L.mcje L.edkl L.abim L.abcdijkl Q.g_abab_oavaoava Q.t2_bbbb Q.t2_aaaa),
    .aug X.quadruples_res [.arg Q.contracted_intermediate, ein1 L.abcdijkl L.abdcijkl Q.contracted_intermediate],
    set1 X.contracted_intermediate (ein3 L.mcie L.aejl L.bdmk L.abcdijkl Q.g_abab_oavaoava Q.t2_abab Q.t2_abab),
    .aug X.quadruples_res [.arg Q.contracted_intermediate, ein1 L.abcdijkl L.bacdijkl Q.contracted_intermediate],
    set1 X.contracted_intermediate (ein3 L.mcie L.edkl L.abjm L.abcdijkl Q.g_abab_oavaoava Q.t2_bbbb Q.t2_aaaa),
    .aug X.quadruples_res [.arg Q.contracted_intermediate, ein1 L.abcdijkl L.abdcijkl Q.contracted_intermediate],
    set1 X.contracted_intermediate (ein3 L.mdel L.aejk L.bcim L.abcdijkl Q.g_bbbb_oavavaoa Q.t2_abab Q.t2_abab),
    .aug X.quadruples_res [.arg Q.contracted_intermediate, ein1 L.abcdijkl L.abcdjikl Q.contracted_intermediate, ein1 L.abcdijkl L.bacdijkl Q.contracted_intermediate, ein1 L.abcdijkl L.bacdjikl Q.contracted_intermediate],
    set1 X.contracted_intermediate (ein3 L.mdel L.eaij L.bcmk L.abcdijkl Q.g_abab_oavavaoa Q.t2_aaaa Q.t2_abab),
    .aug X.quadruples_res [.arg Q.contracted_intermediate, ein1 L.abcdijkl L.abcdijlk Q.contracted_intermediate, ein1 L.abcdijkl L.bacdijkl Q.contracted_intermediate, ein1 L.abcdijkl L.bacdijlk Q.contracted_intermediate],
    set1 X.contracted_intermediate (ein3 L.mdek L.aejl L.bcim L.abcdijkl Q.g_bbbb_oavavaoa Q.t2_abab Q.t2_abab),
    .aug X.quadruples_res [.arg Q.contracted_intermediate, ein1 L.abcdijkl L.abcdjikl Q.contracted_intermediate, ein1 L.abcdijkl L.bacdijkl Q.contracted_intermediate, ein1 L.abcdijkl L.bacdjikl Q.contracted_intermediate],
    set1 X.contracted_intermediate (ein3 L.mdje L.aeil L.bcmk L.abcdijkl Q.g_abab_oavaoava Q.t2_abab Q.t2_abab),
    .aug X.quadruples_res [.arg Q.contracted_intermediate, ein1 L.abcdijkl L.bacdijkl Q.contracted_intermediate],
    set1 X.contracted_intermediate (ein3 L.mdje L.aeik L.bcml L.abcdijkl Q.g_abab_oavaoava Q.t2_abab Q.t2_abab),
    .aug X.quadruples_res [.arg Q.contracted_intermediate, ein1 L.abcdijkl L.abcdjikl Q.contracted_intermediate, ein1 L.abcdijkl L.bacdijkl Q.contracted_intermediate, ein1 L.abcdijkl L.bacdjikl Q.contracted_intermediate],
    set1 X.contracted_intermediate (ein3 L.mdie L.aejl L.bcmk L.abcdijkl Q.g_abab_oavaoava Q.t2_abab Q.t2_abab),
    .aug X.quadruples_res [.arg Q.contracted_intermediate, ein1 L.abcdijkl L.bacdijkl Q.contracted_intermediate],
    aug1 X.quadruples_res (ein3 L.abef L.ecjl L.fdik L.abcdijkl Q.g_aaaa_vavavava Q.t2_abab Q.t2_abab),
    aug1 X.quadruples_res (ein3 L.acfe L.bejl L.fdik L.abcdijkl Q.g_abab_vavavava Q.t2_abab Q.t2_abab),
    set1 X.contracted_intermediate (ein3 L.abef L.ecil L.fdjk L.abcdijkl Q.g_aaaa_vavavava Q.t2_abab Q.t2_abab),
    .aug X.quadruples_res [.arg Q.contracted_intermediate, ein1 L.abcdijkl L.abcdijlk Q.contracted_intermediate],
    set1 X.contracted_intermediate (ein3 L.acfe L.beil L.fdjk L.abcdijkl Q.g_abab_vavavava Q.t2_abab Q.t2_abab),
    .aug X.quadruples_res [.arg Q.contracted_intermediate, ein1 L.abcdijkl L.abcdijlk Q.contracted_intermediate],
    aug1 X.quadruples_res (ein3 L.abef L.ecjk L.fdil L.abcdijkl Q.g_aaaa_vavavava Q.t2_abab Q.t2_abab),
    aug1 X.quadruples_res (ein3 L.acfe L.bejk L.fdil L.abcdijkl Q.g_abab_vavavava Q.t2_abab Q.t2_abab),
    aug1 X.quadruples_res (ein3 L.acef L.ebji L.fdkl L.abcdijkl Q.g_abab_vavavava Q.t2_aaaa Q.t2_bbbb),
    set1 X.contracted_intermediate (ein3 L.adfe L.bejl L.fcik L.abcdijkl Q.g_abab_vavavava Q.t2_abab Q.t2_abab),
    .aug X.quadruples_res [.arg Q.contracted_intermediate, ein1 L.abcdijkl L.bacdijkl Q.contracted_intermediate],
    set1 X.contracted_intermediate (ein3 L.adfe L.beil L.fcjk L.abcdijkl Q.g_abab_vavavava Q.t2_abab Q.t2_abab),
    .aug X.quadruples_res [.arg Q.contracted_intermediate, ein1 L.abcdijkl L.abcdijlk Q.contracted_intermediate, ein1 L.abcdijkl L.bacdijkl Q.contracted_intermediate, ein1 L.abcdijkl L.bacdijlk Q.contracted_intermediate],
    set1 X.contracted_intermediate (ein3 L.adfe L.bejk L.fcil L.abcdijkl Q.g_abab_vavavava Q.t2_abab Q.t2_abab),
    .aug X.quadruples_res [.arg Q.contracted_intermediate, ein1 L.abcdijkl L.bacdijkl Q.contracted_intermediate],
    set1 X.contracted_intermediate (ein3 L.adef L.ebji L.fckl L.abcdijkl Q.g_abab_vavavava Q.t2_aaaa Q.t2_bbbb),
    .aug X.quadruples_res [.arg Q.contracted_intermediate, ein1 L.abcdijkl L.bacdijkl Q.contracted_intermediate],
    aug1 X.quadruples_res (ein3 L.bcfe L.aejl L.fdik L.abcdijkl Q.g_abab_vavavava Q.t2_abab Q.t2_abab),
    aug1 X.quadruples_res (ein3 L.dcef L.aejl L.bfik L.abcdijkl Q.g_bbbb_vavavava Q.t2_abab Q.t2_abab),
    set1 X.contracted_intermediate (ein3 L.bcfe L.aeil L.fdjk L.abcdijkl Q.g_abab_vavavava Q.t2_abab Q.t2_abab),
    .aug X.quadruples_res [.arg Q.contracted_intermediate, ein1 L.abcdijkl L.abcdijlk Q.contracted_intermediate],
    set1 X.contracted_intermediate (ein3 L.dcef L.aeil L.bfjk L.abcdijkl Q.g_bbbb_vavavava Q.t2_abab Q.t2_abab),
    .aug X.quadruples_res [.arg Q.contracted_intermediate, ein1 L.abcdijkl L.abcdijlk Q.contracted_intermediate],
    aug1 X.quadruples_res (ein3 L.bcfe L.aejk L.fdil L.abcdijkl Q.g_abab_vavavava Q.t2_abab Q.t2_abab),
    aug1 X.quadruples_res (ein3 L.dcef L.aejk L.bfil L.abcdijkl Q.g_bbbb_vavavava Q.t2_abab Q.t2_abab),
    aug1 X.quadruples_res (ein3 L.bcef L.eaji L.fdkl L.abcdijkl Q.g_abab_vavavava Q.t2_aaaa Q.t2_bbbb),
    set1 X.contracted_intermediate (ein4 L.nmef L.efkl L.acjm L.bdin L.abcdijkl Q.g_bbbb_oaoavava Q.t2_bbbb Q.t2_abab Q.t2_abab),
    .aug X.quadruples_res [.arg Q.contracted_intermediate, ein1 L.abcdijkl L.abcdjikl Q.contracted_intermediate],
    set1 X.contracted_intermediate (ein4 L.nmef L.efkl L.adjm L.bcin L.abcdijkl Q.g_bbbb_oaoavava Q.t2_bbbb Q.t2_abab Q.t2_abab),
    .aug X.quadruples_res [.arg Q.contracted_intermediate, ein1 L.abcdijkl L.abcdjikl Q.contracted_intermediate],
    aug1 X.quadruples_res (ein4 L.mnef L.efjl L.acmk L.bdin L.abcdijkl Q.g_abab_oaoavava Q.t2_abab Q.t2_abab Q.t2_abab),
    aug1 X.quadruples_res (ein4 L.mnfe L.fejl L.acmk L.bdin L.abcdijkl Q.g_abab_oaoavava Q.t2_abab Q.t2_abab Q.t2_abab),
    aug1 X.quadruples_res (ein4 L.mnef L.efjl L.abim L.cdkn L.abcdijkl Q.g_abab_oaoavava Q.t2_abab Q.t2_aaaa Q.t2_bbbb),
    aug1 X.quadruples_res (ein4 L.mnfe L.fejl L.abim L.cdkn L.abcdijkl Q.g_abab_oaoavava Q.t2_abab Q.t2_aaaa Q.t2_bbbb),
    aug1 X.quadruples_res (ein4 L.nmef L.efjl L.acim L.bdnk L.abcdijkl Q.g_abab_oaoavava Q.t2_abab Q.t2_abab Q.t2_abab),
    aug1 X.quadruples_res (ein4 L.nmfe L.fejl L.acim L.bdnk L.abcdijkl Q.g_abab_oaoavava Q.t2_abab Q.t2_abab Q.t2_abab),
    aug1 X.quadruples_res (ein4 L.mnef L.efjl L.admk L.bcin L.abcdijkl Q.g_abab_oaoavava Q.t2_abab Q.t2_abab Q.t2_abab),
    aug1 X.quadruples_res (ein4 L.mnfe L.fejl L.admk L.bcin L.abcdijkl Q.g_abab_oaoavava Q.t2_abab Q.t2_abab Q.t2_abab),
    aug1 X.quadruples_res (ein4 L.nmef L.efjl L.adim L.bcnk L.abcdijkl Q.g_abab_oaoavava Q.t2_abab Q.t2_abab Q.t2_abab),
    aug1 X.quadruples_res (ein4 L.nmfe L.fejl L.adim L.bcnk L.abcdijkl Q.g_abab_oaoavava Q.t2_abab Q.t2_abab Q.t2_abab),
    aug1 X.quadruples_res (ein4 L.mnef L.efil L.acmk L.bdjn L.abcdijkl Q.g_abab_oaoavava Q.t2_abab Q.t2_abab Q.t2_abab),
    aug1 X.quadruples_res (ein4 L.mnfe L.feil L.acmk L.bdjn L.abcdijkl Q.g_abab_oaoavava Q.t2_abab Q.t2_abab Q.t2_abab),
    aug1 X.quadruples_res (ein4 L.mnef L.efil L.abjm L.cdkn L.abcdijkl Q.g_abab_oaoavava Q.t2_abab Q.t2_aaaa Q.t2_bbbb),
    aug1 X.quadruples_res (ein4 L.mnfe L.feil L.abjm L.cdkn L.abcdijkl Q.g_abab_oaoavava Q.t2_abab Q.t2_aaaa Q.t2_bbbb),
    aug1 X.quadruples_res (ein4 L.nmef L.efil L.acjm L.bdnk L.abcdijkl Q.g_abab_oaoavava Q.t2_abab Q.t2_abab Q.t2_abab),
    aug1 X.quadruples_res (ein4 L.nmfe L.feil L.acjm L.bdnk L.abcdijkl Q.g_abab_oaoavava Q.t2_abab Q.t2_abab Q.t2_abab),
    aug1 X.quadruples_res (ein4 L.mnef L.efil L.admk L.bcjn L.abcdijkl Q.g_abab_oaoavava Q.t2_abab Q.t2_abab Q.t2_abab),
    aug1 X.quadruples_res (ein4 L.mnfe L.feil L.admk L.bcjn L.abcdijkl Q.g_abab_oaoavava Q.t2_abab Q.t2_abab Q.t2_abab),
    aug1 X.quadruples_res (ein4 L.nmef L.efil L.adjm L.bcnk L.abcdijkl Q.g_abab_oaoavava Q.t2_abab Q.t2_abab Q.t2_abab),
    aug1 X.quadruples_res (ein4 L.nmfe L.feil L.adjm L.bcnk L.abcdijkl Q.g_abab_oaoavava Q.t2_abab Q.t2_abab Q.t2_abab),
    aug1 X.quadruples_res (ein4 L.mnef L.efjk L.acml L.bdin L.abcdijkl Q.g_abab_oaoavava Q.t2_abab Q.t2_abab Q.t2_abab),
    aug1 X.quadruples_res (ein4 L.mnfe L.fejk L.acml L.bdin L.abcdijkl Q.g_abab_oaoavava Q.t2_abab Q.t2_abab Q.t2_abab),
    aug1 X.quadruples_res (ein4 L.mnef L.efjk L.abim L.cdln L.abcdijkl Q.g_abab_oaoavava Q.t2_abab Q.t2_aaaa Q.t2_bbbb),
    aug1 X.quadruples_res (ein4 L.mnfe L.fejk L.abim L.cdln L.abcdijkl Q.g_abab_oaoavava Q.t2_abab Q.t2_aaaa Q.t2_bbbb),
    aug1 X.quadruples_res (ein4 L.nmef L.efjk L.acim L.bdnl L.abcdijkl Q.g_abab_oaoavava Q.t2_abab Q.t2_abab Q.t2_abab),
    aug1 X.quadruples_res (ein4 L.nmfe L.fejk L.acim L.bdnl L.abcdijkl Q.g_abab_oaoavava Q.t2_abab Q.t2_abab Q.t2_abab),
    aug1 X.quadruples_res (ein4 L.mnef L.efjk L.adml L.bcin L.abcdijkl Q.g_abab_oaoavava Q.t2_abab Q.t2_abab Q.t2_abab),
    aug1 X.quadruples_res (ein4 L.mnfe L.fejk L.adml L.bcin L.abcdijkl Q.g_abab_oaoavava Q.t2_abab Q.t2_abab Q.t2_abab),
    aug1 X.quadruples_res (ein4 L.nmef L.efjk L.adim L.bcnl L.abcdijkl Q.g_abab_oaoavava Q.t2_abab Q.t2_abab Q.t2_abab),
    aug1 X.quadruples_res (ein4 L.nmfe L.fejk L.adim L.bcnl L.abcdijkl Q.g_abab_oaoavava Q.t2_abab Q.t2_abab Q.t2_abab),
    aug1 X.quadruples_res (ein4 L.mnef L.efik L.acml L.bdjn L.abcdijkl Q.g_abab_oaoavava Q.t2_abab Q.t2_abab Q.t2_abab),
    aug1 X.quadruples_res (ein4 L.mnfe L.feik L.acml L.bdjn L.abcdijkl Q.g_abab_oaoavava Q.t2_abab Q.t2_abab Q.t2_abab),
    aug1 X.quadruples_res (ein4 L.mnef L.efik L.abjm L.cdln L.abcdijkl Q.g_abab_oaoavava Q.t2_abab Q.t2_aaaa Q.t2_bbbb),
    aug1 X.quadruples_res (ein4 L.mnfe L.feik L.abjm L.cdln L.abcdijkl Q.g_abab_oaoavava Q.t2_abab Q.t2_aaaa Q.t2_bbbb),
    aug1 X.quadruples_res (ein4 L.nmef L.efik L.acjm L.bdnl L.abcdijkl Q.g_abab_oaoavava Q.t2_abab Q.t2_abab Q.t2_abab),
    aug1 X.quadruples_res (ein4 L.nmfe L.feik L.acjm L.bdnl L.abcdijkl Q.g_abab_oaoavava Q.t2_abab Q.t2_abab Q.t2_abab),
    aug1 X.quadruples_res (ein4 L.mnef L.efik L.adml L.bcjn L.abcdijkl Q.g_abab_oaoavava Q.t2_abab Q.t2_abab Q.t2_abab),
    aug1 X.quadruples_res (ein4 L.mnfe L.feik L.adml L.bcjn L.abcdijkl Q.g_abab_oaoavava Q.t2_abab Q.t2_abab Q.t2_abab),
    aug1 X.quadruples_res (ein4 L.nmef L.efik L.adjm L.bcnl L.abcdijkl Q.g_abab_oaoavava Q.t2_abab Q.t2_abab Q.t2_abab),
    aug1 X.quadruples_res (ein4 L.nmfe L.feik L.adjm L.bcnl L.abcdijkl Q.g_abab_oaoavava Q.t2_abab Q.t2_abab Q.t2_abab),
    set1 X.contracted_intermediate (ein4 L.nmef L.efij L.acml L.bdnk L.abcdijkl Q.g_aaaa_oaoavava Q.t2_aaaa Q.t2_abab Q.t2_abab),
    .aug X.quadruples_res [.arg Q.contracted_intermediate, ein1 L.abcdijkl L.abcdijlk Q.contracted_intermediate],
    set1 X.contracted_intermediate (ein4 L.nmef L.efij L.adml L.bcnk L.abcdijkl Q.g_aaaa_oaoavava Q.t2_aaaa Q.t2_abab Q.t2_abab),
    .aug X.quadruples_res [.arg Q.contracted_intermediate, ein1 L.abcdijkl L.abcdijlk Q.contracted_intermediate],
    set1 X.contracted_intermediate (ein4 L.mnfe L.aeml L.fcjk L.bdin L.abcdijkl Q.g_abab_oaoavava Q.t2_abab Q.t2_abab Q.t2_abab),
    .aug X.quadruples_res [.arg Q.contracted_intermediate, ein1 L.abcdijkl L.abcdjikl Q.contracted_intermediate],
    set1 X.contracted_intermediate (ein4 L.mnfe L.aeml L.fbij L.cdkn L.abcdijkl Q.g_abab_oaoavava Q.t2_abab Q.t2_aaaa Q.t2_bbbb),
    .aug X.quadruples_res [.arg Q.contracted_intermediate, ein1 L.abcdijkl L.abcdijlk Q.contracted_intermediate],
    set1 X.contracted_intermediate (ein4 L.mnfe L.aeml L.fdjk L.bcin L.abcdijkl Q.g_abab_oaoavava Q.t2_abab Q.t2_abab Q.t2_abab),
    .aug X.quadruples_res [.arg Q.contracted_intermediate, ein1 L.abcdijkl L.abcdjikl Q.contracted_intermediate, ein1 L.abcdijkl L.bacdijkl Q.contracted_intermediate, ein1 L.abcdijkl L.bacdjikl Q.contracted_intermediate],
    set1 X.contracted_intermediate (ein4 L.mnfe L.aemk L.fcjl L.bdin L.abcdijkl Q.g_abab_oaoavava Q.t2_abab Q.t2_abab Q.t2_abab),
    .aug X.quadruples_res [.arg Q.contracted_intermediate, ein1 L.abcdijkl L.abcdjikl Q.contracted_intermediate],
    set1 X.contracted_intermediate (ein4 L.mnfe L.aemk L.fdjl L.bcin L.abcdijkl Q.g_abab_oaoavava Q.t2_abab Q.t2_abab Q.t2_abab),
    .aug X.quadruples_res [.arg Q.contracted_intermediate, ein1 L.abcdijkl L.abcdjikl Q.contracted_intermediate, ein1 L.abcdijkl L.bacdijkl Q.contracted_intermediate, ein1 L.abcdijkl L.bacdjikl Q.contracted_intermediate],
    aug1 X.quadruples_res (ein4 L.mnef L.eajm L.fckl L.bdin L.abcdijkl Q.g_abab_oaoavava Q.t2_aaaa Q.t2_bbbb Q.t2_abab),
    aug1 X.quadruples_res (ein4 L.nmef L.aejm L.fckl L.bdin L.abcdijkl Q.g_bbbb_oaoavava Q.t2_abab Q.t2_bbbb Q.t2_abab),
    aug1 X.quadruples_res (ein4 L.mnef L.eajm L.bfil L.cdkn L.abcdijkl Q.g_abab_oaoavava Q.t2_aaaa Q.t2_abab Q.t2_bbbb),
    aug1 X.quadruples_res (ein4 L.nmef L.aejm L.bfil L.cdkn L.abcdijkl Q.g_bbbb_oaoavava Q.t2_abab Q.t2_abab Q.t2_bbbb),
    aug1 X.quadruples_res (ein4 L.nmef L.eajm L.fcil L.bdnk L.abcdijkl Q.g_aaaa_oaoavava Q.t2_aaaa Q.t2_abab Q.t2_abab),
    aug1 X.quadruples_res (ein4 L.nmfe L.aejm L.fcil L.bdnk L.abcdijkl Q.g_abab_oaoavava Q.t2_abab Q.t2_abab Q.t2_abab),
    set1 X.contracted_intermediate (ein4 L.mnef L.eajm L.bfik L.cdln L.abcdijkl Q.g_abab_oaoavava Q.t2_aaaa Q.t2_abab Q.t2_bbbb),
    .aug X.quadruples_res [.arg Q.contracted_intermediate, ein1 L.abcdijkl L.abcdjikl Q.contracted_intermediate],
    set1 X.contracted_intermediate (ein4 L.nmef L.aejm L.bfik L.cdln L.abcdijkl Q.g_bbbb_oaoavava Q.t2_abab Q.t2_abab Q.t2_bbbb),
    .aug X.quadruples_res [.arg Q.contracted_intermediate, ein1 L.abcdijkl L.abcdjikl Q.contracted_intermediate],
    set1 X.contracted_intermediate (ein4 L.nmef L.eajm L.fcik L.bdnl L.abcdijkl Q.g_aaaa_oaoavava Q.t2_aaaa Q.t2_abab Q.t2_abab),
    .aug X.quadruples_res [.arg Q.contracted_intermediate, ein1 L.abcdijkl L.abcdjikl Q.contracted_intermediate],
    set1 X.contracted_intermediate (ein4 L.nmfe L.aejm L.fcik L.bdnl L.abcdijkl Q.g_abab_oaoavava Q.t2_abab Q.t2_abab Q.t2_abab),
    .aug X.quadruples_res [.arg Q.contracted_intermediate, ein1 L.abcdijkl L.abcdjikl Q.contracted_intermediate],
    set1 X.contracted_intermediate (ein4 L.mnef L.eajm L.fdkl L.bcin L.abcdijkl Q.g_abab_oaoavava Q.t2_aaaa Q.t2_bbbb Q.t2_abab),
    .aug X.quadruples_res [.arg Q.contracted_intermediate, ein1 L.abcdijkl L.bacdijkl Q.contracted_intermediate],
    set1 X.contracted_intermediate (ein4 L.nmef L.aejm L.fdkl L.bcin L.abcdijkl Q.g_bbbb_oaoavava Q.t2_abab Q.t2_bbbb Q.t2_abab),
    .aug X.quadruples_res [.arg Q.contracted_intermediate, ein1 L.abcdijkl L.bacdijkl Q.contracted_intermediate],
    set1 X.contracted_intermediate (ein4 L.nmef L.eajm L.fdil L.bcnk L.abcdijkl Q.g_aaaa_oaoavava Q.t2_aaaa Q.t2_abab Q.t2_abab),
    .aug X.quadruples_res [.arg Q.contracted_intermediate, ein1 L.abcdijkl L.bacdijkl Q.contracted_intermediate],
    set1 X.contracted_intermediate (ein4 L.nmfe L.aejm L.fdil L.bcnk L.abcdijkl Q.g_abab_oaoavava Q.t2_abab Q.t2_abab Q.t2_abab),
    .aug X.quadruples_res [.arg Q.contracted_intermediate, ein1 L.abcdijkl L.bacdijkl Q.contracted_intermediate],
    set1 X.contracted_intermediate (ein4 L.nmef L.eajm L.fdik L.bcnl L.abcdijkl Q.g_aaaa_oaoavava Q.t2_aaaa Q.t2_abab Q.t2_abab),
    .aug X.quadruples_res [.arg Q.contracted_intermediate, ein1 L.abcdijkl L.abcdjikl Q.contracted_intermediate, ein1 L.abcdijkl L.bacdijkl Q.contracted_intermediate, ein1 L.abcdijkl L.bacdjikl Q.contracted_intermediate],
    set1 X.contracted_intermediate (ein4 L.nmfe L.aejm L.fdik L.bcnl L.abcdijkl Q.g_abab_oaoavava Q.t2_abab Q.t2_abab Q.t2_abab),
    .aug X.quadruples_res [.arg Q.contracted_intermediate, ein1 L.abcdijkl L.abcdjikl Q.contracted_intermediate, ein1 L.abcdijkl L.bacdijkl Q.contracted_intermediate, ein1 L.abcdijkl L.bacdjikl Q.contracted_intermediate],
    aug1 X.quadruples_res (ein4 L.mnef L.eaim L.fckl L.bdjn L.abcdijkl Q.g_abab_oaoavava Q.t2_aaaa Q.t2_bbbb Q.t2_abab),
    aug1 X.quadruples_res (ein4 L.nmef L.aeim L.fckl L.bdjn L.abcdijkl Q.g_bbbb_oaoavava Q.t2_abab Q.t2_bbbb Q.t2_abab),
    aug1 X.quadruples_res (ein4 L.mnef L.eaim L.bfjl L.cdkn L.abcdijkl Q.g_abab_oaoavava Q.t2_aaaa Q.t2_abab Q.t2_bbbb),
    aug1 X.quadruples_res (ein4 L.nmef L.aeim L.bfjl L.cdkn L.abcdijkl Q.g_bbbb_oaoavava Q.t2_abab Q.t2_abab Q.t2_bbbb),
    aug1 X.quadruples_res (ein4 L.nmef L.eaim L.fcjl L.bdnk L.abcdijkl Q.g_aaaa_oaoavava Q.t2_aaaa Q.t2_abab Q.t2_abab),
    aug1 X.quadruples_res (ein4 L.nmfe L.aeim L.fcjl L.bdnk L.abcdijkl Q.g_abab_oaoavava Q.t2_abab Q.t2_abab Q.t2_abab),
    set1 X.contracted_intermediate (ein4 L.mnef L.eaim L.fdkl L.bcjn L.abcdijkl Q.g_abab_oaoavava Q.t2_aaaa Q.t2_bbbb Q.t2_abab),
    .aug X.quadruples_res [.arg Q.contracted_intermediate, ein1 L.abcdijkl L.bacdijkl Q.contracted_intermediate],
    set1 X.contracted_intermediate (ein4 L.nmef L.aeim L.fdkl L.bcjn L.abcdijkl Q.g_bbbb_oaoavava Q.t2_abab Q.t2_bbbb Q.t2_abab),
    .aug X.quadruples_res [.arg Q.contracted_intermediate, ein1 L.abcdijkl L.bacdijkl Q.contracted_intermediate],
    set1 X.contracted_intermediate (ein4 L.nmef L.eaim L.fdjl L.bcnk L.abcdijkl Q.g_aaaa_oaoavava Q.t2_aaaa Q.t2_abab Q.t2_abab),
    .aug X.quadruples_res [.arg Q.contracted_intermediate, ein1 L.abcdijkl L.bacdijkl Q.contracted_intermediate],
    set1 X.contracted_intermediate (ein4 L.nmfe L.aeim L.fdjl L.bcnk L.abcdijkl Q.g_abab_oaoavava Q.t2_abab Q.t2_abab Q.t2_abab),
    .aug X.quadruples_res [.arg Q.contracted_intermediate, ein1 L.abcdijkl L.bacdijkl Q.contracted_intermediate],
    aug1 X.quadruples_res (ein4 L.nmef L.aejl L.bfik L.cdnm L.abcdijkl Q.g_bbbb_oaoavava Q.t2_abab Q.t2_abab Q.t2_bbbb),
    aug1 X.quadruples_res (ein4 L.nmfe L.aejl L.fcik L.bdnm L.abcdijkl Q.g_abab_oaoavava Q.t2_abab Q.t2_abab Q.t2_abab),
    aug1 X.quadruples_res (ein4 L.mnfe L.aejl L.fcik L.bdmn L.abcdijkl Q.g_abab_oaoavava Q.t2_abab Q.t2_abab Q.t2_abab),
    set1 X.contracted_intermediate (ein4 L.nmfe L.aejl L.fdik L.bcnm L.abcdijkl Q.g_abab_oaoavava Q.t2_abab Q.t2_abab Q.t2_abab),
    .aug X.quadruples_res [.arg Q.contracted_intermediate, ein1 L.abcdijkl L.bacdijkl Q.contracted_intermediate],
    set1 X.contracted_intermediate (ein4 L.mnfe L.aejl L.fdik L.bcmn L.abcdijkl Q.g_abab_oaoavava Q.t2_abab Q.t2_abab Q.t2_abab),
    .aug X.quadruples_res [.arg Q.contracted_intermediate, ein1 L.abcdijkl L.bacdijkl Q.contracted_intermediate],
    aug1 X.quadruples_res (ein4 L.mnfe L.aejl L.fcmk L.bdin L.abcdijkl Q.g_abab_oaoavava Q.t2_abab Q.t2_abab Q.t2_abab),
    aug1 X.quadruples_res (ein4 L.nmef L.aejl L.fckm L.bdin L.abcdijkl Q.g_bbbb_oaoavava Q.t2_abab Q.t2_bbbb Q.t2_abab),
    aug1 X.quadruples_res (ein4 L.mnfe L.aejl L.fbim L.cdkn L.abcdijkl Q.g_abab_oaoavava Q.t2_abab Q.t2_aaaa Q.t2_bbbb),
    aug1 X.quadruples_res (ein4 L.nmef L.aejl L.bfim L.cdkn L.abcdijkl Q.g_bbbb_oaoavava Q.t2_abab Q.t2_abab Q.t2_bbbb),
    aug1 X.quadruples_res (ein4 L.nmfe L.aejl L.fcim L.bdnk L.abcdijkl Q.g_abab_oaoavava Q.t2_abab Q.t2_abab Q.t2_abab),
    set1 X.contracted_intermediate (ein4 L.mnfe L.aejl L.fdmk L.bcin L.abcdijkl Q.g_abab_oaoavava Q.t2_abab Q.t2_abab Q.t2_abab),
    .aug X.quadruples_res [.arg Q.contracted_intermediate, ein1 L.abcdijkl L.bacdijkl Q.contracted_intermediate],
    set1 X.contracted_intermediate (ein4 L.nmef L.aejl L.fdkm L.bcin L.abcdijkl Q.g_bbbb_oaoavava Q.t2_abab Q.t2_bbbb Q.t2_abab),
    .aug X.quadruples_res [.arg Q.contracted_intermediate, ein1 L.abcdijkl L.bacdijkl Q.contracted_intermediate],
    set1 X.contracted_intermediate (ein4 L.nmfe L.aejl L.fdim L.bcnk L.abcdijkl Q.g_abab_oaoavava Q.t2_abab Q.t2_abab Q.t2_abab),
    .aug X.quadruples_res [.arg Q.contracted_intermediate, ein1 L.abcdijkl L.bacdijkl Q.contracted_intermediate],
    aug1 X.quadruples_res (ein4 L.mnfe L.aeil L.fcmk L.bdjn L.abcdijkl Q.g_abab_oaoavava Q.t2_abab Q.t2_abab Q.t2_abab),
    aug1 X.quadruples_res (ein4 L.nmef L.aeil L.fckm L.bdjn L.abcdijkl Q.g_bbbb_oaoavava Q.t2_abab Q.t2_bbbb Q.t2_abab),
    aug1 X.quadruples_res (ein4 L.mnfe L.aeil L.fbjm L.cdkn L.abcdijkl Q.g_abab_oaoavava Q.t2_abab Q.t2_aaaa Q.t2_bbbb),
    aug1 X.quadruples_res (ein4 L.nmef L.aeil L.bfjm L.cdkn L.abcdijkl Q.g_bbbb_oaoavava Q.t2_abab Q.t2_abab Q.t2_bbbb),
    aug1 X.quadruples_res (ein4 L.nmfe L.aeil L.fcjm L.bdnk L.abcdijkl Q.g_abab_oaoavava Q.t2_abab Q.t2_abab Q.t2_abab),
    set1 X.contracted_intermediate (ein4 L.nmef L.aeil L.bfjk L.cdnm L.abcdijkl Q.g_bbbb_oaoavava Q.t2_abab Q.t2_abab Q.t2_bbbb),
    .aug X.quadruples_res [.arg Q.contracted_intermediate, ein1 L.abcdijkl L.abcdijlk Q.contracted_intermediate],
    set1 X.contracted_intermediate (ein4 L.nmfe L.aeil L.fcjk L.bdnm L.abcdijkl Q.g_abab_oaoavava Q.t2_abab Q.t2_abab Q.t2_abab),
    .aug X.quadruples_res [.arg Q.contracted_intermediate, ein1 L.abcdijkl L.abcdijlk Q.contracted_intermediate],
    set1 X.contracted_intermediate (ein4 L.mnfe L.aeil L.fcjk L.bdmn L.abcdijkl Q.g_abab_oaoavava Q.t2_abab Q.t2_abab Q.t2_abab),
    .aug X.quadruples_res [.arg Q.contracted_intermediate, ein1 L.abcdijkl L.abcdijlk Q.contracted_intermediate],
    set1 X.contracted_intermediate (ein4 L.mnfe L.aeil L.fdmk L.bcjn L.abcdijkl Q.g_abab_oaoavava Q.t2_abab Q.t2_abab Q.t2_abab),
    .aug X.quadruples_res [.arg Q.contracted_intermediate, ein1 L.abcdijkl L.bacdijkl Q.contracted_intermediate],
    set1 X.contracted_intermediate (ein4 L.nmef L.aeil L.fdkm L.bcjn L.abcdijkl Q.g_bbbb_oaoavava Q.t2_abab Q.t2_bbbb Q.t2_abab),
    .aug X.quadruples_res [.arg Q.contracted_intermediate, ein1 L.abcdijkl L.bacdijkl Q.contracted_intermediate],
    set1 X.contracted_intermediate (ein4 L.nmfe L.aeil L.fdjm L.bcnk L.abcdijkl Q.g_abab_oaoavava Q.t2_abab Q.t2_abab Q.t2_abab),
    .aug X.quadruples_res [.arg Q.contracted_intermediate, ein1 L.abcdijkl L.bacdijkl Q.contracted_intermediate],
    set1 X.contracted_intermediate (ein4 L.nmfe L.aeil L.fdjk L.bcnm L.abcdijkl Q.g_abab_oaoavava Q.t2_abab Q.t2_abab Q.t2_abab),
    .aug X.quadruples_res [.arg Q.contracted_intermediate, ein1 L.abcdijkl L.abcdijlk Q.contracted_intermediate, ein1 L.abcdijkl L.bacdijkl Q.contracted_intermediate, ein1 L.abcdijkl L.bacdijlk Q.contracted_intermediate],
    set1 X.contracted_intermediate (ein4 L.mnfe L.aeil L.fdjk L.bcmn L.abcdijkl Q.g_abab_oaoavava Q.t2_abab Q.t2_abab Q.t2_abab),
    .aug X.quadruples_res [.arg Q.contracted_intermediate, ein1 L.abcdijkl L.abcdijlk Q.contracted_intermediate, ein1 L.abcdijkl L.bacdijkl Q.contracted_intermediate, ein1 L.abcdijkl L.bacdijlk Q.contracted_intermediate],
    aug1 X.quadruples_res (ein4 L.mnfe L.aejk L.fcml L.bdin L.abcdijkl Q.g_abab_oaoavava Q.t2_abab Q.t2_abab Q.t2_abab),
    aug1 X.quadruples_res (ein4 L.nmef L.aejk L.fclm L.bdin L.abcdijkl Q.g_bbbb_oaoavava Q.t2_abab Q.t2_bbbb Q.t2_abab),
    aug1 X.quadruples_res (ein4 L.mnfe L.aejk L.fbim L.cdln L.abcdijkl Q.g_abab_oaoavava Q.t2_abab Q.t2_aaaa Q.t2_bbbb),
    aug1 X.quadruples_res (ein4 L.nmef L.aejk L.bfim L.cdln L.abcdijkl Q.g_bbbb_oaoavava Q.t2_abab Q.t2_abab Q.t2_bbbb),
    aug1 X.quadruples_res (ein4 L.nmfe L.aejk L.fcim L.bdnl L.abcdijkl Q.g_abab_oaoavava Q.t2_abab Q.t2_abab Q.t2_abab),
    aug1 X.quadruples_res (ein4 L.nmef L.aejk L.bfil L.cdnm L.abcdijkl Q.g_bbbb_oaoavava Q.t2_abab Q.t2_abab Q.t2_bbbb),
    aug1 X.quadruples_res (ein4 L.nmfe L.aejk L.fcil L.bdnm L.abcdijkl Q.g_abab_oaoavava Q.t2_abab Q.t2_abab Q.t2_abab),
    aug1 X.quadruples_res (ein4 L.mnfe L.aejk L.fcil L.bdmn L.abcdijkl Q.g_abab_oaoavava Q.t2_abab Q.t2_abab Q.t2_abab),
    aug1 X.quadruples_res (ein4 L.nmef L.eaji L.fckl L.bdnm L.abcdijkl Q.g_abab_oaoavava Q.t2_aaaa Q.t2_bbbb Q.t2_abab),
    aug1 X.quadruples_res (ein4 L.mnef L.eaji L.fckl L.bdmn L.abcdijkl Q.g_abab_oaoavava Q.t2_aaaa Q.t2_bbbb Q.t2_abab),
    set1 X.contracted_intermediate (ein4 L.mnfe L.aejk L.fdml L.bcin L.abcdijkl Q.g_abab_oaoavava Q.t2_abab Q.t2_abab Q.t2_abab),
    .aug X.quadruples_res [.arg Q.contracted_intermediate, ein1 L.abcdijkl L.bacdijkl Q.contracted_intermediate],
    set1 X.contracted_intermediate (ein4 L.nmef L.aejk L.fdlm L.bcin L.abcdijkl Q.g_bbbb_oaoavava Q.t2_abab Q.t2_bbbb Q.t2_abab),
    .aug X.quadruples_res [.arg Q.contracted_intermediate, ein1 L.abcdijkl L.bacdijkl Q.contracted_intermediate],
    set1 X.contracted_intermediate (ein4 L.nmfe L.aejk L.fdim L.bcnl L.abcdijkl Q.g_abab_oaoavava Q.t2_abab Q.t2_abab Q.t2_abab),
    .aug X.quadruples_res [.arg Q.contracted_intermediate, ein1 L.abcdijkl L.bacdijkl Q.contracted_intermediate],
    set1 X.contracted_intermediate (ein4 L.nmfe L.aejk L.fdil L.bcnm L.abcdijkl Q.g_abab_oaoavava Q.t2_abab Q.t2_abab Q.t2_abab),
    .aug X.quadruples_res [.arg Q.contracted_intermediate, ein1 L.abcdijkl L.bacdijkl Q.contracted_intermediate],
    set1 X.contracted_intermediate (ein4 L.mnfe L.aejk L.fdil L.bcmn L.abcdijkl Q.g_abab_oaoavava Q.t2_abab Q.t2_abab Q.t2_abab),
    .aug X.quadruples_res [.arg Q.contracted_intermediate, ein1 L.abcdijkl L.bacdijkl Q.contracted_intermediate],
    set1 X.contracted_intermediate (ein4 L.nmef L.eaji L.fdkl L.bcnm L.abcdijkl Q.g_abab_oaoavava Q.t2_aaaa Q.t2_bbbb Q.t2_abab),
    .aug X.quadruples_res [.arg Q.contracted_intermediate, ein1 L.abcdijkl L.bacdijkl Q.contracted_intermediate],
    set1 X.contracted_intermediate (ein4 L.mnef L.eaji L.fdkl L.bcmn L.abcdijkl Q.g_abab_oaoavava Q.t2_aaaa Q.t2_bbbb Q.t2_abab),
    .aug X.quadruples_res [.arg Q.contracted_intermediate, ein1 L.abcdijkl L.bacdijkl Q.contracted_intermediate],
    aug1 X.quadruples_res (ein4 L.mnfe L.aeik L.fcml L.bdjn L.abcdijkl Q.g_abab_oaoavava Q.t2_abab Q.t2_abab Q.t2_abab),
    aug1 X.quadruples_res (ein4 L.nmef L.aeik L.fclm L.bdjn L.abcdijkl Q.g_bbbb_oaoavava Q.t2_abab Q.t2_bbbb Q.t2_abab),
    aug1 X.quadruples_res (ein4 L.mnfe L.aeik L.fbjm L.cdln L.abcdijkl Q.g_abab_oaoavava Q.t2_abab Q.t2_aaaa Q.t2_bbbb),
    aug1 X.quadruples_res (ein4 L.nmef L.aeik L.bfjm L.cdln L.abcdijkl Q.g_bbbb_oaoavava Q.t2_abab Q.t2_abab Q.t2_bbbb),
    aug1 X.quadruples_res (ein4 L.nmfe L.aeik L.fcjm L.bdnl L.abcdijkl Q.g_abab_oaoavava Q.t2_abab Q.t2_abab Q.t2_abab),
    set1 X.contracted_intermediate (ein4 L.mnfe L.aeik L.fdml L.bcjn L.abcdijkl Q.g_abab_oaoavava Q.t2_abab Q.t2_abab Q.t2_abab),
    .aug X.quadruples_res [.arg Q.contracted_intermediate, ein1 L.abcdijkl L.bacdijkl Q.contracted_intermediate],
    set1 X.contracted_intermediate (ein4 L.nmef L.aeik L.fdlm L.bcjn L.abcdijkl Q.g_bbbb_oaoavava Q.t2_abab Q.t2_bbbb Q.t2_abab),
    .aug X.quadruples_res [.arg Q.contracted_intermediate, ein1 L.abcdijkl L.bacdijkl Q.contracted_intermediate],
    set1 X.contracted_intermediate (ein4 L.nmfe L.aeik L.fdjm L.bcnl L.abcdijkl Q.g_abab_oaoavava Q.t2_abab Q.t2_abab Q.t2_abab),
    .aug X.quadruples_res [.arg Q.contracted_intermediate, ein1 L.abcdijkl L.bacdijkl Q.contracted_intermediate],
    set1 X.contracted_intermediate (ein4 L.mnef L.eaij L.bfml L.cdkn L.abcdijkl Q.g_abab_oaoavava Q.t2_aaaa Q.t2_abab Q.t2_bbbb),
    .aug X.quadruples_res [.arg Q.contracted_intermediate, ein1 L.abcdijkl L.abcdijlk Q.contracted_intermediate],
    set1 X.contracted_intermediate (ein4 L.nmef L.eaij L.fcml L.bdnk L.abcdijkl Q.g_aaaa_oaoavava Q.t2_aaaa Q.t2_abab Q.t2_abab),
    .aug X.quadruples_res [.arg Q.contracted_intermediate, ein1 L.abcdijkl L.abcdijlk Q.contracted_intermediate],
    set1 X.contracted_intermediate (ein4 L.nmef L.eaij L.fclm L.bdnk L.abcdijkl Q.g_abab_oaoavava Q.t2_aaaa Q.t2_bbbb Q.t2_abab),
    .aug X.quadruples_res [.arg Q.contracted_intermediate, ein1 L.abcdijkl L.abcdijlk Q.contracted_intermediate],
    set1 X.contracted_intermediate (ein4 L.nmef L.eaij L.fdml L.bcnk L.abcdijkl Q.g_aaaa_oaoavava Q.t2_aaaa Q.t2_abab Q.t2_abab),
    .aug X.quadruples_res [.arg Q.contracted_intermediate, ein1 L.abcdijkl L.abcdijlk Q.contracted_intermediate, ein1 L.abcdijkl L.bacdijkl Q.contracted_intermediate, ein1 L.abcdijkl L.bacdijlk Q.contracted_intermediate],
    set1 X.contracted_intermediate (ein4 L.nmef L.eaij L.fdlm L.bcnk L.abcdijkl Q.g_abab_oaoavava Q.t2_aaaa Q.t2_bbbb Q.t2_abab),
    .aug X.quadruples_res [.arg Q.contracted_intermediate, ein1 L.abcdijkl L.abcdijlk Q.contracted_intermediate, ein1 L.abcdijkl L.bacdijkl Q.contracted_intermediate, ein1 L.abcdijkl L.bacdijlk Q.contracted_intermediate],
    set1 X.contracted_intermediate (ein4 L.mnfe L.beml L.fcjk L.adin L.abcdijkl Q.g_abab_oaoavava Q.t2_abab Q.t2_abab Q.t2_abab),
    .aug X.quadruples_res [.arg Q.contracted_intermediate, ein1 L.abcdijkl L.abcdjikl Q.contracted_intermediate],
    set1 X.contracted_intermediate (ein4 L.mnfe L.bemk L.fcjl L.adin L.abcdijkl Q.g_abab_oaoavava Q.t2_abab Q.t2_abab Q.t2_abab),
    .aug X.quadruples_res [.arg Q.contracted_intermediate, ein1 L.abcdijkl L.abcdjikl Q.contracted_intermediate],
    aug1 X.quadruples_res (ein4 L.mnef L.ebjm L.fckl L.adin L.abcdijkl Q.g_abab_oaoavava Q.t2_aaaa Q.t2_bbbb Q.t2_abab),
    aug1 X.quadruples_res (ein4 L.nmef L.bejm L.fckl L.adin L.abcdijkl Q.g_bbbb_oaoavava Q.t2_abab Q.t2_bbbb Q.t2_abab),
    aug1 X.quadruples_res (ein4 L.nmef L.ebjm L.fcil L.adnk L.abcdijkl Q.g_aaaa_oaoavava Q.t2_aaaa Q.t2_abab Q.t2_abab),
    aug1 X.quadruples_res (ein4 L.nmfe L.bejm L.fcil L.adnk L.abcdijkl Q.g_abab_oaoavava Q.t2_abab Q.t2_abab Q.t2_abab),
    set1 X.contracted_intermediate (ein4 L.nmef L.ebjm L.fcik L.adnl L.abcdijkl Q.g_aaaa_oaoavava Q.t2_aaaa Q.t2_abab Q.t2_abab),
    .aug X.quadruples_res [.arg Q.contracted_intermediate, ein1 L.abcdijkl L.abcdjikl Q.contracted_intermediate],
    set1 X.contracted_intermediate (ein4 L.nmfe L.bejm L.fcik L.adnl L.abcdijkl Q.g_abab_oaoavava Q.t2_abab Q.t2_abab Q.t2_abab),
    .aug X.quadruples_res [.arg Q.contracted_intermediate, ein1 L.abcdijkl L.abcdjikl Q.contracted_intermediate],
    aug1 X.quadruples_res (ein4 L.mnef L.ebim L.fckl L.adjn L.abcdijkl Q.g_abab_oaoavava Q.t2_aaaa Q.t2_bbbb Q.t2_abab),
    aug1 X.quadruples_res (ein4 L.nmef L.beim L.fckl L.adjn L.abcdijkl Q.g_bbbb_oaoavava Q.t2_abab Q.t2_bbbb Q.t2_abab),
    aug1 X.quadruples_res (ein4 L.nmef L.ebim L.fcjl L.adnk L.abcdijkl Q.g_aaaa_oaoavava Q.t2_aaaa Q.t2_abab Q.t2_abab),
    aug1 X.quadruples_res (ein4 L.nmfe L.beim L.fcjl L.adnk L.abcdijkl Q.g_abab_oaoavava Q.t2_abab Q.t2_abab Q.t2_abab),
    aug1 X.quadruples_res (ein4 L.nmfe L.bejl L.fcik L.adnm L.abcdijkl Q.g_abab_oaoavava Q.t2_abab Q.t2_abab Q.t2_abab),
    aug1 X.quadruples_res (ein4 L.mnfe L.bejl L.fcik L.admn L.abcdijkl Q.g_abab_oaoavava Q.t2_abab Q.t2_abab Q.t2_abab),
    aug1 X.quadruples_res (ein4 L.mnfe L.bejl L.fcmk L.adin L.abcdijkl Q.g_abab_oaoavava Q.t2_abab Q.t2_abab Q.t2_abab),
    aug1 X.quadruples_res (ein4 L.nmef L.bejl L.fckm L.adin L.abcdijkl Q.g_bbbb_oaoavava Q.t2_abab Q.t2_bbbb Q.t2_abab),
    aug1 X.quadruples_res (ein4 L.nmfe L.bejl L.fcim L.adnk L.abcdijkl Q.g_abab_oaoavava Q.t2_abab Q.t2_abab Q.t2_abab),
    aug1 X.quadruples_res (ein4 L.mnfe L.beil L.fcmk L.adjn L.abcdijkl Q.g_abab_oaoavava Q.t2_abab Q.t2_abab Q.t2_abab),
    aug1 X.quadruples_res (ein4 L.nmef L.beil L.fckm L.adjn L.abcdijkl Q.g_bbbb_oaoavava Q.t2_abab Q.t2_bbbb Q.t2_abab),
    aug1 X.quadruples_res (ein4 L.nmfe L.beil L.fcjm L.adnk L.abcdijkl Q.g_abab_oaoavava Q.t2_abab Q.t2_abab Q.t2_abab),
    set1 X.contracted_intermediate (ein4 L.nmfe L.beil L.fcjk L.adnm L.abcdijkl Q.g_abab_oaoavava Q.t2_abab Q.t2_abab Q.t2_abab),
    .aug X.quadruples_res [.arg Q.contracted_intermediate, ein1 L.abcdijkl L.abcdijlk Q.contracted_intermediate],
    set1 X.contracted_intermediate (ein4 L.mnfe L.beil L.fcjk L.admn L.abcdijkl Q.g_abab_oaoavava Q.t2_abab Q.t2_abab Q.t2_abab),
    .aug X.quadruples_res [.arg Q.contracted_intermediate, ein1 L.abcdijkl L.abcdijlk Q.contracted_intermediate],
    aug1 X.quadruples_res (ein4 L.mnfe L.bejk L.fcml L.adin L.abcdijkl Q.g_abab_oaoavava Q.t2_abab Q.t2_abab Q.t2_abab),
    aug1 X.quadruples_res (ein4 L.nmef L.bejk L.fclm L.adin L.abcdijkl Q.g_bbbb_oaoavava Q.t2_abab Q.t2_bbbb Q.t2_abab),
    aug1 X.quadruples_res (ein4 L.nmfe L.bejk L.fcim L.adnl L.abcdijkl Q.g_abab_oaoavava Q.t2_abab Q.t2_abab Q.t2_abab),
    aug1 X.quadruples_res (ein4 L.nmfe L.bejk L.fcil L.adnm L.abcdijkl Q.g_abab_oaoavava Q.t2_abab Q.t2_abab Q.t2_abab),
    aug1 X.quadruples_res (ein4 L.mnfe L.bejk L.fcil L.admn L.abcdijkl Q.g_abab_oaoavava Q.t2_abab Q.t2_abab Q.t2_abab),
    aug1 X.quadruples_res (ein4 L.nmef L.ebji L.fckl L.adnm L.abcdijkl Q.g_abab_oaoavava Q.t2_aaaa Q.t2_bbbb Q.t2_abab),
    aug1 X.quadruples_res (ein4 L.mnef L.ebji L.fckl L.admn L.abcdijkl Q.g_abab_oaoavava Q.t2_aaaa Q.t2_bbbb Q.t2_abab),
    aug1 X.quadruples_res (ein4 L.mnfe L.beik L.fcml L.adjn L.abcdijkl Q.g_abab_oaoavava Q.t2_abab Q.t2_abab Q.t2_abab),
    aug1 X.quadruples_res (ein4 L.nmef L.beik L.fclm L.adjn L.abcdijkl Q.g_bbbb_oaoavava Q.t2_abab Q.t2_bbbb Q.t2_abab),
    aug1 X.quadruples_res (ein4 L.nmfe L.beik L.fcjm L.adnl L.abcdijkl Q.g_abab_oaoavava Q.t2_abab Q.t2_abab Q.t2_abab),
    set1 X.contracted_intermediate (ein4 L.nmef L.ebij L.fcml L.adnk L.abcdijkl Q.g_aaaa_oaoavava Q.t2_aaaa Q.t2_abab Q.t2_abab),
    .aug X.quadruples_res [.arg Q.contracted_intermediate, ein1 L.abcdijkl L.abcdijlk Q.contracted_intermediate],
    set1 X.contracted_intermediate (ein4 L.nmef L.ebij L.fclm L.adnk L.abcdijkl Q.g_abab_oaoavava Q.t2_aaaa Q.t2_bbbb Q.t2_abab),
    .aug X.quadruples_res [.arg Q.contracted_intermediate, ein1 L.abcdijkl L.abcdijlk Q.contracted_intermediate],
    set1 X.contracted_intermediate (ein4 L.nmef L.ecml L.fdjk L.abin L.abcdijkl Q.g_aaaa_oaoavava Q.t2_abab Q.t2_abab Q.t2_aaaa),
    .aug X.quadruples_res [.arg Q.contracted_intermediate, ein1 L.abcdijkl L.abcdjikl Q.contracted_intermediate],
    set1 X.contracted_intermediate (ein4 L.nmfe L.eclm L.fdjk L.abin L.abcdijkl Q.g_abab_oaoavava Q.t2_bbbb Q.t2_abab Q.t2_aaaa),
    .aug X.quadruples_res [.arg Q.contracted_intermediate, ein1 L.abcdijkl L.abcdjikl Q.contracted_intermediate],
    set1 X.contracted_intermediate (ein4 L.nmef L.ecmk L.fdjl L.abin L.abcdijkl Q.g_aaaa_oaoavava Q.t2_abab Q.t2_abab Q.t2_aaaa),
    .aug X.quadruples_res [.arg Q.contracted_intermediate, ein1 L.abcdijkl L.abcdjikl Q.contracted_intermediate],
    set1 X.contracted_intermediate (ein4 L.nmfe L.eckm L.fdjl L.abin L.abcdijkl Q.g_abab_oaoavava Q.t2_bbbb Q.t2_abab Q.t2_aaaa),
    .aug X.quadruples_res [.arg Q.contracted_intermediate, ein1 L.abcdijkl L.abcdjikl Q.contracted_intermediate],
    aug1 X.quadruples_res (ein4 L.nmef L.ecjm L.fdkl L.abin L.abcdijkl Q.g_abab_oaoavava Q.t2_abab Q.t2_bbbb Q.t2_aaaa),
    aug1 X.quadruples_res (ein4 L.nmef L.ecim L.fdkl L.abjn L.abcdijkl Q.g_abab_oaoavava Q.t2_abab Q.t2_bbbb Q.t2_aaaa),
    set1 X.contracted_intermediate (ein4 L.nmfe L.eckl L.fdjm L.abin L.abcdijkl Q.g_abab_oaoavava Q.t2_bbbb Q.t2_abab Q.t2_aaaa),
    .aug X.quadruples_res [.arg Q.contracted_intermediate, ein1 L.abcdijkl L.abcdjikl Q.contracted_intermediate],
    aug1 X.quadruples_res (ein4 L.nmef L.ecjl L.fdik L.abnm L.abcdijkl Q.g_aaaa_oaoavava Q.t2_abab Q.t2_abab Q.t2_aaaa),
    aug1 X.quadruples_res (ein4 L.nmef L.ecjl L.fdmk L.abin L.abcdijkl Q.g_aaaa_oaoavava Q.t2_abab Q.t2_abab Q.t2_aaaa),
    aug1 X.quadruples_res (ein4 L.nmef L.ecjl L.fdkm L.abin L.abcdijkl Q.g_abab_oaoavava Q.t2_abab Q.t2_bbbb Q.t2_aaaa),
    aug1 X.quadruples_res (ein4 L.nmef L.ecil L.fdmk L.abjn L.abcdijkl Q.g_aaaa_oaoavava Q.t2_abab Q.t2_abab Q.t2_aaaa),
    aug1 X.quadruples_res (ein4 L.nmef L.ecil L.fdkm L.abjn L.abcdijkl Q.g_abab_oaoavava Q.t2_abab Q.t2_bbbb Q.t2_aaaa),
    set1 X.contracted_intermediate (ein4 L.nmef L.ecil L.fdjk L.abnm L.abcdijkl Q.g_aaaa_oaoavava Q.t2_abab Q.t2_abab Q.t2_aaaa),
    .aug X.quadruples_res [.arg Q.contracted_intermediate, ein1 L.abcdijkl L.abcdijlk Q.contracted_intermediate],
    aug1 X.quadruples_res (ein4 L.nmef L.ecjk L.fdml L.abin L.abcdijkl Q.g_aaaa_oaoavava Q.t2_abab Q.t2_abab Q.t2_aaaa),
    aug1 X.quadruples_res (ein4 L.nmef L.ecjk L.fdlm L.abin L.abcdijkl Q.g_abab_oaoavava Q.t2_abab Q.t2_bbbb Q.t2_aaaa),
    aug1 X.quadruples_res (ein4 L.nmef L.ecjk L.fdil L.abnm L.abcdijkl Q.g_aaaa_oaoavava Q.t2_abab Q.t2_abab Q.t2_aaaa),
    aug1 X.quadruples_res (ein4 L.nmef L.ecik L.fdml L.abjn L.abcdijkl Q.g_aaaa_oaoavava Q.t2_abab Q.t2_abab Q.t2_aaaa),
    aug1 X.quadruples_res (ein4 L.nmef L.ecik L.fdlm L.abjn L.abcdijkl Q.g_abab_oaoavava Q.t2_abab Q.t2_bbbb Q.t2_aaaa)]
  ret := [Q.quadruples_res]

/-- `ccdq_resids.py` 4078-5600: `ccdq_t4_abbbabbb_residual`; 737 einsum calls. -/
def ccdq_resids_ccdq_t4_abbbabbb_residual : Fn where
  params := [X.f_bb, X.t4_abbbabbb, X.f_aa, X.g_bbbb, X.g_abab, X.t4_aabbaabb, X.g_aaaa, X.t4_bbbbbbbb, X.t2_abab, X.t2_bbbb, X.t2_aaaa]
  body := [
    set1 X.contracted_intermediate (ein2 L.ml L.abcdijkm L.abcdijkl Q.f_bb_oaoa Q.t4_abbbabbb_xxxxxxxx),
    .set X.quadruples_res [.arg Q.contracted_intermediate, ein1 L.abcdijkl L.abcdijlk Q.contracted_intermediate],
    aug1 X.quadruples_res (ein2 L.mj L.abcdiklm L.abcdijkl Q.f_bb_oaoa Q.t4_abbbabbb_xxxxxxxx),
    aug1 X.quadruples_res (ein2 L.mi L.abcdmklj L.abcdijkl Q.f_aa_oaoa Q.t4_abbbabbb_xxxxxxxx),
    aug1 X.quadruples_res (ein2 L.ae L.ebcdijkl L.abcdijkl Q.f_aa_vava Q.t4_abbbabbb_xxxxxxxx),
    aug1 X.quadruples_res (ein2 L.be L.aecdijkl L.abcdijkl Q.f_bb_vava Q.t4_abbbabbb_xxxxxxxx),
    set1 X.contracted_intermediate (ein2 L.ce L.aebdijkl L.abcdijkl Q.f_bb_vava Q.t4_abbbabbb_xxxxxxxx),
    .aug X.quadruples_res [.arg Q.contracted_intermediate, ein1 L.abcdijkl L.abdcijkl Q.contracted_intermediate],
    set1 X.contracted_intermediate (ein2 L.nmkl L.abcdijnm L.abcdijkl Q.g_bbbb_oaoaoaoa Q.t4_abbbabbb_xxxxxxxx),
    .aug X.quadruples_res [.arg Q.contracted_intermediate, ein1 L.abcdijkl L.abcdikjl Q.contracted_intermediate],
    set1 X.contracted_intermediate (ein2 L.nmil L.abcdnkjm L.abcdijkl Q.g_abab_oaoaoaoa Q.t4_abbbabbb_xxxxxxxx),
    .aug X.quadruples_res [.arg Q.contracted_intermediate, ein1 L.abcdijkl L.abcdijlk Q.contracted_intermediate],
    set1 X.contracted_intermediate (ein2 L.mnil L.abcdmknj L.abcdijkl Q.g_abab_oaoaoaoa Q.t4_abbbabbb_xxxxxxxx),
    .aug X.quadruples_res [.arg Q.contracted_intermediate, ein1 L.abcdijkl L.abcdijlk Q.contracted_intermediate],
    aug1 X.quadruples_res (ein2 L.nmjk L.abcdilnm L.abcdijkl Q.g_bbbb_oaoaoaoa Q.t4_abbbabbb_xxxxxxxx),
    aug1 X.quadruples_res (ein2 L.nmij L.abcdnlkm L.abcdijkl Q.g_abab_oaoaoaoa Q.t4_abbbabbb_xxxxxxxx),
    aug1 X.quadruples_res (ein2 L.mnij L.abcdmlnk L.abcdijkl Q.g_abab_oaoaoaoa Q.t4_abbbabbb_xxxxxxxx),
    set1 X.contracted_intermediate (ein2 L.amel L.ebcdijkm L.abcdijkl Q.g_abab_vaoavaoa Q.t4_abbbabbb_xxxxxxxx),
    .aug X.quadruples_res [.arg Q.contracted_intermediate, ein1 L.abcdijkl L.abcdijlk Q.contracted_intermediate],
    set1 X.contracted_intermediate (ein2 L.mbel L.eacdimkj L.abcdijkl Q.g_abab_oavavaoa Q.t4_aabbaabb_xxxxxxxx),
    .aug X.quadruples_res [.arg Q.contracted_intermediate, ein1 L.abcdijkl L.abcdijlk Q.contracted_intermediate],
    set1 X.contracted_intermediate (ein2 L.mbel L.aecdijkm L.abcdijkl Q.g_bbbb_oavavaoa Q.t4_abbbabbb_xxxxxxxx),
    .aug X.quadruples_res [.arg Q.contracted_intermediate, ein1 L.abcdijkl L.abcdijlk Q.contracted_intermediate],
    aug1 X.quadruples_res (ein2 L.amej L.ebcdiklm L.abcdijkl Q.g_abab_vaoavaoa Q.t4_abbbabbb_xxxxxxxx),
    aug1 X.quadruples_res (ein2 L.mbej L.eacdimlk L.abcdijkl Q.g_abab_oavavaoa Q.t4_aabbaabb_xxxxxxxx),
    aug1 X.quadruples_res (ein2 L.mbej L.aecdiklm L.abcdijkl Q.g_bbbb_oavavaoa Q.t4_abbbabbb_xxxxxxxx),
    aug1 X.quadruples_res (ein2 L.maei L.ebcdmklj L.abcdijkl Q.g_aaaa_oavavaoa Q.t4_abbbabbb_xxxxxxxx),
    aug1 X.quadruples_res (ein2 L.amie L.ebcdjklm L.abcdijkl Q.g_abab_vaoaoava Q.t4_bbbbbbbb_xxxxxxxx),
    aug1 X.quadruples_res (ein2 L.mbie L.aecdmklj L.abcdijkl Q.g_abab_oavaoava Q.t4_abbbabbb_xxxxxxxx),
    set1 X.contracted_intermediate (ein2 L.mcel L.eabdimkj L.abcdijkl Q.g_abab_oavavaoa Q.t4_aabbaabb_xxxxxxxx),
    .aug X.quadruples_res [.arg Q.contracted_intermediate, ein1 L.abcdijkl L.abcdijlk Q.contracted_intermediate, ein1 L.abcdijkl L.abdcijkl Q.contracted_intermediate, ein1 L.abcdijkl L.abdcijlk Q.contracted_intermediate],
    set1 X.contracted_intermediate (ein2 L.mcel L.aebdijkm L.abcdijkl Q.g_bbbb_oavavaoa Q.t4_abbbabbb_xxxxxxxx),
    .aug X.quadruples_res [.arg Q.contracted_intermediate, ein1 L.abcdijkl L.abcdijlk Q.contracted_intermediate, ein1 L.abcdijkl L.abdcijkl Q.contracted_intermediate, ein1 L.abcdijkl L.abdcijlk Q.contracted_intermediate],
    set1 X.contracted_intermediate (ein2 L.mcej L.eabdimlk L.abcdijkl Q.g_abab_oavavaoa Q.t4_aabbaabb_xxxxxxxx),
    .aug X.quadruples_res [.arg Q.contracted_intermediate, ein1 L.abcdijkl L.abdcijkl Q.contracted_intermediate],
    set1 X.contracted_intermediate (ein2 L.mcej L.aebdiklm L.abcdijkl Q.g_bbbb_oavavaoa Q.t4_abbbabbb_xxxxxxxx),
    .aug X.quadruples_res [.arg Q.contracted_intermediate, ein1 L.abcdijkl L.abdcijkl Q.contracted_intermediate],
    set1 X.contracted_intermediate (ein2 L.mcie L.aebdmklj L.abcdijkl Q.g_abab_oavaoava Q.t4_abbbabbb_xxxxxxxx),
    .aug X.quadruples_res [.arg Q.contracted_intermediate, ein1 L.abcdijkl L.abdcijkl Q.contracted_intermediate],
    set1 X.contracted_intermediate (ein2 L.abef L.efcdijkl L.abcdijkl Q.g_abab_vavavava Q.t4_abbbabbb_xxxxxxxx),
    .aug X.quadruples_res [.arg Q.contracted_intermediate, ein1 L.abcdijkl L.acbdijkl Q.contracted_intermediate],
    set1 X.contracted_intermediate (ein2 L.abfe L.fecdijkl L.abcdijkl Q.g_abab_vavavava Q.t4_abbbabbb_xxxxxxxx),
    .aug X.quadruples_res [.arg Q.contracted_intermediate, ein1 L.abcdijkl L.acbdijkl Q.contracted_intermediate],
    aug1 X.quadruples_res (ein2 L.adef L.efbcijkl L.abcdijkl Q.g_abab_vavavava Q.t4_abbbabbb_xxxxxxxx),
    aug1 X.quadruples_res (ein2 L.adfe L.febcijkl L.abcdijkl Q.g_abab_vavavava Q.t4_abbbabbb_xxxxxxxx),
    aug1 X.quadruples_res (ein2 L.bdef L.afecijkl L.abcdijkl Q.g_bbbb_vavavava Q.t4_abbbabbb_xxxxxxxx),
    set1 X.contracted_intermediate (ein2 L.bcef L.afedijkl L.abcdijkl Q.g_bbbb_vavavava Q.t4_abbbabbb_xxxxxxxx),
    .aug X.quadruples_res [.arg Q.contracted_intermediate, ein1 L.abcdijkl L.adcbijkl Q.contracted_intermediate],
    set1 X.contracted_intermediate (ein3 L.mnef L.efml L.abcdijkn L.abcdijkl Q.g_abab_oaoavava Q.t2_abab Q.t4_abbbabbb_xxxxxxxx),
    .aug X.quadruples_res [.arg Q.contracted_intermediate, ein1 L.abcdijkl L.abcdijlk Q.contracted_intermediate],
    set1 X.contracted_intermediate (ein3 L.mnfe L.feml L.abcdijkn L.abcdijkl Q.g_abab_oaoavava Q.t2_abab Q.t4_abbbabbb_xxxxxxxx),
    .aug X.quadruples_res [.arg Q.contracted_intermediate, ein1 L.abcdijkl L.abcdijlk Q.contracted_intermediate],
    set1 X.contracted_intermediate (ein3 L.nmef L.eflm L.abcdijkn L.abcdijkl Q.g_bbbb_oaoavava Q.t2_bbbb Q.t4_abbbabbb_xxxxxxxx),
    .aug X.quadruples_res [.arg Q.contracted_intermediate, ein1 L.abcdijkl L.abcdijlk Q.contracted_intermediate],
    aug1 X.quadruples_res (ein3 L.mnef L.efmj L.abcdikln L.abcdijkl Q.g_abab_oaoavava Q.t2_abab Q.t4_abbbabbb_xxxxxxxx),
    aug1 X.quadruples_res (ein3 L.mnfe L.femj L.abcdikln L.abcdijkl Q.g_abab_oaoavava Q.t2_abab Q.t4_abbbabbb_xxxxxxxx),
    aug1 X.quadruples_res (ein3 L.nmef L.efjm L.abcdikln L.abcdijkl Q.g_bbbb_oaoavava Q.t2_bbbb Q.t4_abbbabbb_xxxxxxxx),
    aug1 X.quadruples_res (ein3 L.nmef L.efim L.abcdnklj L.abcdijkl Q.g_aaaa_oaoavava Q.t2_aaaa Q.t4_abbbabbb_xxxxxxxx),
    aug1 X.quadruples_res (ein3 L.nmef L.efim L.abcdnklj L.abcdijkl Q.g_abab_oaoavava Q.t2_abab Q.t4_abbbabbb_xxxxxxxx),
    aug1 X.quadruples_res (ein3 L.nmfe L.feim L.abcdnklj L.abcdijkl Q.g_abab_oaoavava Q.t2_abab Q.t4_abbbabbb_xxxxxxxx),
    set1 X.contracted_intermediate (ein3 L.nmef L.efkl L.abcdijnm L.abcdijkl Q.g_bbbb_oaoavava Q.t2_bbbb Q.t4_abbbabbb_xxxxxxxx),
    .aug X.quadruples_res [.arg Q.contracted_intermediate, ein1 L.abcdijkl L.abcdikjl Q.contracted_intermediate],
    set1 X.contracted_intermediate (ein3 L.nmef L.efil L.abcdnkjm L.abcdijkl Q.g_abab_oaoavava Q.t2_abab Q.t4_abbbabbb_xxxxxxxx),
    .aug X.quadruples_res [.arg Q.contracted_intermediate, ein1 L.abcdijkl L.abcdijlk Q.contracted_intermediate],
    set1 X.contracted_intermediate (ein3 L.mnef L.efil L.abcdmknj L.abcdijkl Q.g_abab_oaoavava Q.t2_abab Q.t4_abbbabbb_xxxxxxxx),
    .aug X.quadruples_res [.arg Q.contracted_intermediate, ein1 L.abcdijkl L.abcdijlk Q.contracted_intermediate],
    set1 X.contracted_intermediate (ein3 L.nmfe L.feil L.abcdnkjm L.abcdijkl Q.g_abab_oaoavava Q.t2_abab Q.t4_abbbabbb_xxxxxxxx),
    .aug X.quadruples_res [.arg Q.contracted_intermediate, ein1 L.abcdijkl L.abcdijlk Q.contracted_intermediate],
    set1 X.contracted_intermediate (ein3 L.mnfe L.feil L.abcdmknj L.abcdijkl Q.g_abab_oaoavava Q.t2_abab Q.t4_abbbabbb_xxxxxxxx),
    .aug X.quadruples_res [.arg Q.contracted_intermediate, ein1 L.abcdijkl L.abcdijlk Q.contracted_intermediate],
    aug1 X.quadruples_res (ein3 L.nmef L.efjk L.abcdilnm L.abcdijkl Q.g_bbbb_oaoavava Q.t2_bbbb Q.t4_abbbabbb_xxxxxxxx),
    aug1 X.quadruples_res (ein3 L.nmef L.efij L.abcdnlkm L.abcdijkl Q.g_abab_oaoavava Q.t2_abab Q.t4_abbbabbb_xxxxxxxx),
    aug1 X.quadruples_res (ein3 L.mnef L.efij L.abcdmlnk L.abcdijkl Q.g_abab_oaoavava Q.t2_abab Q.t4_abbbabbb_xxxxxxxx),
    aug1 X.quadruples_res (ein3 L.nmfe L.feij L.abcdnlkm L.abcdijkl Q.g_abab_oaoavava Q.t2_abab Q.t4_abbbabbb_xxxxxxxx),
    aug1 X.quadruples_res (ein3 L.mnfe L.feij L.abcdmlnk L.abcdijkl Q.g_abab_oaoavava Q.t2_abab Q.t4_abbbabbb_xxxxxxxx),
    aug1 X.quadruples_res (ein3 L.nmef L.eanm L.fbcdijkl L.abcdijkl Q.g_aaaa_oaoavava Q.t2_aaaa Q.t4_abbbabbb_xxxxxxxx),
    aug1 X.quadruples_res (ein3 L.nmfe L.aenm L.fbcdijkl L.abcdijkl Q.g_abab_oaoavava Q.t2_abab Q.t4_abbbabbb_xxxxxxxx),
    aug1 X.quadruples_res (ein3 L.mnfe L.aemn L.fbcdijkl L.abcdijkl Q.g_abab_oaoavava Q.t2_abab Q.t4_abbbabbb_xxxxxxxx),
    aug1 X.quadruples_res (ein3 L.nmef L.ebnm L.afcdijkl L.abcdijkl Q.g_abab_oaoavava Q.t2_abab Q.t4_abbbabbb_xxxxxxxx),
    aug1 X.quadruples_res (ein3 L.mnef L.ebmn L.afcdijkl L.abcdijkl Q.g_abab_oaoavava Q.t2_abab Q.t4_abbbabbb_xxxxxxxx),
    aug1 X.quadruples_res (ein3 L.nmef L.ebnm L.afcdijkl L.abcdijkl Q.g_bbbb_oaoavava Q.t2_bbbb Q.t4_abbbabbb_xxxxxxxx),
    set1 X.contracted_intermediate (ein3 L.mnfe L.aeml L.fbcdijkn L.abcdijkl Q.g_abab_oaoavava Q.t2_abab Q.t4_abbbabbb_xxxxxxxx),
    .aug X.quadruples_res [.arg Q.contracted_intermediate, ein1 L.abcdijkl L.abcdijlk Q.contracted_intermediate],
    set1 X.contracted_intermediate (ein3 L.nmef L.ebml L.facdinkj L.abcdijkl Q.g_aaaa_oaoavava Q.t2_abab Q.t4_aabbaabb_xxxxxxxx),
    .aug X.quadruples_res [.arg Q.contracted_intermediate, ein1 L.abcdijkl L.abcdijlk Q.contracted_intermediate],
    set1 X.contracted_intermediate (ein3 L.mnef L.ebml L.afcdijkn L.abcdijkl Q.g_abab_oaoavava Q.t2_abab Q.t4_abbbabbb_xxxxxxxx),
    .aug X.quadruples_res [.arg Q.contracted_intermediate, ein1 L.abcdijkl L.abcdijlk Q.contracted_intermediate],
    set1 X.contracted_intermediate (ein3 L.nmfe L.eblm L.facdinkj L.abcdijkl Q.g_abab_oaoavava Q.t2_bbbb Q.t4_aabbaabb_xxxxxxxx),
    .aug X.quadruples_res [.arg Q.contracted_intermediate, ein1 L.abcdijkl L.abcdijlk Q.contracted_intermediate],
    set1 X.contracted_intermediate (ein3 L.nmef L.eblm L.afcdijkn L.abcdijkl Q.g_bbbb_oaoavava Q.t2_bbbb Q.t4_abbbabbb_xxxxxxxx),
    .aug X.quadruples_res [.arg Q.contracted_intermediate, ein1 L.abcdijkl L.abcdijlk Q.contracted_intermediate],
    aug1 X.quadruples_res (ein3 L.mnfe L.aemj L.fbcdikln L.abcdijkl Q.g_abab_oaoavava Q.t2_abab Q.t4_abbbabbb_xxxxxxxx),
    aug1 X.quadruples_res (ein3 L.nmef L.ebmj L.facdinlk L.abcdijkl Q.g_aaaa_oaoavava Q.t2_abab Q.t4_aabbaabb_xxxxxxxx),
    aug1 X.quadruples_res (ein3 L.mnef L.ebmj L.afcdikln L.abcdijkl Q.g_abab_oaoavava Q.t2_abab Q.t4_abbbabbb_xxxxxxxx),
    aug1 X.quadruples_res (ein3 L.nmfe L.ebjm L.facdinlk L.abcdijkl Q.g_abab_oaoavava Q.t2_bbbb Q.t4_aabbaabb_xxxxxxxx),
    aug1 X.quadruples_res (ein3 L.nmef L.ebjm L.afcdikln L.abcdijkl Q.g_bbbb_oaoavava Q.t2_bbbb Q.t4_abbbabbb_xxxxxxxx),
    aug1 X.quadruples_res (ein3 L.nmef L.eaim L.fbcdnklj L.abcdijkl Q.g_aaaa_oaoavava Q.t2_aaaa Q.t4_abbbabbb_xxxxxxxx),
    aug1 X.quadruples_res (ein3 L.mnef L.eaim L.fbcdjkln L.abcdijkl Q.g_abab_oaoavava Q.t2_aaaa Q.t4_bbbbbbbb_xxxxxxxx),
    aug1 X.quadruples_res (ein3 L.nmfe L.aeim L.fbcdnklj L.abcdijkl Q.g_abab_oaoavava Q.t2_abab Q.t4_abbbabbb_xxxxxxxx),
    aug1 X.quadruples_res (ein3 L.nmef L.aeim L.fbcdjkln L.abcdijkl Q.g_bbbb_oaoavava Q.t2_abab Q.t4_bbbbbbbb_xxxxxxxx),
    aug1 X.quadruples_res (ein3 L.nmef L.ebim L.afcdnklj L.abcdijkl Q.g_abab_oaoavava Q.t2_abab Q.t4_abbbabbb_xxxxxxxx),
    set1 X.contracted_intermediate (ein3 L.nmfe L.ebkl L.facdinjm L.abcdijkl Q.g_abab_oaoavava Q.t2_bbbb Q.t4_aabbaabb_xxxxxxxx),
    .aug X.quadruples_res [.arg Q.contracted_intermediate, ein1 L.abcdijkl L.abcdikjl Q.contracted_intermediate],
    set1 X.contracted_intermediate (ein3 L.mnfe L.ebkl L.facdimnj L.abcdijkl Q.g_abab_oaoavava Q.t2_bbbb Q.t4_aabbaabb_xxxxxxxx),
    .aug X.quadruples_res [.arg Q.contracted_intermediate, ein1 L.abcdijkl L.abcdikjl Q.contracted_intermediate],
    set1 X.contracted_intermediate (ein3 L.nmef L.ebkl L.afcdijnm L.abcdijkl Q.g_bbbb_oaoavava Q.t2_bbbb Q.t4_abbbabbb_xxxxxxxx),
    .aug X.quadruples_res [.arg Q.contracted_intermediate, ein1 L.abcdijkl L.abcdikjl Q.contracted_intermediate],
    set1 X.contracted_intermediate (ein3 L.nmfe L.aeil L.fbcdnkjm L.abcdijkl Q.g_abab_oaoavava Q.t2_abab Q.t4_abbbabbb_xxxxxxxx),
    .aug X.quadruples_res [.arg Q.contracted_intermediate, ein1 L.abcdijkl L.abcdijlk Q.contracted_intermediate],
    set1 X.contracted_intermediate (ein3 L.mnfe L.aeil L.fbcdmknj L.abcdijkl Q.g_abab_oaoavava Q.t2_abab Q.t4_abbbabbb_xxxxxxxx),
    .aug X.quadruples_res [.arg Q.contracted_intermediate, ein1 L.abcdijkl L.abcdijlk Q.contracted_intermediate],
    set1 X.contracted_intermediate (ein3 L.nmef L.aeil L.fbcdjknm L.abcdijkl Q.g_bbbb_oaoavava Q.t2_abab Q.t4_bbbbbbbb_xxxxxxxx),
    .aug X.quadruples_res [.arg Q.contracted_intermediate, ein1 L.abcdijkl L.abcdijlk Q.contracted_intermediate],
    set1 X.contracted_intermediate (ein3 L.nmef L.ebil L.facdnmjk L.abcdijkl Q.g_aaaa_oaoavava Q.t2_abab Q.t4_aabbaabb_xxxxxxxx),
    .aug X.quadruples_res [.arg Q.contracted_intermediate, ein1 L.abcdijkl L.abcdijlk Q.contracted_intermediate],
    set1 X.contracted_intermediate (ein3 L.nmef L.ebil L.afcdnkjm L.abcdijkl Q.g_abab_oaoavava Q.t2_abab Q.t4_abbbabbb_xxxxxxxx),
    .aug X.quadruples_res [.arg Q.contracted_intermediate, ein1 L.abcdijkl L.abcdijlk Q.contracted_intermediate],
    set1 X.contracted_intermediate (ein3 L.mnef L.ebil L.afcdmknj L.abcdijkl Q.g_abab_oaoavava Q.t2_abab Q.t4_abbbabbb_xxxxxxxx),
    .aug X.quadruples_res [.arg Q.contracted_intermediate, ein1 L.abcdijkl L.abcdijlk Q.contracted_intermediate],
    aug1 X.quadruples_res (ein3 L.nmfe L.ebjk L.facdinlm L.abcdijkl Q.g_abab_oaoavava Q.t2_bbbb Q.t4_aabbaabb_xxxxxxxx),
    aug1 X.quadruples_res (ein3 L.mnfe L.ebjk L.facdimnl L.abcdijkl Q.g_abab_oaoavava Q.t2_bbbb Q.t4_aabbaabb_xxxxxxxx),
    aug1 X.quadruples_res (ein3 L.nmef L.ebjk L.afcdilnm L.abcdijkl Q.g_bbbb_oaoavava Q.t2_bbbb Q.t4_abbbabbb_xxxxxxxx),
    aug1 X.quadruples_res (ein3 L.nmfe L.aeij L.fbcdnlkm L.abcdijkl Q.g_abab_oaoavava Q.t2_abab Q.t4_abbbabbb_xxxxxxxx),
    aug1 X.quadruples_res (ein3 L.mnfe L.aeij L.fbcdmlnk L.abcdijkl Q.g_abab_oaoavava Q.t2_abab Q.t4_abbbabbb_xxxxxxxx),
    aug1 X.quadruples_res (ein3 L.nmef L.aeij L.fbcdklnm L.abcdijkl Q.g_bbbb_oaoavava Q.t2_abab Q.t4_bbbbbbbb_xxxxxxxx),
    aug1 X.quadruples_res (ein3 L.nmef L.ebij L.facdnmkl L.abcdijkl Q.g_aaaa_oaoavava Q.t2_abab Q.t4_aabbaabb_xxxxxxxx),
    aug1 X.quadruples_res (ein3 L.nmef L.ebij L.afcdnlkm L.abcdijkl Q.g_abab_oaoavava Q.t2_abab Q.t4_abbbabbb_xxxxxxxx),
    aug1 X.quadruples_res (ein3 L.mnef L.ebij L.afcdmlnk L.abcdijkl Q.g_abab_oaoavava Q.t2_abab Q.t4_abbbabbb_xxxxxxxx),
    set1 X.contracted_intermediate (ein3 L.nmef L.ecnm L.afbdijkl L.abcdijkl Q.g_abab_oaoavava Q.t2_abab Q.t4_abbbabbb_xxxxxxxx),
    .aug X.quadruples_res [.arg Q.contracted_intermediate, ein1 L.abcdijkl L.abdcijkl Q.contracted_intermediate],
    set1 X.contracted_intermediate (ein3 L.mnef L.ecmn L.afbdijkl L.abcdijkl Q.g_abab_oaoavava Q.t2_abab Q.t4_abbbabbb_xxxxxxxx),
    .aug X.quadruples_res [.arg Q.contracted_intermediate, ein1 L.abcdijkl L.abdcijkl Q.contracted_intermediate],
    set1 X.contracted_intermediate (ein3 L.nmef L.ecnm L.afbdijkl L.abcdijkl Q.g_bbbb_oaoavava Q.t2_bbbb Q.t4_abbbabbb_xxxxxxxx),
    .aug X.quadruples_res [.arg Q.contracted_intermediate, ein1 L.abcdijkl L.abdcijkl Q.contracted_intermediate],
    set1 X.contracted_intermediate (ein3 L.nmef L.ecml L.fabdinkj L.abcdijkl Q.g_aaaa_oaoavava Q.t2_abab Q.t4_aabbaabb_xxxxxxxx),
    .aug X.quadruples_res [.arg Q.contracted_intermediate, ein1 L.abcdijkl L.abcdijlk Q.contracted_intermediate, ein1 L.abcdijkl L.abdcijkl Q.contracted_intermediate, ein1 L.abcdijkl L.abdcijlk Q.contracted_intermediate],
    set1 X.contracted_intermediate (ein3 L.mnef L.ecml L.afbdijkn L.abcdijkl Q.g_abab_oaoavava Q.t2_abab Q.t4_abbbabbb_xxxxxxxx),
    .aug X.quadruples_res [.arg Q.contracted_intermediate, ein1 L.abcdijkl L.abcdijlk Q.contracted_intermediate, ein1 L.abcdijkl L.abdcijkl Q.contracted_intermediate, ein1 L.abcdijkl L.abdcijlk Q.contracted_intermediate],
    set1 X.contracted_intermediate (ein3 L.nmfe L.eclm L.fabdinkj L.abcdijkl Q.g_abab_oaoavava Q.t2_bbbb Q.t4_aabbaabb_xxxxxxxx),
    .aug X.quadruples_res [.arg Q.contracted_intermediate, ein1 L.abcdijkl L.abcdijlk Q.contracted_intermediate, ein1 L.abcdijkl L.abdcijkl Q.contracted_intermediate, ein1 L.abcdijkl L.abdcijlk Q.contracted_intermediate],
    set1 X.contracted_intermediate (ein3 L.nmef L.eclm L.afbdijkn L.abcdijkl Q.g_bbbb_oaoavava Q.t2_bbbb Q.t4_abbbabbb_xxxxxxxx),
    .aug X.quadruples_res [.arg Q.contracted_intermediate, ein1 L.abcdijkl L.abcdijlk Q.contracted_intermediate, ein1 L.abcdijkl L.abdcijkl Q.contracted_intermediate, ein1 L.abcdijkl L.abdcijlk Q.contracted_intermediate],
    set1 X.contracted_intermediate (ein3 L.nmef L.ecmj L.fabdinlk L.abcdijkl Q.g_aaaa_oaoavava Q.t2_abab Q.t4_aabbaabb_xxxxxxxx),
    .aug X.quadruples_res [.arg Q.contracted_intermediate, ein1 L.abcdijkl L.abdcijkl Q.contracted_intermediate],
    set1 X.contracted_intermediate (ein3 L.mnef L.ecmj L.afbdikln L.abcdijkl Q.g_abab_oaoavava Q.t2_abab Q.t4_abbbabbb_xxxxxxxx),
    .aug X.quadruples_res [.arg Q.contracted_intermediate, ein1 L.abcdijkl L.abdcijkl Q.contracted_intermediate],
    set1 X.contracted_intermediate (ein3 L.nmfe L.ecjm L.fabdinlk L.abcdijkl Q.g_abab_oaoavava Q.t2_bbbb Q.t4_aabbaabb_xxxxxxxx),
    .aug X.quadruples_res [.arg Q.contracted_intermediate, ein1 L.abcdijkl L.abdcijkl Q.contracted_intermediate],
    set1 X.contracted_intermediate (ein3 L.nmef L.ecjm L.afbdikln L.abcdijkl Q.g_bbbb_oaoavava Q.t2_bbbb Q.t4_abbbabbb_xxxxxxxx),
    .aug X.quadruples_res [.arg Q.contracted_intermediate, ein1 L.abcdijkl L.abdcijkl Q.contracted_intermediate],
    set1 X.contracted_intermediate (ein3 L.nmef L.ecim L.afbdnklj L.abcdijkl Q.g_abab_oaoavava Q.t2_abab Q.t4_abbbabbb_xxxxxxxx),
    .aug X.quadruples_res [.arg Q.contracted_intermediate, ein1 L.abcdijkl L.abdcijkl Q.contracted_intermediate],
    set1 X.contracted_intermediate (ein3 L.nmfe L.eckl L.fabdinjm L.abcdijkl Q.g_abab_oaoavava Q.t2_bbbb Q.t4_aabbaabb_xxxxxxxx),
    .aug X.quadruples_res [.arg Q.contracted_intermediate, ein1 L.abcdijkl L.abcdikjl Q.contracted_intermediate, ein1 L.abcdijkl L.abdcijkl Q.contracted_intermediate, ein1 L.abcdijkl L.abdcikjl Q.contracted_intermediate],
    set1 X.contracted_intermediate (ein3 L.mnfe L.eckl L.fabdimnj L.abcdijkl Q.g_abab_oaoavava Q.t2_bbbb Q.t4_aabbaabb_xxxxxxxx),
    .aug X.quadruples_res [.arg Q.contracted_intermediate, ein1 L.abcdijkl L.abcdikjl Q.contracted_intermediate, ein1 L.abcdijkl L.abdcijkl Q.contracted_intermediate, ein1 L.abcdijkl L.abdcikjl Q.contracted_intermediate],
    set1 X.contracted_intermediate (ein3 L.nmef L.eckl L.afbdijnm L.abcdijkl Q.g_bbbb_oaoavava Q.t2_bbbb Q.t4_abbbabbb_xxxxxxxx),
    .aug X.quadruples_res [.arg Q.contracted_intermediate, ein1 L.abcdijkl L.abcdikjl Q.contracted_intermediate, ein1 L.abcdijkl L.abdcijkl Q.contracted_intermediate, ein1 L.abcdijkl L.abdcikjl Q.contracted_intermediate],
    set1 X.contracted_intermediate (ein3 L.nmef L.ecil L.fabdnmjk L.abcdijkl Q.g_aaaa_oaoavava Q.t2_abab Q.t4_aabbaabb_xxxxxxxx),
    .aug X.quadruples_res [.arg Q.contracted_intermediate, ein1 L.abcdijkl L.abcdijlk Q.contracted_intermediate, ein1 L.abcdijkl L.abdcijkl Q.contracted_intermediate, ein1 L.abcdijkl L.abdcijlk Q.contracted_intermediate],
    set1 X.contracted_intermediate (ein3 L.nmef L.ecil L.afbdnkjm L.abcdijkl Q.g_abab_oaoavava Q.t2_abab Q.t4_abbbabbb_xxxxxxxx),
    .aug X.quadruples_res [.arg Q.contracted_intermediate, ein1 L.abcdijkl L.abcdijlk Q.contracted_intermediate, ein1 L.abcdijkl L.abdcijkl Q.contracted_intermediate, ein1 L.abcdijkl L.abdcijlk Q.contracted_intermediate],
    set1 X.contracted_intermediate (ein3 L.mnef L.ecil L.afbdmknj L.abcdijkl Q.g_abab_oaoavava Q.t2_abab Q.t4_abbbabbb_xxxxxxxx),
    .aug X.quadruples_res [.arg Q.contracted_intermediate, ein1 L.abcdijkl L.abcdijlk Q.contracted_intermediate, ein1 L.abcdijkl L.abdcijkl Q.contracted_intermediate, ein1 L.abcdijkl L.abdcijlk Q.contracted_intermediate],
    set1 X.contracted_intermediate (ein3 L.nmfe L.ecjk L.fabdinlm L.abcdijkl Q.g_abab_oaoavava Q.t2_bbbb Q.t4_aabbaabb_xxxxxxxx),
    .aug X.quadruples_res [.arg Q.contracted_intermediate, ein1 L.abcdijkl L.abdcijkl Q.contracted_intermediate],
    set1 X.contracted_intermediate (ein3 L.mnfe L.ecjk L.fabdimnl L.abcdijkl Q.g_abab_oaoavava Q.t2_bbbb Q.t4_aabbaabb_xxxxxxxx),
    .aug X.quadruples_res [.arg Q.contracted_intermediate, ein1 L.abcdijkl L.abdcijkl Q.contracted_intermediate],
    set1 X.contracted_intermediate (ein3 L.nmef L.ecjk L.afbdilnm L.abcdijkl Q.g_bbbb_oaoavava Q.t2_bbbb Q.t4_abbbabbb_xxxxxxxx),
    .aug X.quadruples_res [.arg Q.contracted_intermediate, ein1 L.abcdijkl L.abdcijkl Q.contracted_intermediate],
    set1 X.contracted_intermediate (ein3 L.nmef L.ecij L.fabdnmkl L.abcdijkl Q.g_aaaa_oaoavava Q.t2_abab Q.t4_aabbaabb_xxxxxxxx),
    .aug X.quadruples_res [.arg Q.contracted_intermediate, ein1 L.abcdijkl L.abdcijkl Q.contracted_intermediate],
    set1 X.contracted_intermediate (ein3 L.nmef L.ecij L.afbdnlkm L.abcdijkl Q.g_abab_oaoavava Q.t2_abab Q.t4_abbbabbb_xxxxxxxx),
    .aug X.quadruples_res [.arg Q.contracted_intermediate, ein1 L.abcdijkl L.abdcijkl Q.contracted_intermediate],
    set1 X.contracted_intermediate (ein3 L.mnef L.ecij L.afbdmlnk L.abcdijkl Q.g_abab_oaoavava Q.t2_abab Q.t4_abbbabbb_xxxxxxxx),
    .aug X.quadruples_res [.arg Q.contracted_intermediate, ein1 L.abcdijkl L.abdcijkl Q.contracted_intermediate],
    set1 X.contracted_intermediate (ein3 L.nmef L.abnm L.efcdijkl L.abcdijkl Q.g_abab_oaoavava Q.t2_abab Q.t4_abbbabbb_xxxxxxxx),
    .aug X.quadruples_res [.arg Q.contracted_intermediate, ein1 L.abcdijkl L.acbdijkl Q.contracted_intermediate],
    set1 X.contracted_intermediate (ein3 L.nmfe L.abnm L.fecdijkl L.abcdijkl Q.g_abab_oaoavava Q.t2_abab Q.t4_abbbabbb_xxxxxxxx),
    .aug X.quadruples_res [.arg Q.contracted_intermediate, ein1 L.abcdijkl L.acbdijkl Q.contracted_intermediate],
    set1 X.contracted_intermediate (ein3 L.mnef L.abmn L.efcdijkl L.abcdijkl Q.g_abab_oaoavava Q.t2_abab Q.t4_abbbabbb_xxxxxxxx),
    .aug X.quadruples_res [.arg Q.contracted_intermediate, ein1 L.abcdijkl L.acbdijkl Q.contracted_intermediate],
    set1 X.contracted_intermediate (ein3 L.mnfe L.abmn L.fecdijkl L.abcdijkl Q.g_abab_oaoavava Q.t2_abab Q.t4_abbbabbb_xxxxxxxx),
    .aug X.quadruples_res [.arg Q.contracted_intermediate, ein1 L.abcdijkl L.acbdijkl Q.contracted_intermediate],
    set1 X.contracted_intermediate (ein3 L.nmef L.abml L.efcdinkj L.abcdijkl Q.g_aaaa_oaoavava Q.t2_abab Q.t4_aabbaabb_xxxxxxxx),
    .aug X.quadruples_res [.arg Q.contracted_intermediate, ein1 L.abcdijkl L.abcdijlk Q.contracted_intermediate, ein1 L.abcdijkl L.acbdijkl Q.contracted_intermediate, ein1 L.abcdijkl L.acbdijlk Q.contracted_intermediate],
    set1 X.contracted_intermediate (ein3 L.mnef L.abml L.efcdijkn L.abcdijkl Q.g_abab_oaoavava Q.t2_abab Q.t4_abbbabbb_xxxxxxxx),
    .aug X.quadruples_res [.arg Q.contracted_intermediate, ein1 L.abcdijkl L.abcdijlk Q.contracted_intermediate, ein1 L.abcdijkl L.acbdijkl Q.contracted_intermediate, ein1 L.abcdijkl L.acbdijlk Q.contracted_intermediate],
    set1 X.contracted_intermediate (ein3 L.mnfe L.abml L.fecdijkn L.abcdijkl Q.g_abab_oaoavava Q.t2_abab Q.t4_abbbabbb_xxxxxxxx),
    .aug X.quadruples_res [.arg Q.contracted_intermediate, ein1 L.abcdijkl L.abcdijlk Q.contracted_intermediate, ein1 L.abcdijkl L.acbdijkl Q.contracted_intermediate, ein1 L.abcdijkl L.acbdijlk Q.contracted_intermediate],
    set1 X.contracted_intermediate (ein3 L.nmef L.abmj L.efcdinlk L.abcdijkl Q.g_aaaa_oaoavava Q.t2_abab Q.t4_aabbaabb_xxxxxxxx),
    .aug X.quadruples_res [.arg Q.contracted_intermediate, ein1 L.abcdijkl L.acbdijkl Q.contracted_intermediate],
    set1 X.contracted_intermediate (ein3 L.mnef L.abmj L.efcdikln L.abcdijkl Q.g_abab_oaoavava Q.t2_abab Q.t4_abbbabbb_xxxxxxxx),
    .aug X.quadruples_res [.arg Q.contracted_intermediate, ein1 L.abcdijkl L.acbdijkl Q.contracted_intermediate],
    set1 X.contracted_intermediate (ein3 L.mnfe L.abmj L.fecdikln L.abcdijkl Q.g_abab_oaoavava Q.t2_abab Q.t4_abbbabbb_xxxxxxxx),
    .aug X.quadruples_res [.arg Q.contracted_intermediate, ein1 L.abcdijkl L.acbdijkl Q.contracted_intermediate],
    set1 X.contracted_intermediate (ein3 L.nmef L.abim L.efcdnklj L.abcdijkl Q.g_abab_oaoavava Q.t2_abab Q.t4_abbbabbb_xxxxxxxx),
    .aug X.quadruples_res [.arg Q.contracted_intermediate, ein1 L.abcdijkl L.acbdijkl Q.contracted_intermediate],
    set1 X.contracted_intermediate (ein3 L.nmfe L.abim L.fecdnklj L.abcdijkl Q.g_abab_oaoavava Q.t2_abab Q.t4_abbbabbb_xxxxxxxx),
    .aug X.quadruples_res [.arg Q.contracted_intermediate, ein1 L.abcdijkl L.acbdijkl Q.contracted_intermediate],
    set1 X.contracted_intermediate (ein3 L.nmef L.abim L.efcdjkln L.abcdijkl Q.g_bbbb_oaoavava Q.t2_abab Q.t4_bbbbbbbb_xxxxxxxx),
    .aug X.quadruples_res [.arg Q.contracted_intermediate, ein1 L.abcdijkl L.acbdijkl Q.contracted_intermediate],
    aug1 X.quadruples_res (ein3 L.nmef L.adnm L.efbcijkl L.abcdijkl Q.g_abab_oaoavava Q.t2_abab Q.t4_abbbabbb_xxxxxxxx),
    aug1 X.quadruples_res (ein3 L.nmfe L.adnm L.febcijkl L.abcdijkl Q.g_abab_oaoavava Q.t2_abab Q.t4_abbbabbb_xxxxxxxx),
    aug1 X.quadruples_res (ein3 L.mnef L.admn L.efbcijkl L.abcdijkl Q.g_abab_oaoavava Q.t2_abab Q.t4_abbbabbb_xxxxxxxx),
    aug1 X.quadruples_res (ein3 L.mnfe L.admn L.febcijkl L.abcdijkl Q.g_abab_oaoavava Q.t2_abab Q.t4_abbbabbb_xxxxxxxx),
    aug1 X.quadruples_res (ein3 L.nmef L.bdnm L.afecijkl L.abcdijkl Q.g_bbbb_oaoavava Q.t2_bbbb Q.t4_abbbabbb_xxxxxxxx),
    set1 X.contracted_intermediate (ein3 L.nmef L.adml L.efbcinkj L.abcdijkl Q.g_aaaa_oaoavava Q.t2_abab Q.t4_aabbaabb_xxxxxxxx),
    .aug X.quadruples_res [.arg Q.contracted_intermediate, ein1 L.abcdijkl L.abcdijlk Q.contracted_intermediate],
    set1 X.contracted_intermediate (ein3 L.mnef L.adml L.efbcijkn L.abcdijkl Q.g_abab_oaoavava Q.t2_abab Q.t4_abbbabbb_xxxxxxxx),
    .aug X.quadruples_res [.arg Q.contracted_intermediate, ein1 L.abcdijkl L.abcdijlk Q.contracted_intermediate],
    set1 X.contracted_intermediate (ein3 L.mnfe L.adml L.febcijkn L.abcdijkl Q.g_abab_oaoavava Q.t2_abab Q.t4_abbbabbb_xxxxxxxx),
    .aug X.quadruples_res [.arg Q.contracted_intermediate, ein1 L.abcdijkl L.abcdijlk Q.contracted_intermediate],
    set1 X.contracted_intermediate (ein3 L.nmef L.bdlm L.eafcinkj L.abcdijkl Q.g_abab_oaoavava Q.t2_bbbb Q.t4_aabbaabb_xxxxxxxx),
    .aug X.quadruples_res [.arg Q.contracted_intermediate, ein1 L.abcdijkl L.abcdijlk Q.contracted_intermediate],
    set1 X.contracted_intermediate (ein3 L.nmfe L.bdlm L.afecinkj L.abcdijkl Q.g_abab_oaoavava Q.t2_bbbb Q.t4_aabbaabb_xxxxxxxx),
    .aug X.quadruples_res [.arg Q.contracted_intermediate, ein1 L.abcdijkl L.abcdijlk Q.contracted_intermediate],
    set1 X.contracted_intermediate (ein3 L.nmef L.bdlm L.afecijkn L.abcdijkl Q.g_bbbb_oaoavava Q.t2_bbbb Q.t4_abbbabbb_xxxxxxxx),
    .aug X.quadruples_res [.arg Q.contracted_intermediate, ein1 L.abcdijkl L.abcdijlk Q.contracted_intermediate],
    aug1 X.quadruples_res (ein3 L.nmef L.admj L.efbcinlk L.abcdijkl Q.g_aaaa_oaoavava Q.t2_abab Q.t4_aabbaabb_xxxxxxxx),
    aug1 X.quadruples_res (ein3 L.mnef L.admj L.efbcikln L.abcdijkl Q.g_abab_oaoavava Q.t2_abab Q.t4_abbbabbb_xxxxxxxx),
    aug1 X.quadruples_res (ein3 L.mnfe L.admj L.febcikln L.abcdijkl Q.g_abab_oaoavava Q.t2_abab Q.t4_abbbabbb_xxxxxxxx),
    aug1 X.quadruples_res (ein3 L.nmef L.bdjm L.eafcinlk L.abcdijkl Q.g_abab_oaoavava Q.t2_bbbb Q.t4_aabbaabb_xxxxxxxx),
    aug1 X.quadruples_res (ein3 L.nmfe L.bdjm L.afecinlk L.abcdijkl Q.g_abab_oaoavava Q.t2_bbbb Q.t4_aabbaabb_xxxxxxxx),
    aug1 X.quadruples_res (ein3 L.nmef L.bdjm L.afecikln L.abcdijkl Q.g_bbbb_oaoavava Q.t2_bbbb Q.t4_abbbabbb_xxxxxxxx),
    aug1 X.quadruples_res (ein3 L.nmef L.adim L.efbcnklj L.abcdijkl Q.g_abab_oaoavava Q.t2_abab Q.t4_abbbabbb_xxxxxxxx),
    aug1 X.quadruples_res (ein3 L.nmfe L.adim L.febcnklj L.abcdijkl Q.g_abab_oaoavava Q.t2_abab Q.t4_abbbabbb_xxxxxxxx),
    aug1 X.quadruples_res (ein3 L.nmef L.adim L.efbcjkln L.abcdijkl Q.g_bbbb_oaoavava Q.t2_abab Q.t4_bbbbbbbb_xxxxxxxx),
    set1 X.contracted_intermediate (ein3 L.nmef L.bcnm L.afedijkl L.abcdijkl Q.g_bbbb_oaoavava Q.t2_bbbb Q.t4_abbbabbb_xxxxxxxx),
    .aug X.quadruples_res [.arg Q.contracted_intermediate, ein1 L.abcdijkl L.adcbijkl Q.contracted_intermediate],
    set1 X.contracted_intermediate (ein3 L.nmef L.bclm L.eafdinkj L.abcdijkl Q.g_abab_oaoavava Q.t2_bbbb Q.t4_aabbaabb_xxxxxxxx),
    .aug X.quadruples_res [.arg Q.contracted_intermediate, ein1 L.abcdijkl L.abcdijlk Q.contracted_intermediate, ein1 L.abcdijkl L.adcbijkl Q.contracted_intermediate, ein1 L.abcdijkl L.adcbijlk Q.contracted_intermediate],
    set1 X.contracted_intermediate (ein3 L.nmfe L.bclm L.afedinkj L.abcdijkl Q.g_abab_oaoavava Q.t2_bbbb Q.t4_aabbaabb_xxxxxxxx),
    .aug X.quadruples_res [.arg Q.contracted_intermediate, ein1 L.abcdijkl L.abcdijlk Q.contracted_intermediate, ein1 L.abcdijkl L.adcbijkl Q.contracted_intermediate, ein1 L.abcdijkl L.adcbijlk Q.contracted_intermediate],
    set1 X.contracted_intermediate (ein3 L.nmef L.bclm L.afedijkn L.abcdijkl Q.g_bbbb_oaoavava Q.t2_bbbb Q.t4_abbbabbb_xxxxxxxx),
    .aug X.quadruples_res [.arg Q.contracted_intermediate, ein1 L.abcdijkl L.abcdijlk Q.contracted_intermediate, ein1 L.abcdijkl L.adcbijkl Q.contracted_intermediate, ein1 L.abcdijkl L.adcbijlk Q.contracted_intermediate],
    set1 X.contracted_intermediate (ein3 L.nmef L.bcjm L.eafdinlk L.abcdijkl Q.g_abab_oaoavava Q.t2_bbbb Q.t4_aabbaabb_xxxxxxxx),
    .aug X.quadruples_res [.arg Q.contracted_intermediate, ein1 L.abcdijkl L.adcbijkl Q.contracted_intermediate],
    set1 X.contracted_intermediate (ein3 L.nmfe L.bcjm L.afedinlk L.abcdijkl Q.g_abab_oaoavava Q.t2_bbbb Q.t4_aabbaabb_xxxxxxxx),
    .aug X.quadruples_res [.arg Q.contracted_intermediate, ein1 L.abcdijkl L.adcbijkl Q.contracted_intermediate],
    set1 X.contracted_intermediate (ein3 L.nmef L.bcjm L.afedikln L.abcdijkl Q.g_bbbb_oaoavava Q.t2_bbbb Q.t4_abbbabbb_xxxxxxxx),
    .aug X.quadruples_res [.arg Q.contracted_intermediate, ein1 L.abcdijkl L.adcbijkl Q.contracted_intermediate],
    set1 X.contracted_intermediate (ein3 L.nmkl L.abim L.cdjn L.abcdijkl Q.g_bbbb_oaoaoaoa Q.t2_abab Q.t2_bbbb),
    .aug X.quadruples_res [.arg Q.contracted_intermediate, ein1 L.abcdijkl L.acbdijkl Q.contracted_intermediate],
    aug1 X.quadruples_res (ein3 L.nmkl L.adim L.bcjn L.abcdijkl Q.g_bbbb_oaoaoaoa Q.t2_abab Q.t2_bbbb),
    set1 X.contracted_intermediate (ein3 L.nmjl L.abim L.cdkn L.abcdijkl Q.g_bbbb_oaoaoaoa Q.t2_abab Q.t2_bbbb),
    .aug X.quadruples_res [.arg Q.contracted_intermediate, ein1 L.abcdijkl L.acbdijkl Q.contracted_intermediate],
    aug1 X.quadruples_res (ein3 L.nmjl L.adim L.bckn L.abcdijkl Q.g_bbbb_oaoaoaoa Q.t2_abab Q.t2_bbbb),
    set1 X.contracted_intermediate (ein3 L.mnil L.abmk L.cdjn L.abcdijkl Q.g_abab_oaoaoaoa Q.t2_abab Q.t2_bbbb),
    .aug X.quadruples_res [.arg Q.contracted_intermediate, ein1 L.abcdijkl L.abcdikjl Q.contracted_intermediate, ein1 L.abcdijkl L.acbdijkl Q.contracted_intermediate, ein1 L.abcdijkl L.acbdikjl Q.contracted_intermediate],
    set1 X.contracted_intermediate (ein3 L.mnil L.admk L.bcjn L.abcdijkl Q.g_abab_oaoaoaoa Q.t2_abab Q.t2_bbbb),
    .aug X.quadruples_res [.arg Q.contracted_intermediate, ein1 L.abcdijkl L.abcdikjl Q.contracted_intermediate],
    set1 X.contracted_intermediate (ein3 L.nmjk L.abim L.cdln L.abcdijkl Q.g_bbbb_oaoaoaoa Q.t2_abab Q.t2_bbbb),
    .aug X.quadruples_res [.arg Q.contracted_intermediate, ein1 L.abcdijkl L.acbdijkl Q.contracted_intermediate],
    aug1 X.quadruples_res (ein3 L.nmjk L.adim L.bcln L.abcdijkl Q.g_bbbb_oaoaoaoa Q.t2_abab Q.t2_bbbb),
    set1 X.contracted_intermediate (ein3 L.mnik L.abml L.cdjn L.abcdijkl Q.g_abab_oaoaoaoa Q.t2_abab Q.t2_bbbb),
    .aug X.quadruples_res [.arg Q.contracted_intermediate, ein1 L.abcdijkl L.abcdilkj Q.contracted_intermediate, ein1 L.abcdijkl L.acbdijkl Q.contracted_intermediate, ein1 L.abcdijkl L.acbdilkj Q.contracted_intermediate],
    set1 X.contracted_intermediate (ein3 L.mnik L.adml L.bcjn L.abcdijkl Q.g_abab_oaoaoaoa Q.t2_abab Q.t2_bbbb),
    .aug X.quadruples_res [.arg Q.contracted_intermediate, ein1 L.abcdijkl L.abcdilkj Q.contracted_intermediate],
    set1 X.contracted_intermediate (ein3 L.mnij L.abml L.cdkn L.abcdijkl Q.g_abab_oaoaoaoa Q.t2_abab Q.t2_bbbb),
    .aug X.quadruples_res [.arg Q.contracted_intermediate, ein1 L.abcdijkl L.abcdijlk Q.contracted_intermediate, ein1 L.abcdijkl L.acbdijkl Q.contracted_intermediate, ein1 L.abcdijkl L.acbdijlk Q.contracted_intermediate],
    set1 X.contracted_intermediate (ein3 L.mnij L.adml L.bckn L.abcdijkl Q.g_abab_oaoaoaoa Q.t2_abab Q.t2_bbbb),
    .aug X.quadruples_res [.arg Q.contracted_intermediate, ein1 L.abcdijkl L.abcdijlk Q.contracted_intermediate],
    set1 X.contracted_intermediate (ein3 L.amel L.ebik L.cdjm L.abcdijkl Q.g_abab_vaoavaoa Q.t2_abab Q.t2_bbbb),
    .aug X.quadruples_res [.arg Q.contracted_intermediate, ein1 L.abcdijkl L.acbdijkl Q.contracted_intermediate],
    set1 X.contracted_intermediate (ein3 L.amel L.ebij L.cdkm L.abcdijkl Q.g_abab_vaoavaoa Q.t2_abab Q.t2_bbbb),
    .aug X.quadruples_res [.arg Q.contracted_intermediate, ein1 L.abcdijkl L.abcdijlk Q.contracted_intermediate, ein1 L.abcdijkl L.acbdijkl Q.contracted_intermediate, ein1 L.abcdijkl L.acbdijlk Q.contracted_intermediate],
    aug1 X.quadruples_res (ein3 L.mbel L.edjk L.acim L.abcdijkl Q.g_bbbb_oavavaoa Q.t2_bbbb Q.t2_abab),
    aug1 X.quadruples_res (ein3 L.amel L.edik L.bcjm L.abcdijkl Q.g_abab_vaoavaoa Q.t2_abab Q.t2_bbbb),
    aug1 X.quadruples_res (ein3 L.mbel L.edik L.acmj L.abcdijkl Q.g_abab_oavavaoa Q.t2_abab Q.t2_abab),
    set1 X.contracted_intermediate (ein3 L.amel L.edij L.bckm L.abcdijkl Q.g_abab_vaoavaoa Q.t2_abab Q.t2_bbbb),
    .aug X.quadruples_res [.arg Q.contracted_intermediate, ein1 L.abcdijkl L.abcdijlk Q.contracted_intermediate],
    set1 X.contracted_intermediate (ein3 L.mbel L.edij L.acmk L.abcdijkl Q.g_abab_oavavaoa Q.t2_abab Q.t2_abab),
    .aug X.quadruples_res [.arg Q.contracted_intermediate, ein1 L.abcdijkl L.abcdijlk Q.contracted_intermediate],
    set1 X.contracted_intermediate (ein3 L.amek L.ebil L.cdjm L.abcdijkl Q.g_abab_vaoavaoa Q.t2_abab Q.t2_bbbb),
    .aug X.quadruples_res [.arg Q.contracted_intermediate, ein1 L.abcdijkl L.acbdijkl Q.contracted_intermediate],
    aug1 X.quadruples_res (ein3 L.mbek L.edjl L.acim L.abcdijkl Q.g_bbbb_oavavaoa Q.t2_bbbb Q.t2_abab),
    aug1 X.quadruples_res (ein3 L.amek L.edil L.bcjm L.abcdijkl Q.g_abab_vaoavaoa Q.t2_abab Q.t2_bbbb),
    aug1 X.quadruples_res (ein3 L.mbek L.edil L.acmj L.abcdijkl Q.g_abab_oavavaoa Q.t2_abab Q.t2_abab),
    set1 X.contracted_intermediate (ein3 L.amej L.ebil L.cdkm L.abcdijkl Q.g_abab_vaoavaoa Q.t2_abab Q.t2_bbbb),
    .aug X.quadruples_res [.arg Q.contracted_intermediate, ein1 L.abcdijkl L.acbdijkl Q.contracted_intermediate],
    set1 X.contracted_intermediate (ein3 L.amej L.ebik L.cdlm L.abcdijkl Q.g_abab_vaoavaoa Q.t2_abab Q.t2_bbbb),
    .aug X.quadruples_res [.arg Q.contracted_intermediate, ein1 L.abcdijkl L.acbdijkl Q.contracted_intermediate],
    set1 X.contracted_intermediate (ein3 L.amie L.ebjk L.cdlm L.abcdijkl Q.g_abab_vaoaoava Q.t2_bbbb Q.t2_bbbb),
    .aug X.quadruples_res [.arg Q.contracted_intermediate, ein1 L.abcdijkl L.acbdijkl Q.contracted_intermediate],
    aug1 X.quadruples_res (ein3 L.mbej L.edkl L.acim L.abcdijkl Q.g_bbbb_oavavaoa Q.t2_bbbb Q.t2_abab),
    aug1 X.quadruples_res (ein3 L.amej L.edil L.bckm L.abcdijkl Q.g_abab_vaoavaoa Q.t2_abab Q.t2_bbbb),
    aug1 X.quadruples_res (ein3 L.mbej L.edil L.acmk L.abcdijkl Q.g_abab_oavavaoa Q.t2_abab Q.t2_abab),
    aug1 X.quadruples_res (ein3 L.amej L.edik L.bclm L.abcdijkl Q.g_abab_vaoavaoa Q.t2_abab Q.t2_bbbb),
    aug1 X.quadruples_res (ein3 L.mbej L.edik L.acml L.abcdijkl Q.g_abab_oavavaoa Q.t2_abab Q.t2_abab),
    aug1 X.quadruples_res (ein3 L.amie L.edjk L.bclm L.abcdijkl Q.g_abab_vaoaoava Q.t2_bbbb Q.t2_bbbb),
    aug1 X.quadruples_res (ein3 L.mbie L.edjk L.acml L.abcdijkl Q.g_abab_oavaoava Q.t2_bbbb Q.t2_abab),
    set1 X.contracted_intermediate (ein3 L.amie L.ebkl L.cdjm L.abcdijkl Q.g_abab_vaoaoava Q.t2_bbbb Q.t2_bbbb),
    .aug X.quadruples_res [.arg Q.contracted_intermediate, ein1 L.abcdijkl L.abcdikjl Q.contracted_intermediate, ein1 L.abcdijkl L.acbdijkl Q.contracted_intermediate, ein1 L.abcdijkl L.acbdikjl Q.contracted_intermediate],
    set1 X.contracted_intermediate (ein3 L.amie L.edkl L.bcjm L.abcdijkl Q.g_abab_vaoaoava Q.t2_bbbb Q.t2_bbbb),
    .aug X.quadruples_res [.arg Q.contracted_intermediate, ein1 L.abcdijkl L.abcdikjl Q.contracted_intermediate],
    set1 X.contracted_intermediate (ein3 L.mbie L.edkl L.acmj L.abcdijkl Q.g_abab_oavaoava Q.t2_bbbb Q.t2_abab),
    .aug X.quadruples_res [.arg Q.contracted_intermediate, ein1 L.abcdijkl L.abcdikjl Q.contracted_intermediate],
    aug1 X.quadruples_res (ein3 L.mbel L.ecjk L.adim L.abcdijkl Q.g_bbbb_oavavaoa Q.t2_bbbb Q.t2_abab),
    aug1 X.quadruples_res (ein3 L.mbel L.aeik L.cdjm L.abcdijkl Q.g_bbbb_oavavaoa Q.t2_abab Q.t2_bbbb),
    aug1 X.quadruples_res (ein3 L.mbel L.ecik L.admj L.abcdijkl Q.g_abab_oavavaoa Q.t2_abab Q.t2_abab),
    set1 X.contracted_intermediate (ein3 L.mbel L.aeij L.cdkm L.abcdijkl Q.g_bbbb_oavavaoa Q.t2_abab Q.t2_bbbb),
    .aug X.quadruples_res [.arg Q.contracted_intermediate, ein1 L.abcdijkl L.abcdijlk Q.contracted_intermediate],
    set1 X.contracted_intermediate (ein3 L.mbel L.ecij L.admk L.abcdijkl Q.g_abab_oavavaoa Q.t2_abab Q.t2_abab),
    .aug X.quadruples_res [.arg Q.contracted_intermediate, ein1 L.abcdijkl L.abcdijlk Q.contracted_intermediate],
    aug1 X.quadruples_res (ein3 L.mbek L.ecjl L.adim L.abcdijkl Q.g_bbbb_oavavaoa Q.t2_bbbb Q.t2_abab),
    aug1 X.quadruples_res (ein3 L.mbek L.aeil L.cdjm L.abcdijkl Q.g_bbbb_oavavaoa Q.t2_abab Q.t2_bbbb),
    aug1 X.quadruples_res (ein3 L.mbek L.ecil L.admj L.abcdijkl Q.g_abab_oavavaoa Q.t2_abab Q.t2_abab),
    aug1 X.quadruples_res (ein3 L.mbej L.eckl L.adim L.abcdijkl Q.g_bbbb_oavavaoa Q.t2_bbbb Q.t2_abab),
    aug1 X.quadruples_res (ein3 L.mbej L.aeil L.cdkm L.abcdijkl Q.g_bbbb_oavavaoa Q.t2_abab Q.t2_bbbb),
    aug1 X.quadruples_res (ein3 L.mbej L.ecil L.admk L.abcdijkl Q.g_abab_oavavaoa Q.t2_abab Q.t2_abab),
    aug1 X.quadruples_res (ein3 L.mbej L.aeik L.cdlm L.abcdijkl Q.g_bbbb_oavavaoa Q.t2_abab Q.t2_bbbb),
    aug1 X.quadruples_res (ein3 L.mbej L.ecik L.adml L.abcdijkl Q.g_abab_oavavaoa Q.t2_abab Q.t2_abab),
    aug1 X.quadruples_res (ein3 L.mbie L.ecjk L.adml L.abcdijkl Q.g_abab_oavaoava Q.t2_bbbb Q.t2_abab),
    set1 X.contracted_intermediate (ein3 L.mbie L.eckl L.admj L.abcdijkl Q.g_abab_oavaoava Q.t2_bbbb Q.t2_abab),
    .aug X.quadruples_res [.arg Q.contracted_intermediate, ein1 L.abcdijkl L.abcdikjl Q.contracted_intermediate],
    aug1 X.quadruples_res (ein3 L.mcel L.ebjk L.adim L.abcdijkl Q.g_bbbb_oavavaoa Q.t2_bbbb Q.t2_abab),
    aug1 X.quadruples_res (ein3 L.mcel L.aeik L.bdjm L.abcdijkl Q.g_bbbb_oavavaoa Q.t2_abab Q.t2_bbbb),
    aug1 X.quadruples_res (ein3 L.mcel L.ebik L.admj L.abcdijkl Q.g_abab_oavavaoa Q.t2_abab Q.t2_abab),
    set1 X.contracted_intermediate (ein3 L.mcel L.aeij L.bdkm L.abcdijkl Q.g_bbbb_oavavaoa Q.t2_abab Q.t2_bbbb),
    .aug X.quadruples_res [.arg Q.contracted_intermediate, ein1 L.abcdijkl L.abcdijlk Q.contracted_intermediate],
    set1 X.contracted_intermediate (ein3 L.mcel L.ebij L.admk L.abcdijkl Q.g_abab_oavavaoa Q.t2_abab Q.t2_abab),
    .aug X.quadruples_res [.arg Q.contracted_intermediate, ein1 L.abcdijkl L.abcdijlk Q.contracted_intermediate],
    set1 X.contracted_intermediate (ein3 L.mcel L.edjk L.abim L.abcdijkl Q.g_bbbb_oavavaoa Q.t2_bbbb Q.t2_abab),
    .aug X.quadruples_res [.arg Q.contracted_intermediate, ein1 L.abcdijkl L.abdcijkl Q.contracted_intermediate],
    set1 X.contracted_intermediate (ein3 L.mcel L.edik L.abmj L.abcdijkl Q.g_abab_oavavaoa Q.t2_abab Q.t2_abab),
    .aug X.quadruples_res [.arg Q.contracted_intermediate, ein1 L.abcdijkl L.abdcijkl Q.contracted_intermediate],
    set1 X.contracted_intermediate (ein3 L.mcel L.edij L.abmk L.abcdijkl Q.g_abab_oavavaoa Q.t2_abab Q.t2_abab),
    .aug X.quadruples_res [.arg Q.contracted_intermediate, ein1 L.abcdijkl L.abcdijlk Q.contracted_intermediate, ein1 L.abcdijkl L.abdcijkl Q.contracted_intermediate, ein1 L.abcdijkl L.abdcijlk Q.contracted_intermediate],
    aug1 X.quadruples_res (ein3 L.mcek L.ebjl L.adim L.abcdijkl Q.g_bbbb_oavavaoa Q.t2_bbbb Q.t2_abab),
    aug1 X.quadruples_res (ein3 L.mcek L.aeil L.bdjm L.abcdijkl Q.g_bbbb_oavavaoa Q.t2_abab Q.t2_bbbb),
    aug1 X.quadruples_res (ein3 L.mcek L.ebil L.admj L.abcdijkl Q.g_abab_oavavaoa Q.t2_abab Q.t2_abab),
    set1 X.contracted_intermediate (ein3 L.mcek L.edjl L.abim L.abcdijkl Q.g_bbbb_oavavaoa Q.t2_bbbb Q.t2_abab),
    .aug X.quadruples_res [.arg Q.contracted_intermediate, ein1 L.abcdijkl L.abdcijkl Q.contracted_intermediate],
    set1 X.contracted_intermediate (ein3 L.mcek L.edil L.abmj L.abcdijkl Q.g_abab_oavavaoa Q.t2_abab Q.t2_abab),
    .aug X.quadruples_res [.arg Q.contracted_intermediate, ein1 L.abcdijkl L.abdcijkl Q.contracted_intermediate],
    aug1 X.quadruples_res (ein3 L.mcej L.ebkl L.adim L.abcdijkl Q.g_bbbb_oavavaoa Q.t2_bbbb Q.t2_abab),
    aug1 X.quadruples_res (ein3 L.mcej L.aeil L.bdkm L.abcdijkl Q.g_bbbb_oavavaoa Q.t2_abab Q.t2_bbbb),
    aug1 X.quadruples_res (ein3 L.mcej L.ebil L.admk L.abcdijkl Q.g_abab_oavavaoa Q.t2_abab Q.t2_abab),
    aug1 X.quadruples_res (ein3 L.mcej L.aeik L.bdlm L.abcdijkl Q.g_bbbb_oavavaoa Q.t2_abab Q.t2_bbbb),
    aug1 X.quadruples_res (ein3 L.mcej L.ebik L.adml L.abcdijkl Q.g_abab_oavavaoa Q.t2_abab Q.t2_abab),
    aug1 X.quadruples_res (ein3 L.mcie L.ebjk L.adml L.abcdijkl Q.g_abab_oavaoava Q.t2_bbbb Q.t2_abab),
    set1 X.contracted_intermediate (ein3 L.mcej L.edkl L.abim L.abcdijkl Q.g_bbbb_oavavaoa Q.t2_bbbb Q.t2_abab),
    .aug X.quadruples_res [.arg Q.contracted_intermediate, ein1 L.abcdijkl L.abdcijkl Q.contracted_intermediate],
    set1 X.contracted_intermediate (ein3 L.mcej L.edil L.abmk L.abcdijkl Q.g_abab_oavavaoa Q.t2_abab Q.t2_abab),
    .aug X.quadruples_res [.arg Q.contracted_intermediate, ein1 L.abcdijkl L.abdcijkl Q.contracted_intermediate],
    set1 X.contracted_intermediate (ein3 L.mcej L.edik L.abml L.abcdijkl Q.g_abab_oavavaoa Q.t2_abab Q.t2_abab),
    .aug X.quadruples_res [.arg Q.contracted_intermediate, ein1 L.abcdijkl L.abdcijkl Q.contracted_intermediate],
    set1 X.contracted_intermediate (ein3 L.mcie L.edjk L.abml L.abcdijkl Q.g_abab_oavaoava Q.t2_bbbb Q.t2_abab),
    .aug X.quadruples_res [.arg Q.contracted_intermediate, ein1 L.abcdijkl L.abdcijkl Q.contracted_intermediate],
    set1 X.contracted_intermediate (ein3 L.mcie L.ebkl L.admj L.abcdijkl Q.g_abab_oavaoava Q.t2_bbbb Q.t2_abab),
    .aug X.quadruples_res [.arg Q.contracted_intermediate, ein1 L.abcdijkl L.abcdikjl Q.contracted_intermediate],
    set1 X.contracted_intermediate (ein3 L.mcie L.edkl L.abmj L.abcdijkl Q.g_abab_oavaoava Q.t2_bbbb Q.t2_abab),
    .aug X.quadruples_res [.arg Q.contracted_intermediate, ein1 L.abcdijkl L.abcdikjl Q.contracted_intermediate, ein1 L.abcdijkl L.abdcijkl Q.contracted_intermediate, ein1 L.abcdijkl L.abdcikjl Q.contracted_intermediate],
    aug1 X.quadruples_res (ein3 L.mdel L.ebjk L.acim L.abcdijkl Q.g_bbbb_oavavaoa Q.t2_bbbb Q.t2_abab),
    aug1 X.quadruples_res (ein3 L.mdel L.aeik L.bcjm L.abcdijkl Q.g_bbbb_oavavaoa Q.t2_abab Q.t2_bbbb),
    aug1 X.quadruples_res (ein3 L.mdel L.ebik L.acmj L.abcdijkl Q.g_abab_oavavaoa Q.t2_abab Q.t2_abab),
    set1 X.contracted_intermediate (ein3 L.mdel L.aeij L.bckm L.abcdijkl Q.g_bbbb_oavavaoa Q.t2_abab Q.t2_bbbb),
    .aug X.quadruples_res [.arg Q.contracted_intermediate, ein1 L.abcdijkl L.abcdijlk Q.contracted_intermediate],
    set1 X.contracted_intermediate (ein3 L.mdel L.ebij L.acmk L.abcdijkl Q.g_abab_oavavaoa Q.t2_abab Q.t2_abab),
    .aug X.quadruples_res [.arg Q.contracted_intermediate, ein1 L.abcdijkl L.abcdijlk Q.contracted_intermediate],
    aug1 X.quadruples_res (ein3 L.mdek L.ebjl L.acim L.abcdijkl Q.g_bbbb_oavavaoa Q.t2_bbbb Q.t2_abab),
    aug1 X.quadruples_res (ein3 L.mdek L.aeil L.bcjm L.abcdijkl Q.g_bbbb_oavavaoa Q.t2_abab Q.t2_bbbb),
    aug1 X.quadruples_res (ein3 L.mdek L.ebil L.acmj L.abcdijkl Q.g_abab_oavavaoa Q.t2_abab Q.t2_abab),
    aug1 X.quadruples_res (ein3 L.mdej L.ebkl L.acim L.abcdijkl Q.g_bbbb_oavavaoa Q.t2_bbbb Q.t2_abab),
    aug1 X.quadruples_res (ein3 L.mdej L.aeil L.bckm L.abcdijkl Q.g_bbbb_oavavaoa Q.t2_abab Q.t2_bbbb),
    aug1 X.quadruples_res (ein3 L.mdej L.ebil L.acmk L.abcdijkl Q.g_abab_oavavaoa Q.t2_abab Q.t2_abab),
    aug1 X.quadruples_res (ein3 L.mdej L.aeik L.bclm L.abcdijkl Q.g_bbbb_oavavaoa Q.t2_abab Q.t2_bbbb),
    aug1 X.quadruples_res (ein3 L.mdej L.ebik L.acml L.abcdijkl Q.g_abab_oavavaoa Q.t2_abab Q.t2_abab),
    aug1 X.quadruples_res (ein3 L.mdie L.ebjk L.acml L.abcdijkl Q.g_abab_oavaoava Q.t2_bbbb Q.t2_abab),
    set1 X.contracted_intermediate (ein3 L.mdie L.ebkl L.acmj L.abcdijkl Q.g_abab_oavaoava Q.t2_bbbb Q.t2_abab),
    .aug X.quadruples_res [.arg Q.contracted_intermediate, ein1 L.abcdijkl L.abcdikjl Q.contracted_intermediate],
    set1 X.contracted_intermediate (ein3 L.abfe L.eckl L.fdij L.abcdijkl Q.g_abab_vavavava Q.t2_bbbb Q.t2_abab),
    .aug X.quadruples_res [.arg Q.contracted_intermediate, ein1 L.abcdijkl L.abcdikjl Q.contracted_intermediate, ein1 L.abcdijkl L.acbdijkl Q.contracted_intermediate, ein1 L.abcdijkl L.acbdikjl Q.contracted_intermediate],
    set1 X.contracted_intermediate (ein3 L.abef L.ecil L.fdjk L.abcdijkl Q.g_abab_vavavava Q.t2_abab Q.t2_bbbb),
    .aug X.quadruples_res [.arg Q.contracted_intermediate, ein1 L.abcdijkl L.abcdijlk Q.contracted_intermediate, ein1 L.abcdijkl L.acbdijkl Q.contracted_intermediate, ein1 L.abcdijkl L.acbdijlk Q.contracted_intermediate],
    set1 X.contracted_intermediate (ein3 L.abfe L.ecjk L.fdil L.abcdijkl Q.g_abab_vavavava Q.t2_bbbb Q.t2_abab),
    .aug X.quadruples_res [.arg Q.contracted_intermediate, ein1 L.abcdijkl L.acbdijkl Q.contracted_intermediate],
    set1 X.contracted_intermediate (ein3 L.abef L.ecij L.fdkl L.abcdijkl Q.g_abab_vavavava Q.t2_abab Q.t2_bbbb),
    .aug X.quadruples_res [.arg Q.contracted_intermediate, ein1 L.abcdijkl L.acbdijkl Q.contracted_intermediate],
    set1 X.contracted_intermediate (ein3 L.adfe L.ebkl L.fcij L.abcdijkl Q.g_abab_vavavava Q.t2_bbbb Q.t2_abab),
    .aug X.quadruples_res [.arg Q.contracted_intermediate, ein1 L.abcdijkl L.abcdikjl Q.contracted_intermediate],
    set1 X.contracted_intermediate (ein3 L.adef L.ebil L.fcjk L.abcdijkl Q.g_abab_vavavava Q.t2_abab Q.t2_bbbb),
    .aug X.quadruples_res [.arg Q.contracted_intermediate, ein1 L.abcdijkl L.abcdijlk Q.contracted_intermediate],
    set1 X.contracted_intermediate (ein3 L.bdef L.aeil L.fcjk L.abcdijkl Q.g_bbbb_vavavava Q.t2_abab Q.t2_bbbb),
    .aug X.quadruples_res [.arg Q.contracted_intermediate, ein1 L.abcdijkl L.abcdijlk Q.contracted_intermediate],
    aug1 X.quadruples_res (ein3 L.adfe L.ebjk L.fcil L.abcdijkl Q.g_abab_vavavava Q.t2_bbbb Q.t2_abab),
    aug1 X.quadruples_res (ein3 L.adef L.ebij L.fckl L.abcdijkl Q.g_abab_vavavava Q.t2_abab Q.t2_bbbb),
    aug1 X.quadruples_res (ein3 L.bdef L.aeij L.fckl L.abcdijkl Q.g_bbbb_vavavava Q.t2_abab Q.t2_bbbb),
    set1 X.contracted_intermediate (ein3 L.bcef L.aeil L.fdjk L.abcdijkl Q.g_bbbb_vavavava Q.t2_abab Q.t2_bbbb),
    .aug X.quadruples_res [.arg Q.contracted_intermediate, ein1 L.abcdijkl L.abcdijlk Q.contracted_intermediate, ein1 L.abcdijkl L.adcbijkl Q.contracted_intermediate, ein1 L.abcdijkl L.adcbijlk Q.contracted_intermediate],
    set1 X.contracted_intermediate (ein3 L.bcef L.aeij L.fdkl L.abcdijkl Q.g_bbbb_vavavava Q.t2_abab Q.t2_bbbb),
    .aug X.quadruples_res [.arg Q.contracted_intermediate, ein1 L.abcdijkl L.adcbijkl Q.contracted_intermediate],
    set1 X.contracted_intermediate (ein4 L.nmef L.efkl L.abim L.cdjn L.abcdijkl Q.g_bbbb_oaoavava Q.t2_bbbb Q.t2_abab Q.t2_bbbb),
    .aug X.quadruples_res [.arg Q.contracted_intermediate, ein1 L.abcdijkl L.acbdijkl Q.contracted_intermediate],
    aug1 X.quadruples_res (ein4 L.nmef L.efkl L.adim L.bcjn L.abcdijkl Q.g_bbbb_oaoavava Q.t2_bbbb Q.t2_abab Q.t2_bbbb),
    set1 X.contracted_intermediate (ein4 L.nmef L.efjl L.abim L.cdkn L.abcdijkl Q.g_bbbb_oaoavava Q.t2_bbbb Q.t2_abab Q.t2_bbbb),
    .aug X.quadruples_res [.arg Q.contracted_intermediate, ein1 L.abcdijkl L.acbdijkl Q.contracted_intermediate],
    aug1 X.quadruples_res (ein4 L.nmef L.efjl L.adim L.bckn L.abcdijkl Q.g_bbbb_oaoavava Q.t2_bbbb Q.t2_abab Q.t2_bbbb),
    set1 X.contracted_intermediate (ein4 L.mnef L.efil L.abmk L.cdjn L.abcdijkl Q.g_abab_oaoavava Q.t2_abab Q.t2_abab Q.t2_bbbb),
    .aug X.quadruples_res [.arg Q.contracted_intermediate, ein1 L.abcdijkl L.abcdikjl Q.contracted_intermediate, ein1 L.abcdijkl L.acbdijkl Q.contracted_intermediate, ein1 L.abcdijkl L.acbdikjl Q.contracted_intermediate],
    set1 X.contracted_intermediate (ein4 L.mnfe L.feil L.abmk L.cdjn L.abcdijkl Q.g_abab_oaoavava Q.t2_abab Q.t2_abab Q.t2_bbbb),
    .aug X.quadruples_res [.arg Q.contracted_intermediate, ein1 L.abcdijkl L.abcdikjl Q.contracted_intermediate, ein1 L.abcdijkl L.acbdijkl Q.contracted_intermediate, ein1 L.abcdijkl L.acbdikjl Q.contracted_intermediate],
    set1 X.contracted_intermediate (ein4 L.mnef L.efil L.admk L.bcjn L.abcdijkl Q.g_abab_oaoavava Q.t2_abab Q.t2_abab Q.t2_bbbb),
    .aug X.quadruples_res [.arg Q.contracted_intermediate, ein1 L.abcdijkl L.abcdikjl Q.contracted_intermediate],
    set1 X.contracted_intermediate (ein4 L.mnfe L.feil L.admk L.bcjn L.abcdijkl Q.g_abab_oaoavava Q.t2_abab Q.t2_abab Q.t2_bbbb),
    .aug X.quadruples_res [.arg Q.contracted_intermediate, ein1 L.abcdijkl L.abcdikjl Q.contracted_intermediate],
    set1 X.contracted_intermediate (ein4 L.nmef L.efjk L.abim L.cdln L.abcdijkl Q.g_bbbb_oaoavava Q.t2_bbbb Q.t2_abab Q.t2_bbbb),
    .aug X.quadruples_res [.arg Q.contracted_intermediate, ein1 L.abcdijkl L.acbdijkl Q.contracted_intermediate],
    aug1 X.quadruples_res (ein4 L.nmef L.efjk L.adim L.bcln L.abcdijkl Q.g_bbbb_oaoavava Q.t2_bbbb Q.t2_abab Q.t2_bbbb),
    set1 X.contracted_intermediate (ein4 L.mnef L.efik L.abml L.cdjn L.abcdijkl Q.g_abab_oaoavava Q.t2_abab Q.t2_abab Q.t2_bbbb),
    .aug X.quadruples_res [.arg Q.contracted_intermediate, ein1 L.abcdijkl L.abcdilkj Q.contracted_intermediate, ein1 L.abcdijkl L.acbdijkl Q.contracted_intermediate, ein1 L.abcdijkl L.acbdilkj Q.contracted_intermediate],
    set1 X.contracted_intermediate (ein4 L.mnfe L.feik L.abml L.cdjn L.abcdijkl Q.g_abab_oaoavava Q.t2_abab Q.t2_abab Q.t2_bbbb),
    .aug X.quadruples_res [.arg Q.contracted_intermediate, ein1 L.abcdijkl L.abcdilkj Q.contracted_intermediate, ein1 L.abcdijkl L.acbdijkl Q.contracted_intermediate, ein1 L.abcdijkl L.acbdilkj Q.contracted_intermediate],
    set1 X.contracted_intermediate (ein4 L.mnef L.efik L.adml L.bcjn L.abcdijkl Q.g_abab_oaoavava Q.t2_abab Q.t2_abab Q.t2_bbbb),
    .aug X.quadruples_res [.arg Q.contracted_intermediate, ein1 L.abcdijkl L.abcdilkj Q.contracted_intermediate],
    set1 X.contracted_intermediate (ein4 L.mnfe L.feik L.adml L.bcjn L.abcdijkl Q.g_abab_oaoavava Q.t2_abab Q.t2_abab Q.t2_bbbb),
    .aug X.quadruples_res [.arg Q.contracted_intermediate, ein1 L.abcdijkl L.abcdilkj Q.contracted_intermediate],
    set1 X.contracted_intermediate (ein4 L.mnef L.efij L.abml L.cdkn L.abcdijkl Q.g_abab_oaoavava Q.t2_abab Q.t2_abab Q.t2_bbbb),
    .aug X.quadruples_res [.arg Q.contracted_intermediate, ein1 L.abcdijkl L.abcdijlk Q.contracted_intermediate, ein1 L.abcdijkl L.acbdijkl Q.contracted_intermediate, ein1 L.abcdijkl L.acbdijlk Q.contracted_intermediate],
    set1 X.contracted_intermediate (ein4 L.mnfe L.feij L.abml L.cdkn L.abcdijkl Q.g_abab_oaoavava Q.t2_abab Q.t2_abab Q.t2_bbbb),
    .aug X.quadruples_res [.arg Q.contracted_intermediate, ein1 L.abcdijkl L.abcdijlk Q.contracted_intermediate, ein1 L.abcdijkl L.acbdijkl Q.contracted_intermediate, ein1 L.abcdijkl L.acbdijlk Q.contracted_intermediate],
    set1 X.contracted_intermediate (ein4 L.mnef L.efij L.adml L.bckn L.abcdijkl Q.g_abab_oaoavava Q.t2_abab Q.t2_abab Q.t2_bbbb),
    .aug X.quadruples_res [.arg Q.contracted_intermediate, ein1 L.abcdijkl L.abcdijlk Q.contracted_intermediate],
    set1 X.contracted_intermediate (ein4 L.mnfe L.feij L.adml L.bckn L.abcdijkl Q.g_abab_oaoavava Q.t2_abab Q.t2_abab Q.t2_bbbb),
    .aug X.quadruples_res [.arg Q.contracted_intermediate, ein1 L.abcdijkl L.abcdijlk Q.contracted_intermediate],
    set1 X.contracted_intermediate (ein4 L.mnfe L.aeml L.fbik L.cdjn L.abcdijkl Q.g_abab_oaoavava Q.t2_abab Q.t2_abab Q.t2_bbbb),
    .aug X.quadruples_res [.arg Q.contracted_intermediate, ein1 L.abcdijkl L.acbdijkl Q.contracted_intermediate],
    set1 X.contracted_intermediate (ein4 L.mnfe L.aeml L.fbij L.cdkn L.abcdijkl Q.g_abab_oaoavava Q.t2_abab Q.t2_abab Q.t2_bbbb),
    .aug X.quadruples_res [.arg Q.contracted_intermediate, ein1 L.abcdijkl L.abcdijlk Q.contracted_intermediate, ein1 L.abcdijkl L.acbdijkl Q.contracted_intermediate, ein1 L.abcdijkl L.acbdijlk Q.contracted_intermediate],
    aug1 X.quadruples_res (ein4 L.mnef L.ebml L.fdjk L.acin L.abcdijkl Q.g_abab_oaoavava Q.t2_abab Q.t2_bbbb Q.t2_abab),
    aug1 X.quadruples_res (ein4 L.nmef L.eblm L.fdjk L.acin L.abcdijkl Q.g_bbbb_oaoavava Q.t2_bbbb Q.t2_bbbb Q.t2_abab),
    aug1 X.quadruples_res (ein4 L.mnfe L.aeml L.fdik L.bcjn L.abcdijkl Q.g_abab_oaoavava Q.t2_abab Q.t2_abab Q.t2_bbbb),
    aug1 X.quadruples_res (ein4 L.nmef L.ebml L.fdik L.acnj L.abcdijkl Q.g_aaaa_oaoavava Q.t2_abab Q.t2_abab Q.t2_abab),
    aug1 X.quadruples_res (ein4 L.nmfe L.eblm L.fdik L.acnj L.abcdijkl Q.g_abab_oaoavava Q.t2_bbbb Q.t2_abab Q.t2_abab),
    set1 X.contracted_intermediate (ein4 L.mnfe L.aeml L.fdij L.bckn L.abcdijkl Q.g_abab_oaoavava Q.t2_abab Q.t2_abab Q.t2_bbbb),
    .aug X.quadruples_res [.arg Q.contracted_intermediate, ein1 L.abcdijkl L.abcdijlk Q.contracted_intermediate],
    set1 X.contracted_intermediate (ein4 L.nmef L.ebml L.fdij L.acnk L.abcdijkl Q.g_aaaa_oaoavava Q.t2_abab Q.t2_abab Q.t2_abab),
    .aug X.quadruples_res [.arg Q.contracted_intermediate, ein1 L.abcdijkl L.abcdijlk Q.contracted_intermediate],
    set1 X.contracted_intermediate (ein4 L.nmfe L.eblm L.fdij L.acnk L.abcdijkl Q.g_abab_oaoavava Q.t2_bbbb Q.t2_abab Q.t2_abab),
    .aug X.quadruples_res [.arg Q.contracted_intermediate, ein1 L.abcdijkl L.abcdijlk Q.contracted_intermediate],
    set1 X.contracted_intermediate (ein4 L.mnfe L.aemk L.fbil L.cdjn L.abcdijkl Q.g_abab_oaoavava Q.t2_abab Q.t2_abab Q.t2_bbbb),
    .aug X.quadruples_res [.arg Q.contracted_intermediate, ein1 L.abcdijkl L.acbdijkl Q.contracted_intermediate],
    aug1 X.quadruples_res (ein4 L.mnef L.ebmk L.fdjl L.acin L.abcdijkl Q.g_abab_oaoavava Q.t2_abab Q.t2_bbbb Q.t2_abab),
    aug1 X.quadruples_res (ein4 L.nmef L.ebkm L.fdjl L.acin L.abcdijkl Q.g_bbbb_oaoavava Q.t2_bbbb Q.t2_bbbb Q.t2_abab),
    aug1 X.quadruples_res (ein4 L.mnfe L.aemk L.fdil L.bcjn L.abcdijkl Q.g_abab_oaoavava Q.t2_abab Q.t2_abab Q.t2_bbbb),
    aug1 X.quadruples_res (ein4 L.nmef L.ebmk L.fdil L.acnj L.abcdijkl Q.g_aaaa_oaoavava Q.t2_abab Q.t2_abab Q.t2_abab),
    aug1 X.quadruples_res (ein4 L.nmfe L.ebkm L.fdil L.acnj L.abcdijkl Q.g_abab_oaoavava Q.t2_bbbb Q.t2_abab Q.t2_abab),
    set1 X.contracted_intermediate (ein4 L.mnfe L.aemj L.fbil L.cdkn L.abcdijkl Q.g_abab_oaoavava Q.t2_abab Q.t2_abab Q.t2_bbbb),
    .aug X.quadruples_res [.arg Q.contracted_intermediate, ein1 L.abcdijkl L.acbdijkl Q.contracted_intermediate],
    set1 X.contracted_intermediate (ein4 L.mnfe L.aemj L.fbik L.cdln L.abcdijkl Q.g_abab_oaoavava Q.t2_abab Q.t2_abab Q.t2_bbbb),
    .aug X.quadruples_res [.arg Q.contracted_intermediate, ein1 L.abcdijkl L.acbdijkl Q.contracted_intermediate],
    set1 X.contracted_intermediate (ein4 L.mnef L.eaim L.fbjk L.cdln L.abcdijkl Q.g_abab_oaoavava Q.t2_aaaa Q.t2_bbbb Q.t2_bbbb),
    .aug X.quadruples_res [.arg Q.contracted_intermediate, ein1 L.abcdijkl L.acbdijkl Q.contracted_intermediate],
    set1 X.contracted_intermediate (ein4 L.nmef L.aeim L.fbjk L.cdln L.abcdijkl Q.g_bbbb_oaoavava Q.t2_abab Q.t2_bbbb Q.t2_bbbb),
    .aug X.quadruples_res [.arg Q.contracted_intermediate, ein1 L.abcdijkl L.acbdijkl Q.contracted_intermediate],
    aug1 X.quadruples_res (ein4 L.mnef L.ebmj L.fdkl L.acin L.abcdijkl Q.g_abab_oaoavava Q.t2_abab Q.t2_bbbb Q.t2_abab),
    aug1 X.quadruples_res (ein4 L.nmef L.ebjm L.fdkl L.acin L.abcdijkl Q.g_bbbb_oaoavava Q.t2_bbbb Q.t2_bbbb Q.t2_abab),
    aug1 X.quadruples_res (ein4 L.mnfe L.aemj L.fdil L.bckn L.abcdijkl Q.g_abab_oaoavava Q.t2_abab Q.t2_abab Q.t2_bbbb),
    aug1 X.quadruples_res (ein4 L.nmef L.ebmj L.fdil L.acnk L.abcdijkl Q.g_aaaa_oaoavava Q.t2_abab Q.t2_abab Q.t2_abab),
    aug1 X.quadruples_res (ein4 L.nmfe L.ebjm L.fdil L.acnk L.abcdijkl Q.g_abab_oaoavava Q.t2_bbbb Q.t2_abab Q.t2_abab),
    aug1 X.quadruples_res (ein4 L.mnfe L.aemj L.fdik L.bcln L.abcdijkl Q.g_abab_oaoavava Q.t2_abab Q.t2_abab Q.t2_bbbb),
    aug1 X.quadruples_res (ein4 L.nmef L.ebmj L.fdik L.acnl L.abcdijkl Q.g_aaaa_oaoavava Q.t2_abab Q.t2_abab Q.t2_abab),
    aug1 X.quadruples_res (ein4 L.nmfe L.ebjm L.fdik L.acnl L.abcdijkl Q.g_abab_oaoavava Q.t2_bbbb Q.t2_abab Q.t2_abab),
    aug1 X.quadruples_res (ein4 L.mnef L.eaim L.fdjk L.bcln L.abcdijkl Q.g_abab_oaoavava Q.t2_aaaa Q.t2_bbbb Q.t2_bbbb),
    aug1 X.quadruples_res (ein4 L.nmef L.aeim L.fdjk L.bcln L.abcdijkl Q.g_bbbb_oaoavava Q.t2_abab Q.t2_bbbb Q.t2_bbbb),
    aug1 X.quadruples_res (ein4 L.nmef L.ebim L.fdjk L.acnl L.abcdijkl Q.g_abab_oaoavava Q.t2_abab Q.t2_bbbb Q.t2_abab),
    set1 X.contracted_intermediate (ein4 L.mnef L.eaim L.fbkl L.cdjn L.abcdijkl Q.g_abab_oaoavava Q.t2_aaaa Q.t2_bbbb Q.t2_bbbb),
    .aug X.quadruples_res [.arg Q.contracted_intermediate, ein1 L.abcdijkl L.abcdikjl Q.contracted_intermediate, ein1 L.abcdijkl L.acbdijkl Q.contracted_intermediate, ein1 L.abcdijkl L.acbdikjl Q.contracted_intermediate],
    set1 X.contracted_intermediate (ein4 L.nmef L.aeim L.fbkl L.cdjn L.abcdijkl Q.g_bbbb_oaoavava Q.t2_abab Q.t2_bbbb Q.t2_bbbb),
    .aug X.quadruples_res [.arg Q.contracted_intermediate, ein1 L.abcdijkl L.abcdikjl Q.contracted_intermediate, ein1 L.abcdijkl L.acbdijkl Q.contracted_intermediate, ein1 L.abcdijkl L.acbdikjl Q.contracted_intermediate],
    set1 X.contracted_intermediate (ein4 L.mnef L.eaim L.fdkl L.bcjn L.abcdijkl Q.g_abab_oaoavava Q.t2_aaaa Q.t2_bbbb Q.t2_bbbb),
    .aug X.quadruples_res [.arg Q.contracted_intermediate, ein1 L.abcdijkl L.abcdikjl Q.contracted_intermediate],
    set1 X.contracted_intermediate (ein4 L.nmef L.aeim L.fdkl L.bcjn L.abcdijkl Q.g_bbbb_oaoavava Q.t2_abab Q.t2_bbbb Q.t2_bbbb),
    .aug X.quadruples_res [.arg Q.contracted_intermediate, ein1 L.abcdijkl L.abcdikjl Q.contracted_intermediate],
    set1 X.contracted_intermediate (ein4 L.nmef L.ebim L.fdkl L.acnj L.abcdijkl Q.g_abab_oaoavava Q.t2_abab Q.t2_bbbb Q.t2_abab),
    .aug X.quadruples_res [.arg Q.contracted_intermediate, ein1 L.abcdijkl L.abcdikjl Q.contracted_intermediate],
    aug1 X.quadruples_res (ein4 L.mnfe L.ebkl L.fdmj L.acin L.abcdijkl Q.g_abab_oaoavava Q.t2_bbbb Q.t2_abab Q.t2_abab),
    aug1 X.quadruples_res (ein4 L.nmef L.ebkl L.fdjm L.acin L.abcdijkl Q.g_bbbb_oaoavava Q.t2_bbbb Q.t2_bbbb Q.t2_abab),
    aug1 X.quadruples_res (ein4 L.nmfe L.ebkl L.fdim L.acnj L.abcdijkl Q.g_abab_oaoavava Q.t2_bbbb Q.t2_abab Q.t2_abab),
    set1 X.contracted_intermediate (ein4 L.nmfe L.ebkl L.fdij L.acnm L.abcdijkl Q.g_abab_oaoavava Q.t2_bbbb Q.t2_abab Q.t2_abab),
    .aug X.quadruples_res [.arg Q.contracted_intermediate, ein1 L.abcdijkl L.abcdikjl Q.contracted_intermediate],
    set1 X.contracted_intermediate (ein4 L.mnfe L.ebkl L.fdij L.acmn L.abcdijkl Q.g_abab_oaoavava Q.t2_bbbb Q.t2_abab Q.t2_abab),
    .aug X.quadruples_res [.arg Q.contracted_intermediate, ein1 L.abcdijkl L.abcdikjl Q.contracted_intermediate],
    aug1 X.quadruples_res (ein4 L.mnfe L.ebjl L.fdmk L.acin L.abcdijkl Q.g_abab_oaoavava Q.t2_bbbb Q.t2_abab Q.t2_abab),
    aug1 X.quadruples_res (ein4 L.nmef L.ebjl L.fdkm L.acin L.abcdijkl Q.g_bbbb_oaoavava Q.t2_bbbb Q.t2_bbbb Q.t2_abab),
    aug1 X.quadruples_res (ein4 L.nmfe L.ebjl L.fdim L.acnk L.abcdijkl Q.g_abab_oaoavava Q.t2_bbbb Q.t2_abab Q.t2_abab),
    set1 X.contracted_intermediate (ein4 L.mnfe L.aeil L.fbmk L.cdjn L.abcdijkl Q.g_abab_oaoavava Q.t2_abab Q.t2_abab Q.t2_bbbb),
    .aug X.quadruples_res [.arg Q.contracted_intermediate, ein1 L.abcdijkl L.abcdikjl Q.contracted_intermediate, ein1 L.abcdijkl L.acbdijkl Q.contracted_intermediate, ein1 L.abcdijkl L.acbdikjl Q.contracted_intermediate],
    set1 X.contracted_intermediate (ein4 L.nmef L.aeil L.fbkm L.cdjn L.abcdijkl Q.g_bbbb_oaoavava Q.t2_abab Q.t2_bbbb Q.t2_bbbb),
    .aug X.quadruples_res [.arg Q.contracted_intermediate, ein1 L.abcdijkl L.abcdikjl Q.contracted_intermediate, ein1 L.abcdijkl L.acbdijkl Q.contracted_intermediate, ein1 L.abcdijkl L.acbdikjl Q.contracted_intermediate],
    set1 X.contracted_intermediate (ein4 L.nmef L.aeil L.fbjk L.cdnm L.abcdijkl Q.g_bbbb_oaoavava Q.t2_abab Q.t2_bbbb Q.t2_bbbb),
    .aug X.quadruples_res [.arg Q.contracted_intermediate, ein1 L.abcdijkl L.abcdijlk Q.contracted_intermediate, ein1 L.abcdijkl L.acbdijkl Q.contracted_intermediate, ein1 L.abcdijkl L.acbdijlk Q.contracted_intermediate],
    set1 X.contracted_intermediate (ein4 L.mnfe L.aeil L.fdmk L.bcjn L.abcdijkl Q.g_abab_oaoavava Q.t2_abab Q.t2_abab Q.t2_bbbb),
    .aug X.quadruples_res [.arg Q.contracted_intermediate, ein1 L.abcdijkl L.abcdikjl Q.contracted_intermediate],
    set1 X.contracted_intermediate (ein4 L.nmef L.aeil L.fdkm L.bcjn L.abcdijkl Q.g_bbbb_oaoavava Q.t2_abab Q.t2_bbbb Q.t2_bbbb),
    .aug X.quadruples_res [.arg Q.contracted_intermediate, ein1 L.abcdijkl L.abcdikjl Q.contracted_intermediate],
    set1 X.contracted_intermediate (ein4 L.nmef L.ebil L.fdmk L.acnj L.abcdijkl Q.g_aaaa_oaoavava Q.t2_abab Q.t2_abab Q.t2_abab),
    .aug X.quadruples_res [.arg Q.contracted_intermediate, ein1 L.abcdijkl L.abcdikjl Q.contracted_intermediate],
    set1 X.contracted_intermediate (ein4 L.nmef L.ebil L.fdkm L.acnj L.abcdijkl Q.g_abab_oaoavava Q.t2_abab Q.t2_bbbb Q.t2_abab),
    .aug X.quadruples_res [.arg Q.contracted_intermediate, ein1 L.abcdijkl L.abcdikjl Q.contracted_intermediate],
    set1 X.contracted_intermediate (ein4 L.nmef L.aeil L.fdjk L.bcnm L.abcdijkl Q.g_bbbb_oaoavava Q.t2_abab Q.t2_bbbb Q.t2_bbbb),
    .aug X.quadruples_res [.arg Q.contracted_intermediate, ein1 L.abcdijkl L.abcdijlk Q.contracted_intermediate],
    set1 X.contracted_intermediate (ein4 L.nmef L.ebil L.fdjk L.acnm L.abcdijkl Q.g_abab_oaoavava Q.t2_abab Q.t2_bbbb Q.t2_abab),
    .aug X.quadruples_res [.arg Q.contracted_intermediate, ein1 L.abcdijkl L.abcdijlk Q.contracted_intermediate],
    set1 X.contracted_intermediate (ein4 L.mnef L.ebil L.fdjk L.acmn L.abcdijkl Q.g_abab_oaoavava Q.t2_abab Q.t2_bbbb Q.t2_abab),
    .aug X.quadruples_res [.arg Q.contracted_intermediate, ein1 L.abcdijkl L.abcdijlk Q.contracted_intermediate],
    set1 X.contracted_intermediate (ein4 L.nmef L.aeij L.fbkl L.cdnm L.abcdijkl Q.g_bbbb_oaoavava Q.t2_abab Q.t2_bbbb Q.t2_bbbb),
    .aug X.quadruples_res [.arg Q.contracted_intermediate, ein1 L.abcdijkl L.acbdijkl Q.contracted_intermediate],
    aug1 X.quadruples_res (ein4 L.mnfe L.ebjk L.fdml L.acin L.abcdijkl Q.g_abab_oaoavava Q.t2_bbbb Q.t2_abab Q.t2_abab),
    aug1 X.quadruples_res (ein4 L.nmef L.ebjk L.fdlm L.acin L.abcdijkl Q.g_bbbb_oaoavava Q.t2_bbbb Q.t2_bbbb Q.t2_abab),
    aug1 X.quadruples_res (ein4 L.nmfe L.ebjk L.fdim L.acnl L.abcdijkl Q.g_abab_oaoavava Q.t2_bbbb Q.t2_abab Q.t2_abab),
    aug1 X.quadruples_res (ein4 L.nmfe L.ebjk L.fdil L.acnm L.abcdijkl Q.g_abab_oaoavava Q.t2_bbbb Q.t2_abab Q.t2_abab),
    aug1 X.quadruples_res (ein4 L.mnfe L.ebjk L.fdil L.acmn L.abcdijkl Q.g_abab_oaoavava Q.t2_bbbb Q.t2_abab Q.t2_abab),
    aug1 X.quadruples_res (ein4 L.nmef L.aeij L.fdkl L.bcnm L.abcdijkl Q.g_bbbb_oaoavava Q.t2_abab Q.t2_bbbb Q.t2_bbbb),
    aug1 X.quadruples_res (ein4 L.nmef L.ebij L.fdkl L.acnm L.abcdijkl Q.g_abab_oaoavava Q.t2_abab Q.t2_bbbb Q.t2_abab),
    aug1 X.quadruples_res (ein4 L.mnef L.ebij L.fdkl L.acmn L.abcdijkl Q.g_abab_oaoavava Q.t2_abab Q.t2_bbbb Q.t2_abab),
    set1 X.contracted_intermediate (ein4 L.mnfe L.aeik L.fbml L.cdjn L.abcdijkl Q.g_abab_oaoavava Q.t2_abab Q.t2_abab Q.t2_bbbb),
    .aug X.quadruples_res [.arg Q.contracted_intermediate, ein1 L.abcdijkl L.abcdilkj Q.contracted_intermediate, ein1 L.abcdijkl L.acbdijkl Q.contracted_intermediate, ein1 L.abcdijkl L.acbdilkj Q.contracted_intermediate],
    set1 X.contracted_intermediate (ein4 L.nmef L.aeik L.fblm L.cdjn L.abcdijkl Q.g_bbbb_oaoavava Q.t2_abab Q.t2_bbbb Q.t2_bbbb),
    .aug X.quadruples_res [.arg Q.contracted_intermediate, ein1 L.abcdijkl L.abcdilkj Q.contracted_intermediate, ein1 L.abcdijkl L.acbdijkl Q.contracted_intermediate, ein1 L.abcdijkl L.acbdilkj Q.contracted_intermediate],
    set1 X.contracted_intermediate (ein4 L.mnfe L.aeik L.fdml L.bcjn L.abcdijkl Q.g_abab_oaoavava Q.t2_abab Q.t2_abab Q.t2_bbbb),
    .aug X.quadruples_res [.arg Q.contracted_intermediate, ein1 L.abcdijkl L.abcdilkj Q.contracted_intermediate],
    set1 X.contracted_intermediate (ein4 L.nmef L.aeik L.fdlm L.bcjn L.abcdijkl Q.g_bbbb_oaoavava Q.t2_abab Q.t2_bbbb Q.t2_bbbb),
    .aug X.quadruples_res [.arg Q.contracted_intermediate, ein1 L.abcdijkl L.abcdilkj Q.contracted_intermediate],
    set1 X.contracted_intermediate (ein4 L.nmef L.ebik L.fdml L.acnj L.abcdijkl Q.g_aaaa_oaoavava Q.t2_abab Q.t2_abab Q.t2_abab),
    .aug X.quadruples_res [.arg Q.contracted_intermediate, ein1 L.abcdijkl L.abcdilkj Q.contracted_intermediate],
    set1 X.contracted_intermediate (ein4 L.nmef L.ebik L.fdlm L.acnj L.abcdijkl Q.g_abab_oaoavava Q.t2_abab Q.t2_bbbb Q.t2_abab),
    .aug X.quadruples_res [.arg Q.contracted_intermediate, ein1 L.abcdijkl L.abcdilkj Q.contracted_intermediate],
    set1 X.contracted_intermediate (ein4 L.mnfe L.aeij L.fbml L.cdkn L.abcdijkl Q.g_abab_oaoavava Q.t2_abab Q.t2_abab Q.t2_bbbb),
    .aug X.quadruples_res [.arg Q.contracted_intermediate, ein1 L.abcdijkl L.abcdijlk Q.contracted_intermediate, ein1 L.abcdijkl L.acbdijkl Q.contracted_intermediate, ein1 L.abcdijkl L.acbdijlk Q.contracted_intermediate],
    set1 X.contracted_intermediate (ein4 L.nmef L.aeij L.fblm L.cdkn L.abcdijkl Q.g_bbbb_oaoavava Q.t2_abab Q.t2_bbbb Q.t2_bbbb),
    .aug X.quadruples_res [.arg Q.contracted_intermediate, ein1 L.abcdijkl L.abcdijlk Q.contracted_intermediate, ein1 L.abcdijkl L.acbdijkl Q.contracted_intermediate, ein1 L.abcdijkl L.acbdijlk Q.contracted_intermediate],
    set1 X.contracted_intermediate (ein4 L.mnfe L.aeij L.fdml L.bckn L.abcdijkl Q.g_abab_oaoavava Q.t2_abab Q.t2_abab Q.t2_bbbb),
    .aug X.quadruples_res [.arg Q.contracted_intermediate, ein1 L.abcdijkl L.abcdijlk Q.contracted_intermediate],
    set1 X.contracted_intermediate (ein4 L.nmef L.aeij L.fdlm L.bckn L.abcdijkl Q.g_bbbb_oaoavava Q.t2_abab Q.t2_bbbb Q.t2_bbbb),
    .aug X.quadruples_res [.arg Q.contracted_intermediate, ein1 L.abcdijkl L.abcdijlk Q.contracted_intermediate],
    set1 X.contracted_intermediate (ein4 L.nmef L.ebij L.fdml L.acnk L.abcdijkl Q.g_aaaa_oaoavava Q.t2_abab Q.t2_abab Q.t2_abab),
    .aug X.quadruples_res [.arg Q.contracted_intermediate, ein1 L.abcdijkl L.abcdijlk Q.contracted_intermediate],
    set1 X.contracted_intermediate (ein4 L.nmef L.ebij L.fdlm L.acnk L.abcdijkl Q.g_abab_oaoavava Q.t2_abab Q.t2_bbbb Q.t2_abab),
    .aug X.quadruples_res [.arg Q.contracted_intermediate, ein1 L.abcdijkl L.abcdijlk Q.contracted_intermediate],
    aug1 X.quadruples_res (ein4 L.mnef L.ebml L.fcjk L.adin L.abcdijkl Q.g_abab_oaoavava Q.t2_abab Q.t2_bbbb Q.t2_abab),
    aug1 X.quadruples_res (ein4 L.nmef L.eblm L.fcjk L.adin L.abcdijkl Q.g_bbbb_oaoavava Q.t2_bbbb Q.t2_bbbb Q.t2_abab),
    aug1 X.quadruples_res (ein4 L.nmef L.ebml L.fcik L.adnj L.abcdijkl Q.g_aaaa_oaoavava Q.t2_abab Q.t2_abab Q.t2_abab),
    aug1 X.quadruples_res (ein4 L.nmfe L.eblm L.fcik L.adnj L.abcdijkl Q.g_abab_oaoavava Q.t2_bbbb Q.t2_abab Q.t2_abab),
    set1 X.contracted_intermediate (ein4 L.nmef L.ebml L.fcij L.adnk L.abcdijkl Q.g_aaaa_oaoavava Q.t2_abab Q.t2_abab Q.t2_abab),
    .aug X.quadruples_res [.arg Q.contracted_intermediate, ein1 L.abcdijkl L.abcdijlk Q.contracted_intermediate],
    set1 X.contracted_intermediate (ein4 L.nmfe L.eblm L.fcij L.adnk L.abcdijkl Q.g_abab_oaoavava Q.t2_bbbb Q.t2_abab Q.t2_abab),
    .aug X.quadruples_res [.arg Q.contracted_intermediate, ein1 L.abcdijkl L.abcdijlk Q.contracted_intermediate],
    aug1 X.quadruples_res (ein4 L.mnef L.ebmk L.fcjl L.adin L.abcdijkl Q.g_abab_oaoavava Q.t2_abab Q.t2_bbbb Q.t2_abab),
    aug1 X.quadruples_res (ein4 L.nmef L.ebkm L.fcjl L.adin L.abcdijkl Q.g_bbbb_oaoavava Q.t2_bbbb Q.t2_bbbb Q.t2_abab),
    aug1 X.quadruples_res (ein4 L.nmef L.ebmk L.fcil L.adnj L.abcdijkl Q.g_aaaa_oaoavava Q.t2_abab Q.t2_abab Q.t2_abab),
    aug1 X.quadruples_res (ein4 L.nmfe L.ebkm L.fcil L.adnj L.abcdijkl Q.g_abab_oaoavava Q.t2_bbbb Q.t2_abab Q.t2_abab),
    aug1 X.quadruples_res (ein4 L.mnef L.ebmj L.fckl L.adin L.abcdijkl Q.g_abab_oaoavava Q.t2_abab Q.t2_bbbb Q.t2_abab),
    aug1 X.quadruples_res (ein4 L.nmef L.ebjm L.fckl L.adin L.abcdijkl Q.g_bbbb_oaoavava Q.t2_bbbb Q.t2_bbbb Q.t2_abab),
    aug1 X.quadruples_res (ein4 L.nmef L.ebmj L.fcil L.adnk L.abcdijkl Q.g_aaaa_oaoavava Q.t2_abab Q.t2_abab Q.t2_abab),
    aug1 X.quadruples_res (ein4 L.nmfe L.ebjm L.fcil L.adnk L.abcdijkl Q.g_abab_oaoavava Q.t2_bbbb Q.t2_abab Q.t2_abab),
    aug1 X.quadruples_res (ein4 L.nmef L.ebmj L.fcik L.adnl L.abcdijkl Q.g_aaaa_oaoavava Q.t2_abab Q.t2_abab Q.t2_abab),
    aug1 X.quadruples_res (ein4 L.nmfe L.ebjm L.fcik L.adnl L.abcdijkl Q.g_abab_oaoavava Q.t2_bbbb Q.t2_abab Q.t2_abab),
    aug1 X.quadruples_res (ein4 L.nmef L.ebim L.fcjk L.adnl L.abcdijkl Q.g_abab_oaoavava Q.t2_abab Q.t2_bbbb Q.t2_abab),
    set1 X.contracted_intermediate (ein4 L.nmef L.ebim L.fckl L.adnj L.abcdijkl Q.g_abab_oaoavava Q.t2_abab Q.t2_bbbb Q.t2_abab),
    .aug X.quadruples_res [.arg Q.contracted_intermediate, ein1 L.abcdijkl L.abcdikjl Q.contracted_intermediate],
    aug1 X.quadruples_res (ein4 L.mnfe L.ebkl L.fcmj L.adin L.abcdijkl Q.g_abab_oaoavava Q.t2_bbbb Q.t2_abab Q.t2_abab),
    aug1 X.quadruples_res (ein4 L.nmef L.ebkl L.fcjm L.adin L.abcdijkl Q.g_bbbb_oaoavava Q.t2_bbbb Q.t2_bbbb Q.t2_abab),
    aug1 X.quadruples_res (ein4 L.nmfe L.ebkl L.fcim L.adnj L.abcdijkl Q.g_abab_oaoavava Q.t2_bbbb Q.t2_abab Q.t2_abab),
    set1 X.contracted_intermediate (ein4 L.nmfe L.ebkl L.fcij L.adnm L.abcdijkl Q.g_abab_oaoavava Q.t2_bbbb Q.t2_abab Q.t2_abab),
    .aug X.quadruples_res [.arg Q.contracted_intermediate, ein1 L.abcdijkl L.abcdikjl Q.contracted_intermediate],
    set1 X.contracted_intermediate (ein4 L.mnfe L.ebkl L.fcij L.admn L.abcdijkl Q.g_abab_oaoavava Q.t2_bbbb Q.t2_abab Q.t2_abab),
    .aug X.quadruples_res [.arg Q.contracted_intermediate, ein1 L.abcdijkl L.abcdikjl Q.contracted_intermediate],
    aug1 X.quadruples_res (ein4 L.mnfe L.ebjl L.fcmk L.adin L.abcdijkl Q.g_abab_oaoavava Q.t2_bbbb Q.t2_abab Q.t2_abab),
    aug1 X.quadruples_res (ein4 L.nmef L.ebjl L.fckm L.adin L.abcdijkl Q.g_bbbb_oaoavava Q.t2_bbbb Q.t2_bbbb Q.t2_abab),
    aug1 X.quadruples_res (ein4 L.nmfe L.ebjl L.fcim L.adnk L.abcdijkl Q.g_abab_oaoavava Q.t2_bbbb Q.t2_abab Q.t2_abab),
    set1 X.contracted_intermediate (ein4 L.nmef L.ebil L.fcmk L.adnj L.abcdijkl Q.g_aaaa_oaoavava Q.t2_abab Q.t2_abab Q.t2_abab),
    .aug X.quadruples_res [.arg Q.contracted_intermediate, ein1 L.abcdijkl L.abcdikjl Q.contracted_intermediate],
    set1 X.contracted_intermediate (ein4 L.nmef L.ebil L.fckm L.adnj L.abcdijkl Q.g_abab_oaoavava Q.t2_abab Q.t2_bbbb Q.t2_abab),
    .aug X.quadruples_res [.arg Q.contracted_intermediate, ein1 L.abcdijkl L.abcdikjl Q.contracted_intermediate],
    set1 X.contracted_intermediate (ein4 L.nmef L.ebil L.fcjk L.adnm L.abcdijkl Q.g_abab_oaoavava Q.t2_abab Q.t2_bbbb Q.t2_abab),
    .aug X.quadruples_res [.arg Q.contracted_intermediate, ein1 L.abcdijkl L.abcdijlk Q.contracted_intermediate],
    set1 X.contracted_intermediate (ein4 L.mnef L.ebil L.fcjk L.admn L.abcdijkl Q.g_abab_oaoavava Q.t2_abab Q.t2_bbbb Q.t2_abab),
    .aug X.quadruples_res [.arg Q.contracted_intermediate, ein1 L.abcdijkl L.abcdijlk Q.contracted_intermediate],
    aug1 X.quadruples_res (ein4 L.mnfe L.ebjk L.fcml L.adin L.abcdijkl Q.g_abab_oaoavava Q.t2_bbbb Q.t2_abab Q.t2_abab),
    aug1 X.quadruples_res (ein4 L.nmef L.ebjk L.fclm L.adin L.abcdijkl Q.g_bbbb_oaoavava Q.t2_bbbb Q.t2_bbbb Q.t2_abab),
    aug1 X.quadruples_res (ein4 L.nmfe L.ebjk L.fcim L.adnl L.abcdijkl Q.g_abab_oaoavava Q.t2_bbbb Q.t2_abab Q.t2_abab),
    aug1 X.quadruples_res (ein4 L.nmfe L.ebjk L.fcil L.adnm L.abcdijkl Q.g_abab_oaoavava Q.t2_bbbb Q.t2_abab Q.t2_abab),
    aug1 X.quadruples_res (ein4 L.mnfe L.ebjk L.fcil L.admn L.abcdijkl Q.g_abab_oaoavava Q.t2_bbbb Q.t2_abab Q.t2_abab),
    aug1 X.quadruples_res (ein4 L.nmef L.ebij L.fckl L.adnm L.abcdijkl Q.g_abab_oaoavava Q.t2_abab Q.t2_bbbb Q.t2_abab),
    aug1 X.quadruples_res (ein4 L.mnef L.ebij L.fckl L.admn L.abcdijkl Q.g_abab_oaoavava Q.t2_abab Q.t2_bbbb Q.t2_abab),
    set1 X.contracted_intermediate (ein4 L.nmef L.ebik L.fcml L.adnj L.abcdijkl Q.g_aaaa_oaoavava Q.t2_abab Q.t2_abab Q.t2_abab),
    .aug X.quadruples_res [.arg Q.contracted_intermediate, ein1 L.abcdijkl L.abcdilkj Q.contracted_intermediate],
    set1 X.contracted_intermediate (ein4 L.nmef L.ebik L.fclm L.adnj L.abcdijkl Q.g_abab_oaoavava Q.t2_abab Q.t2_bbbb Q.t2_abab),
    .aug X.quadruples_res [.arg Q.contracted_intermediate, ein1 L.abcdijkl L.abcdilkj Q.contracted_intermediate],
    set1 X.contracted_intermediate (ein4 L.nmef L.ebij L.fcml L.adnk L.abcdijkl Q.g_aaaa_oaoavava Q.t2_abab Q.t2_abab Q.t2_abab),
    .aug X.quadruples_res [.arg Q.contracted_intermediate, ein1 L.abcdijkl L.abcdijlk Q.contracted_intermediate],
    set1 X.contracted_intermediate (ein4 L.nmef L.ebij L.fclm L.adnk L.abcdijkl Q.g_abab_oaoavava Q.t2_abab Q.t2_bbbb Q.t2_abab),
    .aug X.quadruples_res [.arg Q.contracted_intermediate, ein1 L.abcdijkl L.abcdijlk Q.contracted_intermediate],
    aug1 X.quadruples_res (ein4 L.mnef L.ecml L.fdjk L.abin L.abcdijkl Q.g_abab_oaoavava Q.t2_abab Q.t2_bbbb Q.t2_abab),
    aug1 X.quadruples_res (ein4 L.nmef L.eclm L.fdjk L.abin L.abcdijkl Q.g_bbbb_oaoavava Q.t2_bbbb Q.t2_bbbb Q.t2_abab),
    aug1 X.quadruples_res (ein4 L.nmef L.ecml L.fdik L.abnj L.abcdijkl Q.g_aaaa_oaoavava Q.t2_abab Q.t2_abab Q.t2_abab),
    aug1 X.quadruples_res (ein4 L.nmfe L.eclm L.fdik L.abnj L.abcdijkl Q.g_abab_oaoavava Q.t2_bbbb Q.t2_abab Q.t2_abab),
    set1 X.contracted_intermediate (ein4 L.nmef L.ecml L.fdij L.abnk L.abcdijkl Q.g_aaaa_oaoavava Q.t2_abab Q.t2_abab Q.t2_abab),
    .aug X.quadruples_res [.arg Q.contracted_intermediate, ein1 L.abcdijkl L.abcdijlk Q.contracted_intermediate],
    set1 X.contracted_intermediate (ein4 L.nmfe L.eclm L.fdij L.abnk L.abcdijkl Q.g_abab_oaoavava Q.t2_bbbb Q.t2_abab Q.t2_abab),
    .aug X.quadruples_res [.arg Q.contracted_intermediate, ein1 L.abcdijkl L.abcdijlk Q.contracted_intermediate],
    aug1 X.quadruples_res (ein4 L.mnef L.ecmk L.fdjl L.abin L.abcdijkl Q.g_abab_oaoavava Q.t2_abab Q.t2_bbbb Q.t2_abab),
    aug1 X.quadruples_res (ein4 L.nmef L.eckm L.fdjl L.abin L.abcdijkl Q.g_bbbb_oaoavava Q.t2_bbbb Q.t2_bbbb Q.t2_abab),
    aug1 X.quadruples_res (ein4 L.nmef L.ecmk L.fdil L.abnj L.abcdijkl Q.g_aaaa_oaoavava Q.t2_abab Q.t2_abab Q.t2_abab),
    aug1 X.quadruples_res (ein4 L.nmfe L.eckm L.fdil L.abnj L.abcdijkl Q.g_abab_oaoavava Q.t2_bbbb Q.t2_abab Q.t2_abab),
    aug1 X.quadruples_res (ein4 L.mnef L.ecmj L.fdkl L.abin L.abcdijkl Q.g_abab_oaoavava Q.t2_abab Q.t2_bbbb Q.t2_abab),
    aug1 X.quadruples_res (ein4 L.nmef L.ecjm L.fdkl L.abin L.abcdijkl Q.g_bbbb_oaoavava Q.t2_bbbb Q.t2_bbbb Q.t2_abab),
    aug1 X.quadruples_res (ein4 L.nmef L.ecmj L.fdil L.abnk L.abcdijkl Q.g_aaaa_oaoavava Q.t2_abab Q.t2_abab Q.t2_abab),
    aug1 X.quadruples_res (ein4 L.nmfe L.ecjm L.fdil L.abnk L.abcdijkl Q.g_abab_oaoavava Q.t2_bbbb Q.t2_abab Q.t2_abab),
    aug1 X.quadruples_res (ein4 L.nmef L.ecmj L.fdik L.abnl L.abcdijkl Q.g_aaaa_oaoavava Q.t2_abab Q.t2_abab Q.t2_abab),
    aug1 X.quadruples_res (ein4 L.nmfe L.ecjm L.fdik L.abnl L.abcdijkl Q.g_abab_oaoavava Q.t2_bbbb Q.t2_abab Q.t2_abab),
    aug1 X.quadruples_res (ein4 L.nmef L.ecim L.fdjk L.abnl L.abcdijkl Q.g_abab_oaoavava Q.t2_abab Q.t2_bbbb Q.t2_abab),
    set1 X.contracted_intermediate (ein4 L.nmef L.ecim L.fdkl L.abnj L.abcdijkl Q.g_abab_oaoavava Q.t2_abab Q.t2_bbbb Q.t2_abab),
    .aug X.quadruples_res [.arg Q.contracted_intermediate, ein1 L.abcdijkl L.abcdikjl Q.contracted_intermediate],
    aug1 X.quadruples_res (ein4 L.mnfe L.eckl L.fdmj L.abin L.abcdijkl Q.g_abab_oaoavava Q.t2_bbbb Q.t2_abab Q.t2_abab),
    aug1 X.quadruples_res (ein4 L.nmef L.eckl L.fdjm L.abin L.abcdijkl Q.g_bbbb_oaoavava Q.t2_bbbb Q.t2_bbbb Q.t2_abab),
    aug1 X.quadruples_res (ein4 L.nmfe L.eckl L.fdim L.abnj L.abcdijkl Q.g_abab_oaoavava Q.t2_bbbb Q.t2_abab Q.t2_abab),
    set1 X.contracted_intermediate (ein4 L.nmfe L.eckl L.fdij L.abnm L.abcdijkl Q.g_abab_oaoavava Q.t2_bbbb Q.t2_abab Q.t2_abab),
    .aug X.quadruples_res [.arg Q.contracted_intermediate, ein1 L.abcdijkl L.abcdikjl Q.contracted_intermediate],
    set1 X.contracted_intermediate (ein4 L.mnfe L.eckl L.fdij L.abmn L.abcdijkl Q.g_abab_oaoavava Q.t2_bbbb Q.t2_abab Q.t2_abab),
    .aug X.quadruples_res [.arg Q.contracted_intermediate, ein1 L.abcdijkl L.abcdikjl Q.contracted_intermediate],
    aug1 X.quadruples_res (ein4 L.mnfe L.ecjl L.fdmk L.abin L.abcdijkl Q.g_abab_oaoavava Q.t2_bbbb Q.t2_abab Q.t2_abab),
    aug1 X.quadruples_res (ein4 L.nmef L.ecjl L.fdkm L.abin L.abcdijkl Q.g_bbbb_oaoavava Q.t2_bbbb Q.t2_bbbb Q.t2_abab),
    aug1 X.quadruples_res (ein4 L.nmfe L.ecjl L.fdim L.abnk L.abcdijkl Q.g_abab_oaoavava Q.t2_bbbb Q.t2_abab Q.t2_abab),
    set1 X.contracted_intermediate (ein4 L.nmef L.ecil L.fdmk L.abnj L.abcdijkl Q.g_aaaa_oaoavava Q.t2_abab Q.t2_abab Q.t2_abab),
    .aug X.quadruples_res [.arg Q.contracted_intermediate, ein1 L.abcdijkl L.abcdikjl Q.contracted_intermediate],
    set1 X.contracted_intermediate (ein4 L.nmef L.ecil L.fdkm L.abnj L.abcdijkl Q.g_abab_oaoavava Q.t2_abab Q.t2_bbbb Q.t2_abab),
    .aug X.quadruples_res [.arg Q.contracted_intermediate, ein1 L.abcdijkl L.abcdikjl Q.contracted_intermediate],
    set1 X.contracted_intermediate (ein4 L.nmef L.ecil L.fdjk L.abnm L.abcdijkl Q.g_abab_oaoavava Q.t2_abab Q.t2_bbbb Q.t2_abab),
    .aug X.quadruples_res [.arg Q.contracted_intermediate, ein1 L.abcdijkl L.abcdijlk Q.contracted_intermediate],
    set1 X.contracted_intermediate (ein4 L.mnef L.ecil L.fdjk L.abmn L.abcdijkl Q.g_abab_oaoavava Q.t2_abab Q.t2_bbbb Q.t2_abab),
    .aug X.quadruples_res [.arg Q.contracted_intermediate, ein1 L.abcdijkl L.abcdijlk Q.contracted_intermediate],
    aug1 X.quadruples_res (ein4 L.mnfe L.ecjk L.fdml L.abin L.abcdijkl Q.g_abab_oaoavava Q.t2_bbbb Q.t2_abab Q.t2_abab),
    aug1 X.quadruples_res (ein4 L.nmef L.ecjk L.fdlm L.abin L.abcdijkl Q.g_bbbb_oaoavava Q.t2_bbbb Q.t2_bbbb Q.t2_abab),
    aug1 X.quadruples_res (ein4 L.nmfe L.ecjk L.fdim L.abnl L.abcdijkl Q.g_abab_oaoavava Q.t2_bbbb Q.t2_abab Q.t2_abab),
    aug1 X.quadruples_res (ein4 L.nmfe L.ecjk L.fdil L.abnm L.abcdijkl Q.g_abab_oaoavava Q.t2_bbbb Q.t2_abab Q.t2_abab),
    aug1 X.quadruples_res (ein4 L.mnfe L.ecjk L.fdil L.abmn L.abcdijkl Q.g_abab_oaoavava Q.t2_bbbb Q.t2_abab Q.t2_abab),
    aug1 X.quadruples_res (ein4 L.nmef L.ecij L.fdkl L.abnm L.abcdijkl Q.g_abab_oaoavava Q.t2_abab Q.t2_bbbb Q.t2_abab),
    aug1 X.quadruples_res (ein4 L.mnef L.ecij L.fdkl L.abmn L.abcdijkl Q.g_abab_oaoavava Q.t2_abab Q.t2_bbbb Q.t2_abab),
    set1 X.contracted_intermediate (ein4 L.nmef L.ecik L.fdml L.abnj L.abcdijkl Q.g_aaaa_oaoavava Q.t2_abab Q.t2_abab Q.t2_abab),
    .aug X.quadruples_res [.arg Q.contracted_intermediate, ein1 L.abcdijkl L.abcdilkj Q.contracted_intermediate],
    set1 X.contracted_intermediate (ein4 L.nmef L.ecik L.fdlm L.abnj L.abcdijkl Q.g_abab_oaoavava Q.t2_abab Q.t2_bbbb Q.t2_abab),
    .aug X.quadruples_res [.arg Q.contracted_intermediate, ein1 L.abcdijkl L.abcdilkj Q.contracted_intermediate],
    set1 X.contracted_intermediate (ein4 L.nmef L.ecij L.fdml L.abnk L.abcdijkl Q.g_aaaa_oaoavava Q.t2_abab Q.t2_abab Q.t2_abab),
    .aug X.quadruples_res [.arg Q.contracted_intermediate, ein1 L.abcdijkl L.abcdijlk Q.contracted_intermediate],
    set1 X.contracted_intermediate (ein4 L.nmef L.ecij L.fdlm L.abnk L.abcdijkl Q.g_abab_oaoavava Q.t2_abab Q.t2_bbbb Q.t2_abab),
    .aug X.quadruples_res [.arg Q.contracted_intermediate, ein1 L.abcdijkl L.abcdijlk Q.contracted_intermediate]]
  ret := [Q.quadruples_res]

/-- `ccdq_resids.py` 5603-6672: `ccdq_t4_bbbbbbbb_residual`; 872 einsum calls. -/
def ccdq_resids_ccdq_t4_bbbbbbbb_residual : Fn where
  params := [X.f_bb, X.t4_bbbbbbbb, X.g_bbbb, X.g_abab, X.t4_abbbabbb, X.t2_abab, X.t2_bbbb, X.g_aaaa]
  body := [
    set1 X.contracted_intermediate (ein2 L.ml L.abcdijkm L.abcdijkl Q.f_bb_oaoa Q.t4_bbbbbbbb_xxxxxxxx),
    .set X.quadruples_res [.arg Q.contracted_intermediate, ein1 L.abcdijkl L.abcdijlk Q.contracted_intermediate],
    set1 X.contracted_intermediate (ein2 L.mj L.abcdiklm L.abcdijkl Q.f_bb_oaoa Q.t4_bbbbbbbb_xxxxxxxx),
    .aug X.quadruples_res [.arg Q.contracted_intermediate, ein1 L.abcdijkl L.abcdjikl Q.contracted_intermediate],
    set1 X.contracted_intermediate (ein2 L.ae L.ebcdijkl L.abcdijkl Q.f_bb_vava Q.t4_bbbbbbbb_xxxxxxxx),
    .aug X.quadruples_res [.arg Q.contracted_intermediate, ein1 L.abcdijkl L.bacdijkl Q.contracted_intermediate],
    set1 X.contracted_intermediate (ein2 L.ce L.eabdijkl L.abcdijkl Q.f_bb_vava Q.t4_bbbbbbbb_xxxxxxxx),
    .aug X.quadruples_res [.arg Q.contracted_intermediate, ein1 L.abcdijkl L.abdcijkl Q.contracted_intermediate],
    set1 X.contracted_intermediate (ein2 L.nmkl L.abcdijnm L.abcdijkl Q.g_bbbb_oaoaoaoa Q.t4_bbbbbbbb_xxxxxxxx),
    .aug X.quadruples_res [.arg Q.contracted_intermediate, ein1 L.abcdijkl L.abcdikjl Q.contracted_intermediate],
    set1 X.contracted_intermediate (ein2 L.nmil L.abcdjknm L.abcdijkl Q.g_bbbb_oaoaoaoa Q.t4_bbbbbbbb_xxxxxxxx),
    .aug X.quadruples_res [.arg Q.contracted_intermediate, ein1 L.abcdijkl L.abcdijlk Q.contracted_intermediate],
    set1 X.contracted_intermediate (ein2 L.nmjk L.abcdilnm L.abcdijkl Q.g_bbbb_oaoaoaoa Q.t4_bbbbbbbb_xxxxxxxx),
    .aug X.quadruples_res [.arg Q.contracted_intermediate, ein1 L.abcdijkl L.abcdkjil Q.contracted_intermediate],
    set1 X.contracted_intermediate (ein2 L.mael L.ebcdmjki L.abcdijkl Q.g_abab_oavavaoa Q.t4_abbbabbb_xxxxxxxx),
    .aug X.quadruples_res [.arg Q.contracted_intermediate, ein1 L.abcdijkl L.abcdijlk Q.contracted_intermediate, ein1 L.abcdijkl L.bacdijkl Q.contracted_intermediate, ein1 L.abcdijkl L.bacdijlk Q.contracted_intermediate],
    set1 X.contracted_intermediate (ein2 L.mael L.ebcdijkm L.abcdijkl Q.g_bbbb_oavavaoa Q.t4_bbbbbbbb_xxxxxxxx),
    .aug X.quadruples_res [.arg Q.contracted_intermediate, ein1 L.abcdijkl L.abcdijlk Q.contracted_intermediate, ein1 L.abcdijkl L.bacdijkl Q.contracted_intermediate, ein1 L.abcdijkl L.bacdijlk Q.contracted_intermediate],
    set1 X.contracted_intermediate (ein2 L.maej L.ebcdmkli L.abcdijkl Q.g_abab_oavavaoa Q.t4_abbbabbb_xxxxxxxx),
    .aug X.quadruples_res [.arg Q.contracted_intermediate, ein1 L.abcdijkl L.abcdjikl Q.contracted_intermediate, ein1 L.abcdijkl L.bacdijkl Q.contracted_intermediate, ein1 L.abcdijkl L.bacdjikl Q.contracted_intermediate],
    set1 X.contracted_intermediate (ein2 L.maej L.ebcdiklm L.abcdijkl Q.g_bbbb_oavavaoa Q.t4_bbbbbbbb_xxxxxxxx),
    .aug X.quadruples_res [.arg Q.contracted_intermediate, ein1 L.abcdijkl L.abcdjikl Q.contracted_intermediate, ein1 L.abcdijkl L.bacdijkl Q.contracted_intermediate, ein1 L.abcdijkl L.bacdjikl Q.contracted_intermediate],
    set1 X.contracted_intermediate (ein2 L.mcel L.eabdmjki L.abcdijkl Q.g_abab_oavavaoa Q.t4_abbbabbb_xxxxxxxx),
    .aug X.quadruples_res [.arg Q.contracted_intermediate, ein1 L.abcdijkl L.abcdijlk Q.contracted_intermediate, ein1 L.abcdijkl L.abdcijkl Q.contracted_intermediate, ein1 L.abcdijkl L.abdcijlk Q.contracted_intermediate],
    set1 X.contracted_intermediate (ein2 L.mcel L.eabdijkm L.abcdijkl Q.g_bbbb_oavavaoa Q.t4_bbbbbbbb_xxxxxxxx),
    .aug X.quadruples_res [.arg Q.contracted_intermediate, ein1 L.abcdijkl L.abcdijlk Q.contracted_intermediate, ein1 L.abcdijkl L.abdcijkl Q.contracted_intermediate, ein1 L.abcdijkl L.abdcijlk Q.contracted_intermediate],
    set1 X.contracted_intermediate (ein2 L.mcej L.eabdmkli L.abcdijkl Q.g_abab_oavavaoa Q.t4_abbbabbb_xxxxxxxx),
    .aug X.quadruples_res [.arg Q.contracted_intermediate, ein1 L.abcdijkl L.abcdjikl Q.contracted_intermediate, ein1 L.abcdijkl L.abdcijkl Q.contracted_intermediate, ein1 L.abcdijkl L.abdcjikl Q.contracted_intermediate],
    set1 X.contracted_intermediate (ein2 L.mcej L.eabdiklm L.abcdijkl Q.g_bbbb_oavavaoa Q.t4_bbbbbbbb_xxxxxxxx),
    .aug X.quadruples_res [.arg Q.contracted_intermediate, ein1 L.abcdijkl L.abcdjikl Q.contracted_intermediate, ein1 L.abcdijkl L.abdcijkl Q.contracted_intermediate, ein1 L.abcdijkl L.abdcjikl Q.contracted_intermediate],
    set1 X.contracted_intermediate (ein2 L.abef L.efcdijkl L.abcdijkl Q.g_bbbb_vavavava Q.t4_bbbbbbbb_xxxxxxxx),
    .aug X.quadruples_res [.arg Q.contracted_intermediate, ein1 L.abcdijkl L.acbdijkl Q.contracted_intermediate],
    set1 X.contracted_intermediate (ein2 L.adef L.efbcijkl L.abcdijkl Q.g_bbbb_vavavava Q.t4_bbbbbbbb_xxxxxxxx),
    .aug X.quadruples_res [.arg Q.contracted_intermediate, ein1 L.abcdijkl L.bacdijkl Q.contracted_intermediate],
    set1 X.contracted_intermediate (ein2 L.bcef L.efadijkl L.abcdijkl Q.g_bbbb_vavavava Q.t4_bbbbbbbb_xxxxxxxx),
    .aug X.quadruples_res [.arg Q.contracted_intermediate, ein1 L.abcdijkl L.adcbijkl Q.contracted_intermediate],
    set1 X.contracted_intermediate (ein3 L.mnef L.efml L.abcdijkn L.abcdijkl Q.g_abab_oaoavava Q.t2_abab Q.t4_bbbbbbbb_xxxxxxxx),
    .aug X.quadruples_res [.arg Q.contracted_intermediate, ein1 L.abcdijkl L.abcdijlk Q.contracted_intermediate],
    set1 X.contracted_intermediate (ein3 L.mnfe L.feml L.abcdijkn L.abcdijkl Q.g_abab_oaoavava Q.t2_abab Q.t4_bbbbbbbb_xxxxxxxx),
    .aug X.quadruples_res [.arg Q.contracted_intermediate, ein1 L.abcdijkl L.abcdijlk Q.contracted_intermediate],
    set1 X.contracted_intermediate (ein3 L.nmef L.eflm L.abcdijkn L.abcdijkl Q.g_bbbb_oaoavava Q.t2_bbbb Q.t4_bbbbbbbb_xxxxxxxx),
    .aug X.quadruples_res [.arg Q.contracted_intermediate, ein1 L.abcdijkl L.abcdijlk Q.contracted_intermediate],
    set1 X.contracted_intermediate (ein3 L.mnef L.efmj L.abcdikln L.abcdijkl Q.g_abab_oaoavava Q.t2_abab Q.t4_bbbbbbbb_xxxxxxxx),
    .aug X.quadruples_res [.arg Q.contracted_intermediate, ein1 L.abcdijkl L.abcdjikl Q.contracted_intermediate],
    set1 X.contracted_intermediate (ein3 L.mnfe L.femj L.abcdikln L.abcdijkl Q.g_abab_oaoavava Q.t2_abab Q.t4_bbbbbbbb_xxxxxxxx),
    .aug X.quadruples_res [.arg Q.contracted_intermediate, ein1 L.abcdijkl L.abcdjikl Q.contracted_intermediate],
    set1 X.contracted_intermediate (ein3 L.nmef L.efjm L.abcdikln L.abcdijkl Q.g_bbbb_oaoavava Q.t2_bbbb Q.t4_bbbbbbbb_xxxxxxxx),
    .aug X.quadruples_res [.arg Q.contracted_intermediate, ein1 L.abcdijkl L.abcdjikl Q.contracted_intermediate],
    set1 X.contracted_intermediate (ein3 L.nmef L.efkl L.abcdijnm L.abcdijkl Q.g_bbbb_oaoavava Q.t2_bbbb Q.t4_bbbbbbbb_xxxxxxxx),
    .aug X.quadruples_res [.arg Q.contracted_intermediate, ein1 L.abcdijkl L.abcdikjl Q.contracted_intermediate],
    set1 X.contracted_intermediate (ein3 L.nmef L.efil L.abcdjknm L.abcdijkl Q.g_bbbb_oaoavava Q.t2_bbbb Q.t4_bbbbbbbb_xxxxxxxx),
    .aug X.quadruples_res [.arg Q.contracted_intermediate, ein1 L.abcdijkl L.abcdijlk Q.contracted_intermediate],
    set1 X.contracted_intermediate (ein3 L.nmef L.efjk L.abcdilnm L.abcdijkl Q.g_bbbb_oaoavava Q.t2_bbbb Q.t4_bbbbbbbb_xxxxxxxx),
    .aug X.quadruples_res [.arg Q.contracted_intermediate, ein1 L.abcdijkl L.abcdkjil Q.contracted_intermediate],
    set1 X.contracted_intermediate (ein3 L.nmef L.eanm L.fbcdijkl L.abcdijkl Q.g_abab_oaoavava Q.t2_abab Q.t4_bbbbbbbb_xxxxxxxx),
    .aug X.quadruples_res [.arg Q.contracted_intermediate, ein1 L.abcdijkl L.bacdijkl Q.contracted_intermediate],
    set1 X.contracted_intermediate (ein3 L.mnef L.eamn L.fbcdijkl L.abcdijkl Q.g_abab_oaoavava Q.t2_abab Q.t4_bbbbbbbb_xxxxxxxx),
    .aug X.quadruples_res [.arg Q.contracted_intermediate, ein1 L.abcdijkl L.bacdijkl Q.contracted_intermediate],
    set1 X.contracted_intermediate (ein3 L.nmef L.eanm L.fbcdijkl L.abcdijkl Q.g_bbbb_oaoavava Q.t2_bbbb Q.t4_bbbbbbbb_xxxxxxxx),
    .aug X.quadruples_res [.arg Q.contracted_intermediate, ein1 L.abcdijkl L.bacdijkl Q.contracted_intermediate],
    set1 X.contracted_intermediate (ein3 L.nmef L.eaml L.fbcdnjki L.abcdijkl Q.g_aaaa_oaoavava Q.t2_abab Q.t4_abbbabbb_xxxxxxxx),
    .aug X.quadruples_res [.arg Q.contracted_intermediate, ein1 L.abcdijkl L.abcdijlk Q.contracted_intermediate, ein1 L.abcdijkl L.bacdijkl Q.contracted_intermediate, ein1 L.abcdijkl L.bacdijlk Q.contracted_intermediate],
    set1 X.contracted_intermediate (ein3 L.mnef L.eaml L.fbcdijkn L.abcdijkl Q.g_abab_oaoavava Q.t2_abab Q.t4_bbbbbbbb_xxxxxxxx),
    .aug X.quadruples_res [.arg Q.contracted_intermediate, ein1 L.abcdijkl L.abcdijlk Q.contracted_intermediate, ein1 L.abcdijkl L.bacdijkl Q.contracted_intermediate, ein1 L.abcdijkl L.bacdijlk Q.contracted_intermediate],
    set1 X.contracted_intermediate (ein3 L.nmfe L.ealm L.fbcdnjki L.abcdijkl Q.g_abab_oaoavava Q.t2_bbbb Q.t4_abbbabbb_xxxxxxxx),
    .aug X.quadruples_res [.arg Q.contracted_intermediate, ein1 L.abcdijkl L.abcdijlk Q.contracted_intermediate, ein1 L.abcdijkl L.bacdijkl Q.contracted_intermediate, ein1 L.abcdijkl L.bacdijlk Q.contracted_intermediate],
    set1 X.contracted_intermediate (ein3 L.nmef L.ealm L.fbcdijkn L.abcdijkl Q.g_bbbb_oaoavava Q.t2_bbbb Q.t4_bbbbbbbb_xxxxxxxx),
    .aug X.quadruples_res [.arg Q.contracted_intermediate, ein1 L.abcdijkl L.abcdijlk Q.contracted_intermediate, ein1 L.abcdijkl L.bacdijkl Q.contracted_intermediate, ein1 L.abcdijkl L.bacdijlk Q.contracted_intermediate],
    set1 X.contracted_intermediate (ein3 L.nmef L.eamj L.fbcdnkli L.abcdijkl Q.g_aaaa_oaoavava Q.t2_abab Q.t4_abbbabbb_xxxxxxxx),
    .aug X.quadruples_res [.arg Q.contracted_intermediate, ein1 L.abcdijkl L.abcdjikl Q.contracted_intermediate, ein1 L.abcdijkl L.bacdijkl Q.contracted_intermediate, ein1 L.abcdijkl L.bacdjikl Q.contracted_intermediate],
    set1 X.contracted_intermediate (ein3 L.mnef L.eamj L.fbcdikln L.abcdijkl Q.g_abab_oaoavava Q.t2_abab Q.t4_bbbbbbbb_xxxxxxxx),
    .aug X.quadruples_res [.arg Q.contracted_intermediate, ein1 L.abcdijkl L.abcdjikl Q.contracted_intermediate, ein1 L.abcdijkl L.bacdijkl Q.contracted_intermediate, ein1 L.abcdijkl L.bacdjikl Q.contracted_intermediate],
    set1 X.contracted_intermediate (ein3 L.nmfe L.eajm L.fbcdnkli L.abcdijkl Q.g_abab_oaoavava Q.t2_bbbb Q.t4_abbbabbb_xxxxxxxx),
    .aug X.quadruples_res [.arg Q.contracted_intermediate, ein1 L.abcdijkl L.abcdjikl Q.contracted_intermediate, ein1 L.abcdijkl L.bacdijkl Q.contracted_intermediate, ein1 L.abcdijkl L.bacdjikl Q.contracted_intermediate],
    set1 X.contracted_intermediate (ein3 L.nmef L.eajm L.fbcdikln L.abcdijkl Q.g_bbbb_oaoavava Q.t2_bbbb Q.t4_bbbbbbbb_xxxxxxxx),
    .aug X.quadruples_res [.arg Q.contracted_intermediate, ein1 L.abcdijkl L.abcdjikl Q.contracted_intermediate, ein1 L.abcdijkl L.bacdijkl Q.contracted_intermediate, ein1 L.abcdijkl L.bacdjikl Q.contracted_intermediate],
    set1 X.contracted_intermediate (ein3 L.nmfe L.eakl L.fbcdnjim L.abcdijkl Q.g_abab_oaoavava Q.t2_bbbb Q.t4_abbbabbb_xxxxxxxx),
    .aug X.quadruples_res [.arg Q.contracted_intermediate, ein1 L.abcdijkl L.abcdikjl Q.contracted_intermediate, ein1 L.abcdijkl L.bacdijkl Q.contracted_intermediate, ein1 L.abcdijkl L.bacdikjl Q.contracted_intermediate],
    set1 X.contracted_intermediate (ein3 L.mnfe L.eakl L.fbcdmjni L.abcdijkl Q.g_abab_oaoavava Q.t2_bbbb Q.t4_abbbabbb_xxxxxxxx),
    .aug X.quadruples_res [.arg Q.contracted_intermediate, ein1 L.abcdijkl L.abcdikjl Q.contracted_intermediate, ein1 L.abcdijkl L.bacdijkl Q.contracted_intermediate, ein1 L.abcdijkl L.bacdikjl Q.contracted_intermediate],
    set1 X.contracted_intermediate (ein3 L.nmef L.eakl L.fbcdijnm L.abcdijkl Q.g_bbbb_oaoavava Q.t2_bbbb Q.t4_bbbbbbbb_xxxxxxxx),
    .aug X.quadruples_res [.arg Q.contracted_intermediate, ein1 L.abcdijkl L.abcdikjl Q.contracted_intermediate, ein1 L.abcdijkl L.bacdijkl Q.contracted_intermediate, ein1 L.abcdijkl L.bacdikjl Q.contracted_intermediate],
    set1 X.contracted_intermediate (ein3 L.nmfe L.eail L.fbcdnkjm L.abcdijkl Q.g_abab_oaoavava Q.t2_bbbb Q.t4_abbbabbb_xxxxxxxx),
    .aug X.quadruples_res [.arg Q.contracted_intermediate, ein1 L.abcdijkl L.abcdijlk Q.contracted_intermediate, ein1 L.abcdijkl L.bacdijkl Q.contracted_intermediate, ein1 L.abcdijkl L.bacdijlk Q.contracted_intermediate],
    set1 X.contracted_intermediate (ein3 L.mnfe L.eail L.fbcdmknj L.abcdijkl Q.g_abab_oaoavava Q.t2_bbbb Q.t4_abbbabbb_xxxxxxxx),
    .aug X.quadruples_res [.arg Q.contracted_intermediate, ein1 L.abcdijkl L.abcdijlk Q.contracted_intermediate, ein1 L.abcdijkl L.bacdijkl Q.contracted_intermediate, ein1 L.abcdijkl L.bacdijlk Q.contracted_intermediate],
    set1 X.contracted_intermediate (ein3 L.nmef L.eail L.fbcdjknm L.abcdijkl Q.g_bbbb_oaoavava Q.t2_bbbb Q.t4_bbbbbbbb_xxxxxxxx),
    .aug X.quadruples_res [.arg Q.contracted_intermediate, ein1 L.abcdijkl L.abcdijlk Q.contracted_intermediate, ein1 L.abcdijkl L.bacdijkl Q.contracted_intermediate, ein1 L.abcdijkl L.bacdijlk Q.contracted_intermediate],
    set1 X.contracted_intermediate (ein3 L.nmfe L.eajk L.fbcdnlim L.abcdijkl Q.g_abab_oaoavava Q.t2_bbbb Q.t4_abbbabbb_xxxxxxxx),
    .aug X.quadruples_res [.arg Q.contracted_intermediate, ein1 L.abcdijkl L.abcdkjil Q.contracted_intermediate, ein1 L.abcdijkl L.bacdijkl Q.contracted_intermediate, ein1 L.abcdijkl L.bacdkjil Q.contracted_intermediate],
    set1 X.contracted_intermediate (ein3 L.mnfe L.eajk L.fbcdmlni L.abcdijkl Q.g_abab_oaoavava Q.t2_bbbb Q.t4_abbbabbb_xxxxxxxx),
    .aug X.quadruples_res [.arg Q.contracted_intermediate, ein1 L.abcdijkl L.abcdkjil Q.contracted_intermediate, ein1 L.abcdijkl L.bacdijkl Q.contracted_intermediate, ein1 L.abcdijkl L.bacdkjil Q.contracted_intermediate],
    set1 X.contracted_intermediate (ein3 L.nmef L.eajk L.fbcdilnm L.abcdijkl Q.g_bbbb_oaoavava Q.t2_bbbb Q.t4_bbbbbbbb_xxxxxxxx),
    .aug X.quadruples_res [.arg Q.contracted_intermediate, ein1 L.abcdijkl L.abcdkjil Q.contracted_intermediate, ein1 L.abcdijkl L.bacdijkl Q.contracted_intermediate, ein1 L.abcdijkl L.bacdkjil Q.contracted_intermediate],
    set1 X.contracted_intermediate (ein3 L.nmef L.ecnm L.fabdijkl L.abcdijkl Q.g_abab_oaoavava Q.t2_abab Q.t4_bbbbbbbb_xxxxxxxx),
    .aug X.quadruples_res [.arg Q.contracted_intermediate, ein1 L.abcdijkl L.abdcijkl Q.contracted_intermediate],
    set1 X.contracted_intermediate (ein3 L.mnef L.ecmn L.fabdijkl L.abcdijkl Q.g_abab_oaoavava Q.t2_abab Q.t4_bbbbbbbb_xxxxxxxx),
    .aug X.quadruples_res [.arg Q.contracted_intermediate, ein1 L.abcdijkl L.abdcijkl Q.contracted_intermediate],
    set1 X.contracted_intermediate (ein3 L.nmef L.ecnm L.fabdijkl L.abcdijkl Q.g_bbbb_oaoavava Q.t2_bbbb Q.t4_bbbbbbbb_xxxxxxxx),
    .aug X.quadruples_res [.arg Q.contracted_intermediate, ein1 L.abcdijkl L.abdcijkl Q.contracted_intermediate],
    set1 X.contracted_intermediate (ein3 L.nmef L.ecml L.fabdnjki L.abcdijkl Q.g_aaaa_oaoavava Q.t2_abab Q.t4_abbbabbb_xxxxxxxx),
    .aug X.quadruples_res [.arg Q.contracted_intermediate, ein1 L.abcdijkl L.abcdijlk Q.contracted_intermediate, ein1 L.abcdijkl L.abdcijkl Q.contracted_intermediate, ein1 L.abcdijkl L.abdcijlk Q.contracted_intermediate],
    set1 X.contracted_intermediate (ein3 L.mnef L.ecml L.fabdijkn L.abcdijkl Q.g_abab_oaoavava Q.t2_abab Q.t4_bbbbbbbb_xxxxxxxx),
    .aug X.quadruples_res [.arg Q.contracted_intermediate, ein1 L.abcdijkl L.abcdijlk Q.contracted_intermediate, ein1 L.abcdijkl L.abdcijkl Q.contracted_intermediate, ein1 L.abcdijkl L.abdcijlk Q.contracted_intermediate],
    set1 X.contracted_intermediate (ein3 L.nmfe L.eclm L.fabdnjki L.abcdijkl Q.g_abab_oaoavava Q.t2_bbbb Q.t4_abbbabbb_xxxxxxxx),
    .aug X.quadruples_res [.arg Q.contracted_intermediate, ein1 L.abcdijkl L.abcdijlk Q.contracted_intermediate, ein1 L.abcdijkl L.abdcijkl Q.contracted_intermediate, ein1 L.abcdijkl L.abdcijlk Q.contracted_intermediate],
    set1 X.contracted_intermediate (ein3 L.nmef L.eclm L.fabdijkn L.abcdijkl Q.g_bbbb_oaoavava Q.t2_bbbb Q.t4_bbbbbbbb_xxxxxxxx),
    .aug X.quadruples_res [.arg Q.contracted_intermediate, ein1 L.abcdijkl L.abcdijlk Q.contracted_intermediate, ein1 L.abcdijkl L.abdcijkl Q.contracted_intermediate, ein1 L.abcdijkl L.abdcijlk Q.contracted_intermediate],
    set1 X.contracted_intermediate (ein3 L.nmef L.ecmj L.fabdnkli L.abcdijkl Q.g_aaaa_oaoavava Q.t2_abab Q.t4_abbbabbb_xxxxxxxx),
    .aug X.quadruples_res [.arg Q.contracted_intermediate, ein1 L.abcdijkl L.abcdjikl Q.contracted_intermediate, ein1 L.abcdijkl L.abdcijkl Q.contracted_intermediate, ein1 L.abcdijkl L.abdcjikl Q.contracted_intermediate],
    set1 X.contracted_intermediate (ein3 L.mnef L.ecmj L.fabdikln L.abcdijkl Q.g_abab_oaoavava Q.t2_abab Q.t4_bbbbbbbb_xxxxxxxx),
    .aug X.quadruples_res [.arg Q.contracted_intermediate, ein1 L.abcdijkl L.abcdjikl Q.contracted_intermediate, ein1 L.abcdijkl L.abdcijkl Q.contracted_intermediate, ein1 L.abcdijkl L.abdcjikl Q.contracted_intermediate],
    set1 X.contracted_intermediate (ein3 L.nmfe L.ecjm L.fabdnkli L.abcdijkl Q.g_abab_oaoavava Q.t2_bbbb Q.t4_abbbabbb_xxxxxxxx),
    .aug X.quadruples_res [.arg Q.contracted_intermediate, ein1 L.abcdijkl L.abcdjikl Q.contracted_intermediate, ein1 L.abcdijkl L.abdcijkl Q.contracted_intermediate, ein1 L.abcdijkl L.abdcjikl Q.contracted_intermediate],
    set1 X.contracted_intermediate (ein3 L.nmef L.ecjm L.fabdikln L.abcdijkl Q.g_bbbb_oaoavava Q.t2_bbbb Q.t4_bbbbbbbb_xxxxxxxx),
    .aug X.quadruples_res [.arg Q.contracted_intermediate, ein1 L.abcdijkl L.abcdjikl Q.contracted_intermediate, ein1 L.abcdijkl L.abdcijkl Q.contracted_intermediate, ein1 L.abcdijkl L.abdcjikl Q.contracted_intermediate],
    set1 X.contracted_intermediate (ein3 L.nmfe L.eckl L.fabdnjim L.abcdijkl Q.g_abab_oaoavava Q.t2_bbbb Q.t4_abbbabbb_xxxxxxxx),
    .aug X.quadruples_res [.arg Q.contracted_intermediate, ein1 L.abcdijkl L.abcdikjl Q.contracted_intermediate, ein1 L.abcdijkl L.abdcijkl Q.contracted_intermediate, ein1 L.abcdijkl L.abdcikjl Q.contracted_intermediate],
    set1 X.contracted_intermediate (ein3 L.mnfe L.eckl L.fabdmjni L.abcdijkl Q.g_abab_oaoavava Q.t2_bbbb Q.t4_abbbabbb_xxxxxxxx),
    .aug X.quadruples_res [.arg Q.contracted_intermediate, ein1 L.abcdijkl L.abcdikjl Q.contracted_intermediate, ein1 L.abcdijkl L.abdcijkl Q.contracted_intermediate, ein1 L.abcdijkl L.abdcikjl Q.contracted_intermediate],
    set1 X.contracted_intermediate (ein3 L.nmef L.eckl L.fabdijnm L.abcdijkl Q.g_bbbb_oaoavava Q.t2_bbbb Q.t4_bbbbbbbb_xxxxxxxx),
    .aug X.quadruples_res [.arg Q.contracted_intermediate, ein1 L.abcdijkl L.abcdikjl Q.contracted_intermediate, ein1 L.abcdijkl L.abdcijkl Q.contracted_intermediate, ein1 L.abcdijkl L.abdcikjl Q.contracted_intermediate],
    set1 X.contracted_intermediate (ein3 L.nmfe L.ecil L.fabdnkjm L.abcdijkl Q.g_abab_oaoavava Q.t2_bbbb Q.t4_abbbabbb_xxxxxxxx),
    .aug X.quadruples_res [.arg Q.contracted_intermediate, ein1 L.abcdijkl L.abcdijlk Q.contracted_intermediate, ein1 L.abcdijkl L.abdcijkl Q.contracted_intermediate, ein1 L.abcdijkl L.abdcijlk Q.contracted_intermediate],
    set1 X.contracted_intermediate (ein3 L.mnfe L.ecil L.fabdmknj L.abcdijkl Q.g_abab_oaoavava Q.t2_bbbb Q.t4_abbbabbb_xxxxxxxx),
    .aug X.quadruples_res [.arg Q.contracted_intermediate, ein1 L.abcdijkl L.abcdijlk Q.contracted_intermediate, ein1 L.abcdijkl L.abdcijkl Q.contracted_intermediate, ein1 L.abcdijkl L.abdcijlk Q.contracted_intermediate],
    set1 X.contracted_intermediate (ein3 L.nmef L.ecil L.fabdjknm L.abcdijkl Q.g_bbbb_oaoavava Q.t2_bbbb Q.t4_bbbbbbbb_xxxxxxxx),
    .aug X.quadruples_res [.arg Q.contracted_intermediate, ein1 L.abcdijkl L.abcdijlk Q.contracted_intermediate, ein1 L.abcdijkl L.abdcijkl Q.contracted_intermediate, ein1 L.abcdijkl L.abdcijlk Q.contracted_intermediate],
    set1 X.contracted_intermediate (ein3 L.nmfe L.ecjk L.fabdnlim L.abcdijkl Q.g_abab_oaoavava Q.t2_bbbb Q.t4_abbbabbb_xxxxxxxx),
    .aug X.quadruples_res [.arg Q.contracted_intermediate, ein1 L.abcdijkl L.abcdkjil Q.contracted_intermediate, ein1 L.abcdijkl L.abdcijkl Q.contracted_intermediate, ein1 L.abcdijkl L.abdckjil Q.contracted_intermediate],
    set1 X.contracted_intermediate (ein3 L.mnfe L.ecjk L.fabdmlni L.abcdijkl Q.g_abab_oaoavava Q.t2_bbbb Q.t4_abbbabbb_xxxxxxxx),
    .aug X.quadruples_res [.arg Q.contracted_intermediate, ein1 L.abcdijkl L.abcdkjil Q.contracted_intermediate, ein1 L.abcdijkl L.abdcijkl Q.contracted_intermediate, ein1 L.abcdijkl L.abdckjil Q.contracted_intermediate],
    set1 X.contracted_intermediate (ein3 L.nmef L.ecjk L.fabdilnm L.abcdijkl Q.g_bbbb_oaoavava Q.t2_bbbb Q.t4_bbbbbbbb_xxxxxxxx),
    .aug X.quadruples_res [.arg Q.contracted_intermediate, ein1 L.abcdijkl L.abcdkjil Q.contracted_intermediate, ein1 L.abcdijkl L.abdcijkl Q.contracted_intermediate, ein1 L.abcdijkl L.abdckjil Q.contracted_intermediate],
    set1 X.contracted_intermediate (ein3 L.nmef L.abnm L.efcdijkl L.abcdijkl Q.g_bbbb_oaoavava Q.t2_bbbb Q.t4_bbbbbbbb_xxxxxxxx),
    .aug X.quadruples_res [.arg Q.contracted_intermediate, ein1 L.abcdijkl L.acbdijkl Q.contracted_intermediate],
    set1 X.contracted_intermediate (ein3 L.nmef L.ablm L.efcdnjki L.abcdijkl Q.g_abab_oaoavava Q.t2_bbbb Q.t4_abbbabbb_xxxxxxxx),
    .aug X.quadruples_res [.arg Q.contracted_intermediate, ein1 L.abcdijkl L.abcdijlk Q.contracted_intermediate, ein1 L.abcdijkl L.acbdijkl Q.contracted_intermediate, ein1 L.abcdijkl L.acbdijlk Q.contracted_intermediate],
    set1 X.contracted_intermediate (ein3 L.nmfe L.ablm L.fecdnjki L.abcdijkl Q.g_abab_oaoavava Q.t2_bbbb Q.t4_abbbabbb_xxxxxxxx),
    .aug X.quadruples_res [.arg Q.contracted_intermediate, ein1 L.abcdijkl L.abcdijlk Q.contracted_intermediate, ein1 L.abcdijkl L.acbdijkl Q.contracted_intermediate, ein1 L.abcdijkl L.acbdijlk Q.contracted_intermediate],
    set1 X.contracted_intermediate (ein3 L.nmef L.ablm L.efcdijkn L.abcdijkl Q.g_bbbb_oaoavava Q.t2_bbbb Q.t4_bbbbbbbb_xxxxxxxx),
    .aug X.quadruples_res [.arg Q.contracted_intermediate, ein1 L.abcdijkl L.abcdijlk Q.contracted_intermediate, ein1 L.abcdijkl L.acbdijkl Q.contracted_intermediate, ein1 L.abcdijkl L.acbdijlk Q.contracted_intermediate],
    set1 X.contracted_intermediate (ein3 L.nmef L.abjm L.efcdnkli L.abcdijkl Q.g_abab_oaoavava Q.t2_bbbb Q.t4_abbbabbb_xxxxxxxx),
    .aug X.quadruples_res [.arg Q.contracted_intermediate, ein1 L.abcdijkl L.abcdjikl Q.contracted_intermediate, ein1 L.abcdijkl L.acbdijkl Q.contracted_intermediate, ein1 L.abcdijkl L.acbdjikl Q.contracted_intermediate],
    set1 X.contracted_intermediate (ein3 L.nmfe L.abjm L.fecdnkli L.abcdijkl Q.g_abab_oaoavava Q.t2_bbbb Q.t4_abbbabbb_xxxxxxxx),
    .aug X.quadruples_res [.arg Q.contracted_intermediate, ein1 L.abcdijkl L.abcdjikl Q.contracted_intermediate, ein1 L.abcdijkl L.acbdijkl Q.contracted_intermediate, ein1 L.abcdijkl L.acbdjikl Q.contracted_intermediate],
    set1 X.contracted_intermediate (ein3 L.nmef L.abjm L.efcdikln L.abcdijkl Q.g_bbbb_oaoavava Q.t2_bbbb Q.t4_bbbbbbbb_xxxxxxxx),
    .aug X.quadruples_res [.arg Q.contracted_intermediate, ein1 L.abcdijkl L.abcdjikl Q.contracted_intermediate, ein1 L.abcdijkl L.acbdijkl Q.contracted_intermediate, ein1 L.abcdijkl L.acbdjikl Q.contracted_intermediate],
    set1 X.contracted_intermediate (ein3 L.nmef L.adnm L.efbcijkl L.abcdijkl Q.g_bbbb_oaoavava Q.t2_bbbb Q.t4_bbbbbbbb_xxxxxxxx),
    .aug X.quadruples_res [.arg Q.contracted_intermediate, ein1 L.abcdijkl L.bacdijkl Q.contracted_intermediate],
    set1 X.contracted_intermediate (ein3 L.nmef L.adlm L.efbcnjki L.abcdijkl Q.g_abab_oaoavava Q.t2_bbbb Q.t4_abbbabbb_xxxxxxxx),
    .aug X.quadruples_res [.arg Q.contracted_intermediate, ein1 L.abcdijkl L.abcdijlk Q.contracted_intermediate, ein1 L.abcdijkl L.bacdijkl Q.contracted_intermediate, ein1 L.abcdijkl L.bacdijlk Q.contracted_intermediate],
    set1 X.contracted_intermediate (ein3 L.nmfe L.adlm L.febcnjki L.abcdijkl Q.g_abab_oaoavava Q.t2_bbbb Q.t4_abbbabbb_xxxxxxxx),
    .aug X.quadruples_res [.arg Q.contracted_intermediate, ein1 L.abcdijkl L.abcdijlk Q.contracted_intermediate, ein1 L.abcdijkl L.bacdijkl Q.contracted_intermediate, ein1 L.abcdijkl L.bacdijlk Q.contracted_intermediate],
    set1 X.contracted_intermediate (ein3 L.nmef L.adlm L.efbcijkn L.abcdijkl Q.g_bbbb_oaoavava Q.t2_bbbb Q.t4_bbbbbbbb_xxxxxxxx),
    .aug X.quadruples_res [.arg Q.contracted_intermediate, ein1 L.abcdijkl L.abcdijlk Q.contracted_intermediate, ein1 L.abcdijkl L.bacdijkl Q.contracted_intermediate, ein1 L.abcdijkl L.bacdijlk Q.contracted_intermediate],
    set1 X.contracted_intermediate (ein3 L.nmef L.adjm L.efbcnkli L.abcdijkl Q.g_abab_oaoavava Q.t2_bbbb Q.t4_abbbabbb_xxxxxxxx),
    .aug X.quadruples_res [.arg Q.contracted_intermediate, ein1 L.abcdijkl L.abcdjikl Q.contracted_intermediate, ein1 L.abcdijkl L.bacdijkl Q.contracted_intermediate, ein1 L.abcdijkl L.bacdjikl Q.contracted_intermediate],
    set1 X.contracted_intermediate (ein3 L.nmfe L.adjm L.febcnkli L.abcdijkl Q.g_abab_oaoavava Q.t2_bbbb Q.t4_abbbabbb_xxxxxxxx),
    .aug X.quadruples_res [.arg Q.contracted_intermediate, ein1 L.abcdijkl L.abcdjikl Q.contracted_intermediate, ein1 L.abcdijkl L.bacdijkl Q.contracted_intermediate, ein1 L.abcdijkl L.bacdjikl Q.contracted_intermediate],
    set1 X.contracted_intermediate (ein3 L.nmef L.adjm L.efbcikln L.abcdijkl Q.g_bbbb_oaoavava Q.t2_bbbb Q.t4_bbbbbbbb_xxxxxxxx),
    .aug X.quadruples_res [.arg Q.contracted_intermediate, ein1 L.abcdijkl L.abcdjikl Q.contracted_intermediate, ein1 L.abcdijkl L.bacdijkl Q.contracted_intermediate, ein1 L.abcdijkl L.bacdjikl Q.contracted_intermediate],
    set1 X.contracted_intermediate (ein3 L.nmef L.bcnm L.efadijkl L.abcdijkl Q.g_bbbb_oaoavava Q.t2_bbbb Q.t4_bbbbbbbb_xxxxxxxx),
    .aug X.quadruples_res [.arg Q.contracted_intermediate, ein1 L.abcdijkl L.adcbijkl Q.contracted_intermediate],
    set1 X.contracted_intermediate (ein3 L.nmef L.bclm L.efadnjki L.abcdijkl Q.g_abab_oaoavava Q.t2_bbbb Q.t4_abbbabbb_xxxxxxxx),
    .aug X.quadruples_res [.arg Q.contracted_intermediate, ein1 L.abcdijkl L.abcdijlk Q.contracted_intermediate, ein1 L.abcdijkl L.adcbijkl Q.contracted_intermediate, ein1 L.abcdijkl L.adcbijlk Q.contracted_intermediate],
    set1 X.contracted_intermediate (ein3 L.nmfe L.bclm L.feadnjki L.abcdijkl Q.g_abab_oaoavava Q.t2_bbbb Q.t4_abbbabbb_xxxxxxxx),
    .aug X.quadruples_res [.arg Q.contracted_intermediate, ein1 L.abcdijkl L.abcdijlk Q.contracted_intermediate, ein1 L.abcdijkl L.adcbijkl Q.contracted_intermediate, ein1 L.abcdijkl L.adcbijlk Q.contracted_intermediate],
    set1 X.contracted_intermediate (ein3 L.nmef L.bclm L.efadijkn L.abcdijkl Q.g_bbbb_oaoavava Q.t2_bbbb Q.t4_bbbbbbbb_xxxxxxxx),
    .aug X.quadruples_res [.arg Q.contracted_intermediate, ein1 L.abcdijkl L.abcdijlk Q.contracted_intermediate, ein1 L.abcdijkl L.adcbijkl Q.contracted_intermediate, ein1 L.abcdijkl L.adcbijlk Q.contracted_intermediate],
    set1 X.contracted_intermediate (ein3 L.nmef L.bcjm L.efadnkli L.abcdijkl Q.g_abab_oaoavava Q.t2_bbbb Q.t4_abbbabbb_xxxxxxxx),
    .aug X.quadruples_res [.arg Q.contracted_intermediate, ein1 L.abcdijkl L.abcdjikl Q.contracted_intermediate, ein1 L.abcdijkl L.adcbijkl Q.contracted_intermediate, ein1 L.abcdijkl L.adcbjikl Q.contracted_intermediate],
    set1 X.contracted_intermediate (ein3 L.nmfe L.bcjm L.feadnkli L.abcdijkl Q.g_abab_oaoavava Q.t2_bbbb Q.t4_abbbabbb_xxxxxxxx),
    .aug X.quadruples_res [.arg Q.contracted_intermediate, ein1 L.abcdijkl L.abcdjikl Q.contracted_intermediate, ein1 L.abcdijkl L.adcbijkl Q.contracted_intermediate, ein1 L.abcdijkl L.adcbjikl Q.contracted_intermediate],
    set1 X.contracted_intermediate (ein3 L.nmef L.bcjm L.efadikln L.abcdijkl Q.g_bbbb_oaoavava Q.t2_bbbb Q.t4_bbbbbbbb_xxxxxxxx),
    .aug X.quadruples_res [.arg Q.contracted_intermediate, ein1 L.abcdijkl L.abcdjikl Q.contracted_intermediate, ein1 L.abcdijkl L.adcbijkl Q.contracted_intermediate, ein1 L.abcdijkl L.adcbjikl Q.contracted_intermediate],
    set1 X.contracted_intermediate (ein3 L.nmkl L.abjm L.cdin L.abcdijkl Q.g_bbbb_oaoaoaoa Q.t2_bbbb Q.t2_bbbb),
    .aug X.quadruples_res [.arg Q.contracted_intermediate, ein1 L.abcdijkl L.abcdjikl Q.contracted_intermediate, ein1 L.abcdijkl L.acbdijkl Q.contracted_intermediate, ein1 L.abcdijkl L.acbdjikl Q.contracted_intermediate],
    set1 X.contracted_intermediate (ein3 L.nmkl L.adjm L.bcin L.abcdijkl Q.g_bbbb_oaoaoaoa Q.t2_bbbb Q.t2_bbbb),
    .aug X.quadruples_res [.arg Q.contracted_intermediate, ein1 L.abcdijkl L.abcdjikl Q.contracted_intermediate],
    set1 X.contracted_intermediate (ein3 L.nmjl L.abkm L.cdin L.abcdijkl Q.g_bbbb_oaoaoaoa Q.t2_bbbb Q.t2_bbbb),
    .aug X.quadruples_res [.arg Q.contracted_intermediate, ein1 L.abcdijkl L.abcdkjil Q.contracted_intermediate, ein1 L.abcdijkl L.acbdijkl Q.contracted_intermediate, ein1 L.abcdijkl L.acbdkjil Q.contracted_intermediate],
    set1 X.contracted_intermediate (ein3 L.nmjl L.adkm L.bcin L.abcdijkl Q.g_bbbb_oaoaoaoa Q.t2_bbbb Q.t2_bbbb),
    .aug X.quadruples_res [.arg Q.contracted_intermediate, ein1 L.abcdijkl L.abcdkjil Q.contracted_intermediate],
    set1 X.contracted_intermediate (ein3 L.nmil L.abkm L.cdjn L.abcdijkl Q.g_bbbb_oaoaoaoa Q.t2_bbbb Q.t2_bbbb),
    .aug X.quadruples_res [.arg Q.contracted_intermediate, ein1 L.abcdijkl L.abcdikjl Q.contracted_intermediate, ein1 L.abcdijkl L.acbdijkl Q.contracted_intermediate, ein1 L.abcdijkl L.acbdikjl Q.contracted_intermediate],
    set1 X.contracted_intermediate (ein3 L.nmil L.adkm L.bcjn L.abcdijkl Q.g_bbbb_oaoaoaoa Q.t2_bbbb Q.t2_bbbb),
    .aug X.quadruples_res [.arg Q.contracted_intermediate, ein1 L.abcdijkl L.abcdikjl Q.contracted_intermediate],
    set1 X.contracted_intermediate (ein3 L.nmjk L.ablm L.cdin L.abcdijkl Q.g_bbbb_oaoaoaoa Q.t2_bbbb Q.t2_bbbb),
    .aug X.quadruples_res [.arg Q.contracted_intermediate, ein1 L.abcdijkl L.abcdljki Q.contracted_intermediate, ein1 L.abcdijkl L.acbdijkl Q.contracted_intermediate, ein1 L.abcdijkl L.acbdljki Q.contracted_intermediate],
    set1 X.contracted_intermediate (ein3 L.nmjk L.adlm L.bcin L.abcdijkl Q.g_bbbb_oaoaoaoa Q.t2_bbbb Q.t2_bbbb),
    .aug X.quadruples_res [.arg Q.contracted_intermediate, ein1 L.abcdijkl L.abcdljki Q.contracted_intermediate],
    set1 X.contracted_intermediate (ein3 L.nmik L.ablm L.cdjn L.abcdijkl Q.g_bbbb_oaoaoaoa Q.t2_bbbb Q.t2_bbbb),
    .aug X.quadruples_res [.arg Q.contracted_intermediate, ein1 L.abcdijkl L.abcdilkj Q.contracted_intermediate, ein1 L.abcdijkl L.acbdijkl Q.contracted_intermediate, ein1 L.abcdijkl L.acbdilkj Q.contracted_intermediate],
    set1 X.contracted_intermediate (ein3 L.nmik L.adlm L.bcjn L.abcdijkl Q.g_bbbb_oaoaoaoa Q.t2_bbbb Q.t2_bbbb),
    .aug X.quadruples_res [.arg Q.contracted_intermediate, ein1 L.abcdijkl L.abcdilkj Q.contracted_intermediate],
    set1 X.contracted_intermediate (ein3 L.nmij L.ablm L.cdkn L.abcdijkl Q.g_bbbb_oaoaoaoa Q.t2_bbbb Q.t2_bbbb),
    .aug X.quadruples_res [.arg Q.contracted_intermediate, ein1 L.abcdijkl L.abcdijlk Q.contracted_intermediate, ein1 L.abcdijkl L.acbdijkl Q.contracted_intermediate, ein1 L.abcdijkl L.acbdijlk Q.contracted_intermediate],
    set1 X.contracted_intermediate (ein3 L.nmij L.adlm L.bckn L.abcdijkl Q.g_bbbb_oaoaoaoa Q.t2_bbbb Q.t2_bbbb),
    .aug X.quadruples_res [.arg Q.contracted_intermediate, ein1 L.abcdijkl L.abcdijlk Q.contracted_intermediate],
    set1 X.contracted_intermediate (ein3 L.mael L.ebjk L.cdim L.abcdijkl Q.g_bbbb_oavavaoa Q.t2_bbbb Q.t2_bbbb),
    .aug X.quadruples_res [.arg Q.contracted_intermediate, ein1 L.abcdijkl L.abcdjikl Q.contracted_intermediate, ein1 L.abcdijkl L.acbdijkl Q.contracted_intermediate, ein1 L.abcdijkl L.acbdjikl Q.contracted_intermediate],
    set1 X.contracted_intermediate (ein3 L.mael L.ebij L.cdkm L.abcdijkl Q.g_bbbb_oavavaoa Q.t2_bbbb Q.t2_bbbb),
    .aug X.quadruples_res [.arg Q.contracted_intermediate, ein1 L.abcdijkl L.abcdijlk Q.contracted_intermediate, ein1 L.abcdijkl L.acbdijkl Q.contracted_intermediate, ein1 L.abcdijkl L.acbdijlk Q.contracted_intermediate],
    set1 X.contracted_intermediate (ein3 L.mael L.edjk L.bcim L.abcdijkl Q.g_bbbb_oavavaoa Q.t2_bbbb Q.t2_bbbb),
    .aug X.quadruples_res [.arg Q.contracted_intermediate, ein1 L.abcdijkl L.abcdjikl Q.contracted_intermediate, ein1 L.abcdijkl L.bacdijkl Q.contracted_intermediate, ein1 L.abcdijkl L.bacdjikl Q.contracted_intermediate],
    set1 X.contracted_intermediate (ein3 L.mael L.edij L.bckm L.abcdijkl Q.g_bbbb_oavavaoa Q.t2_bbbb Q.t2_bbbb),
    .aug X.quadruples_res [.arg Q.contracted_intermediate, ein1 L.abcdijkl L.abcdijlk Q.contracted_intermediate, ein1 L.abcdijkl L.bacdijkl Q.contracted_intermediate, ein1 L.abcdijkl L.bacdijlk Q.contracted_intermediate],
    set1 X.contracted_intermediate (ein3 L.maek L.ebjl L.cdim L.abcdijkl Q.g_bbbb_oavavaoa Q.t2_bbbb Q.t2_bbbb),
    .aug X.quadruples_res [.arg Q.contracted_intermediate, ein1 L.abcdijkl L.abcdjikl Q.contracted_intermediate, ein1 L.abcdijkl L.acbdijkl Q.contracted_intermediate, ein1 L.abcdijkl L.acbdjikl Q.contracted_intermediate],
    set1 X.contracted_intermediate (ein3 L.maek L.edjl L.bcim L.abcdijkl Q.g_bbbb_oavavaoa Q.t2_bbbb Q.t2_bbbb),
    .aug X.quadruples_res [.arg Q.contracted_intermediate, ein1 L.abcdijkl L.abcdjikl Q.contracted_intermediate, ein1 L.abcdijkl L.bacdijkl Q.contracted_intermediate, ein1 L.abcdijkl L.bacdjikl Q.contracted_intermediate],
    set1 X.contracted_intermediate (ein3 L.maej L.ebkl L.cdim L.abcdijkl Q.g_bbbb_oavavaoa Q.t2_bbbb Q.t2_bbbb),
    .aug X.quadruples_res [.arg Q.contracted_intermediate, ein1 L.abcdijkl L.abcdkjil Q.contracted_intermediate, ein1 L.abcdijkl L.acbdijkl Q.contracted_intermediate, ein1 L.abcdijkl L.acbdkjil Q.contracted_intermediate],
    set1 X.contracted_intermediate (ein3 L.maej L.ebik L.cdlm L.abcdijkl Q.g_bbbb_oavavaoa Q.t2_bbbb Q.t2_bbbb),
    .aug X.quadruples_res [.arg Q.contracted_intermediate, ein1 L.abcdijkl L.abcdjikl Q.contracted_intermediate, ein1 L.abcdijkl L.acbdijkl Q.contracted_intermediate, ein1 L.abcdijkl L.acbdjikl Q.contracted_intermediate],
    set1 X.contracted_intermediate (ein3 L.maej L.edkl L.bcim L.abcdijkl Q.g_bbbb_oavavaoa Q.t2_bbbb Q.t2_bbbb),
    .aug X.quadruples_res [.arg Q.contracted_intermediate, ein1 L.abcdijkl L.abcdkjil Q.contracted_intermediate, ein1 L.abcdijkl L.bacdijkl Q.contracted_intermediate, ein1 L.abcdijkl L.bacdkjil Q.contracted_intermediate],
    set1 X.contracted_intermediate (ein3 L.maej L.edik L.bclm L.abcdijkl Q.g_bbbb_oavavaoa Q.t2_bbbb Q.t2_bbbb),
    .aug X.quadruples_res [.arg Q.contracted_intermediate, ein1 L.abcdijkl L.abcdjikl Q.contracted_intermediate, ein1 L.abcdijkl L.bacdijkl Q.contracted_intermediate, ein1 L.abcdijkl L.bacdjikl Q.contracted_intermediate],
    set1 X.contracted_intermediate (ein3 L.maei L.ebkl L.cdjm L.abcdijkl Q.g_bbbb_oavavaoa Q.t2_bbbb Q.t2_bbbb),
    .aug X.quadruples_res [.arg Q.contracted_intermediate, ein1 L.abcdijkl L.abcdikjl Q.contracted_intermediate, ein1 L.abcdijkl L.acbdijkl Q.contracted_intermediate, ein1 L.abcdijkl L.acbdikjl Q.contracted_intermediate],
    set1 X.contracted_intermediate (ein3 L.maei L.edkl L.bcjm L.abcdijkl Q.g_bbbb_oavavaoa Q.t2_bbbb Q.t2_bbbb),
    .aug X.quadruples_res [.arg Q.contracted_intermediate, ein1 L.abcdijkl L.abcdikjl Q.contracted_intermediate, ein1 L.abcdijkl L.bacdijkl Q.contracted_intermediate, ein1 L.abcdijkl L.bacdikjl Q.contracted_intermediate],
    set1 X.contracted_intermediate (ein3 L.mbel L.eajk L.cdim L.abcdijkl Q.g_bbbb_oavavaoa Q.t2_bbbb Q.t2_bbbb),
    .aug X.quadruples_res [.arg Q.contracted_intermediate, ein1 L.abcdijkl L.abcdjikl Q.contracted_intermediate, ein1 L.abcdijkl L.cbadijkl Q.contracted_intermediate, ein1 L.abcdijkl L.cbadjikl Q.contracted_intermediate],
    set1 X.contracted_intermediate (ein3 L.mbel L.eaij L.cdkm L.abcdijkl Q.g_bbbb_oavavaoa Q.t2_bbbb Q.t2_bbbb),
    .aug X.quadruples_res [.arg Q.contracted_intermediate, ein1 L.abcdijkl L.abcdijlk Q.contracted_intermediate, ein1 L.abcdijkl L.cbadijkl Q.contracted_intermediate, ein1 L.abcdijkl L.cbadijlk Q.contracted_intermediate],
    set1 X.contracted_intermediate (ein3 L.mbek L.eajl L.cdim L.abcdijkl Q.g_bbbb_oavavaoa Q.t2_bbbb Q.t2_bbbb),
    .aug X.quadruples_res [.arg Q.contracted_intermediate, ein1 L.abcdijkl L.abcdjikl Q.contracted_intermediate, ein1 L.abcdijkl L.cbadijkl Q.contracted_intermediate, ein1 L.abcdijkl L.cbadjikl Q.contracted_intermediate],
    set1 X.contracted_intermediate (ein3 L.mbej L.eakl L.cdim L.abcdijkl Q.g_bbbb_oavavaoa Q.t2_bbbb Q.t2_bbbb),
    .aug X.quadruples_res [.arg Q.contracted_intermediate, ein1 L.abcdijkl L.abcdkjil Q.contracted_intermediate, ein1 L.abcdijkl L.cbadijkl Q.contracted_intermediate, ein1 L.abcdijkl L.cbadkjil Q.contracted_intermediate],
    set1 X.contracted_intermediate (ein3 L.mbej L.eaik L.cdlm L.abcdijkl Q.g_bbbb_oavavaoa Q.t2_bbbb Q.t2_bbbb),
    .aug X.quadruples_res [.arg Q.contracted_intermediate, ein1 L.abcdijkl L.abcdjikl Q.contracted_intermediate, ein1 L.abcdijkl L.cbadijkl Q.contracted_intermediate, ein1 L.abcdijkl L.cbadjikl Q.contracted_intermediate],
    set1 X.contracted_intermediate (ein3 L.mbei L.eakl L.cdjm L.abcdijkl Q.g_bbbb_oavavaoa Q.t2_bbbb Q.t2_bbbb),
    .aug X.quadruples_res [.arg Q.contracted_intermediate, ein1 L.abcdijkl L.abcdikjl Q.contracted_intermediate, ein1 L.abcdijkl L.cbadijkl Q.contracted_intermediate, ein1 L.abcdijkl L.cbadikjl Q.contracted_intermediate],
    set1 X.contracted_intermediate (ein3 L.mcel L.eajk L.bdim L.abcdijkl Q.g_bbbb_oavavaoa Q.t2_bbbb Q.t2_bbbb),
    .aug X.quadruples_res [.arg Q.contracted_intermediate, ein1 L.abcdijkl L.abcdjikl Q.contracted_intermediate, ein1 L.abcdijkl L.bacdijkl Q.contracted_intermediate, ein1 L.abcdijkl L.bacdjikl Q.contracted_intermediate],
    set1 X.contracted_intermediate (ein3 L.mcel L.eaij L.bdkm L.abcdijkl Q.g_bbbb_oavavaoa Q.t2_bbbb Q.t2_bbbb),
    .aug X.quadruples_res [.arg Q.contracted_intermediate, ein1 L.abcdijkl L.abcdijlk Q.contracted_intermediate, ein1 L.abcdijkl L.bacdijkl Q.contracted_intermediate, ein1 L.abcdijkl L.bacdijlk Q.contracted_intermediate],
    set1 X.contracted_intermediate (ein3 L.mcel L.edjk L.abim L.abcdijkl Q.g_bbbb_oavavaoa Q.t2_bbbb Q.t2_bbbb),
    .aug X.quadruples_res [.arg Q.contracted_intermediate, ein1 L.abcdijkl L.abcdjikl Q.contracted_intermediate, ein1 L.abcdijkl L.abdcijkl Q.contracted_intermediate, ein1 L.abcdijkl L.abdcjikl Q.contracted_intermediate],
    set1 X.contracted_intermediate (ein3 L.mcel L.edij L.abkm L.abcdijkl Q.g_bbbb_oavavaoa Q.t2_bbbb Q.t2_bbbb),
    .aug X.quadruples_res [.arg Q.contracted_intermediate, ein1 L.abcdijkl L.abcdijlk Q.contracted_intermediate, ein1 L.abcdijkl L.abdcijkl Q.contracted_intermediate, ein1 L.abcdijkl L.abdcijlk Q.contracted_intermediate],
    set1 X.contracted_intermediate (ein3 L.mcek L.eajl L.bdim L.abcdijkl Q.g_bbbb_oavavaoa Q.t2_bbbb Q.t2_bbbb),
    .aug X.quadruples_res [.arg Q.contracted_intermediate, ein1 L.abcdijkl L.abcdjikl Q.contracted_intermediate, ein1 L.abcdijkl L.bacdijkl Q.contracted_intermediate, ein1 L.abcdijkl L.bacdjikl Q.contracted_intermediate],
    set1 X.contracted_intermediate (ein3 L.mcek L.edjl L.abim L.abcdijkl Q.g_bbbb_oavavaoa Q.t2_bbbb Q.t2_bbbb),
    .aug X.quadruples_res [.arg Q.contracted_intermediate, ein1 L.abcdijkl L.abcdjikl Q.contracted_intermediate, ein1 L.abcdijkl L.abdcijkl Q.contracted_intermediate, ein1 L.abcdijkl L.abdcjikl Q.contracted_intermediate],
    set1 X.contracted_intermediate (ein3 L.mcej L.eakl L.bdim L.abcdijkl Q.g_bbbb_oavavaoa Q.t2_bbbb Q.t2_bbbb),
    .aug X.quadruples_res [.arg Q.contracted_intermediate, ein1 L.abcdijkl L.abcdkjil Q.contracted_intermediate, ein1 L.abcdijkl L.bacdijkl Q.contracted_intermediate, ein1 L.abcdijkl L.bacdkjil Q.contracted_intermediate],
    set1 X.contracted_intermediate (ein3 L.mcej L.eaik L.bdlm L.abcdijkl Q.g_bbbb_oavavaoa Q.t2_bbbb Q.t2_bbbb),
    .aug X.quadruples_res [.arg Q.contracted_intermediate, ein1 L.abcdijkl L.abcdjikl Q.contracted_intermediate, ein1 L.abcdijkl L.bacdijkl Q.contracted_intermediate, ein1 L.abcdijkl L.bacdjikl Q.contracted_intermediate],
    set1 X.contracted_intermediate (ein3 L.mcej L.edkl L.abim L.abcdijkl Q.g_bbbb_oavavaoa Q.t2_bbbb Q.t2_bbbb),
    .aug X.quadruples_res [.arg Q.contracted_intermediate, ein1 L.abcdijkl L.abcdkjil Q.contracted_intermediate, ein1 L.abcdijkl L.abdcijkl Q.contracted_intermediate, ein1 L.abcdijkl L.abdckjil Q.contracted_intermediate],
    set1 X.contracted_intermediate (ein3 L.mcej L.edik L.ablm L.abcdijkl Q.g_bbbb_oavavaoa Q.t2_bbbb Q.t2_bbbb),
    .aug X.quadruples_res [.arg Q.contracted_intermediate, ein1 L.abcdijkl L.abcdjikl Q.contracted_intermediate, ein1 L.abcdijkl L.abdcijkl Q.contracted_intermediate, ein1 L.abcdijkl L.abdcjikl Q.contracted_intermediate],
    set1 X.contracted_intermediate (ein3 L.mcei L.eakl L.bdjm L.abcdijkl Q.g_bbbb_oavavaoa Q.t2_bbbb Q.t2_bbbb),
    .aug X.quadruples_res [.arg Q.contracted_intermediate, ein1 L.abcdijkl L.abcdikjl Q.contracted_intermediate, ein1 L.abcdijkl L.bacdijkl Q.contracted_intermediate, ein1 L.abcdijkl L.bacdikjl Q.contracted_intermediate],
    set1 X.contracted_intermediate (ein3 L.mcei L.edkl L.abjm L.abcdijkl Q.g_bbbb_oavavaoa Q.t2_bbbb Q.t2_bbbb),
    .aug X.quadruples_res [.arg Q.contracted_intermediate, ein1 L.abcdijkl L.abcdikjl Q.contracted_intermediate, ein1 L.abcdijkl L.abdcijkl Q.contracted_intermediate, ein1 L.abcdijkl L.abdcikjl Q.contracted_intermediate],
    set1 X.contracted_intermediate (ein3 L.mdel L.eajk L.bcim L.abcdijkl Q.g_bbbb_oavavaoa Q.t2_bbbb Q.t2_bbbb),
    .aug X.quadruples_res [.arg Q.contracted_intermediate, ein1 L.abcdijkl L.abcdjikl Q.contracted_intermediate, ein1 L.abcdijkl L.bacdijkl Q.contracted_intermediate, ein1 L.abcdijkl L.bacdjikl Q.contracted_intermediate],
    set1 X.contracted_intermediate (ein3 L.mdel L.eaij L.bckm L.abcdijkl Q.g_bbbb_oavavaoa Q.t2_bbbb Q.t2_bbbb),
    .aug X.quadruples_res [.arg Q.contracted_intermediate, ein1 L.abcdijkl L.abcdijlk Q.contracted_intermediate, ein1 L.abcdijkl L.bacdijkl Q.contracted_intermediate, ein1 L.abcdijkl L.bacdijlk Q.contracted_intermediate],
    set1 X.contracted_intermediate (ein3 L.mdek L.eajl L.bcim L.abcdijkl Q.g_bbbb_oavavaoa Q.t2_bbbb Q.t2_bbbb),
    .aug X.quadruples_res [.arg Q.contracted_intermediate, ein1 L.abcdijkl L.abcdjikl Q.contracted_intermediate, ein1 L.abcdijkl L.bacdijkl Q.contracted_intermediate, ein1 L.abcdijkl L.bacdjikl Q.contracted_intermediate],
    set1 X.contracted_intermediate (ein3 L.mdej L.eakl L.bcim L.abcdijkl Q.g_bbbb_oavavaoa Q.t2_bbbb Q.t2_bbbb),
    .aug X.quadruples_res [.arg Q.contracted_intermediate, ein1 L.abcdijkl L.abcdkjil Q.contracted_intermediate, ein1 L.abcdijkl L.bacdijkl Q.contracted_intermediate, ein1 L.abcdijkl L.bacdkjil Q.contracted_intermediate],
    set1 X.contracted_intermediate (ein3 L.mdej L.eaik L.bclm L.abcdijkl Q.g_bbbb_oavavaoa Q.t2_bbbb Q.t2_bbbb),
    .aug X.quadruples_res [.arg Q.contracted_intermediate, ein1 L.abcdijkl L.abcdjikl Q.contracted_intermediate, ein1 L.abcdijkl L.bacdijkl Q.contracted_intermediate, ein1 L.abcdijkl L.bacdjikl Q.contracted_intermediate],
    set1 X.contracted_intermediate (ein3 L.mdei L.eakl L.bcjm L.abcdijkl Q.g_bbbb_oavavaoa Q.t2_bbbb Q.t2_bbbb),
    .aug X.quadruples_res [.arg Q.contracted_intermediate, ein1 L.abcdijkl L.abcdikjl Q.contracted_intermediate, ein1 L.abcdijkl L.bacdijkl Q.contracted_intermediate, ein1 L.abcdijkl L.bacdikjl Q.contracted_intermediate],
    set1 X.contracted_intermediate (ein3 L.abef L.eckl L.fdij L.abcdijkl Q.g_bbbb_vavavava Q.t2_bbbb Q.t2_bbbb),
    .aug X.quadruples_res [.arg Q.contracted_intermediate, ein1 L.abcdijkl L.abcdikjl Q.contracted_intermediate, ein1 L.abcdijkl L.acbdijkl Q.contracted_intermediate, ein1 L.abcdijkl L.acbdikjl Q.contracted_intermediate],
    set1 X.contracted_intermediate (ein3 L.abef L.ecil L.fdjk L.abcdijkl Q.g_bbbb_vavavava Q.t2_bbbb Q.t2_bbbb),
    .aug X.quadruples_res [.arg Q.contracted_intermediate, ein1 L.abcdijkl L.abcdijlk Q.contracted_intermediate, ein1 L.abcdijkl L.acbdijkl Q.contracted_intermediate, ein1 L.abcdijkl L.acbdijlk Q.contracted_intermediate],
    set1 X.contracted_intermediate (ein3 L.abef L.ecjk L.fdil L.abcdijkl Q.g_bbbb_vavavava Q.t2_bbbb Q.t2_bbbb),
    .aug X.quadruples_res [.arg Q.contracted_intermediate, ein1 L.abcdijkl L.abcdkjil Q.contracted_intermediate, ein1 L.abcdijkl L.acbdijkl Q.contracted_intermediate, ein1 L.abcdijkl L.acbdkjil Q.contracted_intermediate],
    set1 X.contracted_intermediate (ein3 L.adef L.ebkl L.fcij L.abcdijkl Q.g_bbbb_vavavava Q.t2_bbbb Q.t2_bbbb),
    .aug X.quadruples_res [.arg Q.contracted_intermediate, ein1 L.abcdijkl L.abcdikjl Q.contracted_intermediate, ein1 L.abcdijkl L.bacdijkl Q.contracted_intermediate, ein1 L.abcdijkl L.bacdikjl Q.contracted_intermediate],
    set1 X.contracted_intermediate (ein3 L.adef L.ebil L.fcjk L.abcdijkl Q.g_bbbb_vavavava Q.t2_bbbb Q.t2_bbbb),
    .aug X.quadruples_res [.arg Q.contracted_intermediate, ein1 L.abcdijkl L.abcdijlk Q.contracted_intermediate, ein1 L.abcdijkl L.bacdijkl Q.contracted_intermediate, ein1 L.abcdijkl L.bacdijlk Q.contracted_intermediate],
    set1 X.contracted_intermediate (ein3 L.adef L.ebjk L.fcil L.abcdijkl Q.g_bbbb_vavavava Q.t2_bbbb Q.t2_bbbb),
    .aug X.quadruples_res [.arg Q.contracted_intermediate, ein1 L.abcdijkl L.abcdkjil Q.contracted_intermediate, ein1 L.abcdijkl L.bacdijkl Q.contracted_intermediate, ein1 L.abcdijkl L.bacdkjil Q.contracted_intermediate],
    set1 X.contracted_intermediate (ein3 L.bcef L.eakl L.fdij L.abcdijkl Q.g_bbbb_vavavava Q.t2_bbbb Q.t2_bbbb),
    .aug X.quadruples_res [.arg Q.contracted_intermediate, ein1 L.abcdijkl L.abcdikjl Q.contracted_intermediate, ein1 L.abcdijkl L.adcbijkl Q.contracted_intermediate, ein1 L.abcdijkl L.adcbikjl Q.contracted_intermediate],
    set1 X.contracted_intermediate (ein3 L.bcef L.eail L.fdjk L.abcdijkl Q.g_bbbb_vavavava Q.t2_bbbb Q.t2_bbbb),
    .aug X.quadruples_res [.arg Q.contracted_intermediate, ein1 L.abcdijkl L.abcdijlk Q.contracted_intermediate, ein1 L.abcdijkl L.adcbijkl Q.contracted_intermediate, ein1 L.abcdijkl L.adcbijlk Q.contracted_intermediate],
    set1 X.contracted_intermediate (ein3 L.bcef L.eajk L.fdil L.abcdijkl Q.g_bbbb_vavavava Q.t2_bbbb Q.t2_bbbb),
    .aug X.quadruples_res [.arg Q.contracted_intermediate, ein1 L.abcdijkl L.abcdkjil Q.contracted_intermediate, ein1 L.abcdijkl L.adcbijkl Q.contracted_intermediate, ein1 L.abcdijkl L.adcbkjil Q.contracted_intermediate],
    set1 X.contracted_intermediate (ein4 L.nmef L.efkl L.abjm L.cdin L.abcdijkl Q.g_bbbb_oaoavava Q.t2_bbbb Q.t2_bbbb Q.t2_bbbb),
    .aug X.quadruples_res [.arg Q.contracted_intermediate, ein1 L.abcdijkl L.abcdjikl Q.contracted_intermediate, ein1 L.abcdijkl L.acbdijkl Q.contracted_intermediate, ein1 L.abcdijkl L.acbdjikl Q.contracted_intermediate],
    set1 X.contracted_intermediate (ein4 L.nmef L.efkl L.adjm L.bcin L.abcdijkl Q.g_bbbb_oaoavava Q.t2_bbbb Q.t2_bbbb Q.t2_bbbb),
    .aug X.quadruples_res [.arg Q.contracted_intermediate, ein1 L.abcdijkl L.abcdjikl Q.contracted_intermediate],
    set1 X.contracted_intermediate (ein4 L.nmef L.efjl L.abkm L.cdin L.abcdijkl Q.g_bbbb_oaoavava Q.t2_bbbb Q.t2_bbbb Q.t2_bbbb),
    .aug X.quadruples_res [.arg Q.contracted_intermediate, ein1 L.abcdijkl L.abcdkjil Q.contracted_intermediate, ein1 L.abcdijkl L.acbdijkl Q.contracted_intermediate, ein1 L.abcdijkl L.acbdkjil Q.contracted_intermediate],
    set1 X.contracted_intermediate (ein4 L.nmef L.efjl L.adkm L.bcin L.abcdijkl Q.g_bbbb_oaoavava Q.t2_bbbb Q.t2_bbbb Q.t2_bbbb),
    .aug X.quadruples_res [.arg Q.contracted_intermediate, ein1 L.abcdijkl L.abcdkjil Q.contracted_intermediate],
    set1 X.contracted_intermediate (ein4 L.nmef L.efil L.abkm L.cdjn L.abcdijkl Q.g_bbbb_oaoavava Q.t2_bbbb Q.t2_bbbb Q.t2_bbbb),
    .aug X.quadruples_res [.arg Q.contracted_intermediate, ein1 L.abcdijkl L.abcdikjl Q.contracted_intermediate, ein1 L.abcdijkl L.acbdijkl Q.contracted_intermediate, ein1 L.abcdijkl L.acbdikjl Q.contracted_intermediate],
    set1 X.contracted_intermediate (ein4 L.nmef L.efil L.adkm L.bcjn L.abcdijkl Q.g_bbbb_oaoavava Q.t2_bbbb Q.t2_bbbb Q.t2_bbbb),
    .aug X.quadruples_res [.arg Q.contracted_intermediate, ein1 L.abcdijkl L.abcdikjl Q.contracted_intermediate],
    set1 X.contracted_intermediate (ein4 L.nmef L.efjk L.ablm L.cdin L.abcdijkl Q.g_bbbb_oaoavava Q.t2_bbbb Q.t2_bbbb Q.t2_bbbb),
    .aug X.quadruples_res [.arg Q.contracted_intermediate, ein1 L.abcdijkl L.abcdljki Q.contracted_intermediate, ein1 L.abcdijkl L.acbdijkl Q.contracted_intermediate, ein1 L.abcdijkl L.acbdljki Q.contracted_intermediate],
    set1 X.contracted_intermediate (ein4 L.nmef L.efjk L.adlm L.bcin L.abcdijkl Q.g_bbbb_oaoavava Q.t2_bbbb Q.t2_bbbb Q.t2_bbbb),
    .aug X.quadruples_res [.arg Q.contracted_intermediate, ein1 L.abcdijkl L.abcdljki Q.contracted_intermediate],
    set1 X.contracted_intermediate (ein4 L.nmef L.efik L.ablm L.cdjn L.abcdijkl Q.g_bbbb_oaoavava Q.t2_bbbb Q.t2_bbbb Q.t2_bbbb),
    .aug X.quadruples_res [.arg Q.contracted_intermediate, ein1 L.abcdijkl L.abcdilkj Q.contracted_intermediate, ein1 L.abcdijkl L.acbdijkl Q.contracted_intermediate, ein1 L.abcdijkl L.acbdilkj Q.contracted_intermediate],
    set1 X.contracted_intermediate (ein4 L.nmef L.efik L.adlm L.bcjn L.abcdijkl Q.g_bbbb_oaoavava Q.t2_bbbb Q.t2_bbbb Q.t2_bbbb),
    .aug X.quadruples_res [.arg Q.contracted_intermediate, ein1 L.abcdijkl L.abcdilkj Q.contracted_intermediate],
    set1 X.contracted_intermediate (ein4 L.nmef L.efij L.ablm L.cdkn L.abcdijkl Q.g_bbbb_oaoavava Q.t2_bbbb Q.t2_bbbb Q.t2_bbbb),
    .aug X.quadruples_res [.arg Q.contracted_intermediate, ein1 L.abcdijkl L.abcdijlk Q.contracted_intermediate, ein1 L.abcdijkl L.acbdijkl Q.contracted_intermediate, ein1 L.abcdijkl L.acbdijlk Q.contracted_intermediate],
    set1 X.contracted_intermediate (ein4 L.nmef L.efij L.adlm L.bckn L.abcdijkl Q.g_bbbb_oaoavava Q.t2_bbbb Q.t2_bbbb Q.t2_bbbb),
    .aug X.quadruples_res [.arg Q.contracted_intermediate, ein1 L.abcdijkl L.abcdijlk Q.contracted_intermediate],
    set1 X.contracted_intermediate (ein4 L.mnef L.eaml L.fbjk L.cdin L.abcdijkl Q.g_abab_oaoavava Q.t2_abab Q.t2_bbbb Q.t2_bbbb),
    .aug X.quadruples_res [.arg Q.contracted_intermediate, ein1 L.abcdijkl L.abcdjikl Q.contracted_intermediate, ein1 L.abcdijkl L.acbdijkl Q.contracted_intermediate, ein1 L.abcdijkl L.acbdjikl Q.contracted_intermediate],
    set1 X.contracted_intermediate (ein4 L.nmef L.ealm L.fbjk L.cdin L.abcdijkl Q.g_bbbb_oaoavava Q.t2_bbbb Q.t2_bbbb Q.t2_bbbb),
    .aug X.quadruples_res [.arg Q.contracted_intermediate, ein1 L.abcdijkl L.abcdjikl Q.contracted_intermediate, ein1 L.abcdijkl L.acbdijkl Q.contracted_intermediate, ein1 L.abcdijkl L.acbdjikl Q.contracted_intermediate],
    set1 X.contracted_intermediate (ein4 L.mnef L.eaml L.fbij L.cdkn L.abcdijkl Q.g_abab_oaoavava Q.t2_abab Q.t2_bbbb Q.t2_bbbb),
    .aug X.quadruples_res [.arg Q.contracted_intermediate, ein1 L.abcdijkl L.abcdijlk Q.contracted_intermediate, ein1 L.abcdijkl L.acbdijkl Q.contracted_intermediate, ein1 L.abcdijkl L.acbdijlk Q.contracted_intermediate],
    set1 X.contracted_intermediate (ein4 L.nmef L.ealm L.fbij L.cdkn L.abcdijkl Q.g_bbbb_oaoavava Q.t2_bbbb Q.t2_bbbb Q.t2_bbbb),
    .aug X.quadruples_res [.arg Q.contracted_intermediate, ein1 L.abcdijkl L.abcdijlk Q.contracted_intermediate, ein1 L.abcdijkl L.acbdijkl Q.contracted_intermediate, ein1 L.abcdijkl L.acbdijlk Q.contracted_intermediate],
    set1 X.contracted_intermediate (ein4 L.mnef L.eaml L.fdjk L.bcin L.abcdijkl Q.g_abab_oaoavava Q.t2_abab Q.t2_bbbb Q.t2_bbbb),
    .aug X.quadruples_res [.arg Q.contracted_intermediate, ein1 L.abcdijkl L.abcdjikl Q.contracted_intermediate, ein1 L.abcdijkl L.bacdijkl Q.contracted_intermediate, ein1 L.abcdijkl L.bacdjikl Q.contracted_intermediate],
    set1 X.contracted_intermediate (ein4 L.nmef L.ealm L.fdjk L.bcin L.abcdijkl Q.g_bbbb_oaoavava Q.t2_bbbb Q.t2_bbbb Q.t2_bbbb),
    .aug X.quadruples_res [.arg Q.contracted_intermediate, ein1 L.abcdijkl L.abcdjikl Q.contracted_intermediate, ein1 L.abcdijkl L.bacdijkl Q.contracted_intermediate, ein1 L.abcdijkl L.bacdjikl Q.contracted_intermediate],
    set1 X.contracted_intermediate (ein4 L.mnef L.eaml L.fdij L.bckn L.abcdijkl Q.g_abab_oaoavava Q.t2_abab Q.t2_bbbb Q.t2_bbbb),
    .aug X.quadruples_res [.arg Q.contracted_intermediate, ein1 L.abcdijkl L.abcdijlk Q.contracted_intermediate, ein1 L.abcdijkl L.bacdijkl Q.contracted_intermediate, ein1 L.abcdijkl L.bacdijlk Q.contracted_intermediate],
    set1 X.contracted_intermediate (ein4 L.nmef L.ealm L.fdij L.bckn L.abcdijkl Q.g_bbbb_oaoavava Q.t2_bbbb Q.t2_bbbb Q.t2_bbbb),
    .aug X.quadruples_res [.arg Q.contracted_intermediate, ein1 L.abcdijkl L.abcdijlk Q.contracted_intermediate, ein1 L.abcdijkl L.bacdijkl Q.contracted_intermediate, ein1 L.abcdijkl L.bacdijlk Q.contracted_intermediate],
    set1 X.contracted_intermediate (ein4 L.mnef L.eamk L.fbjl L.cdin L.abcdijkl Q.g_abab_oaoavava Q.t2_abab Q.t2_bbbb Q.t2_bbbb),
    .aug X.quadruples_res [.arg Q.contracted_intermediate, ein1 L.abcdijkl L.abcdjikl Q.contracted_intermediate, ein1 L.abcdijkl L.acbdijkl Q.contracted_intermediate, ein1 L.abcdijkl L.acbdjikl Q.contracted_intermediate],
    set1 X.contracted_intermediate (ein4 L.nmef L.eakm L.fbjl L.cdin L.abcdijkl Q.g_bbbb_oaoavava Q.t2_bbbb Q.t2_bbbb Q.t2_bbbb),
    .aug X.quadruples_res [.arg Q.contracted_intermediate, ein1 L.abcdijkl L.abcdjikl Q.contracted_intermediate, ein1 L.abcdijkl L.acbdijkl Q.contracted_intermediate, ein1 L.abcdijkl L.acbdjikl Q.contracted_intermediate],
    set1 X.contracted_intermediate (ein4 L.mnef L.eamk L.fdjl L.bcin L.abcdijkl Q.g_abab_oaoavava Q.t2_abab Q.t2_bbbb Q.t2_bbbb),
    .aug X.quadruples_res [.arg Q.contracted_intermediate, ein1 L.abcdijkl L.abcdjikl Q.contracted_intermediate, ein1 L.abcdijkl L.bacdijkl Q.contracted_intermediate, ein1 L.abcdijkl L.bacdjikl Q.contracted_intermediate],
    set1 X.contracted_intermediate (ein4 L.nmef L.eakm L.fdjl L.bcin L.abcdijkl Q.g_bbbb_oaoavava Q.t2_bbbb Q.t2_bbbb Q.t2_bbbb),
    .aug X.quadruples_res [.arg Q.contracted_intermediate, ein1 L.abcdijkl L.abcdjikl Q.contracted_intermediate, ein1 L.abcdijkl L.bacdijkl Q.contracted_intermediate, ein1 L.abcdijkl L.bacdjikl Q.contracted_intermediate],
    set1 X.contracted_intermediate (ein4 L.mnef L.eamj L.fbkl L.cdin L.abcdijkl Q.g_abab_oaoavava Q.t2_abab Q.t2_bbbb Q.t2_bbbb),
    .aug X.quadruples_res [.arg Q.contracted_intermediate, ein1 L.abcdijkl L.abcdkjil Q.contracted_intermediate, ein1 L.abcdijkl L.acbdijkl Q.contracted_intermediate, ein1 L.abcdijkl L.acbdkjil Q.contracted_intermediate],
    set1 X.contracted_intermediate (ein4 L.nmef L.eajm L.fbkl L.cdin L.abcdijkl Q.g_bbbb_oaoavava Q.t2_bbbb Q.t2_bbbb Q.t2_bbbb),
    .aug X.quadruples_res [.arg Q.contracted_intermediate, ein1 L.abcdijkl L.abcdkjil Q.contracted_intermediate, ein1 L.abcdijkl L.acbdijkl Q.contracted_intermediate, ein1 L.abcdijkl L.acbdkjil Q.contracted_intermediate],
    set1 X.contracted_intermediate (ein4 L.mnef L.eamj L.fbik L.cdln L.abcdijkl Q.g_abab_oaoavava Q.t2_abab Q.t2_bbbb Q.t2_bbbb),
    .aug X.quadruples_res [.arg Q.contracted_intermediate, ein1 L.abcdijkl L.abcdjikl Q.contracted_intermediate, ein1 L.abcdijkl L.acbdijkl Q.contracted_intermediate, ein1 L.abcdijkl L.acbdjikl Q.contracted_intermediate],
    set1 X.contracted_intermediate (ein4 L.nmef L.eajm L.fbik L.cdln L.abcdijkl Q.g_bbbb_oaoavava Q.t2_bbbb Q.t2_bbbb Q.t2_bbbb),
    .aug X.quadruples_res [.arg Q.contracted_intermediate, ein1 L.abcdijkl L.abcdjikl Q.contracted_intermediate, ein1 L.abcdijkl L.acbdijkl Q.contracted_intermediate, ein1 L.abcdijkl L.acbdjikl Q.contracted_intermediate],
    set1 X.contracted_intermediate (ein4 L.mnef L.eamj L.fdkl L.bcin L.abcdijkl Q.g_abab_oaoavava Q.t2_abab Q.t2_bbbb Q.t2_bbbb),
    .aug X.quadruples_res [.arg Q.contracted_intermediate, ein1 L.abcdijkl L.abcdkjil Q.contracted_intermediate, ein1 L.abcdijkl L.bacdijkl Q.contracted_intermediate, ein1 L.abcdijkl L.bacdkjil Q.contracted_intermediate],
    set1 X.contracted_intermediate (ein4 L.nmef L.eajm L.fdkl L.bcin L.abcdijkl Q.g_bbbb_oaoavava Q.t2_bbbb Q.t2_bbbb Q.t2_bbbb),
    .aug X.quadruples_res [.arg Q.contracted_intermediate, ein1 L.abcdijkl L.abcdkjil Q.contracted_intermediate, ein1 L.abcdijkl L.bacdijkl Q.contracted_intermediate, ein1 L.abcdijkl L.bacdkjil Q.contracted_intermediate],
    set1 X.contracted_intermediate (ein4 L.mnef L.eamj L.fdik L.bcln L.abcdijkl Q.g_abab_oaoavava Q.t2_abab Q.t2_bbbb Q.t2_bbbb),
    .aug X.quadruples_res [.arg Q.contracted_intermediate, ein1 L.abcdijkl L.abcdjikl Q.contracted_intermediate, ein1 L.abcdijkl L.bacdijkl Q.contracted_intermediate, ein1 L.abcdijkl L.bacdjikl Q.contracted_intermediate],
    set1 X.contracted_intermediate (ein4 L.nmef L.eajm L.fdik L.bcln L.abcdijkl Q.g_bbbb_oaoavava Q.t2_bbbb Q.t2_bbbb Q.t2_bbbb),
    .aug X.quadruples_res [.arg Q.contracted_intermediate, ein1 L.abcdijkl L.abcdjikl Q.contracted_intermediate, ein1 L.abcdijkl L.bacdijkl Q.contracted_intermediate, ein1 L.abcdijkl L.bacdjikl Q.contracted_intermediate],
    set1 X.contracted_intermediate (ein4 L.mnef L.eami L.fbkl L.cdjn L.abcdijkl Q.g_abab_oaoavava Q.t2_abab Q.t2_bbbb Q.t2_bbbb),
    .aug X.quadruples_res [.arg Q.contracted_intermediate, ein1 L.abcdijkl L.abcdikjl Q.contracted_intermediate, ein1 L.abcdijkl L.acbdijkl Q.contracted_intermediate, ein1 L.abcdijkl L.acbdikjl Q.contracted_intermediate],
    set1 X.contracted_intermediate (ein4 L.nmef L.eaim L.fbkl L.cdjn L.abcdijkl Q.g_bbbb_oaoavava Q.t2_bbbb Q.t2_bbbb Q.t2_bbbb),
    .aug X.quadruples_res [.arg Q.contracted_intermediate, ein1 L.abcdijkl L.abcdikjl Q.contracted_intermediate, ein1 L.abcdijkl L.acbdijkl Q.contracted_intermediate, ein1 L.abcdijkl L.acbdikjl Q.contracted_intermediate],
    set1 X.contracted_intermediate (ein4 L.mnef L.eami L.fdkl L.bcjn L.abcdijkl Q.g_abab_oaoavava Q.t2_abab Q.t2_bbbb Q.t2_bbbb),
    .aug X.quadruples_res [.arg Q.contracted_intermediate, ein1 L.abcdijkl L.abcdikjl Q.contracted_intermediate, ein1 L.abcdijkl L.bacdijkl Q.contracted_intermediate, ein1 L.abcdijkl L.bacdikjl Q.contracted_intermediate],
    set1 X.contracted_intermediate (ein4 L.nmef L.eaim L.fdkl L.bcjn L.abcdijkl Q.g_bbbb_oaoavava Q.t2_bbbb Q.t2_bbbb Q.t2_bbbb),
    .aug X.quadruples_res [.arg Q.contracted_intermediate, ein1 L.abcdijkl L.abcdikjl Q.contracted_intermediate, ein1 L.abcdijkl L.bacdijkl Q.contracted_intermediate, ein1 L.abcdijkl L.bacdikjl Q.contracted_intermediate],
    set1 X.contracted_intermediate (ein4 L.mnfe L.eakl L.fbmj L.cdin L.abcdijkl Q.g_abab_oaoavava Q.t2_bbbb Q.t2_abab Q.t2_bbbb),
    .aug X.quadruples_res [.arg Q.contracted_intermediate, ein1 L.abcdijkl L.abcdjikl Q.contracted_intermediate, ein1 L.abcdijkl L.acbdijkl Q.contracted_intermediate, ein1 L.abcdijkl L.acbdjikl Q.contracted_intermediate],
    set1 X.contracted_intermediate (ein4 L.nmef L.eakl L.fbjm L.cdin L.abcdijkl Q.g_bbbb_oaoavava Q.t2_bbbb Q.t2_bbbb Q.t2_bbbb),
    .aug X.quadruples_res [.arg Q.contracted_intermediate, ein1 L.abcdijkl L.abcdjikl Q.contracted_intermediate, ein1 L.abcdijkl L.acbdijkl Q.contracted_intermediate, ein1 L.abcdijkl L.acbdjikl Q.contracted_intermediate],
    set1 X.contracted_intermediate (ein4 L.nmef L.eakl L.fbij L.cdnm L.abcdijkl Q.g_bbbb_oaoavava Q.t2_bbbb Q.t2_bbbb Q.t2_bbbb),
    .aug X.quadruples_res [.arg Q.contracted_intermediate, ein1 L.abcdijkl L.abcdikjl Q.contracted_intermediate, ein1 L.abcdijkl L.acbdijkl Q.contracted_intermediate, ein1 L.abcdijkl L.acbdikjl Q.contracted_intermediate],
    set1 X.contracted_intermediate (ein4 L.mnfe L.eakl L.fdmj L.bcin L.abcdijkl Q.g_abab_oaoavava Q.t2_bbbb Q.t2_abab Q.t2_bbbb),
    .aug X.quadruples_res [.arg Q.contracted_intermediate, ein1 L.abcdijkl L.abcdjikl Q.contracted_intermediate, ein1 L.abcdijkl L.bacdijkl Q.contracted_intermediate, ein1 L.abcdijkl L.bacdjikl Q.contracted_intermediate],
    set1 X.contracted_intermediate (ein4 L.nmef L.eakl L.fdjm L.bcin L.abcdijkl Q.g_bbbb_oaoavava Q.t2_bbbb Q.t2_bbbb Q.t2_bbbb),
    .aug X.quadruples_res [.arg Q.contracted_intermediate, ein1 L.abcdijkl L.abcdjikl Q.contracted_intermediate, ein1 L.abcdijkl L.bacdijkl Q.contracted_intermediate, ein1 L.abcdijkl L.bacdjikl Q.contracted_intermediate],
    set1 X.contracted_intermediate (ein4 L.nmef L.eakl L.fdij L.bcnm L.abcdijkl Q.g_bbbb_oaoavava Q.t2_bbbb Q.t2_bbbb Q.t2_bbbb),
    .aug X.quadruples_res [.arg Q.contracted_intermediate, ein1 L.abcdijkl L.abcdikjl Q.contracted_intermediate, ein1 L.abcdijkl L.bacdijkl Q.contracted_intermediate, ein1 L.abcdijkl L.bacdikjl Q.contracted_intermediate],
    set1 X.contracted_intermediate (ein4 L.mnfe L.eajl L.fbmk L.cdin L.abcdijkl Q.g_abab_oaoavava Q.t2_bbbb Q.t2_abab Q.t2_bbbb),
    .aug X.quadruples_res [.arg Q.contracted_intermediate, ein1 L.abcdijkl L.abcdkjil Q.contracted_intermediate, ein1 L.abcdijkl L.acbdijkl Q.contracted_intermediate, ein1 L.abcdijkl L.acbdkjil Q.contracted_intermediate],
    set1 X.contracted_intermediate (ein4 L.nmef L.eajl L.fbkm L.cdin L.abcdijkl Q.g_bbbb_oaoavava Q.t2_bbbb Q.t2_bbbb Q.t2_bbbb),
    .aug X.quadruples_res [.arg Q.contracted_intermediate, ein1 L.abcdijkl L.abcdkjil Q.contracted_intermediate, ein1 L.abcdijkl L.acbdijkl Q.contracted_intermediate, ein1 L.abcdijkl L.acbdkjil Q.contracted_intermediate],
    set1 X.contracted_intermediate (ein4 L.mnfe L.eajl L.fdmk L.bcin L.abcdijkl Q.g_abab_oaoavava Q.t2_bbbb Q.t2_abab Q.t2_bbbb),
    .aug X.quadruples_res [.arg Q.contracted_intermediate, ein1 L.abcdijkl L.abcdkjil Q.contracted_intermediate, ein1 L.abcdijkl L.bacdijkl Q.contracted_intermediate, ein1 L.abcdijkl L.bacdkjil Q.contracted_intermediate],
    set1 X.contracted_intermediate (ein4 L.nmef L.eajl L.fdkm L.bcin L.abcdijkl Q.g_bbbb_oaoavava Q.t2_bbbb Q.t2_bbbb Q.t2_bbbb),
    .aug X.quadruples_res [.arg Q.contracted_intermediate, ein1 L.abcdijkl L.abcdkjil Q.contracted_intermediate, ein1 L.abcdijkl L.bacdijkl Q.contracted_intermediate, ein1 L.abcdijkl L.bacdkjil Q.contracted_intermediate],
    set1 X.contracted_intermediate (ein4 L.mnfe L.eail L.fbmk L.cdjn L.abcdijkl Q.g_abab_oaoavava Q.t2_bbbb Q.t2_abab Q.t2_bbbb),
    .aug X.quadruples_res [.arg Q.contracted_intermediate, ein1 L.abcdijkl L.abcdikjl Q.contracted_intermediate, ein1 L.abcdijkl L.acbdijkl Q.contracted_intermediate, ein1 L.abcdijkl L.acbdikjl Q.contracted_intermediate],
    set1 X.contracted_intermediate (ein4 L.nmef L.eail L.fbkm L.cdjn L.abcdijkl Q.g_bbbb_oaoavava Q.t2_bbbb Q.t2_bbbb Q.t2_bbbb),
    .aug X.quadruples_res [.arg Q.contracted_intermediate, ein1 L.abcdijkl L.abcdikjl Q.contracted_intermediate, ein1 L.abcdijkl L.acbdijkl Q.contracted_intermediate, ein1 L.abcdijkl L.acbdikjl Q.contracted_intermediate],
    set1 X.contracted_intermediate (ein4 L.nmef L.eail L.fbjk L.cdnm L.abcdijkl Q.g_bbbb_oaoavava Q.t2_bbbb Q.t2_bbbb Q.t2_bbbb),
    .aug X.quadruples_res [.arg Q.contracted_intermediate, ein1 L.abcdijkl L.abcdijlk Q.contracted_intermediate, ein1 L.abcdijkl L.acbdijkl Q.contracted_intermediate, ein1 L.abcdijkl L.acbdijlk Q.contracted_intermediate],
    set1 X.contracted_intermediate (ein4 L.mnfe L.eail L.fdmk L.bcjn L.abcdijkl Q.g_abab_oaoavava Q.t2_bbbb Q.t2_abab Q.t2_bbbb),
    .aug X.quadruples_res [.arg Q.contracted_intermediate, ein1 L.abcdijkl L.abcdikjl Q.contracted_intermediate, ein1 L.abcdijkl L.bacdijkl Q.contracted_intermediate, ein1 L.abcdijkl L.bacdikjl Q.contracted_intermediate],
    set1 X.contracted_intermediate (ein4 L.nmef L.eail L.fdkm L.bcjn L.abcdijkl Q.g_bbbb_oaoavava Q.t2_bbbb Q.t2_bbbb Q.t2_bbbb),
    .aug X.quadruples_res [.arg Q.contracted_intermediate, ein1 L.abcdijkl L.abcdikjl Q.contracted_intermediate, ein1 L.abcdijkl L.bacdijkl Q.contracted_intermediate, ein1 L.abcdijkl L.bacdikjl Q.contracted_intermediate],
    set1 X.contracted_intermediate (ein4 L.nmef L.eail L.fdjk L.bcnm L.abcdijkl Q.g_bbbb_oaoavava Q.t2_bbbb Q.t2_bbbb Q.t2_bbbb),
    .aug X.quadruples_res [.arg Q.contracted_intermediate, ein1 L.abcdijkl L.abcdijlk Q.contracted_intermediate, ein1 L.abcdijkl L.bacdijkl Q.contracted_intermediate, ein1 L.abcdijkl L.bacdijlk Q.contracted_intermediate],
    set1 X.contracted_intermediate (ein4 L.mnfe L.eajk L.fbml L.cdin L.abcdijkl Q.g_abab_oaoavava Q.t2_bbbb Q.t2_abab Q.t2_bbbb),
    .aug X.quadruples_res [.arg Q.contracted_intermediate, ein1 L.abcdijkl L.abcdljki Q.contracted_intermediate, ein1 L.abcdijkl L.acbdijkl Q.contracted_intermediate, ein1 L.abcdijkl L.acbdljki Q.contracted_intermediate],
    set1 X.contracted_intermediate (ein4 L.nmef L.eajk L.fblm L.cdin L.abcdijkl Q.g_bbbb_oaoavava Q.t2_bbbb Q.t2_bbbb Q.t2_bbbb),
    .aug X.quadruples_res [.arg Q.contracted_intermediate, ein1 L.abcdijkl L.abcdljki Q.contracted_intermediate, ein1 L.abcdijkl L.acbdijkl Q.contracted_intermediate, ein1 L.abcdijkl L.acbdljki Q.contracted_intermediate],
    set1 X.contracted_intermediate (ein4 L.nmef L.eajk L.fbil L.cdnm L.abcdijkl Q.g_bbbb_oaoavava Q.t2_bbbb Q.t2_bbbb Q.t2_bbbb),
    .aug X.quadruples_res [.arg Q.contracted_intermediate, ein1 L.abcdijkl L.abcdkjil Q.contracted_intermediate, ein1 L.abcdijkl L.acbdijkl Q.contracted_intermediate, ein1 L.abcdijkl L.acbdkjil Q.contracted_intermediate],
    set1 X.contracted_intermediate (ein4 L.mnfe L.eajk L.fdml L.bcin L.abcdijkl Q.g_abab_oaoavava Q.t2_bbbb Q.t2_abab Q.t2_bbbb),
    .aug X.quadruples_res [.arg Q.contracted_intermediate, ein1 L.abcdijkl L.abcdljki Q.contracted_intermediate, ein1 L.abcdijkl L.bacdijkl Q.contracted_intermediate, ein1 L.abcdijkl L.bacdljki Q.contracted_intermediate],
    set1 X.contracted_intermediate (ein4 L.nmef L.eajk L.fdlm L.bcin L.abcdijkl Q.g_bbbb_oaoavava Q.t2_bbbb Q.t2_bbbb Q.t2_bbbb),
    .aug X.quadruples_res [.arg Q.contracted_intermediate, ein1 L.abcdijkl L.abcdljki Q.contracted_intermediate, ein1 L.abcdijkl L.bacdijkl Q.contracted_intermediate, ein1 L.abcdijkl L.bacdljki Q.contracted_intermediate],
    set1 X.contracted_intermediate (ein4 L.nmef L.eajk L.fdil L.bcnm L.abcdijkl Q.g_bbbb_oaoavava Q.t2_bbbb Q.t2_bbbb Q.t2_bbbb),
    .aug X.quadruples_res [.arg Q.contracted_intermediate, ein1 L.abcdijkl L.abcdkjil Q.contracted_intermediate, ein1 L.abcdijkl L.bacdijkl Q.contracted_intermediate, ein1 L.abcdijkl L.bacdkjil Q.contracted_intermediate],
    set1 X.contracted_intermediate (ein4 L.mnfe L.eaik L.fbml L.cdjn L.abcdijkl Q.g_abab_oaoavava Q.t2_bbbb Q.t2_abab Q.t2_bbbb),
    .aug X.quadruples_res [.arg Q.contracted_intermediate, ein1 L.abcdijkl L.abcdilkj Q.contracted_intermediate, ein1 L.abcdijkl L.acbdijkl Q.contracted_intermediate, ein1 L.abcdijkl L.acbdilkj Q.contracted_intermediate],
    set1 X.contracted_intermediate (ein4 L.nmef L.eaik L.fblm L.cdjn L.abcdijkl Q.g_bbbb_oaoavava Q.t2_bbbb Q.t2_bbbb Q.t2_bbbb),
    .aug X.quadruples_res [.arg Q.contracted_intermediate, ein1 L.abcdijkl L.abcdilkj Q.contracted_intermediate, ein1 L.abcdijkl L.acbdijkl Q.contracted_intermediate, ein1 L.abcdijkl L.acbdilkj Q.contracted_intermediate],
    set1 X.contracted_intermediate (ein4 L.mnfe L.eaik L.fdml L.bcjn L.abcdijkl Q.g_abab_oaoavava Q.t2_bbbb Q.t2_abab Q.t2_bbbb),
    .aug X.quadruples_res [.arg Q.contracted_intermediate, ein1 L.abcdijkl L.abcdilkj Q.contracted_intermediate, ein1 L.abcdijkl L.bacdijkl Q.contracted_intermediate, ein1 L.abcdijkl L.bacdilkj Q.contracted_intermediate],
    set1 X.contracted_intermediate (ein4 L.nmef L.eaik L.fdlm L.bcjn L.abcdijkl Q.g_bbbb_oaoavava Q.t2_bbbb Q.t2_bbbb Q.t2_bbbb),
    .aug X.quadruples_res [.arg Q.contracted_intermediate, ein1 L.abcdijkl L.abcdilkj Q.contracted_intermediate, ein1 L.abcdijkl L.bacdijkl Q.contracted_intermediate, ein1 L.abcdijkl L.bacdilkj Q.contracted_intermediate],
    set1 X.contracted_intermediate (ein4 L.mnfe L.eaij L.fbml L.cdkn L.abcdijkl Q.g_abab_oaoavava Q.t2_bbbb Q.t2_abab Q.t2_bbbb),
    .aug X.quadruples_res [.arg Q.contracted_intermediate, ein1 L.abcdijkl L.abcdijlk Q.contracted_intermediate, ein1 L.abcdijkl L.acbdijkl Q.contracted_intermediate, ein1 L.abcdijkl L.acbdijlk Q.contracted_intermediate],
    set1 X.contracted_intermediate (ein4 L.nmef L.eaij L.fblm L.cdkn L.abcdijkl Q.g_bbbb_oaoavava Q.t2_bbbb Q.t2_bbbb Q.t2_bbbb),
    .aug X.quadruples_res [.arg Q.contracted_intermediate, ein1 L.abcdijkl L.abcdijlk Q.contracted_intermediate, ein1 L.abcdijkl L.acbdijkl Q.contracted_intermediate, ein1 L.abcdijkl L.acbdijlk Q.contracted_intermediate],
    set1 X.contracted_intermediate (ein4 L.mnfe L.eaij L.fdml L.bckn L.abcdijkl Q.g_abab_oaoavava Q.t2_bbbb Q.t2_abab Q.t2_bbbb),
    .aug X.quadruples_res [.arg Q.contracted_intermediate, ein1 L.abcdijkl L.abcdijlk Q.contracted_intermediate, ein1 L.abcdijkl L.bacdijkl Q.contracted_intermediate, ein1 L.abcdijkl L.bacdijlk Q.contracted_intermediate],
    set1 X.contracted_intermediate (ein4 L.nmef L.eaij L.fdlm L.bckn L.abcdijkl Q.g_bbbb_oaoavava Q.t2_bbbb Q.t2_bbbb Q.t2_bbbb),
    .aug X.quadruples_res [.arg Q.contracted_intermediate, ein1 L.abcdijkl L.abcdijlk Q.contracted_intermediate, ein1 L.abcdijkl L.bacdijkl Q.contracted_intermediate, ein1 L.abcdijkl L.bacdijlk Q.contracted_intermediate],
    set1 X.contracted_intermediate (ein4 L.mnef L.ebml L.fcjk L.adin L.abcdijkl Q.g_abab_oaoavava Q.t2_abab Q.t2_bbbb Q.t2_bbbb),
    .aug X.quadruples_res [.arg Q.contracted_intermediate, ein1 L.abcdijkl L.abcdjikl Q.contracted_intermediate],
    set1 X.contracted_intermediate (ein4 L.nmef L.eblm L.fcjk L.adin L.abcdijkl Q.g_bbbb_oaoavava Q.t2_bbbb Q.t2_bbbb Q.t2_bbbb),
    .aug X.quadruples_res [.arg Q.contracted_intermediate, ein1 L.abcdijkl L.abcdjikl Q.contracted_intermediate],
    set1 X.contracted_intermediate (ein4 L.mnef L.ebml L.fcij L.adkn L.abcdijkl Q.g_abab_oaoavava Q.t2_abab Q.t2_bbbb Q.t2_bbbb),
    .aug X.quadruples_res [.arg Q.contracted_intermediate, ein1 L.abcdijkl L.abcdijlk Q.contracted_intermediate],
    set1 X.contracted_intermediate (ein4 L.nmef L.eblm L.fcij L.adkn L.abcdijkl Q.g_bbbb_oaoavava Q.t2_bbbb Q.t2_bbbb Q.t2_bbbb),
    .aug X.quadruples_res [.arg Q.contracted_intermediate, ein1 L.abcdijkl L.abcdijlk Q.contracted_intermediate],
    set1 X.contracted_intermediate (ein4 L.mnef L.ebmk L.fcjl L.adin L.abcdijkl Q.g_abab_oaoavava Q.t2_abab Q.t2_bbbb Q.t2_bbbb),
    .aug X.quadruples_res [.arg Q.contracted_intermediate, ein1 L.abcdijkl L.abcdjikl Q.contracted_intermediate],
    set1 X.contracted_intermediate (ein4 L.nmef L.ebkm L.fcjl L.adin L.abcdijkl Q.g_bbbb_oaoavava Q.t2_bbbb Q.t2_bbbb Q.t2_bbbb),
    .aug X.quadruples_res [.arg Q.contracted_intermediate, ein1 L.abcdijkl L.abcdjikl Q.contracted_intermediate],
    set1 X.contracted_intermediate (ein4 L.mnef L.ebmj L.fckl L.adin L.abcdijkl Q.g_abab_oaoavava Q.t2_abab Q.t2_bbbb Q.t2_bbbb),
    .aug X.quadruples_res [.arg Q.contracted_intermediate, ein1 L.abcdijkl L.abcdkjil Q.contracted_intermediate],
    set1 X.contracted_intermediate (ein4 L.nmef L.ebjm L.fckl L.adin L.abcdijkl Q.g_bbbb_oaoavava Q.t2_bbbb Q.t2_bbbb Q.t2_bbbb),
    .aug X.quadruples_res [.arg Q.contracted_intermediate, ein1 L.abcdijkl L.abcdkjil Q.contracted_intermediate],
    set1 X.contracted_intermediate (ein4 L.mnef L.ebmj L.fcik L.adln L.abcdijkl Q.g_abab_oaoavava Q.t2_abab Q.t2_bbbb Q.t2_bbbb),
    .aug X.quadruples_res [.arg Q.contracted_intermediate, ein1 L.abcdijkl L.abcdjikl Q.contracted_intermediate],
    set1 X.contracted_intermediate (ein4 L.nmef L.ebjm L.fcik L.adln L.abcdijkl Q.g_bbbb_oaoavava Q.t2_bbbb Q.t2_bbbb Q.t2_bbbb),
    .aug X.quadruples_res [.arg Q.contracted_intermediate, ein1 L.abcdijkl L.abcdjikl Q.contracted_intermediate],
    set1 X.contracted_intermediate (ein4 L.mnef L.ebmi L.fckl L.adjn L.abcdijkl Q.g_abab_oaoavava Q.t2_abab Q.t2_bbbb Q.t2_bbbb),
    .aug X.quadruples_res [.arg Q.contracted_intermediate, ein1 L.abcdijkl L.abcdikjl Q.contracted_intermediate],
    set1 X.contracted_intermediate (ein4 L.nmef L.ebim L.fckl L.adjn L.abcdijkl Q.g_bbbb_oaoavava Q.t2_bbbb Q.t2_bbbb Q.t2_bbbb),
    .aug X.quadruples_res [.arg Q.contracted_intermediate, ein1 L.abcdijkl L.abcdikjl Q.contracted_intermediate],
    set1 X.contracted_intermediate (ein4 L.mnfe L.ebkl L.fcmj L.adin L.abcdijkl Q.g_abab_oaoavava Q.t2_bbbb Q.t2_abab Q.t2_bbbb),
    .aug X.quadruples_res [.arg Q.contracted_intermediate, ein1 L.abcdijkl L.abcdjikl Q.contracted_intermediate],
    set1 X.contracted_intermediate (ein4 L.nmef L.ebkl L.fcjm L.adin L.abcdijkl Q.g_bbbb_oaoavava Q.t2_bbbb Q.t2_bbbb Q.t2_bbbb),
    .aug X.quadruples_res [.arg Q.contracted_intermediate, ein1 L.abcdijkl L.abcdjikl Q.contracted_intermediate],
    set1 X.contracted_intermediate (ein4 L.nmef L.ebkl L.fcij L.adnm L.abcdijkl Q.g_bbbb_oaoavava Q.t2_bbbb Q.t2_bbbb Q.t2_bbbb),
    .aug X.quadruples_res [.arg Q.contracted_intermediate, ein1 L.abcdijkl L.abcdikjl Q.contracted_intermediate],
    set1 X.contracted_intermediate (ein4 L.mnfe L.ebjl L.fcmk L.adin L.abcdijkl Q.g_abab_oaoavava Q.t2_bbbb Q.t2_abab Q.t2_bbbb),
    .aug X.quadruples_res [.arg Q.contracted_intermediate, ein1 L.abcdijkl L.abcdkjil Q.contracted_intermediate],
    set1 X.contracted_intermediate (ein4 L.nmef L.ebjl L.fckm L.adin L.abcdijkl Q.g_bbbb_oaoavava Q.t2_bbbb Q.t2_bbbb Q.t2_bbbb),
    .aug X.quadruples_res [.arg Q.contracted_intermediate, ein1 L.abcdijkl L.abcdkjil Q.contracted_intermediate],
    set1 X.contracted_intermediate (ein4 L.mnfe L.ebil L.fcmk L.adjn L.abcdijkl Q.g_abab_oaoavava Q.t2_bbbb Q.t2_abab Q.t2_bbbb),
    .aug X.quadruples_res [.arg Q.contracted_intermediate, ein1 L.abcdijkl L.abcdikjl Q.contracted_intermediate],
    set1 X.contracted_intermediate (ein4 L.nmef L.ebil L.fckm L.adjn L.abcdijkl Q.g_bbbb_oaoavava Q.t2_bbbb Q.t2_bbbb Q.t2_bbbb),
    .aug X.quadruples_res [.arg Q.contracted_intermediate, ein1 L.abcdijkl L.abcdikjl Q.contracted_intermediate],
    set1 X.contracted_intermediate (ein4 L.nmef L.ebil L.fcjk L.adnm L.abcdijkl Q.g_bbbb_oaoavava Q.t2_bbbb Q.t2_bbbb Q.t2_bbbb),
    .aug X.quadruples_res [.arg Q.contracted_intermediate, ein1 L.abcdijkl L.abcdijlk Q.contracted_intermediate],
    set1 X.contracted_intermediate (ein4 L.mnfe L.ebjk L.fcml L.adin L.abcdijkl Q.g_abab_oaoavava Q.t2_bbbb Q.t2_abab Q.t2_bbbb),
    .aug X.quadruples_res [.arg Q.contracted_intermediate, ein1 L.abcdijkl L.abcdljki Q.contracted_intermediate],
    set1 X.contracted_intermediate (ein4 L.nmef L.ebjk L.fclm L.adin L.abcdijkl Q.g_bbbb_oaoavava Q.t2_bbbb Q.t2_bbbb Q.t2_bbbb),
    .aug X.quadruples_res [.arg Q.contracted_intermediate, ein1 L.abcdijkl L.abcdljki Q.contracted_intermediate],
    set1 X.contracted_intermediate (ein4 L.nmef L.ebjk L.fcil L.adnm L.abcdijkl Q.g_bbbb_oaoavava Q.t2_bbbb Q.t2_bbbb Q.t2_bbbb),
    .aug X.quadruples_res [.arg Q.contracted_intermediate, ein1 L.abcdijkl L.abcdkjil Q.contracted_intermediate],
    set1 X.contracted_intermediate (ein4 L.mnfe L.ebik L.fcml L.adjn L.abcdijkl Q.g_abab_oaoavava Q.t2_bbbb Q.t2_abab Q.t2_bbbb),
    .aug X.quadruples_res [.arg Q.contracted_intermediate, ein1 L.abcdijkl L.abcdilkj Q.contracted_intermediate],
    set1 X.contracted_intermediate (ein4 L.nmef L.ebik L.fclm L.adjn L.abcdijkl Q.g_bbbb_oaoavava Q.t2_bbbb Q.t2_bbbb Q.t2_bbbb),
    .aug X.quadruples_res [.arg Q.contracted_intermediate, ein1 L.abcdijkl L.abcdilkj Q.contracted_intermediate],
    set1 X.contracted_intermediate (ein4 L.mnfe L.ebij L.fcml L.adkn L.abcdijkl Q.g_abab_oaoavava Q.t2_bbbb Q.t2_abab Q.t2_bbbb),
    .aug X.quadruples_res [.arg Q.contracted_intermediate, ein1 L.abcdijkl L.abcdijlk Q.contracted_intermediate],
    set1 X.contracted_intermediate (ein4 L.nmef L.ebij L.fclm L.adkn L.abcdijkl Q.g_bbbb_oaoavava Q.t2_bbbb Q.t2_bbbb Q.t2_bbbb),
    .aug X.quadruples_res [.arg Q.contracted_intermediate, ein1 L.abcdijkl L.abcdijlk Q.contracted_intermediate],
    set1 X.contracted_intermediate (ein4 L.mnef L.ecml L.fdjk L.abin L.abcdijkl Q.g_abab_oaoavava Q.t2_abab Q.t2_bbbb Q.t2_bbbb),
    .aug X.quadruples_res [.arg Q.contracted_intermediate, ein1 L.abcdijkl L.abcdjikl Q.contracted_intermediate],
    set1 X.contracted_intermediate (ein4 L.nmef L.eclm L.fdjk L.abin L.abcdijkl Q.g_bbbb_oaoavava Q.t2_bbbb Q.t2_bbbb Q.t2_bbbb),
    .aug X.quadruples_res [.arg Q.contracted_intermediate, ein1 L.abcdijkl L.abcdjikl Q.contracted_intermediate],
    set1 X.contracted_intermediate (ein4 L.mnef L.ecml L.fdij L.abkn L.abcdijkl Q.g_abab_oaoavava Q.t2_abab Q.t2_bbbb Q.t2_bbbb),
    .aug X.quadruples_res [.arg Q.contracted_intermediate, ein1 L.abcdijkl L.abcdijlk Q.contracted_intermediate],
    set1 X.contracted_intermediate (ein4 L.nmef L.eclm L.fdij L.abkn L.abcdijkl Q.g_bbbb_oaoavava Q.t2_bbbb Q.t2_bbbb Q.t2_bbbb),
    .aug X.quadruples_res [.arg Q.contracted_intermediate, ein1 L.abcdijkl L.abcdijlk Q.contracted_intermediate],
    set1 X.contracted_intermediate (ein4 L.mnef L.ecmk L.fdjl L.abin L.abcdijkl Q.g_abab_oaoavava Q.t2_abab Q.t2_bbbb Q.t2_bbbb),
    .aug X.quadruples_res [.arg Q.contracted_intermediate, ein1 L.abcdijkl L.abcdjikl Q.contracted_intermediate],
    set1 X.contracted_intermediate (ein4 L.nmef L.eckm L.fdjl L.abin L.abcdijkl Q.g_bbbb_oaoavava Q.t2_bbbb Q.t2_bbbb Q.t2_bbbb),
    .aug X.quadruples_res [.arg Q.contracted_intermediate, ein1 L.abcdijkl L.abcdjikl Q.contracted_intermediate],
    set1 X.contracted_intermediate (ein4 L.mnef L.ecmj L.fdkl L.abin L.abcdijkl Q.g_abab_oaoavava Q.t2_abab Q.t2_bbbb Q.t2_bbbb),
    .aug X.quadruples_res [.arg Q.contracted_intermediate, ein1 L.abcdijkl L.abcdkjil Q.contracted_intermediate],
    set1 X.contracted_intermediate (ein4 L.nmef L.ecjm L.fdkl L.abin L.abcdijkl Q.g_bbbb_oaoavava Q.t2_bbbb Q.t2_bbbb Q.t2_bbbb),
    .aug X.quadruples_res [.arg Q.contracted_intermediate, ein1 L.abcdijkl L.abcdkjil Q.contracted_intermediate],
    set1 X.contracted_intermediate (ein4 L.mnef L.ecmj L.fdik L.abln L.abcdijkl Q.g_abab_oaoavava Q.t2_abab Q.t2_bbbb Q.t2_bbbb),
    .aug X.quadruples_res [.arg Q.contracted_intermediate, ein1 L.abcdijkl L.abcdjikl Q.contracted_intermediate],
    set1 X.contracted_intermediate (ein4 L.nmef L.ecjm L.fdik L.abln L.abcdijkl Q.g_bbbb_oaoavava Q.t2_bbbb Q.t2_bbbb Q.t2_bbbb),
    .aug X.quadruples_res [.arg Q.contracted_intermediate, ein1 L.abcdijkl L.abcdjikl Q.contracted_intermediate],
    set1 X.contracted_intermediate (ein4 L.mnef L.ecmi L.fdkl L.abjn L.abcdijkl Q.g_abab_oaoavava Q.t2_abab Q.t2_bbbb Q.t2_bbbb),
    .aug X.quadruples_res [.arg Q.contracted_intermediate, ein1 L.abcdijkl L.abcdikjl Q.contracted_intermediate],
    set1 X.contracted_intermediate (ein4 L.nmef L.ecim L.fdkl L.abjn L.abcdijkl Q.g_bbbb_oaoavava Q.t2_bbbb Q.t2_bbbb Q.t2_bbbb),
    .aug X.quadruples_res [.arg Q.contracted_intermediate, ein1 L.abcdijkl L.abcdikjl Q.contracted_intermediate],
    set1 X.contracted_intermediate (ein4 L.mnfe L.eckl L.fdmj L.abin L.abcdijkl Q.g_abab_oaoavava Q.t2_bbbb Q.t2_abab Q.t2_bbbb),
    .aug X.quadruples_res [.arg Q.contracted_intermediate, ein1 L.abcdijkl L.abcdjikl Q.contracted_intermediate],
    set1 X.contracted_intermediate (ein4 L.nmef L.eckl L.fdjm L.abin L.abcdijkl Q.g_bbbb_oaoavava Q.t2_bbbb Q.t2_bbbb Q.t2_bbbb),
    .aug X.quadruples_res [.arg Q.contracted_intermediate, ein1 L.abcdijkl L.abcdjikl Q.contracted_intermediate],
    set1 X.contracted_intermediate (ein4 L.nmef L.eckl L.fdij L.abnm L.abcdijkl Q.g_bbbb_oaoavava Q.t2_bbbb Q.t2_bbbb Q.t2_bbbb),
    .aug X.quadruples_res [.arg Q.contracted_intermediate, ein1 L.abcdijkl L.abcdikjl Q.contracted_intermediate],
    set1 X.contracted_intermediate (ein4 L.mnfe L.ecjl L.fdmk L.abin L.abcdijkl Q.g_abab_oaoavava Q.t2_bbbb Q.t2_abab Q.t2_bbbb),
    .aug X.quadruples_res [.arg Q.contracted_intermediate, ein1 L.abcdijkl L.abcdkjil Q.contracted_intermediate],
    set1 X.contracted_intermediate (ein4 L.nmef L.ecjl L.fdkm L.abin L.abcdijkl Q.g_bbbb_oaoavava Q.t2_bbbb Q.t2_bbbb Q.t2_bbbb),
    .aug X.quadruples_res [.arg Q.contracted_intermediate, ein1 L.abcdijkl L.abcdkjil Q.contracted_intermediate],
    set1 X.contracted_intermediate (ein4 L.mnfe L.ecil L.fdmk L.abjn L.abcdijkl Q.g_abab_oaoavava Q.t2_bbbb Q.t2_abab Q.t2_bbbb),
    .aug X.quadruples_res [.arg Q.contracted_intermediate, ein1 L.abcdijkl L.abcdikjl Q.contracted_intermediate],
    set1 X.contracted_intermediate (ein4 L.nmef L.ecil L.fdkm L.abjn L.abcdijkl Q.g_bbbb_oaoavava Q.t2_bbbb Q.t2_bbbb Q.t2_bbbb),
    .aug X.quadruples_res [.arg Q.contracted_intermediate, ein1 L.abcdijkl L.abcdikjl Q.contracted_intermediate],
    set1 X.contracted_intermediate (ein4 L.nmef L.ecil L.fdjk L.abnm L.abcdijkl Q.g_bbbb_oaoavava Q.t2_bbbb Q.t2_bbbb Q.t2_bbbb),
    .aug X.quadruples_res [.arg Q.contracted_intermediate, ein1 L.abcdijkl L.abcdijlk Q.contracted_intermediate],
    set1 X.contracted_intermediate (ein4 L.mnfe L.ecjk L.fdml L.abin L.abcdijkl Q.g_abab_oaoavava Q.t2_bbbb Q.t2_abab Q.t2_bbbb),
    .aug X.quadruples_res [.arg Q.contracted_intermediate, ein1 L.abcdijkl L.abcdljki Q.contracted_intermediate],
    set1 X.contracted_intermediate (ein4 L.nmef L.ecjk L.fdlm L.abin L.abcdijkl Q.g_bbbb_oaoavava Q.t2_bbbb Q.t2_bbbb Q.t2_bbbb),
    .aug X.quadruples_res [.arg Q.contracted_intermediate, ein1 L.abcdijkl L.abcdljki Q.contracted_intermediate],
    set1 X.contracted_intermediate (ein4 L.nmef L.ecjk L.fdil L.abnm L.abcdijkl Q.g_bbbb_oaoavava Q.t2_bbbb Q.t2_bbbb Q.t2_bbbb),
    .aug X.quadruples_res [.arg Q.contracted_intermediate, ein1 L.abcdijkl L.abcdkjil Q.contracted_intermediate],
    set1 X.contracted_intermediate (ein4 L.mnfe L.ecik L.fdml L.abjn L.abcdijkl Q.g_abab_oaoavava Q.t2_bbbb Q.t2_abab Q.t2_bbbb),
    .aug X.quadruples_res [.arg Q.contracted_intermediate, ein1 L.abcdijkl L.abcdilkj Q.contracted_intermediate],
    set1 X.contracted_intermediate (ein4 L.nmef L.ecik L.fdlm L.abjn L.abcdijkl Q.g_bbbb_oaoavava Q.t2_bbbb Q.t2_bbbb Q.t2_bbbb),
    .aug X.quadruples_res [.arg Q.contracted_intermediate, ein1 L.abcdijkl L.abcdilkj Q.contracted_intermediate],
    set1 X.contracted_intermediate (ein4 L.mnfe L.ecij L.fdml L.abkn L.abcdijkl Q.g_abab_oaoavava Q.t2_bbbb Q.t2_abab Q.t2_bbbb),
    .aug X.quadruples_res [.arg Q.contracted_intermediate, ein1 L.abcdijkl L.abcdijlk Q.contracted_intermediate],
    set1 X.contracted_intermediate (ein4 L.nmef L.ecij L.fdlm L.abkn L.abcdijkl Q.g_bbbb_oaoavava Q.t2_bbbb Q.t2_bbbb Q.t2_bbbb),
    .aug X.quadruples_res [.arg Q.contracted_intermediate, ein1 L.abcdijkl L.abcdijlk Q.contracted_intermediate]]
  ret := [Q.quadruples_res]

end Verif.Shape.Prog
