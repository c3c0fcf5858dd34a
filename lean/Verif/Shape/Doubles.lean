import Verif.Shape.Names

/-!
# Shape programs of t2residEqnsSlow.py, t2energySlow.py, t2residEqns.py, t2energy.py, modify_T2resid_T4Qf1Slow.py, modify_T2resid_T4Qf2Slow.py, modify_T2energy_pertQfSlow.py, drive_ucc4.py, pdagq_T3corr.py (generated by tools/shapegen.py)

Every statement of the functions with the subscripts and operands as written; see `Verif.Shape.Core`.
-/

set_option maxRecDepth 100000

namespace Verif.Shape.Prog

open Verif.Shape

/-- `t2residEqnsSlow.py` 123-139: `pccd_t2resid`; 11 einsum calls. -/
def t2residEqnsSlow_pccd_t2resid : Fn where
  params := [X.g, X.f, X.t2]
  body := [
    set1 X.doubles_res (ein1 L.aaii [] Q.g_vvoo),
    aug1 X.doubles_res (ein2 L.aa L.aaii [] Q.f_vv Q.t2),
    aug1 X.doubles_res (ein2 L.ii L.aaii [] Q.f_oo Q.t2),
    aug1 X.doubles_res (ein3 L.jjaa L.aajj L.aaii [] Q.g_oovv Q.t2 Q.t2),
    aug1 X.doubles_res (ein3 L.iibb L.bbii L.aaii [] Q.g_oovv Q.t2 Q.t2),
    .set X.reduced [ein1 L.iaia [] Q.g_ovov, ein1 L.iaai [] Q.g_ovov, ein2 L.iiaa L.aaii [] Q.g_ovov Q.t2],
    aug1 X.doubles_res (.mul Q.reduced Q.t2),
    aug1 X.doubles_res (ein2 L.bbaa L.bbii [] Q.g_vvvv Q.t2),
    aug1 X.doubles_res (ein2 L.iijj L.aajj [] Q.g_oooo Q.t2),
    aug1 X.doubles_res (ein3 L.bbjj L.aajj L.bbii [] Q.g_vovo Q.t2 Q.t2)]
  ret := [Q.doubles_res]

/-- `t2residEqnsSlow.py` 141-180: `ccd_t2residual`; 18 einsum calls. -/
def t2residEqnsSlow_ccd_t2residual : Fn where
  params := [X.f, X.t2, X.g]
  body := [
    set1 X.contracted_intermediate (ein2 L.kj L.abik L.abij Q.f_oo Q.t2),
    .set X.doubles_res [.arg Q.contracted_intermediate, ein1 L.abij L.abji Q.contracted_intermediate],
    set1 X.contracted_intermediate (ein2 L.ac L.cbij L.abij Q.f_vv Q.t2),
    .aug X.doubles_res [.arg Q.contracted_intermediate, ein1 L.abij L.baij Q.contracted_intermediate],
    aug1 X.doubles_res (ein1 L.abij L.abij Q.g_vvoo),
    aug1 X.doubles_res (ein2 L.lkij L.ablk L.abij Q.g_oooo Q.t2),
    set1 X.contracted_intermediate (ein2 L.kacj L.cbik L.abij Q.g_ovvo Q.t2),
    .aug X.doubles_res [.arg Q.contracted_intermediate, ein1 L.abij L.abji Q.contracted_intermediate, ein1 L.abij L.baij Q.contracted_intermediate, ein1 L.abij L.baji Q.contracted_intermediate],
    aug1 X.doubles_res (ein2 L.abcd L.cdij L.abij Q.g_vvvv Q.t2),
    set1 X.contracted_intermediate (ein3 L.lkcd L.cdjk L.abil L.abij Q.g_oovv Q.t2 Q.t2),
    .aug X.doubles_res [.arg Q.contracted_intermediate, ein1 L.abij L.abji Q.contracted_intermediate],
    aug1 X.doubles_res (ein3 L.lkcd L.cdij L.ablk L.abij Q.g_oovv Q.t2 Q.t2),
    aug1 X.doubles_res (ein3 L.lkcd L.calk L.dbij L.abij Q.g_oovv Q.t2 Q.t2),
    set1 X.contracted_intermediate (ein3 L.lkcd L.cajk L.dbil L.abij Q.g_oovv Q.t2 Q.t2),
    .aug X.doubles_res [.arg Q.contracted_intermediate, ein1 L.abij L.abji Q.contracted_intermediate],
    aug1 X.doubles_res (ein3 L.lkcd L.caij L.dblk L.abij Q.g_oovv Q.t2 Q.t2)]
  ret := [Q.doubles_res]

/-- `t2residEqnsSlow.py` 182-200: `doubles_resLCCDoffset`; 7 einsum calls. -/
def t2residEqnsSlow_doubles_resLCCDoffset : Fn where
  params := [X.g, X.t2]
  body := [
    set1 X.contracted_intermediate (ein3 L.lkcd L.cdjk L.abil L.abij Q.g_oovv Q.t2 Q.t2),
    .set X.doubles_res [.arg Q.contracted_intermediate, ein1 L.abij L.abji Q.contracted_intermediate],
    aug1 X.doubles_res (ein3 L.lkcd L.cdij L.ablk L.abij Q.g_oovv Q.t2 Q.t2),
    aug1 X.doubles_res (ein3 L.lkcd L.calk L.dbij L.abij Q.g_oovv Q.t2 Q.t2),
    set1 X.contracted_intermediate (ein3 L.lkcd L.cajk L.dbil L.abij Q.g_oovv Q.t2 Q.t2),
    .aug X.doubles_res [.arg Q.contracted_intermediate, ein1 L.abij L.abji Q.contracted_intermediate],
    aug1 X.doubles_res (ein3 L.lkcd L.caij L.dblk L.abij Q.g_oovv Q.t2 Q.t2)]
  ret := [Q.doubles_res]

/-- `t2energySlow.py` 95-99: `pccdEnergy`; 3 einsum calls. -/
def t2energySlow_pccdEnergy : Fn where
  params := [X.f, X.g, X.t2]
  body := [
    set1 X.energy (ein1 L.ii [] Q.f_oo),
    aug1 X.energy (ein1 L.jiji [] Q.g_oooo),
    aug1 X.energy (ein2 L.iiaa L.aaii [] Q.g_oovv Q.t2)]
  ret := [Q.energy]

/-- `t2energySlow.py` 101-120: `ccdEnergy`; 3 einsum calls. -/
def t2energySlow_ccdEnergy : Fn where
  params := [X.f, X.g, X.t2]
  body := [
    set1 X.energy (ein1 L.ii [] Q.f_oo),
    aug1 X.energy (ein1 L.jiji [] Q.g_oooo),
    aug1 X.energy (ein2 L.jiab L.abji [] Q.g_oovv Q.t2)]
  ret := [Q.energy]

/-- `t2residEqns.py` 92-174: `ccd_t2_aaaa_residual`; 36 einsum calls. -/
def t2residEqns_ccd_t2_aaaa_residual : Fn where
  params := [X.f_aa, X.t2_aaaa, X.g_aaaa, X.g_abab, X.t2_abab, X.g_bbbb]
  body := [
    set1 X.contracted_intermediate (ein2 L.in L.efmi L.efmn Q.f_aa_oaoa Q.t2_aaaa),
    .set X.doubles_res [.arg Q.contracted_intermediate, ein1 L.efmn L.efnm Q.contracted_intermediate],
    set1 X.contracted_intermediate (ein2 L.ea L.afmn L.efmn Q.f_aa_vava Q.t2_aaaa),
    .aug X.doubles_res [.arg Q.contracted_intermediate, ein1 L.efmn L.femn Q.contracted_intermediate],
    aug1 X.doubles_res (ein1 L.efmn L.efmn Q.g_aaaa_vavaoaoa),
    aug1 X.doubles_res (ein2 L.jimn L.efji L.efmn Q.g_aaaa_oaoaoaoa Q.t2_aaaa),
    set1 X.contracted_intermediate (ein2 L.iean L.afmi L.efmn Q.g_aaaa_oavavaoa Q.t2_aaaa),
    .aug X.doubles_res [.arg Q.contracted_intermediate, ein1 L.efmn L.efnm Q.contracted_intermediate, ein1 L.efmn L.femn Q.contracted_intermediate, ein1 L.efmn L.fenm Q.contracted_intermediate],
    set1 X.contracted_intermediate (ein2 L.eina L.fami L.efmn Q.g_abab_vaoaoava Q.t2_abab),
    .aug X.doubles_res [.arg Q.contracted_intermediate, ein1 L.efmn L.efnm Q.contracted_intermediate, ein1 L.efmn L.femn Q.contracted_intermediate, ein1 L.efmn L.fenm Q.contracted_intermediate],
    aug1 X.doubles_res (ein2 L.efab L.abmn L.efmn Q.g_aaaa_vavavava Q.t2_aaaa),
    set1 X.contracted_intermediate (ein3 L.jiab L.abni L.efmj L.efmn Q.g_aaaa_oaoavava Q.t2_aaaa Q.t2_aaaa),
    .aug X.doubles_res [.arg Q.contracted_intermediate, ein1 L.efmn L.efnm Q.contracted_intermediate],
    set1 X.contracted_intermediate (ein3 L.jiab L.abni L.efmj L.efmn Q.g_abab_oaoavava Q.t2_abab Q.t2_aaaa),
    .aug X.doubles_res [.arg Q.contracted_intermediate, ein1 L.efmn L.efnm Q.contracted_intermediate],
    set1 X.contracted_intermediate (ein3 L.jiba L.bani L.efmj L.efmn Q.g_abab_oaoavava Q.t2_abab Q.t2_aaaa),
    .aug X.doubles_res [.arg Q.contracted_intermediate, ein1 L.efmn L.efnm Q.contracted_intermediate],
    aug1 X.doubles_res (ein3 L.jiab L.abmn L.efji L.efmn Q.g_aaaa_oaoavava Q.t2_aaaa Q.t2_aaaa),
    aug1 X.doubles_res (ein3 L.jiab L.aeji L.bfmn L.efmn Q.g_aaaa_oaoavava Q.t2_aaaa Q.t2_aaaa),
    aug1 X.doubles_res (ein3 L.jiba L.eaji L.bfmn L.efmn Q.g_abab_oaoavava Q.t2_abab Q.t2_aaaa),
    aug1 X.doubles_res (ein3 L.ijba L.eaij L.bfmn L.efmn Q.g_abab_oaoavava Q.t2_abab Q.t2_aaaa),
    set1 X.contracted_intermediate (ein3 L.jiab L.aeni L.bfmj L.efmn Q.g_aaaa_oaoavava Q.t2_aaaa Q.t2_aaaa),
    .aug X.doubles_res [.arg Q.contracted_intermediate, ein1 L.efmn L.efnm Q.contracted_intermediate],
    set1 X.contracted_intermediate (ein3 L.ijab L.aeni L.fbmj L.efmn Q.g_abab_oaoavava Q.t2_aaaa Q.t2_abab),
    .aug X.doubles_res [.arg Q.contracted_intermediate, ein1 L.efmn L.efnm Q.contracted_intermediate],
    set1 X.contracted_intermediate (ein3 L.jiba L.eani L.bfmj L.efmn Q.g_abab_oaoavava Q.t2_abab Q.t2_aaaa),
    .aug X.doubles_res [.arg Q.contracted_intermediate, ein1 L.efmn L.efnm Q.contracted_intermediate],
    set1 X.contracted_intermediate (ein3 L.jiab L.eani L.fbmj L.efmn Q.g_bbbb_oaoavava Q.t2_abab Q.t2_abab),
    .aug X.doubles_res [.arg Q.contracted_intermediate, ein1 L.efmn L.efnm Q.contracted_intermediate],
    aug1 X.doubles_res (ein3 L.jiab L.aemn L.bfji L.efmn Q.g_aaaa_oaoavava Q.t2_aaaa Q.t2_aaaa),
    aug1 X.doubles_res (ein3 L.jiab L.aemn L.fbji L.efmn Q.g_abab_oaoavava Q.t2_aaaa Q.t2_abab),
    aug1 X.doubles_res (ein3 L.ijab L.aemn L.fbij L.efmn Q.g_abab_oaoavava Q.t2_aaaa Q.t2_abab)]
  ret := [Q.doubles_res]

/-- `t2residEqns.py` 177-258: `ccd_t2_bbbb_residual`; 36 einsum calls. -/
def t2residEqns_ccd_t2_bbbb_residual : Fn where
  params := [X.f_bb, X.t2_bbbb, X.g_bbbb, X.g_abab, X.t2_abab, X.g_aaaa]
  body := [
    set1 X.contracted_intermediate (ein2 L.in L.efmi L.efmn Q.f_bb_oaoa Q.t2_bbbb),
    .set X.doubles_res [.arg Q.contracted_intermediate, ein1 L.efmn L.efnm Q.contracted_intermediate],
    set1 X.contracted_intermediate (ein2 L.ea L.afmn L.efmn Q.f_bb_vava Q.t2_bbbb),
    .aug X.doubles_res [.arg Q.contracted_intermediate, ein1 L.efmn L.femn Q.contracted_intermediate],
    aug1 X.doubles_res (ein1 L.efmn L.efmn Q.g_bbbb_vavaoaoa),
    aug1 X.doubles_res (ein2 L.jimn L.efji L.efmn Q.g_bbbb_oaoaoaoa Q.t2_bbbb),
    set1 X.contracted_intermediate (ein2 L.iean L.afim L.efmn Q.g_abab_oavavaoa Q.t2_abab),
    .aug X.doubles_res [.arg Q.contracted_intermediate, ein1 L.efmn L.efnm Q.contracted_intermediate, ein1 L.efmn L.femn Q.contracted_intermediate, ein1 L.efmn L.fenm Q.contracted_intermediate],
    set1 X.contracted_intermediate (ein2 L.iean L.afmi L.efmn Q.g_bbbb_oavavaoa Q.t2_bbbb),
    .aug X.doubles_res [.arg Q.contracted_intermediate, ein1 L.efmn L.efnm Q.contracted_intermediate, ein1 L.efmn L.femn Q.contracted_intermediate, ein1 L.efmn L.fenm Q.contracted_intermediate],
    aug1 X.doubles_res (ein2 L.efab L.abmn L.efmn Q.g_bbbb_vavavava Q.t2_bbbb),
    set1 X.contracted_intermediate (ein3 L.ijab L.abin L.efmj L.efmn Q.g_abab_oaoavava Q.t2_abab Q.t2_bbbb),
    .aug X.doubles_res [.arg Q.contracted_intermediate, ein1 L.efmn L.efnm Q.contracted_intermediate],
    set1 X.contracted_intermediate (ein3 L.ijba L.bain L.efmj L.efmn Q.g_abab_oaoavava Q.t2_abab Q.t2_bbbb),
    .aug X.doubles_res [.arg Q.contracted_intermediate, ein1 L.efmn L.efnm Q.contracted_intermediate],
    set1 X.contracted_intermediate (ein3 L.jiab L.abni L.efmj L.efmn Q.g_bbbb_oaoavava Q.t2_bbbb Q.t2_bbbb),
    .aug X.doubles_res [.arg Q.contracted_intermediate, ein1 L.efmn L.efnm Q.contracted_intermediate],
    aug1 X.doubles_res (ein3 L.jiab L.abmn L.efji L.efmn Q.g_bbbb_oaoavava Q.t2_bbbb Q.t2_bbbb),
    aug1 X.doubles_res (ein3 L.jiab L.aeji L.bfmn L.efmn Q.g_abab_oaoavava Q.t2_abab Q.t2_bbbb),
    aug1 X.doubles_res (ein3 L.ijab L.aeij L.bfmn L.efmn Q.g_abab_oaoavava Q.t2_abab Q.t2_bbbb),
    aug1 X.doubles_res (ein3 L.jiab L.aeji L.bfmn L.efmn Q.g_bbbb_oaoavava Q.t2_bbbb Q.t2_bbbb),
    set1 X.contracted_intermediate (ein3 L.jiab L.aein L.bfjm L.efmn Q.g_aaaa_oaoavava Q.t2_abab Q.t2_abab),
    .aug X.doubles_res [.arg Q.contracted_intermediate, ein1 L.efmn L.efnm Q.contracted_intermediate],
    set1 X.contracted_intermediate (ein3 L.ijab L.aein L.bfmj L.efmn Q.g_abab_oaoavava Q.t2_abab Q.t2_bbbb),
    .aug X.doubles_res [.arg Q.contracted_intermediate, ein1 L.efmn L.efnm Q.contracted_intermediate],
    set1 X.contracted_intermediate (ein3 L.jiba L.aeni L.bfjm L.efmn Q.g_abab_oaoavava Q.t2_bbbb Q.t2_abab),
    .aug X.doubles_res [.arg Q.contracted_intermediate, ein1 L.efmn L.efnm Q.contracted_intermediate],
    set1 X.contracted_intermediate (ein3 L.jiab L.aeni L.bfmj L.efmn Q.g_bbbb_oaoavava Q.t2_bbbb Q.t2_bbbb),
    .aug X.doubles_res [.arg Q.contracted_intermediate, ein1 L.efmn L.efnm Q.contracted_intermediate],
    aug1 X.doubles_res (ein3 L.jiba L.aemn L.bfji L.efmn Q.g_abab_oaoavava Q.t2_bbbb Q.t2_abab),
    aug1 X.doubles_res (ein3 L.ijba L.aemn L.bfij L.efmn Q.g_abab_oaoavava Q.t2_bbbb Q.t2_abab),
    aug1 X.doubles_res (ein3 L.jiab L.aemn L.bfji L.efmn Q.g_bbbb_oaoavava Q.t2_bbbb Q.t2_bbbb)]
  ret := [Q.doubles_res]

/-- `t2residEqns.py` 261-376: `ccd_t2_abab_residual`; 36 einsum calls. -/
def t2residEqns_ccd_t2_abab_residual : Fn where
  params := [X.f_bb, X.t2_abab, X.f_aa, X.g_abab, X.t2_aaaa, X.g_bbbb, X.g_aaaa, X.t2_bbbb]
  body := [
    set1 X.doubles_res (ein2 L.in L.efmi L.efmn Q.f_bb_oaoa Q.t2_abab),
    aug1 X.doubles_res (ein2 L.im L.efin L.efmn Q.f_aa_oaoa Q.t2_abab),
    aug1 X.doubles_res (ein2 L.ea L.afmn L.efmn Q.f_aa_vava Q.t2_abab),
    aug1 X.doubles_res (ein2 L.fa L.eamn L.efmn Q.f_bb_vava Q.t2_abab),
    aug1 X.doubles_res (ein1 L.efmn L.efmn Q.g_abab_vavaoaoa),
    aug1 X.doubles_res (ein2 L.jimn L.efji L.efmn Q.g_abab_oaoaoaoa Q.t2_abab),
    aug1 X.doubles_res (ein2 L.ijmn L.efij L.efmn Q.g_abab_oaoaoaoa Q.t2_abab),
    aug1 X.doubles_res (ein2 L.eian L.afmi L.efmn Q.g_abab_vaoavaoa Q.t2_abab),
    aug1 X.doubles_res (ein2 L.ifan L.aemi L.efmn Q.g_abab_oavavaoa Q.t2_aaaa),
    aug1 X.doubles_res (ein2 L.ifan L.eami L.efmn Q.g_bbbb_oavavaoa Q.t2_abab),
    aug1 X.doubles_res (ein2 L.ieam L.afin L.efmn Q.g_aaaa_oavavaoa Q.t2_abab),
    aug1 X.doubles_res (ein2 L.eima L.afni L.efmn Q.g_abab_vaoaoava Q.t2_bbbb),
    aug1 X.doubles_res (ein2 L.ifma L.eain L.efmn Q.g_abab_oavaoava Q.t2_abab),
    aug1 X.doubles_res (ein2 L.efab L.abmn L.efmn Q.g_abab_vavavava Q.t2_abab),
    aug1 X.doubles_res (ein2 L.efba L.bamn L.efmn Q.g_abab_vavavava Q.t2_abab),
    aug1 X.doubles_res (ein3 L.ijab L.abin L.efmj L.efmn Q.g_abab_oaoavava Q.t2_abab Q.t2_abab),
    aug1 X.doubles_res (ein3 L.ijba L.bain L.efmj L.efmn Q.g_abab_oaoavava Q.t2_abab Q.t2_abab),
    aug1 X.doubles_res (ein3 L.jiab L.abni L.efmj L.efmn Q.g_bbbb_oaoavava Q.t2_bbbb Q.t2_abab),
    aug1 X.doubles_res (ein3 L.jiab L.abmi L.efjn L.efmn Q.g_aaaa_oaoavava Q.t2_aaaa Q.t2_abab),
    aug1 X.doubles_res (ein3 L.jiab L.abmi L.efjn L.efmn Q.g_abab_oaoavava Q.t2_abab Q.t2_abab),
    aug1 X.doubles_res (ein3 L.jiba L.bami L.efjn L.efmn Q.g_abab_oaoavava Q.t2_abab Q.t2_abab),
    aug1 X.doubles_res (ein3 L.jiab L.abmn L.efji L.efmn Q.g_abab_oaoavava Q.t2_abab Q.t2_abab),
    aug1 X.doubles_res (ein3 L.ijab L.abmn L.efij L.efmn Q.g_abab_oaoavava Q.t2_abab Q.t2_abab),
    aug1 X.doubles_res (ein3 L.jiba L.bamn L.efji L.efmn Q.g_abab_oaoavava Q.t2_abab Q.t2_abab),
    aug1 X.doubles_res (ein3 L.ijba L.bamn L.efij L.efmn Q.g_abab_oaoavava Q.t2_abab Q.t2_abab),
    aug1 X.doubles_res (ein3 L.jiab L.aeji L.bfmn L.efmn Q.g_aaaa_oaoavava Q.t2_aaaa Q.t2_abab),
    aug1 X.doubles_res (ein3 L.jiba L.eaji L.bfmn L.efmn Q.g_abab_oaoavava Q.t2_abab Q.t2_abab),
    aug1 X.doubles_res (ein3 L.ijba L.eaij L.bfmn L.efmn Q.g_abab_oaoavava Q.t2_abab Q.t2_abab),
    aug1 X.doubles_res (ein3 L.ijba L.eain L.bfmj L.efmn Q.g_abab_oaoavava Q.t2_abab Q.t2_abab),
    aug1 X.doubles_res (ein3 L.jiab L.aemi L.bfjn L.efmn Q.g_aaaa_oaoavava Q.t2_aaaa Q.t2_abab),
    aug1 X.doubles_res (ein3 L.ijab L.aemi L.bfnj L.efmn Q.g_abab_oaoavava Q.t2_aaaa Q.t2_bbbb),
    aug1 X.doubles_res (ein3 L.jiba L.eami L.bfjn L.efmn Q.g_abab_oaoavava Q.t2_abab Q.t2_abab),
    aug1 X.doubles_res (ein3 L.jiab L.eami L.bfnj L.efmn Q.g_bbbb_oaoavava Q.t2_abab Q.t2_bbbb),
    aug1 X.doubles_res (ein3 L.jiba L.eamn L.bfji L.efmn Q.g_abab_oaoavava Q.t2_abab Q.t2_abab),
    aug1 X.doubles_res (ein3 L.ijba L.eamn L.bfij L.efmn Q.g_abab_oaoavava Q.t2_abab Q.t2_abab),
    aug1 X.doubles_res (ein3 L.jiab L.eamn L.bfji L.efmn Q.g_bbbb_oaoavava Q.t2_abab Q.t2_bbbb)]
  ret := [Q.doubles_res]

/-- `t2energy.py` 58-103: `ccd_energy_with_spin`; 12 einsum calls. -/
def t2energy_ccd_energy_with_spin : Fn where
  params := [X.f_aa, X.f_bb, X.g_aaaa, X.g_abab, X.g_bbbb, X.t2_aaaa, X.t2_abab, X.t2_bbbb]
  body := [
    set1 X.energy (ein1 L.ii [] Q.f_aa_oaoa),
    aug1 X.energy (ein1 L.ii [] Q.f_bb_oaoa),
    aug1 X.energy (ein1 L.jiji [] Q.g_aaaa_oaoaoaoa),
    aug1 X.energy (ein1 L.jiji [] Q.g_abab_oaoaoaoa),
    aug1 X.energy (ein1 L.ijij [] Q.g_abab_oaoaoaoa),
    aug1 X.energy (ein1 L.jiji [] Q.g_bbbb_oaoaoaoa),
    aug1 X.energy (ein2 L.jiab L.abji [] Q.g_aaaa_oaoavava Q.t2_aaaa),
    aug1 X.energy (ein2 L.jiab L.abji [] Q.g_abab_oaoavava Q.t2_abab),
    aug1 X.energy (ein2 L.ijab L.abij [] Q.g_abab_oaoavava Q.t2_abab),
    aug1 X.energy (ein2 L.jiba L.baji [] Q.g_abab_oaoavava Q.t2_abab),
    aug1 X.energy (ein2 L.ijba L.baij [] Q.g_abab_oaoavava Q.t2_abab),
    aug1 X.energy (ein2 L.jiab L.abji [] Q.g_bbbb_oaoavava Q.t2_bbbb)]
  ret := [Q.energy]

/-- `modify_T2resid_T4Qf1Slow.py` 5-18: `unsym_residQf1`; 3 einsum calls. -/
def modify_T2resid_T4Qf1Slow_unsym_residQf1 : Fn where
  params := [X.t2_aa, X.g]
  body := [
    set1 X.t (.arg Q.t2_aa_t2301),
    set1 X.g_occ (.arg Q.g_oooo),
    set1 X.g_ov (.arg Q.g_ovov),
    set1 X.g_virt (.arg Q.g_vvvv),
    set1 X.Roooovvvv (ein3 L.imab L.jncd L.klmn L.abcdijkl Q.t Q.t Q.g_occ),
    aug1 X.Roooovvvv (ein3 L.imab L.jkce L.lemd L.abcdijkl Q.t Q.t Q.g_ov),
    aug1 X.Roooovvvv (ein3 L.ijae L.klbf L.efcd L.abcdijkl Q.t Q.t Q.g_virt)]
  ret := [Q.Roooovvvv]

/-- `modify_T2resid_T4Qf1Slow.py` 21-30: `unsym_residQf2`; 3 einsum calls. -/
def modify_T2resid_T4Qf1Slow_unsym_residQf2 : Fn where
  params := [X.t2_aa, X.g]
  body := [
    set1 X.t (.arg Q.t2_aa_t2301),
    set1 X.g_ov (.arg Q.g_vvoo),
    set1 X.Roooovvvv (ein4 L.imab L.jncd L.klef L.efmn L.abcdijkl Q.t Q.t Q.t Q.g_ov),
    aug1 X.Roooovvvv (ein4 L.imab L.jkce L.lndf L.efmn L.abcdijkl Q.t Q.t Q.t Q.g_ov),
    aug1 X.Roooovvvv (ein4 L.mnab L.ijce L.kldf L.efmn L.abcdijkl Q.t Q.t Q.t Q.g_ov)]
  ret := [Q.Roooovvvv]

/-- `modify_T2resid_T4Qf1Slow.py` 33-159: `residQf1_aaaa`; 79 einsum calls. -/
def modify_T2resid_T4Qf1Slow_residQf1_aaaa : Fn where
  params := [X.g, X.l2, X.t2]
  body := [
    set1 X.contracted_intermediate (ein4 L.nmkl L.kldc L.dcjm L.abin L.abij Q.g_oooo Q.l2 Q.t2 Q.t2),
    .set X.double_res [.arg Q.contracted_intermediate, ein1 L.abij L.abji Q.contracted_intermediate],
    set1 X.contracted_intermediate (ein4 L.nmkl L.kldc L.dajm L.cbin L.abij Q.g_oooo Q.l2 Q.t2 Q.t2),
    .aug X.double_res [.arg Q.contracted_intermediate, ein1 L.abij L.abji Q.contracted_intermediate],
    set1 X.contracted_intermediate (ein4 L.nmjl L.kldc L.dckm L.abin L.abij Q.g_oooo Q.l2 Q.t2 Q.t2),
    .aug X.double_res [.arg Q.contracted_intermediate, ein1 L.abij L.abji Q.contracted_intermediate],
    set1 X.contracted_intermediate (ein4 L.nmjl L.kldc L.dcim L.abkn L.abij Q.g_oooo Q.l2 Q.t2 Q.t2),
    .aug X.double_res [.arg Q.contracted_intermediate, ein1 L.abij L.abji Q.contracted_intermediate],
    set1 X.contracted_intermediate (ein4 L.nmjl L.kldc L.dakm L.cbin L.abij Q.g_oooo Q.l2 Q.t2 Q.t2),
    .aug X.double_res [.arg Q.contracted_intermediate, ein1 L.abij L.abji Q.contracted_intermediate],
    set1 X.contracted_intermediate (ein4 L.nmjl L.kldc L.daim L.cbkn L.abij Q.g_oooo Q.l2 Q.t2 Q.t2),
    .aug X.double_res [.arg Q.contracted_intermediate, ein1 L.abij L.abji Q.contracted_intermediate],
    aug1 X.double_res (ein4 L.nmij L.kldc L.dclm L.abkn L.abij Q.g_oooo Q.l2 Q.t2 Q.t2),
    set1 X.contracted_intermediate (ein4 L.nmij L.kldc L.dalm L.cbkn L.abij Q.g_oooo Q.l2 Q.t2 Q.t2),
    .aug X.double_res [.arg Q.contracted_intermediate, ein1 L.abij L.baij Q.contracted_intermediate],
    set1 X.contracted_intermediate (ein4 L.mdel L.kldc L.ecjk L.abim L.abij Q.g_ovvo Q.l2 Q.t2 Q.t2),
    .aug X.double_res [.arg Q.contracted_intermediate, ein1 L.abij L.abji Q.contracted_intermediate],
    aug1 X.double_res (ein4 L.mdel L.kldc L.ecij L.abkm L.abij Q.g_ovvo Q.l2 Q.t2 Q.t2),
    set1 X.contracted_intermediate (ein4 L.mdel L.kldc L.eajk L.cbim L.abij Q.g_ovvo Q.l2 Q.t2 Q.t2),
    .aug X.double_res [.arg Q.contracted_intermediate, ein1 L.abij L.abji Q.contracted_intermediate, ein1 L.abij L.baij Q.contracted_intermediate, ein1 L.abij L.baji Q.contracted_intermediate],
    set1 X.contracted_intermediate (ein4 L.mdel L.kldc L.eaij L.cbkm L.abij Q.g_ovvo Q.l2 Q.t2 Q.t2),
    .aug X.double_res [.arg Q.contracted_intermediate, ein1 L.abij L.baij Q.contracted_intermediate],
    set1 X.contracted_intermediate (ein4 L.mdej L.kldc L.eckl L.abim L.abij Q.g_ovvo Q.l2 Q.t2 Q.t2),
    .aug X.double_res [.arg Q.contracted_intermediate, ein1 L.abij L.abji Q.contracted_intermediate],
    set1 X.contracted_intermediate (ein4 L.mdej L.kldc L.ecil L.abkm L.abij Q.g_ovvo Q.l2 Q.t2 Q.t2),
    .aug X.double_res [.arg Q.contracted_intermediate, ein1 L.abij L.abji Q.contracted_intermediate],
    set1 X.contracted_intermediate (ein4 L.mdej L.kldc L.eakl L.cbim L.abij Q.g_ovvo Q.l2 Q.t2 Q.t2),
    .aug X.double_res [.arg Q.contracted_intermediate, ein1 L.abij L.abji Q.contracted_intermediate, ein1 L.abij L.baij Q.contracted_intermediate, ein1 L.abij L.baji Q.contracted_intermediate],
    set1 X.contracted_intermediate (ein4 L.mdej L.kldc L.eail L.cbkm L.abij Q.g_ovvo Q.l2 Q.t2 Q.t2),
    .aug X.double_res [.arg Q.contracted_intermediate, ein1 L.abij L.abji Q.contracted_intermediate, ein1 L.abij L.baij Q.contracted_intermediate, ein1 L.abij L.baji Q.contracted_intermediate],
    set1 X.contracted_intermediate (ein4 L.mael L.kldc L.edjk L.cbim L.abij Q.g_ovvo Q.l2 Q.t2 Q.t2),
    .aug X.double_res [.arg Q.contracted_intermediate, ein1 L.abij L.abji Q.contracted_intermediate, ein1 L.abij L.baij Q.contracted_intermediate, ein1 L.abij L.baji Q.contracted_intermediate],
    set1 X.contracted_intermediate (ein4 L.mael L.kldc L.edij L.cbkm L.abij Q.g_ovvo Q.l2 Q.t2 Q.t2),
    .aug X.double_res [.arg Q.contracted_intermediate, ein1 L.abij L.baij Q.contracted_intermediate],
    set1 X.contracted_intermediate (ein4 L.mael L.kldc L.ebjk L.dcim L.abij Q.g_ovvo Q.l2 Q.t2 Q.t2),
    .aug X.double_res [.arg Q.contracted_intermediate, ein1 L.abij L.abji Q.contracted_intermediate, ein1 L.abij L.baij Q.contracted_intermediate, ein1 L.abij L.baji Q.contracted_intermediate],
    set1 X.contracted_intermediate (ein4 L.mael L.kldc L.ebij L.dckm L.abij Q.g_ovvo Q.l2 Q.t2 Q.t2),
    .aug X.double_res [.arg Q.contracted_intermediate, ein1 L.abij L.baij Q.contracted_intermediate],
    set1 X.contracted_intermediate (ein4 L.maej L.kldc L.edkl L.cbim L.abij Q.g_ovvo Q.l2 Q.t2 Q.t2),
    .aug X.double_res [.arg Q.contracted_intermediate, ein1 L.abij L.abji Q.contracted_intermediate, ein1 L.abij L.baij Q.contracted_intermediate, ein1 L.abij L.baji Q.contracted_intermediate],
    set1 X.contracted_intermediate (ein4 L.maej L.kldc L.edil L.cbkm L.abij Q.g_ovvo Q.l2 Q.t2 Q.t2),
    .aug X.double_res [.arg Q.contracted_intermediate, ein1 L.abij L.abji Q.contracted_intermediate, ein1 L.abij L.baij Q.contracted_intermediate, ein1 L.abij L.baji Q.contracted_intermediate],
    set1 X.contracted_intermediate (ein4 L.maej L.kldc L.ebkl L.dcim L.abij Q.g_ovvo Q.l2 Q.t2 Q.t2),
    .aug X.double_res [.arg Q.contracted_intermediate, ein1 L.abij L.abji Q.contracted_intermediate, ein1 L.abij L.baij Q.contracted_intermediate, ein1 L.abij L.baji Q.contracted_intermediate],
    set1 X.contracted_intermediate (ein4 L.maej L.kldc L.ebil L.dckm L.abij Q.g_ovvo Q.l2 Q.t2 Q.t2),
    .aug X.double_res [.arg Q.contracted_intermediate, ein1 L.abij L.abji Q.contracted_intermediate, ein1 L.abij L.baij Q.contracted_intermediate, ein1 L.abij L.baji Q.contracted_intermediate],
    aug1 X.double_res (ein4 L.dcef L.kldc L.eakl L.fbij L.abij Q.g_vvvv Q.l2 Q.t2 Q.t2),
    set1 X.contracted_intermediate (ein4 L.dcef L.kldc L.eajl L.fbik L.abij Q.g_vvvv Q.l2 Q.t2 Q.t2),
    .aug X.double_res [.arg Q.contracted_intermediate, ein1 L.abij L.abji Q.contracted_intermediate],
    aug1 X.double_res (ein4 L.dcef L.kldc L.eaij L.fbkl L.abij Q.g_vvvv Q.l2 Q.t2 Q.t2),
    set1 X.contracted_intermediate (ein4 L.daef L.kldc L.eckl L.fbij L.abij Q.g_vvvv Q.l2 Q.t2 Q.t2),
    .aug X.double_res [.arg Q.contracted_intermediate, ein1 L.abij L.baij Q.contracted_intermediate],
    set1 X.contracted_intermediate (ein4 L.daef L.kldc L.ecjl L.fbik L.abij Q.g_vvvv Q.l2 Q.t2 Q.t2),
    .aug X.double_res [.arg Q.contracted_intermediate, ein1 L.abij L.abji Q.contracted_intermediate, ein1 L.abij L.baij Q.contracted_intermediate, ein1 L.abij L.baji Q.contracted_intermediate],
    set1 X.contracted_intermediate (ein4 L.daef L.kldc L.ecij L.fbkl L.abij Q.g_vvvv Q.l2 Q.t2 Q.t2),
    .aug X.double_res [.arg Q.contracted_intermediate, ein1 L.abij L.baij Q.contracted_intermediate],
    aug1 X.double_res (ein4 L.abef L.kldc L.edkl L.fcij L.abij Q.g_vvvv Q.l2 Q.t2 Q.t2),
    set1 X.contracted_intermediate (ein4 L.abef L.kldc L.edjl L.fcik L.abij Q.g_vvvv Q.l2 Q.t2 Q.t2),
    .aug X.double_res [.arg Q.contracted_intermediate, ein1 L.abij L.abji Q.contracted_intermediate]]
  ret := [Q.double_res]

/-- `modify_T2resid_T4Qf2Slow.py` 6-164: `residQf2_aaaa`; 92 einsum calls. -/
def modify_T2resid_T4Qf2Slow_residQf2_aaaa : Fn where
  params := [X.g, X.l2, X.t2]
  body := [
    set1 X.contracted_intermediate (ein5 L.nmef L.kldc L.efkl L.dcjm L.abin L.abij Q.g_oovv Q.l2 Q.t2 Q.t2 Q.t2),
    .set X.double_res [.arg Q.contracted_intermediate, ein1 L.abij L.abji Q.contracted_intermediate],
    set1 X.contracted_intermediate (ein5 L.nmef L.kldc L.efkl L.dajm L.cbin L.abij Q.g_oovv Q.l2 Q.t2 Q.t2 Q.t2),
    .aug X.double_res [.arg Q.contracted_intermediate, ein1 L.abij L.abji Q.contracted_intermediate],
    set1 X.contracted_intermediate (ein5 L.nmef L.kldc L.efjl L.dckm L.abin L.abij Q.g_oovv Q.l2 Q.t2 Q.t2 Q.t2),
    .aug X.double_res [.arg Q.contracted_intermediate, ein1 L.abij L.abji Q.contracted_intermediate],
    set1 X.contracted_intermediate (ein5 L.nmef L.kldc L.efjl L.dcim L.abkn L.abij Q.g_oovv Q.l2 Q.t2 Q.t2 Q.t2),
    .aug X.double_res [.arg Q.contracted_intermediate, ein1 L.abij L.abji Q.contracted_intermediate],
    set1 X.contracted_intermediate (ein5 L.nmef L.kldc L.efjl L.dakm L.cbin L.abij Q.g_oovv Q.l2 Q.t2 Q.t2 Q.t2),
    .aug X.double_res [.arg Q.contracted_intermediate, ein1 L.abij L.abji Q.contracted_intermediate],
    set1 X.contracted_intermediate (ein5 L.nmef L.kldc L.efjl L.daim L.cbkn L.abij Q.g_oovv Q.l2 Q.t2 Q.t2 Q.t2),
    .aug X.double_res [.arg Q.contracted_intermediate, ein1 L.abij L.abji Q.contracted_intermediate],
    aug1 X.double_res (ein5 L.nmef L.kldc L.efij L.dclm L.abkn L.abij Q.g_oovv Q.l2 Q.t2 Q.t2 Q.t2),
    set1 X.contracted_intermediate (ein5 L.nmef L.kldc L.efij L.dalm L.cbkn L.abij Q.g_oovv Q.l2 Q.t2 Q.t2 Q.t2),
    .aug X.double_res [.arg Q.contracted_intermediate, ein1 L.abij L.baij Q.contracted_intermediate],
    set1 X.contracted_intermediate (ein5 L.nmef L.kldc L.edlm L.fcjk L.abin L.abij Q.g_oovv Q.l2 Q.t2 Q.t2 Q.t2),
    .aug X.double_res [.arg Q.contracted_intermediate, ein1 L.abij L.abji Q.contracted_intermediate],
    aug1 X.double_res (ein5 L.nmef L.kldc L.edlm L.fcij L.abkn L.abij Q.g_oovv Q.l2 Q.t2 Q.t2 Q.t2),
    set1 X.contracted_intermediate (ein5 L.nmef L.kldc L.edlm L.fajk L.cbin L.abij Q.g_oovv Q.l2 Q.t2 Q.t2 Q.t2),
    .aug X.double_res [.arg Q.contracted_intermediate, ein1 L.abij L.abji Q.contracted_intermediate, ein1 L.abij L.baij Q.contracted_intermediate, ein1 L.abij L.baji Q.contracted_intermediate],
    set1 X.contracted_intermediate (ein5 L.nmef L.kldc L.edlm L.faij L.cbkn L.abij Q.g_oovv Q.l2 Q.t2 Q.t2 Q.t2),
    .aug X.double_res [.arg Q.contracted_intermediate, ein1 L.abij L.baij Q.contracted_intermediate],
    set1 X.contracted_intermediate (ein5 L.nmef L.kldc L.edjm L.fckl L.abin L.abij Q.g_oovv Q.l2 Q.t2 Q.t2 Q.t2),
    .aug X.double_res [.arg Q.contracted_intermediate, ein1 L.abij L.abji Q.contracted_intermediate],
    set1 X.contracted_intermediate (ein5 L.nmef L.kldc L.edjm L.fcil L.abkn L.abij Q.g_oovv Q.l2 Q.t2 Q.t2 Q.t2),
    .aug X.double_res [.arg Q.contracted_intermediate, ein1 L.abij L.abji Q.contracted_intermediate],
    set1 X.contracted_intermediate (ein5 L.nmef L.kldc L.edjm L.fakl L.cbin L.abij Q.g_oovv Q.l2 Q.t2 Q.t2 Q.t2),
    .aug X.double_res [.arg Q.contracted_intermediate, ein1 L.abij L.abji Q.contracted_intermediate, ein1 L.abij L.baij Q.contracted_intermediate, ein1 L.abij L.baji Q.contracted_intermediate],
    set1 X.contracted_intermediate (ein5 L.nmef L.kldc L.edjm L.fail L.cbkn L.abij Q.g_oovv Q.l2 Q.t2 Q.t2 Q.t2),
    .aug X.double_res [.arg Q.contracted_intermediate, ein1 L.abij L.abji Q.contracted_intermediate, ein1 L.abij L.baij Q.contracted_intermediate, ein1 L.abij L.baji Q.contracted_intermediate],
    aug1 X.double_res (ein5 L.nmef L.kldc L.edkl L.fcij L.abnm L.abij Q.g_oovv Q.l2 Q.t2 Q.t2 Q.t2),
    set1 X.contracted_intermediate (ein5 L.nmef L.kldc L.edkl L.fajm L.cbin L.abij Q.g_oovv Q.l2 Q.t2 Q.t2 Q.t2),
    .aug X.double_res [.arg Q.contracted_intermediate, ein1 L.abij L.abji Q.contracted_intermediate, ein1 L.abij L.baij Q.contracted_intermediate, ein1 L.abij L.baji Q.contracted_intermediate],
    set1 X.contracted_intermediate (ein5 L.nmef L.kldc L.edkl L.faij L.cbnm L.abij Q.g_oovv Q.l2 Q.t2 Q.t2 Q.t2),
    .aug X.double_res [.arg Q.contracted_intermediate, ein1 L.abij L.baij Q.contracted_intermediate],
    set1 X.contracted_intermediate (ein5 L.nmef L.kldc L.edjl L.fckm L.abin L.abij Q.g_oovv Q.l2 Q.t2 Q.t2 Q.t2),
    .aug X.double_res [.arg Q.contracted_intermediate, ein1 L.abij L.abji Q.contracted_intermediate],
    set1 X.contracted_intermediate (ein5 L.nmef L.kldc L.edjl L.fcik L.abnm L.abij Q.g_oovv Q.l2 Q.t2 Q.t2 Q.t2),
    .aug X.double_res [.arg Q.contracted_intermediate, ein1 L.abij L.abji Q.contracted_intermediate],
    set1 X.contracted_intermediate (ein5 L.nmef L.kldc L.edjl L.fakm L.cbin L.abij Q.g_oovv Q.l2 Q.t2 Q.t2 Q.t2),
    .aug X.double_res [.arg Q.contracted_intermediate, ein1 L.abij L.abji Q.contracted_intermediate, ein1 L.abij L.baij Q.contracted_intermediate, ein1 L.abij L.baji Q.contracted_intermediate],
    set1 X.contracted_intermediate (ein5 L.nmef L.kldc L.edjl L.faim L.cbkn L.abij Q.g_oovv Q.l2 Q.t2 Q.t2 Q.t2),
    .aug X.double_res [.arg Q.contracted_intermediate, ein1 L.abij L.abji Q.contracted_intermediate, ein1 L.abij L.baij Q.contracted_intermediate, ein1 L.abij L.baji Q.contracted_intermediate],
    set1 X.contracted_intermediate (ein5 L.nmef L.kldc L.edjl L.faik L.cbnm L.abij Q.g_oovv Q.l2 Q.t2 Q.t2 Q.t2),
    .aug X.double_res [.arg Q.contracted_intermediate, ein1 L.abij L.abji Q.contracted_intermediate, ein1 L.abij L.baij Q.contracted_intermediate, ein1 L.abij L.baji Q.contracted_intermediate],
    set1 X.contracted_intermediate (ein5 L.nmef L.kldc L.edij L.falm L.cbkn L.abij Q.g_oovv Q.l2 Q.t2 Q.t2 Q.t2),
    .aug X.double_res [.arg Q.contracted_intermediate, ein1 L.abij L.baij Q.contracted_intermediate],
    set1 X.contracted_intermediate (ein5 L.nmef L.kldc L.edij L.fakl L.cbnm L.abij Q.g_oovv Q.l2 Q.t2 Q.t2 Q.t2),
    .aug X.double_res [.arg Q.contracted_intermediate, ein1 L.abij L.baij Q.contracted_intermediate],
    set1 X.contracted_intermediate (ein5 L.nmef L.kldc L.ealm L.fbjk L.dcin L.abij Q.g_oovv Q.l2 Q.t2 Q.t2 Q.t2),
    .aug X.double_res [.arg Q.contracted_intermediate, ein1 L.abij L.abji Q.contracted_intermediate],
    aug1 X.double_res (ein5 L.nmef L.kldc L.ealm L.fbij L.dckn L.abij Q.g_oovv Q.l2 Q.t2 Q.t2 Q.t2),
    set1 X.contracted_intermediate (ein5 L.nmef L.kldc L.eajm L.fbkl L.dcin L.abij Q.g_oovv Q.l2 Q.t2 Q.t2 Q.t2),
    .aug X.double_res [.arg Q.contracted_intermediate, ein1 L.abij L.abji Q.contracted_intermediate],
    set1 X.contracted_intermediate (ein5 L.nmef L.kldc L.eajm L.fbil L.dckn L.abij Q.g_oovv Q.l2 Q.t2 Q.t2 Q.t2),
    .aug X.double_res [.arg Q.contracted_intermediate, ein1 L.abij L.abji Q.contracted_intermediate],
    set1 X.contracted_intermediate (ein5 L.nmef L.kldc L.eakl L.fbjm L.dcin L.abij Q.g_oovv Q.l2 Q.t2 Q.t2 Q.t2),
    .aug X.double_res [.arg Q.contracted_intermediate, ein1 L.abij L.abji Q.contracted_intermediate],
    aug1 X.double_res (ein5 L.nmef L.kldc L.eakl L.fbij L.dcnm L.abij Q.g_oovv Q.l2 Q.t2 Q.t2 Q.t2),
    set1 X.contracted_intermediate (ein5 L.nmef L.kldc L.eajl L.fbkm L.dcin L.abij Q.g_oovv Q.l2 Q.t2 Q.t2 Q.t2),
    .aug X.double_res [.arg Q.contracted_intermediate, ein1 L.abij L.abji Q.contracted_intermediate],
    set1 X.contracted_intermediate (ein5 L.nmef L.kldc L.eajl L.fbim L.dckn L.abij Q.g_oovv Q.l2 Q.t2 Q.t2 Q.t2),
    .aug X.double_res [.arg Q.contracted_intermediate, ein1 L.abij L.abji Q.contracted_intermediate],
    set1 X.contracted_intermediate (ein5 L.nmef L.kldc L.eajl L.fbik L.dcnm L.abij Q.g_oovv Q.l2 Q.t2 Q.t2 Q.t2),
    .aug X.double_res [.arg Q.contracted_intermediate, ein1 L.abij L.abji Q.contracted_intermediate],
    set1 X.contracted_intermediate (ein5 L.nmef L.kldc L.eajk L.dbim L.fcln L.abij Q.g_oovv Q.l2 Q.t2 Q.t2 Q.t2),
    .aug X.double_res [.arg Q.contracted_intermediate, ein1 L.abij L.abji Q.contracted_intermediate, ein1 L.abij L.baij Q.contracted_intermediate, ein1 L.abij L.baji Q.contracted_intermediate],
    aug1 X.double_res (ein5 L.nmef L.kldc L.eaij L.fblm L.dckn L.abij Q.g_oovv Q.l2 Q.t2 Q.t2 Q.t2),
    aug1 X.double_res (ein5 L.nmef L.kldc L.eaij L.fbkl L.dcnm L.abij Q.g_oovv Q.l2 Q.t2 Q.t2 Q.t2),
    set1 X.contracted_intermediate (ein5 L.nmef L.kldc L.ebjk L.dclm L.fain L.abij Q.g_oovv Q.l2 Q.t2 Q.t2 Q.t2),
    .aug X.double_res [.arg Q.contracted_intermediate, ein1 L.abij L.abji Q.contracted_intermediate],
    aug1 X.double_res (ein5 L.nmef L.kldc L.ebij L.dclm L.fakn L.abij Q.g_oovv Q.l2 Q.t2 Q.t2 Q.t2),
    set1 X.contracted_intermediate (ein5 L.nmef L.kldc L.dajm L.ebkn L.fcil L.abij Q.g_oovv Q.l2 Q.t2 Q.t2 Q.t2),
    .aug X.double_res [.arg Q.contracted_intermediate, ein1 L.abij L.abji Q.contracted_intermediate, ein1 L.abij L.baij Q.contracted_intermediate, ein1 L.abij L.baji Q.contracted_intermediate]]
  ret := [Q.double_res]

/-- `modify_T2energy_pertQfSlow.py` 4-103: `energy_pertQf`; 32 einsum calls. -/
def modify_T2energy_pertQfSlow_energy_pertQf : Fn where
  params := [X.g, X.l2, X.t2]
  body := [
    set1 X.energy (ein5 L.nmkl L.ijba L.kldc L.dcjm L.bain [] Q.g_oooo Q.l2 Q.l2 Q.t2 Q.t2),
    aug1 X.energy (ein5 L.nmkl L.ijba L.kldc L.dbjm L.cain [] Q.g_oooo Q.l2 Q.l2 Q.t2 Q.t2),
    aug1 X.energy (ein5 L.nmjl L.ijba L.kldc L.dckm L.bain [] Q.g_oooo Q.l2 Q.l2 Q.t2 Q.t2),
    aug1 X.energy (ein5 L.nmjl L.ijba L.kldc L.dcim L.bakn [] Q.g_oooo Q.l2 Q.l2 Q.t2 Q.t2),
    aug1 X.energy (ein5 L.nmjl L.ijba L.kldc L.dbkm L.cain [] Q.g_oooo Q.l2 Q.l2 Q.t2 Q.t2),
    aug1 X.energy (ein5 L.nmjl L.ijba L.kldc L.dbim L.cakn [] Q.g_oooo Q.l2 Q.l2 Q.t2 Q.t2),
    aug1 X.energy (ein5 L.nmij L.ijba L.kldc L.dclm L.bakn [] Q.g_oooo Q.l2 Q.l2 Q.t2 Q.t2),
    aug1 X.energy (ein5 L.nmij L.ijba L.kldc L.dblm L.cakn [] Q.g_oooo Q.l2 Q.l2 Q.t2 Q.t2),
    aug1 X.energy (ein5 L.mdel L.ijba L.kldc L.ecjk L.baim [] Q.g_ovvo Q.l2 Q.l2 Q.t2 Q.t2),
    aug1 X.energy (ein5 L.mdel L.ijba L.kldc L.ecij L.bakm [] Q.g_ovvo Q.l2 Q.l2 Q.t2 Q.t2),
    aug1 X.energy (ein5 L.mdel L.ijba L.kldc L.ebjk L.caim [] Q.g_ovvo Q.l2 Q.l2 Q.t2 Q.t2),
    aug1 X.energy (ein5 L.mdel L.ijba L.kldc L.ebij L.cakm [] Q.g_ovvo Q.l2 Q.l2 Q.t2 Q.t2),
    aug1 X.energy (ein5 L.mdej L.ijba L.kldc L.eckl L.baim [] Q.g_ovvo Q.l2 Q.l2 Q.t2 Q.t2),
    aug1 X.energy (ein5 L.mdej L.ijba L.kldc L.ecil L.bakm [] Q.g_ovvo Q.l2 Q.l2 Q.t2 Q.t2),
    aug1 X.energy (ein5 L.mdej L.ijba L.kldc L.ebkl L.caim [] Q.g_ovvo Q.l2 Q.l2 Q.t2 Q.t2),
    aug1 X.energy (ein5 L.mdej L.ijba L.kldc L.ebil L.cakm [] Q.g_ovvo Q.l2 Q.l2 Q.t2 Q.t2),
    aug1 X.energy (ein5 L.mbel L.ijba L.kldc L.edjk L.caim [] Q.g_ovvo Q.l2 Q.l2 Q.t2 Q.t2),
    aug1 X.energy (ein5 L.mbel L.ijba L.kldc L.edij L.cakm [] Q.g_ovvo Q.l2 Q.l2 Q.t2 Q.t2),
    aug1 X.energy (ein5 L.mbel L.ijba L.kldc L.eajk L.dcim [] Q.g_ovvo Q.l2 Q.l2 Q.t2 Q.t2),
    aug1 X.energy (ein5 L.mbel L.ijba L.kldc L.eaij L.dckm [] Q.g_ovvo Q.l2 Q.l2 Q.t2 Q.t2),
    aug1 X.energy (ein5 L.mbej L.ijba L.kldc L.edkl L.caim [] Q.g_ovvo Q.l2 Q.l2 Q.t2 Q.t2),
    aug1 X.energy (ein5 L.mbej L.ijba L.kldc L.edil L.cakm [] Q.g_ovvo Q.l2 Q.l2 Q.t2 Q.t2),
    aug1 X.energy (ein5 L.mbej L.ijba L.kldc L.eakl L.dcim [] Q.g_ovvo Q.l2 Q.l2 Q.t2 Q.t2),
    aug1 X.energy (ein5 L.mbej L.ijba L.kldc L.eail L.dckm [] Q.g_ovvo Q.l2 Q.l2 Q.t2 Q.t2),
    aug1 X.energy (ein5 L.dcef L.ijba L.kldc L.ebkl L.faij [] Q.g_vvvv Q.l2 Q.l2 Q.t2 Q.t2),
    aug1 X.energy (ein5 L.dcef L.ijba L.kldc L.ebjl L.faik [] Q.g_vvvv Q.l2 Q.l2 Q.t2 Q.t2),
    aug1 X.energy (ein5 L.dbef L.ijba L.kldc L.eckl L.faij [] Q.g_vvvv Q.l2 Q.l2 Q.t2 Q.t2),
    aug1 X.energy (ein5 L.dbef L.ijba L.kldc L.ecjl L.faik [] Q.g_vvvv Q.l2 Q.l2 Q.t2 Q.t2),
    aug1 X.energy (ein5 L.dbef L.ijba L.kldc L.ecij L.fakl [] Q.g_vvvv Q.l2 Q.l2 Q.t2 Q.t2),
    aug1 X.energy (ein5 L.daef L.ijba L.kldc L.ebjl L.fcik [] Q.g_vvvv Q.l2 Q.l2 Q.t2 Q.t2),
    aug1 X.energy (ein5 L.baef L.ijba L.kldc L.edkl L.fcij [] Q.g_vvvv Q.l2 Q.l2 Q.t2 Q.t2),
    aug1 X.energy (ein5 L.baef L.ijba L.kldc L.edjl L.fcik [] Q.g_vvvv Q.l2 Q.l2 Q.t2 Q.t2)]
  ret := [Q.energy]

/-- `drive_ucc4.py` 97-112: `t1_residEqns`; 5 einsum calls. -/
def drive_ucc4_t1_residEqns : Fn where
  params := [X.g, X.t2, X.f, X.t1]
  body := [
    set1 X.singles_res (ein2 L.kjbi L.bakj L.ai Q.g_oovo Q.t2),
    aug1 X.singles_res (ein2 L.jabc L.bcij L.ai Q.g_ovvv Q.t2),
    aug1 X.singles_res (ein1 L.ai L.ai Q.f_vo),
    aug1 X.singles_res (ein2 L.ji L.aj L.ai Q.f_oo Q.t1),
    aug1 X.singles_res (ein2 L.ab L.bi L.ai Q.f_vv Q.t1)]
  ret := [Q.singles_res]

/-- `drive_ucc4.py` 123-167: `t3_resid`; 24 einsum calls. -/
def drive_ucc4_t3_resid : Fn where
  params := [X.f, X.t3, X.g, X.t2]
  body := [
    set1 X.contracted_intermediate (ein2 L.lk L.abcijl L.abcijk Q.f_oo Q.t3),
    .set X.triples_res [.arg Q.contracted_intermediate, ein1 L.abcijk L.abcikj Q.contracted_intermediate],
    aug1 X.triples_res (ein2 L.li L.abcjkl L.abcijk Q.f_oo Q.t3),
    set1 X.contracted_intermediate (ein2 L.ad L.dbcijk L.abcijk Q.f_vv Q.t3),
    .aug X.triples_res [.arg Q.contracted_intermediate, ein1 L.abcijk L.bacijk Q.contracted_intermediate],
    aug1 X.triples_res (ein2 L.cd L.dabijk L.abcijk Q.f_vv Q.t3),
    set1 X.contracted_intermediate (ein2 L.lajk L.bcil L.abcijk Q.g_ovoo Q.t2),
    .aug X.triples_res [.arg Q.contracted_intermediate, ein1 L.abcijk L.abcjik Q.contracted_intermediate, ein1 L.abcijk L.bacijk Q.contracted_intermediate, ein1 L.abcijk L.bacjik Q.contracted_intermediate],
    set1 X.contracted_intermediate (ein2 L.laij L.bckl L.abcijk Q.g_ovoo Q.t2),
    .aug X.triples_res [.arg Q.contracted_intermediate, ein1 L.abcijk L.bacijk Q.contracted_intermediate],
    set1 X.contracted_intermediate (ein2 L.lcjk L.abil L.abcijk Q.g_ovoo Q.t2),
    .aug X.triples_res [.arg Q.contracted_intermediate, ein1 L.abcijk L.abcjik Q.contracted_intermediate],
    aug1 X.triples_res (ein2 L.lcij L.abkl L.abcijk Q.g_ovoo Q.t2),
    set1 X.contracted_intermediate (ein2 L.abdk L.dcij L.abcijk Q.g_vvvo Q.t2),
    .aug X.triples_res [.arg Q.contracted_intermediate, ein1 L.abcijk L.abcikj Q.contracted_intermediate, ein1 L.abcijk L.acbijk Q.contracted_intermediate, ein1 L.abcijk L.acbikj Q.contracted_intermediate],
    set1 X.contracted_intermediate (ein2 L.abdi L.dcjk L.abcijk Q.g_vvvo Q.t2),
    .aug X.triples_res [.arg Q.contracted_intermediate, ein1 L.abcijk L.acbijk Q.contracted_intermediate],
    set1 X.contracted_intermediate (ein2 L.bcdk L.daij L.abcijk Q.g_vvvo Q.t2),
    .aug X.triples_res [.arg Q.contracted_intermediate, ein1 L.abcijk L.abcikj Q.contracted_intermediate],
    aug1 X.triples_res (ein2 L.bcdi L.dajk L.abcijk Q.g_vvvo Q.t2)]
  ret := [Q.triples_res]

/-- `drive_ucc4.py` 175-193: `offset_t2resid_t2squared`; 7 einsum calls. -/
def drive_ucc4_offset_t2resid_t2squared : Fn where
  params := [X.g, X.t2]
  body := [
    set1 X.contracted_intermediate (ein3 L.lkcd L.cdjk L.abil L.abij Q.g_oovv Q.t2 Q.t2),
    .set X.doubles_res [.arg Q.contracted_intermediate, ein1 L.abij L.abji Q.contracted_intermediate],
    aug1 X.doubles_res (ein3 L.lkcd L.cdij L.ablk L.abij Q.g_oovv Q.t2 Q.t2),
    aug1 X.doubles_res (ein3 L.lkcd L.calk L.dbij L.abij Q.g_oovv Q.t2 Q.t2),
    set1 X.contracted_intermediate (ein3 L.lkcd L.cajk L.dbil L.abij Q.g_oovv Q.t2 Q.t2),
    .aug X.doubles_res [.arg Q.contracted_intermediate, ein1 L.abij L.abji Q.contracted_intermediate],
    aug1 X.doubles_res (ein3 L.lkcd L.caij L.dblk L.abij Q.g_oovv Q.t2 Q.t2),
    set1 X.tmp0 (.arg Q.doubles_res)]
  ret := [Q.tmp0]

/-- `drive_ucc4.py` 195-213: `offset_t2resid_t2dag_w_t2`; 7 einsum calls. -/
def drive_ucc4_offset_t2resid_t2dag_w_t2 : Fn where
  params := [X.t2_dag, X.g, X.t2]
  body := [
    set1 X.contracted_intermediate (ein3 L.lkcd L.cdjk L.abil L.abij Q.t2_dag Q.g_vvoo Q.t2),
    .set X.doubles_res [.arg Q.contracted_intermediate, ein1 L.abij L.abji Q.contracted_intermediate],
    aug1 X.doubles_res (ein3 L.lkcd L.cdij L.ablk L.abij Q.t2_dag Q.g_vvoo Q.t2),
    aug1 X.doubles_res (ein3 L.lkcd L.calk L.dbij L.abij Q.t2_dag Q.g_vvoo Q.t2),
    set1 X.contracted_intermediate (ein3 L.lkcd L.cajk L.dbil L.abij Q.t2_dag Q.g_vvoo Q.t2),
    .aug X.doubles_res [.arg Q.contracted_intermediate, ein1 L.abij L.abji Q.contracted_intermediate],
    aug1 X.doubles_res (ein3 L.lkcd L.caij L.dblk L.abij Q.t2_dag Q.g_vvoo Q.t2)]
  ret := [Q.doubles_res]

/-- `drive_ucc4.py` 215-237: `offset_t2resid_T1_T3`; 8 einsum calls. -/
def drive_ucc4_offset_t2resid_T1_T3 : Fn where
  params := [X.g, X.t1, X.t3]
  body := [
    set1 X.contracted_intermediate (ein2 L.kaij L.bk L.abij Q.g_ovoo Q.t1),
    .set X.doubles_res [.arg Q.contracted_intermediate, ein1 L.abij L.baij Q.contracted_intermediate],
    set1 X.contracted_intermediate (ein2 L.abcj L.ci L.abij Q.g_vvvo Q.t1),
    .aug X.doubles_res [.arg Q.contracted_intermediate, ein1 L.abij L.abji Q.contracted_intermediate],
    set1 X.contracted_intermediate (ein2 L.lkcj L.cabilk L.abij Q.g_oovo Q.t3),
    .aug X.doubles_res [.arg Q.contracted_intermediate, ein1 L.abij L.abji Q.contracted_intermediate],
    set1 X.contracted_intermediate (ein2 L.kacd L.cdbijk L.abij Q.g_ovvv Q.t3),
    .aug X.doubles_res [.arg Q.contracted_intermediate, ein1 L.abij L.baij Q.contracted_intermediate]]
  ret := [Q.doubles_res]

/-- `pdagq_T3corr.py` 4-37: `build_T3`; 18 einsum calls. -/
def pdagq_T3corr_build_T3 : Fn where
  params := [X.g, X.t2]
  body := [
    set1 X.contracted_intermediate (ein2 L.lajk L.bcil L.abcijk Q.g_ovoo Q.t2),
    .set X.triples_res [.arg Q.contracted_intermediate, ein1 L.abcijk L.abcjik Q.contracted_intermediate, ein1 L.abcijk L.bacijk Q.contracted_intermediate, ein1 L.abcijk L.bacjik Q.contracted_intermediate],
    set1 X.contracted_intermediate (ein2 L.laij L.bckl L.abcijk Q.g_ovoo Q.t2),
    .aug X.triples_res [.arg Q.contracted_intermediate, ein1 L.abcijk L.bacijk Q.contracted_intermediate],
    set1 X.contracted_intermediate (ein2 L.lcjk L.abil L.abcijk Q.g_ovoo Q.t2),
    .aug X.triples_res [.arg Q.contracted_intermediate, ein1 L.abcijk L.abcjik Q.contracted_intermediate],
    aug1 X.triples_res (ein2 L.lcij L.abkl L.abcijk Q.g_ovoo Q.t2),
    set1 X.contracted_intermediate (ein2 L.abdk L.dcij L.abcijk Q.g_vvvo Q.t2),
    .aug X.triples_res [.arg Q.contracted_intermediate, ein1 L.abcijk L.abcikj Q.contracted_intermediate, ein1 L.abcijk L.acbijk Q.contracted_intermediate, ein1 L.abcijk L.acbikj Q.contracted_intermediate],
    set1 X.contracted_intermediate (ein2 L.abdi L.dcjk L.abcijk Q.g_vvvo Q.t2),
    .aug X.triples_res [.arg Q.contracted_intermediate, ein1 L.abcijk L.acbijk Q.contracted_intermediate],
    set1 X.contracted_intermediate (ein2 L.bcdk L.daij L.abcijk Q.g_vvvo Q.t2),
    .aug X.triples_res [.arg Q.contracted_intermediate, ein1 L.abcijk L.abcikj Q.contracted_intermediate],
    aug1 X.triples_res (ein2 L.bcdi L.dajk L.abcijk Q.g_vvvo Q.t2)]
  ret := [Q.triples_res]

/-- `pdagq_T3corr.py` 39-49: `pdagq_T3energy`; 3 einsum calls. -/
def pdagq_T3corr_pdagq_T3energy : Fn where
  params := [X.g, X.l1, X.t3, X.l2]
  body := [
    set1 X.energy (ein3 L.kjbc L.ia L.bcaikj [] Q.g_oovv Q.l1 Q.t3),
    set1 X.energy (ein3 L.lkcj L.ijba L.cbailk [] Q.g_oovo Q.l2 Q.t3),
    aug1 X.energy (ein3 L.kbcd L.ijba L.cdaijk [] Q.g_ovvv Q.l2 Q.t3)]
  ret := [Q.energy]

/-- `pdagq_T3corr.py` 51-68: `ccsd_energy`; 5 einsum calls. -/
def pdagq_T3corr_ccsd_energy : Fn where
  params := [X.f, X.t1, X.g, X.t2]
  body := [
    set1 X.energy (ein1 L.ii [] Q.f_oo),
    aug1 X.energy (ein2 L.ia L.ai [] Q.f_ov Q.t1),
    aug1 X.energy (ein1 L.jiji [] Q.g_oooo),
    aug1 X.energy (ein2 L.jiab L.abji [] Q.g_oovv Q.t2),
    aug1 X.energy (ein3 L.jiab L.ai L.bj [] Q.g_oovv Q.t1 Q.t1)]
  ret := []

end Verif.Shape.Prog
