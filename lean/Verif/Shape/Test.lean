import Verif.Shape.Names

/-!
# Shape programs of testing_modifyT2eqns_with_T4.py (generated by tools/shapegen.py)

Every statement of the functions with the subscripts and operands as written; see `Verif.Shape.Core`.
-/

set_option maxRecDepth 100000

namespace Verif.Shape.Prog

open Verif.Shape

/-- `testing_modifyT2eqns_with_T4.py` 4-831: `ccsdt_t2_aaaa_residual_Qf`; 522 einsum calls. -/
def testing_modifyT2eqns_with_T4_ccsdt_t2_aaaa_residual_Qf : Fn where
  params := [X.g_aaaa, X.l2_aaaa, X.t2_aaaa, X.g_abab, X.l2_abab, X.t2_abab, X.g_bbbb, X.l2_bbbb, X.t2_bbbb, X.t3_aaaaaa, X.t3_aabaab, X.t3_abbabb]
  body := [
    set1 X.contracted_intermediate (ein4 L.nmkl L.kldc L.dcjm L.abin L.abij Q.g_aaaa_oaoaoaoa Q.l2_aaaa Q.t2_aaaa Q.t2_aaaa),
    .set X.doubles_res [.arg Q.contracted_intermediate, ein1 L.abij L.abji Q.contracted_intermediate],
    set1 X.contracted_intermediate (ein4 L.nmkl L.kldc L.dcjm L.abin L.abij Q.g_abab_oaoaoaoa Q.l2_abab Q.t2_abab Q.t2_aaaa),
    .aug X.doubles_res [.arg Q.contracted_intermediate, ein1 L.abij L.abji Q.contracted_intermediate],
    set1 X.contracted_intermediate (ein4 L.nmkl L.klcd L.cdjm L.abin L.abij Q.g_abab_oaoaoaoa Q.l2_abab Q.t2_abab Q.t2_aaaa),
    .aug X.doubles_res [.arg Q.contracted_intermediate, ein1 L.abij L.abji Q.contracted_intermediate],
    set1 X.contracted_intermediate (ein4 L.nmlk L.lkdc L.dcjm L.abin L.abij Q.g_abab_oaoaoaoa Q.l2_abab Q.t2_abab Q.t2_aaaa),
    .aug X.doubles_res [.arg Q.contracted_intermediate, ein1 L.abij L.abji Q.contracted_intermediate],
    set1 X.contracted_intermediate (ein4 L.nmlk L.lkcd L.cdjm L.abin L.abij Q.g_abab_oaoaoaoa Q.l2_abab Q.t2_abab Q.t2_aaaa),
    .aug X.doubles_res [.arg Q.contracted_intermediate, ein1 L.abij L.abji Q.contracted_intermediate],
    set1 X.contracted_intermediate (ein4 L.nmkl L.kldc L.dajm L.cbin L.abij Q.g_aaaa_oaoaoaoa Q.l2_aaaa Q.t2_aaaa Q.t2_aaaa),
    .aug X.doubles_res [.arg Q.contracted_intermediate, ein1 L.abij L.abji Q.contracted_intermediate],
    set1 X.contracted_intermediate (ein4 L.mnkl L.kldc L.dajm L.bcin L.abij Q.g_abab_oaoaoaoa Q.l2_abab Q.t2_aaaa Q.t2_abab),
    .aug X.doubles_res [.arg Q.contracted_intermediate, ein1 L.abij L.abji Q.contracted_intermediate],
    set1 X.contracted_intermediate (ein4 L.nmkl L.klcd L.adjm L.cbin L.abij Q.g_abab_oaoaoaoa Q.l2_abab Q.t2_abab Q.t2_aaaa),
    .aug X.doubles_res [.arg Q.contracted_intermediate, ein1 L.abij L.abji Q.contracted_intermediate],
    set1 X.contracted_intermediate (ein4 L.mnlk L.lkdc L.dajm L.bcin L.abij Q.g_abab_oaoaoaoa Q.l2_abab Q.t2_aaaa Q.t2_abab),
    .aug X.doubles_res [.arg Q.contracted_intermediate, ein1 L.abij L.abji Q.contracted_intermediate],
    set1 X.contracted_intermediate (ein4 L.nmlk L.lkcd L.adjm L.cbin L.abij Q.g_abab_oaoaoaoa Q.l2_abab Q.t2_abab Q.t2_aaaa),
    .aug X.doubles_res [.arg Q.contracted_intermediate, ein1 L.abij L.abji Q.contracted_intermediate],
    set1 X.contracted_intermediate (ein4 L.nmkl L.kldc L.adjm L.bcin L.abij Q.g_bbbb_oaoaoaoa Q.l2_bbbb Q.t2_abab Q.t2_abab),
    .aug X.doubles_res [.arg Q.contracted_intermediate, ein1 L.abij L.abji Q.contracted_intermediate],
    set1 X.contracted_intermediate (ein4 L.nmjl L.kldc L.dckm L.abin L.abij Q.g_aaaa_oaoaoaoa Q.l2_aaaa Q.t2_aaaa Q.t2_aaaa),
    .aug X.doubles_res [.arg Q.contracted_intermediate, ein1 L.abij L.abji Q.contracted_intermediate],
    set1 X.contracted_intermediate (ein4 L.nmjl L.kldc L.dckm L.abin L.abij Q.g_abab_oaoaoaoa Q.l2_abab Q.t2_abab Q.t2_aaaa),
    .aug X.doubles_res [.arg Q.contracted_intermediate, ein1 L.abij L.abji Q.contracted_intermediate],
    set1 X.contracted_intermediate (ein4 L.nmjl L.klcd L.cdkm L.abin L.abij Q.g_abab_oaoaoaoa Q.l2_abab Q.t2_abab Q.t2_aaaa),
    .aug X.doubles_res [.arg Q.contracted_intermediate, ein1 L.abij L.abji Q.contracted_intermediate],
    set1 X.contracted_intermediate (ein4 L.nmjl L.lkdc L.dcmk L.abin L.abij Q.g_aaaa_oaoaoaoa Q.l2_abab Q.t2_abab Q.t2_aaaa),
    .aug X.doubles_res [.arg Q.contracted_intermediate, ein1 L.abij L.abji Q.contracted_intermediate],
    set1 X.contracted_intermediate (ein4 L.nmjl L.lkcd L.cdmk L.abin L.abij Q.g_aaaa_oaoaoaoa Q.l2_abab Q.t2_abab Q.t2_aaaa),
    .aug X.doubles_res [.arg Q.contracted_intermediate, ein1 L.abij L.abji Q.contracted_intermediate],
    set1 X.contracted_intermediate (ein4 L.nmjl L.kldc L.dckm L.abin L.abij Q.g_abab_oaoaoaoa Q.l2_bbbb Q.t2_bbbb Q.t2_aaaa),
    .aug X.doubles_res [.arg Q.contracted_intermediate, ein1 L.abij L.abji Q.contracted_intermediate],
    set1 X.contracted_intermediate (ein4 L.nmjl L.kldc L.dcim L.abkn L.abij Q.g_aaaa_oaoaoaoa Q.l2_aaaa Q.t2_aaaa Q.t2_aaaa),
    .aug X.doubles_res [.arg Q.contracted_intermediate, ein1 L.abij L.abji Q.contracted_intermediate],
    set1 X.contracted_intermediate (ein4 L.nmjl L.kldc L.dcim L.abkn L.abij Q.g_abab_oaoaoaoa Q.l2_abab Q.t2_abab Q.t2_aaaa),
    .aug X.doubles_res [.arg Q.contracted_intermediate, ein1 L.abij L.abji Q.contracted_intermediate],
    set1 X.contracted_intermediate (ein4 L.nmjl L.klcd L.cdim L.abkn L.abij Q.g_abab_oaoaoaoa Q.l2_abab Q.t2_abab Q.t2_aaaa),
    .aug X.doubles_res [.arg Q.contracted_intermediate, ein1 L.abij L.abji Q.contracted_intermediate],
    set1 X.contracted_intermediate (ein4 L.nmjl L.kldc L.dakm L.cbin L.abij Q.g_aaaa_oaoaoaoa Q.l2_aaaa Q.t2_aaaa Q.t2_aaaa),
    .aug X.doubles_res [.arg Q.contracted_intermediate, ein1 L.abij L.abji Q.contracted_intermediate],
    set1 X.contracted_intermediate (ein4 L.mnjl L.kldc L.dakm L.bcin L.abij Q.g_abab_oaoaoaoa Q.l2_abab Q.t2_aaaa Q.t2_abab),
    .aug X.doubles_res [.arg Q.contracted_intermediate, ein1 L.abij L.abji Q.contracted_intermediate],
    set1 X.contracted_intermediate (ein4 L.nmjl L.klcd L.adkm L.cbin L.abij Q.g_abab_oaoaoaoa Q.l2_abab Q.t2_abab Q.t2_aaaa),
    .aug X.doubles_res [.arg Q.contracted_intermediate, ein1 L.abij L.abji Q.contracted_intermediate],
    set1 X.contracted_intermediate (ein4 L.nmjl L.lkcd L.admk L.cbin L.abij Q.g_aaaa_oaoaoaoa Q.l2_abab Q.t2_abab Q.t2_aaaa),
    .aug X.doubles_res [.arg Q.contracted_intermediate, ein1 L.abij L.abji Q.contracted_intermediate],
    set1 X.contracted_intermediate (ein4 L.mnjl L.kldc L.admk L.bcin L.abij Q.g_abab_oaoaoaoa Q.l2_bbbb Q.t2_abab Q.t2_abab),
    .aug X.doubles_res [.arg Q.contracted_intermediate, ein1 L.abij L.abji Q.contracted_intermediate],
    set1 X.contracted_intermediate (ein4 L.nmjl L.kldc L.daim L.cbkn L.abij Q.g_aaaa_oaoaoaoa Q.l2_aaaa Q.t2_aaaa Q.t2_aaaa),
    .aug X.doubles_res [.arg Q.contracted_intermediate, ein1 L.abij L.abji Q.contracted_intermediate],
    set1 X.contracted_intermediate (ein4 L.mnjl L.kldc L.daim L.bckn L.abij Q.g_abab_oaoaoaoa Q.l2_abab Q.t2_aaaa Q.t2_abab),
    .aug X.doubles_res [.arg Q.contracted_intermediate, ein1 L.abij L.abji Q.contracted_intermediate],
    set1 X.contracted_intermediate (ein4 L.nmjl L.klcd L.adim L.cbkn L.abij Q.g_abab_oaoaoaoa Q.l2_abab Q.t2_abab Q.t2_aaaa),
    .aug X.doubles_res [.arg Q.contracted_intermediate, ein1 L.abij L.abji Q.contracted_intermediate],
    set1 X.contracted_intermediate (ein4 L.nmjl L.lkdc L.daim L.bcnk L.abij Q.g_aaaa_oaoaoaoa Q.l2_abab Q.t2_aaaa Q.t2_abab),
    .aug X.doubles_res [.arg Q.contracted_intermediate, ein1 L.abij L.abji Q.contracted_intermediate],
    set1 X.contracted_intermediate (ein4 L.nmjl L.kldc L.adim L.bcnk L.abij Q.g_abab_oaoaoaoa Q.l2_bbbb Q.t2_abab Q.t2_abab),
    .aug X.doubles_res [.arg Q.contracted_intermediate, ein1 L.abij L.abji Q.contracted_intermediate],
    aug1 X.doubles_res (ein4 L.nmij L.kldc L.dclm L.abkn L.abij Q.g_aaaa_oaoaoaoa Q.l2_aaaa Q.t2_aaaa Q.t2_aaaa),
    aug1 X.doubles_res (ein4 L.nmij L.kldc L.dcml L.abkn L.abij Q.g_aaaa_oaoaoaoa Q.l2_abab Q.t2_abab Q.t2_aaaa),
    aug1 X.doubles_res (ein4 L.nmij L.klcd L.cdml L.abkn L.abij Q.g_aaaa_oaoaoaoa Q.l2_abab Q.t2_abab Q.t2_aaaa),
    set1 X.contracted_intermediate (ein4 L.nmij L.kldc L.dalm L.cbkn L.abij Q.g_aaaa_oaoaoaoa Q.l2_aaaa Q.t2_aaaa Q.t2_aaaa),
    .aug X.doubles_res [.arg Q.contracted_intermediate, ein1 L.abij L.baij Q.contracted_intermediate],
    set1 X.contracted_intermediate (ein4 L.nmij L.klcd L.adml L.cbkn L.abij Q.g_aaaa_oaoaoaoa Q.l2_abab Q.t2_abab Q.t2_aaaa),
    .aug X.doubles_res [.arg Q.contracted_intermediate, ein1 L.abij L.baij Q.contracted_intermediate],
    set1 X.contracted_intermediate (ein4 L.nmij L.lkdc L.dalm L.bcnk L.abij Q.g_aaaa_oaoaoaoa Q.l2_abab Q.t2_aaaa Q.t2_abab),
    .aug X.doubles_res [.arg Q.contracted_intermediate, ein1 L.abij L.baij Q.contracted_intermediate],
    set1 X.contracted_intermediate (ein4 L.nmij L.kldc L.adml L.bcnk L.abij Q.g_aaaa_oaoaoaoa Q.l2_bbbb Q.t2_abab Q.t2_abab),
    .aug X.doubles_res [.arg Q.contracted_intermediate, ein1 L.abij L.baij Q.contracted_intermediate],
    set1 X.contracted_intermediate (ein4 L.mdel L.kldc L.ecjk L.abim L.abij Q.g_aaaa_oavavaoa Q.l2_aaaa Q.t2_aaaa Q.t2_aaaa),
    .aug X.doubles_res [.arg Q.contracted_intermediate, ein1 L.abij L.abji Q.contracted_intermediate],
    set1 X.contracted_intermediate (ein4 L.mdel L.klcd L.ecjk L.abim L.abij Q.g_abab_oavavaoa Q.l2_abab Q.t2_aaaa Q.t2_aaaa),
    .aug X.doubles_res [.arg Q.contracted_intermediate, ein1 L.abij L.abji Q.contracted_intermediate],
    set1 X.contracted_intermediate (ein4 L.mdel L.lkdc L.ecjk L.abim L.abij Q.g_aaaa_oavavaoa Q.l2_abab Q.t2_abab Q.t2_aaaa),
    .aug X.doubles_res [.arg Q.contracted_intermediate, ein1 L.abij L.abji Q.contracted_intermediate],
    set1 X.contracted_intermediate (ein4 L.mdle L.lkcd L.cejk L.abim L.abij Q.g_abab_oavaoava Q.l2_abab Q.t2_abab Q.t2_aaaa),
    .aug X.doubles_res [.arg Q.contracted_intermediate, ein1 L.abij L.abji Q.contracted_intermediate],
    set1 X.contracted_intermediate (ein4 L.mdel L.kldc L.ecjk L.abim L.abij Q.g_abab_oavavaoa Q.l2_bbbb Q.t2_abab Q.t2_aaaa),
    .aug X.doubles_res [.arg Q.contracted_intermediate, ein1 L.abij L.abji Q.contracted_intermediate],
    aug1 X.doubles_res (ein4 L.mdel L.kldc L.ecij L.abkm L.abij Q.g_aaaa_oavavaoa Q.l2_aaaa Q.t2_aaaa Q.t2_aaaa),
    aug1 X.doubles_res (ein4 L.mdel L.klcd L.ecij L.abkm L.abij Q.g_abab_oavavaoa Q.l2_abab Q.t2_aaaa Q.t2_aaaa),
    set1 X.contracted_intermediate (ein4 L.mdel L.kldc L.eajk L.cbim L.abij Q.g_aaaa_oavavaoa Q.l2_aaaa Q.t2_aaaa Q.t2_aaaa),
    .aug X.doubles_res [.arg Q.contracted_intermediate, ein1 L.abij L.abji Q.contracted_intermediate, ein1 L.abij L.baij Q.contracted_intermediate, ein1 L.abij L.baji Q.contracted_intermediate],
    set1 X.contracted_intermediate (ein4 L.dmel L.kldc L.eajk L.bcim L.abij Q.g_abab_vaoavaoa Q.l2_abab Q.t2_aaaa Q.t2_abab),
    .aug X.doubles_res [.arg Q.contracted_intermediate, ein1 L.abij L.abji Q.contracted_intermediate, ein1 L.abij L.baij Q.contracted_intermediate, ein1 L.abij L.baji Q.contracted_intermediate],
    set1 X.contracted_intermediate (ein4 L.mdel L.klcd L.eajk L.cbim L.abij Q.g_abab_oavavaoa Q.l2_abab Q.t2_aaaa Q.t2_aaaa),
    .aug X.doubles_res [.arg Q.contracted_intermediate, ein1 L.abij L.abji Q.contracted_intermediate, ein1 L.abij L.baij Q.contracted_intermediate, ein1 L.abij L.baji Q.contracted_intermediate],
    set1 X.contracted_intermediate (ein4 L.dmle L.lkdc L.aejk L.bcim L.abij Q.g_abab_vaoaoava Q.l2_abab Q.t2_abab Q.t2_abab),
    .aug X.doubles_res [.arg Q.contracted_intermediate, ein1 L.abij L.abji Q.contracted_intermediate, ein1 L.abij L.baij Q.contracted_intermediate, ein1 L.abij L.baji Q.contracted_intermediate],
    set1 X.contracted_intermediate (ein4 L.mdle L.lkcd L.aejk L.cbim L.abij Q.g_abab_oavaoava Q.l2_abab Q.t2_abab Q.t2_aaaa),
    .aug X.doubles_res [.arg Q.contracted_intermediate, ein1 L.abij L.abji Q.contracted_intermediate, ein1 L.abij L.baij Q.contracted_intermediate, ein1 L.abij L.baji Q.contracted_intermediate],
    set1 X.contracted_intermediate (ein4 L.mdel L.kldc L.aejk L.bcim L.abij Q.g_bbbb_oavavaoa Q.l2_bbbb Q.t2_abab Q.t2_abab),
    .aug X.doubles_res [.arg Q.contracted_intermediate, ein1 L.abij L.abji Q.contracted_intermediate, ein1 L.abij L.baij Q.contracted_intermediate, ein1 L.abij L.baji Q.contracted_intermediate],
    set1 X.contracted_intermediate (ein4 L.mdel L.kldc L.eaij L.cbkm L.abij Q.g_aaaa_oavavaoa Q.l2_aaaa Q.t2_aaaa Q.t2_aaaa),
    .aug X.doubles_res [.arg Q.contracted_intermediate, ein1 L.abij L.baij Q.contracted_intermediate],
    set1 X.contracted_intermediate (ein4 L.dmel L.kldc L.eaij L.bckm L.abij Q.g_abab_vaoavaoa Q.l2_abab Q.t2_aaaa Q.t2_abab),
    .aug X.doubles_res [.arg Q.contracted_intermediate, ein1 L.abij L.baij Q.contracted_intermediate],
    set1 X.contracted_intermediate (ein4 L.mdel L.klcd L.eaij L.cbkm L.abij Q.g_abab_oavavaoa Q.l2_abab Q.t2_aaaa Q.t2_aaaa),
    .aug X.doubles_res [.arg Q.contracted_intermediate, ein1 L.abij L.baij Q.contracted_intermediate],
    set1 X.contracted_intermediate (ein4 L.mdel L.lkdc L.eaij L.bcmk L.abij Q.g_aaaa_oavavaoa Q.l2_abab Q.t2_aaaa Q.t2_abab),
    .aug X.doubles_res [.arg Q.contracted_intermediate, ein1 L.abij L.baij Q.contracted_intermediate],
    set1 X.contracted_intermediate (ein4 L.mdel L.kldc L.eaij L.bcmk L.abij Q.g_abab_oavavaoa Q.l2_bbbb Q.t2_aaaa Q.t2_abab),
    .aug X.doubles_res [.arg Q.contracted_intermediate, ein1 L.abij L.baij Q.contracted_intermediate],
    set1 X.contracted_intermediate (ein4 L.mdej L.kldc L.eckl L.abim L.abij Q.g_aaaa_oavavaoa Q.l2_aaaa Q.t2_aaaa Q.t2_aaaa),
    .aug X.doubles_res [.arg Q.contracted_intermediate, ein1 L.abij L.abji Q.contracted_intermediate],
    set1 X.contracted_intermediate (ein4 L.mdej L.kldc L.eckl L.abim L.abij Q.g_aaaa_oavavaoa Q.l2_abab Q.t2_abab Q.t2_aaaa),
    .aug X.doubles_res [.arg Q.contracted_intermediate, ein1 L.abij L.abji Q.contracted_intermediate],
    set1 X.contracted_intermediate (ein4 L.mdje L.klcd L.cekl L.abim L.abij Q.g_abab_oavaoava Q.l2_abab Q.t2_abab Q.t2_aaaa),
    .aug X.doubles_res [.arg Q.contracted_intermediate, ein1 L.abij L.abji Q.contracted_intermediate],
    set1 X.contracted_intermediate (ein4 L.mdej L.lkdc L.eclk L.abim L.abij Q.g_aaaa_oavavaoa Q.l2_abab Q.t2_abab Q.t2_aaaa),
    .aug X.doubles_res [.arg Q.contracted_intermediate, ein1 L.abij L.abji Q.contracted_intermediate],
    set1 X.contracted_intermediate (ein4 L.mdje L.lkcd L.celk L.abim L.abij Q.g_abab_oavaoava Q.l2_abab Q.t2_abab Q.t2_aaaa),
    .aug X.doubles_res [.arg Q.contracted_intermediate, ein1 L.abij L.abji Q.contracted_intermediate],
    set1 X.contracted_intermediate (ein4 L.mdje L.kldc L.eckl L.abim L.abij Q.g_abab_oavaoava Q.l2_bbbb Q.t2_bbbb Q.t2_aaaa),
    .aug X.doubles_res [.arg Q.contracted_intermediate, ein1 L.abij L.abji Q.contracted_intermediate],
    set1 X.contracted_intermediate (ein4 L.mdej L.kldc L.ecil L.abkm L.abij Q.g_aaaa_oavavaoa Q.l2_aaaa Q.t2_aaaa Q.t2_aaaa),
    .aug X.doubles_res [.arg Q.contracted_intermediate, ein1 L.abij L.abji Q.contracted_intermediate],
    set1 X.contracted_intermediate (ein4 L.mdej L.kldc L.ecil L.abkm L.abij Q.g_aaaa_oavavaoa Q.l2_abab Q.t2_abab Q.t2_aaaa),
    .aug X.doubles_res [.arg Q.contracted_intermediate, ein1 L.abij L.abji Q.contracted_intermediate],
    set1 X.contracted_intermediate (ein4 L.mdje L.klcd L.ceil L.abkm L.abij Q.g_abab_oavaoava Q.l2_abab Q.t2_abab Q.t2_aaaa),
    .aug X.doubles_res [.arg Q.contracted_intermediate, ein1 L.abij L.abji Q.contracted_intermediate],
    set1 X.contracted_intermediate (ein4 L.mdej L.kldc L.eakl L.cbim L.abij Q.g_aaaa_oavavaoa Q.l2_aaaa Q.t2_aaaa Q.t2_aaaa),
    .aug X.doubles_res [.arg Q.contracted_intermediate, ein1 L.abij L.abji Q.contracted_intermediate, ein1 L.abij L.baij Q.contracted_intermediate, ein1 L.abij L.baji Q.contracted_intermediate],
    set1 X.contracted_intermediate (ein4 L.dmje L.kldc L.aekl L.bcim L.abij Q.g_abab_vaoaoava Q.l2_abab Q.t2_abab Q.t2_abab),
    .aug X.doubles_res [.arg Q.contracted_intermediate, ein1 L.abij L.abji Q.contracted_intermediate, ein1 L.abij L.baij Q.contracted_intermediate, ein1 L.abij L.baji Q.contracted_intermediate],
    set1 X.contracted_intermediate (ein4 L.mdje L.klcd L.aekl L.cbim L.abij Q.g_abab_oavaoava Q.l2_abab Q.t2_abab Q.t2_aaaa),
    .aug X.doubles_res [.arg Q.contracted_intermediate, ein1 L.abij L.abji Q.contracted_intermediate, ein1 L.abij L.baij Q.contracted_intermediate, ein1 L.abij L.baji Q.contracted_intermediate],
    set1 X.contracted_intermediate (ein4 L.dmje L.lkdc L.aelk L.bcim L.abij Q.g_abab_vaoaoava Q.l2_abab Q.t2_abab Q.t2_abab),
    .aug X.doubles_res [.arg Q.contracted_intermediate, ein1 L.abij L.abji Q.contracted_intermediate, ein1 L.abij L.baij Q.contracted_intermediate, ein1 L.abij L.baji Q.contracted_intermediate],
    set1 X.contracted_intermediate (ein4 L.mdje L.lkcd L.aelk L.cbim L.abij Q.g_abab_oavaoava Q.l2_abab Q.t2_abab Q.t2_aaaa),
    .aug X.doubles_res [.arg Q.contracted_intermediate, ein1 L.abij L.abji Q.contracted_intermediate, ein1 L.abij L.baij Q.contracted_intermediate, ein1 L.abij L.baji Q.contracted_intermediate],
    set1 X.contracted_intermediate (ein4 L.mdej L.kldc L.eail L.cbkm L.abij Q.g_aaaa_oavavaoa Q.l2_aaaa Q.t2_aaaa Q.t2_aaaa),
    .aug X.doubles_res [.arg Q.contracted_intermediate, ein1 L.abij L.abji Q.contracted_intermediate, ein1 L.abij L.baij Q.contracted_intermediate, ein1 L.abij L.baji Q.contracted_intermediate],
    set1 X.contracted_intermediate (ein4 L.dmje L.kldc L.aeil L.bckm L.abij Q.g_abab_vaoaoava Q.l2_abab Q.t2_abab Q.t2_abab),
    .aug X.doubles_res [.arg Q.contracted_intermediate, ein1 L.abij L.abji Q.contracted_intermediate, ein1 L.abij L.baij Q.contracted_intermediate, ein1 L.abij L.baji Q.contracted_intermediate],
    set1 X.contracted_intermediate (ein4 L.mdje L.klcd L.aeil L.cbkm L.abij Q.g_abab_oavaoava Q.l2_abab Q.t2_abab Q.t2_aaaa),
    .aug X.doubles_res [.arg Q.contracted_intermediate, ein1 L.abij L.abji Q.contracted_intermediate, ein1 L.abij L.baij Q.contracted_intermediate, ein1 L.abij L.baji Q.contracted_intermediate],
    set1 X.contracted_intermediate (ein4 L.mdej L.lkdc L.eail L.bcmk L.abij Q.g_aaaa_oavavaoa Q.l2_abab Q.t2_aaaa Q.t2_abab),
    .aug X.doubles_res [.arg Q.contracted_intermediate, ein1 L.abij L.abji Q.contracted_intermediate, ein1 L.abij L.baij Q.contracted_intermediate, ein1 L.abij L.baji Q.contracted_intermediate],
    set1 X.contracted_intermediate (ein4 L.mdje L.kldc L.aeil L.bcmk L.abij Q.g_abab_oavaoava Q.l2_bbbb Q.t2_abab Q.t2_abab),
    .aug X.doubles_res [.arg Q.contracted_intermediate, ein1 L.abij L.abji Q.contracted_intermediate, ein1 L.abij L.baij Q.contracted_intermediate, ein1 L.abij L.baji Q.contracted_intermediate],
    set1 X.contracted_intermediate (ein4 L.mael L.kldc L.edjk L.cbim L.abij Q.g_aaaa_oavavaoa Q.l2_aaaa Q.t2_aaaa Q.t2_aaaa),
    .aug X.doubles_res [.arg Q.contracted_intermediate, ein1 L.abij L.abji Q.contracted_intermediate, ein1 L.abij L.baij Q.contracted_intermediate, ein1 L.abij L.baji Q.contracted_intermediate],
    set1 X.contracted_intermediate (ein4 L.amel L.kldc L.edjk L.bcim L.abij Q.g_abab_vaoavaoa Q.l2_abab Q.t2_aaaa Q.t2_abab),
    .aug X.doubles_res [.arg Q.contracted_intermediate, ein1 L.abij L.abji Q.contracted_intermediate, ein1 L.abij L.baij Q.contracted_intermediate, ein1 L.abij L.baji Q.contracted_intermediate],
    set1 X.contracted_intermediate (ein4 L.amle L.lkdc L.dejk L.bcim L.abij Q.g_abab_vaoaoava Q.l2_abab Q.t2_abab Q.t2_abab),
    .aug X.doubles_res [.arg Q.contracted_intermediate, ein1 L.abij L.abji Q.contracted_intermediate, ein1 L.abij L.baij Q.contracted_intermediate, ein1 L.abij L.baji Q.contracted_intermediate],
    set1 X.contracted_intermediate (ein4 L.mael L.lkcd L.edjk L.cbim L.abij Q.g_aaaa_oavavaoa Q.l2_abab Q.t2_abab Q.t2_aaaa),
    .aug X.doubles_res [.arg Q.contracted_intermediate, ein1 L.abij L.abji Q.contracted_intermediate, ein1 L.abij L.baij Q.contracted_intermediate, ein1 L.abij L.baji Q.contracted_intermediate],
    set1 X.contracted_intermediate (ein4 L.amel L.kldc L.edjk L.bcim L.abij Q.g_abab_vaoavaoa Q.l2_bbbb Q.t2_abab Q.t2_abab),
    .aug X.doubles_res [.arg Q.contracted_intermediate, ein1 L.abij L.abji Q.contracted_intermediate, ein1 L.abij L.baij Q.contracted_intermediate, ein1 L.abij L.baji Q.contracted_intermediate],
    set1 X.contracted_intermediate (ein4 L.mael L.kldc L.edij L.cbkm L.abij Q.g_aaaa_oavavaoa Q.l2_aaaa Q.t2_aaaa Q.t2_aaaa),
    .aug X.doubles_res [.arg Q.contracted_intermediate, ein1 L.abij L.baij Q.contracted_intermediate],
    set1 X.contracted_intermediate (ein4 L.amel L.kldc L.edij L.bckm L.abij Q.g_abab_vaoavaoa Q.l2_abab Q.t2_aaaa Q.t2_abab),
    .aug X.doubles_res [.arg Q.contracted_intermediate, ein1 L.abij L.baij Q.contracted_intermediate],
    set1 X.contracted_intermediate (ein4 L.mael L.lkdc L.edij L.bcmk L.abij Q.g_aaaa_oavavaoa Q.l2_abab Q.t2_aaaa Q.t2_abab),
    .aug X.doubles_res [.arg Q.contracted_intermediate, ein1 L.abij L.baij Q.contracted_intermediate],
    set1 X.contracted_intermediate (ein4 L.mael L.kldc L.ebjk L.dcim L.abij Q.g_aaaa_oavavaoa Q.l2_aaaa Q.t2_aaaa Q.t2_aaaa),
    .aug X.doubles_res [.arg Q.contracted_intermediate, ein1 L.abij L.abji Q.contracted_intermediate, ein1 L.abij L.baij Q.contracted_intermediate, ein1 L.abij L.baji Q.contracted_intermediate],
    set1 X.contracted_intermediate (ein4 L.amel L.kldc L.ebjk L.dcim L.abij Q.g_abab_vaoavaoa Q.l2_abab Q.t2_aaaa Q.t2_abab),
    .aug X.doubles_res [.arg Q.contracted_intermediate, ein1 L.abij L.abji Q.contracted_intermediate, ein1 L.abij L.baij Q.contracted_intermediate, ein1 L.abij L.baji Q.contracted_intermediate],
    set1 X.contracted_intermediate (ein4 L.amel L.klcd L.ebjk L.cdim L.abij Q.g_abab_vaoavaoa Q.l2_abab Q.t2_aaaa Q.t2_abab),
    .aug X.doubles_res [.arg Q.contracted_intermediate, ein1 L.abij L.abji Q.contracted_intermediate, ein1 L.abij L.baij Q.contracted_intermediate, ein1 L.abij L.baji Q.contracted_intermediate],
    set1 X.contracted_intermediate (ein4 L.amle L.lkdc L.bejk L.dcim L.abij Q.g_abab_vaoaoava Q.l2_abab Q.t2_abab Q.t2_abab),
    .aug X.doubles_res [.arg Q.contracted_intermediate, ein1 L.abij L.abji Q.contracted_intermediate, ein1 L.abij L.baij Q.contracted_intermediate, ein1 L.abij L.baji Q.contracted_intermediate],
    set1 X.contracted_intermediate (ein4 L.amle L.lkcd L.bejk L.cdim L.abij Q.g_abab_vaoaoava Q.l2_abab Q.t2_abab Q.t2_abab),
    .aug X.doubles_res [.arg Q.contracted_intermediate, ein1 L.abij L.abji Q.contracted_intermediate, ein1 L.abij L.baij Q.contracted_intermediate, ein1 L.abij L.baji Q.contracted_intermediate],
    set1 X.contracted_intermediate (ein4 L.mael L.kldc L.ebij L.dckm L.abij Q.g_aaaa_oavavaoa Q.l2_aaaa Q.t2_aaaa Q.t2_aaaa),
    .aug X.doubles_res [.arg Q.contracted_intermediate, ein1 L.abij L.baij Q.contracted_intermediate],
    set1 X.contracted_intermediate (ein4 L.amel L.kldc L.ebij L.dckm L.abij Q.g_abab_vaoavaoa Q.l2_abab Q.t2_aaaa Q.t2_abab),
    .aug X.doubles_res [.arg Q.contracted_intermediate, ein1 L.abij L.baij Q.contracted_intermediate],
    set1 X.contracted_intermediate (ein4 L.amel L.klcd L.ebij L.cdkm L.abij Q.g_abab_vaoavaoa Q.l2_abab Q.t2_aaaa Q.t2_abab),
    .aug X.doubles_res [.arg Q.contracted_intermediate, ein1 L.abij L.baij Q.contracted_intermediate],
    set1 X.contracted_intermediate (ein4 L.mael L.lkdc L.ebij L.dcmk L.abij Q.g_aaaa_oavavaoa Q.l2_abab Q.t2_aaaa Q.t2_abab),
    .aug X.doubles_res [.arg Q.contracted_intermediate, ein1 L.abij L.baij Q.contracted_intermediate],
    set1 X.contracted_intermediate (ein4 L.mael L.lkcd L.ebij L.cdmk L.abij Q.g_aaaa_oavavaoa Q.l2_abab Q.t2_aaaa Q.t2_abab),
    .aug X.doubles_res [.arg Q.contracted_intermediate, ein1 L.abij L.baij Q.contracted_intermediate],
    set1 X.contracted_intermediate (ein4 L.amel L.kldc L.ebij L.dckm L.abij Q.g_abab_vaoavaoa Q.l2_bbbb Q.t2_aaaa Q.t2_bbbb),
    .aug X.doubles_res [.arg Q.contracted_intermediate, ein1 L.abij L.baij Q.contracted_intermediate],
    set1 X.contracted_intermediate (ein4 L.maej L.kldc L.edkl L.cbim L.abij Q.g_aaaa_oavavaoa Q.l2_aaaa Q.t2_aaaa Q.t2_aaaa),
    .aug X.doubles_res [.arg Q.contracted_intermediate, ein1 L.abij L.abji Q.contracted_intermediate, ein1 L.abij L.baij Q.contracted_intermediate, ein1 L.abij L.baji Q.contracted_intermediate],
    set1 X.contracted_intermediate (ein4 L.amje L.kldc L.dekl L.bcim L.abij Q.g_abab_vaoaoava Q.l2_abab Q.t2_abab Q.t2_abab),
    .aug X.doubles_res [.arg Q.contracted_intermediate, ein1 L.abij L.abji Q.contracted_intermediate, ein1 L.abij L.baij Q.contracted_intermediate, ein1 L.abij L.baji Q.contracted_intermediate],
    set1 X.contracted_intermediate (ein4 L.maej L.klcd L.edkl L.cbim L.abij Q.g_aaaa_oavavaoa Q.l2_abab Q.t2_abab Q.t2_aaaa),
    .aug X.doubles_res [.arg Q.contracted_intermediate, ein1 L.abij L.abji Q.contracted_intermediate, ein1 L.abij L.baij Q.contracted_intermediate, ein1 L.abij L.baji Q.contracted_intermediate],
    set1 X.contracted_intermediate (ein4 L.amje L.lkdc L.delk L.bcim L.abij Q.g_abab_vaoaoava Q.l2_abab Q.t2_abab Q.t2_abab),
    .aug X.doubles_res [.arg Q.contracted_intermediate, ein1 L.abij L.abji Q.contracted_intermediate, ein1 L.abij L.baij Q.contracted_intermediate, ein1 L.abij L.baji Q.contracted_intermediate],
    set1 X.contracted_intermediate (ein4 L.maej L.lkcd L.edlk L.cbim L.abij Q.g_aaaa_oavavaoa Q.l2_abab Q.t2_abab Q.t2_aaaa),
    .aug X.doubles_res [.arg Q.contracted_intermediate, ein1 L.abij L.abji Q.contracted_intermediate, ein1 L.abij L.baij Q.contracted_intermediate, ein1 L.abij L.baji Q.contracted_intermediate],
    set1 X.contracted_intermediate (ein4 L.amje L.kldc L.edkl L.bcim L.abij Q.g_abab_vaoaoava Q.l2_bbbb Q.t2_bbbb Q.t2_abab),
    .aug X.doubles_res [.arg Q.contracted_intermediate, ein1 L.abij L.abji Q.contracted_intermediate, ein1 L.abij L.baij Q.contracted_intermediate, ein1 L.abij L.baji Q.contracted_intermediate],
    set1 X.contracted_intermediate (ein4 L.maej L.kldc L.edil L.cbkm L.abij Q.g_aaaa_oavavaoa Q.l2_aaaa Q.t2_aaaa Q.t2_aaaa),
    .aug X.doubles_res [.arg Q.contracted_intermediate, ein1 L.abij L.abji Q.contracted_intermediate, ein1 L.abij L.baij Q.contracted_intermediate, ein1 L.abij L.baji Q.contracted_intermediate],
    set1 X.contracted_intermediate (ein4 L.amje L.kldc L.deil L.bckm L.abij Q.g_abab_vaoaoava Q.l2_abab Q.t2_abab Q.t2_abab),
    .aug X.doubles_res [.arg Q.contracted_intermediate, ein1 L.abij L.abji Q.contracted_intermediate, ein1 L.abij L.baij Q.contracted_intermediate, ein1 L.abij L.baji Q.contracted_intermediate],
    set1 X.contracted_intermediate (ein4 L.maej L.klcd L.edil L.cbkm L.abij Q.g_aaaa_oavavaoa Q.l2_abab Q.t2_abab Q.t2_aaaa),
    .aug X.doubles_res [.arg Q.contracted_intermediate, ein1 L.abij L.abji Q.contracted_intermediate, ein1 L.abij L.baij Q.contracted_intermediate, ein1 L.abij L.baji Q.contracted_intermediate],
    set1 X.contracted_intermediate (ein4 L.maej L.lkdc L.edil L.bcmk L.abij Q.g_aaaa_oavavaoa Q.l2_abab Q.t2_aaaa Q.t2_abab),
    .aug X.doubles_res [.arg Q.contracted_intermediate, ein1 L.abij L.abji Q.contracted_intermediate, ein1 L.abij L.baij Q.contracted_intermediate, ein1 L.abij L.baji Q.contracted_intermediate],
    set1 X.contracted_intermediate (ein4 L.maej L.kldc L.edil L.bcmk L.abij Q.g_aaaa_oavavaoa Q.l2_bbbb Q.t2_abab Q.t2_abab),
    .aug X.doubles_res [.arg Q.contracted_intermediate, ein1 L.abij L.abji Q.contracted_intermediate, ein1 L.abij L.baij Q.contracted_intermediate, ein1 L.abij L.baji Q.contracted_intermediate],
    set1 X.contracted_intermediate (ein4 L.maej L.kldc L.ebkl L.dcim L.abij Q.g_aaaa_oavavaoa Q.l2_aaaa Q.t2_aaaa Q.t2_aaaa),
    .aug X.doubles_res [.arg Q.contracted_intermediate, ein1 L.abij L.abji Q.contracted_intermediate, ein1 L.abij L.baij Q.contracted_intermediate, ein1 L.abij L.baji Q.contracted_intermediate],
    set1 X.contracted_intermediate (ein4 L.amje L.kldc L.bekl L.dcim L.abij Q.g_abab_vaoaoava Q.l2_abab Q.t2_abab Q.t2_abab),
    .aug X.doubles_res [.arg Q.contracted_intermediate, ein1 L.abij L.abji Q.contracted_intermediate, ein1 L.abij L.baij Q.contracted_intermediate, ein1 L.abij L.baji Q.contracted_intermediate],
    set1 X.contracted_intermediate (ein4 L.amje L.klcd L.bekl L.cdim L.abij Q.g_abab_vaoaoava Q.l2_abab Q.t2_abab Q.t2_abab),
    .aug X.doubles_res [.arg Q.contracted_intermediate, ein1 L.abij L.abji Q.contracted_intermediate, ein1 L.abij L.baij Q.contracted_intermediate, ein1 L.abij L.baji Q.contracted_intermediate],
    set1 X.contracted_intermediate (ein4 L.amje L.lkdc L.belk L.dcim L.abij Q.g_abab_vaoaoava Q.l2_abab Q.t2_abab Q.t2_abab),
    .aug X.doubles_res [.arg Q.contracted_intermediate, ein1 L.abij L.abji Q.contracted_intermediate, ein1 L.abij L.baij Q.contracted_intermediate, ein1 L.abij L.baji Q.contracted_intermediate],
    set1 X.contracted_intermediate (ein4 L.amje L.lkcd L.belk L.cdim L.abij Q.g_abab_vaoaoava Q.l2_abab Q.t2_abab Q.t2_abab),
    .aug X.doubles_res [.arg Q.contracted_intermediate, ein1 L.abij L.abji Q.contracted_intermediate, ein1 L.abij L.baij Q.contracted_intermediate, ein1 L.abij L.baji Q.contracted_intermediate],
    set1 X.contracted_intermediate (ein4 L.maej L.kldc L.ebil L.dckm L.abij Q.g_aaaa_oavavaoa Q.l2_aaaa Q.t2_aaaa Q.t2_aaaa),
    .aug X.doubles_res [.arg Q.contracted_intermediate, ein1 L.abij L.abji Q.contracted_intermediate, ein1 L.abij L.baij Q.contracted_intermediate, ein1 L.abij L.baji Q.contracted_intermediate],
    set1 X.contracted_intermediate (ein4 L.amje L.kldc L.beil L.dckm L.abij Q.g_abab_vaoaoava Q.l2_abab Q.t2_abab Q.t2_abab),
    .aug X.doubles_res [.arg Q.contracted_intermediate, ein1 L.abij L.abji Q.contracted_intermediate, ein1 L.abij L.baij Q.contracted_intermediate, ein1 L.abij L.baji Q.contracted_intermediate],
    set1 X.contracted_intermediate (ein4 L.amje L.klcd L.beil L.cdkm L.abij Q.g_abab_vaoaoava Q.l2_abab Q.t2_abab Q.t2_abab),
    .aug X.doubles_res [.arg Q.contracted_intermediate, ein1 L.abij L.abji Q.contracted_intermediate, ein1 L.abij L.baij Q.contracted_intermediate, ein1 L.abij L.baji Q.contracted_intermediate],
    set1 X.contracted_intermediate (ein4 L.maej L.lkdc L.ebil L.dcmk L.abij Q.g_aaaa_oavavaoa Q.l2_abab Q.t2_aaaa Q.t2_abab),
    .aug X.doubles_res [.arg Q.contracted_intermediate, ein1 L.abij L.abji Q.contracted_intermediate, ein1 L.abij L.baij Q.contracted_intermediate, ein1 L.abij L.baji Q.contracted_intermediate],
    set1 X.contracted_intermediate (ein4 L.maej L.lkcd L.ebil L.cdmk L.abij Q.g_aaaa_oavavaoa Q.l2_abab Q.t2_aaaa Q.t2_abab),
    .aug X.doubles_res [.arg Q.contracted_intermediate, ein1 L.abij L.abji Q.contracted_intermediate, ein1 L.abij L.baij Q.contracted_intermediate, ein1 L.abij L.baji Q.contracted_intermediate],
    set1 X.contracted_intermediate (ein4 L.amje L.kldc L.beil L.dckm L.abij Q.g_abab_vaoaoava Q.l2_bbbb Q.t2_abab Q.t2_bbbb),
    .aug X.doubles_res [.arg Q.contracted_intermediate, ein1 L.abij L.abji Q.contracted_intermediate, ein1 L.abij L.baij Q.contracted_intermediate, ein1 L.abij L.baji Q.contracted_intermediate],
    aug1 X.doubles_res (ein4 L.dcef L.kldc L.eakl L.fbij L.abij Q.g_aaaa_vavavava Q.l2_aaaa Q.t2_aaaa Q.t2_aaaa),
    aug1 X.doubles_res (ein4 L.dcfe L.kldc L.aekl L.fbij L.abij Q.g_abab_vavavava Q.l2_abab Q.t2_abab Q.t2_aaaa),
    aug1 X.doubles_res (ein4 L.cdfe L.klcd L.aekl L.fbij L.abij Q.g_abab_vavavava Q.l2_abab Q.t2_abab Q.t2_aaaa),
    aug1 X.doubles_res (ein4 L.dcfe L.lkdc L.aelk L.fbij L.abij Q.g_abab_vavavava Q.l2_abab Q.t2_abab Q.t2_aaaa),
    aug1 X.doubles_res (ein4 L.cdfe L.lkcd L.aelk L.fbij L.abij Q.g_abab_vavavava Q.l2_abab Q.t2_abab Q.t2_aaaa),
    set1 X.contracted_intermediate (ein4 L.dcef L.kldc L.eajl L.fbik L.abij Q.g_aaaa_vavavava Q.l2_aaaa Q.t2_aaaa Q.t2_aaaa),
    .aug X.doubles_res [.arg Q.contracted_intermediate, ein1 L.abij L.abji Q.contracted_intermediate],
    set1 X.contracted_intermediate (ein4 L.dcfe L.kldc L.aejl L.fbik L.abij Q.g_abab_vavavava Q.l2_abab Q.t2_abab Q.t2_aaaa),
    .aug X.doubles_res [.arg Q.contracted_intermediate, ein1 L.abij L.abji Q.contracted_intermediate],
    set1 X.contracted_intermediate (ein4 L.cdfe L.klcd L.aejl L.fbik L.abij Q.g_abab_vavavava Q.l2_abab Q.t2_abab Q.t2_aaaa),
    .aug X.doubles_res [.arg Q.contracted_intermediate, ein1 L.abij L.abji Q.contracted_intermediate],
    set1 X.contracted_intermediate (ein4 L.dcef L.lkdc L.eajl L.bfik L.abij Q.g_abab_vavavava Q.l2_abab Q.t2_aaaa Q.t2_abab),
    .aug X.doubles_res [.arg Q.contracted_intermediate, ein1 L.abij L.abji Q.contracted_intermediate],
    set1 X.contracted_intermediate (ein4 L.cdef L.lkcd L.eajl L.bfik L.abij Q.g_abab_vavavava Q.l2_abab Q.t2_aaaa Q.t2_abab),
    .aug X.doubles_res [.arg Q.contracted_intermediate, ein1 L.abij L.abji Q.contracted_intermediate],
    set1 X.contracted_intermediate (ein4 L.dcef L.kldc L.aejl L.bfik L.abij Q.g_bbbb_vavavava Q.l2_bbbb Q.t2_abab Q.t2_abab),
    .aug X.doubles_res [.arg Q.contracted_intermediate, ein1 L.abij L.abji Q.contracted_intermediate],
    aug1 X.doubles_res (ein4 L.dcef L.kldc L.eaij L.fbkl L.abij Q.g_aaaa_vavavava Q.l2_aaaa Q.t2_aaaa Q.t2_aaaa),
    aug1 X.doubles_res (ein4 L.dcef L.kldc L.eaij L.bfkl L.abij Q.g_abab_vavavava Q.l2_abab Q.t2_aaaa Q.t2_abab),
    aug1 X.doubles_res (ein4 L.cdef L.klcd L.eaij L.bfkl L.abij Q.g_abab_vavavava Q.l2_abab Q.t2_aaaa Q.t2_abab),
    aug1 X.doubles_res (ein4 L.dcef L.lkdc L.eaij L.bflk L.abij Q.g_abab_vavavava Q.l2_abab Q.t2_aaaa Q.t2_abab),
    aug1 X.doubles_res (ein4 L.cdef L.lkcd L.eaij L.bflk L.abij Q.g_abab_vavavava Q.l2_abab Q.t2_aaaa Q.t2_abab),
    set1 X.contracted_intermediate (ein4 L.daef L.kldc L.eckl L.fbij L.abij Q.g_aaaa_vavavava Q.l2_aaaa Q.t2_aaaa Q.t2_aaaa),
    .aug X.doubles_res [.arg Q.contracted_intermediate, ein1 L.abij L.baij Q.contracted_intermediate],
    set1 X.contracted_intermediate (ein4 L.daef L.kldc L.eckl L.fbij L.abij Q.g_aaaa_vavavava Q.l2_abab Q.t2_abab Q.t2_aaaa),
    .aug X.doubles_res [.arg Q.contracted_intermediate, ein1 L.abij L.baij Q.contracted_intermediate],
    set1 X.contracted_intermediate (ein4 L.adfe L.klcd L.cekl L.fbij L.abij Q.g_abab_vavavava Q.l2_abab Q.t2_abab Q.t2_aaaa),
    .aug X.doubles_res [.arg Q.contracted_intermediate, ein1 L.abij L.baij Q.contracted_intermediate],
    set1 X.contracted_intermediate (ein4 L.daef L.lkdc L.eclk L.fbij L.abij Q.g_aaaa_vavavava Q.l2_abab Q.t2_abab Q.t2_aaaa),
    .aug X.doubles_res [.arg Q.contracted_intermediate, ein1 L.abij L.baij Q.contracted_intermediate],
    set1 X.contracted_intermediate (ein4 L.adfe L.lkcd L.celk L.fbij L.abij Q.g_abab_vavavava Q.l2_abab Q.t2_abab Q.t2_aaaa),
    .aug X.doubles_res [.arg Q.contracted_intermediate, ein1 L.abij L.baij Q.contracted_intermediate],
    set1 X.contracted_intermediate (ein4 L.adfe L.kldc L.eckl L.fbij L.abij Q.g_abab_vavavava Q.l2_bbbb Q.t2_bbbb Q.t2_aaaa),
    .aug X.doubles_res [.arg Q.contracted_intermediate, ein1 L.abij L.baij Q.contracted_intermediate],
    set1 X.contracted_intermediate (ein4 L.daef L.kldc L.ecjl L.fbik L.abij Q.g_aaaa_vavavava Q.l2_aaaa Q.t2_aaaa Q.t2_aaaa),
    .aug X.doubles_res [.arg Q.contracted_intermediate, ein1 L.abij L.abji Q.contracted_intermediate, ein1 L.abij L.baij Q.contracted_intermediate, ein1 L.abij L.baji Q.contracted_intermediate],
    set1 X.contracted_intermediate (ein4 L.daef L.kldc L.ecjl L.fbik L.abij Q.g_aaaa_vavavava Q.l2_abab Q.t2_abab Q.t2_aaaa),
    .aug X.doubles_res [.arg Q.contracted_intermediate, ein1 L.abij L.abji Q.contracted_intermediate, ein1 L.abij L.baij Q.contracted_intermediate, ein1 L.abij L.baji Q.contracted_intermediate],
    set1 X.contracted_intermediate (ein4 L.adfe L.klcd L.cejl L.fbik L.abij Q.g_abab_vavavava Q.l2_abab Q.t2_abab Q.t2_aaaa),
    .aug X.doubles_res [.arg Q.contracted_intermediate, ein1 L.abij L.abji Q.contracted_intermediate, ein1 L.abij L.baij Q.contracted_intermediate, ein1 L.abij L.baji Q.contracted_intermediate],
    set1 X.contracted_intermediate (ein4 L.adef L.lkcd L.ecjl L.bfik L.abij Q.g_abab_vavavava Q.l2_abab Q.t2_aaaa Q.t2_abab),
    .aug X.doubles_res [.arg Q.contracted_intermediate, ein1 L.abij L.abji Q.contracted_intermediate, ein1 L.abij L.baij Q.contracted_intermediate, ein1 L.abij L.baji Q.contracted_intermediate],
    set1 X.contracted_intermediate (ein4 L.adef L.kldc L.ecjl L.bfik L.abij Q.g_abab_vavavava Q.l2_bbbb Q.t2_abab Q.t2_abab),
    .aug X.doubles_res [.arg Q.contracted_intermediate, ein1 L.abij L.abji Q.contracted_intermediate, ein1 L.abij L.baij Q.contracted_intermediate, ein1 L.abij L.baji Q.contracted_intermediate],
    set1 X.contracted_intermediate (ein4 L.daef L.kldc L.ecij L.fbkl L.abij Q.g_aaaa_vavavava Q.l2_aaaa Q.t2_aaaa Q.t2_aaaa),
    .aug X.doubles_res [.arg Q.contracted_intermediate, ein1 L.abij L.baij Q.contracted_intermediate],
    set1 X.contracted_intermediate (ein4 L.adef L.klcd L.ecij L.bfkl L.abij Q.g_abab_vavavava Q.l2_abab Q.t2_aaaa Q.t2_abab),
    .aug X.doubles_res [.arg Q.contracted_intermediate, ein1 L.abij L.baij Q.contracted_intermediate],
    set1 X.contracted_intermediate (ein4 L.adef L.lkcd L.ecij L.bflk L.abij Q.g_abab_vavavava Q.l2_abab Q.t2_aaaa Q.t2_abab),
    .aug X.doubles_res [.arg Q.contracted_intermediate, ein1 L.abij L.baij Q.contracted_intermediate],
    aug1 X.doubles_res (ein4 L.abef L.kldc L.edkl L.fcij L.abij Q.g_aaaa_vavavava Q.l2_aaaa Q.t2_aaaa Q.t2_aaaa),
    aug1 X.doubles_res (ein4 L.abef L.klcd L.edkl L.fcij L.abij Q.g_aaaa_vavavava Q.l2_abab Q.t2_abab Q.t2_aaaa),
    aug1 X.doubles_res (ein4 L.abef L.lkcd L.edlk L.fcij L.abij Q.g_aaaa_vavavava Q.l2_abab Q.t2_abab Q.t2_aaaa),
    set1 X.contracted_intermediate (ein4 L.abef L.kldc L.edjl L.fcik L.abij Q.g_aaaa_vavavava Q.l2_aaaa Q.t2_aaaa Q.t2_aaaa),
    .aug X.doubles_res [.arg Q.contracted_intermediate, ein1 L.abij L.abji Q.contracted_intermediate],
    set1 X.contracted_intermediate (ein4 L.abef L.klcd L.edjl L.fcik L.abij Q.g_aaaa_vavavava Q.l2_abab Q.t2_abab Q.t2_aaaa),
    .aug X.doubles_res [.arg Q.contracted_intermediate, ein1 L.abij L.abji Q.contracted_intermediate],
    set1 X.contracted_intermediate (ein4 L.abef L.lkdc L.edjl L.fcik L.abij Q.g_aaaa_vavavava Q.l2_abab Q.t2_aaaa Q.t2_abab),
    .aug X.doubles_res [.arg Q.contracted_intermediate, ein1 L.abij L.abji Q.contracted_intermediate],
    set1 X.contracted_intermediate (ein4 L.abef L.kldc L.edjl L.fcik L.abij Q.g_aaaa_vavavava Q.l2_bbbb Q.t2_abab Q.t2_abab),
    .aug X.doubles_res [.arg Q.contracted_intermediate, ein1 L.abij L.abji Q.contracted_intermediate],
    aug1 X.doubles_res (ein3 L.mdkl L.kldc L.cabijm L.abij Q.g_aaaa_oavaoaoa Q.l2_aaaa Q.t3_aaaaaa),
    aug1 X.doubles_res (ein3 L.dmkl L.kldc L.bacijm L.abij Q.g_abab_vaoaoaoa Q.l2_abab Q.t3_aabaab),
    aug1 X.doubles_res (ein3 L.mdkl L.klcd L.cabijm L.abij Q.g_abab_oavaoaoa Q.l2_abab Q.t3_aaaaaa),
    aug1 X.doubles_res (ein3 L.dmlk L.lkdc L.bacijm L.abij Q.g_abab_vaoaoaoa Q.l2_abab Q.t3_aabaab),
    aug1 X.doubles_res (ein3 L.mdlk L.lkcd L.cabijm L.abij Q.g_abab_oavaoaoa Q.l2_abab Q.t3_aaaaaa),
    aug1 X.doubles_res (ein3 L.mdkl L.kldc L.bacijm L.abij Q.g_bbbb_oavaoaoa Q.l2_bbbb Q.t3_aabaab),
    set1 X.contracted_intermediate (ein3 L.mdjl L.kldc L.cabikm L.abij Q.g_aaaa_oavaoaoa Q.l2_aaaa Q.t3_aaaaaa),
    .aug X.doubles_res [.arg Q.contracted_intermediate, ein1 L.abij L.abji Q.contracted_intermediate],
    set1 X.contracted_intermediate (ein3 L.dmjl L.kldc L.bacikm L.abij Q.g_abab_vaoaoaoa Q.l2_abab Q.t3_aabaab),
    .aug X.doubles_res [.arg Q.contracted_intermediate, ein1 L.abij L.abji Q.contracted_intermediate],
    set1 X.contracted_intermediate (ein3 L.mdjl L.klcd L.cabikm L.abij Q.g_abab_oavaoaoa Q.l2_abab Q.t3_aaaaaa),
    .aug X.doubles_res [.arg Q.contracted_intermediate, ein1 L.abij L.abji Q.contracted_intermediate],
    set1 X.contracted_intermediate (ein3 L.mdjl L.lkdc L.bacimk L.abij Q.g_aaaa_oavaoaoa Q.l2_abab Q.t3_aabaab),
    .aug X.doubles_res [.arg Q.contracted_intermediate, ein1 L.abij L.abji Q.contracted_intermediate],
    set1 X.contracted_intermediate (ein3 L.mdjl L.kldc L.bacimk L.abij Q.g_abab_oavaoaoa Q.l2_bbbb Q.t3_aabaab),
    .aug X.doubles_res [.arg Q.contracted_intermediate, ein1 L.abij L.abji Q.contracted_intermediate],
    aug1 X.doubles_res (ein3 L.mdij L.kldc L.cabklm L.abij Q.g_aaaa_oavaoaoa Q.l2_aaaa Q.t3_aaaaaa),
    aug1 X.doubles_res (ein3 L.mdij L.kldc L.backml L.abij Q.g_aaaa_oavaoaoa Q.l2_abab Q.t3_aabaab),
    aug1 X.doubles_res (ein3 L.mdij L.lkdc L.bacmlk L.abij Q.g_aaaa_oavaoaoa Q.l2_abab Q.t3_aabaab),
    set1 X.contracted_intermediate (ein3 L.makl L.kldc L.dcbijm L.abij Q.g_aaaa_oavaoaoa Q.l2_aaaa Q.t3_aaaaaa),
    .aug X.doubles_res [.arg Q.contracted_intermediate, ein1 L.abij L.baij Q.contracted_intermediate],
    set1 X.contracted_intermediate (ein3 L.amkl L.kldc L.dbcijm L.abij Q.g_abab_vaoaoaoa Q.l2_abab Q.t3_aabaab),
    .aug X.doubles_res [.arg Q.contracted_intermediate, ein1 L.abij L.baij Q.contracted_intermediate],
    set1 X.contracted_intermediate (ein3 L.amkl L.klcd L.bcdijm L.abij Q.g_abab_vaoaoaoa Q.l2_abab Q.t3_aabaab),
    .aug X.doubles_res [.arg Q.contracted_intermediate, ein1 L.abij L.baij Q.contracted_intermediate],
    set1 X.contracted_intermediate (ein3 L.amlk L.lkdc L.dbcijm L.abij Q.g_abab_vaoaoaoa Q.l2_abab Q.t3_aabaab),
    .aug X.doubles_res [.arg Q.contracted_intermediate, ein1 L.abij L.baij Q.contracted_intermediate],
    set1 X.contracted_intermediate (ein3 L.amlk L.lkcd L.bcdijm L.abij Q.g_abab_vaoaoaoa Q.l2_abab Q.t3_aabaab),
    .aug X.doubles_res [.arg Q.contracted_intermediate, ein1 L.abij L.baij Q.contracted_intermediate],
    set1 X.contracted_intermediate (ein3 L.majl L.kldc L.dcbikm L.abij Q.g_aaaa_oavaoaoa Q.l2_aaaa Q.t3_aaaaaa),
    .aug X.doubles_res [.arg Q.contracted_intermediate, ein1 L.abij L.abji Q.contracted_intermediate, ein1 L.abij L.baij Q.contracted_intermediate, ein1 L.abij L.baji Q.contracted_intermediate],
    set1 X.contracted_intermediate (ein3 L.amjl L.kldc L.dbcikm L.abij Q.g_abab_vaoaoaoa Q.l2_abab Q.t3_aabaab),
    .aug X.doubles_res [.arg Q.contracted_intermediate, ein1 L.abij L.abji Q.contracted_intermediate, ein1 L.abij L.baij Q.contracted_intermediate, ein1 L.abij L.baji Q.contracted_intermediate],
    set1 X.contracted_intermediate (ein3 L.amjl L.klcd L.bcdikm L.abij Q.g_abab_vaoaoaoa Q.l2_abab Q.t3_aabaab),
    .aug X.doubles_res [.arg Q.contracted_intermediate, ein1 L.abij L.abji Q.contracted_intermediate, ein1 L.abij L.baij Q.contracted_intermediate, ein1 L.abij L.baji Q.contracted_intermediate],
    set1 X.contracted_intermediate (ein3 L.majl L.lkdc L.dbcimk L.abij Q.g_aaaa_oavaoaoa Q.l2_abab Q.t3_aabaab),
    .aug X.doubles_res [.arg Q.contracted_intermediate, ein1 L.abij L.abji Q.contracted_intermediate, ein1 L.abij L.baij Q.contracted_intermediate, ein1 L.abij L.baji Q.contracted_intermediate],
    set1 X.contracted_intermediate (ein3 L.majl L.lkcd L.bcdimk L.abij Q.g_aaaa_oavaoaoa Q.l2_abab Q.t3_aabaab),
    .aug X.doubles_res [.arg Q.contracted_intermediate, ein1 L.abij L.abji Q.contracted_intermediate, ein1 L.abij L.baij Q.contracted_intermediate, ein1 L.abij L.baji Q.contracted_intermediate],
    set1 X.contracted_intermediate (ein3 L.amjl L.kldc L.bcdikm L.abij Q.g_abab_vaoaoaoa Q.l2_bbbb Q.t3_abbabb),
    .aug X.doubles_res [.arg Q.contracted_intermediate, ein1 L.abij L.abji Q.contracted_intermediate, ein1 L.abij L.baij Q.contracted_intermediate, ein1 L.abij L.baji Q.contracted_intermediate],
    set1 X.contracted_intermediate (ein3 L.maij L.kldc L.dcbklm L.abij Q.g_aaaa_oavaoaoa Q.l2_aaaa Q.t3_aaaaaa),
    .aug X.doubles_res [.arg Q.contracted_intermediate, ein1 L.abij L.baij Q.contracted_intermediate],
    set1 X.contracted_intermediate (ein3 L.maij L.kldc L.dbckml L.abij Q.g_aaaa_oavaoaoa Q.l2_abab Q.t3_aabaab),
    .aug X.doubles_res [.arg Q.contracted_intermediate, ein1 L.abij L.baij Q.contracted_intermediate],
    set1 X.contracted_intermediate (ein3 L.maij L.klcd L.bcdkml L.abij Q.g_aaaa_oavaoaoa Q.l2_abab Q.t3_aabaab),
    .aug X.doubles_res [.arg Q.contracted_intermediate, ein1 L.abij L.baij Q.contracted_intermediate],
    set1 X.contracted_intermediate (ein3 L.maij L.lkdc L.dbcmlk L.abij Q.g_aaaa_oavaoaoa Q.l2_abab Q.t3_aabaab),
    .aug X.doubles_res [.arg Q.contracted_intermediate, ein1 L.abij L.baij Q.contracted_intermediate],
    set1 X.contracted_intermediate (ein3 L.maij L.lkcd L.bcdmlk L.abij Q.g_aaaa_oavaoaoa Q.l2_abab Q.t3_aabaab),
    .aug X.doubles_res [.arg Q.contracted_intermediate, ein1 L.abij L.baij Q.contracted_intermediate],
    set1 X.contracted_intermediate (ein3 L.maij L.kldc L.bcdmlk L.abij Q.g_aaaa_oavaoaoa Q.l2_bbbb Q.t3_abbabb),
    .aug X.doubles_res [.arg Q.contracted_intermediate, ein1 L.abij L.baij Q.contracted_intermediate],
    aug1 X.doubles_res (ein3 L.dcel L.kldc L.eabijk L.abij Q.g_aaaa_vavavaoa Q.l2_aaaa Q.t3_aaaaaa),
    aug1 X.doubles_res (ein3 L.dcel L.kldc L.eabijk L.abij Q.g_abab_vavavaoa Q.l2_abab Q.t3_aaaaaa),
    aug1 X.doubles_res (ein3 L.cdel L.klcd L.eabijk L.abij Q.g_abab_vavavaoa Q.l2_abab Q.t3_aaaaaa),
    aug1 X.doubles_res (ein3 L.dcle L.lkdc L.baeijk L.abij Q.g_abab_vavaoava Q.l2_abab Q.t3_aabaab),
    aug1 X.doubles_res (ein3 L.cdle L.lkcd L.baeijk L.abij Q.g_abab_vavaoava Q.l2_abab Q.t3_aabaab),
    aug1 X.doubles_res (ein3 L.dcel L.kldc L.baeijk L.abij Q.g_bbbb_vavavaoa Q.l2_bbbb Q.t3_aabaab),
    set1 X.contracted_intermediate (ein3 L.dcej L.kldc L.eabikl L.abij Q.g_aaaa_vavavaoa Q.l2_aaaa Q.t3_aaaaaa),
    .aug X.doubles_res [.arg Q.contracted_intermediate, ein1 L.abij L.abji Q.contracted_intermediate],
    set1 X.contracted_intermediate (ein3 L.dcje L.kldc L.baeikl L.abij Q.g_abab_vavaoava Q.l2_abab Q.t3_aabaab),
    .aug X.doubles_res [.arg Q.contracted_intermediate, ein1 L.abij L.abji Q.contracted_intermediate],
    set1 X.contracted_intermediate (ein3 L.cdje L.klcd L.baeikl L.abij Q.g_abab_vavaoava Q.l2_abab Q.t3_aabaab),
    .aug X.doubles_res [.arg Q.contracted_intermediate, ein1 L.abij L.abji Q.contracted_intermediate],
    set1 X.contracted_intermediate (ein3 L.dcje L.lkdc L.baeilk L.abij Q.g_abab_vavaoava Q.l2_abab Q.t3_aabaab),
    .aug X.doubles_res [.arg Q.contracted_intermediate, ein1 L.abij L.abji Q.contracted_intermediate],
    set1 X.contracted_intermediate (ein3 L.cdje L.lkcd L.baeilk L.abij Q.g_abab_vavaoava Q.l2_abab Q.t3_aabaab),
    .aug X.doubles_res [.arg Q.contracted_intermediate, ein1 L.abij L.abji Q.contracted_intermediate],
    set1 X.contracted_intermediate (ein3 L.dael L.kldc L.ecbijk L.abij Q.g_aaaa_vavavaoa Q.l2_aaaa Q.t3_aaaaaa),
    .aug X.doubles_res [.arg Q.contracted_intermediate, ein1 L.abij L.baij Q.contracted_intermediate],
    set1 X.contracted_intermediate (ein3 L.adel L.klcd L.ecbijk L.abij Q.g_abab_vavavaoa Q.l2_abab Q.t3_aaaaaa),
    .aug X.doubles_res [.arg Q.contracted_intermediate, ein1 L.abij L.baij Q.contracted_intermediate],
    set1 X.contracted_intermediate (ein3 L.dael L.lkdc L.ebcijk L.abij Q.g_aaaa_vavavaoa Q.l2_abab Q.t3_aabaab),
    .aug X.doubles_res [.arg Q.contracted_intermediate, ein1 L.abij L.baij Q.contracted_intermediate],
    set1 X.contracted_intermediate (ein3 L.adle L.lkcd L.bceijk L.abij Q.g_abab_vavaoava Q.l2_abab Q.t3_aabaab),
    .aug X.doubles_res [.arg Q.contracted_intermediate, ein1 L.abij L.baij Q.contracted_intermediate],
    set1 X.contracted_intermediate (ein3 L.adel L.kldc L.ebcijk L.abij Q.g_abab_vavavaoa Q.l2_bbbb Q.t3_aabaab),
    .aug X.doubles_res [.arg Q.contracted_intermediate, ein1 L.abij L.baij Q.contracted_intermediate],
    set1 X.contracted_intermediate (ein3 L.daej L.kldc L.ecbikl L.abij Q.g_aaaa_vavavaoa Q.l2_aaaa Q.t3_aaaaaa),
    .aug X.doubles_res [.arg Q.contracted_intermediate, ein1 L.abij L.abji Q.contracted_intermediate, ein1 L.abij L.baij Q.contracted_intermediate, ein1 L.abij L.baji Q.contracted_intermediate],
    set1 X.contracted_intermediate (ein3 L.daej L.kldc L.ebcikl L.abij Q.g_aaaa_vavavaoa Q.l2_abab Q.t3_aabaab),
    .aug X.doubles_res [.arg Q.contracted_intermediate, ein1 L.abij L.abji Q.contracted_intermediate, ein1 L.abij L.baij Q.contracted_intermediate, ein1 L.abij L.baji Q.contracted_intermediate],
    set1 X.contracted_intermediate (ein3 L.adje L.klcd L.bceikl L.abij Q.g_abab_vavaoava Q.l2_abab Q.t3_aabaab),
    .aug X.doubles_res [.arg Q.contracted_intermediate, ein1 L.abij L.abji Q.contracted_intermediate, ein1 L.abij L.baij Q.contracted_intermediate, ein1 L.abij L.baji Q.contracted_intermediate],
    set1 X.contracted_intermediate (ein3 L.daej L.lkdc L.ebcilk L.abij Q.g_aaaa_vavavaoa Q.l2_abab Q.t3_aabaab),
    .aug X.doubles_res [.arg Q.contracted_intermediate, ein1 L.abij L.abji Q.contracted_intermediate, ein1 L.abij L.baij Q.contracted_intermediate, ein1 L.abij L.baji Q.contracted_intermediate],
    set1 X.contracted_intermediate (ein3 L.adje L.lkcd L.bceilk L.abij Q.g_abab_vavaoava Q.l2_abab Q.t3_aabaab),
    .aug X.doubles_res [.arg Q.contracted_intermediate, ein1 L.abij L.abji Q.contracted_intermediate, ein1 L.abij L.baij Q.contracted_intermediate, ein1 L.abij L.baji Q.contracted_intermediate],
    set1 X.contracted_intermediate (ein3 L.adje L.kldc L.bceikl L.abij Q.g_abab_vavaoava Q.l2_bbbb Q.t3_abbabb),
    .aug X.doubles_res [.arg Q.contracted_intermediate, ein1 L.abij L.abji Q.contracted_intermediate, ein1 L.abij L.baij Q.contracted_intermediate, ein1 L.abij L.baji Q.contracted_intermediate],
    aug1 X.doubles_res (ein3 L.abel L.kldc L.edcijk L.abij Q.g_aaaa_vavavaoa Q.l2_aaaa Q.t3_aaaaaa),
    aug1 X.doubles_res (ein3 L.abel L.lkdc L.edcijk L.abij Q.g_aaaa_vavavaoa Q.l2_abab Q.t3_aabaab),
    aug1 X.doubles_res (ein3 L.abel L.lkcd L.ecdijk L.abij Q.g_aaaa_vavavaoa Q.l2_abab Q.t3_aabaab),
    set1 X.contracted_intermediate (ein3 L.abej L.kldc L.edcikl L.abij Q.g_aaaa_vavavaoa Q.l2_aaaa Q.t3_aaaaaa),
    .aug X.doubles_res [.arg Q.contracted_intermediate, ein1 L.abij L.abji Q.contracted_intermediate],
    set1 X.contracted_intermediate (ein3 L.abej L.kldc L.edcikl L.abij Q.g_aaaa_vavavaoa Q.l2_abab Q.t3_aabaab),
    .aug X.doubles_res [.arg Q.contracted_intermediate, ein1 L.abij L.abji Q.contracted_intermediate],
    set1 X.contracted_intermediate (ein3 L.abej L.klcd L.ecdikl L.abij Q.g_aaaa_vavavaoa Q.l2_abab Q.t3_aabaab),
    .aug X.doubles_res [.arg Q.contracted_intermediate, ein1 L.abij L.abji Q.contracted_intermediate],
    set1 X.contracted_intermediate (ein3 L.abej L.lkdc L.edcilk L.abij Q.g_aaaa_vavavaoa Q.l2_abab Q.t3_aabaab),
    .aug X.doubles_res [.arg Q.contracted_intermediate, ein1 L.abij L.abji Q.contracted_intermediate],
    set1 X.contracted_intermediate (ein3 L.abej L.lkcd L.ecdilk L.abij Q.g_aaaa_vavavaoa Q.l2_abab Q.t3_aabaab),
    .aug X.doubles_res [.arg Q.contracted_intermediate, ein1 L.abij L.abji Q.contracted_intermediate],
    set1 X.contracted_intermediate (ein3 L.abej L.kldc L.edcikl L.abij Q.g_aaaa_vavavaoa Q.l2_bbbb Q.t3_abbabb),
    .aug X.doubles_res [.arg Q.contracted_intermediate, ein1 L.abij L.abji Q.contracted_intermediate]]
  ret := [Q.doubles_res]

/-- `testing_modifyT2eqns_with_T4.py` 834-1661: `ccsdt_t2_bbbb_residual_Qf`; 522 einsum calls. -/
def testing_modifyT2eqns_with_T4_ccsdt_t2_bbbb_residual_Qf : Fn where
  params := [X.g_abab, X.l2_abab, X.t2_abab, X.t2_bbbb, X.g_bbbb, X.l2_bbbb, X.g_aaaa, X.l2_aaaa, X.t2_aaaa, X.t3_abbabb, X.t3_bbbbbb, X.t3_aabaab]
  body := [
    set1 X.contracted_intermediate (ein4 L.mnkl L.kldc L.dcmj L.abin L.abij Q.g_abab_oaoaoaoa Q.l2_abab Q.t2_abab Q.t2_bbbb),
    .set X.doubles_res [.arg Q.contracted_intermediate, ein1 L.abij L.abji Q.contracted_intermediate],
    set1 X.contracted_intermediate (ein4 L.mnkl L.klcd L.cdmj L.abin L.abij Q.g_abab_oaoaoaoa Q.l2_abab Q.t2_abab Q.t2_bbbb),
    .aug X.doubles_res [.arg Q.contracted_intermediate, ein1 L.abij L.abji Q.contracted_intermediate],
    set1 X.contracted_intermediate (ein4 L.mnlk L.lkdc L.dcmj L.abin L.abij Q.g_abab_oaoaoaoa Q.l2_abab Q.t2_abab Q.t2_bbbb),
    .aug X.doubles_res [.arg Q.contracted_intermediate, ein1 L.abij L.abji Q.contracted_intermediate],
    set1 X.contracted_intermediate (ein4 L.mnlk L.lkcd L.cdmj L.abin L.abij Q.g_abab_oaoaoaoa Q.l2_abab Q.t2_abab Q.t2_bbbb),
    .aug X.doubles_res [.arg Q.contracted_intermediate, ein1 L.abij L.abji Q.contracted_intermediate],
    set1 X.contracted_intermediate (ein4 L.nmkl L.kldc L.dcjm L.abin L.abij Q.g_bbbb_oaoaoaoa Q.l2_bbbb Q.t2_bbbb Q.t2_bbbb),
    .aug X.doubles_res [.arg Q.contracted_intermediate, ein1 L.abij L.abji Q.contracted_intermediate],
    set1 X.contracted_intermediate (ein4 L.nmkl L.kldc L.damj L.cbni L.abij Q.g_aaaa_oaoaoaoa Q.l2_aaaa Q.t2_abab Q.t2_abab),
    .aug X.doubles_res [.arg Q.contracted_intermediate, ein1 L.abij L.abji Q.contracted_intermediate],
    set1 X.contracted_intermediate (ein4 L.mnkl L.kldc L.damj L.cbin L.abij Q.g_abab_oaoaoaoa Q.l2_abab Q.t2_abab Q.t2_bbbb),
    .aug X.doubles_res [.arg Q.contracted_intermediate, ein1 L.abij L.abji Q.contracted_intermediate],
    set1 X.contracted_intermediate (ein4 L.nmkl L.klcd L.dajm L.cbni L.abij Q.g_abab_oaoaoaoa Q.l2_abab Q.t2_bbbb Q.t2_abab),
    .aug X.doubles_res [.arg Q.contracted_intermediate, ein1 L.abij L.abji Q.contracted_intermediate],
    set1 X.contracted_intermediate (ein4 L.mnlk L.lkdc L.damj L.cbin L.abij Q.g_abab_oaoaoaoa Q.l2_abab Q.t2_abab Q.t2_bbbb),
    .aug X.doubles_res [.arg Q.contracted_intermediate, ein1 L.abij L.abji Q.contracted_intermediate],
    set1 X.contracted_intermediate (ein4 L.nmlk L.lkcd L.dajm L.cbni L.abij Q.g_abab_oaoaoaoa Q.l2_abab Q.t2_bbbb Q.t2_abab),
    .aug X.doubles_res [.arg Q.contracted_intermediate, ein1 L.abij L.abji Q.contracted_intermediate],
    set1 X.contracted_intermediate (ein4 L.nmkl L.kldc L.dajm L.cbin L.abij Q.g_bbbb_oaoaoaoa Q.l2_bbbb Q.t2_bbbb Q.t2_bbbb),
    .aug X.doubles_res [.arg Q.contracted_intermediate, ein1 L.abij L.abji Q.contracted_intermediate],
    set1 X.contracted_intermediate (ein4 L.mnlj L.kldc L.dckm L.abin L.abij Q.g_abab_oaoaoaoa Q.l2_aaaa Q.t2_aaaa Q.t2_bbbb),
    .aug X.doubles_res [.arg Q.contracted_intermediate, ein1 L.abij L.abji Q.contracted_intermediate],
    set1 X.contracted_intermediate (ein4 L.nmjl L.kldc L.dckm L.abin L.abij Q.g_bbbb_oaoaoaoa Q.l2_abab Q.t2_abab Q.t2_bbbb),
    .aug X.doubles_res [.arg Q.contracted_intermediate, ein1 L.abij L.abji Q.contracted_intermediate],
    set1 X.contracted_intermediate (ein4 L.nmjl L.klcd L.cdkm L.abin L.abij Q.g_bbbb_oaoaoaoa Q.l2_abab Q.t2_abab Q.t2_bbbb),
    .aug X.doubles_res [.arg Q.contracted_intermediate, ein1 L.abij L.abji Q.contracted_intermediate],
    set1 X.contracted_intermediate (ein4 L.mnlj L.lkdc L.dcmk L.abin L.abij Q.g_abab_oaoaoaoa Q.l2_abab Q.t2_abab Q.t2_bbbb),
    .aug X.doubles_res [.arg Q.contracted_intermediate, ein1 L.abij L.abji Q.contracted_intermediate],
    set1 X.contracted_intermediate (ein4 L.mnlj L.lkcd L.cdmk L.abin L.abij Q.g_abab_oaoaoaoa Q.l2_abab Q.t2_abab Q.t2_bbbb),
    .aug X.doubles_res [.arg Q.contracted_intermediate, ein1 L.abij L.abji Q.contracted_intermediate],
    set1 X.contracted_intermediate (ein4 L.nmjl L.kldc L.dckm L.abin L.abij Q.g_bbbb_oaoaoaoa Q.l2_bbbb Q.t2_bbbb Q.t2_bbbb),
    .aug X.doubles_res [.arg Q.contracted_intermediate, ein1 L.abij L.abji Q.contracted_intermediate],
    set1 X.contracted_intermediate (ein4 L.mnlj L.lkdc L.dcmi L.abkn L.abij Q.g_abab_oaoaoaoa Q.l2_abab Q.t2_abab Q.t2_bbbb),
    .aug X.doubles_res [.arg Q.contracted_intermediate, ein1 L.abij L.abji Q.contracted_intermediate],
    set1 X.contracted_intermediate (ein4 L.mnlj L.lkcd L.cdmi L.abkn L.abij Q.g_abab_oaoaoaoa Q.l2_abab Q.t2_abab Q.t2_bbbb),
    .aug X.doubles_res [.arg Q.contracted_intermediate, ein1 L.abij L.abji Q.contracted_intermediate],
    set1 X.contracted_intermediate (ein4 L.nmjl L.kldc L.dcim L.abkn L.abij Q.g_bbbb_oaoaoaoa Q.l2_bbbb Q.t2_bbbb Q.t2_bbbb),
    .aug X.doubles_res [.arg Q.contracted_intermediate, ein1 L.abij L.abji Q.contracted_intermediate],
    set1 X.contracted_intermediate (ein4 L.nmlj L.kldc L.dakm L.cbni L.abij Q.g_abab_oaoaoaoa Q.l2_aaaa Q.t2_abab Q.t2_abab),
    .aug X.doubles_res [.arg Q.contracted_intermediate, ein1 L.abij L.abji Q.contracted_intermediate],
    set1 X.contracted_intermediate (ein4 L.nmjl L.kldc L.dakm L.cbin L.abij Q.g_bbbb_oaoaoaoa Q.l2_abab Q.t2_abab Q.t2_bbbb),
    .aug X.doubles_res [.arg Q.contracted_intermediate, ein1 L.abij L.abji Q.contracted_intermediate],
    set1 X.contracted_intermediate (ein4 L.mnlj L.lkdc L.damk L.cbin L.abij Q.g_abab_oaoaoaoa Q.l2_abab Q.t2_abab Q.t2_bbbb),
    .aug X.doubles_res [.arg Q.contracted_intermediate, ein1 L.abij L.abji Q.contracted_intermediate],
    set1 X.contracted_intermediate (ein4 L.nmlj L.lkcd L.dakm L.cbni L.abij Q.g_abab_oaoaoaoa Q.l2_abab Q.t2_bbbb Q.t2_abab),
    .aug X.doubles_res [.arg Q.contracted_intermediate, ein1 L.abij L.abji Q.contracted_intermediate],
    set1 X.contracted_intermediate (ein4 L.nmjl L.kldc L.dakm L.cbin L.abij Q.g_bbbb_oaoaoaoa Q.l2_bbbb Q.t2_bbbb Q.t2_bbbb),
    .aug X.doubles_res [.arg Q.contracted_intermediate, ein1 L.abij L.abji Q.contracted_intermediate],
    set1 X.contracted_intermediate (ein4 L.mnlj L.kldc L.dami L.cbkn L.abij Q.g_abab_oaoaoaoa Q.l2_aaaa Q.t2_abab Q.t2_abab),
    .aug X.doubles_res [.arg Q.contracted_intermediate, ein1 L.abij L.abji Q.contracted_intermediate],
    set1 X.contracted_intermediate (ein4 L.nmjl L.klcd L.daim L.cbkn L.abij Q.g_bbbb_oaoaoaoa Q.l2_abab Q.t2_bbbb Q.t2_abab),
    .aug X.doubles_res [.arg Q.contracted_intermediate, ein1 L.abij L.abji Q.contracted_intermediate],
    set1 X.contracted_intermediate (ein4 L.mnlj L.lkdc L.dami L.cbkn L.abij Q.g_abab_oaoaoaoa Q.l2_abab Q.t2_abab Q.t2_bbbb),
    .aug X.doubles_res [.arg Q.contracted_intermediate, ein1 L.abij L.abji Q.contracted_intermediate],
    set1 X.contracted_intermediate (ein4 L.nmlj L.lkcd L.daim L.cbnk L.abij Q.g_abab_oaoaoaoa Q.l2_abab Q.t2_bbbb Q.t2_abab),
    .aug X.doubles_res [.arg Q.contracted_intermediate, ein1 L.abij L.abji Q.contracted_intermediate],
    set1 X.contracted_intermediate (ein4 L.nmjl L.kldc L.daim L.cbkn L.abij Q.g_bbbb_oaoaoaoa Q.l2_bbbb Q.t2_bbbb Q.t2_bbbb),
    .aug X.doubles_res [.arg Q.contracted_intermediate, ein1 L.abij L.abji Q.contracted_intermediate],
    aug1 X.doubles_res (ein4 L.nmij L.lkdc L.dclm L.abkn L.abij Q.g_bbbb_oaoaoaoa Q.l2_abab Q.t2_abab Q.t2_bbbb),
    aug1 X.doubles_res (ein4 L.nmij L.lkcd L.cdlm L.abkn L.abij Q.g_bbbb_oaoaoaoa Q.l2_abab Q.t2_abab Q.t2_bbbb),
    aug1 X.doubles_res (ein4 L.nmij L.kldc L.dclm L.abkn L.abij Q.g_bbbb_oaoaoaoa Q.l2_bbbb Q.t2_bbbb Q.t2_bbbb),
    set1 X.contracted_intermediate (ein4 L.nmij L.kldc L.dalm L.cbkn L.abij Q.g_bbbb_oaoaoaoa Q.l2_aaaa Q.t2_abab Q.t2_abab),
    .aug X.doubles_res [.arg Q.contracted_intermediate, ein1 L.abij L.baij Q.contracted_intermediate],
    set1 X.contracted_intermediate (ein4 L.nmij L.klcd L.dalm L.cbkn L.abij Q.g_bbbb_oaoaoaoa Q.l2_abab Q.t2_bbbb Q.t2_abab),
    .aug X.doubles_res [.arg Q.contracted_intermediate, ein1 L.abij L.baij Q.contracted_intermediate],
    set1 X.contracted_intermediate (ein4 L.nmij L.lkdc L.dalm L.cbkn L.abij Q.g_bbbb_oaoaoaoa Q.l2_abab Q.t2_abab Q.t2_bbbb),
    .aug X.doubles_res [.arg Q.contracted_intermediate, ein1 L.abij L.baij Q.contracted_intermediate],
    set1 X.contracted_intermediate (ein4 L.nmij L.kldc L.dalm L.cbkn L.abij Q.g_bbbb_oaoaoaoa Q.l2_bbbb Q.t2_bbbb Q.t2_bbbb),
    .aug X.doubles_res [.arg Q.contracted_intermediate, ein1 L.abij L.baij Q.contracted_intermediate],
    set1 X.contracted_intermediate (ein4 L.dmle L.kldc L.cekj L.abim L.abij Q.g_abab_vaoaoava Q.l2_aaaa Q.t2_abab Q.t2_bbbb),
    .aug X.doubles_res [.arg Q.contracted_intermediate, ein1 L.abij L.abji Q.contracted_intermediate],
    set1 X.contracted_intermediate (ein4 L.dmel L.kldc L.eckj L.abim L.abij Q.g_abab_vaoavaoa Q.l2_abab Q.t2_abab Q.t2_bbbb),
    .aug X.doubles_res [.arg Q.contracted_intermediate, ein1 L.abij L.abji Q.contracted_intermediate],
    set1 X.contracted_intermediate (ein4 L.mdel L.klcd L.cekj L.abim L.abij Q.g_bbbb_oavavaoa Q.l2_abab Q.t2_abab Q.t2_bbbb),
    .aug X.doubles_res [.arg Q.contracted_intermediate, ein1 L.abij L.abji Q.contracted_intermediate],
    set1 X.contracted_intermediate (ein4 L.dmle L.lkdc L.ecjk L.abim L.abij Q.g_abab_vaoaoava Q.l2_abab Q.t2_bbbb Q.t2_bbbb),
    .aug X.doubles_res [.arg Q.contracted_intermediate, ein1 L.abij L.abji Q.contracted_intermediate],
    set1 X.contracted_intermediate (ein4 L.mdel L.kldc L.ecjk L.abim L.abij Q.g_bbbb_oavavaoa Q.l2_bbbb Q.t2_bbbb Q.t2_bbbb),
    .aug X.doubles_res [.arg Q.contracted_intermediate, ein1 L.abij L.abji Q.contracted_intermediate],
    aug1 X.doubles_res (ein4 L.dmle L.lkdc L.ecij L.abkm L.abij Q.g_abab_vaoaoava Q.l2_abab Q.t2_bbbb Q.t2_bbbb),
    aug1 X.doubles_res (ein4 L.mdel L.kldc L.ecij L.abkm L.abij Q.g_bbbb_oavavaoa Q.l2_bbbb Q.t2_bbbb Q.t2_bbbb),
    set1 X.contracted_intermediate (ein4 L.mdel L.kldc L.eakj L.cbmi L.abij Q.g_aaaa_oavavaoa Q.l2_aaaa Q.t2_abab Q.t2_abab),
    .aug X.doubles_res [.arg Q.contracted_intermediate, ein1 L.abij L.abji Q.contracted_intermediate, ein1 L.abij L.baij Q.contracted_intermediate, ein1 L.abij L.baji Q.contracted_intermediate],
    set1 X.contracted_intermediate (ein4 L.dmel L.kldc L.eakj L.cbim L.abij Q.g_abab_vaoavaoa Q.l2_abab Q.t2_abab Q.t2_bbbb),
    .aug X.doubles_res [.arg Q.contracted_intermediate, ein1 L.abij L.abji Q.contracted_intermediate, ein1 L.abij L.baij Q.contracted_intermediate, ein1 L.abij L.baji Q.contracted_intermediate],
    set1 X.contracted_intermediate (ein4 L.mdel L.klcd L.eakj L.cbmi L.abij Q.g_abab_oavavaoa Q.l2_abab Q.t2_abab Q.t2_abab),
    .aug X.doubles_res [.arg Q.contracted_intermediate, ein1 L.abij L.abji Q.contracted_intermediate, ein1 L.abij L.baij Q.contracted_intermediate, ein1 L.abij L.baji Q.contracted_intermediate],
    set1 X.contracted_intermediate (ein4 L.dmle L.lkdc L.eajk L.cbim L.abij Q.g_abab_vaoaoava Q.l2_abab Q.t2_bbbb Q.t2_bbbb),
    .aug X.doubles_res [.arg Q.contracted_intermediate, ein1 L.abij L.abji Q.contracted_intermediate, ein1 L.abij L.baij Q.contracted_intermediate, ein1 L.abij L.baji Q.contracted_intermediate],
    set1 X.contracted_intermediate (ein4 L.mdle L.lkcd L.eajk L.cbmi L.abij Q.g_abab_oavaoava Q.l2_abab Q.t2_bbbb Q.t2_abab),
    .aug X.doubles_res [.arg Q.contracted_intermediate, ein1 L.abij L.abji Q.contracted_intermediate, ein1 L.abij L.baij Q.contracted_intermediate, ein1 L.abij L.baji Q.contracted_intermediate],
    set1 X.contracted_intermediate (ein4 L.mdel L.kldc L.eajk L.cbim L.abij Q.g_bbbb_oavavaoa Q.l2_bbbb Q.t2_bbbb Q.t2_bbbb),
    .aug X.doubles_res [.arg Q.contracted_intermediate, ein1 L.abij L.abji Q.contracted_intermediate, ein1 L.abij L.baij Q.contracted_intermediate, ein1 L.abij L.baji Q.contracted_intermediate],
    set1 X.contracted_intermediate (ein4 L.dmle L.kldc L.eaij L.cbkm L.abij Q.g_abab_vaoaoava Q.l2_aaaa Q.t2_bbbb Q.t2_abab),
    .aug X.doubles_res [.arg Q.contracted_intermediate, ein1 L.abij L.baij Q.contracted_intermediate],
    set1 X.contracted_intermediate (ein4 L.mdel L.klcd L.eaij L.cbkm L.abij Q.g_bbbb_oavavaoa Q.l2_abab Q.t2_bbbb Q.t2_abab),
    .aug X.doubles_res [.arg Q.contracted_intermediate, ein1 L.abij L.baij Q.contracted_intermediate],
    set1 X.contracted_intermediate (ein4 L.dmle L.lkdc L.eaij L.cbkm L.abij Q.g_abab_vaoaoava Q.l2_abab Q.t2_bbbb Q.t2_bbbb),
    .aug X.doubles_res [.arg Q.contracted_intermediate, ein1 L.abij L.baij Q.contracted_intermediate],
    set1 X.contracted_intermediate (ein4 L.mdle L.lkcd L.eaij L.cbmk L.abij Q.g_abab_oavaoava Q.l2_abab Q.t2_bbbb Q.t2_abab),
    .aug X.doubles_res [.arg Q.contracted_intermediate, ein1 L.abij L.baij Q.contracted_intermediate],
    set1 X.contracted_intermediate (ein4 L.mdel L.kldc L.eaij L.cbkm L.abij Q.g_bbbb_oavavaoa Q.l2_bbbb Q.t2_bbbb Q.t2_bbbb),
    .aug X.doubles_res [.arg Q.contracted_intermediate, ein1 L.abij L.baij Q.contracted_intermediate],
    set1 X.contracted_intermediate (ein4 L.dmej L.kldc L.eckl L.abim L.abij Q.g_abab_vaoavaoa Q.l2_aaaa Q.t2_aaaa Q.t2_bbbb),
    .aug X.doubles_res [.arg Q.contracted_intermediate, ein1 L.abij L.abji Q.contracted_intermediate],
    set1 X.contracted_intermediate (ein4 L.dmej L.kldc L.eckl L.abim L.abij Q.g_abab_vaoavaoa Q.l2_abab Q.t2_abab Q.t2_bbbb),
    .aug X.doubles_res [.arg Q.contracted_intermediate, ein1 L.abij L.abji Q.contracted_intermediate],
    set1 X.contracted_intermediate (ein4 L.mdej L.klcd L.cekl L.abim L.abij Q.g_bbbb_oavavaoa Q.l2_abab Q.t2_abab Q.t2_bbbb),
    .aug X.doubles_res [.arg Q.contracted_intermediate, ein1 L.abij L.abji Q.contracted_intermediate],
    set1 X.contracted_intermediate (ein4 L.dmej L.lkdc L.eclk L.abim L.abij Q.g_abab_vaoavaoa Q.l2_abab Q.t2_abab Q.t2_bbbb),
    .aug X.doubles_res [.arg Q.contracted_intermediate, ein1 L.abij L.abji Q.contracted_intermediate],
    set1 X.contracted_intermediate (ein4 L.mdej L.lkcd L.celk L.abim L.abij Q.g_bbbb_oavavaoa Q.l2_abab Q.t2_abab Q.t2_bbbb),
    .aug X.doubles_res [.arg Q.contracted_intermediate, ein1 L.abij L.abji Q.contracted_intermediate],
    set1 X.contracted_intermediate (ein4 L.mdej L.kldc L.eckl L.abim L.abij Q.g_bbbb_oavavaoa Q.l2_bbbb Q.t2_bbbb Q.t2_bbbb),
    .aug X.doubles_res [.arg Q.contracted_intermediate, ein1 L.abij L.abji Q.contracted_intermediate],
    set1 X.contracted_intermediate (ein4 L.dmej L.lkdc L.ecli L.abkm L.abij Q.g_abab_vaoavaoa Q.l2_abab Q.t2_abab Q.t2_bbbb),
    .aug X.doubles_res [.arg Q.contracted_intermediate, ein1 L.abij L.abji Q.contracted_intermediate],
    set1 X.contracted_intermediate (ein4 L.mdej L.lkcd L.celi L.abkm L.abij Q.g_bbbb_oavavaoa Q.l2_abab Q.t2_abab Q.t2_bbbb),
    .aug X.doubles_res [.arg Q.contracted_intermediate, ein1 L.abij L.abji Q.contracted_intermediate],
    set1 X.contracted_intermediate (ein4 L.mdej L.kldc L.ecil L.abkm L.abij Q.g_bbbb_oavavaoa Q.l2_bbbb Q.t2_bbbb Q.t2_bbbb),
    .aug X.doubles_res [.arg Q.contracted_intermediate, ein1 L.abij L.abji Q.contracted_intermediate],
    set1 X.contracted_intermediate (ein4 L.dmej L.kldc L.eakl L.cbim L.abij Q.g_abab_vaoavaoa Q.l2_abab Q.t2_abab Q.t2_bbbb),
    .aug X.doubles_res [.arg Q.contracted_intermediate, ein1 L.abij L.abji Q.contracted_intermediate, ein1 L.abij L.baij Q.contracted_intermediate, ein1 L.abij L.baji Q.contracted_intermediate],
    set1 X.contracted_intermediate (ein4 L.mdej L.klcd L.eakl L.cbmi L.abij Q.g_abab_oavavaoa Q.l2_abab Q.t2_abab Q.t2_abab),
    .aug X.doubles_res [.arg Q.contracted_intermediate, ein1 L.abij L.abji Q.contracted_intermediate, ein1 L.abij L.baij Q.contracted_intermediate, ein1 L.abij L.baji Q.contracted_intermediate],
    set1 X.contracted_intermediate (ein4 L.dmej L.lkdc L.ealk L.cbim L.abij Q.g_abab_vaoavaoa Q.l2_abab Q.t2_abab Q.t2_bbbb),
    .aug X.doubles_res [.arg Q.contracted_intermediate, ein1 L.abij L.abji Q.contracted_intermediate, ein1 L.abij L.baij Q.contracted_intermediate, ein1 L.abij L.baji Q.contracted_intermediate],
    set1 X.contracted_intermediate (ein4 L.mdej L.lkcd L.ealk L.cbmi L.abij Q.g_abab_oavavaoa Q.l2_abab Q.t2_abab Q.t2_abab),
    .aug X.doubles_res [.arg Q.contracted_intermediate, ein1 L.abij L.abji Q.contracted_intermediate, ein1 L.abij L.baij Q.contracted_intermediate, ein1 L.abij L.baji Q.contracted_intermediate],
    set1 X.contracted_intermediate (ein4 L.mdej L.kldc L.eakl L.cbim L.abij Q.g_bbbb_oavavaoa Q.l2_bbbb Q.t2_bbbb Q.t2_bbbb),
    .aug X.doubles_res [.arg Q.contracted_intermediate, ein1 L.abij L.abji Q.contracted_intermediate, ein1 L.abij L.baij Q.contracted_intermediate, ein1 L.abij L.baji Q.contracted_intermediate],
    set1 X.contracted_intermediate (ein4 L.dmej L.kldc L.eali L.cbkm L.abij Q.g_abab_vaoavaoa Q.l2_aaaa Q.t2_abab Q.t2_abab),
    .aug X.doubles_res [.arg Q.contracted_intermediate, ein1 L.abij L.abji Q.contracted_intermediate, ein1 L.abij L.baij Q.contracted_intermediate, ein1 L.abij L.baji Q.contracted_intermediate],
    set1 X.contracted_intermediate (ein4 L.mdej L.klcd L.eail L.cbkm L.abij Q.g_bbbb_oavavaoa Q.l2_abab Q.t2_bbbb Q.t2_abab),
    .aug X.doubles_res [.arg Q.contracted_intermediate, ein1 L.abij L.abji Q.contracted_intermediate, ein1 L.abij L.baij Q.contracted_intermediate, ein1 L.abij L.baji Q.contracted_intermediate],
    set1 X.contracted_intermediate (ein4 L.dmej L.lkdc L.eali L.cbkm L.abij Q.g_abab_vaoavaoa Q.l2_abab Q.t2_abab Q.t2_bbbb),
    .aug X.doubles_res [.arg Q.contracted_intermediate, ein1 L.abij L.abji Q.contracted_intermediate, ein1 L.abij L.baij Q.contracted_intermediate, ein1 L.abij L.baji Q.contracted_intermediate],
    set1 X.contracted_intermediate (ein4 L.mdej L.lkcd L.eali L.cbmk L.abij Q.g_abab_oavavaoa Q.l2_abab Q.t2_abab Q.t2_abab),
    .aug X.doubles_res [.arg Q.contracted_intermediate, ein1 L.abij L.abji Q.contracted_intermediate, ein1 L.abij L.baij Q.contracted_intermediate, ein1 L.abij L.baji Q.contracted_intermediate],
    set1 X.contracted_intermediate (ein4 L.mdej L.kldc L.eail L.cbkm L.abij Q.g_bbbb_oavavaoa Q.l2_bbbb Q.t2_bbbb Q.t2_bbbb),
    .aug X.doubles_res [.arg Q.contracted_intermediate, ein1 L.abij L.abji Q.contracted_intermediate, ein1 L.abij L.baij Q.contracted_intermediate, ein1 L.abij L.baji Q.contracted_intermediate],
    set1 X.contracted_intermediate (ein4 L.male L.kldc L.dekj L.cbmi L.abij Q.g_abab_oavaoava Q.l2_aaaa Q.t2_abab Q.t2_abab),
    .aug X.doubles_res [.arg Q.contracted_intermediate, ein1 L.abij L.abji Q.contracted_intermediate, ein1 L.abij L.baij Q.contracted_intermediate, ein1 L.abij L.baji Q.contracted_intermediate],
    set1 X.contracted_intermediate (ein4 L.mael L.kldc L.dekj L.cbim L.abij Q.g_bbbb_oavavaoa Q.l2_abab Q.t2_abab Q.t2_bbbb),
    .aug X.doubles_res [.arg Q.contracted_intermediate, ein1 L.abij L.abji Q.contracted_intermediate, ein1 L.abij L.baij Q.contracted_intermediate, ein1 L.abij L.baji Q.contracted_intermediate],
    set1 X.contracted_intermediate (ein4 L.mael L.klcd L.edkj L.cbmi L.abij Q.g_abab_oavavaoa Q.l2_abab Q.t2_abab Q.t2_abab),
    .aug X.doubles_res [.arg Q.contracted_intermediate, ein1 L.abij L.abji Q.contracted_intermediate, ein1 L.abij L.baij Q.contracted_intermediate, ein1 L.abij L.baji Q.contracted_intermediate],
    set1 X.contracted_intermediate (ein4 L.male L.lkcd L.edjk L.cbmi L.abij Q.g_abab_oavaoava Q.l2_abab Q.t2_bbbb Q.t2_abab),
    .aug X.doubles_res [.arg Q.contracted_intermediate, ein1 L.abij L.abji Q.contracted_intermediate, ein1 L.abij L.baij Q.contracted_intermediate, ein1 L.abij L.baji Q.contracted_intermediate],
    set1 X.contracted_intermediate (ein4 L.mael L.kldc L.edjk L.cbim L.abij Q.g_bbbb_oavavaoa Q.l2_bbbb Q.t2_bbbb Q.t2_bbbb),
    .aug X.doubles_res [.arg Q.contracted_intermediate, ein1 L.abij L.abji Q.contracted_intermediate, ein1 L.abij L.baij Q.contracted_intermediate, ein1 L.abij L.baji Q.contracted_intermediate],
    set1 X.contracted_intermediate (ein4 L.mael L.klcd L.edij L.cbkm L.abij Q.g_bbbb_oavavaoa Q.l2_abab Q.t2_bbbb Q.t2_abab),
    .aug X.doubles_res [.arg Q.contracted_intermediate, ein1 L.abij L.baij Q.contracted_intermediate],
    set1 X.contracted_intermediate (ein4 L.male L.lkcd L.edij L.cbmk L.abij Q.g_abab_oavaoava Q.l2_abab Q.t2_bbbb Q.t2_abab),
    .aug X.doubles_res [.arg Q.contracted_intermediate, ein1 L.abij L.baij Q.contracted_intermediate],
    set1 X.contracted_intermediate (ein4 L.mael L.kldc L.edij L.cbkm L.abij Q.g_bbbb_oavavaoa Q.l2_bbbb Q.t2_bbbb Q.t2_bbbb),
    .aug X.doubles_res [.arg Q.contracted_intermediate, ein1 L.abij L.baij Q.contracted_intermediate],
    set1 X.contracted_intermediate (ein4 L.mael L.kldc L.ebkj L.dcmi L.abij Q.g_abab_oavavaoa Q.l2_abab Q.t2_abab Q.t2_abab),
    .aug X.doubles_res [.arg Q.contracted_intermediate, ein1 L.abij L.abji Q.contracted_intermediate, ein1 L.abij L.baij Q.contracted_intermediate, ein1 L.abij L.baji Q.contracted_intermediate],
    set1 X.contracted_intermediate (ein4 L.mael L.klcd L.ebkj L.cdmi L.abij Q.g_abab_oavavaoa Q.l2_abab Q.t2_abab Q.t2_abab),
    .aug X.doubles_res [.arg Q.contracted_intermediate, ein1 L.abij L.abji Q.contracted_intermediate, ein1 L.abij L.baij Q.contracted_intermediate, ein1 L.abij L.baji Q.contracted_intermediate],
    set1 X.contracted_intermediate (ein4 L.male L.lkdc L.ebjk L.dcmi L.abij Q.g_abab_oavaoava Q.l2_abab Q.t2_bbbb Q.t2_abab),
    .aug X.doubles_res [.arg Q.contracted_intermediate, ein1 L.abij L.abji Q.contracted_intermediate, ein1 L.abij L.baij Q.contracted_intermediate, ein1 L.abij L.baji Q.contracted_intermediate],
    set1 X.contracted_intermediate (ein4 L.male L.lkcd L.ebjk L.cdmi L.abij Q.g_abab_oavaoava Q.l2_abab Q.t2_bbbb Q.t2_abab),
    .aug X.doubles_res [.arg Q.contracted_intermediate, ein1 L.abij L.abji Q.contracted_intermediate, ein1 L.abij L.baij Q.contracted_intermediate, ein1 L.abij L.baji Q.contracted_intermediate],
    set1 X.contracted_intermediate (ein4 L.mael L.kldc L.ebjk L.dcim L.abij Q.g_bbbb_oavavaoa Q.l2_bbbb Q.t2_bbbb Q.t2_bbbb),
    .aug X.doubles_res [.arg Q.contracted_intermediate, ein1 L.abij L.abji Q.contracted_intermediate, ein1 L.abij L.baij Q.contracted_intermediate, ein1 L.abij L.baji Q.contracted_intermediate],
    set1 X.contracted_intermediate (ein4 L.male L.kldc L.ebij L.dckm L.abij Q.g_abab_oavaoava Q.l2_aaaa Q.t2_bbbb Q.t2_aaaa),
    .aug X.doubles_res [.arg Q.contracted_intermediate, ein1 L.abij L.baij Q.contracted_intermediate],
    set1 X.contracted_intermediate (ein4 L.mael L.kldc L.ebij L.dckm L.abij Q.g_bbbb_oavavaoa Q.l2_abab Q.t2_bbbb Q.t2_abab),
    .aug X.doubles_res [.arg Q.contracted_intermediate, ein1 L.abij L.baij Q.contracted_intermediate],
    set1 X.contracted_intermediate (ein4 L.mael L.klcd L.ebij L.cdkm L.abij Q.g_bbbb_oavavaoa Q.l2_abab Q.t2_bbbb Q.t2_abab),
    .aug X.doubles_res [.arg Q.contracted_intermediate, ein1 L.abij L.baij Q.contracted_intermediate],
    set1 X.contracted_intermediate (ein4 L.male L.lkdc L.ebij L.dcmk L.abij Q.g_abab_oavaoava Q.l2_abab Q.t2_bbbb Q.t2_abab),
    .aug X.doubles_res [.arg Q.contracted_intermediate, ein1 L.abij L.baij Q.contracted_intermediate],
    set1 X.contracted_intermediate (ein4 L.male L.lkcd L.ebij L.cdmk L.abij Q.g_abab_oavaoava Q.l2_abab Q.t2_bbbb Q.t2_abab),
    .aug X.doubles_res [.arg Q.contracted_intermediate, ein1 L.abij L.baij Q.contracted_intermediate],
    set1 X.contracted_intermediate (ein4 L.mael L.kldc L.ebij L.dckm L.abij Q.g_bbbb_oavavaoa Q.l2_bbbb Q.t2_bbbb Q.t2_bbbb),
    .aug X.doubles_res [.arg Q.contracted_intermediate, ein1 L.abij L.baij Q.contracted_intermediate],
    set1 X.contracted_intermediate (ein4 L.maej L.kldc L.edkl L.cbmi L.abij Q.g_abab_oavavaoa Q.l2_aaaa Q.t2_aaaa Q.t2_abab),
    .aug X.doubles_res [.arg Q.contracted_intermediate, ein1 L.abij L.abji Q.contracted_intermediate, ein1 L.abij L.baij Q.contracted_intermediate, ein1 L.abij L.baji Q.contracted_intermediate],
    set1 X.contracted_intermediate (ein4 L.maej L.kldc L.dekl L.cbim L.abij Q.g_bbbb_oavavaoa Q.l2_abab Q.t2_abab Q.t2_bbbb),
    .aug X.doubles_res [.arg Q.contracted_intermediate, ein1 L.abij L.abji Q.contracted_intermediate, ein1 L.abij L.baij Q.contracted_intermediate, ein1 L.abij L.baji Q.contracted_intermediate],
    set1 X.contracted_intermediate (ein4 L.maej L.klcd L.edkl L.cbmi L.abij Q.g_abab_oavavaoa Q.l2_abab Q.t2_abab Q.t2_abab),
    .aug X.doubles_res [.arg Q.contracted_intermediate, ein1 L.abij L.abji Q.contracted_intermediate, ein1 L.abij L.baij Q.contracted_intermediate, ein1 L.abij L.baji Q.contracted_intermediate],
    set1 X.contracted_intermediate (ein4 L.maej L.lkdc L.delk L.cbim L.abij Q.g_bbbb_oavavaoa Q.l2_abab Q.t2_abab Q.t2_bbbb),
    .aug X.doubles_res [.arg Q.contracted_intermediate, ein1 L.abij L.abji Q.contracted_intermediate, ein1 L.abij L.baij Q.contracted_intermediate, ein1 L.abij L.baji Q.contracted_intermediate],
    set1 X.contracted_intermediate (ein4 L.maej L.lkcd L.edlk L.cbmi L.abij Q.g_abab_oavavaoa Q.l2_abab Q.t2_abab Q.t2_abab),
    .aug X.doubles_res [.arg Q.contracted_intermediate, ein1 L.abij L.abji Q.contracted_intermediate, ein1 L.abij L.baij Q.contracted_intermediate, ein1 L.abij L.baji Q.contracted_intermediate],
    set1 X.contracted_intermediate (ein4 L.maej L.kldc L.edkl L.cbim L.abij Q.g_bbbb_oavavaoa Q.l2_bbbb Q.t2_bbbb Q.t2_bbbb),
    .aug X.doubles_res [.arg Q.contracted_intermediate, ein1 L.abij L.abji Q.contracted_intermediate, ein1 L.abij L.baij Q.contracted_intermediate, ein1 L.abij L.baji Q.contracted_intermediate],
    set1 X.contracted_intermediate (ein4 L.maej L.kldc L.deli L.cbkm L.abij Q.g_bbbb_oavavaoa Q.l2_aaaa Q.t2_abab Q.t2_abab),
    .aug X.doubles_res [.arg Q.contracted_intermediate, ein1 L.abij L.abji Q.contracted_intermediate, ein1 L.abij L.baij Q.contracted_intermediate, ein1 L.abij L.baji Q.contracted_intermediate],
    set1 X.contracted_intermediate (ein4 L.maej L.klcd L.edil L.cbkm L.abij Q.g_bbbb_oavavaoa Q.l2_abab Q.t2_bbbb Q.t2_abab),
    .aug X.doubles_res [.arg Q.contracted_intermediate, ein1 L.abij L.abji Q.contracted_intermediate, ein1 L.abij L.baij Q.contracted_intermediate, ein1 L.abij L.baji Q.contracted_intermediate],
    set1 X.contracted_intermediate (ein4 L.maej L.lkdc L.deli L.cbkm L.abij Q.g_bbbb_oavavaoa Q.l2_abab Q.t2_abab Q.t2_bbbb),
    .aug X.doubles_res [.arg Q.contracted_intermediate, ein1 L.abij L.abji Q.contracted_intermediate, ein1 L.abij L.baij Q.contracted_intermediate, ein1 L.abij L.baji Q.contracted_intermediate],
    set1 X.contracted_intermediate (ein4 L.maej L.lkcd L.edli L.cbmk L.abij Q.g_abab_oavavaoa Q.l2_abab Q.t2_abab Q.t2_abab),
    .aug X.doubles_res [.arg Q.contracted_intermediate, ein1 L.abij L.abji Q.contracted_intermediate, ein1 L.abij L.baij Q.contracted_intermediate, ein1 L.abij L.baji Q.contracted_intermediate],
    set1 X.contracted_intermediate (ein4 L.maej L.kldc L.edil L.cbkm L.abij Q.g_bbbb_oavavaoa Q.l2_bbbb Q.t2_bbbb Q.t2_bbbb),
    .aug X.doubles_res [.arg Q.contracted_intermediate, ein1 L.abij L.abji Q.contracted_intermediate, ein1 L.abij L.baij Q.contracted_intermediate, ein1 L.abij L.baji Q.contracted_intermediate],
    set1 X.contracted_intermediate (ein4 L.maej L.kldc L.ebkl L.dcmi L.abij Q.g_abab_oavavaoa Q.l2_abab Q.t2_abab Q.t2_abab),
    .aug X.doubles_res [.arg Q.contracted_intermediate, ein1 L.abij L.abji Q.contracted_intermediate, ein1 L.abij L.baij Q.contracted_intermediate, ein1 L.abij L.baji Q.contracted_intermediate],
    set1 X.contracted_intermediate (ein4 L.maej L.klcd L.ebkl L.cdmi L.abij Q.g_abab_oavavaoa Q.l2_abab Q.t2_abab Q.t2_abab),
    .aug X.doubles_res [.arg Q.contracted_intermediate, ein1 L.abij L.abji Q.contracted_intermediate, ein1 L.abij L.baij Q.contracted_intermediate, ein1 L.abij L.baji Q.contracted_intermediate],
    set1 X.contracted_intermediate (ein4 L.maej L.lkdc L.eblk L.dcmi L.abij Q.g_abab_oavavaoa Q.l2_abab Q.t2_abab Q.t2_abab),
    .aug X.doubles_res [.arg Q.contracted_intermediate, ein1 L.abij L.abji Q.contracted_intermediate, ein1 L.abij L.baij Q.contracted_intermediate, ein1 L.abij L.baji Q.contracted_intermediate],
    set1 X.contracted_intermediate (ein4 L.maej L.lkcd L.eblk L.cdmi L.abij Q.g_abab_oavavaoa Q.l2_abab Q.t2_abab Q.t2_abab),
    .aug X.doubles_res [.arg Q.contracted_intermediate, ein1 L.abij L.abji Q.contracted_intermediate, ein1 L.abij L.baij Q.contracted_intermediate, ein1 L.abij L.baji Q.contracted_intermediate],
    set1 X.contracted_intermediate (ein4 L.maej L.kldc L.ebkl L.dcim L.abij Q.g_bbbb_oavavaoa Q.l2_bbbb Q.t2_bbbb Q.t2_bbbb),
    .aug X.doubles_res [.arg Q.contracted_intermediate, ein1 L.abij L.abji Q.contracted_intermediate, ein1 L.abij L.baij Q.contracted_intermediate, ein1 L.abij L.baji Q.contracted_intermediate],
    set1 X.contracted_intermediate (ein4 L.maej L.kldc L.ebli L.dckm L.abij Q.g_abab_oavavaoa Q.l2_aaaa Q.t2_abab Q.t2_aaaa),
    .aug X.doubles_res [.arg Q.contracted_intermediate, ein1 L.abij L.abji Q.contracted_intermediate, ein1 L.abij L.baij Q.contracted_intermediate, ein1 L.abij L.baji Q.contracted_intermediate],
    set1 X.contracted_intermediate (ein4 L.maej L.kldc L.ebil L.dckm L.abij Q.g_bbbb_oavavaoa Q.l2_abab Q.t2_bbbb Q.t2_abab),
    .aug X.doubles_res [.arg Q.contracted_intermediate, ein1 L.abij L.abji Q.contracted_intermediate, ein1 L.abij L.baij Q.contracted_intermediate, ein1 L.abij L.baji Q.contracted_intermediate],
    set1 X.contracted_intermediate (ein4 L.maej L.klcd L.ebil L.cdkm L.abij Q.g_bbbb_oavavaoa Q.l2_abab Q.t2_bbbb Q.t2_abab),
    .aug X.doubles_res [.arg Q.contracted_intermediate, ein1 L.abij L.abji Q.contracted_intermediate, ein1 L.abij L.baij Q.contracted_intermediate, ein1 L.abij L.baji Q.contracted_intermediate],
    set1 X.contracted_intermediate (ein4 L.maej L.lkdc L.ebli L.dcmk L.abij Q.g_abab_oavavaoa Q.l2_abab Q.t2_abab Q.t2_abab),
    .aug X.doubles_res [.arg Q.contracted_intermediate, ein1 L.abij L.abji Q.contracted_intermediate, ein1 L.abij L.baij Q.contracted_intermediate, ein1 L.abij L.baji Q.contracted_intermediate],
    set1 X.contracted_intermediate (ein4 L.maej L.lkcd L.ebli L.cdmk L.abij Q.g_abab_oavavaoa Q.l2_abab Q.t2_abab Q.t2_abab),
    .aug X.doubles_res [.arg Q.contracted_intermediate, ein1 L.abij L.abji Q.contracted_intermediate, ein1 L.abij L.baij Q.contracted_intermediate, ein1 L.abij L.baji Q.contracted_intermediate],
    set1 X.contracted_intermediate (ein4 L.maej L.kldc L.ebil L.dckm L.abij Q.g_bbbb_oavavaoa Q.l2_bbbb Q.t2_bbbb Q.t2_bbbb),
    .aug X.doubles_res [.arg Q.contracted_intermediate, ein1 L.abij L.abji Q.contracted_intermediate, ein1 L.abij L.baij Q.contracted_intermediate, ein1 L.abij L.baji Q.contracted_intermediate],
    aug1 X.doubles_res (ein4 L.dcef L.kldc L.eakl L.fbij L.abij Q.g_abab_vavavava Q.l2_abab Q.t2_abab Q.t2_bbbb),
    aug1 X.doubles_res (ein4 L.cdef L.klcd L.eakl L.fbij L.abij Q.g_abab_vavavava Q.l2_abab Q.t2_abab Q.t2_bbbb),
    aug1 X.doubles_res (ein4 L.dcef L.lkdc L.ealk L.fbij L.abij Q.g_abab_vavavava Q.l2_abab Q.t2_abab Q.t2_bbbb),
    aug1 X.doubles_res (ein4 L.cdef L.lkcd L.ealk L.fbij L.abij Q.g_abab_vavavava Q.l2_abab Q.t2_abab Q.t2_bbbb),
    aug1 X.doubles_res (ein4 L.dcef L.kldc L.eakl L.fbij L.abij Q.g_bbbb_vavavava Q.l2_bbbb Q.t2_bbbb Q.t2_bbbb),
    set1 X.contracted_intermediate (ein4 L.dcef L.kldc L.ealj L.fbki L.abij Q.g_aaaa_vavavava Q.l2_aaaa Q.t2_abab Q.t2_abab),
    .aug X.doubles_res [.arg Q.contracted_intermediate, ein1 L.abij L.abji Q.contracted_intermediate],
    set1 X.contracted_intermediate (ein4 L.dcfe L.kldc L.eajl L.fbki L.abij Q.g_abab_vavavava Q.l2_abab Q.t2_bbbb Q.t2_abab),
    .aug X.doubles_res [.arg Q.contracted_intermediate, ein1 L.abij L.abji Q.contracted_intermediate],
    set1 X.contracted_intermediate (ein4 L.cdfe L.klcd L.eajl L.fbki L.abij Q.g_abab_vavavava Q.l2_abab Q.t2_bbbb Q.t2_abab),
    .aug X.doubles_res [.arg Q.contracted_intermediate, ein1 L.abij L.abji Q.contracted_intermediate],
    set1 X.contracted_intermediate (ein4 L.dcef L.lkdc L.ealj L.fbik L.abij Q.g_abab_vavavava Q.l2_abab Q.t2_abab Q.t2_bbbb),
    .aug X.doubles_res [.arg Q.contracted_intermediate, ein1 L.abij L.abji Q.contracted_intermediate],
    set1 X.contracted_intermediate (ein4 L.cdef L.lkcd L.ealj L.fbik L.abij Q.g_abab_vavavava Q.l2_abab Q.t2_abab Q.t2_bbbb),
    .aug X.doubles_res [.arg Q.contracted_intermediate, ein1 L.abij L.abji Q.contracted_intermediate],
    set1 X.contracted_intermediate (ein4 L.dcef L.kldc L.eajl L.fbik L.abij Q.g_bbbb_vavavava Q.l2_bbbb Q.t2_bbbb Q.t2_bbbb),
    .aug X.doubles_res [.arg Q.contracted_intermediate, ein1 L.abij L.abji Q.contracted_intermediate],
    aug1 X.doubles_res (ein4 L.dcfe L.kldc L.eaij L.fbkl L.abij Q.g_abab_vavavava Q.l2_abab Q.t2_bbbb Q.t2_abab),
    aug1 X.doubles_res (ein4 L.cdfe L.klcd L.eaij L.fbkl L.abij Q.g_abab_vavavava Q.l2_abab Q.t2_bbbb Q.t2_abab),
    aug1 X.doubles_res (ein4 L.dcfe L.lkdc L.eaij L.fblk L.abij Q.g_abab_vavavava Q.l2_abab Q.t2_bbbb Q.t2_abab),
    aug1 X.doubles_res (ein4 L.cdfe L.lkcd L.eaij L.fblk L.abij Q.g_abab_vavavava Q.l2_abab Q.t2_bbbb Q.t2_abab),
    aug1 X.doubles_res (ein4 L.dcef L.kldc L.eaij L.fbkl L.abij Q.g_bbbb_vavavava Q.l2_bbbb Q.t2_bbbb Q.t2_bbbb),
    set1 X.contracted_intermediate (ein4 L.daef L.kldc L.eckl L.fbij L.abij Q.g_abab_vavavava Q.l2_aaaa Q.t2_aaaa Q.t2_bbbb),
    .aug X.doubles_res [.arg Q.contracted_intermediate, ein1 L.abij L.baij Q.contracted_intermediate],
    set1 X.contracted_intermediate (ein4 L.daef L.kldc L.eckl L.fbij L.abij Q.g_abab_vavavava Q.l2_abab Q.t2_abab Q.t2_bbbb),
    .aug X.doubles_res [.arg Q.contracted_intermediate, ein1 L.abij L.baij Q.contracted_intermediate],
    set1 X.contracted_intermediate (ein4 L.daef L.klcd L.cekl L.fbij L.abij Q.g_bbbb_vavavava Q.l2_abab Q.t2_abab Q.t2_bbbb),
    .aug X.doubles_res [.arg Q.contracted_intermediate, ein1 L.abij L.baij Q.contracted_intermediate],
    set1 X.contracted_intermediate (ein4 L.daef L.lkdc L.eclk L.fbij L.abij Q.g_abab_vavavava Q.l2_abab Q.t2_abab Q.t2_bbbb),
    .aug X.doubles_res [.arg Q.contracted_intermediate, ein1 L.abij L.baij Q.contracted_intermediate],
    set1 X.contracted_intermediate (ein4 L.daef L.lkcd L.celk L.fbij L.abij Q.g_bbbb_vavavava Q.l2_abab Q.t2_abab Q.t2_bbbb),
    .aug X.doubles_res [.arg Q.contracted_intermediate, ein1 L.abij L.baij Q.contracted_intermediate],
    set1 X.contracted_intermediate (ein4 L.daef L.kldc L.eckl L.fbij L.abij Q.g_bbbb_vavavava Q.l2_bbbb Q.t2_bbbb Q.t2_bbbb),
    .aug X.doubles_res [.arg Q.contracted_intermediate, ein1 L.abij L.baij Q.contracted_intermediate],
    set1 X.contracted_intermediate (ein4 L.dafe L.kldc L.celj L.fbki L.abij Q.g_abab_vavavava Q.l2_aaaa Q.t2_abab Q.t2_abab),
    .aug X.doubles_res [.arg Q.contracted_intermediate, ein1 L.abij L.abji Q.contracted_intermediate, ein1 L.abij L.baij Q.contracted_intermediate, ein1 L.abij L.baji Q.contracted_intermediate],
    set1 X.contracted_intermediate (ein4 L.dafe L.kldc L.ecjl L.fbki L.abij Q.g_abab_vavavava Q.l2_abab Q.t2_bbbb Q.t2_abab),
    .aug X.doubles_res [.arg Q.contracted_intermediate, ein1 L.abij L.abji Q.contracted_intermediate, ein1 L.abij L.baij Q.contracted_intermediate, ein1 L.abij L.baji Q.contracted_intermediate],
    set1 X.contracted_intermediate (ein4 L.daef L.lkdc L.eclj L.fbik L.abij Q.g_abab_vavavava Q.l2_abab Q.t2_abab Q.t2_bbbb),
    .aug X.doubles_res [.arg Q.contracted_intermediate, ein1 L.abij L.abji Q.contracted_intermediate, ein1 L.abij L.baij Q.contracted_intermediate, ein1 L.abij L.baji Q.contracted_intermediate],
    set1 X.contracted_intermediate (ein4 L.daef L.lkcd L.celj L.fbik L.abij Q.g_bbbb_vavavava Q.l2_abab Q.t2_abab Q.t2_bbbb),
    .aug X.doubles_res [.arg Q.contracted_intermediate, ein1 L.abij L.abji Q.contracted_intermediate, ein1 L.abij L.baij Q.contracted_intermediate, ein1 L.abij L.baji Q.contracted_intermediate],
    set1 X.contracted_intermediate (ein4 L.daef L.kldc L.ecjl L.fbik L.abij Q.g_bbbb_vavavava Q.l2_bbbb Q.t2_bbbb Q.t2_bbbb),
    .aug X.doubles_res [.arg Q.contracted_intermediate, ein1 L.abij L.abji Q.contracted_intermediate, ein1 L.abij L.baij Q.contracted_intermediate, ein1 L.abij L.baji Q.contracted_intermediate],
    set1 X.contracted_intermediate (ein4 L.dafe L.kldc L.ecij L.fbkl L.abij Q.g_abab_vavavava Q.l2_abab Q.t2_bbbb Q.t2_abab),
    .aug X.doubles_res [.arg Q.contracted_intermediate, ein1 L.abij L.baij Q.contracted_intermediate],
    set1 X.contracted_intermediate (ein4 L.dafe L.lkdc L.ecij L.fblk L.abij Q.g_abab_vavavava Q.l2_abab Q.t2_bbbb Q.t2_abab),
    .aug X.doubles_res [.arg Q.contracted_intermediate, ein1 L.abij L.baij Q.contracted_intermediate],
    set1 X.contracted_intermediate (ein4 L.daef L.kldc L.ecij L.fbkl L.abij Q.g_bbbb_vavavava Q.l2_bbbb Q.t2_bbbb Q.t2_bbbb),
    .aug X.doubles_res [.arg Q.contracted_intermediate, ein1 L.abij L.baij Q.contracted_intermediate],
    aug1 X.doubles_res (ein4 L.abef L.kldc L.dekl L.fcij L.abij Q.g_bbbb_vavavava Q.l2_abab Q.t2_abab Q.t2_bbbb),
    aug1 X.doubles_res (ein4 L.abef L.lkdc L.delk L.fcij L.abij Q.g_bbbb_vavavava Q.l2_abab Q.t2_abab Q.t2_bbbb),
    aug1 X.doubles_res (ein4 L.abef L.kldc L.edkl L.fcij L.abij Q.g_bbbb_vavavava Q.l2_bbbb Q.t2_bbbb Q.t2_bbbb),
    set1 X.contracted_intermediate (ein4 L.abef L.kldc L.delj L.cfki L.abij Q.g_bbbb_vavavava Q.l2_aaaa Q.t2_abab Q.t2_abab),
    .aug X.doubles_res [.arg Q.contracted_intermediate, ein1 L.abij L.abji Q.contracted_intermediate],
    set1 X.contracted_intermediate (ein4 L.abef L.klcd L.edjl L.cfki L.abij Q.g_bbbb_vavavava Q.l2_abab Q.t2_bbbb Q.t2_abab),
    .aug X.doubles_res [.arg Q.contracted_intermediate, ein1 L.abij L.abji Q.contracted_intermediate],
    set1 X.contracted_intermediate (ein4 L.abef L.lkdc L.delj L.fcik L.abij Q.g_bbbb_vavavava Q.l2_abab Q.t2_abab Q.t2_bbbb),
    .aug X.doubles_res [.arg Q.contracted_intermediate, ein1 L.abij L.abji Q.contracted_intermediate],
    set1 X.contracted_intermediate (ein4 L.abef L.kldc L.edjl L.fcik L.abij Q.g_bbbb_vavavava Q.l2_bbbb Q.t2_bbbb Q.t2_bbbb),
    .aug X.doubles_res [.arg Q.contracted_intermediate, ein1 L.abij L.abji Q.contracted_intermediate],
    aug1 X.doubles_res (ein3 L.mdkl L.kldc L.cabmji L.abij Q.g_aaaa_oavaoaoa Q.l2_aaaa Q.t3_abbabb),
    aug1 X.doubles_res (ein3 L.dmkl L.kldc L.cabijm L.abij Q.g_abab_vaoaoaoa Q.l2_abab Q.t3_bbbbbb),
    aug1 X.doubles_res (ein3 L.mdkl L.klcd L.cabmji L.abij Q.g_abab_oavaoaoa Q.l2_abab Q.t3_abbabb),
    aug1 X.doubles_res (ein3 L.dmlk L.lkdc L.cabijm L.abij Q.g_abab_vaoaoaoa Q.l2_abab Q.t3_bbbbbb),
    aug1 X.doubles_res (ein3 L.mdlk L.lkcd L.cabmji L.abij Q.g_abab_oavaoaoa Q.l2_abab Q.t3_abbabb),
    aug1 X.doubles_res (ein3 L.mdkl L.kldc L.cabijm L.abij Q.g_bbbb_oavaoaoa Q.l2_bbbb Q.t3_bbbbbb),
    set1 X.contracted_intermediate (ein3 L.dmlj L.kldc L.cabkim L.abij Q.g_abab_vaoaoaoa Q.l2_aaaa Q.t3_abbabb),
    .aug X.doubles_res [.arg Q.contracted_intermediate, ein1 L.abij L.abji Q.contracted_intermediate],
    set1 X.contracted_intermediate (ein3 L.mdjl L.klcd L.cabkim L.abij Q.g_bbbb_oavaoaoa Q.l2_abab Q.t3_abbabb),
    .aug X.doubles_res [.arg Q.contracted_intermediate, ein1 L.abij L.abji Q.contracted_intermediate],
    set1 X.contracted_intermediate (ein3 L.dmlj L.lkdc L.cabikm L.abij Q.g_abab_vaoaoaoa Q.l2_abab Q.t3_bbbbbb),
    .aug X.doubles_res [.arg Q.contracted_intermediate, ein1 L.abij L.abji Q.contracted_intermediate],
    set1 X.contracted_intermediate (ein3 L.mdlj L.lkcd L.cabmki L.abij Q.g_abab_oavaoaoa Q.l2_abab Q.t3_abbabb),
    .aug X.doubles_res [.arg Q.contracted_intermediate, ein1 L.abij L.abji Q.contracted_intermediate],
    set1 X.contracted_intermediate (ein3 L.mdjl L.kldc L.cabikm L.abij Q.g_bbbb_oavaoaoa Q.l2_bbbb Q.t3_bbbbbb),
    .aug X.doubles_res [.arg Q.contracted_intermediate, ein1 L.abij L.abji Q.contracted_intermediate],
    aug1 X.doubles_res (ein3 L.mdij L.klcd L.cabklm L.abij Q.g_bbbb_oavaoaoa Q.l2_abab Q.t3_abbabb),
    aug1 X.doubles_res (ein3 L.mdij L.lkcd L.cablkm L.abij Q.g_bbbb_oavaoaoa Q.l2_abab Q.t3_abbabb),
    aug1 X.doubles_res (ein3 L.mdij L.kldc L.cabklm L.abij Q.g_bbbb_oavaoaoa Q.l2_bbbb Q.t3_bbbbbb),
    set1 X.contracted_intermediate (ein3 L.makl L.kldc L.dcbmji L.abij Q.g_abab_oavaoaoa Q.l2_abab Q.t3_abbabb),
    .aug X.doubles_res [.arg Q.contracted_intermediate, ein1 L.abij L.baij Q.contracted_intermediate],
    set1 X.contracted_intermediate (ein3 L.makl L.klcd L.cdbmji L.abij Q.g_abab_oavaoaoa Q.l2_abab Q.t3_abbabb),
    .aug X.doubles_res [.arg Q.contracted_intermediate, ein1 L.abij L.baij Q.contracted_intermediate],
    set1 X.contracted_intermediate (ein3 L.malk L.lkdc L.dcbmji L.abij Q.g_abab_oavaoaoa Q.l2_abab Q.t3_abbabb),
    .aug X.doubles_res [.arg Q.contracted_intermediate, ein1 L.abij L.baij Q.contracted_intermediate],
    set1 X.contracted_intermediate (ein3 L.malk L.lkcd L.cdbmji L.abij Q.g_abab_oavaoaoa Q.l2_abab Q.t3_abbabb),
    .aug X.doubles_res [.arg Q.contracted_intermediate, ein1 L.abij L.baij Q.contracted_intermediate],
    set1 X.contracted_intermediate (ein3 L.makl L.kldc L.dcbijm L.abij Q.g_bbbb_oavaoaoa Q.l2_bbbb Q.t3_bbbbbb),
    .aug X.doubles_res [.arg Q.contracted_intermediate, ein1 L.abij L.baij Q.contracted_intermediate],
    set1 X.contracted_intermediate (ein3 L.malj L.kldc L.dcbmki L.abij Q.g_abab_oavaoaoa Q.l2_aaaa Q.t3_aabaab),
    .aug X.doubles_res [.arg Q.contracted_intermediate, ein1 L.abij L.abji Q.contracted_intermediate, ein1 L.abij L.baij Q.contracted_intermediate, ein1 L.abij L.baji Q.contracted_intermediate],
    set1 X.contracted_intermediate (ein3 L.majl L.kldc L.dcbkim L.abij Q.g_bbbb_oavaoaoa Q.l2_abab Q.t3_abbabb),
    .aug X.doubles_res [.arg Q.contracted_intermediate, ein1 L.abij L.abji Q.contracted_intermediate, ein1 L.abij L.baij Q.contracted_intermediate, ein1 L.abij L.baji Q.contracted_intermediate],
    set1 X.contracted_intermediate (ein3 L.majl L.klcd L.cdbkim L.abij Q.g_bbbb_oavaoaoa Q.l2_abab Q.t3_abbabb),
    .aug X.doubles_res [.arg Q.contracted_intermediate, ein1 L.abij L.abji Q.contracted_intermediate, ein1 L.abij L.baij Q.contracted_intermediate, ein1 L.abij L.baji Q.contracted_intermediate],
    set1 X.contracted_intermediate (ein3 L.malj L.lkdc L.dcbmki L.abij Q.g_abab_oavaoaoa Q.l2_abab Q.t3_abbabb),
    .aug X.doubles_res [.arg Q.contracted_intermediate, ein1 L.abij L.abji Q.contracted_intermediate, ein1 L.abij L.baij Q.contracted_intermediate, ein1 L.abij L.baji Q.contracted_intermediate],
    set1 X.contracted_intermediate (ein3 L.malj L.lkcd L.cdbmki L.abij Q.g_abab_oavaoaoa Q.l2_abab Q.t3_abbabb),
    .aug X.doubles_res [.arg Q.contracted_intermediate, ein1 L.abij L.abji Q.contracted_intermediate, ein1 L.abij L.baij Q.contracted_intermediate, ein1 L.abij L.baji Q.contracted_intermediate],
    set1 X.contracted_intermediate (ein3 L.majl L.kldc L.dcbikm L.abij Q.g_bbbb_oavaoaoa Q.l2_bbbb Q.t3_bbbbbb),
    .aug X.doubles_res [.arg Q.contracted_intermediate, ein1 L.abij L.abji Q.contracted_intermediate, ein1 L.abij L.baij Q.contracted_intermediate, ein1 L.abij L.baji Q.contracted_intermediate],
    set1 X.contracted_intermediate (ein3 L.maij L.kldc L.dcbklm L.abij Q.g_bbbb_oavaoaoa Q.l2_aaaa Q.t3_aabaab),
    .aug X.doubles_res [.arg Q.contracted_intermediate, ein1 L.abij L.baij Q.contracted_intermediate],
    set1 X.contracted_intermediate (ein3 L.maij L.kldc L.dcbklm L.abij Q.g_bbbb_oavaoaoa Q.l2_abab Q.t3_abbabb),
    .aug X.doubles_res [.arg Q.contracted_intermediate, ein1 L.abij L.baij Q.contracted_intermediate],
    set1 X.contracted_intermediate (ein3 L.maij L.klcd L.cdbklm L.abij Q.g_bbbb_oavaoaoa Q.l2_abab Q.t3_abbabb),
    .aug X.doubles_res [.arg Q.contracted_intermediate, ein1 L.abij L.baij Q.contracted_intermediate],
    set1 X.contracted_intermediate (ein3 L.maij L.lkdc L.dcblkm L.abij Q.g_bbbb_oavaoaoa Q.l2_abab Q.t3_abbabb),
    .aug X.doubles_res [.arg Q.contracted_intermediate, ein1 L.abij L.baij Q.contracted_intermediate],
    set1 X.contracted_intermediate (ein3 L.maij L.lkcd L.cdblkm L.abij Q.g_bbbb_oavaoaoa Q.l2_abab Q.t3_abbabb),
    .aug X.doubles_res [.arg Q.contracted_intermediate, ein1 L.abij L.baij Q.contracted_intermediate],
    set1 X.contracted_intermediate (ein3 L.maij L.kldc L.dcbklm L.abij Q.g_bbbb_oavaoaoa Q.l2_bbbb Q.t3_bbbbbb),
    .aug X.doubles_res [.arg Q.contracted_intermediate, ein1 L.abij L.baij Q.contracted_intermediate],
    aug1 X.doubles_res (ein3 L.dcel L.kldc L.eabkji L.abij Q.g_aaaa_vavavaoa Q.l2_aaaa Q.t3_abbabb),
    aug1 X.doubles_res (ein3 L.dcel L.kldc L.eabkji L.abij Q.g_abab_vavavaoa Q.l2_abab Q.t3_abbabb),
    aug1 X.doubles_res (ein3 L.cdel L.klcd L.eabkji L.abij Q.g_abab_vavavaoa Q.l2_abab Q.t3_abbabb),
    aug1 X.doubles_res (ein3 L.dcle L.lkdc L.eabijk L.abij Q.g_abab_vavaoava Q.l2_abab Q.t3_bbbbbb),
    aug1 X.doubles_res (ein3 L.cdle L.lkcd L.eabijk L.abij Q.g_abab_vavaoava Q.l2_abab Q.t3_bbbbbb),
    aug1 X.doubles_res (ein3 L.dcel L.kldc L.eabijk L.abij Q.g_bbbb_vavavaoa Q.l2_bbbb Q.t3_bbbbbb),
    set1 X.contracted_intermediate (ein3 L.dcej L.kldc L.eabkil L.abij Q.g_abab_vavavaoa Q.l2_abab Q.t3_abbabb),
    .aug X.doubles_res [.arg Q.contracted_intermediate, ein1 L.abij L.abji Q.contracted_intermediate],
    set1 X.contracted_intermediate (ein3 L.cdej L.klcd L.eabkil L.abij Q.g_abab_vavavaoa Q.l2_abab Q.t3_abbabb),
    .aug X.doubles_res [.arg Q.contracted_intermediate, ein1 L.abij L.abji Q.contracted_intermediate],
    set1 X.contracted_intermediate (ein3 L.dcej L.lkdc L.eablki L.abij Q.g_abab_vavavaoa Q.l2_abab Q.t3_abbabb),
    .aug X.doubles_res [.arg Q.contracted_intermediate, ein1 L.abij L.abji Q.contracted_intermediate],
    set1 X.contracted_intermediate (ein3 L.cdej L.lkcd L.eablki L.abij Q.g_abab_vavavaoa Q.l2_abab Q.t3_abbabb),
    .aug X.doubles_res [.arg Q.contracted_intermediate, ein1 L.abij L.abji Q.contracted_intermediate],
    set1 X.contracted_intermediate (ein3 L.dcej L.kldc L.eabikl L.abij Q.g_bbbb_vavavaoa Q.l2_bbbb Q.t3_bbbbbb),
    .aug X.doubles_res [.arg Q.contracted_intermediate, ein1 L.abij L.abji Q.contracted_intermediate],
    set1 X.contracted_intermediate (ein3 L.dale L.kldc L.cebkji L.abij Q.g_abab_vavaoava Q.l2_aaaa Q.t3_abbabb),
    .aug X.doubles_res [.arg Q.contracted_intermediate, ein1 L.abij L.baij Q.contracted_intermediate],
    set1 X.contracted_intermediate (ein3 L.dael L.kldc L.ecbkji L.abij Q.g_abab_vavavaoa Q.l2_abab Q.t3_abbabb),
    .aug X.doubles_res [.arg Q.contracted_intermediate, ein1 L.abij L.baij Q.contracted_intermediate],
    set1 X.contracted_intermediate (ein3 L.dael L.klcd L.cebkji L.abij Q.g_bbbb_vavavaoa Q.l2_abab Q.t3_abbabb),
    .aug X.doubles_res [.arg Q.contracted_intermediate, ein1 L.abij L.baij Q.contracted_intermediate],
    set1 X.contracted_intermediate (ein3 L.dale L.lkdc L.ecbijk L.abij Q.g_abab_vavaoava Q.l2_abab Q.t3_bbbbbb),
    .aug X.doubles_res [.arg Q.contracted_intermediate, ein1 L.abij L.baij Q.contracted_intermediate],
    set1 X.contracted_intermediate (ein3 L.dael L.kldc L.ecbijk L.abij Q.g_bbbb_vavavaoa Q.l2_bbbb Q.t3_bbbbbb),
    .aug X.doubles_res [.arg Q.contracted_intermediate, ein1 L.abij L.baij Q.contracted_intermediate],
    set1 X.contracted_intermediate (ein3 L.daej L.kldc L.ecblki L.abij Q.g_abab_vavavaoa Q.l2_aaaa Q.t3_aabaab),
    .aug X.doubles_res [.arg Q.contracted_intermediate, ein1 L.abij L.abji Q.contracted_intermediate, ein1 L.abij L.baij Q.contracted_intermediate, ein1 L.abij L.baji Q.contracted_intermediate],
    set1 X.contracted_intermediate (ein3 L.daej L.kldc L.ecbkil L.abij Q.g_abab_vavavaoa Q.l2_abab Q.t3_abbabb),
    .aug X.doubles_res [.arg Q.contracted_intermediate, ein1 L.abij L.abji Q.contracted_intermediate, ein1 L.abij L.baij Q.contracted_intermediate, ein1 L.abij L.baji Q.contracted_intermediate],
    set1 X.contracted_intermediate (ein3 L.daej L.klcd L.cebkil L.abij Q.g_bbbb_vavavaoa Q.l2_abab Q.t3_abbabb),
    .aug X.doubles_res [.arg Q.contracted_intermediate, ein1 L.abij L.abji Q.contracted_intermediate, ein1 L.abij L.baij Q.contracted_intermediate, ein1 L.abij L.baji Q.contracted_intermediate],
    set1 X.contracted_intermediate (ein3 L.daej L.lkdc L.ecblki L.abij Q.g_abab_vavavaoa Q.l2_abab Q.t3_abbabb),
    .aug X.doubles_res [.arg Q.contracted_intermediate, ein1 L.abij L.abji Q.contracted_intermediate, ein1 L.abij L.baij Q.contracted_intermediate, ein1 L.abij L.baji Q.contracted_intermediate],
    set1 X.contracted_intermediate (ein3 L.daej L.lkcd L.ceblki L.abij Q.g_bbbb_vavavaoa Q.l2_abab Q.t3_abbabb),
    .aug X.doubles_res [.arg Q.contracted_intermediate, ein1 L.abij L.abji Q.contracted_intermediate, ein1 L.abij L.baij Q.contracted_intermediate, ein1 L.abij L.baji Q.contracted_intermediate],
    set1 X.contracted_intermediate (ein3 L.daej L.kldc L.ecbikl L.abij Q.g_bbbb_vavavaoa Q.l2_bbbb Q.t3_bbbbbb),
    .aug X.doubles_res [.arg Q.contracted_intermediate, ein1 L.abij L.abji Q.contracted_intermediate, ein1 L.abij L.baij Q.contracted_intermediate, ein1 L.abij L.baji Q.contracted_intermediate],
    aug1 X.doubles_res (ein3 L.abel L.kldc L.deckji L.abij Q.g_bbbb_vavavaoa Q.l2_abab Q.t3_abbabb),
    aug1 X.doubles_res (ein3 L.abel L.klcd L.cdekji L.abij Q.g_bbbb_vavavaoa Q.l2_abab Q.t3_abbabb),
    aug1 X.doubles_res (ein3 L.abel L.kldc L.edcijk L.abij Q.g_bbbb_vavavaoa Q.l2_bbbb Q.t3_bbbbbb),
    set1 X.contracted_intermediate (ein3 L.abej L.kldc L.cdelki L.abij Q.g_bbbb_vavavaoa Q.l2_aaaa Q.t3_aabaab),
    .aug X.doubles_res [.arg Q.contracted_intermediate, ein1 L.abij L.abji Q.contracted_intermediate],
    set1 X.contracted_intermediate (ein3 L.abej L.kldc L.deckil L.abij Q.g_bbbb_vavavaoa Q.l2_abab Q.t3_abbabb),
    .aug X.doubles_res [.arg Q.contracted_intermediate, ein1 L.abij L.abji Q.contracted_intermediate],
    set1 X.contracted_intermediate (ein3 L.abej L.klcd L.cdekil L.abij Q.g_bbbb_vavavaoa Q.l2_abab Q.t3_abbabb),
    .aug X.doubles_res [.arg Q.contracted_intermediate, ein1 L.abij L.abji Q.contracted_intermediate],
    set1 X.contracted_intermediate (ein3 L.abej L.lkdc L.declki L.abij Q.g_bbbb_vavavaoa Q.l2_abab Q.t3_abbabb),
    .aug X.doubles_res [.arg Q.contracted_intermediate, ein1 L.abij L.abji Q.contracted_intermediate],
    set1 X.contracted_intermediate (ein3 L.abej L.lkcd L.cdelki L.abij Q.g_bbbb_vavavaoa Q.l2_abab Q.t3_abbabb),
    .aug X.doubles_res [.arg Q.contracted_intermediate, ein1 L.abij L.abji Q.contracted_intermediate],
    set1 X.contracted_intermediate (ein3 L.abej L.kldc L.edcikl L.abij Q.g_bbbb_vavavaoa Q.l2_bbbb Q.t3_bbbbbb),
    .aug X.doubles_res [.arg Q.contracted_intermediate, ein1 L.abij L.abji Q.contracted_intermediate]]
  ret := [Q.doubles_res]

/-- `testing_modifyT2eqns_with_T4.py` 1665-3143: `ccsdt_t2_abab_residual_Qf`; 490 einsum calls. -/
def testing_modifyT2eqns_with_T4_ccsdt_t2_abab_residual_Qf : Fn where
  params := [X.g_abab, X.l2_abab, X.t2_abab, X.g_bbbb, X.l2_bbbb, X.t2_bbbb, X.g_aaaa, X.l2_aaaa, X.t2_aaaa, X.t3_aabaab, X.t3_abbabb, X.t3_aaaaaa, X.t3_bbbbbb]
  body := [
    set1 X.doubles_res (ein4 L.mnkl L.kldc L.dcmj L.abin L.abij Q.g_abab_oaoaoaoa Q.l2_abab Q.t2_abab Q.t2_abab),
    aug1 X.doubles_res (ein4 L.mnkl L.klcd L.cdmj L.abin L.abij Q.g_abab_oaoaoaoa Q.l2_abab Q.t2_abab Q.t2_abab),
    aug1 X.doubles_res (ein4 L.mnlk L.lkdc L.dcmj L.abin L.abij Q.g_abab_oaoaoaoa Q.l2_abab Q.t2_abab Q.t2_abab),
    aug1 X.doubles_res (ein4 L.mnlk L.lkcd L.cdmj L.abin L.abij Q.g_abab_oaoaoaoa Q.l2_abab Q.t2_abab Q.t2_abab),
    aug1 X.doubles_res (ein4 L.nmkl L.kldc L.dcjm L.abin L.abij Q.g_bbbb_oaoaoaoa Q.l2_bbbb Q.t2_bbbb Q.t2_abab),
    aug1 X.doubles_res (ein4 L.nmkl L.kldc L.dcim L.abnj L.abij Q.g_aaaa_oaoaoaoa Q.l2_aaaa Q.t2_aaaa Q.t2_abab),
    aug1 X.doubles_res (ein4 L.nmkl L.kldc L.dcim L.abnj L.abij Q.g_abab_oaoaoaoa Q.l2_abab Q.t2_abab Q.t2_abab),
    aug1 X.doubles_res (ein4 L.nmkl L.klcd L.cdim L.abnj L.abij Q.g_abab_oaoaoaoa Q.l2_abab Q.t2_abab Q.t2_abab),
    aug1 X.doubles_res (ein4 L.nmlk L.lkdc L.dcim L.abnj L.abij Q.g_abab_oaoaoaoa Q.l2_abab Q.t2_abab Q.t2_abab),
    aug1 X.doubles_res (ein4 L.nmlk L.lkcd L.cdim L.abnj L.abij Q.g_abab_oaoaoaoa Q.l2_abab Q.t2_abab Q.t2_abab),
    aug1 X.doubles_res (ein4 L.mnkl L.klcd L.admj L.cbin L.abij Q.g_abab_oaoaoaoa Q.l2_abab Q.t2_abab Q.t2_abab),
    aug1 X.doubles_res (ein4 L.mnlk L.lkcd L.admj L.cbin L.abij Q.g_abab_oaoaoaoa Q.l2_abab Q.t2_abab Q.t2_abab),
    aug1 X.doubles_res (ein4 L.nmkl L.kldc L.daim L.cbnj L.abij Q.g_aaaa_oaoaoaoa Q.l2_aaaa Q.t2_aaaa Q.t2_abab),
    aug1 X.doubles_res (ein4 L.mnkl L.kldc L.daim L.cbjn L.abij Q.g_abab_oaoaoaoa Q.l2_abab Q.t2_aaaa Q.t2_bbbb),
    aug1 X.doubles_res (ein4 L.nmkl L.klcd L.adim L.cbnj L.abij Q.g_abab_oaoaoaoa Q.l2_abab Q.t2_abab Q.t2_abab),
    aug1 X.doubles_res (ein4 L.mnlk L.lkdc L.daim L.cbjn L.abij Q.g_abab_oaoaoaoa Q.l2_abab Q.t2_aaaa Q.t2_bbbb),
    aug1 X.doubles_res (ein4 L.nmlk L.lkcd L.adim L.cbnj L.abij Q.g_abab_oaoaoaoa Q.l2_abab Q.t2_abab Q.t2_abab),
    aug1 X.doubles_res (ein4 L.nmkl L.kldc L.adim L.cbjn L.abij Q.g_bbbb_oaoaoaoa Q.l2_bbbb Q.t2_abab Q.t2_bbbb),
    aug1 X.doubles_res (ein4 L.mnlj L.kldc L.dckm L.abin L.abij Q.g_abab_oaoaoaoa Q.l2_aaaa Q.t2_aaaa Q.t2_abab),
    aug1 X.doubles_res (ein4 L.nmjl L.kldc L.dckm L.abin L.abij Q.g_bbbb_oaoaoaoa Q.l2_abab Q.t2_abab Q.t2_abab),
    aug1 X.doubles_res (ein4 L.nmjl L.klcd L.cdkm L.abin L.abij Q.g_bbbb_oaoaoaoa Q.l2_abab Q.t2_abab Q.t2_abab),
    aug1 X.doubles_res (ein4 L.mnlj L.lkdc L.dcmk L.abin L.abij Q.g_abab_oaoaoaoa Q.l2_abab Q.t2_abab Q.t2_abab),
    aug1 X.doubles_res (ein4 L.mnlj L.lkcd L.cdmk L.abin L.abij Q.g_abab_oaoaoaoa Q.l2_abab Q.t2_abab Q.t2_abab),
    aug1 X.doubles_res (ein4 L.nmjl L.kldc L.dckm L.abin L.abij Q.g_bbbb_oaoaoaoa Q.l2_bbbb Q.t2_bbbb Q.t2_abab),
    aug1 X.doubles_res (ein4 L.nmil L.kldc L.dckm L.abnj L.abij Q.g_aaaa_oaoaoaoa Q.l2_aaaa Q.t2_aaaa Q.t2_abab),
    aug1 X.doubles_res (ein4 L.nmil L.kldc L.dckm L.abnj L.abij Q.g_abab_oaoaoaoa Q.l2_abab Q.t2_abab Q.t2_abab),
    aug1 X.doubles_res (ein4 L.nmil L.klcd L.cdkm L.abnj L.abij Q.g_abab_oaoaoaoa Q.l2_abab Q.t2_abab Q.t2_abab),
    aug1 X.doubles_res (ein4 L.nmil L.lkdc L.dcmk L.abnj L.abij Q.g_aaaa_oaoaoaoa Q.l2_abab Q.t2_abab Q.t2_abab),
    aug1 X.doubles_res (ein4 L.nmil L.lkcd L.cdmk L.abnj L.abij Q.g_aaaa_oaoaoaoa Q.l2_abab Q.t2_abab Q.t2_abab),
    aug1 X.doubles_res (ein4 L.nmil L.kldc L.dckm L.abnj L.abij Q.g_abab_oaoaoaoa Q.l2_bbbb Q.t2_bbbb Q.t2_abab),
    aug1 X.doubles_res (ein4 L.mnlj L.kldc L.dcim L.abkn L.abij Q.g_abab_oaoaoaoa Q.l2_aaaa Q.t2_aaaa Q.t2_abab),
    aug1 X.doubles_res (ein4 L.nmjl L.kldc L.dcim L.abkn L.abij Q.g_bbbb_oaoaoaoa Q.l2_abab Q.t2_abab Q.t2_abab),
    aug1 X.doubles_res (ein4 L.nmjl L.klcd L.cdim L.abkn L.abij Q.g_bbbb_oaoaoaoa Q.l2_abab Q.t2_abab Q.t2_abab),
    aug1 X.doubles_res (ein4 L.nmlj L.lkdc L.dcim L.abnk L.abij Q.g_abab_oaoaoaoa Q.l2_abab Q.t2_abab Q.t2_abab),
    aug1 X.doubles_res (ein4 L.nmlj L.lkcd L.cdim L.abnk L.abij Q.g_abab_oaoaoaoa Q.l2_abab Q.t2_abab Q.t2_abab),
    aug1 X.doubles_res (ein4 L.mnil L.kldc L.dcmj L.abkn L.abij Q.g_abab_oaoaoaoa Q.l2_abab Q.t2_abab Q.t2_abab),
    aug1 X.doubles_res (ein4 L.mnil L.klcd L.cdmj L.abkn L.abij Q.g_abab_oaoaoaoa Q.l2_abab Q.t2_abab Q.t2_abab),
    aug1 X.doubles_res (ein4 L.nmil L.lkdc L.dcmj L.abnk L.abij Q.g_aaaa_oaoaoaoa Q.l2_abab Q.t2_abab Q.t2_abab),
    aug1 X.doubles_res (ein4 L.nmil L.lkcd L.cdmj L.abnk L.abij Q.g_aaaa_oaoaoaoa Q.l2_abab Q.t2_abab Q.t2_abab),
    aug1 X.doubles_res (ein4 L.nmil L.kldc L.dcjm L.abnk L.abij Q.g_abab_oaoaoaoa Q.l2_bbbb Q.t2_bbbb Q.t2_abab),
    aug1 X.doubles_res (ein4 L.mnlj L.kldc L.dakm L.cbin L.abij Q.g_abab_oaoaoaoa Q.l2_aaaa Q.t2_aaaa Q.t2_abab),
    aug1 X.doubles_res (ein4 L.nmjl L.klcd L.adkm L.cbin L.abij Q.g_bbbb_oaoaoaoa Q.l2_abab Q.t2_abab Q.t2_abab),
    aug1 X.doubles_res (ein4 L.mnlj L.lkcd L.admk L.cbin L.abij Q.g_abab_oaoaoaoa Q.l2_abab Q.t2_abab Q.t2_abab),
    aug1 X.doubles_res (ein4 L.nmil L.kldc L.dakm L.cbnj L.abij Q.g_aaaa_oaoaoaoa Q.l2_aaaa Q.t2_aaaa Q.t2_abab),
    aug1 X.doubles_res (ein4 L.mnil L.kldc L.dakm L.cbjn L.abij Q.g_abab_oaoaoaoa Q.l2_abab Q.t2_aaaa Q.t2_bbbb),
    aug1 X.doubles_res (ein4 L.nmil L.klcd L.adkm L.cbnj L.abij Q.g_abab_oaoaoaoa Q.l2_abab Q.t2_abab Q.t2_abab),
    aug1 X.doubles_res (ein4 L.nmil L.lkcd L.admk L.cbnj L.abij Q.g_aaaa_oaoaoaoa Q.l2_abab Q.t2_abab Q.t2_abab),
    aug1 X.doubles_res (ein4 L.mnil L.kldc L.admk L.cbjn L.abij Q.g_abab_oaoaoaoa Q.l2_bbbb Q.t2_abab Q.t2_bbbb),
    aug1 X.doubles_res (ein4 L.mnlj L.kldc L.daim L.cbkn L.abij Q.g_abab_oaoaoaoa Q.l2_aaaa Q.t2_aaaa Q.t2_abab),
    aug1 X.doubles_res (ein4 L.nmjl L.klcd L.adim L.cbkn L.abij Q.g_bbbb_oaoaoaoa Q.l2_abab Q.t2_abab Q.t2_abab),
    aug1 X.doubles_res (ein4 L.mnlj L.lkdc L.daim L.cbkn L.abij Q.g_abab_oaoaoaoa Q.l2_abab Q.t2_aaaa Q.t2_bbbb),
    aug1 X.doubles_res (ein4 L.nmlj L.lkcd L.adim L.cbnk L.abij Q.g_abab_oaoaoaoa Q.l2_abab Q.t2_abab Q.t2_abab),
    aug1 X.doubles_res (ein4 L.nmjl L.kldc L.adim L.cbkn L.abij Q.g_bbbb_oaoaoaoa Q.l2_bbbb Q.t2_abab Q.t2_bbbb),
    aug1 X.doubles_res (ein4 L.mnil L.klcd L.admj L.cbkn L.abij Q.g_abab_oaoaoaoa Q.l2_abab Q.t2_abab Q.t2_abab),
    aug1 X.doubles_res (ein4 L.nmil L.lkcd L.admj L.cbnk L.abij Q.g_aaaa_oaoaoaoa Q.l2_abab Q.t2_abab Q.t2_abab),
    aug1 X.doubles_res (ein4 L.mnil L.kldc L.admj L.cbkn L.abij Q.g_abab_oaoaoaoa Q.l2_bbbb Q.t2_abab Q.t2_bbbb),
    aug1 X.doubles_res (ein4 L.mnij L.kldc L.dclm L.abkn L.abij Q.g_abab_oaoaoaoa Q.l2_aaaa Q.t2_aaaa Q.t2_abab),
    aug1 X.doubles_res (ein4 L.mnij L.kldc L.dcml L.abkn L.abij Q.g_abab_oaoaoaoa Q.l2_abab Q.t2_abab Q.t2_abab),
    aug1 X.doubles_res (ein4 L.mnij L.klcd L.cdml L.abkn L.abij Q.g_abab_oaoaoaoa Q.l2_abab Q.t2_abab Q.t2_abab),
    aug1 X.doubles_res (ein4 L.nmij L.lkdc L.dclm L.abnk L.abij Q.g_abab_oaoaoaoa Q.l2_abab Q.t2_abab Q.t2_abab),
    aug1 X.doubles_res (ein4 L.nmij L.lkcd L.cdlm L.abnk L.abij Q.g_abab_oaoaoaoa Q.l2_abab Q.t2_abab Q.t2_abab),
    aug1 X.doubles_res (ein4 L.nmij L.kldc L.dclm L.abnk L.abij Q.g_abab_oaoaoaoa Q.l2_bbbb Q.t2_bbbb Q.t2_abab),
    aug1 X.doubles_res (ein4 L.mnij L.kldc L.dalm L.cbkn L.abij Q.g_abab_oaoaoaoa Q.l2_aaaa Q.t2_aaaa Q.t2_abab),
    aug1 X.doubles_res (ein4 L.mnij L.klcd L.adml L.cbkn L.abij Q.g_abab_oaoaoaoa Q.l2_abab Q.t2_abab Q.t2_abab),
    aug1 X.doubles_res (ein4 L.mnij L.lkdc L.dalm L.cbkn L.abij Q.g_abab_oaoaoaoa Q.l2_abab Q.t2_aaaa Q.t2_bbbb),
    aug1 X.doubles_res (ein4 L.nmij L.lkcd L.adlm L.cbnk L.abij Q.g_abab_oaoaoaoa Q.l2_abab Q.t2_abab Q.t2_abab),
    aug1 X.doubles_res (ein4 L.mnij L.kldc L.adml L.cbkn L.abij Q.g_abab_oaoaoaoa Q.l2_bbbb Q.t2_abab Q.t2_bbbb),
    aug1 X.doubles_res (ein4 L.nmij L.kldc L.dblm L.cakn L.abij Q.g_abab_oaoaoaoa Q.l2_aaaa Q.t2_abab Q.t2_aaaa),
    aug1 X.doubles_res (ein4 L.mnij L.kldc L.dbml L.ackn L.abij Q.g_abab_oaoaoaoa Q.l2_abab Q.t2_abab Q.t2_abab),
    aug1 X.doubles_res (ein4 L.nmij L.klcd L.dblm L.cakn L.abij Q.g_abab_oaoaoaoa Q.l2_abab Q.t2_bbbb Q.t2_aaaa),
    aug1 X.doubles_res (ein4 L.nmij L.lkdc L.dblm L.acnk L.abij Q.g_abab_oaoaoaoa Q.l2_abab Q.t2_abab Q.t2_abab),
    aug1 X.doubles_res (ein4 L.nmij L.kldc L.dblm L.acnk L.abij Q.g_abab_oaoaoaoa Q.l2_bbbb Q.t2_bbbb Q.t2_abab),
    aug1 X.doubles_res (ein4 L.dmle L.kldc L.cekj L.abim L.abij Q.g_abab_vaoaoava Q.l2_aaaa Q.t2_abab Q.t2_abab),
    aug1 X.doubles_res (ein4 L.dmel L.kldc L.eckj L.abim L.abij Q.g_abab_vaoavaoa Q.l2_abab Q.t2_abab Q.t2_abab),
    aug1 X.doubles_res (ein4 L.mdel L.klcd L.cekj L.abim L.abij Q.g_bbbb_oavavaoa Q.l2_abab Q.t2_abab Q.t2_abab),
    aug1 X.doubles_res (ein4 L.dmle L.lkdc L.ecjk L.abim L.abij Q.g_abab_vaoaoava Q.l2_abab Q.t2_bbbb Q.t2_abab),
    aug1 X.doubles_res (ein4 L.mdel L.kldc L.ecjk L.abim L.abij Q.g_bbbb_oavavaoa Q.l2_bbbb Q.t2_bbbb Q.t2_abab),
    aug1 X.doubles_res (ein4 L.mdel L.kldc L.ecik L.abmj L.abij Q.g_aaaa_oavavaoa Q.l2_aaaa Q.t2_aaaa Q.t2_abab),
    aug1 X.doubles_res (ein4 L.mdel L.klcd L.ecik L.abmj L.abij Q.g_abab_oavavaoa Q.l2_abab Q.t2_aaaa Q.t2_abab),
    aug1 X.doubles_res (ein4 L.mdel L.lkdc L.ecik L.abmj L.abij Q.g_aaaa_oavavaoa Q.l2_abab Q.t2_abab Q.t2_abab),
    aug1 X.doubles_res (ein4 L.mdle L.lkcd L.ceik L.abmj L.abij Q.g_abab_oavaoava Q.l2_abab Q.t2_abab Q.t2_abab),
    aug1 X.doubles_res (ein4 L.mdel L.kldc L.ecik L.abmj L.abij Q.g_abab_oavavaoa Q.l2_bbbb Q.t2_abab Q.t2_abab),
    aug1 X.doubles_res (ein4 L.dmle L.kldc L.ceij L.abkm L.abij Q.g_abab_vaoaoava Q.l2_aaaa Q.t2_abab Q.t2_abab),
    aug1 X.doubles_res (ein4 L.dmel L.kldc L.ecij L.abkm L.abij Q.g_abab_vaoavaoa Q.l2_abab Q.t2_abab Q.t2_abab),
    aug1 X.doubles_res (ein4 L.mdel L.klcd L.ceij L.abkm L.abij Q.g_bbbb_oavavaoa Q.l2_abab Q.t2_abab Q.t2_abab),
    aug1 X.doubles_res (ein4 L.mdel L.lkdc L.ecij L.abmk L.abij Q.g_aaaa_oavavaoa Q.l2_abab Q.t2_abab Q.t2_abab),
    aug1 X.doubles_res (ein4 L.mdle L.lkcd L.ceij L.abmk L.abij Q.g_abab_oavaoava Q.l2_abab Q.t2_abab Q.t2_abab),
    aug1 X.doubles_res (ein4 L.mdel L.kldc L.ecij L.abmk L.abij Q.g_abab_oavavaoa Q.l2_bbbb Q.t2_abab Q.t2_abab),
    aug1 X.doubles_res (ein4 L.dmle L.kldc L.aekj L.cbim L.abij Q.g_abab_vaoaoava Q.l2_aaaa Q.t2_abab Q.t2_abab),
    aug1 X.doubles_res (ein4 L.mdel L.klcd L.aekj L.cbim L.abij Q.g_bbbb_oavavaoa Q.l2_abab Q.t2_abab Q.t2_abab),
    aug1 X.doubles_res (ein4 L.mdel L.kldc L.ebkj L.caim L.abij Q.g_aaaa_oavavaoa Q.l2_aaaa Q.t2_abab Q.t2_aaaa),
    aug1 X.doubles_res (ein4 L.dmel L.kldc L.ebkj L.acim L.abij Q.g_abab_vaoavaoa Q.l2_abab Q.t2_abab Q.t2_abab),
    aug1 X.doubles_res (ein4 L.mdel L.klcd L.ebkj L.caim L.abij Q.g_abab_oavavaoa Q.l2_abab Q.t2_abab Q.t2_aaaa),
    aug1 X.doubles_res (ein4 L.dmle L.lkdc L.ebjk L.acim L.abij Q.g_abab_vaoaoava Q.l2_abab Q.t2_bbbb Q.t2_abab),
    aug1 X.doubles_res (ein4 L.mdle L.lkcd L.ebjk L.caim L.abij Q.g_abab_oavaoava Q.l2_abab Q.t2_bbbb Q.t2_aaaa),
    aug1 X.doubles_res (ein4 L.mdel L.kldc L.ebjk L.acim L.abij Q.g_bbbb_oavavaoa Q.l2_bbbb Q.t2_bbbb Q.t2_abab),
    aug1 X.doubles_res (ein4 L.mdel L.kldc L.eaik L.cbmj L.abij Q.g_aaaa_oavavaoa Q.l2_aaaa Q.t2_aaaa Q.t2_abab),
    aug1 X.doubles_res (ein4 L.dmel L.kldc L.eaik L.cbjm L.abij Q.g_abab_vaoavaoa Q.l2_abab Q.t2_aaaa Q.t2_bbbb),
    aug1 X.doubles_res (ein4 L.mdel L.klcd L.eaik L.cbmj L.abij Q.g_abab_oavavaoa Q.l2_abab Q.t2_aaaa Q.t2_abab),
    aug1 X.doubles_res (ein4 L.dmle L.lkdc L.aeik L.cbjm L.abij Q.g_abab_vaoaoava Q.l2_abab Q.t2_abab Q.t2_bbbb),
    aug1 X.doubles_res (ein4 L.mdle L.lkcd L.aeik L.cbmj L.abij Q.g_abab_oavaoava Q.l2_abab Q.t2_abab Q.t2_abab),
    aug1 X.doubles_res (ein4 L.mdel L.kldc L.aeik L.cbjm L.abij Q.g_bbbb_oavavaoa Q.l2_bbbb Q.t2_abab Q.t2_bbbb),
    aug1 X.doubles_res (ein4 L.mdel L.lkdc L.ebik L.acmj L.abij Q.g_aaaa_oavavaoa Q.l2_abab Q.t2_abab Q.t2_abab),
    aug1 X.doubles_res (ein4 L.mdel L.kldc L.ebik L.acmj L.abij Q.g_abab_oavavaoa Q.l2_bbbb Q.t2_abab Q.t2_abab),
    aug1 X.doubles_res (ein4 L.dmle L.kldc L.aeij L.cbkm L.abij Q.g_abab_vaoaoava Q.l2_aaaa Q.t2_abab Q.t2_abab),
    aug1 X.doubles_res (ein4 L.mdel L.klcd L.aeij L.cbkm L.abij Q.g_bbbb_oavavaoa Q.l2_abab Q.t2_abab Q.t2_abab),
    aug1 X.doubles_res (ein4 L.dmle L.lkdc L.aeij L.cbkm L.abij Q.g_abab_vaoaoava Q.l2_abab Q.t2_abab Q.t2_bbbb),
    aug1 X.doubles_res (ein4 L.mdle L.lkcd L.aeij L.cbmk L.abij Q.g_abab_oavaoava Q.l2_abab Q.t2_abab Q.t2_abab),
    aug1 X.doubles_res (ein4 L.mdel L.kldc L.aeij L.cbkm L.abij Q.g_bbbb_oavavaoa Q.l2_bbbb Q.t2_abab Q.t2_bbbb),
    aug1 X.doubles_res (ein4 L.mdel L.kldc L.ebij L.cakm L.abij Q.g_aaaa_oavavaoa Q.l2_aaaa Q.t2_abab Q.t2_aaaa),
    aug1 X.doubles_res (ein4 L.dmel L.kldc L.ebij L.ackm L.abij Q.g_abab_vaoavaoa Q.l2_abab Q.t2_abab Q.t2_abab),
    aug1 X.doubles_res (ein4 L.mdel L.klcd L.ebij L.cakm L.abij Q.g_abab_oavavaoa Q.l2_abab Q.t2_abab Q.t2_aaaa),
    aug1 X.doubles_res (ein4 L.mdel L.lkdc L.ebij L.acmk L.abij Q.g_aaaa_oavavaoa Q.l2_abab Q.t2_abab Q.t2_abab),
    aug1 X.doubles_res (ein4 L.mdel L.kldc L.ebij L.acmk L.abij Q.g_abab_oavavaoa Q.l2_bbbb Q.t2_abab Q.t2_abab),
    aug1 X.doubles_res (ein4 L.dmej L.kldc L.eckl L.abim L.abij Q.g_abab_vaoavaoa Q.l2_aaaa Q.t2_aaaa Q.t2_abab),
    aug1 X.doubles_res (ein4 L.dmej L.kldc L.eckl L.abim L.abij Q.g_abab_vaoavaoa Q.l2_abab Q.t2_abab Q.t2_abab),
    aug1 X.doubles_res (ein4 L.mdej L.klcd L.cekl L.abim L.abij Q.g_bbbb_oavavaoa Q.l2_abab Q.t2_abab Q.t2_abab),
    aug1 X.doubles_res (ein4 L.dmej L.lkdc L.eclk L.abim L.abij Q.g_abab_vaoavaoa Q.l2_abab Q.t2_abab Q.t2_abab),
    aug1 X.doubles_res (ein4 L.mdej L.lkcd L.celk L.abim L.abij Q.g_bbbb_oavavaoa Q.l2_abab Q.t2_abab Q.t2_abab),
    aug1 X.doubles_res (ein4 L.mdej L.kldc L.eckl L.abim L.abij Q.g_bbbb_oavavaoa Q.l2_bbbb Q.t2_bbbb Q.t2_abab),
    aug1 X.doubles_res (ein4 L.mdei L.kldc L.eckl L.abmj L.abij Q.g_aaaa_oavavaoa Q.l2_aaaa Q.t2_aaaa Q.t2_abab),
    aug1 X.doubles_res (ein4 L.mdei L.kldc L.eckl L.abmj L.abij Q.g_aaaa_oavavaoa Q.l2_abab Q.t2_abab Q.t2_abab),
    aug1 X.doubles_res (ein4 L.mdie L.klcd L.cekl L.abmj L.abij Q.g_abab_oavaoava Q.l2_abab Q.t2_abab Q.t2_abab),
    aug1 X.doubles_res (ein4 L.mdei L.lkdc L.eclk L.abmj L.abij Q.g_aaaa_oavavaoa Q.l2_abab Q.t2_abab Q.t2_abab),
    aug1 X.doubles_res (ein4 L.mdie L.lkcd L.celk L.abmj L.abij Q.g_abab_oavaoava Q.l2_abab Q.t2_abab Q.t2_abab),
    aug1 X.doubles_res (ein4 L.mdie L.kldc L.eckl L.abmj L.abij Q.g_abab_oavaoava Q.l2_bbbb Q.t2_bbbb Q.t2_abab),
    aug1 X.doubles_res (ein4 L.dmej L.kldc L.ecil L.abkm L.abij Q.g_abab_vaoavaoa Q.l2_aaaa Q.t2_aaaa Q.t2_abab),
    aug1 X.doubles_res (ein4 L.dmej L.kldc L.ecil L.abkm L.abij Q.g_abab_vaoavaoa Q.l2_abab Q.t2_abab Q.t2_abab),
    aug1 X.doubles_res (ein4 L.mdej L.klcd L.ceil L.abkm L.abij Q.g_bbbb_oavavaoa Q.l2_abab Q.t2_abab Q.t2_abab),
    aug1 X.doubles_res (ein4 L.mdej L.lkcd L.ecil L.abmk L.abij Q.g_abab_oavavaoa Q.l2_abab Q.t2_aaaa Q.t2_abab),
    aug1 X.doubles_res (ein4 L.mdej L.kldc L.ecil L.abmk L.abij Q.g_abab_oavavaoa Q.l2_bbbb Q.t2_abab Q.t2_abab),
    aug1 X.doubles_res (ein4 L.dmie L.kldc L.celj L.abkm L.abij Q.g_abab_vaoaoava Q.l2_aaaa Q.t2_abab Q.t2_abab),
    aug1 X.doubles_res (ein4 L.dmie L.kldc L.ecjl L.abkm L.abij Q.g_abab_vaoaoava Q.l2_abab Q.t2_bbbb Q.t2_abab),
    aug1 X.doubles_res (ein4 L.mdei L.lkdc L.eclj L.abmk L.abij Q.g_aaaa_oavavaoa Q.l2_abab Q.t2_abab Q.t2_abab),
    aug1 X.doubles_res (ein4 L.mdie L.lkcd L.celj L.abmk L.abij Q.g_abab_oavaoava Q.l2_abab Q.t2_abab Q.t2_abab),
    aug1 X.doubles_res (ein4 L.mdie L.kldc L.ecjl L.abmk L.abij Q.g_abab_oavaoava Q.l2_bbbb Q.t2_bbbb Q.t2_abab),
    aug1 X.doubles_res (ein4 L.dmej L.kldc L.eakl L.cbim L.abij Q.g_abab_vaoavaoa Q.l2_aaaa Q.t2_aaaa Q.t2_abab),
    aug1 X.doubles_res (ein4 L.mdej L.klcd L.aekl L.cbim L.abij Q.g_bbbb_oavavaoa Q.l2_abab Q.t2_abab Q.t2_abab),
    aug1 X.doubles_res (ein4 L.mdej L.lkcd L.aelk L.cbim L.abij Q.g_bbbb_oavavaoa Q.l2_abab Q.t2_abab Q.t2_abab),
    aug1 X.doubles_res (ein4 L.dmej L.kldc L.ebkl L.acim L.abij Q.g_abab_vaoavaoa Q.l2_abab Q.t2_abab Q.t2_abab),
    aug1 X.doubles_res (ein4 L.mdej L.klcd L.ebkl L.caim L.abij Q.g_abab_oavavaoa Q.l2_abab Q.t2_abab Q.t2_aaaa),
    aug1 X.doubles_res (ein4 L.dmej L.lkdc L.eblk L.acim L.abij Q.g_abab_vaoavaoa Q.l2_abab Q.t2_abab Q.t2_abab),
    aug1 X.doubles_res (ein4 L.mdej L.lkcd L.eblk L.caim L.abij Q.g_abab_oavavaoa Q.l2_abab Q.t2_abab Q.t2_aaaa),
    aug1 X.doubles_res (ein4 L.mdej L.kldc L.ebkl L.acim L.abij Q.g_bbbb_oavavaoa Q.l2_bbbb Q.t2_bbbb Q.t2_abab),
    aug1 X.doubles_res (ein4 L.mdei L.kldc L.eakl L.cbmj L.abij Q.g_aaaa_oavavaoa Q.l2_aaaa Q.t2_aaaa Q.t2_abab),
    aug1 X.doubles_res (ein4 L.dmie L.kldc L.aekl L.cbjm L.abij Q.g_abab_vaoaoava Q.l2_abab Q.t2_abab Q.t2_bbbb),
    aug1 X.doubles_res (ein4 L.mdie L.klcd L.aekl L.cbmj L.abij Q.g_abab_oavaoava Q.l2_abab Q.t2_abab Q.t2_abab),
    aug1 X.doubles_res (ein4 L.dmie L.lkdc L.aelk L.cbjm L.abij Q.g_abab_vaoaoava Q.l2_abab Q.t2_abab Q.t2_bbbb),
    aug1 X.doubles_res (ein4 L.mdie L.lkcd L.aelk L.cbmj L.abij Q.g_abab_oavaoava Q.l2_abab Q.t2_abab Q.t2_abab),
    aug1 X.doubles_res (ein4 L.mdei L.kldc L.ebkl L.acmj L.abij Q.g_aaaa_oavavaoa Q.l2_abab Q.t2_abab Q.t2_abab),
    aug1 X.doubles_res (ein4 L.mdei L.lkdc L.eblk L.acmj L.abij Q.g_aaaa_oavavaoa Q.l2_abab Q.t2_abab Q.t2_abab),
    aug1 X.doubles_res (ein4 L.mdie L.kldc L.ebkl L.acmj L.abij Q.g_abab_oavaoava Q.l2_bbbb Q.t2_bbbb Q.t2_abab),
    aug1 X.doubles_res (ein4 L.dmej L.kldc L.eail L.cbkm L.abij Q.g_abab_vaoavaoa Q.l2_aaaa Q.t2_aaaa Q.t2_abab),
    aug1 X.doubles_res (ein4 L.mdej L.klcd L.aeil L.cbkm L.abij Q.g_bbbb_oavavaoa Q.l2_abab Q.t2_abab Q.t2_abab),
    aug1 X.doubles_res (ein4 L.dmej L.lkdc L.eail L.cbkm L.abij Q.g_abab_vaoavaoa Q.l2_abab Q.t2_aaaa Q.t2_bbbb),
    aug1 X.doubles_res (ein4 L.mdej L.lkcd L.eail L.cbmk L.abij Q.g_abab_oavavaoa Q.l2_abab Q.t2_aaaa Q.t2_abab),
    aug1 X.doubles_res (ein4 L.mdej L.kldc L.aeil L.cbkm L.abij Q.g_bbbb_oavavaoa Q.l2_bbbb Q.t2_abab Q.t2_bbbb),
    aug1 X.doubles_res (ein4 L.dmej L.kldc L.ebil L.ackm L.abij Q.g_abab_vaoavaoa Q.l2_abab Q.t2_abab Q.t2_abab),
    aug1 X.doubles_res (ein4 L.mdej L.klcd L.ebil L.cakm L.abij Q.g_abab_oavavaoa Q.l2_abab Q.t2_abab Q.t2_aaaa),
    aug1 X.doubles_res (ein4 L.mdej L.kldc L.ebil L.acmk L.abij Q.g_abab_oavavaoa Q.l2_bbbb Q.t2_abab Q.t2_abab),
    aug1 X.doubles_res (ein4 L.dmie L.kldc L.aelj L.cbkm L.abij Q.g_abab_vaoaoava Q.l2_aaaa Q.t2_abab Q.t2_abab),
    aug1 X.doubles_res (ein4 L.dmie L.lkdc L.aelj L.cbkm L.abij Q.g_abab_vaoaoava Q.l2_abab Q.t2_abab Q.t2_bbbb),
    aug1 X.doubles_res (ein4 L.mdie L.lkcd L.aelj L.cbmk L.abij Q.g_abab_oavaoava Q.l2_abab Q.t2_abab Q.t2_abab),
    aug1 X.doubles_res (ein4 L.mdei L.kldc L.eblj L.cakm L.abij Q.g_aaaa_oavavaoa Q.l2_aaaa Q.t2_abab Q.t2_aaaa),
    aug1 X.doubles_res (ein4 L.dmie L.kldc L.ebjl L.ackm L.abij Q.g_abab_vaoaoava Q.l2_abab Q.t2_bbbb Q.t2_abab),
    aug1 X.doubles_res (ein4 L.mdie L.klcd L.ebjl L.cakm L.abij Q.g_abab_oavaoava Q.l2_abab Q.t2_bbbb Q.t2_aaaa),
    aug1 X.doubles_res (ein4 L.mdei L.lkdc L.eblj L.acmk L.abij Q.g_aaaa_oavavaoa Q.l2_abab Q.t2_abab Q.t2_abab),
    aug1 X.doubles_res (ein4 L.mdie L.kldc L.ebjl L.acmk L.abij Q.g_abab_oavaoava Q.l2_bbbb Q.t2_bbbb Q.t2_abab),
    aug1 X.doubles_res (ein4 L.amle L.kldc L.dekj L.cbim L.abij Q.g_abab_vaoaoava Q.l2_aaaa Q.t2_abab Q.t2_abab),
    aug1 X.doubles_res (ein4 L.amel L.klcd L.edkj L.cbim L.abij Q.g_abab_vaoavaoa Q.l2_abab Q.t2_abab Q.t2_abab),
    aug1 X.doubles_res (ein4 L.amle L.lkcd L.edjk L.cbim L.abij Q.g_abab_vaoaoava Q.l2_abab Q.t2_bbbb Q.t2_abab),
    aug1 X.doubles_res (ein4 L.mble L.kldc L.dekj L.caim L.abij Q.g_abab_oavaoava Q.l2_aaaa Q.t2_abab Q.t2_aaaa),
    aug1 X.doubles_res (ein4 L.mbel L.kldc L.dekj L.acim L.abij Q.g_bbbb_oavavaoa Q.l2_abab Q.t2_abab Q.t2_abab),
    aug1 X.doubles_res (ein4 L.mbel L.klcd L.edkj L.caim L.abij Q.g_abab_oavavaoa Q.l2_abab Q.t2_abab Q.t2_aaaa),
    aug1 X.doubles_res (ein4 L.mble L.lkcd L.edjk L.caim L.abij Q.g_abab_oavaoava Q.l2_abab Q.t2_bbbb Q.t2_aaaa),
    aug1 X.doubles_res (ein4 L.mbel L.kldc L.edjk L.acim L.abij Q.g_bbbb_oavavaoa Q.l2_bbbb Q.t2_bbbb Q.t2_abab),
    aug1 X.doubles_res (ein4 L.mael L.kldc L.edik L.cbmj L.abij Q.g_aaaa_oavavaoa Q.l2_aaaa Q.t2_aaaa Q.t2_abab),
    aug1 X.doubles_res (ein4 L.amel L.kldc L.edik L.cbjm L.abij Q.g_abab_vaoavaoa Q.l2_abab Q.t2_aaaa Q.t2_bbbb),
    aug1 X.doubles_res (ein4 L.amle L.lkdc L.deik L.cbjm L.abij Q.g_abab_vaoaoava Q.l2_abab Q.t2_abab Q.t2_bbbb),
    aug1 X.doubles_res (ein4 L.mael L.lkcd L.edik L.cbmj L.abij Q.g_aaaa_oavavaoa Q.l2_abab Q.t2_abab Q.t2_abab),
    aug1 X.doubles_res (ein4 L.amel L.kldc L.edik L.cbjm L.abij Q.g_abab_vaoavaoa Q.l2_bbbb Q.t2_abab Q.t2_bbbb),
    aug1 X.doubles_res (ein4 L.mbel L.kldc L.edik L.acmj L.abij Q.g_abab_oavavaoa Q.l2_abab Q.t2_aaaa Q.t2_abab),
    aug1 X.doubles_res (ein4 L.mble L.lkdc L.deik L.acmj L.abij Q.g_abab_oavaoava Q.l2_abab Q.t2_abab Q.t2_abab),
    aug1 X.doubles_res (ein4 L.mbel L.kldc L.edik L.acmj L.abij Q.g_abab_oavavaoa Q.l2_bbbb Q.t2_abab Q.t2_abab),
    aug1 X.doubles_res (ein4 L.amle L.kldc L.deij L.cbkm L.abij Q.g_abab_vaoaoava Q.l2_aaaa Q.t2_abab Q.t2_abab),
    aug1 X.doubles_res (ein4 L.amel L.klcd L.edij L.cbkm L.abij Q.g_abab_vaoavaoa Q.l2_abab Q.t2_abab Q.t2_abab),
    aug1 X.doubles_res (ein4 L.amle L.lkdc L.deij L.cbkm L.abij Q.g_abab_vaoaoava Q.l2_abab Q.t2_abab Q.t2_bbbb),
    aug1 X.doubles_res (ein4 L.mael L.lkcd L.edij L.cbmk L.abij Q.g_aaaa_oavavaoa Q.l2_abab Q.t2_abab Q.t2_abab),
    aug1 X.doubles_res (ein4 L.amel L.kldc L.edij L.cbkm L.abij Q.g_abab_vaoavaoa Q.l2_bbbb Q.t2_abab Q.t2_bbbb),
    aug1 X.doubles_res (ein4 L.mble L.kldc L.deij L.cakm L.abij Q.g_abab_oavaoava Q.l2_aaaa Q.t2_abab Q.t2_aaaa),
    aug1 X.doubles_res (ein4 L.mbel L.kldc L.deij L.ackm L.abij Q.g_bbbb_oavavaoa Q.l2_abab Q.t2_abab Q.t2_abab),
    aug1 X.doubles_res (ein4 L.mbel L.klcd L.edij L.cakm L.abij Q.g_abab_oavavaoa Q.l2_abab Q.t2_abab Q.t2_aaaa),
    aug1 X.doubles_res (ein4 L.mble L.lkdc L.deij L.acmk L.abij Q.g_abab_oavaoava Q.l2_abab Q.t2_abab Q.t2_abab),
    aug1 X.doubles_res (ein4 L.mbel L.kldc L.edij L.acmk L.abij Q.g_abab_oavavaoa Q.l2_bbbb Q.t2_abab Q.t2_abab),
    aug1 X.doubles_res (ein4 L.mael L.kldc L.ebkj L.dcim L.abij Q.g_aaaa_oavavaoa Q.l2_aaaa Q.t2_abab Q.t2_aaaa),
    aug1 X.doubles_res (ein4 L.amel L.kldc L.ebkj L.dcim L.abij Q.g_abab_vaoavaoa Q.l2_abab Q.t2_abab Q.t2_abab),
    aug1 X.doubles_res (ein4 L.amel L.klcd L.ebkj L.cdim L.abij Q.g_abab_vaoavaoa Q.l2_abab Q.t2_abab Q.t2_abab),
    aug1 X.doubles_res (ein4 L.amle L.lkdc L.ebjk L.dcim L.abij Q.g_abab_vaoaoava Q.l2_abab Q.t2_bbbb Q.t2_abab),
    aug1 X.doubles_res (ein4 L.amle L.lkcd L.ebjk L.cdim L.abij Q.g_abab_vaoaoava Q.l2_abab Q.t2_bbbb Q.t2_abab),
    aug1 X.doubles_res (ein4 L.mble L.kldc L.aekj L.dcim L.abij Q.g_abab_oavaoava Q.l2_aaaa Q.t2_abab Q.t2_aaaa),
    aug1 X.doubles_res (ein4 L.mbel L.kldc L.aekj L.dcim L.abij Q.g_bbbb_oavavaoa Q.l2_abab Q.t2_abab Q.t2_abab),
    aug1 X.doubles_res (ein4 L.mbel L.klcd L.aekj L.cdim L.abij Q.g_bbbb_oavavaoa Q.l2_abab Q.t2_abab Q.t2_abab),
    aug1 X.doubles_res (ein4 L.mael L.lkdc L.ebik L.dcmj L.abij Q.g_aaaa_oavavaoa Q.l2_abab Q.t2_abab Q.t2_abab),
    aug1 X.doubles_res (ein4 L.mael L.lkcd L.ebik L.cdmj L.abij Q.g_aaaa_oavavaoa Q.l2_abab Q.t2_abab Q.t2_abab),
    aug1 X.doubles_res (ein4 L.amel L.kldc L.ebik L.dcjm L.abij Q.g_abab_vaoavaoa Q.l2_bbbb Q.t2_abab Q.t2_bbbb),
    aug1 X.doubles_res (ein4 L.mbel L.kldc L.eaik L.dcmj L.abij Q.g_abab_oavavaoa Q.l2_abab Q.t2_aaaa Q.t2_abab),
    aug1 X.doubles_res (ein4 L.mbel L.klcd L.eaik L.cdmj L.abij Q.g_abab_oavavaoa Q.l2_abab Q.t2_aaaa Q.t2_abab),
    aug1 X.doubles_res (ein4 L.mble L.lkdc L.aeik L.dcmj L.abij Q.g_abab_oavaoava Q.l2_abab Q.t2_abab Q.t2_abab),
    aug1 X.doubles_res (ein4 L.mble L.lkcd L.aeik L.cdmj L.abij Q.g_abab_oavaoava Q.l2_abab Q.t2_abab Q.t2_abab),
    aug1 X.doubles_res (ein4 L.mbel L.kldc L.aeik L.dcjm L.abij Q.g_bbbb_oavavaoa Q.l2_bbbb Q.t2_abab Q.t2_bbbb),
    aug1 X.doubles_res (ein4 L.mael L.kldc L.ebij L.dckm L.abij Q.g_aaaa_oavavaoa Q.l2_aaaa Q.t2_abab Q.t2_aaaa),
    aug1 X.doubles_res (ein4 L.amel L.kldc L.ebij L.dckm L.abij Q.g_abab_vaoavaoa Q.l2_abab Q.t2_abab Q.t2_abab),
    aug1 X.doubles_res (ein4 L.amel L.klcd L.ebij L.cdkm L.abij Q.g_abab_vaoavaoa Q.l2_abab Q.t2_abab Q.t2_abab),
    aug1 X.doubles_res (ein4 L.mael L.lkdc L.ebij L.dcmk L.abij Q.g_aaaa_oavavaoa Q.l2_abab Q.t2_abab Q.t2_abab),
    aug1 X.doubles_res (ein4 L.mael L.lkcd L.ebij L.cdmk L.abij Q.g_aaaa_oavavaoa Q.l2_abab Q.t2_abab Q.t2_abab),
    aug1 X.doubles_res (ein4 L.amel L.kldc L.ebij L.dckm L.abij Q.g_abab_vaoavaoa Q.l2_bbbb Q.t2_abab Q.t2_bbbb),
    aug1 X.doubles_res (ein4 L.mble L.kldc L.aeij L.dckm L.abij Q.g_abab_oavaoava Q.l2_aaaa Q.t2_abab Q.t2_aaaa),
    aug1 X.doubles_res (ein4 L.mbel L.kldc L.aeij L.dckm L.abij Q.g_bbbb_oavavaoa Q.l2_abab Q.t2_abab Q.t2_abab),
    aug1 X.doubles_res (ein4 L.mbel L.klcd L.aeij L.cdkm L.abij Q.g_bbbb_oavavaoa Q.l2_abab Q.t2_abab Q.t2_abab),
    aug1 X.doubles_res (ein4 L.mble L.lkdc L.aeij L.dcmk L.abij Q.g_abab_oavaoava Q.l2_abab Q.t2_abab Q.t2_abab),
    aug1 X.doubles_res (ein4 L.mble L.lkcd L.aeij L.cdmk L.abij Q.g_abab_oavaoava Q.l2_abab Q.t2_abab Q.t2_abab),
    aug1 X.doubles_res (ein4 L.mbel L.kldc L.aeij L.dckm L.abij Q.g_bbbb_oavavaoa Q.l2_bbbb Q.t2_abab Q.t2_bbbb),
    aug1 X.doubles_res (ein4 L.amej L.kldc L.edkl L.cbim L.abij Q.g_abab_vaoavaoa Q.l2_aaaa Q.t2_aaaa Q.t2_abab),
    aug1 X.doubles_res (ein4 L.amej L.klcd L.edkl L.cbim L.abij Q.g_abab_vaoavaoa Q.l2_abab Q.t2_abab Q.t2_abab),
    aug1 X.doubles_res (ein4 L.amej L.lkcd L.edlk L.cbim L.abij Q.g_abab_vaoavaoa Q.l2_abab Q.t2_abab Q.t2_abab),
    aug1 X.doubles_res (ein4 L.mbej L.kldc L.edkl L.caim L.abij Q.g_abab_oavavaoa Q.l2_aaaa Q.t2_aaaa Q.t2_aaaa),
    aug1 X.doubles_res (ein4 L.mbej L.kldc L.dekl L.acim L.abij Q.g_bbbb_oavavaoa Q.l2_abab Q.t2_abab Q.t2_abab),
    aug1 X.doubles_res (ein4 L.mbej L.klcd L.edkl L.caim L.abij Q.g_abab_oavavaoa Q.l2_abab Q.t2_abab Q.t2_aaaa),
    aug1 X.doubles_res (ein4 L.mbej L.lkdc L.delk L.acim L.abij Q.g_bbbb_oavavaoa Q.l2_abab Q.t2_abab Q.t2_abab),
    aug1 X.doubles_res (ein4 L.mbej L.lkcd L.edlk L.caim L.abij Q.g_abab_oavavaoa Q.l2_abab Q.t2_abab Q.t2_aaaa),
    aug1 X.doubles_res (ein4 L.mbej L.kldc L.edkl L.acim L.abij Q.g_bbbb_oavavaoa Q.l2_bbbb Q.t2_bbbb Q.t2_abab),
    aug1 X.doubles_res (ein4 L.maei L.kldc L.edkl L.cbmj L.abij Q.g_aaaa_oavavaoa Q.l2_aaaa Q.t2_aaaa Q.t2_abab),
    aug1 X.doubles_res (ein4 L.amie L.kldc L.dekl L.cbjm L.abij Q.g_abab_vaoaoava Q.l2_abab Q.t2_abab Q.t2_bbbb),
    aug1 X.doubles_res (ein4 L.maei L.klcd L.edkl L.cbmj L.abij Q.g_aaaa_oavavaoa Q.l2_abab Q.t2_abab Q.t2_abab),
    aug1 X.doubles_res (ein4 L.amie L.lkdc L.delk L.cbjm L.abij Q.g_abab_vaoaoava Q.l2_abab Q.t2_abab Q.t2_bbbb),
    aug1 X.doubles_res (ein4 L.maei L.lkcd L.edlk L.cbmj L.abij Q.g_aaaa_oavavaoa Q.l2_abab Q.t2_abab Q.t2_abab),
    aug1 X.doubles_res (ein4 L.amie L.kldc L.edkl L.cbjm L.abij Q.g_abab_vaoaoava Q.l2_bbbb Q.t2_bbbb Q.t2_bbbb),
    aug1 X.doubles_res (ein4 L.mbie L.kldc L.dekl L.acmj L.abij Q.g_abab_oavaoava Q.l2_abab Q.t2_abab Q.t2_abab),
    aug1 X.doubles_res (ein4 L.mbie L.lkdc L.delk L.acmj L.abij Q.g_abab_oavaoava Q.l2_abab Q.t2_abab Q.t2_abab),
    aug1 X.doubles_res (ein4 L.mbie L.kldc L.edkl L.acmj L.abij Q.g_abab_oavaoava Q.l2_bbbb Q.t2_bbbb Q.t2_abab),
    aug1 X.doubles_res (ein4 L.amej L.kldc L.edil L.cbkm L.abij Q.g_abab_vaoavaoa Q.l2_aaaa Q.t2_aaaa Q.t2_abab),
    aug1 X.doubles_res (ein4 L.amej L.klcd L.edil L.cbkm L.abij Q.g_abab_vaoavaoa Q.l2_abab Q.t2_abab Q.t2_abab),
    aug1 X.doubles_res (ein4 L.amej L.lkdc L.edil L.cbkm L.abij Q.g_abab_vaoavaoa Q.l2_abab Q.t2_aaaa Q.t2_bbbb),
    aug1 X.doubles_res (ein4 L.amej L.kldc L.edil L.cbkm L.abij Q.g_abab_vaoavaoa Q.l2_bbbb Q.t2_abab Q.t2_bbbb),
    aug1 X.doubles_res (ein4 L.mbej L.kldc L.edil L.cakm L.abij Q.g_abab_oavavaoa Q.l2_aaaa Q.t2_aaaa Q.t2_aaaa),
    aug1 X.doubles_res (ein4 L.mbej L.kldc L.deil L.ackm L.abij Q.g_bbbb_oavavaoa Q.l2_abab Q.t2_abab Q.t2_abab),
    aug1 X.doubles_res (ein4 L.mbej L.klcd L.edil L.cakm L.abij Q.g_abab_oavavaoa Q.l2_abab Q.t2_abab Q.t2_aaaa),
    aug1 X.doubles_res (ein4 L.mbej L.lkdc L.edil L.acmk L.abij Q.g_abab_oavavaoa Q.l2_abab Q.t2_aaaa Q.t2_abab),
    aug1 X.doubles_res (ein4 L.mbej L.kldc L.edil L.acmk L.abij Q.g_abab_oavavaoa Q.l2_bbbb Q.t2_abab Q.t2_abab),
    aug1 X.doubles_res (ein4 L.amie L.kldc L.delj L.cbkm L.abij Q.g_abab_vaoaoava Q.l2_aaaa Q.t2_abab Q.t2_abab),
    aug1 X.doubles_res (ein4 L.amie L.klcd L.edjl L.cbkm L.abij Q.g_abab_vaoaoava Q.l2_abab Q.t2_bbbb Q.t2_abab),
    aug1 X.doubles_res (ein4 L.amie L.lkdc L.delj L.cbkm L.abij Q.g_abab_vaoaoava Q.l2_abab Q.t2_abab Q.t2_bbbb),
    aug1 X.doubles_res (ein4 L.maei L.lkcd L.edlj L.cbmk L.abij Q.g_aaaa_oavavaoa Q.l2_abab Q.t2_abab Q.t2_abab),
    aug1 X.doubles_res (ein4 L.amie L.kldc L.edjl L.cbkm L.abij Q.g_abab_vaoaoava Q.l2_bbbb Q.t2_bbbb Q.t2_bbbb),
    aug1 X.doubles_res (ein4 L.mbie L.kldc L.delj L.cakm L.abij Q.g_abab_oavaoava Q.l2_aaaa Q.t2_abab Q.t2_aaaa),
    aug1 X.doubles_res (ein4 L.mbie L.klcd L.edjl L.cakm L.abij Q.g_abab_oavaoava Q.l2_abab Q.t2_bbbb Q.t2_aaaa),
    aug1 X.doubles_res (ein4 L.mbie L.lkdc L.delj L.acmk L.abij Q.g_abab_oavaoava Q.l2_abab Q.t2_abab Q.t2_abab),
    aug1 X.doubles_res (ein4 L.mbie L.kldc L.edjl L.acmk L.abij Q.g_abab_oavaoava Q.l2_bbbb Q.t2_bbbb Q.t2_abab),
    aug1 X.doubles_res (ein4 L.amej L.kldc L.ebkl L.dcim L.abij Q.g_abab_vaoavaoa Q.l2_abab Q.t2_abab Q.t2_abab),
    aug1 X.doubles_res (ein4 L.amej L.klcd L.ebkl L.cdim L.abij Q.g_abab_vaoavaoa Q.l2_abab Q.t2_abab Q.t2_abab),
    aug1 X.doubles_res (ein4 L.amej L.lkdc L.eblk L.dcim L.abij Q.g_abab_vaoavaoa Q.l2_abab Q.t2_abab Q.t2_abab),
    aug1 X.doubles_res (ein4 L.amej L.lkcd L.eblk L.cdim L.abij Q.g_abab_vaoavaoa Q.l2_abab Q.t2_abab Q.t2_abab),
    aug1 X.doubles_res (ein4 L.mbej L.kldc L.eakl L.dcim L.abij Q.g_abab_oavavaoa Q.l2_aaaa Q.t2_aaaa Q.t2_aaaa),
    aug1 X.doubles_res (ein4 L.mbej L.kldc L.aekl L.dcim L.abij Q.g_bbbb_oavavaoa Q.l2_abab Q.t2_abab Q.t2_abab),
    aug1 X.doubles_res (ein4 L.mbej L.klcd L.aekl L.cdim L.abij Q.g_bbbb_oavavaoa Q.l2_abab Q.t2_abab Q.t2_abab),
    aug1 X.doubles_res (ein4 L.mbej L.lkdc L.aelk L.dcim L.abij Q.g_bbbb_oavavaoa Q.l2_abab Q.t2_abab Q.t2_abab),
    aug1 X.doubles_res (ein4 L.mbej L.lkcd L.aelk L.cdim L.abij Q.g_bbbb_oavavaoa Q.l2_abab Q.t2_abab Q.t2_abab),
    aug1 X.doubles_res (ein4 L.maei L.kldc L.ebkl L.dcmj L.abij Q.g_aaaa_oavavaoa Q.l2_abab Q.t2_abab Q.t2_abab),
    aug1 X.doubles_res (ein4 L.maei L.klcd L.ebkl L.cdmj L.abij Q.g_aaaa_oavavaoa Q.l2_abab Q.t2_abab Q.t2_abab),
    aug1 X.doubles_res (ein4 L.maei L.lkdc L.eblk L.dcmj L.abij Q.g_aaaa_oavavaoa Q.l2_abab Q.t2_abab Q.t2_abab),
    aug1 X.doubles_res (ein4 L.maei L.lkcd L.eblk L.cdmj L.abij Q.g_aaaa_oavavaoa Q.l2_abab Q.t2_abab Q.t2_abab),
    aug1 X.doubles_res (ein4 L.amie L.kldc L.ebkl L.dcjm L.abij Q.g_abab_vaoaoava Q.l2_bbbb Q.t2_bbbb Q.t2_bbbb),
    aug1 X.doubles_res (ein4 L.mbie L.kldc L.aekl L.dcmj L.abij Q.g_abab_oavaoava Q.l2_abab Q.t2_abab Q.t2_abab),
    aug1 X.doubles_res (ein4 L.mbie L.klcd L.aekl L.cdmj L.abij Q.g_abab_oavaoava Q.l2_abab Q.t2_abab Q.t2_abab),
    aug1 X.doubles_res (ein4 L.mbie L.lkdc L.aelk L.dcmj L.abij Q.g_abab_oavaoava Q.l2_abab Q.t2_abab Q.t2_abab),
    aug1 X.doubles_res (ein4 L.mbie L.lkcd L.aelk L.cdmj L.abij Q.g_abab_oavaoava Q.l2_abab Q.t2_abab Q.t2_abab),
    aug1 X.doubles_res (ein4 L.amej L.kldc L.ebil L.dckm L.abij Q.g_abab_vaoavaoa Q.l2_abab Q.t2_abab Q.t2_abab),
    aug1 X.doubles_res (ein4 L.amej L.klcd L.ebil L.cdkm L.abij Q.g_abab_vaoavaoa Q.l2_abab Q.t2_abab Q.t2_abab),
    aug1 X.doubles_res (ein4 L.amej L.kldc L.ebil L.dckm L.abij Q.g_abab_vaoavaoa Q.l2_bbbb Q.t2_abab Q.t2_bbbb),
    aug1 X.doubles_res (ein4 L.mbej L.kldc L.eail L.dckm L.abij Q.g_abab_oavavaoa Q.l2_aaaa Q.t2_aaaa Q.t2_aaaa),
    aug1 X.doubles_res (ein4 L.mbej L.kldc L.aeil L.dckm L.abij Q.g_bbbb_oavavaoa Q.l2_abab Q.t2_abab Q.t2_abab),
    aug1 X.doubles_res (ein4 L.mbej L.klcd L.aeil L.cdkm L.abij Q.g_bbbb_oavavaoa Q.l2_abab Q.t2_abab Q.t2_abab),
    aug1 X.doubles_res (ein4 L.mbej L.lkdc L.eail L.dcmk L.abij Q.g_abab_oavavaoa Q.l2_abab Q.t2_aaaa Q.t2_abab),
    aug1 X.doubles_res (ein4 L.mbej L.lkcd L.eail L.cdmk L.abij Q.g_abab_oavavaoa Q.l2_abab Q.t2_aaaa Q.t2_abab),
    aug1 X.doubles_res (ein4 L.mbej L.kldc L.aeil L.dckm L.abij Q.g_bbbb_oavavaoa Q.l2_bbbb Q.t2_abab Q.t2_bbbb),
    aug1 X.doubles_res (ein4 L.maei L.kldc L.eblj L.dckm L.abij Q.g_aaaa_oavavaoa Q.l2_aaaa Q.t2_abab Q.t2_aaaa),
    aug1 X.doubles_res (ein4 L.amie L.kldc L.ebjl L.dckm L.abij Q.g_abab_vaoaoava Q.l2_abab Q.t2_bbbb Q.t2_abab),
    aug1 X.doubles_res (ein4 L.amie L.klcd L.ebjl L.cdkm L.abij Q.g_abab_vaoaoava Q.l2_abab Q.t2_bbbb Q.t2_abab),
    aug1 X.doubles_res (ein4 L.maei L.lkdc L.eblj L.dcmk L.abij Q.g_aaaa_oavavaoa Q.l2_abab Q.t2_abab Q.t2_abab),
    aug1 X.doubles_res (ein4 L.maei L.lkcd L.eblj L.cdmk L.abij Q.g_aaaa_oavavaoa Q.l2_abab Q.t2_abab Q.t2_abab),
    aug1 X.doubles_res (ein4 L.amie L.kldc L.ebjl L.dckm L.abij Q.g_abab_vaoaoava Q.l2_bbbb Q.t2_bbbb Q.t2_bbbb),
    aug1 X.doubles_res (ein4 L.mbie L.kldc L.aelj L.dckm L.abij Q.g_abab_oavaoava Q.l2_aaaa Q.t2_abab Q.t2_aaaa),
    aug1 X.doubles_res (ein4 L.mbie L.lkdc L.aelj L.dcmk L.abij Q.g_abab_oavaoava Q.l2_abab Q.t2_abab Q.t2_abab),
    aug1 X.doubles_res (ein4 L.mbie L.lkcd L.aelj L.cdmk L.abij Q.g_abab_oavaoava Q.l2_abab Q.t2_abab Q.t2_abab),
    aug1 X.doubles_res (ein4 L.dcef L.kldc L.eakl L.fbij L.abij Q.g_aaaa_vavavava Q.l2_aaaa Q.t2_aaaa Q.t2_abab),
    aug1 X.doubles_res (ein4 L.dcfe L.kldc L.aekl L.fbij L.abij Q.g_abab_vavavava Q.l2_abab Q.t2_abab Q.t2_abab),
    aug1 X.doubles_res (ein4 L.cdfe L.klcd L.aekl L.fbij L.abij Q.g_abab_vavavava Q.l2_abab Q.t2_abab Q.t2_abab),
    aug1 X.doubles_res (ein4 L.dcfe L.lkdc L.aelk L.fbij L.abij Q.g_abab_vavavava Q.l2_abab Q.t2_abab Q.t2_abab),
    aug1 X.doubles_res (ein4 L.cdfe L.lkcd L.aelk L.fbij L.abij Q.g_abab_vavavava Q.l2_abab Q.t2_abab Q.t2_abab),
    aug1 X.doubles_res (ein4 L.dcfe L.lkdc L.aelj L.fbik L.abij Q.g_abab_vavavava Q.l2_abab Q.t2_abab Q.t2_abab),
    aug1 X.doubles_res (ein4 L.cdfe L.lkcd L.aelj L.fbik L.abij Q.g_abab_vavavava Q.l2_abab Q.t2_abab Q.t2_abab),
    aug1 X.doubles_res (ein4 L.dcef L.kldc L.eail L.fbkj L.abij Q.g_aaaa_vavavava Q.l2_aaaa Q.t2_aaaa Q.t2_abab),
    aug1 X.doubles_res (ein4 L.dcfe L.kldc L.aeil L.fbkj L.abij Q.g_abab_vavavava Q.l2_abab Q.t2_abab Q.t2_abab),
    aug1 X.doubles_res (ein4 L.cdfe L.klcd L.aeil L.fbkj L.abij Q.g_abab_vavavava Q.l2_abab Q.t2_abab Q.t2_abab),
    aug1 X.doubles_res (ein4 L.dcef L.lkdc L.eail L.fbjk L.abij Q.g_abab_vavavava Q.l2_abab Q.t2_aaaa Q.t2_bbbb),
    aug1 X.doubles_res (ein4 L.cdef L.lkcd L.eail L.fbjk L.abij Q.g_abab_vavavava Q.l2_abab Q.t2_aaaa Q.t2_bbbb),
    aug1 X.doubles_res (ein4 L.dcef L.kldc L.aeil L.fbjk L.abij Q.g_bbbb_vavavava Q.l2_bbbb Q.t2_abab Q.t2_bbbb),
    aug1 X.doubles_res (ein4 L.dcfe L.kldc L.aeij L.fbkl L.abij Q.g_abab_vavavava Q.l2_abab Q.t2_abab Q.t2_abab),
    aug1 X.doubles_res (ein4 L.cdfe L.klcd L.aeij L.fbkl L.abij Q.g_abab_vavavava Q.l2_abab Q.t2_abab Q.t2_abab),
    aug1 X.doubles_res (ein4 L.dcfe L.lkdc L.aeij L.fblk L.abij Q.g_abab_vavavava Q.l2_abab Q.t2_abab Q.t2_abab),
    aug1 X.doubles_res (ein4 L.cdfe L.lkcd L.aeij L.fblk L.abij Q.g_abab_vavavava Q.l2_abab Q.t2_abab Q.t2_abab),
    aug1 X.doubles_res (ein4 L.dcef L.kldc L.aeij L.fbkl L.abij Q.g_bbbb_vavavava Q.l2_bbbb Q.t2_abab Q.t2_bbbb),
    aug1 X.doubles_res (ein4 L.daef L.kldc L.eckl L.fbij L.abij Q.g_aaaa_vavavava Q.l2_aaaa Q.t2_aaaa Q.t2_abab),
    aug1 X.doubles_res (ein4 L.daef L.kldc L.eckl L.fbij L.abij Q.g_aaaa_vavavava Q.l2_abab Q.t2_abab Q.t2_abab),
    aug1 X.doubles_res (ein4 L.adfe L.klcd L.cekl L.fbij L.abij Q.g_abab_vavavava Q.l2_abab Q.t2_abab Q.t2_abab),
    aug1 X.doubles_res (ein4 L.daef L.lkdc L.eclk L.fbij L.abij Q.g_aaaa_vavavava Q.l2_abab Q.t2_abab Q.t2_abab),
    aug1 X.doubles_res (ein4 L.adfe L.lkcd L.celk L.fbij L.abij Q.g_abab_vavavava Q.l2_abab Q.t2_abab Q.t2_abab),
    aug1 X.doubles_res (ein4 L.adfe L.kldc L.eckl L.fbij L.abij Q.g_abab_vavavava Q.l2_bbbb Q.t2_bbbb Q.t2_abab),
    aug1 X.doubles_res (ein4 L.dbef L.kldc L.eckl L.afij L.abij Q.g_abab_vavavava Q.l2_aaaa Q.t2_aaaa Q.t2_abab),
    aug1 X.doubles_res (ein4 L.dbef L.kldc L.eckl L.afij L.abij Q.g_abab_vavavava Q.l2_abab Q.t2_abab Q.t2_abab),
    aug1 X.doubles_res (ein4 L.dbef L.klcd L.cekl L.afij L.abij Q.g_bbbb_vavavava Q.l2_abab Q.t2_abab Q.t2_abab),
    aug1 X.doubles_res (ein4 L.dbef L.lkdc L.eclk L.afij L.abij Q.g_abab_vavavava Q.l2_abab Q.t2_abab Q.t2_abab),
    aug1 X.doubles_res (ein4 L.dbef L.lkcd L.celk L.afij L.abij Q.g_bbbb_vavavava Q.l2_abab Q.t2_abab Q.t2_abab),
    aug1 X.doubles_res (ein4 L.dbef L.kldc L.eckl L.afij L.abij Q.g_bbbb_vavavava Q.l2_bbbb Q.t2_bbbb Q.t2_abab),
    aug1 X.doubles_res (ein4 L.daef L.lkdc L.eclj L.fbik L.abij Q.g_aaaa_vavavava Q.l2_abab Q.t2_abab Q.t2_abab),
    aug1 X.doubles_res (ein4 L.adfe L.lkcd L.celj L.fbik L.abij Q.g_abab_vavavava Q.l2_abab Q.t2_abab Q.t2_abab),
    aug1 X.doubles_res (ein4 L.adfe L.kldc L.ecjl L.fbik L.abij Q.g_abab_vavavava Q.l2_bbbb Q.t2_bbbb Q.t2_abab),
    aug1 X.doubles_res (ein4 L.dbfe L.kldc L.celj L.faik L.abij Q.g_abab_vavavava Q.l2_aaaa Q.t2_abab Q.t2_aaaa),
    aug1 X.doubles_res (ein4 L.dbfe L.kldc L.ecjl L.faik L.abij Q.g_abab_vavavava Q.l2_abab Q.t2_bbbb Q.t2_aaaa),
    aug1 X.doubles_res (ein4 L.dbef L.lkdc L.eclj L.afik L.abij Q.g_abab_vavavava Q.l2_abab Q.t2_abab Q.t2_abab),
    aug1 X.doubles_res (ein4 L.dbef L.lkcd L.celj L.afik L.abij Q.g_bbbb_vavavava Q.l2_abab Q.t2_abab Q.t2_abab),
    aug1 X.doubles_res (ein4 L.dbef L.kldc L.ecjl L.afik L.abij Q.g_bbbb_vavavava Q.l2_bbbb Q.t2_bbbb Q.t2_abab),
    aug1 X.doubles_res (ein4 L.daef L.kldc L.ecil L.fbkj L.abij Q.g_aaaa_vavavava Q.l2_aaaa Q.t2_aaaa Q.t2_abab),
    aug1 X.doubles_res (ein4 L.daef L.kldc L.ecil L.fbkj L.abij Q.g_aaaa_vavavava Q.l2_abab Q.t2_abab Q.t2_abab),
    aug1 X.doubles_res (ein4 L.adfe L.klcd L.ceil L.fbkj L.abij Q.g_abab_vavavava Q.l2_abab Q.t2_abab Q.t2_abab),
    aug1 X.doubles_res (ein4 L.adef L.lkcd L.ecil L.fbjk L.abij Q.g_abab_vavavava Q.l2_abab Q.t2_aaaa Q.t2_bbbb),
    aug1 X.doubles_res (ein4 L.adef L.kldc L.ecil L.fbjk L.abij Q.g_abab_vavavava Q.l2_bbbb Q.t2_abab Q.t2_bbbb),
    aug1 X.doubles_res (ein4 L.dbef L.kldc L.ecil L.afkj L.abij Q.g_abab_vavavava Q.l2_aaaa Q.t2_aaaa Q.t2_abab),
    aug1 X.doubles_res (ein4 L.dbef L.kldc L.ecil L.afkj L.abij Q.g_abab_vavavava Q.l2_abab Q.t2_abab Q.t2_abab),
    aug1 X.doubles_res (ein4 L.dbef L.klcd L.ceil L.afkj L.abij Q.g_bbbb_vavavava Q.l2_abab Q.t2_abab Q.t2_abab),
    aug1 X.doubles_res (ein4 L.daef L.kldc L.ecij L.fbkl L.abij Q.g_aaaa_vavavava Q.l2_abab Q.t2_abab Q.t2_abab),
    aug1 X.doubles_res (ein4 L.adfe L.klcd L.ceij L.fbkl L.abij Q.g_abab_vavavava Q.l2_abab Q.t2_abab Q.t2_abab),
    aug1 X.doubles_res (ein4 L.daef L.lkdc L.ecij L.fblk L.abij Q.g_aaaa_vavavava Q.l2_abab Q.t2_abab Q.t2_abab),
    aug1 X.doubles_res (ein4 L.adfe L.lkcd L.ceij L.fblk L.abij Q.g_abab_vavavava Q.l2_abab Q.t2_abab Q.t2_abab),
    aug1 X.doubles_res (ein4 L.adef L.kldc L.ecij L.fbkl L.abij Q.g_abab_vavavava Q.l2_bbbb Q.t2_abab Q.t2_bbbb),
    aug1 X.doubles_res (ein4 L.dbfe L.kldc L.ceij L.fakl L.abij Q.g_abab_vavavava Q.l2_aaaa Q.t2_abab Q.t2_aaaa),
    aug1 X.doubles_res (ein4 L.dbef L.kldc L.ecij L.afkl L.abij Q.g_abab_vavavava Q.l2_abab Q.t2_abab Q.t2_abab),
    aug1 X.doubles_res (ein4 L.dbef L.klcd L.ceij L.afkl L.abij Q.g_bbbb_vavavava Q.l2_abab Q.t2_abab Q.t2_abab),
    aug1 X.doubles_res (ein4 L.dbef L.lkdc L.ecij L.aflk L.abij Q.g_abab_vavavava Q.l2_abab Q.t2_abab Q.t2_abab),
    aug1 X.doubles_res (ein4 L.dbef L.lkcd L.ceij L.aflk L.abij Q.g_bbbb_vavavava Q.l2_abab Q.t2_abab Q.t2_abab),
    aug1 X.doubles_res (ein4 L.abef L.kldc L.edkl L.cfij L.abij Q.g_abab_vavavava Q.l2_aaaa Q.t2_aaaa Q.t2_abab),
    aug1 X.doubles_res (ein4 L.abfe L.kldc L.dekl L.fcij L.abij Q.g_abab_vavavava Q.l2_abab Q.t2_abab Q.t2_abab),
    aug1 X.doubles_res (ein4 L.abef L.klcd L.edkl L.cfij L.abij Q.g_abab_vavavava Q.l2_abab Q.t2_abab Q.t2_abab),
    aug1 X.doubles_res (ein4 L.abfe L.lkdc L.delk L.fcij L.abij Q.g_abab_vavavava Q.l2_abab Q.t2_abab Q.t2_abab),
    aug1 X.doubles_res (ein4 L.abef L.lkcd L.edlk L.cfij L.abij Q.g_abab_vavavava Q.l2_abab Q.t2_abab Q.t2_abab),
    aug1 X.doubles_res (ein4 L.abfe L.kldc L.edkl L.fcij L.abij Q.g_abab_vavavava Q.l2_bbbb Q.t2_bbbb Q.t2_abab),
    aug1 X.doubles_res (ein4 L.abfe L.kldc L.delj L.fcik L.abij Q.g_abab_vavavava Q.l2_aaaa Q.t2_abab Q.t2_aaaa),
    aug1 X.doubles_res (ein4 L.abfe L.klcd L.edjl L.fcik L.abij Q.g_abab_vavavava Q.l2_abab Q.t2_bbbb Q.t2_aaaa),
    aug1 X.doubles_res (ein4 L.abfe L.lkdc L.delj L.fcik L.abij Q.g_abab_vavavava Q.l2_abab Q.t2_abab Q.t2_abab),
    aug1 X.doubles_res (ein4 L.abef L.lkcd L.edlj L.cfik L.abij Q.g_abab_vavavava Q.l2_abab Q.t2_abab Q.t2_abab),
    aug1 X.doubles_res (ein4 L.abfe L.kldc L.edjl L.fcik L.abij Q.g_abab_vavavava Q.l2_bbbb Q.t2_bbbb Q.t2_abab),
    aug1 X.doubles_res (ein4 L.abef L.kldc L.edil L.cfkj L.abij Q.g_abab_vavavava Q.l2_aaaa Q.t2_aaaa Q.t2_abab),
    aug1 X.doubles_res (ein4 L.abfe L.kldc L.deil L.fckj L.abij Q.g_abab_vavavava Q.l2_abab Q.t2_abab Q.t2_abab),
    aug1 X.doubles_res (ein4 L.abef L.klcd L.edil L.cfkj L.abij Q.g_abab_vavavava Q.l2_abab Q.t2_abab Q.t2_abab),
    aug1 X.doubles_res (ein4 L.abef L.lkdc L.edil L.fcjk L.abij Q.g_abab_vavavava Q.l2_abab Q.t2_aaaa Q.t2_bbbb),
    aug1 X.doubles_res (ein4 L.abef L.kldc L.edil L.fcjk L.abij Q.g_abab_vavavava Q.l2_bbbb Q.t2_abab Q.t2_bbbb),
    aug1 X.doubles_res (ein3 L.mdkl L.kldc L.cabimj L.abij Q.g_aaaa_oavaoaoa Q.l2_aaaa Q.t3_aabaab),
    aug1 X.doubles_res (ein3 L.dmkl L.kldc L.acbijm L.abij Q.g_abab_vaoaoaoa Q.l2_abab Q.t3_abbabb),
    aug1 X.doubles_res (ein3 L.mdkl L.klcd L.cabimj L.abij Q.g_abab_oavaoaoa Q.l2_abab Q.t3_aabaab),
    aug1 X.doubles_res (ein3 L.dmlk L.lkdc L.acbijm L.abij Q.g_abab_vaoaoaoa Q.l2_abab Q.t3_abbabb),
    aug1 X.doubles_res (ein3 L.mdlk L.lkcd L.cabimj L.abij Q.g_abab_oavaoaoa Q.l2_abab Q.t3_aabaab),
    aug1 X.doubles_res (ein3 L.mdkl L.kldc L.acbijm L.abij Q.g_bbbb_oavaoaoa Q.l2_bbbb Q.t3_abbabb),
    aug1 X.doubles_res (ein3 L.dmlj L.kldc L.cabikm L.abij Q.g_abab_vaoaoaoa Q.l2_aaaa Q.t3_aabaab),
    aug1 X.doubles_res (ein3 L.mdjl L.klcd L.cabikm L.abij Q.g_bbbb_oavaoaoa Q.l2_abab Q.t3_aabaab),
    aug1 X.doubles_res (ein3 L.dmlj L.lkdc L.acbikm L.abij Q.g_abab_vaoaoaoa Q.l2_abab Q.t3_abbabb),
    aug1 X.doubles_res (ein3 L.mdlj L.lkcd L.cabimk L.abij Q.g_abab_oavaoaoa Q.l2_abab Q.t3_aabaab),
    aug1 X.doubles_res (ein3 L.mdjl L.kldc L.acbikm L.abij Q.g_bbbb_oavaoaoa Q.l2_bbbb Q.t3_abbabb),
    aug1 X.doubles_res (ein3 L.mdil L.kldc L.cabmkj L.abij Q.g_aaaa_oavaoaoa Q.l2_aaaa Q.t3_aabaab),
    aug1 X.doubles_res (ein3 L.dmil L.kldc L.acbkjm L.abij Q.g_abab_vaoaoaoa Q.l2_abab Q.t3_abbabb),
    aug1 X.doubles_res (ein3 L.mdil L.klcd L.cabmkj L.abij Q.g_abab_oavaoaoa Q.l2_abab Q.t3_aabaab),
    aug1 X.doubles_res (ein3 L.mdil L.lkdc L.acbmkj L.abij Q.g_aaaa_oavaoaoa Q.l2_abab Q.t3_abbabb),
    aug1 X.doubles_res (ein3 L.mdil L.kldc L.acbmkj L.abij Q.g_abab_oavaoaoa Q.l2_bbbb Q.t3_abbabb),
    aug1 X.doubles_res (ein3 L.dmij L.kldc L.cabklm L.abij Q.g_abab_vaoaoaoa Q.l2_aaaa Q.t3_aabaab),
    aug1 X.doubles_res (ein3 L.dmij L.kldc L.acbklm L.abij Q.g_abab_vaoaoaoa Q.l2_abab Q.t3_abbabb),
    aug1 X.doubles_res (ein3 L.mdij L.klcd L.cabkml L.abij Q.g_abab_oavaoaoa Q.l2_abab Q.t3_aabaab),
    aug1 X.doubles_res (ein3 L.dmij L.lkdc L.acblkm L.abij Q.g_abab_vaoaoaoa Q.l2_abab Q.t3_abbabb),
    aug1 X.doubles_res (ein3 L.mdij L.lkcd L.cabmlk L.abij Q.g_abab_oavaoaoa Q.l2_abab Q.t3_aabaab),
    aug1 X.doubles_res (ein3 L.mdij L.kldc L.acbmlk L.abij Q.g_abab_oavaoaoa Q.l2_bbbb Q.t3_abbabb),
    aug1 X.doubles_res (ein3 L.makl L.kldc L.dcbimj L.abij Q.g_aaaa_oavaoaoa Q.l2_aaaa Q.t3_aabaab),
    aug1 X.doubles_res (ein3 L.amkl L.kldc L.dcbijm L.abij Q.g_abab_vaoaoaoa Q.l2_abab Q.t3_abbabb),
    aug1 X.doubles_res (ein3 L.amkl L.klcd L.cdbijm L.abij Q.g_abab_vaoaoaoa Q.l2_abab Q.t3_abbabb),
    aug1 X.doubles_res (ein3 L.amlk L.lkdc L.dcbijm L.abij Q.g_abab_vaoaoaoa Q.l2_abab Q.t3_abbabb),
    aug1 X.doubles_res (ein3 L.amlk L.lkcd L.cdbijm L.abij Q.g_abab_vaoaoaoa Q.l2_abab Q.t3_abbabb),
    aug1 X.doubles_res (ein3 L.mbkl L.kldc L.dacimj L.abij Q.g_abab_oavaoaoa Q.l2_abab Q.t3_aabaab),
    aug1 X.doubles_res (ein3 L.mbkl L.klcd L.acdimj L.abij Q.g_abab_oavaoaoa Q.l2_abab Q.t3_aabaab),
    aug1 X.doubles_res (ein3 L.mblk L.lkdc L.dacimj L.abij Q.g_abab_oavaoaoa Q.l2_abab Q.t3_aabaab),
    aug1 X.doubles_res (ein3 L.mblk L.lkcd L.acdimj L.abij Q.g_abab_oavaoaoa Q.l2_abab Q.t3_aabaab),
    aug1 X.doubles_res (ein3 L.mbkl L.kldc L.acdijm L.abij Q.g_bbbb_oavaoaoa Q.l2_bbbb Q.t3_abbabb),
    aug1 X.doubles_res (ein3 L.amlj L.kldc L.dcbikm L.abij Q.g_abab_vaoaoaoa Q.l2_aaaa Q.t3_aabaab),
    aug1 X.doubles_res (ein3 L.amlj L.lkdc L.dcbikm L.abij Q.g_abab_vaoaoaoa Q.l2_abab Q.t3_abbabb),
    aug1 X.doubles_res (ein3 L.amlj L.lkcd L.cdbikm L.abij Q.g_abab_vaoaoaoa Q.l2_abab Q.t3_abbabb),
    aug1 X.doubles_res (ein3 L.mblj L.kldc L.dcaikm L.abij Q.g_abab_oavaoaoa Q.l2_aaaa Q.t3_aaaaaa),
    aug1 X.doubles_res (ein3 L.mbjl L.kldc L.dacikm L.abij Q.g_bbbb_oavaoaoa Q.l2_abab Q.t3_aabaab),
    aug1 X.doubles_res (ein3 L.mbjl L.klcd L.acdikm L.abij Q.g_bbbb_oavaoaoa Q.l2_abab Q.t3_aabaab),
    aug1 X.doubles_res (ein3 L.mblj L.lkdc L.dacimk L.abij Q.g_abab_oavaoaoa Q.l2_abab Q.t3_aabaab),
    aug1 X.doubles_res (ein3 L.mblj L.lkcd L.acdimk L.abij Q.g_abab_oavaoaoa Q.l2_abab Q.t3_aabaab),
    aug1 X.doubles_res (ein3 L.mbjl L.kldc L.acdikm L.abij Q.g_bbbb_oavaoaoa Q.l2_bbbb Q.t3_abbabb),
    aug1 X.doubles_res (ein3 L.mail L.kldc L.dcbmkj L.abij Q.g_aaaa_oavaoaoa Q.l2_aaaa Q.t3_aabaab),
    aug1 X.doubles_res (ein3 L.amil L.kldc L.dcbkjm L.abij Q.g_abab_vaoaoaoa Q.l2_abab Q.t3_abbabb),
    aug1 X.doubles_res (ein3 L.amil L.klcd L.cdbkjm L.abij Q.g_abab_vaoaoaoa Q.l2_abab Q.t3_abbabb),
    aug1 X.doubles_res (ein3 L.mail L.lkdc L.dcbmkj L.abij Q.g_aaaa_oavaoaoa Q.l2_abab Q.t3_abbabb),
    aug1 X.doubles_res (ein3 L.mail L.lkcd L.cdbmkj L.abij Q.g_aaaa_oavaoaoa Q.l2_abab Q.t3_abbabb),
    aug1 X.doubles_res (ein3 L.amil L.kldc L.dcbjkm L.abij Q.g_abab_vaoaoaoa Q.l2_bbbb Q.t3_bbbbbb),
    aug1 X.doubles_res (ein3 L.mbil L.kldc L.dacmkj L.abij Q.g_abab_oavaoaoa Q.l2_abab Q.t3_aabaab),
    aug1 X.doubles_res (ein3 L.mbil L.klcd L.acdmkj L.abij Q.g_abab_oavaoaoa Q.l2_abab Q.t3_aabaab),
    aug1 X.doubles_res (ein3 L.mbil L.kldc L.acdmkj L.abij Q.g_abab_oavaoaoa Q.l2_bbbb Q.t3_abbabb),
    aug1 X.doubles_res (ein3 L.amij L.kldc L.dcbklm L.abij Q.g_abab_vaoaoaoa Q.l2_aaaa Q.t3_aabaab),
    aug1 X.doubles_res (ein3 L.amij L.kldc L.dcbklm L.abij Q.g_abab_vaoaoaoa Q.l2_abab Q.t3_abbabb),
    aug1 X.doubles_res (ein3 L.amij L.klcd L.cdbklm L.abij Q.g_abab_vaoaoaoa Q.l2_abab Q.t3_abbabb),
    aug1 X.doubles_res (ein3 L.amij L.lkdc L.dcblkm L.abij Q.g_abab_vaoaoaoa Q.l2_abab Q.t3_abbabb),
    aug1 X.doubles_res (ein3 L.amij L.lkcd L.cdblkm L.abij Q.g_abab_vaoaoaoa Q.l2_abab Q.t3_abbabb),
    aug1 X.doubles_res (ein3 L.amij L.kldc L.dcbklm L.abij Q.g_abab_vaoaoaoa Q.l2_bbbb Q.t3_bbbbbb),
    aug1 X.doubles_res (ein3 L.mbij L.kldc L.dcaklm L.abij Q.g_abab_oavaoaoa Q.l2_aaaa Q.t3_aaaaaa),
    aug1 X.doubles_res (ein3 L.mbij L.kldc L.dackml L.abij Q.g_abab_oavaoaoa Q.l2_abab Q.t3_aabaab),
    aug1 X.doubles_res (ein3 L.mbij L.klcd L.acdkml L.abij Q.g_abab_oavaoaoa Q.l2_abab Q.t3_aabaab),
    aug1 X.doubles_res (ein3 L.mbij L.lkdc L.dacmlk L.abij Q.g_abab_oavaoaoa Q.l2_abab Q.t3_aabaab),
    aug1 X.doubles_res (ein3 L.mbij L.lkcd L.acdmlk L.abij Q.g_abab_oavaoaoa Q.l2_abab Q.t3_aabaab),
    aug1 X.doubles_res (ein3 L.mbij L.kldc L.acdmlk L.abij Q.g_abab_oavaoaoa Q.l2_bbbb Q.t3_abbabb),
    aug1 X.doubles_res (ein3 L.dcel L.kldc L.eabikj L.abij Q.g_aaaa_vavavaoa Q.l2_aaaa Q.t3_aabaab),
    aug1 X.doubles_res (ein3 L.dcel L.kldc L.eabikj L.abij Q.g_abab_vavavaoa Q.l2_abab Q.t3_aabaab),
    aug1 X.doubles_res (ein3 L.cdel L.klcd L.eabikj L.abij Q.g_abab_vavavaoa Q.l2_abab Q.t3_aabaab),
    aug1 X.doubles_res (ein3 L.dcle L.lkdc L.aebijk L.abij Q.g_abab_vavaoava Q.l2_abab Q.t3_abbabb),
    aug1 X.doubles_res (ein3 L.cdle L.lkcd L.aebijk L.abij Q.g_abab_vavaoava Q.l2_abab Q.t3_abbabb),
    aug1 X.doubles_res (ein3 L.dcel L.kldc L.aebijk L.abij Q.g_bbbb_vavavaoa Q.l2_bbbb Q.t3_abbabb),
    aug1 X.doubles_res (ein3 L.dcej L.kldc L.eabikl L.abij Q.g_abab_vavavaoa Q.l2_abab Q.t3_aabaab),
    aug1 X.doubles_res (ein3 L.cdej L.klcd L.eabikl L.abij Q.g_abab_vavavaoa Q.l2_abab Q.t3_aabaab),
    aug1 X.doubles_res (ein3 L.dcej L.lkdc L.eabilk L.abij Q.g_abab_vavavaoa Q.l2_abab Q.t3_aabaab),
    aug1 X.doubles_res (ein3 L.cdej L.lkcd L.eabilk L.abij Q.g_abab_vavavaoa Q.l2_abab Q.t3_aabaab),
    aug1 X.doubles_res (ein3 L.dcej L.kldc L.aebikl L.abij Q.g_bbbb_vavavaoa Q.l2_bbbb Q.t3_abbabb),
    aug1 X.doubles_res (ein3 L.dcei L.kldc L.eablkj L.abij Q.g_aaaa_vavavaoa Q.l2_aaaa Q.t3_aabaab),
    aug1 X.doubles_res (ein3 L.dcie L.kldc L.aebkjl L.abij Q.g_abab_vavaoava Q.l2_abab Q.t3_abbabb),
    aug1 X.doubles_res (ein3 L.cdie L.klcd L.aebkjl L.abij Q.g_abab_vavaoava Q.l2_abab Q.t3_abbabb),
    aug1 X.doubles_res (ein3 L.dcie L.lkdc L.aeblkj L.abij Q.g_abab_vavaoava Q.l2_abab Q.t3_abbabb),
    aug1 X.doubles_res (ein3 L.cdie L.lkcd L.aeblkj L.abij Q.g_abab_vavaoava Q.l2_abab Q.t3_abbabb),
    aug1 X.doubles_res (ein3 L.dael L.kldc L.ecbikj L.abij Q.g_aaaa_vavavaoa Q.l2_aaaa Q.t3_aabaab),
    aug1 X.doubles_res (ein3 L.adel L.klcd L.ecbikj L.abij Q.g_abab_vavavaoa Q.l2_abab Q.t3_aabaab),
    aug1 X.doubles_res (ein3 L.dael L.lkdc L.ecbijk L.abij Q.g_aaaa_vavavaoa Q.l2_abab Q.t3_abbabb),
    aug1 X.doubles_res (ein3 L.adle L.lkcd L.cebijk L.abij Q.g_abab_vavaoava Q.l2_abab Q.t3_abbabb),
    aug1 X.doubles_res (ein3 L.adel L.kldc L.ecbijk L.abij Q.g_abab_vavavaoa Q.l2_bbbb Q.t3_abbabb),
    aug1 X.doubles_res (ein3 L.dble L.kldc L.aceikj L.abij Q.g_abab_vavaoava Q.l2_aaaa Q.t3_aabaab),
    aug1 X.doubles_res (ein3 L.dbel L.kldc L.eacikj L.abij Q.g_abab_vavavaoa Q.l2_abab Q.t3_aabaab),
    aug1 X.doubles_res (ein3 L.dbel L.klcd L.aceikj L.abij Q.g_bbbb_vavavaoa Q.l2_abab Q.t3_aabaab),
    aug1 X.doubles_res (ein3 L.dble L.lkdc L.aceijk L.abij Q.g_abab_vavaoava Q.l2_abab Q.t3_abbabb),
    aug1 X.doubles_res (ein3 L.dbel L.kldc L.aceijk L.abij Q.g_bbbb_vavavaoa Q.l2_bbbb Q.t3_abbabb),
    aug1 X.doubles_res (ein3 L.adej L.klcd L.ecbikl L.abij Q.g_abab_vavavaoa Q.l2_abab Q.t3_aabaab),
    aug1 X.doubles_res (ein3 L.adej L.lkcd L.ecbilk L.abij Q.g_abab_vavavaoa Q.l2_abab Q.t3_aabaab),
    aug1 X.doubles_res (ein3 L.adej L.kldc L.ecbikl L.abij Q.g_abab_vavavaoa Q.l2_bbbb Q.t3_abbabb),
    aug1 X.doubles_res (ein3 L.dbej L.kldc L.ecaikl L.abij Q.g_abab_vavavaoa Q.l2_aaaa Q.t3_aaaaaa),
    aug1 X.doubles_res (ein3 L.dbej L.kldc L.eacikl L.abij Q.g_abab_vavavaoa Q.l2_abab Q.t3_aabaab),
    aug1 X.doubles_res (ein3 L.dbej L.klcd L.aceikl L.abij Q.g_bbbb_vavavaoa Q.l2_abab Q.t3_aabaab),
    aug1 X.doubles_res (ein3 L.dbej L.lkdc L.eacilk L.abij Q.g_abab_vavavaoa Q.l2_abab Q.t3_aabaab),
    aug1 X.doubles_res (ein3 L.dbej L.lkcd L.aceilk L.abij Q.g_bbbb_vavavaoa Q.l2_abab Q.t3_aabaab),
    aug1 X.doubles_res (ein3 L.dbej L.kldc L.aceikl L.abij Q.g_bbbb_vavavaoa Q.l2_bbbb Q.t3_abbabb),
    aug1 X.doubles_res (ein3 L.daei L.kldc L.ecblkj L.abij Q.g_aaaa_vavavaoa Q.l2_aaaa Q.t3_aabaab),
    aug1 X.doubles_res (ein3 L.daei L.kldc L.ecbkjl L.abij Q.g_aaaa_vavavaoa Q.l2_abab Q.t3_abbabb),
    aug1 X.doubles_res (ein3 L.adie L.klcd L.cebkjl L.abij Q.g_abab_vavaoava Q.l2_abab Q.t3_abbabb),
    aug1 X.doubles_res (ein3 L.daei L.lkdc L.ecblkj L.abij Q.g_aaaa_vavavaoa Q.l2_abab Q.t3_abbabb),
    aug1 X.doubles_res (ein3 L.adie L.lkcd L.ceblkj L.abij Q.g_abab_vavaoava Q.l2_abab Q.t3_abbabb),
    aug1 X.doubles_res (ein3 L.adie L.kldc L.ecbjkl L.abij Q.g_abab_vavaoava Q.l2_bbbb Q.t3_bbbbbb),
    aug1 X.doubles_res (ein3 L.dbie L.kldc L.acelkj L.abij Q.g_abab_vavaoava Q.l2_aaaa Q.t3_aabaab),
    aug1 X.doubles_res (ein3 L.dbie L.kldc L.acekjl L.abij Q.g_abab_vavaoava Q.l2_abab Q.t3_abbabb),
    aug1 X.doubles_res (ein3 L.dbie L.lkdc L.acelkj L.abij Q.g_abab_vavaoava Q.l2_abab Q.t3_abbabb),
    aug1 X.doubles_res (ein3 L.able L.kldc L.cdeikj L.abij Q.g_abab_vavaoava Q.l2_aaaa Q.t3_aabaab),
    aug1 X.doubles_res (ein3 L.abel L.kldc L.edcikj L.abij Q.g_abab_vavavaoa Q.l2_abab Q.t3_aabaab),
    aug1 X.doubles_res (ein3 L.abel L.klcd L.ecdikj L.abij Q.g_abab_vavavaoa Q.l2_abab Q.t3_aabaab),
    aug1 X.doubles_res (ein3 L.able L.lkdc L.decijk L.abij Q.g_abab_vavaoava Q.l2_abab Q.t3_abbabb),
    aug1 X.doubles_res (ein3 L.able L.lkcd L.cdeijk L.abij Q.g_abab_vavaoava Q.l2_abab Q.t3_abbabb),
    aug1 X.doubles_res (ein3 L.abel L.kldc L.edcijk L.abij Q.g_abab_vavavaoa Q.l2_bbbb Q.t3_abbabb),
    aug1 X.doubles_res (ein3 L.abej L.kldc L.edcikl L.abij Q.g_abab_vavavaoa Q.l2_aaaa Q.t3_aaaaaa),
    aug1 X.doubles_res (ein3 L.abej L.kldc L.edcikl L.abij Q.g_abab_vavavaoa Q.l2_abab Q.t3_aabaab),
    aug1 X.doubles_res (ein3 L.abej L.klcd L.ecdikl L.abij Q.g_abab_vavavaoa Q.l2_abab Q.t3_aabaab),
    aug1 X.doubles_res (ein3 L.abej L.lkdc L.edcilk L.abij Q.g_abab_vavavaoa Q.l2_abab Q.t3_aabaab),
    aug1 X.doubles_res (ein3 L.abej L.lkcd L.ecdilk L.abij Q.g_abab_vavavaoa Q.l2_abab Q.t3_aabaab),
    aug1 X.doubles_res (ein3 L.abej L.kldc L.edcikl L.abij Q.g_abab_vavavaoa Q.l2_bbbb Q.t3_abbabb),
    aug1 X.doubles_res (ein3 L.abie L.kldc L.cdelkj L.abij Q.g_abab_vavaoava Q.l2_aaaa Q.t3_aabaab),
    aug1 X.doubles_res (ein3 L.abie L.kldc L.deckjl L.abij Q.g_abab_vavaoava Q.l2_abab Q.t3_abbabb),
    aug1 X.doubles_res (ein3 L.abie L.klcd L.cdekjl L.abij Q.g_abab_vavaoava Q.l2_abab Q.t3_abbabb),
    aug1 X.doubles_res (ein3 L.abie L.lkdc L.declkj L.abij Q.g_abab_vavaoava Q.l2_abab Q.t3_abbabb),
    aug1 X.doubles_res (ein3 L.abie L.lkcd L.cdelkj L.abij Q.g_abab_vavaoava Q.l2_abab Q.t3_abbabb),
    aug1 X.doubles_res (ein3 L.abie L.kldc L.edcjkl L.abij Q.g_abab_vavaoava Q.l2_bbbb Q.t3_bbbbbb)]
  ret := [Q.doubles_res]

end Verif.Shape.Prog
