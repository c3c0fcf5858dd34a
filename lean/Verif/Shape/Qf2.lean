import Verif.Shape.Names

/-!
# Shape programs of modify_T2resid_T4Qf2.py (generated by tools/shapegen.py)

Every statement of the functions with the subscripts and operands as written; see `Verif.Shape.Core`.
-/

set_option maxRecDepth 100000

namespace Verif.Shape.Prog

open Verif.Shape

/-- `modify_T2resid_T4Qf2.py` 6-1308: `residQf2_aaaa`; 781 einsum calls. -/
def modify_T2resid_T4Qf2_residQf2_aaaa : Fn where
  params := [X.g_aaaa, X.g_bbbb, X.g_abab, X.l2_aaaa, X.l2_bbbb, X.l2_abab, X.t2_aaaa, X.t2_bbbb, X.t2_abab]
  body := [
    set1 X.g_aaaa (.arg Q.g_aaaa),
    set1 X.g_bbbb (.arg Q.g_bbbb),
    set1 X.g_abab (.arg Q.g_abab),
    set1 X.l2_aaaa (.arg Q.l2_aaaa),
    set1 X.l2_bbbb (.arg Q.l2_bbbb),
    set1 X.l2_abab (.arg Q.l2_abab),
    set1 X.t2_aaaa (.arg Q.t2_aaaa),
    set1 X.t2_bbbb (.arg Q.t2_bbbb),
    set1 X.t2_abab (.arg Q.t2_abab),
    set1 X.contracted_intermediate (ein5 L.nmef L.kldc L.efkl L.dcjm L.abin L.abij Q.g_aaaa_oovv Q.l2_aaaa Q.t2_aaaa Q.t2_aaaa Q.t2_aaaa),
    .set X.double_res [.arg Q.contracted_intermediate, ein1 L.abij L.abji Q.contracted_intermediate],
    set1 X.contracted_intermediate (ein5 L.nmef L.kldc L.efkl L.dcjm L.abin L.abij Q.g_abab_oovv Q.l2_abab Q.t2_abab Q.t2_abab Q.t2_aaaa),
    .aug X.double_res [.arg Q.contracted_intermediate, ein1 L.abij L.abji Q.contracted_intermediate],
    set1 X.contracted_intermediate (ein5 L.nmfe L.kldc L.fekl L.dcjm L.abin L.abij Q.g_abab_oovv Q.l2_abab Q.t2_abab Q.t2_abab Q.t2_aaaa),
    .aug X.double_res [.arg Q.contracted_intermediate, ein1 L.abij L.abji Q.contracted_intermediate],
    set1 X.contracted_intermediate (ein5 L.nmef L.klcd L.efkl L.cdjm L.abin L.abij Q.g_abab_oovv Q.l2_abab Q.t2_abab Q.t2_abab Q.t2_aaaa),
    .aug X.double_res [.arg Q.contracted_intermediate, ein1 L.abij L.abji Q.contracted_intermediate],
    set1 X.contracted_intermediate (ein5 L.nmfe L.klcd L.fekl L.cdjm L.abin L.abij Q.g_abab_oovv Q.l2_abab Q.t2_abab Q.t2_abab Q.t2_aaaa),
    .aug X.double_res [.arg Q.contracted_intermediate, ein1 L.abij L.abji Q.contracted_intermediate],
    set1 X.contracted_intermediate (ein5 L.nmef L.lkdc L.eflk L.dcjm L.abin L.abij Q.g_abab_oovv Q.l2_abab Q.t2_abab Q.t2_abab Q.t2_aaaa),
    .aug X.double_res [.arg Q.contracted_intermediate, ein1 L.abij L.abji Q.contracted_intermediate],
    set1 X.contracted_intermediate (ein5 L.nmfe L.lkdc L.felk L.dcjm L.abin L.abij Q.g_abab_oovv Q.l2_abab Q.t2_abab Q.t2_abab Q.t2_aaaa),
    .aug X.double_res [.arg Q.contracted_intermediate, ein1 L.abij L.abji Q.contracted_intermediate],
    set1 X.contracted_intermediate (ein5 L.nmef L.lkcd L.eflk L.cdjm L.abin L.abij Q.g_abab_oovv Q.l2_abab Q.t2_abab Q.t2_abab Q.t2_aaaa),
    .aug X.double_res [.arg Q.contracted_intermediate, ein1 L.abij L.abji Q.contracted_intermediate],
    set1 X.contracted_intermediate (ein5 L.nmfe L.lkcd L.felk L.cdjm L.abin L.abij Q.g_abab_oovv Q.l2_abab Q.t2_abab Q.t2_abab Q.t2_aaaa),
    .aug X.double_res [.arg Q.contracted_intermediate, ein1 L.abij L.abji Q.contracted_intermediate],
    set1 X.contracted_intermediate (ein5 L.nmef L.kldc L.efkl L.dajm L.cbin L.abij Q.g_aaaa_oovv Q.l2_aaaa Q.t2_aaaa Q.t2_aaaa Q.t2_aaaa),
    .aug X.double_res [.arg Q.contracted_intermediate, ein1 L.abij L.abji Q.contracted_intermediate],
    set1 X.contracted_intermediate (ein5 L.mnef L.kldc L.efkl L.dajm L.bcin L.abij Q.g_abab_oovv Q.l2_abab Q.t2_abab Q.t2_aaaa Q.t2_abab),
    .aug X.double_res [.arg Q.contracted_intermediate, ein1 L.abij L.abji Q.contracted_intermediate],
    set1 X.contracted_intermediate (ein5 L.mnfe L.kldc L.fekl L.dajm L.bcin L.abij Q.g_abab_oovv Q.l2_abab Q.t2_abab Q.t2_aaaa Q.t2_abab),
    .aug X.double_res [.arg Q.contracted_intermediate, ein1 L.abij L.abji Q.contracted_intermediate],
    set1 X.contracted_intermediate (ein5 L.nmef L.klcd L.efkl L.adjm L.cbin L.abij Q.g_abab_oovv Q.l2_abab Q.t2_abab Q.t2_abab Q.t2_aaaa),
    .aug X.double_res [.arg Q.contracted_intermediate, ein1 L.abij L.abji Q.contracted_intermediate],
    set1 X.contracted_intermediate (ein5 L.nmfe L.klcd L.fekl L.adjm L.cbin L.abij Q.g_abab_oovv Q.l2_abab Q.t2_abab Q.t2_abab Q.t2_aaaa),
    .aug X.double_res [.arg Q.contracted_intermediate, ein1 L.abij L.abji Q.contracted_intermediate],
    set1 X.contracted_intermediate (ein5 L.mnef L.lkdc L.eflk L.dajm L.bcin L.abij Q.g_abab_oovv Q.l2_abab Q.t2_abab Q.t2_aaaa Q.t2_abab),
    .aug X.double_res [.arg Q.contracted_intermediate, ein1 L.abij L.abji Q.contracted_intermediate],
    set1 X.contracted_intermediate (ein5 L.mnfe L.lkdc L.felk L.dajm L.bcin L.abij Q.g_abab_oovv Q.l2_abab Q.t2_abab Q.t2_aaaa Q.t2_abab),
    .aug X.double_res [.arg Q.contracted_intermediate, ein1 L.abij L.abji Q.contracted_intermediate],
    set1 X.contracted_intermediate (ein5 L.nmef L.lkcd L.eflk L.adjm L.cbin L.abij Q.g_abab_oovv Q.l2_abab Q.t2_abab Q.t2_abab Q.t2_aaaa),
    .aug X.double_res [.arg Q.contracted_intermediate, ein1 L.abij L.abji Q.contracted_intermediate],
    set1 X.contracted_intermediate (ein5 L.nmfe L.lkcd L.felk L.adjm L.cbin L.abij Q.g_abab_oovv Q.l2_abab Q.t2_abab Q.t2_abab Q.t2_aaaa),
    .aug X.double_res [.arg Q.contracted_intermediate, ein1 L.abij L.abji Q.contracted_intermediate],
    set1 X.contracted_intermediate (ein5 L.nmef L.kldc L.efkl L.adjm L.bcin L.abij Q.g_bbbb_oovv Q.l2_bbbb Q.t2_bbbb Q.t2_abab Q.t2_abab),
    .aug X.double_res [.arg Q.contracted_intermediate, ein1 L.abij L.abji Q.contracted_intermediate],
    set1 X.contracted_intermediate (ein5 L.nmef L.kldc L.efjl L.dckm L.abin L.abij Q.g_aaaa_oovv Q.l2_aaaa Q.t2_aaaa Q.t2_aaaa Q.t2_aaaa),
    .aug X.double_res [.arg Q.contracted_intermediate, ein1 L.abij L.abji Q.contracted_intermediate],
    set1 X.contracted_intermediate (ein5 L.nmef L.kldc L.efjl L.dckm L.abin L.abij Q.g_abab_oovv Q.l2_abab Q.t2_abab Q.t2_abab Q.t2_aaaa),
    .aug X.double_res [.arg Q.contracted_intermediate, ein1 L.abij L.abji Q.contracted_intermediate],
    set1 X.contracted_intermediate (ein5 L.nmfe L.kldc L.fejl L.dckm L.abin L.abij Q.g_abab_oovv Q.l2_abab Q.t2_abab Q.t2_abab Q.t2_aaaa),
    .aug X.double_res [.arg Q.contracted_intermediate, ein1 L.abij L.abji Q.contracted_intermediate],
    set1 X.contracted_intermediate (ein5 L.nmef L.klcd L.efjl L.cdkm L.abin L.abij Q.g_abab_oovv Q.l2_abab Q.t2_abab Q.t2_abab Q.t2_aaaa),
    .aug X.double_res [.arg Q.contracted_intermediate, ein1 L.abij L.abji Q.contracted_intermediate],
    set1 X.contracted_intermediate (ein5 L.nmfe L.klcd L.fejl L.cdkm L.abin L.abij Q.g_abab_oovv Q.l2_abab Q.t2_abab Q.t2_abab Q.t2_aaaa),
    .aug X.double_res [.arg Q.contracted_intermediate, ein1 L.abij L.abji Q.contracted_intermediate],
    set1 X.contracted_intermediate (ein5 L.nmef L.lkdc L.efjl L.dcmk L.abin L.abij Q.g_aaaa_oovv Q.l2_abab Q.t2_aaaa Q.t2_abab Q.t2_aaaa),
    .aug X.double_res [.arg Q.contracted_intermediate, ein1 L.abij L.abji Q.contracted_intermediate],
    set1 X.contracted_intermediate (ein5 L.nmef L.lkcd L.efjl L.cdmk L.abin L.abij Q.g_aaaa_oovv Q.l2_abab Q.t2_aaaa Q.t2_abab Q.t2_aaaa),
    .aug X.double_res [.arg Q.contracted_intermediate, ein1 L.abij L.abji Q.contracted_intermediate],
    set1 X.contracted_intermediate (ein5 L.nmef L.kldc L.efjl L.dckm L.abin L.abij Q.g_abab_oovv Q.l2_bbbb Q.t2_abab Q.t2_bbbb Q.t2_aaaa),
    .aug X.double_res [.arg Q.contracted_intermediate, ein1 L.abij L.abji Q.contracted_intermediate],
    set1 X.contracted_intermediate (ein5 L.nmfe L.kldc L.fejl L.dckm L.abin L.abij Q.g_abab_oovv Q.l2_bbbb Q.t2_abab Q.t2_bbbb Q.t2_aaaa),
    .aug X.double_res [.arg Q.contracted_intermediate, ein1 L.abij L.abji Q.contracted_intermediate],
    set1 X.contracted_intermediate (ein5 L.nmef L.kldc L.efjl L.dcim L.abkn L.abij Q.g_aaaa_oovv Q.l2_aaaa Q.t2_aaaa Q.t2_aaaa Q.t2_aaaa),
    .aug X.double_res [.arg Q.contracted_intermediate, ein1 L.abij L.abji Q.contracted_intermediate],
    set1 X.contracted_intermediate (ein5 L.nmef L.kldc L.efjl L.dcim L.abkn L.abij Q.g_abab_oovv Q.l2_abab Q.t2_abab Q.t2_abab Q.t2_aaaa),
    .aug X.double_res [.arg Q.contracted_intermediate, ein1 L.abij L.abji Q.contracted_intermediate],
    set1 X.contracted_intermediate (ein5 L.nmfe L.kldc L.fejl L.dcim L.abkn L.abij Q.g_abab_oovv Q.l2_abab Q.t2_abab Q.t2_abab Q.t2_aaaa),
    .aug X.double_res [.arg Q.contracted_intermediate, ein1 L.abij L.abji Q.contracted_intermediate],
    set1 X.contracted_intermediate (ein5 L.nmef L.klcd L.efjl L.cdim L.abkn L.abij Q.g_abab_oovv Q.l2_abab Q.t2_abab Q.t2_abab Q.t2_aaaa),
    .aug X.double_res [.arg Q.contracted_intermediate, ein1 L.abij L.abji Q.contracted_intermediate],
    set1 X.contracted_intermediate (ein5 L.nmfe L.klcd L.fejl L.cdim L.abkn L.abij Q.g_abab_oovv Q.l2_abab Q.t2_abab Q.t2_abab Q.t2_aaaa),
    .aug X.double_res [.arg Q.contracted_intermediate, ein1 L.abij L.abji Q.contracted_intermediate],
    set1 X.contracted_intermediate (ein5 L.nmef L.kldc L.efjl L.dakm L.cbin L.abij Q.g_aaaa_oovv Q.l2_aaaa Q.t2_aaaa Q.t2_aaaa Q.t2_aaaa),
    .aug X.double_res [.arg Q.contracted_intermediate, ein1 L.abij L.abji Q.contracted_intermediate],
    set1 X.contracted_intermediate (ein5 L.mnef L.kldc L.efjl L.dakm L.bcin L.abij Q.g_abab_oovv Q.l2_abab Q.t2_abab Q.t2_aaaa Q.t2_abab),
    .aug X.double_res [.arg Q.contracted_intermediate, ein1 L.abij L.abji Q.contracted_intermediate],
    set1 X.contracted_intermediate (ein5 L.mnfe L.kldc L.fejl L.dakm L.bcin L.abij Q.g_abab_oovv Q.l2_abab Q.t2_abab Q.t2_aaaa Q.t2_abab),
    .aug X.double_res [.arg Q.contracted_intermediate, ein1 L.abij L.abji Q.contracted_intermediate],
    set1 X.contracted_intermediate (ein5 L.nmef L.klcd L.efjl L.adkm L.cbin L.abij Q.g_abab_oovv Q.l2_abab Q.t2_abab Q.t2_abab Q.t2_aaaa),
    .aug X.double_res [.arg Q.contracted_intermediate, ein1 L.abij L.abji Q.contracted_intermediate],
    set1 X.contracted_intermediate (ein5 L.nmfe L.klcd L.fejl L.adkm L.cbin L.abij Q.g_abab_oovv Q.l2_abab Q.t2_abab Q.t2_abab Q.t2_aaaa),
    .aug X.double_res [.arg Q.contracted_intermediate, ein1 L.abij L.abji Q.contracted_intermediate],
    set1 X.contracted_intermediate (ein5 L.nmef L.lkcd L.efjl L.admk L.cbin L.abij Q.g_aaaa_oovv Q.l2_abab Q.t2_aaaa Q.t2_abab Q.t2_aaaa),
    .aug X.double_res [.arg Q.contracted_intermediate, ein1 L.abij L.abji Q.contracted_intermediate],
    set1 X.contracted_intermediate (ein5 L.mnef L.kldc L.efjl L.admk L.bcin L.abij Q.g_abab_oovv Q.l2_bbbb Q.t2_abab Q.t2_abab Q.t2_abab),
    .aug X.double_res [.arg Q.contracted_intermediate, ein1 L.abij L.abji Q.contracted_intermediate],
    set1 X.contracted_intermediate (ein5 L.mnfe L.kldc L.fejl L.admk L.bcin L.abij Q.g_abab_oovv Q.l2_bbbb Q.t2_abab Q.t2_abab Q.t2_abab),
    .aug X.double_res [.arg Q.contracted_intermediate, ein1 L.abij L.abji Q.contracted_intermediate],
    set1 X.contracted_intermediate (ein5 L.nmef L.kldc L.efjl L.daim L.cbkn L.abij Q.g_aaaa_oovv Q.l2_aaaa Q.t2_aaaa Q.t2_aaaa Q.t2_aaaa),
    .aug X.double_res [.arg Q.contracted_intermediate, ein1 L.abij L.abji Q.contracted_intermediate],
    set1 X.contracted_intermediate (ein5 L.mnef L.kldc L.efjl L.daim L.bckn L.abij Q.g_abab_oovv Q.l2_abab Q.t2_abab Q.t2_aaaa Q.t2_abab),
    .aug X.double_res [.arg Q.contracted_intermediate, ein1 L.abij L.abji Q.contracted_intermediate],
    set1 X.contracted_intermediate (ein5 L.mnfe L.kldc L.fejl L.daim L.bckn L.abij Q.g_abab_oovv Q.l2_abab Q.t2_abab Q.t2_aaaa Q.t2_abab),
    .aug X.double_res [.arg Q.contracted_intermediate, ein1 L.abij L.abji Q.contracted_intermediate],
    set1 X.contracted_intermediate (ein5 L.nmef L.klcd L.efjl L.adim L.cbkn L.abij Q.g_abab_oovv Q.l2_abab Q.t2_abab Q.t2_abab Q.t2_aaaa),
    .aug X.double_res [.arg Q.contracted_intermediate, ein1 L.abij L.abji Q.contracted_intermediate],
    set1 X.contracted_intermediate (ein5 L.nmfe L.klcd L.fejl L.adim L.cbkn L.abij Q.g_abab_oovv Q.l2_abab Q.t2_abab Q.t2_abab Q.t2_aaaa),
    .aug X.double_res [.arg Q.contracted_intermediate, ein1 L.abij L.abji Q.contracted_intermediate],
    set1 X.contracted_intermediate (ein5 L.nmef L.lkdc L.efjl L.daim L.bcnk L.abij Q.g_aaaa_oovv Q.l2_abab Q.t2_aaaa Q.t2_aaaa Q.t2_abab),
    .aug X.double_res [.arg Q.contracted_intermediate, ein1 L.abij L.abji Q.contracted_intermediate],
    set1 X.contracted_intermediate (ein5 L.nmef L.kldc L.efjl L.adim L.bcnk L.abij Q.g_abab_oovv Q.l2_bbbb Q.t2_abab Q.t2_abab Q.t2_abab),
    .aug X.double_res [.arg Q.contracted_intermediate, ein1 L.abij L.abji Q.contracted_intermediate],
    set1 X.contracted_intermediate (ein5 L.nmfe L.kldc L.fejl L.adim L.bcnk L.abij Q.g_abab_oovv Q.l2_bbbb Q.t2_abab Q.t2_abab Q.t2_abab),
    .aug X.double_res [.arg Q.contracted_intermediate, ein1 L.abij L.abji Q.contracted_intermediate],
    aug1 X.double_res (ein5 L.nmef L.kldc L.efij L.dclm L.abkn L.abij Q.g_aaaa_oovv Q.l2_aaaa Q.t2_aaaa Q.t2_aaaa Q.t2_aaaa),
    aug1 X.double_res (ein5 L.nmef L.kldc L.efij L.dcml L.abkn L.abij Q.g_aaaa_oovv Q.l2_abab Q.t2_aaaa Q.t2_abab Q.t2_aaaa),
    aug1 X.double_res (ein5 L.nmef L.klcd L.efij L.cdml L.abkn L.abij Q.g_aaaa_oovv Q.l2_abab Q.t2_aaaa Q.t2_abab Q.t2_aaaa),
    set1 X.contracted_intermediate (ein5 L.nmef L.kldc L.efij L.dalm L.cbkn L.abij Q.g_aaaa_oovv Q.l2_aaaa Q.t2_aaaa Q.t2_aaaa Q.t2_aaaa),
    .aug X.double_res [.arg Q.contracted_intermediate, ein1 L.abij L.baij Q.contracted_intermediate],
    set1 X.contracted_intermediate (ein5 L.nmef L.klcd L.efij L.adml L.cbkn L.abij Q.g_aaaa_oovv Q.l2_abab Q.t2_aaaa Q.t2_abab Q.t2_aaaa),
    .aug X.double_res [.arg Q.contracted_intermediate, ein1 L.abij L.baij Q.contracted_intermediate],
    set1 X.contracted_intermediate (ein5 L.nmef L.lkdc L.efij L.dalm L.bcnk L.abij Q.g_aaaa_oovv Q.l2_abab Q.t2_aaaa Q.t2_aaaa Q.t2_abab),
    .aug X.double_res [.arg Q.contracted_intermediate, ein1 L.abij L.baij Q.contracted_intermediate],
    set1 X.contracted_intermediate (ein5 L.nmef L.kldc L.efij L.adml L.bcnk L.abij Q.g_aaaa_oovv Q.l2_bbbb Q.t2_aaaa Q.t2_abab Q.t2_abab),
    .aug X.double_res [.arg Q.contracted_intermediate, ein1 L.abij L.baij Q.contracted_intermediate],
    set1 X.contracted_intermediate (ein5 L.nmef L.kldc L.edlm L.fcjk L.abin L.abij Q.g_aaaa_oovv Q.l2_aaaa Q.t2_aaaa Q.t2_aaaa Q.t2_aaaa),
    .aug X.double_res [.arg Q.contracted_intermediate, ein1 L.abij L.abji Q.contracted_intermediate],
    set1 X.contracted_intermediate (ein5 L.nmfe L.kldc L.delm L.fcjk L.abin L.abij Q.g_abab_oovv Q.l2_aaaa Q.t2_abab Q.t2_aaaa Q.t2_aaaa),
    .aug X.double_res [.arg Q.contracted_intermediate, ein1 L.abij L.abji Q.contracted_intermediate],
    set1 X.contracted_intermediate (ein5 L.nmef L.klcd L.edml L.fcjk L.abin L.abij Q.g_aaaa_oovv Q.l2_abab Q.t2_abab Q.t2_aaaa Q.t2_aaaa),
    .aug X.double_res [.arg Q.contracted_intermediate, ein1 L.abij L.abji Q.contracted_intermediate],
    set1 X.contracted_intermediate (ein5 L.nmfe L.klcd L.edlm L.fcjk L.abin L.abij Q.g_abab_oovv Q.l2_abab Q.t2_bbbb Q.t2_aaaa Q.t2_aaaa),
    .aug X.double_res [.arg Q.contracted_intermediate, ein1 L.abij L.abji Q.contracted_intermediate],
    set1 X.contracted_intermediate (ein5 L.nmef L.lkdc L.edlm L.fcjk L.abin L.abij Q.g_aaaa_oovv Q.l2_abab Q.t2_aaaa Q.t2_abab Q.t2_aaaa),
    .aug X.double_res [.arg Q.contracted_intermediate, ein1 L.abij L.abji Q.contracted_intermediate],
    set1 X.contracted_intermediate (ein5 L.nmfe L.lkdc L.delm L.fcjk L.abin L.abij Q.g_abab_oovv Q.l2_abab Q.t2_abab Q.t2_abab Q.t2_aaaa),
    .aug X.double_res [.arg Q.contracted_intermediate, ein1 L.abij L.abji Q.contracted_intermediate],
    set1 X.contracted_intermediate (ein5 L.nmef L.lkcd L.edlm L.cfjk L.abin L.abij Q.g_abab_oovv Q.l2_abab Q.t2_abab Q.t2_abab Q.t2_aaaa),
    .aug X.double_res [.arg Q.contracted_intermediate, ein1 L.abij L.abji Q.contracted_intermediate],
    set1 X.contracted_intermediate (ein5 L.nmef L.kldc L.edml L.fcjk L.abin L.abij Q.g_aaaa_oovv Q.l2_bbbb Q.t2_abab Q.t2_abab Q.t2_aaaa),
    .aug X.double_res [.arg Q.contracted_intermediate, ein1 L.abij L.abji Q.contracted_intermediate],
    set1 X.contracted_intermediate (ein5 L.nmfe L.kldc L.edlm L.fcjk L.abin L.abij Q.g_abab_oovv Q.l2_bbbb Q.t2_bbbb Q.t2_abab Q.t2_aaaa),
    .aug X.double_res [.arg Q.contracted_intermediate, ein1 L.abij L.abji Q.contracted_intermediate],
    aug1 X.double_res (ein5 L.nmef L.kldc L.edlm L.fcij L.abkn L.abij Q.g_aaaa_oovv Q.l2_aaaa Q.t2_aaaa Q.t2_aaaa Q.t2_aaaa),
    aug1 X.double_res (ein5 L.nmfe L.kldc L.delm L.fcij L.abkn L.abij Q.g_abab_oovv Q.l2_aaaa Q.t2_abab Q.t2_aaaa Q.t2_aaaa),
    aug1 X.double_res (ein5 L.nmef L.klcd L.edml L.fcij L.abkn L.abij Q.g_aaaa_oovv Q.l2_abab Q.t2_abab Q.t2_aaaa Q.t2_aaaa),
    aug1 X.double_res (ein5 L.nmfe L.klcd L.edlm L.fcij L.abkn L.abij Q.g_abab_oovv Q.l2_abab Q.t2_bbbb Q.t2_aaaa Q.t2_aaaa),
    set1 X.contracted_intermediate (ein5 L.nmef L.kldc L.edlm L.fajk L.cbin L.abij Q.g_aaaa_oovv Q.l2_aaaa Q.t2_aaaa Q.t2_aaaa Q.t2_aaaa),
    .aug X.double_res [.arg Q.contracted_intermediate, ein1 L.abij L.abji Q.contracted_intermediate, ein1 L.abij L.baij Q.contracted_intermediate, ein1 L.abij L.baji Q.contracted_intermediate],
    set1 X.contracted_intermediate (ein5 L.nmfe L.kldc L.delm L.fajk L.cbin L.abij Q.g_abab_oovv Q.l2_aaaa Q.t2_abab Q.t2_aaaa Q.t2_aaaa),
    .aug X.double_res [.arg Q.contracted_intermediate, ein1 L.abij L.abji Q.contracted_intermediate, ein1 L.abij L.baij Q.contracted_intermediate, ein1 L.abij L.baji Q.contracted_intermediate],
    set1 X.contracted_intermediate (ein5 L.mnfe L.kldc L.deml L.fajk L.bcin L.abij Q.g_abab_oovv Q.l2_abab Q.t2_abab Q.t2_aaaa Q.t2_abab),
    .aug X.double_res [.arg Q.contracted_intermediate, ein1 L.abij L.abji Q.contracted_intermediate, ein1 L.abij L.baij Q.contracted_intermediate, ein1 L.abij L.baji Q.contracted_intermediate],
    set1 X.contracted_intermediate (ein5 L.nmef L.klcd L.edml L.fajk L.cbin L.abij Q.g_aaaa_oovv Q.l2_abab Q.t2_abab Q.t2_aaaa Q.t2_aaaa),
    .aug X.double_res [.arg Q.contracted_intermediate, ein1 L.abij L.abji Q.contracted_intermediate, ein1 L.abij L.baij Q.contracted_intermediate, ein1 L.abij L.baji Q.contracted_intermediate],
    set1 X.contracted_intermediate (ein5 L.nmfe L.klcd L.edlm L.fajk L.cbin L.abij Q.g_abab_oovv Q.l2_abab Q.t2_bbbb Q.t2_aaaa Q.t2_aaaa),
    .aug X.double_res [.arg Q.contracted_intermediate, ein1 L.abij L.abji Q.contracted_intermediate, ein1 L.abij L.baij Q.contracted_intermediate, ein1 L.abij L.baji Q.contracted_intermediate],
    set1 X.contracted_intermediate (ein5 L.mnef L.lkdc L.edlm L.afjk L.bcin L.abij Q.g_abab_oovv Q.l2_abab Q.t2_aaaa Q.t2_abab Q.t2_abab),
    .aug X.double_res [.arg Q.contracted_intermediate, ein1 L.abij L.abji Q.contracted_intermediate, ein1 L.abij L.baij Q.contracted_intermediate, ein1 L.abij L.baji Q.contracted_intermediate],
    set1 X.contracted_intermediate (ein5 L.nmef L.lkdc L.delm L.afjk L.bcin L.abij Q.g_bbbb_oovv Q.l2_abab Q.t2_abab Q.t2_abab Q.t2_abab),
    .aug X.double_res [.arg Q.contracted_intermediate, ein1 L.abij L.abji Q.contracted_intermediate, ein1 L.abij L.baij Q.contracted_intermediate, ein1 L.abij L.baji Q.contracted_intermediate],
    set1 X.contracted_intermediate (ein5 L.nmef L.lkcd L.edlm L.afjk L.cbin L.abij Q.g_abab_oovv Q.l2_abab Q.t2_abab Q.t2_abab Q.t2_aaaa),
    .aug X.double_res [.arg Q.contracted_intermediate, ein1 L.abij L.abji Q.contracted_intermediate, ein1 L.abij L.baij Q.contracted_intermediate, ein1 L.abij L.baji Q.contracted_intermediate],
    set1 X.contracted_intermediate (ein5 L.mnef L.kldc L.edml L.afjk L.bcin L.abij Q.g_abab_oovv Q.l2_bbbb Q.t2_abab Q.t2_abab Q.t2_abab),
    .aug X.double_res [.arg Q.contracted_intermediate, ein1 L.abij L.abji Q.contracted_intermediate, ein1 L.abij L.baij Q.contracted_intermediate, ein1 L.abij L.baji Q.contracted_intermediate],
    set1 X.contracted_intermediate (ein5 L.nmef L.kldc L.edlm L.afjk L.bcin L.abij Q.g_bbbb_oovv Q.l2_bbbb Q.t2_bbbb Q.t2_abab Q.t2_abab),
    .aug X.double_res [.arg Q.contracted_intermediate, ein1 L.abij L.abji Q.contracted_intermediate, ein1 L.abij L.baij Q.contracted_intermediate, ein1 L.abij L.baji Q.contracted_intermediate],
    set1 X.contracted_intermediate (ein5 L.nmef L.kldc L.edlm L.faij L.cbkn L.abij Q.g_aaaa_oovv Q.l2_aaaa Q.t2_aaaa Q.t2_aaaa Q.t2_aaaa),
    .aug X.double_res [.arg Q.contracted_intermediate, ein1 L.abij L.baij Q.contracted_intermediate],
    set1 X.contracted_intermediate (ein5 L.nmfe L.kldc L.delm L.faij L.cbkn L.abij Q.g_abab_oovv Q.l2_aaaa Q.t2_abab Q.t2_aaaa Q.t2_aaaa),
    .aug X.double_res [.arg Q.contracted_intermediate, ein1 L.abij L.baij Q.contracted_intermediate],
    set1 X.contracted_intermediate (ein5 L.mnfe L.kldc L.deml L.faij L.bckn L.abij Q.g_abab_oovv Q.l2_abab Q.t2_abab Q.t2_aaaa Q.t2_abab),
    .aug X.double_res [.arg Q.contracted_intermediate, ein1 L.abij L.baij Q.contracted_intermediate],
    set1 X.contracted_intermediate (ein5 L.nmef L.klcd L.edml L.faij L.cbkn L.abij Q.g_aaaa_oovv Q.l2_abab Q.t2_abab Q.t2_aaaa Q.t2_aaaa),
    .aug X.double_res [.arg Q.contracted_intermediate, ein1 L.abij L.baij Q.contracted_intermediate],
    set1 X.contracted_intermediate (ein5 L.nmfe L.klcd L.edlm L.faij L.cbkn L.abij Q.g_abab_oovv Q.l2_abab Q.t2_bbbb Q.t2_aaaa Q.t2_aaaa),
    .aug X.double_res [.arg Q.contracted_intermediate, ein1 L.abij L.baij Q.contracted_intermediate],
    set1 X.contracted_intermediate (ein5 L.nmef L.lkdc L.edlm L.faij L.bcnk L.abij Q.g_aaaa_oovv Q.l2_abab Q.t2_aaaa Q.t2_aaaa Q.t2_abab),
    .aug X.double_res [.arg Q.contracted_intermediate, ein1 L.abij L.baij Q.contracted_intermediate],
    set1 X.contracted_intermediate (ein5 L.nmfe L.lkdc L.delm L.faij L.bcnk L.abij Q.g_abab_oovv Q.l2_abab Q.t2_abab Q.t2_aaaa Q.t2_abab),
    .aug X.double_res [.arg Q.contracted_intermediate, ein1 L.abij L.baij Q.contracted_intermediate],
    set1 X.contracted_intermediate (ein5 L.nmef L.kldc L.edml L.faij L.bcnk L.abij Q.g_aaaa_oovv Q.l2_bbbb Q.t2_abab Q.t2_aaaa Q.t2_abab),
    .aug X.double_res [.arg Q.contracted_intermediate, ein1 L.abij L.baij Q.contracted_intermediate],
    set1 X.contracted_intermediate (ein5 L.nmfe L.kldc L.edlm L.faij L.bcnk L.abij Q.g_abab_oovv Q.l2_bbbb Q.t2_bbbb Q.t2_aaaa Q.t2_abab),
    .aug X.double_res [.arg Q.contracted_intermediate, ein1 L.abij L.baij Q.contracted_intermediate],
    set1 X.contracted_intermediate (ein5 L.nmef L.kldc L.edjm L.fckl L.abin L.abij Q.g_aaaa_oovv Q.l2_aaaa Q.t2_aaaa Q.t2_aaaa Q.t2_aaaa),
    .aug X.double_res [.arg Q.contracted_intermediate, ein1 L.abij L.abji Q.contracted_intermediate],
    set1 X.contracted_intermediate (ein5 L.nmfe L.kldc L.dejm L.fckl L.abin L.abij Q.g_abab_oovv Q.l2_aaaa Q.t2_abab Q.t2_aaaa Q.t2_aaaa),
    .aug X.double_res [.arg Q.contracted_intermediate, ein1 L.abij L.abji Q.contracted_intermediate],
    set1 X.contracted_intermediate (ein5 L.nmef L.kldc L.edjm L.fckl L.abin L.abij Q.g_aaaa_oovv Q.l2_abab Q.t2_aaaa Q.t2_abab Q.t2_aaaa),
    .aug X.double_res [.arg Q.contracted_intermediate, ein1 L.abij L.abji Q.contracted_intermediate],
    set1 X.contracted_intermediate (ein5 L.nmfe L.kldc L.dejm L.fckl L.abin L.abij Q.g_abab_oovv Q.l2_abab Q.t2_abab Q.t2_abab Q.t2_aaaa),
    .aug X.double_res [.arg Q.contracted_intermediate, ein1 L.abij L.abji Q.contracted_intermediate],
    set1 X.contracted_intermediate (ein5 L.nmef L.klcd L.edjm L.cfkl L.abin L.abij Q.g_abab_oovv Q.l2_abab Q.t2_abab Q.t2_abab Q.t2_aaaa),
    .aug X.double_res [.arg Q.contracted_intermediate, ein1 L.abij L.abji Q.contracted_intermediate],
    set1 X.contracted_intermediate (ein5 L.nmef L.lkdc L.edjm L.fclk L.abin L.abij Q.g_aaaa_oovv Q.l2_abab Q.t2_aaaa Q.t2_abab Q.t2_aaaa),
    .aug X.double_res [.arg Q.contracted_intermediate, ein1 L.abij L.abji Q.contracted_intermediate],
    set1 X.contracted_intermediate (ein5 L.nmfe L.lkdc L.dejm L.fclk L.abin L.abij Q.g_abab_oovv Q.l2_abab Q.t2_abab Q.t2_abab Q.t2_aaaa),
    .aug X.double_res [.arg Q.contracted_intermediate, ein1 L.abij L.abji Q.contracted_intermediate],
    set1 X.contracted_intermediate (ein5 L.nmef L.lkcd L.edjm L.cflk L.abin L.abij Q.g_abab_oovv Q.l2_abab Q.t2_abab Q.t2_abab Q.t2_aaaa),
    .aug X.double_res [.arg Q.contracted_intermediate, ein1 L.abij L.abji Q.contracted_intermediate],
    set1 X.contracted_intermediate (ein5 L.nmef L.kldc L.edjm L.fckl L.abin L.abij Q.g_abab_oovv Q.l2_bbbb Q.t2_abab Q.t2_bbbb Q.t2_aaaa),
    .aug X.double_res [.arg Q.contracted_intermediate, ein1 L.abij L.abji Q.contracted_intermediate],
    set1 X.contracted_intermediate (ein5 L.nmef L.kldc L.edjm L.fcil L.abkn L.abij Q.g_aaaa_oovv Q.l2_aaaa Q.t2_aaaa Q.t2_aaaa Q.t2_aaaa),
    .aug X.double_res [.arg Q.contracted_intermediate, ein1 L.abij L.abji Q.contracted_intermediate],
    set1 X.contracted_intermediate (ein5 L.nmfe L.kldc L.dejm L.fcil L.abkn L.abij Q.g_abab_oovv Q.l2_aaaa Q.t2_abab Q.t2_aaaa Q.t2_aaaa),
    .aug X.double_res [.arg Q.contracted_intermediate, ein1 L.abij L.abji Q.contracted_intermediate],
    set1 X.contracted_intermediate (ein5 L.nmef L.kldc L.edjm L.fcil L.abkn L.abij Q.g_aaaa_oovv Q.l2_abab Q.t2_aaaa Q.t2_abab Q.t2_aaaa),
    .aug X.double_res [.arg Q.contracted_intermediate, ein1 L.abij L.abji Q.contracted_intermediate],
    set1 X.contracted_intermediate (ein5 L.nmfe L.kldc L.dejm L.fcil L.abkn L.abij Q.g_abab_oovv Q.l2_abab Q.t2_abab Q.t2_abab Q.t2_aaaa),
    .aug X.double_res [.arg Q.contracted_intermediate, ein1 L.abij L.abji Q.contracted_intermediate],
    set1 X.contracted_intermediate (ein5 L.nmef L.klcd L.edjm L.cfil L.abkn L.abij Q.g_abab_oovv Q.l2_abab Q.t2_abab Q.t2_abab Q.t2_aaaa),
    .aug X.double_res [.arg Q.contracted_intermediate, ein1 L.abij L.abji Q.contracted_intermediate],
    set1 X.contracted_intermediate (ein5 L.nmef L.kldc L.edjm L.fakl L.cbin L.abij Q.g_aaaa_oovv Q.l2_aaaa Q.t2_aaaa Q.t2_aaaa Q.t2_aaaa),
    .aug X.double_res [.arg Q.contracted_intermediate, ein1 L.abij L.abji Q.contracted_intermediate, ein1 L.abij L.baij Q.contracted_intermediate, ein1 L.abij L.baji Q.contracted_intermediate],
    set1 X.contracted_intermediate (ein5 L.nmfe L.kldc L.dejm L.fakl L.cbin L.abij Q.g_abab_oovv Q.l2_aaaa Q.t2_abab Q.t2_aaaa Q.t2_aaaa),
    .aug X.double_res [.arg Q.contracted_intermediate, ein1 L.abij L.abji Q.contracted_intermediate, ein1 L.abij L.baij Q.contracted_intermediate, ein1 L.abij L.baji Q.contracted_intermediate],
    set1 X.contracted_intermediate (ein5 L.mnef L.kldc L.edjm L.afkl L.bcin L.abij Q.g_abab_oovv Q.l2_abab Q.t2_aaaa Q.t2_abab Q.t2_abab),
    .aug X.double_res [.arg Q.contracted_intermediate, ein1 L.abij L.abji Q.contracted_intermediate, ein1 L.abij L.baij Q.contracted_intermediate, ein1 L.abij L.baji Q.contracted_intermediate],
    set1 X.contracted_intermediate (ein5 L.nmef L.kldc L.dejm L.afkl L.bcin L.abij Q.g_bbbb_oovv Q.l2_abab Q.t2_abab Q.t2_abab Q.t2_abab),
    .aug X.double_res [.arg Q.contracted_intermediate, ein1 L.abij L.abji Q.contracted_intermediate, ein1 L.abij L.baij Q.contracted_intermediate, ein1 L.abij L.baji Q.contracted_intermediate],
    set1 X.contracted_intermediate (ein5 L.nmef L.klcd L.edjm L.afkl L.cbin L.abij Q.g_abab_oovv Q.l2_abab Q.t2_abab Q.t2_abab Q.t2_aaaa),
    .aug X.double_res [.arg Q.contracted_intermediate, ein1 L.abij L.abji Q.contracted_intermediate, ein1 L.abij L.baij Q.contracted_intermediate, ein1 L.abij L.baji Q.contracted_intermediate],
    set1 X.contracted_intermediate (ein5 L.mnef L.lkdc L.edjm L.aflk L.bcin L.abij Q.g_abab_oovv Q.l2_abab Q.t2_aaaa Q.t2_abab Q.t2_abab),
    .aug X.double_res [.arg Q.contracted_intermediate, ein1 L.abij L.abji Q.contracted_intermediate, ein1 L.abij L.baij Q.contracted_intermediate, ein1 L.abij L.baji Q.contracted_intermediate],
    set1 X.contracted_intermediate (ein5 L.nmef L.lkdc L.dejm L.aflk L.bcin L.abij Q.g_bbbb_oovv Q.l2_abab Q.t2_abab Q.t2_abab Q.t2_abab),
    .aug X.double_res [.arg Q.contracted_intermediate, ein1 L.abij L.abji Q.contracted_intermediate, ein1 L.abij L.baij Q.contracted_intermediate, ein1 L.abij L.baji Q.contracted_intermediate],
    set1 X.contracted_intermediate (ein5 L.nmef L.lkcd L.edjm L.aflk L.cbin L.abij Q.g_abab_oovv Q.l2_abab Q.t2_abab Q.t2_abab Q.t2_aaaa),
    .aug X.double_res [.arg Q.contracted_intermediate, ein1 L.abij L.abji Q.contracted_intermediate, ein1 L.abij L.baij Q.contracted_intermediate, ein1 L.abij L.baji Q.contracted_intermediate],
    set1 X.contracted_intermediate (ein5 L.nmef L.kldc L.edjm L.fail L.cbkn L.abij Q.g_aaaa_oovv Q.l2_aaaa Q.t2_aaaa Q.t2_aaaa Q.t2_aaaa),
    .aug X.double_res [.arg Q.contracted_intermediate, ein1 L.abij L.abji Q.contracted_intermediate, ein1 L.abij L.baij Q.contracted_intermediate, ein1 L.abij L.baji Q.contracted_intermediate],
    set1 X.contracted_intermediate (ein5 L.nmfe L.kldc L.dejm L.fail L.cbkn L.abij Q.g_abab_oovv Q.l2_aaaa Q.t2_abab Q.t2_aaaa Q.t2_aaaa),
    .aug X.double_res [.arg Q.contracted_intermediate, ein1 L.abij L.abji Q.contracted_intermediate, ein1 L.abij L.baij Q.contracted_intermediate, ein1 L.abij L.baji Q.contracted_intermediate],
    set1 X.contracted_intermediate (ein5 L.mnef L.kldc L.edjm L.afil L.bckn L.abij Q.g_abab_oovv Q.l2_abab Q.t2_aaaa Q.t2_abab Q.t2_abab),
    .aug X.double_res [.arg Q.contracted_intermediate, ein1 L.abij L.abji Q.contracted_intermediate, ein1 L.abij L.baij Q.contracted_intermediate, ein1 L.abij L.baji Q.contracted_intermediate],
    set1 X.contracted_intermediate (ein5 L.nmef L.kldc L.dejm L.afil L.bckn L.abij Q.g_bbbb_oovv Q.l2_abab Q.t2_abab Q.t2_abab Q.t2_abab),
    .aug X.double_res [.arg Q.contracted_intermediate, ein1 L.abij L.abji Q.contracted_intermediate, ein1 L.abij L.baij Q.contracted_intermediate, ein1 L.abij L.baji Q.contracted_intermediate],
    set1 X.contracted_intermediate (ein5 L.nmef L.klcd L.edjm L.afil L.cbkn L.abij Q.g_abab_oovv Q.l2_abab Q.t2_abab Q.t2_abab Q.t2_aaaa),
    .aug X.double_res [.arg Q.contracted_intermediate, ein1 L.abij L.abji Q.contracted_intermediate, ein1 L.abij L.baij Q.contracted_intermediate, ein1 L.abij L.baji Q.contracted_intermediate],
    set1 X.contracted_intermediate (ein5 L.nmef L.lkdc L.edjm L.fail L.bcnk L.abij Q.g_aaaa_oovv Q.l2_abab Q.t2_aaaa Q.t2_aaaa Q.t2_abab),
    .aug X.double_res [.arg Q.contracted_intermediate, ein1 L.abij L.abji Q.contracted_intermediate, ein1 L.abij L.baij Q.contracted_intermediate, ein1 L.abij L.baji Q.contracted_intermediate],
    set1 X.contracted_intermediate (ein5 L.nmfe L.lkdc L.dejm L.fail L.bcnk L.abij Q.g_abab_oovv Q.l2_abab Q.t2_abab Q.t2_aaaa Q.t2_abab),
    .aug X.double_res [.arg Q.contracted_intermediate, ein1 L.abij L.abji Q.contracted_intermediate, ein1 L.abij L.baij Q.contracted_intermediate, ein1 L.abij L.baji Q.contracted_intermediate],
    set1 X.contracted_intermediate (ein5 L.nmef L.kldc L.edjm L.afil L.bcnk L.abij Q.g_abab_oovv Q.l2_bbbb Q.t2_abab Q.t2_abab Q.t2_abab),
    .aug X.double_res [.arg Q.contracted_intermediate, ein1 L.abij L.abji Q.contracted_intermediate, ein1 L.abij L.baij Q.contracted_intermediate, ein1 L.abij L.baji Q.contracted_intermediate],
    aug1 X.double_res (ein5 L.nmef L.kldc L.edkl L.fcij L.abnm L.abij Q.g_aaaa_oovv Q.l2_aaaa Q.t2_aaaa Q.t2_aaaa Q.t2_aaaa),
    aug1 X.double_res (ein5 L.nmef L.klcd L.edkl L.fcij L.abnm L.abij Q.g_aaaa_oovv Q.l2_abab Q.t2_abab Q.t2_aaaa Q.t2_aaaa),
    aug1 X.double_res (ein5 L.nmef L.lkcd L.edlk L.fcij L.abnm L.abij Q.g_aaaa_oovv Q.l2_abab Q.t2_abab Q.t2_aaaa Q.t2_aaaa),
    set1 X.contracted_intermediate (ein5 L.nmef L.kldc L.edkl L.fajm L.cbin L.abij Q.g_aaaa_oovv Q.l2_aaaa Q.t2_aaaa Q.t2_aaaa Q.t2_aaaa),
    .aug X.double_res [.arg Q.contracted_intermediate, ein1 L.abij L.abji Q.contracted_intermediate, ein1 L.abij L.baij Q.contracted_intermediate, ein1 L.abij L.baji Q.contracted_intermediate],
    set1 X.contracted_intermediate (ein5 L.nmef L.kldc L.edkl L.afjm L.cbin L.abij Q.g_abab_oovv Q.l2_aaaa Q.t2_aaaa Q.t2_abab Q.t2_aaaa),
    .aug X.double_res [.arg Q.contracted_intermediate, ein1 L.abij L.abji Q.contracted_intermediate, ein1 L.abij L.baij Q.contracted_intermediate, ein1 L.abij L.baji Q.contracted_intermediate],
    set1 X.contracted_intermediate (ein5 L.mnfe L.kldc L.dekl L.fajm L.bcin L.abij Q.g_abab_oovv Q.l2_abab Q.t2_abab Q.t2_aaaa Q.t2_abab),
    .aug X.double_res [.arg Q.contracted_intermediate, ein1 L.abij L.abji Q.contracted_intermediate, ein1 L.abij L.baij Q.contracted_intermediate, ein1 L.abij L.baji Q.contracted_intermediate],
    set1 X.contracted_intermediate (ein5 L.nmef L.kldc L.dekl L.afjm L.bcin L.abij Q.g_bbbb_oovv Q.l2_abab Q.t2_abab Q.t2_abab Q.t2_abab),
    .aug X.double_res [.arg Q.contracted_intermediate, ein1 L.abij L.abji Q.contracted_intermediate, ein1 L.abij L.baij Q.contracted_intermediate, ein1 L.abij L.baji Q.contracted_intermediate],
    set1 X.contracted_intermediate (ein5 L.nmef L.klcd L.edkl L.fajm L.cbin L.abij Q.g_aaaa_oovv Q.l2_abab Q.t2_abab Q.t2_aaaa Q.t2_aaaa),
    .aug X.double_res [.arg Q.contracted_intermediate, ein1 L.abij L.abji Q.contracted_intermediate, ein1 L.abij L.baij Q.contracted_intermediate, ein1 L.abij L.baji Q.contracted_intermediate],
    set1 X.contracted_intermediate (ein5 L.nmef L.klcd L.edkl L.afjm L.cbin L.abij Q.g_abab_oovv Q.l2_abab Q.t2_abab Q.t2_abab Q.t2_aaaa),
    .aug X.double_res [.arg Q.contracted_intermediate, ein1 L.abij L.abji Q.contracted_intermediate, ein1 L.abij L.baij Q.contracted_intermediate, ein1 L.abij L.baji Q.contracted_intermediate],
    set1 X.contracted_intermediate (ein5 L.mnfe L.lkdc L.delk L.fajm L.bcin L.abij Q.g_abab_oovv Q.l2_abab Q.t2_abab Q.t2_aaaa Q.t2_abab),
    .aug X.double_res [.arg Q.contracted_intermediate, ein1 L.abij L.abji Q.contracted_intermediate, ein1 L.abij L.baij Q.contracted_intermediate, ein1 L.abij L.baji Q.contracted_intermediate],
    set1 X.contracted_intermediate (ein5 L.nmef L.lkdc L.delk L.afjm L.bcin L.abij Q.g_bbbb_oovv Q.l2_abab Q.t2_abab Q.t2_abab Q.t2_abab),
    .aug X.double_res [.arg Q.contracted_intermediate, ein1 L.abij L.abji Q.contracted_intermediate, ein1 L.abij L.baij Q.contracted_intermediate, ein1 L.abij L.baji Q.contracted_intermediate],
    set1 X.contracted_intermediate (ein5 L.nmef L.lkcd L.edlk L.fajm L.cbin L.abij Q.g_aaaa_oovv Q.l2_abab Q.t2_abab Q.t2_aaaa Q.t2_aaaa),
    .aug X.double_res [.arg Q.contracted_intermediate, ein1 L.abij L.abji Q.contracted_intermediate, ein1 L.abij L.baij Q.contracted_intermediate, ein1 L.abij L.baji Q.contracted_intermediate],
    set1 X.contracted_intermediate (ein5 L.nmef L.lkcd L.edlk L.afjm L.cbin L.abij Q.g_abab_oovv Q.l2_abab Q.t2_abab Q.t2_abab Q.t2_aaaa),
    .aug X.double_res [.arg Q.contracted_intermediate, ein1 L.abij L.abji Q.contracted_intermediate, ein1 L.abij L.baij Q.contracted_intermediate, ein1 L.abij L.baji Q.contracted_intermediate],
    set1 X.contracted_intermediate (ein5 L.mnfe L.kldc L.edkl L.fajm L.bcin L.abij Q.g_abab_oovv Q.l2_bbbb Q.t2_bbbb Q.t2_aaaa Q.t2_abab),
    .aug X.double_res [.arg Q.contracted_intermediate, ein1 L.abij L.abji Q.contracted_intermediate, ein1 L.abij L.baij Q.contracted_intermediate, ein1 L.abij L.baji Q.contracted_intermediate],
    set1 X.contracted_intermediate (ein5 L.nmef L.kldc L.edkl L.afjm L.bcin L.abij Q.g_bbbb_oovv Q.l2_bbbb Q.t2_bbbb Q.t2_abab Q.t2_abab),
    .aug X.double_res [.arg Q.contracted_intermediate, ein1 L.abij L.abji Q.contracted_intermediate, ein1 L.abij L.baij Q.contracted_intermediate, ein1 L.abij L.baji Q.contracted_intermediate],
    set1 X.contracted_intermediate (ein5 L.nmef L.kldc L.edkl L.faij L.cbnm L.abij Q.g_aaaa_oovv Q.l2_aaaa Q.t2_aaaa Q.t2_aaaa Q.t2_aaaa),
    .aug X.double_res [.arg Q.contracted_intermediate, ein1 L.abij L.baij Q.contracted_intermediate],
    set1 X.contracted_intermediate (ein5 L.nmfe L.kldc L.dekl L.faij L.bcnm L.abij Q.g_abab_oovv Q.l2_abab Q.t2_abab Q.t2_aaaa Q.t2_abab),
    .aug X.double_res [.arg Q.contracted_intermediate, ein1 L.abij L.baij Q.contracted_intermediate],
    set1 X.contracted_intermediate (ein5 L.mnfe L.kldc L.dekl L.faij L.bcmn L.abij Q.g_abab_oovv Q.l2_abab Q.t2_abab Q.t2_aaaa Q.t2_abab),
    .aug X.double_res [.arg Q.contracted_intermediate, ein1 L.abij L.baij Q.contracted_intermediate],
    set1 X.contracted_intermediate (ein5 L.nmef L.klcd L.edkl L.faij L.cbnm L.abij Q.g_aaaa_oovv Q.l2_abab Q.t2_abab Q.t2_aaaa Q.t2_aaaa),
    .aug X.double_res [.arg Q.contracted_intermediate, ein1 L.abij L.baij Q.contracted_intermediate],
    set1 X.contracted_intermediate (ein5 L.nmfe L.lkdc L.delk L.faij L.bcnm L.abij Q.g_abab_oovv Q.l2_abab Q.t2_abab Q.t2_aaaa Q.t2_abab),
    .aug X.double_res [.arg Q.contracted_intermediate, ein1 L.abij L.baij Q.contracted_intermediate],
    set1 X.contracted_intermediate (ein5 L.mnfe L.lkdc L.delk L.faij L.bcmn L.abij Q.g_abab_oovv Q.l2_abab Q.t2_abab Q.t2_aaaa Q.t2_abab),
    .aug X.double_res [.arg Q.contracted_intermediate, ein1 L.abij L.baij Q.contracted_intermediate],
    set1 X.contracted_intermediate (ein5 L.nmef L.lkcd L.edlk L.faij L.cbnm L.abij Q.g_aaaa_oovv Q.l2_abab Q.t2_abab Q.t2_aaaa Q.t2_aaaa),
    .aug X.double_res [.arg Q.contracted_intermediate, ein1 L.abij L.baij Q.contracted_intermediate],
    set1 X.contracted_intermediate (ein5 L.nmfe L.kldc L.edkl L.faij L.bcnm L.abij Q.g_abab_oovv Q.l2_bbbb Q.t2_bbbb Q.t2_aaaa Q.t2_abab),
    .aug X.double_res [.arg Q.contracted_intermediate, ein1 L.abij L.baij Q.contracted_intermediate],
    set1 X.contracted_intermediate (ein5 L.mnfe L.kldc L.edkl L.faij L.bcmn L.abij Q.g_abab_oovv Q.l2_bbbb Q.t2_bbbb Q.t2_aaaa Q.t2_abab),
    .aug X.double_res [.arg Q.contracted_intermediate, ein1 L.abij L.baij Q.contracted_intermediate],
    set1 X.contracted_intermediate (ein5 L.nmef L.kldc L.edjl L.fckm L.abin L.abij Q.g_aaaa_oovv Q.l2_aaaa Q.t2_aaaa Q.t2_aaaa Q.t2_aaaa),
    .aug X.double_res [.arg Q.contracted_intermediate, ein1 L.abij L.abji Q.contracted_intermediate],
    set1 X.contracted_intermediate (ein5 L.nmef L.kldc L.edjl L.cfkm L.abin L.abij Q.g_abab_oovv Q.l2_aaaa Q.t2_aaaa Q.t2_abab Q.t2_aaaa),
    .aug X.double_res [.arg Q.contracted_intermediate, ein1 L.abij L.abji Q.contracted_intermediate],
    set1 X.contracted_intermediate (ein5 L.nmfe L.kldc L.dejl L.fckm L.abin L.abij Q.g_abab_oovv Q.l2_abab Q.t2_abab Q.t2_abab Q.t2_aaaa),
    .aug X.double_res [.arg Q.contracted_intermediate, ein1 L.abij L.abji Q.contracted_intermediate],
    set1 X.contracted_intermediate (ein5 L.nmef L.klcd L.edjl L.fckm L.abin L.abij Q.g_aaaa_oovv Q.l2_abab Q.t2_abab Q.t2_aaaa Q.t2_aaaa),
    .aug X.double_res [.arg Q.contracted_intermediate, ein1 L.abij L.abji Q.contracted_intermediate],
    set1 X.contracted_intermediate (ein5 L.nmef L.klcd L.edjl L.cfkm L.abin L.abij Q.g_abab_oovv Q.l2_abab Q.t2_abab Q.t2_abab Q.t2_aaaa),
    .aug X.double_res [.arg Q.contracted_intermediate, ein1 L.abij L.abji Q.contracted_intermediate],
    set1 X.contracted_intermediate (ein5 L.nmef L.lkdc L.edjl L.fcmk L.abin L.abij Q.g_aaaa_oovv Q.l2_abab Q.t2_aaaa Q.t2_abab Q.t2_aaaa),
    .aug X.double_res [.arg Q.contracted_intermediate, ein1 L.abij L.abji Q.contracted_intermediate],
    set1 X.contracted_intermediate (ein5 L.nmef L.lkdc L.edjl L.fckm L.abin L.abij Q.g_abab_oovv Q.l2_abab Q.t2_aaaa Q.t2_bbbb Q.t2_aaaa),
    .aug X.double_res [.arg Q.contracted_intermediate, ein1 L.abij L.abji Q.contracted_intermediate],
    set1 X.contracted_intermediate (ein5 L.nmef L.kldc L.edjl L.fcmk L.abin L.abij Q.g_aaaa_oovv Q.l2_bbbb Q.t2_abab Q.t2_abab Q.t2_aaaa),
    .aug X.double_res [.arg Q.contracted_intermediate, ein1 L.abij L.abji Q.contracted_intermediate],
    set1 X.contracted_intermediate (ein5 L.nmef L.kldc L.edjl L.fckm L.abin L.abij Q.g_abab_oovv Q.l2_bbbb Q.t2_abab Q.t2_bbbb Q.t2_aaaa),
    .aug X.double_res [.arg Q.contracted_intermediate, ein1 L.abij L.abji Q.contracted_intermediate],
    set1 X.contracted_intermediate (ein5 L.nmef L.kldc L.edjl L.fcik L.abnm L.abij Q.g_aaaa_oovv Q.l2_aaaa Q.t2_aaaa Q.t2_aaaa Q.t2_aaaa),
    .aug X.double_res [.arg Q.contracted_intermediate, ein1 L.abij L.abji Q.contracted_intermediate],
    set1 X.contracted_intermediate (ein5 L.nmef L.klcd L.edjl L.fcik L.abnm L.abij Q.g_aaaa_oovv Q.l2_abab Q.t2_abab Q.t2_aaaa Q.t2_aaaa),
    .aug X.double_res [.arg Q.contracted_intermediate, ein1 L.abij L.abji Q.contracted_intermediate],
    set1 X.contracted_intermediate (ein5 L.nmef L.lkdc L.edjl L.fcik L.abnm L.abij Q.g_aaaa_oovv Q.l2_abab Q.t2_aaaa Q.t2_abab Q.t2_aaaa),
    .aug X.double_res [.arg Q.contracted_intermediate, ein1 L.abij L.abji Q.contracted_intermediate],
    set1 X.contracted_intermediate (ein5 L.nmef L.kldc L.edjl L.fcik L.abnm L.abij Q.g_aaaa_oovv Q.l2_bbbb Q.t2_abab Q.t2_abab Q.t2_aaaa),
    .aug X.double_res [.arg Q.contracted_intermediate, ein1 L.abij L.abji Q.contracted_intermediate],
    set1 X.contracted_intermediate (ein5 L.nmef L.kldc L.edjl L.fakm L.cbin L.abij Q.g_aaaa_oovv Q.l2_aaaa Q.t2_aaaa Q.t2_aaaa Q.t2_aaaa),
    .aug X.double_res [.arg Q.contracted_intermediate, ein1 L.abij L.abji Q.contracted_intermediate, ein1 L.abij L.baij Q.contracted_intermediate, ein1 L.abij L.baji Q.contracted_intermediate],
    set1 X.contracted_intermediate (ein5 L.nmef L.kldc L.edjl L.afkm L.cbin L.abij Q.g_abab_oovv Q.l2_aaaa Q.t2_aaaa Q.t2_abab Q.t2_aaaa),
    .aug X.double_res [.arg Q.contracted_intermediate, ein1 L.abij L.abji Q.contracted_intermediate, ein1 L.abij L.baij Q.contracted_intermediate, ein1 L.abij L.baji Q.contracted_intermediate],
    set1 X.contracted_intermediate (ein5 L.mnfe L.kldc L.dejl L.fakm L.bcin L.abij Q.g_abab_oovv Q.l2_abab Q.t2_abab Q.t2_aaaa Q.t2_abab),
    .aug X.double_res [.arg Q.contracted_intermediate, ein1 L.abij L.abji Q.contracted_intermediate, ein1 L.abij L.baij Q.contracted_intermediate, ein1 L.abij L.baji Q.contracted_intermediate],
    set1 X.contracted_intermediate (ein5 L.nmef L.kldc L.dejl L.afkm L.bcin L.abij Q.g_bbbb_oovv Q.l2_abab Q.t2_abab Q.t2_abab Q.t2_abab),
    .aug X.double_res [.arg Q.contracted_intermediate, ein1 L.abij L.abji Q.contracted_intermediate, ein1 L.abij L.baij Q.contracted_intermediate, ein1 L.abij L.baji Q.contracted_intermediate],
    set1 X.contracted_intermediate (ein5 L.nmef L.klcd L.edjl L.fakm L.cbin L.abij Q.g_aaaa_oovv Q.l2_abab Q.t2_abab Q.t2_aaaa Q.t2_aaaa),
    .aug X.double_res [.arg Q.contracted_intermediate, ein1 L.abij L.abji Q.contracted_intermediate, ein1 L.abij L.baij Q.contracted_intermediate, ein1 L.abij L.baji Q.contracted_intermediate],
    set1 X.contracted_intermediate (ein5 L.nmef L.klcd L.edjl L.afkm L.cbin L.abij Q.g_abab_oovv Q.l2_abab Q.t2_abab Q.t2_abab Q.t2_aaaa),
    .aug X.double_res [.arg Q.contracted_intermediate, ein1 L.abij L.abji Q.contracted_intermediate, ein1 L.abij L.baij Q.contracted_intermediate, ein1 L.abij L.baji Q.contracted_intermediate],
    set1 X.contracted_intermediate (ein5 L.mnef L.lkdc L.edjl L.afmk L.bcin L.abij Q.g_abab_oovv Q.l2_abab Q.t2_aaaa Q.t2_abab Q.t2_abab),
    .aug X.double_res [.arg Q.contracted_intermediate, ein1 L.abij L.abji Q.contracted_intermediate, ein1 L.abij L.baij Q.contracted_intermediate, ein1 L.abij L.baji Q.contracted_intermediate],
    set1 X.contracted_intermediate (ein5 L.mnef L.kldc L.edjl L.afmk L.bcin L.abij Q.g_abab_oovv Q.l2_bbbb Q.t2_abab Q.t2_abab Q.t2_abab),
    .aug X.double_res [.arg Q.contracted_intermediate, ein1 L.abij L.abji Q.contracted_intermediate, ein1 L.abij L.baij Q.contracted_intermediate, ein1 L.abij L.baji Q.contracted_intermediate],
    set1 X.contracted_intermediate (ein5 L.nmef L.kldc L.edjl L.faim L.cbkn L.abij Q.g_aaaa_oovv Q.l2_aaaa Q.t2_aaaa Q.t2_aaaa Q.t2_aaaa),
    .aug X.double_res [.arg Q.contracted_intermediate, ein1 L.abij L.abji Q.contracted_intermediate, ein1 L.abij L.baij Q.contracted_intermediate, ein1 L.abij L.baji Q.contracted_intermediate],
    set1 X.contracted_intermediate (ein5 L.nmef L.kldc L.edjl L.afim L.cbkn L.abij Q.g_abab_oovv Q.l2_aaaa Q.t2_aaaa Q.t2_abab Q.t2_aaaa),
    .aug X.double_res [.arg Q.contracted_intermediate, ein1 L.abij L.abji Q.contracted_intermediate, ein1 L.abij L.baij Q.contracted_intermediate, ein1 L.abij L.baji Q.contracted_intermediate],
    set1 X.contracted_intermediate (ein5 L.mnfe L.kldc L.dejl L.faim L.bckn L.abij Q.g_abab_oovv Q.l2_abab Q.t2_abab Q.t2_aaaa Q.t2_abab),
    .aug X.double_res [.arg Q.contracted_intermediate, ein1 L.abij L.abji Q.contracted_intermediate, ein1 L.abij L.baij Q.contracted_intermediate, ein1 L.abij L.baji Q.contracted_intermediate],
    set1 X.contracted_intermediate (ein5 L.nmef L.kldc L.dejl L.afim L.bckn L.abij Q.g_bbbb_oovv Q.l2_abab Q.t2_abab Q.t2_abab Q.t2_abab),
    .aug X.double_res [.arg Q.contracted_intermediate, ein1 L.abij L.abji Q.contracted_intermediate, ein1 L.abij L.baij Q.contracted_intermediate, ein1 L.abij L.baji Q.contracted_intermediate],
    set1 X.contracted_intermediate (ein5 L.nmef L.klcd L.edjl L.faim L.cbkn L.abij Q.g_aaaa_oovv Q.l2_abab Q.t2_abab Q.t2_aaaa Q.t2_aaaa),
    .aug X.double_res [.arg Q.contracted_intermediate, ein1 L.abij L.abji Q.contracted_intermediate, ein1 L.abij L.baij Q.contracted_intermediate, ein1 L.abij L.baji Q.contracted_intermediate],
    set1 X.contracted_intermediate (ein5 L.nmef L.klcd L.edjl L.afim L.cbkn L.abij Q.g_abab_oovv Q.l2_abab Q.t2_abab Q.t2_abab Q.t2_aaaa),
    .aug X.double_res [.arg Q.contracted_intermediate, ein1 L.abij L.abji Q.contracted_intermediate, ein1 L.abij L.baij Q.contracted_intermediate, ein1 L.abij L.baji Q.contracted_intermediate],
    set1 X.contracted_intermediate (ein5 L.nmef L.lkdc L.edjl L.faim L.bcnk L.abij Q.g_aaaa_oovv Q.l2_abab Q.t2_aaaa Q.t2_aaaa Q.t2_abab),
    .aug X.double_res [.arg Q.contracted_intermediate, ein1 L.abij L.abji Q.contracted_intermediate, ein1 L.abij L.baij Q.contracted_intermediate, ein1 L.abij L.baji Q.contracted_intermediate],
    set1 X.contracted_intermediate (ein5 L.nmef L.lkdc L.edjl L.afim L.bcnk L.abij Q.g_abab_oovv Q.l2_abab Q.t2_aaaa Q.t2_abab Q.t2_abab),
    .aug X.double_res [.arg Q.contracted_intermediate, ein1 L.abij L.abji Q.contracted_intermediate, ein1 L.abij L.baij Q.contracted_intermediate, ein1 L.abij L.baji Q.contracted_intermediate],
    set1 X.contracted_intermediate (ein5 L.nmef L.kldc L.edjl L.faim L.bcnk L.abij Q.g_aaaa_oovv Q.l2_bbbb Q.t2_abab Q.t2_aaaa Q.t2_abab),
    .aug X.double_res [.arg Q.contracted_intermediate, ein1 L.abij L.abji Q.contracted_intermediate, ein1 L.abij L.baij Q.contracted_intermediate, ein1 L.abij L.baji Q.contracted_intermediate],
    set1 X.contracted_intermediate (ein5 L.nmef L.kldc L.edjl L.afim L.bcnk L.abij Q.g_abab_oovv Q.l2_bbbb Q.t2_abab Q.t2_abab Q.t2_abab),
    .aug X.double_res [.arg Q.contracted_intermediate, ein1 L.abij L.abji Q.contracted_intermediate, ein1 L.abij L.baij Q.contracted_intermediate, ein1 L.abij L.baji Q.contracted_intermediate],
    set1 X.contracted_intermediate (ein5 L.nmef L.kldc L.edjl L.faik L.cbnm L.abij Q.g_aaaa_oovv Q.l2_aaaa Q.t2_aaaa Q.t2_aaaa Q.t2_aaaa),
    .aug X.double_res [.arg Q.contracted_intermediate, ein1 L.abij L.abji Q.contracted_intermediate, ein1 L.abij L.baij Q.contracted_intermediate, ein1 L.abij L.baji Q.contracted_intermediate],
    set1 X.contracted_intermediate (ein5 L.nmfe L.kldc L.dejl L.faik L.bcnm L.abij Q.g_abab_oovv Q.l2_abab Q.t2_abab Q.t2_aaaa Q.t2_abab),
    .aug X.double_res [.arg Q.contracted_intermediate, ein1 L.abij L.abji Q.contracted_intermediate, ein1 L.abij L.baij Q.contracted_intermediate, ein1 L.abij L.baji Q.contracted_intermediate],
    set1 X.contracted_intermediate (ein5 L.mnfe L.kldc L.dejl L.faik L.bcmn L.abij Q.g_abab_oovv Q.l2_abab Q.t2_abab Q.t2_aaaa Q.t2_abab),
    .aug X.double_res [.arg Q.contracted_intermediate, ein1 L.abij L.abji Q.contracted_intermediate, ein1 L.abij L.baij Q.contracted_intermediate, ein1 L.abij L.baji Q.contracted_intermediate],
    set1 X.contracted_intermediate (ein5 L.nmef L.klcd L.edjl L.faik L.cbnm L.abij Q.g_aaaa_oovv Q.l2_abab Q.t2_abab Q.t2_aaaa Q.t2_aaaa),
    .aug X.double_res [.arg Q.contracted_intermediate, ein1 L.abij L.abji Q.contracted_intermediate, ein1 L.abij L.baij Q.contracted_intermediate, ein1 L.abij L.baji Q.contracted_intermediate],
    set1 X.contracted_intermediate (ein5 L.nmef L.lkdc L.edjl L.afik L.bcnm L.abij Q.g_abab_oovv Q.l2_abab Q.t2_aaaa Q.t2_abab Q.t2_abab),
    .aug X.double_res [.arg Q.contracted_intermediate, ein1 L.abij L.abji Q.contracted_intermediate, ein1 L.abij L.baij Q.contracted_intermediate, ein1 L.abij L.baji Q.contracted_intermediate],
    set1 X.contracted_intermediate (ein5 L.mnef L.lkdc L.edjl L.afik L.bcmn L.abij Q.g_abab_oovv Q.l2_abab Q.t2_aaaa Q.t2_abab Q.t2_abab),
    .aug X.double_res [.arg Q.contracted_intermediate, ein1 L.abij L.abji Q.contracted_intermediate, ein1 L.abij L.baij Q.contracted_intermediate, ein1 L.abij L.baji Q.contracted_intermediate],
    set1 X.contracted_intermediate (ein5 L.nmef L.kldc L.edjl L.afik L.bcnm L.abij Q.g_abab_oovv Q.l2_bbbb Q.t2_abab Q.t2_abab Q.t2_abab),
    .aug X.double_res [.arg Q.contracted_intermediate, ein1 L.abij L.abji Q.contracted_intermediate, ein1 L.abij L.baij Q.contracted_intermediate, ein1 L.abij L.baji Q.contracted_intermediate],
    set1 X.contracted_intermediate (ein5 L.mnef L.kldc L.edjl L.afik L.bcmn L.abij Q.g_abab_oovv Q.l2_bbbb Q.t2_abab Q.t2_abab Q.t2_abab),
    .aug X.double_res [.arg Q.contracted_intermediate, ein1 L.abij L.abji Q.contracted_intermediate, ein1 L.abij L.baij Q.contracted_intermediate, ein1 L.abij L.baji Q.contracted_intermediate],
    set1 X.contracted_intermediate (ein5 L.nmef L.kldc L.edij L.falm L.cbkn L.abij Q.g_aaaa_oovv Q.l2_aaaa Q.t2_aaaa Q.t2_aaaa Q.t2_aaaa),
    .aug X.double_res [.arg Q.contracted_intermediate, ein1 L.abij L.baij Q.contracted_intermediate],
    set1 X.contracted_intermediate (ein5 L.nmef L.kldc L.edij L.aflm L.cbkn L.abij Q.g_abab_oovv Q.l2_aaaa Q.t2_aaaa Q.t2_abab Q.t2_aaaa),
    .aug X.double_res [.arg Q.contracted_intermediate, ein1 L.abij L.baij Q.contracted_intermediate],
    set1 X.contracted_intermediate (ein5 L.mnef L.kldc L.edij L.afml L.bckn L.abij Q.g_abab_oovv Q.l2_abab Q.t2_aaaa Q.t2_abab Q.t2_abab),
    .aug X.double_res [.arg Q.contracted_intermediate, ein1 L.abij L.baij Q.contracted_intermediate],
    set1 X.contracted_intermediate (ein5 L.nmef L.lkdc L.edij L.falm L.bcnk L.abij Q.g_aaaa_oovv Q.l2_abab Q.t2_aaaa Q.t2_aaaa Q.t2_abab),
    .aug X.double_res [.arg Q.contracted_intermediate, ein1 L.abij L.baij Q.contracted_intermediate],
    set1 X.contracted_intermediate (ein5 L.nmef L.lkdc L.edij L.aflm L.bcnk L.abij Q.g_abab_oovv Q.l2_abab Q.t2_aaaa Q.t2_abab Q.t2_abab),
    .aug X.double_res [.arg Q.contracted_intermediate, ein1 L.abij L.baij Q.contracted_intermediate],
    set1 X.contracted_intermediate (ein5 L.nmef L.kldc L.edij L.fakl L.cbnm L.abij Q.g_aaaa_oovv Q.l2_aaaa Q.t2_aaaa Q.t2_aaaa Q.t2_aaaa),
    .aug X.double_res [.arg Q.contracted_intermediate, ein1 L.abij L.baij Q.contracted_intermediate],
    set1 X.contracted_intermediate (ein5 L.nmef L.kldc L.edij L.afkl L.bcnm L.abij Q.g_abab_oovv Q.l2_abab Q.t2_aaaa Q.t2_abab Q.t2_abab),
    .aug X.double_res [.arg Q.contracted_intermediate, ein1 L.abij L.baij Q.contracted_intermediate],
    set1 X.contracted_intermediate (ein5 L.mnef L.kldc L.edij L.afkl L.bcmn L.abij Q.g_abab_oovv Q.l2_abab Q.t2_aaaa Q.t2_abab Q.t2_abab),
    .aug X.double_res [.arg Q.contracted_intermediate, ein1 L.abij L.baij Q.contracted_intermediate],
    set1 X.contracted_intermediate (ein5 L.nmef L.lkdc L.edij L.aflk L.bcnm L.abij Q.g_abab_oovv Q.l2_abab Q.t2_aaaa Q.t2_abab Q.t2_abab),
    .aug X.double_res [.arg Q.contracted_intermediate, ein1 L.abij L.baij Q.contracted_intermediate],
    set1 X.contracted_intermediate (ein5 L.mnef L.lkdc L.edij L.aflk L.bcmn L.abij Q.g_abab_oovv Q.l2_abab Q.t2_aaaa Q.t2_abab Q.t2_abab),
    .aug X.double_res [.arg Q.contracted_intermediate, ein1 L.abij L.baij Q.contracted_intermediate],
    set1 X.contracted_intermediate (ein5 L.nmef L.kldc L.ealm L.fbjk L.dcin L.abij Q.g_aaaa_oovv Q.l2_aaaa Q.t2_aaaa Q.t2_aaaa Q.t2_aaaa),
    .aug X.double_res [.arg Q.contracted_intermediate, ein1 L.abij L.abji Q.contracted_intermediate],
    set1 X.contracted_intermediate (ein5 L.nmfe L.kldc L.aelm L.fbjk L.dcin L.abij Q.g_abab_oovv Q.l2_aaaa Q.t2_abab Q.t2_aaaa Q.t2_aaaa),
    .aug X.double_res [.arg Q.contracted_intermediate, ein1 L.abij L.abji Q.contracted_intermediate],
    set1 X.contracted_intermediate (ein5 L.mnfe L.kldc L.aeml L.fbjk L.dcin L.abij Q.g_abab_oovv Q.l2_abab Q.t2_abab Q.t2_aaaa Q.t2_abab),
    .aug X.double_res [.arg Q.contracted_intermediate, ein1 L.abij L.abji Q.contracted_intermediate],
    set1 X.contracted_intermediate (ein5 L.mnfe L.klcd L.aeml L.fbjk L.cdin L.abij Q.g_abab_oovv Q.l2_abab Q.t2_abab Q.t2_aaaa Q.t2_abab),
    .aug X.double_res [.arg Q.contracted_intermediate, ein1 L.abij L.abji Q.contracted_intermediate],
    set1 X.contracted_intermediate (ein5 L.mnef L.lkdc L.ealm L.bfjk L.dcin L.abij Q.g_abab_oovv Q.l2_abab Q.t2_aaaa Q.t2_abab Q.t2_abab),
    .aug X.double_res [.arg Q.contracted_intermediate, ein1 L.abij L.abji Q.contracted_intermediate],
    set1 X.contracted_intermediate (ein5 L.nmef L.lkdc L.aelm L.bfjk L.dcin L.abij Q.g_bbbb_oovv Q.l2_abab Q.t2_abab Q.t2_abab Q.t2_abab),
    .aug X.double_res [.arg Q.contracted_intermediate, ein1 L.abij L.abji Q.contracted_intermediate],
    set1 X.contracted_intermediate (ein5 L.mnef L.lkcd L.ealm L.bfjk L.cdin L.abij Q.g_abab_oovv Q.l2_abab Q.t2_aaaa Q.t2_abab Q.t2_abab),
    .aug X.double_res [.arg Q.contracted_intermediate, ein1 L.abij L.abji Q.contracted_intermediate],
    set1 X.contracted_intermediate (ein5 L.nmef L.lkcd L.aelm L.bfjk L.cdin L.abij Q.g_bbbb_oovv Q.l2_abab Q.t2_abab Q.t2_abab Q.t2_abab),
    .aug X.double_res [.arg Q.contracted_intermediate, ein1 L.abij L.abji Q.contracted_intermediate],
    aug1 X.double_res (ein5 L.nmef L.kldc L.ealm L.fbij L.dckn L.abij Q.g_aaaa_oovv Q.l2_aaaa Q.t2_aaaa Q.t2_aaaa Q.t2_aaaa),
    aug1 X.double_res (ein5 L.nmfe L.kldc L.aelm L.fbij L.dckn L.abij Q.g_abab_oovv Q.l2_aaaa Q.t2_abab Q.t2_aaaa Q.t2_aaaa),
    aug1 X.double_res (ein5 L.mnfe L.kldc L.aeml L.fbij L.dckn L.abij Q.g_abab_oovv Q.l2_abab Q.t2_abab Q.t2_aaaa Q.t2_abab),
    aug1 X.double_res (ein5 L.mnfe L.klcd L.aeml L.fbij L.cdkn L.abij Q.g_abab_oovv Q.l2_abab Q.t2_abab Q.t2_aaaa Q.t2_abab),
    aug1 X.double_res (ein5 L.nmef L.lkdc L.ealm L.fbij L.dcnk L.abij Q.g_aaaa_oovv Q.l2_abab Q.t2_aaaa Q.t2_aaaa Q.t2_abab),
    aug1 X.double_res (ein5 L.nmfe L.lkdc L.aelm L.fbij L.dcnk L.abij Q.g_abab_oovv Q.l2_abab Q.t2_abab Q.t2_aaaa Q.t2_abab),
    aug1 X.double_res (ein5 L.nmef L.lkcd L.ealm L.fbij L.cdnk L.abij Q.g_aaaa_oovv Q.l2_abab Q.t2_aaaa Q.t2_aaaa Q.t2_abab),
    aug1 X.double_res (ein5 L.nmfe L.lkcd L.aelm L.fbij L.cdnk L.abij Q.g_abab_oovv Q.l2_abab Q.t2_abab Q.t2_aaaa Q.t2_abab),
    aug1 X.double_res (ein5 L.mnfe L.kldc L.aeml L.fbij L.dckn L.abij Q.g_abab_oovv Q.l2_bbbb Q.t2_abab Q.t2_aaaa Q.t2_bbbb),
    set1 X.contracted_intermediate (ein5 L.nmef L.kldc L.eajm L.fbkl L.dcin L.abij Q.g_aaaa_oovv Q.l2_aaaa Q.t2_aaaa Q.t2_aaaa Q.t2_aaaa),
    .aug X.double_res [.arg Q.contracted_intermediate, ein1 L.abij L.abji Q.contracted_intermediate],
    set1 X.contracted_intermediate (ein5 L.nmfe L.kldc L.aejm L.fbkl L.dcin L.abij Q.g_abab_oovv Q.l2_aaaa Q.t2_abab Q.t2_aaaa Q.t2_aaaa),
    .aug X.double_res [.arg Q.contracted_intermediate, ein1 L.abij L.abji Q.contracted_intermediate],
    set1 X.contracted_intermediate (ein5 L.mnef L.kldc L.eajm L.bfkl L.dcin L.abij Q.g_abab_oovv Q.l2_abab Q.t2_aaaa Q.t2_abab Q.t2_abab),
    .aug X.double_res [.arg Q.contracted_intermediate, ein1 L.abij L.abji Q.contracted_intermediate],
    set1 X.contracted_intermediate (ein5 L.nmef L.kldc L.aejm L.bfkl L.dcin L.abij Q.g_bbbb_oovv Q.l2_abab Q.t2_abab Q.t2_abab Q.t2_abab),
    .aug X.double_res [.arg Q.contracted_intermediate, ein1 L.abij L.abji Q.contracted_intermediate],
    set1 X.contracted_intermediate (ein5 L.mnef L.klcd L.eajm L.bfkl L.cdin L.abij Q.g_abab_oovv Q.l2_abab Q.t2_aaaa Q.t2_abab Q.t2_abab),
    .aug X.double_res [.arg Q.contracted_intermediate, ein1 L.abij L.abji Q.contracted_intermediate],
    set1 X.contracted_intermediate (ein5 L.nmef L.klcd L.aejm L.bfkl L.cdin L.abij Q.g_bbbb_oovv Q.l2_abab Q.t2_abab Q.t2_abab Q.t2_abab),
    .aug X.double_res [.arg Q.contracted_intermediate, ein1 L.abij L.abji Q.contracted_intermediate],
    set1 X.contracted_intermediate (ein5 L.mnef L.lkdc L.eajm L.bflk L.dcin L.abij Q.g_abab_oovv Q.l2_abab Q.t2_aaaa Q.t2_abab Q.t2_abab),
    .aug X.double_res [.arg Q.contracted_intermediate, ein1 L.abij L.abji Q.contracted_intermediate],
    set1 X.contracted_intermediate (ein5 L.nmef L.lkdc L.aejm L.bflk L.dcin L.abij Q.g_bbbb_oovv Q.l2_abab Q.t2_abab Q.t2_abab Q.t2_abab),
    .aug X.double_res [.arg Q.contracted_intermediate, ein1 L.abij L.abji Q.contracted_intermediate],
    set1 X.contracted_intermediate (ein5 L.mnef L.lkcd L.eajm L.bflk L.cdin L.abij Q.g_abab_oovv Q.l2_abab Q.t2_aaaa Q.t2_abab Q.t2_abab),
    .aug X.double_res [.arg Q.contracted_intermediate, ein1 L.abij L.abji Q.contracted_intermediate],
    set1 X.contracted_intermediate (ein5 L.nmef L.lkcd L.aejm L.bflk L.cdin L.abij Q.g_bbbb_oovv Q.l2_abab Q.t2_abab Q.t2_abab Q.t2_abab),
    .aug X.double_res [.arg Q.contracted_intermediate, ein1 L.abij L.abji Q.contracted_intermediate],
    set1 X.contracted_intermediate (ein5 L.nmef L.kldc L.eajm L.fbil L.dckn L.abij Q.g_aaaa_oovv Q.l2_aaaa Q.t2_aaaa Q.t2_aaaa Q.t2_aaaa),
    .aug X.double_res [.arg Q.contracted_intermediate, ein1 L.abij L.abji Q.contracted_intermediate],
    set1 X.contracted_intermediate (ein5 L.nmfe L.kldc L.aejm L.fbil L.dckn L.abij Q.g_abab_oovv Q.l2_aaaa Q.t2_abab Q.t2_aaaa Q.t2_aaaa),
    .aug X.double_res [.arg Q.contracted_intermediate, ein1 L.abij L.abji Q.contracted_intermediate],
    set1 X.contracted_intermediate (ein5 L.mnef L.kldc L.eajm L.bfil L.dckn L.abij Q.g_abab_oovv Q.l2_abab Q.t2_aaaa Q.t2_abab Q.t2_abab),
    .aug X.double_res [.arg Q.contracted_intermediate, ein1 L.abij L.abji Q.contracted_intermediate],
    set1 X.contracted_intermediate (ein5 L.nmef L.kldc L.aejm L.bfil L.dckn L.abij Q.g_bbbb_oovv Q.l2_abab Q.t2_abab Q.t2_abab Q.t2_abab),
    .aug X.double_res [.arg Q.contracted_intermediate, ein1 L.abij L.abji Q.contracted_intermediate],
    set1 X.contracted_intermediate (ein5 L.mnef L.klcd L.eajm L.bfil L.cdkn L.abij Q.g_abab_oovv Q.l2_abab Q.t2_aaaa Q.t2_abab Q.t2_abab),
    .aug X.double_res [.arg Q.contracted_intermediate, ein1 L.abij L.abji Q.contracted_intermediate],
    set1 X.contracted_intermediate (ein5 L.nmef L.klcd L.aejm L.bfil L.cdkn L.abij Q.g_bbbb_oovv Q.l2_abab Q.t2_abab Q.t2_abab Q.t2_abab),
    .aug X.double_res [.arg Q.contracted_intermediate, ein1 L.abij L.abji Q.contracted_intermediate],
    set1 X.contracted_intermediate (ein5 L.nmef L.lkdc L.eajm L.fbil L.dcnk L.abij Q.g_aaaa_oovv Q.l2_abab Q.t2_aaaa Q.t2_aaaa Q.t2_abab),
    .aug X.double_res [.arg Q.contracted_intermediate, ein1 L.abij L.abji Q.contracted_intermediate],
    set1 X.contracted_intermediate (ein5 L.nmfe L.lkdc L.aejm L.fbil L.dcnk L.abij Q.g_abab_oovv Q.l2_abab Q.t2_abab Q.t2_aaaa Q.t2_abab),
    .aug X.double_res [.arg Q.contracted_intermediate, ein1 L.abij L.abji Q.contracted_intermediate],
    set1 X.contracted_intermediate (ein5 L.nmef L.lkcd L.eajm L.fbil L.cdnk L.abij Q.g_aaaa_oovv Q.l2_abab Q.t2_aaaa Q.t2_aaaa Q.t2_abab),
    .aug X.double_res [.arg Q.contracted_intermediate, ein1 L.abij L.abji Q.contracted_intermediate],
    set1 X.contracted_intermediate (ein5 L.nmfe L.lkcd L.aejm L.fbil L.cdnk L.abij Q.g_abab_oovv Q.l2_abab Q.t2_abab Q.t2_aaaa Q.t2_abab),
    .aug X.double_res [.arg Q.contracted_intermediate, ein1 L.abij L.abji Q.contracted_intermediate],
    set1 X.contracted_intermediate (ein5 L.mnef L.kldc L.eajm L.bfil L.dckn L.abij Q.g_abab_oovv Q.l2_bbbb Q.t2_aaaa Q.t2_abab Q.t2_bbbb),
    .aug X.double_res [.arg Q.contracted_intermediate, ein1 L.abij L.abji Q.contracted_intermediate],
    set1 X.contracted_intermediate (ein5 L.nmef L.kldc L.aejm L.bfil L.dckn L.abij Q.g_bbbb_oovv Q.l2_bbbb Q.t2_abab Q.t2_abab Q.t2_bbbb),
    .aug X.double_res [.arg Q.contracted_intermediate, ein1 L.abij L.abji Q.contracted_intermediate],
    set1 X.contracted_intermediate (ein5 L.nmef L.kldc L.eakl L.fbjm L.dcin L.abij Q.g_aaaa_oovv Q.l2_aaaa Q.t2_aaaa Q.t2_aaaa Q.t2_aaaa),
    .aug X.double_res [.arg Q.contracted_intermediate, ein1 L.abij L.abji Q.contracted_intermediate],
    set1 X.contracted_intermediate (ein5 L.nmef L.kldc L.eakl L.bfjm L.dcin L.abij Q.g_abab_oovv Q.l2_aaaa Q.t2_aaaa Q.t2_abab Q.t2_aaaa),
    .aug X.double_res [.arg Q.contracted_intermediate, ein1 L.abij L.abji Q.contracted_intermediate],
    set1 X.contracted_intermediate (ein5 L.mnfe L.kldc L.aekl L.fbjm L.dcin L.abij Q.g_abab_oovv Q.l2_abab Q.t2_abab Q.t2_aaaa Q.t2_abab),
    .aug X.double_res [.arg Q.contracted_intermediate, ein1 L.abij L.abji Q.contracted_intermediate],
    set1 X.contracted_intermediate (ein5 L.nmef L.kldc L.aekl L.bfjm L.dcin L.abij Q.g_bbbb_oovv Q.l2_abab Q.t2_abab Q.t2_abab Q.t2_abab),
    .aug X.double_res [.arg Q.contracted_intermediate, ein1 L.abij L.abji Q.contracted_intermediate],
    set1 X.contracted_intermediate (ein5 L.mnfe L.klcd L.aekl L.fbjm L.cdin L.abij Q.g_abab_oovv Q.l2_abab Q.t2_abab Q.t2_aaaa Q.t2_abab),
    .aug X.double_res [.arg Q.contracted_intermediate, ein1 L.abij L.abji Q.contracted_intermediate],
    set1 X.contracted_intermediate (ein5 L.nmef L.klcd L.aekl L.bfjm L.cdin L.abij Q.g_bbbb_oovv Q.l2_abab Q.t2_abab Q.t2_abab Q.t2_abab),
    .aug X.double_res [.arg Q.contracted_intermediate, ein1 L.abij L.abji Q.contracted_intermediate],
    set1 X.contracted_intermediate (ein5 L.mnfe L.lkdc L.aelk L.fbjm L.dcin L.abij Q.g_abab_oovv Q.l2_abab Q.t2_abab Q.t2_aaaa Q.t2_abab),
    .aug X.double_res [.arg Q.contracted_intermediate, ein1 L.abij L.abji Q.contracted_intermediate],
    set1 X.contracted_intermediate (ein5 L.nmef L.lkdc L.aelk L.bfjm L.dcin L.abij Q.g_bbbb_oovv Q.l2_abab Q.t2_abab Q.t2_abab Q.t2_abab),
    .aug X.double_res [.arg Q.contracted_intermediate, ein1 L.abij L.abji Q.contracted_intermediate],
    set1 X.contracted_intermediate (ein5 L.mnfe L.lkcd L.aelk L.fbjm L.cdin L.abij Q.g_abab_oovv Q.l2_abab Q.t2_abab Q.t2_aaaa Q.t2_abab),
    .aug X.double_res [.arg Q.contracted_intermediate, ein1 L.abij L.abji Q.contracted_intermediate],
    set1 X.contracted_intermediate (ein5 L.nmef L.lkcd L.aelk L.bfjm L.cdin L.abij Q.g_bbbb_oovv Q.l2_abab Q.t2_abab Q.t2_abab Q.t2_abab),
    .aug X.double_res [.arg Q.contracted_intermediate, ein1 L.abij L.abji Q.contracted_intermediate],
    aug1 X.double_res (ein5 L.nmef L.kldc L.eakl L.fbij L.dcnm L.abij Q.g_aaaa_oovv Q.l2_aaaa Q.t2_aaaa Q.t2_aaaa Q.t2_aaaa),
    aug1 X.double_res (ein5 L.nmfe L.kldc L.aekl L.fbij L.dcnm L.abij Q.g_abab_oovv Q.l2_abab Q.t2_abab Q.t2_aaaa Q.t2_abab),
    aug1 X.double_res (ein5 L.mnfe L.kldc L.aekl L.fbij L.dcmn L.abij Q.g_abab_oovv Q.l2_abab Q.t2_abab Q.t2_aaaa Q.t2_abab),
    aug1 X.double_res (ein5 L.nmfe L.klcd L.aekl L.fbij L.cdnm L.abij Q.g_abab_oovv Q.l2_abab Q.t2_abab Q.t2_aaaa Q.t2_abab),
    aug1 X.double_res (ein5 L.mnfe L.klcd L.aekl L.fbij L.cdmn L.abij Q.g_abab_oovv Q.l2_abab Q.t2_abab Q.t2_aaaa Q.t2_abab),
    aug1 X.double_res (ein5 L.nmfe L.lkdc L.aelk L.fbij L.dcnm L.abij Q.g_abab_oovv Q.l2_abab Q.t2_abab Q.t2_aaaa Q.t2_abab),
    aug1 X.double_res (ein5 L.mnfe L.lkdc L.aelk L.fbij L.dcmn L.abij Q.g_abab_oovv Q.l2_abab Q.t2_abab Q.t2_aaaa Q.t2_abab),
    aug1 X.double_res (ein5 L.nmfe L.lkcd L.aelk L.fbij L.cdnm L.abij Q.g_abab_oovv Q.l2_abab Q.t2_abab Q.t2_aaaa Q.t2_abab),
    aug1 X.double_res (ein5 L.mnfe L.lkcd L.aelk L.fbij L.cdmn L.abij Q.g_abab_oovv Q.l2_abab Q.t2_abab Q.t2_aaaa Q.t2_abab),
    set1 X.contracted_intermediate (ein5 L.nmef L.kldc L.eajl L.fbkm L.dcin L.abij Q.g_aaaa_oovv Q.l2_aaaa Q.t2_aaaa Q.t2_aaaa Q.t2_aaaa),
    .aug X.double_res [.arg Q.contracted_intermediate, ein1 L.abij L.abji Q.contracted_intermediate],
    set1 X.contracted_intermediate (ein5 L.nmef L.kldc L.eajl L.bfkm L.dcin L.abij Q.g_abab_oovv Q.l2_aaaa Q.t2_aaaa Q.t2_abab Q.t2_aaaa),
    .aug X.double_res [.arg Q.contracted_intermediate, ein1 L.abij L.abji Q.contracted_intermediate],
    set1 X.contracted_intermediate (ein5 L.mnfe L.kldc L.aejl L.fbkm L.dcin L.abij Q.g_abab_oovv Q.l2_abab Q.t2_abab Q.t2_aaaa Q.t2_abab),
    .aug X.double_res [.arg Q.contracted_intermediate, ein1 L.abij L.abji Q.contracted_intermediate],
    set1 X.contracted_intermediate (ein5 L.nmef L.kldc L.aejl L.bfkm L.dcin L.abij Q.g_bbbb_oovv Q.l2_abab Q.t2_abab Q.t2_abab Q.t2_abab),
    .aug X.double_res [.arg Q.contracted_intermediate, ein1 L.abij L.abji Q.contracted_intermediate],
    set1 X.contracted_intermediate (ein5 L.mnfe L.klcd L.aejl L.fbkm L.cdin L.abij Q.g_abab_oovv Q.l2_abab Q.t2_abab Q.t2_aaaa Q.t2_abab),
    .aug X.double_res [.arg Q.contracted_intermediate, ein1 L.abij L.abji Q.contracted_intermediate],
    set1 X.contracted_intermediate (ein5 L.nmef L.klcd L.aejl L.bfkm L.cdin L.abij Q.g_bbbb_oovv Q.l2_abab Q.t2_abab Q.t2_abab Q.t2_abab),
    .aug X.double_res [.arg Q.contracted_intermediate, ein1 L.abij L.abji Q.contracted_intermediate],
    set1 X.contracted_intermediate (ein5 L.mnef L.lkdc L.eajl L.bfmk L.dcin L.abij Q.g_abab_oovv Q.l2_abab Q.t2_aaaa Q.t2_abab Q.t2_abab),
    .aug X.double_res [.arg Q.contracted_intermediate, ein1 L.abij L.abji Q.contracted_intermediate],
    set1 X.contracted_intermediate (ein5 L.mnef L.lkcd L.eajl L.bfmk L.cdin L.abij Q.g_abab_oovv Q.l2_abab Q.t2_aaaa Q.t2_abab Q.t2_abab),
    .aug X.double_res [.arg Q.contracted_intermediate, ein1 L.abij L.abji Q.contracted_intermediate],
    set1 X.contracted_intermediate (ein5 L.nmef L.kldc L.eajl L.fbim L.dckn L.abij Q.g_aaaa_oovv Q.l2_aaaa Q.t2_aaaa Q.t2_aaaa Q.t2_aaaa),
    .aug X.double_res [.arg Q.contracted_intermediate, ein1 L.abij L.abji Q.contracted_intermediate],
    set1 X.contracted_intermediate (ein5 L.nmef L.kldc L.eajl L.bfim L.dckn L.abij Q.g_abab_oovv Q.l2_aaaa Q.t2_aaaa Q.t2_abab Q.t2_aaaa),
    .aug X.double_res [.arg Q.contracted_intermediate, ein1 L.abij L.abji Q.contracted_intermediate],
    set1 X.contracted_intermediate (ein5 L.mnfe L.kldc L.aejl L.fbim L.dckn L.abij Q.g_abab_oovv Q.l2_abab Q.t2_abab Q.t2_aaaa Q.t2_abab),
    .aug X.double_res [.arg Q.contracted_intermediate, ein1 L.abij L.abji Q.contracted_intermediate],
    set1 X.contracted_intermediate (ein5 L.nmef L.kldc L.aejl L.bfim L.dckn L.abij Q.g_bbbb_oovv Q.l2_abab Q.t2_abab Q.t2_abab Q.t2_abab),
    .aug X.double_res [.arg Q.contracted_intermediate, ein1 L.abij L.abji Q.contracted_intermediate],
    set1 X.contracted_intermediate (ein5 L.mnfe L.klcd L.aejl L.fbim L.cdkn L.abij Q.g_abab_oovv Q.l2_abab Q.t2_abab Q.t2_aaaa Q.t2_abab),
    .aug X.double_res [.arg Q.contracted_intermediate, ein1 L.abij L.abji Q.contracted_intermediate],
    set1 X.contracted_intermediate (ein5 L.nmef L.klcd L.aejl L.bfim L.cdkn L.abij Q.g_bbbb_oovv Q.l2_abab Q.t2_abab Q.t2_abab Q.t2_abab),
    .aug X.double_res [.arg Q.contracted_intermediate, ein1 L.abij L.abji Q.contracted_intermediate],
    set1 X.contracted_intermediate (ein5 L.nmef L.lkdc L.eajl L.fbim L.dcnk L.abij Q.g_aaaa_oovv Q.l2_abab Q.t2_aaaa Q.t2_aaaa Q.t2_abab),
    .aug X.double_res [.arg Q.contracted_intermediate, ein1 L.abij L.abji Q.contracted_intermediate],
    set1 X.contracted_intermediate (ein5 L.nmef L.lkdc L.eajl L.bfim L.dcnk L.abij Q.g_abab_oovv Q.l2_abab Q.t2_aaaa Q.t2_abab Q.t2_abab),
    .aug X.double_res [.arg Q.contracted_intermediate, ein1 L.abij L.abji Q.contracted_intermediate],
    set1 X.contracted_intermediate (ein5 L.nmef L.lkcd L.eajl L.fbim L.cdnk L.abij Q.g_aaaa_oovv Q.l2_abab Q.t2_aaaa Q.t2_aaaa Q.t2_abab),
    .aug X.double_res [.arg Q.contracted_intermediate, ein1 L.abij L.abji Q.contracted_intermediate],
    set1 X.contracted_intermediate (ein5 L.nmef L.lkcd L.eajl L.bfim L.cdnk L.abij Q.g_abab_oovv Q.l2_abab Q.t2_aaaa Q.t2_abab Q.t2_abab),
    .aug X.double_res [.arg Q.contracted_intermediate, ein1 L.abij L.abji Q.contracted_intermediate],
    set1 X.contracted_intermediate (ein5 L.mnfe L.kldc L.aejl L.fbim L.dckn L.abij Q.g_abab_oovv Q.l2_bbbb Q.t2_abab Q.t2_aaaa Q.t2_bbbb),
    .aug X.double_res [.arg Q.contracted_intermediate, ein1 L.abij L.abji Q.contracted_intermediate],
    set1 X.contracted_intermediate (ein5 L.nmef L.kldc L.aejl L.bfim L.dckn L.abij Q.g_bbbb_oovv Q.l2_bbbb Q.t2_abab Q.t2_abab Q.t2_bbbb),
    .aug X.double_res [.arg Q.contracted_intermediate, ein1 L.abij L.abji Q.contracted_intermediate],
    set1 X.contracted_intermediate (ein5 L.nmef L.kldc L.eajl L.fbik L.dcnm L.abij Q.g_aaaa_oovv Q.l2_aaaa Q.t2_aaaa Q.t2_aaaa Q.t2_aaaa),
    .aug X.double_res [.arg Q.contracted_intermediate, ein1 L.abij L.abji Q.contracted_intermediate],
    set1 X.contracted_intermediate (ein5 L.nmfe L.kldc L.aejl L.fbik L.dcnm L.abij Q.g_abab_oovv Q.l2_abab Q.t2_abab Q.t2_aaaa Q.t2_abab),
    .aug X.double_res [.arg Q.contracted_intermediate, ein1 L.abij L.abji Q.contracted_intermediate],
    set1 X.contracted_intermediate (ein5 L.mnfe L.kldc L.aejl L.fbik L.dcmn L.abij Q.g_abab_oovv Q.l2_abab Q.t2_abab Q.t2_aaaa Q.t2_abab),
    .aug X.double_res [.arg Q.contracted_intermediate, ein1 L.abij L.abji Q.contracted_intermediate],
    set1 X.contracted_intermediate (ein5 L.nmfe L.klcd L.aejl L.fbik L.cdnm L.abij Q.g_abab_oovv Q.l2_abab Q.t2_abab Q.t2_aaaa Q.t2_abab),
    .aug X.double_res [.arg Q.contracted_intermediate, ein1 L.abij L.abji Q.contracted_intermediate],
    set1 X.contracted_intermediate (ein5 L.mnfe L.klcd L.aejl L.fbik L.cdmn L.abij Q.g_abab_oovv Q.l2_abab Q.t2_abab Q.t2_aaaa Q.t2_abab),
    .aug X.double_res [.arg Q.contracted_intermediate, ein1 L.abij L.abji Q.contracted_intermediate],
    set1 X.contracted_intermediate (ein5 L.nmef L.lkdc L.eajl L.bfik L.dcnm L.abij Q.g_abab_oovv Q.l2_abab Q.t2_aaaa Q.t2_abab Q.t2_abab),
    .aug X.double_res [.arg Q.contracted_intermediate, ein1 L.abij L.abji Q.contracted_intermediate],
    set1 X.contracted_intermediate (ein5 L.mnef L.lkdc L.eajl L.bfik L.dcmn L.abij Q.g_abab_oovv Q.l2_abab Q.t2_aaaa Q.t2_abab Q.t2_abab),
    .aug X.double_res [.arg Q.contracted_intermediate, ein1 L.abij L.abji Q.contracted_intermediate],
    set1 X.contracted_intermediate (ein5 L.nmef L.lkcd L.eajl L.bfik L.cdnm L.abij Q.g_abab_oovv Q.l2_abab Q.t2_aaaa Q.t2_abab Q.t2_abab),
    .aug X.double_res [.arg Q.contracted_intermediate, ein1 L.abij L.abji Q.contracted_intermediate],
    set1 X.contracted_intermediate (ein5 L.mnef L.lkcd L.eajl L.bfik L.cdmn L.abij Q.g_abab_oovv Q.l2_abab Q.t2_aaaa Q.t2_abab Q.t2_abab),
    .aug X.double_res [.arg Q.contracted_intermediate, ein1 L.abij L.abji Q.contracted_intermediate],
    set1 X.contracted_intermediate (ein5 L.nmef L.kldc L.aejl L.bfik L.dcnm L.abij Q.g_bbbb_oovv Q.l2_bbbb Q.t2_abab Q.t2_abab Q.t2_bbbb),
    .aug X.double_res [.arg Q.contracted_intermediate, ein1 L.abij L.abji Q.contracted_intermediate],
    set1 X.contracted_intermediate (ein5 L.nmef L.kldc L.eajk L.dbim L.fcln L.abij Q.g_aaaa_oovv Q.l2_aaaa Q.t2_aaaa Q.t2_aaaa Q.t2_aaaa),
    .aug X.double_res [.arg Q.contracted_intermediate, ein1 L.abij L.abji Q.contracted_intermediate, ein1 L.abij L.baij Q.contracted_intermediate, ein1 L.abij L.baji Q.contracted_intermediate],
    set1 X.contracted_intermediate (ein5 L.mnef L.kldc L.eajk L.dbim L.cfln L.abij Q.g_abab_oovv Q.l2_aaaa Q.t2_aaaa Q.t2_aaaa Q.t2_abab),
    .aug X.double_res [.arg Q.contracted_intermediate, ein1 L.abij L.abji Q.contracted_intermediate, ein1 L.abij L.baij Q.contracted_intermediate, ein1 L.abij L.baji Q.contracted_intermediate],
    set1 X.contracted_intermediate (ein5 L.nmef L.kldc L.eajk L.dbim L.fcnl L.abij Q.g_aaaa_oovv Q.l2_abab Q.t2_aaaa Q.t2_aaaa Q.t2_abab),
    .aug X.double_res [.arg Q.contracted_intermediate, ein1 L.abij L.abji Q.contracted_intermediate, ein1 L.abij L.baij Q.contracted_intermediate, ein1 L.abij L.baji Q.contracted_intermediate],
    set1 X.contracted_intermediate (ein5 L.mnef L.kldc L.eajk L.dbim L.fcln L.abij Q.g_abab_oovv Q.l2_abab Q.t2_aaaa Q.t2_aaaa Q.t2_bbbb),
    .aug X.double_res [.arg Q.contracted_intermediate, ein1 L.abij L.abji Q.contracted_intermediate, ein1 L.abij L.baij Q.contracted_intermediate, ein1 L.abij L.baji Q.contracted_intermediate],
    set1 X.contracted_intermediate (ein5 L.nmef L.klcd L.eajk L.bdim L.cfnl L.abij Q.g_abab_oovv Q.l2_abab Q.t2_aaaa Q.t2_abab Q.t2_abab),
    .aug X.double_res [.arg Q.contracted_intermediate, ein1 L.abij L.abji Q.contracted_intermediate, ein1 L.abij L.baij Q.contracted_intermediate, ein1 L.abij L.baji Q.contracted_intermediate],
    set1 X.contracted_intermediate (ein5 L.mnfe L.lkdc L.aejk L.dbim L.fcln L.abij Q.g_abab_oovv Q.l2_abab Q.t2_abab Q.t2_aaaa Q.t2_abab),
    .aug X.double_res [.arg Q.contracted_intermediate, ein1 L.abij L.abji Q.contracted_intermediate, ein1 L.abij L.baij Q.contracted_intermediate, ein1 L.abij L.baji Q.contracted_intermediate],
    set1 X.contracted_intermediate (ein5 L.nmfe L.lkcd L.aejk L.bdim L.fcln L.abij Q.g_abab_oovv Q.l2_abab Q.t2_abab Q.t2_abab Q.t2_aaaa),
    .aug X.double_res [.arg Q.contracted_intermediate, ein1 L.abij L.abji Q.contracted_intermediate, ein1 L.abij L.baij Q.contracted_intermediate, ein1 L.abij L.baji Q.contracted_intermediate],
    set1 X.contracted_intermediate (ein5 L.nmef L.lkcd L.aejk L.bdim L.cfln L.abij Q.g_bbbb_oovv Q.l2_abab Q.t2_abab Q.t2_abab Q.t2_abab),
    .aug X.double_res [.arg Q.contracted_intermediate, ein1 L.abij L.abji Q.contracted_intermediate, ein1 L.abij L.baij Q.contracted_intermediate, ein1 L.abij L.baji Q.contracted_intermediate],
    set1 X.contracted_intermediate (ein5 L.nmfe L.kldc L.aejk L.bdim L.fcnl L.abij Q.g_abab_oovv Q.l2_bbbb Q.t2_abab Q.t2_abab Q.t2_abab),
    .aug X.double_res [.arg Q.contracted_intermediate, ein1 L.abij L.abji Q.contracted_intermediate, ein1 L.abij L.baij Q.contracted_intermediate, ein1 L.abij L.baji Q.contracted_intermediate],
    set1 X.contracted_intermediate (ein5 L.nmef L.kldc L.aejk L.bdim L.fcln L.abij Q.g_bbbb_oovv Q.l2_bbbb Q.t2_abab Q.t2_abab Q.t2_bbbb),
    .aug X.double_res [.arg Q.contracted_intermediate, ein1 L.abij L.abji Q.contracted_intermediate, ein1 L.abij L.baij Q.contracted_intermediate, ein1 L.abij L.baji Q.contracted_intermediate],
    aug1 X.double_res (ein5 L.nmef L.kldc L.eaij L.fblm L.dckn L.abij Q.g_aaaa_oovv Q.l2_aaaa Q.t2_aaaa Q.t2_aaaa Q.t2_aaaa),
    aug1 X.double_res (ein5 L.nmef L.kldc L.eaij L.bflm L.dckn L.abij Q.g_abab_oovv Q.l2_aaaa Q.t2_aaaa Q.t2_abab Q.t2_aaaa),
    aug1 X.double_res (ein5 L.mnef L.kldc L.eaij L.bfml L.dckn L.abij Q.g_abab_oovv Q.l2_abab Q.t2_aaaa Q.t2_abab Q.t2_abab),
    aug1 X.double_res (ein5 L.mnef L.klcd L.eaij L.bfml L.cdkn L.abij Q.g_abab_oovv Q.l2_abab Q.t2_aaaa Q.t2_abab Q.t2_abab),
    aug1 X.double_res (ein5 L.nmef L.lkdc L.eaij L.fblm L.dcnk L.abij Q.g_aaaa_oovv Q.l2_abab Q.t2_aaaa Q.t2_aaaa Q.t2_abab),
    aug1 X.double_res (ein5 L.nmef L.lkdc L.eaij L.bflm L.dcnk L.abij Q.g_abab_oovv Q.l2_abab Q.t2_aaaa Q.t2_abab Q.t2_abab),
    aug1 X.double_res (ein5 L.nmef L.lkcd L.eaij L.fblm L.cdnk L.abij Q.g_aaaa_oovv Q.l2_abab Q.t2_aaaa Q.t2_aaaa Q.t2_abab),
    aug1 X.double_res (ein5 L.nmef L.lkcd L.eaij L.bflm L.cdnk L.abij Q.g_abab_oovv Q.l2_abab Q.t2_aaaa Q.t2_abab Q.t2_abab),
    aug1 X.double_res (ein5 L.mnef L.kldc L.eaij L.bfml L.dckn L.abij Q.g_abab_oovv Q.l2_bbbb Q.t2_aaaa Q.t2_abab Q.t2_bbbb),
    aug1 X.double_res (ein5 L.nmef L.kldc L.eaij L.fbkl L.dcnm L.abij Q.g_aaaa_oovv Q.l2_aaaa Q.t2_aaaa Q.t2_aaaa Q.t2_aaaa),
    aug1 X.double_res (ein5 L.nmef L.kldc L.eaij L.bfkl L.dcnm L.abij Q.g_abab_oovv Q.l2_abab Q.t2_aaaa Q.t2_abab Q.t2_abab),
    aug1 X.double_res (ein5 L.mnef L.kldc L.eaij L.bfkl L.dcmn L.abij Q.g_abab_oovv Q.l2_abab Q.t2_aaaa Q.t2_abab Q.t2_abab),
    aug1 X.double_res (ein5 L.nmef L.klcd L.eaij L.bfkl L.cdnm L.abij Q.g_abab_oovv Q.l2_abab Q.t2_aaaa Q.t2_abab Q.t2_abab),
    aug1 X.double_res (ein5 L.mnef L.klcd L.eaij L.bfkl L.cdmn L.abij Q.g_abab_oovv Q.l2_abab Q.t2_aaaa Q.t2_abab Q.t2_abab),
    aug1 X.double_res (ein5 L.nmef L.lkdc L.eaij L.bflk L.dcnm L.abij Q.g_abab_oovv Q.l2_abab Q.t2_aaaa Q.t2_abab Q.t2_abab),
    aug1 X.double_res (ein5 L.mnef L.lkdc L.eaij L.bflk L.dcmn L.abij Q.g_abab_oovv Q.l2_abab Q.t2_aaaa Q.t2_abab Q.t2_abab),
    aug1 X.double_res (ein5 L.nmef L.lkcd L.eaij L.bflk L.cdnm L.abij Q.g_abab_oovv Q.l2_abab Q.t2_aaaa Q.t2_abab Q.t2_abab),
    aug1 X.double_res (ein5 L.mnef L.lkcd L.eaij L.bflk L.cdmn L.abij Q.g_abab_oovv Q.l2_abab Q.t2_aaaa Q.t2_abab Q.t2_abab),
    set1 X.contracted_intermediate (ein5 L.nmef L.kldc L.ebjk L.dclm L.fain L.abij Q.g_aaaa_oovv Q.l2_aaaa Q.t2_aaaa Q.t2_aaaa Q.t2_aaaa),
    .aug X.double_res [.arg Q.contracted_intermediate, ein1 L.abij L.abji Q.contracted_intermediate],
    set1 X.contracted_intermediate (ein5 L.mnef L.kldc L.ebjk L.dclm L.afin L.abij Q.g_abab_oovv Q.l2_aaaa Q.t2_aaaa Q.t2_aaaa Q.t2_abab),
    .aug X.double_res [.arg Q.contracted_intermediate, ein1 L.abij L.abji Q.contracted_intermediate],
    set1 X.contracted_intermediate (ein5 L.nmef L.kldc L.ebjk L.dcml L.fain L.abij Q.g_aaaa_oovv Q.l2_abab Q.t2_aaaa Q.t2_abab Q.t2_aaaa),
    .aug X.double_res [.arg Q.contracted_intermediate, ein1 L.abij L.abji Q.contracted_intermediate],
    set1 X.contracted_intermediate (ein5 L.mnef L.kldc L.ebjk L.dcml L.afin L.abij Q.g_abab_oovv Q.l2_abab Q.t2_aaaa Q.t2_abab Q.t2_abab),
    .aug X.double_res [.arg Q.contracted_intermediate, ein1 L.abij L.abji Q.contracted_intermediate],
    set1 X.contracted_intermediate (ein5 L.nmef L.klcd L.ebjk L.cdml L.fain L.abij Q.g_aaaa_oovv Q.l2_abab Q.t2_aaaa Q.t2_abab Q.t2_aaaa),
    .aug X.double_res [.arg Q.contracted_intermediate, ein1 L.abij L.abji Q.contracted_intermediate],
    set1 X.contracted_intermediate (ein5 L.mnef L.klcd L.ebjk L.cdml L.afin L.abij Q.g_abab_oovv Q.l2_abab Q.t2_aaaa Q.t2_abab Q.t2_abab),
    .aug X.double_res [.arg Q.contracted_intermediate, ein1 L.abij L.abji Q.contracted_intermediate],
    set1 X.contracted_intermediate (ein5 L.nmfe L.lkdc L.bejk L.dclm L.fain L.abij Q.g_abab_oovv Q.l2_abab Q.t2_abab Q.t2_abab Q.t2_aaaa),
    .aug X.double_res [.arg Q.contracted_intermediate, ein1 L.abij L.abji Q.contracted_intermediate],
    set1 X.contracted_intermediate (ein5 L.nmef L.lkdc L.bejk L.dclm L.afin L.abij Q.g_bbbb_oovv Q.l2_abab Q.t2_abab Q.t2_abab Q.t2_abab),
    .aug X.double_res [.arg Q.contracted_intermediate, ein1 L.abij L.abji Q.contracted_intermediate],
    set1 X.contracted_intermediate (ein5 L.nmfe L.lkcd L.bejk L.cdlm L.fain L.abij Q.g_abab_oovv Q.l2_abab Q.t2_abab Q.t2_abab Q.t2_aaaa),
    .aug X.double_res [.arg Q.contracted_intermediate, ein1 L.abij L.abji Q.contracted_intermediate],
    set1 X.contracted_intermediate (ein5 L.nmef L.lkcd L.bejk L.cdlm L.afin L.abij Q.g_bbbb_oovv Q.l2_abab Q.t2_abab Q.t2_abab Q.t2_abab),
    .aug X.double_res [.arg Q.contracted_intermediate, ein1 L.abij L.abji Q.contracted_intermediate],
    set1 X.contracted_intermediate (ein5 L.nmfe L.kldc L.bejk L.dclm L.fain L.abij Q.g_abab_oovv Q.l2_bbbb Q.t2_abab Q.t2_bbbb Q.t2_aaaa),
    .aug X.double_res [.arg Q.contracted_intermediate, ein1 L.abij L.abji Q.contracted_intermediate],
    set1 X.contracted_intermediate (ein5 L.nmef L.kldc L.bejk L.dclm L.afin L.abij Q.g_bbbb_oovv Q.l2_bbbb Q.t2_abab Q.t2_bbbb Q.t2_abab),
    .aug X.double_res [.arg Q.contracted_intermediate, ein1 L.abij L.abji Q.contracted_intermediate],
    aug1 X.double_res (ein5 L.nmef L.kldc L.ebij L.dclm L.fakn L.abij Q.g_aaaa_oovv Q.l2_aaaa Q.t2_aaaa Q.t2_aaaa Q.t2_aaaa),
    aug1 X.double_res (ein5 L.mnef L.kldc L.ebij L.dclm L.afkn L.abij Q.g_abab_oovv Q.l2_aaaa Q.t2_aaaa Q.t2_aaaa Q.t2_abab),
    aug1 X.double_res (ein5 L.nmef L.kldc L.ebij L.dcml L.fakn L.abij Q.g_aaaa_oovv Q.l2_abab Q.t2_aaaa Q.t2_abab Q.t2_aaaa),
    aug1 X.double_res (ein5 L.mnef L.kldc L.ebij L.dcml L.afkn L.abij Q.g_abab_oovv Q.l2_abab Q.t2_aaaa Q.t2_abab Q.t2_abab),
    aug1 X.double_res (ein5 L.nmef L.klcd L.ebij L.cdml L.fakn L.abij Q.g_aaaa_oovv Q.l2_abab Q.t2_aaaa Q.t2_abab Q.t2_aaaa),
    aug1 X.double_res (ein5 L.mnef L.klcd L.ebij L.cdml L.afkn L.abij Q.g_abab_oovv Q.l2_abab Q.t2_aaaa Q.t2_abab Q.t2_abab),
    aug1 X.double_res (ein5 L.nmef L.lkdc L.ebij L.dclm L.afnk L.abij Q.g_abab_oovv Q.l2_abab Q.t2_aaaa Q.t2_abab Q.t2_abab),
    aug1 X.double_res (ein5 L.nmef L.lkcd L.ebij L.cdlm L.afnk L.abij Q.g_abab_oovv Q.l2_abab Q.t2_aaaa Q.t2_abab Q.t2_abab),
    aug1 X.double_res (ein5 L.nmef L.kldc L.ebij L.dclm L.afnk L.abij Q.g_abab_oovv Q.l2_bbbb Q.t2_aaaa Q.t2_bbbb Q.t2_abab),
    set1 X.contracted_intermediate (ein5 L.nmef L.kldc L.dajm L.ebkn L.fcil L.abij Q.g_aaaa_oovv Q.l2_aaaa Q.t2_aaaa Q.t2_aaaa Q.t2_aaaa),
    .aug X.double_res [.arg Q.contracted_intermediate, ein1 L.abij L.abji Q.contracted_intermediate, ein1 L.abij L.baij Q.contracted_intermediate, ein1 L.abij L.baji Q.contracted_intermediate],
    set1 X.contracted_intermediate (ein5 L.mnfe L.kldc L.dajm L.bekn L.fcil L.abij Q.g_abab_oovv Q.l2_aaaa Q.t2_aaaa Q.t2_abab Q.t2_aaaa),
    .aug X.double_res [.arg Q.contracted_intermediate, ein1 L.abij L.abji Q.contracted_intermediate, ein1 L.abij L.baij Q.contracted_intermediate, ein1 L.abij L.baji Q.contracted_intermediate],
    set1 X.contracted_intermediate (ein5 L.nmef L.kldc L.dajm L.ebkn L.fcil L.abij Q.g_aaaa_oovv Q.l2_abab Q.t2_aaaa Q.t2_aaaa Q.t2_abab),
    .aug X.double_res [.arg Q.contracted_intermediate, ein1 L.abij L.abji Q.contracted_intermediate, ein1 L.abij L.baij Q.contracted_intermediate, ein1 L.abij L.baji Q.contracted_intermediate],
    set1 X.contracted_intermediate (ein5 L.mnfe L.kldc L.dajm L.bekn L.fcil L.abij Q.g_abab_oovv Q.l2_abab Q.t2_aaaa Q.t2_abab Q.t2_abab),
    .aug X.double_res [.arg Q.contracted_intermediate, ein1 L.abij L.abji Q.contracted_intermediate, ein1 L.abij L.baij Q.contracted_intermediate, ein1 L.abij L.baji Q.contracted_intermediate],
    set1 X.contracted_intermediate (ein5 L.nmef L.klcd L.adjm L.ebkn L.cfil L.abij Q.g_abab_oovv Q.l2_abab Q.t2_abab Q.t2_aaaa Q.t2_abab),
    .aug X.double_res [.arg Q.contracted_intermediate, ein1 L.abij L.abji Q.contracted_intermediate, ein1 L.abij L.baij Q.contracted_intermediate, ein1 L.abij L.baji Q.contracted_intermediate],
    set1 X.contracted_intermediate (ein5 L.nmef L.klcd L.adjm L.bekn L.cfil L.abij Q.g_bbbb_oovv Q.l2_abab Q.t2_abab Q.t2_abab Q.t2_abab),
    .aug X.double_res [.arg Q.contracted_intermediate, ein1 L.abij L.abji Q.contracted_intermediate, ein1 L.abij L.baij Q.contracted_intermediate, ein1 L.abij L.baji Q.contracted_intermediate],
    set1 X.contracted_intermediate (ein5 L.nmfe L.lkcd L.adjm L.benk L.fcil L.abij Q.g_abab_oovv Q.l2_abab Q.t2_abab Q.t2_abab Q.t2_aaaa),
    .aug X.double_res [.arg Q.contracted_intermediate, ein1 L.abij L.abji Q.contracted_intermediate, ein1 L.abij L.baij Q.contracted_intermediate, ein1 L.abij L.baji Q.contracted_intermediate],
    set1 X.contracted_intermediate (ein5 L.nmfe L.kldc L.adjm L.benk L.fcil L.abij Q.g_abab_oovv Q.l2_bbbb Q.t2_abab Q.t2_abab Q.t2_abab),
    .aug X.double_res [.arg Q.contracted_intermediate, ein1 L.abij L.abji Q.contracted_intermediate, ein1 L.abij L.baij Q.contracted_intermediate, ein1 L.abij L.baji Q.contracted_intermediate]]
  ret := [Q.double_res]

/-- `modify_T2resid_T4Qf2.py` 1311-2614: `residQf2_bbbb`; 781 einsum calls. -/
def modify_T2resid_T4Qf2_residQf2_bbbb : Fn where
  params := [X.g_aaaa, X.g_bbbb, X.g_abab, X.l2_aaaa, X.l2_bbbb, X.l2_abab, X.t2_aaaa, X.t2_bbbb, X.t2_abab]
  body := [
    set1 X.g_aaaa (.arg Q.g_aaaa),
    set1 X.g_bbbb (.arg Q.g_bbbb),
    set1 X.g_abab (.arg Q.g_abab),
    set1 X.l2_aaaa (.arg Q.l2_aaaa),
    set1 X.l2_bbbb (.arg Q.l2_bbbb),
    set1 X.l2_abab (.arg Q.l2_abab),
    set1 X.t2_aaaa (.arg Q.t2_aaaa),
    set1 X.t2_bbbb (.arg Q.t2_bbbb),
    set1 X.t2_abab (.arg Q.t2_abab),
    set1 X.contracted_intermediate (ein5 L.mnef L.kldc L.efkl L.dcmj L.abin L.abij Q.g_abab_oovv Q.l2_abab Q.t2_abab Q.t2_abab Q.t2_bbbb),
    .set X.double_res [.arg Q.contracted_intermediate, ein1 L.abij L.abji Q.contracted_intermediate],
    set1 X.contracted_intermediate (ein5 L.mnfe L.kldc L.fekl L.dcmj L.abin L.abij Q.g_abab_oovv Q.l2_abab Q.t2_abab Q.t2_abab Q.t2_bbbb),
    .aug X.double_res [.arg Q.contracted_intermediate, ein1 L.abij L.abji Q.contracted_intermediate],
    set1 X.contracted_intermediate (ein5 L.mnef L.klcd L.efkl L.cdmj L.abin L.abij Q.g_abab_oovv Q.l2_abab Q.t2_abab Q.t2_abab Q.t2_bbbb),
    .aug X.double_res [.arg Q.contracted_intermediate, ein1 L.abij L.abji Q.contracted_intermediate],
    set1 X.contracted_intermediate (ein5 L.mnfe L.klcd L.fekl L.cdmj L.abin L.abij Q.g_abab_oovv Q.l2_abab Q.t2_abab Q.t2_abab Q.t2_bbbb),
    .aug X.double_res [.arg Q.contracted_intermediate, ein1 L.abij L.abji Q.contracted_intermediate],
    set1 X.contracted_intermediate (ein5 L.mnef L.lkdc L.eflk L.dcmj L.abin L.abij Q.g_abab_oovv Q.l2_abab Q.t2_abab Q.t2_abab Q.t2_bbbb),
    .aug X.double_res [.arg Q.contracted_intermediate, ein1 L.abij L.abji Q.contracted_intermediate],
    set1 X.contracted_intermediate (ein5 L.mnfe L.lkdc L.felk L.dcmj L.abin L.abij Q.g_abab_oovv Q.l2_abab Q.t2_abab Q.t2_abab Q.t2_bbbb),
    .aug X.double_res [.arg Q.contracted_intermediate, ein1 L.abij L.abji Q.contracted_intermediate],
    set1 X.contracted_intermediate (ein5 L.mnef L.lkcd L.eflk L.cdmj L.abin L.abij Q.g_abab_oovv Q.l2_abab Q.t2_abab Q.t2_abab Q.t2_bbbb),
    .aug X.double_res [.arg Q.contracted_intermediate, ein1 L.abij L.abji Q.contracted_intermediate],
    set1 X.contracted_intermediate (ein5 L.mnfe L.lkcd L.felk L.cdmj L.abin L.abij Q.g_abab_oovv Q.l2_abab Q.t2_abab Q.t2_abab Q.t2_bbbb),
    .aug X.double_res [.arg Q.contracted_intermediate, ein1 L.abij L.abji Q.contracted_intermediate],
    set1 X.contracted_intermediate (ein5 L.nmef L.kldc L.efkl L.dcjm L.abin L.abij Q.g_bbbb_oovv Q.l2_bbbb Q.t2_bbbb Q.t2_bbbb Q.t2_bbbb),
    .aug X.double_res [.arg Q.contracted_intermediate, ein1 L.abij L.abji Q.contracted_intermediate],
    set1 X.contracted_intermediate (ein5 L.nmef L.kldc L.efkl L.damj L.cbni L.abij Q.g_aaaa_oovv Q.l2_aaaa Q.t2_aaaa Q.t2_abab Q.t2_abab),
    .aug X.double_res [.arg Q.contracted_intermediate, ein1 L.abij L.abji Q.contracted_intermediate],
    set1 X.contracted_intermediate (ein5 L.mnef L.kldc L.efkl L.damj L.cbin L.abij Q.g_abab_oovv Q.l2_abab Q.t2_abab Q.t2_abab Q.t2_bbbb),
    .aug X.double_res [.arg Q.contracted_intermediate, ein1 L.abij L.abji Q.contracted_intermediate],
    set1 X.contracted_intermediate (ein5 L.mnfe L.kldc L.fekl L.damj L.cbin L.abij Q.g_abab_oovv Q.l2_abab Q.t2_abab Q.t2_abab Q.t2_bbbb),
    .aug X.double_res [.arg Q.contracted_intermediate, ein1 L.abij L.abji Q.contracted_intermediate],
    set1 X.contracted_intermediate (ein5 L.nmef L.klcd L.efkl L.dajm L.cbni L.abij Q.g_abab_oovv Q.l2_abab Q.t2_abab Q.t2_bbbb Q.t2_abab),
    .aug X.double_res [.arg Q.contracted_intermediate, ein1 L.abij L.abji Q.contracted_intermediate],
    set1 X.contracted_intermediate (ein5 L.nmfe L.klcd L.fekl L.dajm L.cbni L.abij Q.g_abab_oovv Q.l2_abab Q.t2_abab Q.t2_bbbb Q.t2_abab),
    .aug X.double_res [.arg Q.contracted_intermediate, ein1 L.abij L.abji Q.contracted_intermediate],
    set1 X.contracted_intermediate (ein5 L.mnef L.lkdc L.eflk L.damj L.cbin L.abij Q.g_abab_oovv Q.l2_abab Q.t2_abab Q.t2_abab Q.t2_bbbb),
    .aug X.double_res [.arg Q.contracted_intermediate, ein1 L.abij L.abji Q.contracted_intermediate],
    set1 X.contracted_intermediate (ein5 L.mnfe L.lkdc L.felk L.damj L.cbin L.abij Q.g_abab_oovv Q.l2_abab Q.t2_abab Q.t2_abab Q.t2_bbbb),
    .aug X.double_res [.arg Q.contracted_intermediate, ein1 L.abij L.abji Q.contracted_intermediate],
    set1 X.contracted_intermediate (ein5 L.nmef L.lkcd L.eflk L.dajm L.cbni L.abij Q.g_abab_oovv Q.l2_abab Q.t2_abab Q.t2_bbbb Q.t2_abab),
    .aug X.double_res [.arg Q.contracted_intermediate, ein1 L.abij L.abji Q.contracted_intermediate],
    set1 X.contracted_intermediate (ein5 L.nmfe L.lkcd L.felk L.dajm L.cbni L.abij Q.g_abab_oovv Q.l2_abab Q.t2_abab Q.t2_bbbb Q.t2_abab),
    .aug X.double_res [.arg Q.contracted_intermediate, ein1 L.abij L.abji Q.contracted_intermediate],
    set1 X.contracted_intermediate (ein5 L.nmef L.kldc L.efkl L.dajm L.cbin L.abij Q.g_bbbb_oovv Q.l2_bbbb Q.t2_bbbb Q.t2_bbbb Q.t2_bbbb),
    .aug X.double_res [.arg Q.contracted_intermediate, ein1 L.abij L.abji Q.contracted_intermediate],
    set1 X.contracted_intermediate (ein5 L.mnef L.kldc L.eflj L.dckm L.abin L.abij Q.g_abab_oovv Q.l2_aaaa Q.t2_abab Q.t2_aaaa Q.t2_bbbb),
    .aug X.double_res [.arg Q.contracted_intermediate, ein1 L.abij L.abji Q.contracted_intermediate],
    set1 X.contracted_intermediate (ein5 L.mnfe L.kldc L.felj L.dckm L.abin L.abij Q.g_abab_oovv Q.l2_aaaa Q.t2_abab Q.t2_aaaa Q.t2_bbbb),
    .aug X.double_res [.arg Q.contracted_intermediate, ein1 L.abij L.abji Q.contracted_intermediate],
    set1 X.contracted_intermediate (ein5 L.nmef L.kldc L.efjl L.dckm L.abin L.abij Q.g_bbbb_oovv Q.l2_abab Q.t2_bbbb Q.t2_abab Q.t2_bbbb),
    .aug X.double_res [.arg Q.contracted_intermediate, ein1 L.abij L.abji Q.contracted_intermediate],
    set1 X.contracted_intermediate (ein5 L.nmef L.klcd L.efjl L.cdkm L.abin L.abij Q.g_bbbb_oovv Q.l2_abab Q.t2_bbbb Q.t2_abab Q.t2_bbbb),
    .aug X.double_res [.arg Q.contracted_intermediate, ein1 L.abij L.abji Q.contracted_intermediate],
    set1 X.contracted_intermediate (ein5 L.mnef L.lkdc L.eflj L.dcmk L.abin L.abij Q.g_abab_oovv Q.l2_abab Q.t2_abab Q.t2_abab Q.t2_bbbb),
    .aug X.double_res [.arg Q.contracted_intermediate, ein1 L.abij L.abji Q.contracted_intermediate],
    set1 X.contracted_intermediate (ein5 L.mnfe L.lkdc L.felj L.dcmk L.abin L.abij Q.g_abab_oovv Q.l2_abab Q.t2_abab Q.t2_abab Q.t2_bbbb),
    .aug X.double_res [.arg Q.contracted_intermediate, ein1 L.abij L.abji Q.contracted_intermediate],
    set1 X.contracted_intermediate (ein5 L.mnef L.lkcd L.eflj L.cdmk L.abin L.abij Q.g_abab_oovv Q.l2_abab Q.t2_abab Q.t2_abab Q.t2_bbbb),
    .aug X.double_res [.arg Q.contracted_intermediate, ein1 L.abij L.abji Q.contracted_intermediate],
    set1 X.contracted_intermediate (ein5 L.mnfe L.lkcd L.felj L.cdmk L.abin L.abij Q.g_abab_oovv Q.l2_abab Q.t2_abab Q.t2_abab Q.t2_bbbb),
    .aug X.double_res [.arg Q.contracted_intermediate, ein1 L.abij L.abji Q.contracted_intermediate],
    set1 X.contracted_intermediate (ein5 L.nmef L.kldc L.efjl L.dckm L.abin L.abij Q.g_bbbb_oovv Q.l2_bbbb Q.t2_bbbb Q.t2_bbbb Q.t2_bbbb),
    .aug X.double_res [.arg Q.contracted_intermediate, ein1 L.abij L.abji Q.contracted_intermediate],
    set1 X.contracted_intermediate (ein5 L.mnef L.lkdc L.eflj L.dcmi L.abkn L.abij Q.g_abab_oovv Q.l2_abab Q.t2_abab Q.t2_abab Q.t2_bbbb),
    .aug X.double_res [.arg Q.contracted_intermediate, ein1 L.abij L.abji Q.contracted_intermediate],
    set1 X.contracted_intermediate (ein5 L.mnfe L.lkdc L.felj L.dcmi L.abkn L.abij Q.g_abab_oovv Q.l2_abab Q.t2_abab Q.t2_abab Q.t2_bbbb),
    .aug X.double_res [.arg Q.contracted_intermediate, ein1 L.abij L.abji Q.contracted_intermediate],
    set1 X.contracted_intermediate (ein5 L.mnef L.lkcd L.eflj L.cdmi L.abkn L.abij Q.g_abab_oovv Q.l2_abab Q.t2_abab Q.t2_abab Q.t2_bbbb),
    .aug X.double_res [.arg Q.contracted_intermediate, ein1 L.abij L.abji Q.contracted_intermediate],
    set1 X.contracted_intermediate (ein5 L.mnfe L.lkcd L.felj L.cdmi L.abkn L.abij Q.g_abab_oovv Q.l2_abab Q.t2_abab Q.t2_abab Q.t2_bbbb),
    .aug X.double_res [.arg Q.contracted_intermediate, ein1 L.abij L.abji Q.contracted_intermediate],
    set1 X.contracted_intermediate (ein5 L.nmef L.kldc L.efjl L.dcim L.abkn L.abij Q.g_bbbb_oovv Q.l2_bbbb Q.t2_bbbb Q.t2_bbbb Q.t2_bbbb),
    .aug X.double_res [.arg Q.contracted_intermediate, ein1 L.abij L.abji Q.contracted_intermediate],
    set1 X.contracted_intermediate (ein5 L.nmef L.kldc L.eflj L.dakm L.cbni L.abij Q.g_abab_oovv Q.l2_aaaa Q.t2_abab Q.t2_abab Q.t2_abab),
    .aug X.double_res [.arg Q.contracted_intermediate, ein1 L.abij L.abji Q.contracted_intermediate],
    set1 X.contracted_intermediate (ein5 L.nmfe L.kldc L.felj L.dakm L.cbni L.abij Q.g_abab_oovv Q.l2_aaaa Q.t2_abab Q.t2_abab Q.t2_abab),
    .aug X.double_res [.arg Q.contracted_intermediate, ein1 L.abij L.abji Q.contracted_intermediate],
    set1 X.contracted_intermediate (ein5 L.nmef L.kldc L.efjl L.dakm L.cbin L.abij Q.g_bbbb_oovv Q.l2_abab Q.t2_bbbb Q.t2_abab Q.t2_bbbb),
    .aug X.double_res [.arg Q.contracted_intermediate, ein1 L.abij L.abji Q.contracted_intermediate],
    set1 X.contracted_intermediate (ein5 L.mnef L.lkdc L.eflj L.damk L.cbin L.abij Q.g_abab_oovv Q.l2_abab Q.t2_abab Q.t2_abab Q.t2_bbbb),
    .aug X.double_res [.arg Q.contracted_intermediate, ein1 L.abij L.abji Q.contracted_intermediate],
    set1 X.contracted_intermediate (ein5 L.mnfe L.lkdc L.felj L.damk L.cbin L.abij Q.g_abab_oovv Q.l2_abab Q.t2_abab Q.t2_abab Q.t2_bbbb),
    .aug X.double_res [.arg Q.contracted_intermediate, ein1 L.abij L.abji Q.contracted_intermediate],
    set1 X.contracted_intermediate (ein5 L.nmef L.lkcd L.eflj L.dakm L.cbni L.abij Q.g_abab_oovv Q.l2_abab Q.t2_abab Q.t2_bbbb Q.t2_abab),
    .aug X.double_res [.arg Q.contracted_intermediate, ein1 L.abij L.abji Q.contracted_intermediate],
    set1 X.contracted_intermediate (ein5 L.nmfe L.lkcd L.felj L.dakm L.cbni L.abij Q.g_abab_oovv Q.l2_abab Q.t2_abab Q.t2_bbbb Q.t2_abab),
    .aug X.double_res [.arg Q.contracted_intermediate, ein1 L.abij L.abji Q.contracted_intermediate],
    set1 X.contracted_intermediate (ein5 L.nmef L.kldc L.efjl L.dakm L.cbin L.abij Q.g_bbbb_oovv Q.l2_bbbb Q.t2_bbbb Q.t2_bbbb Q.t2_bbbb),
    .aug X.double_res [.arg Q.contracted_intermediate, ein1 L.abij L.abji Q.contracted_intermediate],
    set1 X.contracted_intermediate (ein5 L.mnef L.kldc L.eflj L.dami L.cbkn L.abij Q.g_abab_oovv Q.l2_aaaa Q.t2_abab Q.t2_abab Q.t2_abab),
    .aug X.double_res [.arg Q.contracted_intermediate, ein1 L.abij L.abji Q.contracted_intermediate],
    set1 X.contracted_intermediate (ein5 L.mnfe L.kldc L.felj L.dami L.cbkn L.abij Q.g_abab_oovv Q.l2_aaaa Q.t2_abab Q.t2_abab Q.t2_abab),
    .aug X.double_res [.arg Q.contracted_intermediate, ein1 L.abij L.abji Q.contracted_intermediate],
    set1 X.contracted_intermediate (ein5 L.nmef L.klcd L.efjl L.daim L.cbkn L.abij Q.g_bbbb_oovv Q.l2_abab Q.t2_bbbb Q.t2_bbbb Q.t2_abab),
    .aug X.double_res [.arg Q.contracted_intermediate, ein1 L.abij L.abji Q.contracted_intermediate],
    set1 X.contracted_intermediate (ein5 L.mnef L.lkdc L.eflj L.dami L.cbkn L.abij Q.g_abab_oovv Q.l2_abab Q.t2_abab Q.t2_abab Q.t2_bbbb),
    .aug X.double_res [.arg Q.contracted_intermediate, ein1 L.abij L.abji Q.contracted_intermediate],
    set1 X.contracted_intermediate (ein5 L.mnfe L.lkdc L.felj L.dami L.cbkn L.abij Q.g_abab_oovv Q.l2_abab Q.t2_abab Q.t2_abab Q.t2_bbbb),
    .aug X.double_res [.arg Q.contracted_intermediate, ein1 L.abij L.abji Q.contracted_intermediate],
    set1 X.contracted_intermediate (ein5 L.nmef L.lkcd L.eflj L.daim L.cbnk L.abij Q.g_abab_oovv Q.l2_abab Q.t2_abab Q.t2_bbbb Q.t2_abab),
    .aug X.double_res [.arg Q.contracted_intermediate, ein1 L.abij L.abji Q.contracted_intermediate],
    set1 X.contracted_intermediate (ein5 L.nmfe L.lkcd L.felj L.daim L.cbnk L.abij Q.g_abab_oovv Q.l2_abab Q.t2_abab Q.t2_bbbb Q.t2_abab),
    .aug X.double_res [.arg Q.contracted_intermediate, ein1 L.abij L.abji Q.contracted_intermediate],
    set1 X.contracted_intermediate (ein5 L.nmef L.kldc L.efjl L.daim L.cbkn L.abij Q.g_bbbb_oovv Q.l2_bbbb Q.t2_bbbb Q.t2_bbbb Q.t2_bbbb),
    .aug X.double_res [.arg Q.contracted_intermediate, ein1 L.abij L.abji Q.contracted_intermediate],
    aug1 X.double_res (ein5 L.nmef L.lkdc L.efij L.dclm L.abkn L.abij Q.g_bbbb_oovv Q.l2_abab Q.t2_bbbb Q.t2_abab Q.t2_bbbb),
    aug1 X.double_res (ein5 L.nmef L.lkcd L.efij L.cdlm L.abkn L.abij Q.g_bbbb_oovv Q.l2_abab Q.t2_bbbb Q.t2_abab Q.t2_bbbb),
    aug1 X.double_res (ein5 L.nmef L.kldc L.efij L.dclm L.abkn L.abij Q.g_bbbb_oovv Q.l2_bbbb Q.t2_bbbb Q.t2_bbbb Q.t2_bbbb),
    set1 X.contracted_intermediate (ein5 L.nmef L.kldc L.efij L.dalm L.cbkn L.abij Q.g_bbbb_oovv Q.l2_aaaa Q.t2_bbbb Q.t2_abab Q.t2_abab),
    .aug X.double_res [.arg Q.contracted_intermediate, ein1 L.abij L.baij Q.contracted_intermediate],
    set1 X.contracted_intermediate (ein5 L.nmef L.klcd L.efij L.dalm L.cbkn L.abij Q.g_bbbb_oovv Q.l2_abab Q.t2_bbbb Q.t2_bbbb Q.t2_abab),
    .aug X.double_res [.arg Q.contracted_intermediate, ein1 L.abij L.baij Q.contracted_intermediate],
    set1 X.contracted_intermediate (ein5 L.nmef L.lkdc L.efij L.dalm L.cbkn L.abij Q.g_bbbb_oovv Q.l2_abab Q.t2_bbbb Q.t2_abab Q.t2_bbbb),
    .aug X.double_res [.arg Q.contracted_intermediate, ein1 L.abij L.baij Q.contracted_intermediate],
    set1 X.contracted_intermediate (ein5 L.nmef L.kldc L.efij L.dalm L.cbkn L.abij Q.g_bbbb_oovv Q.l2_bbbb Q.t2_bbbb Q.t2_bbbb Q.t2_bbbb),
    .aug X.double_res [.arg Q.contracted_intermediate, ein1 L.abij L.baij Q.contracted_intermediate],
    set1 X.contracted_intermediate (ein5 L.mnef L.kldc L.edlm L.cfkj L.abin L.abij Q.g_abab_oovv Q.l2_aaaa Q.t2_aaaa Q.t2_abab Q.t2_bbbb),
    .aug X.double_res [.arg Q.contracted_intermediate, ein1 L.abij L.abji Q.contracted_intermediate],
    set1 X.contracted_intermediate (ein5 L.nmef L.kldc L.delm L.cfkj L.abin L.abij Q.g_bbbb_oovv Q.l2_aaaa Q.t2_abab Q.t2_abab Q.t2_bbbb),
    .aug X.double_res [.arg Q.contracted_intermediate, ein1 L.abij L.abji Q.contracted_intermediate],
    set1 X.contracted_intermediate (ein5 L.mnfe L.kldc L.deml L.fckj L.abin L.abij Q.g_abab_oovv Q.l2_abab Q.t2_abab Q.t2_abab Q.t2_bbbb),
    .aug X.double_res [.arg Q.contracted_intermediate, ein1 L.abij L.abji Q.contracted_intermediate],
    set1 X.contracted_intermediate (ein5 L.mnef L.klcd L.edml L.cfkj L.abin L.abij Q.g_abab_oovv Q.l2_abab Q.t2_abab Q.t2_abab Q.t2_bbbb),
    .aug X.double_res [.arg Q.contracted_intermediate, ein1 L.abij L.abji Q.contracted_intermediate],
    set1 X.contracted_intermediate (ein5 L.nmef L.klcd L.edlm L.cfkj L.abin L.abij Q.g_bbbb_oovv Q.l2_abab Q.t2_bbbb Q.t2_abab Q.t2_bbbb),
    .aug X.double_res [.arg Q.contracted_intermediate, ein1 L.abij L.abji Q.contracted_intermediate],
    set1 X.contracted_intermediate (ein5 L.mnef L.lkdc L.edlm L.fcjk L.abin L.abij Q.g_abab_oovv Q.l2_abab Q.t2_aaaa Q.t2_bbbb Q.t2_bbbb),
    .aug X.double_res [.arg Q.contracted_intermediate, ein1 L.abij L.abji Q.contracted_intermediate],
    set1 X.contracted_intermediate (ein5 L.nmef L.lkdc L.delm L.fcjk L.abin L.abij Q.g_bbbb_oovv Q.l2_abab Q.t2_abab Q.t2_bbbb Q.t2_bbbb),
    .aug X.double_res [.arg Q.contracted_intermediate, ein1 L.abij L.abji Q.contracted_intermediate],
    set1 X.contracted_intermediate (ein5 L.mnef L.kldc L.edml L.fcjk L.abin L.abij Q.g_abab_oovv Q.l2_bbbb Q.t2_abab Q.t2_bbbb Q.t2_bbbb),
    .aug X.double_res [.arg Q.contracted_intermediate, ein1 L.abij L.abji Q.contracted_intermediate],
    set1 X.contracted_intermediate (ein5 L.nmef L.kldc L.edlm L.fcjk L.abin L.abij Q.g_bbbb_oovv Q.l2_bbbb Q.t2_bbbb Q.t2_bbbb Q.t2_bbbb),
    .aug X.double_res [.arg Q.contracted_intermediate, ein1 L.abij L.abji Q.contracted_intermediate],
    aug1 X.double_res (ein5 L.mnef L.lkdc L.edlm L.fcij L.abkn L.abij Q.g_abab_oovv Q.l2_abab Q.t2_aaaa Q.t2_bbbb Q.t2_bbbb),
    aug1 X.double_res (ein5 L.nmef L.lkdc L.delm L.fcij L.abkn L.abij Q.g_bbbb_oovv Q.l2_abab Q.t2_abab Q.t2_bbbb Q.t2_bbbb),
    aug1 X.double_res (ein5 L.mnef L.kldc L.edml L.fcij L.abkn L.abij Q.g_abab_oovv Q.l2_bbbb Q.t2_abab Q.t2_bbbb Q.t2_bbbb),
    aug1 X.double_res (ein5 L.nmef L.kldc L.edlm L.fcij L.abkn L.abij Q.g_bbbb_oovv Q.l2_bbbb Q.t2_bbbb Q.t2_bbbb Q.t2_bbbb),
    set1 X.contracted_intermediate (ein5 L.nmef L.kldc L.edlm L.fakj L.cbni L.abij Q.g_aaaa_oovv Q.l2_aaaa Q.t2_aaaa Q.t2_abab Q.t2_abab),
    .aug X.double_res [.arg Q.contracted_intermediate, ein1 L.abij L.abji Q.contracted_intermediate, ein1 L.abij L.baij Q.contracted_intermediate, ein1 L.abij L.baji Q.contracted_intermediate],
    set1 X.contracted_intermediate (ein5 L.nmfe L.kldc L.delm L.fakj L.cbni L.abij Q.g_abab_oovv Q.l2_aaaa Q.t2_abab Q.t2_abab Q.t2_abab),
    .aug X.double_res [.arg Q.contracted_intermediate, ein1 L.abij L.abji Q.contracted_intermediate, ein1 L.abij L.baij Q.contracted_intermediate, ein1 L.abij L.baji Q.contracted_intermediate],
    set1 X.contracted_intermediate (ein5 L.mnfe L.kldc L.deml L.fakj L.cbin L.abij Q.g_abab_oovv Q.l2_abab Q.t2_abab Q.t2_abab Q.t2_bbbb),
    .aug X.double_res [.arg Q.contracted_intermediate, ein1 L.abij L.abji Q.contracted_intermediate, ein1 L.abij L.baij Q.contracted_intermediate, ein1 L.abij L.baji Q.contracted_intermediate],
    set1 X.contracted_intermediate (ein5 L.nmef L.klcd L.edml L.fakj L.cbni L.abij Q.g_aaaa_oovv Q.l2_abab Q.t2_abab Q.t2_abab Q.t2_abab),
    .aug X.double_res [.arg Q.contracted_intermediate, ein1 L.abij L.abji Q.contracted_intermediate, ein1 L.abij L.baij Q.contracted_intermediate, ein1 L.abij L.baji Q.contracted_intermediate],
    set1 X.contracted_intermediate (ein5 L.nmfe L.klcd L.edlm L.fakj L.cbni L.abij Q.g_abab_oovv Q.l2_abab Q.t2_bbbb Q.t2_abab Q.t2_abab),
    .aug X.double_res [.arg Q.contracted_intermediate, ein1 L.abij L.abji Q.contracted_intermediate, ein1 L.abij L.baij Q.contracted_intermediate, ein1 L.abij L.baji Q.contracted_intermediate],
    set1 X.contracted_intermediate (ein5 L.mnef L.lkdc L.edlm L.fajk L.cbin L.abij Q.g_abab_oovv Q.l2_abab Q.t2_aaaa Q.t2_bbbb Q.t2_bbbb),
    .aug X.double_res [.arg Q.contracted_intermediate, ein1 L.abij L.abji Q.contracted_intermediate, ein1 L.abij L.baij Q.contracted_intermediate, ein1 L.abij L.baji Q.contracted_intermediate],
    set1 X.contracted_intermediate (ein5 L.nmef L.lkdc L.delm L.fajk L.cbin L.abij Q.g_bbbb_oovv Q.l2_abab Q.t2_abab Q.t2_bbbb Q.t2_bbbb),
    .aug X.double_res [.arg Q.contracted_intermediate, ein1 L.abij L.abji Q.contracted_intermediate, ein1 L.abij L.baij Q.contracted_intermediate, ein1 L.abij L.baji Q.contracted_intermediate],
    set1 X.contracted_intermediate (ein5 L.nmef L.lkcd L.edlm L.fajk L.cbni L.abij Q.g_abab_oovv Q.l2_abab Q.t2_abab Q.t2_bbbb Q.t2_abab),
    .aug X.double_res [.arg Q.contracted_intermediate, ein1 L.abij L.abji Q.contracted_intermediate, ein1 L.abij L.baij Q.contracted_intermediate, ein1 L.abij L.baji Q.contracted_intermediate],
    set1 X.contracted_intermediate (ein5 L.mnef L.kldc L.edml L.fajk L.cbin L.abij Q.g_abab_oovv Q.l2_bbbb Q.t2_abab Q.t2_bbbb Q.t2_bbbb),
    .aug X.double_res [.arg Q.contracted_intermediate, ein1 L.abij L.abji Q.contracted_intermediate, ein1 L.abij L.baij Q.contracted_intermediate, ein1 L.abij L.baji Q.contracted_intermediate],
    set1 X.contracted_intermediate (ein5 L.nmef L.kldc L.edlm L.fajk L.cbin L.abij Q.g_bbbb_oovv Q.l2_bbbb Q.t2_bbbb Q.t2_bbbb Q.t2_bbbb),
    .aug X.double_res [.arg Q.contracted_intermediate, ein1 L.abij L.abji Q.contracted_intermediate, ein1 L.abij L.baij Q.contracted_intermediate, ein1 L.abij L.baji Q.contracted_intermediate],
    set1 X.contracted_intermediate (ein5 L.mnef L.kldc L.edlm L.faij L.cbkn L.abij Q.g_abab_oovv Q.l2_aaaa Q.t2_aaaa Q.t2_bbbb Q.t2_abab),
    .aug X.double_res [.arg Q.contracted_intermediate, ein1 L.abij L.baij Q.contracted_intermediate],
    set1 X.contracted_intermediate (ein5 L.nmef L.kldc L.delm L.faij L.cbkn L.abij Q.g_bbbb_oovv Q.l2_aaaa Q.t2_abab Q.t2_bbbb Q.t2_abab),
    .aug X.double_res [.arg Q.contracted_intermediate, ein1 L.abij L.baij Q.contracted_intermediate],
    set1 X.contracted_intermediate (ein5 L.mnef L.klcd L.edml L.faij L.cbkn L.abij Q.g_abab_oovv Q.l2_abab Q.t2_abab Q.t2_bbbb Q.t2_abab),
    .aug X.double_res [.arg Q.contracted_intermediate, ein1 L.abij L.baij Q.contracted_intermediate],
    set1 X.contracted_intermediate (ein5 L.nmef L.klcd L.edlm L.faij L.cbkn L.abij Q.g_bbbb_oovv Q.l2_abab Q.t2_bbbb Q.t2_bbbb Q.t2_abab),
    .aug X.double_res [.arg Q.contracted_intermediate, ein1 L.abij L.baij Q.contracted_intermediate],
    set1 X.contracted_intermediate (ein5 L.mnef L.lkdc L.edlm L.faij L.cbkn L.abij Q.g_abab_oovv Q.l2_abab Q.t2_aaaa Q.t2_bbbb Q.t2_bbbb),
    .aug X.double_res [.arg Q.contracted_intermediate, ein1 L.abij L.baij Q.contracted_intermediate],
    set1 X.contracted_intermediate (ein5 L.nmef L.lkdc L.delm L.faij L.cbkn L.abij Q.g_bbbb_oovv Q.l2_abab Q.t2_abab Q.t2_bbbb Q.t2_bbbb),
    .aug X.double_res [.arg Q.contracted_intermediate, ein1 L.abij L.baij Q.contracted_intermediate],
    set1 X.contracted_intermediate (ein5 L.nmef L.lkcd L.edlm L.faij L.cbnk L.abij Q.g_abab_oovv Q.l2_abab Q.t2_abab Q.t2_bbbb Q.t2_abab),
    .aug X.double_res [.arg Q.contracted_intermediate, ein1 L.abij L.baij Q.contracted_intermediate],
    set1 X.contracted_intermediate (ein5 L.mnef L.kldc L.edml L.faij L.cbkn L.abij Q.g_abab_oovv Q.l2_bbbb Q.t2_abab Q.t2_bbbb Q.t2_bbbb),
    .aug X.double_res [.arg Q.contracted_intermediate, ein1 L.abij L.baij Q.contracted_intermediate],
    set1 X.contracted_intermediate (ein5 L.nmef L.kldc L.edlm L.faij L.cbkn L.abij Q.g_bbbb_oovv Q.l2_bbbb Q.t2_bbbb Q.t2_bbbb Q.t2_bbbb),
    .aug X.double_res [.arg Q.contracted_intermediate, ein1 L.abij L.baij Q.contracted_intermediate],
    set1 X.contracted_intermediate (ein5 L.mnfe L.kldc L.demj L.fckl L.abin L.abij Q.g_abab_oovv Q.l2_aaaa Q.t2_abab Q.t2_aaaa Q.t2_bbbb),
    .aug X.double_res [.arg Q.contracted_intermediate, ein1 L.abij L.abji Q.contracted_intermediate],
    set1 X.contracted_intermediate (ein5 L.mnfe L.kldc L.demj L.fckl L.abin L.abij Q.g_abab_oovv Q.l2_abab Q.t2_abab Q.t2_abab Q.t2_bbbb),
    .aug X.double_res [.arg Q.contracted_intermediate, ein1 L.abij L.abji Q.contracted_intermediate],
    set1 X.contracted_intermediate (ein5 L.mnef L.klcd L.edmj L.cfkl L.abin L.abij Q.g_abab_oovv Q.l2_abab Q.t2_abab Q.t2_abab Q.t2_bbbb),
    .aug X.double_res [.arg Q.contracted_intermediate, ein1 L.abij L.abji Q.contracted_intermediate],
    set1 X.contracted_intermediate (ein5 L.nmef L.klcd L.edjm L.cfkl L.abin L.abij Q.g_bbbb_oovv Q.l2_abab Q.t2_bbbb Q.t2_abab Q.t2_bbbb),
    .aug X.double_res [.arg Q.contracted_intermediate, ein1 L.abij L.abji Q.contracted_intermediate],
    set1 X.contracted_intermediate (ein5 L.mnfe L.lkdc L.demj L.fclk L.abin L.abij Q.g_abab_oovv Q.l2_abab Q.t2_abab Q.t2_abab Q.t2_bbbb),
    .aug X.double_res [.arg Q.contracted_intermediate, ein1 L.abij L.abji Q.contracted_intermediate],
    set1 X.contracted_intermediate (ein5 L.mnef L.lkcd L.edmj L.cflk L.abin L.abij Q.g_abab_oovv Q.l2_abab Q.t2_abab Q.t2_abab Q.t2_bbbb),
    .aug X.double_res [.arg Q.contracted_intermediate, ein1 L.abij L.abji Q.contracted_intermediate],
    set1 X.contracted_intermediate (ein5 L.nmef L.lkcd L.edjm L.cflk L.abin L.abij Q.g_bbbb_oovv Q.l2_abab Q.t2_bbbb Q.t2_abab Q.t2_bbbb),
    .aug X.double_res [.arg Q.contracted_intermediate, ein1 L.abij L.abji Q.contracted_intermediate],
    set1 X.contracted_intermediate (ein5 L.mnef L.kldc L.edmj L.fckl L.abin L.abij Q.g_abab_oovv Q.l2_bbbb Q.t2_abab Q.t2_bbbb Q.t2_bbbb),
    .aug X.double_res [.arg Q.contracted_intermediate, ein1 L.abij L.abji Q.contracted_intermediate],
    set1 X.contracted_intermediate (ein5 L.nmef L.kldc L.edjm L.fckl L.abin L.abij Q.g_bbbb_oovv Q.l2_bbbb Q.t2_bbbb Q.t2_bbbb Q.t2_bbbb),
    .aug X.double_res [.arg Q.contracted_intermediate, ein1 L.abij L.abji Q.contracted_intermediate],
    set1 X.contracted_intermediate (ein5 L.mnfe L.lkdc L.demj L.fcli L.abkn L.abij Q.g_abab_oovv Q.l2_abab Q.t2_abab Q.t2_abab Q.t2_bbbb),
    .aug X.double_res [.arg Q.contracted_intermediate, ein1 L.abij L.abji Q.contracted_intermediate],
    set1 X.contracted_intermediate (ein5 L.mnef L.lkcd L.edmj L.cfli L.abkn L.abij Q.g_abab_oovv Q.l2_abab Q.t2_abab Q.t2_abab Q.t2_bbbb),
    .aug X.double_res [.arg Q.contracted_intermediate, ein1 L.abij L.abji Q.contracted_intermediate],
    set1 X.contracted_intermediate (ein5 L.nmef L.lkcd L.edjm L.cfli L.abkn L.abij Q.g_bbbb_oovv Q.l2_abab Q.t2_bbbb Q.t2_abab Q.t2_bbbb),
    .aug X.double_res [.arg Q.contracted_intermediate, ein1 L.abij L.abji Q.contracted_intermediate],
    set1 X.contracted_intermediate (ein5 L.mnef L.kldc L.edmj L.fcil L.abkn L.abij Q.g_abab_oovv Q.l2_bbbb Q.t2_abab Q.t2_bbbb Q.t2_bbbb),
    .aug X.double_res [.arg Q.contracted_intermediate, ein1 L.abij L.abji Q.contracted_intermediate],
    set1 X.contracted_intermediate (ein5 L.nmef L.kldc L.edjm L.fcil L.abkn L.abij Q.g_bbbb_oovv Q.l2_bbbb Q.t2_bbbb Q.t2_bbbb Q.t2_bbbb),
    .aug X.double_res [.arg Q.contracted_intermediate, ein1 L.abij L.abji Q.contracted_intermediate],
    set1 X.contracted_intermediate (ein5 L.mnfe L.kldc L.demj L.fakl L.cbin L.abij Q.g_abab_oovv Q.l2_abab Q.t2_abab Q.t2_abab Q.t2_bbbb),
    .aug X.double_res [.arg Q.contracted_intermediate, ein1 L.abij L.abji Q.contracted_intermediate, ein1 L.abij L.baij Q.contracted_intermediate, ein1 L.abij L.baji Q.contracted_intermediate],
    set1 X.contracted_intermediate (ein5 L.nmef L.klcd L.edmj L.fakl L.cbni L.abij Q.g_aaaa_oovv Q.l2_abab Q.t2_abab Q.t2_abab Q.t2_abab),
    .aug X.double_res [.arg Q.contracted_intermediate, ein1 L.abij L.abji Q.contracted_intermediate, ein1 L.abij L.baij Q.contracted_intermediate, ein1 L.abij L.baji Q.contracted_intermediate],
    set1 X.contracted_intermediate (ein5 L.nmfe L.klcd L.edjm L.fakl L.cbni L.abij Q.g_abab_oovv Q.l2_abab Q.t2_bbbb Q.t2_abab Q.t2_abab),
    .aug X.double_res [.arg Q.contracted_intermediate, ein1 L.abij L.abji Q.contracted_intermediate, ein1 L.abij L.baij Q.contracted_intermediate, ein1 L.abij L.baji Q.contracted_intermediate],
    set1 X.contracted_intermediate (ein5 L.mnfe L.lkdc L.demj L.falk L.cbin L.abij Q.g_abab_oovv Q.l2_abab Q.t2_abab Q.t2_abab Q.t2_bbbb),
    .aug X.double_res [.arg Q.contracted_intermediate, ein1 L.abij L.abji Q.contracted_intermediate, ein1 L.abij L.baij Q.contracted_intermediate, ein1 L.abij L.baji Q.contracted_intermediate],
    set1 X.contracted_intermediate (ein5 L.nmef L.lkcd L.edmj L.falk L.cbni L.abij Q.g_aaaa_oovv Q.l2_abab Q.t2_abab Q.t2_abab Q.t2_abab),
    .aug X.double_res [.arg Q.contracted_intermediate, ein1 L.abij L.abji Q.contracted_intermediate, ein1 L.abij L.baij Q.contracted_intermediate, ein1 L.abij L.baji Q.contracted_intermediate],
    set1 X.contracted_intermediate (ein5 L.nmfe L.lkcd L.edjm L.falk L.cbni L.abij Q.g_abab_oovv Q.l2_abab Q.t2_bbbb Q.t2_abab Q.t2_abab),
    .aug X.double_res [.arg Q.contracted_intermediate, ein1 L.abij L.abji Q.contracted_intermediate, ein1 L.abij L.baij Q.contracted_intermediate, ein1 L.abij L.baji Q.contracted_intermediate],
    set1 X.contracted_intermediate (ein5 L.mnef L.kldc L.edmj L.fakl L.cbin L.abij Q.g_abab_oovv Q.l2_bbbb Q.t2_abab Q.t2_bbbb Q.t2_bbbb),
    .aug X.double_res [.arg Q.contracted_intermediate, ein1 L.abij L.abji Q.contracted_intermediate, ein1 L.abij L.baij Q.contracted_intermediate, ein1 L.abij L.baji Q.contracted_intermediate],
    set1 X.contracted_intermediate (ein5 L.nmef L.kldc L.edjm L.fakl L.cbin L.abij Q.g_bbbb_oovv Q.l2_bbbb Q.t2_bbbb Q.t2_bbbb Q.t2_bbbb),
    .aug X.double_res [.arg Q.contracted_intermediate, ein1 L.abij L.abji Q.contracted_intermediate, ein1 L.abij L.baij Q.contracted_intermediate, ein1 L.abij L.baji Q.contracted_intermediate],
    set1 X.contracted_intermediate (ein5 L.mnfe L.kldc L.demj L.fali L.cbkn L.abij Q.g_abab_oovv Q.l2_aaaa Q.t2_abab Q.t2_abab Q.t2_abab),
    .aug X.double_res [.arg Q.contracted_intermediate, ein1 L.abij L.abji Q.contracted_intermediate, ein1 L.abij L.baij Q.contracted_intermediate, ein1 L.abij L.baji Q.contracted_intermediate],
    set1 X.contracted_intermediate (ein5 L.mnef L.klcd L.edmj L.fail L.cbkn L.abij Q.g_abab_oovv Q.l2_abab Q.t2_abab Q.t2_bbbb Q.t2_abab),
    .aug X.double_res [.arg Q.contracted_intermediate, ein1 L.abij L.abji Q.contracted_intermediate, ein1 L.abij L.baij Q.contracted_intermediate, ein1 L.abij L.baji Q.contracted_intermediate],
    set1 X.contracted_intermediate (ein5 L.nmef L.klcd L.edjm L.fail L.cbkn L.abij Q.g_bbbb_oovv Q.l2_abab Q.t2_bbbb Q.t2_bbbb Q.t2_abab),
    .aug X.double_res [.arg Q.contracted_intermediate, ein1 L.abij L.abji Q.contracted_intermediate, ein1 L.abij L.baij Q.contracted_intermediate, ein1 L.abij L.baji Q.contracted_intermediate],
    set1 X.contracted_intermediate (ein5 L.mnfe L.lkdc L.demj L.fali L.cbkn L.abij Q.g_abab_oovv Q.l2_abab Q.t2_abab Q.t2_abab Q.t2_bbbb),
    .aug X.double_res [.arg Q.contracted_intermediate, ein1 L.abij L.abji Q.contracted_intermediate, ein1 L.abij L.baij Q.contracted_intermediate, ein1 L.abij L.baji Q.contracted_intermediate],
    set1 X.contracted_intermediate (ein5 L.nmef L.lkcd L.edmj L.fali L.cbnk L.abij Q.g_aaaa_oovv Q.l2_abab Q.t2_abab Q.t2_abab Q.t2_abab),
    .aug X.double_res [.arg Q.contracted_intermediate, ein1 L.abij L.abji Q.contracted_intermediate, ein1 L.abij L.baij Q.contracted_intermediate, ein1 L.abij L.baji Q.contracted_intermediate],
    set1 X.contracted_intermediate (ein5 L.nmfe L.lkcd L.edjm L.fali L.cbnk L.abij Q.g_abab_oovv Q.l2_abab Q.t2_bbbb Q.t2_abab Q.t2_abab),
    .aug X.double_res [.arg Q.contracted_intermediate, ein1 L.abij L.abji Q.contracted_intermediate, ein1 L.abij L.baij Q.contracted_intermediate, ein1 L.abij L.baji Q.contracted_intermediate],
    set1 X.contracted_intermediate (ein5 L.mnef L.kldc L.edmj L.fail L.cbkn L.abij Q.g_abab_oovv Q.l2_bbbb Q.t2_abab Q.t2_bbbb Q.t2_bbbb),
    .aug X.double_res [.arg Q.contracted_intermediate, ein1 L.abij L.abji Q.contracted_intermediate, ein1 L.abij L.baij Q.contracted_intermediate, ein1 L.abij L.baji Q.contracted_intermediate],
    set1 X.contracted_intermediate (ein5 L.nmef L.kldc L.edjm L.fail L.cbkn L.abij Q.g_bbbb_oovv Q.l2_bbbb Q.t2_bbbb Q.t2_bbbb Q.t2_bbbb),
    .aug X.double_res [.arg Q.contracted_intermediate, ein1 L.abij L.abji Q.contracted_intermediate, ein1 L.abij L.baij Q.contracted_intermediate, ein1 L.abij L.baji Q.contracted_intermediate],
    aug1 X.double_res (ein5 L.nmef L.kldc L.dekl L.fcij L.abnm L.abij Q.g_bbbb_oovv Q.l2_abab Q.t2_abab Q.t2_bbbb Q.t2_bbbb),
    aug1 X.double_res (ein5 L.nmef L.lkdc L.delk L.fcij L.abnm L.abij Q.g_bbbb_oovv Q.l2_abab Q.t2_abab Q.t2_bbbb Q.t2_bbbb),
    aug1 X.double_res (ein5 L.nmef L.kldc L.edkl L.fcij L.abnm L.abij Q.g_bbbb_oovv Q.l2_bbbb Q.t2_bbbb Q.t2_bbbb Q.t2_bbbb),
    set1 X.contracted_intermediate (ein5 L.nmef L.kldc L.edkl L.famj L.cbni L.abij Q.g_aaaa_oovv Q.l2_aaaa Q.t2_aaaa Q.t2_abab Q.t2_abab),
    .aug X.double_res [.arg Q.contracted_intermediate, ein1 L.abij L.abji Q.contracted_intermediate, ein1 L.abij L.baij Q.contracted_intermediate, ein1 L.abij L.baji Q.contracted_intermediate],
    set1 X.contracted_intermediate (ein5 L.nmef L.kldc L.edkl L.fajm L.cbni L.abij Q.g_abab_oovv Q.l2_aaaa Q.t2_aaaa Q.t2_bbbb Q.t2_abab),
    .aug X.double_res [.arg Q.contracted_intermediate, ein1 L.abij L.abji Q.contracted_intermediate, ein1 L.abij L.baij Q.contracted_intermediate, ein1 L.abij L.baji Q.contracted_intermediate],
    set1 X.contracted_intermediate (ein5 L.mnfe L.kldc L.dekl L.famj L.cbin L.abij Q.g_abab_oovv Q.l2_abab Q.t2_abab Q.t2_abab Q.t2_bbbb),
    .aug X.double_res [.arg Q.contracted_intermediate, ein1 L.abij L.abji Q.contracted_intermediate, ein1 L.abij L.baij Q.contracted_intermediate, ein1 L.abij L.baji Q.contracted_intermediate],
    set1 X.contracted_intermediate (ein5 L.nmef L.kldc L.dekl L.fajm L.cbin L.abij Q.g_bbbb_oovv Q.l2_abab Q.t2_abab Q.t2_bbbb Q.t2_bbbb),
    .aug X.double_res [.arg Q.contracted_intermediate, ein1 L.abij L.abji Q.contracted_intermediate, ein1 L.abij L.baij Q.contracted_intermediate, ein1 L.abij L.baji Q.contracted_intermediate],
    set1 X.contracted_intermediate (ein5 L.nmef L.klcd L.edkl L.famj L.cbni L.abij Q.g_aaaa_oovv Q.l2_abab Q.t2_abab Q.t2_abab Q.t2_abab),
    .aug X.double_res [.arg Q.contracted_intermediate, ein1 L.abij L.abji Q.contracted_intermediate, ein1 L.abij L.baij Q.contracted_intermediate, ein1 L.abij L.baji Q.contracted_intermediate],
    set1 X.contracted_intermediate (ein5 L.nmef L.klcd L.edkl L.fajm L.cbni L.abij Q.g_abab_oovv Q.l2_abab Q.t2_abab Q.t2_bbbb Q.t2_abab),
    .aug X.double_res [.arg Q.contracted_intermediate, ein1 L.abij L.abji Q.contracted_intermediate, ein1 L.abij L.baij Q.contracted_intermediate, ein1 L.abij L.baji Q.contracted_intermediate],
    set1 X.contracted_intermediate (ein5 L.mnfe L.lkdc L.delk L.famj L.cbin L.abij Q.g_abab_oovv Q.l2_abab Q.t2_abab Q.t2_abab Q.t2_bbbb),
    .aug X.double_res [.arg Q.contracted_intermediate, ein1 L.abij L.abji Q.contracted_intermediate, ein1 L.abij L.baij Q.contracted_intermediate, ein1 L.abij L.baji Q.contracted_intermediate],
    set1 X.contracted_intermediate (ein5 L.nmef L.lkdc L.delk L.fajm L.cbin L.abij Q.g_bbbb_oovv Q.l2_abab Q.t2_abab Q.t2_bbbb Q.t2_bbbb),
    .aug X.double_res [.arg Q.contracted_intermediate, ein1 L.abij L.abji Q.contracted_intermediate, ein1 L.abij L.baij Q.contracted_intermediate, ein1 L.abij L.baji Q.contracted_intermediate],
    set1 X.contracted_intermediate (ein5 L.nmef L.lkcd L.edlk L.famj L.cbni L.abij Q.g_aaaa_oovv Q.l2_abab Q.t2_abab Q.t2_abab Q.t2_abab),
    .aug X.double_res [.arg Q.contracted_intermediate, ein1 L.abij L.abji Q.contracted_intermediate, ein1 L.abij L.baij Q.contracted_intermediate, ein1 L.abij L.baji Q.contracted_intermediate],
    set1 X.contracted_intermediate (ein5 L.nmef L.lkcd L.edlk L.fajm L.cbni L.abij Q.g_abab_oovv Q.l2_abab Q.t2_abab Q.t2_bbbb Q.t2_abab),
    .aug X.double_res [.arg Q.contracted_intermediate, ein1 L.abij L.abji Q.contracted_intermediate, ein1 L.abij L.baij Q.contracted_intermediate, ein1 L.abij L.baji Q.contracted_intermediate],
    set1 X.contracted_intermediate (ein5 L.mnfe L.kldc L.edkl L.famj L.cbin L.abij Q.g_abab_oovv Q.l2_bbbb Q.t2_bbbb Q.t2_abab Q.t2_bbbb),
    .aug X.double_res [.arg Q.contracted_intermediate, ein1 L.abij L.abji Q.contracted_intermediate, ein1 L.abij L.baij Q.contracted_intermediate, ein1 L.abij L.baji Q.contracted_intermediate],
    set1 X.contracted_intermediate (ein5 L.nmef L.kldc L.edkl L.fajm L.cbin L.abij Q.g_bbbb_oovv Q.l2_bbbb Q.t2_bbbb Q.t2_bbbb Q.t2_bbbb),
    .aug X.double_res [.arg Q.contracted_intermediate, ein1 L.abij L.abji Q.contracted_intermediate, ein1 L.abij L.baij Q.contracted_intermediate, ein1 L.abij L.baji Q.contracted_intermediate],
    set1 X.contracted_intermediate (ein5 L.nmef L.kldc L.edkl L.faij L.cbnm L.abij Q.g_abab_oovv Q.l2_aaaa Q.t2_aaaa Q.t2_bbbb Q.t2_abab),
    .aug X.double_res [.arg Q.contracted_intermediate, ein1 L.abij L.baij Q.contracted_intermediate],
    set1 X.contracted_intermediate (ein5 L.mnef L.kldc L.edkl L.faij L.cbmn L.abij Q.g_abab_oovv Q.l2_aaaa Q.t2_aaaa Q.t2_bbbb Q.t2_abab),
    .aug X.double_res [.arg Q.contracted_intermediate, ein1 L.abij L.baij Q.contracted_intermediate],
    set1 X.contracted_intermediate (ein5 L.nmef L.kldc L.dekl L.faij L.cbnm L.abij Q.g_bbbb_oovv Q.l2_abab Q.t2_abab Q.t2_bbbb Q.t2_bbbb),
    .aug X.double_res [.arg Q.contracted_intermediate, ein1 L.abij L.baij Q.contracted_intermediate],
    set1 X.contracted_intermediate (ein5 L.nmef L.klcd L.edkl L.faij L.cbnm L.abij Q.g_abab_oovv Q.l2_abab Q.t2_abab Q.t2_bbbb Q.t2_abab),
    .aug X.double_res [.arg Q.contracted_intermediate, ein1 L.abij L.baij Q.contracted_intermediate],
    set1 X.contracted_intermediate (ein5 L.mnef L.klcd L.edkl L.faij L.cbmn L.abij Q.g_abab_oovv Q.l2_abab Q.t2_abab Q.t2_bbbb Q.t2_abab),
    .aug X.double_res [.arg Q.contracted_intermediate, ein1 L.abij L.baij Q.contracted_intermediate],
    set1 X.contracted_intermediate (ein5 L.nmef L.lkdc L.delk L.faij L.cbnm L.abij Q.g_bbbb_oovv Q.l2_abab Q.t2_abab Q.t2_bbbb Q.t2_bbbb),
    .aug X.double_res [.arg Q.contracted_intermediate, ein1 L.abij L.baij Q.contracted_intermediate],
    set1 X.contracted_intermediate (ein5 L.nmef L.lkcd L.edlk L.faij L.cbnm L.abij Q.g_abab_oovv Q.l2_abab Q.t2_abab Q.t2_bbbb Q.t2_abab),
    .aug X.double_res [.arg Q.contracted_intermediate, ein1 L.abij L.baij Q.contracted_intermediate],
    set1 X.contracted_intermediate (ein5 L.mnef L.lkcd L.edlk L.faij L.cbmn L.abij Q.g_abab_oovv Q.l2_abab Q.t2_abab Q.t2_bbbb Q.t2_abab),
    .aug X.double_res [.arg Q.contracted_intermediate, ein1 L.abij L.baij Q.contracted_intermediate],
    set1 X.contracted_intermediate (ein5 L.nmef L.kldc L.edkl L.faij L.cbnm L.abij Q.g_bbbb_oovv Q.l2_bbbb Q.t2_bbbb Q.t2_bbbb Q.t2_bbbb),
    .aug X.double_res [.arg Q.contracted_intermediate, ein1 L.abij L.baij Q.contracted_intermediate],
    set1 X.contracted_intermediate (ein5 L.mnfe L.kldc L.delj L.fckm L.abin L.abij Q.g_abab_oovv Q.l2_aaaa Q.t2_abab Q.t2_aaaa Q.t2_bbbb),
    .aug X.double_res [.arg Q.contracted_intermediate, ein1 L.abij L.abji Q.contracted_intermediate],
    set1 X.contracted_intermediate (ein5 L.nmef L.kldc L.delj L.cfkm L.abin L.abij Q.g_bbbb_oovv Q.l2_aaaa Q.t2_abab Q.t2_abab Q.t2_bbbb),
    .aug X.double_res [.arg Q.contracted_intermediate, ein1 L.abij L.abji Q.contracted_intermediate],
    set1 X.contracted_intermediate (ein5 L.mnfe L.klcd L.edjl L.fckm L.abin L.abij Q.g_abab_oovv Q.l2_abab Q.t2_bbbb Q.t2_aaaa Q.t2_bbbb),
    .aug X.double_res [.arg Q.contracted_intermediate, ein1 L.abij L.abji Q.contracted_intermediate],
    set1 X.contracted_intermediate (ein5 L.nmef L.klcd L.edjl L.cfkm L.abin L.abij Q.g_bbbb_oovv Q.l2_abab Q.t2_bbbb Q.t2_abab Q.t2_bbbb),
    .aug X.double_res [.arg Q.contracted_intermediate, ein1 L.abij L.abji Q.contracted_intermediate],
    set1 X.contracted_intermediate (ein5 L.mnfe L.lkdc L.delj L.fcmk L.abin L.abij Q.g_abab_oovv Q.l2_abab Q.t2_abab Q.t2_abab Q.t2_bbbb),
    .aug X.double_res [.arg Q.contracted_intermediate, ein1 L.abij L.abji Q.contracted_intermediate],
    set1 X.contracted_intermediate (ein5 L.nmef L.lkdc L.delj L.fckm L.abin L.abij Q.g_bbbb_oovv Q.l2_abab Q.t2_abab Q.t2_bbbb Q.t2_bbbb),
    .aug X.double_res [.arg Q.contracted_intermediate, ein1 L.abij L.abji Q.contracted_intermediate],
    set1 X.contracted_intermediate (ein5 L.mnef L.lkcd L.edlj L.cfmk L.abin L.abij Q.g_abab_oovv Q.l2_abab Q.t2_abab Q.t2_abab Q.t2_bbbb),
    .aug X.double_res [.arg Q.contracted_intermediate, ein1 L.abij L.abji Q.contracted_intermediate],
    set1 X.contracted_intermediate (ein5 L.mnfe L.kldc L.edjl L.fcmk L.abin L.abij Q.g_abab_oovv Q.l2_bbbb Q.t2_bbbb Q.t2_abab Q.t2_bbbb),
    .aug X.double_res [.arg Q.contracted_intermediate, ein1 L.abij L.abji Q.contracted_intermediate],
    set1 X.contracted_intermediate (ein5 L.nmef L.kldc L.edjl L.fckm L.abin L.abij Q.g_bbbb_oovv Q.l2_bbbb Q.t2_bbbb Q.t2_bbbb Q.t2_bbbb),
    .aug X.double_res [.arg Q.contracted_intermediate, ein1 L.abij L.abji Q.contracted_intermediate],
    set1 X.contracted_intermediate (ein5 L.nmef L.kldc L.delj L.cfki L.abnm L.abij Q.g_bbbb_oovv Q.l2_aaaa Q.t2_abab Q.t2_abab Q.t2_bbbb),
    .aug X.double_res [.arg Q.contracted_intermediate, ein1 L.abij L.abji Q.contracted_intermediate],
    set1 X.contracted_intermediate (ein5 L.nmef L.klcd L.edjl L.cfki L.abnm L.abij Q.g_bbbb_oovv Q.l2_abab Q.t2_bbbb Q.t2_abab Q.t2_bbbb),
    .aug X.double_res [.arg Q.contracted_intermediate, ein1 L.abij L.abji Q.contracted_intermediate],
    set1 X.contracted_intermediate (ein5 L.nmef L.lkdc L.delj L.fcik L.abnm L.abij Q.g_bbbb_oovv Q.l2_abab Q.t2_abab Q.t2_bbbb Q.t2_bbbb),
    .aug X.double_res [.arg Q.contracted_intermediate, ein1 L.abij L.abji Q.contracted_intermediate],
    set1 X.contracted_intermediate (ein5 L.nmef L.kldc L.edjl L.fcik L.abnm L.abij Q.g_bbbb_oovv Q.l2_bbbb Q.t2_bbbb Q.t2_bbbb Q.t2_bbbb),
    .aug X.double_res [.arg Q.contracted_intermediate, ein1 L.abij L.abji Q.contracted_intermediate],
    set1 X.contracted_intermediate (ein5 L.nmfe L.kldc L.delj L.fakm L.cbni L.abij Q.g_abab_oovv Q.l2_aaaa Q.t2_abab Q.t2_abab Q.t2_abab),
    .aug X.double_res [.arg Q.contracted_intermediate, ein1 L.abij L.abji Q.contracted_intermediate, ein1 L.abij L.baij Q.contracted_intermediate, ein1 L.abij L.baji Q.contracted_intermediate],
    set1 X.contracted_intermediate (ein5 L.nmfe L.klcd L.edjl L.fakm L.cbni L.abij Q.g_abab_oovv Q.l2_abab Q.t2_bbbb Q.t2_abab Q.t2_abab),
    .aug X.double_res [.arg Q.contracted_intermediate, ein1 L.abij L.abji Q.contracted_intermediate, ein1 L.abij L.baij Q.contracted_intermediate, ein1 L.abij L.baji Q.contracted_intermediate],
    set1 X.contracted_intermediate (ein5 L.mnfe L.lkdc L.delj L.famk L.cbin L.abij Q.g_abab_oovv Q.l2_abab Q.t2_abab Q.t2_abab Q.t2_bbbb),
    .aug X.double_res [.arg Q.contracted_intermediate, ein1 L.abij L.abji Q.contracted_intermediate, ein1 L.abij L.baij Q.contracted_intermediate, ein1 L.abij L.baji Q.contracted_intermediate],
    set1 X.contracted_intermediate (ein5 L.nmef L.lkdc L.delj L.fakm L.cbin L.abij Q.g_bbbb_oovv Q.l2_abab Q.t2_abab Q.t2_bbbb Q.t2_bbbb),
    .aug X.double_res [.arg Q.contracted_intermediate, ein1 L.abij L.abji Q.contracted_intermediate, ein1 L.abij L.baij Q.contracted_intermediate, ein1 L.abij L.baji Q.contracted_intermediate],
    set1 X.contracted_intermediate (ein5 L.nmef L.lkcd L.edlj L.famk L.cbni L.abij Q.g_aaaa_oovv Q.l2_abab Q.t2_abab Q.t2_abab Q.t2_abab),
    .aug X.double_res [.arg Q.contracted_intermediate, ein1 L.abij L.abji Q.contracted_intermediate, ein1 L.abij L.baij Q.contracted_intermediate, ein1 L.abij L.baji Q.contracted_intermediate],
    set1 X.contracted_intermediate (ein5 L.nmef L.lkcd L.edlj L.fakm L.cbni L.abij Q.g_abab_oovv Q.l2_abab Q.t2_abab Q.t2_bbbb Q.t2_abab),
    .aug X.double_res [.arg Q.contracted_intermediate, ein1 L.abij L.abji Q.contracted_intermediate, ein1 L.abij L.baij Q.contracted_intermediate, ein1 L.abij L.baji Q.contracted_intermediate],
    set1 X.contracted_intermediate (ein5 L.mnfe L.kldc L.edjl L.famk L.cbin L.abij Q.g_abab_oovv Q.l2_bbbb Q.t2_bbbb Q.t2_abab Q.t2_bbbb),
    .aug X.double_res [.arg Q.contracted_intermediate, ein1 L.abij L.abji Q.contracted_intermediate, ein1 L.abij L.baij Q.contracted_intermediate, ein1 L.abij L.baji Q.contracted_intermediate],
    set1 X.contracted_intermediate (ein5 L.nmef L.kldc L.edjl L.fakm L.cbin L.abij Q.g_bbbb_oovv Q.l2_bbbb Q.t2_bbbb Q.t2_bbbb Q.t2_bbbb),
    .aug X.double_res [.arg Q.contracted_intermediate, ein1 L.abij L.abji Q.contracted_intermediate, ein1 L.abij L.baij Q.contracted_intermediate, ein1 L.abij L.baji Q.contracted_intermediate],
    set1 X.contracted_intermediate (ein5 L.mnfe L.kldc L.delj L.fami L.cbkn L.abij Q.g_abab_oovv Q.l2_aaaa Q.t2_abab Q.t2_abab Q.t2_abab),
    .aug X.double_res [.arg Q.contracted_intermediate, ein1 L.abij L.abji Q.contracted_intermediate, ein1 L.abij L.baij Q.contracted_intermediate, ein1 L.abij L.baji Q.contracted_intermediate],
    set1 X.contracted_intermediate (ein5 L.nmef L.kldc L.delj L.faim L.cbkn L.abij Q.g_bbbb_oovv Q.l2_aaaa Q.t2_abab Q.t2_bbbb Q.t2_abab),
    .aug X.double_res [.arg Q.contracted_intermediate, ein1 L.abij L.abji Q.contracted_intermediate, ein1 L.abij L.baij Q.contracted_intermediate, ein1 L.abij L.baji Q.contracted_intermediate],
    set1 X.contracted_intermediate (ein5 L.mnfe L.klcd L.edjl L.fami L.cbkn L.abij Q.g_abab_oovv Q.l2_abab Q.t2_bbbb Q.t2_abab Q.t2_abab),
    .aug X.double_res [.arg Q.contracted_intermediate, ein1 L.abij L.abji Q.contracted_intermediate, ein1 L.abij L.baij Q.contracted_intermediate, ein1 L.abij L.baji Q.contracted_intermediate],
    set1 X.contracted_intermediate (ein5 L.nmef L.klcd L.edjl L.faim L.cbkn L.abij Q.g_bbbb_oovv Q.l2_abab Q.t2_bbbb Q.t2_bbbb Q.t2_abab),
    .aug X.double_res [.arg Q.contracted_intermediate, ein1 L.abij L.abji Q.contracted_intermediate, ein1 L.abij L.baij Q.contracted_intermediate, ein1 L.abij L.baji Q.contracted_intermediate],
    set1 X.contracted_intermediate (ein5 L.mnfe L.lkdc L.delj L.fami L.cbkn L.abij Q.g_abab_oovv Q.l2_abab Q.t2_abab Q.t2_abab Q.t2_bbbb),
    .aug X.double_res [.arg Q.contracted_intermediate, ein1 L.abij L.abji Q.contracted_intermediate, ein1 L.abij L.baij Q.contracted_intermediate, ein1 L.abij L.baji Q.contracted_intermediate],
    set1 X.contracted_intermediate (ein5 L.nmef L.lkdc L.delj L.faim L.cbkn L.abij Q.g_bbbb_oovv Q.l2_abab Q.t2_abab Q.t2_bbbb Q.t2_bbbb),
    .aug X.double_res [.arg Q.contracted_intermediate, ein1 L.abij L.abji Q.contracted_intermediate, ein1 L.abij L.baij Q.contracted_intermediate, ein1 L.abij L.baji Q.contracted_intermediate],
    set1 X.contracted_intermediate (ein5 L.nmef L.lkcd L.edlj L.fami L.cbnk L.abij Q.g_aaaa_oovv Q.l2_abab Q.t2_abab Q.t2_abab Q.t2_abab),
    .aug X.double_res [.arg Q.contracted_intermediate, ein1 L.abij L.abji Q.contracted_intermediate, ein1 L.abij L.baij Q.contracted_intermediate, ein1 L.abij L.baji Q.contracted_intermediate],
    set1 X.contracted_intermediate (ein5 L.nmef L.lkcd L.edlj L.faim L.cbnk L.abij Q.g_abab_oovv Q.l2_abab Q.t2_abab Q.t2_bbbb Q.t2_abab),
    .aug X.double_res [.arg Q.contracted_intermediate, ein1 L.abij L.abji Q.contracted_intermediate, ein1 L.abij L.baij Q.contracted_intermediate, ein1 L.abij L.baji Q.contracted_intermediate],
    set1 X.contracted_intermediate (ein5 L.mnfe L.kldc L.edjl L.fami L.cbkn L.abij Q.g_abab_oovv Q.l2_bbbb Q.t2_bbbb Q.t2_abab Q.t2_bbbb),
    .aug X.double_res [.arg Q.contracted_intermediate, ein1 L.abij L.abji Q.contracted_intermediate, ein1 L.abij L.baij Q.contracted_intermediate, ein1 L.abij L.baji Q.contracted_intermediate],
    set1 X.contracted_intermediate (ein5 L.nmef L.kldc L.edjl L.faim L.cbkn L.abij Q.g_bbbb_oovv Q.l2_bbbb Q.t2_bbbb Q.t2_bbbb Q.t2_bbbb),
    .aug X.double_res [.arg Q.contracted_intermediate, ein1 L.abij L.abji Q.contracted_intermediate, ein1 L.abij L.baij Q.contracted_intermediate, ein1 L.abij L.baji Q.contracted_intermediate],
    set1 X.contracted_intermediate (ein5 L.nmfe L.kldc L.delj L.faki L.cbnm L.abij Q.g_abab_oovv Q.l2_aaaa Q.t2_abab Q.t2_abab Q.t2_abab),
    .aug X.double_res [.arg Q.contracted_intermediate, ein1 L.abij L.abji Q.contracted_intermediate, ein1 L.abij L.baij Q.contracted_intermediate, ein1 L.abij L.baji Q.contracted_intermediate],
    set1 X.contracted_intermediate (ein5 L.mnfe L.kldc L.delj L.faki L.cbmn L.abij Q.g_abab_oovv Q.l2_aaaa Q.t2_abab Q.t2_abab Q.t2_abab),
    .aug X.double_res [.arg Q.contracted_intermediate, ein1 L.abij L.abji Q.contracted_intermediate, ein1 L.abij L.baij Q.contracted_intermediate, ein1 L.abij L.baji Q.contracted_intermediate],
    set1 X.contracted_intermediate (ein5 L.nmfe L.klcd L.edjl L.faki L.cbnm L.abij Q.g_abab_oovv Q.l2_abab Q.t2_bbbb Q.t2_abab Q.t2_abab),
    .aug X.double_res [.arg Q.contracted_intermediate, ein1 L.abij L.abji Q.contracted_intermediate, ein1 L.abij L.baij Q.contracted_intermediate, ein1 L.abij L.baji Q.contracted_intermediate],
    set1 X.contracted_intermediate (ein5 L.mnfe L.klcd L.edjl L.faki L.cbmn L.abij Q.g_abab_oovv Q.l2_abab Q.t2_bbbb Q.t2_abab Q.t2_abab),
    .aug X.double_res [.arg Q.contracted_intermediate, ein1 L.abij L.abji Q.contracted_intermediate, ein1 L.abij L.baij Q.contracted_intermediate, ein1 L.abij L.baji Q.contracted_intermediate],
    set1 X.contracted_intermediate (ein5 L.nmef L.lkdc L.delj L.faik L.cbnm L.abij Q.g_bbbb_oovv Q.l2_abab Q.t2_abab Q.t2_bbbb Q.t2_bbbb),
    .aug X.double_res [.arg Q.contracted_intermediate, ein1 L.abij L.abji Q.contracted_intermediate, ein1 L.abij L.baij Q.contracted_intermediate, ein1 L.abij L.baji Q.contracted_intermediate],
    set1 X.contracted_intermediate (ein5 L.nmef L.lkcd L.edlj L.faik L.cbnm L.abij Q.g_abab_oovv Q.l2_abab Q.t2_abab Q.t2_bbbb Q.t2_abab),
    .aug X.double_res [.arg Q.contracted_intermediate, ein1 L.abij L.abji Q.contracted_intermediate, ein1 L.abij L.baij Q.contracted_intermediate, ein1 L.abij L.baji Q.contracted_intermediate],
    set1 X.contracted_intermediate (ein5 L.mnef L.lkcd L.edlj L.faik L.cbmn L.abij Q.g_abab_oovv Q.l2_abab Q.t2_abab Q.t2_bbbb Q.t2_abab),
    .aug X.double_res [.arg Q.contracted_intermediate, ein1 L.abij L.abji Q.contracted_intermediate, ein1 L.abij L.baij Q.contracted_intermediate, ein1 L.abij L.baji Q.contracted_intermediate],
    set1 X.contracted_intermediate (ein5 L.nmef L.kldc L.edjl L.faik L.cbnm L.abij Q.g_bbbb_oovv Q.l2_bbbb Q.t2_bbbb Q.t2_bbbb Q.t2_bbbb),
    .aug X.double_res [.arg Q.contracted_intermediate, ein1 L.abij L.abji Q.contracted_intermediate, ein1 L.abij L.baij Q.contracted_intermediate, ein1 L.abij L.baji Q.contracted_intermediate],
    set1 X.contracted_intermediate (ein5 L.mnfe L.klcd L.edij L.faml L.cbkn L.abij Q.g_abab_oovv Q.l2_abab Q.t2_bbbb Q.t2_abab Q.t2_abab),
    .aug X.double_res [.arg Q.contracted_intermediate, ein1 L.abij L.baij Q.contracted_intermediate],
    set1 X.contracted_intermediate (ein5 L.nmef L.klcd L.edij L.falm L.cbkn L.abij Q.g_bbbb_oovv Q.l2_abab Q.t2_bbbb Q.t2_bbbb Q.t2_abab),
    .aug X.double_res [.arg Q.contracted_intermediate, ein1 L.abij L.baij Q.contracted_intermediate],
    set1 X.contracted_intermediate (ein5 L.nmfe L.lkcd L.edij L.falm L.cbnk L.abij Q.g_abab_oovv Q.l2_abab Q.t2_bbbb Q.t2_abab Q.t2_abab),
    .aug X.double_res [.arg Q.contracted_intermediate, ein1 L.abij L.baij Q.contracted_intermediate],
    set1 X.contracted_intermediate (ein5 L.mnfe L.kldc L.edij L.faml L.cbkn L.abij Q.g_abab_oovv Q.l2_bbbb Q.t2_bbbb Q.t2_abab Q.t2_bbbb),
    .aug X.double_res [.arg Q.contracted_intermediate, ein1 L.abij L.baij Q.contracted_intermediate],
    set1 X.contracted_intermediate (ein5 L.nmef L.kldc L.edij L.falm L.cbkn L.abij Q.g_bbbb_oovv Q.l2_bbbb Q.t2_bbbb Q.t2_bbbb Q.t2_bbbb),
    .aug X.double_res [.arg Q.contracted_intermediate, ein1 L.abij L.baij Q.contracted_intermediate],
    set1 X.contracted_intermediate (ein5 L.nmfe L.klcd L.edij L.fakl L.cbnm L.abij Q.g_abab_oovv Q.l2_abab Q.t2_bbbb Q.t2_abab Q.t2_abab),
    .aug X.double_res [.arg Q.contracted_intermediate, ein1 L.abij L.baij Q.contracted_intermediate],
    set1 X.contracted_intermediate (ein5 L.mnfe L.klcd L.edij L.fakl L.cbmn L.abij Q.g_abab_oovv Q.l2_abab Q.t2_bbbb Q.t2_abab Q.t2_abab),
    .aug X.double_res [.arg Q.contracted_intermediate, ein1 L.abij L.baij Q.contracted_intermediate],
    set1 X.contracted_intermediate (ein5 L.nmfe L.lkcd L.edij L.falk L.cbnm L.abij Q.g_abab_oovv Q.l2_abab Q.t2_bbbb Q.t2_abab Q.t2_abab),
    .aug X.double_res [.arg Q.contracted_intermediate, ein1 L.abij L.baij Q.contracted_intermediate],
    set1 X.contracted_intermediate (ein5 L.mnfe L.lkcd L.edij L.falk L.cbmn L.abij Q.g_abab_oovv Q.l2_abab Q.t2_bbbb Q.t2_abab Q.t2_abab),
    .aug X.double_res [.arg Q.contracted_intermediate, ein1 L.abij L.baij Q.contracted_intermediate],
    set1 X.contracted_intermediate (ein5 L.nmef L.kldc L.edij L.fakl L.cbnm L.abij Q.g_bbbb_oovv Q.l2_bbbb Q.t2_bbbb Q.t2_bbbb Q.t2_bbbb),
    .aug X.double_res [.arg Q.contracted_intermediate, ein1 L.abij L.baij Q.contracted_intermediate],
    set1 X.contracted_intermediate (ein5 L.nmef L.kldc L.eaml L.fbkj L.dcni L.abij Q.g_aaaa_oovv Q.l2_abab Q.t2_abab Q.t2_abab Q.t2_abab),
    .aug X.double_res [.arg Q.contracted_intermediate, ein1 L.abij L.abji Q.contracted_intermediate],
    set1 X.contracted_intermediate (ein5 L.nmfe L.kldc L.ealm L.fbkj L.dcni L.abij Q.g_abab_oovv Q.l2_abab Q.t2_bbbb Q.t2_abab Q.t2_abab),
    .aug X.double_res [.arg Q.contracted_intermediate, ein1 L.abij L.abji Q.contracted_intermediate],
    set1 X.contracted_intermediate (ein5 L.nmef L.klcd L.eaml L.fbkj L.cdni L.abij Q.g_aaaa_oovv Q.l2_abab Q.t2_abab Q.t2_abab Q.t2_abab),
    .aug X.double_res [.arg Q.contracted_intermediate, ein1 L.abij L.abji Q.contracted_intermediate],
    set1 X.contracted_intermediate (ein5 L.nmfe L.klcd L.ealm L.fbkj L.cdni L.abij Q.g_abab_oovv Q.l2_abab Q.t2_bbbb Q.t2_abab Q.t2_abab),
    .aug X.double_res [.arg Q.contracted_intermediate, ein1 L.abij L.abji Q.contracted_intermediate],
    set1 X.contracted_intermediate (ein5 L.nmef L.lkdc L.ealm L.fbjk L.dcni L.abij Q.g_abab_oovv Q.l2_abab Q.t2_abab Q.t2_bbbb Q.t2_abab),
    .aug X.double_res [.arg Q.contracted_intermediate, ein1 L.abij L.abji Q.contracted_intermediate],
    set1 X.contracted_intermediate (ein5 L.nmef L.lkcd L.ealm L.fbjk L.cdni L.abij Q.g_abab_oovv Q.l2_abab Q.t2_abab Q.t2_bbbb Q.t2_abab),
    .aug X.double_res [.arg Q.contracted_intermediate, ein1 L.abij L.abji Q.contracted_intermediate],
    set1 X.contracted_intermediate (ein5 L.mnef L.kldc L.eaml L.fbjk L.dcin L.abij Q.g_abab_oovv Q.l2_bbbb Q.t2_abab Q.t2_bbbb Q.t2_bbbb),
    .aug X.double_res [.arg Q.contracted_intermediate, ein1 L.abij L.abji Q.contracted_intermediate],
    set1 X.contracted_intermediate (ein5 L.nmef L.kldc L.ealm L.fbjk L.dcin L.abij Q.g_bbbb_oovv Q.l2_bbbb Q.t2_bbbb Q.t2_bbbb Q.t2_bbbb),
    .aug X.double_res [.arg Q.contracted_intermediate, ein1 L.abij L.abji Q.contracted_intermediate],
    aug1 X.double_res (ein5 L.nmef L.kldc L.ealm L.fbij L.dckn L.abij Q.g_abab_oovv Q.l2_aaaa Q.t2_abab Q.t2_bbbb Q.t2_aaaa),
    aug1 X.double_res (ein5 L.mnef L.kldc L.eaml L.fbij L.dckn L.abij Q.g_abab_oovv Q.l2_abab Q.t2_abab Q.t2_bbbb Q.t2_abab),
    aug1 X.double_res (ein5 L.nmef L.kldc L.ealm L.fbij L.dckn L.abij Q.g_bbbb_oovv Q.l2_abab Q.t2_bbbb Q.t2_bbbb Q.t2_abab),
    aug1 X.double_res (ein5 L.mnef L.klcd L.eaml L.fbij L.cdkn L.abij Q.g_abab_oovv Q.l2_abab Q.t2_abab Q.t2_bbbb Q.t2_abab),
    aug1 X.double_res (ein5 L.nmef L.klcd L.ealm L.fbij L.cdkn L.abij Q.g_bbbb_oovv Q.l2_abab Q.t2_bbbb Q.t2_bbbb Q.t2_abab),
    aug1 X.double_res (ein5 L.nmef L.lkdc L.ealm L.fbij L.dcnk L.abij Q.g_abab_oovv Q.l2_abab Q.t2_abab Q.t2_bbbb Q.t2_abab),
    aug1 X.double_res (ein5 L.nmef L.lkcd L.ealm L.fbij L.cdnk L.abij Q.g_abab_oovv Q.l2_abab Q.t2_abab Q.t2_bbbb Q.t2_abab),
    aug1 X.double_res (ein5 L.mnef L.kldc L.eaml L.fbij L.dckn L.abij Q.g_abab_oovv Q.l2_bbbb Q.t2_abab Q.t2_bbbb Q.t2_bbbb),
    aug1 X.double_res (ein5 L.nmef L.kldc L.ealm L.fbij L.dckn L.abij Q.g_bbbb_oovv Q.l2_bbbb Q.t2_bbbb Q.t2_bbbb Q.t2_bbbb),
    set1 X.contracted_intermediate (ein5 L.nmef L.kldc L.eamj L.fbkl L.dcni L.abij Q.g_aaaa_oovv Q.l2_abab Q.t2_abab Q.t2_abab Q.t2_abab),
    .aug X.double_res [.arg Q.contracted_intermediate, ein1 L.abij L.abji Q.contracted_intermediate],
    set1 X.contracted_intermediate (ein5 L.nmfe L.kldc L.eajm L.fbkl L.dcni L.abij Q.g_abab_oovv Q.l2_abab Q.t2_bbbb Q.t2_abab Q.t2_abab),
    .aug X.double_res [.arg Q.contracted_intermediate, ein1 L.abij L.abji Q.contracted_intermediate],
    set1 X.contracted_intermediate (ein5 L.nmef L.klcd L.eamj L.fbkl L.cdni L.abij Q.g_aaaa_oovv Q.l2_abab Q.t2_abab Q.t2_abab Q.t2_abab),
    .aug X.double_res [.arg Q.contracted_intermediate, ein1 L.abij L.abji Q.contracted_intermediate],
    set1 X.contracted_intermediate (ein5 L.nmfe L.klcd L.eajm L.fbkl L.cdni L.abij Q.g_abab_oovv Q.l2_abab Q.t2_bbbb Q.t2_abab Q.t2_abab),
    .aug X.double_res [.arg Q.contracted_intermediate, ein1 L.abij L.abji Q.contracted_intermediate],
    set1 X.contracted_intermediate (ein5 L.nmef L.lkdc L.eamj L.fblk L.dcni L.abij Q.g_aaaa_oovv Q.l2_abab Q.t2_abab Q.t2_abab Q.t2_abab),
    .aug X.double_res [.arg Q.contracted_intermediate, ein1 L.abij L.abji Q.contracted_intermediate],
    set1 X.contracted_intermediate (ein5 L.nmfe L.lkdc L.eajm L.fblk L.dcni L.abij Q.g_abab_oovv Q.l2_abab Q.t2_bbbb Q.t2_abab Q.t2_abab),
    .aug X.double_res [.arg Q.contracted_intermediate, ein1 L.abij L.abji Q.contracted_intermediate],
    set1 X.contracted_intermediate (ein5 L.nmef L.lkcd L.eamj L.fblk L.cdni L.abij Q.g_aaaa_oovv Q.l2_abab Q.t2_abab Q.t2_abab Q.t2_abab),
    .aug X.double_res [.arg Q.contracted_intermediate, ein1 L.abij L.abji Q.contracted_intermediate],
    set1 X.contracted_intermediate (ein5 L.nmfe L.lkcd L.eajm L.fblk L.cdni L.abij Q.g_abab_oovv Q.l2_abab Q.t2_bbbb Q.t2_abab Q.t2_abab),
    .aug X.double_res [.arg Q.contracted_intermediate, ein1 L.abij L.abji Q.contracted_intermediate],
    set1 X.contracted_intermediate (ein5 L.mnef L.kldc L.eamj L.fbkl L.dcin L.abij Q.g_abab_oovv Q.l2_bbbb Q.t2_abab Q.t2_bbbb Q.t2_bbbb),
    .aug X.double_res [.arg Q.contracted_intermediate, ein1 L.abij L.abji Q.contracted_intermediate],
    set1 X.contracted_intermediate (ein5 L.nmef L.kldc L.eajm L.fbkl L.dcin L.abij Q.g_bbbb_oovv Q.l2_bbbb Q.t2_bbbb Q.t2_bbbb Q.t2_bbbb),
    .aug X.double_res [.arg Q.contracted_intermediate, ein1 L.abij L.abji Q.contracted_intermediate],
    set1 X.contracted_intermediate (ein5 L.nmef L.kldc L.eamj L.fbli L.dckn L.abij Q.g_aaaa_oovv Q.l2_aaaa Q.t2_abab Q.t2_abab Q.t2_aaaa),
    .aug X.double_res [.arg Q.contracted_intermediate, ein1 L.abij L.abji Q.contracted_intermediate],
    set1 X.contracted_intermediate (ein5 L.nmfe L.kldc L.eajm L.fbli L.dckn L.abij Q.g_abab_oovv Q.l2_aaaa Q.t2_bbbb Q.t2_abab Q.t2_aaaa),
    .aug X.double_res [.arg Q.contracted_intermediate, ein1 L.abij L.abji Q.contracted_intermediate],
    set1 X.contracted_intermediate (ein5 L.mnef L.kldc L.eamj L.fbil L.dckn L.abij Q.g_abab_oovv Q.l2_abab Q.t2_abab Q.t2_bbbb Q.t2_abab),
    .aug X.double_res [.arg Q.contracted_intermediate, ein1 L.abij L.abji Q.contracted_intermediate],
    set1 X.contracted_intermediate (ein5 L.nmef L.kldc L.eajm L.fbil L.dckn L.abij Q.g_bbbb_oovv Q.l2_abab Q.t2_bbbb Q.t2_bbbb Q.t2_abab),
    .aug X.double_res [.arg Q.contracted_intermediate, ein1 L.abij L.abji Q.contracted_intermediate],
    set1 X.contracted_intermediate (ein5 L.mnef L.klcd L.eamj L.fbil L.cdkn L.abij Q.g_abab_oovv Q.l2_abab Q.t2_abab Q.t2_bbbb Q.t2_abab),
    .aug X.double_res [.arg Q.contracted_intermediate, ein1 L.abij L.abji Q.contracted_intermediate],
    set1 X.contracted_intermediate (ein5 L.nmef L.klcd L.eajm L.fbil L.cdkn L.abij Q.g_bbbb_oovv Q.l2_abab Q.t2_bbbb Q.t2_bbbb Q.t2_abab),
    .aug X.double_res [.arg Q.contracted_intermediate, ein1 L.abij L.abji Q.contracted_intermediate],
    set1 X.contracted_intermediate (ein5 L.nmef L.lkdc L.eamj L.fbli L.dcnk L.abij Q.g_aaaa_oovv Q.l2_abab Q.t2_abab Q.t2_abab Q.t2_abab),
    .aug X.double_res [.arg Q.contracted_intermediate, ein1 L.abij L.abji Q.contracted_intermediate],
    set1 X.contracted_intermediate (ein5 L.nmfe L.lkdc L.eajm L.fbli L.dcnk L.abij Q.g_abab_oovv Q.l2_abab Q.t2_bbbb Q.t2_abab Q.t2_abab),
    .aug X.double_res [.arg Q.contracted_intermediate, ein1 L.abij L.abji Q.contracted_intermediate],
    set1 X.contracted_intermediate (ein5 L.nmef L.lkcd L.eamj L.fbli L.cdnk L.abij Q.g_aaaa_oovv Q.l2_abab Q.t2_abab Q.t2_abab Q.t2_abab),
    .aug X.double_res [.arg Q.contracted_intermediate, ein1 L.abij L.abji Q.contracted_intermediate],
    set1 X.contracted_intermediate (ein5 L.nmfe L.lkcd L.eajm L.fbli L.cdnk L.abij Q.g_abab_oovv Q.l2_abab Q.t2_bbbb Q.t2_abab Q.t2_abab),
    .aug X.double_res [.arg Q.contracted_intermediate, ein1 L.abij L.abji Q.contracted_intermediate],
    set1 X.contracted_intermediate (ein5 L.mnef L.kldc L.eamj L.fbil L.dckn L.abij Q.g_abab_oovv Q.l2_bbbb Q.t2_abab Q.t2_bbbb Q.t2_bbbb),
    .aug X.double_res [.arg Q.contracted_intermediate, ein1 L.abij L.abji Q.contracted_intermediate],
    set1 X.contracted_intermediate (ein5 L.nmef L.kldc L.eajm L.fbil L.dckn L.abij Q.g_bbbb_oovv Q.l2_bbbb Q.t2_bbbb Q.t2_bbbb Q.t2_bbbb),
    .aug X.double_res [.arg Q.contracted_intermediate, ein1 L.abij L.abji Q.contracted_intermediate],
    set1 X.contracted_intermediate (ein5 L.nmef L.kldc L.eakl L.fbmj L.dcni L.abij Q.g_aaaa_oovv Q.l2_abab Q.t2_abab Q.t2_abab Q.t2_abab),
    .aug X.double_res [.arg Q.contracted_intermediate, ein1 L.abij L.abji Q.contracted_intermediate],
    set1 X.contracted_intermediate (ein5 L.nmef L.kldc L.eakl L.fbjm L.dcni L.abij Q.g_abab_oovv Q.l2_abab Q.t2_abab Q.t2_bbbb Q.t2_abab),
    .aug X.double_res [.arg Q.contracted_intermediate, ein1 L.abij L.abji Q.contracted_intermediate],
    set1 X.contracted_intermediate (ein5 L.nmef L.klcd L.eakl L.fbmj L.cdni L.abij Q.g_aaaa_oovv Q.l2_abab Q.t2_abab Q.t2_abab Q.t2_abab),
    .aug X.double_res [.arg Q.contracted_intermediate, ein1 L.abij L.abji Q.contracted_intermediate],
    set1 X.contracted_intermediate (ein5 L.nmef L.klcd L.eakl L.fbjm L.cdni L.abij Q.g_abab_oovv Q.l2_abab Q.t2_abab Q.t2_bbbb Q.t2_abab),
    .aug X.double_res [.arg Q.contracted_intermediate, ein1 L.abij L.abji Q.contracted_intermediate],
    set1 X.contracted_intermediate (ein5 L.nmef L.lkdc L.ealk L.fbmj L.dcni L.abij Q.g_aaaa_oovv Q.l2_abab Q.t2_abab Q.t2_abab Q.t2_abab),
    .aug X.double_res [.arg Q.contracted_intermediate, ein1 L.abij L.abji Q.contracted_intermediate],
    set1 X.contracted_intermediate (ein5 L.nmef L.lkdc L.ealk L.fbjm L.dcni L.abij Q.g_abab_oovv Q.l2_abab Q.t2_abab Q.t2_bbbb Q.t2_abab),
    .aug X.double_res [.arg Q.contracted_intermediate, ein1 L.abij L.abji Q.contracted_intermediate],
    set1 X.contracted_intermediate (ein5 L.nmef L.lkcd L.ealk L.fbmj L.cdni L.abij Q.g_aaaa_oovv Q.l2_abab Q.t2_abab Q.t2_abab Q.t2_abab),
    .aug X.double_res [.arg Q.contracted_intermediate, ein1 L.abij L.abji Q.contracted_intermediate],
    set1 X.contracted_intermediate (ein5 L.nmef L.lkcd L.ealk L.fbjm L.cdni L.abij Q.g_abab_oovv Q.l2_abab Q.t2_abab Q.t2_bbbb Q.t2_abab),
    .aug X.double_res [.arg Q.contracted_intermediate, ein1 L.abij L.abji Q.contracted_intermediate],
    set1 X.contracted_intermediate (ein5 L.mnfe L.kldc L.eakl L.fbmj L.dcin L.abij Q.g_abab_oovv Q.l2_bbbb Q.t2_bbbb Q.t2_abab Q.t2_bbbb),
    .aug X.double_res [.arg Q.contracted_intermediate, ein1 L.abij L.abji Q.contracted_intermediate],
    set1 X.contracted_intermediate (ein5 L.nmef L.kldc L.eakl L.fbjm L.dcin L.abij Q.g_bbbb_oovv Q.l2_bbbb Q.t2_bbbb Q.t2_bbbb Q.t2_bbbb),
    .aug X.double_res [.arg Q.contracted_intermediate, ein1 L.abij L.abji Q.contracted_intermediate],
    aug1 X.double_res (ein5 L.nmef L.kldc L.eakl L.fbij L.dcnm L.abij Q.g_abab_oovv Q.l2_abab Q.t2_abab Q.t2_bbbb Q.t2_abab),
    aug1 X.double_res (ein5 L.mnef L.kldc L.eakl L.fbij L.dcmn L.abij Q.g_abab_oovv Q.l2_abab Q.t2_abab Q.t2_bbbb Q.t2_abab),
    aug1 X.double_res (ein5 L.nmef L.klcd L.eakl L.fbij L.cdnm L.abij Q.g_abab_oovv Q.l2_abab Q.t2_abab Q.t2_bbbb Q.t2_abab),
    aug1 X.double_res (ein5 L.mnef L.klcd L.eakl L.fbij L.cdmn L.abij Q.g_abab_oovv Q.l2_abab Q.t2_abab Q.t2_bbbb Q.t2_abab),
    aug1 X.double_res (ein5 L.nmef L.lkdc L.ealk L.fbij L.dcnm L.abij Q.g_abab_oovv Q.l2_abab Q.t2_abab Q.t2_bbbb Q.t2_abab),
    aug1 X.double_res (ein5 L.mnef L.lkdc L.ealk L.fbij L.dcmn L.abij Q.g_abab_oovv Q.l2_abab Q.t2_abab Q.t2_bbbb Q.t2_abab),
    aug1 X.double_res (ein5 L.nmef L.lkcd L.ealk L.fbij L.cdnm L.abij Q.g_abab_oovv Q.l2_abab Q.t2_abab Q.t2_bbbb Q.t2_abab),
    aug1 X.double_res (ein5 L.mnef L.lkcd L.ealk L.fbij L.cdmn L.abij Q.g_abab_oovv Q.l2_abab Q.t2_abab Q.t2_bbbb Q.t2_abab),
    aug1 X.double_res (ein5 L.nmef L.kldc L.eakl L.fbij L.dcnm L.abij Q.g_bbbb_oovv Q.l2_bbbb Q.t2_bbbb Q.t2_bbbb Q.t2_bbbb),
    set1 X.contracted_intermediate (ein5 L.nmfe L.kldc L.eajl L.fbkm L.dcni L.abij Q.g_abab_oovv Q.l2_abab Q.t2_bbbb Q.t2_abab Q.t2_abab),
    .aug X.double_res [.arg Q.contracted_intermediate, ein1 L.abij L.abji Q.contracted_intermediate],
    set1 X.contracted_intermediate (ein5 L.nmfe L.klcd L.eajl L.fbkm L.cdni L.abij Q.g_abab_oovv Q.l2_abab Q.t2_bbbb Q.t2_abab Q.t2_abab),
    .aug X.double_res [.arg Q.contracted_intermediate, ein1 L.abij L.abji Q.contracted_intermediate],
    set1 X.contracted_intermediate (ein5 L.nmef L.lkdc L.ealj L.fbmk L.dcni L.abij Q.g_aaaa_oovv Q.l2_abab Q.t2_abab Q.t2_abab Q.t2_abab),
    .aug X.double_res [.arg Q.contracted_intermediate, ein1 L.abij L.abji Q.contracted_intermediate],
    set1 X.contracted_intermediate (ein5 L.nmef L.lkdc L.ealj L.fbkm L.dcni L.abij Q.g_abab_oovv Q.l2_abab Q.t2_abab Q.t2_bbbb Q.t2_abab),
    .aug X.double_res [.arg Q.contracted_intermediate, ein1 L.abij L.abji Q.contracted_intermediate],
    set1 X.contracted_intermediate (ein5 L.nmef L.lkcd L.ealj L.fbmk L.cdni L.abij Q.g_aaaa_oovv Q.l2_abab Q.t2_abab Q.t2_abab Q.t2_abab),
    .aug X.double_res [.arg Q.contracted_intermediate, ein1 L.abij L.abji Q.contracted_intermediate],
    set1 X.contracted_intermediate (ein5 L.nmef L.lkcd L.ealj L.fbkm L.cdni L.abij Q.g_abab_oovv Q.l2_abab Q.t2_abab Q.t2_bbbb Q.t2_abab),
    .aug X.double_res [.arg Q.contracted_intermediate, ein1 L.abij L.abji Q.contracted_intermediate],
    set1 X.contracted_intermediate (ein5 L.mnfe L.kldc L.eajl L.fbmk L.dcin L.abij Q.g_abab_oovv Q.l2_bbbb Q.t2_bbbb Q.t2_abab Q.t2_bbbb),
    .aug X.double_res [.arg Q.contracted_intermediate, ein1 L.abij L.abji Q.contracted_intermediate],
    set1 X.contracted_intermediate (ein5 L.nmef L.kldc L.eajl L.fbkm L.dcin L.abij Q.g_bbbb_oovv Q.l2_bbbb Q.t2_bbbb Q.t2_bbbb Q.t2_bbbb),
    .aug X.double_res [.arg Q.contracted_intermediate, ein1 L.abij L.abji Q.contracted_intermediate],
    set1 X.contracted_intermediate (ein5 L.nmef L.kldc L.ealj L.fbmi L.dckn L.abij Q.g_aaaa_oovv Q.l2_aaaa Q.t2_abab Q.t2_abab Q.t2_aaaa),
    .aug X.double_res [.arg Q.contracted_intermediate, ein1 L.abij L.abji Q.contracted_intermediate],
    set1 X.contracted_intermediate (ein5 L.nmef L.kldc L.ealj L.fbim L.dckn L.abij Q.g_abab_oovv Q.l2_aaaa Q.t2_abab Q.t2_bbbb Q.t2_aaaa),
    .aug X.double_res [.arg Q.contracted_intermediate, ein1 L.abij L.abji Q.contracted_intermediate],
    set1 X.contracted_intermediate (ein5 L.mnfe L.kldc L.eajl L.fbmi L.dckn L.abij Q.g_abab_oovv Q.l2_abab Q.t2_bbbb Q.t2_abab Q.t2_abab),
    .aug X.double_res [.arg Q.contracted_intermediate, ein1 L.abij L.abji Q.contracted_intermediate],
    set1 X.contracted_intermediate (ein5 L.nmef L.kldc L.eajl L.fbim L.dckn L.abij Q.g_bbbb_oovv Q.l2_abab Q.t2_bbbb Q.t2_bbbb Q.t2_abab),
    .aug X.double_res [.arg Q.contracted_intermediate, ein1 L.abij L.abji Q.contracted_intermediate],
    set1 X.contracted_intermediate (ein5 L.mnfe L.klcd L.eajl L.fbmi L.cdkn L.abij Q.g_abab_oovv Q.l2_abab Q.t2_bbbb Q.t2_abab Q.t2_abab),
    .aug X.double_res [.arg Q.contracted_intermediate, ein1 L.abij L.abji Q.contracted_intermediate],
    set1 X.contracted_intermediate (ein5 L.nmef L.klcd L.eajl L.fbim L.cdkn L.abij Q.g_bbbb_oovv Q.l2_abab Q.t2_bbbb Q.t2_bbbb Q.t2_abab),
    .aug X.double_res [.arg Q.contracted_intermediate, ein1 L.abij L.abji Q.contracted_intermediate],
    set1 X.contracted_intermediate (ein5 L.nmef L.lkdc L.ealj L.fbmi L.dcnk L.abij Q.g_aaaa_oovv Q.l2_abab Q.t2_abab Q.t2_abab Q.t2_abab),
    .aug X.double_res [.arg Q.contracted_intermediate, ein1 L.abij L.abji Q.contracted_intermediate],
    set1 X.contracted_intermediate (ein5 L.nmef L.lkdc L.ealj L.fbim L.dcnk L.abij Q.g_abab_oovv Q.l2_abab Q.t2_abab Q.t2_bbbb Q.t2_abab),
    .aug X.double_res [.arg Q.contracted_intermediate, ein1 L.abij L.abji Q.contracted_intermediate],
    set1 X.contracted_intermediate (ein5 L.nmef L.lkcd L.ealj L.fbmi L.cdnk L.abij Q.g_aaaa_oovv Q.l2_abab Q.t2_abab Q.t2_abab Q.t2_abab),
    .aug X.double_res [.arg Q.contracted_intermediate, ein1 L.abij L.abji Q.contracted_intermediate],
    set1 X.contracted_intermediate (ein5 L.nmef L.lkcd L.ealj L.fbim L.cdnk L.abij Q.g_abab_oovv Q.l2_abab Q.t2_abab Q.t2_bbbb Q.t2_abab),
    .aug X.double_res [.arg Q.contracted_intermediate, ein1 L.abij L.abji Q.contracted_intermediate],
    set1 X.contracted_intermediate (ein5 L.mnfe L.kldc L.eajl L.fbmi L.dckn L.abij Q.g_abab_oovv Q.l2_bbbb Q.t2_bbbb Q.t2_abab Q.t2_bbbb),
    .aug X.double_res [.arg Q.contracted_intermediate, ein1 L.abij L.abji Q.contracted_intermediate],
    set1 X.contracted_intermediate (ein5 L.nmef L.kldc L.eajl L.fbim L.dckn L.abij Q.g_bbbb_oovv Q.l2_bbbb Q.t2_bbbb Q.t2_bbbb Q.t2_bbbb),
    .aug X.double_res [.arg Q.contracted_intermediate, ein1 L.abij L.abji Q.contracted_intermediate],
    set1 X.contracted_intermediate (ein5 L.nmef L.kldc L.ealj L.fbki L.dcnm L.abij Q.g_aaaa_oovv Q.l2_aaaa Q.t2_abab Q.t2_abab Q.t2_aaaa),
    .aug X.double_res [.arg Q.contracted_intermediate, ein1 L.abij L.abji Q.contracted_intermediate],
    set1 X.contracted_intermediate (ein5 L.nmfe L.kldc L.eajl L.fbki L.dcnm L.abij Q.g_abab_oovv Q.l2_abab Q.t2_bbbb Q.t2_abab Q.t2_abab),
    .aug X.double_res [.arg Q.contracted_intermediate, ein1 L.abij L.abji Q.contracted_intermediate],
    set1 X.contracted_intermediate (ein5 L.mnfe L.kldc L.eajl L.fbki L.dcmn L.abij Q.g_abab_oovv Q.l2_abab Q.t2_bbbb Q.t2_abab Q.t2_abab),
    .aug X.double_res [.arg Q.contracted_intermediate, ein1 L.abij L.abji Q.contracted_intermediate],
    set1 X.contracted_intermediate (ein5 L.nmfe L.klcd L.eajl L.fbki L.cdnm L.abij Q.g_abab_oovv Q.l2_abab Q.t2_bbbb Q.t2_abab Q.t2_abab),
    .aug X.double_res [.arg Q.contracted_intermediate, ein1 L.abij L.abji Q.contracted_intermediate],
    set1 X.contracted_intermediate (ein5 L.mnfe L.klcd L.eajl L.fbki L.cdmn L.abij Q.g_abab_oovv Q.l2_abab Q.t2_bbbb Q.t2_abab Q.t2_abab),
    .aug X.double_res [.arg Q.contracted_intermediate, ein1 L.abij L.abji Q.contracted_intermediate],
    set1 X.contracted_intermediate (ein5 L.nmef L.lkdc L.ealj L.fbik L.dcnm L.abij Q.g_abab_oovv Q.l2_abab Q.t2_abab Q.t2_bbbb Q.t2_abab),
    .aug X.double_res [.arg Q.contracted_intermediate, ein1 L.abij L.abji Q.contracted_intermediate],
    set1 X.contracted_intermediate (ein5 L.mnef L.lkdc L.ealj L.fbik L.dcmn L.abij Q.g_abab_oovv Q.l2_abab Q.t2_abab Q.t2_bbbb Q.t2_abab),
    .aug X.double_res [.arg Q.contracted_intermediate, ein1 L.abij L.abji Q.contracted_intermediate],
    set1 X.contracted_intermediate (ein5 L.nmef L.lkcd L.ealj L.fbik L.cdnm L.abij Q.g_abab_oovv Q.l2_abab Q.t2_abab Q.t2_bbbb Q.t2_abab),
    .aug X.double_res [.arg Q.contracted_intermediate, ein1 L.abij L.abji Q.contracted_intermediate],
    set1 X.contracted_intermediate (ein5 L.mnef L.lkcd L.ealj L.fbik L.cdmn L.abij Q.g_abab_oovv Q.l2_abab Q.t2_abab Q.t2_bbbb Q.t2_abab),
    .aug X.double_res [.arg Q.contracted_intermediate, ein1 L.abij L.abji Q.contracted_intermediate],
    set1 X.contracted_intermediate (ein5 L.nmef L.kldc L.eajl L.fbik L.dcnm L.abij Q.g_bbbb_oovv Q.l2_bbbb Q.t2_bbbb Q.t2_bbbb Q.t2_bbbb),
    .aug X.double_res [.arg Q.contracted_intermediate, ein1 L.abij L.abji Q.contracted_intermediate],
    set1 X.contracted_intermediate (ein5 L.nmef L.kldc L.eakj L.dbmi L.fcln L.abij Q.g_aaaa_oovv Q.l2_aaaa Q.t2_abab Q.t2_abab Q.t2_aaaa),
    .aug X.double_res [.arg Q.contracted_intermediate, ein1 L.abij L.abji Q.contracted_intermediate, ein1 L.abij L.baij Q.contracted_intermediate, ein1 L.abij L.baji Q.contracted_intermediate],
    set1 X.contracted_intermediate (ein5 L.mnef L.kldc L.eakj L.dbmi L.cfln L.abij Q.g_abab_oovv Q.l2_aaaa Q.t2_abab Q.t2_abab Q.t2_abab),
    .aug X.double_res [.arg Q.contracted_intermediate, ein1 L.abij L.abji Q.contracted_intermediate, ein1 L.abij L.baij Q.contracted_intermediate, ein1 L.abij L.baji Q.contracted_intermediate],
    set1 X.contracted_intermediate (ein5 L.nmef L.kldc L.eakj L.dbmi L.fcnl L.abij Q.g_aaaa_oovv Q.l2_abab Q.t2_abab Q.t2_abab Q.t2_abab),
    .aug X.double_res [.arg Q.contracted_intermediate, ein1 L.abij L.abji Q.contracted_intermediate, ein1 L.abij L.baij Q.contracted_intermediate, ein1 L.abij L.baji Q.contracted_intermediate],
    set1 X.contracted_intermediate (ein5 L.mnef L.kldc L.eakj L.dbmi L.fcln L.abij Q.g_abab_oovv Q.l2_abab Q.t2_abab Q.t2_abab Q.t2_bbbb),
    .aug X.double_res [.arg Q.contracted_intermediate, ein1 L.abij L.abji Q.contracted_intermediate, ein1 L.abij L.baij Q.contracted_intermediate, ein1 L.abij L.baji Q.contracted_intermediate],
    set1 X.contracted_intermediate (ein5 L.nmef L.klcd L.eakj L.dbim L.cfnl L.abij Q.g_abab_oovv Q.l2_abab Q.t2_abab Q.t2_bbbb Q.t2_abab),
    .aug X.double_res [.arg Q.contracted_intermediate, ein1 L.abij L.abji Q.contracted_intermediate, ein1 L.abij L.baij Q.contracted_intermediate, ein1 L.abij L.baji Q.contracted_intermediate],
    set1 X.contracted_intermediate (ein5 L.mnfe L.lkdc L.eajk L.dbmi L.fcln L.abij Q.g_abab_oovv Q.l2_abab Q.t2_bbbb Q.t2_abab Q.t2_abab),
    .aug X.double_res [.arg Q.contracted_intermediate, ein1 L.abij L.abji Q.contracted_intermediate, ein1 L.abij L.baij Q.contracted_intermediate, ein1 L.abij L.baji Q.contracted_intermediate],
    set1 X.contracted_intermediate (ein5 L.nmfe L.lkcd L.eajk L.dbim L.fcln L.abij Q.g_abab_oovv Q.l2_abab Q.t2_bbbb Q.t2_bbbb Q.t2_aaaa),
    .aug X.double_res [.arg Q.contracted_intermediate, ein1 L.abij L.abji Q.contracted_intermediate, ein1 L.abij L.baij Q.contracted_intermediate, ein1 L.abij L.baji Q.contracted_intermediate],
    set1 X.contracted_intermediate (ein5 L.nmef L.lkcd L.eajk L.dbim L.cfln L.abij Q.g_bbbb_oovv Q.l2_abab Q.t2_bbbb Q.t2_bbbb Q.t2_abab),
    .aug X.double_res [.arg Q.contracted_intermediate, ein1 L.abij L.abji Q.contracted_intermediate, ein1 L.abij L.baij Q.contracted_intermediate, ein1 L.abij L.baji Q.contracted_intermediate],
    set1 X.contracted_intermediate (ein5 L.nmfe L.kldc L.eajk L.dbim L.fcnl L.abij Q.g_abab_oovv Q.l2_bbbb Q.t2_bbbb Q.t2_bbbb Q.t2_abab),
    .aug X.double_res [.arg Q.contracted_intermediate, ein1 L.abij L.abji Q.contracted_intermediate, ein1 L.abij L.baij Q.contracted_intermediate, ein1 L.abij L.baji Q.contracted_intermediate],
    set1 X.contracted_intermediate (ein5 L.nmef L.kldc L.eajk L.dbim L.fcln L.abij Q.g_bbbb_oovv Q.l2_bbbb Q.t2_bbbb Q.t2_bbbb Q.t2_bbbb),
    .aug X.double_res [.arg Q.contracted_intermediate, ein1 L.abij L.abji Q.contracted_intermediate, ein1 L.abij L.baij Q.contracted_intermediate, ein1 L.abij L.baji Q.contracted_intermediate],
    aug1 X.double_res (ein5 L.nmfe L.kldc L.eaij L.fblm L.dckn L.abij Q.g_abab_oovv Q.l2_aaaa Q.t2_bbbb Q.t2_abab Q.t2_aaaa),
    aug1 X.double_res (ein5 L.mnfe L.kldc L.eaij L.fbml L.dckn L.abij Q.g_abab_oovv Q.l2_abab Q.t2_bbbb Q.t2_abab Q.t2_abab),
    aug1 X.double_res (ein5 L.nmef L.kldc L.eaij L.fblm L.dckn L.abij Q.g_bbbb_oovv Q.l2_abab Q.t2_bbbb Q.t2_bbbb Q.t2_abab),
    aug1 X.double_res (ein5 L.mnfe L.klcd L.eaij L.fbml L.cdkn L.abij Q.g_abab_oovv Q.l2_abab Q.t2_bbbb Q.t2_abab Q.t2_abab),
    aug1 X.double_res (ein5 L.nmef L.klcd L.eaij L.fblm L.cdkn L.abij Q.g_bbbb_oovv Q.l2_abab Q.t2_bbbb Q.t2_bbbb Q.t2_abab),
    aug1 X.double_res (ein5 L.nmfe L.lkdc L.eaij L.fblm L.dcnk L.abij Q.g_abab_oovv Q.l2_abab Q.t2_bbbb Q.t2_abab Q.t2_abab),
    aug1 X.double_res (ein5 L.nmfe L.lkcd L.eaij L.fblm L.cdnk L.abij Q.g_abab_oovv Q.l2_abab Q.t2_bbbb Q.t2_abab Q.t2_abab),
    aug1 X.double_res (ein5 L.mnfe L.kldc L.eaij L.fbml L.dckn L.abij Q.g_abab_oovv Q.l2_bbbb Q.t2_bbbb Q.t2_abab Q.t2_bbbb),
    aug1 X.double_res (ein5 L.nmef L.kldc L.eaij L.fblm L.dckn L.abij Q.g_bbbb_oovv Q.l2_bbbb Q.t2_bbbb Q.t2_bbbb Q.t2_bbbb),
    aug1 X.double_res (ein5 L.nmfe L.kldc L.eaij L.fbkl L.dcnm L.abij Q.g_abab_oovv Q.l2_abab Q.t2_bbbb Q.t2_abab Q.t2_abab),
    aug1 X.double_res (ein5 L.mnfe L.kldc L.eaij L.fbkl L.dcmn L.abij Q.g_abab_oovv Q.l2_abab Q.t2_bbbb Q.t2_abab Q.t2_abab),
    aug1 X.double_res (ein5 L.nmfe L.klcd L.eaij L.fbkl L.cdnm L.abij Q.g_abab_oovv Q.l2_abab Q.t2_bbbb Q.t2_abab Q.t2_abab),
    aug1 X.double_res (ein5 L.mnfe L.klcd L.eaij L.fbkl L.cdmn L.abij Q.g_abab_oovv Q.l2_abab Q.t2_bbbb Q.t2_abab Q.t2_abab),
    aug1 X.double_res (ein5 L.nmfe L.lkdc L.eaij L.fblk L.dcnm L.abij Q.g_abab_oovv Q.l2_abab Q.t2_bbbb Q.t2_abab Q.t2_abab),
    aug1 X.double_res (ein5 L.mnfe L.lkdc L.eaij L.fblk L.dcmn L.abij Q.g_abab_oovv Q.l2_abab Q.t2_bbbb Q.t2_abab Q.t2_abab),
    aug1 X.double_res (ein5 L.nmfe L.lkcd L.eaij L.fblk L.cdnm L.abij Q.g_abab_oovv Q.l2_abab Q.t2_bbbb Q.t2_abab Q.t2_abab),
    aug1 X.double_res (ein5 L.mnfe L.lkcd L.eaij L.fblk L.cdmn L.abij Q.g_abab_oovv Q.l2_abab Q.t2_bbbb Q.t2_abab Q.t2_abab),
    aug1 X.double_res (ein5 L.nmef L.kldc L.eaij L.fbkl L.dcnm L.abij Q.g_bbbb_oovv Q.l2_bbbb Q.t2_bbbb Q.t2_bbbb Q.t2_bbbb),
    set1 X.contracted_intermediate (ein5 L.nmef L.kldc L.ebkj L.dclm L.fani L.abij Q.g_aaaa_oovv Q.l2_aaaa Q.t2_abab Q.t2_aaaa Q.t2_abab),
    .aug X.double_res [.arg Q.contracted_intermediate, ein1 L.abij L.abji Q.contracted_intermediate],
    set1 X.contracted_intermediate (ein5 L.mnef L.kldc L.ebkj L.dclm L.fain L.abij Q.g_abab_oovv Q.l2_aaaa Q.t2_abab Q.t2_aaaa Q.t2_bbbb),
    .aug X.double_res [.arg Q.contracted_intermediate, ein1 L.abij L.abji Q.contracted_intermediate],
    set1 X.contracted_intermediate (ein5 L.nmef L.kldc L.ebkj L.dcml L.fani L.abij Q.g_aaaa_oovv Q.l2_abab Q.t2_abab Q.t2_abab Q.t2_abab),
    .aug X.double_res [.arg Q.contracted_intermediate, ein1 L.abij L.abji Q.contracted_intermediate],
    set1 X.contracted_intermediate (ein5 L.mnef L.kldc L.ebkj L.dcml L.fain L.abij Q.g_abab_oovv Q.l2_abab Q.t2_abab Q.t2_abab Q.t2_bbbb),
    .aug X.double_res [.arg Q.contracted_intermediate, ein1 L.abij L.abji Q.contracted_intermediate],
    set1 X.contracted_intermediate (ein5 L.nmef L.klcd L.ebkj L.cdml L.fani L.abij Q.g_aaaa_oovv Q.l2_abab Q.t2_abab Q.t2_abab Q.t2_abab),
    .aug X.double_res [.arg Q.contracted_intermediate, ein1 L.abij L.abji Q.contracted_intermediate],
    set1 X.contracted_intermediate (ein5 L.mnef L.klcd L.ebkj L.cdml L.fain L.abij Q.g_abab_oovv Q.l2_abab Q.t2_abab Q.t2_abab Q.t2_bbbb),
    .aug X.double_res [.arg Q.contracted_intermediate, ein1 L.abij L.abji Q.contracted_intermediate],
    set1 X.contracted_intermediate (ein5 L.nmfe L.lkdc L.ebjk L.dclm L.fani L.abij Q.g_abab_oovv Q.l2_abab Q.t2_bbbb Q.t2_abab Q.t2_abab),
    .aug X.double_res [.arg Q.contracted_intermediate, ein1 L.abij L.abji Q.contracted_intermediate],
    set1 X.contracted_intermediate (ein5 L.nmef L.lkdc L.ebjk L.dclm L.fain L.abij Q.g_bbbb_oovv Q.l2_abab Q.t2_bbbb Q.t2_abab Q.t2_bbbb),
    .aug X.double_res [.arg Q.contracted_intermediate, ein1 L.abij L.abji Q.contracted_intermediate],
    set1 X.contracted_intermediate (ein5 L.nmfe L.lkcd L.ebjk L.cdlm L.fani L.abij Q.g_abab_oovv Q.l2_abab Q.t2_bbbb Q.t2_abab Q.t2_abab),
    .aug X.double_res [.arg Q.contracted_intermediate, ein1 L.abij L.abji Q.contracted_intermediate],
    set1 X.contracted_intermediate (ein5 L.nmef L.lkcd L.ebjk L.cdlm L.fain L.abij Q.g_bbbb_oovv Q.l2_abab Q.t2_bbbb Q.t2_abab Q.t2_bbbb),
    .aug X.double_res [.arg Q.contracted_intermediate, ein1 L.abij L.abji Q.contracted_intermediate],
    set1 X.contracted_intermediate (ein5 L.nmfe L.kldc L.ebjk L.dclm L.fani L.abij Q.g_abab_oovv Q.l2_bbbb Q.t2_bbbb Q.t2_bbbb Q.t2_abab),
    .aug X.double_res [.arg Q.contracted_intermediate, ein1 L.abij L.abji Q.contracted_intermediate],
    set1 X.contracted_intermediate (ein5 L.nmef L.kldc L.ebjk L.dclm L.fain L.abij Q.g_bbbb_oovv Q.l2_bbbb Q.t2_bbbb Q.t2_bbbb Q.t2_bbbb),
    .aug X.double_res [.arg Q.contracted_intermediate, ein1 L.abij L.abji Q.contracted_intermediate],
    aug1 X.double_res (ein5 L.mnfe L.kldc L.ebij L.dclm L.fakn L.abij Q.g_abab_oovv Q.l2_aaaa Q.t2_bbbb Q.t2_aaaa Q.t2_abab),
    aug1 X.double_res (ein5 L.mnfe L.kldc L.ebij L.dcml L.fakn L.abij Q.g_abab_oovv Q.l2_abab Q.t2_bbbb Q.t2_abab Q.t2_abab),
    aug1 X.double_res (ein5 L.mnfe L.klcd L.ebij L.cdml L.fakn L.abij Q.g_abab_oovv Q.l2_abab Q.t2_bbbb Q.t2_abab Q.t2_abab),
    aug1 X.double_res (ein5 L.nmfe L.lkdc L.ebij L.dclm L.fank L.abij Q.g_abab_oovv Q.l2_abab Q.t2_bbbb Q.t2_abab Q.t2_abab),
    aug1 X.double_res (ein5 L.nmef L.lkdc L.ebij L.dclm L.fakn L.abij Q.g_bbbb_oovv Q.l2_abab Q.t2_bbbb Q.t2_abab Q.t2_bbbb),
    aug1 X.double_res (ein5 L.nmfe L.lkcd L.ebij L.cdlm L.fank L.abij Q.g_abab_oovv Q.l2_abab Q.t2_bbbb Q.t2_abab Q.t2_abab),
    aug1 X.double_res (ein5 L.nmef L.lkcd L.ebij L.cdlm L.fakn L.abij Q.g_bbbb_oovv Q.l2_abab Q.t2_bbbb Q.t2_abab Q.t2_bbbb),
    aug1 X.double_res (ein5 L.nmfe L.kldc L.ebij L.dclm L.fank L.abij Q.g_abab_oovv Q.l2_bbbb Q.t2_bbbb Q.t2_bbbb Q.t2_abab),
    aug1 X.double_res (ein5 L.nmef L.kldc L.ebij L.dclm L.fakn L.abij Q.g_bbbb_oovv Q.l2_bbbb Q.t2_bbbb Q.t2_bbbb Q.t2_bbbb),
    set1 X.contracted_intermediate (ein5 L.mnef L.kldc L.damj L.ebkn L.cfli L.abij Q.g_abab_oovv Q.l2_aaaa Q.t2_abab Q.t2_abab Q.t2_abab),
    .aug X.double_res [.arg Q.contracted_intermediate, ein1 L.abij L.abji Q.contracted_intermediate, ein1 L.abij L.baij Q.contracted_intermediate, ein1 L.abij L.baji Q.contracted_intermediate],
    set1 X.contracted_intermediate (ein5 L.mnef L.kldc L.damj L.ebkn L.fcil L.abij Q.g_abab_oovv Q.l2_abab Q.t2_abab Q.t2_abab Q.t2_bbbb),
    .aug X.double_res [.arg Q.contracted_intermediate, ein1 L.abij L.abji Q.contracted_intermediate, ein1 L.abij L.baij Q.contracted_intermediate, ein1 L.abij L.baji Q.contracted_intermediate],
    set1 X.contracted_intermediate (ein5 L.nmef L.lkdc L.damj L.ebnk L.fcli L.abij Q.g_aaaa_oovv Q.l2_abab Q.t2_abab Q.t2_abab Q.t2_abab),
    .aug X.double_res [.arg Q.contracted_intermediate, ein1 L.abij L.abji Q.contracted_intermediate, ein1 L.abij L.baij Q.contracted_intermediate, ein1 L.abij L.baji Q.contracted_intermediate],
    set1 X.contracted_intermediate (ein5 L.mnfe L.lkdc L.damj L.ebkn L.fcli L.abij Q.g_abab_oovv Q.l2_abab Q.t2_abab Q.t2_bbbb Q.t2_abab),
    .aug X.double_res [.arg Q.contracted_intermediate, ein1 L.abij L.abji Q.contracted_intermediate, ein1 L.abij L.baij Q.contracted_intermediate, ein1 L.abij L.baji Q.contracted_intermediate],
    set1 X.contracted_intermediate (ein5 L.nmef L.lkcd L.dajm L.ebnk L.cfli L.abij Q.g_abab_oovv Q.l2_abab Q.t2_bbbb Q.t2_abab Q.t2_abab),
    .aug X.double_res [.arg Q.contracted_intermediate, ein1 L.abij L.abji Q.contracted_intermediate, ein1 L.abij L.baij Q.contracted_intermediate, ein1 L.abij L.baji Q.contracted_intermediate],
    set1 X.contracted_intermediate (ein5 L.nmef L.lkcd L.dajm L.ebkn L.cfli L.abij Q.g_bbbb_oovv Q.l2_abab Q.t2_bbbb Q.t2_bbbb Q.t2_abab),
    .aug X.double_res [.arg Q.contracted_intermediate, ein1 L.abij L.abji Q.contracted_intermediate, ein1 L.abij L.baij Q.contracted_intermediate, ein1 L.abij L.baji Q.contracted_intermediate],
    set1 X.contracted_intermediate (ein5 L.nmef L.kldc L.dajm L.ebnk L.fcil L.abij Q.g_abab_oovv Q.l2_bbbb Q.t2_bbbb Q.t2_abab Q.t2_bbbb),
    .aug X.double_res [.arg Q.contracted_intermediate, ein1 L.abij L.abji Q.contracted_intermediate, ein1 L.abij L.baij Q.contracted_intermediate, ein1 L.abij L.baji Q.contracted_intermediate],
    set1 X.contracted_intermediate (ein5 L.nmef L.kldc L.dajm L.ebkn L.fcil L.abij Q.g_bbbb_oovv Q.l2_bbbb Q.t2_bbbb Q.t2_bbbb Q.t2_bbbb),
    .aug X.double_res [.arg Q.contracted_intermediate, ein1 L.abij L.abji Q.contracted_intermediate, ein1 L.abij L.baij Q.contracted_intermediate, ein1 L.abij L.baji Q.contracted_intermediate]]
  ret := [Q.double_res]

/-- `modify_T2resid_T4Qf2.py` 2620-4752: `residQf2_abab`; 706 einsum calls. -/
def modify_T2resid_T4Qf2_residQf2_abab : Fn where
  params := [X.g_aaaa, X.g_bbbb, X.g_abab, X.l2_aaaa, X.l2_bbbb, X.l2_abab, X.t2_aaaa, X.t2_bbbb, X.t2_abab]
  body := [
    set1 X.g_aaaa (.arg Q.g_aaaa),
    set1 X.g_bbbb (.arg Q.g_bbbb),
    set1 X.g_abab (.arg Q.g_abab),
    set1 X.l2_aaaa (.arg Q.l2_aaaa),
    set1 X.l2_bbbb (.arg Q.l2_bbbb),
    set1 X.l2_abab (.arg Q.l2_abab),
    set1 X.t2_aaaa (.arg Q.t2_aaaa),
    set1 X.t2_bbbb (.arg Q.t2_bbbb),
    set1 X.t2_abab (.arg Q.t2_abab),
    set1 X.double_res (ein5 L.mnef L.kldc L.efkl L.dcmj L.abin L.abij Q.g_abab_oovv Q.l2_abab Q.t2_abab Q.t2_abab Q.t2_abab),
    aug1 X.double_res (ein5 L.mnfe L.kldc L.fekl L.dcmj L.abin L.abij Q.g_abab_oovv Q.l2_abab Q.t2_abab Q.t2_abab Q.t2_abab),
    aug1 X.double_res (ein5 L.mnef L.klcd L.efkl L.cdmj L.abin L.abij Q.g_abab_oovv Q.l2_abab Q.t2_abab Q.t2_abab Q.t2_abab),
    aug1 X.double_res (ein5 L.mnfe L.klcd L.fekl L.cdmj L.abin L.abij Q.g_abab_oovv Q.l2_abab Q.t2_abab Q.t2_abab Q.t2_abab),
    aug1 X.double_res (ein5 L.mnef L.lkdc L.eflk L.dcmj L.abin L.abij Q.g_abab_oovv Q.l2_abab Q.t2_abab Q.t2_abab Q.t2_abab),
    aug1 X.double_res (ein5 L.mnfe L.lkdc L.felk L.dcmj L.abin L.abij Q.g_abab_oovv Q.l2_abab Q.t2_abab Q.t2_abab Q.t2_abab),
    aug1 X.double_res (ein5 L.mnef L.lkcd L.eflk L.cdmj L.abin L.abij Q.g_abab_oovv Q.l2_abab Q.t2_abab Q.t2_abab Q.t2_abab),
    aug1 X.double_res (ein5 L.mnfe L.lkcd L.felk L.cdmj L.abin L.abij Q.g_abab_oovv Q.l2_abab Q.t2_abab Q.t2_abab Q.t2_abab),
    aug1 X.double_res (ein5 L.nmef L.kldc L.efkl L.dcjm L.abin L.abij Q.g_bbbb_oovv Q.l2_bbbb Q.t2_bbbb Q.t2_bbbb Q.t2_abab),
    aug1 X.double_res (ein5 L.nmef L.kldc L.efkl L.dcim L.abnj L.abij Q.g_aaaa_oovv Q.l2_aaaa Q.t2_aaaa Q.t2_aaaa Q.t2_abab),
    aug1 X.double_res (ein5 L.nmef L.kldc L.efkl L.dcim L.abnj L.abij Q.g_abab_oovv Q.l2_abab Q.t2_abab Q.t2_abab Q.t2_abab),
    aug1 X.double_res (ein5 L.nmfe L.kldc L.fekl L.dcim L.abnj L.abij Q.g_abab_oovv Q.l2_abab Q.t2_abab Q.t2_abab Q.t2_abab),
    aug1 X.double_res (ein5 L.nmef L.klcd L.efkl L.cdim L.abnj L.abij Q.g_abab_oovv Q.l2_abab Q.t2_abab Q.t2_abab Q.t2_abab),
    aug1 X.double_res (ein5 L.nmfe L.klcd L.fekl L.cdim L.abnj L.abij Q.g_abab_oovv Q.l2_abab Q.t2_abab Q.t2_abab Q.t2_abab),
    aug1 X.double_res (ein5 L.nmef L.lkdc L.eflk L.dcim L.abnj L.abij Q.g_abab_oovv Q.l2_abab Q.t2_abab Q.t2_abab Q.t2_abab),
    aug1 X.double_res (ein5 L.nmfe L.lkdc L.felk L.dcim L.abnj L.abij Q.g_abab_oovv Q.l2_abab Q.t2_abab Q.t2_abab Q.t2_abab),
    aug1 X.double_res (ein5 L.nmef L.lkcd L.eflk L.cdim L.abnj L.abij Q.g_abab_oovv Q.l2_abab Q.t2_abab Q.t2_abab Q.t2_abab),
    aug1 X.double_res (ein5 L.nmfe L.lkcd L.felk L.cdim L.abnj L.abij Q.g_abab_oovv Q.l2_abab Q.t2_abab Q.t2_abab Q.t2_abab),
    aug1 X.double_res (ein5 L.mnef L.klcd L.efkl L.admj L.cbin L.abij Q.g_abab_oovv Q.l2_abab Q.t2_abab Q.t2_abab Q.t2_abab),
    aug1 X.double_res (ein5 L.mnfe L.klcd L.fekl L.admj L.cbin L.abij Q.g_abab_oovv Q.l2_abab Q.t2_abab Q.t2_abab Q.t2_abab),
    aug1 X.double_res (ein5 L.mnef L.lkcd L.eflk L.admj L.cbin L.abij Q.g_abab_oovv Q.l2_abab Q.t2_abab Q.t2_abab Q.t2_abab),
    aug1 X.double_res (ein5 L.mnfe L.lkcd L.felk L.admj L.cbin L.abij Q.g_abab_oovv Q.l2_abab Q.t2_abab Q.t2_abab Q.t2_abab),
    aug1 X.double_res (ein5 L.nmef L.kldc L.efkl L.daim L.cbnj L.abij Q.g_aaaa_oovv Q.l2_aaaa Q.t2_aaaa Q.t2_aaaa Q.t2_abab),
    aug1 X.double_res (ein5 L.mnef L.kldc L.efkl L.daim L.cbjn L.abij Q.g_abab_oovv Q.l2_abab Q.t2_abab Q.t2_aaaa Q.t2_bbbb),
    aug1 X.double_res (ein5 L.mnfe L.kldc L.fekl L.daim L.cbjn L.abij Q.g_abab_oovv Q.l2_abab Q.t2_abab Q.t2_aaaa Q.t2_bbbb),
    aug1 X.double_res (ein5 L.nmef L.klcd L.efkl L.adim L.cbnj L.abij Q.g_abab_oovv Q.l2_abab Q.t2_abab Q.t2_abab Q.t2_abab),
    aug1 X.double_res (ein5 L.nmfe L.klcd L.fekl L.adim L.cbnj L.abij Q.g_abab_oovv Q.l2_abab Q.t2_abab Q.t2_abab Q.t2_abab),
    aug1 X.double_res (ein5 L.mnef L.lkdc L.eflk L.daim L.cbjn L.abij Q.g_abab_oovv Q.l2_abab Q.t2_abab Q.t2_aaaa Q.t2_bbbb),
    aug1 X.double_res (ein5 L.mnfe L.lkdc L.felk L.daim L.cbjn L.abij Q.g_abab_oovv Q.l2_abab Q.t2_abab Q.t2_aaaa Q.t2_bbbb),
    aug1 X.double_res (ein5 L.nmef L.lkcd L.eflk L.adim L.cbnj L.abij Q.g_abab_oovv Q.l2_abab Q.t2_abab Q.t2_abab Q.t2_abab),
    aug1 X.double_res (ein5 L.nmfe L.lkcd L.felk L.adim L.cbnj L.abij Q.g_abab_oovv Q.l2_abab Q.t2_abab Q.t2_abab Q.t2_abab),
    aug1 X.double_res (ein5 L.nmef L.kldc L.efkl L.adim L.cbjn L.abij Q.g_bbbb_oovv Q.l2_bbbb Q.t2_bbbb Q.t2_abab Q.t2_bbbb),
    aug1 X.double_res (ein5 L.mnef L.kldc L.eflj L.dckm L.abin L.abij Q.g_abab_oovv Q.l2_aaaa Q.t2_abab Q.t2_aaaa Q.t2_abab),
    aug1 X.double_res (ein5 L.mnfe L.kldc L.felj L.dckm L.abin L.abij Q.g_abab_oovv Q.l2_aaaa Q.t2_abab Q.t2_aaaa Q.t2_abab),
    aug1 X.double_res (ein5 L.nmef L.kldc L.efjl L.dckm L.abin L.abij Q.g_bbbb_oovv Q.l2_abab Q.t2_bbbb Q.t2_abab Q.t2_abab),
    aug1 X.double_res (ein5 L.nmef L.klcd L.efjl L.cdkm L.abin L.abij Q.g_bbbb_oovv Q.l2_abab Q.t2_bbbb Q.t2_abab Q.t2_abab),
    aug1 X.double_res (ein5 L.mnef L.lkdc L.eflj L.dcmk L.abin L.abij Q.g_abab_oovv Q.l2_abab Q.t2_abab Q.t2_abab Q.t2_abab),
    aug1 X.double_res (ein5 L.mnfe L.lkdc L.felj L.dcmk L.abin L.abij Q.g_abab_oovv Q.l2_abab Q.t2_abab Q.t2_abab Q.t2_abab),
    aug1 X.double_res (ein5 L.mnef L.lkcd L.eflj L.cdmk L.abin L.abij Q.g_abab_oovv Q.l2_abab Q.t2_abab Q.t2_abab Q.t2_abab),
    aug1 X.double_res (ein5 L.mnfe L.lkcd L.felj L.cdmk L.abin L.abij Q.g_abab_oovv Q.l2_abab Q.t2_abab Q.t2_abab Q.t2_abab),
    aug1 X.double_res (ein5 L.nmef L.kldc L.efjl L.dckm L.abin L.abij Q.g_bbbb_oovv Q.l2_bbbb Q.t2_bbbb Q.t2_bbbb Q.t2_abab),
    aug1 X.double_res (ein5 L.nmef L.kldc L.efil L.dckm L.abnj L.abij Q.g_aaaa_oovv Q.l2_aaaa Q.t2_aaaa Q.t2_aaaa Q.t2_abab),
    aug1 X.double_res (ein5 L.nmef L.kldc L.efil L.dckm L.abnj L.abij Q.g_abab_oovv Q.l2_abab Q.t2_abab Q.t2_abab Q.t2_abab),
    aug1 X.double_res (ein5 L.nmfe L.kldc L.feil L.dckm L.abnj L.abij Q.g_abab_oovv Q.l2_abab Q.t2_abab Q.t2_abab Q.t2_abab),
    aug1 X.double_res (ein5 L.nmef L.klcd L.efil L.cdkm L.abnj L.abij Q.g_abab_oovv Q.l2_abab Q.t2_abab Q.t2_abab Q.t2_abab),
    aug1 X.double_res (ein5 L.nmfe L.klcd L.feil L.cdkm L.abnj L.abij Q.g_abab_oovv Q.l2_abab Q.t2_abab Q.t2_abab Q.t2_abab),
    aug1 X.double_res (ein5 L.nmef L.lkdc L.efil L.dcmk L.abnj L.abij Q.g_aaaa_oovv Q.l2_abab Q.t2_aaaa Q.t2_abab Q.t2_abab),
    aug1 X.double_res (ein5 L.nmef L.lkcd L.efil L.cdmk L.abnj L.abij Q.g_aaaa_oovv Q.l2_abab Q.t2_aaaa Q.t2_abab Q.t2_abab),
    aug1 X.double_res (ein5 L.nmef L.kldc L.efil L.dckm L.abnj L.abij Q.g_abab_oovv Q.l2_bbbb Q.t2_abab Q.t2_bbbb Q.t2_abab),
    aug1 X.double_res (ein5 L.nmfe L.kldc L.feil L.dckm L.abnj L.abij Q.g_abab_oovv Q.l2_bbbb Q.t2_abab Q.t2_bbbb Q.t2_abab),
    aug1 X.double_res (ein5 L.mnef L.kldc L.eflj L.dcim L.abkn L.abij Q.g_abab_oovv Q.l2_aaaa Q.t2_abab Q.t2_aaaa Q.t2_abab),
    aug1 X.double_res (ein5 L.mnfe L.kldc L.felj L.dcim L.abkn L.abij Q.g_abab_oovv Q.l2_aaaa Q.t2_abab Q.t2_aaaa Q.t2_abab),
    aug1 X.double_res (ein5 L.nmef L.kldc L.efjl L.dcim L.abkn L.abij Q.g_bbbb_oovv Q.l2_abab Q.t2_bbbb Q.t2_abab Q.t2_abab),
    aug1 X.double_res (ein5 L.nmef L.klcd L.efjl L.cdim L.abkn L.abij Q.g_bbbb_oovv Q.l2_abab Q.t2_bbbb Q.t2_abab Q.t2_abab),
    aug1 X.double_res (ein5 L.nmef L.lkdc L.eflj L.dcim L.abnk L.abij Q.g_abab_oovv Q.l2_abab Q.t2_abab Q.t2_abab Q.t2_abab),
    aug1 X.double_res (ein5 L.nmfe L.lkdc L.felj L.dcim L.abnk L.abij Q.g_abab_oovv Q.l2_abab Q.t2_abab Q.t2_abab Q.t2_abab),
    aug1 X.double_res (ein5 L.nmef L.lkcd L.eflj L.cdim L.abnk L.abij Q.g_abab_oovv Q.l2_abab Q.t2_abab Q.t2_abab Q.t2_abab),
    aug1 X.double_res (ein5 L.nmfe L.lkcd L.felj L.cdim L.abnk L.abij Q.g_abab_oovv Q.l2_abab Q.t2_abab Q.t2_abab Q.t2_abab),
    aug1 X.double_res (ein5 L.mnef L.kldc L.efil L.dcmj L.abkn L.abij Q.g_abab_oovv Q.l2_abab Q.t2_abab Q.t2_abab Q.t2_abab),
    aug1 X.double_res (ein5 L.mnfe L.kldc L.feil L.dcmj L.abkn L.abij Q.g_abab_oovv Q.l2_abab Q.t2_abab Q.t2_abab Q.t2_abab),
    aug1 X.double_res (ein5 L.mnef L.klcd L.efil L.cdmj L.abkn L.abij Q.g_abab_oovv Q.l2_abab Q.t2_abab Q.t2_abab Q.t2_abab),
    aug1 X.double_res (ein5 L.mnfe L.klcd L.feil L.cdmj L.abkn L.abij Q.g_abab_oovv Q.l2_abab Q.t2_abab Q.t2_abab Q.t2_abab),
    aug1 X.double_res (ein5 L.nmef L.lkdc L.efil L.dcmj L.abnk L.abij Q.g_aaaa_oovv Q.l2_abab Q.t2_aaaa Q.t2_abab Q.t2_abab),
    aug1 X.double_res (ein5 L.nmef L.lkcd L.efil L.cdmj L.abnk L.abij Q.g_aaaa_oovv Q.l2_abab Q.t2_aaaa Q.t2_abab Q.t2_abab),
    aug1 X.double_res (ein5 L.nmef L.kldc L.efil L.dcjm L.abnk L.abij Q.g_abab_oovv Q.l2_bbbb Q.t2_abab Q.t2_bbbb Q.t2_abab),
    aug1 X.double_res (ein5 L.nmfe L.kldc L.feil L.dcjm L.abnk L.abij Q.g_abab_oovv Q.l2_bbbb Q.t2_abab Q.t2_bbbb Q.t2_abab),
    aug1 X.double_res (ein5 L.mnef L.kldc L.eflj L.dakm L.cbin L.abij Q.g_abab_oovv Q.l2_aaaa Q.t2_abab Q.t2_aaaa Q.t2_abab),
    aug1 X.double_res (ein5 L.mnfe L.kldc L.felj L.dakm L.cbin L.abij Q.g_abab_oovv Q.l2_aaaa Q.t2_abab Q.t2_aaaa Q.t2_abab),
    aug1 X.double_res (ein5 L.nmef L.klcd L.efjl L.adkm L.cbin L.abij Q.g_bbbb_oovv Q.l2_abab Q.t2_bbbb Q.t2_abab Q.t2_abab),
    aug1 X.double_res (ein5 L.mnef L.lkcd L.eflj L.admk L.cbin L.abij Q.g_abab_oovv Q.l2_abab Q.t2_abab Q.t2_abab Q.t2_abab),
    aug1 X.double_res (ein5 L.mnfe L.lkcd L.felj L.admk L.cbin L.abij Q.g_abab_oovv Q.l2_abab Q.t2_abab Q.t2_abab Q.t2_abab),
    aug1 X.double_res (ein5 L.nmef L.kldc L.efil L.dakm L.cbnj L.abij Q.g_aaaa_oovv Q.l2_aaaa Q.t2_aaaa Q.t2_aaaa Q.t2_abab),
    aug1 X.double_res (ein5 L.mnef L.kldc L.efil L.dakm L.cbjn L.abij Q.g_abab_oovv Q.l2_abab Q.t2_abab Q.t2_aaaa Q.t2_bbbb),
    aug1 X.double_res (ein5 L.mnfe L.kldc L.feil L.dakm L.cbjn L.abij Q.g_abab_oovv Q.l2_abab Q.t2_abab Q.t2_aaaa Q.t2_bbbb),
    aug1 X.double_res (ein5 L.nmef L.klcd L.efil L.adkm L.cbnj L.abij Q.g_abab_oovv Q.l2_abab Q.t2_abab Q.t2_abab Q.t2_abab),
    aug1 X.double_res (ein5 L.nmfe L.klcd L.feil L.adkm L.cbnj L.abij Q.g_abab_oovv Q.l2_abab Q.t2_abab Q.t2_abab Q.t2_abab),
    aug1 X.double_res (ein5 L.nmef L.lkcd L.efil L.admk L.cbnj L.abij Q.g_aaaa_oovv Q.l2_abab Q.t2_aaaa Q.t2_abab Q.t2_abab),
    aug1 X.double_res (ein5 L.mnef L.kldc L.efil L.admk L.cbjn L.abij Q.g_abab_oovv Q.l2_bbbb Q.t2_abab Q.t2_abab Q.t2_bbbb),
    aug1 X.double_res (ein5 L.mnfe L.kldc L.feil L.admk L.cbjn L.abij Q.g_abab_oovv Q.l2_bbbb Q.t2_abab Q.t2_abab Q.t2_bbbb),
    aug1 X.double_res (ein5 L.mnef L.kldc L.eflj L.daim L.cbkn L.abij Q.g_abab_oovv Q.l2_aaaa Q.t2_abab Q.t2_aaaa Q.t2_abab),
    aug1 X.double_res (ein5 L.mnfe L.kldc L.felj L.daim L.cbkn L.abij Q.g_abab_oovv Q.l2_aaaa Q.t2_abab Q.t2_aaaa Q.t2_abab),
    aug1 X.double_res (ein5 L.nmef L.klcd L.efjl L.adim L.cbkn L.abij Q.g_bbbb_oovv Q.l2_abab Q.t2_bbbb Q.t2_abab Q.t2_abab),
    aug1 X.double_res (ein5 L.mnef L.lkdc L.eflj L.daim L.cbkn L.abij Q.g_abab_oovv Q.l2_abab Q.t2_abab Q.t2_aaaa Q.t2_bbbb),
    aug1 X.double_res (ein5 L.mnfe L.lkdc L.felj L.daim L.cbkn L.abij Q.g_abab_oovv Q.l2_abab Q.t2_abab Q.t2_aaaa Q.t2_bbbb),
    aug1 X.double_res (ein5 L.nmef L.lkcd L.eflj L.adim L.cbnk L.abij Q.g_abab_oovv Q.l2_abab Q.t2_abab Q.t2_abab Q.t2_abab),
    aug1 X.double_res (ein5 L.nmfe L.lkcd L.felj L.adim L.cbnk L.abij Q.g_abab_oovv Q.l2_abab Q.t2_abab Q.t2_abab Q.t2_abab),
    aug1 X.double_res (ein5 L.nmef L.kldc L.efjl L.adim L.cbkn L.abij Q.g_bbbb_oovv Q.l2_bbbb Q.t2_bbbb Q.t2_abab Q.t2_bbbb),
    aug1 X.double_res (ein5 L.mnef L.klcd L.efil L.admj L.cbkn L.abij Q.g_abab_oovv Q.l2_abab Q.t2_abab Q.t2_abab Q.t2_abab),
    aug1 X.double_res (ein5 L.mnfe L.klcd L.feil L.admj L.cbkn L.abij Q.g_abab_oovv Q.l2_abab Q.t2_abab Q.t2_abab Q.t2_abab),
    aug1 X.double_res (ein5 L.nmef L.lkcd L.efil L.admj L.cbnk L.abij Q.g_aaaa_oovv Q.l2_abab Q.t2_aaaa Q.t2_abab Q.t2_abab),
    aug1 X.double_res (ein5 L.mnef L.kldc L.efil L.admj L.cbkn L.abij Q.g_abab_oovv Q.l2_bbbb Q.t2_abab Q.t2_abab Q.t2_bbbb),
    aug1 X.double_res (ein5 L.mnfe L.kldc L.feil L.admj L.cbkn L.abij Q.g_abab_oovv Q.l2_bbbb Q.t2_abab Q.t2_abab Q.t2_bbbb),
    aug1 X.double_res (ein5 L.mnef L.kldc L.efij L.dclm L.abkn L.abij Q.g_abab_oovv Q.l2_aaaa Q.t2_abab Q.t2_aaaa Q.t2_abab),
    aug1 X.double_res (ein5 L.mnfe L.kldc L.feij L.dclm L.abkn L.abij Q.g_abab_oovv Q.l2_aaaa Q.t2_abab Q.t2_aaaa Q.t2_abab),
    aug1 X.double_res (ein5 L.mnef L.kldc L.efij L.dcml L.abkn L.abij Q.g_abab_oovv Q.l2_abab Q.t2_abab Q.t2_abab Q.t2_abab),
    aug1 X.double_res (ein5 L.mnfe L.kldc L.feij L.dcml L.abkn L.abij Q.g_abab_oovv Q.l2_abab Q.t2_abab Q.t2_abab Q.t2_abab),
    aug1 X.double_res (ein5 L.mnef L.klcd L.efij L.cdml L.abkn L.abij Q.g_abab_oovv Q.l2_abab Q.t2_abab Q.t2_abab Q.t2_abab),
    aug1 X.double_res (ein5 L.mnfe L.klcd L.feij L.cdml L.abkn L.abij Q.g_abab_oovv Q.l2_abab Q.t2_abab Q.t2_abab Q.t2_abab),
    aug1 X.double_res (ein5 L.nmef L.lkdc L.efij L.dclm L.abnk L.abij Q.g_abab_oovv Q.l2_abab Q.t2_abab Q.t2_abab Q.t2_abab),
    aug1 X.double_res (ein5 L.nmfe L.lkdc L.feij L.dclm L.abnk L.abij Q.g_abab_oovv Q.l2_abab Q.t2_abab Q.t2_abab Q.t2_abab),
    aug1 X.double_res (ein5 L.nmef L.lkcd L.efij L.cdlm L.abnk L.abij Q.g_abab_oovv Q.l2_abab Q.t2_abab Q.t2_abab Q.t2_abab),
    aug1 X.double_res (ein5 L.nmfe L.lkcd L.feij L.cdlm L.abnk L.abij Q.g_abab_oovv Q.l2_abab Q.t2_abab Q.t2_abab Q.t2_abab),
    aug1 X.double_res (ein5 L.nmef L.kldc L.efij L.dclm L.abnk L.abij Q.g_abab_oovv Q.l2_bbbb Q.t2_abab Q.t2_bbbb Q.t2_abab),
    aug1 X.double_res (ein5 L.nmfe L.kldc L.feij L.dclm L.abnk L.abij Q.g_abab_oovv Q.l2_bbbb Q.t2_abab Q.t2_bbbb Q.t2_abab),
    aug1 X.double_res (ein5 L.mnef L.kldc L.efij L.dalm L.cbkn L.abij Q.g_abab_oovv Q.l2_aaaa Q.t2_abab Q.t2_aaaa Q.t2_abab),
    aug1 X.double_res (ein5 L.mnfe L.kldc L.feij L.dalm L.cbkn L.abij Q.g_abab_oovv Q.l2_aaaa Q.t2_abab Q.t2_aaaa Q.t2_abab),
    aug1 X.double_res (ein5 L.mnef L.klcd L.efij L.adml L.cbkn L.abij Q.g_abab_oovv Q.l2_abab Q.t2_abab Q.t2_abab Q.t2_abab),
    aug1 X.double_res (ein5 L.mnfe L.klcd L.feij L.adml L.cbkn L.abij Q.g_abab_oovv Q.l2_abab Q.t2_abab Q.t2_abab Q.t2_abab),
    aug1 X.double_res (ein5 L.mnef L.lkdc L.efij L.dalm L.cbkn L.abij Q.g_abab_oovv Q.l2_abab Q.t2_abab Q.t2_aaaa Q.t2_bbbb),
    aug1 X.double_res (ein5 L.mnfe L.lkdc L.feij L.dalm L.cbkn L.abij Q.g_abab_oovv Q.l2_abab Q.t2_abab Q.t2_aaaa Q.t2_bbbb),
    aug1 X.double_res (ein5 L.nmef L.lkcd L.efij L.adlm L.cbnk L.abij Q.g_abab_oovv Q.l2_abab Q.t2_abab Q.t2_abab Q.t2_abab),
    aug1 X.double_res (ein5 L.nmfe L.lkcd L.feij L.adlm L.cbnk L.abij Q.g_abab_oovv Q.l2_abab Q.t2_abab Q.t2_abab Q.t2_abab),
    aug1 X.double_res (ein5 L.mnef L.kldc L.efij L.adml L.cbkn L.abij Q.g_abab_oovv Q.l2_bbbb Q.t2_abab Q.t2_abab Q.t2_bbbb),
    aug1 X.double_res (ein5 L.mnfe L.kldc L.feij L.adml L.cbkn L.abij Q.g_abab_oovv Q.l2_bbbb Q.t2_abab Q.t2_abab Q.t2_bbbb),
    aug1 X.double_res (ein5 L.nmef L.kldc L.efij L.dblm L.cakn L.abij Q.g_abab_oovv Q.l2_aaaa Q.t2_abab Q.t2_abab Q.t2_aaaa),
    aug1 X.double_res (ein5 L.nmfe L.kldc L.feij L.dblm L.cakn L.abij Q.g_abab_oovv Q.l2_aaaa Q.t2_abab Q.t2_abab Q.t2_aaaa),
    aug1 X.double_res (ein5 L.mnef L.kldc L.efij L.dbml L.ackn L.abij Q.g_abab_oovv Q.l2_abab Q.t2_abab Q.t2_abab Q.t2_abab),
    aug1 X.double_res (ein5 L.mnfe L.kldc L.feij L.dbml L.ackn L.abij Q.g_abab_oovv Q.l2_abab Q.t2_abab Q.t2_abab Q.t2_abab),
    aug1 X.double_res (ein5 L.nmef L.klcd L.efij L.dblm L.cakn L.abij Q.g_abab_oovv Q.l2_abab Q.t2_abab Q.t2_bbbb Q.t2_aaaa),
    aug1 X.double_res (ein5 L.nmfe L.klcd L.feij L.dblm L.cakn L.abij Q.g_abab_oovv Q.l2_abab Q.t2_abab Q.t2_bbbb Q.t2_aaaa),
    aug1 X.double_res (ein5 L.nmef L.lkdc L.efij L.dblm L.acnk L.abij Q.g_abab_oovv Q.l2_abab Q.t2_abab Q.t2_abab Q.t2_abab),
    aug1 X.double_res (ein5 L.nmfe L.lkdc L.feij L.dblm L.acnk L.abij Q.g_abab_oovv Q.l2_abab Q.t2_abab Q.t2_abab Q.t2_abab),
    aug1 X.double_res (ein5 L.nmef L.kldc L.efij L.dblm L.acnk L.abij Q.g_abab_oovv Q.l2_bbbb Q.t2_abab Q.t2_bbbb Q.t2_abab),
    aug1 X.double_res (ein5 L.nmfe L.kldc L.feij L.dblm L.acnk L.abij Q.g_abab_oovv Q.l2_bbbb Q.t2_abab Q.t2_bbbb Q.t2_abab),
    aug1 X.double_res (ein5 L.mnef L.kldc L.edlm L.cfkj L.abin L.abij Q.g_abab_oovv Q.l2_aaaa Q.t2_aaaa Q.t2_abab Q.t2_abab),
    aug1 X.double_res (ein5 L.nmef L.kldc L.delm L.cfkj L.abin L.abij Q.g_bbbb_oovv Q.l2_aaaa Q.t2_abab Q.t2_abab Q.t2_abab),
    aug1 X.double_res (ein5 L.mnfe L.kldc L.deml L.fckj L.abin L.abij Q.g_abab_oovv Q.l2_abab Q.t2_abab Q.t2_abab Q.t2_abab),
    aug1 X.double_res (ein5 L.mnef L.klcd L.edml L.cfkj L.abin L.abij Q.g_abab_oovv Q.l2_abab Q.t2_abab Q.t2_abab Q.t2_abab),
    aug1 X.double_res (ein5 L.nmef L.klcd L.edlm L.cfkj L.abin L.abij Q.g_bbbb_oovv Q.l2_abab Q.t2_bbbb Q.t2_abab Q.t2_abab),
    aug1 X.double_res (ein5 L.mnef L.lkdc L.edlm L.fcjk L.abin L.abij Q.g_abab_oovv Q.l2_abab Q.t2_aaaa Q.t2_bbbb Q.t2_abab),
    aug1 X.double_res (ein5 L.nmef L.lkdc L.delm L.fcjk L.abin L.abij Q.g_bbbb_oovv Q.l2_abab Q.t2_abab Q.t2_bbbb Q.t2_abab),
    aug1 X.double_res (ein5 L.mnef L.kldc L.edml L.fcjk L.abin L.abij Q.g_abab_oovv Q.l2_bbbb Q.t2_abab Q.t2_bbbb Q.t2_abab),
    aug1 X.double_res (ein5 L.nmef L.kldc L.edlm L.fcjk L.abin L.abij Q.g_bbbb_oovv Q.l2_bbbb Q.t2_bbbb Q.t2_bbbb Q.t2_abab),
    aug1 X.double_res (ein5 L.nmef L.kldc L.edlm L.fcik L.abnj L.abij Q.g_aaaa_oovv Q.l2_aaaa Q.t2_aaaa Q.t2_aaaa Q.t2_abab),
    aug1 X.double_res (ein5 L.nmfe L.kldc L.delm L.fcik L.abnj L.abij Q.g_abab_oovv Q.l2_aaaa Q.t2_abab Q.t2_aaaa Q.t2_abab),
    aug1 X.double_res (ein5 L.nmef L.klcd L.edml L.fcik L.abnj L.abij Q.g_aaaa_oovv Q.l2_abab Q.t2_abab Q.t2_aaaa Q.t2_abab),
    aug1 X.double_res (ein5 L.nmfe L.klcd L.edlm L.fcik L.abnj L.abij Q.g_abab_oovv Q.l2_abab Q.t2_bbbb Q.t2_aaaa Q.t2_abab),
    aug1 X.double_res (ein5 L.nmef L.lkdc L.edlm L.fcik L.abnj L.abij Q.g_aaaa_oovv Q.l2_abab Q.t2_aaaa Q.t2_abab Q.t2_abab),
    aug1 X.double_res (ein5 L.nmfe L.lkdc L.delm L.fcik L.abnj L.abij Q.g_abab_oovv Q.l2_abab Q.t2_abab Q.t2_abab Q.t2_abab),
    aug1 X.double_res (ein5 L.nmef L.lkcd L.edlm L.cfik L.abnj L.abij Q.g_abab_oovv Q.l2_abab Q.t2_abab Q.t2_abab Q.t2_abab),
    aug1 X.double_res (ein5 L.nmef L.kldc L.edml L.fcik L.abnj L.abij Q.g_aaaa_oovv Q.l2_bbbb Q.t2_abab Q.t2_abab Q.t2_abab),
    aug1 X.double_res (ein5 L.nmfe L.kldc L.edlm L.fcik L.abnj L.abij Q.g_abab_oovv Q.l2_bbbb Q.t2_bbbb Q.t2_abab Q.t2_abab),
    aug1 X.double_res (ein5 L.mnef L.kldc L.edlm L.cfij L.abkn L.abij Q.g_abab_oovv Q.l2_aaaa Q.t2_aaaa Q.t2_abab Q.t2_abab),
    aug1 X.double_res (ein5 L.nmef L.kldc L.delm L.cfij L.abkn L.abij Q.g_bbbb_oovv Q.l2_aaaa Q.t2_abab Q.t2_abab Q.t2_abab),
    aug1 X.double_res (ein5 L.mnfe L.kldc L.deml L.fcij L.abkn L.abij Q.g_abab_oovv Q.l2_abab Q.t2_abab Q.t2_abab Q.t2_abab),
    aug1 X.double_res (ein5 L.mnef L.klcd L.edml L.cfij L.abkn L.abij Q.g_abab_oovv Q.l2_abab Q.t2_abab Q.t2_abab Q.t2_abab),
    aug1 X.double_res (ein5 L.nmef L.klcd L.edlm L.cfij L.abkn L.abij Q.g_bbbb_oovv Q.l2_abab Q.t2_bbbb Q.t2_abab Q.t2_abab),
    aug1 X.double_res (ein5 L.nmef L.lkdc L.edlm L.fcij L.abnk L.abij Q.g_aaaa_oovv Q.l2_abab Q.t2_aaaa Q.t2_abab Q.t2_abab),
    aug1 X.double_res (ein5 L.nmfe L.lkdc L.delm L.fcij L.abnk L.abij Q.g_abab_oovv Q.l2_abab Q.t2_abab Q.t2_abab Q.t2_abab),
    aug1 X.double_res (ein5 L.nmef L.lkcd L.edlm L.cfij L.abnk L.abij Q.g_abab_oovv Q.l2_abab Q.t2_abab Q.t2_abab Q.t2_abab),
    aug1 X.double_res (ein5 L.nmef L.kldc L.edml L.fcij L.abnk L.abij Q.g_aaaa_oovv Q.l2_bbbb Q.t2_abab Q.t2_abab Q.t2_abab),
    aug1 X.double_res (ein5 L.nmfe L.kldc L.edlm L.fcij L.abnk L.abij Q.g_abab_oovv Q.l2_bbbb Q.t2_bbbb Q.t2_abab Q.t2_abab),
    aug1 X.double_res (ein5 L.mnef L.kldc L.edlm L.afkj L.cbin L.abij Q.g_abab_oovv Q.l2_aaaa Q.t2_aaaa Q.t2_abab Q.t2_abab),
    aug1 X.double_res (ein5 L.nmef L.kldc L.delm L.afkj L.cbin L.abij Q.g_bbbb_oovv Q.l2_aaaa Q.t2_abab Q.t2_abab Q.t2_abab),
    aug1 X.double_res (ein5 L.mnef L.klcd L.edml L.afkj L.cbin L.abij Q.g_abab_oovv Q.l2_abab Q.t2_abab Q.t2_abab Q.t2_abab),
    aug1 X.double_res (ein5 L.nmef L.klcd L.edlm L.afkj L.cbin L.abij Q.g_bbbb_oovv Q.l2_abab Q.t2_bbbb Q.t2_abab Q.t2_abab),
    aug1 X.double_res (ein5 L.nmef L.kldc L.edlm L.fbkj L.cain L.abij Q.g_aaaa_oovv Q.l2_aaaa Q.t2_aaaa Q.t2_abab Q.t2_aaaa),
    aug1 X.double_res (ein5 L.nmfe L.kldc L.delm L.fbkj L.cain L.abij Q.g_abab_oovv Q.l2_aaaa Q.t2_abab Q.t2_abab Q.t2_aaaa),
    aug1 X.double_res (ein5 L.mnfe L.kldc L.deml L.fbkj L.acin L.abij Q.g_abab_oovv Q.l2_abab Q.t2_abab Q.t2_abab Q.t2_abab),
    aug1 X.double_res (ein5 L.nmef L.klcd L.edml L.fbkj L.cain L.abij Q.g_aaaa_oovv Q.l2_abab Q.t2_abab Q.t2_abab Q.t2_aaaa),
    aug1 X.double_res (ein5 L.nmfe L.klcd L.edlm L.fbkj L.cain L.abij Q.g_abab_oovv Q.l2_abab Q.t2_bbbb Q.t2_abab Q.t2_aaaa),
    aug1 X.double_res (ein5 L.mnef L.lkdc L.edlm L.fbjk L.acin L.abij Q.g_abab_oovv Q.l2_abab Q.t2_aaaa Q.t2_bbbb Q.t2_abab),
    aug1 X.double_res (ein5 L.nmef L.lkdc L.delm L.fbjk L.acin L.abij Q.g_bbbb_oovv Q.l2_abab Q.t2_abab Q.t2_bbbb Q.t2_abab),
    aug1 X.double_res (ein5 L.nmef L.lkcd L.edlm L.fbjk L.cain L.abij Q.g_abab_oovv Q.l2_abab Q.t2_abab Q.t2_bbbb Q.t2_aaaa),
    aug1 X.double_res (ein5 L.mnef L.kldc L.edml L.fbjk L.acin L.abij Q.g_abab_oovv Q.l2_bbbb Q.t2_abab Q.t2_bbbb Q.t2_abab),
    aug1 X.double_res (ein5 L.nmef L.kldc L.edlm L.fbjk L.acin L.abij Q.g_bbbb_oovv Q.l2_bbbb Q.t2_bbbb Q.t2_bbbb Q.t2_abab),
    aug1 X.double_res (ein5 L.nmef L.kldc L.edlm L.faik L.cbnj L.abij Q.g_aaaa_oovv Q.l2_aaaa Q.t2_aaaa Q.t2_aaaa Q.t2_abab),
    aug1 X.double_res (ein5 L.nmfe L.kldc L.delm L.faik L.cbnj L.abij Q.g_abab_oovv Q.l2_aaaa Q.t2_abab Q.t2_aaaa Q.t2_abab),
    aug1 X.double_res (ein5 L.mnfe L.kldc L.deml L.faik L.cbjn L.abij Q.g_abab_oovv Q.l2_abab Q.t2_abab Q.t2_aaaa Q.t2_bbbb),
    aug1 X.double_res (ein5 L.nmef L.klcd L.edml L.faik L.cbnj L.abij Q.g_aaaa_oovv Q.l2_abab Q.t2_abab Q.t2_aaaa Q.t2_abab),
    aug1 X.double_res (ein5 L.nmfe L.klcd L.edlm L.faik L.cbnj L.abij Q.g_abab_oovv Q.l2_abab Q.t2_bbbb Q.t2_aaaa Q.t2_abab),
    aug1 X.double_res (ein5 L.mnef L.lkdc L.edlm L.afik L.cbjn L.abij Q.g_abab_oovv Q.l2_abab Q.t2_aaaa Q.t2_abab Q.t2_bbbb),
    aug1 X.double_res (ein5 L.nmef L.lkdc L.delm L.afik L.cbjn L.abij Q.g_bbbb_oovv Q.l2_abab Q.t2_abab Q.t2_abab Q.t2_bbbb),
    aug1 X.double_res (ein5 L.nmef L.lkcd L.edlm L.afik L.cbnj L.abij Q.g_abab_oovv Q.l2_abab Q.t2_abab Q.t2_abab Q.t2_abab),
    aug1 X.double_res (ein5 L.mnef L.kldc L.edml L.afik L.cbjn L.abij Q.g_abab_oovv Q.l2_bbbb Q.t2_abab Q.t2_abab Q.t2_bbbb),
    aug1 X.double_res (ein5 L.nmef L.kldc L.edlm L.afik L.cbjn L.abij Q.g_bbbb_oovv Q.l2_bbbb Q.t2_bbbb Q.t2_abab Q.t2_bbbb),
    aug1 X.double_res (ein5 L.nmef L.lkdc L.edlm L.fbik L.acnj L.abij Q.g_aaaa_oovv Q.l2_abab Q.t2_aaaa Q.t2_abab Q.t2_abab),
    aug1 X.double_res (ein5 L.nmfe L.lkdc L.delm L.fbik L.acnj L.abij Q.g_abab_oovv Q.l2_abab Q.t2_abab Q.t2_abab Q.t2_abab),
    aug1 X.double_res (ein5 L.nmef L.kldc L.edml L.fbik L.acnj L.abij Q.g_aaaa_oovv Q.l2_bbbb Q.t2_abab Q.t2_abab Q.t2_abab),
    aug1 X.double_res (ein5 L.nmfe L.kldc L.edlm L.fbik L.acnj L.abij Q.g_abab_oovv Q.l2_bbbb Q.t2_bbbb Q.t2_abab Q.t2_abab),
    aug1 X.double_res (ein5 L.mnef L.kldc L.edlm L.afij L.cbkn L.abij Q.g_abab_oovv Q.l2_aaaa Q.t2_aaaa Q.t2_abab Q.t2_abab),
    aug1 X.double_res (ein5 L.nmef L.kldc L.delm L.afij L.cbkn L.abij Q.g_bbbb_oovv Q.l2_aaaa Q.t2_abab Q.t2_abab Q.t2_abab),
    aug1 X.double_res (ein5 L.mnef L.klcd L.edml L.afij L.cbkn L.abij Q.g_abab_oovv Q.l2_abab Q.t2_abab Q.t2_abab Q.t2_abab),
    aug1 X.double_res (ein5 L.nmef L.klcd L.edlm L.afij L.cbkn L.abij Q.g_bbbb_oovv Q.l2_abab Q.t2_bbbb Q.t2_abab Q.t2_abab),
    aug1 X.double_res (ein5 L.mnef L.lkdc L.edlm L.afij L.cbkn L.abij Q.g_abab_oovv Q.l2_abab Q.t2_aaaa Q.t2_abab Q.t2_bbbb),
    aug1 X.double_res (ein5 L.nmef L.lkdc L.delm L.afij L.cbkn L.abij Q.g_bbbb_oovv Q.l2_abab Q.t2_abab Q.t2_abab Q.t2_bbbb),
    aug1 X.double_res (ein5 L.nmef L.lkcd L.edlm L.afij L.cbnk L.abij Q.g_abab_oovv Q.l2_abab Q.t2_abab Q.t2_abab Q.t2_abab),
    aug1 X.double_res (ein5 L.mnef L.kldc L.edml L.afij L.cbkn L.abij Q.g_abab_oovv Q.l2_bbbb Q.t2_abab Q.t2_abab Q.t2_bbbb),
    aug1 X.double_res (ein5 L.nmef L.kldc L.edlm L.afij L.cbkn L.abij Q.g_bbbb_oovv Q.l2_bbbb Q.t2_bbbb Q.t2_abab Q.t2_bbbb),
    aug1 X.double_res (ein5 L.nmef L.kldc L.edlm L.fbij L.cakn L.abij Q.g_aaaa_oovv Q.l2_aaaa Q.t2_aaaa Q.t2_abab Q.t2_aaaa),
    aug1 X.double_res (ein5 L.nmfe L.kldc L.delm L.fbij L.cakn L.abij Q.g_abab_oovv Q.l2_aaaa Q.t2_abab Q.t2_abab Q.t2_aaaa),
    aug1 X.double_res (ein5 L.mnfe L.kldc L.deml L.fbij L.ackn L.abij Q.g_abab_oovv Q.l2_abab Q.t2_abab Q.t2_abab Q.t2_abab),
    aug1 X.double_res (ein5 L.nmef L.klcd L.edml L.fbij L.cakn L.abij Q.g_aaaa_oovv Q.l2_abab Q.t2_abab Q.t2_abab Q.t2_aaaa),
    aug1 X.double_res (ein5 L.nmfe L.klcd L.edlm L.fbij L.cakn L.abij Q.g_abab_oovv Q.l2_abab Q.t2_bbbb Q.t2_abab Q.t2_aaaa),
    aug1 X.double_res (ein5 L.nmef L.lkdc L.edlm L.fbij L.acnk L.abij Q.g_aaaa_oovv Q.l2_abab Q.t2_aaaa Q.t2_abab Q.t2_abab),
    aug1 X.double_res (ein5 L.nmfe L.lkdc L.delm L.fbij L.acnk L.abij Q.g_abab_oovv Q.l2_abab Q.t2_abab Q.t2_abab Q.t2_abab),
    aug1 X.double_res (ein5 L.nmef L.kldc L.edml L.fbij L.acnk L.abij Q.g_aaaa_oovv Q.l2_bbbb Q.t2_abab Q.t2_abab Q.t2_abab),
    aug1 X.double_res (ein5 L.nmfe L.kldc L.edlm L.fbij L.acnk L.abij Q.g_abab_oovv Q.l2_bbbb Q.t2_bbbb Q.t2_abab Q.t2_abab),
    aug1 X.double_res (ein5 L.mnfe L.kldc L.demj L.fckl L.abin L.abij Q.g_abab_oovv Q.l2_aaaa Q.t2_abab Q.t2_aaaa Q.t2_abab),
    aug1 X.double_res (ein5 L.mnfe L.kldc L.demj L.fckl L.abin L.abij Q.g_abab_oovv Q.l2_abab Q.t2_abab Q.t2_abab Q.t2_abab),
    aug1 X.double_res (ein5 L.mnef L.klcd L.edmj L.cfkl L.abin L.abij Q.g_abab_oovv Q.l2_abab Q.t2_abab Q.t2_abab Q.t2_abab),
    aug1 X.double_res (ein5 L.nmef L.klcd L.edjm L.cfkl L.abin L.abij Q.g_bbbb_oovv Q.l2_abab Q.t2_bbbb Q.t2_abab Q.t2_abab),
    aug1 X.double_res (ein5 L.mnfe L.lkdc L.demj L.fclk L.abin L.abij Q.g_abab_oovv Q.l2_abab Q.t2_abab Q.t2_abab Q.t2_abab),
    aug1 X.double_res (ein5 L.mnef L.lkcd L.edmj L.cflk L.abin L.abij Q.g_abab_oovv Q.l2_abab Q.t2_abab Q.t2_abab Q.t2_abab),
    aug1 X.double_res (ein5 L.nmef L.lkcd L.edjm L.cflk L.abin L.abij Q.g_bbbb_oovv Q.l2_abab Q.t2_bbbb Q.t2_abab Q.t2_abab),
    aug1 X.double_res (ein5 L.mnef L.kldc L.edmj L.fckl L.abin L.abij Q.g_abab_oovv Q.l2_bbbb Q.t2_abab Q.t2_bbbb Q.t2_abab),
    aug1 X.double_res (ein5 L.nmef L.kldc L.edjm L.fckl L.abin L.abij Q.g_bbbb_oovv Q.l2_bbbb Q.t2_bbbb Q.t2_bbbb Q.t2_abab),
    aug1 X.double_res (ein5 L.nmef L.kldc L.edim L.fckl L.abnj L.abij Q.g_aaaa_oovv Q.l2_aaaa Q.t2_aaaa Q.t2_aaaa Q.t2_abab),
    aug1 X.double_res (ein5 L.nmfe L.kldc L.deim L.fckl L.abnj L.abij Q.g_abab_oovv Q.l2_aaaa Q.t2_abab Q.t2_aaaa Q.t2_abab),
    aug1 X.double_res (ein5 L.nmef L.kldc L.edim L.fckl L.abnj L.abij Q.g_aaaa_oovv Q.l2_abab Q.t2_aaaa Q.t2_abab Q.t2_abab),
    aug1 X.double_res (ein5 L.nmfe L.kldc L.deim L.fckl L.abnj L.abij Q.g_abab_oovv Q.l2_abab Q.t2_abab Q.t2_abab Q.t2_abab),
    aug1 X.double_res (ein5 L.nmef L.klcd L.edim L.cfkl L.abnj L.abij Q.g_abab_oovv Q.l2_abab Q.t2_abab Q.t2_abab Q.t2_abab),
    aug1 X.double_res (ein5 L.nmef L.lkdc L.edim L.fclk L.abnj L.abij Q.g_aaaa_oovv Q.l2_abab Q.t2_aaaa Q.t2_abab Q.t2_abab),
    aug1 X.double_res (ein5 L.nmfe L.lkdc L.deim L.fclk L.abnj L.abij Q.g_abab_oovv Q.l2_abab Q.t2_abab Q.t2_abab Q.t2_abab),
    aug1 X.double_res (ein5 L.nmef L.lkcd L.edim L.cflk L.abnj L.abij Q.g_abab_oovv Q.l2_abab Q.t2_abab Q.t2_abab Q.t2_abab),
    aug1 X.double_res (ein5 L.nmef L.kldc L.edim L.fckl L.abnj L.abij Q.g_abab_oovv Q.l2_bbbb Q.t2_abab Q.t2_bbbb Q.t2_abab),
    aug1 X.double_res (ein5 L.mnfe L.kldc L.demj L.fcil L.abkn L.abij Q.g_abab_oovv Q.l2_aaaa Q.t2_abab Q.t2_aaaa Q.t2_abab),
    aug1 X.double_res (ein5 L.mnfe L.kldc L.demj L.fcil L.abkn L.abij Q.g_abab_oovv Q.l2_abab Q.t2_abab Q.t2_abab Q.t2_abab),
    aug1 X.double_res (ein5 L.mnef L.klcd L.edmj L.cfil L.abkn L.abij Q.g_abab_oovv Q.l2_abab Q.t2_abab Q.t2_abab Q.t2_abab),
    aug1 X.double_res (ein5 L.nmef L.klcd L.edjm L.cfil L.abkn L.abij Q.g_bbbb_oovv Q.l2_abab Q.t2_bbbb Q.t2_abab Q.t2_abab),
    aug1 X.double_res (ein5 L.nmef L.lkcd L.edmj L.fcil L.abnk L.abij Q.g_aaaa_oovv Q.l2_abab Q.t2_abab Q.t2_aaaa Q.t2_abab),
    aug1 X.double_res (ein5 L.nmfe L.lkcd L.edjm L.fcil L.abnk L.abij Q.g_abab_oovv Q.l2_abab Q.t2_bbbb Q.t2_aaaa Q.t2_abab),
    aug1 X.double_res (ein5 L.nmef L.kldc L.edmj L.fcil L.abnk L.abij Q.g_aaaa_oovv Q.l2_bbbb Q.t2_abab Q.t2_abab Q.t2_abab),
    aug1 X.double_res (ein5 L.nmfe L.kldc L.edjm L.fcil L.abnk L.abij Q.g_abab_oovv Q.l2_bbbb Q.t2_bbbb Q.t2_abab Q.t2_abab),
    aug1 X.double_res (ein5 L.mnef L.kldc L.edim L.cflj L.abkn L.abij Q.g_abab_oovv Q.l2_aaaa Q.t2_aaaa Q.t2_abab Q.t2_abab),
    aug1 X.double_res (ein5 L.nmef L.kldc L.deim L.cflj L.abkn L.abij Q.g_bbbb_oovv Q.l2_aaaa Q.t2_abab Q.t2_abab Q.t2_abab),
    aug1 X.double_res (ein5 L.mnef L.kldc L.edim L.fcjl L.abkn L.abij Q.g_abab_oovv Q.l2_abab Q.t2_aaaa Q.t2_bbbb Q.t2_abab),
    aug1 X.double_res (ein5 L.nmef L.kldc L.deim L.fcjl L.abkn L.abij Q.g_bbbb_oovv Q.l2_abab Q.t2_abab Q.t2_bbbb Q.t2_abab),
    aug1 X.double_res (ein5 L.nmef L.lkdc L.edim L.fclj L.abnk L.abij Q.g_aaaa_oovv Q.l2_abab Q.t2_aaaa Q.t2_abab Q.t2_abab),
    aug1 X.double_res (ein5 L.nmfe L.lkdc L.deim L.fclj L.abnk L.abij Q.g_abab_oovv Q.l2_abab Q.t2_abab Q.t2_abab Q.t2_abab),
    aug1 X.double_res (ein5 L.nmef L.lkcd L.edim L.cflj L.abnk L.abij Q.g_abab_oovv Q.l2_abab Q.t2_abab Q.t2_abab Q.t2_abab),
    aug1 X.double_res (ein5 L.nmef L.kldc L.edim L.fcjl L.abnk L.abij Q.g_abab_oovv Q.l2_bbbb Q.t2_abab Q.t2_bbbb Q.t2_abab),
    aug1 X.double_res (ein5 L.mnfe L.kldc L.demj L.fakl L.cbin L.abij Q.g_abab_oovv Q.l2_aaaa Q.t2_abab Q.t2_aaaa Q.t2_abab),
    aug1 X.double_res (ein5 L.mnef L.klcd L.edmj L.afkl L.cbin L.abij Q.g_abab_oovv Q.l2_abab Q.t2_abab Q.t2_abab Q.t2_abab),
    aug1 X.double_res (ein5 L.nmef L.klcd L.edjm L.afkl L.cbin L.abij Q.g_bbbb_oovv Q.l2_abab Q.t2_bbbb Q.t2_abab Q.t2_abab),
    aug1 X.double_res (ein5 L.mnef L.lkcd L.edmj L.aflk L.cbin L.abij Q.g_abab_oovv Q.l2_abab Q.t2_abab Q.t2_abab Q.t2_abab),
    aug1 X.double_res (ein5 L.nmef L.lkcd L.edjm L.aflk L.cbin L.abij Q.g_bbbb_oovv Q.l2_abab Q.t2_bbbb Q.t2_abab Q.t2_abab),
    aug1 X.double_res (ein5 L.mnfe L.kldc L.demj L.fbkl L.acin L.abij Q.g_abab_oovv Q.l2_abab Q.t2_abab Q.t2_abab Q.t2_abab),
    aug1 X.double_res (ein5 L.nmef L.klcd L.edmj L.fbkl L.cain L.abij Q.g_aaaa_oovv Q.l2_abab Q.t2_abab Q.t2_abab Q.t2_aaaa),
    aug1 X.double_res (ein5 L.nmfe L.klcd L.edjm L.fbkl L.cain L.abij Q.g_abab_oovv Q.l2_abab Q.t2_bbbb Q.t2_abab Q.t2_aaaa),
    aug1 X.double_res (ein5 L.mnfe L.lkdc L.demj L.fblk L.acin L.abij Q.g_abab_oovv Q.l2_abab Q.t2_abab Q.t2_abab Q.t2_abab),
    aug1 X.double_res (ein5 L.nmef L.lkcd L.edmj L.fblk L.cain L.abij Q.g_aaaa_oovv Q.l2_abab Q.t2_abab Q.t2_abab Q.t2_aaaa),
    aug1 X.double_res (ein5 L.nmfe L.lkcd L.edjm L.fblk L.cain L.abij Q.g_abab_oovv Q.l2_abab Q.t2_bbbb Q.t2_abab Q.t2_aaaa),
    aug1 X.double_res (ein5 L.mnef L.kldc L.edmj L.fbkl L.acin L.abij Q.g_abab_oovv Q.l2_bbbb Q.t2_abab Q.t2_bbbb Q.t2_abab),
    aug1 X.double_res (ein5 L.nmef L.kldc L.edjm L.fbkl L.acin L.abij Q.g_bbbb_oovv Q.l2_bbbb Q.t2_bbbb Q.t2_bbbb Q.t2_abab),
    aug1 X.double_res (ein5 L.nmef L.kldc L.edim L.fakl L.cbnj L.abij Q.g_aaaa_oovv Q.l2_aaaa Q.t2_aaaa Q.t2_aaaa Q.t2_abab),
    aug1 X.double_res (ein5 L.nmfe L.kldc L.deim L.fakl L.cbnj L.abij Q.g_abab_oovv Q.l2_aaaa Q.t2_abab Q.t2_aaaa Q.t2_abab),
    aug1 X.double_res (ein5 L.mnef L.kldc L.edim L.afkl L.cbjn L.abij Q.g_abab_oovv Q.l2_abab Q.t2_aaaa Q.t2_abab Q.t2_bbbb),
    aug1 X.double_res (ein5 L.nmef L.kldc L.deim L.afkl L.cbjn L.abij Q.g_bbbb_oovv Q.l2_abab Q.t2_abab Q.t2_abab Q.t2_bbbb),
    aug1 X.double_res (ein5 L.nmef L.klcd L.edim L.afkl L.cbnj L.abij Q.g_abab_oovv Q.l2_abab Q.t2_abab Q.t2_abab Q.t2_abab),
    aug1 X.double_res (ein5 L.mnef L.lkdc L.edim L.aflk L.cbjn L.abij Q.g_abab_oovv Q.l2_abab Q.t2_aaaa Q.t2_abab Q.t2_bbbb),
    aug1 X.double_res (ein5 L.nmef L.lkdc L.deim L.aflk L.cbjn L.abij Q.g_bbbb_oovv Q.l2_abab Q.t2_abab Q.t2_abab Q.t2_bbbb),
    aug1 X.double_res (ein5 L.nmef L.lkcd L.edim L.aflk L.cbnj L.abij Q.g_abab_oovv Q.l2_abab Q.t2_abab Q.t2_abab Q.t2_abab),
    aug1 X.double_res (ein5 L.nmef L.kldc L.edim L.fbkl L.acnj L.abij Q.g_aaaa_oovv Q.l2_abab Q.t2_aaaa Q.t2_abab Q.t2_abab),
    aug1 X.double_res (ein5 L.nmfe L.kldc L.deim L.fbkl L.acnj L.abij Q.g_abab_oovv Q.l2_abab Q.t2_abab Q.t2_abab Q.t2_abab),
    aug1 X.double_res (ein5 L.nmef L.lkdc L.edim L.fblk L.acnj L.abij Q.g_aaaa_oovv Q.l2_abab Q.t2_aaaa Q.t2_abab Q.t2_abab),
    aug1 X.double_res (ein5 L.nmfe L.lkdc L.deim L.fblk L.acnj L.abij Q.g_abab_oovv Q.l2_abab Q.t2_abab Q.t2_abab Q.t2_abab),
    aug1 X.double_res (ein5 L.nmef L.kldc L.edim L.fbkl L.acnj L.abij Q.g_abab_oovv Q.l2_bbbb Q.t2_abab Q.t2_bbbb Q.t2_abab),
    aug1 X.double_res (ein5 L.mnfe L.kldc L.demj L.fail L.cbkn L.abij Q.g_abab_oovv Q.l2_aaaa Q.t2_abab Q.t2_aaaa Q.t2_abab),
    aug1 X.double_res (ein5 L.mnef L.klcd L.edmj L.afil L.cbkn L.abij Q.g_abab_oovv Q.l2_abab Q.t2_abab Q.t2_abab Q.t2_abab),
    aug1 X.double_res (ein5 L.nmef L.klcd L.edjm L.afil L.cbkn L.abij Q.g_bbbb_oovv Q.l2_abab Q.t2_bbbb Q.t2_abab Q.t2_abab),
    aug1 X.double_res (ein5 L.mnfe L.lkdc L.demj L.fail L.cbkn L.abij Q.g_abab_oovv Q.l2_abab Q.t2_abab Q.t2_aaaa Q.t2_bbbb),
    aug1 X.double_res (ein5 L.nmef L.lkcd L.edmj L.fail L.cbnk L.abij Q.g_aaaa_oovv Q.l2_abab Q.t2_abab Q.t2_aaaa Q.t2_abab),
    aug1 X.double_res (ein5 L.nmfe L.lkcd L.edjm L.fail L.cbnk L.abij Q.g_abab_oovv Q.l2_abab Q.t2_bbbb Q.t2_aaaa Q.t2_abab),
    aug1 X.double_res (ein5 L.mnef L.kldc L.edmj L.afil L.cbkn L.abij Q.g_abab_oovv Q.l2_bbbb Q.t2_abab Q.t2_abab Q.t2_bbbb),
    aug1 X.double_res (ein5 L.nmef L.kldc L.edjm L.afil L.cbkn L.abij Q.g_bbbb_oovv Q.l2_bbbb Q.t2_bbbb Q.t2_abab Q.t2_bbbb),
    aug1 X.double_res (ein5 L.mnfe L.kldc L.demj L.fbil L.ackn L.abij Q.g_abab_oovv Q.l2_abab Q.t2_abab Q.t2_abab Q.t2_abab),
    aug1 X.double_res (ein5 L.nmef L.klcd L.edmj L.fbil L.cakn L.abij Q.g_aaaa_oovv Q.l2_abab Q.t2_abab Q.t2_abab Q.t2_aaaa),
    aug1 X.double_res (ein5 L.nmfe L.klcd L.edjm L.fbil L.cakn L.abij Q.g_abab_oovv Q.l2_abab Q.t2_bbbb Q.t2_abab Q.t2_aaaa),
    aug1 X.double_res (ein5 L.nmef L.kldc L.edmj L.fbil L.acnk L.abij Q.g_aaaa_oovv Q.l2_bbbb Q.t2_abab Q.t2_abab Q.t2_abab),
    aug1 X.double_res (ein5 L.nmfe L.kldc L.edjm L.fbil L.acnk L.abij Q.g_abab_oovv Q.l2_bbbb Q.t2_bbbb Q.t2_abab Q.t2_abab),
    aug1 X.double_res (ein5 L.mnef L.kldc L.edim L.aflj L.cbkn L.abij Q.g_abab_oovv Q.l2_aaaa Q.t2_aaaa Q.t2_abab Q.t2_abab),
    aug1 X.double_res (ein5 L.nmef L.kldc L.deim L.aflj L.cbkn L.abij Q.g_bbbb_oovv Q.l2_aaaa Q.t2_abab Q.t2_abab Q.t2_abab),
    aug1 X.double_res (ein5 L.mnef L.lkdc L.edim L.aflj L.cbkn L.abij Q.g_abab_oovv Q.l2_abab Q.t2_aaaa Q.t2_abab Q.t2_bbbb),
    aug1 X.double_res (ein5 L.nmef L.lkdc L.deim L.aflj L.cbkn L.abij Q.g_bbbb_oovv Q.l2_abab Q.t2_abab Q.t2_abab Q.t2_bbbb),
    aug1 X.double_res (ein5 L.nmef L.lkcd L.edim L.aflj L.cbnk L.abij Q.g_abab_oovv Q.l2_abab Q.t2_abab Q.t2_abab Q.t2_abab),
    aug1 X.double_res (ein5 L.nmef L.kldc L.edim L.fblj L.cakn L.abij Q.g_aaaa_oovv Q.l2_aaaa Q.t2_aaaa Q.t2_abab Q.t2_aaaa),
    aug1 X.double_res (ein5 L.nmfe L.kldc L.deim L.fblj L.cakn L.abij Q.g_abab_oovv Q.l2_aaaa Q.t2_abab Q.t2_abab Q.t2_aaaa),
    aug1 X.double_res (ein5 L.mnef L.kldc L.edim L.fbjl L.ackn L.abij Q.g_abab_oovv Q.l2_abab Q.t2_aaaa Q.t2_bbbb Q.t2_abab),
    aug1 X.double_res (ein5 L.nmef L.kldc L.deim L.fbjl L.ackn L.abij Q.g_bbbb_oovv Q.l2_abab Q.t2_abab Q.t2_bbbb Q.t2_abab),
    aug1 X.double_res (ein5 L.nmef L.klcd L.edim L.fbjl L.cakn L.abij Q.g_abab_oovv Q.l2_abab Q.t2_abab Q.t2_bbbb Q.t2_aaaa),
    aug1 X.double_res (ein5 L.nmef L.lkdc L.edim L.fblj L.acnk L.abij Q.g_aaaa_oovv Q.l2_abab Q.t2_aaaa Q.t2_abab Q.t2_abab),
    aug1 X.double_res (ein5 L.nmfe L.lkdc L.deim L.fblj L.acnk L.abij Q.g_abab_oovv Q.l2_abab Q.t2_abab Q.t2_abab Q.t2_abab),
    aug1 X.double_res (ein5 L.nmef L.kldc L.edim L.fbjl L.acnk L.abij Q.g_abab_oovv Q.l2_bbbb Q.t2_abab Q.t2_bbbb Q.t2_abab),
    aug1 X.double_res (ein5 L.nmef L.kldc L.edkl L.cfij L.abnm L.abij Q.g_abab_oovv Q.l2_aaaa Q.t2_aaaa Q.t2_abab Q.t2_abab),
    aug1 X.double_res (ein5 L.mnef L.kldc L.edkl L.cfij L.abmn L.abij Q.g_abab_oovv Q.l2_aaaa Q.t2_aaaa Q.t2_abab Q.t2_abab),
    aug1 X.double_res (ein5 L.nmfe L.kldc L.dekl L.fcij L.abnm L.abij Q.g_abab_oovv Q.l2_abab Q.t2_abab Q.t2_abab Q.t2_abab),
    aug1 X.double_res (ein5 L.mnfe L.kldc L.dekl L.fcij L.abmn L.abij Q.g_abab_oovv Q.l2_abab Q.t2_abab Q.t2_abab Q.t2_abab),
    aug1 X.double_res (ein5 L.nmef L.klcd L.edkl L.cfij L.abnm L.abij Q.g_abab_oovv Q.l2_abab Q.t2_abab Q.t2_abab Q.t2_abab),
    aug1 X.double_res (ein5 L.mnef L.klcd L.edkl L.cfij L.abmn L.abij Q.g_abab_oovv Q.l2_abab Q.t2_abab Q.t2_abab Q.t2_abab),
    aug1 X.double_res (ein5 L.nmfe L.lkdc L.delk L.fcij L.abnm L.abij Q.g_abab_oovv Q.l2_abab Q.t2_abab Q.t2_abab Q.t2_abab),
    aug1 X.double_res (ein5 L.mnfe L.lkdc L.delk L.fcij L.abmn L.abij Q.g_abab_oovv Q.l2_abab Q.t2_abab Q.t2_abab Q.t2_abab),
    aug1 X.double_res (ein5 L.nmef L.lkcd L.edlk L.cfij L.abnm L.abij Q.g_abab_oovv Q.l2_abab Q.t2_abab Q.t2_abab Q.t2_abab),
    aug1 X.double_res (ein5 L.mnef L.lkcd L.edlk L.cfij L.abmn L.abij Q.g_abab_oovv Q.l2_abab Q.t2_abab Q.t2_abab Q.t2_abab),
    aug1 X.double_res (ein5 L.nmfe L.kldc L.edkl L.fcij L.abnm L.abij Q.g_abab_oovv Q.l2_bbbb Q.t2_bbbb Q.t2_abab Q.t2_abab),
    aug1 X.double_res (ein5 L.mnfe L.kldc L.edkl L.fcij L.abmn L.abij Q.g_abab_oovv Q.l2_bbbb Q.t2_bbbb Q.t2_abab Q.t2_abab),
    aug1 X.double_res (ein5 L.mnef L.kldc L.edkl L.afmj L.cbin L.abij Q.g_abab_oovv Q.l2_aaaa Q.t2_aaaa Q.t2_abab Q.t2_abab),
    aug1 X.double_res (ein5 L.mnef L.klcd L.edkl L.afmj L.cbin L.abij Q.g_abab_oovv Q.l2_abab Q.t2_abab Q.t2_abab Q.t2_abab),
    aug1 X.double_res (ein5 L.mnef L.lkcd L.edlk L.afmj L.cbin L.abij Q.g_abab_oovv Q.l2_abab Q.t2_abab Q.t2_abab Q.t2_abab),
    aug1 X.double_res (ein5 L.nmef L.kldc L.edkl L.fbmj L.cain L.abij Q.g_aaaa_oovv Q.l2_aaaa Q.t2_aaaa Q.t2_abab Q.t2_aaaa),
    aug1 X.double_res (ein5 L.nmef L.kldc L.edkl L.fbjm L.cain L.abij Q.g_abab_oovv Q.l2_aaaa Q.t2_aaaa Q.t2_bbbb Q.t2_aaaa),
    aug1 X.double_res (ein5 L.mnfe L.kldc L.dekl L.fbmj L.acin L.abij Q.g_abab_oovv Q.l2_abab Q.t2_abab Q.t2_abab Q.t2_abab),
    aug1 X.double_res (ein5 L.nmef L.kldc L.dekl L.fbjm L.acin L.abij Q.g_bbbb_oovv Q.l2_abab Q.t2_abab Q.t2_bbbb Q.t2_abab),
    aug1 X.double_res (ein5 L.nmef L.klcd L.edkl L.fbmj L.cain L.abij Q.g_aaaa_oovv Q.l2_abab Q.t2_abab Q.t2_abab Q.t2_aaaa),
    aug1 X.double_res (ein5 L.nmef L.klcd L.edkl L.fbjm L.cain L.abij Q.g_abab_oovv Q.l2_abab Q.t2_abab Q.t2_bbbb Q.t2_aaaa),
    aug1 X.double_res (ein5 L.mnfe L.lkdc L.delk L.fbmj L.acin L.abij Q.g_abab_oovv Q.l2_abab Q.t2_abab Q.t2_abab Q.t2_abab),
    aug1 X.double_res (ein5 L.nmef L.lkdc L.delk L.fbjm L.acin L.abij Q.g_bbbb_oovv Q.l2_abab Q.t2_abab Q.t2_bbbb Q.t2_abab),
    aug1 X.double_res (ein5 L.nmef L.lkcd L.edlk L.fbmj L.cain L.abij Q.g_aaaa_oovv Q.l2_abab Q.t2_abab Q.t2_abab Q.t2_aaaa),
    aug1 X.double_res (ein5 L.nmef L.lkcd L.edlk L.fbjm L.cain L.abij Q.g_abab_oovv Q.l2_abab Q.t2_abab Q.t2_bbbb Q.t2_aaaa),
    aug1 X.double_res (ein5 L.mnfe L.kldc L.edkl L.fbmj L.acin L.abij Q.g_abab_oovv Q.l2_bbbb Q.t2_bbbb Q.t2_abab Q.t2_abab),
    aug1 X.double_res (ein5 L.nmef L.kldc L.edkl L.fbjm L.acin L.abij Q.g_bbbb_oovv Q.l2_bbbb Q.t2_bbbb Q.t2_bbbb Q.t2_abab),
    aug1 X.double_res (ein5 L.nmef L.kldc L.edkl L.faim L.cbnj L.abij Q.g_aaaa_oovv Q.l2_aaaa Q.t2_aaaa Q.t2_aaaa Q.t2_abab),
    aug1 X.double_res (ein5 L.nmef L.kldc L.edkl L.afim L.cbnj L.abij Q.g_abab_oovv Q.l2_aaaa Q.t2_aaaa Q.t2_abab Q.t2_abab),
    aug1 X.double_res (ein5 L.mnfe L.kldc L.dekl L.faim L.cbjn L.abij Q.g_abab_oovv Q.l2_abab Q.t2_abab Q.t2_aaaa Q.t2_bbbb),
    aug1 X.double_res (ein5 L.nmef L.kldc L.dekl L.afim L.cbjn L.abij Q.g_bbbb_oovv Q.l2_abab Q.t2_abab Q.t2_abab Q.t2_bbbb),
    aug1 X.double_res (ein5 L.nmef L.klcd L.edkl L.faim L.cbnj L.abij Q.g_aaaa_oovv Q.l2_abab Q.t2_abab Q.t2_aaaa Q.t2_abab),
    aug1 X.double_res (ein5 L.nmef L.klcd L.edkl L.afim L.cbnj L.abij Q.g_abab_oovv Q.l2_abab Q.t2_abab Q.t2_abab Q.t2_abab),
    aug1 X.double_res (ein5 L.mnfe L.lkdc L.delk L.faim L.cbjn L.abij Q.g_abab_oovv Q.l2_abab Q.t2_abab Q.t2_aaaa Q.t2_bbbb),
    aug1 X.double_res (ein5 L.nmef L.lkdc L.delk L.afim L.cbjn L.abij Q.g_bbbb_oovv Q.l2_abab Q.t2_abab Q.t2_abab Q.t2_bbbb),
    aug1 X.double_res (ein5 L.nmef L.lkcd L.edlk L.faim L.cbnj L.abij Q.g_aaaa_oovv Q.l2_abab Q.t2_abab Q.t2_aaaa Q.t2_abab),
    aug1 X.double_res (ein5 L.nmef L.lkcd L.edlk L.afim L.cbnj L.abij Q.g_abab_oovv Q.l2_abab Q.t2_abab Q.t2_abab Q.t2_abab),
    aug1 X.double_res (ein5 L.mnfe L.kldc L.edkl L.faim L.cbjn L.abij Q.g_abab_oovv Q.l2_bbbb Q.t2_bbbb Q.t2_aaaa Q.t2_bbbb),
    aug1 X.double_res (ein5 L.nmef L.kldc L.edkl L.afim L.cbjn L.abij Q.g_bbbb_oovv Q.l2_bbbb Q.t2_bbbb Q.t2_abab Q.t2_bbbb),
    aug1 X.double_res (ein5 L.nmfe L.kldc L.dekl L.fbim L.acnj L.abij Q.g_abab_oovv Q.l2_abab Q.t2_abab Q.t2_abab Q.t2_abab),
    aug1 X.double_res (ein5 L.nmfe L.lkdc L.delk L.fbim L.acnj L.abij Q.g_abab_oovv Q.l2_abab Q.t2_abab Q.t2_abab Q.t2_abab),
    aug1 X.double_res (ein5 L.nmfe L.kldc L.edkl L.fbim L.acnj L.abij Q.g_abab_oovv Q.l2_bbbb Q.t2_bbbb Q.t2_abab Q.t2_abab),
    aug1 X.double_res (ein5 L.nmef L.kldc L.edkl L.afij L.cbnm L.abij Q.g_abab_oovv Q.l2_aaaa Q.t2_aaaa Q.t2_abab Q.t2_abab),
    aug1 X.double_res (ein5 L.mnef L.kldc L.edkl L.afij L.cbmn L.abij Q.g_abab_oovv Q.l2_aaaa Q.t2_aaaa Q.t2_abab Q.t2_abab),
    aug1 X.double_res (ein5 L.nmef L.kldc L.dekl L.afij L.cbnm L.abij Q.g_bbbb_oovv Q.l2_abab Q.t2_abab Q.t2_abab Q.t2_bbbb),
    aug1 X.double_res (ein5 L.nmef L.klcd L.edkl L.afij L.cbnm L.abij Q.g_abab_oovv Q.l2_abab Q.t2_abab Q.t2_abab Q.t2_abab),
    aug1 X.double_res (ein5 L.mnef L.klcd L.edkl L.afij L.cbmn L.abij Q.g_abab_oovv Q.l2_abab Q.t2_abab Q.t2_abab Q.t2_abab),
    aug1 X.double_res (ein5 L.nmef L.lkdc L.delk L.afij L.cbnm L.abij Q.g_bbbb_oovv Q.l2_abab Q.t2_abab Q.t2_abab Q.t2_bbbb),
    aug1 X.double_res (ein5 L.nmef L.lkcd L.edlk L.afij L.cbnm L.abij Q.g_abab_oovv Q.l2_abab Q.t2_abab Q.t2_abab Q.t2_abab),
    aug1 X.double_res (ein5 L.mnef L.lkcd L.edlk L.afij L.cbmn L.abij Q.g_abab_oovv Q.l2_abab Q.t2_abab Q.t2_abab Q.t2_abab),
    aug1 X.double_res (ein5 L.nmef L.kldc L.edkl L.afij L.cbnm L.abij Q.g_bbbb_oovv Q.l2_bbbb Q.t2_bbbb Q.t2_abab Q.t2_bbbb),
    aug1 X.double_res (ein5 L.nmef L.kldc L.edkl L.fbij L.canm L.abij Q.g_aaaa_oovv Q.l2_aaaa Q.t2_aaaa Q.t2_abab Q.t2_aaaa),
    aug1 X.double_res (ein5 L.nmfe L.kldc L.dekl L.fbij L.acnm L.abij Q.g_abab_oovv Q.l2_abab Q.t2_abab Q.t2_abab Q.t2_abab),
    aug1 X.double_res (ein5 L.mnfe L.kldc L.dekl L.fbij L.acmn L.abij Q.g_abab_oovv Q.l2_abab Q.t2_abab Q.t2_abab Q.t2_abab),
    aug1 X.double_res (ein5 L.nmef L.klcd L.edkl L.fbij L.canm L.abij Q.g_aaaa_oovv Q.l2_abab Q.t2_abab Q.t2_abab Q.t2_aaaa),
    aug1 X.double_res (ein5 L.nmfe L.lkdc L.delk L.fbij L.acnm L.abij Q.g_abab_oovv Q.l2_abab Q.t2_abab Q.t2_abab Q.t2_abab),
    aug1 X.double_res (ein5 L.mnfe L.lkdc L.delk L.fbij L.acmn L.abij Q.g_abab_oovv Q.l2_abab Q.t2_abab Q.t2_abab Q.t2_abab),
    aug1 X.double_res (ein5 L.nmef L.lkcd L.edlk L.fbij L.canm L.abij Q.g_aaaa_oovv Q.l2_abab Q.t2_abab Q.t2_abab Q.t2_aaaa),
    aug1 X.double_res (ein5 L.nmfe L.kldc L.edkl L.fbij L.acnm L.abij Q.g_abab_oovv Q.l2_bbbb Q.t2_bbbb Q.t2_abab Q.t2_abab),
    aug1 X.double_res (ein5 L.mnfe L.kldc L.edkl L.fbij L.acmn L.abij Q.g_abab_oovv Q.l2_bbbb Q.t2_bbbb Q.t2_abab Q.t2_abab),
    aug1 X.double_res (ein5 L.mnfe L.kldc L.delj L.fckm L.abin L.abij Q.g_abab_oovv Q.l2_aaaa Q.t2_abab Q.t2_aaaa Q.t2_abab),
    aug1 X.double_res (ein5 L.nmef L.kldc L.delj L.cfkm L.abin L.abij Q.g_bbbb_oovv Q.l2_aaaa Q.t2_abab Q.t2_abab Q.t2_abab),
    aug1 X.double_res (ein5 L.mnfe L.klcd L.edjl L.fckm L.abin L.abij Q.g_abab_oovv Q.l2_abab Q.t2_bbbb Q.t2_aaaa Q.t2_abab),
    aug1 X.double_res (ein5 L.nmef L.klcd L.edjl L.cfkm L.abin L.abij Q.g_bbbb_oovv Q.l2_abab Q.t2_bbbb Q.t2_abab Q.t2_abab),
    aug1 X.double_res (ein5 L.mnfe L.lkdc L.delj L.fcmk L.abin L.abij Q.g_abab_oovv Q.l2_abab Q.t2_abab Q.t2_abab Q.t2_abab),
    aug1 X.double_res (ein5 L.nmef L.lkdc L.delj L.fckm L.abin L.abij Q.g_bbbb_oovv Q.l2_abab Q.t2_abab Q.t2_bbbb Q.t2_abab),
    aug1 X.double_res (ein5 L.mnef L.lkcd L.edlj L.cfmk L.abin L.abij Q.g_abab_oovv Q.l2_abab Q.t2_abab Q.t2_abab Q.t2_abab),
    aug1 X.double_res (ein5 L.mnfe L.kldc L.edjl L.fcmk L.abin L.abij Q.g_abab_oovv Q.l2_bbbb Q.t2_bbbb Q.t2_abab Q.t2_abab),
    aug1 X.double_res (ein5 L.nmef L.kldc L.edjl L.fckm L.abin L.abij Q.g_bbbb_oovv Q.l2_bbbb Q.t2_bbbb Q.t2_bbbb Q.t2_abab),
    aug1 X.double_res (ein5 L.nmef L.kldc L.edil L.fckm L.abnj L.abij Q.g_aaaa_oovv Q.l2_aaaa Q.t2_aaaa Q.t2_aaaa Q.t2_abab),
    aug1 X.double_res (ein5 L.nmef L.kldc L.edil L.cfkm L.abnj L.abij Q.g_abab_oovv Q.l2_aaaa Q.t2_aaaa Q.t2_abab Q.t2_abab),
    aug1 X.double_res (ein5 L.nmfe L.kldc L.deil L.fckm L.abnj L.abij Q.g_abab_oovv Q.l2_abab Q.t2_abab Q.t2_abab Q.t2_abab),
    aug1 X.double_res (ein5 L.nmef L.klcd L.edil L.fckm L.abnj L.abij Q.g_aaaa_oovv Q.l2_abab Q.t2_abab Q.t2_aaaa Q.t2_abab),
    aug1 X.double_res (ein5 L.nmef L.klcd L.edil L.cfkm L.abnj L.abij Q.g_abab_oovv Q.l2_abab Q.t2_abab Q.t2_abab Q.t2_abab),
    aug1 X.double_res (ein5 L.nmef L.lkdc L.edil L.fcmk L.abnj L.abij Q.g_aaaa_oovv Q.l2_abab Q.t2_aaaa Q.t2_abab Q.t2_abab),
    aug1 X.double_res (ein5 L.nmef L.lkdc L.edil L.fckm L.abnj L.abij Q.g_abab_oovv Q.l2_abab Q.t2_aaaa Q.t2_bbbb Q.t2_abab),
    aug1 X.double_res (ein5 L.nmef L.kldc L.edil L.fcmk L.abnj L.abij Q.g_aaaa_oovv Q.l2_bbbb Q.t2_abab Q.t2_abab Q.t2_abab),
    aug1 X.double_res (ein5 L.nmef L.kldc L.edil L.fckm L.abnj L.abij Q.g_abab_oovv Q.l2_bbbb Q.t2_abab Q.t2_bbbb Q.t2_abab),
    aug1 X.double_res (ein5 L.nmfe L.kldc L.delj L.fcik L.abnm L.abij Q.g_abab_oovv Q.l2_aaaa Q.t2_abab Q.t2_aaaa Q.t2_abab),
    aug1 X.double_res (ein5 L.mnfe L.kldc L.delj L.fcik L.abmn L.abij Q.g_abab_oovv Q.l2_aaaa Q.t2_abab Q.t2_aaaa Q.t2_abab),
    aug1 X.double_res (ein5 L.nmfe L.klcd L.edjl L.fcik L.abnm L.abij Q.g_abab_oovv Q.l2_abab Q.t2_bbbb Q.t2_aaaa Q.t2_abab),
    aug1 X.double_res (ein5 L.mnfe L.klcd L.edjl L.fcik L.abmn L.abij Q.g_abab_oovv Q.l2_abab Q.t2_bbbb Q.t2_aaaa Q.t2_abab),
    aug1 X.double_res (ein5 L.nmfe L.lkdc L.delj L.fcik L.abnm L.abij Q.g_abab_oovv Q.l2_abab Q.t2_abab Q.t2_abab Q.t2_abab),
    aug1 X.double_res (ein5 L.mnfe L.lkdc L.delj L.fcik L.abmn L.abij Q.g_abab_oovv Q.l2_abab Q.t2_abab Q.t2_abab Q.t2_abab),
    aug1 X.double_res (ein5 L.nmef L.lkcd L.edlj L.cfik L.abnm L.abij Q.g_abab_oovv Q.l2_abab Q.t2_abab Q.t2_abab Q.t2_abab),
    aug1 X.double_res (ein5 L.mnef L.lkcd L.edlj L.cfik L.abmn L.abij Q.g_abab_oovv Q.l2_abab Q.t2_abab Q.t2_abab Q.t2_abab),
    aug1 X.double_res (ein5 L.nmfe L.kldc L.edjl L.fcik L.abnm L.abij Q.g_abab_oovv Q.l2_bbbb Q.t2_bbbb Q.t2_abab Q.t2_abab),
    aug1 X.double_res (ein5 L.mnfe L.kldc L.edjl L.fcik L.abmn L.abij Q.g_abab_oovv Q.l2_bbbb Q.t2_bbbb Q.t2_abab Q.t2_abab),
    aug1 X.double_res (ein5 L.nmef L.kldc L.edil L.cfkj L.abnm L.abij Q.g_abab_oovv Q.l2_aaaa Q.t2_aaaa Q.t2_abab Q.t2_abab),
    aug1 X.double_res (ein5 L.mnef L.kldc L.edil L.cfkj L.abmn L.abij Q.g_abab_oovv Q.l2_aaaa Q.t2_aaaa Q.t2_abab Q.t2_abab),
    aug1 X.double_res (ein5 L.nmfe L.kldc L.deil L.fckj L.abnm L.abij Q.g_abab_oovv Q.l2_abab Q.t2_abab Q.t2_abab Q.t2_abab),
    aug1 X.double_res (ein5 L.mnfe L.kldc L.deil L.fckj L.abmn L.abij Q.g_abab_oovv Q.l2_abab Q.t2_abab Q.t2_abab Q.t2_abab),
    aug1 X.double_res (ein5 L.nmef L.klcd L.edil L.cfkj L.abnm L.abij Q.g_abab_oovv Q.l2_abab Q.t2_abab Q.t2_abab Q.t2_abab),
    aug1 X.double_res (ein5 L.mnef L.klcd L.edil L.cfkj L.abmn L.abij Q.g_abab_oovv Q.l2_abab Q.t2_abab Q.t2_abab Q.t2_abab),
    aug1 X.double_res (ein5 L.nmef L.lkdc L.edil L.fcjk L.abnm L.abij Q.g_abab_oovv Q.l2_abab Q.t2_aaaa Q.t2_bbbb Q.t2_abab),
    aug1 X.double_res (ein5 L.mnef L.lkdc L.edil L.fcjk L.abmn L.abij Q.g_abab_oovv Q.l2_abab Q.t2_aaaa Q.t2_bbbb Q.t2_abab),
    aug1 X.double_res (ein5 L.nmef L.kldc L.edil L.fcjk L.abnm L.abij Q.g_abab_oovv Q.l2_bbbb Q.t2_abab Q.t2_bbbb Q.t2_abab),
    aug1 X.double_res (ein5 L.mnef L.kldc L.edil L.fcjk L.abmn L.abij Q.g_abab_oovv Q.l2_bbbb Q.t2_abab Q.t2_bbbb Q.t2_abab),
    aug1 X.double_res (ein5 L.mnfe L.kldc L.delj L.fakm L.cbin L.abij Q.g_abab_oovv Q.l2_aaaa Q.t2_abab Q.t2_aaaa Q.t2_abab),
    aug1 X.double_res (ein5 L.nmef L.kldc L.delj L.afkm L.cbin L.abij Q.g_bbbb_oovv Q.l2_aaaa Q.t2_abab Q.t2_abab Q.t2_abab),
    aug1 X.double_res (ein5 L.mnfe L.klcd L.edjl L.fakm L.cbin L.abij Q.g_abab_oovv Q.l2_abab Q.t2_bbbb Q.t2_aaaa Q.t2_abab),
    aug1 X.double_res (ein5 L.nmef L.klcd L.edjl L.afkm L.cbin L.abij Q.g_bbbb_oovv Q.l2_abab Q.t2_bbbb Q.t2_abab Q.t2_abab),
    aug1 X.double_res (ein5 L.mnef L.lkcd L.edlj L.afmk L.cbin L.abij Q.g_abab_oovv Q.l2_abab Q.t2_abab Q.t2_abab Q.t2_abab),
    aug1 X.double_res (ein5 L.nmfe L.kldc L.delj L.fbkm L.cain L.abij Q.g_abab_oovv Q.l2_aaaa Q.t2_abab Q.t2_abab Q.t2_aaaa),
    aug1 X.double_res (ein5 L.nmfe L.klcd L.edjl L.fbkm L.cain L.abij Q.g_abab_oovv Q.l2_abab Q.t2_bbbb Q.t2_abab Q.t2_aaaa),
    aug1 X.double_res (ein5 L.mnfe L.lkdc L.delj L.fbmk L.acin L.abij Q.g_abab_oovv Q.l2_abab Q.t2_abab Q.t2_abab Q.t2_abab),
    aug1 X.double_res (ein5 L.nmef L.lkdc L.delj L.fbkm L.acin L.abij Q.g_bbbb_oovv Q.l2_abab Q.t2_abab Q.t2_bbbb Q.t2_abab),
    aug1 X.double_res (ein5 L.nmef L.lkcd L.edlj L.fbmk L.cain L.abij Q.g_aaaa_oovv Q.l2_abab Q.t2_abab Q.t2_abab Q.t2_aaaa),
    aug1 X.double_res (ein5 L.nmef L.lkcd L.edlj L.fbkm L.cain L.abij Q.g_abab_oovv Q.l2_abab Q.t2_abab Q.t2_bbbb Q.t2_aaaa),
    aug1 X.double_res (ein5 L.mnfe L.kldc L.edjl L.fbmk L.acin L.abij Q.g_abab_oovv Q.l2_bbbb Q.t2_bbbb Q.t2_abab Q.t2_abab),
    aug1 X.double_res (ein5 L.nmef L.kldc L.edjl L.fbkm L.acin L.abij Q.g_bbbb_oovv Q.l2_bbbb Q.t2_bbbb Q.t2_bbbb Q.t2_abab),
    aug1 X.double_res (ein5 L.nmef L.kldc L.edil L.fakm L.cbnj L.abij Q.g_aaaa_oovv Q.l2_aaaa Q.t2_aaaa Q.t2_aaaa Q.t2_abab),
    aug1 X.double_res (ein5 L.nmef L.kldc L.edil L.afkm L.cbnj L.abij Q.g_abab_oovv Q.l2_aaaa Q.t2_aaaa Q.t2_abab Q.t2_abab),
    aug1 X.double_res (ein5 L.mnfe L.kldc L.deil L.fakm L.cbjn L.abij Q.g_abab_oovv Q.l2_abab Q.t2_abab Q.t2_aaaa Q.t2_bbbb),
    aug1 X.double_res (ein5 L.nmef L.kldc L.deil L.afkm L.cbjn L.abij Q.g_bbbb_oovv Q.l2_abab Q.t2_abab Q.t2_abab Q.t2_bbbb),
    aug1 X.double_res (ein5 L.nmef L.klcd L.edil L.fakm L.cbnj L.abij Q.g_aaaa_oovv Q.l2_abab Q.t2_abab Q.t2_aaaa Q.t2_abab),
    aug1 X.double_res (ein5 L.nmef L.klcd L.edil L.afkm L.cbnj L.abij Q.g_abab_oovv Q.l2_abab Q.t2_abab Q.t2_abab Q.t2_abab),
    aug1 X.double_res (ein5 L.mnef L.lkdc L.edil L.afmk L.cbjn L.abij Q.g_abab_oovv Q.l2_abab Q.t2_aaaa Q.t2_abab Q.t2_bbbb),
    aug1 X.double_res (ein5 L.mnef L.kldc L.edil L.afmk L.cbjn L.abij Q.g_abab_oovv Q.l2_bbbb Q.t2_abab Q.t2_abab Q.t2_bbbb),
    aug1 X.double_res (ein5 L.nmfe L.kldc L.deil L.fbkm L.acnj L.abij Q.g_abab_oovv Q.l2_abab Q.t2_abab Q.t2_abab Q.t2_abab),
    aug1 X.double_res (ein5 L.nmef L.lkdc L.edil L.fbmk L.acnj L.abij Q.g_aaaa_oovv Q.l2_abab Q.t2_aaaa Q.t2_abab Q.t2_abab),
    aug1 X.double_res (ein5 L.nmef L.lkdc L.edil L.fbkm L.acnj L.abij Q.g_abab_oovv Q.l2_abab Q.t2_aaaa Q.t2_bbbb Q.t2_abab),
    aug1 X.double_res (ein5 L.nmef L.kldc L.edil L.fbmk L.acnj L.abij Q.g_aaaa_oovv Q.l2_bbbb Q.t2_abab Q.t2_abab Q.t2_abab),
    aug1 X.double_res (ein5 L.nmef L.kldc L.edil L.fbkm L.acnj L.abij Q.g_abab_oovv Q.l2_bbbb Q.t2_abab Q.t2_bbbb Q.t2_abab),
    aug1 X.double_res (ein5 L.mnfe L.kldc L.delj L.faim L.cbkn L.abij Q.g_abab_oovv Q.l2_aaaa Q.t2_abab Q.t2_aaaa Q.t2_abab),
    aug1 X.double_res (ein5 L.nmef L.kldc L.delj L.afim L.cbkn L.abij Q.g_bbbb_oovv Q.l2_aaaa Q.t2_abab Q.t2_abab Q.t2_abab),
    aug1 X.double_res (ein5 L.mnfe L.klcd L.edjl L.faim L.cbkn L.abij Q.g_abab_oovv Q.l2_abab Q.t2_bbbb Q.t2_aaaa Q.t2_abab),
    aug1 X.double_res (ein5 L.nmef L.klcd L.edjl L.afim L.cbkn L.abij Q.g_bbbb_oovv Q.l2_abab Q.t2_bbbb Q.t2_abab Q.t2_abab),
    aug1 X.double_res (ein5 L.mnfe L.lkdc L.delj L.faim L.cbkn L.abij Q.g_abab_oovv Q.l2_abab Q.t2_abab Q.t2_aaaa Q.t2_bbbb),
    aug1 X.double_res (ein5 L.nmef L.lkdc L.delj L.afim L.cbkn L.abij Q.g_bbbb_oovv Q.l2_abab Q.t2_abab Q.t2_abab Q.t2_bbbb),
    aug1 X.double_res (ein5 L.nmef L.lkcd L.edlj L.faim L.cbnk L.abij Q.g_aaaa_oovv Q.l2_abab Q.t2_abab Q.t2_aaaa Q.t2_abab),
    aug1 X.double_res (ein5 L.nmef L.lkcd L.edlj L.afim L.cbnk L.abij Q.g_abab_oovv Q.l2_abab Q.t2_abab Q.t2_abab Q.t2_abab),
    aug1 X.double_res (ein5 L.mnfe L.kldc L.edjl L.faim L.cbkn L.abij Q.g_abab_oovv Q.l2_bbbb Q.t2_bbbb Q.t2_aaaa Q.t2_bbbb),
    aug1 X.double_res (ein5 L.nmef L.kldc L.edjl L.afim L.cbkn L.abij Q.g_bbbb_oovv Q.l2_bbbb Q.t2_bbbb Q.t2_abab Q.t2_bbbb),
    aug1 X.double_res (ein5 L.nmfe L.kldc L.delj L.fbim L.cakn L.abij Q.g_abab_oovv Q.l2_aaaa Q.t2_abab Q.t2_abab Q.t2_aaaa),
    aug1 X.double_res (ein5 L.nmfe L.klcd L.edjl L.fbim L.cakn L.abij Q.g_abab_oovv Q.l2_abab Q.t2_bbbb Q.t2_abab Q.t2_aaaa),
    aug1 X.double_res (ein5 L.nmfe L.lkdc L.delj L.fbim L.acnk L.abij Q.g_abab_oovv Q.l2_abab Q.t2_abab Q.t2_abab Q.t2_abab),
    aug1 X.double_res (ein5 L.nmfe L.kldc L.edjl L.fbim L.acnk L.abij Q.g_abab_oovv Q.l2_bbbb Q.t2_bbbb Q.t2_abab Q.t2_abab),
    aug1 X.double_res (ein5 L.mnef L.kldc L.edil L.afmj L.cbkn L.abij Q.g_abab_oovv Q.l2_aaaa Q.t2_aaaa Q.t2_abab Q.t2_abab),
    aug1 X.double_res (ein5 L.mnef L.klcd L.edil L.afmj L.cbkn L.abij Q.g_abab_oovv Q.l2_abab Q.t2_abab Q.t2_abab Q.t2_abab),
    aug1 X.double_res (ein5 L.mnef L.lkdc L.edil L.afmj L.cbkn L.abij Q.g_abab_oovv Q.l2_abab Q.t2_aaaa Q.t2_abab Q.t2_bbbb),
    aug1 X.double_res (ein5 L.mnef L.kldc L.edil L.afmj L.cbkn L.abij Q.g_abab_oovv Q.l2_bbbb Q.t2_abab Q.t2_abab Q.t2_bbbb),
    aug1 X.double_res (ein5 L.nmef L.kldc L.edil L.fbmj L.cakn L.abij Q.g_aaaa_oovv Q.l2_aaaa Q.t2_aaaa Q.t2_abab Q.t2_aaaa),
    aug1 X.double_res (ein5 L.nmef L.kldc L.edil L.fbjm L.cakn L.abij Q.g_abab_oovv Q.l2_aaaa Q.t2_aaaa Q.t2_bbbb Q.t2_aaaa),
    aug1 X.double_res (ein5 L.mnfe L.kldc L.deil L.fbmj L.ackn L.abij Q.g_abab_oovv Q.l2_abab Q.t2_abab Q.t2_abab Q.t2_abab),
    aug1 X.double_res (ein5 L.nmef L.kldc L.deil L.fbjm L.ackn L.abij Q.g_bbbb_oovv Q.l2_abab Q.t2_abab Q.t2_bbbb Q.t2_abab),
    aug1 X.double_res (ein5 L.nmef L.klcd L.edil L.fbmj L.cakn L.abij Q.g_aaaa_oovv Q.l2_abab Q.t2_abab Q.t2_abab Q.t2_aaaa),
    aug1 X.double_res (ein5 L.nmef L.klcd L.edil L.fbjm L.cakn L.abij Q.g_abab_oovv Q.l2_abab Q.t2_abab Q.t2_bbbb Q.t2_aaaa),
    aug1 X.double_res (ein5 L.nmef L.lkdc L.edil L.fbmj L.acnk L.abij Q.g_aaaa_oovv Q.l2_abab Q.t2_aaaa Q.t2_abab Q.t2_abab),
    aug1 X.double_res (ein5 L.nmef L.lkdc L.edil L.fbjm L.acnk L.abij Q.g_abab_oovv Q.l2_abab Q.t2_aaaa Q.t2_bbbb Q.t2_abab),
    aug1 X.double_res (ein5 L.nmef L.kldc L.edil L.fbmj L.acnk L.abij Q.g_aaaa_oovv Q.l2_bbbb Q.t2_abab Q.t2_abab Q.t2_abab),
    aug1 X.double_res (ein5 L.nmef L.kldc L.edil L.fbjm L.acnk L.abij Q.g_abab_oovv Q.l2_bbbb Q.t2_abab Q.t2_bbbb Q.t2_abab),
    aug1 X.double_res (ein5 L.nmfe L.kldc L.delj L.faik L.cbnm L.abij Q.g_abab_oovv Q.l2_aaaa Q.t2_abab Q.t2_aaaa Q.t2_abab),
    aug1 X.double_res (ein5 L.mnfe L.kldc L.delj L.faik L.cbmn L.abij Q.g_abab_oovv Q.l2_aaaa Q.t2_abab Q.t2_aaaa Q.t2_abab),
    aug1 X.double_res (ein5 L.nmfe L.klcd L.edjl L.faik L.cbnm L.abij Q.g_abab_oovv Q.l2_abab Q.t2_bbbb Q.t2_aaaa Q.t2_abab),
    aug1 X.double_res (ein5 L.mnfe L.klcd L.edjl L.faik L.cbmn L.abij Q.g_abab_oovv Q.l2_abab Q.t2_bbbb Q.t2_aaaa Q.t2_abab),
    aug1 X.double_res (ein5 L.nmef L.lkdc L.delj L.afik L.cbnm L.abij Q.g_bbbb_oovv Q.l2_abab Q.t2_abab Q.t2_abab Q.t2_bbbb),
    aug1 X.double_res (ein5 L.nmef L.lkcd L.edlj L.afik L.cbnm L.abij Q.g_abab_oovv Q.l2_abab Q.t2_abab Q.t2_abab Q.t2_abab),
    aug1 X.double_res (ein5 L.mnef L.lkcd L.edlj L.afik L.cbmn L.abij Q.g_abab_oovv Q.l2_abab Q.t2_abab Q.t2_abab Q.t2_abab),
    aug1 X.double_res (ein5 L.nmef L.kldc L.edjl L.afik L.cbnm L.abij Q.g_bbbb_oovv Q.l2_bbbb Q.t2_bbbb Q.t2_abab Q.t2_bbbb),
    aug1 X.double_res (ein5 L.nmfe L.lkdc L.delj L.fbik L.acnm L.abij Q.g_abab_oovv Q.l2_abab Q.t2_abab Q.t2_abab Q.t2_abab),
    aug1 X.double_res (ein5 L.mnfe L.lkdc L.delj L.fbik L.acmn L.abij Q.g_abab_oovv Q.l2_abab Q.t2_abab Q.t2_abab Q.t2_abab),
    aug1 X.double_res (ein5 L.nmef L.lkcd L.edlj L.fbik L.canm L.abij Q.g_aaaa_oovv Q.l2_abab Q.t2_abab Q.t2_abab Q.t2_aaaa),
    aug1 X.double_res (ein5 L.nmfe L.kldc L.edjl L.fbik L.acnm L.abij Q.g_abab_oovv Q.l2_bbbb Q.t2_bbbb Q.t2_abab Q.t2_abab),
    aug1 X.double_res (ein5 L.mnfe L.kldc L.edjl L.fbik L.acmn L.abij Q.g_abab_oovv Q.l2_bbbb Q.t2_bbbb Q.t2_abab Q.t2_abab),
    aug1 X.double_res (ein5 L.nmef L.kldc L.edil L.afkj L.cbnm L.abij Q.g_abab_oovv Q.l2_aaaa Q.t2_aaaa Q.t2_abab Q.t2_abab),
    aug1 X.double_res (ein5 L.mnef L.kldc L.edil L.afkj L.cbmn L.abij Q.g_abab_oovv Q.l2_aaaa Q.t2_aaaa Q.t2_abab Q.t2_abab),
    aug1 X.double_res (ein5 L.nmef L.kldc L.deil L.afkj L.cbnm L.abij Q.g_bbbb_oovv Q.l2_abab Q.t2_abab Q.t2_abab Q.t2_bbbb),
    aug1 X.double_res (ein5 L.nmef L.klcd L.edil L.afkj L.cbnm L.abij Q.g_abab_oovv Q.l2_abab Q.t2_abab Q.t2_abab Q.t2_abab),
    aug1 X.double_res (ein5 L.mnef L.klcd L.edil L.afkj L.cbmn L.abij Q.g_abab_oovv Q.l2_abab Q.t2_abab Q.t2_abab Q.t2_abab),
    aug1 X.double_res (ein5 L.nmef L.kldc L.edil L.fbkj L.canm L.abij Q.g_aaaa_oovv Q.l2_aaaa Q.t2_aaaa Q.t2_abab Q.t2_aaaa),
    aug1 X.double_res (ein5 L.nmfe L.kldc L.deil L.fbkj L.acnm L.abij Q.g_abab_oovv Q.l2_abab Q.t2_abab Q.t2_abab Q.t2_abab),
    aug1 X.double_res (ein5 L.mnfe L.kldc L.deil L.fbkj L.acmn L.abij Q.g_abab_oovv Q.l2_abab Q.t2_abab Q.t2_abab Q.t2_abab),
    aug1 X.double_res (ein5 L.nmef L.klcd L.edil L.fbkj L.canm L.abij Q.g_aaaa_oovv Q.l2_abab Q.t2_abab Q.t2_abab Q.t2_aaaa),
    aug1 X.double_res (ein5 L.nmef L.lkdc L.edil L.fbjk L.acnm L.abij Q.g_abab_oovv Q.l2_abab Q.t2_aaaa Q.t2_bbbb Q.t2_abab),
    aug1 X.double_res (ein5 L.mnef L.lkdc L.edil L.fbjk L.acmn L.abij Q.g_abab_oovv Q.l2_abab Q.t2_aaaa Q.t2_bbbb Q.t2_abab),
    aug1 X.double_res (ein5 L.nmef L.kldc L.edil L.fbjk L.acnm L.abij Q.g_abab_oovv Q.l2_bbbb Q.t2_abab Q.t2_bbbb Q.t2_abab),
    aug1 X.double_res (ein5 L.mnef L.kldc L.edil L.fbjk L.acmn L.abij Q.g_abab_oovv Q.l2_bbbb Q.t2_abab Q.t2_bbbb Q.t2_abab),
    aug1 X.double_res (ein5 L.mnfe L.kldc L.deij L.falm L.cbkn L.abij Q.g_abab_oovv Q.l2_aaaa Q.t2_abab Q.t2_aaaa Q.t2_abab),
    aug1 X.double_res (ein5 L.nmef L.kldc L.deij L.aflm L.cbkn L.abij Q.g_bbbb_oovv Q.l2_aaaa Q.t2_abab Q.t2_abab Q.t2_abab),
    aug1 X.double_res (ein5 L.mnef L.klcd L.edij L.afml L.cbkn L.abij Q.g_abab_oovv Q.l2_abab Q.t2_abab Q.t2_abab Q.t2_abab),
    aug1 X.double_res (ein5 L.mnfe L.lkdc L.deij L.falm L.cbkn L.abij Q.g_abab_oovv Q.l2_abab Q.t2_abab Q.t2_aaaa Q.t2_bbbb),
    aug1 X.double_res (ein5 L.nmef L.lkdc L.deij L.aflm L.cbkn L.abij Q.g_bbbb_oovv Q.l2_abab Q.t2_abab Q.t2_abab Q.t2_bbbb),
    aug1 X.double_res (ein5 L.nmef L.lkcd L.edij L.falm L.cbnk L.abij Q.g_aaaa_oovv Q.l2_abab Q.t2_abab Q.t2_aaaa Q.t2_abab),
    aug1 X.double_res (ein5 L.nmef L.lkcd L.edij L.aflm L.cbnk L.abij Q.g_abab_oovv Q.l2_abab Q.t2_abab Q.t2_abab Q.t2_abab),
    aug1 X.double_res (ein5 L.mnef L.kldc L.edij L.afml L.cbkn L.abij Q.g_abab_oovv Q.l2_bbbb Q.t2_abab Q.t2_abab Q.t2_bbbb),
    aug1 X.double_res (ein5 L.nmfe L.kldc L.deij L.fblm L.cakn L.abij Q.g_abab_oovv Q.l2_aaaa Q.t2_abab Q.t2_abab Q.t2_aaaa),
    aug1 X.double_res (ein5 L.mnfe L.kldc L.deij L.fbml L.ackn L.abij Q.g_abab_oovv Q.l2_abab Q.t2_abab Q.t2_abab Q.t2_abab),
    aug1 X.double_res (ein5 L.nmef L.kldc L.deij L.fblm L.ackn L.abij Q.g_bbbb_oovv Q.l2_abab Q.t2_abab Q.t2_bbbb Q.t2_abab),
    aug1 X.double_res (ein5 L.nmef L.klcd L.edij L.fbml L.cakn L.abij Q.g_aaaa_oovv Q.l2_abab Q.t2_abab Q.t2_abab Q.t2_aaaa),
    aug1 X.double_res (ein5 L.nmef L.klcd L.edij L.fblm L.cakn L.abij Q.g_abab_oovv Q.l2_abab Q.t2_abab Q.t2_bbbb Q.t2_aaaa),
    aug1 X.double_res (ein5 L.nmfe L.lkdc L.deij L.fblm L.acnk L.abij Q.g_abab_oovv Q.l2_abab Q.t2_abab Q.t2_abab Q.t2_abab),
    aug1 X.double_res (ein5 L.nmef L.kldc L.edij L.fbml L.acnk L.abij Q.g_aaaa_oovv Q.l2_bbbb Q.t2_abab Q.t2_abab Q.t2_abab),
    aug1 X.double_res (ein5 L.nmef L.kldc L.edij L.fblm L.acnk L.abij Q.g_abab_oovv Q.l2_bbbb Q.t2_abab Q.t2_bbbb Q.t2_abab),
    aug1 X.double_res (ein5 L.nmfe L.kldc L.deij L.fakl L.cbnm L.abij Q.g_abab_oovv Q.l2_aaaa Q.t2_abab Q.t2_aaaa Q.t2_abab),
    aug1 X.double_res (ein5 L.mnfe L.kldc L.deij L.fakl L.cbmn L.abij Q.g_abab_oovv Q.l2_aaaa Q.t2_abab Q.t2_aaaa Q.t2_abab),
    aug1 X.double_res (ein5 L.nmef L.kldc L.deij L.afkl L.cbnm L.abij Q.g_bbbb_oovv Q.l2_abab Q.t2_abab Q.t2_abab Q.t2_bbbb),
    aug1 X.double_res (ein5 L.nmef L.klcd L.edij L.afkl L.cbnm L.abij Q.g_abab_oovv Q.l2_abab Q.t2_abab Q.t2_abab Q.t2_abab),
    aug1 X.double_res (ein5 L.mnef L.klcd L.edij L.afkl L.cbmn L.abij Q.g_abab_oovv Q.l2_abab Q.t2_abab Q.t2_abab Q.t2_abab),
    aug1 X.double_res (ein5 L.nmef L.lkdc L.deij L.aflk L.cbnm L.abij Q.g_bbbb_oovv Q.l2_abab Q.t2_abab Q.t2_abab Q.t2_bbbb),
    aug1 X.double_res (ein5 L.nmef L.lkcd L.edij L.aflk L.cbnm L.abij Q.g_abab_oovv Q.l2_abab Q.t2_abab Q.t2_abab Q.t2_abab),
    aug1 X.double_res (ein5 L.mnef L.lkcd L.edij L.aflk L.cbmn L.abij Q.g_abab_oovv Q.l2_abab Q.t2_abab Q.t2_abab Q.t2_abab),
    aug1 X.double_res (ein5 L.nmfe L.kldc L.deij L.fbkl L.acnm L.abij Q.g_abab_oovv Q.l2_abab Q.t2_abab Q.t2_abab Q.t2_abab),
    aug1 X.double_res (ein5 L.mnfe L.kldc L.deij L.fbkl L.acmn L.abij Q.g_abab_oovv Q.l2_abab Q.t2_abab Q.t2_abab Q.t2_abab),
    aug1 X.double_res (ein5 L.nmef L.klcd L.edij L.fbkl L.canm L.abij Q.g_aaaa_oovv Q.l2_abab Q.t2_abab Q.t2_abab Q.t2_aaaa),
    aug1 X.double_res (ein5 L.nmfe L.lkdc L.deij L.fblk L.acnm L.abij Q.g_abab_oovv Q.l2_abab Q.t2_abab Q.t2_abab Q.t2_abab),
    aug1 X.double_res (ein5 L.mnfe L.lkdc L.deij L.fblk L.acmn L.abij Q.g_abab_oovv Q.l2_abab Q.t2_abab Q.t2_abab Q.t2_abab),
    aug1 X.double_res (ein5 L.nmef L.lkcd L.edij L.fblk L.canm L.abij Q.g_aaaa_oovv Q.l2_abab Q.t2_abab Q.t2_abab Q.t2_aaaa),
    aug1 X.double_res (ein5 L.nmef L.kldc L.edij L.fbkl L.acnm L.abij Q.g_abab_oovv Q.l2_bbbb Q.t2_abab Q.t2_bbbb Q.t2_abab),
    aug1 X.double_res (ein5 L.mnef L.kldc L.edij L.fbkl L.acmn L.abij Q.g_abab_oovv Q.l2_bbbb Q.t2_abab Q.t2_bbbb Q.t2_abab),
    aug1 X.double_res (ein5 L.nmef L.kldc L.ealm L.fbkj L.dcin L.abij Q.g_aaaa_oovv Q.l2_aaaa Q.t2_aaaa Q.t2_abab Q.t2_aaaa),
    aug1 X.double_res (ein5 L.nmfe L.kldc L.aelm L.fbkj L.dcin L.abij Q.g_abab_oovv Q.l2_aaaa Q.t2_abab Q.t2_abab Q.t2_aaaa),
    aug1 X.double_res (ein5 L.mnfe L.kldc L.aeml L.fbkj L.dcin L.abij Q.g_abab_oovv Q.l2_abab Q.t2_abab Q.t2_abab Q.t2_abab),
    aug1 X.double_res (ein5 L.mnfe L.klcd L.aeml L.fbkj L.cdin L.abij Q.g_abab_oovv Q.l2_abab Q.t2_abab Q.t2_abab Q.t2_abab),
    aug1 X.double_res (ein5 L.mnef L.lkdc L.ealm L.fbjk L.dcin L.abij Q.g_abab_oovv Q.l2_abab Q.t2_aaaa Q.t2_bbbb Q.t2_abab),
    aug1 X.double_res (ein5 L.nmef L.lkdc L.aelm L.fbjk L.dcin L.abij Q.g_bbbb_oovv Q.l2_abab Q.t2_abab Q.t2_bbbb Q.t2_abab),
    aug1 X.double_res (ein5 L.mnef L.lkcd L.ealm L.fbjk L.cdin L.abij Q.g_abab_oovv Q.l2_abab Q.t2_aaaa Q.t2_bbbb Q.t2_abab),
    aug1 X.double_res (ein5 L.nmef L.lkcd L.aelm L.fbjk L.cdin L.abij Q.g_bbbb_oovv Q.l2_abab Q.t2_abab Q.t2_bbbb Q.t2_abab),
    aug1 X.double_res (ein5 L.nmef L.lkdc L.ealm L.fbik L.dcnj L.abij Q.g_aaaa_oovv Q.l2_abab Q.t2_aaaa Q.t2_abab Q.t2_abab),
    aug1 X.double_res (ein5 L.nmfe L.lkdc L.aelm L.fbik L.dcnj L.abij Q.g_abab_oovv Q.l2_abab Q.t2_abab Q.t2_abab Q.t2_abab),
    aug1 X.double_res (ein5 L.nmef L.lkcd L.ealm L.fbik L.cdnj L.abij Q.g_aaaa_oovv Q.l2_abab Q.t2_aaaa Q.t2_abab Q.t2_abab),
    aug1 X.double_res (ein5 L.nmfe L.lkcd L.aelm L.fbik L.cdnj L.abij Q.g_abab_oovv Q.l2_abab Q.t2_abab Q.t2_abab Q.t2_abab),
    aug1 X.double_res (ein5 L.mnfe L.kldc L.aeml L.fbik L.dcjn L.abij Q.g_abab_oovv Q.l2_bbbb Q.t2_abab Q.t2_abab Q.t2_bbbb),
    aug1 X.double_res (ein5 L.nmef L.kldc L.ealm L.fbij L.dckn L.abij Q.g_aaaa_oovv Q.l2_aaaa Q.t2_aaaa Q.t2_abab Q.t2_aaaa),
    aug1 X.double_res (ein5 L.nmfe L.kldc L.aelm L.fbij L.dckn L.abij Q.g_abab_oovv Q.l2_aaaa Q.t2_abab Q.t2_abab Q.t2_aaaa),
    aug1 X.double_res (ein5 L.mnfe L.kldc L.aeml L.fbij L.dckn L.abij Q.g_abab_oovv Q.l2_abab Q.t2_abab Q.t2_abab Q.t2_abab),
    aug1 X.double_res (ein5 L.mnfe L.klcd L.aeml L.fbij L.cdkn L.abij Q.g_abab_oovv Q.l2_abab Q.t2_abab Q.t2_abab Q.t2_abab),
    aug1 X.double_res (ein5 L.nmef L.lkdc L.ealm L.fbij L.dcnk L.abij Q.g_aaaa_oovv Q.l2_abab Q.t2_aaaa Q.t2_abab Q.t2_abab),
    aug1 X.double_res (ein5 L.nmfe L.lkdc L.aelm L.fbij L.dcnk L.abij Q.g_abab_oovv Q.l2_abab Q.t2_abab Q.t2_abab Q.t2_abab),
    aug1 X.double_res (ein5 L.nmef L.lkcd L.ealm L.fbij L.cdnk L.abij Q.g_aaaa_oovv Q.l2_abab Q.t2_aaaa Q.t2_abab Q.t2_abab),
    aug1 X.double_res (ein5 L.nmfe L.lkcd L.aelm L.fbij L.cdnk L.abij Q.g_abab_oovv Q.l2_abab Q.t2_abab Q.t2_abab Q.t2_abab),
    aug1 X.double_res (ein5 L.mnfe L.kldc L.aeml L.fbij L.dckn L.abij Q.g_abab_oovv Q.l2_bbbb Q.t2_abab Q.t2_abab Q.t2_bbbb),
    aug1 X.double_res (ein5 L.mnfe L.kldc L.aemj L.fbkl L.dcin L.abij Q.g_abab_oovv Q.l2_abab Q.t2_abab Q.t2_abab Q.t2_abab),
    aug1 X.double_res (ein5 L.mnfe L.klcd L.aemj L.fbkl L.cdin L.abij Q.g_abab_oovv Q.l2_abab Q.t2_abab Q.t2_abab Q.t2_abab),
    aug1 X.double_res (ein5 L.mnfe L.lkdc L.aemj L.fblk L.dcin L.abij Q.g_abab_oovv Q.l2_abab Q.t2_abab Q.t2_abab Q.t2_abab),
    aug1 X.double_res (ein5 L.mnfe L.lkcd L.aemj L.fblk L.cdin L.abij Q.g_abab_oovv Q.l2_abab Q.t2_abab Q.t2_abab Q.t2_abab),
    aug1 X.double_res (ein5 L.nmef L.kldc L.eaim L.fbkl L.dcnj L.abij Q.g_aaaa_oovv Q.l2_abab Q.t2_aaaa Q.t2_abab Q.t2_abab),
    aug1 X.double_res (ein5 L.nmfe L.kldc L.aeim L.fbkl L.dcnj L.abij Q.g_abab_oovv Q.l2_abab Q.t2_abab Q.t2_abab Q.t2_abab),
    aug1 X.double_res (ein5 L.nmef L.klcd L.eaim L.fbkl L.cdnj L.abij Q.g_aaaa_oovv Q.l2_abab Q.t2_aaaa Q.t2_abab Q.t2_abab),
    aug1 X.double_res (ein5 L.nmfe L.klcd L.aeim L.fbkl L.cdnj L.abij Q.g_abab_oovv Q.l2_abab Q.t2_abab Q.t2_abab Q.t2_abab),
    aug1 X.double_res (ein5 L.nmef L.lkdc L.eaim L.fblk L.dcnj L.abij Q.g_aaaa_oovv Q.l2_abab Q.t2_aaaa Q.t2_abab Q.t2_abab),
    aug1 X.double_res (ein5 L.nmfe L.lkdc L.aeim L.fblk L.dcnj L.abij Q.g_abab_oovv Q.l2_abab Q.t2_abab Q.t2_abab Q.t2_abab),
    aug1 X.double_res (ein5 L.nmef L.lkcd L.eaim L.fblk L.cdnj L.abij Q.g_aaaa_oovv Q.l2_abab Q.t2_aaaa Q.t2_abab Q.t2_abab),
    aug1 X.double_res (ein5 L.nmfe L.lkcd L.aeim L.fblk L.cdnj L.abij Q.g_abab_oovv Q.l2_abab Q.t2_abab Q.t2_abab Q.t2_abab),
    aug1 X.double_res (ein5 L.mnef L.kldc L.eaim L.fbkl L.dcjn L.abij Q.g_abab_oovv Q.l2_bbbb Q.t2_aaaa Q.t2_bbbb Q.t2_bbbb),
    aug1 X.double_res (ein5 L.nmef L.kldc L.aeim L.fbkl L.dcjn L.abij Q.g_bbbb_oovv Q.l2_bbbb Q.t2_abab Q.t2_bbbb Q.t2_bbbb),
    aug1 X.double_res (ein5 L.mnfe L.kldc L.aemj L.fbil L.dckn L.abij Q.g_abab_oovv Q.l2_abab Q.t2_abab Q.t2_abab Q.t2_abab),
    aug1 X.double_res (ein5 L.mnfe L.klcd L.aemj L.fbil L.cdkn L.abij Q.g_abab_oovv Q.l2_abab Q.t2_abab Q.t2_abab Q.t2_abab),
    aug1 X.double_res (ein5 L.mnfe L.kldc L.aemj L.fbil L.dckn L.abij Q.g_abab_oovv Q.l2_bbbb Q.t2_abab Q.t2_abab Q.t2_bbbb),
    aug1 X.double_res (ein5 L.nmef L.kldc L.eaim L.fblj L.dckn L.abij Q.g_aaaa_oovv Q.l2_aaaa Q.t2_aaaa Q.t2_abab Q.t2_aaaa),
    aug1 X.double_res (ein5 L.nmfe L.kldc L.aeim L.fblj L.dckn L.abij Q.g_abab_oovv Q.l2_aaaa Q.t2_abab Q.t2_abab Q.t2_aaaa),
    aug1 X.double_res (ein5 L.mnef L.kldc L.eaim L.fbjl L.dckn L.abij Q.g_abab_oovv Q.l2_abab Q.t2_aaaa Q.t2_bbbb Q.t2_abab),
    aug1 X.double_res (ein5 L.nmef L.kldc L.aeim L.fbjl L.dckn L.abij Q.g_bbbb_oovv Q.l2_abab Q.t2_abab Q.t2_bbbb Q.t2_abab),
    aug1 X.double_res (ein5 L.mnef L.klcd L.eaim L.fbjl L.cdkn L.abij Q.g_abab_oovv Q.l2_abab Q.t2_aaaa Q.t2_bbbb Q.t2_abab),
    aug1 X.double_res (ein5 L.nmef L.klcd L.aeim L.fbjl L.cdkn L.abij Q.g_bbbb_oovv Q.l2_abab Q.t2_abab Q.t2_bbbb Q.t2_abab),
    aug1 X.double_res (ein5 L.nmef L.lkdc L.eaim L.fblj L.dcnk L.abij Q.g_aaaa_oovv Q.l2_abab Q.t2_aaaa Q.t2_abab Q.t2_abab),
    aug1 X.double_res (ein5 L.nmfe L.lkdc L.aeim L.fblj L.dcnk L.abij Q.g_abab_oovv Q.l2_abab Q.t2_abab Q.t2_abab Q.t2_abab),
    aug1 X.double_res (ein5 L.nmef L.lkcd L.eaim L.fblj L.cdnk L.abij Q.g_aaaa_oovv Q.l2_abab Q.t2_aaaa Q.t2_abab Q.t2_abab),
    aug1 X.double_res (ein5 L.nmfe L.lkcd L.aeim L.fblj L.cdnk L.abij Q.g_abab_oovv Q.l2_abab Q.t2_abab Q.t2_abab Q.t2_abab),
    aug1 X.double_res (ein5 L.mnef L.kldc L.eaim L.fbjl L.dckn L.abij Q.g_abab_oovv Q.l2_bbbb Q.t2_aaaa Q.t2_bbbb Q.t2_bbbb),
    aug1 X.double_res (ein5 L.nmef L.kldc L.aeim L.fbjl L.dckn L.abij Q.g_bbbb_oovv Q.l2_bbbb Q.t2_abab Q.t2_bbbb Q.t2_bbbb),
    aug1 X.double_res (ein5 L.nmef L.kldc L.eakl L.fbmj L.dcin L.abij Q.g_aaaa_oovv Q.l2_aaaa Q.t2_aaaa Q.t2_abab Q.t2_aaaa),
    aug1 X.double_res (ein5 L.nmef L.kldc L.eakl L.fbjm L.dcin L.abij Q.g_abab_oovv Q.l2_aaaa Q.t2_aaaa Q.t2_bbbb Q.t2_aaaa),
    aug1 X.double_res (ein5 L.mnfe L.kldc L.aekl L.fbmj L.dcin L.abij Q.g_abab_oovv Q.l2_abab Q.t2_abab Q.t2_abab Q.t2_abab),
    aug1 X.double_res (ein5 L.nmef L.kldc L.aekl L.fbjm L.dcin L.abij Q.g_bbbb_oovv Q.l2_abab Q.t2_abab Q.t2_bbbb Q.t2_abab),
    aug1 X.double_res (ein5 L.mnfe L.klcd L.aekl L.fbmj L.cdin L.abij Q.g_abab_oovv Q.l2_abab Q.t2_abab Q.t2_abab Q.t2_abab),
    aug1 X.double_res (ein5 L.nmef L.klcd L.aekl L.fbjm L.cdin L.abij Q.g_bbbb_oovv Q.l2_abab Q.t2_abab Q.t2_bbbb Q.t2_abab),
    aug1 X.double_res (ein5 L.mnfe L.lkdc L.aelk L.fbmj L.dcin L.abij Q.g_abab_oovv Q.l2_abab Q.t2_abab Q.t2_abab Q.t2_abab),
    aug1 X.double_res (ein5 L.nmef L.lkdc L.aelk L.fbjm L.dcin L.abij Q.g_bbbb_oovv Q.l2_abab Q.t2_abab Q.t2_bbbb Q.t2_abab),
    aug1 X.double_res (ein5 L.mnfe L.lkcd L.aelk L.fbmj L.cdin L.abij Q.g_abab_oovv Q.l2_abab Q.t2_abab Q.t2_abab Q.t2_abab),
    aug1 X.double_res (ein5 L.nmef L.lkcd L.aelk L.fbjm L.cdin L.abij Q.g_bbbb_oovv Q.l2_abab Q.t2_abab Q.t2_bbbb Q.t2_abab),
    aug1 X.double_res (ein5 L.nmfe L.kldc L.aekl L.fbim L.dcnj L.abij Q.g_abab_oovv Q.l2_abab Q.t2_abab Q.t2_abab Q.t2_abab),
    aug1 X.double_res (ein5 L.nmfe L.klcd L.aekl L.fbim L.cdnj L.abij Q.g_abab_oovv Q.l2_abab Q.t2_abab Q.t2_abab Q.t2_abab),
    aug1 X.double_res (ein5 L.nmfe L.lkdc L.aelk L.fbim L.dcnj L.abij Q.g_abab_oovv Q.l2_abab Q.t2_abab Q.t2_abab Q.t2_abab),
    aug1 X.double_res (ein5 L.nmfe L.lkcd L.aelk L.fbim L.cdnj L.abij Q.g_abab_oovv Q.l2_abab Q.t2_abab Q.t2_abab Q.t2_abab),
    aug1 X.double_res (ein5 L.nmef L.kldc L.eakl L.fbij L.dcnm L.abij Q.g_aaaa_oovv Q.l2_aaaa Q.t2_aaaa Q.t2_abab Q.t2_aaaa),
    aug1 X.double_res (ein5 L.nmfe L.kldc L.aekl L.fbij L.dcnm L.abij Q.g_abab_oovv Q.l2_abab Q.t2_abab Q.t2_abab Q.t2_abab),
    aug1 X.double_res (ein5 L.mnfe L.kldc L.aekl L.fbij L.dcmn L.abij Q.g_abab_oovv Q.l2_abab Q.t2_abab Q.t2_abab Q.t2_abab),
    aug1 X.double_res (ein5 L.nmfe L.klcd L.aekl L.fbij L.cdnm L.abij Q.g_abab_oovv Q.l2_abab Q.t2_abab Q.t2_abab Q.t2_abab),
    aug1 X.double_res (ein5 L.mnfe L.klcd L.aekl L.fbij L.cdmn L.abij Q.g_abab_oovv Q.l2_abab Q.t2_abab Q.t2_abab Q.t2_abab),
    aug1 X.double_res (ein5 L.nmfe L.lkdc L.aelk L.fbij L.dcnm L.abij Q.g_abab_oovv Q.l2_abab Q.t2_abab Q.t2_abab Q.t2_abab),
    aug1 X.double_res (ein5 L.mnfe L.lkdc L.aelk L.fbij L.dcmn L.abij Q.g_abab_oovv Q.l2_abab Q.t2_abab Q.t2_abab Q.t2_abab),
    aug1 X.double_res (ein5 L.nmfe L.lkcd L.aelk L.fbij L.cdnm L.abij Q.g_abab_oovv Q.l2_abab Q.t2_abab Q.t2_abab Q.t2_abab),
    aug1 X.double_res (ein5 L.mnfe L.lkcd L.aelk L.fbij L.cdmn L.abij Q.g_abab_oovv Q.l2_abab Q.t2_abab Q.t2_abab Q.t2_abab),
    aug1 X.double_res (ein5 L.nmfe L.kldc L.aelj L.fbkm L.dcin L.abij Q.g_abab_oovv Q.l2_aaaa Q.t2_abab Q.t2_abab Q.t2_aaaa),
    aug1 X.double_res (ein5 L.mnfe L.lkdc L.aelj L.fbmk L.dcin L.abij Q.g_abab_oovv Q.l2_abab Q.t2_abab Q.t2_abab Q.t2_abab),
    aug1 X.double_res (ein5 L.nmef L.lkdc L.aelj L.fbkm L.dcin L.abij Q.g_bbbb_oovv Q.l2_abab Q.t2_abab Q.t2_bbbb Q.t2_abab),
    aug1 X.double_res (ein5 L.mnfe L.lkcd L.aelj L.fbmk L.cdin L.abij Q.g_abab_oovv Q.l2_abab Q.t2_abab Q.t2_abab Q.t2_abab),
    aug1 X.double_res (ein5 L.nmef L.lkcd L.aelj L.fbkm L.cdin L.abij Q.g_bbbb_oovv Q.l2_abab Q.t2_abab Q.t2_bbbb Q.t2_abab),
    aug1 X.double_res (ein5 L.nmfe L.kldc L.aeil L.fbkm L.dcnj L.abij Q.g_abab_oovv Q.l2_abab Q.t2_abab Q.t2_abab Q.t2_abab),
    aug1 X.double_res (ein5 L.nmfe L.klcd L.aeil L.fbkm L.cdnj L.abij Q.g_abab_oovv Q.l2_abab Q.t2_abab Q.t2_abab Q.t2_abab),
    aug1 X.double_res (ein5 L.nmef L.lkdc L.eail L.fbmk L.dcnj L.abij Q.g_aaaa_oovv Q.l2_abab Q.t2_aaaa Q.t2_abab Q.t2_abab),
    aug1 X.double_res (ein5 L.nmef L.lkdc L.eail L.fbkm L.dcnj L.abij Q.g_abab_oovv Q.l2_abab Q.t2_aaaa Q.t2_bbbb Q.t2_abab),
    aug1 X.double_res (ein5 L.nmef L.lkcd L.eail L.fbmk L.cdnj L.abij Q.g_aaaa_oovv Q.l2_abab Q.t2_aaaa Q.t2_abab Q.t2_abab),
    aug1 X.double_res (ein5 L.nmef L.lkcd L.eail L.fbkm L.cdnj L.abij Q.g_abab_oovv Q.l2_abab Q.t2_aaaa Q.t2_bbbb Q.t2_abab),
    aug1 X.double_res (ein5 L.mnfe L.kldc L.aeil L.fbmk L.dcjn L.abij Q.g_abab_oovv Q.l2_bbbb Q.t2_abab Q.t2_abab Q.t2_bbbb),
    aug1 X.double_res (ein5 L.nmef L.kldc L.aeil L.fbkm L.dcjn L.abij Q.g_bbbb_oovv Q.l2_bbbb Q.t2_abab Q.t2_bbbb Q.t2_bbbb),
    aug1 X.double_res (ein5 L.nmfe L.kldc L.aelj L.fbim L.dckn L.abij Q.g_abab_oovv Q.l2_aaaa Q.t2_abab Q.t2_abab Q.t2_aaaa),
    aug1 X.double_res (ein5 L.nmfe L.lkdc L.aelj L.fbim L.dcnk L.abij Q.g_abab_oovv Q.l2_abab Q.t2_abab Q.t2_abab Q.t2_abab),
    aug1 X.double_res (ein5 L.nmfe L.lkcd L.aelj L.fbim L.cdnk L.abij Q.g_abab_oovv Q.l2_abab Q.t2_abab Q.t2_abab Q.t2_abab),
    aug1 X.double_res (ein5 L.nmef L.kldc L.eail L.fbmj L.dckn L.abij Q.g_aaaa_oovv Q.l2_aaaa Q.t2_aaaa Q.t2_abab Q.t2_aaaa),
    aug1 X.double_res (ein5 L.nmef L.kldc L.eail L.fbjm L.dckn L.abij Q.g_abab_oovv Q.l2_aaaa Q.t2_aaaa Q.t2_bbbb Q.t2_aaaa),
    aug1 X.double_res (ein5 L.mnfe L.kldc L.aeil L.fbmj L.dckn L.abij Q.g_abab_oovv Q.l2_abab Q.t2_abab Q.t2_abab Q.t2_abab),
    aug1 X.double_res (ein5 L.nmef L.kldc L.aeil L.fbjm L.dckn L.abij Q.g_bbbb_oovv Q.l2_abab Q.t2_abab Q.t2_bbbb Q.t2_abab),
    aug1 X.double_res (ein5 L.mnfe L.klcd L.aeil L.fbmj L.cdkn L.abij Q.g_abab_oovv Q.l2_abab Q.t2_abab Q.t2_abab Q.t2_abab),
    aug1 X.double_res (ein5 L.nmef L.klcd L.aeil L.fbjm L.cdkn L.abij Q.g_bbbb_oovv Q.l2_abab Q.t2_abab Q.t2_bbbb Q.t2_abab),
    aug1 X.double_res (ein5 L.nmef L.lkdc L.eail L.fbmj L.dcnk L.abij Q.g_aaaa_oovv Q.l2_abab Q.t2_aaaa Q.t2_abab Q.t2_abab),
    aug1 X.double_res (ein5 L.nmef L.lkdc L.eail L.fbjm L.dcnk L.abij Q.g_abab_oovv Q.l2_abab Q.t2_aaaa Q.t2_bbbb Q.t2_abab),
    aug1 X.double_res (ein5 L.nmef L.lkcd L.eail L.fbmj L.cdnk L.abij Q.g_aaaa_oovv Q.l2_abab Q.t2_aaaa Q.t2_abab Q.t2_abab),
    aug1 X.double_res (ein5 L.nmef L.lkcd L.eail L.fbjm L.cdnk L.abij Q.g_abab_oovv Q.l2_abab Q.t2_aaaa Q.t2_bbbb Q.t2_abab),
    aug1 X.double_res (ein5 L.mnfe L.kldc L.aeil L.fbmj L.dckn L.abij Q.g_abab_oovv Q.l2_bbbb Q.t2_abab Q.t2_abab Q.t2_bbbb),
    aug1 X.double_res (ein5 L.nmef L.kldc L.aeil L.fbjm L.dckn L.abij Q.g_bbbb_oovv Q.l2_bbbb Q.t2_abab Q.t2_bbbb Q.t2_bbbb),
    aug1 X.double_res (ein5 L.nmfe L.lkdc L.aelj L.fbik L.dcnm L.abij Q.g_abab_oovv Q.l2_abab Q.t2_abab Q.t2_abab Q.t2_abab),
    aug1 X.double_res (ein5 L.mnfe L.lkdc L.aelj L.fbik L.dcmn L.abij Q.g_abab_oovv Q.l2_abab Q.t2_abab Q.t2_abab Q.t2_abab),
    aug1 X.double_res (ein5 L.nmfe L.lkcd L.aelj L.fbik L.cdnm L.abij Q.g_abab_oovv Q.l2_abab Q.t2_abab Q.t2_abab Q.t2_abab),
    aug1 X.double_res (ein5 L.mnfe L.lkcd L.aelj L.fbik L.cdmn L.abij Q.g_abab_oovv Q.l2_abab Q.t2_abab Q.t2_abab Q.t2_abab),
    aug1 X.double_res (ein5 L.nmef L.kldc L.eail L.fbkj L.dcnm L.abij Q.g_aaaa_oovv Q.l2_aaaa Q.t2_aaaa Q.t2_abab Q.t2_aaaa),
    aug1 X.double_res (ein5 L.nmfe L.kldc L.aeil L.fbkj L.dcnm L.abij Q.g_abab_oovv Q.l2_abab Q.t2_abab Q.t2_abab Q.t2_abab),
    aug1 X.double_res (ein5 L.mnfe L.kldc L.aeil L.fbkj L.dcmn L.abij Q.g_abab_oovv Q.l2_abab Q.t2_abab Q.t2_abab Q.t2_abab),
    aug1 X.double_res (ein5 L.nmfe L.klcd L.aeil L.fbkj L.cdnm L.abij Q.g_abab_oovv Q.l2_abab Q.t2_abab Q.t2_abab Q.t2_abab),
    aug1 X.double_res (ein5 L.mnfe L.klcd L.aeil L.fbkj L.cdmn L.abij Q.g_abab_oovv Q.l2_abab Q.t2_abab Q.t2_abab Q.t2_abab),
    aug1 X.double_res (ein5 L.nmef L.lkdc L.eail L.fbjk L.dcnm L.abij Q.g_abab_oovv Q.l2_abab Q.t2_aaaa Q.t2_bbbb Q.t2_abab),
    aug1 X.double_res (ein5 L.mnef L.lkdc L.eail L.fbjk L.dcmn L.abij Q.g_abab_oovv Q.l2_abab Q.t2_aaaa Q.t2_bbbb Q.t2_abab),
    aug1 X.double_res (ein5 L.nmef L.lkcd L.eail L.fbjk L.cdnm L.abij Q.g_abab_oovv Q.l2_abab Q.t2_aaaa Q.t2_bbbb Q.t2_abab),
    aug1 X.double_res (ein5 L.mnef L.lkcd L.eail L.fbjk L.cdmn L.abij Q.g_abab_oovv Q.l2_abab Q.t2_aaaa Q.t2_bbbb Q.t2_abab),
    aug1 X.double_res (ein5 L.nmef L.kldc L.aeil L.fbjk L.dcnm L.abij Q.g_bbbb_oovv Q.l2_bbbb Q.t2_abab Q.t2_bbbb Q.t2_bbbb),
    aug1 X.double_res (ein5 L.nmfe L.kldc L.aekj L.dbim L.fcln L.abij Q.g_abab_oovv Q.l2_aaaa Q.t2_abab Q.t2_abab Q.t2_aaaa),
    aug1 X.double_res (ein5 L.nmef L.kldc L.aekj L.dbim L.cfln L.abij Q.g_bbbb_oovv Q.l2_aaaa Q.t2_abab Q.t2_abab Q.t2_abab),
    aug1 X.double_res (ein5 L.nmfe L.kldc L.aekj L.dbim L.fcnl L.abij Q.g_abab_oovv Q.l2_abab Q.t2_abab Q.t2_abab Q.t2_abab),
    aug1 X.double_res (ein5 L.nmef L.kldc L.aekj L.dbim L.fcln L.abij Q.g_bbbb_oovv Q.l2_abab Q.t2_abab Q.t2_abab Q.t2_bbbb),
    aug1 X.double_res (ein5 L.nmef L.kldc L.ebkj L.daim L.fcln L.abij Q.g_aaaa_oovv Q.l2_aaaa Q.t2_abab Q.t2_aaaa Q.t2_aaaa),
    aug1 X.double_res (ein5 L.mnef L.kldc L.ebkj L.daim L.cfln L.abij Q.g_abab_oovv Q.l2_aaaa Q.t2_abab Q.t2_aaaa Q.t2_abab),
    aug1 X.double_res (ein5 L.nmef L.kldc L.ebkj L.daim L.fcnl L.abij Q.g_aaaa_oovv Q.l2_abab Q.t2_abab Q.t2_aaaa Q.t2_abab),
    aug1 X.double_res (ein5 L.mnef L.kldc L.ebkj L.daim L.fcln L.abij Q.g_abab_oovv Q.l2_abab Q.t2_abab Q.t2_aaaa Q.t2_bbbb),
    aug1 X.double_res (ein5 L.nmef L.klcd L.ebkj L.adim L.cfnl L.abij Q.g_abab_oovv Q.l2_abab Q.t2_abab Q.t2_abab Q.t2_abab),
    aug1 X.double_res (ein5 L.mnfe L.lkdc L.ebjk L.daim L.fcln L.abij Q.g_abab_oovv Q.l2_abab Q.t2_bbbb Q.t2_aaaa Q.t2_abab),
    aug1 X.double_res (ein5 L.nmfe L.lkcd L.ebjk L.adim L.fcln L.abij Q.g_abab_oovv Q.l2_abab Q.t2_bbbb Q.t2_abab Q.t2_aaaa),
    aug1 X.double_res (ein5 L.nmef L.lkcd L.ebjk L.adim L.cfln L.abij Q.g_bbbb_oovv Q.l2_abab Q.t2_bbbb Q.t2_abab Q.t2_abab),
    aug1 X.double_res (ein5 L.nmfe L.kldc L.ebjk L.adim L.fcnl L.abij Q.g_abab_oovv Q.l2_bbbb Q.t2_bbbb Q.t2_abab Q.t2_abab),
    aug1 X.double_res (ein5 L.nmef L.kldc L.ebjk L.adim L.fcln L.abij Q.g_bbbb_oovv Q.l2_bbbb Q.t2_bbbb Q.t2_abab Q.t2_bbbb),
    aug1 X.double_res (ein5 L.nmef L.kldc L.eaik L.dbmj L.fcln L.abij Q.g_aaaa_oovv Q.l2_aaaa Q.t2_aaaa Q.t2_abab Q.t2_aaaa),
    aug1 X.double_res (ein5 L.mnef L.kldc L.eaik L.dbmj L.cfln L.abij Q.g_abab_oovv Q.l2_aaaa Q.t2_aaaa Q.t2_abab Q.t2_abab),
    aug1 X.double_res (ein5 L.nmef L.kldc L.eaik L.dbmj L.fcnl L.abij Q.g_aaaa_oovv Q.l2_abab Q.t2_aaaa Q.t2_abab Q.t2_abab),
    aug1 X.double_res (ein5 L.mnef L.kldc L.eaik L.dbmj L.fcln L.abij Q.g_abab_oovv Q.l2_abab Q.t2_aaaa Q.t2_abab Q.t2_bbbb),
    aug1 X.double_res (ein5 L.nmef L.klcd L.eaik L.dbjm L.cfnl L.abij Q.g_abab_oovv Q.l2_abab Q.t2_aaaa Q.t2_bbbb Q.t2_abab),
    aug1 X.double_res (ein5 L.mnfe L.lkdc L.aeik L.dbmj L.fcln L.abij Q.g_abab_oovv Q.l2_abab Q.t2_abab Q.t2_abab Q.t2_abab),
    aug1 X.double_res (ein5 L.nmfe L.lkcd L.aeik L.dbjm L.fcln L.abij Q.g_abab_oovv Q.l2_abab Q.t2_abab Q.t2_bbbb Q.t2_aaaa),
    aug1 X.double_res (ein5 L.nmef L.lkcd L.aeik L.dbjm L.cfln L.abij Q.g_bbbb_oovv Q.l2_abab Q.t2_abab Q.t2_bbbb Q.t2_abab),
    aug1 X.double_res (ein5 L.nmfe L.kldc L.aeik L.dbjm L.fcnl L.abij Q.g_abab_oovv Q.l2_bbbb Q.t2_abab Q.t2_bbbb Q.t2_abab),
    aug1 X.double_res (ein5 L.nmef L.kldc L.aeik L.dbjm L.fcln L.abij Q.g_bbbb_oovv Q.l2_bbbb Q.t2_abab Q.t2_bbbb Q.t2_bbbb),
    aug1 X.double_res (ein5 L.nmef L.lkcd L.ebik L.admj L.fcln L.abij Q.g_aaaa_oovv Q.l2_abab Q.t2_abab Q.t2_abab Q.t2_aaaa),
    aug1 X.double_res (ein5 L.mnef L.lkcd L.ebik L.admj L.cfln L.abij Q.g_abab_oovv Q.l2_abab Q.t2_abab Q.t2_abab Q.t2_abab),
    aug1 X.double_res (ein5 L.nmef L.kldc L.ebik L.admj L.fcnl L.abij Q.g_aaaa_oovv Q.l2_bbbb Q.t2_abab Q.t2_abab Q.t2_abab),
    aug1 X.double_res (ein5 L.mnef L.kldc L.ebik L.admj L.fcln L.abij Q.g_abab_oovv Q.l2_bbbb Q.t2_abab Q.t2_abab Q.t2_bbbb),
    aug1 X.double_res (ein5 L.nmfe L.kldc L.aeij L.fblm L.dckn L.abij Q.g_abab_oovv Q.l2_aaaa Q.t2_abab Q.t2_abab Q.t2_aaaa),
    aug1 X.double_res (ein5 L.mnfe L.kldc L.aeij L.fbml L.dckn L.abij Q.g_abab_oovv Q.l2_abab Q.t2_abab Q.t2_abab Q.t2_abab),
    aug1 X.double_res (ein5 L.nmef L.kldc L.aeij L.fblm L.dckn L.abij Q.g_bbbb_oovv Q.l2_abab Q.t2_abab Q.t2_bbbb Q.t2_abab),
    aug1 X.double_res (ein5 L.mnfe L.klcd L.aeij L.fbml L.cdkn L.abij Q.g_abab_oovv Q.l2_abab Q.t2_abab Q.t2_abab Q.t2_abab),
    aug1 X.double_res (ein5 L.nmef L.klcd L.aeij L.fblm L.cdkn L.abij Q.g_bbbb_oovv Q.l2_abab Q.t2_abab Q.t2_bbbb Q.t2_abab),
    aug1 X.double_res (ein5 L.nmfe L.lkdc L.aeij L.fblm L.dcnk L.abij Q.g_abab_oovv Q.l2_abab Q.t2_abab Q.t2_abab Q.t2_abab),
    aug1 X.double_res (ein5 L.nmfe L.lkcd L.aeij L.fblm L.cdnk L.abij Q.g_abab_oovv Q.l2_abab Q.t2_abab Q.t2_abab Q.t2_abab),
    aug1 X.double_res (ein5 L.mnfe L.kldc L.aeij L.fbml L.dckn L.abij Q.g_abab_oovv Q.l2_bbbb Q.t2_abab Q.t2_abab Q.t2_bbbb),
    aug1 X.double_res (ein5 L.nmef L.kldc L.aeij L.fblm L.dckn L.abij Q.g_bbbb_oovv Q.l2_bbbb Q.t2_abab Q.t2_bbbb Q.t2_bbbb),
    aug1 X.double_res (ein5 L.nmfe L.kldc L.aeij L.fbkl L.dcnm L.abij Q.g_abab_oovv Q.l2_abab Q.t2_abab Q.t2_abab Q.t2_abab),
    aug1 X.double_res (ein5 L.mnfe L.kldc L.aeij L.fbkl L.dcmn L.abij Q.g_abab_oovv Q.l2_abab Q.t2_abab Q.t2_abab Q.t2_abab),
    aug1 X.double_res (ein5 L.nmfe L.klcd L.aeij L.fbkl L.cdnm L.abij Q.g_abab_oovv Q.l2_abab Q.t2_abab Q.t2_abab Q.t2_abab),
    aug1 X.double_res (ein5 L.mnfe L.klcd L.aeij L.fbkl L.cdmn L.abij Q.g_abab_oovv Q.l2_abab Q.t2_abab Q.t2_abab Q.t2_abab),
    aug1 X.double_res (ein5 L.nmfe L.lkdc L.aeij L.fblk L.dcnm L.abij Q.g_abab_oovv Q.l2_abab Q.t2_abab Q.t2_abab Q.t2_abab),
    aug1 X.double_res (ein5 L.mnfe L.lkdc L.aeij L.fblk L.dcmn L.abij Q.g_abab_oovv Q.l2_abab Q.t2_abab Q.t2_abab Q.t2_abab),
    aug1 X.double_res (ein5 L.nmfe L.lkcd L.aeij L.fblk L.cdnm L.abij Q.g_abab_oovv Q.l2_abab Q.t2_abab Q.t2_abab Q.t2_abab),
    aug1 X.double_res (ein5 L.mnfe L.lkcd L.aeij L.fblk L.cdmn L.abij Q.g_abab_oovv Q.l2_abab Q.t2_abab Q.t2_abab Q.t2_abab),
    aug1 X.double_res (ein5 L.nmef L.kldc L.aeij L.fbkl L.dcnm L.abij Q.g_bbbb_oovv Q.l2_bbbb Q.t2_abab Q.t2_bbbb Q.t2_bbbb),
    aug1 X.double_res (ein5 L.nmef L.kldc L.ebkj L.dclm L.fain L.abij Q.g_aaaa_oovv Q.l2_aaaa Q.t2_abab Q.t2_aaaa Q.t2_aaaa),
    aug1 X.double_res (ein5 L.mnef L.kldc L.ebkj L.dclm L.afin L.abij Q.g_abab_oovv Q.l2_aaaa Q.t2_abab Q.t2_aaaa Q.t2_abab),
    aug1 X.double_res (ein5 L.nmef L.kldc L.ebkj L.dcml L.fain L.abij Q.g_aaaa_oovv Q.l2_abab Q.t2_abab Q.t2_abab Q.t2_aaaa),
    aug1 X.double_res (ein5 L.mnef L.kldc L.ebkj L.dcml L.afin L.abij Q.g_abab_oovv Q.l2_abab Q.t2_abab Q.t2_abab Q.t2_abab),
    aug1 X.double_res (ein5 L.nmef L.klcd L.ebkj L.cdml L.fain L.abij Q.g_aaaa_oovv Q.l2_abab Q.t2_abab Q.t2_abab Q.t2_aaaa),
    aug1 X.double_res (ein5 L.mnef L.klcd L.ebkj L.cdml L.afin L.abij Q.g_abab_oovv Q.l2_abab Q.t2_abab Q.t2_abab Q.t2_abab),
    aug1 X.double_res (ein5 L.nmfe L.lkdc L.ebjk L.dclm L.fain L.abij Q.g_abab_oovv Q.l2_abab Q.t2_bbbb Q.t2_abab Q.t2_aaaa),
    aug1 X.double_res (ein5 L.nmef L.lkdc L.ebjk L.dclm L.afin L.abij Q.g_bbbb_oovv Q.l2_abab Q.t2_bbbb Q.t2_abab Q.t2_abab),
    aug1 X.double_res (ein5 L.nmfe L.lkcd L.ebjk L.cdlm L.fain L.abij Q.g_abab_oovv Q.l2_abab Q.t2_bbbb Q.t2_abab Q.t2_aaaa),
    aug1 X.double_res (ein5 L.nmef L.lkcd L.ebjk L.cdlm L.afin L.abij Q.g_bbbb_oovv Q.l2_abab Q.t2_bbbb Q.t2_abab Q.t2_abab),
    aug1 X.double_res (ein5 L.nmfe L.kldc L.ebjk L.dclm L.fain L.abij Q.g_abab_oovv Q.l2_bbbb Q.t2_bbbb Q.t2_bbbb Q.t2_aaaa),
    aug1 X.double_res (ein5 L.nmef L.kldc L.ebjk L.dclm L.afin L.abij Q.g_bbbb_oovv Q.l2_bbbb Q.t2_bbbb Q.t2_bbbb Q.t2_abab),
    aug1 X.double_res (ein5 L.nmef L.lkdc L.ebik L.dclm L.afnj L.abij Q.g_abab_oovv Q.l2_abab Q.t2_abab Q.t2_abab Q.t2_abab),
    aug1 X.double_res (ein5 L.nmef L.lkcd L.ebik L.cdlm L.afnj L.abij Q.g_abab_oovv Q.l2_abab Q.t2_abab Q.t2_abab Q.t2_abab),
    aug1 X.double_res (ein5 L.nmef L.kldc L.ebik L.dclm L.afnj L.abij Q.g_abab_oovv Q.l2_bbbb Q.t2_abab Q.t2_bbbb Q.t2_abab),
    aug1 X.double_res (ein5 L.nmef L.kldc L.ebij L.dclm L.fakn L.abij Q.g_aaaa_oovv Q.l2_aaaa Q.t2_abab Q.t2_aaaa Q.t2_aaaa),
    aug1 X.double_res (ein5 L.mnef L.kldc L.ebij L.dclm L.afkn L.abij Q.g_abab_oovv Q.l2_aaaa Q.t2_abab Q.t2_aaaa Q.t2_abab),
    aug1 X.double_res (ein5 L.nmef L.kldc L.ebij L.dcml L.fakn L.abij Q.g_aaaa_oovv Q.l2_abab Q.t2_abab Q.t2_abab Q.t2_aaaa),
    aug1 X.double_res (ein5 L.mnef L.kldc L.ebij L.dcml L.afkn L.abij Q.g_abab_oovv Q.l2_abab Q.t2_abab Q.t2_abab Q.t2_abab),
    aug1 X.double_res (ein5 L.nmef L.klcd L.ebij L.cdml L.fakn L.abij Q.g_aaaa_oovv Q.l2_abab Q.t2_abab Q.t2_abab Q.t2_aaaa),
    aug1 X.double_res (ein5 L.mnef L.klcd L.ebij L.cdml L.afkn L.abij Q.g_abab_oovv Q.l2_abab Q.t2_abab Q.t2_abab Q.t2_abab),
    aug1 X.double_res (ein5 L.nmef L.lkdc L.ebij L.dclm L.afnk L.abij Q.g_abab_oovv Q.l2_abab Q.t2_abab Q.t2_abab Q.t2_abab),
    aug1 X.double_res (ein5 L.nmef L.lkcd L.ebij L.cdlm L.afnk L.abij Q.g_abab_oovv Q.l2_abab Q.t2_abab Q.t2_abab Q.t2_abab),
    aug1 X.double_res (ein5 L.nmef L.kldc L.ebij L.dclm L.afnk L.abij Q.g_abab_oovv Q.l2_bbbb Q.t2_abab Q.t2_bbbb Q.t2_abab),
    aug1 X.double_res (ein5 L.mnef L.klcd L.admj L.ebkn L.cfil L.abij Q.g_abab_oovv Q.l2_abab Q.t2_abab Q.t2_abab Q.t2_abab),
    aug1 X.double_res (ein5 L.nmef L.lkcd L.admj L.ebnk L.fcil L.abij Q.g_aaaa_oovv Q.l2_abab Q.t2_abab Q.t2_abab Q.t2_aaaa),
    aug1 X.double_res (ein5 L.mnfe L.lkcd L.admj L.ebkn L.fcil L.abij Q.g_abab_oovv Q.l2_abab Q.t2_abab Q.t2_bbbb Q.t2_aaaa),
    aug1 X.double_res (ein5 L.nmef L.kldc L.admj L.ebnk L.fcil L.abij Q.g_aaaa_oovv Q.l2_bbbb Q.t2_abab Q.t2_abab Q.t2_abab),
    aug1 X.double_res (ein5 L.mnfe L.kldc L.admj L.ebkn L.fcil L.abij Q.g_abab_oovv Q.l2_bbbb Q.t2_abab Q.t2_bbbb Q.t2_abab),
    aug1 X.double_res (ein5 L.nmef L.kldc L.dbmj L.eakn L.fcil L.abij Q.g_aaaa_oovv Q.l2_aaaa Q.t2_abab Q.t2_aaaa Q.t2_aaaa),
    aug1 X.double_res (ein5 L.mnfe L.kldc L.dbmj L.aekn L.fcil L.abij Q.g_abab_oovv Q.l2_aaaa Q.t2_abab Q.t2_abab Q.t2_aaaa),
    aug1 X.double_res (ein5 L.nmef L.kldc L.dbmj L.eakn L.fcil L.abij Q.g_aaaa_oovv Q.l2_abab Q.t2_abab Q.t2_aaaa Q.t2_abab),
    aug1 X.double_res (ein5 L.mnfe L.kldc L.dbmj L.aekn L.fcil L.abij Q.g_abab_oovv Q.l2_abab Q.t2_abab Q.t2_abab Q.t2_abab),
    aug1 X.double_res (ein5 L.nmef L.klcd L.dbjm L.eakn L.cfil L.abij Q.g_abab_oovv Q.l2_abab Q.t2_bbbb Q.t2_aaaa Q.t2_abab),
    aug1 X.double_res (ein5 L.nmef L.klcd L.dbjm L.aekn L.cfil L.abij Q.g_bbbb_oovv Q.l2_abab Q.t2_bbbb Q.t2_abab Q.t2_abab),
    aug1 X.double_res (ein5 L.nmfe L.lkcd L.dbjm L.aenk L.fcil L.abij Q.g_abab_oovv Q.l2_abab Q.t2_bbbb Q.t2_abab Q.t2_aaaa),
    aug1 X.double_res (ein5 L.nmfe L.kldc L.dbjm L.aenk L.fcil L.abij Q.g_abab_oovv Q.l2_bbbb Q.t2_bbbb Q.t2_abab Q.t2_abab),
    aug1 X.double_res (ein5 L.mnef L.kldc L.daim L.ebkn L.cflj L.abij Q.g_abab_oovv Q.l2_aaaa Q.t2_aaaa Q.t2_abab Q.t2_abab),
    aug1 X.double_res (ein5 L.mnef L.kldc L.daim L.ebkn L.fcjl L.abij Q.g_abab_oovv Q.l2_abab Q.t2_aaaa Q.t2_abab Q.t2_bbbb),
    aug1 X.double_res (ein5 L.nmef L.lkdc L.daim L.ebnk L.fclj L.abij Q.g_aaaa_oovv Q.l2_abab Q.t2_aaaa Q.t2_abab Q.t2_abab),
    aug1 X.double_res (ein5 L.mnfe L.lkdc L.daim L.ebkn L.fclj L.abij Q.g_abab_oovv Q.l2_abab Q.t2_aaaa Q.t2_bbbb Q.t2_abab),
    aug1 X.double_res (ein5 L.nmef L.lkcd L.adim L.ebnk L.cflj L.abij Q.g_abab_oovv Q.l2_abab Q.t2_abab Q.t2_abab Q.t2_abab),
    aug1 X.double_res (ein5 L.nmef L.lkcd L.adim L.ebkn L.cflj L.abij Q.g_bbbb_oovv Q.l2_abab Q.t2_abab Q.t2_bbbb Q.t2_abab),
    aug1 X.double_res (ein5 L.nmef L.kldc L.adim L.ebnk L.fcjl L.abij Q.g_abab_oovv Q.l2_bbbb Q.t2_abab Q.t2_abab Q.t2_bbbb),
    aug1 X.double_res (ein5 L.nmef L.kldc L.adim L.ebkn L.fcjl L.abij Q.g_bbbb_oovv Q.l2_bbbb Q.t2_abab Q.t2_bbbb Q.t2_bbbb),
    aug1 X.double_res (ein5 L.nmef L.kldc L.dbim L.eakn L.cflj L.abij Q.g_abab_oovv Q.l2_aaaa Q.t2_abab Q.t2_aaaa Q.t2_abab),
    aug1 X.double_res (ein5 L.nmef L.kldc L.dbim L.aekn L.cflj L.abij Q.g_bbbb_oovv Q.l2_aaaa Q.t2_abab Q.t2_abab Q.t2_abab),
    aug1 X.double_res (ein5 L.nmef L.kldc L.dbim L.eakn L.fcjl L.abij Q.g_abab_oovv Q.l2_abab Q.t2_abab Q.t2_aaaa Q.t2_bbbb),
    aug1 X.double_res (ein5 L.nmef L.kldc L.dbim L.aekn L.fcjl L.abij Q.g_bbbb_oovv Q.l2_abab Q.t2_abab Q.t2_abab Q.t2_bbbb),
    aug1 X.double_res (ein5 L.nmfe L.lkdc L.dbim L.aenk L.fclj L.abij Q.g_abab_oovv Q.l2_abab Q.t2_abab Q.t2_abab Q.t2_abab)]
  ret := [Q.double_res]

end Verif.Shape.Prog
