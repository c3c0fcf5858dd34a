import Verif.Shape.Names

/-!
# Shape programs of XCCDbasebuilder.py, xccd_resid.py (generated by tools/shapegen.py)

Every statement of the functions with the subscripts and operands as written; see `Verif.Shape.Core`.
-/

set_option maxRecDepth 100000

namespace Verif.Shape.Prog

open Verif.Shape

/-- `XCCDbasebuilder.py` 6-87: `build_XCCDbase` (variant `5`); 4 einsum calls. -/
def XCCDbasebuilder_build_XCCDbase_5 : Fn where
  params := [X.contractInfo_nocc, X.contractInfo_nvir, X.t2_aa, X.contractInfo_ints]
  body := [
    set1 X.nocc (.arg Q.contractInfo_nocc),
    set1 X.nvir (.arg Q.contractInfo_nvir),
    set1 X.t (.arg Q.t2_aa_t2301),
    set1 X.t2_dag (.arg Q.t),
    set1 X.g (.arg Q.contractInfo_ints),
    set1 X.Roooovvvv (.zeros [X.nocc, X.nocc, X.nocc, X.nocc, X.nvir, X.nvir, X.nvir, X.nvir]),
    set1 X.v_oo (.arg Q.g_oaoaoaoa),
    set1 X.v_vo (.arg Q.g_oavaoava),
    set1 X.v_vv (.arg Q.g_vavavava),
    set1 X.v_m2 (.arg Q.g_vavaoaoa),
    aug1 X.Roooovvvv (ein3 L.imab L.jncd L.klmn L.ijklabcd Q.t Q.t Q.v_oo),
    aug1 X.Roooovvvv (ein3 L.imab L.jkce L.lemd L.ijklabcd Q.t Q.t Q.v_vo),
    aug1 X.Roooovvvv (ein3 L.ijae L.klbf L.efcd L.ijklabcd Q.t Q.t Q.v_vv),
    set1 X.t4 (.call F.antisym_t4resids_antisym_t4_residual [Q.Roooovvvv, Q.nocc, Q.nvir]),
    set1 X.t4T (.arg Q.t4_t45670123),
    set1 X.resid_aaaa (ein2 L.klcd L.abcdijkl L.abij Q.t2_dag Q.t4T)]
  ret := [Q.resid_aaaa]

/-- `XCCDbasebuilder.py` 6-87: `build_XCCDbase` (variant `6`); 4 einsum calls. -/
def XCCDbasebuilder_build_XCCDbase_6 : Fn where
  params := [X.contractInfo_nocc, X.contractInfo_nvir, X.t2_aa, X.contractInfo_ints]
  body := [
    set1 X.nocc (.arg Q.contractInfo_nocc),
    set1 X.nvir (.arg Q.contractInfo_nvir),
    set1 X.t (.arg Q.t2_aa_t2301),
    set1 X.t2_dag (.arg Q.t),
    set1 X.g (.arg Q.contractInfo_ints),
    set1 X.Roooovvvv (.zeros [X.nocc, X.nocc, X.nocc, X.nocc, X.nvir, X.nvir, X.nvir, X.nvir]),
    set1 X.v_oo (.arg Q.g_oaoaoaoa),
    set1 X.v_vo (.arg Q.g_oavaoava),
    set1 X.v_vv (.arg Q.g_vavavava),
    set1 X.v_m2 (.arg Q.g_vavaoaoa),
    set1 X.Roooovvvv (ein4 L.imab L.jncd L.klef L.efmn L.ijklabcd Q.t Q.t Q.t Q.v_m2),
    aug1 X.Roooovvvv (ein4 L.imab L.jkce L.lndf L.efmn L.ijklabcd Q.t Q.t Q.t Q.v_m2),
    aug1 X.Roooovvvv (ein4 L.mnab L.ijce L.kldf L.efmn L.ijklabcd Q.t Q.t Q.t Q.v_m2),
    set1 X.t4 (.call F.antisym_t4resids_antisym_t4_residual [Q.Roooovvvv, Q.nocc, Q.nvir]),
    set1 X.t4 (.arg Q.t4_t45670123),
    set1 X.resid_aaaa (ein2 L.klcd L.abcdijkl L.abij Q.t2_dag Q.t4)]
  ret := [Q.resid_aaaa]

/-- `XCCDbasebuilder.py` 6-87: `build_XCCDbase` (variant `7`); 1 einsum calls. -/
def XCCDbasebuilder_build_XCCDbase_7 : Fn where
  params := [X.contractInfo_nocc, X.contractInfo_nvir, X.t2_aa, X.contractInfo_ints, X.pickle]
  body := [
    set1 X.nocc (.arg Q.contractInfo_nocc),
    set1 X.nvir (.arg Q.contractInfo_nvir),
    set1 X.t (.arg Q.t2_aa_t2301),
    set1 X.t2_dag (.arg Q.t),
    set1 X.g (.arg Q.contractInfo_ints),
    set1 X.Roooovvvv (.zeros [X.nocc, X.nocc, X.nocc, X.nocc, X.nvir, X.nvir, X.nvir, X.nvir]),
    set1 X.v_oo (.arg Q.g_oaoaoaoa),
    set1 X.v_vo (.arg Q.g_oavaoava),
    set1 X.v_vv (.arg Q.g_vavavava),
    set1 X.v_m2 (.arg Q.g_vavaoaoa),
    set1 X.t4 (.zeros [X.nocc, X.nocc, X.nocc, X.nocc, X.nvir, X.nvir, X.nvir, X.nvir]),
    set1 X.t4 (.arg Q.pickle),
    set1 X.Roooovvvv (.call F.XCCDbasebuilder_get_xcc7residual [Q.nocc, Q.nvir, Q.t4, Q.t, Q.t2_dag_t2301]),
    set1 X.t4 (.call F.antisym_t4resids_antisym_t4_residual [Q.Roooovvvv, Q.nocc, Q.nvir]),
    set1 X.t4 (.arg Q.t4_t45670123),
    set1 X.resid_aaaa (ein2 L.klcd L.abcdijkl L.abij Q.t2_dag Q.t4)]
  ret := [Q.resid_aaaa]

/-- `XCCDbasebuilder.py` 6-87: `build_XCCDbase` (variant `8`); 1 einsum calls. -/
def XCCDbasebuilder_build_XCCDbase_8 : Fn where
  params := [X.contractInfo_nocc, X.contractInfo_nvir, X.t2_aa, X.contractInfo_ints]
  body := [
    set1 X.nocc (.arg Q.contractInfo_nocc),
    set1 X.nvir (.arg Q.contractInfo_nvir),
    set1 X.t (.arg Q.t2_aa_t2301),
    set1 X.t2_dag (.arg Q.t),
    set1 X.g (.arg Q.contractInfo_ints),
    set1 X.Roooovvvv (.zeros [X.nocc, X.nocc, X.nocc, X.nocc, X.nvir, X.nvir, X.nvir, X.nvir]),
    set1 X.v_oo (.arg Q.g_oaoaoaoa),
    set1 X.v_vo (.arg Q.g_oavaoava),
    set1 X.v_vv (.arg Q.g_vavavava),
    set1 X.v_m2 (.arg Q.g_vavaoaoa),
    set1 X.t4 (.call F.XCCDbasebuilder_get_xcc8residual [Q.nocc, Q.nvir, Q.t, Q.t2_dag_t2301, Q.v_m2]),
    set1 X.t4 (.call F.antisym_t4resids_antisym_t4_residual [Q.t4, Q.nocc, Q.nvir]),
    set1 X.t4 (.arg Q.t4_t45670123),
    set1 X.resid_aaaa (ein2 L.klcd L.abcdijkl L.abij Q.t2_dag Q.t4)]
  ret := [Q.resid_aaaa]

/-- `XCCDbasebuilder.py` 6-87: `build_XCCDbase` (variant `9`); 1 einsum calls. -/
def XCCDbasebuilder_build_XCCDbase_9 : Fn where
  params := [X.contractInfo_nocc, X.contractInfo_nvir, X.t2_aa, X.contractInfo_ints, X.pickle]
  body := [
    set1 X.nocc (.arg Q.contractInfo_nocc),
    set1 X.nvir (.arg Q.contractInfo_nvir),
    set1 X.t (.arg Q.t2_aa_t2301),
    set1 X.t2_dag (.arg Q.t),
    set1 X.g (.arg Q.contractInfo_ints),
    set1 X.Roooovvvv (.zeros [X.nocc, X.nocc, X.nocc, X.nocc, X.nvir, X.nvir, X.nvir, X.nvir]),
    set1 X.v_oo (.arg Q.g_oaoaoaoa),
    set1 X.v_vo (.arg Q.g_oavaoava),
    set1 X.v_vv (.arg Q.g_vavavava),
    set1 X.v_m2 (.arg Q.g_vavaoaoa),
    set1 X.t4 (.zeros [X.nocc, X.nocc, X.nocc, X.nocc, X.nvir, X.nvir, X.nvir, X.nvir]),
    set1 X.t4 (.arg Q.pickle),
    set1 X.Roooovvvv (.call F.XCCDbasebuilder_get_xcc9residual [Q.nocc, Q.nvir, Q.t4, Q.t, Q.t2_dag_t2301]),
    set1 X.t4 (.call F.antisym_t4resids_antisym_t4_residual [Q.Roooovvvv, Q.nocc, Q.nvir]),
    set1 X.t4 (.arg Q.t4_t45670123),
    set1 X.resid_aaaa (ein2 L.klcd L.abcdijkl L.abij Q.t2_dag Q.t4)]
  ret := [Q.resid_aaaa]

/-- `XCCDbasebuilder.py` 90-110: `get_xcc7residual`; 7 einsum calls. -/
def XCCDbasebuilder_get_xcc7residual : Fn where
  params := [X.nocc, X.nvir, X.t4, X.t2, X.t_dag]
  body := [
    set1 X.roooovvvv (.zeros [X.nocc, X.nocc, X.nocc, X.nocc, X.nvir, X.nvir, X.nvir, X.nvir]),
    aug1 X.roooovvvv (ein3 L.imab L.jklncdef L.efmn L.ijklabcd Q.t2 Q.t4 Q.t_dag),
    aug1 X.roooovvvv (ein3 L.mnab L.ijklcdef L.efmn L.ijklabcd Q.t2 Q.t4 Q.t_dag),
    aug1 X.roooovvvv (ein3 L.ijae L.klmnbcdf L.efmn L.ijklabcd Q.t2 Q.t4 Q.t_dag),
    aug1 X.roooovvvv (ein3 L.imae L.jklnbcdf L.efmn L.ijklabcd Q.t2 Q.t4 Q.t_dag),
    aug1 X.roooovvvv (ein3 L.mnae L.ijklbcdf L.efmn L.ijklabcd Q.t2 Q.t4 Q.t_dag),
    aug1 X.roooovvvv (ein3 L.ijef L.klmnabcd L.efmn L.ijklabcd Q.t2 Q.t4 Q.t_dag),
    aug1 X.roooovvvv (ein3 L.imef L.jklnabcd L.efmn L.ijklabcd Q.t2 Q.t4 Q.t_dag)]
  ret := [Q.roooovvvv]

/-- `XCCDbasebuilder.py` 114-149: `get_xcc8residual`; 21 einsum calls. -/
def XCCDbasebuilder_get_xcc8residual : Fn where
  params := [X.nocc, X.nvir, X.t, X.t_dag, X.g]
  body := [
    set1 X.roooovvvv (.zeros [X.nocc, X.nocc, X.nocc, X.nocc, X.nvir, X.nvir, X.nvir, X.nvir]),
    aug1 X.roooovvvv (ein6 L.imab L.jncd L.klef L.ghop L.eogh L.fpmn L.ijklabcd Q.t Q.t Q.t Q.t Q.t_dag Q.g),
    aug1 X.roooovvvv (ein6 L.imab L.jncd L.kefg L.lhop L.foeh L.gpmn L.ijklabcd Q.t Q.t Q.t Q.t Q.t_dag Q.g),
    aug1 X.roooovvvv (ein6 L.imab L.ncde L.jkfg L.lhop L.fonh L.gpmc L.ijklabde Q.t Q.t Q.t Q.t Q.t_dag Q.g),
    aug1 X.roooovvvv (ein6 L.imab L.jkce L.lndf L.ghop L.opng L.efmh L.ijklabcd Q.t Q.t Q.t Q.t Q.t_dag Q.g),
    aug1 X.roooovvvv (ein6 L.imab L.jkce L.lndf L.ghop L.fogh L.epmn L.ijklabcd Q.t Q.t Q.t Q.t Q.t_dag Q.g),
    aug1 X.roooovvvv (ein6 L.imab L.jkce L.ndfg L.lhop L.opnd L.egmh L.ijklabcf Q.t Q.t Q.t Q.t Q.t_dag Q.g),
    aug1 X.roooovvvv (ein6 L.imab L.jkce L.ndfg L.lhop L.gonh L.epmd L.ijklabcf Q.t Q.t Q.t Q.t Q.t_dag Q.g),
    aug1 X.roooovvvv (ein6 L.imab L.jnce L.kdfg L.lhop L.opnd L.egmh L.ijklabcf Q.t Q.t Q.t Q.t Q.t_dag Q.g),
    aug1 X.roooovvvv (ein6 L.imab L.jnce L.kdfg L.lhop L.gonh L.epmd L.ijklabcf Q.t Q.t Q.t Q.t Q.t_dag Q.g),
    aug1 X.roooovvvv (ein6 L.imab L.jnce L.dfgh L.klop L.hond L.epmf L.ijklabcg Q.t Q.t Q.t Q.t Q.t_dag Q.g),
    aug1 X.roooovvvv (ein6 L.imab L.ncde L.jfgh L.klop L.honc L.epmf L.ijklabdg Q.t Q.t Q.t Q.t Q.t_dag Q.g),
    aug1 X.roooovvvv (ein6 L.mnab L.cdef L.ijgh L.klop L.gomc L.hpnd L.ijklabef Q.t Q.t Q.t Q.t Q.t_dag Q.g),
    aug1 X.roooovvvv (ein6 L.mnab L.ijce L.kldf L.ghop L.opmg L.efnh L.ijklabcd Q.t Q.t Q.t Q.t Q.t_dag Q.g),
    aug1 X.roooovvvv (ein6 L.mnab L.ijce L.kdfg L.lhop L.opmd L.egnh L.ijklabcf Q.t Q.t Q.t Q.t Q.t_dag Q.g),
    aug1 X.roooovvvv (ein6 L.mnab L.ijce L.kdfg L.lhop L.gomh L.epnd L.ijklabcf Q.t Q.t Q.t Q.t Q.t_dag Q.g),
    aug1 X.roooovvvv (ein6 L.mnab L.ijce L.dfgh L.klop L.homd L.epnf L.ijklabcg Q.t Q.t Q.t Q.t Q.t_dag Q.g),
    aug1 X.roooovvvv (ein6 L.mnab L.icde L.jfgh L.klop L.homc L.epnf L.ijklabdg Q.t Q.t Q.t Q.t Q.t_dag Q.g),
    aug1 X.roooovvvv (ein6 L.ijae L.klbf L.mncd L.ghop L.dpmg L.efnh L.ijklabco Q.t Q.t Q.t Q.t Q.t_dag Q.g),
    aug1 X.roooovvvv (ein6 L.ijae L.kmbf L.lncd L.ghop L.dpmg L.efnh L.ijklabco Q.t Q.t Q.t Q.t Q.t_dag Q.g),
    aug1 X.roooovvvv (ein6 L.ijae L.mnbf L.kcdg L.lhop L.gpmn L.efch L.ijklabdo Q.t Q.t Q.t Q.t Q.t_dag Q.g),
    aug1 X.roooovvvv (ein6 L.imae L.jnbf L.kcdg L.lhop L.gpmn L.efch L.ijklabdo Q.t Q.t Q.t Q.t Q.t_dag Q.g)]
  ret := [Q.roooovvvv]

/-- `XCCDbasebuilder.py` 151-290: `get_xcc9residual`; 126 einsum calls. -/
def XCCDbasebuilder_get_xcc9residual : Fn where
  params := [X.nocc, X.nvir, X.t4, X.t2, X.t_dag]
  body := [
    set1 X.roooovvvv (.zeros [X.nocc, X.nocc, X.nocc, X.nocc, X.nvir, X.nvir, X.nvir, X.nvir]),
    aug1 X.roooovvvv (ein5 L.imab L.jncd L.klefghop L.opef L.ghmn L.ijklabcd Q.t2 Q.t2 Q.t4 Q.t_dag Q.t_dag),
    aug1 X.roooovvvv (ein5 L.imab L.ncde L.jklfghop L.ghmn L.opcf L.ijklabde Q.t2 Q.t2 Q.t4 Q.t_dag Q.t_dag),
    aug1 X.roooovvvv (ein5 L.imab L.jkce L.lndfghop L.opdf L.ehmn L.ijklabcg Q.t2 Q.t2 Q.t4 Q.t_dag Q.t_dag),
    aug1 X.roooovvvv (ein5 L.imab L.jnce L.kldfghop L.opnf L.ehmd L.ijklabcg Q.t2 Q.t2 Q.t4 Q.t_dag Q.t_dag),
    aug1 X.roooovvvv (ein5 L.imab L.jnce L.kldfghop L.epdf L.homn L.ijklabcg Q.t2 Q.t2 Q.t4 Q.t_dag Q.t_dag),
    aug1 X.roooovvvv (ein5 L.imab L.jnce L.kldfghop L.opdf L.ehmn L.ijklabcg Q.t2 Q.t2 Q.t4 Q.t_dag Q.t_dag),
    aug1 X.roooovvvv (ein5 L.imab L.ncde L.jklfghop L.homn L.epcf L.ijklabdg Q.t2 Q.t2 Q.t4 Q.t_dag Q.t_dag),
    aug1 X.roooovvvv (ein5 L.imab L.ncde L.jklfghop L.opnc L.ehmf L.ijklabdg Q.t2 Q.t2 Q.t4 Q.t_dag Q.t_dag),
    aug1 X.roooovvvv (ein5 L.imab L.ncde L.jklfghop L.opcf L.ehmn L.ijklabdg Q.t2 Q.t2 Q.t4 Q.t_dag Q.t_dag),
    aug1 X.roooovvvv (ein5 L.imab L.jkef L.lncdghop L.fpcd L.eomn L.ijklabgh Q.t2 Q.t2 Q.t4 Q.t_dag Q.t_dag),
    aug1 X.roooovvvv (ein5 L.imab L.jkef L.lncdghop L.opcd L.efmn L.ijklabgh Q.t2 Q.t2 Q.t4 Q.t_dag Q.t_dag),
    aug1 X.roooovvvv (ein5 L.imab L.jnef L.klcdghop L.efmc L.opnd L.ijklabgh Q.t2 Q.t2 Q.t4 Q.t_dag Q.t_dag),
    aug1 X.roooovvvv (ein5 L.imab L.jnef L.klcdghop L.eomc L.fpnd L.ijklabgh Q.t2 Q.t2 Q.t4 Q.t_dag Q.t_dag),
    aug1 X.roooovvvv (ein5 L.imab L.jnef L.klcdghop L.efcd L.opmn L.ijklabgh Q.t2 Q.t2 Q.t4 Q.t_dag Q.t_dag),
    aug1 X.roooovvvv (ein5 L.imab L.jnef L.klcdghop L.fpcd L.eomn L.ijklabgh Q.t2 Q.t2 Q.t4 Q.t_dag Q.t_dag),
    aug1 X.roooovvvv (ein5 L.imab L.ncef L.jkldghop L.eomn L.fpcd L.ijklabgh Q.t2 Q.t2 Q.t4 Q.t_dag Q.t_dag),
    aug1 X.roooovvvv (ein5 L.imab L.ncef L.jkldghop L.opmn L.efcd L.ijklabgh Q.t2 Q.t2 Q.t4 Q.t_dag Q.t_dag),
    aug1 X.roooovvvv (ein5 L.imab L.ncef L.jkldghop L.fpnc L.eomd L.ijklabgh Q.t2 Q.t2 Q.t4 Q.t_dag Q.t_dag),
    aug1 X.roooovvvv (ein5 L.imab L.ncef L.jkldghop L.opnc L.efmd L.ijklabgh Q.t2 Q.t2 Q.t4 Q.t_dag Q.t_dag),
    aug1 X.roooovvvv (ein5 L.mnab L.cdef L.ijklghop L.ghmc L.opnd L.ijklabef Q.t2 Q.t2 Q.t4 Q.t_dag Q.t_dag),
    aug1 X.roooovvvv (ein5 L.mnab L.ijce L.kldfghop L.opnf L.ehmd L.ijklabcg Q.t2 Q.t2 Q.t4 Q.t_dag Q.t_dag),
    aug1 X.roooovvvv (ein5 L.mnab L.ijce L.kldfghop L.opdf L.ehmn L.ijklabcg Q.t2 Q.t2 Q.t4 Q.t_dag Q.t_dag),
    aug1 X.roooovvvv (ein5 L.mnab L.icde L.jklfghop L.ehmn L.opcf L.ijklabdg Q.t2 Q.t2 Q.t4 Q.t_dag Q.t_dag),
    aug1 X.roooovvvv (ein5 L.mnab L.icde L.jklfghop L.homc L.epnf L.ijklabdg Q.t2 Q.t2 Q.t4 Q.t_dag Q.t_dag),
    aug1 X.roooovvvv (ein5 L.mnab L.icde L.jklfghop L.opnf L.ehmc L.ijklabdg Q.t2 Q.t2 Q.t4 Q.t_dag Q.t_dag),
    aug1 X.roooovvvv (ein5 L.mnab L.cdef L.ijklghop L.opnd L.fhmc L.ijklabeg Q.t2 Q.t2 Q.t4 Q.t_dag Q.t_dag),
    aug1 X.roooovvvv (ein5 L.mnab L.cdef L.ijklghop L.opcd L.fhmn L.ijklabeg Q.t2 Q.t2 Q.t4 Q.t_dag Q.t_dag),
    aug1 X.roooovvvv (ein5 L.mnab L.ijef L.klcdghop L.eomn L.fpcd L.ijklabgh Q.t2 Q.t2 Q.t4 Q.t_dag Q.t_dag),
    aug1 X.roooovvvv (ein5 L.mnab L.ijef L.klcdghop L.efmc L.opnd L.ijklabgh Q.t2 Q.t2 Q.t4 Q.t_dag Q.t_dag),
    aug1 X.roooovvvv (ein5 L.mnab L.ijef L.klcdghop L.eomc L.fpnd L.ijklabgh Q.t2 Q.t2 Q.t4 Q.t_dag Q.t_dag),
    aug1 X.roooovvvv (ein5 L.mnab L.icef L.jkldghop L.eomn L.fpcd L.ijklabgh Q.t2 Q.t2 Q.t4 Q.t_dag Q.t_dag),
    aug1 X.roooovvvv (ein5 L.mnab L.icef L.jkldghop L.eomc L.fpnd L.ijklabgh Q.t2 Q.t2 Q.t4 Q.t_dag Q.t_dag),
    aug1 X.roooovvvv (ein5 L.mnab L.icef L.jkldghop L.opmc L.efnd L.ijklabgh Q.t2 Q.t2 Q.t4 Q.t_dag Q.t_dag),
    aug1 X.roooovvvv (ein5 L.mnab L.cdef L.ijklghop L.eomn L.fpcd L.ijklabgh Q.t2 Q.t2 Q.t4 Q.t_dag Q.t_dag),
    aug1 X.roooovvvv (ein5 L.mnab L.cdef L.ijklghop L.eomc L.fpnd L.ijklabgh Q.t2 Q.t2 Q.t4 Q.t_dag Q.t_dag),
    aug1 X.roooovvvv (ein5 L.mnab L.cdef L.ijklghop L.opmc L.efnd L.ijklabgh Q.t2 Q.t2 Q.t4 Q.t_dag Q.t_dag),
    aug1 X.roooovvvv (ein4 L.ijkmabcd L.lnefghop L.opef L.ghmn L.ijklabcd Q.t4 Q.t4 Q.t_dag Q.t_dag),
    aug1 X.roooovvvv (ein4 L.ijmnabcd L.klefghop L.ghmn L.opef L.ijklabcd Q.t4 Q.t4 Q.t_dag Q.t_dag),
    aug1 X.roooovvvv (ein4 L.ijmnabcd L.klefghop L.ghme L.opnf L.ijklabcd Q.t4 Q.t4 Q.t_dag Q.t_dag),
    aug1 X.roooovvvv (ein4 L.imnabcde L.jklfghop L.ghmn L.opaf L.ijklbcde Q.t4 Q.t4 Q.t_dag Q.t_dag),
    aug1 X.roooovvvv (ein4 L.mnabcdef L.ijklghop L.ghmn L.opab L.ijklcdef Q.t4 Q.t4 Q.t_dag Q.t_dag),
    aug1 X.roooovvvv (ein4 L.ijklabce L.mndfghop L.opdf L.ehmn L.ijklabcg Q.t4 Q.t4 Q.t_dag Q.t_dag),
    aug1 X.roooovvvv (ein4 L.ijkmabce L.lndfghop L.ehnd L.opmf L.ijklabcg Q.t4 Q.t4 Q.t_dag Q.t_dag),
    aug1 X.roooovvvv (ein4 L.ijkmabce L.lndfghop L.opdf L.ehmn L.ijklabcg Q.t4 Q.t4 Q.t_dag Q.t_dag),
    aug1 X.roooovvvv (ein4 L.ijmnabce L.kldfghop L.opmn L.ehdf L.ijklabcg Q.t4 Q.t4 Q.t_dag Q.t_dag),
    aug1 X.roooovvvv (ein4 L.ijmnabce L.kldfghop L.homd L.epnf L.ijklabcg Q.t4 Q.t4 Q.t_dag Q.t_dag),
    aug1 X.roooovvvv (ein4 L.ijmnabce L.kldfghop L.opdf L.ehmn L.ijklabcg Q.t4 Q.t4 Q.t_dag Q.t_dag),
    aug1 X.roooovvvv (ein4 L.imnabcde L.jklfghop L.ehmn L.opaf L.ijklbcdg Q.t4 Q.t4 Q.t_dag Q.t_dag),
    aug1 X.roooovvvv (ein4 L.imnabcde L.jklfghop L.homn L.epaf L.ijklbcdg Q.t4 Q.t4 Q.t_dag Q.t_dag),
    aug1 X.roooovvvv (ein4 L.mnabcdef L.ijklghop L.opab L.fhmn L.ijklcdeg Q.t4 Q.t4 Q.t_dag Q.t_dag),
    aug1 X.roooovvvv (ein4 L.ijklabef L.mncdghop L.efmn L.opcd L.ijklabgh Q.t4 Q.t4 Q.t_dag Q.t_dag),
    aug1 X.roooovvvv (ein4 L.ijklabef L.mncdghop L.eomn L.fpcd L.ijklabgh Q.t4 Q.t4 Q.t_dag Q.t_dag),
    aug1 X.roooovvvv (ein4 L.ijkmabef L.lncdghop L.efnc L.opmd L.ijklabgh Q.t4 Q.t4 Q.t_dag Q.t_dag),
    aug1 X.roooovvvv (ein4 L.ijkmabef L.lncdghop L.eonc L.fpmd L.ijklabgh Q.t4 Q.t4 Q.t_dag Q.t_dag),
    aug1 X.roooovvvv (ein4 L.ijkmabef L.lncdghop L.opcd L.efmn L.ijklabgh Q.t4 Q.t4 Q.t_dag Q.t_dag),
    aug1 X.roooovvvv (ein4 L.ijmnabef L.klcdghop L.efmc L.opnd L.ijklabgh Q.t4 Q.t4 Q.t_dag Q.t_dag),
    aug1 X.roooovvvv (ein4 L.ijmnabef L.klcdghop L.eomc L.fpnd L.ijklabgh Q.t4 Q.t4 Q.t_dag Q.t_dag),
    aug1 X.roooovvvv (ein4 L.ijmnabef L.klcdghop L.efcd L.opmn L.ijklabgh Q.t4 Q.t4 Q.t_dag Q.t_dag),
    aug1 X.roooovvvv (ein4 L.ijmnabef L.klcdghop L.eocd L.fpmn L.ijklabgh Q.t4 Q.t4 Q.t_dag Q.t_dag),
    aug1 X.roooovvvv (ein5 L.ijae L.klbf L.mncdghop L.opcd L.efmn L.ijklabgh Q.t2 Q.t2 Q.t4 Q.t_dag Q.t_dag),
    aug1 X.roooovvvv (ein5 L.ijae L.kmbf L.lncdghop L.efnc L.opmd L.ijklabgh Q.t2 Q.t2 Q.t4 Q.t_dag Q.t_dag),
    aug1 X.roooovvvv (ein5 L.ijae L.kmbf L.lncdghop L.fpcd L.eomn L.ijklabgh Q.t2 Q.t2 Q.t4 Q.t_dag Q.t_dag),
    aug1 X.roooovvvv (ein5 L.ijae L.kmbf L.lncdghop L.opcd L.efmn L.ijklabgh Q.t2 Q.t2 Q.t4 Q.t_dag Q.t_dag),
    aug1 X.roooovvvv (ein5 L.ijae L.mnbf L.klcdghop L.eomn L.fpcd L.ijklabgh Q.t2 Q.t2 Q.t4 Q.t_dag Q.t_dag),
    aug1 X.roooovvvv (ein5 L.ijae L.mnbf L.klcdghop L.opmn L.efcd L.ijklabgh Q.t2 Q.t2 Q.t4 Q.t_dag Q.t_dag),
    aug1 X.roooovvvv (ein5 L.ijae L.mnbf L.klcdghop L.eomc L.fpnd L.ijklabgh Q.t2 Q.t2 Q.t4 Q.t_dag Q.t_dag),
    aug1 X.roooovvvv (ein5 L.ijae L.mnbf L.klcdghop L.opnd L.efmc L.ijklabgh Q.t2 Q.t2 Q.t4 Q.t_dag Q.t_dag),
    aug1 X.roooovvvv (ein5 L.ijae L.klfb L.mncdghop L.efmn L.bpcd L.ijklagho Q.t2 Q.t2 Q.t4 Q.t_dag Q.t_dag),
    aug1 X.roooovvvv (ein5 L.ijae L.kmfb L.lncdghop L.efnc L.bpmd L.ijklagho Q.t2 Q.t2 Q.t4 Q.t_dag Q.t_dag),
    aug1 X.roooovvvv (ein5 L.ijae L.kmfb L.lncdghop L.fbcd L.epmn L.ijklagho Q.t2 Q.t2 Q.t4 Q.t_dag Q.t_dag),
    aug1 X.roooovvvv (ein5 L.ijae L.kmfb L.lncdghop L.bpcd L.efmn L.ijklagho Q.t2 Q.t2 Q.t4 Q.t_dag Q.t_dag),
    aug1 X.roooovvvv (ein5 L.ijae L.mnfb L.klcdghop L.efmc L.bpnd L.ijklagho Q.t2 Q.t2 Q.t4 Q.t_dag Q.t_dag),
    aug1 X.roooovvvv (ein5 L.ijae L.mnfb L.klcdghop L.fbnd L.epmc L.ijklagho Q.t2 Q.t2 Q.t4 Q.t_dag Q.t_dag),
    aug1 X.roooovvvv (ein5 L.ijae L.mnfb L.klcdghop L.efcd L.bpmn L.ijklagho Q.t2 Q.t2 Q.t4 Q.t_dag Q.t_dag),
    aug1 X.roooovvvv (ein5 L.ijae L.mnfb L.klcdghop L.fbcd L.epmn L.ijklagho Q.t2 Q.t2 Q.t4 Q.t_dag Q.t_dag),
    aug1 X.roooovvvv (ein5 L.imae L.jnbf L.klcdghop L.opmd L.efnc L.ijklabgh Q.t2 Q.t2 Q.t4 Q.t_dag Q.t_dag),
    aug1 X.roooovvvv (ein5 L.imae L.jnbf L.klcdghop L.eonc L.fpmd L.ijklabgh Q.t2 Q.t2 Q.t4 Q.t_dag Q.t_dag),
    aug1 X.roooovvvv (ein5 L.imae L.jnbf L.klcdghop L.efcd L.opmn L.ijklabgh Q.t2 Q.t2 Q.t4 Q.t_dag Q.t_dag),
    aug1 X.roooovvvv (ein5 L.imae L.jnbf L.klcdghop L.fpcd L.eomn L.ijklabgh Q.t2 Q.t2 Q.t4 Q.t_dag Q.t_dag),
    aug1 X.roooovvvv (ein5 L.imae L.nbcf L.jkldghop L.eomn L.fpbd L.ijklacgh Q.t2 Q.t2 Q.t4 Q.t_dag Q.t_dag),
    aug1 X.roooovvvv (ein5 L.imae L.nbcf L.jkldghop L.fomn L.epbd L.ijklacgh Q.t2 Q.t2 Q.t4 Q.t_dag Q.t_dag),
    aug1 X.roooovvvv (ein5 L.imae L.nbcf L.jkldghop L.opmn L.efbd L.ijklacgh Q.t2 Q.t2 Q.t4 Q.t_dag Q.t_dag),
    aug1 X.roooovvvv (ein5 L.imae L.nbcf L.jkldghop L.eonb L.fpmd L.ijklacgh Q.t2 Q.t2 Q.t4 Q.t_dag Q.t_dag),
    aug1 X.roooovvvv (ein5 L.imae L.nbcf L.jkldghop L.opnb L.efmd L.ijklacgh Q.t2 Q.t2 Q.t4 Q.t_dag Q.t_dag),
    aug1 X.roooovvvv (ein5 L.imae L.jkfb L.lncdghop L.ebcd L.fpmn L.ijklagho Q.t2 Q.t2 Q.t4 Q.t_dag Q.t_dag),
    aug1 X.roooovvvv (ein5 L.imae L.jkfb L.lncdghop L.epcd L.fbmn L.ijklagho Q.t2 Q.t2 Q.t4 Q.t_dag Q.t_dag),
    aug1 X.roooovvvv (ein5 L.imae L.jkfb L.lncdghop L.bpcd L.efmn L.ijklagho Q.t2 Q.t2 Q.t4 Q.t_dag Q.t_dag),
    aug1 X.roooovvvv (ein5 L.imae L.jnfb L.klcdghop L.efmc L.bpnd L.ijklagho Q.t2 Q.t2 Q.t4 Q.t_dag Q.t_dag),
    aug1 X.roooovvvv (ein5 L.imae L.jnfb L.klcdghop L.fbmc L.epnd L.ijklagho Q.t2 Q.t2 Q.t4 Q.t_dag Q.t_dag),
    aug1 X.roooovvvv (ein5 L.imae L.jnfb L.klcdghop L.efnc L.bpmd L.ijklagho Q.t2 Q.t2 Q.t4 Q.t_dag Q.t_dag),
    aug1 X.roooovvvv (ein5 L.imae L.jnfb L.klcdghop L.ebcd L.fpmn L.ijklagho Q.t2 Q.t2 Q.t4 Q.t_dag Q.t_dag),
    aug1 X.roooovvvv (ein5 L.imae L.jnfb L.klcdghop L.fbcd L.epmn L.ijklagho Q.t2 Q.t2 Q.t4 Q.t_dag Q.t_dag),
    aug1 X.roooovvvv (ein5 L.imae L.nbfc L.jkldghop L.fpmn L.ecbd L.ijklagho Q.t2 Q.t2 Q.t4 Q.t_dag Q.t_dag),
    aug1 X.roooovvvv (ein5 L.imae L.nbfc L.jkldghop L.fcmb L.epnd L.ijklagho Q.t2 Q.t2 Q.t4 Q.t_dag Q.t_dag),
    aug1 X.roooovvvv (ein5 L.imae L.nbfc L.jkldghop L.ecnb L.fpmd L.ijklagho Q.t2 Q.t2 Q.t4 Q.t_dag Q.t_dag),
    aug1 X.roooovvvv (ein5 L.imae L.nbfc L.jkldghop L.epnb L.fcmd L.ijklagho Q.t2 Q.t2 Q.t4 Q.t_dag Q.t_dag),
    aug1 X.roooovvvv (ein5 L.imae L.nbfc L.jkldghop L.cpnb L.efmd L.ijklagho Q.t2 Q.t2 Q.t4 Q.t_dag Q.t_dag),
    aug1 X.roooovvvv (ein5 L.imae L.nbfc L.jkldghop L.fcbd L.epmn L.ijklagho Q.t2 Q.t2 Q.t4 Q.t_dag Q.t_dag),
    aug1 X.roooovvvv (ein5 L.mnae L.bcdf L.ijklghop L.eomb L.fpnc L.ijkladgh Q.t2 Q.t2 Q.t4 Q.t_dag Q.t_dag),
    aug1 X.roooovvvv (ein5 L.mnae L.bcdf L.ijklghop L.opmb L.efnc L.ijkladgh Q.t2 Q.t2 Q.t4 Q.t_dag Q.t_dag),
    aug1 X.roooovvvv (ein5 L.mnae L.bcdf L.ijklghop L.eobc L.fpmn L.ijkladgh Q.t2 Q.t2 Q.t4 Q.t_dag Q.t_dag),
    aug1 X.roooovvvv (ein5 L.mnae L.ijfb L.klcdghop L.fpmn L.ebcd L.ijklagho Q.t2 Q.t2 Q.t4 Q.t_dag Q.t_dag),
    aug1 X.roooovvvv (ein5 L.mnae L.ijfb L.klcdghop L.efmc L.bpnd L.ijklagho Q.t2 Q.t2 Q.t4 Q.t_dag Q.t_dag),
    aug1 X.roooovvvv (ein5 L.mnae L.ijfb L.klcdghop L.fbmc L.epnd L.ijklagho Q.t2 Q.t2 Q.t4 Q.t_dag Q.t_dag),
    aug1 X.roooovvvv (ein5 L.mnae L.ibfc L.jkldghop L.fcmn L.epbd L.ijklagho Q.t2 Q.t2 Q.t4 Q.t_dag Q.t_dag),
    aug1 X.roooovvvv (ein5 L.mnae L.ibfc L.jkldghop L.fpmn L.ecbd L.ijklagho Q.t2 Q.t2 Q.t4 Q.t_dag Q.t_dag),
    aug1 X.roooovvvv (ein5 L.mnae L.ibfc L.jkldghop L.fpmb L.ecnd L.ijklagho Q.t2 Q.t2 Q.t4 Q.t_dag Q.t_dag),
    aug1 X.roooovvvv (ein5 L.mnae L.ibfc L.jkldghop L.fpmd L.ecnb L.ijklagho Q.t2 Q.t2 Q.t4 Q.t_dag Q.t_dag),
    aug1 X.roooovvvv (ein5 L.mnae L.ibfc L.jkldghop L.fcnd L.epmb L.ijklagho Q.t2 Q.t2 Q.t4 Q.t_dag Q.t_dag),
    aug1 X.roooovvvv (ein5 L.mnae L.bcfd L.ijklghop L.fdmn L.epbc L.ijklagho Q.t2 Q.t2 Q.t4 Q.t_dag Q.t_dag),
    aug1 X.roooovvvv (ein5 L.mnae L.bcfd L.ijklghop L.fpmn L.edbc L.ijklagho Q.t2 Q.t2 Q.t4 Q.t_dag Q.t_dag),
    aug1 X.roooovvvv (ein5 L.mnae L.bcfd L.ijklghop L.fpmb L.ednc L.ijklagho Q.t2 Q.t2 Q.t4 Q.t_dag Q.t_dag),
    aug1 X.roooovvvv (ein5 L.mnae L.bcfd L.ijklghop L.fdnc L.epmb L.ijklagho Q.t2 Q.t2 Q.t4 Q.t_dag Q.t_dag),
    aug1 X.roooovvvv (ein5 L.ijef L.klab L.mncdghop L.eamn L.fbcd L.ijklghop Q.t2 Q.t2 Q.t4 Q.t_dag Q.t_dag),
    aug1 X.roooovvvv (ein5 L.ijef L.kmab L.lncdghop L.fbcd L.eamn L.ijklghop Q.t2 Q.t2 Q.t4 Q.t_dag Q.t_dag),
    aug1 X.roooovvvv (ein5 L.ijef L.kmab L.lncdghop L.abcd L.efmn L.ijklghop Q.t2 Q.t2 Q.t4 Q.t_dag Q.t_dag),
    aug1 X.roooovvvv (ein5 L.ijef L.mnab L.klcdghop L.efmc L.abnd L.ijklghop Q.t2 Q.t2 Q.t4 Q.t_dag Q.t_dag),
    aug1 X.roooovvvv (ein5 L.ijef L.mnab L.klcdghop L.eamc L.fbnd L.ijklghop Q.t2 Q.t2 Q.t4 Q.t_dag Q.t_dag),
    aug1 X.roooovvvv (ein5 L.ijef L.mnab L.klcdghop L.eacd L.fbmn L.ijklghop Q.t2 Q.t2 Q.t4 Q.t_dag Q.t_dag),
    aug1 X.roooovvvv (ein5 L.imef L.jnab L.klcdghop L.efnc L.abmd L.ijklghop Q.t2 Q.t2 Q.t4 Q.t_dag Q.t_dag),
    aug1 X.roooovvvv (ein5 L.imef L.jnab L.klcdghop L.eanc L.fbmd L.ijklghop Q.t2 Q.t2 Q.t4 Q.t_dag Q.t_dag),
    aug1 X.roooovvvv (ein5 L.imef L.jnab L.klcdghop L.eacd L.fbmn L.ijklghop Q.t2 Q.t2 Q.t4 Q.t_dag Q.t_dag),
    aug1 X.roooovvvv (ein5 L.imef L.nabc L.jkldghop L.efna L.bcmd L.ijklghop Q.t2 Q.t2 Q.t4 Q.t_dag Q.t_dag),
    aug1 X.roooovvvv (ein5 L.imef L.nabc L.jkldghop L.fcna L.ebmd L.ijklghop Q.t2 Q.t2 Q.t4 Q.t_dag Q.t_dag),
    aug1 X.roooovvvv (ein5 L.imef L.nabc L.jkldghop L.efnd L.bcma L.ijklghop Q.t2 Q.t2 Q.t4 Q.t_dag Q.t_dag),
    aug1 X.roooovvvv (ein5 L.imef L.nabc L.jkldghop L.ebnd L.fcma L.ijklghop Q.t2 Q.t2 Q.t4 Q.t_dag Q.t_dag)]
  ret := [Q.roooovvvv]

/-- `xccd_resid.py` 5-213: `xccd_7`; 194 einsum calls. -/
def xccd_resid_xccd_7 : Fn where
  params := [X.t2_aa, X.g, X.nocc, X.nvir]
  body := [
    set1 X.t (.arg Q.t2_aa_t2301),
    set1 X.v_oo (.arg Q.g_oooo),
    set1 X.v_vo (.arg Q.g_ovov),
    set1 X.v_vv (.arg Q.g_vvvv),
    set1 X.v_m2 (.arg Q.g_vvoo),
    set1 X.t_dag (.arg Q.t2_aa),
    set1 X.roooovvvv (.zeros [X.nocc, X.nocc, X.nocc, X.nocc, X.nvir, X.nvir, X.nvir, X.nvir]),
    aug1 X.roooovvvv (ein5 L.ijab L.klcd L.mnef L.ghmn L.efgh L.ijklabcd Q.t Q.t Q.t Q.t_dag Q.v_vv),
    aug1 X.roooovvvv (ein5 L.ijab L.klcd L.mnef L.egmh L.hfng L.ijklabcd Q.t Q.t Q.t Q.t_dag Q.v_vo),
    aug1 X.roooovvvv (ein5 L.ijab L.klcd L.mnef L.efgh L.ghmn L.ijklabcd Q.t Q.t Q.t Q.t_dag Q.v_oo),
    aug1 X.roooovvvv (ein5 L.ijab L.kmcd L.lnef L.ghmn L.efgh L.ijklabcd Q.t Q.t Q.t Q.t_dag Q.v_vv),
    aug1 X.roooovvvv (ein5 L.ijab L.kmcd L.lnef L.egmh L.hfng L.ijklabcd Q.t Q.t Q.t Q.t_dag Q.v_vo),
    aug1 X.roooovvvv (ein5 L.ijab L.kmcd L.lnef L.egnh L.hfmg L.ijklabcd Q.t Q.t Q.t Q.t_dag Q.v_vo),
    aug1 X.roooovvvv (ein5 L.ijab L.kmcd L.lnef L.efgh L.ghmn L.ijklabcd Q.t Q.t Q.t Q.t_dag Q.v_oo),
    aug1 X.roooovvvv (ein5 L.ijab L.kmcd L.nefg L.fhmn L.lgeh L.ijklabcd Q.t Q.t Q.t Q.t_dag Q.v_vo),
    aug1 X.roooovvvv (ein5 L.ijab L.kmcd L.nefg L.fgmh L.lhne L.ijklabcd Q.t Q.t Q.t Q.t_dag Q.v_oo),
    aug1 X.roooovvvv (ein5 L.ijab L.kmcd L.nefg L.fhne L.lgmh L.ijklabcd Q.t Q.t Q.t Q.t_dag Q.v_vo),
    aug1 X.roooovvvv (ein5 L.ijab L.kmcd L.nefg L.fgnh L.lhme L.ijklabcd Q.t Q.t Q.t Q.t_dag Q.v_oo),
    aug1 X.roooovvvv (ein5 L.ijab L.mncd L.klef L.ghmn L.efgh L.ijklabcd Q.t Q.t Q.t Q.t_dag Q.v_vv),
    aug1 X.roooovvvv (ein5 L.ijab L.mncd L.klef L.egmh L.hfng L.ijklabcd Q.t Q.t Q.t Q.t_dag Q.v_vo),
    aug1 X.roooovvvv (ein5 L.ijab L.mncd L.klef L.efgh L.ghmn L.ijklabcd Q.t Q.t Q.t Q.t_dag Q.v_oo),
    aug1 X.roooovvvv (ein5 L.ijab L.mncd L.kefg L.fhmn L.lgeh L.ijklabcd Q.t Q.t Q.t Q.t_dag Q.v_vo),
    aug1 X.roooovvvv (ein5 L.ijab L.mncd L.kefg L.fhme L.lgnh L.ijklabcd Q.t Q.t Q.t Q.t_dag Q.v_vo),
    aug1 X.roooovvvv (ein5 L.ijab L.mncd L.kefg L.fgmh L.lhne L.ijklabcd Q.t Q.t Q.t Q.t_dag Q.v_oo),
    aug1 X.roooovvvv (ein5 L.ijab L.mncd L.kefg L.fgeh L.lhmn L.ijklabcd Q.t Q.t Q.t Q.t_dag Q.v_oo),
    aug1 X.roooovvvv (ein5 L.ijab L.mncd L.efgh L.ghmn L.klef L.ijklabcd Q.t Q.t Q.t Q.t_dag Q.v_oo),
    aug1 X.roooovvvv (ein5 L.ijab L.mncd L.efgh L.ghme L.klnf L.ijklabcd Q.t Q.t Q.t Q.t_dag Q.v_oo),
    aug1 X.roooovvvv (ein5 L.ijab L.mncd L.efgh L.ghef L.klmn L.ijklabcd Q.t Q.t Q.t Q.t_dag Q.v_oo),
    aug1 X.roooovvvv (ein5 L.ijab L.klce L.mndf L.ghmn L.efgh L.ijklabcd Q.t Q.t Q.t Q.t_dag Q.v_vv),
    aug1 X.roooovvvv (ein5 L.ijab L.klce L.mndf L.fgmh L.heng L.ijklabcd Q.t Q.t Q.t Q.t_dag Q.v_vo),
    aug1 X.roooovvvv (ein5 L.ijab L.klce L.mndf L.efgh L.ghmn L.ijklabcd Q.t Q.t Q.t Q.t_dag Q.v_oo),
    aug1 X.roooovvvv (ein5 L.ijab L.klce L.mnfd L.fgmn L.edhg L.ijklabch Q.t Q.t Q.t Q.t_dag Q.v_vv),
    aug1 X.roooovvvv (ein5 L.ijab L.klce L.mnfd L.efmg L.gdnh L.ijklabch Q.t Q.t Q.t Q.t_dag Q.v_vo),
    aug1 X.roooovvvv (ein5 L.ijab L.klce L.mnfd L.fdmg L.genh L.ijklabch Q.t Q.t Q.t Q.t_dag Q.v_vo),
    aug1 X.roooovvvv (ein5 L.ijab L.kmce L.lndf L.ghmn L.efgh L.ijklabcd Q.t Q.t Q.t Q.t_dag Q.v_vv),
    aug1 X.roooovvvv (ein5 L.ijab L.kmce L.lndf L.fgmh L.heng L.ijklabcd Q.t Q.t Q.t Q.t_dag Q.v_vo),
    aug1 X.roooovvvv (ein5 L.ijab L.kmce L.lndf L.fgnh L.hemg L.ijklabcd Q.t Q.t Q.t Q.t_dag Q.v_vo),
    aug1 X.roooovvvv (ein5 L.ijab L.kmce L.lndf L.efgh L.ghmn L.ijklabcd Q.t Q.t Q.t Q.t_dag Q.v_oo),
    aug1 X.roooovvvv (ein5 L.ijab L.kmce L.ndfg L.ghmn L.ledh L.ijklabcf Q.t Q.t Q.t Q.t_dag Q.v_vo),
    aug1 X.roooovvvv (ein5 L.ijab L.kmce L.ndfg L.ghnd L.lemh L.ijklabcf Q.t Q.t Q.t Q.t_dag Q.v_vo),
    aug1 X.roooovvvv (ein5 L.ijab L.kmce L.ndfg L.egnh L.lhmd L.ijklabcf Q.t Q.t Q.t Q.t_dag Q.v_oo),
    aug1 X.roooovvvv (ein5 L.ijab L.kmce L.lnfd L.fgmn L.edhg L.ijklabch Q.t Q.t Q.t Q.t_dag Q.v_vv),
    aug1 X.roooovvvv (ein5 L.ijab L.kmce L.lnfd L.efmg L.gdnh L.ijklabch Q.t Q.t Q.t Q.t_dag Q.v_vo),
    aug1 X.roooovvvv (ein5 L.ijab L.kmce L.lnfd L.fdmg L.genh L.ijklabch Q.t Q.t Q.t Q.t_dag Q.v_vo),
    aug1 X.roooovvvv (ein5 L.ijab L.kmce L.lnfd L.efng L.gdmh L.ijklabch Q.t Q.t Q.t Q.t_dag Q.v_vo),
    aug1 X.roooovvvv (ein5 L.ijab L.kmce L.lnfd L.fdng L.gemh L.ijklabch Q.t Q.t Q.t Q.t_dag Q.v_vo),
    aug1 X.roooovvvv (ein5 L.ijab L.kmce L.ndfg L.efmn L.lgdh L.ijklabch Q.t Q.t Q.t Q.t_dag Q.v_vo),
    aug1 X.roooovvvv (ein5 L.ijab L.kmce L.ndfg L.fgmn L.ledh L.ijklabch Q.t Q.t Q.t Q.t_dag Q.v_vo),
    aug1 X.roooovvvv (ein5 L.ijab L.kmce L.ndfg L.efnd L.lgmh L.ijklabch Q.t Q.t Q.t Q.t_dag Q.v_vo),
    aug1 X.roooovvvv (ein5 L.ijab L.kmce L.ndfg L.fgnd L.lemh L.ijklabch Q.t Q.t Q.t Q.t_dag Q.v_vo),
    aug1 X.roooovvvv (ein5 L.ijab L.mnce L.kldf L.fgmh L.heng L.ijklabcd Q.t Q.t Q.t Q.t_dag Q.v_vo),
    aug1 X.roooovvvv (ein5 L.ijab L.mnce L.kdfg L.ghmn L.ledh L.ijklabcf Q.t Q.t Q.t Q.t_dag Q.v_vo),
    aug1 X.roooovvvv (ein5 L.ijab L.mnce L.kdfg L.ghmd L.lenh L.ijklabcf Q.t Q.t Q.t Q.t_dag Q.v_vo),
    aug1 X.roooovvvv (ein5 L.ijab L.mnce L.kdfg L.egdh L.lhmn L.ijklabcf Q.t Q.t Q.t Q.t_dag Q.v_oo),
    aug1 X.roooovvvv (ein5 L.ijab L.mnce L.dfgh L.ehmd L.klnf L.ijklabcg Q.t Q.t Q.t Q.t_dag Q.v_oo),
    aug1 X.roooovvvv (ein5 L.ijab L.mnce L.dfgh L.ehdf L.klmn L.ijklabcg Q.t Q.t Q.t Q.t_dag Q.v_oo),
    aug1 X.roooovvvv (ein5 L.ijab L.mnce L.klfd L.fgmn L.edhg L.ijklabch Q.t Q.t Q.t Q.t_dag Q.v_vv),
    aug1 X.roooovvvv (ein5 L.ijab L.mnce L.klfd L.efmg L.gdnh L.ijklabch Q.t Q.t Q.t Q.t_dag Q.v_vo),
    aug1 X.roooovvvv (ein5 L.ijab L.mnce L.klfd L.fdmg L.genh L.ijklabch Q.t Q.t Q.t Q.t_dag Q.v_vo),
    aug1 X.roooovvvv (ein5 L.ijab L.mnce L.kdfg L.efmn L.lgdh L.ijklabch Q.t Q.t Q.t Q.t_dag Q.v_vo),
    aug1 X.roooovvvv (ein5 L.ijab L.mnce L.kdfg L.fgmn L.ledh L.ijklabch Q.t Q.t Q.t Q.t_dag Q.v_vo),
    aug1 X.roooovvvv (ein5 L.ijab L.mnce L.kdfg L.efmd L.lgnh L.ijklabch Q.t Q.t Q.t Q.t_dag Q.v_vo),
    aug1 X.roooovvvv (ein5 L.ijab L.mnce L.kdfg L.fgmd L.lenh L.ijklabch Q.t Q.t Q.t Q.t_dag Q.v_vo),
    aug1 X.roooovvvv (ein5 L.ijab L.klef L.mncd L.dgmn L.efhg L.ijklabch Q.t Q.t Q.t Q.t_dag Q.v_vv),
    aug1 X.roooovvvv (ein5 L.ijab L.klef L.mncd L.ecmn L.fdgh L.ijklabgh Q.t Q.t Q.t Q.t_dag Q.v_vv),
    aug1 X.roooovvvv (ein5 L.ijab L.klef L.mncd L.cdmn L.efgh L.ijklabgh Q.t Q.t Q.t Q.t_dag Q.v_vv),
    aug1 X.roooovvvv (ein5 L.ijab L.kmef L.lncd L.dgmn L.efhg L.ijklabch Q.t Q.t Q.t Q.t_dag Q.v_vv),
    aug1 X.roooovvvv (ein5 L.ijab L.kmef L.lncd L.ecmn L.fdgh L.ijklabgh Q.t Q.t Q.t Q.t_dag Q.v_vv),
    aug1 X.roooovvvv (ein5 L.ijab L.kmef L.lncd L.cdmn L.efgh L.ijklabgh Q.t Q.t Q.t Q.t_dag Q.v_vv),
    aug1 X.roooovvvv (ein5 L.ijab L.mnef L.klcd L.dgmn L.efhg L.ijklabch Q.t Q.t Q.t Q.t_dag Q.v_vv),
    aug1 X.roooovvvv (ein5 L.ijab L.mnef L.klcd L.cdmn L.efgh L.ijklabgh Q.t Q.t Q.t Q.t_dag Q.v_vv),
    aug1 X.roooovvvv (ein5 L.imab L.jncd L.klef L.ghmn L.efgh L.ijklabcd Q.t Q.t Q.t Q.t_dag Q.v_vv),
    aug1 X.roooovvvv (ein5 L.imab L.jncd L.klef L.egnh L.hfmg L.ijklabcd Q.t Q.t Q.t Q.t_dag Q.v_vo),
    aug1 X.roooovvvv (ein5 L.imab L.jncd L.klef L.efgh L.ghmn L.ijklabcd Q.t Q.t Q.t Q.t_dag Q.v_oo),
    aug1 X.roooovvvv (ein5 L.imab L.jncd L.kefg L.fhmn L.lgeh L.ijklabcd Q.t Q.t Q.t Q.t_dag Q.v_vo),
    aug1 X.roooovvvv (ein5 L.imab L.jncd L.kefg L.fhne L.lgmh L.ijklabcd Q.t Q.t Q.t Q.t_dag Q.v_vo),
    aug1 X.roooovvvv (ein5 L.imab L.jncd L.kefg L.fgnh L.lhme L.ijklabcd Q.t Q.t Q.t Q.t_dag Q.v_oo),
    aug1 X.roooovvvv (ein5 L.imab L.jncd L.kefg L.fgeh L.lhmn L.ijklabcd Q.t Q.t Q.t Q.t_dag Q.v_oo),
    aug1 X.roooovvvv (ein5 L.imab L.jncd L.efgh L.ghmn L.klef L.ijklabcd Q.t Q.t Q.t Q.t_dag Q.v_oo),
    aug1 X.roooovvvv (ein5 L.imab L.jncd L.efgh L.ghne L.klmf L.ijklabcd Q.t Q.t Q.t Q.t_dag Q.v_oo),
    aug1 X.roooovvvv (ein5 L.imab L.jncd L.efgh L.ghef L.klmn L.ijklabcd Q.t Q.t Q.t Q.t_dag Q.v_oo),
    aug1 X.roooovvvv (ein5 L.imab L.ncde L.jkfg L.fhmn L.lgch L.ijklabde Q.t Q.t Q.t Q.t_dag Q.v_vo),
    aug1 X.roooovvvv (ein5 L.imab L.ncde L.jkfg L.fhnc L.lgmh L.ijklabde Q.t Q.t Q.t Q.t_dag Q.v_vo),
    aug1 X.roooovvvv (ein5 L.imab L.ncde L.jkfg L.fgnh L.lhmc L.ijklabde Q.t Q.t Q.t Q.t_dag Q.v_oo),
    aug1 X.roooovvvv (ein5 L.imab L.ncde L.jfgh L.ghmn L.klcf L.ijklabde Q.t Q.t Q.t Q.t_dag Q.v_oo),
    aug1 X.roooovvvv (ein5 L.imab L.ncde L.jfgh L.ghnc L.klmf L.ijklabde Q.t Q.t Q.t Q.t_dag Q.v_oo),
    aug1 X.roooovvvv (ein5 L.imab L.ncde L.jfgh L.ghnf L.klmc L.ijklabde Q.t Q.t Q.t Q.t_dag Q.v_oo),
    aug1 X.roooovvvv (ein5 L.imab L.jkce L.lndf L.ghmn L.efgh L.ijklabcd Q.t Q.t Q.t Q.t_dag Q.v_vv),
    aug1 X.roooovvvv (ein5 L.imab L.jkce L.lndf L.fgmh L.heng L.ijklabcd Q.t Q.t Q.t Q.t_dag Q.v_vo),
    aug1 X.roooovvvv (ein5 L.imab L.jkce L.lndf L.fgnh L.hemg L.ijklabcd Q.t Q.t Q.t Q.t_dag Q.v_vo),
    aug1 X.roooovvvv (ein5 L.imab L.jkce L.lndf L.efgh L.ghmn L.ijklabcd Q.t Q.t Q.t Q.t_dag Q.v_oo),
    aug1 X.roooovvvv (ein5 L.imab L.jkce L.ndfg L.ghmn L.ledh L.ijklabcf Q.t Q.t Q.t Q.t_dag Q.v_vo),
    aug1 X.roooovvvv (ein5 L.imab L.jkce L.ndfg L.egmh L.lhnd L.ijklabcf Q.t Q.t Q.t Q.t_dag Q.v_oo),
    aug1 X.roooovvvv (ein5 L.imab L.jkce L.ndfg L.ghnd L.lemh L.ijklabcf Q.t Q.t Q.t Q.t_dag Q.v_vo),
    aug1 X.roooovvvv (ein5 L.imab L.jkce L.ndfg L.egnh L.lhmd L.ijklabcf Q.t Q.t Q.t Q.t_dag Q.v_oo),
    aug1 X.roooovvvv (ein5 L.imab L.jkce L.lnfd L.fgmn L.edhg L.ijklabch Q.t Q.t Q.t Q.t_dag Q.v_vv),
    aug1 X.roooovvvv (ein5 L.imab L.jkce L.lnfd L.efmg L.gdnh L.ijklabch Q.t Q.t Q.t Q.t_dag Q.v_vo),
    aug1 X.roooovvvv (ein5 L.imab L.jkce L.lnfd L.fdmg L.genh L.ijklabch Q.t Q.t Q.t Q.t_dag Q.v_vo),
    aug1 X.roooovvvv (ein5 L.imab L.jkce L.lnfd L.efng L.gdmh L.ijklabch Q.t Q.t Q.t Q.t_dag Q.v_vo),
    aug1 X.roooovvvv (ein5 L.imab L.jkce L.lnfd L.fdng L.gemh L.ijklabch Q.t Q.t Q.t Q.t_dag Q.v_vo),
    aug1 X.roooovvvv (ein5 L.imab L.jkce L.ndfg L.efmn L.lgdh L.ijklabch Q.t Q.t Q.t Q.t_dag Q.v_vo),
    aug1 X.roooovvvv (ein5 L.imab L.jkce L.ndfg L.fgmn L.ledh L.ijklabch Q.t Q.t Q.t Q.t_dag Q.v_vo),
    aug1 X.roooovvvv (ein5 L.imab L.jkce L.ndfg L.efnd L.lgmh L.ijklabch Q.t Q.t Q.t Q.t_dag Q.v_vo),
    aug1 X.roooovvvv (ein5 L.imab L.jkce L.ndfg L.fgnd L.lemh L.ijklabch Q.t Q.t Q.t Q.t_dag Q.v_vo),
    aug1 X.roooovvvv (ein5 L.imab L.jnce L.kldf L.fgmh L.heng L.ijklabcd Q.t Q.t Q.t Q.t_dag Q.v_vo),
    aug1 X.roooovvvv (ein5 L.imab L.jnce L.kldf L.fgnh L.hemg L.ijklabcd Q.t Q.t Q.t Q.t_dag Q.v_vo),
    aug1 X.roooovvvv (ein5 L.imab L.jnce L.kdfg L.ghmn L.ledh L.ijklabcf Q.t Q.t Q.t Q.t_dag Q.v_vo),
    aug1 X.roooovvvv (ein5 L.imab L.jnce L.kdfg L.ghmd L.lenh L.ijklabcf Q.t Q.t Q.t Q.t_dag Q.v_vo),
    aug1 X.roooovvvv (ein5 L.imab L.jnce L.kdfg L.egmh L.lhnd L.ijklabcf Q.t Q.t Q.t Q.t_dag Q.v_oo),
    aug1 X.roooovvvv (ein5 L.imab L.jnce L.kdfg L.ghnd L.lemh L.ijklabcf Q.t Q.t Q.t Q.t_dag Q.v_vo),
    aug1 X.roooovvvv (ein5 L.imab L.jnce L.kdfg L.egdh L.lhmn L.ijklabcf Q.t Q.t Q.t Q.t_dag Q.v_oo),
    aug1 X.roooovvvv (ein5 L.imab L.jnce L.dfgh L.ehmd L.klnf L.ijklabcg Q.t Q.t Q.t Q.t_dag Q.v_oo),
    aug1 X.roooovvvv (ein5 L.imab L.jnce L.dfgh L.ehnd L.klmf L.ijklabcg Q.t Q.t Q.t Q.t_dag Q.v_oo),
    aug1 X.roooovvvv (ein5 L.imab L.jnce L.dfgh L.ehdf L.klmn L.ijklabcg Q.t Q.t Q.t Q.t_dag Q.v_oo),
    aug1 X.roooovvvv (ein5 L.imab L.jnce L.klfd L.fgmn L.edhg L.ijklabch Q.t Q.t Q.t Q.t_dag Q.v_vv),
    aug1 X.roooovvvv (ein5 L.imab L.jnce L.klfd L.efmg L.gdnh L.ijklabch Q.t Q.t Q.t Q.t_dag Q.v_vo),
    aug1 X.roooovvvv (ein5 L.imab L.jnce L.klfd L.fdmg L.genh L.ijklabch Q.t Q.t Q.t Q.t_dag Q.v_vo),
    aug1 X.roooovvvv (ein5 L.imab L.jnce L.klfd L.efng L.gdmh L.ijklabch Q.t Q.t Q.t Q.t_dag Q.v_vo),
    aug1 X.roooovvvv (ein5 L.imab L.jnce L.klfd L.fdng L.gemh L.ijklabch Q.t Q.t Q.t Q.t_dag Q.v_vo),
    aug1 X.roooovvvv (ein5 L.imab L.jnce L.kdfg L.efmn L.lgdh L.ijklabch Q.t Q.t Q.t Q.t_dag Q.v_vo),
    aug1 X.roooovvvv (ein5 L.imab L.jnce L.kdfg L.fgmn L.ledh L.ijklabch Q.t Q.t Q.t Q.t_dag Q.v_vo),
    aug1 X.roooovvvv (ein5 L.imab L.jnce L.kdfg L.efmd L.lgnh L.ijklabch Q.t Q.t Q.t Q.t_dag Q.v_vo),
    aug1 X.roooovvvv (ein5 L.imab L.jnce L.kdfg L.fgmd L.lenh L.ijklabch Q.t Q.t Q.t Q.t_dag Q.v_vo),
    aug1 X.roooovvvv (ein5 L.imab L.jnce L.kdfg L.efnd L.lgmh L.ijklabch Q.t Q.t Q.t Q.t_dag Q.v_vo),
    aug1 X.roooovvvv (ein5 L.imab L.jnce L.kdfg L.fgnd L.lemh L.ijklabch Q.t Q.t Q.t Q.t_dag Q.v_vo),
    aug1 X.roooovvvv (ein5 L.imab L.ncde L.jkfg L.ghmn L.lech L.ijklabdf Q.t Q.t Q.t Q.t_dag Q.v_vo),
    aug1 X.roooovvvv (ein5 L.imab L.ncde L.jkfg L.ghnc L.lemh L.ijklabdf Q.t Q.t Q.t Q.t_dag Q.v_vo),
    aug1 X.roooovvvv (ein5 L.imab L.ncde L.jfgh L.ehmf L.klnc L.ijklabdg Q.t Q.t Q.t Q.t_dag Q.v_oo),
    aug1 X.roooovvvv (ein5 L.imab L.ncde L.jkfg L.efmn L.lgch L.ijklabdh Q.t Q.t Q.t Q.t_dag Q.v_vo),
    aug1 X.roooovvvv (ein5 L.imab L.ncde L.jkfg L.fgmn L.lech L.ijklabdh Q.t Q.t Q.t Q.t_dag Q.v_vo),
    aug1 X.roooovvvv (ein5 L.imab L.ncde L.jkfg L.efnc L.lgmh L.ijklabdh Q.t Q.t Q.t Q.t_dag Q.v_vo),
    aug1 X.roooovvvv (ein5 L.imab L.ncde L.jkfg L.fgnc L.lemh L.ijklabdh Q.t Q.t Q.t Q.t_dag Q.v_vo),
    aug1 X.roooovvvv (ein5 L.imab L.jkef L.lncd L.dgmn L.efhg L.ijklabch Q.t Q.t Q.t Q.t_dag Q.v_vv),
    aug1 X.roooovvvv (ein5 L.imab L.jkef L.lncd L.ecmn L.fdgh L.ijklabgh Q.t Q.t Q.t Q.t_dag Q.v_vv),
    aug1 X.roooovvvv (ein5 L.imab L.jkef L.lncd L.cdmn L.efgh L.ijklabgh Q.t Q.t Q.t Q.t_dag Q.v_vv),
    aug1 X.roooovvvv (ein5 L.imab L.jnef L.klcd L.dgmn L.efhg L.ijklabch Q.t Q.t Q.t Q.t_dag Q.v_vv),
    aug1 X.roooovvvv (ein5 L.imab L.jnef L.klcd L.cdmn L.efgh L.ijklabgh Q.t Q.t Q.t Q.t_dag Q.v_vv),
    aug1 X.roooovvvv (ein5 L.mnab L.icde L.jkfg L.fgch L.lhmn L.ijklabde Q.t Q.t Q.t Q.t_dag Q.v_oo),
    aug1 X.roooovvvv (ein5 L.mnab L.icde L.jfgh L.ghcf L.klmn L.ijklabde Q.t Q.t Q.t Q.t_dag Q.v_oo),
    aug1 X.roooovvvv (ein5 L.mnab L.cdef L.ijgh L.ghmc L.klnd L.ijklabef Q.t Q.t Q.t Q.t_dag Q.v_oo),
    aug1 X.roooovvvv (ein5 L.mnab L.cdef L.ijgh L.ghcd L.klmn L.ijklabef Q.t Q.t Q.t Q.t_dag Q.v_oo),
    aug1 X.roooovvvv (ein5 L.mnab L.ijce L.kldf L.ghmn L.efgh L.ijklabcd Q.t Q.t Q.t Q.t_dag Q.v_vv),
    aug1 X.roooovvvv (ein5 L.mnab L.ijce L.kldf L.fgmh L.heng L.ijklabcd Q.t Q.t Q.t Q.t_dag Q.v_vo),
    aug1 X.roooovvvv (ein5 L.mnab L.ijce L.kldf L.efgh L.ghmn L.ijklabcd Q.t Q.t Q.t Q.t_dag Q.v_oo),
    aug1 X.roooovvvv (ein5 L.mnab L.ijce L.kdfg L.ghmn L.ledh L.ijklabcf Q.t Q.t Q.t Q.t_dag Q.v_vo),
    aug1 X.roooovvvv (ein5 L.mnab L.ijce L.kdfg L.ghmd L.lenh L.ijklabcf Q.t Q.t Q.t Q.t_dag Q.v_vo),
    aug1 X.roooovvvv (ein5 L.mnab L.ijce L.kdfg L.egmh L.lhnd L.ijklabcf Q.t Q.t Q.t Q.t_dag Q.v_oo),
    aug1 X.roooovvvv (ein5 L.mnab L.ijce L.kdfg L.egdh L.lhmn L.ijklabcf Q.t Q.t Q.t Q.t_dag Q.v_oo),
    aug1 X.roooovvvv (ein5 L.mnab L.ijce L.dfgh L.ehmn L.kldf L.ijklabcg Q.t Q.t Q.t Q.t_dag Q.v_oo),
    aug1 X.roooovvvv (ein5 L.mnab L.ijce L.dfgh L.ehmd L.klnf L.ijklabcg Q.t Q.t Q.t Q.t_dag Q.v_oo),
    aug1 X.roooovvvv (ein5 L.mnab L.ijce L.dfgh L.ehdf L.klmn L.ijklabcg Q.t Q.t Q.t Q.t_dag Q.v_oo),
    aug1 X.roooovvvv (ein5 L.mnab L.ijce L.klfd L.fgmn L.edhg L.ijklabch Q.t Q.t Q.t Q.t_dag Q.v_vv),
    aug1 X.roooovvvv (ein5 L.mnab L.ijce L.klfd L.efmg L.gdnh L.ijklabch Q.t Q.t Q.t Q.t_dag Q.v_vo),
    aug1 X.roooovvvv (ein5 L.mnab L.ijce L.klfd L.fdmg L.genh L.ijklabch Q.t Q.t Q.t Q.t_dag Q.v_vo),
    aug1 X.roooovvvv (ein5 L.mnab L.ijce L.kdfg L.efmn L.lgdh L.ijklabch Q.t Q.t Q.t Q.t_dag Q.v_vo),
    aug1 X.roooovvvv (ein5 L.mnab L.ijce L.kdfg L.fgmn L.ledh L.ijklabch Q.t Q.t Q.t Q.t_dag Q.v_vo),
    aug1 X.roooovvvv (ein5 L.mnab L.ijce L.kdfg L.efmd L.lgnh L.ijklabch Q.t Q.t Q.t Q.t_dag Q.v_vo),
    aug1 X.roooovvvv (ein5 L.mnab L.ijce L.kdfg L.fgmd L.lenh L.ijklabch Q.t Q.t Q.t Q.t_dag Q.v_vo),
    aug1 X.roooovvvv (ein5 L.mnab L.icde L.jkfg L.ghmn L.lech L.ijklabdf Q.t Q.t Q.t Q.t_dag Q.v_vo),
    aug1 X.roooovvvv (ein5 L.mnab L.icde L.jkfg L.ghmc L.lenh L.ijklabdf Q.t Q.t Q.t Q.t_dag Q.v_vo),
    aug1 X.roooovvvv (ein5 L.mnab L.icde L.jfgh L.ehmn L.klcf L.ijklabdg Q.t Q.t Q.t Q.t_dag Q.v_oo),
    aug1 X.roooovvvv (ein5 L.mnab L.icde L.jfgh L.ehmf L.klnc L.ijklabdg Q.t Q.t Q.t Q.t_dag Q.v_oo),
    aug1 X.roooovvvv (ein5 L.mnab L.icde L.jfgh L.ehcf L.klmn L.ijklabdg Q.t Q.t Q.t Q.t_dag Q.v_oo),
    aug1 X.roooovvvv (ein5 L.mnab L.icde L.jkfg L.efmn L.lgch L.ijklabdh Q.t Q.t Q.t Q.t_dag Q.v_vo),
    aug1 X.roooovvvv (ein5 L.mnab L.icde L.jkfg L.fgmn L.lech L.ijklabdh Q.t Q.t Q.t Q.t_dag Q.v_vo),
    aug1 X.roooovvvv (ein5 L.mnab L.icde L.jkfg L.efmc L.lgnh L.ijklabdh Q.t Q.t Q.t Q.t_dag Q.v_vo),
    aug1 X.roooovvvv (ein5 L.mnab L.icde L.jkfg L.fgmc L.lenh L.ijklabdh Q.t Q.t Q.t Q.t_dag Q.v_vo),
    aug1 X.roooovvvv (ein5 L.mnab L.ijef L.klcd L.dgmn L.efhg L.ijklabch Q.t Q.t Q.t Q.t_dag Q.v_vv),
    aug1 X.roooovvvv (ein5 L.mnab L.ijef L.klcd L.ecmn L.fdgh L.ijklabgh Q.t Q.t Q.t Q.t_dag Q.v_vv),
    aug1 X.roooovvvv (ein5 L.mnab L.ijef L.klcd L.cdmn L.efgh L.ijklabgh Q.t Q.t Q.t Q.t_dag Q.v_vv),
    aug1 X.roooovvvv (ein5 L.ijae L.klbf L.mncd L.dgmn L.efhg L.ijklabch Q.t Q.t Q.t Q.t_dag Q.v_vv),
    aug1 X.roooovvvv (ein5 L.ijae L.klbf L.mncd L.fdmg L.genh L.ijklabch Q.t Q.t Q.t Q.t_dag Q.v_vo),
    aug1 X.roooovvvv (ein5 L.ijae L.klbf L.mncd L.fcmn L.edgh L.ijklabgh Q.t Q.t Q.t Q.t_dag Q.v_vv),
    aug1 X.roooovvvv (ein5 L.ijae L.klbf L.mncd L.cdmn L.efgh L.ijklabgh Q.t Q.t Q.t Q.t_dag Q.v_vv),
    aug1 X.roooovvvv (ein5 L.ijae L.kmbf L.lncd L.dgmn L.efhg L.ijklabch Q.t Q.t Q.t Q.t_dag Q.v_vv),
    aug1 X.roooovvvv (ein5 L.ijae L.kmbf L.lncd L.fdng L.gemh L.ijklabch Q.t Q.t Q.t Q.t_dag Q.v_vo),
    aug1 X.roooovvvv (ein5 L.ijae L.kmbf L.ncdg L.fgmn L.lech L.ijklabdh Q.t Q.t Q.t Q.t_dag Q.v_vo),
    aug1 X.roooovvvv (ein5 L.ijae L.kmbf L.ncdg L.fgnc L.lemh L.ijklabdh Q.t Q.t Q.t Q.t_dag Q.v_vo),
    aug1 X.roooovvvv (ein5 L.ijae L.kmbf L.lncd L.fcmn L.edgh L.ijklabgh Q.t Q.t Q.t Q.t_dag Q.v_vv),
    aug1 X.roooovvvv (ein5 L.ijae L.kmbf L.lncd L.cdmn L.efgh L.ijklabgh Q.t Q.t Q.t Q.t_dag Q.v_vv),
    aug1 X.roooovvvv (ein5 L.ijae L.mnbf L.klcd L.dgmn L.efhg L.ijklabch Q.t Q.t Q.t Q.t_dag Q.v_vv),
    aug1 X.roooovvvv (ein5 L.ijae L.mnbf L.klcd L.fcmn L.edgh L.ijklabgh Q.t Q.t Q.t Q.t_dag Q.v_vv),
    aug1 X.roooovvvv (ein5 L.ijae L.mnbf L.klcd L.cdmn L.efgh L.ijklabgh Q.t Q.t Q.t Q.t_dag Q.v_vv),
    aug1 X.roooovvvv (ein5 L.imae L.jkbf L.lncd L.fdmg L.genh L.ijklabch Q.t Q.t Q.t Q.t_dag Q.v_vo),
    aug1 X.roooovvvv (ein5 L.imae L.jkbf L.lncd L.fdng L.gemh L.ijklabch Q.t Q.t Q.t Q.t_dag Q.v_vo),
    aug1 X.roooovvvv (ein5 L.imae L.jkbf L.ncdg L.fgmn L.lech L.ijklabdh Q.t Q.t Q.t Q.t_dag Q.v_vo),
    aug1 X.roooovvvv (ein5 L.imae L.jkbf L.ncdg L.fgnc L.lemh L.ijklabdh Q.t Q.t Q.t Q.t_dag Q.v_vo),
    aug1 X.roooovvvv (ein5 L.imae L.jkbf L.lncd L.fcmn L.edgh L.ijklabgh Q.t Q.t Q.t Q.t_dag Q.v_vv),
    aug1 X.roooovvvv (ein5 L.imae L.jnbf L.klcd L.dgmn L.efhg L.ijklabch Q.t Q.t Q.t Q.t_dag Q.v_vv),
    aug1 X.roooovvvv (ein5 L.imae L.jnbf L.kcdg L.fgmc L.lenh L.ijklabdh Q.t Q.t Q.t Q.t_dag Q.v_vo),
    aug1 X.roooovvvv (ein5 L.imae L.jnbf L.kcdg L.fgnc L.lemh L.ijklabdh Q.t Q.t Q.t Q.t_dag Q.v_vo),
    aug1 X.roooovvvv (ein5 L.imae L.jnbf L.klcd L.fcmn L.edgh L.ijklabgh Q.t Q.t Q.t Q.t_dag Q.v_vv),
    aug1 X.roooovvvv (ein5 L.imae L.jnbf L.klcd L.cdmn L.efgh L.ijklabgh Q.t Q.t Q.t Q.t_dag Q.v_vv),
    aug1 X.roooovvvv (ein5 L.mnae L.ijbf L.klcd L.fdmg L.genh L.ijklabch Q.t Q.t Q.t Q.t_dag Q.v_vo),
    aug1 X.roooovvvv (ein5 L.mnae L.ijbf L.kcdg L.fgmn L.lech L.ijklabdh Q.t Q.t Q.t Q.t_dag Q.v_vo),
    aug1 X.roooovvvv (ein5 L.mnae L.ijbf L.kcdg L.fgmc L.lenh L.ijklabdh Q.t Q.t Q.t Q.t_dag Q.v_vo),
    aug1 X.roooovvvv (ein5 L.mnae L.ijbf L.klcd L.fcmn L.edgh L.ijklabgh Q.t Q.t Q.t Q.t_dag Q.v_vv),
    aug1 X.roooovvvv (ein5 L.ijef L.klab L.mncd L.bdmn L.efgh L.ijklacgh Q.t Q.t Q.t Q.t_dag Q.v_vv),
    aug1 X.roooovvvv (ein5 L.ijef L.kmab L.lncd L.bdmn L.efgh L.ijklacgh Q.t Q.t Q.t Q.t_dag Q.v_vv),
    aug1 X.roooovvvv (ein5 L.imef L.jkab L.lncd L.bdmn L.efgh L.ijklacgh Q.t Q.t Q.t Q.t_dag Q.v_vv),
    aug1 X.roooovvvv (ein5 L.mnef L.ijab L.klcd L.bdmn L.efgh L.ijklacgh Q.t Q.t Q.t Q.t_dag Q.v_vv),
    set1 X.roooovvvv (.call F.antisym_t4resids_antisym_t4_residual [Q.roooovvvv, Q.nocc, Q.nvir])]
  ret := [Q.roooovvvv]

end Verif.Shape.Prog
