import Verif.Shape.Names

/-!
# Shape programs of cc_eqns.py, ccsdt_eqns.py, ccdq_eqns.py, build_qf_correction.py, cc_energy.py, pdagq_t4resid.py, build_approxT3full.py, square_brakT_corr.py (generated by tools/shapegen.py)

Every statement of the functions with the subscripts and operands as written; see `Verif.Shape.Core`.
-/

set_option maxRecDepth 100000

namespace Verif.Shape.Prog

open Verif.Shape

/-- `cc_eqns.py` 67-83: `ccsd_t1resid`; 14 einsum calls. -/
def cc_eqns_ccsd_t1resid : Fn where
  params := [X.F, X.T1, X.T2, X.W]
  body := [
    set1 X.rov (ein2 L.ij L.ja L.ia Q.F_oo Q.T1),
    aug1 X.rov (ein3 L.bj L.ja L.ib L.ia Q.F_vo Q.T1 Q.T1),
    aug1 X.rov (ein2 L.bj L.ijab L.ia Q.F_vo Q.T2),
    aug1 X.rov (ein1 L.ia L.ia Q.F_ov),
    aug1 X.rov (ein2 L.ba L.ib L.ia Q.F_vv Q.T1),
    aug1 X.rov (ein4 L.ja L.ib L.kc L.bcjk L.ia Q.T1 Q.T1 Q.T1 Q.W_vvoo),
    aug1 X.rov (ein3 L.ja L.kb L.ibjk L.ia Q.T1 Q.T1 Q.W_ovoo),
    aug1 X.rov (ein3 L.ja L.ikbc L.bcjk L.ia Q.T1 Q.T2 Q.W_vvoo),
    aug1 X.rov (ein3 L.ib L.jc L.bcja L.ia Q.T1 Q.T1 Q.W_vvov),
    aug1 X.rov (ein3 L.ib L.jkac L.bcjk L.ia Q.T1 Q.T2 Q.W_vvoo),
    aug1 X.rov (ein3 L.jb L.ikac L.bcjk L.ia Q.T1 Q.T2 Q.W_vvoo),
    aug1 X.rov (ein2 L.jb L.ibja L.ia Q.T1 Q.W_ovov),
    aug1 X.rov (ein2 L.jkab L.ibjk L.ia Q.T2 Q.W_ovoo),
    aug1 X.rov (ein2 L.ijbc L.bcja L.ia Q.T2 Q.W_vvov)]
  ret := [Q.rov]

/-- `cc_eqns.py` 86-122: `ccsd_t2resid`; 31 einsum calls. -/
def cc_eqns_ccsd_t2resid : Fn where
  params := [X.F, X.T2, X.T1, X.W, X.nocc, X.nvir]
  body := [
    set1 X.roovv (ein2 L.ik L.jkab L.ijab Q.F_oo Q.T2),
    aug1 X.roovv (ein3 L.ck L.ka L.ijbc L.ijab Q.F_vo Q.T1 Q.T2),
    aug1 X.roovv (ein3 L.ck L.ic L.jkab L.ijab Q.F_vo Q.T1 Q.T2),
    aug1 X.roovv (ein2 L.ca L.ijbc L.ijab Q.F_vv Q.T2),
    aug1 X.roovv (ein5 L.ka L.lb L.ic L.jd L.cdkl L.ijab Q.T1 Q.T1 Q.T1 Q.T1 Q.W_vvoo),
    aug1 X.roovv (ein4 L.ka L.lb L.ic L.jckl L.ijab Q.T1 Q.T1 Q.T1 Q.W_ovoo),
    aug1 X.roovv (ein4 L.ka L.lb L.ijcd L.cdkl L.ijab Q.T1 Q.T1 Q.T2 Q.W_vvoo),
    aug1 X.roovv (ein3 L.ka L.lb L.ijkl L.ijab Q.T1 Q.T1 Q.W_oooo),
    aug1 X.roovv (ein4 L.ka L.ic L.jd L.cdkb L.ijab Q.T1 Q.T1 Q.T1 Q.W_vvov),
    aug1 X.roovv (ein4 L.ka L.ic L.jlbd L.cdkl L.ijab Q.T1 Q.T1 Q.T2 Q.W_vvoo),
    aug1 X.roovv (ein3 L.ka L.ic L.jckb L.ijab Q.T1 Q.T1 Q.W_ovov),
    aug1 X.roovv (ein4 L.ka L.lc L.ijbd L.cdkl L.ijab Q.T1 Q.T1 Q.T2 Q.W_vvoo),
    aug1 X.roovv (ein3 L.ka L.ilbc L.jckl L.ijab Q.T1 Q.T2 Q.W_ovoo),
    aug1 X.roovv (ein3 L.ka L.ijcd L.cdkb L.ijab Q.T1 Q.T2 Q.W_vvov),
    aug1 X.roovv (ein2 L.ka L.ijkb L.ijab Q.T1 Q.W_ooov),
    aug1 X.roovv (ein4 L.ic L.jd L.klab L.cdkl L.ijab Q.T1 Q.T1 Q.T2 Q.W_vvoo),
    aug1 X.roovv (ein3 L.ic L.jd L.cdab L.ijab Q.T1 Q.T1 Q.W_vvvv),
    aug1 X.roovv (ein4 L.ic L.kd L.jlab L.cdkl L.ijab Q.T1 Q.T1 Q.T2 Q.W_vvoo),
    aug1 X.roovv (ein3 L.ic L.klab L.jckl L.ijab Q.T1 Q.T2 Q.W_ovoo),
    aug1 X.roovv (ein3 L.ic L.jkad L.cdkb L.ijab Q.T1 Q.T2 Q.W_vvov),
    aug1 X.roovv (ein2 L.ic L.jcab L.ijab Q.T1 Q.W_ovvv),
    aug1 X.roovv (ein3 L.kc L.ilab L.jckl L.ijab Q.T1 Q.T2 Q.W_ovoo),
    aug1 X.roovv (ein3 L.kc L.ijad L.cdkb L.ijab Q.T1 Q.T2 Q.W_vvov),
    aug1 X.roovv (ein3 L.ikab L.jlcd L.cdkl L.ijab Q.T2 Q.T2 Q.W_vvoo),
    aug1 X.roovv (ein3 L.klab L.ijcd L.cdkl L.ijab Q.T2 Q.T2 Q.W_vvoo),
    aug1 X.roovv (ein2 L.klab L.ijkl L.ijab Q.T2 Q.W_oooo),
    aug1 X.roovv (ein3 L.ijac L.klbd L.cdkl L.ijab Q.T2 Q.T2 Q.W_vvoo),
    aug1 X.roovv (ein3 L.ikac L.jlbd L.cdkl L.ijab Q.T2 Q.T2 Q.W_vvoo),
    aug1 X.roovv (ein2 L.ikac L.jckb L.ijab Q.T2 Q.W_ovov),
    aug1 X.roovv (ein2 L.ijcd L.cdab L.ijab Q.T2 Q.W_vvvv),
    aug1 X.roovv (ein1 L.ijab L.ijab Q.W_oovv),
    set1 X.roovv (.call F.tamps_antisym_T2 [Q.roovv, Q.nocc, Q.nvir])]
  ret := [Q.roovv]

/-- `ccsdt_eqns.py` 5-22: `ccsdt_t1eqns`; 15 einsum calls. -/
def ccsdt_eqns_ccsdt_t1eqns : Fn where
  params := [X.F, X.T1, X.T2, X.W, X.T3]
  body := [
    set1 X.rov (ein2 L.ij L.ja L.ia Q.F_oo Q.T1),
    aug1 X.rov (ein3 L.bj L.ja L.ib L.ia Q.F_vo Q.T1 Q.T1),
    aug1 X.rov (ein2 L.bj L.ijab L.ia Q.F_vo Q.T2),
    aug1 X.rov (ein1 L.ia L.ia Q.F_ov),
    aug1 X.rov (ein2 L.ba L.ib L.ia Q.F_vv Q.T1),
    aug1 X.rov (ein4 L.ja L.ib L.kc L.bcjk L.ia Q.T1 Q.T1 Q.T1 Q.W_vvoo),
    aug1 X.rov (ein3 L.ja L.kb L.ibjk L.ia Q.T1 Q.T1 Q.W_ovoo),
    aug1 X.rov (ein3 L.ja L.ikbc L.bcjk L.ia Q.T1 Q.T2 Q.W_vvoo),
    aug1 X.rov (ein3 L.ib L.jc L.bcja L.ia Q.T1 Q.T1 Q.W_vvov),
    aug1 X.rov (ein3 L.ib L.jkac L.bcjk L.ia Q.T1 Q.T2 Q.W_vvoo),
    aug1 X.rov (ein3 L.jb L.ikac L.bcjk L.ia Q.T1 Q.T2 Q.W_vvoo),
    aug1 X.rov (ein2 L.jb L.ibja L.ia Q.T1 Q.W_ovov),
    aug1 X.rov (ein2 L.jkab L.ibjk L.ia Q.T2 Q.W_ovoo),
    aug1 X.rov (ein2 L.ijbc L.bcja L.ia Q.T2 Q.W_vvov),
    aug1 X.rov (ein2 L.ijkabc L.bcjk L.ia Q.T3 Q.W_vvoo)]
  ret := [Q.rov]

/-- `ccsdt_eqns.py` 24-66: `ccsdt_t2eqns`; 37 einsum calls. -/
def ccsdt_eqns_ccsdt_t2eqns : Fn where
  params := [X.F, X.T2, X.T1, X.T3, X.W]
  body := [
    set1 X.roovv (ein2 L.ik L.jkab L.ijab Q.F_oo Q.T2),
    aug1 X.roovv (ein3 L.ck L.ka L.ijbc L.ijab Q.F_vo Q.T1 Q.T2),
    aug1 X.roovv (ein3 L.ck L.ic L.jkab L.ijab Q.F_vo Q.T1 Q.T2),
    aug1 X.roovv (ein2 L.ck L.ijkabc L.ijab Q.F_vo Q.T3),
    aug1 X.roovv (ein2 L.ca L.ijbc L.ijab Q.F_vv Q.T2),
    aug1 X.roovv (ein5 L.ka L.lb L.ic L.jd L.cdkl L.ijab Q.T1 Q.T1 Q.T1 Q.T1 Q.W_vvoo),
    aug1 X.roovv (ein4 L.ka L.lb L.ic L.jckl L.ijab Q.T1 Q.T1 Q.T1 Q.W_ovoo),
    aug1 X.roovv (ein4 L.ka L.lb L.ijcd L.cdkl L.ijab Q.T1 Q.T1 Q.T2 Q.W_vvoo),
    aug1 X.roovv (ein3 L.ka L.lb L.ijkl L.ijab Q.T1 Q.T1 Q.W_oooo),
    aug1 X.roovv (ein4 L.ka L.ic L.jd L.cdkb L.ijab Q.T1 Q.T1 Q.T1 Q.W_vvov),
    aug1 X.roovv (ein4 L.ka L.ic L.jlbd L.cdkl L.ijab Q.T1 Q.T1 Q.T2 Q.W_vvoo),
    aug1 X.roovv (ein3 L.ka L.ic L.jckb L.ijab Q.T1 Q.T1 Q.W_ovov),
    aug1 X.roovv (ein4 L.ka L.lc L.ijbd L.cdkl L.ijab Q.T1 Q.T1 Q.T2 Q.W_vvoo),
    aug1 X.roovv (ein3 L.ka L.ilbc L.jckl L.ijab Q.T1 Q.T2 Q.W_ovoo),
    aug1 X.roovv (ein3 L.ka L.ijcd L.cdkb L.ijab Q.T1 Q.T2 Q.W_vvov),
    aug1 X.roovv (ein3 L.ka L.ijlbcd L.cdkl L.ijab Q.T1 Q.T3 Q.W_vvoo),
    aug1 X.roovv (ein2 L.ka L.ijkb L.ijab Q.T1 Q.W_ooov),
    aug1 X.roovv (ein4 L.ic L.jd L.klab L.cdkl L.ijab Q.T1 Q.T1 Q.T2 Q.W_vvoo),
    aug1 X.roovv (ein3 L.ic L.jd L.cdab L.ijab Q.T1 Q.T1 Q.W_vvvv),
    aug1 X.roovv (ein4 L.ic L.kd L.jlab L.cdkl L.ijab Q.T1 Q.T1 Q.T2 Q.W_vvoo),
    aug1 X.roovv (ein3 L.ic L.klab L.jckl L.ijab Q.T1 Q.T2 Q.W_ovoo),
    aug1 X.roovv (ein3 L.ic L.jkad L.cdkb L.ijab Q.T1 Q.T2 Q.W_vvov),
    aug1 X.roovv (ein3 L.ic L.jklabd L.cdkl L.ijab Q.T1 Q.T3 Q.W_vvoo),
    aug1 X.roovv (ein2 L.ic L.jcab L.ijab Q.T1 Q.W_ovvv),
    aug1 X.roovv (ein3 L.kc L.ilab L.jckl L.ijab Q.T1 Q.T2 Q.W_ovoo),
    aug1 X.roovv (ein3 L.kc L.ijad L.cdkb L.ijab Q.T1 Q.T2 Q.W_vvov),
    aug1 X.roovv (ein3 L.kc L.ijlabd L.cdkl L.ijab Q.T1 Q.T3 Q.W_vvoo),
    aug1 X.roovv (ein3 L.ikab L.jlcd L.cdkl L.ijab Q.T2 Q.T2 Q.W_vvoo),
    aug1 X.roovv (ein3 L.klab L.ijcd L.cdkl L.ijab Q.T2 Q.T2 Q.W_vvoo),
    aug1 X.roovv (ein2 L.klab L.ijkl L.ijab Q.T2 Q.W_oooo),
    aug1 X.roovv (ein3 L.ijac L.klbd L.cdkl L.ijab Q.T2 Q.T2 Q.W_vvoo),
    aug1 X.roovv (ein3 L.ikac L.jlbd L.cdkl L.ijab Q.T2 Q.T2 Q.W_vvoo),
    aug1 X.roovv (ein2 L.ikac L.jckb L.ijab Q.T2 Q.W_ovov),
    aug1 X.roovv (ein2 L.ijcd L.cdab L.ijab Q.T2 Q.W_vvvv),
    aug1 X.roovv (ein2 L.iklabc L.jckl L.ijab Q.T3 Q.W_ovoo),
    aug1 X.roovv (ein2 L.ijkacd L.cdkb L.ijab Q.T3 Q.W_vvov),
    aug1 X.roovv (ein1 L.ijab L.ijab Q.W_oovv),
    set1 X.nocc (.none),
    set1 X.nvir (.none),
    set1 X.roovv (.call F.tamps_antisym_T2 [Q.roovv, Q.nocc, Q.nvir])]
  ret := [Q.roovv]

/-- `ccsdt_eqns.py` 69-122: `ccsdt_t3eqns`; 47 einsum calls. -/
def ccsdt_eqns_ccsdt_t3eqns : Fn where
  params := [X.F, X.T3, X.T1, X.T2, X.W]
  body := [
    set1 X.rooovvv (ein2 L.il L.jklabc L.ijkabc Q.F_oo Q.T3),
    aug1 X.rooovvv (ein3 L.dl L.la L.ijkbcd L.ijkabc Q.F_vo Q.T1 Q.T3),
    aug1 X.rooovvv (ein3 L.dl L.id L.jklabc L.ijkabc Q.F_vo Q.T1 Q.T3),
    aug1 X.rooovvv (ein3 L.dl L.ilab L.jkcd L.ijkabc Q.F_vo Q.T2 Q.T2),
    aug1 X.rooovvv (ein2 L.da L.ijkbcd L.ijkabc Q.F_vv Q.T3),
    aug1 X.rooovvv (ein5 L.la L.mb L.id L.jkce L.delm L.ijkabc Q.T1 Q.T1 Q.T1 Q.T2 Q.W_vvoo),
    aug1 X.rooovvv (ein4 L.la L.mb L.ijcd L.kdlm L.ijkabc Q.T1 Q.T1 Q.T2 Q.W_ovoo),
    aug1 X.rooovvv (ein4 L.la L.mb L.ijkcde L.delm L.ijkabc Q.T1 Q.T1 Q.T3 Q.W_vvoo),
    aug1 X.rooovvv (ein5 L.la L.id L.je L.kmbc L.delm L.ijkabc Q.T1 Q.T1 Q.T1 Q.T2 Q.W_vvoo),
    aug1 X.rooovvv (ein4 L.la L.id L.jmbc L.kdlm L.ijkabc Q.T1 Q.T1 Q.T2 Q.W_ovoo),
    aug1 X.rooovvv (ein4 L.la L.id L.jkbe L.delc L.ijkabc Q.T1 Q.T1 Q.T2 Q.W_vvov),
    aug1 X.rooovvv (ein4 L.la L.id L.jkmbce L.delm L.ijkabc Q.T1 Q.T1 Q.T3 Q.W_vvoo),
    aug1 X.rooovvv (ein4 L.la L.md L.ijkbce L.delm L.ijkabc Q.T1 Q.T1 Q.T3 Q.W_vvoo),
    aug1 X.rooovvv (ein4 L.la L.imbc L.jkde L.delm L.ijkabc Q.T1 Q.T2 Q.T2 Q.W_vvoo),
    aug1 X.rooovvv (ein3 L.la L.imbc L.jklm L.ijkabc Q.T1 Q.T2 Q.W_oooo),
    aug1 X.rooovvv (ein4 L.la L.ijbd L.kmce L.delm L.ijkabc Q.T1 Q.T2 Q.T2 Q.W_vvoo),
    aug1 X.rooovvv (ein3 L.la L.ijbd L.kdlc L.ijkabc Q.T1 Q.T2 Q.W_ovov),
    aug1 X.rooovvv (ein3 L.la L.ijmbcd L.kdlm L.ijkabc Q.T1 Q.T3 Q.W_ovoo),
    aug1 X.rooovvv (ein3 L.la L.ijkbde L.delc L.ijkabc Q.T1 Q.T3 Q.W_vvov),
    aug1 X.rooovvv (ein4 L.id L.je L.klab L.delc L.ijkabc Q.T1 Q.T1 Q.T2 Q.W_vvov),
    aug1 X.rooovvv (ein4 L.id L.je L.klmabc L.delm L.ijkabc Q.T1 Q.T1 Q.T3 Q.W_vvoo),
    aug1 X.rooovvv (ein4 L.id L.le L.jkmabc L.delm L.ijkabc Q.T1 Q.T1 Q.T3 Q.W_vvoo),
    aug1 X.rooovvv (ein4 L.id L.jlab L.kmce L.delm L.ijkabc Q.T1 Q.T2 Q.T2 Q.W_vvoo),
    aug1 X.rooovvv (ein3 L.id L.jlab L.kdlc L.ijkabc Q.T1 Q.T2 Q.W_ovov),
    aug1 X.rooovvv (ein4 L.id L.lmab L.jkce L.delm L.ijkabc Q.T1 Q.T2 Q.T2 Q.W_vvoo),
    aug1 X.rooovvv (ein3 L.id L.jkae L.debc L.ijkabc Q.T1 Q.T2 Q.W_vvvv),
    aug1 X.rooovvv (ein3 L.id L.jlmabc L.kdlm L.ijkabc Q.T1 Q.T3 Q.W_ovoo),
    aug1 X.rooovvv (ein3 L.id L.jklabe L.delc L.ijkabc Q.T1 Q.T3 Q.W_vvov),
    aug1 X.rooovvv (ein4 L.ld L.imab L.jkce L.delm L.ijkabc Q.T1 Q.T2 Q.T2 Q.W_vvoo),
    aug1 X.rooovvv (ein3 L.ld L.ijmabc L.kdlm L.ijkabc Q.T1 Q.T3 Q.W_ovoo),
    aug1 X.rooovvv (ein3 L.ld L.ijkabe L.delc L.ijkabc Q.T1 Q.T3 Q.W_vvov),
    aug1 X.rooovvv (ein3 L.ilab L.jmcd L.kdlm L.ijkabc Q.T2 Q.T2 Q.W_ovoo),
    aug1 X.rooovvv (ein3 L.ilab L.jkde L.delc L.ijkabc Q.T2 Q.T2 Q.W_vvov),
    aug1 X.rooovvv (ein3 L.ilab L.jkmcde L.delm L.ijkabc Q.T2 Q.T3 Q.W_vvoo),
    aug1 X.rooovvv (ein2 L.ilab L.jklc L.ijkabc Q.T2 Q.W_ooov),
    aug1 X.rooovvv (ein3 L.lmab L.ijcd L.kdlm L.ijkabc Q.T2 Q.T2 Q.W_ovoo),
    aug1 X.rooovvv (ein3 L.lmab L.ijkcde L.delm L.ijkabc Q.T2 Q.T3 Q.W_vvoo),
    aug1 X.rooovvv (ein3 L.ijad L.klbe L.delc L.ijkabc Q.T2 Q.T2 Q.W_vvov),
    aug1 X.rooovvv (ein3 L.ijad L.klmbce L.delm L.ijkabc Q.T2 Q.T3 Q.W_vvoo),
    aug1 X.rooovvv (ein2 L.ijad L.kdbc L.ijkabc Q.T2 Q.W_ovvv),
    aug1 X.rooovvv (ein3 L.ilad L.jkmbce L.delm L.ijkabc Q.T2 Q.T3 Q.W_vvoo),
    aug1 X.rooovvv (ein3 L.lmad L.ijkbce L.delm L.ijkabc Q.T2 Q.T3 Q.W_vvoo),
    aug1 X.rooovvv (ein3 L.ijde L.klmabc L.delm L.ijkabc Q.T2 Q.T3 Q.W_vvoo),
    aug1 X.rooovvv (ein3 L.ilde L.jkmabc L.delm L.ijkabc Q.T2 Q.T3 Q.W_vvoo),
    aug1 X.rooovvv (ein2 L.ilmabc L.jklm L.ijkabc Q.T3 Q.W_oooo),
    aug1 X.rooovvv (ein2 L.ijlabd L.kdlc L.ijkabc Q.T3 Q.W_ovov),
    aug1 X.rooovvv (ein2 L.ijkade L.debc L.ijkabc Q.T3 Q.W_vvvv),
    set1 X.nocc (.none),
    set1 X.nvir (.none),
    set1 X.rooovvv (.call F.tamps_antisym_T3 [Q.rooovvv, Q.nocc, Q.nvir])]
  ret := [Q.rooovvv]

/-- `ccdq_eqns.py` 5-19: `ccdq_t2eqns`; 11 einsum calls. -/
def ccdq_eqns_ccdq_t2eqns : Fn where
  params := [X.F, X.T2, X.W, X.T4]
  body := [
    set1 X.roovv (ein2 L.ik L.jkab L.ijab Q.F_oo Q.T2),
    aug1 X.roovv (ein2 L.ca L.ijbc L.ijab Q.F_vv Q.T2),
    aug1 X.roovv (ein3 L.ikab L.jlcd L.cdkl L.ijab Q.T2 Q.T2 Q.W_vvoo),
    aug1 X.roovv (ein3 L.klab L.ijcd L.cdkl L.ijab Q.T2 Q.T2 Q.W_vvoo),
    aug1 X.roovv (ein2 L.klab L.ijkl L.ijab Q.T2 Q.W_oooo),
    aug1 X.roovv (ein3 L.ijac L.klbd L.cdkl L.ijab Q.T2 Q.T2 Q.W_vvoo),
    aug1 X.roovv (ein3 L.ikac L.jlbd L.cdkl L.ijab Q.T2 Q.T2 Q.W_vvoo),
    aug1 X.roovv (ein2 L.ikac L.jckb L.ijab Q.T2 Q.W_ovov),
    aug1 X.roovv (ein2 L.ijcd L.cdab L.ijab Q.T2 Q.W_vvvv),
    aug1 X.roovv (ein2 L.ijklabcd L.cdkl L.ijab Q.T4 Q.W_vvoo),
    aug1 X.roovv (ein1 L.ijab L.ijab Q.W_oovv),
    set1 X.nocc (.none),
    set1 X.nvir (.none),
    set1 X.roovv (.call F.tamps_antisym_T2 [Q.roovv, Q.nocc, Q.nvir])]
  ret := [Q.roovv]

/-- `ccdq_eqns.py` 22-44: `ccdq_t4eqns`; 18 einsum calls. -/
def ccdq_eqns_ccdq_t4eqns : Fn where
  params := [X.F, X.T4, X.T2, X.W]
  body := [
    set1 X.roooovvvv (ein2 L.im L.jklmabcd L.ijklabcd Q.F_oo Q.T4),
    aug1 X.roooovvvv (ein2 L.ea L.ijklbcde L.ijklabcd Q.F_vv Q.T4),
    aug1 X.roooovvvv (ein4 L.imab L.jncd L.klef L.efmn L.ijklabcd Q.T2 Q.T2 Q.T2 Q.W_vvoo),
    aug1 X.roooovvvv (ein3 L.imab L.jncd L.klmn L.ijklabcd Q.T2 Q.T2 Q.W_oooo),
    aug1 X.roooovvvv (ein4 L.imab L.jkce L.lndf L.efmn L.ijklabcd Q.T2 Q.T2 Q.T2 Q.W_vvoo),
    aug1 X.roooovvvv (ein3 L.imab L.jkce L.lemd L.ijklabcd Q.T2 Q.T2 Q.W_ovov),
    aug1 X.roooovvvv (ein3 L.imab L.jklncdef L.efmn L.ijklabcd Q.T2 Q.T4 Q.W_vvoo),
    aug1 X.roooovvvv (ein4 L.mnab L.ijce L.kldf L.efmn L.ijklabcd Q.T2 Q.T2 Q.T2 Q.W_vvoo),
    aug1 X.roooovvvv (ein3 L.mnab L.ijklcdef L.efmn L.ijklabcd Q.T2 Q.T4 Q.W_vvoo),
    aug1 X.roooovvvv (ein3 L.ijae L.klbf L.efcd L.ijklabcd Q.T2 Q.T2 Q.W_vvvv),
    aug1 X.roooovvvv (ein3 L.ijae L.klmnbcdf L.efmn L.ijklabcd Q.T2 Q.T4 Q.W_vvoo),
    aug1 X.roooovvvv (ein3 L.imae L.jklnbcdf L.efmn L.ijklabcd Q.T2 Q.T4 Q.W_vvoo),
    aug1 X.roooovvvv (ein3 L.mnae L.ijklbcdf L.efmn L.ijklabcd Q.T2 Q.T4 Q.W_vvoo),
    aug1 X.roooovvvv (ein3 L.ijef L.klmnabcd L.efmn L.ijklabcd Q.T2 Q.T4 Q.W_vvoo),
    aug1 X.roooovvvv (ein3 L.imef L.jklnabcd L.efmn L.ijklabcd Q.T2 Q.T4 Q.W_vvoo),
    aug1 X.roooovvvv (ein2 L.ijmnabcd L.klmn L.ijklabcd Q.T4 Q.W_oooo),
    aug1 X.roooovvvv (ein2 L.ijkmabce L.lemd L.ijklabcd Q.T4 Q.W_ovov),
    aug1 X.roooovvvv (ein2 L.ijklabef L.efcd L.ijklabcd Q.T4 Q.W_vvvv),
    set1 X.nocc (.none),
    set1 X.nvir (.none),
    set1 X.roooovvvv (.call F.tamps_antisym_T4 [Q.roooovvvv, Q.nocc, Q.nvir])]
  ret := [Q.roooovvvv]

/-- `build_qf_correction.py` 6-17: `wnT2T3_toT4`; 8 einsum calls. -/
def build_qf_correction_wnT2T3_toT4 : Fn where
  params := [X.W, X.T2, X.T3]
  body := [
    set1 X.roooovvvv (ein3 L.imab L.jkncde L.lemn L.ijklabcd Q.T2 Q.T3 Q.W_ovoo),
    aug1 X.roooovvvv (ein3 L.imab L.jklcef L.efmd L.ijklabcd Q.T2 Q.T3 Q.W_vvov),
    aug1 X.roooovvvv (ein3 L.mnab L.ijkcde L.lemn L.ijklabcd Q.T2 Q.T3 Q.W_ovoo),
    aug1 X.roooovvvv (ein3 L.ijae L.kmnbcd L.lemn L.ijklabcd Q.T2 Q.T3 Q.W_ovoo),
    aug1 X.roooovvvv (ein3 L.ijae L.klmbcf L.efmd L.ijklabcd Q.T2 Q.T3 Q.W_vvov),
    aug1 X.roooovvvv (ein3 L.imae L.jknbcd L.lemn L.ijklabcd Q.T2 Q.T3 Q.W_ovoo),
    aug1 X.roooovvvv (ein3 L.imae L.jklbcf L.efmd L.ijklabcd Q.T2 Q.T3 Q.W_vvov),
    aug1 X.roooovvvv (ein3 L.ijef L.klmabc L.efmd L.ijklabcd Q.T2 Q.T3 Q.W_vvov),
    set1 X.tmp0 (.none),
    set1 X.tmp1 (.none),
    set1 X.roooovvvv (.call F.tamps_antisym_T4 [Q.roooovvvv, Q.tmp0, Q.tmp1])]
  ret := [Q.roooovvvv]

/-- `build_qf_correction.py` 20-29: `wnT2cubed_toT4`; 6 einsum calls. -/
def build_qf_correction_wnT2cubed_toT4 : Fn where
  params := [X.W, X.T2]
  body := [
    set1 X.roooovvvv (ein4 L.imab L.jncd L.klef L.efmn L.ijklabcd Q.T2 Q.T2 Q.T2 Q.W_vvoo),
    aug1 X.roooovvvv (ein3 L.imab L.jncd L.klmn L.ijklabcd Q.T2 Q.T2 Q.W_oooo),
    aug1 X.roooovvvv (ein4 L.imab L.jkce L.lndf L.efmn L.ijklabcd Q.T2 Q.T2 Q.T2 Q.W_vvoo),
    aug1 X.roooovvvv (ein3 L.imab L.jkce L.lemd L.ijklabcd Q.T2 Q.T2 Q.W_ovov),
    aug1 X.roooovvvv (ein4 L.mnab L.ijce L.kldf L.efmn L.ijklabcd Q.T2 Q.T2 Q.T2 Q.W_vvoo),
    aug1 X.roooovvvv (ein3 L.ijae L.klbf L.efcd L.ijklabcd Q.T2 Q.T2 Q.W_vvvv),
    set1 X.tmp0 (.none),
    set1 X.tmp1 (.none),
    set1 X.roooovvvv (.call F.tamps_antisym_T4 [Q.roooovvvv, Q.tmp0, Q.tmp1])]
  ret := [Q.roooovvvv]

/-- `build_qf_correction.py` 32-67: `wnT2cubed_toT2`; 30 einsum calls. -/
def build_qf_correction_wnT2cubed_toT2 : Fn where
  params := [X.W, X.T2]
  body := [
    set1 X.T2dag (.arg Q.T2_t2301),
    set1 X.roovv (ein5 L.ikab L.jlcd L.mnef L.celm L.dfkn L.ijab Q.T2 Q.T2 Q.T2 Q.T2dag Q.W_vvoo),
    aug1 X.roovv (ein5 L.ikab L.jlcd L.mnef L.eflm L.cdkn L.ijab Q.T2 Q.T2 Q.T2 Q.T2dag Q.W_vvoo),
    aug1 X.roovv (ein5 L.ikab L.jlcd L.mnef L.cemn L.dfkl L.ijab Q.T2 Q.T2 Q.T2 Q.T2dag Q.W_vvoo),
    aug1 X.roovv (ein5 L.ikab L.lmcd L.jnef L.eflm L.cdkn L.ijab Q.T2 Q.T2 Q.T2 Q.T2dag Q.W_vvoo),
    aug1 X.roovv (ein5 L.klab L.ijcd L.mnef L.cekm L.dfln L.ijab Q.T2 Q.T2 Q.T2 Q.T2dag Q.W_vvoo),
    aug1 X.roovv (ein5 L.klab L.ijcd L.mnef L.efkm L.cdln L.ijab Q.T2 Q.T2 Q.T2 Q.T2dag Q.W_vvoo),
    aug1 X.roovv (ein5 L.klab L.ijcd L.mnef L.cemn L.dfkl L.ijab Q.T2 Q.T2 Q.T2 Q.T2dag Q.W_vvoo),
    aug1 X.roovv (ein5 L.klab L.imcd L.jnef L.efkm L.cdln L.ijab Q.T2 Q.T2 Q.T2 Q.T2dag Q.W_vvoo),
    aug1 X.roovv (ein5 L.klab L.imcd L.jnef L.cekn L.dflm L.ijab Q.T2 Q.T2 Q.T2 Q.T2dag Q.W_vvoo),
    aug1 X.roovv (ein5 L.klab L.imcd L.jnef L.cemn L.dfkl L.ijab Q.T2 Q.T2 Q.T2 Q.T2dag Q.W_vvoo),
    aug1 X.roovv (ein5 L.ijac L.klbd L.mnef L.efkl L.cdmn L.ijab Q.T2 Q.T2 Q.T2 Q.T2dag Q.W_vvoo),
    aug1 X.roovv (ein5 L.ijac L.klbd L.mnef L.dekm L.cfln L.ijab Q.T2 Q.T2 Q.T2 Q.T2dag Q.W_vvoo),
    aug1 X.roovv (ein5 L.ijac L.klbd L.mnef L.efkm L.cdln L.ijab Q.T2 Q.T2 Q.T2 Q.T2dag Q.W_vvoo),
    aug1 X.roovv (ein5 L.ijac L.klbd L.mnef L.demn L.cfkl L.ijab Q.T2 Q.T2 Q.T2 Q.T2dag Q.W_vvoo),
    aug1 X.roovv (ein5 L.ikac L.jlbd L.mnef L.efkl L.cdmn L.ijab Q.T2 Q.T2 Q.T2 Q.T2dag Q.W_vvoo),
    aug1 X.roovv (ein5 L.ikac L.jlbd L.mnef L.dekm L.cfln L.ijab Q.T2 Q.T2 Q.T2 Q.T2dag Q.W_vvoo),
    aug1 X.roovv (ein5 L.ikac L.jlbd L.mnef L.eflm L.cdkn L.ijab Q.T2 Q.T2 Q.T2 Q.T2dag Q.W_vvoo),
    aug1 X.roovv (ein5 L.ikac L.jlbd L.mnef L.demn L.cfkl L.ijab Q.T2 Q.T2 Q.T2 Q.T2dag Q.W_vvoo),
    aug1 X.roovv (ein5 L.ikac L.lmbd L.jnef L.dekl L.cfmn L.ijab Q.T2 Q.T2 Q.T2 Q.T2dag Q.W_vvoo),
    aug1 X.roovv (ein5 L.ikac L.lmbd L.jnef L.efkl L.cdmn L.ijab Q.T2 Q.T2 Q.T2 Q.T2dag Q.W_vvoo),
    aug1 X.roovv (ein5 L.ikac L.lmbd L.jnef L.dekn L.cflm L.ijab Q.T2 Q.T2 Q.T2 Q.T2dag Q.W_vvoo),
    aug1 X.roovv (ein5 L.ikac L.lmbd L.jnef L.eflm L.cdkn L.ijab Q.T2 Q.T2 Q.T2 Q.T2dag Q.W_vvoo),
    aug1 X.roovv (ein5 L.ikac L.lmbd L.jnef L.deln L.cfkm L.ijab Q.T2 Q.T2 Q.T2 Q.T2dag Q.W_vvoo),
    aug1 X.roovv (ein5 L.klac L.imbd L.jnef L.dekl L.cfmn L.ijab Q.T2 Q.T2 Q.T2 Q.T2dag Q.W_vvoo),
    aug1 X.roovv (ein5 L.klac L.imbd L.jnef L.dekn L.cflm L.ijab Q.T2 Q.T2 Q.T2 Q.T2dag Q.W_vvoo),
    aug1 X.roovv (ein5 L.klac L.mnbd L.ijef L.dekl L.cfmn L.ijab Q.T2 Q.T2 Q.T2 Q.T2dag Q.W_vvoo),
    aug1 X.roovv (ein5 L.klac L.mnbd L.ijef L.dekm L.cfln L.ijab Q.T2 Q.T2 Q.T2 Q.T2dag Q.W_vvoo),
    aug1 X.roovv (ein5 L.ijcd L.klae L.mnbf L.efkm L.cdln L.ijab Q.T2 Q.T2 Q.T2 Q.T2dag Q.W_vvoo),
    aug1 X.roovv (ein5 L.ikcd L.jlae L.mnbf L.efkm L.cdln L.ijab Q.T2 Q.T2 Q.T2 Q.T2dag Q.W_vvoo),
    aug1 X.roovv (ein5 L.klcd L.imae L.jnbf L.efkl L.cdmn L.ijab Q.T2 Q.T2 Q.T2 Q.T2dag Q.W_vvoo),
    set1 X.tmp0 (.none),
    set1 X.tmp1 (.none),
    set1 X.roovv (.call F.tamps_antisym_T2 [Q.roovv, Q.tmp0, Q.tmp1])]
  ret := [Q.roovv]

/-- `build_qf_correction.py` 70-142: `wnT2T3_toT2`; 68 einsum calls. -/
def build_qf_correction_wnT2T3_toT2 : Fn where
  params := [X.W, X.T2, X.T3]
  body := [
    set1 X.T2dag (.arg Q.T2_t2301),
    set1 X.roovv (ein4 L.ikab L.cdlm L.jmncde L.lekn L.ijab Q.T2 Q.T2dag Q.T3 Q.W_ovoo),
    aug1 X.roovv (ein4 L.ikab L.cdlm L.lmncde L.jekn L.ijab Q.T2 Q.T2dag Q.T3 Q.W_ovoo),
    aug1 X.roovv (ein4 L.ikab L.cdlm L.jlmdef L.efkc L.ijab Q.T2 Q.T2dag Q.T3 Q.W_vvov),
    aug1 X.roovv (ein4 L.klab L.cdkm L.ijncde L.meln L.ijab Q.T2 Q.T2dag Q.T3 Q.W_ovoo),
    aug1 X.roovv (ein4 L.klab L.cdkm L.imncde L.jeln L.ijab Q.T2 Q.T2dag Q.T3 Q.W_ovoo),
    aug1 X.roovv (ein4 L.klab L.cdkm L.ijmdef L.eflc L.ijab Q.T2 Q.T2dag Q.T3 Q.W_vvov),
    aug1 X.roovv (ein4 L.klab L.cdmn L.ijncde L.mekl L.ijab Q.T2 Q.T2dag Q.T3 Q.W_ovoo),
    aug1 X.roovv (ein4 L.klab L.cdmn L.imncde L.jekl L.ijab Q.T2 Q.T2dag Q.T3 Q.W_ovoo),
    aug1 X.roovv (ein4 L.ijac L.dekl L.lmnbde L.kcmn L.ijab Q.T2 Q.T2dag Q.T3 Q.W_ovoo),
    aug1 X.roovv (ein4 L.ijac L.dekl L.klmbef L.cfmd L.ijab Q.T2 Q.T2dag Q.T3 Q.W_vvov),
    aug1 X.roovv (ein4 L.ijac L.dekl L.klmdef L.cfmb L.ijab Q.T2 Q.T2dag Q.T3 Q.W_vvov),
    aug1 X.roovv (ein4 L.ikac L.dekl L.jmnbde L.lcmn L.ijab Q.T2 Q.T2dag Q.T3 Q.W_ovoo),
    aug1 X.roovv (ein4 L.ikac L.dekl L.lmnbde L.jcmn L.ijab Q.T2 Q.T2dag Q.T3 Q.W_ovoo),
    aug1 X.roovv (ein4 L.ikac L.dekl L.jlmbef L.cfmd L.ijab Q.T2 Q.T2dag Q.T3 Q.W_vvov),
    aug1 X.roovv (ein4 L.ikac L.dekl L.jlmdef L.cfmb L.ijab Q.T2 Q.T2dag Q.T3 Q.W_vvov),
    aug1 X.roovv (ein4 L.ikac L.cdlm L.jmnbde L.lekn L.ijab Q.T2 Q.T2dag Q.T3 Q.W_ovoo),
    aug1 X.roovv (ein4 L.ikac L.cdlm L.lmnbde L.jekn L.ijab Q.T2 Q.T2dag Q.T3 Q.W_ovoo),
    aug1 X.roovv (ein4 L.ikac L.cdlm L.jlmbef L.efkd L.ijab Q.T2 Q.T2dag Q.T3 Q.W_vvov),
    aug1 X.roovv (ein4 L.ikac L.cdlm L.jlmdef L.efkb L.ijab Q.T2 Q.T2dag Q.T3 Q.W_vvov),
    aug1 X.roovv (ein4 L.ikac L.delm L.jmnbde L.lckn L.ijab Q.T2 Q.T2dag Q.T3 Q.W_ovoo),
    aug1 X.roovv (ein4 L.ikac L.delm L.lmnbde L.jckn L.ijab Q.T2 Q.T2dag Q.T3 Q.W_ovoo),
    aug1 X.roovv (ein4 L.ikac L.delm L.jlmbef L.cfkd L.ijab Q.T2 Q.T2dag Q.T3 Q.W_vvov),
    aug1 X.roovv (ein4 L.ikac L.delm L.jlmdef L.cfkb L.ijab Q.T2 Q.T2dag Q.T3 Q.W_vvov),
    aug1 X.roovv (ein4 L.klac L.dekl L.imnbde L.jcmn L.ijab Q.T2 Q.T2dag Q.T3 Q.W_ovoo),
    aug1 X.roovv (ein4 L.klac L.dekl L.ijmbef L.cfmd L.ijab Q.T2 Q.T2dag Q.T3 Q.W_vvov),
    aug1 X.roovv (ein4 L.klac L.dekl L.ijmdef L.cfmb L.ijab Q.T2 Q.T2dag Q.T3 Q.W_vvov),
    aug1 X.roovv (ein4 L.klac L.cdkm L.ijnbde L.meln L.ijab Q.T2 Q.T2dag Q.T3 Q.W_ovoo),
    aug1 X.roovv (ein4 L.klac L.cdkm L.imnbde L.jeln L.ijab Q.T2 Q.T2dag Q.T3 Q.W_ovoo),
    aug1 X.roovv (ein4 L.klac L.cdkm L.ijmbef L.efld L.ijab Q.T2 Q.T2dag Q.T3 Q.W_vvov),
    aug1 X.roovv (ein4 L.klac L.cdkm L.ijmdef L.eflb L.ijab Q.T2 Q.T2dag Q.T3 Q.W_vvov),
    aug1 X.roovv (ein4 L.klac L.dekm L.ijnbde L.mcln L.ijab Q.T2 Q.T2dag Q.T3 Q.W_ovoo),
    aug1 X.roovv (ein4 L.klac L.dekm L.imnbde L.jcln L.ijab Q.T2 Q.T2dag Q.T3 Q.W_ovoo),
    aug1 X.roovv (ein4 L.klac L.dekm L.ijmbef L.cfld L.ijab Q.T2 Q.T2dag Q.T3 Q.W_vvov),
    aug1 X.roovv (ein4 L.klac L.dekm L.ijmdef L.cflb L.ijab Q.T2 Q.T2dag Q.T3 Q.W_vvov),
    aug1 X.roovv (ein4 L.klac L.cdmn L.ijnbde L.mekl L.ijab Q.T2 Q.T2dag Q.T3 Q.W_ovoo),
    aug1 X.roovv (ein4 L.klac L.cdmn L.imnbde L.jekl L.ijab Q.T2 Q.T2dag Q.T3 Q.W_ovoo),
    aug1 X.roovv (ein4 L.ijcd L.cekl L.lmnabe L.kdmn L.ijab Q.T2 Q.T2dag Q.T3 Q.W_ovoo),
    aug1 X.roovv (ein4 L.ijcd L.cekl L.klmabf L.dfme L.ijab Q.T2 Q.T2dag Q.T3 Q.W_vvov),
    aug1 X.roovv (ein4 L.ijcd L.cekl L.klmaef L.dfmb L.ijab Q.T2 Q.T2dag Q.T3 Q.W_vvov),
    aug1 X.roovv (ein4 L.ijcd L.efkl L.klmabf L.cdme L.ijab Q.T2 Q.T2dag Q.T3 Q.W_vvov),
    aug1 X.roovv (ein4 L.ijcd L.efkl L.klmaef L.cdmb L.ijab Q.T2 Q.T2dag Q.T3 Q.W_vvov),
    aug1 X.roovv (ein4 L.ikcd L.cekl L.jmnabe L.ldmn L.ijab Q.T2 Q.T2dag Q.T3 Q.W_ovoo),
    aug1 X.roovv (ein4 L.ikcd L.cekl L.lmnabe L.jdmn L.ijab Q.T2 Q.T2dag Q.T3 Q.W_ovoo),
    aug1 X.roovv (ein4 L.ikcd L.cekl L.jlmabf L.dfme L.ijab Q.T2 Q.T2dag Q.T3 Q.W_vvov),
    aug1 X.roovv (ein4 L.ikcd L.cekl L.jlmaef L.dfmb L.ijab Q.T2 Q.T2dag Q.T3 Q.W_vvov),
    aug1 X.roovv (ein4 L.ikcd L.efkl L.jlmabf L.cdme L.ijab Q.T2 Q.T2dag Q.T3 Q.W_vvov),
    aug1 X.roovv (ein4 L.ikcd L.efkl L.jlmaef L.cdmb L.ijab Q.T2 Q.T2dag Q.T3 Q.W_vvov),
    aug1 X.roovv (ein4 L.ikcd L.cdlm L.jmnabe L.lekn L.ijab Q.T2 Q.T2dag Q.T3 Q.W_ovoo),
    aug1 X.roovv (ein4 L.ikcd L.cdlm L.lmnabe L.jekn L.ijab Q.T2 Q.T2dag Q.T3 Q.W_ovoo),
    aug1 X.roovv (ein4 L.ikcd L.cdlm L.jlmaef L.efkb L.ijab Q.T2 Q.T2dag Q.T3 Q.W_vvov),
    aug1 X.roovv (ein4 L.ikcd L.celm L.jmnabe L.ldkn L.ijab Q.T2 Q.T2dag Q.T3 Q.W_ovoo),
    aug1 X.roovv (ein4 L.ikcd L.celm L.lmnabe L.jdkn L.ijab Q.T2 Q.T2dag Q.T3 Q.W_ovoo),
    aug1 X.roovv (ein4 L.ikcd L.celm L.jlmabf L.dfke L.ijab Q.T2 Q.T2dag Q.T3 Q.W_vvov),
    aug1 X.roovv (ein4 L.ikcd L.celm L.jlmaef L.dfkb L.ijab Q.T2 Q.T2dag Q.T3 Q.W_vvov),
    aug1 X.roovv (ein4 L.klcd L.cekl L.imnabe L.jdmn L.ijab Q.T2 Q.T2dag Q.T3 Q.W_ovoo),
    aug1 X.roovv (ein4 L.klcd L.cekl L.ijmabf L.dfme L.ijab Q.T2 Q.T2dag Q.T3 Q.W_vvov),
    aug1 X.roovv (ein4 L.klcd L.cekl L.ijmaef L.dfmb L.ijab Q.T2 Q.T2dag Q.T3 Q.W_vvov),
    aug1 X.roovv (ein4 L.klcd L.efkl L.ijmabf L.cdme L.ijab Q.T2 Q.T2dag Q.T3 Q.W_vvov),
    aug1 X.roovv (ein4 L.klcd L.efkl L.ijmaef L.cdmb L.ijab Q.T2 Q.T2dag Q.T3 Q.W_vvov),
    aug1 X.roovv (ein4 L.klcd L.cdkm L.ijnabe L.meln L.ijab Q.T2 Q.T2dag Q.T3 Q.W_ovoo),
    aug1 X.roovv (ein4 L.klcd L.cdkm L.imnabe L.jeln L.ijab Q.T2 Q.T2dag Q.T3 Q.W_ovoo),
    aug1 X.roovv (ein4 L.klcd L.cdkm L.ijmaef L.eflb L.ijab Q.T2 Q.T2dag Q.T3 Q.W_vvov),
    aug1 X.roovv (ein4 L.klcd L.cekm L.ijnabe L.mdln L.ijab Q.T2 Q.T2dag Q.T3 Q.W_ovoo),
    aug1 X.roovv (ein4 L.klcd L.cekm L.imnabe L.jdln L.ijab Q.T2 Q.T2dag Q.T3 Q.W_ovoo),
    aug1 X.roovv (ein4 L.klcd L.cekm L.ijmabf L.dfle L.ijab Q.T2 Q.T2dag Q.T3 Q.W_vvov),
    aug1 X.roovv (ein4 L.klcd L.cekm L.ijmaef L.dflb L.ijab Q.T2 Q.T2dag Q.T3 Q.W_vvov),
    aug1 X.roovv (ein4 L.klcd L.cdmn L.ijnabe L.mekl L.ijab Q.T2 Q.T2dag Q.T3 Q.W_ovoo),
    aug1 X.roovv (ein4 L.klcd L.cdmn L.imnabe L.jekl L.ijab Q.T2 Q.T2dag Q.T3 Q.W_ovoo),
    set1 X.tmp0 (.none),
    set1 X.tmp1 (.none),
    set1 X.roovv (.call F.tamps_antisym_T2 [Q.roovv, Q.tmp0, Q.tmp1])]
  ret := [Q.roovv]

/-- `cc_energy.py` 28-40: `spinorbitalCCSDE`; 5 einsum calls. -/
def cc_energy_spinorbitalCCSDE : Fn where
  params := [X.F, X.W, X.T2, X.T1]
  body := [
    set1 X.energy (ein1 L.ii [] Q.F_oo),
    aug1 X.energy (ein1 L.jiji [] Q.W_oooo),
    aug1 X.energy (ein2 L.ijab L.abij [] Q.T2 Q.W_vvoo),
    aug1 X.energy (ein2 L.ai L.ia [] Q.F_vo Q.T1),
    aug1 X.energy (ein3 L.ia L.jb L.abij [] Q.T1 Q.T1 Q.W_vvoo)]
  ret := [Q.energy]

/-- `cc_energy.py` 28-40: `spinorbitalCCSDE` (variant `noT1`); 3 einsum calls. -/
def cc_energy_spinorbitalCCSDE_noT1 : Fn where
  params := [X.F, X.W, X.T2]
  body := [
    set1 X.energy (ein1 L.ii [] Q.F_oo),
    aug1 X.energy (ein1 L.jiji [] Q.W_oooo),
    aug1 X.energy (ein2 L.ijab L.abij [] Q.T2 Q.W_vvoo)]
  ret := [Q.energy]

/-- `cc_energy.py` 91-103: `sixthOrderQf_wnT2cubed`; 3 einsum calls. -/
def cc_energy_sixthOrderQf_wnT2cubed : Fn where
  params := [X.W, X.T2, X.D2]
  body := [
    set1 X.D4T4 (.call F.build_qf_correction_wnT2cubed_toT4 [Q.W, Q.T2]),
    set1 X.D4T4 (.arg Q.D4T4_t45670123),
    set1 X.resid_aaaa (ein2 L.klcd L.abcdijkl L.abij Q.T2 Q.D4T4),
    set1 X.tmp0 (.mul Q.W_oovv Q.D2),
    set1 X.sixthO_wnT2cubed (ein2 L.ijab L.abij [] Q.tmp0 Q.resid_aaaa),
    set1 X.D2T2 (.call F.build_qf_correction_wnT2cubed_toT2 [Q.W, Q.T2]),
    set1 X.D2T2 (.arg Q.D2T2_t2301),
    set1 X.tmp1 (.mul Q.W_oovv Q.D2),
    set1 X.teste (ein2 L.ijab L.abij [] Q.tmp1 Q.D2T2)]
  ret := []

/-- `cc_energy.py` 105-116: `sixthOrderQf_wnT2T3`; 3 einsum calls. -/
def cc_energy_sixthOrderQf_wnT2T3 : Fn where
  params := [X.W, X.T2, X.T3, X.D2]
  body := [
    set1 X.D4T4 (.call F.build_qf_correction_wnT2T3_toT4 [Q.W, Q.T2, Q.T3]),
    set1 X.D4T4 (.arg Q.D4T4_t45670123),
    set1 X.resid_aaaa (ein2 L.klcd L.abcdijkl L.abij Q.T2 Q.D4T4),
    set1 X.tmp0 (.mul Q.W_oovv Q.D2),
    set1 X.sixthO_wnT2T3 (ein2 L.ijab L.abij [] Q.tmp0 Q.resid_aaaa),
    set1 X.D2T2 (.call F.build_qf_correction_wnT2T3_toT2 [Q.W, Q.T2, Q.T3]),
    set1 X.D2T2 (.arg Q.D2T2_t2301),
    set1 X.tmp1 (.mul Q.W_oovv Q.D2),
    set1 X.teste (ein2 L.ijab L.abij [] Q.tmp1 Q.D2T2)]
  ret := []

/-- `cc_energy.py` 118-175: `long_testQf5Order`; 15 einsum calls. -/
def cc_energy_long_testQf5Order : Fn where
  params := [X.W, X.T2, X.D2, X.T3]
  body := [
    set1 X.v_oo (.arg Q.W_oooo),
    set1 X.v_vo (.arg Q.W_ovov),
    set1 X.v_vv (.arg Q.W_vvvv),
    .dim X.no X.T2 0,
    .dim X.nv X.T2 2,
    set1 X.Roooovvvv (.zeros [X.no, X.no, X.no, X.no, X.nv, X.nv, X.nv, X.nv]),
    aug1 X.Roooovvvv (ein3 L.imab L.jncd L.klmn L.ijklabcd Q.T2 Q.T2 Q.v_oo),
    aug1 X.Roooovvvv (ein3 L.imab L.jkce L.lemd L.ijklabcd Q.T2 Q.T2 Q.v_vo),
    aug1 X.Roooovvvv (ein3 L.ijae L.klbf L.efcd L.ijklabcd Q.T2 Q.T2 Q.v_vv),
    set1 X.tmp0 (.none),
    set1 X.tmp1 (.none),
    set1 X.Roooovvvv (.call F.tamps_antisym_T4 [Q.Roooovvvv, Q.tmp0, Q.tmp1]),
    set1 X.t4T (.arg Q.Roooovvvv_t45670123),
    set1 X.resid_aaaa (ein2 L.klcd L.abcdijkl L.abij Q.T2 Q.t4T),
    set1 X.tmp2 (.mul Q.W_oovv Q.D2),
    set1 X.fifthorder_wnt2 (ein2 L.ijab L.abij [] Q.tmp2 Q.resid_aaaa),
    set1 X.t2test (.call F.cc_energy_optWnT2sqr [Q.W, Q.T2]),
    set1 X.tmp3 (.none),
    set1 X.tmp4 (.none),
    set1 X.t2test (.call F.tamps_antisym_T2 [Q.t2test, Q.tmp3, Q.tmp4]),
    set1 X.t2test (.arg Q.t2test_t2301),
    set1 X.tmp5 (.mul Q.W_oovv Q.D2),
    set1 X.teste (ein2 L.ijab L.abij [] Q.tmp5 Q.t2test),
    set1 X.t2test (.call F.cc_energy_optWnT3 [Q.W, Q.T3, Q.T2]),
    set1 X.tmp6 (.none),
    set1 X.tmp7 (.none),
    set1 X.t2test (.call F.tamps_antisym_T2 [Q.t2test, Q.tmp6, Q.tmp7]),
    set1 X.t2test (.arg Q.t2test_t2301),
    set1 X.tmp8 (.mul Q.W_oovv Q.D2),
    set1 X.teste (ein2 L.ijab L.abij [] Q.tmp8 Q.t2test),
    set1 X.Roooovvvv (.zeros [X.no, X.no, X.no, X.no, X.nv, X.nv, X.nv, X.nv]),
    aug1 X.Roooovvvv (ein2 L.ijmabc L.klmd L.ijklabcd Q.T3 Q.W_ooov),
    aug1 X.Roooovvvv (ein2 L.ijkabe L.lecd L.ijklabcd Q.T3 Q.W_ovvv),
    set1 X.tmp9 (.none),
    set1 X.tmp10 (.none),
    set1 X.Roooovvvv (.call F.tamps_antisym_T4 [Q.Roooovvvv, Q.tmp9, Q.tmp10]),
    set1 X.t4T (.arg Q.Roooovvvv_t45670123),
    set1 X.resid_aaaa (ein2 L.klcd L.abcdijkl L.abij Q.T2 Q.t4T),
    set1 X.tmp11 (.mul Q.W_oovv Q.D2),
    set1 X.fifthorder_wnt3 (ein2 L.ijab L.abij [] Q.tmp11 Q.resid_aaaa),
    set1 X.Roooovvvv (.zeros [X.no, X.no, X.no, X.no, X.nv, X.nv, X.nv, X.nv]),
    aug1 X.Roooovvvv (ein2 L.ijmabc L.klmd L.ijklabcd Q.T3 Q.W_ooov),
    aug1 X.Roooovvvv (ein2 L.ijkabe L.lecd L.ijklabcd Q.T3 Q.W_ovvv),
    set1 X.tmp12 (.none),
    set1 X.tmp13 (.none),
    set1 X.Roooovvvv (.call F.tamps_antisym_T4 [Q.Roooovvvv, Q.tmp12, Q.tmp13]),
    set1 X.t4T (.arg Q.Roooovvvv_t45670123),
    set1 X.resid_aaaa (ein2 L.klcd L.abcdijkl L.abij Q.T2 Q.t4T),
    set1 X.tmp14 (.none),
    set1 X.tmp15 (.none),
    set1 X.resid_aaaa (.call F.tamps_antisym_T2 [Q.resid_aaaa, Q.tmp14, Q.tmp15]),
    set1 X.tmp16 (.mul Q.W_oovv Q.D2),
    set1 X.fifthorder_wnt3 (ein2 L.ijab L.abij [] Q.tmp16 Q.resid_aaaa)]
  ret := []

/-- `cc_energy.py` 177-193: `optWnT3`; 12 einsum calls. -/
def cc_energy_optWnT3 : Fn where
  params := [X.W, X.T3, X.T2]
  body := [
    set1 X.T2dag (.arg Q.T2_t2301),
    set1 X.roovv (ein3 L.cdkl L.ijmabd L.klmc L.ijab Q.T2dag Q.T3 Q.W_ooov),
    aug1 X.roovv (ein3 L.cdkl L.ilmabd L.jkmc L.ijab Q.T2dag Q.T3 Q.W_ooov),
    aug1 X.roovv (ein3 L.cdkl L.klmabd L.ijmc L.ijab Q.T2dag Q.T3 Q.W_ooov),
    aug1 X.roovv (ein3 L.cdkl L.ijlabe L.kecd L.ijab Q.T2dag Q.T3 Q.W_ovvv),
    aug1 X.roovv (ein3 L.cdkl L.iklabe L.jecd L.ijab Q.T2dag Q.T3 Q.W_ovvv),
    aug1 X.roovv (ein3 L.cdkl L.ijmacd L.klmb L.ijab Q.T2dag Q.T3 Q.W_ooov),
    aug1 X.roovv (ein3 L.cdkl L.ilmacd L.jkmb L.ijab Q.T2dag Q.T3 Q.W_ooov),
    aug1 X.roovv (ein3 L.cdkl L.klmacd L.ijmb L.ijab Q.T2dag Q.T3 Q.W_ooov),
    aug1 X.roovv (ein3 L.cdkl L.ijlade L.kebc L.ijab Q.T2dag Q.T3 Q.W_ovvv),
    aug1 X.roovv (ein3 L.cdkl L.iklade L.jebc L.ijab Q.T2dag Q.T3 Q.W_ovvv),
    aug1 X.roovv (ein3 L.cdkl L.ijlcde L.keab L.ijab Q.T2dag Q.T3 Q.W_ovvv),
    aug1 X.roovv (ein3 L.cdkl L.iklcde L.jeab L.ijab Q.T2dag Q.T3 Q.W_ovvv)]
  ret := [Q.roovv]

/-- `cc_energy.py` 198-231: `optWnT2sqr`; 30 einsum calls. -/
def cc_energy_optWnT2sqr : Fn where
  params := [X.W, X.T2]
  body := [
    set1 X.T2dag (.arg Q.T2_t2301),
    set1 X.roovv (ein4 L.ikab L.jlcd L.celm L.mdke L.ijab Q.T2 Q.T2 Q.T2dag Q.W_ovov),
    aug1 X.roovv (ein4 L.ikab L.jlcd L.cdmn L.mnkl L.ijab Q.T2 Q.T2 Q.T2dag Q.W_oooo),
    aug1 X.roovv (ein4 L.ikab L.lmcd L.celm L.jdke L.ijab Q.T2 Q.T2 Q.T2dag Q.W_ovov),
    aug1 X.roovv (ein4 L.ikab L.lmcd L.cdln L.jnkm L.ijab Q.T2 Q.T2 Q.T2dag Q.W_oooo),
    aug1 X.roovv (ein4 L.klab L.ijcd L.cekm L.mdle L.ijab Q.T2 Q.T2 Q.T2dag Q.W_ovov),
    aug1 X.roovv (ein4 L.klab L.imcd L.cekm L.jdle L.ijab Q.T2 Q.T2 Q.T2dag Q.W_ovov),
    aug1 X.roovv (ein4 L.klab L.imcd L.cdkn L.jnlm L.ijab Q.T2 Q.T2 Q.T2dag Q.W_oooo),
    aug1 X.roovv (ein4 L.klab L.mncd L.cdkm L.ijln L.ijab Q.T2 Q.T2 Q.T2dag Q.W_oooo),
    aug1 X.roovv (ein4 L.ijac L.klbd L.efkl L.cdef L.ijab Q.T2 Q.T2 Q.T2dag Q.W_vvvv),
    aug1 X.roovv (ein4 L.ijac L.klbd L.dekm L.mcle L.ijab Q.T2 Q.T2 Q.T2dag Q.W_ovov),
    aug1 X.roovv (ein4 L.ijac L.klde L.dfkl L.cebf L.ijab Q.T2 Q.T2 Q.T2dag Q.W_vvvv),
    aug1 X.roovv (ein4 L.ijac L.klde L.dekm L.mclb L.ijab Q.T2 Q.T2 Q.T2dag Q.W_ovov),
    aug1 X.roovv (ein4 L.ikac L.jlbd L.efkl L.cdef L.ijab Q.T2 Q.T2 Q.T2dag Q.W_vvvv),
    aug1 X.roovv (ein4 L.ikac L.jlbd L.dekm L.mcle L.ijab Q.T2 Q.T2 Q.T2dag Q.W_ovov),
    aug1 X.roovv (ein4 L.ikac L.jlbd L.cdmn L.mnkl L.ijab Q.T2 Q.T2 Q.T2dag Q.W_oooo),
    aug1 X.roovv (ein4 L.ikac L.lmbd L.dekl L.jcme L.ijab Q.T2 Q.T2 Q.T2dag Q.W_ovov),
    aug1 X.roovv (ein4 L.ikac L.lmbd L.cdln L.jnkm L.ijab Q.T2 Q.T2 Q.T2dag Q.W_oooo),
    aug1 X.roovv (ein4 L.ikac L.jlde L.dfkl L.cebf L.ijab Q.T2 Q.T2 Q.T2dag Q.W_vvvv),
    aug1 X.roovv (ein4 L.ikac L.jlde L.dekm L.mclb L.ijab Q.T2 Q.T2 Q.T2dag Q.W_ovov),
    aug1 X.roovv (ein4 L.ikac L.jlde L.cdlm L.mekb L.ijab Q.T2 Q.T2 Q.T2dag Q.W_ovov),
    aug1 X.roovv (ein4 L.ikac L.lmde L.dekl L.jcmb L.ijab Q.T2 Q.T2 Q.T2dag Q.W_ovov),
    aug1 X.roovv (ein4 L.ikac L.lmde L.cdlm L.jekb L.ijab Q.T2 Q.T2 Q.T2dag Q.W_ovov),
    aug1 X.roovv (ein4 L.klac L.imbd L.dekl L.jcme L.ijab Q.T2 Q.T2 Q.T2dag Q.W_ovov),
    aug1 X.roovv (ein4 L.klac L.mnbd L.cdkm L.ijln L.ijab Q.T2 Q.T2 Q.T2dag Q.W_oooo),
    aug1 X.roovv (ein4 L.klac L.ijde L.dfkl L.cebf L.ijab Q.T2 Q.T2 Q.T2dag Q.W_vvvv),
    aug1 X.roovv (ein4 L.klac L.ijde L.cdkm L.melb L.ijab Q.T2 Q.T2 Q.T2dag Q.W_ovov),
    aug1 X.roovv (ein4 L.klac L.imde L.dekl L.jcmb L.ijab Q.T2 Q.T2 Q.T2dag Q.W_ovov),
    aug1 X.roovv (ein4 L.klac L.imde L.cdkm L.jelb L.ijab Q.T2 Q.T2 Q.T2dag Q.W_ovov),
    aug1 X.roovv (ein4 L.ijcd L.klef L.cekl L.dfab L.ijab Q.T2 Q.T2 Q.T2dag Q.W_vvvv),
    aug1 X.roovv (ein4 L.ikcd L.jlef L.cekl L.dfab L.ijab Q.T2 Q.T2 Q.T2dag Q.W_vvvv)]
  ret := [Q.roovv]

/-- `cc_energy.py` 235-249: `T3portion_Qf`; 12 einsum calls. -/
def cc_energy_T3portion_Qf : Fn where
  params := [X.T2dag, X.T3, X.W]
  body := [
    set1 X.roovv (ein3 L.cdkl L.ijmabd L.klmc L.ijab Q.T2dag Q.T3 Q.W_ooov),
    aug1 X.roovv (ein3 L.cdkl L.ilmabd L.jkmc L.ijab Q.T2dag Q.T3 Q.W_ooov),
    aug1 X.roovv (ein3 L.cdkl L.klmabd L.ijmc L.ijab Q.T2dag Q.T3 Q.W_ooov),
    aug1 X.roovv (ein3 L.cdkl L.ijlabe L.kecd L.ijab Q.T2dag Q.T3 Q.W_ovvv),
    aug1 X.roovv (ein3 L.cdkl L.iklabe L.jecd L.ijab Q.T2dag Q.T3 Q.W_ovvv),
    aug1 X.roovv (ein3 L.cdkl L.ijmacd L.klmb L.ijab Q.T2dag Q.T3 Q.W_ooov),
    aug1 X.roovv (ein3 L.cdkl L.ilmacd L.jkmb L.ijab Q.T2dag Q.T3 Q.W_ooov),
    aug1 X.roovv (ein3 L.cdkl L.klmacd L.ijmb L.ijab Q.T2dag Q.T3 Q.W_ooov),
    aug1 X.roovv (ein3 L.cdkl L.ijlade L.kebc L.ijab Q.T2dag Q.T3 Q.W_ovvv),
    aug1 X.roovv (ein3 L.cdkl L.iklade L.jebc L.ijab Q.T2dag Q.T3 Q.W_ovvv),
    aug1 X.roovv (ein3 L.cdkl L.ijlcde L.keab L.ijab Q.T2dag Q.T3 Q.W_ovvv),
    aug1 X.roovv (ein3 L.cdkl L.iklcde L.jeab L.ijab Q.T2dag Q.T3 Q.W_ovvv)]
  ret := [Q.roovv]

/-- `cc_energy.py` 251-255: `build_approxT3`; 2 einsum calls. -/
def cc_energy_build_approxT3 : Fn where
  params := [X.T2, X.W]
  body := [
    set1 X.rooovvv (ein2 L.ilab L.jklc L.ijkabc Q.T2 Q.W_ooov),
    aug1 X.rooovvv (ein2 L.ijad L.kdbc L.ijkabc Q.T2 Q.W_ovvv)]
  ret := [Q.rooovvv]

/-- `pdagq_t4resid.py` 3-240: `t4_test_residual`; 216 einsum calls. -/
def pdagq_t4resid_t4_test_residual : Fn where
  params := [X.g, X.t2]
  body := [
    set1 X.contracted_intermediate (ein3 L.nmkl L.abjm L.cdin L.abcdijkl Q.g_oaoaoaoa Q.t2 Q.t2),
    .set X.quadruples_res [.arg Q.contracted_intermediate, ein1 L.abcdijkl L.abcdjikl Q.contracted_intermediate, ein1 L.abcdijkl L.acbdijkl Q.contracted_intermediate, ein1 L.abcdijkl L.acbdjikl Q.contracted_intermediate],
    set1 X.contracted_intermediate (ein3 L.nmkl L.adjm L.bcin L.abcdijkl Q.g_oaoaoaoa Q.t2 Q.t2),
    .aug X.quadruples_res [.arg Q.contracted_intermediate, ein1 L.abcdijkl L.abcdjikl Q.contracted_intermediate],
    set1 X.contracted_intermediate (ein3 L.nmjl L.abkm L.cdin L.abcdijkl Q.g_oaoaoaoa Q.t2 Q.t2),
    .aug X.quadruples_res [.arg Q.contracted_intermediate, ein1 L.abcdijkl L.abcdkjil Q.contracted_intermediate, ein1 L.abcdijkl L.acbdijkl Q.contracted_intermediate, ein1 L.abcdijkl L.acbdkjil Q.contracted_intermediate],
    set1 X.contracted_intermediate (ein3 L.nmjl L.adkm L.bcin L.abcdijkl Q.g_oaoaoaoa Q.t2 Q.t2),
    .aug X.quadruples_res [.arg Q.contracted_intermediate, ein1 L.abcdijkl L.abcdkjil Q.contracted_intermediate],
    set1 X.contracted_intermediate (ein3 L.nmil L.abkm L.cdjn L.abcdijkl Q.g_oaoaoaoa Q.t2 Q.t2),
    .aug X.quadruples_res [.arg Q.contracted_intermediate, ein1 L.abcdijkl L.abcdikjl Q.contracted_intermediate, ein1 L.abcdijkl L.acbdijkl Q.contracted_intermediate, ein1 L.abcdijkl L.acbdikjl Q.contracted_intermediate],
    set1 X.contracted_intermediate (ein3 L.nmil L.adkm L.bcjn L.abcdijkl Q.g_oaoaoaoa Q.t2 Q.t2),
    .aug X.quadruples_res [.arg Q.contracted_intermediate, ein1 L.abcdijkl L.abcdikjl Q.contracted_intermediate],
    set1 X.contracted_intermediate (ein3 L.nmjk L.ablm L.cdin L.abcdijkl Q.g_oaoaoaoa Q.t2 Q.t2),
    .aug X.quadruples_res [.arg Q.contracted_intermediate, ein1 L.abcdijkl L.abcdljki Q.contracted_intermediate, ein1 L.abcdijkl L.acbdijkl Q.contracted_intermediate, ein1 L.abcdijkl L.acbdljki Q.contracted_intermediate],
    set1 X.contracted_intermediate (ein3 L.nmjk L.adlm L.bcin L.abcdijkl Q.g_oaoaoaoa Q.t2 Q.t2),
    .aug X.quadruples_res [.arg Q.contracted_intermediate, ein1 L.abcdijkl L.abcdljki Q.contracted_intermediate],
    set1 X.contracted_intermediate (ein3 L.nmik L.ablm L.cdjn L.abcdijkl Q.g_oaoaoaoa Q.t2 Q.t2),
    .aug X.quadruples_res [.arg Q.contracted_intermediate, ein1 L.abcdijkl L.abcdilkj Q.contracted_intermediate, ein1 L.abcdijkl L.acbdijkl Q.contracted_intermediate, ein1 L.abcdijkl L.acbdilkj Q.contracted_intermediate],
    set1 X.contracted_intermediate (ein3 L.nmik L.adlm L.bcjn L.abcdijkl Q.g_oaoaoaoa Q.t2 Q.t2),
    .aug X.quadruples_res [.arg Q.contracted_intermediate, ein1 L.abcdijkl L.abcdilkj Q.contracted_intermediate],
    set1 X.contracted_intermediate (ein3 L.nmij L.ablm L.cdkn L.abcdijkl Q.g_oaoaoaoa Q.t2 Q.t2),
    .aug X.quadruples_res [.arg Q.contracted_intermediate, ein1 L.abcdijkl L.abcdijlk Q.contracted_intermediate, ein1 L.abcdijkl L.acbdijkl Q.contracted_intermediate, ein1 L.abcdijkl L.acbdijlk Q.contracted_intermediate],
    set1 X.contracted_intermediate (ein3 L.nmij L.adlm L.bckn L.abcdijkl Q.g_oaoaoaoa Q.t2 Q.t2),
    .aug X.quadruples_res [.arg Q.contracted_intermediate, ein1 L.abcdijkl L.abcdijlk Q.contracted_intermediate],
    set1 X.t4_resid_oo (.arg Q.quadruples_res),
    set1 X.contracted_intermediate (ein3 L.mael L.ebjk L.cdim L.abcdijkl Q.g_oavavaoa Q.t2 Q.t2),
    .aug X.quadruples_res [.arg Q.contracted_intermediate, ein1 L.abcdijkl L.abcdjikl Q.contracted_intermediate, ein1 L.abcdijkl L.acbdijkl Q.contracted_intermediate, ein1 L.abcdijkl L.acbdjikl Q.contracted_intermediate],
    set1 X.contracted_intermediate (ein3 L.mael L.ebij L.cdkm L.abcdijkl Q.g_oavavaoa Q.t2 Q.t2),
    .aug X.quadruples_res [.arg Q.contracted_intermediate, ein1 L.abcdijkl L.abcdijlk Q.contracted_intermediate, ein1 L.abcdijkl L.acbdijkl Q.contracted_intermediate, ein1 L.abcdijkl L.acbdijlk Q.contracted_intermediate],
    set1 X.contracted_intermediate (ein3 L.mael L.edjk L.bcim L.abcdijkl Q.g_oavavaoa Q.t2 Q.t2),
    .aug X.quadruples_res [.arg Q.contracted_intermediate, ein1 L.abcdijkl L.abcdjikl Q.contracted_intermediate, ein1 L.abcdijkl L.bacdijkl Q.contracted_intermediate, ein1 L.abcdijkl L.bacdjikl Q.contracted_intermediate],
    set1 X.contracted_intermediate (ein3 L.mael L.edij L.bckm L.abcdijkl Q.g_oavavaoa Q.t2 Q.t2),
    .aug X.quadruples_res [.arg Q.contracted_intermediate, ein1 L.abcdijkl L.abcdijlk Q.contracted_intermediate, ein1 L.abcdijkl L.bacdijkl Q.contracted_intermediate, ein1 L.abcdijkl L.bacdijlk Q.contracted_intermediate],
    set1 X.contracted_intermediate (ein3 L.maek L.ebjl L.cdim L.abcdijkl Q.g_oavavaoa Q.t2 Q.t2),
    .aug X.quadruples_res [.arg Q.contracted_intermediate, ein1 L.abcdijkl L.abcdjikl Q.contracted_intermediate, ein1 L.abcdijkl L.acbdijkl Q.contracted_intermediate, ein1 L.abcdijkl L.acbdjikl Q.contracted_intermediate],
    set1 X.contracted_intermediate (ein3 L.maek L.edjl L.bcim L.abcdijkl Q.g_oavavaoa Q.t2 Q.t2),
    .aug X.quadruples_res [.arg Q.contracted_intermediate, ein1 L.abcdijkl L.abcdjikl Q.contracted_intermediate, ein1 L.abcdijkl L.bacdijkl Q.contracted_intermediate, ein1 L.abcdijkl L.bacdjikl Q.contracted_intermediate],
    set1 X.contracted_intermediate (ein3 L.maej L.ebkl L.cdim L.abcdijkl Q.g_oavavaoa Q.t2 Q.t2),
    .aug X.quadruples_res [.arg Q.contracted_intermediate, ein1 L.abcdijkl L.abcdkjil Q.contracted_intermediate, ein1 L.abcdijkl L.acbdijkl Q.contracted_intermediate, ein1 L.abcdijkl L.acbdkjil Q.contracted_intermediate],
    set1 X.contracted_intermediate (ein3 L.maej L.ebik L.cdlm L.abcdijkl Q.g_oavavaoa Q.t2 Q.t2),
    .aug X.quadruples_res [.arg Q.contracted_intermediate, ein1 L.abcdijkl L.abcdjikl Q.contracted_intermediate, ein1 L.abcdijkl L.acbdijkl Q.contracted_intermediate, ein1 L.abcdijkl L.acbdjikl Q.contracted_intermediate],
    set1 X.contracted_intermediate (ein3 L.maej L.edkl L.bcim L.abcdijkl Q.g_oavavaoa Q.t2 Q.t2),
    .aug X.quadruples_res [.arg Q.contracted_intermediate, ein1 L.abcdijkl L.abcdkjil Q.contracted_intermediate, ein1 L.abcdijkl L.bacdijkl Q.contracted_intermediate, ein1 L.abcdijkl L.bacdkjil Q.contracted_intermediate],
    set1 X.contracted_intermediate (ein3 L.maej L.edik L.bclm L.abcdijkl Q.g_oavavaoa Q.t2 Q.t2),
    .aug X.quadruples_res [.arg Q.contracted_intermediate, ein1 L.abcdijkl L.abcdjikl Q.contracted_intermediate, ein1 L.abcdijkl L.bacdijkl Q.contracted_intermediate, ein1 L.abcdijkl L.bacdjikl Q.contracted_intermediate],
    set1 X.contracted_intermediate (ein3 L.maei L.ebkl L.cdjm L.abcdijkl Q.g_oavavaoa Q.t2 Q.t2),
    .aug X.quadruples_res [.arg Q.contracted_intermediate, ein1 L.abcdijkl L.abcdikjl Q.contracted_intermediate, ein1 L.abcdijkl L.acbdijkl Q.contracted_intermediate, ein1 L.abcdijkl L.acbdikjl Q.contracted_intermediate],
    set1 X.contracted_intermediate (ein3 L.maei L.edkl L.bcjm L.abcdijkl Q.g_oavavaoa Q.t2 Q.t2),
    .aug X.quadruples_res [.arg Q.contracted_intermediate, ein1 L.abcdijkl L.abcdikjl Q.contracted_intermediate, ein1 L.abcdijkl L.bacdijkl Q.contracted_intermediate, ein1 L.abcdijkl L.bacdikjl Q.contracted_intermediate],
    set1 X.contracted_intermediate (ein3 L.mbel L.eajk L.cdim L.abcdijkl Q.g_oavavaoa Q.t2 Q.t2),
    .aug X.quadruples_res [.arg Q.contracted_intermediate, ein1 L.abcdijkl L.abcdjikl Q.contracted_intermediate, ein1 L.abcdijkl L.cbadijkl Q.contracted_intermediate, ein1 L.abcdijkl L.cbadjikl Q.contracted_intermediate],
    set1 X.contracted_intermediate (ein3 L.mbel L.eaij L.cdkm L.abcdijkl Q.g_oavavaoa Q.t2 Q.t2),
    .aug X.quadruples_res [.arg Q.contracted_intermediate, ein1 L.abcdijkl L.abcdijlk Q.contracted_intermediate, ein1 L.abcdijkl L.cbadijkl Q.contracted_intermediate, ein1 L.abcdijkl L.cbadijlk Q.contracted_intermediate],
    set1 X.contracted_intermediate (ein3 L.mbek L.eajl L.cdim L.abcdijkl Q.g_oavavaoa Q.t2 Q.t2),
    .aug X.quadruples_res [.arg Q.contracted_intermediate, ein1 L.abcdijkl L.abcdjikl Q.contracted_intermediate, ein1 L.abcdijkl L.cbadijkl Q.contracted_intermediate, ein1 L.abcdijkl L.cbadjikl Q.contracted_intermediate],
    set1 X.contracted_intermediate (ein3 L.mbej L.eakl L.cdim L.abcdijkl Q.g_oavavaoa Q.t2 Q.t2),
    .aug X.quadruples_res [.arg Q.contracted_intermediate, ein1 L.abcdijkl L.abcdkjil Q.contracted_intermediate, ein1 L.abcdijkl L.cbadijkl Q.contracted_intermediate, ein1 L.abcdijkl L.cbadkjil Q.contracted_intermediate],
    set1 X.contracted_intermediate (ein3 L.mbej L.eaik L.cdlm L.abcdijkl Q.g_oavavaoa Q.t2 Q.t2),
    .aug X.quadruples_res [.arg Q.contracted_intermediate, ein1 L.abcdijkl L.abcdjikl Q.contracted_intermediate, ein1 L.abcdijkl L.cbadijkl Q.contracted_intermediate, ein1 L.abcdijkl L.cbadjikl Q.contracted_intermediate],
    set1 X.contracted_intermediate (ein3 L.mbei L.eakl L.cdjm L.abcdijkl Q.g_oavavaoa Q.t2 Q.t2),
    .aug X.quadruples_res [.arg Q.contracted_intermediate, ein1 L.abcdijkl L.abcdikjl Q.contracted_intermediate, ein1 L.abcdijkl L.cbadijkl Q.contracted_intermediate, ein1 L.abcdijkl L.cbadikjl Q.contracted_intermediate],
    set1 X.contracted_intermediate (ein3 L.mcel L.eajk L.bdim L.abcdijkl Q.g_oavavaoa Q.t2 Q.t2),
    .aug X.quadruples_res [.arg Q.contracted_intermediate, ein1 L.abcdijkl L.abcdjikl Q.contracted_intermediate, ein1 L.abcdijkl L.bacdijkl Q.contracted_intermediate, ein1 L.abcdijkl L.bacdjikl Q.contracted_intermediate],
    set1 X.contracted_intermediate (ein3 L.mcel L.eaij L.bdkm L.abcdijkl Q.g_oavavaoa Q.t2 Q.t2),
    .aug X.quadruples_res [.arg Q.contracted_intermediate, ein1 L.abcdijkl L.abcdijlk Q.contracted_intermediate, ein1 L.abcdijkl L.bacdijkl Q.contracted_intermediate, ein1 L.abcdijkl L.bacdijlk Q.contracted_intermediate],
    set1 X.contracted_intermediate (ein3 L.mcel L.edjk L.abim L.abcdijkl Q.g_oavavaoa Q.t2 Q.t2),
    .aug X.quadruples_res [.arg Q.contracted_intermediate, ein1 L.abcdijkl L.abcdjikl Q.contracted_intermediate, ein1 L.abcdijkl L.abdcijkl Q.contracted_intermediate, ein1 L.abcdijkl L.abdcjikl Q.contracted_intermediate],
    set1 X.contracted_intermediate (ein3 L.mcel L.edij L.abkm L.abcdijkl Q.g_oavavaoa Q.t2 Q.t2),
    .aug X.quadruples_res [.arg Q.contracted_intermediate, ein1 L.abcdijkl L.abcdijlk Q.contracted_intermediate, ein1 L.abcdijkl L.abdcijkl Q.contracted_intermediate, ein1 L.abcdijkl L.abdcijlk Q.contracted_intermediate],
    set1 X.contracted_intermediate (ein3 L.mcek L.eajl L.bdim L.abcdijkl Q.g_oavavaoa Q.t2 Q.t2),
    .aug X.quadruples_res [.arg Q.contracted_intermediate, ein1 L.abcdijkl L.abcdjikl Q.contracted_intermediate, ein1 L.abcdijkl L.bacdijkl Q.contracted_intermediate, ein1 L.abcdijkl L.bacdjikl Q.contracted_intermediate],
    set1 X.contracted_intermediate (ein3 L.mcek L.edjl L.abim L.abcdijkl Q.g_oavavaoa Q.t2 Q.t2),
    .aug X.quadruples_res [.arg Q.contracted_intermediate, ein1 L.abcdijkl L.abcdjikl Q.contracted_intermediate, ein1 L.abcdijkl L.abdcijkl Q.contracted_intermediate, ein1 L.abcdijkl L.abdcjikl Q.contracted_intermediate],
    set1 X.contracted_intermediate (ein3 L.mcej L.eakl L.bdim L.abcdijkl Q.g_oavavaoa Q.t2 Q.t2),
    .aug X.quadruples_res [.arg Q.contracted_intermediate, ein1 L.abcdijkl L.abcdkjil Q.contracted_intermediate, ein1 L.abcdijkl L.bacdijkl Q.contracted_intermediate, ein1 L.abcdijkl L.bacdkjil Q.contracted_intermediate],
    set1 X.contracted_intermediate (ein3 L.mcej L.eaik L.bdlm L.abcdijkl Q.g_oavavaoa Q.t2 Q.t2),
    .aug X.quadruples_res [.arg Q.contracted_intermediate, ein1 L.abcdijkl L.abcdjikl Q.contracted_intermediate, ein1 L.abcdijkl L.bacdijkl Q.contracted_intermediate, ein1 L.abcdijkl L.bacdjikl Q.contracted_intermediate],
    set1 X.contracted_intermediate (ein3 L.mcej L.edkl L.abim L.abcdijkl Q.g_oavavaoa Q.t2 Q.t2),
    .aug X.quadruples_res [.arg Q.contracted_intermediate, ein1 L.abcdijkl L.abcdkjil Q.contracted_intermediate, ein1 L.abcdijkl L.abdcijkl Q.contracted_intermediate, ein1 L.abcdijkl L.abdckjil Q.contracted_intermediate],
    set1 X.contracted_intermediate (ein3 L.mcej L.edik L.ablm L.abcdijkl Q.g_oavavaoa Q.t2 Q.t2),
    .aug X.quadruples_res [.arg Q.contracted_intermediate, ein1 L.abcdijkl L.abcdjikl Q.contracted_intermediate, ein1 L.abcdijkl L.abdcijkl Q.contracted_intermediate, ein1 L.abcdijkl L.abdcjikl Q.contracted_intermediate],
    set1 X.contracted_intermediate (ein3 L.mcei L.eakl L.bdjm L.abcdijkl Q.g_oavavaoa Q.t2 Q.t2),
    .aug X.quadruples_res [.arg Q.contracted_intermediate, ein1 L.abcdijkl L.abcdikjl Q.contracted_intermediate, ein1 L.abcdijkl L.bacdijkl Q.contracted_intermediate, ein1 L.abcdijkl L.bacdikjl Q.contracted_intermediate],
    set1 X.contracted_intermediate (ein3 L.mcei L.edkl L.abjm L.abcdijkl Q.g_oavavaoa Q.t2 Q.t2),
    .aug X.quadruples_res [.arg Q.contracted_intermediate, ein1 L.abcdijkl L.abcdikjl Q.contracted_intermediate, ein1 L.abcdijkl L.abdcijkl Q.contracted_intermediate, ein1 L.abcdijkl L.abdcikjl Q.contracted_intermediate],
    set1 X.contracted_intermediate (ein3 L.mdel L.eajk L.bcim L.abcdijkl Q.g_oavavaoa Q.t2 Q.t2),
    .aug X.quadruples_res [.arg Q.contracted_intermediate, ein1 L.abcdijkl L.abcdjikl Q.contracted_intermediate, ein1 L.abcdijkl L.bacdijkl Q.contracted_intermediate, ein1 L.abcdijkl L.bacdjikl Q.contracted_intermediate],
    set1 X.contracted_intermediate (ein3 L.mdel L.eaij L.bckm L.abcdijkl Q.g_oavavaoa Q.t2 Q.t2),
    .aug X.quadruples_res [.arg Q.contracted_intermediate, ein1 L.abcdijkl L.abcdijlk Q.contracted_intermediate, ein1 L.abcdijkl L.bacdijkl Q.contracted_intermediate, ein1 L.abcdijkl L.bacdijlk Q.contracted_intermediate],
    set1 X.contracted_intermediate (ein3 L.mdek L.eajl L.bcim L.abcdijkl Q.g_oavavaoa Q.t2 Q.t2),
    .aug X.quadruples_res [.arg Q.contracted_intermediate, ein1 L.abcdijkl L.abcdjikl Q.contracted_intermediate, ein1 L.abcdijkl L.bacdijkl Q.contracted_intermediate, ein1 L.abcdijkl L.bacdjikl Q.contracted_intermediate],
    set1 X.contracted_intermediate (ein3 L.mdej L.eakl L.bcim L.abcdijkl Q.g_oavavaoa Q.t2 Q.t2),
    .aug X.quadruples_res [.arg Q.contracted_intermediate, ein1 L.abcdijkl L.abcdkjil Q.contracted_intermediate, ein1 L.abcdijkl L.bacdijkl Q.contracted_intermediate, ein1 L.abcdijkl L.bacdkjil Q.contracted_intermediate],
    set1 X.contracted_intermediate (ein3 L.mdej L.eaik L.bclm L.abcdijkl Q.g_oavavaoa Q.t2 Q.t2),
    .aug X.quadruples_res [.arg Q.contracted_intermediate, ein1 L.abcdijkl L.abcdjikl Q.contracted_intermediate, ein1 L.abcdijkl L.bacdijkl Q.contracted_intermediate, ein1 L.abcdijkl L.bacdjikl Q.contracted_intermediate],
    set1 X.contracted_intermediate (ein3 L.mdei L.eakl L.bcjm L.abcdijkl Q.g_oavavaoa Q.t2 Q.t2),
    .aug X.quadruples_res [.arg Q.contracted_intermediate, ein1 L.abcdijkl L.abcdikjl Q.contracted_intermediate, ein1 L.abcdijkl L.bacdijkl Q.contracted_intermediate, ein1 L.abcdijkl L.bacdikjl Q.contracted_intermediate],
    set1 X.contracted_intermediate (ein3 L.abef L.eckl L.fdij L.abcdijkl Q.g_vavavava Q.t2 Q.t2),
    .aug X.quadruples_res [.arg Q.contracted_intermediate, ein1 L.abcdijkl L.abcdikjl Q.contracted_intermediate, ein1 L.abcdijkl L.acbdijkl Q.contracted_intermediate, ein1 L.abcdijkl L.acbdikjl Q.contracted_intermediate],
    set1 X.contracted_intermediate (ein3 L.abef L.ecil L.fdjk L.abcdijkl Q.g_vavavava Q.t2 Q.t2),
    .aug X.quadruples_res [.arg Q.contracted_intermediate, ein1 L.abcdijkl L.abcdijlk Q.contracted_intermediate, ein1 L.abcdijkl L.acbdijkl Q.contracted_intermediate, ein1 L.abcdijkl L.acbdijlk Q.contracted_intermediate],
    set1 X.contracted_intermediate (ein3 L.abef L.ecjk L.fdil L.abcdijkl Q.g_vavavava Q.t2 Q.t2),
    .aug X.quadruples_res [.arg Q.contracted_intermediate, ein1 L.abcdijkl L.abcdkjil Q.contracted_intermediate, ein1 L.abcdijkl L.acbdijkl Q.contracted_intermediate, ein1 L.abcdijkl L.acbdkjil Q.contracted_intermediate],
    set1 X.contracted_intermediate (ein3 L.adef L.ebkl L.fcij L.abcdijkl Q.g_vavavava Q.t2 Q.t2),
    .aug X.quadruples_res [.arg Q.contracted_intermediate, ein1 L.abcdijkl L.abcdikjl Q.contracted_intermediate, ein1 L.abcdijkl L.bacdijkl Q.contracted_intermediate, ein1 L.abcdijkl L.bacdikjl Q.contracted_intermediate],
    set1 X.contracted_intermediate (ein3 L.adef L.ebil L.fcjk L.abcdijkl Q.g_vavavava Q.t2 Q.t2),
    .aug X.quadruples_res [.arg Q.contracted_intermediate, ein1 L.abcdijkl L.abcdijlk Q.contracted_intermediate, ein1 L.abcdijkl L.bacdijkl Q.contracted_intermediate, ein1 L.abcdijkl L.bacdijlk Q.contracted_intermediate],
    set1 X.contracted_intermediate (ein3 L.adef L.ebjk L.fcil L.abcdijkl Q.g_vavavava Q.t2 Q.t2),
    .aug X.quadruples_res [.arg Q.contracted_intermediate, ein1 L.abcdijkl L.abcdkjil Q.contracted_intermediate, ein1 L.abcdijkl L.bacdijkl Q.contracted_intermediate, ein1 L.abcdijkl L.bacdkjil Q.contracted_intermediate],
    set1 X.contracted_intermediate (ein3 L.bcef L.eakl L.fdij L.abcdijkl Q.g_vavavava Q.t2 Q.t2),
    .aug X.quadruples_res [.arg Q.contracted_intermediate, ein1 L.abcdijkl L.abcdikjl Q.contracted_intermediate, ein1 L.abcdijkl L.adcbijkl Q.contracted_intermediate, ein1 L.abcdijkl L.adcbikjl Q.contracted_intermediate],
    set1 X.contracted_intermediate (ein3 L.bcef L.eail L.fdjk L.abcdijkl Q.g_vavavava Q.t2 Q.t2),
    .aug X.quadruples_res [.arg Q.contracted_intermediate, ein1 L.abcdijkl L.abcdijlk Q.contracted_intermediate, ein1 L.abcdijkl L.adcbijkl Q.contracted_intermediate, ein1 L.abcdijkl L.adcbijlk Q.contracted_intermediate],
    set1 X.contracted_intermediate (ein3 L.bcef L.eajk L.fdil L.abcdijkl Q.g_vavavava Q.t2 Q.t2),
    .aug X.quadruples_res [.arg Q.contracted_intermediate, ein1 L.abcdijkl L.abcdkjil Q.contracted_intermediate, ein1 L.abcdijkl L.adcbijkl Q.contracted_intermediate, ein1 L.abcdijkl L.adcbkjil Q.contracted_intermediate]]
  ret := [Q.t4_resid_oo, Q.quadruples_res]

/-- `build_approxT3full.py` 5-43: `ccsdtq_t3_aaaaaa_residual`; 18 einsum calls. -/
def build_approxT3full_ccsdtq_t3_aaaaaa_residual : Fn where
  params := [X.g_aaaa, X.t2_aaaa]
  body := [
    set1 X.contracted_intermediate (ein2 L.lajk L.bcil L.abcijk Q.g_aaaa_oavaoaoa Q.t2_aaaa),
    .set X.triples_res [.arg Q.contracted_intermediate, ein1 L.abcijk L.abcjik Q.contracted_intermediate, ein1 L.abcijk L.bacijk Q.contracted_intermediate, ein1 L.abcijk L.bacjik Q.contracted_intermediate],
    set1 X.contracted_intermediate (ein2 L.laij L.bckl L.abcijk Q.g_aaaa_oavaoaoa Q.t2_aaaa),
    .aug X.triples_res [.arg Q.contracted_intermediate, ein1 L.abcijk L.bacijk Q.contracted_intermediate],
    set1 X.contracted_intermediate (ein2 L.lcjk L.abil L.abcijk Q.g_aaaa_oavaoaoa Q.t2_aaaa),
    .aug X.triples_res [.arg Q.contracted_intermediate, ein1 L.abcijk L.abcjik Q.contracted_intermediate],
    aug1 X.triples_res (ein2 L.lcij L.abkl L.abcijk Q.g_aaaa_oavaoaoa Q.t2_aaaa),
    set1 X.contracted_intermediate (ein2 L.abdk L.dcij L.abcijk Q.g_aaaa_vavavaoa Q.t2_aaaa),
    .aug X.triples_res [.arg Q.contracted_intermediate, ein1 L.abcijk L.abcikj Q.contracted_intermediate, ein1 L.abcijk L.acbijk Q.contracted_intermediate, ein1 L.abcijk L.acbikj Q.contracted_intermediate],
    set1 X.contracted_intermediate (ein2 L.abdi L.dcjk L.abcijk Q.g_aaaa_vavavaoa Q.t2_aaaa),
    .aug X.triples_res [.arg Q.contracted_intermediate, ein1 L.abcijk L.acbijk Q.contracted_intermediate],
    set1 X.contracted_intermediate (ein2 L.bcdk L.daij L.abcijk Q.g_aaaa_vavavaoa Q.t2_aaaa),
    .aug X.triples_res [.arg Q.contracted_intermediate, ein1 L.abcijk L.abcikj Q.contracted_intermediate],
    aug1 X.triples_res (ein2 L.bcdi L.dajk L.abcijk Q.g_aaaa_vavavaoa Q.t2_aaaa)]
  ret := [Q.triples_res]

/-- `build_approxT3full.py` 46-91: `ccsdtq_t3_aabaab_residual`; 16 einsum calls. -/
def build_approxT3full_ccsdtq_t3_aabaab_residual : Fn where
  params := [X.g_abab, X.t2_abab, X.g_aaaa, X.t2_aaaa]
  body := [
    set1 X.contracted_intermediate (ein2 L.aljk L.bcil L.abcijk Q.g_abab_vaoaoaoa Q.t2_abab),
    .set X.triples_res [.arg Q.contracted_intermediate, ein1 L.abcijk L.abcjik Q.contracted_intermediate, ein1 L.abcijk L.bacijk Q.contracted_intermediate, ein1 L.abcijk L.bacjik Q.contracted_intermediate],
    set1 X.contracted_intermediate (ein2 L.laij L.bclk L.abcijk Q.g_aaaa_oavaoaoa Q.t2_abab),
    .aug X.triples_res [.arg Q.contracted_intermediate, ein1 L.abcijk L.bacijk Q.contracted_intermediate],
    set1 X.contracted_intermediate (ein2 L.lcjk L.abil L.abcijk Q.g_abab_oavaoaoa Q.t2_aaaa),
    .aug X.triples_res [.arg Q.contracted_intermediate, ein1 L.abcijk L.abcjik Q.contracted_intermediate],
    aug1 X.triples_res (ein2 L.acdk L.dbij L.abcijk Q.g_abab_vavavaoa Q.t2_aaaa),
    aug1 X.triples_res (ein2 L.abdj L.dcik L.abcijk Q.g_aaaa_vavavaoa Q.t2_abab),
    aug1 X.triples_res (ein2 L.acjd L.bdik L.abcijk Q.g_abab_vavaoava Q.t2_abab),
    aug1 X.triples_res (ein2 L.abdi L.dcjk L.abcijk Q.g_aaaa_vavavaoa Q.t2_abab),
    aug1 X.triples_res (ein2 L.acid L.bdjk L.abcijk Q.g_abab_vavaoava Q.t2_abab),
    aug1 X.triples_res (ein2 L.bcdk L.daij L.abcijk Q.g_abab_vavavaoa Q.t2_aaaa),
    aug1 X.triples_res (ein2 L.bcjd L.adik L.abcijk Q.g_abab_vavaoava Q.t2_abab),
    aug1 X.triples_res (ein2 L.bcid L.adjk L.abcijk Q.g_abab_vavaoava Q.t2_abab)]
  ret := [Q.triples_res]

/-- `build_approxT3full.py` 94-139: `ccsdtq_t3_abbabb_residual`; 16 einsum calls. -/
def build_approxT3full_ccsdtq_t3_abbabb_residual : Fn where
  params := [X.g_bbbb, X.t2_abab, X.g_abab, X.t2_bbbb]
  body := [
    set1 X.triples_res (ein2 L.lbjk L.acil L.abcijk Q.g_bbbb_oavaoaoa Q.t2_abab),
    aug1 X.triples_res (ein2 L.alik L.bcjl L.abcijk Q.g_abab_vaoaoaoa Q.t2_bbbb),
    aug1 X.triples_res (ein2 L.lbik L.aclj L.abcijk Q.g_abab_oavaoaoa Q.t2_abab),
    aug1 X.triples_res (ein2 L.alij L.bckl L.abcijk Q.g_abab_vaoaoaoa Q.t2_bbbb),
    aug1 X.triples_res (ein2 L.lbij L.aclk L.abcijk Q.g_abab_oavaoaoa Q.t2_abab),
    aug1 X.triples_res (ein2 L.lcjk L.abil L.abcijk Q.g_bbbb_oavaoaoa Q.t2_abab),
    aug1 X.triples_res (ein2 L.lcik L.ablj L.abcijk Q.g_abab_oavaoaoa Q.t2_abab),
    aug1 X.triples_res (ein2 L.lcij L.ablk L.abcijk Q.g_abab_oavaoaoa Q.t2_abab),
    set1 X.contracted_intermediate (ein2 L.abdk L.dcij L.abcijk Q.g_abab_vavavaoa Q.t2_abab),
    .aug X.triples_res [.arg Q.contracted_intermediate, ein1 L.abcijk L.abcikj Q.contracted_intermediate, ein1 L.abcijk L.acbijk Q.contracted_intermediate, ein1 L.abcijk L.acbikj Q.contracted_intermediate],
    set1 X.contracted_intermediate (ein2 L.abid L.dcjk L.abcijk Q.g_abab_vavaoava Q.t2_bbbb),
    .aug X.triples_res [.arg Q.contracted_intermediate, ein1 L.abcijk L.acbijk Q.contracted_intermediate],
    set1 X.contracted_intermediate (ein2 L.bcdk L.adij L.abcijk Q.g_bbbb_vavavaoa Q.t2_abab),
    .aug X.triples_res [.arg Q.contracted_intermediate, ein1 L.abcijk L.abcikj Q.contracted_intermediate]]
  ret := [Q.triples_res]

/-- `build_approxT3full.py` 142-181: `ccsdtq_t3_bbbbbb_residual`; 18 einsum calls. -/
def build_approxT3full_ccsdtq_t3_bbbbbb_residual : Fn where
  params := [X.g_bbbb, X.t2_bbbb]
  body := [
    set1 X.contracted_intermediate (ein2 L.lajk L.bcil L.abcijk Q.g_bbbb_oavaoaoa Q.t2_bbbb),
    .set X.triples_res [.arg Q.contracted_intermediate, ein1 L.abcijk L.abcjik Q.contracted_intermediate, ein1 L.abcijk L.bacijk Q.contracted_intermediate, ein1 L.abcijk L.bacjik Q.contracted_intermediate],
    set1 X.contracted_intermediate (ein2 L.laij L.bckl L.abcijk Q.g_bbbb_oavaoaoa Q.t2_bbbb),
    .aug X.triples_res [.arg Q.contracted_intermediate, ein1 L.abcijk L.bacijk Q.contracted_intermediate],
    set1 X.contracted_intermediate (ein2 L.lcjk L.abil L.abcijk Q.g_bbbb_oavaoaoa Q.t2_bbbb),
    .aug X.triples_res [.arg Q.contracted_intermediate, ein1 L.abcijk L.abcjik Q.contracted_intermediate],
    aug1 X.triples_res (ein2 L.lcij L.abkl L.abcijk Q.g_bbbb_oavaoaoa Q.t2_bbbb),
    set1 X.contracted_intermediate (ein2 L.abdk L.dcij L.abcijk Q.g_bbbb_vavavaoa Q.t2_bbbb),
    .aug X.triples_res [.arg Q.contracted_intermediate, ein1 L.abcijk L.abcikj Q.contracted_intermediate, ein1 L.abcijk L.acbijk Q.contracted_intermediate, ein1 L.abcijk L.acbikj Q.contracted_intermediate],
    set1 X.contracted_intermediate (ein2 L.abdi L.dcjk L.abcijk Q.g_bbbb_vavavaoa Q.t2_bbbb),
    .aug X.triples_res [.arg Q.contracted_intermediate, ein1 L.abcijk L.acbijk Q.contracted_intermediate],
    set1 X.contracted_intermediate (ein2 L.bcdk L.daij L.abcijk Q.g_bbbb_vavavaoa Q.t2_bbbb),
    .aug X.triples_res [.arg Q.contracted_intermediate, ein1 L.abcijk L.abcikj Q.contracted_intermediate],
    aug1 X.triples_res (ein2 L.bcdi L.dajk L.abcijk Q.g_bbbb_vavavaoa Q.t2_bbbb)]
  ret := [Q.triples_res]

/-- `square_brakT_corr.py` 4-114: `square_brakT`; 36 einsum calls. -/
def square_brakT_corr_square_brakT : Fn where
  params := [X.g_aaaa, X.l2_aaaa, X.t3_aaaaaa, X.g_abab, X.t3_aabaab, X.l2_abab, X.g_bbbb, X.t3_abbabb, X.l2_bbbb, X.t3_bbbbbb]
  body := [
    set1 X.energy (ein3 L.lkcj L.ijba L.cbailk [] Q.g_aaaa_oovo Q.l2_aaaa Q.t3_aaaaaa),
    aug1 X.energy (ein3 L.lkjc L.ijba L.abcilk [] Q.g_abab_ooov Q.l2_aaaa Q.t3_aabaab),
    aug1 X.energy (ein3 L.kljc L.ijba L.abcikl [] Q.g_abab_ooov Q.l2_aaaa Q.t3_aabaab),
    aug1 X.energy (ein3 L.lkcj L.ijba L.cbailk [] Q.g_abab_oovo Q.l2_abab Q.t3_aabaab),
    aug1 X.energy (ein3 L.klcj L.ijba L.cbaikl [] Q.g_abab_oovo Q.l2_abab Q.t3_aabaab),
    aug1 X.energy (ein3 L.lkcj L.ijba L.bcailk [] Q.g_bbbb_oovo Q.l2_abab Q.t3_abbabb),
    aug1 X.energy (ein3 L.lkcj L.ijab L.cabilk [] Q.g_abab_oovo Q.l2_abab Q.t3_aabaab),
    aug1 X.energy (ein3 L.klcj L.ijab L.cabikl [] Q.g_abab_oovo Q.l2_abab Q.t3_aabaab),
    aug1 X.energy (ein3 L.lkcj L.ijab L.abcilk [] Q.g_bbbb_oovo Q.l2_abab Q.t3_abbabb),
    aug1 X.energy (ein3 L.lkcj L.jiba L.cbakli [] Q.g_aaaa_oovo Q.l2_abab Q.t3_aabaab),
    aug1 X.energy (ein3 L.lkjc L.jiba L.bcalik [] Q.g_abab_ooov Q.l2_abab Q.t3_abbabb),
    aug1 X.energy (ein3 L.kljc L.jiba L.bcakli [] Q.g_abab_ooov Q.l2_abab Q.t3_abbabb),
    aug1 X.energy (ein3 L.lkcj L.jiab L.cabkli [] Q.g_aaaa_oovo Q.l2_abab Q.t3_aabaab),
    aug1 X.energy (ein3 L.lkjc L.jiab L.abclik [] Q.g_abab_ooov Q.l2_abab Q.t3_abbabb),
    aug1 X.energy (ein3 L.kljc L.jiab L.abckli [] Q.g_abab_ooov Q.l2_abab Q.t3_abbabb),
    aug1 X.energy (ein3 L.lkcj L.ijba L.cbalik [] Q.g_abab_oovo Q.l2_bbbb Q.t3_abbabb),
    aug1 X.energy (ein3 L.klcj L.ijba L.cbakli [] Q.g_abab_oovo Q.l2_bbbb Q.t3_abbabb),
    aug1 X.energy (ein3 L.lkcj L.ijba L.cbailk [] Q.g_bbbb_oovo Q.l2_bbbb Q.t3_bbbbbb),
    aug1 X.energy (ein3 L.kbcd L.ijba L.cdaijk [] Q.g_aaaa_ovvv Q.l2_aaaa Q.t3_aaaaaa),
    aug1 X.energy (ein3 L.bkcd L.ijba L.cadijk [] Q.g_abab_vovv Q.l2_aaaa Q.t3_aabaab),
    aug1 X.energy (ein3 L.bkdc L.ijba L.adcijk [] Q.g_abab_vovv Q.l2_aaaa Q.t3_aabaab),
    aug1 X.energy (ein3 L.kbcd L.ijba L.cdaikj [] Q.g_aaaa_ovvv Q.l2_abab Q.t3_aabaab),
    aug1 X.energy (ein3 L.bkcd L.ijba L.cdaijk [] Q.g_abab_vovv Q.l2_abab Q.t3_abbabb),
    aug1 X.energy (ein3 L.bkdc L.ijba L.dcaijk [] Q.g_abab_vovv Q.l2_abab Q.t3_abbabb),
    aug1 X.energy (ein3 L.kbcd L.ijab L.cadikj [] Q.g_abab_ovvv Q.l2_abab Q.t3_aabaab),
    aug1 X.energy (ein3 L.kbdc L.ijab L.adcikj [] Q.g_abab_ovvv Q.l2_abab Q.t3_aabaab),
    aug1 X.energy (ein3 L.kbcd L.ijab L.adcijk [] Q.g_bbbb_ovvv Q.l2_abab Q.t3_abbabb),
    aug1 X.energy (ein3 L.kbcd L.jiba L.cdakji [] Q.g_aaaa_ovvv Q.l2_abab Q.t3_aabaab),
    aug1 X.energy (ein3 L.bkcd L.jiba L.cdajik [] Q.g_abab_vovv Q.l2_abab Q.t3_abbabb),
    aug1 X.energy (ein3 L.bkdc L.jiba L.dcajik [] Q.g_abab_vovv Q.l2_abab Q.t3_abbabb),
    aug1 X.energy (ein3 L.kbcd L.jiab L.cadkji [] Q.g_abab_ovvv Q.l2_abab Q.t3_aabaab),
    aug1 X.energy (ein3 L.kbdc L.jiab L.adckji [] Q.g_abab_ovvv Q.l2_abab Q.t3_aabaab),
    aug1 X.energy (ein3 L.kbcd L.jiab L.adcjik [] Q.g_bbbb_ovvv Q.l2_abab Q.t3_abbabb),
    aug1 X.energy (ein3 L.kbcd L.ijba L.cdakji [] Q.g_abab_ovvv Q.l2_bbbb Q.t3_abbabb),
    aug1 X.energy (ein3 L.kbdc L.ijba L.dcakji [] Q.g_abab_ovvv Q.l2_bbbb Q.t3_abbabb),
    aug1 X.energy (ein3 L.kbcd L.ijba L.cdaijk [] Q.g_bbbb_ovvv Q.l2_bbbb Q.t3_bbbbbb)]
  ret := [Q.energy]

end Verif.Shape.Prog
