"""The einsum functions of /repo/UT2 that are modelled: Lean module, Lean name, source and meaning of the inputs."""
from ein import Interp, View, merge


def amp(t, n, order):
    """an amplitude array: native order of t is vv..oo (t) or oo..vv (l); order: order of the array's axes"""
    native = ("v" * n + "o" * n) if t[0] in "tYX" else ("o" * n + "v" * n)
    want = ("v" * n + "o" * n) if order == "vo" else ("o" * n + "v" * n)
    ax = list(range(2 * n)) if native == want else list(range(n, 2 * n)) + list(range(n))
    return View(t, ax, list(want))


def full(t):
    return View(t, None, None)


# pdaggerq, spin-orbital: amplitudes with virtual axes first
PD = {"f": full("f"), "g": full("g"), "l1": amp("l1", 1, "ov"), "l2": amp("l2", 2, "ov"), "t2_dag": amp("l2", 2, "ov")}
for n in range(1, 5):
    PD["t%d" % n] = amp("t%d" % n, n, "vo")
PD["t2_aa"] = PD["t2"]
# wicked, spin-orbital: amplitudes with occupied axes first, adjoint amplitudes with virtual axes first
WK = {"F": full("f"), "W": full("g"), "g": full("g"), "T2dag": amp("t2", 2, "vo"),
      "t1_dag": amp("l1", 1, "vo"), "t2_dag": amp("l2", 2, "vo"), "t1_bar": amp("t1", 1, "ov"),
      "t3resid": amp("t3", 3, "ov"), "t3_dag": amp("l3", 3, "vo")}
for n in range(1, 5):
    WK["T%d" % n] = amp("t%d" % n, n, "ov")
    WK["t%d" % n] = amp("t%d" % n, n, "ov")
# spin-integrated
SI = {}
for x in ("aa", "bb"):
    SI["f[%s]" % x] = SI["f_" + x] = full("f_" + x)
    SI["t1[%s]" % x] = SI["t1_" + x] = amp("t1_" + x, 1, "vo")
    SI["l1[%s]" % x] = SI["l1_" + x] = amp("l1_" + x, 1, "ov")
for x in ("aaaa", "bbbb", "abab"):
    SI["g[%s]" % x] = SI["g_" + x] = full("g_" + x)
    SI["t2[%s]" % x] = SI["t2_" + x] = amp("t2_" + x, 2, "vo")
    SI["l2[%s]" % x] = SI["l2_" + x] = amp("l2_" + x, 2, "ov")
for x in ("aaaaaa", "aabaab", "abbabb", "bbbbbb"):
    SI["t3[%s]" % x] = SI["t3_" + x] = amp("t3_" + x, 3, "vo")
for x in ("aaaaaaaa", "aaabaaab", "aabbaabb", "abbbabbb", "bbbbbbbb"):
    SI["t4_" + x] = amp("t4_" + x, 4, "vo")
SLICED = dict(SI)
for x in ("aaaa", "bbbb", "abab"):
    SLICED["g_" + x] = View("g_" + x, [0, 1, 2, 3], list("oovv"))

SPECS = []


def F(module, name, fname, func, env, **kw):
    SPECS.append((module, name, fname, func, env, kw))


F("Ccd", "ccd_t2residual", "t2residEqnsSlow.py", "ccd_t2residual", PD)
F("Ccd", "doubles_resLCCDoffset", "t2residEqnsSlow.py", "doubles_resLCCDoffset", PD)
F("Ccd", "ccdEnergy", "t2energySlow.py", "ccdEnergy", PD)
F("Ccd", "pccdEnergy", "t2energySlow.py", "pccdEnergy", PD)
F("Ccsd", "spinorbitalCCSDE", "cc_energy.py", "spinorbitalCCSDE", WK)
F("Ccsd", "spinorbitalCCDE", "cc_energy.py", "spinorbitalCCSDE", WK, none=["T1"])
F("Ccsd", "ccsd_t1resid", "cc_eqns.py", "ccsd_t1resid", WK)
F("Ccsd", "ccsd_t2resid", "cc_eqns.py", "ccsd_t2resid", WK)
F("Ccsdt", "ccsdt_t1eqns", "ccsdt_eqns.py", "ccsdt_t1eqns", WK)
F("Ccsdt", "ccsdt_t2eqns", "ccsdt_eqns.py", "ccsdt_t2eqns", WK)
F("Ccsdt", "ccsdt_t3eqns", "ccsdt_eqns.py", "ccsdt_t3eqns", WK)
F("Ccdq", "ccdq_t2eqns", "ccdq_eqns.py", "ccdq_t2eqns", WK)
F("Ccdq", "ccdq_t4eqns", "ccdq_eqns.py", "ccdq_t4eqns", WK)
F("Qf", "residQf1", "modify_T2resid_T4Qf1Slow.py", "residQf1_aaaa", PD)
F("Qf", "residQf2", "modify_T2resid_T4Qf2Slow.py", "residQf2_aaaa", PD)
F("Qf", "unsym_residQf1", "modify_T2resid_T4Qf1Slow.py", "unsym_residQf1", PD)
F("Qf", "unsym_residQf2", "modify_T2resid_T4Qf1Slow.py", "unsym_residQf2", PD)
F("Qf", "energy_pertQf", "modify_T2energy_pertQfSlow.py", "energy_pertQf", PD)
F("Qf", "optWnT3", "cc_energy.py", "optWnT3", WK)
F("Qf", "optWnT2sqr", "cc_energy.py", "optWnT2sqr", WK)
F("Qf", "T3portion_Qf", "cc_energy.py", "T3portion_Qf", WK)
F("Qf", "build_approxT3", "cc_energy.py", "build_approxT3", WK)
F("Qf", "wnT2T3_toT4", "build_qf_correction.py", "wnT2T3_toT4", WK)
F("Qf", "wnT2cubed_toT4", "build_qf_correction.py", "wnT2cubed_toT4", WK)
F("Qf", "wnT2cubed_toT2", "build_qf_correction.py", "wnT2cubed_toT2", WK)
F("Qf", "wnT2T3_toT2", "build_qf_correction.py", "wnT2T3_toT2", WK)
F("Qf", "t4_test_residual", "pdagq_t4resid.py", "t4_test_residual", PD, result="quadruples_res")
F("Qf", "t4_test_residual_oo", "pdagq_t4resid.py", "t4_test_residual", PD, result="t4_resid_oo")
F("Triples", "build_T3", "pdagq_T3corr.py", "build_T3", PD)
F("Triples", "pdagq_T3energy", "pdagq_T3corr.py", "pdagq_T3energy", PD)
F("Triples", "pdagq_ccsd_energy", "pdagq_T3corr.py", "ccsd_energy", PD, result="energy")
for fn in ("fifthOrder_capC", "fifthOrder_capA", "contractE", "build_T3_thirdO", "build_netT2", "build_T3_secondO",
           "getE_squareBrackT", "getE_parenT_t1", "get_netT1_fromT2", "get_netT1_thirdO", "get_T2resid_fromT1bar"):
    F("Triples", fn, "wicked_T3corr.py", fn, WK)
for fn in ("t1_residEqns", "t3_resid", "offset_t2resid_t2squared", "offset_t2resid_t2dag_w_t2", "offset_t2resid_T1_T3"):
    F("Ucc4", fn, "drive_ucc4.py", fn, PD)
for n in (5, 6):
    F("Xccd", "xccd%d_quad" % n, "XCCDbasebuilder.py", "build_XCCDbase", PD, order=n, result="Roooovvvv")
XC = dict(WK)
XC["t"], XC["t_dag"], XC["g"] = amp("t2", 2, "ov"), amp("l2", 2, "vo"), View("g", [0, 1, 2, 3], list("vvoo"))
for n in (7, 8, 9):
    F("Xccd", "get_xcc%dresidual" % n, "XCCDbasebuilder.py", "get_xcc%dresidual" % n, XC)

for s in ("aaaa", "bbbb", "abab"):
    F("SiCcd", "ccd_t2_%s" % s, "t2residEqns.py", "ccd_t2_%s_residual" % s, SI)
F("SiCcd", "ccd_energy_with_spin", "t2energy.py", "ccd_energy_with_spin", SI)
F("SiCcsdt", "ccsd_energy_with_spin", "fullCCenergy.py", "ccsd_energy_with_spin", SI)
for s in ("aa", "bb"):
    F("SiCcsdt", "ccsdt_t1_%s" % s, "fullCCresidEqns.py", "ccsdt_t1_%s_residual" % s, SI)
for s in ("aaaa", "bbbb", "abab"):
    F("SiCcsdt", "ccsdt_t2_%s" % s, "fullCCresidEqns.py", "ccsdt_t2_%s_residual" % s, SI)
for k, s in enumerate(("aaaaaa", "aabaab", "abbabb", "bbbbbb")):
    F("SiCcsdtT3_%d" % k, "ccsdt_t3_%s" % s, "fullCCresidEqns.py", "ccsdt_t3_%s_residual" % s, SI)
for s in ("aaaa", "bbbb", "abab"):
    F("SiCcdq", "ccdq_t2_%s" % s, "ccdq_resids.py", "ccdq_t2_%s_residual" % s, SI)
for k, s in enumerate(("aaaaaaaa", "aaabaaab", "aabbaabb", "abbbabbb", "bbbbbbbb")):
    F("SiCcdqT4_%d" % k, "ccdq_t4_%s" % s, "ccdq_resids.py", "ccdq_t4_%s_residual" % s, SI)
    F("SiT4_%d" % k, "ccsdtq_t4_%s" % s, "fullCCenergy.py", "ccsdtq_t4_%s_residual" % s, SI)
    F("SiT4cub_%d" % k, "ccsdtqT2cubed_t4_%s" % s, "fullCCenergy.py", "ccsdtqT2cubed_t4_%s_residual" % s, SI)
F("SiQf", "si_energy_pertQf_t4", "fullCCenergy.py", "energy_pertQf", SLICED)
F("SiQfE", "si_energy_pertQf", "modify_T2energy_pertQf.py", "energy_pertQf", SI)
for s in ("aaaa", "bbbb", "abab"):
    F("SiQf1_" + s, "residQf1_" + s, "modify_T2resid_T4Qf1.py", "residQf1_" + s, SI)
    F("SiQf2_" + s, "residQf2_" + s, "modify_T2resid_T4Qf2.py", "residQf2_" + s, SI)
    F("SiTest_" + s, "test_t2_%s" % s, "testing_modifyT2eqns_with_T4.py", "ccsdt_t2_%s_residual_Qf" % s, SI)
for s in ("aaaaaa", "aabaab", "abbabb", "bbbbbb"):
    F("SiT3", "approxT3_" + s, "build_approxT3full.py", "ccsdtq_t3_%s_residual" % s, SI)
F("SiT3", "square_brakT", "square_brakT_corr.py", "square_brakT", SI)


_loaded = {}


def load(name):
    """blocks of a modelled function"""
    if name not in _loaded:
        m, nm, fname, func, env, kw = next(s for s in SPECS if s[1] == name)
        kw = dict(kw)
        none = kw.pop("none", [])
        it = Interp(fname, func, none=none, **kw)
        for k, v in env.items():
            it.base[k] = v
        _loaded[name] = (merge(it.run().blks), it.func.lineno, it.func.end_lineno, fname, func, none)
    return _loaded[name]
