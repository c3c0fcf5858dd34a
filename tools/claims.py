"""The claims certified in Verif/Cert: Lean expression of a program that is zero, and the same program here."""
from specs import load
from math import floor
from fractions import Fraction
from ein import Blk, table
from names import TABLE
from ops import expand, drop, outs, scale, replace, spin, through, ideal, part, cap, flip
from canon import code
import thin

CERTS = {}


def o(s):
    return [code((c, "o" if c >= "i" else "v")) for c in s]


VVOO = [None, [1, 0], [2, 3, 0, 1], [3, 4, 5, 0, 1, 2], [4, 5, 6, 7, 0, 1, 2, 3]]
OUT = {0: [], 1: o("ai"), 2: o("abij"), 3: o("abcijk"), 4: o("abcdijkl")}


def claim(module, imports, name, expr, blks, n, doc):
    """expr: Lean text; blks: function returning the blocks"""
    m = CERTS.setdefault(module, ([], []))
    for x in imports:
        if x not in m[0]:
            m[0].append(x)
    m[1].append(lambda: (name, expr, blks(), OUT[n], doc))


class E:
    """a program with its Lean text"""

    def __init__(self, text, blks):
        self.text, self._b = text, blks

    @property
    def blks(self):
        return self._b() if callable(self._b) else self._b

    def outs(self, p):
        return E("Prog.outs %s (%s)" % (p, self.text), lambda: outs(self.blks, p))

    def drop(self, *names):
        return E("Prog.drop %s (%s)" % ([TABLE[x][0] for x in names], self.text), lambda: drop(self.blks, names))

    def scale(self, q, text=None):
        return E("Prog.scale (%s) (%s)" % (text or q, self.text), lambda: scale(self.blks, q))

    def spin(self, s):
        v = [0 if c == "a" else 1 for c in s]
        return E("Prog.spin [%s] (%s)" % (", ".join("true" if x else "false" for x in v), self.text),
                 lambda: spin(self.blks, v))

    def through(self, mod, fn):
        t = table(mod, fn)
        return E("Prog.through %s (%s)" % (t[0], self.text), lambda: through(self.blks, t))

    def rep(self, t, u, p):
        return E("Prog.rep %d %d %s (%s)" % (TABLE[t][0], TABLE[u][0], p, self.text), lambda: replace(self.blks, t, u, p))

    def ideal(self):
        return E("Prog.ideal (%s)" % self.text, lambda: ideal(self.blks))

    def part(self, *sigs):
        """the terms whose operands are those listed, e.g. "g t2 t2" """
        ids = [sorted(TABLE[x][0] for x in s.split()) for s in sigs]
        return E("Prog.part %s (%s)" % (ids, self.text), lambda: part(self.blks, ids))

    def thin(self, name, outs):
        """the program sent through antisym_T3 or antisym_T4, equal transposes taken together"""
        thin.use(name, self.text, lambda: self.blks, outs)
        return E("Prog.thin %s (%s)" % (name, self.text), lambda: thin.thin(self.blks))

    def flip(self):
        return E("Prog.flip (%s)" % self.text, lambda: flip(self.blks))

    def cap(self, n, t):
        return E("Prog.cap %d %d (%s)" % (n, TABLE[t][0], self.text), lambda: cap(self.blks, n, t))

    def __add__(self, other):
        return E("%s ++ (%s)" % (self.text, other.text), lambda: expand(self.blks) + expand(other.blks))

    def __sub__(self, other):
        return self + other.scale(-1)


def G(name):
    return E(name, lambda: load(name)[0])


def G0(name, parts=1):
    """the program before it is sent through an antisymmetriser"""
    return E(" ++ ".join("%s_%d" % (name, k) for k in range(parts)),
             lambda: [Blk(b.c, b.fs, b.ps, b.line, b.src, ()) for b in load(name)[0]])


def eqspin(module, imports, name, a, sp, b, n, doc):
    """spin-orbital program a for the output spins sp equals the program b on the spin blocks"""
    m = CERTS.setdefault(module, ([], []))
    for x in ["Ein.Spin"] + imports:
        if x not in m[0]:
            m[0].append(x)
    c = b.scale(-1)
    m[1].append(lambda: (name, (sp, a.text, c.text), expand((a.spin(sp) + c).blks), OUT[n], doc))


def eq(module, imports, name, a, b, n, doc):
    e = a - b
    claim(module, imports, name, e.text, lambda: e.blks, n, doc)



def spins(s):
    return s


T2DAG = [2, 3, 0, 1]
AS2 = ("tamps.py", "antisym_T2")
AS3 = ("tamps.py", "antisym_T3")
AS4 = ("tamps.py", "antisym_T4")
WS2 = ("wicked_T3corr.py", "antisym_T2")
WS3 = ("wicked_T3corr.py", "antisym_T3")
SP1 = ("aa", "bb")
SP2 = ("aaaa", "abab", "bbbb")
SP3 = ("aaaaaa", "aabaab", "abbabb", "bbbbbb")
SP4 = ("aaaaaaaa", "aaabaaab", "aabbaabb", "abbbabbb", "bbbbbbbb")

# ---- spin-orbital programs among each other
M = "So"
IM = ["Ein.Ops2", "Gen.Ccd", "Gen.Ccsd", "Gen.Ccsdt", "Gen.Ccdq", "Gen.Ucc4", "Gen.Triples", "Gen.Qf"]
eq(M, IM, "ccd_wicked", G("ccsd_t2resid").drop("t1").outs(VVOO[2]), G("ccd_t2residual"), 2, "C37")
eq(M, IM, "ccdq_t4_zero", G("ccdq_t2eqns").drop("t4").outs(VVOO[2]), G("ccd_t2residual"), 2, "C38")
eq(M, IM, "ccsdt_t1_t3_zero", G("ccsdt_t1eqns").drop("t3").outs(VVOO[1]), G("ccsd_t1resid").outs(VVOO[1]), 1, "C38")
eq(M, IM, "ccsdt_t2_t3_zero", G("ccsdt_t2eqns").drop("t3").outs(VVOO[2]), G("ccsd_t2resid").outs(VVOO[2]), 2, "C38")
eq(M, IM, "ccd_energy_wicked", G("spinorbitalCCDE"), G("ccdEnergy"), 0, "")
eq(M, IM, "ccsd_energy_pdagq", G("pdagq_ccsd_energy"), G("spinorbitalCCSDE"), 0, "")
eq(M, IM, "lccd_offset", G("doubles_resLCCDoffset"), G("ccd_t2residual").part("g t2 t2"), 2, "")
eq(M, IM, "ucc4_offset", G("offset_t2resid_t2squared").scale(2), G("doubles_resLCCDoffset"), 2, "")
eq(M, IM, "ucc4_t1", G("t1_residEqns"), G("ccsdt_t1eqns").part("f", "f t1", "g t2").outs(VVOO[1]), 1, "")
eq(M, IM, "ucc4_t1t3", G("offset_t2resid_T1_T3"), G("ccsdt_t2eqns").part("g t1", "g t3").outs(VVOO[2]), 2, "")
eq(M, IM, "netT1", G("get_netT1_fromT2").outs(VVOO[1]), G("ccsdt_t1eqns").part("g t2").outs(VVOO[1]), 1, "")
eq(M, IM, "netT2", G("build_netT2").through(*AS2).outs(VVOO[2]), G("ccsdt_t2eqns").part("g t3").outs(VVOO[2]), 2, "")
eq(M, IM, "T1bar", G("get_T2resid_fromT1bar").through(*AS2).outs(VVOO[2]), G("ccsdt_t2eqns").part("g t1").outs(VVOO[2]), 2, "")
eq(M, IM, "squareT", G("pdagq_T3energy"), G("getE_squareBrackT"), 0, "")
eq(M, IM, "optWnT3_eq", G("optWnT3").outs(VVOO[2]), G("T3portion_Qf").outs(VVOO[2]), 2, "")
eq(M, IM, "Qf1_wicked", G("optWnT2sqr").through(*AS2).outs(VVOO[2]), G("residQf1").rep("l2", "t2", T2DAG), 2, "")
eq("So2", IM, "Qf2_wicked", G("wnT2cubed_toT2").outs(VVOO[2]), G("residQf2").rep("l2", "t2", T2DAG), 2, "")
M = "SoT3"
eq(M, IM, "T3_tamps", G("build_approxT3").through(*AS3).outs(VVOO[3]), G("build_T3"), 3, "")
eq(M, IM, "T3_wicked", G("build_T3_secondO").through(*WS3).outs(VVOO[3]), G("build_T3"), 3, "")
eq(M, IM, "T3_ucc4", G("t3_resid"), G("ccsdt_t3eqns").part("f t3", "g t2").ideal().outs(VVOO[3]), 3, "")
eq(M, IM, "T3_third", G("build_T3_thirdO").through(*AS3).outs(VVOO[3]), G("ccsdt_t3eqns").part("g t2 t2").ideal().outs(VVOO[3]), 3, "")
M = "SoT4"
eq(M, IM, "T4_quad", G("wnT2cubed_toT4").part("g t2 t2").outs(VVOO[4]), G("unsym_residQf1").through(*AS4), 4, "")
eq(M, IM, "T4_cub", G("wnT2cubed_toT4").part("g t2 t2 t2").outs(VVOO[4]), G("unsym_residQf2").through(*AS4), 4, "")
eq(M, IM, "T4_pdagq", G("t4_test_residual"), G("unsym_residQf1").through(*AS4), 4, "")

# ---- spin-orbital against spin-integrated
IM = ["Gen.Ccd", "Gen.SiCcd"]
for s in SP2:
    eqspin("SpinCcd", IM, "ccd_" + s, G("ccd_t2residual"), s, G("ccd_t2_" + s), 2, "Spin-integrated CCD residual, block %s." % s)
eqspin("SpinCcd", IM, "ccd_energy", G("ccdEnergy"), "", G("ccd_energy_with_spin"), 0, "Spin-integrated CCD energy.")
IM = ["Gen.Ccsd", "Gen.Ccsdt", "Gen.Ccdq", "Gen.SiCcsdt", "Gen.SiCcdq"]
eqspin("SpinCc", IM, "ccsd_energy", G("spinorbitalCCSDE"), "", G("ccsd_energy_with_spin"), 0, "Spin-integrated CCSD energy.")
for s in SP1:
    eqspin("SpinCc", IM, "ccsdt_t1_" + s, G("ccsdt_t1eqns").outs(VVOO[1]), s, G("ccsdt_t1_" + s), 1, "")
for s in SP2:
    eqspin("SpinCc", IM, "ccsdt_t2_" + s, G("ccsdt_t2eqns").outs(VVOO[2]), s, G("ccsdt_t2_" + s), 2, "")
    eqspin("SpinCc", IM, "ccdq_t2_" + s, G("ccdq_t2eqns").outs(VVOO[2]), s, G("ccdq_t2_" + s), 2, "")
    eqspin("SpinQf1", ["Gen.Qf", "Gen.SiQf1_" + s], "residQf1_" + s, G("residQf1"), s, G("residQf1_" + s), 2, "")
    eqspin("SpinQf2_" + s, ["Gen.Qf", "Gen.SiQf2_" + s], "residQf2_" + s, G("residQf2"), s, G("residQf2_" + s), 2, "")
eqspin("SpinQfE", ["Gen.Qf", "Gen.SiQfE"], "pertQf", G("energy_pertQf"), "", G("si_energy_pertQf"), 0, "")
for s in SP3:
    eqspin("SpinT3", ["Gen.Triples", "Gen.SiT3"], "approxT3_" + s, G("build_T3"), s, G("approxT3_" + s), 3, "")
eqspin("SpinT3", ["Gen.Triples", "Gen.SiT3"], "squareT_spin", G("pdagq_T3energy"), "", G("square_brakT"), 0, "")

# ---- antisymmetry of residuals
SWAPS = {2: ([1, 0, 2, 3], [0, 1, 3, 2]), 3: ([1, 0, 2, 3, 4, 5], [0, 2, 1, 3, 4, 5], [0, 1, 2, 4, 3, 5], [0, 1, 2, 3, 5, 4])}


def anti(module, imports, name, a, n, only=(0, 1, 2, 3)):
    for k, p in enumerate(SWAPS[n]):
        if k not in only:
            continue
        e = a + a.outs(p)
        claim(module, ["Ein.Ops2"] + imports, "%s_anti%d" % (name, k), e.text, (lambda e=e: e.blks), n,
              "Antisymmetry of %s under %s." % (name, p))


for nm, im in (("ccd_t2residual", "Ccd"), ("doubles_resLCCDoffset", "Ccd"), ("residQf1", "Qf"),
               ("offset_t2resid_t2squared", "Ucc4"), ("offset_t2resid_t2dag_w_t2", "Ucc4"), ("offset_t2resid_T1_T3", "Ucc4"),
               ("ccd_t2_aaaa", "SiCcd"), ("ccd_t2_bbbb", "SiCcd")):
    # the t2_dag part of the UCC(4) residual is antisymmetric in the occupied indices only
    anti("Anti", ["Gen." + im], nm, G(nm), 2, (1,) if nm == "offset_t2resid_t2dag_w_t2" else (0, 1))
for nm, im in (("build_T3", "Triples"), ("t3_resid", "Ucc4")):
    anti("Anti", ["Gen." + im], nm, G(nm), 3)
anti("AntiQf2", ["Gen.Qf"], "residQf2", G("residQf2"), 2)

# ---- projected Schroedinger equations
import wick
IMW = ["Ein.Ops2", "Wick.Project"]


def PROJ(n, ks, L, keep=lambda u: True):
    """<bra n| exp(-T) H exp(T) |0>, the words that are kept"""
    return E(wick.proj_text(wick.bra(n), OUT[n], ks, L, keep), lambda: wick.proj(wick.bra(n), OUT[n], ks, L, keep))


def capx(module, name, n, cs, p, doc):
    """sum of q <bra n| [[[X, T], T'], ..] |0> is the antisymmetrised program p; both contracted with l3 or l4"""
    cs = wick.capped(cs, n)
    e = E(wick.mat_x_text(n, cs), lambda: wick.mat_x(n, cs))
    eq(module, ["Ein.Ops2", "Wick.Delta"], name, e, p.cap(0, "l%d" % n), 0, doc)


D_, SD_, SDT_, DQ_ = [2], [1, 2], [1, 2, 3], [2, 4]
M = "Proj"
eq(M, IMW + ["Gen.Ccd", "Gen.Ccsd"], "ccd_proj", PROJ(2, D_, 3), G("ccd_t2residual"), 2, "C75")
eq(M, IMW, "ccsd_t1_proj", PROJ(1, SD_, 4), G("ccsd_t1resid").outs(VVOO[1]), 1, "C75")
eq(M, IMW, "ccsd_t2_proj", PROJ(2, SD_, 5), G("ccsd_t2resid").outs(VVOO[2]), 2, "C75")
eq(M, IMW, "ccd_e_proj", PROJ(0, D_, 2), G("ccdEnergy"), 0, "C75")
eq(M, IMW, "ccsd_e_proj", PROJ(0, SD_, 3), G("spinorbitalCCSDE"), 0, "C75")
eq(M, IMW, "ccsdt_e_proj", PROJ(0, [1, 2, 3], 3), G("spinorbitalCCSDE"), 0, "C75")
eq(M, IMW, "ccdq_e_proj", PROJ(0, [2, 4], 2), G("ccdEnergy"), 0, "C75")
M = "ProjT3"
eq(M, IMW + ["Gen.Ccsdt"], "ccsdt_t1_proj", PROJ(1, SDT_, 4), G("ccsdt_t1eqns").outs(VVOO[1]), 1, "C75")
eq(M, IMW, "ccsdt_t2_proj", PROJ(2, SDT_, 5), G("ccsdt_t2eqns").outs(VVOO[2]), 2, "C75")
capx(M, "ccsdt_t3_proj", 3, [(q, u, "all") for u, q in wick.words_c(SDT_, 6)], G0("ccsdt_t3eqns", 2).ideal(), "C75")
M = "ProjT4"
eq(M, IMW + ["Gen.Ccdq"], "ccdq_t2_proj", PROJ(2, DQ_, 3), G("ccdq_t2eqns").outs(VVOO[2]), 2, "C75")
capx(M, "ccdq_t4_proj", 4, [(q, u, "all") for u, q in wick.words_c(DQ_, 4)], G0("ccdq_t4eqns").ideal(), "C75")

# ---- matrix elements of nested commutators
IMM = ["Ein.Ops2", "Wick.Matrix"]


def MAT(n, ls, *items):
    """sum of r <bra n| L.. [[[X, T], T'], ..] |0>; items (r, ranks of T, T', .., X)"""
    return E(wick.mat_text(n, OUT[n], ls, items), lambda: wick.mat(n, OUT[n], ls, items))


Q = Fraction
M = "Mat"
eq(M, IMM + ["Gen.Ccd", "Gen.Ucc4", "Gen.Triples", "Gen.Qf"], "lccd_mat", MAT(2, [], (Q(1, 2), [2, 2], "all")),
   G("doubles_resLCCDoffset"), 2, "C77")
eq(M, IMM, "ucc4_t1_mat", MAT(1, [], (1, [], "fock"), (1, [1], "fock"), (1, [2], "fluct")), G("t1_residEqns"), 1, "C77")
eq(M, IMM, "ucc4_t3_mat", MAT(3, [], (1, [3], "fock"), (1, [2], "fluct")), G("t3_resid"), 3, "C77")
eq(M, IMM, "ucc4_t1t3_mat", MAT(2, [], (1, [1], "fluct"), (1, [3], "fluct")), G("offset_t2resid_T1_T3"), 2, "C77")
eq(M, IMM, "ucc4_sq_mat", MAT(2, [], (Q(1, 4), [2, 2], "fluct")), G("offset_t2resid_t2squared"), 2, "C77")
eq(M, IMM, "T3_mat", MAT(3, [], (1, [2], "fluct")), G("build_T3"), 3, "C77")
eq(M, IMM, "T3_third_mat", MAT(3, [], (Q(1, 2), [2, 2], "fluct")), G("build_T3_thirdO").through(*AS3).outs(VVOO[3]), 3, "C77")
eq(M, IMM, "netT1_mat", MAT(1, [], (1, [2], "fluct")), G("get_netT1_fromT2").outs(VVOO[1]), 1, "C77")
eq(M, IMM, "netT1_third_mat", MAT(1, [2], (1, [2], "fluct")).rep("l2", "t2", T2DAG), G("get_netT1_thirdO").outs(VVOO[1]), 1, "C77")
eq(M, IMM, "netT2_mat", MAT(2, [], (1, [3], "fluct")), G("build_netT2").through(*AS2).outs(VVOO[2]), 2, "C77")
eq(M, IMM, "T1bar_mat", MAT(2, [], (1, [1], "fluct")), G("get_T2resid_fromT1bar").through(*AS2).outs(VVOO[2]), 2, "C77")
eq(M, IMM, "squareT_mat", MAT(0, [2], (1, [3], "fluct")), G("pdagq_T3energy"), 0, "C77")
eq(M, IMM, "parenT_mat", MAT(0, [1], (1, [3], "fluct")), G("getE_parenT_t1"), 0, "C77")
eq(M, IMM, "pertQf_mat", MAT(0, [2, 2], (Q(1, 2), [2, 2], "fluct")), G("energy_pertQf"), 0, "C77")
M = "MatQf"
IMQ = ["Ein.Ops2", "Wick.Matrix", "Wick.Box", "Gen.Qf"]
KLCD = [4, 5, 0, 1, 2, 3, 6, 7]
eq(M, IMQ, "residQf1_mat", G("wnT2cubed_toT4").part("g t2 t2").outs(KLCD).cap(4, "l2").scale(Q(1, 4)), G("residQf1"), 2, "C77")
eq(M, IMQ, "residQf2_mat", G("wnT2cubed_toT4").part("g t2 t2 t2").outs(KLCD).cap(4, "l2").scale(Q(1, 4)), G("residQf2"), 2, "C77")
eq(M, IMQ, "optWnT3_mat", MAT(2, [2], (1, [3], "fluct")).rep("l2", "t2", T2DAG),
   G("optWnT3").through(*AS2).outs(VVOO[2]), 2, "C77")
eq(M, IMQ, "wnT2T3_mat", MAT(2, [2], (1, [2, 3], "fluct")).rep("l2", "t2", T2DAG), G("wnT2T3_toT2").outs(VVOO[2]), 2, "C77")
M = "MatT4"
CERTS["MatT4"] = (["Gen.Qf"], [])
capx(M, "T4_quad_mat", 4, wick.mat_items([], [(Q(1, 2), [2, 2], "fluct")]), G0("wnT2cubed_toT4").part("g t2 t2"), "C77")
capx(M, "T4_cub_mat", 4, wick.mat_items([], [(Q(1, 6), [2, 2, 2], "fluct")]), G0("wnT2cubed_toT4").part("g t2 t2 t2"), "C77")
capx(M, "T4_t2t3_mat", 4, wick.mat_items([], [(1, [2, 3], "fluct")]), G0("wnT2T3_toT4").ideal(), "C77")
M = "MatX"
CERTS["MatX"] = (["Gen.Xccd"], [])
capx(M, "xccd5_mat", 4, wick.mat_items([], [(Q(1, 2), [2, 2], "fluct")]), G("xccd5_quad"), "C78")
capx(M, "xccd6_mat", 4, wick.mat_items([], [(Q(1, 6), [2, 2, 2], "fluct")]), G("xccd6_quad"), "C78")
capx(M, "xccd7_mat", 4, wick.mat_items([], [(1, [2, 4], "l2")]), G("get_xcc7residual").ideal(), "C78")

# ---- the fourth and fifth order triples energies of wicked_T3corr.py
IMW = ["Ein.Ops2", "Wick.Box", "Gen.Triples"]
eq("Wicked", IMW, "wicked_capA", G("fifthOrder_capA").rep("l2", "t2", T2DAG), G("build_T3_thirdO").through(*WS3).outs(VVOO[3]).scale(2), 3, "C93")
eq("Wicked", IMW, "wicked_square", G("getE_squareBrackT").rep("l2", "t2", T2DAG).scale(36), G("build_T3").cap(0, "t3"), 0, "C93")

# ---- triples and quadruples residuals, spin-orbital against spin-integrated
T3THIN = G0("ccsdt_t3eqns", 2).ideal().thin("split_ccsdt_t3", o("ijkabc"))
T4THIN = G0("ccdq_t4eqns").ideal().thin("split_ccdq_t4", o("ijklabcd"))
Q4THIN = G0("wnT2cubed_toT4").part("g t2 t2 t2").thin("split_cub_t4", o("ijklabcd"))
QD4 = G0("wnT2cubed_toT4").part("g t2 t2").thin("split_quad_t4", o("ijklabcd"))
LN4 = E("linT3", thin.lin).thin("split_lin_t4", o("ijklabcd"))
capx("MatLin", "T4_lin_mat", 4, wick.mat_items([], [(1, [3], "fluct")]), E("linT3", thin.lin), "C83")
CERTS["MatLin"][0].append("Gen.Split")
for k, s in enumerate(SP3):
    eqspin("SpinCcT3", ["Cert.Thin", "Gen.SiCcsdtT3_%d" % k], "ccsdt_t3_" + s, T3THIN.outs(VVOO[3]), s, G("ccsdt_t3_" + s).ideal(), 3, "C83")
for k, s in enumerate(SP4):
    eqspin("SpinCcT4_%d" % k, ["Cert.Thin", "Gen.SiCcdqT4_%d" % k], "ccdq_t4_" + s, T4THIN.outs(VVOO[4]), s, G("ccdq_t4_" + s).ideal(), 4, "C83")
    eqspin("SpinQfT4", ["Cert.Thin", "Gen.SiT4cub_%d" % k], "ccsdtqT2cubed_t4_" + s, Q4THIN.outs(VVOO[4]), s, G("ccsdtqT2cubed_t4_" + s), 4, "C83")
    eqspin("SpinT4", ["Cert.Thin", "Gen.SiT4_%d" % k], "ccsdtq_t4_" + s, (QD4 + LN4).outs(VVOO[4]), s, G("ccsdtq_t4_" + s), 4, "C83")
for s in SP2:
    eqspin("SpinT4", ["Cert.Thin", "Wick.Box", "Gen.Qf", "Gen.SiTest_" + s], "test_t2_" + s,
           G("residQf1") + LN4.outs(KLCD).cap(4, "l2").scale(Q(1, 4)), s, G("test_t2_" + s), 2, "C83")
eqspin("SpinT4", ["Gen.SiQf"], "pertQf_t4_spin", E("pertT4", thin.pert), "", G("si_energy_pertQf_t4"), 0, "C83")

# ---- antisymmetry and spin exchange of the quadruples residuals
EXCH4 = {"aaaaaaaa": ([1, 2, 0, 3, 4, 5, 7, 6], [0, 1, 3, 2, 5, 6, 4, 7]),
         "aaabaaab": ([1, 2, 0, 3, 5, 4, 6, 7], [1, 0, 2, 3, 5, 6, 4, 7]),
         "aabbaabb": ([1, 0, 2, 3, 4, 5, 6, 7], [0, 1, 2, 3, 5, 4, 6, 7])}
FLIP4 = (([0, 1, 2, 3, 4, 5, 6, 7]), ([1, 2, 3, 0, 5, 6, 7, 4]), ([2, 3, 0, 1, 6, 7, 4, 5]))
for k, s in enumerate(SP4[:3]):
    a = G("ccdq_t4_" + s)
    for n, p in enumerate(EXCH4[s]):
        e = a + a.outs(p)
        claim("AntiT4_%d%s" % (k, "ab"[n] if k < 2 else ""), ["Ein.Ops2", "Gen.SiCcdqT4_%d" % k], "ccdq_t4_%s_anti%d" % (s, n), e.text,
              (lambda e=e: e.blks), 4, "Sign of %s under %s." % (s, p))
    eq("FlipT4_%d" % k, ["Ein.FlipProg"] + ["Gen.SiCcdqT4_%d" % x for x in sorted({k, 4 - k})], "ccdq_t4_%s_flip" % s, a.flip(),
       G("ccdq_t4_" + SP4[4 - k]).outs(FLIP4[k]), 4, "C87")
anti("AntiDq", ["Gen.Ccdq"], "ccdq_t2", G("ccdq_t2eqns").outs(VVOO[2]), 2, (0, 1))
