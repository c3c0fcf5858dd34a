"""Write lean/Verif/Shape/{Names,<module>..}.lean: the straight-line functions of /repo/UT2 as shape programs (C45)."""
import ast, os, re, sys, json
from shape import Conv, Unsupported, tree, func, is_einsum
from specs import SPECS, PD, WK, SI, SLICED
OUT = "/verif/lean/Verif/Shape/"


def vty(v):
    if v.spaces is None:
        return "n" * (2 if v.name.startswith("f") else 4)
    return "".join(v.spaces)


def envtypes(env):
    return {k.replace("[", "_").replace("]", ""): vty(v) for k, v in env.items()}


INT = {"nocc": "#o", "nvir": "#v", "nvirt": "#v", "no": "#o", "nv": "#v"}
ENV = {(s[2][:-3], s[3]): envtypes(s[4]) for s in SPECS}
OO = {"Roovv": "oovv", "Rooovvv": "ooovvv", "Roooovvvv": "oooovvvv"}
NONE = {"nocc": "!", "nvir": "!", "nvirt": "!"}


def E(mod, fn, **kw):
    ENV[(mod, fn)] = dict(kw)


P, W, S = envtypes(PD), envtypes(WK), envtypes(SI)
for fn in ("antisym_T2", "antisym_T3", "antisym_T4"):
    E("tamps", fn, **OO, **NONE)
    E("wicked_T3corr", fn, **OO)
for fn in ("antisymmetrize_residual_2_2", "antisym_t4_residual"):
    E("antisym_t4resids", fn, **OO)
E("antisym_t4resids", "antisym_T3", Roooovvvv="oovvvv")
E("antisym_t4resids", "xccd_6", g="nnnn", t2_aa="vvoo")
E("antisym_t4resids", "antisym_A", A="oovvvv")
E("t2residEqnsSlow", "pccd_t2resid", **P)
for fn in ("sixthOrderQf_wnT2cubed", "sixthOrderQf_wnT2T3", "long_testQf5Order"):
    E("cc_energy", fn, **dict(W, D2="oovv"))
E("xccd_resid", "xccd_7", g="nnnn", t2_aa="vvoo")
E("xccd_resid", "xccd9_resid", g="nnnn", t2="vvoo", t2_dag="oovv", pickle="oooovvvv")
XB = {"t2_aa": "vvoo", "contractInfo_ints": "nnnn", "contractInfo_nocc": "#o", "contractInfo_nvir": "#v", "pickle": "oooovvvv"}
E("XCCDbasebuilder", "build_XCCDbase", **XB)
for n in (7, 8, 9):
    E("XCCDbasebuilder", "get_xcc%dresidual" % n, t="oovv", t2="oovv", t_dag="vvoo", t2_dag="vvoo", g="vvoo", t4="oooovvvv")

ORDER = "o v oa va ob vb".split()


def imports(mod):
    d = {}
    for st in tree(mod).body:
        if isinstance(st, ast.Import):
            for a in st.names:
                if a.name.startswith("UT2."):
                    d[a.asname or a.name] = a.name[4:]
    return d


def convert(mod, fn, **kw):
    c = Conv(mod, fn, modules=imports(mod), **kw)
    pnames = [a.arg for a in c.f.args.args]
    c.run()
    seen, free = set(), []

    def use(x):
        if x not in seen and x not in free:
            free.append(x)
    for kind, x, ts, ln in c.out:
        if kind == "dim":
            use(ts[0])
        else:
            if kind == "aug":
                use(x)
            for t in ts:
                for a in targs(t):
                    use(a)
        seen.add(x)
    for a in c.ret or []:
        use(a[0])
    return c, free


def targs(t):
    if t[0] == "ein":
        return [a[0] for a in t[3]]
    if t[0] == "arg":
        return [t[1][0]]
    if t[0] == "zeros":
        return t[1]
    if t[0] == "mul":
        return [t[1][0], t[2][0]]
    if t[0] == "call":
        return [a[0] for a in t[2] if a[0] not in ORDER]
    return []


# python type checker, to learn the result types (Lean checks them again)
class Bad(Exception):
    pass


def typ(c, free, env, sigs, ln0=None):
    rho = dict(env)

    def arg(a):
        x, ops = a
        if x not in rho:
            raise Bad("unbound " + x)
        s = rho[x]
        if s[:1] in ("#", "!"):
            return s
        for k, p in ops:
            if k == "sl":
                if len(p) > len(s):
                    raise Bad("slices")
                r = ""
                for q, d in zip(p, s):
                    if q == ":":
                        r += d
                    elif d == "n" and q in ("o", "v", "oa", "va"):
                        r += q[0]
                    else:
                        raise Bad("slice %s of %s" % (q, d))
                s = r + s[len(p):]
            else:
                if sorted(p) != list(range(len(s))):
                    raise Bad("transpose")
                s = "".join(s[k] for k in p)
        return s

    def term(t):
        if t[0] == "ein":
            m = {}
            if len(t[1]) != len(t[3]):
                raise Bad("operands")
            for ls, a in zip(t[1], t[3]):
                s = arg(a)
                if len(s) != len(ls):
                    raise Bad("rank %s %s" % (ls, s))
                for l, d in zip(ls, s):
                    if m.setdefault(l, d) != d:
                        raise Bad("letter %s in %s" % (l, t[1]))
            return "".join(m[l] for l in t[2])
        if t[0] == "arg":
            return arg(t[1])
        if t[0] == "zeros":
            return "".join(arg((x, []))[1] for x in t[1])
        if t[0] == "num":
            return ""
        if t[0] == "none":
            return "!"
        if t[0] == "mul":
            if arg(t[1]) != arg(t[2]):
                raise Bad("mul")
            return arg(t[1])
        if t[0] == "call":
            args = tuple(arg(a) for a in t[2] if a[0] not in ORDER)
            return sigs(t[1], args)
    for kind, x, ts, ln in c.out:
        try:
            if kind == "dim":
                rho[x] = "#" + arg((ts[0], []))[ts[1]]
                continue
            tt = [term(t) for t in ts]
            r = tt[0]
            for q in tt[1:]:
                if q and r and q != r:
                    raise Bad("sum")
                r = r or q
            if kind == "set":
                rho[x] = r
            else:
                if rho[x] == "":
                    rho[x] = r
                elif r and r != rho[x]:
                    raise Bad("+= %s %s" % (rho[x], r))
        except Bad as e:
            raise Bad("%d: %s" % (ln, e))
    return [arg(a) for a in (c.ret or [])]


NAMES = {}


def var(x):
    NAMES.setdefault(x, len(NAMES))
    return "X." + re.sub(r"\W", "_", x)


SLN = {"o": ".o", "v": ".v", "oa": ".o", "va": ".v", "ob": ".ob", "vb": ".vb", ":": ".all"}


ARGS, WORDS = {}, {}


def larg(a):
    x, ops = a
    var(x)
    nm = re.sub(r"\W", "_", x) + "".join("_" + "".join({":": "x"}.get(q, q) for q in p) if k == "sl" else "_t" + "".join(map(str, p)) for k, p in ops)
    ARGS[nm] = (x, ops)
    return "Q." + nm


def argdef(a):
    x, ops = a
    return "⟨%s, [%s]⟩" % (var(x), ", ".join(".sl [%s]" % ", ".join(SLN[q] for q in p) if k == "sl" else ".tr %s" % p for k, p in ops))


def lets(s):
    WORDS.setdefault(s, 1)
    return "L." + s if s else "[]"


FID = {}


def fid(f):
    FID.setdefault(f, len(FID))
    return "F.%s_%s" % f


def lterm(t):
    if t[0] == "ein":
        return "ein%d %s %s %s" % (len(t[1]), " ".join(lets(x) for x in t[1]), lets(t[2]), " ".join(larg(a) for a in t[3]))
    if t[0] == "arg":
        return ".arg %s" % larg(t[1])
    if t[0] == "zeros":
        return ".zeros [%s]" % ", ".join(var(x) for x in t[1])
    if t[0] == "mul":
        return ".mul %s %s" % (larg(t[1]), larg(t[2]))
    if t[0] == "call":
        return ".call %s [%s]" % (fid(t[1]), ", ".join(larg(a) for a in t[2] if a[0] not in ORDER))
    return "." + t[0]


def lstmt(kind, x, ts):
    if kind == "dim":
        return ".dim %s %s %d" % (var(x), var(ts[0]), ts[1])
    if len(ts) == 1:
        return "%s1 %s (%s)" % (kind, var(x), lterm(ts[0]))
    return ".%s %s [%s]" % (kind, var(x), ", ".join(lterm(t) for t in ts))


def lval(s):
    if s == "!":
        return ".none"
    if s[:1] == "#":
        return ".int .%s" % s[1]
    return ".arr [%s]" % ", ".join("." + d for d in s)


GROUPS = [
    ("Antisym", ["tamps", "wicked_T3corr", "antisym_t4resids"]),
    ("Doubles", ["t2residEqnsSlow", "t2energySlow", "t2residEqns", "t2energy", "modify_T2resid_T4Qf1Slow",
                 "modify_T2resid_T4Qf2Slow", "modify_T2energy_pertQfSlow", "drive_ucc4", "pdagq_T3corr"]),
    ("Cc", ["cc_eqns", "ccsdt_eqns", "ccdq_eqns", "build_qf_correction", "cc_energy", "pdagq_t4resid",
            "build_approxT3full", "square_brakT_corr"]),
    ("Xccd", ["XCCDbasebuilder", "xccd_resid"]),
    ("Qf1", ["modify_T2resid_T4Qf1"]), ("Qf2", ["modify_T2resid_T4Qf2"]), ("QfE", ["modify_T2energy_pertQf"]),
    ("Full", ["fullCCresidEqns"]), ("FullE", ["fullCCenergy"]), ("Ccdq", ["ccdq_resids"]),
    ("Test", ["testing_modifyT2eqns_with_T4"])]
BAD = [("t2residEqnsSlow", "pccd_t2resid")]
SKIP = []


def functions():
    """(group, module, function, variant, kw)"""
    for g, mods in GROUPS:
        for m in mods:
            for f in tree(m).body:
                if not (isinstance(f, ast.FunctionDef) and any(is_einsum(x) for x in ast.walk(f))):
                    continue
                if (m, f.name) == ("XCCDbasebuilder", "build_XCCDbase"):
                    for n in range(5, 10):
                        yield g, m, f.name, "_%d" % n, {"assume": {"order": n}}
                elif (m, f.name) == ("cc_energy", "spinorbitalCCSDE"):
                    yield g, m, f.name, "", {}
                    yield g, m, f.name, "_noT1", {"none": ["T1"]}
                else:
                    yield g, m, f.name, "", {}


HEAD = """import Verif.Shape.Names

/-!
# Shape programs of %s (generated by tools/shapegen.py)

Every statement of the functions with the subscripts and operands as written; see `Verif.Shape.Core`.
-/

set_option maxRecDepth 100000

namespace Verif.Shape.Prog

open Verif.Shape

"""


def main():
    done, sigl = {}, {}

    def sigs(f, args):
        c, free = convert(*f)
        pn = [a.arg for a in c.f.args.args if a.arg not in ORDER]
        env = dict(zip(pn, args))
        used = tuple(env[x] for x in free)
        key = (f, tuple(args))
        if key not in sigl:
            r = typ(c, free, env, sigs)
            sigl[key] = r[0]
        return sigl[key]

    entries, texts = [], {}
    for g, m, fn, var_, kw in functions():
        try:
            c, free = convert(m, fn, **kw)
        except Unsupported as e:
            SKIP.append(str(e)[:100])
            continue
        env = ENV.get((m, fn))
        if env is None or any(x not in env and x not in INT for x in free):
            SKIP.append("%s.%s (inputs)" % (m, fn))
            continue
        ty = {x: env[x] if x in env else INT[x] for x in free}
        if (m, fn) in BAD:
            rs = None
        else:
            rs = typ(c, free, ty, sigs)
        name = "%s_%s%s" % (m, fn, var_)
        # functions of the package called with all their parameters in order
        pn = [a.arg for a in c.f.args.args if a.arg not in ORDER]
        done[(m, fn)] = (name, free, pn)
        n = sum(t[0] == "ein" for st in c.out if st[0] != "dim" for t in st[2])
        body = ",\n    ".join(lstmt(*st[:3]) for st in c.out)
        callee = (m, fn) in CALLED
        params = pn if callee else free
        txt = "/-- `%s.py` %d-%d: `%s`%s; %d einsum calls. -/\ndef %s : Fn where\n  params := [%s]\n  body := [\n    %s]\n  ret := [%s]\n" % (
            m, c.f.lineno, c.f.end_lineno, fn, {"": ""}.get(var_, " (variant `%s`)" % var_[1:]), n, name,
            ", ".join(var(x) for x in params), body, ", ".join(larg(a) for a in c.ret or []))
        texts.setdefault(g, []).append(txt)
        entries.append((g, m, fn, name, [ty.get(x, env.get(x, INT.get(x))) for x in params], rs, n, callee))
    for g, mods in GROUPS:
        open(OUT + g + ".lean", "w").write(HEAD % ", ".join(x + ".py" for x in mods) + "\n".join(texts[g]) + "\nend Verif.Shape.Prog\n")
    names = "import Verif.Shape.Core\n\n/-!\n# Names of subscript letters, variables and functions (generated by tools/shapegen.py)\n-/\n\nnamespace Verif.Shape\n\n"
    names += "/-! Abbreviations used in the generated programs. -/\n\n"
    for k in range(1, 8):
        ls = ["l%d" % j for j in range(1, k + 1)]
        xs = ["a%d" % j for j in range(1, k + 1)]
        names += "abbrev ein%d (%s out : List Nat) (%s : Arg) : Term := .ein [%s] out [%s]\n" % (
            k, " ".join(ls), " ".join(xs), ", ".join(ls), ", ".join(xs))
    names += "abbrev set1 (x : Nat) (t : Term) : Stmt := .set x [t]\nabbrev aug1 (x : Nat) (t : Term) : Stmt := .aug x [t]\n"
    names += "\n/-! Subscripts: the letter `a` is 0, `b` is 1, ... -/\n\n"
    for w in sorted(WORDS):
        if w:
            names += "def L.%s : List Nat := [%s]\n" % (w, ", ".join(str(ord(c) - 97 if c.islower() else ord(c) - 39) for c in w))
    names += "\n/-! Variables. -/\n\nnamespace X\n" + "".join("def %s : Nat := %d\n" % (re.sub(r"\W", "_", x), k) for x, k in NAMES.items()) + "end X\n\n/-! Operands: variables with slices or transposes. -/\n\nnamespace Q\n"
    for nm in sorted(ARGS):
        names += "def %s : Arg := %s\n" % (nm, argdef(ARGS[nm]))
    names += "end Q\n\n/-! Functions called by others. -/\n\nnamespace F\n"
    names += "".join("def %s_%s : Nat := %d\n" % (f[0], f[1], k) for f, k in FID.items()) + "end F\n\nend Verif.Shape\n"
    open(OUT + "Names.lean", "w").write(names)
    return entries, sigl


CALLED = set()
for _g, _m, _f, _v, _k in functions():
    try:
        CALLED |= Conv(_m, _f, modules=imports(_m), **_k).run().calls
    except Unsupported:
        pass

LETTER = {"o": "o", "v": "v", "n": "n"}


def lshape(s):
    """shape as a Lean term"""
    if s == "!":
        return "none"
    if s[:1] == "#":
        return "n%s" % s[1]
    return "[%s]" % ",".join(s)


def table(entries, sigl):
    # callers first
    order = []

    def visit(f):
        if f in order:
            return
        for g in Conv(f[0], f[1], modules=imports(f[0])).run().calls:
            visit(g)
        order.append(f)
    for f in sorted(FID, key=lambda f: FID[f]):
        visit(f)
    order = order[::-1]
    t = "import Verif.Shape.Sound\n" + "".join("import Verif.Shape.%s\n" % g for g in ("Antisym", "Cc", "Xccd"))
    t += """
/-!
# Functions called by other functions, and their declared shapes (generated by tools/shapegen.py)
-/

namespace Verif.Shape

/-- Functions that are called by others, callers before callees, with the shapes they are used at. -/
def lib : List Item := [
"""
    items = []
    for f in order:
        sg = ["([%s], %s)" % (", ".join(lval(x) for x in k[1]), lval(v)) for k, v in sigl.items() if k[0] == f]
        items.append("  ⟨F.%s_%s, Prog.%s_%s, [\n    %s]⟩" % (f[0], f[1], f[0], f[1], ",\n    ".join(sg)))
    t += ",\n".join(items) + "]\n\nset_option maxRecDepth 20000 in\ntheorem lib_ok : libOk lib = true := by decide +kernel\n\nend Verif.Shape\n"
    open(OUT + "Lib.lean", "w").write(t)
    for g, mods in GROUPS:
        t = "import Verif.Shape.Lib\nimport Verif.Shape.%s\n\n" % g
        t += "/-!\n# Shapes of the arguments and results of %s (generated by tools/shapegen.py)\n-/\n\nnamespace Verif.Shape\n\n" % ", ".join(x + ".py" for x in mods)
        t += "/-- Functions with the shapes of their parameters and of what they return. -/\ndef table%s : List Entry := [\n" % g
        es = []
        for e in entries:
            if e[0] == g and e[5] is not None:
                es.append('  ⟨"%s.%s", Prog.%s,\n    [%s],\n    [%s]⟩' % (e[1], e[3][len(e[1]) + 1:], e[3], ", ".join(lval(x) for x in e[4]), ", ".join(lval(x) for x in e[5])))
        t += ",\n".join(es) + "]\n\nset_option maxRecDepth 100000 in\ntheorem table%s_ok : table%s.all (Entry.ok lib.sigs) = true := by decide +kernel\n\nend Verif.Shape\n" % (g, g)
        open(OUT + "Table%s.lean" % g, "w").write(t)


if __name__ == "__main__":
    entries, sigl = main()
    table(entries, sigl)
    print(len(entries), sum(e[6] for e in entries))
    for s in SKIP:
        print("skipped", s)
