"""Write the Lean modules Verif/Gen/* (programs read from /repo/UT2) and Verif/Cert/* (checks of programs).

    python3 /verif/tools/gen.py [module ...]

Verif/Gen: one definition per einsum function listed in specs.py.
Verif/Cert: for the claims of claims.py, the theorem that a difference of programs is zero by the normal form
of Verif/Ein/Norm.lean, with the certificate (renamings of the summed letters) found here.
"""
import os, sys, re
from math import lcm
from ein import lean_prog, table, _tables, lq
from specs import SPECS, load
from canon import cert, code, collect
from names import KINDS
import names
import thin

LEAN = "/verif/lean/Verif/"
HEAD = "/-! Written by `/verif/tools/gen.py`. %s -/\n\nset_option maxRecDepth 100000\n\nnamespace Verif.%s\n\nopen Verif.Ein Verif.Ein.N\n\n"


def write(path, text):
    os.makedirs(os.path.dirname(path), exist_ok=True)
    if not os.path.exists(path) or open(path).read() != text:
        open(path, "w").write(text)
        print("wrote", path)


def antisym_text(mods, what):
    out = ["import Verif.Ein.Names\nimport Verif.Ein.Ops\n", HEAD % (what, "Gen")]
    for nm, tab, l0, l1, mod, fn in sorted(_tables.values()):
        if mod not in mods:
            continue
        out.append("/-- `%s` %d-%d `%s`: signs and output positions of the accumulated `einsum` calls. -/"
                   % (mod, l0, l1, fn))
        ch = [tab[k:k + 36] for k in range(0, len(tab), 36)]
        if len(ch) > 1:
            doc = out.pop()
            for n, c in enumerate(ch):
                out.append("def %s_%d : List (ℤ × List Nat) := [" % (nm, n))
                out.append(",\n".join("  (%s, [%s])" % (s, ", ".join(map(str, p))) for s, p in c) + "]\n")
            out.append(doc)
            out.append("def %s : List (ℤ × List Nat) :=\n  %s\n"
                       % (nm, " ++ (".join("%s_%d" % (nm, n) for n in range(len(ch))) + ")" * (len(ch) - 1)))
            continue
        out.append("def %s : List (ℤ × List Nat) := [" % nm)
        out.append(",\n".join("  (%s, [%s])" % (s, ", ".join(map(str, p))) for s, p in tab))
        out.append("  ]\n")
    out.append("end Verif.Gen\n")
    return "\n".join(out)


def modules():
    mods = {}
    for s in SPECS:
        mods.setdefault(s[0], []).append(s[1])
    return mods


def gen_text(mod, fns):
    out = ["import Verif.Ein.Names\nimport Verif.Gen.Antisym\n", HEAD % ("Programs read from `/repo/UT2`.", "Gen")]
    for nm in fns:
        blks, l0, l1, fname, func, none = load(nm)
        doc = "`UT2/%s` %d-%d, `%s`%s." % (fname, l0, l1, func,
                                         "".join(" with `%s=None`" % x for x in none))
        out.append(lean_prog(nm, blks, doc))
    out.append("end Verif.Gen\n")
    return "\n".join(out)


def fn_text(mods):
    """the functions themselves: a program applied to the arrays, with the axes in the order of the source"""
    out = ["import Verif.Ein.Arrays\n" + "".join("import Verif.Gen.%s\n" % m for m in sorted(mods)),
           "/-! Written by `/verif/tools/gen.py`. The functions of `/repo/UT2` as functions of arrays and orbitals. -/\n",
           "namespace Verif.UT2\n\nopen Verif.Ein\n",
           "variable {I K : Type} [Field K] [Inhabited I] (D : Nat → Finset I)\n"]
    for nm in [nm for m in sorted(mods) for nm in mods[m]]:
        blks, l0, l1, fname, func, none = load(nm)
        doc = "`UT2/%s` %d-%d, `%s`%s" % (fname, l0, l1, func, "".join(" with `%s=None`" % x for x in none))
        w = blks[0].ps[0][1]
        for op in blks[0].post:
            if op[0] == "outs":
                w = [w[k] for k in op[1]]
        cnt = {"o": iter("ijkl"), "v": iter("abcd")}
        ax = [next(cnt[x[1]]) for x in w]
        cls = "SI" if any("_" in t for b in blks for t, _ in b.fs) else "SO"
        out.append("/-- %s: %s. -/" % (doc, "the entry `[%s]`" % ",".join(ax) if ax else "a number"))
        out.append("def %s (A : %s I K)%s : K := Gen.%s.eval D A.T [%s]\n"
                   % (nm, cls, " (%s : I)" % " ".join(ax) if ax else "", nm, ", ".join(ax)))
    out.append("end Verif.UT2\n")
    return "\n".join(out)


def letters_text(outs):
    inv = {code((c, s)): c + {"o": "ₒ", "v": "ᵥ"}[s] for c in "abcdefghijklmnopqrstuvwxyz" for s in "ov"}
    return "[" + ", ".join(inv[x] for x in outs) + "]"


def cert_text(name, expr, blks, outs, doc):
    acc = collect(KINDS, blks, outs)
    if acc:
        raise Exception("claim %s does not hold: %s" % (name, list(acc.items())[:3]))
    den = 1
    for b in blks:
        den = lcm(den, b.c.denominator)
    cs = cert(KINDS, blks, outs)
    out = []
    parts = [cs[k:k + 400] for k in range(0, len(cs), 400)] or [[]]
    for n, p in enumerate(parts):
        out.append("def %s_cert_%d : List Nat := [%s]" % (name, n, ",\n  ".join(map(str, p))))
    ct = " ++ (".join("%s_cert_%d" % (name, n) for n in range(len(parts))) + ")" * (len(parts) - 1)
    out.append("\n/-- Check %s. %s -/" % (name, doc))
    if isinstance(expr, tuple):
        sp, a, b = expr
        out.append("theorem %s : isZeroSpin kinds %s %d [%s]\n    (%s)\n    (%s)\n    (%s) = true := by decide +kernel\n"
                   % (name, letters_text(outs), den, ", ".join("false" if c == "a" else "true" for c in sp), a, b, ct))
    else:
        out.append("theorem %s : isZero kinds %s %d\n    (%s)\n    (%s) = true := by decide +kernel\n"
                   % (name, letters_text(outs), den, expr, ct))
    return "\n".join(out), sum(len(b.ps) for b in blks)


def main(argv):
    import claims
    write(LEAN + "Ein/Names.lean", names.lean_names())
    write(LEAN + "Ein/Arrays.lean", names.lean_arrays())
    mods = modules()
    for s in SPECS:
        load(s[1])
    table("wicked_T3corr.py", "antisym_T2")
    table("tamps.py", "antisym_T3")
    write(LEAN + "Gen/Antisym.lean", antisym_text(("tamps.py", "wicked_T3corr.py"), "The antisymmetrising functions."))
    for fn in ("antisym_t4_residual", "antisymmetrize_residual_2_2", "antisym_T3"):
        table("antisym_t4resids.py", fn)
    write(LEAN + "Gen/Antisym2.lean", antisym_text(("antisym_t4resids.py",),
                                                   "The antisymmetrising functions of `antisym_t4resids.py`."))
    for m, fns in mods.items():
        write(LEAN + "Gen/%s.lean" % m, gen_text(m, fns))
    write(LEAN + "Fn/All.lean", fn_text(mods))
    thin.write(LEAN, write, letters_text, HEAD)
    for m, (imports, cl) in claims.CERTS.items():
        if argv and m not in argv:
            continue
        out = ["".join("import Verif.%s\n" % x for x in imports), HEAD % ("Checks of einsum programs.", "Cert"),
               "open Verif.Gen\n"]
        n = 0
        for c in cl:
            t, k = cert_text(*c())
            out.append(t)
            n += k
        out.append("end Verif.Cert\n")
        write(LEAN + "Cert/%s.lean" % m, "\n".join(out))
        print(m, n, "terms", flush=True)


if __name__ == "__main__":
    main(sys.argv[1:])
