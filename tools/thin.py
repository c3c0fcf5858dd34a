"""Splits of the antisymmetrisers (Verif/Ein/Thin.lean): which transposes of a term are equal up to sign.

Writes Verif/Gen/Split.lean (the splits) and Verif/Cert/Thin.lean (their checks)."""
import itertools
from math import factorial, lcm
from fractions import Fraction
from ein import Blk, lean_blk
from ops import through, scale, ideal
from canon import cert, collect
from names import KINDS


def lin():
    """<ijkl abcd| [V, T3] |0> before it is antisymmetrised"""
    L = lambda s: [(c, "o" if c >= "i" else "v") for c in s]
    return [Blk(Fraction(-1, 24), [("g", L("abei")), ("t3", L("ecdjkl"))], [(1, L("ijklabcd"))], 0, ""),
            Blk(Fraction(-1, 24), [("g", L("amij")), ("t3", L("bcdmkl"))], [(1, L("ijklabcd"))], 0, "")]


def pert():
    """1/16 sum g l2 t4"""
    L = lambda s: [(c, "o" if c >= "i" else "v") for c in s]
    return [Blk(Fraction(1, 16), [("g", L("ijab")), ("l2", L("klcd")), ("t4", L("abcdijkl"))], [(1, [])], 0, "")]


def sign(p):
    return (-1) ** sum(1 for a in range(len(p)) for b in range(a + 1, len(p)) if p[a] > p[b])


def full(p, half, n):
    return list(p) + list(range(n, 2 * n)) if half == 0 else list(range(n)) + [n + x for x in p]


def rows(ps, half, n):
    return [(sign(p), full(p, half, n)) for p in ps]


def young(groups, n):
    """permutations within the groups of positions"""
    res = []
    for qs in itertools.product(*[itertools.permutations(g) for g in groups]):
        p = list(range(n))
        for g, q in zip(groups, qs):
            for x, y in zip(g, q):
                p[x] = y
        res.append(tuple(p))
    return res


def reps(H, n):
    """one r of every set {h[r[k]]}"""
    seen, res = set(), []
    for r in itertools.permutations(range(n)):
        if r not in seen:
            res.append(r)
            seen |= {tuple(h[x] for x in r) for h in H}
    return res


def groups(b):
    w = b.ps[0][1]
    n = len(w) // 2
    where = {}
    for k, (t, ix) in enumerate(b.fs):
        for m, x in enumerate(ix):
            where[x] = (k, m >= len(ix) // 2)
    res = []
    for half in (w[:n], w[n:]):
        c = {}
        for p, x in enumerate(half):
            c.setdefault(where[x], []).append(p)
        res.append(tuple(sorted(tuple(v) for v in c.values())))
    return tuple(res)


def splits(blks):
    n = len(blks[0].ps[0][1]) // 2
    cl = {}
    for k, b in enumerate(blks):
        assert len(b.ps) == 1
        cl.setdefault(groups(b), []).append(k)
    res = []
    for g, idx in cl.items():
        ho, hv = young(g[0], n), young(g[1], n)
        res.append((idx, g, reps(ho, n), ho, reps(hv, n), hv))
    return n, res


def compose(R, H):
    return [(r[0] * h[0], [h[1][x] for x in r[1]]) for r in R for h in H]


def thin(blks):
    blks = [b.expand() for b in blks]
    n, ss = splits(blks)
    out = []
    for idx, g, ro, ho, rv, hv in ss:
        tab = compose(rows(rv, 1, n), rows(ro, 0, n))
        P = [blks[k] for k in idx]
        out += [b.expand() for b in scale(through(P, ("", tab)), len(ho) * len(hv))]
    return out


USES = {}


def use(name, text, blks, outs):
    """register the program `text`, split under `name`"""
    USES[name] = (text, blks, outs)


def tab_text(R):
    return "[%s]" % ", ".join("(%d, %s)" % (s, p) for s, p in R)


def write(LEAN, write_file, letters_text, head):
    out = ["import Verif.Ein.Thin\n", head % ("How the permutations of the antisymmetrisers are split for terms that are "
           "antisymmetric in some of their indices.", "Gen"), "open Verif.Ein\n"]
    out.append("/-- A program for `⟨Φ_ijkl^abcd| [V, T3] |Φ⟩` before it is antisymmetrised. It is not read from the code: what it "
               "stands for is checked in `Cert.T4_lin_mat`. -/")
    out.append("def linT3 : Prog := [\n  %s]\n" % ",\n  ".join(lean_blk(b) for b in lin()))
    out.append("/-- `1/16 g[i,j,a,b] l2[k,l,c,d] t4[a,b,c,d,i,j,k,l]`, summed over everything; not read from the code. -/")
    out.append("def pertT4 : Prog := [%s]\n" % lean_blk(pert()[0]))
    tabs = {}

    def tab(R, n, half, kind):
        k = (tuple(R), n, half)
        if k not in tabs:
            nm = "%s%d_%d" % (kind + "ov"[half], n, len(tabs))
            tabs[k] = nm
            out.append("def %s : List (ℤ × List Nat) := %s" % (nm, tab_text(rows(R, half, n))))
        return tabs[k]
    for n in (3, 4):
        for half in (0, 1):
            P = tuple(itertools.permutations(range(n)))
            tabs[(P, n, half)] = "all%s%d" % ("ov"[half], n)
            out.append("/-- All permutations of the %s %d axes. -/" % (("first", "last")[half], n))
            out.append("def all%s%d : List (ℤ × List Nat) := %s\n" % ("ov"[half], n, tab_text(rows(P, half, n))))
    cs = ["import Verif.Gen.Split\nimport Verif.Gen.Ccsdt\nimport Verif.Gen.Ccdq\nimport Verif.Gen.Qf\n",
          head % ("Terms that are antisymmetric in some of their indices.", "Cert"), "open Verif.Ein Verif.Gen\n"]
    for n in (3, 4):
        cs.append("theorem all%d_rows : sortRows tamps_antisym_T%d = sortRows (compose allo%d allv%d) := by decide +kernel\n"
                  % (n, n, n, n))
    for name, (text, blks, outs) in USES.items():
        B = [b.expand() for b in blks()]
        n, ss = splits(B)
        items, certs, den = [], [], 1
        for idx, g, ro, ho, rv, hv in ss:
            nm = [tab(ro, n, 0, "r"), tab(ho, n, 0, "h"), tab(rv, n, 1, "r"), tab(hv, n, 1, "h")]
            items.append("⟨%s, %s⟩" % (idx, ", ".join(nm)))
            P = [B[k] for k in idx]
            pair = []
            for H, half in ((ho, 0), (hv, 1)):
                Q = [b.expand() for b in through(P, ("", rows(H, half, n))) + scale(P, -len(H))]
                assert not collect(KINDS, Q, outs), (name, idx, half)
                for b in Q:
                    den = lcm(den, b.c.denominator)
                pair.append("[%s]" % ",\n  ".join(map(str, cert(KINDS, Q, outs))))
            certs.append("(%s,\n  %s)" % tuple(pair))
        out.append("/-- The split for `%s`: numbers of the terms, representatives and permutations of the first half, of the "
                   "second half. -/" % text)
        out.append("def %s : List Split := [\n  %s]\n" % (name, ",\n  ".join(items)))
        for k, c in enumerate(certs):
            cs.append("def %s_cert_%d : List Nat × List Nat := %s" % (name, k, c))
        cs.append("\ntheorem %s_ok : %s.all (Split.ok %d allo%d allv%d) = true := by decide +kernel" % (name, name, 2 * n, n, n))
        cs.append("\ntheorem %s_idx : (%s.flatMap Split.idx).isPerm (List.range (%s).length) = true := by decide +kernel" % (name, name, text))
        cs.append("\ntheorem %s_anti : antiOk N.kinds %s %d (%s) %s\n    [%s] = true := by decide +kernel\n"
                  % (name, letters_text(outs), den, text, name, ", ".join("%s_cert_%d" % (name, k) for k in range(len(certs)))))
    out.append("end Verif.Gen\n")
    cs.append("end Verif.Cert\n")
    write_file(LEAN + "Gen/Split.lean", "\n".join(out))
    write_file(LEAN + "Cert/Thin.lean", "\n".join(cs))
