"""Wick expansion of projected equations, mirroring Verif/Wick (Nest, Bch, Project)."""
from fractions import Fraction
from math import factorial
from ein import Blk
from canon import code
from names import TABLE

LET = {code((c, s)): (c, s) for c in "abcdefghijklmnopqrstuvwxyz" for s in "ov"}
NAME = {TABLE[t][0]: t for t in TABLE}
C, A = True, False
F, G_ = 15, 23


def is_q(x):
    return x[1] % 2 == (0 if x[0] else 1)


def can_c(x, z):
    return x[0] != z[0] and x[1] % 2 == z[1] % 2


def eqv(y, z):
    return y[1] >= 64 and y[1] // 16 == z[1] // 16 and y[1] % 2 == z[1] % 2 and y[0] == z[0]


def runs(l):
    """(length of run, sign, element, rest), for the first element of every run"""
    res = []
    for k, z in enumerate(l):
        if k and eqv(l[k - 1], z):
            continue
        n = 1
        while k + n < len(l) and eqv(l[k + n - 1], l[k + n]):
            n += 1
        res.append((n, (-1) ** k, z, l[:k] + l[k + 1:]))
    return res


def subst(z, x, fs):
    return [(t, tuple(x if v == z else v for v in ix)) for t, ix in fs]


def wick(ops, fs, k, out):
    if not ops:
        out.append((k, fs))
        return
    x, l = ops[0], ops[1:]
    if not is_q(x):
        return
    for n, s, z, rest in runs(l):
        if can_c(x, z):
            wick(rest, subst(z[1], x[1], fs), k * n * s, out)


def nest(b, ts, ops, fs, k, out):
    if not ts:
        wick(b[1] + ops, b[0] + fs, k, out)
        return
    t = ts[0]
    for j, y in enumerate(ops):
        if is_q(y):
            for n, s, z, rest in runs(t[1]):
                if can_c(y, z):
                    nest(b, ts[1:], ops[:j] + rest + ops[j + 1:], subst(z[1], y[1], fs + t[0]), k * n * s, out)


def balanced(ops):
    c = {}
    for b, v in ops:
        c[b, v % 2] = c.get((b, v % 2), 0) + 1
    return all(c.get((True, s), 0) == c.get((False, s), 0) for s in (0, 1))


HAM = []
for p, q in ((44, 46), (44, 47), (45, 46), (45, 47)):
    HAM.append((4, [(F, (p, q))], [(C, p), (A, q)]))
    HAM.append((-4, [(G_, (p, 42, q, 42))], [(C, p), (A, q)]))
for p in (44, 45):
    for q in (46, 47):
        for r in (48, 49):
            for s in (50, 51):
                HAM.append((1, [(G_, (p, q, r, s))], [(C, p), (C, q), (A, s), (A, r)]))


def bra(n):
    return ([], [(C, 2 * k) for k in range(n)] + [(A, 2 * k + 1) for k in reversed(range(n))])


def tT(k, m):
    a = [65 + 16 * m + 2 * x for x in range(k)]
    i = [64 + 16 * m + 2 * x for x in range(k)]
    return ([(23 + 8 * k, tuple(a + i))], [(C, v) for v in a] + [(A, v) for v in reversed(i)])


SCALE = {1: 1, 2: 4, 3: 36, 4: 576}


def words(ks, k):
    if not ks:
        return [([], 1)] if k == 0 else []
    return [([ks[0]] * m + u, factorial(m) * c) for m in range(k + 1) for u, c in words(ks[1:], k - m)]


def words_c(ks, L):
    res = []
    for k in range(L):
        for u, c in words(ks, k):
            d = 4 * c
            for x in u:
                d *= SCALE[x]
            res.append((u, Fraction(1, d)))
    return res


def comm(q, w, b, ts, P):
    res = []
    for k, fs, ops in P:
        if not balanced(b[1] + ops + [x for t in ts for x in t[1]]):
            continue
        out = []
        nest(b, ts, ops, fs, k, out)
        for c, g in out:
            res.append(Blk(Fraction(q), [(NAME[t], [LET[v] for v in ix]) for t, ix in g],
                           [(c, [LET[v] for v in w])], 0, "", ()))
    return res


def proj(b, w, ks, L, keep=lambda u: True):
    res = []
    for u, q in words_c(ks, L):
        if not keep(u):
            continue
        res += comm(q, w, b, [tT(k, m) for m, k in enumerate(u)], HAM)
    return res


def lq(q):
    return "%d" % q if q.denominator == 1 else "%d/%d" % (q.numerator, q.denominator)


def term_text(b):
    return "⟨1, [%s], [%s]⟩" % (", ".join("⟨%d, %s⟩" % (t, list(ix)) for t, ix in b[0]),
                               ", ".join("(%s, %d)" % ("true" if x else "false", v) for x, v in b[1]))


def proj_text(b, w, ks, L, keep=lambda u: True):
    return "Wick.projP %s %s [%s]" % (term_text(b), w, ", ".join("(%s, %s)" % (u, lq(q)) for u, q in words_c(ks, L) if keep(u)))


FP = [h for h in HAM if h[1][0][0] == F]
VP = [h for h in HAM if h[1][0][0] != F]
L2P = [(1, [(71, (44, 46, 45, 47))], [(C, 44), (C, 46), (A, 47), (A, 45)])]
PART = {"all": HAM, "fock": FP, "fluct": VP, "l2": L2P}


def lam(b, k, base):
    """a bra followed by a de-excitation operator"""
    i = [base + 2 * x for x in range(k)]
    a = [base + 1 + 2 * x for x in range(k)]
    return (b[0] + [(55 + 8 * k, tuple(i + a))], b[1] + [(C, v) for v in i] + [(A, v) for v in reversed(a)])


def mat_bra(n, ls):
    b, base = bra(n), 8
    for k in ls:
        b = lam(b, k, base)
        base += 2 * k
    return b


def mat_items(ls, items):
    res = []
    for r, u, part in items:
        q = Fraction(r) / 4
        for x in u + ls:
            q /= SCALE[x]
        res.append((q, u, part))
    return res


def mat(n, w, ls, items):
    res = []
    for q, u, part in mat_items(ls, items):
        res += comm(q, w, mat_bra(n, ls), [tT(k, m) for m, k in enumerate(u)], PART[part])
    return res


def mat_text(n, w, ls, items):
    return "Wick.matP %s %s [%s]" % (term_text(mat_bra(n, ls)), w,
                                     ", ".join("(%s, %s, .%s)" % (lq(q), u, part) for q, u, part in mat_items(ls, items)))


# ---- bras contracted with de-excitation amplitudes (Verif/Wick/Cap.lean)
L3, L4 = 79, 119


def bra_x(n):
    i = [192 + 2 * k for k in range(n)]
    a = [193 + 2 * k for k in range(n)]
    return ([({3: L3, 4: L4}[n], tuple(i + a))], [(C, v) for v in i] + [(A, v) for v in reversed(a)])


def cmp_v(v):
    return 8 * ((v - 64) // 16) + v % 16 if v >= 64 else v


def ok_v(v):
    return 42 <= v <= 63 or 64 <= v <= 143 and v % 16 <= 7


def wick_x(B, ops, fs, k, out):
    if not ops:
        if not B:
            assert all(ok_v(v) for _, ix in fs for v in ix)
            out.append((k, [(t, tuple(cmp_v(v) for v in ix)) for t, ix in fs]))
        return
    x, l = ops[0], ops[1:]
    if is_q(x):
        for n, s, z, rest in runs(l):
            if can_c(x, z):
                wick_x(B, rest, subst(z[1], x[1], fs), k * n * s, out)
    else:
        k *= -1 if len(B) % 2 == 0 else 1
        for n, s, z, rest in runs(B):
            if can_c(x, z):
                wick_x(rest, l, subst(z[1], x[1], fs), k * n * s, out)


def nest_x(b, ts, ops, fs, k, out):
    if not ts:
        wick_x(b[1], ops, b[0] + fs, k, out)
        return
    t = ts[0]
    for j, y in enumerate(ops):
        if is_q(y):
            for n, s, z, rest in runs(t[1]):
                if can_c(y, z):
                    nest_x(b, ts[1:], ops[:j] + rest + ops[j + 1:], subst(z[1], y[1], fs + t[0]), k * n * s, out)


def comm_x(q, b, ts, P):
    res = []
    for k, fs, ops in P:
        if not balanced(b[1] + ops + [x for t in ts for x in t[1]]):
            continue
        out = []
        nest_x(b, ts, ops, fs, k, out)
        for c, g in out:
            res.append(Blk(Fraction(q), [(NAME[t], [LET[v] for v in ix]) for t, ix in g], [(c, [])], 0, "", ()))
    return res


def mat_x(n, cs):
    res = []
    for q, u, part in cs:
        res += comm_x(q, bra_x(n), [tT(k, m) for m, k in enumerate(u)], PART[part])
    return res


def mat_x_text(n, cs):
    return "Wick.matX (Wick.braX %d) [%s]" % (n, ", ".join("(%s, %s, .%s)" % (lq(q), u, part) for q, u, part in cs))


def capped(cs, n):
    """divided by the number of permutations"""
    return [(q / (factorial(n) ** 2), u, part) for q, u, part in cs]
