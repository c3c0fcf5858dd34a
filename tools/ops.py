"""Operations on einsum programs (lists of Blk), mirroring Verif/Ein/Ops.lean and Verif/Ein/Spin.lean."""
import itertools
from fractions import Fraction
from math import floor
from ein import Blk
from names import TABLE


def expand(P):
    return [b.expand() for b in P]


def drop(P, names):
    return [b for b in P if not any(t in names for t, _ in b.fs)]


def outs(P, p):
    return [b.outs(p) for b in expand(P)]


def scale(P, q):
    return [b.scale(Fraction(q)) for b in P]


def replace(P, t, u, p):
    """tensor t[ix] is u[ix[p]]"""
    return [Blk(b.c, [(u, [ix[k] for k in p]) if n == t else (n, ix) for n, ix in b.fs], b.ps, b.line, b.src, b.post)
            for b in P]


def through(P, tab):
    return [Blk(b.c, b.fs, b.ps, b.line, b.src, b.post + (("through", tab[0], tab[1]),)) for b in P]


def ideal(P):
    return [Blk(Fraction(floor(b.c * 2304 + Fraction(1, 2)), 2304), b.fs, b.ps, b.line, b.src, b.post) for b in P]


def part(P, ids):
    return [b for b in P if sorted(TABLE[t][0] for t, _ in b.fs) in ids]


def flip(P):
    """every spin block replaced by the block with the other spins"""
    def fac(t, ix):
        base, bl = t.split("_")
        h = len(ix) // 2
        b = bl[:h].count("b")
        rot = lambda x: list(x[h - b:]) + list(x[:h - b])
        return base + "_" + ("a" * b + "b" * (h - b)) * 2, rot(ix[:h]) + rot(ix[h:])
    return [Blk(b.c, [fac(t, ix) for t, ix in b.fs], b.ps, b.line, b.src, b.post) for b in P]


def cap(P, n, t):
    """the last axes, from axis n on, contracted with the array t"""
    return [Blk(b.c, [(t, list(w[n:]))] + list(b.fs), [(s, list(w[:n]))], b.line, b.src, ())
            for b in expand(P) for s, w in b.ps]


def letters(fs):
    """letters in the order of Verif.Ein.newFs"""
    res = []
    for _, ix in fs:
        for x in ix:
            if x not in res:
                res.append(x)
    return res


def block_name(t, half):
    """name of the spin block with the given spins (0 alpha, 1 beta) of one half"""
    n = len(half)
    nb = sum(half)
    s = "a" * (n - nb) + "b" * nb
    return t + "_" + s + s


def stable(h):
    """stable sort by spin: positions and sign"""
    pos = sorted(range(len(h)), key=lambda k: h[k])
    inv = sum(1 for a in range(len(h)) for b in range(a + 1, len(h)) if h[a] > h[b])
    return pos, (-1 if inv % 2 else 1)


def spin_fac(t, ix, sp):
    """spin block behind t[ix] with spins sp: (sign, name, ix) or None"""
    n = len(ix) // 2
    a, b = sp[:n], sp[n:]
    if sum(a) != sum(b):
        return None
    pa, sa = stable(a)
    pb, sb = stable(b)
    return sa * sb, block_name(t, a), [ix[k] for k in pa] + [ix[n + k] for k in pb]


def spin(P, spins):
    """spin expansion for output spins (tuple of 0/1)"""
    res = []
    for b in expand(P):
        for s, w in b.ps:
            fixed = dict(zip(w, spins))
            dm = [x for x in letters(b.fs) if x not in fixed]
            for v in itertools.product((0, 1), repeat=len(dm)):
                m = dict(fixed)
                m.update(zip(dm, v))
                sg = s
                fs = []
                for t, ix in b.fs:
                    r = spin_fac(t, ix, [m[x] for x in ix])
                    if r is None:
                        break
                    sg *= r[0]
                    fs.append((r[1], r[2]))
                else:
                    res.append(Blk(b.c, fs, [(sg, w)], b.line, b.src))
    return res
