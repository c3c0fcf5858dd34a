"""Canonical dummy labels of einsum terms (mirrors the normal form of Verif.Ein.Core)."""
import itertools
from fractions import Fraction
from ein import letter_code


def code(x):
    """letter code: occupied letters count from i, virtual letters from a"""
    if x[1] == "o":
        return 2 * ((letter_code(x[0]) - 8) % 26)
    return 2 * letter_code(x[0]) + 1


class Kinds:
    """table: tensor name -> (id, links, herm)"""

    def __init__(self, table):
        self.table = table

    def id(self, t):
        return self.table[t][0]


def sort_ix(links, ix):
    """sorted indices and sign, mirrors sortIx; None when an index repeats in a linked block"""
    n = len(ix)
    out = list(ix)
    sign = 1
    # blocks
    k = 0
    while k < n:
        e = k
        while e < n - 1 and e < len(links) and links[e]:
            e += 1
        blk = out[k:e + 1]
        # insertion sort parity
        inv = 0
        for a in range(len(blk)):
            for b in range(a + 1, len(blk)):
                if blk[a] == blk[b]:
                    return None
                if blk[a] > blk[b]:
                    inv += 1
        blk.sort()
        out[k:e + 1] = blk
        if inv % 2:
            sign = -sign
        k = e + 1
    return sign, out


def ix_key(ix):
    k = 1
    for x in ix:
        k = k * 64 + x
    return k


def norm_fs(kinds, fs):
    """fs: [(name, [codes])] -> (sign, tuple of (id, tuple)) or None"""
    sign = 1
    res = []
    for t, ix in fs:
        tid, links, herm = kinds.table[t]
        r = sort_ix(links, ix)
        if r is None:
            return None
        s, jx = r
        sign *= s
        if herm:
            h = len(jx) // 2
            a, b = jx[:h], jx[h:]
            if len(a) == len(b) and ix_key(b) < ix_key(a):
                jx = b + a
        key = tid
        for x in jx:
            key = key * 64 + x
        res.append((key, tid, tuple(jx)))
    res.sort()
    return sign, tuple((t, jx) for _, t, jx in res)


def pool(outs_codes, parity, n):
    res = [c for c in range(parity, 52, 2) if c not in outs_codes]
    if len(res) >= n:
        return res[:n]
    raise Exception("letters exhausted")


def invariants(fs, dummies, outs):
    """cheap colouring of the dummies by iterated refinement"""
    col = {d: 0 for d in dummies}
    occ = {d: [] for d in dummies}
    for fi, (t, ix, blk) in enumerate(fs):
        for p, x in enumerate(ix):
            if x in occ:
                occ[x].append((fi, p))
    for _ in range(3):
        fcol = []
        for t, ix, blk in fs:
            lab = [(blk[p], ("o", x) if x not in col else ("d", col[x])) for p, x in enumerate(ix)]
            fcol.append((t, tuple(sorted(lab))))
        new = {}
        for d in dummies:
            new[d] = (d % 2, col[d], tuple(sorted((fcol[fi], fs[fi][2][p]) for fi, p in occ[d])))
        vals = sorted(set(new.values()))
        idx = {v: n for n, v in enumerate(vals)}
        col2 = {d: idx[new[d]] for d in dummies}
        if col2 == col:
            break
        col = col2
    return col


_cache = {}


def canon(kinds, fs, outs):
    """fs: [(name,[codes])], outs codes. Returns (sign, normal form, renaming) ; sign 0 if the term vanishes,
    then renaming is a pair of renamings with opposite signs (or None when it vanishes by itself)."""
    key = (id(kinds), tuple((t, tuple(ix)) for t, ix in fs), tuple(outs))
    if key in _cache:
        return _cache[key]
    r = _canon(kinds, fs, outs)
    _cache[key] = r
    return r


def _canon(kinds, fs, outs):
    dummies = []
    for t, ix in fs:
        for x in ix:
            if x not in outs and x not in dummies:
                dummies.append(x)
    # block numbers of axes (herm tensors: both halves alike)
    ff = []
    for t, ix in fs:
        _, links, herm = kinds.table[t]
        blk = []
        b = 0
        for p in range(len(ix)):
            blk.append(b)
            if not (p < len(links) and links[p]):
                b += 1
        if herm:
            h = len(ix) // 2
            blk = [min(blk[p], blk[p - h]) if p >= h else blk[p] for p in range(len(ix))]
        ff.append((t, ix, blk))
    col = invariants(ff, dummies, outs)
    classes = {}
    for d in dummies:
        classes.setdefault((d % 2, col[d]), []).append(d)
    order = sorted(classes)
    tgt = {0: iter(pool(outs, 0, sum(1 for d in dummies if d % 2 == 0))),
           1: iter(pool(outs, 1, sum(1 for d in dummies if d % 2 == 1)))}
    targets = {c: [next(tgt[c[0]]) for _ in classes[c]] for c in order}
    best = None
    for perms in itertools.product(*[itertools.permutations(targets[c]) for c in order]):
        r = {}
        for c, p in zip(order, perms):
            r.update(zip(classes[c], p))
        nf = norm_fs(kinds, [(t, [r.get(x, x) for x in ix]) for t, ix in fs])
        if nf is None:
            return (0, None, None)
        s, f = nf
        if best is None or f < best[1]:
            best = (s, f, r)
        elif f == best[1] and s != best[0]:
            if len(best) == 3 or True:
                best = (best[0], f, best[2], r)
    if len(best) == 4:
        return (0, best[1], (best[2], best[3]))
    return best


def flat(blks):
    """blocks -> list of (coefficient, fs codes, w codes) in Lean's order"""
    res = []
    for b in blks:
        fs = [(t, [code(x) for x in ix]) for t, ix in b.fs]
        for s, w in b.ps:
            res.append((s * b.c, fs, [code(x) for x in w]))
    return res


def place(fs, w, outs):
    """rename w to outs and the other letters apart; returns new fs and the renaming of the others"""
    m = dict(zip(w, outs))
    tmp = {}
    res = []
    for t, ix in fs:
        jx = []
        for x in ix:
            if x not in m:
                m[x] = tmp[x] = x + 1000
            jx.append(m[x])
        res.append((t, jx))
    return res, tmp


def collect(kinds, blks, outs):
    """dictionary normal form -> coefficient, for output letters outs (codes)"""
    acc = {}
    for c, fs, w in flat(blks):
        s, nf, r = canon(kinds, place(fs, w, outs)[0], outs)
        if s == 0:
            continue
        acc[nf] = acc.get(nf, 0) + s * c
    return {k: v for k, v in acc.items() if v != 0}


def packed(pairs):
    R = S = 1 << 378
    for a, b in pairs:
        R |= b << (6 * a)
        S |= a << (6 * b)
    return [R & ((1 << 378) - 1) or R, S & ((1 << 378) - 1)]


def cert(kinds, blks, outs):
    """certificate of Verif.Ein.isZero: flat list of numbers"""
    out = []
    for c, fs, w in flat(blks):
        fs2, tmp = place(fs, w, outs)
        s, nf, r = canon(kinds, fs2, outs)
        base = list(zip(w, outs))
        if s != 0:
            rs = [r]
        elif r is not None:
            rs = list(r)
            out.append(0)
        else:
            # vanishes under every naming of the summed letters
            tg = {p: iter(pool(outs, p, sum(1 for d in tmp if d % 2 == p))) for p in (0, 1)}
            rs = [{tmp[d]: next(tg[d % 2]) for d in tmp}]
        for q in rs:
            out += packed(base + [(d, q[tmp[d]]) for d in tmp])
    return out
