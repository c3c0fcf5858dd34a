"""Read the einsum statements of a Python function of /repo/UT2 as data.

A function body is interpreted symbolically, statement by statement, on the Python syntax tree. Arrays
are either inputs (possibly sliced or transposed views) or sums of coefficient * einsum(...) terms.
Nothing of /repo is imported or executed.
"""
import ast, os, re
from fractions import Fraction

REPO = "/repo/UT2/"


class Unsupported(Exception):
    pass


def letter_code(c):
    if "a" <= c <= "z":
        return ord(c) - 97
    raise Unsupported("letter " + c)


class View:
    """An input array seen through a transposition. axes[k] = native axis behind position k;
    spaces[k] = 'o' or 'v' of position k."""

    def __init__(self, name, axes, spaces):
        self.name, self.axes, self.spaces = name, axes, spaces

    def transpose(self, p):
        return View(self.name, [self.axes[k] for k in p], [self.spaces[k] for k in p])


class Blk:
    """c * einsum(fs) with outputs ps = [(sign, letters)]; letters are (char, space).
    post: operations on the array after that, ("through", table name, table) or ("outs", positions)"""

    def __init__(self, c, fs, ps, line, src, post=()):
        self.c, self.fs, self.ps, self.line, self.src, self.post = c, fs, ps, line, src, post

    def outs(self, p):
        if self.post:
            return Blk(self.c, self.fs, self.ps, self.line, self.src, self.post + (("outs", tuple(p)),))
        return Blk(self.c, self.fs, [(s, [w[k] for k in p]) for s, w in self.ps], self.line, self.src)

    def signed(self, q):
        if self.post or q.denominator != 1:
            return self.scale(q)
        return Blk(self.c, self.fs, [(s * q, w) for s, w in self.ps], self.line, self.src)

    def scale(self, q):
        return Blk(self.c * q, self.fs, self.ps, self.line, self.src, self.post)

    def expand(self):
        """the block with post carried out, outputs in the order of the Lean definitions"""
        ps = self.ps
        for op in self.post:
            if op[0] == "outs":
                ps = [(s, [w[k] for k in op[1]]) for s, w in ps]
            else:
                ps = [(q * s, [w[k] for k in t]) for s, w in ps for q, t in op[2]]
        return Blk(self.c, self.fs, ps, self.line, self.src)


class Arr:
    """A sum of blocks. Output letters of every block's ps are in the array's axis order."""

    def __init__(self, blks):
        self.blks = blks


MODULES = {"tamps": "tamps.py", "antisym": "antisym_t4resids.py"}


_sources = {}


def source(path):
    """lines and syntax tree of a file (the sources are ASCII)"""
    if path not in _sources:
        text = open(path).read()
        _sources[path] = (text.split("\n"), ast.parse(text))
    return _sources[path]


class Interp:
    def __init__(self, fname, func, consts=None, result=None, none=(), order=None):
        """base: python name -> View of an input array; none: arguments that are None; order: value of the
        argument `order`; result: the function is read up to the last assignment of this name"""
        self.fname = fname
        self.path = REPO + fname
        self.lines, self.tree = source(self.path)
        self.env = {}
        self.consts = consts or {}
        self.func = next(n for n in self.tree.body if isinstance(n, ast.FunctionDef) and n.name == func)
        self.result = result
        self.none = none
        self.order = order
        self.base = {}

    def num(self, e):
        """exact rational value of a numeric expression"""
        if isinstance(e, ast.Constant) and isinstance(e.value, (int, float)):
            seg = self.lines[e.lineno - 1][e.col_offset:e.end_col_offset]
            return Fraction(seg.strip())
        if isinstance(e, ast.UnaryOp) and isinstance(e.op, ast.USub):
            v = self.num(e.operand)
            return None if v is None else -v
        if isinstance(e, ast.UnaryOp) and isinstance(e.op, ast.UAdd):
            return self.num(e.operand)
        if isinstance(e, ast.BinOp):
            a, b = self.num(e.left), self.num(e.right)
            if a is None or b is None:
                return None
            if isinstance(e.op, ast.Mult):
                return a * b
            if isinstance(e.op, ast.Div):
                return a / b
            if isinstance(e.op, ast.Add):
                return a + b
            if isinstance(e.op, ast.Sub):
                return a - b
        return None

    def view(self, e):
        """an einsum operand that is an input array"""
        if isinstance(e, ast.Name):
            if e.id in self.env:
                return self.env[e.id]
            if e.id in self.base:
                return self.base[e.id]
            raise Unsupported("name " + e.id)
        if isinstance(e, ast.Subscript):
            base = e.value
            if isinstance(base, ast.Name) and isinstance(e.slice, ast.Constant) and isinstance(e.slice.value, str):
                key = base.id + "[" + e.slice.value + "]"
                if key in self.base:
                    return self.base[key]
                raise Unsupported(key)
            v = self.view(base)
            if not isinstance(v, View):
                raise Unsupported("slice of computed array")
            elts = e.slice.elts if isinstance(e.slice, ast.Tuple) else [e.slice]
            names = []
            for x in elts:
                if isinstance(x, ast.Name):
                    n = x.id
                    n = self.consts.get(n, n)
                    if n not in ("o", "v", "oa", "va", "ob", "vb"):
                        raise Unsupported("slice " + n)
                    names.append(n[0])
                elif isinstance(x, ast.Slice) and x.lower is None and x.upper is None:
                    names.append(None)
                else:
                    raise Unsupported("slice")
            if v.axes is None:
                if None in names:
                    raise Unsupported("partial slice")
                return View(v.name, list(range(len(names))), names)
            if any(n is not None for n in names):
                raise Unsupported("double slice")
            return v
        if isinstance(e, ast.Call) and isinstance(e.func, ast.Attribute) and e.func.attr == "transpose":
            v = self.view(e.func.value)
            p = [a.value for a in e.args]
            if isinstance(v, View):
                return v.transpose(p)
            return self.transpose_arr(v, p)
        raise Unsupported(ast.dump(e)[:80])

    def transpose_arr(self, a, p):
        return Arr([b.outs(p) for b in a.blks])

    def is_einsum(self, e):
        return isinstance(e, ast.Call) and (
            (isinstance(e.func, ast.Name) and e.func.id == "einsum")
            or (isinstance(e.func, ast.Attribute) and e.func.attr == "einsum"))

    def einsum(self, e):
        spec = e.args[0].value.replace(" ", "")
        ops = [self.expr(a) if not isinstance(a, (ast.Name, ast.Subscript)) and self.is_computed(a) else self.view(a)
               for a in e.args[1:]]
        if "->" in spec:
            ins, out = spec.split("->")
        else:
            ins = spec
            out = None
        ins = ins.split(",")
        if out is None:
            allc = "".join(ins)
            out = "".join(sorted(c for c in set(allc) if allc.count(c) == 1))
        if len(ins) != len(ops):
            raise Unsupported("operand count " + spec)
        if len(ops) == 1 and isinstance(ops[0], Arr):
            if sorted(ins[0]) != sorted(out) or len(set(out)) != len(out):
                raise Unsupported("einsum of one computed array: " + spec)
            return Arr([b.outs([ins[0].index(c) for c in out]) for b in ops[0].blks])
        space = {}
        fs = []
        for letters, v in zip(ins, ops):
            if not isinstance(v, View) or v.axes is None:
                raise Unsupported("operand of " + spec)
            if len(letters) != len(v.axes):
                raise Unsupported("rank mismatch in " + spec)
            native = [None] * len(letters)
            for c, ax, s in zip(letters, v.axes, v.spaces):
                if space.setdefault(c, s) != s:
                    raise Unsupported("SHAPE MISMATCH letter %s in %s line %d" % (c, spec, e.lineno))
                native[ax] = (c, s)
            fs.append((v.name, native))
        w = [(c, space[c]) for c in out]
        return Arr([Blk(Fraction(1), fs, [(Fraction(1), w)], e.lineno, spec)])

    def is_computed(self, e):
        return self.is_einsum(e) or isinstance(e, ast.BinOp)

    def scale(self, a, q):
        if isinstance(a, View):
            a = self.to_arr(a)
        return Arr([b.scale(q) for b in a.blks])

    def signed(self, a, q):
        """q * (array): the factor goes to the outputs"""
        return Arr([b.signed(q) for b in a.blks])

    def to_arr(self, v):
        raise Unsupported("view as array")

    def add(self, a, b):
        return Arr(a.blks + b.blks)

    def expr(self, e):
        if self.is_einsum(e):
            return self.einsum(e)
        if isinstance(e, ast.Name):
            v = self.env.get(e.id)
            if v is None:
                return self.view(e)
            return v
        if isinstance(e, ast.BinOp):
            if isinstance(e.op, ast.Mult):
                q = self.num(e.left)
                if q is not None:
                    x = self.expr(e.right)
                    return self.mulq(x, q, e.right)
                q = self.num(e.right)
                if q is not None:
                    return self.mulq(self.expr(e.left), q, e.left)
                raise Unsupported("product of arrays")
            if isinstance(e.op, (ast.Add, ast.Sub)):
                a, b = self.expr(e.left), self.expr(e.right)
                if isinstance(e.op, ast.Sub):
                    b = self.signed(b, Fraction(-1))
                return self.add(a, b)
        if isinstance(e, ast.UnaryOp) and isinstance(e.op, ast.USub):
            return self.signed(self.expr(e.operand), Fraction(-1))
        if isinstance(e, ast.Call):
            mod = fn = None
            if isinstance(e.func, ast.Name):
                mod, fn = self.fname, e.func.id
            elif isinstance(e.func, ast.Attribute) and isinstance(e.func.value, ast.Name) \
                    and e.func.value.id in MODULES:
                mod, fn = MODULES[e.func.value.id], e.func.attr
            if fn is not None and fn.startswith("antisym"):
                x = self.expr(e.args[0])
                tab = table(mod, fn)
                return Arr([Blk(b.c, b.fs, b.ps, b.line, b.src, b.post + (("through", tab[0], tab[1]),))
                            for b in x.blks])
        return self.view(e)

    def mulq(self, x, q, e):
        if self.is_einsum(e) and not (len(e.args) == 2 and isinstance(e.args[1], ast.Name) and
                                      isinstance(self.env.get(e.args[1].id), Arr)):
            return self.scale(x, q)
        return self.signed(x, q)

    def run(self):
        for st in self.func.body:
            r = self.stmt(st)
            if r is not None:
                return r
        if self.result:
            return self.env[self.result]
        raise Unsupported("no return")

    def is_zero(self, e):
        return (isinstance(e, ast.Call) and isinstance(e.func, ast.Attribute) and e.func.attr == "zeros") or \
            (isinstance(e, ast.Constant) and e.value in (0, 0.0))

    def stmt(self, st):
        if isinstance(st, ast.Expr):
            if isinstance(st.value, ast.Constant):
                return None
            if isinstance(st.value, ast.Call) and isinstance(st.value.func, ast.Name) and st.value.func.id == "print":
                return None
            raise Unsupported("statement line %d" % st.lineno)
        if isinstance(st, ast.Assign) and len(st.targets) == 1 and isinstance(st.targets[0], ast.Name):
            name = st.targets[0].id
            if name in ("o", "v") and isinstance(st.value, ast.Name):
                self.consts[name] = {"oa": "o", "va": "v", "o": "o", "v": "v"}[st.value.id]
                return None
            if isinstance(st.value, ast.Constant) and st.value.value is None:
                return None
            if isinstance(st.value, ast.Subscript) and isinstance(st.value.value, ast.Name) \
                    and st.value.value.id == "contractInfo":
                key = st.value.slice.value
                if key in ("oa", "va"):
                    self.consts[name] = key[0]
                elif key == "ints":
                    self.env[name] = self.base["g"]
                return None
            if isinstance(st.value, ast.Subscript) and isinstance(st.value.value, ast.Attribute) \
                    and st.value.value.attr == "shape":
                return None
            if self.is_zero(st.value):
                self.env[name] = Arr([])
                return None
            x = self.expr(st.value)
            self.env[name] = Arr(list(x.blks)) if isinstance(x, Arr) else x
            return None
        if isinstance(st, ast.Assign) and isinstance(st.value, ast.Constant) and st.value.value is None:
            return None
        if isinstance(st, ast.AugAssign) and isinstance(st.target, ast.Name):
            x = self.expr(st.value)
            if isinstance(st.op, ast.Sub):
                x = self.signed(x, Fraction(-1))
            elif not isinstance(st.op, ast.Add):
                raise Unsupported("augassign")
            self.env[st.target.id].blks.extend(x.blks)
            return None
        if isinstance(st, ast.If) and isinstance(st.test, ast.Compare) and isinstance(st.test.left, ast.Name) \
                and isinstance(st.test.ops[0], ast.IsNot) and isinstance(st.test.comparators[0], ast.Constant) \
                and st.test.comparators[0].value is None and not st.orelse:
            # if X is not None
            if st.test.left.id not in self.none:
                for x in st.body:
                    self.stmt(x)
            return None
        if isinstance(st, ast.If) and isinstance(st.test, ast.Compare) and isinstance(st.test.left, ast.Name) \
                and st.test.left.id == "order" and isinstance(st.test.ops[0], ast.Eq) and self.order is not None:
            # if order == n: the array of the name `result`, before it is antisymmetrised
            if st.test.comparators[0].value == self.order:
                for x in st.body:
                    if isinstance(x, ast.Assign) and isinstance(x.value, ast.Call) \
                            and isinstance(x.value.func, ast.Attribute) and x.value.func.attr.startswith("antisym"):
                        return self.env[self.result]
                    self.stmt(x)
            for x in st.orelse:
                r = self.stmt(x)
                if r is not None:
                    return r
            return None
        if isinstance(st, ast.Return):
            if self.result:
                return self.env[self.result]
            return self.expr(st.value)
        raise Unsupported("statement line %d: %s" % (st.lineno, ast.dump(st)[:60]))


_tables = {}
TABNAMES = {"tamps.py": "tamps", "antisym_t4resids.py": "t4resids", "wicked_T3corr.py": "wicked"}


def table(mod, fn):
    """an antisymmetrising function as a list of (sign, output positions, line), with its name"""
    if (mod, fn) not in _tables:
        it = Interp(mod, fn)
        arg = it.func.args.args[0].arg
        n = next(len(x.value.split("->")[0]) for x in ast.walk(it.func)
                 if isinstance(x, ast.Constant) and isinstance(x.value, str) and "->" in x.value)
        w = [(c, "o") for c in "abcdefghijklmnop"[:n]]
        it.env[arg] = Arr([Blk(Fraction(1), [("X", w)], [(Fraction(1), w)], 0, "")])
        lines = [x.lineno for x in ast.walk(it.func) if it.is_einsum(x)]
        tab = []
        for b in it.run().blks:
            for s, v in b.ps:
                assert b.c == 1 and s.denominator == 1
                tab.append((s, [w.index(x) for x in v]))
        _tables[(mod, fn)] = ("%s_%s" % (TABNAMES[mod], fn), tab, it.func.lineno, it.func.end_lineno, mod, fn)
    return _tables[(mod, fn)]


def merge(blks):
    """join the outputs of successive blocks that stem from the same einsum call"""
    out = []
    for b in blks:
        if out and out[-1].line == b.line and out[-1].src == b.src and out[-1].fs == b.fs and out[-1].c == b.c \
                and not b.post and not out[-1].post:
            out[-1] = Blk(b.c, b.fs, out[-1].ps + b.ps, b.line, b.src)
        else:
            out.append(b)
    return out


SUB = {"o": "ₒ", "v": "ᵥ"}


def lv(x):
    return x[0] + SUB[x[1]]


def lq(q):
    if q.denominator == 1:
        return str(q.numerator) if q >= 0 else "-%d" % -q.numerator
    return "%d/%d" % (q.numerator, q.denominator)


def lean_blk(b):
    fs = ", ".join("%s [%s]" % (t, ", ".join(map(lv, ix))) for t, ix in b.fs)
    ps = ", ".join("(%s, [%s])" % (lq(s), ", ".join(map(lv, w))) for s, w in b.ps)
    return "⟨%s, [%s], [%s]⟩" % (lq(b.c), fs, ps)


def wrap(post, text):
    for op in post:
        if op[0] == "outs":
            text = "Prog.outs %s (%s)" % (list(op[1]), text)
        else:
            text = "Prog.through %s (%s)" % (op[1], text)
    return text


def lean_prog(name, blks, doc, chunk=40):
    """Lean text of a program; long programs are split in pieces."""
    out = []
    pieces = []
    for b in blks:
        if pieces and len(pieces[-1]) < chunk and pieces[-1][0].post == b.post:
            pieces[-1].append(b)
        else:
            pieces.append([b])
    if not pieces:
        pieces = [[]]
    names = []
    single = len(pieces) == 1 and not (pieces[0] and pieces[0][0].post)
    for n, p in enumerate(pieces):
        nm = name if single else "%s_%d" % (name, n)
        names.append(wrap(p[0].post if p else (), nm))
        d = doc if single else "Part %d of `%s`." % (n, name)
        out.append("/-- %s -/" % d)
        out.append("def %s : Prog := [" % nm)
        for i, b in enumerate(p):
            out.append("  -- line %d: %s" % (b.line, b.src))
            out.append("  " + lean_blk(b) + ("," if i + 1 < len(p) else ""))
        out.append("  ]")
        out.append("")
    if not single:
        out.append("/-- %s -/" % doc)
        out.append("def %s : Prog := %s" % (name, " ++ (".join(names) + ")" * (len(names) - 1)))
        out.append("")
    return "\n".join(out)
