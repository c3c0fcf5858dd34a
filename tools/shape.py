"""Read functions of /repo/UT2 as straight-line shape programs: every einsum call with its subscripts and operands as written."""
import ast, os, re, sys, collections
REPO = "/repo/UT2/"
_src = {}


class Unsupported(Exception):
    pass


def tree(mod):
    if mod not in _src:
        _src[mod] = ast.parse(open(REPO + mod + ".py").read())
    return _src[mod]


def func(mod, name):
    return next(f for f in tree(mod).body if isinstance(f, ast.FunctionDef) and f.name == name)


def is_einsum(e):
    return isinstance(e, ast.Call) and ((isinstance(e.func, ast.Name) and e.func.id == "einsum") or
                                        (isinstance(e.func, ast.Attribute) and e.func.attr == "einsum"))


def is_num(e):
    if isinstance(e, ast.Constant):
        return isinstance(e.value, (int, float))
    if isinstance(e, ast.UnaryOp):
        return is_num(e.operand)
    if isinstance(e, ast.BinOp):
        return is_num(e.left) and is_num(e.right)
    return False


class Conv:
    """stmts: list of (kind, target, [terms], line); terms: ('ein', ins, out, [args]) | ('arg', arg) | ('zeros', [ints]) |
    ('num',) | ('call', fn, [args]); args: (name, [ops]); ops: ('sl', [..]) | ('tr', [..])"""

    def __init__(self, mod, name, none=(), skip=(), modules=None, assume=None):
        self.mod, self.f = mod, func(mod, name)
        self.out, self.tmp, self.ret = [], 0, None
        self.none = none
        self.skip = skip
        self.consts = {}
        self.calls = set()
        self.modules = modules or {}
        self.assume = assume or {}

    def err(self, e, msg=""):
        raise Unsupported("%s.%s:%s %s %s" % (self.mod, self.f.name, getattr(e, "lineno", "?"), msg, ast.dump(e)[:110]))

    def arg(self, e):
        """array operand: (variable, operations)"""
        if isinstance(e, ast.Name):
            return (e.id, [])
        if isinstance(e, ast.Subscript):
            if isinstance(e.value, ast.Name) and isinstance(e.slice, ast.Constant) and isinstance(e.slice.value, str):
                return (e.value.id + "_" + e.slice.value, [])
            x, ops = self.arg(e.value)
            elts = e.slice.elts if isinstance(e.slice, ast.Tuple) else [e.slice]
            sl = []
            for s in elts:
                if isinstance(s, ast.Name):
                    sl.append(self.consts.get(s.id, s.id))
                elif isinstance(s, ast.Slice) and s.lower is None and s.upper is None and s.step is None:
                    sl.append(":")
                else:
                    self.err(s, "slice")
            return (x, ops + [("sl", sl)])
        if isinstance(e, ast.Call) and isinstance(e.func, ast.Attribute) and e.func.attr == "transpose" and not e.keywords \
                and not (isinstance(e.func.value, ast.Name) and e.func.value.id == "np"):
            x, ops = self.arg(e.func.value)
            p = e.args[0].elts if len(e.args) == 1 and isinstance(e.args[0], (ast.Tuple, ast.List)) else e.args
            return (x, ops + [("tr", [k.value for k in p])])
        ts = self.terms(e)
        t = "tmp%d" % self.tmp
        self.tmp += 1
        self.out.append(("set", t, ts, e.lineno))
        return (t, [])

    def ints(self, e):
        if isinstance(e, ast.Name):
            return e.id
        self.err(e, "int")

    def terms(self, e):
        if is_num(e):
            return [("num",)]
        if isinstance(e, ast.Constant) and e.value is None:
            return [("none",)]
        if is_einsum(e):
            spec = e.args[0].value.replace(" ", "")
            if "->" in spec:
                ins, out = spec.split("->")
            else:
                ins, out = spec, None
            ins = ins.split(",")
            if out is None:
                a = "".join(ins)
                out = "".join(sorted(c for c in set(a) if a.count(c) == 1))
            for k in e.keywords:
                if k.arg != "optimize":
                    self.err(e, "keyword")
            args = [self.arg(a) for a in e.args[1:] if not (isinstance(a, ast.List))]
            return [("ein", ins, out, args)]
        if isinstance(e, ast.BinOp) and isinstance(e.op, ast.Mult):
            if is_num(e.left):
                return self.terms(e.right)
            if is_num(e.right):
                return self.terms(e.left)
            a, b = self.arg(e.left), self.arg(e.right)
            return [("mul", a, b)]
        if isinstance(e, ast.BinOp) and isinstance(e.op, ast.Div) and is_num(e.right):
            return self.terms(e.left)
        if isinstance(e, ast.BinOp) and isinstance(e.op, (ast.Add, ast.Sub)):
            r = self.terms(e.right) if isinstance(e.right, (ast.Name, ast.Subscript, ast.Call)) or not isinstance(e.right, ast.BinOp) or isinstance(e.right.op, ast.Mult) else [("arg", self.arg(e.right))]
            return self.terms(e.left) + r
        if isinstance(e, ast.UnaryOp):
            return self.terms(e.operand)
        if isinstance(e, ast.Call):
            if isinstance(e.func, ast.Attribute) and e.func.attr == "zeros" and isinstance(e.func.value, ast.Name):
                d = e.args[0].elts if isinstance(e.args[0], ast.Tuple) else [e.args[0]]
                return [("zeros", [self.ints(x) for x in d])]
            if isinstance(e.func, ast.Attribute) and e.func.attr == "transpose":
                return [("arg", self.arg(e))]
            fn = None
            if isinstance(e.func, ast.Name):
                fn = (self.mod, e.func.id)
            elif isinstance(e.func, ast.Attribute) and isinstance(e.func.value, ast.Name):
                fn = (e.func.value.id, e.func.attr)
            fn = (self.modules.get(fn[0], fn[0]), fn[1])
            try:
                func(*fn)
            except (StopIteration, FileNotFoundError):
                self.err(e, "call")
            self.calls.add(fn)
            return [("call", fn, [self.arg(a) for a in e.args])]
        if isinstance(e, (ast.Name, ast.Subscript)):
            return [("arg", self.arg(e))]
        self.err(e, "expr")

    def test(self, e):
        if isinstance(e, ast.Compare) and isinstance(e.left, ast.Name) and len(e.ops) == 1 and isinstance(e.comparators[0], ast.Constant):
            c = e.comparators[0].value
            if c is None:
                isnone = e.left.id in self.none
                return isnone if isinstance(e.ops[0], ast.Is) else not isnone
            if e.left.id in self.assume:
                return (self.assume[e.left.id] == c) if isinstance(e.ops[0], ast.Eq) else (self.assume[e.left.id] != c)
        self.err(e, "test")

    def stmt(self, st):
        if self.ret is not None:
            return
        if isinstance(st, ast.Expr):
            if isinstance(st.value, ast.Constant):
                return
            if isinstance(st.value, ast.Call) and isinstance(st.value.func, ast.Name) and st.value.func.id == "print":
                return
        if isinstance(st, ast.Import) or isinstance(st, ast.ImportFrom) or isinstance(st, ast.Pass):
            return
        if isinstance(st, ast.Assign) and len(st.targets) == 1 and isinstance(st.targets[0], ast.Name):
            x = st.targets[0].id
            v = st.value
            if isinstance(v, ast.Name) and v.id in ("o", "v", "oa", "ob", "va", "vb"):
                self.consts[x] = self.consts.get(v.id, v.id)
                return
            if isinstance(v, ast.Subscript) and isinstance(v.slice, ast.Constant) and v.slice.value in ("oa", "va"):
                self.consts[x] = v.slice.value
                return
            if isinstance(v, ast.Subscript) and isinstance(v.value, ast.Call) and isinstance(v.value.func, ast.Attribute) \
                    and v.value.func.attr == "shape":
                self.out.append(("dim", x, (v.value.args[0].id, v.slice.value), st.lineno))
                return
            if isinstance(v, ast.Subscript) and isinstance(v.value, ast.Attribute) and v.value.attr == "shape":
                self.out.append(("dim", x, (v.value.value.id, v.slice.value), st.lineno))
                return
            self.out.append(("set", x, self.terms(v), st.lineno))
            return
        if isinstance(st, ast.Assign) and all(isinstance(t, ast.Name) for t in st.targets):
            ts = self.terms(st.value)
            for t in st.targets:
                self.out.append(("set", t.id, ts, st.lineno))
            return
        if isinstance(st, ast.AugAssign) and isinstance(st.target, ast.Name) and isinstance(st.op, (ast.Add, ast.Sub)):
            self.out.append(("aug", st.target.id, self.terms(st.value), st.lineno))
            return
        if isinstance(st, ast.AugAssign) and isinstance(st.target, ast.Name) and isinstance(st.op, ast.Mult) and is_num(st.value):
            return
        if isinstance(st, ast.With):
            for b in st.body:
                if isinstance(b, ast.Expr) and b.value.func.attr == "dump":
                    continue
                if isinstance(b, ast.Assign) and b.value.func.attr == "load":
                    self.out.append(("set", b.targets[0].id, [("arg", ("pickle", []))], b.lineno))
                    continue
                self.err(b, "with")
            return
        if isinstance(st, ast.If):
            for x in (st.body if self.test(st.test) else st.orelse):
                self.stmt(x)
            return
        if isinstance(st, ast.Return):
            if st.value is None:
                self.ret = []
                return
            if isinstance(st.value, ast.Tuple):
                self.ret = [self.arg(x) for x in st.value.elts]
            else:
                self.ret = [self.arg(st.value)]
            return
        self.err(st, "stmt")

    def run(self):
        for st in self.f.body:
            self.stmt(st)
        return self


if __name__ == "__main__":
    mods = sys.argv[1:]
    ok = 0
    for m in mods:
        for f in tree(m).body:
            if isinstance(f, ast.FunctionDef) and any(is_einsum(x) for x in ast.walk(f)):
                try:
                    c = Conv(m, f.name).run()
                    n = sum(is_einsum(x) for x in ast.walk(f))
                    print("ok", m, f.name, n, sorted(c.calls), c.ret)
                    ok += n
                except Unsupported as e:
                    print("--", e)
    print(ok)
