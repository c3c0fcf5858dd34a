"""Write Verif/Props/SpinHigh.lean."""
B = {"a": "false", "b": "true"}
SP2 = ("aaaa", "abab", "bbbb")
SP3 = ("aaaaaa", "aabaab", "abbabb", "bbbbbb")
SP4 = ("aaaaaaaa", "aaabaaab", "aabbaabb", "abbbabbb", "bbbbbbbb")


def lets(n):
    return list("abcd"[:n]), list("ijkl"[:n])


def ent(ls, sp):
    return " ".join("(%s, %s)" % (l, B[s]) for l, s in zip(ls, sp))


def elist(ls, sp):
    return "[" + ", ".join("(%s, %s)" % (l, B[s]) for l, s in zip(ls, sp)) + "]"


def mem(ls, d):
    return " ".join("(h%s : %s ∈ D %d)" % (x, x, d) for x in ls)


def memsp(ls):
    return " ".join("(mem_spinD h%s _)" % x for x in ls)


out = []
out.append(open("/verif/tools/spinhigh_head.txt").read())


def block(fn, sp, so):
    """residual of the code against the spin-orbital function, both with rounded coefficients"""
    n = len(sp) // 2
    v, o = lets(n)
    f = "%s_%s" % (fn, sp)
    ss = "[%s]" % ", ".join(B[c] for c in sp)
    thin = {"ccsdt_t3": "t3_thin", "ccdq_t4": "t4_thin"}[fn]
    out.append("theorem %s_ideal (A : SI I K) (hA : A.Sym) (%s : I) :\n    (Prog.ideal Gen.%s).eval D A.T [%s] =\n"
               "      (Prog.ideal Gen.%s).eval (spinD D) A.so.T %s := by" % (f, " ".join(v + o), f, ", ".join(v + o), so, elist(o + v, sp[n:] + sp[:n])))
    out.append("  have h := so_eval_of_isZero D A hA _ _ %s _ _ _ Cert.%s (by decide +kernel) (by decide +kernel) rfl\n"
               "    [%s] rfl" % (ss, f, ", ".join(v + o)))
    out.append("  rw [Prog.eval_outs' (spinD D) A.so.T %d _ (by decide) _ (by decide +kernel) _ rfl] at h" % (2 * n))
    out.append("  exact (h.symm.trans (%s A.so hA.so _ rfl).symm)\n" % thin)
    out.append("/-- Block `%s` against `%s`. -/" % (sp, so))
    out.append("theorem C83_%s (A : SI I K) (hA : A.Sym) (%s : I) :\n    %s D A %s - (roundoff Gen.%s).eval D A.T [%s] =\n"
               "      %s (spinD D) A.so %s -\n        (roundoff Gen.%s).eval (spinD D) A.so.T %s := by"
               % (f, " ".join(v + o), f, " ".join(v + o), f, ", ".join(v + o), so, ent(o + v, sp[n:] + sp[:n]), so,
                  elist(o + v, sp[n:] + sp[:n])))
    out.append("  have h := %s_ideal (D := D) A hA %s" % (f, " ".join(v + o)))
    out.append("  unfold %s %s" % (f, so))
    out.append("  rw [eval_roundoff (D := D) A.T Gen.%s, eval_roundoff (D := spinD D) A.so.T Gen.%s, h]\n  ring\n" % (f, so))
    out.append("/-- No coefficient of the block `%s` is off by more than `2·10⁻¹³`. -/" % sp)
    out.append("theorem C83_%s_roundoff : ∀ b ∈ roundoff Gen.%s, |b.c| ≤ 1 / 5000000000000 := by decide +kernel\n" % (f, f))


out.append("section blocks\nomit [DecidableEq I]\n")
for s in SP3:
    block("ccsdt_t3", s, "ccsdt_t3eqns")
for s in SP4:
    block("ccdq_t4", s, "ccdq_t4eqns")
out.append("end blocks\n")

HYP = """(hD : Disjoint (D 0) (D 1)) (A : SI I K) (hA : A.Sym)
    (h : I × Bool → I × Bool → K) (hf : IsFock (spinD D) h A.so.f A.so.g)"""


def proj(fn, sp, T, bound, so):
    n = len(sp) // 2
    v, o = lets(n)
    f = "%s_%s" % (fn, sp)
    out.append("/-- Block `%s`. -/" % sp)
    out.append("theorem C83_%s_projected %s\n    (%s : I) %s %s\n    (n : Nat) (hn : %d ≤ n) :" % (f, HYP, " ".join(v + o), mem(v, 1), mem(o, 0), bound))
    out.append("    %s D A %s = F.ω (F.bra%d %s *\n      hbar F h A.so.g n (%s)) + (roundoff Gen.%s).eval D A.T [%s] := by"
               % (f, " ".join(v + o), n, ent(v + o, sp), T, f, ", ".join(v + o)))
    out.append("  have p := C75_%s F (spinD_disjoint hD) A.so hA.so h hf %s %s\n    %s n hn" % (fn, ent(v + o, sp), memsp(v), memsp(o)))
    out.append("  have e := C83_%s (D := D) A hA %s" % (f, " ".join(v + o)))
    out.append("  linear_combination e - p\n")


for s in SP3:
    proj("ccsdt_t3", s, "F.T1 A.so.t1 + F.T2 A.so.t2 + F.T3 A.so.t3", 6, "ccsdt_t3eqns")
for s in SP4:
    proj("ccdq_t4", s, "F.T2 A.so.t2 + F.T4 A.so.t4", 4, "ccdq_t4eqns")

V4, O4 = lets(4)
QUAD = "(1/2 : K) • com (com (F.fluct h A.so.f A.so.g) (F.T2 A.so.t2)) (F.T2 A.so.t2)"
LIN = "com (F.fluct h A.so.f A.so.g) (F.T3 A.so.t3)"
CUB = "(1/6 : K) • com (com (com (F.fluct h A.so.f A.so.g) (F.T2 A.so.t2)) (F.T2 A.so.t2)) (F.T2 A.so.t2)"


def pert(fn, sp, X, doc):
    v, o = V4, O4
    f = "%s_%s" % (fn, sp)
    ss = "[%s]" % ", ".join(B[c] for c in sp)
    out.append("/-- Block `%s`: %s -/" % (sp, doc))
    out.append("theorem C83_%s %s\n    (%s : I) %s\n    %s :" % (f, HYP, " ".join(v + o), mem(v, 1), mem(o, 0)))
    out.append("    %s D A %s = F.ω (F.bra4 %s *\n      (%s)) := by" % (f, " ".join(v + o), ent(v + o, sp), X))
    out.append("  have e := so_eval_of_isZero D A hA _ _ %s _ _ _ Cert.%s (by decide +kernel) (by decide +kernel) rfl\n"
               "    [%s] rfl" % (ss, f, ", ".join(v + o)))
    out.append("  rw [Prog.eval_outs' (spinD D) A.so.T 8 _ (by decide) _ (by decide +kernel) _ rfl] at e")
    args = "F (spinD_disjoint hD) A.so hA.so h hf %s\n    %s %s" % (ent(v + o, sp), memsp(v), memsp(o))
    lst = elist(o + v, sp[4:] + sp[:4])
    if fn == "ccsdtq_t4":
        out.append("  rw [Prog.eval_append] at e")
        out.append("  have q := (quad_thin A.so hA.so %s rfl).symm.trans (T4_quad_eval %s)" % (lst, args))
        out.append("  have l := (lin_thin A.so hA.so %s rfl).symm.trans (lin_eval %s)" % (lst, args))
        out.append("  rw [mul_add, map_add, ← q, ← l]\n  exact e.symm\n")
    else:
        out.append("  exact e.symm.trans ((cub_thin A.so hA.so _ rfl).symm.trans (T4_cub_eval %s))\n" % args)


for s in SP4:
    pert("ccsdtq_t4", s, QUAD + " +\n        " + LIN, "`⟨Φ_ijkl^abcd| 1/2 [[V, T2], T2] + [V, T3] |Φ⟩`.")
for s in SP4:
    pert("ccsdtqT2cubed_t4", s, CUB, "`⟨Φ_ijkl^abcd| 1/6 [[[V, T2], T2], T2] |Φ⟩`.")

for s in SP2:
    v, o = lets(2)
    f = "test_t2_" + s
    out.append("/-- Block `%s`: `⟨Φ_ij^ab| L2 (1/2 [[V, T2], T2] + [V, T3]) |Φ⟩`. -/" % s)
    out.append("theorem C83_%s %s\n    (%s : I) %s %s :" % (f, HYP, " ".join(v + o), mem(v, 1), mem(o, 0)))
    out.append("    %s D A %s = F.ω (F.bra2 %s * F.L2 A.so.l2 *\n      (%s +\n        %s)) := by" % (f, " ".join(v + o), ent(v + o, s), QUAD, LIN))
    out.append("  have e := so_eval_of_isZero D A hA _ _ [%s] _ _ _ Cert.%s (by decide +kernel) (by decide +kernel) rfl\n"
               "    [%s] rfl" % (", ".join(B[c] for c in s), f, ", ".join(v + o)))
    out.append("  rw [Prog.eval_append] at e")
    args = "%s %s %s" % (ent(v + o, s), memsp(v), memsp(o))
    out.append("  have q := C77_residQf1 F (spinD_disjoint hD) A.so hA.so h hf %s" % args)
    out.append("  have l := capL2 F _ split_lin_wf split_lin_cap A.so _ (spinD_disjoint hD)\n"
               "    (fun a b c d i j k l ha hb hc hd hi hj hk hl => (lin_thin A.so hA.so _ rfl).symm.trans\n"
               "      (lin_eval F (spinD_disjoint hD) A.so hA.so h hf a b c d i j k l ha hb hc hd hi hj hk hl)) %s" % args)
    out.append("  rw [mul_add, map_add, q, ← l]\n  exact e.symm\n")

out.append(open("/verif/tools/spinhigh_tail.txt").read())
open("/verif/lean/Verif/Props/SpinHigh.lean", "w").write("\n".join(out))
