"""Tensor names, numbers and symmetries shared by the generator and Verif/Ein/Names.lean."""
import string
from canon import Kinds, code

T, F = True, False
SO = 7  # tensor number = 8*base + spin code; spin code 7: spin-orbital, otherwise number of beta indices
BASE = {"f": 1, "g": 2, "t1": 3, "t2": 4, "t3": 5, "t4": 6, "l1": 7, "l2": 8, "l3": 9, "X": 10, "Y": 11, "S": 12, "R": 13, "l4": 14}


def amp(n, nb=None):
    """links of an n-fold amplitude with nb beta indices"""
    half = [T] * (n - 1) + [F]
    if nb is not None and 0 < nb < n:
        half[n - nb - 1] = F
    return half + half


TABLE = {"f": (8 + 7, [], True), "g": (16 + 7, [T, F, T, F], True)}
for b, n in (("t1", 1), ("t2", 2), ("t3", 3), ("t4", 4), ("l1", 1), ("l2", 2), ("l3", 3)):
    TABLE[b] = (8 * BASE[b] + 7, amp(n), False)
    for nb in range(n + 1):
        s = "a" * (n - nb) + "b" * nb
        TABLE[b + "_" + s + s] = (8 * BASE[b] + nb, amp(n, nb), False)
TABLE["l4"] = (8 * BASE["l4"] + 7, amp(4), False)
for nb, s in enumerate(("aa", "bb")):
    TABLE["f_" + s] = (8 + nb, [], True)
for nb, s in enumerate(("aaaa", "abab", "bbbb")):
    TABLE["g_" + s] = (16 + nb, amp(2, nb), True)
# arrays without symmetry, fully antisymmetric arrays of rank 4, 6, 8, antisymmetric pairs (2-index)
for n in range(8):
    TABLE["X%d" % n] = (8 * BASE["X"] + n, [], False)
for n in (1, 2, 3, 4):
    TABLE["Y%d" % n] = (8 * BASE["Y"] + n, amp(n), False)
KINDS = Kinds(TABLE)


def lean_names():
    out = ["import Verif.Ein.Core", "", "/-!", "Names used by the generated modules `Verif/Gen/*` (written by `/verif/tools/gen.py`).",
           "", "Letters: the subscript tells the range (`ₒ` occupied, `ᵥ` virtual). Tensors: number `8*base + s`, where",
           "`s` is 7 for a spin-orbital tensor and otherwise the number of beta indices in each half. `kinds` lists",
           "the symmetry the normal form may use.", "-/", "", "namespace Verif.Ein.N", ""]
    for k, c in enumerate(string.ascii_lowercase):
        out.append("abbrev %sₒ : Var := %d" % (c, code((c, "o"))))
        out.append("abbrev %sᵥ : Var := %d" % (c, code((c, "v"))))
    out.append("")
    for t, (i, links, herm) in TABLE.items():
        out.append("abbrev %s (ix : List Var) : Fac := ⟨%d, ix⟩" % (t, i))
    out.append("")
    bases = {}
    for t, (i, links, herm) in TABLE.items():
        bases.setdefault(i // 8, []).append((i % 8, links, herm))
    lk = lambda l: "[" + ", ".join("true" if x else "false" for x in l) + "]"
    out.append("/-- Symmetry of the tensors. -/")
    out.append("def kinds (t : Nat) : Kind :=")
    out.append("  match t / 8 with")
    for b, l in sorted(bases.items()):
        out.append("  | %d => match t %% 8 with" % b)
        for s, links, herm in l:
            out.append("    | %d => ⟨%s, %s⟩" % (s, lk(links), "true" if herm else "false"))
        out.append("    | _ => ⟨[], false⟩")
    out.append("  | _ => ⟨[], false⟩")
    out += ["", "end Verif.Ein.N", ""]
    return "\n".join(out)



LETTERS = "pqrsuvwz"


def at(n):
    vs = ["x%d" % k for k in range(n)]
    return ("/-- A function of %d orbitals as a function of a list. -/\ndef at%d (h : %s) : List I → K\n  | [%s] => h %s\n  | _ => 0\n"
            % (n, n, " → ".join(["I"] * n) + " → K", ", ".join(vs), " ".join(vs)))


def hyps(n, links, herm, h):
    """readable symmetry statements of a function h of n orbitals: list of (name, statement)"""
    vs = list(LETTERS[:n])
    res = []
    for k, l in enumerate(links):
        if l:
            ws = vs[:]
            ws[k], ws[k + 1] = ws[k + 1], ws[k]
            res.append(("anti%d" % k, "∀ %s, %s %s = - %s %s" % (" ".join(vs), h, " ".join(vs), h, " ".join(ws))))
    if herm:
        ws = vs[n // 2:] + vs[:n // 2]
        res.append(("herm", "∀ %s, %s %s = %s %s" % (" ".join(vs), h, " ".join(vs), h, " ".join(ws))))
    return res


def kind_name(n, links, herm):
    return "holds%d%s%s" % (n, "".join("T" if x else "F" for x in links), "h" if herm else "")


def rpat(names, tail):
    """rintro pattern for a list of exactly the given names, other lengths split off"""
    p = "_ | ⟨%s, %s⟩" % (tail, tail + "s")
    for x in reversed(names):
        p = "_ | ⟨%s, %s⟩" % (x, p)
    return p


def holds_lemma(n, links, herm):
    hs = hyps(n, links, herm, "h")
    ty = " → ".join(["I"] * n) + " → K"
    lk = "[" + ", ".join("true" if x else "false" for x in links) + "]"
    out = ["theorem %s (h : %s)" % (kind_name(n, links, herm), ty)]
    for nm, st in hs:
        out.append("    (%s : %s)" % (nm, st))
    out[-1] += " :"
    out.append("    Kind.Holds ⟨%s, %s⟩ (at%d h) := by" % (lk, "true" if herm else "false", n))
    out.append("  constructor")
    out.append("  · intro l₁ x y l₂ hl")
    if not any(links):
        out.append("    match l₁ with")
        out.append("    | [] => simp at hl")
        for k in range(1, len(links) + 1):
            pass
        out[-2:] = []
        pat = rpat(["a%d" % k for k in range(len(links))], "c")
        out.append("    rcases l₁ with %s <;> simp at hl" % pat)
    else:
        # split l₁ by length
        cur = "    rcases l₁ with " + rpat(["a%d" % k for k in range(n - 1)], "c")
        out.append(cur)
        for k in range(n):
            if k < len(links) and links[k]:
                m = n - 2 - k
                out.append("    · rcases l₂ with " + rpat(["b%d" % j for j in range(m)], "d"))
                for j in range(m + 2):
                    if j == m:
                        args = ["a%d" % q for q in range(k)] + ["x", "y"] + ["b%d" % q for q in range(m)]
                        out.append("      · simpa [at%d] using anti%d %s" % (n, k, " ".join(args)))
                    else:
                        out.append("      · simp [at%d]" % n)
            else:
                out.append("    · simp at hl")
        out.append("    · simp at hl")
    if herm:
        h = n // 2
        out.append("  · intro _ l₁ l₂ hl")
        out.append("    rcases l₁ with " + rpat(["a%d" % k for k in range(h)], "c"))
        for k in range(h + 2):
            if k == h:
                out.append("    · rcases l₂ with " + rpat(["b%d" % k for k in range(h)], "d"))
                for j in range(h + 2):
                    if j == h:
                        out.append("      · simpa [at%d] using herm %s" % (n, " ".join(["a%d" % q for q in range(h)] + ["b%d" % q for q in range(h)])))
                    else:
                        out.append("      · simp at hl")
            else:
                out.append("    · rw [at%d_ne _ _ (by simp only [List.length_nil, List.length_cons, List.length_append] at hl ⊢; omega),\n        at%d_ne _ _ (by simp only [List.length_nil, List.length_cons, List.length_append] at hl ⊢; omega)]" % (n, n))
    else:
        out.append("  · intro h; simp at h")
    return "\n".join(out) + "\n"


RANK = {"f": 2, "g": 4, "t1": 2, "t2": 4, "t3": 6, "t4": 8, "l1": 2, "l2": 4, "l3": 6, "l4": 8}
SO_FIELDS = list(RANK)
SI_FIELDS = [t for t in TABLE if "_" in t]
DOC = {"f": "Fock matrix", "g": "antisymmetrised two-electron integrals `<pq||rs>`", "t1": "`t1[a,i]`", "t2": "`t2[a,b,i,j]`",
       "t3": "`t3[a,b,c,i,j,k]`", "t4": "`t4[a,b,c,d,i,j,k,l]`", "l1": "`l1[i,a]`", "l2": "`l2[i,j,a,b]`", "l3": "`l3[i,j,k,a,b,c]`",
       "l4": "`l4[i,j,k,l,a,b,c,d]`"}


def struct(name, fields, doc):
    out = ["/-- %s -/" % doc, "structure %s (I K : Type) [Zero K] where" % name]
    for t in fields:
        n = RANK[t.split("_")[0]]
        out.append("  /-- %s%s -/" % (DOC[t.split("_")[0]], ", spin block " + t.split("_")[1] if "_" in t else ""))
        out.append("  %s : %s := fun %s => 0" % (t, " → ".join(["I"] * n) + " → K", " ".join(["_"] * n)))
    out.append("")
    out.append("/-- The arrays by tensor number. -/")
    out.append("def %s.T (s : %s I K) (t : Nat) : List I → K :=" % (name, name))
    for t in fields:
        out.append("  if t = %d then at%d s.%s else" % (TABLE[t][0], RANK[t.split("_")[0]], t))
    out.append("  fun _ => 0")
    out.append("")
    out.append("/-- The symmetries of the arrays. -/")
    out.append("structure %s.Sym (A : %s I K) : Prop where" % (name, name))
    for t in fields:
        _, links, herm = TABLE[t]
        for nm, st in hyps(RANK[t.split("_")[0]], links, herm, "A." + t):
            out.append("  %s_%s : %s" % (t, nm, st))
    out.append("")
    out.append("theorem %s.Sym.holds {s : %s I K} (h : s.Sym) (t : Nat) : (N.kinds t).Holds (s.T t) := by" % (name, name))
    for t in fields:
        i, links, herm = TABLE[t]
        n = RANK[t.split("_")[0]]
        hs = hyps(n, links, herm, "A." + t)
        out.append("  by_cases h%d : t = %d" % (i, i))
        out.append("  · subst h%d; exact %s s.%s %s" % (i, kind_name(n, links, herm), t, " ".join("h.%s_%s" % (t, nm) for nm, _ in hs)))
    out.append("  have e : s.T t = fun _ => 0 := by")
    out.append("    unfold %s.T" % name)
    out.append("    rw [" + ", ".join("if_neg h%d" % TABLE[t][0] for t in fields) + "]")
    out.append("  rw [e]")
    out.append("  exact holds_zero _")
    out.append("")
    return "\n".join(out)


def lean_arrays():
    out = ["import Verif.Ein.Names", "import Mathlib.Algebra.Group.Basic", "import Mathlib.Tactic.Ring", "", "/-!",
           "The arrays an einsum program works on, as functions of orbitals (written by `/verif/tools/gen.py`):",
           "`SO` for spin-orbital codes, `SI` for spin-integrated codes, with the symmetries the arrays have. Amplitude",
           "arrays of the `cc_eqns`-like modules are stored with occupied axes first in the code (`T2[i,j,a,b]`); here",
           "they are always `t2 a b i j`.", "-/", "", "set_option linter.unusedSimpArgs false", "", "namespace Verif.Ein", "", "variable {I K : Type} [Field K]", ""]
    for n in (2, 4, 6, 8):
        out.append(at(n))
        out.append("theorem at%d_ne (h : %s) (l : List I) (hl : l.length ≠ %d) : at%d h l = 0 := by" % (n, " → ".join(["I"] * n) + " → K", n, n))
        out.append("  unfold at%d\n  split\n  · simp at hl\n  · rfl\n" % n)
    out.append("theorem holds_zero (k : Kind) : k.Holds (fun _ : List I => (0 : K)) :=")
    out.append("  ⟨fun _ _ _ _ _ => by simp, fun _ _ _ _ => rfl⟩\n")
    done = set()
    for t in SO_FIELDS + SI_FIELDS:
        i, links, herm = TABLE[t]
        n = RANK[t.split("_")[0]]
        key = kind_name(n, links, herm)
        if key not in done:
            done.add(key)
            out.append(holds_lemma(n, links, herm))
    out.append(struct("SO", SO_FIELDS, "Arrays of a spin-orbital calculation."))
    out.append(struct("SI", SI_FIELDS, "Arrays of a spin-integrated calculation."))
    out.append("end Verif.Ein\n")
    return "\n".join(out)


if __name__ == "__main__":
    open("/verif/lean/Verif/Ein/Names.lean", "w").write(lean_names())
    open("/verif/lean/Verif/Ein/Arrays.lean", "w").write(lean_arrays())
