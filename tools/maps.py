"""Writes Ein/Maps.lean: arrays pulled back along a map of orbitals, block-diagonal arrays of two fragments."""
from names import RANK, SO_FIELDS, SI_FIELDS, TABLE
V = ["p", "q", "r", "s", "u", "v", "w", "z"]
out = ['''import Verif.Ein.Generic
import Verif.Ein.Arrays
import Mathlib.Data.Finset.Sum
import Mathlib.Data.Fintype.BigOperators

/-!
# Relabelled arrays and arrays of two fragments (written by `/verif/tools/maps.py`)

`A.comap e` are the arrays `A` read through a map `e` of orbitals. `A.sum B` are the arrays of two systems without
interaction: entries between the systems are zero. Programs commute with both.
-/

namespace Verif.Ein

variable {I J K : Type} [Field K]
''']
for n in (2, 4, 6, 8):
    vs = V[:n]
    ty = lambda I: " → ".join([I] * n + ["K"])
    xs = ["x%d" % k for k in range(n)]
    def rp(names):
        if not names:
            return "_ | ⟨y, l⟩"
        return "_ | ⟨%s, %s⟩" % (names[0], rp(names[1:]))
    out.append('''theorem at%d_comap (h : %s) (e : J → I) (l : List J) :
    at%d (fun %s => h %s) l = at%d h (l.map e) := by
  rcases l with %s <;> rfl
''' % (n, ty("I"), n, " ".join(vs), " ".join("(e %s)" % v for v in vs), n, rp(xs)))
    out.append('''/-- Block-diagonal array. -/
def sum%d (h : %s) (k : %s) : %s
  | %s => h %s
  | %s => k %s
  | %s => 0
''' % (n, ty("I"), ty("J"), ty("(I ⊕ J)"), ", ".join(".inl " + v for v in vs), " ".join(vs), ", ".join(".inr " + v for v in vs), " ".join(vs), ", ".join(["_"] * n)))
    out.append('''theorem sum%d_same (h : %s) (k : %s) (%s : I ⊕ J)
    (hne : sum%d h k %s ≠ 0) : Same Sum.isLeft [%s] := by
  unfold sum%d at hne
  split at hne
  · simp [Same]
  · simp [Same]
  · exact absurd rfl hne
''' % (n, ty("I"), ty("J"), " ".join(xs), n, " ".join(xs), ", ".join(xs), n))
    out.append('''theorem at%d_inl (h : %s) (k : %s) (l : List I) : at%d (sum%d h k) (l.map .inl) = at%d h l := by
  rw [← at%d_comap]; rfl

theorem at%d_inr (h : %s) (k : %s) (l : List J) : at%d (sum%d h k) (l.map .inr) = at%d k l := by
  rw [← at%d_comap]; rfl

theorem at%d_same (h : %s) (k : %s) (l : List (I ⊕ J)) (hne : at%d (sum%d h k) l ≠ 0) : Same Sum.isLeft l := by
  by_cases hl : l.length = %d
  · rcases l with %s <;> simp at hl
    exact sum%d_same h k _ %s hne
  · exact absurd (at%d_ne _ _ hl) hne
''' % (n, ty("I"), ty("J"), n, n, n, n, n, ty("I"), ty("J"), n, n, n, n, n, ty("I"), ty("J"), n, n, n, rp(xs), n, " ".join(["_"] * (n - 1)), n))
for S, F in (("SO", SO_FIELDS), ("SI", SI_FIELDS)):
    r = lambda t: RANK[t.split("_")[0]]
    out.append("/-- The arrays read through a map of orbitals. -/")
    out.append("def %s.comap (e : J → I) (A : %s I K) : %s J K where" % (S, S, S))
    for t in F:
        vs = V[:r(t)]
        out.append("  %s %s := A.%s %s" % (t, " ".join(vs), t, " ".join("(e %s)" % v for v in vs)))
    out.append("")
    cases = lambda nm: "\n".join("  by_cases h%d : t = %d\n  · subst h%d; exact at%d_%s" % ((TABLE[t][0],) * 3 + (r(t), nm)) for t in F)
    neg = "[" + ", ".join("if_neg h%d" % TABLE[t][0] for t in F) + "]"
    out.append('''theorem %s.comap_T (e : J → I) (A : %s I K) (t : Nat) (l : List J) : (A.comap e).T t l = A.T t (l.map e) := by
%s
  unfold %s.T
  simp only %s
''' % (S, S, cases("comap _ e l"), S, neg))
    out.append("/-- The arrays of two systems without interaction. -/")
    out.append("def %s.sum (A : %s I K) (B : %s J K) : %s (I ⊕ J) K where" % (S, S, S, S))
    for t in F:
        out.append("  %s := sum%d A.%s B.%s" % (t, r(t), t, t))
    out.append("")
    for side, l, X in (("inl", "List I", "A"), ("inr", "List J", "B")):
        out.append('''theorem %s.sum_T_%s (A : %s I K) (B : %s J K) (t : Nat) (l : %s) : (A.sum B).T t (l.map .%s) = %s.T t l := by
%s
  unfold %s.T
  simp only %s
''' % (S, side, S, S, l, side, X, cases(side + " _ _ l"), S, neg))
    out.append('''theorem %s.sum_T_same (A : %s I K) (B : %s J K) (t : Nat) (l : List (I ⊕ J)) (h : (A.sum B).T t l ≠ 0) :
    Same Sum.isLeft l := by
%s
  unfold %s.T at h
  rw %s at h
  exact absurd rfl h
''' % (S, S, S, cases("same _ _ l h"), S, neg))
out.append('''/-- Orbitals of two systems. -/
def sumD (D : Nat → Finset I) (E : Nat → Finset J) (s : Nat) : Finset (I ⊕ J) := (D s).disjSum (E s)

theorem sumD_left (D : Nat → Finset I) (E : Nat → Finset J) (s : Nat) :
    (D s).map ⟨Sum.inl, Sum.inl_injective⟩ = (sumD D E s).filter fun x => x.isLeft = true := by
  ext x; cases x <;> simp [sumD]

theorem sumD_right (D : Nat → Finset I) (E : Nat → Finset J) (s : Nat) :
    (E s).map ⟨Sum.inr, Sum.inr_injective⟩ = (sumD D E s).filter fun x => x.isLeft = false := by
  ext x; cases x <;> simp [sumD]

section programs

variable [Inhabited I] [Inhabited J]

/-- Programs commute with relabelling orbitals. -/
theorem Prog.eval_relabel (e : I ≃ I) (D : Nat → Finset I) (hD : ∀ s x, e x ∈ D s ↔ x ∈ D s)
    (T T' : Nat → List I → K) (hT : ∀ t l, T' t l = T t (l.map e)) (n : Nat) (P : Prog) (hP : P.closed n = true)
    (xs : List I) (hx : xs.length = n) : P.eval D T' xs = P.eval D T (xs.map e) := by
  refine (Prog.eval_embed e e.injective D D (fun s => ?_) T' T (fun t l => (hT t l).symm) n P hP xs hx).symm
  ext x
  simp only [Finset.mem_map, Function.Embedding.coeFn_mk]
  constructor
  · intro hx
    exact ⟨e.symm x, (hD s _).1 (by simpa using hx), by simp⟩
  · rintro ⟨y, hy, rfl⟩
    exact (hD s y).2 hy

variable (D : Nat → Finset I) (E : Nat → Finset J) (T : Nat → List (I ⊕ J) → K) (TA : Nat → List I → K)
  (TB : Nat → List J → K) (h1 : ∀ t l, T t (l.map .inl) = TA t l) (h2 : ∀ t l, T t (l.map .inr) = TB t l)
  (h3 : ∀ t l, T t l ≠ 0 → Same Sum.isLeft l)

include h1 h3 in
theorem Prog.sum_inl (n : Nat) (hn : n ≠ 0) (P : Prog) (hc : P.connected = true) (hP : P.closed n = true) (xs : List I)
    (hx : xs.length = n) : P.eval (sumD D E) T (xs.map .inl) = P.eval D TA xs := by
  rw [Prog.eval_frag Sum.isLeft (sumD D E) T h3 n hn P hc hP true
    (fun s => (D s).map ⟨Sum.inl, Sum.inl_injective⟩) (sumD_left D E) _ (by simpa using hx)
    (by intro x hx; obtain ⟨y, _, rfl⟩ := List.mem_map.1 hx; rfl)]
  exact Prog.eval_embed .inl Sum.inl_injective D _ (fun _ => rfl) TA T h1 n P hP xs hx

omit [Inhabited I] in
include h2 h3 in
theorem Prog.sum_inr (n : Nat) (hn : n ≠ 0) (P : Prog) (hc : P.connected = true) (hP : P.closed n = true) (xs : List J)
    (hx : xs.length = n) : P.eval (sumD D E) T (xs.map .inr) = P.eval E TB xs := by
  rw [Prog.eval_frag Sum.isLeft (sumD D E) T h3 n hn P hc hP false
    (fun s => (E s).map ⟨Sum.inr, Sum.inr_injective⟩) (sumD_right D E) _ (by simpa using hx)
    (by intro x hx; obtain ⟨y, _, rfl⟩ := List.mem_map.1 hx; rfl)]
  exact Prog.eval_embed .inr Sum.inr_injective E _ (fun _ => rfl) TB T h2 n P hP xs hx

include h1 h2 h3 in
theorem Prog.sum_number (P : Prog) (hc : P.connected = true) (hP : P.closed 0 = true) :
    P.eval (sumD D E) T [] = P.eval D TA [] + P.eval E TB [] := by
  rw [Prog.eval_split Sum.isLeft (sumD D E) T h3 P hc hP
    (fun c s => (sumD D E s).filter fun x => x.isLeft = c) (fun _ _ => rfl), Fintype.sum_bool]
  congr 1
  · exact Prog.eval_embed .inl Sum.inl_injective D _ (fun s => (sumD_left D E s).symm) TA T h1 0 P hP [] rfl
  · exact Prog.eval_embed .inr Sum.inr_injective E _ (fun s => (sumD_right D E s).symm) TB T h2 0 P hP [] rfl

end programs

end Verif.Ein
''')
open("/verif/lean/Verif/Ein/Maps.lean", "w").write("\n".join(out))
