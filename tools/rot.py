"""Writes Ein/RotArrays.lean: arrays with rotated orbitals."""
import os
from names import RANK, SO_FIELDS, SI_FIELDS, TABLE
V = ["p", "q", "r", "s", "u", "v", "w", "z"]
R = os.path.join(os.path.dirname(os.path.abspath(__file__)), '..', 'lean', 'Verif')
out = ['''import Verif.Ein.Rotate
import Verif.Ein.Arrays

/-!
# Arrays with rotated orbitals (written by `/verif/tools/rot.py`)

`O` is the set of all orbitals, `U p q` the coefficient of the old orbital `q` in the new orbital `p`. Every axis of an
array is transformed with `U`; in the spin-integrated case alpha axes with `Ua` and beta axes with `Ub`.
-/

namespace Verif.Ein

open Verif.Wick (InBox boxSum boxSum_congr boxSum_zero)

variable {I K : Type} [Field K]

/-- One axis transformed. -/
def rot1 (O : Finset I) (U : I → I → K) (x : I → K) (p : I) : K := ∑ q ∈ O, U p q * x q

/-- Two axes transformed. -/
def rot2 (O : Finset I) (U V : I → I → K) (x : I → I → K) (p q : I) : K := rot1 O U (fun p' => rot1 O V (x p') q) p
''']
for n in (4, 6, 8):
    ty = " → ".join(["I"] * n + ["K"])
    us = " ".join("U%d" % k for k in range(n))
    vs = V[:n]
    inner = "rot%d O %s (x p' q') %s" % (n - 2, " ".join("U%d" % k for k in range(2, n)), " ".join(vs[2:]))
    out.append('''/-- %s axes transformed. -/
def rot%d (O : Finset I) (%s : I → I → K) (x : %s) (%s : I) : K :=
  rot2 O U0 U1 (fun p' q' => %s) p q
''' % ({4: "Four", 6: "Six", 8: "Eight"}[n], n, us, ty, " ".join(vs), inner))
out.append('''/-- All axes of a function of lists transformed. -/
def rotL (O : Finset I) : List (I → I → K) → List I → (List I → K) → K
  | U :: Us, p :: ps, x => rot1 O U (fun q => rotL O Us ps fun l => x (q :: l)) p
  | _, _, x => x []
''')
def rp(names):
    return "_ | ⟨y, l⟩" if not names else "_ | ⟨%s, %s⟩" % (names[0], rp(names[1:]))
for n in (2, 4, 6, 8):
    ty = " → ".join(["I"] * n + ["K"])
    us = ["U%d" % k for k in range(n)]
    xs = ["x%d" % k for k in range(n)]
    out.append('''theorem at%d_rot (O : Finset I) (%s : I → I → K) (h : %s) (l : List I) (hl : l.length = %d) :
    at%d (rot%d O %s h) l = rotL O [%s] l (at%d h) := by
  rcases l with %s <;> simp at hl
  rfl
''' % (n, " ".join(us), ty, n, n, n, " ".join(us), ", ".join(us), n, rp(xs)))
out.append('''/-- A rotation among the occupied and among the virtual orbitals: orthogonal, and not mixing the two. -/
structure Rotation [DecidableEq I] (D : Nat → Finset I) (U : I → I → K) : Prop where
  orth : ∀ s, s < 2 → ∀ q ∈ D s, ∀ r ∈ D s, ∑ p ∈ D s, U p q * U p r = if q = r then 1 else 0
  block : ∀ p q, (p ∈ D 0 ∧ q ∈ D 1 ∨ p ∈ D 1 ∧ q ∈ D 0) → U p q = 0

variable [DecidableEq I] {D : Nat → Finset I}

theorem Rotation.orthogonal {U : Nat → I → I → K} (h : ∀ c, Rotation D (U c)) : Orthogonal D U := fun c => (h c).orth

theorem Rotation.rot1 (hD : Disjoint (D 0) (D 1)) {U : I → I → K} (h : Rotation D U) (x : I → K) (s : Nat) (hs : s < 2) (p : I)
    (hp : p ∈ D s) : rot1 (D 0 ∪ D 1) U x p = ∑ q ∈ D s, U p q * x q := by
  unfold Ein.rot1
  rw [Finset.sum_union hD]
  rcases (by omega : s = 0 ∨ s = 1) with rfl | rfl
  · rw [Finset.sum_eq_zero (s := D 1) fun q hq => by rw [h.block p q (Or.inl ⟨hp, hq⟩), zero_mul], add_zero]
  · rw [Finset.sum_eq_zero (s := D 0) fun q hq => by rw [h.block p q (Or.inr ⟨hp, hq⟩), zero_mul], zero_add]

/-- At orbitals of given ranges only orbitals of the same ranges contribute. -/
theorem rotL_box (hD : Disjoint (D 0) (D 1)) {U : Nat → I → I → K} (h : ∀ c, Rotation D (U c)) (cs : List Nat) : ∀ ss : List Nat,
    ss.length = cs.length → (∀ s ∈ ss, s < 2) → ∀ l, InBox D ss l → ∀ x : List I → K,
    rotL (D 0 ∪ D 1) (cs.map U) l x = boxSum D ss fun z => wt U cs l z * x z := by
  induction cs with
  | nil =>
    intro ss hl _ l hb x
    rw [List.length_eq_zero_iff.1 hl] at hb ⊢
    cases hb
    simp [rotL, boxSum, wt]
  | cons c cs ih =>
    intro ss hl hs l hb x
    cases ss with
    | nil => simp at hl
    | cons s ss =>
      cases hb with
      | cons hi hb =>
        simp only [List.map_cons, rotL, boxSum, wt]
        rw [(h c).rot1 hD _ s (hs s List.mem_cons_self) _ hi]
        refine Finset.sum_congr rfl fun q _ => ?_
        rw [ih ss (by simpa using hl) (fun s hs' => hs s (List.mem_cons_of_mem _ hs')) _ hb, ← boxSum_mul]
        exact boxSum_congr D _ _ _ fun z _ => by rw [mul_assoc]

/-- The rotation of alpha (0) and beta (1) orbitals. -/
def spinU (Ua Ub : I → I → K) (c : Nat) : I → I → K := if c = 0 then Ua else Ub

theorem Rotation.spin {Ua Ub : I → I → K} (ha : Rotation D Ua) (hb : Rotation D Ub) (c : Nat) : Rotation D (spinU Ua Ub c) := by
  unfold spinU
  split
  · exact ha
  · exact hb
''')
for S, F in (("SO", SO_FIELDS), ("SI", SI_FIELDS)):
    rk = lambda t: RANK[t.split("_")[0]]
    args = "(U : I → I → K)" if S == "SO" else "(Ua Ub : I → I → K)"
    call = "U" if S == "SO" else "Ua Ub"
    cols = lambda t: [0] * rk(t) if S == "SO" else [0 if c == "a" else 1 for c in t.split("_")[1]]
    Uc = lambda t: " ".join("U" if S == "SO" else ("Ua" if c == 0 else "Ub") for c in cols(t))
    out.append("omit [DecidableEq I] in\n/-- The arrays with rotated orbitals. -/")
    out.append("def %s.rotate (O : Finset I) %s (A : %s I K) : %s I K where" % (S, args, S, S))
    for t in F:
        out.append("  %s := rot%d O %s A.%s" % (t, rk(t), Uc(t), t))
    out.append("")
    out.append("/-- Colours (spins) of the axes. -/")
    out.append("def %s.col (t : Nat) : List Nat := (([" % S)
    tab = {TABLE[t][0]: cols(t) for t in F}
    for b in range(max(tab) // 8 + 1):
        row = [tab.get(8 * b + k, []) for k in range(8)]
        while row and not row[-1]: row.pop()
        out.append("    %s%s" % (row, "," if b < max(tab) // 8 else "] : List (List (List Nat)))[t / 8]?.getD [])[t % 8]?.getD []\n"))
    fU = "(fun _ => U)" if S == "SO" else "(spinU Ua Ub)"
    hyp = "(h : Rotation D U)" if S == "SO" else "(ha : Rotation D Ua) (hb : Rotation D Ub)"
    hh = "(fun _ => h)" if S == "SO" else "(ha.spin hb)"
    cases = []
    for t in F:
        i, n = TABLE[t][0], rk(t)
        cases.append("""  by_cases h%d : t = %d
  · subst h%d
    exact (at%d_rot _ %s A.%s l (by rw [InBox.length D hl, hs]; rfl)).trans (rotL_box hD %s [%s] ss hs hs2 l hl _)""" % (i, i, i, n, Uc(t), t, hh, ", ".join(map(str, cols(t)))))
    neg = "[" + ", ".join("if_neg h%d" % TABLE[t][0] for t in F) + "]"
    out.append('''theorem %s.rotate_rot (hD : Disjoint (D 0) (D 1)) {%s : I → I → K} %s (A : %s I K) :
    Rot D %s %s.col A.T (A.rotate (D 0 ∪ D 1) %s).T := by
  intro t ss l hs hs2 hl
%s
  have e : ∀ B : %s I K, B.T t = fun _ => 0 := fun B => by
    unfold %s.T
    simp only %s
  rw [e, e, boxSum_congr D ss _ (fun _ => 0) fun z _ => mul_zero _, boxSum_zero]
''' % (S, call, hyp, S, fU, S, call, "\n".join(cases), S, S, neg))
out.append("end Verif.Ein")
open(R + "/Ein/RotArrays.lean", "w").write("\n".join(out) + "\n")
