"""Writes Ein/Flip.lean: exchange of alpha and beta spin."""
from names import RANK, SI_FIELDS, TABLE, hyps
V = ["p", "q", "r", "s", "u", "v", "w", "z"]
out = ['''import Verif.Ein.Maps
import Verif.Ein.SpinArrays
import Mathlib.Tactic.LinearCombination
import Mathlib.Algebra.Group.Nat.Even
import Mathlib.Tactic.IntervalCases
import Mathlib.Algebra.Ring.Parity

/-!
# Exchange of alpha and beta spin (written by `/verif/tools/flip.py`)

`A.flip` are the spin blocks `A` with the roles of the spins exchanged. Its spin-orbital arrays are those of `A` with
all spins reversed.
-/

namespace Verif.Ein

variable {I K : Type} [Field K]

/-- The other spin. -/
def flipS (x : I × Bool) : I × Bool := (x.1, !x.2)

theorem flipS_flipS (x : I × Bool) : flipS (flipS x) = x := by simp [flipS]

/-- The spin blocks with the roles of the spins exchanged: `aaaa` and `bbbb` change places, in mixed blocks the
alpha indices (first) and the beta indices of each half change places. -/''']
out.append("def SI.flip (A : SI I K) : SI I K where")
for t in SI_FIELDS:
    base, bl = t.split("_")
    n = RANK[base]
    h = n // 2
    b = bl[:h].count("b")
    vs = V[:n]
    other = "a" * b + "b" * (h - b)
    rot = lambda x: x[h - b:] + x[:h - b]
    out.append("  %s %s := A.%s_%s %s" % (t, " ".join(vs), base, other * 2, " ".join(rot(vs[:h]) + rot(vs[h:]))))
out.append("\n/-- The symmetries are kept. -/\ntheorem SI.Sym.flip {A : SI I K} (hA : A.Sym) : A.flip.Sym where")
for t in SI_FIELDS:
    base, bl = t.split("_")
    _, links, herm = TABLE[t]
    n = RANK[base]
    h = n // 2
    b = bl[:h].count("b")
    vs = V[:n]
    other = base + "_" + ("a" * b + "b" * (h - b)) * 2
    rot = lambda x: x[h - b:] + x[:h - b]
    for nm, _ in hyps(n, links, herm, ""):
        if nm == "herm":
            nm2 = "herm"
        else:
            k = int(nm[4:])
            q = k % h
            q2 = q + b if q < h - b else q - (h - b)
            nm2 = "anti%d" % (k - q + q2)
        out.append("  %s_%s %s := hA.%s_%s %s" % (t, nm, " ".join(vs), other, nm2, " ".join(rot(vs[:h]) + rot(vs[h:]))))
out.append('''
theorem SI.flip_flip (A : SI I K) : A.flip.flip = A := rfl

/-- One half of the indices of a block with `b` beta indices, after the exchange. -/
def rotHalf (b : Nat) (l : List I) : List I := l.drop (l.length - b) ++ l.take (l.length - b)

/-- The blocks with the roles of the spins exchanged, by tensor number. -/
def flipT (T : Nat → List I → K) (t : Nat) (l : List I) : K :=
  T (8 * (t / 8) + (l.length / 2 - t % 8))
    (rotHalf (t % 8) (l.take (l.length / 2)) ++ rotHalf (t % 8) (l.drop (l.length / 2)))

/-- Number of axes of the arrays with a given base number. -/
def axes (base : Nat) : Nat :=
  if base = 1 ∨ base = 3 ∨ base = 7 then 2 else if base = 2 ∨ base = 4 ∨ base = 8 then 4
  else if base = 5 ∨ base = 9 then 6 else if base = 6 then 8 else 0

''')
def rp(names):
    if not names:
        return "_ | ⟨y, l⟩"
    return "_ | ⟨%s, %s⟩" % (names[0], rp(names[1:]))
out.append("theorem SI.flip_T (A : SI I K) (base b : Nat) (l : List I) (h0 : axes base ≠ 0) (hl : l.length = axes base)")
out.append("    (hb : b ≤ axes base / 2) : A.flip.T (8 * base + b) l = flipT A.T (8 * base + b) l := by")
bases = {}
for t in SI_FIELDS:
    bases.setdefault(TABLE[t][0] // 8, []).append(t)
for k in sorted(bases):
    n = RANK[bases[k][0].split("_")[0]]
    out.append("  by_cases e%d : base = %d" % (k, k))
    out.append("  · subst e%d" % k)
    out.append("    rw [show axes %d = %d from rfl] at hl hb" % (k, n))
    out.append("    rcases l with %s <;> simp at hl" % rp(["x%d" % i for i in range(n)]))
    out.append("    interval_cases b <;> simp [flipT, rotHalf, SI.T, SI.flip, at%d]" % n)
out.append("  exact absurd (by simp [axes, %s]) h0" % ", ".join("e%d" % k for k in sorted(bases)))
out.append('''
theorem nb_flip (l : List (I × Bool)) : nb (l.map flipS) = l.length - nb l := by
  have h := List.length_eq_countP_add_countP (fun x : I × Bool => x.2) (l := l)
  have e : nb (l.map flipS) = l.countP (fun x => !x.2) := by
    simp [nb, List.countP_map, Function.comp_def, flipS]
  simp only [Bool.not_eq_true, Bool.decide_eq_false] at h
  rw [e]; unfold nb; omega

theorem nb_le (l : List (I × Bool)) : nb l ≤ l.length := List.countP_le_length

theorem sortSpin_flip (l : List (I × Bool)) : sortSpin (l.map flipS) = rotHalf (nb l) (sortSpin l) := by
  have h1 : ((l.filter (fun x => !x.2)).map (·.1)).length = (sortSpin l).length - nb l := by
    have e : ((l.filter (·.2)).map (·.1)).length = nb l := by simp [nb, List.countP_eq_length_filter]
    simp only [sortSpin, List.length_append, e]; omega
  have h2 : (sortSpin l).drop ((sortSpin l).length - nb l) = (l.filter (·.2)).map (·.1) := by
    rw [← h1]; simp only [sortSpin]; exact List.drop_left
  have h3 : (sortSpin l).take ((sortSpin l).length - nb l) = (l.filter (fun x => !x.2)).map (·.1) := by
    rw [← h1]; simp only [sortSpin]; exact List.take_left
  rw [rotHalf, h2, h3]
  unfold sortSpin
  rw [List.filter_map, List.filter_map, List.map_map, List.map_map]
  congr 1
  · congr 1; congr 1; funext x; simp [flipS]
  
theorem inv_flip (l : List (I × Bool)) : inv l + inv (l.map flipS) = nb l * (l.length - nb l) := by
  have h : ∀ l : List (I × Bool), ∃ a, a + nb l = l.length ∧ a = l.countP (fun y => !y.2) ∧
      inv l + inv (l.map flipS) = nb l * a := by
    intro l
    induction l with
    | nil => exact ⟨0, rfl, rfl, rfl⟩
    | cons x l ih =>
      obtain ⟨a, h1, h2, h3⟩ := ih
      obtain ⟨x, b⟩ := x
      have e : (l.map flipS).countP (fun y => !y.2) = nb l := by
        simp [nb, List.countP_map, Function.comp_def, flipS]
      cases b
      · refine ⟨a + 1, by simp [nb] at *; omega, by simp [← h2], ?_⟩
        have e2 : nb ((x, false) :: l) = nb l := by simp [nb]
        simp only [List.map_cons, inv, flipS, Bool.not_false, if_true, e, e2] at *
        simp only [Bool.false_eq_true, if_false, Nat.zero_add]
        rw [Nat.mul_add, ← h3]; omega
      · refine ⟨a, by simp [nb] at *; omega, by simp [← h2], ?_⟩
        have e2 : nb ((x, true) :: l) = nb l + 1 := by simp [nb]
        simp only [List.map_cons, inv, flipS, Bool.not_true, if_true, e2, ← h2] at *
        simp only [Bool.false_eq_true, if_false, Nat.zero_add]
        rw [Nat.add_mul, ← h3]; omega
  obtain ⟨a, h1, -, h3⟩ := h l
  rw [h3]; congr 1; omega

theorem sortSpin_length (l : List (I × Bool)) : (sortSpin l).length = l.length := by
  have := List.length_eq_countP_add_countP (fun x : I × Bool => x.2) (l := l)
  simp only [sortSpin, List.length_append, List.length_map, ← List.countP_eq_length_filter]
  simp only [Bool.not_eq_true, Bool.decide_eq_false] at this
  omega

/-- Exchanging the spins in the blocks reverses all spins of the spin-orbital arrays. -/
theorem spinT_flip (A : SI I K) (t : Nat) (l : List (I × Bool)) (h0 : axes (t / 8) ≠ 0)
    (hl : l.length = axes (t / 8)) (he : l.length / 2 + l.length / 2 = l.length) (h8 : l.length / 2 < 8) :
    spinT A.flip.T t l = spinT A.T t (l.map flipS) := by
  set r := l.length / 2 with hr
  have l1 : (l.take r).length = r := by simp; omega
  have l2 : (l.drop r).length = r := by simp; omega
  have b1 := nb_le (l.take r)
  have b2 := nb_le (l.drop r)
  rw [l1] at b1
  rw [l2] at b2
  unfold spinT
  simp only [List.length_map, ← List.map_take, ← List.map_drop, nb_flip, ← hr, l1, l2]
  by_cases h : nb (l.take r) = nb (l.drop r)
  · have h' : r - nb (l.take r) = r - nb (l.drop r) := by rw [h]
    rw [if_pos h, if_pos h']
    have s1 := inv_flip (l.take r)
    have s2 := inv_flip (l.drop r)
    rw [l1] at s1
    rw [l2, ← h] at s2
    have hs : (-1 : K) ^ (inv (l.take r) + inv (l.drop r)) =
        (-1) ^ (inv ((l.take r).map flipS) + inv ((l.drop r).map flipS)) := by
      have : Even ((inv (l.take r) + inv (l.drop r)) + (inv ((l.take r).map flipS) + inv ((l.drop r).map flipS))) := by
        rw [show (inv (l.take r) + inv (l.drop r)) + (inv ((l.take r).map flipS) + inv ((l.drop r).map flipS)) =
          (inv (l.take r) + inv ((l.take r).map flipS)) + (inv (l.drop r) + inv ((l.drop r).map flipS)) by ring, s1, s2]
        exact ⟨_, rfl⟩
      rcases Nat.even_or_odd (inv (l.take r) + inv (l.drop r)) with h | h
      · rw [h.neg_one_pow, ((Nat.even_add.1 this).1 h).neg_one_pow]
      · rw [h.neg_one_pow, Odd.neg_one_pow]
        rw [Nat.even_add, ← Nat.not_odd_iff_even, ← Nat.not_odd_iff_even] at this
        by_contra h2
        exact this.2 h2 h
    rw [hs]
    congr 1
    have hlen : (sortSpin (l.take r) ++ sortSpin (l.drop r)).length = l.length := by
      simp only [List.length_append, sortSpin_length, l1, l2, he]
    rw [SI.flip_T A (t / 8) (nb (l.take r)) _ h0 (by rw [hlen, hl]) (by omega)]
    unfold flipT
    have m : (8 * (t / 8) + nb (l.take r)) % 8 = nb (l.take r) := by omega
    have d : (8 * (t / 8) + nb (l.take r)) / 8 = t / 8 := by omega
    have tk : (sortSpin (l.take r) ++ sortSpin (l.drop r)).take r = sortSpin (l.take r) := by
      rw [List.take_left' (by rw [sortSpin_length, l1])]
    have dr : (sortSpin (l.take r) ++ sortSpin (l.drop r)).drop r = sortSpin (l.drop r) := by
      rw [List.drop_left' (by rw [sortSpin_length, l1])]
    rw [m, d, hlen, ← hr, tk, dr, sortSpin_flip, sortSpin_flip, h]
  · have h' : ¬ (r - nb (l.take r) = r - nb (l.drop r)) := by omega
    rw [if_neg h, if_neg h']

/-- Programs on the spin-orbital arrays of the exchanged blocks. -/
theorem SI.flip_eval [Inhabited I] (D : Nat → Finset I) (A : SI I K) (n : Nat) (P : Prog) (hP : P.closed n = true)
    (hf : P.allFac soFac = true) (xs : List (I × Bool)) (hx : xs.length = n) :
    P.eval (spinD D) A.flip.so.T xs = P.eval (spinD D) A.so.T (xs.map flipS) := by
  let e : I × Bool ≃ I × Bool := ⟨flipS, flipS, flipS_flipS, flipS_flipS⟩
  rw [Prog.eval_congrT (spinD D) A.flip.so.T (fun t l => A.so.T t (l.map flipS)) P soFac hf]
  · exact Prog.eval_relabel e (spinD D) (fun s x => by simp [e, spinD, flipS]) A.so.T _ (fun t l => rfl) n P hP xs hx
  · intro f hf l hl
    rw [A.flip.so_T f hf l hl, A.so_T f hf _ (by simpa using hl)]
    simp only [soFac, Bool.or_eq_true, Bool.and_eq_true, Nat.beq_eq, or_assoc] at hf
    rcases hf with ⟨ht, hn⟩ | ⟨ht, hn⟩ | ⟨ht, hn⟩ | ⟨ht, hn⟩ | ⟨ht, hn⟩ | ⟨ht, hn⟩ | ⟨ht, hn⟩ | ⟨ht, hn⟩ | ⟨ht, hn⟩ <;>
      rw [ht] <;> rw [hn] at hl <;>
      exact spinT_flip A _ l (by decide) (by rw [hl]; decide) (by rw [hl]) (by rw [hl]; decide)

end Verif.Ein
''')
open("/verif/lean/Verif/Ein/Flip.lean", "w").write("\n".join(out))
