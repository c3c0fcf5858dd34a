import Verif.Ein.Spin
import Verif.Ein.Ops2
import Verif.Ein.Arrays

/-!
# Spin-orbital arrays from spin blocks

`SI.so A` are the spin-orbital arrays (orbitals with spin) whose spin blocks are the arrays `A` of a
spin-integrated calculation. The lemmas after the definition spell out what its entries are.
-/

namespace Verif.Ein

variable {I K : Type} [Field K]

/-- The spin-orbital arrays with given spin blocks (`spinT`: an entry whose upper and lower indices do not have
the same number of beta spins is zero; any other entry is the block entry with the indices of each half sorted,
alpha first, and the sign of the sorting). -/
def SI.so (A : SI I K) : SO (I × Bool) K where
  f p q := spinT A.T 15 [p, q]
  g p q r s := spinT A.T 23 [p, q, r, s]
  t1 p q := spinT A.T 31 [p, q]
  t2 p q r s := spinT A.T 39 [p, q, r, s]
  t3 p q r s u v := spinT A.T 47 [p, q, r, s, u, v]
  t4 p q r s u v w z := spinT A.T 55 [p, q, r, s, u, v, w, z]
  l1 p q := spinT A.T 63 [p, q]
  l2 p q r s := spinT A.T 71 [p, q, r, s]
  l3 p q r s u v := spinT A.T 79 [p, q, r, s, u, v]

section entries

variable (A : SI I K) (p q r s : I)

theorem SI.so_f : A.so.f (p, false) (q, false) = A.f_aa p q ∧ A.so.f (p, true) (q, true) = A.f_bb p q ∧
    A.so.f (p, false) (q, true) = 0 ∧ A.so.f (p, true) (q, false) = 0 := by
  simp [SI.so, spinT, nb, inv, sortSpin, SI.T, at2]

theorem SI.so_g_same : A.so.g (p, false) (q, false) (r, false) (s, false) = A.g_aaaa p q r s ∧
    A.so.g (p, true) (q, true) (r, true) (s, true) = A.g_bbbb p q r s := by
  simp [SI.so, spinT, nb, inv, sortSpin, SI.T, at4]

theorem SI.so_g_mixed : A.so.g (p, false) (q, true) (r, false) (s, true) = A.g_abab p q r s ∧
    A.so.g (p, false) (q, true) (r, true) (s, false) = - A.g_abab p q s r ∧
    A.so.g (p, true) (q, false) (r, false) (s, true) = - A.g_abab q p r s ∧
    A.so.g (p, true) (q, false) (r, true) (s, false) = A.g_abab q p s r := by
  simp [SI.so, spinT, nb, inv, sortSpin, SI.T, at4]

theorem SI.so_g_zero (a b c d : Bool) (h : a.toNat + b.toNat ≠ c.toNat + d.toNat) :
    A.so.g (p, a) (q, b) (r, c) (s, d) = 0 := by
  cases a <;> cases b <;> cases c <;> cases d <;> simp_all [SI.so, spinT, nb]

theorem SI.so_t1 : A.so.t1 (p, false) (q, false) = A.t1_aa p q ∧ A.so.t1 (p, true) (q, true) = A.t1_bb p q ∧
    A.so.t1 (p, false) (q, true) = 0 ∧ A.so.t1 (p, true) (q, false) = 0 := by
  simp [SI.so, spinT, nb, inv, sortSpin, SI.T, at2]

theorem SI.so_t2_same : A.so.t2 (p, false) (q, false) (r, false) (s, false) = A.t2_aaaa p q r s ∧
    A.so.t2 (p, true) (q, true) (r, true) (s, true) = A.t2_bbbb p q r s := by
  simp [SI.so, spinT, nb, inv, sortSpin, SI.T, at4]

theorem SI.so_t2_mixed : A.so.t2 (p, false) (q, true) (r, false) (s, true) = A.t2_abab p q r s ∧
    A.so.t2 (p, false) (q, true) (r, true) (s, false) = - A.t2_abab p q s r ∧
    A.so.t2 (p, true) (q, false) (r, false) (s, true) = - A.t2_abab q p r s ∧
    A.so.t2 (p, true) (q, false) (r, true) (s, false) = A.t2_abab q p s r := by
  simp [SI.so, spinT, nb, inv, sortSpin, SI.T, at4]

theorem SI.so_t2_zero (a b c d : Bool) (h : a.toNat + b.toNat ≠ c.toNat + d.toNat) :
    A.so.t2 (p, a) (q, b) (r, c) (s, d) = 0 := by
  cases a <;> cases b <;> cases c <;> cases d <;> simp_all [SI.so, spinT, nb]

theorem SI.so_l2_same : A.so.l2 (p, false) (q, false) (r, false) (s, false) = A.l2_aaaa p q r s ∧
    A.so.l2 (p, true) (q, true) (r, true) (s, true) = A.l2_bbbb p q r s := by
  simp [SI.so, spinT, nb, inv, sortSpin, SI.T, at4]

theorem SI.so_l2_mixed : A.so.l2 (p, false) (q, true) (r, false) (s, true) = A.l2_abab p q r s ∧
    A.so.l2 (p, false) (q, true) (r, true) (s, false) = - A.l2_abab p q s r ∧
    A.so.l2 (p, true) (q, false) (r, false) (s, true) = - A.l2_abab q p r s ∧
    A.so.l2 (p, true) (q, false) (r, true) (s, false) = A.l2_abab q p s r := by
  simp [SI.so, spinT, nb, inv, sortSpin, SI.T, at4]

theorem SI.so_l2_zero (a b c d : Bool) (h : a.toNat + b.toNat ≠ c.toNat + d.toNat) :
    A.so.l2 (p, a) (q, b) (r, c) (s, d) = 0 := by
  cases a <;> cases b <;> cases c <;> cases d <;> simp_all [SI.so, spinT, nb]

end entries

/-- A factor refers to a spin-orbital array with the right number of axes. -/
def soFac (f : Fac) : Bool :=
  (Nat.beq f.t 15 && Nat.beq f.ix.length 2) || (Nat.beq f.t 23 && Nat.beq f.ix.length 4) ||
  (Nat.beq f.t 31 && Nat.beq f.ix.length 2) || (Nat.beq f.t 39 && Nat.beq f.ix.length 4) ||
  (Nat.beq f.t 47 && Nat.beq f.ix.length 6) || (Nat.beq f.t 55 && Nat.beq f.ix.length 8) ||
  (Nat.beq f.t 63 && Nat.beq f.ix.length 2) || (Nat.beq f.t 71 && Nat.beq f.ix.length 4) ||
  (Nat.beq f.t 79 && Nat.beq f.ix.length 6)

theorem SI.so_T (A : SI I K) (f : Fac) (hf : soFac f = true) (l : List (I × Bool)) (hl : l.length = f.ix.length) :
    A.so.T f.t l = spinT A.T f.t l := by
  simp only [soFac, Bool.or_eq_true, Bool.and_eq_true, Nat.beq_eq, or_assoc] at hf
  rcases hf with ⟨ht, hn⟩ | ⟨ht, hn⟩ | ⟨ht, hn⟩ | ⟨ht, hn⟩ | ⟨ht, hn⟩ | ⟨ht, hn⟩ | ⟨ht, hn⟩ | ⟨ht, hn⟩ | ⟨ht, hn⟩
  case inl | inr.inr.inl | inr.inr.inr.inr.inr.inr.inl =>
    rw [ht]; rw [hn] at hl
    obtain ⟨a, b, rfl⟩ := List.length_eq_two.1 hl
    rfl
  case inr.inl | inr.inr.inr.inl | inr.inr.inr.inr.inr.inr.inr.inl =>
    rw [ht]; rw [hn] at hl
    rcases l with _ | ⟨a, _ | ⟨b, _ | ⟨c, _ | ⟨d, _ | ⟨x, l⟩⟩⟩⟩⟩ <;> simp at hl
    rfl
  case inr.inr.inr.inr.inl | inr.inr.inr.inr.inr.inr.inr.inr =>
    rw [ht]; rw [hn] at hl
    rcases l with _ | ⟨a, _ | ⟨b, _ | ⟨c, _ | ⟨d, _ | ⟨x, _ | ⟨y, _ | ⟨z, l⟩⟩⟩⟩⟩⟩⟩ <;> simp at hl
    rfl
  case inr.inr.inr.inr.inr.inl =>
    rw [ht]; rw [hn] at hl
    rcases l with _ | ⟨a, _ | ⟨b, _ | ⟨c, _ | ⟨d, _ | ⟨x, _ | ⟨y, _ | ⟨z, _ | ⟨u, _ | ⟨v, l⟩⟩⟩⟩⟩⟩⟩⟩⟩ <;> simp at hl
    rfl

variable [Inhabited I] [CharZero K]

/-- A spin-orbital program on the spin-orbital arrays and a program on the blocks agree, if the check succeeds. -/
theorem so_eval_of_isZero (D : Nat → Finset I) (A : SI I K) (hA : A.Sym) (outs : List Var) (den : Nat)
    (ss : List Bool) (P Q : Prog) (cs : List Nat)
    (h : isZeroSpin N.kinds outs den ss P (Q.scale (-1)) cs = true) (hP : P.wf outs.length = true)
    (hf : P.allFac soFac = true) (hs : ss.length = outs.length) (xs : List I) (hxs : xs.length = outs.length) :
    P.eval (spinD D) A.so.T (xs.zip ss) = Q.eval D A.T xs := by
  rw [← eval_spin_of_isZero D A.T N.kinds hA.holds outs den ss P Q cs h hP hs xs hxs]
  exact Prog.eval_congrT (spinD D) A.so.T (spinT A.T) P soFac hf (fun f hf l hl => A.so_T f hf l hl) _

end Verif.Ein
