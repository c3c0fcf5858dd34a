import Verif.Ein.ChargeCol
import Verif.Ein.RotArrays

/-!
# Arrays that conserve a charge (written by `/verif/tools/charge.py`)

`κ p` is the charge of orbital `p`: spin projection, momentum, or irreducible representation of an abelian point group.
In the spin-integrated case `κa` and `κb` are the charges of alpha and beta orbitals.
-/

namespace Verif.Ein

variable {I K G : Type} [Field K] [AddCommGroup G]

/-- Charges by colour: 0 for alpha, otherwise beta. -/
def spinQ (κa κb : I → G) (c : Nat) : I → G := if c = 0 then κa else κb

/-- Entries vanish unless the charges of the first half of the indices have the same sum as those of the second. -/
structure SO.Conserves (κ : I → G) (A : SO I K) : Prop where
  f : ∀ p q, A.f p q ≠ 0 → κ p = κ q
  g : ∀ p q r s, A.g p q r s ≠ 0 → κ p + κ q = κ r + κ s
  t1 : ∀ p q, A.t1 p q ≠ 0 → κ p = κ q
  t2 : ∀ p q r s, A.t2 p q r s ≠ 0 → κ p + κ q = κ r + κ s
  t3 : ∀ p q r s u v, A.t3 p q r s u v ≠ 0 → κ p + κ q + κ r = κ s + κ u + κ v
  t4 : ∀ p q r s u v w z, A.t4 p q r s u v w z ≠ 0 → κ p + κ q + κ r + κ s = κ u + κ v + κ w + κ z
  l1 : ∀ p q, A.l1 p q ≠ 0 → κ p = κ q
  l2 : ∀ p q r s, A.l2 p q r s ≠ 0 → κ p + κ q = κ r + κ s
  l3 : ∀ p q r s u v, A.l3 p q r s u v ≠ 0 → κ p + κ q + κ r = κ s + κ u + κ v
  l4 : ∀ p q r s u v w z, A.l4 p q r s u v w z ≠ 0 → κ p + κ q + κ r + κ s = κ u + κ v + κ w + κ z

theorem SO.Conserves.T {κ : I → G} {A : SO I K} (hA : A.Conserves κ) (t : Nat) (l : List I) (h : A.T t l ≠ 0) :
    ColBalanced (fun _ => κ) (l.zip (SO.col t)) := by
  by_cases h15 : t = 15
  · subst h15
    have hl : l.length = 2 := by
      by_contra e
      exact h (at2_ne A.f l e)
    rcases l with _ | ⟨x0, _ | ⟨x1, _ | ⟨y, l⟩⟩⟩ <;> simp at hl
    have e := hA.f x0 x1 h
    simpa [ColBalanced, colSum, SO.col, half1, half2, add_assoc] using e
  by_cases h23 : t = 23
  · subst h23
    have hl : l.length = 4 := by
      by_contra e
      exact h (at4_ne A.g l e)
    rcases l with _ | ⟨x0, _ | ⟨x1, _ | ⟨x2, _ | ⟨x3, _ | ⟨y, l⟩⟩⟩⟩⟩ <;> simp at hl
    have e := hA.g x0 x1 x2 x3 h
    simpa [ColBalanced, colSum, SO.col, half1, half2, add_assoc] using e
  by_cases h31 : t = 31
  · subst h31
    have hl : l.length = 2 := by
      by_contra e
      exact h (at2_ne A.t1 l e)
    rcases l with _ | ⟨x0, _ | ⟨x1, _ | ⟨y, l⟩⟩⟩ <;> simp at hl
    have e := hA.t1 x0 x1 h
    simpa [ColBalanced, colSum, SO.col, half1, half2, add_assoc] using e
  by_cases h39 : t = 39
  · subst h39
    have hl : l.length = 4 := by
      by_contra e
      exact h (at4_ne A.t2 l e)
    rcases l with _ | ⟨x0, _ | ⟨x1, _ | ⟨x2, _ | ⟨x3, _ | ⟨y, l⟩⟩⟩⟩⟩ <;> simp at hl
    have e := hA.t2 x0 x1 x2 x3 h
    simpa [ColBalanced, colSum, SO.col, half1, half2, add_assoc] using e
  by_cases h47 : t = 47
  · subst h47
    have hl : l.length = 6 := by
      by_contra e
      exact h (at6_ne A.t3 l e)
    rcases l with _ | ⟨x0, _ | ⟨x1, _ | ⟨x2, _ | ⟨x3, _ | ⟨x4, _ | ⟨x5, _ | ⟨y, l⟩⟩⟩⟩⟩⟩⟩ <;> simp at hl
    have e := hA.t3 x0 x1 x2 x3 x4 x5 h
    simpa [ColBalanced, colSum, SO.col, half1, half2, add_assoc] using e
  by_cases h55 : t = 55
  · subst h55
    have hl : l.length = 8 := by
      by_contra e
      exact h (at8_ne A.t4 l e)
    rcases l with _ | ⟨x0, _ | ⟨x1, _ | ⟨x2, _ | ⟨x3, _ | ⟨x4, _ | ⟨x5, _ | ⟨x6, _ | ⟨x7, _ | ⟨y, l⟩⟩⟩⟩⟩⟩⟩⟩⟩ <;> simp at hl
    have e := hA.t4 x0 x1 x2 x3 x4 x5 x6 x7 h
    simpa [ColBalanced, colSum, SO.col, half1, half2, add_assoc] using e
  by_cases h63 : t = 63
  · subst h63
    have hl : l.length = 2 := by
      by_contra e
      exact h (at2_ne A.l1 l e)
    rcases l with _ | ⟨x0, _ | ⟨x1, _ | ⟨y, l⟩⟩⟩ <;> simp at hl
    have e := hA.l1 x0 x1 h
    simpa [ColBalanced, colSum, SO.col, half1, half2, add_assoc] using e
  by_cases h71 : t = 71
  · subst h71
    have hl : l.length = 4 := by
      by_contra e
      exact h (at4_ne A.l2 l e)
    rcases l with _ | ⟨x0, _ | ⟨x1, _ | ⟨x2, _ | ⟨x3, _ | ⟨y, l⟩⟩⟩⟩⟩ <;> simp at hl
    have e := hA.l2 x0 x1 x2 x3 h
    simpa [ColBalanced, colSum, SO.col, half1, half2, add_assoc] using e
  by_cases h79 : t = 79
  · subst h79
    have hl : l.length = 6 := by
      by_contra e
      exact h (at6_ne A.l3 l e)
    rcases l with _ | ⟨x0, _ | ⟨x1, _ | ⟨x2, _ | ⟨x3, _ | ⟨x4, _ | ⟨x5, _ | ⟨y, l⟩⟩⟩⟩⟩⟩⟩ <;> simp at hl
    have e := hA.l3 x0 x1 x2 x3 x4 x5 h
    simpa [ColBalanced, colSum, SO.col, half1, half2, add_assoc] using e
  by_cases h119 : t = 119
  · subst h119
    have hl : l.length = 8 := by
      by_contra e
      exact h (at8_ne A.l4 l e)
    rcases l with _ | ⟨x0, _ | ⟨x1, _ | ⟨x2, _ | ⟨x3, _ | ⟨x4, _ | ⟨x5, _ | ⟨x6, _ | ⟨x7, _ | ⟨y, l⟩⟩⟩⟩⟩⟩⟩⟩⟩ <;> simp at hl
    have e := hA.l4 x0 x1 x2 x3 x4 x5 x6 x7 h
    simpa [ColBalanced, colSum, SO.col, half1, half2, add_assoc] using e
  refine absurd ?_ h
  unfold SO.T
  simp [h15, h23, h31, h39, h47, h55, h63, h71, h79, h119]

/-- Entries vanish unless the charges of the first half of the indices have the same sum as those of the second. -/
structure SI.Conserves (κa κb : I → G) (A : SI I K) : Prop where
  t1_aa : ∀ p q, A.t1_aa p q ≠ 0 → κa p = κa q
  t1_bb : ∀ p q, A.t1_bb p q ≠ 0 → κb p = κb q
  t2_aaaa : ∀ p q r s, A.t2_aaaa p q r s ≠ 0 → κa p + κa q = κa r + κa s
  t2_abab : ∀ p q r s, A.t2_abab p q r s ≠ 0 → κa p + κb q = κa r + κb s
  t2_bbbb : ∀ p q r s, A.t2_bbbb p q r s ≠ 0 → κb p + κb q = κb r + κb s
  t3_aaaaaa : ∀ p q r s u v, A.t3_aaaaaa p q r s u v ≠ 0 → κa p + κa q + κa r = κa s + κa u + κa v
  t3_aabaab : ∀ p q r s u v, A.t3_aabaab p q r s u v ≠ 0 → κa p + κa q + κb r = κa s + κa u + κb v
  t3_abbabb : ∀ p q r s u v, A.t3_abbabb p q r s u v ≠ 0 → κa p + κb q + κb r = κa s + κb u + κb v
  t3_bbbbbb : ∀ p q r s u v, A.t3_bbbbbb p q r s u v ≠ 0 → κb p + κb q + κb r = κb s + κb u + κb v
  t4_aaaaaaaa : ∀ p q r s u v w z, A.t4_aaaaaaaa p q r s u v w z ≠ 0 → κa p + κa q + κa r + κa s = κa u + κa v + κa w + κa z
  t4_aaabaaab : ∀ p q r s u v w z, A.t4_aaabaaab p q r s u v w z ≠ 0 → κa p + κa q + κa r + κb s = κa u + κa v + κa w + κb z
  t4_aabbaabb : ∀ p q r s u v w z, A.t4_aabbaabb p q r s u v w z ≠ 0 → κa p + κa q + κb r + κb s = κa u + κa v + κb w + κb z
  t4_abbbabbb : ∀ p q r s u v w z, A.t4_abbbabbb p q r s u v w z ≠ 0 → κa p + κb q + κb r + κb s = κa u + κb v + κb w + κb z
  t4_bbbbbbbb : ∀ p q r s u v w z, A.t4_bbbbbbbb p q r s u v w z ≠ 0 → κb p + κb q + κb r + κb s = κb u + κb v + κb w + κb z
  l1_aa : ∀ p q, A.l1_aa p q ≠ 0 → κa p = κa q
  l1_bb : ∀ p q, A.l1_bb p q ≠ 0 → κb p = κb q
  l2_aaaa : ∀ p q r s, A.l2_aaaa p q r s ≠ 0 → κa p + κa q = κa r + κa s
  l2_abab : ∀ p q r s, A.l2_abab p q r s ≠ 0 → κa p + κb q = κa r + κb s
  l2_bbbb : ∀ p q r s, A.l2_bbbb p q r s ≠ 0 → κb p + κb q = κb r + κb s
  l3_aaaaaa : ∀ p q r s u v, A.l3_aaaaaa p q r s u v ≠ 0 → κa p + κa q + κa r = κa s + κa u + κa v
  l3_aabaab : ∀ p q r s u v, A.l3_aabaab p q r s u v ≠ 0 → κa p + κa q + κb r = κa s + κa u + κb v
  l3_abbabb : ∀ p q r s u v, A.l3_abbabb p q r s u v ≠ 0 → κa p + κb q + κb r = κa s + κb u + κb v
  l3_bbbbbb : ∀ p q r s u v, A.l3_bbbbbb p q r s u v ≠ 0 → κb p + κb q + κb r = κb s + κb u + κb v
  f_aa : ∀ p q, A.f_aa p q ≠ 0 → κa p = κa q
  f_bb : ∀ p q, A.f_bb p q ≠ 0 → κb p = κb q
  g_aaaa : ∀ p q r s, A.g_aaaa p q r s ≠ 0 → κa p + κa q = κa r + κa s
  g_abab : ∀ p q r s, A.g_abab p q r s ≠ 0 → κa p + κb q = κa r + κb s
  g_bbbb : ∀ p q r s, A.g_bbbb p q r s ≠ 0 → κb p + κb q = κb r + κb s

theorem SI.Conserves.T {κa κb : I → G} {A : SI I K} (hA : A.Conserves κa κb) (t : Nat) (l : List I) (h : A.T t l ≠ 0) :
    ColBalanced (spinQ κa κb) (l.zip (SI.col t)) := by
  by_cases h24 : t = 24
  · subst h24
    have hl : l.length = 2 := by
      by_contra e
      exact h (at2_ne A.t1_aa l e)
    rcases l with _ | ⟨x0, _ | ⟨x1, _ | ⟨y, l⟩⟩⟩ <;> simp at hl
    have e := hA.t1_aa x0 x1 h
    simpa [ColBalanced, colSum, SI.col, half1, half2, spinQ, add_assoc] using e
  by_cases h25 : t = 25
  · subst h25
    have hl : l.length = 2 := by
      by_contra e
      exact h (at2_ne A.t1_bb l e)
    rcases l with _ | ⟨x0, _ | ⟨x1, _ | ⟨y, l⟩⟩⟩ <;> simp at hl
    have e := hA.t1_bb x0 x1 h
    simpa [ColBalanced, colSum, SI.col, half1, half2, spinQ, add_assoc] using e
  by_cases h32 : t = 32
  · subst h32
    have hl : l.length = 4 := by
      by_contra e
      exact h (at4_ne A.t2_aaaa l e)
    rcases l with _ | ⟨x0, _ | ⟨x1, _ | ⟨x2, _ | ⟨x3, _ | ⟨y, l⟩⟩⟩⟩⟩ <;> simp at hl
    have e := hA.t2_aaaa x0 x1 x2 x3 h
    simpa [ColBalanced, colSum, SI.col, half1, half2, spinQ, add_assoc] using e
  by_cases h33 : t = 33
  · subst h33
    have hl : l.length = 4 := by
      by_contra e
      exact h (at4_ne A.t2_abab l e)
    rcases l with _ | ⟨x0, _ | ⟨x1, _ | ⟨x2, _ | ⟨x3, _ | ⟨y, l⟩⟩⟩⟩⟩ <;> simp at hl
    have e := hA.t2_abab x0 x1 x2 x3 h
    simpa [ColBalanced, colSum, SI.col, half1, half2, spinQ, add_assoc] using e
  by_cases h34 : t = 34
  · subst h34
    have hl : l.length = 4 := by
      by_contra e
      exact h (at4_ne A.t2_bbbb l e)
    rcases l with _ | ⟨x0, _ | ⟨x1, _ | ⟨x2, _ | ⟨x3, _ | ⟨y, l⟩⟩⟩⟩⟩ <;> simp at hl
    have e := hA.t2_bbbb x0 x1 x2 x3 h
    simpa [ColBalanced, colSum, SI.col, half1, half2, spinQ, add_assoc] using e
  by_cases h40 : t = 40
  · subst h40
    have hl : l.length = 6 := by
      by_contra e
      exact h (at6_ne A.t3_aaaaaa l e)
    rcases l with _ | ⟨x0, _ | ⟨x1, _ | ⟨x2, _ | ⟨x3, _ | ⟨x4, _ | ⟨x5, _ | ⟨y, l⟩⟩⟩⟩⟩⟩⟩ <;> simp at hl
    have e := hA.t3_aaaaaa x0 x1 x2 x3 x4 x5 h
    simpa [ColBalanced, colSum, SI.col, half1, half2, spinQ, add_assoc] using e
  by_cases h41 : t = 41
  · subst h41
    have hl : l.length = 6 := by
      by_contra e
      exact h (at6_ne A.t3_aabaab l e)
    rcases l with _ | ⟨x0, _ | ⟨x1, _ | ⟨x2, _ | ⟨x3, _ | ⟨x4, _ | ⟨x5, _ | ⟨y, l⟩⟩⟩⟩⟩⟩⟩ <;> simp at hl
    have e := hA.t3_aabaab x0 x1 x2 x3 x4 x5 h
    simpa [ColBalanced, colSum, SI.col, half1, half2, spinQ, add_assoc] using e
  by_cases h42 : t = 42
  · subst h42
    have hl : l.length = 6 := by
      by_contra e
      exact h (at6_ne A.t3_abbabb l e)
    rcases l with _ | ⟨x0, _ | ⟨x1, _ | ⟨x2, _ | ⟨x3, _ | ⟨x4, _ | ⟨x5, _ | ⟨y, l⟩⟩⟩⟩⟩⟩⟩ <;> simp at hl
    have e := hA.t3_abbabb x0 x1 x2 x3 x4 x5 h
    simpa [ColBalanced, colSum, SI.col, half1, half2, spinQ, add_assoc] using e
  by_cases h43 : t = 43
  · subst h43
    have hl : l.length = 6 := by
      by_contra e
      exact h (at6_ne A.t3_bbbbbb l e)
    rcases l with _ | ⟨x0, _ | ⟨x1, _ | ⟨x2, _ | ⟨x3, _ | ⟨x4, _ | ⟨x5, _ | ⟨y, l⟩⟩⟩⟩⟩⟩⟩ <;> simp at hl
    have e := hA.t3_bbbbbb x0 x1 x2 x3 x4 x5 h
    simpa [ColBalanced, colSum, SI.col, half1, half2, spinQ, add_assoc] using e
  by_cases h48 : t = 48
  · subst h48
    have hl : l.length = 8 := by
      by_contra e
      exact h (at8_ne A.t4_aaaaaaaa l e)
    rcases l with _ | ⟨x0, _ | ⟨x1, _ | ⟨x2, _ | ⟨x3, _ | ⟨x4, _ | ⟨x5, _ | ⟨x6, _ | ⟨x7, _ | ⟨y, l⟩⟩⟩⟩⟩⟩⟩⟩⟩ <;> simp at hl
    have e := hA.t4_aaaaaaaa x0 x1 x2 x3 x4 x5 x6 x7 h
    simpa [ColBalanced, colSum, SI.col, half1, half2, spinQ, add_assoc] using e
  by_cases h49 : t = 49
  · subst h49
    have hl : l.length = 8 := by
      by_contra e
      exact h (at8_ne A.t4_aaabaaab l e)
    rcases l with _ | ⟨x0, _ | ⟨x1, _ | ⟨x2, _ | ⟨x3, _ | ⟨x4, _ | ⟨x5, _ | ⟨x6, _ | ⟨x7, _ | ⟨y, l⟩⟩⟩⟩⟩⟩⟩⟩⟩ <;> simp at hl
    have e := hA.t4_aaabaaab x0 x1 x2 x3 x4 x5 x6 x7 h
    simpa [ColBalanced, colSum, SI.col, half1, half2, spinQ, add_assoc] using e
  by_cases h50 : t = 50
  · subst h50
    have hl : l.length = 8 := by
      by_contra e
      exact h (at8_ne A.t4_aabbaabb l e)
    rcases l with _ | ⟨x0, _ | ⟨x1, _ | ⟨x2, _ | ⟨x3, _ | ⟨x4, _ | ⟨x5, _ | ⟨x6, _ | ⟨x7, _ | ⟨y, l⟩⟩⟩⟩⟩⟩⟩⟩⟩ <;> simp at hl
    have e := hA.t4_aabbaabb x0 x1 x2 x3 x4 x5 x6 x7 h
    simpa [ColBalanced, colSum, SI.col, half1, half2, spinQ, add_assoc] using e
  by_cases h51 : t = 51
  · subst h51
    have hl : l.length = 8 := by
      by_contra e
      exact h (at8_ne A.t4_abbbabbb l e)
    rcases l with _ | ⟨x0, _ | ⟨x1, _ | ⟨x2, _ | ⟨x3, _ | ⟨x4, _ | ⟨x5, _ | ⟨x6, _ | ⟨x7, _ | ⟨y, l⟩⟩⟩⟩⟩⟩⟩⟩⟩ <;> simp at hl
    have e := hA.t4_abbbabbb x0 x1 x2 x3 x4 x5 x6 x7 h
    simpa [ColBalanced, colSum, SI.col, half1, half2, spinQ, add_assoc] using e
  by_cases h52 : t = 52
  · subst h52
    have hl : l.length = 8 := by
      by_contra e
      exact h (at8_ne A.t4_bbbbbbbb l e)
    rcases l with _ | ⟨x0, _ | ⟨x1, _ | ⟨x2, _ | ⟨x3, _ | ⟨x4, _ | ⟨x5, _ | ⟨x6, _ | ⟨x7, _ | ⟨y, l⟩⟩⟩⟩⟩⟩⟩⟩⟩ <;> simp at hl
    have e := hA.t4_bbbbbbbb x0 x1 x2 x3 x4 x5 x6 x7 h
    simpa [ColBalanced, colSum, SI.col, half1, half2, spinQ, add_assoc] using e
  by_cases h56 : t = 56
  · subst h56
    have hl : l.length = 2 := by
      by_contra e
      exact h (at2_ne A.l1_aa l e)
    rcases l with _ | ⟨x0, _ | ⟨x1, _ | ⟨y, l⟩⟩⟩ <;> simp at hl
    have e := hA.l1_aa x0 x1 h
    simpa [ColBalanced, colSum, SI.col, half1, half2, spinQ, add_assoc] using e
  by_cases h57 : t = 57
  · subst h57
    have hl : l.length = 2 := by
      by_contra e
      exact h (at2_ne A.l1_bb l e)
    rcases l with _ | ⟨x0, _ | ⟨x1, _ | ⟨y, l⟩⟩⟩ <;> simp at hl
    have e := hA.l1_bb x0 x1 h
    simpa [ColBalanced, colSum, SI.col, half1, half2, spinQ, add_assoc] using e
  by_cases h64 : t = 64
  · subst h64
    have hl : l.length = 4 := by
      by_contra e
      exact h (at4_ne A.l2_aaaa l e)
    rcases l with _ | ⟨x0, _ | ⟨x1, _ | ⟨x2, _ | ⟨x3, _ | ⟨y, l⟩⟩⟩⟩⟩ <;> simp at hl
    have e := hA.l2_aaaa x0 x1 x2 x3 h
    simpa [ColBalanced, colSum, SI.col, half1, half2, spinQ, add_assoc] using e
  by_cases h65 : t = 65
  · subst h65
    have hl : l.length = 4 := by
      by_contra e
      exact h (at4_ne A.l2_abab l e)
    rcases l with _ | ⟨x0, _ | ⟨x1, _ | ⟨x2, _ | ⟨x3, _ | ⟨y, l⟩⟩⟩⟩⟩ <;> simp at hl
    have e := hA.l2_abab x0 x1 x2 x3 h
    simpa [ColBalanced, colSum, SI.col, half1, half2, spinQ, add_assoc] using e
  by_cases h66 : t = 66
  · subst h66
    have hl : l.length = 4 := by
      by_contra e
      exact h (at4_ne A.l2_bbbb l e)
    rcases l with _ | ⟨x0, _ | ⟨x1, _ | ⟨x2, _ | ⟨x3, _ | ⟨y, l⟩⟩⟩⟩⟩ <;> simp at hl
    have e := hA.l2_bbbb x0 x1 x2 x3 h
    simpa [ColBalanced, colSum, SI.col, half1, half2, spinQ, add_assoc] using e
  by_cases h72 : t = 72
  · subst h72
    have hl : l.length = 6 := by
      by_contra e
      exact h (at6_ne A.l3_aaaaaa l e)
    rcases l with _ | ⟨x0, _ | ⟨x1, _ | ⟨x2, _ | ⟨x3, _ | ⟨x4, _ | ⟨x5, _ | ⟨y, l⟩⟩⟩⟩⟩⟩⟩ <;> simp at hl
    have e := hA.l3_aaaaaa x0 x1 x2 x3 x4 x5 h
    simpa [ColBalanced, colSum, SI.col, half1, half2, spinQ, add_assoc] using e
  by_cases h73 : t = 73
  · subst h73
    have hl : l.length = 6 := by
      by_contra e
      exact h (at6_ne A.l3_aabaab l e)
    rcases l with _ | ⟨x0, _ | ⟨x1, _ | ⟨x2, _ | ⟨x3, _ | ⟨x4, _ | ⟨x5, _ | ⟨y, l⟩⟩⟩⟩⟩⟩⟩ <;> simp at hl
    have e := hA.l3_aabaab x0 x1 x2 x3 x4 x5 h
    simpa [ColBalanced, colSum, SI.col, half1, half2, spinQ, add_assoc] using e
  by_cases h74 : t = 74
  · subst h74
    have hl : l.length = 6 := by
      by_contra e
      exact h (at6_ne A.l3_abbabb l e)
    rcases l with _ | ⟨x0, _ | ⟨x1, _ | ⟨x2, _ | ⟨x3, _ | ⟨x4, _ | ⟨x5, _ | ⟨y, l⟩⟩⟩⟩⟩⟩⟩ <;> simp at hl
    have e := hA.l3_abbabb x0 x1 x2 x3 x4 x5 h
    simpa [ColBalanced, colSum, SI.col, half1, half2, spinQ, add_assoc] using e
  by_cases h75 : t = 75
  · subst h75
    have hl : l.length = 6 := by
      by_contra e
      exact h (at6_ne A.l3_bbbbbb l e)
    rcases l with _ | ⟨x0, _ | ⟨x1, _ | ⟨x2, _ | ⟨x3, _ | ⟨x4, _ | ⟨x5, _ | ⟨y, l⟩⟩⟩⟩⟩⟩⟩ <;> simp at hl
    have e := hA.l3_bbbbbb x0 x1 x2 x3 x4 x5 h
    simpa [ColBalanced, colSum, SI.col, half1, half2, spinQ, add_assoc] using e
  by_cases h8 : t = 8
  · subst h8
    have hl : l.length = 2 := by
      by_contra e
      exact h (at2_ne A.f_aa l e)
    rcases l with _ | ⟨x0, _ | ⟨x1, _ | ⟨y, l⟩⟩⟩ <;> simp at hl
    have e := hA.f_aa x0 x1 h
    simpa [ColBalanced, colSum, SI.col, half1, half2, spinQ, add_assoc] using e
  by_cases h9 : t = 9
  · subst h9
    have hl : l.length = 2 := by
      by_contra e
      exact h (at2_ne A.f_bb l e)
    rcases l with _ | ⟨x0, _ | ⟨x1, _ | ⟨y, l⟩⟩⟩ <;> simp at hl
    have e := hA.f_bb x0 x1 h
    simpa [ColBalanced, colSum, SI.col, half1, half2, spinQ, add_assoc] using e
  by_cases h16 : t = 16
  · subst h16
    have hl : l.length = 4 := by
      by_contra e
      exact h (at4_ne A.g_aaaa l e)
    rcases l with _ | ⟨x0, _ | ⟨x1, _ | ⟨x2, _ | ⟨x3, _ | ⟨y, l⟩⟩⟩⟩⟩ <;> simp at hl
    have e := hA.g_aaaa x0 x1 x2 x3 h
    simpa [ColBalanced, colSum, SI.col, half1, half2, spinQ, add_assoc] using e
  by_cases h17 : t = 17
  · subst h17
    have hl : l.length = 4 := by
      by_contra e
      exact h (at4_ne A.g_abab l e)
    rcases l with _ | ⟨x0, _ | ⟨x1, _ | ⟨x2, _ | ⟨x3, _ | ⟨y, l⟩⟩⟩⟩⟩ <;> simp at hl
    have e := hA.g_abab x0 x1 x2 x3 h
    simpa [ColBalanced, colSum, SI.col, half1, half2, spinQ, add_assoc] using e
  by_cases h18 : t = 18
  · subst h18
    have hl : l.length = 4 := by
      by_contra e
      exact h (at4_ne A.g_bbbb l e)
    rcases l with _ | ⟨x0, _ | ⟨x1, _ | ⟨x2, _ | ⟨x3, _ | ⟨y, l⟩⟩⟩⟩⟩ <;> simp at hl
    have e := hA.g_bbbb x0 x1 x2 x3 h
    simpa [ColBalanced, colSum, SI.col, half1, half2, spinQ, add_assoc] using e
  refine absurd ?_ h
  unfold SI.T
  simp [h24, h25, h32, h33, h34, h40, h41, h42, h43, h48, h49, h50, h51, h52, h56, h57, h64, h65, h66, h72, h73, h74, h75, h8, h9, h16, h17, h18]

end Verif.Ein
