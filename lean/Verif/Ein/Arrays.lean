import Verif.Ein.Names
import Mathlib.Algebra.Group.Basic
import Mathlib.Tactic.Ring

/-!
The arrays an einsum program works on, as functions of orbitals (written by `/verif/tools/gen.py`):
`SO` for spin-orbital codes, `SI` for spin-integrated codes, with the symmetries the arrays have. Amplitude
arrays of the `cc_eqns`-like modules are stored with occupied axes first in the code (`T2[i,j,a,b]`); here
they are always `t2 a b i j`.
-/

set_option linter.unusedSimpArgs false

namespace Verif.Ein

variable {I K : Type} [Field K]

/-- A function of 2 orbitals as a function of a list. -/
def at2 (h : I → I → K) : List I → K
  | [x0, x1] => h x0 x1
  | _ => 0

theorem at2_ne (h : I → I → K) (l : List I) (hl : l.length ≠ 2) : at2 h l = 0 := by
  unfold at2
  split
  · simp at hl
  · rfl

/-- A function of 4 orbitals as a function of a list. -/
def at4 (h : I → I → I → I → K) : List I → K
  | [x0, x1, x2, x3] => h x0 x1 x2 x3
  | _ => 0

theorem at4_ne (h : I → I → I → I → K) (l : List I) (hl : l.length ≠ 4) : at4 h l = 0 := by
  unfold at4
  split
  · simp at hl
  · rfl

/-- A function of 6 orbitals as a function of a list. -/
def at6 (h : I → I → I → I → I → I → K) : List I → K
  | [x0, x1, x2, x3, x4, x5] => h x0 x1 x2 x3 x4 x5
  | _ => 0

theorem at6_ne (h : I → I → I → I → I → I → K) (l : List I) (hl : l.length ≠ 6) : at6 h l = 0 := by
  unfold at6
  split
  · simp at hl
  · rfl

/-- A function of 8 orbitals as a function of a list. -/
def at8 (h : I → I → I → I → I → I → I → I → K) : List I → K
  | [x0, x1, x2, x3, x4, x5, x6, x7] => h x0 x1 x2 x3 x4 x5 x6 x7
  | _ => 0

theorem at8_ne (h : I → I → I → I → I → I → I → I → K) (l : List I) (hl : l.length ≠ 8) : at8 h l = 0 := by
  unfold at8
  split
  · simp at hl
  · rfl

theorem holds_zero (k : Kind) : k.Holds (fun _ : List I => (0 : K)) :=
  ⟨fun _ _ _ _ _ => by simp, fun _ _ _ _ => rfl⟩

theorem holds2h (h : I → I → K)
    (herm : ∀ p q, h p q = h q p) :
    Kind.Holds ⟨[], true⟩ (at2 h) := by
  constructor
  · intro l₁ x y l₂ hl
    rcases l₁ with _ | ⟨c, cs⟩ <;> simp at hl
  · intro _ l₁ l₂ hl
    rcases l₁ with _ | ⟨a0, _ | ⟨c, cs⟩⟩
    · rw [at2_ne _ _ (by simp only [List.length_nil, List.length_cons, List.length_append] at hl ⊢; omega),
        at2_ne _ _ (by simp only [List.length_nil, List.length_cons, List.length_append] at hl ⊢; omega)]
    · rcases l₂ with _ | ⟨b0, _ | ⟨d, ds⟩⟩
      · simp at hl
      · simpa [at2] using herm a0 b0
      · simp at hl
    · rw [at2_ne _ _ (by simp only [List.length_nil, List.length_cons, List.length_append] at hl ⊢; omega),
        at2_ne _ _ (by simp only [List.length_nil, List.length_cons, List.length_append] at hl ⊢; omega)]

theorem holds4TFTFh (h : I → I → I → I → K)
    (anti0 : ∀ p q r s, h p q r s = - h q p r s)
    (anti2 : ∀ p q r s, h p q r s = - h p q s r)
    (herm : ∀ p q r s, h p q r s = h r s p q) :
    Kind.Holds ⟨[true, false, true, false], true⟩ (at4 h) := by
  constructor
  · intro l₁ x y l₂ hl
    rcases l₁ with _ | ⟨a0, _ | ⟨a1, _ | ⟨a2, _ | ⟨c, cs⟩⟩⟩⟩
    · rcases l₂ with _ | ⟨b0, _ | ⟨b1, _ | ⟨d, ds⟩⟩⟩
      · simp [at4]
      · simp [at4]
      · simpa [at4] using anti0 x y b0 b1
      · simp [at4]
    · simp at hl
    · rcases l₂ with _ | ⟨d, ds⟩
      · simpa [at4] using anti2 a0 a1 x y
      · simp [at4]
    · simp at hl
    · simp at hl
  · intro _ l₁ l₂ hl
    rcases l₁ with _ | ⟨a0, _ | ⟨a1, _ | ⟨c, cs⟩⟩⟩
    · rw [at4_ne _ _ (by simp only [List.length_nil, List.length_cons, List.length_append] at hl ⊢; omega),
        at4_ne _ _ (by simp only [List.length_nil, List.length_cons, List.length_append] at hl ⊢; omega)]
    · rw [at4_ne _ _ (by simp only [List.length_nil, List.length_cons, List.length_append] at hl ⊢; omega),
        at4_ne _ _ (by simp only [List.length_nil, List.length_cons, List.length_append] at hl ⊢; omega)]
    · rcases l₂ with _ | ⟨b0, _ | ⟨b1, _ | ⟨d, ds⟩⟩⟩
      · simp at hl
      · simp at hl
      · simpa [at4] using herm a0 a1 b0 b1
      · simp at hl
    · rw [at4_ne _ _ (by simp only [List.length_nil, List.length_cons, List.length_append] at hl ⊢; omega),
        at4_ne _ _ (by simp only [List.length_nil, List.length_cons, List.length_append] at hl ⊢; omega)]

theorem holds2FF (h : I → I → K) :
    Kind.Holds ⟨[false, false], false⟩ (at2 h) := by
  constructor
  · intro l₁ x y l₂ hl
    rcases l₁ with _ | ⟨a0, _ | ⟨a1, _ | ⟨c, cs⟩⟩⟩ <;> simp at hl
  · intro h; simp at h

theorem holds4TFTF (h : I → I → I → I → K)
    (anti0 : ∀ p q r s, h p q r s = - h q p r s)
    (anti2 : ∀ p q r s, h p q r s = - h p q s r) :
    Kind.Holds ⟨[true, false, true, false], false⟩ (at4 h) := by
  constructor
  · intro l₁ x y l₂ hl
    rcases l₁ with _ | ⟨a0, _ | ⟨a1, _ | ⟨a2, _ | ⟨c, cs⟩⟩⟩⟩
    · rcases l₂ with _ | ⟨b0, _ | ⟨b1, _ | ⟨d, ds⟩⟩⟩
      · simp [at4]
      · simp [at4]
      · simpa [at4] using anti0 x y b0 b1
      · simp [at4]
    · simp at hl
    · rcases l₂ with _ | ⟨d, ds⟩
      · simpa [at4] using anti2 a0 a1 x y
      · simp [at4]
    · simp at hl
    · simp at hl
  · intro h; simp at h

theorem holds6TTFTTF (h : I → I → I → I → I → I → K)
    (anti0 : ∀ p q r s u v, h p q r s u v = - h q p r s u v)
    (anti1 : ∀ p q r s u v, h p q r s u v = - h p r q s u v)
    (anti3 : ∀ p q r s u v, h p q r s u v = - h p q r u s v)
    (anti4 : ∀ p q r s u v, h p q r s u v = - h p q r s v u) :
    Kind.Holds ⟨[true, true, false, true, true, false], false⟩ (at6 h) := by
  constructor
  · intro l₁ x y l₂ hl
    rcases l₁ with _ | ⟨a0, _ | ⟨a1, _ | ⟨a2, _ | ⟨a3, _ | ⟨a4, _ | ⟨c, cs⟩⟩⟩⟩⟩⟩
    · rcases l₂ with _ | ⟨b0, _ | ⟨b1, _ | ⟨b2, _ | ⟨b3, _ | ⟨d, ds⟩⟩⟩⟩⟩
      · simp [at6]
      · simp [at6]
      · simp [at6]
      · simp [at6]
      · simpa [at6] using anti0 x y b0 b1 b2 b3
      · simp [at6]
    · rcases l₂ with _ | ⟨b0, _ | ⟨b1, _ | ⟨b2, _ | ⟨d, ds⟩⟩⟩⟩
      · simp [at6]
      · simp [at6]
      · simp [at6]
      · simpa [at6] using anti1 a0 x y b0 b1 b2
      · simp [at6]
    · simp at hl
    · rcases l₂ with _ | ⟨b0, _ | ⟨d, ds⟩⟩
      · simp [at6]
      · simpa [at6] using anti3 a0 a1 a2 x y b0
      · simp [at6]
    · rcases l₂ with _ | ⟨d, ds⟩
      · simpa [at6] using anti4 a0 a1 a2 a3 x y
      · simp [at6]
    · simp at hl
    · simp at hl
  · intro h; simp at h

theorem holds8TTTFTTTF (h : I → I → I → I → I → I → I → I → K)
    (anti0 : ∀ p q r s u v w z, h p q r s u v w z = - h q p r s u v w z)
    (anti1 : ∀ p q r s u v w z, h p q r s u v w z = - h p r q s u v w z)
    (anti2 : ∀ p q r s u v w z, h p q r s u v w z = - h p q s r u v w z)
    (anti4 : ∀ p q r s u v w z, h p q r s u v w z = - h p q r s v u w z)
    (anti5 : ∀ p q r s u v w z, h p q r s u v w z = - h p q r s u w v z)
    (anti6 : ∀ p q r s u v w z, h p q r s u v w z = - h p q r s u v z w) :
    Kind.Holds ⟨[true, true, true, false, true, true, true, false], false⟩ (at8 h) := by
  constructor
  · intro l₁ x y l₂ hl
    rcases l₁ with _ | ⟨a0, _ | ⟨a1, _ | ⟨a2, _ | ⟨a3, _ | ⟨a4, _ | ⟨a5, _ | ⟨a6, _ | ⟨c, cs⟩⟩⟩⟩⟩⟩⟩⟩
    · rcases l₂ with _ | ⟨b0, _ | ⟨b1, _ | ⟨b2, _ | ⟨b3, _ | ⟨b4, _ | ⟨b5, _ | ⟨d, ds⟩⟩⟩⟩⟩⟩⟩
      · simp [at8]
      · simp [at8]
      · simp [at8]
      · simp [at8]
      · simp [at8]
      · simp [at8]
      · simpa [at8] using anti0 x y b0 b1 b2 b3 b4 b5
      · simp [at8]
    · rcases l₂ with _ | ⟨b0, _ | ⟨b1, _ | ⟨b2, _ | ⟨b3, _ | ⟨b4, _ | ⟨d, ds⟩⟩⟩⟩⟩⟩
      · simp [at8]
      · simp [at8]
      · simp [at8]
      · simp [at8]
      · simp [at8]
      · simpa [at8] using anti1 a0 x y b0 b1 b2 b3 b4
      · simp [at8]
    · rcases l₂ with _ | ⟨b0, _ | ⟨b1, _ | ⟨b2, _ | ⟨b3, _ | ⟨d, ds⟩⟩⟩⟩⟩
      · simp [at8]
      · simp [at8]
      · simp [at8]
      · simp [at8]
      · simpa [at8] using anti2 a0 a1 x y b0 b1 b2 b3
      · simp [at8]
    · simp at hl
    · rcases l₂ with _ | ⟨b0, _ | ⟨b1, _ | ⟨d, ds⟩⟩⟩
      · simp [at8]
      · simp [at8]
      · simpa [at8] using anti4 a0 a1 a2 a3 x y b0 b1
      · simp [at8]
    · rcases l₂ with _ | ⟨b0, _ | ⟨d, ds⟩⟩
      · simp [at8]
      · simpa [at8] using anti5 a0 a1 a2 a3 a4 x y b0
      · simp [at8]
    · rcases l₂ with _ | ⟨d, ds⟩
      · simpa [at8] using anti6 a0 a1 a2 a3 a4 a5 x y
      · simp [at8]
    · simp at hl
    · simp at hl
  · intro h; simp at h

theorem holds4FFFF (h : I → I → I → I → K) :
    Kind.Holds ⟨[false, false, false, false], false⟩ (at4 h) := by
  constructor
  · intro l₁ x y l₂ hl
    rcases l₁ with _ | ⟨a0, _ | ⟨a1, _ | ⟨a2, _ | ⟨a3, _ | ⟨c, cs⟩⟩⟩⟩⟩ <;> simp at hl
  · intro h; simp at h

theorem holds6TFFTFF (h : I → I → I → I → I → I → K)
    (anti0 : ∀ p q r s u v, h p q r s u v = - h q p r s u v)
    (anti3 : ∀ p q r s u v, h p q r s u v = - h p q r u s v) :
    Kind.Holds ⟨[true, false, false, true, false, false], false⟩ (at6 h) := by
  constructor
  · intro l₁ x y l₂ hl
    rcases l₁ with _ | ⟨a0, _ | ⟨a1, _ | ⟨a2, _ | ⟨a3, _ | ⟨a4, _ | ⟨c, cs⟩⟩⟩⟩⟩⟩
    · rcases l₂ with _ | ⟨b0, _ | ⟨b1, _ | ⟨b2, _ | ⟨b3, _ | ⟨d, ds⟩⟩⟩⟩⟩
      · simp [at6]
      · simp [at6]
      · simp [at6]
      · simp [at6]
      · simpa [at6] using anti0 x y b0 b1 b2 b3
      · simp [at6]
    · simp at hl
    · simp at hl
    · rcases l₂ with _ | ⟨b0, _ | ⟨d, ds⟩⟩
      · simp [at6]
      · simpa [at6] using anti3 a0 a1 a2 x y b0
      · simp [at6]
    · simp at hl
    · simp at hl
    · simp at hl
  · intro h; simp at h

theorem holds6FTFFTF (h : I → I → I → I → I → I → K)
    (anti1 : ∀ p q r s u v, h p q r s u v = - h p r q s u v)
    (anti4 : ∀ p q r s u v, h p q r s u v = - h p q r s v u) :
    Kind.Holds ⟨[false, true, false, false, true, false], false⟩ (at6 h) := by
  constructor
  · intro l₁ x y l₂ hl
    rcases l₁ with _ | ⟨a0, _ | ⟨a1, _ | ⟨a2, _ | ⟨a3, _ | ⟨a4, _ | ⟨c, cs⟩⟩⟩⟩⟩⟩
    · simp at hl
    · rcases l₂ with _ | ⟨b0, _ | ⟨b1, _ | ⟨b2, _ | ⟨d, ds⟩⟩⟩⟩
      · simp [at6]
      · simp [at6]
      · simp [at6]
      · simpa [at6] using anti1 a0 x y b0 b1 b2
      · simp [at6]
    · simp at hl
    · simp at hl
    · rcases l₂ with _ | ⟨d, ds⟩
      · simpa [at6] using anti4 a0 a1 a2 a3 x y
      · simp [at6]
    · simp at hl
    · simp at hl
  · intro h; simp at h

theorem holds8TTFFTTFF (h : I → I → I → I → I → I → I → I → K)
    (anti0 : ∀ p q r s u v w z, h p q r s u v w z = - h q p r s u v w z)
    (anti1 : ∀ p q r s u v w z, h p q r s u v w z = - h p r q s u v w z)
    (anti4 : ∀ p q r s u v w z, h p q r s u v w z = - h p q r s v u w z)
    (anti5 : ∀ p q r s u v w z, h p q r s u v w z = - h p q r s u w v z) :
    Kind.Holds ⟨[true, true, false, false, true, true, false, false], false⟩ (at8 h) := by
  constructor
  · intro l₁ x y l₂ hl
    rcases l₁ with _ | ⟨a0, _ | ⟨a1, _ | ⟨a2, _ | ⟨a3, _ | ⟨a4, _ | ⟨a5, _ | ⟨a6, _ | ⟨c, cs⟩⟩⟩⟩⟩⟩⟩⟩
    · rcases l₂ with _ | ⟨b0, _ | ⟨b1, _ | ⟨b2, _ | ⟨b3, _ | ⟨b4, _ | ⟨b5, _ | ⟨d, ds⟩⟩⟩⟩⟩⟩⟩
      · simp [at8]
      · simp [at8]
      · simp [at8]
      · simp [at8]
      · simp [at8]
      · simp [at8]
      · simpa [at8] using anti0 x y b0 b1 b2 b3 b4 b5
      · simp [at8]
    · rcases l₂ with _ | ⟨b0, _ | ⟨b1, _ | ⟨b2, _ | ⟨b3, _ | ⟨b4, _ | ⟨d, ds⟩⟩⟩⟩⟩⟩
      · simp [at8]
      · simp [at8]
      · simp [at8]
      · simp [at8]
      · simp [at8]
      · simpa [at8] using anti1 a0 x y b0 b1 b2 b3 b4
      · simp [at8]
    · simp at hl
    · simp at hl
    · rcases l₂ with _ | ⟨b0, _ | ⟨b1, _ | ⟨d, ds⟩⟩⟩
      · simp [at8]
      · simp [at8]
      · simpa [at8] using anti4 a0 a1 a2 a3 x y b0 b1
      · simp [at8]
    · rcases l₂ with _ | ⟨b0, _ | ⟨d, ds⟩⟩
      · simp [at8]
      · simpa [at8] using anti5 a0 a1 a2 a3 a4 x y b0
      · simp [at8]
    · simp at hl
    · simp at hl
    · simp at hl
  · intro h; simp at h

theorem holds8TFTFTFTF (h : I → I → I → I → I → I → I → I → K)
    (anti0 : ∀ p q r s u v w z, h p q r s u v w z = - h q p r s u v w z)
    (anti2 : ∀ p q r s u v w z, h p q r s u v w z = - h p q s r u v w z)
    (anti4 : ∀ p q r s u v w z, h p q r s u v w z = - h p q r s v u w z)
    (anti6 : ∀ p q r s u v w z, h p q r s u v w z = - h p q r s u v z w) :
    Kind.Holds ⟨[true, false, true, false, true, false, true, false], false⟩ (at8 h) := by
  constructor
  · intro l₁ x y l₂ hl
    rcases l₁ with _ | ⟨a0, _ | ⟨a1, _ | ⟨a2, _ | ⟨a3, _ | ⟨a4, _ | ⟨a5, _ | ⟨a6, _ | ⟨c, cs⟩⟩⟩⟩⟩⟩⟩⟩
    · rcases l₂ with _ | ⟨b0, _ | ⟨b1, _ | ⟨b2, _ | ⟨b3, _ | ⟨b4, _ | ⟨b5, _ | ⟨d, ds⟩⟩⟩⟩⟩⟩⟩
      · simp [at8]
      · simp [at8]
      · simp [at8]
      · simp [at8]
      · simp [at8]
      · simp [at8]
      · simpa [at8] using anti0 x y b0 b1 b2 b3 b4 b5
      · simp [at8]
    · simp at hl
    · rcases l₂ with _ | ⟨b0, _ | ⟨b1, _ | ⟨b2, _ | ⟨b3, _ | ⟨d, ds⟩⟩⟩⟩⟩
      · simp [at8]
      · simp [at8]
      · simp [at8]
      · simp [at8]
      · simpa [at8] using anti2 a0 a1 x y b0 b1 b2 b3
      · simp [at8]
    · simp at hl
    · rcases l₂ with _ | ⟨b0, _ | ⟨b1, _ | ⟨d, ds⟩⟩⟩
      · simp [at8]
      · simp [at8]
      · simpa [at8] using anti4 a0 a1 a2 a3 x y b0 b1
      · simp [at8]
    · simp at hl
    · rcases l₂ with _ | ⟨d, ds⟩
      · simpa [at8] using anti6 a0 a1 a2 a3 a4 a5 x y
      · simp [at8]
    · simp at hl
    · simp at hl
  · intro h; simp at h

theorem holds8FTTFFTTF (h : I → I → I → I → I → I → I → I → K)
    (anti1 : ∀ p q r s u v w z, h p q r s u v w z = - h p r q s u v w z)
    (anti2 : ∀ p q r s u v w z, h p q r s u v w z = - h p q s r u v w z)
    (anti5 : ∀ p q r s u v w z, h p q r s u v w z = - h p q r s u w v z)
    (anti6 : ∀ p q r s u v w z, h p q r s u v w z = - h p q r s u v z w) :
    Kind.Holds ⟨[false, true, true, false, false, true, true, false], false⟩ (at8 h) := by
  constructor
  · intro l₁ x y l₂ hl
    rcases l₁ with _ | ⟨a0, _ | ⟨a1, _ | ⟨a2, _ | ⟨a3, _ | ⟨a4, _ | ⟨a5, _ | ⟨a6, _ | ⟨c, cs⟩⟩⟩⟩⟩⟩⟩⟩
    · simp at hl
    · rcases l₂ with _ | ⟨b0, _ | ⟨b1, _ | ⟨b2, _ | ⟨b3, _ | ⟨b4, _ | ⟨d, ds⟩⟩⟩⟩⟩⟩
      · simp [at8]
      · simp [at8]
      · simp [at8]
      · simp [at8]
      · simp [at8]
      · simpa [at8] using anti1 a0 x y b0 b1 b2 b3 b4
      · simp [at8]
    · rcases l₂ with _ | ⟨b0, _ | ⟨b1, _ | ⟨b2, _ | ⟨b3, _ | ⟨d, ds⟩⟩⟩⟩⟩
      · simp [at8]
      · simp [at8]
      · simp [at8]
      · simp [at8]
      · simpa [at8] using anti2 a0 a1 x y b0 b1 b2 b3
      · simp [at8]
    · simp at hl
    · simp at hl
    · rcases l₂ with _ | ⟨b0, _ | ⟨d, ds⟩⟩
      · simp [at8]
      · simpa [at8] using anti5 a0 a1 a2 a3 a4 x y b0
      · simp [at8]
    · rcases l₂ with _ | ⟨d, ds⟩
      · simpa [at8] using anti6 a0 a1 a2 a3 a4 a5 x y
      · simp [at8]
    · simp at hl
    · simp at hl
  · intro h; simp at h

theorem holds4FFFFh (h : I → I → I → I → K)
    (herm : ∀ p q r s, h p q r s = h r s p q) :
    Kind.Holds ⟨[false, false, false, false], true⟩ (at4 h) := by
  constructor
  · intro l₁ x y l₂ hl
    rcases l₁ with _ | ⟨a0, _ | ⟨a1, _ | ⟨a2, _ | ⟨a3, _ | ⟨c, cs⟩⟩⟩⟩⟩ <;> simp at hl
  · intro _ l₁ l₂ hl
    rcases l₁ with _ | ⟨a0, _ | ⟨a1, _ | ⟨c, cs⟩⟩⟩
    · rw [at4_ne _ _ (by simp only [List.length_nil, List.length_cons, List.length_append] at hl ⊢; omega),
        at4_ne _ _ (by simp only [List.length_nil, List.length_cons, List.length_append] at hl ⊢; omega)]
    · rw [at4_ne _ _ (by simp only [List.length_nil, List.length_cons, List.length_append] at hl ⊢; omega),
        at4_ne _ _ (by simp only [List.length_nil, List.length_cons, List.length_append] at hl ⊢; omega)]
    · rcases l₂ with _ | ⟨b0, _ | ⟨b1, _ | ⟨d, ds⟩⟩⟩
      · simp at hl
      · simp at hl
      · simpa [at4] using herm a0 a1 b0 b1
      · simp at hl
    · rw [at4_ne _ _ (by simp only [List.length_nil, List.length_cons, List.length_append] at hl ⊢; omega),
        at4_ne _ _ (by simp only [List.length_nil, List.length_cons, List.length_append] at hl ⊢; omega)]

/-- Arrays of a spin-orbital calculation. -/
structure SO (I K : Type) [Zero K] where
  /-- Fock matrix -/
  f : I → I → K := fun _ _ => 0
  /-- antisymmetrised two-electron integrals `<pq||rs>` -/
  g : I → I → I → I → K := fun _ _ _ _ => 0
  /-- `t1[a,i]` -/
  t1 : I → I → K := fun _ _ => 0
  /-- `t2[a,b,i,j]` -/
  t2 : I → I → I → I → K := fun _ _ _ _ => 0
  /-- `t3[a,b,c,i,j,k]` -/
  t3 : I → I → I → I → I → I → K := fun _ _ _ _ _ _ => 0
  /-- `t4[a,b,c,d,i,j,k,l]` -/
  t4 : I → I → I → I → I → I → I → I → K := fun _ _ _ _ _ _ _ _ => 0
  /-- `l1[i,a]` -/
  l1 : I → I → K := fun _ _ => 0
  /-- `l2[i,j,a,b]` -/
  l2 : I → I → I → I → K := fun _ _ _ _ => 0
  /-- `l3[i,j,k,a,b,c]` -/
  l3 : I → I → I → I → I → I → K := fun _ _ _ _ _ _ => 0
  /-- `l4[i,j,k,l,a,b,c,d]` -/
  l4 : I → I → I → I → I → I → I → I → K := fun _ _ _ _ _ _ _ _ => 0

/-- The arrays by tensor number. -/
def SO.T (s : SO I K) (t : Nat) : List I → K :=
  if t = 15 then at2 s.f else
  if t = 23 then at4 s.g else
  if t = 31 then at2 s.t1 else
  if t = 39 then at4 s.t2 else
  if t = 47 then at6 s.t3 else
  if t = 55 then at8 s.t4 else
  if t = 63 then at2 s.l1 else
  if t = 71 then at4 s.l2 else
  if t = 79 then at6 s.l3 else
  if t = 119 then at8 s.l4 else
  fun _ => 0

/-- The symmetries of the arrays. -/
structure SO.Sym (A : SO I K) : Prop where
  f_herm : ∀ p q, A.f p q = A.f q p
  g_anti0 : ∀ p q r s, A.g p q r s = - A.g q p r s
  g_anti2 : ∀ p q r s, A.g p q r s = - A.g p q s r
  g_herm : ∀ p q r s, A.g p q r s = A.g r s p q
  t2_anti0 : ∀ p q r s, A.t2 p q r s = - A.t2 q p r s
  t2_anti2 : ∀ p q r s, A.t2 p q r s = - A.t2 p q s r
  t3_anti0 : ∀ p q r s u v, A.t3 p q r s u v = - A.t3 q p r s u v
  t3_anti1 : ∀ p q r s u v, A.t3 p q r s u v = - A.t3 p r q s u v
  t3_anti3 : ∀ p q r s u v, A.t3 p q r s u v = - A.t3 p q r u s v
  t3_anti4 : ∀ p q r s u v, A.t3 p q r s u v = - A.t3 p q r s v u
  t4_anti0 : ∀ p q r s u v w z, A.t4 p q r s u v w z = - A.t4 q p r s u v w z
  t4_anti1 : ∀ p q r s u v w z, A.t4 p q r s u v w z = - A.t4 p r q s u v w z
  t4_anti2 : ∀ p q r s u v w z, A.t4 p q r s u v w z = - A.t4 p q s r u v w z
  t4_anti4 : ∀ p q r s u v w z, A.t4 p q r s u v w z = - A.t4 p q r s v u w z
  t4_anti5 : ∀ p q r s u v w z, A.t4 p q r s u v w z = - A.t4 p q r s u w v z
  t4_anti6 : ∀ p q r s u v w z, A.t4 p q r s u v w z = - A.t4 p q r s u v z w
  l2_anti0 : ∀ p q r s, A.l2 p q r s = - A.l2 q p r s
  l2_anti2 : ∀ p q r s, A.l2 p q r s = - A.l2 p q s r
  l3_anti0 : ∀ p q r s u v, A.l3 p q r s u v = - A.l3 q p r s u v
  l3_anti1 : ∀ p q r s u v, A.l3 p q r s u v = - A.l3 p r q s u v
  l3_anti3 : ∀ p q r s u v, A.l3 p q r s u v = - A.l3 p q r u s v
  l3_anti4 : ∀ p q r s u v, A.l3 p q r s u v = - A.l3 p q r s v u
  l4_anti0 : ∀ p q r s u v w z, A.l4 p q r s u v w z = - A.l4 q p r s u v w z
  l4_anti1 : ∀ p q r s u v w z, A.l4 p q r s u v w z = - A.l4 p r q s u v w z
  l4_anti2 : ∀ p q r s u v w z, A.l4 p q r s u v w z = - A.l4 p q s r u v w z
  l4_anti4 : ∀ p q r s u v w z, A.l4 p q r s u v w z = - A.l4 p q r s v u w z
  l4_anti5 : ∀ p q r s u v w z, A.l4 p q r s u v w z = - A.l4 p q r s u w v z
  l4_anti6 : ∀ p q r s u v w z, A.l4 p q r s u v w z = - A.l4 p q r s u v z w

theorem SO.Sym.holds {s : SO I K} (h : s.Sym) (t : Nat) : (N.kinds t).Holds (s.T t) := by
  by_cases h15 : t = 15
  · subst h15; exact holds2h s.f h.f_herm
  by_cases h23 : t = 23
  · subst h23; exact holds4TFTFh s.g h.g_anti0 h.g_anti2 h.g_herm
  by_cases h31 : t = 31
  · subst h31; exact holds2FF s.t1 
  by_cases h39 : t = 39
  · subst h39; exact holds4TFTF s.t2 h.t2_anti0 h.t2_anti2
  by_cases h47 : t = 47
  · subst h47; exact holds6TTFTTF s.t3 h.t3_anti0 h.t3_anti1 h.t3_anti3 h.t3_anti4
  by_cases h55 : t = 55
  · subst h55; exact holds8TTTFTTTF s.t4 h.t4_anti0 h.t4_anti1 h.t4_anti2 h.t4_anti4 h.t4_anti5 h.t4_anti6
  by_cases h63 : t = 63
  · subst h63; exact holds2FF s.l1 
  by_cases h71 : t = 71
  · subst h71; exact holds4TFTF s.l2 h.l2_anti0 h.l2_anti2
  by_cases h79 : t = 79
  · subst h79; exact holds6TTFTTF s.l3 h.l3_anti0 h.l3_anti1 h.l3_anti3 h.l3_anti4
  by_cases h119 : t = 119
  · subst h119; exact holds8TTTFTTTF s.l4 h.l4_anti0 h.l4_anti1 h.l4_anti2 h.l4_anti4 h.l4_anti5 h.l4_anti6
  have e : s.T t = fun _ => 0 := by
    unfold SO.T
    rw [if_neg h15, if_neg h23, if_neg h31, if_neg h39, if_neg h47, if_neg h55, if_neg h63, if_neg h71, if_neg h79, if_neg h119]
  rw [e]
  exact holds_zero _

/-- Arrays of a spin-integrated calculation. -/
structure SI (I K : Type) [Zero K] where
  /-- `t1[a,i]`, spin block aa -/
  t1_aa : I → I → K := fun _ _ => 0
  /-- `t1[a,i]`, spin block bb -/
  t1_bb : I → I → K := fun _ _ => 0
  /-- `t2[a,b,i,j]`, spin block aaaa -/
  t2_aaaa : I → I → I → I → K := fun _ _ _ _ => 0
  /-- `t2[a,b,i,j]`, spin block abab -/
  t2_abab : I → I → I → I → K := fun _ _ _ _ => 0
  /-- `t2[a,b,i,j]`, spin block bbbb -/
  t2_bbbb : I → I → I → I → K := fun _ _ _ _ => 0
  /-- `t3[a,b,c,i,j,k]`, spin block aaaaaa -/
  t3_aaaaaa : I → I → I → I → I → I → K := fun _ _ _ _ _ _ => 0
  /-- `t3[a,b,c,i,j,k]`, spin block aabaab -/
  t3_aabaab : I → I → I → I → I → I → K := fun _ _ _ _ _ _ => 0
  /-- `t3[a,b,c,i,j,k]`, spin block abbabb -/
  t3_abbabb : I → I → I → I → I → I → K := fun _ _ _ _ _ _ => 0
  /-- `t3[a,b,c,i,j,k]`, spin block bbbbbb -/
  t3_bbbbbb : I → I → I → I → I → I → K := fun _ _ _ _ _ _ => 0
  /-- `t4[a,b,c,d,i,j,k,l]`, spin block aaaaaaaa -/
  t4_aaaaaaaa : I → I → I → I → I → I → I → I → K := fun _ _ _ _ _ _ _ _ => 0
  /-- `t4[a,b,c,d,i,j,k,l]`, spin block aaabaaab -/
  t4_aaabaaab : I → I → I → I → I → I → I → I → K := fun _ _ _ _ _ _ _ _ => 0
  /-- `t4[a,b,c,d,i,j,k,l]`, spin block aabbaabb -/
  t4_aabbaabb : I → I → I → I → I → I → I → I → K := fun _ _ _ _ _ _ _ _ => 0
  /-- `t4[a,b,c,d,i,j,k,l]`, spin block abbbabbb -/
  t4_abbbabbb : I → I → I → I → I → I → I → I → K := fun _ _ _ _ _ _ _ _ => 0
  /-- `t4[a,b,c,d,i,j,k,l]`, spin block bbbbbbbb -/
  t4_bbbbbbbb : I → I → I → I → I → I → I → I → K := fun _ _ _ _ _ _ _ _ => 0
  /-- `l1[i,a]`, spin block aa -/
  l1_aa : I → I → K := fun _ _ => 0
  /-- `l1[i,a]`, spin block bb -/
  l1_bb : I → I → K := fun _ _ => 0
  /-- `l2[i,j,a,b]`, spin block aaaa -/
  l2_aaaa : I → I → I → I → K := fun _ _ _ _ => 0
  /-- `l2[i,j,a,b]`, spin block abab -/
  l2_abab : I → I → I → I → K := fun _ _ _ _ => 0
  /-- `l2[i,j,a,b]`, spin block bbbb -/
  l2_bbbb : I → I → I → I → K := fun _ _ _ _ => 0
  /-- `l3[i,j,k,a,b,c]`, spin block aaaaaa -/
  l3_aaaaaa : I → I → I → I → I → I → K := fun _ _ _ _ _ _ => 0
  /-- `l3[i,j,k,a,b,c]`, spin block aabaab -/
  l3_aabaab : I → I → I → I → I → I → K := fun _ _ _ _ _ _ => 0
  /-- `l3[i,j,k,a,b,c]`, spin block abbabb -/
  l3_abbabb : I → I → I → I → I → I → K := fun _ _ _ _ _ _ => 0
  /-- `l3[i,j,k,a,b,c]`, spin block bbbbbb -/
  l3_bbbbbb : I → I → I → I → I → I → K := fun _ _ _ _ _ _ => 0
  /-- Fock matrix, spin block aa -/
  f_aa : I → I → K := fun _ _ => 0
  /-- Fock matrix, spin block bb -/
  f_bb : I → I → K := fun _ _ => 0
  /-- antisymmetrised two-electron integrals `<pq||rs>`, spin block aaaa -/
  g_aaaa : I → I → I → I → K := fun _ _ _ _ => 0
  /-- antisymmetrised two-electron integrals `<pq||rs>`, spin block abab -/
  g_abab : I → I → I → I → K := fun _ _ _ _ => 0
  /-- antisymmetrised two-electron integrals `<pq||rs>`, spin block bbbb -/
  g_bbbb : I → I → I → I → K := fun _ _ _ _ => 0

/-- The arrays by tensor number. -/
def SI.T (s : SI I K) (t : Nat) : List I → K :=
  if t = 24 then at2 s.t1_aa else
  if t = 25 then at2 s.t1_bb else
  if t = 32 then at4 s.t2_aaaa else
  if t = 33 then at4 s.t2_abab else
  if t = 34 then at4 s.t2_bbbb else
  if t = 40 then at6 s.t3_aaaaaa else
  if t = 41 then at6 s.t3_aabaab else
  if t = 42 then at6 s.t3_abbabb else
  if t = 43 then at6 s.t3_bbbbbb else
  if t = 48 then at8 s.t4_aaaaaaaa else
  if t = 49 then at8 s.t4_aaabaaab else
  if t = 50 then at8 s.t4_aabbaabb else
  if t = 51 then at8 s.t4_abbbabbb else
  if t = 52 then at8 s.t4_bbbbbbbb else
  if t = 56 then at2 s.l1_aa else
  if t = 57 then at2 s.l1_bb else
  if t = 64 then at4 s.l2_aaaa else
  if t = 65 then at4 s.l2_abab else
  if t = 66 then at4 s.l2_bbbb else
  if t = 72 then at6 s.l3_aaaaaa else
  if t = 73 then at6 s.l3_aabaab else
  if t = 74 then at6 s.l3_abbabb else
  if t = 75 then at6 s.l3_bbbbbb else
  if t = 8 then at2 s.f_aa else
  if t = 9 then at2 s.f_bb else
  if t = 16 then at4 s.g_aaaa else
  if t = 17 then at4 s.g_abab else
  if t = 18 then at4 s.g_bbbb else
  fun _ => 0

/-- The symmetries of the arrays. -/
structure SI.Sym (A : SI I K) : Prop where
  t2_aaaa_anti0 : ∀ p q r s, A.t2_aaaa p q r s = - A.t2_aaaa q p r s
  t2_aaaa_anti2 : ∀ p q r s, A.t2_aaaa p q r s = - A.t2_aaaa p q s r
  t2_bbbb_anti0 : ∀ p q r s, A.t2_bbbb p q r s = - A.t2_bbbb q p r s
  t2_bbbb_anti2 : ∀ p q r s, A.t2_bbbb p q r s = - A.t2_bbbb p q s r
  t3_aaaaaa_anti0 : ∀ p q r s u v, A.t3_aaaaaa p q r s u v = - A.t3_aaaaaa q p r s u v
  t3_aaaaaa_anti1 : ∀ p q r s u v, A.t3_aaaaaa p q r s u v = - A.t3_aaaaaa p r q s u v
  t3_aaaaaa_anti3 : ∀ p q r s u v, A.t3_aaaaaa p q r s u v = - A.t3_aaaaaa p q r u s v
  t3_aaaaaa_anti4 : ∀ p q r s u v, A.t3_aaaaaa p q r s u v = - A.t3_aaaaaa p q r s v u
  t3_aabaab_anti0 : ∀ p q r s u v, A.t3_aabaab p q r s u v = - A.t3_aabaab q p r s u v
  t3_aabaab_anti3 : ∀ p q r s u v, A.t3_aabaab p q r s u v = - A.t3_aabaab p q r u s v
  t3_abbabb_anti1 : ∀ p q r s u v, A.t3_abbabb p q r s u v = - A.t3_abbabb p r q s u v
  t3_abbabb_anti4 : ∀ p q r s u v, A.t3_abbabb p q r s u v = - A.t3_abbabb p q r s v u
  t3_bbbbbb_anti0 : ∀ p q r s u v, A.t3_bbbbbb p q r s u v = - A.t3_bbbbbb q p r s u v
  t3_bbbbbb_anti1 : ∀ p q r s u v, A.t3_bbbbbb p q r s u v = - A.t3_bbbbbb p r q s u v
  t3_bbbbbb_anti3 : ∀ p q r s u v, A.t3_bbbbbb p q r s u v = - A.t3_bbbbbb p q r u s v
  t3_bbbbbb_anti4 : ∀ p q r s u v, A.t3_bbbbbb p q r s u v = - A.t3_bbbbbb p q r s v u
  t4_aaaaaaaa_anti0 : ∀ p q r s u v w z, A.t4_aaaaaaaa p q r s u v w z = - A.t4_aaaaaaaa q p r s u v w z
  t4_aaaaaaaa_anti1 : ∀ p q r s u v w z, A.t4_aaaaaaaa p q r s u v w z = - A.t4_aaaaaaaa p r q s u v w z
  t4_aaaaaaaa_anti2 : ∀ p q r s u v w z, A.t4_aaaaaaaa p q r s u v w z = - A.t4_aaaaaaaa p q s r u v w z
  t4_aaaaaaaa_anti4 : ∀ p q r s u v w z, A.t4_aaaaaaaa p q r s u v w z = - A.t4_aaaaaaaa p q r s v u w z
  t4_aaaaaaaa_anti5 : ∀ p q r s u v w z, A.t4_aaaaaaaa p q r s u v w z = - A.t4_aaaaaaaa p q r s u w v z
  t4_aaaaaaaa_anti6 : ∀ p q r s u v w z, A.t4_aaaaaaaa p q r s u v w z = - A.t4_aaaaaaaa p q r s u v z w
  t4_aaabaaab_anti0 : ∀ p q r s u v w z, A.t4_aaabaaab p q r s u v w z = - A.t4_aaabaaab q p r s u v w z
  t4_aaabaaab_anti1 : ∀ p q r s u v w z, A.t4_aaabaaab p q r s u v w z = - A.t4_aaabaaab p r q s u v w z
  t4_aaabaaab_anti4 : ∀ p q r s u v w z, A.t4_aaabaaab p q r s u v w z = - A.t4_aaabaaab p q r s v u w z
  t4_aaabaaab_anti5 : ∀ p q r s u v w z, A.t4_aaabaaab p q r s u v w z = - A.t4_aaabaaab p q r s u w v z
  t4_aabbaabb_anti0 : ∀ p q r s u v w z, A.t4_aabbaabb p q r s u v w z = - A.t4_aabbaabb q p r s u v w z
  t4_aabbaabb_anti2 : ∀ p q r s u v w z, A.t4_aabbaabb p q r s u v w z = - A.t4_aabbaabb p q s r u v w z
  t4_aabbaabb_anti4 : ∀ p q r s u v w z, A.t4_aabbaabb p q r s u v w z = - A.t4_aabbaabb p q r s v u w z
  t4_aabbaabb_anti6 : ∀ p q r s u v w z, A.t4_aabbaabb p q r s u v w z = - A.t4_aabbaabb p q r s u v z w
  t4_abbbabbb_anti1 : ∀ p q r s u v w z, A.t4_abbbabbb p q r s u v w z = - A.t4_abbbabbb p r q s u v w z
  t4_abbbabbb_anti2 : ∀ p q r s u v w z, A.t4_abbbabbb p q r s u v w z = - A.t4_abbbabbb p q s r u v w z
  t4_abbbabbb_anti5 : ∀ p q r s u v w z, A.t4_abbbabbb p q r s u v w z = - A.t4_abbbabbb p q r s u w v z
  t4_abbbabbb_anti6 : ∀ p q r s u v w z, A.t4_abbbabbb p q r s u v w z = - A.t4_abbbabbb p q r s u v z w
  t4_bbbbbbbb_anti0 : ∀ p q r s u v w z, A.t4_bbbbbbbb p q r s u v w z = - A.t4_bbbbbbbb q p r s u v w z
  t4_bbbbbbbb_anti1 : ∀ p q r s u v w z, A.t4_bbbbbbbb p q r s u v w z = - A.t4_bbbbbbbb p r q s u v w z
  t4_bbbbbbbb_anti2 : ∀ p q r s u v w z, A.t4_bbbbbbbb p q r s u v w z = - A.t4_bbbbbbbb p q s r u v w z
  t4_bbbbbbbb_anti4 : ∀ p q r s u v w z, A.t4_bbbbbbbb p q r s u v w z = - A.t4_bbbbbbbb p q r s v u w z
  t4_bbbbbbbb_anti5 : ∀ p q r s u v w z, A.t4_bbbbbbbb p q r s u v w z = - A.t4_bbbbbbbb p q r s u w v z
  t4_bbbbbbbb_anti6 : ∀ p q r s u v w z, A.t4_bbbbbbbb p q r s u v w z = - A.t4_bbbbbbbb p q r s u v z w
  l2_aaaa_anti0 : ∀ p q r s, A.l2_aaaa p q r s = - A.l2_aaaa q p r s
  l2_aaaa_anti2 : ∀ p q r s, A.l2_aaaa p q r s = - A.l2_aaaa p q s r
  l2_bbbb_anti0 : ∀ p q r s, A.l2_bbbb p q r s = - A.l2_bbbb q p r s
  l2_bbbb_anti2 : ∀ p q r s, A.l2_bbbb p q r s = - A.l2_bbbb p q s r
  l3_aaaaaa_anti0 : ∀ p q r s u v, A.l3_aaaaaa p q r s u v = - A.l3_aaaaaa q p r s u v
  l3_aaaaaa_anti1 : ∀ p q r s u v, A.l3_aaaaaa p q r s u v = - A.l3_aaaaaa p r q s u v
  l3_aaaaaa_anti3 : ∀ p q r s u v, A.l3_aaaaaa p q r s u v = - A.l3_aaaaaa p q r u s v
  l3_aaaaaa_anti4 : ∀ p q r s u v, A.l3_aaaaaa p q r s u v = - A.l3_aaaaaa p q r s v u
  l3_aabaab_anti0 : ∀ p q r s u v, A.l3_aabaab p q r s u v = - A.l3_aabaab q p r s u v
  l3_aabaab_anti3 : ∀ p q r s u v, A.l3_aabaab p q r s u v = - A.l3_aabaab p q r u s v
  l3_abbabb_anti1 : ∀ p q r s u v, A.l3_abbabb p q r s u v = - A.l3_abbabb p r q s u v
  l3_abbabb_anti4 : ∀ p q r s u v, A.l3_abbabb p q r s u v = - A.l3_abbabb p q r s v u
  l3_bbbbbb_anti0 : ∀ p q r s u v, A.l3_bbbbbb p q r s u v = - A.l3_bbbbbb q p r s u v
  l3_bbbbbb_anti1 : ∀ p q r s u v, A.l3_bbbbbb p q r s u v = - A.l3_bbbbbb p r q s u v
  l3_bbbbbb_anti3 : ∀ p q r s u v, A.l3_bbbbbb p q r s u v = - A.l3_bbbbbb p q r u s v
  l3_bbbbbb_anti4 : ∀ p q r s u v, A.l3_bbbbbb p q r s u v = - A.l3_bbbbbb p q r s v u
  f_aa_herm : ∀ p q, A.f_aa p q = A.f_aa q p
  f_bb_herm : ∀ p q, A.f_bb p q = A.f_bb q p
  g_aaaa_anti0 : ∀ p q r s, A.g_aaaa p q r s = - A.g_aaaa q p r s
  g_aaaa_anti2 : ∀ p q r s, A.g_aaaa p q r s = - A.g_aaaa p q s r
  g_aaaa_herm : ∀ p q r s, A.g_aaaa p q r s = A.g_aaaa r s p q
  g_abab_herm : ∀ p q r s, A.g_abab p q r s = A.g_abab r s p q
  g_bbbb_anti0 : ∀ p q r s, A.g_bbbb p q r s = - A.g_bbbb q p r s
  g_bbbb_anti2 : ∀ p q r s, A.g_bbbb p q r s = - A.g_bbbb p q s r
  g_bbbb_herm : ∀ p q r s, A.g_bbbb p q r s = A.g_bbbb r s p q

theorem SI.Sym.holds {s : SI I K} (h : s.Sym) (t : Nat) : (N.kinds t).Holds (s.T t) := by
  by_cases h24 : t = 24
  · subst h24; exact holds2FF s.t1_aa 
  by_cases h25 : t = 25
  · subst h25; exact holds2FF s.t1_bb 
  by_cases h32 : t = 32
  · subst h32; exact holds4TFTF s.t2_aaaa h.t2_aaaa_anti0 h.t2_aaaa_anti2
  by_cases h33 : t = 33
  · subst h33; exact holds4FFFF s.t2_abab 
  by_cases h34 : t = 34
  · subst h34; exact holds4TFTF s.t2_bbbb h.t2_bbbb_anti0 h.t2_bbbb_anti2
  by_cases h40 : t = 40
  · subst h40; exact holds6TTFTTF s.t3_aaaaaa h.t3_aaaaaa_anti0 h.t3_aaaaaa_anti1 h.t3_aaaaaa_anti3 h.t3_aaaaaa_anti4
  by_cases h41 : t = 41
  · subst h41; exact holds6TFFTFF s.t3_aabaab h.t3_aabaab_anti0 h.t3_aabaab_anti3
  by_cases h42 : t = 42
  · subst h42; exact holds6FTFFTF s.t3_abbabb h.t3_abbabb_anti1 h.t3_abbabb_anti4
  by_cases h43 : t = 43
  · subst h43; exact holds6TTFTTF s.t3_bbbbbb h.t3_bbbbbb_anti0 h.t3_bbbbbb_anti1 h.t3_bbbbbb_anti3 h.t3_bbbbbb_anti4
  by_cases h48 : t = 48
  · subst h48; exact holds8TTTFTTTF s.t4_aaaaaaaa h.t4_aaaaaaaa_anti0 h.t4_aaaaaaaa_anti1 h.t4_aaaaaaaa_anti2 h.t4_aaaaaaaa_anti4 h.t4_aaaaaaaa_anti5 h.t4_aaaaaaaa_anti6
  by_cases h49 : t = 49
  · subst h49; exact holds8TTFFTTFF s.t4_aaabaaab h.t4_aaabaaab_anti0 h.t4_aaabaaab_anti1 h.t4_aaabaaab_anti4 h.t4_aaabaaab_anti5
  by_cases h50 : t = 50
  · subst h50; exact holds8TFTFTFTF s.t4_aabbaabb h.t4_aabbaabb_anti0 h.t4_aabbaabb_anti2 h.t4_aabbaabb_anti4 h.t4_aabbaabb_anti6
  by_cases h51 : t = 51
  · subst h51; exact holds8FTTFFTTF s.t4_abbbabbb h.t4_abbbabbb_anti1 h.t4_abbbabbb_anti2 h.t4_abbbabbb_anti5 h.t4_abbbabbb_anti6
  by_cases h52 : t = 52
  · subst h52; exact holds8TTTFTTTF s.t4_bbbbbbbb h.t4_bbbbbbbb_anti0 h.t4_bbbbbbbb_anti1 h.t4_bbbbbbbb_anti2 h.t4_bbbbbbbb_anti4 h.t4_bbbbbbbb_anti5 h.t4_bbbbbbbb_anti6
  by_cases h56 : t = 56
  · subst h56; exact holds2FF s.l1_aa 
  by_cases h57 : t = 57
  · subst h57; exact holds2FF s.l1_bb 
  by_cases h64 : t = 64
  · subst h64; exact holds4TFTF s.l2_aaaa h.l2_aaaa_anti0 h.l2_aaaa_anti2
  by_cases h65 : t = 65
  · subst h65; exact holds4FFFF s.l2_abab 
  by_cases h66 : t = 66
  · subst h66; exact holds4TFTF s.l2_bbbb h.l2_bbbb_anti0 h.l2_bbbb_anti2
  by_cases h72 : t = 72
  · subst h72; exact holds6TTFTTF s.l3_aaaaaa h.l3_aaaaaa_anti0 h.l3_aaaaaa_anti1 h.l3_aaaaaa_anti3 h.l3_aaaaaa_anti4
  by_cases h73 : t = 73
  · subst h73; exact holds6TFFTFF s.l3_aabaab h.l3_aabaab_anti0 h.l3_aabaab_anti3
  by_cases h74 : t = 74
  · subst h74; exact holds6FTFFTF s.l3_abbabb h.l3_abbabb_anti1 h.l3_abbabb_anti4
  by_cases h75 : t = 75
  · subst h75; exact holds6TTFTTF s.l3_bbbbbb h.l3_bbbbbb_anti0 h.l3_bbbbbb_anti1 h.l3_bbbbbb_anti3 h.l3_bbbbbb_anti4
  by_cases h8 : t = 8
  · subst h8; exact holds2h s.f_aa h.f_aa_herm
  by_cases h9 : t = 9
  · subst h9; exact holds2h s.f_bb h.f_bb_herm
  by_cases h16 : t = 16
  · subst h16; exact holds4TFTFh s.g_aaaa h.g_aaaa_anti0 h.g_aaaa_anti2 h.g_aaaa_herm
  by_cases h17 : t = 17
  · subst h17; exact holds4FFFFh s.g_abab h.g_abab_herm
  by_cases h18 : t = 18
  · subst h18; exact holds4TFTFh s.g_bbbb h.g_bbbb_anti0 h.g_bbbb_anti2 h.g_bbbb_herm
  have e : s.T t = fun _ => 0 := by
    unfold SI.T
    rw [if_neg h24, if_neg h25, if_neg h32, if_neg h33, if_neg h34, if_neg h40, if_neg h41, if_neg h42, if_neg h43, if_neg h48, if_neg h49, if_neg h50, if_neg h51, if_neg h52, if_neg h56, if_neg h57, if_neg h64, if_neg h65, if_neg h66, if_neg h72, if_neg h73, if_neg h74, if_neg h75, if_neg h8, if_neg h9, if_neg h16, if_neg h17, if_neg h18]
  rw [e]
  exact holds_zero _

end Verif.Ein
