import Verif.Ein.Rotate
import Verif.Ein.Spin

/-!
# Rotations of the spin

A rotation of the spin axis mixes the two spin orbitals of every spatial orbital in the same way. Arrays that do not
change under such rotations are spin adapted.
-/

namespace Verif.Ein

open Verif.Wick (InBox boxSum boxSum_congr boxSum_zero)

variable {I K : Type} [Field K]

/-- The rotation of the spin by an angle with cosine `c` and sine `s`. -/
def spinMat (c s : K) : Bool → Bool → K
  | false, false => c
  | false, true => s
  | true, false => -s
  | true, true => c

variable [DecidableEq I]

/-- The same rotation of all spin orbitals. -/
def spinRot (c s : K) (x y : I × Bool) : K := if x.1 = y.1 then spinMat c s x.2 y.2 else 0

/-- All axes rotated, the spatial orbitals kept. -/
def spinSum (c s : K) : List (I × Bool) → (List (I × Bool) → K) → K
  | [], X => X []
  | x :: l, X => ∑ τ : Bool, spinMat c s x.2 τ * spinSum c s l fun z => X ((x.1, τ) :: z)

variable (D : Nat → Finset I)

theorem sum_spinRot (c s : K) (x : I × Bool) (n : Nat) (hx : x ∈ spinD D n) (F : I × Bool → K) :
    ∑ z ∈ spinD D n, spinRot c s x z * F z = ∑ τ : Bool, spinMat c s x.2 τ * F (x.1, τ) := by
  have hx : x.1 ∈ D n := (Finset.mem_product.1 hx).1
  rw [show spinD D n = D n ×ˢ Finset.univ from rfl, Finset.sum_product]
  rw [Finset.sum_eq_single x.1]
  · refine Finset.sum_congr rfl fun τ _ => ?_
    simp [spinRot]
  · intro p _ hp
    refine Finset.sum_eq_zero fun τ _ => ?_
    simp [spinRot, Ne.symm hp]
  · intro h; exact absurd hx h

theorem spinRot_orthogonal (c s : K) (h : c * c + s * s = 1) : Orthogonal (spinD D) fun _ => spinRot c s := by
  intro _ n _ q hq r _
  have e : ∀ p, spinRot c s p q * spinRot c s p r = spinRot (K := K) c (-s) q p * (if p.1 = r.1 then spinMat c s p.2 r.2 else 0) := by
    intro p
    obtain ⟨p, σ⟩ := p
    obtain ⟨q, τ⟩ := q
    unfold spinRot
    by_cases hpq : p = q
    · subst hpq
      cases σ <;> cases τ <;> simp [spinMat]
    · simp [hpq, Ne.symm hpq]
  rw [Finset.sum_congr rfl fun p _ => e p, sum_spinRot D c (-s) q n hq]
  obtain ⟨q, τ⟩ := q
  obtain ⟨r, ρ⟩ := r
  by_cases hqr : q = r
  · subst hqr
    cases τ <;> cases ρ <;> simp [spinMat] <;> first | ring1 | linear_combination h
  · simp [hqr]

theorem boxSum_spinRot (c s : K) (l : List (I × Bool)) : ∀ (ss cs : List Nat), cs.length = ss.length → InBox (spinD D) ss l →
    ∀ X : List (I × Bool) → K, boxSum (spinD D) ss (fun z => wt (fun _ => spinRot c s) cs l z * X z) = spinSum c s l X := by
  induction l with
  | nil =>
    intro ss cs hl hb X
    cases hb
    rw [List.length_eq_zero_iff.1 hl]
    simp [boxSum, wt, spinSum]
  | cons x l ih =>
    intro ss cs hl hb X
    cases hb with
    | cons hx hb =>
      rename_i n ss
      cases cs with
      | nil => simp at hl
      | cons k cs =>
        simp only [boxSum, wt, spinSum]
        rw [← sum_spinRot D c s x n hx fun y => spinSum c s l fun z => X (y :: z)]
        refine Finset.sum_congr rfl fun z _ => ?_
        rw [← ih ss cs (by simpa using hl) hb, ← boxSum_mul]
        refine boxSum_congr _ _ _ _ fun y _ => ?_
        ring

/-- Arrays unchanged by rotations of the spin. -/
theorem rot_of_spinSum (c s : K) (col : Nat → List Nat) (T : Nat → List (I × Bool) → K)
    (h : ∀ t ss l, ss.length = (col t).length → (∀ n ∈ ss, n < 2) → InBox (spinD D) ss l → T t l = spinSum c s l (T t)) :
    Rot (spinD D) (fun _ => spinRot c s) col T T := by
  intro t ss l hs h2 hb
  rw [boxSum_spinRot D c s l ss (col t) hs.symm hb]
  exact h t ss l hs h2 hb

/-- The result of a program on arrays unchanged by rotations of the spin is unchanged. -/
theorem Prog.eval_spinRot [Inhabited I] (hD : Disjoint (D 0) (D 1)) (c s : K) (hcs : c * c + s * s = 1) (col : Nat → List Nat)
    (T : Nat → List (I × Bool) → K)
    (h : ∀ t ss l, ss.length = (col t).length → (∀ n ∈ ss, n < 2) → InBox (spinD D) ss l → T t l = spinSum c s l (T t))
    (t : Nat) (ss cs : List Nat) (P : Prog) (hP : P.rotOk col t ss cs = true) (xs : List (I × Bool)) (hx : InBox (spinD D) ss xs) :
    P.eval (spinD D) T xs = spinSum c s xs fun z => P.eval (spinD D) T z := by
  have hD' : Disjoint (spinD D 0) (spinD D 1) := Finset.disjoint_product.2 (Or.inl hD)
  have hl : cs.length = ss.length := by
    simp only [Prog.rotOk, Bool.and_eq_true, beq_iff_eq] at hP
    exact hP.2.symm
  rw [Prog.eval_rot_out (spinD D) hD' _ (spinRot_orthogonal D c s hcs) col T T (rot_of_spinSum D c s col T h) t ss cs P hP xs hx]
  exact boxSum_spinRot D c s xs ss cs hl hx _

/-- The entries of a spin-adapted array with four axes: Coulomb-like part `v`, exchange-like part `w`. -/
def adapted (v w : K) (a b c d : Bool) : K := (if a = c ∧ b = d then v else 0) - if a = d ∧ b = c then w else 0

omit [DecidableEq I] in
theorem adapted_invariant (c s : K) (h : c * c + s * s = 1) (v w : K) (σ τ σ' τ' : Bool) :
    adapted v w σ τ σ' τ' = ∑ a : Bool, spinMat c s σ a * ∑ b : Bool, spinMat c s τ b * ∑ a' : Bool, spinMat c s σ' a' *
      ∑ b' : Bool, spinMat c s τ' b' * adapted v w a b a' b' := by
  simp only [Fintype.sum_bool, adapted]
  cases σ <;> cases τ <;> cases σ' <;> cases τ' <;> simp [spinMat] <;>
    first
    | ring1
    | linear_combination (-(c * c + s * s + 1) * (v - w)) * h
    | linear_combination (-(c * c + s * s + 1) * v) * h
    | linear_combination ((c * c + s * s + 1) * w) * h

end Verif.Ein
