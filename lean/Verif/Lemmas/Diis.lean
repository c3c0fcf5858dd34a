import Verif.Model.Diis

/-! Helper lemmas for DIIS. -/

namespace Verif.Diis
open Matrix

variable {ι : Type} [Fintype ι]

theorem edot_comm (e f : ι → ℝ) : edot e f = edot f e := by
  simp [edot, mul_comm]

theorem edot_sum_right {n : ℕ} (e : ι → ℝ) (f : Fin n → ι → ℝ) (c : Fin n → ℝ) :
    edot e (∑ i, c i • f i) = ∑ i, c i * edot e (f i) := by
  simp only [edot, Finset.sum_apply, Pi.smul_apply, smul_eq_mul, Finset.mul_sum]
  rw [Finset.sum_comm]
  exact Finset.sum_congr rfl fun i _ => Finset.sum_congr rfl fun x _ => by ring

theorem edot_self_eq_zero {e : ι → ℝ} (h : edot e e = 0) : e = 0 := by
  funext x
  have := (Finset.sum_eq_zero_iff_of_nonneg (fun x _ => mul_self_nonneg (e x))).1 h x (Finset.mem_univ x)
  simpa using this

/-- Row `i` of the DIIS system. -/
theorem bmat_mulVec_inl {n : ℕ} (e : Fin n → ι → ℝ) (c : Fin n ⊕ Unit → ℝ) (i : Fin n) :
    (bmat e *ᵥ c) (Sum.inl i) = edot (e i) (∑ j, c (Sum.inl j) • e j) - c (Sum.inr ()) := by
  rw [edot_sum_right]
  simp only [mulVec, dotProduct, Fintype.sum_sum_type, bmat, fromBlocks_apply₁₁, fromBlocks_apply₁₂,
    of_apply, Finset.univ_unique, Finset.sum_singleton]
  have : ∀ j, (if i ≤ j then edot (e i) (e j) else edot (e j) (e i)) = edot (e i) (e j) := by
    intro j; split
    · rfl
    · exact edot_comm _ _
  simp only [this]
  have h : (default : Unit) = () := rfl
  rw [h]
  have : ∑ x, edot (e i) (e x) * c (Sum.inl x) = ∑ j, c (Sum.inl j) * edot (e i) (e j) :=
    Finset.sum_congr rfl fun x _ => mul_comm _ _
  rw [this]; ring

/-- The last row of the DIIS system. -/
theorem bmat_mulVec_inr {n : ℕ} (e : Fin n → ι → ℝ) (c : Fin n ⊕ Unit → ℝ) :
    (bmat e *ᵥ c) (Sum.inr ()) = - ∑ j, c (Sum.inl j) := by
  simp [mulVec, dotProduct, Fintype.sum_sum_type, bmat]

theorem solve_spec {n : ℕ} {e : Fin n → ι → ℝ} {c : Fin n ⊕ Unit → ℝ} (h : solve e = some c) :
    bmat e *ᵥ c = rhs n := by
  simp only [solve] at h
  split at h
  · rename_i hu
    simp only [Option.some.injEq] at h
    rw [← h, mulVec_mulVec, mul_nonsing_inv _ hu, one_mulVec]
  · cases h

theorem solve_sum {n : ℕ} {e : Fin n → ι → ℝ} {c : Fin n ⊕ Unit → ℝ} (h : solve e = some c) :
    ∑ i, c (Sum.inl i) = 1 := by
  have := congrFun (solve_spec h) (Sum.inr ())
  rw [bmat_mulVec_inr] at this
  simp [rhs] at this
  exact this

theorem solve_row {n : ℕ} {e : Fin n → ι → ℝ} {c : Fin n ⊕ Unit → ℝ} (h : solve e = some c) (i : Fin n) :
    edot (e i) (∑ j, c (Sum.inl j) • e j) = c (Sum.inr ()) := by
  have := congrFun (solve_spec h) (Sum.inl i)
  rw [bmat_mulVec_inl] at this
  simp [rhs] at this
  linarith

theorem solve_isSome_iff {n : ℕ} (e : Fin n → ι → ℝ) :
    (solve e).isSome ↔ 0 < n ∧ AffineIndependent ℝ e := by
  have h1 : (solve e).isSome ↔ (bmat e).det ≠ 0 := by
    simp only [solve]; split
    · rename_i h; simpa using h.ne_zero
    · rename_i h; simpa using h
  rw [h1, ← not_iff_not, not_not, ← exists_mulVec_eq_zero_iff]
  constructor
  · rintro ⟨v, hv, h⟩ ⟨hn, ha⟩
    apply hv
    have hs : ∑ j, v (Sum.inl j) = 0 := by
      have := congrFun h (Sum.inr ()); rw [bmat_mulVec_inr] at this; simpa using this
    have hrow : ∀ i, edot (e i) (∑ j, v (Sum.inl j) • e j) = v (Sum.inr ()) := by
      intro i
      have := congrFun h (Sum.inl i); rw [bmat_mulVec_inl] at this
      simp at this; linarith
    have hr : edot (∑ j, v (Sum.inl j) • e j) (∑ j, v (Sum.inl j) • e j) = 0 := by
      rw [edot_sum_right]
      simp only [edot_comm _ (e _), hrow]
      rw [← Finset.sum_mul, hs, zero_mul]
    have hr0 := edot_self_eq_zero hr
    have hl : v (Sum.inr ()) = 0 := by
      rw [← hrow ⟨0, hn⟩, hr0]; simp [edot]
    have hc := (affineIndependent_iff).1 ha Finset.univ (fun i => v (Sum.inl i)) hs hr0
    funext x
    rcases x with i | u
    · exact hc i (Finset.mem_univ i)
    · exact hl
  · intro h
    by_cases hn : 0 < n
    · have ha : ¬ AffineIndependent ℝ e := fun ha => h ⟨hn, ha⟩
      rw [affineIndependent_iff] at ha
      push Not at ha
      obtain ⟨s, w, hw, hz, i, hi, hwi⟩ := ha
      refine ⟨Sum.elim (fun i => if i ∈ s then w i else 0) (fun _ => 0), ?_, ?_⟩
      · intro h0; have := congrFun h0 (Sum.inl i); simp [hi, hwi] at this
      · have hz' : ∑ j, (if j ∈ s then w j else 0) • e j = 0 := by
          rw [← hz, ← Finset.sum_subset (Finset.subset_univ s)]
          · exact Finset.sum_congr rfl fun j hj => by simp [hj]
          · intro j _ hj; simp [hj]
        funext x
        rcases x with j | u
        · rw [bmat_mulVec_inl]; simp only [Sum.elim_inl, Sum.elim_inr, hz']; simp [edot]
        · rw [bmat_mulVec_inr]; simp only [Sum.elim_inl]; simp [hw]
    · have : n = 0 := by omega
      subst this
      refine ⟨Sum.elim (fun _ => 0) (fun _ => 1), ?_, ?_⟩
      · intro h0; have := congrFun h0 (Sum.inr ()); simp at this
      · funext x
        rcases x with j | u
        · exact j.elim0
        · rw [bmat_mulVec_inr]; simp

omit [Fintype ι] in
/-- the settings never change -/
theorem push_nvecs (s : State ι) (a b : ι → ℝ) :
    (s.push a b).nvecs = s.nvecs ∧ (s.push a b).startIter = s.startIter ∧
      (s.push a b).iterIdx = s.iterIdx + 1 := by
  unfold State.push; split
  · simp
  · simp only; split <;> simp

end Verif.Diis
