import Verif.Lemmas.Contract
import Mathlib.Tactic.FieldSimp
import Mathlib.Tactic.Positivity
import Mathlib.Tactic.Abel

/-!
# Weak coupling with corrections of higher degree
-/

namespace Verif.Weak

variable {ι : Type} [Fintype ι]

/-- Bounds for finitely many homogeneous functions on small balls. -/
theorem Tame.homogeneous {J : Type} [Finite J] (F : J → (ι → ℝ) → ℝ) (hF : ∀ j, Tame (F j)) (k : Nat)
    (hom : ∀ j (r : ℝ) v, F j (r • v) = r ^ (k + 1) * F j v) :
    ∃ C, 0 ≤ C ∧ ∀ j (r : ℝ) v w, 0 ≤ r → ‖v‖ ≤ r → ‖w‖ ≤ r → |F j v| ≤ C * r ^ (k + 1) ∧ |F j v - F j w| ≤ C * r ^ k * ‖v - w‖ := by
  obtain ⟨C, h0, h⟩ := Tame.uniform F hF
  refine ⟨C, h0, fun j r v w hr hv hw => ?_⟩
  rcases hr.eq_or_lt with rfl | hr
  · have ev := norm_le_zero_iff.1 hv
    have ew := norm_le_zero_iff.1 hw
    have z : F j 0 = 0 := by
      have := hom j 0 0
      rwa [zero_smul, zero_pow (Nat.succ_ne_zero k), zero_mul] at this
    rw [ev, ew, z]
    simp
  · have e : ∀ u : ι → ℝ, F j u = r ^ (k + 1) * F j (r⁻¹ • u) := fun u => by rw [← hom, smul_inv_smul₀ hr.ne']
    have n : ∀ u : ι → ℝ, ‖u‖ ≤ r → ‖r⁻¹ • u‖ ≤ 1 := fun u hu => by
      rw [norm_smul, norm_inv, Real.norm_of_nonneg hr.le, inv_mul_le_one₀ hr]
      exact hu
    obtain ⟨a, b⟩ := h j _ _ (n v hv) (n w hw)
    have p : (0 : ℝ) ≤ r ^ (k + 1) := by positivity
    refine ⟨?_, ?_⟩
    · rw [e v, abs_mul, abs_of_nonneg p, mul_comm]
      exact mul_le_mul_of_nonneg_right a p
    · rw [e v, e w, ← mul_sub, abs_mul, abs_of_nonneg p]
      refine (mul_le_mul_of_nonneg_left b p).trans (le_of_eq ?_)
      rw [← smul_sub, norm_smul, norm_inv, Real.norm_of_nonneg hr.le, pow_succ]
      field_simp

set_option maxHeartbeats 1000000 in
/-- Three equations whose terms differ by homogeneous corrections of degree three and four: how solutions and energies differ. `L` is the
energy, `P` the contraction of a vector with the first correction. -/
theorem corrections (Q R S : (ι → ℝ) → ι → ℝ) (hQ : ∀ s, Tame fun v => Q v s) (hR : ∀ s, Tame fun v => R v s) (hS : ∀ s, Tame fun v => S v s)
    (hR3 : ∀ (r : ℝ) v, R (r • v) = r ^ 3 • R v) (hS4 : ∀ (r : ℝ) v, S (r • v) = r ^ 4 • S v)
    (L P : (ι → ℝ) → ℝ) (hL : Tame L) (hL1 : ∀ (r : ℝ) v, L (r • v) = r * L v) (hLa : ∀ v w, L (v + w) = L v + L w)
    (hP : Tame P) (hP4 : ∀ (r : ℝ) v, P (r • v) = r ^ 4 * P v) (V : Set (ι → ℝ))
    (hdot : ∃ C, 0 ≤ C ∧ ∀ c : ℝ, ∀ r : ℝ, 0 ≤ r → ∀ v ∈ V, ‖v‖ ≤ r → |P v - c * L (R v)| ≤ C * r ^ 3 * ‖v - c • Q 0‖) :
    ∃ C, 0 < C ∧ ∀ c : ℝ, |c| * C ≤ 1 → ∀ x y z, x ∈ V → ‖x‖ ≤ 1 → ‖y‖ ≤ 1 → ‖z‖ ≤ 1 → c • Q x = x →
      c • (Q y + (1 / 2 : ℝ) • R y) = y → c • (Q z + (1 / 2 : ℝ) • R z + (1 / 6 : ℝ) • S z) = z →
      |P x - c ^ 4 * P (Q 0)| ≤ C * |c| ^ 5 ∧ |L y - L x - 1 / 2 * P x| ≤ C * |c| ^ 5 ∧ |L z - L y| ≤ C * |c| ^ 5 := by
  obtain ⟨q, q0, hq⟩ := Tame.uniform (fun s v => Q v s) hQ
  obtain ⟨a, a0, ha⟩ := Tame.homogeneous (fun s v => R v s) hR 2 fun s r v => congrFun (hR3 r v) s
  obtain ⟨b, b0, hb⟩ := Tame.homogeneous (fun s v => S v s) hS 3 fun s r v => congrFun (hS4 r v) s
  obtain ⟨l, l0, hl⟩ := Tame.homogeneous (fun _ : Unit => L) (fun _ => hL) 0 fun _ r v => by rw [hL1]; ring
  obtain ⟨p, p0, hp⟩ := Tame.homogeneous (fun _ : Unit => P) (fun _ => hP) 3 fun _ r v => hP4 r v
  obtain ⟨d, d0, hd⟩ := hdot
  have nQ : ∀ v, ‖v‖ ≤ 1 → ‖Q v‖ ≤ q := fun v hv => (pi_norm_le_iff_of_nonneg q0).2 fun s => (hq s v v hv hv).1
  have lQ : ∀ v w, ‖v‖ ≤ 1 → ‖w‖ ≤ 1 → ‖Q v - Q w‖ ≤ q * ‖v - w‖ := fun v w hv hw =>
    (pi_norm_le_iff_of_nonneg (by positivity)).2 fun s => (hq s v w hv hw).2
  have nR : ∀ r v, 0 ≤ r → ‖v‖ ≤ r → ‖R v‖ ≤ a * r ^ 3 := fun r v hr hv => (pi_norm_le_iff_of_nonneg (by positivity)).2 fun s => (ha s r v v hr hv hv).1
  have lR : ∀ r v w, 0 ≤ r → ‖v‖ ≤ r → ‖w‖ ≤ r → ‖R v - R w‖ ≤ a * r ^ 2 * ‖v - w‖ := fun r v w hr hv hw =>
    (pi_norm_le_iff_of_nonneg (by positivity)).2 fun s => (ha s r v w hr hv hw).2
  have nS : ∀ r v, 0 ≤ r → ‖v‖ ≤ r → ‖S v‖ ≤ b * r ^ 4 := fun r v hr hv => (pi_norm_le_iff_of_nonneg (by positivity)).2 fun s => (hb s r v v hr hv hv).1
  have nL : ∀ v, |L v| ≤ l * ‖v‖ := fun v => by simpa using (hl () ‖v‖ v v (norm_nonneg v) le_rfl le_rfl).1
  have Lsub : ∀ v w, L v - L w = L (v - w) := fun v w => by
    have h := hLa (v - w) w
    rw [sub_add_cancel] at h
    rw [h]; ring
  obtain ⟨M, hM⟩ : ∃ M, M = q + a + b + 1 := ⟨_, rfl⟩
  have hM1 : 1 ≤ M := by linarith only [q0, a0, b0, hM]
  have hM0 : 0 ≤ M := by linarith only [hM1]
  obtain ⟨W, hW⟩ : ∃ W, W = 4 * M + p * M ^ 5 + d * M ^ 5 + l * q * a * M ^ 3 + l * a ^ 2 * M ^ 5 + l * b * M ^ 4 + l * a * b * M ^ 6 := ⟨_, rfl⟩
  refine ⟨W, by rw [hW]; positivity, fun c hc x y z hxV hx hy hz ex ey ez => ?_⟩
  have c0 := abs_nonneg c
  have hcM : |c| * M ≤ 1 / 4 := by
    have : 4 * M ≤ W := by have : 0 ≤ p * M ^ 5 + d * M ^ 5 + l * q * a * M ^ 3 + l * a ^ 2 * M ^ 5 + l * b * M ^ 4 + l * a * b * M ^ 6 := by positivity
                           linarith only [this, hW]
    have h := (mul_le_mul_of_nonneg_left this c0).trans hc
    rw [show |c| * (4 * M) = 4 * (|c| * M) by ring] at h
    linarith only [h]
  have hcM0 : 0 ≤ |c| * M := by positivity
  have small : ∀ v : ι → ℝ, ‖v‖ ≤ M → ‖c • v‖ ≤ |c| * M := fun v hv => by
    rw [norm_smul, Real.norm_eq_abs]
    exact mul_le_mul_of_nonneg_left hv c0
  have hx' : ‖x‖ ≤ |c| * M := by
    rw [← ex]
    exact small _ ((nQ x hx).trans (by linarith only [q0, a0, b0, hM]))
  have hy' : ‖y‖ ≤ |c| * M := by
    rw [← ey]
    refine small _ ((norm_add_le _ _).trans ?_)
    have h1 := nQ y hy
    have h2 := nR 1 y zero_le_one hy
    rw [norm_smul, Real.norm_of_nonneg (by norm_num)]
    linarith only [h1, h2, q0, a0, b0, hM]
  have hz' : ‖z‖ ≤ |c| * M := by
    rw [← ez]
    refine small _ ((norm_add_le _ _).trans ((add_le_add_left (norm_add_le _ _) _).trans ?_))
    have h1 := nQ z hz
    have h2 := nR 1 z zero_le_one hz
    have h3 := nS 1 z zero_le_one hz
    rw [norm_smul, norm_smul, Real.norm_of_nonneg (by norm_num), Real.norm_of_nonneg (by norm_num)]
    linarith only [h1, h2, h3, q0, a0, b0, hM]
  have hQ0 : ‖c • Q 0‖ ≤ |c| * M := small _ ((nQ 0 (by simp)).trans (by linarith only [q0, a0, b0, hM]))
  have hxQ : ‖x - c • Q 0‖ ≤ |c| ^ 2 * M ^ 2 := by
    have e : x - c • Q 0 = c • (Q x - Q 0) := by rw [smul_sub, ex]
    rw [e, norm_smul, Real.norm_eq_abs]
    have h1 := lQ x 0 hx (by simp)
    rw [sub_zero] at h1
    have h2 : q * ‖x‖ ≤ M * (|c| * M) := mul_le_mul (by linarith only [q0, a0, b0, hM]) hx' (norm_nonneg _) hM0
    calc |c| * ‖Q x - Q 0‖ ≤ |c| * (M * (|c| * M)) := mul_le_mul_of_nonneg_left (h1.trans h2) c0
      _ = _ := by ring
  have hyx : ‖y - x‖ ≤ |c| ^ 4 * (a * M ^ 3) := by
    have e : y - x = c • (Q y - Q x) + (c * (1 / 2)) • R y := by
      conv_lhs => rw [← ey, ← ex]
      rw [smul_add, smul_sub, smul_smul]; abel
    have h1 := lQ y x hy hx
    have h2 := nR _ y hcM0 hy'
    have h3 : ‖y - x‖ ≤ |c| * (q * ‖y - x‖) + |c| * (1 / 2) * (a * (|c| * M) ^ 3) := by
      conv_lhs => rw [e]
      refine (norm_add_le _ _).trans ?_
      rw [norm_smul, norm_smul, Real.norm_eq_abs, Real.norm_eq_abs, abs_mul, abs_of_nonneg (by norm_num : (0 : ℝ) ≤ 1 / 2)]
      exact add_le_add (mul_le_mul_of_nonneg_left h1 c0) (mul_le_mul_of_nonneg_left h2 (by positivity))
    have h4 : |c| * q ≤ 1 / 4 := (mul_le_mul_of_nonneg_left (by linarith only [q0, a0, b0, hM]) c0).trans hcM
    have h5 := mul_le_mul_of_nonneg_right h4 (norm_nonneg (y - x))
    have h6 : |c| * (1 / 2) * (a * (|c| * M) ^ 3) = 1 / 2 * (|c| ^ 4 * (a * M ^ 3)) := by ring
    have h7 : 0 ≤ |c| ^ 4 * (a * M ^ 3) := by positivity
    rw [h6] at h3
    linarith only [h3, h5, h7]
  have hzy : ‖z - y‖ ≤ |c| ^ 5 * (b * M ^ 4) := by
    have e : z - y = c • (Q z - Q y) + (c * (1 / 2)) • (R z - R y) + (c * (1 / 6)) • S z := by
      conv_lhs => rw [← ez, ← ey]
      rw [smul_add, smul_add, smul_add, smul_sub, smul_sub, smul_smul, smul_smul, smul_smul]; abel
    have h1 := lQ z y hz hy
    have h2 := lR 1 z y zero_le_one hz hy
    have h3 := nS _ z hcM0 hz'
    have h4 : ‖z - y‖ ≤ |c| * (q * ‖z - y‖) + |c| * (1 / 2) * (a * 1 ^ 2 * ‖z - y‖) + |c| * (1 / 6) * (b * (|c| * M) ^ 4) := by
      conv_lhs => rw [e]
      refine (norm_add_le _ _).trans (add_le_add ((norm_add_le _ _).trans (add_le_add ?_ ?_)) ?_)
      · rw [norm_smul, Real.norm_eq_abs]
        exact mul_le_mul_of_nonneg_left h1 c0
      · rw [norm_smul, Real.norm_eq_abs, abs_mul, abs_of_nonneg (by norm_num : (0 : ℝ) ≤ 1 / 2)]
        exact mul_le_mul_of_nonneg_left h2 (by positivity)
      · rw [norm_smul, Real.norm_eq_abs, abs_mul, abs_of_nonneg (by norm_num : (0 : ℝ) ≤ 1 / 6)]
        exact mul_le_mul_of_nonneg_left h3 (by positivity)
    have h5 : |c| * q ≤ 1 / 4 := (mul_le_mul_of_nonneg_left (by linarith only [q0, a0, b0, hM]) c0).trans hcM
    have h6 : |c| * a ≤ 1 / 4 := (mul_le_mul_of_nonneg_left (by linarith only [q0, a0, b0, hM]) c0).trans hcM
    have h7 := mul_le_mul_of_nonneg_right h5 (norm_nonneg (z - y))
    have h8 := mul_le_mul_of_nonneg_right h6 (norm_nonneg (z - y))
    have h9 : |c| * (1 / 6) * (b * (|c| * M) ^ 4) = 1 / 6 * (|c| ^ 5 * (b * M ^ 4)) := by ring
    have h10 : 0 ≤ |c| ^ 5 * (b * M ^ 4) := by positivity
    rw [h9] at h4
    linarith only [h4, h7, h8, h10]
  have pos5 : 0 ≤ |c| ^ 5 := by positivity
  have part : ∀ t, 0 ≤ W - t → t * |c| ^ 5 ≤ W * |c| ^ 5 := fun t ht => mul_le_mul_of_nonneg_right (by linarith only [ht]) pos5
  refine ⟨?_, ?_, ?_⟩
  · have h := (hp () _ x (c • Q 0) hcM0 hx' hQ0).2
    rw [hP4] at h
    refine h.trans (le_trans ?_ (part (p * M ^ 5) ?_))
    · calc p * (|c| * M) ^ 3 * ‖x - c • Q 0‖ ≤ p * (|c| * M) ^ 3 * (|c| ^ 2 * M ^ 2) := mul_le_mul_of_nonneg_left hxQ (by positivity)
        _ = _ := by ring
    · have : 0 ≤ 4 * M + d * M ^ 5 + l * q * a * M ^ 3 + l * a ^ 2 * M ^ 5 + l * b * M ^ 4 + l * a * b * M ^ 6 := by positivity
      linarith only [this, hW]
  · have e : L y - L x - 1 / 2 * P x = c * L (Q y - Q x) + c * (1 / 2) * L (R y - R x) - 1 / 2 * (P x - c * L (R x)) := by
      have h : y - x = c • (Q y - Q x) + (c * (1 / 2)) • (R y - R x) + (c * (1 / 2)) • R x := by
        conv_lhs => rw [← ey, ← ex]
        rw [smul_add, smul_sub, smul_smul, smul_sub]; abel
      rw [Lsub y x, h, hLa, hLa, hL1, hL1, hL1]
      ring
    have h1 : |c * L (Q y - Q x)| ≤ l * q * a * M ^ 3 * |c| ^ 5 := by
      rw [abs_mul]
      have := (nL (Q y - Q x)).trans (mul_le_mul_of_nonneg_left ((lQ y x hy hx).trans (mul_le_mul_of_nonneg_left hyx q0)) l0)
      refine (mul_le_mul_of_nonneg_left this c0).trans (le_of_eq ?_)
      ring
    have h2 : |c * (1 / 2) * L (R y - R x)| ≤ l * a ^ 2 * M ^ 5 * |c| ^ 5 := by
      rw [abs_mul, abs_mul, abs_of_nonneg (by norm_num : (0 : ℝ) ≤ 1 / 2)]
      have := (nL (R y - R x)).trans (mul_le_mul_of_nonneg_left ((lR _ y x hcM0 hy' hx').trans (mul_le_mul_of_nonneg_left hyx (by positivity))) l0)
      refine (mul_le_mul_of_nonneg_left this (by positivity)).trans ?_
      have e : |c| * (1 / 2) * (l * (a * (|c| * M) ^ 2 * (|c| ^ 4 * (a * M ^ 3)))) = 1 / 2 * |c| ^ 2 * (l * a ^ 2 * M ^ 5 * |c| ^ 5) := by ring
      rw [e]
      have h : |c| ≤ 1 := (le_mul_of_one_le_right c0 hM1).trans (hcM.trans (by norm_num))
      have h' : 1 / 2 * |c| ^ 2 ≤ 1 := by linarith [pow_le_one₀ c0 h (n := 2)]
      exact (mul_le_mul_of_nonneg_right h' (by positivity)).trans (by rw [one_mul])
    have h3 : |1 / 2 * (P x - c * L (R x))| ≤ d * M ^ 5 * |c| ^ 5 := by
      rw [abs_mul, abs_of_nonneg (by norm_num : (0 : ℝ) ≤ 1 / 2)]
      have h := (hd c _ hcM0 x hxV hx').trans (mul_le_mul_of_nonneg_left hxQ (by positivity))
      have e : d * (|c| * M) ^ 3 * (|c| ^ 2 * M ^ 2) = d * M ^ 5 * |c| ^ 5 := by ring
      rw [e] at h
      have : 0 ≤ d * M ^ 5 * |c| ^ 5 := by positivity
      linarith only [h, this]
    rw [e]
    refine (abs_sub _ _).trans ((add_le_add_left (abs_add_le _ _) _).trans (le_trans ?_ (part (l * q * a * M ^ 3 + l * a ^ 2 * M ^ 5 + d * M ^ 5) ?_)))
    · linarith only [h1, h2, h3]
    · have : 0 ≤ 4 * M + p * M ^ 5 + l * b * M ^ 4 + l * a * b * M ^ 6 := by positivity
      linarith only [this, hW]
  · rw [Lsub]
    refine (nL _).trans ((mul_le_mul_of_nonneg_left hzy l0).trans (le_trans (le_of_eq ?_) (part (l * b * M ^ 4) ?_)))
    · ring
    · have : 0 ≤ 4 * M + p * M ^ 5 + d * M ^ 5 + l * q * a * M ^ 3 + l * a ^ 2 * M ^ 5 + l * a * b * M ^ 6 := by positivity
      linarith only [this, hW]

end Verif.Weak
