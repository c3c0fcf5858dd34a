import Mathlib.Topology.MetricSpace.Contracting
import Mathlib.Analysis.Normed.Group.Constructions
import Mathlib.Analysis.Normed.Module.Basic
import Mathlib.Topology.Algebra.Module.FiniteDimension
import Mathlib.Analysis.SpecificLimits.Basic
import Mathlib.Tactic.Linarith
import Mathlib.Tactic.Ring

/-!
# Weak coupling

Functions on vectors that are bounded and Lipschitz on the unit ball, and the fixed point of such a map after multiplication by a
small number.
-/

namespace Verif.Weak

variable {ι : Type} [Fintype ι]

/-- Bounded and Lipschitz on the unit ball (largest entry at most 1). -/
def Tame (F : (ι → ℝ) → ℝ) : Prop :=
  ∃ C, 0 ≤ C ∧ ∀ v w, ‖v‖ ≤ 1 → ‖w‖ ≤ 1 → |F v| ≤ C ∧ |F v - F w| ≤ C * ‖v - w‖

theorem Tame.const (c : ℝ) : Tame (ι := ι) fun _ => c :=
  ⟨|c|, abs_nonneg c, fun v w _ _ => ⟨le_refl _, by rw [sub_self, abs_zero]; exact mul_nonneg (abs_nonneg c) (norm_nonneg _)⟩⟩

theorem Tame.coord (s : ι) : Tame fun v : ι → ℝ => v s :=
  ⟨1, zero_le_one, fun v w hv _ => ⟨(norm_le_pi_norm v s).trans hv, by rw [one_mul]; exact norm_le_pi_norm (v - w) s⟩⟩

theorem Tame.add {F G : (ι → ℝ) → ℝ} (hF : Tame F) (hG : Tame G) : Tame fun v => F v + G v := by
  obtain ⟨C, h0, h⟩ := hF
  obtain ⟨C', h0', h'⟩ := hG
  refine ⟨C + C', add_nonneg h0 h0', fun v w hv hw => ⟨(abs_add_le _ _).trans (add_le_add (h v w hv hw).1 (h' v w hv hw).1), ?_⟩⟩
  rw [add_sub_add_comm, add_mul]
  exact (abs_add_le _ _).trans (add_le_add (h v w hv hw).2 (h' v w hv hw).2)

theorem Tame.mul {F G : (ι → ℝ) → ℝ} (hF : Tame F) (hG : Tame G) : Tame fun v => F v * G v := by
  obtain ⟨C, h0, h⟩ := hF
  obtain ⟨C', h0', h'⟩ := hG
  refine ⟨C * C' + C * C', by positivity, fun v w hv hw => ⟨?_, ?_⟩⟩
  · rw [abs_mul]
    have := mul_le_mul (h v w hv hw).1 (h' v w hv hw).1 (abs_nonneg _) h0
    linarith [mul_nonneg h0 h0']
  · have e : F v * G v - F w * G w = F v * (G v - G w) + (F v - F w) * G w := by ring
    rw [e]
    refine (abs_add_le _ _).trans ?_
    rw [abs_mul, abs_mul]
    have a := mul_le_mul (h v w hv hw).1 (h' v w hv hw).2 (abs_nonneg _) h0
    have b := mul_le_mul (h v w hv hw).2 (h' w w hw hw).1 (abs_nonneg _) (mul_nonneg h0 (norm_nonneg _))
    calc |F v| * |G v - G w| + |F v - F w| * |G w| ≤ C * (C' * ‖v - w‖) + C * ‖v - w‖ * C' := add_le_add a b
      _ = (C * C' + C * C') * ‖v - w‖ := by ring

theorem Tame.smul {F : (ι → ℝ) → ℝ} (hF : Tame F) (c : ℝ) : Tame fun v => c * F v := (Tame.const c).mul hF

theorem Tame.finsum {J : Type} (S : Finset J) {F : J → (ι → ℝ) → ℝ} (hF : ∀ j ∈ S, Tame (F j)) : Tame fun v => ∑ j ∈ S, F j v := by
  classical
  induction S using Finset.induction_on with
  | empty => simpa using Tame.const (ι := ι) 0
  | insert j S hj ih =>
    simp only [Finset.sum_insert hj]
    exact (hF j (Finset.mem_insert_self j S)).add (ih fun k hk => hF k (Finset.mem_insert_of_mem hk))

theorem Tame.listsum {J : Type} (l : List J) {F : J → (ι → ℝ) → ℝ} (hF : ∀ j ∈ l, Tame (F j)) : Tame fun v => (l.map fun j => F j v).sum := by
  induction l with
  | nil => simpa using Tame.const (ι := ι) 0
  | cons j l ih =>
    simp only [List.map_cons, List.sum_cons]
    exact (hF j List.mem_cons_self).add (ih fun k hk => hF k (List.mem_cons_of_mem _ hk))

/-- One constant for finitely many functions. -/
theorem Tame.uniform {J : Type} [Finite J] (F : J → (ι → ℝ) → ℝ) (hF : ∀ j, Tame (F j)) :
    ∃ C, 0 ≤ C ∧ ∀ j v w, ‖v‖ ≤ 1 → ‖w‖ ≤ 1 → |F j v| ≤ C ∧ |F j v - F j w| ≤ C * ‖v - w‖ := by
  have := Fintype.ofFinite J
  choose C h0 h using hF
  refine ⟨∑ j, C j, Finset.sum_nonneg fun j _ => h0 j, fun j v w hv hw => ?_⟩
  have le : C j ≤ ∑ j, C j := Finset.single_le_sum (fun j _ => h0 j) (Finset.mem_univ j)
  exact ⟨(h j v w hv hw).1.trans le, (h j v w hv hw).2.trans (mul_le_mul_of_nonneg_right le (norm_nonneg _))⟩

/-- A tame map times a small number has exactly one fixed point in the unit ball; iteration from zero comes closer by a factor two
with every step, and agrees with the first step to second order. -/
theorem fixed_point (Q : (ι → ℝ) → ι → ℝ) (hQ : ∀ s, Tame fun v => Q v s) : ∃ C, 0 < C ∧ ∀ c : ℝ, |c| * C ≤ 1 →
    ∃ x : ι → ℝ, ‖x‖ ≤ 1 ∧ c • Q x = x ∧ (∀ y, ‖y‖ ≤ 1 → c • Q y = y → y = x) ∧
      (∀ n, ‖(fun v => c • Q v)^[n] 0‖ ≤ |c| * C) ∧
      (∀ n, ‖(fun v => c • Q v)^[n] 0 - x‖ ≤ |c| * C / 2 ^ n) ∧
      (∀ n, ‖(fun v => c • Q v)^[n + 1] 0 - c • Q 0‖ ≤ (|c| * C) ^ 2) ∧
      ∀ W : Submodule ℝ (ι → ℝ), (∀ v ∈ W, Q v ∈ W) → x ∈ W ∧ ∀ n, (fun v => c • Q v)^[n] 0 ∈ W := by
  obtain ⟨C, h0, h⟩ := Tame.uniform (fun s v => Q v s) hQ
  have hb : ∀ v, ‖v‖ ≤ 1 → ‖Q v‖ ≤ C := fun v hv => (pi_norm_le_iff_of_nonneg h0).2 fun s => (h s v v hv hv).1
  have hl : ∀ v w, ‖v‖ ≤ 1 → ‖w‖ ≤ 1 → ‖Q v - Q w‖ ≤ C * ‖v - w‖ := fun v w hv hw =>
    (pi_norm_le_iff_of_nonneg (mul_nonneg h0 (norm_nonneg _))).2 fun s => (h s v w hv hw).2
  refine ⟨2 * C + 1, by linarith, fun c hc => ?_⟩
  have hcC : |c| * C ≤ 1 / 2 := by nlinarith [abs_nonneg c]
  have hb' : ∀ v, ‖v‖ ≤ 1 → ‖c • Q v‖ ≤ |c| * C := fun v hv => by
    rw [norm_smul, Real.norm_eq_abs]
    exact mul_le_mul_of_nonneg_left (hb v hv) (abs_nonneg c)
  have hl' : ∀ v w, ‖v‖ ≤ 1 → ‖w‖ ≤ 1 → ‖c • Q v - c • Q w‖ ≤ |c| * C * ‖v - w‖ := fun v w hv hw => by
    rw [← smul_sub, norm_smul, Real.norm_eq_abs, mul_assoc]
    exact mul_le_mul_of_nonneg_left (hl v w hv hw) (abs_nonneg c)
  have hhalf : ∀ v w, ‖v‖ ≤ 1 → ‖w‖ ≤ 1 → ‖c • Q v - c • Q w‖ ≤ ‖v - w‖ / 2 := fun v w hv hw => by
    have := mul_le_mul_of_nonneg_right hcC (norm_nonneg (v - w))
    linarith [hl' v w hv hw]
  have hmaps : Set.MapsTo (fun v => c • Q v) (Metric.closedBall 0 1) (Metric.closedBall (0 : ι → ℝ) 1) := by
    intro v hv
    rw [mem_closedBall_zero_iff] at hv ⊢
    exact (hb' v hv).trans (by linarith)
  have hcon : ContractingWith (1 / 2) (hmaps.restrict (fun v => c • Q v) _ _) := by
    refine ⟨by norm_num, LipschitzWith.of_dist_le_mul fun v w => ?_⟩
    have hv := mem_closedBall_zero_iff.1 v.2
    have hw := mem_closedBall_zero_iff.1 w.2
    rw [Subtype.dist_eq, Subtype.dist_eq, dist_eq_norm, dist_eq_norm]
    have := hhalf v w hv hw
    simp only [Set.MapsTo.val_restrict_apply]
    push_cast
    linarith
  obtain ⟨x, hx, hfix, -, -⟩ := hcon.exists_fixedPoint' (Metric.isClosed_closedBall.isComplete) hmaps (x := 0) (by simp) (edist_ne_top _ _)
  have hx1 := mem_closedBall_zero_iff.1 hx
  have hfix : c • Q x = x := hfix
  have hit : ∀ n, ‖(fun v => c • Q v)^[n] 0‖ ≤ |c| * C := by
    intro n
    induction n with
    | zero => simpa using mul_nonneg (abs_nonneg c) h0
    | succ n ih =>
      rw [Function.iterate_succ_apply']
      exact hb' _ (ih.trans (by linarith))
  have hle : |c| * C ≤ |c| * (2 * C + 1) := mul_le_mul_of_nonneg_left (by linarith) (abs_nonneg c)
  have hit1 : ∀ n, ‖(fun v => c • Q v)^[n] 0‖ ≤ 1 := fun n => (hit n).trans (by linarith)
  have hconv : ∀ n, ‖(fun v => c • Q v)^[n] 0 - x‖ ≤ |c| * (2 * C + 1) / 2 ^ n := by
    intro n
    induction n with
    | zero =>
      have := hb' x hx1
      rw [hfix] at this
      simpa using this.trans hle
    | succ n ih =>
      rw [Function.iterate_succ_apply']
      have := hhalf _ x (hit1 n) hx1
      rw [hfix] at this
      refine this.trans ?_
      rw [pow_succ, ← div_div]
      linarith
  refine ⟨x, hx1, hfix, fun y hy hyf => ?_, fun n => (hit n).trans hle, hconv, fun n => ?_, fun W hW => ?_⟩
  · have := hhalf y x hy hx1
    rw [hyf, hfix] at this
    have : ‖y - x‖ = 0 := le_antisymm (by linarith [norm_nonneg (y - x)]) (norm_nonneg _)
    exact sub_eq_zero.1 (norm_eq_zero.1 this)
  · rw [Function.iterate_succ_apply']
    have := hl' _ 0 (hit1 n) (by simp)
    rw [sub_zero] at this
    refine this.trans ?_
    rw [pow_two]
    exact mul_le_mul hle ((hit n).trans hle) (norm_nonneg _) (by positivity)
  · have hn : ∀ n, (fun v => c • Q v)^[n] 0 ∈ W := by
      intro n
      induction n with
      | zero => exact W.zero_mem
      | succ n ih => rw [Function.iterate_succ_apply']; exact W.smul_mem c (hW _ ih)
    refine ⟨W.closed_of_finiteDimensional.mem_of_tendsto (b := Filter.atTop) (f := fun n : ℕ => (fun v => c • Q v)^[n] 0) (tendsto_iff_norm_sub_tendsto_zero.2 ?_) (Filter.Eventually.of_forall hn), hn⟩
    refine squeeze_zero (fun n => norm_nonneg _) hconv ?_
    have := (tendsto_pow_atTop_nhds_zero_of_lt_one (r := (1 / 2 : ℝ)) (by norm_num) (by norm_num)).const_mul (|c| * (2 * C + 1))
    simpa [div_eq_mul_inv] using this

/-- One step of an iteration with interaction part `Q`, strength `c` and a remainder `δ` of the part without interaction. -/
def damped (Q : (ι → ℝ) → ι → ℝ) (δ : ι → ℝ) (c : ℝ) (v : ι → ℝ) : ι → ℝ := fun s => c * Q v s + δ s * v s

/-- The same with small diagonal remainders `δ`, and for every start in the unit ball. `|c| C` is the size of the solution; where
`δ` or `Q 0` vanishes the solution is `c Q 0` to second order, and where `δ` vanishes `c Q (c Q 0)` to third order. -/
theorem fixed_point_damped (Q : (ι → ℝ) → ι → ℝ) (hQ : ∀ s, Tame fun v => Q v s) (δ : ι → ℝ) (hδ : ∀ s, |δ s| ≤ 1 / 4)
    (hz : ∀ s, δ s = 0 ∨ Q 0 s = 0) : ∃ C, 1 ≤ C ∧ ∀ c : ℝ, |c| * C ≤ 1 →
    ∃ x : ι → ℝ, damped Q δ c x = x ∧ (∀ y, ‖y‖ ≤ 1 → damped Q δ c y = y → y = x) ∧
      (∀ v, ‖v‖ ≤ 1 → ‖damped Q δ c v‖ ≤ 1 ∧ ‖damped Q δ c v - x‖ ≤ ‖v - x‖ / 2) ∧
      (∀ v, v = x ∨ v = damped Q δ c 0 ∨ (∃ w, ‖w‖ ≤ |c| * C ∧ ‖w - c • Q 0‖ ≤ (|c| * C) ^ 2 ∧ v = damped Q δ c w) →
        ‖v‖ ≤ |c| * C ∧ ‖v - c • Q 0‖ ≤ (|c| * C) ^ 2) ∧
      (∀ w, ‖w‖ ≤ |c| * C → ‖w - c • Q 0‖ ≤ (|c| * C) ^ 2 → ∀ s, δ s = 0 → |damped Q δ c w s - c * Q (c • Q 0) s| ≤ (|c| * C) ^ 3) ∧
      ∀ W : Submodule ℝ (ι → ℝ), (∀ v ∈ W, damped Q δ c v ∈ W) → x ∈ W := by
  obtain ⟨C, h0, h⟩ := Tame.uniform (fun s v => Q v s) hQ
  refine ⟨4 * C + 1, by linarith, fun c hc => ?_⟩
  set r := |c| * (4 * C + 1) with hr
  have c0 := abs_nonneg c
  have hr0 : 0 ≤ r := by positivity
  have hcr : |c| * C ≤ r / 4 := by rw [hr]; nlinarith
  have hb : ∀ v, ‖v‖ ≤ 1 → ∀ s, |c * Q v s| ≤ r / 4 := fun v hv s => by
    rw [abs_mul]
    exact (mul_le_mul_of_nonneg_left (h s v v hv hv).1 c0).trans hcr
  have hl : ∀ v w, ‖v‖ ≤ 1 → ‖w‖ ≤ 1 → ∀ s, |c * Q v s - c * Q w s| ≤ r / 4 * ‖v - w‖ := fun v w hv hw s => by
    rw [← mul_sub, abs_mul]
    refine (mul_le_mul_of_nonneg_left (h s v w hv hw).2 c0).trans ?_
    rw [← mul_assoc]
    exact mul_le_mul_of_nonneg_right hcr (norm_nonneg _)
  have hd : ∀ (v : ι → ℝ) s, |δ s * v s| ≤ 1 / 4 * |v s| := fun v s => by
    rw [abs_mul]
    exact mul_le_mul_of_nonneg_right (hδ s) (abs_nonneg _)
  have hco : ∀ (v : ι → ℝ) s, |v s| ≤ ‖v‖ := fun v s => norm_le_pi_norm v s
  have hball : ∀ v, ‖v‖ ≤ 1 → ∀ s, |damped Q δ c v s| ≤ r / 4 + 1 / 4 * |v s| := fun v hv s =>
    (abs_add_le _ _).trans (add_le_add (hb v hv s) (hd v s))
  have hhalf : ∀ v w, ‖v‖ ≤ 1 → ‖w‖ ≤ 1 → ‖damped Q δ c v - damped Q δ c w‖ ≤ ‖v - w‖ / 2 := fun v w hv hw => by
    refine (pi_norm_le_iff_of_nonneg (by positivity)).2 fun s => ?_
    have e : (damped Q δ c v - damped Q δ c w) s = (c * Q v s - c * Q w s) + δ s * (v - w) s := by
      simp only [damped, Pi.sub_apply]; ring
    rw [e, Real.norm_eq_abs]
    refine (abs_add_le _ _).trans ?_
    have a := hl v w hv hw s
    have b := hd (v - w) s
    have d := hco (v - w) s
    have n := norm_nonneg (v - w)
    nlinarith
  have hone : ∀ v, ‖v‖ ≤ 1 → ‖damped Q δ c v‖ ≤ 1 := fun v hv => by
    refine (pi_norm_le_iff_of_nonneg zero_le_one).2 fun s => ?_
    have := hball v hv s
    have := hco v s
    rw [Real.norm_eq_abs]
    linarith
  have hmaps : Set.MapsTo (damped Q δ c) (Metric.closedBall 0 1) (Metric.closedBall (0 : ι → ℝ) 1) := by
    intro v hv
    rw [mem_closedBall_zero_iff] at hv ⊢
    exact hone v hv
  have hcon : ContractingWith (1 / 2) (hmaps.restrict (damped Q δ c) _ _) := by
    refine ⟨by norm_num, LipschitzWith.of_dist_le_mul fun v w => ?_⟩
    have hv := mem_closedBall_zero_iff.1 v.2
    have hw := mem_closedBall_zero_iff.1 w.2
    rw [Subtype.dist_eq, Subtype.dist_eq, dist_eq_norm, dist_eq_norm]
    have := hhalf v w hv hw
    simp only [Set.MapsTo.val_restrict_apply]
    push_cast
    linarith
  obtain ⟨x, hx, hfix, -, -⟩ := hcon.exists_fixedPoint' (Metric.isClosed_closedBall.isComplete) hmaps (x := 0) (by simp) (edist_ne_top _ _)
  have hx1 := mem_closedBall_zero_iff.1 hx
  have hfix : damped Q δ c x = x := hfix
  have hstep : ∀ v, ‖v‖ ≤ 1 → ‖damped Q δ c v - x‖ ≤ ‖v - x‖ / 2 := fun v hv => by
    have := hhalf v x hv hx1
    rwa [hfix] at this
  have hxr : ‖x‖ ≤ r := by
    refine (pi_norm_le_iff_of_nonneg hr0).2 fun s => ?_
    have := hball x hx1 s
    rw [hfix] at this
    rw [Real.norm_eq_abs]
    linarith
  have hQ0 : ‖c • Q 0‖ ≤ r := by
    refine (pi_norm_le_iff_of_nonneg hr0).2 fun s => ?_
    have := hb 0 (by simp) s
    rw [Real.norm_eq_abs]
    simp only [Pi.smul_apply, smul_eq_mul]
    linarith
  have hz0 : damped Q δ c 0 = c • Q 0 := by
    funext s
    simp [damped]
  have hnear : ∀ v, ‖v‖ ≤ r → ∀ s, |c * Q v s - c * Q 0 s| ≤ r ^ 2 / 4 := fun v hv s => by
    have := hl v 0 (hv.trans hc) (by simp) s
    rw [sub_zero] at this
    nlinarith
  refine ⟨x, hfix, fun y hy hyf => ?_, fun v hv => ⟨hone v hv, hstep v hv⟩, ?_, ?_, fun W hW => ?_⟩
  · have := hstep y hy
    rw [hyf] at this
    have : ‖y - x‖ = 0 := le_antisymm (by linarith [norm_nonneg (y - x)]) (norm_nonneg _)
    exact sub_eq_zero.1 (norm_eq_zero.1 this)
  · rintro v (rfl | rfl | ⟨w, hw, hw', rfl⟩)
    · refine ⟨hxr, (pi_norm_le_iff_of_nonneg (by positivity)).2 fun s => ?_⟩
      have e := hnear v hxr s
      have f := congrFun hfix s
      simp only [damped] at f
      simp only [Pi.sub_apply, Pi.smul_apply, smul_eq_mul, Real.norm_eq_abs]
      rcases hz s with k | k
      · rw [k, zero_mul, add_zero] at f
        rw [f] at e
        nlinarith
      · rw [k, mul_zero, sub_zero] at e ⊢
        have := hd v s
        have t : |v s| ≤ |c * Q v s| + |δ s * v s| := by
          conv_lhs => rw [← f]
          exact abs_add_le _ _
        nlinarith
    · rw [hz0, sub_self, norm_zero]
      exact ⟨hQ0, by positivity⟩
    · have hw1 := hw.trans hc
      constructor
      · refine (pi_norm_le_iff_of_nonneg hr0).2 fun s => ?_
        have := hball w hw1 s
        have := hco w s
        rw [Real.norm_eq_abs]
        linarith
      · refine (pi_norm_le_iff_of_nonneg (by positivity)).2 fun s => ?_
        have e := hnear w hw s
        simp only [damped, Pi.sub_apply, Pi.smul_apply, smul_eq_mul, Real.norm_eq_abs]
        rcases hz s with k | k
        · rw [k, zero_mul, add_zero]
          nlinarith
        · have := hd w s
          have t := hco (w - c • Q 0) s
          simp only [Pi.sub_apply, Pi.smul_apply, smul_eq_mul] at t
          rw [k, mul_zero, sub_zero] at e t ⊢
          refine (abs_add_le _ _).trans ?_
          nlinarith
  · intro w hw hw' s hs
    have := hl w (c • Q 0) (hw.trans hc) (hQ0.trans hc) s
    simp only [damped, hs, zero_mul, add_zero]
    refine this.trans ?_
    have : r / 4 * ‖w - c • Q 0‖ ≤ r / 4 * r ^ 2 := mul_le_mul_of_nonneg_left hw' (by positivity)
    have : 0 ≤ r ^ 3 := by positivity
    nlinarith
  · have hn : ∀ n, (damped Q δ c)^[n] 0 ∈ W := by
      intro n
      induction n with
      | zero => exact W.zero_mem
      | succ n ih => rw [Function.iterate_succ_apply']; exact hW _ ih
    have hconv : ∀ n, ‖(damped Q δ c)^[n] 0‖ ≤ 1 ∧ ‖(damped Q δ c)^[n] 0 - x‖ ≤ 1 / 2 ^ n := by
      intro n
      induction n with
      | zero => simpa using hx1
      | succ n ih =>
        rw [Function.iterate_succ_apply']
        refine ⟨hone _ ih.1, (hstep _ ih.1).trans ?_⟩
        rw [pow_succ, ← div_div]
        linarith [ih.2]
    refine W.closed_of_finiteDimensional.mem_of_tendsto (b := Filter.atTop) (f := fun n : ℕ => (damped Q δ c)^[n] 0) (tendsto_iff_norm_sub_tendsto_zero.2 ?_) (Filter.Eventually.of_forall hn)
    refine squeeze_zero (fun n => norm_nonneg _) (fun n => (hconv n).2) ?_
    have := tendsto_pow_atTop_nhds_zero_of_lt_one (r := (1 / 2 : ℝ)) (by norm_num) (by norm_num)
    simpa [div_eq_mul_inv] using this

end Verif.Weak
