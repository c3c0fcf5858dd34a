import Verif.Lemmas.Kernel
import Verif.Model.Finalize
import Mathlib.Algebra.Order.Ring.Rat
import Mathlib.Tactic.NormNum
import Mathlib.Tactic.LinearCombination
import Mathlib.Tactic.FieldSimp

/-! Properties C01-C05, C09, C52, C54: iteration loop and reported energies. -/

namespace Verif.Props
open Verif.Kernel Verif.Finalize Verif.Py

variable {A D K : Type} [Field K] [LinearOrder K]

/-- **C01** A run that returns has made `n` passes with `1 ≤ n ≤ min max_iter 76`; its amplitudes are
the `n`-fold iterate of the starting state, and one energy was logged per pass. -/
theorem C01_iteration_budget (c : Cfg A D K) (s : St A D) (r : Res A D K) (h : c.run s = .ok r) :
    1 ≤ r.log.length ∧ r.log.length ≤ c.maxIter ∧ r.log.length ≤ 76 ∧
      iterM c.step r.log.length s = .ok r.st := by
  simp only [Cfg.run, bind, Except.bind] at h
  cases he : c.energy s.amps with
  | error x => rw [he] at h; cases h
  | ok e0 =>
    rw [he] at h; simp only at h
    cases hl : c.loop c.maxIter 0 e0 none s [] with
    | error x => rw [hl] at h; cases h
    | ok p =>
      obtain ⟨s', cur, log⟩ := p
      rw [hl] at h; simp only at h
      obtain ⟨es, hlog, h1, h2, h3, h4, h5, h6, h7⟩ := loop_ok c _ _ _ _ _ _ _ _ _ hl
      rw [List.nil_append] at hlog; have hlog := hlog.symm; subst hlog
      cases hc : cur with
      | none => rw [hc] at h; cases h
      | some e =>
        rw [hc] at h
        simp only [pure, Except.pure, Except.ok.injEq] at h
        subst h
        have hne : es ≠ [] := by
          rintro rfl; rw [hc] at h5; simp at h5
        refine ⟨List.length_pos_iff.2 hne, h1, ?_, h3⟩
        rcases h2 with h2 | h2
        · exact absurd h2 hne
        · simpa using h2

/-- **C01** (the cap). If the residual, DIIS and energy code never exits by itself, a run that ends the
process has `max_iter > 76`, and 76 passes were made, none of which met the tolerance. -/
theorem C01_exit_only_after_76 (c : Cfg A D K) (s : St A D)
    (hr : ∀ a l, c.resid a l ≠ .error .systemExit)
    (ha : ∀ d a, c.accel d a ≠ .error .systemExit) (hE : ∀ a, c.energy a ≠ .error .systemExit)
    (h : c.run s = .error .systemExit) :
    76 < c.maxIter ∧ ∃ (e0 : K) (es : List K), c.energy s.amps = .ok e0 ∧ es.length = 76 ∧
      (∀ k e, es[k]? = some e → c.energyAt (k + 1) s = .ok e) ∧
      ∀ k, k < 76 → ¬ CloseAt c.eps (e0 :: es) k := by
  simp only [Cfg.run, bind, Except.bind] at h
  cases he : c.energy s.amps with
  | error x => rw [he] at h; simp only [Except.error.injEq] at h; subst h; exact absurd he (hE _)
  | ok e0 =>
    rw [he] at h; simp only at h
    cases hl : c.loop c.maxIter 0 e0 none s [] with
    | error x =>
      rw [hl] at h; simp only [Except.error.injEq] at h; subst h
      obtain ⟨h1, es, h2, h3, h4⟩ := loop_exit c hr ha hE _ _ _ _ _ _ (by omega) hl
      have h5 : es.length = 76 := by omega
      exact ⟨by omega, e0, es, rfl, h5, h3, fun k hk => h4 k (by omega)⟩
    | ok p =>
      obtain ⟨s', cur, log⟩ := p
      rw [hl] at h; simp only at h
      cases cur <;> simp [pure, Except.pure] at h

/-- **C02** Let `e0` be the energy of the starting amplitudes. When the run returns, no two successive
energies before the last pair are closer than the tolerance, and either the last pair is, or the
iteration limit was reached. -/
theorem C02_stops_at_first_small_change (c : Cfg A D K) (s : St A D) (r : Res A D K)
    (h : c.run s = .ok r) :
    ∃ e0, c.energy s.amps = .ok e0 ∧
      (∀ k e, r.log[k]? = some e → c.energyAt (k + 1) s = .ok e) ∧
      (∀ k, k + 1 < r.log.length → ¬ CloseAt c.eps (e0 :: r.log) k) ∧
      (CloseAt c.eps (e0 :: r.log) (r.log.length - 1) ∨ r.log.length = c.maxIter) := by
  have hb := C01_iteration_budget c s r h
  simp only [Cfg.run, bind, Except.bind] at h
  cases he : c.energy s.amps with
  | error x => rw [he] at h; cases h
  | ok e0 =>
    rw [he] at h; simp only at h
    cases hl : c.loop c.maxIter 0 e0 none s [] with
    | error x => rw [hl] at h; cases h
    | ok p =>
      obtain ⟨s', cur, log⟩ := p
      rw [hl] at h; simp only at h
      obtain ⟨es, hlog, h1, h2, h3, h4, h5, h6, h7⟩ := loop_ok c _ _ _ _ _ _ _ _ _ hl
      rw [List.nil_append] at hlog; have hlog := hlog.symm; subst hlog
      cases hc : cur with
      | none => rw [hc] at h; cases h
      | some e =>
        rw [hc] at h
        simp only [pure, Except.pure, Except.ok.injEq] at h
        subst h
        refine ⟨e0, rfl, h4, h6, ?_⟩
        rcases h7 with h7 | ⟨k, hk, h7⟩
        · exact Or.inr h7
        · left; have : es.length - 1 = k := by omega
          rw [this]; exact h7

/-- Specification of one pass: the de-excitation amplitudes are made from the present amplitudes, the residual code is
applied to both, DIIS to its result, and what DIIS returns is kept. -/
def Pass (c : Cfg A D K) (s s' : St A D) : Prop :=
  ∃ a, c.resid s.amps (c.dag s.amps) = .ok a ∧ c.accel s.diis a = .ok (s'.diis, s'.amps) ∧ s'.l2 = c.dag s.amps

omit [Field K] [LinearOrder K] in
theorem step_ok_iff (c : Cfg A D K) (s s' : St A D) : c.step s = .ok s' ↔ Pass c s s' := by
  unfold Cfg.step Pass
  simp only [bind, Except.bind, pure, Except.pure]
  cases hr : c.resid s.amps (c.dag s.amps) with
  | error x => simp
  | ok a =>
    cases hd : c.accel s.diis a with
    | error x => simp [hd]
    | ok p =>
      obtain ⟨d, a'⟩ := p
      obtain ⟨u, v, w⟩ := s'
      simp only [Except.ok.injEq, St.mk.injEq, exists_eq_left', hd, Prod.mk.injEq]
      constructor
      · rintro ⟨rfl, rfl, rfl⟩; exact ⟨⟨rfl, rfl⟩, rfl⟩
      · rintro ⟨⟨rfl, rfl⟩, rfl⟩; exact ⟨rfl, rfl, rfl⟩

omit [Field K] [LinearOrder K] in
theorem iterM_chain (c : Cfg A D K) (n : ℕ) (s s' : St A D) (h : iterM c.step n s = .ok s') :
    ∃ q : ℕ → St A D, q 0 = s ∧ q n = s' ∧ (∀ k < n, Pass c (q k) (q (k + 1))) ∧
      ∀ k ≤ n, iterM c.step k s = .ok (q k) := by
  induction n generalizing s with
  | zero =>
    simp only [iterM, Except.ok.injEq] at h
    subst h
    refine ⟨fun _ => s, rfl, rfl, by simp, ?_⟩
    intro k hk
    obtain rfl : k = 0 := by omega
    rfl
  | succ n ih =>
    simp only [iterM] at h
    cases hs : c.step s with
    | error x => rw [hs] at h; cases h
    | ok t =>
      rw [hs] at h
      obtain ⟨q, h0, hn, hp, hq⟩ := ih t h
      refine ⟨fun k => if k = 0 then s else q (k - 1), rfl, by simpa using hn, ?_, ?_⟩
      · intro k hk
        cases k with
        | zero => simpa [h0] using (step_ok_iff c s t).1 hs
        | succ k => simpa using hp k (by omega)
      · intro k hk
        cases k with
        | zero => rfl
        | succ k => simp only [iterM, hs, Except.bind]; simpa using hq k (by omega)

/-- **C01** The passes in full: from the starting state every logged energy belongs to the state after one more pass
(`Pass`), and the returned state is the last of them. -/
theorem C01_passes (c : Cfg A D K) (s : St A D) (r : Res A D K) (h : c.run s = .ok r) :
    ∃ q : ℕ → St A D, q 0 = s ∧ q r.log.length = r.st ∧ (∀ k < r.log.length, Pass c (q k) (q (k + 1))) ∧
      ∀ k e, r.log[k]? = some e → c.energy (q (k + 1)).amps = .ok e := by
  obtain ⟨-, -, -, hi⟩ := C01_iteration_budget c s r h
  obtain ⟨q, h0, hn, hp, hq⟩ := iterM_chain c _ s r.st hi
  refine ⟨q, h0, hn, hp, ?_⟩
  intro k e hk
  obtain ⟨e0, -, hl, -⟩ := C02_stops_at_first_small_change c s r h
  have hlt : k < r.log.length := by
    by_contra hc
    rw [List.getElem?_eq_none (by omega)] at hk
    cases hk
  have := hl k e hk
  rw [Cfg.energyAt, hq (k + 1) (by omega)] at this
  exact this

/-- **C03** The energy that is reported is the energy functional at the returned amplitudes, and it is
the last one logged. -/
theorem C03_energy_of_returned_amplitudes (c : Cfg A D K) (s : St A D) (r : Res A D K)
    (h : c.run s = .ok r) :
    c.energy r.st.amps = .ok r.energy ∧ r.log.getLast? = some r.energy := by
  simp only [Cfg.run, bind, Except.bind] at h
  cases he : c.energy s.amps with
  | error x => rw [he] at h; cases h
  | ok e0 =>
    rw [he] at h; simp only at h
    cases hl : c.loop c.maxIter 0 e0 none s [] with
    | error x => rw [hl] at h; cases h
    | ok p =>
      obtain ⟨s', cur, log⟩ := p
      rw [hl] at h; simp only at h
      obtain ⟨es, hlog, h1, h2, h3, h4, h5, h6, h7⟩ := loop_ok c _ _ _ _ _ _ _ _ _ hl
      rw [List.nil_append] at hlog; have hlog := hlog.symm; subst hlog
      cases hc : cur with
      | none => rw [hc] at h; cases h
      | some e =>
        rw [hc] at h
        simp only [pure, Except.pure, Except.ok.injEq] at h
        subst h
        rw [hc] at h5
        have hlast : es.getLast? = some e := by
          cases hg : es.getLast? with
          | none => rw [hg] at h5; simp at h5
          | some x => rw [hg] at h5; simp at h5; rw [h5]
        have hpos : 0 < es.length := List.length_pos_iff.2 (by rintro rfl; simp at hlast)
        refine ⟨?_, by simpa using hlast⟩
        have hk : es[es.length - 1]? = some e := by
          rw [← List.getLast?_eq_getElem?]; exact hlast
        have := h4 _ _ hk
        rw [Nat.sub_add_cancel hpos, Cfg.energyAt, h3] at this
        exact this

/-- A run of the loop used as witness: the energy is the amplitude, each pass adds one, so no two
energies are ever close. -/
def driftCfg (n : ℕ) : Cfg ℚ Unit ℚ where
  maxIter := n
  eps := 1 / 10
  resid a _ := .ok (a + 1)
  accel d a := .ok (d, a)
  energy a := .ok a
  dag a := a

/-- A run that converges in two passes. -/
def settleCfg : Cfg ℚ Unit ℚ where
  maxIter := 5
  eps := 1 / 10
  resid _ _ := .ok 7
  accel d a := .ok (d, a)
  energy a := .ok a
  dag a := 2 * a

-- the hypotheses of C01-C03 can be met: a converging run with two passes
example : ∃ r, settleCfg.run ⟨0, 0, ()⟩ = .ok r ∧ r.log = [7, 7] ∧ r.energy = 7 := by
  refine ⟨⟨⟨7, 14, ()⟩, 7, [7, 7]⟩, ?_, rfl, rfl⟩
  norm_num [Cfg.run, Cfg.loop, settleCfg, Cfg.step, bind, Except.bind, pure, Except.pure]

/-- **C04** is violated by `UltT2CC.kernel`: the `raise` at line 463 can never be reached, whatever the
residual, DIIS and energy code do. -/
theorem C04_violated_no_raise (c : Cfg A D K) (s : St A D)
    (hr : ∀ a l, c.resid a l ≠ .error .valueError)
    (ha : ∀ d a, c.accel d a ≠ .error .valueError) (hE : ∀ a, c.energy a ≠ .error .valueError) :
    c.run s ≠ .error .valueError := by
  intro h
  simp only [Cfg.run, bind, Except.bind] at h
  cases he : c.energy s.amps with
  | error x => rw [he] at h; simp only [Except.error.injEq] at h; subst h; exact hE _ he
  | ok e0 =>
    rw [he] at h; simp only at h
    cases hl : c.loop c.maxIter 0 e0 none s [] with
    | error x =>
      rw [hl] at h; simp only [Except.error.injEq] at h; subst h
      exact loop_no_valueError c hr ha hE _ _ _ _ _ _ (by omega) hl
    | ok p =>
      obtain ⟨s', cur, log⟩ := p
      rw [hl] at h; simp only at h
      cases cur <;> simp [pure, Except.pure] at h

/-- **C04** is violated: with any limit between 1 and 76 there is a run in which no two energies come
close and which nevertheless returns an energy. -/
theorem C04_violated_returns_unconverged (n : ℕ) (h1 : 1 ≤ n) (h2 : n ≤ 76) :
    ∃ r, (driftCfg n).run ⟨0, 0, ()⟩ = .ok r ∧
      ∀ k, ¬ CloseAt (driftCfg n).eps (0 :: r.log) k := by
  have key : ∀ (m idx : ℕ) (x : ℚ) (cur : Option ℚ) (l2 : ℚ) (log : List ℚ), idx + m ≤ 76 → idx + m ≤ n →
      ∃ es : List ℚ, ∃ s', (driftCfg n).loop m idx x cur ⟨x, l2, ()⟩ log
        = .ok (s', es.getLast?.or cur, log ++ es) ∧ es.length = m ∧
        ∀ (k : ℕ) (e : ℚ), (x :: es)[k]? = some e → e = x + k := by
    intro m
    induction m with
    | zero =>
      intro idx x cur l2 log _ _
      refine ⟨[], ⟨x, l2, ()⟩, by simp [Cfg.loop], rfl, ?_⟩
      intro k e hk
      cases k with
      | zero => simp at hk; simp [hk]
      | succ k => simp at hk
    | succ m ih =>
      intro idx x cur l2 log h3 h4
      obtain ⟨es, s', he, hlen, hval⟩ := ih (idx + 1) (x + 1) (some (x + 1)) x (log ++ [x + 1])
        (by omega) (by omega)
      have hn : ¬ n < idx := by omega
      have hi : ¬ 75 < idx := by omega
      refine ⟨(x + 1) :: es, s', ?_, by simp [hlen], ?_⟩
      · rw [Cfg.loop]
        have hd : ¬ |x - (x + 1)| < (driftCfg n).eps := by
          have : x - (x + 1) = -1 := by ring
          rw [this]; norm_num [driftCfg]
        simp only [gt_iff_lt, hi, if_false]
        have hst : (driftCfg n).step ⟨x, l2, ()⟩ = .ok ⟨x + 1, x, ()⟩ := rfl
        have hen : (driftCfg n).energy (x + 1) = .ok (x + 1) := rfl
        have hm : (driftCfg n).maxIter = n := rfl
        rw [hst]
        simp only [bind, Except.bind, hen, hd, if_false, hm, hn, he]
        rw [List.getLast?_cons]
        cases es.getLast? <;> simp
      · intro k e hk
        cases k with
        | zero => simp at hk; simp [hk]
        | succ k =>
          have := hval k e (by simpa using hk)
          rw [this]; push_cast; ring
  obtain ⟨es, s', he, hlen, hval⟩ := key n 0 0 none 0 [] (by omega) (by omega)
  have hne : es ≠ [] := by rintro rfl; simp at hlen; omega
  obtain ⟨e, hlast⟩ : ∃ e, es.getLast? = some e := ⟨es.getLast hne, List.getLast?_eq_some_getLast hne⟩
  refine ⟨⟨s', e, es⟩, ?_, ?_⟩
  · have hen : (driftCfg n).energy 0 = .ok 0 := rfl
    have hm : (driftCfg n).maxIter = n := rfl
    simp only [Cfg.run, hen, bind, Except.bind, hm, he, hlast]
    simp [pure, Except.pure]
  · rintro k ⟨e1, e2, h3, h4, h5⟩
    rw [hval _ _ h3, hval _ _ h4] at h5
    have : (0 : ℚ) + k - (0 + ((k + 1 : ℕ) : ℚ)) = -1 := by push_cast; ring
    rw [this] at h5
    norm_num [driftCfg] at h5

/-- **C04** for the legacy kernels (`for ... else: raise`): a result is only returned when the last two
energies are within the tolerance. Partial: `UltT2CC.kernel` does not have this property. -/
theorem C04_nonconvergence_reported_partial (c : Cfg A D K) (s : St A D) (r : Res A D K)
    (h : c.legacyRun s = .ok r) :
    ∃ e0, c.energy s.amps = .ok e0 ∧ 1 ≤ r.log.length ∧ r.log.length ≤ c.maxIter ∧
      iterM c.step r.log.length s = .ok r.st ∧
      CloseAt c.eps (e0 :: r.log) (r.log.length - 1) ∧
      ∀ k, k + 1 < r.log.length → ¬ CloseAt c.eps (e0 :: r.log) k := by
  simp only [Cfg.legacyRun, bind, Except.bind] at h
  cases he : c.energy s.amps with
  | error x => rw [he] at h; cases h
  | ok e0 =>
    rw [he] at h; simp only at h
    cases hl : c.legacyLoop c.maxIter e0 s [] with
    | error x => rw [hl] at h; cases h
    | ok p =>
      obtain ⟨s', cur, log⟩ := p
      rw [hl] at h
      simp only [pure, Except.pure, Except.ok.injEq] at h
      subst h
      obtain ⟨es, hlog, h1, h3, h4, h5, h6, k, hk, h7⟩ := legacyLoop_ok c _ _ _ _ _ _ _ hl
      rw [List.nil_append] at hlog; have hlog := hlog.symm; subst hlog
      refine ⟨e0, rfl, (by show 1 ≤ es.length; omega), h1, h3, ?_, h6⟩
      have : es.length - 1 = k := by omega
      rw [this]; exact h7

/-- **C04** for `DriveCC.kernel`: it also only returns converged results (an unconverged run ends in a
`NameError`, since `sys` is not imported). -/
theorem C04_driveCC_partial (c : Cfg A D K) (s : St A D) (r : Res A D K)
    (h : c.driveRun s = .ok r) :
    ∃ e0, c.energy s.amps = .ok e0 ∧ 1 ≤ r.log.length ∧ r.log.length ≤ c.maxIter ∧
      CloseAt c.eps (e0 :: r.log) (r.log.length - 1) := by
  have h' : c.legacyRun s = .ok r := by
    simp only [Cfg.driveRun, Cfg.legacyRun, bind, Except.bind] at h ⊢
    cases he : c.energy s.amps with
    | error x => rw [he] at h; cases h
    | ok e0 =>
      rw [he] at h; simp only at h ⊢
      cases hl : c.driveLoop c.maxIter 0 e0 s [] with
      | error x => rw [hl] at h; cases h
      | ok p =>
        rw [driveLoop_ok c _ _ _ _ _ _ _ _ hl]
        rw [hl] at h; exact h
  obtain ⟨e0, h1, h2, h3, _, h4, _⟩ := C04_nonconvergence_reported_partial c s r h'
  exact ⟨e0, h1, h2, h3, h4⟩

example : ∃ r, settleCfg.driveRun ⟨0, 0, ()⟩ = .ok r := by
  refine ⟨⟨⟨7, 14, ()⟩, 7, [7, 7]⟩, ?_⟩
  norm_num [Cfg.driveRun, Cfg.driveLoop, settleCfg, Cfg.step, bind, Except.bind, pure, Except.pure]

/-- **C52** is violated: the de-excitation amplitudes available to the spin-integrated (Qf) correction
when the run ends belong to the amplitudes before the last update. -/
theorem C52_violated : ∃ (c : Cfg ℚ Unit ℚ) (s : St ℚ Unit) (r : Res ℚ Unit ℚ),
    c.run s = .ok r ∧ CloseAt c.eps (0 :: r.log) (r.log.length - 1) ∧ r.st.l2 ≠ c.dag r.st.amps := by
  refine ⟨⟨5, 1/10, fun a _ => .ok (a + 1/100), fun d a => .ok (d, a), fun a => .ok a, fun a => a⟩,
    ⟨0, 0, ()⟩, ⟨⟨1/100, 0, ()⟩, 1/100, [1/100]⟩, ?_, ?_, ?_⟩
  · have h : |(1:ℚ)/100| < 1/10 := by norm_num [abs_of_pos]
    simp [Cfg.run, Cfg.loop, Cfg.step, bind, Except.bind, pure, Except.pure]
    rw [if_pos (by norm_num [abs_of_pos])]
  · refine ⟨0, 1/100, rfl, rfl, ?_⟩; norm_num [abs_of_pos]
  · norm_num

theorem iterM_succ_last {S : Type} (f : S → Except Err S) (n : ℕ) (s : S) :
    iterM f (n + 1) s = (iterM f n s).bind f := by
  induction n generalizing s with
  | zero =>
    simp only [iterM, Except.bind]
    cases f s <;> rfl
  | succ n ih =>
    rw [iterM, iterM]
    cases f s with
    | error x => rfl
    | ok t => exact ih t

/-- **C52** What does hold: after a returned run the stored `l2` is the adjoint of the amplitudes of the
pass before, so it is the adjoint of the returned ones when the last pass did not change the
amplitudes. Partial: the property asks for the returned ones always. -/
theorem C52_l2_partial (c : Cfg A D K) (s : St A D) (r : Res A D K) (h : c.run s = .ok r) :
    ∃ p, iterM c.step (r.log.length - 1) s = .ok p ∧ c.step p = .ok r.st ∧ r.st.l2 = c.dag p.amps ∧
      (p.amps = r.st.amps → r.st.l2 = c.dag r.st.amps) := by
  obtain ⟨h1, _, _, h4⟩ := C01_iteration_budget c s r h
  obtain ⟨n, hn⟩ : ∃ n, r.log.length = n + 1 := ⟨r.log.length - 1, by omega⟩
  rw [hn, iterM_succ_last] at h4
  rw [hn]
  cases hp : iterM c.step n s with
  | error x => rw [hp] at h4; cases h4
  | ok p =>
    rw [hp] at h4
    have h5 : c.step p = .ok r.st := h4
    have h6 : r.st.l2 = c.dag p.amps := by
      simp only [Cfg.step, bind, Except.bind, pure, Except.pure] at h5
      cases hr : c.resid p.amps (c.dag p.amps) with
      | error x => rw [hr] at h5; cases h5
      | ok a =>
        rw [hr] at h5; simp only at h5
        cases ha : c.accel p.diis a with
        | error x => rw [ha] at h5; cases h5
        | ok q =>
          rw [ha] at h5
          simp only [Except.ok.injEq] at h5
          rw [← h5]
    exact ⟨p, by simpa using hp, h5, h6, fun e => by rw [h6, e]⟩

/-! ## Fixed points of the amplitude update -/

/-- The update of `t2residEqnsSlow.py:66-70,81`, `t2residEqns.py:76-84` and `fullCCresidEqns.py`:
`resid = resid + reciprocal(D) * t`, then `t = resid * D`, elementwise on an index type. -/
def ampUpdate {I F : Type} [Field F] (R Den t : I → F) : I → F :=
  fun x => (R x + (Den x)⁻¹ * t x) * Den x

/-- **C05** The update leaves the amplitudes unchanged iff the residual vanishes everywhere; in general
it adds residual times denominator. -/
theorem C05_fixed_point_iff {I F : Type} [Field F] (R Den t : I → F) (hD : ∀ x, Den x ≠ 0) :
    (ampUpdate R Den t = t ↔ ∀ x, R x = 0) ∧ ∀ x, ampUpdate R Den t x = t x + R x * Den x := by
  have h : ∀ x, ampUpdate R Den t x = t x + R x * Den x := by
    intro x; have := hD x; simp only [ampUpdate]; field_simp; ring
  refine ⟨⟨fun hf x => ?_, fun hR => ?_⟩, h⟩
  · have := h x
    rw [hf] at this
    have h0 : R x * Den x = 0 := by linear_combination -this
    exact (mul_eq_zero.1 h0).resolve_right (hD x)
  · funext x; rw [h, hR]; ring

example : ampUpdate (fun _ : Fin 2 => (3 : ℚ)) (fun _ => -2) (fun _ => 1) 0 = -5 := by
  norm_num [ampUpdate]

/-! ## Reported energies -/

/-- **C09** is violated: for `CCD(Qf)` the second value is only the perturbative part. -/
theorem C09_violated : ∃ (nucE cur hf qf ut2 : ℚ) (p : ℚ × ℚ),
    finalize "CCD(Qf)" nucE cur hf qf ut2 = some p ∧ p.1 ≠ hf + p.2 := by
  refine ⟨9, -84, -74, -1/100, 0, (-84 + 9 - 1/100, -1/100), ?_, by norm_num⟩
  have h : hasSub "UT2" "CCD(Qf)" = false := by decide
  simp [finalize, qfNames, h]; norm_num

omit [LinearOrder K] in
/-- **C09** exactly where it holds: for a name outside the five (Qf) names the reported pair satisfies
total = reference + correlation; for one of those names it does iff the iterative correlation energy
`nucE + cur - hf` is zero (and the name, as all five do, lacks `UT2`). Partial: fails for (Qf). -/
theorem C09_total_is_reference_plus_correlation_partial (ccType : String) (nucE cur hf qf ut2 : K) :
    ∃ p, finalize ccType nucE cur hf qf ut2 = some p ∧
      (ccType ∉ qfNames → p.1 = hf + p.2) ∧
      (ccType ∈ qfNames → (p.1 = hf + p.2 ↔ nucE + cur - hf = 0)) := by
  by_cases hq : ccType ∈ qfNames
  · have hu : hasSub "UT2" ccType = false := by
      revert hq; simp only [qfNames, List.mem_cons, List.not_mem_nil, or_false]
      rintro (rfl | rfl | rfl | rfl | rfl) <;> decide
    refine ⟨(cur + nucE + qf, qf), by simp [finalize, hq, hu], fun h => absurd hq h, fun _ => ?_⟩
    constructor
    · intro h; linear_combination h
    · intro h; linear_combination h
  · have hne : ccType ≠ "CCD(Qf)" := by rintro rfl; exact hq (by decide)
    by_cases hu : hasSub "UT2" ccType = true
    · refine ⟨(cur + nucE + ut2, nucE + cur - hf + ut2), by simp [finalize, hq, hu, hne],
        fun _ => by ring, fun h => absurd h hq⟩
    · refine ⟨(cur + nucE, nucE + cur - hf), by simp [finalize, hq, hu, hne],
        fun _ => by ring, fun h => absurd h hq⟩

example : finalize "UT2-CCD(5)" 9 (-84) (-74) 0 (-1) = some ((-76 : ℚ), -2) := by
  have h : hasSub "UT2" "UT2-CCD(5)" = true := by decide
  simp [finalize, qfNames, h]; norm_num

omit [LinearOrder K] in
/-- **C09**, legacy reporting (`run_ccd.py:577-601`): the second value contains the reference energy, so
the relation only holds for a vanishing reference (or, for `CCD(Qf)`, a vanishing CCD energy). -/
theorem C09_legacy_violated (ccType : String) (nucE cur hf qf : K) :
    (legacyReport ccType nucE cur qf).1 = hf + (legacyReport ccType nucE cur qf).2 ↔
      (if ccType = "CCD(Qf)" then cur + nucE = hf else hf = 0) := by
  unfold legacyReport
  split
  · constructor
    · intro h; linear_combination h
    · intro h; simp only; rw [h]
  · constructor
    · intro h; simp only at h; linear_combination -h
    · intro h; simp only; rw [h]; ring

/-- **C54** is violated: `totalE` leaves out the nuclear energy. -/
theorem C54_violated : ∃ (nucE cur hf : ℚ),
    (driveReport nucE cur hf).1 ≠ hf + (driveReport nucE cur hf).2 :=
  ⟨9, -84, -74, by norm_num [driveReport]⟩

omit [LinearOrder K] in
/-- **C54** exactly when it holds: the stored total is the reference plus stored correlation energy iff
the nuclear energy is zero. Partial. -/
theorem C54_drive_total_partial (nucE cur hf : K) :
    (driveReport nucE cur hf).1 = hf + (driveReport nucE cur hf).2 ↔ nucE = 0 := by
  simp only [driveReport]
  constructor
  · intro h; linear_combination -h
  · intro h; rw [h]; ring

end Verif.Props
