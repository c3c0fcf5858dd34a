import Verif.Model.Kernel

/-! Helper lemmas about the loops of `Verif.Model.Kernel`. -/

namespace Verif.Kernel

variable {A D K : Type}

/-- Specification: `n` applications of a possibly failing step. -/
def iterM {S : Type} (f : S → Except Err S) : ℕ → S → Except Err S
  | 0, s => .ok s
  | n + 1, s => (f s).bind (iterM f n)

/-- Specification: the energy after `n` passes. -/
def Cfg.energyAt (c : Cfg A D K) (n : ℕ) (s : St A D) : Except Err K :=
  (iterM c.step n s).bind fun s' => c.energy s'.amps

/-- Specification: consecutive entries `k`, `k+1` of a list of energies differ by less than `eps`. -/
def CloseAt [Field K] [LinearOrder K] (eps : K) (es : List K) (k : ℕ) : Prop :=
  ∃ e e', es[k]? = some e ∧ es[k + 1]? = some e' ∧ |e - e'| < eps

variable [Field K] [LinearOrder K]

theorem closeAt_succ {eps : K} {e : K} {es : List K} {k : ℕ} :
    CloseAt eps (e :: es) (k + 1) ↔ CloseAt eps es k := by
  simp [CloseAt]

theorem closeAt_zero {eps : K} {e e' : K} {es : List K} :
    CloseAt eps (e :: e' :: es) 0 ↔ |e - e'| < eps := by
  simp [CloseAt]

theorem loop_ok (c : Cfg A D K) : ∀ (n idx : ℕ) (old : K) (cur : Option K) (s : St A D) (log : List K)
    (s' : St A D) (cur' : Option K) (log' : List K),
    c.loop n idx old cur s log = .ok (s', cur', log') →
    ∃ es : List K, log' = log ++ es ∧ es.length ≤ n ∧ (es = [] ∨ idx + es.length ≤ 76) ∧
      iterM c.step es.length s = .ok s' ∧
      (∀ k e, es[k]? = some e → c.energyAt (k + 1) s = .ok e) ∧
      (cur' = es.getLast?.or cur) ∧
      (∀ k, k + 1 < es.length → ¬ CloseAt c.eps (old :: es) k) ∧
      (es.length = n ∨ ∃ k, k + 1 = es.length ∧ CloseAt c.eps (old :: es) k) := by
  intro n
  induction n with
  | zero =>
    intro idx old cur s log s' cur' log' h
    simp only [Cfg.loop, Except.ok.injEq, Prod.mk.injEq] at h
    obtain ⟨rfl, rfl, rfl⟩ := h
    exact ⟨[], by simp [iterM]⟩
  | succ n ih =>
    intro idx old cur s log s' cur' log' h
    rw [Cfg.loop] at h
    split at h
    · cases h
    rename_i hidx
    simp only [bind, Except.bind] at h
    cases hs : c.step s with
    | error x => rw [hs] at h; cases h
    | ok t =>
      rw [hs] at h
      simp only at h
      cases he : c.energy t.amps with
      | error x => rw [he] at h; cases h
      | ok e =>
        rw [he] at h
        simp only at h
        have e1 : c.energyAt 1 s = .ok e := by
          simp [Cfg.energyAt, iterM, hs, he, Except.bind]
        split at h
        · rename_i hd
          simp only [Except.ok.injEq, Prod.mk.injEq] at h
          obtain ⟨rfl, rfl, rfl⟩ := h
          refine ⟨[e], rfl, by simp, Or.inr (by simp; omega), by simp [iterM, hs, Except.bind], ?_, by simp, ?_, ?_⟩
          · intro k e' hk
            cases k with
            | zero => simp at hk; subst hk; exact e1
            | succ k => simp at hk
          · intro k hk; simp at hk
          · exact Or.inr ⟨0, rfl, closeAt_zero.2 hd⟩
        · rename_i hd
          split at h
          · cases h
          obtain ⟨es, rfl, hlen, hcap, hit, hes, hcur, hgap, hlast⟩ := ih _ _ _ _ _ _ _ _ h
          refine ⟨e :: es, by simp, by simpa using hlen, Or.inr ?_, ?_, ?_, ?_, ?_, ?_⟩
          · rcases hcap with rfl | hcap
            · simp; omega
            · simp; omega
          · simp [iterM, hs, Except.bind, hit]
          · intro k e' hk
            cases k with
            | zero => simp at hk; subst hk; exact e1
            | succ k =>
              have := hes k e' (by simpa using hk)
              simpa [Cfg.energyAt, iterM, hs, Except.bind] using this
          · rw [hcur]
            rw [List.getLast?_cons]
            cases es.getLast? <;> simp
          · intro k hk
            cases k with
            | zero => exact fun hc => hd (closeAt_zero.1 hc)
            | succ k => rw [closeAt_succ]; exact hgap k (by simpa using hk)
          · rcases hlast with hl | ⟨k, hk, hc⟩
            · left; simp [hl]
            · right; exact ⟨k + 1, by simp [hk], closeAt_succ.2 hc⟩

/-- When the cap is hit, all 76 passes were made and none met the tolerance. -/
theorem loop_exit (c : Cfg A D K) (hr : ∀ a l, c.resid a l ≠ .error .systemExit)
    (ha : ∀ d a, c.accel d a ≠ .error .systemExit) (hE : ∀ a, c.energy a ≠ .error .systemExit) :
    ∀ (n idx : ℕ) (old : K) (cur : Option K) (s : St A D) (log : List K), idx ≤ 76 →
    c.loop n idx old cur s log = .error .systemExit →
    76 < idx + n ∧ ∃ es : List K, idx + es.length = 76 ∧
      (∀ k e, es[k]? = some e → c.energyAt (k + 1) s = .ok e) ∧
      (∀ k, k < es.length → ¬ CloseAt c.eps (old :: es) k) := by
  intro n
  induction n with
  | zero => intro idx old cur s log _ h; simp [Cfg.loop] at h
  | succ n ih =>
    intro idx old cur s log hi h
    rw [Cfg.loop] at h
    split at h
    · exact ⟨by omega, [], by simp; omega, by simp, by simp⟩
    rename_i hidx
    simp only [bind, Except.bind] at h
    cases hs : c.step s with
    | error x =>
      rw [hs] at h; simp only [Except.error.injEq] at h
      subst h
      exfalso
      simp only [Cfg.step, bind, Except.bind, pure, Except.pure] at hs
      cases h1 : c.resid s.amps (c.dag s.amps) with
      | error x => rw [h1] at hs; simp only [Except.error.injEq] at hs; subst hs; exact hr _ _ h1
      | ok a =>
        rw [h1] at hs; simp only at hs
        cases h2 : c.accel s.diis a with
        | error x => rw [h2] at hs; simp only [Except.error.injEq] at hs; subst hs; exact ha _ _ h2
        | ok p => rw [h2] at hs; cases hs
    | ok t =>
      rw [hs] at h
      simp only at h
      cases he : c.energy t.amps with
      | error x => rw [he] at h; simp only [Except.error.injEq] at h; subst h; exact absurd he (hE _)
      | ok e =>
        rw [he] at h
        simp only at h
        split at h
        · cases h
        rename_i hd
        split at h
        · cases h
        obtain ⟨h1, es, hl, hes, hgap⟩ := ih _ _ _ _ _ (by omega) h
        refine ⟨by omega, e :: es, by simp; omega, ?_, ?_⟩
        · intro k e' hk
          cases k with
          | zero =>
            simp at hk; subst hk
            simp [Cfg.energyAt, iterM, hs, he, Except.bind]
          | succ k =>
            have := hes k e' (by simpa using hk)
            simpa [Cfg.energyAt, iterM, hs, Except.bind] using this
        · intro k hk
          cases k with
          | zero => exact fun hc => hd (closeAt_zero.1 hc)
          | succ k => rw [closeAt_succ]; exact hgap k (by simpa using hk)

/-- The `ValueError` of the loop itself can never be raised. -/
theorem loop_no_valueError (c : Cfg A D K) (hr : ∀ a l, c.resid a l ≠ .error .valueError)
    (ha : ∀ d a, c.accel d a ≠ .error .valueError) (hE : ∀ a, c.energy a ≠ .error .valueError) :
    ∀ (n idx : ℕ) (old : K) (cur : Option K) (s : St A D) (log : List K), idx + n ≤ c.maxIter →
    c.loop n idx old cur s log ≠ .error .valueError := by
  intro n
  induction n with
  | zero => intro idx old cur s log _ h; simp [Cfg.loop] at h
  | succ n ih =>
    intro idx old cur s log hi h
    rw [Cfg.loop] at h
    split at h
    · cases h
    simp only [bind, Except.bind] at h
    cases hs : c.step s with
    | error x =>
      rw [hs] at h; simp only [Except.error.injEq] at h
      subst h
      simp only [Cfg.step, bind, Except.bind, pure, Except.pure] at hs
      cases h1 : c.resid s.amps (c.dag s.amps) with
      | error x => rw [h1] at hs; simp only [Except.error.injEq] at hs; subst hs; exact hr _ _ h1
      | ok a =>
        rw [h1] at hs; simp only at hs
        cases h2 : c.accel s.diis a with
        | error x => rw [h2] at hs; simp only [Except.error.injEq] at hs; subst hs; exact ha _ _ h2
        | ok p => rw [h2] at hs; cases hs
    | ok t =>
      rw [hs] at h
      simp only at h
      cases he : c.energy t.amps with
      | error x => rw [he] at h; simp only [Except.error.injEq] at h; subst h; exact hE _ he
      | ok e =>
        rw [he] at h
        simp only at h
        split at h
        · cases h
        split at h
        · rename_i h3; omega
        exact ih _ _ _ _ _ (by omega) h

theorem legacyLoop_ok (c : Cfg A D K) : ∀ (n : ℕ) (old : K) (s : St A D) (log : List K)
    (s' : St A D) (e' : K) (log' : List K),
    c.legacyLoop n old s log = .ok (s', e', log') →
    ∃ es : List K, log' = log ++ es ∧ es.length ≤ n ∧
      iterM c.step es.length s = .ok s' ∧
      (∀ k e, es[k]? = some e → c.energyAt (k + 1) s = .ok e) ∧
      (es.getLast? = some e') ∧
      (∀ k, k + 1 < es.length → ¬ CloseAt c.eps (old :: es) k) ∧
      (∃ k, k + 1 = es.length ∧ CloseAt c.eps (old :: es) k) := by
  intro n
  induction n with
  | zero =>
    intro old s log s' e' log' h
    simp [Cfg.legacyLoop] at h
  | succ n ih =>
    intro old s log s' e'' log' h
    rw [Cfg.legacyLoop] at h
    simp only [bind, Except.bind] at h
    cases hs : c.step s with
    | error x => rw [hs] at h; cases h
    | ok t =>
      rw [hs] at h
      simp only at h
      cases he : c.energy t.amps with
      | error x => rw [he] at h; cases h
      | ok e =>
        rw [he] at h
        simp only at h
        have e1 : c.energyAt 1 s = .ok e := by
          simp [Cfg.energyAt, iterM, hs, he, Except.bind]
        split at h
        · rename_i hd
          simp only [Except.ok.injEq, Prod.mk.injEq] at h
          obtain ⟨rfl, rfl, rfl⟩ := h
          refine ⟨[e], rfl, by simp, by simp [iterM, hs, Except.bind], ?_, by simp, ?_, ?_⟩
          · intro k e' hk
            cases k with
            | zero => simp at hk; subst hk; exact e1
            | succ k => simp at hk
          · intro k hk; simp at hk
          · exact ⟨0, rfl, closeAt_zero.2 hd⟩
        · rename_i hd
          obtain ⟨es, rfl, hlen, hit, hes, hcur, hgap, hlast⟩ := ih _ _ _ _ _ _ h
          refine ⟨e :: es, by simp, by simpa using hlen, ?_, ?_, ?_, ?_, ?_⟩
          · simp [iterM, hs, Except.bind, hit]
          · intro k e' hk
            cases k with
            | zero => simp at hk; subst hk; exact e1
            | succ k =>
              have := hes k e' (by simpa using hk)
              simpa [Cfg.energyAt, iterM, hs, Except.bind] using this
          · rw [List.getLast?_cons, hcur]; rfl
          · intro k hk
            cases k with
            | zero => exact fun hc => hd (closeAt_zero.1 hc)
            | succ k => rw [closeAt_succ]; exact hgap k (by simpa using hk)
          · obtain ⟨k, hk, hc⟩ := hlast
            exact ⟨k + 1, by simp [hk], closeAt_succ.2 hc⟩

theorem driveLoop_ok (c : Cfg A D K) : ∀ (n idx : ℕ) (old : K) (s : St A D) (log : List K)
    (s' : St A D) (e' : K) (log' : List K),
    c.driveLoop n idx old s log = .ok (s', e', log') →
    c.legacyLoop n old s log = .ok (s', e', log') := by
  intro n
  induction n with
  | zero => intro idx old s log s' e' log' h; simp [Cfg.driveLoop] at h
  | succ n ih =>
    intro idx old s log s' e'' log' h
    rw [Cfg.driveLoop] at h
    rw [Cfg.legacyLoop]
    simp only [bind, Except.bind] at h ⊢
    cases hs : c.step s with
    | error x => rw [hs] at h; cases h
    | ok t =>
      rw [hs] at h
      simp only at h ⊢
      cases he : c.energy t.amps with
      | error x => rw [he] at h; cases h
      | ok e =>
        rw [he] at h
        simp only at h ⊢
        split at h
        · rename_i hd; rw [if_pos hd]; exact h
        · rename_i hd
          rw [if_neg hd]
          split at h
          · cases h
          · exact ih _ _ _ _ _ _ _ h

end Verif.Kernel
