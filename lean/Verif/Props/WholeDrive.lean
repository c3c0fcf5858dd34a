import Verif.Model.WholeDrive
import Verif.Props.Whole
import Verif.Props.WholeSlow
import Verif.Props.Relabel
import Verif.Props.Selection
import Verif.Props.Exact
import Verif.Props.Sizes
import Verif.Props.Few
import Verif.Props.Drive
import Verif.Props.Units

/-!
# What a whole `DriveCC` calculation returns (C91)

`amps D o S k` are the amplitudes after `k` passes. `C91_result` says which of them a calculation returns; the other theorems are
about all of them.
-/

namespace Verif.Props

open Verif.Ein Verif.UT2 Verif.Kernel Verif.Py Verif.WholeDrive

variable {I : Type} [Inhabited I] (D : Nat → Finset I)

/-- The amplitudes after `k` passes. -/
noncomputable def driveAmps (o : Opts I) (S : SO I ℝ) (k : ℕ) : SO I ℝ := (WholeDrive.pass D (eqns o.cc_type) o.ε)^[k] (WholeDrive.start o S)

/-- The energy after `k` passes. -/
noncomputable def driveE (o : Opts I) (S : SO I ℝ) (k : ℕ) : ℝ := WholeDrive.energy D o.cc_type (driveAmps D o S k)

theorem driveAmps_succ (o : Opts I) (S : SO I ℝ) (k : ℕ) :
    driveAmps D o S (k + 1) = WholeDrive.pass D (eqns o.cc_type) o.ε (driveAmps D o S k) := Function.iterate_succ_apply' _ _ _

/-- Pass `k` (counted from zero) changes the energy by less than the threshold. -/
def Settled (o : Opts I) (S : SO I ℝ) (k : ℕ) : Prop := |driveE D o S k - driveE D o S (k + 1)| < o.eps

/-- The loop from pass `idx` on. -/
theorem drive_loop (o : Opts I) (S : SO I ℝ) (n idx : ℕ) (hi : idx + n = o.maxIter) (l2 : SO I ℝ) (log : List ℝ) :
    (∃ k, k < n ∧ Settled D o S (idx + k) ∧ (∀ j < k, ¬ Settled D o S (idx + j)) ∧
      (cfg D o).driveLoop n idx (driveE D o S idx) ⟨driveAmps D o S idx, l2, ()⟩ log =
        .ok (⟨driveAmps D o S (idx + k + 1), driveAmps D o S (idx + k), ()⟩, driveE D o S (idx + k + 1),
          log ++ (List.range (k + 1)).map fun j => driveE D o S (idx + j + 1))) ∨
    (∀ k < n, ¬ Settled D o S (idx + k)) ∧
      (cfg D o).driveLoop n idx (driveE D o S idx) ⟨driveAmps D o S idx, l2, ()⟩ log = .error .nameError := by
  induction n generalizing idx l2 log with
  | zero => exact .inr ⟨fun k hk => by omega, rfl⟩
  | succ n ih =>
    have hstep : (cfg D o).step ⟨driveAmps D o S idx, l2, ()⟩ = .ok ⟨driveAmps D o S (idx + 1), driveAmps D o S idx, ()⟩ := by
      rw [driveAmps_succ]; rfl
    have hE : (cfg D o).energy (driveAmps D o S (idx + 1)) = .ok (driveE D o S (idx + 1)) := rfl
    by_cases hs : Settled D o S idx
    · refine .inl ⟨0, by omega, hs, fun j hj => by omega, ?_⟩
      rw [Cfg.driveLoop, hstep]
      simp only [Bind.bind, Except.bind, hE]
      rw [if_pos (show |driveE D o S idx - driveE D o S (idx + 1)| < (cfg D o).eps from hs)]
      simp
    · have hl : (cfg D o).driveLoop (n + 1) idx (driveE D o S idx) ⟨driveAmps D o S idx, l2, ()⟩ log =
          (cfg D o).driveLoop n (idx + 1) (driveE D o S (idx + 1)) ⟨driveAmps D o S (idx + 1), driveAmps D o S idx, ()⟩ (log ++ [driveE D o S (idx + 1)]) := by
        rw [Cfg.driveLoop, hstep]
        simp only [Bind.bind, Except.bind, hE]
        rw [if_neg (show ¬ |driveE D o S idx - driveE D o S (idx + 1)| < (cfg D o).eps from hs),
          if_neg (show ¬ idx > (cfg D o).maxIter from by show ¬ idx > o.maxIter; omega)]
      rw [hl]
      rcases ih (idx + 1) (by omega) (driveAmps D o S idx) (log ++ [driveE D o S (idx + 1)]) with ⟨k, hk, h1, h2, h3⟩ | ⟨h1, h2⟩
      · refine .inl ⟨k + 1, by omega, by rwa [show idx + (k + 1) = idx + 1 + k by omega], fun j hj => ?_, ?_⟩
        · rcases j with _ | j
          · exact hs
          · rw [show idx + (j + 1) = idx + 1 + j by omega]; exact h2 j (by omega)
        · rw [h3, show idx + (k + 1) = idx + 1 + k by omega, List.range_succ_eq_map (n := k + 1), List.map_cons, List.map_map, List.append_assoc]
          refine congrArg (fun l => Except.ok (_, _, log ++ l)) ?_
          show driveE D o S (idx + 1) :: _ = driveE D o S (idx + 0 + 1) :: _
          refine congrArg _ (List.map_congr_left fun j _ => ?_)
          show _ = driveE D o S (idx + (j + 1) + 1)
          congr 1
          omega
      · refine .inr ⟨fun k hk => ?_, h2⟩
        rcases k with _ | k
        · exact hs
        · rw [show idx + (k + 1) = idx + 1 + k by omega]; exact h1 k (by omega)

/-- **C91** What a calculation returns: the amplitudes and the energy after the first pass that changes the energy by less than the
threshold, with the energies of all passes up to it. If none of the `max_iter` passes does, a `NameError`. A name without `"D"`
fails before the first pass. -/
theorem C91_result (o : Opts I) (S : SO I ℝ) :
    (hasSub "D" o.cc_type = true → (∃ k < o.maxIter, Settled D o S k ∧ (∀ j < k, ¬ Settled D o S j) ∧ ∃ r, WholeDrive.calculate D o S = .ok r ∧
        r.st.amps = driveAmps D o S (k + 1) ∧ r.energy = driveE D o S (k + 1) ∧ r.log = (List.range (k + 1)).map fun j => driveE D o S (j + 1)) ∨
      (∀ k < o.maxIter, ¬ Settled D o S k) ∧ WholeDrive.calculate D o S = .error .nameError) ∧
    (hasSub "D" o.cc_type = false → WholeDrive.calculate D o S = .error (.other 3)) := by
  unfold WholeDrive.calculate
  refine ⟨fun h => ?_, fun h => by rw [h]; rfl⟩
  rw [if_pos h]
  have e0 : (cfg D o).energy (WholeDrive.start o S) = .ok (driveE D o S 0) := rfl
  have h0 : driveAmps D o S 0 = WholeDrive.start o S := rfl
  unfold Cfg.driveRun
  simp only [Bind.bind, Except.bind, e0]
  rcases drive_loop D o S o.maxIter 0 (by omega) S [] with ⟨k, hk, h1, h2, h3⟩ | ⟨h1, h2⟩
  · refine .inl ⟨k, hk, by simpa using h1, by simpa using h2, ?_⟩
    have h3' : (cfg D o).driveLoop (cfg D o).maxIter 0 (driveE D o S 0) ⟨WholeDrive.start o S, S, ()⟩ [] = _ := h3
    rw [h3']
    refine ⟨_, rfl, ?_, ?_, ?_⟩ <;> simp
  · refine .inr ⟨by simpa using h1, ?_⟩
    have h2' : (cfg D o).driveLoop (cfg D o).maxIter 0 (driveE D o S 0) ⟨WholeDrive.start o S, S, ()⟩ [] = _ := h2
    rw [h2']

/-- The result is the state after as many passes as there are energies in the log. -/
theorem drive_returned (o : Opts I) (S : SO I ℝ) (r : Res (SO I ℝ) Unit ℝ) (h : WholeDrive.calculate D o S = .ok r) :
    hasSub "D" o.cc_type = true ∧ 0 < r.log.length ∧ r.log.length ≤ o.maxIter ∧ r.st.amps = driveAmps D o S r.log.length ∧
    r.energy = driveE D o S r.log.length ∧ Settled D o S (r.log.length - 1) := by
  obtain ⟨h1, h2⟩ := C91_result D o S
  cases hD : hasSub "D" o.cc_type with
  | false => rw [h2 hD] at h; cases h
  | true =>
    rcases h1 hD with ⟨k, hk, hs, -, r', hr, ha, he, hl⟩ | ⟨-, he⟩
    · rw [h] at hr
      cases hr
      have : r.log.length = k + 1 := by rw [hl]; simp
      rw [this]
      exact ⟨rfl, by omega, by omega, ha, he, hs⟩
    · rw [he] at h; cases h

/-- A property that holds before the first pass and that passes keep holds after every pass. -/
theorem drive_keeps (o : Opts I) (S : SO I ℝ) (P : SO I ℝ → Prop) (h0 : P (WholeDrive.start o S))
    (hs : ∀ B, P B → P (WholeDrive.pass D (eqns o.cc_type) o.ε B)) (k : ℕ) : P (driveAmps D o S k) := by
  induction k with
  | zero => exact h0
  | succ k ih => rw [driveAmps_succ]; exact hs _ ih

/-! ## antisymmetry -/

theorem antisym_T2_swaps (R : List I → ℝ) (i j a b : I) :
    antisym_T2 R [j, i, a, b] = - antisym_T2 R [i, j, a, b] ∧ antisym_T2 R [i, j, b, a] = - antisym_T2 R [i, j, a, b] := by
  have h := C29_antisym_T2 R
  exact ⟨by simpa [List.ofFn_succ, Equiv.swap_apply_def] using h.first 0 1 ![i, j] ![a, b] (by decide),
    by simpa [List.ofFn_succ, Equiv.swap_apply_def] using h.last 0 1 ![i, j] ![a, b] (by decide)⟩

theorem antisym_T3_swaps (R : List I → ℝ) (i j k a b c : I) :
    antisym_T3 R [j, i, k, a, b, c] = - antisym_T3 R [i, j, k, a, b, c] ∧ antisym_T3 R [i, k, j, a, b, c] = - antisym_T3 R [i, j, k, a, b, c] ∧
    antisym_T3 R [i, j, k, b, a, c] = - antisym_T3 R [i, j, k, a, b, c] ∧ antisym_T3 R [i, j, k, a, c, b] = - antisym_T3 R [i, j, k, a, b, c] := by
  have h := C29_antisym_T3 R
  exact ⟨by simpa [List.ofFn_succ, Equiv.swap_apply_def] using h.first 0 1 ![i, j, k] ![a, b, c] (by decide),
    by simpa [List.ofFn_succ, Equiv.swap_apply_def] using h.first 1 2 ![i, j, k] ![a, b, c] (by decide),
    by simpa [List.ofFn_succ, Equiv.swap_apply_def] using h.last 0 1 ![i, j, k] ![a, b, c] (by decide),
    by simpa [List.ofFn_succ, Equiv.swap_apply_def] using h.last 1 2 ![i, j, k] ![a, b, c] (by decide)⟩

theorem antisym_T4_swaps (R : List I → ℝ) (i j k l a b c d : I) :
    (antisym_T4 R [j, i, k, l, a, b, c, d] = - antisym_T4 R [i, j, k, l, a, b, c, d] ∧
    antisym_T4 R [i, k, j, l, a, b, c, d] = - antisym_T4 R [i, j, k, l, a, b, c, d] ∧
    antisym_T4 R [i, j, l, k, a, b, c, d] = - antisym_T4 R [i, j, k, l, a, b, c, d]) ∧
    (antisym_T4 R [i, j, k, l, b, a, c, d] = - antisym_T4 R [i, j, k, l, a, b, c, d] ∧
    antisym_T4 R [i, j, k, l, a, c, b, d] = - antisym_T4 R [i, j, k, l, a, b, c, d] ∧
    antisym_T4 R [i, j, k, l, a, b, d, c] = - antisym_T4 R [i, j, k, l, a, b, c, d]) := by
  have h := C29_antisym_T4 R
  exact ⟨⟨by simpa [List.ofFn_succ, Equiv.swap_apply_def] using h.first 0 1 ![i, j, k, l] ![a, b, c, d] (by decide),
    by simpa [List.ofFn_succ, Equiv.swap_apply_def] using h.first 1 2 ![i, j, k, l] ![a, b, c, d] (by decide),
    by simpa [List.ofFn_succ, Equiv.swap_apply_def] using h.first 2 3 ![i, j, k, l] ![a, b, c, d] (by decide)⟩,
    by simpa [List.ofFn_succ, Equiv.swap_apply_def] using h.last 0 1 ![i, j, k, l] ![a, b, c, d] (by decide),
    by simpa [List.ofFn_succ, Equiv.swap_apply_def] using h.last 1 2 ![i, j, k, l] ![a, b, c, d] (by decide),
    by simpa [List.ofFn_succ, Equiv.swap_apply_def] using h.last 2 3 ![i, j, k, l] ![a, b, c, d] (by decide)⟩

/-- The doubles residuals are antisymmetric, whatever the amplitudes are. -/
theorem ccsd_t2_anti (S : SO I ℝ) (i j a b : I) :
    ccsd_t2resid D S j i a b = - ccsd_t2resid D S i j a b ∧ ccsd_t2resid D S i j b a = - ccsd_t2resid D S i j a b := by
  have e : ∀ i j a b, ccsd_t2resid D S i j a b = antisym_T2 (Gen.ccsd_t2resid_0.eval D S.T) [i, j, a, b] := fun i j a b =>
    Prog.eval_through D S.T 4 _ (by decide +kernel) _ (by decide +kernel) _ rfl
  simp only [e]
  exact antisym_T2_swaps _ i j a b

theorem ccsdt_t2_anti (S : SO I ℝ) (i j a b : I) :
    ccsdt_t2eqns D S j i a b = - ccsdt_t2eqns D S i j a b ∧ ccsdt_t2eqns D S i j b a = - ccsdt_t2eqns D S i j a b := by
  have e : ∀ i j a b, ccsdt_t2eqns D S i j a b = antisym_T2 (Gen.ccsdt_t2eqns_0.eval D S.T) [i, j, a, b] := fun i j a b =>
    Prog.eval_through D S.T 4 _ (by decide +kernel) _ (by decide +kernel) _ rfl
  simp only [e]
  exact antisym_T2_swaps _ i j a b

theorem ccdq_t2_anti (S : SO I ℝ) (i j a b : I) :
    ccdq_t2eqns D S j i a b = - ccdq_t2eqns D S i j a b ∧ ccdq_t2eqns D S i j b a = - ccdq_t2eqns D S i j a b := by
  have e : ∀ i j a b, ccdq_t2eqns D S i j a b = antisym_T2 (Gen.ccdq_t2eqns_0.eval D S.T) [i, j, a, b] := fun i j a b =>
    Prog.eval_through D S.T 4 _ (by decide +kernel) _ (by decide +kernel) _ rfl
  simp only [e]
  exact antisym_T2_swaps _ i j a b

theorem ccsdt_t3_anti (S : SO I ℝ) (i j k a b c : I) :
    ccsdt_t3eqns D S j i k a b c = - ccsdt_t3eqns D S i j k a b c ∧ ccsdt_t3eqns D S i k j a b c = - ccsdt_t3eqns D S i j k a b c ∧
    ccsdt_t3eqns D S i j k b a c = - ccsdt_t3eqns D S i j k a b c ∧ ccsdt_t3eqns D S i j k a c b = - ccsdt_t3eqns D S i j k a b c := by
  have e : ∀ i j k a b c, ccsdt_t3eqns D S i j k a b c = antisym_T3 (Gen.ccsdt_t3eqns_0.eval D S.T) [i, j, k, a, b, c] +
      antisym_T3 (Gen.ccsdt_t3eqns_1.eval D S.T) [i, j, k, a, b, c] := fun i j k a b c => by
    unfold ccsdt_t3eqns Gen.ccsdt_t3eqns
    rw [Prog.eval_append, Prog.eval_through D S.T 6 _ (by decide +kernel) _ (by decide +kernel) _ rfl,
      Prog.eval_through D S.T 6 _ (by decide +kernel) _ (by decide +kernel) _ rfl]
    rfl
  simp only [e]
  obtain ⟨h1, h2, h3, h4⟩ := antisym_T3_swaps (Gen.ccsdt_t3eqns_0.eval D S.T) i j k a b c
  obtain ⟨g1, g2, g3, g4⟩ := antisym_T3_swaps (Gen.ccsdt_t3eqns_1.eval D S.T) i j k a b c
  rw [h1, h2, h3, h4, g1, g2, g3, g4]
  refine ⟨?_, ?_, ?_, ?_⟩ <;> ring

theorem ccdq_t4_anti (S : SO I ℝ) (i j k l a b c d : I) :
    (ccdq_t4eqns D S j i k l a b c d = - ccdq_t4eqns D S i j k l a b c d ∧
    ccdq_t4eqns D S i k j l a b c d = - ccdq_t4eqns D S i j k l a b c d ∧
    ccdq_t4eqns D S i j l k a b c d = - ccdq_t4eqns D S i j k l a b c d) ∧
    (ccdq_t4eqns D S i j k l b a c d = - ccdq_t4eqns D S i j k l a b c d ∧
    ccdq_t4eqns D S i j k l a c b d = - ccdq_t4eqns D S i j k l a b c d ∧
    ccdq_t4eqns D S i j k l a b d c = - ccdq_t4eqns D S i j k l a b c d) := by
  have e : ∀ i j k l a b c d, ccdq_t4eqns D S i j k l a b c d = antisym_T4 (Gen.ccdq_t4eqns_0.eval D S.T) [i, j, k, l, a, b, c, d] :=
    fun i j k l a b c d => Prog.eval_through D S.T 8 _ (by decide +kernel) _ (by decide +kernel) _ rfl
  simp only [e]
  exact antisym_T4_swaps _ i j k l a b c d

theorem next_neg (d r t : ℝ) : WholeDrive.next d (-r) (-t) = - WholeDrive.next d r t := by unfold WholeDrive.next; ring

omit [Inhabited I] in
theorem drive_den2 (ε : I → ℝ) (a b i j : I) :
    WholeDrive.den2 ε b a i j = WholeDrive.den2 ε a b i j ∧ WholeDrive.den2 ε a b j i = WholeDrive.den2 ε a b i j := by
  unfold WholeDrive.den2
  constructor <;> congr 1 <;> ring

omit [Inhabited I] in
theorem drive_den3 (ε : I → ℝ) (a b c i j k : I) :
    WholeDrive.den3 ε b a c i j k = WholeDrive.den3 ε a b c i j k ∧ WholeDrive.den3 ε a c b i j k = WholeDrive.den3 ε a b c i j k ∧
    WholeDrive.den3 ε a b c j i k = WholeDrive.den3 ε a b c i j k ∧ WholeDrive.den3 ε a b c i k j = WholeDrive.den3 ε a b c i j k := by
  unfold WholeDrive.den3
  refine ⟨?_, ?_, ?_, ?_⟩ <;> congr 1 <;> ring

omit [Inhabited I] in
theorem drive_den4 (ε : I → ℝ) (a b c d i j k l : I) :
    (WholeDrive.den4 ε b a c d i j k l = WholeDrive.den4 ε a b c d i j k l ∧ WholeDrive.den4 ε a c b d i j k l = WholeDrive.den4 ε a b c d i j k l ∧
    WholeDrive.den4 ε a b d c i j k l = WholeDrive.den4 ε a b c d i j k l) ∧
    (WholeDrive.den4 ε a b c d j i k l = WholeDrive.den4 ε a b c d i j k l ∧ WholeDrive.den4 ε a b c d i k j l = WholeDrive.den4 ε a b c d i j k l ∧
    WholeDrive.den4 ε a b c d i j l k = WholeDrive.den4 ε a b c d i j k l) := by
  unfold WholeDrive.den4
  refine ⟨⟨?_, ?_, ?_⟩, ?_, ?_, ?_⟩ <;> congr 1 <;> ring

/-- A pass keeps the symmetries of the arrays. -/
theorem drive_pass_sym (m : Eqns) (ε : I → ℝ) (B : SO I ℝ) (hB : B.Sym) : (WholeDrive.pass D m ε B).Sym := by
  have t2 : ∀ R : I → I → I → I → ℝ, (∀ i j a b, R j i a b = - R i j a b ∧ R i j b a = - R i j a b) →
      (∀ p q r s, WholeDrive.next (WholeDrive.den2 ε p q r s) (R r s p q) (B.t2 p q r s) =
        - WholeDrive.next (WholeDrive.den2 ε q p r s) (R r s q p) (B.t2 q p r s)) ∧
      ∀ p q r s, WholeDrive.next (WholeDrive.den2 ε p q r s) (R r s p q) (B.t2 p q r s) =
        - WholeDrive.next (WholeDrive.den2 ε p q s r) (R s r p q) (B.t2 p q s r) := by
    intro R hR
    refine ⟨fun p q r s => ?_, fun p q r s => ?_⟩
    · rw [(drive_den2 ε p q r s).1, (hR r s p q).2, ← next_neg, neg_neg, ← hB.t2_anti0 p q r s]
    · rw [(drive_den2 ε p q r s).2, (hR r s p q).1, ← next_neg, neg_neg, ← hB.t2_anti2 p q r s]
  cases m with
  | ccsdt =>
    refine { hB with t2_anti0 := (t2 _ (ccsdt_t2_anti D B)).1, t2_anti2 := (t2 _ (ccsdt_t2_anti D B)).2, t3_anti0 := ?_, t3_anti1 := ?_, t3_anti3 := ?_, t3_anti4 := ?_ } <;> intro p q r s u v <;>
      obtain ⟨d1, d2, d3, d4⟩ := drive_den3 ε p q r s u v <;> obtain ⟨r1, r2, r3, r4⟩ := ccsdt_t3_anti D B s u v p q r
    · show WholeDrive.next _ _ _ = - WholeDrive.next _ _ _
      rw [d1, r3, ← next_neg, neg_neg, ← hB.t3_anti0 p q r s u v]
    · show WholeDrive.next _ _ _ = - WholeDrive.next _ _ _
      rw [d2, r4, ← next_neg, neg_neg, ← hB.t3_anti1 p q r s u v]
    · show WholeDrive.next _ _ _ = - WholeDrive.next _ _ _
      rw [d3, r1, ← next_neg, neg_neg, ← hB.t3_anti3 p q r s u v]
    · show WholeDrive.next _ _ _ = - WholeDrive.next _ _ _
      rw [d4, r2, ← next_neg, neg_neg, ← hB.t3_anti4 p q r s u v]
  | ccsd => exact { hB with t2_anti0 := (t2 _ (ccsd_t2_anti D B)).1, t2_anti2 := (t2 _ (ccsd_t2_anti D B)).2 }
  | ccdq =>
    refine { hB with t2_anti0 := (t2 _ (ccdq_t2_anti D B)).1, t2_anti2 := (t2 _ (ccdq_t2_anti D B)).2, t4_anti0 := ?_, t4_anti1 := ?_, t4_anti2 := ?_, t4_anti4 := ?_, t4_anti5 := ?_, t4_anti6 := ?_ } <;> intro p q r s u v w z <;>
      obtain ⟨⟨d1, d2, d3⟩, d4, d5, d6⟩ := drive_den4 ε p q r s u v w z <;> obtain ⟨⟨r4, r5, r6⟩, r1, r2, r3⟩ := ccdq_t4_anti D B u v w z p q r s
    · show WholeDrive.next _ _ _ = - WholeDrive.next _ _ _
      rw [d1, r1, ← next_neg, neg_neg, ← hB.t4_anti0 p q r s u v w z]
    · show WholeDrive.next _ _ _ = - WholeDrive.next _ _ _
      rw [d2, r2, ← next_neg, neg_neg, ← hB.t4_anti1 p q r s u v w z]
    · show WholeDrive.next _ _ _ = - WholeDrive.next _ _ _
      rw [d3, r3, ← next_neg, neg_neg, ← hB.t4_anti2 p q r s u v w z]
    · show WholeDrive.next _ _ _ = - WholeDrive.next _ _ _
      rw [d4, r4, ← next_neg, neg_neg, ← hB.t4_anti4 p q r s u v w z]
    · show WholeDrive.next _ _ _ = - WholeDrive.next _ _ _
      rw [d5, r5, ← next_neg, neg_neg, ← hB.t4_anti5 p q r s u v w z]
    · show WholeDrive.next _ _ _ = - WholeDrive.next _ _ _
      rw [d6, r6, ← next_neg, neg_neg, ← hB.t4_anti6 p q r s u v w z]
  | ccd =>
    exact { hB with t2_anti0 := (t2 _ (ccsd_t2_anti D (noSingles B))).1, t2_anti2 := (t2 _ (ccsd_t2_anti D (noSingles B))).2 }

omit [Inhabited I] in
/-- The start amplitudes have the symmetries if those of the file have. -/
theorem drive_start_sym (o : Opts I) (S : SO I ℝ) (hS : S.Sym)
    (hF : ∀ x, o.file = some x → ∀ i j a b, x i j a b = - x j i a b ∧ x i j a b = - x i j b a) : (WholeDrive.start o S).Sym := by
  have t2 : (∀ p q r s, (WholeDrive.start o S).t2 p q r s = - (WholeDrive.start o S).t2 q p r s) ∧
      ∀ p q r s, (WholeDrive.start o S).t2 p q r s = - (WholeDrive.start o S).t2 p q s r := by
    unfold WholeDrive.start
    cases hf : o.file with
    | some x => exact ⟨fun p q r s => (hF x hf r s p q).2, fun p q r s => (hF x hf r s p q).1⟩
    | none =>
      refine ⟨fun p q r s => ?_, fun p q r s => ?_⟩
      · show S.g r s p q * _ = -(S.g r s q p * _)
        rw [(drive_den2 o.ε p q r s).1, hS.g_anti2 r s p q]; ring
      · show S.g r s p q * _ = -(S.g s r p q * _)
        rw [(drive_den2 o.ε p q r s).2, hS.g_anti0 r s p q]; ring
  have z : (0 : ℝ) = -0 := neg_zero.symm
  exact { hS with
    t2_anti0 := t2.1, t2_anti2 := t2.2
    t3_anti0 := fun _ _ _ _ _ _ => z, t3_anti1 := fun _ _ _ _ _ _ => z, t3_anti3 := fun _ _ _ _ _ _ => z, t3_anti4 := fun _ _ _ _ _ _ => z
    t4_anti0 := fun _ _ _ _ _ _ _ _ => z, t4_anti1 := fun _ _ _ _ _ _ _ _ => z, t4_anti2 := fun _ _ _ _ _ _ _ _ => z
    t4_anti4 := fun _ _ _ _ _ _ _ _ => z, t4_anti5 := fun _ _ _ _ _ _ _ _ => z, t4_anti6 := fun _ _ _ _ _ _ _ _ => z }

/-- **C91** After every pass the amplitudes are antisymmetric in the occupied and in the virtual orbitals, if the integrals and the
amplitudes of the file are. -/
theorem C91_antisymmetry (o : Opts I) (S : SO I ℝ) (hS : S.Sym)
    (hF : ∀ x, o.file = some x → ∀ i j a b, x i j a b = - x j i a b ∧ x i j a b = - x i j b a) (k : ℕ) : (driveAmps D o S k).Sym :=
  drive_keeps D o S SO.Sym (drive_start_sym o S hS hF) (fun B hB => drive_pass_sym D _ _ B hB) k

/-! ## the integrals are left alone -/

theorem drive_integrals (o : Opts I) (S : SO I ℝ) (k : ℕ) : (driveAmps D o S k).f = S.f ∧ (driveAmps D o S k).g = S.g := by
  refine drive_keeps D o S (fun B => B.f = S.f ∧ B.g = S.g) ⟨rfl, rfl⟩ (fun B hB => ?_) k
  cases eqns o.cc_type <;> exact hB

/-! ## conserved charges -/

theorem next_ne_zero {d r t : ℝ} (h : WholeDrive.next d r t ≠ 0) : r ≠ 0 ∨ t ≠ 0 := by
  by_contra hc
  push Not at hc
  exact h (by rw [hc.1, hc.2]; unfold WholeDrive.next; ring)

/-- **C91** If the integrals (and the file) conserve a charge, so do the amplitudes after every pass: an amplitude is zero unless the
charges of its virtual orbitals add up to those of its occupied ones. -/
theorem C91_selection {G : Type} [AddCommGroup G] (κ : I → G) (o : Opts I) (S : SO I ℝ) (hS : S.Conserves κ)
    (hF : ∀ x, o.file = some x → ∀ i j a b, x i j a b ≠ 0 → κ a + κ b = κ i + κ j) (k : ℕ) : (driveAmps D o S k).Conserves κ := by
  refine drive_keeps D o S (SO.Conserves κ) ?_ (fun B hB => ?_) k
  · have z : ∀ {p : Prop}, (0 : ℝ) ≠ 0 → p := fun h => absurd rfl h
    refine { hS with t1 := fun _ _ h => z h, t2 := fun a b i j h => ?_, t3 := fun _ _ _ _ _ _ h => z h, t4 := fun _ _ _ _ _ _ _ _ h => z h }
    unfold WholeDrive.start at h
    cases hf : o.file with
    | some x => rw [hf] at h; exact hF x hf i j a b h
    | none => rw [hf] at h; exact (hS.g i j a b (left_ne_zero_of_mul h)).symm
  · cases eqns o.cc_type with
    | ccsdt =>
      have c := C67_ccsdt D hB
      exact { hB with
        t1 := fun a i h => (next_ne_zero h).elim (fun r => (c.1 i a r).symm) (hB.t1 a i)
        t2 := fun a b i j h => (next_ne_zero h).elim (fun r => (c.2.1 i j a b r).symm) (hB.t2 a b i j)
        t3 := fun a b e i j l h => (next_ne_zero h).elim (fun r => (c.2.2 i j l a b e r).symm) (hB.t3 a b e i j l) }
    | ccsd =>
      have c := C67_ccsd D hB
      exact { hB with
        t1 := fun a i h => (next_ne_zero h).elim (fun r => (c.1 i a r).symm) (hB.t1 a i)
        t2 := fun a b i j h => (next_ne_zero h).elim (fun r => (c.2 i j a b r).symm) (hB.t2 a b i j) }
    | ccdq =>
      have c := C67_ccdq D hB
      exact { hB with
        t2 := fun a b i j h => (next_ne_zero h).elim (fun r => (c.1 i j a b r).symm) (hB.t2 a b i j)
        t4 := fun a b e d i j l m h => (next_ne_zero h).elim (fun r => (c.2 i j l m a b e d r).symm) (hB.t4 a b e d i j l m) }
    | ccd =>
      have h0 : (noSingles B).Conserves κ := { hB with t1 := fun _ _ h => absurd rfl h }
      have c := C67_ccsd D h0
      exact { hB with t2 := fun a b i j h => (next_ne_zero h).elim (fun r => (c.2 i j a b r).symm) (hB.t2 a b i j) }

/-! ## two calculations with proportional energies -/

/-- Two calculations whose energies after every pass are proportional end in the same way after the same number of passes. -/
theorem drive_same {J : Type} [Inhabited J] (E : Nat → Finset J) (o : Opts I) (S : SO I ℝ) (o' : Opts J) (S' : SO J ℝ) (c : ℝ) (hc : 0 < c)
    (hD : hasSub "D" o'.cc_type = hasSub "D" o.cc_type) (hm : o'.maxIter = o.maxIter) (he : o'.eps = c * o.eps)
    (hE : ∀ k, driveE E o' S' k = c * driveE D o S k) :
    SameRun (fun r r' => r'.log = r.log.map (c * ·) ∧ r'.energy = c * r.energy ∧
        r.st.amps = driveAmps D o S r.log.length ∧ r'.st.amps = driveAmps E o' S' r.log.length)
      (WholeDrive.calculate D o S) (WholeDrive.calculate E o' S') := by
  obtain ⟨h1, h2⟩ := C91_result D o S
  obtain ⟨h1', h2'⟩ := C91_result E o' S'
  have hs : ∀ k, Settled E o' S' k ↔ Settled D o S k := fun k => by
    unfold Settled
    rw [hE, hE, he, ← mul_sub, abs_mul, abs_of_pos hc, mul_lt_mul_iff_right₀ hc]
  cases hn : hasSub "D" o.cc_type with
  | false => rw [h2 hn, h2' (hD.trans hn)]; rfl
  | true =>
    rcases h1 hn with ⟨k, hk, ks, kl, r, hr, ra, re, rl⟩ | ⟨ha, hr⟩ <;>
      rcases h1' (hD.trans hn) with ⟨k', hk', ks', kl', r', hr', ra', re', rl'⟩ | ⟨ha', hr'⟩
    · have hkk : k' = k := by
        rcases lt_trichotomy k k' with h | h | h
        · exact absurd ((hs k).2 ks) (kl' k h)
        · exact h.symm
        · exact absurd ((hs k').1 ks') (kl k' h)
      subst hkk
      have hl : r.log.length = k' + 1 := by rw [rl]; simp
      rw [hr, hr']
      refine ⟨?_, ?_, ?_, ?_⟩
      · rw [rl, rl', List.map_map]
        exact List.map_congr_left fun j _ => hE _
      · rw [re, re', hE]
      · rw [hl, ra]
      · rw [hl, ra']
    · exact absurd ((hs k).2 ks) (ha' k (by omega))
    · exact absurd ((hs k').1 ks') (ha k' (by omega))
    · rw [hr, hr']; rfl

/-! ## the order of the orbitals -/

/-- Options for orbitals in another order. -/
def driveRelabel (e : I ≃ I) (o : Opts I) : Opts I :=
  { o with ε := fun p => o.ε (e p), file := o.file.map fun x i j a b => x (e i) (e j) (e a) (e b) }

theorem drive_amps_relabel (e : I ≃ I) (hD : ∀ s x, e x ∈ D s ↔ x ∈ D s) (o : Opts I) (S : SO I ℝ) (k : ℕ) :
    driveAmps D (driveRelabel e o) (S.comap e) k = (driveAmps D o S k).comap e := by
  induction k with
  | zero =>
    show WholeDrive.start _ _ = (WholeDrive.start _ _).comap e
    unfold WholeDrive.start driveRelabel SO.comap
    cases o.file <;> rfl
  | succ k ih =>
    rw [driveAmps_succ, driveAmps_succ, ih]
    generalize driveAmps D o S k = B
    show WholeDrive.pass D (eqns o.cc_type) _ _ = (WholeDrive.pass D (eqns o.cc_type) o.ε B).comap e
    cases eqns o.cc_type with
    | ccsdt =>
      have c := C42_so_ccsdt D e hD B
      simp only [WholeDrive.pass, WholeDrive.passCcsdt, c.1, c.2.1, c.2.2]
      rfl
    | ccsd =>
      have c := C42_so_ccsd D e hD B
      simp only [WholeDrive.pass, WholeDrive.passCcsd, c.2.2.1, c.2.2.2]
      rfl
    | ccdq =>
      have c := C42_so_ccdq D e hD B
      simp only [WholeDrive.pass, WholeDrive.passCcdq, c.1, c.2]
      rfl
    | ccd =>
      have c := (C42_so_ccsd D e hD (noSingles B)).2.2.2
      have c' : ∀ i j a b, ccsd_t2resid D (noSingles (B.comap e)) i j a b = _ := c
      simp only [WholeDrive.pass, WholeDrive.passCcd, c']
      rfl

/-- **C91** With the orbitals in another order, a calculation ends in the same way, with the same energies, and returns the same
amplitudes in that order. -/
theorem C91_orbital_order (e : I ≃ I) (hD : ∀ s x, e x ∈ D s ↔ x ∈ D s) (o : Opts I) (S : SO I ℝ) :
    SameRun (fun r r' => r'.log = r.log ∧ r'.energy = r.energy ∧ r'.st.amps = r.st.amps.comap e)
      (WholeDrive.calculate D o S) (WholeDrive.calculate D (driveRelabel e o) (S.comap e)) := by
  have h := drive_same D D o S (driveRelabel e o) (S.comap e) 1 one_pos rfl rfl (one_mul _).symm fun k => by
    rw [one_mul]
    unfold driveE WholeDrive.energy
    rw [drive_amps_relabel D e hD, (C42_so_ccsd D e hD _).1, (C42_so_ccsd D e hD _).2.1]
    rfl
  revert h
  cases WholeDrive.calculate D o S <;> cases WholeDrive.calculate D (driveRelabel e o) (S.comap e) <;> intro h
  · exact h
  · exact h
  · exact h
  · obtain ⟨h1, h2, h3, h4⟩ := h
    exact ⟨by simpa using h1, by simpa using h2, by rw [h4, h3, drive_amps_relabel D e hD]⟩

/-! ## the unit of energy -/

/-- Options with energies in another unit. -/
def driveUnit (c : ℝ) (o : Opts I) : Opts I := { o with ε := fun p => c * o.ε p, eps := c * o.eps }

theorem drive_amps_unit (c : ℝ) (hc : c ≠ 0) (o : Opts I) (S : SO I ℝ) (k : ℕ) :
    driveAmps D (driveUnit c o) (soUnit c S) k = soUnit c (driveAmps D o S k) := by
  have d1 : ∀ a i, WholeDrive.den1 (fun p => c * o.ε p) a i = c⁻¹ * WholeDrive.den1 o.ε a i := fun a i => by
    unfold WholeDrive.den1
    rw [show -(c * o.ε a) + c * o.ε i = c * (-o.ε a + o.ε i) by ring, one_div, one_div, mul_inv]
  have d2 : ∀ a b i j, WholeDrive.den2 (fun p => c * o.ε p) a b i j = c⁻¹ * WholeDrive.den2 o.ε a b i j := fun a b i j => by
    unfold WholeDrive.den2
    rw [show -(c * o.ε a) - c * o.ε b + c * o.ε i + c * o.ε j = c * (-o.ε a - o.ε b + o.ε i + o.ε j) by ring, one_div, one_div, mul_inv]
  have d3 : ∀ a b e i j l, WholeDrive.den3 (fun p => c * o.ε p) a b e i j l = c⁻¹ * WholeDrive.den3 o.ε a b e i j l := fun a b e i j l => by
    unfold WholeDrive.den3
    rw [show -(c * o.ε a) - c * o.ε b - c * o.ε e + c * o.ε i + c * o.ε j + c * o.ε l = c * (-o.ε a - o.ε b - o.ε e + o.ε i + o.ε j + o.ε l) by ring,
      one_div, one_div, mul_inv]
  have d4 : ∀ a b e d i j l m, WholeDrive.den4 (fun p => c * o.ε p) a b e d i j l m = c⁻¹ * WholeDrive.den4 o.ε a b e d i j l m :=
    fun a b e d i j l m => by
    unfold WholeDrive.den4
    rw [show -(c * o.ε a) - c * o.ε b - c * o.ε e - c * o.ε d + c * o.ε i + c * o.ε j + c * o.ε l + c * o.ε m =
      c * (-o.ε a - o.ε b - o.ε e - o.ε d + o.ε i + o.ε j + o.ε l + o.ε m) by ring, one_div, one_div, mul_inv]
  have n : ∀ d r t, WholeDrive.next (c⁻¹ * d) (c * r) t = WholeDrive.next d r t := fun d r t => pass_unit c hc r t d
  induction k with
  | zero =>
    show WholeDrive.start _ _ = soUnit c (WholeDrive.start _ _)
    unfold WholeDrive.start driveUnit soUnit
    cases o.file with
    | some x => rfl
    | none =>
      simp only [d2, SO.mk.injEq, true_and, and_true]
      funext a b i j
      rw [mul_mul_mul_comm, mul_inv_cancel₀ hc, one_mul]
  | succ k ih =>
    rw [driveAmps_succ, driveAmps_succ, ih]
    generalize driveAmps D o S k = B
    show WholeDrive.pass D (eqns o.cc_type) (fun p => c * o.ε p) _ = soUnit c (WholeDrive.pass D (eqns o.cc_type) o.ε B)
    cases eqns o.cc_type with
    | ccsdt =>
      have r1 : ∀ i a, ccsdt_t1eqns D (soUnit c B) i a = c * ccsdt_t1eqns D B i a := fun i a => so_eval_unit D c B _ (by decide +kernel) _
      have r2 : ∀ i j a b, ccsdt_t2eqns D (soUnit c B) i j a b = c * ccsdt_t2eqns D B i j a b := fun i j a b => so_eval_unit D c B _ (by decide +kernel) _
      have r3 : ∀ i j l a b e, ccsdt_t3eqns D (soUnit c B) i j l a b e = c * ccsdt_t3eqns D B i j l a b e :=
        fun i j l a b e => so_eval_unit D c B _ (by decide +kernel) _
      simp only [WholeDrive.pass, WholeDrive.passCcsdt, r1, r2, r3, d1, d2, d3, n]
      rfl
    | ccsd =>
      have r1 : ∀ i a, ccsd_t1resid D (soUnit c B) i a = c * ccsd_t1resid D B i a := fun i a => so_eval_unit D c B _ (by decide +kernel) _
      have r2 : ∀ i j a b, ccsd_t2resid D (soUnit c B) i j a b = c * ccsd_t2resid D B i j a b := fun i j a b => so_eval_unit D c B _ (by decide +kernel) _
      simp only [WholeDrive.pass, WholeDrive.passCcsd, r1, r2, d1, d2, n]
      rfl
    | ccdq =>
      have r2 : ∀ i j a b, ccdq_t2eqns D (soUnit c B) i j a b = c * ccdq_t2eqns D B i j a b := fun i j a b => so_eval_unit D c B _ (by decide +kernel) _
      have r4 : ∀ i j l m a b e d, ccdq_t4eqns D (soUnit c B) i j l m a b e d = c * ccdq_t4eqns D B i j l m a b e d :=
        fun i j l m a b e d => so_eval_unit D c B _ (by decide +kernel) _
      simp only [WholeDrive.pass, WholeDrive.passCcdq, r2, r4, d2, d4, n]
      rfl
    | ccd =>
      have r2 : ∀ i j a b, ccsd_t2resid D (noSingles (soUnit c B)) i j a b = c * ccsd_t2resid D (noSingles B) i j a b :=
        fun i j a b => so_eval_unit D c (noSingles B) _ (by decide +kernel) _
      simp only [WholeDrive.pass, WholeDrive.passCcd, r2, d2, n]
      rfl

/-- **C91** With integrals, orbital energies and threshold in another unit of energy, a calculation ends in the same way after the same
number of passes, with the energies in the new unit and the same amplitudes. -/
theorem C91_units (c : ℝ) (hc : 0 < c) (o : Opts I) (S : SO I ℝ) :
    SameRun (fun r r' => r'.log = r.log.map (c * ·) ∧ r'.energy = c * r.energy ∧ r'.st.amps = soUnit c r.st.amps)
      (WholeDrive.calculate D o S) (WholeDrive.calculate D (driveUnit c o) (soUnit c S)) := by
  have h := drive_same D D o S (driveUnit c o) (soUnit c S) c hc rfl rfl rfl fun k => by
    unfold driveE WholeDrive.energy
    rw [drive_amps_unit D c hc.ne']
    show (if hasSub "S" o.cc_type = true then _ else _) = _
    split
    · exact so_eval_unit D c _ Gen.spinorbitalCCSDE (by decide +kernel) _
    · exact so_eval_unit D c _ Gen.spinorbitalCCDE (by decide +kernel) _
  revert h
  cases WholeDrive.calculate D o S <;> cases WholeDrive.calculate D (driveUnit c o) (soUnit c S) <;> intro h
  · exact h
  · exact h
  · exact h
  · obtain ⟨h1, h2, h3, h4⟩ := h
    exact ⟨h1, h2, by rw [h4, h3, drive_amps_unit D c hc.ne']⟩

/-! ## two systems that do not interact -/

section fragments

variable {J : Type} [Inhabited J] (E : Nat → Finset J)

omit [Inhabited I] [Inhabited J] in
theorem mixed_of_not_same {l : List (I ⊕ J)} (h : ¬ Same Sum.isLeft l) : Mixed l := by
  unfold Same at h
  push Not at h
  obtain ⟨x, hx, y, hy, hxy⟩ := h
  rcases x with x | x <;> rcases y with y | y
  · exact absurd rfl hxy
  · exact ⟨⟨x, hx⟩, y, hy⟩
  · exact ⟨⟨y, hy⟩, x, hx⟩
  · exact absurd rfl hxy

theorem next_zero (d : ℝ) : WholeDrive.next d 0 0 = 0 := by unfold WholeDrive.next; ring

omit [Inhabited I] [Inhabited J] in
theorem sum2_next {d : (I ⊕ J) → (I ⊕ J) → ℝ} {dl : I → I → ℝ} {dr : J → J → ℝ} (h1 : ∀ a i, d (.inl a) (.inl i) = dl a i)
    (h2 : ∀ a i, d (.inr a) (.inr i) = dr a i) {F : (I ⊕ J) → (I ⊕ J) → ℝ} {f : I → I → ℝ} {g : J → J → ℝ} (h : Splits2 F f g)
    (t : I → I → ℝ) (u : J → J → ℝ) :
    (fun a i => WholeDrive.next (d a i) (F i a) (sum2 t u a i)) =
      sum2 (fun a i => WholeDrive.next (dl a i) (f i a) (t a i)) (fun a i => WholeDrive.next (dr a i) (g i a) (u a i)) := by
  funext a i
  rcases a with a | a <;> rcases i with i | i
  · show WholeDrive.next (d (.inl a) (.inl i)) (F (.inl i) (.inl a)) (t a i) = _
    rw [h1, h.left]; rfl
  · show WholeDrive.next _ _ 0 = 0
    rw [h.mixed _ _ ⟨⟨a, by simp⟩, i, by simp⟩, next_zero]
  · show WholeDrive.next _ _ 0 = 0
    rw [h.mixed _ _ ⟨⟨i, by simp⟩, a, by simp⟩, next_zero]
  · show WholeDrive.next (d (.inr a) (.inr i)) (F (.inr i) (.inr a)) (u a i) = _
    rw [h2, h.right]; rfl

omit [Inhabited I] [Inhabited J] in
theorem sum4_next {d : (I ⊕ J) → (I ⊕ J) → (I ⊕ J) → (I ⊕ J) → ℝ} {dl : I → I → I → I → ℝ} {dr : J → J → J → J → ℝ}
    (h1 : ∀ a b i j, d (.inl a) (.inl b) (.inl i) (.inl j) = dl a b i j) (h2 : ∀ a b i j, d (.inr a) (.inr b) (.inr i) (.inr j) = dr a b i j)
    {F : (I ⊕ J) → (I ⊕ J) → (I ⊕ J) → (I ⊕ J) → ℝ} {f : I → I → I → I → ℝ} {g : J → J → J → J → ℝ} (h : Splits F f g)
    (t : I → I → I → I → ℝ) (u : J → J → J → J → ℝ) :
    (fun a b i j => WholeDrive.next (d a b i j) (F i j a b) (sum4 t u a b i j)) =
      sum4 (fun a b i j => WholeDrive.next (dl a b i j) (f i j a b) (t a b i j)) (fun a b i j => WholeDrive.next (dr a b i j) (g i j a b) (u a b i j)) := by
  funext a b i j
  by_cases hs : Same Sum.isLeft [a, b, i, j]
  · have hb := hs b (by simp) a (by simp)
    have hi := hs i (by simp) a (by simp)
    have hj := hs j (by simp) a (by simp)
    rcases a with a | a
    · obtain ⟨b, rfl⟩ := Sum.isLeft_iff.1 hb
      obtain ⟨i, rfl⟩ := Sum.isLeft_iff.1 hi
      obtain ⟨j, rfl⟩ := Sum.isLeft_iff.1 hj
      show WholeDrive.next _ _ (t a b i j) = WholeDrive.next _ _ _
      rw [h1, h.left]
    · rw [Sum.isLeft_inr, Sum.isLeft_eq_false] at hb hi hj
      obtain ⟨b, rfl⟩ := Sum.isRight_iff.1 hb
      obtain ⟨i, rfl⟩ := Sum.isRight_iff.1 hi
      obtain ⟨j, rfl⟩ := Sum.isRight_iff.1 hj
      show WholeDrive.next _ _ (u a b i j) = WholeDrive.next _ _ _
      rw [h2, h.right]
  · have z : ∀ (x : I → I → I → I → ℝ) (y : J → J → J → J → ℝ), sum4 x y a b i j = 0 := fun x y => by
      by_contra hn
      exact hs (sum4_same x y a b i j hn)
    rw [z, z, h.mixed _ _ _ _ (mixed_of_not_same fun hq => hs fun x hx y hy => hq x (by simp at hx ⊢; tauto) y (by simp at hy ⊢; tauto)), next_zero]

omit [Inhabited I] [Inhabited J] in
theorem sum6_next {d : (I ⊕ J) → (I ⊕ J) → (I ⊕ J) → (I ⊕ J) → (I ⊕ J) → (I ⊕ J) → ℝ} {dl : I → I → I → I → I → I → ℝ}
    {dr : J → J → J → J → J → J → ℝ} (h1 : ∀ a b c i j k, d (.inl a) (.inl b) (.inl c) (.inl i) (.inl j) (.inl k) = dl a b c i j k)
    (h2 : ∀ a b c i j k, d (.inr a) (.inr b) (.inr c) (.inr i) (.inr j) (.inr k) = dr a b c i j k)
    {F : (I ⊕ J) → (I ⊕ J) → (I ⊕ J) → (I ⊕ J) → (I ⊕ J) → (I ⊕ J) → ℝ} {f : I → I → I → I → I → I → ℝ} {g : J → J → J → J → J → J → ℝ}
    (h : Splits6 F f g) (t : I → I → I → I → I → I → ℝ) (u : J → J → J → J → J → J → ℝ) :
    (fun a b c i j k => WholeDrive.next (d a b c i j k) (F i j k a b c) (sum6 t u a b c i j k)) =
      sum6 (fun a b c i j k => WholeDrive.next (dl a b c i j k) (f i j k a b c) (t a b c i j k))
        (fun a b c i j k => WholeDrive.next (dr a b c i j k) (g i j k a b c) (u a b c i j k)) := by
  funext a b c i j k
  by_cases hs : Same Sum.isLeft [a, b, c, i, j, k]
  · have hb := hs b (by simp) a (by simp)
    have hc := hs c (by simp) a (by simp)
    have hi := hs i (by simp) a (by simp)
    have hj := hs j (by simp) a (by simp)
    have hk := hs k (by simp) a (by simp)
    rcases a with a | a
    · obtain ⟨b, rfl⟩ := Sum.isLeft_iff.1 hb
      obtain ⟨c, rfl⟩ := Sum.isLeft_iff.1 hc
      obtain ⟨i, rfl⟩ := Sum.isLeft_iff.1 hi
      obtain ⟨j, rfl⟩ := Sum.isLeft_iff.1 hj
      obtain ⟨k, rfl⟩ := Sum.isLeft_iff.1 hk
      show WholeDrive.next _ _ (t a b c i j k) = WholeDrive.next _ _ _
      rw [h1, h.left]
    · rw [Sum.isLeft_inr, Sum.isLeft_eq_false] at hb hc hi hj hk
      obtain ⟨b, rfl⟩ := Sum.isRight_iff.1 hb
      obtain ⟨c, rfl⟩ := Sum.isRight_iff.1 hc
      obtain ⟨i, rfl⟩ := Sum.isRight_iff.1 hi
      obtain ⟨j, rfl⟩ := Sum.isRight_iff.1 hj
      obtain ⟨k, rfl⟩ := Sum.isRight_iff.1 hk
      show WholeDrive.next _ _ (u a b c i j k) = WholeDrive.next _ _ _
      rw [h2, h.right]
  · have z : ∀ (x : I → I → I → I → I → I → ℝ) (y : J → J → J → J → J → J → ℝ), sum6 x y a b c i j k = 0 := fun x y => by
      by_contra hn
      exact hs (sum6_same x y a b c i j k hn)
    rw [z, z, h.mixed _ _ _ _ _ _ (mixed_of_not_same fun hq => hs fun x hx y hy => hq x (by simp at hx ⊢; tauto) y (by simp at hy ⊢; tauto)), next_zero]

omit [Inhabited I] [Inhabited J] in
theorem sum8_next {d : (I ⊕ J) → (I ⊕ J) → (I ⊕ J) → (I ⊕ J) → (I ⊕ J) → (I ⊕ J) → (I ⊕ J) → (I ⊕ J) → ℝ}
    {dl : I → I → I → I → I → I → I → I → ℝ} {dr : J → J → J → J → J → J → J → J → ℝ}
    (h1 : ∀ a b c e i j k l, d (.inl a) (.inl b) (.inl c) (.inl e) (.inl i) (.inl j) (.inl k) (.inl l) = dl a b c e i j k l)
    (h2 : ∀ a b c e i j k l, d (.inr a) (.inr b) (.inr c) (.inr e) (.inr i) (.inr j) (.inr k) (.inr l) = dr a b c e i j k l)
    {F : (I ⊕ J) → (I ⊕ J) → (I ⊕ J) → (I ⊕ J) → (I ⊕ J) → (I ⊕ J) → (I ⊕ J) → (I ⊕ J) → ℝ} {f : I → I → I → I → I → I → I → I → ℝ}
    {g : J → J → J → J → J → J → J → J → ℝ} (h : Splits8 F f g) (t : I → I → I → I → I → I → I → I → ℝ) (u : J → J → J → J → J → J → J → J → ℝ) :
    (fun a b c e i j k l => WholeDrive.next (d a b c e i j k l) (F i j k l a b c e) (sum8 t u a b c e i j k l)) =
      sum8 (fun a b c e i j k l => WholeDrive.next (dl a b c e i j k l) (f i j k l a b c e) (t a b c e i j k l))
        (fun a b c e i j k l => WholeDrive.next (dr a b c e i j k l) (g i j k l a b c e) (u a b c e i j k l)) := by
  funext a b c e i j k l
  by_cases hs : Same Sum.isLeft [a, b, c, e, i, j, k, l]
  · have hb := hs b (by simp) a (by simp)
    have hc := hs c (by simp) a (by simp)
    have he := hs e (by simp) a (by simp)
    have hi := hs i (by simp) a (by simp)
    have hj := hs j (by simp) a (by simp)
    have hk := hs k (by simp) a (by simp)
    have hl := hs l (by simp) a (by simp)
    rcases a with a | a
    · obtain ⟨b, rfl⟩ := Sum.isLeft_iff.1 hb
      obtain ⟨c, rfl⟩ := Sum.isLeft_iff.1 hc
      obtain ⟨e, rfl⟩ := Sum.isLeft_iff.1 he
      obtain ⟨i, rfl⟩ := Sum.isLeft_iff.1 hi
      obtain ⟨j, rfl⟩ := Sum.isLeft_iff.1 hj
      obtain ⟨k, rfl⟩ := Sum.isLeft_iff.1 hk
      obtain ⟨l, rfl⟩ := Sum.isLeft_iff.1 hl
      show WholeDrive.next _ _ (t a b c e i j k l) = WholeDrive.next _ _ _
      rw [h1, h.left]
    · rw [Sum.isLeft_inr, Sum.isLeft_eq_false] at hb hc he hi hj hk hl
      obtain ⟨b, rfl⟩ := Sum.isRight_iff.1 hb
      obtain ⟨c, rfl⟩ := Sum.isRight_iff.1 hc
      obtain ⟨e, rfl⟩ := Sum.isRight_iff.1 he
      obtain ⟨i, rfl⟩ := Sum.isRight_iff.1 hi
      obtain ⟨j, rfl⟩ := Sum.isRight_iff.1 hj
      obtain ⟨k, rfl⟩ := Sum.isRight_iff.1 hk
      obtain ⟨l, rfl⟩ := Sum.isRight_iff.1 hl
      show WholeDrive.next _ _ (u a b c e i j k l) = WholeDrive.next _ _ _
      rw [h2, h.right]
  · have z : ∀ (x : I → I → I → I → I → I → I → I → ℝ) (y : J → J → J → J → J → J → J → J → ℝ), sum8 x y a b c e i j k l = 0 := fun x y => by
      by_contra hn
      exact hs (sum8_same x y a b c e i j k l hn)
    rw [z, z, h.mixed _ _ _ _ _ _ _ _ (mixed_of_not_same fun hq => hs fun x hx y hy => hq x (by simp at hx ⊢; tauto) y (by simp at hy ⊢; tauto)), next_zero]

/-- Options for the two systems together; the amplitudes of the files are put side by side. -/
noncomputable def driveSum (o : Opts I) (o' : Opts J) : Opts (I ⊕ J) where
  cc_type := o.cc_type
  ε := Sum.elim o.ε o'.ε
  maxIter := o.maxIter
  eps := o.eps
  diis := o.diis
  file := match o.file, o'.file with
    | some x, some y => some (sum4 x y)
    | _, _ => none

/-- **C91** Two systems that do not interact, in one calculation: after every pass the amplitudes are those of the two calculations
side by side, without amplitudes between the systems, and the energy is the sum of the two. -/
theorem C91_fragments (o : Opts I) (o' : Opts J) (hn : o'.cc_type = o.cc_type) (hf : o.file.isSome = o'.file.isSome) (A : SO I ℝ) (B : SO J ℝ)
    (k : ℕ) :
    driveAmps (sumD D E) (driveSum o o') (A.sum B) k = (driveAmps D o A k).sum (driveAmps E o' B k) ∧
    driveE (sumD D E) (driveSum o o') (A.sum B) k = driveE D o A k + driveE E o' B k := by
  have s4 : ∀ (x : I → I → I → I → ℝ) (y : J → J → J → J → ℝ), (fun a b i j => sum4 x y i j a b) = sum4 (fun a b i j => x i j a b) fun a b i j => y i j a b := by
    intro x y
    funext a b i j
    rcases a with a | a <;> rcases b with b | b <;> rcases i with i | i <;> rcases j with j | j <;> rfl
  have key : driveAmps (sumD D E) (driveSum o o') (A.sum B) k = (driveAmps D o A k).sum (driveAmps E o' B k) := by
    induction k with
    | zero =>
      show WholeDrive.start _ _ = (WholeDrive.start _ _).sum (WholeDrive.start _ _)
      have b : ∀ {f g t1 t2 t3 t4 l1 l2 l3 l4 t1' t2' t3' t4'}, t1 = t1' → t2 = t2' → t3 = t3' → t4 = t4' →
        (⟨f, g, t1, t2, t3, t4, l1, l2, l3, l4⟩ : SO (I ⊕ J) ℝ) = ⟨f, g, t1', t2', t3', t4', l1, l2, l3, l4⟩ := by
        rintro _ _ _ _ _ _ _ _ _ _ _ _ _ _ rfl rfl rfl rfl; rfl
      refine b ?_ ?_ ?_ ?_
      · funext a i; rcases a with a | a <;> rcases i with i | i <;> rfl
      · unfold driveSum
        cases ho : o.file with
        | some x =>
          cases ho' : o'.file with
          | some y => simp only [WholeDrive.start, ho, ho']; exact s4 x y
          | none => rw [ho, ho'] at hf; cases hf
        | none =>
          cases ho' : o'.file with
          | some y => rw [ho, ho'] at hf; cases hf
          | none =>
            simp only [WholeDrive.start, ho, ho']
            funext a b i j
            rcases a with a | a <;> rcases b with b | b <;> rcases i with i | i <;> rcases j with j | j <;>
              first | rfl | exact zero_mul _
      · funext a b c i j l
        by_contra hne
        have z := sum6_same (fun _ _ _ _ _ _ => (0 : ℝ)) (fun _ _ _ _ _ _ => (0 : ℝ)) a b c i j l (fun h => hne h.symm)
        apply hne
        show (0 : ℝ) = sum6 (fun _ _ _ _ _ _ => (0 : ℝ)) (fun _ _ _ _ _ _ => (0 : ℝ)) a b c i j l
        unfold sum6; split <;> rfl
      · funext a b c e i j l m
        show (0 : ℝ) = sum8 (fun _ _ _ _ _ _ _ _ => (0 : ℝ)) (fun _ _ _ _ _ _ _ _ => (0 : ℝ)) a b c e i j l m
        unfold sum8; split <;> rfl
    | succ k ih =>
      rw [driveAmps_succ, driveAmps_succ, driveAmps_succ, ih, hn]
      generalize driveAmps D o A k = X
      generalize driveAmps E o' B k = Y
      show WholeDrive.pass (sumD D E) (eqns o.cc_type) (Sum.elim o.ε o'.ε) _ = (WholeDrive.pass D (eqns o.cc_type) o.ε X).sum _
      cases eqns o.cc_type with
      | ccsdt =>
        have c := C63_ccsdt D E X Y
        have e1 := sum2_next (d := WholeDrive.den1 (Sum.elim o.ε o'.ε)) (dl := WholeDrive.den1 o.ε) (dr := WholeDrive.den1 o'.ε) (fun _ _ => rfl) (fun _ _ => rfl) c.1 X.t1 Y.t1
        have e2 := sum4_next (d := WholeDrive.den2 (Sum.elim o.ε o'.ε)) (dl := WholeDrive.den2 o.ε) (dr := WholeDrive.den2 o'.ε) (fun _ _ _ _ => rfl) (fun _ _ _ _ => rfl) c.2.1 X.t2 Y.t2
        have e3 := sum6_next (d := WholeDrive.den3 (Sum.elim o.ε o'.ε)) (dl := WholeDrive.den3 o.ε) (dr := WholeDrive.den3 o'.ε) (fun _ _ _ _ _ _ => rfl) (fun _ _ _ _ _ _ => rfl) c.2.2 X.t3 Y.t3
        have b : ∀ {x x' y y' z z'}, x = x' → y = y' → z = z' → ({ X.sum Y with t1 := x, t2 := y, t3 := z } : SO (I ⊕ J) ℝ) = { X.sum Y with t1 := x', t2 := y', t3 := z' } := by
          rintro _ _ _ _ _ _ rfl rfl rfl; rfl
        exact b e1 e2 e3
      | ccsd =>
        have c := C63_ccsd D E X Y
        have e1 := sum2_next (d := WholeDrive.den1 (Sum.elim o.ε o'.ε)) (dl := WholeDrive.den1 o.ε) (dr := WholeDrive.den1 o'.ε) (fun _ _ => rfl) (fun _ _ => rfl) c.2.2.1 X.t1 Y.t1
        have e2 := sum4_next (d := WholeDrive.den2 (Sum.elim o.ε o'.ε)) (dl := WholeDrive.den2 o.ε) (dr := WholeDrive.den2 o'.ε) (fun _ _ _ _ => rfl) (fun _ _ _ _ => rfl) c.2.2.2 X.t2 Y.t2
        have b : ∀ {x x' y y'}, x = x' → y = y' → ({ X.sum Y with t1 := x, t2 := y } : SO (I ⊕ J) ℝ) = { X.sum Y with t1 := x', t2 := y' } := by
          rintro _ _ _ _ rfl rfl; rfl
        exact b e1 e2
      | ccdq =>
        have c := C63_ccdq D E X Y
        have e2 := sum4_next (d := WholeDrive.den2 (Sum.elim o.ε o'.ε)) (dl := WholeDrive.den2 o.ε) (dr := WholeDrive.den2 o'.ε) (fun _ _ _ _ => rfl) (fun _ _ _ _ => rfl) c.1 X.t2 Y.t2
        have e4 := sum8_next (d := WholeDrive.den4 (Sum.elim o.ε o'.ε)) (dl := WholeDrive.den4 o.ε) (dr := WholeDrive.den4 o'.ε) (fun _ _ _ _ _ _ _ _ => rfl) (fun _ _ _ _ _ _ _ _ => rfl) c.2 X.t4 Y.t4
        have b : ∀ {x x' y y'}, x = x' → y = y' → ({ X.sum Y with t2 := x, t4 := y } : SO (I ⊕ J) ℝ) = { X.sum Y with t2 := x', t4 := y' } := by
          rintro _ _ _ _ rfl rfl; rfl
        exact b e2 e4
      | ccd =>
        have n0 : noSingles (X.sum Y) = (noSingles X).sum (noSingles Y) := by
          have b : ∀ {x x'}, x = x' → ({ X.sum Y with t1 := x } : SO (I ⊕ J) ℝ) = { X.sum Y with t1 := x' } := by rintro _ _ rfl; rfl
          refine b ?_
          funext a i; rcases a with a | a <;> rcases i with i | i <;> rfl
        have c := C63_ccsd D E (noSingles X) (noSingles Y)
        rw [← n0] at c
        have e2 := sum4_next (d := WholeDrive.den2 (Sum.elim o.ε o'.ε)) (dl := WholeDrive.den2 o.ε) (dr := WholeDrive.den2 o'.ε) (fun _ _ _ _ => rfl) (fun _ _ _ _ => rfl) c.2.2.2 X.t2 Y.t2
        have b : ∀ {x x'}, x = x' → ({ X.sum Y with t2 := x } : SO (I ⊕ J) ℝ) = { X.sum Y with t2 := x' } := by rintro _ _ rfl; rfl
        exact b e2
  refine ⟨key, ?_⟩
  unfold driveE WholeDrive.energy
  rw [key, hn, (C63_ccsd D E _ _).1, (C63_ccsd D E _ _).2.1]
  show (if hasSub "S" o.cc_type = true then _ else _) = _
  split <;> rfl

end fragments

end Verif.Props
