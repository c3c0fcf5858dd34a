import Verif.Model.WholeUcc4
import Verif.Props.WholeSlow
import Verif.Props.Ucc4
import Verif.Props.Selection
import Verif.Props.Relabel
import Verif.Props.Matrix
import Verif.Ein.Cast

/-!
# UCC(4) calculations from start to end (C89)

What a calculation with the method `UCC(4)` returns, with any number of passes and with or without DIIS.
-/

namespace Verif.Props

open Verif.Ein Verif.UT2 Verif.Kernel Verif.WholeUcc4 Verif.Py Verif.Wick

variable {I : Type} [DecidableEq I] [Inhabited I] (D : Nat → Finset I)

/-! ## passes -/

/-- A loop whose passes and energies all end without an error returns. `Inv` is what is known before pass `idx`. -/
theorem run_returns {A D' K : Type} [Field K] [LinearOrder K] (c : Cfg A D' K) (Inv : ℕ → St A D' → Prop)
    (hs : ∀ idx s, idx < c.maxIter → Inv idx s → ∃ s', c.step s = .ok s' ∧ Inv (idx + 1) s') (hE : ∀ a, ∃ e, c.energy a = .ok e)
    (h1 : 1 ≤ c.maxIter) (h2 : c.maxIter ≤ 76) (s : St A D') (h0 : Inv 0 s) : ∃ r, c.run s = .ok r := by
  have hl : ∀ n idx old cur s log, idx + n = c.maxIter → (n = 0 → cur.isSome) → Inv idx s →
      ∃ s' e log', c.loop n idx old cur s log = .ok (s', some e, log') := by
    intro n
    induction n with
    | zero =>
      intro idx old cur s log _ hc _
      obtain ⟨e, rfl⟩ := Option.isSome_iff_exists.1 (hc rfl)
      exact ⟨s, e, log, rfl⟩
    | succ n ih =>
      intro idx old cur s log hn _ hi
      obtain ⟨s', h', hi'⟩ := hs idx s (by omega) hi
      obtain ⟨e, he⟩ := hE s'.amps
      unfold Cfg.loop
      rw [if_neg (by omega), h']
      simp only [Bind.bind, Except.bind, he]
      split
      · exact ⟨_, _, _, rfl⟩
      · rw [if_neg (by omega)]
        exact ih _ _ _ _ _ (by omega) (fun _ => rfl) hi'
  obtain ⟨e0, he0⟩ := hE s.amps
  obtain ⟨s', e, log, h⟩ := hl c.maxIter 0 e0 none s [] (by omega) (by omega) h0
  exact ⟨⟨s', e, log⟩, (run_from c s e0 he0 _).2 h⟩

/-- A pass that ends without an error. -/
theorem ucc_step (o : Opts I) (s s' : St (SO I ℝ) (Acc D)) (h : (cfg D o).step s = .ok s') :
    hasSub "UCC(4)" o.cc_type = true ∧ accel D o.diis.isSome s.diis (pass D o.ε s.amps) = .ok (s'.diis, s'.amps) := by
  obtain ⟨a, ha, hb, -⟩ := (step_ok_iff _ _ _).1 h
  simp only [cfg] at ha
  split at ha
  · next hc =>
    simp only [Except.ok.injEq] at ha
    exact ⟨hc, ha ▸ hb⟩
  · cases ha

/-- A property of the arrays that passes keep, and that linear combinations of amplitude vectors keep, holds at the end. -/
theorem ucc_keeps (o : Opts I) (P : SO I ℝ → Prop) (W : Submodule ℝ (Slot D → ℝ)) (hstep : ∀ S, P S → P (pass D o.ε S))
    (hpack : ∀ S, P S → pack D S ∈ W) (hunpack : ∀ S v, P S → v ∈ W → P (unpack D v S))
    (S : SO I ℝ) (hS : P (start o.ε S)) (r : Res (SO I ℝ) (Acc D) ℝ) (h : calculate D o S = .ok r) : P r.st.amps := by
  refine (run_keeps (cfg D o) (fun s => P s.amps ∧ ∀ x ∈ s.diis.1.prev, x ∈ W) ?_ _ ⟨hS, ?_⟩ r h).1
  · rintro s s' ⟨h1, h2⟩ hs
    obtain ⟨-, hb⟩ := ucc_step D o s s' hs
    have hPa := hstep _ h1
    generalize pass D o.ε s.amps = a at *
    simp only [accel] at hb
    split at hb
    · split at hb
      · cases hb
      · next v hv =>
        simp only [Except.ok.injEq, Prod.mk.injEq] at hb
        obtain ⟨hd, hu⟩ := hb
        rw [← hd, ← hu]
        exact ⟨hunpack a v hPa (newVec_mem W _ _ _ v h2 (hpack a hPa) hv), push_mem W _ _ _ h2 (hpack a hPa)⟩
    · simp only [Except.ok.injEq, Prod.mk.injEq] at hb
      obtain ⟨hd, hu⟩ := hb
      rw [← hd, ← hu]
      exact ⟨hPa, h2⟩
  · intro x hx
    simp [initial, Diis.init] at hx

omit [DecidableEq I] in
/-- The energy for the name `UCC(4)`. -/
theorem ucc_energy (ε : I → ℝ) (S : SO I ℝ) : WholeUcc4.energy D "UCC(4)" ε S = .ok (ccdEnergy D S + uccPart D (WholeUcc4.den2 ε) S) := by
  have hf : WholeSlow.xccdFlag "UCC(4)" = false := by decide +kernel
  unfold WholeUcc4.energy WholeSlow.energy
  rw [hf]
  rfl

/-! ## antisymmetry -/

/-- Integrals with their symmetries, and doubles and triples that are antisymmetric in the occupied orbitals. -/
structure OccAnti (S : SO I ℝ) : Prop where
  f_herm : ∀ p q, S.f p q = S.f q p
  g_anti0 : ∀ p q r s, S.g p q r s = - S.g q p r s
  g_anti2 : ∀ p q r s, S.g p q r s = - S.g p q s r
  g_herm : ∀ p q r s, S.g p q r s = S.g r s p q
  t2 : ∀ a b i j, S.t2 a b i j = - S.t2 a b j i
  t3_ij : ∀ a b c i j k, S.t3 a b c i j k = - S.t3 a b c j i k
  t3_jk : ∀ a b c i j k, S.t3 a b c i j k = - S.t3 a b c i k j

/-- What the normaliser may use of such arrays. -/
def occKinds (t : Nat) : Kind :=
  if t = 15 then ⟨[], true⟩ else if t = 23 then ⟨[true, false, true, false], true⟩ else
  if t = 39 then ⟨[false, false, true, false], false⟩ else if t = 71 then ⟨[true, false, false, false], false⟩ else
  if t = 47 then ⟨[false, false, false, true, true, false], false⟩ else ⟨[], false⟩

omit [DecidableEq I] [Inhabited I] in
theorem OccAnti.holds {S : SO I ℝ} (h : OccAnti S) (t : Nat) : (occKinds t).Holds ((WholeUcc4.withDag S).T t) := by
  by_cases h15 : t = 15
  · subst h15; exact holds2h S.f h.f_herm
  by_cases h23 : t = 23
  · subst h23; exact holds4TFTFh S.g h.g_anti0 h.g_anti2 h.g_herm
  by_cases h39 : t = 39
  · subst h39
    refine ⟨fun l₁ x y l₂ hl => ?_, fun h => by cases h⟩
    show at4 S.t2 _ = - at4 S.t2 _
    rcases l₁ with _ | ⟨a0, _ | ⟨a1, _ | ⟨a2, _ | ⟨c, cs⟩⟩⟩⟩
    · simp [occKinds] at hl
    · simp [occKinds] at hl
    · rcases l₂ with _ | ⟨d, ds⟩
      · simpa [at4] using h.t2 a0 a1 x y
      · simp [at4]
    · simp [occKinds] at hl
    · simp [occKinds] at hl
  by_cases h71 : t = 71
  · subst h71
    refine ⟨fun l₁ x y l₂ hl => ?_, fun h => by cases h⟩
    show at4 (fun i j a b => S.t2 a b i j) _ = - at4 (fun i j a b => S.t2 a b i j) _
    rcases l₁ with _ | ⟨a0, _ | ⟨a1, _ | ⟨a2, _ | ⟨c, cs⟩⟩⟩⟩
    · rcases l₂ with _ | ⟨b0, _ | ⟨b1, _ | ⟨d, ds⟩⟩⟩
      · simp [at4]
      · simp [at4]
      · simpa [at4] using h.t2 b0 b1 x y
      · simp [at4]
    · simp [occKinds] at hl
    · simp [occKinds] at hl
    · simp [occKinds] at hl
    · simp [occKinds] at hl
  by_cases h47 : t = 47
  · subst h47
    refine ⟨fun l₁ x y l₂ hl => ?_, fun h => by cases h⟩
    show at6 S.t3 _ = - at6 S.t3 _
    rcases l₁ with _ | ⟨a0, _ | ⟨a1, _ | ⟨a2, _ | ⟨a3, _ | ⟨a4, _ | ⟨c, cs⟩⟩⟩⟩⟩⟩
    · simp [occKinds] at hl
    · simp [occKinds] at hl
    · simp [occKinds] at hl
    · rcases l₂ with _ | ⟨b0, _ | ⟨d, ds⟩⟩
      · simp [at6]
      · simpa [at6] using h.t3_ij a0 a1 a2 x y b0
      · simp [at6]
    · rcases l₂ with _ | ⟨d, ds⟩
      · simpa [at6] using h.t3_jk a0 a1 a2 a3 x y
      · simp [at6]
    · simp [occKinds] at hl
    · simp [occKinds] at hl
  unfold occKinds
  rw [if_neg h15, if_neg h23, if_neg h39, if_neg h71, if_neg h47]
  exact ⟨fun l₁ x y l₂ hl => by simp at hl, fun h => by cases h⟩

open N in
theorem occ_ccd : isZero occKinds [aᵥ, bᵥ, iₒ, jₒ] 4 (Gen.ccd_t2residual ++ Prog.outs [0, 1, 3, 2] Gen.ccd_t2residual)
    Cert.ccd_t2residual_anti1_cert_0 = true := by decide +kernel
open N in
theorem occ_sq : isZero occKinds [aᵥ, bᵥ, iₒ, jₒ] 8 (Gen.offset_t2resid_t2squared ++ Prog.outs [0, 1, 3, 2] Gen.offset_t2resid_t2squared)
    Cert.offset_t2resid_t2squared_anti1_cert_0 = true := by decide +kernel
open N in
theorem occ_dag : isZero occKinds [aᵥ, bᵥ, iₒ, jₒ] 4 (Gen.offset_t2resid_t2dag_w_t2 ++ Prog.outs [0, 1, 3, 2] Gen.offset_t2resid_t2dag_w_t2)
    Cert.offset_t2resid_t2dag_w_t2_anti1_cert_0 = true := by decide +kernel
open N in
theorem occ_t1t3 : isZero occKinds [aᵥ, bᵥ, iₒ, jₒ] 4 (Gen.offset_t2resid_T1_T3 ++ Prog.outs [0, 1, 3, 2] Gen.offset_t2resid_T1_T3)
    Cert.offset_t2resid_T1_T3_anti1_cert_0 = true := by decide +kernel
open N in
theorem occ_t3_ij : isZero occKinds [aᵥ, bᵥ, cᵥ, iₒ, jₒ, kₒ] 1 (Gen.t3_resid ++ Prog.outs [0, 1, 2, 4, 3, 5] Gen.t3_resid)
    Cert.t3_resid_anti2_cert_0 = true := by decide +kernel
open N in
theorem occ_t3_jk : isZero occKinds [aᵥ, bᵥ, cᵥ, iₒ, jₒ, kₒ] 1 (Gen.t3_resid ++ Prog.outs [0, 1, 2, 3, 5, 4] Gen.t3_resid)
    Cert.t3_resid_anti3_cert_0 = true := by decide +kernel

omit [DecidableEq I] in
/-- One pass keeps the antisymmetry in the occupied orbitals. -/
theorem C89_step_occupied (ε : I → ℝ) (S : SO I ℝ) (hS : OccAnti S) : OccAnti (pass D ε S) := by
  have H := hS.holds
  have e4 : ∀ {d : Nat} {P : Prog} {cs : List Nat}, isZero occKinds [N.aᵥ, N.bᵥ, N.iₒ, N.jₒ] d (P ++ P.outs [0, 1, 3, 2]) cs = true →
      P.wf 4 = true → ∀ a b i j, P.eval D (WholeUcc4.withDag S).T [a, b, j, i] = - P.eval D (WholeUcc4.withDag S).T [a, b, i, j] :=
    fun h hw a b i j => eval_anti_of_isZero D _ occKinds H _ 4 _ _ _ _ h (by decide) hw [a, b, i, j] rfl rfl
  have c1 := e4 occ_ccd (by decide +kernel)
  have c2 := e4 occ_sq (by decide +kernel)
  have c3 := e4 occ_dag (by decide +kernel)
  have c4 := e4 occ_t1t3 (by decide +kernel)
  have d1 : ∀ a b c i j k, t3_resid D (WholeUcc4.withDag S) a b c j i k = - t3_resid D (WholeUcc4.withDag S) a b c i j k := fun a b c i j k =>
    eval_anti_of_isZero D _ occKinds H _ 6 _ _ _ _ occ_t3_ij (by decide) (by decide +kernel) [a, b, c, i, j, k] rfl rfl
  have d2 : ∀ a b c i j k, t3_resid D (WholeUcc4.withDag S) a b c i k j = - t3_resid D (WholeUcc4.withDag S) a b c i j k := fun a b c i j k =>
    eval_anti_of_isZero D _ occKinds H _ 6 _ _ _ _ occ_t3_jk (by decide) (by decide +kernel) [a, b, c, i, j, k] rfl rfl
  refine ⟨hS.f_herm, hS.g_anti0, hS.g_anti2, hS.g_herm, fun a b i j => ?_, fun a b c i j k => ?_, fun a b c i j k => ?_⟩
  · have q1 : ccd_t2residual D (WholeUcc4.withDag S) a b j i = - ccd_t2residual D (WholeUcc4.withDag S) a b i j := c1 a b i j
    have q2 : offset_t2resid_t2squared D (WholeUcc4.withDag S) a b j i = - offset_t2resid_t2squared D (WholeUcc4.withDag S) a b i j := c2 a b i j
    have q3 : offset_t2resid_t2dag_w_t2 D (WholeUcc4.withDag S) a b j i = - offset_t2resid_t2dag_w_t2 D (WholeUcc4.withDag S) a b i j := c3 a b i j
    have q4 : offset_t2resid_T1_T3 D (WholeUcc4.withDag S) a b j i = - offset_t2resid_T1_T3 D (WholeUcc4.withDag S) a b i j := c4 a b i j
    have hd : WholeUcc4.den2 ε a b j i = WholeUcc4.den2 ε a b i j := by unfold WholeUcc4.den2; congr 1; ring
    show (ccd_t2residual D (WholeUcc4.withDag S) a b i j - offset_t2resid_t2squared D (WholeUcc4.withDag S) a b i j
        + offset_t2resid_t2dag_w_t2 D (WholeUcc4.withDag S) a b i j + offset_t2resid_T1_T3 D (WholeUcc4.withDag S) a b i j + _ * S.t2 a b i j) * _ =
      -((ccd_t2residual D (WholeUcc4.withDag S) a b j i - offset_t2resid_t2squared D (WholeUcc4.withDag S) a b j i
        + offset_t2resid_t2dag_w_t2 D (WholeUcc4.withDag S) a b j i + offset_t2resid_T1_T3 D (WholeUcc4.withDag S) a b j i + _ * S.t2 a b j i) * _)
    rw [q1, q2, q3, q4, hd, hS.t2 a b j i]
    ring
  · have hd : den3 ε a b c j i k = den3 ε a b c i j k := by unfold den3; congr 1; ring
    show (t3_resid D (WholeUcc4.withDag S) a b c i j k + _ * S.t3 a b c i j k) * _ = -((t3_resid D (WholeUcc4.withDag S) a b c j i k + _ * S.t3 a b c j i k) * _)
    rw [d1, hd, hS.t3_ij a b c j i k]
    ring
  · have hd : den3 ε a b c i k j = den3 ε a b c i j k := by unfold den3; congr 1; ring
    show (t3_resid D (WholeUcc4.withDag S) a b c i j k + _ * S.t3 a b c i j k) * _ = -((t3_resid D (WholeUcc4.withDag S) a b c i k j + _ * S.t3 a b c i k j) * _)
    rw [d2, hd, hS.t3_jk a b c i k j]
    ring

/-- Vectors that are antisymmetric in the occupied orbitals. -/
def occVec : Submodule ℝ (Slot D → ℝ) where
  carrier := {v | (∀ a b i j, v (.inr (.inl ((a, b), i, j))) = - v (.inr (.inl ((a, b), j, i)))) ∧
    (∀ a b c i j k, v (.inr (.inr ((a, b, c), i, j, k))) = - v (.inr (.inr ((a, b, c), j, i, k)))) ∧
    ∀ a b c i j k, v (.inr (.inr ((a, b, c), i, j, k))) = - v (.inr (.inr ((a, b, c), i, k, j)))}
  zero_mem' := by simp
  add_mem' := fun {v w} hv hw => by
    refine ⟨fun a b i j => ?_, fun a b c i j k => ?_, fun a b c i j k => ?_⟩
    · show v _ + w _ = - (v _ + w _); rw [hv.1, hw.1]; ring
    · show v _ + w _ = - (v _ + w _); rw [hv.2.1, hw.2.1]; ring
    · show v _ + w _ = - (v _ + w _); rw [hv.2.2, hw.2.2]; ring
  smul_mem' := fun c v hv => by
    refine ⟨fun a b i j => ?_, fun a b d i j k => ?_, fun a b d i j k => ?_⟩
    · show c * v _ = - (c * v _); rw [hv.1]; ring
    · show c * v _ = - (c * v _); rw [hv.2.1]; ring
    · show c * v _ = - (c * v _); rw [hv.2.2]; ring

/-- **C89** The doubles and triples that a calculation returns are antisymmetric in the occupied orbitals. Missing: the virtual
orbitals, see `C89_violated`. -/
theorem C89_antisymmetry_partial (o : Opts I) (S : SO I ℝ) (hS : S.Sym) (r : Res (SO I ℝ) (Acc D) ℝ) (h : calculate D o S = .ok r) :
    OccAnti r.st.amps := by
  refine ucc_keeps D o OccAnti (occVec D) (C89_step_occupied D o.ε) ?_ ?_ S ?_ r h
  · exact fun B hB => ⟨fun _ _ _ _ => hB.t2 _ _ _ _, fun _ _ _ _ _ _ => hB.t3_ij _ _ _ _ _ _, fun _ _ _ _ _ _ => hB.t3_jk _ _ _ _ _ _⟩
  · intro B v hB hv
    refine ⟨hB.f_herm, hB.g_anti0, hB.g_anti2, hB.g_herm, fun a b i j => ?_, fun a b c i j k => ?_, fun a b c i j k => ?_⟩
    · show dite _ _ _ = - dite _ _ _
      by_cases q : a ∈ D 1 ∧ b ∈ D 1 ∧ i ∈ D 0 ∧ j ∈ D 0
      · rw [dif_pos q, dif_pos ⟨q.1, q.2.1, q.2.2.2, q.2.2.1⟩]; exact hv.1 _ _ _ _
      · rw [dif_neg q, dif_neg fun h' => q ⟨h'.1, h'.2.1, h'.2.2.2, h'.2.2.1⟩]; exact hB.t2 _ _ _ _
    · show dite _ _ _ = - dite _ _ _
      by_cases q : a ∈ D 1 ∧ b ∈ D 1 ∧ c ∈ D 1 ∧ i ∈ D 0 ∧ j ∈ D 0 ∧ k ∈ D 0
      · rw [dif_pos q, dif_pos ⟨q.1, q.2.1, q.2.2.1, q.2.2.2.2.1, q.2.2.2.1, q.2.2.2.2.2⟩]; exact hv.2.1 _ _ _ _ _ _
      · rw [dif_neg q, dif_neg fun h' => q ⟨h'.1, h'.2.1, h'.2.2.1, h'.2.2.2.2.1, h'.2.2.2.1, h'.2.2.2.2.2⟩]; exact hB.t3_ij _ _ _ _ _ _
    · show dite _ _ _ = - dite _ _ _
      by_cases q : a ∈ D 1 ∧ b ∈ D 1 ∧ c ∈ D 1 ∧ i ∈ D 0 ∧ j ∈ D 0 ∧ k ∈ D 0
      · rw [dif_pos q, dif_pos ⟨q.1, q.2.1, q.2.2.1, q.2.2.2.1, q.2.2.2.2.2, q.2.2.2.2.1⟩]; exact hv.2.2 _ _ _ _ _ _
      · rw [dif_neg q, dif_neg fun h' => q ⟨h'.1, h'.2.1, h'.2.2.1, h'.2.2.2.1, h'.2.2.2.2.2, h'.2.2.2.2.1⟩]; exact hB.t3_jk _ _ _ _ _ _
  · refine ⟨hS.f_herm, hS.g_anti0, hS.g_anti2, hS.g_herm, fun a b i j => ?_, fun _ _ _ _ _ _ => neg_zero.symm, fun _ _ _ _ _ _ => neg_zero.symm⟩
    have hd : WholeUcc4.den2 o.ε a b j i = WholeUcc4.den2 o.ε a b i j := by unfold WholeUcc4.den2; congr 1; ring
    show S.g a b i j * _ = -(S.g a b j i * _)
    rw [hS.g_anti2 a b i j, hd]
    ring

/-- **C89** With at most two occupied spin orbitals the triples of the result are zero. -/
theorem C89_two_electrons (o : Opts I) (S : SO I ℝ) (hS : S.Sym) (hc : (D 0).card ≤ 2) (r : Res (SO I ℝ) (Acc D) ℝ)
    (h : calculate D o S = .ok r) (a b c i j k : I) (hi : i ∈ D 0) (hj : j ∈ D 0) (hk : k ∈ D 0) : r.st.amps.t3 a b c i j k = 0 := by
  have H := C89_antisymmetry_partial D o S hS r h
  have z : ∀ x : ℝ, x = -x → x = 0 := fun x hx => by linarith
  by_cases h1 : i = j
  · subst h1; exact z _ (H.t3_ij a b c i i k)
  by_cases h2 : j = k
  · subst h2; exact z _ (H.t3_jk a b c i j j)
  by_cases h3 : i = k
  · subst h3
    rw [H.t3_ij a b c i j i, H.t3_jk a b c j i i] 
    rw [z _ (H.t3_jk a b c j i i)]
    simp
  · exfalso
    have : ({i, j, k} : Finset I).card = 3 := Finset.card_eq_three.2 ⟨i, j, k, h1, h3, h2, rfl⟩
    have hs : ({i, j, k} : Finset I) ⊆ D 0 := by
      intro x hx
      simp only [Finset.mem_insert, Finset.mem_singleton] at hx
      rcases hx with rfl | rfl | rfl <;> assumption
    have := Finset.card_le_card hs
    omega

/-! ## selection rules -/

variable {G : Type} [AddCommGroup G]

/-- Vectors that vanish at positions whose charges do not balance. -/
def uccBalanced (κ : I → G) : Submodule ℝ (Slot D → ℝ) where
  carrier := {v | (∀ a i, v (.inl (a, i)) ≠ 0 → κ a = κ i) ∧ (∀ a b i j, v (.inr (.inl ((a, b), i, j))) ≠ 0 → κ a + κ b = κ i + κ j) ∧
    ∀ a b c i j k, v (.inr (.inr ((a, b, c), i, j, k))) ≠ 0 → κ a + κ b + κ c = κ i + κ j + κ k}
  add_mem' := fun hv hw => ⟨fun a i h => add_ne (hv.1 a i) (hw.1 a i) h, fun a b i j h => add_ne (hv.2.1 a b i j) (hw.2.1 a b i j) h,
    fun a b c i j k h => add_ne (hv.2.2 a b c i j k) (hw.2.2 a b c i j k) h⟩
  zero_mem' := ⟨fun _ _ h => absurd rfl h, fun _ _ _ _ h => absurd rfl h, fun _ _ _ _ _ _ h => absurd rfl h⟩
  smul_mem' := fun _ _ hv => ⟨fun a i h => mul_ne (hv.1 a i) h, fun a b i j h => mul_ne (hv.2.1 a b i j) h,
    fun a b c i j k h => mul_ne (hv.2.2 a b c i j k) h⟩

/-- **C89** The amplitudes a calculation returns obey the selection rules of every charge that the integrals conserve. -/
theorem C89_selection (κ : I → G) (o : Opts I) (S : SO I ℝ) (hS : S.Conserves κ) (r : Res (SO I ℝ) (Acc D) ℝ)
    (h : calculate D o S = .ok r) : r.st.amps.Conserves κ := by
  refine ucc_keeps D o (fun B => B.Conserves κ) (uccBalanced D κ) (fun B hB => C67_step_ucc4 D _ _ _ hB) ?_ ?_ S ?_ r h
  · exact fun B hB => ⟨fun _ _ => hB.t1 _ _, fun _ _ _ _ => hB.t2 _ _ _ _, fun _ _ _ _ _ _ => hB.t3 _ _ _ _ _ _⟩
  · intro B v hB hv
    refine { hB with
      t1 := fun a i hne => ?_
      t2 := fun a b i j hne => ?_
      t3 := fun a b c i j k hne => ?_ }
    · simp only [unpack] at hne
      split at hne
      · exact hv.1 _ _ hne
      · exact hB.t1 _ _ hne
    · simp only [unpack] at hne
      split at hne
      · exact hv.2.1 _ _ _ _ hne
      · exact hB.t2 _ _ _ _ hne
    · simp only [unpack] at hne
      split at hne
      · exact hv.2.2 _ _ _ _ _ _ hne
      · exact hB.t3 _ _ _ _ _ _ hne
  · exact { hS with
      t1 := fun _ _ h => absurd rfl h
      t2 := fun a b i j h => hS.g a b i j (left_ne_zero_of_mul h)
      t3 := fun _ _ _ _ _ _ h => absurd rfl h }

/-! ## order of the orbitals -/

/-- Renaming of the orbitals of a position. -/
def uccRelabelSlot (e : I ≃ I) (hD : ∀ s x, e x ∈ D s ↔ x ∈ D s) : Slot D ≃ Slot D :=
  let f (s : Nat) : {x // x ∈ D s} ≃ {x // x ∈ D s} := e.subtypeEquiv fun x => (hD s x).symm
  ((f 1).prodCongr (f 0)).sumCongr ((((f 1).prodCongr (f 1)).prodCongr ((f 0).prodCongr (f 0))).sumCongr
    (((f 1).prodCongr ((f 1).prodCongr (f 1))).prodCongr ((f 0).prodCongr ((f 0).prodCongr (f 0)))))

/-- Options with renamed orbitals. -/
def uccRelabelOpts (e : I → I) (o : Opts I) : Opts I := { o with ε := fun p => o.ε (e p) }

omit [DecidableEq I] in
theorem uccPart_relabel (e : I ≃ I) (hD : ∀ s x, e x ∈ D s ↔ x ∈ D s) (ε : I → ℝ) (S : SO I ℝ) :
    uccPart D (WholeUcc4.den2 fun p => ε (e p)) (S.comap e) = uccPart D (WholeUcc4.den2 ε) S := by
  have hs : ∀ (s : Nat) (F : I → ℝ), ∑ x ∈ D s, F (e x) = ∑ x ∈ D s, F x := fun s F =>
    Finset.sum_equiv e (fun x => (hD s x).symm) fun _ _ => rfl
  have q := (C42_so_ucc4 D e hD (WholeUcc4.withDag S)).2.2.2.1
  have hw : WholeUcc4.withDag (S.comap e) = (WholeUcc4.withDag S).comap e := rfl
  unfold uccPart
  refine Eq.trans (Finset.sum_congr rfl fun a _ => ?_) (hs 1 _)
  refine Eq.trans (Finset.sum_congr rfl fun b _ => ?_) (hs 1 _)
  refine Eq.trans (Finset.sum_congr rfl fun j _ => ?_) (hs 0 _)
  refine Eq.trans (Finset.sum_congr rfl fun i _ => ?_) (hs 0 _)
  rw [hw, q]
  rfl

/-- **C89** A calculation with the orbitals in another order fails in the same way or gives the same energies, after the same number
of passes, and the amplitudes in the other order. -/
theorem C89_orbital_order (e : I ≃ I) (hD : ∀ s x, e x ∈ D s ↔ x ∈ D s) (o : Opts I) (hc : o.cc_type = "UCC(4)") (S : SO I ℝ) :
    SameRun (fun r r' => r'.st.amps = r.st.amps.comap e ∧ r'.energy = r.energy ∧ r'.log = r.log)
      (calculate D o S) (calculate D (uccRelabelOpts e o) (S.comap e)) := by
  let φ := renumber (uccRelabelSlot D e hD)
  let R : St (SO I ℝ) (Acc D) → St (SO I ℝ) (Acc D) → Prop := fun s t => t.amps = s.amps.comap e ∧
    t.diis.1 = diisMap φ s.diis.1 ∧ t.diis.2 = φ s.diis.2
  have hstep : ∀ S : SO I ℝ, pass D (fun p => o.ε (e p)) (S.comap e) = (pass D o.ε S).comap e := by
    intro S
    obtain ⟨q1, q2, q3, q4, q5⟩ := C42_so_ucc4 D e hD (WholeUcc4.withDag S)
    have q6 := (C42_so_ccd D e hD (WholeUcc4.withDag S)).1
    have hw : WholeUcc4.withDag (S.comap e) = (WholeUcc4.withDag S).comap e := rfl
    have a1 : (pass D (fun p => o.ε (e p)) (S.comap e)).t1 = ((pass D o.ε S).comap e).t1 := by
      funext a i
      show (t1_residEqns D (WholeUcc4.withDag (S.comap e)) a i + _ * _) * _ = (t1_residEqns D (WholeUcc4.withDag S) (e a) (e i) + _ * _) * _
      rw [hw, q1]; rfl
    have a2 : (pass D (fun p => o.ε (e p)) (S.comap e)).t2 = ((pass D o.ε S).comap e).t2 := by
      funext a b i j
      show (ccd_t2residual D (WholeUcc4.withDag (S.comap e)) a b i j - offset_t2resid_t2squared D (WholeUcc4.withDag (S.comap e)) a b i j
        + offset_t2resid_t2dag_w_t2 D (WholeUcc4.withDag (S.comap e)) a b i j + offset_t2resid_T1_T3 D (WholeUcc4.withDag (S.comap e)) a b i j + _ * _) * _ =
        (ccd_t2residual D (WholeUcc4.withDag S) (e a) (e b) (e i) (e j) - offset_t2resid_t2squared D (WholeUcc4.withDag S) (e a) (e b) (e i) (e j)
        + offset_t2resid_t2dag_w_t2 D (WholeUcc4.withDag S) (e a) (e b) (e i) (e j) + offset_t2resid_T1_T3 D (WholeUcc4.withDag S) (e a) (e b) (e i) (e j) + _ * _) * _
      rw [hw, q3, q4, q5, q6]; rfl
    have a3 : (pass D (fun p => o.ε (e p)) (S.comap e)).t3 = ((pass D o.ε S).comap e).t3 := by
      funext a b c i j k
      show (t3_resid D (WholeUcc4.withDag (S.comap e)) a b c i j k + _ * _) * _ = (t3_resid D (WholeUcc4.withDag S) (e a) (e b) (e c) (e i) (e j) (e k) + _ * _) * _
      rw [hw, q2]; rfl
    have b : ∀ B C : SO I ℝ, B.t1 = C.t1 → B.t2 = C.t2 → B.t3 = C.t3 → { C with t1 := B.t1, t2 := B.t2, t3 := B.t3 } = C := by
      rintro ⟨⟩ ⟨⟩ h1 h2 h3
      simp only at h1 h2 h3
      subst h1 h2 h3
      rfl
    exact b _ _ a1 a2 a3
  have hpack : ∀ S : SO I ℝ, pack D (S.comap e) = φ (pack D S) := by
    intro S
    funext x
    obtain ⟨a, i⟩ | ⟨⟨a, b⟩, i, j⟩ | ⟨⟨a, b, c⟩, i, j, k⟩ := x <;> rfl
  have hunpack : ∀ (S : SO I ℝ) v, unpack D (φ v) (S.comap e) = (unpack D v S).comap e := by
    intro S v
    have a1 : (unpack D (φ v) (S.comap e)).t1 = ((unpack D v S).comap e).t1 := by
      funext a i
      show dite _ _ _ = dite _ _ _
      by_cases h : a ∈ D 1 ∧ i ∈ D 0
      · rw [dif_pos h, dif_pos (by simpa only [hD] using h)]; rfl
      · rw [dif_neg h, dif_neg (by simpa only [hD] using h)]; rfl
    have a2 : (unpack D (φ v) (S.comap e)).t2 = ((unpack D v S).comap e).t2 := by
      funext a b i j
      show dite _ _ _ = dite _ _ _
      by_cases h : a ∈ D 1 ∧ b ∈ D 1 ∧ i ∈ D 0 ∧ j ∈ D 0
      · rw [dif_pos h, dif_pos (by simpa only [hD] using h)]; rfl
      · rw [dif_neg h, dif_neg (by simpa only [hD] using h)]; rfl
    have a3 : (unpack D (φ v) (S.comap e)).t3 = ((unpack D v S).comap e).t3 := by
      funext a b c i j k
      show dite _ _ _ = dite _ _ _
      by_cases h : a ∈ D 1 ∧ b ∈ D 1 ∧ c ∈ D 1 ∧ i ∈ D 0 ∧ j ∈ D 0 ∧ k ∈ D 0
      · rw [dif_pos h, dif_pos (by simpa only [hD] using h)]; rfl
      · rw [dif_neg h, dif_neg (by simpa only [hD] using h)]; rfl
    have b : ∀ B C : SO I ℝ, B.t1 = C.t1 → B.t2 = C.t2 → B.t3 = C.t3 → { C with t1 := B.t1, t2 := B.t2, t3 := B.t3 } = C := by
      rintro ⟨⟩ ⟨⟩ h1 h2 h3
      simp only at h1 h2 h3
      subst h1 h2 h3
      rfl
    exact b _ _ a1 a2 a3
  have key := run_same (cfg D o) (cfg D (uccRelabelOpts e o)) rfl rfl R ?_ ?_ (initial D o S) (initial D (uccRelabelOpts e o) (S.comap e)) ?_
  · unfold calculate
    cases h1 : (cfg D o).run (initial D o S) <;> cases h2 : (cfg D (uccRelabelOpts e o)).run (initial D (uccRelabelOpts e o) (S.comap e)) <;>
      rw [h1, h2] at key
    · exact key
    · exact key
    · exact key
    · exact ⟨key.1.1, key.2⟩
  · rintro s t ⟨p, -, -⟩
    have e1 : ∀ B, (cfg D o).energy B = .ok (ccdEnergy D B + uccPart D (WholeUcc4.den2 o.ε) B) := by
      intro B; show WholeUcc4.energy D o.cc_type o.ε B = _; rw [hc, ucc_energy]
    have e2 : ∀ B, (cfg D (uccRelabelOpts e o)).energy B = .ok (ccdEnergy D B + uccPart D (WholeUcc4.den2 fun p => o.ε (e p)) B) := by
      intro B; show WholeUcc4.energy D o.cc_type (fun p => o.ε (e p)) B = _; rw [hc, ucc_energy]
    rw [e1, e2, p, uccPart_relabel D e hD, (C42_so_ccd D e hD _).2.2.1]
  · rintro s t ⟨p, h1, h2⟩
    have hu : hasSub "UCC(4)" o.cc_type = true := by rw [hc]; decide
    have a1 : (cfg D o).resid s.amps ((cfg D o).dag s.amps) = .ok (pass D o.ε s.amps) := if_pos hu
    have a2 : (cfg D (uccRelabelOpts e o)).resid t.amps ((cfg D (uccRelabelOpts e o)).dag t.amps) = .ok ((pass D o.ε s.amps).comap e) := by
      rw [← hstep, p]
      exact if_pos hu
    unfold Cfg.step
    simp only [a1, a2, Bind.bind, Except.bind]
    generalize pass D o.ε s.amps = B
    have b1 : (cfg D o).accel = accel D o.diis.isSome := rfl
    have b2 : (cfg D (uccRelabelOpts e o)).accel = accel D o.diis.isSome := rfl
    rw [b1, b2]
    unfold accel
    cases o.diis.isSome with
    | false => exact ⟨rfl, h1, h2⟩
    | true =>
      simp only [if_true]
      have e' : t.diis.1.newVec (pack D (B.comap e)) (t.diis.2 - pack D (B.comap e)) = (s.diis.1.newVec (pack D B) (s.diis.2 - pack D B)).map φ := by
        rw [h1, h2, hpack, ← map_sub, newVec_map _ (edot_renumber _)]
      rw [e']
      cases hv : s.diis.1.newVec (pack D B) (s.diis.2 - pack D B) with
      | none => exact rfl
      | some v =>
        refine ⟨hunpack B v, ?_, rfl⟩
        simp only
        rw [h1, h2, hpack, ← map_sub, push_map]
  · refine ⟨rfl, ?_, ?_⟩
    · simp [initial, Diis.init, diisMap, uccRelabelOpts]
    · simp [initial, φ]

/-! ## results -/

/-- Without DIIS, or before DIIS starts, every calculation of 1 to 76 passes returns, so the theorems above speak about all of them. -/
theorem C89_returns (o : Opts I) (hc : o.cc_type = "UCC(4)") (hd : o.diis = none ∨ o.maxIter ≤ o.start) (h1 : 1 ≤ o.maxIter)
    (h2 : o.maxIter ≤ 76) (S : SO I ℝ) : ∃ r, calculate D o S = .ok r := by
  have hres : ∀ B l, (cfg D o).resid B l = .ok (pass D o.ε B) := fun B l => if_pos (by rw [hc]; decide)
  refine run_returns (cfg D o) (fun idx s => s.diis.1.iterIdx = idx ∧ s.diis.1.startIter = o.start ∨ o.diis = none) ?_ ?_ h1 h2 _ (.inl ⟨rfl, rfl⟩)
  · intro idx s hi h
    by_cases hn : o.diis = none
    · refine ⟨⟨pass D o.ε s.amps, s.amps, s.diis⟩, (step_ok_iff _ _ _).2 ⟨_, hres _ _, ?_, rfl⟩, .inr hn⟩
      simp only [cfg, accel, hn, Option.isSome_none, Bool.false_eq_true, if_false]
    · obtain ⟨e1, e2⟩ := h.resolve_right hn
      have hst := hd.resolve_left hn
      have hi : idx < o.maxIter := hi
      have hlt : s.diis.1.iterIdx < s.diis.1.startIter := by rw [e1, e2]; omega
      have hsome : o.diis.isSome = true := Option.isSome_iff_ne_none.2 hn
      let B := pass D o.ε s.amps
      refine ⟨⟨unpack D (pack D B) B, s.amps, ⟨{ s.diis.1 with iterIdx := s.diis.1.iterIdx + 1 }, pack D B⟩⟩,
        (step_ok_iff _ _ _).2 ⟨B, hres _ _, ?_, rfl⟩, .inl ⟨congrArg (· + 1) e1, e2⟩⟩
      simp only [cfg, accel, hsome, if_true, Diis.State.newVec, if_pos hlt, Diis.State.push]
  · intro B
    refine ⟨ccdEnergy D B + uccPart D (WholeUcc4.den2 o.ε) B, ?_⟩
    show WholeUcc4.energy D o.cc_type o.ε B = _
    rw [hc, ucc_energy]

/-- **C89** The energy a calculation returns, and what `finalize` reports: the CCD energy of the returned doubles and the UCC part. -/
theorem C89_report (o : Opts I) (hc : o.cc_type = "UCC(4)") (S : SO I ℝ) (r : Res (SO I ℝ) (Acc D) ℝ) (h : calculate D o S = .ok r)
    (nucE hf : ℝ) :
    r.energy = ccdEnergy D r.st.amps + uccPart D (WholeUcc4.den2 o.ε) r.st.amps ∧
    finish D o nucE hf r = some (r.energy + nucE, nucE + r.energy - hf) := by
  constructor
  · have e := (C03_energy_of_returned_amplitudes _ _ r h).1
    have e' : WholeUcc4.energy D o.cc_type o.ε r.st.amps = .ok r.energy := e
    rw [hc, ucc_energy] at e'
    exact (Except.ok.inj e').symm
  · have hu : hasSub "UT2" "UCC(4)" = false := by decide +kernel
    unfold WholeUcc4.finish Finalize.finalize
    rw [hc]
    simp [Finalize.qfNames, hu]

omit [DecidableEq I] in
/-- **C89** A pass with a gap between occupied and virtual orbital energies leaves an amplitude alone exactly if its residual is
zero. -/
theorem C89_stationary (ε : I → ℝ) (gap : ∀ i ∈ D 0, ∀ a ∈ D 1, ε i < ε a) (S : SO I ℝ) (a b c i j k : I)
    (ha : a ∈ D 1) (hb : b ∈ D 1) (hc : c ∈ D 1) (hi : i ∈ D 0) (hj : j ∈ D 0) (hk : k ∈ D 0) :
    ((pass D ε S).t1 a i = S.t1 a i ↔ t1_residEqns D (WholeUcc4.withDag S) a i = 0) ∧
    ((pass D ε S).t2 a b i j = S.t2 a b i j ↔
      ccd_t2residual D (WholeUcc4.withDag S) a b i j - offset_t2resid_t2squared D (WholeUcc4.withDag S) a b i j
        + offset_t2resid_t2dag_w_t2 D (WholeUcc4.withDag S) a b i j + offset_t2resid_T1_T3 D (WholeUcc4.withDag S) a b i j = 0) ∧
    ((pass D ε S).t3 a b c i j k = S.t3 a b c i j k ↔ t3_resid D (WholeUcc4.withDag S) a b c i j k = 0) := by
  have next : ∀ r t d : ℝ, d ≠ 0 → ((r + d⁻¹ * t) * d = t ↔ r = 0) := by
    intro r t d hd
    rw [add_mul, mul_comm d⁻¹, mul_assoc, inv_mul_cancel₀ hd, mul_one, add_eq_right, mul_eq_zero, or_iff_left hd]
  have x1 := gap i hi a ha
  have x2 := gap j hj b hb
  have x3 := gap k hk c hc
  exact ⟨next _ _ _ (one_div_ne_zero (by linarith)), next _ _ _ (one_div_ne_zero (by linarith)), next _ _ _ (one_div_ne_zero (by linarith))⟩

section operators

variable {B : Type} [Ring B] [Algebra ℝ B] (F : Fermi I ℝ B D)

/-- **C89** For antisymmetric amplitudes: singles, doubles and triples that a pass leaves alone solve
`⟨a,i| F + [F,T1] + [V,T2] |⟩ = 0`, `⟨ab,ij| e^{-T2} H e^{T2} - 1/4 [[V,T2],T2] + [V,T1] + [V,T3] |⟩ + X = 0` and
`⟨abc,ijk| [F,T3] + [V,T2] |⟩ = 0`, where `X` is the array of `offset_t2resid_t2dag_w_t2`. -/
theorem C89_equations (hD : Disjoint (D 0) (D 1)) (ε : I → ℝ) (gap : ∀ i ∈ D 0, ∀ a ∈ D 1, ε i < ε a) (S : SO I ℝ) (hS : S.Sym)
    (h : I → I → ℝ) (hf : IsFock D h S.f S.g) (n : Nat) (hn : 3 ≤ n) (a b c i j k : I)
    (ha : a ∈ D 1) (hb : b ∈ D 1) (hc : c ∈ D 1) (hi : i ∈ D 0) (hj : j ∈ D 0) (hk : k ∈ D 0) :
    ((pass D ε S).t1 a i = S.t1 a i ↔
      F.ω (F.bra1 a i * (F.fockOp S.f + com (F.fockOp S.f) (F.T1 S.t1) + com (F.fluct h S.f S.g) (F.T2 S.t2))) = 0) ∧
    ((pass D ε S).t2 a b i j = S.t2 a b i j ↔
      F.ω (F.bra2 a b i j * (hbar F h S.g n (F.T2 S.t2) - (1/4 : ℝ) • com (com (F.fluct h S.f S.g) (F.T2 S.t2)) (F.T2 S.t2)
        + (com (F.fluct h S.f S.g) (F.T1 S.t1) + com (F.fluct h S.f S.g) (F.T3 S.t3))))
        + offset_t2resid_t2dag_w_t2 D (WholeUcc4.withDag S) a b i j = 0) ∧
    ((pass D ε S).t3 a b c i j k = S.t3 a b c i j k ↔
      F.ω (F.bra3 a b c i j k * (com (F.fockOp S.f) (F.T3 S.t3) + com (F.fluct h S.f S.g) (F.T2 S.t2))) = 0) := by
  obtain ⟨s1, s2, s3⟩ := C89_stationary D ε gap S a b c i j k ha hb hc hi hj hk
  have hB : (WholeUcc4.withDag S).Sym :=
    { hS with
      l2_anti0 := fun p q r s => hS.t2_anti2 r s p q
      l2_anti2 := fun p q r s => hS.t2_anti0 r s p q }
  have e1 := C77_ucc4_t1 F hD (WholeUcc4.withDag S) hB h hf a i ha hi
  have e3 := C77_ucc4_t3 F hD (WholeUcc4.withDag S) hB h hf a b c i j k ha hb hc hi hj hk
  have e2 := C75_ccd F hD (WholeUcc4.withDag S) hB h hf a b i j ha hb hi hj n hn
  have e4 := C77_ucc4_sq F hD (WholeUcc4.withDag S) hB h hf a b i j ha hb hi hj
  have e5 := C77_ucc4_t1t3 F hD (WholeUcc4.withDag S) hB h hf a b i j ha hb hi hj
  refine ⟨?_, ?_, ?_⟩
  · rw [s1, ← e1]; rfl
  · rw [s2, ← e2, ← e4, ← e5, add_right_comm, ← map_sub, ← mul_sub, ← map_add, ← mul_add]; rfl
  · rw [s3, ← e3]; rfl

end operators

/-! ## the antisymmetry that is lost -/

/-- The integrals of `uccArrays` as real numbers. -/
noncomputable def uccInts : SO ℕ ℝ where
  f p q := uccArrays.f p q
  g p q r s := uccArrays.g p q r s

theorem uccInts_sym : uccInts.Sym := by
  have h := uccArrays_sym
  constructor
  · exact fun p q => congrArg (fun x : ℚ => (x : ℝ)) (h.f_herm p q)
  · exact fun p q r s => (congrArg (fun x : ℚ => (x : ℝ)) (h.g_anti0 p q r s)).trans (Rat.cast_neg _)
  · exact fun p q r s => (congrArg (fun x : ℚ => (x : ℝ)) (h.g_anti2 p q r s)).trans (Rat.cast_neg _)
  · exact fun p q r s => congrArg (fun x : ℚ => (x : ℝ)) (h.g_herm p q r s)
  all_goals intros; exact neg_zero.symm

/-- The starting amplitudes for these integrals, with rational numbers. -/
def uccStart : SO ℕ ℚ where
  f := uccArrays.f
  g := uccArrays.g
  t2 a b i j := uccArrays.g a b i j * wd2 a b i j
  l2 i j a b := uccArrays.g a b i j * wd2 a b i j

theorem uccStart_offset : offset_t2resid_t2dag_w_t2 D44 uccStart 4 4 0 1 ≠ 0 := by decide +kernel

/-- Options of a calculation of one pass; the orbital energies are 1, 2, …, 8. -/
noncomputable def uccOpts : Opts ℕ := { cc_type := "UCC(4)", ε := fun p => (p : ℝ) + 1, maxIter := 1, eps := 1, diis := none, start := 0 }

theorem uccOpts_den (a b i j : ℕ) : WholeUcc4.den2 uccOpts.ε a b i j = ((wd2 a b i j : ℚ) : ℝ) := by
  simp only [WholeUcc4.den2, uccOpts, wd2, Witness.z]
  push_cast
  ring

/-- **C89** is violated: a whole calculation with antisymmetric integrals returns doubles that are not antisymmetric in the virtual
orbitals, although they are in the occupied ones. -/
theorem C89_violated : ∃ r, uccInts.Sym ∧ calculate D44 uccOpts uccInts = .ok r ∧ r.st.amps.t2 4 4 0 1 ≠ - r.st.amps.t2 4 4 0 1 := by
  obtain ⟨r, hr⟩ := C89_returns D44 uccOpts rfl (.inl rfl) (le_refl 1) (show 1 ≤ 76 by omega) uccInts
  refine ⟨r, uccInts_sym, hr, ?_⟩
  obtain ⟨q, h0, hn, hp, -⟩ := C01_passes _ _ r hr
  have hlen : r.log.length = 1 := by
    obtain ⟨l1, l2, -⟩ := C01_iteration_budget _ _ r hr
    have : (cfg D44 uccOpts).maxIter = 1 := rfl
    omega
  rw [hlen] at hn hp
  have hs : (cfg D44 uccOpts).step (q 0) = .ok (q 1) := (step_ok_iff _ _ _).2 (hp 0 (by omega))
  obtain ⟨-, hb⟩ := ucc_step D44 uccOpts _ _ hs
  have hamps : r.st.amps = pass D44 uccOpts.ε (start uccOpts.ε uccInts) := by
    rw [h0, hn] at hb
    simp only [accel, uccOpts, Option.isSome_none, Bool.false_eq_true, if_false, Except.ok.injEq, Prod.mk.injEq] at hb
    exact hb.2.symm
  rw [hamps]
  have hS : (start uccOpts.ε uccInts).Sym := by
    have := start_sym (WholeUcc4.den2 uccOpts.ε) ⟨fun a b i j => by simp only [WholeUcc4.den2]; congr 1; ring,
      fun a b i j => by simp only [WholeUcc4.den2]; congr 1; ring⟩ uccInts uccInts_sym
    exact { this with t3_anti0 := fun _ _ _ _ _ _ => neg_zero.symm, t3_anti1 := fun _ _ _ _ _ _ => neg_zero.symm,
                      t3_anti3 := fun _ _ _ _ _ _ => neg_zero.symm, t3_anti4 := fun _ _ _ _ _ _ => neg_zero.symm }
  have hB : (WholeUcc4.withDag (start uccOpts.ε uccInts)).Sym :=
    { hS with
      l2_anti0 := fun p q r s => hS.t2_anti2 r s p q
      l2_anti2 := fun p q r s => hS.t2_anti0 r s p q }
  have z : ∀ v : ℝ, v = - v → v = 0 := fun v h => by linarith
  have e : offset_t2resid_t2dag_w_t2 D44 (WholeUcc4.withDag (start uccOpts.ε uccInts)) 4 4 0 1 =
      ((offset_t2resid_t2dag_w_t2 D44 uccStart 4 4 0 1 : ℚ) : ℝ) := by
    have hc : WholeUcc4.withDag (start uccOpts.ε uccInts) = uccStart.cast ℝ := by
      simp only [WholeUcc4.withDag, start, uccInts, SO.cast, uccStart, uccOpts_den, Rat.cast_mul, Rat.cast_zero]
    rw [hc]
    exact SO.eval_cast D44 uccStart _ _
  intro h
  have h' : (pass D44 uccOpts.ε (start uccOpts.ε uccInts)).t2 4 4 0 1 = 0 := z _ h
  have h'' : (ccd_t2residual D44 (WholeUcc4.withDag (start uccOpts.ε uccInts)) 4 4 0 1 - offset_t2resid_t2squared D44 (WholeUcc4.withDag (start uccOpts.ε uccInts)) 4 4 0 1
      + offset_t2resid_t2dag_w_t2 D44 (WholeUcc4.withDag (start uccOpts.ε uccInts)) 4 4 0 1
      + offset_t2resid_T1_T3 D44 (WholeUcc4.withDag (start uccOpts.ε uccInts)) 4 4 0 1
      + (WholeUcc4.den2 uccOpts.ε 4 4 0 1)⁻¹ * (start uccOpts.ε uccInts).t2 4 4 0 1) * WholeUcc4.den2 uccOpts.ε 4 4 0 1 = 0 := h'
  rw [z _ ((C32_ccd_residual D44 _ hB).first 4 4 0 1), z _ ((C60_t2_pieces D44 _ hB).1.first 4 4 0 1),
    z _ ((C60_t2_pieces D44 _ hB).2.first 4 4 0 1), z _ (hS.t2_anti0 4 4 0 1), e, uccOpts_den] at h''
  simp only [mul_zero, add_zero, sub_zero, zero_add] at h''
  have hd : wd2 4 4 0 1 ≠ 0 := by decide +kernel
  rcases mul_eq_zero.1 h'' with h1 | h1
  · exact uccStart_offset (by exact_mod_cast h1)
  · exact hd (by exact_mod_cast h1)

/-- The calculation of the example: its doubles are antisymmetric in the occupied orbitals, it does not depend on the order of the
virtual orbitals 4 and 5, and the orbital energies have a gap. -/
example : ∃ r, calculate D44 uccOpts uccInts = .ok r ∧ OccAnti r.st.amps ∧
    (∃ r', calculate D44 (uccRelabelOpts (Equiv.swap 4 5) uccOpts) (uccInts.comap (Equiv.swap 4 5)) = .ok r' ∧ r'.energy = r.energy) ∧
    (∀ i ∈ D44 0, ∀ a ∈ D44 1, uccOpts.ε i < uccOpts.ε a) := by
  obtain ⟨r, h⟩ := C89_returns D44 uccOpts rfl (.inl rfl) (le_refl 1) (show 1 ≤ 76 by omega) uccInts
  have swap := C89_orbital_order D44 (Equiv.swap 4 5) (fun s x => by
    by_cases h4 : x = 4
    · subst h4; cases s <;> simp [D44]
    · by_cases h5 : x = 5
      · subst h5; cases s <;> simp [D44]
      · rw [Equiv.swap_apply_of_ne_of_ne h4 h5]) uccOpts rfl uccInts
  rw [h] at swap
  refine ⟨r, h, C89_antisymmetry_partial _ _ _ uccInts_sym r h, ?_, fun i hi a ha => ?_⟩
  · cases hf : calculate D44 (uccRelabelOpts (Equiv.swap 4 5) uccOpts) (uccInts.comap (Equiv.swap 4 5)) with
    | error e => rw [hf] at swap; exact swap.elim
    | ok r' => rw [hf] at swap; exact ⟨r', rfl, swap.2.1⟩
  · have : i < a := by
      simp only [D44, Finset.mem_insert, Finset.mem_singleton] at hi ha
      omega
    have : (i : ℝ) < a := by exact_mod_cast this
    simpa [uccOpts] using this

/-- Two occupied orbitals and integrals that conserve a charge meet the other hypotheses. -/
example : (Witness.D 0).card ≤ 2 ∧ (⟨fun p q => oddPart.f p q, fun p q r s => oddPart.g p q r s, fun _ _ => 0, fun _ _ _ _ => 0, fun _ _ _ _ _ _ => 0, fun _ _ _ _ _ _ _ _ => 0,
    fun _ _ => 0, fun _ _ _ _ => 0, fun _ _ _ _ _ _ => 0, fun _ _ _ _ _ _ _ _ => 0⟩ : SO ℕ ℝ).Conserves oddCharge := by
  refine ⟨by decide, ?_⟩
  constructor <;> intros <;> simp_all [oddPart, oddCharge]; omega

end Verif.Props
