import Verif.Model.Whole
import Verif.Props.Kernel
import Verif.Props.Diis
import Verif.Props.Singlet
import Verif.Props.Selection
import Verif.Props.SpinFlip
import Verif.Props.Relabel
import Verif.Lemmas.WitnessR

/-!
# Symmetries of whole calculations (C62)

Antisymmetry, spin adaptation and conserved charges of the amplitudes hold at the end of a calculation with any number of
iterations and with DIIS, not only for single passes.
-/

namespace Verif.Props

open Verif.Ein Verif.UT2 Verif.Kernel Verif.Whole Verif.Setup

section generic

/-- What every pass keeps holds for the result. -/
theorem run_keeps {A D K : Type} [Field K] [LinearOrder K] (c : Cfg A D K) (P : St A D → Prop)
    (hP : ∀ s s', P s → c.step s = .ok s' → P s') (s : St A D) (hs : P s) (r : Res A D K) (h : c.run s = .ok r) : P r.st := by
  obtain ⟨q, h0, hn, hp, -⟩ := C01_passes c s r h
  have : ∀ k ≤ r.log.length, P (q k) := by
    intro k
    induction k with
    | zero => intro _; rw [h0]; exact hs
    | succ k ih => intro hk; exact hP _ _ (ih (by omega)) ((step_ok_iff c _ _).2 (hp k (by omega)))
  rw [← hn]
  exact this _ le_rfl

/-- DIIS returns combinations of stored vectors and the new one. -/
theorem newVec_mem {ι : Type} [Fintype ι] (W : Submodule ℝ (ι → ℝ)) (s : Diis.State ι) (it er v : ι → ℝ) (hs : ∀ x ∈ s.prev, x ∈ W)
    (hi : it ∈ W) (h : s.newVec it er = some v) : v ∈ W := by
  by_cases hc : s.iterIdx < s.startIter
  · rw [Diis.State.newVec, if_pos hc, Option.some.injEq] at h
    rw [← h]; exact hi
  · obtain ⟨w, hw, rfl⟩ := C12_affine_combination s it er v hc h
    refine Submodule.sum_mem W fun i _ => W.smul_mem _ ?_
    have hm : ∀ y ∈ (s.push it er).prev, y ∈ W := by
      intro y hy
      simp only [Diis.State.push, if_neg hc] at hy
      split at hy
      · have := List.mem_of_mem_tail hy
        rw [List.mem_append, List.mem_singleton] at this
        rcases this with h | rfl
        · exact hs y h
        · exact hi
      · rw [List.mem_append, List.mem_singleton] at hy
        rcases hy with h | rfl
        · exact hs y h
        · exact hi
    exact hm _ (List.getElem_mem _)

theorem push_mem {ι : Type} (W : Submodule ℝ (ι → ℝ)) (s : Diis.State ι) (it er : ι → ℝ) (hs : ∀ x ∈ s.prev, x ∈ W)
    (hi : it ∈ W) : ∀ x ∈ (s.push it er).prev, x ∈ W := by
  intro y hy
  unfold Diis.State.push at hy
  split at hy
  · exact hs y hy
  · dsimp only at hy
    split at hy
    · have := List.mem_of_mem_tail hy
      rw [List.mem_append, List.mem_singleton] at this
      rcases this with h | rfl
      · exact hs y h
      · exact hi
    · rw [List.mem_append, List.mem_singleton] at hy
      rcases hy with h | rfl
      · exact hs y h
      · exact hi

end generic

variable {I : Type} [DecidableEq I] [Inhabited I] (D : Nat → Finset I)

/-- A property of the arrays that iterations keep, and that linear combinations of amplitude vectors keep, holds at the end. -/
theorem calculate_keeps (o : Opts I) (P : SI I ℝ → Prop) (W : Submodule ℝ (Slot D → ℝ)) (hstep : ∀ A, P A → P (iterSi D o.cc_type o.d2aa o.d2bb o.d2ab A))
    (hpack : ∀ A, P A → pack D A ∈ W) (hunpack : ∀ A v, P A → v ∈ W → P (unpack D v A))
    (A : SI I ℝ) (hA : P A) (r : Res (SI I ℝ) (Acc D) ℝ) (h : calculate D o A = .ok r) : P r.st.amps := by
  refine (run_keeps (cfg D o) (fun s => P s.amps ∧ ∀ x ∈ s.diis.1.prev, x ∈ W) ?_ _ ⟨hA, ?_⟩ r h).1
  · rintro s s' ⟨h1, h2⟩ hs
    obtain ⟨a, ha, hb, -⟩ := (step_ok_iff _ _ _).1 hs
    have ha : iterSi D o.cc_type o.d2aa o.d2bb o.d2ab s.amps = a := by
      simpa [cfg, iterSi, set_l2amps] using ha
    have hPa : P a := ha ▸ hstep _ h1
    simp only [cfg, accel] at hb
    split at hb
    · split at hb
      · cases hb
      split at hb
      · cases hb
      split at hb
      · cases hb
      · next v hv =>
        simp only [Except.ok.injEq, Prod.mk.injEq] at hb
        obtain ⟨hd, hu⟩ := hb
        rw [← hd, ← hu]
        exact ⟨hunpack a v hPa (newVec_mem W _ _ _ v h2 (hpack a hPa) hv), push_mem W _ _ _ h2 (hpack a hPa)⟩
    · simp only [Except.ok.injEq, Prod.mk.injEq] at hb
      obtain ⟨hd, hu⟩ := hb
      rw [← hd, ← hu]
      exact ⟨hPa, h2⟩
  · intro x hx
    simp [initial, Diis.init] at hx

omit [Inhabited I] in
theorem fill_mem (v : Slot D → ℝ) (k : Fin 3) (x : I → I → I → I → ℝ) (a b i j : I) (ha : a ∈ D 1) (hb : b ∈ D 1) (hi : i ∈ D 0) (hj : j ∈ D 0) :
    fill D v k x a b i j = v (k, ⟨a, ha⟩, ⟨b, hb⟩, ⟨i, hi⟩, ⟨j, hj⟩) := dif_pos ⟨ha, hb, hi, hj⟩

/-- Vectors with antisymmetric same-spin blocks. -/
def antiVec : Submodule ℝ (Slot D → ℝ) where
  carrier := {v | ∀ k : Fin 3, k ≠ 2 → ∀ a b i j, v (k, b, a, i, j) = - v (k, a, b, i, j) ∧ v (k, a, b, j, i) = - v (k, a, b, i, j)}
  add_mem' := fun hv hw k hk a b i j => by
    obtain ⟨v1, v2⟩ := hv k hk a b i j
    obtain ⟨w1, w2⟩ := hw k hk a b i j
    exact ⟨by simp only [Pi.add_apply, v1, w1]; ring, by simp only [Pi.add_apply, v2, w2]; ring⟩
  zero_mem' := fun k hk a b i j => by simp
  smul_mem' := fun c v hv k hk a b i j => by
    obtain ⟨v1, v2⟩ := hv k hk a b i j
    exact ⟨by simp only [Pi.smul_apply, smul_eq_mul, v1]; ring, by simp only [Pi.smul_apply, smul_eq_mul, v2]; ring⟩

omit [DecidableEq I] [Inhabited I] in
theorem pack_anti (A : SI I ℝ) (hA : A.Sym) : pack D A ∈ antiVec D := by
  intro k hk a b i j
  fin_cases k
  · exact ⟨hA.t2_aaaa_anti0 _ _ _ _, hA.t2_aaaa_anti2 _ _ _ _⟩
  · exact ⟨hA.t2_bbbb_anti0 _ _ _ _, hA.t2_bbbb_anti2 _ _ _ _⟩
  · exact absurd rfl hk

omit [Inhabited I] in
theorem fill_anti (v : Slot D → ℝ) (hv : v ∈ antiVec D) (k : Fin 3) (hk : k ≠ 2) (x : I → I → I → I → ℝ)
    (h0 : ∀ a b i j, x a b i j = - x b a i j) (h2 : ∀ a b i j, x a b i j = - x a b j i) (a b i j : I) :
    fill D v k x a b i j = - fill D v k x b a i j ∧ fill D v k x a b i j = - fill D v k x a b j i := by
  by_cases h : a ∈ D 1 ∧ b ∈ D 1 ∧ i ∈ D 0 ∧ j ∈ D 0
  · obtain ⟨ha, hb, hi, hj⟩ := h
    rw [fill_mem D v k x a b i j ha hb hi hj, fill_mem D v k x b a i j hb ha hi hj, fill_mem D v k x a b j i ha hb hj hi]
    exact ⟨(hv k hk ⟨b, hb⟩ ⟨a, ha⟩ ⟨i, hi⟩ ⟨j, hj⟩).1, (hv k hk ⟨a, ha⟩ ⟨b, hb⟩ ⟨j, hj⟩ ⟨i, hi⟩).2⟩
  · unfold fill
    rw [dif_neg h, dif_neg (by tauto), dif_neg (by tauto)]
    exact ⟨h0 a b i j, h2 a b i j⟩

omit [Inhabited I] in
theorem unpack_sym (v : Slot D → ℝ) (hv : v ∈ antiVec D) (A : SI I ℝ) (hA : A.Sym) : (unpack D v A).Sym :=
  { hA with
    t2_aaaa_anti0 := fun a b i j => (fill_anti D v hv 0 (by decide) _ hA.t2_aaaa_anti0 hA.t2_aaaa_anti2 a b i j).1
    t2_aaaa_anti2 := fun a b i j => (fill_anti D v hv 0 (by decide) _ hA.t2_aaaa_anti0 hA.t2_aaaa_anti2 a b i j).2
    t2_bbbb_anti0 := fun a b i j => (fill_anti D v hv 1 (by decide) _ hA.t2_bbbb_anti0 hA.t2_bbbb_anti2 a b i j).1
    t2_bbbb_anti2 := fun a b i j => (fill_anti D v hv 1 (by decide) _ hA.t2_bbbb_anti0 hA.t2_bbbb_anti2 a b i j).2 }

/-- **C62** The amplitudes a calculation returns have the antisymmetry of the amplitudes it started from. -/
theorem C62_antisymmetry (o : Opts I) (haa : Sym4 o.d2aa) (hbb : Sym4 o.d2bb) (A : SI I ℝ) (hA : A.Sym)
    (r : Res (SI I ℝ) (Acc D) ℝ) (h : calculate D o A = .ok r) : r.st.amps.Sym :=
  calculate_keeps D o SI.Sym (antiVec D) (fun B hB => C33_step D o.cc_type _ _ _ haa hbb B hB) (pack_anti D)
    (fun B v hB hv => unpack_sym D v hv B hB) A hA r h

/-- Vectors whose same-spin blocks are the mixed-spin block minus its exchange. -/
def singletVec : Submodule ℝ (Slot D → ℝ) where
  carrier := {v | ∀ a b i j, (∀ k : Fin 3, k ≠ 2 → v (k, a, b, i, j) = v (2, a, b, i, j) - v (2, a, b, j, i)) ∧
    v (2, b, a, j, i) = v (2, a, b, i, j)}
  add_mem' := fun hv hw a b i j => by
    obtain ⟨v1, v2⟩ := hv a b i j
    obtain ⟨w1, w2⟩ := hw a b i j
    exact ⟨fun k hk => by simp only [Pi.add_apply, v1 k hk, w1 k hk]; ring, by simp only [Pi.add_apply, v2, w2]⟩
  zero_mem' := fun a b i j => by simp
  smul_mem' := fun c v hv a b i j => by
    obtain ⟨v1, v2⟩ := hv a b i j
    exact ⟨fun k hk => by simp only [Pi.smul_apply, smul_eq_mul, v1 k hk]; ring, by simp only [Pi.smul_apply, v2]⟩

omit [Inhabited I] in
theorem pack_singlet (A : SI I ℝ) (hA : Closed D A) : pack D A ∈ singletVec D := by
  intro a b i j
  refine ⟨fun k hk => ?_, hA.t2.swap a a.2 b b.2 i i.2 j j.2⟩
  fin_cases k
  · exact hA.t2.aaaa a a.2 b b.2 i i.2 j j.2
  · exact hA.t2.bbbb a a.2 b b.2 i i.2 j j.2
  · exact absurd rfl hk

omit [Inhabited I] in
theorem unpack_closed (v : Slot D → ℝ) (hv : v ∈ singletVec D) (A : SI I ℝ) (hA : Closed D A) : Closed D (unpack D v A) where
  f := hA.f
  g := hA.g
  l2 := hA.l2
  t2 := by
    refine ⟨fun a ha b hb i hi j hj => ?_, fun a ha b hb i hi j hj => ?_, fun a ha b hb i hi j hj => ?_⟩ <;> simp only [unpack] <;>
      rw [fill_mem D _ _ _ _ _ _ _ (by assumption) (by assumption) (by assumption) (by assumption),
        fill_mem D _ _ _ _ _ _ _ (by assumption) (by assumption) (by assumption) (by assumption)]
    · rw [fill_mem D _ _ _ _ _ _ _ ha hb hj hi]; exact (hv ⟨a, ha⟩ ⟨b, hb⟩ ⟨i, hi⟩ ⟨j, hj⟩).1 0 (by decide)
    · rw [fill_mem D _ _ _ _ _ _ _ ha hb hj hi]; exact (hv ⟨a, ha⟩ ⟨b, hb⟩ ⟨i, hi⟩ ⟨j, hj⟩).1 1 (by decide)
    · exact (hv ⟨a, ha⟩ ⟨b, hb⟩ ⟨i, hi⟩ ⟨j, hj⟩).2

/-- **C62** A closed-shell calculation returns spin-adapted amplitudes, and its energy is the closed-shell energy of them. -/
theorem C62_singlet (hD : Disjoint (D 0) (D 1)) (o : Opts I) (hd : Sym4 o.d2ab) (haa : o.d2aa = o.d2ab) (hbb : o.d2bb = o.d2ab)
    (A : SI I ℝ) (hS : A.Sym) (hA : Closed D A) (r : Res (SI I ℝ) (Acc D) ℝ) (h : calculate D o A = .ok r) :
    Closed D r.st.amps ∧ r.energy =
      2 * ∑ i ∈ D 0, r.st.amps.f_aa i i - ∑ j ∈ D 0, ∑ i ∈ D 0, (2 * r.st.amps.g_abab j i j i - r.st.amps.g_abab j i i j)
      + ∑ a ∈ D 1, ∑ b ∈ D 1, ∑ j ∈ D 0, ∑ i ∈ D 0, (2 * r.st.amps.g_abab j i a b - r.st.amps.g_abab j i b a) * r.st.amps.t2_abab a b j i := by
  have hc : Closed D r.st.amps := (calculate_keeps D o (fun B => B.Sym ∧ Closed D B) (antiVec D ⊓ singletVec D)
    (fun B hB => ⟨C33_step D o.cc_type _ _ _ (haa ▸ hd) (hbb ▸ hd) B hB.1, by rw [haa, hbb]; exact C81_step D hD o.cc_type _ hd B hB.1 hB.2⟩)
    (fun B hB => ⟨pack_anti D B hB.1, pack_singlet D B hB.2⟩)
    (fun B v hB hv => ⟨unpack_sym D v hv.1 B hB.1, unpack_closed D v hv.2 B hB.2⟩) A ⟨hS, hA⟩ r h).2
  refine ⟨hc, ?_⟩
  rw [← C81_energy D r.st.amps hc]
  have := (C03_energy_of_returned_amplitudes _ _ r h).1
  simpa [cfg] using this.symm

variable {G : Type} [AddCommGroup G]

/-- Vectors that vanish at unbalanced positions. -/
def balancedVec (κa κb : I → G) : Submodule ℝ (Slot D → ℝ) where
  carrier := {v | ∀ k a b i j, v (k, a, b, i, j) ≠ 0 →
    (if k = 1 then κb a else κa a) + (if k = 0 then κa b else κb b) = (if k = 1 then κb i else κa i) + (if k = 0 then κa j else κb j)}
  add_mem' := fun hv hw k a b i j h => add_ne (hv k a b i j) (hw k a b i j) h
  zero_mem' := fun _ _ _ _ _ h => absurd rfl h
  smul_mem' := fun _ _ hv k a b i j h => mul_ne (hv k a b i j) h

/-- **C62** The amplitudes a calculation returns obey the selection rules of every charge that the integrals conserve. -/
theorem C62_selection {κa κb : I → G} (o : Opts I) (A : SI I ℝ) (hA : A.Conserves κa κb) (r : Res (SI I ℝ) (Acc D) ℝ)
    (h : calculate D o A = .ok r) : r.st.amps.Conserves κa κb := by
  refine calculate_keeps D o (fun B => B.Conserves κa κb) (balancedVec D κa κb) (fun B hB => C67_step D o.cc_type _ _ _ hB) ?_ ?_ A hA r h
  · intro B hB k a b i j hk
    fin_cases k
    · simpa using hB.t2_aaaa _ _ _ _ hk
    · simpa using hB.t2_bbbb _ _ _ _ hk
    · simpa using hB.t2_abab _ _ _ _ hk
  · intro B v hB hv
    have key : ∀ k x, (∀ a b i j, x a b i j ≠ 0 → (if k = 1 then κb a else κa a) + (if k = 0 then κa b else κb b) =
        (if k = 1 then κb i else κa i) + (if k = 0 then κa j else κb j)) → ∀ a b i j, fill D v k x a b i j ≠ 0 →
        (if k = 1 then κb a else κa a) + (if k = 0 then κa b else κb b) = (if k = 1 then κb i else κa i) + (if k = 0 then κa j else κb j) := by
      intro k x hx a b i j hne
      unfold fill at hne
      split at hne
      · exact hv k _ _ _ _ hne
      · exact hx a b i j hne
    exact { hB with
      t2_aaaa := fun a b i j hne => by simpa using key 0 B.t2_aaaa (by simpa using hB.t2_aaaa) a b i j hne
      t2_bbbb := fun a b i j hne => by simpa using key 1 B.t2_bbbb (by simpa using hB.t2_bbbb) a b i j hne
      t2_abab := fun a b i j hne => by simpa using key 2 B.t2_abab (by simpa using hB.t2_abab) a b i j hne }

/-- **C62** Restricted calculations, from the set-up of the integrals to the result: the amplitudes are those of a singlet. -/
theorem C62_rhf (n m : ℕ) (J : Tei ℝ) (hJ : EriSym J) (F C : Mat ℝ) (hF : ∀ x y, F x y = F y x) (e : ℕ → ℝ) (o : Opts ℕ)
    (h1 : o.d2aa = den e) (h2 : o.d2bb = den e) (h3 : o.d2ab = den e) (r : Res (SI ℕ ℝ) (Acc (spaces m n)) ℝ)
    (h : calculate (spaces m n) o (generalUHF n J F F C C) = .ok r) : r.st.amps.Sym ∧ Closed (spaces m n) r.st.amps := by
  have hS := C26_spin_integrated n J hJ F F C C hF hF
  refine ⟨C62_antisymmetry _ o (h1 ▸ den_sym e) (h2 ▸ den_sym e) _ hS r h,
    (C62_singlet _ ?_ o (h3 ▸ den_sym e) (h1.trans h3.symm) (h2.trans h3.symm) _ hS (generalUHF_closed _ n J hJ F C) r h).1⟩
  rw [Finset.disjoint_left]
  simp only [spaces, if_pos, Finset.mem_range]
  intro x hx
  simp
  omega

/-- Without DIIS, or before DIIS starts, every calculation of 1 to 76 iterations returns, so the theorems above speak about all of them. -/
theorem C62_returns (o : Opts I) (hd : o.diis = none ∨ o.maxIter ≤ o.start ∧
    Verif.Py.hasSub "UCC(4)" o.cc_type = false ∧ Verif.Py.hasSub "CCDQ" o.cc_type = false) (h1 : 1 ≤ o.maxIter) (h2 : o.maxIter ≤ 76) (A : SI I ℝ) :
    ∃ r, calculate D o A = .ok r := by
  have hs : ∀ idx s, idx < o.maxIter → (s.diis.1.iterIdx = idx ∧ s.diis.1.startIter = o.start ∨ o.diis = none) →
      ∃ s', (cfg D o).step s = .ok s' ∧ (s'.diis.1.iterIdx = idx + 1 ∧ s'.diis.1.startIter = o.start ∨ o.diis = none) := by
    intro idx s hi h
    by_cases hn : o.diis = none
    · refine ⟨⟨iterSi D o.cc_type o.d2aa o.d2bb o.d2ab s.amps, set_l2amps s.amps, s.diis⟩, (step_ok_iff _ _ _).2 ⟨_, rfl, ?_, rfl⟩, .inr hn⟩
      simp only [cfg, accel, hn, Option.isSome_none, Bool.false_eq_true, if_false]
      rfl
    · obtain ⟨e1, e2⟩ := h.resolve_right hn
      obtain ⟨hst, hu, hq⟩ := hd.resolve_left hn
      have hlt : s.diis.1.iterIdx < s.diis.1.startIter := by rw [e1, e2]; omega
      have hsome : o.diis.isSome = true := Option.isSome_iff_ne_none.2 hn
      let B := iterSi D o.cc_type o.d2aa o.d2bb o.d2ab s.amps
      refine ⟨⟨unpack D (pack D B) B, set_l2amps s.amps, ⟨{ s.diis.1 with iterIdx := s.diis.1.iterIdx + 1 }, pack D B⟩⟩,
        (step_ok_iff _ _ _).2 ⟨B, rfl, ?_, rfl⟩, .inl ⟨congrArg (· + 1) e1, e2⟩⟩
      simp only [cfg, accel, hsome, hu, hq, if_true, Bool.false_eq_true, if_false, Diis.State.newVec, if_pos hlt, Diis.State.push]
  have hl : ∀ n idx old cur s log, idx + n = o.maxIter → (n = 0 → cur.isSome) → (s.diis.1.iterIdx = idx ∧ s.diis.1.startIter = o.start ∨ o.diis = none) →
      ∃ s' e log', (cfg D o).loop n idx old cur s log = .ok (s', some e, log') := by
    intro n
    induction n with
    | zero =>
      intro idx old cur s log _ hc _
      obtain ⟨e, rfl⟩ := Option.isSome_iff_exists.1 (hc rfl)
      exact ⟨s, e, log, rfl⟩
    | succ n ih =>
      intro idx old cur s log hn _ hi
      obtain ⟨s', h', hi'⟩ := hs idx s (by omega) hi
      unfold Cfg.loop
      rw [if_neg (by omega), h']
      simp only [Bind.bind, Except.bind]
      have he : (cfg D o).energy s'.amps = .ok (ccd_energy_with_spin D s'.amps) := rfl
      rw [he]
      dsimp only
      split
      · exact ⟨_, _, _, rfl⟩
      · have hm : (cfg D o).maxIter = o.maxIter := rfl
        rw [hm, if_neg (by omega)]
        exact ih _ _ _ _ _ (by omega) (fun _ => rfl) hi'
  obtain ⟨s', e, log, h⟩ := hl o.maxIter 0 (ccd_energy_with_spin D A) none (initial D o A) [] (by omega) (by omega) (.inl ⟨rfl, rfl⟩)
  refine ⟨⟨s', e, log⟩, ?_⟩
  unfold calculate Cfg.run
  have he : (cfg D o).energy (initial D o A).amps = .ok (ccd_energy_with_spin D A) := rfl
  have hm : (cfg D o).maxIter = o.maxIter := rfl
  rw [he, hm]
  simp only [Bind.bind, Except.bind]
  rw [h]
  rfl

/-- `CCDQf-1` and `CCDQf-2` never return with DIIS: the first pass ends in the `KeyError` of C17. -/
theorem C62_ccdq_diis_fails (o : Opts I) (hd : o.diis ≠ none) (hu : Verif.Py.hasSub "UCC(4)" o.cc_type = false)
    (hq : Verif.Py.hasSub "CCDQ" o.cc_type = true) (h1 : 1 ≤ o.maxIter) (A : SI I ℝ) : calculate D o A = .error (.other 3) := by
  have hstep : (cfg D o).step (initial D o A) = .error (.other 3) := by
    have hsome : o.diis.isSome = true := Option.isSome_iff_ne_none.2 hd
    have ha : ∀ d B, (cfg D o).accel d B = .error (.other 3) := fun d B => by
      simp only [cfg, accel, hsome, hu, hq, if_true, Bool.false_eq_true, if_false]
    unfold Cfg.step
    have hr : ∀ B l, ∃ B', (cfg D o).resid B l = .ok B' := fun B l => ⟨_, rfl⟩
    obtain ⟨B', hB⟩ := hr (initial D o A).amps ((cfg D o).dag (initial D o A).amps)
    simp only [hB, ha, Bind.bind, Except.bind]
  obtain ⟨n, hn⟩ := Nat.exists_eq_succ_of_ne_zero (show o.maxIter ≠ 0 by omega)
  have he : (cfg D o).energy (initial D o A).amps = .ok (ccd_energy_with_spin D A) := rfl
  have hm : (cfg D o).maxIter = n + 1 := hn
  unfold calculate Cfg.run
  rw [he, hm]
  simp only [Bind.bind, Except.bind, Cfg.loop, hstep]
  rfl

/-- The two names are of this kind. -/
example : ∀ n ∈ ["CCDQf-1", "CCDQf-2"], Verif.Py.hasSub "UCC(4)" n = false ∧ Verif.Py.hasSub "CCDQ" n = true := by
  intro n hn
  fin_cases hn <;> decide +kernel

/-! ## Equivariance (C82) -/

section generic

/-- Both runs fail in the same way, or both succeed with related results. -/
def SameRun {α β : Type} (R : α → β → Prop) : Except Err α → Except Err β → Prop
  | .ok a, .ok b => R a b
  | .error e, .error e' => e = e'
  | _, _ => False

variable {A D' A' D'' K : Type} [Field K] [LinearOrder K]

/-- Loops whose passes agree agree. -/
theorem loop_same (c : Cfg A D' K) (c' : Cfg A' D'' K) (hm : c'.maxIter = c.maxIter) (he : c'.eps = c.eps) (R : St A D' → St A' D'' → Prop)
    (hE : ∀ s t, R s t → c'.energy t.amps = c.energy s.amps) (hS : ∀ s t, R s t → SameRun R (c.step s) (c'.step t)) :
    ∀ n idx old cur s t log, R s t → SameRun (fun x y => R x.1 y.1 ∧ y.2 = x.2) (c.loop n idx old cur s log) (c'.loop n idx old cur t log)
  | 0, _, _, _, _, _, _, h => ⟨h, rfl⟩
  | n + 1, idx, old, cur, s, t, log, h => by
    unfold Cfg.loop
    split
    · exact rfl
    · have h1 := hS s t h
      cases hs : c.step s with
      | error e =>
        cases ht : c'.step t with
        | error e' => rw [hs, ht] at h1; exact h1
        | ok b => rw [hs, ht] at h1; exact h1.elim
      | ok a =>
        cases ht : c'.step t with
        | error e' => rw [hs, ht] at h1; exact h1.elim
        | ok b =>
          rw [hs, ht] at h1
          have h1 : R a b := h1
          simp only [Bind.bind, Except.bind]
          rw [hE a b h1]
          cases c.energy a.amps with
          | error e => exact rfl
          | ok x =>
            dsimp only
            rw [he, hm]
            split
            · exact ⟨h1, rfl⟩
            · split
              · exact rfl
              · exact loop_same c c' hm he R hE hS n _ _ _ _ _ _ h1

/-- Runs whose passes agree agree. -/
theorem run_same (c : Cfg A D' K) (c' : Cfg A' D'' K) (hm : c'.maxIter = c.maxIter) (he : c'.eps = c.eps) (R : St A D' → St A' D'' → Prop)
    (hE : ∀ s t, R s t → c'.energy t.amps = c.energy s.amps) (hS : ∀ s t, R s t → SameRun R (c.step s) (c'.step t)) (s : St A D') (t : St A' D'')
    (h : R s t) : SameRun (fun x y => R x.st y.st ∧ y.energy = x.energy ∧ y.log = x.log) (c.run s) (c'.run t) := by
  unfold Cfg.run
  simp only [Bind.bind, Except.bind]
  rw [hE s t h]
  cases c.energy s.amps with
  | error e => exact rfl
  | ok e0 =>
    dsimp only
    have h1 := loop_same c c' hm he R hE hS c.maxIter 0 e0 none s t [] h
    rw [hm]
    generalize c.loop c.maxIter 0 e0 none s [] = x at *
    generalize c'.loop c.maxIter 0 e0 none t [] = y at *
    cases x with
    | error e =>
      cases y with
      | error e' => exact h1
      | ok b => exact h1.elim
    | ok a =>
      cases y with
      | error e' => exact h1.elim
      | ok b =>
        obtain ⟨a1, a2, a3⟩ := a
        obtain ⟨b1, b2⟩ := b
        obtain ⟨h1, rfl⟩ := h1
        cases a2 with
        | none => exact rfl
        | some v => exact ⟨h1, rfl, rfl⟩

end generic

section diis

variable {ι ι' : Type} [Fintype ι] [Fintype ι'] (φ : (ι → ℝ) →ₗ[ℝ] (ι' → ℝ))

/-- The object with transformed vectors. -/
def diisMap (s : Diis.State ι) : Diis.State ι' := ⟨s.nvecs, s.startIter, s.prev.map φ, s.errs.map φ, s.iterIdx⟩

omit [Fintype ι] [Fintype ι'] in
theorem push_map (s : Diis.State ι) (it er : ι → ℝ) : (diisMap φ s).push (φ it) (φ er) = diisMap φ (s.push it er) := by
  unfold Diis.State.push
  by_cases h : s.iterIdx < s.startIter
  · rw [if_pos h, if_pos (show (diisMap φ s).iterIdx < (diisMap φ s).startIter from h)]; rfl
  · rw [if_neg h, if_neg (show ¬ (diisMap φ s).iterIdx < (diisMap φ s).startIter from h)]
    dsimp only
    by_cases h' : (s.prev ++ [it]).length > s.nvecs
    · rw [if_pos h', if_pos (by simpa [diisMap] using h')]; simp [diisMap]
    · rw [if_neg h', if_neg (by simpa [diisMap] using h')]; simp [diisMap]

theorem extrapolate_eq (prev errs : List (ι → ℝ)) (n : ℕ) (h : prev.length = n) : Diis.extrapolate prev errs =
    (Diis.solve (fun i : Fin n => errs.getD i 0)).map fun c => ∑ i : Fin n, c (Sum.inl i) • prev.getD i 0 := by
  subst h
  simp [Diis.extrapolate]

theorem solve_map (hφ : ∀ x y, Diis.edot (φ x) (φ y) = Diis.edot x y) {n : ℕ} (e : Fin n → ι → ℝ) :
    Diis.solve (fun i => φ (e i)) = Diis.solve e := by
  have : Diis.bmat (fun i => φ (e i)) = Diis.bmat e := by
    unfold Diis.bmat
    simp only [hφ]
  unfold Diis.solve
  by_cases h : IsUnit (Diis.bmat e).det
  · rw [if_pos h, if_pos (by rw [this]; exact h), this]
  · rw [if_neg h, if_neg (by rw [this]; exact h)]

omit [Fintype ι] [Fintype ι'] in
theorem getD_map (l : List (ι → ℝ)) (i : ℕ) : (l.map φ).getD i 0 = φ (l.getD i 0) := by
  simp only [List.getD_eq_getElem?_getD, List.getElem?_map]
  cases l[i]? <;> simp

/-- DIIS commutes with linear maps that keep the inner products. -/
theorem newVec_map (hφ : ∀ x y, Diis.edot (φ x) (φ y) = Diis.edot x y) (s : Diis.State ι) (it er : ι → ℝ) :
    (diisMap φ s).newVec (φ it) (φ er) = (s.newVec it er).map φ := by
  unfold Diis.State.newVec
  rw [push_map]
  have e1 : (diisMap φ s).iterIdx = s.iterIdx := rfl
  have e2 : (diisMap φ s).startIter = s.startIter := rfl
  rw [e1, e2]
  split
  · rfl
  · generalize s.push it er = u
    rw [extrapolate_eq (diisMap φ u).prev (diisMap φ u).errs u.prev.length (by simp [diisMap]), extrapolate_eq u.prev u.errs u.prev.length rfl]
    simp only [diisMap, getD_map]
    rw [solve_map φ hφ, Option.map_map]
    congr 1
    funext c
    simp

end diis

/-- Vectors with renamed positions. -/
def renumber {ι : Type} (σ : ι ≃ ι) : (ι → ℝ) →ₗ[ℝ] (ι → ℝ) := LinearMap.funLeft ℝ ℝ σ

theorem edot_renumber {ι : Type} [Fintype ι] (σ : ι ≃ ι) (x y : ι → ℝ) : Diis.edot (renumber σ x) (renumber σ y) = Diis.edot x y :=
  Equiv.sum_comp σ fun i => x i * y i

/-- A change of the arrays that commutes with iterations and renumbers the amplitude vector commutes with calculations. -/
theorem calculate_same (o o' : Opts I) (hc : o'.cc_type = o.cc_type) (hm : o'.maxIter = o.maxIter) (he : o'.eps = o.eps) (hd : o'.diis = o.diis) (hs : o'.start = o.start)
    (T : SI I ℝ → SI I ℝ) (σ : Slot D ≃ Slot D) (P : SI I ℝ → Prop) (W : Submodule ℝ (Slot D → ℝ))
    (hstep : ∀ A, P A → P (iterSi D o.cc_type o.d2aa o.d2bb o.d2ab A)) (hpack : ∀ A, P A → pack D A ∈ W)
    (hunpack : ∀ A v, P A → v ∈ W → P (unpack D v A))
    (tstep : ∀ A, P A → iterSi D o'.cc_type o'.d2aa o'.d2bb o'.d2ab (T A) = T (iterSi D o.cc_type o.d2aa o.d2bb o.d2ab A))
    (tpack : ∀ A, pack D (T A) = renumber σ (pack D A)) (tunpack : ∀ A v, unpack D (renumber σ v) (T A) = T (unpack D v A))
    (tE : ∀ A, P A → ccd_energy_with_spin D (T A) = ccd_energy_with_spin D A) (hl : ∀ A, P A → P (set_l2amps A))
    (tl : ∀ A, set_l2amps (T A) = T (set_l2amps A)) (A : SI I ℝ) (hA : P A) :
    SameRun (fun r r' => r'.st.amps = T r.st.amps ∧ r'.energy = r.energy ∧ r'.log = r.log ∧ r'.st.l2 = T r.st.l2 ∧ P r.st.amps ∧ P r.st.l2)
      (calculate D o A) (calculate D o' (T A)) := by
  let R : St (SI I ℝ) (Acc D) → St (SI I ℝ) (Acc D) → Prop := fun s t => P s.amps ∧ (∀ x ∈ s.diis.1.prev, x ∈ W) ∧ (t.amps = T s.amps ∧ t.l2 = T s.l2 ∧ P s.l2) ∧
    t.diis.1 = diisMap (renumber σ) s.diis.1 ∧ t.diis.2 = renumber σ s.diis.2
  have key := run_same (cfg D o) (cfg D o') hm he R ?_ ?_ (initial D o A) (initial D o' (T A)) ?_
  · unfold calculate
    cases h1 : (cfg D o).run (initial D o A) <;> cases h2 : (cfg D o').run (initial D o' (T A)) <;> rw [h1, h2] at key
    · exact key
    · exact key
    · exact key
    · exact ⟨key.1.2.2.1.1, key.2.1, key.2.2, key.1.2.2.1.2.1, key.1.1, key.1.2.2.1.2.2⟩
  · rintro s t ⟨p, -, ⟨ht, -⟩, -⟩
    simp only [cfg]
    rw [ht, tE _ p]
  · rintro s t ⟨p, w, ⟨ht, -⟩, h1, h2⟩
    have hq := hl _ p
    have hk : (cfg D o').dag t.amps = T ((cfg D o).dag s.amps) := by rw [ht]; exact tl _
    have hp := hstep _ p
    have a1 : (cfg D o).resid s.amps ((cfg D o).dag s.amps) = .ok (iterSi D o.cc_type o.d2aa o.d2bb o.d2ab s.amps) := rfl
    have a2 : (cfg D o').resid t.amps ((cfg D o').dag t.amps) = .ok (T (iterSi D o.cc_type o.d2aa o.d2bb o.d2ab s.amps)) := by
      rw [ht, ← tstep _ p]; rfl
    unfold Cfg.step
    simp only [a1, a2, Bind.bind, Except.bind]
    generalize iterSi D o.cc_type o.d2aa o.d2bb o.d2ab s.amps = B at *
    have b1 : (cfg D o).accel = accel D o.cc_type o.diis.isSome := rfl
    have b2 : (cfg D o').accel = accel D o.cc_type o.diis.isSome := by rw [← hd, ← hc]; rfl
    rw [b1, b2]
    unfold accel
    cases o.diis.isSome with
    | false => exact ⟨hp, w, ⟨rfl, hk, hq⟩, h1, h2⟩
    | true =>
      simp only [if_true]
      cases Verif.Py.hasSub "UCC(4)" o.cc_type with
      | true => exact rfl
      | false =>
      cases Verif.Py.hasSub "CCDQ" o.cc_type with
      | true => exact rfl
      | false =>
      simp only [Bool.false_eq_true, if_false]
      have e : t.diis.1.newVec (pack D (T B)) (t.diis.2 - pack D (T B)) = (s.diis.1.newVec (pack D B) (s.diis.2 - pack D B)).map (renumber σ) := by
        rw [h1, h2, tpack, ← map_sub, newVec_map _ (edot_renumber σ)]
      rw [e]
      cases hv : s.diis.1.newVec (pack D B) (s.diis.2 - pack D B) with
      | none => exact rfl
      | some v =>
        refine ⟨hunpack _ v hp (newVec_mem W _ _ _ v w (hpack _ hp) hv), push_mem W _ _ _ w (hpack _ hp), ⟨tunpack B v, hk, hq⟩, ?_, rfl⟩
        simp only
        rw [h1, h2, tpack, ← map_sub, push_map]
  · refine ⟨hA, by simp [initial, Diis.init], ⟨rfl, rfl, hA⟩, ?_, tpack A⟩
    simp [initial, Diis.init, diisMap, hd, hs]

/-- Exchange of the spins of a position. -/
def flipSlot : Slot D ≃ Slot D where
  toFun x := if x.1 = 2 then (2, x.2.2.1, x.2.1, x.2.2.2.2, x.2.2.2.1) else (if x.1 = 0 then 1 else 0, x.2)
  invFun x := if x.1 = 2 then (2, x.2.2.1, x.2.1, x.2.2.2.2, x.2.2.2.1) else (if x.1 = 0 then 1 else 0, x.2)
  left_inv := by rintro ⟨k, a, b, i, j⟩; fin_cases k <;> rfl
  right_inv := by rintro ⟨k, a, b, i, j⟩; fin_cases k <;> rfl

/-- Options with the spins exchanged. -/
def flipOpts (o : Opts I) : Opts I := { o with d2aa := o.d2bb, d2bb := o.d2aa, d2ab := fun a b i j => o.d2ab b a j i }

/-- **C82** A calculation with the two spins exchanged fails in the same way or gives the same energies, after the same number of
iterations, and the exchanged amplitudes. -/
theorem C82_spin_exchange (o : Opts I) (haa : Sym4 o.d2aa) (hbb : Sym4 o.d2bb) (A : SI I ℝ) (hA : A.Sym) :
    SameRun (fun r r' => r'.st.amps = r.st.amps.flip ∧ r'.energy = r.energy ∧ r'.log = r.log ∧ r'.st.l2 = r.st.l2.flip ∧
        r.st.amps.Sym ∧ r.st.l2.Sym) (calculate D o A) (calculate D (flipOpts o) A.flip) := by
  refine calculate_same D o (flipOpts o) rfl rfl rfl rfl rfl SI.flip (flipSlot D) SI.Sym (antiVec D)
    (fun B hB => C33_step D o.cc_type _ _ _ haa hbb B hB) (pack_anti D) (fun B v hB hv => unpack_sym D v hv B hB)
    (fun B hB => C34_step D o.cc_type _ _ _ B hB) ?_ ?_ (fun B hB => (C34_energy D B hB).1) set_l2amps_sym (fun _ => rfl) A hA
  · intro B
    funext ⟨k, a, b, i, j⟩
    fin_cases k <;> rfl
  · intro B v
    have e : ∀ a b i j : I, (b ∈ D 1 ∧ a ∈ D 1 ∧ j ∈ D 0 ∧ i ∈ D 0) ↔ (a ∈ D 1 ∧ b ∈ D 1 ∧ i ∈ D 0 ∧ j ∈ D 0) := by intros; tauto
    have h2 : fill D (renumber (flipSlot D) v) 2 B.flip.t2_abab = fun a b i j => fill D v 2 B.t2_abab b a j i := by
      funext a b i j
      unfold fill
      by_cases h : a ∈ D 1 ∧ b ∈ D 1 ∧ i ∈ D 0 ∧ j ∈ D 0
      · rw [dif_pos h, dif_pos ((e a b i j).2 h)]; rfl
      · rw [dif_neg h, dif_neg (mt (e a b i j).1 h)]; rfl
    unfold unpack
    rw [h2]
    rfl

/-- Renaming of the orbitals of a position. -/
def relabelSlot (e : I ≃ I) (hD : ∀ s x, e x ∈ D s ↔ x ∈ D s) : Slot D ≃ Slot D :=
  let f (s : Nat) : {x // x ∈ D s} ≃ {x // x ∈ D s} := e.subtypeEquiv fun x => (hD s x).symm
  (Equiv.refl _).prodCongr ((f 1).prodCongr ((f 1).prodCongr ((f 0).prodCongr (f 0))))

/-- Options with renamed orbitals. -/
def relabelOpts (e : I → I) (o : Opts I) : Opts I :=
  { o with
    d2aa := fun a b i j => o.d2aa (e a) (e b) (e i) (e j)
    d2bb := fun a b i j => o.d2bb (e a) (e b) (e i) (e j)
    d2ab := fun a b i j => o.d2ab (e a) (e b) (e i) (e j) }

/-- **C82** A calculation with the orbitals in another order fails in the same way or gives the same energies, after the same number
of iterations, and the amplitudes in the other order. -/
theorem C82_orbital_order (e : I ≃ I) (hD : ∀ s x, e x ∈ D s ↔ x ∈ D s) (o : Opts I) (A : SI I ℝ) :
    SameRun (fun r r' => r'.st.amps = r.st.amps.comap e ∧ r'.energy = r.energy ∧ r'.log = r.log ∧ r'.st.l2 = r.st.l2.comap e)
      (calculate D o A) (calculate D (relabelOpts e o) (A.comap e)) := by
  have key : SameRun (fun r r' => r'.st.amps = r.st.amps.comap e ∧ r'.energy = r.energy ∧ r'.log = r.log ∧ r'.st.l2 = r.st.l2.comap e ∧
      True ∧ True) (calculate D o A) (calculate D (relabelOpts e o) (A.comap e)) := ?_
  · simpa only [and_true] using key
  refine calculate_same D o (relabelOpts e o) rfl rfl rfl rfl rfl (SI.comap e) (relabelSlot D e hD) (fun _ => True) ⊤
    (fun _ _ => trivial) (fun _ _ => trivial) (fun _ _ _ _ => trivial)
    (fun B _ => C42_step_si D e hD o.cc_type _ _ _ B) (fun B => by funext ⟨k, a, b, i, j⟩; fin_cases k <;> rfl) ?_ (fun B _ => (C42_si_ccd D e hD B).2.2.2)
    (fun _ _ => trivial) (fun _ => rfl) A trivial
  intro B v
  have key : ∀ k x, fill D (renumber (relabelSlot D e hD) v) k (fun a b i j => x (e a) (e b) (e i) (e j)) =
      fun a b i j => fill D v k x (e a) (e b) (e i) (e j) := by
    intro k x
    funext a b i j
    unfold fill
    by_cases h : a ∈ D 1 ∧ b ∈ D 1 ∧ i ∈ D 0 ∧ j ∈ D 0
    · rw [dif_pos h, dif_pos (by simpa only [hD] using h)]; rfl
    · rw [dif_neg h, dif_neg (by simpa only [hD] using h)]
  have h0 := key 0 B.t2_aaaa
  have h1 := key 1 B.t2_bbbb
  have h2 := key 2 B.t2_abab
  simp only [unpack, SI.comap, h0, h1, h2]

omit [DecidableEq I] in
/-- Results with the same energy and correction are reported alike. -/
theorem report_same (R : Res (SI I ℝ) (Acc D) ℝ → Res (SI I ℝ) (Acc D) ℝ → Prop) (o o' : Opts I) (ho : o'.cc_type = o.cc_type) (nucE hf : ℝ)
    (x y : Except Err (Res (SI I ℝ) (Acc D) ℝ)) (h : SameRun R x y)
    (hR : ∀ r r', R r r' → r'.energy = r.energy ∧ correction D r' = correction D r) :
    (x >>= finish D o nucE hf) = (y >>= finish D o' nucE hf) := by
  cases x <;> cases y
  · exact congrArg _ h
  · exact h.elim
  · exact h.elim
  · rename_i r r'
    obtain ⟨he, hc⟩ := hR r r' h
    simp only [Bind.bind, Except.bind, finish, he, hc, ho]

/-- **C82** The energies that `finalize` reports do not change when the spins are exchanged, corrections included. -/
theorem C82_spin_report (o : Opts I) (haa : Sym4 o.d2aa) (hbb : Sym4 o.d2bb) (nucE hf : ℝ) (A : SI I ℝ) (hA : A.Sym) :
    (calculate D o A >>= finish D o nucE hf) = (calculate D (flipOpts o) A.flip >>= finish D (flipOpts o) nucE hf) := by
  refine report_same D _ o (flipOpts o) rfl nucE hf _ _ (C82_spin_exchange D o haa hbb A hA) ?_
  rintro r r' ⟨h1, h2, -, h3, h4, h5⟩
  refine ⟨h2, ?_⟩
  have hS : (withL2 r.st.amps r.st.l2).Sym :=
    { h4 with
      l2_aaaa_anti0 := h5.l2_aaaa_anti0
      l2_aaaa_anti2 := h5.l2_aaaa_anti2
      l2_bbbb_anti0 := h5.l2_bbbb_anti0
      l2_bbbb_anti2 := h5.l2_bbbb_anti2 }
  unfold correction
  rw [h1, h3, ← (C34_energy D _ hS).2]
  rfl

/-- **C82** The energies that `finalize` reports do not change with the order of the orbitals, corrections included. -/
theorem C82_order_report (e : I ≃ I) (hD : ∀ s x, e x ∈ D s ↔ x ∈ D s) (o : Opts I) (nucE hf : ℝ) (A : SI I ℝ) :
    (calculate D o A >>= finish D o nucE hf) = (calculate D (relabelOpts e o) (A.comap e) >>= finish D (relabelOpts e o) nucE hf) := by
  refine report_same D _ o (relabelOpts e o) rfl nucE hf _ _ (C82_orbital_order D e hD o A) ?_
  rintro r r' ⟨h1, h2, -, h3⟩
  refine ⟨h2, ?_⟩
  unfold correction
  rw [h1, h3]
  exact (C42_si_qf D e hD (withL2 r.st.amps r.st.l2)).2.2.2.2.2.2.1

/-! ## concrete calculations -/

/-- Options of a closed-shell calculation: forty passes, DIIS with six vectors from pass forty on. -/
noncomputable def optsR : Opts ℕ :=
  ⟨"CCD", den fun p => (p : ℝ) + 1, den fun p => (p : ℝ) + 1, den fun p => (p : ℝ) + 1, 40, 1 / 100000000, some 6, 40⟩

/-- The integrals are those of a closed shell and not zero. -/
theorem csR_closed : Closed Witness.D Witness.csR := by
  refine ⟨fun _ _ _ _ => rfl, ?_, ?_, ?_⟩ <;> constructor <;> intros <;> simp only [Witness.csR, Witness.cs, Witness.gab] <;>
    push_cast <;> ring

/-- The calculation returns, and antisymmetry, spin adaptation and the two equivariances apply to it. -/
example : ∃ r, calculate Witness.D optsR Witness.csR = .ok r ∧ r.st.amps.Sym ∧ Closed Witness.D r.st.amps ∧
    (∃ r', calculate Witness.D (flipOpts optsR) Witness.csR.flip = .ok r' ∧ r'.energy = r.energy) ∧
    (∃ r', calculate Witness.D (relabelOpts (Equiv.swap 0 1) optsR) (Witness.csR.comap (Equiv.swap 0 1)) = .ok r' ∧ r'.energy = r.energy) ∧
    Witness.csR.g_abab 0 1 2 3 ≠ 0 := by
  have hs : Sym4 optsR.d2ab := den_sym fun p : ℕ => (p : ℝ) + 1
  obtain ⟨r, h⟩ := C62_returns Witness.D optsR (.inr ⟨le_refl 40, by decide +kernel, by decide +kernel⟩) (show 1 ≤ 40 by omega) (show 40 ≤ 76 by omega) Witness.csR
  have flip := C82_spin_exchange Witness.D optsR hs hs Witness.csR Witness.csR_sym
  have swap := C82_orbital_order Witness.D (Equiv.swap 0 1) (fun s x => by
    by_cases hs : s = 0
    · subst hs
      rcases eq_or_ne x 0 with rfl | h0
      · simp [Witness.D]
      · rcases eq_or_ne x 1 with rfl | h1
        · simp [Witness.D]
        · rw [Equiv.swap_apply_of_ne_of_ne h0 h1]
    · have hD : Witness.D s = {2, 3} := by cases s <;> [exact absurd rfl hs; rfl]
      rw [hD]
      rcases eq_or_ne x 0 with rfl | h0
      · simp
      · rcases eq_or_ne x 1 with rfl | h1
        · simp
        · rw [Equiv.swap_apply_of_ne_of_ne h0 h1]) optsR Witness.csR
  rw [h] at flip swap
  refine ⟨r, h, C62_antisymmetry _ _ hs hs _ Witness.csR_sym r h,
    (C62_singlet _ Witness.D_disjoint optsR hs rfl rfl _ Witness.csR_sym csR_closed r h).1, ?_, ?_, ?_⟩
  · cases hf : calculate Witness.D (flipOpts optsR) Witness.csR.flip with
    | error e => rw [hf] at flip; exact flip.elim
    | ok r' => rw [hf] at flip; exact ⟨r', rfl, flip.2.1⟩
  · cases hf : calculate Witness.D (relabelOpts (Equiv.swap 0 1) optsR) (Witness.csR.comap (Equiv.swap 0 1)) with
    | error e => rw [hf] at swap; exact swap.elim
    | ok r' => rw [hf] at swap; exact ⟨r', rfl, swap.2.1⟩
  · norm_num [Witness.csR, Witness.cs, Witness.gab, Witness.z]

end Verif.Props
