import Verif.Model.WholeSlow
import Verif.Props.Whole
import Verif.Props.XccdBase
import Verif.Props.Projected
import Verif.Props.SpinCcd
import Verif.Lemmas.WitnessR

/-!
# Spin-orbital calculations from start to end (C85)
-/

namespace Verif.Props

open Verif.Ein Verif.UT2 Verif.Kernel Verif.WholeSlow Verif.Py Verif.Wick

variable {I : Type} [DecidableEq I] [Inhabited I] (D : Nat → Finset I)

/-! ## antisymmetry -/

omit [DecidableEq I] [Inhabited I] in
theorem capDag_anti (S : SO I ℝ) (t4 : List I → ℝ) (h : Antisymmetric 4 4 t4) : Anti4 (capDag D S t4) where
  first a b i j := by
    unfold capDag
    simp only [← Finset.sum_neg_distrib]
    refine Finset.sum_congr rfl fun k _ => Finset.sum_congr rfl fun l _ => Finset.sum_congr rfl fun c _ =>
      Finset.sum_congr rfl fun d _ => ?_
    have := h.last 0 1 ![i, j, k, l] ![a, b, c, d] (by decide)
    simp at this
    rw [this, mul_neg]
  last a b i j := by
    unfold capDag
    simp only [← Finset.sum_neg_distrib]
    refine Finset.sum_congr rfl fun k _ => Finset.sum_congr rfl fun l _ => Finset.sum_congr rfl fun c _ =>
      Finset.sum_congr rfl fun d _ => ?_
    have := h.first 0 1 ![i, j, k, l] ![a, b, c, d] (by decide)
    simp at this
    rw [this, mul_neg]

theorem Anti4.mul {J : Type} {x : J → J → J → J → ℝ} (h : Anti4 x) (c : ℝ) : Anti4 fun a b i j => c * x a b i j :=
  ⟨fun a b i j => by rw [h.first a b]; ring, fun a b i j => by rw [h.last a b]; ring⟩

omit [DecidableEq I] in
/-- The base terms of every order are antisymmetric. -/
theorem base_anti (S : SO I ℝ) (order : ℕ) (x : I → I → I → I → ℝ) (h : build_XCCDbase D S order = some x) : Anti4 x := by
  unfold build_XCCDbase at h
  split_ifs at h
  · cases h; exact (capDag_anti D S _ (C29_antisym_t4_residual _)).mul _
  · cases h; exact (capDag_anti D S _ (C29_antisym_t4_residual _)).mul _
  · cases h; exact (capDag_anti D S _ (C29_antisym_t4_residual _)).mul _

omit [DecidableEq I] in
theorem foldl_anti (S : SO I ℝ) : ∀ (l : List ℕ) (x y : I → I → I → I → ℝ), Anti4 x →
    l.foldlM (fun x order => (build_XCCDbase D S order).map (x + ·)) x = some y → Anti4 y
  | [], x, y, hx, h => by
    simp only [List.foldlM_nil, Option.pure_def, Option.some.injEq] at h
    exact h ▸ hx
  | n :: l, x, y, hx, h => by
    simp only [List.foldlM_cons, Option.bind_eq_bind, Option.bind_eq_some_iff, Option.map_eq_some_iff] at h
    obtain ⟨z, ⟨b, hb, rfl⟩, h⟩ := h
    have h' := base_anti D S n b hb
    refine foldl_anti S l _ y ⟨fun a b i j => ?_, fun a b i j => ?_⟩ h
    · show x _ _ _ _ + _ = - (x _ _ _ _ + _); rw [hx.first a b, h'.first a b]; ring
    · show x _ _ _ _ + _ = - (x _ _ _ _ + _); rw [hx.last a b, h'.last a b]; ring

omit [DecidableEq I] in
theorem xccTerms_anti (S : SO I ℝ) (l : List ℕ) (x : I → I → I → I → ℝ) (h : xccTerms D S l = some x) : Anti4 x :=
  foldl_anti D S l 0 x ⟨fun _ _ _ _ => neg_zero.symm, fun _ _ _ _ => neg_zero.symm⟩ h

/-- One residual evaluation keeps the symmetries, for every method. -/
theorem resid_sym (cc_type : String) (d2 : I → I → I → I → ℝ) (hd : Sym4 d2) (S S' : SO I ℝ) (hS : S.Sym)
    (h : WholeSlow.resid D cc_type d2 S = .ok S') : S'.Sym := by
  unfold WholeSlow.resid at h
  split at h
  · split at h
    · cases h
    · split at h
      · cases h
      · next x hx =>
        cases h
        exact C32_step D cc_type _ d2 S hS (xccTerms_anti D S _ x hx) hd
  · cases h
    exact C32_step D cc_type _ d2 S hS ⟨fun _ _ _ _ => neg_zero.symm, fun _ _ _ _ => neg_zero.symm⟩ hd

/-- Antisymmetric vectors. -/
def slowAnti : Submodule ℝ (WholeSlow.Slot D → ℝ) where
  carrier := {v | ∀ a b i j, v (a, b, i, j) = - v (b, a, i, j) ∧ v (a, b, i, j) = - v (a, b, j, i)}
  zero_mem' := by simp
  add_mem' := fun {v w} hv hw a b i j => by
    have h1 := hv a b i j
    have h2 := hw a b i j
    constructor
    · show v _ + w _ = - (v _ + w _); rw [h1.1, h2.1]; ring
    · show v _ + w _ = - (v _ + w _); rw [h1.2, h2.2]; ring
  smul_mem' := fun c v hv a b i j => by
    constructor
    · show c * v _ = - (c * v _); rw [(hv a b i j).1]; ring
    · show c * v _ = - (c * v _); rw [(hv a b i j).2]; ring

omit [Inhabited I] in
theorem slow_unpack_sym (v : WholeSlow.Slot D → ℝ) (hv : v ∈ slowAnti D) (S : SO I ℝ) (hS : S.Sym) :
    (WholeSlow.unpack D v S).Sym :=
  { hS with
    t2_anti0 := fun a b i j => by
      show dite _ _ _ = - dite _ _ _
      by_cases h : a ∈ D 1 ∧ b ∈ D 1 ∧ i ∈ D 0 ∧ j ∈ D 0
      · rw [dif_pos h, dif_pos ⟨h.2.1, h.1, h.2.2⟩]; exact (hv _ _ _ _).1
      · rw [dif_neg h, dif_neg fun h' => h ⟨h'.2.1, h'.1, h'.2.2⟩]; exact hS.t2_anti0 _ _ _ _
    t2_anti2 := fun a b i j => by
      show dite _ _ _ = - dite _ _ _
      by_cases h : a ∈ D 1 ∧ b ∈ D 1 ∧ i ∈ D 0 ∧ j ∈ D 0
      · rw [dif_pos h, dif_pos ⟨h.1, h.2.1, h.2.2.2, h.2.2.1⟩]; exact (hv _ _ _ _).2
      · rw [dif_neg h, dif_neg fun h' => h ⟨h'.1, h'.2.1, h'.2.2.2, h'.2.2.1⟩]; exact hS.t2_anti2 _ _ _ _ }

omit [DecidableEq I] [Inhabited I] in
theorem slow_pack_anti (S : SO I ℝ) (hS : S.Sym) : WholeSlow.pack D S ∈ slowAnti D :=
  fun _ _ _ _ => ⟨hS.t2_anti0 _ _ _ _, hS.t2_anti2 _ _ _ _⟩

omit [DecidableEq I] [Inhabited I] in
theorem start_sym (d2 : I → I → I → I → ℝ) (hd : Sym4 d2) (S : SO I ℝ) (hS : S.Sym) : (WholeSlow.start d2 S).Sym :=
  { hS with
    t2_anti0 := fun a b i j => by
      show _ * _ = - (_ * _); rw [hS.g_anti0 a b, hd.first b a]; ring
    t2_anti2 := fun a b i j => by
      show _ * _ = - (_ * _); rw [hS.g_anti2 a b, hd.last a b j i]; ring }

/-- The amplitudes returned by a spin-orbital calculation are antisymmetric: for CCD, LCCD, pCCD, `XCCD(n)` and `UT2-CCD(n)`,
with and without DIIS. -/
theorem C85_antisymmetry (o : WholeSlow.Opts I) (hd : Sym4 o.d2) (S : SO I ℝ) (hS : S.Sym)
    (r : Res (SO I ℝ) (WholeSlow.Acc D) ℝ) (h : WholeSlow.calculate D o S = .ok r) : r.st.amps.Sym := by
  refine (run_keeps (WholeSlow.cfg D o) (fun s => s.amps.Sym ∧ ∀ x ∈ s.diis.1.prev, x ∈ slowAnti D) ?_ _ ⟨start_sym _ hd S hS, ?_⟩ r h).1
  · rintro s s' ⟨h1, h2⟩ hs
    obtain ⟨a, ha, hb, -⟩ := (step_ok_iff _ _ _).1 hs
    have hPa : a.Sym := resid_sym D _ _ hd _ _ h1 ha
    simp only [WholeSlow.cfg, WholeSlow.accel] at hb
    split at hb
    · split at hb
      · cases hb
      split at hb
      · cases hb
      · next v hv =>
        simp only [Except.ok.injEq, Prod.mk.injEq] at hb
        obtain ⟨hd, hu⟩ := hb
        rw [← hd, ← hu]
        exact ⟨slow_unpack_sym D v (newVec_mem _ _ _ _ v h2 (slow_pack_anti D a hPa) hv) a hPa,
          push_mem _ _ _ _ h2 (slow_pack_anti D a hPa)⟩
    · simp only [Except.ok.injEq, Prod.mk.injEq] at hb
      obtain ⟨hd, hu⟩ := hb
      rw [← hd, ← hu]
      exact ⟨hPa, h2⟩
  · intro x hx
    simp [WholeSlow.initial, Diis.init] at hx

/-! ## the spin-integrated and the spin-orbital calculation -/

section shift

variable {A D' A' D'' K : Type} [Field K] [LinearOrder K]

/-- Loops that agree pass by pass, counted from different numbers. -/
theorem loop_shift (c : Cfg A D' K) (c' : Cfg A' D'' K) (he : c'.eps = c.eps) (R : St A D' → St A' D'' → Prop)
    (hE : ∀ s t, R s t → c'.energy t.amps = c.energy s.amps) (hS : ∀ s t, R s t → SameRun R (c.step s) (c'.step t)) :
    ∀ n idx idx' old cur cur' s t log log', R s t → idx + n ≤ 76 → idx' + n ≤ 76 → idx + n ≤ c.maxIter + 1 → idx' + n ≤ c'.maxIter + 1 →
      SameRun (fun x y => R x.1 y.1 ∧ (n ≠ 0 ∨ cur' = cur → y.2.1 = x.2.1) ∧ ∃ l, x.2.2 = log ++ l ∧ y.2.2 = log' ++ l)
        (c.loop n idx old cur s log) (c'.loop n idx' old cur' t log')
  | 0, _, _, _, _, _, _, _, log, log', h, _, _, _, _ => ⟨h, fun q => q.resolve_left (by simp), [], by simp, by simp⟩
  | n + 1, idx, idx', old, cur, cur', s, t, log, log', h, h1, h2, h3, h4 => by
    unfold Cfg.loop
    rw [if_neg (by omega), if_neg (by omega)]
    have q := hS s t h
    cases hs : c.step s with
    | error e =>
      cases ht : c'.step t with
      | error e' => rw [hs, ht] at q; exact q
      | ok b => rw [hs, ht] at q; exact q.elim
    | ok a =>
      cases ht : c'.step t with
      | error e' => rw [hs, ht] at q; exact q.elim
      | ok b =>
        rw [hs, ht] at q
        have q : R a b := q
        simp only [Bind.bind, Except.bind]
        rw [hE a b q]
        cases c.energy a.amps with
        | error e => exact rfl
        | ok x =>
          dsimp only
          rw [he, if_neg (show ¬ idx > c.maxIter by omega), if_neg (show ¬ idx' > c'.maxIter by omega)]
          split
          · exact ⟨q, fun _ => rfl, [x], rfl, rfl⟩
          · have := loop_shift c c' he R hE hS n (idx + 1) (idx' + 1) x (some x) (some x) a b (log ++ [x]) (log' ++ [x]) q
              (by omega) (by omega) (by omega) (by omega)
            revert this
            generalize c.loop n (idx + 1) x (some x) a (log ++ [x]) = u
            generalize c'.loop n (idx' + 1) x (some x) b (log' ++ [x]) = v
            intro this
            cases u with
            | error e =>
              cases v with
              | error e' => exact this
              | ok w => exact this.elim
            | ok u =>
              cases v with
              | error e' => exact this.elim
              | ok w =>
                obtain ⟨k1, k2, l, k3, k4⟩ := this
                exact ⟨k1, fun _ => k2 (.inr rfl), x :: l, by simpa using k3, by simpa using k4⟩

theorem loop_next (c : Cfg A D' K) (n idx : ℕ) (old : K) (cur : Option K) (s s' : St A D') (log : List K) (e : K)
    (hs : c.step s = .ok s') (he : c.energy s'.amps = .ok e) (h1 : idx ≤ 75) (h2 : c.eps ≤ |old - e|) (h3 : idx ≤ c.maxIter) :
    c.loop (n + 1) idx old cur s log = c.loop n (idx + 1) e (some e) s' (log ++ [e]) := by
  rw [Cfg.loop, if_neg (by omega), hs]
  simp only [Bind.bind, Except.bind, he]
  rw [if_neg (not_lt.2 h2), if_neg (by omega)]

theorem run_from (c : Cfg A D' K) (s : St A D') (e0 : K) (he : c.energy s.amps = .ok e0) (r : Res A D' K) :
    c.run s = .ok r ↔ c.loop c.maxIter 0 e0 none s [] = .ok (r.st, some r.energy, r.log) := by
  simp only [Cfg.run, he, Bind.bind, Except.bind]
  cases c.loop c.maxIter 0 e0 none s [] with
  | error e => simp
  | ok v =>
    obtain ⟨s', cur, log⟩ := v
    cases cur with
    | none => simp
    | some e =>
      obtain ⟨x, y, z⟩ := r
      simp [pure, Except.pure]

end shift

/-- Arrays of a spin-integrated and of a spin-orbital calculation that describe the same amplitudes. -/
def SameAmps (A : SI I ℝ) (S : SO (I × Bool) ℝ) : Prop := A.Sym ∧ S.f = A.so.f ∧ S.g = A.so.g ∧ S.t2 = A.so.t2

omit [DecidableEq I] in
theorem weights_zero (t : String) (h1 : t ≠ "CCDQf-1") (h2 : t ≠ "CCDQf-2") (d2aa d2bb d2ab : I → I → I → I → ℝ) (A : SI I ℝ) :
    iterSi D t d2aa d2bb d2ab A = iterSi D "CCD" d2aa d2bb d2ab A := by
  have e : qfWeights t = qfWeights "CCD" := by simp [qfWeights, h1, h2]
  simp only [iterSi, residMain, resid_aaaa, resid_bbbb, resid_abab, e]

theorem slow_ccd {J : Type} [DecidableEq J] [Inhabited J] (E : Nat → Finset J) (t : String) (h1 : t ≠ "pCCD") (h2 : t ≠ "LCCD")
    (d2 : J → J → J → J → ℝ) (S : SO J ℝ) :
    residMainSlow E t (fun _ _ _ _ _ => 0) d2 S = residMainSlow E "CCD" (fun _ _ _ _ _ => 0) d2 S := by
  simp [residMainSlow, residSlow, h1, h2]

theorem step_same (ε : I × Bool → ℝ) (A : SI I ℝ) (S : SO (I × Bool) ℝ) (h : SameAmps A S) :
    SameAmps (iterSi D "CCD" (den_aa ε) (den_bb ε) (den_ab ε) A)
      (residMainSlow (spinD D) "CCD" (fun _ _ _ _ _ => 0) (den ε) S) := by
  obtain ⟨hA, hf, hg, ht⟩ := h
  have haa : Sym4 (den_aa ε) := ⟨fun _ _ _ _ => (den_sym ε).first _ _ _ _, fun _ _ _ _ => (den_sym ε).last _ _ _ _⟩
  have hbb : Sym4 (den_bb ε) := ⟨fun _ _ _ _ => (den_sym ε).first _ _ _ _, fun _ _ _ _ => (den_sym ε).last _ _ _ _⟩
  have k := (C36_iterates D ε A hA 1).1
  simp only [Function.iterate_one] at k
  refine ⟨C33_step D "CCD" _ _ _ haa hbb A hA, hf.trans (so_f_congr _ _ rfl rfl), hg.trans (so_g_congr _ _ rfl rfl rfl), ?_⟩
  rw [k]
  have e := (ccd_congr (spinD D) S A.so hf hg ht).1
  funext p q r s
  simp [residMainSlow, residSlow, e, ht]

/-- **The two calculations agree.** Without DIIS, the spin-integrated calculation of CCD from zero amplitudes and the
spin-orbital calculation, for the same integrals and orbital energies, end with the same energy and amplitudes. The
spin-orbital one starts from the first-order amplitudes and lists one energy less, so it is given one pass less. The
first pass must not be the last: the MP2 correlation energy is not below the threshold. -/
theorem C85_routes (ε : I × Bool → ℝ) (A : SI I ℝ) (hA : A.Sym)
    (h0 : A.t2_aaaa = 0 ∧ A.t2_abab = 0 ∧ A.t2_bbbb = 0)
    (o : Whole.Opts I) (o' : WholeSlow.Opts (I × Bool))
    (haa : o.d2aa = den_aa ε) (hbb : o.d2bb = den_bb ε) (hab : o.d2ab = den_ab ε) (hd : o'.d2 = den ε)
    (hdi : o.diis = none) (hdi' : o'.diis = none) (heps : o'.eps = o.eps)
    (hm : o.maxIter = o'.maxIter + 1) (h1 : 1 ≤ o'.maxIter) (h76 : o.maxIter ≤ 76)
    (ht1 : o.cc_type ≠ "CCDQf-1") (ht2 : o.cc_type ≠ "CCDQf-2")
    (hx : hasSub "X" o'.cc_type = false) (hp : o'.cc_type ≠ "pCCD") (hl : o'.cc_type ≠ "LCCD")
    (hmp2 : o.eps ≤ |ccdEnergy (spinD D) A.so - ccdEnergy (spinD D) (WholeSlow.start o'.d2 A.so)|) :
    ∃ r r', Whole.calculate D o A = .ok r ∧ WholeSlow.calculate (spinD D) o' A.so = .ok r' ∧ r'.energy = r.energy ∧
      r.log = ccdEnergy (spinD D) (WholeSlow.start o'.d2 A.so) :: r'.log ∧ r'.st.amps.t2 = r.st.amps.so.t2 := by
  obtain ⟨r, hr⟩ := C62_returns D o (.inl hdi) (by omega) h76 A
  have hflag : xccdFlag o'.cc_type = false := by
    rw [Bool.eq_false_iff]
    intro hc
    simp only [xccdFlag, List.any_eq_true] at hc
    obtain ⟨m, hm, hs⟩ := hc
    have hX : hasSub "X" m = true := by
      simp only [List.mem_cons, List.not_mem_nil, or_false] at hm
      rcases hm with rfl | rfl | rfl | rfl | rfl <;> decide
    rw [hasSub_iff] at hs hX
    have := (hasSub_iff "X" o'.cc_type).2 (hX.trans hs)
    rw [hx] at this
    cases this
  have hE : ∀ (s : St (SI I ℝ) (Whole.Acc D)) (t : St (SO (I × Bool) ℝ) (WholeSlow.Acc (spinD D))), SameAmps s.amps t.amps →
      (WholeSlow.cfg (spinD D) o').energy t.amps = (Whole.cfg D o).energy s.amps := by
    intro s t ⟨q1, q2, q3, q4⟩
    show WholeSlow.energy _ _ _ _ = .ok _
    unfold WholeSlow.energy
    rw [hflag, C35_ccd_energy D _ q1, (ccd_congr (spinD D) t.amps s.amps.so q2 q3 q4).2]
    rfl
  have hstep : ∀ s, (Whole.cfg D o).step s = .ok ⟨iterSi D "CCD" (den_aa ε) (den_bb ε) (den_ab ε) s.amps, set_l2amps s.amps, s.diis⟩ := by
    intro s
    refine (step_ok_iff _ _ _).2 ⟨iterSi D "CCD" (den_aa ε) (den_bb ε) (den_ab ε) s.amps, ?_, ?_, rfl⟩
    · rw [← weights_zero D _ ht1 ht2, ← haa, ← hbb, ← hab]; rfl
    · simp only [Whole.cfg, Whole.accel, hdi, Option.isSome_none, Bool.false_eq_true, if_false]
  have hstep' : ∀ t, (WholeSlow.cfg (spinD D) o').step t =
      .ok ⟨residMainSlow (spinD D) "CCD" (fun _ _ _ _ _ => 0) (den ε) t.amps, t.amps, t.diis⟩ := by
    intro t
    refine (step_ok_iff _ _ _).2 ⟨residMainSlow (spinD D) "CCD" (fun _ _ _ _ _ => 0) (den ε) t.amps, ?_, ?_, rfl⟩
    · show WholeSlow.resid _ _ _ _ = _
      unfold WholeSlow.resid
      rw [hx, slow_ccd _ _ hp hl, hd]
      rfl
    · simp only [WholeSlow.cfg, WholeSlow.accel, hdi', Option.isSome_none, Bool.false_eq_true, if_false]
  have hS : ∀ (s : St (SI I ℝ) (Whole.Acc D)) (t : St (SO (I × Bool) ℝ) (WholeSlow.Acc (spinD D))), SameAmps s.amps t.amps →
      SameRun (fun s t => SameAmps s.amps t.amps) ((Whole.cfg D o).step s) ((WholeSlow.cfg (spinD D) o').step t) := by
    intro s t h
    rw [hstep, hstep']
    exact step_same D ε _ _ h
  -- the first pass
  have hz : ∀ p q r s, A.so.t2 p q r s = 0 := by
    rintro ⟨p, a⟩ ⟨q, b⟩ ⟨r, c⟩ ⟨s, d⟩
    by_cases hb : a.toNat + b.toNat = c.toNat + d.toNat
    · obtain ⟨a1, a2⟩ := A.so_t2_same p q r s
      obtain ⟨m1, m2, m3, m4⟩ := A.so_t2_mixed p q r s
      rw [h0.1] at a1
      rw [h0.2.2] at a2
      rw [h0.2.1] at m1 m2 m3 m4
      simp only [Pi.zero_apply, neg_zero] at a1 a2 m1 m2 m3 m4
      cases a <;> cases b <;> cases c <;> cases d <;> first | assumption | simp at hb
    · exact A.so_t2_zero p q r s a b c d hb
  set A1 := iterSi D "CCD" (den_aa ε) (den_bb ε) (den_ab ε) A with hA1
  have hfirst : SameAmps A1 (WholeSlow.start o'.d2 A.so) := by
    obtain ⟨q1, q2, q3, q4⟩ := step_same D ε A A.so ⟨hA, rfl, rfl, rfl⟩
    refine ⟨q1, q2, q3, ?_⟩
    rw [← q4]
    funext a b i j
    rw [C39_first_update (spinD D) "CCD" (by decide) (den ε) A.so hz, ← hd]
    rfl
  have eE0 : (Whole.cfg D o).energy A = .ok (ccdEnergy (spinD D) A.so) := by
    show Except.ok _ = _
    rw [C35_ccd_energy D _ hA]
  have eE1' : (WholeSlow.cfg (spinD D) o').energy (WholeSlow.start o'.d2 A.so) = .ok (ccdEnergy (spinD D) (WholeSlow.start o'.d2 A.so)) := by
    show WholeSlow.energy _ _ _ _ = _
    unfold WholeSlow.energy
    rw [hflag]
    rfl
  have eE1 : (Whole.cfg D o).energy A1 = .ok (ccdEnergy (spinD D) (WholeSlow.start o'.d2 A.so)) := by
    rw [← eE1']
    exact (hE ⟨A1, A1, (Whole.initial D o A).diis⟩ (WholeSlow.initial (spinD D) o' A.so) hfirst).symm
  set E1 := ccdEnergy (spinD D) (WholeSlow.start o'.d2 A.so)
  have hrun := run_from (Whole.cfg D o) (Whole.initial D o A) _ eE0
  rw [show (Whole.cfg D o).maxIter = o'.maxIter + 1 from hm,
    loop_next (Whole.cfg D o) o'.maxIter 0 _ none (Whole.initial D o A) _ [] E1 (hstep _) eE1 (by omega) hmp2 (by omega)] at hrun
  have hrun' := run_from (WholeSlow.cfg (spinD D) o') (WholeSlow.initial (spinD D) o' A.so) _ eE1'
  have key := loop_shift (Whole.cfg D o) (WholeSlow.cfg (spinD D) o') heps (fun s t => SameAmps s.amps t.amps) hE hS
    o'.maxIter 1 0 E1 (some E1) none ⟨A1, set_l2amps A, (Whole.initial D o A).diis⟩ (WholeSlow.initial (spinD D) o' A.so) [E1] []
    hfirst (by omega) (by omega) (show _ ≤ o.maxIter + 1 by omega) (show _ ≤ o'.maxIter + 1 by omega)
  have hr' := (hrun r).1 hr
  rw [show (Whole.cfg D o).loop o'.maxIter 1 E1 (some E1) ⟨A1, set_l2amps A, (Whole.initial D o A).diis⟩ [E1] =
    .ok (r.st, some r.energy, r.log) from hr'] at key
  cases hv : (WholeSlow.cfg (spinD D) o').loop o'.maxIter 0 E1 none (WholeSlow.initial (spinD D) o' A.so) [] with
  | error e => rw [hv] at key; exact key.elim
  | ok v =>
    obtain ⟨s', c', log'⟩ := v
    rw [hv] at key
    obtain ⟨⟨-, -, -, k1⟩, k2, l, k3, k4⟩ := key
    have k2 : c' = some r.energy := k2 (.inl (by omega))
    subst k2
    have k3 : r.log = [E1] ++ l := k3
    have k4 : log' = [] ++ l := k4
    refine ⟨r, ⟨s', r.energy, log'⟩, hr, (hrun' _).2 hv, rfl, ?_, k1⟩
    rw [k3, k4]
    rfl

/-- The first-order amplitudes lower the energy if the occupied orbitals lie below the virtual ones and some integral
`g i j a b` is not zero. -/
theorem start_lower {J : Type} [DecidableEq J] [Inhabited J] (E : Nat → Finset J) (ε : J → ℝ) (S : SO J ℝ) (hS : S.Sym)
    (h0 : ∀ a b i j, S.t2 a b i j = 0) (hε : ∀ i ∈ E 0, ∀ a ∈ E 1, ε i < ε a) (a b i j : J) (ha : a ∈ E 1) (hb : b ∈ E 1)
    (hi : i ∈ E 0) (hj : j ∈ E 0) (hg : S.g i j a b ≠ 0) :
    ccdEnergy E (WholeSlow.start (den ε) S) < ccdEnergy E S := by
  have e := C39_mp2_energy E "CCD" (by decide) ε S hS h0
  have e' : residMainSlow E "CCD" (fun _ _ _ _ _ => 0) (fun a b i j => 1 / (ε i + ε j - ε a - ε b)) S = WholeSlow.start (den ε) S := by
    have : (residMainSlow E "CCD" (fun _ _ _ _ _ => 0) (fun a b i j => 1 / (ε i + ε j - ε a - ε b)) S).t2 = (WholeSlow.start (den ε) S).t2 := by
      funext a b i j
      exact C39_first_update E "CCD" (by decide) _ S h0 a b i j
    simpa [residMainSlow, WholeSlow.start] using this
  rw [e'] at e
  have t : ∀ a ∈ E 1, ∀ b ∈ E 1, ∀ i ∈ E 0, ∀ j ∈ E 0, S.g i j a b ^ 2 / (ε i + ε j - ε a - ε b) ≤ 0 := by
    intro a ha b hb i hi j hj
    have h1 := hε i hi a ha
    have h2 := hε j hj b hb
    exact div_nonpos_of_nonneg_of_nonpos (sq_nonneg _) (by linarith)
  have : ∑ a ∈ E 1, ∑ b ∈ E 1, ∑ i ∈ E 0, ∑ j ∈ E 0, S.g i j a b ^ 2 / (ε i + ε j - ε a - ε b) < 0 := by
    refine Finset.sum_neg' (fun a ha => Finset.sum_nonpos fun b hb => Finset.sum_nonpos fun i hi => Finset.sum_nonpos fun j hj => t a ha b hb i hi j hj)
      ⟨a, ha, Finset.sum_neg' (fun b hb => Finset.sum_nonpos fun i hi => Finset.sum_nonpos fun j hj => t a ha b hb i hi j hj)
        ⟨b, hb, Finset.sum_neg' (fun i hi => Finset.sum_nonpos fun j hj => t a ha b hb i hi j hj)
          ⟨i, hi, Finset.sum_neg' (fun j hj => t a ha b hb i hi j hj) ⟨j, hj, ?_⟩⟩⟩⟩
    have h1 := hε i hi a ha
    have h2 := hε j hj b hb
    exact div_neg_of_pos_of_neg (by positivity) (by linarith)
  linarith

/-- Two occupied and two virtual orbitals of a closed-shell system, any number of passes up to 75: both calculations run
and agree, for a positive threshold. -/
example (n : ℕ) (h1 : 1 ≤ n) (h2 : n ≤ 75) : ∃ eps > 0, ∃ r r',
    Whole.calculate Witness.D ⟨"CCD", den_aa Witness.εR, den_bb Witness.εR, den_ab Witness.εR, n + 1, eps, none, 0⟩ Witness.csR = .ok r ∧
    WholeSlow.calculate (spinD Witness.D) ⟨"CCD", den Witness.εR, n, eps, none, 0⟩ Witness.csR.so = .ok r' ∧
    r'.energy = r.energy ∧ r'.st.amps.t2 = r.st.amps.so.t2 := by
  have z : ∀ a b i j, Witness.csR.so.t2 a b i j = 0 := by
    rintro ⟨p, a⟩ ⟨q, b⟩ ⟨r, c⟩ ⟨s, d⟩
    by_cases hb : a.toNat + b.toNat = c.toNat + d.toNat
    · obtain ⟨a1, a2⟩ := Witness.csR.so_t2_same p q r s
      obtain ⟨m1, m2, m3, m4⟩ := Witness.csR.so_t2_mixed p q r s
      simp only [Witness.csR, neg_zero] at a1 a2 m1 m2 m3 m4
      cases a <;> cases b <;> cases c <;> cases d <;> first | assumption | simp at hb
    · exact SI.so_t2_zero _ p q r s a b c d hb
  have lt := start_lower (spinD Witness.D) Witness.εR Witness.csR.so Witness.csR_sym.so z
    (by
      rintro ⟨i, σ⟩ hi ⟨a, τ⟩ ha
      simp only [spinD, Finset.mem_product, Finset.mem_univ, and_true, Witness.D, Finset.mem_insert, Finset.mem_singleton] at hi ha
      rcases hi with rfl | rfl <;> rcases ha with rfl | rfl <;> norm_num [Witness.εR])
    (2, false) (3, true) (0, false) (1, true) (by simp [spinD, Witness.D]) (by simp [spinD, Witness.D])
    (by simp [spinD, Witness.D]) (by simp [spinD, Witness.D])
    (by
      rw [(Witness.csR.so_g_mixed 0 1 2 3).1]
      norm_num [Witness.csR, Witness.cs, Witness.gab, Witness.z])
  refine ⟨ccdEnergy (spinD Witness.D) Witness.csR.so - ccdEnergy (spinD Witness.D) (WholeSlow.start (den Witness.εR) Witness.csR.so),
    by linarith, ?_⟩
  obtain ⟨r, r', q1, q2, q3, -, q4⟩ := C85_routes Witness.D Witness.εR Witness.csR Witness.csR_sym ⟨rfl, rfl, rfl⟩
    ⟨"CCD", den_aa Witness.εR, den_bb Witness.εR, den_ab Witness.εR, n + 1, _, none, 0⟩
    ⟨"CCD", den Witness.εR, n, ccdEnergy (spinD Witness.D) Witness.csR.so - ccdEnergy (spinD Witness.D) (WholeSlow.start (den Witness.εR) Witness.csR.so), none, 0⟩
    rfl rfl rfl rfl rfl rfl rfl rfl h1 (by show n + 1 ≤ 76; omega) (show "CCD" ≠ _ by decide) (show "CCD" ≠ _ by decide)
    (show hasSub "X" "CCD" = false by decide +kernel) (show "CCD" ≠ _ by decide) (show "CCD" ≠ _ by decide) (le_abs_self _)
  exact ⟨r, r', q1, q2, q3, q4⟩

/-! ## the energies and equations -/

/-- The integrals are not changed. -/
theorem slow_integrals (o : WholeSlow.Opts I) (S : SO I ℝ) (r : Res (SO I ℝ) (WholeSlow.Acc D) ℝ)
    (h : WholeSlow.calculate D o S = .ok r) : r.st.amps.f = S.f ∧ r.st.amps.g = S.g := by
  refine run_keeps (WholeSlow.cfg D o) (fun s => s.amps.f = S.f ∧ s.amps.g = S.g) ?_ _ ⟨rfl, rfl⟩ r h
  rintro s s' ⟨h1, h2⟩ hs
  obtain ⟨a, ha, hb, -⟩ := (step_ok_iff _ _ _).1 hs
  have hPa : a.f = S.f ∧ a.g = S.g := by
    simp only [WholeSlow.cfg, WholeSlow.resid] at ha
    split at ha
    · split at ha
      · cases ha
      · split at ha
        · cases ha
        · cases ha; exact ⟨h1, h2⟩
    · cases ha; exact ⟨h1, h2⟩
  simp only [WholeSlow.cfg, WholeSlow.accel] at hb
  split at hb
  · split at hb
    · cases hb
    split at hb
    · cases hb
    · simp only [Except.ok.injEq, Prod.mk.injEq] at hb
      rw [← hb.2]
      exact hPa
  · simp only [Except.ok.injEq, Prod.mk.injEq] at hb
    rw [← hb.2]
    exact hPa

section operators

variable {D} {A : Type} [Ring A] [Algebra ℝ A] (F : Fermi I ℝ A D)

/-- `1/2 [[V, T2], T2]`. -/
noncomputable def commutator2 (h : I → I → ℝ) (S : SO I ℝ) : A :=
  (1 / 2 : ℝ) • com (com (F.fluct h S.f S.g) (F.T2 S.t2)) (F.T2 S.t2)

/-- `1/6 [[[V, T2], T2], T2]`. -/
noncomputable def commutator3 (h : I → I → ℝ) (S : SO I ℝ) : A :=
  (1 / 6 : ℝ) • com (com (com (F.fluct h S.f S.g) (F.T2 S.t2)) (F.T2 S.t2)) (F.T2 S.t2)

/-- What `UT2-CCD(5)` and `UT2-CCD(6)` report: the energy of the amplitudes is the expectation value of the transformed
Hamiltonian, and half of `⟨T1† T2† ...⟩` with the first-order doubles `T1 = g D2` is added once to the total energy and
to the correlation energy. -/
theorem C85_ut2 (hD : Disjoint (D 0) (D 1)) (o : WholeSlow.Opts I) (hd : Sym4 o.d2) (S : SO I ℝ) (hS : S.Sym) (h : I → I → ℝ)
    (hf : IsFock D h S.f S.g) (nucE hf' : ℝ) (r : Res (SO I ℝ) (WholeSlow.Acc D) ℝ) (hr : WholeSlow.calculate D o S = .ok r)
    (n : ℕ) (hn : 2 ≤ n) :
    (o.cc_type = "UT2-CCD(5)" →
      let E := F.ω (hbar F h S.g n (F.T2 r.st.amps.t2))
      let X := 1 / 2 * F.ω (F.T2dag (fun a b i j => S.g a b i j * o.d2 a b i j) * (F.T2dag r.st.amps.t2 * commutator2 F h r.st.amps))
      WholeSlow.finish D o nucE hf' r = .ok (some (E + nucE + X, nucE + E - hf' + X))) ∧
    (o.cc_type = "UT2-CCD(6)" →
      let E := F.ω (hbar F h S.g n (F.T2 r.st.amps.t2))
      let X := 1 / 2 * F.ω (F.T2dag (fun a b i j => S.g a b i j * o.d2 a b i j) * (F.T2dag r.st.amps.t2 *
        (commutator2 F h r.st.amps + commutator3 F h r.st.amps)))
      WholeSlow.finish D o nucE hf' r = .ok (some (E + nucE + X, nucE + E - hf' + X))) := by
  obtain ⟨i1, i2⟩ := slow_integrals D o S r hr
  have hs := C85_antisymmetry D o hd S hS r hr
  have he := (C03_energy_of_returned_amplitudes _ _ _ hr).1
  have hf1 : IsFock D h r.st.amps.f r.st.amps.g := by rw [i1, i2]; exact hf
  have p5 := (C78_energy5 F hD r.st.amps hs h hf1 o.d2).1
  have p6 := (C78_energy6 F hD r.st.amps hs h hf1 o.d2).1
  have pe := C75_ccd_energy F hD r.st.amps hs h hf1 n hn
  rw [i2] at p5 p6 pe
  have hx5 : xccdFlag "UT2-CCD(5)" = false := by decide +kernel
  have hx6 : xccdFlag "UT2-CCD(6)" = false := by decide +kernel
  have ho5 : pertOrder "UT2-CCD(5)" = some [5] := by decide +kernel
  have ho6 : pertOrder "UT2-CCD(6)" = some [5, 6] := by decide +kernel
  have hu5 : hasSub "UT2" "UT2-CCD(5)" = true := by decide +kernel
  have hu6 : hasSub "UT2" "UT2-CCD(6)" = true := by decide +kernel
  have hq5 : "UT2-CCD(5)" ∉ Finalize.qfNames := by decide +kernel
  have hq6 : "UT2-CCD(6)" ∉ Finalize.qfNames := by decide +kernel
  constructor <;> intro ht <;> intro E X <;>
    (simp only [WholeSlow.cfg, WholeSlow.energy, ht, hx5, hx6, Bool.false_eq_true, if_false, Except.ok.injEq] at he
     simp only [WholeSlow.finish, ht, hu5, hu6, or_true, if_true, pertEnergy, ho5, ho6, add_XCCenergy, List.foldlM_cons, List.foldlM_nil,
       p5, p6, Option.map_some, Option.bind_eq_bind, Option.bind_some, Option.pure_def, zero_add, Except.map, Finalize.finalize,
       if_neg hq5, if_neg hq6]
     rw [← he, ← pe]
     simp [E, X, commutator2, commutator3, mul_add, i2])

/-- The energies of `XCCD(5)` and `XCCD(6)`. -/
theorem C85_xccd_energy (hD : Disjoint (D 0) (D 1)) (o : WholeSlow.Opts I) (hd : Sym4 o.d2) (S : SO I ℝ) (hS : S.Sym) (h : I → I → ℝ)
    (hf : IsFock D h S.f S.g) (r : Res (SO I ℝ) (WholeSlow.Acc D) ℝ) (hr : WholeSlow.calculate D o S = .ok r)
    (n : ℕ) (hn : 2 ≤ n) :
    (o.cc_type = "XCCD(5)" → r.energy = F.ω (hbar F h S.g n (F.T2 r.st.amps.t2)) +
      1 / 2 * F.ω (F.T2dag r.st.amps.t2 * (F.T2dag r.st.amps.t2 * commutator2 F h r.st.amps))) ∧
    (o.cc_type = "XCCD(6)" → r.energy = F.ω (hbar F h S.g n (F.T2 r.st.amps.t2)) +
      1 / 2 * F.ω (F.T2dag r.st.amps.t2 * (F.T2dag r.st.amps.t2 * (commutator2 F h r.st.amps + commutator3 F h r.st.amps)))) := by
  obtain ⟨i1, i2⟩ := slow_integrals D o S r hr
  have hs := C85_antisymmetry D o hd S hS r hr
  have he := (C03_energy_of_returned_amplitudes _ _ _ hr).1
  have hf1 : IsFock D h r.st.amps.f r.st.amps.g := by rw [i1, i2]; exact hf
  have p5 := (C78_energy5 F hD r.st.amps hs h hf1 o.d2).2
  have p6 := (C78_energy6 F hD r.st.amps hs h hf1 o.d2).2
  have pe := C75_ccd_energy F hD r.st.amps hs h hf1 n hn
  rw [i2] at p5 p6 pe
  have hx5 : xccdFlag "XCCD(5)" = true := by decide +kernel
  have hx6 : xccdFlag "XCCD(6)" = true := by decide +kernel
  have ho5 : pertOrder "XCCD(5)" = some [5] := by decide +kernel
  have ho6 : pertOrder "XCCD(6)" = some [5, 6] := by decide +kernel
  constructor <;> intro ht <;>
    (simp only [WholeSlow.cfg, WholeSlow.energy, ht, hx5, hx6, if_true, pertEnergy, ho5, ho6, add_XCCenergy, List.foldlM_cons, List.foldlM_nil,
       p5, p6, Option.map_some, Option.bind_eq_bind, Option.bind_some, Option.pure_def, zero_add, Except.map, Except.ok.injEq] at he
     rw [← he, ← pe]
     simp [commutator2, commutator3, mul_add, i2])

/-- A pass of `XCCD(5)` or `XCCD(6)` leaves an amplitude as it is exactly if the doubles projection of the transformed
Hamiltonian plus half of `⟨Φ_ij^ab| T2† ...⟩` is zero. -/
theorem C85_xccd_equations (hD : Disjoint (D 0) (D 1)) (d2 : I → I → I → I → ℝ) (S S' : SO I ℝ) (hS : S.Sym) (h : I → I → ℝ)
    (hf : IsFock D h S.f S.g) (a b i j : I) (ha : a ∈ D 1) (hb : b ∈ D 1) (hi : i ∈ D 0) (hj : j ∈ D 0) (hd : d2 a b i j ≠ 0)
    (n : ℕ) (hn : 3 ≤ n) :
    (WholeSlow.resid D "XCCD(5)" d2 S = .ok S' → (S'.t2 a b i j = S.t2 a b i j ↔
      F.ω (F.bra2 a b i j * hbar F h S.g n (F.T2 S.t2)) +
        1 / 2 * F.ω (F.bra2 a b i j * F.T2dag S.t2 * commutator2 F h S) = 0)) ∧
    (WholeSlow.resid D "XCCD(6)" d2 S = .ok S' → (S'.t2 a b i j = S.t2 a b i j ↔
      F.ω (F.bra2 a b i j * hbar F h S.g n (F.T2 S.t2)) +
        1 / 2 * F.ω (F.bra2 a b i j * F.T2dag S.t2 * (commutator2 F h S + commutator3 F h S)) = 0)) := by
  have q5 := C78_order5 F hD S hS h hf a b i j ha hb hi hj
  have q6 := C78_order6 F hD S hS h hf a b i j ha hb hi hj
  have e5 : build_XCCDbase D S 5 = some fun a b i j => 1 / 8 * capDag D S (xccd5_t4 D S) a b i j := rfl
  have e6 : build_XCCDbase D S 6 = some fun a b i j => 1 / 8 * capDag D S (xccd6_t4 D S) a b i j := rfl
  rw [e5] at q5
  rw [e6] at q6
  simp only [Option.map_some, Option.some.injEq] at q5 q6
  have key : ∀ R : ℝ, (R + (d2 a b i j)⁻¹ * S.t2 a b i j) * d2 a b i j = S.t2 a b i j ↔ R = 0 := by
    intro R
    have : (R + (d2 a b i j)⁻¹ * S.t2 a b i j) * d2 a b i j = S.t2 a b i j + R * d2 a b i j := by field_simp; ring
    rw [this]
    constructor
    · intro e
      have : R * d2 a b i j = 0 := by linarith
      exact (mul_eq_zero.1 this).resolve_right hd
    · rintro rfl; ring
  have hx5 : hasSub "X" "XCCD(5)" = true := by decide +kernel
  have hx6 : hasSub "X" "XCCD(6)" = true := by decide +kernel
  have ho5 : pertOrder "XCCD(5)" = some [5] := by decide +kernel
  have ho6 : pertOrder "XCCD(6)" = some [5, 6] := by decide +kernel
  have hp5 : ("XCCD(5)" : String) ≠ "pCCD" := by decide +kernel
  have hp6 : ("XCCD(6)" : String) ≠ "pCCD" := by decide +kernel
  have hl5 : ("XCCD(5)" : String) ≠ "LCCD" := by decide +kernel
  have hl6 : ("XCCD(6)" : String) ≠ "LCCD" := by decide +kernel
  constructor <;> intro hr <;>
    (simp only [WholeSlow.resid, hx5, hx6, if_true, ho5, ho6, xccTerms, List.foldlM_cons, List.foldlM_nil, e5, e6, Option.map_some,
       Option.bind_eq_bind, Option.bind_some, Option.pure_def, zero_add, Except.ok.injEq] at hr
     rw [← hr]
     simp only [residMainSlow, residSlow, if_neg hp5, if_neg hl5, if_neg hp6, if_neg hl6, key, Pi.add_apply, q5, q6,
       ← C75_ccd F hD S hS h hf a b i j ha hb hi hj n hn, commutator2, commutator3, mul_add, map_add])

end operators

/-! ## calculations that return -/

/-- Without DIIS a calculation with a pass or more and at most 76 returns, for a method with known orders. -/
theorem C85_returns (o : WholeSlow.Opts I) (hdi : o.diis = none) (h1 : 1 ≤ o.maxIter) (h2 : o.maxIter ≤ 76)
    (ht : o.cc_type ∈ ["CCD", "LCCD", "pCCD", "XCCD(5)", "XCCD(6)", "XCCD(7)", "UT2-CCD(5)", "UT2-CCD(6)", "UT2-CCD(7)"]) (S : SO I ℝ) :
    ∃ r, WholeSlow.calculate D o S = .ok r := by
  have hR : ∀ S, ∃ S', WholeSlow.resid D o.cc_type o.d2 S = .ok S' := by
    intro S
    have hb : ∀ n ∈ [5, 6, 7], ∃ x, build_XCCDbase D S n = some x := by
      intro n hn
      fin_cases hn <;> exact ⟨_, rfl⟩
    obtain ⟨x5, b5⟩ := hb 5 (by simp)
    obtain ⟨x6, b6⟩ := hb 6 (by simp)
    obtain ⟨x7, b7⟩ := hb 7 (by simp)
    have p5 : pertOrder "XCCD(5)" = some [5] := by decide +kernel
    have p6 : pertOrder "XCCD(6)" = some [5, 6] := by decide +kernel
    have p7 : pertOrder "XCCD(7)" = some [5, 6, 7] := by decide +kernel
    simp only [List.mem_cons, List.not_mem_nil, or_false] at ht
    unfold WholeSlow.resid
    rcases ht with h | h | h | h | h | h | h | h | h <;> rw [h]
    · rw [if_neg (by decide +kernel)]; exact ⟨_, rfl⟩
    · rw [if_neg (by decide +kernel)]; exact ⟨_, rfl⟩
    · rw [if_neg (by decide +kernel)]; exact ⟨_, rfl⟩
    · rw [if_pos (by decide +kernel), p5]; simp [xccTerms, b5]
    · rw [if_pos (by decide +kernel), p6]; simp [xccTerms, b5, b6]
    · rw [if_pos (by decide +kernel), p7]; simp [xccTerms, b5, b6, b7]
    · rw [if_neg (by decide +kernel)]; exact ⟨_, rfl⟩
    · rw [if_neg (by decide +kernel)]; exact ⟨_, rfl⟩
    · rw [if_neg (by decide +kernel)]; exact ⟨_, rfl⟩
  have hE : ∀ S, ∃ e, WholeSlow.energy D o.cc_type o.d2 S = .ok e := by
    intro S
    have hb : ∀ n ∈ [5, 6, 7], ∃ x, buildXCCD_T2energy D S o.d2 n false = some x := by
      intro n hn
      fin_cases hn <;> exact ⟨_, rfl⟩
    obtain ⟨x5, b5⟩ := hb 5 (by simp)
    obtain ⟨x6, b6⟩ := hb 6 (by simp)
    obtain ⟨x7, b7⟩ := hb 7 (by simp)
    have p5 : pertOrder "XCCD(5)" = some [5] := by decide +kernel
    have p6 : pertOrder "XCCD(6)" = some [5, 6] := by decide +kernel
    have p7 : pertOrder "XCCD(7)" = some [5, 6, 7] := by decide +kernel
    simp only [List.mem_cons, List.not_mem_nil, or_false] at ht
    unfold WholeSlow.energy
    rcases ht with h | h | h | h | h | h | h | h | h <;> rw [h]
    · rw [if_neg (by decide +kernel)]; exact ⟨_, rfl⟩
    · rw [if_neg (by decide +kernel)]; exact ⟨_, rfl⟩
    · rw [if_neg (by decide +kernel)]; exact ⟨_, rfl⟩
    · rw [if_pos (by decide +kernel)]; simp [pertEnergy, p5, add_XCCenergy, b5, Except.map]
    · rw [if_pos (by decide +kernel)]; simp [pertEnergy, p6, add_XCCenergy, b5, b6, Except.map]
    · rw [if_pos (by decide +kernel)]; simp [pertEnergy, p7, add_XCCenergy, b5, b6, b7, Except.map]
    · rw [if_neg (by decide +kernel)]; exact ⟨_, rfl⟩
    · rw [if_neg (by decide +kernel)]; exact ⟨_, rfl⟩
    · rw [if_neg (by decide +kernel)]; exact ⟨_, rfl⟩
  have hs : ∀ s, ∃ s', (WholeSlow.cfg D o).step s = .ok s' := by
    intro s
    obtain ⟨S', h⟩ := hR s.amps
    refine ⟨⟨S', s.amps, s.diis⟩, (step_ok_iff _ _ _).2 ⟨S', h, ?_, rfl⟩⟩
    simp only [WholeSlow.cfg, WholeSlow.accel, hdi, Option.isSome_none, Bool.false_eq_true, if_false]
  have hl : ∀ n idx old cur s log, idx + n ≤ 76 → idx + n ≤ o.maxIter → (n = 0 → cur ≠ none) →
      ∃ s' e log', (WholeSlow.cfg D o).loop n idx old cur s log = .ok (s', some e, log') := by
    intro n
    induction n with
    | zero =>
      intro idx old cur s log _ _ hc
      obtain ⟨e, rfl⟩ := Option.ne_none_iff_exists'.1 (hc rfl)
      exact ⟨s, e, log, rfl⟩
    | succ n ih =>
      intro idx old cur s log h3 h4 _
      obtain ⟨s', h5⟩ := hs s
      obtain ⟨e, h6⟩ := hE s'.amps
      have h6 : (WholeSlow.cfg D o).energy s'.amps = .ok e := h6
      rw [Cfg.loop, if_neg (by omega), h5]
      simp only [Bind.bind, Except.bind, h6]
      split
      · exact ⟨_, _, _, rfl⟩
      · rw [if_neg (show ¬ idx > (WholeSlow.cfg D o).maxIter from by show ¬ idx > o.maxIter; omega)]
        exact ih _ _ _ _ _ (by omega) (by omega) (fun _ => by simp)
  obtain ⟨e0, h0⟩ := hE (WholeSlow.initial D o S).amps
  obtain ⟨s', e, log', h⟩ := hl o.maxIter 0 e0 none (WholeSlow.initial D o S) [] (by omega) (by omega) (by omega)
  exact ⟨⟨s', e, log'⟩, (run_from (WholeSlow.cfg D o) _ e0 h0 _).2 h⟩

/-- `XCCD(6)` for the closed-shell integrals: forty passes at most, and the result is antisymmetric. -/
example : ∃ r, WholeSlow.calculate (spinD Witness.D) ⟨"XCCD(6)", den Witness.εR, 40, 1 / 100000000, none, 0⟩ Witness.csR.so = .ok r ∧
    r.st.amps.Sym := by
  obtain ⟨r, h⟩ := C85_returns (spinD Witness.D) ⟨"XCCD(6)", den Witness.εR, 40, 1 / 100000000, none, 0⟩ rfl (show 1 ≤ 40 by omega)
    (show 40 ≤ 76 by omega) (show "XCCD(6)" ∈ _ by decide) Witness.csR.so
  exact ⟨r, h, C85_antisymmetry _ _ (den_sym _) _ Witness.csR_sym.so r h⟩

/-- The operators of `C85_ut2`, `C85_xccd_energy` and `C85_xccd_equations` exist for any orbitals and integrals. -/
example : (∃ h, IsFock (spinD Witness.D) h Witness.csR.so.f Witness.csR.so.g) ∧
    Nonempty (Fermi (ℕ × Bool) ℝ (Module.End ℝ (Fock (ℕ × Bool) ℝ)) (spinD Witness.D)) :=
  ⟨exists_isFock (D := spinD Witness.D) Witness.csR.so, exists_fermi (K := ℝ) (spinD_disjoint Witness.D_disjoint)⟩

end Verif.Props
