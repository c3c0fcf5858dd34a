import Verif.Props.WeakOrder

/-!
# `DriveCC` with weak interaction (C94): convergence
-/

namespace Verif.Props

open Verif.Ein Verif.UT2 Verif.Kernel Verif.Py Verif.WholeDrive Verif.Weak
open Verif.Wick (InBox)

variable {I : Type} [DecidableEq I] [Inhabited I] (D : Nat → Finset I)

/-- The amplitudes solve the equations of the method. -/
def SolvesDrive (m : Eqns) (X : SO I ℝ) : Prop :=
  match m with
  | .ccsdt => Solves_ccsdt D X
  | .ccsd => Solves_ccsd D X
  | .ccdq => Solves_ccdq D X
  | .ccd => ∀ i ∈ D 0, ∀ j ∈ D 0, ∀ a ∈ D 1, ∀ b ∈ D 1, ccsd_t2resid D (noSingles X) i j a b = 0

/-- Arrays with the integrals of `B` whose antisymmetric amplitudes are at most one and solve the equations of the method. The numbers
31, 39, 47, 55 of the arrays in `InSlot` stand for singles, doubles, triples and quadruples. -/
structure SmallDrive (m : Eqns) (B X : SO I ℝ) : Prop where
  sym : X.Sym
  f : X.f = B.f
  g : X.g = B.g
  small : ∀ t l, InSlot D m (t, l) → |X.T t l| ≤ 1
  solves : SolvesDrive D m X

/-- The same amplitudes between occupied and virtual orbitals. -/
def SameDrive (m : Eqns) (X Y : SO I ℝ) : Prop := ∀ t l, InSlot D m (t, l) → X.T t l = Y.T t l

/-- All amplitudes differ by at most `r`. -/
def NearAmps (m : Eqns) (r : ℝ) (X Y : SO I ℝ) : Prop := ∀ t l, InSlot D m (t, l) → |X.T t l - Y.T t l| ≤ r

omit [DecidableEq I] in
theorem solves_iff (m : Eqns) (ε : I → ℝ) (hg : ∀ i ∈ D 0, ∀ a ∈ D 1, ε i < ε a) (X : SO I ℝ) : SolvesDrive D m X ↔ DriveStationary D m ε X := by
  obtain ⟨h1, h2, h3, h4⟩ := C91_stationary D ε hg X
  cases m
  exacts [h1.symm, h2.symm, h3.symm, h4.symm]

variable {D} {m : Eqns}

omit [DecidableEq I] [Inhabited I] in
theorem DHolds.self {S B : SO I ℝ} {c : ℝ} (h1 : B.Sym) (h2 : B.f = S.f) (h3 : B.g = (scaleW c S).g) : DHolds S c (packD D m B) B :=
  ⟨h1, h2, h3, fun _ _ hs => (ext_mem (packD D m B) hs).symm⟩

omit [DecidableEq I] [Inhabited I] in
theorem dnorm_le {v : DSlot D m → ℝ} {r : ℝ} (hr : 0 ≤ r) : ‖v‖ ≤ r ↔ ∀ s, |v s| ≤ r := pi_norm_le_iff_of_nonneg hr

/-- Orders: small vectors near the first-order amplitudes, after one more pass. -/
theorem third_order {ε : I → ℝ} {S B : SO I ℝ} {c r : ℝ} {v : DSlot D m → ℝ} (hS : S.Sym) (hf : DiagF D ε S) (hg : ∀ i ∈ D 0, ∀ a ∈ D 1, ε i < ε a)
    (name : String) (hn : hasSub "S" name = true → 31 ∈ lvls m) (h : DHolds S c v B) {M : ℝ}
    (hM : ∀ c : ℝ, pair2 S (c • driveQ ε S (c • driveQ ε S (0 : DSlot D m → ℝ))) = c * (driveMp2 D ε S + c * driveMp3 D ε S + c ^ 2 * M))
    (C : ℝ) (hC : 0 ≤ C) (hr : r = |c| * C) (hr1 : r ≤ 1) (h2 : ‖v - c • driveQ ε S 0‖ ≤ r ^ 2)
    (h3 : ∀ s : DSlot D m, driveδ s = 0 → |v s - c * driveQ ε S (c • driveQ ε S 0) s| ≤ r ^ 3) :
    |WholeDrive.energy D name B - (refE D (scaleW c S) + c ^ 2 * driveMp2 D ε S + c ^ 3 * driveMp3 D ε S)| ≤ c ^ 4 * (2 * sizeG D S * C ^ 3 + |M|) := by
  have c0 := abs_nonneg c
  have hr0 : 0 ≤ r := by rw [hr]; positivity
  have a1 := pair1_small name S v (r ^ 2) (by positivity) fun a ha i hi => by
    by_cases hl : 31 ∈ lvls m
    · have hs := slot1 hl ha hi
      have e := (norm_le_pi_norm (v - c • driveQ ε S 0) ⟨_, hs⟩).trans h2
      have q := (driveQ_zero (D := D) (m := m) ε S hS).2 31 (by decide) [a, i]
      rw [ext_mem _ hs] at q ⊢
      simpa [q] using e
    · rw [ext_off _ fun hs => hl hs.1, abs_zero]
      positivity
  have a2 := pair2_near S v (c • driveQ ε S (c • driveQ ε S 0)) (r ^ 3) fun a ha b hb i hi j hj => by
    have hs := slot2 (doubles_mem m) ha hb hi hj
    rw [ext_mem _ hs, ext_mem _ hs]
    refine h3 ⟨_, hs⟩ ?_
    show 1 - kappa 39 = 0
    rw [kappa, if_neg (by decide), if_neg (by decide), sub_self]
  rw [hM c] at a2
  rw [h.energy hf hg name hn]
  have e : refE D (scaleW c S) + c * (pair2 S v + pair1 name S v) - (refE D (scaleW c S) + c ^ 2 * driveMp2 D ε S + c ^ 3 * driveMp3 D ε S) =
      c * ((pair2 S v - c * (driveMp2 D ε S + c * driveMp3 D ε S + c ^ 2 * M)) + pair1 name S v + c ^ 3 * M) := by ring
  rw [e, abs_mul]
  have hG := sizeG_nonneg (D := D) S
  have b1 : |(pair2 S v - c * (driveMp2 D ε S + c * driveMp3 D ε S + c ^ 2 * M)) + pair1 name S v + c ^ 3 * M| ≤
      sizeG D S * r ^ 3 + sizeG D S * (r ^ 2 * r ^ 2) + |c| ^ 3 * |M| := by
    refine (abs_add_le _ _).trans (add_le_add ((abs_add_le _ _).trans (add_le_add a2 a1)) ?_)
    rw [abs_mul, abs_pow]
  have b2 : sizeG D S * (r ^ 2 * r ^ 2) ≤ sizeG D S * r ^ 3 := by
    refine mul_le_mul_of_nonneg_left ?_ hG
    have : r ^ 2 * r ^ 2 = r ^ 3 * r := by ring
    rw [this]
    exact mul_le_of_le_one_right (by positivity) hr1
  have b3 : sizeG D S * r ^ 3 + sizeG D S * (r ^ 2 * r ^ 2) + |c| ^ 3 * |M| ≤ |c| ^ 3 * (2 * sizeG D S * C ^ 3 + |M|) := by
    have : |c| ^ 3 * (2 * sizeG D S * C ^ 3 + |M|) = 2 * (sizeG D S * r ^ 3) + |c| ^ 3 * |M| := by rw [hr]; ring
    rw [this]
    linarith
  refine (mul_le_mul_of_nonneg_left (b1.trans b3) c0).trans (le_of_eq ?_)
  have : c ^ 4 = |c| ^ 4 := by rw [show (4 : ℕ) = 2 * 2 from rfl, pow_mul, pow_mul, sq_abs]
  rw [this]
  ring

variable (D) in
/-- **C94** Multiply the two-electron integrals by `c` and keep a diagonal Fock matrix with a gap. There is a constant `C` such that for
`|c| ≤ 1/C` the equations of the method have exactly one small solution. Its amplitudes are at most `|c| C`, and its energy is that of
third-order perturbation theory up to `c⁴ C`. Started without a file, pass `n` of a calculation is within `|c| C / 2ⁿ` of the solution, and from
the first pass on the energies are those of third-order perturbation theory up to `c⁴ C`. Started from a file with antisymmetric amplitudes
of at most one, pass `n` is within `2 / 2ⁿ`. -/
theorem C94_weak_coupling (name : String) (hn : hasSub "S" name = true → 31 ∈ lvls (eqns name)) (ε : I → ℝ) (S : SO I ℝ) (hS : S.Sym)
    (hf : DiagF D ε S) (hg : ∀ i ∈ D 0, ∀ a ∈ D 1, ε i < ε a) :
    ∃ C, 0 < C ∧ ∀ c : ℝ, |c| * C ≤ 1 → ∃ X, SmallDrive D (eqns name) (scaleW c S) X ∧
      (∀ Y, SmallDrive D (eqns name) (scaleW c S) Y → SameDrive D (eqns name) Y X) ∧
      (∀ t l, InSlot D (eqns name) (t, l) → |X.T t l| ≤ |c| * C) ∧
      |WholeDrive.energy D name X - (refE D (scaleW c S) + c ^ 2 * driveMp2 D ε S + c ^ 3 * driveMp3 D ε S)| ≤ c ^ 4 * C ∧
      ∀ o : Opts I, o.cc_type = name → o.ε = ε →
        (o.file = none → ∀ n, NearAmps D (eqns name) (|c| * C / 2 ^ n) (driveAmps D o (scaleW c S) n) X ∧
          |driveE D o (scaleW c S) n - WholeDrive.energy D name X| ≤ c ^ 2 * C / 2 ^ n / 2 ∧
          |driveE D o (scaleW c S) (n + 1) - (refE D (scaleW c S) + c ^ 2 * driveMp2 D ε S + c ^ 3 * driveMp3 D ε S)| ≤ c ^ 4 * C) ∧
        ∀ x, o.file = some x → (∀ i j a b, x i j a b = - x j i a b ∧ x i j a b = - x i j b a) →
          (∀ i ∈ D 0, ∀ j ∈ D 0, ∀ a ∈ D 1, ∀ b ∈ D 1, |x i j a b| ≤ 1) →
          ∀ n, NearAmps D (eqns name) (2 / 2 ^ n) (driveAmps D o (scaleW c S) n) X ∧
            |driveE D o (scaleW c S) n - WholeDrive.energy D name X| ≤ |c| * C / 2 ^ n / 2 := by
  generalize hm : eqns name = m at hn ⊢
  have hδ : ∀ s : DSlot D m, |driveδ s| ≤ 1 / 4 := by
    intro s
    unfold driveδ kappa
    split
    · norm_num [abs_le]
    · split <;> norm_num [abs_le]
  have hz : ∀ s : DSlot D m, driveδ s = 0 ∨ driveQ ε S 0 s = 0 := by
    rintro ⟨⟨t, l⟩, hs⟩
    by_cases ht : t = 39
    · left
      show 1 - kappa t = 0
      rw [ht, kappa, if_neg (by decide), if_neg (by decide), sub_self]
    · right
      have e := (driveQ_zero (D := D) (m := m) ε S hS).2 t ht l
      rwa [ext_mem _ hs] at e
  obtain ⟨C₁, h1, fix⟩ := fixed_point_damped (driveQ ε S) (driveQ_tame (D := D) (m := m) ε S) driveδ hδ hz
  obtain ⟨C₂, h2, tame⟩ := pair_tame (D := D) (m := m) name S
  obtain ⟨M, hM⟩ := pair2_orders (D := D) (m := m) ε S hS
  have hG := sizeG_nonneg (D := D) S
  set C₃ := 2 * sizeG D S * C₁ ^ 3 + |M| with hC₃
  have h3 : 0 ≤ C₃ := by positivity
  refine ⟨C₁ + 4 * C₁ * C₂ + C₃, by positivity, fun c hc => ?_⟩
  set C := C₁ + 4 * C₁ * C₂ + C₃ with hC
  have c0 := abs_nonneg c
  have h12 : 0 ≤ C₁ * C₂ := mul_nonneg (by linarith) h2
  have hC₁ : C₁ ≤ C := by linarith
  have hC₂ : 4 * C₂ ≤ C := by nlinarith
  have hC₃' : C₃ ≤ C := by linarith
  have hC₁₂ : 2 * (C₁ * C₂) ≤ C := by linarith
  have hc1 : |c| * C₁ ≤ 1 := (mul_le_mul_of_nonneg_left hC₁ c0).trans hc
  obtain ⟨x, hfix, huniq, hball, horder, hthird, hW⟩ := fix c hc1
  set F := damped (driveQ ε S) (driveδ : DSlot D m → ℝ) c with hF
  have hxW : x ∈ antiV D m := hW _ fun v hv => ((DHolds.of v S hS c hv).pass hS hf hg).anti
  have X_holds := DHolds.of x S hS c hxW
  obtain ⟨xr, x2⟩ := horder x (.inl rfl)
  have x1 : ‖x‖ ≤ 1 := xr.trans hc1
  have hc4 : ∀ {y : ℝ}, y ≤ c ^ 4 * C₃ → y ≤ c ^ 4 * C := fun h => h.trans (mul_le_mul_of_nonneg_left hC₃' (by positivity))
  have order : ∀ {w : DSlot D m → ℝ} {B : SO I ℝ}, DHolds S c (F w) B → ‖w‖ ≤ |c| * C₁ → ‖w - c • driveQ ε S 0‖ ≤ (|c| * C₁) ^ 2 →
      |WholeDrive.energy D name B - (refE D (scaleW c S) + c ^ 2 * driveMp2 D ε S + c ^ 3 * driveMp3 D ε S)| ≤ c ^ 4 * C := fun {w B} h w1 w2 =>
    hc4 (third_order hS hf hg name hn h hM C₁ (by linarith) rfl hc1 (horder (F w) (.inr (.inr ⟨w, w1, w2, rfl⟩))).2 (hthird w w1 w2))
  have lip : ∀ {v : DSlot D m → ℝ} {B : SO I ℝ} {r : ℝ}, DHolds S c v B → ‖v‖ ≤ 1 → ‖v - x‖ ≤ r →
      |WholeDrive.energy D name B - WholeDrive.energy D name (driveAt (scaleW c S) x)| ≤ |c| * (C₂ * r) := by
    intro v B r h v1 hr
    rw [h.energy hf hg name hn, X_holds.energy hf hg name hn, add_sub_add_left_eq_sub, ← mul_sub, abs_mul]
    exact mul_le_mul_of_nonneg_left ((tame v x v1 x1).2.trans (mul_le_mul_of_nonneg_left hr h2)) c0
  have near : ∀ {v : DSlot D m → ℝ} {B : SO I ℝ} {r : ℝ}, DHolds S c v B → ‖v - x‖ ≤ r → NearAmps D m r B (driveAt (scaleW c S) x) := by
    intro v B r h hr t l hs
    rw [h.amps t l hs, X_holds.amps t l hs, ext_mem _ hs, ext_mem _ hs]
    exact (norm_le_pi_norm (v - x) ⟨_, hs⟩).trans hr
  have iter : ∀ {v : DSlot D m → ℝ} {r : ℝ}, ‖v‖ ≤ 1 → ‖v - x‖ ≤ r → ∀ n, ‖F^[n] v‖ ≤ 1 ∧ ‖F^[n] v - x‖ ≤ r / 2 ^ n := by
    intro v r v1 hr n
    induction n with
    | zero => simpa using ⟨v1, hr⟩
    | succ n ih =>
      rw [Function.iterate_succ_apply']
      obtain ⟨b1, b2⟩ := hball _ ih.1
      refine ⟨b1, b2.trans ?_⟩
      rw [pow_succ, ← div_div]
      exact div_le_div_of_nonneg_right ih.2 (by norm_num)
  have passes : ∀ (o : Opts I), o.cc_type = name → o.ε = ε → ∀ v : DSlot D m → ℝ, DHolds S c v (WholeDrive.start o (scaleW c S)) →
      ∀ n, DHolds S c (F^[n] v) (driveAmps D o (scaleW c S) n) := by
    intro o ho hε v hv n
    induction n with
    | zero => exact hv
    | succ n ih =>
      rw [Function.iterate_succ_apply', driveAmps_succ, ho, hm, hε]
      exact ih.pass hS hf hg
  refine ⟨driveAt (scaleW c S) x, ⟨X_holds.sym, rfl, rfl, ?_, ?_⟩, ?_, ?_, ?_, fun o ho hε => ⟨fun hfile n => ?_, fun y hfile hanti hsmall n => ?_⟩⟩
  · intro t l hs
    rw [X_holds.amps t l hs, ext_mem _ hs]
    exact (norm_le_pi_norm x _).trans x1
  · exact (solves_iff D m ε hg _).2 ((X_holds.fixed hS hf hg).1 hfix)
  · intro Y hY t l hs
    have Y_holds : DHolds S c (packD D m Y) Y := DHolds.self hY.sym hY.f hY.g
    have e := huniq _ ((dnorm_le zero_le_one).2 fun s => hY.small s.1.1 s.1.2 s.2) ((Y_holds.fixed hS hf hg).2 ((solves_iff D m ε hg _).1 hY.solves))
    rw [Y_holds.amps t l hs, X_holds.amps t l hs, show packD D m Y = x from e]
  · intro t l hs
    rw [X_holds.amps t l hs, ext_mem _ hs]
    exact ((norm_le_pi_norm x _).trans xr).trans (mul_le_mul_of_nonneg_left hC₁ c0)
  · refine order (w := x) ?_ xr x2
    rwa [hfix]
  · have hst : DHolds S c (F 0) (WholeDrive.start o (scaleW c S)) := by
      refine ⟨drive_start_sym o _ (scaleW_sym S c hS) (fun x hx => by rw [hfile] at hx; cases hx), rfl, rfl, ?_⟩
      have e0 : ∀ s, F 0 s = c * driveQ ε S 0 s := fun s => by rw [hF]; simp [damped]
      have z : ∀ t ≠ 39, ∀ l (hs : InSlot D m (t, l)), F 0 ⟨(t, l), hs⟩ = 0 := fun t ht l hs => by
        have e := (driveQ_zero (D := D) (m := m) ε S hS).2 t ht l
        rw [ext_mem _ hs] at e
        rw [e0, e, mul_zero]
      refine slot_cases (P := fun t l => (WholeDrive.start o (scaleW c S)).T t l = ext (F 0) t l) m ?_ ?_ ?_ ?_
      · intro ht a ha i hi
        rw [ext_mem _ (slot1 ht ha hi), z 31 (by decide)]
        rfl
      · intro ht a ha b hb i hi j hj
        rw [ext_mem _ (slot2 ht ha hb hi hj), e0, (driveQ_zero (D := D) (m := m) ε S hS).1 ha hb hi hj]
        show (match o.file with | some x => x i j a b | none => c * S.g i j a b * WholeDrive.den2 o.ε a b i j) = _
        rw [hfile, hε]
        unfold firstT WholeDrive.den2
        show c * S.g i j a b * (1 / (-ε a - ε b + ε i + ε j)) = _
        rw [show -ε a - ε b + ε i + ε j = ε i + ε j - ε a - ε b by ring]
        ring
      · intro ht a ha b hb d hd i hi j hj k hk
        rw [ext_mem _ (slot3 ht ha hb hd hi hj hk), z 47 (by decide)]
        rfl
      · intro ht a ha b hb d hd e he i hi j hj k hk l hl
        rw [ext_mem _ (slot4 ht ha hb hd he hi hj hk hl), z 55 (by decide)]
        rfl
    have hp := passes o ho hε _ hst
    obtain ⟨s1, s2⟩ := horder (F 0) (.inr (.inl rfl))
    have s3 : ‖F 0 - x‖ ≤ |c| * C₁ / 2 := by
      refine (hball 0 (by simp)).2.trans ?_
      rw [zero_sub, norm_neg]
      exact div_le_div_of_nonneg_right xr (by norm_num)
    have it := iter (s1.trans hc1) s3
    refine ⟨near (hp n) ((it n).2.trans ?_), ?_, ?_⟩
    · refine div_le_div_of_nonneg_right ?_ (by positivity)
      have := mul_le_mul_of_nonneg_left hC₁ c0
      have : 0 ≤ |c| * C₁ := by positivity
      linarith
    · have e := lip (hp n) (it n).1 (it n).2
      unfold driveE
      rw [ho]
      refine e.trans ?_
      have b : |c| * (C₂ * (|c| * C₁ / 2 / 2 ^ n)) = c ^ 2 * (C₁ * C₂) / 2 ^ n / 2 := by
        rw [← sq_abs c]; ring
      rw [b]
      refine div_le_div_of_nonneg_right (div_le_div_of_nonneg_right (mul_le_mul_of_nonneg_left ?_ (sq_nonneg c)) (by positivity)) (by norm_num)
      linarith
    · have key : ∀ n, ‖F^[n] (F 0)‖ ≤ |c| * C₁ ∧ ‖F^[n] (F 0) - c • driveQ ε S 0‖ ≤ (|c| * C₁) ^ 2 := by
        intro n
        induction n with
        | zero => exact ⟨s1, s2⟩
        | succ n ih =>
          rw [Function.iterate_succ_apply']
          exact horder _ (.inr (.inr ⟨_, ih.1, ih.2, rfl⟩))
      unfold driveE
      rw [ho]
      have h := hp (n + 1)
      rw [Function.iterate_succ_apply'] at h
      exact order h (key n).1 (key n).2
  · set v : DSlot D m → ℝ := packD D m (WholeDrive.start o (scaleW c S)) with hv
    have hst : DHolds S c v (WholeDrive.start o (scaleW c S)) :=
      DHolds.self (drive_start_sym o _ (scaleW_sym S c hS) (fun x hx => by rw [hfile] at hx; cases hx; exact hanti)) rfl rfl
    have v1 : ‖v‖ ≤ 1 := by
      refine (dnorm_le zero_le_one).2 ?_
      rintro ⟨⟨t, l⟩, hs⟩
      refine slot_cases (P := fun t l => |(WholeDrive.start o (scaleW c S)).T t l| ≤ 1) m ?_ ?_ ?_ ?_ t l hs
      · intro _ a _ i _
        show |(0 : ℝ)| ≤ 1
        simp
      · intro _ a ha b hb i hi j hj
        show |(match o.file with | some x => x i j a b | none => c * S.g i j a b * WholeDrive.den2 o.ε a b i j)| ≤ 1
        rw [hfile]
        exact hsmall i hi j hj a ha b hb
      · intro _ a _ b _ d _ i _ j _ k _
        show |(0 : ℝ)| ≤ 1
        simp
      · intro _ a _ b _ d _ e _ i _ j _ k _ l _
        show |(0 : ℝ)| ≤ 1
        simp
    have hp := passes o ho hε _ hst
    have it := iter v1 ((norm_sub_le v x).trans (by linarith : ‖v‖ + ‖x‖ ≤ 2))
    refine ⟨near (hp n) (it n).2, ?_⟩
    have e := lip (hp n) (it n).1 (it n).2
    unfold driveE
    rw [ho]
    refine e.trans ?_
    have b : |c| * (C₂ * (2 / 2 ^ n)) = |c| * (4 * C₂) / 2 ^ n / 2 := by ring
    rw [b]
    exact div_le_div_of_nonneg_right (div_le_div_of_nonneg_right (mul_le_mul_of_nonneg_left hC₂ c0) (by positivity)) (by norm_num)

variable (D) in
/-- **C94** Whole calculations without a file. With `c² C / 2ᴺ` below the threshold and more than `N` passes allowed, the calculation ends
without an error after at most `N + 1` passes. Its energy is that of third-order perturbation theory up to `c⁴ C`, and its amplitudes are
as close to the small solution as the number of passes says. -/
theorem C94_calculations (name : String) (hD : hasSub "D" name = true) (hn : hasSub "S" name = true → 31 ∈ lvls (eqns name)) (ε : I → ℝ)
    (S : SO I ℝ) (hS : S.Sym) (hf : DiagF D ε S) (hg : ∀ i ∈ D 0, ∀ a ∈ D 1, ε i < ε a) :
    ∃ C, 0 < C ∧ ∀ c : ℝ, |c| * C ≤ 1 → ∃ X, SmallDrive D (eqns name) (scaleW c S) X ∧
      ∀ o : Opts I, o.cc_type = name → o.ε = ε → o.file = none → ∀ N < o.maxIter, c ^ 2 * C / 2 ^ N < o.eps →
        ∃ r, WholeDrive.calculate D o (scaleW c S) = .ok r ∧ r.log.length ≤ N + 1 ∧
          NearAmps D (eqns name) (|c| * C / 2 ^ r.log.length) r.st.amps X ∧
          |r.energy - WholeDrive.energy D name X| ≤ c ^ 2 * C / 2 ^ r.log.length / 2 ∧
          |r.energy - (refE D (scaleW c S) + c ^ 2 * driveMp2 D ε S + c ^ 3 * driveMp3 D ε S)| ≤ c ^ 4 * C := by
  obtain ⟨C, hC, h⟩ := C94_weak_coupling D name hn ε S hS hf hg
  refine ⟨C, hC, fun c hc => ?_⟩
  obtain ⟨X, hX, _, _, _, hp⟩ := h c hc
  refine ⟨X, hX, fun o ho hε hfile N hN hsmall => ?_⟩
  have hp := (hp o ho hε).1 hfile
  have settled : Settled D o (scaleW c S) N := by
    have a := (hp N).2.1
    have b := (hp (N + 1)).2.1
    have n : 0 ≤ c ^ 2 * C / 2 ^ N := by positivity
    have e : c ^ 2 * C / 2 ^ (N + 1) / 2 = c ^ 2 * C / 2 ^ N / 4 := by rw [pow_succ]; ring
    rw [e] at b
    unfold Settled
    rw [abs_le] at a b
    rw [abs_lt]
    constructor <;> linarith
  rcases (C91_result D o (scaleW c S)).1 (by rw [ho]; exact hD) with ⟨k, hk, _, before, r, hr, ha, he, hl⟩ | ⟨none, _⟩
  · have hkN : k ≤ N := by
      by_contra hlt
      exact before N (by omega) settled
    have hlen : r.log.length = k + 1 := by rw [hl]; simp
    refine ⟨r, hr, by omega, ?_, ?_, ?_⟩
    · rw [hlen, ha]
      exact (hp (k + 1)).1
    · rw [hlen, he]
      exact (hp (k + 1)).2.1
    · rw [he]
      exact (hp k).2.2
  · exact absurd settled (none N hN)

variable (D) in
/-- **C94** Two methods differ in the fourth order of the interaction: whenever both calculations end without an error, whatever their
thresholds and pass limits, their energies differ by at most `c⁴ C`. -/
theorem C94_methods_agree (name name' : String) (hn : hasSub "S" name = true → 31 ∈ lvls (eqns name))
    (hn' : hasSub "S" name' = true → 31 ∈ lvls (eqns name')) (ε : I → ℝ) (S : SO I ℝ) (hS : S.Sym) (hf : DiagF D ε S)
    (hg : ∀ i ∈ D 0, ∀ a ∈ D 1, ε i < ε a) :
    ∃ C, 0 < C ∧ ∀ c : ℝ, |c| * C ≤ 1 → ∀ o o' : Opts I, o.cc_type = name → o'.cc_type = name' → o.ε = ε → o'.ε = ε →
      o.file = none → o'.file = none → ∀ r r', WholeDrive.calculate D o (scaleW c S) = .ok r →
        WholeDrive.calculate D o' (scaleW c S) = .ok r' → |r.energy - r'.energy| ≤ c ^ 4 * C := by
  obtain ⟨C₁, h1, w1⟩ := C94_weak_coupling D name hn ε S hS hf hg
  obtain ⟨C₂, h2, w2⟩ := C94_weak_coupling D name' hn' ε S hS hf hg
  refine ⟨C₁ + C₂, by positivity, fun c hc o o' ho ho' hε hε' hfile hfile' r r' hr hr' => ?_⟩
  have c0 := abs_nonneg c
  obtain ⟨_, _, _, _, _, p1⟩ := w1 c ((mul_le_mul_of_nonneg_left (by linarith) c0).trans hc)
  obtain ⟨_, _, _, _, _, p2⟩ := w2 c ((mul_le_mul_of_nonneg_left (by linarith) c0).trans hc)
  have key : ∀ (o : Opts I) (r : Res (SO I ℝ) Unit ℝ), WholeDrive.calculate D o (scaleW c S) = .ok r → ∃ k, r.energy = driveE D o (scaleW c S) (k + 1) := by
    intro o r hr
    have res := C91_result D o (scaleW c S)
    cases hD : hasSub "D" o.cc_type
    · rw [res.2 hD] at hr
      cases hr
    · rcases res.1 hD with ⟨k, _, _, _, r₁, hr₁, _, he, _⟩ | ⟨_, err⟩
      · rw [hr₁] at hr
        cases hr
        exact ⟨k, he⟩
      · rw [err] at hr
        cases hr
  obtain ⟨k, e⟩ := key o r hr
  obtain ⟨k', e'⟩ := key o' r' hr'
  have a := ((p1 o ho hε).1 hfile k).2.2
  have b := ((p2 o' ho' hε').1 hfile' k').2.2
  rw [e, e', mul_add]
  rw [abs_le] at a b ⊢
  constructor <;> linarith

/-! ## A case -/

/-- Four orbitals with energies 0, 1, 2, 3 and `<pq||rs> = (p - q)(r - s)`. -/
noncomputable def weakSO : SO ℕ ℝ :=
  { f := fun p q => if p = q then (p : ℝ) else 0
    g := fun p q r s => ((p : ℝ) - q) * (r - s) }

theorem weakSO_sym : weakSO.Sym := by
  constructor <;> intros <;> simp only [weakSO, neg_zero]
  · simp only [eq_comm]
    split
    · rename_i h
      rw [h]
    · rfl
  all_goals ring1

theorem weakSO_gap : ∀ i ∈ Witness.D 0, ∀ a ∈ Witness.D 1, (i : ℝ) < a := by
  intro i hi a ha
  rw [Nat.cast_lt]
  revert i a
  decide

/-- Second and third order of this case. -/
theorem weakSO_orders : driveMp2 Witness.D (fun p => (p : ℝ)) weakSO = - 1 / 4 ∧ driveMp3 Witness.D (fun p => (p : ℝ)) weakSO = - 1 := by
  constructor
  · simp [driveMp2, firstT, weakSO, Witness.D]
    norm_num
  · simp [driveMp3, firstT, weakSO, Witness.D]
    norm_num

/-- There is an interaction other than zero with which the calculations CCD, CCSD, CCSDT and CCDQ with forty passes and a threshold of
1/10⁸ all end without an error, at energies of about `-c²/4`. -/
example : ∃ c : ℝ, 0 < c ∧ ∀ name ∈ ["CCD", "CCSD", "CCSDT", "CCDQ"], ∃ r, r.log.length ≤ 40 ∧
    WholeDrive.calculate Witness.D ⟨name, fun p => (p : ℝ), 40, 1 / 100000000, none, none⟩ (scaleW c weakSO) = .ok r ∧
    |r.energy - (refE Witness.D (scaleW c weakSO) - c ^ 2 / 4 - c ^ 3)| ≤ c ^ 3 := by
  have one : ∀ name ∈ ["CCD", "CCSD", "CCSDT", "CCDQ"], ∃ C : ℝ, 0 < C ∧ ∀ c : ℝ, 0 < c → c ≤ 1 → c * C ≤ 1 → ∃ r, r.log.length ≤ 40 ∧
      WholeDrive.calculate Witness.D ⟨name, fun p => (p : ℝ), 40, 1 / 100000000, none, none⟩ (scaleW c weakSO) = .ok r ∧
      |r.energy - (refE Witness.D (scaleW c weakSO) - c ^ 2 / 4 - c ^ 3)| ≤ c ^ 3 := by
    intro name hname
    have hD : hasSub "D" name = true := by revert name; decide +kernel
    have hn : hasSub "S" name = true → 31 ∈ lvls (eqns name) := by revert name; decide +kernel
    obtain ⟨C, hC, h⟩ := C94_calculations Witness.D name hD hn (fun p => (p : ℝ)) weakSO weakSO_sym (fun _ _ _ _ => rfl) weakSO_gap
    refine ⟨C, hC, fun c c0 c1 hc => ?_⟩
    obtain ⟨X, _, k⟩ := h c (by rwa [abs_of_pos c0])
    obtain ⟨r, hr, hl, _, _, he⟩ := k ⟨name, fun p => (p : ℝ), 40, 1 / 100000000, none, none⟩ rfl rfl rfl 39 (by show 39 < 40; decide) (by
      have : c ^ 2 * C ≤ 1 := by nlinarith
      show c ^ 2 * C / 2 ^ 39 < 1 / 100000000
      rw [div_lt_div_iff₀ (by norm_num) (by norm_num)]
      linarith)
    refine ⟨r, hl, hr, ?_⟩
    rw [weakSO_orders.1, weakSO_orders.2] at he
    have e : refE Witness.D (scaleW c weakSO) + c ^ 2 * (-1 / 4) + c ^ 3 * -1 = refE Witness.D (scaleW c weakSO) - c ^ 2 / 4 - c ^ 3 := by ring
    rw [e] at he
    refine he.trans ?_
    have : c ^ 4 * C = c ^ 3 * (c * C) := by ring
    rw [this]
    exact mul_le_of_le_one_right (by positivity) hc
  obtain ⟨C1, p1, h1⟩ := one "CCD" (by decide)
  obtain ⟨C2, p2, h2⟩ := one "CCSD" (by decide)
  obtain ⟨C3, p3, h3⟩ := one "CCSDT" (by decide)
  obtain ⟨C4, p4, h4⟩ := one "CCDQ" (by decide)
  have hp : 0 < 1 + C1 + C2 + C3 + C4 := by linarith
  have le : ∀ x : ℝ, 0 < x → x ≤ 1 + C1 + C2 + C3 + C4 → 1 / (1 + C1 + C2 + C3 + C4) * x ≤ 1 := fun x _ hx => by
    rw [one_div, inv_mul_le_iff₀ hp, mul_one]; exact hx
  have c0 : 0 < 1 / (1 + C1 + C2 + C3 + C4) := by positivity
  have c1 : 1 / (1 + C1 + C2 + C3 + C4) ≤ 1 := by simpa using le 1 one_pos (by linarith)
  refine ⟨_, c0, fun name hname => ?_⟩
  simp only [List.mem_cons, List.not_mem_nil, or_false] at hname
  rcases hname with rfl | rfl | rfl | rfl
  · exact h1 _ c0 c1 (le _ p1 (by linarith))
  · exact h2 _ c0 c1 (le _ p2 (by linarith))
  · exact h3 _ c0 c1 (le _ p3 (by linarith))
  · exact h4 _ c0 c1 (le _ p4 (by linarith))

end Verif.Props
