import Verif.Props.WeakDrive

/-!
# `DriveCC` with weak interaction (C94)

The two-electron integrals are multiplied by `c`; the Fock matrix is diagonal and fixed, with a gap. For small `c` every method converges
to the only small solution of its equations, and the energies of all methods are those of third-order perturbation theory up to `c⁴`.
-/

set_option maxRecDepth 100000

namespace Verif.Props

open Verif.Ein Verif.UT2 Verif.Kernel Verif.Py Verif.WholeDrive Verif.Weak
open Verif.Wick (InBox boxSum)

variable {I : Type} [DecidableEq I] [Inhabited I] {D : Nat → Finset I} {m : Eqns}

/-! ## low orders -/

/-- The doubles of first-order perturbation theory. -/
noncomputable def firstT (ε : I → ℝ) (S : SO I ℝ) (a b i j : I) : ℝ := S.g i j a b / (ε i + ε j - ε a - ε b)

variable (D) in
/-- The energy of second order. -/
noncomputable def driveMp2 (ε : I → ℝ) (S : SO I ℝ) : ℝ :=
  1 / 4 * ∑ i ∈ D 0, ∑ j ∈ D 0, ∑ a ∈ D 1, ∑ b ∈ D 1, S.g a b i j * firstT ε S a b i j

variable (D) in
/-- The energy of third order: particle-particle, hole-hole and particle-hole ladders. -/
noncomputable def driveMp3 (ε : I → ℝ) (S : SO I ℝ) : ℝ :=
  1 / 8 * ∑ a ∈ D 1, ∑ b ∈ D 1, ∑ c ∈ D 1, ∑ d ∈ D 1, ∑ i ∈ D 0, ∑ j ∈ D 0, firstT ε S a b i j * S.g a b c d * firstT ε S c d i j +
  1 / 8 * ∑ i ∈ D 0, ∑ j ∈ D 0, ∑ a ∈ D 1, ∑ b ∈ D 1, ∑ k ∈ D 0, ∑ l ∈ D 0, firstT ε S a b i j * S.g i j k l * firstT ε S a b k l +
  ∑ b ∈ D 1, ∑ j ∈ D 0, ∑ a ∈ D 1, ∑ c ∈ D 1, ∑ i ∈ D 0, ∑ k ∈ D 0, firstT ε S a b i j * S.g k b c j * firstT ε S a c i k

/-- The terms with one and with two doubles. -/
def linT2 : Prog := Gen.ccsd_t2resid.part [[23, 39]]
def quadT2 : Prog := Gen.ccsd_t2resid.part [[23, 39, 39]]

/-- Without singles, triples and quadruples, the doubles equations of all methods are the same. -/
theorem doubles_same : ∀ m, (progOf m 39).drop [31, 47, 55] = Gen.ccsd_t2resid.drop [31, 47, 55]
  | .ccsdt => rfl
  | .ccsd => rfl
  | .ccdq => rfl
  | .ccd => rfl

theorem doubles_mem (m : Eqns) : 39 ∈ lvls m := by cases m <;> decide

omit [DecidableEq I] [Inhabited I] in
theorem ext_zero (t : Nat) (l : List I) : ext (0 : DSlot D m → ℝ) t l = 0 := by unfold ext; split <;> rfl

omit [DecidableEq I] in
/-- Where only integrals and doubles are read. -/
theorem driveQ_doubles (ε : I → ℝ) (S : SO I ℝ) (hS : S.Sym) (u : DSlot D m → ℝ) (hu : ∀ t, t ≠ 39 → ∀ l, ext u t l = 0) (c : ℝ) {a b i j : I}
    (ha : a ∈ D 1) (hb : b ∈ D 1) (hi : i ∈ D 0) (hj : j ∈ D 0) :
    driveQ ε S (c • u) ⟨(39, [a, b, i, j]), slot2 (doubles_mem m) ha hb hi hj⟩ =
      (S.g i j a b + c * linT2.eval D (driveAt S u).T [i, j, a, b] +
        c ^ 2 * quadT2.eval D (driveAt S u).T [i, j, a, b]) * (1 / (-ε a - ε b + ε i + ε j)) := by
  have hz : ∀ (S : SO I ℝ), ∀ t ∈ [31, 47, 55], ∀ l, (driveAt S (c • u)).T t l = 0 := by
    intro S t ht l
    simp only [List.mem_cons, List.not_mem_nil, or_false] at ht
    rw [driveAt_T, if_pos (by rcases ht with rfl | rfl | rfl <;> decide), ext_smul, hu t (by rcases ht with rfl | rfl | rfl <;> decide), mul_zero]
  have hg1 : ∀ t ∉ [23], ∀ l, (driveAt (scaleW 0 S) (c • u)).T t l = (driveAt S (c • u)).T t l := fun t ht l => by
    rw [driveAt_T, driveAt_T, (scaleW_T S 0).1 t ht l]
  have hg2 : ∀ t ∈ [23], ∀ l, (driveAt (scaleW 0 S) (c • u)).T t l = 0 * (driveAt S (c • u)).T t l := fun t ht l => by
    have e : t ∉ [31, 39, 47, 55] := by rw [List.mem_singleton.1 ht]; decide
    rw [driveAt_T, driveAt_T, if_neg e, if_neg e, (scaleW_T S 0).2 t ht l]
  have hc1 : ∀ t ∉ [39], ∀ l, t ∉ [31, 47, 55] → (driveAt S (c • u)).T t l = (driveAt S u).T t l := fun t ht l h => by
    have : t ∉ [31, 39, 47, 55] := by simp only [List.mem_cons, List.not_mem_nil, or_false, not_or] at ht h ⊢; omega
    rw [driveAt_T, driveAt_T, if_neg this, if_neg this]
  have hc1 : ∀ t ∉ [39], ∀ l, (driveAt S (c • u)).T t l = (driveAt S u).T t l := fun t ht l => by
    by_cases h : t ∈ [31, 47, 55]
    · rw [hz S t h l, driveAt_T, if_pos (by simp only [List.mem_cons, List.not_mem_nil, or_false] at h ⊢; omega), hu t (by simpa using ht)]
    · exact hc1 t ht l h
  have hc2 : ∀ t ∈ [39], ∀ l, (driveAt S (c • u)).T t l = c * (driveAt S u).T t l := fun t ht l => by
    rw [List.mem_singleton.1 ht, driveAt_T, driveAt_T, if_pos (by decide), if_pos (by decide), ext_smul]
  have split : ∀ S : SO I ℝ, (progOf m 39).eval D (driveAt S (c • u)).T [i, j, a, b] =
      Prog.eval D (driveAt S (c • u)).T (Gen.ccsd_t2resid.part [[15, 39]]) [i, j, a, b] +
      (Prog.eval D (driveAt S (c • u)).T (Gen.ccsd_t2resid.part [[23]]) [i, j, a, b] + (linT2.eval D (driveAt S (c • u)).T [i, j, a, b] +
        quadT2.eval D (driveAt S (c • u)).T [i, j, a, b])) := by
    intro S
    rw [← Prog.eval_drop D _ [31, 47, 55] _ _ (hz S), doubles_same, Prog.eval_part D _ [[15, 39]], Prog.eval_part D _ [[23]] (Prog.rest _ _),
      Prog.eval_part D _ [[23, 39]] (Prog.rest _ (Prog.rest _ _))]
    rfl
  unfold driveQ
  simp only [rotL, gapOf]
  congr 1
  rw [split S, split (scaleW 0 S)]
  have z := fun (P : Prog) (h : P.readsEq [23] 1 = true) => (Prog.eval_scaled D hg1 hg2 P 1 h [i, j, a, b]).trans (by rw [pow_one, zero_mul])
  rw [Prog.eval_scaled D hg1 hg2 (Gen.ccsd_t2resid.part [[15, 39]]) 0 (by decide +kernel), z (Gen.ccsd_t2resid.part [[23]]) (by decide +kernel),
    z linT2 (by decide +kernel), z quadT2 (by decide +kernel), Prog.eval_scaled D hc1 hc2 (Gen.ccsd_t2resid.part [[23]]) 0 (by decide +kernel),
    Prog.eval_scaled D hc1 hc2 linT2 1 (by decide +kernel), Prog.eval_scaled D hc1 hc2 quadT2 2 (by decide +kernel)]
  have e : Prog.eval D (driveAt S u).T (Gen.ccsd_t2resid.part [[23]]) [i, j, a, b] = S.g i j a b := by
    have p : Gen.ccsd_t2resid.part [[23]] = [⟨1 / 4, [⟨23, [0, 2, 1, 3]⟩], [(1, [0, 2, 1, 3]), (-1, [2, 0, 1, 3]), (-1, [0, 2, 3, 1]), (1, [2, 0, 3, 1])]⟩] := rfl
    rw [p]
    simp [Prog.eval, Blk.eval, termVal, dums, vars, varsIx, insertNew, sumOver, evalFs, SO.T, at4, Ein.bind, Function.update, driveAt]
    rw [hS.g_anti0 j i b a, hS.g_anti0 j i a b, hS.g_anti2 i j b a]
    ring
  rw [e]
  ring

omit [DecidableEq I] in
/-- The first amplitudes. -/
theorem driveQ_zero (ε : I → ℝ) (S : SO I ℝ) (hS : S.Sym) :
    (∀ {a b i j : I} (ha : a ∈ D 1) (hb : b ∈ D 1) (hi : i ∈ D 0) (hj : j ∈ D 0),
      driveQ ε S (0 : DSlot D m → ℝ) ⟨(39, [a, b, i, j]), slot2 (doubles_mem m) ha hb hi hj⟩ = firstT ε S a b i j) ∧
    ∀ t, t ≠ 39 → ∀ l, ext (driveQ ε S (0 : DSlot D m → ℝ)) t l = 0 := by
  constructor
  · intro a b i j ha hb hi hj
    have e := driveQ_doubles (m := m) ε S hS 0 (fun t _ l => ext_zero t l) 0 ha hb hi hj
    rw [smul_zero] at e
    rw [e]
    unfold firstT
    ring
  · intro t ht l
    by_cases hs : InSlot D m (t, l)
    · rw [ext_mem _ hs]
      unfold driveQ
      have hz : ∀ (S : SO I ℝ), ∀ t ∈ [31, 39, 47, 55], ∀ l, (driveAt S (0 : DSlot D m → ℝ)).T t l = 0 := fun S t ht l => by
        rw [driveAt_T, if_pos ht, ext_zero]
      have hg1 : ∀ t ∉ [23], ∀ l, (driveAt (scaleW 0 S) (0 : DSlot D m → ℝ)).T t l = (driveAt S (0 : DSlot D m → ℝ)).T t l := fun t ht l => by
        rw [driveAt_T, driveAt_T, (scaleW_T S 0).1 t ht l]
      have hg2 : ∀ t ∈ [23], ∀ l, (driveAt (scaleW 0 S) (0 : DSlot D m → ℝ)).T t l = 0 * (driveAt S (0 : DSlot D m → ℝ)).T t l := fun t ht l => by
        have e : t ∉ [31, 39, 47, 55] := by rw [List.mem_singleton.1 ht]; decide
        rw [driveAt_T, driveAt_T, if_neg e, if_neg e, (scaleW_T S 0).2 t ht l]
      have hr : ((progOf m t).drop [31, 39, 47, 55]).readsEq [23] 0 = true := by
        have h1 := hs.1
        cases m <;> simp only [lvls, List.mem_cons, List.not_mem_nil, or_false] at h1
        · rcases h1 with rfl | rfl | rfl
          · decide +kernel
          · exact absurd rfl ht
          · decide +kernel
        · rcases h1 with rfl | rfl
          · decide +kernel
          · exact absurd rfl ht
        · rcases h1 with rfl | rfl
          · exact absurd rfl ht
          · decide +kernel
        · exact absurd h1 ht
      show (_ - _) * _ = (0 : ℝ)
      rw [← Prog.eval_drop D _ [31, 39, 47, 55] _ _ (hz S), ← Prog.eval_drop D _ [31, 39, 47, 55] _ _ (hz (scaleW 0 S)),
        Prog.eval_scaled D hg1 hg2 _ 0 hr, pow_zero, one_mul, sub_self, zero_mul]
    · exact ext_off _ hs

/-! ## energies -/

/-- The doubles of a vector contracted with the integrals. -/
noncomputable def pair2 (S : SO I ℝ) (v : DSlot D m → ℝ) : ℝ :=
  1 / 4 * ∑ i ∈ D 0, ∑ j ∈ D 0, ∑ a ∈ D 1, ∑ b ∈ D 1, S.g a b i j * ext v 39 [a, b, i, j]

/-- The products of singles. -/
noncomputable def pair1 (name : String) (S : SO I ℝ) (v : DSlot D m → ℝ) : ℝ :=
  if hasSub "S" name then 1 / 2 * ∑ i ∈ D 0, ∑ j ∈ D 0, ∑ a ∈ D 1, ∑ b ∈ D 1, S.g a b i j * ext v 31 [a, i] * ext v 31 [b, j] else 0

variable (D) in
/-- The sum of the sizes of the integrals. -/
noncomputable def sizeG (S : SO I ℝ) : ℝ := ∑ i ∈ D 0, ∑ j ∈ D 0, ∑ a ∈ D 1, ∑ b ∈ D 1, |S.g a b i j|

theorem DHolds.energy {ε : I → ℝ} {S B : SO I ℝ} {c : ℝ} {v : DSlot D m → ℝ} (hf : DiagF D ε S) (hg : ∀ i ∈ D 0, ∀ a ∈ D 1, ε i < ε a)
    (name : String) (hn : hasSub "S" name = true → 31 ∈ lvls m) (h : DHolds S c v B) :
    WholeDrive.energy D name B = refE D (scaleW c S) + c * (pair2 S v + pair1 name S v) := by
  have er : refE D B = refE D (scaleW c S) := by unfold refE; rw [h.f, h.g]; rfl
  rw [drive_energy, er, driveCorrE, pair2, pair1, mul_add]
  refine congrArg (refE D (scaleW c S) + ·) ?_
  congr 1
  · rw [mul_left_comm]
    simp only [Finset.mul_sum]
    refine Finset.sum_congr rfl fun i hi => Finset.sum_congr rfl fun j hj => Finset.sum_congr rfl fun a ha => Finset.sum_congr rfl fun b hb => ?_
    rw [h.g, show B.t2 a b i j = ext v 39 [a, b, i, j] from h.amps 39 [a, b, i, j] (slot2 (doubles_mem m) ha hb hi hj)]
    show 1 / 4 * (c * S.g a b i j * _) = _
    ring
  · cases hs : hasSub "S" name with
    | false => simp
    | true =>
      have hl := hn hs
      rw [if_pos rfl, if_pos rfl]
      have e0 : ∑ i ∈ D 0, ∑ a ∈ D 1, B.f a i * B.t1 a i = 0 := Finset.sum_eq_zero fun i hi => Finset.sum_eq_zero fun a ha => by
        rw [h.f, (hf.off hg i a hi ha).2, zero_mul]
      rw [e0, zero_add, mul_left_comm]
      simp only [Finset.mul_sum]
      refine Finset.sum_congr rfl fun i hi => Finset.sum_congr rfl fun j hj => Finset.sum_congr rfl fun a ha => Finset.sum_congr rfl fun b hb => ?_
      rw [h.g, show B.t1 a i = ext v 31 [a, i] from h.amps 31 [a, i] (slot1 hl ha hi), show B.t1 b j = ext v 31 [b, j] from h.amps 31 [b, j] (slot1 hl hb hj)]
      show 1 / 2 * (c * S.g a b i j * _ * _) = _
      ring

omit [DecidableEq I] [Inhabited I] in
theorem pair_tame (name : String) (S : SO I ℝ) : Tame fun v : DSlot D m → ℝ => pair2 S v + pair1 name S v := by
  refine Tame.add ?_ ?_
  · unfold pair2
    exact (Tame.finsum _ fun i _ => Tame.finsum _ fun j _ => Tame.finsum _ fun a _ => Tame.finsum _ fun b _ => (ext_tame _ _).smul _).smul _
  · unfold pair1
    split
    · exact (Tame.finsum _ fun i _ => Tame.finsum _ fun j _ => Tame.finsum _ fun a _ => Tame.finsum _ fun b _ => ((ext_tame _ _).smul _).mul (ext_tame _ _)).smul _
    · exact Tame.const 0

omit [DecidableEq I] [Inhabited I] in
theorem sum4_le (S : SO I ℝ) (F : I → I → I → I → ℝ) (r : ℝ) (h : ∀ i ∈ D 0, ∀ j ∈ D 0, ∀ a ∈ D 1, ∀ b ∈ D 1, |F i j a b| ≤ |S.g a b i j| * r) :
    |∑ i ∈ D 0, ∑ j ∈ D 0, ∑ a ∈ D 1, ∑ b ∈ D 1, F i j a b| ≤ sizeG D S * r := by
  unfold sizeG
  simp only [Finset.sum_mul]
  refine (Finset.abs_sum_le_sum_abs _ _).trans (Finset.sum_le_sum fun i hi => ?_)
  refine (Finset.abs_sum_le_sum_abs _ _).trans (Finset.sum_le_sum fun j hj => ?_)
  refine (Finset.abs_sum_le_sum_abs _ _).trans (Finset.sum_le_sum fun a ha => ?_)
  exact (Finset.abs_sum_le_sum_abs _ _).trans (Finset.sum_le_sum fun b hb => h i hi j hj a ha b hb)

omit [DecidableEq I] [Inhabited I] in
theorem sizeG_nonneg (S : SO I ℝ) : 0 ≤ sizeG D S :=
  Finset.sum_nonneg fun _ _ => Finset.sum_nonneg fun _ _ => Finset.sum_nonneg fun _ _ => Finset.sum_nonneg fun _ _ => abs_nonneg _

omit [DecidableEq I] [Inhabited I] in
theorem pair2_near (S : SO I ℝ) (v w : DSlot D m → ℝ) (r : ℝ)
    (h : ∀ a ∈ D 1, ∀ b ∈ D 1, ∀ i ∈ D 0, ∀ j ∈ D 0, |ext v 39 [a, b, i, j] - ext w 39 [a, b, i, j]| ≤ r) : |pair2 S v - pair2 S w| ≤ sizeG D S * r := by
  have e : pair2 S v - pair2 S w = 1 / 4 * ∑ i ∈ D 0, ∑ j ∈ D 0, ∑ a ∈ D 1, ∑ b ∈ D 1, S.g a b i j * (ext v 39 [a, b, i, j] - ext w 39 [a, b, i, j]) := by
    unfold pair2
    simp only [mul_sub, Finset.sum_sub_distrib]
  rw [e, abs_mul]
  have := sum4_le (D := D) S (fun i j a b => S.g a b i j * (ext v 39 [a, b, i, j] - ext w 39 [a, b, i, j])) r fun i hi j hj a ha b hb => by
    rw [abs_mul]
    exact mul_le_mul_of_nonneg_left (h a ha b hb i hi j hj) (abs_nonneg _)
  have h2 : |(1 / 4 : ℝ)| = 1 / 4 := abs_of_pos (by norm_num)
  rw [h2]
  linarith [abs_nonneg (∑ i ∈ D 0, ∑ j ∈ D 0, ∑ a ∈ D 1, ∑ b ∈ D 1, S.g a b i j * (ext v 39 [a, b, i, j] - ext w 39 [a, b, i, j]))]

omit [DecidableEq I] [Inhabited I] in
theorem pair1_small (name : String) (S : SO I ℝ) (v : DSlot D m → ℝ) (r : ℝ) (hr : 0 ≤ r)
    (h : ∀ a ∈ D 1, ∀ i ∈ D 0, |ext v 31 [a, i]| ≤ r) : |pair1 name S v| ≤ sizeG D S * (r * r) := by
  unfold pair1
  split
  · rw [abs_mul]
    have := sum4_le (D := D) S (fun i j a b => S.g a b i j * ext v 31 [a, i] * ext v 31 [b, j]) (r * r) fun i hi j hj a ha b hb => by
      rw [mul_assoc, abs_mul, abs_mul]
      exact mul_le_mul_of_nonneg_left (mul_le_mul (h a ha i hi) (h b hb j hj) (abs_nonneg _) hr) (abs_nonneg _)
    have h2 : |(1 / 2 : ℝ)| = 1 / 2 := abs_of_pos (by norm_num)
    rw [h2]
    linarith [abs_nonneg (∑ i ∈ D 0, ∑ j ∈ D 0, ∑ a ∈ D 1, ∑ b ∈ D 1, S.g a b i j * ext v 31 [a, i] * ext v 31 [b, j])]
  · rw [abs_zero]
    exact mul_nonneg (sizeG_nonneg S) (mul_nonneg hr hr)

/-! ## the third order -/

/-- Three ladders, contracted with `l2`. -/
def ladders : Prog := [⟨1/8, [⟨71, [0, 2, 1, 3]⟩, ⟨23, [1, 3, 5, 7]⟩, ⟨39, [5, 7, 0, 2]⟩], [(1, [])]⟩,
  ⟨1/8, [⟨71, [0, 2, 1, 3]⟩, ⟨23, [0, 2, 4, 6]⟩, ⟨39, [1, 3, 4, 6]⟩], [(1, [])]⟩,
  ⟨1, [⟨71, [0, 2, 1, 3]⟩, ⟨23, [4, 3, 5, 2]⟩, ⟨39, [1, 5, 0, 4]⟩], [(1, [])]⟩]

theorem ladders_zero : isZero N.kinds [] 32 (Prog.scale (1/4) (Prog.cap 0 71 linT2) ++ Prog.scale (-1) ladders)
    [412384763968, 412384763968, 412384755778, 412384755778, 412384239808, 412384239808, 412384231618, 412384231618, 3255042372, 1075069122,
      3255042372, 1075069122, 3255042372, 1075069122, 3255042372, 1075069122, 30791695081536, 30791695081536, 30791695073346, 30791695073346,
      30791694557376, 30791694557376, 30791694549186, 30791694549186, 30791695081536, 30791695081536, 412384763968, 412384763968, 3255042372,
      1075069122] = true := by decide +kernel

/-- Arrays with first-order doubles. -/
noncomputable def firstS (ε : I → ℝ) (S : SO I ℝ) : SO I ℝ := { S with t2 := firstT ε S, l2 := fun i j a b => firstT ε S a b i j }

omit [DecidableEq I] in
theorem linear_mp3 (ε : I → ℝ) (S : SO I ℝ) (hS : S.Sym) :
    1 / 4 * ∑ i ∈ D 0, ∑ j ∈ D 0, ∑ a ∈ D 1, ∑ b ∈ D 1, firstT ε S a b i j * linT2.eval D (firstS ε S).T [i, j, a, b] = driveMp3 D ε S := by
  have t0 : ∀ a b i j, firstT ε S a b i j = - firstT ε S b a i j := fun a b i j => by
    unfold firstT
    rw [hS.g_anti2 i j a b, neg_div]
    congr 2
    ring
  have t2 : ∀ a b i j, firstT ε S a b i j = - firstT ε S a b j i := fun a b i j => by
    unfold firstT
    rw [hS.g_anti0 i j a b, neg_div]
    congr 2
    ring
  have hF : (firstS ε S).Sym := { hS with t2_anti0 := t0, t2_anti2 := t2, l2_anti0 := fun i j a b => t2 a b i j, l2_anti2 := fun i j a b => t0 a b i j }
  have e := eval_eq_of_isZero D (firstS ε S).T N.kinds hF.holds [] 32 _ _ _ ladders_zero [] rfl
  rw [Prog.eval_scale, Verif.Wick.Prog.eval_cap D _ 0 71 [0, 0, 1, 1] linT2 (by decide +kernel) [] rfl] at e
  have l : boxSum D [0, 0, 1, 1] (fun l => (firstS ε S).T 71 l * linT2.eval D (firstS ε S).T ([] ++ l)) =
      ∑ i ∈ D 0, ∑ j ∈ D 0, ∑ a ∈ D 1, ∑ b ∈ D 1, firstT ε S a b i j * linT2.eval D (firstS ε S).T [i, j, a, b] := rfl
  rw [l] at e
  have e' : ((1 / 4 : ℚ) : ℝ) = 1 / 4 := by norm_num
  rw [e'] at e
  rw [e]
  unfold driveMp3
  simp [ladders, Prog.eval, Blk.eval, termVal, dums, vars, varsIx, insertNew, sumOver, evalFs, SO.T, at4, Ein.bind, Function.update, sp, firstS]
  simp only [← mul_assoc, ← add_assoc]

omit [DecidableEq I] in
/-- What second and third order contribute to the contracted doubles. -/
theorem pair2_orders (ε : I → ℝ) (S : SO I ℝ) (hS : S.Sym) :
    ∃ M : ℝ, ∀ c : ℝ, pair2 S (c • driveQ ε S (c • driveQ ε S (0 : DSlot D m → ℝ))) = c * (driveMp2 D ε S + c * driveMp3 D ε S + c ^ 2 * M) := by
  obtain ⟨q1, q2⟩ := driveQ_zero (D := D) (m := m) ε S hS
  set u := driveQ ε S (0 : DSlot D m → ℝ) with hu
  refine ⟨1 / 4 * ∑ i ∈ D 0, ∑ j ∈ D 0, ∑ a ∈ D 1, ∑ b ∈ D 1, S.g a b i j * (quadT2.eval D (driveAt S u).T [i, j, a, b] * (1 / (-ε a - ε b + ε i + ε j))),
    fun c => ?_⟩
  have loc : ∀ i ∈ D 0, ∀ j ∈ D 0, ∀ a ∈ D 1, ∀ b ∈ D 1, linT2.eval D (driveAt S u).T [i, j, a, b] = linT2.eval D (firstS ε S).T [i, j, a, b] := by
    intro i hi j hj a ha b hb
    refine Prog.eval_local D _ _ _ (fun f => Nat.beq f.t 23 || (Nat.beq f.t 39 && decide (f.ix.map sp = [1, 1, 0, 0]))) (by decide +kernel)
      (fun f hf l hl => ?_) [0, 0, 1, 1] (by decide +kernel) _ (.cons hi (.cons hj (.cons ha (.cons hb .nil))))
    simp only [Bool.or_eq_true, Bool.and_eq_true, decide_eq_true_eq, Nat.beq_eq] at hf
    rcases hf with hf | ⟨hf, hix⟩
    · rw [hf]; rfl
    · rw [hix] at hl
      rw [hf, driveAt_T, if_pos (by decide)]
      match l, hl with
      | [a, b, i, j], .cons ha (.cons hb (.cons hi (.cons hj .nil))) =>
        rw [ext_mem _ (slot2 (doubles_mem m) ha hb hi hj)]
        exact q1 ha hb hi hj
  rw [← linear_mp3 (D := D) ε S hS]
  unfold pair2 driveMp2
  simp only [Finset.mul_sum, ← Finset.sum_add_distrib]
  refine Finset.sum_congr rfl fun i hi => Finset.sum_congr rfl fun j hj => Finset.sum_congr rfl fun a ha => Finset.sum_congr rfl fun b hb => ?_
  rw [ext_smul, ext_mem _ (slot2 (doubles_mem m) ha hb hi hj), driveQ_doubles ε S hS u q2 c ha hb hi hj, loc i hi j hj a ha b hb]
  unfold firstT
  rw [hS.g_herm a b i j]
  ring

end Verif.Props
