import Verif.Model.PerturbE
import Verif.Props.XccdBase
import Verif.Props.SpinHigh
import Verif.Props.WholeDrive
import Verif.Props.Units

/-!
# The `(qf)` corrections of `DriveCC` (C92)

`perturbE_driver` prints several numbers twice, calculated in two ways: through an array with eight axes and through one with four.
-/

namespace Verif.Props

open Verif.Ein Verif.UT2 Verif.Wick Verif.PerturbE Verif.Py
open Verif.WholeDrive (den2 den3)

variable {I : Type} [Inhabited I] {D : Nat → Finset I}

/-! ## lemmas -/

omit [Inhabited I] in
/-- `pair` reads entries in range only. -/
theorem pair_congr {ε : I → ℝ} {S : SO I ℝ} {R R' : I → I → I → I → ℝ}
    (h : ∀ a ∈ D 1, ∀ b ∈ D 1, ∀ i ∈ D 0, ∀ j ∈ D 0, R a b i j = R' a b i j) : pair D ε S R = pair D ε S R' := by
  unfold pair
  congr 1
  refine Finset.sum_congr rfl fun i hi => Finset.sum_congr rfl fun j hj => Finset.sum_congr rfl fun a ha =>
    Finset.sum_congr rfl fun b hb => ?_
  rw [h a ha b hb i hi j hj]

omit [Inhabited I] in
theorem pair_smul (ε : I → ℝ) (S : SO I ℝ) (c : ℝ) (R : I → I → I → I → ℝ) :
    pair D ε S (fun a b i j => c * R a b i j) = c * pair D ε S R := by
  unfold pair
  simp only [Finset.mul_sum]
  refine Finset.sum_congr rfl fun i _ => Finset.sum_congr rfl fun j _ => Finset.sum_congr rfl fun a _ =>
    Finset.sum_congr rfl fun b _ => by ring

omit [Inhabited I] in
theorem qfPair_add (ε : I → ℝ) (S : SO I ℝ) (R R' : I → I → I → I → ℝ) :
    pair D ε S (fun a b i j => R a b i j + R' a b i j) = pair D ε S R + pair D ε S R' := by
  unfold pair
  rw [← mul_add]
  simp only [← Finset.sum_add_distrib]
  congr 1
  refine Finset.sum_congr rfl fun i _ => Finset.sum_congr rfl fun j _ => Finset.sum_congr rfl fun a _ =>
    Finset.sum_congr rfl fun b _ => by ring

omit [Inhabited I] in
theorem close_congr {S : SO I ℝ} {X Y : List I → ℝ} {a b i j : I}
    (h : ∀ c ∈ D 1, ∀ d ∈ D 1, ∀ k ∈ D 0, ∀ l ∈ D 0, X [i, j, k, l, a, b, c, d] = Y [i, j, k, l, a, b, c, d]) :
    close D S X a b i j = close D S Y a b i j := by
  unfold close
  refine Finset.sum_congr rfl fun k hk => Finset.sum_congr rfl fun l hl => Finset.sum_congr rfl fun c hc =>
    Finset.sum_congr rfl fun d hd => ?_
  rw [h c hc d hd k hk l hl]

omit [Inhabited I] in
theorem close_add (S : SO I ℝ) (X Y : List I → ℝ) (a b i j : I) :
    close D S (fun xs => X xs + Y xs) a b i j = close D S X a b i j + close D S Y a b i j := by
  unfold close
  simp only [← Finset.sum_add_distrib]
  refine Finset.sum_congr rfl fun i _ => Finset.sum_congr rfl fun j _ => Finset.sum_congr rfl fun a _ =>
    Finset.sum_congr rfl fun b _ => by ring

omit [Inhabited I] in
theorem close_smul (S : SO I ℝ) (c : ℝ) (X : List I → ℝ) (a b i j : I) :
    close D S (fun xs => c * X xs) a b i j = c * close D S X a b i j := by
  unfold close
  simp only [Finset.mul_sum]
  refine Finset.sum_congr rfl fun i _ => Finset.sum_congr rfl fun j _ => Finset.sum_congr rfl fun a _ =>
    Finset.sum_congr rfl fun b _ => by ring

omit [Inhabited I] in
/-- The long way: closing a quadruple excitation with the transposed doubles is the projection on the doubles behind the
de-excitation operator. -/
theorem close_bra4 [DecidableEq I] {A : Type} [Ring A] [Algebra ℝ A] (F : Fermi I ℝ A D) (hD : Disjoint (D 0) (D 1)) (S : SO I ℝ) (Y : A)
    (X : List I → ℝ) (a b i j : I) (ha : a ∈ D 1) (hb : b ∈ D 1)
    (h : ∀ c ∈ D 1, ∀ d ∈ D 1, ∀ k ∈ D 0, ∀ l ∈ D 0, X [i, j, k, l, a, b, c, d] = F.ω (F.bra4 a b c d i j k l * Y)) :
    close D S X a b i j = 4 * F.ω (F.bra2 a b i j * F.L2 (dagged S).l2 * Y) := by
  rw [bra2_L2 F hD _ _ a b i j ha hb]
  unfold close
  simp only [boxSum, at4, dagged]
  rw [← mul_assoc, show (4 : ℝ) * (1 / 4) = 1 by norm_num, one_mul]
  refine Finset.sum_congr rfl fun k hk => Finset.sum_congr rfl fun l hl => Finset.sum_congr rfl fun c hc =>
    Finset.sum_congr rfl fun d hd => ?_
  rw [h c hc d hd k hk l hl]

omit [Inhabited I] in
theorem dagged_sym {S : SO I ℝ} (hS : S.Sym) : (dagged S).Sym := withDag_sym S hS

/-- A program that does not read `l2` does not see the difference. -/
theorem eval_dagged (S : SO I ℝ) (P : Prog) (h : P.allFac (fun f => !Nat.beq f.t 71) = true) (xs : List I) :
    P.eval D (dagged S).T xs = P.eval D S.T xs := by
  refine Prog.eval_congrT D _ _ P _ h (fun f hf l _ => ?_) xs
  have hf' : f.t ≠ 71 := by
    intro e
    rw [e] at hf
    exact absurd hf (by decide)
  unfold SO.T dagged
  simp only [hf', if_false]

theorem quadShort_part : Prog.through Gen.tamps_antisym_T4 quadShort = Gen.wnT2cubed_toT4.part [[23, 39, 39]] := by rfl

theorem quadT4_eval (S : SO I ℝ) (i j k l a b c d : I) :
    quadT4 D S [i, j, k, l, a, b, c, d] = (Gen.wnT2cubed_toT4.part [[23, 39, 39]]).eval D (dagged S).T [i, j, k, l, a, b, c, d] := by
  rw [eval_dagged S _ (by decide +kernel), ← quadShort_part, Prog.eval_through D S.T 8 _ (by decide +kernel) _ (by decide +kernel) _ rfl]
  rfl

/-- The doubles, the long way. -/
theorem quad_close (hD : Disjoint (D 0) (D 1)) (S : SO I ℝ) (hS : S.Sym) (a b i j : I) (ha : a ∈ D 1) (hb : b ∈ D 1) (hi : i ∈ D 0)
    (hj : j ∈ D 0) : close D S (quadT4 D S) a b i j = 4 * residQf1 D (dagged S) a b i j := by
  classical
  obtain ⟨F⟩ := exists_fermi (K := ℝ) hD
  obtain ⟨h, hf⟩ := exists_isFock (D := D) (dagged S)
  rw [← C77_residQf1 F hD (dagged S) (dagged_sym hS) h hf a b i j ha hb hi hj]
  refine close_bra4 F hD S _ _ a b i j ha hb fun c hc d hd k hk l hl => ?_
  rw [quadT4_eval]
  exact T4_quad_eval F hD (dagged S) (dagged_sym hS) h hf a b c d i j k l ha hb hc hd hi hj hk hl

/-- The cubic terms of the array with eight axes. -/
theorem cub_close (hD : Disjoint (D 0) (D 1)) (S : SO I ℝ) (hS : S.Sym) (a b i j : I) (ha : a ∈ D 1) (hb : b ∈ D 1) (hi : i ∈ D 0)
    (hj : j ∈ D 0) : close D S (fun xs => (Gen.wnT2cubed_toT4.part [[23, 39, 39, 39]]).eval D S.T xs) a b i j =
      4 * residQf2 D (dagged S) a b i j := by
  classical
  obtain ⟨F⟩ := exists_fermi (K := ℝ) hD
  obtain ⟨h, hf⟩ := exists_isFock (D := D) (dagged S)
  rw [← C77_residQf2 F hD (dagged S) (dagged_sym hS) h hf a b i j ha hb hi hj]
  refine close_bra4 F hD S _ _ a b i j ha hb fun c hc d hd k hk l hl => ?_
  rw [← eval_dagged S _ (by decide +kernel)]
  exact T4_cub_eval F hD (dagged S) (dagged_sym hS) h hf a b c d i j k l ha hb hc hd hi hj hk hl

/-- Both kinds of terms. -/
theorem cubed_close (hD : Disjoint (D 0) (D 1)) (S : SO I ℝ) (hS : S.Sym) (a b i j : I) (ha : a ∈ D 1) (hb : b ∈ D 1) (hi : i ∈ D 0)
    (hj : j ∈ D 0) : close D S (fun xs => Gen.wnT2cubed_toT4.eval D S.T xs) a b i j =
      4 * residQf2 D (dagged S) a b i j + 4 * residQf1 D (dagged S) a b i j := by
  rw [← cub_close hD S hS a b i j ha hb hi hj, ← quad_close hD S hS a b i j ha hb hi hj, ← close_add]
  refine close_congr fun c _ d _ k _ l _ => ?_
  rw [quadT4_eval, eval_dagged S _ (by decide +kernel), Prog.eval_part D S.T [[23, 39, 39]], cubed_rest, add_comm]

/-- The doubles times the triples. -/
theorem t2t3_close (hD : Disjoint (D 0) (D 1)) (S : SO I ℝ) (hS : S.Sym) (a b i j : I) (ha : a ∈ D 1) (hb : b ∈ D 1) (hi : i ∈ D 0)
    (hj : j ∈ D 0) : close D S (fun xs => Gen.wnT2T3_toT4.eval D S.T xs) a b i j =
      4 * wnT2T3_toT2 D S i j a b + close D S (fun xs => (roundoff Gen.wnT2T3_toT4).eval D S.T xs) a b i j := by
  classical
  obtain ⟨F⟩ := exists_fermi (K := ℝ) hD
  obtain ⟨h, hf⟩ := exists_isFock (D := D) (dagged S)
  have e := C77_wnT2T3 F hD (dagged S) (dagged_sym hS) h hf (fun _ _ _ _ => rfl) a b i j ha hb hi hj
  rw [show wnT2T3_toT2 D (dagged S) i j a b = wnT2T3_toT2 D S i j a b from eval_dagged S _ (by decide +kernel) _] at e
  rw [← e, ← close_bra4 F hD S _ (fun xs => Gen.wnT2T3_toT4.eval D S.T xs - (roundoff Gen.wnT2T3_toT4).eval D S.T xs) a b i j ha hb,
    ← close_add]
  · exact close_congr fun c _ d _ k _ l _ => (sub_add_cancel _ _).symm
  · intro c hc d hd k hk l hl
    have m := C77_T4_t2t3 F hD (dagged S) (dagged_sym hS) h hf a b c d i j k l ha hb hc hd hi hj hk hl
    rw [sub_eq_iff_eq_add, ← eval_dagged S Gen.wnT2T3_toT4 (by decide +kernel), ← eval_dagged S (roundoff _) (by decide +kernel)]
    exact m.symm

/-! ### the triples -/

omit [Inhabited I] in
/-- Permuting the indices of an array before it is antisymmetrised changes at most the sign. -/
theorem permutationSum_shift (m n : Nat) (R Q : List I → ℝ) (π : Equiv.Perm (Fin m)) (ρ : Equiv.Perm (Fin n)) (o : Fin m → I) (v : Fin n → I)
    (h : ∀ x y, R (List.ofFn x ++ List.ofFn y) = Q (List.ofFn (x ∘ π) ++ List.ofFn (y ∘ ρ))) :
    permutationSum m n R o v = ((Equiv.Perm.sign π : ℤ) : ℝ) * ((Equiv.Perm.sign ρ : ℤ) : ℝ) * permutationSum m n Q o v := by
  have e : ∀ u : ℤˣ, (((u : ℤ) : ℝ)) * ((u : ℤ) : ℝ) = 1 := fun u => by
    rw [← Int.cast_mul, ← Units.val_mul, Int.units_mul_self]; simp
  unfold permutationSum
  symm
  rw [Finset.mul_sum]
  refine (Equiv.sum_comp (Equiv.mulRight π) _).symm.trans (Finset.sum_congr rfl fun σ _ => ?_)
  rw [Finset.mul_sum]
  refine (Equiv.sum_comp (Equiv.mulRight ρ) _).symm.trans (Finset.sum_congr rfl fun τ _ => ?_)
  rw [h]
  simp only [Equiv.coe_mulRight, Equiv.Perm.sign_mul, Equiv.Perm.coe_mul, Function.comp_assoc, Units.val_mul, Int.cast_mul]
  linear_combination (((Equiv.Perm.sign σ : ℤ) : ℝ) * ((Equiv.Perm.sign τ : ℤ) : ℝ) *
    Q (List.ofFn (o ∘ σ ∘ π) ++ List.ofFn (v ∘ τ ∘ ρ))) * (((Equiv.Perm.sign ρ : ℤ) : ℝ) * ((Equiv.Perm.sign ρ : ℤ) : ℝ) * e (Equiv.Perm.sign π) + e (Equiv.Perm.sign ρ))

/-- Which index of `linT3` goes where in `linShort`. -/
def linPerm : Equiv.Perm (Fin 4) where
  toFun := ![3, 2, 0, 1]
  invFun := ![2, 3, 1, 0]
  left_inv := by decide
  right_inv := by decide

theorem linShort_eval (S : SO I ℝ) (hS : S.Sym) (i j k l a b c d : I) :
    linShort.eval D S.T [i, j, k, l, a, b, c, d] = 1000000008 / 1000000000 * Gen.linT3.eval D S.T [l, k, i, j, d, c, a, b] := by
  have hg : ∀ p q r s, S.g p q r s = S.g q p s r := fun p q r s => by rw [hS.g_anti0, hS.g_anti2, neg_neg]
  have h1 : ∀ m, S.g d m l k = S.g k l m d := fun m => by rw [hg, hS.g_herm]
  have h2 : ∀ e, S.g d c e l = S.g l e c d := fun e => by rw [hg, hS.g_herm]
  have h3 : ∀ m, S.t3 c a b m i j = S.t3 a b c i j m := fun m => by
    rw [hS.t3_anti0, hS.t3_anti1, hS.t3_anti3, hS.t3_anti4, neg_neg, neg_neg]
  have h4 : ∀ e, S.t3 e a b k i j = S.t3 a b e i j k := fun e => by
    rw [hS.t3_anti0, hS.t3_anti1, hS.t3_anti3, hS.t3_anti4, neg_neg, neg_neg]
  simp [linShort, Gen.linT3, N.g, N.t3, N.iₒ, N.jₒ, N.kₒ, N.lₒ, N.mₒ, N.aᵥ, N.bᵥ, N.cᵥ, N.dᵥ, N.eᵥ, Prog.eval, Blk.eval, termVal, dums, vars,
    varsIx, insertNew, sumOver, evalFs, SO.T, at4, at6, Ein.bind, Function.update, sp, h1, h2, h3, h4]
  rw [Finset.sum_congr rfl fun e _ => mul_comm (S.t3 a b e i j k) (S.g l e c d),
    Finset.sum_congr rfl fun e _ => mul_comm (S.t3 a b c i j e) (S.g k l e d)]
  ring

theorem linT4_eval (S : SO I ℝ) (hS : S.Sym) (i j k l a b c d : I) :
    linT4 D S [i, j, k, l, a, b, c, d] =
      1000000008 / 1000000000 * (Prog.through Gen.tamps_antisym_T4 Gen.linT3).eval D S.T [i, j, k, l, a, b, c, d] := by
  have h := permutationSum_shift 4 4 (fun ys => linShort.eval D S.T ys) (fun ys => 1000000008 / 1000000000 * Gen.linT3.eval D S.T ys) linPerm linPerm
    ![i, j, k, l] ![a, b, c, d] fun x y => by
      have e := linShort_eval (D := D) S hS (x 0) (x 1) (x 2) (x 3) (y 0) (y 1) (y 2) (y 3)
      simpa [List.ofFn_succ, linPerm, Fin.succ] using e
  rw [show Equiv.Perm.sign linPerm = -1 by decide] at h
  rw [Prog.eval_through D S.T 8 _ (by decide +kernel) _ (by decide +kernel) _ rfl, ← antisym_smul]
  refine (C31_antisym_T4 _ ![i, j, k, l] ![a, b, c, d]).trans (h.trans ?_)
  rw [show antisym Gen.tamps_antisym_T4 _ [i, j, k, l, a, b, c, d] = _ from C31_antisym_T4 _ ![i, j, k, l] ![a, b, c, d]]
  simp

/-! ### antisymmetry of what is closed -/

theorem close_swap {S : SO I ℝ} {R : List I → ℝ} (a b i j : I) :
    close D S (antisym_T4 R) b a i j = - close D S (antisym_T4 R) a b i j ∧
    close D S (antisym_T4 R) a b j i = - close D S (antisym_T4 R) a b i j := by
  unfold close
  simp only [← Finset.sum_neg_distrib]
  constructor <;> refine Finset.sum_congr rfl fun k _ => Finset.sum_congr rfl fun l _ => Finset.sum_congr rfl fun c _ =>
    Finset.sum_congr rfl fun d _ => ?_
  · rw [(antisym_T4_swaps R i j k l a b c d).2.1, mul_neg]
  · rw [(antisym_T4_swaps R i j k l a b c d).1.1, mul_neg]

theorem antisym_T2_four (R : I → I → I → I → ℝ) (h : ∀ a b i j, R b a i j = - R a b i j ∧ R a b j i = - R a b i j) (c : ℝ) (a b i j : I) :
    antisym_T2 (fun xs => c * at4 R xs) [a, b, i, j] = 4 * (c * R a b i j) := by
  unfold antisym_T2
  rw [antisym_smul]
  have h1 := (h a b i j).1
  have h2 := (h a b i j).2
  have h3 : R b a j i = R a b i j := by rw [(h a b j i).1, h2, neg_neg]
  have e : antisym Gen.tamps_antisym_T2 (at4 R) [a, b, i, j] = ((1 : ℤ) : ℝ) * R a b i j + (((-1 : ℤ) : ℝ) * R b a i j +
      (((-1 : ℤ) : ℝ) * R a b j i + (((1 : ℤ) : ℝ) * R b a j i + 0))) := rfl
  rw [e, h1, h2, h3]
  push_cast
  ring

/-! ## the triples in use -/

theorem withT3_sym (name : String) (S : SO I ℝ) (hS : S.Sym) : (withT3 D name S).Sym := by
  unfold withT3
  split
  · exact hS
  · exact { hS with
      t3_anti0 := fun a b c i j k => (neg_eq_iff_eq_neg.2 (antisym_T3_swaps _ i j k a b c).2.2.1).symm
      t3_anti1 := fun a b c i j k => (neg_eq_iff_eq_neg.2 (antisym_T3_swaps _ i j k a b c).2.2.2).symm
      t3_anti3 := fun a b c i j k => (neg_eq_iff_eq_neg.2 (antisym_T3_swaps _ i j k a b c).1).symm
      t3_anti4 := fun a b c i j k => (neg_eq_iff_eq_neg.2 (antisym_T3_swaps _ i j k a b c).2.1).symm }

theorem perturbE_some {name : String} {ε : I → ℝ} {S : SO I ℝ} {p : Printed} (h : perturbE D name ε S = some p) :
    p = report D ε (withT3 D name S) := by
  unfold perturbE at h
  split at h
  · exact (Option.some.inj h).symm
  · cases h

/-! ## the theorems -/

/-- **C92** The quadratic doubles term is printed three times, calculated in three ways: with `residQf1_aaaa`, through the array with
eight axes, and with `optWnT2sqr`. The three numbers are equal. -/
theorem C92_quadratic (hD : Disjoint (D 0) (D 1)) (name : String) (ε : I → ℝ) (S : SO I ℝ) (hS : S.Sym) (p : Printed)
    (hp : perturbE D name ε S = some p) : p.quadLong = p.fifth ∧ p.quadFast = p.fifth ∧ p.fifth4 = 4 * p.fifth := by
  rw [perturbE_some hp]
  have hT := withT3_sym (D := D) name S hS
  generalize withT3 D name S = U at hT
  refine ⟨pair_congr fun a ha b hb i hi j hj => ?_, pair_congr fun a _ b _ i _ j _ => ?_, rfl⟩
  · rw [quad_close hD U hT a b i j ha hb hi hj]
    ring
  · have e := C65_qf1 D (dagged U) (dagged_sym hT) (fun _ _ _ _ => rfl) a b i j
    unfold antisym_T2 at e ⊢
    rw [antisym_smul, ← e]
    refine congrArg (fun x => 1 / 2 * x) (antisym_congr (n := 4) (by decide) _ _ (fun y _ => ?_) _)
    exact (eval_dagged U _ (by decide +kernel) y).symm

/-- **C92** The triples term is printed five times. The first two are equal; the two that go through the array with eight axes agree with
each other, and are larger by the factor `1.000000008` because of the printed coefficient `0.041666667`; so the two printed totals differ
by this, too. -/
theorem C92_triples (hD : Disjoint (D 0) (D 1)) (name : String) (ε : I → ℝ) (S : SO I ℝ) (hS : S.Sym) (p : Printed)
    (hp : perturbE D name ε S = some p) :
    p.t3Fast = p.t3 ∧ p.t3Long = 1.000000008 * p.t3 ∧ p.t3AntiHalf = p.t3Long ∧ p.t3Anti = 2 * p.t3Long ∧
      p.total = p.combined + 0.000000008 * p.t3 := by
  have hq := (C92_quadratic hD name ε S hS p hp).1
  have hfif : p.combined = p.t3 + p.fifth := by rw [perturbE_some hp]; rfl
  have htot : p.total = p.t3Long + p.quadLong := by rw [perturbE_some hp]; rfl
  have hhalf : p.t3AntiHalf = p.t3Anti * (1 / 2) := by rw [perturbE_some hp]; rfl
  have key : p.t3Fast = p.t3 ∧ p.t3Long = 1.000000008 * p.t3Fast ∧ p.t3Anti = 2 * p.t3Long := by
    rw [perturbE_some hp]
    have hT := withT3_sym (D := D) name S hS
    generalize withT3 D name S = U at hT
    refine ⟨?_, ?_, ?_⟩
    · show pair D ε U _ = 2 * pair D ε U _
      rw [← pair_smul]
      refine pair_congr fun a _ b _ i _ j _ => ?_
      unfold antisym_T2
      rw [antisym_smul, antisym_smul, antisym_congr (n := 4) (by decide) (fun xs => Gen.optWnT3.eval D U.T xs) (fun xs => Gen.T3portion_Qf.eval D U.T xs)]
      · ring
      · intro y hy
        obtain ⟨i, j, a, b, rfl⟩ := t2_len y hy
        exact C65_triples D U hT i j a b
    · show pair D ε U _ = _ * pair D ε U _
      rw [← pair_smul]
      refine pair_congr fun a ha b hb i hi j hj => ?_
      classical
      obtain ⟨F⟩ := exists_fermi (K := ℝ) hD
      obtain ⟨h, hf⟩ := exists_isFock (D := D) (dagged U)
      have e := C77_optWnT3 F hD (dagged U) (dagged_sym hT) h hf (fun _ _ _ _ => rfl) a b i j ha hb hi hj
      rw [show antisym_T2 (fun xs => 1 / 2 * Gen.optWnT3.eval D U.T xs) [i, j, a, b] =
          1 / 2 * antisym_T2 (fun xs => Gen.optWnT3.eval D (dagged U).T xs) [i, j, a, b] by
        unfold antisym_T2
        rw [antisym_smul]
        exact congrArg (fun x => 1 / 2 * x)
          (antisym_congr (n := 4) (by decide) _ _ (fun y _ => (eval_dagged U _ (by decide +kernel) y).symm) _), ← e]
      have e' := close_bra4 F hD U _ (fun xs => (Prog.through Gen.tamps_antisym_T4 Gen.linT3).eval D U.T xs) a b i j ha hb
        fun c hc d hd k hk l hl => (eval_dagged U _ (by decide +kernel) _).symm.trans
          (lin_eval F hD (dagged U) (dagged_sym hT) h hf a b c d i j k l ha hb hc hd hi hj hk hl)
      rw [close_congr (Y := fun xs => 1000000008 / 1000000000 * (Prog.through Gen.tamps_antisym_T4 Gen.linT3).eval D U.T xs)
        fun c _ d _ k _ l _ => linT4_eval U hT i j k l a b c d, close_smul, e']
      ring
    · show pair D ε U _ = 2 * pair D ε U _
      rw [← pair_smul]
      refine pair_congr fun a _ b _ i _ j _ => ?_
      rw [antisym_T2_four (close D U (linT4 D U)) (fun a b i j => close_swap a b i j)]
      ring
  obtain ⟨h1, h2, h3⟩ := key
  refine ⟨h1, by rw [h2, h1], by rw [hhalf, h3]; ring, h3, ?_⟩
  rw [htot, hfif, hq, h2, h1]
  ring

/-- **C92** The two numbers for the doubles times the triples differ only by what the printed coefficients of `wnT2T3_toT4`, such as
`0.041666667`, differ from fractions; each by less than `10⁻⁹`. -/
theorem C92_t2t3 (hD : Disjoint (D 0) (D 1)) (name : String) (ε : I → ℝ) (S : SO I ℝ) (hS : S.Sym) (p : Printed)
    (hp : perturbE D name ε S = some p) :
    (p.t2t3Long = p.t2t3Fast + pair D ε S fun a b i j => 1 / 8 *
      close D S (fun xs => (roundoff Gen.wnT2T3_toT4).eval D (withT3 D name S).T xs) a b i j) ∧
    ∀ b ∈ roundoff Gen.wnT2T3_toT4_0, |b.c| < 1 / 10 ^ 9 := by
  refine ⟨?_, by decide +kernel⟩
  rw [perturbE_some hp]
  have hT := withT3_sym (D := D) name S hS
  have hg : (withT3 D name S).g = S.g := by unfold withT3; split <;> rfl
  have ht : (withT3 D name S).t2 = S.t2 := by unfold withT3; split <;> rfl
  have e : ∀ R, pair D ε S R = pair D ε (withT3 D name S) R := fun R => by unfold pair; rw [hg]
  have e' : ∀ X a b i j, close D S X a b i j = close D (withT3 D name S) X a b i j := fun X a b i j => by unfold close; rw [ht]
  rw [e]
  simp only [e']
  generalize withT3 D name S = U at hT
  refine Eq.trans ?_ (qfPair_add ε U _ _)
  refine pair_congr fun a ha b hb i hi j hj => ?_
  rw [t2t3_close hD U hT a b i j ha hb hi hj]
  ring

/-- **C92** The two numbers for the cubic doubles term differ by the whole quadratic term: `wnT2cubed_toT4` holds both, `wnT2cubed_toT2`
only the cubic one. -/
theorem C92_cubic_partial (hD : Disjoint (D 0) (D 1)) (name : String) (ε : I → ℝ) (S : SO I ℝ) (hS : S.Sym) (p : Printed)
    (hp : perturbE D name ε S = some p) : p.cubicLong = p.cubicFast + p.fifth := by
  rw [perturbE_some hp]
  have hT := withT3_sym (D := D) name S hS
  generalize withT3 D name S = U at hT
  refine Eq.trans ?_ (qfPair_add ε U _ _)
  refine pair_congr fun a ha b hb i hi j hj => ?_
  have e := C65_qf2 D (dagged U) (dagged_sym hT) (fun _ _ _ _ => rfl) a b i j
  rw [show wnT2cubed_toT2 D (dagged U) i j a b = wnT2cubed_toT2 D U i j a b from eval_dagged U _ (by decide +kernel) _] at e
  rw [cubed_close hD U hT a b i j ha hb hi hj, e]
  ring

/-! ## a case in which the two numbers for the cubic term differ -/

/-- `1` at `x, y`, `-1` at `y, x` and `0` elsewhere. -/
def sgn2 (p q x y : ℕ) : ℤ := (if p = x ∧ q = y then 1 else 0) - (if p = y ∧ q = x then 1 else 0)

theorem sgn2_swap (p q x y : ℕ) : sgn2 q p x y = - sgn2 p q x y := by
  unfold sgn2
  simp only [and_comm (a := q = x), and_comm (a := q = y), neg_sub]

/-- Two pairs of electrons that interact. -/
noncomputable def exQf : SO ℕ ℝ where
  f _ _ := 0
  g p q r s := ((sgn2 p q 0 2 * sgn2 r s 0 2 + (sgn2 p q 0 1 * sgn2 r s 4 5 + sgn2 p q 4 5 * sgn2 r s 0 1) : ℤ) : ℝ)
  t2 a b i j := ((sgn2 a b 4 5 * sgn2 i j 0 1 + sgn2 a b 6 7 * sgn2 i j 2 3 : ℤ) : ℝ)

theorem exQf_sym : exQf.Sym := by
  constructor <;> intros <;> simp only [exQf, neg_zero]
  · rename_i p q r s
    rw [← Int.cast_neg, sgn2_swap q p, sgn2_swap q p, sgn2_swap q p]; congr 1; ring
  · rename_i p q r s
    rw [← Int.cast_neg, sgn2_swap s r, sgn2_swap s r, sgn2_swap s r]; congr 1; ring
  · congr 1; ring
  · rename_i p q r s
    rw [← Int.cast_neg, sgn2_swap q p, sgn2_swap q p]; congr 1; ring
  · rename_i p q r s
    rw [← Int.cast_neg, sgn2_swap s r, sgn2_swap s r]; congr 1; ring

/-- Orbital energies: the occupied ones 0, the virtual ones 1. -/
noncomputable def exQfε (p : ℕ) : ℝ := if p < 4 then 0 else 1

theorem sum_sgn2 (s : Finset ℕ) (x y : ℕ) (hx : x ∈ s) (hy : y ∈ s) (f : ℕ → ℕ → ℝ) :
    ∑ i ∈ s, ∑ j ∈ s, (sgn2 i j x y : ℝ) * f i j = f x y - f y x := by
  simp [sgn2, sub_mul, ite_and, hx, hy]

theorem quadShort_eval (S : SO I ℝ) (i j k l a b c d : I) :
    quadShort.eval D S.T [i, j, k, l, a, b, c, d] =
      -1 / 16 * (∑ m ∈ D 0, ∑ n ∈ D 0, S.t2 a b i m * S.t2 c d j n * S.g k l m n) +
      (-1 / 4 * (∑ m ∈ D 0, ∑ e ∈ D 1, S.t2 a b i m * S.t2 c e j k * S.g l e m d) +
      -1 / 16 * (∑ e ∈ D 1, ∑ f ∈ D 1, S.t2 a e i j * S.t2 b f k l * S.g e f c d)) := by
  simp [quadShort, N.g, N.t2, N.iₒ, N.jₒ, N.kₒ, N.lₒ, N.mₒ, N.nₒ, N.aᵥ, N.bᵥ, N.cᵥ, N.dᵥ, N.eᵥ, N.fᵥ, Prog.eval, Blk.eval, termVal, dums, vars,
    varsIx, insertNew, sumOver, evalFs, SO.T, at4, Ein.bind, Function.update, sp]
  simp only [mul_assoc]
  rw [Finset.sum_comm (s := D 1) (t := D 0)]

/-- The one term of `quadShort` that is not zero, times -16. -/
def exQfR : List ℕ → ℤ
  | [i, j, k, l, a, b, c, d] => sgn2 k l 0 2 *
      ((sgn2 a b 4 5 * sgn2 i 0 0 1 + sgn2 a b 6 7 * sgn2 i 0 2 3) * (sgn2 c d 4 5 * sgn2 j 2 0 1 + sgn2 c d 6 7 * sgn2 j 2 2 3) -
      (sgn2 a b 4 5 * sgn2 i 2 0 1 + sgn2 a b 6 7 * sgn2 i 2 2 3) * (sgn2 c d 4 5 * sgn2 j 0 0 1 + sgn2 c d 6 7 * sgn2 j 0 2 3))
  | _ => 0

/-- The first four are occupied, the others virtual. -/
def split44 : List ℕ → Bool
  | [i, j, k, l, a, b, c, d] => [i, j, k, l].all (· < 4) && [a, b, c, d].all (3 < ·)
  | _ => false

theorem sgn2_zero_right {p q x y : ℕ} (hx : q ≠ x) (hy : q ≠ y) : sgn2 p q x y = 0 := by simp [sgn2, hx, hy]
theorem sgn2_zero_left {p q x y : ℕ} (hx : p ≠ x) (hy : p ≠ y) : sgn2 p q x y = 0 := by simp [sgn2, hx, hy]

theorem exQf_short (xs : List ℕ) (h : split44 xs = true) : quadShort.eval D44 exQf.T xs = ((exQfR xs : ℤ) : ℝ) * (-1 / 16) := by
  match xs, h with
  | [i, j, k, l, a, b, c, d], h =>
    simp only [split44, List.all_cons, List.all_nil, Bool.and_true, Bool.and_eq_true, decide_eq_true_eq] at h
    obtain ⟨⟨hi, hj, hk, hl⟩, ha, hb, hc, hd⟩ := h
    have lo : ∀ m ∈ D44 0, m < 4 := by decide
    have hi4 : ∀ m ∈ D44 1, 3 < m := by decide
    have g1 : ∀ m ∈ D44 0, ∀ n, exQf.g k l m n = (sgn2 m n 0 2 : ℝ) * (sgn2 k l 0 2 : ℝ) := fun m hm n => by
      have := lo m hm
      simp only [exQf]
      rw [sgn2_zero_left (p := m) (x := 4) (y := 5) (by omega) (by omega), sgn2_zero_left (p := k) (x := 4) (y := 5) (by omega) (by omega)]
      push_cast
      ring
    have g2 : ∀ e ∈ D44 1, ∀ m, exQf.g l e m d = 0 := fun e he m => by
      have := hi4 e he
      simp only [exQf]
      rw [sgn2_zero_right (q := e) (x := 0) (y := 2) (by omega) (by omega), sgn2_zero_right (q := e) (x := 0) (y := 1) (by omega) (by omega),
        sgn2_zero_left (p := l) (x := 4) (y := 5) (by omega) (by omega)]
      simp
    have g3 : ∀ e ∈ D44 1, ∀ f, exQf.g e f c d = 0 := fun e he f => by
      have := hi4 e he
      simp only [exQf]
      rw [sgn2_zero_left (p := e) (x := 0) (y := 2) (by omega) (by omega), sgn2_zero_left (p := e) (x := 0) (y := 1) (by omega) (by omega),
        sgn2_zero_left (p := c) (x := 0) (y := 1) (by omega) (by omega)]
      simp
    have s2 : ∑ m ∈ D44 0, ∑ e ∈ D44 1, exQf.t2 a b i m * exQf.t2 c e j k * exQf.g l e m d = 0 :=
      Finset.sum_eq_zero fun m _ => Finset.sum_eq_zero fun e he => by rw [g2 e he, mul_zero]
    have s3 : ∑ e ∈ D44 1, ∑ f ∈ D44 1, exQf.t2 a e i j * exQf.t2 b f k l * exQf.g e f c d = 0 :=
      Finset.sum_eq_zero fun e he => Finset.sum_eq_zero fun f _ => by rw [g3 e he, mul_zero]
    have s1 : ∑ m ∈ D44 0, ∑ n ∈ D44 0, exQf.t2 a b i m * exQf.t2 c d j n * exQf.g k l m n = _ :=
      (Finset.sum_congr rfl fun m hm => Finset.sum_congr rfl fun n _ => show _ = (sgn2 m n 0 2 : ℝ) *
        (exQf.t2 a b i m * exQf.t2 c d j n * (sgn2 k l 0 2 : ℝ)) by rw [g1 m hm]; ring).trans
      (sum_sgn2 _ 0 2 (by decide) (by decide) fun m n => exQf.t2 a b i m * exQf.t2 c d j n * (sgn2 k l 0 2 : ℝ))
    rw [quadShort_eval, s1, s2, s3]
    simp only [exQf, exQfR]
    push_cast
    ring

set_option maxRecDepth 100000 in
theorem exQf_T4 : quadT4 D44 exQf [0, 1, 2, 3, 4, 5, 6, 7] = 1 := by
  have h : ∀ q ∈ Gen.tamps_antisym_T4, split44 (unpick default q.2 [0, 1, 2, 3, 4, 5, 6, 7]) = true := by decide +kernel
  have v : (Gen.tamps_antisym_T4.map fun q => q.1 * exQfR (unpick default q.2 [0, 1, 2, 3, 4, 5, 6, 7])).sum = -16 := by decide +kernel
  have e : quadT4 D44 exQf [0, 1, 2, 3, 4, 5, 6, 7] =
      (((Gen.tamps_antisym_T4.map fun q => q.1 * exQfR (unpick default q.2 [0, 1, 2, 3, 4, 5, 6, 7])).sum : ℤ) : ℝ) * (-1 / 16) := by
    unfold quadT4 antisym_T4 antisym
    rw [show ∀ z : ℤ, (z : ℝ) = Int.castRingHom ℝ z from fun _ => rfl, map_list_sum, List.map_map, ← List.sum_map_mul_right]
    congr 1
    refine List.map_congr_left fun q hq => ?_
    beta_reduce
    rw [exQf_short _ (h q hq)]
    simp only [Function.comp_apply, Int.coe_castRingHom]
    push_cast
    ring
  rw [e, v]
  norm_num

theorem antisym_T4_same (R : List I → ℝ) (i j l a b c d : I) :
    antisym_T4 R [i, j, i, l, a, b, c, d] = 0 ∧ antisym_T4 R [i, j, j, l, a, b, c, d] = 0 := by
  have h1 := (antisym_T4_swaps R i i j l a b c d).1.1
  have h2 := (antisym_T4_swaps R i i j l a b c d).1.2.1
  have h3 := (antisym_T4_swaps R i j j l a b c d).1.2.1
  constructor <;> linarith

theorem sum4_sgn2 (s t : Finset ℕ) (x y u v : ℕ) (hx : x ∈ s) (hy : y ∈ s) (hu : u ∈ t) (hv : v ∈ t) (f : ℕ → ℕ → ℕ → ℕ → ℝ) :
    ∑ k ∈ s, ∑ l ∈ s, ∑ c ∈ t, ∑ d ∈ t, (sgn2 k l x y : ℝ) * ((sgn2 c d u v : ℝ) * f k l c d) =
      f x y u v - f x y v u - (f y x u v - f y x v u) := by
  simp only [← Finset.mul_sum]
  rw [sum_sgn2 s x y hx hy fun k l => ∑ c ∈ t, ∑ d ∈ t, (sgn2 c d u v : ℝ) * f k l c d, sum_sgn2 t u v hu hv, sum_sgn2 t u v hu hv]

theorem exQf_close : close D44 exQf (quadT4 D44 exQf) 4 5 0 1 = 4 := by
  have e : close D44 exQf (quadT4 D44 exQf) 4 5 0 1 =
      ∑ k ∈ D44 0, ∑ l ∈ D44 0, ∑ c ∈ D44 1, ∑ d ∈ D44 1, (sgn2 k l 0 1 : ℝ) * ((sgn2 c d 4 5 : ℝ) * quadT4 D44 exQf [0, 1, k, l, 4, 5, c, d]) +
      ∑ k ∈ D44 0, ∑ l ∈ D44 0, ∑ c ∈ D44 1, ∑ d ∈ D44 1, (sgn2 k l 2 3 : ℝ) * ((sgn2 c d 6 7 : ℝ) * quadT4 D44 exQf [0, 1, k, l, 4, 5, c, d]) := by
    unfold close
    simp only [← Finset.sum_add_distrib]
    refine Finset.sum_congr rfl fun k _ => Finset.sum_congr rfl fun l _ => Finset.sum_congr rfl fun c _ => Finset.sum_congr rfl fun d _ => ?_
    simp only [exQf]
    push_cast
    ring
  rw [e, sum4_sgn2 _ _ 0 1 4 5 (by decide) (by decide) (by decide) (by decide) fun k l c d => quadT4 D44 exQf [0, 1, k, l, 4, 5, c, d],
    sum4_sgn2 _ _ 2 3 6 7 (by decide) (by decide) (by decide) (by decide) fun k l c d => quadT4 D44 exQf [0, 1, k, l, 4, 5, c, d]]
  have h0 := exQf_T4
  have h1 := exQf_T4
  unfold quadT4 at h1 ⊢
  have s1 := (antisym_T4_swaps (fun ys => quadShort.eval D44 exQf.T ys) 0 1 2 3 4 5 6 7).1.2.2
  have s2 := (antisym_T4_swaps (fun ys => quadShort.eval D44 exQf.T ys) 0 1 2 3 4 5 6 7).2.2.2
  have s3 := (antisym_T4_swaps (fun ys => quadShort.eval D44 exQf.T ys) 0 1 3 2 4 5 6 7).2.2.2
  rw [(antisym_T4_same _ 0 1 1 4 5 4 5).1, (antisym_T4_same _ 0 1 1 4 5 5 4).1, (antisym_T4_same _ 0 1 0 4 5 4 5).2,
    (antisym_T4_same _ 0 1 0 4 5 5 4).2, s3, s2, s1, h1]
  norm_num

theorem exQf_quadE : quadE D44 exQfε exQf = -1 / 4 := by
  have lo : ∀ m ∈ D44 0, m < 4 := by decide
  have hi : ∀ m ∈ D44 1, 3 < m := by decide
  have e : quadE D44 exQfε exQf = 1 / 4 * ∑ i ∈ D44 0, ∑ j ∈ D44 0, ∑ a ∈ D44 1, ∑ b ∈ D44 1,
      (sgn2 i j 0 1 : ℝ) * ((sgn2 a b 4 5 : ℝ) * (-1 / 2 * (1 / 8 * close D44 exQf (quadT4 D44 exQf) a b i j))) := by
    unfold quadE pair
    congr 1
    refine Finset.sum_congr rfl fun i hi' => Finset.sum_congr rfl fun j hj => Finset.sum_congr rfl fun a ha => Finset.sum_congr rfl fun b hb => ?_
    have h1 := lo i hi'
    have h2 := lo j hj
    have h3 := hi a ha
    have h4 := hi b hb
    have hg : exQf.g i j a b = (sgn2 i j 0 1 : ℝ) * (sgn2 a b 4 5 : ℝ) := by
      simp only [exQf]
      rw [sgn2_zero_left (p := a) (x := 0) (y := 2) (by omega) (by omega), sgn2_zero_left (p := a) (x := 0) (y := 1) (by omega) (by omega)]
      push_cast
      ring
    have hd : den2 exQfε a b i j = -1 / 2 := by
      unfold den2 exQfε
      rw [if_pos h1, if_pos h2, if_neg (by omega), if_neg (by omega)]
      norm_num
    rw [hg, hd]
    ring
  rw [e, sum4_sgn2 _ _ 0 1 4 5 (by decide) (by decide) (by decide) (by decide) fun i j a b =>
    -1 / 2 * (1 / 8 * close D44 exQf (quadT4 D44 exQf) a b i j)]
  have s : ∀ a b i j, close D44 exQf (quadT4 D44 exQf) b a i j = - close D44 exQf (quadT4 D44 exQf) a b i j ∧
    close D44 exQf (quadT4 D44 exQf) a b j i = - close D44 exQf (quadT4 D44 exQf) a b i j := fun a b i j => close_swap a b i j
  rw [(s 4 5 0 1).1, (s 4 5 1 0).1, (s 4 5 0 1).2, exQf_close]
  norm_num

/-- **C92** The two numbers printed for the cubic doubles term are not equal in general. -/
theorem C92_cubic_violated : ∃ (S : SO ℕ ℝ) (ε : ℕ → ℝ) (p : Printed), S.Sym ∧ Disjoint (D44 0) (D44 1) ∧
    perturbE D44 "CCSDT(qf)" ε S = some p ∧ p.cubicLong ≠ p.cubicFast := by
  have hp : perturbE D44 "CCSDT(qf)" exQfε exQf = some (report D44 exQfε exQf) := by
    unfold perturbE withT3
    rw [if_pos (by decide +kernel), if_pos (by decide +kernel)]
  have hD : Disjoint (D44 0) (D44 1) := by decide
  refine ⟨exQf, exQfε, _, exQf_sym, hD, hp, fun h => ?_⟩
  have h1 := C92_cubic_partial hD _ _ _ exQf_sym _ hp
  have h2 := (C92_quadratic hD _ _ _ exQf_sym _ hp).1
  have h3 : (report D44 exQfε exQf).quadLong = -1 / 4 := exQf_quadE
  rw [h, ← h2, h3] at h1
  norm_num at h1

/-! ## the sign of `[T]` -/

omit [Inhabited I] in
/-- **C92** `[T]` is never positive if the virtual orbitals lie above the occupied ones, and it is zero only if all triples are. -/
theorem C92_squareT (ε : I → ℝ) (S : SO I ℝ) (hε : ∀ a ∈ D 1, ∀ i ∈ D 0, ε i < ε a) :
    squareT D ε S ≤ 0 ∧ (squareT D ε S = 0 ↔ ∀ i ∈ D 0, ∀ j ∈ D 0, ∀ k ∈ D 0, ∀ a ∈ D 1, ∀ b ∈ D 1, ∀ c ∈ D 1, S.t3 a b c i j k = 0) := by
  have hd : ∀ i ∈ D 0, ∀ j ∈ D 0, ∀ k ∈ D 0, ∀ a ∈ D 1, ∀ b ∈ D 1, ∀ c ∈ D 1, den3 ε a b c i j k < 0 := by
    intro i hi j hj k hk a ha b hb c hc
    unfold den3
    exact one_div_neg.2 (by linarith [hε a ha i hi, hε b hb j hj, hε c hc k hk])
  have ht : ∀ i ∈ D 0, ∀ j ∈ D 0, ∀ k ∈ D 0, ∀ a ∈ D 1, ∀ b ∈ D 1, ∀ c ∈ D 1,
      S.t3 a b c i j k * (S.t3 a b c i j k * den3 ε a b c i j k) ≤ 0 := by
    intro i hi j hj k hk a ha b hb c hc
    rw [← mul_assoc]
    exact mul_nonpos_of_nonneg_of_nonpos (mul_self_nonneg _) (hd i hi j hj k hk a ha b hb c hc).le
  have n5 := fun i hi j hj k hk a ha b hb => Finset.sum_nonpos (ht i hi j hj k hk a ha b hb)
  have n4 := fun i hi j hj k hk a ha => Finset.sum_nonpos (n5 i hi j hj k hk a ha)
  have n3 := fun i hi j hj k hk => Finset.sum_nonpos (n4 i hi j hj k hk)
  have n2 := fun i hi j hj => Finset.sum_nonpos (n3 i hi j hj)
  have n1 := fun i hi => Finset.sum_nonpos (n2 i hi)
  have n0 := Finset.sum_nonpos n1
  unfold squareT
  refine ⟨by nlinarith, fun h i hi j hj k hk a ha b hb c hc => ?_, fun h => ?_⟩
  · have h0 := (mul_eq_zero.1 h).resolve_left (by norm_num)
    have h1 := (Finset.sum_eq_zero_iff_of_nonpos n1).1 h0 i hi
    have h2 := (Finset.sum_eq_zero_iff_of_nonpos (n2 i hi)).1 h1 j hj
    have h3 := (Finset.sum_eq_zero_iff_of_nonpos (n3 i hi j hj)).1 h2 k hk
    have h4 := (Finset.sum_eq_zero_iff_of_nonpos (n4 i hi j hj k hk)).1 h3 a ha
    have h5 := (Finset.sum_eq_zero_iff_of_nonpos (n5 i hi j hj k hk a ha)).1 h4 b hb
    have h6 := (Finset.sum_eq_zero_iff_of_nonpos (ht i hi j hj k hk a ha b hb)).1 h5 c hc
    have := (hd i hi j hj k hk a ha b hb c hc).ne
    by_contra hn
    exact mul_ne_zero hn (mul_ne_zero hn this) h6
  · rw [Finset.sum_eq_zero, mul_zero]
    intro i hi
    refine Finset.sum_eq_zero fun j hj => Finset.sum_eq_zero fun k hk => Finset.sum_eq_zero fun a ha => Finset.sum_eq_zero fun b hb =>
      Finset.sum_eq_zero fun c hc => ?_
    rw [h i hi j hj k hk a ha b hb c hc, zero_mul]

/-- The number printed as `[T]`. -/
theorem squareT_printed (name : String) (ε : I → ℝ) (S : SO I ℝ) (p : Printed) (hp : perturbE D name ε S = some p) :
    p.squareT = squareT D ε (withT3 D name S) := by rw [perturbE_some hp]; rfl

/-! ## the unit of energy -/

/-- The integrals in another unit and the triples multiplied by `e`. -/
noncomputable def qfUnit (c e : ℝ) (S : SO I ℝ) : SO I ℝ := { soUnit c S with t3 := fun a b c i j k => e * S.t3 a b c i j k }

/-- How the printed numbers change: those without triples, those with triples, `[T]`. -/
noncomputable def _root_.Verif.PerturbE.Printed.inUnit (u x y : ℝ) (p : Printed) : Printed where
  fifth := u * p.fifth
  fifth4 := u * p.fifth4
  squareT := y * p.squareT
  t3 := x * p.t3
  combined := x * p.t3 + u * p.fifth
  quadLong := u * p.quadLong
  quadFast := u * p.quadFast
  t3Fast := x * p.t3Fast
  t3Long := x * p.t3Long
  total := x * p.t3Long + u * p.quadLong
  t3Anti := x * p.t3Anti
  t3AntiHalf := x * p.t3AntiHalf
  t2t3Long := x * p.t2t3Long
  t2t3Fast := x * p.t2t3Fast
  cubicLong := u * p.cubicLong
  cubicFast := u * p.cubicFast

omit [Inhabited I] in
theorem qf_den2_unit (c : ℝ) (ε : I → ℝ) (a b i j : I) : den2 (fun p => c * ε p) a b i j = c⁻¹ * den2 ε a b i j := by
  unfold den2
  rw [show -(c * ε a) - c * ε b + c * ε i + c * ε j = c * (-ε a - ε b + ε i + ε j) by ring, one_div, mul_inv, one_div]

omit [Inhabited I] in
theorem qf_den3_unit (c : ℝ) (ε : I → ℝ) (a b d i j k : I) : den3 (fun p => c * ε p) a b d i j k = c⁻¹ * den3 ε a b d i j k := by
  unfold den3
  rw [show -(c * ε a) - c * ε b - c * ε d + c * ε i + c * ε j + c * ε k = c * (-ε a - ε b - ε d + ε i + ε j + ε k) by ring, one_div, mul_inv,
    one_div]

omit [Inhabited I] in
theorem pair_unit (c e : ℝ) (hc : c ≠ 0) (ε : I → ℝ) (S : SO I ℝ) (x : ℝ) (R R' : I → I → I → I → ℝ) (h : ∀ a b i j, R' a b i j = x * R a b i j) :
    pair D (fun p => c * ε p) (qfUnit c e S) R' = x * pair D ε S R := by
  unfold pair
  simp only [Finset.mul_sum]
  refine Finset.sum_congr rfl fun i _ => Finset.sum_congr rfl fun j _ => Finset.sum_congr rfl fun a _ => Finset.sum_congr rfl fun b _ => ?_
  rw [qf_den2_unit, h]
  show 1 / 4 * (c * S.g i j a b * (c⁻¹ * den2 ε a b i j) * _) = _
  field_simp

omit [Inhabited I] in
theorem close_unit (c e x : ℝ) (S : SO I ℝ) (X X' : List I → ℝ) (h : ∀ xs, X' xs = x * X xs) (a b i j : I) :
    close D (qfUnit c e S) X' a b i j = x * close D S X a b i j := by
  rw [← close_smul]
  unfold close
  simp only [h]
  rfl

/-- Programs that read no triples. -/
theorem qf_eval_unit (c e : ℝ) (S : SO I ℝ) (P : Prog) (h : P.readsEq [15, 23] 1 = true) (h' : P.allFac (fun f => !Nat.beq f.t 47) = true)
    (xs : List I) : P.eval D (qfUnit c e S).T xs = c * P.eval D S.T xs := by
  rw [← so_eval_unit D c S P h xs]
  refine Prog.eval_congrT D _ _ P _ h' (fun f hf l _ => ?_) xs
  have hf' : f.t ≠ 47 := by
    intro e
    rw [e] at hf
    exact absurd hf (by decide)
  unfold SO.T qfUnit
  simp only [hf', if_false]

/-- Programs with one triple in each term. -/
theorem qf_eval_unit3 (c e : ℝ) (S : SO I ℝ) (P : Prog) (h : P.readsEq [15, 23] 1 = true) (h' : P.readsEq [47] 1 = true)
    (xs : List I) : P.eval D (qfUnit c e S).T xs = c * e * P.eval D S.T xs := by
  rw [mul_comm c e, mul_assoc, ← so_eval_unit D c S P h xs, ← pow_one e]
  refine Prog.eval_scaled D (ts := [47]) (c := e) (T := (soUnit c S).T) (fun t ht l => ?_) (fun t ht l => ?_) P 1 h' xs
  · have ht' : t ≠ 47 := fun h => ht (h ▸ List.mem_singleton.2 rfl)
    unfold SO.T qfUnit
    simp only [ht', if_false, pow_one]
  · obtain rfl := List.mem_singleton.1 ht
    match l with
    | [_, _, _, _, _, _] => exact congrArg (fun x => x * _) (pow_one e)
    | [] | [_] | [_, _] | [_, _, _] | [_, _, _, _] | [_, _, _, _, _] | _ :: _ :: _ :: _ :: _ :: _ :: _ :: _ => exact (mul_zero _).symm

omit [Inhabited I] in
theorem qf_antisym_unit {tab : List (ℤ × List Nat)} [Inhabited I] (x : ℝ) (R R' : List I → ℝ) (h : ∀ xs, R' xs = x * R xs) (xs : List I) :
    antisym tab R' xs = x * antisym tab R xs := by
  rw [← antisym_smul, show R' = fun y => x * R y from funext h]

theorem report_unit (c e : ℝ) (hc : c ≠ 0) (ε : I → ℝ) (S : SO I ℝ) :
    report D (fun p => c * ε p) (qfUnit c e S) = (report D ε S).inUnit c (c * e) (c⁻¹ * e ^ 2) := by
  have hfif : fifthE D (fun p => c * ε p) (qfUnit c e S) = c * fifthE D ε S := pair_unit c e hc ε S c _ _ fun a b i j => by
    have h : residQf1 D (dagged (qfUnit c e S)) a b i j = c * residQf1 D (dagged S) a b i j :=
      qf_eval_unit c e (dagged S) Gen.residQf1 (by decide +kernel) (by decide +kernel) _
    rw [h]; ring
  have ht3 : t3contrib D (fun p => c * ε p) (qfUnit c e S) = c * e * t3contrib D ε S := pair_unit c e hc ε S (c * e) _ _ fun a b i j =>
    qf_antisym_unit (c * e) _ _ (fun xs => by rw [qf_eval_unit3 c e S _ (by decide +kernel) (by decide +kernel)]; ring) _
  have hquad : quadE D (fun p => c * ε p) (qfUnit c e S) = c * quadE D ε S := pair_unit c e hc ε S c _ _ fun a b i j => by
    rw [close_unit c e c S (quadT4 D S) (quadT4 D (qfUnit c e S)) fun xs => by
      unfold quadT4 antisym_T4
      exact qf_antisym_unit c _ _ (fun ys => qf_eval_unit c e S quadShort (by decide +kernel) (by decide +kernel) ys) xs]
    ring
  have hlin4 : ∀ xs, linT4 D (qfUnit c e S) xs = c * e * linT4 D S xs := fun xs => by
    unfold linT4 antisym_T4
    exact qf_antisym_unit (c * e) _ _ (fun ys => qf_eval_unit3 c e S linShort (by decide +kernel) (by decide +kernel) ys) xs
  have hlin : linE D (fun p => c * ε p) (qfUnit c e S) = c * e * linE D ε S := pair_unit c e hc ε S (c * e) _ _ fun a b i j => by
    rw [close_unit c e (c * e) S (linT4 D S) _ hlin4]
    ring
  have hanti : antiE D (fun p => c * ε p) (qfUnit c e S) = c * e * antiE D ε S := pair_unit c e hc ε S (c * e) _ _ fun a b i j =>
    qf_antisym_unit (c * e) _ _ (fun xs => by
      match xs with
      | [a, b, i, j] => exact (congrArg (fun x => 1 / 16 * x) (close_unit c e (c * e) S (linT4 D S) _ hlin4 a b i j)).trans (by simp only [at4]; ring)
      | [] | [_] | [_, _] | [_, _, _] | _ :: _ :: _ :: _ :: _ :: _ => simp only [at4]; ring) _
  refine Printed.ext hfif ?_ ?_ ?_ ?_ hquad ?_ ?_ hlin ?_ hanti ?_ ?_ ?_ ?_ ?_
  · show 4 * _ = c * (4 * _)
    rw [hfif]; ring
  · show squareT D _ _ = _ * squareT D ε S
    unfold squareT
    simp only [Finset.mul_sum]
    refine Finset.sum_congr rfl fun i _ => Finset.sum_congr rfl fun j _ => Finset.sum_congr rfl fun k _ => Finset.sum_congr rfl fun a _ =>
      Finset.sum_congr rfl fun b _ => Finset.sum_congr rfl fun d _ => ?_
    rw [qf_den3_unit]
    simp only [qfUnit]
    ring
  · show 2 * _ = _ * (2 * _)
    rw [ht3]; ring
  · show 2 * _ + _ = c * e * (2 * t3contrib D ε S) + c * fifthE D ε S
    rw [ht3, hfif]; ring
  · refine pair_unit c e hc ε S c _ _ fun a b i j => ?_
    unfold antisym_T2
    refine qf_antisym_unit c _ _ (fun xs => ?_) _
    rw [qf_eval_unit c e S _ (by decide +kernel) (by decide +kernel)]; ring
  · refine pair_unit c e hc ε S (c * e) _ _ fun a b i j => ?_
    unfold antisym_T2
    refine qf_antisym_unit (c * e) _ _ (fun xs => ?_) _
    rw [qf_eval_unit3 c e S _ (by decide +kernel) (by decide +kernel)]; ring
  · show _ + _ = _ * _ + _ * _
    rw [hlin, hquad]; rfl
  · show _ * (1 / 2 : ℝ) = _ * (_ * (1 / 2))
    rw [hanti]; ring
  · refine pair_unit c e hc ε S (c * e) _ _ fun a b i j => ?_
    rw [close_unit c e (c * e) S (fun xs => Gen.wnT2T3_toT4.eval D S.T xs) _ (fun xs =>
      qf_eval_unit3 c e S _ (by decide +kernel) (by decide +kernel) xs)]
    ring
  · refine pair_unit c e hc ε S (c * e) _ _ fun a b i j => ?_
    have h : wnT2T3_toT2 D (qfUnit c e S) i j a b = c * e * wnT2T3_toT2 D S i j a b :=
      qf_eval_unit3 c e S _ (by decide +kernel) (by decide +kernel) _
    rw [h]; ring
  · refine pair_unit c e hc ε S c _ _ fun a b i j => ?_
    rw [close_unit c e c S (fun xs => Gen.wnT2cubed_toT4.eval D S.T xs) _ (fun xs =>
      qf_eval_unit c e S _ (by decide +kernel) (by decide +kernel) xs)]
    ring
  · refine pair_unit c e hc ε S c _ _ fun a b i j => ?_
    have h : wnT2cubed_toT2 D (qfUnit c e S) i j a b = c * wnT2cubed_toT2 D S i j a b :=
      qf_eval_unit c e S _ (by decide +kernel) (by decide +kernel) _
    rw [h]; ring

/-- **C92** All energies must be multiplied by `c` if integrals and orbital energies are, since amplitudes are pure numbers. Here it is
so for the numbers without triples. For names with a `"T"` it is so for those with triples, but `[T]` is divided by `c`: it multiplies
amplitudes by denominators. For the other names `[T]` is right, but the numbers with triples are multiplied by `c²`: the approximate
triples have not been multiplied by denominators. -/
theorem C92_units_partial (name : String) (c : ℝ) (hc : c ≠ 0) (ε : I → ℝ) (S : SO I ℝ) :
    perturbE D name (fun p => c * ε p) (soUnit c S) =
      (perturbE D name ε S).map (Printed.inUnit c (if hasSub "T" name then c else c ^ 2) (if hasSub "T" name then c⁻¹ else c)) := by
  unfold perturbE
  by_cases hq : hasSub "(qf)" name = true
  · rw [if_pos hq, if_pos hq, Option.map_some]
    refine congrArg some ?_
    by_cases hT : hasSub "T" name = true
    · have e : ∀ U : SO I ℝ, withT3 D name U = U := fun U => if_pos hT
      have e1 : qfUnit c 1 S = soUnit c S := by
        unfold qfUnit
        simp only [one_mul]
        rfl
      rw [if_pos hT, if_pos hT, e, e, ← e1, report_unit c 1 hc]
      simp
    · have e : ∀ U : SO I ℝ, withT3 D name U = { U with t3 := approxT3 D U } := fun U => if_neg hT
      have e1 : withT3 D name (soUnit c S) = qfUnit c c (withT3 D name S) := by
        have ha : approxT3 D (soUnit c S) = fun a b d i j k => c * approxT3 D S a b d i j k := by
          funext a b d i j k
          exact qf_antisym_unit c _ _ (fun xs => so_eval_unit D c S _ (by decide +kernel) xs) _
        rw [e, e, ha]
        rfl
      rw [if_neg hT, if_neg hT, e1, report_unit c c hc, show c⁻¹ * c ^ 2 = c by field_simp, pow_two]
  · rw [if_neg hq, if_neg hq]
    rfl

/-- Triples of three electrons. -/
noncomputable def exT3 : SO ℕ ℝ := (Witness.so).cast ℝ

/-- **C92** `[T]` depends on the unit of energy: for `CCSDT(qf)` the number printed is not the same energy when hartrees are replaced by
another unit. -/
theorem C92_units_violated : ∃ (S : SO ℕ ℝ) (ε : ℕ → ℝ) (c : ℝ) (p p' : Printed), S.Sym ∧ 0 < c ∧
    perturbE Witness.D33 "CCSDT(qf)" ε S = some p ∧ perturbE Witness.D33 "CCSDT(qf)" (fun q => c * ε q) (soUnit c S) = some p' ∧
    p'.squareT ≠ c * p.squareT := by
  have hT : hasSub "T" "CCSDT(qf)" = true := by decide +kernel
  have hp : perturbE Witness.D33 "CCSDT(qf)" (fun q => (q : ℝ)) exT3 = some (report Witness.D33 (fun q => (q : ℝ)) exT3) := by
    unfold perturbE withT3
    rw [if_pos (by decide +kernel), if_pos hT]
  have hs : exT3.Sym := by
    have h := Witness.so_sym
    constructor <;> intros <;> simp only [exT3, SO.cast, ← Rat.cast_neg] <;> congr 1
    all_goals first | exact h.f_herm _ _ | exact h.g_anti0 _ _ _ _ | exact h.g_anti2 _ _ _ _ | exact h.g_herm _ _ _ _ | exact h.t2_anti0 _ _ _ _ | exact h.t2_anti2 _ _ _ _ | exact h.t3_anti0 _ _ _ _ _ _ | exact h.t3_anti1 _ _ _ _ _ _ | exact h.t3_anti3 _ _ _ _ _ _ | exact h.t3_anti4 _ _ _ _ _ _ | exact h.t4_anti0 _ _ _ _ _ _ _ _ | exact h.t4_anti1 _ _ _ _ _ _ _ _ | exact h.t4_anti2 _ _ _ _ _ _ _ _ | exact h.t4_anti4 _ _ _ _ _ _ _ _ | exact h.t4_anti5 _ _ _ _ _ _ _ _ | exact h.t4_anti6 _ _ _ _ _ _ _ _
  have hu := C92_units_partial (D := Witness.D33) "CCSDT(qf)" 2 two_ne_zero (fun q => (q : ℝ)) exT3
  rw [hp, if_pos hT, if_pos hT, Option.map_some] at hu
  refine ⟨exT3, fun q => (q : ℝ), 2, _, _, hs, two_pos, hp, hu, fun h => ?_⟩
  have hz : squareT Witness.D33 (fun q => (q : ℝ)) exT3 = 0 := by
    have h' : (2 : ℝ)⁻¹ * squareT Witness.D33 (fun q => (q : ℝ)) exT3 = 2 * squareT Witness.D33 (fun q => (q : ℝ)) exT3 := h
    linarith
  have hε : ∀ a ∈ Witness.D33 1, ∀ i ∈ Witness.D33 0, i < a := by decide
  have h0 := ((C92_squareT (D := Witness.D33) (fun q : ℕ => (q : ℝ)) exT3 fun a ha i hi => Nat.cast_lt.2 (hε a ha i hi)).2.1 hz) 0 (by decide) 1 (by decide) 2 (by decide)
    3 (by decide) 4 (by decide) 5 (by decide)
  have h1 : exT3.t3 3 4 5 0 1 2 = ((Witness.so.t3 3 4 5 0 1 2 : ℚ) : ℝ) := rfl
  rw [h1, show Witness.so.t3 3 4 5 0 1 2 = 4 by decide +kernel] at h0
  norm_num at h0

/-- The hypotheses of the theorems above can be met with numbers that are not zero. -/
example : exQf.Sym ∧ Disjoint (D44 0) (D44 1) ∧ (∃ p, perturbE D44 "CCSD(qf)" exQfε exQf = some p) ∧ quadE D44 exQfε exQf ≠ 0 ∧
    (∀ a ∈ D44 1, ∀ i ∈ D44 0, exQfε i < exQfε a) := by
  refine ⟨exQf_sym, by decide, ⟨_, if_pos (by decide +kernel)⟩, by rw [exQf_quadE]; norm_num, fun a ha i hi => ?_⟩
  have h1 : ∀ a ∈ D44 1, ¬ a < 4 := by decide
  have h2 : ∀ i ∈ D44 0, i < 4 := by decide
  unfold exQfε
  rw [if_neg (h1 a ha), if_pos (h2 i hi)]
  norm_num

/-! ## whole calculations -/

/-- **C92** What is printed after a whole calculation: the amplitudes are antisymmetric, so all of the above holds. -/
theorem C92_whole (hD : Disjoint (D 0) (D 1)) (o : WholeDrive.Opts I) (S : SO I ℝ) (hS : S.Sym)
    (hF : ∀ x, o.file = some x → ∀ i j a b, x i j a b = - x j i a b ∧ x i j a b = - x i j b a)
    (r : Kernel.Res (SO I ℝ) Unit ℝ) (hr : WholeDrive.calculate D o S = .ok r) (p : Printed) (hp : perturbE D o.cc_type o.ε r.st.amps = some p) :
    p.quadLong = p.fifth ∧ p.quadFast = p.fifth ∧ p.t3Fast = p.t3 ∧ p.t3Long = 1.000000008 * p.t3 ∧ p.t3AntiHalf = p.t3Long ∧
      p.combined = p.t3 + p.fifth ∧ p.total = p.combined + 0.000000008 * p.t3 ∧ p.cubicLong = p.cubicFast + p.fifth := by
  have hA : r.st.amps.Sym := by
    obtain ⟨h1, h2⟩ := C91_result D o S
    by_cases hd : hasSub "D" o.cc_type = true
    · rcases h1 hd with ⟨k, -, -, -, r', h, ha, -⟩ | ⟨-, h⟩
      · rw [hr] at h
        cases h
        rw [ha]
        exact C91_antisymmetry D o S hS hF _
      · rw [hr] at h
        cases h
    · rw [h2 (by simpa using hd)] at hr
      cases hr
  obtain ⟨a1, a2, -⟩ := C92_quadratic hD _ _ _ hA p hp
  obtain ⟨b1, b2, b3, -, b5⟩ := C92_triples hD _ _ _ hA p hp
  exact ⟨a1, a2, b1, b2, b3, by rw [perturbE_some hp]; rfl, b5, C92_cubic_partial hD _ _ _ hA p hp⟩

end Verif.Props
