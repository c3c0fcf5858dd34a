import Verif.Wick.Fock
import Verif.Wick.Hamilton
import Mathlib.RingTheory.Nilpotent.Exp
import Mathlib.Algebra.Algebra.Rat

/-!
# Operators on the Fock space

* the Hamiltonian and the cluster operators keep the number of electrons and stay within the orbitals,
* every cluster operator empties an occupied orbital, so that its powers end and `e^{-T} e^{T} = 1`,
* `⟨Φ| bra X |Φ⟩` is, up to a sign, the coefficient of an excited determinant in `X Φ`.
-/

namespace Verif.Wick

open Verif.Ein

variable {I K : Type} [LinearOrder I] [Field K]

/-- `Φ`: the determinant of the occupied orbitals. -/
def ref (K : Type) [Field K] (D : Nat → Finset I) : Fock I K := Pi.single (D 0) 1

/-- Only determinants with `n` electrons, all of them in orbitals of `U`. -/
def Elec (U : Finset I) (n : ℤ) (ψ : Fock I K) : Prop := ∀ S, ψ S ≠ 0 → (S.card : ℤ) = n ∧ S ⊆ U

/-- Only determinants with at most `n` electrons in orbitals of `U`. -/
def Few (U : Finset I) (n : ℤ) (ψ : Fock I K) : Prop := ∀ S, ψ S ≠ 0 → ((S ∩ U).card : ℤ) ≤ n

/-- Operators that add `k` electrons. -/
def Adds (K : Type) [Field K] (U : Finset I) (k : ℤ) : Submodule K (Module.End K (Fock I K)) where
  carrier := {X | ∀ n ψ, Elec U n ψ → Elec U (n + k) (X ψ)}
  add_mem' := by
    intro X Y hX hY n ψ h S hS
    by_cases h1 : X ψ S = 0
    · refine hY n ψ h S fun h2 => hS ?_
      rw [LinearMap.add_apply, Pi.add_apply, h1, h2, add_zero]
    · exact hX n ψ h S h1
  zero_mem' := by intro n ψ _ S hS; simp at hS
  smul_mem' := by
    intro c X hX n ψ h S hS
    refine hX n ψ h S fun h1 => hS ?_
    rw [LinearMap.smul_apply, Pi.smul_apply, h1, smul_zero]

/-- Operators that take at least `k` electrons out of `U`. -/
def Takes (K : Type) [Field K] (U : Finset I) (k : ℤ) : Submodule K (Module.End K (Fock I K)) where
  carrier := {X | ∀ n ψ, Few U n ψ → Few U (n - k) (X ψ)}
  add_mem' := by
    intro X Y hX hY n ψ h S hS
    by_cases h1 : X ψ S = 0
    · refine hY n ψ h S fun h2 => hS ?_
      rw [LinearMap.add_apply, Pi.add_apply, h1, h2, add_zero]
    · exact hX n ψ h S h1
  zero_mem' := by intro n ψ _ S hS; simp at hS
  smul_mem' := by
    intro c X hX n ψ h S hS
    refine hX n ψ h S fun h1 => hS ?_
    rw [LinearMap.smul_apply, Pi.smul_apply, h1, smul_zero]

omit [LinearOrder I] in
theorem adds_mul {U : Finset I} {k l : ℤ} {X Y : Module.End K (Fock I K)} (hX : X ∈ Adds K U k) (hY : Y ∈ Adds K U l) :
    X * Y ∈ Adds K U (k + l) := by
  intro n ψ h
  have := hX _ _ (hY n ψ h)
  rwa [show n + l + k = n + (k + l) by ring] at this

omit [LinearOrder I] in
theorem adds_one (U : Finset I) : (1 : Module.End K (Fock I K)) ∈ Adds K U 0 := by
  intro n ψ h
  simpa using h

omit [LinearOrder I] in
theorem adds_pow {U : Finset I} {X : Module.End K (Fock I K)} (hX : X ∈ Adds K U 0) (n : Nat) : X ^ n ∈ Adds K U 0 := by
  induction n with
  | zero => exact adds_one U
  | succ n ih => rw [pow_succ]; simpa using adds_mul ih hX

theorem takes_mul {U : Finset I} {k l : ℤ} {X Y : Module.End K (Fock I K)} (hX : X ∈ Takes K U k) (hY : Y ∈ Takes K U l) :
    X * Y ∈ Takes K U (k + l) := by
  intro n ψ h
  have := hX _ _ (hY n ψ h)
  rwa [show n - l - k = n - (k + l) by ring] at this

theorem takes_mono {U : Finset I} {k l : ℤ} (h : k ≤ l) {X : Module.End K (Fock I K)} (hX : X ∈ Takes K U l) :
    X ∈ Takes K U k := fun n ψ hψ S hS => le_trans (hX n ψ hψ S hS) (by linarith)

theorem takes_one (U : Finset I) : (1 : Module.End K (Fock I K)) ∈ Takes K U 0 := by
  intro n ψ h
  simpa using h

theorem takes_pow {U : Finset I} {X : Module.End K (Fock I K)} (hX : X ∈ Takes K U 1) (n : Nat) : X ^ n ∈ Takes K U n := by
  induction n with
  | zero => exact takes_one U
  | succ n ih => rw [pow_succ]; simpa using takes_mul ih hX

theorem ann_adds {U : Finset I} {p : I} (_ : p ∈ U) : (ann p : Module.End K (Fock I K)) ∈ Adds K U (-1) := by
  intro n ψ h S hS
  rw [ann_apply] at hS
  split_ifs at hS with hpS
  · exact absurd rfl hS
  · obtain ⟨h1, h2⟩ := h _ (right_ne_zero_of_mul hS)
    rw [Finset.card_insert_of_notMem hpS] at h1
    exact ⟨by push_cast at h1; linarith, (Finset.subset_insert _ _).trans h2⟩

theorem cre_adds {U : Finset I} {p : I} (hp : p ∈ U) : (cre p : Module.End K (Fock I K)) ∈ Adds K U 1 := by
  intro n ψ h S hS
  rw [cre_apply] at hS
  split_ifs at hS with hpS
  · obtain ⟨h1, h2⟩ := h _ (right_ne_zero_of_mul hS)
    have h3 := Finset.card_erase_add_one hpS
    refine ⟨by rw [← h3]; push_cast; linarith, ?_⟩
    rw [← Finset.insert_erase hpS]
    exact Finset.insert_subset hp h2
  · exact absurd rfl hS

theorem ann_takes {U : Finset I} {p : I} (hp : p ∈ U) : (ann p : Module.End K (Fock I K)) ∈ Takes K U 1 := by
  intro n ψ h S hS
  rw [ann_apply] at hS
  split_ifs at hS with hpS
  · exact absurd rfl hS
  · have h1 := h _ (right_ne_zero_of_mul hS)
    rw [Finset.insert_inter_of_mem hp, Finset.card_insert_of_notMem (by simp [hpS])] at h1
    push_cast at h1; linarith

theorem cre_takes {U : Finset I} {p : I} (hp : p ∉ U) : (cre p : Module.End K (Fock I K)) ∈ Takes K U 0 := by
  intro n ψ h S hS
  rw [cre_apply] at hS
  split_ifs at hS with hpS
  · have h1 := h _ (right_ne_zero_of_mul hS)
    rw [Finset.erase_inter, Finset.erase_eq_of_notMem (by simp [hp])] at h1
    linarith
  · exact absurd rfl hS

variable (D : Nat → Finset I) (hD : Disjoint (D 0) (D 1))

theorem ham_adds (h : I → I → K) (g : I → I → I → I → K) : (fock D hD).ham h g ∈ Adds K (orbs D) 0 := by
  unfold Fermi.ham
  refine Submodule.add_mem _ ?_ (Submodule.smul_mem _ _ ?_)
  · refine Submodule.sum_mem _ fun p hp => Submodule.sum_mem _ fun q hq => Submodule.smul_mem _ _ ?_
    exact adds_mul (cre_adds hp) (ann_adds hq)
  · refine Submodule.sum_mem _ fun p hp => Submodule.sum_mem _ fun q hq => Submodule.sum_mem _ fun r hr =>
      Submodule.sum_mem _ fun s hs => Submodule.smul_mem _ _ ?_
    exact adds_mul (adds_mul (adds_mul (cre_adds hp) (cre_adds hq)) (ann_adds hs)) (ann_adds hr)

theorem inOrb0 {p : I} (hp : p ∈ D 0) : p ∈ orbs D := Finset.mem_union_left _ hp
theorem inOrb1 {p : I} (hp : p ∈ D 1) : p ∈ orbs D := Finset.mem_union_right _ hp

theorem T1_adds (t : I → I → K) : (fock D hD).T1 t ∈ Adds K (orbs D) 0 := by
  unfold Fermi.T1
  refine Submodule.sum_mem _ fun a ha => Submodule.sum_mem _ fun i hi => Submodule.smul_mem _ _ ?_
  exact adds_mul (cre_adds (inOrb1 D ha)) (ann_adds (inOrb0 D hi))

theorem T2_adds (t : I → I → I → I → K) : (fock D hD).T2 t ∈ Adds K (orbs D) 0 := by
  unfold Fermi.T2
  refine Submodule.smul_mem _ _ (Submodule.sum_mem _ fun a ha => Submodule.sum_mem _ fun b hb =>
    Submodule.sum_mem _ fun i hi => Submodule.sum_mem _ fun j hj => Submodule.smul_mem _ _ ?_)
  exact adds_mul (adds_mul (adds_mul (cre_adds (inOrb1 D ha)) (cre_adds (inOrb1 D hb))) (ann_adds (inOrb0 D hj)))
    (ann_adds (inOrb0 D hi))

theorem T3_adds (t : I → I → I → I → I → I → K) : (fock D hD).T3 t ∈ Adds K (orbs D) 0 := by
  unfold Fermi.T3
  refine Submodule.smul_mem _ _ (Submodule.sum_mem _ fun a ha => Submodule.sum_mem _ fun b hb =>
    Submodule.sum_mem _ fun c hc => Submodule.sum_mem _ fun i hi => Submodule.sum_mem _ fun j hj =>
    Submodule.sum_mem _ fun k hk => Submodule.smul_mem _ _ ?_)
  exact adds_mul (adds_mul (adds_mul (adds_mul (adds_mul (cre_adds (inOrb1 D ha)) (cre_adds (inOrb1 D hb)))
    (cre_adds (inOrb1 D hc))) (ann_adds (inOrb0 D hk))) (ann_adds (inOrb0 D hj))) (ann_adds (inOrb0 D hi))

omit [LinearOrder I] in
include hD in
theorem notOcc {p : I} (hp : p ∈ D 1) : p ∉ D 0 := fun h => Finset.disjoint_left.1 hD h hp

theorem T1_takes (t : I → I → K) : (fock D hD).T1 t ∈ Takes K (D 0) 1 := by
  unfold Fermi.T1
  refine Submodule.sum_mem _ fun a ha => Submodule.sum_mem _ fun i hi => Submodule.smul_mem _ _ ?_
  exact takes_mul (cre_takes (notOcc D hD ha)) (ann_takes hi)

theorem T2_takes (t : I → I → I → I → K) : (fock D hD).T2 t ∈ Takes K (D 0) 1 := by
  unfold Fermi.T2
  refine Submodule.smul_mem _ _ (Submodule.sum_mem _ fun a ha => Submodule.sum_mem _ fun b hb =>
    Submodule.sum_mem _ fun i hi => Submodule.sum_mem _ fun j hj => Submodule.smul_mem _ _ ?_)
  exact takes_mono (by norm_num) (takes_mul (takes_mul (takes_mul (cre_takes (notOcc D hD ha))
    (cre_takes (notOcc D hD hb))) (ann_takes hj)) (ann_takes hi))

theorem T3_takes (t : I → I → I → I → I → I → K) : (fock D hD).T3 t ∈ Takes K (D 0) 1 := by
  unfold Fermi.T3
  refine Submodule.smul_mem _ _ (Submodule.sum_mem _ fun a ha => Submodule.sum_mem _ fun b hb =>
    Submodule.sum_mem _ fun c hc => Submodule.sum_mem _ fun i hi => Submodule.sum_mem _ fun j hj =>
    Submodule.sum_mem _ fun k hk => Submodule.smul_mem _ _ ?_)
  exact takes_mono (by norm_num) (takes_mul (takes_mul (takes_mul (takes_mul (takes_mul (cre_takes (notOcc D hD ha))
    (cre_takes (notOcc D hD hb))) (cre_takes (notOcc D hD hc))) (ann_takes hk)) (ann_takes hj)) (ann_takes hi))

/-- Powers above the number of electrons in `U` vanish. -/
theorem pow_zero_of_takes {U : Finset I} {X : Module.End K (Fock I K)} (hX : X ∈ Takes K U 1) (n : Nat) (hn : U.card < n) :
    X ^ n = 0 := by
  ext1 ψ
  funext S
  by_contra hS
  have h0 : Few U U.card ψ := fun S _ => by exact_mod_cast Finset.card_le_card Finset.inter_subset_right
  have := takes_pow hX n U.card ψ h0 S hS
  have h1 : (0 : ℤ) ≤ ((S ∩ U).card : ℤ) := Int.natCast_nonneg _
  have h2 : (U.card : ℤ) < n := by exact_mod_cast hn
  linarith

/-- `e^{X} e^{-X} = 1`, the series being complete. -/
theorem exp_mul_neg [CharZero K] {A : Type} [Ring A] [Algebra K A] (X : A) (n : Nat) (h : X ^ n = 0) :
    expS K n X * expS K n (-X) = 1 := by
  let _ : Module ℚ A := Module.compHom A (algebraMap ℚ K)
  have key : ∀ Y : A, Y ^ n = 0 → expS K n Y = IsNilpotent.exp Y := by
    intro Y hY
    rw [IsNilpotent.exp_eq_sum hY, expS]
    refine Finset.sum_congr rfl fun m _ => ?_
    have : ((m.factorial : ℚ)⁻¹ • Y ^ m : A) = (algebraMap ℚ K (m.factorial : ℚ)⁻¹) • Y ^ m := rfl
    rw [this]
    simp
  rw [key X h, key (-X) (by rw [neg_pow, h, mul_zero])]
  exact IsNilpotent.exp_mul_exp_neg_self ⟨n, h⟩

theorem exp_neg_mul [CharZero K] {A : Type} [Ring A] [Algebra K A] (X : A) (n : Nat) (h : X ^ n = 0) :
    expS K n (-X) * expS K n X = 1 := by
  have := exp_mul_neg (K := K) (-X) n (by rw [neg_pow, h, mul_zero])
  rwa [neg_neg] at this

omit [LinearOrder I] in
theorem adds_exp {U : Finset I} {X : Module.End K (Fock I K)} (hX : X ∈ Adds K U 0) (n : Nat) :
    expS K n X ∈ Adds K U 0 :=
  Submodule.sum_mem _ fun m _ => Submodule.smul_mem _ _ (adds_pow hX m)

theorem ref_elec : Elec (orbs D) ((D 0).card : ℤ) (ref K D) := by
  intro S hS
  by_cases h : S = D 0
  · subst h; exact ⟨rfl, Finset.subset_union_left⟩
  · exact absurd (Pi.single_eq_of_ne h _) hS

/-! ### coefficients of determinants -/

theorem fsgn_pm (p : I) (S : Finset I) : (fsgn p S : K) = 1 ∨ (fsgn p S : K) = -1 := neg_one_pow_eq_or K _

/-- Equal up to sign. -/
def PM (x y : K) : Prop := x = y ∨ x = -y

theorem PM.refl (x : K) : PM x x := Or.inl rfl

theorem PM.sgn {x y : K} (h : PM x y) (p : I) (S : Finset I) : PM (fsgn p S * x) y := by
  rcases fsgn_pm (K := K) p S with e | e <;> rcases h with h | h <;> simp [PM, e, h]

theorem PM.cre {ψ : Fock I K} {y : K} {p : I} {S : Finset I} (hp : p ∈ S) (h : PM (ψ (S.erase p)) y) :
    PM (Verif.Wick.cre p ψ S) y := by
  rw [cre_apply, if_pos hp]; exact h.sgn p S

theorem PM.ann {ψ : Fock I K} {y : K} {p : I} {S : Finset I} (hp : p ∉ S) (h : PM (ψ (insert p S)) y) :
    PM (Verif.Wick.ann p ψ S) y := by
  rw [ann_apply, if_neg hp]; exact h.sgn p S

theorem ω_def (X : Module.End K (Fock I K)) : (fock D hD).ω X = X (ref K D) (D 0) := rfl

theorem coeff1 {a i : I} (ha : a ∈ D 1) (hi : i ∈ D 0) (X : Module.End K (Fock I K)) :
    PM ((fock D hD).ω ((fock D hD).bra1 a i * X)) (X (ref K D) (insert a ((D 0).erase i))) := by
  have na := notOcc D hD ha
  rw [ω_def]
  refine PM.cre hi (PM.ann (by simp [na]) (PM.refl _))

theorem coeff2 {a b i j : I} (ha : a ∈ D 1) (hb : b ∈ D 1) (hab : a ≠ b) (hi : i ∈ D 0) (hj : j ∈ D 0) (hij : i ≠ j)
    (X : Module.End K (Fock I K)) :
    PM ((fock D hD).ω ((fock D hD).bra2 a b i j * X)) (X (ref K D) (insert a (insert b (((D 0).erase i).erase j)))) := by
  have na := notOcc D hD ha
  have nb := notOcc D hD hb
  rw [ω_def]
  refine PM.cre hi (PM.cre (by simp [hj, hij.symm]) (PM.ann (by simp [nb]) (PM.ann (by simp [na, hab]) (PM.refl _))))

theorem coeff3 {a b c i j k : I} (ha : a ∈ D 1) (hb : b ∈ D 1) (hc : c ∈ D 1) (hab : a ≠ b) (hac : a ≠ c) (hbc : b ≠ c)
    (hi : i ∈ D 0) (hj : j ∈ D 0) (hk : k ∈ D 0) (hij : i ≠ j) (hik : i ≠ k) (hjk : j ≠ k)
    (X : Module.End K (Fock I K)) :
    PM ((fock D hD).ω ((fock D hD).bra3 a b c i j k * X))
      (X (ref K D) (insert a (insert b (insert c ((((D 0).erase i).erase j).erase k))))) := by
  have na := notOcc D hD ha
  have nb := notOcc D hD hb
  have nc := notOcc D hD hc
  rw [ω_def]
  refine PM.cre hi (PM.cre (by simp [hj, hij.symm]) (PM.cre (by simp [hk, hik.symm, hjk.symm])
    (PM.ann (by simp [nc]) (PM.ann (by simp [nb, hbc]) (PM.ann (by simp [na, hab, hac]) (PM.refl _))))))

theorem PM.zero {x y : K} (h : PM x y) (hx : x = 0) : y = 0 := by
  rcases h with h | h
  · rw [← h, hx]
  · rw [hx] at h; exact neg_eq_zero.1 h.symm

end Verif.Wick
