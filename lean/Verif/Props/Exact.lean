import Verif.Props.Projected
import Verif.Wick.Exact

/-!
# Eigenstates of the Hamiltonian (C76)

In the Fock space, with `Φ` the determinant of the occupied orbitals:

* if `e^{T1+T2} Φ` is an eigenstate, the CCSD residuals vanish and the CCSD energy is the eigenvalue,
* for at most two electrons the converse holds: a solution of the CCSD equations is an eigenstate,
* the same for CCSDT and at most three electrons.
-/

namespace Verif.Props

open Verif.Ein Verif.UT2 Verif.Wick

variable {I K : Type} [LinearOrder I] [Field K] [CharZero K] [Inhabited I]

/-- `e^{T} Φ`; the series is complete when `n` is larger than the number of electrons. -/
def ccState (D : Nat → Finset I) (n : Nat) (T : Module.End K (Fock I K)) : Fock I K := expS K n T (ref K D)

/-- `e^{T} Φ` is an eigenstate of the Hamiltonian with energy `E`. -/
def IsEigen (D : Nat → Finset I) (hD : Disjoint (D 0) (D 1)) (h : I → I → K) (g : I → I → I → I → K) (n : Nat)
    (T : Module.End K (Fock I K)) (E : K) : Prop :=
  (fock D hD).ham h g (ccState D n T) = E • ccState D n T

/-- `T1 + T2` and `T1 + T2 + T3` on the Fock space. -/
def clSD (D : Nat → Finset I) (hD : Disjoint (D 0) (D 1)) (S : SO I K) : Module.End K (Fock I K) :=
  (fock D hD).T1 S.t1 + (fock D hD).T2 S.t2

def clSDT (D : Nat → Finset I) (hD : Disjoint (D 0) (D 1)) (S : SO I K) : Module.End K (Fock I K) :=
  (fock D hD).T1 S.t1 + (fock D hD).T2 S.t2 + (fock D hD).T3 S.t3

section
omit [CharZero K] [Inhabited I]

/-- The coupled-cluster state is not zero: the coefficient of `Φ` is one. -/
theorem ccState_ref (D : Nat → Finset I) (T : Module.End K (Fock I K)) (hT : T ∈ Takes K (D 0) 1) (n : Nat) (hn : 0 < n) :
    ccState D n T (D 0) = 1 := by
  obtain ⟨m, rfl⟩ : ∃ m, n = m + 1 := ⟨n - 1, by omega⟩
  unfold ccState expS
  rw [Finset.sum_range_succ', LinearMap.add_apply, Pi.add_apply, LinearMap.sum_apply, Finset.sum_apply]
  rw [Finset.sum_eq_zero]
  · simp [ref]
  · intro k _
    by_contra h0
    have h1 : (T ^ (k + 1)) (ref K D) (D 0) ≠ 0 := by
      intro h; apply h0
      rw [LinearMap.smul_apply, Pi.smul_apply, h, smul_zero]
    have h2 : Few (D 0) ((D 0).card : ℤ) (ref K D) := fun S _ => by
      exact_mod_cast Finset.card_le_card Finset.inter_subset_right
    have := takes_pow hT (k + 1) _ _ h2 _ h1
    rw [Finset.inter_self] at this
    push_cast at this
    linarith
end

omit [Inhabited I] in
/-- `e^{-T} H e^{T} Φ = E Φ` is the same as `H e^{T} Φ = E e^{T} Φ`. -/
theorem hbar_iff (D : Nat → Finset I) (hD : Disjoint (D 0) (D 1)) (h : I → I → K) (g : I → I → I → I → K) (n : Nat)
    (T : Module.End K (Fock I K)) (hT : T ∈ Takes K (D 0) 1) (hn : (D 0).card < n) (E : K) :
    hbar (fock D hD) h g n T (ref K D) = E • ref K D ↔ IsEigen D hD h g n T E := by
  have h0 := pow_zero_of_takes hT n hn
  have h1 := exp_mul_neg (K := K) T n h0
  have h2 := exp_neg_mul (K := K) T n h0
  unfold IsEigen hbar ccState
  constructor
  · intro e
    have := congrArg (fun ψ => (expS K n T : Module.End K (Fock I K)) ψ) e
    rw [← Module.End.mul_apply, ← mul_assoc, ← mul_assoc, h1, one_mul, map_smul] at this
    exact this
  · intro e
    rw [Module.End.mul_apply, Module.End.mul_apply, e, map_smul, ← Module.End.mul_apply, h2, Module.End.one_apply]

omit [CharZero K] [Inhabited I] in
theorem ω_ref (D : Nat → Finset I) (hD : Disjoint (D 0) (D 1)) (X : Module.End K (Fock I K)) (E : K)
    (hX : X (ref K D) = E • ref K D) (B : Module.End K (Fock I K)) :
    (fock D hD).ω (B * X) = E * (fock D hD).ω B := by
  rw [ω_def, ω_def, Module.End.mul_apply, hX, map_smul, Pi.smul_apply, smul_eq_mul]

/-- An eigenstate `e^{T1+T2} Φ` solves the CCSD equations of the code, and the CCSD energy of the code is the eigenvalue. -/
theorem C76_eigenstate (D : Nat → Finset I) (hD : Disjoint (D 0) (D 1)) (S : SO I K) (hS : S.Sym) (h : I → I → K)
    (hf : IsFock D h S.f S.g) (n : Nat) (hn : (D 0).card < n) (hn5 : 5 ≤ n) (E : K)
    (he : IsEigen D hD h S.g n (clSD D hD S) E) :
    (∀ a ∈ D 1, ∀ i ∈ D 0, ccsd_t1resid D S i a = 0) ∧
    (∀ a ∈ D 1, ∀ b ∈ D 1, ∀ i ∈ D 0, ∀ j ∈ D 0, ccsd_t2resid D S i j a b = 0) ∧
    spinorbitalCCSDE D S = E := by
  have hT := Submodule.add_mem _ (T1_takes D hD S.t1) (T2_takes D hD S.t2)
  have hb := (hbar_iff D hD h S.g n _ hT hn E).2 he
  refine ⟨fun a ha i hi => ?_, fun a ha b hb' i hi j hj => ?_, ?_⟩
  · rw [← C75_ccsd_t1 (fock D hD) hD S hS h hf a i ha hi n (by omega), ω_ref D hD _ E hb, mul_eq_zero]
    right
    exact (fock D hD).virt_right a ha _
  · rw [← C75_ccsd_t2 (fock D hD) hD S hS h hf a b i j ha hb' hi hj n (by omega), ω_ref D hD _ E hb, mul_eq_zero]
    right
    exact (fock D hD).virt_right a ha _
  · rw [← C75_ccsd_energy (fock D hD) hD S hS h hf n (by omega), ω_def, hb]
    simp [ref]

omit [CharZero K] [Inhabited I] in
/-- A determinant of the same number of electrons is the reference with some orbitals replaced. -/
theorem det_cases (D : Nat → Finset I) (S : Finset I) (h1 : S.card = (D 0).card) (h2 : S ⊆ orbs D) :
    ∃ A B : Finset I, A ⊆ D 1 ∧ B ⊆ D 0 ∧ A.card = B.card ∧ S = A ∪ (D 0 \ B) := by
  refine ⟨S \ D 0, D 0 \ S, ?_, Finset.sdiff_subset, ?_, ?_⟩
  · intro x hx
    rw [Finset.mem_sdiff] at hx
    exact (Finset.mem_union.1 (h2 hx.1)).resolve_left hx.2
  · have e1 := Finset.card_sdiff_add_card_inter S (D 0)
    have e2 := Finset.card_sdiff_add_card_inter (D 0) S
    rw [Finset.inter_comm] at e2
    omega
  · ext x
    simp only [Finset.mem_union, Finset.mem_sdiff, not_and, not_not]
    tauto

/-- For at most two electrons, a solution of the CCSD equations of the code is an eigenstate of the Hamiltonian, and the
CCSD energy of the code is its energy. -/
theorem C76_two_electrons (D : Nat → Finset I) (hD : Disjoint (D 0) (D 1)) (hc : (D 0).card ≤ 2) (S : SO I K) (hS : S.Sym)
    (h : I → I → K) (hf : IsFock D h S.f S.g) (h1 : ∀ a ∈ D 1, ∀ i ∈ D 0, ccsd_t1resid D S i a = 0)
    (h2 : ∀ a ∈ D 1, ∀ b ∈ D 1, ∀ i ∈ D 0, ∀ j ∈ D 0, ccsd_t2resid D S i j a b = 0) (n : Nat) (hn : 5 ≤ n) :
    IsEigen D hD h S.g n (clSD D hD S) (spinorbitalCCSDE D S) := by
  unfold clSD
  have hT := Submodule.add_mem _ (T1_takes D hD S.t1) (T2_takes D hD S.t2)
  have hA := Submodule.add_mem _ (T1_adds D hD S.t1) (T2_adds D hD S.t2)
  rw [← hbar_iff D hD h S.g n _ hT (by omega)]
  set X := hbar (fock D hD) h S.g n ((fock D hD).T1 S.t1 + (fock D hD).T2 S.t2) with hX
  have hXA : X ∈ Adds K (orbs D) 0 := by
    rw [hX, hbar]
    simpa using adds_mul (adds_mul (adds_exp (Submodule.neg_mem _ hA) n) (ham_adds D hD h S.g)) (adds_exp hA n)
  funext Q
  by_cases hQ : X (ref K D) Q = 0
  · rw [hQ]
    by_cases e : Q = D 0
    · subst e
      rw [Pi.smul_apply, ← C75_ccsd_energy (fock D hD) hD S hS h hf n (by omega), ω_def, ← hX, hQ, zero_smul]
    · rw [Pi.smul_apply, ref, Pi.single_eq_of_ne e, smul_zero]
  · obtain ⟨c1, c2⟩ := hXA _ _ (ref_elec D) Q hQ
    rw [add_zero] at c1
    obtain ⟨A, B, hA1, hB0, hAB, rfl⟩ := det_cases D Q (by exact_mod_cast c1) c2
    have hB2 : B.card ≤ 2 := le_trans (Finset.card_le_card hB0) hc
    interval_cases hB : B.card
    · have hA' : A = ∅ := Finset.card_eq_zero.1 hAB
      have hB' : B = ∅ := Finset.card_eq_zero.1 hB
      subst hA'; subst hB'
      rw [Finset.empty_union, Finset.sdiff_empty, Pi.smul_apply,
        ← C75_ccsd_energy (fock D hD) hD S hS h hf n (by omega), ω_def, ← hX]
      simp [ref]
    · exfalso; apply hQ
      obtain ⟨a, rfl⟩ := Finset.card_eq_one.1 hAB
      obtain ⟨i, rfl⟩ := Finset.card_eq_one.1 hB
      have ha := hA1 (Finset.mem_singleton_self a)
      have hi := hB0 (Finset.mem_singleton_self i)
      have := (coeff1 D hD ha hi X).zero (by
        rw [hX, C75_ccsd_t1 (fock D hD) hD S hS h hf a i ha hi n (by omega)]; exact h1 a ha i hi)
      refine Eq.trans (congrArg (X (ref K D)) ?_) this
      ext x; simp; tauto
    · exfalso; apply hQ
      obtain ⟨a, b, hab, rfl⟩ := Finset.card_eq_two.1 hAB
      obtain ⟨i, j, hij, rfl⟩ := Finset.card_eq_two.1 hB
      have ha := hA1 (show a ∈ _ by simp)
      have hb := hA1 (show b ∈ _ by simp)
      have hi := hB0 (show i ∈ _ by simp)
      have hj := hB0 (show j ∈ _ by simp)
      have := (coeff2 D hD ha hb hab hi hj hij X).zero (by
        rw [hX, C75_ccsd_t2 (fock D hD) hD S hS h hf a b i j ha hb hi hj n (by omega)]; exact h2 a ha b hb i hi j hj)
      refine Eq.trans (congrArg (X (ref K D)) ?_) this
      ext x; simp; tauto

/-- For at most three electrons, a solution of the CCSDT equations of the code is an eigenstate of the Hamiltonian, and the
energy expression of the code is its energy. The triples equation is the one of the code without the rounding of its printed
coefficients. -/
theorem C76_three_electrons (D : Nat → Finset I) (hD : Disjoint (D 0) (D 1)) (hc : (D 0).card ≤ 3) (S : SO I K) (hS : S.Sym)
    (h : I → I → K) (hf : IsFock D h S.f S.g) (h1 : ∀ a ∈ D 1, ∀ i ∈ D 0, ccsdt_t1eqns D S i a = 0)
    (h2 : ∀ a ∈ D 1, ∀ b ∈ D 1, ∀ i ∈ D 0, ∀ j ∈ D 0, ccsdt_t2eqns D S i j a b = 0)
    (h3 : ∀ a ∈ D 1, ∀ b ∈ D 1, ∀ c ∈ D 1, ∀ i ∈ D 0, ∀ j ∈ D 0, ∀ k ∈ D 0,
      ccsdt_t3eqns D S i j k a b c - (roundoff Gen.ccsdt_t3eqns).eval D S.T [i, j, k, a, b, c] = 0) (n : Nat) (hn : 6 ≤ n) :
    IsEigen D hD h S.g n (clSDT D hD S) (spinorbitalCCSDE D S) := by
  unfold clSDT
  have hT := Submodule.add_mem _ (Submodule.add_mem _ (T1_takes D hD S.t1) (T2_takes D hD S.t2)) (T3_takes D hD S.t3)
  have hA := Submodule.add_mem _ (Submodule.add_mem _ (T1_adds D hD S.t1) (T2_adds D hD S.t2)) (T3_adds D hD S.t3)
  rw [← hbar_iff D hD h S.g n _ hT (by omega)]
  set X := hbar (fock D hD) h S.g n ((fock D hD).T1 S.t1 + (fock D hD).T2 S.t2 + (fock D hD).T3 S.t3) with hX
  have hXA : X ∈ Adds K (orbs D) 0 := by
    rw [hX, hbar]
    simpa using adds_mul (adds_mul (adds_exp (Submodule.neg_mem _ hA) n) (ham_adds D hD h S.g)) (adds_exp hA n)
  funext Q
  by_cases hQ : X (ref K D) Q = 0
  · rw [hQ]
    by_cases e : Q = D 0
    · subst e
      rw [Pi.smul_apply, ← C75_ccsdt_energy (fock D hD) hD S hS h hf n (by omega), ω_def, ← hX, hQ, zero_smul]
    · rw [Pi.smul_apply, ref, Pi.single_eq_of_ne e, smul_zero]
  · obtain ⟨c1, c2⟩ := hXA _ _ (ref_elec D) Q hQ
    rw [add_zero] at c1
    obtain ⟨A, B, hA1, hB0, hAB, rfl⟩ := det_cases D Q (by exact_mod_cast c1) c2
    have hB3 : B.card ≤ 3 := le_trans (Finset.card_le_card hB0) hc
    interval_cases hB : B.card
    · have hA' : A = ∅ := Finset.card_eq_zero.1 hAB
      have hB' : B = ∅ := Finset.card_eq_zero.1 hB
      subst hA'; subst hB'
      rw [Finset.empty_union, Finset.sdiff_empty, Pi.smul_apply,
        ← C75_ccsdt_energy (fock D hD) hD S hS h hf n (by omega), ω_def, ← hX]
      simp [ref]
    · exfalso; apply hQ
      obtain ⟨a, rfl⟩ := Finset.card_eq_one.1 hAB
      obtain ⟨i, rfl⟩ := Finset.card_eq_one.1 hB
      have ha := hA1 (Finset.mem_singleton_self a)
      have hi := hB0 (Finset.mem_singleton_self i)
      have := (coeff1 D hD ha hi X).zero (by
        rw [hX, C75_ccsdt_t1 (fock D hD) hD S hS h hf a i ha hi n (by omega)]; exact h1 a ha i hi)
      refine Eq.trans (congrArg (X (ref K D)) ?_) this
      ext x; simp; tauto
    · exfalso; apply hQ
      obtain ⟨a, b, hab, rfl⟩ := Finset.card_eq_two.1 hAB
      obtain ⟨i, j, hij, rfl⟩ := Finset.card_eq_two.1 hB
      have ha := hA1 (show a ∈ _ by simp)
      have hb := hA1 (show b ∈ _ by simp)
      have hi := hB0 (show i ∈ _ by simp)
      have hj := hB0 (show j ∈ _ by simp)
      have := (coeff2 D hD ha hb hab hi hj hij X).zero (by
        rw [hX, C75_ccsdt_t2 (fock D hD) hD S hS h hf a b i j ha hb hi hj n (by omega)]; exact h2 a ha b hb i hi j hj)
      refine Eq.trans (congrArg (X (ref K D)) ?_) this
      ext x; simp; tauto
    · exfalso; apply hQ
      obtain ⟨a, b, c, hab, hac, hbc, rfl⟩ := Finset.card_eq_three.1 hAB
      obtain ⟨i, j, k, hij, hik, hjk, rfl⟩ := Finset.card_eq_three.1 hB
      have ha := hA1 (show a ∈ _ by simp)
      have hb := hA1 (show b ∈ _ by simp)
      have hc := hA1 (show c ∈ _ by simp)
      have hi := hB0 (show i ∈ _ by simp)
      have hj := hB0 (show j ∈ _ by simp)
      have hk := hB0 (show k ∈ _ by simp)
      have := (coeff3 D hD ha hb hc hab hac hbc hi hj hk hij hik hjk X).zero (by
        rw [hX, eq_sub_of_add_eq (C75_ccsdt_t3 (fock D hD) hD S hS h hf a b c i j k ha hb hc hi hj hk n (by omega))]
        exact h3 a ha b hb c hc i hi j hj k hk)
      refine Eq.trans (congrArg (X (ref K D)) ?_) this
      ext x; simp; tauto

/-! ### the residual is antisymmetric -/

section
omit [CharZero K] [Inhabited I]
variable {A : Type} [Ring A] [Algebra K A] {D : Nat → Finset I} (F : Fermi I K A D)

theorem bra2_v (a b i j : I) (X : A) : F.ω (F.bra2 a b i j * X) = - F.ω (F.bra2 b a i j * X) := by
  have e : F.bra2 a b i j = - F.bra2 b a i j := by
    simp only [Fermi.bra2, mul_assoc]
    rw [F.cc b a]
    simp only [mul_neg]
  rw [e, neg_mul, map_neg]

theorem bra2_o (a b i j : I) (X : A) : F.ω (F.bra2 a b i j * X) = - F.ω (F.bra2 a b j i * X) := by
  have e : F.bra2 a b i j = - F.bra2 a b j i := by
    simp only [Fermi.bra2]
    rw [F.dd i j]
    simp only [neg_mul]
  rw [e, neg_mul, map_neg]
end

theorem C75_ccsd_t2_antisymm_v (D : Nat → Finset I) (hD : Disjoint (D 0) (D 1)) (S : SO I K) (hS : S.Sym) (a b i j : I)
    (ha : a ∈ D 1) (hb : b ∈ D 1) (hi : i ∈ D 0) (hj : j ∈ D 0) :
    ccsd_t2resid D S i j a b = - ccsd_t2resid D S i j b a := by
  have hf : IsFock D (fun p q => S.f p q - ∑ k ∈ D 0, S.g p k q k) S.f S.g := by intro p q; simp
  rw [← C75_ccsd_t2 (fock D hD) hD S hS _ hf a b i j ha hb hi hj 5 le_rfl,
    ← C75_ccsd_t2 (fock D hD) hD S hS _ hf b a i j hb ha hi hj 5 le_rfl]
  exact bra2_v _ _ _ _ _ _

theorem C75_ccsd_t2_antisymm_o (D : Nat → Finset I) (hD : Disjoint (D 0) (D 1)) (S : SO I K) (hS : S.Sym) (a b i j : I)
    (ha : a ∈ D 1) (hb : b ∈ D 1) (hi : i ∈ D 0) (hj : j ∈ D 0) :
    ccsd_t2resid D S i j a b = - ccsd_t2resid D S j i a b := by
  have hf : IsFock D (fun p q => S.f p q - ∑ k ∈ D 0, S.g p k q k) S.f S.g := by intro p q; simp
  rw [← C75_ccsd_t2 (fock D hD) hD S hS _ hf a b i j ha hb hi hj 5 le_rfl,
    ← C75_ccsd_t2 (fock D hD) hD S hS _ hf a b j i ha hb hj hi 5 le_rfl]
  exact bra2_o _ _ _ _ _ _

/-! ### two electrons in four orbitals

The Hamiltonian mixes the determinants `01` and `23`; `t2 = 2` solves the equations, with energy 4. -/

namespace Two

def o (p q : ℕ) : ℚ := if p = 0 ∧ q = 1 then 1 else if p = 1 ∧ q = 0 then -1 else 0
def w (p q : ℕ) : ℚ := if p = 2 ∧ q = 3 then 1 else if p = 3 ∧ q = 2 then -1 else 0

def so : SO ℕ ℚ where
  f p q := if p = q then (if p = 2 then 1 else if p = 3 then 2 else 0) else 0
  g p q r s := 2 * (w p q * o r s + o p q * w r s)
  t1 _ _ := 0
  t2 a b i j := 2 * w a b * o i j
  t3 _ _ _ _ _ _ := 0
  t4 _ _ _ _ _ _ _ _ := 0
  l1 _ _ := 0
  l2 _ _ _ _ := 0
  l3 _ _ _ _ _ _ := 0

theorem o_anti (p q : ℕ) : o p q = - o q p := by
  unfold o; split_ifs <;> first | omega | simp

theorem w_anti (p q : ℕ) : w p q = - w q p := by
  unfold w; split_ifs <;> first | omega | simp

theorem sym : so.Sym := by
  constructor <;> intros <;> simp only [so, neg_zero]
  case f_herm p q => by_cases e : p = q <;> simp [e, Ne.symm]
  case g_anti0 p q r s => rw [w_anti p q, o_anti p q]; ring
  case g_anti2 p q r s => rw [w_anti r s, o_anti r s]; ring
  case t2_anti0 p q r s => rw [w_anti p q]; ring
  case t2_anti2 p q r s => rw [o_anti r s]; ring
  all_goals ring

def h (p q : ℕ) : ℚ := so.f p q - ∑ k ∈ Witness.D 0, so.g p k q k

theorem isFock : IsFock Witness.D h so.f so.g := by
  intro p q; simp [h]

theorem disj : Disjoint (Witness.D 0) (Witness.D 1) := by decide

theorem r1 : ∀ a ∈ Witness.D 1, ∀ i ∈ Witness.D 0, ccsd_t1resid Witness.D so i a = 0 := by decide +kernel
theorem r2 : ∀ a ∈ Witness.D 1, ∀ b ∈ Witness.D 1, ∀ i ∈ Witness.D 0, ∀ j ∈ Witness.D 0,
    ccsd_t2resid Witness.D so i j a b = 0 := by
  have key : ccsd_t2resid Witness.D so 0 1 2 3 = 0 := by decide +kernel
  have ev := C75_ccsd_t2_antisymm_v Witness.D disj so sym
  have eo := C75_ccsd_t2_antisymm_o Witness.D disj so sym
  have hv : ∀ a ∈ Witness.D 1, a = 2 ∨ a = 3 := by decide
  have ho : ∀ a ∈ Witness.D 0, a = 0 ∨ a = 1 := by decide
  have z : ∀ x : ℚ, x = -x → x = 0 := fun x h => by linarith
  intro a ha b hb i hi j hj
  rcases eq_or_ne a b with rfl | hab
  · exact z _ (ev a a i j ha ha hi hj)
  rcases eq_or_ne i j with rfl | hij
  · exact z _ (eo a b i i ha hb hi hi)
  have m2 : 2 ∈ Witness.D 1 := by decide
  have m3 : 3 ∈ Witness.D 1 := by decide
  have m0 : 0 ∈ Witness.D 0 := by decide
  have m1 : 1 ∈ Witness.D 0 := by decide
  rcases hv a ha with rfl | rfl <;> rcases hv b hb with rfl | rfl <;> rcases ho i hi with rfl | rfl <;>
    rcases ho j hj with rfl | rfl <;> first | contradiction | skip
  · exact key
  · rw [eo 2 3 1 0 m2 m3 m1 m0, key, neg_zero]
  · rw [ev 3 2 0 1 m3 m2 m0 m1, key, neg_zero]
  · rw [ev 3 2 1 0 m3 m2 m1 m0, eo 2 3 1 0 m2 m3 m1 m0, key, neg_zero, neg_zero]
theorem en : spinorbitalCCSDE Witness.D so = 4 := by decide +kernel

end Two

/-- The hypotheses are met by amplitudes that are not zero: the state is an eigenstate with energy 4. -/
theorem Two.eigen : IsEigen Witness.D Two.disj Two.h Two.so.g 5 (clSD Witness.D Two.disj Two.so) 4 := by
  have key : ∀ E, spinorbitalCCSDE Witness.D Two.so = E →
      IsEigen Witness.D Two.disj Two.h Two.so.g 5 (clSD Witness.D Two.disj Two.so) E := by
    rintro _ rfl
    exact C76_two_electrons Witness.D Two.disj (by decide) Two.so Two.sym Two.h Two.isFock Two.r1 Two.r2 5 le_rfl
  exact key 4 Two.en

example : Two.so.t2 2 3 0 1 = 2 := by decide +kernel

/-- Hence the converse, too, has a case. -/
example : spinorbitalCCSDE Witness.D Two.so = 4 :=
  (C76_eigenstate Witness.D Two.disj Two.so Two.sym Two.h Two.isFock 5 (by decide) le_rfl 4 Two.eigen).2.2

end Verif.Props
