import Verif.Props.Few
import Verif.Props.Projected
import Verif.Props.SpinCc

/-!
# The spin-integrated code and the Schroedinger equation (C79)

`A` are the spin blocks of integrals and amplitudes the code works with, `A.so` the spin-orbital arrays with these blocks;
`F` is an algebra of fermion operators over spin orbitals (spatial orbital and spin). Every block of the spin-integrated
residuals is a projection of `e^{-T} H e^{T} Φ` on an excited determinant, and a stationary point of the CCD iteration
satisfies the projected equation for all spin combinations, also those the code never looks at.
-/

namespace Verif.Props

open Verif.Ein Verif.UT2 Verif.Wick

variable {I K B : Type} [DecidableEq I] [Field K] [CharZero K] [Ring B] [Algebra K B] [Inhabited I] {D : Nat → Finset I}
  (F : Fermi (I × Bool) K B (spinD D)) (hD : Disjoint (D 0) (D 1)) (A : SI I K) (hA : A.Sym)
  (h : I × Bool → I × Bool → K) (hf : IsFock (spinD D) h A.so.f A.so.g)
include hD hA hf

/-- CCD: blocks of the residual. -/
theorem C79_ccd (a b i j : I) (ha : a ∈ D 1) (hb : b ∈ D 1) (hi : i ∈ D 0) (hj : j ∈ D 0) (n : Nat) (hn : 3 ≤ n) :
    ccd_t2_aaaa D A a b i j = F.ω (F.bra2 (a, false) (b, false) (i, false) (j, false) * hbar F h A.so.g n (F.T2 A.so.t2)) ∧
    ccd_t2_abab D A a b i j = F.ω (F.bra2 (a, false) (b, true) (i, false) (j, true) * hbar F h A.so.g n (F.T2 A.so.t2)) ∧
    ccd_t2_bbbb D A a b i j = F.ω (F.bra2 (a, true) (b, true) (i, true) (j, true) * hbar F h A.so.g n (F.T2 A.so.t2)) := by
  obtain ⟨h1, h2, h3⟩ := C36_ccd_residual D A hA a b i j
  have p := fun σ τ : Bool => C75_ccd F (spinD_disjoint hD) A.so hA.so h hf (a, σ) (b, τ) (i, σ) (j, τ) (mem_spinD ha _)
    (mem_spinD hb _) (mem_spinD hi _) (mem_spinD hj _) n hn
  exact ⟨h1.trans (p _ _).symm, h2.trans (p _ _).symm, h3.trans (p _ _).symm⟩

/-- CCD and CCSD energies. -/
theorem C79_energy (n : Nat) (hn : 3 ≤ n) :
    ccd_energy_with_spin D A = F.ω (hbar F h A.so.g n (F.T2 A.so.t2)) ∧
    ccsd_energy_with_spin D A = F.ω (hbar F h A.so.g n (F.T1 A.so.t1 + F.T2 A.so.t2)) ∧
    ccsd_energy_with_spin D A = F.ω (hbar F h A.so.g n (F.T1 A.so.t1 + F.T2 A.so.t2 + F.T3 A.so.t3)) ∧
    ccd_energy_with_spin D A = F.ω (hbar F h A.so.g n (F.T2 A.so.t2 + F.T4 A.so.t4)) :=
  ⟨(C35_ccd_energy D A hA).trans (C75_ccd_energy F (spinD_disjoint hD) A.so hA.so h hf n (by omega)).symm,
   (C64_ccsd_energy D A hA).trans (C75_ccsd_energy F (spinD_disjoint hD) A.so hA.so h hf n hn).symm,
   (C64_ccsd_energy D A hA).trans (C75_ccsdt_energy F (spinD_disjoint hD) A.so hA.so h hf n hn).symm,
   (C35_ccd_energy D A hA).trans (C75_ccdq_energy F (spinD_disjoint hD) A.so hA.so h hf n (by omega)).symm⟩

/-- CCSDT: blocks of the singles residual. -/
theorem C79_ccsdt_t1 (a i : I) (ha : a ∈ D 1) (hi : i ∈ D 0) (n : Nat) (hn : 4 ≤ n) :
    ccsdt_t1_aa D A a i = F.ω (F.bra1 (a, false) (i, false) *
      hbar F h A.so.g n (F.T1 A.so.t1 + F.T2 A.so.t2 + F.T3 A.so.t3)) ∧
    ccsdt_t1_bb D A a i = F.ω (F.bra1 (a, true) (i, true) *
      hbar F h A.so.g n (F.T1 A.so.t1 + F.T2 A.so.t2 + F.T3 A.so.t3)) := by
  have p := fun σ : Bool => C75_ccsdt_t1 F (spinD_disjoint hD) A.so hA.so h hf (a, σ) (i, σ) (mem_spinD ha _)
    (mem_spinD hi _) n hn
  exact ⟨(C64_ccsdt_t1_aa D A hA a i).trans (p _).symm, (C64_ccsdt_t1_bb D A hA a i).trans (p _).symm⟩

/-- CCSDT: blocks of the doubles residual. -/
theorem C79_ccsdt_t2 (a b i j : I) (ha : a ∈ D 1) (hb : b ∈ D 1) (hi : i ∈ D 0) (hj : j ∈ D 0) (n : Nat) (hn : 5 ≤ n) :
    ccsdt_t2_aaaa D A a b i j = F.ω (F.bra2 (a, false) (b, false) (i, false) (j, false) *
      hbar F h A.so.g n (F.T1 A.so.t1 + F.T2 A.so.t2 + F.T3 A.so.t3)) ∧
    ccsdt_t2_abab D A a b i j = F.ω (F.bra2 (a, false) (b, true) (i, false) (j, true) *
      hbar F h A.so.g n (F.T1 A.so.t1 + F.T2 A.so.t2 + F.T3 A.so.t3)) ∧
    ccsdt_t2_bbbb D A a b i j = F.ω (F.bra2 (a, true) (b, true) (i, true) (j, true) *
      hbar F h A.so.g n (F.T1 A.so.t1 + F.T2 A.so.t2 + F.T3 A.so.t3)) := by
  have p := fun σ τ : Bool => C75_ccsdt_t2 F (spinD_disjoint hD) A.so hA.so h hf (a, σ) (b, τ) (i, σ) (j, τ)
    (mem_spinD ha _) (mem_spinD hb _) (mem_spinD hi _) (mem_spinD hj _) n hn
  exact ⟨(C64_ccsdt_t2_aaaa D A hA a b i j).trans (p _ _).symm, (C64_ccsdt_t2_abab D A hA a b i j).trans (p _ _).symm,
    (C64_ccsdt_t2_bbbb D A hA a b i j).trans (p _ _).symm⟩

/-- CCDQ: blocks of the doubles residual. -/
theorem C79_ccdq_t2 (a b i j : I) (ha : a ∈ D 1) (hb : b ∈ D 1) (hi : i ∈ D 0) (hj : j ∈ D 0) (n : Nat) (hn : 3 ≤ n) :
    ccdq_t2_aaaa D A a b i j = F.ω (F.bra2 (a, false) (b, false) (i, false) (j, false) *
      hbar F h A.so.g n (F.T2 A.so.t2 + F.T4 A.so.t4)) ∧
    ccdq_t2_abab D A a b i j = F.ω (F.bra2 (a, false) (b, true) (i, false) (j, true) *
      hbar F h A.so.g n (F.T2 A.so.t2 + F.T4 A.so.t4)) ∧
    ccdq_t2_bbbb D A a b i j = F.ω (F.bra2 (a, true) (b, true) (i, true) (j, true) *
      hbar F h A.so.g n (F.T2 A.so.t2 + F.T4 A.so.t4)) := by
  have p := fun σ τ : Bool => C75_ccdq_t2 F (spinD_disjoint hD) A.so hA.so h hf (a, σ) (b, τ) (i, σ) (j, τ)
    (mem_spinD ha _) (mem_spinD hb _) (mem_spinD hi _) (mem_spinD hj _) n hn
  exact ⟨(C64_ccdq_t2_aaaa D A hA a b i j).trans (p _ _).symm, (C64_ccdq_t2_abab D A hA a b i j).trans (p _ _).symm,
    (C64_ccdq_t2_bbbb D A hA a b i j).trans (p _ _).symm⟩

/-- The factorised quadruples: blocks of the two corrections, and the `(Qf)` energy. -/
theorem C79_qf (a b i j : I) (ha : a ∈ D 1) (hb : b ∈ D 1) (hi : i ∈ D 0) (hj : j ∈ D 0) :
    (∀ σ τ : Bool, (σ, τ) ≠ (true, false) →
      (if σ then residQf1_bbbb else if τ then residQf1_abab else residQf1_aaaa) D A a b i j =
        F.ω (F.bra2 (a, σ) (b, τ) (i, σ) (j, τ) * F.L2 A.so.l2 * Fermi.quad F h A.so) ∧
      (if σ then residQf2_bbbb else if τ then residQf2_abab else residQf2_aaaa) D A a b i j =
        F.ω (F.bra2 (a, σ) (b, τ) (i, σ) (j, τ) * F.L2 A.so.l2 * Fermi.cub F h A.so)) ∧
    si_energy_pertQf D A = F.ω (F.L2 A.so.l2 * F.L2 A.so.l2 * Fermi.quad F h A.so) := by
  have p := fun σ τ : Bool => C77_residQf1 F (spinD_disjoint hD) A.so hA.so h hf (a, σ) (b, τ) (i, σ) (j, τ)
    (mem_spinD ha _) (mem_spinD hb _) (mem_spinD hi _) (mem_spinD hj _)
  have q := fun σ τ : Bool => C77_residQf2 F (spinD_disjoint hD) A.so hA.so h hf (a, σ) (b, τ) (i, σ) (j, τ)
    (mem_spinD ha _) (mem_spinD hb _) (mem_spinD hi _) (mem_spinD hj _)
  obtain ⟨h1, h2, h3⟩ := C36_qf1_residual D A hA a b i j
  obtain ⟨h4, h5, h6⟩ := C36_qf2_residual D A hA a b i j
  refine ⟨fun σ τ hne => ?_, (C35_qf_energy D A hA).trans
    (C77_pertQf_double F (spinD_disjoint hD) A.so hA.so h hf).symm⟩
  cases σ <;> cases τ
  · exact ⟨h1.trans (p _ _).symm, h4.trans (q _ _).symm⟩
  · exact ⟨h2.trans (p _ _).symm, h5.trans (q _ _).symm⟩
  · exact absurd rfl hne
  · exact ⟨h3.trans (p _ _).symm, h6.trans (q _ _).symm⟩

omit hD hf [DecidableEq I] in
/-- If the three blocks of the residual vanish, the residual vanishes for all spins. -/
theorem soResid_zero (cc_type : String)
    (hz : ∀ a ∈ D 1, ∀ b ∈ D 1, ∀ i ∈ D 0, ∀ j ∈ D 0,
      resid_aaaa D cc_type A a b i j = 0 ∧ resid_abab D cc_type A a b i j = 0 ∧ resid_bbbb D cc_type A a b i j = 0) :
    ∀ p ∈ spinD D 1, ∀ q ∈ spinD D 1, ∀ r ∈ spinD D 0, ∀ s ∈ spinD D 0, soResid (spinD D) cc_type A.so p q r s = 0 := by
  rintro ⟨a, α⟩ ha ⟨b, β⟩ hb ⟨i, γ⟩ hi ⟨j, δ⟩ hj
  simp only [spinD, Finset.mem_product, Finset.mem_univ, and_true] at ha hb hi hj
  have hs := soResid_anti (spinD D) cc_type A.so hA.so
  by_cases hbal : α.toNat + β.toNat = γ.toNat + δ.toNat
  · have z := fun a b i j (ha : a ∈ D 1) (hb : b ∈ D 1) (hi : i ∈ D 0) (hj : j ∈ D 0) => hz a ha b hb i hi j hj
    have r := resid_so D cc_type A hA
    have zz : ∀ a b i j, a ∈ D 1 → b ∈ D 1 → i ∈ D 0 → j ∈ D 0 → soResid (spinD D) cc_type A.so (a, false) (b, true)
        (i, false) (j, true) = 0 := fun a b i j ha hb hi hj => (r a b i j).2.1 ▸ (z a b i j ha hb hi hj).2.1
    cases α <;> cases β <;> cases γ <;> cases δ <;> simp at hbal
    · exact (r a b i j).1 ▸ (z a b i j ha hb hi hj).1
    · exact zz a b i j ha hb hi hj
    · rw [hs.last, zz a b j i ha hb hj hi, neg_zero]
    · rw [hs.first, zz b a i j hb ha hi hj, neg_zero]
    · rw [hs.first, hs.last, zz b a j i hb ha hj hi, neg_zero, neg_zero]
    · exact (r a b i j).2.2 ▸ (z a b i j ha hb hi hj).2.2
  · exact soResid_unbalanced D cc_type A _ _ _ _ (not_balanced α β γ δ hbal a b i j)

/-- A stationary point of the CCD iteration: if one pass does not change the amplitudes, `e^{-T2} H e^{T2} Φ` has no
component in any doubly excited determinant, and the printed correlation energy is its component in `Φ`. -/
theorem C79_ccd_stationary (d2aa d2bb d2ab : I → I → I → I → K)
    (hd : ∀ a ∈ D 1, ∀ b ∈ D 1, ∀ i ∈ D 0, ∀ j ∈ D 0, d2aa a b i j ≠ 0 ∧ d2ab a b i j ≠ 0 ∧ d2bb a b i j ≠ 0)
    (hfix : SameSlices D (residMain D "CCD" d2aa d2bb d2ab A) A) (n : Nat) (hn : 3 ≤ n) :
    (∀ p ∈ spinD D 1, ∀ q ∈ spinD D 1, ∀ r ∈ spinD D 0, ∀ s ∈ spinD D 0,
      F.ω (F.bra2 p q r s * hbar F h A.so.g n (F.T2 A.so.t2)) = 0) ∧
    F.ω (hbar F h A.so.g n (F.T2 A.so.t2)) = ccd_energy_with_spin D A := by
  refine ⟨fun p hp q hq r hr s hs => ?_, ((C79_energy F hD A hA h hf n hn).1).symm⟩
  rw [C75_ccd F (spinD_disjoint hD) A.so hA.so h hf p q r s hp hq hr hs n hn]
  have hz : ∀ a ∈ D 1, ∀ b ∈ D 1, ∀ i ∈ D 0, ∀ j ∈ D 0,
      resid_aaaa D "CCD" A a b i j = 0 ∧ resid_abab D "CCD" A a b i j = 0 ∧ resid_bbbb D "CCD" A a b i j = 0 := by
    intro a ha b hb i hi j hj
    obtain ⟨t1, t2, t3⟩ := hfix.t2 a b i j ha hb hi hj
    obtain ⟨d1, d2, d3⟩ := hd a ha b hb i hi j hj
    have key : ∀ R t d : K, d ≠ 0 → (R + d⁻¹ * t) * d = t → R = 0 := by
      intro R t d hd0 e
      have e' : (R + d⁻¹ * t) * d = R * d + t := by rw [add_mul, mul_right_comm, inv_mul_cancel₀ hd0, one_mul]
      have : R * d = 0 := by linear_combination e - e'
      exact (mul_eq_zero.1 this).resolve_right hd0
    exact ⟨key _ _ _ d1 t1, key _ _ _ d2 t2, key _ _ _ d3 t3⟩
  have := soResid_zero A hA "CCD" hz p hp q hq r hr s hs
  simpa [soResid, qfWeights] using this

omit hD hA hf

/-! ### a case -/

/-- Two electrons in two orbitals, with amplitudes that solve the CCD equations and a correlation energy of 1. -/
def stationary : SI ℕ ℚ where
  f_aa p q := if p = q then -2 * p else 0
  f_bb p q := if p = q then -2 * p else 0
  g_abab p q r s := 1 + (p + r) * (q + s)
  t2_abab _ _ _ _ := 1

def DS : Nat → Finset ℕ
  | 0 => {0}
  | _ => {1}

theorem stationary_sym : stationary.Sym := by
  constructor <;> intros <;> simp only [stationary, neg_zero] <;> first | ring1 | (split_ifs <;> simp_all)

theorem stationary_fix : SameSlices DS (residMain DS "CCD" (fun _ _ _ _ => -1) (fun _ _ _ _ => -1) (fun _ _ _ _ => -1)
    stationary) stationary := by
  refine ⟨rfl, rfl, rfl, rfl, rfl, fun a b i j ha hb hi hj => ?_⟩
  simp only [DS, Finset.mem_singleton] at ha hb hi hj
  subst ha hb hi hj
  have r1 : ccd_t2_aaaa DS stationary 1 1 0 0 = 0 := by decide +kernel
  have r2 : ccd_t2_abab DS stationary 1 1 0 0 = 0 := by decide +kernel
  have r3 : ccd_t2_bbbb DS stationary 1 1 0 0 = 0 := by decide +kernel
  simp [residMain, resid_aaaa, resid_abab, resid_bbbb, qfWeights, r1, r2, r3]

example (B : Type) [Ring B] [Algebra ℚ B] (F : Fermi (ℕ × Bool) ℚ B (spinD DS)) (h : ℕ × Bool → ℕ × Bool → ℚ)
    (hf : IsFock (spinD DS) h stationary.so.f stationary.so.g) :
    F.ω (F.bra2 (1, true) (1, false) (0, false) (0, true) * hbar F h stationary.so.g 3 (F.T2 stationary.so.t2)) = 0 :=
  (C79_ccd_stationary F (by decide) stationary stationary_sym h hf _ _ _ (by simp) stationary_fix 3 (by norm_num)).1
    _ (by decide) _ (by decide) _ (by decide) _ (by decide)

example : ccd_energy_with_spin DS stationary = 1 := by decide +kernel

end Verif.Props
