import Verif.Props.Weak
import Verif.Props.XccdBase
import Verif.Props.SpinCcd
import Verif.Props.Units
import Verif.Lemmas.Corrections

namespace Verif.Props

open Verif.Ein Verif.UT2 Verif.Kernel Verif.Whole Verif.Weak
open Verif.Wick (InBox)

section energy

variable {I K : Type} [Field K] [CharZero K] [DecidableEq I] [Inhabited I] (D : Nat → Finset I)

/-- The blocks of the amplitudes contracted with the blocks of the first factorised-quadruples residual. -/
def dotQf1 (A : SI I K) : K :=
  ∑ i ∈ D 0, ∑ j ∈ D 0, ∑ a ∈ D 1, ∑ b ∈ D 1,
    (1 / 4 * (A.t2_aaaa a b i j * residQf1_aaaa D A a b i j) + A.t2_abab a b i j * residQf1_abab D A a b i j +
      1 / 4 * (A.t2_bbbb a b i j * residQf1_bbbb D A a b i j))

omit [DecidableEq I] [CharZero K] [Inhabited I] in
theorem so_l2_dag (A : SI I K) (p q r s : I × Bool) : (set_l2amps A).so.l2 p q r s = (set_l2amps A).so.t2 r s p q := by
  obtain ⟨p, x⟩ := p
  obtain ⟨q, y⟩ := q
  obtain ⟨r, z⟩ := r
  obtain ⟨s, w⟩ := s
  have l := SI.so_l2_mixed (set_l2amps A) p q r s
  have t := SI.so_t2_mixed (set_l2amps A) r s p q
  by_cases h : x.toNat + y.toNat = z.toNat + w.toNat
  · cases x <;> cases y <;> cases z <;> cases w <;> simp only [Bool.toNat_false, Bool.toNat_true] at h <;> try omega
    · exact (SI.so_l2_same _ p q r s).1.trans (SI.so_t2_same (set_l2amps A) r s p q).1.symm
    · exact l.1.trans t.1.symm
    · exact l.2.1.trans t.2.2.1.symm
    · exact l.2.2.1.trans t.2.1.symm
    · exact l.2.2.2.trans t.2.2.2.symm
    · exact (SI.so_l2_same _ p q r s).2.trans (SI.so_t2_same (set_l2amps A) r s p q).2.symm
  · rw [SI.so_l2_zero _ _ _ _ _ _ _ _ _ h, SI.so_t2_zero _ _ _ _ _ _ _ _ _ (Ne.symm h)]

omit [DecidableEq I] [CharZero K] [Inhabited I] in
theorem four_sums (F : I → I → I → I → K) :
    ∑ i ∈ D 0, ∑ j ∈ D 0, ∑ a ∈ D 1, ∑ b ∈ D 1, (F a b i j + F a b j i + F b a i j + F b a j i) =
      4 * ∑ i ∈ D 0, ∑ j ∈ D 0, ∑ a ∈ D 1, ∑ b ∈ D 1, F a b i j := by
  simp only [Finset.sum_add_distrib]
  have e1 : ∑ i ∈ D 0, ∑ j ∈ D 0, ∑ a ∈ D 1, ∑ b ∈ D 1, F a b j i = ∑ i ∈ D 0, ∑ j ∈ D 0, ∑ a ∈ D 1, ∑ b ∈ D 1, F a b i j := Finset.sum_comm
  have e2 : ∑ i ∈ D 0, ∑ j ∈ D 0, ∑ a ∈ D 1, ∑ b ∈ D 1, F b a i j = ∑ i ∈ D 0, ∑ j ∈ D 0, ∑ a ∈ D 1, ∑ b ∈ D 1, F a b i j :=
    Finset.sum_congr rfl fun i _ => Finset.sum_congr rfl fun j _ => Finset.sum_comm
  have e3 : ∑ i ∈ D 0, ∑ j ∈ D 0, ∑ a ∈ D 1, ∑ b ∈ D 1, F b a j i = ∑ i ∈ D 0, ∑ j ∈ D 0, ∑ a ∈ D 1, ∑ b ∈ D 1, F a b i j :=
    Finset.sum_comm.trans e2
  rw [e1, e2, e3]
  ring

/-- The (Qf) energy is the contraction of the amplitudes with `residQf1`. -/
theorem pertQf_dot (hD : Disjoint (D 0) (D 1)) (A : SI I K) (hA : A.Sym) :
    si_energy_pertQf D (set_l2amps A) = dotQf1 D (set_l2amps A) := by
  set B := set_l2amps A with hB
  have hS : B.Sym := set_l2amps_sym _ hA
  have hl : ∀ i j a b, B.so.l2 i j a b = B.so.t2 a b i j := fun i j a b => so_l2_dag A i j a b
  have hw : withDag B.so = B.so := by
    have : B.so.l2 = fun i j a b => B.so.t2 a b i j := by funext i j a b; exact hl i j a b
    unfold withDag
    rw [← this]
  have e5 : build_XCCDbase (spinD D) B.so 5 = some fun a b i j => 1 / 8 * capDag (spinD D) B.so (xccd5_t4 (spinD D) B.so) a b i j := rfl
  have e := C78_energy5_pertQf (spinD_disjoint hD) B.so hS.so (fun _ _ _ _ => 0)
  have r : ∀ a ∈ spinD D 1, ∀ b ∈ spinD D 1, ∀ i ∈ spinD D 0, ∀ j ∈ spinD D 0,
      1 / 8 * capDag (spinD D) B.so (xccd5_t4 (spinD D) B.so) a b i j = 1 / 2 * residQf1 (spinD D) B.so a b i j := by
    intro a ha b hb i hi j hj
    have h := C78_order5_residQf1 (spinD_disjoint hD) B.so hS.so a b i j ha hb hi hj
    rw [e5, hw] at h
    simpa using h
  rw [hw, ← C35_qf_energy D B hS, buildXCCD_T2energy, e5] at e
  simp only [Option.map_some, Option.some.injEq, t2_dag1, Bool.false_eq_true, if_false] at e
  have e' : si_energy_pertQf D B = 1 / 4 * ∑ i ∈ spinD D 0, ∑ j ∈ spinD D 0, ∑ a ∈ spinD D 1, ∑ b ∈ spinD D 1, B.so.t2 a b i j * residQf1 (spinD D) B.so a b i j := by
    have k : ∑ i ∈ spinD D 0, ∑ j ∈ spinD D 0, ∑ a ∈ spinD D 1, ∑ b ∈ spinD D 1, B.so.t2 a b i j * (1 / 8 * capDag (spinD D) B.so (xccd5_t4 (spinD D) B.so) a b i j) =
        1 / 2 * ∑ i ∈ spinD D 0, ∑ j ∈ spinD D 0, ∑ a ∈ spinD D 1, ∑ b ∈ spinD D 1, B.so.t2 a b i j * residQf1 (spinD D) B.so a b i j := by
      simp only [Finset.mul_sum]
      refine Finset.sum_congr rfl fun i hi => Finset.sum_congr rfl fun j hj => Finset.sum_congr rfl fun a ha => Finset.sum_congr rfl fun b hb => ?_
      rw [r a ha b hb i hi j hj]
      ring
    rw [k] at e
    linear_combination -2 * e
  rw [e']
  have anti : Anti4 (residQf1 (spinD D) B.so) :=
    anti4_of_isZero (spinD D) B.so.T hS.so.holds Cert.residQf1_anti0 Cert.residQf1_anti1 (by decide +kernel) rfl
  have q := fun a b i j => C36_qf1_residual D B hS a b i j
  have split : ∀ f : I × Bool → I × Bool → I × Bool → I × Bool → K,
      ∑ i ∈ spinD D 0, ∑ j ∈ spinD D 0, ∑ a ∈ spinD D 1, ∑ b ∈ spinD D 1, f a b i j =
      ∑ i ∈ D 0, ∑ j ∈ D 0, ∑ a ∈ D 1, ∑ b ∈ D 1, ∑ x : Bool, ∑ y : Bool, ∑ z : Bool, ∑ w : Bool, f (a, x) (b, y) (i, z) (j, w) := by
    intro f
    simp only [spinD, Finset.sum_product, Fintype.sum_bool, Finset.sum_add_distrib]
    abel
  rw [split]
  have term : ∀ i j a b : I, ∑ x : Bool, ∑ y : Bool, ∑ z : Bool, ∑ w : Bool,
      B.so.t2 (a, x) (b, y) (i, z) (j, w) * residQf1 (spinD D) B.so (a, x) (b, y) (i, z) (j, w) =
      B.t2_aaaa a b i j * residQf1_aaaa D B a b i j + B.t2_bbbb a b i j * residQf1_bbbb D B a b i j +
      (B.t2_abab a b i j * residQf1_abab D B a b i j + B.t2_abab a b j i * residQf1_abab D B a b j i +
        B.t2_abab b a i j * residQf1_abab D B b a i j + B.t2_abab b a j i * residQf1_abab D B b a j i) := by
    intro i j a b
    simp only [Fintype.sum_bool]
    obtain ⟨s1, s2⟩ := SI.so_t2_same B a b i j
    obtain ⟨m1, m2, m3, m4⟩ := SI.so_t2_mixed B a b i j
    rw [s1, s2, m1, m2, m3, m4, (q a b i j).1, (q a b i j).2.2, (q a b i j).2.1, (q a b j i).2.1, (q b a i j).2.1, (q b a j i).2.1]
    simp (discharger := decide) only [SI.so_t2_zero]
    have h1 := anti.last (a, false) (b, true) (i, true) (j, false)
    have h2 := anti.first (a, true) (b, false) (i, false) (j, true)
    have h3 : residQf1 (spinD D) B.so (a, true) (b, false) (i, true) (j, false) = residQf1 (spinD D) B.so (b, false) (a, true) (j, false) (i, true) := by
      rw [anti.first (b, false) (a, true) (i, true) (j, false), anti.last (b, false) (a, true) (j, false) (i, true), neg_neg]
    rw [h1, h2, h3]
    ring
  simp only [term]
  have f4 := four_sums D fun a b i j => B.t2_abab a b i j * residQf1_abab D B a b i j
  unfold dotQf1
  simp only [Finset.sum_add_distrib] at f4 ⊢
  simp only [← Finset.mul_sum]
  linear_combination 1 / 4 * f4

end energy

section vectors

variable {I : Type} [DecidableEq I] [Inhabited I] (D : Nat → Finset I)

/-- The three blocks of the first correction. -/
noncomputable def qf1Block (A : SI I ℝ) (k : Fin 3) (a b i j : I) : ℝ :=
  if k = 0 then residQf1_aaaa D A a b i j else if k = 1 then residQf1_bbbb D A a b i j else residQf1_abab D A a b i j

/-- The three blocks of the second correction. -/
noncomputable def qf2Block (A : SI I ℝ) (k : Fin 3) (a b i j : I) : ℝ :=
  if k = 0 then residQf2_aaaa D A a b i j else if k = 1 then residQf2_bbbb D A a b i j else residQf2_abab D A a b i j

/-- What the first correction adds to the vector of a pass. -/
noncomputable def corr1 (ε : I × Bool → ℝ) (A : SI I ℝ) (v : Slot D → ℝ) : Slot D → ℝ :=
  fun ⟨k, a, b, i, j⟩ => qf1Block D (atVec D A v) k a b i j * denBlock ε k a b i j

/-- What the second correction adds. -/
noncomputable def corr2 (ε : I × Bool → ℝ) (A : SI I ℝ) (v : Slot D → ℝ) : Slot D → ℝ :=
  fun ⟨k, a, b, i, j⟩ => qf2Block D (atVec D A v) k a b i j * denBlock ε k a b i j

omit [Inhabited I] in
theorem fill_smul (k : Fin 3) (x : I → I → I → I → ℝ) (hx : x = 0) (r : ℝ) (v : Slot D → ℝ) (a b i j : I) :
    fill D (r • v) k x a b i j = r * fill D v k x a b i j := by
  subst hx
  unfold fill
  split
  · rfl
  · exact (mul_zero r).symm

omit [Inhabited I] in
/-- A multiple of the vector. -/
theorem atVec_smul (A : SI I ℝ) (hz : A.t2_aaaa = 0 ∧ A.t2_bbbb = 0 ∧ A.t2_abab = 0) (r : ℝ) (v : Slot D → ℝ) :
    (∀ t ∉ [32, 33, 34, 64, 65, 66], ∀ l, (atVec D A (r • v)).T t l = (atVec D A v).T t l) ∧
    ∀ t ∈ [32, 33, 34, 64, 65, 66], ∀ l, (atVec D A (r • v)).T t l = r * (atVec D A v).T t l := by
  constructor
  · intro t ht l
    simp only [List.mem_cons, List.not_mem_nil, or_false, not_or] at ht
    unfold SI.T atVec set_l2amps unpack
    simp only [ht, if_false]
  · intro t ht l
    simp only [List.mem_cons, List.not_mem_nil, or_false] at ht
    have f0 := fill_smul D 0 _ hz.1 r v
    have f1 := fill_smul D 1 _ hz.2.1 r v
    have f2 := fill_smul D 2 _ hz.2.2 r v
    rcases ht with rfl | rfl | rfl | rfl | rfl | rfl
    all_goals
      match l with
      | [p, q, x, s] => first | exact f0 _ _ _ _ | exact f1 _ _ _ _ | exact f2 _ _ _ _
      | [] | [_] | [_, _] | [_, _, _] | _ :: _ :: _ :: _ :: _ :: _ => exact (mul_zero _).symm

theorem qf1Block_tame (A : SI I ℝ) (k : Fin 3) (a b i j : I) : Tame fun v => qf1Block D (atVec D A v) k a b i j := by
  have e := fun P => Prog.eval_tame D (fun v => (atVec D A v).T) (atVec_T_tame D A) P [a, b, i, j]
  unfold qf1Block
  split
  · exact e Gen.residQf1_aaaa
  · split
    · exact e Gen.residQf1_bbbb
    · exact e Gen.residQf1_abab

theorem qf2Block_tame (A : SI I ℝ) (k : Fin 3) (a b i j : I) : Tame fun v => qf2Block D (atVec D A v) k a b i j := by
  have e := fun P => Prog.eval_tame D (fun v => (atVec D A v).T) (atVec_T_tame D A) P [a, b, i, j]
  unfold qf2Block
  split
  · exact e Gen.residQf2_aaaa
  · split
    · exact e Gen.residQf2_bbbb
    · exact e Gen.residQf2_abab

/-- The first correction has degree three in the amplitudes, the second degree four, the (Qf) energy degree four. -/
theorem qf_degree (A : SI I ℝ) (hz : A.t2_aaaa = 0 ∧ A.t2_bbbb = 0 ∧ A.t2_abab = 0) (r : ℝ) (v : Slot D → ℝ) :
    (∀ k a b i j, qf1Block D (atVec D A (r • v)) k a b i j = r ^ 3 * qf1Block D (atVec D A v) k a b i j) ∧
    (∀ k a b i j, qf2Block D (atVec D A (r • v)) k a b i j = r ^ 4 * qf2Block D (atVec D A v) k a b i j) ∧
    si_energy_pertQf D (atVec D A (r • v)) = r ^ 4 * si_energy_pertQf D (atVec D A v) := by
  obtain ⟨h1, h2⟩ := atVec_smul D A hz r v
  have e := fun P n h xs => Prog.eval_scaled D h1 h2 P n h xs
  refine ⟨fun k a b i j => ?_, fun k a b i j => ?_, e Gen.si_energy_pertQf 4 (by decide +kernel) []⟩
  · unfold qf1Block
    split
    · exact e Gen.residQf1_aaaa 3 (by decide +kernel) _
    · split
      · exact e Gen.residQf1_bbbb 3 (by decide +kernel) _
      · exact e Gen.residQf1_abab 3 (by decide +kernel) _
  · unfold qf2Block
    split
    · exact e Gen.residQf2_aaaa 4 (by decide +kernel) _
    · split
      · exact e Gen.residQf2_bbbb 4 (by decide +kernel) _
      · exact e Gen.residQf2_abab 4 (by decide +kernel) _

omit [DecidableEq I] in
theorem residBlock_qf (name : String) (A : SI I ℝ) (k : Fin 3) (a b i j : I) : residBlock D name A k a b i j =
    residBlock D "CCD" A k a b i j + ((qfWeights name).1 : ℝ) * qf1Block D A k a b i j + ((qfWeights name).2 : ℝ) * qf2Block D A k a b i j := by
  have w : qfWeights "CCD" = (0, 0) := by decide +kernel
  unfold residBlock qf1Block qf2Block resid_aaaa resid_bbbb resid_abab
  rw [w]
  split
  · push_cast; ring
  · split <;> (push_cast; ring)

omit [DecidableEq I] in
theorem qf_free (A : SI I ℝ) (k : Fin 3) (a b i j : I) : qf1Block D (scaleG 0 A) k a b i j = 0 ∧ qf2Block D (scaleG 0 A) k a b i j = 0 := by
  have z := fun P hP => (Prog.eval_scaled D (scaleG_T 0 A).1 (scaleG_T 0 A).2 P 1 hP [a, b, i, j]).trans (by rw [pow_one, zero_mul])
  unfold qf1Block qf2Block
  constructor
  · split
    · exact z Gen.residQf1_aaaa (by decide +kernel)
    · split
      · exact z Gen.residQf1_bbbb (by decide +kernel)
      · exact z Gen.residQf1_abab (by decide +kernel)
  · split
    · exact z Gen.residQf2_aaaa (by decide +kernel)
    · split
      · exact z Gen.residQf2_bbbb (by decide +kernel)
      · exact z Gen.residQf2_abab (by decide +kernel)

/-- The interaction part of a method is that of CCD and the weighted corrections. -/
theorem interaction_qf (name : String) (ε : I × Bool → ℝ) (A : SI I ℝ) (v : Slot D → ℝ) :
    interaction D name ε A v = interaction D "CCD" ε A v + ((qfWeights name).1 : ℝ) • corr1 D ε A v + ((qfWeights name).2 : ℝ) • corr2 D ε A v := by
  funext ⟨k, a, b, i, j⟩
  obtain ⟨z1, z2⟩ := qf_free D (atVec D A v) k a b i j
  simp only [interaction, Pi.add_apply, Pi.smul_apply, smul_eq_mul, corr1, corr2]
  rw [residBlock_qf D name (atVec D A v), residBlock_qf D name (scaleG 0 (atVec D A v)), z1, z2]
  ring

omit [Inhabited I] in
theorem pairing_add (A : SI I ℝ) (v w : Slot D → ℝ) : pairing D A (v + w) = pairing D A v + pairing D A w := by
  unfold pairing
  simp only [← Finset.sum_add_distrib]
  refine Finset.sum_congr rfl fun a ha => Finset.sum_congr rfl fun b hb => Finset.sum_congr rfl fun i hi => Finset.sum_congr rfl fun j hj => ?_
  simp only [fill_mem D _ _ _ a b i j ha hb hi hj, Pi.add_apply]
  ring

omit [DecidableEq I] [Inhabited I] in
theorem sum4_const (F : I → I → I → I → ℝ) (B : ℝ) (h : ∀ a ∈ D 1, ∀ b ∈ D 1, ∀ i ∈ D 0, ∀ j ∈ D 0, |F a b i j| ≤ B) :
    |∑ a ∈ D 1, ∑ b ∈ D 1, ∑ i ∈ D 0, ∑ j ∈ D 0, F a b i j| ≤ (D 1).card * ((D 1).card * ((D 0).card * ((D 0).card * B))) := by
  have s : ∀ (S : Finset I) (G : I → ℝ) (C : ℝ), (∀ x ∈ S, |G x| ≤ C) → |∑ x ∈ S, G x| ≤ S.card * C := fun S G C hG =>
    (Finset.abs_sum_le_sum_abs _ _).trans ((Finset.sum_le_card_nsmul _ _ _ hG).trans (le_of_eq (nsmul_eq_mul _ _)))
  exact s _ _ _ fun a ha => s _ _ _ fun b hb => s _ _ _ fun i hi => s _ _ _ fun j hj => h a ha b hb i hi j hj

/-- The (Qf) energy of a vector and the energy that the first correction adds differ by how far the vector is from the first amplitudes. -/
theorem qf_dot (hD : Disjoint (D 0) (D 1)) (ε : I × Bool → ℝ) (A : SI I ℝ) (hA : A.Sym) (hz : A.t2_aaaa = 0 ∧ A.t2_bbbb = 0 ∧ A.t2_abab = 0) :
    ∃ C, 0 ≤ C ∧ ∀ c : ℝ, ∀ r : ℝ, 0 ≤ r → ∀ v ∈ (antiVec D : Set (Slot D → ℝ)), ‖v‖ ≤ r →
      |si_energy_pertQf D (atVec D A v) - c * pairing D A (corr1 D ε A v)| ≤ C * r ^ 3 * ‖v - c • interaction D "CCD" ε A 0‖ := by
  obtain ⟨C, h0, h⟩ := Tame.homogeneous (fun (s : Slot D) v => qf1Block D (atVec D A v) s.1 s.2.1 s.2.2.1 s.2.2.2.1 s.2.2.2.2)
    (fun s => qf1Block_tame D A _ _ _ _ _) 2 fun s r v => (qf_degree D A hz r v).1 _ _ _ _ _
  refine ⟨(D 1).card * ((D 1).card * ((D 0).card * ((D 0).card * (2 * C)))), by positivity, fun c r hr v hv hvr => ?_⟩
  set u := v - c • interaction D "CCD" ε A 0 with hu
  rw [show si_energy_pertQf D (atVec D A v) = dotQf1 D (atVec D A v) from pertQf_dot D hD _ (unpack_sym D v hv A hA)]
  have e : dotQf1 D (atVec D A v) - c * pairing D A (corr1 D ε A v) = ∑ a ∈ D 1, ∑ b ∈ D 1, ∑ i ∈ D 0, ∑ j ∈ D 0,
      (1 / 4 * (fill D u 0 0 a b i j * qf1Block D (atVec D A v) 0 a b i j) + fill D u 2 0 a b i j * qf1Block D (atVec D A v) 2 a b i j +
        1 / 4 * (fill D u 1 0 a b i j * qf1Block D (atVec D A v) 1 a b i j)) := by
    have sw : dotQf1 D (atVec D A v) = ∑ a ∈ D 1, ∑ b ∈ D 1, ∑ i ∈ D 0, ∑ j ∈ D 0,
        (1 / 4 * ((atVec D A v).t2_aaaa a b i j * residQf1_aaaa D (atVec D A v) a b i j) + (atVec D A v).t2_abab a b i j * residQf1_abab D (atVec D A v) a b i j +
          1 / 4 * ((atVec D A v).t2_bbbb a b i j * residQf1_bbbb D (atVec D A v) a b i j)) := by
      unfold dotQf1
      simp only [← Finset.sum_product']
      refine Finset.sum_bij' (fun x _ => (x.2.2.1, x.2.2.2, x.1, x.2.1)) (fun x _ => (x.2.2.1, x.2.2.2, x.1, x.2.1)) ?_ ?_ ?_ ?_ ?_ <;>
        simp +contextual [Finset.mem_product]
    rw [sw]
    unfold pairing
    simp only [Finset.mul_sum, ← Finset.sum_sub_distrib]
    refine Finset.sum_congr rfl fun a ha => Finset.sum_congr rfl fun b hb => Finset.sum_congr rfl fun i hi => Finset.sum_congr rfl fun j hj => ?_
    obtain ⟨e1, e2, e3⟩ := interaction_zero D "CCD" ε A hz ha hb hi hj
    have t1 : (atVec D A v).t2_aaaa a b i j = v (0, ⟨a, ha⟩, ⟨b, hb⟩, ⟨i, hi⟩, ⟨j, hj⟩) := fill_mem D v 0 _ a b i j ha hb hi hj
    have t2 : (atVec D A v).t2_bbbb a b i j = v (1, ⟨a, ha⟩, ⟨b, hb⟩, ⟨i, hi⟩, ⟨j, hj⟩) := fill_mem D v 1 _ a b i j ha hb hi hj
    have t3 : (atVec D A v).t2_abab a b i j = v (2, ⟨a, ha⟩, ⟨b, hb⟩, ⟨i, hi⟩, ⟨j, hj⟩) := fill_mem D v 2 _ a b i j ha hb hi hj
    rw [t1, t2, t3]
    simp only [fill_mem D _ _ _ a b i j ha hb hi hj, hu, Pi.sub_apply, Pi.smul_apply, smul_eq_mul, e1, e2, e3, corr1]
    have q0 : qf1Block D (atVec D A v) 0 a b i j = residQf1_aaaa D (atVec D A v) a b i j := rfl
    have q1 : qf1Block D (atVec D A v) 1 a b i j = residQf1_bbbb D (atVec D A v) a b i j := rfl
    have q2 : qf1Block D (atVec D A v) 2 a b i j = residQf1_abab D (atVec D A v) a b i j := rfl
    have d0 : denBlock ε 0 a b i j = den_aa ε a b i j := rfl
    have d1 : denBlock ε 1 a b i j = den_bb ε a b i j := rfl
    have d2 : denBlock ε 2 a b i j = den_ab ε a b i j := rfl
    rw [q0, q1, q2, d0, d1, d2, hA.g_aaaa_herm a b i j, hA.g_abab_herm a b i j, hA.g_bbbb_herm a b i j]
    ring
  rw [e]
  refine (sum4_const D _ (2 * C * r ^ 3 * ‖u‖) fun a ha b hb i hi j hj => ?_).trans (le_of_eq (by ring))
  have t : ∀ k : Fin 3, |fill D u k 0 a b i j * qf1Block D (atVec D A v) k a b i j| ≤ C * r ^ 3 * ‖u‖ := fun k => by
    rw [fill_mem D _ _ _ a b i j ha hb hi hj, abs_mul, mul_comm]
    exact mul_le_mul (h (k, ⟨a, ha⟩, ⟨b, hb⟩, ⟨i, hi⟩, ⟨j, hj⟩) r v v hr hvr hvr).1 (norm_le_pi_norm u _) (abs_nonneg _) (by positivity)
  have q : |(1 / 4 : ℝ)| = 1 / 4 := abs_of_pos (by norm_num)
  refine (abs_add_le _ _).trans ((add_le_add_left (abs_add_le _ _) _).trans ?_)
  rw [abs_mul, abs_mul (1 / 4 : ℝ), q]
  have n : 0 ≤ C * r ^ 3 * ‖u‖ := by positivity
  linarith only [t 0, t 1, t 2, n]

/-! ## the orders -/

/-- Amplitudes of first-order perturbation theory. -/
noncomputable def firstAmps (ε : I × Bool → ℝ) (A : SI I ℝ) : SI I ℝ :=
  { A with
    t2_aaaa := fun a b i j => A.g_aaaa a b i j / (ε (i, false) + ε (j, false) - ε (a, false) - ε (b, false))
    t2_bbbb := fun a b i j => A.g_bbbb a b i j / (ε (i, true) + ε (j, true) - ε (a, true) - ε (b, true))
    t2_abab := fun a b i j => A.g_abab a b i j / (ε (i, false) + ε (j, true) - ε (a, false) - ε (b, true)) }

/-- The (Qf) energy of the first-order amplitudes. -/
noncomputable def qfLeading (ε : I × Bool → ℝ) (A : SI I ℝ) : ℝ := si_energy_pertQf D (set_l2amps (firstAmps ε A))

omit [DecidableEq I] in
theorem pertQf_same {A B : SI I ℝ} (h : SameSlicesL D A B) : si_energy_pertQf D A = si_energy_pertQf D B :=
  Prog.eval_local D _ _ _ qfFacSi (by decide +kernel) h.T [] (by decide +kernel) [] List.Forall₂.nil

theorem qfLeading_eq (ε : I × Bool → ℝ) (A : SI I ℝ) (hz : A.t2_aaaa = 0 ∧ A.t2_bbbb = 0 ∧ A.t2_abab = 0) :
    si_energy_pertQf D (atVec D A (interaction D "CCD" ε A 0)) = qfLeading D ε A := by
  have k : ∀ a b i j, a ∈ D 1 → b ∈ D 1 → i ∈ D 0 → j ∈ D 0 →
      (atVec D A (interaction D "CCD" ε A 0)).t2_aaaa a b i j = (firstAmps ε A).t2_aaaa a b i j ∧
      (atVec D A (interaction D "CCD" ε A 0)).t2_abab a b i j = (firstAmps ε A).t2_abab a b i j ∧
      (atVec D A (interaction D "CCD" ε A 0)).t2_bbbb a b i j = (firstAmps ε A).t2_bbbb a b i j := by
    intro a b i j ha hb hi hj
    obtain ⟨e1, e2, e3⟩ := interaction_zero D "CCD" ε A hz ha hb hi hj
    refine ⟨(fill_mem D _ 0 _ a b i j ha hb hi hj).trans (e1.trans ?_), (fill_mem D _ 2 _ a b i j ha hb hi hj).trans (e3.trans ?_),
      (fill_mem D _ 1 _ a b i j ha hb hi hj).trans (e2.trans ?_)⟩
    all_goals
      simp only [firstAmps, den_aa, den_bb, den_ab, den]
      ring
  exact pertQf_same D ⟨⟨rfl, rfl, rfl, rfl, rfl, k⟩, fun i j a b hi hj ha hb => k a b i j ha hb hi hj⟩

/-- **C95** The orders of the factorised-quadruples corrections. For weak interaction `c`: the (Qf) energy that "CCD(Qf)" adds is `c⁵ Q`, the energy that
"CCDQf-1" adds to CCD is half of this, and "CCDQf-2" adds nothing more, all up to the sixth order in `c`. -/
theorem C95_orders (ε : I × Bool → ℝ) (A : SI I ℝ) (hA : A.Sym) (hz : A.t2_aaaa = 0 ∧ A.t2_bbbb = 0 ∧ A.t2_abab = 0)
    (hf : DiagonalFock D ε A) (hg : Gap D ε) :
    ∃ C, 0 < C ∧ ∀ c : ℝ, |c| * C ≤ 1 → ∀ X Y Z, SmallSolution D "CCD" (scaleG c A) X → SmallSolution D "CCDQf-1" (scaleG c A) Y →
      SmallSolution D "CCDQf-2" (scaleG c A) Z →
      |si_energy_pertQf D (set_l2amps X) - c ^ 5 * qfLeading D ε A| ≤ C * |c| ^ 6 ∧
      |ccd_energy_with_spin D Y - ccd_energy_with_spin D X - 1 / 2 * si_energy_pertQf D (set_l2amps X)| ≤ C * |c| ^ 6 ∧
      |ccd_energy_with_spin D Z - ccd_energy_with_spin D Y| ≤ C * |c| ^ 6 := by
  have hD : Disjoint (D 0) (D 1) := Finset.disjoint_left.2 fun x h0 h1 => lt_irrefl _ (hg false x h0 x h1)
  have deg := qf_degree D A hz
  obtain ⟨C, h0, h⟩ := corrections (interaction D "CCD" ε A) (corr1 D ε A) (corr2 D ε A) (interaction_tame D "CCD" ε A)
    (fun ⟨k, a, b, i, j⟩ => (qf1Block_tame D A k a b i j).mul (Tame.const _)) (fun ⟨k, a, b, i, j⟩ => (qf2Block_tame D A k a b i j).mul (Tame.const _))
    (fun r v => by
      funext ⟨k, a, b, i, j⟩
      simp only [corr1, Pi.smul_apply, smul_eq_mul]
      rw [(deg r v).1]; ring)
    (fun r v => by
      funext ⟨k, a, b, i, j⟩
      simp only [corr2, Pi.smul_apply, smul_eq_mul]
      rw [(deg r v).2.1]; ring)
    (pairing D A) (fun v => si_energy_pertQf D (atVec D A v)) (pairing_tame D A) (fun r v => pairing_smul D A r v) (fun v w => pairing_add D A v w)
    (Prog.eval_tame D (fun v => (atVec D A v).T) (atVec_T_tame D A) Gen.si_energy_pertQf []) (fun r v => (deg r v).2.2) (antiVec D) (qf_dot D hD ε A hA hz)
  refine ⟨C, h0, fun c hc X Y Z hX hY hZ => ?_⟩
  have hold : ∀ {name X}, SmallSolution D name (scaleG c A) X → Holds D A c (pack D X) X ∧ ‖pack D X‖ ≤ 1 ∧ c • interaction D name ε A (pack D X) = pack D X := by
    intro name X hX
    have H : Holds D A c (pack D X) X := ⟨hX.sym, same_of_pack D hX.f_aa hX.f_bb hX.g_aaaa hX.g_abab hX.g_bbbb (pack_unpack D _ _).symm⟩
    refine ⟨H, (norm_le_one D).2 ?_, (H.fixed name hA hf (hg.den D)).2 ?_⟩
    · rintro ⟨k, ⟨a, ha⟩, ⟨b, hb⟩, ⟨i, hi⟩, ⟨j, hj⟩⟩
      exact hX.small k a ha b hb i hi j hj
    · intro k a ha b hb i hi j hj
      obtain ⟨e1, e2, e3⟩ := hX.solves a ha b hb i hi j hj
      fin_cases k
      exacts [e1, e2, e3]
  obtain ⟨HX, nX, fX⟩ := hold hX
  obtain ⟨HY, nY, fY⟩ := hold hY
  obtain ⟨HZ, nZ, fZ⟩ := hold hZ
  rw [interaction_qf, show qfWeights "CCDQf-1" = (1 / 2, 0) by decide +kernel] at fY
  rw [interaction_qf, show qfWeights "CCDQf-2" = (1 / 2, 1 / 6) by decide +kernel] at fZ
  push_cast at fY fZ
  rw [zero_smul, add_zero] at fY
  obtain ⟨b1, b2, b3⟩ := h c hc _ _ _ HX.anti nX nY nZ fX fY fZ
  have eP : si_energy_pertQf D (set_l2amps X) = c * si_energy_pertQf D (atVec D A (pack D X)) := by
    have hs : SameSlicesL D (set_l2amps X) (scaleG c (atVec D A (pack D X))) :=
      { f_aa := HX.2.f_aa, f_bb := HX.2.f_bb, g_aaaa := HX.2.g_aaaa, g_abab := HX.2.g_abab, g_bbbb := HX.2.g_bbbb, t2 := HX.2.t2
        l2 := fun i j a b hi hj ha hb => HX.2.t2 a b i j ha hb hi hj }
    rw [pertQf_same D hs]
    have := Prog.eval_scaled D (scaleG_T c (atVec D A (pack D X))).1 (scaleG_T c _).2 Gen.si_energy_pertQf 1 (by decide +kernel) []
    rwa [pow_one] at this
  rw [qfLeading_eq D ε A hz] at b1
  have six : C * |c| ^ 6 = |c| * (C * |c| ^ 5) := by ring
  have c0 := abs_nonneg c
  rw [eP, HX.energy, HY.energy, HZ.energy, six]
  refine ⟨?_, ?_, ?_⟩
  · rw [show c * si_energy_pertQf D (atVec D A (pack D X)) - c ^ 5 * qfLeading D ε A =
      c * (si_energy_pertQf D (atVec D A (pack D X)) - c ^ 4 * qfLeading D ε A) by ring, abs_mul]
    exact mul_le_mul_of_nonneg_left b1 c0
  · rw [show bareEnergy D (scaleG c A) + c * pairing D A (pack D Y) - (bareEnergy D (scaleG c A) + c * pairing D A (pack D X)) -
      1 / 2 * (c * si_energy_pertQf D (atVec D A (pack D X))) =
      c * (pairing D A (pack D Y) - pairing D A (pack D X) - 1 / 2 * si_energy_pertQf D (atVec D A (pack D X))) by ring, abs_mul]
    exact mul_le_mul_of_nonneg_left b2 c0
  · rw [add_sub_add_left_eq_sub, ← mul_sub, abs_mul]
    exact mul_le_mul_of_nonneg_left b3 c0

/-- Whether the energies of "CCD(Qf)" and "CCDQf-1" agree through fifth order. -/
def AgreeFifth (A : SI I ℝ) : Prop :=
  ∃ C, 0 < C ∧ ∀ c : ℝ, |c| * C ≤ 1 → ∀ X Y, SmallSolution D "CCD" (scaleG c A) X → SmallSolution D "CCDQf-1" (scaleG c A) Y →
    |ccd_energy_with_spin D X + si_energy_pertQf D (set_l2amps X) - ccd_energy_with_spin D Y| ≤ C * |c| ^ 6

/-- **C95** They agree through fifth order only where the leading (Qf) energy vanishes. -/
theorem C95_agree_iff (ε : I × Bool → ℝ) (A : SI I ℝ) (hA : A.Sym) (hz : A.t2_aaaa = 0 ∧ A.t2_bbbb = 0 ∧ A.t2_abab = 0)
    (hf : DiagonalFock D ε A) (hg : Gap D ε) : AgreeFifth D A ↔ qfLeading D ε A = 0 := by
  obtain ⟨C, h0, h⟩ := C95_orders D ε A hA hz hf hg
  obtain ⟨C0, p0, s0⟩ := C88_weak_coupling D "CCD" ε A hA hz hf hg
  obtain ⟨C1, p1, s1⟩ := C88_weak_coupling D "CCDQf-1" ε A hA hz hf hg
  obtain ⟨C2, p2, s2⟩ := C88_weak_coupling D "CCDQf-2" ε A hA hz hf hg
  have key : ∀ c : ℝ, |c| * (C + C0 + C1 + C2) ≤ 1 → ∀ X Y, SmallSolution D "CCD" (scaleG c A) X → SmallSolution D "CCDQf-1" (scaleG c A) Y →
      |ccd_energy_with_spin D X + si_energy_pertQf D (set_l2amps X) - ccd_energy_with_spin D Y - 1 / 2 * (c ^ 5 * qfLeading D ε A)| ≤ 2 * C * |c| ^ 6 := by
    intro c hc X Y hX hY
    have c0 := abs_nonneg c
    obtain ⟨Z, hZ, -⟩ := s2 c ((mul_le_mul_of_nonneg_left (by linarith) c0).trans hc)
    obtain ⟨b1, b2, -⟩ := h c ((mul_le_mul_of_nonneg_left (by linarith) c0).trans hc) X Y Z hX hY hZ
    rw [show ccd_energy_with_spin D X + si_energy_pertQf D (set_l2amps X) - ccd_energy_with_spin D Y - 1 / 2 * (c ^ 5 * qfLeading D ε A) =
      1 / 2 * (si_energy_pertQf D (set_l2amps X) - c ^ 5 * qfLeading D ε A) -
        (ccd_energy_with_spin D Y - ccd_energy_with_spin D X - 1 / 2 * si_energy_pertQf D (set_l2amps X)) by ring]
    refine (abs_sub _ _).trans ?_
    rw [abs_mul, abs_of_pos (by norm_num : (0 : ℝ) < 1 / 2)]
    have := abs_nonneg (si_energy_pertQf D (set_l2amps X) - c ^ 5 * qfLeading D ε A)
    linarith
  constructor
  · rintro ⟨C', p', h'⟩
    set N := C + C0 + C1 + C2 + C' with hN
    have hN0 : 0 < N := by linarith
    have bound : ∀ c : ℝ, 0 < c → c * N ≤ 1 → |qfLeading D ε A| ≤ c * (2 * (C' + 2 * C)) := by
      intro c c0 hc
      have ac : |c| = c := abs_of_pos c0
      have le : ∀ x, x ≤ N → |c| * x ≤ 1 := fun x hx => by rw [ac]; exact (mul_le_mul_of_nonneg_left hx c0.le).trans hc
      obtain ⟨X, hX, -⟩ := s0 c (le _ (by linarith))
      obtain ⟨Y, hY, -⟩ := s1 c (le _ (by linarith))
      have k := key c (le _ (by linarith)) X Y hX hY
      have k' := h' c (le _ (by linarith)) X Y hX hY
      rw [ac] at k k'
      rw [abs_le] at k k' ⊢
      have c5 : 0 < c ^ 5 := by positivity
      have e : c ^ 6 = c * c ^ 5 := by ring
      rw [e] at k k'
      constructor
      · refine le_of_mul_le_mul_left ?_ c5
        linarith only [k.1, k.2, k'.1, k'.2]
      · refine le_of_mul_le_mul_left ?_ c5
        linarith only [k.1, k.2, k'.1, k'.2]
    by_contra hne
    have pos := abs_pos.2 hne
    set q := |qfLeading D ε A| with hq
    have := bound (min (1 / N) (q / (4 * (C' + 2 * C)))) (by positivity) (by
      refine (mul_le_mul_of_nonneg_right (min_le_left _ _) hN0.le).trans (le_of_eq ?_)
      field_simp)
    have m := mul_le_mul_of_nonneg_right (min_le_right (1 / N) (q / (4 * (C' + 2 * C)))) (by positivity : 0 ≤ 2 * (C' + 2 * C))
    have e : q / (4 * (C' + 2 * C)) * (2 * (C' + 2 * C)) = q / 2 := by
      have : C' + 2 * C ≠ 0 := by positivity
      field_simp
      ring
    linarith
  · intro hq
    refine ⟨C + C0 + C1 + C2 + 2 * C, by positivity, fun c hc X Y hX hY => ?_⟩
    have c0 := abs_nonneg c
    have k := key c ((mul_le_mul_of_nonneg_left (by linarith) c0).trans hc) X Y hX hY
    rw [hq, mul_zero, mul_zero, sub_zero] at k
    exact k.trans (mul_le_mul_of_nonneg_right (by linarith) (by positivity))

end vectors

/-! ## blocks that vanish -/

section keep

variable {I K : Type} [Field K] (D : Nat → Finset I) [Inhabited I]

/-- Blocks with a factor whose slice is zero contribute nothing. -/
theorem eval_keep (T : Nat → List I → K) (dead : Fac → Bool) (hT : ∀ f, dead f = true → ∀ l : List I, InBox D (f.ix.map sp) l → T f.t l = 0)
    (P : Prog) (ss : List Nat) (ho : P.outSp ss = true) (xs : List I) (hx : InBox D ss xs) :
    P.eval D T xs = Prog.eval D T (P.filter fun b => b.fs.all fun f => !dead f) xs := by
  have zero : ∀ L ρ, sumOver D L (fun _ : Var → I => (0 : K)) ρ = 0 := by
    intro L
    induction L with
    | nil => intro ρ; rfl
    | cons x L ih => intro ρ; simp only [sumOver, ih, Finset.sum_const_zero]
  induction P with
  | nil => rfl
  | cons b P ih =>
    simp only [Prog.outSp, List.all_cons, Bool.and_eq_true] at ho
    have step := ih ho.2
    rw [List.filter_cons]
    cases hb : b.fs.all fun f => !dead f
    · have hz : b.eval D T xs = 0 := by
        rw [Blk.eval_eq]
        refine mul_eq_zero_of_right _ (List.sum_eq_zero fun y hy => ?_)
        obtain ⟨p, hp, rfl⟩ := List.mem_map.1 hy
        refine mul_eq_zero_of_right _ ?_
        unfold raw
        have hw := ho.1
        simp only [List.all_eq_true, decide_eq_true_eq] at hw
        refine (sumOver_range D _ (fun _ => 0) _ (vars b.fs) _ (fun v hv => ?_) fun ρ' hρ => ?_).trans (zero _ _)
        · by_cases hw' : v ∈ p.2
          · exact Or.inr (bind_range D p.2 _ xs (by rw [hw p hp]; exact hx) v (Or.inl hw'))
          · exact Or.inl ((mem_dums _ _ _).2 ⟨hv, hw'⟩)
        · rw [List.all_eq_false] at hb
          obtain ⟨f, hf, hd⟩ := hb
          exact evalFs_dead T b.fs ρ' f hf (hT f (by simpa using hd) _ (inBox_map D ρ' f.ix fun v hv => hρ v (mem_vars_of_fac hf hv)))
      simp only [Bool.false_eq_true, if_false]
      rw [← step]
      unfold Prog.eval
      rw [List.map_cons, List.sum_cons, hz, zero_add]
    · simp only [if_true]
      unfold Prog.eval at step ⊢
      rw [List.map_cons, List.map_cons, List.sum_cons, List.sum_cons, step]

end keep

/-! ## a case with a leading energy -/

/-- Two pairs of electrons that are excited together, and a repulsion between one electron of each pair. -/
def hopB (p q r s : ℕ) : Bool :=
  [(0, 0, 2, 2), (1, 1, 3, 3), (0, 1, 0, 1)].any fun x : ℕ × ℕ × ℕ × ℕ => Nat.beq x.1 p && (Nat.beq x.2.1 q && (Nat.beq x.2.2.1 r && Nat.beq x.2.2.2 s))

/-- The integrals between the two spins. -/
def hop (K : Type) [Zero K] [One K] (p q r s : ℕ) : K := bif hopB p q r s || hopB r s p q then 1 else 0

/-- Orbital energies zero and a half. -/
noncomputable def hopε (x : ℕ × Bool) : ℝ := if x.1 < 2 then 0 else 1 / 2

noncomputable def hopR : SI ℕ ℝ :=
  { f_aa := fun p q => if p = q then hopε (p, false) else 0
    f_bb := fun p q => if p = q then hopε (p, true) else 0
    g_abab := hop ℝ }

theorem hop_herm (K : Type) [Zero K] [One K] (p q r s : ℕ) : hop K p q r s = hop K r s p q := by
  unfold hop
  rw [Bool.or_comm]

theorem hopR_sym : hopR.Sym := by
  constructor <;> intros
  case f_aa_herm p q => by_cases h : p = q; exacts [by rw [h], (if_neg h).trans (if_neg (Ne.symm h)).symm]
  case f_bb_herm p q => by_cases h : p = q; exacts [by rw [h], (if_neg h).trans (if_neg (Ne.symm h)).symm]
  all_goals first | exact neg_zero.symm | exact hop_herm ℝ _ _ _ _ | rfl

theorem hop_gap : Gap Witness.D hopε := by
  intro σ i hi a ha
  have h1 : i < 2 := by simp [Witness.D] at hi; omega
  have h2 : ¬ a < 2 := by simp [Witness.D] at ha; omega
  simp only [hopε, h1, h2, if_true, if_false]
  norm_num

/-- The integrals and the first-order amplitudes, as rational numbers. -/
def hopT (t : Nat) (l : List ℕ) : ℚ :=
  bif Nat.beq t 17 then at4 (hop ℚ) l else bif Nat.beq t 33 || Nat.beq t 65 then at4 (fun p q r s => - hop ℚ p q r s) l else 0

/-- Which of them are not zero. -/
def hopNz (t : Nat) : List ℕ → Bool
  | [p, q, r, s] => (Nat.beq t 17 || (Nat.beq t 33 || Nat.beq t 65)) && (hopB p q r s || hopB r s p q)
  | _ => false

theorem hopNz_ok : ∀ t l, hopNz t l = false → hopT t l = 0 := by
  intro t l h
  match l with
  | [p, q, r, s] =>
    simp only [hopNz] at h
    simp only [hopT, at4, hop]
    cases h1 : Nat.beq t 17 <;> cases h2 : (Nat.beq t 33 || Nat.beq t 65) <;> cases h3 : (hopB p q r s || hopB r s p q) <;> simp_all
  | [] | [_] | [_, _] | [_, _, _] | _ :: _ :: _ :: _ :: _ :: _ =>
    unfold hopT
    cases Nat.beq t 17 <;> cases (Nat.beq t 33 || Nat.beq t 65) <;> simp [at4]

/-- Factors that vanish in this case: other arrays, and integrals whose slice is zero. -/
def hopDead (f : Fac) : Bool :=
  bif Nat.beq f.t 17 then
    match f.ix.map sp with
    | [a, b, c, d] => (WL a).all fun p => (WL b).all fun q => (WL c).all fun r => (WL d).all fun s => !hopNz 17 [p, q, r, s]
    | _ => false
  else !(Nat.beq f.t 33 || Nat.beq f.t 65)

theorem hopDead_zero (f : Fac) (hf : hopDead f = true) (l : List ℕ) (hl : InBox Witness.D (f.ix.map sp) l) : hopT f.t l = 0 := by
  unfold hopDead at hf
  cases h : Nat.beq f.t 17
  · rw [h, cond_false, Bool.not_eq_true'] at hf
    unfold hopT
    rw [h, hf, cond_false, cond_false]
  · rw [h, cond_true] at hf
    have ht : f.t = 17 := Nat.eq_of_beq_eq_true h
    match hs : f.ix.map sp, l, hl with
    | [a, b, c, d], [p, q, r, s], hl =>
      rw [hs] at hf
      simp only [InBox, List.forall₂_cons, List.forall₂_nil_right_iff] at hl
      obtain ⟨hp, hq, hr, hs', -⟩ := hl
      rw [(WL_ok _).2, List.mem_toFinset] at hp hq hr hs'
      simp only [List.all_eq_true, Bool.not_eq_true'] at hf
      rw [ht]
      exact hopNz_ok 17 _ (hf p hp q hq r hr s hs')
    | [], _, _ | [_], _, _ | [_, _], _, _ | [_, _, _], _, _ | _ :: _ :: _ :: _ :: _ :: _, _, _ =>
      rw [hs] at hf
      exact absurd hf Bool.false_ne_true

/-- The blocks that are left. -/
def hopProg : Prog := Gen.si_energy_pertQf.filter fun b => b.fs.all fun f => !hopDead f

theorem hop_terms : Prog.terms WL hopT hopNz hopProg [] = List.replicate 8 (1 / 4) := by decide +kernel

/-- The factors of the (Qf) energy: integrals, amplitudes and adjoint amplitudes in their ranges. -/
def hopFac (f : Fac) : Bool :=
  [16, 17, 18].elem f.t || ([32, 33, 34].elem f.t && decide (f.ix.map sp = [1, 1, 0, 0])) || ([64, 65, 66].elem f.t && decide (f.ix.map sp = [0, 0, 1, 1]))

theorem hop_cast (p q r s : ℕ) : ((hop ℚ p q r s : ℚ) : ℝ) = hop ℝ p q r s := by
  unfold hop
  cases hopB p q r s || hopB r s p q <;> simp

/-- The same integrals and amplitudes, as arrays of the solver. -/
noncomputable def hopA : SI ℕ ℝ :=
  { g_abab := hop ℝ
    t2_abab := fun p q r s => - hop ℝ p q r s
    l2_abab := fun p q r s => - hop ℝ p q r s }

theorem hopA_T (t : Nat) (ht : [16, 17, 18, 32, 33, 34, 64, 65, 66].elem t = true) (l : List ℕ) : hopA.T t l = ((hopT t l : ℚ) : ℝ) := by
  simp only [List.elem_iff, List.mem_cons, List.not_mem_nil, or_false] at ht
  have z : at4 (fun _ _ _ _ => (0 : ℝ)) l = 0 := by unfold at4; split <;> rfl
  have g : at4 (hop ℝ) l = ((at4 (hop ℚ) l : ℚ) : ℝ) := by
    unfold at4; split
    · exact (hop_cast _ _ _ _).symm
    · exact Rat.cast_zero.symm
  have n : at4 (fun p q r s => - hop ℝ p q r s) l = ((at4 (fun p q r s => - hop ℚ p q r s) l : ℚ) : ℝ) := by
    unfold at4; split
    · rw [Rat.cast_neg, hop_cast]
    · exact Rat.cast_zero.symm
  rcases ht with rfl | rfl | rfl | rfl | rfl | rfl | rfl | rfl | rfl
  · exact z.trans Rat.cast_zero.symm
  · exact g
  · exact z.trans Rat.cast_zero.symm
  · exact z.trans Rat.cast_zero.symm
  · exact n
  · exact z.trans Rat.cast_zero.symm
  · exact z.trans Rat.cast_zero.symm
  · exact n
  · exact z.trans Rat.cast_zero.symm

/-- Its leading (Qf) energy is two. -/
theorem hop_leading : qfLeading Witness.D hopε hopR = 2 := by
  have k : ∀ a b i j, a ∈ Witness.D 1 → b ∈ Witness.D 1 → i ∈ Witness.D 0 → j ∈ Witness.D 0 →
      (firstAmps hopε hopR).t2_abab a b i j = hopA.t2_abab a b i j := by
    intro a b i j ha hb hi hj
    have h1 : i < 2 := by simp [Witness.D] at hi; omega
    have h2 : j < 2 := by simp [Witness.D] at hj; omega
    have h3 : ¬ a < 2 := by simp [Witness.D] at ha; omega
    have h4 : ¬ b < 2 := by simp [Witness.D] at hb; omega
    simp only [firstAmps, hopA, hopR, hopε, h1, h2, h3, h4, if_true, if_false]
    ring
  have z : ∀ x : ℝ, (0 : ℝ) / x = 0 := zero_div
  have kl : ∀ i j a b, i ∈ Witness.D 0 → j ∈ Witness.D 0 → a ∈ Witness.D 1 → b ∈ Witness.D 1 →
      (firstAmps hopε hopR).t2_abab a b i j = hopA.l2_abab i j a b := fun i j a b hi hj ha hb =>
    (k a b i j ha hb hi hj).trans (congrArg Neg.neg (hop_herm ℝ a b i j))
  have loc : si_energy_pertQf Witness.D (set_l2amps (firstAmps hopε hopR)) = si_energy_pertQf Witness.D hopA := by
    refine Prog.eval_local Witness.D _ _ _ hopFac (by decide +kernel) ?_ [] (by decide +kernel) [] List.Forall₂.nil
    intro f hf l hl
    simp only [hopFac, Bool.or_eq_true, Bool.and_eq_true, decide_eq_true_eq, List.elem_iff, List.mem_cons, List.not_mem_nil, or_false] at hf
    rcases hf with (hf | ⟨hf, hs⟩) | ⟨hf, hs⟩
    · rcases hf with h | h | h <;> rw [h] <;> rfl
    · rw [hs] at hl
      match l, hl with
      | [a, b, i, j], hl =>
        simp only [InBox, List.forall₂_cons, List.forall₂_nil_right_iff] at hl
        obtain ⟨ha, hb, hi, hj, -⟩ := hl
        rcases hf with h | h | h <;> rw [h]
        · exact z _
        · exact k a b i j ha hb hi hj
        · exact z _
    · rw [hs] at hl
      match l, hl with
      | [a, b, i, j], hl =>
        simp only [InBox, List.forall₂_cons, List.forall₂_nil_right_iff] at hl
        obtain ⟨ha, hb, hi, hj, -⟩ := hl
        rcases hf with h | h | h <;> rw [h]
        · exact z _
        · exact kl a b i j ha hb hi hj
        · exact z _
  have e : si_energy_pertQf Witness.D hopA = ((Gen.si_energy_pertQf.eval Witness.D hopT [] : ℚ) : ℝ) := by
    rw [Prog.eval_cast]
    exact Prog.eval_congrT Witness.D _ _ _ (fun f => [16, 17, 18, 32, 33, 34, 64, 65, 66].elem f.t) (by decide +kernel) (fun f hf l _ => hopA_T f.t hf l) []
  rw [qfLeading, loc, e, eval_keep Witness.D hopT hopDead hopDead_zero _ [] (by decide +kernel) [] List.Forall₂.nil,
    show Gen.si_energy_pertQf.filter (fun b => b.fs.all fun f => !hopDead f) = hopProg from rfl,
    Prog.eval_terms Witness.D WL WL_ok hopT hopNz hopNz_ok, hop_terms]
  norm_num

/-- **C95, what fails** The noniterative "CCD(Qf)" energy and the energy of the iterative "CCDQf-1" do not agree through fifth order. -/
theorem C95_violated : hopR.Sym ∧ DiagonalFock Witness.D hopε hopR ∧ Gap Witness.D hopε ∧ ¬ AgreeFifth Witness.D hopR := by
  have hd : DiagonalFock Witness.D hopε hopR := fun _ _ _ _ _ => ⟨rfl, rfl⟩
  refine ⟨hopR_sym, hd, hop_gap, fun h => ?_⟩
  rw [C95_agree_iff Witness.D hopε hopR hopR_sym ⟨rfl, rfl, rfl⟩ hd hop_gap, hop_leading] at h
  exact two_ne_zero h

/-- A case: for some interaction that is not zero all three calculations have small solutions, and the corrections do not vanish. -/
example : ∃ c : ℝ, c ≠ 0 ∧ ∃ X Y Z, SmallSolution Witness.D "CCD" (scaleG c hopR) X ∧ SmallSolution Witness.D "CCDQf-1" (scaleG c hopR) Y ∧
    SmallSolution Witness.D "CCDQf-2" (scaleG c hopR) Z ∧ 0 < si_energy_pertQf Witness.D (set_l2amps X) ∧
    ccd_energy_with_spin Witness.D X < ccd_energy_with_spin Witness.D Y := by
  have hd : DiagonalFock Witness.D hopε hopR := fun _ _ _ _ _ => ⟨rfl, rfl⟩
  obtain ⟨C, h0, h⟩ := C95_orders Witness.D hopε hopR hopR_sym ⟨rfl, rfl, rfl⟩ hd hop_gap
  obtain ⟨C0, p0, s0⟩ := C88_weak_coupling Witness.D "CCD" hopε hopR hopR_sym ⟨rfl, rfl, rfl⟩ hd hop_gap
  obtain ⟨C1, p1, s1⟩ := C88_weak_coupling Witness.D "CCDQf-1" hopε hopR hopR_sym ⟨rfl, rfl, rfl⟩ hd hop_gap
  obtain ⟨C2, p2, s2⟩ := C88_weak_coupling Witness.D "CCDQf-2" hopε hopR hopR_sym ⟨rfl, rfl, rfl⟩ hd hop_gap
  have hM : 0 < 2 * C + C0 + C1 + C2 := by linarith
  obtain ⟨c, hc⟩ : ∃ c, c = (2 * C + C0 + C1 + C2)⁻¹ := ⟨_, rfl⟩
  have c0 : 0 < c := by rw [hc]; exact inv_pos.2 hM
  have ca : |c| = c := abs_of_pos c0
  have cM : c * (2 * C + C0 + C1 + C2) = 1 := by rw [hc]; exact inv_mul_cancel₀ hM.ne'
  have cC := mul_pos c0 h0
  have cC0 := mul_pos c0 p0
  have cC1 := mul_pos c0 p1
  have cC2 := mul_pos c0 p2
  obtain ⟨X, hX, -⟩ := s0 c (by rw [ca]; linarith)
  obtain ⟨Y, hY, -⟩ := s1 c (by rw [ca]; linarith)
  obtain ⟨Z, hZ, -⟩ := s2 c (by rw [ca]; linarith)
  obtain ⟨b1, b2, -⟩ := h c (by rw [ca]; linarith) X Y Z hX hY hZ
  rw [hop_leading, ca] at b1
  rw [ca] at b2
  have c5 : 0 < c ^ 5 := pow_pos c0 5
  have cb : C * c ^ 6 < 1 / 2 * c ^ 5 := by
    have : c * C < 1 / 2 := by linarith
    calc C * c ^ 6 = c * C * c ^ 5 := by ring
      _ < 1 / 2 * c ^ 5 := mul_lt_mul_of_pos_right this c5
  have d1 := (abs_le.1 b1).1
  have d2 := (abs_le.1 b2).1
  exact ⟨c, c0.ne', X, Y, Z, hX, hY, hZ, by linarith, by linarith⟩

end Verif.Props
