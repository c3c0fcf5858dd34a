import Verif.Ein.Local
import Verif.Props.XccdBase

/-!
# Fewer than four electrons or holes (C43)

Quadruple excitations need four occupied and four virtual spin orbitals. The code has no such test: the corrections for
factorised quadruples are sums of products of doubles amplitudes, and vanish only because all terms together are
antisymmetric.
-/

namespace Verif.Props

open Verif.Ein Verif.UT2 Verif.Wick

variable {I K : Type} [DecidableEq I] [Field K] [CharZero K] [Inhabited I] {D : Nat → Finset I}

omit [DecidableEq I] [Inhabited I] in
/-- An antisymmetric array is zero where an index is repeated. -/
theorem Antisymmetric.zero_first {m n : Nat} {R : List I → K} (h : Antisymmetric m n R) (i j : Fin m) (hij : i ≠ j)
    (o : Fin m → I) (v : Fin n → I) (ho : o i = o j) : R (List.ofFn o ++ List.ofFn v) = 0 := by
  have e := h.first i j o v hij
  have : o ∘ Equiv.swap i j = o := by
    funext k
    simp only [Function.comp, Equiv.swap_apply_def]
    split_ifs with h1 h2
    · rw [h1, ho]
    · rw [h2, ho]
    · rfl
  rw [this] at e
  linear_combination (1 / 2 : K) * e

omit [DecidableEq I] [Inhabited I] in
theorem Antisymmetric.zero_last {m n : Nat} {R : List I → K} (h : Antisymmetric m n R) (i j : Fin n) (hij : i ≠ j)
    (o : Fin m → I) (v : Fin n → I) (hv : v i = v j) : R (List.ofFn o ++ List.ofFn v) = 0 := by
  have e := h.last i j o v hij
  have : v ∘ Equiv.swap i j = v := by
    funext k
    simp only [Function.comp, Equiv.swap_apply_def]
    split_ifs with h1 h2
    · rw [h1, hv]
    · rw [h2, hv]
    · rfl
  rw [this] at e
  linear_combination (1 / 2 : K) * e

omit [DecidableEq I] [Inhabited I] in
/-- An antisymmetric array with more axes than there are orbitals is zero. -/
theorem Antisymmetric.zero {m n : Nat} {R : List I → K} (h : Antisymmetric m n R)
    (hc : (D 0).card < m ∨ (D 1).card < n) (o : Fin m → I) (v : Fin n → I) (ho : ∀ k, o k ∈ D 0) (hv : ∀ k, v k ∈ D 1) :
    R (List.ofFn o ++ List.ofFn v) = 0 := by
  rcases hc with hc | hc
  · obtain ⟨i, -, j, -, hij, e⟩ := Finset.exists_ne_map_eq_of_card_lt_of_maps_to (s := Finset.univ) (t := D 0) (f := o)
      (by simpa using hc) (fun k _ => ho k)
    exact h.zero_first i j hij o v e
  · obtain ⟨i, -, j, -, hij, e⟩ := Finset.exists_ne_map_eq_of_card_lt_of_maps_to (s := Finset.univ) (t := D 1) (f := v)
      (by simpa using hc) (fun k _ => hv k)
    exact h.zero_last i j hij o v e

omit [DecidableEq I] in
/-- With fewer than four occupied or fewer than four virtual spin orbitals the quadruples arrays are zero. -/
theorem xccd_t4_zero (hc : (D 0).card < 4 ∨ (D 1).card < 4) (S : SO I K) (a b c d i j k l : I) (ha : a ∈ D 1) (hb : b ∈ D 1)
    (hc' : c ∈ D 1) (hd : d ∈ D 1) (hi : i ∈ D 0) (hj : j ∈ D 0) (hk : k ∈ D 0) (hl : l ∈ D 0) :
    xccd5_t4 D S [i, j, k, l, a, b, c, d] = 0 ∧ xccd6_t4 D S [i, j, k, l, a, b, c, d] = 0 := by
  have ho : ∀ n : Fin 4, (![i, j, k, l] : Fin 4 → I) n ∈ D 0 := by intro n; fin_cases n <;> assumption
  have hv : ∀ n : Fin 4, (![a, b, c, d] : Fin 4 → I) n ∈ D 1 := by intro n; fin_cases n <;> assumption
  exact ⟨(C29_antisym_t4_residual (Gen.xccd5_quad.eval D S.T)).zero hc ![i, j, k, l] ![a, b, c, d] ho hv,
    (C29_antisym_t4_residual (Gen.xccd6_quad.eval D S.T)).zero hc ![i, j, k, l] ![a, b, c, d] ho hv⟩

/-- `residQf1` and `residQf2` vanish. -/
theorem C43_residual (hD : Disjoint (D 0) (D 1)) (hc : (D 0).card < 4 ∨ (D 1).card < 4) (S : SO I K) (hS : S.Sym)
    (a b i j : I) (ha : a ∈ D 1) (hb : b ∈ D 1) (hi : i ∈ D 0) (hj : j ∈ D 0) :
    residQf1 D S a b i j = 0 ∧ residQf2 D S a b i j = 0 := by
  obtain ⟨F⟩ := exists_fermi (K := K) hD
  obtain ⟨h, hf⟩ := exists_isFock (D := D) S
  constructor
  · rw [← C77_residQf1 F hD S hS h hf a b i j ha hb hi hj, bra2_L2 F hD S.l2 _ a b i j ha hb]
    rw [boxSum_congr D _ _ (fun _ => 0), boxSum_zero, mul_zero]
    intro y hy
    match y, hy with
    | [k, l, c, d], hy =>
      simp only [InBox, List.forall₂_cons, List.forall₂_nil_right_iff] at hy
      obtain ⟨hk, hl, hc', hd, -⟩ := hy
      have e := xccd5_t4_eq F hD S hS h hf a b c d i j k l ha hb hc' hd hi hj hk hl
      rw [(xccd_t4_zero hc S a b c d i j k l ha hb hc' hd hi hj hk hl).1] at e
      unfold Fermi.quad at e
      simp only [at4]
      rw [← e, mul_zero]
  · rw [← C77_residQf2 F hD S hS h hf a b i j ha hb hi hj, bra2_L2 F hD S.l2 _ a b i j ha hb]
    rw [boxSum_congr D _ _ (fun _ => 0), boxSum_zero, mul_zero]
    intro y hy
    match y, hy with
    | [k, l, c, d], hy =>
      simp only [InBox, List.forall₂_cons, List.forall₂_nil_right_iff] at hy
      obtain ⟨hk, hl, hc', hd, -⟩ := hy
      have e := xccd6_t4_eq F hD S hS h hf a b c d i j k l ha hb hc' hd hi hj hk hl
      rw [(xccd_t4_zero hc S a b c d i j k l ha hb hc' hd hi hj hk hl).2] at e
      unfold Fermi.cub at e
      simp only [at4]
      rw [← e, mul_zero]

/-- The `(Qf)` energy vanishes. -/
theorem C43_energy (hD : Disjoint (D 0) (D 1)) (hc : (D 0).card < 4 ∨ (D 1).card < 4) (S : SO I K) (hS : S.Sym) :
    energy_pertQf D S = 0 := by
  obtain ⟨F⟩ := exists_fermi (K := K) hD
  obtain ⟨h, hf⟩ := exists_isFock (D := D) S
  rw [← C77_pertQf_double F hD S hS h hf, mul_assoc, ω_L2]
  refine mul_eq_zero_of_right _ (Finset.sum_eq_zero fun i hi => Finset.sum_eq_zero fun j hj =>
    Finset.sum_eq_zero fun a ha => Finset.sum_eq_zero fun b hb => ?_)
  rw [← mul_assoc (F.bra2 a b i j), C77_residQf1 F hD S hS h hf a b i j ha hb hi hj,
    (C43_residual hD hc S hS a b i j ha hb hi hj).1, mul_zero]

omit [DecidableEq I] [Inhabited I] [Field K] [CharZero K] in
theorem card_spinD (s : Nat) : (spinD D s).card = 2 * (D s).card := by
  simp [spinD, Finset.card_product, mul_comm]

omit [DecidableEq I] [Inhabited I] [Field K] [CharZero K] in
theorem mem_spinD {s : Nat} {x : I} (hx : x ∈ D s) (σ : Bool) : (x, σ) ∈ spinD D s := by
  simp [spinD, hx]

/-- The spin-integrated corrections vanish for one occupied or one virtual spatial orbital, in particular for the two
electrons of H2. -/
theorem C43_spin (hD : Disjoint (D 0) (D 1)) (hc : (D 0).card ≤ 1 ∨ (D 1).card ≤ 1) (A : SI I K) (hA : A.Sym) :
    si_energy_pertQf D A = 0 ∧ ∀ a b i j, a ∈ D 1 → b ∈ D 1 → i ∈ D 0 → j ∈ D 0 →
      residQf1_aaaa D A a b i j = 0 ∧ residQf1_abab D A a b i j = 0 ∧ residQf1_bbbb D A a b i j = 0 ∧
      residQf2_aaaa D A a b i j = 0 ∧ residQf2_abab D A a b i j = 0 ∧ residQf2_bbbb D A a b i j = 0 := by
  have hD' := spinD_disjoint hD
  have hc' : (spinD D 0).card < 4 ∨ (spinD D 1).card < 4 := by
    rw [card_spinD, card_spinD]; omega
  refine ⟨by rw [C35_qf_energy D A hA]; exact C43_energy hD' hc' A.so hA.so, fun a b i j ha hb hi hj => ?_⟩
  have key := fun σ τ : Bool => C43_residual hD' hc' A.so hA.so (a, σ) (b, τ) (i, σ) (j, τ) (mem_spinD ha _)
    (mem_spinD hb _) (mem_spinD hi _) (mem_spinD hj _)
  obtain ⟨h1, h2, h3⟩ := C36_qf1_residual D A hA a b i j
  obtain ⟨h4, h5, h6⟩ := C36_qf2_residual D A hA a b i j
  exact ⟨h1.trans (key _ _).1, h2.trans (key _ _).1, h3.trans (key _ _).1, h4.trans (key _ _).2, h5.trans (key _ _).2,
    h6.trans (key _ _).2⟩

/-! ## whole calculations -/

/-- The same integrals, and the same doubles amplitudes in the slices `[v,v,o,o]`. -/
structure SameSlices (D : Nat → Finset I) (A B : SI I K) : Prop where
  f_aa : A.f_aa = B.f_aa
  f_bb : A.f_bb = B.f_bb
  g_aaaa : A.g_aaaa = B.g_aaaa
  g_abab : A.g_abab = B.g_abab
  g_bbbb : A.g_bbbb = B.g_bbbb
  t2 : ∀ a b i j, a ∈ D 1 → b ∈ D 1 → i ∈ D 0 → j ∈ D 0 →
    A.t2_aaaa a b i j = B.t2_aaaa a b i j ∧ A.t2_abab a b i j = B.t2_abab a b i j ∧ A.t2_bbbb a b i j = B.t2_bbbb a b i j

/-- The operands of the CCD equations: Fock matrix, integrals, doubles amplitudes with virtual axes first. -/
def ccdFacSi (f : Fac) : Bool :=
  [8, 9, 16, 17, 18].elem f.t || ([32, 33, 34].elem f.t && decide (f.ix.map sp = [1, 1, 0, 0]))

omit [DecidableEq I] [CharZero K] [Inhabited I] in
theorem SameSlices.T {A B : SI I K} (h : SameSlices D A B) (f : Fac) (hf : ccdFacSi f = true) (l : List I)
    (hl : InBox D (f.ix.map sp) l) : A.T f.t l = B.T f.t l := by
  simp only [ccdFacSi, Bool.or_eq_true, Bool.and_eq_true, decide_eq_true_eq, List.elem_iff, List.mem_cons,
    List.not_mem_nil, or_false] at hf
  rcases hf with hf | ⟨hf, hs⟩
  · rcases hf with h' | h' | h' | h' | h' <;> rw [h']
    · exact congrArg (at2 · l) h.f_aa
    · exact congrArg (at2 · l) h.f_bb
    · exact congrArg (at4 · l) h.g_aaaa
    · exact congrArg (at4 · l) h.g_abab
    · exact congrArg (at4 · l) h.g_bbbb
  · rw [hs] at hl
    match l, hl with
    | [a, b, i, j], hl =>
      simp only [InBox, List.forall₂_cons, List.forall₂_nil_right_iff] at hl
      obtain ⟨ha, hb, hi, hj, -⟩ := hl
      obtain ⟨t1, t2, t3⟩ := h.t2 a b i j ha hb hi hj
      rcases hf with h' | h' | h' <;> rw [h']
      · exact t1
      · exact t2
      · exact t3

omit [DecidableEq I] [CharZero K] in
/-- Energy and residual depend only on these slices. -/
theorem SameSlices.ccd {A B : SI I K} (h : SameSlices D A B) :
    ccd_energy_with_spin D A = ccd_energy_with_spin D B ∧ ∀ a b i j, a ∈ D 1 → b ∈ D 1 → i ∈ D 0 → j ∈ D 0 →
      ccd_t2_aaaa D A a b i j = ccd_t2_aaaa D B a b i j ∧ ccd_t2_abab D A a b i j = ccd_t2_abab D B a b i j ∧
      ccd_t2_bbbb D A a b i j = ccd_t2_bbbb D B a b i j := by
  refine ⟨Prog.eval_local D A.T B.T _ ccdFacSi (by decide +kernel) h.T [] (by decide +kernel) [] List.Forall₂.nil,
    fun a b i j ha hb hi hj => ?_⟩
  have hx : InBox D [1, 1, 0, 0] [a, b, i, j] := by simp [InBox, ha, hb, hi, hj]
  exact ⟨Prog.eval_local D A.T B.T _ ccdFacSi (by decide +kernel) h.T _ (by decide +kernel) _ hx,
    Prog.eval_local D A.T B.T _ ccdFacSi (by decide +kernel) h.T _ (by decide +kernel) _ hx,
    Prog.eval_local D A.T B.T _ ccdFacSi (by decide +kernel) h.T _ (by decide +kernel) _ hx⟩

/-- With one occupied or one virtual orbital every iteration of `CCDQf-1` and `CCDQf-2` gives the amplitudes and energy
of the CCD calculation. -/
theorem C43_iterates (hD : Disjoint (D 0) (D 1)) (hc : (D 0).card ≤ 1 ∨ (D 1).card ≤ 1) (cc_type : String)
    (d2aa d2bb d2ab : I → I → I → I → K) (haa : Sym4 d2aa) (hbb : Sym4 d2bb) (A : SI I K) (hA : A.Sym) (n : Nat) :
    SameSlices D ((iterSi D cc_type d2aa d2bb d2ab)^[n] A) ((iterSi D "CCD" d2aa d2bb d2ab)^[n] A) ∧
    ccd_energy_with_spin D ((iterSi D cc_type d2aa d2bb d2ab)^[n] A) =
      ccd_energy_with_spin D ((iterSi D "CCD" d2aa d2bb d2ab)^[n] A) := by
  have key : SameSlices D ((iterSi D cc_type d2aa d2bb d2ab)^[n] A) ((iterSi D "CCD" d2aa d2bb d2ab)^[n] A) := by
    induction n with
    | zero => exact ⟨rfl, rfl, rfl, rfl, rfl, fun _ _ _ _ _ _ _ _ => ⟨rfl, rfl, rfl⟩⟩
    | succ n ih =>
      have hB := C33_iterates D cc_type d2aa d2bb d2ab haa hbb A hA n
      rw [Function.iterate_succ_apply', Function.iterate_succ_apply']
      generalize (iterSi D cc_type d2aa d2bb d2ab)^[n] A = B at *
      generalize (iterSi D "CCD" d2aa d2bb d2ab)^[n] A = C at *
      have hl := set_l2amps_sym B hB
      have hag : SameSlices D (set_l2amps B) (set_l2amps C) := ⟨ih.f_aa, ih.f_bb, ih.g_aaaa, ih.g_abab, ih.g_bbbb, ih.t2⟩
      refine ⟨ih.f_aa, ih.f_bb, ih.g_aaaa, ih.g_abab, ih.g_bbbb, fun a b i j ha hb hi hj => ?_⟩
      obtain ⟨z1, z2, z3, z4, z5, z6⟩ := (C43_spin hD hc _ hl).2 a b i j ha hb hi hj
      obtain ⟨r1, r2, r3⟩ := hag.ccd.2 a b i j ha hb hi hj
      obtain ⟨t1, t2, t3⟩ := hag.t2 a b i j ha hb hi hj
      simp [iterSi, residMain, resid_aaaa, resid_abab, resid_bbbb, qfWeights, z1, z2, z3, z4, z5, z6, r1, r2, r3, t1, t2, t3]
  exact ⟨key, key.ccd.1⟩

/-! ### cases -/

/-- One occupied orbital, three virtual ones: H2 in a small basis. -/
def DH2 : Nat → Finset ℕ
  | 0 => {0}
  | _ => {1, 2, 3}

example : si_energy_pertQf DH2 Witness.si = 0 :=
  (C43_spin (by decide) (Or.inl (by decide)) Witness.si Witness.si_sym).1

example : ccd_t2_abab DH2 Witness.si 1 2 0 0 ≠ 0 := by decide +kernel

/-- The single terms of the correction are not zero. -/
example : (Gen.residQf1_abab.map fun b => b.eval DH2 Witness.si.T [1, 2, 0, 0]).any (· ≠ 0) = true := by decide +kernel

end Verif.Props
