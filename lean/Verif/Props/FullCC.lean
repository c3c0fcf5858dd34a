import Verif.Model.FullCC
import Verif.Ein.Blocks
import Verif.Ein.Local
import Verif.Props.SpinHigh
import Verif.Props.SpinCc
import Verif.Props.Ucc4

/-!
# The perturbative corrections of the CCSDT energy driver (C84)
-/

set_option maxRecDepth 100000

namespace Verif.Props

open Verif.Ein Verif.UT2 Verif.Wick

variable {I K R : Type} [DecidableEq I] [Field K] [CharZero K] [Ring R] [Algebra K R] [Inhabited I] {D : Nat → Finset I}
  (F : Fermi (I × Bool) K R (spinD D))

/-! ## the statement -/

/-- The denominators do not change when indices of the same spin are exchanged. -/
structure FullDen.Sym (d : FullDen I K) : Prop where
  aa : Sym4 d.aa
  bb : Sym4 d.bb
  aaa : Sym6 d.aaa
  bbb : Sym6 d.bbb
  aab_ab : ∀ a b c i j k, d.aab b a c i j k = d.aab a b c i j k
  aab_ij : ∀ a b c i j k, d.aab a b c j i k = d.aab a b c i j k
  abb_bc : ∀ a b c i j k, d.abb a c b i j k = d.abb a b c i j k
  abb_jk : ∀ a b c i j k, d.abb a b c i k j = d.abb a b c i j k

/-- The first-order doubles `g D2` in place of the doubles. -/
def firstOrder (d : FullDen I K) (A : SI I K) : SI I K :=
  { A with
    t2_aaaa := fun a b i j => A.g_aaaa a b i j * d.aa a b i j
    t2_abab := fun a b i j => A.g_abab a b i j * d.ab a b i j
    t2_bbbb := fun a b i j => A.g_bbbb a b i j * d.bb a b i j }

omit [DecidableEq I] [CharZero K] [Inhabited I] in
theorem firstOrder_sym (d : FullDen I K) (hd : FullDen.Sym d) (A : SI I K) (hA : A.Sym) : (firstOrder d A).Sym :=
  { hA with
    t2_aaaa_anti0 := fun p q r s => by
      show _ * _ = - (_ * _); rw [hA.g_aaaa_anti0 p q, ← hd.aa.first p q]; ring
    t2_aaaa_anti2 := fun p q r s => by
      show _ * _ = - (_ * _); rw [hA.g_aaaa_anti2 p q, ← hd.aa.last p q r s]; ring
    t2_bbbb_anti0 := fun p q r s => by
      show _ * _ = - (_ * _); rw [hA.g_bbbb_anti0 p q, ← hd.bb.first p q]; ring
    t2_bbbb_anti2 := fun p q r s => by
      show _ * _ = - (_ * _); rw [hA.g_bbbb_anti2 p q, ← hd.bb.last p q r s]; ring }

/-! ## antisymmetry of the matrix elements -/

omit [CharZero K] [Inhabited I] in
theorem bra4_anti {J : Type} [DecidableEq J] {E : Nat → Finset J} (F' : Fermi J K R E) (X : R) :
    Anti8 fun a b c d i j k l => F'.ω (F'.bra4 a b c d i j k l * X) where
  ab a b c d i j k l := by
    rw [← map_neg, ← neg_mul]; simp only [Fermi.bra4, mul_assoc]
    rw [← mul_assoc (F'.c b), F'.cc b a]; simp [mul_assoc]
  bc a b c d i j k l := by
    rw [← map_neg, ← neg_mul]; simp only [Fermi.bra4, mul_assoc]
    rw [← mul_assoc (F'.c c), F'.cc c b]; simp [mul_assoc]
  cd a b c d i j k l := by
    rw [← map_neg, ← neg_mul]; simp only [Fermi.bra4, mul_assoc]
    rw [← mul_assoc (F'.c d), F'.cc d c]; simp [mul_assoc]
  ij a b c d i j k l := by
    rw [← map_neg, ← neg_mul]; simp only [Fermi.bra4, mul_assoc]
    rw [← mul_assoc (F'.cd i), F'.dd i j]; simp [mul_assoc]
  jk a b c d i j k l := by
    rw [← map_neg, ← neg_mul]; simp only [Fermi.bra4, mul_assoc]
    rw [← mul_assoc (F'.cd j), F'.dd j k]; simp [mul_assoc]
  kl a b c d i j k l := by
    rw [← map_neg, ← neg_mul]; simp only [Fermi.bra4, mul_assoc]
    rw [← mul_assoc (F'.cd k), F'.dd k l]; simp [mul_assoc]

/-! ## slices -/

/-- The operands of `energy_pertQf`: first argument in the ranges `o,o,v,v`, quadruples in `v,v,v,v,o,o,o,o`. -/
def pertFac (f : Fac) : Bool :=
  [64, 65, 66].elem f.t || ([16, 17, 18].elem f.t && decide (f.ix.map sp = [0, 0, 1, 1])) ||
    ([48, 49, 50, 51, 52].elem f.t && decide (f.ix.map sp = [1, 1, 1, 1, 0, 0, 0, 0]))

/-- The arrays that `energy_pertQf` reads are the same. -/
structure SamePert (D : Nat → Finset I) (A B : SI I K) : Prop where
  l2_aaaa : A.l2_aaaa = B.l2_aaaa
  l2_abab : A.l2_abab = B.l2_abab
  l2_bbbb : A.l2_bbbb = B.l2_bbbb
  g : ∀ i j a b, i ∈ D 0 → j ∈ D 0 → a ∈ D 1 → b ∈ D 1 → A.g_aaaa i j a b = B.g_aaaa i j a b ∧
    A.g_abab i j a b = B.g_abab i j a b ∧ A.g_bbbb i j a b = B.g_bbbb i j a b
  t4 : ∀ a b c d i j k l, a ∈ D 1 → b ∈ D 1 → c ∈ D 1 → d ∈ D 1 → i ∈ D 0 → j ∈ D 0 → k ∈ D 0 → l ∈ D 0 →
    A.t4_aaaaaaaa a b c d i j k l = B.t4_aaaaaaaa a b c d i j k l ∧
    A.t4_aaabaaab a b c d i j k l = B.t4_aaabaaab a b c d i j k l ∧
    A.t4_aabbaabb a b c d i j k l = B.t4_aabbaabb a b c d i j k l ∧
    A.t4_abbbabbb a b c d i j k l = B.t4_abbbabbb a b c d i j k l ∧
    A.t4_bbbbbbbb a b c d i j k l = B.t4_bbbbbbbb a b c d i j k l

omit [DecidableEq I] [CharZero K] [Inhabited I] in
theorem SamePert.T {A B : SI I K} (h : SamePert D A B) (f : Fac) (hf : pertFac f = true) (l : List I)
    (hl : InBox D (f.ix.map sp) l) : A.T f.t l = B.T f.t l := by
  simp only [pertFac, Bool.or_eq_true, Bool.and_eq_true, decide_eq_true_eq, List.elem_iff, List.mem_cons,
    List.not_mem_nil, or_false, or_assoc] at hf
  rcases hf with hf | hf | hf | ⟨hf, hs⟩ | ⟨hf, hs⟩
  · rw [hf]; exact congrArg (at4 · l) h.l2_aaaa
  · rw [hf]; exact congrArg (at4 · l) h.l2_abab
  · rw [hf]; exact congrArg (at4 · l) h.l2_bbbb
  · rw [hs] at hl
    match l, hl with
    | [i, j, a, b], hl =>
      simp only [InBox, List.forall₂_cons, List.forall₂_nil_right_iff] at hl
      obtain ⟨hi, hj, ha, hb, -⟩ := hl
      have := h.g i j a b hi hj ha hb
      rcases hf with hf | hf | hf <;> rw [hf]
      · exact this.1
      · exact this.2.1
      · exact this.2.2
  · rw [hs] at hl
    match l, hl with
    | [a, b, c, d, i, j, k, l], hl =>
      simp only [InBox, List.forall₂_cons, List.forall₂_nil_right_iff] at hl
      obtain ⟨ha, hb, hc, hd, hi, hj, hk, hl, -⟩ := hl
      have := h.t4 a b c d i j k l ha hb hc hd hi hj hk hl
      rcases hf with hf | hf | hf | hf | hf <;> rw [hf]
      · exact this.1
      · exact this.2.1
      · exact this.2.2.1
      · exact this.2.2.2.1
      · exact this.2.2.2.2

omit [DecidableEq I] [CharZero K] in
theorem SamePert.energy {A B : SI I K} (h : SamePert D A B) : si_energy_pertQf_t4 D A = si_energy_pertQf_t4 D B :=
  Prog.eval_local D A.T B.T _ pertFac (by decide +kernel) h.T [] (by decide +kernel) [] List.Forall₂.nil

/-! ## the energy as a matrix element -/

/-- An array with the symmetries of integrals that has given entries in the ranges `o,o,v,v`. -/
def extend (D : Nat → Finset I) (x : I → I → I → I → K) (p q r s : I) : K :=
  if p ∈ D 0 ∧ q ∈ D 0 ∧ r ∈ D 1 ∧ s ∈ D 1 then x r s p q
  else if r ∈ D 0 ∧ s ∈ D 0 ∧ p ∈ D 1 ∧ q ∈ D 1 then x p q r s else 0

omit [CharZero K] [Inhabited I] in
theorem extend_herm (hD : Disjoint (D 0) (D 1)) (x : I → I → I → I → K) (p q r s : I) :
    extend D x p q r s = extend D x r s p q := by
  unfold extend
  by_cases h1 : p ∈ D 0 ∧ q ∈ D 0 ∧ r ∈ D 1 ∧ s ∈ D 1
  · rw [if_pos h1, if_neg (fun h => Finset.disjoint_left.1 hD h1.1 h.2.2.1), if_pos h1]
  · rw [if_neg h1]
    by_cases h2 : r ∈ D 0 ∧ s ∈ D 0 ∧ p ∈ D 1 ∧ q ∈ D 1
    · rw [if_pos h2, if_pos h2]
    · rw [if_neg h2, if_neg h2, if_neg h1]

omit [CharZero K] [Inhabited I] in
theorem extend_anti0 (x : I → I → I → I → K) (h0 : ∀ p q r s, x p q r s = - x q p r s)
    (h2 : ∀ p q r s, x p q r s = - x p q s r) (p q r s : I) : extend D x p q r s = - extend D x q p r s := by
  unfold extend
  rw [apply_ite Neg.neg, apply_ite Neg.neg, neg_zero]
  refine if_congr (by tauto) (h2 ..) (if_congr (by tauto) (h0 ..) rfl)

omit [CharZero K] [Inhabited I] in
theorem extend_anti2 (x : I → I → I → I → K) (h0 : ∀ p q r s, x p q r s = - x q p r s)
    (h2 : ∀ p q r s, x p q r s = - x p q s r) (p q r s : I) : extend D x p q r s = - extend D x p q s r := by
  unfold extend
  rw [apply_ite Neg.neg, apply_ite Neg.neg, neg_zero]
  refine if_congr (by tauto) (h0 ..) (if_congr (by tauto) (h2 ..) rfl)

/-- Arrays with the symmetries on which `energy_pertQf` gives the matrix element. -/
def pertArrays (D : Nat → Finset I) (A Y : SI I K) (M : I × Bool → I × Bool → I × Bool → I × Bool → I × Bool → I × Bool → I × Bool → I × Bool → K) : SI I K :=
  { set_l2amps A with
    g_aaaa := extend D Y.t2_aaaa
    g_abab := extend D Y.t2_abab
    g_bbbb := extend D Y.t2_bbbb
    t4_aaaaaaaa := fun a b c d i j k l =>
      M (a, false) (b, false) (c, false) (d, false) (i, false) (j, false) (k, false) (l, false)
    t4_aaabaaab := fun a b c d i j k l =>
      M (a, false) (b, false) (c, false) (d, true) (i, false) (j, false) (k, false) (l, true)
    t4_aabbaabb := fun a b c d i j k l =>
      M (a, false) (b, false) (c, true) (d, true) (i, false) (j, false) (k, true) (l, true)
    t4_abbbabbb := fun a b c d i j k l =>
      M (a, false) (b, true) (c, true) (d, true) (i, false) (j, true) (k, true) (l, true)
    t4_bbbbbbbb := fun a b c d i j k l =>
      M (a, true) (b, true) (c, true) (d, true) (i, true) (j, true) (k, true) (l, true) }

omit [CharZero K] [Inhabited I] in
theorem pertArrays_sym (hD : Disjoint (D 0) (D 1)) (A Y : SI I K) (hA : A.Sym) (hY : Y.Sym)
    (M : I × Bool → I × Bool → I × Bool → I × Bool → I × Bool → I × Bool → I × Bool → I × Bool → K) (hM : Anti8 M) :
    (pertArrays D A Y M).Sym :=
  { set_l2amps_sym A hA with
    g_aaaa_anti0 := extend_anti0 _ hY.t2_aaaa_anti0 hY.t2_aaaa_anti2
    g_aaaa_anti2 := extend_anti2 _ hY.t2_aaaa_anti0 hY.t2_aaaa_anti2
    g_aaaa_herm := extend_herm hD _
    g_abab_herm := extend_herm hD _
    g_bbbb_anti0 := extend_anti0 _ hY.t2_bbbb_anti0 hY.t2_bbbb_anti2
    g_bbbb_anti2 := extend_anti2 _ hY.t2_bbbb_anti0 hY.t2_bbbb_anti2
    g_bbbb_herm := extend_herm hD _
    t4_aaaaaaaa_anti0 := fun _ _ _ _ _ _ _ _ => hM.ab ..
    t4_aaaaaaaa_anti1 := fun _ _ _ _ _ _ _ _ => hM.bc ..
    t4_aaaaaaaa_anti2 := fun _ _ _ _ _ _ _ _ => hM.cd ..
    t4_aaaaaaaa_anti4 := fun _ _ _ _ _ _ _ _ => hM.ij ..
    t4_aaaaaaaa_anti5 := fun _ _ _ _ _ _ _ _ => hM.jk ..
    t4_aaaaaaaa_anti6 := fun _ _ _ _ _ _ _ _ => hM.kl ..
    t4_aaabaaab_anti0 := fun _ _ _ _ _ _ _ _ => hM.ab ..
    t4_aaabaaab_anti1 := fun _ _ _ _ _ _ _ _ => hM.bc ..
    t4_aaabaaab_anti4 := fun _ _ _ _ _ _ _ _ => hM.ij ..
    t4_aaabaaab_anti5 := fun _ _ _ _ _ _ _ _ => hM.jk ..
    t4_aabbaabb_anti0 := fun _ _ _ _ _ _ _ _ => hM.ab ..
    t4_aabbaabb_anti2 := fun _ _ _ _ _ _ _ _ => hM.cd ..
    t4_aabbaabb_anti4 := fun _ _ _ _ _ _ _ _ => hM.ij ..
    t4_aabbaabb_anti6 := fun _ _ _ _ _ _ _ _ => hM.kl ..
    t4_abbbabbb_anti1 := fun _ _ _ _ _ _ _ _ => hM.bc ..
    t4_abbbabbb_anti2 := fun _ _ _ _ _ _ _ _ => hM.cd ..
    t4_abbbabbb_anti5 := fun _ _ _ _ _ _ _ _ => hM.jk ..
    t4_abbbabbb_anti6 := fun _ _ _ _ _ _ _ _ => hM.kl ..
    t4_bbbbbbbb_anti0 := fun _ _ _ _ _ _ _ _ => hM.ab ..
    t4_bbbbbbbb_anti1 := fun _ _ _ _ _ _ _ _ => hM.bc ..
    t4_bbbbbbbb_anti2 := fun _ _ _ _ _ _ _ _ => hM.cd ..
    t4_bbbbbbbb_anti4 := fun _ _ _ _ _ _ _ _ => hM.ij ..
    t4_bbbbbbbb_anti5 := fun _ _ _ _ _ _ _ _ => hM.jk ..
    t4_bbbbbbbb_anti6 := fun _ _ _ _ _ _ _ _ => hM.kl .. }

omit [DecidableEq I] [CharZero K] [Inhabited I] in
/-- Spin-orbital integrals and doubles with transposed blocks are transposed. -/
theorem so_g_t2 (W Y : SI I K) (O V : Finset I)
    (h1 : ∀ i ∈ O, ∀ j ∈ O, ∀ a ∈ V, ∀ b ∈ V, W.g_aaaa i j a b = Y.t2_aaaa a b i j)
    (h2 : ∀ i ∈ O, ∀ j ∈ O, ∀ a ∈ V, ∀ b ∈ V, W.g_abab i j a b = Y.t2_abab a b i j)
    (h3 : ∀ i ∈ O, ∀ j ∈ O, ∀ a ∈ V, ∀ b ∈ V, W.g_bbbb i j a b = Y.t2_bbbb a b i j)
    (i j a b : I) (hi : i ∈ O) (hj : j ∈ O) (ha : a ∈ V) (hb : b ∈ V) (s t u v : Bool) :
    W.so.g (i, s) (j, t) (a, u) (b, v) = Y.so.t2 (a, u) (b, v) (i, s) (j, t) := by
  have e1 := h1 i hi j hj a ha b hb
  have e2 := h2 i hi j hj a ha b hb
  have e3 := h2 j hj i hi a ha b hb
  have e4 := h2 i hi j hj b hb a ha
  have e5 := h2 j hj i hi b hb a ha
  have e6 := h3 i hi j hj a ha b hb
  by_cases hz : s.toNat + t.toNat = u.toNat + v.toNat
  · have g1 := W.so_g_same i j a b
    have g2 := W.so_g_mixed i j a b
    have t1 := Y.so_t2_same a b i j
    have t2 := Y.so_t2_mixed a b i j
    cases s <;> cases t <;> cases u <;> cases v <;> first | exact absurd hz (by decide) | skip
    · rw [g1.1, t1.1, e1]
    · rw [g2.1, t2.1, e2]
    · rw [g2.2.1, t2.2.2.1, e4]
    · rw [g2.2.2.1, t2.2.1, e3]
    · rw [g2.2.2.2, t2.2.2.2, e5]
    · rw [g1.2, t1.2, e6]
  · rw [W.so_g_zero i j a b s t u v hz, Y.so_t2_zero a b i j u v s t (Ne.symm hz)]

omit [DecidableEq I] [CharZero K] [Inhabited I] in
/-- The same for de-excitation amplitudes. -/
theorem so_l2_t2 (W Y : SI I K) (h1 : ∀ i j a b, W.l2_aaaa i j a b = Y.t2_aaaa a b i j)
    (h2 : ∀ i j a b, W.l2_abab i j a b = Y.t2_abab a b i j) (h3 : ∀ i j a b, W.l2_bbbb i j a b = Y.t2_bbbb a b i j)
    (i j a b : I) (s t u v : Bool) : W.so.l2 (i, s) (j, t) (a, u) (b, v) = Y.so.t2 (a, u) (b, v) (i, s) (j, t) := by
  by_cases hz : s.toNat + t.toNat = u.toNat + v.toNat
  · have g1 := W.so_l2_same i j a b
    have g2 := W.so_l2_mixed i j a b
    have t1 := Y.so_t2_same a b i j
    have t2 := Y.so_t2_mixed a b i j
    cases s <;> cases t <;> cases u <;> cases v <;> first | exact absurd hz (by decide) | skip
    · rw [g1.1, t1.1, h1]
    · rw [g2.1, t2.1, h2]
    · rw [g2.2.1, t2.2.2.1, h2]
    · rw [g2.2.2.1, t2.2.1, h2]
    · rw [g2.2.2.2, t2.2.2.2, h2]
    · rw [g1.2, t1.2, h3]
  · rw [W.so_l2_zero i j a b s t u v hz, Y.so_t2_zero a b i j u v s t (Ne.symm hz)]

omit [CharZero K] [Inhabited I] in
theorem pertArrays_g (A Y : SI I K) (M) (i j a b : I × Bool) (hi : i ∈ spinD D 0)
    (hj : j ∈ spinD D 0) (ha : a ∈ spinD D 1) (hb : b ∈ spinD D 1) :
    (pertArrays D A Y M).so.g i j a b = Y.so.t2 a b i j := by
  simp only [spinD, Finset.mem_product, Finset.mem_univ, and_true] at hi hj ha hb
  have e : ∀ x : I → I → I → I → K, ∀ i ∈ D 0, ∀ j ∈ D 0, ∀ a ∈ D 1, ∀ b ∈ D 1, extend D x i j a b = x a b i j :=
    fun x i hi j hj a ha b hb => if_pos ⟨hi, hj, ha, hb⟩
  exact so_g_t2 _ Y (D 0) (D 1) (e _) (e _) (e _) i.1 j.1 a.1 b.1 hi hj ha hb i.2 j.2 a.2 b.2

omit [CharZero K] [Inhabited I] in
theorem pertArrays_l2 (A Y : SI I K) (M) (i j a b : I × Bool) : (pertArrays D A Y M).so.l2 i j a b = A.so.t2 a b i j :=
  so_l2_t2 _ A (fun _ _ _ _ => rfl) (fun _ _ _ _ => rfl) (fun _ _ _ _ => rfl) i.1 j.1 a.1 b.1 i.2 j.2 a.2 b.2

omit [DecidableEq I] [CharZero K] [Inhabited I] in
/-- Doubles conserve the spin. -/
theorem so_t2_nb (A : SI I K) (a b i j : I × Bool) (h : nb [a, b] ≠ nb [i, j]) : A.so.t2 a b i j = 0 := by
  have e : A.so.t2 a b i j = if nb [a, b] = nb [i, j] then
    (-1) ^ (inv [a, b] + inv [i, j]) * A.T (32 + nb [a, b]) (sortSpin [a, b] ++ sortSpin [i, j]) else 0 := by simp [SI.so, spinT]
  rw [e, if_neg h]

omit [DecidableEq I] [CharZero K] [Inhabited I] in
theorem sum8 {J : Type} (O V : Finset J) (f : J → J → J → J → J → J → J → J → K) :
    ∑ a ∈ V, ∑ b ∈ V, ∑ c ∈ V, ∑ d ∈ V, ∑ i ∈ O, ∑ j ∈ O, ∑ k ∈ O, ∑ l ∈ O, f a b c d i j k l =
    ∑ i ∈ O, ∑ j ∈ O, ∑ a ∈ V, ∑ b ∈ V, ∑ k ∈ O, ∑ l ∈ O, ∑ c ∈ V, ∑ d ∈ V, f a b c d i j k l := by
  simp only [← Finset.sum_product']
  refine Finset.sum_bij' (fun x _ => (x.2.2.2.2.1, x.2.2.2.2.2.1, x.1, x.2.1, x.2.2.2.2.2.2.1, x.2.2.2.2.2.2.2, x.2.2.1, x.2.2.2.1))
    (fun x _ => (x.2.2.1, x.2.2.2.1, x.2.2.2.2.2.2.1, x.2.2.2.2.2.2.2, x.1, x.2.1, x.2.2.2.2.1, x.2.2.2.2.2.1)) ?_ ?_ ?_ ?_ ?_ <;>
    simp +contextual [Finset.mem_product]

/-- `energy_pertQf` of a first-order array, doubles and a quadruples array that is a matrix element. -/
theorem pert_energy (hD : Disjoint (D 0) (D 1)) (A Y B : SI I K) (hA : A.Sym) (hY : Y.Sym) (X : R)
    (h : SamePert D B (pertArrays D A Y fun a b c d i j k l => F.ω (F.bra4 a b c d i j k l * X))) :
    si_energy_pertQf_t4 D B = F.ω (F.T2dag Y.so.t2 * (F.T2dag A.so.t2 * X)) := by
  have hM := bra4_anti F X
  rw [h.energy, C83_pertQf_t4 _ (pertArrays_sym hD A Y hA hY _ hM), sum8]
  unfold Fermi.T2dag
  rw [ω_L2]
  have e : ∀ i ∈ spinD D 0, ∀ j ∈ spinD D 0, ∀ a ∈ spinD D 1, ∀ b ∈ spinD D 1,
      Y.so.t2 a b i j * F.ω (F.bra2 a b i j * (F.L2 (fun i j a b => A.so.t2 a b i j) * X)) =
      1 / 4 * ∑ k ∈ spinD D 0, ∑ l ∈ spinD D 0, ∑ c ∈ spinD D 1, ∑ d ∈ spinD D 1,
        (pertArrays D A Y fun a b c d i j k l => F.ω (F.bra4 a b c d i j k l * X)).so.g i j a b *
        (pertArrays D A Y fun a b c d i j k l => F.ω (F.bra4 a b c d i j k l * X)).so.l2 k l c d *
        (pertArrays D A Y fun a b c d i j k l => F.ω (F.bra4 a b c d i j k l * X)).so.t4 a b c d i j k l := by
    intro i hi j hj a ha b hb
    rw [← mul_assoc (F.bra2 a b i j), bra2_L2 F (spinD_disjoint hD) _ X a b i j ha hb]
    simp only [boxSum, at4]
    rw [mul_left_comm, Finset.mul_sum]
    congr 1
    refine Finset.sum_congr rfl fun k hk => ?_
    rw [Finset.mul_sum]
    refine Finset.sum_congr rfl fun l hl => ?_
    rw [Finset.mul_sum]
    refine Finset.sum_congr rfl fun c hc => ?_
    rw [Finset.mul_sum]
    refine Finset.sum_congr rfl fun d hd => ?_
    rw [pertArrays_g A Y _ i j a b hi hj ha hb, pertArrays_l2]
    by_cases h1 : nb [a, b] = nb [i, j]
    · by_cases h2 : nb [c, d] = nb [k, l]
      · rw [SI.Blocks4.so (M := fun a b c d i j k l => F.ω (F.bra4 a b c d i j k l * X))
          ⟨fun _ _ _ _ _ _ _ _ => rfl, fun _ _ _ _ _ _ _ _ => rfl, fun _ _ _ _ _ _ _ _ => rfl, fun _ _ _ _ _ _ _ _ => rfl,
            fun _ _ _ _ _ _ _ _ => rfl⟩ hM a b c d i j k l ?_, mul_assoc]
        have n : ∀ w x y z : I × Bool, nb [w, x, y, z] = nb [w, x] + nb [y, z] := fun w x y z =>
          List.countP_append (l₁ := [w, x]) (l₂ := [y, z])
        rw [n, n, h1, h2]
      · rw [so_t2_nb A c d k l h2]; simp
    · rw [so_t2_nb Y a b i j h1]; simp
  rw [Finset.sum_congr rfl fun i hi => Finset.sum_congr rfl fun j hj => Finset.sum_congr rfl fun a ha =>
    Finset.sum_congr rfl fun b hb => e i hi j hj a ha b hb]
  simp only [← Finset.mul_sum]
  rw [← mul_assoc]
  norm_num

/-! ## the arrays of the driver -/

omit [DecidableEq I] [Inhabited I] [CharZero K] in
theorem nb_le : ∀ l : List (I × Bool), nb l ≤ l.length
  | [] => le_rfl
  | p :: l => by
      have := nb_le l
      unfold nb at *
      cases hp : p.2 <;> simp [hp] <;> omega

omit [DecidableEq I] [Inhabited I] [CharZero K] in
theorem spinT_congr {T T' : Nat → List I → K} (t : Nat) (l : List (I × Bool))
    (h : ∀ n ≤ l.length / 2, T (8 * (t / 8) + n) = T' (8 * (t / 8) + n)) : spinT T t l = spinT T' t l := by
  unfold spinT
  split_ifs
  · rw [h _ ((nb_le _).trans (by simp))]
  · rfl

omit [DecidableEq I] [Inhabited I] [CharZero K] in
theorem so_t3_congr {A B : SI I K} (h : A.t3_aaaaaa = B.t3_aaaaaa) (h' : A.t3_aabaab = B.t3_aabaab)
    (h'' : A.t3_abbabb = B.t3_abbabb) (h3 : A.t3_bbbbbb = B.t3_bbbbbb) : A.so.t3 = B.so.t3 := by
  funext p q r s u v
  refine spinT_congr 47 [p, q, r, s, u, v] fun n hn => ?_
  obtain rfl | rfl | rfl | rfl : n = 0 ∨ n = 1 ∨ n = 2 ∨ n = 3 := by simp at hn; omega
  exacts [congrArg at6 h, congrArg at6 h', congrArg at6 h'', congrArg at6 h3]

section arrays
variable (d : FullDen I K) (t : String) (A : SI I K)

omit [DecidableEq I] [CharZero K] in
theorem fullT3_so : (fullT3 D d t (set_l2amps A)).so.f = A.so.f ∧ (fullT3 D d t (set_l2amps A)).so.g = A.so.g ∧
    (fullT3 D d t (set_l2amps A)).so.t2 = A.so.t2 := by
  unfold fullT3
  split_ifs <;> exact ⟨so_f_congr _ _ rfl rfl, so_g_congr _ _ rfl rfl rfl, so_t2_congr _ _ rfl rfl rfl⟩
omit [DecidableEq I] [CharZero K] in
theorem fullT3_l2 : (fullT3 D d t A).l2_aaaa = A.l2_aaaa ∧ (fullT3 D d t A).l2_abab = A.l2_abab ∧
    (fullT3 D d t A).l2_bbbb = A.l2_bbbb := by unfold fullT3; split_ifs <;> exact ⟨rfl, rfl, rfl⟩
omit [DecidableEq I] [CharZero K] in
theorem fullT3_gs : (fullT3 D d t A).g_aaaa = A.g_aaaa ∧ (fullT3 D d t A).g_abab = A.g_abab ∧
    (fullT3 D d t A).g_bbbb = A.g_bbbb := by unfold fullT3; split_ifs <;> exact ⟨rfl, rfl, rfl⟩
end arrays

omit [DecidableEq I] in
/-- The triples of the driver have the symmetries of triples. -/
theorem fullT3_sym (d : FullDen I K) (hd : FullDen.Sym d) (t : String) (A : SI I K) (hA : A.Sym) : (fullT3 D d t A).Sym := by
  unfold fullT3
  split_ifs
  · have b := build_T3_anti (spinD D) A.so hA.so
    exact
      { hA with
        t3_aaaaaa_anti0 := fun p q r s u v => by
          show _ * _ = - (_ * _)
          rw [C64_approxT3_aaaaaa D A hA, C64_approxT3_aaaaaa D A hA, ← hd.aaa.ab]
          refine (congrArg (· * _) (neg_eq_iff_eq_neg.2 (b.ab ..)).symm).trans (neg_mul ..)
        t3_aaaaaa_anti1 := fun p q r s u v => by
          show _ * _ = - (_ * _)
          rw [C64_approxT3_aaaaaa D A hA, C64_approxT3_aaaaaa D A hA, ← hd.aaa.bc]
          refine (congrArg (· * _) (neg_eq_iff_eq_neg.2 (b.bc ..)).symm).trans (neg_mul ..)
        t3_aaaaaa_anti3 := fun p q r s u v => by
          show _ * _ = - (_ * _)
          rw [C64_approxT3_aaaaaa D A hA, C64_approxT3_aaaaaa D A hA, ← hd.aaa.ij]
          refine (congrArg (· * _) (neg_eq_iff_eq_neg.2 (b.ij ..)).symm).trans (neg_mul ..)
        t3_aaaaaa_anti4 := fun p q r s u v => by
          show _ * _ = - (_ * _)
          rw [C64_approxT3_aaaaaa D A hA, C64_approxT3_aaaaaa D A hA, ← hd.aaa.jk]
          refine (congrArg (· * _) (neg_eq_iff_eq_neg.2 (b.jk ..)).symm).trans (neg_mul ..)
        t3_aabaab_anti0 := fun p q r s u v => by
          show _ * _ = - (_ * _)
          rw [C64_approxT3_aabaab D A hA, C64_approxT3_aabaab D A hA, ← hd.aab_ab]
          refine (congrArg (· * _) (neg_eq_iff_eq_neg.2 (b.ab ..)).symm).trans (neg_mul ..)
        t3_aabaab_anti3 := fun p q r s u v => by
          show _ * _ = - (_ * _)
          rw [C64_approxT3_aabaab D A hA, C64_approxT3_aabaab D A hA, ← hd.aab_ij]
          refine (congrArg (· * _) (neg_eq_iff_eq_neg.2 (b.ij ..)).symm).trans (neg_mul ..)
        t3_abbabb_anti1 := fun p q r s u v => by
          show _ * _ = - (_ * _)
          rw [C64_approxT3_abbabb D A hA, C64_approxT3_abbabb D A hA, ← hd.abb_bc]
          refine (congrArg (· * _) (neg_eq_iff_eq_neg.2 (b.bc ..)).symm).trans (neg_mul ..)
        t3_abbabb_anti4 := fun p q r s u v => by
          show _ * _ = - (_ * _)
          rw [C64_approxT3_abbabb D A hA, C64_approxT3_abbabb D A hA, ← hd.abb_jk]
          refine (congrArg (· * _) (neg_eq_iff_eq_neg.2 (b.jk ..)).symm).trans (neg_mul ..)
        t3_bbbbbb_anti0 := fun p q r s u v => by
          show _ * _ = - (_ * _)
          rw [C64_approxT3_bbbbbb D A hA, C64_approxT3_bbbbbb D A hA, ← hd.bbb.ab]
          refine (congrArg (· * _) (neg_eq_iff_eq_neg.2 (b.ab ..)).symm).trans (neg_mul ..)
        t3_bbbbbb_anti1 := fun p q r s u v => by
          show _ * _ = - (_ * _)
          rw [C64_approxT3_bbbbbb D A hA, C64_approxT3_bbbbbb D A hA, ← hd.bbb.bc]
          refine (congrArg (· * _) (neg_eq_iff_eq_neg.2 (b.bc ..)).symm).trans (neg_mul ..)
        t3_bbbbbb_anti3 := fun p q r s u v => by
          show _ * _ = - (_ * _)
          rw [C64_approxT3_bbbbbb D A hA, C64_approxT3_bbbbbb D A hA, ← hd.bbb.ij]
          refine (congrArg (· * _) (neg_eq_iff_eq_neg.2 (b.ij ..)).symm).trans (neg_mul ..)
        t3_bbbbbb_anti4 := fun p q r s u v => by
          show _ * _ = - (_ * _)
          rw [C64_approxT3_bbbbbb D A hA, C64_approxT3_bbbbbb D A hA, ← hd.bbb.jk]
          refine (congrArg (· * _) (neg_eq_iff_eq_neg.2 (b.jk ..)).symm).trans (neg_mul ..) }
  · exact hA

/-! ## C84 -/

/-- What the corrections contract with the two de-excitation operators: `1/2 [[V, T2], T2] + [V, T3]`, for the methods with a
star with `1/6 [[[V, T2], T2], T2]` added. -/
def quadOp (h : I × Bool → I × Bool → K) (S : SO (I × Bool) K)
    (t3 : I × Bool → I × Bool → I × Bool → I × Bool → I × Bool → I × Bool → K) (star : Bool) : R :=
  ((1/2 : K) • com (com (F.fluct h S.f S.g) (F.T2 S.t2)) (F.T2 S.t2) + com (F.fluct h S.f S.g) (F.T3 t3)) +
    if star then (1/6 : K) • com (com (com (F.fluct h S.f S.g) (F.T2 S.t2)) (F.T2 S.t2)) (F.T2 S.t2) else 0

/-- The correction of "CCSDT(Qf)", "CCD(Qf)", "CCSD(Qf)" and of the methods with a star: half of
`⟨Φ| T2(1)† T2† (1/2 [[V, T2], T2] + [V, T3] (+ 1/6 [[[V, T2], T2], T2])) |Φ⟩`, where `T2(1)` are the first-order doubles. -/
theorem C84_correction (hD : Disjoint (D 0) (D 1)) (A : SI I K) (hA : A.Sym) (d : FullDen I K) (hd : FullDen.Sym d)
    (cc_type : String) (h : I × Bool → I × Bool → K) (hf : IsFock (spinD D) h A.so.f A.so.g) :
    fullCC_energyMain D d cc_type A true =
      1 / 2 * F.ω (F.T2dag (firstOrder d A).so.t2 * (F.T2dag A.so.t2 *
        quadOp F h A.so (fullT3 D d cc_type (set_l2amps A)).so.t3 (decide (cc_type = "CCSDT(Qf*)" ∨ cc_type = "CCD(Qf*)")))) := by
  have hA' := fullT3_sym (D := D) d hd cc_type _ (set_l2amps_sym A hA)
  have hB : IsFock (spinD D) h (fullT3 D d cc_type (set_l2amps A)).so.f (fullT3 D d cc_type (set_l2amps A)).so.g := by
    rw [(fullT3_so d cc_type A).1, (fullT3_so d cc_type A).2.1]; exact hf
  have l := fullT3_l2 (D := D) d cc_type (set_l2amps A)
  have g := fullT3_gs (D := D) d cc_type (set_l2amps A)
  have e : quadOp F h A.so (fullT3 D d cc_type (set_l2amps A)).so.t3 =
      quadOp F h (fullT3 D d cc_type (set_l2amps A)).so (fullT3 D d cc_type (set_l2amps A)).so.t3 := by
    unfold quadOp
    rw [(fullT3_so d cc_type A).1, (fullT3_so d cc_type A).2.1, (fullT3_so d cc_type A).2.2]
  rw [e]
  clear e
  unfold fullCC_energyMain
  rw [if_pos rfl]
  simp only
  generalize fullT3 D d cc_type (set_l2amps A) = B at hA' hB l g ⊢
  rw [mul_comm]
  congr 1
  refine pert_energy F hD A (firstOrder d A) _ hA (firstOrder_sym d hd A hA) _ ?_
  have hg : ∀ C : SI I K, ∀ M, ∀ i j a b, i ∈ D 0 → j ∈ D 0 → a ∈ D 1 → b ∈ D 1 →
      (firstOrderDag d B C).g_aaaa i j a b = (pertArrays D A (firstOrder d A) M).g_aaaa i j a b ∧
      (firstOrderDag d B C).g_abab i j a b = (pertArrays D A (firstOrder d A) M).g_abab i j a b ∧
      (firstOrderDag d B C).g_bbbb i j a b = (pertArrays D A (firstOrder d A) M).g_bbbb i j a b := by
    intro C M i j a b hi hj ha hb
    have e : ∀ x : I → I → I → I → K, extend D x i j a b = x a b i j := fun x => if_pos ⟨hi, hj, ha, hb⟩
    refine ⟨Eq.trans ?_ (e _).symm, Eq.trans ?_ (e _).symm, Eq.trans ?_ (e _).symm⟩
    · show B.g_aaaa a b i j * _ = _; rw [g.1]; rfl
    · show B.g_abab a b i j * _ = _; rw [g.2.1]; rfl
    · show B.g_bbbb a b i j * _ = _; rw [g.2.2]; rfl
  by_cases hs : cc_type = "CCSDT(Qf*)" ∨ cc_type = "CCD(Qf*)"
  · rw [if_pos hs]
    refine ⟨l.1, l.2.1, l.2.2, hg _ _, fun a b c d i j k l ha hb hc hd hi hj hk hl => ?_⟩
    simp only [hs, decide_true, quadOp, if_true]
    refine ⟨?_, ?_, ?_, ?_, ?_⟩
    · exact (congrArg₂ (· + ·) (C83_ccsdtq_t4_aaaaaaaa F hD B hA' h hB a b c d i j k l ha hb hc hd hi hj hk hl)
        (C83_ccsdtqT2cubed_t4_aaaaaaaa F hD B hA' h hB a b c d i j k l ha hb hc hd hi hj hk hl)).trans
        (by rw [← map_add, ← mul_add]; rfl)
    · exact (congrArg₂ (· + ·) (C83_ccsdtq_t4_aaabaaab F hD B hA' h hB a b c d i j k l ha hb hc hd hi hj hk hl)
        (C83_ccsdtqT2cubed_t4_aaabaaab F hD B hA' h hB a b c d i j k l ha hb hc hd hi hj hk hl)).trans
        (by rw [← map_add, ← mul_add]; rfl)
    · exact (congrArg₂ (· + ·) (C83_ccsdtq_t4_aabbaabb F hD B hA' h hB a b c d i j k l ha hb hc hd hi hj hk hl)
        (C83_ccsdtqT2cubed_t4_aabbaabb F hD B hA' h hB a b c d i j k l ha hb hc hd hi hj hk hl)).trans
        (by rw [← map_add, ← mul_add]; rfl)
    · exact (congrArg₂ (· + ·) (C83_ccsdtq_t4_abbbabbb F hD B hA' h hB a b c d i j k l ha hb hc hd hi hj hk hl)
        (C83_ccsdtqT2cubed_t4_abbbabbb F hD B hA' h hB a b c d i j k l ha hb hc hd hi hj hk hl)).trans
        (by rw [← map_add, ← mul_add]; rfl)
    · exact (congrArg₂ (· + ·) (C83_ccsdtq_t4_bbbbbbbb F hD B hA' h hB a b c d i j k l ha hb hc hd hi hj hk hl)
        (C83_ccsdtqT2cubed_t4_bbbbbbbb F hD B hA' h hB a b c d i j k l ha hb hc hd hi hj hk hl)).trans
        (by rw [← map_add, ← mul_add]; rfl)
  · rw [if_neg hs]
    refine ⟨l.1, l.2.1, l.2.2, hg _ _, fun a b c d i j k l ha hb hc hd hi hj hk hl => ?_⟩
    simp only [hs, decide_false, quadOp, Bool.false_eq_true, if_false, add_zero]
    exact ⟨C83_ccsdtq_t4_aaaaaaaa F hD B hA' h hB a b c d i j k l ha hb hc hd hi hj hk hl,
      C83_ccsdtq_t4_aaabaaab F hD B hA' h hB a b c d i j k l ha hb hc hd hi hj hk hl,
      C83_ccsdtq_t4_aabbaabb F hD B hA' h hB a b c d i j k l ha hb hc hd hi hj hk hl,
      C83_ccsdtq_t4_abbbabbb F hD B hA' h hB a b c d i j k l ha hb hc hd hi hj hk hl,
      C83_ccsdtq_t4_bbbbbbbb F hD B hA' h hB a b c d i j k l ha hb hc hd hi hj hk hl⟩

/-! ### the triples of "CCSD(Qf)" -/

/-- The triples of "CCSD(Qf)" are the second-order triples: the matrix elements `⟨Φ| i† j† k† c b a [V, T2] |Φ⟩` times the
denominators. -/
theorem C84_triples (hD : Disjoint (D 0) (D 1)) (A : SI I K) (hA : A.Sym) (d : FullDen I K)
    (h : I × Bool → I × Bool → K) (hf : IsFock (spinD D) h A.so.f A.so.g) (a b c i j k : I)
    (ha : a ∈ D 1) (hb : b ∈ D 1) (hc : c ∈ D 1) (hi : i ∈ D 0) (hj : j ∈ D 0) (hk : k ∈ D 0) :
    let V2 := com (F.fluct h A.so.f A.so.g) (F.T2 A.so.t2)
    let B := fullT3 D d "CCSD(Qf)" A
    B.t3_aaaaaa a b c i j k = F.ω (F.bra3 (a, false) (b, false) (c, false) (i, false) (j, false) (k, false) * V2) * d.aaa a b c i j k ∧
    B.t3_aabaab a b c i j k = F.ω (F.bra3 (a, false) (b, false) (c, true) (i, false) (j, false) (k, true) * V2) * d.aab a b c i j k ∧
    B.t3_abbabb a b c i j k = F.ω (F.bra3 (a, false) (b, true) (c, true) (i, false) (j, true) (k, true) * V2) * d.abb a b c i j k ∧
    B.t3_bbbbbb a b c i j k = F.ω (F.bra3 (a, true) (b, true) (c, true) (i, true) (j, true) (k, true) * V2) * d.bbb a b c i j k := by
  have m : ∀ (x : I) (s : Bool) (n : ℕ), x ∈ D n → (x, s) ∈ spinD D n := fun x s n hx => by simpa [spinD] using hx
  have e : fullT3 D d "CCSD(Qf)" A = { A with
      t3_aaaaaa := fun a b c i j k => approxT3_aaaaaa D A a b c i j k * d.aaa a b c i j k
      t3_aabaab := fun a b c i j k => approxT3_aabaab D A a b c i j k * d.aab a b c i j k
      t3_abbabb := fun a b c i j k => approxT3_abbabb D A a b c i j k * d.abb a b c i j k
      t3_bbbbbb := fun a b c i j k => approxT3_bbbbbb D A a b c i j k * d.bbb a b c i j k } := if_pos rfl
  have q : ∀ s t u v w z, _ := fun s t u v w z => C77_T3 F (spinD_disjoint hD) A.so hA.so h hf (a, s) (b, t) (c, u) (i, v) (j, w) (k, z)
    (m _ _ _ ha) (m _ _ _ hb) (m _ _ _ hc) (m _ _ _ hi) (m _ _ _ hj) (m _ _ _ hk)
  simp only [e, q]
  exact ⟨congrArg (· * _) (C64_approxT3_aaaaaa D A hA a b c i j k), congrArg (· * _) (C64_approxT3_aabaab D A hA a b c i j k),
    congrArg (· * _) (C64_approxT3_abbabb D A hA a b c i j k), congrArg (· * _) (C64_approxT3_bbbbbb D A hA a b c i j k)⟩

/-! ### the energy of an iteration -/

omit [DecidableEq I] in
/-- Without the flag the driver returns the CCSD energy of the spin orbitals, for every method. -/
theorem C84_energy (A : SI I K) (hA : A.Sym) (d : FullDen I K) (cc_type : String) :
    fullCC_energyMain D d cc_type A false = spinorbitalCCSDE (spinD D) A.so := C64_ccsd_energy (D := D) A hA

/-! ### the routes to a `(Qf)` correction -/

/-- The denominators of the spin orbitals, from those of the spin blocks. -/
def soDen (d : FullDen I K) (a b i j : I × Bool) : K :=
  match a.2, b.2 with
  | false, false => d.aa a.1 b.1 i.1 j.1
  | true, true => d.bb a.1 b.1 i.1 j.1
  | false, true => if j.2 then d.ab a.1 b.1 i.1 j.1 else d.ab a.1 b.1 j.1 i.1
  | true, false => if j.2 then d.ab b.1 a.1 i.1 j.1 else d.ab b.1 a.1 j.1 i.1

omit [DecidableEq I] [CharZero K] [Inhabited I] in
/-- With `D2ab = 1/(εi + εj - εa - εb)` and so on, these are the usual denominators of the spin orbitals. -/
theorem soDen_energies (d : FullDen I K) (ε : I × Bool → K)
    (haa : ∀ a b i j, d.aa a b i j = 1 / (ε (i, false) + ε (j, false) - ε (a, false) - ε (b, false)))
    (hab : ∀ a b i j, d.ab a b i j = 1 / (ε (i, false) + ε (j, true) - ε (a, false) - ε (b, true)))
    (hbb : ∀ a b i j, d.bb a b i j = 1 / (ε (i, true) + ε (j, true) - ε (a, true) - ε (b, true)))
    (a b i j : I × Bool) (h : nb [a, b] = nb [i, j]) : soDen d a b i j = 1 / (ε i + ε j - ε a - ε b) := by
  obtain ⟨a, sa⟩ := a
  obtain ⟨b, sb⟩ := b
  obtain ⟨i, si⟩ := i
  obtain ⟨j, sj⟩ := j
  cases sa <;> cases sb <;> cases si <;> cases sj <;> simp [nb] at h <;> simp only [soDen, haa, hab, hbb, if_true, Bool.false_eq_true, if_false] <;>
    first | rfl | exact congrArg (1 / ·) (by ring1)

omit [DecidableEq I] [CharZero K] [Inhabited I] in
theorem firstOrder_so (d : FullDen I K) (A : SI I K) :
    (firstOrder d A).so.t2 = fun a b i j => A.so.g a b i j * soDen d a b i j := by
  funext ⟨a, sa⟩ ⟨b, sb⟩ ⟨i, si⟩ ⟨j, sj⟩
  by_cases hz : sa.toNat + sb.toNat = si.toNat + sj.toNat
  · obtain ⟨g1, g2⟩ := A.so_g_same a b i j
    obtain ⟨g3, g4, g5, g6⟩ := A.so_g_mixed a b i j
    obtain ⟨t1, t2⟩ := (firstOrder d A).so_t2_same a b i j
    obtain ⟨t3, t4, t5, t6⟩ := (firstOrder d A).so_t2_mixed a b i j
    cases sa <;> cases sb <;> cases si <;> cases sj <;> simp at hz <;>
      simp only [g1, g2, g3, g4, g5, g6, t1, t2, t3, t4, t5, t6, soDen, if_true, Bool.false_eq_true, if_false, neg_mul] <;> rfl
  · rw [A.so_g_zero _ _ _ _ _ _ _ _ hz, (firstOrder d A).so_t2_zero _ _ _ _ _ _ _ _ hz, zero_mul]

omit [DecidableEq I] [CharZero K] [Inhabited I] in
theorem so_t3_zero (A : SI I K) (h1 : A.t3_aaaaaa = 0) (h2 : A.t3_aabaab = 0) (h3 : A.t3_abbabb = 0) (h4 : A.t3_bbbbbb = 0) :
    A.so.t3 = 0 := by
  have e : A.so.t3 = ({ A with t3_aaaaaa := 0, t3_aabaab := 0, t3_abbabb := 0, t3_bbbbbb := 0 } : SI I K).so.t3 :=
    so_t3_congr h1 h2 h3 h4
  rw [e]
  funext p q r s u v
  refine (spinT_congr (T' := fun _ _ => 0) 47 [p, q, r, s, u, v] fun n hn => ?_).trans ?_
  · obtain rfl | rfl | rfl | rfl : n = 0 ∨ n = 1 ∨ n = 2 ∨ n = 3 := by simp at hn; omega
    all_goals exact funext fun l => by simp [SI.T, at6]; split <;> rfl
  · unfold spinT; simp

/-- Without triples the correction of "CCD(Qf)" and "CCSDT(Qf)" is the factorised order 5 energy of the spin-orbital XCCD code,
and for the methods with a star the sum of its factorised energies of the orders 5 and 6. -/
theorem C84_routes (hD : Disjoint (D 0) (D 1)) (A : SI I K) (hA : A.Sym) (d : FullDen I K) (hd : FullDen.Sym d)
    (cc_type : String) (hc : cc_type ≠ "CCSD(Qf)")
    (h1 : A.t3_aaaaaa = 0) (h2 : A.t3_aabaab = 0) (h3 : A.t3_abbabb = 0) (h4 : A.t3_bbbbbb = 0) :
    some (fullCC_energyMain D d cc_type A true) =
      if cc_type = "CCSDT(Qf*)" ∨ cc_type = "CCD(Qf*)" then add_XCCenergy (spinD D) A.so (soDen d) true [5, 6]
      else buildXCCD_T2energy (spinD D) A.so (soDen d) 5 true := by
  obtain ⟨F⟩ := exists_fermi (K := K) (spinD_disjoint hD)
  obtain ⟨h, hf⟩ := exists_isFock (D := spinD D) A.so
  have hz : (fullT3 D d cc_type (set_l2amps A)).so.t3 = 0 := by
    unfold fullT3
    rw [if_neg hc]
    exact so_t3_zero _ h1 h2 h3 h4
  have h0 : F.T3 0 = 0 := by simp [Fermi.T3]
  rw [C84_correction F hD A hA d hd cc_type h hf, hz, firstOrder_so]
  unfold quadOp
  rw [h0]
  by_cases hs : cc_type = "CCSDT(Qf*)" ∨ cc_type = "CCD(Qf*)"
  · rw [if_pos hs]
    simp only [add_XCCenergy, List.foldlM_cons, List.foldlM_nil, (C78_energy5 F (spinD_disjoint hD) A.so hA.so h hf _).1,
      (C78_energy6 F (spinD_disjoint hD) A.so hA.so h hf _).1, Option.map_some, Option.bind_eq_bind, Option.bind_some, zero_add,
      hs, decide_true, if_true, com, mul_zero, zero_mul, sub_zero, add_zero, mul_add, map_add]
    rfl
  · rw [if_neg hs, (C78_energy5 F (spinD_disjoint hD) A.so hA.so h hf _).1]
    simp only [hs, decide_false, Bool.false_eq_true, if_false, com, mul_zero, zero_mul, sub_zero, add_zero]

/-! ### the hypotheses can be met -/

/-- Denominators from orbital energies `p` for both spins. -/
def denW : FullDen ℕ ℚ :=
  let d4 (a b i j : ℕ) : ℚ := 1 / (i + j - a - b)
  let d6 (a b c i j k : ℕ) : ℚ := 1 / (i + j + k - a - b - c)
  ⟨d4, d4, d4, d6, d6, d6, d6⟩

theorem denW_sym : FullDen.Sym denW := by
  have h4 : Sym4 (fun a b i j : ℕ => (1 / (i + j - a - b) : ℚ)) :=
    ⟨fun a b i j => congrArg (1 / ·) (by ring), fun a b i j => congrArg (1 / ·) (by ring)⟩
  have h6 : Sym6 (fun a b c i j k : ℕ => (1 / (i + j + k - a - b - c) : ℚ)) :=
    ⟨fun a b c i j k => congrArg (1 / ·) (by ring), fun a b c i j k => congrArg (1 / ·) (by ring),
      fun a b c i j k => congrArg (1 / ·) (by ring), fun a b c i j k => congrArg (1 / ·) (by ring)⟩
  exact ⟨h4, h4, h6, h6, h6.ab, h6.ij, h6.bc, h6.jk⟩

/-- The witness arrays without triples. -/
def siW : SI ℕ ℚ := { Witness.si with t3_aaaaaa := 0, t3_aabaab := 0, t3_abbabb := 0, t3_bbbbbb := 0 }

theorem siW_sym : siW.Sym :=
  { Witness.si_sym with
    t3_aaaaaa_anti0 := fun _ _ _ _ _ _ => neg_zero.symm
    t3_aaaaaa_anti1 := fun _ _ _ _ _ _ => neg_zero.symm
    t3_aaaaaa_anti3 := fun _ _ _ _ _ _ => neg_zero.symm
    t3_aaaaaa_anti4 := fun _ _ _ _ _ _ => neg_zero.symm
    t3_aabaab_anti0 := fun _ _ _ _ _ _ => neg_zero.symm
    t3_aabaab_anti3 := fun _ _ _ _ _ _ => neg_zero.symm
    t3_abbabb_anti1 := fun _ _ _ _ _ _ => neg_zero.symm
    t3_abbabb_anti4 := fun _ _ _ _ _ _ => neg_zero.symm
    t3_bbbbbb_anti0 := fun _ _ _ _ _ _ => neg_zero.symm
    t3_bbbbbb_anti1 := fun _ _ _ _ _ _ => neg_zero.symm
    t3_bbbbbb_anti3 := fun _ _ _ _ _ _ => neg_zero.symm
    t3_bbbbbb_anti4 := fun _ _ _ _ _ _ => neg_zero.symm }

theorem disjW : Disjoint (Witness.D 0) (Witness.D 1) := by decide

example : some (fullCC_energyMain Witness.D denW "CCD(Qf*)" siW true) =
    add_XCCenergy (spinD Witness.D) siW.so (soDen denW) true [5, 6] :=
  (C84_routes disjW siW siW_sym denW denW_sym "CCD(Qf*)" (by decide) rfl rfl rfl rfl).trans (if_pos (Or.inr rfl))

example : some (fullCC_energyMain Witness.D denW "CCD(Qf)" siW true) =
    buildXCCD_T2energy (spinD Witness.D) siW.so (soDen denW) 5 true :=
  (C84_routes disjW siW siW_sym denW denW_sym "CCD(Qf)" (by decide) rfl rfl rfl rfl).trans (if_neg (by decide))

/-- There are operators for the witness, the first-order doubles and the triples of "CCSD(Qf)" are not zero. -/
example : (firstOrder denW siW).t2_abab 2 3 0 1 ≠ 0 := by decide +kernel
example : (fullT3 Witness.D denW "CCSD(Qf)" siW).t3_aabaab 2 3 2 0 1 0 ≠ 0 := by decide +kernel
example : ccsdtq_t4_aabbaabb Witness.D siW 2 3 2 3 0 1 0 1 ≠ 0 := by decide +kernel
example : fullCC_energyMain Witness.D denW "CCSDT(Qf)" siW false ≠ 0 := by decide +kernel
example : Nonempty (Fermi (ℕ × Bool) ℚ (Module.End ℚ (Fock (ℕ × Bool) ℚ)) (spinD Witness.D)) :=
  exists_fermi (spinD_disjoint disjW)

end Verif.Props
