import Verif.Model.AmpPert
import Mathlib.Algebra.BigOperators.Fin
import Mathlib.Algebra.BigOperators.Ring.Finset
import Mathlib.Algebra.Field.Basic
import Mathlib.Tactic.Ring
import Mathlib.Tactic.Linarith
import Mathlib.Tactic.NormNum
import Mathlib.Tactic.FieldSimp
import Mathlib.Algebra.CharZero.Defs

/-!
# Perturbation energies of the test routes (C61, C80)
-/

namespace Verif.Props
open Verif.AmpPert

variable {K : Type*} [Field K] {no nv : ℕ}

/-- Antisymmetrised two-electron integrals of real orbitals. -/
structure IsTwo (g : Two no nv K) : Prop where
  left : ∀ p q r s, g q p r s = -g p q r s
  right : ∀ p q r s, g p q s r = -g p q r s
  conj : ∀ p q r s, g r s p q = g p q r s

/-- Antisymmetric amplitudes. -/
structure IsAnti (T : Oovv no nv K) : Prop where
  occ : ∀ i j a b, T j i a b = -T i j a b
  virt : ∀ i j a b, T i j b a = -T i j a b

/-- The denominator `ε_i + ε_j - ε_a - ε_b`. -/
def gap (e : Orb no nv → K) (i j : Fin no) (a b : Fin nv) : K := e (.inl i) + e (.inl j) - e (.inr a) - e (.inr b)

/-- The array `D2aa` for orbital energies `e` (C23). -/
def denom (e : Orb no nv → K) : Vvoo no nv K := fun a b i j => 1 / gap e i j a b

/-- The second-order energy: a quarter of the sum of `|⟨ij||ab⟩|²` over the denominators. -/
def mp2Energy (g : Two no nv K) (e : Orb no nv → K) : K :=
  (1/4) * ∑ i, ∑ j, ∑ a, ∑ b, g (.inl i) (.inl j) (.inr a) (.inr b) * g (.inr a) (.inr b) (.inl i) (.inl j) / gap e i j a b

/-- The third-order energy (Szabo and Ostlund, equation 6.75): hole-hole, particle-particle and particle-hole terms. -/
def mp3Energy (g : Two no nv K) (e : Orb no nv → K) : K :=
  (1/8) * (∑ i, ∑ j, ∑ a, ∑ b, ∑ k, ∑ l, g (.inl i) (.inl j) (.inr a) (.inr b) * g (.inr a) (.inr b) (.inl k) (.inl l)
      * g (.inl k) (.inl l) (.inl i) (.inl j) / (gap e i j a b * gap e k l a b))
  + (1/8) * (∑ i, ∑ j, ∑ a, ∑ b, ∑ c, ∑ d, g (.inl i) (.inl j) (.inr a) (.inr b) * g (.inr a) (.inr b) (.inr c) (.inr d)
      * g (.inr c) (.inr d) (.inl i) (.inl j) / (gap e i j a b * gap e i j c d))
  + ∑ i, ∑ j, ∑ a, ∑ b, ∑ k, ∑ c, g (.inl i) (.inl j) (.inr a) (.inr b) * g (.inl k) (.inr b) (.inr c) (.inl j)
      * g (.inr a) (.inr c) (.inl i) (.inl k) / (gap e i j a b * gap e i k a c)

/-! ### Sums over antisymmetric arrays -/

section sums
variable (X : Vvoo no nv K)

/-- The full sum of two arrays. -/
def pair (R : Oovv no nv K) (X : Vvoo no nv K) : K := ∑ i, ∑ j, ∑ a, ∑ b, R i j a b * X a b i j

theorem pair_swapO (R : Oovv no nv K) (hX : ∀ a b i j, X a b j i = -X a b i j) :
    pair (fun i j a b => R j i a b) X = -pair R X := by
  unfold pair
  rw [Finset.sum_comm]
  simp only [← Finset.sum_neg_distrib]
  refine Finset.sum_congr rfl fun i _ => Finset.sum_congr rfl fun j _ => Finset.sum_congr rfl fun a _ => Finset.sum_congr rfl fun b _ => ?_
  rw [hX]; ring

theorem pair_swapV (R : Oovv no nv K) (hX : ∀ a b i j, X b a i j = -X a b i j) :
    pair (fun i j a b => R i j b a) X = -pair R X := by
  unfold pair
  simp only [← Finset.sum_neg_distrib]
  refine Finset.sum_congr rfl fun i _ => Finset.sum_congr rfl fun j _ => ?_
  rw [Finset.sum_comm]
  refine Finset.sum_congr rfl fun a _ => Finset.sum_congr rfl fun b _ => ?_
  rw [hX]; ring

theorem pair_anti (R : Oovv no nv K) (hO : ∀ a b i j, X a b j i = -X a b i j) (hV : ∀ a b i j, X b a i j = -X a b i j) :
    pair (antisymT2 R) X = 4 * pair R X := by
  have h : pair (antisymT2 R) X = pair R X - pair (fun i j a b => R j i a b) X - pair (fun i j a b => R i j b a) X
      + pair (fun i j a b => R j i b a) X := by
    unfold pair antisymT2
    simp only [← Finset.sum_sub_distrib, ← Finset.sum_add_distrib]
    refine Finset.sum_congr rfl fun i _ => Finset.sum_congr rfl fun j _ => Finset.sum_congr rfl fun a _ => Finset.sum_congr rfl fun b _ => ?_
    ring
  rw [h, pair_swapO X (fun i j a b => R i j b a) hO, pair_swapV X R hV, pair_swapO X R hO]
  ring

theorem pair_add (R S : Oovv no nv K) : pair (fun i j a b => R i j a b + S i j a b) X = pair R X + pair S X := by
  unfold pair
  simp only [← Finset.sum_add_distrib, add_mul]

end sums

theorem antisymT2_anti (R : Oovv no nv K) : IsAnti (antisymT2 R) :=
  ⟨fun i j a b => by unfold antisymT2; ring, fun i j a b => by unfold antisymT2; ring⟩

theorem gap_swapO (e : Orb no nv → K) (i j : Fin no) (a b : Fin nv) : gap e j i a b = gap e i j a b := by unfold gap; ring
theorem gap_swapV (e : Orb no nv → K) (i j : Fin no) (a b : Fin nv) : gap e i j b a = gap e i j a b := by unfold gap; ring

theorem divide_anti (e : Orb no nv → K) (R : Oovv no nv K) (h : IsAnti R) : IsAnti (divide (denom e) R) :=
  ⟨fun i j a b => by simp only [divide, toOovv, toVvoo, denom, h.occ i j, gap_swapO e i j]; ring,
   fun i j a b => by simp only [divide, toOovv, toVvoo, denom, h.virt i j a b, gap_swapV e i j a b]; ring⟩

variable [CharZero K]

/-- The first-order amplitudes are the integrals over the denominators. -/
theorem buildMP2_eq {g : Two no nv K} (hg : IsTwo g) (e : Orb no nv → K) (i j : Fin no) (a b : Fin nv) :
    buildMP2 g (denom e) i j a b = g (.inl i) (.inl j) (.inr a) (.inr b) / gap e i j a b := by
  have h4 : (4 : K) ≠ 0 := by norm_num
  simp only [buildMP2, divide, toOovv, toVvoo, antisymT2, denom, hg.left (.inl i) (.inl j), hg.right (.inl i) (.inl j) (.inr a) (.inr b)]
  field_simp
  ring

/-- **C61, second order.** The value printed as "full MP2 energy" is the second-order energy. -/
theorem C61_mp2_partial {g : Two no nv K} (hg : IsTwo g) (e : Orb no nv → K) (T1 : Fin no → Fin nv → K) (T2 : Oovv no nv K) :
    (printed g (denom e) T1 T2).mp2 = mp2Energy g e := by
  simp only [printed, energy, mp2Energy]
  congr 1
  refine Finset.sum_congr rfl fun i _ => Finset.sum_congr rfl fun j _ => Finset.sum_congr rfl fun a _ => Finset.sum_congr rfl fun b _ => ?_
  rw [buildMP2_eq hg]; ring

/-- The energy of `D * antisym(R)`. -/
theorem energy_divide {g : Two no nv K} (hg : IsTwo g) (e : Orb no nv → K) (R : Oovv no nv K) :
    energy (divide (denom e) (antisymT2 R)) g = pair R fun a b i j => g (.inl i) (.inl j) (.inr a) (.inr b) / gap e i j a b := by
  have h4 : (4 : K) ≠ 0 := by norm_num
  have h := pair_anti (fun a b i j => g (.inl i) (.inl j) (.inr a) (.inr b) / gap e i j a b) R
    (fun a b i j => by rw [hg.left (.inl i), gap_swapO e i j]; ring) (fun a b i j => by rw [hg.right (.inl i) (.inl j) (.inr a), gap_swapV e i j a b]; ring)
  rw [← mul_right_inj' h4, ← h, energy, ← mul_assoc, mul_one_div_cancel h4, one_mul]
  unfold pair
  refine Finset.sum_congr rfl fun i _ => Finset.sum_congr rfl fun j _ => Finset.sum_congr rfl fun a _ => Finset.sum_congr rfl fun b _ => ?_
  simp only [divide, toOovv, toVvoo, denom, hg.conj (.inl i)]
  ring

/-- The energy of the second-order amplitudes is the third-order energy. -/
theorem energy_second {g : Two no nv K} (hg : IsTwo g) (e : Orb no nv → K) :
    energy (buildLCCD (buildMP2 g (denom e)) g (denom e)) g = mp3Energy g e := by
  rw [buildLCCD, energy_divide hg]
  unfold lccdRaw mp3Energy
  rw [pair_add, pair_add, add_right_comm]
  unfold pair
  simp only [Finset.mul_sum, Finset.sum_mul]
  refine congrArg₂ _ (congrArg₂ _ ?_ ?_) ?_ <;>
  refine Finset.sum_congr rfl fun i _ => Finset.sum_congr rfl fun j _ => Finset.sum_congr rfl fun a _ => Finset.sum_congr rfl fun b _ =>
    Finset.sum_congr rfl fun x _ => Finset.sum_congr rfl fun y _ => ?_
  · rw [buildMP2_eq hg, ← hg.conj (.inl x) (.inl y) (.inr a) (.inr b), hg.conj (.inl i) (.inl j) (.inl x) (.inl y)]
    ring
  · rw [buildMP2_eq hg, hg.conj (.inl i) (.inl j) (.inr x) (.inr y), hg.conj (.inr x) (.inr y) (.inr a) (.inr b)]
    ring
  · rw [buildMP2_eq hg, hg.conj (.inl i) (.inl x) (.inr a) (.inr y), hg.conj (.inr y) (.inl j) (.inl x) (.inr b), hg.left (.inl j) (.inr y)]
    ring

/-- **C61, third order.** The value printed as "full MP3 energy" is minus the third-order energy. -/
theorem C61_mp3_partial {g : Two no nv K} (hg : IsTwo g) (e : Orb no nv → K) (T1 : Fin no → Fin nv → K) (T2 : Oovv no nv K) :
    (printed g (denom e) T1 T2).mp3 = -mp3Energy g e := by
  simp only [printed, energy_second hg]

/-- **C61, linearised coupled cluster.** Amplitudes that solve the linearised equations `gap * T = ⟨ij||ab⟩ + (W T)`
have the second-order energy plus minus the value printed as "test LCCD energy". -/
theorem C61_lccd_partial {g : Two no nv K} (hg : IsTwo g) (e : Orb no nv → K) (he : ∀ i j a b, gap e i j a b ≠ 0)
    (T1 : Fin no → Fin nv → K) (T2 : Oovv no nv K)
    (hT : ∀ i j a b, gap e i j a b * T2 i j a b = g (.inl i) (.inl j) (.inr a) (.inr b) + antisymT2 (lccdRaw T2 g) i j a b) :
    energy T2 g = mp2Energy g e - (printed g (denom e) T1 T2).lccd := by
  rw [← C61_mp2_partial hg e T1 T2]
  simp only [printed, sub_neg_eq_add, energy, ← mul_add, ← Finset.sum_add_distrib]
  congr 1
  refine Finset.sum_congr rfl fun i _ => Finset.sum_congr rfl fun j _ => Finset.sum_congr rfl fun a _ => Finset.sum_congr rfl fun b _ => ?_
  have h : T2 i j a b = (g (.inl i) (.inl j) (.inr a) (.inr b) + antisymT2 (lccdRaw T2 g) i j a b) / gap e i j a b := by
    rw [← hT]; field_simp [he i j a b]
  rw [buildMP2_eq hg, h]
  simp only [buildLCCD, divide, toOovv, toVvoo, denom]
  ring

omit [CharZero K] in
theorem foldl_kill (l : List (ℕ × ℕ)) (T : Oovv no nv K) (i j : Fin no) (a b : Fin nv) :
    l.foldl kill T i j a b = if ∃ x ∈ l, (i.val = x.1 ∧ j.val = x.1 + 1 ∨ i.val = x.1 + 1 ∧ j.val = x.1)
      ∧ (a.val = x.2 ∧ b.val = x.2 + 1 ∨ a.val = x.2 + 1 ∧ b.val = x.2) then 0 else T i j a b := by
  induction l generalizing T with
  | nil => simp
  | cons x l ih =>
    rw [List.foldl_cons, ih]
    by_cases h : ∃ x ∈ l, (i.val = x.1 ∧ j.val = x.1 + 1 ∨ i.val = x.1 + 1 ∧ j.val = x.1)
      ∧ (a.val = x.2 ∧ b.val = x.2 + 1 ∨ a.val = x.2 + 1 ∧ b.val = x.2)
    · rw [if_pos h, if_pos]
      obtain ⟨y, hy, h⟩ := h
      exact ⟨y, List.mem_cons_of_mem _ hy, h⟩
    · rw [if_neg h]
      unfold kill
      refine if_congr ?_ rfl rfl
      constructor
      · rintro (⟨h1, h2, h3, h4⟩ | ⟨h1, h2, h3, h4⟩ | ⟨h1, h2, h3, h4⟩ | ⟨h1, h2, h3, h4⟩) <;>
          exact ⟨x, List.mem_cons_self, by tauto⟩
      · rintro ⟨y, hy, h1⟩
        rcases List.mem_cons.1 hy with rfl | hy
        · tauto
        · exact absurd ⟨y, hy, h1⟩ h

/-- Orbitals next to each other. -/
def Next {n : ℕ} (x y : Fin n) : Prop := x.val + 1 = y.val ∨ y.val + 1 = x.val

instance {n : ℕ} (x y : Fin n) : Decidable (Next x y) := by unfold Next; infer_instance

omit [CharZero K] in
/-- `kill_Diag_T2` sets to zero exactly the entries with neighbouring occupied and neighbouring virtual orbitals. -/
theorem killDiag_eq (T : Oovv no nv K) (i j : Fin no) (a b : Fin nv) :
    killDiag T i j a b = if Next i j ∧ Next a b then 0 else T i j a b := by
  rw [killDiag, foldl_kill]
  refine if_congr ?_ rfl rfl
  simp only [List.mem_flatMap, List.mem_range, List.mem_map, Next]
  constructor
  · rintro ⟨x, -, h⟩; omega
  · rintro ⟨h1, h2⟩
    refine ⟨(min i.val j.val, min a.val b.val), ⟨_, ?_, _, ?_, rfl⟩, ?_⟩ <;> (have := i.isLt; have := j.isLt; have := a.isLt; have := b.isLt; try simp only) <;> omega

omit [CharZero K] in
/-- Unlike the loop of `determine_pCCD_correction` (C73, C74), `kill_Diag_T2` keeps the amplitudes antisymmetric. -/
theorem C61_kill_anti {T : Oovv no nv K} (h : IsAnti T) : IsAnti (killDiag T) := by
  have s : ∀ {n : ℕ} (x y : Fin n), Next x y ↔ Next y x := fun x y => by unfold Next; tauto
  constructor <;> intro i j a b
  · rw [killDiag_eq, killDiag_eq, h.occ i j]; simp only [s j i]; split_ifs <;> simp
  · rw [killDiag_eq, killDiag_eq, h.virt i j a b]; simp only [s b a]; split_ifs <;> simp

/-- **C61, off-diagonal second order.** The value printed as "off Diag MP2 energy" is the second-order energy without
the terms of neighbouring orbitals. -/
theorem C61_mp2Off_partial {g : Two no nv K} (hg : IsTwo g) (e : Orb no nv → K) (T1 : Fin no → Fin nv → K) (T2 : Oovv no nv K) :
    (printed g (denom e) T1 T2).mp2Off = (1/4) * ∑ i, ∑ j, ∑ a, ∑ b, if Next i j ∧ Next a b then 0
      else g (.inl i) (.inl j) (.inr a) (.inr b) * g (.inr a) (.inr b) (.inl i) (.inl j) / gap e i j a b := by
  simp only [printed, energy]
  congr 1
  refine Finset.sum_congr rfl fun i _ => Finset.sum_congr rfl fun j _ => Finset.sum_congr rfl fun a _ => Finset.sum_congr rfl fun b _ => ?_
  rw [killDiag_eq, buildMP2_eq hg]
  split_ifs
  · rw [zero_mul]
  · ring

omit [CharZero K] in
/-- The value printed as "off diag LCCD energy" is the other one without the terms of neighbouring orbitals. -/
theorem C61_lccdOff_partial (g : Two no nv K) (D : Vvoo no nv K) (T1 : Fin no → Fin nv → K) (T2 : Oovv no nv K) :
    (printed g D T1 T2).lccd - (printed g D T1 T2).lccdOff = -(1/4) * ∑ i, ∑ j, ∑ a, ∑ b, if Next i j ∧ Next a b then
      antisymT2 (lccdRaw T2 g) i j a b * D a b i j * g (.inr a) (.inr b) (.inl i) (.inl j) else 0 := by
  simp only [printed, energy]
  rw [neg_sub_neg, ← mul_sub, neg_mul, ← neg_sub, mul_neg]
  simp only [← Finset.sum_sub_distrib]
  refine congrArg Neg.neg (congrArg _ ?_)
  refine Finset.sum_congr rfl fun i _ => Finset.sum_congr rfl fun j _ => Finset.sum_congr rfl fun a _ => Finset.sum_congr rfl fun b _ => ?_
  rw [killDiag_eq, buildLCCD]
  simp only [divide, toOovv, toVvoo]
  split_ifs <;> ring

/-! ### `run_UCCDcheck` -/

/-- **C80.** For antisymmetric amplitudes and integrals the two routes to the third diagram give the same energy, and
the first two diagrams agree. -/
theorem C80_routes {g : Two no nv K} (hg : IsTwo g) (f : Orb no nv → Orb no nv → K) (Tdag : Vvoo no nv K) (hT : IsAnti (toOovv Tdag)) :
    (uccdCheck g f Tdag).newC = (uccdCheck g f Tdag).c ∧ (uccdCheck g f Tdag).a = (uccdCheck g f Tdag).b := by
  have h4 : (4 : K) ≠ 0 := by norm_num
  constructor
  · have h := pair_anti Tdag (lccdRaw (toOovv Tdag) g) (fun a b i j => hT.occ i j a b) (fun a b i j => hT.virt i j a b)
    simp only [uccdCheck]
    rw [show (∑ i, ∑ j, ∑ a, ∑ b, antisymT2 (lccdRaw (toOovv Tdag) g) i j a b * Tdag a b i j) = _ from h, ← mul_assoc, one_div_mul_cancel h4, one_mul]
    unfold lccdRaw
    rw [pair_add, pair_add]
    unfold pair
    simp only [Finset.mul_sum, Finset.sum_mul]
    have swap : ∀ x y z : K, x + y + z = z + y + x := fun x y z => by ring
    rw [swap]
    refine congrArg₂ _ (congrArg₂ _ ?_ ?_) ?_
    · refine Finset.sum_congr rfl fun i _ => Finset.sum_congr rfl fun j _ => Finset.sum_congr rfl fun a _ => Finset.sum_congr rfl fun b _ =>
        Finset.sum_congr rfl fun c _ => Finset.sum_congr rfl fun d _ => ?_
      rw [hg.conj (.inr a) (.inr b)]; simp only [toOovv]; ring
    · refine Finset.sum_congr rfl fun i _ => Finset.sum_congr rfl fun j _ => Finset.sum_congr rfl fun a _ => Finset.sum_congr rfl fun b _ => ?_
      rw [Finset.sum_comm]
      refine Finset.sum_congr rfl fun c _ => Finset.sum_congr rfl fun k _ => ?_
      rw [hg.conj (.inl k) (.inr b)]; simp only [toOovv]; ring
    · refine Finset.sum_congr rfl fun i _ => Finset.sum_congr rfl fun j _ => Finset.sum_congr rfl fun a _ => Finset.sum_congr rfl fun b _ =>
        Finset.sum_congr rfl fun k _ => Finset.sum_congr rfl fun l _ => ?_
      rw [hg.conj (.inl k) (.inl l)]; simp only [toOovv]; ring
  · simp only [uccdCheck]
    refine congrArg _ ?_
    simp only [← Fintype.sum_prod_type']
    refine Fintype.sum_equiv (⟨fun x => (x.2.2.1, x.2.2.2, x.1, x.2.1), fun x => (x.2.2.1, x.2.2.2, x.1, x.2.1), fun _ => rfl, fun _ => rfl⟩ :
      Fin no × Fin no × Fin nv × Fin nv ≃ Fin nv × Fin nv × Fin no × Fin no) _ _ fun x => ?_
    simp only [toOovv, Equiv.coe_fn_mk]
    rw [hg.conj (.inl _) (.inl _)]

/-! ### A system with two electrons in four orbitals -/

/-- `1` for the first two orbitals of a kind in order, `-1` in reverse order. -/
def ordered : Orb 2 2 → Orb 2 2 → ℚ
  | .inl x, .inl y => (y : ℚ) - x
  | .inr x, .inr y => (y : ℚ) - x
  | _, _ => 0

/-- Integrals that couple the two pairs. -/
def pairG : Two 2 2 ℚ := fun p q r s => ordered p q * ordered r s

theorem pairG_two : IsTwo pairG := by
  have h : ∀ p q, ordered q p = -ordered p q := by
    rintro (p | p) (q | q) <;> simp [ordered]
  exact ⟨fun p q r s => by unfold pairG; rw [h p q]; ring, fun p q r s => by unfold pairG; rw [h r s]; ring, fun p q r s => by unfold pairG; ring⟩

/-- Orbital energies with a gap. -/
def pairE : Orb 2 2 → ℚ
  | .inl _ => -1
  | .inr _ => 1

theorem pairE_gap (i j : Fin 2) (a b : Fin 2) : gap pairE i j a b ≠ 0 := by simp only [gap, pairE]; norm_num

theorem pair_mp3 : mp3Energy pairG pairE = 1/8 := by
  simp only [mp3Energy, Fin.sum_univ_two, gap, pairE, pairG, ordered]
  norm_num

example : mp2Energy pairG pairE = -1/4 := by
  simp only [mp2Energy, Fin.sum_univ_two, gap, pairE, pairG, ordered]
  norm_num

/-- **C61, violated.** Not for every system is the value printed as "full MP3 energy" the third-order energy. -/
theorem C61_mp3_violated :
    ¬∀ (no nv : ℕ) (g : Two no nv ℚ) (e : Orb no nv → ℚ) (T1 : Fin no → Fin nv → ℚ) (T2 : Oovv no nv ℚ), IsTwo g →
      (∀ i j a b, gap e i j a b ≠ 0) → (printed g (denom e) T1 T2).mp3 = mp3Energy g e := by
  intro h
  have h := h 2 2 pairG pairE 0 0 pairG_two pairE_gap
  rw [C61_mp3_partial pairG_two, pair_mp3] at h
  norm_num at h

/-- Solutions of the linearised equations exist for this system: the hypotheses of `C61_lccd_partial` hold. -/
theorem pair_lccd : ∀ i j a b : Fin 2, gap pairE i j a b * (-(1/6) * ordered (.inl i) (.inl j) * ordered (.inr a) (.inr b))
    = pairG (.inl i) (.inl j) (.inr a) (.inr b) + antisymT2 (lccdRaw (fun i j a b => -(1/6) * ordered (.inl i) (.inl j) * ordered (.inr a) (.inr b)) pairG) i j a b := by
  decide +kernel

/-- **C61, violated.** The energy of a solution of the linearised equations is not the second-order energy plus the
value printed as "test LCCD energy". -/
theorem C61_lccd_violated :
    ¬∀ (no nv : ℕ) (g : Two no nv ℚ) (e : Orb no nv → ℚ) (T1 : Fin no → Fin nv → ℚ) (T2 : Oovv no nv ℚ), IsTwo g →
      (∀ i j a b, gap e i j a b ≠ 0) →
      (∀ i j a b, gap e i j a b * T2 i j a b = g (.inl i) (.inl j) (.inr a) (.inr b) + antisymT2 (lccdRaw T2 g) i j a b) →
      energy T2 g = mp2Energy g e + (printed g (denom e) T1 T2).lccd := by
  intro h
  have h := h 2 2 pairG pairE 0 _ pairG_two pairE_gap pair_lccd
  rw [C61_lccd_partial pairG_two pairE pairE_gap 0 _ pair_lccd] at h
  have h0 : (printed pairG (denom pairE) 0 (fun i j a b => -(1/6) * ordered (.inl i) (.inl j) * ordered (.inr a) (.inr b))).lccd = 0 := by linarith
  revert h0
  decide +kernel

/-- The hypotheses of `C80_routes` hold with energies that are not zero. -/
example : IsTwo pairG ∧ IsAnti (toOovv fun a b i j => ordered (.inl i) (.inl j) * ordered (.inr a) (.inr b))
    ∧ (uccdCheck pairG (fun _ _ => 0) fun a b i j => ordered (.inl i) (.inl j) * ordered (.inr a) (.inr b)).newC = 2
    ∧ (uccdCheck pairG (fun _ _ => 0) fun a b i j => ordered (.inl i) (.inl j) * ordered (.inr a) (.inr b)).a = 1 := by
  refine ⟨pairG_two, ⟨fun i j a b => ?_, fun i j a b => ?_⟩, by decide +kernel, by decide +kernel⟩ <;> simp only [toOovv, ordered] <;> ring

end Verif.Props
