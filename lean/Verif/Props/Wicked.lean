import Verif.Model.Wicked
import Verif.Cert.Wicked
import Verif.Props.Triples
import Verif.Props.Quadruples
import Verif.Props.Matrix
import Verif.Props.Sizes
import Verif.Props.PerturbE

/-!
# The triples energies of `wicked_main` (C93)

`D 0` is the set of occupied, `D 1` the set of virtual orbitals, of any size. `D2` and `D3` are the arrays of denominators.
-/

namespace Verif.Props

open Verif.Ein Verif.UT2 Verif.Wicked
open Verif.Wick (Fermi com IsFock boxSum)

section General
variable {I K : Type} [Field K] [CharZero K] [Inhabited I] {D : Nat → Finset I}

/-- The sum of a function of three occupied and three virtual orbitals. -/
def sum33 (D : Nat → Finset I) (f : I → I → I → I → I → I → K) : K :=
  ∑ i ∈ D 0, ∑ j ∈ D 0, ∑ k ∈ D 0, ∑ a ∈ D 1, ∑ b ∈ D 1, ∑ c ∈ D 1, f i j k a b c

omit [CharZero K] [Inhabited I] in
theorem sum33_congr {f g : I → I → I → I → I → I → K}
    (h : ∀ i ∈ D 0, ∀ j ∈ D 0, ∀ k ∈ D 0, ∀ a ∈ D 1, ∀ b ∈ D 1, ∀ c ∈ D 1, f i j k a b c = g i j k a b c) : sum33 D f = sum33 D g :=
  Finset.sum_congr rfl fun i hi => Finset.sum_congr rfl fun j hj => Finset.sum_congr rfl fun k hk => Finset.sum_congr rfl fun a ha =>
    Finset.sum_congr rfl fun b hb => Finset.sum_congr rfl fun c hc => h i hi j hj k hk a ha b hb c hc

omit [CharZero K] [Inhabited I] in
theorem sum33_smul (x : K) (f : I → I → I → I → I → I → K) : sum33 D (fun i j k a b c => x * f i j k a b c) = x * sum33 D f := by
  simp only [sum33, Finset.mul_sum]

omit [CharZero K] [Inhabited I] in
theorem sum33_comm (f : I → I → I → I → I → I → K) :
    sum33 D f = ∑ a ∈ D 1, ∑ b ∈ D 1, ∑ c ∈ D 1, ∑ i ∈ D 0, ∑ j ∈ D 0, ∑ k ∈ D 0, f i j k a b c := by
  have h1 : sum33 D f = ∑ x ∈ D 0 ×ˢ D 0 ×ˢ D 0, ∑ y ∈ D 1 ×ˢ D 1 ×ˢ D 1, f x.1 x.2.1 x.2.2 y.1 y.2.1 y.2.2 := by
    simp only [sum33, Finset.sum_product]
  rw [h1, Finset.sum_comm]
  simp only [Finset.sum_product]

theorem contract_eq (S : SO I K) (X Y : I → I → I → I → I → I → K) :
    contract D S X Y = 111111111 / 1000000000 * sum33 D fun i j k a b c => X i j k a b c * Y a b c i j k := by
  simp [contract, contractE, Gen.contractE, sum33, Prog.eval, Blk.eval, termVal, dums, vars, varsIx, insertNew,
    sumOver, evalFs, SO.T, sp, N.l3, N.t3, Ein.bind, Function.update, N.aᵥ, N.bᵥ, N.cᵥ, N.iₒ, N.jₒ, N.kₒ, at6]

theorem contract_congr (S S' : SO I K) {X Y X' Y' : I → I → I → I → I → I → K}
    (h : ∀ i ∈ D 0, ∀ j ∈ D 0, ∀ k ∈ D 0, ∀ a ∈ D 1, ∀ b ∈ D 1, ∀ c ∈ D 1, X i j k a b c * Y a b c i j k = X' i j k a b c * Y' a b c i j k) :
    contract D S X Y = contract D S' X' Y' := by
  rw [contract_eq, contract_eq, sum33_congr h]

theorem contract_smul (S S' : SO I K) (x : K) {X Y X' Y' : I → I → I → I → I → I → K}
    (h : ∀ i ∈ D 0, ∀ j ∈ D 0, ∀ k ∈ D 0, ∀ a ∈ D 1, ∀ b ∈ D 1, ∀ c ∈ D 1, X i j k a b c * Y a b c i j k = x * (X' i j k a b c * Y' a b c i j k)) :
    contract D S X Y = x * contract D S' X' Y' := by
  rw [contract_eq, contract_eq, sum33_congr h, sum33_smul]
  ring

omit [CharZero K] in
theorem second_prog (S : SO I K) (i j k a b c : I) :
    second D S i j k a b c = (Prog.through Gen.wicked_antisym_T3 Gen.build_T3_secondO).eval D S.T [i, j, k, a, b, c] :=
  (Prog.eval_through D S.T 6 _ (by decide +kernel) _ (by decide +kernel) _ rfl).symm

omit [CharZero K] in
theorem third_prog (S : SO I K) (i j k a b c : I) :
    third D S i j k a b c = (Prog.through Gen.wicked_antisym_T3 Gen.build_T3_thirdO).eval D S.T [i, j, k, a, b, c] :=
  (Prog.eval_through D S.T 6 _ (by decide +kernel) _ (by decide +kernel) _ rfl).symm

omit [CharZero K] in
theorem third_tamps (S : SO I K) (i j k a b c : I) :
    third D S i j k a b c = antisym_T3 (fun xs => Gen.build_T3_thirdO.eval D S.T xs) [i, j, k, a, b, c] :=
  (C31_wicked_antisym_T3 _ ![i, j, k] ![a, b, c]).trans (C31_antisym_T3 _ ![i, j, k] ![a, b, c]).symm

/-! ## diagrams A and B -/

theorem capA_third (S : SO I K) (hS : S.Sym) (hl : ∀ i j a b, S.l2 i j a b = S.t2 a b i j) (a b c i j k : I) :
    fifthOrder_capA D S a b c i j k = 2 * third D S i j k a b c := by
  have h := eval_eq_of_isZero D S.T N.kinds hS.holds _ _ _ _ _ Cert.wicked_capA [a, b, c, i, j, k] rfl
  rw [eval_rep_l2 D S hl _ (by decide +kernel), Prog.eval_scale,
    Prog.eval_outs' D S.T 6 _ (by decide) _ (by decide +kernel) _ rfl,
    Prog.eval_through D S.T 6 _ (by decide +kernel) _ (by decide +kernel) _ rfl] at h
  exact h.trans (by rw [Rat.cast_ofNat]; rfl)

/-- **C93** If `t2_dag` is the transpose of `t2`, the number printed for diagram A is twice the one printed for diagram B, and the two
contributions printed for the fifth order cancel. -/
theorem C93_caps (D2 : I → I → I → I → K) (D3 : I → I → I → I → I → I → K) (S : SO I K) (hS : S.Sym)
    (hl : ∀ i j a b, S.l2 i j a b = S.t2 a b i j) :
    (wicked_main D D2 D3 S).1.capA.1 = 2 * (wicked_main D D2 D3 S).1.capB.1 ∧
    (wicked_main D D2 D3 S).1.capA.2 + (wicked_main D D2 D3 S).1.capB.2 = 0 := by
  have e : capA D D3 S = 2 * capB D D3 S := by
    refine contract_smul S S 2 fun i _ j _ k _ a _ b _ c _ => ?_
    rw [capA_third S hS hl]
    ring
  refine ⟨e, ?_⟩
  simp only [wicked_main, e]
  ring

/-! ## the fourth order -/

omit [CharZero K] in
theorem wicked_antisym_T3_swaps (R : List I → K) (i j k a b c : I) :
    wicked_antisym_T3 R [j, i, k, a, b, c] = - wicked_antisym_T3 R [i, j, k, a, b, c] ∧
    wicked_antisym_T3 R [i, k, j, a, b, c] = - wicked_antisym_T3 R [i, j, k, a, b, c] ∧
    wicked_antisym_T3 R [i, j, k, b, a, c] = - wicked_antisym_T3 R [i, j, k, a, b, c] ∧
    wicked_antisym_T3 R [i, j, k, a, c, b] = - wicked_antisym_T3 R [i, j, k, a, b, c] := by
  have h := C29_wicked_antisym_T3 R
  exact ⟨by simpa [List.ofFn_succ, Equiv.swap_apply_def] using h.first 0 1 ![i, j, k] ![a, b, c] (by decide),
    by simpa [List.ofFn_succ, Equiv.swap_apply_def] using h.first 1 2 ![i, j, k] ![a, b, c] (by decide),
    by simpa [List.ofFn_succ, Equiv.swap_apply_def] using h.last 0 1 ![i, j, k] ![a, b, c] (by decide),
    by simpa [List.ofFn_succ, Equiv.swap_apply_def] using h.last 1 2 ![i, j, k] ![a, b, c] (by decide)⟩

/-- Denominators do not depend on the order of the occupied orbitals nor on that of the virtual ones. -/
structure SymDen (D3 : I → I → I → I → I → I → K) : Prop where
  v01 : ∀ a b c i j k, D3 b a c i j k = D3 a b c i j k
  v12 : ∀ a b c i j k, D3 a c b i j k = D3 a b c i j k
  o01 : ∀ a b c i j k, D3 a b c j i k = D3 a b c i j k
  o12 : ∀ a b c i j k, D3 a b c i k j = D3 a b c i j k

/-- The second-order triples amplitudes, `t3 = t3resid*D3` (`amphandler.py` 401-405). -/
def withSecond (D : Nat → Finset I) (D3 : I → I → I → I → I → I → K) (S : SO I K) : SO I K :=
  { S with t3 := fun a b c i j k => second D S i j k a b c * D3 a b c i j k }

omit [CharZero K] in
theorem withSecond_sym (D3 : I → I → I → I → I → I → K) (hD : SymDen D3) (S : SO I K) (hS : S.Sym) : (withSecond D D3 S).Sym :=
  { hS with
    t3_anti0 := fun a b c i j k => by
      show second D S i j k a b c * _ = - (second D S i j k b a c * _)
      rw [hD.v01, show second D S i j k b a c = - second D S i j k a b c from (wicked_antisym_T3_swaps _ i j k a b c).2.2.1]; ring
    t3_anti1 := fun a b c i j k => by
      show second D S i j k a b c * _ = - (second D S i j k a c b * _)
      rw [hD.v12, show second D S i j k a c b = - second D S i j k a b c from (wicked_antisym_T3_swaps _ i j k a b c).2.2.2]; ring
    t3_anti3 := fun a b c i j k => by
      show second D S i j k a b c * _ = - (second D S j i k a b c * _)
      rw [hD.o01, show second D S j i k a b c = - second D S i j k a b c from (wicked_antisym_T3_swaps _ i j k a b c).1]; ring
    t3_anti4 := fun a b c i j k => by
      show second D S i j k a b c * _ = - (second D S i k j a b c * _)
      rw [hD.o12, show second D S i k j a b c = - second D S i j k a b c from (wicked_antisym_T3_swaps _ i j k a b c).2.1]; ring }

omit [CharZero K] in
theorem build_T3_withSecond (D3 : I → I → I → I → I → I → K) (S : SO I K) (a b c i j k : I) :
    build_T3 D (withSecond D D3 S) a b c i j k = build_T3 D S a b c i j k := by
  refine Prog.eval_congrT D _ _ Gen.build_T3 (fun f => !Nat.beq f.t 47) (by decide +kernel) (fun f hf l _ => ?_) _
  have hf' : f.t ≠ 47 := by
    intro e
    rw [e] at hf
    exact absurd hf (by decide)
  unfold SO.T withSecond
  simp only [hf', if_false]

/-- **C93** What `wicked_main` returns is the energy `getE_squareBrackT` of the second-order triples amplitudes, and the doubles part of
`pdagq_T3energy`, up to the printed factor `0.111111111`, for `t2_dag` the transpose of `t2`. -/
theorem C93_square (D2 : I → I → I → I → K) (D3 : I → I → I → I → I → I → K) (hD3 : SymDen D3) (S : SO I K) (hS : S.Sym)
    (hl : ∀ i j a b, S.l2 i j a b = S.t2 a b i j) :
    (wicked_main D D2 D3 S).2 = 999999999 / 1000000000 * getE_squareBrackT D (withSecond D D3 S) ∧
    (wicked_main D D2 D3 S).2 = 999999999 / 1000000000 * pdagq_T3energy D (withSecond D D3 S) := by
  have hW := withSecond_sym (D := D) D3 hD3 S hS
  rw [C51_energy D _ hW, and_self]
  have h := eval_eq_of_isZero D (withSecond D D3 S).T N.kinds hW.holds _ _ _ _ _ Cert.wicked_square [] rfl
  rw [Prog.eval_scale, eval_rep_l2 D (withSecond D D3 S) (show ∀ i j a b, (withSecond D D3 S).l2 i j a b = (withSecond D D3 S).t2 a b i j from hl) _ (by decide +kernel),
    Wick.Prog.eval_cap D _ 0 47 [1, 1, 1, 0, 0, 0] _ (by decide +kernel) _ rfl] at h
  have e : boxSum D [1, 1, 1, 0, 0, 0] (fun l => (withSecond D D3 S).T 47 l * Gen.build_T3.eval D (withSecond D D3 S).T ([] ++ l)) =
      sum33 D fun i j k a b c => second D S i j k a b c * (second D S i j k a b c * D3 a b c i j k) := by
    rw [sum33_comm]
    simp only [boxSum, List.nil_append]
    refine Finset.sum_congr rfl fun a _ => Finset.sum_congr rfl fun b _ => Finset.sum_congr rfl fun c _ => Finset.sum_congr rfl fun i _ =>
      Finset.sum_congr rfl fun j _ => Finset.sum_congr rfl fun k _ => ?_
    have e1 := build_T3_withSecond (D := D) D3 S a b c i j k
    rw [← C51_wicked D S hS] at e1
    rw [show Gen.build_T3.eval D (withSecond D D3 S).T [a, b, c, i, j, k] = second D S i j k a b c from e1]
    exact mul_comm _ _
  rw [e] at h
  show 1 / 4 * fourthOrder D D3 S = _
  unfold fourthOrder
  rw [contract_eq]
  rw [Rat.cast_ofNat] at h
  change 36 * getE_squareBrackT D (withSecond D D3 S) = _ at h
  linear_combination (-(111111111 / 4000000000 : K)) * h

/-- **C93** The fourth and the fifth order energies are sums over matrix elements of commutators: `⟨Φ_ijk^abc| [V, T2] |Φ⟩` twice, or once
with `⟨Φ_ijk^abc| 1/2 [[V, T2], T2] |Φ⟩`. -/
theorem C93_matrix [DecidableEq I] {A : Type} [Ring A] [Algebra K A] (F : Fermi I K A D) (hD : Disjoint (D 0) (D 1))
    (D2 : I → I → I → I → K) (D3 : I → I → I → I → I → I → K) (S : SO I K) (hS : S.Sym) (h : I → I → K) (hf : IsFock D h S.f S.g) :
    (wicked_main D D2 D3 S).2 = 111111111 / 4000000000 * sum33 D (fun i j k a b c =>
      F.ω (F.bra3 a b c i j k * com (F.fluct h S.f S.g) (F.T2 S.t2)) ^ 2 * D3 a b c i j k) ∧
    (wicked_main D D2 D3 S).1.capB.2 = 111111111 / 4000000000 * sum33 D (fun i j k a b c =>
      F.ω (F.bra3 a b c i j k * com (F.fluct h S.f S.g) (F.T2 S.t2)) *
      F.ω (F.bra3 a b c i j k * ((1 / 2 : K) • com (com (F.fluct h S.f S.g) (F.T2 S.t2)) (F.T2 S.t2))) * D3 a b c i j k) := by
  have e2 : ∀ i ∈ D 0, ∀ j ∈ D 0, ∀ k ∈ D 0, ∀ a ∈ D 1, ∀ b ∈ D 1, ∀ c ∈ D 1,
      F.ω (F.bra3 a b c i j k * com (F.fluct h S.f S.g) (F.T2 S.t2)) = second D S i j k a b c :=
    fun i hi j hj k hk a ha b hb c hc => (C77_T3 F hD S hS h hf a b c i j k ha hb hc hi hj hk).trans (C51_wicked D S hS i j k a b c).symm
  have e3 : ∀ i ∈ D 0, ∀ j ∈ D 0, ∀ k ∈ D 0, ∀ a ∈ D 1, ∀ b ∈ D 1, ∀ c ∈ D 1,
      F.ω (F.bra3 a b c i j k * ((1 / 2 : K) • com (com (F.fluct h S.f S.g) (F.T2 S.t2)) (F.T2 S.t2))) = third D S i j k a b c :=
    fun i hi j hj k hk a ha b hb c hc => (C77_T3_third F hD S hS h hf a b c i j k ha hb hc hi hj hk).trans (third_tamps S i j k a b c).symm
  constructor
  · refine Eq.trans ?_ (congrArg (111111111 / 4000000000 * ·) (sum33_congr (f := fun i j k a b c => second D S i j k a b c *
      (second D S i j k a b c * D3 a b c i j k)) fun i hi j hj k hk a ha b hb c hc => by rw [e2 i hi j hj k hk a ha b hb c hc]; ring))
    show 1 / 4 * contract D S _ _ = _
    rw [contract_eq]; ring
  · refine Eq.trans ?_ (congrArg (111111111 / 4000000000 * ·) (sum33_congr (f := fun i j k a b c => third D S i j k a b c *
      (second D S i j k a b c * D3 a b c i j k)) fun i hi j hj k hk a ha b hb c hc => by
        rw [e2 i hi j hj k hk a ha b hb c hc, e3 i hi j hj k hk a ha b hb c hc]; ring))
    show 1 / 4 * contract D S _ _ = _
    rw [contract_eq]; ring

omit [CharZero K] in
/-- **C93** For the amplitudes of first order the number printed as `2e cap` is the fourth-order energy. -/
theorem C93_first (D2 : I → I → I → I → K) (D3 : I → I → I → I → I → I → K) (S : SO I K) (h : ∀ a b i j, S.t2 a b i j = S.g a b i j * D2 a b i j) :
    (wicked_main D D2 D3 S).1.twoCap.1 = (wicked_main D D2 D3 S).1.fourth.1 ∧ (wicked_main D D2 D3 S).1.twoCap.2 = (wicked_main D D2 D3 S).2 := by
  have e : firstOrder D2 S = S := by
    obtain ⟨f, g, t1, t2⟩ := S
    simp only [firstOrder]
    congr
    funext a b i j
    exact (h a b i j).symm
  have e' : twoCap D D2 D3 S = fourthOrder D D3 S := by unfold twoCap fourthOrder; rw [e]
  exact ⟨e', (mul_comm _ _).trans (congrArg (1 / 4 * ·) e')⟩

/-! ## units -/

/-- All printed numbers times `c`. -/
def _root_.Verif.Wicked.Printed.scale (c : K) (p : Printed K) : Printed K where
  twoCap := (c * p.twoCap.1, c * p.twoCap.2)
  fourth := (c * p.fourth.1, c * p.fourth.2)
  capA := (c * p.capA.1, c * p.capA.2)
  capB := (c * p.capB.1, c * p.capB.2)
  capC := (c * p.capC.1, c * p.capC.2)

omit [CharZero K] in
theorem second_unit (c : K) (S : SO I K) (i j k a b d : I) : second D (soUnit c S) i j k a b d = c * second D S i j k a b d := by
  rw [second_prog, second_prog]
  exact so_eval_unit D c S _ (by decide +kernel) _

omit [CharZero K] in
theorem third_unit (c : K) (S : SO I K) (i j k a b d : I) : third D (soUnit c S) i j k a b d = c * third D S i j k a b d := by
  rw [third_prog, third_prog]
  exact so_eval_unit D c S _ (by decide +kernel) _

/-- **C93** In another unit of energy all numbers printed and the number returned change by the same factor. -/
theorem C93_units (c : K) (hc : c ≠ 0) (D2 : I → I → I → I → K) (D3 : I → I → I → I → I → I → K) (S : SO I K) :
    wicked_main D (fun a b i j => c⁻¹ * D2 a b i j) (fun a b d i j k => c⁻¹ * D3 a b d i j k) (soUnit c S) =
      ((wicked_main D D2 D3 S).1.scale c, c * (wicked_main D D2 D3 S).2) := by
  have e0 : firstOrder (fun a b i j => c⁻¹ * D2 a b i j) (soUnit c S) = soUnit c (firstOrder D2 S) := by
    simp only [firstOrder, soUnit]
    congr
    funext a b i j
    field_simp
  have h0 : twoCap D (fun a b i j => c⁻¹ * D2 a b i j) (fun a b d i j k => c⁻¹ * D3 a b d i j k) (soUnit c S) = c * twoCap D D2 D3 S :=
    contract_smul _ _ c fun i _ j _ k _ a _ b _ d _ => by rw [e0, second_unit, second_unit]; field_simp
  have h1 : fourthOrder D (fun a b d i j k => c⁻¹ * D3 a b d i j k) (soUnit c S) = c * fourthOrder D D3 S :=
    contract_smul _ _ c fun i _ j _ k _ a _ b _ d _ => by rw [second_unit]; field_simp
  have h2 : capA D (fun a b d i j k => c⁻¹ * D3 a b d i j k) (soUnit c S) = c * capA D D3 S :=
    contract_smul _ _ c fun i _ j _ k _ a _ b _ d _ => by
      rw [second_unit, show fifthOrder_capA D (soUnit c S) a b d i j k = _ from so_eval_unit D c S _ (by decide +kernel) _]
      unfold fifthOrder_capA; field_simp
  have h3 : capB D (fun a b d i j k => c⁻¹ * D3 a b d i j k) (soUnit c S) = c * capB D D3 S :=
    contract_smul _ _ c fun i _ j _ k _ a _ b _ d _ => by rw [second_unit, third_unit]; field_simp
  have h4 : capC D (fun a b d i j k => c⁻¹ * D3 a b d i j k) (soUnit c S) = c * capC D D3 S :=
    contract_smul _ _ c fun i _ j _ k _ a _ b _ d _ => by
      rw [second_unit, show fifthOrder_capC D (soUnit c S) a b d i j k = _ from so_eval_unit D c S _ (by decide +kernel) _]
      unfold fifthOrder_capC; field_simp
  simp only [wicked_main, h0, h1, h2, h3, h4, Printed.scale]
  refine Prod.ext (Printed.ext ?_ ?_ ?_ ?_ ?_) ?_ <;> (try refine Prod.ext ?_ ?_) <;> simp only <;> ring

end General

/-! ## the sign -/

section Sign
variable {I : Type} [Inhabited I] {D : Nat → Finset I}

/-- **C93** What `wicked_main` returns is never positive if the virtual orbitals lie above the occupied ones, and zero only if the second-order
triples are zero. -/
theorem C93_sign (D2 : I → I → I → I → ℝ) (ε : I → ℝ) (S : SO I ℝ) (hε : ∀ a ∈ D 1, ∀ i ∈ D 0, ε i < ε a) :
    (wicked_main D D2 (WholeDrive.den3 ε) S).2 ≤ 0 ∧ ((wicked_main D D2 (WholeDrive.den3 ε) S).2 = 0 ↔
      ∀ i ∈ D 0, ∀ j ∈ D 0, ∀ k ∈ D 0, ∀ a ∈ D 1, ∀ b ∈ D 1, ∀ c ∈ D 1, second D S i j k a b c = 0) := by
  have h := C92_squareT (D := D) ε { S with t3 := fun a b c i j k => second D S i j k a b c } hε
  have e : (wicked_main D D2 (WholeDrive.den3 ε) S).2 = PerturbE.squareT D ε { S with t3 := fun a b c i j k => second D S i j k a b c } := by
    show 1 / 4 * contract D S _ _ = _
    rw [contract_eq, ← mul_assoc]
    rfl
  rw [e]
  exact h

end Sign

/-! ## two systems without interaction -/

section Two
variable {I J K : Type} [Field K] [CharZero K] [Inhabited I] [Inhabited J] {D : Nat → Finset I} {E : Nat → Finset J}

omit [CharZero K] [Inhabited I] [Inhabited J] in
theorem Splits6.eq_sum6 {F : (I ⊕ J) → (I ⊕ J) → (I ⊕ J) → (I ⊕ J) → (I ⊕ J) → (I ⊕ J) → K} {f : I → I → I → I → I → I → K}
    {g : J → J → J → J → J → J → K} (h : Splits6 F f g) : F = sum6 f g := by
  funext a b c i j k
  rcases a with a | a <;> rcases b with b | b <;> rcases c with c | c <;> rcases i with i | i <;> rcases j with j | j <;>
    rcases k with k | k <;>
    first | exact h.left _ _ _ _ _ _ | exact h.right _ _ _ _ _ _ | exact h.mixed _ _ _ _ _ _ (by simp [Mixed])

/-- A contraction of an array without entries between the systems with another array. -/
theorem contract_sum (A : SO I K) (B : SO J K) {X : (I ⊕ J) → (I ⊕ J) → (I ⊕ J) → (I ⊕ J) → (I ⊕ J) → (I ⊕ J) → K}
    {x : I → I → I → I → I → I → K} {x' : J → J → J → J → J → J → K} (hX : Splits6 X x x')
    {Y : (I ⊕ J) → (I ⊕ J) → (I ⊕ J) → (I ⊕ J) → (I ⊕ J) → (I ⊕ J) → K} {y : I → I → I → I → I → I → K} {y' : J → J → J → J → J → J → K}
    (hl : ∀ a b c i j k, Y (.inl a) (.inl b) (.inl c) (.inl i) (.inl j) (.inl k) = y a b c i j k)
    (hr : ∀ a b c i j k, Y (.inr a) (.inr b) (.inr c) (.inr i) (.inr j) (.inr k) = y' a b c i j k) :
    contract (sumD D E) (A.sum B) X Y = contract D A x y + contract E B x' y' := by
  rw [contract_eq, contract_eq, contract_eq, ← mul_add]
  congr 1
  have e : (fun i j k a b c => X i j k a b c * Y a b c i j k) = sum6 (fun i j k a b c => x i j k a b c * y a b c i j k)
      fun i j k a b c => x' i j k a b c * y' a b c i j k := by
    refine Splits6.eq_sum6 ⟨fun i j k a b c => ?_, fun i j k a b c => ?_, fun i j k a b c hm => ?_⟩
    · rw [hX.left, hl]
    · rw [hX.right, hr]
    · rw [hX.mixed _ _ _ _ _ _ hm, zero_mul]
  rw [e]
  simp only [sum33, sumD, Finset.sum_disjSum, sum6, Finset.sum_const_zero, add_zero, zero_add]

omit [CharZero K] in
theorem second_splits (A : SO I K) (B : SO J K) : Splits6 (second (sumD D E) (A.sum B)) (second D A) (second E B) := by
  have h := splits6_so D E A B (Prog.through Gen.wicked_antisym_T3 Gen.build_T3_secondO) (by decide +kernel) (by decide +kernel) (by decide +kernel)
  simp only [← second_prog] at h
  exact h

omit [CharZero K] in
theorem third_splits (A : SO I K) (B : SO J K) : Splits6 (third (sumD D E) (A.sum B)) (third D A) (third E B) := by
  have h := splits6_so D E A B (Prog.through Gen.wicked_antisym_T3 Gen.build_T3_thirdO) (by decide +kernel) (by decide +kernel) (by decide +kernel)
  simp only [← third_prog] at h
  exact h

theorem capC_raw (S : SO I K) (i j k a b c : I) : Gen.fifthOrder_capC_0.eval D S.T [i, j, k, a, b, c] =
    -1 / 8 * (S.l2 i j a b * ∑ l ∈ D 0, ∑ d ∈ D 1, ∑ e ∈ D 1, S.l2 k l d e * S.g l c d e) +
    -1 / 8 * (S.l2 i j a b * ∑ l ∈ D 0, ∑ m ∈ D 0, ∑ d ∈ D 1, S.l2 l m c d * S.g l m k d) := by
  simp [Gen.fifthOrder_capC_0, Prog.eval, Blk.eval, termVal, dums, vars, varsIx, insertNew,
    sumOver, evalFs, SO.T, sp, N.l2, N.g, Ein.bind, Function.update, N.aᵥ, N.bᵥ, N.cᵥ, N.dᵥ, N.eᵥ, N.iₒ, N.jₒ, N.kₒ, N.lₒ, N.mₒ, at4, Finset.mul_sum]

omit [CharZero K] in
theorem capC_perm (S : SO I K) (o v : Fin 3 → I) : fifthOrder_capC D S (v 0) (v 1) (v 2) (o 0) (o 1) (o 2) =
    permutationSum 3 3 (fun xs => Gen.fifthOrder_capC_0.eval D S.T xs) o v := by
  unfold fifthOrder_capC Gen.fifthOrder_capC
  rw [Prog.eval_outs' D S.T 6 _ (by decide) _ (by decide +kernel) _ rfl,
    Prog.eval_through D S.T 6 _ (by decide +kernel) _ (by decide +kernel) _ rfl, ← C31_wicked_antisym_T3]
  rfl

/-- Diagram C of one of the two systems. -/
theorem capC_left (A : SO I K) (B : SO J K) (a b c i j k : I) :
    fifthOrder_capC (sumD D E) (A.sum B) (.inl a) (.inl b) (.inl c) (.inl i) (.inl j) (.inl k) = fifthOrder_capC D A a b c i j k := by
  refine (capC_perm (A.sum B) (Sum.inl ∘ ![i, j, k]) (Sum.inl ∘ ![a, b, c])).trans (Eq.trans ?_ (capC_perm A ![i, j, k] ![a, b, c]).symm)
  refine Finset.sum_congr rfl fun σ _ => Finset.sum_congr rfl fun τ _ => congrArg _ ?_
  simp only [List.ofFn_succ, List.ofFn_zero, List.cons_append, List.nil_append, Function.comp_apply]
  rw [capC_raw, capC_raw]
  simp only [SO.sum, sum4, sumD, Finset.sum_disjSum, mul_zero, Finset.sum_const_zero, add_zero]

omit [Inhabited I] in
theorem capC_right (A : SO I K) (B : SO J K) (a b c i j k : J) :
    fifthOrder_capC (sumD D E) (A.sum B) (.inr a) (.inr b) (.inr c) (.inr i) (.inr j) (.inr k) = fifthOrder_capC E B a b c i j k := by
  refine (capC_perm (A.sum B) (Sum.inr ∘ ![i, j, k]) (Sum.inr ∘ ![a, b, c])).trans (Eq.trans ?_ (capC_perm B ![i, j, k] ![a, b, c]).symm)
  refine Finset.sum_congr rfl fun σ _ => Finset.sum_congr rfl fun τ _ => congrArg _ ?_
  simp only [List.ofFn_succ, List.ofFn_zero, List.cons_append, List.nil_append, Function.comp_apply]
  rw [capC_raw, capC_raw]
  simp only [SO.sum, sum4, sumD, Finset.sum_disjSum, mul_zero, Finset.sum_const_zero, zero_add]

/-- The sums of the printed numbers. -/
def _root_.Verif.Wicked.Printed.add (p q : Printed K) : Printed K where
  twoCap := p.twoCap + q.twoCap
  fourth := p.fourth + q.fourth
  capA := p.capA + q.capA
  capB := p.capB + q.capB
  capC := p.capC + q.capC

omit [CharZero K] [Inhabited I] [Inhabited J] in
theorem firstOrder_sum {A : SO I K} {B : SO J K} {D2 : (I ⊕ J) → (I ⊕ J) → (I ⊕ J) → (I ⊕ J) → K} {d2 : I → I → I → I → K} {d2' : J → J → J → J → K}
    (hl : ∀ a b i j, D2 (.inl a) (.inl b) (.inl i) (.inl j) = d2 a b i j) (hr : ∀ a b i j, D2 (.inr a) (.inr b) (.inr i) (.inr j) = d2' a b i j) :
    firstOrder D2 (A.sum B) = (firstOrder d2 A).sum (firstOrder d2' B) := by
  simp only [firstOrder, SO.sum]
  congr
  funext a b i j
  rcases a with a | a <;> rcases b with b | b <;> rcases i with i | i <;> rcases j with j | j <;> simp only [sum4, zero_mul, hl, hr]

/-- **C93** For two systems without interaction every number printed and the number returned is the sum of those of the two systems, also those
of diagram C, which is not connected. The denominators between the systems may be anything. -/
theorem C93_fragments (A : SO I K) (B : SO J K) (D2 : (I ⊕ J) → (I ⊕ J) → (I ⊕ J) → (I ⊕ J) → K) (d2 : I → I → I → I → K) (d2' : J → J → J → J → K)
    (D3 : (I ⊕ J) → (I ⊕ J) → (I ⊕ J) → (I ⊕ J) → (I ⊕ J) → (I ⊕ J) → K) (d3 : I → I → I → I → I → I → K) (d3' : J → J → J → J → J → J → K)
    (h2 : ∀ a b i j, D2 (.inl a) (.inl b) (.inl i) (.inl j) = d2 a b i j) (h2' : ∀ a b i j, D2 (.inr a) (.inr b) (.inr i) (.inr j) = d2' a b i j)
    (h3 : ∀ a b c i j k, D3 (.inl a) (.inl b) (.inl c) (.inl i) (.inl j) (.inl k) = d3 a b c i j k)
    (h3' : ∀ a b c i j k, D3 (.inr a) (.inr b) (.inr c) (.inr i) (.inr j) (.inr k) = d3' a b c i j k) :
    wicked_main (sumD D E) D2 D3 (A.sum B) =
      ((wicked_main D d2 d3 A).1.add (wicked_main E d2' d3' B).1, (wicked_main D d2 d3 A).2 + (wicked_main E d2' d3' B).2) := by
  have s2 := second_splits (D := D) (E := E) A B
  have s2' := second_splits (D := D) (E := E) (firstOrder d2 A) (firstOrder d2' B)
  have s3 := third_splits (D := D) (E := E) A B
  have sA := (C63_triples D E A B).2.2.2.1
  have e0 : twoCap (sumD D E) D2 D3 (A.sum B) = twoCap D d2 d3 A + twoCap E d2' d3' B :=
    contract_sum A B s2 (fun a b c i j k => by rw [firstOrder_sum h2 h2', s2'.left, h3]) (fun a b c i j k => by rw [firstOrder_sum h2 h2', s2'.right, h3'])
  have e1 : fourthOrder (sumD D E) D3 (A.sum B) = fourthOrder D d3 A + fourthOrder E d3' B :=
    contract_sum A B s2 (fun a b c i j k => by rw [s2.left, h3]) (fun a b c i j k => by rw [s2.right, h3'])
  have e2 : capA (sumD D E) D3 (A.sum B) = capA D d3 A + capA E d3' B :=
    contract_sum A B s2 (fun a b c i j k => by rw [sA.left, h3]) (fun a b c i j k => by rw [sA.right, h3'])
  have e3 : capB (sumD D E) D3 (A.sum B) = capB D d3 A + capB E d3' B :=
    contract_sum A B s3 (fun a b c i j k => by rw [s2.left, h3]) (fun a b c i j k => by rw [s2.right, h3'])
  have e4 : capC (sumD D E) D3 (A.sum B) = capC D d3 A + capC E d3' B :=
    contract_sum A B s2 (fun a b c i j k => by rw [capC_left, h3]) (fun a b c i j k => by rw [capC_right, h3'])
  simp only [wicked_main, e0, e1, e2, e3, e4, Printed.add]
  refine Prod.ext (Printed.ext ?_ ?_ ?_ ?_ ?_) ?_ <;> (try refine Prod.ext ?_ ?_) <;> simp only [Prod.fst_add, Prod.snd_add] <;> ring

end Two

/-! ## a case -/

theorem exT3_sym : exT3.Sym := by
  have h := Witness.so_sym
  constructor <;> intros <;> simp only [exT3, SO.cast, ← Rat.cast_neg] <;> congr 1
  all_goals first | exact h.f_herm _ _ | exact h.g_anti0 _ _ _ _ | exact h.g_anti2 _ _ _ _ | exact h.g_herm _ _ _ _ | exact h.t2_anti0 _ _ _ _ | exact h.t2_anti2 _ _ _ _ | exact h.t3_anti0 _ _ _ _ _ _ | exact h.t3_anti1 _ _ _ _ _ _ | exact h.t3_anti3 _ _ _ _ _ _ | exact h.t3_anti4 _ _ _ _ _ _ | exact h.t4_anti0 _ _ _ _ _ _ _ _ | exact h.t4_anti1 _ _ _ _ _ _ _ _ | exact h.t4_anti2 _ _ _ _ _ _ _ _ | exact h.t4_anti4 _ _ _ _ _ _ _ _ | exact h.t4_anti5 _ _ _ _ _ _ _ _ | exact h.t4_anti6 _ _ _ _ _ _ _ _

/-- Three electrons in six spin orbitals: the hypotheses of the theorems above are met, and the energy returned is negative. -/
example : (Props.withDag exT3).Sym ∧ (∀ i j a b, (Props.withDag exT3).l2 i j a b = (Props.withDag exT3).t2 a b i j) ∧
    SymDen (WholeDrive.den3 (fun q : ℕ => (q : ℝ))) ∧ (∀ a ∈ Witness.D33 1, ∀ i ∈ Witness.D33 0, (i : ℝ) < (a : ℝ)) ∧
    (wicked_main Witness.D33 (fun _ _ _ _ => 1) (WholeDrive.den3 (fun q : ℕ => (q : ℝ))) (Props.withDag exT3)).2 < 0 := by
  have hε : ∀ a ∈ Witness.D33 1, ∀ i ∈ Witness.D33 0, i < a := by decide
  have hε' : ∀ a ∈ Witness.D33 1, ∀ i ∈ Witness.D33 0, (i : ℝ) < (a : ℝ) := fun a ha i hi => Nat.cast_lt.2 (hε a ha i hi)
  refine ⟨withDag_sym _ exT3_sym, fun _ _ _ _ => rfl, ?_, hε', ?_⟩
  · constructor <;> intros <;> unfold WholeDrive.den3 <;> congr 1 <;> ring
  · have h := C93_sign (D := Witness.D33) (fun _ _ _ _ => 1) (fun q : ℕ => (q : ℝ)) (Props.withDag exT3) hε'
    refine lt_of_le_of_ne h.1 fun h0 => ?_
    have h1 := h.2.1 h0 0 (by decide) 1 (by decide) 2 (by decide) 3 (by decide) 4 (by decide) 5 (by decide)
    rw [second_prog] at h1
    have e : Props.withDag exT3 = (Props.withDag Witness.so).cast ℝ := rfl
    rw [e, SO.eval_cast, Rat.cast_eq_zero] at h1
    exact absurd h1 (by decide +kernel)

example : third Witness.D33 Witness.so 0 1 2 3 4 5 ≠ 0 := by rw [third_prog]; decide +kernel

end Verif.Props
