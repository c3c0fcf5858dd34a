import Verif.Model.XccdBase
import Verif.Cert.MatX
import Verif.Props.Matrix
import Verif.Props.SpinCcd
import Mathlib.SetTheory.Cardinal.Order

/-!
# The XCCD base terms and energies (C78)

`XCCDbasebuilder.py` writes each order as a quadruples array that is antisymmetrised and contracted with `T2†`. The
theorems say which matrix elements these are, for any Hamiltonian and any amplitudes, and how they relate to the
`(Qf)` terms of the spin-integrated modules.
-/

namespace Verif.Wick

variable {I K A : Type} [DecidableEq I] [Field K] [Ring A] [Algebra K A] {D : Nat → Finset I} (F : Fermi I K A D)

/-- `T2†`, the de-excitation operator with the amplitudes of `T2`. -/
def Fermi.T2dag (t : I → I → I → I → K) : A := F.L2 fun i j a b => t a b i j

end Verif.Wick

namespace Verif.Props

open Verif.Ein Verif.UT2 Verif.Wick

variable {I K A : Type} [DecidableEq I] [Field K] [CharZero K] [Ring A] [Algebra K A] [Inhabited I] {D : Nat → Finset I}
  (F : Fermi I K A D)

/-- `1/2 [[V, T2], T2]` and `1/6 [[[V, T2], T2], T2]`. -/
def Fermi.quad (F : Fermi I K A D) (h : I → I → K) (S : SO I K) : A :=
  (1 / 2 : K) • com (com (F.fluct h S.f S.g) (F.T2 S.t2)) (F.T2 S.t2)

def Fermi.cub (F : Fermi I K A D) (h : I → I → K) (S : SO I K) : A :=
  (1 / 6 : K) • com (com (com (F.fluct h S.f S.g) (F.T2 S.t2)) (F.T2 S.t2)) (F.T2 S.t2)

omit [DecidableEq I] [CharZero K] [Inhabited I] in
theorem boxSum4 (f : I → I → I → I → K) : boxSum D [0, 0, 1, 1] (at4 f) =
    ∑ k ∈ D 0, ∑ l ∈ D 0, ∑ c ∈ D 1, ∑ d ∈ D 1, f k l c d := by
  simp [boxSum, at4]

omit [CharZero K] [Inhabited I] in
/-- Contraction of a quadruples array with `T2†`. -/
theorem capDag_eq (hD : Disjoint (D 0) (D 1)) (S : SO I K) (t4 : List I → K) (X : A)
    (hX : ∀ a b c d i j k l, a ∈ D 1 → b ∈ D 1 → c ∈ D 1 → d ∈ D 1 → i ∈ D 0 → j ∈ D 0 → k ∈ D 0 → l ∈ D 0 →
      t4 [i, j, k, l, a, b, c, d] = F.ω (F.bra4 a b c d i j k l * X))
    (a b i j : I) (ha : a ∈ D 1) (hb : b ∈ D 1) (hi : i ∈ D 0) (hj : j ∈ D 0) :
    1 / 4 * capDag D S t4 a b i j = F.ω (F.bra2 a b i j * F.T2dag S.t2 * X) := by
  rw [Fermi.T2dag, bra2_L2 F hD _ X a b i j ha hb]
  congr 1
  have e : (fun y : List I => at4 (fun i j a b => S.t2 a b i j) y *
      at4 (fun k m c d => F.ω (F.bra4 a b c d i j k m * X)) y) =
      at4 fun k m c d => S.t2 c d k m * F.ω (F.bra4 a b c d i j k m * X) := by
    funext y
    match y with
    | [] | [_] | [_, _] | [_, _, _] => simp [at4]
    | [_, _, _, _] => rfl
    | _ :: _ :: _ :: _ :: _ :: _ => simp [at4]
  rw [e, boxSum4]
  unfold capDag
  refine Finset.sum_congr rfl fun k hk => Finset.sum_congr rfl fun l hl => Finset.sum_congr rfl fun c hc =>
    Finset.sum_congr rfl fun d hd => ?_
  rw [hX a b c d i j k l ha hb hc hd hi hj hk hl]

theorem xccd5_t4_eq (hD : Disjoint (D 0) (D 1)) (S : SO I K) (hS : S.Sym) (h : I → I → K)
    (hf : IsFock D h S.f S.g) (a b c d i j k l : I) (ha : a ∈ D 1) (hb : b ∈ D 1) (hc : c ∈ D 1) (hd : d ∈ D 1)
    (hi : i ∈ D 0) (hj : j ∈ D 0) (hk : k ∈ D 0) (hl : l ∈ D 0) :
    xccd5_t4 D S [i, j, k, l, a, b, c, d] = F.ω (F.bra4 a b c d i j k l * Fermi.quad F h S) := by
  have e : ∀ S' : SO I K, S'.Sym → _ := fun S' hS' =>
    eval_eq_of_isZero D S'.T N.kinds hS'.holds _ _ _ _ _ Cert.xccd5_mat [] rfl
  have m := capped4 F hD S hS h hf _ (by decide +kernel) _ (by decide +kernel) (by decide +kernel) e a b c d i j k l ha hb hc
    hd hi hj hk hl
  have h31 := C31_antisym_t4_residual (Prog.eval D S.T Gen.xccd5_quad) ![i, j, k, l] ![a, b, c, d]
  refine (h31.trans m.symm).trans ?_
  unfold Fermi.quad
  mat_close

theorem xccd6_t4_eq (hD : Disjoint (D 0) (D 1)) (S : SO I K) (hS : S.Sym) (h : I → I → K)
    (hf : IsFock D h S.f S.g) (a b c d i j k l : I) (ha : a ∈ D 1) (hb : b ∈ D 1) (hc : c ∈ D 1) (hd : d ∈ D 1)
    (hi : i ∈ D 0) (hj : j ∈ D 0) (hk : k ∈ D 0) (hl : l ∈ D 0) :
    xccd6_t4 D S [i, j, k, l, a, b, c, d] = F.ω (F.bra4 a b c d i j k l * Fermi.cub F h S) := by
  have e : ∀ S' : SO I K, S'.Sym → _ := fun S' hS' =>
    eval_eq_of_isZero D S'.T N.kinds hS'.holds _ _ _ _ _ Cert.xccd6_mat [] rfl
  have m := capped4 F hD S hS h hf _ (by decide +kernel) _ (by decide +kernel) (by decide +kernel) e a b c d i j k l ha hb hc
    hd hi hj hk hl
  have h31 := C31_antisym_t4_residual (Prog.eval D S.T Gen.xccd6_quad) ![i, j, k, l] ![a, b, c, d]
  refine (h31.trans m.symm).trans ?_
  unfold Fermi.cub
  mat_close

/-- The order 5 base is half of `⟨Φ_ij^ab| T2† 1/2 [[V, T2], T2] |Φ⟩`. -/
theorem C78_order5 (hD : Disjoint (D 0) (D 1)) (S : SO I K) (hS : S.Sym) (h : I → I → K)
    (hf : IsFock D h S.f S.g) (a b i j : I) (ha : a ∈ D 1) (hb : b ∈ D 1) (hi : i ∈ D 0) (hj : j ∈ D 0) :
    (build_XCCDbase D S 5).map (fun r => r a b i j) =
      some (1 / 2 * F.ω (F.bra2 a b i j * F.T2dag S.t2 *
        ((1 / 2 : K) • com (com (F.fluct h S.f S.g) (F.T2 S.t2)) (F.T2 S.t2)))) := by
  have := capDag_eq F hD S _ _ (fun a b c d i j k l ha hb hc hd hi hj hk hl =>
    xccd5_t4_eq F hD S hS h hf a b c d i j k l ha hb hc hd hi hj hk hl) a b i j ha hb hi hj
  unfold Fermi.quad at this
  rw [← this]
  simp only [build_XCCDbase, if_true, Option.map_some, Option.some.injEq]
  ring

/-- The order 6 base is half of `⟨Φ_ij^ab| T2† 1/6 [[[V, T2], T2], T2] |Φ⟩`. -/
theorem C78_order6 (hD : Disjoint (D 0) (D 1)) (S : SO I K) (hS : S.Sym) (h : I → I → K)
    (hf : IsFock D h S.f S.g) (a b i j : I) (ha : a ∈ D 1) (hb : b ∈ D 1) (hi : i ∈ D 0) (hj : j ∈ D 0) :
    (build_XCCDbase D S 6).map (fun r => r a b i j) =
      some (1 / 2 * F.ω (F.bra2 a b i j * F.T2dag S.t2 *
        ((1 / 6 : K) • com (com (com (F.fluct h S.f S.g) (F.T2 S.t2)) (F.T2 S.t2)) (F.T2 S.t2)))) := by
  have := capDag_eq F hD S _ _ (fun a b c d i j k l ha hb hc hd hi hj hk hl =>
    xccd6_t4_eq F hD S hS h hf a b c d i j k l ha hb hc hd hi hj hk hl) a b i j ha hb hi hj
  unfold Fermi.cub at this
  rw [← this]
  norm_num [build_XCCDbase, Option.map_some, Option.some.injEq]
  ring

omit [DecidableEq I] [CharZero K] in
theorem xccd7_args_sym (S : SO I K) (hS : S.Sym) : (xccd7_args D S).Sym := by
  have hA := C29_antisym_t4_residual (Gen.xccd5_quad.eval D S.T)
  have f : ∀ (m n : Fin 4) (p q r s u w y z : I), m ≠ n →
      antisym_t4_residual (Gen.xccd5_quad.eval D S.T) (List.ofFn (![p, q, r, s] ∘ Equiv.swap m n) ++ [u, w, y, z]) =
      - antisym_t4_residual (Gen.xccd5_quad.eval D S.T) [p, q, r, s, u, w, y, z] :=
    fun m n p q r s u w y z h => by simpa using hA.first m n ![p, q, r, s] ![u, w, y, z] h
  have g : ∀ (m n : Fin 4) (p q r s u w y z : I), m ≠ n →
      antisym_t4_residual (Gen.xccd5_quad.eval D S.T) ([p, q, r, s] ++ List.ofFn (![u, w, y, z] ∘ Equiv.swap m n)) =
      - antisym_t4_residual (Gen.xccd5_quad.eval D S.T) [p, q, r, s, u, w, y, z] :=
    fun m n p q r s u w y z h => by simpa using hA.last m n ![p, q, r, s] ![u, w, y, z] h
  refine { hS with
    l2_anti0 := fun p q r s => hS.t2_anti2 r s p q
    l2_anti2 := fun p q r s => hS.t2_anti0 r s p q
    t4_anti0 := ?_, t4_anti1 := ?_, t4_anti2 := ?_, t4_anti4 := ?_, t4_anti5 := ?_, t4_anti6 := ?_ } <;>
    intro p q r s u w y z <;> simp only [xccd7_args, xccd5_t4]
  · have := g 0 1 u w y z q p r s (by decide); simpa [Equiv.swap_apply_def] using this
  · have := g 1 2 u w y z p r q s (by decide); simpa [Equiv.swap_apply_def] using this
  · have := g 2 3 u w y z p q s r (by decide); simpa [Equiv.swap_apply_def] using this
  · have := f 0 1 w u y z p q r s (by decide); simpa [Equiv.swap_apply_def] using this
  · have := f 1 2 u y w z p q r s (by decide); simpa [Equiv.swap_apply_def] using this
  · have := f 2 3 u w z y p q r s (by decide); simpa [Equiv.swap_apply_def] using this

omit [CharZero K] [Inhabited I] in
theorem T4_congr (t u : I → I → I → I → I → I → I → I → K)
    (h : ∀ a b c d i j k l, a ∈ D 1 → b ∈ D 1 → c ∈ D 1 → d ∈ D 1 → i ∈ D 0 → j ∈ D 0 → k ∈ D 0 → l ∈ D 0 →
      t a b c d i j k l = u a b c d i j k l) : F.T4 t = F.T4 u := by
  unfold Fermi.T4
  congr 1
  refine Finset.sum_congr rfl fun a ha => Finset.sum_congr rfl fun b hb => Finset.sum_congr rfl fun c hc =>
    Finset.sum_congr rfl fun d hd => Finset.sum_congr rfl fun i hi => Finset.sum_congr rfl fun j hj =>
    Finset.sum_congr rfl fun k hk => Finset.sum_congr rfl fun l hl => ?_
  rw [h a b c d i j k l ha hb hc hd hi hj hk hl]

/-- The net quadruples operator of order 5: its amplitudes are the matrix elements of `1/2 [[V, T2], T2]`. -/
def Fermi.netT4 (F : Fermi I K A D) (h : I → I → K) (S : SO I K) : A :=
  F.T4 fun a b c d i j k l => F.ω (F.bra4 a b c d i j k l *
    ((1 / 2 : K) • com (com (F.fluct h S.f S.g) (F.T2 S.t2)) (F.T2 S.t2)))

/-- The rounding of the coefficients printed in `get_xcc7residual`, carried to the base. -/
def xccd7_roundoff (D : Nat → Finset I) (S : SO I K) (a b i j : I) : K :=
  1 / 24 * capDag D S (antisym_t4_residual ((roundoff Gen.get_xcc7residual).eval D (xccd7_args D S).T)) a b i j

/-- The order 7 base is a sixth of `⟨Φ_ij^ab| T2† [[T2†, T2], T4] |Φ⟩`, with the net quadruples of order 5 as `T4`, up to
the rounding of the printed coefficients. -/
theorem C78_order7 (hD : Disjoint (D 0) (D 1)) (S : SO I K) (hS : S.Sym) (h : I → I → K)
    (hf : IsFock D h S.f S.g) (a b i j : I) (ha : a ∈ D 1) (hb : b ∈ D 1) (hi : i ∈ D 0) (hj : j ∈ D 0) :
    (build_XCCDbase D S 7).map (fun r => r a b i j) =
      some (1 / 6 * F.ω (F.bra2 a b i j * F.T2dag S.t2 *
        com (com (F.T2dag S.t2) (F.T2 S.t2)) (Fermi.netT4 F h S)) + xccd7_roundoff D S a b i j) := by
  have hT4 : Fermi.netT4 F h S = F.T4 (xccd7_args D S).t4 := by
    unfold Fermi.netT4
    exact T4_congr F _ _ fun a b c d i j k l ha hb hc hd hi hj hk hl =>
      (xccd5_t4_eq F hD S hS h hf a b c d i j k l ha hb hc hd hi hj hk hl).symm
  have hS7 := xccd7_args_sym (D := D) S hS
  have e : ∀ S' : SO I K, S'.Sym → _ := fun S' hS' =>
    eval_eq_of_isZero D S'.T N.kinds hS'.holds _ _ _ _ _ Cert.xccd7_mat [] rfl
  have key := capDag_eq F hD S (antisym_t4_residual (Prog.eval D (xccd7_args D S).T Gen.get_xcc7residual.ideal))
    (com (com (F.T2dag S.t2) (F.T2 S.t2)) (Fermi.netT4 F h S)) (fun a b c d i j k l ha hb hc hd hi hj hk hl => by
      have m := capped4 F hD (xccd7_args D S) hS7 h hf _ (by decide +kernel) _ (by decide +kernel) (by decide +kernel) e
        a b c d i j k l ha hb hc hd hi hj hk hl
      have h31 := C31_antisym_t4_residual (Prog.eval D (xccd7_args D S).T Gen.get_xcc7residual.ideal) ![i, j, k, l]
        ![a, b, c, d]
      refine (h31.trans m.symm).trans ?_
      rw [hT4, Fermi.T2dag]
      have h1 : (xccd7_args D S).l2 = fun i j a b => S.t2 a b i j := rfl
      have h2 : (xccd7_args D S).t2 = S.t2 := rfl
      rw [← h1, ← h2]
      mat_close
      ) a b i j ha hb hi hj
  rw [← key]
  have hsum : capDag D S (xccd7_t4 D S) a b i j =
      capDag D S (antisym_t4_residual (Prog.eval D (xccd7_args D S).T Gen.get_xcc7residual.ideal)) a b i j +
      capDag D S (antisym_t4_residual ((roundoff Gen.get_xcc7residual).eval D (xccd7_args D S).T)) a b i j := by
    unfold capDag
    simp only [← Finset.sum_add_distrib, ← mul_add]
    refine Finset.sum_congr rfl fun k _ => Finset.sum_congr rfl fun l _ => Finset.sum_congr rfl fun c _ =>
      Finset.sum_congr rfl fun d _ => ?_
    congr 1
    unfold xccd7_t4 antisym_t4_residual antisym
    rw [← List.sum_map_add]
    congr 1
    refine List.map_congr_left fun q _ => ?_
    rw [eval_roundoff (D := D) (xccd7_args D S).T Gen.get_xcc7residual, mul_add]
  have hb : (build_XCCDbase D S 7).map (fun r => r a b i j) = some (1 / 24 * capDag D S (xccd7_t4 D S) a b i j) := rfl
  rw [hb, hsum, xccd7_roundoff]
  congr 1
  ring

/-- No coefficient of `get_xcc7residual` is off by more than `5·10⁻¹⁰`. -/
theorem C78_order7_roundoff : ∀ b ∈ roundoff Gen.get_xcc7residual, |b.c| ≤ 1 / 2000000000 := by decide +kernel

/-! ### energies -/

omit [CharZero K] [Inhabited I] in
theorem ω_L2 (l : I → I → I → I → K) (X : A) : F.ω (F.L2 l * X) =
    1 / 4 * ∑ i ∈ D 0, ∑ j ∈ D 0, ∑ a ∈ D 1, ∑ b ∈ D 1, l i j a b * F.ω (F.bra2 a b i j * X) := by
  unfold Fermi.L2 Fermi.bra2
  simp only [smul_mul_assoc, Finset.sum_mul, map_smul, map_sum, smul_eq_mul]

omit [CharZero K] [Inhabited I] in
/-- The energy from a base that is a multiple of a matrix element. -/
theorem energy_of_base (l : I → I → I → I → K) (r : I → I → I → I → K) (q : K) (Y : A)
    (hr : ∀ a b i j, a ∈ D 1 → b ∈ D 1 → i ∈ D 0 → j ∈ D 0 → r a b i j = q * F.ω (F.bra2 a b i j * Y)) :
    1 / 4 * ∑ i ∈ D 0, ∑ j ∈ D 0, ∑ a ∈ D 1, ∑ b ∈ D 1, l i j a b * r a b i j = q * F.ω (F.L2 l * Y) := by
  rw [ω_L2]
  have : ∀ i ∈ D 0, ∀ j ∈ D 0, ∀ a ∈ D 1, ∀ b ∈ D 1, l i j a b * r a b i j =
      q * (l i j a b * F.ω (F.bra2 a b i j * Y)) := by
    intro i hi j hj a ha b hb
    rw [hr a b i j ha hb hi hj]; ring
  rw [Finset.sum_congr rfl fun i hi => Finset.sum_congr rfl fun j hj => Finset.sum_congr rfl fun a ha =>
    Finset.sum_congr rfl fun b hb => this i hi j hj a ha b hb]
  simp only [← Finset.mul_sum]
  ring

/-- The order 5 energy is half of `⟨Φ| L T2† 1/2 [[V, T2], T2] |Φ⟩`, where `L` has the first-order amplitudes
`g D2` if `factorization` is set and is `T2†` if not. -/
theorem C78_energy5 (hD : Disjoint (D 0) (D 1)) (S : SO I K) (hS : S.Sym) (h : I → I → K)
    (hf : IsFock D h S.f S.g) (D2 : I → I → I → I → K) :
    buildXCCD_T2energy D S D2 5 true =
      some (1 / 2 * F.ω (F.T2dag (fun a b i j => S.g a b i j * D2 a b i j) * (F.T2dag S.t2 *
        ((1 / 2 : K) • com (com (F.fluct h S.f S.g) (F.T2 S.t2)) (F.T2 S.t2))))) ∧
    buildXCCD_T2energy D S D2 5 false =
      some (1 / 2 * F.ω (F.T2dag S.t2 * (F.T2dag S.t2 *
        ((1 / 2 : K) • com (com (F.fluct h S.f S.g) (F.T2 S.t2)) (F.T2 S.t2))))) := by
  have hb := C78_order5 F hD S hS h hf
  have e : build_XCCDbase D S 5 = some fun a b i j => 1 / 8 * capDag D S (xccd5_t4 D S) a b i j := rfl
  rw [e] at hb
  simp only [Option.map_some, Option.some.injEq, mul_assoc (F.bra2 _ _ _ _)] at hb
  constructor <;> unfold buildXCCD_T2energy <;> rw [e, Option.map_some, Option.some.injEq] <;>
    exact energy_of_base F _ _ _ _ hb

/-- The order 6 energy in the same way. -/
theorem C78_energy6 (hD : Disjoint (D 0) (D 1)) (S : SO I K) (hS : S.Sym) (h : I → I → K)
    (hf : IsFock D h S.f S.g) (D2 : I → I → I → I → K) :
    buildXCCD_T2energy D S D2 6 true =
      some (1 / 2 * F.ω (F.T2dag (fun a b i j => S.g a b i j * D2 a b i j) * (F.T2dag S.t2 *
        ((1 / 6 : K) • com (com (com (F.fluct h S.f S.g) (F.T2 S.t2)) (F.T2 S.t2)) (F.T2 S.t2))))) ∧
    buildXCCD_T2energy D S D2 6 false =
      some (1 / 2 * F.ω (F.T2dag S.t2 * (F.T2dag S.t2 *
        ((1 / 6 : K) • com (com (com (F.fluct h S.f S.g) (F.T2 S.t2)) (F.T2 S.t2)) (F.T2 S.t2))))) := by
  have hb := C78_order6 F hD S hS h hf
  have e : build_XCCDbase D S 6 = some fun a b i j => 1 / 8 * capDag D S (xccd6_t4 D S) a b i j := rfl
  rw [e] at hb
  simp only [Option.map_some, Option.some.injEq, mul_assoc (F.bra2 _ _ _ _)] at hb
  constructor <;> unfold buildXCCD_T2energy <;> rw [e, Option.map_some, Option.some.injEq] <;>
    exact energy_of_base F _ _ _ _ hb

/-- `add_XCCenergy` with the orders `[5, 6]` is the expectation value with the commutators through third order in `T2`. -/
theorem C78_add_energy (hD : Disjoint (D 0) (D 1)) (S : SO I K) (hS : S.Sym) (h : I → I → K)
    (hf : IsFock D h S.f S.g) (D2 : I → I → I → I → K) :
    add_XCCenergy D S D2 false [5, 6] =
      some (1 / 2 * F.ω (F.T2dag S.t2 * (F.T2dag S.t2 *
        ((1 / 2 : K) • com (com (F.fluct h S.f S.g) (F.T2 S.t2)) (F.T2 S.t2) +
          (1 / 6 : K) • com (com (com (F.fluct h S.f S.g) (F.T2 S.t2)) (F.T2 S.t2)) (F.T2 S.t2))))) := by
  simp only [add_XCCenergy, List.foldlM_cons, List.foldlM_nil, (C78_energy5 F hD S hS h hf D2).2,
    (C78_energy6 F hD S hS h hf D2).2, Option.map_some, Option.bind_eq_bind, Option.bind_some, zero_add, mul_add,
    map_add]
  rfl

/-! ### the spin-integrated `(Qf)` terms -/

omit [CharZero K] [Inhabited I] [Ring A] [Algebra K A] in
/-- There is an algebra of fermion operators for any orbitals. -/
theorem exists_fermi (hD : Disjoint (D 0) (D 1)) : Nonempty (Fermi I K (Module.End K (Fock I K)) D) := by
  classical
  obtain ⟨o, -⟩ := exists_wellFoundedLT I
  have := fock (K := K) D hD
  constructor
  convert this

omit [DecidableEq I] [CharZero K] [Inhabited I] [Ring A] [Algebra K A] in
theorem exists_isFock (S : SO I K) : ∃ h, IsFock D h S.f S.g :=
  ⟨fun p q => S.f p q - ∑ k ∈ D 0, S.g p k q k, fun p q => by ring⟩

/-- `set_l2amps` without first-order amplitudes: the de-excitation amplitudes are the transposed amplitudes. -/
def withDag (S : SO I K) : SO I K := { S with l2 := fun i j a b => S.t2 a b i j }

omit [DecidableEq I] [CharZero K] [Inhabited I] [Ring A] [Algebra K A] in
theorem withDag_sym (S : SO I K) (hS : S.Sym) : (withDag S).Sym :=
  { hS with
    l2_anti0 := fun p q r s => hS.t2_anti2 r s p q
    l2_anti2 := fun p q r s => hS.t2_anti0 r s p q }

omit [Ring A] [Algebra K A] in
/-- The order 5 base is half of `residQf1`, which is what `CCDQf-1` adds to the residual. -/
theorem C78_order5_residQf1 (hD : Disjoint (D 0) (D 1)) (S : SO I K) (hS : S.Sym) (a b i j : I) (ha : a ∈ D 1)
    (hb : b ∈ D 1) (hi : i ∈ D 0) (hj : j ∈ D 0) :
    (build_XCCDbase D S 5).map (fun r => r a b i j) = some (1 / 2 * residQf1 D (withDag S) a b i j) := by
  obtain ⟨F⟩ := exists_fermi (K := K) hD
  obtain ⟨h, hf⟩ := exists_isFock (D := D) S
  rw [C78_order5 F hD S hS h hf a b i j ha hb hi hj,
    ← C77_residQf1 F hD (withDag S) (withDag_sym S hS) h hf a b i j ha hb hi hj]
  rfl

omit [Ring A] [Algebra K A] in
/-- The order 6 base is half of `residQf2`. -/
theorem C78_order6_residQf2 (hD : Disjoint (D 0) (D 1)) (S : SO I K) (hS : S.Sym) (a b i j : I) (ha : a ∈ D 1)
    (hb : b ∈ D 1) (hi : i ∈ D 0) (hj : j ∈ D 0) :
    (build_XCCDbase D S 6).map (fun r => r a b i j) = some (1 / 2 * residQf2 D (withDag S) a b i j) := by
  obtain ⟨F⟩ := exists_fermi (K := K) hD
  obtain ⟨h, hf⟩ := exists_isFock (D := D) S
  rw [C78_order6 F hD S hS h hf a b i j ha hb hi hj,
    ← C77_residQf2 F hD (withDag S) (withDag_sym S hS) h hf a b i j ha hb hi hj]
  rfl

omit [Ring A] [Algebra K A] in
/-- `CCDQf-2` (`t2residEqns.py` 72: `0.5 * qf1 + (1.0/6.0) * qf2`) is the XCCD base through order 6 only where the cubic
contribution is zero. -/
theorem C78_ccdqf2_iff (hD : Disjoint (D 0) (D 1)) (S : SO I K) (hS : S.Sym) (a b i j : I) (ha : a ∈ D 1)
    (hb : b ∈ D 1) (hi : i ∈ D 0) (hj : j ∈ D 0) :
    (do let x ← build_XCCDbase D S 5; let y ← build_XCCDbase D S 6; pure (x a b i j + y a b i j)) =
      some (1 / 2 * residQf1 D (withDag S) a b i j + 1 / 6 * residQf2 D (withDag S) a b i j) ↔
    residQf2 D (withDag S) a b i j = 0 := by
  have h5 := C78_order5_residQf1 hD S hS a b i j ha hb hi hj
  have h6 := C78_order6_residQf2 hD S hS a b i j ha hb hi hj
  have e5 : build_XCCDbase D S 5 = some fun a b i j => 1 / 8 * capDag D S (xccd5_t4 D S) a b i j := rfl
  have e6 : build_XCCDbase D S 6 = some fun a b i j => 1 / 8 * capDag D S (xccd6_t4 D S) a b i j := rfl
  rw [e5] at h5
  rw [e6] at h6
  simp only [Option.map_some, Option.some.injEq] at h5 h6
  rw [e5, e6]
  simp only [Option.bind_eq_bind, Option.bind_some, Option.pure_def, Option.some.injEq]
  rw [h5, h6]
  constructor
  · intro e; linear_combination 3 * e
  · intro e; rw [e]; ring

omit [Ring A] [Algebra K A] in
/-- The order 5 energy is half of `energy_pertQf`. -/
theorem C78_energy5_pertQf (hD : Disjoint (D 0) (D 1)) (S : SO I K) (hS : S.Sym) (D2 : I → I → I → I → K) :
    buildXCCD_T2energy D S D2 5 false = some (1 / 2 * energy_pertQf D (withDag S)) := by
  obtain ⟨F⟩ := exists_fermi (K := K) hD
  obtain ⟨h, hf⟩ := exists_isFock (D := D) S
  rw [(C78_energy5 F hD S hS h hf D2).2, ← C77_pertQf_double F hD (withDag S) (withDag_sym S hS) h hf, mul_assoc]
  rfl

omit [DecidableEq I] [CharZero K] [Inhabited I] [Ring A] [Algebra K A] in
theorem spinD_disjoint (hD : Disjoint (D 0) (D 1)) : Disjoint (spinD D 0) (spinD D 1) := by
  rw [Finset.disjoint_left] at hD ⊢
  intro x hx hx'
  simp only [spinD, Finset.mem_product] at hx hx'
  exact hD hx.1 hx'.1

omit [Ring A] [Algebra K A] in
/-- The spin-integrated `CCD(Qf)` correction (`t2energy.py` 51-54) is twice the order 5 correction of the spin-orbital code
when both use the amplitudes as adjoint amplitudes, so the two agree only if they are zero. -/
theorem C78_qf_routes (hD : Disjoint (D 0) (D 1)) (A : SI I K) (hA : A.Sym)
    (hl : ∀ i j a b, A.so.l2 i j a b = A.so.t2 a b i j) (D2 : I × Bool → I × Bool → I × Bool → I × Bool → K) :
    (buildXCCD_T2energy (spinD D) A.so D2 5 false).map (2 * ·) = some (si_energy_pertQf D A) ∧
    (buildXCCD_T2energy (spinD D) A.so D2 5 false = some (si_energy_pertQf D A) ↔ si_energy_pertQf D A = 0) := by
  have hw : withDag A.so = A.so := by
    have : A.so.l2 = fun i j a b => A.so.t2 a b i j := by funext i j a b; exact hl i j a b
    unfold withDag
    rw [← this]
  have e := C78_energy5_pertQf (spinD_disjoint hD) A.so hA.so D2
  rw [hw, ← C35_qf_energy D A hA] at e
  rw [e]
  simp only [Option.map_some, Option.some.injEq]
  constructor
  · ring
  · constructor
    · intro h; linear_combination -2 * h
    · intro h; rw [h]; ring

/-! ### cases -/

/-- Four occupied and four virtual orbitals. -/
def DX : Nat → Finset ℕ
  | 0 => {0, 1, 2, 3}
  | _ => {4, 5, 6, 7}

example (B : Type) [Ring B] [Algebra ℚ B] (F : Fermi ℕ ℚ B DX) (h : ℕ → ℕ → ℚ)
    (hf : IsFock DX h Witness.so.f Witness.so.g) :
    (build_XCCDbase DX Witness.so 7).map (fun r => r 4 5 0 1) =
      some (1 / 6 * F.ω (F.bra2 4 5 0 1 * F.T2dag Witness.so.t2 *
        com (com (F.T2dag Witness.so.t2) (F.T2 Witness.so.t2)) (Fermi.netT4 F h Witness.so)) +
        xccd7_roundoff DX Witness.so 4 5 0 1) :=
  C78_order7 F (by decide) Witness.so Witness.so_sym h hf 4 5 0 1 (by decide) (by decide) (by decide) (by decide)

example : buildXCCD_T2energy DX Witness.so (fun _ _ _ _ => 1) 5 false =
    some (1 / 2 * energy_pertQf DX (withDag Witness.so)) :=
  C78_energy5_pertQf (by decide) Witness.so Witness.so_sym _

/-- The quadruples array of order 5 before antisymmetrisation has non-zero entries. -/
example : Gen.xccd5_quad.eval DX Witness.so.T [0, 1, 2, 3, 4, 5, 6, 7] ≠ 0 := by decide +kernel

end Verif.Props
