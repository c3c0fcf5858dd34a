import Verif.Wick.Delta
import Verif.Wick.Fock
import Verif.Cert.Mat
import Verif.Cert.MatQf
import Verif.Cert.MatT4
import Verif.Fn.All
import Verif.Props.Quadruples
import Verif.Props.Projected
import Mathlib.Tactic.Module

/-!
# Perturbative quantities are matrix elements of commutators (C77)

`h`, `g` are the integrals of any Hamiltonian `H`, `S.f` its Fock matrix, `V = H - F` the fluctuation operator; `S.t1`,
`S.t2`, `S.t3`, `S.l1`, `S.l2` are any amplitudes, `F.L1`, `F.L2` the de-excitation operators with the amplitudes `S.l1`,
`S.l2` (Wick/Matrix.lean). As in Props/Projected.lean the left sides mention no diagram and no program of the code.
-/

namespace Verif.Props

open Verif.Ein Verif.UT2 Verif.Wick

variable {I K A : Type} [DecidableEq I] [Field K] [CharZero K] [Ring A] [Algebra K A] [Inhabited I] {D : Nat → Finset I}
  (F : Fermi I K A D)

/-- Close the goal that is left when the certificate and `matrix` have been applied. -/
macro "mat_close" : tactic => `(tactic| (
  simp only [List.map_cons, List.map_nil, List.sum_cons, List.sum_nil, adW, Fermi.cl, Fermi.part, scale, tS, com,
    smul_mul_assoc, mul_smul_comm, map_smul, smul_eq_mul, add_zero, mul_add, map_add, List.prod_cons, List.prod_nil]
  push_cast
  ring))

/-- What LCCD leaves out of the CCD residual is the quadratic term. -/
theorem C77_lccd_offset (hD : Disjoint (D 0) (D 1)) (S : SO I K) (hS : S.Sym) (h : I → I → K)
    (hf : IsFock D h S.f S.g) (a b i j : I) (ha : a ∈ D 1) (hb : b ∈ D 1) (hi : i ∈ D 0) (hj : j ∈ D 0) :
    F.ω (F.bra2 a b i j * ((1/2 : K) • com (com (F.ham h S.g) (F.T2 S.t2)) (F.T2 S.t2))) =
      doubles_resLCCDoffset D S a b i j := by
  have e := eval_eq_of_isZero D S.T N.kinds hS.holds _ _ _ _ _ Cert.lccd_mat [a, b, i, j] rfl
  have m := matrix F hD S hS h hf (braW 2) [a, b, i, j] (by simp [braW, Ein.bind, sp, ha, hb, hi, hj]) (braW_lt 2)
    (braT 2) (bra_ok 2) [(1/128, [2, 2], .all)]
  rw [val_bra2 F] at m
  refine Eq.trans ?_ (m.symm.trans e)
  mat_close

/-- The singles equation of UCC(4): `F + [F, T1] + [V, T2]`. -/
theorem C77_ucc4_t1 (hD : Disjoint (D 0) (D 1)) (S : SO I K) (hS : S.Sym) (h : I → I → K)
    (hf : IsFock D h S.f S.g) (a i : I) (ha : a ∈ D 1) (hi : i ∈ D 0) :
    F.ω (F.bra1 a i * (F.fockOp S.f + com (F.fockOp S.f) (F.T1 S.t1) + com (F.fluct h S.f S.g) (F.T2 S.t2))) =
      t1_residEqns D S a i := by
  have e := eval_eq_of_isZero D S.T N.kinds hS.holds _ _ _ _ _ Cert.ucc4_t1_mat [a, i] rfl
  have m := matrix F hD S hS h hf (braW 1) [a, i] (by simp [braW, Ein.bind, sp, ha, hi]) (braW_lt 1)
    (braT 1) (bra_ok 1) [(1/4, [], .fock), (1/4, [1], .fock), (1/16, [2], .fluct)]
  rw [val_bra1 F] at m
  refine Eq.trans ?_ (m.symm.trans e)
  mat_close

/-- The triples equation of UCC(4): `[F, T3] + [V, T2]`. -/
theorem C77_ucc4_t3 (hD : Disjoint (D 0) (D 1)) (S : SO I K) (hS : S.Sym) (h : I → I → K)
    (hf : IsFock D h S.f S.g) (a b c i j k : I) (ha : a ∈ D 1) (hb : b ∈ D 1) (hc : c ∈ D 1) (hi : i ∈ D 0) (hj : j ∈ D 0) (hk : k ∈ D 0) :
    F.ω (F.bra3 a b c i j k * (com (F.fockOp S.f) (F.T3 S.t3) + com (F.fluct h S.f S.g) (F.T2 S.t2))) =
      t3_resid D S a b c i j k := by
  have e := eval_eq_of_isZero D S.T N.kinds hS.holds _ _ _ _ _ Cert.ucc4_t3_mat [a, b, c, i, j, k] rfl
  have m := matrix F hD S hS h hf (braW 3) [a, b, c, i, j, k] (by simp [braW, Ein.bind, sp, ha, hb, hc, hi, hj, hk]) (braW_lt 3)
    (braT 3) (bra_ok 3) [(1/144, [3], .fock), (1/16, [2], .fluct)]
  rw [val_bra3 F] at m
  refine Eq.trans ?_ (m.symm.trans e)
  mat_close

/-- What the singles and triples of UCC(4) add to the doubles equation: `[V, T1] + [V, T3]`. -/
theorem C77_ucc4_t1t3 (hD : Disjoint (D 0) (D 1)) (S : SO I K) (hS : S.Sym) (h : I → I → K)
    (hf : IsFock D h S.f S.g) (a b i j : I) (ha : a ∈ D 1) (hb : b ∈ D 1) (hi : i ∈ D 0) (hj : j ∈ D 0) :
    F.ω (F.bra2 a b i j * (com (F.fluct h S.f S.g) (F.T1 S.t1) + com (F.fluct h S.f S.g) (F.T3 S.t3))) =
      offset_t2resid_T1_T3 D S a b i j := by
  have e := eval_eq_of_isZero D S.T N.kinds hS.holds _ _ _ _ _ Cert.ucc4_t1t3_mat [a, b, i, j] rfl
  have m := matrix F hD S hS h hf (braW 2) [a, b, i, j] (by simp [braW, Ein.bind, sp, ha, hb, hi, hj]) (braW_lt 2)
    (braT 2) (bra_ok 2) [(1/4, [1], .fluct), (1/144, [3], .fluct)]
  rw [val_bra2 F] at m
  refine Eq.trans ?_ (m.symm.trans e)
  mat_close

/-- The quadratic part of the doubles equation of UCC(4) is half of the CCD one: `1/4 [[V, T2], T2]`. -/
theorem C77_ucc4_sq (hD : Disjoint (D 0) (D 1)) (S : SO I K) (hS : S.Sym) (h : I → I → K)
    (hf : IsFock D h S.f S.g) (a b i j : I) (ha : a ∈ D 1) (hb : b ∈ D 1) (hi : i ∈ D 0) (hj : j ∈ D 0) :
    F.ω (F.bra2 a b i j * ((1/4 : K) • com (com (F.fluct h S.f S.g) (F.T2 S.t2)) (F.T2 S.t2))) =
      offset_t2resid_t2squared D S a b i j := by
  have e := eval_eq_of_isZero D S.T N.kinds hS.holds _ _ _ _ _ Cert.ucc4_sq_mat [a, b, i, j] rfl
  have m := matrix F hD S hS h hf (braW 2) [a, b, i, j] (by simp [braW, Ein.bind, sp, ha, hb, hi, hj]) (braW_lt 2)
    (braT 2) (bra_ok 2) [(1/256, [2, 2], .fluct)]
  rw [val_bra2 F] at m
  refine Eq.trans ?_ (m.symm.trans e)
  mat_close

/-- The second-order triples residual is `⟨Φ_ijk^abc| [V, T2] |Φ⟩`. -/
theorem C77_T3 (hD : Disjoint (D 0) (D 1)) (S : SO I K) (hS : S.Sym) (h : I → I → K)
    (hf : IsFock D h S.f S.g) (a b c i j k : I) (ha : a ∈ D 1) (hb : b ∈ D 1) (hc : c ∈ D 1) (hi : i ∈ D 0) (hj : j ∈ D 0) (hk : k ∈ D 0) :
    F.ω (F.bra3 a b c i j k * (com (F.fluct h S.f S.g) (F.T2 S.t2))) =
      build_T3 D S a b c i j k := by
  have e := eval_eq_of_isZero D S.T N.kinds hS.holds _ _ _ _ _ Cert.T3_mat [a, b, c, i, j, k] rfl
  have m := matrix F hD S hS h hf (braW 3) [a, b, c, i, j, k] (by simp [braW, Ein.bind, sp, ha, hb, hc, hi, hj, hk]) (braW_lt 3)
    (braT 3) (bra_ok 3) [(1/16, [2], .fluct)]
  rw [val_bra3 F] at m
  refine Eq.trans ?_ (m.symm.trans e)
  mat_close

/-- The third-order triples residual of `wicked_T3corr.py`, antisymmetrised, is `⟨Φ_ijk^abc| 1/2 [[V, T2], T2] |Φ⟩`. -/
theorem C77_T3_third (hD : Disjoint (D 0) (D 1)) (S : SO I K) (hS : S.Sym) (h : I → I → K)
    (hf : IsFock D h S.f S.g) (a b c i j k : I) (ha : a ∈ D 1) (hb : b ∈ D 1) (hc : c ∈ D 1) (hi : i ∈ D 0) (hj : j ∈ D 0) (hk : k ∈ D 0) :
    F.ω (F.bra3 a b c i j k * ((1/2 : K) • com (com (F.fluct h S.f S.g) (F.T2 S.t2)) (F.T2 S.t2))) =
      antisym_T3 (fun xs => Gen.build_T3_thirdO.eval D S.T xs) [i, j, k, a, b, c] := by
  have e := eval_eq_of_isZero D S.T N.kinds hS.holds _ _ _ _ _ Cert.T3_third_mat [a, b, c, i, j, k] rfl
  rw [Prog.eval_outs' D S.T 6 [3, 4, 5, 0, 1, 2] (by decide) _ (by decide +kernel) [a, b, c, i, j, k] rfl,
    Prog.eval_through D S.T 6 _ (by decide +kernel) _ (by decide +kernel) _ rfl] at e
  have m := matrix F hD S hS h hf (braW 3) [a, b, c, i, j, k] (by simp [braW, Ein.bind, sp, ha, hb, hc, hi, hj, hk]) (braW_lt 3)
    (braT 3) (bra_ok 3) [(1/128, [2, 2], .fluct)]
  rw [val_bra3 F] at m
  refine Eq.trans ?_ (m.symm.trans e)
  mat_close

/-- The singles from doubles of `wicked_T3corr.py`: `⟨Φ_i^a| [V, T2] |Φ⟩`. -/
theorem C77_netT1 (hD : Disjoint (D 0) (D 1)) (S : SO I K) (hS : S.Sym) (h : I → I → K)
    (hf : IsFock D h S.f S.g) (a i : I) (ha : a ∈ D 1) (hi : i ∈ D 0) :
    F.ω (F.bra1 a i * (com (F.fluct h S.f S.g) (F.T2 S.t2))) =
      get_netT1_fromT2 D S i a := by
  have e := eval_eq_of_isZero D S.T N.kinds hS.holds _ _ _ _ _ Cert.netT1_mat [a, i] rfl
  rw [Prog.eval_outs' D S.T 2 [1, 0] (by decide) _ (by decide +kernel) [a, i] rfl] at e
  have m := matrix F hD S hS h hf (braW 1) [a, i] (by simp [braW, Ein.bind, sp, ha, hi]) (braW_lt 1)
    (braT 1) (bra_ok 1) [(1/16, [2], .fluct)]
  rw [val_bra1 F] at m
  refine Eq.trans ?_ (m.symm.trans e)
  mat_close

/-- The singles with an adjoint doubles operator, `⟨Φ_i^a| T2† [V, T2] |Φ⟩`. -/
theorem C77_netT1_third (hD : Disjoint (D 0) (D 1)) (S : SO I K) (hS : S.Sym) (h : I → I → K)
    (hf : IsFock D h S.f S.g) (hl : ∀ i j a b, S.l2 i j a b = S.t2 a b i j) (a i : I) (ha : a ∈ D 1) (hi : i ∈ D 0) :
    F.ω (F.bra1 a i * F.L2 S.l2 * (com (F.fluct h S.f S.g) (F.T2 S.t2))) =
      get_netT1_thirdO D S i a := by
  have e := eval_eq_of_isZero D S.T N.kinds hS.holds _ _ _ _ _ Cert.netT1_third_mat [a, i] rfl
  rw [eval_rep_l2 D S hl _ (by decide +kernel)] at e
  rw [Prog.eval_outs' D S.T 2 [1, 0] (by decide) _ (by decide +kernel) [a, i] rfl] at e
  have m := matrix F hD S hS h hf (braW 1) [a, i] (by simp [braW, Ein.bind, sp, ha, hi]) (braW_lt 1)
    ((braT 1).l2 8 10 9 11) bra1_l2_ok [(1/64, [2], .fluct)]
  rw [val_bra1_l2 F] at m
  refine Eq.trans ?_ (m.symm.trans e)
  mat_close

/-- The doubles from triples, antisymmetrised: `⟨Φ_ij^ab| [V, T3] |Φ⟩`. -/
theorem C77_netT2 (hD : Disjoint (D 0) (D 1)) (S : SO I K) (hS : S.Sym) (h : I → I → K)
    (hf : IsFock D h S.f S.g) (a b i j : I) (ha : a ∈ D 1) (hb : b ∈ D 1) (hi : i ∈ D 0) (hj : j ∈ D 0) :
    F.ω (F.bra2 a b i j * (com (F.fluct h S.f S.g) (F.T3 S.t3))) =
      antisym_T2 (fun xs => Gen.build_netT2.eval D S.T xs) [i, j, a, b] := by
  have e := eval_eq_of_isZero D S.T N.kinds hS.holds _ _ _ _ _ Cert.netT2_mat [a, b, i, j] rfl
  rw [Prog.eval_outs' D S.T 4 [2, 3, 0, 1] (by decide) _ (by decide +kernel) [a, b, i, j] rfl,
    Prog.eval_through D S.T 4 _ (by decide +kernel) _ (by decide +kernel) _ rfl] at e
  have m := matrix F hD S hS h hf (braW 2) [a, b, i, j] (by simp [braW, Ein.bind, sp, ha, hb, hi, hj]) (braW_lt 2)
    (braT 2) (bra_ok 2) [(1/144, [3], .fluct)]
  rw [val_bra2 F] at m
  refine Eq.trans ?_ (m.symm.trans e)
  mat_close

/-- The doubles from singles, antisymmetrised: `⟨Φ_ij^ab| [V, T1] |Φ⟩`. -/
theorem C77_T1bar (hD : Disjoint (D 0) (D 1)) (S : SO I K) (hS : S.Sym) (h : I → I → K)
    (hf : IsFock D h S.f S.g) (a b i j : I) (ha : a ∈ D 1) (hb : b ∈ D 1) (hi : i ∈ D 0) (hj : j ∈ D 0) :
    F.ω (F.bra2 a b i j * (com (F.fluct h S.f S.g) (F.T1 S.t1))) =
      antisym_T2 (fun xs => Gen.get_T2resid_fromT1bar.eval D S.T xs) [i, j, a, b] := by
  have e := eval_eq_of_isZero D S.T N.kinds hS.holds _ _ _ _ _ Cert.T1bar_mat [a, b, i, j] rfl
  rw [Prog.eval_outs' D S.T 4 [2, 3, 0, 1] (by decide) _ (by decide +kernel) [a, b, i, j] rfl,
    Prog.eval_through D S.T 4 _ (by decide +kernel) _ (by decide +kernel) _ rfl] at e
  have m := matrix F hD S hS h hf (braW 2) [a, b, i, j] (by simp [braW, Ein.bind, sp, ha, hb, hi, hj]) (braW_lt 2)
    (braT 2) (bra_ok 2) [(1/4, [1], .fluct)]
  rw [val_bra2 F] at m
  refine Eq.trans ?_ (m.symm.trans e)
  mat_close

/-- The triples energy `[T]`: `⟨Φ| L2 [V, T3] |Φ⟩`. -/
theorem C77_squareT (hD : Disjoint (D 0) (D 1)) (S : SO I K) (hS : S.Sym) (h : I → I → K)
    (hf : IsFock D h S.f S.g) :
    F.ω (F.L2 S.l2 * (com (F.fluct h S.f S.g) (F.T3 S.t3))) =
      pdagq_T3energy D S := by
  have e := eval_eq_of_isZero D S.T N.kinds hS.holds _ _ _ _ _ Cert.squareT_mat [] rfl
  have m := matrix F hD S hS h hf (braW 0) [] (by simp [braW]) (braW_lt 0)
    ((braT 0).l2 8 10 9 11) bra0_l2_ok [(1/576, [3], .fluct)]
  rw [val_bra0_l2 F] at m
  refine Eq.trans ?_ (m.symm.trans e)
  mat_close

/-- The singles part of the triples energy `(T)`: `⟨Φ| L1 [V, T3] |Φ⟩`. -/
theorem C77_parenT (hD : Disjoint (D 0) (D 1)) (S : SO I K) (hS : S.Sym) (h : I → I → K)
    (hf : IsFock D h S.f S.g) :
    F.ω (F.L1 S.l1 * (com (F.fluct h S.f S.g) (F.T3 S.t3))) =
      getE_parenT_t1 D S := by
  have e := eval_eq_of_isZero D S.T N.kinds hS.holds _ _ _ _ _ Cert.parenT_mat [] rfl
  have m := matrix F hD S hS h hf (braW 0) [] (by simp [braW]) (braW_lt 0)
    ((braT 0).l1 8 9) bra0_l1_ok [(1/144, [3], .fluct)]
  rw [val_bra0_l1 F] at m
  refine Eq.trans ?_ (m.symm.trans e)
  mat_close

/-- `energy_pertQf` is `⟨Φ| L2 L2 1/2 [[V, T2], T2] |Φ⟩`. -/
theorem C77_pertQf_double (hD : Disjoint (D 0) (D 1)) (S : SO I K) (hS : S.Sym) (h : I → I → K)
    (hf : IsFock D h S.f S.g) :
    F.ω (F.L2 S.l2 * F.L2 S.l2 * ((1/2 : K) • com (com (F.fluct h S.f S.g) (F.T2 S.t2)) (F.T2 S.t2))) =
      energy_pertQf D S := by
  have e := eval_eq_of_isZero D S.T N.kinds hS.holds _ _ _ _ _ Cert.pertQf_mat [] rfl
  have m := matrix F hD S hS h hf (braW 0) [] (by simp [braW]) (braW_lt 0)
    (((braT 0).l2 8 10 9 11).l2 12 14 13 15) bra0_l2l2_ok [(1/2048, [2, 2], .fluct)]
  rw [val_bra0_l2l2 F] at m
  refine Eq.trans ?_ (m.symm.trans e)
  mat_close

/-- The triples contribution of `cc_energy.py`, antisymmetrised: `⟨Φ_ij^ab| T2† [V, T3] |Φ⟩`. -/
theorem C77_optWnT3 (hD : Disjoint (D 0) (D 1)) (S : SO I K) (hS : S.Sym) (h : I → I → K)
    (hf : IsFock D h S.f S.g) (hl : ∀ i j a b, S.l2 i j a b = S.t2 a b i j) (a b i j : I) (ha : a ∈ D 1) (hb : b ∈ D 1) (hi : i ∈ D 0) (hj : j ∈ D 0) :
    F.ω (F.bra2 a b i j * F.L2 S.l2 * (com (F.fluct h S.f S.g) (F.T3 S.t3))) =
      antisym_T2 (fun xs => Gen.optWnT3.eval D S.T xs) [i, j, a, b] := by
  have e := eval_eq_of_isZero D S.T N.kinds hS.holds _ _ _ _ _ Cert.optWnT3_mat [a, b, i, j] rfl
  rw [eval_rep_l2 D S hl _ (by decide +kernel)] at e
  rw [Prog.eval_outs' D S.T 4 [2, 3, 0, 1] (by decide) _ (by decide +kernel) [a, b, i, j] rfl,
    Prog.eval_through D S.T 4 _ (by decide +kernel) _ (by decide +kernel) _ rfl] at e
  have m := matrix F hD S hS h hf (braW 2) [a, b, i, j] (by simp [braW, Ein.bind, sp, ha, hb, hi, hj]) (braW_lt 2)
    ((braT 2).l2 8 10 9 11) bra2_l2_ok [(1/576, [3], .fluct)]
  rw [val_bra2_l2 F] at m
  refine Eq.trans ?_ (m.symm.trans e)
  mat_close

/-- The doubles and triples contribution of `build_qf_correction.py`: `⟨Φ_ij^ab| T2† [[V, T2], T3] |Φ⟩`. -/
theorem C77_wnT2T3 (hD : Disjoint (D 0) (D 1)) (S : SO I K) (hS : S.Sym) (h : I → I → K)
    (hf : IsFock D h S.f S.g) (hl : ∀ i j a b, S.l2 i j a b = S.t2 a b i j) (a b i j : I) (ha : a ∈ D 1) (hb : b ∈ D 1) (hi : i ∈ D 0) (hj : j ∈ D 0) :
    F.ω (F.bra2 a b i j * F.L2 S.l2 * (com (com (F.fluct h S.f S.g) (F.T2 S.t2)) (F.T3 S.t3))) =
      wnT2T3_toT2 D S i j a b := by
  have e := eval_eq_of_isZero D S.T N.kinds hS.holds _ _ _ _ _ Cert.wnT2T3_mat [a, b, i, j] rfl
  rw [eval_rep_l2 D S hl _ (by decide +kernel)] at e
  rw [Prog.eval_outs' D S.T 4 [2, 3, 0, 1] (by decide) _ (by decide +kernel) [a, b, i, j] rfl] at e
  have m := matrix F hD S hS h hf (braW 2) [a, b, i, j] (by simp [braW, Ein.bind, sp, ha, hb, hi, hj]) (braW_lt 2)
    ((braT 2).l2 8 10 9 11) bra2_l2_ok [(1/2304, [2, 3], .fluct)]
  rw [val_bra2_l2 F] at m
  refine Eq.trans ?_ (m.symm.trans e)
  mat_close

/-! ### quadruply excited bras -/

omit [DecidableEq I] [Field K] [CharZero K] [Inhabited I] [Ring A] [Algebra K A] in
theorem through_part (tab : List (ℤ × List Nat)) (sigs : List (List Nat)) (P : Prog) :
    (P.through tab).part sigs = (P.part sigs).through tab := by
  simp only [Prog.part, Prog.through, List.filter_map]
  rfl

/-- The quadratic part of `wnT2cubed_toT4`. -/
theorem T4_quad_eval (hD : Disjoint (D 0) (D 1)) (S : SO I K) (hS : S.Sym) (h : I → I → K)
    (hf : IsFock D h S.f S.g) (a b c d i j k l : I) (ha : a ∈ D 1) (hb : b ∈ D 1) (hc : c ∈ D 1) (hd : d ∈ D 1)
    (hi : i ∈ D 0) (hj : j ∈ D 0) (hk : k ∈ D 0) (hl : l ∈ D 0) :
    (Prog.part [[23, 39, 39]] Gen.wnT2cubed_toT4).eval D S.T [i, j, k, l, a, b, c, d] =
      F.ω (F.bra4 a b c d i j k l * ((1/2 : K) • com (com (F.fluct h S.f S.g) (F.T2 S.t2)) (F.T2 S.t2))) := by
  have e : ∀ S' : SO I K, S'.Sym → _ := fun S' hS' =>
    eval_eq_of_isZero D S'.T N.kinds hS'.holds _ _ _ _ _ Cert.T4_quad_mat [] rfl
  have m := capped4 F hD S hS h hf _ (by decide +kernel) _ (by decide +kernel) (by decide +kernel) e a b c d i j k l ha hb hc
    hd hi hj hk hl
  have h31 := C31_antisym_T4 (Prog.eval D S.T (Prog.part [[23, 39, 39]] Gen.wnT2cubed_toT4_0)) ![i, j, k, l] ![a, b, c, d]
  unfold Gen.wnT2cubed_toT4
  rw [through_part, Prog.eval_through D S.T 8 _ (by decide +kernel) _ (by decide +kernel) _ rfl]
  refine (h31.trans m.symm).trans ?_
  mat_close

/-- The cubic part of `wnT2cubed_toT4`. -/
theorem T4_cub_eval (hD : Disjoint (D 0) (D 1)) (S : SO I K) (hS : S.Sym) (h : I → I → K)
    (hf : IsFock D h S.f S.g) (a b c d i j k l : I) (ha : a ∈ D 1) (hb : b ∈ D 1) (hc : c ∈ D 1) (hd : d ∈ D 1)
    (hi : i ∈ D 0) (hj : j ∈ D 0) (hk : k ∈ D 0) (hl : l ∈ D 0) :
    (Prog.part [[23, 39, 39, 39]] Gen.wnT2cubed_toT4).eval D S.T [i, j, k, l, a, b, c, d] =
      F.ω (F.bra4 a b c d i j k l *
        ((1/6 : K) • com (com (com (F.fluct h S.f S.g) (F.T2 S.t2)) (F.T2 S.t2)) (F.T2 S.t2))) := by
  have e : ∀ S' : SO I K, S'.Sym → _ := fun S' hS' =>
    eval_eq_of_isZero D S'.T N.kinds hS'.holds _ _ _ _ _ Cert.T4_cub_mat [] rfl
  have m := capped4 F hD S hS h hf _ (by decide +kernel) _ (by decide +kernel) (by decide +kernel) e a b c d i j k l ha hb hc
    hd hi hj hk hl
  have h31 := C31_antisym_T4 (Prog.eval D S.T (Prog.part [[23, 39, 39, 39]] Gen.wnT2cubed_toT4_0)) ![i, j, k, l] ![a, b, c, d]
  unfold Gen.wnT2cubed_toT4
  rw [through_part, Prog.eval_through D S.T 8 _ (by decide +kernel) _ (by decide +kernel) _ rfl]
  refine (h31.trans m.symm).trans ?_
  mat_close

/-- The quadruples residual of `build_qf_correction.py` from doubles is
`⟨Φ_ijkl^abcd| 1/2 [[V, T2], T2] + 1/6 [[[V, T2], T2], T2] |Φ⟩`. -/
theorem C77_T4 (hD : Disjoint (D 0) (D 1)) (S : SO I K) (hS : S.Sym) (h : I → I → K)
    (hf : IsFock D h S.f S.g) (a b c d i j k l : I) (ha : a ∈ D 1) (hb : b ∈ D 1) (hc : c ∈ D 1) (hd : d ∈ D 1)
    (hi : i ∈ D 0) (hj : j ∈ D 0) (hk : k ∈ D 0) (hl : l ∈ D 0) :
    F.ω (F.bra4 a b c d i j k l * ((1/2 : K) • com (com (F.fluct h S.f S.g) (F.T2 S.t2)) (F.T2 S.t2) +
        (1/6 : K) • com (com (com (F.fluct h S.f S.g) (F.T2 S.t2)) (F.T2 S.t2)) (F.T2 S.t2))) =
      wnT2cubed_toT4 D S i j k l a b c d := by
  rw [mul_add, map_add, ← T4_quad_eval F hD S hS h hf a b c d i j k l ha hb hc hd hi hj hk hl,
    ← T4_cub_eval F hD S hS h hf a b c d i j k l ha hb hc hd hi hj hk hl, ← Prog.eval_append]
  unfold wnT2cubed_toT4 Prog.eval
  have hq : Prog.part [[23, 39, 39, 39]] Gen.wnT2cubed_toT4 =
      Gen.wnT2cubed_toT4.filter fun b => !([[23, 39, 39]].elem (signature b.fs)) :=
    List.filter_congr (by decide +kernel)
  rw [hq]
  exact ((List.filter_append_perm _ _).map _).sum_eq

/-- `wnT2T3_toT4` is `⟨Φ_ijkl^abcd| [[V, T2], T3] |Φ⟩` up to the rounding of the printed coefficients. -/
theorem C77_T4_t2t3 (hD : Disjoint (D 0) (D 1)) (S : SO I K) (hS : S.Sym) (h : I → I → K)
    (hf : IsFock D h S.f S.g) (a b c d i j k l : I) (ha : a ∈ D 1) (hb : b ∈ D 1) (hc : c ∈ D 1) (hd : d ∈ D 1)
    (hi : i ∈ D 0) (hj : j ∈ D 0) (hk : k ∈ D 0) (hl : l ∈ D 0) :
    F.ω (F.bra4 a b c d i j k l * com (com (F.fluct h S.f S.g) (F.T2 S.t2)) (F.T3 S.t3)) +
        (roundoff Gen.wnT2T3_toT4).eval D S.T [i, j, k, l, a, b, c, d] = wnT2T3_toT4 D S i j k l a b c d := by
  have e : ∀ S' : SO I K, S'.Sym → _ := fun S' hS' =>
    eval_eq_of_isZero D S'.T N.kinds hS'.holds _ _ _ _ _ Cert.T4_t2t3_mat [] rfl
  have m := capped4 F hD S hS h hf _ (by decide +kernel) _ (by decide +kernel) (by decide +kernel) e a b c d i j k l ha hb hc
    hd hi hj hk hl
  have h31 := C31_antisym_T4 (Prog.eval D S.T (Prog.ideal Gen.wnT2T3_toT4_0)) ![i, j, k, l] ![a, b, c, d]
  unfold wnT2T3_toT4
  rw [eval_roundoff (D := D) S.T Gen.wnT2T3_toT4]
  congr 1
  have ht : Gen.wnT2T3_toT4.ideal = Prog.through Gen.tamps_antisym_T4 (Prog.ideal Gen.wnT2T3_toT4_0) := by
    rw [← through_ideal]; rfl
  rw [ht, Prog.eval_through D S.T 8 _ (by decide +kernel) _ (by decide +kernel) _ rfl]
  refine Eq.trans ?_ (h31.trans m.symm).symm
  mat_close

/-- No coefficient of `wnT2T3_toT4` is off by more than `5·10⁻¹⁰`. -/
theorem C77_t4_roundoff : ∀ b ∈ roundoff Gen.wnT2T3_toT4, |b.c| ≤ 1 / 2000000000 := by decide +kernel

/-- Contraction of a quadruples array with the de-excitation amplitudes. -/
theorem capL2 (P : Prog) (hP : P.wf 8 = true) (hc : (P.outs [4, 5, 0, 1, 2, 3, 6, 7]).capOk 4 [0, 0, 1, 1] = true)
    (S : SO I K) (X : A) (hD : Disjoint (D 0) (D 1))
    (hX : ∀ a b c d i j k l, a ∈ D 1 → b ∈ D 1 → c ∈ D 1 → d ∈ D 1 → i ∈ D 0 → j ∈ D 0 → k ∈ D 0 → l ∈ D 0 →
      P.eval D S.T [i, j, k, l, a, b, c, d] = F.ω (F.bra4 a b c d i j k l * X))
    (a b i j : I) (ha : a ∈ D 1) (hb : b ∈ D 1) (hi : i ∈ D 0) (hj : j ∈ D 0) :
    (Prog.scale (1/4) (Prog.cap 4 71 (P.outs [4, 5, 0, 1, 2, 3, 6, 7]))).eval D S.T [a, b, i, j] =
      F.ω (F.bra2 a b i j * F.L2 S.l2 * X) := by
  rw [bra2_L2 F hD S.l2 X a b i j ha hb, Prog.eval_scale, Prog.eval_cap D S.T 4 71 [0, 0, 1, 1] _ hc _ rfl]
  congr 1
  · push_cast; ring
  refine boxSum_congr D _ _ _ fun y hy => ?_
  match y, hy with
  | [k, l, c, d], hy =>
    simp only [InBox, List.forall₂_cons, List.forall₂_nil_right_iff] at hy
    obtain ⟨hk, hl, hc', hd, -⟩ := hy
    have := Prog.eval_outs' D S.T 8 [4, 5, 0, 1, 2, 3, 6, 7] (by decide) P hP [a, b, i, j, k, l, c, d] rfl
    rw [show ([a, b, i, j] ++ [k, l, c, d] : List I) = [a, b, i, j, k, l, c, d] from rfl, this]
    exact congrArg (S.T 71 [k, l, c, d] * ·) (hX a b c d i j k l ha hb hc' hd hi hj hk hl)

/-- `residQf1` is `⟨Φ_ij^ab| L2 1/2 [[V, T2], T2] |Φ⟩`. -/
theorem C77_residQf1 (hD : Disjoint (D 0) (D 1)) (S : SO I K) (hS : S.Sym) (h : I → I → K)
    (hf : IsFock D h S.f S.g) (a b i j : I) (ha : a ∈ D 1) (hb : b ∈ D 1) (hi : i ∈ D 0) (hj : j ∈ D 0) :
    F.ω (F.bra2 a b i j * F.L2 S.l2 * ((1/2 : K) • com (com (F.fluct h S.f S.g) (F.T2 S.t2)) (F.T2 S.t2))) =
      residQf1 D S a b i j := by
  have e := eval_eq_of_isZero D S.T N.kinds hS.holds _ _ _ _ _ Cert.residQf1_mat [a, b, i, j] rfl
  exact (capL2 F _ (by decide +kernel) (by decide +kernel) S _ hD (fun a b c d i j k l ha hb hc hd hi hj hk hl =>
    T4_quad_eval F hD S hS h hf a b c d i j k l ha hb hc hd hi hj hk hl) a b i j ha hb hi hj).symm.trans e

/-- `residQf2` is `⟨Φ_ij^ab| L2 1/6 [[[V, T2], T2], T2] |Φ⟩`. -/
theorem C77_residQf2 (hD : Disjoint (D 0) (D 1)) (S : SO I K) (hS : S.Sym) (h : I → I → K)
    (hf : IsFock D h S.f S.g) (a b i j : I) (ha : a ∈ D 1) (hb : b ∈ D 1) (hi : i ∈ D 0) (hj : j ∈ D 0) :
    F.ω (F.bra2 a b i j * F.L2 S.l2 *
      ((1/6 : K) • com (com (com (F.fluct h S.f S.g) (F.T2 S.t2)) (F.T2 S.t2)) (F.T2 S.t2))) = residQf2 D S a b i j := by
  have e := eval_eq_of_isZero D S.T N.kinds hS.holds _ _ _ _ _ Cert.residQf2_mat [a, b, i, j] rfl
  exact (capL2 F _ (by decide +kernel) (by decide +kernel) S _ hD (fun a b c d i j k l ha hb hc hd hi hj hk hl =>
    T4_cub_eval F hD S hS h hf a b c d i j k l ha hb hc hd hi hj hk hl) a b i j ha hb hi hj).symm.trans e

/-! ### cases -/

/-- One-electron integrals for the Fock matrix of `Witness.so` with three occupied orbitals. -/
def hWit33 (p q : ℕ) : ℚ := Witness.so.f p q - ∑ k ∈ Witness.D33 0, Witness.so.g p k q k

/-- Dense arrays with three occupied and three virtual orbitals, in any algebra of fermion operators. -/
example (B : Type) [Ring B] [Algebra ℚ B] (F : Fermi ℕ ℚ B Witness.D33) :
    F.ω (F.bra3 3 4 5 0 1 2 * com (F.fluct hWit33 Witness.so.f Witness.so.g) (F.T2 Witness.so.t2)) =
      build_T3 Witness.D33 Witness.so 3 4 5 0 1 2 :=
  C77_T3 F (by decide) Witness.so Witness.so_sym hWit33 (by intro p q; simp [hWit33]) 3 4 5 0 1 2 (by decide) (by decide)
    (by decide) (by decide) (by decide) (by decide)

example : build_T3 Witness.D33 Witness.so 3 4 5 0 1 2 ≠ 0 := by decide +kernel

example : doubles_resLCCDoffset Witness.D Witness.so 2 3 0 1 ≠ 0 := by decide +kernel

example : get_netT1_fromT2 Witness.D Witness.so 0 2 ≠ 0 := by decide +kernel

example (B : Type) [Ring B] [Algebra ℚ B] (F : Fermi ℕ ℚ B Witness.D33) :
    F.ω (F.bra2 3 4 0 1 * F.L2 Witness.so.l2 * ((1/2 : ℚ) • com (com (F.fluct hWit33 Witness.so.f Witness.so.g)
      (F.T2 Witness.so.t2)) (F.T2 Witness.so.t2))) = residQf1 Witness.D33 Witness.so 3 4 0 1 :=
  C77_residQf1 F (by decide) Witness.so Witness.so_sym hWit33 (by intro p q; simp [hWit33]) 3 4 0 1 (by decide) (by decide)
    (by decide) (by decide)

end Verif.Props
