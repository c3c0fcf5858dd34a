import Verif.Wick.Project
import Verif.Wick.Delta
import Verif.Wick.Fock
import Verif.Cert.Proj
import Verif.Cert.ProjT3
import Verif.Cert.ProjT4
import Verif.Fn.All
import Verif.Props.Ccd
import Verif.Lemmas.Witness

/-!
# The residuals are the projected Schroedinger equation (C75)

`h`, `g` are the integrals of any Hamiltonian, `S.f` its Fock matrix, `S.t1 .. S.t4` any amplitudes. `F` is any algebra of
fermion operators with an expectation value in the reference state; the Fock space is one (`Verif.Wick.fock`).

The statements use `Fermi.ham`, `Fermi.T1 .. T4` and `Fermi.bra1 .. bra4` (Wick/Hamilton.lean), which are written with
creation and annihilation operators and mention no diagram, no contraction and no program of the code.
-/

namespace Verif.Props

open Verif.Ein Verif.UT2 Verif.Wick

variable {I K A : Type} [DecidableEq I] [Field K] [CharZero K] [Ring A] [Algebra K A] [Inhabited I] {D : Nat → Finset I}
  (F : Fermi I K A D)

/-- `e^{-T} H e^{T}`, with exponential series up to the power `n - 1`. -/
def hbar (h : I → I → K) (g : I → I → I → I → K) (n : Nat) (T : A) : A := expS K n (-T) * F.ham h g * expS K n T

section cl
omit [CharZero K] [Inhabited I]
theorem cl2 (S : SO I K) : ([2].map (F.cl S)).sum = F.T2 S.t2 := by simp [Fermi.cl]
theorem cl12 (S : SO I K) : ([1, 2].map (F.cl S)).sum = F.T1 S.t1 + F.T2 S.t2 := by simp [Fermi.cl]
theorem cl123 (S : SO I K) : ([1, 2, 3].map (F.cl S)).sum = F.T1 S.t1 + F.T2 S.t2 + F.T3 S.t3 := by
  simp [Fermi.cl, add_assoc]
theorem cl24 (S : SO I K) : ([2, 4].map (F.cl S)).sum = F.T2 S.t2 + F.T4 S.t4 := by simp [Fermi.cl]

theorem T12_Ge (hD : Disjoint (D 0) (D 1)) (S : SO I K) : F.T1 S.t1 + F.T2 S.t2 ∈ F.Ge 2 :=
  Submodule.add_mem _ (F.T1_Ge hD _) (F.Ge_mono (by norm_num) (F.T2_Ge hD _))
theorem T123_Ge (hD : Disjoint (D 0) (D 1)) (S : SO I K) : F.T1 S.t1 + F.T2 S.t2 + F.T3 S.t3 ∈ F.Ge 2 :=
  Submodule.add_mem _ (T12_Ge F hD S) (F.Ge_mono (by norm_num) (F.T3_Ge hD _))
theorem T24_Ge (hD : Disjoint (D 0) (D 1)) (S : SO I K) : F.T2 S.t2 + F.T4 S.t4 ∈ F.Ge 4 :=
  Submodule.add_mem _ (F.T2_Ge hD _) (F.Ge_mono (by norm_num) (F.T4_Ge hD _))
end cl

/-- The CCD residual is `⟨Φ_ij^ab| e^{-T2} H e^{T2} |Φ⟩`. -/
theorem C75_ccd (hD : Disjoint (D 0) (D 1)) (S : SO I K) (hS : S.Sym) (h : I → I → K) (hf : IsFock D h S.f S.g)
    (a b i j : I) (ha : a ∈ D 1) (hb : b ∈ D 1) (hi : i ∈ D 0) (hj : j ∈ D 0) (n : Nat) (hn : 3 ≤ n) :
    F.ω (F.bra2 a b i j * hbar F h S.g n (F.T2 S.t2)) = ccd_t2residual D S a b i j := by
  have e := eval_eq_of_isZero D S.T N.kinds hS.holds _ _ _ _ _ Cert.ccd_proj [a, b, i, j] rfl
  unfold ccd_t2residual
  rw [hbar, ← mul_assoc, ← mul_assoc, ← val_bra2 F S.T, ← cl2 F S]
  refine Eq.trans (projected F hD S hS h hf (braW 2) [a, b, i, j] ?_ (braW_lt 2) (braT 2) (bra_ok 2) [2] 3 _
    (by decide +kernel) (-4) 4 ?_ ?_ (by norm_num) (by norm_num) n n hn hn) e
  · simp [braW, Ein.bind, sp, ha, hb, hi, hj]
  · rw [val_bra2]; exact F.bra2_Ge a b i j ha hb hi hj
  · rw [cl2]; exact F.T2_Ge hD _

/-- The CCD energy, with the reference energy, is `⟨Φ| e^{-T2} H e^{T2} |Φ⟩`. -/
theorem C75_ccd_energy (hD : Disjoint (D 0) (D 1)) (S : SO I K) (hS : S.Sym) (h : I → I → K)
    (hf : IsFock D h S.f S.g) (n : Nat) (hn : 2 ≤ n) : F.ω (hbar F h S.g n (F.T2 S.t2)) = ccdEnergy D S := by
  have e := eval_eq_of_isZero D S.T N.kinds hS.holds _ _ _ _ _ Cert.ccd_e_proj [] rfl
  unfold ccdEnergy
  rw [hbar, ← one_mul (expS K n (-_)), ← val_bra0 F S.T, ← cl2 F S]
  refine Eq.trans (projected F hD S hS h hf (braW 0) [] ?_ (braW_lt 0) (braT 0) (bra_ok 0) [2] 2 _
    (by decide +kernel) 0 4 ?_ ?_ (by norm_num) (by norm_num) n n hn hn) e
  · simp [braW]
  · rw [val_bra0]; exact F.one_Ge
  · rw [cl2]; exact F.T2_Ge hD _

/-- The CCSD singles residual is `⟨Φ_i^a| e^{-T} H e^{T} |Φ⟩` with `T = T1 + T2`. -/
theorem C75_ccsd_t1 (hD : Disjoint (D 0) (D 1)) (S : SO I K) (hS : S.Sym) (h : I → I → K) (hf : IsFock D h S.f S.g)
    (a i : I) (ha : a ∈ D 1) (hi : i ∈ D 0) (n : Nat) (hn : 4 ≤ n) :
    F.ω (F.bra1 a i * hbar F h S.g n (F.T1 S.t1 + F.T2 S.t2)) = ccsd_t1resid D S i a := by
  have e := eval_eq_of_isZero D S.T N.kinds hS.holds _ _ _ _ _ Cert.ccsd_t1_proj [a, i] rfl
  rw [Prog.eval_outs' D S.T 2 [1, 0] (by decide) _ (by decide) [a, i] rfl] at e
  unfold ccsd_t1resid
  rw [hbar, ← mul_assoc, ← mul_assoc, ← val_bra1 F S.T, ← cl12 F S]
  refine Eq.trans (projected F hD S hS h hf (braW 1) [a, i] ?_ (braW_lt 1) (braT 1) (bra_ok 1) [1, 2] 4 _
    (by decide +kernel) (-2) 2 ?_ ?_ (by norm_num) (by norm_num) n n hn hn) e
  · simp [braW, Ein.bind, sp, ha, hi]
  · rw [val_bra1]; exact F.bra1_Ge a i ha hi
  · rw [cl12]; exact T12_Ge F hD S

/-- The CCSD doubles residual is `⟨Φ_ij^ab| e^{-T} H e^{T} |Φ⟩` with `T = T1 + T2`. -/
theorem C75_ccsd_t2 (hD : Disjoint (D 0) (D 1)) (S : SO I K) (hS : S.Sym) (h : I → I → K) (hf : IsFock D h S.f S.g)
    (a b i j : I) (ha : a ∈ D 1) (hb : b ∈ D 1) (hi : i ∈ D 0) (hj : j ∈ D 0) (n : Nat) (hn : 5 ≤ n) :
    F.ω (F.bra2 a b i j * hbar F h S.g n (F.T1 S.t1 + F.T2 S.t2)) = ccsd_t2resid D S i j a b := by
  have e := eval_eq_of_isZero D S.T N.kinds hS.holds _ _ _ _ _ Cert.ccsd_t2_proj [a, b, i, j] rfl
  rw [Prog.eval_outs' D S.T 4 [2, 3, 0, 1] (by decide) _ (by decide) [a, b, i, j] rfl] at e
  unfold ccsd_t2resid
  rw [hbar, ← mul_assoc, ← mul_assoc, ← val_bra2 F S.T, ← cl12 F S]
  refine Eq.trans (projected F hD S hS h hf (braW 2) [a, b, i, j] ?_ (braW_lt 2) (braT 2) (bra_ok 2) [1, 2] 5 _
    (by decide +kernel) (-4) 2 ?_ ?_ (by norm_num) (by norm_num) n n hn hn) e
  · simp [braW, Ein.bind, sp, ha, hb, hi, hj]
  · rw [val_bra2]; exact F.bra2_Ge a b i j ha hb hi hj
  · rw [cl12]; exact T12_Ge F hD S

/-- The CCSD energy, with the reference energy, is `⟨Φ| e^{-T} H e^{T} |Φ⟩`. -/
theorem C75_ccsd_energy (hD : Disjoint (D 0) (D 1)) (S : SO I K) (hS : S.Sym) (h : I → I → K)
    (hf : IsFock D h S.f S.g) (n : Nat) (hn : 3 ≤ n) :
    F.ω (hbar F h S.g n (F.T1 S.t1 + F.T2 S.t2)) = spinorbitalCCSDE D S := by
  have e := eval_eq_of_isZero D S.T N.kinds hS.holds _ _ _ _ _ Cert.ccsd_e_proj [] rfl
  unfold spinorbitalCCSDE
  rw [hbar, ← one_mul (expS K n (-_)), ← val_bra0 F S.T, ← cl12 F S]
  refine Eq.trans (projected F hD S hS h hf (braW 0) [] ?_ (braW_lt 0) (braT 0) (bra_ok 0) [1, 2] 3 _
    (by decide +kernel) 0 2 ?_ ?_ (by norm_num) (by norm_num) n n hn hn) e
  · simp [braW]
  · rw [val_bra0]; exact F.one_Ge
  · rw [cl12]; exact T12_Ge F hD S

/-- The CCSDT singles residual is `⟨Φ_i^a| e^{-T} H e^{T} |Φ⟩` with `T = T1 + T2 + T3`. -/
theorem C75_ccsdt_t1 (hD : Disjoint (D 0) (D 1)) (S : SO I K) (hS : S.Sym) (h : I → I → K) (hf : IsFock D h S.f S.g)
    (a i : I) (ha : a ∈ D 1) (hi : i ∈ D 0) (n : Nat) (hn : 4 ≤ n) :
    F.ω (F.bra1 a i * hbar F h S.g n (F.T1 S.t1 + F.T2 S.t2 + F.T3 S.t3)) = ccsdt_t1eqns D S i a := by
  have e := eval_eq_of_isZero D S.T N.kinds hS.holds _ _ _ _ _ Cert.ccsdt_t1_proj [a, i] rfl
  rw [Prog.eval_outs' D S.T 2 [1, 0] (by decide) _ (by decide) [a, i] rfl] at e
  unfold ccsdt_t1eqns
  rw [hbar, ← mul_assoc, ← mul_assoc, ← val_bra1 F S.T, ← cl123 F S]
  refine Eq.trans (projected F hD S hS h hf (braW 1) [a, i] ?_ (braW_lt 1) (braT 1) (bra_ok 1) [1, 2, 3] 4 _
    (by decide +kernel) (-2) 2 ?_ ?_ (by norm_num) (by norm_num) n n hn hn) e
  · simp [braW, Ein.bind, sp, ha, hi]
  · rw [val_bra1]; exact F.bra1_Ge a i ha hi
  · rw [cl123]; exact T123_Ge F hD S

/-- The CCSDT doubles residual is `⟨Φ_ij^ab| e^{-T} H e^{T} |Φ⟩` with `T = T1 + T2 + T3`. -/
theorem C75_ccsdt_t2 (hD : Disjoint (D 0) (D 1)) (S : SO I K) (hS : S.Sym) (h : I → I → K) (hf : IsFock D h S.f S.g)
    (a b i j : I) (ha : a ∈ D 1) (hb : b ∈ D 1) (hi : i ∈ D 0) (hj : j ∈ D 0) (n : Nat) (hn : 5 ≤ n) :
    F.ω (F.bra2 a b i j * hbar F h S.g n (F.T1 S.t1 + F.T2 S.t2 + F.T3 S.t3)) = ccsdt_t2eqns D S i j a b := by
  have e := eval_eq_of_isZero D S.T N.kinds hS.holds _ _ _ _ _ Cert.ccsdt_t2_proj [a, b, i, j] rfl
  rw [Prog.eval_outs' D S.T 4 [2, 3, 0, 1] (by decide) _ (by decide) [a, b, i, j] rfl] at e
  unfold ccsdt_t2eqns
  rw [hbar, ← mul_assoc, ← mul_assoc, ← val_bra2 F S.T, ← cl123 F S]
  refine Eq.trans (projected F hD S hS h hf (braW 2) [a, b, i, j] ?_ (braW_lt 2) (braT 2) (bra_ok 2) [1, 2, 3] 5 _
    (by decide +kernel) (-4) 2 ?_ ?_ (by norm_num) (by norm_num) n n hn hn) e
  · simp [braW, Ein.bind, sp, ha, hb, hi, hj]
  · rw [val_bra2]; exact F.bra2_Ge a b i j ha hb hi hj
  · rw [cl123]; exact T123_Ge F hD S

/-- Triples do not enter the energy expression: the CCSDT energy is `⟨Φ| e^{-T} H e^{T} |Φ⟩` with `T = T1 + T2 + T3`. -/
theorem C75_ccsdt_energy (hD : Disjoint (D 0) (D 1)) (S : SO I K) (hS : S.Sym) (h : I → I → K)
    (hf : IsFock D h S.f S.g) (n : Nat) (hn : 3 ≤ n) :
    F.ω (hbar F h S.g n (F.T1 S.t1 + F.T2 S.t2 + F.T3 S.t3)) = spinorbitalCCSDE D S := by
  have e := eval_eq_of_isZero D S.T N.kinds hS.holds _ _ _ _ _ Cert.ccsdt_e_proj [] rfl
  unfold spinorbitalCCSDE
  rw [hbar, ← one_mul (expS K n (-_)), ← val_bra0 F S.T, ← cl123 F S]
  refine Eq.trans (projected F hD S hS h hf (braW 0) [] ?_ (braW_lt 0) (braT 0) (bra_ok 0) [1, 2, 3] 3 _
    (by decide +kernel) 0 2 ?_ ?_ (by norm_num) (by norm_num) n n hn hn) e
  · simp [braW]
  · rw [val_bra0]; exact F.one_Ge
  · rw [cl123]; exact T123_Ge F hD S

/-- The CCDQ doubles residual is `⟨Φ_ij^ab| e^{-T} H e^{T} |Φ⟩` with `T = T2 + T4`. -/
theorem C75_ccdq_t2 (hD : Disjoint (D 0) (D 1)) (S : SO I K) (hS : S.Sym) (h : I → I → K) (hf : IsFock D h S.f S.g)
    (a b i j : I) (ha : a ∈ D 1) (hb : b ∈ D 1) (hi : i ∈ D 0) (hj : j ∈ D 0) (n : Nat) (hn : 3 ≤ n) :
    F.ω (F.bra2 a b i j * hbar F h S.g n (F.T2 S.t2 + F.T4 S.t4)) = ccdq_t2eqns D S i j a b := by
  have e := eval_eq_of_isZero D S.T N.kinds hS.holds _ _ _ _ _ Cert.ccdq_t2_proj [a, b, i, j] rfl
  rw [Prog.eval_outs' D S.T 4 [2, 3, 0, 1] (by decide) _ (by decide) [a, b, i, j] rfl] at e
  unfold ccdq_t2eqns
  rw [hbar, ← mul_assoc, ← mul_assoc, ← val_bra2 F S.T, ← cl24 F S]
  refine Eq.trans (projected F hD S hS h hf (braW 2) [a, b, i, j] ?_ (braW_lt 2) (braT 2) (bra_ok 2) [2, 4] 3 _
    (by decide +kernel) (-4) 4 ?_ ?_ (by norm_num) (by norm_num) n n hn hn) e
  · simp [braW, Ein.bind, sp, ha, hb, hi, hj]
  · rw [val_bra2]; exact F.bra2_Ge a b i j ha hb hi hj
  · rw [cl24]; exact T24_Ge F hD S

/-- Quadruples do not enter the energy expression. -/
theorem C75_ccdq_energy (hD : Disjoint (D 0) (D 1)) (S : SO I K) (hS : S.Sym) (h : I → I → K)
    (hf : IsFock D h S.f S.g) (n : Nat) (hn : 2 ≤ n) : F.ω (hbar F h S.g n (F.T2 S.t2 + F.T4 S.t4)) = ccdEnergy D S := by
  have e := eval_eq_of_isZero D S.T N.kinds hS.holds _ _ _ _ _ Cert.ccdq_e_proj [] rfl
  unfold ccdEnergy
  rw [hbar, ← one_mul (expS K n (-_)), ← val_bra0 F S.T, ← cl24 F S]
  refine Eq.trans (projected F hD S hS h hf (braW 0) [] ?_ (braW_lt 0) (braT 0) (bra_ok 0) [2, 4] 2 _
    (by decide +kernel) 0 4 ?_ ?_ (by norm_num) (by norm_num) n n hn hn) e
  · simp [braW]
  · rw [val_bra0]; exact F.one_Ge
  · rw [cl24]; exact T24_Ge F hD S

/-! ### coefficients printed to nine decimals

`ccsdt_t3eqns` and `ccdq_t4eqns` write `1/144` as `0.006944444`, `1/36` as `0.027777778` and so on. `roundoff P` has the
same terms as the function, each with the difference between the printed coefficient and the fraction it stands for. -/

/-- What the printed coefficients add to a program. -/
def roundoff (P : Prog) : Prog := P.map fun b => ⟨b.c - ideal b.c, b.fs, b.ps⟩

omit [DecidableEq I] in
theorem eval_roundoff (T : Nat → List I → K) (P : Prog) (xs : List I) :
    P.eval D T xs = P.ideal.eval D T xs + (roundoff P).eval D T xs := by
  unfold Prog.eval
  induction P with
  | nil => simp [Prog.ideal, roundoff]
  | cons b P ih =>
    simp only [Prog.ideal, roundoff, List.map_cons, List.sum_cons] at ih ⊢
    have key : b.eval D T xs = Blk.eval D T ⟨ideal b.c, b.fs, b.ps⟩ xs + Blk.eval D T ⟨b.c - ideal b.c, b.fs, b.ps⟩ xs := by
      unfold Blk.eval termVal
      rw [← List.sum_map_add]
      congr 1
      refine List.map_congr_left fun p _ => ?_
      push_cast
      ring
    rw [ih, key]
    ring

/-- No coefficient of the CCSDT triples residual is off by more than `5·10⁻¹⁰`. -/
theorem C75_t3_roundoff : ∀ b ∈ roundoff Gen.ccsdt_t3eqns, |b.c| ≤ 1 / 2000000000 := by decide +kernel

/-- No coefficient of the CCDQ quadruples residual is off by more than `5·10⁻¹⁰`. -/
theorem C75_t4_roundoff : ∀ b ∈ roundoff Gen.ccdq_t4eqns, |b.c| ≤ 1 / 2000000000 := by decide +kernel

omit [DecidableEq I] [CharZero K] in
theorem through_ideal (tab : List (ℤ × List Nat)) (P : Prog) : (P.through tab).ideal = P.ideal.through tab := by
  simp [Prog.through, Prog.ideal, Function.comp_def]

/-- The CCSDT triples residual is `⟨Φ_ijk^abc| e^{-T} H e^{T} |Φ⟩` with `T = T1 + T2 + T3`, up to the rounding of the
printed coefficients (`C75_t3_roundoff`). -/
theorem C75_ccsdt_t3 (hD : Disjoint (D 0) (D 1)) (S : SO I K) (hS : S.Sym) (h : I → I → K) (hf : IsFock D h S.f S.g)
    (a b c i j k : I) (ha : a ∈ D 1) (hb : b ∈ D 1) (hc : c ∈ D 1) (hi : i ∈ D 0) (hj : j ∈ D 0) (hk : k ∈ D 0) (n : Nat)
    (hn : 6 ≤ n) :
    F.ω (F.bra3 a b c i j k * hbar F h S.g n (F.T1 S.t1 + F.T2 S.t2 + F.T3 S.t3)) +
      (roundoff Gen.ccsdt_t3eqns).eval D S.T [i, j, k, a, b, c] = ccsdt_t3eqns D S i j k a b c := by
  have e : ∀ S' : SO I K, S'.Sym → _ := fun S' hS' =>
    eval_eq_of_isZero D S'.T N.kinds hS'.holds _ _ _ _ _ Cert.ccsdt_t3_proj [] rfl
  unfold ccsdt_t3eqns
  rw [eval_roundoff (D := D) S.T Gen.ccsdt_t3eqns]
  congr 1
  have ht : Gen.ccsdt_t3eqns.ideal =
      Prog.through Gen.tamps_antisym_T3 (Prog.ideal (Gen.ccsdt_t3eqns_0 ++ Gen.ccsdt_t3eqns_1)) := by
    rw [← through_ideal]
    unfold Gen.ccsdt_t3eqns Prog.through
    rw [List.map_append]
  rw [ht, Prog.eval_through D S.T 6 _ (by decide +kernel) _ (by decide +kernel) _ rfl]
  have h31 := C31_antisym_T3 (Prog.eval D S.T (Prog.ideal (Gen.ccsdt_t3eqns_0 ++ Gen.ccsdt_t3eqns_1))) ![i, j, k] ![a, b, c]
  refine Eq.trans ?_ h31.symm
  rw [hbar, ← mul_assoc, ← mul_assoc, ← cl123 F S]
  exact projected3 F hD S hS h hf [1, 2, 3] 6 (by decide) 2 (by rw [cl123]; exact T123_Ge F hD S) (by norm_num) (by norm_num) _
    (by decide +kernel) (by decide +kernel) _ (by decide +kernel) e a b c i j k ha hb hc hi hj hk n n hn hn

/-- The CCDQ quadruples residual is `⟨Φ_ijkl^abcd| e^{-T} H e^{T} |Φ⟩` with `T = T2 + T4`, up to the rounding of the
printed coefficients (`C75_t4_roundoff`). -/
theorem C75_ccdq_t4 (hD : Disjoint (D 0) (D 1)) (S : SO I K) (hS : S.Sym) (h : I → I → K) (hf : IsFock D h S.f S.g)
    (a b c d i j k l : I) (ha : a ∈ D 1) (hb : b ∈ D 1) (hc : c ∈ D 1) (hd : d ∈ D 1) (hi : i ∈ D 0) (hj : j ∈ D 0)
    (hk : k ∈ D 0) (hl : l ∈ D 0) (n : Nat) (hn : 4 ≤ n) :
    F.ω (F.bra4 a b c d i j k l * hbar F h S.g n (F.T2 S.t2 + F.T4 S.t4)) +
      (roundoff Gen.ccdq_t4eqns).eval D S.T [i, j, k, l, a, b, c, d] = ccdq_t4eqns D S i j k l a b c d := by
  have e : ∀ S' : SO I K, S'.Sym → _ := fun S' hS' =>
    eval_eq_of_isZero D S'.T N.kinds hS'.holds _ _ _ _ _ Cert.ccdq_t4_proj [] rfl
  unfold ccdq_t4eqns
  rw [eval_roundoff (D := D) S.T Gen.ccdq_t4eqns]
  congr 1
  have ht : Gen.ccdq_t4eqns.ideal = Prog.through Gen.tamps_antisym_T4 (Prog.ideal Gen.ccdq_t4eqns_0) := by
    rw [← through_ideal]; rfl
  rw [ht, Prog.eval_through D S.T 8 _ (by decide +kernel) _ (by decide +kernel) _ rfl]
  have h31 := C31_antisym_T4 (Prog.eval D S.T (Prog.ideal Gen.ccdq_t4eqns_0)) ![i, j, k, l] ![a, b, c, d]
  refine Eq.trans ?_ h31.symm
  rw [hbar, ← mul_assoc, ← mul_assoc, ← cl24 F S]
  exact projected4 F hD S hS h hf [2, 4] 4 (by decide) 4 (by rw [cl24]; exact T24_Ge F hD S) (by norm_num) (by norm_num) _
    (by decide +kernel) (by decide +kernel) _ (by decide +kernel) e a b c d i j k l ha hb hc hd hi hj hk hl n n hn hn

/-! ### a case -/

/-- One-electron integrals that belong to the Fock matrix of `Witness.so`. -/
def hWit (p q : ℕ) : ℚ := Witness.so.f p q - ∑ k ∈ Witness.D 0, Witness.so.g p k q k

theorem hWit_fock : IsFock Witness.D hWit Witness.so.f Witness.so.g := by intro p q; simp [hWit]

theorem disjWit : Disjoint (Witness.D 0) (Witness.D 1) := by decide

/-- With dense arrays, for the Fock space or any other algebra. -/
example (B : Type) [Ring B] [Algebra ℚ B] (F : Fermi ℕ ℚ B Witness.D) (n : Nat) (hn : 3 ≤ n) :
    F.ω (F.bra2 2 3 0 1 * hbar F hWit Witness.so.g n (F.T2 Witness.so.t2)) =
      ccd_t2residual Witness.D Witness.so 2 3 0 1 :=
  C75_ccd F disjWit Witness.so Witness.so_sym hWit hWit_fock 2 3 0 1 (by decide) (by decide) (by decide) (by decide) n hn

example : ccd_t2residual Witness.D Witness.so 2 3 0 1 ≠ 0 := by decide +kernel

end Verif.Props
