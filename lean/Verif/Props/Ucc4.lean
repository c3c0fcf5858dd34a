import Verif.Props.Ccd
import Verif.Cert.SoT3
import Mathlib.Tactic.Linarith

/-!
# UCC(4) residuals (C60)

`drive_ucc4.resid_main` adds to the doubles residual a contribution of `t2_dag` that is antisymmetric in the occupied
indices only, so the doubles lose their antisymmetry.
-/

namespace Verif.Props

open Verif.Ein Verif.UT2

variable {I K : Type} [Field K] [CharZero K] [Inhabited I] (D : Nat → Finset I)

/-- An array with six axes changes sign under exchanges within the first three and within the last three axes. -/
structure Anti6 {I K : Type} [Neg K] (h : I → I → I → I → I → I → K) : Prop where
  ab : ∀ a b c i j k, h b a c i j k = - h a b c i j k
  bc : ∀ a b c i j k, h a c b i j k = - h a b c i j k
  ij : ∀ a b c i j k, h a b c j i k = - h a b c i j k
  jk : ∀ a b c i j k, h a b c i k j = - h a b c i j k

/-- An array with six axes does not change under those exchanges. -/
structure Sym6 {I K : Type} (h : I → I → I → I → I → I → K) : Prop where
  ab : ∀ a b c i j k, h b a c i j k = h a b c i j k
  bc : ∀ a b c i j k, h a c b i j k = h a b c i j k
  ij : ∀ a b c i j k, h a b c j i k = h a b c i j k
  jk : ∀ a b c i j k, h a b c i k j = h a b c i j k

/-- The triples residual of UCC(4) is antisymmetric. -/
theorem C60_t3_residual (A : SO I K) (hA : A.Sym) : Anti6 (t3_resid D A) where
  ab a b c i j k := eval_anti_of_isZero D A.T N.kinds hA.holds _ 6 _ _ _ _ Cert.t3_resid_anti0 (by decide)
    (by decide +kernel) [a, b, c, i, j, k] rfl rfl
  bc a b c i j k := eval_anti_of_isZero D A.T N.kinds hA.holds _ 6 _ _ _ _ Cert.t3_resid_anti1 (by decide)
    (by decide +kernel) [a, b, c, i, j, k] rfl rfl
  ij a b c i j k := eval_anti_of_isZero D A.T N.kinds hA.holds _ 6 _ _ _ _ Cert.t3_resid_anti2 (by decide)
    (by decide +kernel) [a, b, c, i, j, k] rfl rfl
  jk a b c i j k := eval_anti_of_isZero D A.T N.kinds hA.holds _ 6 _ _ _ _ Cert.t3_resid_anti3 (by decide)
    (by decide +kernel) [a, b, c, i, j, k] rfl rfl

/-- `build_T3` of the perturbative corrections is antisymmetric. -/
theorem build_T3_anti (A : SO I K) (hA : A.Sym) : Anti6 (fun a b c i j k => Gen.build_T3.eval D A.T [a, b, c, i, j, k]) where
  ab a b c i j k := eval_anti_of_isZero D A.T N.kinds hA.holds _ 6 _ _ _ _ Cert.build_T3_anti0 (by decide)
    (by decide +kernel) [a, b, c, i, j, k] rfl rfl
  bc a b c i j k := eval_anti_of_isZero D A.T N.kinds hA.holds _ 6 _ _ _ _ Cert.build_T3_anti1 (by decide)
    (by decide +kernel) [a, b, c, i, j, k] rfl rfl
  ij a b c i j k := eval_anti_of_isZero D A.T N.kinds hA.holds _ 6 _ _ _ _ Cert.build_T3_anti2 (by decide)
    (by decide +kernel) [a, b, c, i, j, k] rfl rfl
  jk a b c i j k := eval_anti_of_isZero D A.T N.kinds hA.holds _ 6 _ _ _ _ Cert.build_T3_anti3 (by decide)
    (by decide +kernel) [a, b, c, i, j, k] rfl rfl

/-- The pieces of the doubles residual that are antisymmetric. -/
theorem C60_t2_pieces (A : SO I K) (hA : A.Sym) :
    Anti4 (offset_t2resid_t2squared D A) ∧ Anti4 (offset_t2resid_T1_T3 D A) :=
  ⟨anti4_of_isZero D A.T hA.holds Cert.offset_t2resid_t2squared_anti0 Cert.offset_t2resid_t2squared_anti1
      (by decide +kernel) rfl,
    anti4_of_isZero D A.T hA.holds Cert.offset_t2resid_T1_T3_anti0 Cert.offset_t2resid_T1_T3_anti1
      (by decide +kernel) rfl⟩

theorem t2dag_last (A : SO I K) (hA : A.Sym) (a b i j : I) :
    offset_t2resid_t2dag_w_t2 D A a b j i = - offset_t2resid_t2dag_w_t2 D A a b i j :=
  eval_anti_of_isZero D A.T N.kinds hA.holds _ 4 _ _ _ _ Cert.offset_t2resid_t2dag_w_t2_anti1 (by decide)
    (by decide +kernel) [a, b, i, j] rfl rfl

/-- After one pass from antisymmetric amplitudes the triples are antisymmetric and the doubles are antisymmetric in
the occupied indices. Missing: the virtual indices, see `C60_violated`. -/
theorem C60_step_partial (d1 : I → I → K) (d2 : I → I → I → I → K) (d3 : I → I → I → I → I → I → K) (A : SO I K)
    (hA : A.Sym) (h2 : Sym4 d2) (h3 : Sym6 d3) :
    (∀ a b i j, (residUcc4 D d1 d2 d3 A).t2 a b j i = - (residUcc4 D d1 d2 d3 A).t2 a b i j) ∧
      Anti6 (residUcc4 D d1 d2 d3 A).t3 := by
  have hB : ({ A with l2 := fun i j a b => A.t2 a b i j } : SO I K).Sym :=
    { hA with
      l2_anti0 := fun p q r s => hA.t2_anti2 r s p q
      l2_anti2 := fun p q r s => hA.t2_anti0 r s p q }
  constructor
  · intro a b i j
    simp only [residUcc4]
    rw [(C32_ccd_residual D _ hB).last a b i j, (C60_t2_pieces D _ hB).1.last a b i j, t2dag_last D _ hB a b i j,
      (C60_t2_pieces D _ hB).2.last a b i j, h2.last a b i j, hA.t2_anti2 a b j i]
    ring
  · have h := C60_t3_residual D _ hB
    constructor <;> intro a b c i j k <;> simp only [residUcc4]
    · rw [h.ab a b c i j k, h3.ab a b c i j k, hA.t3_anti0 b a c i j k]; ring
    · rw [h.bc a b c i j k, h3.bc a b c i j k, hA.t3_anti1 a c b i j k]; ring
    · rw [h.ij a b c i j k, h3.ij a b c i j k, hA.t3_anti3 a b c j i k]; ring
    · rw [h.jk a b c i j k, h3.jk a b c i j k, hA.t3_anti4 a b c i k j]; ring

/-- Four occupied and four virtual orbitals: with fewer of either the lost antisymmetry does not show. -/
def D44 : Nat → Finset ℕ
  | 0 => {0, 1, 2, 3}
  | _ => {4, 5, 6, 7}

open Witness in
/-- Arrays with all symmetries for those orbitals, `l2` the transpose of `t2`. -/
def uccArrays : SO ℕ ℚ where
  f p q := z p * z q
  g p q r s := v2 (z p) (z q) * v2 (z r) (z s) *
    (1 + (z p + z q) * (z r + z s) + z p * z q * z r * z s + (z p + z q) ^ 2 * (z r + z s) ^ 2)
  t2 a b i j := v2 (z a) (z b) * v2 (z i) (z j) *
    (2 + z a * z b * (z i + z j) + z i ^ 2 * z j ^ 2 * (z a + z b) + z i * z j * (z a + z b) ^ 2)
  l2 i j a b := v2 (z a) (z b) * v2 (z i) (z j) *
    (2 + z a * z b * (z i + z j) + z i ^ 2 * z j ^ 2 * (z a + z b) + z i * z j * (z a + z b) ^ 2)

theorem uccArrays_sym : uccArrays.Sym := by
  constructor <;> intros <;> simp only [uccArrays, Witness.v2] <;> ring

/-- Orbital energy denominators of the witness. -/
def wd2 (a b i j : ℕ) : ℚ := 1 / (Witness.z i + Witness.z j - Witness.z a - Witness.z b)

theorem offset_not_anti : offset_t2resid_t2dag_w_t2 D44 uccArrays 4 4 0 1 ≠ 0 := by decide +kernel

/-- From antisymmetric amplitudes, one pass of UCC(4) gives doubles that are not antisymmetric: an entry with equal
virtual indices does not vanish. -/
theorem C60_violated : ∃ A : SO ℕ ℚ, A.Sym ∧ Sym4 wd2 ∧ ∀ d1 d3,
    (residUcc4 D44 d1 wd2 d3 A).t2 4 4 0 1 ≠ - (residUcc4 D44 d1 wd2 d3 A).t2 4 4 0 1 := by
  have hs : Sym4 wd2 := ⟨fun a b i j => by simp only [wd2]; congr 1; ring, fun a b i j => by
    simp only [wd2]; congr 1; ring⟩
  refine ⟨uccArrays, uccArrays_sym, hs, fun d1 d3 h => ?_⟩
  simp only [residUcc4] at h
  have e : ({ uccArrays with l2 := fun i j a b => uccArrays.t2 a b i j } : SO ℕ ℚ) = uccArrays := rfl
  rw [e] at h
  have z : ∀ v : ℚ, v = - v → v = 0 := fun v h => by linarith
  rw [z _ ((C32_ccd_residual D44 _ uccArrays_sym).first 4 4 0 1), z _ ((C60_t2_pieces D44 _ uccArrays_sym).1.first 4 4 0 1),
    z _ ((C60_t2_pieces D44 _ uccArrays_sym).2.first 4 4 0 1), z _ (uccArrays_sym.t2_anti0 4 4 0 1)] at h
  have hd : wd2 4 4 0 1 ≠ 0 := by decide +kernel
  apply offset_not_anti
  apply mul_right_cancel₀ hd
  linear_combination (1 / 2) * h

/-- The triples residual and the parts of the doubles residual of antisymmetric arrays that are not zero. -/
example : Witness.so.Sym ∧ t3_resid Witness.D33 Witness.so 3 4 5 0 1 2 ≠ 0 ∧ offset_t2resid_t2squared Witness.D Witness.so 2 3 0 1 ≠ 0 ∧
    offset_t2resid_T1_T3 Witness.D33 Witness.so 3 4 0 1 ≠ 0 :=
  ⟨Witness.so_sym, by decide +kernel, by decide +kernel, by decide +kernel⟩

end Verif.Props
