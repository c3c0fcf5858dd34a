import Verif.Model.Resid
import Verif.Fn.All
import Verif.Ein.Degree
import Verif.Ein.Anti
import Verif.Cert.Anti
import Verif.Cert.So
import Verif.Lemmas.Witness
import Mathlib.Tactic.LinearCombination

/-!
# Spin-orbital coupled-cluster equations (C32, C37, C38, C39, C44, C57)

`D 0` is the set of occupied, `D 1` the set of virtual orbitals, of any size; `A` holds the arrays; `A.Sym` says that
the integrals and amplitudes have their symmetries (real orbitals).
-/

namespace Verif.Props

open Verif.Ein Verif.UT2

variable {I K : Type} [Field K] [CharZero K] [Inhabited I] (D : Nat → Finset I)

/-- An array changes sign when its first two or its last two indices are exchanged. -/
structure Anti4 {I K : Type} [Neg K] (h : I → I → I → I → K) : Prop where
  first : ∀ a b i j, h b a i j = - h a b i j
  last : ∀ a b i j, h a b j i = - h a b i j

/-- An array does not change when its first two or its last two indices are exchanged. -/
structure Sym4 {I K : Type} (h : I → I → I → I → K) : Prop where
  first : ∀ a b i j, h b a i j = h a b i j
  last : ∀ a b i j, h a b j i = h a b i j

theorem anti4_of_isZero (T : Nat → List I → K) (hT : ∀ t, (N.kinds t).Holds (T t)) {outs : List Var} {d d' : Nat}
    {P : Prog} {cs cs' : List Nat} (h : isZero N.kinds outs d (P ++ P.outs [1, 0, 2, 3]) cs = true)
    (h' : isZero N.kinds outs d' (P ++ P.outs [0, 1, 3, 2]) cs' = true) (hP : P.wf 4 = true)
    (ho : outs.length = 4) : Anti4 fun a b i j => P.eval D T [a, b, i, j] where
  first a b i j := eval_anti_of_isZero D T N.kinds hT outs 4 d [1, 0, 2, 3] P cs h (by decide) hP [a, b, i, j] rfl ho
  last a b i j := eval_anti_of_isZero D T N.kinds hT outs 4 d' [0, 1, 3, 2] P cs' h' (by decide) hP [a, b, i, j] rfl ho

/-! ## C32 -/

/-- The CCD residual of antisymmetric amplitudes is antisymmetric. -/
theorem C32_ccd_residual (A : SO I K) (hA : A.Sym) : Anti4 (ccd_t2residual D A) :=
  anti4_of_isZero D A.T hA.holds Cert.ccd_t2residual_anti0 Cert.ccd_t2residual_anti1 (by decide +kernel) rfl

/-- So is the LCCD offset. -/
theorem C32_lccd_offset (A : SO I K) (hA : A.Sym) : Anti4 (doubles_resLCCDoffset D A) :=
  anti4_of_isZero D A.T hA.holds Cert.doubles_resLCCDoffset_anti0 Cert.doubles_resLCCDoffset_anti1
    (by decide +kernel) rfl

theorem residSlow_anti (cc_type : String) (x : SO I K → I → I → I → I → K) (A : SO I K) (hA : A.Sym)
    (hx : Anti4 (x A)) : Anti4 (residSlow D cc_type x A) := by
  have h1 := C32_ccd_residual D A hA
  have h2 := C32_lccd_offset D A hA
  constructor <;> intro a b i j <;> unfold residSlow
  · rw [h1.first a b, h2.first a b, hx.first a b]; split_ifs <;> ring
  · rw [h1.last a b, h2.last a b, hx.last a b]; split_ifs <;> ring

/-- One pass of `residMain` keeps the amplitudes antisymmetric: for CCD, LCCD, pCCD, and with any antisymmetric
additional terms. -/
theorem C32_step [DecidableEq I] (cc_type : String) (x : SO I K → I → I → I → I → K) (d2 : I → I → I → I → K)
    (A : SO I K) (hA : A.Sym) (hx : Anti4 (x A)) (hd : Sym4 d2) : (residMainSlow D cc_type x d2 A).Sym := by
  have hr := residSlow_anti D cc_type x A hA hx
  have ht : ∀ a b i j, A.t2 b a i j = - A.t2 a b i j := fun a b i j => hA.t2_anti0 b a i j
  have ht' : ∀ a b i j, A.t2 a b j i = - A.t2 a b i j := fun a b i j => hA.t2_anti2 a b j i
  have z : ∀ v : K, v = - v → v = 0 := fun v h => by
    have : (2 : K) * v = 0 := by linear_combination h
    simpa using this
  have hn : Anti4 (residMainSlow D cc_type x d2 A).t2 := by
    constructor
    · intro a b i j
      simp only [residMainSlow]
      split_ifs with hp h1 h2 h2
      · obtain ⟨rfl, rfl⟩ := h2
        have r0 := z _ (hr.first a a i i)
        have t0 := z _ (ht a a i i)
        rw [r0, t0]; ring
      · exact absurd ⟨h1.1.symm, h1.2⟩ h2
      · exact absurd ⟨h2.1.symm, h2.2⟩ h1
      · simp
      · rw [hr.first a b, ht a b, hd.first a b]; ring
    · intro a b i j
      simp only [residMainSlow]
      split_ifs with hp h1 h2 h2
      · obtain ⟨rfl, rfl⟩ := h2
        have r0 := z _ (hr.first a a i i)
        have t0 := z _ (ht a a i i)
        rw [r0, t0]; ring
      · exact absurd ⟨h1.1, h1.2.symm⟩ h2
      · exact absurd ⟨h2.1, h2.2.symm⟩ h1
      · simp
      · rw [hr.last a b, ht' a b, hd.last a b]; ring
  exact { hA with
    t2_anti0 := fun a b i j => hn.first b a i j
    t2_anti2 := fun a b i j => hn.last a b j i }

/-- Every iterate of a `ccdTypeSlow` run is antisymmetric. -/
theorem C32_iterates [DecidableEq I] (cc_type : String) (x : SO I K → I → I → I → I → K) (d2 : I → I → I → I → K)
    (A : SO I K) (hA : A.Sym) (hx : ∀ B : SO I K, B.Sym → Anti4 (x B)) (hd : Sym4 d2) (n : Nat) :
    ((residMainSlow D cc_type x d2)^[n] A).Sym := by
  induction n with
  | zero => exact hA
  | succ n ih =>
    rw [Function.iterate_succ_apply']
    exact C32_step D cc_type x d2 _ ih (hx _ ih) hd

/-- The hypotheses can be met, and the residual is not identically zero. -/
example : Witness.so.Sym ∧ Sym4 (fun a b i j => 1 / (Witness.z i + Witness.z j - Witness.z a - Witness.z b)) ∧
    ccd_t2residual Witness.D Witness.so 2 3 0 1 ≠ 0 := by
  refine ⟨Witness.so_sym, ⟨fun a b i j => ?_, fun a b i j => ?_⟩, ?_⟩
  · congr 1; ring
  · congr 1; ring
  · decide +kernel

/-! ## C37 -/

omit [CharZero K] [Inhabited I] in
theorem t1_zero (A : SO I K) (h : ∀ a i, A.t1 a i = 0) : ∀ t ∈ [31], ∀ l, A.T t l = 0 := by
  intro t ht l
  rw [List.mem_singleton.1 ht]
  show at2 A.t1 l = 0
  unfold at2
  split
  · exact h _ _
  · rfl

omit [CharZero K] [Inhabited I] in
theorem t3_zero (A : SO I K) (h : ∀ a b c i j k, A.t3 a b c i j k = 0) : ∀ t ∈ [47], ∀ l, A.T t l = 0 := by
  intro t ht l
  rw [List.mem_singleton.1 ht]
  show at6 A.t3 l = 0
  unfold at6
  split
  · exact h _ _ _ _ _ _
  · rfl

omit [CharZero K] [Inhabited I] in
theorem t4_zero (A : SO I K) (h : ∀ a b c d i j k l, A.t4 a b c d i j k l = 0) : ∀ t ∈ [55], ∀ l, A.T t l = 0 := by
  intro t ht l
  rw [List.mem_singleton.1 ht]
  show at8 A.t4 l = 0
  unfold at8
  split
  · exact h _ _ _ _ _ _ _ _
  · rfl

/-- The doubles equations of the DriveCC driver (wicked, axes `[i,j,a,b]`) without singles and those of the
`ccdTypeSlow` driver (pdaggerq, axes `[a,b,i,j]`) give the same residual. -/
theorem C37_ccd_two_forms (A : SO I K) (hA : A.Sym) (h : ∀ a i, A.t1 a i = 0) (a b i j : I) :
    ccsd_t2resid D A i j a b = ccd_t2residual D A a b i j := by
  have e := eval_eq_of_isZero D A.T N.kinds hA.holds _ _ _ _ _ Cert.ccd_wicked [a, b, i, j] rfl
  have o := Prog.eval_outs D A.T 4 [2, 3, 0, 1] (by decide) (Prog.drop [31] Gen.ccsd_t2resid) (by decide +kernel)
    [i, j, a, b] rfl
  unfold ccsd_t2resid ccd_t2residual
  rw [← e, ← Prog.eval_drop D A.T [31] _ _ (t1_zero A h)]
  exact o.symm

/-! ## C38 -/

/-- CCSDT singles equations without triples are the CCSD ones. -/
theorem C38_ccsdt_t1 (A : SO I K) (hA : A.Sym) (h : ∀ a b c i j k, A.t3 a b c i j k = 0) (a i : I) :
    ccsdt_t1eqns D A i a = ccsd_t1resid D A i a := by
  have e := eval_eq_of_isZero D A.T N.kinds hA.holds _ _ _ _ _ Cert.ccsdt_t1_t3_zero [a, i] rfl
  have o := Prog.eval_outs D A.T 2 [1, 0] (by decide) (Prog.drop [47] Gen.ccsdt_t1eqns) (by decide +kernel) [i, a] rfl
  have o' := Prog.eval_outs D A.T 2 [1, 0] (by decide) Gen.ccsd_t1resid (by decide +kernel) [i, a] rfl
  unfold ccsdt_t1eqns ccsd_t1resid
  rw [← Prog.eval_drop D A.T [47] _ _ (t3_zero A h)]
  exact o.symm.trans (e.trans o')

/-- CCSDT doubles equations without triples are the CCSD ones. -/
theorem C38_ccsdt_t2 (A : SO I K) (hA : A.Sym) (h : ∀ a b c i j k, A.t3 a b c i j k = 0) (a b i j : I) :
    ccsdt_t2eqns D A i j a b = ccsd_t2resid D A i j a b := by
  have e := eval_eq_of_isZero D A.T N.kinds hA.holds _ _ _ _ _ Cert.ccsdt_t2_t3_zero [a, b, i, j] rfl
  have o := Prog.eval_outs D A.T 4 [2, 3, 0, 1] (by decide) (Prog.drop [47] Gen.ccsdt_t2eqns) (by decide +kernel)
    [i, j, a, b] rfl
  have o' := Prog.eval_outs D A.T 4 [2, 3, 0, 1] (by decide) Gen.ccsd_t2resid (by decide +kernel) [i, j, a, b] rfl
  unfold ccsdt_t2eqns ccsd_t2resid
  rw [← Prog.eval_drop D A.T [47] _ _ (t3_zero A h)]
  exact o.symm.trans (e.trans o')

/-- CCDQ doubles equations without quadruples are the CCD ones. -/
theorem C38_ccdq_t2 (A : SO I K) (hA : A.Sym) (h : ∀ a b c d i j k l, A.t4 a b c d i j k l = 0) (a b i j : I) :
    ccdq_t2eqns D A i j a b = ccd_t2residual D A a b i j := by
  have e := eval_eq_of_isZero D A.T N.kinds hA.holds _ _ _ _ _ Cert.ccdq_t4_zero [a, b, i, j] rfl
  have o := Prog.eval_outs D A.T 4 [2, 3, 0, 1] (by decide) (Prog.drop [55] Gen.ccdq_t2eqns) (by decide +kernel)
    [i, j, a, b] rfl
  unfold ccdq_t2eqns ccd_t2residual
  rw [← e, ← Prog.eval_drop D A.T [55] _ _ (t4_zero A h)]
  exact o.symm

/-- CCSD doubles equations without singles are the CCD ones, and so are the CCSDT ones without singles and
triples. -/
theorem C38_ccsd_t2 (A : SO I K) (hA : A.Sym) (h : ∀ a i, A.t1 a i = 0) (a b i j : I) :
    ccsd_t2resid D A i j a b = ccd_t2residual D A a b i j ∧
    ((∀ a b c i j k, A.t3 a b c i j k = 0) → ccsdt_t2eqns D A i j a b = ccd_t2residual D A a b i j) :=
  ⟨C37_ccd_two_forms D A hA h a b i j, fun h3 => (C38_ccsdt_t2 D A hA h3 a b i j).trans
    (C37_ccd_two_forms D A hA h a b i j)⟩

/-- Arrays without singles, triples and quadruples. -/
def doublesOnly : SO ℕ ℚ := { f := Witness.so.f, g := Witness.so.g, t2 := Witness.so.t2 }

theorem doublesOnly_sym : doublesOnly.Sym := by
  constructor <;> intros <;> simp only [doublesOnly, Witness.so, Witness.v2] <;> ring

/-- The hypotheses can be met with a residual different from zero. -/
example : doublesOnly.Sym ∧ (∀ a i, doublesOnly.t1 a i = 0) ∧ (∀ a b c i j k, doublesOnly.t3 a b c i j k = 0) ∧
    (∀ a b c d i j k l, doublesOnly.t4 a b c d i j k l = 0) ∧
    ccd_t2residual Witness.D doublesOnly 2 3 0 1 ≠ 0 :=
  ⟨doublesOnly_sym, fun _ _ => rfl, fun _ _ _ _ _ _ => rfl, fun _ _ _ _ _ _ _ _ => rfl, by decide +kernel⟩

/-! ## C44 -/

omit [CharZero K] [Inhabited I] in
theorem T_with_t2 (A : SO I K) (u : I → I → I → I → K) (r : Nat) (hr : r ≠ 39) (l : List I) :
    ({ A with t2 := u } : SO I K).T r l = A.T r l := by
  unfold SO.T
  simp only [hr, if_false]

/-- The amplitudes `α u + β v`. -/
def mix (α β : K) (u v : I → I → I → I → K) (a b i j : I) : K := α * u a b i j + β * v a b i j

omit [CharZero K] [Inhabited I] in
theorem T_mix (A : SO I K) (α β : K) (u v : I → I → I → I → K) (l : List I) :
    ({ A with t2 := mix α β u v } : SO I K).T 39 l =
      α * ({ A with t2 := u } : SO I K).T 39 l + β * ({ A with t2 := v } : SO I K).T 39 l := by
  show at4 (mix α β u v) l = α * at4 u l + β * at4 v l
  unfold at4
  split
  · rfl
  · ring

theorem residSlow_lccd (A : SO I K) (hA : A.Sym) (a b i j : I) :
    residSlow D "LCCD" (fun _ _ _ _ _ => 0) A a b i j =
      (Gen.ccd_t2residual.rest [[23, 39, 39]]).eval D A.T [a, b, i, j] := by
  have e := eval_eq_of_isZero D A.T N.kinds hA.holds _ _ _ _ _ Cert.lccd_offset [a, b, i, j] rfl
  have s := Prog.eval_part D A.T [[23, 39, 39]] Gen.ccd_t2residual [a, b, i, j]
  have : residSlow D "LCCD" (fun _ _ _ _ _ => 0) A a b i j =
      Gen.ccd_t2residual.eval D A.T [a, b, i, j] - Gen.doubles_resLCCDoffset.eval D A.T [a, b, i, j] := by
    simp [residSlow, ccd_t2residual, doubles_resLCCDoffset]
  rw [this, s, e]
  ring

/-- The LCCD residual is an affine function of the amplitudes. -/
theorem C44_lccd_affine (A : SO I K) (u v : I → I → I → I → K) (α β : K) (hαβ : α + β = 1)
    (hu : ({ A with t2 := u } : SO I K).Sym) (hv : ({ A with t2 := v } : SO I K).Sym) (a b i j : I) :
    residSlow D "LCCD" (fun _ _ _ _ _ => 0) { A with t2 := mix α β u v } a b i j =
      α * residSlow D "LCCD" (fun _ _ _ _ _ => 0) { A with t2 := u } a b i j +
      β * residSlow D "LCCD" (fun _ _ _ _ _ => 0) { A with t2 := v } a b i j := by
  have hm : ({ A with t2 := mix α β u v } : SO I K).Sym :=
    { hu with
      t2_anti0 := fun p q r s => by
        have h1 := hu.t2_anti0 p q r s
        have h2 := hv.t2_anti0 p q r s
        simp only [mix] at h1 h2 ⊢
        rw [h1, h2]; ring
      t2_anti2 := fun p q r s => by
        have h1 := hu.t2_anti2 p q r s
        have h2 := hv.t2_anti2 p q r s
        simp only [mix] at h1 h2 ⊢
        rw [h1, h2]; ring }
  rw [residSlow_lccd D _ hm, residSlow_lccd D _ hu, residSlow_lccd D _ hv]
  refine Prog.eval_affine 39 α β _ _ _ ?_ ?_ D hαβ _ (by decide +kernel) _
  · intro s hs l
    simp only [T_with_t2 A _ s hs, and_self]
  · exact T_mix A α β u v

omit [CharZero K] in
/-- The offset is homogeneous of degree two in the amplitudes: together with `C44_lccd_affine`, it is exactly the
quadratic part of the CCD residual. -/
theorem C44_offset_quadratic (A : SO I K) (s : K) (a b i j : I) :
    doubles_resLCCDoffset D { A with t2 := fun a b i j => s * A.t2 a b i j } a b i j =
      s ^ 2 * doubles_resLCCDoffset D A a b i j := by
  refine Prog.eval_homog D 39 2 s _ _ (fun r hr l => ?_) (fun l => ?_) _ (by decide +kernel) _
  · exact T_with_t2 A _ r hr l
  · show at4 (fun a b i j => s * A.t2 a b i j) l = s * at4 A.t2 l
    unfold at4
    split
    · rfl
    · ring

/-- For any amplitudes along a line through zero the CCD residual is a quadratic polynomial whose quadratic part is
the offset. -/
theorem C44_ccd_polynomial (A : SO I K) (hA : A.Sym) (s : K) (a b i j : I) :
    ccd_t2residual D { A with t2 := fun a b i j => s * A.t2 a b i j } a b i j =
      (1 - s) * residSlow D "LCCD" (fun _ _ _ _ _ => 0) { A with t2 := fun _ _ _ _ => 0 } a b i j +
      s * residSlow D "LCCD" (fun _ _ _ _ _ => 0) A a b i j + s ^ 2 * doubles_resLCCDoffset D A a b i j := by
  have h0 : ({ A with t2 := fun _ _ _ _ => 0 } : SO I K).Sym :=
    { hA with t2_anti0 := fun _ _ _ _ => by simp, t2_anti2 := fun _ _ _ _ => by simp }
  have h := C44_lccd_affine D A (fun _ _ _ _ => 0) A.t2 (1 - s) s (by ring) h0 hA a b i j
  have em : mix (1 - s) s (fun _ _ _ _ => (0 : K)) A.t2 = fun a b i j => s * A.t2 a b i j := by
    funext a b i j; simp [mix]
  rw [em] at h
  have q := C44_offset_quadratic D A s a b i j
  have e : residSlow D "LCCD" (fun _ _ _ _ _ => 0) { A with t2 := fun a b i j => s * A.t2 a b i j } a b i j =
      ccd_t2residual D { A with t2 := fun a b i j => s * A.t2 a b i j } a b i j -
      doubles_resLCCDoffset D { A with t2 := fun a b i j => s * A.t2 a b i j } a b i j := by
    simp [residSlow]
  rw [e] at h
  linear_combination h + q

/-- The quadratic part is there. -/
example : doubles_resLCCDoffset Witness.D Witness.so 2 3 0 1 ≠ 0 := by decide +kernel

/-! ## C57 -/

/-- The reference energy part of the CCD energy. -/
def refEnergy (A : SO I K) : K := ∑ i ∈ D 0, A.f i i - 1 / 2 * ∑ j ∈ D 0, ∑ i ∈ D 0, A.g j i j i

/-- The correlation part of the CCD energy. -/
def corrEnergy (A : SO I K) (t2 : I → I → I → I → K) : K :=
  1 / 4 * ∑ a ∈ D 1, ∑ b ∈ D 1, ∑ j ∈ D 0, ∑ i ∈ D 0, A.g j i a b * t2 a b j i

/-- The CCD energy written out. -/
theorem C57_ccd_energy (A : SO I K) : ccdEnergy D A = refEnergy D A + corrEnergy D A A.t2 := by
  simp [ccdEnergy, Gen.ccdEnergy, Prog.eval, Blk.eval, termVal, dums, vars, varsIx, insertNew, sumOver, evalFs,
    SO.T, at2, at4, sp, N.f, N.g, N.t2, Ein.bind, Function.update, refEnergy, corrEnergy]
  ring_nf

/-- At zero amplitudes the energy is the reference energy; the rest is linear in the amplitudes. -/
theorem C57_linear (A : SO I K) (u v : I → I → I → I → K) (α β : K) :
    ccdEnergy D { A with t2 := fun _ _ _ _ => 0 } = refEnergy D A ∧
    ccdEnergy D { A with t2 := mix α β u v } - refEnergy D A =
      α * (ccdEnergy D { A with t2 := u } - refEnergy D A) +
      β * (ccdEnergy D { A with t2 := v } - refEnergy D A) := by
  have e : ∀ w : I → I → I → I → K, ccdEnergy D { A with t2 := w } = refEnergy D A + corrEnergy D A w :=
    fun w => C57_ccd_energy D { A with t2 := w }
  constructor
  · rw [e]; simp [corrEnergy]
  · have l : corrEnergy D A (mix α β u v) = α * corrEnergy D A u + β * corrEnergy D A v := by
      simp only [corrEnergy, mix, mul_add, Finset.sum_add_distrib, Finset.mul_sum]
      congr 1 <;>
      · refine Finset.sum_congr rfl fun _ _ => Finset.sum_congr rfl fun _ _ => Finset.sum_congr rfl fun _ _ =>
          Finset.sum_congr rfl fun _ _ => ?_
        ring
    rw [e, e, e, l]; ring

example : ccdEnergy Witness.D Witness.so ≠ refEnergy Witness.D Witness.so := by decide +kernel

/-! ## C39 -/

omit [CharZero K] in
/-- The CCD residual at zero amplitudes is the integral. -/
theorem C39_residual (A : SO I K) (h0 : ∀ a b i j, A.t2 a b i j = 0) (a b i j : I) :
    ccd_t2residual D A a b i j = A.g a b i j ∧ doubles_resLCCDoffset D A a b i j = 0 := by
  have z : ∀ t ∈ [39], ∀ l, A.T t l = 0 := by
    intro t ht l
    rw [List.mem_singleton.1 ht]
    show at4 A.t2 l = 0
    unfold at4
    split
    · exact h0 _ _ _ _
    · rfl
  unfold ccd_t2residual doubles_resLCCDoffset
  have e : Prog.drop [39] Gen.ccd_t2residual = [⟨1, [N.g [1, 3, 0, 2]], [(1, [1, 3, 0, 2])]⟩] := rfl
  have e' : Prog.drop [39] Gen.doubles_resLCCDoffset = [] := rfl
  constructor
  · rw [← Prog.eval_drop D A.T [39] _ _ z, e]
    simp [Prog.eval, Blk.eval, termVal, dums, vars, varsIx, insertNew, sumOver, evalFs, SO.T, at4, N.g, Ein.bind,
      Function.update]
  · rw [← Prog.eval_drop D A.T [39] _ _ z, e']
    rfl

omit [CharZero K] in
/-- The first update from zero amplitudes gives the first-order amplitudes, for CCD and LCCD. -/
theorem C39_first_update [DecidableEq I] (cc_type : String) (hc : cc_type ≠ "pCCD") (d2 : I → I → I → I → K)
    (A : SO I K) (h0 : ∀ a b i j, A.t2 a b i j = 0) (a b i j : I) :
    (residMainSlow D cc_type (fun _ _ _ _ _ => 0) d2 A).t2 a b i j = A.g a b i j * d2 a b i j := by
  obtain ⟨e1, e2⟩ := C39_residual D A h0 a b i j
  simp only [residMainSlow, residSlow, if_neg hc, e1, e2, h0]
  split_ifs <;> ring

/-- ... and the energy gains the MP2 correlation energy, with `d2 = 1/(e_i + e_j - e_a - e_b)`. -/
theorem C39_mp2_energy [DecidableEq I] (cc_type : String) (hc : cc_type ≠ "pCCD") (ε : I → K)
    (A : SO I K) (hA : A.Sym) (h0 : ∀ a b i j, A.t2 a b i j = 0) :
    ccdEnergy D (residMainSlow D cc_type (fun _ _ _ _ _ => 0) (fun a b i j => 1 / (ε i + ε j - ε a - ε b)) A) -
      ccdEnergy D A =
    1 / 4 * ∑ a ∈ D 1, ∑ b ∈ D 1, ∑ i ∈ D 0, ∑ j ∈ D 0, A.g i j a b ^ 2 / (ε i + ε j - ε a - ε b) := by
  rw [C57_ccd_energy, C57_ccd_energy]
  have r : refEnergy D (residMainSlow D cc_type (fun _ _ _ _ _ => 0)
      (fun a b i j => 1 / (ε i + ε j - ε a - ε b)) A) = refEnergy D A := rfl
  have z : corrEnergy D A A.t2 = 0 := by simp [corrEnergy, h0]
  rw [r, z]
  have c : ∀ t, corrEnergy D (residMainSlow D cc_type (fun _ _ _ _ _ => 0)
      (fun a b i j => 1 / (ε i + ε j - ε a - ε b)) A) t = corrEnergy D A t := fun _ => rfl
  rw [c]
  simp only [corrEnergy, add_zero, add_sub_cancel_left]
  congr 1
  refine Finset.sum_congr rfl fun a _ => Finset.sum_congr rfl fun b _ => Finset.sum_congr rfl fun i _ =>
    Finset.sum_congr rfl fun j _ => ?_
  rw [C39_first_update D cc_type hc _ A h0, hA.g_herm a b i j]
  ring

/-- The energy gain is not zero for the concrete arrays. -/
example : ∑ a ∈ Witness.D 1, ∑ b ∈ Witness.D 1, ∑ i ∈ Witness.D 0, ∑ j ∈ Witness.D 0,
    Witness.so.g i j a b ^ 2 / (Witness.z i + Witness.z j - Witness.z a - Witness.z b) ≠ 0 := by decide +kernel

end Verif.Props
