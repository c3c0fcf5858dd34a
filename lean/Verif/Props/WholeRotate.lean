import Verif.Props.Whole
import Verif.Props.Rotate
import Verif.Props.Few

/-!
# Degenerate orbitals in whole calculations (C86)

A program that finds orbitals is free to choose them inside a set of equal energies. Calculations with two such choices run
through the same iterations, with DIIS or without, and give the same energies.
-/

namespace Verif.Props

open Verif.Ein Verif.UT2 Verif.Kernel Verif.Whole Verif.Setup
open Verif.Wick (InBox)

/-! ## rotations of amplitude vectors -/

section axes
variable {α β γ δ : Type} [Fintype α] [Fintype β] [Fintype γ] [Fintype δ]

/-- One axis transformed. -/
def axis1 (U : α → α → ℝ) (f : α → ℝ) (a : α) : ℝ := ∑ a', U a a' * f a'

/-- Two axes transformed. -/
def axis2 (U : α → α → ℝ) (V : β → β → ℝ) (f : α → β → ℝ) (a : α) (b : β) : ℝ := axis1 U (fun a' => axis1 V (f a') b) a

/-- Four axes transformed. -/
def axis4 (U : α → α → ℝ) (V : β → β → ℝ) (W : γ → γ → ℝ) (X : δ → δ → ℝ) (f : α → β → γ → δ → ℝ) (a : α) (b : β) (c : γ) (d : δ) : ℝ :=
  axis2 U V (fun a' b' => axis2 W X (f a' b') c d) a b

/-- The columns are orthonormal. -/
def Columns [DecidableEq α] (U : α → α → ℝ) : Prop := ∀ q r, ∑ p, U p q * U p r = if q = r then 1 else 0

theorem axis1_iso [DecidableEq α] {U : α → α → ℝ} (hU : Columns U) (f g : α → ℝ) : ∑ a, axis1 U f a * axis1 U g a = ∑ a, f a * g a := by
  simp only [axis1, Finset.sum_mul_sum]
  rw [Finset.sum_comm]
  simp_rw [Finset.sum_comm (s := Finset.univ (α := α)) (t := Finset.univ (α := α)) (f := fun x i => U x _ * f _ * (U x i * g i))]
  refine Finset.sum_congr rfl fun q _ => ?_
  have : ∀ r, ∑ p, U p q * f q * (U p r * g r) = (if q = r then 1 else 0) * (f q * g r) := by
    intro r
    rw [← hU q r, Finset.sum_mul]
    exact Finset.sum_congr rfl fun p _ => by ring
  simp [this]

theorem axis2_iso [DecidableEq α] [DecidableEq β] {U : α → α → ℝ} {V : β → β → ℝ} (hU : Columns U) (hV : Columns V) (f g : α → β → ℝ) :
    ∑ a, ∑ b, axis2 U V f a b * axis2 U V g a b = ∑ a, ∑ b, f a b * g a b := by
  rw [Finset.sum_comm]
  simp only [axis2, axis1_iso hU]
  rw [Finset.sum_comm]
  simp only [axis1_iso hV]

theorem axis4_iso [DecidableEq α] [DecidableEq β] [DecidableEq γ] [DecidableEq δ] {U : α → α → ℝ} {V : β → β → ℝ} {W : γ → γ → ℝ}
    {X : δ → δ → ℝ} (hU : Columns U) (hV : Columns V) (hW : Columns W) (hX : Columns X) (f g : α → β → γ → δ → ℝ) :
    ∑ a, ∑ b, ∑ c, ∑ d, axis4 U V W X f a b c d * axis4 U V W X g a b c d = ∑ a, ∑ b, ∑ c, ∑ d, f a b c d * g a b c d := by
  have swap : ∀ h : α → β → γ → δ → ℝ, ∑ a, ∑ b, ∑ c, ∑ d, h a b c d = ∑ c, ∑ d, ∑ a, ∑ b, h a b c d := by
    intro h
    simp only [← Finset.sum_product']
    refine Finset.sum_bij' (fun x _ => (x.2.2.1, x.2.2.2, x.1, x.2.1)) (fun x _ => (x.2.2.1, x.2.2.2, x.1, x.2.1)) ?_ ?_ ?_ ?_ ?_ <;> simp
  rw [swap]
  simp only [axis4, axis2_iso hU hV]
  rw [← swap fun a b c d => axis2 W X (f a b) c d * axis2 W X (g a b) c d]
  simp only [axis2_iso hW hX]

end axes

variable {I : Type} [DecidableEq I] [Inhabited I] {D : Nat → Finset I}

/-- The rotation of an axis of a block of the amplitude vector (0 `t2aa`, 1 `t2bb`, 2 `t2ab`; axes `a b i j`). -/
def axisU (Ua Ub : I → I → ℝ) (k : Fin 3) (m : Fin 4) : I → I → ℝ :=
  if k = 0 then Ua else if k = 1 then Ub else if m = 0 ∨ m = 2 then Ua else Ub

/-- A matrix of orbitals restricted to a range. -/
def onto (s : Nat) (U : I → I → ℝ) (p q : {x // x ∈ D s}) : ℝ := U p q

/-- The rotation of amplitude vectors. -/
def rotVec (D : Nat → Finset I) (Ua Ub : I → I → ℝ) : (Slot D → ℝ) →ₗ[ℝ] (Slot D → ℝ) where
  toFun v x := axis4 (onto 1 (axisU Ua Ub x.1 0)) (onto 1 (axisU Ua Ub x.1 1)) (onto 0 (axisU Ua Ub x.1 2)) (onto 0 (axisU Ua Ub x.1 3))
    (fun a b i j => v (x.1, a, b, i, j)) x.2.1 x.2.2.1 x.2.2.2.1 x.2.2.2.2
  map_add' v w := by
    funext x
    simp only [axis4, axis2, axis1, Pi.add_apply, mul_add, Finset.sum_add_distrib]
  map_smul' c v := by
    funext x
    simp only [axis4, axis2, axis1, Pi.smul_apply, smul_eq_mul, Finset.mul_sum, RingHom.id_apply]
    refine Finset.sum_congr rfl fun _ _ => Finset.sum_congr rfl fun _ _ => Finset.sum_congr rfl fun _ _ => Finset.sum_congr rfl fun _ _ => by ring

variable {Ua Ub : I → I → ℝ} (hD : Disjoint (D 0) (D 1)) (ha : Rotation D Ua) (hb : Rotation D Ub)

omit [Inhabited I] in
theorem onto_columns {U : I → I → ℝ} (h : Rotation D U) (s : Nat) (hs : s < 2) : Columns (onto (D := D) s U) := by
  intro q r
  have := h.orth s hs q q.2 r r.2
  rw [← Finset.sum_coe_sort] at this
  simp only [onto, this, Subtype.ext_iff]

include ha hb in
omit [Inhabited I] in
theorem axisU_rotation (k : Fin 3) (m : Fin 4) : Rotation D (axisU Ua Ub k m) := by
  unfold axisU
  split
  · exact ha
  · split
    · exact hb
    · split
      · exact ha
      · exact hb

include ha hb in
omit [Inhabited I] in
/-- Rotations keep the inner products that DIIS uses. -/
theorem edot_rotVec (x y : Slot D → ℝ) : Diis.edot (rotVec D Ua Ub x) (rotVec D Ua Ub y) = Diis.edot x y := by
  unfold Diis.edot
  simp only [Fintype.sum_prod_type]
  refine Finset.sum_congr rfl fun k _ => ?_
  simp only [rotVec, LinearMap.coe_mk, AddHom.coe_mk]
  exact axis4_iso (onto_columns (axisU_rotation ha hb k 0) 1 (by norm_num)) (onto_columns (axisU_rotation ha hb k 1) 1 (by norm_num))
    (onto_columns (axisU_rotation ha hb k 2) 0 (by norm_num)) (onto_columns (axisU_rotation ha hb k 3) 0 (by norm_num)) _ _

include hD in
omit [Inhabited I] in
/-- Arrays rotated at orbitals of the slices. -/
theorem rot4_slot {U V W X : I → I → ℝ} (hU : Rotation D U) (hV : Rotation D V) (hW : Rotation D W) (hX : Rotation D X)
    (x : I → I → I → I → ℝ) (a b : {x // x ∈ D 1}) (i j : {x // x ∈ D 0}) :
    rot4 (D 0 ∪ D 1) U V W X x a b i j = axis4 (onto 1 U) (onto 1 V) (onto 0 W) (onto 0 X) (fun a b i j => x a b i j) a b i j := by
  have key : ∀ {U : I → I → ℝ} (_ : Rotation D U) (s : Nat) (_ : s < 2) (x : I → ℝ) (p : {x // x ∈ D s}),
      rot1 (D 0 ∪ D 1) U x p = axis1 (onto s U) (fun q => x q) p := fun h s hs x p => by
    rw [h.rot1 hD x s hs p p.2, ← Finset.sum_coe_sort]
    rfl
  simp only [rot4, rot2, axis4, axis2, key hU 1 (by norm_num), key hV 1 (by norm_num), key hW 0 (by norm_num), key hX 0 (by norm_num)]

/-! ## calculations whose passes agree -/

/-- Calculations whose arrays are related in a way that passes keep, and whose amplitude vectors differ by an isometry, agree. -/
theorem calculate_related (o o' : Opts I) (hc : o'.cc_type = o.cc_type) (hm : o'.maxIter = o.maxIter) (he : o'.eps = o.eps) (hd : o'.diis = o.diis) (hs : o'.start = o.start)
    (φ : (Slot D → ℝ) →ₗ[ℝ] (Slot D → ℝ)) (hφ : ∀ x y, Diis.edot (φ x) (φ y) = Diis.edot x y) (S L : SI I ℝ → SI I ℝ → Prop)
    (hstep : ∀ A B, S A B → S (iterSi D o.cc_type o.d2aa o.d2bb o.d2ab A) (iterSi D o'.cc_type o'.d2aa o'.d2bb o'.d2ab B))
    (hpack : ∀ A B, S A B → pack D B = φ (pack D A)) (hunpack : ∀ A B v, S A B → S (unpack D v A) (unpack D (φ v) B))
    (hE : ∀ A B, S A B → ccd_energy_with_spin D B = ccd_energy_with_spin D A) (hL : ∀ A B, S A B → L (set_l2amps A) (set_l2amps B))
    (A B : SI I ℝ) (hAB : S A B) (hAB' : L A B) :
    SameRun (fun r r' => (S r.st.amps r'.st.amps ∧ L r.st.l2 r'.st.l2) ∧ r'.energy = r.energy ∧ r'.log = r.log) (calculate D o A) (calculate D o' B) := by
  let R : St (SI I ℝ) (Acc D) → St (SI I ℝ) (Acc D) → Prop := fun s t => (S s.amps t.amps ∧ L s.l2 t.l2) ∧
    t.diis.1 = diisMap φ s.diis.1 ∧ t.diis.2 = φ s.diis.2
  have key := run_same (cfg D o) (cfg D o') hm he R ?_ ?_ (initial D o A) (initial D o' B) ?_
  · unfold calculate
    cases h1 : (cfg D o).run (initial D o A) <;> cases h2 : (cfg D o').run (initial D o' B) <;> rw [h1, h2] at key
    · exact key
    · exact key
    · exact key
    · exact ⟨key.1.1, key.2⟩
  · rintro s t ⟨⟨p, -⟩, -, -⟩
    simp only [cfg]
    rw [hE _ _ p]
  · rintro s t ⟨⟨p, -⟩, h1, h2⟩
    have hp := hstep _ _ p
    have hl := hL _ _ p
    have a1 : (cfg D o).resid s.amps ((cfg D o).dag s.amps) = .ok (iterSi D o.cc_type o.d2aa o.d2bb o.d2ab s.amps) := rfl
    have a2 : (cfg D o').resid t.amps ((cfg D o').dag t.amps) = .ok (iterSi D o'.cc_type o'.d2aa o'.d2bb o'.d2ab t.amps) := rfl
    unfold Cfg.step
    simp only [a1, a2, Bind.bind, Except.bind]
    generalize iterSi D o.cc_type o.d2aa o.d2bb o.d2ab s.amps = A1 at *
    generalize iterSi D o'.cc_type o'.d2aa o'.d2bb o'.d2ab t.amps = B1 at *
    have b1 : (cfg D o).accel = accel D o.cc_type o.diis.isSome := rfl
    have b2 : (cfg D o').accel = accel D o.cc_type o.diis.isSome := by rw [← hd, ← hc]; rfl
    rw [b1, b2]
    unfold accel
    cases o.diis.isSome with
    | false => exact ⟨⟨hp, hl⟩, h1, h2⟩
    | true =>
      simp only [if_true]
      cases Verif.Py.hasSub "UCC(4)" o.cc_type with
      | true => exact rfl
      | false =>
      cases Verif.Py.hasSub "CCDQ" o.cc_type with
      | true => exact rfl
      | false =>
      simp only [Bool.false_eq_true, if_false]
      have e : t.diis.1.newVec (pack D B1) (t.diis.2 - pack D B1) = (s.diis.1.newVec (pack D A1) (s.diis.2 - pack D A1)).map φ := by
        rw [h1, h2, hpack _ _ hp, ← map_sub, newVec_map _ hφ]
      rw [e]
      cases hv : s.diis.1.newVec (pack D A1) (s.diis.2 - pack D A1) with
      | none => exact rfl
      | some v =>
        refine ⟨⟨hunpack _ _ v hp, hl⟩, ?_, rfl⟩
        simp only
        rw [h1, h2, hpack _ _ hp, ← map_sub, push_map]
  · refine ⟨⟨hAB, hAB'⟩, ?_, hpack _ _ hAB⟩
    simp [initial, Diis.init, diisMap, hd, hs]

/-! ## residuals depend on slices -/

/-- The operands of the factorised-quadruples residuals. -/
def qfFacSi (f : Fac) : Bool := ccdFacSi f || ([64, 65, 66].elem f.t && decide (f.ix.map sp = [0, 0, 1, 1]))

/-- De-excitation amplitudes that agree on the slice. -/
def SameL2 {K : Type} [Field K] (D : Nat → Finset I) (A B : SI I K) : Prop :=
  ∀ i j a b, i ∈ D 0 → j ∈ D 0 → a ∈ D 1 → b ∈ D 1 →
    A.l2_aaaa i j a b = B.l2_aaaa i j a b ∧ A.l2_abab i j a b = B.l2_abab i j a b ∧ A.l2_bbbb i j a b = B.l2_bbbb i j a b

/-- Agreement on the slices, de-excitation amplitudes included. -/
structure SameSlicesL {K : Type} [Field K] (D : Nat → Finset I) (A B : SI I K) : Prop extends SameSlices D A B where
  l2 : SameL2 D A B

omit [DecidableEq I] [Inhabited I] in
theorem SameSlicesL.T {K : Type} [Field K] {A B : SI I K} (h : SameSlicesL D A B) (f : Fac) (hf : qfFacSi f = true) (l : List I)
    (hl : InBox D (f.ix.map sp) l) : A.T f.t l = B.T f.t l := by
  rw [qfFacSi, Bool.or_eq_true] at hf
  rcases hf with hf | hf
  · exact h.toSameSlices.T f hf l hl
  · simp only [Bool.and_eq_true, decide_eq_true_eq, List.elem_iff, List.mem_cons, List.not_mem_nil, or_false] at hf
    obtain ⟨hf, hs⟩ := hf
    rw [hs] at hl
    match l, hl with
    | [a, b, i, j], hl =>
      simp only [InBox, List.forall₂_cons, List.forall₂_nil_right_iff] at hl
      obtain ⟨ha, hb, hi, hj, -⟩ := hl
      obtain ⟨t1, t2, t3⟩ := h.l2 a b i j ha hb hi hj
      rcases hf with h' | h' | h' <;> rw [h']
      · exact t1
      · exact t2
      · exact t3

omit [DecidableEq I] in
/-- The residuals of every method depend only on these slices. -/
theorem SameSlicesL.resid {K : Type} [Field K] {A B : SI I K} (h : SameSlicesL D A B) (cc_type : String) (a b i j : I) (ma : a ∈ D 1) (mb : b ∈ D 1)
    (mi : i ∈ D 0) (mj : j ∈ D 0) : resid_aaaa D cc_type A a b i j = resid_aaaa D cc_type B a b i j ∧
      resid_abab D cc_type A a b i j = resid_abab D cc_type B a b i j ∧ resid_bbbb D cc_type A a b i j = resid_bbbb D cc_type B a b i j := by
  have hx : InBox D [1, 1, 0, 0] [a, b, i, j] := by simp [InBox, ma, mb, mi, mj]
  obtain ⟨c1, c2, c3⟩ := h.toSameSlices.ccd.2 a b i j ma mb mi mj
  have q1 : residQf1_aaaa D A a b i j = residQf1_aaaa D B a b i j :=
    Prog.eval_local D A.T B.T _ qfFacSi (by decide +kernel) h.T _ (by decide +kernel) _ hx
  have q2 : residQf1_abab D A a b i j = residQf1_abab D B a b i j :=
    Prog.eval_local D A.T B.T _ qfFacSi (by decide +kernel) h.T _ (by decide +kernel) _ hx
  have q3 : residQf1_bbbb D A a b i j = residQf1_bbbb D B a b i j :=
    Prog.eval_local D A.T B.T _ qfFacSi (by decide +kernel) h.T _ (by decide +kernel) _ hx
  have q4 : residQf2_aaaa D A a b i j = residQf2_aaaa D B a b i j :=
    Prog.eval_local D A.T B.T _ qfFacSi (by decide +kernel) h.T _ (by decide +kernel) _ hx
  have q5 : residQf2_abab D A a b i j = residQf2_abab D B a b i j :=
    Prog.eval_local D A.T B.T _ qfFacSi (by decide +kernel) h.T _ (by decide +kernel) _ hx
  have q6 : residQf2_bbbb D A a b i j = residQf2_bbbb D B a b i j :=
    Prog.eval_local D A.T B.T _ qfFacSi (by decide +kernel) h.T _ (by decide +kernel) _ hx
  simp only [resid_aaaa, resid_abab, resid_bbbb, c1, c2, c3, q1, q2, q3, q4, q5, q6, and_self]

/-! ## rotations of passes -/

omit [DecidableEq I] [Inhabited I] in
/-- Transposed arrays are rotated to transposed arrays. -/
theorem rot4_transpose {K : Type} [Field K] (O : Finset I) (U V W X : I → I → K) (t : I → I → I → I → K) (a b i j : I) :
    rot4 O W X U V (fun i j a b => t a b i j) i j a b = rot4 O U V W X t a b i j := by
  simp only [rot4, rot2, rot1, Finset.mul_sum, ← Finset.sum_product']
  refine Finset.sum_bij' (fun x _ => (x.2.2.1, x.2.2.2, x.1, x.2.1)) (fun x _ => (x.2.2.1, x.2.2.2, x.1, x.2.1)) ?_ ?_ ?_ ?_ ?_ <;>
    simp +contextual [Finset.mem_product]
  intros
  ring

omit [DecidableEq I] [Inhabited I] in
theorem rot4_comb {K : Type} [Field K] (O : Finset I) (U V W X : I → I → K) (x y z : I → I → I → I → K) (c d : K) (a b i j : I) :
    rot4 O U V W X (fun a b i j => x a b i j + c * y a b i j + d * z a b i j) a b i j =
      rot4 O U V W X x a b i j + c * rot4 O U V W X y a b i j + d * rot4 O U V W X z a b i j := by
  simp only [rot4, rot2, rot1, Finset.mul_sum, ← Finset.sum_add_distrib]
  refine Finset.sum_congr rfl fun _ _ => Finset.sum_congr rfl fun _ _ => Finset.sum_congr rfl fun _ _ => Finset.sum_congr rfl fun _ _ => by ring

/-- The update of the amplitudes commutes with transformations between entries that share the denominator. -/
theorem axis4_update {α β γ δ : Type} [Fintype α] [Fintype β] [Fintype γ] [Fintype δ] (U : α → α → ℝ) (V : β → β → ℝ) (W : γ → γ → ℝ)
    (X : δ → δ → ℝ) (R t d : α → β → γ → δ → ℝ) (a : α) (b : β) (i : γ) (j : δ)
    (hd : ∀ a' b' i' j', U a a' ≠ 0 → V b b' ≠ 0 → W i i' ≠ 0 → X j j' ≠ 0 → d a' b' i' j' = d a b i j) :
    axis4 U V W X (fun a b i j => (R a b i j + (d a b i j)⁻¹ * t a b i j) * d a b i j) a b i j =
      (axis4 U V W X R a b i j + (d a b i j)⁻¹ * axis4 U V W X t a b i j) * d a b i j := by
  simp only [axis4, axis2, axis1, Finset.mul_sum, ← Finset.sum_add_distrib, Finset.sum_mul]
  refine Finset.sum_congr rfl fun a' _ => Finset.sum_congr rfl fun b' _ => Finset.sum_congr rfl fun i' _ => Finset.sum_congr rfl fun j' _ => ?_
  by_cases h1 : U a a' = 0
  · simp [h1]
  by_cases h2 : V b b' = 0
  · simp [h2]
  by_cases h3 : W i i' = 0
  · simp [h3]
  by_cases h4 : X j j' = 0
  · simp [h4]
  rw [hd a' b' i' j' h1 h2 h3 h4]
  ring

/-- Only orbitals of the same energy are mixed. -/
def Degenerate (D : Nat → Finset I) (U : I → I → ℝ) (ε : I → ℝ) : Prop :=
  ∀ s, s < 2 → ∀ p ∈ D s, ∀ q ∈ D s, U p q ≠ 0 → ε p = ε q

include hD ha hb in
/-- The residuals of every method are rotated. -/
theorem resid_rotate (cc_type : String) (A : SI I ℝ) (a b i j : I) (ma : a ∈ D 1) (mb : b ∈ D 1) (mi : i ∈ D 0) (mj : j ∈ D 0) :
    resid_aaaa D cc_type (A.rotate (D 0 ∪ D 1) Ua Ub) a b i j = rot4 (D 0 ∪ D 1) Ua Ua Ua Ua (resid_aaaa D cc_type A) a b i j ∧
    resid_abab D cc_type (A.rotate (D 0 ∪ D 1) Ua Ub) a b i j = rot4 (D 0 ∪ D 1) Ua Ub Ua Ub (resid_abab D cc_type A) a b i j ∧
    resid_bbbb D cc_type (A.rotate (D 0 ∪ D 1) Ua Ub) a b i j = rot4 (D 0 ∪ D 1) Ub Ub Ub Ub (resid_bbbb D cc_type A) a b i j := by
  obtain ⟨-, c1, c2, c3⟩ := C68_spin_ccd hD ha hb A
  obtain ⟨-, q1, q2, q3, q4, q5, q6⟩ := C68_spin_qf hD ha hb A
  simp only [resid_aaaa, resid_abab, resid_bbbb]
  rw [c1 a ma b mb i mi j mj, c2 a ma b mb i mi j mj, c3 a ma b mb i mi j mj, q1 a ma b mb i mi j mj, q2 a ma b mb i mi j mj,
    q3 a ma b mb i mi j mj, q4 a ma b mb i mi j mj, q5 a ma b mb i mi j mj, q6 a ma b mb i mi j mj]
  exact ⟨(rot4_comb ..).symm, (rot4_comb ..).symm, (rot4_comb ..).symm⟩

omit [Inhabited I] in
/-- De-excitation amplitudes of rotated amplitudes. -/
theorem same_l2 {A B : SI I ℝ} (h : SameSlices D B (A.rotate (D 0 ∪ D 1) Ua Ub)) :
    SameSlicesL D (set_l2amps B) ((set_l2amps A).rotate (D 0 ∪ D 1) Ua Ub) where
  f_aa := h.f_aa
  f_bb := h.f_bb
  g_aaaa := h.g_aaaa
  g_abab := h.g_abab
  g_bbbb := h.g_bbbb
  t2 := h.t2
  l2 i j a b mi mj ma mb := by
    obtain ⟨t1, t2, t3⟩ := h.t2 a b i j ma mb mi mj
    exact ⟨t1.trans (rot4_transpose ..).symm, t2.trans (rot4_transpose ..).symm, t3.trans (rot4_transpose ..).symm⟩

include hD in
omit [Inhabited I] in
/-- The update of one block. -/
theorem block_update {U V W X : I → I → ℝ} (hU : Rotation D U) (hV : Rotation D V) (hW : Rotation D W) (hX : Rotation D X)
    (R t d : I → I → I → I → ℝ) (r' t' : ℝ) (a b i j : I) (ma : a ∈ D 1) (mb : b ∈ D 1) (mi : i ∈ D 0) (mj : j ∈ D 0)
    (hr : r' = rot4 (D 0 ∪ D 1) U V W X R a b i j) (ht : t' = rot4 (D 0 ∪ D 1) U V W X t a b i j)
    (hd : ∀ a' ∈ D 1, ∀ b' ∈ D 1, ∀ i' ∈ D 0, ∀ j' ∈ D 0, U a a' ≠ 0 → V b b' ≠ 0 → W i i' ≠ 0 → X j j' ≠ 0 → d a' b' i' j' = d a b i j) :
    (r' + (d a b i j)⁻¹ * t') * d a b i j =
      rot4 (D 0 ∪ D 1) U V W X (fun a b i j => (R a b i j + (d a b i j)⁻¹ * t a b i j) * d a b i j) a b i j := by
  have l := (rot4_slot hD hU hV hW hX · ⟨a, ma⟩ ⟨b, mb⟩ ⟨i, mi⟩ ⟨j, mj⟩)
  simp only at l
  rw [hr, ht, l, l, l]
  exact (axis4_update (onto 1 U) (onto 1 V) (onto 0 W) (onto 0 X) (fun a b i j => R a b i j) (fun a b i j => t a b i j)
    (fun a b i j => d a b i j) ⟨a, ma⟩ ⟨b, mb⟩ ⟨i, mi⟩ ⟨j, mj⟩ fun a' b' i' j' => hd a' a'.2 b' b'.2 i' i'.2 j' j'.2).symm

include hD ha hb in
/-- A pass of the iteration commutes with rotations among orbitals of the same energy. -/
theorem iter_rotate (εa εb : I → ℝ) (ga : Degenerate D Ua εa) (gb : Degenerate D Ub εb) (cc_type : String) (A B : SI I ℝ)
    (h : SameSlices D B (A.rotate (D 0 ∪ D 1) Ua Ub)) :
    SameSlices D (iterSi D cc_type (den εa) (den εb) (fun a b i j => 1 / (εa i + εb j - εa a - εb b)) B)
      ((iterSi D cc_type (den εa) (den εb) (fun a b i j => 1 / (εa i + εb j - εa a - εb b)) A).rotate (D 0 ∪ D 1) Ua Ub) where
  f_aa := h.f_aa
  f_bb := h.f_bb
  g_aaaa := h.g_aaaa
  g_abab := h.g_abab
  g_bbbb := h.g_bbbb
  t2 a b i j ma mb mi mj := by
    obtain ⟨r1, r2, r3⟩ := (same_l2 h).resid cc_type a b i j ma mb mi mj
    obtain ⟨c1, c2, c3⟩ := resid_rotate hD ha hb cc_type (set_l2amps A) a b i j ma mb mi mj
    obtain ⟨t1, t2, t3⟩ := h.t2 a b i j ma mb mi mj
    refine ⟨block_update hD ha ha ha ha _ _ (den εa) _ _ a b i j ma mb mi mj (r1.trans c1) t1 ?_,
      block_update hD ha hb ha hb _ _ (fun a b i j => 1 / (εa i + εb j - εa a - εb b)) _ _ a b i j ma mb mi mj (r2.trans c2) t2 ?_,
      block_update hD hb hb hb hb _ _ (den εb) _ _ a b i j ma mb mi mj (r3.trans c3) t3 ?_⟩ <;>
      intro a' ma' b' mb' i' mi' j' mj' k1 k2 k3 k4
    · simp only [den, ga 1 (by norm_num) _ ma _ ma' k1, ga 1 (by norm_num) _ mb _ mb' k2, ga 0 (by norm_num) _ mi _ mi' k3, ga 0 (by norm_num) _ mj _ mj' k4]
    · simp only [ga 1 (by norm_num) _ ma _ ma' k1, gb 1 (by norm_num) _ mb _ mb' k2, ga 0 (by norm_num) _ mi _ mi' k3, gb 0 (by norm_num) _ mj _ mj' k4]
    · simp only [den, gb 1 (by norm_num) _ ma _ ma' k1, gb 1 (by norm_num) _ mb _ mb' k2, gb 0 (by norm_num) _ mi _ mi' k3, gb 0 (by norm_num) _ mj _ mj' k4]

/-! ## whole calculations -/

include hD ha hb in
/-- **C86** Orbitals of equal energy may be chosen in any way: the calculation with other orbitals fails in the same way or gives the
same energies, after the same iterations, and the rotated amplitudes. With DIIS and without, for every method. -/
theorem C86_degenerate (εa εb : I → ℝ) (ga : Degenerate D Ua εa) (gb : Degenerate D Ub εb) (o : Opts I) (h1 : o.d2aa = den εa)
    (h2 : o.d2bb = den εb) (h3 : o.d2ab = fun a b i j => 1 / (εa i + εb j - εa a - εb b)) (A : SI I ℝ) :
    SameRun (fun r r' => (SameSlices D r'.st.amps (r.st.amps.rotate (D 0 ∪ D 1) Ua Ub) ∧ SameL2 D r'.st.l2 (r.st.l2.rotate (D 0 ∪ D 1) Ua Ub)) ∧ r'.energy = r.energy ∧ r'.log = r.log)
      (calculate D o A) (calculate D o (A.rotate (D 0 ∪ D 1) Ua Ub)) := by
  refine calculate_related o o rfl rfl rfl rfl rfl (rotVec D Ua Ub) (edot_rotVec ha hb) (fun A B => SameSlices D B (A.rotate (D 0 ∪ D 1) Ua Ub))
    (fun A B => SameL2 D B (A.rotate (D 0 ∪ D 1) Ua Ub)) ?_ ?_ ?_ ?_ (fun A B h => (same_l2 h).l2) A _
    ⟨rfl, rfl, rfl, rfl, rfl, fun _ _ _ _ _ _ _ _ => ⟨rfl, rfl, rfl⟩⟩ fun _ _ _ _ _ _ _ _ => ⟨rfl, rfl, rfl⟩
  · intro A B h
    rw [h1, h2, h3]
    exact iter_rotate hD ha hb εa εb ga gb o.cc_type A B h
  · intro A B h
    funext ⟨k, a, b, i, j⟩
    obtain ⟨t1, t2, t3⟩ := h.t2 a b i j a.2 b.2 i.2 j.2
    fin_cases k
    · exact t1.trans (rot4_slot hD ha ha ha ha A.t2_aaaa a b i j)
    · exact t3.trans (rot4_slot hD hb hb hb hb A.t2_bbbb a b i j)
    · exact t2.trans (rot4_slot hD ha hb ha hb A.t2_abab a b i j)
  · intro A B v h
    refine ⟨h.f_aa, h.f_bb, h.g_aaaa, h.g_abab, h.g_bbbb, fun a b i j ma mb mi mj => ?_⟩
    have key : ∀ k (x : I → I → I → I → ℝ), (fun (a b : {x // x ∈ D 1}) (i j : {x // x ∈ D 0}) => fill D v k x a b i j) =
        fun a b i j => v (k, a, b, i, j) := fun k x => by
      funext a b i j
      exact fill_mem D v k x a b i j a.2 b.2 i.2 j.2
    refine ⟨(fill_mem D _ 0 _ a b i j ma mb mi mj).trans (Eq.trans ?_ (rot4_slot hD ha ha ha ha (fill D v 0 A.t2_aaaa) ⟨a, ma⟩ ⟨b, mb⟩ ⟨i, mi⟩ ⟨j, mj⟩).symm),
      (fill_mem D _ 2 _ a b i j ma mb mi mj).trans (Eq.trans ?_ (rot4_slot hD ha hb ha hb (fill D v 2 A.t2_abab) ⟨a, ma⟩ ⟨b, mb⟩ ⟨i, mi⟩ ⟨j, mj⟩).symm),
      (fill_mem D _ 1 _ a b i j ma mb mi mj).trans (Eq.trans ?_ (rot4_slot hD hb hb hb hb (fill D v 1 A.t2_bbbb) ⟨a, ma⟩ ⟨b, mb⟩ ⟨i, mi⟩ ⟨j, mj⟩).symm)⟩ <;>
      rw [key] <;> rfl
  · intro A B h
    rw [h.ccd.1, (C68_spin_ccd hD ha hb A).1]

include hD ha hb in
/-- **C86** The energies that `finalize` reports are the same numbers, the factorised-quadruples correction of "CCD(Qf)" included. -/
theorem C86_report (εa εb : I → ℝ) (ga : Degenerate D Ua εa) (gb : Degenerate D Ub εb) (o : Opts I) (h1 : o.d2aa = den εa)
    (h2 : o.d2bb = den εb) (h3 : o.d2ab = fun a b i j => 1 / (εa i + εb j - εa a - εb b)) (nucE hf : ℝ) (A : SI I ℝ) :
    (calculate D o A >>= finish D o nucE hf) = (calculate D o (A.rotate (D 0 ∪ D 1) Ua Ub) >>= finish D o nucE hf) := by
  refine report_same D _ o o rfl nucE hf _ _ (C86_degenerate hD ha hb εa εb ga gb o h1 h2 h3 A) ?_
  rintro r r' ⟨⟨s, l⟩, he, -⟩
  refine ⟨he, ?_⟩
  have k : SameSlicesL D (withL2 r'.st.amps r'.st.l2) ((withL2 r.st.amps r.st.l2).rotate (D 0 ∪ D 1) Ua Ub) :=
    ⟨⟨s.f_aa, s.f_bb, s.g_aaaa, s.g_abab, s.g_bbbb, s.t2⟩, l⟩
  unfold correction
  rw [← (C68_spin_qf hD ha hb (withL2 r.st.amps r.st.l2)).1]
  exact Prog.eval_local D _ _ _ qfFacSi (by decide +kernel) k.T [] (by decide +kernel) [] List.Forall₂.nil

/-- Orbital coefficients: the new orbital `p` is the combination `U p` of the old ones. -/
def mixOrb (O : Finset ℕ) (U : ℕ → ℕ → ℝ) (C : Mat ℝ) : Mat ℝ := fun x p => ∑ q ∈ O, U p q * C x q

theorem oneBody_mix (O : Finset ℕ) (U : ℕ → ℕ → ℝ) (n : ℕ) (F C : Mat ℝ) : oneBody n F (mixOrb O U C) = rot2 O U U (oneBody n F C) := by
  funext p q
  simp only [oneBody, mixOrb, rot2, rot1, Finset.mul_sum, Finset.sum_mul, ← Finset.sum_product']
  refine Finset.sum_bij' (fun x _ => (x.2.2.2, x.2.2.1, x.1, x.2.1)) (fun x _ => (x.2.2.1, x.2.2.2, x.2.1, x.1)) ?_ ?_ ?_ ?_ ?_ <;>
    simp +contextual [Finset.mem_product]
  intros
  ring

theorem general_mix (O : Finset ℕ) (U1 U2 U3 U4 : ℕ → ℕ → ℝ) (n : ℕ) (J : Tei ℝ) (C1 C2 C3 C4 : Mat ℝ) :
    general n J (mixOrb O U1 C1) (mixOrb O U2 C2) (mixOrb O U3 C3) (mixOrb O U4 C4) = rot4 O U1 U2 U3 U4 (general n J C1 C2 C3 C4) := by
  have lin : ∀ (U : ℕ → ℕ → ℝ) (C : Mat ℝ) (p : ℕ) (G : ℕ → ℝ), ∑ x ∈ Finset.range n, mixOrb O U C x p * G x =
      rot1 O U (fun p' => ∑ x ∈ Finset.range n, C x p' * G x) p := fun U C p G => by
    simp only [mixOrb, rot1, Finset.mul_sum, Finset.sum_mul]
    rw [Finset.sum_comm]
    exact Finset.sum_congr rfl fun _ _ => Finset.sum_congr rfl fun _ _ => by ring
  have nest : ∀ (B1 B2 B3 B4 : Mat ℝ) (p q r s : ℕ), general n J B1 B2 B3 B4 p q r s = ∑ x ∈ Finset.range n, B1 x p *
      ∑ y ∈ Finset.range n, B2 y q * ∑ z ∈ Finset.range n, B3 z r * ∑ w ∈ Finset.range n, B4 w s * J x y z w := fun B1 B2 B3 B4 p q r s => by
    simp only [general, Finset.mul_sum, mul_assoc]
  have out : ∀ (C : Mat ℝ) (V : ℕ → ℕ → ℝ) (p q : ℕ) (G : ℕ → ℕ → ℝ), ∑ x ∈ Finset.range n, C x p * rot1 O V (G x) q =
      rot1 O V (fun q' => ∑ x ∈ Finset.range n, C x p * G x q') q := fun C V p q G => by
    simp only [rot1, Finset.mul_sum]
    rw [Finset.sum_comm]
    exact Finset.sum_congr rfl fun _ _ => Finset.sum_congr rfl fun _ _ => by ring
  funext p q r s
  rw [nest]
  have e := funext fun p => funext fun q => funext fun r => funext fun s => nest C1 C2 C3 C4 p q r s
  rw [e]
  simp only [rot4, rot2, lin, out]

theorem dirac_rot (O : Finset ℕ) (U : ℕ → ℕ → ℝ) (G : Tei ℝ) : dirac (rot4 O U U U U G) = rot4 O U U U U (dirac G) := by
  funext p q r s
  have e : rot4 O U U U U (dirac G) p q r s = rot4 O U U U U (fun p q r s => G p r q s) p q r s -
      rot4 O U U U U (fun p q r s => G p s r q) p q r s := by
    simp only [dirac, rot4, rot2, rot1, mul_sub, Finset.sum_sub_distrib]
  rw [e]
  unfold dirac
  congr 1 <;> simp only [rot4, rot2, rot1, Finset.mul_sum, ← Finset.sum_product']
  · refine Finset.sum_bij' (fun x _ => (x.1, x.2.2.1, x.2.1, x.2.2.2)) (fun x _ => (x.1, x.2.2.1, x.2.1, x.2.2.2)) ?_ ?_ ?_ ?_ ?_ <;>
      simp +contextual [Finset.mem_product]
    intros
    exact Or.inl (by ring)
  · refine Finset.sum_bij' (fun x _ => (x.1, x.2.2.2, x.2.2.1, x.2.1)) (fun x _ => (x.1, x.2.2.2, x.2.2.1, x.2.1)) ?_ ?_ ?_ ?_ ?_ <;>
      simp +contextual [Finset.mem_product]
    intros
    exact Or.inl (by ring)

theorem diracMixed_rot (O : Finset ℕ) (U V : ℕ → ℕ → ℝ) (G : Tei ℝ) : diracMixed (rot4 O U U V V G) = rot4 O U V U V (diracMixed G) := by
  funext p q r s
  simp only [diracMixed, rot4, rot2, rot1, Finset.mul_sum, ← Finset.sum_product']
  refine Finset.sum_bij' (fun x _ => (x.1, x.2.2.1, x.2.1, x.2.2.2)) (fun x _ => (x.1, x.2.2.1, x.2.1, x.2.2.2)) ?_ ?_ ?_ ?_ ?_ <;>
    simp +contextual [Finset.mem_product]
  intros
  exact Or.inl (by ring)

/-- The set-up of the integrals with other orbitals gives the rotated arrays. -/
theorem generalUHF_mix (O : Finset ℕ) (Ua Ub : ℕ → ℕ → ℝ) (n : ℕ) (J : Tei ℝ) (Fa Fb Ca Cb : Mat ℝ) :
    generalUHF n J Fa Fb (mixOrb O Ua Ca) (mixOrb O Ub Cb) = (generalUHF n J Fa Fb Ca Cb).rotate O Ua Ub := by
  unfold generalUHF SI.rotate
  simp only [oneBody_mix, general_mix, dirac_rot, diracMixed_rot, SI.mk.injEq, true_and]
  simp [funext_iff, rot2, rot4, rot6, rot8, rot1]

/-- **C86** From the orbital coefficients to the report: replacing the orbitals by other orthonormal combinations of orbitals of the same
energy changes neither the failure nor the reported energies of a calculation. -/
theorem C86_orbitals (m n : ℕ) (Ua Ub : ℕ → ℕ → ℝ) (ha : Rotation (spaces m n) Ua) (hb : Rotation (spaces m n) Ub) (εa εb : ℕ → ℝ)
    (ga : Degenerate (spaces m n) Ua εa) (gb : Degenerate (spaces m n) Ub εb) (o : Opts ℕ) (h1 : o.d2aa = den εa) (h2 : o.d2bb = den εb)
    (h3 : o.d2ab = fun a b i j => 1 / (εa i + εb j - εa a - εb b)) (nucE hf : ℝ) (J : Tei ℝ) (Fa Fb Ca Cb : Mat ℝ) :
    (calculate (spaces m n) o (generalUHF n J Fa Fb Ca Cb) >>= finish (spaces m n) o nucE hf) =
      (calculate (spaces m n) o (generalUHF n J Fa Fb (mixOrb (spaces m n 0 ∪ spaces m n 1) Ua Ca) (mixOrb (spaces m n 0 ∪ spaces m n 1) Ub Cb))
        >>= finish (spaces m n) o nucE hf) := by
  have hD : Disjoint (spaces m n 0) (spaces m n 1) := by
    rw [Finset.disjoint_left]
    simp only [spaces, if_pos, Finset.mem_range]
    intro x hx
    simp
    omega
  rw [generalUHF_mix]
  exact C86_report hD ha hb εa εb ga gb o h1 h2 h3 nucE hf (generalUHF n J Fa Fb Ca Cb)

/-! ## a concrete calculation -/

/-- Two occupied orbitals turned by the angle with cosine 3/5, two virtual orbitals exchanged. -/
noncomputable def turnR : ℕ → ℕ → ℝ := fun p q =>
  if p = 0 ∧ q = 0 ∨ p = 1 ∧ q = 1 then 3 / 5 else if p = 0 ∧ q = 1 then 4 / 5 else if p = 1 ∧ q = 0 then -4 / 5
  else if p = 2 ∧ q = 3 ∨ p = 3 ∧ q = 2 then 1 else 0

theorem turnR_rotation : Rotation Witness.D turnR where
  orth s hs q hq r hr := by
    rcases (by omega : s = 0 ∨ s = 1) with rfl | rfl <;> simp only [Witness.D, Finset.mem_insert, Finset.mem_singleton] at hq hr <;>
      rcases hq with rfl | rfl <;> rcases hr with rfl | rfl <;> norm_num [Witness.D, turnR]
  block p q h := by
    have : (p = 0 ∨ p = 1) ∧ (q = 2 ∨ q = 3) ∨ (p = 2 ∨ p = 3) ∧ (q = 0 ∨ q = 1) := by simpa [Witness.D] using h
    rcases this with ⟨rfl | rfl, rfl | rfl⟩ | ⟨rfl | rfl, rfl | rfl⟩ <;> norm_num [turnR]

/-- Orbital energies 1, 1, 3, 3. -/
noncomputable def levels (p : ℕ) : ℝ := if p < 2 then 1 else 3

theorem turnR_degenerate : Degenerate Witness.D turnR levels := by
  intro s hs p hp q hq _
  rcases (by omega : s = 0 ∨ s = 1) with rfl | rfl <;> simp only [Witness.D, Finset.mem_insert, Finset.mem_singleton] at hp hq <;>
    rcases hp with rfl | rfl <;> rcases hq with rfl | rfl <;> rfl

/-- Options with these denominators; DIIS with six vectors from pass forty on. -/
noncomputable def optsD : Opts ℕ := ⟨"CCD(Qf)", den levels, den levels, den levels, 40, 1 / 100000000, some 6, 40⟩

/-- Both calculations return, with the same energy, although the integrals differ. -/
example : ∃ r r', calculate Witness.D optsD Witness.csR = .ok r ∧
    calculate Witness.D optsD (Witness.csR.rotate (Witness.D 0 ∪ Witness.D 1) turnR turnR) = .ok r' ∧ r'.energy = r.energy ∧
    (Witness.csR.rotate (Witness.D 0 ∪ Witness.D 1) turnR turnR).f_aa 0 0 ≠ Witness.csR.f_aa 0 0 := by
  obtain ⟨r, h⟩ := C62_returns Witness.D optsD (.inr ⟨le_refl 40, by decide +kernel, by decide +kernel⟩) (show 1 ≤ 40 by omega) (show 40 ≤ 76 by omega) Witness.csR
  have key := C86_degenerate Witness.D_disjoint turnR_rotation turnR_rotation levels levels turnR_degenerate turnR_degenerate optsD rfl rfl rfl Witness.csR
  rw [h] at key
  cases hf : calculate Witness.D optsD (Witness.csR.rotate (Witness.D 0 ∪ Witness.D 1) turnR turnR) with
  | error e => rw [hf] at key; exact key.elim
  | ok r' =>
    rw [hf] at key
    refine ⟨r, r', h, rfl, key.2.1, ?_⟩
    have e : Witness.D 0 ∪ Witness.D 1 = {0, 1, 2, 3} := by decide
    rw [e]
    norm_num [SI.rotate, rot2, rot1, turnR, Witness.csR, Witness.cs, Witness.z]

end Verif.Props
