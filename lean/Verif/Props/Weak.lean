import Verif.Ein.Tame
import Verif.Props.Whole
import Verif.Props.WholeRotate

/-!
# Calculations with weak interaction (C88)

The two-electron integrals are multiplied by a number `c`; the Fock matrix is diagonal and fixed, with a gap. For small `c` the
calculation converges to the only small solution of its equations.
-/

namespace Verif.Props

open Verif.Ein Verif.UT2 Verif.Kernel Verif.Whole Verif.Weak

section algebra

variable {I K : Type} [Field K] [DecidableEq I] [Inhabited I] (D : Nat → Finset I)

/-- The two-electron integrals multiplied by a number. -/
def scaleG (c : K) (A : SI I K) : SI I K :=
  { A with
    g_aaaa := fun p q r s => c * A.g_aaaa p q r s
    g_abab := fun p q r s => c * A.g_abab p q r s
    g_bbbb := fun p q r s => c * A.g_bbbb p q r s }

omit [DecidableEq I] [Inhabited I] in
theorem scaleG_sym (c : K) (A : SI I K) (hA : A.Sym) : (scaleG c A).Sym :=
  { hA with
    g_aaaa_anti0 := fun p q r s => by simp only [scaleG]; rw [hA.g_aaaa_anti0]; ring
    g_aaaa_anti2 := fun p q r s => by simp only [scaleG]; rw [hA.g_aaaa_anti2]; ring
    g_aaaa_herm := fun p q r s => by simp only [scaleG]; rw [hA.g_aaaa_herm]
    g_abab_herm := fun p q r s => by simp only [scaleG]; rw [hA.g_abab_herm]
    g_bbbb_anti0 := fun p q r s => by simp only [scaleG]; rw [hA.g_bbbb_anti0]; ring
    g_bbbb_anti2 := fun p q r s => by simp only [scaleG]; rw [hA.g_bbbb_anti2]; ring
    g_bbbb_herm := fun p q r s => by simp only [scaleG]; rw [hA.g_bbbb_herm] }

omit [DecidableEq I] [Inhabited I] in
theorem scaleG_T (c : K) (A : SI I K) : (∀ t ∉ [16, 17, 18], ∀ l, (scaleG c A).T t l = A.T t l) ∧
    ∀ t ∈ [16, 17, 18], ∀ l, (scaleG c A).T t l = c * A.T t l := by
  constructor
  · intro t ht l
    simp only [List.mem_cons, List.not_mem_nil, or_false, not_or] at ht
    unfold SI.T scaleG
    simp only [ht, if_false]
  · intro t ht l
    simp only [List.mem_cons, List.not_mem_nil, or_false] at ht
    rcases ht with rfl | rfl | rfl
    all_goals
      match l with
      | [p, q, r, s] => rfl
      | [] | [_] | [_, _] | [_, _, _] | _ :: _ :: _ :: _ :: _ :: _ => exact (mul_zero _).symm

/-- A diagonal Fock matrix with the given orbital energies, in the occupied and in the virtual block. -/
def DiagonalFock (ε : I × Bool → K) (A : SI I K) : Prop :=
  ∀ s, ∀ p ∈ D s, ∀ q ∈ D s, A.f_aa p q = (if p = q then ε (p, false) else 0) ∧ A.f_bb p q = if p = q then ε (p, true) else 0

variable {D} {ε : I × Bool → K} {A : SI I K} (hA : A.Sym) (hf : DiagonalFock D ε A) {a b i j : I} (ha : a ∈ D 1) (hb : b ∈ D 1) (hi : i ∈ D 0) (hj : j ∈ D 0)

omit [Inhabited I] in
theorem sum_diag (s : Nat) (f : I → K) (x : I) (hx : x ∈ D s) (e : K) (g : I → K) (h : ∀ y ∈ D s, f y = if y = x then e else 0) :
    ∑ y ∈ D s, f y * g y = e * g x := by
  rw [Finset.sum_eq_single x (fun y hy hne => by rw [h y hy, if_neg hne, zero_mul]) (fun hn => absurd hx hn), h x hx, if_pos rfl]

include hA hf ha hb hi hj

/-- Without interaction the residuals are orbital energy differences times amplitudes. -/
theorem fock_part : ccd_t2_aaaa D (scaleG 0 A) a b i j = (ε (a, false) + ε (b, false) - ε (i, false) - ε (j, false)) * A.t2_aaaa a b i j ∧
    ccd_t2_bbbb D (scaleG 0 A) a b i j = (ε (a, true) + ε (b, true) - ε (i, true) - ε (j, true)) * A.t2_bbbb a b i j ∧
    ccd_t2_abab D (scaleG 0 A) a b i j = (ε (a, false) + ε (b, true) - ε (i, false) - ε (j, true)) * A.t2_abab a b i j := by
  have z : ∀ t ∈ [16, 17, 18], ∀ l, (scaleG 0 A).T t l = 0 := fun t ht l => by rw [(scaleG_T 0 A).2 t ht l, zero_mul]
  have row : ∀ s x, x ∈ D s → ∀ g : I → K, ∑ y ∈ D s, A.f_aa x y * g y = ε (x, false) * g x := fun s x hx g =>
    sum_diag s _ x hx _ g fun y hy => by
      rw [(hf s x hx y hy).1]; by_cases h : y = x
      · rw [h]
      · rw [if_neg h, if_neg (Ne.symm h)]
  have col : ∀ s x, x ∈ D s → ∀ g : I → K, ∑ y ∈ D s, A.f_aa y x * g y = ε (x, false) * g x := fun s x hx g =>
    sum_diag s _ x hx _ g fun y hy => by
      rw [(hf s y hy x hx).1]; by_cases h : y = x
      · rw [h]
      · rw [if_neg h, if_neg h]
  have row' : ∀ s x, x ∈ D s → ∀ g : I → K, ∑ y ∈ D s, A.f_bb x y * g y = ε (x, true) * g x := fun s x hx g =>
    sum_diag s _ x hx _ g fun y hy => by
      rw [(hf s x hx y hy).2]; by_cases h : y = x
      · rw [h]
      · rw [if_neg h, if_neg (Ne.symm h)]
  have col' : ∀ s x, x ∈ D s → ∀ g : I → K, ∑ y ∈ D s, A.f_bb y x * g y = ε (x, true) * g x := fun s x hx g =>
    sum_diag s _ x hx _ g fun y hy => by
      rw [(hf s y hy x hx).2]; by_cases h : y = x
      · rw [h]
      · rw [if_neg h, if_neg h]
  refine ⟨?_, ?_, ?_⟩
  · unfold ccd_t2_aaaa
    rw [← Prog.eval_drop D _ [16, 17, 18] _ _ z]
    have e : Prog.drop [16, 17, 18] Gen.ccd_t2_aaaa =
      [⟨-1, [⟨8, [0, 10]⟩, ⟨32, [9, 11, 8, 0]⟩], [(1, [9, 11, 8, 10]), (-1, [9, 11, 10, 8])]⟩,
       ⟨1, [⟨8, [9, 1]⟩, ⟨32, [1, 11, 8, 10]⟩], [(1, [9, 11, 8, 10]), (-1, [11, 9, 8, 10])]⟩] := rfl
    rw [e]
    simp [Prog.eval, Blk.eval, termVal, dums, vars, varsIx, insertNew, sumOver, evalFs, SI.T, at4, at2, Ein.bind, Function.update, sp, scaleG]
    rw [col 0 j hj, col 0 i hi, row 1 a ha, row 1 b hb, hA.t2_aaaa_anti0 b a, hA.t2_aaaa_anti2 a b j i]
    ring
  · unfold ccd_t2_bbbb
    rw [← Prog.eval_drop D _ [16, 17, 18] _ _ z]
    have e : Prog.drop [16, 17, 18] Gen.ccd_t2_bbbb =
      [⟨-1, [⟨9, [0, 10]⟩, ⟨34, [9, 11, 8, 0]⟩], [(1, [9, 11, 8, 10]), (-1, [9, 11, 10, 8])]⟩,
       ⟨1, [⟨9, [9, 1]⟩, ⟨34, [1, 11, 8, 10]⟩], [(1, [9, 11, 8, 10]), (-1, [11, 9, 8, 10])]⟩] := rfl
    rw [e]
    simp [Prog.eval, Blk.eval, termVal, dums, vars, varsIx, insertNew, sumOver, evalFs, SI.T, at4, at2, Ein.bind, Function.update, sp, scaleG]
    rw [col' 0 j hj, col' 0 i hi, row' 1 a ha, row' 1 b hb, hA.t2_bbbb_anti0 b a, hA.t2_bbbb_anti2 a b j i]
    ring
  · unfold ccd_t2_abab
    rw [← Prog.eval_drop D _ [16, 17, 18] _ _ z]
    have e : Prog.drop [16, 17, 18] Gen.ccd_t2_abab =
      [⟨-1, [⟨9, [0, 10]⟩, ⟨33, [9, 11, 8, 0]⟩], [(1, [9, 11, 8, 10])]⟩,
       ⟨-1, [⟨8, [0, 8]⟩, ⟨33, [9, 11, 0, 10]⟩], [(1, [9, 11, 8, 10])]⟩,
       ⟨1, [⟨8, [9, 1]⟩, ⟨33, [1, 11, 8, 10]⟩], [(1, [9, 11, 8, 10])]⟩,
       ⟨1, [⟨9, [11, 1]⟩, ⟨33, [9, 1, 8, 10]⟩], [(1, [9, 11, 8, 10])]⟩] := rfl
    rw [e]
    simp [Prog.eval, Blk.eval, termVal, dums, vars, varsIx, insertNew, sumOver, evalFs, SI.T, at4, at2, Ein.bind, Function.update, sp, scaleG]
    rw [col' 0 j hj, col 0 i hi, row 1 a ha, row' 1 b hb]
    ring

end algebra

section vectors

variable {I : Type} [DecidableEq I] [Inhabited I] (D : Nat → Finset I)

/-- The three blocks of the residual. -/
noncomputable def residBlock (name : String) (A : SI I ℝ) (k : Fin 3) (a b i j : I) : ℝ :=
  if k = 0 then resid_aaaa D name A a b i j else if k = 1 then resid_bbbb D name A a b i j else resid_abab D name A a b i j

/-- The three denominators. -/
noncomputable def denBlock (ε : I × Bool → ℝ) (k : Fin 3) (a b i j : I) : ℝ :=
  if k = 0 then den_aa ε a b i j else if k = 1 then den_bb ε a b i j else den_ab ε a b i j

/-- The arrays that a pass works with when the amplitudes are those of a vector. -/
noncomputable def atVec (A : SI I ℝ) (v : Slot D → ℝ) : SI I ℝ := set_l2amps (unpack D v A)

/-- The part of a pass that is due to the interaction. -/
noncomputable def interaction (name : String) (ε : I × Bool → ℝ) (A : SI I ℝ) (v : Slot D → ℝ) : Slot D → ℝ :=
  fun ⟨k, a, b, i, j⟩ => (residBlock D name (atVec D A v) k a b i j - residBlock D name (scaleG 0 (atVec D A v)) k a b i j) * denBlock ε k a b i j

omit [DecidableEq I] [Inhabited I] in
theorem at4_tame (h : (Slot D → ℝ) → I → I → I → I → ℝ) (hh : ∀ a b i j, Tame fun v => h v a b i j) (l : List I) : Tame fun v => at4 (h v) l := by
  match l with
  | [p, q, r, s] => exact hh p q r s
  | [] | [_] | [_, _] | [_, _, _] | _ :: _ :: _ :: _ :: _ :: _ => exact Tame.const 0

omit [Inhabited I] in
theorem fill_tame (k : Fin 3) (x : I → I → I → I → ℝ) (a b i j : I) : Tame fun v => fill D v k x a b i j := by
  unfold fill
  split
  · exact Tame.coord _
  · exact Tame.const _

omit [Inhabited I] in
theorem atVec_T_tame (A : SI I ℝ) (t : Nat) (l : List I) : Tame fun v => (atVec D A v).T t l := by
  by_cases ht : t ∈ [32, 33, 34, 64, 65, 66]
  · simp only [List.mem_cons, List.not_mem_nil, or_false] at ht
    rcases ht with rfl | rfl | rfl | rfl | rfl | rfl
    · exact at4_tame D (fun v => fill D v 0 A.t2_aaaa) (fill_tame D 0 _) l
    · exact at4_tame D (fun v => fill D v 2 A.t2_abab) (fill_tame D 2 _) l
    · exact at4_tame D (fun v => fill D v 1 A.t2_bbbb) (fill_tame D 1 _) l
    · exact at4_tame D (fun v i j a b => fill D v 0 A.t2_aaaa a b i j) (fun i j a b => fill_tame D 0 _ a b i j) l
    · exact at4_tame D (fun v i j a b => fill D v 2 A.t2_abab a b i j) (fun i j a b => fill_tame D 2 _ a b i j) l
    · exact at4_tame D (fun v i j a b => fill D v 1 A.t2_bbbb a b i j) (fun i j a b => fill_tame D 1 _ a b i j) l
  · have e : ∀ v, (atVec D A v).T t l = A.T t l := by
      intro v
      simp only [List.mem_cons, List.not_mem_nil, or_false, not_or] at ht
      unfold SI.T atVec set_l2amps unpack
      simp only [ht, if_false]
    simp only [e]
    exact Tame.const _

omit [Inhabited I] in
theorem scaled_T_tame (c : ℝ) (A : SI I ℝ) (t : Nat) (l : List I) : Tame fun v => (scaleG c (atVec D A v)).T t l := by
  by_cases ht : t ∈ [16, 17, 18]
  · simp only [(scaleG_T c _).2 t ht l]
    exact (atVec_T_tame D A t l).smul c
  · simp only [(scaleG_T c _).1 t ht l]
    exact atVec_T_tame D A t l

omit [DecidableEq I] in
theorem residBlock_tame (name : String) (F : (Slot D → ℝ) → SI I ℝ) (hF : ∀ t l, Tame fun v => (F v).T t l) (k : Fin 3) (a b i j : I) :
    Tame fun v => residBlock D name (F v) k a b i j := by
  have e := fun P => Prog.eval_tame D (fun v => (F v).T) hF P [a, b, i, j]
  unfold residBlock
  split
  · exact ((e Gen.ccd_t2_aaaa).add ((e Gen.residQf1_aaaa).smul _)).add ((e Gen.residQf2_aaaa).smul _)
  · split
    · exact ((e Gen.ccd_t2_bbbb).add ((e Gen.residQf1_bbbb).smul _)).add ((e Gen.residQf2_bbbb).smul _)
    · exact ((e Gen.ccd_t2_abab).add ((e Gen.residQf1_abab).smul _)).add ((e Gen.residQf2_abab).smul _)

theorem interaction_tame (name : String) (ε : I × Bool → ℝ) (A : SI I ℝ) (s : Slot D) : Tame fun v => interaction D name ε A v s := by
  obtain ⟨k, a, b, i, j⟩ := s
  have h1 := residBlock_tame D name _ (atVec_T_tame D A) k a b i j
  have h2 := residBlock_tame D name _ (scaled_T_tame D 0 A) k a b i j
  have h := (h1.add (h2.smul (-1))).mul (Tame.const (denBlock ε k a b i j))
  refine (congrArg Tame (funext fun v => ?_)).mp h
  simp only [interaction]
  ring

omit [DecidableEq I] in
/-- The residuals depend linearly on the strength of the interaction. -/
theorem residBlock_scaled (name : String) (c : ℝ) (A : SI I ℝ) (k : Fin 3) (a b i j : I) :
    residBlock D name (scaleG c A) k a b i j =
      residBlock D name (scaleG 0 A) k a b i j + c * (residBlock D name A k a b i j - residBlock D name (scaleG 0 A) k a b i j) := by
  have e := fun P hP => Prog.eval_scaled_once D (scaleG_T c A).1 (scaleG_T c A).2 (scaleG_T 0 A).1
    (fun t ht l => by rw [(scaleG_T 0 A).2 t ht l, zero_mul]) P hP [a, b, i, j]
  unfold residBlock
  split
  · have e1 := e Gen.ccd_t2_aaaa (by decide +kernel)
    have e2 := e Gen.residQf1_aaaa (by decide +kernel)
    have e3 := e Gen.residQf2_aaaa (by decide +kernel)
    unfold resid_aaaa ccd_t2_aaaa residQf1_aaaa residQf2_aaaa
    rw [e1, e2, e3]
    ring
  · split
    · have e1 := e Gen.ccd_t2_bbbb (by decide +kernel)
      have e2 := e Gen.residQf1_bbbb (by decide +kernel)
      have e3 := e Gen.residQf2_bbbb (by decide +kernel)
      unfold resid_bbbb ccd_t2_bbbb residQf1_bbbb residQf2_bbbb
      rw [e1, e2, e3]
      ring
    · have e1 := e Gen.ccd_t2_abab (by decide +kernel)
      have e2 := e Gen.residQf1_abab (by decide +kernel)
      have e3 := e Gen.residQf2_abab (by decide +kernel)
      unfold resid_abab ccd_t2_abab residQf1_abab residQf2_abab
      rw [e1, e2, e3]
      ring

/-- Without interaction the residual is minus the amplitude divided by the denominator. -/
theorem residBlock_free (name : String) {ε : I × Bool → ℝ} {A : SI I ℝ} (hA : A.Sym) (hf : DiagonalFock D ε A) (k : Fin 3) {a b i j : I}
    (ha : a ∈ D 1) (hb : b ∈ D 1) (hi : i ∈ D 0) (hj : j ∈ D 0) :
    residBlock D name (scaleG 0 A) k a b i j = - ((denBlock ε k a b i j)⁻¹ * block A k a b i j) := by
  obtain ⟨f1, f2, f3⟩ := fock_part hA hf ha hb hi hj
  have z := fun P hP => Prog.eval_scaled D (scaleG_T 0 A).1 (scaleG_T 0 A).2 P 1 hP [a, b, i, j]
  unfold residBlock denBlock block
  split
  · have e2 := z Gen.residQf1_aaaa (by decide +kernel)
    have e3 := z Gen.residQf2_aaaa (by decide +kernel)
    unfold resid_aaaa residQf1_aaaa residQf2_aaaa
    rw [f1, e2, e3, den_aa, den, one_div, inv_inv]
    ring
  · split
    · have e2 := z Gen.residQf1_bbbb (by decide +kernel)
      have e3 := z Gen.residQf2_bbbb (by decide +kernel)
      unfold resid_bbbb residQf1_bbbb residQf2_bbbb
      rw [f2, e2, e3, den_bb, den, one_div, inv_inv]
      ring
    · have e2 := z Gen.residQf1_abab (by decide +kernel)
      have e3 := z Gen.residQf2_abab (by decide +kernel)
      unfold resid_abab residQf1_abab residQf2_abab
      rw [f3, e2, e3, den_ab, den, one_div, inv_inv]
      ring

/-! ## passes -/

/-- Arrays with the integrals of `A`, the two-electron integrals multiplied by `c`, and with the amplitudes of the vector `v`. -/
def Holds (A : SI I ℝ) (c : ℝ) (v : Slot D → ℝ) (B : SI I ℝ) : Prop := B.Sym ∧ SameSlices D B (unpack D v (scaleG c A))

omit [DecidableEq I] [Inhabited I] in
/-- Arrays with the same integrals and the same packed amplitudes agree on the slices. -/
theorem same_of_pack {A B : SI I ℝ} (h1 : B.f_aa = A.f_aa) (h2 : B.f_bb = A.f_bb) (h3 : B.g_aaaa = A.g_aaaa) (h4 : B.g_abab = A.g_abab)
    (h5 : B.g_bbbb = A.g_bbbb) (h : pack D B = pack D A) : SameSlices D B A :=
  ⟨h1, h2, h3, h4, h5, fun a b i j ha hb hi hj =>
    ⟨congrFun h (0, ⟨a, ha⟩, ⟨b, hb⟩, ⟨i, hi⟩, ⟨j, hj⟩), congrFun h (2, ⟨a, ha⟩, ⟨b, hb⟩, ⟨i, hi⟩, ⟨j, hj⟩),
      congrFun h (1, ⟨a, ha⟩, ⟨b, hb⟩, ⟨i, hi⟩, ⟨j, hj⟩)⟩⟩

omit [Inhabited I] in
theorem pack_unpack (v : Slot D → ℝ) (A : SI I ℝ) : pack D (unpack D v A) = v := by
  funext ⟨k, ⟨a, ha⟩, ⟨b, hb⟩, ⟨i, hi⟩, ⟨j, hj⟩⟩
  fin_cases k <;> exact fill_mem D v _ _ a b i j ha hb hi hj

omit [DecidableEq I] [Inhabited I] in
theorem pack_same {A B : SI I ℝ} (h : SameSlices D B A) : pack D B = pack D A := by
  funext ⟨k, ⟨a, ha⟩, ⟨b, hb⟩, ⟨i, hi⟩, ⟨j, hj⟩⟩
  obtain ⟨t1, t2, t3⟩ := h.t2 a b i j ha hb hi hj
  fin_cases k
  exacts [t1, t3, t2]

variable {D}

omit [Inhabited I] in
theorem Holds.packed {A B : SI I ℝ} {c : ℝ} {v : Slot D → ℝ} (h : Holds D A c v B) : pack D B = v := (pack_same D h.2).trans (pack_unpack D v _)

omit [Inhabited I] in
theorem Holds.anti {A B : SI I ℝ} {c : ℝ} {v : Slot D → ℝ} (h : Holds D A c v B) : v ∈ antiVec D := h.packed ▸ pack_anti D B h.1

/-- The residuals of a pass. -/
theorem Holds.resid (name : String) {ε : I × Bool → ℝ} {A B : SI I ℝ} (hA : A.Sym) (hf : DiagonalFock D ε A) {c : ℝ} {v : Slot D → ℝ} (h : Holds D A c v B)
    (k : Fin 3) {a b i j : I} (ha : a ∈ D 1) (hb : b ∈ D 1) (hi : i ∈ D 0) (hj : j ∈ D 0) :
    residBlock D name (set_l2amps B) k a b i j =
      c * (residBlock D name (atVec D A v) k a b i j - residBlock D name (scaleG 0 (atVec D A v)) k a b i j)
        - (denBlock ε k a b i j)⁻¹ * v (k, ⟨a, ha⟩, ⟨b, hb⟩, ⟨i, hi⟩, ⟨j, hj⟩) := by
  have hs : SameSlicesL D (set_l2amps B) (scaleG c (atVec D A v)) :=
    { f_aa := h.2.f_aa, f_bb := h.2.f_bb, g_aaaa := h.2.g_aaaa, g_abab := h.2.g_abab, g_bbbb := h.2.g_bbbb, t2 := h.2.t2
      l2 := fun i j a b hi hj ha hb => h.2.t2 a b i j ha hb hi hj }
  obtain ⟨e1, e2, e3⟩ := hs.resid name a b i j ha hb hi hj
  have e : residBlock D name (set_l2amps B) k a b i j = residBlock D name (scaleG c (atVec D A v)) k a b i j := by
    unfold residBlock
    rw [e1, e2, e3]
  have hu := unpack_sym D v h.anti A hA
  have hl : (atVec D A v).Sym := set_l2amps_sym _ hu
  have hv : block (atVec D A v) k a b i j = v (k, ⟨a, ha⟩, ⟨b, hb⟩, ⟨i, hi⟩, ⟨j, hj⟩) := congrFun (pack_unpack D v A) (k, ⟨a, ha⟩, ⟨b, hb⟩, ⟨i, hi⟩, ⟨j, hj⟩)
  rw [e, residBlock_scaled, residBlock_free D name hl hf k ha hb hi hj, hv]
  ring

/-- A pass takes the vector to the interaction part, multiplied by the strength of the interaction. -/
theorem Holds.pass (name : String) {ε : I × Bool → ℝ} {A B : SI I ℝ} (hA : A.Sym) (hf : DiagonalFock D ε A) {c : ℝ} {v : Slot D → ℝ} (h : Holds D A c v B) :
    Holds D A c (c • interaction D name ε A v) (iterSi D name (den_aa ε) (den_bb ε) (den_ab ε) B) := by
  refine ⟨C33_step D name (den_aa ε) (den_bb ε) (den_ab ε) ⟨fun _ _ _ _ => (den_sym ε).first _ _ _ _, fun _ _ _ _ => (den_sym ε).last _ _ _ _⟩
    ⟨fun _ _ _ _ => (den_sym ε).first _ _ _ _, fun _ _ _ _ => (den_sym ε).last _ _ _ _⟩ B h.1, ?_⟩
  refine same_of_pack D h.2.f_aa h.2.f_bb h.2.g_aaaa h.2.g_abab h.2.g_bbbb ?_
  rw [pack_unpack]
  funext ⟨k, ⟨a, ha⟩, ⟨b, hb⟩, ⟨i, hi⟩, ⟨j, hj⟩⟩
  have e := h.resid name hA hf k ha hb hi hj
  have hp : block B k a b i j = v (k, ⟨a, ha⟩, ⟨b, hb⟩, ⟨i, hi⟩, ⟨j, hj⟩) := congrFun h.packed (k, ⟨a, ha⟩, ⟨b, hb⟩, ⟨i, hi⟩, ⟨j, hj⟩)
  have key : pack D (iterSi D name (den_aa ε) (den_bb ε) (den_ab ε) B) (k, ⟨a, ha⟩, ⟨b, hb⟩, ⟨i, hi⟩, ⟨j, hj⟩) =
      (residBlock D name (set_l2amps B) k a b i j + (denBlock ε k a b i j)⁻¹ * block B k a b i j) * denBlock ε k a b i j := by
    fin_cases k <;> rfl
  rw [key, e, hp]
  simp only [Pi.smul_apply, smul_eq_mul, interaction]
  ring

/-- The interaction part keeps the antisymmetry. -/
theorem interaction_anti (name : String) {ε : I × Bool → ℝ} {A : SI I ℝ} (hA : A.Sym) (hf : DiagonalFock D ε A) (v : Slot D → ℝ) (hv : v ∈ antiVec D) :
    interaction D name ε A v ∈ antiVec D := by
  have h : Holds D A 1 v (unpack D v (scaleG 1 A)) := ⟨unpack_sym D v hv _ (scaleG_sym 1 A hA), ⟨rfl, rfl, rfl, rfl, rfl, fun _ _ _ _ _ _ _ _ => ⟨rfl, rfl, rfl⟩⟩⟩
  have e := (h.pass name hA hf).anti
  rwa [one_smul] at e

/-- The vector is a fixed point exactly if the residuals vanish. -/
theorem Holds.fixed (name : String) {ε : I × Bool → ℝ} {A B : SI I ℝ} (hA : A.Sym) (hf : DiagonalFock D ε A) {c : ℝ} {v : Slot D → ℝ} (h : Holds D A c v B)
    (hd : ∀ k, ∀ a ∈ D 1, ∀ b ∈ D 1, ∀ i ∈ D 0, ∀ j ∈ D 0, denBlock ε k a b i j ≠ 0) :
    c • interaction D name ε A v = v ↔ ∀ k, ∀ a ∈ D 1, ∀ b ∈ D 1, ∀ i ∈ D 0, ∀ j ∈ D 0, residBlock D name (set_l2amps B) k a b i j = 0 := by
  constructor
  · intro e k a ha b hb i hi j hj
    rw [h.resid name hA hf k ha hb hi hj]
    have e' := congrFun e (k, ⟨a, ha⟩, ⟨b, hb⟩, ⟨i, hi⟩, ⟨j, hj⟩)
    simp only [Pi.smul_apply, smul_eq_mul, interaction] at e'
    rw [← e']
    have := hd k a ha b hb i hi j hj
    field_simp
    ring
  · intro e
    funext ⟨k, ⟨a, ha⟩, ⟨b, hb⟩, ⟨i, hi⟩, ⟨j, hj⟩⟩
    have e' := e k a ha b hb i hi j hj
    rw [h.resid name hA hf k ha hb hi hj] at e'
    have := hd k a ha b hb i hi j hj
    simp only [Pi.smul_apply, smul_eq_mul, interaction]
    rw [← mul_assoc, sub_eq_zero.1 e']
    field_simp

variable (D)

/-! ## energies -/

/-- The energy of the reference determinant. -/
noncomputable def bareEnergy (A : SI I ℝ) : ℝ :=
  ∑ i ∈ D 0, (A.f_aa i i + A.f_bb i i) - ∑ i ∈ D 0, ∑ j ∈ D 0, (1 / 2 * A.g_aaaa i j i j + A.g_abab i j i j + 1 / 2 * A.g_bbbb i j i j)

/-- Integrals contracted with the amplitudes of a vector. -/
noncomputable def pairing (A : SI I ℝ) (v : Slot D → ℝ) : ℝ :=
  ∑ a ∈ D 1, ∑ b ∈ D 1, ∑ i ∈ D 0, ∑ j ∈ D 0, (1 / 4 * A.g_aaaa i j a b * fill D v 0 A.t2_aaaa a b i j +
    A.g_abab i j a b * fill D v 2 A.t2_abab a b i j + 1 / 4 * A.g_bbbb i j a b * fill D v 1 A.t2_bbbb a b i j)

/-- The second-order energy. -/
noncomputable def mp2 (ε : I × Bool → ℝ) (A : SI I ℝ) : ℝ :=
  ∑ a ∈ D 1, ∑ b ∈ D 1, ∑ i ∈ D 0, ∑ j ∈ D 0,
    (1 / 4 * (A.g_aaaa i j a b ^ 2 / (ε (i, false) + ε (j, false) - ε (a, false) - ε (b, false))) +
      A.g_abab i j a b ^ 2 / (ε (i, false) + ε (j, true) - ε (a, false) - ε (b, true)) +
      1 / 4 * (A.g_bbbb i j a b ^ 2 / (ε (i, true) + ε (j, true) - ε (a, true) - ε (b, true))))

omit [DecidableEq I] in
theorem energy_sum (A : SI I ℝ) : ccd_energy_with_spin D A = bareEnergy D A +
    ∑ a ∈ D 1, ∑ b ∈ D 1, ∑ i ∈ D 0, ∑ j ∈ D 0, (1 / 4 * A.g_aaaa i j a b * A.t2_aaaa a b i j +
      A.g_abab i j a b * A.t2_abab a b i j + 1 / 4 * A.g_bbbb i j a b * A.t2_bbbb a b i j) := by
  unfold ccd_energy_with_spin bareEnergy
  simp [Gen.ccd_energy_with_spin, N.f_aa, N.f_bb, N.g_aaaa, N.g_abab, N.g_bbbb, N.t2_aaaa, N.t2_bbbb, N.t2_abab, N.iₒ, N.jₒ, N.aᵥ, N.bᵥ, Prog.eval,
    Blk.eval, termVal, dums, vars, varsIx, insertNew, sumOver, evalFs, SI.T, at4, at2, Ein.bind, Function.update, sp]
  simp only [Finset.sum_add_distrib, mul_assoc, ← Finset.mul_sum]
  ring

/-- The energy in terms of the vector. -/
theorem Holds.energy {A B : SI I ℝ} {c : ℝ} {v : Slot D → ℝ} (h : Holds D A c v B) :
    ccd_energy_with_spin D B = bareEnergy D (scaleG c A) + c * pairing D A v := by
  rw [h.2.ccd.1, energy_sum]
  unfold pairing
  simp only [Finset.mul_sum]
  refine congrArg _ (Finset.sum_congr rfl fun a _ => Finset.sum_congr rfl fun b _ => Finset.sum_congr rfl fun i _ => Finset.sum_congr rfl fun j _ => ?_)
  simp only [unpack, scaleG]
  ring

omit [Inhabited I] in
theorem pairing_tame (A : SI I ℝ) : Tame (pairing D A) := by
  unfold pairing
  refine Tame.finsum _ fun a _ => Tame.finsum _ fun b _ => Tame.finsum _ fun i _ => Tame.finsum _ fun j _ => ?_
  exact (((fill_tame D 0 _ a b i j).smul _).add ((fill_tame D 2 _ a b i j).smul _)).add ((fill_tame D 1 _ a b i j).smul _)

omit [Inhabited I] in
theorem pairing_smul (A : SI I ℝ) (c : ℝ) (v : Slot D → ℝ) : pairing D A (c • v) = c * pairing D A v := by
  unfold pairing
  simp only [Finset.mul_sum]
  refine Finset.sum_congr rfl fun a ha => Finset.sum_congr rfl fun b hb => Finset.sum_congr rfl fun i hi => Finset.sum_congr rfl fun j hj => ?_
  simp only [fill_mem D _ _ _ a b i j ha hb hi hj, Pi.smul_apply, smul_eq_mul]
  ring

omit [DecidableEq I] in
/-- Without amplitudes the residuals are the integrals. -/
theorem residBlock_bare (name : String) (A : SI I ℝ) (hz : ∀ t ∈ [32, 33, 34], ∀ l, A.T t l = 0) (a b i j : I) :
    residBlock D name A 0 a b i j = A.g_aaaa a b i j ∧ residBlock D name A 1 a b i j = A.g_bbbb a b i j ∧ residBlock D name A 2 a b i j = A.g_abab a b i j := by
  have z := fun (P Q : Prog) (h : Prog.drop [32, 33, 34] P = Q) =>
    (Prog.eval_drop D A.T [32, 33, 34] P [a, b, i, j] hz).symm.trans (congrArg (fun P => Prog.eval D A.T P [a, b, i, j]) h)
  refine ⟨?_, ?_, ?_⟩
  · show resid_aaaa D name A a b i j = _
    unfold resid_aaaa ccd_t2_aaaa residQf1_aaaa residQf2_aaaa
    rw [z Gen.ccd_t2_aaaa [⟨1, [⟨16, [9, 11, 8, 10]⟩], [(1, [9, 11, 8, 10])]⟩] rfl, z Gen.residQf1_aaaa [] (by decide +kernel), z Gen.residQf2_aaaa [] (by decide +kernel)]
    simp [Prog.eval, Blk.eval, termVal, dums, vars, varsIx, insertNew, sumOver, evalFs, SI.T, at4, Ein.bind, Function.update]
  · show resid_bbbb D name A a b i j = _
    unfold resid_bbbb ccd_t2_bbbb residQf1_bbbb residQf2_bbbb
    rw [z Gen.ccd_t2_bbbb [⟨1, [⟨18, [9, 11, 8, 10]⟩], [(1, [9, 11, 8, 10])]⟩] rfl, z Gen.residQf1_bbbb [] (by decide +kernel), z Gen.residQf2_bbbb [] (by decide +kernel)]
    simp [Prog.eval, Blk.eval, termVal, dums, vars, varsIx, insertNew, sumOver, evalFs, SI.T, at4, Ein.bind, Function.update]
  · show resid_abab D name A a b i j = _
    unfold resid_abab ccd_t2_abab residQf1_abab residQf2_abab
    rw [z Gen.ccd_t2_abab [⟨1, [⟨17, [9, 11, 8, 10]⟩], [(1, [9, 11, 8, 10])]⟩] rfl, z Gen.residQf1_abab [] (by decide +kernel), z Gen.residQf2_abab [] (by decide +kernel)]
    simp [Prog.eval, Blk.eval, termVal, dums, vars, varsIx, insertNew, sumOver, evalFs, SI.T, at4, Ein.bind, Function.update]

/-- The first amplitudes are the integrals times the denominators. -/
theorem interaction_zero (name : String) (ε : I × Bool → ℝ) (A : SI I ℝ) (hz : A.t2_aaaa = 0 ∧ A.t2_bbbb = 0 ∧ A.t2_abab = 0)
    {a b i j : I} (ha : a ∈ D 1) (hb : b ∈ D 1) (hi : i ∈ D 0) (hj : j ∈ D 0) :
    interaction D name ε A 0 (0, ⟨a, ha⟩, ⟨b, hb⟩, ⟨i, hi⟩, ⟨j, hj⟩) = A.g_aaaa a b i j * den_aa ε a b i j ∧
    interaction D name ε A 0 (1, ⟨a, ha⟩, ⟨b, hb⟩, ⟨i, hi⟩, ⟨j, hj⟩) = A.g_bbbb a b i j * den_bb ε a b i j ∧
    interaction D name ε A 0 (2, ⟨a, ha⟩, ⟨b, hb⟩, ⟨i, hi⟩, ⟨j, hj⟩) = A.g_abab a b i j * den_ab ε a b i j := by
  have f0 : ∀ k a b i j, fill D (0 : Slot D → ℝ) k (0 : I → I → I → I → ℝ) a b i j = 0 := by
    intro k a b i j
    unfold fill
    split <;> rfl
  have z : ∀ t ∈ [32, 33, 34], ∀ l, (atVec D A 0).T t l = 0 := by
    intro t ht l
    simp only [List.mem_cons, List.not_mem_nil, or_false] at ht
    have e : ∀ h : I → I → I → I → ℝ, (∀ a b i j, h a b i j = 0) → at4 h l = 0 := by
      intro h hh
      match l with
      | [p, q, r, s] => exact hh p q r s
      | [] | [_] | [_, _] | [_, _, _] | _ :: _ :: _ :: _ :: _ :: _ => rfl
    rcases ht with rfl | rfl | rfl
    · exact e (fill D 0 0 A.t2_aaaa) (hz.1 ▸ f0 0)
    · exact e (fill D 0 2 A.t2_abab) (hz.2.2 ▸ f0 2)
    · exact e (fill D 0 1 A.t2_bbbb) (hz.2.1 ▸ f0 1)
  have z' : ∀ t ∈ [32, 33, 34], ∀ l, (scaleG 0 (atVec D A 0)).T t l = 0 := by
    intro t ht l
    rw [(scaleG_T 0 _).1 t (by simp only [List.mem_cons, List.not_mem_nil, or_false] at ht ⊢; omega)]
    exact z t ht l
  obtain ⟨e1, e2, e3⟩ := residBlock_bare D name _ z a b i j
  obtain ⟨f1, f2, f3⟩ := residBlock_bare D name _ z' a b i j
  simp only [interaction, e1, e2, e3, f1, f2, f3]
  refine ⟨?_, ?_, ?_⟩
  · show (A.g_aaaa a b i j - 0 * A.g_aaaa a b i j) * den_aa ε a b i j = _
    ring
  · show (A.g_bbbb a b i j - 0 * A.g_bbbb a b i j) * den_bb ε a b i j = _
    ring
  · show (A.g_abab a b i j - 0 * A.g_abab a b i j) * den_ab ε a b i j = _
    ring

/-- Contracted with the integrals they give the second-order energy. -/
theorem pairing_first (name : String) (ε : I × Bool → ℝ) (A : SI I ℝ) (hA : A.Sym) (hz : A.t2_aaaa = 0 ∧ A.t2_bbbb = 0 ∧ A.t2_abab = 0) :
    pairing D A (interaction D name ε A 0) = mp2 D ε A := by
  unfold pairing mp2
  refine Finset.sum_congr rfl fun a ha => Finset.sum_congr rfl fun b hb => Finset.sum_congr rfl fun i hi => Finset.sum_congr rfl fun j hj => ?_
  obtain ⟨e1, e2, e3⟩ := interaction_zero D name ε A hz ha hb hi hj
  simp only [fill_mem D _ _ _ a b i j ha hb hi hj, e1, e2, e3]
  rw [hA.g_aaaa_herm a b i j, hA.g_abab_herm a b i j, hA.g_bbbb_herm a b i j]
  unfold den_aa den_bb den_ab den
  ring

/-! ## convergence -/

/-- Arrays with the integrals of `B` whose antisymmetric amplitudes are at most one and solve the equations of the method. -/
structure SmallSolution (name : String) (B X : SI I ℝ) : Prop where
  sym : X.Sym
  f_aa : X.f_aa = B.f_aa
  f_bb : X.f_bb = B.f_bb
  g_aaaa : X.g_aaaa = B.g_aaaa
  g_abab : X.g_abab = B.g_abab
  g_bbbb : X.g_bbbb = B.g_bbbb
  small : ∀ k, ∀ a ∈ D 1, ∀ b ∈ D 1, ∀ i ∈ D 0, ∀ j ∈ D 0, |block X k a b i j| ≤ 1
  solves : ∀ a ∈ D 1, ∀ b ∈ D 1, ∀ i ∈ D 0, ∀ j ∈ D 0, resid_aaaa D name (set_l2amps X) a b i j = 0 ∧
    resid_bbbb D name (set_l2amps X) a b i j = 0 ∧ resid_abab D name (set_l2amps X) a b i j = 0

omit [DecidableEq I] [Inhabited I] in
theorem norm_le_one {v : Slot D → ℝ} : ‖v‖ ≤ 1 ↔ ∀ s, |v s| ≤ 1 := pi_norm_le_iff_of_nonneg zero_le_one

/-- Occupied orbitals lie below virtual ones. -/
def Gap (ε : I × Bool → ℝ) : Prop := ∀ σ, ∀ i ∈ D 0, ∀ a ∈ D 1, ε (i, σ) < ε (a, σ)

omit [DecidableEq I] [Inhabited I] in
theorem Gap.den {ε : I × Bool → ℝ} (h : Gap D ε) (k : Fin 3) (a : I) (ha : a ∈ D 1) (b : I) (hb : b ∈ D 1) (i : I) (hi : i ∈ D 0) (j : I) (hj : j ∈ D 0) :
    denBlock ε k a b i j ≠ 0 := by
  have e := fun σ τ => add_lt_add (h σ i hi a ha) (h τ j hj b hb)
  have n : ∀ σ τ, Verif.Props.den ε (a, σ) (b, τ) (i, σ) (j, τ) ≠ 0 := fun σ τ =>
    one_div_ne_zero (by linarith [e σ τ] : ε (i, σ) + ε (j, τ) - ε (a, σ) - ε (b, τ) < 0).ne
  fin_cases k
  exacts [n false false, n true true, n false true]

/-- **C88** Multiply the two-electron integrals by `c`, keep a diagonal Fock matrix with a gap. There is a constant `C` such that for `|c| ≤ 1/C` the
equations have exactly one small solution, every pass from zero amplitudes at least halves a bound of the distance to it, and the energy of
every pass is the second-order energy up to third order. -/
theorem C88_weak_coupling (name : String) (ε : I × Bool → ℝ) (A : SI I ℝ) (hA : A.Sym) (hz : A.t2_aaaa = 0 ∧ A.t2_bbbb = 0 ∧ A.t2_abab = 0)
    (hf : DiagonalFock D ε A) (hg : Gap D ε) :
    ∃ C, 0 < C ∧ ∀ c : ℝ, |c| * C ≤ 1 → ∃ X, SmallSolution D name (scaleG c A) X ∧
      (∀ Y, SmallSolution D name (scaleG c A) Y → SameSlices D Y X) ∧
      (∀ k, ∀ a ∈ D 1, ∀ b ∈ D 1, ∀ i ∈ D 0, ∀ j ∈ D 0, |block X k a b i j| ≤ |c| * C) ∧
      |ccd_energy_with_spin D X - (bareEnergy D (scaleG c A) + c ^ 2 * mp2 D ε A)| ≤ |c| ^ 3 * C ∧
      ∀ n, (∀ k, ∀ a ∈ D 1, ∀ b ∈ D 1, ∀ i ∈ D 0, ∀ j ∈ D 0,
          |block ((iterSi D name (den_aa ε) (den_bb ε) (den_ab ε))^[n] (scaleG c A)) k a b i j - block X k a b i j| ≤ |c| * C / 2 ^ n) ∧
        |ccd_energy_with_spin D ((iterSi D name (den_aa ε) (den_bb ε) (den_ab ε))^[n] (scaleG c A)) - ccd_energy_with_spin D X| ≤ c ^ 2 * C / 2 ^ n / 2 ∧
        |ccd_energy_with_spin D ((iterSi D name (den_aa ε) (den_bb ε) (den_ab ε))^[n + 1] (scaleG c A)) - (bareEnergy D (scaleG c A) + c ^ 2 * mp2 D ε A)|
          ≤ |c| ^ 3 * C := by
  obtain ⟨C₁, h1, fix⟩ := fixed_point (interaction D name ε A) (interaction_tame D name ε A)
  obtain ⟨C₂, h2, tame⟩ := pairing_tame D A
  refine ⟨C₁ + 2 * C₁ * C₂ + C₁ ^ 2 * C₂, by positivity, fun c hc => ?_⟩
  have hle : C₁ ≤ C₁ + 2 * C₁ * C₂ + C₁ ^ 2 * C₂ := by nlinarith [mul_nonneg h1.le h2, mul_nonneg (sq_nonneg C₁) h2]
  have hc1 : |c| * C₁ ≤ 1 := (mul_le_mul_of_nonneg_left hle (abs_nonneg c)).trans hc
  obtain ⟨x, hx1, hfix, huniq, hball, herr, hfirst, hW⟩ := fix c hc1
  obtain ⟨hxW, -⟩ := hW (antiVec D) (interaction_anti name hA hf)
  have hAc := scaleG_sym c A hA
  have X_holds : Holds D A c x (unpack D x (scaleG c A)) :=
    ⟨unpack_sym D x hxW _ hAc, ⟨rfl, rfl, rfl, rfl, rfl, fun _ _ _ _ _ _ _ _ => ⟨rfl, rfl, rfl⟩⟩⟩
  have it : ∀ n, Holds D A c ((fun v => c • interaction D name ε A v)^[n] 0) ((iterSi D name (den_aa ε) (den_bb ε) (den_ab ε))^[n] (scaleG c A)) := by
    intro n
    induction n with
    | zero =>
      refine ⟨hAc, same_of_pack D rfl rfl rfl rfl rfl ?_⟩
      rw [pack_unpack]
      funext ⟨k, a, b, i, j⟩
      fin_cases k
      exacts [congrFun (congrFun (congrFun (congrFun hz.1 a) b) i) j, congrFun (congrFun (congrFun (congrFun hz.2.1 a) b) i) j,
        congrFun (congrFun (congrFun (congrFun hz.2.2 a) b) i) j]
    | succ n ih =>
      rw [Function.iterate_succ_apply', Function.iterate_succ_apply']
      exact ih.pass name hA hf
  have hres := (X_holds.fixed name hA hf (hg.den D)).1 hfix
  have ev : ∀ {v B}, Holds D A c v B → ∀ k (a : I) (ha : a ∈ D 1) (b : I) (hb : b ∈ D 1) (i : I) (hi : i ∈ D 0) (j : I) (hj : j ∈ D 0),
      block B k a b i j = v (k, ⟨a, ha⟩, ⟨b, hb⟩, ⟨i, hi⟩, ⟨j, hj⟩) := fun h k a ha b hb i hi j hj => congrFun h.packed (k, ⟨a, ha⟩, ⟨b, hb⟩, ⟨i, hi⟩, ⟨j, hj⟩)
  have hq0 : ‖c • interaction D name ε A 0‖ ≤ 1 := (hball 1).trans hc1
  have hxs : ‖x‖ ≤ |c| * C₁ := by
    rw [← sub_zero x, ← norm_neg, neg_sub]
    have := herr 0
    simpa using this
  have hx2 : ‖x - c • interaction D name ε A 0‖ ≤ (|c| * C₁) ^ 2 := by
    have l : Filter.Tendsto (fun n : ℕ => |c| * C₁ / 2 ^ n + (|c| * C₁) ^ 2) Filter.atTop (nhds (0 + (|c| * C₁) ^ 2)) := by
      refine Filter.Tendsto.add_const _ ?_
      have := tendsto_pow_atTop_nhds_zero_of_lt_one (r := (1 : ℝ) / 2) (by norm_num) (by norm_num)
      have := this.const_mul (|c| * C₁)
      simpa [div_eq_mul_inv] using this
    rw [zero_add] at l
    refine ge_of_tendsto' l fun n => ?_
    have a1 := herr (n + 1)
    have a2 := hfirst n
    have a3 : |c| * C₁ / 2 ^ (n + 1) ≤ |c| * C₁ / 2 ^ n := by
      refine div_le_div_of_nonneg_left (by positivity) (by positivity) ?_
      exact pow_le_pow_right₀ (by norm_num) (by omega)
    rw [norm_sub_rev] at a1
    refine (norm_sub_le_norm_sub_add_norm_sub x ((fun v => c • interaction D name ε A v)^[n + 1] 0) (c • interaction D name ε A 0)).trans ?_
    linarith
  have second : ∀ {v B}, Holds D A c v B → ‖v‖ ≤ 1 → ‖v - c • interaction D name ε A 0‖ ≤ (|c| * C₁) ^ 2 →
      |ccd_energy_with_spin D B - (bareEnergy D (scaleG c A) + c ^ 2 * mp2 D ε A)| ≤ |c| ^ 3 * (C₁ + 2 * C₁ * C₂ + C₁ ^ 2 * C₂) := by
    intro v B h hv hd
    have e := (tame v _ hv hq0).2
    have p : pairing D A (c • interaction D name ε A 0) = c * mp2 D ε A := by rw [pairing_smul, pairing_first D name ε A hA hz]
    rw [p] at e
    rw [h.energy]
    have e' : bareEnergy D (scaleG c A) + c * pairing D A v - (bareEnergy D (scaleG c A) + c ^ 2 * mp2 D ε A) = c * (pairing D A v - c * mp2 D ε A) := by ring
    rw [e', abs_mul]
    have b1 := e.trans (mul_le_mul_of_nonneg_left hd h2)
    have b2 := mul_le_mul_of_nonneg_left b1 (abs_nonneg c)
    refine b2.trans ?_
    have b3 : |c| * (C₂ * (|c| * C₁) ^ 2) = |c| ^ 3 * (C₁ ^ 2 * C₂) := by ring
    rw [b3]
    refine mul_le_mul_of_nonneg_left ?_ (by positivity)
    nlinarith [mul_nonneg h1.le h2]
  refine ⟨unpack D x (scaleG c A), ⟨X_holds.1, rfl, rfl, rfl, rfl, rfl, ?_, ?_⟩, ?_, ?_, ?_, fun n => ⟨?_, ?_, ?_⟩⟩
  · intro k a ha b hb i hi j hj
    rw [ev X_holds k a ha b hb i hi j hj]
    exact (norm_le_one D).1 hx1 _
  · intro a ha b hb i hi j hj
    exact ⟨hres 0 a ha b hb i hi j hj, hres 1 a ha b hb i hi j hj, hres 2 a ha b hb i hi j hj⟩
  · intro Y hY
    have Y_holds : Holds D A c (pack D Y) Y := ⟨hY.sym, same_of_pack D hY.f_aa hY.f_bb hY.g_aaaa hY.g_abab hY.g_bbbb (pack_unpack D _ _).symm⟩
    have e : pack D Y = x := by
      refine huniq _ ((norm_le_one D).2 ?_) ((Y_holds.fixed name hA hf (hg.den D)).2 ?_)
      · rintro ⟨k, ⟨a, ha⟩, ⟨b, hb⟩, ⟨i, hi⟩, ⟨j, hj⟩⟩
        exact hY.small k a ha b hb i hi j hj
      · intro k a ha b hb i hi j hj
        obtain ⟨e1, e2, e3⟩ := hY.solves a ha b hb i hi j hj
        fin_cases k
        exacts [e1, e2, e3]
    exact e ▸ Y_holds.2
  · intro k a ha b hb i hi j hj
    rw [ev X_holds k a ha b hb i hi j hj]
    exact ((norm_le_pi_norm x _).trans hxs).trans (mul_le_mul_of_nonneg_left hle (abs_nonneg c))
  · exact second X_holds hx1 hx2
  · intro k a ha b hb i hi j hj
    rw [ev X_holds k a ha b hb i hi j hj, ev (it n) k a ha b hb i hi j hj]
    refine ((norm_le_pi_norm (_ - x) (k, ⟨a, ha⟩, ⟨b, hb⟩, ⟨i, hi⟩, ⟨j, hj⟩)).trans (herr n)).trans ?_
    exact div_le_div_of_nonneg_right (mul_le_mul_of_nonneg_left hle (abs_nonneg c)) (by positivity)
  · rw [(it n).energy, X_holds.energy, add_sub_add_left_eq_sub, ← mul_sub, abs_mul]
    have e := (tame _ _ ((hball n).trans hc1) hx1).2.trans (mul_le_mul_of_nonneg_left (herr n) h2)
    refine (mul_le_mul_of_nonneg_left e (abs_nonneg c)).trans ?_
    have b : |c| * (C₂ * (|c| * C₁ / 2 ^ n)) = c ^ 2 * (2 * C₁ * C₂) / 2 ^ n / 2 := by
      rw [← sq_abs c]; ring
    rw [b]
    refine div_le_div_of_nonneg_right (div_le_div_of_nonneg_right (mul_le_mul_of_nonneg_left ?_ (sq_nonneg c)) (by positivity)) (by norm_num)
    nlinarith [mul_nonneg (sq_nonneg C₁) h2]
  · exact second (it (n + 1)) ((hball (n + 1)).trans hc1) (hfirst n)

omit [Inhabited I] in
theorem unpack_pack (B : SI I ℝ) : unpack D (pack D B) B = B := by
  have e : ∀ k, fill D (pack D B) k (block B k) = block B k := by
    intro k
    funext a b i j
    unfold fill
    split
    · rfl
    · rfl
  have e0 : fill D (pack D B) 0 B.t2_aaaa = B.t2_aaaa := e 0
  have e1 : fill D (pack D B) 1 B.t2_bbbb = B.t2_bbbb := e 1
  have e2 : fill D (pack D B) 2 B.t2_abab = B.t2_abab := e 2
  unfold unpack
  rw [e0, e1, e2]

/-- Without DIIS, or before DIIS starts, a calculation repeats the pass. -/
theorem plain_passes (o : Opts I) (hd : o.diis = none ∨ o.maxIter ≤ o.start) (A : SI I ℝ) (r : Res (SI I ℝ) (Acc D) ℝ) (h : calculate D o A = .ok r) :
    r.st.amps = (iterSi D o.cc_type o.d2aa o.d2bb o.d2ab)^[r.log.length] A ∧
      ∀ k e, r.log[k]? = some e → e = ccd_energy_with_spin D ((iterSi D o.cc_type o.d2aa o.d2bb o.d2ab)^[k + 1] A) := by
  obtain ⟨-, hm, -, -⟩ := C01_iteration_budget _ _ _ h
  obtain ⟨q, q0, qn, hp, he⟩ := C01_passes _ _ _ h
  have key : ∀ k ≤ r.log.length, (q k).amps = (iterSi D o.cc_type o.d2aa o.d2bb o.d2ab)^[k] A ∧
      (o.diis = none ∨ (q k).diis.1.iterIdx = k ∧ (q k).diis.1.startIter = o.start) := by
    intro k
    induction k with
    | zero =>
      intro _
      rw [q0]
      exact ⟨rfl, .inr ⟨rfl, rfl⟩⟩
    | succ k ih =>
      intro hk
      obtain ⟨i1, i2⟩ := ih (by omega)
      obtain ⟨a, ha, hb, -⟩ := hp k (by omega)
      have ha : iterSi D o.cc_type o.d2aa o.d2bb o.d2ab (q k).amps = a := by simpa [cfg, iterSi, set_l2amps] using ha
      rw [Function.iterate_succ_apply', ← i1, ha]
      by_cases hn : o.diis = none
      · simp only [cfg, accel, hn, Option.isSome_none, Bool.false_eq_true, if_false, Except.ok.injEq, Prod.mk.injEq] at hb
        exact ⟨hb.2.symm, .inl hn⟩
      · obtain ⟨j1, j2⟩ := i2.resolve_left hn
        have hst := hd.resolve_left hn
        have hlt : (q k).diis.1.iterIdx < (q k).diis.1.startIter := by
          rw [j1, j2]
          have : r.log.length ≤ o.maxIter := hm
          omega
        have hsome : o.diis.isSome = true := Option.isSome_iff_ne_none.2 hn
        simp only [cfg, accel, hsome, if_true] at hb
        split at hb
        · cases hb
        split at hb
        · cases hb
        simp only [Diis.State.newVec, if_pos hlt, Diis.State.push, Except.ok.injEq, Prod.mk.injEq, unpack_pack] at hb
        obtain ⟨b1, b2⟩ := hb
        refine ⟨b2.symm, .inr ?_⟩
        rw [← b1]
        exact ⟨congrArg (· + 1) j1, j2⟩
  refine ⟨qn ▸ (key _ le_rfl).1, fun k e hk => ?_⟩
  have hlt : k < r.log.length := (List.getElem?_eq_some_iff.1 hk).1
  have := he k e hk
  simp only [cfg, Except.ok.injEq] at this
  rw [← this, (key (k + 1) hlt).1]

/-- **C88** Whole calculations with weak interaction: they return amplitudes and energy close to the small solution, the closer the more passes were made,
and they stop as soon as the tolerance allows. -/
theorem C88_calculations (name : String) (ε : I × Bool → ℝ) (A : SI I ℝ) (hA : A.Sym) (hz : A.t2_aaaa = 0 ∧ A.t2_bbbb = 0 ∧ A.t2_abab = 0)
    (hf : DiagonalFock D ε A) (hg : Gap D ε) :
    ∃ C, 0 < C ∧ ∀ c : ℝ, |c| * C ≤ 1 → ∃ X, SmallSolution D name (scaleG c A) X ∧ (∀ Y, SmallSolution D name (scaleG c A) Y → SameSlices D Y X) ∧
      ∀ o : Opts I, o.cc_type = name → o.d2aa = den_aa ε → o.d2bb = den_bb ε → o.d2ab = den_ab ε →
        (o.diis = none ∨ o.maxIter ≤ o.start ∧ Verif.Py.hasSub "UCC(4)" name = false ∧ Verif.Py.hasSub "CCDQ" name = false) →
        1 ≤ o.maxIter → o.maxIter ≤ 76 →
        ∃ r, calculate D o (scaleG c A) = .ok r ∧
          (∀ k, ∀ a ∈ D 1, ∀ b ∈ D 1, ∀ i ∈ D 0, ∀ j ∈ D 0, |block r.st.amps k a b i j - block X k a b i j| ≤ |c| * C / 2 ^ r.log.length) ∧
          |r.energy - ccd_energy_with_spin D X| ≤ c ^ 2 * C / 2 ^ r.log.length ∧
          |r.energy - (bareEnergy D (scaleG c A) + c ^ 2 * mp2 D ε A)| ≤ |c| ^ 3 * C ∧
          ∀ N, c ^ 2 * C / 2 ^ N < o.eps → r.log.length ≤ N + 1 := by
  obtain ⟨C, h0, hC⟩ := C88_weak_coupling D name ε A hA hz hf hg
  refine ⟨C, h0, fun c hc => ?_⟩
  obtain ⟨X, hX, hu, -, -, hn⟩ := hC c hc
  refine ⟨X, hX, hu, fun o ho h1 h2 h3 hd hm hm' => ?_⟩
  subst ho
  obtain ⟨r, hr⟩ := C62_returns D o hd hm hm' (scaleG c A)
  obtain ⟨p1, p2⟩ := plain_passes D o (hd.imp_right And.left) _ r hr
  rw [h1, h2, h3] at p1 p2
  obtain ⟨l1, -, -, -⟩ := C01_iteration_budget _ _ _ hr
  have hE : r.energy = ccd_energy_with_spin D r.st.amps := by
    have := (C03_energy_of_returned_amplitudes _ _ _ hr).1
    simp only [cfg, Except.ok.injEq] at this
    exact this.symm
  refine ⟨r, hr, ?_, ?_, ?_, ?_⟩
  · rw [p1]
    exact (hn _).1
  · rw [hE, p1]
    refine (hn _).2.1.trans ?_
    have : 0 ≤ c ^ 2 * C / 2 ^ r.log.length := by positivity
    linarith
  · rw [hE, p1]
    obtain ⟨m, hm⟩ := Nat.exists_eq_add_of_le' l1
    rw [hm]
    exact (hn m).2.2
  · intro N hN
    by_contra hlt
    obtain ⟨e0, he0, -, hfar, -⟩ := C02_stops_at_first_small_change _ _ _ hr
    refine hfar N (by omega) ?_
    have he0 : ccd_energy_with_spin D (scaleG c A) = e0 := by simpa [cfg, initial] using he0
    have at' : ∀ k ≤ r.log.length, (e0 :: r.log)[k]? = some (ccd_energy_with_spin D ((iterSi D o.cc_type (den_aa ε) (den_bb ε) (den_ab ε))^[k] (scaleG c A))) := by
      intro k hk
      cases k with
      | zero => rw [← he0]; rfl
      | succ k =>
        rw [List.getElem?_cons_succ, List.getElem?_eq_getElem (by omega), p2 k _ (List.getElem?_eq_getElem (by omega))]
    refine ⟨_, _, at' N (by omega), at' (N + 1) (by omega), lt_of_le_of_lt ?_ hN⟩
    have b1 := (hn N).2.1
    have b2 := (hn (N + 1)).2.1
    have b3 : c ^ 2 * C / 2 ^ (N + 1) / 2 ≤ c ^ 2 * C / 2 ^ N / 2 := by
      refine div_le_div_of_nonneg_right (div_le_div_of_nonneg_left (by positivity) (by positivity) ?_) (by norm_num)
      exact pow_le_pow_right₀ (by norm_num) (by omega)
    rw [abs_sub_comm] at b2
    refine (abs_sub_le _ (ccd_energy_with_spin D X) _).trans ?_
    linarith

end vectors

/-- Closed-shell integrals that are not zero, with the orbital energies 1, 2, 3, 4 as Fock matrix. -/
noncomputable def weakR : SI ℕ ℝ :=
  { Witness.csR with
    f_aa := fun p q => if p = q then Witness.εR (p, false) else 0
    f_bb := fun p q => if p = q then Witness.εR (p, true) else 0 }

theorem weakR_sym : weakR.Sym :=
  { Witness.csR_sym with
    f_aa_herm := fun p q => by
      by_cases h : p = q
      · rw [h]
      · exact (if_neg h).trans (if_neg (Ne.symm h)).symm
    f_bb_herm := fun p q => by
      by_cases h : p = q
      · rw [h]
      · exact (if_neg h).trans (if_neg (Ne.symm h)).symm }

theorem weakR_gap : Gap Witness.D Witness.εR := by
  intro σ i hi a ha
  have h1 : i ≤ 1 := by simp [Witness.D] at hi; omega
  have h2 : 2 ≤ a := by simp [Witness.D] at ha; omega
  have : i < a := by omega
  simp only [Witness.εR]
  exact add_lt_add_left (Nat.cast_lt.2 this) 1

/-- For some interaction that is not zero the CCD calculation, with DIIS from pass forty on, and the `CCDQf-1` calculation without DIIS return, and both come
within `1/2^n` of a solution of their equations. -/
example : ∃ c : ℝ, c ≠ 0 ∧ (scaleG c weakR).g_abab 0 1 2 3 ≠ 0 ∧
    (∃ X r, SmallSolution Witness.D "CCD" (scaleG c weakR) X ∧
      calculate Witness.D ⟨"CCD", den_aa Witness.εR, den_bb Witness.εR, den_ab Witness.εR, 40, 1 / 100000000, some 6, 40⟩ (scaleG c weakR) = .ok r ∧
      |block r.st.amps 2 2 3 0 1 - block X 2 2 3 0 1| ≤ 1 / 2 ^ r.log.length) ∧
    (∃ X r, SmallSolution Witness.D "CCDQf-1" (scaleG c weakR) X ∧
      calculate Witness.D ⟨"CCDQf-1", den_aa Witness.εR, den_bb Witness.εR, den_ab Witness.εR, 40, 1 / 100000000, none, 0⟩ (scaleG c weakR) = .ok r ∧
      |block r.st.amps 2 2 3 0 1 - block X 2 2 3 0 1| ≤ 1 / 2 ^ r.log.length) := by
  have hd : DiagonalFock Witness.D Witness.εR weakR := fun _ _ _ _ _ => ⟨rfl, rfl⟩
  obtain ⟨C, h0, h⟩ := C88_calculations Witness.D "CCD" Witness.εR weakR weakR_sym ⟨rfl, rfl, rfl⟩ hd weakR_gap
  obtain ⟨C', h0', h'⟩ := C88_calculations Witness.D "CCDQf-1" Witness.εR weakR weakR_sym ⟨rfl, rfl, rfl⟩ hd weakR_gap
  have hc : |1 / (C + C')| * (C + C') = 1 := by
    rw [abs_of_pos (by positivity)]
    field_simp
  have n := abs_nonneg (1 / (C + C'))
  have hC : |1 / (C + C')| * C ≤ 1 := by nlinarith
  have hC' : |1 / (C + C')| * C' ≤ 1 := by nlinarith
  obtain ⟨X, hX, -, hr⟩ := h _ hC
  obtain ⟨X', hX', -, hr'⟩ := h' _ hC'
  obtain ⟨r, r1, r2, -⟩ := hr ⟨"CCD", den_aa Witness.εR, den_bb Witness.εR, den_ab Witness.εR, 40, 1 / 100000000, some 6, 40⟩ rfl rfl rfl rfl
    (.inr ⟨le_refl 40, by decide +kernel, by decide +kernel⟩) (show 1 ≤ 40 by omega) (show 40 ≤ 76 by omega)
  obtain ⟨r', r1', r2', -⟩ := hr' ⟨"CCDQf-1", den_aa Witness.εR, den_bb Witness.εR, den_ab Witness.εR, 40, 1 / 100000000, none, 0⟩ rfl rfl rfl rfl
    (.inl rfl) (show 1 ≤ 40 by omega) (show 40 ≤ 76 by omega)
  have hne : 1 / (C + C') ≠ 0 := by positivity
  refine ⟨1 / (C + C'), hne, mul_ne_zero hne ?_, ⟨X, r, hX, r1, ?_⟩, ⟨X', r', hX', r1', ?_⟩⟩
  · norm_num [weakR, Witness.csR, Witness.cs, Witness.gab, Witness.z]
  · exact (r2 2 2 (by decide) 3 (by decide) 0 (by decide) 1 (by decide)).trans (div_le_div_of_nonneg_right hC (by positivity))
  · exact (r2' 2 2 (by decide) 3 (by decide) 0 (by decide) 1 (by decide)).trans (div_le_div_of_nonneg_right hC' (by positivity))

end Verif.Props
