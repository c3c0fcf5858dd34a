import Verif.Ein.Maps
import Verif.Props.SpinCcd

/-!
# Two systems without interaction (C40, C41)

`A` are the arrays of one system with orbitals `I`, `B` those of another one with orbitals `J`; `A.sum B` are the
arrays of both together: `(A.sum B).g (inl p) (inl q) (inl r) (inl s) = A.g p q r s`, the same with `inr` and `B`, and
zero for every entry with orbitals of both (`Verif/Ein/Maps.lean`). `sumD D E` are the orbitals of both.
-/

namespace Verif.Props

open Verif.Ein Verif.UT2

variable {I J K : Type} [Field K] [Inhabited I] [Inhabited J] (D : Nat → Finset I) (E : Nat → Finset J)

/-- The orbitals of a list belong to both systems. -/
def Mixed (l : List (I ⊕ J)) : Prop := (∃ x, .inl x ∈ l) ∧ ∃ y, .inr y ∈ l

omit [Inhabited I] [Inhabited J] in
theorem Mixed.not_same {l : List (I ⊕ J)} (h : Mixed l) : ¬ Same Sum.isLeft l := by
  obtain ⟨⟨x, hx⟩, y, hy⟩ := h
  intro hs
  simpa using hs _ hx _ hy

/-- A function of four orbitals of both systems is made of two functions of one system. -/
structure Splits (F : (I ⊕ J) → (I ⊕ J) → (I ⊕ J) → (I ⊕ J) → K) (f : I → I → I → I → K) (g : J → J → J → J → K) :
    Prop where
  left : ∀ a b i j, F (.inl a) (.inl b) (.inl i) (.inl j) = f a b i j
  right : ∀ a b i j, F (.inr a) (.inr b) (.inr i) (.inr j) = g a b i j
  mixed : ∀ a b i j, Mixed [a, b, i, j] → F a b i j = 0

theorem splits_so (A : SO I K) (B : SO J K) (P : Prog) (hc : P.connected = true) (hP : P.closed 4 = true)
    (hw : P.wf 4 = true) :
    Splits (fun a b i j => P.eval (sumD D E) (A.sum B).T [a, b, i, j]) (fun a b i j => P.eval D A.T [a, b, i, j])
      (fun a b i j => P.eval E B.T [a, b, i, j]) where
  left a b i j := Prog.sum_inl D E _ A.T (SO.sum_T_inl A B) (SO.sum_T_same A B) 4 (by decide) P hc hP [a, b, i, j] rfl
  right a b i j := Prog.sum_inr D E _ B.T (SO.sum_T_inr A B) (SO.sum_T_same A B) 4 (by decide) P hc hP [a, b, i, j] rfl
  mixed a b i j h := Prog.eval_mixed Sum.isLeft _ _ (SO.sum_T_same A B) 4 P hc hP hw [a, b, i, j] rfl h.not_same

theorem splits_si (A : SI I K) (B : SI J K) (P : Prog) (hc : P.connected = true) (hP : P.closed 4 = true)
    (hw : P.wf 4 = true) :
    Splits (fun a b i j => P.eval (sumD D E) (A.sum B).T [a, b, i, j]) (fun a b i j => P.eval D A.T [a, b, i, j])
      (fun a b i j => P.eval E B.T [a, b, i, j]) where
  left a b i j := Prog.sum_inl D E _ A.T (SI.sum_T_inl A B) (SI.sum_T_same A B) 4 (by decide) P hc hP [a, b, i, j] rfl
  right a b i j := Prog.sum_inr D E _ B.T (SI.sum_T_inr A B) (SI.sum_T_same A B) 4 (by decide) P hc hP [a, b, i, j] rfl
  mixed a b i j h := Prog.eval_mixed Sum.isLeft _ _ (SI.sum_T_same A B) 4 P hc hP hw [a, b, i, j] rfl h.not_same

/-! ## C40: CCD -/

/-- The energy of both systems is the sum of their energies (spin-orbital code). -/
theorem C40_energy (A : SO I K) (B : SO J K) :
    ccdEnergy (sumD D E) (A.sum B) = ccdEnergy D A + ccdEnergy E B :=
  Prog.sum_number D E _ A.T B.T (SO.sum_T_inl A B) (SO.sum_T_inr A B) (SO.sum_T_same A B) Gen.ccdEnergy
    (by decide +kernel) (by decide +kernel)

/-- The same for the spin-integrated code. -/
theorem C40_energy_spin (A : SI I K) (B : SI J K) :
    ccd_energy_with_spin (sumD D E) (A.sum B) = ccd_energy_with_spin D A + ccd_energy_with_spin E B :=
  Prog.sum_number D E _ A.T B.T (SI.sum_T_inl A B) (SI.sum_T_inr A B) (SI.sum_T_same A B) Gen.ccd_energy_with_spin
    (by decide +kernel) (by decide +kernel)

/-- The residual of both systems consists of their residuals, with no entries between them. -/
theorem C40_residual (A : SO I K) (B : SO J K) :
    Splits (ccd_t2residual (sumD D E) (A.sum B)) (ccd_t2residual D A) (ccd_t2residual E B) ∧
    Splits (doubles_resLCCDoffset (sumD D E) (A.sum B)) (doubles_resLCCDoffset D A) (doubles_resLCCDoffset E B) :=
  ⟨splits_so D E A B Gen.ccd_t2residual (by decide +kernel) (by decide +kernel) (by decide +kernel),
   splits_so D E A B Gen.doubles_resLCCDoffset (by decide +kernel) (by decide +kernel) (by decide +kernel)⟩

/-- The same for the spin-integrated code. -/
theorem C40_residual_spin (A : SI I K) (B : SI J K) :
    Splits (ccd_t2_aaaa (sumD D E) (A.sum B)) (ccd_t2_aaaa D A) (ccd_t2_aaaa E B) ∧
    Splits (ccd_t2_abab (sumD D E) (A.sum B)) (ccd_t2_abab D A) (ccd_t2_abab E B) ∧
    Splits (ccd_t2_bbbb (sumD D E) (A.sum B)) (ccd_t2_bbbb D A) (ccd_t2_bbbb E B) :=
  ⟨splits_si D E A B Gen.ccd_t2_aaaa (by decide +kernel) (by decide +kernel) (by decide +kernel),
   splits_si D E A B Gen.ccd_t2_abab (by decide +kernel) (by decide +kernel) (by decide +kernel),
   splits_si D E A B Gen.ccd_t2_bbbb (by decide +kernel) (by decide +kernel) (by decide +kernel)⟩

omit [Inhabited I] [Inhabited J] in
/-- Updates of the form `(R + t/d)*d` split, if the residual does. -/
theorem update_splits {F : (I ⊕ J) → (I ⊕ J) → (I ⊕ J) → (I ⊕ J) → K} {f : I → I → I → I → K} {g : J → J → J → J → K}
    (h : Splits F f g) (d : (I ⊕ J) → (I ⊕ J) → (I ⊕ J) → (I ⊕ J) → K) (t : I → I → I → I → K) (u : J → J → J → J → K) :
    (fun a b i j => (F a b i j + (d a b i j)⁻¹ * sum4 t u a b i j) * d a b i j) =
    sum4 (fun a b i j => (f a b i j + (d (.inl a) (.inl b) (.inl i) (.inl j))⁻¹ * t a b i j) *
        d (.inl a) (.inl b) (.inl i) (.inl j))
      (fun a b i j => (g a b i j + (d (.inr a) (.inr b) (.inr i) (.inr j))⁻¹ * u a b i j) *
        d (.inr a) (.inr b) (.inr i) (.inr j)) := by
  funext a b i j
  have hm : Mixed [a, b, i, j] → F a b i j = 0 := h.mixed a b i j
  rcases a with a | a <;> rcases b with b | b <;> rcases i with i | i <;> rcases j with j | j
  · simp only [sum4, h.left]
  case inr.inr.inr.inr => simp only [sum4, h.right]
  all_goals
    rw [hm ⟨by simp, by simp⟩]
    simp [sum4]

/-- The entries of denominators for each system. -/
def dLeft (d : (I ⊕ J) → (I ⊕ J) → (I ⊕ J) → (I ⊕ J) → K) (a b i j : I) : K := d (.inl a) (.inl b) (.inl i) (.inl j)
def dRight (d : (I ⊕ J) → (I ⊕ J) → (I ⊕ J) → (I ⊕ J) → K) (a b i j : J) : K := d (.inr a) (.inr b) (.inr i) (.inr j)

omit [Inhabited I] [Inhabited J] in
theorem sum4_zero (d : (I ⊕ J) → (I ⊕ J) → (I ⊕ J) → (I ⊕ J) → K) (h : ∀ a b i j, d a b i j = 0) :
    d = sum4 (fun _ _ _ _ => 0) (fun _ _ _ _ => 0) := by
  funext a b i j
  rw [h]
  unfold sum4
  split <;> rfl

/-- One pass of the spin-orbital code (CCD, LCCD, pCCD) treats the two systems separately. -/
theorem C40_step [DecidableEq I] [DecidableEq J] (cc_type : String) (d : (I ⊕ J) → (I ⊕ J) → (I ⊕ J) → (I ⊕ J) → K)
    (A : SO I K) (B : SO J K) :
    residMainSlow (sumD D E) cc_type (fun _ _ _ _ _ => 0) d (A.sum B) =
      (residMainSlow D cc_type (fun _ _ _ _ _ => 0) (dLeft d) A).sum
        (residMainSlow E cc_type (fun _ _ _ _ _ => 0) (dRight d) B) := by
  obtain ⟨h1, h2⟩ := C40_residual D E A B
  have hR : Splits (residSlow (sumD D E) cc_type (fun _ _ _ _ _ => 0) (A.sum B))
      (residSlow D cc_type (fun _ _ _ _ _ => 0) A) (residSlow E cc_type (fun _ _ _ _ _ => 0) B) := by
    constructor
    · intro a b i j; simp only [residSlow, h1.left, h2.left]
    · intro a b i j; simp only [residSlow, h1.right, h2.right]
    · intro a b i j h; simp [residSlow, h1.mixed _ _ _ _ h, h2.mixed _ _ _ _ h]
  have hu := update_splits hR d A.t2 B.t2
  simp only [residMainSlow, SO.sum, SO.mk.injEq, true_and, and_true]
  funext a b i j
  have hu' := congrFun (congrFun (congrFun (congrFun hu a) b) i) j
  simp only [SO.sum] at hu'
  rw [hu']
  by_cases hc : cc_type = "pCCD"
  · simp only [if_pos hc]
    rcases a with a | a <;> rcases b with b | b <;> rcases i with i | i <;> rcases j with j | j <;>
      simp [sum4, dLeft, dRight]
  · simp only [if_neg hc]
    rfl

/-- In every iteration the amplitudes of both systems are those of the separate calculations, and the energy is the
sum of the separate energies. -/
theorem C40_iterates [DecidableEq I] [DecidableEq J] (cc_type : String)
    (d : (I ⊕ J) → (I ⊕ J) → (I ⊕ J) → (I ⊕ J) → K) (A : SO I K) (B : SO J K) (n : Nat) :
    (residMainSlow (sumD D E) cc_type (fun _ _ _ _ _ => 0) d)^[n] (A.sum B) =
      ((residMainSlow D cc_type (fun _ _ _ _ _ => 0) (dLeft d))^[n] A).sum
        ((residMainSlow E cc_type (fun _ _ _ _ _ => 0) (dRight d))^[n] B) ∧
    ccdEnergy (sumD D E) ((residMainSlow (sumD D E) cc_type (fun _ _ _ _ _ => 0) d)^[n] (A.sum B)) =
      ccdEnergy D ((residMainSlow D cc_type (fun _ _ _ _ _ => 0) (dLeft d))^[n] A) +
        ccdEnergy E ((residMainSlow E cc_type (fun _ _ _ _ _ => 0) (dRight d))^[n] B) := by
  have h : (residMainSlow (sumD D E) cc_type (fun _ _ _ _ _ => 0) d)^[n] (A.sum B) =
      ((residMainSlow D cc_type (fun _ _ _ _ _ => 0) (dLeft d))^[n] A).sum
        ((residMainSlow E cc_type (fun _ _ _ _ _ => 0) (dRight d))^[n] B) := by
    induction n with
    | zero => rfl
    | succ n ih => rw [Function.iterate_succ_apply', ih, C40_step, Function.iterate_succ_apply',
        Function.iterate_succ_apply']
  exact ⟨h, by rw [h, C40_energy]⟩

/-! ## C41: factorised quadruples -/

/-- The corrections to the residual, spin-orbital and spin-integrated. -/
theorem C41_residual (A : SO I K) (B : SO J K) :
    Splits (residQf1 (sumD D E) (A.sum B)) (residQf1 D A) (residQf1 E B) ∧
    Splits (residQf2 (sumD D E) (A.sum B)) (residQf2 D A) (residQf2 E B) :=
  ⟨splits_so D E A B Gen.residQf1 (by decide +kernel) (by decide +kernel) (by decide +kernel),
   splits_so D E A B Gen.residQf2 (by decide +kernel) (by decide +kernel) (by decide +kernel)⟩

theorem C41_residual_spin (A : SI I K) (B : SI J K) :
    Splits (residQf1_aaaa (sumD D E) (A.sum B)) (residQf1_aaaa D A) (residQf1_aaaa E B) ∧
    Splits (residQf1_abab (sumD D E) (A.sum B)) (residQf1_abab D A) (residQf1_abab E B) ∧
    Splits (residQf1_bbbb (sumD D E) (A.sum B)) (residQf1_bbbb D A) (residQf1_bbbb E B) ∧
    Splits (residQf2_aaaa (sumD D E) (A.sum B)) (residQf2_aaaa D A) (residQf2_aaaa E B) ∧
    Splits (residQf2_abab (sumD D E) (A.sum B)) (residQf2_abab D A) (residQf2_abab E B) ∧
    Splits (residQf2_bbbb (sumD D E) (A.sum B)) (residQf2_bbbb D A) (residQf2_bbbb E B) :=
  ⟨splits_si D E A B Gen.residQf1_aaaa (by decide +kernel) (by decide +kernel) (by decide +kernel),
   splits_si D E A B Gen.residQf1_abab (by decide +kernel) (by decide +kernel) (by decide +kernel),
   splits_si D E A B Gen.residQf1_bbbb (by decide +kernel) (by decide +kernel) (by decide +kernel),
   splits_si D E A B Gen.residQf2_aaaa (by decide +kernel) (by decide +kernel) (by decide +kernel),
   splits_si D E A B Gen.residQf2_abab (by decide +kernel) (by decide +kernel) (by decide +kernel),
   splits_si D E A B Gen.residQf2_bbbb (by decide +kernel) (by decide +kernel) (by decide +kernel)⟩

/-- The (Qf) energy correction. -/
theorem C41_energy (A : SO I K) (B : SO J K) :
    energy_pertQf (sumD D E) (A.sum B) = energy_pertQf D A + energy_pertQf E B :=
  Prog.sum_number D E _ A.T B.T (SO.sum_T_inl A B) (SO.sum_T_inr A B) (SO.sum_T_same A B) Gen.energy_pertQf
    (by decide +kernel) (by decide +kernel)

theorem C41_energy_spin (A : SI I K) (B : SI J K) :
    si_energy_pertQf (sumD D E) (A.sum B) = si_energy_pertQf D A + si_energy_pertQf E B :=
  Prog.sum_number D E _ A.T B.T (SI.sum_T_inl A B) (SI.sum_T_inr A B) (SI.sum_T_same A B) Gen.si_energy_pertQf
    (by decide +kernel) (by decide +kernel)

omit [Inhabited I] [Inhabited J] in
theorem sum4_swap (t : I → I → I → I → K) (u : J → J → J → J → K) (i j a b : I ⊕ J) :
    sum4 t u a b i j = sum4 (fun i j a b => t a b i j) (fun i j a b => u a b i j) i j a b := by
  rcases a with a | a <;> rcases b with b | b <;> rcases i with i | i <;> rcases j with j | j <;> rfl

omit [Inhabited I] [Inhabited J] in
theorem set_l2amps_sum (A : SI I K) (B : SI J K) : set_l2amps (A.sum B) = (set_l2amps A).sum (set_l2amps B) := by
  simp only [set_l2amps, SI.sum, SI.mk.injEq, true_and, and_true]
  refine ⟨?_, ?_, ?_⟩ <;> funext i j a b <;> exact sum4_swap _ _ i j a b

omit [Inhabited I] [Inhabited J] in
theorem Splits.lin {F G H : (I ⊕ J) → (I ⊕ J) → (I ⊕ J) → (I ⊕ J) → K} {f g h : I → I → I → I → K}
    {f' g' h' : J → J → J → J → K} (s1 : Splits F f f') (s2 : Splits G g g') (s3 : Splits H h h') (x y : K) :
    Splits (fun a b i j => F a b i j + x * G a b i j + y * H a b i j)
      (fun a b i j => f a b i j + x * g a b i j + y * h a b i j)
      (fun a b i j => f' a b i j + x * g' a b i j + y * h' a b i j) where
  left a b i j := by simp only [s1.left, s2.left, s3.left]
  right a b i j := by simp only [s1.right, s2.right, s3.right]
  mixed a b i j h := by simp [s1.mixed _ _ _ _ h, s2.mixed _ _ _ _ h, s3.mixed _ _ _ _ h]

/-- One iteration of the spin-integrated code (CCD, CCDQf-1, CCDQf-2) treats the two systems separately. -/
theorem C41_step (cc_type : String) (daa dbb dab : (I ⊕ J) → (I ⊕ J) → (I ⊕ J) → (I ⊕ J) → K)
    (A : SI I K) (B : SI J K) :
    iterSi (sumD D E) cc_type daa dbb dab (A.sum B) =
      (iterSi D cc_type (dLeft daa) (dLeft dbb) (dLeft dab) A).sum
        (iterSi E cc_type (dRight daa) (dRight dbb) (dRight dab) B) := by
  unfold iterSi
  rw [set_l2amps_sum]
  generalize set_l2amps A = A
  generalize set_l2amps B = B
  obtain ⟨c1, c2, c3⟩ := C40_residual_spin D E A B
  obtain ⟨q1, q2, q3, q4, q5, q6⟩ := C41_residual_spin D E A B
  have haa := update_splits (c1.lin q1 q4 ((qfWeights cc_type).1 : K) ((qfWeights cc_type).2 : K)) daa A.t2_aaaa B.t2_aaaa
  have hab := update_splits (c2.lin q2 q5 ((qfWeights cc_type).1 : K) ((qfWeights cc_type).2 : K)) dab A.t2_abab B.t2_abab
  have hbb := update_splits (c3.lin q3 q6 ((qfWeights cc_type).1 : K) ((qfWeights cc_type).2 : K)) dbb A.t2_bbbb B.t2_bbbb
  simp only [residMain, SI.sum, SI.mk.injEq, true_and, and_true]
  exact ⟨haa, hab, hbb⟩

/-- In every iteration of a CCD, CCDQf-1 or CCDQf-2 calculation the amplitudes of both systems are those of the
separate calculations; the energy and the (Qf) correction are the sums of the separate ones. -/
theorem C41_iterates (cc_type : String) (daa dbb dab : (I ⊕ J) → (I ⊕ J) → (I ⊕ J) → (I ⊕ J) → K)
    (A : SI I K) (B : SI J K) (n : Nat) :
    ∃ A' B', A' = (iterSi D cc_type (dLeft daa) (dLeft dbb) (dLeft dab))^[n] A ∧
      B' = (iterSi E cc_type (dRight daa) (dRight dbb) (dRight dab))^[n] B ∧
      (iterSi (sumD D E) cc_type daa dbb dab)^[n] (A.sum B) = A'.sum B' ∧
      ccd_energy_with_spin (sumD D E) ((iterSi (sumD D E) cc_type daa dbb dab)^[n] (A.sum B)) =
        ccd_energy_with_spin D A' + ccd_energy_with_spin E B' ∧
      si_energy_pertQf (sumD D E) (set_l2amps ((iterSi (sumD D E) cc_type daa dbb dab)^[n] (A.sum B))) =
        si_energy_pertQf D (set_l2amps A') + si_energy_pertQf E (set_l2amps B') := by
  have h : (iterSi (sumD D E) cc_type daa dbb dab)^[n] (A.sum B) =
      ((iterSi D cc_type (dLeft daa) (dLeft dbb) (dLeft dab))^[n] A).sum
        ((iterSi E cc_type (dRight daa) (dRight dbb) (dRight dab))^[n] B) := by
    induction n with
    | zero => rfl
    | succ n ih => rw [Function.iterate_succ_apply', ih, C41_step, Function.iterate_succ_apply',
        Function.iterate_succ_apply']
  exact ⟨_, _, rfl, rfl, h, by rw [h, C40_energy_spin], by rw [h, set_l2amps_sum, C41_energy_spin]⟩

/-- Two copies of the concrete system: the energies and the correction are not zero. -/
example : ccdEnergy (sumD Witness.D Witness.D) (Witness.so.sum Witness.so) ≠ 0 ∧
    si_energy_pertQf (sumD Witness.D Witness.D) (Witness.si.sum Witness.si) = 2 * si_energy_pertQf Witness.D Witness.si := by
  refine ⟨?_, ?_⟩
  · rw [C40_energy]; decide +kernel
  · rw [C41_energy_spin]; ring

end Verif.Props
