import Verif.Ein.Flip
import Verif.Props.SpinCcd

/-!
# Exchange of alpha and beta spin (C34)

`A.flip` are the arrays with the roles of the spins exchanged (`Verif/Ein/Flip.lean`): `A.flip.g_aaaa = A.g_bbbb`,
`A.flip.g_bbbb = A.g_aaaa`, `A.flip.g_abab p q r s = A.g_abab q p s r`, and so on for all arrays.
-/

namespace Verif.Props

open Verif.Ein Verif.UT2

variable {I K : Type} [Field K] [CharZero K] [Inhabited I] (D : Nat → Finset I)

omit [CharZero K] in
theorem soResid_flip (cc_type : String) (A : SI I K) (p q r s : I × Bool) :
    soResid (spinD D) cc_type A.flip.so p q r s =
      soResid (spinD D) cc_type A.so (flipS p) (flipS q) (flipS r) (flipS s) := by
  have e1 : ccd_t2residual (spinD D) A.flip.so p q r s = ccd_t2residual (spinD D) A.so (flipS p) (flipS q) (flipS r) (flipS s) :=
    SI.flip_eval D A 4 Gen.ccd_t2residual (by decide +kernel) (by decide +kernel) [p, q, r, s] rfl
  have e2 : residQf1 (spinD D) A.flip.so p q r s = residQf1 (spinD D) A.so (flipS p) (flipS q) (flipS r) (flipS s) :=
    SI.flip_eval D A 4 Gen.residQf1 (by decide +kernel) (by decide +kernel) [p, q, r, s] rfl
  have e3 : residQf2 (spinD D) A.flip.so p q r s = residQf2 (spinD D) A.so (flipS p) (flipS q) (flipS r) (flipS s) :=
    SI.flip_eval D A 4 Gen.residQf2 (by decide +kernel) (by decide +kernel) [p, q, r, s] rfl
  unfold soResid
  rw [e1, e2, e3]

/-- The residuals with exchanged spins, for CCD, CCDQf-1 and CCDQf-2. -/
theorem C34_residual (cc_type : String) (A : SI I K) (hA : A.Sym) (a b i j : I) :
    resid_aaaa D cc_type A.flip a b i j = resid_bbbb D cc_type A a b i j ∧
    resid_bbbb D cc_type A.flip a b i j = resid_aaaa D cc_type A a b i j ∧
    resid_abab D cc_type A.flip a b i j = resid_abab D cc_type A b a j i := by
  obtain ⟨h1, h2, h3⟩ := resid_so D cc_type A.flip hA.flip a b i j
  obtain ⟨k1, -, k3⟩ := resid_so D cc_type A hA a b i j
  obtain ⟨-, k2, -⟩ := resid_so D cc_type A hA b a j i
  have hs := soResid_anti (spinD D) cc_type A.so hA.so
  refine ⟨?_, ?_, ?_⟩
  · rw [h1, k3, soResid_flip]; simp only [flipS, Bool.not_false]
  · rw [h3, k1, soResid_flip]; simp only [flipS, Bool.not_true]
  · rw [h2, k2, soResid_flip]
    simp only [flipS, Bool.not_true, Bool.not_false]
    rw [hs.first (b, false) (a, true), hs.last _ _ (j, false) (i, true), neg_neg]

/-- The energies do not change. -/
theorem C34_energy (A : SI I K) (hA : A.Sym) :
    ccd_energy_with_spin D A.flip = ccd_energy_with_spin D A ∧ si_energy_pertQf D A.flip = si_energy_pertQf D A := by
  rw [C35_ccd_energy D A hA, C35_ccd_energy D A.flip hA.flip, C35_qf_energy D A hA, C35_qf_energy D A.flip hA.flip]
  exact ⟨SI.flip_eval D A 0 Gen.ccdEnergy (by decide +kernel) (by decide +kernel) [] rfl,
    SI.flip_eval D A 0 Gen.energy_pertQf (by decide +kernel) (by decide +kernel) [] rfl⟩

/-- One iteration with exchanged spins is the exchanged iteration. -/
theorem C34_step (cc_type : String) (daa dbb dab : I → I → I → I → K) (A : SI I K) (hA : A.Sym) :
    iterSi D cc_type dbb daa (fun a b i j => dab b a j i) A.flip = (iterSi D cc_type daa dbb dab A).flip := by
  have h0 : set_l2amps A.flip = (set_l2amps A).flip := rfl
  have hB := set_l2amps_sym A hA
  unfold iterSi
  rw [h0]
  generalize set_l2amps A = B at *
  have r1 : ∀ a b i j, resid_aaaa D cc_type B.flip a b i j = resid_bbbb D cc_type B a b i j :=
    fun a b i j => (C34_residual D cc_type B hB a b i j).1
  have r2 : ∀ a b i j, resid_bbbb D cc_type B.flip a b i j = resid_aaaa D cc_type B a b i j :=
    fun a b i j => (C34_residual D cc_type B hB a b i j).2.1
  have r3 : ∀ a b i j, resid_abab D cc_type B.flip a b i j = resid_abab D cc_type B b a j i :=
    fun a b i j => (C34_residual D cc_type B hB a b i j).2.2
  simp only [residMain, r1, r2, r3]
  simp only [SI.flip]

/-- Exchanging the spins of the input exchanges the spins of every iterate. -/
theorem C34_iterates (cc_type : String) (daa dbb dab : I → I → I → I → K) (haa : Sym4 daa) (hbb : Sym4 dbb)
    (A : SI I K) (hA : A.Sym) (n : Nat) :
    (iterSi D cc_type dbb daa (fun a b i j => dab b a j i))^[n] A.flip = ((iterSi D cc_type daa dbb dab)^[n] A).flip := by
  induction n with
  | zero => rfl
  | succ n ih =>
    rw [Function.iterate_succ_apply', ih, C34_step D cc_type daa dbb dab _ (C33_iterates D cc_type daa dbb dab haa hbb A hA n),
      Function.iterate_succ_apply']

/-- A closed-shell calculation (input the same for both spins) has `t2aa = t2bb` and `t2ab[a,b,i,j] = t2ab[b,a,j,i]`
in every iteration. -/
theorem C34_closed_shell (cc_type : String) (daa dab : I → I → I → I → K) (haa : Sym4 daa)
    (hab : ∀ a b i j, dab b a j i = dab a b i j) (A : SI I K) (hA : A.Sym) (hcs : A.flip = A) (n : Nat) (a b i j : I) :
    ((iterSi D cc_type daa daa dab)^[n] A).t2_aaaa a b i j = ((iterSi D cc_type daa daa dab)^[n] A).t2_bbbb a b i j ∧
    ((iterSi D cc_type daa daa dab)^[n] A).t2_abab a b i j = ((iterSi D cc_type daa daa dab)^[n] A).t2_abab b a j i := by
  have h := C34_iterates D cc_type daa daa dab haa haa A hA n
  have e : (fun a b i j => dab b a j i) = dab := by funext a b i j; exact hab a b i j
  rw [e, hcs] at h
  generalize (iterSi D cc_type daa daa dab)^[n] A = B at *
  constructor
  · conv_lhs => rw [h]
    rfl
  · conv_lhs => rw [h]
    rfl

/-- The concrete arrays made equal for both spins meet the hypotheses. -/
example : ∃ A : SI ℕ ℚ, A.Sym ∧ A.flip = A ∧ A.t2_abab 2 3 0 1 ≠ 0 ∧ ccd_t2_abab Witness.D A 2 3 0 1 ≠ 0 :=
  ⟨Witness.cs, Witness.cs_sym, Witness.cs_flip, by decide +kernel, by decide +kernel⟩

end Verif.Props
