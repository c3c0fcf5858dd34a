import Verif.Ein.ChargeArrays
import Verif.Model.Resid
import Verif.Lemmas.Witness
import Verif.Fn.All

/-!
# Selection rules (C67)

Written by `tools/charge.py`. If the integrals and amplitudes conserve a charge, so do the results of all functions: an
element is zero unless the charges of its orbitals balance.
-/

namespace Verif.Props

open Verif.Ein Verif.UT2

variable {I K G : Type} [Field K] [AddCommGroup G] [Inhabited I] (D : Nat → Finset I)

theorem select2_so {κ : I → G} {A : SO I K} (hA : A.Conserves κ) (P : Prog) (hP : P.conserves SO.col [0, 0] = true)
    (x0 x1 : I) (h : P.eval D A.T [x0, x1] ≠ 0) : κ x0 = κ x1 := by
  simpa [ColBalanced, colSum, half1, half2, add_assoc] using Prog.eval_col (fun _ => κ) D SO.col A.T hA.T _ P hP [x0, x1] rfl h

theorem select2_si {κa κb : I → G} {A : SI I K} (hA : A.Conserves κa κb) (P : Prog) (c0 c1 : Nat)
    (hP : P.conserves SI.col [c0, c1] = true) (x0 x1 : I) (h : P.eval D A.T [x0, x1] ≠ 0) :
    spinQ κa κb c0 x0 = spinQ κa κb c1 x1 := by
  simpa [ColBalanced, colSum, half1, half2, add_assoc] using Prog.eval_col (spinQ κa κb) D SI.col A.T hA.T _ P hP [x0, x1] rfl h

theorem select4_so {κ : I → G} {A : SO I K} (hA : A.Conserves κ) (P : Prog) (hP : P.conserves SO.col [0, 0, 0, 0] = true)
    (x0 x1 x2 x3 : I) (h : P.eval D A.T [x0, x1, x2, x3] ≠ 0) : κ x0 + κ x1 = κ x2 + κ x3 := by
  simpa [ColBalanced, colSum, half1, half2, add_assoc] using Prog.eval_col (fun _ => κ) D SO.col A.T hA.T _ P hP [x0, x1, x2, x3] rfl h

theorem select4_si {κa κb : I → G} {A : SI I K} (hA : A.Conserves κa κb) (P : Prog) (c0 c1 c2 c3 : Nat)
    (hP : P.conserves SI.col [c0, c1, c2, c3] = true) (x0 x1 x2 x3 : I) (h : P.eval D A.T [x0, x1, x2, x3] ≠ 0) :
    spinQ κa κb c0 x0 + spinQ κa κb c1 x1 = spinQ κa κb c2 x2 + spinQ κa κb c3 x3 := by
  simpa [ColBalanced, colSum, half1, half2, add_assoc] using Prog.eval_col (spinQ κa κb) D SI.col A.T hA.T _ P hP [x0, x1, x2, x3] rfl h

theorem select6_so {κ : I → G} {A : SO I K} (hA : A.Conserves κ) (P : Prog) (hP : P.conserves SO.col [0, 0, 0, 0, 0, 0] = true)
    (x0 x1 x2 x3 x4 x5 : I) (h : P.eval D A.T [x0, x1, x2, x3, x4, x5] ≠ 0) : κ x0 + κ x1 + κ x2 = κ x3 + κ x4 + κ x5 := by
  simpa [ColBalanced, colSum, half1, half2, add_assoc] using Prog.eval_col (fun _ => κ) D SO.col A.T hA.T _ P hP [x0, x1, x2, x3, x4, x5] rfl h

theorem select6_si {κa κb : I → G} {A : SI I K} (hA : A.Conserves κa κb) (P : Prog) (c0 c1 c2 c3 c4 c5 : Nat)
    (hP : P.conserves SI.col [c0, c1, c2, c3, c4, c5] = true) (x0 x1 x2 x3 x4 x5 : I) (h : P.eval D A.T [x0, x1, x2, x3, x4, x5] ≠ 0) :
    spinQ κa κb c0 x0 + spinQ κa κb c1 x1 + spinQ κa κb c2 x2 = spinQ κa κb c3 x3 + spinQ κa κb c4 x4 + spinQ κa κb c5 x5 := by
  simpa [ColBalanced, colSum, half1, half2, add_assoc] using Prog.eval_col (spinQ κa κb) D SI.col A.T hA.T _ P hP [x0, x1, x2, x3, x4, x5] rfl h

theorem select8_so {κ : I → G} {A : SO I K} (hA : A.Conserves κ) (P : Prog) (hP : P.conserves SO.col [0, 0, 0, 0, 0, 0, 0, 0] = true)
    (x0 x1 x2 x3 x4 x5 x6 x7 : I) (h : P.eval D A.T [x0, x1, x2, x3, x4, x5, x6, x7] ≠ 0) : κ x0 + κ x1 + κ x2 + κ x3 = κ x4 + κ x5 + κ x6 + κ x7 := by
  simpa [ColBalanced, colSum, half1, half2, add_assoc] using Prog.eval_col (fun _ => κ) D SO.col A.T hA.T _ P hP [x0, x1, x2, x3, x4, x5, x6, x7] rfl h

theorem select8_si {κa κb : I → G} {A : SI I K} (hA : A.Conserves κa κb) (P : Prog) (c0 c1 c2 c3 c4 c5 c6 c7 : Nat)
    (hP : P.conserves SI.col [c0, c1, c2, c3, c4, c5, c6, c7] = true) (x0 x1 x2 x3 x4 x5 x6 x7 : I) (h : P.eval D A.T [x0, x1, x2, x3, x4, x5, x6, x7] ≠ 0) :
    spinQ κa κb c0 x0 + spinQ κa κb c1 x1 + spinQ κa κb c2 x2 + spinQ κa κb c3 x3 = spinQ κa κb c4 x4 + spinQ κa κb c5 x5 + spinQ κa κb c6 x6 + spinQ κa κb c7 x7 := by
  simpa [ColBalanced, colSum, half1, half2, add_assoc] using Prog.eval_col (spinQ κa κb) D SI.col A.T hA.T _ P hP [x0, x1, x2, x3, x4, x5, x6, x7] rfl h

/-- CCD: an element is zero unless the charges of its orbitals balance. -/
theorem C67_ccd {κ : I → G} {A : SO I K} (hA : A.Conserves κ) :
    (∀ a b i j, ccd_t2residual D A a b i j ≠ 0 → κ a + κ b = κ i + κ j) ∧
    (∀ a b i j, doubles_resLCCDoffset D A a b i j ≠ 0 → κ a + κ b = κ i + κ j) :=
  ⟨select4_so D hA Gen.ccd_t2residual (by decide +kernel),
   select4_so D hA Gen.doubles_resLCCDoffset (by decide +kernel)⟩

/-- Factorised quadruples: an element is zero unless the charges of its orbitals balance. -/
theorem C67_qf {κ : I → G} {A : SO I K} (hA : A.Conserves κ) :
    (∀ a b i j, residQf1 D A a b i j ≠ 0 → κ a + κ b = κ i + κ j) ∧
    (∀ a b i j, residQf2 D A a b i j ≠ 0 → κ a + κ b = κ i + κ j) :=
  ⟨select4_so D hA Gen.residQf1 (by decide +kernel),
   select4_so D hA Gen.residQf2 (by decide +kernel)⟩

/-- Spin-integrated CCD: an element is zero unless the charges of its orbitals balance. -/
theorem C67_spin_ccd {κa κb : I → G} {A : SI I K} (hA : A.Conserves κa κb) :
    (∀ a b i j, ccd_t2_aaaa D A a b i j ≠ 0 → κa a + κa b = κa i + κa j) ∧
    (∀ a b i j, ccd_t2_abab D A a b i j ≠ 0 → κa a + κb b = κa i + κb j) ∧
    (∀ a b i j, ccd_t2_bbbb D A a b i j ≠ 0 → κb a + κb b = κb i + κb j) :=
  ⟨select4_si D hA Gen.ccd_t2_aaaa 0 0 0 0 (by decide +kernel),
   select4_si D hA Gen.ccd_t2_abab 0 1 0 1 (by decide +kernel),
   select4_si D hA Gen.ccd_t2_bbbb 1 1 1 1 (by decide +kernel)⟩

/-- Spin-integrated factorised quadruples: an element is zero unless the charges of its orbitals balance. -/
theorem C67_spin_qf {κa κb : I → G} {A : SI I K} (hA : A.Conserves κa κb) :
    (∀ a b i j, residQf1_aaaa D A a b i j ≠ 0 → κa a + κa b = κa i + κa j) ∧
    (∀ a b i j, residQf1_abab D A a b i j ≠ 0 → κa a + κb b = κa i + κb j) ∧
    (∀ a b i j, residQf1_bbbb D A a b i j ≠ 0 → κb a + κb b = κb i + κb j) ∧
    (∀ a b i j, residQf2_aaaa D A a b i j ≠ 0 → κa a + κa b = κa i + κa j) ∧
    (∀ a b i j, residQf2_abab D A a b i j ≠ 0 → κa a + κb b = κa i + κb j) ∧
    (∀ a b i j, residQf2_bbbb D A a b i j ≠ 0 → κb a + κb b = κb i + κb j) :=
  ⟨select4_si D hA Gen.residQf1_aaaa 0 0 0 0 (by decide +kernel),
   select4_si D hA Gen.residQf1_abab 0 1 0 1 (by decide +kernel),
   select4_si D hA Gen.residQf1_bbbb 1 1 1 1 (by decide +kernel),
   select4_si D hA Gen.residQf2_aaaa 0 0 0 0 (by decide +kernel),
   select4_si D hA Gen.residQf2_abab 0 1 0 1 (by decide +kernel),
   select4_si D hA Gen.residQf2_bbbb 1 1 1 1 (by decide +kernel)⟩

/-- CCSD: an element is zero unless the charges of its orbitals balance. -/
theorem C67_ccsd {κ : I → G} {A : SO I K} (hA : A.Conserves κ) :
    (∀ i a, ccsd_t1resid D A i a ≠ 0 → κ i = κ a) ∧
    (∀ i j a b, ccsd_t2resid D A i j a b ≠ 0 → κ i + κ j = κ a + κ b) :=
  ⟨select2_so D hA Gen.ccsd_t1resid (by decide +kernel),
   select4_so D hA Gen.ccsd_t2resid (by decide +kernel)⟩

/-- CCSDT: an element is zero unless the charges of its orbitals balance. -/
theorem C67_ccsdt {κ : I → G} {A : SO I K} (hA : A.Conserves κ) :
    (∀ i a, ccsdt_t1eqns D A i a ≠ 0 → κ i = κ a) ∧
    (∀ i j a b, ccsdt_t2eqns D A i j a b ≠ 0 → κ i + κ j = κ a + κ b) ∧
    (∀ i j k a b c, ccsdt_t3eqns D A i j k a b c ≠ 0 → κ i + κ j + κ k = κ a + κ b + κ c) :=
  ⟨select2_so D hA Gen.ccsdt_t1eqns (by decide +kernel),
   select4_so D hA Gen.ccsdt_t2eqns (by decide +kernel),
   select6_so D hA Gen.ccsdt_t3eqns (by decide +kernel)⟩

/-- CCDQ: an element is zero unless the charges of its orbitals balance. -/
theorem C67_ccdq {κ : I → G} {A : SO I K} (hA : A.Conserves κ) :
    (∀ i j a b, ccdq_t2eqns D A i j a b ≠ 0 → κ i + κ j = κ a + κ b) ∧
    (∀ i j k l a b c d, ccdq_t4eqns D A i j k l a b c d ≠ 0 → κ i + κ j + κ k + κ l = κ a + κ b + κ c + κ d) :=
  ⟨select4_so D hA Gen.ccdq_t2eqns (by decide +kernel),
   select8_so D hA Gen.ccdq_t4eqns (by decide +kernel)⟩

/-- Perturbative triples: an element is zero unless the charges of its orbitals balance. -/
theorem C67_triples {κ : I → G} {A : SO I K} (hA : A.Conserves κ) :
    (∀ a b c i j k, build_T3 D A a b c i j k ≠ 0 → κ a + κ b + κ c = κ i + κ j + κ k) ∧
    (∀ a b c i j k, fifthOrder_capA D A a b c i j k ≠ 0 → κ a + κ b + κ c = κ i + κ j + κ k) ∧
    (∀ i j k a b c, build_T3_thirdO D A i j k a b c ≠ 0 → κ i + κ j + κ k = κ a + κ b + κ c) ∧
    (∀ i j k a b c, build_T3_secondO D A i j k a b c ≠ 0 → κ i + κ j + κ k = κ a + κ b + κ c) ∧
    (∀ i j a b, build_netT2 D A i j a b ≠ 0 → κ i + κ j = κ a + κ b) ∧
    (∀ i a, get_netT1_fromT2 D A i a ≠ 0 → κ i = κ a) ∧
    (∀ i a, get_netT1_thirdO D A i a ≠ 0 → κ i = κ a) ∧
    (∀ i j a b, get_T2resid_fromT1bar D A i j a b ≠ 0 → κ i + κ j = κ a + κ b) ∧
    (∀ a b c i j k, fifthOrder_capC D A a b c i j k ≠ 0 → κ a + κ b + κ c = κ i + κ j + κ k) :=
  ⟨select6_so D hA Gen.build_T3 (by decide +kernel),
   select6_so D hA Gen.fifthOrder_capA (by decide +kernel),
   select6_so D hA Gen.build_T3_thirdO (by decide +kernel),
   select6_so D hA Gen.build_T3_secondO (by decide +kernel),
   select4_so D hA Gen.build_netT2 (by decide +kernel),
   select2_so D hA Gen.get_netT1_fromT2 (by decide +kernel),
   select2_so D hA Gen.get_netT1_thirdO (by decide +kernel),
   select4_so D hA Gen.get_T2resid_fromT1bar (by decide +kernel),
   select6_so D hA Gen.fifthOrder_capC (by decide +kernel)⟩

/-- UCC(4): an element is zero unless the charges of its orbitals balance. -/
theorem C67_ucc4 {κ : I → G} {A : SO I K} (hA : A.Conserves κ) :
    (∀ a i, t1_residEqns D A a i ≠ 0 → κ a = κ i) ∧
    (∀ a b c i j k, t3_resid D A a b c i j k ≠ 0 → κ a + κ b + κ c = κ i + κ j + κ k) ∧
    (∀ a b i j, offset_t2resid_t2squared D A a b i j ≠ 0 → κ a + κ b = κ i + κ j) ∧
    (∀ a b i j, offset_t2resid_t2dag_w_t2 D A a b i j ≠ 0 → κ a + κ b = κ i + κ j) ∧
    (∀ a b i j, offset_t2resid_T1_T3 D A a b i j ≠ 0 → κ a + κ b = κ i + κ j) :=
  ⟨select2_so D hA Gen.t1_residEqns (by decide +kernel),
   select6_so D hA Gen.t3_resid (by decide +kernel),
   select4_so D hA Gen.offset_t2resid_t2squared (by decide +kernel),
   select4_so D hA Gen.offset_t2resid_t2dag_w_t2 (by decide +kernel),
   select4_so D hA Gen.offset_t2resid_T1_T3 (by decide +kernel)⟩

/-- Quadruples residuals and their corrections: an element is zero unless the charges of its orbitals balance. -/
theorem C67_quadruples {κ : I → G} {A : SO I K} (hA : A.Conserves κ) :
    (∀ a b c d i j k l, unsym_residQf1 D A a b c d i j k l ≠ 0 → κ a + κ b + κ c + κ d = κ i + κ j + κ k + κ l) ∧
    (∀ a b c d i j k l, unsym_residQf2 D A a b c d i j k l ≠ 0 → κ a + κ b + κ c + κ d = κ i + κ j + κ k + κ l) ∧
    (∀ i j a b, optWnT3 D A i j a b ≠ 0 → κ i + κ j = κ a + κ b) ∧
    (∀ i j a b, optWnT2sqr D A i j a b ≠ 0 → κ i + κ j = κ a + κ b) ∧
    (∀ i j a b, T3portion_Qf D A i j a b ≠ 0 → κ i + κ j = κ a + κ b) ∧
    (∀ i j k a b c, build_approxT3 D A i j k a b c ≠ 0 → κ i + κ j + κ k = κ a + κ b + κ c) ∧
    (∀ i j k l a b c d, wnT2T3_toT4 D A i j k l a b c d ≠ 0 → κ i + κ j + κ k + κ l = κ a + κ b + κ c + κ d) ∧
    (∀ i j k l a b c d, wnT2cubed_toT4 D A i j k l a b c d ≠ 0 → κ i + κ j + κ k + κ l = κ a + κ b + κ c + κ d) ∧
    (∀ i j a b, wnT2cubed_toT2 D A i j a b ≠ 0 → κ i + κ j = κ a + κ b) ∧
    (∀ i j a b, wnT2T3_toT2 D A i j a b ≠ 0 → κ i + κ j = κ a + κ b) ∧
    (∀ a b c d i j k l, t4_test_residual D A a b c d i j k l ≠ 0 → κ a + κ b + κ c + κ d = κ i + κ j + κ k + κ l) ∧
    (∀ a b c d i j k l, t4_test_residual_oo D A a b c d i j k l ≠ 0 → κ a + κ b + κ c + κ d = κ i + κ j + κ k + κ l) :=
  ⟨select8_so D hA Gen.unsym_residQf1 (by decide +kernel),
   select8_so D hA Gen.unsym_residQf2 (by decide +kernel),
   select4_so D hA Gen.optWnT3 (by decide +kernel),
   select4_so D hA Gen.optWnT2sqr (by decide +kernel),
   select4_so D hA Gen.T3portion_Qf (by decide +kernel),
   select6_so D hA Gen.build_approxT3 (by decide +kernel),
   select8_so D hA Gen.wnT2T3_toT4 (by decide +kernel),
   select8_so D hA Gen.wnT2cubed_toT4 (by decide +kernel),
   select4_so D hA Gen.wnT2cubed_toT2 (by decide +kernel),
   select4_so D hA Gen.wnT2T3_toT2 (by decide +kernel),
   select8_so D hA Gen.t4_test_residual (by decide +kernel),
   select8_so D hA Gen.t4_test_residual_oo (by decide +kernel)⟩

/-- XCCD: an element is zero unless the charges of its orbitals balance. -/
theorem C67_xccd {κ : I → G} {A : SO I K} (hA : A.Conserves κ) :
    (∀ i j k l a b c d, xccd5_quad D A i j k l a b c d ≠ 0 → κ i + κ j + κ k + κ l = κ a + κ b + κ c + κ d) ∧
    (∀ i j k l a b c d, xccd6_quad D A i j k l a b c d ≠ 0 → κ i + κ j + κ k + κ l = κ a + κ b + κ c + κ d) ∧
    (∀ i j k l a b c d, get_xcc7residual D A i j k l a b c d ≠ 0 → κ i + κ j + κ k + κ l = κ a + κ b + κ c + κ d) ∧
    (∀ i j k l a b c d, get_xcc8residual D A i j k l a b c d ≠ 0 → κ i + κ j + κ k + κ l = κ a + κ b + κ c + κ d) ∧
    (∀ i j k l a b c d, get_xcc9residual D A i j k l a b c d ≠ 0 → κ i + κ j + κ k + κ l = κ a + κ b + κ c + κ d) :=
  ⟨select8_so D hA Gen.xccd5_quad (by decide +kernel),
   select8_so D hA Gen.xccd6_quad (by decide +kernel),
   select8_so D hA Gen.get_xcc7residual (by decide +kernel),
   select8_so D hA Gen.get_xcc8residual (by decide +kernel),
   select8_so D hA Gen.get_xcc9residual (by decide +kernel)⟩

/-- Spin-integrated CCSDT: an element is zero unless the charges of its orbitals balance. -/
theorem C67_spin_ccsdt {κa κb : I → G} {A : SI I K} (hA : A.Conserves κa κb) :
    (∀ a i, ccsdt_t1_aa D A a i ≠ 0 → κa a = κa i) ∧
    (∀ a i, ccsdt_t1_bb D A a i ≠ 0 → κb a = κb i) ∧
    (∀ a b i j, ccsdt_t2_aaaa D A a b i j ≠ 0 → κa a + κa b = κa i + κa j) ∧
    (∀ a b i j, ccsdt_t2_bbbb D A a b i j ≠ 0 → κb a + κb b = κb i + κb j) ∧
    (∀ a b i j, ccsdt_t2_abab D A a b i j ≠ 0 → κa a + κb b = κa i + κb j) ∧
    (∀ a b c i j k, ccsdt_t3_aaaaaa D A a b c i j k ≠ 0 → κa a + κa b + κa c = κa i + κa j + κa k) ∧
    (∀ a b c i j k, ccsdt_t3_aabaab D A a b c i j k ≠ 0 → κa a + κa b + κb c = κa i + κa j + κb k) ∧
    (∀ a b c i j k, ccsdt_t3_abbabb D A a b c i j k ≠ 0 → κa a + κb b + κb c = κa i + κb j + κb k) ∧
    (∀ a b c i j k, ccsdt_t3_bbbbbb D A a b c i j k ≠ 0 → κb a + κb b + κb c = κb i + κb j + κb k) :=
  ⟨select2_si D hA Gen.ccsdt_t1_aa 0 0 (by decide +kernel),
   select2_si D hA Gen.ccsdt_t1_bb 1 1 (by decide +kernel),
   select4_si D hA Gen.ccsdt_t2_aaaa 0 0 0 0 (by decide +kernel),
   select4_si D hA Gen.ccsdt_t2_bbbb 1 1 1 1 (by decide +kernel),
   select4_si D hA Gen.ccsdt_t2_abab 0 1 0 1 (by decide +kernel),
   select6_si D hA Gen.ccsdt_t3_aaaaaa 0 0 0 0 0 0 (by decide +kernel),
   select6_si D hA Gen.ccsdt_t3_aabaab 0 0 1 0 0 1 (by decide +kernel),
   select6_si D hA Gen.ccsdt_t3_abbabb 0 1 1 0 1 1 (by decide +kernel),
   select6_si D hA Gen.ccsdt_t3_bbbbbb 1 1 1 1 1 1 (by decide +kernel)⟩

/-- Spin-integrated CCDQ: an element is zero unless the charges of its orbitals balance. -/
theorem C67_spin_ccdq {κa κb : I → G} {A : SI I K} (hA : A.Conserves κa κb) :
    (∀ a b i j, ccdq_t2_aaaa D A a b i j ≠ 0 → κa a + κa b = κa i + κa j) ∧
    (∀ a b i j, ccdq_t2_bbbb D A a b i j ≠ 0 → κb a + κb b = κb i + κb j) ∧
    (∀ a b i j, ccdq_t2_abab D A a b i j ≠ 0 → κa a + κb b = κa i + κb j) ∧
    (∀ a b c d i j k l, ccdq_t4_aaaaaaaa D A a b c d i j k l ≠ 0 → κa a + κa b + κa c + κa d = κa i + κa j + κa k + κa l) ∧
    (∀ a b c d i j k l, ccdq_t4_aaabaaab D A a b c d i j k l ≠ 0 → κa a + κa b + κa c + κb d = κa i + κa j + κa k + κb l) ∧
    (∀ a b c d i j k l, ccdq_t4_aabbaabb D A a b c d i j k l ≠ 0 → κa a + κa b + κb c + κb d = κa i + κa j + κb k + κb l) ∧
    (∀ a b c d i j k l, ccdq_t4_abbbabbb D A a b c d i j k l ≠ 0 → κa a + κb b + κb c + κb d = κa i + κb j + κb k + κb l) ∧
    (∀ a b c d i j k l, ccdq_t4_bbbbbbbb D A a b c d i j k l ≠ 0 → κb a + κb b + κb c + κb d = κb i + κb j + κb k + κb l) :=
  ⟨select4_si D hA Gen.ccdq_t2_aaaa 0 0 0 0 (by decide +kernel),
   select4_si D hA Gen.ccdq_t2_bbbb 1 1 1 1 (by decide +kernel),
   select4_si D hA Gen.ccdq_t2_abab 0 1 0 1 (by decide +kernel),
   select8_si D hA Gen.ccdq_t4_aaaaaaaa 0 0 0 0 0 0 0 0 (by decide +kernel),
   select8_si D hA Gen.ccdq_t4_aaabaaab 0 0 0 1 0 0 0 1 (by decide +kernel),
   select8_si D hA Gen.ccdq_t4_aabbaabb 0 0 1 1 0 0 1 1 (by decide +kernel),
   select8_si D hA Gen.ccdq_t4_abbbabbb 0 1 1 1 0 1 1 1 (by decide +kernel),
   select8_si D hA Gen.ccdq_t4_bbbbbbbb 1 1 1 1 1 1 1 1 (by decide +kernel)⟩

/-- Spin-integrated perturbative corrections: an element is zero unless the charges of its orbitals balance. -/
theorem C67_spin_pert {κa κb : I → G} {A : SI I K} (hA : A.Conserves κa κb) :
    (∀ a b c i j k, approxT3_aaaaaa D A a b c i j k ≠ 0 → κa a + κa b + κa c = κa i + κa j + κa k) ∧
    (∀ a b c i j k, approxT3_aabaab D A a b c i j k ≠ 0 → κa a + κa b + κb c = κa i + κa j + κb k) ∧
    (∀ a b c i j k, approxT3_abbabb D A a b c i j k ≠ 0 → κa a + κb b + κb c = κa i + κb j + κb k) ∧
    (∀ a b c i j k, approxT3_bbbbbb D A a b c i j k ≠ 0 → κb a + κb b + κb c = κb i + κb j + κb k) ∧
    (∀ a b i j, test_t2_aaaa D A a b i j ≠ 0 → κa a + κa b = κa i + κa j) ∧
    (∀ a b i j, test_t2_abab D A a b i j ≠ 0 → κa a + κb b = κa i + κb j) ∧
    (∀ a b i j, test_t2_bbbb D A a b i j ≠ 0 → κb a + κb b = κb i + κb j) :=
  ⟨select6_si D hA Gen.approxT3_aaaaaa 0 0 0 0 0 0 (by decide +kernel),
   select6_si D hA Gen.approxT3_aabaab 0 0 1 0 0 1 (by decide +kernel),
   select6_si D hA Gen.approxT3_abbabb 0 1 1 0 1 1 (by decide +kernel),
   select6_si D hA Gen.approxT3_bbbbbb 1 1 1 1 1 1 (by decide +kernel),
   select4_si D hA Gen.test_t2_aaaa 0 0 0 0 (by decide +kernel),
   select4_si D hA Gen.test_t2_abab 0 1 0 1 (by decide +kernel),
   select4_si D hA Gen.test_t2_bbbb 1 1 1 1 (by decide +kernel)⟩

/-- Spin-integrated quadruples from doubles: an element is zero unless the charges of its orbitals balance. -/
theorem C67_spin_t4 {κa κb : I → G} {A : SI I K} (hA : A.Conserves κa κb) :
    (∀ a b c d i j k l, ccsdtq_t4_aaaaaaaa D A a b c d i j k l ≠ 0 → κa a + κa b + κa c + κa d = κa i + κa j + κa k + κa l) ∧
    (∀ a b c d i j k l, ccsdtq_t4_aaabaaab D A a b c d i j k l ≠ 0 → κa a + κa b + κa c + κb d = κa i + κa j + κa k + κb l) ∧
    (∀ a b c d i j k l, ccsdtq_t4_aabbaabb D A a b c d i j k l ≠ 0 → κa a + κa b + κb c + κb d = κa i + κa j + κb k + κb l) ∧
    (∀ a b c d i j k l, ccsdtq_t4_abbbabbb D A a b c d i j k l ≠ 0 → κa a + κb b + κb c + κb d = κa i + κb j + κb k + κb l) ∧
    (∀ a b c d i j k l, ccsdtq_t4_bbbbbbbb D A a b c d i j k l ≠ 0 → κb a + κb b + κb c + κb d = κb i + κb j + κb k + κb l) ∧
    (∀ a b c d i j k l, ccsdtqT2cubed_t4_aaaaaaaa D A a b c d i j k l ≠ 0 → κa a + κa b + κa c + κa d = κa i + κa j + κa k + κa l) ∧
    (∀ a b c d i j k l, ccsdtqT2cubed_t4_aaabaaab D A a b c d i j k l ≠ 0 → κa a + κa b + κa c + κb d = κa i + κa j + κa k + κb l) ∧
    (∀ a b c d i j k l, ccsdtqT2cubed_t4_aabbaabb D A a b c d i j k l ≠ 0 → κa a + κa b + κb c + κb d = κa i + κa j + κb k + κb l) ∧
    (∀ a b c d i j k l, ccsdtqT2cubed_t4_abbbabbb D A a b c d i j k l ≠ 0 → κa a + κb b + κb c + κb d = κa i + κb j + κb k + κb l) ∧
    (∀ a b c d i j k l, ccsdtqT2cubed_t4_bbbbbbbb D A a b c d i j k l ≠ 0 → κb a + κb b + κb c + κb d = κb i + κb j + κb k + κb l) :=
  ⟨select8_si D hA Gen.ccsdtq_t4_aaaaaaaa 0 0 0 0 0 0 0 0 (by decide +kernel),
   select8_si D hA Gen.ccsdtq_t4_aaabaaab 0 0 0 1 0 0 0 1 (by decide +kernel),
   select8_si D hA Gen.ccsdtq_t4_aabbaabb 0 0 1 1 0 0 1 1 (by decide +kernel),
   select8_si D hA Gen.ccsdtq_t4_abbbabbb 0 1 1 1 0 1 1 1 (by decide +kernel),
   select8_si D hA Gen.ccsdtq_t4_bbbbbbbb 1 1 1 1 1 1 1 1 (by decide +kernel),
   select8_si D hA Gen.ccsdtqT2cubed_t4_aaaaaaaa 0 0 0 0 0 0 0 0 (by decide +kernel),
   select8_si D hA Gen.ccsdtqT2cubed_t4_aaabaaab 0 0 0 1 0 0 0 1 (by decide +kernel),
   select8_si D hA Gen.ccsdtqT2cubed_t4_aabbaabb 0 0 1 1 0 0 1 1 (by decide +kernel),
   select8_si D hA Gen.ccsdtqT2cubed_t4_abbbabbb 0 1 1 1 0 1 1 1 (by decide +kernel),
   select8_si D hA Gen.ccsdtqT2cubed_t4_bbbbbbbb 1 1 1 1 1 1 1 1 (by decide +kernel)⟩

omit [Inhabited I] in
/-- Sums and scalings of quantities that vanish for unbalanced charges vanish there. -/
theorem update_ne {p : Prop} {r t d e : K} (hr : r ≠ 0 → p) (ht : t ≠ 0 → p) (h : (r + d * t) * e ≠ 0) : p := by
  by_contra hp
  have h1 : r = 0 := by by_contra h; exact hp (hr h)
  have h2 : t = 0 := by by_contra h; exact hp (ht h)
  exact h (by rw [h1, h2]; ring)

omit [Inhabited I] in
theorem add_ne {p : Prop} {r t : K} (hr : r ≠ 0 → p) (ht : t ≠ 0 → p) (h : r + t ≠ 0) : p := by
  by_contra hp
  have h1 : r = 0 := by by_contra h; exact hp (hr h)
  have h2 : t = 0 := by by_contra h; exact hp (ht h)
  exact h (by rw [h1, h2]; ring)

omit [Inhabited I] in
theorem mul_ne {p : Prop} {c r : K} (hr : r ≠ 0 → p) (h : c * r ≠ 0) : p := hr (right_ne_zero_of_mul h)

omit [Inhabited I] in
theorem neg_ne {p : Prop} {r t : K} (hr : r ≠ 0 → p) (ht : t ≠ 0 → p) (h : r - t ≠ 0) : p := by
  rw [sub_eq_add_neg] at h
  exact add_ne hr (fun e => ht (neg_ne_zero.1 e)) h

/-- One pass of the spin-orbital codes (CCD, LCCD, pCCD, XCCD, UCCD) conserves the charge, if the added terms `x` do. -/
theorem C67_step_slow [DecidableEq I] {κ : I → G} (cc_type : String) (x : SO I K → I → I → I → I → K) (d2 : I → I → I → I → K)
    (hx : ∀ B : SO I K, B.Conserves κ → ∀ a b i j, x B a b i j ≠ 0 → κ a + κ b = κ i + κ j)
    {A : SO I K} (hA : A.Conserves κ) : (residMainSlow D cc_type x d2 A).Conserves κ := by
  refine { hA with t2 := fun a b i j h => ?_ }
  obtain ⟨h1, h2⟩ := C67_ccd D hA
  have hr : residSlow D cc_type x A a b i j ≠ 0 → κ a + κ b = κ i + κ j := by
    unfold residSlow
    split_ifs
    · exact add_ne (h1 a b i j) (hx A hA a b i j)
    · exact add_ne (neg_ne (h1 a b i j) (h2 a b i j)) (hx A hA a b i j)
    · exact add_ne (h1 a b i j) (hx A hA a b i j)
  simp only [residMainSlow] at h
  split_ifs at h
  · exact update_ne hr (hA.t2 a b i j) h
  · exact absurd rfl h
  · exact update_ne hr (hA.t2 a b i j) h

/-- One pass of UCC(4) conserves the charge. -/
theorem C67_step_ucc4 {κ : I → G} (d1 : I → I → K) (d2 : I → I → I → I → K) (d3 : I → I → I → I → I → I → K)
    {A : SO I K} (hA : A.Conserves κ) : (residUcc4 D d1 d2 d3 A).Conserves κ := by
  let B : SO I K := { A with l2 := fun i j a b => A.t2 a b i j }
  have hB : B.Conserves κ := { hA with l2 := fun i j a b h => (hA.t2 a b i j h).symm }
  obtain ⟨c1, _⟩ := C67_ccd D hB
  obtain ⟨u1, u3, o1, o2, o3⟩ := C67_ucc4 D hB
  exact { hA with
    t1 := fun a i h => update_ne (u1 a i) (hA.t1 a i) h
    t2 := fun a b i j h => update_ne (add_ne (add_ne (neg_ne (c1 a b i j) (o1 a b i j)) (o2 a b i j)) (o3 a b i j)) (hA.t2 a b i j) h
    t3 := fun a b c i j k h => update_ne (u3 a b c i j k) (hA.t3 a b c i j k) h }

/-- One iteration of the spin-integrated loop conserves the charge; alpha and beta orbitals may have different charges. -/
theorem C67_step {κa κb : I → G} (cc_type : String) (d2aa d2bb d2ab : I → I → I → I → K) {A : SI I K} (hA : A.Conserves κa κb) :
    (iterSi D cc_type d2aa d2bb d2ab A).Conserves κa κb := by
  have hB : (set_l2amps A).Conserves κa κb := { hA with
    l2_aaaa := fun i j a b h => (hA.t2_aaaa a b i j h).symm
    l2_bbbb := fun i j a b h => (hA.t2_bbbb a b i j h).symm
    l2_abab := fun i j a b h => (hA.t2_abab a b i j h).symm }
  obtain ⟨c1, c2, c3⟩ := C67_spin_ccd D hB
  obtain ⟨q1, q2, q3, r1, r2, r3⟩ := C67_spin_qf D hB
  exact { hB with
    t2_aaaa := fun a b i j h => update_ne (add_ne (add_ne (c1 a b i j) (mul_ne (q1 a b i j))) (mul_ne (r1 a b i j))) (hB.t2_aaaa a b i j) h
    t2_abab := fun a b i j h => update_ne (add_ne (add_ne (c2 a b i j) (mul_ne (q2 a b i j))) (mul_ne (r2 a b i j))) (hB.t2_abab a b i j) h
    t2_bbbb := fun a b i j h => update_ne (add_ne (add_ne (c3 a b i j) (mul_ne (q3 a b i j))) (mul_ne (r3 a b i j))) (hB.t2_bbbb a b i j) h }

/-- All iterations of the spin-integrated CCD, CCDQf-1 and CCDQf-2 conserve the charge. -/
theorem C67_iterates {κa κb : I → G} (cc_type : String) (d2aa d2bb d2ab : I → I → I → I → K) {A : SI I K} (hA : A.Conserves κa κb) (n : Nat) :
    ((iterSi D cc_type d2aa d2bb d2ab)^[n] A).Conserves κa κb := by
  induction n with
  | zero => exact hA
  | succ n ih => rw [Function.iterate_succ_apply']; exact C67_step D cc_type d2aa d2bb d2ab ih

/-- All iterations of the spin-orbital codes conserve the charge. -/
theorem C67_iterates_slow [DecidableEq I] {κ : I → G} (cc_type : String) (x : SO I K → I → I → I → I → K) (d2 : I → I → I → I → K)
    (hx : ∀ B : SO I K, B.Conserves κ → ∀ a b i j, x B a b i j ≠ 0 → κ a + κ b = κ i + κ j)
    {A : SO I K} (hA : A.Conserves κ) (n : Nat) : ((residMainSlow D cc_type x d2)^[n] A).Conserves κ := by
  induction n with
  | zero => exact hA
  | succ n ih => rw [Function.iterate_succ_apply']; exact C67_step_slow D cc_type x d2 hx ih

/-- All iterations of UCC(4) conserve the charge. -/
theorem C67_iterates_ucc4 {κ : I → G} (d1 : I → I → K) (d2 : I → I → I → I → K) (d3 : I → I → I → I → I → I → K)
    {A : SO I K} (hA : A.Conserves κ) (n : Nat) : ((residUcc4 D d1 d2 d3)^[n] A).Conserves κ := by
  induction n with
  | zero => exact hA
  | succ n ih => rw [Function.iterate_succ_apply']; exact C67_step_ucc4 D d1 d2 d3 ih

/-- Even and odd orbitals have the charges 0 and 1. -/
def oddCharge (p : ℕ) : ℤ := (p % 2 : ℕ)

/-- The entries of the witness that conserve this charge. -/
def oddPart : SO ℕ ℚ where
  f p q := if p % 2 = q % 2 then Witness.so.f p q else 0
  g p q r s := if p % 2 + q % 2 = r % 2 + s % 2 then Witness.so.g p q r s else 0
  t2 p q r s := if p % 2 + q % 2 = r % 2 + s % 2 then Witness.so.t2 p q r s else 0

/-- Arrays that conserve a charge and whose residual is not zero. -/
example : oddPart.Conserves oddCharge ∧ ccd_t2residual Witness.D oddPart 2 3 0 1 ≠ 0 := by
  refine ⟨?_, by decide +kernel⟩
  constructor <;> intros <;> simp_all [oddPart, oddCharge] <;> omega

end Verif.Props
