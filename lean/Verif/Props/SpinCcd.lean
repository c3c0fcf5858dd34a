import Verif.Props.Ccd
import Verif.Ein.SpinSym
import Verif.Fn.All
import Verif.Cert.SpinCcd
import Verif.Cert.SpinQf1
import Verif.Cert.SpinQf2_aaaa
import Verif.Cert.SpinQf2_abab
import Verif.Cert.SpinQf2_bbbb
import Verif.Cert.SpinQfE
import Verif.Cert.AntiQf2

/-!
# Spin-integrated against spin-orbital equations (C33, C35, C36)

`A : SI I K` holds the spin blocks of integrals and amplitudes, `A.so` the spin-orbital arrays with these blocks
(entries spelled out by the lemmas `SI.so_f`, `SI.so_g_same`, `SI.so_g_mixed`, `SI.so_g_zero`, ... in
`Verif/Ein/SpinArrays.lean`), `spinD D` the orbitals with both spins. `(p, false)` is orbital `p` with alpha spin.
-/

namespace Verif.Props

open Verif.Ein Verif.UT2

variable {I K : Type} [Field K] [CharZero K] [Inhabited I] (D : Nat → Finset I)

/-! ## C35 -/

/-- The CCD energies agree. -/
theorem C35_ccd_energy (A : SI I K) (hA : A.Sym) : ccd_energy_with_spin D A = ccdEnergy (spinD D) A.so :=
  (so_eval_of_isZero D A hA _ _ [] _ _ _ Cert.ccd_energy (by decide +kernel) (by decide +kernel) rfl [] rfl).symm

/-- The (Qf) energy corrections agree. -/
theorem C35_qf_energy (A : SI I K) (hA : A.Sym) : si_energy_pertQf D A = energy_pertQf (spinD D) A.so :=
  (so_eval_of_isZero D A hA _ _ [] _ _ _ Cert.pertQf (by decide +kernel) (by decide +kernel) rfl [] rfl).symm

/-! ## C36 -/

/-- Each spin block of the CCD residual. -/
theorem C36_ccd_residual (A : SI I K) (hA : A.Sym) (a b i j : I) :
    ccd_t2_aaaa D A a b i j = ccd_t2residual (spinD D) A.so (a, false) (b, false) (i, false) (j, false) ∧
    ccd_t2_abab D A a b i j = ccd_t2residual (spinD D) A.so (a, false) (b, true) (i, false) (j, true) ∧
    ccd_t2_bbbb D A a b i j = ccd_t2residual (spinD D) A.so (a, true) (b, true) (i, true) (j, true) :=
  ⟨(so_eval_of_isZero D A hA _ _ _ _ _ _ Cert.ccd_aaaa (by decide +kernel) (by decide +kernel) rfl [a, b, i, j] rfl).symm,
   (so_eval_of_isZero D A hA _ _ _ _ _ _ Cert.ccd_abab (by decide +kernel) (by decide +kernel) rfl [a, b, i, j] rfl).symm,
   (so_eval_of_isZero D A hA _ _ _ _ _ _ Cert.ccd_bbbb (by decide +kernel) (by decide +kernel) rfl [a, b, i, j] rfl).symm⟩

/-- Each spin block of the first factorised-quadruples correction. -/
theorem C36_qf1_residual (A : SI I K) (hA : A.Sym) (a b i j : I) :
    residQf1_aaaa D A a b i j = residQf1 (spinD D) A.so (a, false) (b, false) (i, false) (j, false) ∧
    residQf1_abab D A a b i j = residQf1 (spinD D) A.so (a, false) (b, true) (i, false) (j, true) ∧
    residQf1_bbbb D A a b i j = residQf1 (spinD D) A.so (a, true) (b, true) (i, true) (j, true) :=
  ⟨(so_eval_of_isZero D A hA _ _ _ _ _ _ Cert.residQf1_aaaa (by decide +kernel) (by decide +kernel) rfl
      [a, b, i, j] rfl).symm,
   (so_eval_of_isZero D A hA _ _ _ _ _ _ Cert.residQf1_abab (by decide +kernel) (by decide +kernel) rfl
      [a, b, i, j] rfl).symm,
   (so_eval_of_isZero D A hA _ _ _ _ _ _ Cert.residQf1_bbbb (by decide +kernel) (by decide +kernel) rfl
      [a, b, i, j] rfl).symm⟩

/-- Each spin block of the second factorised-quadruples correction. -/
theorem C36_qf2_residual (A : SI I K) (hA : A.Sym) (a b i j : I) :
    residQf2_aaaa D A a b i j = residQf2 (spinD D) A.so (a, false) (b, false) (i, false) (j, false) ∧
    residQf2_abab D A a b i j = residQf2 (spinD D) A.so (a, false) (b, true) (i, false) (j, true) ∧
    residQf2_bbbb D A a b i j = residQf2 (spinD D) A.so (a, true) (b, true) (i, true) (j, true) :=
  ⟨(so_eval_of_isZero D A hA _ _ _ _ _ _ Cert.residQf2_aaaa (by decide +kernel) (by decide +kernel) rfl
      [a, b, i, j] rfl).symm,
   (so_eval_of_isZero D A hA _ _ _ _ _ _ Cert.residQf2_abab (by decide +kernel) (by decide +kernel) rfl
      [a, b, i, j] rfl).symm,
   (so_eval_of_isZero D A hA _ _ _ _ _ _ Cert.residQf2_bbbb (by decide +kernel) (by decide +kernel) rfl
      [a, b, i, j] rfl).symm⟩

/-- The hypotheses can be met, and the energies and a residual entry are not zero. -/
example : Witness.si.Sym ∧ ccd_energy_with_spin Witness.D Witness.si ≠ 0 ∧
    ccd_t2_abab Witness.D Witness.si 2 3 0 1 ≠ 0 :=
  ⟨Witness.si_sym, by decide +kernel, by decide +kernel⟩

/-! ### the whole iteration -/

/-- Spin-orbital residual of the methods of the spin-integrated code: CCD plus the weighted corrections. -/
def soResid {J : Type} [Inhabited J] (E : Nat → Finset J) (cc_type : String) (B : SO J K) (p q r s : J) : K :=
  ccd_t2residual E B p q r s + ((qfWeights cc_type).1 : K) * residQf1 E B p q r s +
    ((qfWeights cc_type).2 : K) * residQf2 E B p q r s

theorem soResid_anti {J : Type} [Inhabited J] (E : Nat → Finset J) (cc_type : String) (B : SO J K) (hB : B.Sym) :
    Anti4 (soResid E cc_type B) := by
  have h1 := C32_ccd_residual E B hB
  have h2 : Anti4 (residQf1 E B) :=
    anti4_of_isZero E B.T hB.holds Cert.residQf1_anti0 Cert.residQf1_anti1 (by decide +kernel) rfl
  have h3 : Anti4 (residQf2 E B) :=
    anti4_of_isZero E B.T hB.holds Cert.residQf2_anti0 Cert.residQf2_anti1 (by decide +kernel) rfl
  constructor <;> intro a b i j <;> unfold soResid
  · rw [h1.first a b, h2.first a b, h3.first a b]; ring
  · rw [h1.last a b, h2.last a b, h3.last a b]; ring

/-- The blocks computed by the spin-integrated `residMain` are those of the spin-orbital residual. -/
theorem resid_so (cc_type : String) (A : SI I K) (hA : A.Sym) (a b i j : I) :
    resid_aaaa D cc_type A a b i j = soResid (spinD D) cc_type A.so (a, false) (b, false) (i, false) (j, false) ∧
    resid_abab D cc_type A a b i j = soResid (spinD D) cc_type A.so (a, false) (b, true) (i, false) (j, true) ∧
    resid_bbbb D cc_type A a b i j = soResid (spinD D) cc_type A.so (a, true) (b, true) (i, true) (j, true) := by
  obtain ⟨c1, c2, c3⟩ := C36_ccd_residual D A hA a b i j
  obtain ⟨q1, q2, q3⟩ := C36_qf1_residual D A hA a b i j
  obtain ⟨r1, r2, r3⟩ := C36_qf2_residual D A hA a b i j
  unfold resid_aaaa resid_abab resid_bbbb soResid
  rw [c1, c2, c3, q1, q2, q3, r1, r2, r3]
  exact ⟨rfl, rfl, rfl⟩

/-- Doubles denominators from orbital energies. -/
def den {J : Type} (ε : J → K) (a b i j : J) : K := 1 / (ε i + ε j - ε a - ε b)

omit [CharZero K] in
theorem den_sym {J : Type} (ε : J → K) : Sym4 (den ε) :=
  ⟨fun a b i j => by unfold den; congr 1; ring, fun a b i j => by unfold den; congr 1; ring⟩

/-- The three denominator arrays of the spin-integrated code. -/
def den_aa (ε : I × Bool → K) (a b i j : I) : K := den ε (a, false) (b, false) (i, false) (j, false)
def den_bb (ε : I × Bool → K) (a b i j : I) : K := den ε (a, true) (b, true) (i, true) (j, true)
def den_ab (ε : I × Bool → K) (a b i j : I) : K := den ε (a, false) (b, true) (i, false) (j, true)

/-- C33: the same-spin residuals (CCD, CCDQf-1, CCDQf-2) are antisymmetric. -/
theorem C33_residual (cc_type : String) (A : SI I K) (hA : A.Sym) :
    Anti4 (resid_aaaa D cc_type A) ∧ Anti4 (resid_bbbb D cc_type A) := by
  have h := soResid_anti (spinD D) cc_type A.so hA.so
  refine ⟨⟨fun a b i j => ?_, fun a b i j => ?_⟩, ⟨fun a b i j => ?_, fun a b i j => ?_⟩⟩
  · rw [(resid_so D cc_type A hA _ _ _ _).1, (resid_so D cc_type A hA _ _ _ _).1]; exact h.first _ _ _ _
  · rw [(resid_so D cc_type A hA _ _ _ _).1, (resid_so D cc_type A hA _ _ _ _).1]; exact h.last _ _ _ _
  · rw [(resid_so D cc_type A hA _ _ _ _).2.2, (resid_so D cc_type A hA _ _ _ _).2.2]; exact h.first _ _ _ _
  · rw [(resid_so D cc_type A hA _ _ _ _).2.2, (resid_so D cc_type A hA _ _ _ _).2.2]; exact h.last _ _ _ _

omit [CharZero K] [Inhabited I] in
theorem set_l2amps_sym (A : SI I K) (hA : A.Sym) : (set_l2amps A).Sym :=
  { hA with
    l2_aaaa_anti0 := fun p q r s => hA.t2_aaaa_anti2 r s p q
    l2_aaaa_anti2 := fun p q r s => hA.t2_aaaa_anti0 r s p q
    l2_bbbb_anti0 := fun p q r s => hA.t2_bbbb_anti2 r s p q
    l2_bbbb_anti2 := fun p q r s => hA.t2_bbbb_anti0 r s p q }

/-- One pass keeps the same-spin amplitudes antisymmetric. -/
theorem C33_step (cc_type : String) (d2aa d2bb d2ab : I → I → I → I → K) (haa : Sym4 d2aa) (hbb : Sym4 d2bb)
    (A : SI I K) (hA : A.Sym) : (iterSi D cc_type d2aa d2bb d2ab A).Sym := by
  have hB := set_l2amps_sym A hA
  obtain ⟨h1, h2⟩ := C33_residual D cc_type _ hB
  exact { hB with
    t2_aaaa_anti0 := fun a b i j => by
      simp only [iterSi, residMain]
      rw [h1.first b a, haa.first b a, hB.t2_aaaa_anti0 a b]; ring
    t2_aaaa_anti2 := fun a b i j => by
      simp only [iterSi, residMain]
      rw [h1.last a b j i, haa.last a b j i, hB.t2_aaaa_anti2 a b i j]; ring
    t2_bbbb_anti0 := fun a b i j => by
      simp only [iterSi, residMain]
      rw [h2.first b a, hbb.first b a, hB.t2_bbbb_anti0 a b]; ring
    t2_bbbb_anti2 := fun a b i j => by
      simp only [iterSi, residMain]
      rw [h2.last a b j i, hbb.last a b j i, hB.t2_bbbb_anti2 a b i j]; ring }

/-- Same-spin amplitudes stay antisymmetric in every iteration of CCD, CCDQf-1 and CCDQf-2. -/
theorem C33_iterates (cc_type : String) (d2aa d2bb d2ab : I → I → I → I → K) (haa : Sym4 d2aa) (hbb : Sym4 d2bb)
    (A : SI I K) (hA : A.Sym) (n : Nat) : ((iterSi D cc_type d2aa d2bb d2ab)^[n] A).Sym := by
  induction n with
  | zero => exact hA
  | succ n ih =>
    rw [Function.iterate_succ_apply']
    exact C33_step D cc_type d2aa d2bb d2ab haa hbb _ ih

omit [CharZero K] in
theorem soResid_unbalanced (cc_type : String) (A : SI I K) (p q r s : I × Bool) (h : ¬ Balanced spinOf [p, q, r, s]) :
    soResid (spinD D) cc_type A.so p q r s = 0 := by
  have e1 : ccd_t2residual (spinD D) A.so p q r s = 0 :=
    Prog.eval_charge spinOf (spinD D) A.so.T A.so_balanced 4 Gen.ccd_t2residual (by decide +kernel) (by decide +kernel) _ rfl h
  have e2 : residQf1 (spinD D) A.so p q r s = 0 :=
    Prog.eval_charge spinOf (spinD D) A.so.T A.so_balanced 4 Gen.residQf1 (by decide +kernel) (by decide +kernel) _ rfl h
  have e3 : residQf2 (spinD D) A.so p q r s = 0 :=
    Prog.eval_charge spinOf (spinD D) A.so.T A.so_balanced 4 Gen.residQf2 (by decide +kernel) (by decide +kernel) _ rfl h
  unfold soResid
  rw [e1, e2, e3]; ring

/-- One spin-orbital pass: the update of `t2residEqnsSlow.residMain` with the residual `soResid`. For CCD this is
`residMainSlow` (`soStep_ccd`). -/
def soStep {J : Type} [Inhabited J] (E : Nat → Finset J) (cc_type : String) (d2 : J → J → J → J → K) (B : SO J K) :
    SO J K :=
  { B with t2 := fun p q r s => (soResid E cc_type B p q r s + (d2 p q r s)⁻¹ * B.t2 p q r s) * d2 p q r s }

omit [CharZero K] in
theorem soStep_ccd {J : Type} [Inhabited J] [DecidableEq J] (E : Nat → Finset J) (d2 : J → J → J → J → K)
    (B : SO J K) : soStep E "CCD" d2 B = residMainSlow E "CCD" (fun _ _ _ _ _ => 0) d2 B := by
  simp [soStep, residMainSlow, soResid, residSlow, qfWeights]

omit [Inhabited I] [Field K] [CharZero K] in
theorem not_balanced (a b c d : Bool) (h : a.toNat + b.toNat ≠ c.toNat + d.toNat) (p q r s : I) :
    ¬ Balanced spinOf [(p, a), (q, b), (r, c), (s, d)] := by
  intro e
  simp only [Balanced, chargeSum_spin, half1, half2, nb] at e
  cases a <;> cases b <;> cases c <;> cases d <;> simp_all

/-- The amplitudes after one pass of the spin-integrated code are the blocks of the amplitudes after one pass of the
spin-orbital code. -/
theorem C36_step (cc_type : String) (ε : I × Bool → K) (A : SI I K) (hA : A.Sym) :
    (residMain D cc_type (den_aa ε) (den_bb ε) (den_ab ε) A).so.t2 = (soStep (spinD D) cc_type (den ε) A.so).t2 := by
  funext ⟨p, a⟩ ⟨q, b⟩ ⟨r, c⟩ ⟨s, d⟩
  have hs := soResid_anti (spinD D) cc_type A.so hA.so
  have hd := den_sym ε
  by_cases hb : a.toNat + b.toNat = c.toNat + d.toNat
  · set A' := residMain D cc_type (den_aa ε) (den_bb ε) (den_ab ε) A with hA'
    have r1 := fun p q r s => (resid_so D cc_type A hA p q r s).1
    have r2 := fun p q r s => (resid_so D cc_type A hA p q r s).2.1
    have r3 := fun p q r s => (resid_so D cc_type A hA p q r s).2.2
    have t1 := fun p q r s => (A.so_t2_same p q r s).1
    have t2 := fun p q r s => (A.so_t2_mixed p q r s).1
    have t3 := fun p q r s => (A.so_t2_same p q r s).2
    cases a <;> cases b <;> cases c <;> cases d <;> simp at hb <;> simp only [soStep]
    · rw [(A'.so_t2_same p q r s).1, ← r1, t1]; rfl
    · rw [(A'.so_t2_mixed p q r s).1, ← r2, t2]; rfl
    · rw [(A'.so_t2_mixed p q r s).2.1, hs.last _ _ (s, false) (r, true), hd.last _ _ (s, false) (r, true), ← r2,
        (A.so_t2_mixed p q r s).2.1]
      simp only [hA', residMain, den_ab]; ring
    · rw [(A'.so_t2_mixed p q r s).2.2.1, hs.first (q, false) (p, true), hd.first (q, false) (p, true), ← r2,
        (A.so_t2_mixed p q r s).2.2.1]
      simp only [hA', residMain, den_ab]; ring
    · rw [(A'.so_t2_mixed p q r s).2.2.2, hs.first (q, false) (p, true), hd.first (q, false) (p, true),
        hs.last _ _ (s, false) (r, true), hd.last _ _ (s, false) (r, true), ← r2,
        (A.so_t2_mixed p q r s).2.2.2]
      simp only [hA', residMain, den_ab]; ring
    · rw [(A'.so_t2_same p q r s).2, ← r3, t3]; rfl
  · rw [SI.so_t2_zero _ _ _ _ _ _ _ _ _ hb]
    simp only [soStep]
    rw [SI.so_t2_zero _ _ _ _ _ _ _ _ _ hb, soResid_unbalanced D cc_type A _ _ _ _ (not_balanced a b c d hb p q r s)]
    ring

omit [Inhabited I] [CharZero K] in
theorem so_f_congr (A B : SI I K) (h1 : A.f_aa = B.f_aa) (h2 : A.f_bb = B.f_bb) : A.so.f = B.so.f := by
  funext ⟨p, a⟩ ⟨q, b⟩
  obtain ⟨a1, a2, a3, a4⟩ := A.so_f p q
  obtain ⟨b1, b2, b3, b4⟩ := B.so_f p q
  cases a <;> cases b <;> simp only [a1, a2, a3, a4, b1, b2, b3, b4, h1, h2]

omit [Inhabited I] [CharZero K] in
theorem so_g_congr (A B : SI I K) (h1 : A.g_aaaa = B.g_aaaa) (h2 : A.g_abab = B.g_abab) (h3 : A.g_bbbb = B.g_bbbb) :
    A.so.g = B.so.g := by
  funext ⟨p, a⟩ ⟨q, b⟩ ⟨r, c⟩ ⟨s, d⟩
  by_cases hb : a.toNat + b.toNat = c.toNat + d.toNat
  · obtain ⟨a1, a2⟩ := A.so_g_same p q r s
    obtain ⟨b1, b2⟩ := B.so_g_same p q r s
    obtain ⟨m1, m2, m3, m4⟩ := A.so_g_mixed p q r s
    obtain ⟨n1, n2, n3, n4⟩ := B.so_g_mixed p q r s
    cases a <;> cases b <;> cases c <;> cases d <;> simp at hb <;>
      simp only [a1, a2, b1, b2, m1, m2, m3, m4, n1, n2, n3, n4, h1, h2, h3]
  · rw [SI.so_g_zero _ _ _ _ _ _ _ _ _ hb, SI.so_g_zero _ _ _ _ _ _ _ _ _ hb]

omit [Inhabited I] [CharZero K] in
theorem so_t2_congr (A B : SI I K) (h1 : A.t2_aaaa = B.t2_aaaa) (h2 : A.t2_abab = B.t2_abab)
    (h3 : A.t2_bbbb = B.t2_bbbb) : A.so.t2 = B.so.t2 := by
  funext ⟨p, a⟩ ⟨q, b⟩ ⟨r, c⟩ ⟨s, d⟩
  by_cases hb : a.toNat + b.toNat = c.toNat + d.toNat
  · obtain ⟨a1, a2⟩ := A.so_t2_same p q r s
    obtain ⟨b1, b2⟩ := B.so_t2_same p q r s
    obtain ⟨m1, m2, m3, m4⟩ := A.so_t2_mixed p q r s
    obtain ⟨n1, n2, n3, n4⟩ := B.so_t2_mixed p q r s
    cases a <;> cases b <;> cases c <;> cases d <;> simp at hb <;>
      simp only [a1, a2, b1, b2, m1, m2, m3, m4, n1, n2, n3, n4, h1, h2, h3]
  · rw [SI.so_t2_zero _ _ _ _ _ _ _ _ _ hb, SI.so_t2_zero _ _ _ _ _ _ _ _ _ hb]

/-- A factor refers to the Fock matrix, the integrals or the doubles amplitudes. -/
def ccdFac (f : Fac) : Bool := Nat.beq f.t 15 || Nat.beq f.t 23 || Nat.beq f.t 39

omit [CharZero K] in
theorem ccd_congr {J : Type} [Inhabited J] (E : Nat → Finset J) (B C : SO J K) (hf : B.f = C.f) (hg : B.g = C.g)
    (ht : B.t2 = C.t2) : ccd_t2residual E B = ccd_t2residual E C ∧ ccdEnergy E B = ccdEnergy E C := by
  have h : ∀ f : Fac, ccdFac f = true → ∀ l : List J, l.length = f.ix.length → B.T f.t l = C.T f.t l := by
    intro f hc l _
    simp only [ccdFac, Bool.or_eq_true, Nat.beq_eq, or_assoc] at hc
    rcases hc with h | h | h <;> rw [h]
    · show at2 B.f l = at2 C.f l; rw [hf]
    · show at4 B.g l = at4 C.g l; rw [hg]
    · show at4 B.t2 l = at4 C.t2 l; rw [ht]
  refine ⟨?_, Prog.eval_congrT E B.T C.T Gen.ccdEnergy ccdFac (by decide +kernel) h []⟩
  funext a b i j
  exact Prog.eval_congrT E B.T C.T Gen.ccd_t2residual ccdFac (by decide +kernel) h [a, b, i, j]

/-- In every iteration of a CCD calculation the amplitudes and energies of the spin-integrated and of the
spin-orbital code agree. -/
theorem C36_iterates [DecidableEq I] (ε : I × Bool → K) (A : SI I K) (hA : A.Sym) (n : Nat) :
    ((iterSi D "CCD" (den_aa ε) (den_bb ε) (den_ab ε))^[n] A).so.t2 =
      ((residMainSlow (spinD D) "CCD" (fun _ _ _ _ _ => 0) (den ε))^[n] A.so).t2 ∧
    ccd_energy_with_spin D ((iterSi D "CCD" (den_aa ε) (den_bb ε) (den_ab ε))^[n] A) =
      ccdEnergy (spinD D) ((residMainSlow (spinD D) "CCD" (fun _ _ _ _ _ => 0) (den ε))^[n] A.so) := by
  have haa : Sym4 (den_aa ε) := ⟨fun _ _ _ _ => (den_sym ε).first _ _ _ _, fun _ _ _ _ => (den_sym ε).last _ _ _ _⟩
  have hbb : Sym4 (den_bb ε) := ⟨fun _ _ _ _ => (den_sym ε).first _ _ _ _, fun _ _ _ _ => (den_sym ε).last _ _ _ _⟩
  have key : ∀ n, ((iterSi D "CCD" (den_aa ε) (den_bb ε) (den_ab ε))^[n] A).so.t2 =
      ((residMainSlow (spinD D) "CCD" (fun _ _ _ _ _ => 0) (den ε))^[n] A.so).t2 ∧
      ((iterSi D "CCD" (den_aa ε) (den_bb ε) (den_ab ε))^[n] A).so.f =
        ((residMainSlow (spinD D) "CCD" (fun _ _ _ _ _ => 0) (den ε))^[n] A.so).f ∧
      ((iterSi D "CCD" (den_aa ε) (den_bb ε) (den_ab ε))^[n] A).so.g =
        ((residMainSlow (spinD D) "CCD" (fun _ _ _ _ _ => 0) (den ε))^[n] A.so).g := by
    intro n
    induction n with
    | zero => exact ⟨rfl, rfl, rfl⟩
    | succ n ih =>
      obtain ⟨i1, i2, i3⟩ := ih
      have hB := C33_iterates D "CCD" (den_aa ε) (den_bb ε) (den_ab ε) haa hbb A hA n
      rw [Function.iterate_succ_apply', Function.iterate_succ_apply']
      generalize (iterSi D "CCD" (den_aa ε) (den_bb ε) (den_ab ε))^[n] A = B at *
      generalize (residMainSlow (spinD D) "CCD" (fun _ _ _ _ _ => 0) (den ε))^[n] A.so = C at *
      have hl := set_l2amps_sym B hB
      have f1 : (set_l2amps B).so.f = B.so.f := so_f_congr _ _ rfl rfl
      have g1 : (set_l2amps B).so.g = B.so.g := so_g_congr _ _ rfl rfl rfl
      have t1 : (set_l2amps B).so.t2 = B.so.t2 := so_t2_congr _ _ rfl rfl rfl
      refine ⟨?_, (so_f_congr (iterSi D "CCD" (den_aa ε) (den_bb ε) (den_ab ε) B) B rfl rfl).trans i2,
        (so_g_congr (iterSi D "CCD" (den_aa ε) (den_bb ε) (den_ab ε) B) B rfl rfl rfl).trans i3⟩
      unfold iterSi
      rw [C36_step D "CCD" ε _ hl, soStep_ccd]
      have e := (ccd_congr (spinD D) (set_l2amps B).so C (f1.trans i2) (g1.trans i3) (t1.trans i1)).1
      funext p q r s
      simp [residMainSlow, residSlow, e, t1, i1]
  have hB := C33_iterates D "CCD" (den_aa ε) (den_bb ε) (den_ab ε) haa hbb A hA n
  obtain ⟨k1, k2, k3⟩ := key n
  exact ⟨k1, by rw [C35_ccd_energy D _ hB]; exact (ccd_congr (spinD D) _ _ k2 k3 k1).2⟩

end Verif.Props
