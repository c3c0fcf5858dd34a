import Verif.Props.Fragments
import Verif.Fn.All

/-!
# Two systems without interaction: the other methods (C63)

Written by `tools/frag.py`. C40 and C41 are about CCD and the factorised quadruples; here are the remaining functions of
`Verif/Fn`. One function is not of this kind: `wicked_T3corr.get_fifthOrder` builds an array without connection between
its factors and contracts it afterwards.
-/

namespace Verif.Props

open Verif.Ein Verif.UT2

variable {I J K : Type} [Field K] [Inhabited I] [Inhabited J] (D : Nat → Finset I) (E : Nat → Finset J)

/-- A function of 2 orbitals of both systems is made of two functions of one system. -/
structure Splits2 (F : (I ⊕ J) → (I ⊕ J) → K) (f : I → I → K)
    (g : J → J → K) : Prop where
  left : ∀ a b, F (.inl a) (.inl b) = f a b
  right : ∀ a b, F (.inr a) (.inr b) = g a b
  mixed : ∀ a b, Mixed [a, b] → F a b = 0

theorem splits2_so (A : SO I K) (B : SO J K) (P : Prog) (hc : P.connected = true) (hP : P.closed 2 = true)
    (hw : P.wf 2 = true) :
    Splits2 (fun a b => P.eval (sumD D E) (A.sum B).T [a, b]) (fun a b => P.eval D A.T [a, b])
      (fun a b => P.eval E B.T [a, b]) where
  left a b := Prog.sum_inl D E _ A.T (SO.sum_T_inl A B) (SO.sum_T_same A B) 2 (by decide) P hc hP [a, b] rfl
  right a b := Prog.sum_inr D E _ B.T (SO.sum_T_inr A B) (SO.sum_T_same A B) 2 (by decide) P hc hP [a, b] rfl
  mixed a b hm := Prog.eval_mixed Sum.isLeft _ _ (SO.sum_T_same A B) 2 P hc hP hw [a, b] rfl hm.not_same

theorem splits2_si (A : SI I K) (B : SI J K) (P : Prog) (hc : P.connected = true) (hP : P.closed 2 = true)
    (hw : P.wf 2 = true) :
    Splits2 (fun a b => P.eval (sumD D E) (A.sum B).T [a, b]) (fun a b => P.eval D A.T [a, b])
      (fun a b => P.eval E B.T [a, b]) where
  left a b := Prog.sum_inl D E _ A.T (SI.sum_T_inl A B) (SI.sum_T_same A B) 2 (by decide) P hc hP [a, b] rfl
  right a b := Prog.sum_inr D E _ B.T (SI.sum_T_inr A B) (SI.sum_T_same A B) 2 (by decide) P hc hP [a, b] rfl
  mixed a b hm := Prog.eval_mixed Sum.isLeft _ _ (SI.sum_T_same A B) 2 P hc hP hw [a, b] rfl hm.not_same

/-- A function of 6 orbitals of both systems is made of two functions of one system. -/
structure Splits6 (F : (I ⊕ J) → (I ⊕ J) → (I ⊕ J) → (I ⊕ J) → (I ⊕ J) → (I ⊕ J) → K) (f : I → I → I → I → I → I → K)
    (g : J → J → J → J → J → J → K) : Prop where
  left : ∀ a b c d i j, F (.inl a) (.inl b) (.inl c) (.inl d) (.inl i) (.inl j) = f a b c d i j
  right : ∀ a b c d i j, F (.inr a) (.inr b) (.inr c) (.inr d) (.inr i) (.inr j) = g a b c d i j
  mixed : ∀ a b c d i j, Mixed [a, b, c, d, i, j] → F a b c d i j = 0

theorem splits6_so (A : SO I K) (B : SO J K) (P : Prog) (hc : P.connected = true) (hP : P.closed 6 = true)
    (hw : P.wf 6 = true) :
    Splits6 (fun a b c d i j => P.eval (sumD D E) (A.sum B).T [a, b, c, d, i, j]) (fun a b c d i j => P.eval D A.T [a, b, c, d, i, j])
      (fun a b c d i j => P.eval E B.T [a, b, c, d, i, j]) where
  left a b c d i j := Prog.sum_inl D E _ A.T (SO.sum_T_inl A B) (SO.sum_T_same A B) 6 (by decide) P hc hP [a, b, c, d, i, j] rfl
  right a b c d i j := Prog.sum_inr D E _ B.T (SO.sum_T_inr A B) (SO.sum_T_same A B) 6 (by decide) P hc hP [a, b, c, d, i, j] rfl
  mixed a b c d i j hm := Prog.eval_mixed Sum.isLeft _ _ (SO.sum_T_same A B) 6 P hc hP hw [a, b, c, d, i, j] rfl hm.not_same

theorem splits6_si (A : SI I K) (B : SI J K) (P : Prog) (hc : P.connected = true) (hP : P.closed 6 = true)
    (hw : P.wf 6 = true) :
    Splits6 (fun a b c d i j => P.eval (sumD D E) (A.sum B).T [a, b, c, d, i, j]) (fun a b c d i j => P.eval D A.T [a, b, c, d, i, j])
      (fun a b c d i j => P.eval E B.T [a, b, c, d, i, j]) where
  left a b c d i j := Prog.sum_inl D E _ A.T (SI.sum_T_inl A B) (SI.sum_T_same A B) 6 (by decide) P hc hP [a, b, c, d, i, j] rfl
  right a b c d i j := Prog.sum_inr D E _ B.T (SI.sum_T_inr A B) (SI.sum_T_same A B) 6 (by decide) P hc hP [a, b, c, d, i, j] rfl
  mixed a b c d i j hm := Prog.eval_mixed Sum.isLeft _ _ (SI.sum_T_same A B) 6 P hc hP hw [a, b, c, d, i, j] rfl hm.not_same

/-- A function of 8 orbitals of both systems is made of two functions of one system. -/
structure Splits8 (F : (I ⊕ J) → (I ⊕ J) → (I ⊕ J) → (I ⊕ J) → (I ⊕ J) → (I ⊕ J) → (I ⊕ J) → (I ⊕ J) → K) (f : I → I → I → I → I → I → I → I → K)
    (g : J → J → J → J → J → J → J → J → K) : Prop where
  left : ∀ a b c d i j k l, F (.inl a) (.inl b) (.inl c) (.inl d) (.inl i) (.inl j) (.inl k) (.inl l) = f a b c d i j k l
  right : ∀ a b c d i j k l, F (.inr a) (.inr b) (.inr c) (.inr d) (.inr i) (.inr j) (.inr k) (.inr l) = g a b c d i j k l
  mixed : ∀ a b c d i j k l, Mixed [a, b, c, d, i, j, k, l] → F a b c d i j k l = 0

theorem splits8_so (A : SO I K) (B : SO J K) (P : Prog) (hc : P.connected = true) (hP : P.closed 8 = true)
    (hw : P.wf 8 = true) :
    Splits8 (fun a b c d i j k l => P.eval (sumD D E) (A.sum B).T [a, b, c, d, i, j, k, l]) (fun a b c d i j k l => P.eval D A.T [a, b, c, d, i, j, k, l])
      (fun a b c d i j k l => P.eval E B.T [a, b, c, d, i, j, k, l]) where
  left a b c d i j k l := Prog.sum_inl D E _ A.T (SO.sum_T_inl A B) (SO.sum_T_same A B) 8 (by decide) P hc hP [a, b, c, d, i, j, k, l] rfl
  right a b c d i j k l := Prog.sum_inr D E _ B.T (SO.sum_T_inr A B) (SO.sum_T_same A B) 8 (by decide) P hc hP [a, b, c, d, i, j, k, l] rfl
  mixed a b c d i j k l hm := Prog.eval_mixed Sum.isLeft _ _ (SO.sum_T_same A B) 8 P hc hP hw [a, b, c, d, i, j, k, l] rfl hm.not_same

theorem splits8_si (A : SI I K) (B : SI J K) (P : Prog) (hc : P.connected = true) (hP : P.closed 8 = true)
    (hw : P.wf 8 = true) :
    Splits8 (fun a b c d i j k l => P.eval (sumD D E) (A.sum B).T [a, b, c, d, i, j, k, l]) (fun a b c d i j k l => P.eval D A.T [a, b, c, d, i, j, k, l])
      (fun a b c d i j k l => P.eval E B.T [a, b, c, d, i, j, k, l]) where
  left a b c d i j k l := Prog.sum_inl D E _ A.T (SI.sum_T_inl A B) (SI.sum_T_same A B) 8 (by decide) P hc hP [a, b, c, d, i, j, k, l] rfl
  right a b c d i j k l := Prog.sum_inr D E _ B.T (SI.sum_T_inr A B) (SI.sum_T_same A B) 8 (by decide) P hc hP [a, b, c, d, i, j, k, l] rfl
  mixed a b c d i j k l hm := Prog.eval_mixed Sum.isLeft _ _ (SI.sum_T_same A B) 8 P hc hP hw [a, b, c, d, i, j, k, l] rfl hm.not_same

/-- CCSD: energies add, residuals have no entries between the systems. -/
theorem C63_ccsd (A : SO I K) (B : SO J K) :
    spinorbitalCCSDE (sumD D E) (A.sum B) = spinorbitalCCSDE D A + spinorbitalCCSDE E B ∧
    spinorbitalCCDE (sumD D E) (A.sum B) = spinorbitalCCDE D A + spinorbitalCCDE E B ∧
    Splits2 (ccsd_t1resid (sumD D E) (A.sum B)) (ccsd_t1resid D A) (ccsd_t1resid E B) ∧
    Splits (ccsd_t2resid (sumD D E) (A.sum B)) (ccsd_t2resid D A) (ccsd_t2resid E B) :=
  ⟨Prog.sum_number D E _ A.T B.T (SO.sum_T_inl A B) (SO.sum_T_inr A B) (SO.sum_T_same A B) Gen.spinorbitalCCSDE
      (by decide +kernel) (by decide +kernel),
   Prog.sum_number D E _ A.T B.T (SO.sum_T_inl A B) (SO.sum_T_inr A B) (SO.sum_T_same A B) Gen.spinorbitalCCDE
      (by decide +kernel) (by decide +kernel),
   splits2_so D E A B Gen.ccsd_t1resid (by decide +kernel) (by decide +kernel) (by decide +kernel),
   splits_so D E A B Gen.ccsd_t2resid (by decide +kernel) (by decide +kernel) (by decide +kernel)⟩

/-- CCSDT: energies add, residuals have no entries between the systems. -/
theorem C63_ccsdt (A : SO I K) (B : SO J K) :
    Splits2 (ccsdt_t1eqns (sumD D E) (A.sum B)) (ccsdt_t1eqns D A) (ccsdt_t1eqns E B) ∧
    Splits (ccsdt_t2eqns (sumD D E) (A.sum B)) (ccsdt_t2eqns D A) (ccsdt_t2eqns E B) ∧
    Splits6 (ccsdt_t3eqns (sumD D E) (A.sum B)) (ccsdt_t3eqns D A) (ccsdt_t3eqns E B) :=
  ⟨splits2_so D E A B Gen.ccsdt_t1eqns (by decide +kernel) (by decide +kernel) (by decide +kernel),
   splits_so D E A B Gen.ccsdt_t2eqns (by decide +kernel) (by decide +kernel) (by decide +kernel),
   splits6_so D E A B Gen.ccsdt_t3eqns (by decide +kernel) (by decide +kernel) (by decide +kernel)⟩

/-- CCDQ: energies add, residuals have no entries between the systems. -/
theorem C63_ccdq (A : SO I K) (B : SO J K) :
    Splits (ccdq_t2eqns (sumD D E) (A.sum B)) (ccdq_t2eqns D A) (ccdq_t2eqns E B) ∧
    Splits8 (ccdq_t4eqns (sumD D E) (A.sum B)) (ccdq_t4eqns D A) (ccdq_t4eqns E B) :=
  ⟨splits_so D E A B Gen.ccdq_t2eqns (by decide +kernel) (by decide +kernel) (by decide +kernel),
   splits8_so D E A B Gen.ccdq_t4eqns (by decide +kernel) (by decide +kernel) (by decide +kernel)⟩

/-- Perturbative triples: energies add, residuals have no entries between the systems. -/
theorem C63_triples (A : SO I K) (B : SO J K) :
    Splits6 (build_T3 (sumD D E) (A.sum B)) (build_T3 D A) (build_T3 E B) ∧
    pdagq_T3energy (sumD D E) (A.sum B) = pdagq_T3energy D A + pdagq_T3energy E B ∧
    pdagq_ccsd_energy (sumD D E) (A.sum B) = pdagq_ccsd_energy D A + pdagq_ccsd_energy E B ∧
    Splits6 (fifthOrder_capA (sumD D E) (A.sum B)) (fifthOrder_capA D A) (fifthOrder_capA E B) ∧
    contractE (sumD D E) (A.sum B) = contractE D A + contractE E B ∧
    Splits6 (build_T3_thirdO (sumD D E) (A.sum B)) (build_T3_thirdO D A) (build_T3_thirdO E B) ∧
    Splits6 (build_T3_secondO (sumD D E) (A.sum B)) (build_T3_secondO D A) (build_T3_secondO E B) ∧
    Splits (build_netT2 (sumD D E) (A.sum B)) (build_netT2 D A) (build_netT2 E B) ∧
    getE_squareBrackT (sumD D E) (A.sum B) = getE_squareBrackT D A + getE_squareBrackT E B ∧
    getE_parenT_t1 (sumD D E) (A.sum B) = getE_parenT_t1 D A + getE_parenT_t1 E B ∧
    Splits2 (get_netT1_fromT2 (sumD D E) (A.sum B)) (get_netT1_fromT2 D A) (get_netT1_fromT2 E B) ∧
    Splits2 (get_netT1_thirdO (sumD D E) (A.sum B)) (get_netT1_thirdO D A) (get_netT1_thirdO E B) ∧
    Splits (get_T2resid_fromT1bar (sumD D E) (A.sum B)) (get_T2resid_fromT1bar D A) (get_T2resid_fromT1bar E B) :=
  ⟨splits6_so D E A B Gen.build_T3 (by decide +kernel) (by decide +kernel) (by decide +kernel),
   Prog.sum_number D E _ A.T B.T (SO.sum_T_inl A B) (SO.sum_T_inr A B) (SO.sum_T_same A B) Gen.pdagq_T3energy
      (by decide +kernel) (by decide +kernel),
   Prog.sum_number D E _ A.T B.T (SO.sum_T_inl A B) (SO.sum_T_inr A B) (SO.sum_T_same A B) Gen.pdagq_ccsd_energy
      (by decide +kernel) (by decide +kernel),
   splits6_so D E A B Gen.fifthOrder_capA (by decide +kernel) (by decide +kernel) (by decide +kernel),
   Prog.sum_number D E _ A.T B.T (SO.sum_T_inl A B) (SO.sum_T_inr A B) (SO.sum_T_same A B) Gen.contractE
      (by decide +kernel) (by decide +kernel),
   splits6_so D E A B Gen.build_T3_thirdO (by decide +kernel) (by decide +kernel) (by decide +kernel),
   splits6_so D E A B Gen.build_T3_secondO (by decide +kernel) (by decide +kernel) (by decide +kernel),
   splits_so D E A B Gen.build_netT2 (by decide +kernel) (by decide +kernel) (by decide +kernel),
   Prog.sum_number D E _ A.T B.T (SO.sum_T_inl A B) (SO.sum_T_inr A B) (SO.sum_T_same A B) Gen.getE_squareBrackT
      (by decide +kernel) (by decide +kernel),
   Prog.sum_number D E _ A.T B.T (SO.sum_T_inl A B) (SO.sum_T_inr A B) (SO.sum_T_same A B) Gen.getE_parenT_t1
      (by decide +kernel) (by decide +kernel),
   splits2_so D E A B Gen.get_netT1_fromT2 (by decide +kernel) (by decide +kernel) (by decide +kernel),
   splits2_so D E A B Gen.get_netT1_thirdO (by decide +kernel) (by decide +kernel) (by decide +kernel),
   splits_so D E A B Gen.get_T2resid_fromT1bar (by decide +kernel) (by decide +kernel) (by decide +kernel)⟩

/-- UCC(4): energies add, residuals have no entries between the systems. -/
theorem C63_ucc4 (A : SO I K) (B : SO J K) :
    Splits2 (t1_residEqns (sumD D E) (A.sum B)) (t1_residEqns D A) (t1_residEqns E B) ∧
    Splits6 (t3_resid (sumD D E) (A.sum B)) (t3_resid D A) (t3_resid E B) ∧
    Splits (offset_t2resid_t2squared (sumD D E) (A.sum B)) (offset_t2resid_t2squared D A) (offset_t2resid_t2squared E B) ∧
    Splits (offset_t2resid_t2dag_w_t2 (sumD D E) (A.sum B)) (offset_t2resid_t2dag_w_t2 D A) (offset_t2resid_t2dag_w_t2 E B) ∧
    Splits (offset_t2resid_T1_T3 (sumD D E) (A.sum B)) (offset_t2resid_T1_T3 D A) (offset_t2resid_T1_T3 E B) :=
  ⟨splits2_so D E A B Gen.t1_residEqns (by decide +kernel) (by decide +kernel) (by decide +kernel),
   splits6_so D E A B Gen.t3_resid (by decide +kernel) (by decide +kernel) (by decide +kernel),
   splits_so D E A B Gen.offset_t2resid_t2squared (by decide +kernel) (by decide +kernel) (by decide +kernel),
   splits_so D E A B Gen.offset_t2resid_t2dag_w_t2 (by decide +kernel) (by decide +kernel) (by decide +kernel),
   splits_so D E A B Gen.offset_t2resid_T1_T3 (by decide +kernel) (by decide +kernel) (by decide +kernel)⟩

/-- Quadruples residuals and their corrections: energies add, residuals have no entries between the systems. -/
theorem C63_quadruples (A : SO I K) (B : SO J K) :
    Splits8 (unsym_residQf1 (sumD D E) (A.sum B)) (unsym_residQf1 D A) (unsym_residQf1 E B) ∧
    Splits8 (unsym_residQf2 (sumD D E) (A.sum B)) (unsym_residQf2 D A) (unsym_residQf2 E B) ∧
    Splits (optWnT3 (sumD D E) (A.sum B)) (optWnT3 D A) (optWnT3 E B) ∧
    Splits (optWnT2sqr (sumD D E) (A.sum B)) (optWnT2sqr D A) (optWnT2sqr E B) ∧
    Splits (T3portion_Qf (sumD D E) (A.sum B)) (T3portion_Qf D A) (T3portion_Qf E B) ∧
    Splits6 (build_approxT3 (sumD D E) (A.sum B)) (build_approxT3 D A) (build_approxT3 E B) ∧
    Splits8 (wnT2T3_toT4 (sumD D E) (A.sum B)) (wnT2T3_toT4 D A) (wnT2T3_toT4 E B) ∧
    Splits8 (wnT2cubed_toT4 (sumD D E) (A.sum B)) (wnT2cubed_toT4 D A) (wnT2cubed_toT4 E B) ∧
    Splits (wnT2cubed_toT2 (sumD D E) (A.sum B)) (wnT2cubed_toT2 D A) (wnT2cubed_toT2 E B) ∧
    Splits (wnT2T3_toT2 (sumD D E) (A.sum B)) (wnT2T3_toT2 D A) (wnT2T3_toT2 E B) ∧
    Splits8 (t4_test_residual (sumD D E) (A.sum B)) (t4_test_residual D A) (t4_test_residual E B) ∧
    Splits8 (t4_test_residual_oo (sumD D E) (A.sum B)) (t4_test_residual_oo D A) (t4_test_residual_oo E B) :=
  ⟨splits8_so D E A B Gen.unsym_residQf1 (by decide +kernel) (by decide +kernel) (by decide +kernel),
   splits8_so D E A B Gen.unsym_residQf2 (by decide +kernel) (by decide +kernel) (by decide +kernel),
   splits_so D E A B Gen.optWnT3 (by decide +kernel) (by decide +kernel) (by decide +kernel),
   splits_so D E A B Gen.optWnT2sqr (by decide +kernel) (by decide +kernel) (by decide +kernel),
   splits_so D E A B Gen.T3portion_Qf (by decide +kernel) (by decide +kernel) (by decide +kernel),
   splits6_so D E A B Gen.build_approxT3 (by decide +kernel) (by decide +kernel) (by decide +kernel),
   splits8_so D E A B Gen.wnT2T3_toT4 (by decide +kernel) (by decide +kernel) (by decide +kernel),
   splits8_so D E A B Gen.wnT2cubed_toT4 (by decide +kernel) (by decide +kernel) (by decide +kernel),
   splits_so D E A B Gen.wnT2cubed_toT2 (by decide +kernel) (by decide +kernel) (by decide +kernel),
   splits_so D E A B Gen.wnT2T3_toT2 (by decide +kernel) (by decide +kernel) (by decide +kernel),
   splits8_so D E A B Gen.t4_test_residual (by decide +kernel) (by decide +kernel) (by decide +kernel),
   splits8_so D E A B Gen.t4_test_residual_oo (by decide +kernel) (by decide +kernel) (by decide +kernel)⟩

/-- XCCD: energies add, residuals have no entries between the systems. -/
theorem C63_xccd (A : SO I K) (B : SO J K) :
    Splits8 (xccd5_quad (sumD D E) (A.sum B)) (xccd5_quad D A) (xccd5_quad E B) ∧
    Splits8 (xccd6_quad (sumD D E) (A.sum B)) (xccd6_quad D A) (xccd6_quad E B) ∧
    Splits8 (get_xcc7residual (sumD D E) (A.sum B)) (get_xcc7residual D A) (get_xcc7residual E B) ∧
    Splits8 (get_xcc8residual (sumD D E) (A.sum B)) (get_xcc8residual D A) (get_xcc8residual E B) ∧
    Splits8 (get_xcc9residual (sumD D E) (A.sum B)) (get_xcc9residual D A) (get_xcc9residual E B) :=
  ⟨splits8_so D E A B Gen.xccd5_quad (by decide +kernel) (by decide +kernel) (by decide +kernel),
   splits8_so D E A B Gen.xccd6_quad (by decide +kernel) (by decide +kernel) (by decide +kernel),
   splits8_so D E A B Gen.get_xcc7residual (by decide +kernel) (by decide +kernel) (by decide +kernel),
   splits8_so D E A B Gen.get_xcc8residual (by decide +kernel) (by decide +kernel) (by decide +kernel),
   splits8_so D E A B Gen.get_xcc9residual (by decide +kernel) (by decide +kernel) (by decide +kernel)⟩

/-- Spin-integrated CCSDT: energies add, residuals have no entries between the systems. -/
theorem C63_spin_ccsdt (A : SI I K) (B : SI J K) :
    ccsd_energy_with_spin (sumD D E) (A.sum B) = ccsd_energy_with_spin D A + ccsd_energy_with_spin E B ∧
    Splits2 (ccsdt_t1_aa (sumD D E) (A.sum B)) (ccsdt_t1_aa D A) (ccsdt_t1_aa E B) ∧
    Splits2 (ccsdt_t1_bb (sumD D E) (A.sum B)) (ccsdt_t1_bb D A) (ccsdt_t1_bb E B) ∧
    Splits (ccsdt_t2_aaaa (sumD D E) (A.sum B)) (ccsdt_t2_aaaa D A) (ccsdt_t2_aaaa E B) ∧
    Splits (ccsdt_t2_bbbb (sumD D E) (A.sum B)) (ccsdt_t2_bbbb D A) (ccsdt_t2_bbbb E B) ∧
    Splits (ccsdt_t2_abab (sumD D E) (A.sum B)) (ccsdt_t2_abab D A) (ccsdt_t2_abab E B) ∧
    Splits6 (ccsdt_t3_aaaaaa (sumD D E) (A.sum B)) (ccsdt_t3_aaaaaa D A) (ccsdt_t3_aaaaaa E B) ∧
    Splits6 (ccsdt_t3_aabaab (sumD D E) (A.sum B)) (ccsdt_t3_aabaab D A) (ccsdt_t3_aabaab E B) ∧
    Splits6 (ccsdt_t3_abbabb (sumD D E) (A.sum B)) (ccsdt_t3_abbabb D A) (ccsdt_t3_abbabb E B) ∧
    Splits6 (ccsdt_t3_bbbbbb (sumD D E) (A.sum B)) (ccsdt_t3_bbbbbb D A) (ccsdt_t3_bbbbbb E B) :=
  ⟨Prog.sum_number D E _ A.T B.T (SI.sum_T_inl A B) (SI.sum_T_inr A B) (SI.sum_T_same A B) Gen.ccsd_energy_with_spin
      (by decide +kernel) (by decide +kernel),
   splits2_si D E A B Gen.ccsdt_t1_aa (by decide +kernel) (by decide +kernel) (by decide +kernel),
   splits2_si D E A B Gen.ccsdt_t1_bb (by decide +kernel) (by decide +kernel) (by decide +kernel),
   splits_si D E A B Gen.ccsdt_t2_aaaa (by decide +kernel) (by decide +kernel) (by decide +kernel),
   splits_si D E A B Gen.ccsdt_t2_bbbb (by decide +kernel) (by decide +kernel) (by decide +kernel),
   splits_si D E A B Gen.ccsdt_t2_abab (by decide +kernel) (by decide +kernel) (by decide +kernel),
   splits6_si D E A B Gen.ccsdt_t3_aaaaaa (by decide +kernel) (by decide +kernel) (by decide +kernel),
   splits6_si D E A B Gen.ccsdt_t3_aabaab (by decide +kernel) (by decide +kernel) (by decide +kernel),
   splits6_si D E A B Gen.ccsdt_t3_abbabb (by decide +kernel) (by decide +kernel) (by decide +kernel),
   splits6_si D E A B Gen.ccsdt_t3_bbbbbb (by decide +kernel) (by decide +kernel) (by decide +kernel)⟩

/-- Spin-integrated CCDQ: energies add, residuals have no entries between the systems. -/
theorem C63_spin_ccdq (A : SI I K) (B : SI J K) :
    Splits (ccdq_t2_aaaa (sumD D E) (A.sum B)) (ccdq_t2_aaaa D A) (ccdq_t2_aaaa E B) ∧
    Splits (ccdq_t2_bbbb (sumD D E) (A.sum B)) (ccdq_t2_bbbb D A) (ccdq_t2_bbbb E B) ∧
    Splits (ccdq_t2_abab (sumD D E) (A.sum B)) (ccdq_t2_abab D A) (ccdq_t2_abab E B) ∧
    Splits8 (ccdq_t4_aaaaaaaa (sumD D E) (A.sum B)) (ccdq_t4_aaaaaaaa D A) (ccdq_t4_aaaaaaaa E B) ∧
    Splits8 (ccdq_t4_aaabaaab (sumD D E) (A.sum B)) (ccdq_t4_aaabaaab D A) (ccdq_t4_aaabaaab E B) ∧
    Splits8 (ccdq_t4_aabbaabb (sumD D E) (A.sum B)) (ccdq_t4_aabbaabb D A) (ccdq_t4_aabbaabb E B) ∧
    Splits8 (ccdq_t4_abbbabbb (sumD D E) (A.sum B)) (ccdq_t4_abbbabbb D A) (ccdq_t4_abbbabbb E B) ∧
    Splits8 (ccdq_t4_bbbbbbbb (sumD D E) (A.sum B)) (ccdq_t4_bbbbbbbb D A) (ccdq_t4_bbbbbbbb E B) :=
  ⟨splits_si D E A B Gen.ccdq_t2_aaaa (by decide +kernel) (by decide +kernel) (by decide +kernel),
   splits_si D E A B Gen.ccdq_t2_bbbb (by decide +kernel) (by decide +kernel) (by decide +kernel),
   splits_si D E A B Gen.ccdq_t2_abab (by decide +kernel) (by decide +kernel) (by decide +kernel),
   splits8_si D E A B Gen.ccdq_t4_aaaaaaaa (by decide +kernel) (by decide +kernel) (by decide +kernel),
   splits8_si D E A B Gen.ccdq_t4_aaabaaab (by decide +kernel) (by decide +kernel) (by decide +kernel),
   splits8_si D E A B Gen.ccdq_t4_aabbaabb (by decide +kernel) (by decide +kernel) (by decide +kernel),
   splits8_si D E A B Gen.ccdq_t4_abbbabbb (by decide +kernel) (by decide +kernel) (by decide +kernel),
   splits8_si D E A B Gen.ccdq_t4_bbbbbbbb (by decide +kernel) (by decide +kernel) (by decide +kernel)⟩

/-- Spin-integrated perturbative corrections: energies add, residuals have no entries between the systems. -/
theorem C63_spin_pert (A : SI I K) (B : SI J K) :
    si_energy_pertQf_t4 (sumD D E) (A.sum B) = si_energy_pertQf_t4 D A + si_energy_pertQf_t4 E B ∧
    Splits6 (approxT3_aaaaaa (sumD D E) (A.sum B)) (approxT3_aaaaaa D A) (approxT3_aaaaaa E B) ∧
    Splits6 (approxT3_aabaab (sumD D E) (A.sum B)) (approxT3_aabaab D A) (approxT3_aabaab E B) ∧
    Splits6 (approxT3_abbabb (sumD D E) (A.sum B)) (approxT3_abbabb D A) (approxT3_abbabb E B) ∧
    Splits6 (approxT3_bbbbbb (sumD D E) (A.sum B)) (approxT3_bbbbbb D A) (approxT3_bbbbbb E B) ∧
    square_brakT (sumD D E) (A.sum B) = square_brakT D A + square_brakT E B ∧
    Splits (test_t2_aaaa (sumD D E) (A.sum B)) (test_t2_aaaa D A) (test_t2_aaaa E B) ∧
    Splits (test_t2_abab (sumD D E) (A.sum B)) (test_t2_abab D A) (test_t2_abab E B) ∧
    Splits (test_t2_bbbb (sumD D E) (A.sum B)) (test_t2_bbbb D A) (test_t2_bbbb E B) :=
  ⟨Prog.sum_number D E _ A.T B.T (SI.sum_T_inl A B) (SI.sum_T_inr A B) (SI.sum_T_same A B) Gen.si_energy_pertQf_t4
      (by decide +kernel) (by decide +kernel),
   splits6_si D E A B Gen.approxT3_aaaaaa (by decide +kernel) (by decide +kernel) (by decide +kernel),
   splits6_si D E A B Gen.approxT3_aabaab (by decide +kernel) (by decide +kernel) (by decide +kernel),
   splits6_si D E A B Gen.approxT3_abbabb (by decide +kernel) (by decide +kernel) (by decide +kernel),
   splits6_si D E A B Gen.approxT3_bbbbbb (by decide +kernel) (by decide +kernel) (by decide +kernel),
   Prog.sum_number D E _ A.T B.T (SI.sum_T_inl A B) (SI.sum_T_inr A B) (SI.sum_T_same A B) Gen.square_brakT
      (by decide +kernel) (by decide +kernel),
   splits_si D E A B Gen.test_t2_aaaa (by decide +kernel) (by decide +kernel) (by decide +kernel),
   splits_si D E A B Gen.test_t2_abab (by decide +kernel) (by decide +kernel) (by decide +kernel),
   splits_si D E A B Gen.test_t2_bbbb (by decide +kernel) (by decide +kernel) (by decide +kernel)⟩

/-- Spin-integrated quadruples from doubles: energies add, residuals have no entries between the systems. -/
theorem C63_spin_t4 (A : SI I K) (B : SI J K) :
    Splits8 (ccsdtq_t4_aaaaaaaa (sumD D E) (A.sum B)) (ccsdtq_t4_aaaaaaaa D A) (ccsdtq_t4_aaaaaaaa E B) ∧
    Splits8 (ccsdtq_t4_aaabaaab (sumD D E) (A.sum B)) (ccsdtq_t4_aaabaaab D A) (ccsdtq_t4_aaabaaab E B) ∧
    Splits8 (ccsdtq_t4_aabbaabb (sumD D E) (A.sum B)) (ccsdtq_t4_aabbaabb D A) (ccsdtq_t4_aabbaabb E B) ∧
    Splits8 (ccsdtq_t4_abbbabbb (sumD D E) (A.sum B)) (ccsdtq_t4_abbbabbb D A) (ccsdtq_t4_abbbabbb E B) ∧
    Splits8 (ccsdtq_t4_bbbbbbbb (sumD D E) (A.sum B)) (ccsdtq_t4_bbbbbbbb D A) (ccsdtq_t4_bbbbbbbb E B) ∧
    Splits8 (ccsdtqT2cubed_t4_aaaaaaaa (sumD D E) (A.sum B)) (ccsdtqT2cubed_t4_aaaaaaaa D A) (ccsdtqT2cubed_t4_aaaaaaaa E B) ∧
    Splits8 (ccsdtqT2cubed_t4_aaabaaab (sumD D E) (A.sum B)) (ccsdtqT2cubed_t4_aaabaaab D A) (ccsdtqT2cubed_t4_aaabaaab E B) ∧
    Splits8 (ccsdtqT2cubed_t4_aabbaabb (sumD D E) (A.sum B)) (ccsdtqT2cubed_t4_aabbaabb D A) (ccsdtqT2cubed_t4_aabbaabb E B) ∧
    Splits8 (ccsdtqT2cubed_t4_abbbabbb (sumD D E) (A.sum B)) (ccsdtqT2cubed_t4_abbbabbb D A) (ccsdtqT2cubed_t4_abbbabbb E B) ∧
    Splits8 (ccsdtqT2cubed_t4_bbbbbbbb (sumD D E) (A.sum B)) (ccsdtqT2cubed_t4_bbbbbbbb D A) (ccsdtqT2cubed_t4_bbbbbbbb E B) :=
  ⟨splits8_si D E A B Gen.ccsdtq_t4_aaaaaaaa (by decide +kernel) (by decide +kernel) (by decide +kernel),
   splits8_si D E A B Gen.ccsdtq_t4_aaabaaab (by decide +kernel) (by decide +kernel) (by decide +kernel),
   splits8_si D E A B Gen.ccsdtq_t4_aabbaabb (by decide +kernel) (by decide +kernel) (by decide +kernel),
   splits8_si D E A B Gen.ccsdtq_t4_abbbabbb (by decide +kernel) (by decide +kernel) (by decide +kernel),
   splits8_si D E A B Gen.ccsdtq_t4_bbbbbbbb (by decide +kernel) (by decide +kernel) (by decide +kernel),
   splits8_si D E A B Gen.ccsdtqT2cubed_t4_aaaaaaaa (by decide +kernel) (by decide +kernel) (by decide +kernel),
   splits8_si D E A B Gen.ccsdtqT2cubed_t4_aaabaaab (by decide +kernel) (by decide +kernel) (by decide +kernel),
   splits8_si D E A B Gen.ccsdtqT2cubed_t4_aabbaabb (by decide +kernel) (by decide +kernel) (by decide +kernel),
   splits8_si D E A B Gen.ccsdtqT2cubed_t4_abbbabbb (by decide +kernel) (by decide +kernel) (by decide +kernel),
   splits8_si D E A B Gen.ccsdtqT2cubed_t4_bbbbbbbb (by decide +kernel) (by decide +kernel) (by decide +kernel)⟩

omit [Field K] [Inhabited I] [Inhabited J] in
theorem inl_mem_sumD (s : Nat) (x : I) : Sum.inl x ∈ sumD D E s ↔ x ∈ D s := by simp [sumD]

omit [Field K] [Inhabited I] [Inhabited J] in
theorem inr_mem_sumD (s : Nat) (x : J) : Sum.inr x ∈ sumD D E s ↔ x ∈ E s := by simp [sumD]


/-! ## solutions of the two systems combine -/

omit [Inhabited I] [Inhabited J] in
theorem Splits2.zero_vo {F : (I ⊕ J) → (I ⊕ J) → K} {f : I → I → K}
    {g : J → J → K} (h : Splits2 F f g)
    (hf : ∀ a ∈ D 1, ∀ b ∈ D 0, f a b = 0)
    (hg : ∀ a ∈ E 1, ∀ b ∈ E 0, g a b = 0) :
    ∀ a ∈ sumD D E 1, ∀ b ∈ sumD D E 0, F a b = 0 := by
  intro a ha b hb
  have hm := h.mixed a b
  rcases a with a | a
  · rcases b with b | b
    swap
    · exact hm ⟨⟨a, by simp⟩, ⟨b, by simp⟩⟩
    rw [h.left]
    exact hf _ ((inl_mem_sumD D E _ _).1 ha) _ ((inl_mem_sumD D E _ _).1 hb)
  · rcases b with b | b
    · exact hm ⟨⟨b, by simp⟩, ⟨a, by simp⟩⟩
    rw [h.right]
    exact hg _ ((inr_mem_sumD D E _ _).1 ha) _ ((inr_mem_sumD D E _ _).1 hb)


omit [Inhabited I] [Inhabited J] in
theorem Splits2.zero_ov {F : (I ⊕ J) → (I ⊕ J) → K} {f : I → I → K}
    {g : J → J → K} (h : Splits2 F f g)
    (hf : ∀ a ∈ D 0, ∀ b ∈ D 1, f a b = 0)
    (hg : ∀ a ∈ E 0, ∀ b ∈ E 1, g a b = 0) :
    ∀ a ∈ sumD D E 0, ∀ b ∈ sumD D E 1, F a b = 0 := by
  intro a ha b hb
  have hm := h.mixed a b
  rcases a with a | a
  · rcases b with b | b
    swap
    · exact hm ⟨⟨a, by simp⟩, ⟨b, by simp⟩⟩
    rw [h.left]
    exact hf _ ((inl_mem_sumD D E _ _).1 ha) _ ((inl_mem_sumD D E _ _).1 hb)
  · rcases b with b | b
    · exact hm ⟨⟨b, by simp⟩, ⟨a, by simp⟩⟩
    rw [h.right]
    exact hg _ ((inr_mem_sumD D E _ _).1 ha) _ ((inr_mem_sumD D E _ _).1 hb)


omit [Inhabited I] [Inhabited J] in
theorem Splits.zero_vo {F : (I ⊕ J) → (I ⊕ J) → (I ⊕ J) → (I ⊕ J) → K} {f : I → I → I → I → K}
    {g : J → J → J → J → K} (h : Splits F f g)
    (hf : ∀ a ∈ D 1, ∀ b ∈ D 1, ∀ c ∈ D 0, ∀ d ∈ D 0, f a b c d = 0)
    (hg : ∀ a ∈ E 1, ∀ b ∈ E 1, ∀ c ∈ E 0, ∀ d ∈ E 0, g a b c d = 0) :
    ∀ a ∈ sumD D E 1, ∀ b ∈ sumD D E 1, ∀ c ∈ sumD D E 0, ∀ d ∈ sumD D E 0, F a b c d = 0 := by
  intro a ha b hb c hc d hd
  have hm := h.mixed a b c d
  rcases a with a | a
  · rcases b with b | b
    swap
    · exact hm ⟨⟨a, by simp⟩, ⟨b, by simp⟩⟩
    rcases c with c | c
    swap
    · exact hm ⟨⟨a, by simp⟩, ⟨c, by simp⟩⟩
    rcases d with d | d
    swap
    · exact hm ⟨⟨a, by simp⟩, ⟨d, by simp⟩⟩
    rw [h.left]
    exact hf _ ((inl_mem_sumD D E _ _).1 ha) _ ((inl_mem_sumD D E _ _).1 hb) _ ((inl_mem_sumD D E _ _).1 hc) _ ((inl_mem_sumD D E _ _).1 hd)
  · rcases b with b | b
    · exact hm ⟨⟨b, by simp⟩, ⟨a, by simp⟩⟩
    rcases c with c | c
    · exact hm ⟨⟨c, by simp⟩, ⟨a, by simp⟩⟩
    rcases d with d | d
    · exact hm ⟨⟨d, by simp⟩, ⟨a, by simp⟩⟩
    rw [h.right]
    exact hg _ ((inr_mem_sumD D E _ _).1 ha) _ ((inr_mem_sumD D E _ _).1 hb) _ ((inr_mem_sumD D E _ _).1 hc) _ ((inr_mem_sumD D E _ _).1 hd)


omit [Inhabited I] [Inhabited J] in
theorem Splits.zero_ov {F : (I ⊕ J) → (I ⊕ J) → (I ⊕ J) → (I ⊕ J) → K} {f : I → I → I → I → K}
    {g : J → J → J → J → K} (h : Splits F f g)
    (hf : ∀ a ∈ D 0, ∀ b ∈ D 0, ∀ c ∈ D 1, ∀ d ∈ D 1, f a b c d = 0)
    (hg : ∀ a ∈ E 0, ∀ b ∈ E 0, ∀ c ∈ E 1, ∀ d ∈ E 1, g a b c d = 0) :
    ∀ a ∈ sumD D E 0, ∀ b ∈ sumD D E 0, ∀ c ∈ sumD D E 1, ∀ d ∈ sumD D E 1, F a b c d = 0 := by
  intro a ha b hb c hc d hd
  have hm := h.mixed a b c d
  rcases a with a | a
  · rcases b with b | b
    swap
    · exact hm ⟨⟨a, by simp⟩, ⟨b, by simp⟩⟩
    rcases c with c | c
    swap
    · exact hm ⟨⟨a, by simp⟩, ⟨c, by simp⟩⟩
    rcases d with d | d
    swap
    · exact hm ⟨⟨a, by simp⟩, ⟨d, by simp⟩⟩
    rw [h.left]
    exact hf _ ((inl_mem_sumD D E _ _).1 ha) _ ((inl_mem_sumD D E _ _).1 hb) _ ((inl_mem_sumD D E _ _).1 hc) _ ((inl_mem_sumD D E _ _).1 hd)
  · rcases b with b | b
    · exact hm ⟨⟨b, by simp⟩, ⟨a, by simp⟩⟩
    rcases c with c | c
    · exact hm ⟨⟨c, by simp⟩, ⟨a, by simp⟩⟩
    rcases d with d | d
    · exact hm ⟨⟨d, by simp⟩, ⟨a, by simp⟩⟩
    rw [h.right]
    exact hg _ ((inr_mem_sumD D E _ _).1 ha) _ ((inr_mem_sumD D E _ _).1 hb) _ ((inr_mem_sumD D E _ _).1 hc) _ ((inr_mem_sumD D E _ _).1 hd)


omit [Inhabited I] [Inhabited J] in
theorem Splits6.zero_vo {F : (I ⊕ J) → (I ⊕ J) → (I ⊕ J) → (I ⊕ J) → (I ⊕ J) → (I ⊕ J) → K} {f : I → I → I → I → I → I → K}
    {g : J → J → J → J → J → J → K} (h : Splits6 F f g)
    (hf : ∀ a ∈ D 1, ∀ b ∈ D 1, ∀ c ∈ D 1, ∀ d ∈ D 0, ∀ i ∈ D 0, ∀ j ∈ D 0, f a b c d i j = 0)
    (hg : ∀ a ∈ E 1, ∀ b ∈ E 1, ∀ c ∈ E 1, ∀ d ∈ E 0, ∀ i ∈ E 0, ∀ j ∈ E 0, g a b c d i j = 0) :
    ∀ a ∈ sumD D E 1, ∀ b ∈ sumD D E 1, ∀ c ∈ sumD D E 1, ∀ d ∈ sumD D E 0, ∀ i ∈ sumD D E 0, ∀ j ∈ sumD D E 0, F a b c d i j = 0 := by
  intro a ha b hb c hc d hd i hi j hj
  have hm := h.mixed a b c d i j
  rcases a with a | a
  · rcases b with b | b
    swap
    · exact hm ⟨⟨a, by simp⟩, ⟨b, by simp⟩⟩
    rcases c with c | c
    swap
    · exact hm ⟨⟨a, by simp⟩, ⟨c, by simp⟩⟩
    rcases d with d | d
    swap
    · exact hm ⟨⟨a, by simp⟩, ⟨d, by simp⟩⟩
    rcases i with i | i
    swap
    · exact hm ⟨⟨a, by simp⟩, ⟨i, by simp⟩⟩
    rcases j with j | j
    swap
    · exact hm ⟨⟨a, by simp⟩, ⟨j, by simp⟩⟩
    rw [h.left]
    exact hf _ ((inl_mem_sumD D E _ _).1 ha) _ ((inl_mem_sumD D E _ _).1 hb) _ ((inl_mem_sumD D E _ _).1 hc) _ ((inl_mem_sumD D E _ _).1 hd) _ ((inl_mem_sumD D E _ _).1 hi) _ ((inl_mem_sumD D E _ _).1 hj)
  · rcases b with b | b
    · exact hm ⟨⟨b, by simp⟩, ⟨a, by simp⟩⟩
    rcases c with c | c
    · exact hm ⟨⟨c, by simp⟩, ⟨a, by simp⟩⟩
    rcases d with d | d
    · exact hm ⟨⟨d, by simp⟩, ⟨a, by simp⟩⟩
    rcases i with i | i
    · exact hm ⟨⟨i, by simp⟩, ⟨a, by simp⟩⟩
    rcases j with j | j
    · exact hm ⟨⟨j, by simp⟩, ⟨a, by simp⟩⟩
    rw [h.right]
    exact hg _ ((inr_mem_sumD D E _ _).1 ha) _ ((inr_mem_sumD D E _ _).1 hb) _ ((inr_mem_sumD D E _ _).1 hc) _ ((inr_mem_sumD D E _ _).1 hd) _ ((inr_mem_sumD D E _ _).1 hi) _ ((inr_mem_sumD D E _ _).1 hj)


omit [Inhabited I] [Inhabited J] in
theorem Splits6.zero_ov {F : (I ⊕ J) → (I ⊕ J) → (I ⊕ J) → (I ⊕ J) → (I ⊕ J) → (I ⊕ J) → K} {f : I → I → I → I → I → I → K}
    {g : J → J → J → J → J → J → K} (h : Splits6 F f g)
    (hf : ∀ a ∈ D 0, ∀ b ∈ D 0, ∀ c ∈ D 0, ∀ d ∈ D 1, ∀ i ∈ D 1, ∀ j ∈ D 1, f a b c d i j = 0)
    (hg : ∀ a ∈ E 0, ∀ b ∈ E 0, ∀ c ∈ E 0, ∀ d ∈ E 1, ∀ i ∈ E 1, ∀ j ∈ E 1, g a b c d i j = 0) :
    ∀ a ∈ sumD D E 0, ∀ b ∈ sumD D E 0, ∀ c ∈ sumD D E 0, ∀ d ∈ sumD D E 1, ∀ i ∈ sumD D E 1, ∀ j ∈ sumD D E 1, F a b c d i j = 0 := by
  intro a ha b hb c hc d hd i hi j hj
  have hm := h.mixed a b c d i j
  rcases a with a | a
  · rcases b with b | b
    swap
    · exact hm ⟨⟨a, by simp⟩, ⟨b, by simp⟩⟩
    rcases c with c | c
    swap
    · exact hm ⟨⟨a, by simp⟩, ⟨c, by simp⟩⟩
    rcases d with d | d
    swap
    · exact hm ⟨⟨a, by simp⟩, ⟨d, by simp⟩⟩
    rcases i with i | i
    swap
    · exact hm ⟨⟨a, by simp⟩, ⟨i, by simp⟩⟩
    rcases j with j | j
    swap
    · exact hm ⟨⟨a, by simp⟩, ⟨j, by simp⟩⟩
    rw [h.left]
    exact hf _ ((inl_mem_sumD D E _ _).1 ha) _ ((inl_mem_sumD D E _ _).1 hb) _ ((inl_mem_sumD D E _ _).1 hc) _ ((inl_mem_sumD D E _ _).1 hd) _ ((inl_mem_sumD D E _ _).1 hi) _ ((inl_mem_sumD D E _ _).1 hj)
  · rcases b with b | b
    · exact hm ⟨⟨b, by simp⟩, ⟨a, by simp⟩⟩
    rcases c with c | c
    · exact hm ⟨⟨c, by simp⟩, ⟨a, by simp⟩⟩
    rcases d with d | d
    · exact hm ⟨⟨d, by simp⟩, ⟨a, by simp⟩⟩
    rcases i with i | i
    · exact hm ⟨⟨i, by simp⟩, ⟨a, by simp⟩⟩
    rcases j with j | j
    · exact hm ⟨⟨j, by simp⟩, ⟨a, by simp⟩⟩
    rw [h.right]
    exact hg _ ((inr_mem_sumD D E _ _).1 ha) _ ((inr_mem_sumD D E _ _).1 hb) _ ((inr_mem_sumD D E _ _).1 hc) _ ((inr_mem_sumD D E _ _).1 hd) _ ((inr_mem_sumD D E _ _).1 hi) _ ((inr_mem_sumD D E _ _).1 hj)


omit [Inhabited I] [Inhabited J] in
theorem Splits8.zero_vo {F : (I ⊕ J) → (I ⊕ J) → (I ⊕ J) → (I ⊕ J) → (I ⊕ J) → (I ⊕ J) → (I ⊕ J) → (I ⊕ J) → K} {f : I → I → I → I → I → I → I → I → K}
    {g : J → J → J → J → J → J → J → J → K} (h : Splits8 F f g)
    (hf : ∀ a ∈ D 1, ∀ b ∈ D 1, ∀ c ∈ D 1, ∀ d ∈ D 1, ∀ i ∈ D 0, ∀ j ∈ D 0, ∀ k ∈ D 0, ∀ l ∈ D 0, f a b c d i j k l = 0)
    (hg : ∀ a ∈ E 1, ∀ b ∈ E 1, ∀ c ∈ E 1, ∀ d ∈ E 1, ∀ i ∈ E 0, ∀ j ∈ E 0, ∀ k ∈ E 0, ∀ l ∈ E 0, g a b c d i j k l = 0) :
    ∀ a ∈ sumD D E 1, ∀ b ∈ sumD D E 1, ∀ c ∈ sumD D E 1, ∀ d ∈ sumD D E 1, ∀ i ∈ sumD D E 0, ∀ j ∈ sumD D E 0, ∀ k ∈ sumD D E 0, ∀ l ∈ sumD D E 0, F a b c d i j k l = 0 := by
  intro a ha b hb c hc d hd i hi j hj k hk l hl
  have hm := h.mixed a b c d i j k l
  rcases a with a | a
  · rcases b with b | b
    swap
    · exact hm ⟨⟨a, by simp⟩, ⟨b, by simp⟩⟩
    rcases c with c | c
    swap
    · exact hm ⟨⟨a, by simp⟩, ⟨c, by simp⟩⟩
    rcases d with d | d
    swap
    · exact hm ⟨⟨a, by simp⟩, ⟨d, by simp⟩⟩
    rcases i with i | i
    swap
    · exact hm ⟨⟨a, by simp⟩, ⟨i, by simp⟩⟩
    rcases j with j | j
    swap
    · exact hm ⟨⟨a, by simp⟩, ⟨j, by simp⟩⟩
    rcases k with k | k
    swap
    · exact hm ⟨⟨a, by simp⟩, ⟨k, by simp⟩⟩
    rcases l with l | l
    swap
    · exact hm ⟨⟨a, by simp⟩, ⟨l, by simp⟩⟩
    rw [h.left]
    exact hf _ ((inl_mem_sumD D E _ _).1 ha) _ ((inl_mem_sumD D E _ _).1 hb) _ ((inl_mem_sumD D E _ _).1 hc) _ ((inl_mem_sumD D E _ _).1 hd) _ ((inl_mem_sumD D E _ _).1 hi) _ ((inl_mem_sumD D E _ _).1 hj) _ ((inl_mem_sumD D E _ _).1 hk) _ ((inl_mem_sumD D E _ _).1 hl)
  · rcases b with b | b
    · exact hm ⟨⟨b, by simp⟩, ⟨a, by simp⟩⟩
    rcases c with c | c
    · exact hm ⟨⟨c, by simp⟩, ⟨a, by simp⟩⟩
    rcases d with d | d
    · exact hm ⟨⟨d, by simp⟩, ⟨a, by simp⟩⟩
    rcases i with i | i
    · exact hm ⟨⟨i, by simp⟩, ⟨a, by simp⟩⟩
    rcases j with j | j
    · exact hm ⟨⟨j, by simp⟩, ⟨a, by simp⟩⟩
    rcases k with k | k
    · exact hm ⟨⟨k, by simp⟩, ⟨a, by simp⟩⟩
    rcases l with l | l
    · exact hm ⟨⟨l, by simp⟩, ⟨a, by simp⟩⟩
    rw [h.right]
    exact hg _ ((inr_mem_sumD D E _ _).1 ha) _ ((inr_mem_sumD D E _ _).1 hb) _ ((inr_mem_sumD D E _ _).1 hc) _ ((inr_mem_sumD D E _ _).1 hd) _ ((inr_mem_sumD D E _ _).1 hi) _ ((inr_mem_sumD D E _ _).1 hj) _ ((inr_mem_sumD D E _ _).1 hk) _ ((inr_mem_sumD D E _ _).1 hl)


omit [Inhabited I] [Inhabited J] in
theorem Splits8.zero_ov {F : (I ⊕ J) → (I ⊕ J) → (I ⊕ J) → (I ⊕ J) → (I ⊕ J) → (I ⊕ J) → (I ⊕ J) → (I ⊕ J) → K} {f : I → I → I → I → I → I → I → I → K}
    {g : J → J → J → J → J → J → J → J → K} (h : Splits8 F f g)
    (hf : ∀ a ∈ D 0, ∀ b ∈ D 0, ∀ c ∈ D 0, ∀ d ∈ D 0, ∀ i ∈ D 1, ∀ j ∈ D 1, ∀ k ∈ D 1, ∀ l ∈ D 1, f a b c d i j k l = 0)
    (hg : ∀ a ∈ E 0, ∀ b ∈ E 0, ∀ c ∈ E 0, ∀ d ∈ E 0, ∀ i ∈ E 1, ∀ j ∈ E 1, ∀ k ∈ E 1, ∀ l ∈ E 1, g a b c d i j k l = 0) :
    ∀ a ∈ sumD D E 0, ∀ b ∈ sumD D E 0, ∀ c ∈ sumD D E 0, ∀ d ∈ sumD D E 0, ∀ i ∈ sumD D E 1, ∀ j ∈ sumD D E 1, ∀ k ∈ sumD D E 1, ∀ l ∈ sumD D E 1, F a b c d i j k l = 0 := by
  intro a ha b hb c hc d hd i hi j hj k hk l hl
  have hm := h.mixed a b c d i j k l
  rcases a with a | a
  · rcases b with b | b
    swap
    · exact hm ⟨⟨a, by simp⟩, ⟨b, by simp⟩⟩
    rcases c with c | c
    swap
    · exact hm ⟨⟨a, by simp⟩, ⟨c, by simp⟩⟩
    rcases d with d | d
    swap
    · exact hm ⟨⟨a, by simp⟩, ⟨d, by simp⟩⟩
    rcases i with i | i
    swap
    · exact hm ⟨⟨a, by simp⟩, ⟨i, by simp⟩⟩
    rcases j with j | j
    swap
    · exact hm ⟨⟨a, by simp⟩, ⟨j, by simp⟩⟩
    rcases k with k | k
    swap
    · exact hm ⟨⟨a, by simp⟩, ⟨k, by simp⟩⟩
    rcases l with l | l
    swap
    · exact hm ⟨⟨a, by simp⟩, ⟨l, by simp⟩⟩
    rw [h.left]
    exact hf _ ((inl_mem_sumD D E _ _).1 ha) _ ((inl_mem_sumD D E _ _).1 hb) _ ((inl_mem_sumD D E _ _).1 hc) _ ((inl_mem_sumD D E _ _).1 hd) _ ((inl_mem_sumD D E _ _).1 hi) _ ((inl_mem_sumD D E _ _).1 hj) _ ((inl_mem_sumD D E _ _).1 hk) _ ((inl_mem_sumD D E _ _).1 hl)
  · rcases b with b | b
    · exact hm ⟨⟨b, by simp⟩, ⟨a, by simp⟩⟩
    rcases c with c | c
    · exact hm ⟨⟨c, by simp⟩, ⟨a, by simp⟩⟩
    rcases d with d | d
    · exact hm ⟨⟨d, by simp⟩, ⟨a, by simp⟩⟩
    rcases i with i | i
    · exact hm ⟨⟨i, by simp⟩, ⟨a, by simp⟩⟩
    rcases j with j | j
    · exact hm ⟨⟨j, by simp⟩, ⟨a, by simp⟩⟩
    rcases k with k | k
    · exact hm ⟨⟨k, by simp⟩, ⟨a, by simp⟩⟩
    rcases l with l | l
    · exact hm ⟨⟨l, by simp⟩, ⟨a, by simp⟩⟩
    rw [h.right]
    exact hg _ ((inr_mem_sumD D E _ _).1 ha) _ ((inr_mem_sumD D E _ _).1 hb) _ ((inr_mem_sumD D E _ _).1 hc) _ ((inr_mem_sumD D E _ _).1 hd) _ ((inr_mem_sumD D E _ _).1 hi) _ ((inr_mem_sumD D E _ _).1 hj) _ ((inr_mem_sumD D E _ _).1 hk) _ ((inr_mem_sumD D E _ _).1 hl)


/-- The amplitudes solve the CCSD equations of the code. -/
def Solves_ccsd {I : Type} [Inhabited I] (D : Nat → Finset I) (A : SO I K) : Prop :=
  (∀ a ∈ D 0, ∀ b ∈ D 1, ccsd_t1resid D A a b = 0) ∧
  (∀ a ∈ D 0, ∀ b ∈ D 0, ∀ c ∈ D 1, ∀ d ∈ D 1, ccsd_t2resid D A a b c d = 0)

/-- If both systems solve the CCSD equations, so do the combined amplitudes, and the energies add. -/
theorem C63_ccsd_solutions (A : SO I K) (B : SO J K) (hA : Solves_ccsd D A) (hB : Solves_ccsd E B) :
    Solves_ccsd (sumD D E) (A.sum B) ∧ spinorbitalCCSDE (sumD D E) (A.sum B) = spinorbitalCCSDE D A + spinorbitalCCSDE E B := by
  refine ⟨⟨?_, ?_⟩, (C63_ccsd D E A B).1⟩
  · exact Splits2.zero_ov D E (C63_ccsd D E A B).2.2.1 hA.1 hB.1
  · exact Splits.zero_ov D E (C63_ccsd D E A B).2.2.2 hA.2 hB.2

/-- The amplitudes solve the CCSDT equations of the code. -/
def Solves_ccsdt {I : Type} [Inhabited I] (D : Nat → Finset I) (A : SO I K) : Prop :=
  (∀ a ∈ D 0, ∀ b ∈ D 1, ccsdt_t1eqns D A a b = 0) ∧
  (∀ a ∈ D 0, ∀ b ∈ D 0, ∀ c ∈ D 1, ∀ d ∈ D 1, ccsdt_t2eqns D A a b c d = 0) ∧
  (∀ a ∈ D 0, ∀ b ∈ D 0, ∀ c ∈ D 0, ∀ d ∈ D 1, ∀ i ∈ D 1, ∀ j ∈ D 1, ccsdt_t3eqns D A a b c d i j = 0)

/-- If both systems solve the CCSDT equations, so do the combined amplitudes, and the energies add. -/
theorem C63_ccsdt_solutions (A : SO I K) (B : SO J K) (hA : Solves_ccsdt D A) (hB : Solves_ccsdt E B) :
    Solves_ccsdt (sumD D E) (A.sum B) ∧ spinorbitalCCSDE (sumD D E) (A.sum B) = spinorbitalCCSDE D A + spinorbitalCCSDE E B := by
  refine ⟨⟨?_, ?_, ?_⟩, (C63_ccsd D E A B).1⟩
  · exact Splits2.zero_ov D E (C63_ccsdt D E A B).1 hA.1 hB.1
  · exact Splits.zero_ov D E (C63_ccsdt D E A B).2.1 hA.2.1 hB.2.1
  · exact Splits6.zero_ov D E (C63_ccsdt D E A B).2.2 hA.2.2 hB.2.2

/-- The amplitudes solve the CCDQ equations of the code. -/
def Solves_ccdq {I : Type} [Inhabited I] (D : Nat → Finset I) (A : SO I K) : Prop :=
  (∀ a ∈ D 0, ∀ b ∈ D 0, ∀ c ∈ D 1, ∀ d ∈ D 1, ccdq_t2eqns D A a b c d = 0) ∧
  (∀ a ∈ D 0, ∀ b ∈ D 0, ∀ c ∈ D 0, ∀ d ∈ D 0, ∀ i ∈ D 1, ∀ j ∈ D 1, ∀ k ∈ D 1, ∀ l ∈ D 1, ccdq_t4eqns D A a b c d i j k l = 0)

/-- If both systems solve the CCDQ equations, so do the combined amplitudes, and the energies add. -/
theorem C63_ccdq_solutions (A : SO I K) (B : SO J K) (hA : Solves_ccdq D A) (hB : Solves_ccdq E B) :
    Solves_ccdq (sumD D E) (A.sum B) ∧ spinorbitalCCDE (sumD D E) (A.sum B) = spinorbitalCCDE D A + spinorbitalCCDE E B := by
  refine ⟨⟨?_, ?_⟩, (C63_ccsd D E A B).2.1⟩
  · exact Splits.zero_ov D E (C63_ccdq D E A B).1 hA.1 hB.1
  · exact Splits8.zero_ov D E (C63_ccdq D E A B).2 hA.2 hB.2

/-- The amplitudes solve the spin-integrated CCSDT equations of the code. -/
def Solves_spin_ccsdt {I : Type} [Inhabited I] (D : Nat → Finset I) (A : SI I K) : Prop :=
  (∀ a ∈ D 1, ∀ b ∈ D 0, ccsdt_t1_aa D A a b = 0) ∧
  (∀ a ∈ D 1, ∀ b ∈ D 0, ccsdt_t1_bb D A a b = 0) ∧
  (∀ a ∈ D 1, ∀ b ∈ D 1, ∀ c ∈ D 0, ∀ d ∈ D 0, ccsdt_t2_aaaa D A a b c d = 0) ∧
  (∀ a ∈ D 1, ∀ b ∈ D 1, ∀ c ∈ D 0, ∀ d ∈ D 0, ccsdt_t2_bbbb D A a b c d = 0) ∧
  (∀ a ∈ D 1, ∀ b ∈ D 1, ∀ c ∈ D 0, ∀ d ∈ D 0, ccsdt_t2_abab D A a b c d = 0) ∧
  (∀ a ∈ D 1, ∀ b ∈ D 1, ∀ c ∈ D 1, ∀ d ∈ D 0, ∀ i ∈ D 0, ∀ j ∈ D 0, ccsdt_t3_aaaaaa D A a b c d i j = 0) ∧
  (∀ a ∈ D 1, ∀ b ∈ D 1, ∀ c ∈ D 1, ∀ d ∈ D 0, ∀ i ∈ D 0, ∀ j ∈ D 0, ccsdt_t3_aabaab D A a b c d i j = 0) ∧
  (∀ a ∈ D 1, ∀ b ∈ D 1, ∀ c ∈ D 1, ∀ d ∈ D 0, ∀ i ∈ D 0, ∀ j ∈ D 0, ccsdt_t3_abbabb D A a b c d i j = 0) ∧
  (∀ a ∈ D 1, ∀ b ∈ D 1, ∀ c ∈ D 1, ∀ d ∈ D 0, ∀ i ∈ D 0, ∀ j ∈ D 0, ccsdt_t3_bbbbbb D A a b c d i j = 0)

/-- If both systems solve the spin-integrated CCSDT equations, so do the combined amplitudes, and the energies add. -/
theorem C63_spin_ccsdt_solutions (A : SI I K) (B : SI J K) (hA : Solves_spin_ccsdt D A) (hB : Solves_spin_ccsdt E B) :
    Solves_spin_ccsdt (sumD D E) (A.sum B) ∧ ccsd_energy_with_spin (sumD D E) (A.sum B) = ccsd_energy_with_spin D A + ccsd_energy_with_spin E B := by
  refine ⟨⟨?_, ?_, ?_, ?_, ?_, ?_, ?_, ?_, ?_⟩, (C63_spin_ccsdt D E A B).1⟩
  · exact Splits2.zero_vo D E (C63_spin_ccsdt D E A B).2.1 hA.1 hB.1
  · exact Splits2.zero_vo D E (C63_spin_ccsdt D E A B).2.2.1 hA.2.1 hB.2.1
  · exact Splits.zero_vo D E (C63_spin_ccsdt D E A B).2.2.2.1 hA.2.2.1 hB.2.2.1
  · exact Splits.zero_vo D E (C63_spin_ccsdt D E A B).2.2.2.2.1 hA.2.2.2.1 hB.2.2.2.1
  · exact Splits.zero_vo D E (C63_spin_ccsdt D E A B).2.2.2.2.2.1 hA.2.2.2.2.1 hB.2.2.2.2.1
  · exact Splits6.zero_vo D E (C63_spin_ccsdt D E A B).2.2.2.2.2.2.1 hA.2.2.2.2.2.1 hB.2.2.2.2.2.1
  · exact Splits6.zero_vo D E (C63_spin_ccsdt D E A B).2.2.2.2.2.2.2.1 hA.2.2.2.2.2.2.1 hB.2.2.2.2.2.2.1
  · exact Splits6.zero_vo D E (C63_spin_ccsdt D E A B).2.2.2.2.2.2.2.2.1 hA.2.2.2.2.2.2.2.1 hB.2.2.2.2.2.2.2.1
  · exact Splits6.zero_vo D E (C63_spin_ccsdt D E A B).2.2.2.2.2.2.2.2.2 hA.2.2.2.2.2.2.2.2 hB.2.2.2.2.2.2.2.2

/-- The amplitudes solve the spin-integrated CCDQ equations of the code. -/
def Solves_spin_ccdq {I : Type} [Inhabited I] (D : Nat → Finset I) (A : SI I K) : Prop :=
  (∀ a ∈ D 1, ∀ b ∈ D 1, ∀ c ∈ D 0, ∀ d ∈ D 0, ccdq_t2_aaaa D A a b c d = 0) ∧
  (∀ a ∈ D 1, ∀ b ∈ D 1, ∀ c ∈ D 0, ∀ d ∈ D 0, ccdq_t2_bbbb D A a b c d = 0) ∧
  (∀ a ∈ D 1, ∀ b ∈ D 1, ∀ c ∈ D 0, ∀ d ∈ D 0, ccdq_t2_abab D A a b c d = 0) ∧
  (∀ a ∈ D 1, ∀ b ∈ D 1, ∀ c ∈ D 1, ∀ d ∈ D 1, ∀ i ∈ D 0, ∀ j ∈ D 0, ∀ k ∈ D 0, ∀ l ∈ D 0, ccdq_t4_aaaaaaaa D A a b c d i j k l = 0) ∧
  (∀ a ∈ D 1, ∀ b ∈ D 1, ∀ c ∈ D 1, ∀ d ∈ D 1, ∀ i ∈ D 0, ∀ j ∈ D 0, ∀ k ∈ D 0, ∀ l ∈ D 0, ccdq_t4_aaabaaab D A a b c d i j k l = 0) ∧
  (∀ a ∈ D 1, ∀ b ∈ D 1, ∀ c ∈ D 1, ∀ d ∈ D 1, ∀ i ∈ D 0, ∀ j ∈ D 0, ∀ k ∈ D 0, ∀ l ∈ D 0, ccdq_t4_aabbaabb D A a b c d i j k l = 0) ∧
  (∀ a ∈ D 1, ∀ b ∈ D 1, ∀ c ∈ D 1, ∀ d ∈ D 1, ∀ i ∈ D 0, ∀ j ∈ D 0, ∀ k ∈ D 0, ∀ l ∈ D 0, ccdq_t4_abbbabbb D A a b c d i j k l = 0) ∧
  (∀ a ∈ D 1, ∀ b ∈ D 1, ∀ c ∈ D 1, ∀ d ∈ D 1, ∀ i ∈ D 0, ∀ j ∈ D 0, ∀ k ∈ D 0, ∀ l ∈ D 0, ccdq_t4_bbbbbbbb D A a b c d i j k l = 0)

/-- If both systems solve the spin-integrated CCDQ equations, so do the combined amplitudes, and the energies add. -/
theorem C63_spin_ccdq_solutions (A : SI I K) (B : SI J K) (hA : Solves_spin_ccdq D A) (hB : Solves_spin_ccdq E B) :
    Solves_spin_ccdq (sumD D E) (A.sum B) ∧ ccd_energy_with_spin (sumD D E) (A.sum B) = ccd_energy_with_spin D A + ccd_energy_with_spin E B := by
  refine ⟨⟨?_, ?_, ?_, ?_, ?_, ?_, ?_, ?_⟩, C40_energy_spin D E A B⟩
  · exact Splits.zero_vo D E (C63_spin_ccdq D E A B).1 hA.1 hB.1
  · exact Splits.zero_vo D E (C63_spin_ccdq D E A B).2.1 hA.2.1 hB.2.1
  · exact Splits.zero_vo D E (C63_spin_ccdq D E A B).2.2.1 hA.2.2.1 hB.2.2.1
  · exact Splits8.zero_vo D E (C63_spin_ccdq D E A B).2.2.2.1 hA.2.2.2.1 hB.2.2.2.1
  · exact Splits8.zero_vo D E (C63_spin_ccdq D E A B).2.2.2.2.1 hA.2.2.2.2.1 hB.2.2.2.2.1
  · exact Splits8.zero_vo D E (C63_spin_ccdq D E A B).2.2.2.2.2.1 hA.2.2.2.2.2.1 hB.2.2.2.2.2.1
  · exact Splits8.zero_vo D E (C63_spin_ccdq D E A B).2.2.2.2.2.2.1 hA.2.2.2.2.2.2.1 hB.2.2.2.2.2.2.1
  · exact Splits8.zero_vo D E (C63_spin_ccdq D E A B).2.2.2.2.2.2.2 hA.2.2.2.2.2.2.2 hB.2.2.2.2.2.2.2

/-! ### a case -/

/-- Entries of one system are those of its own calculation. -/
example : ccsd_t1resid (sumD Witness.D Witness.D33) (Witness.so.sum Witness.so) (.inl 0) (.inl 2) =
    ccsd_t1resid Witness.D Witness.so 0 2 :=
  ((C63_ccsd Witness.D Witness.D33 Witness.so Witness.so).2.2.1).left 0 2

example : ccsd_t1resid Witness.D Witness.so 0 2 ≠ 0 := by decide +kernel

/-- A system with one occupied and one virtual spin orbital that solves the CCSD equations, with correlation energy 4. -/
def solved : SO ℕ ℚ where
  f p q := if p = q then 3 * p else 2
  t1 _ _ := 2

def D11 : Nat → Finset ℕ
  | 0 => {0}
  | _ => {1}

theorem solved_solves : Solves_ccsd D11 solved ∧ spinorbitalCCSDE D11 solved = 4 := by
  unfold Solves_ccsd
  decide +kernel

example : Solves_ccsd (sumD D11 D11) (solved.sum solved) ∧ spinorbitalCCSDE (sumD D11 D11) (solved.sum solved) = 8 := by
  have h := C63_ccsd_solutions D11 D11 solved solved solved_solves.1 solved_solves.1
  rw [solved_solves.2] at h
  exact ⟨h.1, h.2.trans (by norm_num)⟩

end Verif.Props
