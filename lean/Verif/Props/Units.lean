import Verif.Ein.Fast
import Verif.Ein.Tame
import Verif.Props.WholeUcc4
import Verif.Model.WholeFull
import Verif.Model.FullCC

/-!
# The unit of energy (C90)

Integrals, orbital energies and the stopping threshold are given in another unit: all are multiplied by a number `c > 0`. The
amplitudes are pure numbers, so they must not change, and all energies must be multiplied by `c`.
-/

namespace Verif.Props

open Verif.Ein Verif.UT2 Verif.Kernel Verif.Py
open Verif.Wick (InBox)

/-! ## arrays in another unit -/

section arrays

variable {I K : Type} [Field K] [Inhabited I] (D : Nat → Finset I)

/-- The same arrays with the integrals in another unit. -/
def soUnit (c : K) (S : SO I K) : SO I K :=
  { S with
    f := fun p q => c * S.f p q
    g := fun p q r s => c * S.g p q r s }

/-- The same for spin-integrated arrays. -/
def siUnit (c : K) (A : SI I K) : SI I K :=
  { A with
    f_aa := fun p q => c * A.f_aa p q
    f_bb := fun p q => c * A.f_bb p q
    g_aaaa := fun p q r s => c * A.g_aaaa p q r s
    g_abab := fun p q r s => c * A.g_abab p q r s
    g_bbbb := fun p q r s => c * A.g_bbbb p q r s }

/-- Denominators (inverse energies) in another unit. -/
def denUnit (c : K) (d : I → I → I → I → K) (a b i j : I) : K := c⁻¹ * d a b i j

omit [Inhabited I] in
theorem soUnit_T (c : K) (S : SO I K) : (∀ t ∉ [15, 23], ∀ l, (soUnit c S).T t l = S.T t l) ∧
    ∀ t ∈ [15, 23], ∀ l, (soUnit c S).T t l = c * S.T t l := by
  constructor
  · intro t ht l
    simp only [List.mem_cons, List.not_mem_nil, or_false, not_or] at ht
    unfold SO.T soUnit
    simp only [ht, if_false]
  · intro t ht l
    simp only [List.mem_cons, List.not_mem_nil, or_false] at ht
    rcases ht with rfl | rfl
    · match l with
      | [p, q] => rfl
      | [] | [_] | _ :: _ :: _ :: _ => exact (mul_zero _).symm
    · match l with
      | [p, q, r, s] => rfl
      | [] | [_] | [_, _] | [_, _, _] | _ :: _ :: _ :: _ :: _ :: _ => exact (mul_zero _).symm

omit [Inhabited I] in
theorem siUnit_T (c : K) (A : SI I K) : (∀ t ∉ [8, 9, 16, 17, 18], ∀ l, (siUnit c A).T t l = A.T t l) ∧
    ∀ t ∈ [8, 9, 16, 17, 18], ∀ l, (siUnit c A).T t l = c * A.T t l := by
  constructor
  · intro t ht l
    simp only [List.mem_cons, List.not_mem_nil, or_false, not_or] at ht
    unfold SI.T siUnit
    simp only [ht, if_false]
  · intro t ht l
    simp only [List.mem_cons, List.not_mem_nil, or_false] at ht
    rcases ht with rfl | rfl | rfl | rfl | rfl
    iterate 2
      match l with
      | [p, q] => rfl
      | [] | [_] | _ :: _ :: _ :: _ => exact (mul_zero _).symm
    all_goals
      match l with
      | [p, q, r, s] => rfl
      | [] | [_] | [_, _] | [_, _, _] | _ :: _ :: _ :: _ :: _ :: _ => exact (mul_zero _).symm

/-- A program whose terms read one integral each. -/
theorem so_eval_unit (c : K) (S : SO I K) (P : Prog) (hP : P.readsEq [15, 23] 1 = true) (xs : List I) :
    P.eval D (soUnit c S).T xs = c * P.eval D S.T xs := by
  rw [P.eval_scaled D (soUnit_T c S).1 (soUnit_T c S).2 1 hP, pow_one]

theorem si_eval_unit (c : K) (A : SI I K) (P : Prog) (hP : P.readsEq [8, 9, 16, 17, 18] 1 = true) (xs : List I) :
    P.eval D (siUnit c A).T xs = c * P.eval D A.T xs := by
  rw [P.eval_scaled D (siUnit_T c A).1 (siUnit_T c A).2 1 hP, pow_one]

omit [Inhabited I] in
/-- A pass in another unit. -/
theorem pass_unit (c : K) (hc : c ≠ 0) (r t d : K) : (c * r + (c⁻¹ * d)⁻¹ * t) * (c⁻¹ * d) = (r + d⁻¹ * t) * d := by
  rw [mul_inv, inv_inv]
  field_simp

end arrays

/-! ## the loop -/

section generic

variable {A D' : Type} (u : A → A) (k : ℝ)

/-- A state in another unit. -/
def stUnit (s : St A D') : St A D' := ⟨u s.amps, u s.l2, s.diis⟩

/-- A result in another unit. -/
def resUnit (r : Res A D' ℝ) : Res A D' ℝ := ⟨stUnit u r.st, k * r.energy, r.log.map (k * ·)⟩

/-- The configuration `c'` is `c` in another unit. -/
structure InUnit (c c' : Cfg A D' ℝ) : Prop where
  maxIter : c'.maxIter = c.maxIter
  eps : c'.eps = k * c.eps
  resid : ∀ a, c'.resid (u a) (c'.dag (u a)) = (c.resid a (c.dag a)).map u
  accel : ∀ d a, c'.accel d (u a) = (c.accel d a).map fun p => (p.1, u p.2)
  energy : ∀ a, c'.energy (u a) = (c.energy a).map (k * ·)
  dag : ∀ a, c'.dag (u a) = u (c.dag a)

variable {u k} {c c' : Cfg A D' ℝ} (h : InUnit u k c c')

include h in
theorem InUnit.step (s : St A D') : c'.step (stUnit u s) = (c.step s).map (stUnit u) := by
  unfold Cfg.step
  simp only [stUnit, h.resid, Bind.bind, Except.bind]
  cases c.resid s.amps (c.dag s.amps) with
  | error e => rfl
  | ok a =>
    simp only [Except.map, h.accel]
    cases c.accel s.diis a with
    | error e => rfl
    | ok p => simp only [h.dag]; rfl

include h in
theorem InUnit.loop (hk : 0 < k) : ∀ n idx old cur s log,
    c'.loop n idx (k * old) (cur.map (k * ·)) (stUnit u s) (log.map (k * ·)) =
      (c.loop n idx old cur s log).map fun x => (stUnit u x.1, x.2.1.map (k * ·), x.2.2.map (k * ·))
  | 0, _, _, _, _, _ => rfl
  | n + 1, idx, old, cur, s, log => by
    unfold Cfg.loop
    by_cases hi : idx > 75
    · rw [if_pos hi, if_pos hi]; rfl
    · rw [if_neg hi, if_neg hi, h.step]
      simp only [Bind.bind, Except.bind]
      cases c.step s with
      | error e => rfl
      | ok a =>
        have e1 : c'.energy (stUnit u a).amps = (c.energy a.amps).map (k * ·) := h.energy a.amps
        simp only [Except.map, e1]
        cases c.energy a.amps with
        | error e => rfl
        | ok x =>
          have e2 : |k * old - k * x| < c'.eps ↔ |old - x| < c.eps := by
            rw [h.eps, ← mul_sub, abs_mul, abs_of_pos hk, mul_lt_mul_iff_right₀ hk]
          have e3 := InUnit.loop hk n (idx + 1) x (some x) a (log ++ [x])
          simp only [e2, h.maxIter]
          by_cases hx : |old - x| < c.eps
          · simp only [if_pos hx, List.map_append, List.map_cons, List.map_nil, Option.map_some]
          · by_cases hm : idx > c.maxIter
            · simp only [if_neg hx, if_pos hm]
            · simp only [if_neg hx, if_neg hm]
              simpa [Except.map] using e3

include h in
/-- The run in the other unit gives the result in the other unit, or fails in the same way. -/
theorem InUnit.run (hk : 0 < k) (s : St A D') : c'.run (stUnit u s) = (c.run s).map (resUnit u k) := by
  unfold Cfg.run
  have e1 : c'.energy (stUnit u s).amps = (c.energy s.amps).map (k * ·) := h.energy s.amps
  simp only [Bind.bind, Except.bind, e1]
  cases c.energy s.amps with
  | error e => rfl
  | ok e0 =>
    have e2 := h.loop hk c.maxIter 0 e0 none s []
    simp only [Option.map_none, List.map_nil] at e2
    simp only [Except.map, h.maxIter, e2]
    cases c.loop c.maxIter 0 e0 none s [] with
    | error e => rfl
    | ok x =>
      obtain ⟨x1, x2, x3⟩ := x
      cases x2 <;> rfl

end generic

/-! ## spin-integrated calculations -/

/-- A pair of reported energies in another unit. -/
def reportUnit (c : ℝ) (p : ℝ × ℝ) : ℝ × ℝ := (c * p.1, c * p.2)

theorem finalize_unit (c : ℝ) (name : String) (nucE e hf qf ut2 : ℝ) :
    Finalize.finalize name (c * nucE) (c * e) (c * hf) (c * qf) (c * ut2) = (Finalize.finalize name nucE e hf qf ut2).map (reportUnit c) := by
  unfold Finalize.finalize
  cases hasSub "UT2" name <;> by_cases h1 : name ≠ "CCD(Qf)" <;> by_cases h2 : name ∈ Finalize.qfNames <;>
    simp [h1, h2, reportUnit] <;> (try constructor) <;> ring

variable {I : Type} [DecidableEq I] [Inhabited I] (D : Nat → Finset I)

/-- The options in another unit. -/
noncomputable def optsUnit (c : ℝ) (o : Whole.Opts I) : Whole.Opts I :=
  { o with d2aa := denUnit c o.d2aa, d2bb := denUnit c o.d2bb, d2ab := denUnit c o.d2ab, eps := c * o.eps }

omit [DecidableEq I] in
theorem resid_unit {K : Type} [Field K] (name : String) (c : K) (A : SI I K) (a b i j : I) :
    resid_aaaa D name (siUnit c A) a b i j = c * resid_aaaa D name A a b i j ∧
    resid_bbbb D name (siUnit c A) a b i j = c * resid_bbbb D name A a b i j ∧
    resid_abab D name (siUnit c A) a b i j = c * resid_abab D name A a b i j := by
  have e1 : ccd_t2_aaaa D (siUnit c A) a b i j = c * ccd_t2_aaaa D A a b i j := si_eval_unit D c A _ (by decide +kernel) _
  have e2 : ccd_t2_bbbb D (siUnit c A) a b i j = c * ccd_t2_bbbb D A a b i j := si_eval_unit D c A _ (by decide +kernel) _
  have e3 : ccd_t2_abab D (siUnit c A) a b i j = c * ccd_t2_abab D A a b i j := si_eval_unit D c A _ (by decide +kernel) _
  have e4 : residQf1_aaaa D (siUnit c A) a b i j = c * residQf1_aaaa D A a b i j := si_eval_unit D c A _ (by decide +kernel) _
  have e5 : residQf1_bbbb D (siUnit c A) a b i j = c * residQf1_bbbb D A a b i j := si_eval_unit D c A _ (by decide +kernel) _
  have e6 : residQf1_abab D (siUnit c A) a b i j = c * residQf1_abab D A a b i j := si_eval_unit D c A _ (by decide +kernel) _
  have e7 : residQf2_aaaa D (siUnit c A) a b i j = c * residQf2_aaaa D A a b i j := si_eval_unit D c A _ (by decide +kernel) _
  have e8 : residQf2_bbbb D (siUnit c A) a b i j = c * residQf2_bbbb D A a b i j := si_eval_unit D c A _ (by decide +kernel) _
  have e9 : residQf2_abab D (siUnit c A) a b i j = c * residQf2_abab D A a b i j := si_eval_unit D c A _ (by decide +kernel) _
  unfold resid_aaaa resid_bbbb resid_abab
  rw [e1, e2, e3, e4, e5, e6, e7, e8, e9]
  refine ⟨?_, ?_, ?_⟩ <;> ring

omit [DecidableEq I] in
/-- One pass gives the same amplitudes in every unit. -/
theorem residMain_unit {K : Type} [Field K] (name : String) (c : K) (hc : c ≠ 0) (d2aa d2bb d2ab : I → I → I → I → K) (A : SI I K) :
    residMain D name (denUnit c d2aa) (denUnit c d2bb) (denUnit c d2ab) (siUnit c A) = siUnit c (residMain D name d2aa d2bb d2ab A) := by
  have e := resid_unit D name c A
  have b : ∀ {x x' y y' z z' : I → I → I → I → K}, x = x' → y = y' → z = z' →
      ({ siUnit c A with t2_aaaa := x, t2_bbbb := y, t2_abab := z } : SI I K) = { siUnit c A with t2_aaaa := x', t2_bbbb := y', t2_abab := z' } := by
    rintro _ _ _ _ _ _ rfl rfl rfl; rfl
  refine b ?_ ?_ ?_ <;> funext a b i j
  · rw [(e a b i j).1]; exact pass_unit c hc _ _ _
  · rw [(e a b i j).2.1]; exact pass_unit c hc _ _ _
  · rw [(e a b i j).2.2]; exact pass_unit c hc _ _ _

omit [DecidableEq I] in
theorem si_energy_unit {K : Type} [Field K] (c : K) (A : SI I K) :
    ccd_energy_with_spin D (siUnit c A) = c * ccd_energy_with_spin D A ∧ si_energy_pertQf D (siUnit c A) = c * si_energy_pertQf D A ∧
    ccsd_energy_with_spin D (siUnit c A) = c * ccsd_energy_with_spin D A :=
  ⟨si_eval_unit D c A _ (by decide +kernel) _, si_eval_unit D c A _ (by decide +kernel) _, si_eval_unit D c A _ (by decide +kernel) _⟩

/-- **C90** A spin-integrated calculation (every name of `cc_runtype` `ccdType`) in another unit of energy fails in the same way or
returns the same amplitudes after the same number of passes, and its energies and those `finalize` reports are the same in the other
unit. -/
theorem C90_ccd (c : ℝ) (hc : 0 < c) (o : Whole.Opts I) (A : SI I ℝ) (nucE hf : ℝ) :
    Whole.calculate D (optsUnit c o) (siUnit c A) = (Whole.calculate D o A).map (resUnit (siUnit c) c) ∧
    ∀ r, Whole.finish D (optsUnit c o) (c * nucE) (c * hf) (resUnit (siUnit c) c r) =
      (Whole.finish D o nucE hf r).map fun x => x.map (reportUnit c) := by
  constructor
  · have h : InUnit (siUnit c) c (Whole.cfg D o) (Whole.cfg D (optsUnit c o)) :=
      { maxIter := rfl
        eps := rfl
        resid := fun a => congrArg Except.ok (residMain_unit D o.cc_type c hc.ne' o.d2aa o.d2bb o.d2ab (set_l2amps a))
        accel := fun d a => by
          show Whole.accel D o.cc_type o.diis.isSome d (siUnit c a) = (Whole.accel D o.cc_type o.diis.isSome d a).map _
          unfold Whole.accel
          have hp : Whole.pack D (siUnit c a) = Whole.pack D a := rfl
          cases o.diis.isSome with
          | false => rfl
          | true =>
            simp only [if_true, hp]
            cases hasSub "UCC(4)" o.cc_type with
            | true => rfl
            | false =>
              cases hasSub "CCDQ" o.cc_type with
              | true => rfl
              | false =>
                simp only [Bool.false_eq_true, if_false]
                cases d.1.newVec (Whole.pack D a) (d.2 - Whole.pack D a) <;> rfl
        energy := fun a => congrArg Except.ok (si_energy_unit D c a).1
        dag := fun a => rfl }
    exact h.run hc (Whole.initial D o A)
  · intro r
    unfold Whole.finish
    have e : Whole.correction D (resUnit (siUnit c) c r) = c * Whole.correction D r :=
      (si_energy_unit D c (Whole.withL2 r.st.amps r.st.l2)).2.1
    have z : (0 : ℝ) = c * 0 := (mul_zero c).symm
    show (if hasSub "UT2" o.cc_type = true then _ else _) = _
    cases hasSub "UT2" o.cc_type with
    | true => rfl
    | false =>
      simp only [Bool.false_eq_true, if_false, Except.map]
      refine congrArg Except.ok ?_
      show Finalize.finalize o.cc_type (c * nucE) (c * r.energy) (c * hf) (if o.cc_type ∈ Finalize.qfNames then _ else 0) 0 = _
      rw [← finalize_unit, e, mul_ite, mul_zero]

/-! ## spin-orbital calculations -/

/-- The options in another unit. -/
noncomputable def slowUnit (c : ℝ) (o : WholeSlow.Opts I) : WholeSlow.Opts I := { o with d2 := denUnit c o.d2, eps := c * o.eps }

section slow

variable {K : Type} [Field K] (c : K) (S : SO I K)

omit [DecidableEq I] [Inhabited I] [Field K] in
theorem foldlM_unit {α : Type} (u : α → α) (f f' : α → ℕ → Option α) (h : ∀ e n, f' (u e) n = (f e n).map u) :
    ∀ (l : List ℕ) (e : α), l.foldlM f' (u e) = (l.foldlM f e).map u
  | [], _ => rfl
  | n :: l, e => by
    simp only [List.foldlM_cons, h]
    cases f e n with
    | none => rfl
    | some x => exact foldlM_unit u f f' h l x

omit [DecidableEq I] in
theorem antisym_unit (R : List I → K) (xs : List I) : antisym_t4_residual (fun l => c * R l) xs = c * antisym_t4_residual R xs := by
  unfold antisym_t4_residual antisym
  rw [← List.sum_map_mul_left]
  refine congrArg List.sum (List.map_congr_left fun p _ => ?_)
  ring

omit [DecidableEq I] in
theorem xccd7_unit : Gen.get_xcc7residual.eval D (xccd7_args D (soUnit c S)).T = fun xs => c * Gen.get_xcc7residual.eval D (xccd7_args D S).T xs := by
  have h5 : xccd5_t4 D (soUnit c S) = fun xs => c * xccd5_t4 D S xs := by
    funext xs
    unfold xccd5_t4
    rw [← antisym_unit]
    refine congrArg (fun R => antisym_t4_residual R xs) (funext fun l => so_eval_unit D c S _ (by decide +kernel) l)
  funext xs
  have h1 : ∀ t ∉ [15, 23, 55], ∀ l, (xccd7_args D (soUnit c S)).T t l = (xccd7_args D S).T t l := by
    intro t ht l
    simp only [List.mem_cons, List.not_mem_nil, or_false, not_or] at ht
    unfold SO.T xccd7_args soUnit
    simp only [ht, if_false]
  have h2 : ∀ t ∈ [15, 23, 55], ∀ l, (xccd7_args D (soUnit c S)).T t l = c * (xccd7_args D S).T t l := by
    intro t ht l
    simp only [List.mem_cons, List.not_mem_nil, or_false] at ht
    rcases ht with rfl | rfl | rfl
    · match l with
      | [p, q] => rfl
      | [] | [_] | _ :: _ :: _ :: _ => exact (mul_zero _).symm
    · match l with
      | [p, q, r, s] => rfl
      | [] | [_] | [_, _] | [_, _, _] | _ :: _ :: _ :: _ :: _ :: _ => exact (mul_zero _).symm
    · match l with
      | [a, b, c', d, i, j, k, m] => exact congrFun h5 _
      | [] | [_] | [_, _] | [_, _, _] | [_, _, _, _] | [_, _, _, _, _] | [_, _, _, _, _, _] | [_, _, _, _, _, _, _]
      | _ :: _ :: _ :: _ :: _ :: _ :: _ :: _ :: _ :: _ => exact (mul_zero _).symm
  rw [Prog.eval_scaled D h1 h2 _ 1 (by decide +kernel), pow_one]

omit [DecidableEq I] in
theorem base_unit (order : Nat) : build_XCCDbase D (soUnit c S) order = (build_XCCDbase D S order).map fun x a b i j => c * x a b i j := by
  have cap : ∀ (R R' : List I → K), (R' = fun l => c * R l) → ∀ a b i j, capDag D (soUnit c S) (antisym_t4_residual R') a b i j =
      c * capDag D S (antisym_t4_residual R) a b i j := by
    rintro R _ rfl a b i j
    unfold capDag
    simp only [Finset.mul_sum, antisym_unit]
    refine Finset.sum_congr rfl fun k _ => Finset.sum_congr rfl fun l _ => Finset.sum_congr rfl fun x _ => Finset.sum_congr rfl fun y _ => ?_
    show S.t2 x y k l * _ = _
    ring
  unfold build_XCCDbase
  by_cases h5 : order = 5
  · simp only [if_pos h5, Option.map_some, Option.some.injEq]
    funext a b i j
    unfold xccd5_t4
    rw [cap _ _ (funext fun l => so_eval_unit D c S _ (by decide +kernel) l)]
    ring
  by_cases h6 : order = 6
  · simp only [if_neg h5, if_pos h6, Option.map_some, Option.some.injEq]
    funext a b i j
    unfold xccd6_t4
    rw [cap _ _ (funext fun l => so_eval_unit D c S _ (by decide +kernel) l)]
    ring
  by_cases h7 : order = 7
  · simp only [if_neg h5, if_neg h6, if_pos h7, Option.map_some, Option.some.injEq]
    funext a b i j
    unfold xccd7_t4
    rw [cap _ _ (xccd7_unit D c S)]
    ring
  simp only [if_neg h5, if_neg h6, if_neg h7, Option.map_none]

omit [DecidableEq I] in
theorem t2energy_unit (hc : c ≠ 0) (d : I → I → I → I → K) (fac : Bool) (order : Nat) :
    buildXCCD_T2energy D (soUnit c S) (denUnit c d) order fac = (buildXCCD_T2energy D S d order fac).map (c * ·) := by
  have e : ∀ i j a b, t2_dag1 (soUnit c S) (denUnit c d) fac i j a b = t2_dag1 S d fac i j a b := by
    intro i j a b
    unfold t2_dag1 soUnit denUnit
    cases fac with
    | false => rfl
    | true => simp only [if_true]; field_simp
  unfold buildXCCD_T2energy
  rw [base_unit]
  cases build_XCCDbase D S order with
  | none => rfl
  | some x =>
    simp only [Option.map_some, e, Option.some.injEq, Finset.mul_sum]
    refine Finset.sum_congr rfl fun k _ => Finset.sum_congr rfl fun l _ => Finset.sum_congr rfl fun x _ => Finset.sum_congr rfl fun y _ => ?_
    ring

omit [DecidableEq I] in
theorem add_energy_unit (hc : c ≠ 0) (d : I → I → I → I → K) (fac : Bool) (l : List Nat) :
    add_XCCenergy D (soUnit c S) (denUnit c d) fac l = (add_XCCenergy D S d fac l).map (c * ·) := by
  have gen := foldlM_unit (c * ·) (fun e order => (buildXCCD_T2energy D S d order fac).map (e + ·))
    (fun e order => (buildXCCD_T2energy D (soUnit c S) (denUnit c d) order fac).map (e + ·)) (fun e n => by
      rw [t2energy_unit D c S hc]
      cases buildXCCD_T2energy D S d n fac with
      | none => rfl
      | some x => exact congrArg some (mul_add c e x).symm) l 0
  have := gen
  rw [mul_zero] at this
  exact this

end slow

omit [DecidableEq I] in
theorem xccTerms_unit (c : ℝ) (S : SO I ℝ) (l : List Nat) :
    WholeSlow.xccTerms D (soUnit c S) l = (WholeSlow.xccTerms D S l).map fun x a b i j => c * x a b i j := by
  have this := foldlM_unit (fun (x : I → I → I → I → ℝ) a b i j => c * x a b i j) (fun x order => (build_XCCDbase D S order).map (x + ·))
    (fun x order => (build_XCCDbase D (soUnit c S) order).map (x + ·)) (fun e n => by
      rw [base_unit D c S]
      cases build_XCCDbase D S n with
      | none => rfl
      | some x => exact congrArg some (funext fun a => funext fun b => funext fun i => funext fun j => (mul_add c (e a b i j) (x a b i j)).symm)) l 0
  have z : (fun (a b i j : I) => c * (0 : I → I → I → I → ℝ) a b i j) = 0 := by funext a b i j; exact mul_zero c
  rw [z] at this
  exact this

/-- One pass of the spin-orbital residual code. -/
theorem residMainSlow_unit (name : String) (c : ℝ) (hc : c ≠ 0) (x x' : I → I → I → I → ℝ) (hx : ∀ a b i j, x' a b i j = c * x a b i j)
    (d : I → I → I → I → ℝ) (S : SO I ℝ) :
    residMainSlow D name (fun _ => x') (denUnit c d) (soUnit c S) = soUnit c (residMainSlow D name (fun _ => x) d S) := by
  have e1 : ∀ a b i j, ccd_t2residual D (soUnit c S) a b i j = c * ccd_t2residual D S a b i j := fun a b i j =>
    so_eval_unit D c S _ (by decide +kernel) _
  have e2 : ∀ a b i j, doubles_resLCCDoffset D (soUnit c S) a b i j = c * doubles_resLCCDoffset D S a b i j := fun a b i j =>
    so_eval_unit D c S _ (by decide +kernel) _
  have e3 : ∀ a b i j, residSlow D name (fun _ => x') (soUnit c S) a b i j = c * residSlow D name (fun _ => x) S a b i j := by
    intro a b i j
    simp only [residSlow, e1, e2, hx]
    split_ifs <;> ring
  have b : ∀ {y y' : I → I → I → I → ℝ}, y = y' → ({ soUnit c S with t2 := y } : SO I ℝ) = { soUnit c S with t2 := y' } := by
    rintro _ _ rfl; rfl
  refine b ?_
  funext a b i j
  have e4 : (residSlow D name (fun _ => x') (soUnit c S) a b i j + (denUnit c d a b i j)⁻¹ * (soUnit c S).t2 a b i j) * denUnit c d a b i j =
      (residSlow D name (fun _ => x) S a b i j + (d a b i j)⁻¹ * S.t2 a b i j) * d a b i j := by
    rw [e3]; exact pass_unit c hc _ _ _
  simp only [e4]
  rfl

omit [DecidableEq I] in
theorem slow_energy_unit (name : String) (c : ℝ) (hc : c ≠ 0) (d : I → I → I → I → ℝ) (fac : Bool) (S : SO I ℝ) :
    WholeSlow.pertEnergy D name (denUnit c d) fac (soUnit c S) = (WholeSlow.pertEnergy D name d fac S).map (c * ·) ∧
    WholeSlow.energy D name (denUnit c d) (soUnit c S) = (WholeSlow.energy D name d S).map (c * ·) := by
  have p : ∀ fac, WholeSlow.pertEnergy D name (denUnit c d) fac (soUnit c S) = (WholeSlow.pertEnergy D name d fac S).map (c * ·) := by
    intro fac
    unfold WholeSlow.pertEnergy
    cases WholeSlow.pertOrder name with
    | none => rfl
    | some l =>
      simp only [add_energy_unit D c S hc]
      cases add_XCCenergy D S d fac l <;> rfl
  have e : ccdEnergy D (soUnit c S) = c * ccdEnergy D S := so_eval_unit D c S _ (by decide +kernel) _
  refine ⟨p fac, ?_⟩
  unfold WholeSlow.energy
  rw [p, e]
  cases WholeSlow.xccdFlag name with
  | false => rfl
  | true =>
    simp only [if_true]
    cases WholeSlow.pertEnergy D name d false S with
    | error x => rfl
    | ok x => exact congrArg Except.ok (mul_add c _ _).symm

/-- **C90** The same for spin-orbital calculations: CCD, LCCD, pCCD, `XCCD(n)` and `UT2-CCD(n)`. -/
theorem C90_ccd_slow (c : ℝ) (hc : 0 < c) (o : WholeSlow.Opts I) (S : SO I ℝ) (nucE hf : ℝ) :
    WholeSlow.calculate D (slowUnit c o) (soUnit c S) = (WholeSlow.calculate D o S).map (resUnit (soUnit c) c) ∧
    ∀ r, WholeSlow.finish D (slowUnit c o) (c * nucE) (c * hf) (resUnit (soUnit c) c r) =
      (WholeSlow.finish D o nucE hf r).map fun x => x.map (reportUnit c) := by
  constructor
  · have h : InUnit (soUnit c) c (WholeSlow.cfg D o) (WholeSlow.cfg D (slowUnit c o)) :=
      { maxIter := rfl
        eps := rfl
        resid := fun a => by
          show WholeSlow.resid D o.cc_type (denUnit c o.d2) (soUnit c a) = (WholeSlow.resid D o.cc_type o.d2 a).map (soUnit c)
          unfold WholeSlow.resid
          cases hasSub "X" o.cc_type with
          | false => exact congrArg Except.ok (residMainSlow_unit D o.cc_type c hc.ne' (fun _ _ _ _ => 0) _ (fun _ _ _ _ => (mul_zero c).symm) o.d2 a)
          | true =>
            simp only [if_true]
            cases WholeSlow.pertOrder o.cc_type with
            | none => rfl
            | some l =>
              simp only [xccTerms_unit]
              cases WholeSlow.xccTerms D a l with
              | none => rfl
              | some x => exact congrArg Except.ok (residMainSlow_unit D o.cc_type c hc.ne' x _ (fun _ _ _ _ => rfl) o.d2 a)
        accel := fun d a => by
          show WholeSlow.accel D o.cc_type o.diis.isSome d (soUnit c a) = (WholeSlow.accel D o.cc_type o.diis.isSome d a).map _
          unfold WholeSlow.accel
          have hp : WholeSlow.pack D (soUnit c a) = WholeSlow.pack D a := rfl
          cases o.diis.isSome with
          | false => rfl
          | true =>
            simp only [if_true, hp]
            cases hasSub "CCDQ" o.cc_type with
            | true => rfl
            | false =>
              simp only [Bool.false_eq_true, if_false]
              cases d.1.newVec (WholeSlow.pack D a) (d.2 - WholeSlow.pack D a) <;> rfl
        energy := fun a => (slow_energy_unit D o.cc_type c hc.ne' o.d2 false a).2
        dag := fun a => rfl }
    have hi : WholeSlow.initial D (slowUnit c o) (soUnit c S) = stUnit (soUnit c) (WholeSlow.initial D o S) := by
      have : WholeSlow.start (denUnit c o.d2) (soUnit c S) = soUnit c (WholeSlow.start o.d2 S) := by
        unfold WholeSlow.start
        have b : ∀ {y y' : I → I → I → I → ℝ}, y = y' → ({ soUnit c S with t2 := y } : SO I ℝ) = { soUnit c S with t2 := y' } := by
          rintro _ _ rfl; rfl
        refine b ?_
        funext a b i j
        show c * S.g a b i j * (c⁻¹ * o.d2 a b i j) = S.g a b i j * o.d2 a b i j
        have := hc.ne'
        field_simp
      show (⟨_, _, _⟩ : St (SO I ℝ) (WholeSlow.Acc D)) = ⟨_, _, _⟩
      exact congrArg (fun x => (⟨x, soUnit c S, _⟩ : St (SO I ℝ) (WholeSlow.Acc D))) this
    unfold WholeSlow.calculate
    rw [hi]
    exact h.run hc (WholeSlow.initial D o S)
  · intro r
    unfold WholeSlow.finish
    by_cases hq : o.cc_type ∈ Finalize.qfNames ∨ hasSub "UT2" o.cc_type = true
    · have hq' : (slowUnit c o).cc_type ∈ Finalize.qfNames ∨ hasSub "UT2" (slowUnit c o).cc_type = true := hq
      rw [if_pos hq, if_pos hq']
      have e := (slow_energy_unit D o.cc_type c hc.ne' o.d2 true r.st.amps).1
      show (WholeSlow.pertEnergy D o.cc_type (denUnit c o.d2) true (soUnit c r.st.amps)).map _ = _
      rw [e]
      cases WholeSlow.pertEnergy D o.cc_type o.d2 true r.st.amps with
      | error x => rfl
      | ok x => exact congrArg Except.ok (finalize_unit c o.cc_type nucE r.energy hf x x)
    · have hq' : ¬ ((slowUnit c o).cc_type ∈ Finalize.qfNames ∨ hasSub "UT2" (slowUnit c o).cc_type = true) := hq
      rw [if_neg hq, if_neg hq']
      refine congrArg Except.ok ?_
      have := finalize_unit c o.cc_type nucE r.energy hf 0 0
      rw [mul_zero] at this
      exact this

/-! ## calculations with quadruples -/

/-- The options in another unit. -/
noncomputable def fullUnit (c : ℝ) (o : WholeFull.Opts I) : WholeFull.Opts I :=
  { o with εa := fun p => c * o.εa p, εb := fun p => c * o.εb p, eps := c * o.eps }

omit [DecidableEq I] [Inhabited I] in
theorem full_den2_unit (c : ℝ) (e f : I → ℝ) : WholeFull.den2 (fun p => c * e p) (fun p => c * f p) = denUnit c (WholeFull.den2 e f) := by
  funext a b i j
  simp only [WholeFull.den2, denUnit, one_div, ← mul_inv]
  congr 1
  ring

omit [DecidableEq I] [Inhabited I] in
theorem full_den4_unit (c : ℝ) (e f g h : I → ℝ) (a b x d i j k l : I) :
    WholeFull.den4 (fun p => c * e p) (fun p => c * f p) (fun p => c * g p) (fun p => c * h p) a b x d i j k l =
      c⁻¹ * WholeFull.den4 e f g h a b x d i j k l := by
  simp only [WholeFull.den4, one_div, ← mul_inv]
  congr 1
  ring

omit [DecidableEq I] in
/-- One pass with quadruples gives the same amplitudes in every unit. -/
theorem iterCcdq_unit (c : ℝ) (hc : c ≠ 0) (εa εb : I → ℝ) (A : SI I ℝ) :
    WholeFull.iterCcdq D (fun p => c * εa p) (fun p => c * εb p) (siUnit c A) = siUnit c (WholeFull.iterCcdq D εa εb A) := by
  have p2 : ∀ (r r' t : I → I → I → I → ℝ) (e f : I → ℝ), (∀ a b i j, r' a b i j = c * r a b i j) →
      WholeFull.next2 r' t (WholeFull.den2 (fun p => c * e p) (fun p => c * f p)) = WholeFull.next2 r t (WholeFull.den2 e f) := by
    intro r r' t e f h
    funext a b i j
    unfold WholeFull.next2
    rw [h, full_den2_unit]
    exact pass_unit c hc _ _ _
  have p4 : ∀ (r r' t : I → I → I → I → I → I → I → I → ℝ) (e f g h : I → ℝ),
      (∀ a b x d i j k l, r' a b x d i j k l = c * r a b x d i j k l) →
      WholeFull.next4 r' t (WholeFull.den4 (fun p => c * e p) (fun p => c * f p) (fun p => c * g p) (fun p => c * h p)) =
        WholeFull.next4 r t (WholeFull.den4 e f g h) := by
    intro r r' t e f g h hr
    funext a b x d i j k l
    unfold WholeFull.next4
    rw [hr, full_den4_unit]
    exact pass_unit c hc _ _ _
  unfold WholeFull.iterCcdq
  rw [p2 (ccdq_t2_aaaa D A) (ccdq_t2_aaaa D (siUnit c A)) _ _ _ fun a b i j => si_eval_unit D c A _ (by decide +kernel) _,
    p2 (ccdq_t2_bbbb D A) (ccdq_t2_bbbb D (siUnit c A)) _ _ _ fun a b i j => si_eval_unit D c A _ (by decide +kernel) _,
    p2 (ccdq_t2_abab D A) (ccdq_t2_abab D (siUnit c A)) _ _ _ fun a b i j => si_eval_unit D c A _ (by decide +kernel) _,
    p4 (ccdq_t4_aaaaaaaa D A) (ccdq_t4_aaaaaaaa D (siUnit c A)) _ _ _ _ _ fun a b x d i j k l => si_eval_unit D c A _ (by decide +kernel) _,
    p4 (ccdq_t4_aaabaaab D A) (ccdq_t4_aaabaaab D (siUnit c A)) _ _ _ _ _ fun a b x d i j k l => si_eval_unit D c A _ (by decide +kernel) _,
    p4 (ccdq_t4_aabbaabb D A) (ccdq_t4_aabbaabb D (siUnit c A)) _ _ _ _ _ fun a b x d i j k l => si_eval_unit D c A _ (by decide +kernel) _,
    p4 (ccdq_t4_abbbabbb D A) (ccdq_t4_abbbabbb D (siUnit c A)) _ _ _ _ _ fun a b x d i j k l => si_eval_unit D c A _ (by decide +kernel) _,
    p4 (ccdq_t4_bbbbbbbb D A) (ccdq_t4_bbbbbbbb D (siUnit c A)) _ _ _ _ _ fun a b x d i j k l => si_eval_unit D c A _ (by decide +kernel) _]
  rfl

/-- **C90** The same for calculations with doubles and quadruples. -/
theorem C90_ccdq (c : ℝ) (hc : 0 < c) (o : WholeFull.Opts I) (A : SI I ℝ) (nucE hf : ℝ) :
    WholeFull.calculate D (fullUnit c o) (siUnit c A) = (WholeFull.calculate D o A).map (resUnit (siUnit c) c) ∧
    ∀ r, WholeFull.finish D (fullUnit c o) (c * nucE) (c * hf) (resUnit (siUnit c) c r) =
      (WholeFull.finish D o nucE hf r).map (reportUnit c) := by
  constructor
  · have h : InUnit (siUnit c) c (WholeFull.cfg D o) (WholeFull.cfg D (fullUnit c o)) :=
      { maxIter := rfl
        eps := rfl
        resid := fun a => by
          show WholeFull.resid D o.cc_type (fun p => c * o.εa p) (fun p => c * o.εb p) (siUnit c a) = (WholeFull.resid D o.cc_type o.εa o.εb a).map (siUnit c)
          unfold WholeFull.resid
          by_cases hq : o.cc_type = "CCDQ"
          · rw [if_pos hq, if_pos hq]; exact congrArg Except.ok (iterCcdq_unit D c hc.ne' _ _ _)
          · rw [if_neg hq, if_neg hq]; rfl
        accel := fun d a => by
          show WholeFull.accel D o.diis.isSome d (siUnit c a) = (WholeFull.accel D o.diis.isSome d a).map _
          unfold WholeFull.accel
          have hp : WholeFull.pack D (siUnit c a) = WholeFull.pack D a := by
            funext x
            obtain ⟨m, ⟨a, b⟩, i, j⟩ | ⟨m, ⟨a, b, c, d⟩, i, j, k, l⟩ := x <;> rfl
          cases o.diis.isSome with
          | false => rfl
          | true =>
            simp only [if_true, hp]
            cases d.1.newVec (WholeFull.pack D a) (d.2 - WholeFull.pack D a) <;> rfl
        energy := fun a => congrArg Except.ok (si_energy_unit D c a).2.2
        dag := fun a => rfl }
    have hi : WholeFull.initial D (fullUnit c o) (siUnit c A) = stUnit (siUnit c) (WholeFull.initial D o A) := by
      have hp : WholeFull.pack D (siUnit c A) = WholeFull.pack D A := by
        funext x
        obtain ⟨m, ⟨a, b⟩, i, j⟩ | ⟨m, ⟨a, b, c, d⟩, i, j, k, l⟩ := x <;> rfl
      unfold WholeFull.initial stUnit
      rw [hp]
      rfl
    unfold WholeFull.calculate
    rw [hi]
    exact h.run hc (WholeFull.initial D o A)
  · intro r
    have := finalize_unit c o.cc_type nucE r.energy hf 0 0
    rw [mul_zero] at this
    exact this

/-- The denominators of `fullCC_energyMain` in another unit. -/
def fullDenUnit {K : Type} [Field K] (c : K) (d : FullDen I K) : FullDen I K :=
  ⟨denUnit c d.aa, denUnit c d.ab, denUnit c d.bb, fun a b x i j k => c⁻¹ * d.aaa a b x i j k, fun a b x i j k => c⁻¹ * d.aab a b x i j k,
    fun a b x i j k => c⁻¹ * d.abb a b x i j k, fun a b x i j k => c⁻¹ * d.bbb a b x i j k⟩

/-- The quadruples in another unit: `fullT4` stores residuals, which are energies, under the names of amplitudes. -/
def t4Unit {K : Type} [Field K] (c : K) (B : SI I K) : SI I K :=
  { B with
    t4_aaaaaaaa := fun a b x d i j k l => c * B.t4_aaaaaaaa a b x d i j k l
    t4_aaabaaab := fun a b x d i j k l => c * B.t4_aaabaaab a b x d i j k l
    t4_aabbaabb := fun a b x d i j k l => c * B.t4_aabbaabb a b x d i j k l
    t4_abbbabbb := fun a b x d i j k l => c * B.t4_abbbabbb a b x d i j k l
    t4_bbbbbbbb := fun a b x d i j k l => c * B.t4_bbbbbbbb a b x d i j k l }

omit [DecidableEq I] [Inhabited I] in
theorem t4Unit_T {K : Type} [Field K] (c : K) (B : SI I K) : (∀ t ∉ [48, 49, 50, 51, 52], ∀ l, (t4Unit c B).T t l = B.T t l) ∧
    ∀ t ∈ [48, 49, 50, 51, 52], ∀ l, (t4Unit c B).T t l = c * B.T t l := by
  constructor
  · intro t ht l
    simp only [List.mem_cons, List.not_mem_nil, or_false, not_or] at ht
    unfold SI.T t4Unit
    simp only [ht, if_false]
  · intro t ht l
    simp only [List.mem_cons, List.not_mem_nil, or_false] at ht
    rcases ht with rfl | rfl | rfl | rfl | rfl
    all_goals
      match l with
      | [a, b, c', d, i, j, k, m] => rfl
      | [] | [_] | [_, _] | [_, _, _] | [_, _, _, _] | [_, _, _, _, _] | [_, _, _, _, _, _] | [_, _, _, _, _, _, _]
      | _ :: _ :: _ :: _ :: _ :: _ :: _ :: _ :: _ :: _ => exact (mul_zero _).symm

omit [DecidableEq I] in
/-- **C90** The energies of `fullCC_energyMain` (every name, with and without the perturbative correction) in another unit. -/
theorem C90_full_energy {K : Type} [Field K] (c : K) (hc : c ≠ 0) (d : FullDen I K) (name : String) (A : SI I K) (pert : Bool) :
    fullCC_energyMain D (fullDenUnit c d) name (siUnit c A) pert = c * fullCC_energyMain D d name A pert := by
  cases pert with
  | false => exact (si_energy_unit D c A).2.2
  | true =>
    have m : ∀ x y : K, c * x * (c⁻¹ * y) = x * y := fun x y => by field_simp
    have h3 : fullT3 D (fullDenUnit c d) name (set_l2amps (siUnit c A)) = siUnit c (fullT3 D d name (set_l2amps A)) := by
      show fullT3 D (fullDenUnit c d) name (siUnit c (set_l2amps A)) = _
      generalize set_l2amps A = A
      unfold fullT3
      by_cases hn : name = "CCSD(Qf)"
      · rw [if_pos hn, if_pos hn]
        have b : ∀ {x x' y y' z z' w w' : I → I → I → I → I → I → K}, x = x' → y = y' → z = z' → w = w' →
            ({ siUnit c A with t3_aaaaaa := x, t3_aabaab := y, t3_abbabb := z, t3_bbbbbb := w } : SI I K) =
              { siUnit c A with t3_aaaaaa := x', t3_aabaab := y', t3_abbabb := z', t3_bbbbbb := w' } := by
          rintro _ _ _ _ _ _ _ _ rfl rfl rfl rfl; rfl
        refine b ?_ ?_ ?_ ?_ <;> funext a b x i j k
        · rw [show approxT3_aaaaaa D (siUnit c A) a b x i j k = c * approxT3_aaaaaa D A a b x i j k from
            si_eval_unit D c A _ (by decide +kernel) _]
          exact m _ _
        · rw [show approxT3_aabaab D (siUnit c A) a b x i j k = c * approxT3_aabaab D A a b x i j k from
            si_eval_unit D c A _ (by decide +kernel) _]
          exact m _ _
        · rw [show approxT3_abbabb D (siUnit c A) a b x i j k = c * approxT3_abbabb D A a b x i j k from
            si_eval_unit D c A _ (by decide +kernel) _]
          exact m _ _
        · rw [show approxT3_bbbbbb D (siUnit c A) a b x i j k = c * approxT3_bbbbbb D A a b x i j k from
            si_eval_unit D c A _ (by decide +kernel) _]
          exact m _ _
      · rw [if_neg hn, if_neg hn]
    unfold fullCC_energyMain
    simp only [if_true]
    rw [h3]
    generalize fullT3 D d name (set_l2amps A) = A
    have h4 : fullT4 D (siUnit c A) = t4Unit c (siUnit c (fullT4 D A)) := by
      have b : ∀ {x x' y y' z z' w w' v v' : I → I → I → I → I → I → I → I → K}, x = x' → y = y' → z = z' → w = w' → v = v' →
          ({ siUnit c A with t4_aaaaaaaa := x, t4_aaabaaab := y, t4_aabbaabb := z, t4_abbbabbb := w, t4_bbbbbbbb := v } : SI I K) =
            { siUnit c A with t4_aaaaaaaa := x', t4_aaabaaab := y', t4_aabbaabb := z', t4_abbbabbb := w', t4_bbbbbbbb := v' } := by
        rintro _ _ _ _ _ _ _ _ _ _ rfl rfl rfl rfl rfl; rfl
      refine b ?_ ?_ ?_ ?_ ?_ <;> funext a b x d i j k l <;> exact si_eval_unit D c A _ (by decide +kernel) _
    have h4s : ∀ B : SI I K, fullT4star D (siUnit c A) (t4Unit c (siUnit c B)) = t4Unit c (siUnit c (fullT4star D A B)) := by
      intro B
      have b : ∀ {x x' y y' z z' w w' v v' : I → I → I → I → I → I → I → I → K}, x = x' → y = y' → z = z' → w = w' → v = v' →
          ({ siUnit c B with t4_aaaaaaaa := x, t4_aaabaaab := y, t4_aabbaabb := z, t4_abbbabbb := w, t4_bbbbbbbb := v } : SI I K) =
            { siUnit c B with t4_aaaaaaaa := x', t4_aaabaaab := y', t4_aabbaabb := z', t4_abbbabbb := w', t4_bbbbbbbb := v' } := by
        rintro _ _ _ _ _ _ _ _ _ _ rfl rfl rfl rfl rfl; rfl
      refine b ?_ ?_ ?_ ?_ ?_ <;> funext a b x d i j k l <;>
        exact (congrArg (_ + ·) (si_eval_unit D c A _ (by decide +kernel) _)).trans (mul_add c _ _).symm
    rw [h4]
    have hB : (if name = "CCSDT(Qf*)" ∨ name = "CCD(Qf*)" then fullT4star D (siUnit c A) (t4Unit c (siUnit c (fullT4 D A))) else t4Unit c (siUnit c (fullT4 D A))) =
        t4Unit c (siUnit c (if name = "CCSDT(Qf*)" ∨ name = "CCD(Qf*)" then fullT4star D A (fullT4 D A) else fullT4 D A)) := by
      split_ifs
      · exact h4s _
      · rfl
    rw [hB]
    generalize (if name = "CCSDT(Qf*)" ∨ name = "CCD(Qf*)" then fullT4star D A (fullT4 D A) else fullT4 D A) = B
    have hF : si_energy_pertQf_t4 D (firstOrderDag (fullDenUnit c d) (siUnit c A) (t4Unit c (siUnit c B))) =
        si_energy_pertQf_t4 D (t4Unit c (firstOrderDag d A B)) := by
      have hT : ∀ f : Fac, (fun f : Fac => !(Nat.beq f.t 8 || Nat.beq f.t 9)) f = true → ∀ l : List I, 
          (firstOrderDag (fullDenUnit c d) (siUnit c A) (t4Unit c (siUnit c B))).T f.t l = (t4Unit c (firstOrderDag d A B)).T f.t l := by
        intro f hf l
        have hg : firstOrderDag (fullDenUnit c d) (siUnit c A) (t4Unit c (siUnit c B)) =
            { t4Unit c (firstOrderDag d A B) with f_aa := fun p q => c * B.f_aa p q, f_bb := fun p q => c * B.f_bb p q } := by
          have b : ∀ {x x' y y' z z' : I → I → I → I → K}, x = x' → y = y' → z = z' →
              ({ t4Unit c (siUnit c B) with g_aaaa := x, g_abab := y, g_bbbb := z } : SI I K) =
                { t4Unit c (siUnit c B) with g_aaaa := x', g_abab := y', g_bbbb := z' } := by
            rintro _ _ _ _ _ _ rfl rfl rfl; rfl
          refine b ?_ ?_ ?_ <;> funext i j a b <;> exact m _ _
        rw [hg]
        simp only [Bool.not_eq_true', Bool.or_eq_false_iff] at hf
        have n8 : f.t ≠ 8 := fun h => by rw [h] at hf; exact absurd hf.1 (by decide)
        have n9 : f.t ≠ 9 := fun h => by rw [h] at hf; exact absurd hf.2 (by decide)
        unfold SI.T
        simp only [n8, n9, if_false]
      exact Prog.eval_local D _ _ Gen.si_energy_pertQf_t4 (fun f : Fac => !(Nat.beq f.t 8 || Nat.beq f.t 9)) (by decide +kernel)
        (fun f hf l _ => hT f hf l) [] (by decide +kernel) [] List.Forall₂.nil
    rw [hF]
    have e : si_energy_pertQf_t4 D (t4Unit c (firstOrderDag d A B)) = c * si_energy_pertQf_t4 D (firstOrderDag d A B) := by
      have := Prog.eval_scaled D (t4Unit_T c (firstOrderDag d A B)).1 (t4Unit_T c (firstOrderDag d A B)).2 Gen.si_energy_pertQf_t4 1 (by decide +kernel) []
      rw [pow_one] at this
      exact this
    rw [e]
    ring

/-! ## UCC(4) -/

/-- The options in another unit. -/
noncomputable def uccUnit (c : ℝ) (o : WholeUcc4.Opts I) : WholeUcc4.Opts I := { o with ε := fun p => c * o.ε p, eps := c * o.eps }

omit [DecidableEq I] [Inhabited I] in
theorem ucc_den_unit (c : ℝ) (ε : I → ℝ) :
    (∀ a i, WholeUcc4.den1 (fun p => c * ε p) a i = c⁻¹ * WholeUcc4.den1 ε a i) ∧
    (∀ a b i j, WholeUcc4.den2 (fun p => c * ε p) a b i j = c⁻¹ * WholeUcc4.den2 ε a b i j) ∧
    ∀ a b x i j k, WholeUcc4.den3 (fun p => c * ε p) a b x i j k = c⁻¹ * WholeUcc4.den3 ε a b x i j k := by
  refine ⟨fun a i => ?_, fun a b i j => ?_, fun a b x i j k => ?_⟩ <;>
    simp only [WholeUcc4.den1, WholeUcc4.den2, WholeUcc4.den3, one_div, ← mul_inv] <;> congr 1 <;> ring

omit [DecidableEq I] in
/-- A pass of UCC(4) gives the same amplitudes in every unit. -/
theorem ucc_pass_unit (c : ℝ) (hc : c ≠ 0) (ε : I → ℝ) (S : SO I ℝ) :
    WholeUcc4.pass D (fun p => c * ε p) (soUnit c S) = soUnit c (WholeUcc4.pass D ε S) := by
  obtain ⟨d1, d2, d3⟩ := ucc_den_unit c ε
  have hw : WholeUcc4.withDag (soUnit c S) = soUnit c (WholeUcc4.withDag S) := rfl
  have b : ∀ {x x' : I → I → ℝ} {y y' : I → I → I → I → ℝ} {z z' : I → I → I → I → I → I → ℝ}, x = x' → y = y' → z = z' →
      ({ soUnit c S with t1 := x, t2 := y, t3 := z } : SO I ℝ) = { soUnit c S with t1 := x', t2 := y', t3 := z' } := by
    rintro _ _ _ _ _ _ rfl rfl rfl; rfl
  refine b ?_ ?_ ?_
  · funext a i
    show (t1_residEqns D (WholeUcc4.withDag (soUnit c S)) a i + _ * _) * _ = (t1_residEqns D (WholeUcc4.withDag S) a i + _ * _) * _
    rw [hw, d1, show t1_residEqns D (soUnit c (WholeUcc4.withDag S)) a i = c * t1_residEqns D (WholeUcc4.withDag S) a i from
      so_eval_unit D c _ _ (by decide +kernel) _]
    exact pass_unit c hc _ _ _
  · funext a b i j
    show (ccd_t2residual D (WholeUcc4.withDag (soUnit c S)) a b i j - offset_t2resid_t2squared D (WholeUcc4.withDag (soUnit c S)) a b i j
      + offset_t2resid_t2dag_w_t2 D (WholeUcc4.withDag (soUnit c S)) a b i j + offset_t2resid_T1_T3 D (WholeUcc4.withDag (soUnit c S)) a b i j + _ * _) * _ =
      (ccd_t2residual D (WholeUcc4.withDag S) a b i j - offset_t2resid_t2squared D (WholeUcc4.withDag S) a b i j
      + offset_t2resid_t2dag_w_t2 D (WholeUcc4.withDag S) a b i j + offset_t2resid_T1_T3 D (WholeUcc4.withDag S) a b i j + _ * _) * _
    rw [hw, d2, show ccd_t2residual D (soUnit c (WholeUcc4.withDag S)) a b i j = c * ccd_t2residual D (WholeUcc4.withDag S) a b i j from
        so_eval_unit D c _ _ (by decide +kernel) _,
      show offset_t2resid_t2squared D (soUnit c (WholeUcc4.withDag S)) a b i j = c * offset_t2resid_t2squared D (WholeUcc4.withDag S) a b i j from
        so_eval_unit D c _ _ (by decide +kernel) _,
      show offset_t2resid_t2dag_w_t2 D (soUnit c (WholeUcc4.withDag S)) a b i j = c * offset_t2resid_t2dag_w_t2 D (WholeUcc4.withDag S) a b i j from
        so_eval_unit D c _ _ (by decide +kernel) _,
      show offset_t2resid_T1_T3 D (soUnit c (WholeUcc4.withDag S)) a b i j = c * offset_t2resid_T1_T3 D (WholeUcc4.withDag S) a b i j from
        so_eval_unit D c _ _ (by decide +kernel) _, ← mul_sub, ← mul_add, ← mul_add]
    exact pass_unit c hc _ _ _
  · funext a b x i j k
    show (t3_resid D (WholeUcc4.withDag (soUnit c S)) a b x i j k + _ * _) * _ = (t3_resid D (WholeUcc4.withDag S) a b x i j k + _ * _) * _
    rw [hw, d3, show t3_resid D (soUnit c (WholeUcc4.withDag S)) a b x i j k = c * t3_resid D (WholeUcc4.withDag S) a b x i j k from
      so_eval_unit D c _ _ (by decide +kernel) _]
    exact pass_unit c hc _ _ _

omit [DecidableEq I] in
/-- The energy of UCC(4) has one part that is an energy and one that is a pure number. -/
theorem ucc_energy_unit (c : ℝ) (hc : c ≠ 0) (ε : I → ℝ) (S : SO I ℝ) :
    ccdEnergy D (soUnit c S) = c * ccdEnergy D S ∧
    WholeUcc4.uccPart D (WholeUcc4.den2 fun p => c * ε p) (soUnit c S) = WholeUcc4.uccPart D (WholeUcc4.den2 ε) S := by
  refine ⟨so_eval_unit D c S _ (by decide +kernel) _, ?_⟩
  unfold WholeUcc4.uccPart
  refine Finset.sum_congr rfl fun a _ => Finset.sum_congr rfl fun b _ => Finset.sum_congr rfl fun j _ => Finset.sum_congr rfl fun i _ => ?_
  have hw : WholeUcc4.withDag (soUnit c S) = soUnit c (WholeUcc4.withDag S) := rfl
  rw [hw, (ucc_den_unit c ε).2.1, show offset_t2resid_t2dag_w_t2 D (soUnit c (WholeUcc4.withDag S)) a b j i =
    c * offset_t2resid_t2dag_w_t2 D (WholeUcc4.withDag S) a b j i from so_eval_unit D c _ _ (by decide +kernel) _]
  show S.t2 a b j i * _ = _
  field_simp

omit [Inhabited I] in
theorem ucc_accel_unit (c : ℝ) (on : Bool) (d : WholeUcc4.Acc D) (B : SO I ℝ) :
    WholeUcc4.accel D on d (soUnit c B) = (WholeUcc4.accel D on d B).map fun p => (p.1, soUnit c p.2) := by
  have hp : WholeUcc4.pack D (soUnit c B) = WholeUcc4.pack D B := by
    funext x
    obtain ⟨a, i⟩ | ⟨⟨a, b⟩, i, j⟩ | ⟨⟨a, b, c⟩, i, j, k⟩ := x <;> rfl
  unfold WholeUcc4.accel
  cases on with
  | false => rfl
  | true =>
    simp only [if_true, hp]
    cases d.1.newVec (WholeUcc4.pack D B) (d.2 - WholeUcc4.pack D B) <;> rfl

/-- **C90** For UCC(4), calculations in two units that make the same number of passes return the same amplitudes. Missing: the
energies, and with them the number of passes. The part of the energy added to the CCD energy does not change with the unit. -/
theorem C90_ucc4_partial (c : ℝ) (hc : 0 < c) (o : WholeUcc4.Opts I) (ho : o.cc_type = "UCC(4)") (S : SO I ℝ)
    (r r' : Res (SO I ℝ) (WholeUcc4.Acc D) ℝ) (h : WholeUcc4.calculate D o S = .ok r)
    (h' : WholeUcc4.calculate D (uccUnit c o) (soUnit c S) = .ok r') (hn : r'.log.length = r.log.length) :
    r'.st.amps = soUnit c r.st.amps ∧
    r'.energy = c * r.energy + (1 - c) * WholeUcc4.uccPart D (WholeUcc4.den2 o.ε) r.st.amps := by
  obtain ⟨q, q0, qn, qs, -⟩ := C01_passes _ _ r h
  obtain ⟨q', q0', qn', qs', -⟩ := C01_passes _ _ r' h'
  have key : ∀ k ≤ r.log.length, q' k = stUnit (soUnit c) (q k) := by
    intro k
    induction k with
    | zero =>
      intro _
      rw [q0, q0']
      have hst : WholeUcc4.start (fun p => c * o.ε p) (soUnit c S) = soUnit c (WholeUcc4.start o.ε S) := by
        have b : ∀ {y y' : I → I → I → I → ℝ}, y = y' → ({ soUnit c S with t1 := fun _ _ => 0, t2 := y, t3 := fun _ _ _ _ _ _ => 0 } : SO I ℝ) =
            { soUnit c S with t1 := fun _ _ => 0, t2 := y', t3 := fun _ _ _ _ _ _ => 0 } := by
          rintro _ _ rfl; rfl
        refine b ?_
        funext a b i j
        rw [(ucc_den_unit c o.ε).2.1]
        show c * S.g a b i j * (c⁻¹ * _) = S.g a b i j * _
        have := hc.ne'
        field_simp
      exact congrArg (fun x => (⟨x, soUnit c S, _⟩ : St (SO I ℝ) (WholeUcc4.Acc D))) hst
    | succ k ih =>
      intro hk
      obtain ⟨a, ha, hb, hl⟩ := qs k (by omega)
      obtain ⟨a', ha', hb', hl'⟩ := qs' k (by omega)
      have hu : hasSub "UCC(4)" o.cc_type = true := by rw [ho]; decide
      have e1 : WholeUcc4.pass D o.ε (q k).amps = a := by
        have : (WholeUcc4.cfg D o).resid (q k).amps ((WholeUcc4.cfg D o).dag (q k).amps) = .ok (WholeUcc4.pass D o.ε (q k).amps) := if_pos hu
        rw [this] at ha
        exact Except.ok.inj ha
      have e2 : WholeUcc4.pass D (fun p => c * o.ε p) (q' k).amps = a' := by
        have : (WholeUcc4.cfg D (uccUnit c o)).resid (q' k).amps ((WholeUcc4.cfg D (uccUnit c o)).dag (q' k).amps) =
          .ok (WholeUcc4.pass D (fun p => c * o.ε p) (q' k).amps) := if_pos hu
        rw [this] at ha'
        exact Except.ok.inj ha'
      have ih := ih (by omega)
      have e3 : a' = soUnit c a := by rw [← e1, ← e2, ih, ← ucc_pass_unit D c hc.ne']; rfl
      have hb' : WholeUcc4.accel D o.diis.isSome (q' k).diis a' = .ok ((q' (k + 1)).diis, (q' (k + 1)).amps) := hb'
      have hb : WholeUcc4.accel D o.diis.isSome (q k).diis a = .ok ((q (k + 1)).diis, (q (k + 1)).amps) := hb
      have hdi : (q' k).diis = (q k).diis := by rw [ih]; rfl
      rw [e3, hdi, ucc_accel_unit, hb] at hb'
      have hp := Except.ok.inj hb'
      have hl : (q (k + 1)).l2 = (q k).amps := hl
      have hl' : (q' (k + 1)).l2 = (q' k).amps := hl'
      have z1 : (q' (k + 1)).amps = soUnit c (q (k + 1)).amps := (congrArg Prod.snd hp).symm
      have z2 : (q' (k + 1)).diis = (q (k + 1)).diis := (congrArg Prod.fst hp).symm
      have z3 : (q' (k + 1)).l2 = soUnit c (q (k + 1)).l2 := by rw [hl, hl', ih]; rfl
      unfold stUnit
      rw [← z1, ← z2, ← z3]
  have hs : r'.st = stUnit (soUnit c) r.st := by rw [← qn', ← qn, hn]; exact key _ le_rfl
  have ha : r'.st.amps = soUnit c r.st.amps := by rw [hs]; rfl
  refine ⟨ha, ?_⟩
  have w := (C89_report D o ho S r h 0 0).1
  have w' := (C89_report D (uccUnit c o) ho (soUnit c S) r' h' 0 0).1
  obtain ⟨v1, v2⟩ := ucc_energy_unit D c hc.ne' o.ε r.st.amps
  rw [w', ha, v1, show (uccUnit c o).ε = fun p => c * o.ε p from rfl, v2, w]
  ring

/-- Antisymmetric in the occupied orbitals 0 and 1. -/
def occPair {K : Type} [Field K] (p q : ℕ) : K := if p = 0 ∧ q = 1 then 1 else if p = 1 ∧ q = 0 then -1 else 0

/-- Antisymmetric in the virtual orbitals 2 and 3. -/
def virtPair {K : Type} [Field K] (p q : ℕ) : K := if p = 2 ∧ q = 3 then 1 else if p = 3 ∧ q = 2 then -1 else 0

/-- Two electrons in four spin orbitals with orbital energies 1, 2, 3, 4; `τ` is the one amplitude. -/
def pairArrays {K : Type} [Field K] (τ : K) : SO ℕ K where
  f p q := if p = q then (p : K) + 1 else 0
  g p q r s := occPair p q * virtPair r s + virtPair p q * occPair r s
  t2 a b i j := virtPair a b * occPair i j * τ
  l2 i j a b := virtPair a b * occPair i j * τ

theorem pairArrays_sym : (pairArrays (0 : ℝ)).Sym := by
  have po : ∀ p q : ℕ, (occPair p q : ℝ) = - occPair q p := by
    intro p q
    unfold occPair
    by_cases h1 : p = 0 ∧ q = 1
    · obtain ⟨rfl, rfl⟩ := h1; norm_num
    · by_cases h2 : p = 1 ∧ q = 0
      · obtain ⟨rfl, rfl⟩ := h2; norm_num
      · rw [if_neg h1, if_neg h2, if_neg (fun h => h2 ⟨h.2, h.1⟩), if_neg (fun h => h1 ⟨h.2, h.1⟩), neg_zero]
  have pv : ∀ p q : ℕ, (virtPair p q : ℝ) = - virtPair q p := by
    intro p q
    unfold virtPair
    by_cases h1 : p = 2 ∧ q = 3
    · obtain ⟨rfl, rfl⟩ := h1; norm_num
    · by_cases h2 : p = 3 ∧ q = 2
      · obtain ⟨rfl, rfl⟩ := h2; norm_num
      · rw [if_neg h1, if_neg h2, if_neg (fun h => h2 ⟨h.2, h.1⟩), if_neg (fun h => h1 ⟨h.2, h.1⟩), neg_zero]
  constructor
  · intro p q
    simp only [pairArrays]
    by_cases h : p = q
    · rw [h]
    · rw [if_neg h, if_neg (Ne.symm h)]
  · intro p q r s; simp only [pairArrays]; rw [po p q, pv p q]; ring
  · intro p q r s; simp only [pairArrays]; rw [po r s, pv r s]; ring
  · intro p q r s; simp only [pairArrays]; ring
  all_goals intros; simp [pairArrays]

theorem pairArrays_cast (τ : ℚ) : (pairArrays τ).cast ℝ = pairArrays (τ : ℝ) := by
  have po : ∀ p q : ℕ, ((occPair p q : ℚ) : ℝ) = occPair p q := by intro p q; unfold occPair; split_ifs <;> norm_num
  have pv : ∀ p q : ℕ, ((virtPair p q : ℚ) : ℝ) = virtPair p q := by intro p q; unfold virtPair; split_ifs <;> norm_num
  have pf : ∀ p q : ℕ, (((if p = q then (p : ℚ) + 1 else 0) : ℚ) : ℝ) = if p = q then (p : ℝ) + 1 else 0 := by
    intro p q; split_ifs <;> norm_num
  simp only [SO.cast, pairArrays, pf, Rat.cast_add, Rat.cast_mul, po, pv, Rat.cast_zero]

/-- Which arrays a term may read: integrals, singles and triples (`e`), and doubles in their places. -/
def pairFac (e : Bool) (f : Fac) : Bool :=
  [15, 23].elem f.t || (e && [31, 47].elem f.t) || (f.t == 39 && decide (f.ix.map sp = [1, 1, 0, 0])) || (f.t == 71 && decide (f.ix.map sp = [0, 0, 1, 1]))

/-- Programs depend on the doubles inside the orbital ranges only. -/
theorem pair_local (τ : ℚ) (S : SO ℕ ℝ) (hf : S.f = (pairArrays (τ : ℝ)).f) (hg : S.g = (pairArrays (τ : ℝ)).g)
    (e : Bool) (h1 : e = true → S.t1 = (fun _ _ => 0) ∧ S.t3 = fun _ _ _ _ _ _ => 0)
    (h2 : ∀ a ∈ Witness.D 1, ∀ b ∈ Witness.D 1, ∀ i ∈ Witness.D 0, ∀ j ∈ Witness.D 0, S.t2 a b i j = (pairArrays (τ : ℝ)).t2 a b i j)
    (P : Prog) (hP : P.allFac (pairFac e) = true) (ho : P.outSp [1, 1, 0, 0] = true) (a b i j : ℕ) (ha : a ∈ Witness.D 1)
    (hb : b ∈ Witness.D 1) (hi : i ∈ Witness.D 0) (hj : j ∈ Witness.D 0) :
    P.eval Witness.D (WholeUcc4.withDag S).T [a, b, i, j] = ((P.eval Witness.D (pairArrays τ).T [a, b, i, j] : ℚ) : ℝ) := by
  have hc : ((P.eval Witness.D (pairArrays τ).T [a, b, i, j] : ℚ) : ℝ) = P.eval Witness.D (pairArrays (τ : ℝ)).T [a, b, i, j] := by
    rw [← pairArrays_cast]; exact (SO.eval_cast Witness.D (pairArrays τ) P _).symm
  rw [hc]
  refine Prog.eval_local Witness.D _ _ P (pairFac e) hP ?_ [1, 1, 0, 0] ho _ (by simp [InBox, ha, hb, hi, hj])
  intro f hc l hl
  simp only [pairFac, Bool.or_eq_true, Bool.and_eq_true, beq_iff_eq, decide_eq_true_eq, List.elem_iff, List.mem_cons, List.not_mem_nil, or_false] at hc
  rcases hc with ((hc | ⟨he, hc⟩) | ⟨hc, hs⟩) | ⟨hc, hs⟩
  · rcases hc with hc | hc <;> rw [hc]
    · exact congrArg (at2 · l) hf
    · exact congrArg (at4 · l) hg
  · rcases hc with hc | hc <;> rw [hc]
    · exact congrArg (at2 · l) (h1 he).1
    · exact congrArg (at6 · l) (h1 he).2
  · rw [hs] at hl
    rw [hc]
    obtain ⟨x, y, z, w, rfl, hx, hy, hz, hw⟩ : ∃ x y z w, l = [x, y, z, w] ∧ x ∈ Witness.D 1 ∧ y ∈ Witness.D 1 ∧ z ∈ Witness.D 0 ∧ w ∈ Witness.D 0 := by
      rcases l with - | ⟨x, - | ⟨y, - | ⟨z, - | ⟨w, - | _⟩⟩⟩⟩ <;> simp_all [InBox]
    exact h2 x hx y hy z hz w hw
  · rw [hs] at hl
    rw [hc]
    obtain ⟨x, y, z, w, rfl, hx, hy, hz, hw⟩ : ∃ x y z w, l = [x, y, z, w] ∧ x ∈ Witness.D 0 ∧ y ∈ Witness.D 0 ∧ z ∈ Witness.D 1 ∧ w ∈ Witness.D 1 := by
      rcases l with - | ⟨x, - | ⟨y, - | ⟨z, - | ⟨w, - | _⟩⟩⟩⟩ <;> simp_all [InBox]
    exact h2 z hz w hw x hx y hy

/-- Options of a calculation of one pass. -/
noncomputable def pairOpts : WholeUcc4.Opts ℕ := { cc_type := "UCC(4)", ε := fun p => (p : ℝ) + 1, maxIter := 1, eps := 1, diis := none, start := 0 }

theorem pair_den (a b i j : ℕ) : WholeUcc4.den2 pairOpts.ε a b i j = ((wd2 a b i j : ℚ) : ℝ) := by
  simp only [WholeUcc4.den2, pairOpts, wd2, Witness.z]
  push_cast
  ring

/-- A calculation of one pass returns the pass from the starting amplitudes. -/
theorem one_pass (o : WholeUcc4.Opts I) (hm : o.maxIter = 1) (hd : o.diis = none) (S : SO I ℝ) (r : Res (SO I ℝ) (WholeUcc4.Acc D) ℝ)
    (hr : WholeUcc4.calculate D o S = .ok r) : r.log.length = 1 ∧ r.st.amps = WholeUcc4.pass D o.ε (WholeUcc4.start o.ε S) := by
  obtain ⟨q, h0, hn, hp, -⟩ := C01_passes _ _ r hr
  have hlen : r.log.length = 1 := by
    obtain ⟨l1, l2, -⟩ := C01_iteration_budget _ _ r hr
    have : (WholeUcc4.cfg D o).maxIter = 1 := hm
    omega
  rw [hlen] at hn hp
  have hs : (WholeUcc4.cfg D o).step (q 0) = .ok (q 1) := (step_ok_iff _ _ _).2 (hp 0 (by omega))
  obtain ⟨-, hb⟩ := ucc_step D o _ _ hs
  refine ⟨hlen, ?_⟩
  rw [h0, hn] at hb
  simp only [WholeUcc4.accel, hd, Option.isSome_none, Bool.false_eq_true, if_false, Except.ok.injEq, Prod.mk.injEq] at hb
  exact hb.2.symm

/-- The orbitals of `Witness.D` as lists. -/
def WL (s : Nat) : List ℕ := bif Nat.beq s 0 then [0, 1] else [2, 3]
theorem WL_ok : ∀ s, (WL s).Nodup ∧ Witness.D s = (WL s).toFinset := by
  intro s
  match s with
  | 0 => exact ⟨by decide, rfl⟩
  | n + 1 => exact ⟨show [2, 3].Nodup by decide, rfl⟩

/-- Axes at which the arrays below have entries. -/
def nzPair (_ : Nat) : List ℕ → Bool
  | [p, q] => Nat.beq p q
  | [p, q, r, s] => (Nat.ble 2 p == Nat.ble 2 q) && (Nat.ble 2 r == Nat.ble 2 s) && (Nat.ble 2 p != Nat.ble 2 r) && !Nat.beq p q && !Nat.beq r s
  | _ => false

theorem occPair_cases {K : Type} [Field K] (p q : ℕ) : (occPair p q : K) = 0 ∨ p = 0 ∧ q = 1 ∨ p = 1 ∧ q = 0 := by
  unfold occPair
  by_cases h1 : p = 0 ∧ q = 1
  · exact .inr (.inl h1)
  · by_cases h2 : p = 1 ∧ q = 0
    · exact .inr (.inr h2)
    · rw [if_neg h1, if_neg h2]
      exact .inl rfl

theorem virtPair_cases {K : Type} [Field K] (p q : ℕ) : (virtPair p q : K) = 0 ∨ p = 2 ∧ q = 3 ∨ p = 3 ∧ q = 2 := by
  unfold virtPair
  by_cases h1 : p = 2 ∧ q = 3
  · exact .inr (.inl h1)
  · by_cases h2 : p = 3 ∧ q = 2
    · exact .inr (.inr h2)
    · rw [if_neg h1, if_neg h2]
      exact .inl rfl

theorem pair_support {K : Type} [Field K] (p q r s : ℕ) (h : nzPair 0 [p, q, r, s] = false) :
    (occPair p q * virtPair r s : K) = 0 ∧ (virtPair p q * occPair r s : K) = 0 := by
  constructor
  · rcases occPair_cases (K := K) p q with e | ⟨rfl, rfl⟩ | ⟨rfl, rfl⟩
    · rw [e, zero_mul]
    all_goals
      rcases virtPair_cases (K := K) r s with e | ⟨rfl, rfl⟩ | ⟨rfl, rfl⟩
      · rw [e, mul_zero]
      all_goals cases h
  · rcases virtPair_cases (K := K) p q with e | ⟨rfl, rfl⟩ | ⟨rfl, rfl⟩
    · rw [e, zero_mul]
    all_goals
      rcases occPair_cases (K := K) r s with e | ⟨rfl, rfl⟩ | ⟨rfl, rfl⟩
      · rw [e, mul_zero]
      all_goals cases h

theorem nzPair_ok {K : Type} [Field K] (τ : K) : ∀ t l, nzPair t l = false → (pairArrays τ).T t l = 0 := by
  intro t l h
  have h2 : ∀ p q, l = [p, q] → p ≠ q := by
    rintro p q rfl e
    exact absurd h (by simp [nzPair, e])
  have h4 : ∀ p q r s, l = [p, q, r, s] → (occPair p q * virtPair r s : K) = 0 ∧ (virtPair p q * occPair r s : K) = 0 := by
    rintro p q r s rfl
    exact pair_support p q r s h
  unfold SO.T
  split_ifs
  · unfold at2
    split
    · exact if_neg (h2 _ _ rfl)
    · rfl
  · unfold at4
    split
    · show _ + _ = _
      rw [(h4 _ _ _ _ rfl).1, (h4 _ _ _ _ rfl).2, add_zero]
    · rfl
  · unfold at2; split <;> rfl
  · unfold at4
    split
    · show _ * _ * τ = 0
      rw [(h4 _ _ _ _ rfl).2, zero_mul]
    · rfl
  · unfold at6; split <;> rfl
  · unfold at8; split <;> rfl
  · unfold at2; split <;> rfl
  · unfold at4
    split
    · show virtPair _ _ * occPair _ _ * τ = 0
      rw [mul_comm (virtPair _ _), (h4 _ _ _ _ rfl).1, zero_mul]
    · rfl
  · unfold at6; split <;> rfl
  · unfold at8; split <;> rfl
  · rfl

theorem pair_resid : ∀ a ∈ Witness.D 1, ∀ b ∈ Witness.D 1, ∀ i ∈ Witness.D 0, ∀ j ∈ Witness.D 0,
    (ccd_t2residual Witness.D (pairArrays (-1/4 : ℚ)) a b i j - offset_t2resid_t2squared Witness.D (pairArrays (-1/4 : ℚ)) a b i j
      + offset_t2resid_t2dag_w_t2 Witness.D (pairArrays (-1/4 : ℚ)) a b i j + offset_t2resid_T1_T3 Witness.D (pairArrays (-1/4 : ℚ)) a b i j
      + (wd2 a b i j)⁻¹ * (pairArrays (-1/4 : ℚ)).t2 a b i j) * wd2 a b i j = (pairArrays (-29/128 : ℚ)).t2 a b i j := by
  unfold ccd_t2residual offset_t2resid_t2squared offset_t2resid_t2dag_w_t2 offset_t2resid_T1_T3
  simp only [Prog.eval_terms Witness.D WL WL_ok _ nzPair (nzPair_ok _)]
  decide +kernel

theorem pair_part : ∑ a ∈ Witness.D 1, ∑ b ∈ Witness.D 1, ∑ j ∈ Witness.D 0, ∑ i ∈ Witness.D 0,
    (pairArrays (-29/128 : ℚ)).t2 a b j i * (2 * offset_t2resid_t2dag_w_t2 Witness.D (pairArrays (-29/128 : ℚ)) a b j i * wd2 a b j i) ≠ 0 := by
  unfold offset_t2resid_t2dag_w_t2
  simp only [Prog.eval_terms Witness.D WL WL_ok _ nzPair (nzPair_ok _)]
  decide +kernel

/-- **C90** is violated for UCC(4): the same calculation with energies in half the unit (all inputs are twice as large) returns the
same amplitudes, but not twice the energy. -/
theorem C90_ucc4_violated : ∃ r r', (pairArrays (0 : ℝ)).Sym ∧ WholeUcc4.calculate Witness.D pairOpts (pairArrays 0) = .ok r ∧
    WholeUcc4.calculate Witness.D (uccUnit 2 pairOpts) (soUnit 2 (pairArrays 0)) = .ok r' ∧
    r'.st.amps = soUnit 2 r.st.amps ∧ r'.energy ≠ 2 * r.energy := by
  obtain ⟨r, hr⟩ := C89_returns Witness.D pairOpts rfl (.inl rfl) (le_refl 1) (show 1 ≤ 76 by omega) (pairArrays 0)
  obtain ⟨r', hr'⟩ := C89_returns Witness.D (uccUnit 2 pairOpts) rfl (.inl rfl) (le_refl 1) (show 1 ≤ 76 by omega) (soUnit 2 (pairArrays 0))
  obtain ⟨l1, hamps⟩ := one_pass Witness.D pairOpts rfl rfl _ r hr
  obtain ⟨l2, -⟩ := one_pass Witness.D (uccUnit 2 pairOpts) rfl rfl _ r' hr'
  obtain ⟨k1, k2⟩ := C90_ucc4_partial Witness.D 2 two_pos pairOpts rfl _ r r' hr hr' (l2.trans l1.symm)
  refine ⟨r, r', pairArrays_sym, hr, hr', k1, ?_⟩
  have hstart : ∀ a ∈ Witness.D 1, ∀ b ∈ Witness.D 1, ∀ i ∈ Witness.D 0, ∀ j ∈ Witness.D 0,
      (WholeUcc4.start pairOpts.ε (pairArrays 0)).t2 a b i j = (pairArrays (((-1/4 : ℚ) : ℚ) : ℝ)).t2 a b i j := by
    have hq : ∀ a ∈ Witness.D 1, ∀ b ∈ Witness.D 1, ∀ i ∈ Witness.D 0, ∀ j ∈ Witness.D 0,
        (pairArrays (0 : ℚ)).g a b i j * wd2 a b i j = (pairArrays (-1/4 : ℚ)).t2 a b i j := by decide +kernel
    intro a ha b hb i hi j hj
    show (pairArrays (0 : ℝ)).g a b i j * WholeUcc4.den2 pairOpts.ε a b i j = _
    rw [pair_den, ← pairArrays_cast]
    have e : (pairArrays (0 : ℝ)).g a b i j = (((pairArrays (0 : ℚ)).g a b i j : ℚ) : ℝ) := by
      have := congrArg (fun x : SO ℕ ℝ => x.g a b i j) (pairArrays_cast 0)
      rw [Rat.cast_zero] at this
      exact this.symm
    rw [e, ← Rat.cast_mul, hq a ha b hb i hi j hj]
    rfl
  have ht2 : ∀ a ∈ Witness.D 1, ∀ b ∈ Witness.D 1, ∀ i ∈ Witness.D 0, ∀ j ∈ Witness.D 0,
      r.st.amps.t2 a b i j = (pairArrays (((-29/128 : ℚ) : ℚ) : ℝ)).t2 a b i j := by
    intro a ha b hb i hi j hj
    have loc := fun (P : Prog) hP ho => pair_local (-1/4) (WholeUcc4.start pairOpts.ε (pairArrays 0)) rfl rfl true (fun _ => ⟨rfl, rfl⟩) hstart P hP ho a b i j ha hb hi hj
    rw [hamps]
    show (ccd_t2residual Witness.D (WholeUcc4.withDag _) a b i j - offset_t2resid_t2squared Witness.D (WholeUcc4.withDag _) a b i j
      + offset_t2resid_t2dag_w_t2 Witness.D (WholeUcc4.withDag _) a b i j + offset_t2resid_T1_T3 Witness.D (WholeUcc4.withDag _) a b i j
      + (WholeUcc4.den2 pairOpts.ε a b i j)⁻¹ * (WholeUcc4.start pairOpts.ε (pairArrays 0)).t2 a b i j) * WholeUcc4.den2 pairOpts.ε a b i j = _
    have e1 := loc Gen.ccd_t2residual (by decide +kernel) (by decide +kernel)
    have e2 := loc Gen.offset_t2resid_t2squared (by decide +kernel) (by decide +kernel)
    have e3 := loc Gen.offset_t2resid_t2dag_w_t2 (by decide +kernel) (by decide +kernel)
    have e4 := loc Gen.offset_t2resid_T1_T3 (by decide +kernel) (by decide +kernel)
    have e5 := pair_resid a ha b hb i hi j hj
    have e6 : ∀ τ : ℚ, (pairArrays (τ : ℝ)).t2 a b i j = (((pairArrays τ).t2 a b i j : ℚ) : ℝ) := fun τ => by rw [← pairArrays_cast]; rfl
    rw [hstart a ha b hb i hi j hj, e6, e6, pair_den, ← e5]
    unfold ccd_t2residual offset_t2resid_t2squared offset_t2resid_t2dag_w_t2 offset_t2resid_T1_T3
    rw [e1, e2, e3, e4]
    push_cast
    rfl
  have hpart : WholeUcc4.uccPart Witness.D (WholeUcc4.den2 pairOpts.ε) r.st.amps ≠ 0 := by
    have e : WholeUcc4.uccPart Witness.D (WholeUcc4.den2 pairOpts.ε) r.st.amps = ((∑ a ∈ Witness.D 1, ∑ b ∈ Witness.D 1, ∑ j ∈ Witness.D 0, ∑ i ∈ Witness.D 0,
        (pairArrays (-29/128 : ℚ)).t2 a b j i * (2 * offset_t2resid_t2dag_w_t2 Witness.D (pairArrays (-29/128)) a b j i * wd2 a b j i) : ℚ) : ℝ) := by
      unfold WholeUcc4.uccPart
      rw [Rat.cast_sum]
      refine Finset.sum_congr rfl fun a ha => ?_
      rw [Rat.cast_sum]
      refine Finset.sum_congr rfl fun b hb => ?_
      rw [Rat.cast_sum]
      refine Finset.sum_congr rfl fun j hj => ?_
      rw [Rat.cast_sum]
      refine Finset.sum_congr rfl fun i hi => ?_
      have e1 := pair_local (-29/128) r.st.amps (by rw [hamps]; rfl) (by rw [hamps]; rfl) false (fun h => absurd h Bool.false_ne_true) ht2
        Gen.offset_t2resid_t2dag_w_t2 (by decide +kernel) (by decide +kernel) a b j i ha hb hj hi
      have e2 : (pairArrays (((-29/128 : ℚ) : ℚ) : ℝ)).t2 a b j i = (((pairArrays (-29/128 : ℚ)).t2 a b j i : ℚ) : ℝ) := by
        rw [← pairArrays_cast]; rfl
      rw [ht2 a ha b hb j hj i hi, e2, pair_den]
      unfold offset_t2resid_t2dag_w_t2
      rw [e1]
      push_cast
      rfl
    rw [e]
    exact_mod_cast pair_part
  rw [k2]
  intro h
  apply hpart
  linarith

/-- The CCD calculation of C62 in half the unit of energy: it returns, the same amplitudes and twice the energy after as many passes. -/
example : ∃ r, Whole.calculate Witness.D optsR Witness.csR = .ok r ∧
    Whole.calculate Witness.D (optsUnit 2 optsR) (siUnit 2 Witness.csR) = .ok ⟨stUnit (siUnit 2) r.st, 2 * r.energy, r.log.map (2 * ·)⟩ ∧
    (siUnit 2 Witness.csR).g_abab ≠ Witness.csR.g_abab := by
  obtain ⟨r, h⟩ := C62_returns Witness.D optsR (.inr ⟨le_refl _, show hasSub "UCC(4)" "CCD" = false by decide, show hasSub "CCDQ" "CCD" = false by decide⟩)
    (show 1 ≤ 40 by omega) (show 40 ≤ 76 by omega) Witness.csR
  refine ⟨r, h, ?_, fun e => ?_⟩
  · rw [(C90_ccd Witness.D 2 two_pos optsR Witness.csR 0 0).1, h]
    rfl
  · have := congrFun (congrFun (congrFun (congrFun e 2) 2) 0) 0
    norm_num [siUnit, Witness.csR, Witness.cs, Witness.gab, Witness.z] at this

/-- `XCCD(6)` in half the unit. -/
example : ∃ r, WholeSlow.calculate (spinD Witness.D) (slowUnit 2 ⟨"XCCD(6)", den Witness.εR, 40, 1 / 100000000, none, 0⟩)
      (soUnit 2 Witness.csR.so) = .ok (resUnit (soUnit 2) 2 r) := by
  obtain ⟨r, h⟩ := C85_returns (spinD Witness.D) ⟨"XCCD(6)", den Witness.εR, 40, 1 / 100000000, none, 0⟩ rfl (show 1 ≤ 40 by omega)
    (show 40 ≤ 76 by omega) (show "XCCD(6)" ∈ _ by decide) Witness.csR.so
  exact ⟨r, by rw [(C90_ccd_slow (spinD Witness.D) 2 two_pos _ Witness.csR.so 0 0).1, h]; rfl⟩

end Verif.Props
