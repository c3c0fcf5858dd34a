import Verif.Props.WholeUcc4
import Verif.Props.WeakFock

/-!
# UCC(4) with canonical orbitals (C89)

`UT2/drive_ucc4.py`: what a pass does to singles and triples when the Fock matrix is diagonal, and the reported energy written out.
-/

namespace Verif.Props

open Verif.Ein Verif.UT2 Verif.Kernel Verif.WholeUcc4

variable {I : Type} [DecidableEq I] [Inhabited I] (D : Nat → Finset I)

/-- **C89** With canonical orbitals a pass sets the singles to those of second order, whatever they were before. -/
theorem C89_singles (ε : I → ℝ) (gap : ∀ i ∈ D 0, ∀ a ∈ D 1, ε i < ε a) (S : SO I ℝ) (hf : DiagF D ε S) (a i : I) (ha : a ∈ D 1) (hi : i ∈ D 0) :
    (pass D ε S).t1 a i =
      (-1 / 2 * ∑ k ∈ D 0, ∑ j ∈ D 0, ∑ b ∈ D 1, S.g k j b i * S.t2 b a k j
        - 1 / 2 * ∑ j ∈ D 0, ∑ b ∈ D 1, ∑ c ∈ D 1, S.g j a b c * S.t2 b c i j) / (ε i - ε a) := by
  have l0 := Finset.subset_union_left (s₁ := D 0) (s₂ := D 1)
  have l1 := Finset.subset_union_right (s₁ := D 0) (s₂ := D 1)
  have hx : ε i - ε a ≠ 0 := by have := gap i hi a ha; linarith
  have e : t1_residEqns D (WholeUcc4.withDag S) a i =
      -1 / 2 * ∑ k ∈ D 0, ∑ j ∈ D 0, ∑ b ∈ D 1, S.g k j b i * S.t2 b a k j
        - 1 / 2 * ∑ j ∈ D 0, ∑ b ∈ D 1, ∑ c ∈ D 1, S.g j a b c * S.t2 b c i j - (ε i - ε a) * S.t1 a i := by
    simp [t1_residEqns, Gen.t1_residEqns, WholeUcc4.withDag, Prog.eval, Blk.eval, termVal, dums, vars, varsIx, insertNew, sumOver, evalFs, SO.T, at2, at4,
      Ein.bind, Function.update, sp]
    have o : N.kₒ % 2 = 0 := rfl
    have v : N.bᵥ % 2 = 1 := rfl
    have w : N.cᵥ % 2 = 1 := rfl
    rw [o, v, w, (hf.row 0 l0 i hi _).2, (hf.row 1 l1 a ha _).1, (hf.off gap i a hi ha).2]
    have s1 : ∑ b ∈ D 1, ∑ k ∈ D 0, ∑ j ∈ D 0, S.g k j b i * S.t2 b a k j = ∑ k ∈ D 0, ∑ j ∈ D 0, ∑ b ∈ D 1, S.g k j b i * S.t2 b a k j := by
      rw [Finset.sum_comm]
      exact Finset.sum_congr rfl fun _ _ => Finset.sum_comm
    have s2 : ∑ b ∈ D 1, ∑ c ∈ D 1, ∑ j ∈ D 0, S.g j a b c * S.t2 b c i j = ∑ j ∈ D 0, ∑ b ∈ D 1, ∑ c ∈ D 1, S.g j a b c * S.t2 b c i j := by
      rw [Finset.sum_comm (s := D 0)]
      exact Finset.sum_congr rfl fun _ _ => Finset.sum_comm
    rw [s1, s2]
    ring
  show (t1_residEqns D (WholeUcc4.withDag S) a i + (WholeUcc4.den1 ε a i)⁻¹ * S.t1 a i) * WholeUcc4.den1 ε a i = _
  rw [e, WholeUcc4.den1]
  field_simp
  ring

/-- **C89** With canonical orbitals and antisymmetric triples a pass sets the triples to those of second order, the integrals times
the doubles over the denominator, whatever the triples were before. -/
theorem C89_triples (ε : I → ℝ) (gap : ∀ i ∈ D 0, ∀ a ∈ D 1, ε i < ε a) (S : SO I ℝ) (hf : DiagF D ε S)
    (h0 : ∀ a b c i j k, S.t3 a b c i j k = - S.t3 b a c i j k) (h1 : ∀ a b c i j k, S.t3 a b c i j k = - S.t3 a c b i j k)
    (h3 : ∀ a b c i j k, S.t3 a b c i j k = - S.t3 a b c j i k) (h4 : ∀ a b c i j k, S.t3 a b c i j k = - S.t3 a b c i k j)
    (a b c i j k : I) (ha : a ∈ D 1) (hb : b ∈ D 1) (hc : c ∈ D 1) (hi : i ∈ D 0) (hj : j ∈ D 0) (hk : k ∈ D 0) :
    (pass D ε S).t3 a b c i j k =
      t3_resid D { S with f := fun _ _ => 0, t1 := fun _ _ => 0, t3 := fun _ _ _ _ _ _ => 0 } a b c i j k / (ε i + ε j + ε k - ε a - ε b - ε c) := by
  have l0 := Finset.subset_union_left (s₁ := D 0) (s₂ := D 1)
  have l1 := Finset.subset_union_right (s₁ := D 0) (s₂ := D 1)
  have hx : ε i + ε j + ε k - ε a - ε b - ε c ≠ 0 := by
    have := gap i hi a ha
    have := gap j hj b hb
    have := gap k hk c hc
    linarith
  have e : t3_resid D (WholeUcc4.withDag S) a b c i j k =
      t3_resid D { S with f := fun _ _ => 0, t1 := fun _ _ => 0, t3 := fun _ _ _ _ _ _ => 0 } a b c i j k
        - (ε i + ε j + ε k - ε a - ε b - ε c) * S.t3 a b c i j k := by
    have split : ∀ A : SO I ℝ, t3_resid D A a b c i j k =
        Prog.eval D A.T (List.take 4 Gen.t3_resid) [a, b, c, i, j, k] + Prog.eval D A.T (List.drop 4 Gen.t3_resid) [a, b, c, i, j, k] := by
      intro A
      rw [← Prog.eval_append, List.take_append_drop]
      rfl
    have rest : Prog.eval D (WholeUcc4.withDag S).T (List.drop 4 Gen.t3_resid) [a, b, c, i, j, k] =
        Prog.eval D ({ S with f := fun _ _ => 0, t1 := fun _ _ => 0, t3 := fun _ _ _ _ _ _ => 0 } : SO I ℝ).T (List.drop 4 Gen.t3_resid) [a, b, c, i, j, k] := by
      simp only [Gen.t3_resid, List.drop, Prog.eval, Blk.eval, termVal]
      rfl
    have zero : Prog.eval D ({ S with f := fun _ _ => 0, t1 := fun _ _ => 0, t3 := fun _ _ _ _ _ _ => 0 } : SO I ℝ).T (List.take 4 Gen.t3_resid) [a, b, c, i, j, k] = 0 := by
      simp [Gen.t3_resid, Prog.eval, Blk.eval, termVal, dums, vars, varsIx, insertNew, sumOver, evalFs, SO.T, at2, Ein.bind]
    have head : Prog.eval D (WholeUcc4.withDag S).T (List.take 4 Gen.t3_resid) [a, b, c, i, j, k] =
        - (ε i + ε j + ε k - ε a - ε b - ε c) * S.t3 a b c i j k := by
      simp [Gen.t3_resid, WholeUcc4.withDag, Prog.eval, Blk.eval, termVal, dums, vars, varsIx, insertNew, sumOver, evalFs, SO.T, at2, at6,
        Ein.bind, Function.update, sp]
      have o : N.lₒ % 2 = 0 := rfl
      have v : N.dᵥ % 2 = 1 := rfl
      rw [o, v, (hf.row 0 l0 k hk _).2, (hf.row 0 l0 j hj _).2, (hf.row 0 l0 i hi _).2, (hf.row 1 l1 a ha _).1, (hf.row 1 l1 b hb _).1,
        (hf.row 1 l1 c hc _).1, h4 a b c i k j, h4 a b c j k i, h3 a b c j i k, h0 b a c i j k,
        h0 c a b i j k, h1 a c b i j k]
      ring
    rw [split, split, rest, zero, head]
    ring
  show (t3_resid D (WholeUcc4.withDag S) a b c i j k + (WholeUcc4.den3 ε a b c i j k)⁻¹ * S.t3 a b c i j k) * WholeUcc4.den3 ε a b c i j k = _
  rw [e, WholeUcc4.den3]
  field_simp
  ring

/-- **C89** The energy UCC(4) reports, written out in the returned doubles: the energy of the reference, the CCD correlation energy and twice the part with `T₂† T₂`. -/
theorem C89_energy (o : Opts I) (hc : o.cc_type = "UCC(4)") (S : SO I ℝ) (r : Res (SO I ℝ) (Acc D) ℝ) (h : calculate D o S = .ok r) :
    r.energy = refEnergy D r.st.amps + corrEnergy D r.st.amps r.st.amps.t2 +
      2 * ∑ a ∈ D 1, ∑ b ∈ D 1, ∑ j ∈ D 0, ∑ i ∈ D 0, r.st.amps.t2 a b j i *
        (offset_t2resid_t2dag_w_t2 D { r.st.amps with l2 := fun i j a b => r.st.amps.t2 a b i j } a b j i / (o.ε j + o.ε i - o.ε a - o.ε b)) := by
  rw [(C89_report D o hc S r h 0 0).1]
  congr 1
  · exact C57_ccd_energy D r.st.amps
  · simp only [uccPart, WholeUcc4.den2, Finset.mul_sum]
    refine Finset.sum_congr rfl fun a _ => Finset.sum_congr rfl fun b _ => Finset.sum_congr rfl fun j _ => Finset.sum_congr rfl fun i _ => ?_
    rw [show WholeUcc4.withDag r.st.amps = { r.st.amps with l2 := fun i j a b => r.st.amps.t2 a b i j } from rfl]
    ring

/-- Integrals with a diagonal Fock matrix whose entries are the orbital energies of `uccOpts`, and antisymmetric amplitudes. -/
noncomputable def canonInts : SO ℕ ℝ :=
  { uccInts with
    f := fun p q => if p = q then uccOpts.ε p else 0
    t1 := fun _ _ => 1
    t2 := fun a b i j => ((a : ℝ) - b) * ((i : ℝ) - j)
    t3 := fun a b c i j k => ((a : ℝ) - b) * ((b : ℝ) - c) * ((a : ℝ) - c) * (((i : ℝ) - j) * ((j : ℝ) - k) * ((i : ℝ) - k)) }

/-- The hypotheses of the theorems above are met, with triples that do not vanish. -/
example : DiagF D44 uccOpts.ε canonInts ∧ canonInts.t3 4 5 6 0 1 2 ≠ 0 ∧
    (∀ a b c i j k, canonInts.t3 a b c i j k = - canonInts.t3 b a c i j k) ∧ (∀ a b c i j k, canonInts.t3 a b c i j k = - canonInts.t3 a c b i j k) ∧
    (∀ a b c i j k, canonInts.t3 a b c i j k = - canonInts.t3 a b c j i k) ∧ (∀ a b c i j k, canonInts.t3 a b c i j k = - canonInts.t3 a b c i k j) ∧
    (∀ i ∈ D44 0, ∀ a ∈ D44 1, uccOpts.ε i < uccOpts.ε a) ∧ (∃ r, calculate D44 uccOpts canonInts = .ok r) := by
  refine ⟨fun p _ q _ => rfl, ?_, ?_, ?_, ?_, ?_, fun i hi a ha => ?_, C89_returns D44 uccOpts rfl (.inl rfl) (le_refl 1) (show 1 ≤ 76 by omega) canonInts⟩
  · norm_num [canonInts]
  · intros; simp only [canonInts]; ring
  · intros; simp only [canonInts]; ring
  · intros; simp only [canonInts]; ring
  · intros; simp only [canonInts]; ring
  · have : i < a := by
      simp only [D44, Finset.mem_insert, Finset.mem_singleton] at hi ha
      omega
    have : (i : ℝ) < a := by exact_mod_cast this
    simpa [uccOpts] using this

end Verif.Props
