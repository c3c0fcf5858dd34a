import Verif.Props.Ccd

/-!
# Spin-orbital pCCD (C48)

`residMain` with `cc_type = "pCCD"` stores only the entries `[a,a,i,i]` of the new amplitudes. With antisymmetric
spin-orbital arrays those entries are zero, so the claim that such a run gives a non-trivial energy fails.
-/

namespace Verif.Props

open Verif.Ein Verif.UT2

variable {I K : Type} [Field K] [CharZero K] [Inhabited I] [DecidableEq I] (D : Nat → Finset I)

omit [CharZero K] in
/-- One pass keeps only entries `[a,a,i,i]`, and those are the updated entries. -/
theorem C48_projection (x : SO I K → I → I → I → I → K) (d2 : I → I → I → I → K) (A : SO I K) :
    (∀ a b i j, ¬ (a = b ∧ i = j) → (residMainSlow D "pCCD" x d2 A).t2 a b i j = 0) ∧
    ∀ a i, (residMainSlow D "pCCD" x d2 A).t2 a a i i =
      (ccd_t2residual D A a a i i + x A a a i i + (d2 a a i i)⁻¹ * A.t2 a a i i) * d2 a a i i := by
  constructor
  · intro a b i j h
    simp only [residMainSlow, if_true, if_neg h]
  · intro a i
    simp [residMainSlow, residSlow]

/-- After one or more passes all amplitudes are zero. -/
theorem pccd_zero (x : SO I K → I → I → I → I → K) (d2 : I → I → I → I → K) (A : SO I K) (hA : A.Sym)
    (hx : ∀ B : SO I K, B.Sym → Anti4 (x B)) (hd : Sym4 d2) (n : Nat) (a b i j : I) :
    ((residMainSlow D "pCCD" x d2)^[n + 1] A).t2 a b i j = 0 := by
  have hB := C32_iterates D "pCCD" x d2 A hA hx hd n
  rw [Function.iterate_succ_apply']
  by_cases h : a = b ∧ i = j
  · have hs := C32_step D "pCCD" x d2 _ hB (hx _ hB) hd
    obtain ⟨rfl, rfl⟩ := h
    have := hs.t2_anti0 a a i i
    have h2 : (2 : K) * (residMainSlow D "pCCD" x d2 ((residMainSlow D "pCCD" x d2)^[n] A)).t2 a a i i = 0 := by
      linear_combination this
    simpa using h2
  · exact (C48_projection D x d2 _).1 a b i j h

omit [CharZero K] in
theorem pccd_fixed (x : SO I K → I → I → I → I → K) (d2 : I → I → I → I → K) (A : SO I K) (n : Nat) :
    ((residMainSlow D "pCCD" x d2)^[n] A).f = A.f ∧ ((residMainSlow D "pCCD" x d2)^[n] A).g = A.g := by
  induction n with
  | zero => exact ⟨rfl, rfl⟩
  | succ n ih =>
    rw [Function.iterate_succ_apply']
    exact ih

/-- The claim of a non-trivial correlation energy fails for every system: after any number of passes the energy is
the reference energy. -/
theorem C48_violated (x : SO I K → I → I → I → I → K) (d2 : I → I → I → I → K) (A : SO I K) (hA : A.Sym)
    (hx : ∀ B : SO I K, B.Sym → Anti4 (x B)) (hd : Sym4 d2) (n : Nat) :
    ccdEnergy D ((residMainSlow D "pCCD" x d2)^[n + 1] A) = refEnergy D A := by
  rw [C57_ccd_energy]
  have h0 : corrEnergy D ((residMainSlow D "pCCD" x d2)^[n + 1] A)
      ((residMainSlow D "pCCD" x d2)^[n + 1] A).t2 = 0 := by
    unfold corrEnergy
    simp only [pccd_zero D x d2 A hA hx hd n, mul_zero, Finset.sum_const_zero]
  rw [h0, add_zero]
  unfold refEnergy
  rw [(pccd_fixed D x d2 A (n + 1)).1, (pccd_fixed D x d2 A (n + 1)).2]

omit [DecidableEq I] in
/-- What `pccdEnergy` (`t2energySlow.py` 95-99, without callers) would return for antisymmetric arrays is the
reference energy as well. -/
theorem C48_pccdEnergy_violated (A : SO I K) (hA : A.Sym) : pccdEnergy D A = refEnergy D A := by
  have z : ∀ i a, A.g i i a a = 0 := fun i a => by
    have := hA.g_anti0 i i a a
    have h2 : (2 : K) * A.g i i a a = 0 := by linear_combination this
    simpa using h2
  simp [pccdEnergy, Gen.pccdEnergy, Prog.eval, Blk.eval, termVal, dums, vars, varsIx, insertNew, sumOver, evalFs,
    SO.T, at2, at4, sp, N.f, N.g, N.t2, Ein.bind, Function.update, refEnergy, z]
  ring_nf

/-- The same arrays have a correlation energy in CCD. -/
example : Witness.so.Sym ∧ ccdEnergy Witness.D Witness.so ≠ refEnergy Witness.D Witness.so :=
  ⟨Witness.so_sym, by decide +kernel⟩

end Verif.Props
