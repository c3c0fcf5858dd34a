import Verif.Fn.All
import Verif.Lemmas.Witness
import Mathlib.Tactic.Ring
import Mathlib.Tactic.LinearCombination

/-!
# Open-shell references (C56)

`t2energy.py` 59-101: `ccd_energy_with_spin` receives the slices `oa, ob, va, vb` and sets `o = oa`, `v = va`; the
beta slices are not used. With different numbers of alpha and beta electrons the sums over beta spin orbitals
therefore run over the alpha ranges.
-/

namespace Verif.Props

open Verif.Ein Verif.UT2

variable {I K : Type} [Field K] [CharZero K] [Inhabited I] (Da Db : Nat → Finset I)

/-- `t2energy.py` 59-101 with both pairs of slices: `Da` the alpha, `Db` the beta ranges. -/
def ccdEnergyOpen (_Db : Nat → Finset I) (A : SI I K) : K := ccd_energy_with_spin Da A

/-- Energy of the reference determinant with occupied alpha orbitals `Da 0` and beta orbitals `Db 0`. -/
def openRef (A : SI I K) : K :=
  ∑ i ∈ Da 0, A.f_aa i i + ∑ i ∈ Db 0, A.f_bb i i - 1 / 2 * ∑ j ∈ Da 0, ∑ i ∈ Da 0, A.g_aaaa j i j i
    - ∑ j ∈ Da 0, ∑ i ∈ Db 0, A.g_abab j i j i - 1 / 2 * ∑ j ∈ Db 0, ∑ i ∈ Db 0, A.g_bbbb j i j i

/-- Correlation energy of doubles amplitudes with those ranges. -/
def openCorr (A : SI I K) : K :=
  1 / 4 * ∑ a ∈ Da 1, ∑ b ∈ Da 1, ∑ j ∈ Da 0, ∑ i ∈ Da 0, A.g_aaaa j i a b * A.t2_aaaa a b j i
    + ∑ a ∈ Da 1, ∑ b ∈ Db 1, ∑ j ∈ Da 0, ∑ i ∈ Db 0, A.g_abab j i a b * A.t2_abab a b j i
    + 1 / 4 * ∑ a ∈ Db 1, ∑ b ∈ Db 1, ∑ j ∈ Db 0, ∑ i ∈ Db 0, A.g_bbbb j i a b * A.t2_bbbb a b j i

/-- The function returns the energy of the closed-shell ranges `Da` for both spins, whatever `Db` is. -/
theorem C56_alpha_ranges_partial (A : SI I K) :
    ccdEnergyOpen Da Db A = openRef Da Da A + openCorr Da Da A := by
  simp [ccdEnergyOpen, ccd_energy_with_spin, Gen.ccd_energy_with_spin, Prog.eval, Blk.eval, termVal, dums, vars, varsIx, insertNew,
    sumOver, evalFs, SI.T, at2, at4, sp, N.f_aa, N.f_bb, N.g_aaaa, N.g_abab, N.g_bbbb, N.t2_aaaa, N.t2_abab, N.t2_bbbb,
    Ein.bind, Function.update, openRef, openCorr]
  ring_nf

/-- For equal ranges the energy is the right one. -/
theorem C56_closed_shell_partial (A : SI I K) : ccdEnergyOpen Da Da A = openRef Da Da A + openCorr Da Da A :=
  C56_alpha_ranges_partial Da Da A

/-- Two occupied alpha orbitals and one occupied beta orbital, of three. -/
def alphaD : Nat → Finset ℕ
  | 0 => {0, 1}
  | _ => {2}
def betaD : Nat → Finset ℕ
  | 0 => {0}
  | _ => {1, 2}

/-- With two alpha electrons and one beta electron the returned energy is not that of the determinant and its
doubles. -/
theorem C56_violated : ∃ A : SI ℕ ℚ, A.Sym ∧
    ccdEnergyOpen alphaD betaD A ≠ openRef alphaD betaD A + openCorr alphaD betaD A := by
  refine ⟨Witness.si, Witness.si_sym, ?_⟩
  rw [C56_alpha_ranges_partial]
  decide +kernel

/-- Already the reference energy differs when there are no amplitudes. -/
theorem C56_reference_violated : ∃ A : SI ℕ ℚ, A.Sym ∧ (∀ a b i j, A.t2_aaaa a b i j = 0 ∧ A.t2_abab a b i j = 0 ∧
    A.t2_bbbb a b i j = 0) ∧ ccdEnergyOpen alphaD betaD A ≠ openRef alphaD betaD A := by
  refine ⟨{ f_bb := Witness.si.f_bb, g_bbbb := Witness.si.g_bbbb }, ?_, fun _ _ _ _ => ⟨rfl, rfl, rfl⟩, ?_⟩
  · constructor <;> intros <;> simp only [Witness.si, Witness.v2] <;> ring
  · rw [C56_alpha_ranges_partial]
    decide +kernel

/-- The two parts of the energy for the closed-shell ranges are not zero. -/
example : openRef alphaD alphaD Witness.si ≠ 0 ∧ openCorr alphaD alphaD Witness.si ≠ 0 := by decide +kernel

end Verif.Props
