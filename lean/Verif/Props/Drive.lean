import Verif.Model.Drive

/-!
# Set-up and end of `DriveCC` (C55, C72)
-/

namespace Verif.Props
open Verif.Drive Verif.Py

/-- A part of a contained string is contained. -/
theorem hasSub_trans {p q s : String} (hpq : hasSub p q = true) (h : hasSub q s = true) : hasSub p s = true := by
  rw [hasSub_iff] at *
  exact hpq.trans h

theorem hasSub_of (p q : String) (hpq : hasSub p q = true) (s : String) : hasSub q s = true → hasSub p s = true :=
  hasSub_trans hpq

/-- **C55** For every method string with a `D`: nothing that is looked up is missing, neither in the set-up (with or
without DIIS) nor in the equations, and every allocated amplitude has its denominators. Without `D` the set-up stops. -/
theorem C55_lookups (s : String) (diis : Bool) :
    (hasSub "D" s = true → init s diis = .ok () ∧ equations s = .ok () ∧ ∀ k ∈ ampRanks s, k ∈ denomRanks s) ∧
    (hasSub "D" s = false → init s diis = .error .keyError) := by
  have a1 := hasSub_of "S" "CCSDT" (by decide) s
  have a2 := hasSub_of "T" "CCSDT" (by decide) s
  have a3 := hasSub_of "S" "CCSD" (by decide) s
  have a4 := hasSub_of "Q" "CCDQ" (by decide) s
  have a5 := hasSub_of "Q" "DQ" (by decide) s
  have a6 := hasSub_of "S" "SDT" (by decide) s
  have a7 := hasSub_of "T" "SDT" (by decide) s
  have a8 := hasSub_of "S" "SD" (by decide) s
  refine ⟨fun hD => ⟨?_, ?_, ?_⟩, fun hD => ?_⟩
  · simp only [init, lookupAll, denomRanks, ampRanks, vecRanks, hD]
    generalize hasSub "S" s = S at *
    generalize hasSub "T" s = T at *
    generalize hasSub "Q" s = Q at *
    generalize hasSub "DQ" s = DQ at *
    generalize hasSub "SDT" s = SDT at *
    generalize hasSub "SD" s = SD at *
    generalize hasSub "UT2" s = u at *
    generalize hasSub "X" s = x at *
    generalize hasSub "Qdebug" s = y at *
    clear a1 a2 a3 a4
    revert a5 a6 a7 a8
    revert S T Q DQ SDT SD
    cases diis <;> cases u <;> cases x <;> cases y <;> decide
  · simp only [equations, lookupAll, denomRanks, ampRanks, eqnRanks, hD]
    generalize hasSub "S" s = S at *
    generalize hasSub "T" s = T at *
    generalize hasSub "Q" s = Q at *
    generalize hasSub "CCSDT" s = c1 at *
    generalize hasSub "CCSD" s = c2 at *
    generalize hasSub "CCDQ" s = c3 at *
    generalize hasSub "UT2" s = u at *
    generalize hasSub "X" s = x at *
    generalize hasSub "Qdebug" s = y at *
    clear a5 a6 a7 a8
    revert a1 a2 a3 a4
    revert S T Q c1 c2 c3
    cases u <;> cases x <;> cases y <;> decide
  · intro k hk
    simp only [ampRanks, List.mem_append] at hk
    simp only [denomRanks, List.mem_append]
    rcases hk with hk | hk
    · exact Or.inl hk
    · right
      by_cases hq : hasSub "Q" s = true
      · simpa [hq] using hk
      · simp [hq] at hk
  · simp only [init, lookupAll, denomRanks, hD]
    cases hasSub "S" s <;> cases hasSub "T" s <;> cases hasSub "Q" s <;> cases hasSub "UT2" s <;>
      cases hasSub "X" s <;> cases hasSub "Qdebug" s <;> rfl

/-- **C55** is violated: `CCSDTQ` sets up quadruples, but the equations solved are those of CCSDT; `CCSDQ` solves CCSD
while its DIIS vector holds doubles and quadruples. No exception tells. -/
theorem C55_violated :
    ampRanks "CCSDTQ" = [1, 2, 3, 4] ∧ eqnRanks "CCSDTQ" = [1, 2, 3] ∧ equations "CCSDTQ" = .ok () ∧
    eqnRanks "CCSDQ" = [1, 2] ∧ vecRanks "CCSDQ" = some [2, 4] ∧ init "CCSDQ" true = .ok () := by
  decide

/-- **C55** When the amplitudes set up are exactly those the equations determine, the DIIS vector holds the same ranks;
this is so exactly for names with `CCSDT` and no `Q`, with `CCSD` and neither `T` nor `Q`, with `CCDQ` and neither `S`
nor `T`, and for other names with none of the three letters. Partial: for other names the ranks differ. -/
theorem C55_consistent_partial (s : String) (hD : hasSub "D" s = true) :
    (ampRanks s = eqnRanks s → vecRanks s = some (eqnRanks s)) ∧
    (ampRanks s = eqnRanks s ↔
      (hasSub "CCSDT" s = true ∧ hasSub "Q" s = false) ∨
      (hasSub "CCSD" s = true ∧ hasSub "T" s = false ∧ hasSub "Q" s = false) ∨
      (hasSub "CCDQ" s = true ∧ hasSub "S" s = false ∧ hasSub "T" s = false) ∨
      (hasSub "S" s = false ∧ hasSub "T" s = false ∧ hasSub "Q" s = false)) := by
  have a1 := hasSub_of "S" "CCSDT" (by decide) s
  have a2 := hasSub_of "T" "CCSDT" (by decide) s
  have a3 := hasSub_of "S" "CCSD" (by decide) s
  have a4 := hasSub_of "Q" "CCDQ" (by decide) s
  have a5 := hasSub_of "Q" "DQ" (by decide) s
  have a6 := hasSub_of "S" "SDT" (by decide) s
  have a7 := hasSub_of "T" "SDT" (by decide) s
  have a8 := hasSub_of "S" "SD" (by decide) s
  have b1 := hasSub_of "SDT" "CCSDT" (by decide) s
  have b2 := hasSub_of "SD" "CCSD" (by decide) s
  have b3 := hasSub_of "DQ" "CCDQ" (by decide) s
  have b4 := hasSub_of "CCSD" "CCSDT" (by decide) s
  simp only [ampRanks, vecRanks, eqnRanks, hD]
  generalize hasSub "S" s = S at *
  generalize hasSub "T" s = T at *
  generalize hasSub "Q" s = Q at *
  generalize hasSub "DQ" s = DQ at *
  generalize hasSub "SDT" s = SDT at *
  generalize hasSub "SD" s = SD at *
  generalize hasSub "CCSDT" s = c1 at *
  generalize hasSub "CCSD" s = c2 at *
  generalize hasSub "CCDQ" s = c3 at *
  clear hD
  cases S <;> cases T <;> cases Q <;> cases DQ <;> cases SDT <;> cases SD <;> cases c1 <;> cases c2 <;> cases c3 <;>
    first
    | exact absurd (a1 rfl) (by decide)
    | exact absurd (a2 rfl) (by decide)
    | exact absurd (a3 rfl) (by decide)
    | exact absurd (a4 rfl) (by decide)
    | exact absurd (a5 rfl) (by decide)
    | exact absurd (a6 rfl) (by decide)
    | exact absurd (a7 rfl) (by decide)
    | exact absurd (a8 rfl) (by decide)
    | exact absurd (b1 rfl) (by decide)
    | exact absurd (b2 rfl) (by decide)
    | exact absurd (b3 rfl) (by decide)
    | exact absurd (b4 rfl) (by decide)
    | (clear a1 a2 a3 a4 a5 a6 a7 a8 b1 b2 b3 b4; decide)

/-- The names `CCD`, `CCSD`, `CCSDT`, `CCDQ` are of this kind. -/
example : ∀ s ∈ ["CCD", "CCSD", "CCSDT", "CCDQ"], hasSub "D" s = true ∧ ampRanks s = eqnRanks s ∧
    vecRanks s = some (eqnRanks s) := by decide

/-- **C72** is violated: a converged calculation with a perturbative correction other than `(qf)` ends in an exception
instead of printing the result, and one that does not converge ends in a `NameError`. -/
theorem C72_violated : finish "CCSD(T)" true = .error .attributeError ∧ ∀ s, finish s false = .error .nameError := by
  refine ⟨by decide, fun s => rfl⟩

/-- **C72** Exactly when the end is reached without exception. Partial. -/
theorem C72_finish_partial (s : String) (c : Bool) :
    finish s c = .ok () ↔ c = true ∧ (hasSub "(" s = true → hasSub "(qf)" s = true) := by
  unfold finish
  cases c <;> cases hasSub "(" s <;> cases hasSub "(qf)" s <;> simp

end Verif.Props
