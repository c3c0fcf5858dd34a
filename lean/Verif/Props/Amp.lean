import Verif.Model.Amp
import Mathlib.Algebra.Field.Rat

/-!
# Amplitude files (C49) and the correction-only route (C69)
-/

namespace Verif.Props
open Verif.Amp

variable {K : Type} [Zero K]

/-- **C49** What holds: doubles in the order in which `dump_tamps` writes them (virtual indices first) are taken over
unchanged, singles are zero, and the arrays handed to the formulas have the right shapes and contents. Partial: with a
singles file, or with occupied indices first, the claim fails (`C49_violated_*`). -/
theorem C49_doubles_partial (nocc nvirt : ℕ) (t2 : Arr4 K) (h : t2.shape = (nvirt, nvirt, nocc, nocc)) :
    ∃ a, init nocc nvirt (some t2) none none = .ok a ∧ (orient nvirt a).fits nocc nvirt ∧
      (∀ x y i j, (orient nvirt a).t2.at' x y i j = t2.at' x y i j ∧ (orient nvirt a).l2.at' i j x y = t2.at' x y i j) ∧
      (∀ x i, (orient nvirt a).t1.at' x i = 0 ∧ (orient nvirt a).l1.at' i x = 0) := by
  refine ⟨(zeros2 nvirt nocc, t2), rfl, ?_, ?_, ?_⟩ <;>
    simp [orient, h, Pdagq.fits, Arr2.tr, Arr4.tr, zeros2]

/-- **C49** is violated: with a singles file, whatever it contains, no amplitudes are read. -/
theorem C49_violated_singles (nocc nvirt : ℕ) (T2 : Option (Arr4 K)) (t1 : Arr2 K) (x) :
    ∀ a, init nocc nvirt T2 (some t1) x ≠ .ok a := by
  intro a
  cases T2 <;> simp [init, getAmps]

/-- **C49** is violated: a doubles file with occupied indices first is recognised when the two counts differ, but the
zero singles are turned as well, so their shapes do not fit. -/
theorem C49_violated_occupied_first (nocc nvirt : ℕ) (hne : nocc ≠ nvirt) (t2 : Arr4 K)
    (h : t2.shape = (nocc, nocc, nvirt, nvirt)) :
    ∃ a, init nocc nvirt (some t2) none none = .ok a ∧ ¬ (orient nvirt a).fits nocc nvirt := by
  refine ⟨(zeros2 nvirt nocc, t2), rfl, ?_⟩
  simp [orient, h, Pdagq.fits, Arr2.tr, zeros2, hne]

/-- **C49** is violated: with equal counts the order is not recognised, and a file with occupied indices first is used
as if the virtual indices came first. -/
theorem C49_violated_ambiguous (n : ℕ) (t2 : Arr4 K) (h : t2.shape = (n, n, n, n)) :
    ∃ a, init n n (some t2) none none = .ok a ∧ (orient n a).t2 = t2 := by
  refine ⟨(zeros2 n n, t2), rfl, ?_⟩
  simp [orient, h]

/-- Two occupied, three virtual spin orbitals. -/
example : (⟨(3, 3, 2, 2), fun a b i j => ((a + b + i + j : ℕ) : ℚ)⟩ : Arr4 ℚ).shape = (3, 3, 2, 2) := rfl

/-! ## C69 -/

/-- **C69** is violated in every case: whatever the amplitudes and the requested order, the correction-only route never
gives a total energy together with a correction. -/
theorem C69_violated (eT : Pdagq K → K) (nocc nvirt : ℕ) (s : Source K) (orders : String) (e c : K) :
    pertRoute eT nocc nvirt s orders ≠ .ok (some e, c) := by
  unfold pertRoute
  dsimp only
  intro h
  split at h
  · exact absurd h (by simp)
  · split_ifs at h
    · unfold run_pdagq at h
      dsimp only at h
      split_ifs at h
      cases s <;> simp at h

/-- **C69** What holds: the triples correction is returned (without a total energy) exactly for order `pdagq_parT`, a
doubles file with virtual indices first and no singles file. Partial. -/
theorem C69_triples_partial (eT : Pdagq K → K) (nocc nvirt : ℕ) (hne : nocc ≠ nvirt) (s : Source K) (orders : String) :
    (∃ r, pertRoute eT nocc nvirt s orders = .ok r) ↔
      orders = "pdagq_parT" ∧ ∃ t2 : Arr4 K, s = .files (some t2) none ∧ t2.shape = (nvirt, nvirt, nocc, nocc) := by
  constructor
  · rintro ⟨r, h⟩
    unfold pertRoute at h
    dsimp only at h
    split at h
    · exact absurd h (by simp)
    · rename_i a ha
      split_ifs at h with h1
      · refine ⟨h1, ?_⟩
        unfold run_pdagq at h
        dsimp only at h
        split_ifs at h with h2
        cases s with
        | xacc t1 t2 => simp at h
        | files T2 T1 =>
          cases T2 <;> cases T1 <;> simp [init, getAmps] at ha
          rename_i t2
          subst ha
          refine ⟨t2, rfl, ?_⟩
          by_cases h3 : t2.shape.1 = nvirt
          · simpa [orient, h3, Pdagq.fits, Arr2.tr, zeros2] using h2.2.1
          · simp [orient, h3, Pdagq.fits, Arr2.tr, zeros2] at h2
            exact absurd h2.1.1 hne
  · rintro ⟨rfl, t2, rfl, h⟩
    refine ⟨(none, eT (orient nvirt (zeros2 nvirt nocc, t2))), ?_⟩
    simp [pertRoute, init, getAmps, run_pdagq, orient, h, Pdagq.fits, Arr2.tr, Arr4.tr, zeros2]

/-- The successful case occurs. -/
example : ∃ r, pertRoute (fun p : Pdagq ℚ => p.t2.at' 0 1 0 1) 2 4
    (.files (some ⟨(4, 4, 2, 2), fun a b i j => a + 10 * b + 100 * i + 1000 * j⟩) none) "pdagq_parT" = .ok r ∧
    r.2 = 1010 := ⟨_, rfl, by decide +kernel⟩

end Verif.Props
