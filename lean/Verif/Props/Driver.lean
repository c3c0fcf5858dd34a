import Verif.Model.Driver
import Mathlib.Tactic.Ring
import Mathlib.Tactic.Linarith
import Mathlib.Algebra.Order.Ring.Nat

/-! Properties C06, C07, C08, C17, C18, C19: dictionaries, dispatch and method names. -/

namespace Verif.Props
open Verif.Driver Verif.Py

/-! ## C06, C07 -/

theorem get?_setDefault (d : Dict Val) (k k' : String) (v : Val) :
    Dict.get? (setDefault d k v) k' =
      if k' = k ∧ Dict.get? d k = none then some v else Dict.get? d k' := by
  unfold setDefault Dict.has
  cases h : Dict.get? d k with
  | none => simp [Dict.get?_set]
  | some x => simp

theorem get?_fillDefaults (hf nuc : Val) (d : Dict Val) (k : String) :
    Dict.get? (fillDefaults hf nuc d) k =
      if k = "hf_energy" then some hf
      else if k = "nuclear_energy" then some nuc
      else match Dict.get? d k with
        | some v => some v
        | none =>
          if k = "stopping_eps" then some tenM10
          else if k = "max_iter" then some (.nat 75)
          else if k = "dump_tamps" then some (.bool false)
          else if k = "pert_wvfxn_corr" then some (.str "0")
          else if k = "pert_E_corr" then some (.str "0")
          else none := by
  simp only [fillDefaults, get?_setDefault, Dict.get?_set]
  by_cases h1 : k = "hf_energy"
  · subst h1; simp
  by_cases h2 : k = "nuclear_energy"
  · subst h2; simp
  by_cases h3 : k = "stopping_eps"
  · subst h3; simp; cases Dict.get? d "stopping_eps" <;> simp
  by_cases h4 : k = "max_iter"
  · subst h4; simp; cases Dict.get? d "max_iter" <;> simp
  by_cases h5 : k = "dump_tamps"
  · subst h5; simp; cases Dict.get? d "dump_tamps" <;> simp
  by_cases h6 : k = "pert_wvfxn_corr"
  · subst h6; simp; cases Dict.get? d "pert_wvfxn_corr" <;> simp
  by_cases h7 : k = "pert_E_corr"
  · subst h7; simp; cases Dict.get? d "pert_E_corr" <;> simp
  simp only [h1, h2, h3, h4, h5, h6, h7, false_and, if_false]
  cases Dict.get? d k <;> rfl

theorem mainFamily_fillDefaults (hf nuc : Val) (d : Dict Val) :
    mainFamily (fillDefaults hf nuc d) = mainFamily d := by
  have h : ∀ k, k = "ccdType" ∨ k = "fullCCType" ∨ k = "ccdTypeSlow" →
      Dict.has (fillDefaults hf nuc d) k = Dict.has d k := by
    rintro k (rfl | rfl | rfl) <;> simp only [Dict.has] <;> rw [get?_fillDefaults] <;> simp <;>
      (split <;> simp_all)
  unfold mainFamily
  rw [h _ (Or.inl rfl), h _ (Or.inr (Or.inl rfl)), h _ (Or.inr (Or.inr rfl))]

/-- **C06** is violated under the key `ccdType`: whatever the caller's dictionary contains, the four
settings are overwritten. -/
theorem C06_violated (hf nuc : Val) (d : Dict Val) (h : d.has "ccdType" = true) :
    ∃ e, prepare hf nuc d = .ok e ∧
      e.get? "max_iter" = some (.nat 75) ∧ e.get? "stopping_eps" = some (.num (1 / 10 ^ 10)) ∧
      e.get? "diis_size" = some (.nat 10) ∧ e.get? "diis_start_cycle" = some (.nat 1) := by
  have hm : mainFamily (fillDefaults hf nuc d) = some .spinIntegrated := by
    rw [mainFamily_fillDefaults]; simp [mainFamily, h]
  refine ⟨_, by simp only [prepare, hm]; rfl, ?_⟩
  simp [Dict.update, Dict.get?_set, tenM10]

-- a caller who asks for 200 iterations gets 75
example : ∃ e, prepare (.num (-74)) (.num 9) [("ccdType", .str "CCD"), ("max_iter", .nat 200)] = .ok e ∧
    e.get? "max_iter" = some (.nat 75) := by
  obtain ⟨e, h, h1, _⟩ := C06_violated (.num (-74)) (.num 9)
    [("ccdType", .str "CCD"), ("max_iter", .nat 200)] (by decide)
  exact ⟨e, h, h1⟩

theorem userDiis_get? (d e : Dict Val) (h : userDiis d = .ok e) (k : String) :
    e.get? k = if k = "diis_size" ∧ d.get? k = none then some .none
      else if k = "diis_start_cycle" ∧ d.get? "diis_size" = none then some .none
      else d.get? k := by
  unfold userDiis at h
  cases h1 : Dict.get? d "diis_size" with
  | none =>
    rw [h1] at h
    simp only [Except.ok.injEq] at h
    subst h
    by_cases hk : k = "diis_size"
    · subst hk; simp [Dict.get?_set, h1]
    · by_cases hk2 : k = "diis_start_cycle"
      · subst hk2; simp [Dict.get?_set]
      · simp [Dict.get?_set, hk, hk2]
  | some ds =>
    rw [h1] at h
    simp only at h
    cases h2 : Dict.get? d "diis_start_cycle" with
    | none => rw [h2] at h; cases h
    | some st =>
      rw [h2] at h
      simp only [Except.ok.injEq] at h
      subst h
      by_cases hk : k = "diis_size"
      · subst hk; simp [Dict.get?_set, h1]
      · by_cases hk2 : k = "diis_start_cycle"
        · subst hk2; simp [Dict.get?_set, h2]
        · simp [Dict.get?_set, hk, hk2]

/-- What the caller's dictionary is turned into, key by key, for a run without `ccdType`. -/
theorem prepare_get? (hf nuc : Val) (d e : Dict Val) (hn : d.has "ccdType" = false)
    (h : prepare hf nuc d = .ok e) (k : String) :
    e.get? k = if k = "diis_size" ∧ d.get? k = none then some .none
      else if k = "diis_start_cycle" ∧ d.get? "diis_size" = none then some .none
      else (fillDefaults hf nuc d).get? k := by
  have hf1 : ∀ k', k' = "diis_size" ∨ k' = "diis_start_cycle" →
      Dict.get? (fillDefaults hf nuc d) k' = Dict.get? d k' := by
    rintro k' (rfl | rfl) <;> rw [get?_fillDefaults] <;> simp <;> (split <;> simp_all)
  have hf2 : ∀ k', Dict.get? (setDefault (setDefault (fillDefaults hf nuc d) "stopping_eps" tenM10)
      "max_iter" (.nat 75)) k' = Dict.get? (fillDefaults hf nuc d) k' := by
    intro k'
    rw [get?_setDefault, get?_setDefault, get?_setDefault]
    have h1 : Dict.get? (fillDefaults hf nuc d) "stopping_eps" ≠ none := by
      rw [get?_fillDefaults]; simp; split <;> simp
    have h2 : Dict.get? (fillDefaults hf nuc d) "max_iter" ≠ none := by
      rw [get?_fillDefaults]; simp; split <;> simp
    simp [h1, h2]
  have hk := hf1 k
  have hds := hf1 "diis_size" (Or.inl rfl)
  unfold prepare at h
  simp only [mainFamily_fillDefaults] at h
  cases hm : mainFamily d with
  | none => rw [hm] at h; cases h
  | some fam =>
    rw [hm] at h
    cases fam with
    | spinIntegrated =>
      exfalso; simp only [mainFamily, hn] at hm
      revert hm; simp; split <;> simp
    | full =>
      simp only at h
      rw [userDiis_get? _ _ h, hf2, hf2, hds]
      by_cases h1 : k = "diis_size"
      · rw [hk (Or.inl h1)]
      · simp only [h1, false_and, if_false]
    | spinOrbital =>
      simp only at h
      rw [userDiis_get? _ _ h, hds]
      by_cases h1 : k = "diis_size"
      · rw [hk (Or.inl h1)]
      · simp only [h1, false_and, if_false]

/-- **C06** for the keys `fullCCType` and `ccdTypeSlow`: a setting given by the caller is what the
iteration sees. The one exception shown by the statement: `diis_start_cycle` only counts when
`diis_size` is given too. Partial: fails for `ccdType`. -/
theorem C06_settings_honoured_partial (hf nuc : Val) (d e : Dict Val) (hn : d.has "ccdType" = false)
    (h : prepare hf nuc d = .ok e) (k : String) (v : Val) (hv : d.get? k = some v)
    (hk : k = "max_iter" ∨ k = "stopping_eps" ∨ k = "diis_size" ∨
      (k = "diis_start_cycle" ∧ d.has "diis_size" = true)) :
    e.get? k = some v := by
  rw [prepare_get? hf nuc d e hn h, get?_fillDefaults]
  rcases hk with rfl | rfl | rfl | ⟨rfl, hd⟩
  · simp [hv]
  · simp [hv]
  · simp [hv]
  · have : Dict.get? d "diis_size" ≠ none := by
      intro h0; simp [Dict.has, h0] at hd
    simp [hv, this]

/-- **C07** For a run through `fullCCType` or `ccdTypeSlow`: an absent setting gets the documented
default (tolerance `10^-10`, 75 iterations, no dump), the two energies come from the mean-field
object, and any other key the caller supplied keeps its value (a lone `diis_start_cycle` excepted). -/
theorem C07_defaults (hf nuc : Val) (d e : Dict Val) (hn : d.has "ccdType" = false)
    (h : prepare hf nuc d = .ok e) :
    (d.get? "stopping_eps" = none → e.get? "stopping_eps" = some (.num (1 / 10 ^ 10))) ∧
    (d.get? "max_iter" = none → e.get? "max_iter" = some (.nat 75)) ∧
    (d.get? "dump_tamps" = none → e.get? "dump_tamps" = some (.bool false)) ∧
    (d.get? "diis_size" = none → e.get? "diis_size" = some .none) ∧
    e.get? "hf_energy" = some hf ∧ e.get? "nuclear_energy" = some nuc ∧
    (∀ k v, d.get? k = some v → k ≠ "hf_energy" → k ≠ "nuclear_energy" →
      (k = "diis_start_cycle" → d.has "diis_size" = true) → e.get? k = some v) ∧
    (∀ k, d.get? k = none → k ∉ ["hf_energy", "nuclear_energy", "stopping_eps", "max_iter",
      "dump_tamps", "pert_wvfxn_corr", "pert_E_corr", "diis_size", "diis_start_cycle"] →
      e.get? k = none) := by
  have H := prepare_get? hf nuc d e hn h
  refine ⟨?_, ?_, ?_, ?_, ?_, ?_, ?_, ?_⟩
  · intro h0; rw [H, get?_fillDefaults]; simp [h0, tenM10]
  · intro h0; rw [H, get?_fillDefaults]; simp [h0]
  · intro h0; rw [H, get?_fillDefaults]; simp [h0]
  · intro h0; rw [H]; simp [h0]
  · rw [H, get?_fillDefaults]; simp
  · rw [H, get?_fillDefaults]; simp
  · intro k v hv h1 h2 h3
    rw [H, get?_fillDefaults]
    simp only [hv, h1, h2, if_false]
    by_cases hk : k = "diis_start_cycle"
    · have := h3 hk
      have hd : Dict.get? d "diis_size" ≠ none := by
        intro h0; simp [Dict.has, h0] at this
      simp [hd]
    · simp [hk]
  · intro k h0 hk
    simp only [List.mem_cons, List.not_mem_nil, or_false, not_or] at hk
    obtain ⟨h1, h2, h3, h4, h5, h6, h7, h8, h9⟩ := hk
    rw [H, get?_fillDefaults]
    simp [h0, h1, h2, h3, h4, h5, h6, h7, h8, h9]

-- the hypotheses of C06/C07 hold for a usual dictionary
example : ∃ e, prepare (.num (-74)) (.num 9)
    [("ccdTypeSlow", .str "CCD"), ("max_iter", .nat 200), ("diis_size", .nat 5),
      ("diis_start_cycle", .nat 2)] = .ok e ∧ e.get? "max_iter" = some (.nat 200) ∧
      e.get? "stopping_eps" = some tenM10 := by
  refine ⟨_, rfl, by decide, by decide +kernel⟩

/-- **C06/C07** `ccd_main` gets to the kernel exactly when a method key is present and, outside
`ccdType`, a `diis_size` comes with a `diis_start_cycle` (whose default is documented too). -/
theorem C07_start_cycle_default_violated (hf nuc : Val) (d : Dict Val) (hn : d.has "ccdType" = false)
    (hm : (mainFamily d).isSome) :
    (∃ e, prepare hf nuc d = .ok e) ↔
      (d.has "diis_size" = true → d.has "diis_start_cycle" = true) := by
  have hf1 : ∀ k', k' = "diis_size" ∨ k' = "diis_start_cycle" →
      Dict.get? (fillDefaults hf nuc d) k' = Dict.get? d k' := by
    rintro k' (rfl | rfl) <;> rw [get?_fillDefaults] <;> simp <;> (split <;> simp_all)
  have hU : ∀ x : Dict Val, (∃ e, userDiis x = .ok e) ↔
      (x.has "diis_size" = true → x.has "diis_start_cycle" = true) := by
    intro x
    unfold userDiis Dict.has
    cases Dict.get? x "diis_size" <;> cases Dict.get? x "diis_start_cycle" <;> simp
  have h1 : ∀ k', k' = "diis_size" ∨ k' = "diis_start_cycle" →
      Dict.has (fillDefaults hf nuc d) k' = Dict.has d k' := by
    intro k' hk'; simp only [Dict.has, hf1 k' hk']
  have h2 : ∀ k', k' = "diis_size" ∨ k' = "diis_start_cycle" →
      Dict.has (setDefault (setDefault (fillDefaults hf nuc d) "stopping_eps" tenM10)
        "max_iter" (.nat 75)) k' = Dict.has d k' := by
    intro k' hk'
    simp only [Dict.has, get?_setDefault]
    rcases hk' with rfl | rfl
    · simp [hf1 "diis_size" (Or.inl rfl)]
    · simp [hf1 "diis_start_cycle" (Or.inr rfl)]
  unfold prepare
  simp only [mainFamily_fillDefaults]
  cases hfam : mainFamily d with
  | none => rw [hfam] at hm; cases hm
  | some fam =>
    cases fam with
    | spinIntegrated =>
      exfalso; simp only [mainFamily, hn] at hfam
      revert hfam; simp; split <;> simp
    | full => simp only; rw [hU, h2 _ (Or.inl rfl), h2 _ (Or.inr rfl)]
    | spinOrbital => simp only; rw [hU, h1 _ (Or.inl rfl), h1 _ (Or.inr rfl)]

example : prepare (.num (-74)) (.num 9) [("ccdTypeSlow", .str "CCD"), ("diis_size", .nat 5)]
    = .error (.keyError "diis_start_cycle") := by decide +kernel

/-! ## C08 -/

/-- Specification: the three dispatchers agree. The driver (`ccd_main`) picks a family, the kernel picks
the same one, and the denominators are built for the data that the driver prepared. -/
def Consistent (d : Dict Val) : Prop :=
  ∃ fam, mainFamily d = some fam ∧
    (∃ l v, getCalc d = some (l, v) ∧ labelFamily l = some fam) ∧
    denomData d = some (providedData fam)

/-- **C08** exactly when the dispatchers agree: some method key is present, and `ccdTypeSlow` is not
combined with another one. Partial: they disagree for such combinations. -/
theorem C08_consistent_iff_partial (d : Dict Val) :
    Consistent d ↔
      (d.has "ccdType" = true ∨ d.has "fullCCType" = true ∨ d.has "ccdTypeSlow" = true) ∧
      (d.has "ccdTypeSlow" = true → d.has "ccdType" = false ∧ d.has "fullCCType" = false) := by
  unfold Consistent mainFamily getCalc denomData Dict.has
  cases Dict.get? d "ccdType" <;> cases Dict.get? d "fullCCType" <;>
    cases Dict.get? d "ccdTypeSlow" <;> simp [labelFamily, providedData]

/-- **C08** is violated: with both `fullCCType` and `ccdTypeSlow` the driver prepares spin-integrated
data while denominators and kernel run the spin-orbital equations. -/
theorem C08_violated (v w : Val) :
    ¬ Consistent [("fullCCType", v), ("ccdTypeSlow", w)] := by
  rw [C08_consistent_iff_partial]
  simp [Dict.has, Dict.get?, List.lookup]

example : Consistent [("ccdTypeSlow", .str "CCD")] := by
  rw [C08_consistent_iff_partial]; decide

/-! ## C17 -/

/-- **C17** For at least one occupied and one virtual orbital, one iteration with DIIS gets through
exactly in these cases. Partial: the property asks for all names. -/
theorem C17_diis_usable_iff_partial (fam : Family) (name : String) (o v : ℕ) (ho : 1 ≤ o) (hv : 1 ≤ v) :
    (∃ n, diisPass fam name o v = .ok n) ↔
      match fam with
      | .spinIntegrated => hasSub "UCC(4)" name = false ∧ hasSub "CCDQ" name = false
      | .spinOrbital => hasSub "UCC(4)" name = true ∨ hasSub "CCDQ" name = false
      | .full => hasSub "UCC(4)" name = false ∧ hasSub "CCDQ" name = true := by
  have h2 : 1 ≤ v * v * o * o := Nat.mul_pos (Nat.mul_pos (Nat.mul_pos hv hv) ho) ho
  have h4 : 1 ≤ v * v * v * v * o * o * o * o :=
    Nat.mul_pos (Nat.mul_pos (Nat.mul_pos (Nat.mul_pos (Nat.mul_pos (Nat.mul_pos (Nat.mul_pos
      hv hv) hv) hv) ho) ho) ho) ho
  generalize hN : v * v * o * o = N at h2
  generalize hM : v * v * v * v * o * o * o * o = M at h4
  cases hu : hasSub "UCC(4)" name <;> cases hc : hasSub "CCDQ" name <;> cases fam <;>
    simp [diisPass, iterLayout, tampsAfterResid, initLayout, hu, hc, t2Blks, t4Blks, layoutLen,
      Blk.size, hN, hM] <;> (try split) <;> first | omega | simp

/-- **C17** When an iteration with DIIS gets through, the vector of the previous iteration, the one of the present
iteration and the arrays filled from the extrapolated vector have the same blocks in the same order. -/
theorem C17_same_blocks (fam : Family) (name : String) (o v n : ℕ) (ho : 1 ≤ o) (hv : 1 ≤ v)
    (h : diisPass fam name o v = .ok n) :
    iterLayout name = initLayout fam name ∧ unpackLayout name = iterLayout name ∧
      n = ((iterLayout name).map (Blk.size o v)).sum := by
  have hu := (C17_diis_usable_iff_partial fam name o v ho hv).1 ⟨n, h⟩
  have hn : n = layoutLen o v (iterLayout name) := by
    unfold diisPass at h
    dsimp only at h
    split at h
    · split at h
      · exact (Except.ok.inj h).symm
      · cases h
    · cases h
  refine ⟨?_, ?_, hn⟩
  · cases h1 : hasSub "UCC(4)" name <;> cases h2 : hasSub "CCDQ" name <;> cases fam <;>
      simp [h1, h2, iterLayout, initLayout] at hu ⊢
  · cases h1 : hasSub "UCC(4)" name <;> cases h2 : hasSub "CCDQ" name <;> simp [h1, h2, iterLayout, unpackLayout, t2Blks, t4Blks]

/-- **C17** is violated: the spin-integrated factorised-quadruples methods always stop with a
`KeyError` in the DIIS section (DIIS cannot be turned off for them, see `C06_violated`). -/
theorem C17_violated_ccdType (name : String) (h : hasSub "CCDQ" name = true)
    (hu : hasSub "UCC(4)" name = false) (o v : ℕ) :
    diisPass .spinIntegrated name o v = .error (.keyError "t4aaaa") := by
  simp [diisPass, iterLayout, tampsAfterResid, h, hu, t2Blks, t4Blks, Blk.key, List.find?]

example : hasSub "CCDQ" "CCDQf-1" = true ∧ hasSub "UCC(4)" "CCDQf-1" = false ∧
    hasSub "CCDQ" "CCDQf-2" = true ∧ hasSub "UCC(4)" "CCDQf-2" = false := by decide

/-- **C17** is violated: under `fullCCType` any name without `CCDQ` (and `UCC(4)`) hits a length
mismatch. -/
theorem C17_violated_full (name : String) (h : hasSub "CCDQ" name = false)
    (hu : hasSub "UCC(4)" name = false) (o v : ℕ) (ho : 1 ≤ o) (hv : 1 ≤ v) :
    diisPass .full name o v = .error .valueError := by
  have h2 : 1 ≤ v * v * o * o := Nat.mul_pos (Nat.mul_pos (Nat.mul_pos hv hv) ho) ho
  have h4 : 1 ≤ v * v * v * v * o * o * o * o :=
    Nat.mul_pos (Nat.mul_pos (Nat.mul_pos (Nat.mul_pos (Nat.mul_pos (Nat.mul_pos (Nat.mul_pos
      hv hv) hv) hv) ho) ho) ho) ho
  generalize hN : v * v * o * o = N at h2
  generalize hM : v * v * v * v * o * o * o * o = M at h4
  simp only [diisPass, iterLayout, tampsAfterResid, initLayout, h, hu, t2Blks, t4Blks, layoutLen]
  simp [Blk.size, hN, hM]
  omega

example : hasSub "CCDQ" "CCSDT" = false ∧ hasSub "UCC(4)" "CCSDT" = false ∧
    diisPass .full "CCDQ" 3 4 = .ok 104112 := by
  refine ⟨by decide, by decide, by decide +kernel⟩

/-! ## C18 -/

/-- **C18** is violated: with a single method key `fullCCType`, one residual evaluation gets through iff
the name is `CCDQ`; no other documented name (`CCD`, `CCSDT`, ...) does. -/
theorem C18_violated_full (name : String) :
    fullResid [("fullCCType", .str name)] name = .ok () ↔ name = "CCDQ" := by
  unfold fullResid hasD4
  by_cases h : name = "CCDQ"
  · subst h; simp
  · by_cases h' : name = "CCSDTQ" <;> simp [h, h']

/-- **C18** is violated: with the key as documented (`fullCCtype`) the driver finds no method key. -/
theorem C18_violated_documented_key (hf nuc v : Val) :
    prepare hf nuc [("fullCCtype", v)] = .error .unboundLocal := by
  have : mainFamily [("fullCCtype", v)] = none := by
    simp [mainFamily, Dict.has, Dict.get?, List.lookup]
  simp [prepare, mainFamily_fillDefaults, this]

/-- **C18** is violated: `CCD(Qf)` and `CCD(Qf*)` under `ccdTypeSlow` end in a `TypeError` when the
correction is evaluated. -/
theorem C18_violated_slowQf (name : String) (h : name = "CCD(Qf)" ∨ name = "CCD(Qf*)") :
    wantsCorrection name = true ∧ slowPertCorr name = .error .typeError := by
  rcases h with rfl | rfl <;> exact ⟨by decide, by decide⟩

/-- **C18** is violated: `CCD(Qf*Hf)` requests no correction, so its result is that of `CCD`. -/
theorem C18_violated_QfHf : wantsCorrection "CCD(Qf*Hf)" = false ∧ wantsCorrection "CCD" = false := by
  decide

/-- **C18** What holds under `ccdTypeSlow`: a name that requests a correction gets it evaluated iff the
name has a digit, and then for at least one order iff the last digit is 5 or more. Partial. -/
theorem C18_slow_correction_partial (name : String) :
    (∃ l, slowPertCorr name = .ok l) ↔ ∃ c ∈ name.toList, c.isDigit = true := by
  have hd : ∀ c : Char, (digitVal c).isSome = c.isDigit := by
    intro c
    unfold digitVal Char.isDigit
    by_cases h : '0' ≤ c ∧ c ≤ '9'
    · rw [if_pos h]; obtain ⟨h1, h2⟩ := h
      have h1' : c.val ≥ 48 := h1
      have h2' : c.val ≤ 57 := h2
      simp [h1', h2']
    · rw [if_neg h]
      have : ¬ (c.val ≥ 48 ∧ c.val ≤ 57) := h
      simp only [Option.isSome_none]
      rcases not_and_or.1 this with h3 | h3 <;> simp [h3]
  unfold slowPertCorr extractInteger
  cases hl : (name.toList.filterMap digitVal).getLast? with
  | none =>
    rw [List.getLast?_eq_none_iff, List.filterMap_eq_nil_iff] at hl
    simp only [reduceCtorEq, exists_false, false_iff, not_exists, not_and]
    intro c hc
    rw [← hd, hl c hc]; simp
  | some n =>
    have hm := List.mem_of_getLast? hl
    rw [List.mem_filterMap] at hm
    obtain ⟨c, hc, hcn⟩ := hm
    simp only [Except.ok.injEq, exists_eq', true_iff]
    exact ⟨c, hc, by rw [← hd, hcn]; rfl⟩

/-! ## C19 -/

/-- **C19** With `pre ++ c :: post` where `c` is the last digit of the name, the orders are
`5, 6, ..., value of c`, in this order and nothing else. -/
theorem C19_orders (pre post : List Char) (c : Char) (hc : c.isDigit = true)
    (hpost : ∀ x ∈ post, x.isDigit = false) :
    ∃ l, extractInteger (pre ++ c :: post) = some l ∧
      (∀ k, k ∈ l ↔ 5 ≤ k ∧ k ≤ c.toNat - '0'.toNat) ∧ (∀ k ∈ l, k ≤ 9) ∧
      ∀ i k, l[i]? = some k → k = i + 5 := by
  have hdig : ∀ x : Char, x.isDigit = true ↔ ('0' ≤ x ∧ x ≤ '9') := by
    intro x; unfold Char.isDigit
    rw [Bool.and_eq_true, decide_eq_true_iff, decide_eq_true_iff]; exact Iff.rfl
  have hv : digitVal c = some (c.toNat - '0'.toNat) := by
    unfold digitVal; rw [if_pos ((hdig c).1 hc)]
  have hp : post.filterMap digitVal = [] := by
    rw [List.filterMap_eq_nil_iff]
    intro x hx
    unfold digitVal; rw [if_neg]
    rw [← hdig, hpost x hx]; simp
  have h9 : c.toNat - '0'.toNat ≤ 9 := by
    have := ((hdig c).1 hc).2
    have h : c.toNat ≤ '9'.toNat := this
    have e1 : '9'.toNat = 57 := rfl
    have e2 : '0'.toNat = 48 := rfl
    omega
  refine ⟨(List.range (c.toNat - '0'.toNat + 1 - 5)).map (· + 5), ?_, ?_, ?_, ?_⟩
  · unfold extractInteger
    rw [List.filterMap_append, List.filterMap_cons, hv, hp]
    simp
  · intro k
    simp only [List.mem_map, List.mem_range]
    constructor
    · rintro ⟨a, ha, rfl⟩; omega
    · rintro ⟨h1, h2⟩; exact ⟨k - 5, by omega, by omega⟩
  · intro k
    simp only [List.mem_map, List.mem_range]
    rintro ⟨a, ha, rfl⟩; omega
  · intro i k h
    rw [List.getElem?_map] at h
    cases hr : (List.range (c.toNat - '0'.toNat + 1 - 5))[i]? with
    | none => rw [hr] at h; cases h
    | some a =>
      rw [hr] at h
      obtain ⟨h1, h2⟩ := List.getElem?_eq_some_iff.1 hr
      simp at h2 h; omega

/-- **C19** The list of orders is absent iff the name has no digit. -/
theorem C19_absent_iff (s : List Char) :
    extractInteger s = none ↔ ∀ c ∈ s, c.isDigit = false := by
  have hdig : ∀ x : Char, x.isDigit = true ↔ ('0' ≤ x ∧ x ≤ '9') := by
    intro x; unfold Char.isDigit
    rw [Bool.and_eq_true, decide_eq_true_iff, decide_eq_true_iff]; exact Iff.rfl
  have hd : ∀ c, digitVal c = none ↔ c.isDigit = false := by
    intro c; unfold digitVal
    rw [← Bool.not_eq_true, hdig]
    split <;> simp_all
  unfold extractInteger
  have : (s.filterMap digitVal).getLast? = none ↔ ∀ c ∈ s, c.isDigit = false := by
    rw [List.getLast?_eq_none_iff, List.filterMap_eq_nil_iff]
    exact forall₂_congr fun c _ => hd c
  rw [← this]
  cases (s.filterMap digitVal).getLast? <;> simp

example : extractInteger "UT2-CCD(7)".toList = some [5, 6, 7] ∧
    extractInteger "XCCD(4)".toList = some [] ∧ extractInteger "CCD(Qf)".toList = none := by decide

end Verif.Props
