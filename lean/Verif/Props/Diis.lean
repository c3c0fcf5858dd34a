import Verif.Lemmas.Diis
import Mathlib.Data.List.Induction
import Mathlib.Tactic.NormNum

/-! Properties C10-C15: the DIIS accelerator. -/

namespace Verif.Props
open Verif.Diis Matrix

variable {ι : Type} [Fintype ι]

/-- Specification: the last `n` elements of a list. -/
def lastN {α : Type} (n : ℕ) (l : List α) : List α := l.drop (l.length - n)

theorem lastN_append {α : Type} (n : ℕ) (l : List α) (x : α) :
    (if (lastN n l ++ [x]).length > n then (lastN n l ++ [x]).tail else lastN n l ++ [x])
      = lastN n (l ++ [x]) := by
  simp only [lastN, List.length_append, List.length_drop, List.length_singleton]
  by_cases h : l.length < n
  · have e1 : l.length - n = 0 := by omega
    have e2 : l.length + 1 - n = 0 := by omega
    have e3 : ¬ (l.length - (l.length - n) + 1 > n) := by omega
    simp only [e3, if_false]
    simp [e1, e2]
  · have e3 : l.length - (l.length - n) + 1 > n := by omega
    simp only [e3, if_true]
    have e4 : l.length + 1 - n = (l.length - n) + 1 := by omega
    rw [e4, ← List.drop_one]
    have e5 : l.drop (l.length - n) ++ [x] = (l ++ [x]).drop (l.length - n) := by
      rw [List.drop_append_of_le_length (by omega)]
    rw [e5, List.drop_drop]

omit [Fintype ι] in
/-- **C10** After any sequence of calls, the stored iterates are the last `nvecs` ones of those after the
first `start_iter` calls, in order, and the stored errors are exactly theirs. -/
theorem C10_history_window (nvecs start : ℕ) (calls : List ((ι → ℝ) × (ι → ℝ))) :
    ((init nvecs start).pushAll calls).prev = lastN nvecs ((calls.drop start).map Prod.fst) ∧
    ((init nvecs start).pushAll calls).errs = lastN nvecs ((calls.drop start).map Prod.snd) ∧
    ((init nvecs start).pushAll calls).iterIdx = calls.length ∧
    ((init nvecs start).pushAll calls).nvecs = nvecs ∧
    ((init nvecs start).pushAll calls).startIter = start := by
  induction calls using List.reverseRecOn with
  | nil => simp [State.pushAll, init, lastN]
  | append_singleton cs c ih =>
    obtain ⟨h1, h2, h3, h4, h5⟩ := ih
    have hp : (init nvecs start).pushAll (cs ++ [c]) = ((init nvecs start).pushAll cs).push c.1 c.2 := by
      simp [State.pushAll]
    rw [hp]
    generalize (init nvecs start).pushAll cs = s at *
    have hs := push_nvecs s c.1 c.2
    refine ⟨?_, ?_, by rw [hs.2.2, h3]; simp, by rw [hs.1, h4], by rw [hs.2.1, h5]⟩
    · unfold State.push
      by_cases hk : cs.length < start
      · have e1 : cs.drop start = [] := List.drop_eq_nil_of_le (by omega)
        have e2 : (cs ++ [c]).drop start = [] := List.drop_eq_nil_of_le (by simp; omega)
        rw [e1] at h1
        rw [if_pos (by rw [h3, h5]; exact hk), e2]
        exact h1
      · rw [if_neg (by rw [h3, h5]; exact hk), List.drop_append_of_le_length (by omega), List.map_append]
        simp only [h1, h4]
        rw [List.map_singleton, ← lastN_append]
        split <;> rfl
    · unfold State.push
      by_cases hk : cs.length < start
      · have e1 : cs.drop start = [] := List.drop_eq_nil_of_le (by omega)
        have e2 : (cs ++ [c]).drop start = [] := List.drop_eq_nil_of_le (by simp; omega)
        rw [e1] at h2
        rw [if_pos (by rw [h3, h5]; exact hk), e2]
        exact h2
      · rw [if_neg (by rw [h3, h5]; exact hk), List.drop_append_of_le_length (by omega), List.map_append]
        have hl : (s.prev ++ [c.1]).length = (s.errs ++ [c.2]).length := by
          rw [h1, h2]; simp [lastN]
        simp only [hl, h2, h4]
        rw [List.map_singleton, ← lastN_append]
        split <;> rfl

/-- **C11** The first `start_iter` calls return their iterate and store nothing. -/
theorem C11_warmup (nvecs start : ℕ) (calls : List ((ι → ℝ) × (ι → ℝ))) (it er : ι → ℝ)
    (h : calls.length < start) :
    ((init nvecs start).pushAll calls).newVec it er = some it ∧
    (((init nvecs start).pushAll calls).push it er).prev = [] ∧
    (((init nvecs start).pushAll calls).push it er).errs = [] := by
  obtain ⟨h1, h2, h3, h4, h5⟩ := C10_history_window nvecs start calls
  have e1 : calls.drop start = [] := List.drop_eq_nil_of_le (by omega)
  have hlt : ((init nvecs start).pushAll calls).iterIdx < ((init nvecs start).pushAll calls).startIter := by
    rw [h3, h5]; exact h
  refine ⟨by rw [State.newVec, if_pos hlt], ?_, ?_⟩
  · rw [State.push, if_pos hlt]; simp only; rw [h1, e1]; simp [lastN]
  · rw [State.push, if_pos hlt]; simp only; rw [h2, e1]; simp [lastN]

/-- **C12** After the warm-up every returned vector is a weighted sum of the stored iterates with weights
summing to one. -/
theorem C12_affine_combination (s : State ι) (it er v : ι → ℝ) (hs : ¬ s.iterIdx < s.startIter)
    (h : s.newVec it er = some v) :
    ∃ w : Fin (s.push it er).prev.length → ℝ, ∑ i, w i = 1 ∧ v = ∑ i, w i • (s.push it er).prev[i] := by
  rw [State.newVec, if_neg hs, extrapolate, Option.map_eq_some_iff] at h
  obtain ⟨c, hc, rfl⟩ := h
  exact ⟨fun i => c (Sum.inl i), solve_sum hc, rfl⟩

/-- **C12** If all stored iterates are equal (in particular if there is just one) the returned vector is
that iterate. -/
theorem C12_constant_history (s : State ι) (it er v x : ι → ℝ) (hs : ¬ s.iterIdx < s.startIter)
    (h : s.newVec it er = some v) (hx : ∀ y ∈ (s.push it er).prev, y = x) : v = x := by
  obtain ⟨w, hw, rfl⟩ := C12_affine_combination s it er v hs h
  have : ∀ i : Fin (s.push it er).prev.length, w i • (s.push it er).prev[i] = w i • x := fun i => by
    have : (s.push it er).prev[i] = x := hx _ (List.getElem_mem _)
    rw [this]
  rw [Finset.sum_congr rfl fun i _ => this i, ← Finset.sum_smul, hw, one_smul]

/-- **C12** The very first extrapolation always succeeds and returns the iterate it was given, for every
`nvecs ≥ 1`. -/
theorem C12_first_extrapolation (nvecs start : ℕ) (hn : 1 ≤ nvecs)
    (calls : List ((ι → ℝ) × (ι → ℝ))) (hl : calls.length = start) (it er : ι → ℝ) :
    ((init nvecs start).pushAll calls).newVec it er = some it := by
  obtain ⟨h1, h2, h3, h4, h5⟩ := C10_history_window nvecs start calls
  obtain ⟨g1, g2, g3, g4, g5⟩ := C10_history_window nvecs start (calls ++ [(it, er)])
  have hp : (init nvecs start).pushAll (calls ++ [(it, er)])
      = ((init nvecs start).pushAll calls).push it er := by simp [State.pushAll]
  rw [hp] at g1 g2
  have hs : ¬ ((init nvecs start).pushAll calls).iterIdx < ((init nvecs start).pushAll calls).startIter := by
    rw [h3, h5]; omega
  have e0 : (calls ++ [(it, er)]).drop start = [(it, er)] := by
    rw [List.drop_append_of_le_length (by omega), List.drop_eq_nil_of_le (by omega)]; rfl
  rw [e0] at g1 g2
  have g1' : (((init nvecs start).pushAll calls).push it er).prev = [it] := by
    rw [g1]; simp [lastN, show 1 - nvecs = 0 by omega]
  have hsome : (((init nvecs start).pushAll calls).newVec it er).isSome := by
    rw [State.newVec, if_neg hs, extrapolate, Option.isSome_map, g1', solve_isSome_iff]
    have : Subsingleton (Fin [it].length) := inferInstanceAs (Subsingleton (Fin 1))
    exact ⟨by simp, affineIndependent_of_subsingleton ℝ _⟩
  obtain ⟨v, hv⟩ := Option.isSome_iff_exists.1 hsome
  rw [hv, C12_constant_history _ it er v it hs hv (by rw [g1']; simp)]

/-- **C13** The weights minimise the squared norm of the combined error among all weights that sum to
one. -/
theorem C13_minimises_error {n : ℕ} (e : Fin n → ι → ℝ) (c : Fin n ⊕ Unit → ℝ) (h : solve e = some c)
    (d : Fin n → ℝ) (hd : ∑ i, d i = 1) :
    ∑ x, (∑ i, c (Sum.inl i) * e i x) ^ 2 ≤ ∑ x, (∑ i, d i * e i x) ^ 2 := by
  have hrow := solve_row h
  have hsum := solve_sum h
  have conv : ∀ w : Fin n → ℝ, ∑ x, (∑ i, w i * e i x) ^ 2 = edot (∑ i, w i • e i) (∑ i, w i • e i) := by
    intro w
    simp [edot, pow_two]
  rw [conv, conv]
  set r := ∑ i, c (Sum.inl i) • e i with hr
  have hrr : edot r r = c (Sum.inr ()) := by
    conv_lhs => rw [hr, edot_sum_right, ← hr]
    simp only [edot_comm _ (e _), hrow]
    rw [← Finset.sum_mul, hsum, one_mul]
  have hrd : edot r (∑ i, d i • e i) = c (Sum.inr ()) := by
    rw [edot_sum_right]
    simp only [edot_comm _ (e _), hrow]
    rw [← Finset.sum_mul, hd, one_mul]
  have hpos : 0 ≤ ∑ x, ((∑ i, d i • e i) x - r x) ^ 2 := Finset.sum_nonneg fun x _ => sq_nonneg _
  have hexp : ∑ x, ((∑ i, d i • e i) x - r x) ^ 2
      = edot (∑ i, d i • e i) (∑ i, d i • e i) - 2 * edot r (∑ i, d i • e i) + edot r r := by
    simp only [edot, Finset.mul_sum, ← Finset.sum_sub_distrib, ← Finset.sum_add_distrib]
    exact Finset.sum_congr rfl fun x _ => by ring
  rw [hexp, hrd, hrr] at hpos
  rw [hrr]; linarith

/-- **C14** With at least one stored vector, the DIIS system is solvable iff the stored error vectors are
affinely independent; with none (`nvecs = 0`) it never is. -/
theorem C14_solvable_iff {n : ℕ} (e : Fin n → ι → ℝ) :
    (∃ c, solve e = some c) ↔ 0 < n ∧ AffineIndependent ℝ e := by
  rw [← Option.isSome_iff_exists, solve_isSome_iff]

/-- **C14** More than `dim + 1` stored vectors always give a singular matrix. -/
theorem C14_too_many_vectors {n : ℕ} (e : Fin n → ι → ℝ) (h : Fintype.card ι + 1 < n) :
    solve e = none := by
  by_contra hne
  obtain ⟨c, hc⟩ := Option.ne_none_iff_exists'.1 hne
  have ha := ((C14_solvable_iff e).1 ⟨c, hc⟩).2
  have hcard := ha.card_le_finrank_succ
  have hle : Module.finrank ℝ (vectorSpan ℝ (Set.range e)) ≤ Fintype.card ι := by
    have := Submodule.finrank_le (vectorSpan ℝ (Set.range e))
    simpa using this
  simp only [Fintype.card_fin] at hcard
  omega

/-- **C14** A repeated error vector gives a singular matrix. -/
theorem C14_repeated_error {n : ℕ} (e : Fin n → ι → ℝ) (i j : Fin n) (hij : i ≠ j) (h : e i = e j) :
    solve e = none := by
  by_contra hne
  obtain ⟨c, hc⟩ := Option.ne_none_iff_exists'.1 hne
  exact hij (((C14_solvable_iff e).1 ⟨c, hc⟩).2.injective h)

/-- **C14** `nvecs = 0` always fails after the warm-up. -/
theorem C14_zero_vectors (start : ℕ) (calls : List ((ι → ℝ) × (ι → ℝ))) (it er : ι → ℝ)
    (h : start ≤ calls.length) : ((init 0 start).pushAll calls).newVec it er = none := by
  obtain ⟨h1, h2, h3, h4, h5⟩ := C10_history_window 0 start calls
  obtain ⟨g1, g2, g3, g4, g5⟩ := C10_history_window 0 start (calls ++ [(it, er)])
  have hp : (init 0 start).pushAll (calls ++ [(it, er)])
      = ((init 0 start).pushAll calls).push it er := by simp [State.pushAll]
  rw [hp] at g1
  have hs : ¬ ((init 0 start).pushAll calls).iterIdx < ((init 0 start).pushAll calls).startIter := by
    rw [h3, h5]; omega
  have g1' : (((init 0 start).pushAll calls).push it er).prev = [] := by
    rw [g1, lastN, Nat.sub_zero, List.drop_length]
  rw [State.newVec, if_neg hs, extrapolate, g1', Option.map_eq_none_iff]
  by_contra hne
  obtain ⟨c, hc⟩ := Option.ne_none_iff_exists'.1 hne
  exact absurd ((C14_solvable_iff _).1 ⟨c, hc⟩).1 (by simp)

/-- **C15** If all iterates given to DIIS lie in a linear subspace (a linear symmetry such as
antisymmetry), so does every vector it returns, after any history. -/
theorem C15_linear_symmetry_preserved (W : Submodule ℝ (ι → ℝ)) (nvecs start : ℕ)
    (calls : List ((ι → ℝ) × (ι → ℝ))) (it er v : ι → ℝ)
    (hc : ∀ p ∈ calls, p.1 ∈ W) (hi : it ∈ W)
    (h : ((init nvecs start).pushAll calls).newVec it er = some v) : v ∈ W := by
  by_cases hs : ((init nvecs start).pushAll calls).iterIdx < ((init nvecs start).pushAll calls).startIter
  · rw [State.newVec, if_pos hs] at h
    simp only [Option.some.injEq] at h
    rw [← h]; exact hi
  · obtain ⟨w, hw, rfl⟩ := C12_affine_combination _ it er v hs h
    have hp : (init nvecs start).pushAll (calls ++ [(it, er)])
        = ((init nvecs start).pushAll calls).push it er := by simp [State.pushAll]
    have hm : ∀ y ∈ (((init nvecs start).pushAll calls).push it er).prev, y ∈ W := by
      rw [← hp, (C10_history_window nvecs start (calls ++ [(it, er)])).1]
      intro y hy
      have hy := List.mem_of_mem_drop hy
      rw [List.mem_map] at hy
      obtain ⟨p, hp1, rfl⟩ := hy
      have hp1 := List.mem_of_mem_drop hp1
      rw [List.mem_append] at hp1
      rcases hp1 with hp1 | hp1
      · exact hc p hp1
      · simp at hp1; rw [hp1]; exact hi
    exact Submodule.sum_mem W fun i _ => W.smul_mem _ (hm _ (List.getElem_mem _))

-- Two stored vectors in a two-dimensional space: the hypotheses of C12-C14 can be met.
example : ∃ c, solve (ι := Fin 2) ![![1, 0], ![0, 1]] = some c := by
  rw [C14_solvable_iff]
  refine ⟨by norm_num, ?_⟩
  rw [affineIndependent_iff_of_fintype]
  intro w hw hz
  rw [Finset.weightedVSub_eq_linear_combination _ hw] at hz
  have h0 := congrFun hz 0
  have h1 := congrFun hz 1
  simp [Fin.sum_univ_two] at h0 h1
  intro i; fin_cases i
  · exact h0
  · exact h1

end Verif.Props
