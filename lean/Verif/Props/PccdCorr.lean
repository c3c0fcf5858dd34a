import Verif.Model.PccdCorr
import Mathlib.Algebra.BigOperators.Ring.Finset
import Mathlib.Algebra.BigOperators.Group.Finset.Piecewise
import Mathlib.Algebra.BigOperators.Intervals
import Mathlib.Data.List.Nodup
import Mathlib.Tactic.Ring
import Mathlib.Tactic.Linarith
import Mathlib.Tactic.NormNum

/-!
# The pCCD part of the test route (C73, C74)
-/

namespace Verif.Props
open Verif.PccdCorr

/-- The entries the function calls diagonal: neighbouring orbitals in both spaces. -/
def Neighbour (nocc nvirt i j a b : ℕ) : Prop := j = i + 1 ∧ b = a + 1 ∧ i + 1 < nocc ∧ a + 1 < nvirt

theorem mem_pairs (nocc nvirt i a : ℕ) : (i, a) ∈ pairs nocc nvirt ↔ i + 1 < nocc ∧ a + 1 < nvirt := by
  simp only [pairs, List.mem_flatMap, List.mem_range, List.mem_map, Prod.mk.injEq]
  constructor
  · rintro ⟨x, hx, y, hy, rfl, rfl⟩; omega
  · rintro ⟨h1, h2⟩; exact ⟨i, by omega, a, by omega, rfl, rfl⟩

theorem nodup_pairs (nocc nvirt : ℕ) : (pairs nocc nvirt).Nodup := by
  rw [pairs, List.nodup_flatMap]
  refine ⟨fun i _ => List.nodup_range.map fun a b h => (Prod.mk.inj h).2, ?_⟩
  refine List.nodup_range.imp ?_
  intro i j hij
  simp only [Function.onFun, List.disjoint_left, List.mem_map]
  rintro _ ⟨x, _, rfl⟩ ⟨y, _, h⟩
  exact hij (Prod.mk.inj h).1.symm

/-- The array after the loop. -/
theorem loop_array (l : List (ℕ × ℕ)) (g T : Arr) (s : ℚ) (i j a b : ℕ) :
    (l.foldl (loopStep g) (s, T)).2 i j a b = if j = i + 1 ∧ b = a + 1 ∧ (i, a) ∈ l then 0 else T i j a b := by
  induction l generalizing s T with
  | nil => simp
  | cons x l ih =>
    rw [List.foldl_cons, loopStep, ih]
    obtain ⟨y, z⟩ := x
    simp only [zeroAt, List.mem_cons, Prod.mk.injEq]
    by_cases h1 : j = i + 1 ∧ b = a + 1 ∧ (i, a) ∈ l
    · rw [if_pos h1, if_pos ⟨h1.1, h1.2.1, Or.inr h1.2.2⟩]
    · rw [if_neg h1]
      by_cases h2 : i = y ∧ j = y + 1 ∧ a = z ∧ b = z + 1
      · obtain ⟨rfl, rfl, rfl, rfl⟩ := h2; simp
      · rw [if_neg h2, if_neg]
        rintro ⟨rfl, rfl, ⟨rfl, rfl⟩ | h⟩
        · exact h2 ⟨rfl, rfl, rfl, rfl⟩
        · exact h1 ⟨rfl, rfl, h⟩

theorem loop_sum (l : List (ℕ × ℕ)) (hl : l.Nodup) (g T : Arr) (s : ℚ) :
    (l.foldl (loopStep g) (s, T)).1 = s + (l.map fun x => (1/4) * T x.1 (x.1 + 1) x.2 (x.2 + 1) * g x.2 (x.2 + 1) x.1 (x.1 + 1)).sum := by
  induction l generalizing s T with
  | nil => simp
  | cons x l ih =>
    obtain ⟨hx, hl⟩ := List.nodup_cons.1 hl
    rw [List.foldl_cons, loopStep, ih hl, List.map_cons, List.sum_cons, add_assoc]
    congr 2
    congr 1
    apply List.map_congr_left
    intro y hy
    have : ¬(y.1 = x.1 ∧ y.1 + 1 = x.1 + 1 ∧ y.2 = x.2 ∧ y.2 + 1 = x.2 + 1) := by
      rintro ⟨h1, -, h2, -⟩
      exact hx (by rwa [← Prod.ext h1 h2])
    simp only [zeroAt, if_neg this]

theorem energy_zeroAt (nocc nvirt : ℕ) (g T : Arr) (x : ℕ × ℕ) (hi : x.1 + 1 < nocc) (ha : x.2 + 1 < nvirt) :
    energy nocc nvirt g (zeroAt T x) = energy nocc nvirt g T
      - (1/4) * (T x.1 (x.1 + 1) x.2 (x.2 + 1) * g (nocc + x.2) (nocc + (x.2 + 1)) x.1 (x.1 + 1)) := by
  have key : ∀ i j a b, g (nocc + a) (nocc + b) i j * zeroAt T x i j a b = g (nocc + a) (nocc + b) i j * T i j a b
      - (if i = x.1 then if j = x.1 + 1 then if a = x.2 then if b = x.2 + 1 then
        T x.1 (x.1 + 1) x.2 (x.2 + 1) * g (nocc + x.2) (nocc + (x.2 + 1)) x.1 (x.1 + 1) else 0 else 0 else 0 else 0) := by
    intro i j a b
    unfold zeroAt
    by_cases h1 : i = x.1
    · by_cases h2 : j = x.1 + 1
      · by_cases h3 : a = x.2
        · by_cases h4 : b = x.2 + 1
          · subst h1 h2 h3 h4; simp; ring
          · simp [h4]
        · simp [h3]
      · simp [h2]
    · simp [h1]
  have e1 : ∀ (n k : ℕ) (c : ℚ), k < n → (∑ i ∈ Finset.range n, if i = k then c else 0) = c := by
    intro n k c h; rw [Finset.sum_ite_eq' (Finset.range n) k, if_pos (Finset.mem_range.2 h)]
  unfold energy
  simp only [key, Finset.sum_sub_distrib]
  have inner : ∀ i j, (∑ a ∈ Finset.range nvirt, ∑ b ∈ Finset.range nvirt, if i = x.1 then if j = x.1 + 1 then if a = x.2 then
      if b = x.2 + 1 then T x.1 (x.1 + 1) x.2 (x.2 + 1) * g (nocc + x.2) (nocc + (x.2 + 1)) x.1 (x.1 + 1) else 0 else 0 else 0 else 0)
      = if i = x.1 then if j = x.1 + 1 then T x.1 (x.1 + 1) x.2 (x.2 + 1) * g (nocc + x.2) (nocc + (x.2 + 1)) x.1 (x.1 + 1) else 0 else 0 := by
    intro i j
    by_cases h1 : i = x.1
    · by_cases h2 : j = x.1 + 1
      · simp only [if_pos h1, if_pos h2]
        refine Eq.trans ?_ (e1 nvirt x.2 _ (by omega))
        apply Finset.sum_congr rfl
        intro a _
        by_cases h3 : a = x.2
        · simp only [if_pos h3]; exact e1 _ _ _ ha
        · simp [h3]
      · simp [h2]
    · simp [h1]
  simp only [inner]
  have outer : (∑ i ∈ Finset.range nocc, ∑ j ∈ Finset.range nocc, if i = x.1 then if j = x.1 + 1 then
      T x.1 (x.1 + 1) x.2 (x.2 + 1) * g (nocc + x.2) (nocc + (x.2 + 1)) x.1 (x.1 + 1) else 0 else 0)
      = T x.1 (x.1 + 1) x.2 (x.2 + 1) * g (nocc + x.2) (nocc + (x.2 + 1)) x.1 (x.1 + 1) := by
    refine Eq.trans ?_ (e1 nocc x.1 _ (by omega))
    apply Finset.sum_congr rfl
    intro i _
    by_cases h : i = x.1
    · simp only [if_pos h]
      exact e1 _ _ _ hi
    · simp [h]
  rw [outer]; ring

theorem loop_energy (nocc nvirt : ℕ) (l : List (ℕ × ℕ)) (hl : l.Nodup) (hr : ∀ x ∈ l, x.1 + 1 < nocc ∧ x.2 + 1 < nvirt)
    (g T : Arr) (s : ℚ) :
    energy nocc nvirt g (l.foldl (loopStep g) (s, T)).2 = energy nocc nvirt g T
      - (l.map fun x => (1/4) * (T x.1 (x.1 + 1) x.2 (x.2 + 1) * g (nocc + x.2) (nocc + (x.2 + 1)) x.1 (x.1 + 1))).sum := by
  induction l generalizing s T with
  | nil => simp
  | cons x l ih =>
    obtain ⟨hx, hl⟩ := List.nodup_cons.1 hl
    have hx' := hr x (List.mem_cons_self ..)
    rw [List.foldl_cons, loopStep, ih hl (fun y hy => hr y (List.mem_cons_of_mem _ hy)), energy_zeroAt _ _ _ _ _ hx'.1 hx'.2,
      List.map_cons, List.sum_cons, sub_sub]
    congr 3
    apply List.map_congr_left
    intro y hy
    have : ¬(y.1 = x.1 ∧ y.1 + 1 = x.1 + 1 ∧ y.2 = x.2 ∧ y.2 + 1 = x.2 + 1) := by
      rintro ⟨h1, -, h2, -⟩
      exact hx (by rwa [← Prod.ext h1 h2])
    simp only [zeroAt, if_neg this]

/-- **C73**, exact form: what `determine_pCCD_correction` leaves in the array of its caller. -/
theorem C73_argument_after (nocc nvirt : ℕ) (g T : Arr) (i j a b : ℕ) :
    (Neighbour nocc nvirt i j a b → (determine nocc nvirt g T).2 i j a b = 0) ∧
    (¬Neighbour nocc nvirt i j a b → (determine nocc nvirt g T).2 i j a b = T i j a b) := by
  have h : (determine nocc nvirt g T).2 i j a b = _ := loop_array (pairs nocc nvirt) g T 0 i j a b
  rw [h]
  simp only [mem_pairs]
  exact ⟨fun hn => if_pos hn, fun hn => if_neg hn⟩

/-- **C73** is violated: the argument is changed whenever it has a neighbouring entry that is not zero. -/
theorem C73_violated (nocc nvirt : ℕ) (g T : Arr) (i a : ℕ) (hi : i + 1 < nocc) (ha : a + 1 < nvirt)
    (hT : T i (i + 1) a (a + 1) ≠ 0) : (determine nocc nvirt g T).2 ≠ T := by
  intro h
  have := (C73_argument_after nocc nvirt g T i (i + 1) a (a + 1)).1 ⟨rfl, rfl, hi, ha⟩
  rw [h] at this
  exact hT this

/-- The part of **C73** that holds: without such entries the argument is left alone. -/
theorem C73_unchanged_partial (nocc nvirt : ℕ) (g T : Arr)
    (hT : ∀ i a, i + 1 < nocc → a + 1 < nvirt → T i (i + 1) a (a + 1) = 0) : (determine nocc nvirt g T).2 = T := by
  funext i j a b
  by_cases h : Neighbour nocc nvirt i j a b
  · rw [(C73_argument_after nocc nvirt g T i j a b).1 h]
    obtain ⟨rfl, rfl, h1, h2⟩ := h
    exact (hT i a h1 h2).symm
  · exact (C73_argument_after nocc nvirt g T i j a b).2 h

example : (determine 2 2 (fun _ _ _ _ => 1) (fun i j a b => if i = j ∨ a = b then 0 else 1)).2 0 1 0 1 = 0 ∧
    (determine 2 2 (fun _ _ _ _ => 1) (fun i j a b => if i = j ∨ a = b then 0 else 1)).2 1 0 0 1 = 1 := by decide +kernel

/-- The part of **C74** that holds: the returned energy differs from the printed check by a sum over the neighbouring
entries with the integrals of the wrong orbitals. -/
theorem C74_difference_partial (nocc nvirt : ℕ) (g T : Arr) :
    (determine nocc nvirt g T).1.offDiagE = (determine nocc nvirt g T).1.test
      + ((pairs nocc nvirt).map fun x => (1/4) * T x.1 (x.1 + 1) x.2 (x.2 + 1) *
        (g (nocc + x.2) (nocc + (x.2 + 1)) x.1 (x.1 + 1) - g x.2 (x.2 + 1) x.1 (x.1 + 1))).sum := by
  have h1 : (determine nocc nvirt g T).1.offDiagE = energy nocc nvirt g T - _ :=
    congrArg _ (loop_sum (pairs nocc nvirt) (nodup_pairs nocc nvirt) g T 0)
  have h2 : (determine nocc nvirt g T).1.test = _ :=
    loop_energy nocc nvirt (pairs nocc nvirt) (nodup_pairs nocc nvirt) (fun x hx => (mem_pairs _ _ _ _).1 hx) g T 0
  rw [h1, h2, zero_add, sub_add]
  congr 1
  induction pairs nocc nvirt with
  | nil => simp
  | cons x l ih => simp only [List.map_cons, List.sum_cons] at ih ⊢; linarith

/-- Two-electron arrays of antisymmetrised integrals. -/
def AntiG (g : Arr) : Prop := ∀ p q r s, g p q r s = - g q p r s ∧ g p q r s = - g p q s r ∧ g p q r s = g r s p q

/-- **C74** is violated: with antisymmetrised integrals and the first-order amplitudes (all energy denominators -1)
the returned energy is not the energy of the remaining amplitudes. -/
theorem C74_violated : ∃ g : Arr, AntiG g ∧
    (determine 2 2 g fun i j a b => - g (2 + a) (2 + b) i j).1.offDiagE
      ≠ (determine 2 2 g fun i j a b => - g (2 + a) (2 + b) i j).1.test := by
  refine ⟨fun p q r s => ((p : ℚ) - q) * (r - s) * (p + q) * (r + s), fun p q r s => ⟨by ring, by ring, by ring⟩, ?_⟩
  rw [C74_difference_partial]
  have : pairs 2 2 = [(0, 0)] := by decide
  rw [this]
  simp only [List.map_cons, List.map_nil, List.sum_cons, List.sum_nil]
  norm_num

end Verif.Props
