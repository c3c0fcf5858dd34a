import Verif.Ein.Generic
import Mathlib.Algebra.BigOperators.Group.List.Basic
import Mathlib.Algebra.Group.Basic

/-!
# Conserved charges

Orbitals carry a charge (spin projection, momentum, irreducible representation of an abelian group). If every array
entry vanishes unless the charges of its first and second half of indices have the same sum, so does every entry of
the result.
-/

namespace Verif.Ein

/-- First half of a list. -/
def half1 {α : Type} (l : List α) : List α := l.take (l.length / 2)

/-- Second half of a list. -/
def half2 {α : Type} (l : List α) : List α := l.drop (l.length / 2)

/-- Letters at the first halves of the operands. -/
def ups : List Fac → List Var
  | [] => []
  | f :: fs => half1 f.ix ++ ups fs

/-- Letters at the second halves of the operands. -/
def downs : List Fac → List Var
  | [] => []
  | f :: fs => half2 f.ix ++ downs fs

/-- Every summation letter stands once in a first and once in a second half, and output letters stand on their own
side (or all on the other side). -/
def conserving (w : List Var) (fs : List Fac) : Bool :=
  (ups fs ++ half2 w).isPerm (downs fs ++ half1 w) || (ups fs ++ half1 w).isPerm (downs fs ++ half2 w)

def Prog.conserving (n : Nat) (P : Prog) : Bool :=
  P.all fun b => b.ps.all fun p => Nat.beq p.2.length n && Ein.conserving p.2 b.fs

variable {I K G : Type} [Field K] [AddCommGroup G] (q : I → G)

/-- Sum of the charges. -/
def chargeSum (l : List I) : G := (l.map q).sum

/-- The charges of the two halves agree. -/
def Balanced (l : List I) : Prop := chargeSum q (half1 l) = chargeSum q (half2 l)

theorem map_bind (w : List Var) : ∀ (ρ : Var → I) (xs : List I), w.Nodup → xs.length = w.length →
    w.map (bind ρ w xs) = xs := by
  induction w with
  | nil => intro ρ xs _ h; simpa using List.length_eq_zero_iff.1 h
  | cons x w ih =>
    intro ρ xs hn hl
    cases xs with
    | nil => simp at hl
    | cons y ys =>
      obtain ⟨h1, h2⟩ := List.nodup_cons.1 hn
      have hl : ys.length = w.length := by simpa using hl
      simp only [List.map_cons, bind]
      rw [ih _ ys h2 hl, bind_of_not_mem w _ ys x h1, Function.update_self]

theorem half1_map {α β : Type} (f : α → β) (l : List α) : half1 (l.map f) = (half1 l).map f := by
  simp [half1, List.map_take]

theorem half2_map {α β : Type} (f : α → β) (l : List α) : half2 (l.map f) = (half2 l).map f := by
  simp [half2, List.map_drop]

theorem evalFs_charge (T : Nat → List I → K) (hT : ∀ t l, T t l ≠ 0 → Balanced q l) (ρ : Var → I) (fs : List Fac)
    (h : evalFs T fs ρ ≠ 0) : chargeSum q ((ups fs).map ρ) = chargeSum q ((downs fs).map ρ) := by
  induction fs with
  | nil => rfl
  | cons f fs ih =>
    simp only [evalFs, ne_eq, mul_eq_zero, not_or] at h
    have e := hT _ _ h.1
    rw [Balanced, half1_map, half2_map] at e
    have e2 := ih h.2
    simp only [chargeSum] at e e2 ⊢
    simp only [ups, downs, List.map_append, List.sum_append, e, e2]

theorem conserving_sound (T : Nat → List I → K) (hT : ∀ t l, T t l ≠ 0 → Balanced q l) (ρ : Var → I) (w : List Var)
    (fs : List Fac) (hc : conserving w fs = true) (h : evalFs T fs ρ ≠ 0) : Balanced q (w.map ρ) := by
  have e := evalFs_charge q T hT ρ fs h
  unfold Balanced
  rw [half1_map, half2_map]
  simp only [conserving, Bool.or_eq_true, List.isPerm_iff] at hc
  rcases hc with hc | hc <;>
  · have p := ((hc.map ρ).map q).sum_eq
    simp only [List.map_append, List.sum_append] at p
    simp only [chargeSum] at e ⊢
    rw [e] at p
    first | exact (add_left_cancel p).symm | exact add_left_cancel p

/-- Charge conservation. -/
theorem Prog.eval_charge [Inhabited I] (D : Nat → Finset I) (T : Nat → List I → K)
    (hT : ∀ t l, T t l ≠ 0 → Balanced q l) (n : Nat) (P : Prog) (hc : P.conserving n = true) (hw : P.wf n = true)
    (xs : List I) (hx : xs.length = n) (hb : ¬ Balanced q xs) : P.eval D T xs = 0 := by
  unfold Prog.eval
  refine List.sum_eq_zero fun y hy => ?_
  obtain ⟨b, hb', rfl⟩ := List.mem_map.1 hy
  simp only [Prog.conserving, List.all_eq_true, Bool.and_eq_true, Nat.beq_eq] at hc
  unfold Blk.eval
  refine List.sum_eq_zero fun y hy => ?_
  obtain ⟨p, hp, rfl⟩ := List.mem_map.1 hy
  obtain ⟨hl, hcp⟩ := hc b hb' p hp
  have hn : p.2.Nodup := by
    simp only [Prog.wf_eq, List.all_eq_true, Bool.and_eq_true] at hw
    have := (hw b hb') p hp
    simpa using this.2
  have : sumOver D (dums p.2 b.fs) (evalFs T b.fs) (Ein.bind (fun _ => default) p.2 xs) = 0 := by
    refine sumOver_zero' D _ _ _ fun ρ' hρ => ?_
    by_contra hne
    have := conserving_sound q T hT ρ' p.2 b.fs hcp hne
    have e : p.2.map ρ' = xs := by
      rw [← map_bind p.2 (fun _ => default) xs hn (by omega)]
      refine List.map_congr_left fun v hv => ?_
      exact hρ v fun hd => ((mem_dums _ _ _).1 hd).2 hv
    rw [e] at this
    exact hb this
  unfold termVal
  rw [this]
  ring

end Verif.Ein
