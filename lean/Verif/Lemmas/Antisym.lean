import Verif.Model.Antisym

/-!
# The tables of the antisymmetrisers list all pairs of permutations

Checked by sorting the rows of the two tables; the tables are complete finite objects.
-/

set_option maxRecDepth 100000

namespace Verif.Ein

open Equiv

/-- A row as a number: the output positions in base 16. -/
def rowKey (q : ℤ × List Nat) : Nat := q.2.foldl (fun n x => 16 * n + x) 1

/-- Insertion by key. -/
def insRow (q : ℤ × List Nat) : List (ℤ × List Nat) → List (ℤ × List Nat)
  | [] => [q]
  | r :: l => cond (Nat.ble (rowKey q) (rowKey r)) (q :: r :: l) (r :: insRow q l)

/-- Insertion sort by key. -/
def sortRows : List (ℤ × List Nat) → List (ℤ × List Nat)
  | [] => []
  | q :: l => insRow q (sortRows l)

theorem insRow_perm (q : ℤ × List Nat) (l : List (ℤ × List Nat)) : (insRow q l).Perm (q :: l) := by
  induction l with
  | nil => exact List.Perm.refl _
  | cons r l ih =>
    simp only [insRow]
    cases Nat.ble (rowKey q) (rowKey r)
    · exact (ih.cons r).trans (List.Perm.swap q r l)
    · exact List.Perm.refl _

theorem sortRows_perm (l : List (ℤ × List Nat)) : (sortRows l).Perm l := by
  induction l with
  | nil => exact List.Perm.refl _
  | cons q l ih => exact (insRow_perm q _).trans (ih.cons q)

theorem perm_of_sortRows {l m : List (ℤ × List Nat)} (h : sortRows l = sortRows m) : l.Perm m :=
  (sortRows_perm l).symm.trans (h ▸ sortRows_perm m)

/-- All permutations of two, three, four positions. -/
def perms2 : List (Perm (Fin 2)) := [1, swap 0 1]

def perms3 : List (Perm (Fin 3)) :=
  [1, swap 1 2, swap 0 1, swap 0 1 * swap 1 2, swap 1 2 * swap 0 1, swap 0 2]

def perms4 : List (Perm (Fin 4)) :=
  [1, swap 2 3, swap 1 2, swap 1 2 * swap 2 3, swap 2 3 * swap 1 2, swap 1 3].flatMap fun p =>
    [p, swap 0 1 * p, swap 0 2 * p, swap 0 3 * p]

theorem perms2_univ : (perms2 : Multiset (Perm (Fin 2))) = Finset.univ.val := by decide +kernel
theorem perms3_univ : (perms3 : Multiset (Perm (Fin 3))) = Finset.univ.val := by decide +kernel
theorem perms4_univ : (perms4 : Multiset (Perm (Fin 4))) = Finset.univ.val := by decide +kernel

theorem tamps_T2_rows : sortRows Gen.tamps_antisym_T2 =
    sortRows (perms2.flatMap fun σ => perms2.map fun τ => row σ τ) := by decide +kernel
theorem wicked_T2_rows : sortRows Gen.wicked_antisym_T2 =
    sortRows (perms2.flatMap fun σ => perms2.map fun τ => row σ τ) := by decide +kernel
theorem tamps_T3_rows : sortRows Gen.tamps_antisym_T3 =
    sortRows (perms3.flatMap fun σ => perms3.map fun τ => row σ τ) := by decide +kernel
theorem wicked_T3_rows : sortRows Gen.wicked_antisym_T3 =
    sortRows (perms3.flatMap fun σ => perms3.map fun τ => row σ τ) := by decide +kernel
theorem tamps_T4_rows : sortRows Gen.tamps_antisym_T4 =
    sortRows (perms4.flatMap fun σ => perms4.map fun τ => row σ τ) := by decide +kernel

theorem t4resids_2_2_rows : sortRows Gen.t4resids_antisymmetrize_residual_2_2 =
    sortRows (perms2.flatMap fun σ => perms2.map fun τ => row σ τ) := by decide +kernel
theorem t4resids_T3_rows : sortRows Gen.t4resids_antisym_T3 =
    sortRows (perms2.flatMap fun σ => perms4.map fun τ => row σ τ) := by decide +kernel
theorem t4resids_T4_rows : sortRows Gen.t4resids_antisym_t4_residual =
    sortRows (perms4.flatMap fun σ => perms4.map fun τ => row σ τ) := by decide +kernel

end Verif.Ein
