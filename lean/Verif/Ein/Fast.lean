import Verif.Ein.Core
import Mathlib.Algebra.BigOperators.Group.Finset.Basic
import Mathlib.Data.Finset.Dedup
import Mathlib.Tactic.Ring

/-!
# Evaluation of programs on arrays with few entries

`Prog.terms` lists the products that are not known to vanish. The sum of the list is the value of the program. The list is used to
compute the values of concrete cases; no model uses it.
-/

namespace Verif.Ein

variable {I K : Type} [Field K]

/-- `Function.update` with a test that the kernel evaluates in one step. -/
def upd (ρ : Var → I) (x : Var) (i : I) : Var → I := fun y => bif Nat.beq y x then i else ρ y

/-- `bind` with `upd`. -/
def bnd (ρ : Var → I) : List Var → List I → Var → I
  | x :: xs, i :: is => bnd (upd ρ x i) xs is
  | _, _ => ρ

/-- Membership with the same test. -/
def memB (x : Var) : List Var → Bool
  | [] => false
  | y :: l => Nat.beq x y || memB x l

def anyB (xs : List Var) : List Var → Bool
  | [] => false
  | y :: l => memB y xs || anyB xs l

/-- No factor that is free of the letters `xs` is known to vanish. -/
def alive (nz : Nat → List I → Bool) (xs : List Var) (ρ : Var → I) : List Fac → Bool
  | [] => true
  | f :: fs => (anyB xs f.ix || nz f.t (f.ix.map ρ)) && alive nz xs ρ fs

/-- The products of a sum over letters. -/
def termsOver (L : Nat → List I) (T : Nat → List I → K) (nz : Nat → List I → Bool) (fs : List Fac) : List Var → (Var → I) → List K
  | [], ρ => bif alive nz [] ρ fs then [evalFs T fs ρ] else []
  | x :: xs, ρ => bif alive nz (x :: xs) ρ fs then (L (sp x)).flatMap fun i => termsOver L T nz fs xs (upd ρ x i) else []

/-- The products of a program. -/
def Prog.terms [Inhabited I] (L : Nat → List I) (T : Nat → List I → K) (nz : Nat → List I → Bool) (P : Prog) (xs : List I) : List K :=
  P.flatMap fun b => b.ps.flatMap fun p =>
    (termsOver L T nz b.fs (dums p.2 b.fs) (bnd (fun _ => default) p.2 xs)).map fun v => (p.1 : K) * ((b.c : K) * v)

omit [Field K] in
theorem upd_eq (ρ : Var → I) (x : Var) (i : I) : upd ρ x i = Function.update ρ x i := by
  funext y
  unfold upd
  cases h : Nat.beq y x
  · have : y ≠ x := Nat.ne_of_beq_eq_false h
    rw [Function.update_of_ne this]; rfl
  · have : y = x := Nat.eq_of_beq_eq_true h
    subst this
    rw [Function.update_self]; rfl

theorem bnd_eq (ρ : Var → I) (xs : List Var) (l : List I) : bnd ρ xs l = bind ρ xs l := by
  induction xs generalizing ρ l with
  | nil => simp [bnd, bind]
  | cons x xs ih =>
    cases l with
    | nil => simp [bnd, bind]
    | cons i is => rw [bnd, bind, upd_eq, ih]

theorem memB_iff (x : Var) (l : List Var) : memB x l = true ↔ x ∈ l := by
  induction l with
  | nil => simp [memB]
  | cons y l ih =>
    rw [memB, Bool.or_eq_true, ih, List.mem_cons]
    exact or_congr ⟨Nat.eq_of_beq_eq_true, fun h => by rw [h]; exact Nat.beq_refl y⟩ Iff.rfl

theorem anyB_iff (xs l : List Var) : anyB xs l = true ↔ ∃ y ∈ l, y ∈ xs := by
  induction l with
  | nil => simp [anyB]
  | cons y l ih => rw [anyB, Bool.or_eq_true, ih, memB_iff]; simp

theorem alive_false (nz : Nat → List I → Bool) (xs : List Var) (ρ : Var → I) (fs : List Fac) (h : alive nz xs ρ fs = false) :
    ∃ f ∈ fs, (∀ y ∈ f.ix, y ∉ xs) ∧ nz f.t (f.ix.map ρ) = false := by
  induction fs with
  | nil => cases h
  | cons f fs ih =>
    rw [alive, Bool.and_eq_false_iff] at h
    rcases h with h | h
    · rw [Bool.or_eq_false_iff] at h
      refine ⟨f, List.mem_cons_self, fun y hy hm => ?_, h.2⟩
      rw [(anyB_iff xs f.ix).2 ⟨y, hy, hm⟩] at h
      cases h.1
    · obtain ⟨g, hg, k⟩ := ih h
      exact ⟨g, List.mem_cons_of_mem _ hg, k⟩

theorem sum_products {α : Type} (l : List α) (f : α → List K) : (l.flatMap f).sum = (l.map fun a => (f a).sum).sum := by
  induction l with
  | nil => rfl
  | cons a l ih => rw [List.flatMap_cons, List.sum_append, ih, List.map_cons, List.sum_cons]

theorem sum_map_scaled (l : List K) (a b : K) : (l.map fun v => a * (b * v)).sum = a * (b * l.sum) := by
  induction l with
  | nil => simp
  | cons x l ih => rw [List.map_cons, List.sum_cons, ih, List.sum_cons]; ring

theorem evalFs_dead (T : Nat → List I → K) (fs : List Fac) (ρ : Var → I) (f : Fac) (hf : f ∈ fs) (h : T f.t (f.ix.map ρ) = 0) : evalFs T fs ρ = 0 := by
  induction fs with
  | nil => cases hf
  | cons g fs ih =>
    rcases List.mem_cons.1 hf with rfl | hf
    · rw [evalFs, h, zero_mul]
    · rw [evalFs, ih hf, mul_zero]

theorem sumOver_dead (D : Nat → Finset I) (T : Nat → List I → K) (fs : List Fac) (f : Fac) (hf : f ∈ fs) (xs : List Var) (ρ : Var → I)
    (hx : ∀ y ∈ f.ix, y ∉ xs) (h : T f.t (f.ix.map ρ) = 0) : sumOver D xs (evalFs T fs) ρ = 0 := by
  induction xs generalizing ρ with
  | nil => exact evalFs_dead T fs ρ f hf h
  | cons x xs ih =>
    refine Finset.sum_eq_zero fun i _ => ih _ (fun y hy hm => hx y hy (List.mem_cons_of_mem _ hm)) ?_
    have e : f.ix.map (Function.update ρ x i) = f.ix.map ρ := List.map_congr_left fun y hy =>
      Function.update_of_ne (fun e : y = x => hx y hy (by rw [e]; exact List.mem_cons_self)) _ _
    rw [e, h]

theorem sumOver_terms [DecidableEq I] (D : Nat → Finset I) (L : Nat → List I) (hL : ∀ s, (L s).Nodup ∧ D s = (L s).toFinset)
    (T : Nat → List I → K) (nz : Nat → List I → Bool) (hT : ∀ t l, nz t l = false → T t l = 0) (fs : List Fac) (xs : List Var) (ρ : Var → I) :
    sumOver D xs (evalFs T fs) ρ = (termsOver L T nz fs xs ρ).sum := by
  have dead : ∀ xs ρ, alive nz xs ρ fs = false → sumOver D xs (evalFs T fs) ρ = 0 := by
    intro xs ρ h
    obtain ⟨f, hf, h1, h2⟩ := alive_false nz xs ρ fs h
    exact sumOver_dead D T fs f hf xs ρ h1 (hT _ _ h2)
  induction xs generalizing ρ with
  | nil =>
    unfold termsOver
    cases h : alive nz [] ρ fs
    · exact dead [] ρ h
    · simp [sumOver]
  | cons x xs ih =>
    unfold termsOver
    cases h : alive nz (x :: xs) ρ fs
    · exact dead (x :: xs) ρ h
    · rw [cond_true, sumOver, (hL _).2, List.sum_toFinset _ (hL _).1, sum_products]
      congr 1
      exact List.map_congr_left fun i _ => by rw [ih, upd_eq]

/-- The value of a program is the sum of its products. -/
theorem Prog.eval_terms [DecidableEq I] [Inhabited I] (D : Nat → Finset I) (L : Nat → List I) (hL : ∀ s, (L s).Nodup ∧ D s = (L s).toFinset)
    (T : Nat → List I → K) (nz : Nat → List I → Bool) (hT : ∀ t l, nz t l = false → T t l = 0) (P : Prog) (xs : List I) :
    P.eval D T xs = (P.terms L T nz xs).sum := by
  unfold Prog.eval Prog.terms
  rw [sum_products]
  congr 1
  refine List.map_congr_left fun b _ => ?_
  unfold Blk.eval
  rw [sum_products]
  congr 1
  refine List.map_congr_left fun p _ => ?_
  unfold termVal
  rw [sumOver_terms D L hL T nz hT, sum_map_scaled, bnd_eq]

end Verif.Ein
