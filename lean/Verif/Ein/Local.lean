import Verif.Wick.Box

/-!
# The value of a program depends only on the slices it reads

Every operand of an einsum is read at orbitals of the ranges of its letters. So two sets of arrays that agree there give
the same result.
-/

namespace Verif.Ein

open Verif.Wick (InBox)

/-- The output axes have the given ranges. -/
def Prog.outSp (ss : List Nat) (P : Prog) : Bool := P.all fun b => b.ps.all fun p => decide (p.2.map sp = ss)

variable {I K : Type} [Field K] (D : Nat → Finset I)

theorem bind_range (w : List Var) : ∀ (ρ : Var → I) (xs : List I), InBox D (w.map sp) xs →
    ∀ v, (v ∈ w ∨ ρ v ∈ D (sp v)) → bind ρ w xs v ∈ D (sp v) := by
  induction w with
  | nil =>
    intro ρ xs h v hv
    rcases hv with hv | hv
    · simp at hv
    · cases xs <;> exact hv
  | cons x w ih =>
    intro ρ xs h v hv
    cases xs with
    | nil => cases h
    | cons i is =>
      rw [List.map_cons] at h
      cases h with
      | cons h1 h2 =>
        simp only [bind]
        refine ih _ is h2 v ?_
        by_cases hw : v ∈ w
        · exact Or.inl hw
        · right
          by_cases hx : v = x
          · subst hx; rw [Function.update_self]; exact h1
          · rw [Function.update_of_ne hx]
            rcases hv with hv | hv
            · rcases List.mem_cons.1 hv with h | h
              · exact absurd h hx
              · exact absurd h hw
            · exact hv

theorem sumOver_range (f f' : (Var → I) → K) (L : List Var) : ∀ (V : List Var) (ρ : Var → I),
    (∀ v ∈ V, v ∈ L ∨ ρ v ∈ D (sp v)) → (∀ ρ' : Var → I, (∀ v ∈ V, ρ' v ∈ D (sp v)) → f ρ' = f' ρ') →
    sumOver D L f ρ = sumOver D L f' ρ := by
  induction L with
  | nil => intro V ρ hV h; exact h ρ fun v hv => by simpa using hV v hv
  | cons x L ih =>
    intro V ρ hV h
    simp only [sumOver]
    refine Finset.sum_congr rfl fun i hi => ih V _ (fun v hv => ?_) h
    by_cases hx : v = x
    · subst hx; right; rw [Function.update_self]; exact hi
    · rw [Function.update_of_ne hx]
      rcases hV v hv with h | h
      · rcases List.mem_cons.1 h with h | h
        · exact absurd h hx
        · exact Or.inl h
      · exact Or.inr h

theorem mem_vars_of_fac {f : Fac} {fs : List Fac} (hf : f ∈ fs) {v : Var} (hv : v ∈ f.ix) : v ∈ vars fs := by
  induction fs with
  | nil => simp at hf
  | cons g fs ih =>
    show v ∈ varsIx g.ix (vars fs)
    rw [mem_varsIx]
    rcases List.mem_cons.1 hf with rfl | h
    · exact Or.inl hv
    · exact Or.inr (ih h)

theorem inBox_map (ρ : Var → I) (ix : List Var) (h : ∀ v ∈ ix, ρ v ∈ D (sp v)) : InBox D (ix.map sp) (ix.map ρ) := by
  induction ix with
  | nil => exact List.Forall₂.nil
  | cons x ix ih =>
    exact List.Forall₂.cons (h x List.mem_cons_self) (ih fun v hv => h v (List.mem_cons_of_mem _ hv))

/-- Arrays that agree on the slices read by the program give the same entries. -/
theorem Prog.eval_local [Inhabited I] (T T' : Nat → List I → K) (P : Prog) (c : Fac → Bool) (hP : P.allFac c = true)
    (h : ∀ f, c f = true → ∀ l : List I, InBox D (f.ix.map sp) l → T f.t l = T' f.t l)
    (ss : List Nat) (ho : P.outSp ss = true) (xs : List I) (hx : InBox D ss xs) :
    P.eval D T xs = P.eval D T' xs := by
  unfold Prog.eval
  congr 1
  refine List.map_congr_left fun b hb => ?_
  rw [Blk.eval_eq, Blk.eval_eq]
  congr 2
  refine List.map_congr_left fun p hp => ?_
  congr 1
  unfold raw
  simp only [Prog.outSp, List.all_eq_true, decide_eq_true_eq] at ho
  simp only [Prog.allFac, List.all_eq_true] at hP
  refine sumOver_range D _ _ _ (vars b.fs) _ (fun v hv => ?_) fun ρ' hρ => ?_
  · by_cases hw : v ∈ p.2
    · exact Or.inr (bind_range D p.2 _ xs (by rw [ho b hb p hp]; exact hx) v (Or.inl hw))
    · exact Or.inl ((mem_dums _ _ _).2 ⟨hv, hw⟩)
  · refine evalFs_congrT T T' b.fs ρ' fun f hf => ?_
    exact h f (hP b hb f hf) _ (inBox_map D ρ' f.ix fun v hv => hρ v (mem_vars_of_fac hf hv))

end Verif.Ein
