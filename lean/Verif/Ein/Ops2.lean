import Verif.Ein.Ops
import Mathlib.Data.Rat.Floor

/-!
# More operations on einsum programs

Replacing a tensor by another one with permuted axes, selecting the terms with given operands, rounding the
coefficients, and exchanging the arrays a program works on.
-/

namespace Verif.Ein

/-- Replace the tensor `t` by the tensor `u` with permuted axes: `t[ix]` is `u[pick p ix]`. -/
def Prog.rep (t u : Nat) (p : List Nat) (P : Prog) : Prog :=
  P.map fun b => ⟨b.c, b.fs.map fun f => if Nat.beq f.t t then ⟨u, pick 0 p f.ix⟩ else f, b.ps⟩

/-- Insert into a sorted list. -/
def insNat (x : Nat) : List Nat → List Nat
  | [] => [x]
  | y :: l => if Nat.blt x y then x :: y :: l else y :: insNat x l

/-- The tensors of a term in ascending order. -/
def signature (fs : List Fac) : List Nat := fs.foldr (fun f l => insNat f.t l) []

/-- The terms whose operands are among the listed ones. -/
def Prog.part (sigs : List (List Nat)) (P : Prog) : Prog := P.filter fun b => sigs.elem (signature b.fs)

/-- The coefficient rounded to the next multiple of 1/2304. -/
def ideal (c : ℚ) : ℚ := (⌊c * 2304 + 1/2⌋ : ℤ) / 2304

/-- The program with rounded coefficients. -/
def Prog.ideal (P : Prog) : Prog := P.map fun b => ⟨Ein.ideal b.c, b.fs, b.ps⟩

/-- Every factor meets a condition. -/
def Prog.allFac (c : Fac → Bool) (P : Prog) : Bool := P.all fun b => b.fs.all c

variable {I K : Type} [Field K] [Inhabited I] (D : Nat → Finset I)

omit [Inhabited I] in
theorem evalFs_congrT (T T' : Nat → List I → K) (fs : List Fac) (ρ : Var → I)
    (h : ∀ f ∈ fs, T f.t (f.ix.map ρ) = T' f.t (f.ix.map ρ)) : evalFs T fs ρ = evalFs T' fs ρ := by
  induction fs with
  | nil => rfl
  | cons f fs ih =>
    simp only [evalFs]
    rw [h f List.mem_cons_self, ih fun g hg => h g (List.mem_cons_of_mem _ hg)]

/-- The value depends only on the arrays that occur. -/
theorem Prog.eval_congrT (T T' : Nat → List I → K) (P : Prog) (c : Fac → Bool) (hP : P.allFac c = true)
    (h : ∀ f, c f = true → ∀ l : List I, l.length = f.ix.length → T f.t l = T' f.t l) (xs : List I) :
    P.eval D T xs = P.eval D T' xs := by
  unfold Prog.eval
  congr 1
  refine List.map_congr_left fun b hb => ?_
  rw [Blk.eval_eq, Blk.eval_eq]
  congr 2
  refine List.map_congr_left fun p _ => ?_
  congr 1
  unfold raw
  congr 1
  funext ρ
  refine evalFs_congrT T T' b.fs ρ fun f hf => h f ?_ _ (by simp)
  simp only [Prog.allFac, List.all_eq_true] at hP
  exact hP b hb f hf

theorem mem_pick (n : Nat) (π : List Nat) (hπ : isPerm n π = true) (w : List Var) (hl : w.length = n) (x : Var) :
    x ∈ pick 0 π w ↔ x ∈ w := by
  simp only [isPerm, Bool.and_eq_true, Nat.beq_eq, List.all_eq_true, List.mem_range, List.elem_eq_mem,
    decide_eq_true_eq] at hπ
  obtain ⟨h1, h2⟩ := hπ
  have hsub : (List.range n).Subperm π := List.subperm_of_subset List.nodup_range fun k hk =>
      h2 k (List.mem_range.1 hk)
  have hp : (List.range n).Perm π := hsub.perm_of_length_le (by simp [h1])
  constructor
  · intro hm
    obtain ⟨k, hk, rfl⟩ := List.mem_map.1 hm
    have := List.mem_range.1 (hp.mem_iff.2 hk)
    rw [List.getD_eq_getElem _ _ (by omega)]
    exact List.getElem_mem _
  · intro hx
    obtain ⟨m, hm, rfl⟩ := List.getElem_of_mem hx
    refine List.mem_map.2 ⟨m, h2 m (by omega), ?_⟩
    rw [List.getD_eq_getElem _ _ hm]

theorem isPerm_lt (n : Nat) (π : List Nat) (hπ : isPerm n π = true) : ∀ k ∈ π, k < n := by
  simp only [isPerm, Bool.and_eq_true, Nat.beq_eq, List.all_eq_true, List.mem_range, List.elem_eq_mem,
    decide_eq_true_eq] at hπ
  obtain ⟨h1, h2⟩ := hπ
  have hsub : (List.range n).Subperm π := List.subperm_of_subset List.nodup_range fun k hk =>
      h2 k (List.mem_range.1 hk)
  have hp : (List.range n).Perm π := hsub.perm_of_length_le (by simp [h1])
  intro k hk
  exact List.mem_range.1 (hp.mem_iff.2 hk)

theorem pick_map {α β : Type} (r : α → β) (d : α) (e : β) (n : Nat) (π : List Nat) (hπ : ∀ k ∈ π, k < n) (w : List α)
    (hl : w.length = n) : pick e π (w.map r) = (pick d π w).map r := by
  unfold pick
  rw [List.map_map]
  refine List.map_congr_left fun k hk => ?_
  have := hπ k hk
  simp only [Function.comp]
  rw [List.getD_eq_getElem _ _ (by simpa using by omega), List.getD_eq_getElem _ _ (by omega), List.getElem_map]

/-- If the array `t` is the array `u` with permuted axes, the replaced program gives the same values. -/
theorem Prog.eval_rep (T : Nat → List I → K) (t u n : Nat) (p : List Nat) (P : Prog) (hp : isPerm n p = true)
    (hP : P.allFac (fun f => !Nat.beq f.t t || Nat.beq f.ix.length n) = true)
    (h : ∀ l : List I, l.length = n → T t l = T u (pick default p l)) (xs : List I) :
    (P.rep t u p).eval D T xs = P.eval D T xs := by
  unfold Prog.eval Prog.rep
  rw [List.map_map]
  congr 1
  refine List.map_congr_left fun b hb => ?_
  simp only [Prog.allFac, List.all_eq_true, Bool.or_eq_true, Bool.not_eq_true', Nat.beq_eq] at hP
  have hP := hP b hb
  simp only [Function.comp]
  rw [Blk.eval_eq, Blk.eval_eq]
  congr 2
  refine List.map_congr_left fun q _ => ?_
  congr 1
  rw [← one_mul (raw D T b.fs q.2 xs)]
  refine raw_congr D T _ _ q.2 xs 1 ?_ ?_
  · intro y
    simp only [mem_vars, List.mem_map]
    constructor
    · rintro ⟨f, hf, hy⟩
      refine ⟨_, ⟨f, hf, rfl⟩, ?_⟩
      split
      · next ht =>
        have := (hP f hf).resolve_left (by simp [ht])
        exact (mem_pick n p hp f.ix this y).2 hy
      · exact hy
    · rintro ⟨_, ⟨f, hf, rfl⟩, hy⟩
      refine ⟨f, hf, ?_⟩
      split at hy
      · next ht =>
        have := (hP f hf).resolve_left (by simp [ht])
        exact (mem_pick n p hp f.ix this y).1 hy
      · exact hy
  · intro ρ
    rw [one_mul]
    clear hb
    revert hP
    generalize b.fs = fs
    intro hP
    induction fs with
    | nil => rfl
    | cons f fs ih =>
      simp only [List.map_cons, evalFs]
      rw [ih fun g hg => hP g (List.mem_cons_of_mem _ hg)]
      congr 1
      split
      · next ht =>
        have hl := (hP f List.mem_cons_self).resolve_left (by simp [ht])
        have ht : f.t = t := by simpa using ht
        rw [ht, h _ (by simpa using hl), pick_map ρ 0 default n p (isPerm_lt n p hp) f.ix hl]
      · rfl

end Verif.Ein
