import Verif.Wick.Symbolic
import Verif.Ein.Anti
import Verif.Ein.Ops2

/-!
# Contracting the output axes of a program with an array
-/

namespace Verif.Wick

open Verif.Ein

section
variable {I M : Type} [AddCommMonoid M] (D : Nat → Finset I)

/-- Sum over all index lists with entries in the given ranges. -/
def boxSum : List Nat → (List I → M) → M
  | [], G => G []
  | s :: ss, G => ∑ i ∈ D s, boxSum ss fun l => G (i :: l)

/-- The entries lie in the given ranges. -/
def InBox (ss : List Nat) (l : List I) : Prop := List.Forall₂ (fun s i => i ∈ D s) ss l

theorem boxSum_congr (ss : List Nat) : ∀ (G G' : List I → M), (∀ l, InBox D ss l → G l = G' l) →
    boxSum D ss G = boxSum D ss G' := by
  induction ss with
  | nil => intro G G' h; exact h [] List.Forall₂.nil
  | cons s ss ih =>
    intro G G' h
    simp only [boxSum]
    exact Finset.sum_congr rfl fun i hi => ih _ _ fun l hl => h (i :: l) (List.Forall₂.cons hi hl)

theorem boxSum_zero (ss : List Nat) : boxSum D ss (fun _ => (0 : M)) = 0 := by
  induction ss with
  | nil => rfl
  | cons s ss ih => simp only [boxSum, ih, Finset.sum_const_zero]

theorem boxSum_add (ss : List Nat) : ∀ G G' : List I → M,
    boxSum D ss (fun l => G l + G' l) = boxSum D ss G + boxSum D ss G' := by
  induction ss with
  | nil => intro G G'; rfl
  | cons s ss ih => intro G G'; simp only [boxSum, ih, Finset.sum_add_distrib]

theorem boxSum_hom {N : Type} [AddCommMonoid N] (φ : M →+ N) (ss : List Nat) : ∀ G : List I → M,
    φ (boxSum D ss G) = boxSum D ss fun l => φ (G l) := by
  induction ss with
  | nil => intro G; rfl
  | cons s ss ih => intro G; simp only [boxSum, map_sum, ih]

theorem boxSum_sum {ι : Type} (ss : List Nat) (s : Finset ι) (G : ι → List I → M) :
    boxSum D ss (fun l => ∑ x ∈ s, G x l) = ∑ x ∈ s, boxSum D ss (G x) := by
  classical
  induction s using Finset.induction_on with
  | empty => simp [boxSum_zero]
  | insert x s hx ih =>
    rw [Finset.sum_insert hx, ← ih, ← boxSum_add]
    exact boxSum_congr D ss _ _ fun l _ => Finset.sum_insert hx

theorem boxSum_list {α : Type} (ss : List Nat) (s : List α) (G : α → List I → M) :
    boxSum D ss (fun l => (s.map fun x => G x l).sum) = (s.map fun x => boxSum D ss (G x)).sum := by
  induction s with
  | nil => simp [boxSum_zero]
  | cons x s ih => simp only [List.map_cons, List.sum_cons, boxSum_add, ih]

theorem boxSum_single [DecidableEq I] (ss : List Nat) : ∀ (y : List I), InBox D ss y → ∀ G : List I → M,
    boxSum D ss (fun l => if l = y then G l else 0) = G y := by
  induction ss with
  | nil => intro y hy G; cases hy; simp [boxSum]
  | cons s ss ih =>
    intro y hy G
    cases hy with
    | cons hi hy =>
      rename_i i y
      simp only [boxSum, List.cons.injEq]
      rw [Finset.sum_eq_single i]
      · have := ih y hy fun l => G (i :: l)
        simpa using this
      · intro j _ hj
        rw [boxSum_congr D ss _ (fun _ => 0) fun l _ => by simp [hj], boxSum_zero]
      · intro h; exact absurd hi h

/-- A sum over letters, as a sum over index lists. -/
theorem sumM_box (u : List Var) : ∀ (w : List Var) (xs : List I) (ρ₀ : Var → I) (H : List I → (Var → I) → M),
    (w ++ u).Nodup → xs.length = w.length →
    sumM D u (fun ρ => H (u.map ρ) ρ) (bind ρ₀ w xs) =
      boxSum D (u.map sp) fun l => H l (bind ρ₀ (w ++ u) (xs ++ l)) := by
  induction u with
  | nil => intro w xs ρ₀ H _ _; simp [sumM, boxSum]
  | cons v u ih =>
    intro w xs ρ₀ H hn hx
    simp only [sumM, List.map_cons, boxSum]
    refine Finset.sum_congr rfl fun i _ => ?_
    have h1 : Function.update (bind ρ₀ w xs) v i = bind ρ₀ (w ++ [v]) (xs ++ [i]) := by
      rw [bind_append w [v] ρ₀ xs [i] hx]; rfl
    have hn' : ((w ++ [v]) ++ u).Nodup := by simpa using hn
    have hv : v ∉ u := by
      have := (List.nodup_append.1 hn).2.1
      exact (List.nodup_cons.1 this).1
    have h2 := ih (w ++ [v]) (xs ++ [i]) ρ₀ (fun l ρ => H (i :: l) ρ) hn' (by simp [hx])
    simp only [List.append_assoc, List.cons_append, List.nil_append] at h2
    rw [h1, ← h2]
    refine sumM_congr D u _ _ _ (List.nodup_cons.1 (List.nodup_append.1 hn).2.1).2 fun ρ hr => ?_
    have : ρ v = i := by
      rw [hr.2 v hv, bind_append w [v] ρ₀ xs [i] hx]
      simp [Ein.bind]
    rw [this]

end

variable {I K : Type} [Field K]

/-- The last axes of the result of a program, from axis `n` on, contracted with the array `t`. -/
def _root_.Verif.Ein.Prog.cap (n t : Nat) (P : Prog) : Prog :=
  P.flatMap fun b => b.ps.map fun p => ⟨b.c, ⟨t, p.2.drop n⟩ :: b.fs, [(p.1, p.2.take n)]⟩

/-- The output letters of every statement are distinct, and those from axis `n` on have the ranges `ss`. -/
def _root_.Verif.Ein.Prog.capOk (n : Nat) (ss : List Nat) (P : Prog) : Bool :=
  P.all fun b => b.ps.all fun p => decide p.2.Nodup && decide ((p.2.drop n).map sp = ss) && decide (n ≤ p.2.length)

variable [Inhabited I] (D : Nat → Finset I) (T : Nat → List I → K)

theorem raw_cap (t : Nat) (fs : List Fac) (w u : List Var) (hn : (w ++ u).Nodup) (xs : List I) (hx : xs.length = w.length) :
    raw D T (⟨t, u⟩ :: fs) w xs = boxSum D (u.map sp) fun l => T t l * raw D T fs (w ++ u) (xs ++ l) := by
  have hd := List.nodup_append.1 hn
  have hp : (dums w (⟨t, u⟩ :: fs)).Perm (u ++ dums (w ++ u) fs) := by
    refine (List.perm_ext_iff_of_nodup (nodup_dums _ _) ?_).2 ?_
    · refine List.nodup_append.2 ⟨hd.2.1, nodup_dums _ _, ?_⟩
      rintro a ha b hb rfl
      exact ((mem_dums _ _ _).1 hb).2 (List.mem_append.2 (Or.inr ha))
    · intro v
      have hv : v ∈ vars (⟨t, u⟩ :: fs) ↔ v ∈ u ∨ v ∈ vars fs := mem_varsIx u (vars fs) v
      rw [mem_dums, hv, List.mem_append, mem_dums, List.mem_append]
      constructor
      · rintro ⟨h | h, hw⟩
        · exact Or.inl h
        · by_cases hu : v ∈ u
          · exact Or.inl hu
          · exact Or.inr ⟨h, by simp [hw, hu]⟩
      · rintro (h | ⟨h, hw⟩)
        · exact ⟨Or.inl h, fun hm => hd.2.2 v hm v h rfl⟩
        · exact ⟨Or.inr h, fun hm => hw (Or.inl hm)⟩
  unfold raw
  rw [sumM_eq, sumM_perm D hp _ _ (nodup_dums _ _), sumM_append]
  have h1 : sumM D u (sumM D (dums (w ++ u) fs) (evalFs T (⟨t, u⟩ :: fs))) (bind (fun _ => default) w xs) =
      sumM D u (fun ρ => (fun l ρ => T t l * sumM D (dums (w ++ u) fs) (evalFs T fs) ρ) (u.map ρ) ρ)
        (bind (fun _ => default) w xs) := by
    refine sumM_congr D u _ _ _ hd.2.1 fun ρ _ => ?_
    show _ = AddMonoidHom.mulLeft (T t (u.map ρ)) _
    rw [sumM_hom]
    refine sumM_congr D _ _ _ _ (nodup_dums _ _) fun ρ' hr => ?_
    have : u.map ρ' = u.map ρ := by
      refine List.map_congr_left fun v hv => hr.2 v ?_
      intro hm
      exact ((mem_dums _ _ _).1 hm).2 (List.mem_append.2 (Or.inr hv))
    simp only [evalFs, AddMonoidHom.coe_mulLeft, this]
  rw [h1, sumM_box D u w xs _ (fun l ρ => T t l * sumM D (dums (w ++ u) fs) (evalFs T fs) ρ) hn hx]
  simp only [sumM_eq]

/-- The value of a contracted program. -/
theorem Prog.eval_cap (n t : Nat) (ss : List Nat) (P : Prog) (hP : P.capOk n ss = true) (xs : List I) (hx : xs.length = n) :
    (P.cap n t).eval D T xs = boxSum D ss fun l => T t l * P.eval D T (xs ++ l) := by
  induction P with
  | nil => simp [Ein.Prog.cap, Prog.eval, boxSum_zero]
  | cons b P ih =>
    have e : Ein.Prog.cap n t (b :: P) =
      (b.ps.map fun p => ⟨b.c, ⟨t, p.2.drop n⟩ :: b.fs, [(p.1, p.2.take n)]⟩) ++ Ein.Prog.cap n t P := by
      simp [Ein.Prog.cap]
    unfold Ein.Prog.capOk at hP ih
    rw [List.all_cons, Bool.and_eq_true] at hP
    rw [e, Prog.eval_append, ih hP.2]
    simp only [Prog.eval_cons, mul_add]
    rw [boxSum_add]
    congr 1
    unfold Prog.eval Blk.eval
    rw [List.map_map]
    simp only [← List.sum_map_mul_left]
    rw [boxSum_list]
    congr 1
    refine List.map_congr_left fun p hp => ?_
    have h := List.all_eq_true.1 hP.1 p hp
    simp only [Bool.and_eq_true, decide_eq_true_eq] at h
    obtain ⟨⟨h1, h2⟩, h3⟩ := h
    have h4 : (p.2.take n ++ p.2.drop n).Nodup := by rw [List.take_append_drop]; exact h1
    have h5 : xs.length = (p.2.take n).length := by rw [hx, List.length_take]; omega
    have h6 := raw_cap D T t b.fs (p.2.take n) (p.2.drop n) h4 xs h5
    rw [List.take_append_drop, h2] at h6
    simp only [Function.comp, List.map_cons, List.map_nil, List.sum_cons, List.sum_nil, add_zero, termVal]
    unfold raw at h6
    rw [h6, ← mul_assoc]
    show AddMonoidHom.mulLeft ((p.1 : K) * (b.c : K)) _ = _
    rw [boxSum_hom]
    refine boxSum_congr D ss _ _ fun l _ => ?_
    simp only [AddMonoidHom.coe_mulLeft]
    ring

end Verif.Wick
