import Verif.Wick.Expect
import Verif.Wick.Grade
import Mathlib.Algebra.Algebra.Bilinear
import Mathlib.Data.Nat.Choose.Sum
import Mathlib.Algebra.BigOperators.Intervals
import Mathlib.Tactic.FieldSimp

/-!
# Commutators with cluster operators

Cluster operators contain quasi-particle creators only. The commutator of an operator with a cluster operator is the sum
of all terms with a contraction between the two, which keeps only connected terms.
-/

namespace Verif.Wick

open Verif.Ein

variable {I K A : Type} [DecidableEq I] [Field K] [Ring A] [Algebra K A] {D : Nat → Finset I} (F : Fermi I K A D)

/-- All ways to single out an element of a list. -/
def splits {α : Type} : List α → List (List α × α × List α)
  | [] => []
  | y :: l => ([], y, l) :: (splits l).map fun p => (y :: p.1, p.2.1, p.2.2)

theorem mem_splits {α : Type} (l : List α) : ∀ p ∈ splits l, l = p.1 ++ p.2.1 :: p.2.2 := by
  induction l with
  | nil => simp [splits]
  | cons y l ih =>
    intro p hp
    simp only [splits, List.mem_cons, List.mem_map] at hp
    rcases hp with rfl | ⟨q, hq, rfl⟩
    · rfl
    · rw [List.cons_append, ← ih q hq]

theorem splits_map {α β : Type} (f : α → β) (l : List α) :
    splits (l.map f) = (splits l).map fun p => (p.1.map f, f p.2.1, p.2.2.map f) := by
  induction l with
  | nil => rfl
  | cons y l ih => simp [splits, ih, Function.comp_def]

theorem Fermi.prod_append (l l' : List (Bool × I)) : F.prod (l ++ l') = F.prod l * F.prod l' := by simp [Fermi.prod]

theorem Fermi.prod_cons (x : Bool × I) (l : List (Bool × I)) : F.prod (x :: l) = F.op x * F.prod l := by simp [Fermi.prod]

/-- The commutator with an even product. -/
theorem Fermi.prod_comm (l t : List (Bool × I)) (ht : Even t.length) :
    F.prod l * F.prod t = F.prod t * F.prod l + ((splits l).map fun p => ((picks t).map fun q =>
      (sg q.1 * acc p.2.1 q.2.1 : K) • F.prod (p.1 ++ q.2.2 ++ p.2.2)).sum).sum := by
  induction l with
  | nil => simp [Fermi.prod, splits]
  | cons y l ih =>
    have hm := F.move y t
    rw [ht.neg_one_pow, one_smul] at hm
    rw [F.prod_cons, mul_assoc, ih, mul_add, ← mul_assoc, hm, add_mul, splits, List.map_cons, List.sum_cons, List.map_map]
    have h1 : ((picks t).map fun q => (sg q.1 * acc y q.2.1 : K) • F.prod q.2.2).sum * F.prod l =
        ((picks t).map fun q => (sg q.1 * acc y q.2.1 : K) • F.prod ([] ++ q.2.2 ++ l)).sum := by
      rw [← List.sum_map_mul_right]
      congr 1
      refine List.map_congr_left fun q _ => ?_
      rw [List.nil_append, F.prod_append, smul_mul_assoc]
    have h2 : F.op y * ((splits l).map fun p => ((picks t).map fun q =>
        (sg q.1 * acc p.2.1 q.2.1 : K) • F.prod (p.1 ++ q.2.2 ++ p.2.2)).sum).sum =
        ((splits l).map ((fun p => ((picks t).map fun q => (sg q.1 * acc p.2.1 q.2.1 : K) •
          F.prod (p.1 ++ q.2.2 ++ p.2.2)).sum) ∘ fun p => (y :: p.1, p.2.1, p.2.2))).sum := by
      rw [← List.sum_map_mul_left]
      congr 1
      refine List.map_congr_left fun p _ => ?_
      simp only [Function.comp]
      rw [← List.sum_map_mul_left]
      congr 1
      refine List.map_congr_left fun q _ => ?_
      rw [List.cons_append, List.cons_append, F.prod_cons, mul_smul_comm]
    rw [h1, h2, mul_assoc]
    abel

/-- Commutator of a term with a term of a cluster operator. -/
noncomputable def OpTerm.comm (s t : OpTerm) : OpProg :=
  (splits s.ops).flatMap fun p => cif (isQ p.2.1) ((runs nul t.ops).flatMap fun r => cif (canC p.2.1 r.2.2.1)
    [⟨(if r.2.1 then -1 else 1) * (r.1 * (s.k * t.k)), subst r.2.2.1.2 p.2.1.2 (s.fs ++ t.fs), p.1 ++ r.2.2.2 ++ p.2.2⟩]
    []) []

/-- What is needed of a term of a cluster operator. -/
structure Exc (T : Nat → List I → K) (w : List Var) (t : OpTerm) : Prop where
  even : Even t.ops.length
  nodup : (t.ops.map Prod.snd).Nodup
  known : ∀ x ∈ t.ops, x.2 ∈ vars t.fs
  fresh : ∀ x ∈ t.ops, x.2 ∉ w
  creator : ∀ x ∈ t.ops, isQ x = false
  sw : ∀ z ∈ t.ops, ∀ z' ∈ t.ops, z ≠ z' → eqv z z' = true → Sw T t.fs z.2 z'.2

/-- What is needed of any term. -/
structure Known (w : List Var) (s : OpTerm) : Prop where
  nodup : (s.ops.map Prod.snd).Nodup
  known : ∀ x ∈ s.ops, x.2 ∈ w ∨ x.2 ∈ vars s.fs

variable [Inhabited I]

theorem OpTerm.val_comm (hD : Disjoint (D 0) (D 1)) (T : Nat → List I → K) (w : List Var) (xs : List I)
    (hxs : ∀ v ∈ w, bind (fun _ => default) w xs v ∈ D (sp v)) (hw : ∀ v ∈ w, v < 64) (s t : OpTerm)
    (ha : s.apart w t = true) (hs : Known w s) (ht : Exc T w t) :
    OpProg.val F T w xs (s.comm t) = s.val F T w xs * t.val F T w xs - t.val F T w xs * s.val F T w xs := by
  have ha' := ha
  simp only [OpTerm.apart, Bool.and_eq_true, List.all_eq_true, Bool.not_eq_true', List.elem_eq_mem,
    decide_eq_false_iff_not] at ha'
  obtain ⟨h1, h2⟩ := ha'
  have hat : t.apart w s = true := by
    unfold OpTerm.apart at ha ⊢
    rw [Bool.and_comm]
    exact ha
  rw [eq_sub_iff_add_eq, ← s.val_mul F T w xs t ha, ← t.val_mul F T w xs s hat]
  set fs := s.fs ++ t.fs with hfs
  have hvars : ∀ v, v ∈ vars fs ↔ v ∈ vars s.fs ∨ v ∈ vars t.fs := fun v => vars_append _ _ v
  -- the reversed product over the same letters
  have hrev : (t.mul s).val F T w xs = ((s.k * t.k : ℤ) : K) • sumM D (dums w fs) (fun ρ => evalFs T fs ρ •
      (F.prod (inst ρ t.ops) * F.prod (inst ρ s.ops))) (bind (fun _ => default) w xs) := by
    have hp : (dums w (t.fs ++ s.fs)).Perm (dums w fs) := by
      refine (List.perm_ext_iff_of_nodup (nodup_dums _ _) (nodup_dums _ _)).2 fun v => ?_
      rw [mem_dums, mem_dums, vars_append, hvars]
      tauto
    unfold OpTerm.val OpTerm.mul
    simp only
    rw [sumM_perm D hp _ _ (nodup_dums _ _), show Int.mul t.k s.k = t.k * s.k from rfl, mul_comm t.k]
    congr 2
    funext ρ
    rw [evalFs_append, hfs, evalFs_append, mul_comm (evalFs T t.fs ρ)]
    congr 1
    rw [← F.prod_append]
    simp [inst]
  have hfwd : (s.mul t).val F T w xs = ((s.k * t.k : ℤ) : K) • sumM D (dums w fs) (fun ρ => evalFs T fs ρ •
      (F.prod (inst ρ s.ops) * F.prod (inst ρ t.ops))) (bind (fun _ => default) w xs) := by
    unfold OpTerm.val OpTerm.mul
    simp only
    rw [show Int.mul s.k t.k = s.k * t.k from rfl]
    congr 2
    funext ρ
    congr 1
    rw [← F.prod_append]
    simp [inst]
  rw [hrev, hfwd]
  have hpt : ∀ ρ : Var → I, evalFs T fs ρ • (F.prod (inst ρ s.ops) * F.prod (inst ρ t.ops)) =
      evalFs T fs ρ • (F.prod (inst ρ t.ops) * F.prod (inst ρ s.ops)) +
      ((splits s.ops).map fun p => ((picks t.ops).map fun q => (evalFs T fs ρ * (sg q.1 *
        acc (p.2.1.1, ρ p.2.1.2) (q.2.1.1, ρ q.2.1.2))) • (LinearMap.id : A →ₗ[K] A)
        (F.prod (inst ρ (p.1 ++ q.2.2 ++ p.2.2)))).sum).sum := by
    intro ρ
    rw [F.prod_comm _ _ (by simpa [inst] using ht.even), smul_add]
    congr 1
    unfold inst
    rw [splits_map, picks_map, List.map_map, List.smul_sum, List.map_map]
    congr 1
    refine List.map_congr_left fun p _ => ?_
    simp only [Function.comp]
    rw [List.smul_sum, List.map_map, List.map_map]
    congr 1
    refine List.map_congr_left fun q _ => ?_
    simp only [Function.comp, LinearMap.id_apply, List.map_append]
    rw [smul_smul]
  simp only [hpt]
  rw [sumM_add, smul_add, add_comm]
  congr 1
  rw [sumM_list]
  have hsw : ∀ z ∈ t.ops, ∀ z' ∈ t.ops, z ≠ z' → eqv z z' = true → Sw T fs z.2 z'.2 := by
    intro z hz z' hz' hne he ρ
    rw [hfs, evalFs_append, evalFs_append, ht.sw z hz z' hz' hne he ρ]
    have : evalFs T s.fs (ρ ∘ Equiv.swap z.2 z'.2) = evalFs T s.fs ρ := by
      refine evalFs_congr T s.fs _ _ fun v hv => ?_
      have hzd : z.2 ∈ dums w t.fs := (mem_dums _ _ _).2 ⟨ht.known z hz, ht.fresh z hz⟩
      have hzd' : z'.2 ∈ dums w t.fs := (mem_dums _ _ _).2 ⟨ht.known z' hz', ht.fresh z' hz'⟩
      simp only [Function.comp]
      rw [Equiv.swap_apply_of_ne_of_ne]
      · rintro rfl; exact (h2 _ hzd).1 hv
      · rintro rfl; exact (h2 _ hzd').1 hv
    rw [this]
    ring
  have hdisj : ∀ x ∈ s.ops, ∀ y ∈ t.ops, x.2 ≠ y.2 := by
    intro x hx y hy e
    have hyd : y.2 ∈ dums w t.fs := (mem_dums _ _ _).2 ⟨ht.known y hy, ht.fresh y hy⟩
    exact (h2 _ hyd).2 (List.mem_map.2 ⟨x, hx, e⟩)
  unfold OpProg.val OpTerm.comm
  rw [map_sum_flatMap, List.smul_sum, List.map_map]
  congr 1
  refine List.map_congr_left fun p hp => ?_
  have hsp := mem_splits s.ops p hp
  have hmem : ∀ y, y ∈ p.2.1 :: (p.1 ++ t.ops ++ p.2.2) → y ∈ s.ops ∨ y ∈ t.ops := by
    intro y hy
    rw [hsp]
    simp only [List.mem_cons, List.mem_append] at hy ⊢
    tauto
  simp only [Function.comp]
  rw [contract F hD T w xs hxs hw LinearMap.id p.2.1 p.1 t.ops p.2.2 fs]
  · cases hq : isQ p.2.1 with
    | false =>
      simp only [cif_false, List.map_nil, List.sum_nil]
      have : ((runs nul t.ops).map fun r => r.1 • cif (canC p.2.1 r.2.2.1) ((sg r.2.1 : K) •
          vv F T w xs LinearMap.id (subst r.2.2.1.2 p.2.1.2 fs) (p.1 ++ r.2.2.2 ++ p.2.2)) 0).sum = 0 := by
        refine List.sum_eq_zero fun y hy => ?_
        obtain ⟨r, hr, rfl⟩ := List.mem_map.1 hy
        have hc : canC p.2.1 r.2.2.1 = false := by
          by_contra h
          rw [Bool.not_eq_false] at h
          obtain ⟨hc1, hc2⟩ := (canC_iff _ _).1 h
          have hz := ht.creator r.2.2.1 ((mem_picks _ _ (mem_runs _ nul _ hr)).mem_iff.2 List.mem_cons_self)
          rw [isQ_eq, decide_eq_false_iff_not] at hz hq
          rw [← hc2] at hz
          rcases sp_cases p.2.1.2 with h | h <;> rw [h] at hz hq <;> cases hx : p.2.1.1 <;> cases hy : r.2.2.1.1 <;>
            simp [hx, hy] at hz hq hc1
        rw [hc, cif_false, smul_zero]
      rw [this, smul_zero]
    | true =>
      rw [cif_true, map_sum_flatMap, List.smul_sum, List.map_map]
      congr 1
      refine List.map_congr_left fun r hr => ?_
      simp only [Function.comp]
      cases hc : canC p.2.1 r.2.2.1 with
      | false => simp
      | true =>
        simp only [cif_true, List.map_cons, List.map_nil, List.sum_cons, List.sum_nil, add_zero, OpTerm.val]
        rw [← Nat.cast_smul_eq_nsmul K, smul_smul, smul_smul]
        unfold vv
        simp only [LinearMap.id_apply]
        congr 1
        push_cast
        cases r.2.1 <;> simp [sg] <;> ring
  · have hperm : (p.2.1 :: (p.1 ++ t.ops ++ p.2.2)).Perm (s.ops ++ t.ops) := by
      rw [hsp]
      simp only [List.append_assoc, List.cons_append]
      refine List.Perm.trans ?_ List.perm_middle.symm
      refine List.Perm.cons _ (List.Perm.append_left _ List.perm_append_comm)
    rw [(hperm.map Prod.snd).nodup_iff, List.map_append, List.nodup_append]
    refine ⟨hs.nodup, ht.nodup, ?_⟩
    intro a ha b hb e
    obtain ⟨x, hx, rfl⟩ := List.mem_map.1 ha
    obtain ⟨y, hy, rfl⟩ := List.mem_map.1 hb
    exact hdisj x hx y hy e
  · intro y hy
    rw [hvars]
    rcases hmem y hy with h | h
    · rcases hs.known y h with h | h
      · exact Or.inl h
      · exact Or.inr (Or.inl h)
    · exact Or.inr (Or.inr (ht.known y h))
  · intro z hz _
    exact ht.fresh z hz
  · exact hsw

end Verif.Wick
