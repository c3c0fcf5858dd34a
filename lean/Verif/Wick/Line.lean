import Verif.Wick.Symbolic
import Mathlib.Logic.Equiv.Basic
import Mathlib.Algebra.Module.LinearMap.Defs

/-!
# Contractions with equivalent lines

The operators of one cluster operator are equivalent: contracting with the second creation operator gives the same as
contracting with the first. Only the first of a run of equivalent operators is contracted, with the length of the run as
weight. Letters from 64 on, 16 per operator, belong to cluster operators.
-/

namespace Verif.Wick

open Verif.Ein

/-- Operators of the same cluster operator and of the same kind. -/
noncomputable def eqv (y z : Bool × Var) : Bool :=
  cif (Nat.ble 64 y.2) (cif (Nat.beq (Nat.div y.2 16) (Nat.div z.2 16))
    (cif (Nat.beq (Nat.land y.2 1) (Nat.land z.2 1)) (cif y.1 z.1 (cif z.1 false true)) false) false) false

theorem eqv_iff (y z : Bool × Var) : eqv y z = true ↔
    64 ≤ y.2 ∧ 64 ≤ z.2 ∧ y.2 / 16 = z.2 / 16 ∧ sp y.2 = sp z.2 ∧ y.1 = z.1 := by
  have h1 : ∀ v : Nat, Nat.land v 1 = sp v := fun v => Nat.and_one_is_mod v
  have h2 : ∀ v : Nat, Nat.div v 16 = v / 16 := fun v => rfl
  unfold eqv
  rw [cif_and, cif_and, cif_and, Nat.ble_eq, Nat.beq_eq, Nat.beq_eq, h1, h1, h2, h2]
  have h3 : cif y.1 z.1 (cif z.1 false true) = true ↔ y.1 = z.1 := by
    cases y.1 <;> cases z.1 <;> simp
  rw [h3]
  constructor
  · rintro ⟨a, b, c, d⟩
    refine ⟨a, ?_, b, c, d⟩
    change (64 : Nat) ≤ y.2 at a
    change (64 : Nat) ≤ z.2
    have b' : (y.2 : Nat) / 16 = (z.2 : Nat) / 16 := b
    omega
  · rintro ⟨a, _, b, c, d⟩
    exact ⟨a, b, c, d⟩

/-- Length of the run of operators equivalent to `y` at the beginning of a list. -/
noncomputable def runLen (y : Bool × Var) (l : List (Bool × Var)) : Nat :=
  List.rec (motive := fun _ => (Bool × Var) → Nat) (fun _ => 0)
    (fun z _ ih y => cif (eqv y z) (Nat.succ (ih z)) 0) l y

/-- Every way to take one element out of a list, the first of every run only, with the length of the run; `y` stands
before the list. -/
noncomputable def runs (y : Bool × Var) : List (Bool × Var) → List (Nat × Bool × (Bool × Var) × List (Bool × Var))
  | [] => []
  | z :: l => cif (eqv y z) [] [(Nat.succ (runLen z l), false, z, l)] ++
      (runs z l).map fun r => (r.1, !r.2.1, r.2.2.1, z :: r.2.2.2)

/-- No operator is equivalent to this one. -/
def nul : Bool × Var := (false, 0)

theorem runLen_nil (y : Bool × Var) : runLen y [] = 0 := rfl

theorem runLen_cons (y z : Bool × Var) (l : List (Bool × Var)) :
    runLen y (z :: l) = cif (eqv y z) (runLen z l + 1) 0 := rfl

/-- The value at the first pick of a list. -/
def firstPick {M : Type} [Zero M] (C : Bool × (Bool × Var) × List (Bool × Var) → M) : List (Bool × Var) → M
  | [] => 0
  | z :: l => C (false, z, l)

theorem runs_sum {M : Type} [AddCommMonoid M] (l : List (Bool × Var)) : ∀ (y : Bool × Var)
    (C : Bool × (Bool × Var) × List (Bool × Var) → M),
    (∀ l₁ z z' l₂ b, l = l₁ ++ z :: z' :: l₂ → eqv z z' = true → C (b, z, l₁ ++ z' :: l₂) = C (!b, z', l₁ ++ z :: l₂)) →
    ((runs y l).map fun r => r.1 • C r.2).sum + runLen y l • firstPick C l = ((picks l).map C).sum := by
  induction l with
  | nil => intro y C _; simp [runs, picks, firstPick]
  | cons z l ih =>
    intro y C hC
    have h1 := ih z (fun p => C (!p.1, p.2.1, z :: p.2.2)) fun l₁ u u' l₂ b hl hu => by
      have := hC (z :: l₁) u u' l₂ (!b) (by rw [hl]; rfl) hu
      simpa using this
    have h2 : runLen z l • firstPick (fun p => C (!p.1, p.2.1, z :: p.2.2)) l = runLen z l • C (false, z, l) := by
      cases l with
      | nil => simp [runLen_nil]
      | cons u l =>
        rw [runLen_cons]
        cases hu : eqv z u with
        | false => simp
        | true =>
          simp only [firstPick, Bool.not_false]
          exact congrArg _ (hC [] z u l false rfl hu).symm
    rw [h2] at h1
    simp only [picks, List.map_cons, List.sum_cons, List.map_map, runs, List.map_append, List.sum_append]
    have h3 : ((runs z l).map ((fun r => r.1 • C r.2) ∘ fun r => (r.1, !r.2.1, r.2.2.1, z :: r.2.2.2))).sum =
        ((runs z l).map fun r => r.1 • C (!r.2.1, r.2.2.1, z :: r.2.2.2)).sum := rfl
    have h4 : ((picks l).map (C ∘ fun p => (!p.1, p.2.1, z :: p.2.2))).sum =
        ((picks l).map fun p => C (!p.1, p.2.1, z :: p.2.2)).sum := rfl
    rw [h3, h4, ← h1, runLen_cons]
    cases hy : eqv y z with
    | true =>
      simp only [cif_true, List.map_nil, List.sum_nil, zero_add, firstPick]
      rw [add_smul, one_smul]
      abel
    | false =>
      simp only [cif_false, List.map_cons, List.map_nil, List.sum_cons, List.sum_nil, add_zero, firstPick, zero_smul]
      rw [Nat.succ_eq_add_one, add_smul, one_smul]
      abel

theorem runs_nul {M : Type} [AddCommMonoid M] (l : List (Bool × Var)) (C : Bool × (Bool × Var) × List (Bool × Var) → M)
    (hC : ∀ l₁ z z' l₂ b, l = l₁ ++ z :: z' :: l₂ → eqv z z' = true →
      C (b, z, l₁ ++ z' :: l₂) = C (!b, z', l₁ ++ z :: l₂)) :
    ((runs nul l).map fun r => r.1 • C r.2).sum = ((picks l).map C).sum := by
  rw [← runs_sum l nul C hC]
  cases l with
  | nil => simp [runLen_nil]
  | cons z l =>
    have : eqv nul z = false := rfl
    rw [runLen_cons, this]; simp

theorem mem_runs (l : List (Bool × Var)) : ∀ y, ∀ r ∈ runs y l, r.2 ∈ picks l := by
  induction l with
  | nil => intro y r hr; simp [runs] at hr
  | cons z l ih =>
    intro y r hr
    simp only [runs, List.mem_append, List.mem_map] at hr
    simp only [picks, List.mem_cons, List.mem_map]
    rcases hr with hr | ⟨q, hq, rfl⟩
    · cases h : eqv y z with
      | true => simp [h] at hr
      | false => simp [h] at hr; left; rw [hr]
    · exact Or.inr ⟨q.2, ih z q hq, rfl⟩

/-! ## exchanging two summed letters -/

section
variable {I M : Type} [AddCommMonoid M] (D : Nat → Finset I)

theorem sumM_comp_swap (xs : List Var) (z z' : Var) (hz : z ∉ xs) (hz' : z' ∉ xs) (f : (Var → I) → M) : ∀ ρ : Var → I,
    sumM D xs (fun ρ => f (ρ ∘ Equiv.swap z z')) ρ = sumM D xs f (ρ ∘ Equiv.swap z z') := by
  induction xs with
  | nil => intro ρ; rfl
  | cons x xs ih =>
    intro ρ
    rw [List.mem_cons, not_or] at hz hz'
    simp only [sumM]
    refine Finset.sum_congr rfl fun i _ => ?_
    rw [ih hz.2 hz'.2]
    congr 1
    funext v
    simp only [Function.comp]
    by_cases hv : v = x
    · subst hv
      rw [Equiv.swap_apply_of_ne_of_ne (Ne.symm hz.1) (Ne.symm hz'.1)]
      simp
    · rw [Function.update_of_ne hv, Function.update_of_ne]
      · rfl
      · intro h
        apply hv
        have := congrArg (Equiv.swap z z') h
        rw [Equiv.swap_apply_self, Equiv.swap_apply_of_ne_of_ne (Ne.symm hz.1) (Ne.symm hz'.1)] at this
        exact this

theorem sumM_swap (xs : List Var) (hn : xs.Nodup) (z z' : Var) (hz : z ∈ xs) (hz' : z' ∈ xs) (hne : z ≠ z')
    (hs : sp z = sp z') (f : (Var → I) → M) (ρ : Var → I) :
    sumM D xs f ρ = sumM D xs (fun ρ => f (ρ ∘ Equiv.swap z z')) ρ := by
  have h1 : xs.Perm (z :: z' :: (xs.erase z).erase z') := by
    refine (List.perm_cons_erase hz).trans (List.Perm.cons z (List.perm_cons_erase ?_))
    exact (List.mem_erase_of_ne (Ne.symm hne)).2 hz'
  have hn' := h1.nodup_iff.1 hn
  rw [sumM_perm D h1 _ _ hn, sumM_perm D h1 _ _ hn]
  set ys := (xs.erase z).erase z'
  simp only [List.nodup_cons, List.mem_cons, not_or] at hn'
  obtain ⟨⟨_, h2⟩, h3, _⟩ := hn'
  simp only [sumM]
  rw [Finset.sum_comm, hs]
  refine Finset.sum_congr rfl fun i _ => Finset.sum_congr rfl fun j _ => ?_
  rw [sumM_comp_swap D ys z z' h2 h3]
  congr 1
  funext v
  simp only [Function.comp]
  by_cases hv : v = z
  · subst hv
    rw [Equiv.swap_apply_left, Function.update_self, Function.update_of_ne hne, Function.update_self]
  · by_cases hv' : v = z'
    · subst hv'
      rw [Equiv.swap_apply_right, Function.update_self, Function.update_of_ne hne, Function.update_self]
    · rw [Equiv.swap_apply_of_ne_of_ne hv hv', Function.update_of_ne hv', Function.update_of_ne hv,
        Function.update_of_ne hv', Function.update_of_ne hv]

end

variable {I K A M : Type} [DecidableEq I] [Field K] [Ring A] [Algebra K A] [AddCommGroup M] [Module K M]
  {D : Nat → Finset I} (F : Fermi I K A D)

theorem sum_one' (xs : List Var) (z x : Var) (hzx : x ≠ z) (hs : sp x = sp z) (f : (Var → I) → M) (ρ : Var → I)
    (hn : (z :: xs).Nodup) (hx : x ∈ xs ∨ ρ x ∈ D (sp x)) :
    sumM D (z :: xs) (fun ρ => if ρ x = ρ z then f ρ else 0) ρ =
      sumM D xs (fun ρ => f (Function.update ρ z (ρ x))) ρ := by
  have hp : (z :: xs).Perm (xs ++ [z]) := (List.perm_append_singleton z xs).symm
  rw [sumM_perm D hp _ _ hn, sumM_append]
  refine sumM_congr D xs _ _ ρ (List.nodup_cons.1 hn).2 fun ρ' hr => ?_
  have hx' : ρ' x ∈ D (sp z) := by
    rw [← hs]
    by_cases h : x ∈ xs
    · exact hr.1 x h
    · rw [hr.2 x h]; exact hx.resolve_left h
  simp only [sumM, Function.update_self, Function.update_of_ne hzx]
  rw [Finset.sum_ite_eq]
  rw [if_pos hx']

/-- The operands change sign when two letters are exchanged. -/
def Sw (T : Nat → List I → K) (fs : List Fac) (a b : Var) : Prop :=
  ∀ ρ : Var → I, evalFs T fs (ρ ∘ Equiv.swap a b) = - evalFs T fs ρ

variable [Inhabited I]

/-- Sum over all dummy letters of operands times a linear function of the operators. -/
def vv (T : Nat → List I → K) (w : List Var) (xs : List I) (φ : A →ₗ[K] M) (fs : List Fac) (ops : List (Bool × Var)) : M :=
  sumM D (dums w fs) (fun ρ => evalFs T fs ρ • φ (F.prod (inst ρ ops))) (bind (fun _ => default) w xs)

omit [DecidableEq I] [Inhabited I] in
theorem inst_swap (ρ : Var → I) (a b : Var) (l : List (Bool × Var)) (ha : a ∉ l.map Prod.snd) (hb : b ∉ l.map Prod.snd) :
    inst (ρ ∘ Equiv.swap a b) l = inst ρ l := by
  refine List.map_congr_left fun y hy => ?_
  have h1 : y.2 ≠ a := fun h => ha (List.mem_map.2 ⟨y, hy, h⟩)
  have h2 : y.2 ≠ b := fun h => hb (List.mem_map.2 ⟨y, hy, h⟩)
  simp only [Function.comp]
  rw [Equiv.swap_apply_of_ne_of_ne h1 h2]

/-- Contracting `x` with every operator of `t`, the operators `l₁`, `l₂` standing around. -/
theorem contract (hD : Disjoint (D 0) (D 1)) (T : Nat → List I → K) (w : List Var) (xs : List I)
    (hxs : ∀ v ∈ w, bind (fun _ => default) w xs v ∈ D (sp v)) (hw : ∀ v ∈ w, v < 64) (φ : A →ₗ[K] M)
    (x : Bool × Var) (l₁ t l₂ : List (Bool × Var)) (fs : List Fac)
    (hn : ((x :: (l₁ ++ t ++ l₂)).map Prod.snd).Nodup)
    (hk : ∀ y ∈ x :: (l₁ ++ t ++ l₂), y.2 ∈ w ∨ y.2 ∈ vars fs)
    (hext : ∀ z ∈ t, canC x z = true → z.2 ∉ w)
    (hsw : ∀ z ∈ t, ∀ z' ∈ t, z ≠ z' → eqv z z' = true → Sw T fs z.2 z'.2) :
    sumM D (dums w fs) (fun ρ => ((picks t).map fun p => (evalFs T fs ρ * (sg p.1 *
      acc (x.1, ρ x.2) (p.2.1.1, ρ p.2.1.2))) • φ (F.prod (inst ρ (l₁ ++ p.2.2 ++ l₂)))).sum)
        (bind (fun _ => default) w xs) =
    ((runs nul t).map fun r => r.1 • cif (canC x r.2.2.1) ((sg r.2.1 : K) •
      vv F T w xs φ (subst r.2.2.1.2 x.2 fs) (l₁ ++ r.2.2.2 ++ l₂)) 0).sum := by
  set ρ₀ := bind (fun _ => (default : I)) w xs with hρ₀
  have hval : ∀ ρ, Reach D (dums w fs) ρ₀ ρ → ∀ y ∈ x :: (l₁ ++ t ++ l₂), ρ y.2 ∈ D (sp y.2) := by
    intro ρ hr y hy
    by_cases hm : y.2 ∈ dums w fs
    · exact hr.1 _ hm
    · rw [hr.2 _ hm]
      apply hxs
      by_contra hw
      exact hm ((mem_dums _ _ _).2 ⟨(hk y hy).resolve_left hw, hw⟩)
  rw [sumM_list]
  rw [List.map_cons, List.nodup_cons] at hn
  set C : Bool × (Bool × Var) × List (Bool × Var) → M := fun p =>
    sumM D (dums w fs) (fun ρ => (evalFs T fs ρ * (sg p.1 * acc (x.1, ρ x.2) (p.2.1.1, ρ p.2.1.2))) •
      φ (F.prod (inst ρ (l₁ ++ p.2.2 ++ l₂)))) ρ₀ with hC
  rw [show ((picks t).map fun p => sumM D (dums w fs) (fun ρ => (evalFs T fs ρ * (sg p.1 *
      acc (x.1, ρ x.2) (p.2.1.1, ρ p.2.1.2))) • φ (F.prod (inst ρ (l₁ ++ p.2.2 ++ l₂)))) ρ₀).sum =
      ((picks t).map C).sum from rfl, ← runs_nul t C]
  · congr 1
    refine List.map_congr_left fun r hr => ?_
    congr 1
    obtain ⟨m, p⟩ := r
    have hp : p ∈ picks t := mem_runs t nul _ hr
    simp only
    have hperm := mem_picks t p hp
    have hz : p.2.1 ∈ t := hperm.mem_iff.2 List.mem_cons_self
    have hzall : p.2.1 ∈ x :: (l₁ ++ t ++ l₂) := by simp [hz]
    have hperm2 : (l₁ ++ t ++ l₂).Perm (p.2.1 :: (l₁ ++ p.2.2 ++ l₂)) := by
      refine ((hperm.append_left l₁).append_right l₂).trans ?_
      simp
    have hsub : ∀ y ∈ l₁ ++ p.2.2 ++ l₂, y ∈ l₁ ++ t ++ l₂ := fun y hy => hperm2.mem_iff.2 (List.mem_cons_of_mem _ hy)
    have hnd2 : ((p.2.1 :: (l₁ ++ p.2.2 ++ l₂)).map Prod.snd).Nodup := (hperm2.map Prod.snd).nodup_iff.1 hn.2
    rw [List.map_cons, List.nodup_cons] at hnd2
    cases hc : canC x p.2.1 with
    | false =>
      simp only [cif_false, hC]
      rw [sumM_congr D _ _ (fun _ => 0) _ (nodup_dums _ _), sumM_zero]
      intro ρ hr
      have : (acc (x.1, ρ x.2) (p.2.1.1, ρ p.2.1.2) : K) = 0 := by
        unfold acc
        rw [if_neg]
        rintro ⟨h1, h2⟩
        have h3 := hval ρ hr x List.mem_cons_self
        have h4 := hval ρ hr p.2.1 hzall
        have h5 : ¬ (x.1 ≠ p.2.1.1 ∧ sp x.2 = sp p.2.1.2) := by
          rw [← canC_iff, hc]; simp
        simp only at h1 h2
        rw [h2] at h3
        rcases sp_cases x.2 with h6 | h6 <;> rcases sp_cases p.2.1.2 with h7 | h7 <;> rw [h6] at h3 <;>
          rw [h7] at h4
        · exact h5 ⟨h1, by rw [h6, h7]⟩
        · exact Finset.disjoint_left.1 hD h3 h4
        · exact Finset.disjoint_left.1 hD h4 h3
        · exact h5 ⟨h1, by rw [h6, h7]⟩
      rw [this, mul_zero, mul_zero, zero_smul]
    | true =>
      obtain ⟨hc1, hc2⟩ := (canC_iff _ _).1 hc
      simp only [cif_true, hC]
      set z := p.2.1.2 with hzdef
      have hzx : x.2 ≠ z := by
        intro h
        exact hn.1 (List.mem_map.2 ⟨p.2.1, by simp [hz], h.symm⟩)
      have hzw : z ∉ w := hext p.2.1 hz hc
      have hzv : z ∈ vars fs := (hk p.2.1 hzall).resolve_left hzw
      have hxk := hk x List.mem_cons_self
      set r : Var → Var := fun v => if v = z then x.2 else v with hr
      have hsubst : subst z x.2 fs = renFs r fs := subst_eq z x.2 fs
      rw [hsubst]
      have hv' : ∀ v, v ∈ vars (renFs r fs) ↔ (v ∈ vars fs ∧ v ≠ z) ∨ v = x.2 := by
        intro v
        rw [mem_vars_renFs]
        constructor
        · rintro ⟨u, hu, rfl⟩
          by_cases huz : u = z
          · right; simp [hr, huz]
          · left; simp [hr, huz, hu]
        · rintro (⟨h1, h2⟩ | rfl)
          · exact ⟨v, h1, by simp [hr, h2]⟩
          · exact ⟨z, hzv, by simp [hr]⟩
      have hpd : (dums w fs).Perm (z :: dums w (renFs r fs)) := by
        refine (List.perm_ext_iff_of_nodup (nodup_dums _ _) ?_).2 ?_
        · refine List.nodup_cons.2 ⟨?_, nodup_dums _ _⟩
          rw [mem_dums, hv']
          rintro ⟨⟨_, h⟩ | h, _⟩
          · exact h rfl
          · exact hzx h.symm
        · intro v
          rw [List.mem_cons, mem_dums, mem_dums, hv']
          constructor
          · rintro ⟨h1, h2⟩
            by_cases hvz : v = z
            · exact Or.inl hvz
            · exact Or.inr ⟨Or.inl ⟨h1, hvz⟩, h2⟩
          · rintro (rfl | ⟨⟨h1, _⟩ | rfl, h2⟩)
            · exact ⟨hzv, hzw⟩
            · exact ⟨h1, h2⟩
            · exact ⟨hxk.resolve_left h2, h2⟩
      have hnz : (z :: dums w (renFs r fs)).Nodup := hpd.nodup_iff.1 (nodup_dums _ _)
      rw [show (fun ρ => (evalFs T fs ρ * (sg p.1 * acc (x.1, ρ x.2) (p.2.1.1, ρ z) : K)) •
          φ (F.prod (inst ρ (l₁ ++ p.2.2 ++ l₂)))) = fun ρ => if ρ x.2 = ρ z then
          (sg p.1 : K) • (evalFs T fs ρ • φ (F.prod (inst ρ (l₁ ++ p.2.2 ++ l₂)))) else 0 by
        funext ρ
        simp only [acc, hc1, ne_eq, not_false_eq_true, true_and]
        split_ifs
        · rw [mul_one, smul_smul, mul_comm]
        · simp]
      rw [sumM_perm D hpd _ _ (nodup_dums _ _), sum_one' _ z x.2 hzx hc2 _ _ hnz]
      · unfold vv
        rw [show (sg p.1 : K) • sumM D (dums w (renFs r fs)) (fun ρ => evalFs T (renFs r fs) ρ •
          φ (F.prod (inst ρ (l₁ ++ p.2.2 ++ l₂)))) (bind (fun _ => default) w xs) =
          (DistribSMul.toAddMonoidHom M (sg p.1 : K)) (sumM D (dums w (renFs r fs)) (fun ρ => evalFs T (renFs r fs) ρ •
          φ (F.prod (inst ρ (l₁ ++ p.2.2 ++ l₂)))) (bind (fun _ => default) w xs)) from rfl, sumM_hom]
        congr 1
        funext ρ
        simp only [DistribSMul.toAddMonoidHom_apply]
        congr 2
        · refine evalFs_ren T r fs _ _ fun v _ => ?_
          by_cases hvz : v = z
          · subst hvz; simp [hr]
          · simp [hr, hvz]
        · congr 2
          refine List.map_congr_left fun y hy => ?_
          congr 1
          refine Function.update_of_ne ?_ _ _
          intro h2
          exact hnd2.1 (List.mem_map.2 ⟨y, hy, h2⟩)
      · by_cases hxw : x.2 ∈ w
        · exact Or.inr (hxs _ hxw)
        · exact Or.inl ((mem_dums _ _ _).2 ⟨(hv' _).2 (Or.inr rfl), hxw⟩)
  · intro t₁ z z' t₂ b ht he
    obtain ⟨h64, h64', _, hsp, hb⟩ := (eqv_iff z z').1 he
    have hzt : z ∈ t := by rw [ht]; simp
    have hzt' : z' ∈ t := by rw [ht]; simp
    have hzw : z.2 ∉ w := fun h => absurd (hw _ h) (Nat.not_lt.2 h64)
    have hzw' : z'.2 ∉ w := fun h => absurd (hw _ h) (Nat.not_lt.2 h64')
    have hzd : z.2 ∈ dums w fs := (mem_dums _ _ _).2 ⟨(hk z (by simp [hzt])).resolve_left hzw, hzw⟩
    have hzd' : z'.2 ∈ dums w fs := (mem_dums _ _ _).2 ⟨(hk z' (by simp [hzt'])).resolve_left hzw', hzw'⟩
    have hperm : (l₁ ++ t ++ l₂).Perm (z :: z' :: (l₁ ++ t₁ ++ t₂ ++ l₂)) := by
      rw [show l₁ ++ t ++ l₂ = (l₁ ++ t₁) ++ z :: z' :: (t₂ ++ l₂) by simp [ht],
        show l₁ ++ t₁ ++ t₂ ++ l₂ = (l₁ ++ t₁) ++ (t₂ ++ l₂) by simp]
      exact List.perm_middle.trans (List.perm_middle.cons z)
    have hnd := (hperm.map Prod.snd).nodup_iff.1 hn.2
    have hxall : ∀ u ∈ l₁ ++ t ++ l₂, x.2 ≠ u.2 := fun u hu h => hn.1 (List.mem_map.2 ⟨u, hu, h.symm⟩)
    simp only [List.map_cons, List.nodup_cons, List.mem_cons, not_or] at hnd
    obtain ⟨⟨hne, hz1⟩, hz2, _⟩ := hnd
    have hS := hsw z hzt z' hzt' (fun h => hne (by rw [h])) he
    simp only [hC]
    rw [sumM_swap D _ (nodup_dums _ _) z.2 z'.2 hzd hzd' hne hsp]
    congr 1
    funext ρ
    rw [hS ρ]
    have e1 : (ρ ∘ Equiv.swap z.2 z'.2) x.2 = ρ x.2 := by
      simp only [Function.comp]
      rw [Equiv.swap_apply_of_ne_of_ne (hxall z (by simp [hzt])) (hxall z' (by simp [hzt']))]
    have e2 : (ρ ∘ Equiv.swap z.2 z'.2) z.2 = ρ z'.2 := by simp
    have e3 : inst (ρ ∘ Equiv.swap z.2 z'.2) (l₁ ++ (t₁ ++ z' :: t₂) ++ l₂) = inst ρ (l₁ ++ (t₁ ++ z :: t₂) ++ l₂) := by
      have hh : ∀ l : List (Bool × Var), (∀ y ∈ l, y ∈ l₁ ++ t₁ ++ t₂ ++ l₂) →
          inst (ρ ∘ Equiv.swap z.2 z'.2) l = inst ρ l := by
        intro l hl
        refine inst_swap ρ z.2 z'.2 l ?_ ?_
        · rintro h
          obtain ⟨y, hy, e⟩ := List.mem_map.1 h
          exact hz1 (List.mem_map.2 ⟨y, hl y hy, e⟩)
        · rintro h
          obtain ⟨y, hy, e⟩ := List.mem_map.1 h
          exact hz2 (List.mem_map.2 ⟨y, hl y hy, e⟩)
      have h1 := hh l₁ (by simp +contextual)
      have h2 := hh t₁ (by simp +contextual)
      have h3 := hh t₂ (by simp +contextual)
      have h4 := hh l₂ (by simp +contextual)
      unfold inst at h1 h2 h3 h4 ⊢
      simp only [List.map_append, List.map_cons, h1, h2, h3, h4, hb]
      simp
    rw [e1, e2, e3, sg_not, hb]
    congr 1
    ring

end Verif.Wick
