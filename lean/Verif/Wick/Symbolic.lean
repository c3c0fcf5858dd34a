import Verif.Wick.Algebra
import Verif.Ein.Sound
import Verif.Ein.Ops

/-!
# Wick's theorem for einsum programs

A term `∑ t[c,d,k,l] … c† d† l k …` is given by its operands and its string of operators with index letters. `wick`
turns the expectation value of such a term into an einsum program: every full contraction renames letters.
-/

namespace Verif.Wick

open Verif.Ein

/-- A term of an operator: integer weight, operands, operators (`true`: creation). All letters not among the output
letters are summed. -/
structure OpTerm where
  k : ℤ
  fs : List Fac
  ops : List (Bool × Var)

/-- The operator gives zero on `Φ` (by the range of its letter). -/
noncomputable def isQ (x : Bool × Var) : Bool := cif x.1 (Nat.beq (Nat.land x.2 1) 0) (Nat.beq (Nat.land x.2 1) 1)

/-- `x` and `z` have a contraction that can differ from zero. -/
noncomputable def canC (x z : Bool × Var) : Bool :=
  cif x.1 (cif z.1 false (Nat.beq (Nat.land x.2 1) (Nat.land z.2 1)))
    (cif z.1 (Nat.beq (Nat.land x.2 1) (Nat.land z.2 1)) false)

/-- Replace the letter `z` by `x`. -/
noncomputable def subst (z x : Var) (fs : List Fac) : List Fac :=
  fs.map fun f => ⟨f.t, f.ix.map fun v => cif (Nat.beq v z) x v⟩

/-! ## sums with values in a module -/

/-- Sum over all values of the given letters. -/
def sumM {I M : Type} [AddCommMonoid M] (D : Nat → Finset I) : List Var → ((Var → I) → M) → (Var → I) → M
  | [], f, ρ => f ρ
  | x :: xs, f, ρ => ∑ i ∈ D (sp x), sumM D xs f (Function.update ρ x i)

section
variable {I M : Type} [AddCommMonoid M] (D : Nat → Finset I)

theorem sumM_eq {K : Type} [Field K] (xs : List Var) (f : (Var → I) → K) : ∀ ρ, sumOver D xs f ρ = sumM D xs f ρ := by
  induction xs with
  | nil => intro ρ; rfl
  | cons x xs ih => intro ρ; simp only [sumOver, sumM, ih]

/-- The assignments met when summing. -/
def Reach (D : Nat → Finset I) (xs : List Var) (ρ ρ' : Var → I) : Prop :=
  (∀ v ∈ xs, ρ' v ∈ D (sp v)) ∧ ∀ v, v ∉ xs → ρ' v = ρ v

theorem sumM_congr (xs : List Var) (f g : (Var → I) → M) : ∀ ρ, xs.Nodup →
    (∀ ρ', Reach D xs ρ ρ' → f ρ' = g ρ') → sumM D xs f ρ = sumM D xs g ρ := by
  induction xs with
  | nil => intro ρ _ h; exact h ρ ⟨by simp, fun _ _ => rfl⟩
  | cons x xs ih =>
    intro ρ hn h
    rw [List.nodup_cons] at hn
    simp only [sumM]
    refine Finset.sum_congr rfl fun i hi => ih _ hn.2 fun ρ' hr => h ρ' ⟨?_, ?_⟩
    · intro v hv
      rcases List.mem_cons.1 hv with rfl | hv
      · rw [hr.2 v hn.1, Function.update_self]; exact hi
      · exact hr.1 v hv
    · intro v hv
      rw [List.mem_cons, not_or] at hv
      rw [hr.2 v hv.2, Function.update_of_ne hv.1]

theorem sumM_append (xs ys : List Var) (f : (Var → I) → M) : ∀ ρ,
    sumM D (xs ++ ys) f ρ = sumM D xs (sumM D ys f) ρ := by
  induction xs with
  | nil => intro ρ; rfl
  | cons x xs ih => intro ρ; simp only [List.cons_append, sumM, ih]

theorem sumM_perm {xs ys : List Var} (h : xs.Perm ys) :
    ∀ (f : (Var → I) → M) (ρ : Var → I), xs.Nodup → sumM D xs f ρ = sumM D ys f ρ := by
  induction h with
  | nil => intros; rfl
  | cons x _ ih =>
    intro f ρ hn
    simp only [sumM]
    exact Finset.sum_congr rfl fun i _ => ih f _ (List.nodup_cons.1 hn).2
  | swap x y l =>
    intro f ρ hn
    simp only [sumM]
    rw [Finset.sum_comm]
    refine Finset.sum_congr rfl fun i _ => Finset.sum_congr rfl fun j _ => ?_
    have hne : y ≠ x := by
      intro e; subst e; simp at hn
    rw [Function.update_comm hne]
  | trans h1 _ ih1 ih2 =>
    intro f ρ hn
    rw [ih1 f ρ hn, ih2 f ρ (h1.nodup_iff.1 hn)]

theorem sumM_zero (xs : List Var) : ∀ ρ : Var → I, sumM D xs (fun _ => (0 : M)) ρ = 0 := by
  induction xs with
  | nil => intro ρ; rfl
  | cons x xs ih => intro ρ; simp only [sumM, ih, Finset.sum_const_zero]

theorem sumM_add (xs : List Var) (f g : (Var → I) → M) : ∀ ρ : Var → I,
    sumM D xs (fun ρ => f ρ + g ρ) ρ = sumM D xs f ρ + sumM D xs g ρ := by
  induction xs with
  | nil => intro ρ; rfl
  | cons x xs ih => intro ρ; simp only [sumM, ih, Finset.sum_add_distrib]

theorem sumM_list {α : Type} (xs : List Var) (l : List α) (f : α → (Var → I) → M) (ρ : Var → I) :
    sumM D xs (fun ρ => (l.map fun a => f a ρ).sum) ρ = (l.map fun a => sumM D xs (f a) ρ).sum := by
  induction l with
  | nil => simp [sumM_zero]
  | cons a l ih => simp only [List.map_cons, List.sum_cons, sumM_add, ih]

theorem sumM_hom {N : Type} [AddCommMonoid N] (φ : M →+ N) (xs : List Var) (f : (Var → I) → M) : ∀ ρ : Var → I,
    φ (sumM D xs f ρ) = sumM D xs (fun ρ => φ (f ρ)) ρ := by
  induction xs with
  | nil => intro ρ; rfl
  | cons x xs ih => intro ρ; simp only [sumM, map_sum, ih]

/-- The value depends only on the letters that are not summed. -/
theorem sumM_free (xs S : List Var) (f : (Var → I) → M)
    (hf : ∀ ρ ρ' : Var → I, (∀ v ∈ S, ρ v = ρ' v) → f ρ = f ρ') : ∀ ρ ρ' : Var → I,
    (∀ v ∈ S, v ∉ xs → ρ v = ρ' v) → sumM D xs f ρ = sumM D xs f ρ' := by
  induction xs with
  | nil => intro ρ ρ' h; exact hf ρ ρ' fun v hv => h v hv (by simp)
  | cons x xs ih =>
    intro ρ ρ' h
    simp only [sumM]
    refine Finset.sum_congr rfl fun i _ => ih _ _ fun v hv hvx => ?_
    by_cases e : v = x
    · subst e; simp
    · rw [Function.update_of_ne e, Function.update_of_ne e]
      exact h v hv (by simp [e, hvx])

end

/-! ## one contraction -/

theorem beq_eq_decide (a b : Nat) : Nat.beq a b = decide (a = b) := by
  cases h : Nat.beq a b with
  | true => rw [Nat.beq_eq] at h; simp [h]
  | false =>
    have : a ≠ b := by rintro rfl; rw [Nat.beq_refl] at h; cases h
    simp [this]

theorem subst_eq (z x : Var) (fs : List Fac) : subst z x fs = renFs (fun v => if v = z then x else v) fs := by
  unfold subst renFs
  refine List.map_congr_left fun f _ => ?_
  congr 1
  refine List.map_congr_left fun v _ => ?_
  rw [cif_eq, beq_eq_decide]
  simp

variable {I K A : Type} [DecidableEq I] [Field K] [Ring A] [Algebra K A] {D : Nat → Finset I}
  (F : Fermi I K A D)

/-- The string of operators at an assignment. -/
def inst (ρ : Var → I) (l : List (Bool × Var)) : List (Bool × I) := l.map fun x => (x.1, ρ x.2)

theorem sum_one (xs : List Var) (z x : Var) (hzx : x ≠ z) (hs : sp x = sp z) (f : (Var → I) → K) (ρ : Var → I)
    (hn : (z :: xs).Nodup) (hx : x ∈ xs ∨ ρ x ∈ D (sp x)) :
    sumM D (z :: xs) (fun ρ => if ρ x = ρ z then f ρ else 0) ρ =
      sumM D xs (fun ρ => f (Function.update ρ z (ρ x))) ρ := by
  have hp : (z :: xs).Perm (xs ++ [z]) := (List.perm_append_singleton z xs).symm
  rw [sumM_perm D hp _ _ hn, sumM_append]
  refine sumM_congr D xs _ _ ρ (List.nodup_cons.1 hn).2 fun ρ' hr => ?_
  have hx' : ρ' x ∈ D (sp z) := by
    rw [← hs]
    by_cases h : x ∈ xs
    · exact hr.1 x h
    · rw [hr.2 x h]; exact hx.resolve_left h
  simp only [sumM, Function.update_self, Function.update_of_ne hzx]
  rw [Finset.sum_ite_eq]
  rw [if_pos hx']

theorem mem_picks {α : Type} (l : List α) : ∀ p ∈ picks l, l.Perm (p.2.1 :: p.2.2) := by
  induction l with
  | nil => simp [picks]
  | cons y l ih =>
    intro p hp
    simp only [picks, List.mem_cons, List.mem_map] at hp
    rcases hp with rfl | ⟨q, hq, rfl⟩
    · exact List.Perm.refl _
    · exact ((ih q hq).cons y).trans (List.Perm.swap _ _ _)

theorem picks_map {α β : Type} (f : α → β) (l : List α) :
    picks (l.map f) = (picks l).map fun p => (p.1, f p.2.1, p.2.2.map f) := by
  induction l with
  | nil => rfl
  | cons y l ih => simp [picks, ih, Function.comp_def]

theorem sp_cases (n : Nat) : sp n = 0 ∨ sp n = 1 := by unfold sp; omega

theorem isQ_eq (x : Bool × Var) : isQ x = decide (sp x.2 = if x.1 then 0 else 1) := by
  obtain ⟨b, v⟩ := x
  cases b <;> simp [isQ, beq_eq_decide, sp]

theorem canC_iff (x z : Bool × Var) : canC x z = true ↔ x.1 ≠ z.1 ∧ sp x.2 = sp z.2 := by
  obtain ⟨b, v⟩ := x
  obtain ⟨b', v'⟩ := z
  cases b <;> cases b' <;> simp [canC, beq_eq_decide, sp]

theorem map_sum_flatMap {α β M : Type} [AddCommMonoid M] (l : List α) (g : α → List β) (f : β → M) :
    ((l.flatMap g).map f).sum = (l.map fun a => ((g a).map f).sum).sum := by
  induction l with
  | nil => rfl
  | cons a l ih => simp [List.flatMap_cons, ih]

/-! ## operators as lists of terms -/

/-- Product of two terms. -/
def OpTerm.mul (s t : OpTerm) : OpTerm := ⟨Int.mul s.k t.k, s.fs ++ t.fs, s.ops ++ t.ops⟩

/-- A sum of terms. -/
abbrev OpProg := List OpTerm

/-- Product of two sums. -/
def OpProg.mul (P Q : OpProg) : OpProg := P.flatMap fun s => Q.map fun t => s.mul t

/-- Number of operators of one kind. -/
noncomputable def cnt (b : Bool) (s : Nat) (l : List (Bool × Var)) : Nat :=
  List.rec (motive := fun _ => Nat) 0
    (fun x _ ih => cif (cif (cif b x.1 (cif x.1 false true)) (Nat.beq (Nat.land x.2 1) s) false) (Nat.succ ih) ih) l

/-- Holes and particles are created and removed equally often. -/
noncomputable def balanced (l : List (Bool × Var)) : Bool :=
  cif (Nat.beq (cnt true 0 l) (cnt false 0 l)) (Nat.beq (cnt true 1 l) (cnt false 1 l)) false

theorem cnt_cons (b : Bool) (s : Nat) (x : Bool × Var) (l : List (Bool × Var)) :
    cnt b s (x :: l) = cnt b s l + if x.1 = b ∧ sp x.2 = s then 1 else 0 := by
  have e : cnt b s (x :: l) = cif (cif (cif b x.1 (cif x.1 false true)) (Nat.beq (Nat.land x.2 1) s) false)
    (Nat.succ (cnt b s l)) (cnt b s l) := rfl
  rw [e]
  have h1 : Nat.land x.2 1 = sp x.2 := Nat.and_one_is_mod x.2
  rw [h1, beq_eq_decide]
  cases b <;> cases hx : x.1 <;> by_cases hs : sp x.2 = s <;> simp [hs, cif_eq]

theorem cnt_perm (b : Bool) (s : Nat) {l l' : List (Bool × Var)} (h : l.Perm l') : cnt b s l = cnt b s l' := by
  induction h with
  | nil => rfl
  | cons x _ ih => rw [cnt_cons, cnt_cons, ih]
  | swap x y l => rw [cnt_cons, cnt_cons, cnt_cons, cnt_cons]; omega
  | trans _ _ ih1 ih2 => rw [ih1, ih2]

/-! ### the same, written for the kernel -/

/-- `subst`, evaluated before it is used. -/
noncomputable def substIx {β : Type} (z x : Var) (ix : List Var) : (List Var → β) → β :=
  List.rec (motive := fun _ => (List Var → β) → β) (fun k => k [])
    (fun v _ ih k => cif (Nat.beq v z) (ih fun r => k (x :: r)) (ih fun r => k (v :: r))) ix

noncomputable def substK {β : Type} (z x : Var) (fs : List Fac) : (List Fac → β) → β :=
  List.rec (motive := fun _ => (List Fac → β) → β) (fun k => k [])
    (fun f _ ih k => Fac.rec (motive := fun _ => β) (fun t ix => substIx z x ix fun ix => ih fun r => k (⟨t, ix⟩ :: r)) f) fs

/-- `pre.reverse ++ l`. -/
noncomputable def revK {α β : Type} (pre : List α) : List α → (List α → β) → β :=
  List.rec (motive := fun _ => List α → (List α → β) → β) (fun l k => k l) (fun y _ ih l k => ih (y :: l) k) pre

/-- Evaluate a list of letters. -/
noncomputable def evalIx {β : Type} (ix : List Var) : (List Var → β) → β :=
  List.rec (motive := fun _ => (List Var → β) → β) (fun k => k [])
    (fun v _ ih k => force v fun v => ih fun r => k (v :: r)) ix

noncomputable def evalFacs {β : Type} (fs : List Fac) : (List Fac → β) → β :=
  List.rec (motive := fun _ => (List Fac → β) → β) (fun k => k [])
    (fun f _ ih k => Fac.rec (motive := fun _ => β)
      (fun t ix => force t fun t => evalIx ix fun ix => ih fun r => k (⟨t, ix⟩ :: r)) f) fs

noncomputable def evalOps {β : Type} (l : List (Bool × Var)) : (List (Bool × Var) → β) → β :=
  List.rec (motive := fun _ => (List (Bool × Var) → β) → β) (fun k => k [])
    (fun x _ ih k => Prod.rec (motive := fun _ => β) (fun b v => force v fun v =>
      cif b (ih fun r => k ((true, v) :: r)) (ih fun r => k ((false, v) :: r))) x) l

noncomputable def evalInt {β : Type} (i : ℤ) (K : ℤ → β) : β :=
  Int.rec (motive := fun _ => β) (fun n => force n fun n => K (Int.ofNat n)) (fun n => force n fun n => K (Int.negSucc n)) i

theorem evalIx_eq {β : Type} (ix : List Var) : ∀ K : List Var → β, evalIx ix K = K ix := by
  induction ix with
  | nil => intro K; rfl
  | cons v ix ih =>
    intro K
    have e : evalIx (v :: ix) K = force v fun v => evalIx ix fun r => K (v :: r) := rfl
    rw [e, force_eq, ih]

theorem evalFacs_eq {β : Type} (fs : List Fac) : ∀ K : List Fac → β, evalFacs fs K = K fs := by
  induction fs with
  | nil => intro K; rfl
  | cons f fs ih =>
    intro K
    have e : evalFacs (f :: fs) K = force f.t fun t => evalIx f.ix fun ix => evalFacs fs fun r => K (⟨t, ix⟩ :: r) := rfl
    rw [e, force_eq, evalIx_eq, ih]

theorem evalOps_eq {β : Type} (l : List (Bool × Var)) : ∀ K : List (Bool × Var) → β, evalOps l K = K l := by
  induction l with
  | nil => intro K; rfl
  | cons x l ih =>
    intro K
    obtain ⟨b, v⟩ := x
    have e : evalOps ((b, v) :: l) K = force v fun v =>
      cif b (evalOps l fun r => K ((true, v) :: r)) (evalOps l fun r => K ((false, v) :: r)) := rfl
    rw [e, force_eq, ih, ih]
    cases b <;> rfl

theorem evalInt_eq {β : Type} (i : ℤ) (K : ℤ → β) : evalInt i K = K i := by
  cases i with
  | ofNat n => exact force_eq n fun n => K (Int.ofNat n)
  | negSucc n => exact force_eq n fun n => K (Int.negSucc n)

theorem substIx_eq {β : Type} (z x : Var) (ix : List Var) : ∀ K : List Var → β,
    substIx z x ix K = K (ix.map fun v => cif (Nat.beq v z) x v) := by
  induction ix with
  | nil => intro K; rfl
  | cons v ix ih =>
    intro K
    have e : substIx z x (v :: ix) K =
      cif (Nat.beq v z) (substIx z x ix fun r => K (x :: r)) (substIx z x ix fun r => K (v :: r)) := rfl
    rw [e, ih, ih, List.map_cons]
    cases Nat.beq v z <;> rfl

theorem substK_eq {β : Type} (z x : Var) (fs : List Fac) : ∀ K : List Fac → β, substK z x fs K = K (subst z x fs) := by
  induction fs with
  | nil => intro K; rfl
  | cons f fs ih =>
    intro K
    have e : substK z x (f :: fs) K = substIx z x f.ix fun ix => substK z x fs fun r => K (⟨f.t, ix⟩ :: r) := rfl
    rw [e, substIx_eq, ih]
    rfl

theorem revK_eq {α β : Type} (pre : List α) : ∀ (l : List α) (K : List α → β), revK pre l K = K (pre.reverse ++ l) := by
  induction pre with
  | nil => intro l K; rfl
  | cons y pre ih =>
    intro l K
    have e : revK (y :: pre) l K = revK pre (y :: l) K := rfl
    rw [e, ih]
    simp

/-- The element of the algebra that a term stands for; output letters have the values `xs`. -/
def OpTerm.val [Inhabited I] (T : Nat → List I → K) (w : List Var) (xs : List I) (t : OpTerm) : A :=
  (t.k : K) • sumM D (dums w t.fs) (fun ρ => evalFs T t.fs ρ • F.prod (inst ρ t.ops)) (bind (fun _ => default) w xs)

def OpProg.val [Inhabited I] (T : Nat → List I → K) (w : List Var) (xs : List I) (P : OpProg) : A :=
  (P.map fun t => t.val F T w xs).sum

/-- The summed letters of two terms do not clash. -/
def OpTerm.apart (w : List Var) (s t : OpTerm) : Bool :=
  (dums w s.fs).all (fun v => !(vars t.fs).elem v && !(t.ops.map Prod.snd).elem v) &&
  (dums w t.fs).all (fun v => !(vars s.fs).elem v && !(s.ops.map Prod.snd).elem v)

theorem vars_append (fs gs : List Fac) (v : Var) : v ∈ vars (fs ++ gs) ↔ v ∈ vars fs ∨ v ∈ vars gs := by
  simp only [mem_vars, List.mem_append]
  constructor
  · rintro ⟨f, h | h, hv⟩
    · exact Or.inl ⟨f, h, hv⟩
    · exact Or.inr ⟨f, h, hv⟩
  · rintro (⟨f, h, hv⟩ | ⟨f, h, hv⟩)
    · exact ⟨f, Or.inl h, hv⟩
    · exact ⟨f, Or.inr h, hv⟩

omit [DecidableEq I] in
theorem evalFs_append (T : Nat → List I → K) (fs gs : List Fac) (ρ : Var → I) :
    evalFs T (fs ++ gs) ρ = evalFs T fs ρ * evalFs T gs ρ := by
  induction fs with
  | nil => simp [evalFs]
  | cons f fs ih => simp only [List.cons_append, evalFs, ih, mul_assoc]

theorem OpTerm.val_mul [Inhabited I] (T : Nat → List I → K) (w : List Var) (xs : List I) (s t : OpTerm)
    (h : s.apart w t = true) : (s.mul t).val F T w xs = s.val F T w xs * t.val F T w xs := by
  simp only [OpTerm.apart, Bool.and_eq_true, List.all_eq_true, Bool.not_eq_true', List.elem_eq_mem,
    decide_eq_false_iff_not] at h
  obtain ⟨h1, h2⟩ := h
  have hp : (dums w (s.fs ++ t.fs)).Perm (dums w s.fs ++ dums w t.fs) := by
    refine (List.perm_ext_iff_of_nodup (nodup_dums _ _) ?_).2 ?_
    · refine List.nodup_append.2 ⟨nodup_dums _ _, nodup_dums _ _, ?_⟩
      rintro a ha b hb rfl
      exact (h1 a ha).1 ((mem_dums _ _ _).1 hb).1
    · intro v
      rw [List.mem_append, mem_dums, mem_dums, mem_dums, vars_append]
      tauto
  unfold OpTerm.val OpTerm.mul
  simp only
  rw [sumM_perm D hp _ _ (nodup_dums _ _), sumM_append, show Int.mul s.k t.k = s.k * t.k from rfl]
  push_cast
  rw [smul_mul_smul_comm]
  congr 1
  set X := fun ρ => evalFs T s.fs ρ • F.prod (inst ρ s.ops) with hX
  set Y := fun ρ => evalFs T t.fs ρ • F.prod (inst ρ t.ops) with hY
  have hXY : (fun ρ => evalFs T (s.fs ++ t.fs) ρ • F.prod (inst ρ (s.ops ++ t.ops))) = fun ρ => X ρ * Y ρ := by
    funext ρ
    simp only [hX, hY]
    rw [evalFs_append, smul_mul_smul_comm]
    simp [inst, Fermi.prod]
  rw [hXY]
  have hcX : ∀ ρ ρ' : Var → I, (∀ v ∈ vars s.fs ++ s.ops.map Prod.snd, ρ v = ρ' v) → X ρ = X ρ' := by
    intro ρ ρ' hρ
    simp only [hX]
    rw [evalFs_congr T s.fs ρ ρ' fun v hv => hρ v (List.mem_append.2 (Or.inl hv))]
    congr 2
    refine List.map_congr_left fun y hy => ?_
    rw [hρ y.2 (List.mem_append.2 (Or.inr (List.mem_map.2 ⟨y, hy, rfl⟩)))]
  have hcY : ∀ ρ ρ' : Var → I, (∀ v ∈ vars t.fs ++ t.ops.map Prod.snd, ρ v = ρ' v) → Y ρ = Y ρ' := by
    intro ρ ρ' hρ
    simp only [hY]
    rw [evalFs_congr T t.fs ρ ρ' fun v hv => hρ v (List.mem_append.2 (Or.inl hv))]
    congr 2
    refine List.map_congr_left fun y hy => ?_
    rw [hρ y.2 (List.mem_append.2 (Or.inr (List.mem_map.2 ⟨y, hy, rfl⟩)))]
  rw [sumM_congr D (dums w s.fs) _ (fun ρ => X ρ * sumM D (dums w t.fs) Y (bind (fun _ => default) w xs)) _
    (nodup_dums _ _)]
  · exact (sumM_hom D (AddMonoidHom.mulRight _) _ _ _).symm
  · intro ρ hr
    rw [sumM_congr D (dums w t.fs) _ (fun ρ' => X ρ * Y ρ') _ (nodup_dums _ _)]
    · rw [← sumM_free D (dums w t.fs) _ Y hcY ρ]
      · exact (sumM_hom D (AddMonoidHom.mulLeft (X ρ)) _ _ _).symm
      · intro v hv _
        apply hr.2
        intro hm
        rcases List.mem_append.1 hv with h | h
        · exact (h1 v hm).1 h
        · exact (h1 v hm).2 h
    · intro ρ' hr'
      congr 1
      apply hcX
      intro v hv
      apply hr'.2
      intro hm
      rcases List.mem_append.1 hv with h | h
      · exact (h2 v hm).1 h
      · exact (h2 v hm).2 h

theorem OpProg.val_append [Inhabited I] (T : Nat → List I → K) (w : List Var) (xs : List I) (P Q : OpProg) :
    OpProg.val F T w xs (P ++ Q) = P.val F T w xs + Q.val F T w xs := by
  simp [OpProg.val]

theorem OpProg.val_mul [Inhabited I] (T : Nat → List I → K) (w : List Var) (xs : List I) (P Q : OpProg)
    (h : P.all (fun s => Q.all fun t => s.apart w t) = true) :
    (P.mul Q).val F T w xs = P.val F T w xs * Q.val F T w xs := by
  simp only [List.all_eq_true] at h
  unfold OpProg.val OpProg.mul
  rw [map_sum_flatMap, ← List.sum_map_mul_right]
  congr 1
  refine List.map_congr_left fun s hs => ?_
  rw [List.map_map, ← List.sum_map_mul_left]
  congr 1
  exact List.map_congr_left fun t ht => s.val_mul F T w xs t (h s hs t ht)

end Verif.Wick
