import Verif.Ein.Local
import Mathlib.LinearAlgebra.Matrix.NonsingularInverse
import Mathlib.Tactic.Abel

/-!
# Rotations of the orbitals

A program whose letters each occur exactly twice gives the same number before and after an orthogonal rotation among the
occupied and among the virtual orbitals; a program with an output is rotated as an array of its output axes. The axes of a
tensor carry a colour (the spin), with one rotation for each colour.
-/

namespace Verif.Ein

open Verif.Wick (InBox boxSum boxSum_congr boxSum_zero boxSum_hom boxSum_sum)

variable {I K : Type} [Field K]

/-- Product of the rotation coefficients of the axes. -/
def wt (U : Nat → I → I → K) : List Nat → List I → List I → K
  | c :: cs, x :: xs, y :: ys => U c x y * wt U cs xs ys
  | _, _, _ => 1

/-- The rotation for every colour is orthogonal on the occupied and on the virtual orbitals. -/
def Orthogonal [DecidableEq I] (D : Nat → Finset I) (U : Nat → I → I → K) : Prop :=
  ∀ c s, s < 2 → ∀ q ∈ D s, ∀ r ∈ D s, ∑ p ∈ D s, U c p q * U c p r = if q = r then 1 else 0

/-- Every block of the arrays `T'` is the rotated block of `T`; `col t` are the colours of the axes of array `t`. -/
def Rot (D : Nat → Finset I) (U : Nat → I → I → K) (col : Nat → List Nat) (T T' : Nat → List I → K) : Prop :=
  ∀ t ss l, ss.length = (col t).length → (∀ s ∈ ss, s < 2) → InBox D ss l →
    T' t l = boxSum D ss fun z => wt U (col t) l z * T t z

/-- The axes of the operands: letter and colour. -/
def slots (col : Nat → List Nat) (fs : List Fac) : List (Var × Nat) := fs.flatMap fun f => f.ix.zip (col f.t)

/-- Every letter occurs at exactly two axes, of the same colour. -/
def paired (col : Nat → List Nat) (fs : List Fac) : Bool :=
  (fs.all fun f => f.ix.length == (col f.t).length) && (vars fs).all fun v =>
    match (slots col fs).filter fun q => q.1 == v with
    | [a, b] => a.2 == b.2
    | _ => false

def Prog.paired (col : Nat → List Nat) (P : Prog) : Bool :=
  P.all fun b => Ein.paired col b.fs && b.ps.all fun p => p.2.isEmpty

variable (D : Nat → Finset I)

theorem boxSum_append (s₁ : List Nat) : ∀ (s₂ : List Nat) (G : List I → K),
    boxSum D (s₁ ++ s₂) G = boxSum D s₁ fun a => boxSum D s₂ fun b => G (a ++ b) := by
  induction s₁ with
  | nil => intro s₂ G; rfl
  | cons s s₁ ih => intro s₂ G; simp only [List.cons_append, boxSum, ih]

theorem boxSum_mul (c : K) (ss : List Nat) (G : List I → K) : boxSum D ss (fun l => c * G l) = c * boxSum D ss G :=
  (boxSum_hom D (AddMonoidHom.mulLeft c) ss G).symm

theorem sumOver_box (ss : List Nat) (G : List I → (Var → I) → K) (L : List Var) : ∀ ρ,
    sumOver D L (fun ρ => boxSum D ss fun z => G z ρ) ρ = boxSum D ss fun z => sumOver D L (G z) ρ := by
  induction L with
  | nil => intro ρ; rfl
  | cons x L ih => intro ρ; simp only [sumOver, ih]; rw [boxSum_sum]

/-- Product of the rotation coefficients, axes given by letters. -/
def wtS (U : Nat → I → I → K) (ρ : Var → I) : List (Var × Nat) → List I → K
  | q :: S, y :: ys => U q.2 (ρ q.1) y * wtS U ρ S ys
  | _, _ => 1

theorem wtS_zip (U : Nat → I → I → K) (ρ : Var → I) (ix : List Var) : ∀ (cs : List Nat) (z : List I),
    wtS U ρ (ix.zip cs) z = wt U cs (ix.map ρ) z := by
  induction ix with
  | nil => intro cs z; cases cs <;> simp [wtS, wt]
  | cons v ix ih =>
    intro cs z
    cases cs with
    | nil => simp [wtS, wt]
    | cons c cs =>
      cases z with
      | nil => simp [wtS, wt]
      | cons y z => simp only [List.zip_cons_cons, List.map_cons, wtS, wt, ih]

theorem wtS_append (U : Nat → I → I → K) (ρ : Var → I) (S : List (Var × Nat)) : ∀ (S' : List (Var × Nat)) (z z' : List I),
    z.length = S.length → wtS U ρ (S ++ S') (z ++ z') = wtS U ρ S z * wtS U ρ S' z' := by
  induction S with
  | nil => intro S' z z' h; rw [List.length_eq_zero_iff.1 h]; simp [wtS]
  | cons q S ih =>
    intro S' z z' h
    cases z with
    | nil => simp at h
    | cons y z =>
      simp only [List.cons_append, wtS]
      rw [ih S' z z' (by simpa using h), mul_assoc]

/-- Product of the operands, the index list cut into pieces. -/
def prodT (T : Nat → List I → K) : List Fac → List I → K
  | [], _ => 1
  | f :: fs, z => T f.t (z.take f.ix.length) * prodT T fs (z.drop f.ix.length)

theorem sp_lt (v : Var) : sp v < 2 := Nat.mod_lt _ (by norm_num)

theorem InBox.length {ss : List Nat} {l : List I} (h : InBox D ss l) : l.length = ss.length := (List.Forall₂.length_eq h).symm

/-- The product of the rotated operands. -/
theorem evalFs_rot (U : Nat → I → I → K) (col : Nat → List Nat) (T T' : Nat → List I → K) (hT : Rot D U col T T') (ρ : Var → I)
    (fs : List Fac) : (fs.all fun f => f.ix.length == (col f.t).length) = true →
    (∀ f ∈ fs, ∀ v ∈ f.ix, ρ v ∈ D (sp v)) →
    evalFs T' fs ρ = boxSum D ((slots col fs).map fun q => sp q.1) fun z => wtS U ρ (slots col fs) z * prodT T fs z := by
  induction fs with
  | nil => intro _ _; simp [evalFs, slots, boxSum, wtS, prodT]
  | cons f fs ih =>
    intro hl hρ
    rw [List.all_cons, Bool.and_eq_true, beq_iff_eq] at hl
    have e1 : ((f.ix.zip (col f.t)).map fun q => sp q.1) = f.ix.map sp := by
      rw [show (fun q : Var × Nat => sp q.1) = sp ∘ Prod.fst from rfl, ← List.map_map, List.map_fst_zip (le_of_eq hl.1)]
    have e2 : slots col (f :: fs) = f.ix.zip (col f.t) ++ slots col fs := by simp [slots]
    rw [e2, List.map_append, e1, boxSum_append]
    simp only [evalFs]
    rw [ih hl.2 fun f' hf => hρ f' (List.mem_cons_of_mem _ hf),
      hT f.t (f.ix.map sp) (f.ix.map ρ) (by simp [hl.1]) (by
        intro s hs; obtain ⟨v, _, rfl⟩ := List.mem_map.1 hs; exact sp_lt v) (by
        unfold InBox
        rw [List.forall₂_map_left_iff, List.forall₂_map_right_iff, List.forall₂_same]
        exact fun v hv => hρ f List.mem_cons_self v hv), mul_comm, ← boxSum_mul]
    refine boxSum_congr D _ _ _ fun a ha => ?_
    have la : a.length = f.ix.length := by have := InBox.length D ha; simpa using this
    rw [mul_comm, ← boxSum_mul]
    refine boxSum_congr D _ _ _ fun b hb => ?_
    rw [wtS_append U ρ _ _ _ _ (by simp [la, hl.1]), wtS_zip]
    simp only [prodT]
    rw [List.take_append_of_le_length (le_of_eq la.symm), List.take_of_length_le (le_of_eq la), ← la, List.drop_left]
    ring

/-- Factors that only see a letter not summed over. -/
theorem sumOver_fix (v : Var) (g : I → K) (L : List Var) : v ∉ L → ∀ (f : (Var → I) → K) (ρ : Var → I),
    sumOver D L (fun ρ => g (ρ v) * f ρ) ρ = g (ρ v) * sumOver D L f ρ := by
  induction L with
  | nil => intro _ f ρ; rfl
  | cons x L ih =>
    intro h f ρ
    have h : v ≠ x ∧ v ∉ L := by simpa using h
    simp only [sumOver, Finset.mul_sum]
    refine Finset.sum_congr rfl fun i _ => ?_
    rw [ih h.2, Function.update_of_ne h.1]

theorem sumOver_indep (v : Var) (i : I) (L : List Var) : v ∉ L → ∀ (f : (Var → I) → K),
    (∀ ρ, f (Function.update ρ v i) = f ρ) → ∀ ρ, sumOver D L f (Function.update ρ v i) = sumOver D L f ρ := by
  induction L with
  | nil => intro _ f hf ρ; exact hf ρ
  | cons x L ih =>
    intro h f hf ρ
    have h : v ≠ x ∧ v ∉ L := by simpa using h
    simp only [sumOver]
    refine Finset.sum_congr rfl fun j _ => ?_
    rw [Function.update_comm h.1, ih h.2 f hf]

/-- Product over axes with letter, colour and rotated orbital. -/
def wtQ (U : Nat → I → I → K) (ρ : Var → I) (Q : List ((Var × Nat) × I)) : K := (Q.map fun q => U q.1.2 (ρ q.1.1) q.2).prod

theorem wtS_eq (U : Nat → I → I → K) (ρ : Var → I) (S : List (Var × Nat)) : ∀ z : List I,
    wtS U ρ S z = wtQ U ρ (S.zip z) := by
  induction S with
  | nil => intro z; simp [wtS, wtQ]
  | cons q S ih =>
    intro z
    cases z with
    | nil => simp [wtS, wtQ]
    | cons y z => simp only [wtS, ih, wtQ, List.zip_cons_cons, List.map_cons, List.prod_cons]

theorem wtQ_split (U : Nat → I → I → K) (ρ : Var → I) (v : Var) (Q : List ((Var × Nat) × I)) :
    wtQ U ρ Q = wtQ U ρ (Q.filter fun q => q.1.1 == v) * wtQ U ρ (Q.filter fun q => !(q.1.1 == v)) := by
  induction Q with
  | nil => simp [wtQ]
  | cons q Q ih =>
    have e : wtQ U ρ (q :: Q) = U q.1.2 (ρ q.1.1) q.2 * wtQ U ρ Q := by simp [wtQ]
    rw [e, ih]
    by_cases h : q.1.1 = v
    · simp [h, wtQ, mul_assoc]
    · simp [h, wtQ]; ring

theorem wtQ_update (U : Nat → I → I → K) (ρ : Var → I) (v : Var) (i : I) (Q : List ((Var × Nat) × I)) :
    wtQ U (Function.update ρ v i) (Q.filter fun q => !(q.1.1 == v)) = wtQ U ρ (Q.filter fun q => !(q.1.1 == v)) := by
  unfold wtQ
  congr 1
  refine List.map_congr_left fun q hq => ?_
  have : q.1.1 ≠ v := by simpa using (List.mem_filter.1 hq).2
  rw [Function.update_of_ne this]

/-- The identity. -/
def idU [DecidableEq I] : Nat → I → I → K := fun _ x y => if x = y then 1 else 0

/-- Summing over all letters, a rotation of paired axes drops out. -/
theorem sumOver_wtQ [DecidableEq I] (U : Nat → I → I → K) (hU : Orthogonal D U) (L : List Var) : L.Nodup →
    ∀ Q : List ((Var × Nat) × I), (∀ q ∈ Q, q.1.1 ∈ L) →
    (∀ v ∈ L, ∃ a b, (Q.filter fun q => q.1.1 == v) = [a, b] ∧ a.1.2 = b.1.2 ∧ a.2 ∈ D (sp v) ∧ b.2 ∈ D (sp v)) →
    ∀ ρ, sumOver D L (fun ρ => wtQ U ρ Q) ρ = sumOver D L (fun ρ => wtQ idU ρ Q) ρ := by
  induction L with
  | nil =>
    intro _ Q hQ _ ρ
    have : Q = [] := List.eq_nil_iff_forall_not_mem.2 fun q hq => by simpa using hQ q hq
    subst this; rfl
  | cons v L ih =>
    intro hn Q hQ hp ρ
    have hn := List.nodup_cons.1 hn
    obtain ⟨a, b, hab, hc, ha, hb⟩ := hp v List.mem_cons_self
    have hfst : ∀ q ∈ [a, b], q.1.1 = v := fun q hq => by
      rw [← hab] at hq; simpa using (List.mem_filter.1 hq).2
    have ha1 := hfst a (by simp)
    have hb1 := hfst b (by simp)
    have key : ∀ W : Nat → I → I → K, sumOver D (v :: L) (fun ρ => wtQ W ρ Q) ρ =
        (∑ i ∈ D (sp v), W a.1.2 i a.2 * W a.1.2 i b.2) *
          sumOver D L (fun ρ => wtQ W ρ (Q.filter fun q => !(q.1.1 == v))) ρ := by
      intro W
      simp only [sumOver]
      rw [Finset.sum_mul]
      refine Finset.sum_congr rfl fun i _ => ?_
      have e : (fun ρ => wtQ W ρ Q) = fun ρ => (fun x => W a.1.2 x a.2 * W a.1.2 x b.2) (ρ v) *
          wtQ W ρ (Q.filter fun q => !(q.1.1 == v)) := by
        funext ρ
        rw [wtQ_split W ρ v Q, hab]
        simp [wtQ, ha1, hb1, hc]
      rw [e, sumOver_fix D v (fun x => W a.1.2 x a.2 * W a.1.2 x b.2) L hn.1]
      simp only [Function.update_self]
      rw [sumOver_indep D v i L hn.1 _ fun ρ => wtQ_update W ρ v i Q]
    rw [key U, key idU, hU a.1.2 (sp v) (sp_lt v) a.2 ha b.2 hb]
    have e1 : (∑ i ∈ D (sp v), (idU a.1.2 i a.2 * idU a.1.2 i b.2 : K)) = if a.2 = b.2 then 1 else 0 := by
      simp only [idU]
      rw [Finset.sum_eq_single a.2]
      · simp
      · intro i _ hi; simp [hi]
      · intro h; exact absurd ha h
    rw [e1]
    congr 1
    refine ih hn.2 _ ?_ ?_ ρ
    · intro q hq
      have hq := List.mem_filter.1 hq
      rcases List.mem_cons.1 (hQ q hq.1) with h | h
      · simp [h] at hq
      · exact h
    · intro v' hv'
      obtain ⟨a', b', h1, h2⟩ := hp v' (List.mem_cons_of_mem _ hv')
      refine ⟨a', b', ?_, h2⟩
      have hne : v' ≠ v := fun e => hn.1 (e ▸ hv')
      rw [List.filter_filter, ← h1]
      refine List.filter_congr fun q _ => ?_
      by_cases h : q.1.1 = v'
      · simp [h, hne]
      · simp [h]

theorem zip_filter (S : List (Var × Nat)) (v : Var) : ∀ z : List I, z.length = S.length →
    ((S.zip z).filter fun q => q.1.1 == v).map Prod.fst = S.filter fun q => q.1 == v := by
  induction S with
  | nil => intro z _; simp
  | cons q S ih =>
    intro z h
    cases z with
    | nil => simp at h
    | cons y z =>
      have := ih z (by simpa using h)
      by_cases hq : q.1 = v
      · simp [hq, this]
      · simp [hq, this]

theorem zip_range (S : List (Var × Nat)) : ∀ z : List I, InBox D (S.map fun q => sp q.1) z →
    ∀ q ∈ S.zip z, q.2 ∈ D (sp q.1.1) := by
  induction S with
  | nil => intro z _ q hq; simp at hq
  | cons s S ih =>
    intro z h q hq
    rw [List.map_cons] at h
    cases h with
    | cons h1 h2 =>
      simp only [List.zip_cons_cons, List.mem_cons] at hq
      rcases hq with rfl | hq
      · exact h1
      · exact ih _ h2 q hq

theorem mem_slots (col : Nat → List Nat) (fs : List Fac) (q : Var × Nat) (h : q ∈ slots col fs) : q.1 ∈ vars fs := by
  induction fs with
  | nil => simp [slots] at h
  | cons f fs ih =>
    have hv : q.1 ∈ vars (f :: fs) ↔ q.1 ∈ f.ix ∨ q.1 ∈ vars fs := mem_varsIx f.ix (vars fs) q.1
    rw [hv]
    have e2 : slots col (f :: fs) = f.ix.zip (col f.t) ++ slots col fs := by simp [slots]
    rw [e2, List.mem_append] at h
    rcases h with h | h
    · exact Or.inl (List.of_mem_zip h).1
    · exact Or.inr (ih h)

theorem mem_vars_ix (fs : List Fac) (f : Fac) (hf : f ∈ fs) (v : Var) (hv : v ∈ f.ix) : v ∈ vars fs := by
  induction fs with
  | nil => simp at hf
  | cons f' fs ih =>
    have e : v ∈ vars (f' :: fs) ↔ v ∈ f'.ix ∨ v ∈ vars fs := mem_varsIx f'.ix (vars fs) v
    rw [e]
    rcases List.mem_cons.1 hf with rfl | h
    · exact Or.inl hv
    · exact Or.inr (ih h)

/-- Every array is its own rotation by the identity. -/
theorem rot_id [DecidableEq I] (col : Nat → List Nat) (T : Nat → List I → K) : Rot D idU col T T := by
  intro t ss l hs _ hl
  have key : ∀ (cs : List Nat) (ss : List Nat), ss.length = cs.length → ∀ l, InBox D ss l → ∀ G : List I → K,
      boxSum D ss (fun z => wt idU cs l z * G z) = G l := by
    intro cs
    induction cs with
    | nil => intro ss h l hl G; rw [List.length_eq_zero_iff.1 h] at hl ⊢; cases hl; simp [boxSum, wt]
    | cons c cs ih =>
      intro ss h l hl G
      cases ss with
      | nil => simp at h
      | cons s ss =>
        cases hl with
        | cons hi hl =>
          rename_i i l
          simp only [boxSum]
          rw [Finset.sum_eq_single i]
          · have := ih ss (by simpa using h) l hl fun z => G (i :: z)
            simp only [wt, idU, if_true, one_mul]
            exact this
          · intro j _ hj
            rw [boxSum_congr D ss _ (fun _ => 0) fun z _ => by simp [wt, idU, Ne.symm hj], boxSum_zero]
          · intro h; exact absurd hi h
  exact (key (col t) ss hs l hl (T t)).symm

/-- The value of one term. -/
theorem raw_rot [DecidableEq I] [Inhabited I] (U : Nat → I → I → K) (hU : Orthogonal D U) (col : Nat → List Nat)
    (T T' : Nat → List I → K) (hT : Rot D U col T T') (fs : List Fac) (hf : paired col fs = true) (xs : List I) :
    raw D T' fs [] xs = raw D T fs [] xs := by
  rw [paired, Bool.and_eq_true] at hf
  have hd : dums [] fs = vars fs := by simp [dums]
  have key : ∀ (W : Nat → I → I → K) (X : Nat → List I → K), Rot D W col T X → ∀ ρ,
      sumOver D (vars fs) (evalFs X fs) ρ = boxSum D ((slots col fs).map fun q => sp q.1) fun z =>
        prodT T fs z * sumOver D (vars fs) (fun ρ => wtQ W ρ ((slots col fs).zip z)) ρ := by
    intro W X hX ρ
    have e1 : sumOver D (vars fs) (evalFs X fs) ρ = sumOver D (vars fs) (fun ρ => boxSum D ((slots col fs).map fun q => sp q.1)
        fun z => prodT T fs z * wtQ W ρ ((slots col fs).zip z)) ρ := by
      refine sumOver_range D _ _ _ (vars fs) ρ (fun v hv => Or.inl hv) fun ρ' h => ?_
      rw [evalFs_rot D W col T X hX ρ' fs hf.1 fun f hf v hv => h v (mem_vars_ix fs f hf v hv)]
      refine boxSum_congr D _ _ _ fun z _ => ?_
      rw [wtS_eq, mul_comm]
    rw [e1, sumOver_box D _ (fun z ρ => prodT T fs z * wtQ W ρ ((slots col fs).zip z))]
    exact boxSum_congr D _ _ _ fun z _ => sumOver_mul D _ _ _ _
  unfold raw
  rw [hd, key U T' hT, key idU T (rot_id D col T)]
  refine boxSum_congr D _ _ _ fun z hz => ?_
  congr 1
  have hzl : z.length = (slots col fs).length := by have := InBox.length D hz; simpa using this
  have hr := zip_range D (slots col fs) z hz
  refine sumOver_wtQ D U hU _ (nodup_vars fs) _ (fun q hq => mem_slots col fs q.1 (List.of_mem_zip hq).1) (fun v hv => ?_) _
  have h2 := List.all_eq_true.1 hf.2 v hv
  have h3 := zip_filter (slots col fs) v z hzl
  split at h2
  · next a b hab =>
    rw [hab] at h3
    rcases hm : ((slots col fs).zip z).filter (fun q => q.1.1 == v) with _ | ⟨x, _ | ⟨y, _ | ⟨w, l⟩⟩⟩ <;> rw [hm] at h3
    · simp at h3
    · simp at h3
    · simp only [List.map_cons, List.map_nil, List.cons.injEq, and_true] at h3
      have hx : x ∈ ((slots col fs).zip z).filter (fun q => q.1.1 == v) := by rw [hm]; simp
      have hy : y ∈ ((slots col fs).zip z).filter (fun q => q.1.1 == v) := by rw [hm]; simp
      have hx := List.mem_filter.1 hx
      have hy := List.mem_filter.1 hy
      refine ⟨x, y, hm, ?_, ?_, ?_⟩
      · rw [h3.1, h3.2]; simpa using h2
      · have := hr x hx.1; rwa [beq_iff_eq.1 hx.2] at this
      · have := hr y hy.1; rwa [beq_iff_eq.1 hy.2] at this
    · simp at h3
  · simp at h2

/-- **Invariance**: a number computed by a program with paired letters does not depend on the rotation. -/
theorem Prog.eval_rot [DecidableEq I] [Inhabited I] (U : Nat → I → I → K) (hU : Orthogonal D U) (col : Nat → List Nat)
    (T T' : Nat → List I → K) (hT : Rot D U col T T') (P : Prog) (hP : P.paired col = true) :
    P.eval D T' [] = P.eval D T [] := by
  unfold Prog.eval
  congr 1
  refine List.map_congr_left fun b hb => ?_
  have h := List.all_eq_true.1 hP b hb
  rw [Bool.and_eq_true] at h
  rw [Blk.eval_eq, Blk.eval_eq]
  congr 2
  refine List.map_congr_left fun p hp => ?_
  have : p.2 = [] := by simpa using List.all_eq_true.1 h.2 p hp
  rw [this, raw_rot D U hU col T T' hT b.fs h.1]

/-- The rows of an orthogonal rotation are orthonormal as well. -/
theorem Orthogonal.rows [DecidableEq I] {D : Nat → Finset I} {U : Nat → I → I → K} (hU : Orthogonal D U) (c s : Nat) (hs : s < 2)
    (q r : I) (hq : q ∈ D s) (hr : r ∈ D s) : ∑ p ∈ D s, U c q p * U c r p = if q = r then 1 else 0 := by
  let M : Matrix (D s) (D s) K := fun x y => U c x y
  have h1 : M.transpose * M = 1 := by
    ext x y
    rw [Matrix.mul_apply, Matrix.one_apply]
    have := hU c s hs x x.2 y y.2
    rw [← Finset.sum_coe_sort] at this
    refine Eq.trans this ?_
    simp only [Subtype.ext_iff]
  have h2 : M * M.transpose = 1 := mul_eq_one_comm.1 h1
  have h3 := congrFun (congrFun h2 ⟨q, hq⟩) ⟨r, hr⟩
  rw [Matrix.mul_apply, Matrix.one_apply] at h3
  rw [← Finset.sum_coe_sort]
  refine Eq.trans h3 ?_
  simp only [Subtype.mk.injEq]

theorem wt_orth [DecidableEq I] (U : Nat → I → I → K) (hU : Orthogonal D U) (cs : List Nat) : ∀ ss : List Nat,
    ss.length = cs.length → (∀ s ∈ ss, s < 2) → ∀ l xs, InBox D ss l → InBox D ss xs →
    boxSum D ss (fun z => wt U cs l z * wt U cs xs z) = if l = xs then 1 else 0 := by
  induction cs with
  | nil =>
    intro ss h _ l xs hl hx
    rw [List.length_eq_zero_iff.1 h] at hl hx ⊢
    cases hl; cases hx; simp [boxSum, wt]
  | cons c cs ih =>
    intro ss h h2 l xs hl hx
    cases ss with
    | nil => simp at h
    | cons s ss =>
      cases hl with
      | cons hi hl =>
        cases hx with
        | cons hj hx =>
          rename_i i l j xs
          simp only [boxSum, wt]
          have e : ∀ p ∈ D s, boxSum D ss (fun z => U c i p * wt U cs l z * (U c j p * wt U cs xs z)) =
              (U c i p * U c j p) * if l = xs then 1 else 0 := by
            intro p _
            rw [← ih ss (by simpa using h) (fun s hs => h2 s (List.mem_cons_of_mem _ hs)) l xs hl hx, ← boxSum_mul]
            exact boxSum_congr D _ _ _ fun z _ => by ring
          rw [Finset.sum_congr rfl e, ← Finset.sum_mul, hU.rows c s (h2 s List.mem_cons_self) i j hi hj]
          by_cases h1 : i = j <;> by_cases h3 : l = xs <;> simp [h1, h3]

theorem InBox.unique {D : Nat → Finset I} (hD : Disjoint (D 0) (D 1)) {l : List I} : ∀ {ss ss' : List Nat}, (∀ s ∈ ss, s < 2) →
    (∀ s ∈ ss', s < 2) → InBox D ss l → InBox D ss' l → ss = ss' := by
  induction l with
  | nil => intro ss ss' _ _ h h'; cases h; cases h'; rfl
  | cons i l ih =>
    intro ss ss' h2 h2' h h'
    cases h with
    | cons hi h =>
      cases h' with
      | cons hi' h' =>
        rename_i s ss s' ss'
        rw [ih (fun s hs => h2 s (List.mem_cons_of_mem _ hs)) (fun s hs => h2' s (List.mem_cons_of_mem _ hs)) h h']
        have a := h2 s List.mem_cons_self
        have b := h2' s' List.mem_cons_self
        have : ∀ x, x ∈ D 0 → x ∉ D 1 := fun x h0 h1 => (Finset.disjoint_left.1 hD h0) h1
        have e : s = s' := by
          rcases (by omega : s = 0 ∨ s = 1) with rfl | rfl <;> rcases (by omega : s' = 0 ∨ s' = 1) with rfl | rfl <;>
            first | rfl | exact absurd hi' (this _ hi) | exact absurd hi (this _ hi')
        rw [e]

/-- The check for a program with output axes of the ranges `ss` and the colours `cs`: contracted with an array number `t`
on these axes, all letters are paired; `t` is not among the operands. -/
def Prog.rotOk (col : Nat → List Nat) (t : Nat) (ss cs : List Nat) (P : Prog) : Bool :=
  P.capOk 0 ss && (P.cap 0 t).paired (Function.update col t cs) && P.all (fun b => b.fs.all fun f => f.t != t) &&
    (ss.all fun s => decide (s < 2)) && ss.length == cs.length

/-- **Covariance**: the result of a program with paired letters is rotated as an array with its output axes. -/
theorem Prog.eval_rot_out [DecidableEq I] [Inhabited I] (hD : Disjoint (D 0) (D 1)) (U : Nat → I → I → K) (hU : Orthogonal D U)
    (col : Nat → List Nat) (T T' : Nat → List I → K) (hT : Rot D U col T T') (t : Nat) (ss cs : List Nat) (P : Prog)
    (hP : P.rotOk col t ss cs = true) (xs : List I) (hx : InBox D ss xs) :
    P.eval D T' xs = boxSum D ss fun z => wt U cs xs z * P.eval D T z := by
  classical
  simp only [Prog.rotOk, Bool.and_eq_true, beq_iff_eq] at hP
  obtain ⟨⟨⟨⟨h1, h2⟩, h3⟩, h4⟩, h5⟩ := hP
  have h4 : ∀ s ∈ ss, s < 2 := fun s hs => by simpa using List.all_eq_true.1 h4 s hs
  let X : Nat → List I → K := fun u l => if u = t then (if InBox D ss l then wt U cs xs l else 0) else T u l
  let X' : Nat → List I → K := fun u l => if u = t then (if l = xs then 1 else 0) else T' u l
  have hX : Rot D U (Function.update col t cs) X X' := by
    intro u ss' l hs hs2 hl
    by_cases hu : u = t
    · subst hu
      simp only [X, X', if_true, Function.update_self] at hs ⊢
      by_cases hss : ss' = ss
      · subst hss
        rw [← wt_orth D U hU cs ss' hs hs2 l xs hl hx]
        exact boxSum_congr D _ _ _ fun z hz => by rw [if_pos hz]
      · have hne : l ≠ xs := fun e => hss (InBox.unique hD hs2 h4 (e ▸ hl) hx)
        rw [if_neg hne, boxSum_congr D ss' _ (fun _ => 0) fun z hz => ?_, boxSum_zero]
        rw [if_neg fun h => hss (InBox.unique hD hs2 h4 hz h), mul_zero]
    · simp only [X, X', if_neg hu]
      rw [Function.update_of_ne hu] at hs ⊢
      exact hT u ss' l hs hs2 hl
  have eT : ∀ (Y Z : Nat → List I → K), (∀ u, u ≠ t → Y u = Z u) → ∀ z, P.eval D Y z = P.eval D Z z := by
    intro Y Z h z
    refine Prog.eval_congrT D Y Z P (fun f => f.t != t) ?_ (fun f hf l _ => ?_) z
    · exact h3
    · rw [h f.t (by simpa using hf)]
  have k := Prog.eval_rot D U hU (Function.update col t cs) X X' hX (P.cap 0 t) h2
  rw [Verif.Wick.Prog.eval_cap D X' 0 t ss P h1 [] rfl, Verif.Wick.Prog.eval_cap D X 0 t ss P h1 [] rfl] at k
  have e1 : (boxSum D ss fun l => X' t l * P.eval D X' ([] ++ l)) = P.eval D T' xs := by
    rw [← Verif.Wick.boxSum_single D ss xs hx (fun l => P.eval D T' l)]
    refine boxSum_congr D _ _ _ fun l _ => ?_
    simp only [X', if_true, List.nil_append]
    by_cases h : l = xs
    · simp only [h, if_true, one_mul]; exact eT _ _ (fun u hu => by funext l; simp [hu]) _
    · simp [h]
  rw [e1] at k
  rw [k]
  refine boxSum_congr D _ _ _ fun l hl => ?_
  simp only [X, if_true, if_pos hl, List.nil_append]
  congr 1
  exact eT _ _ (fun u hu => by funext l; simp [hu]) _

/-! ## A faster form of the check -/

def eqSlot (a b : Var × Nat) : Bool := a.1.beq b.1 && a.2.beq b.2

def delSlot (a : Var × Nat) : List (Var × Nat) → Option (List (Var × Nat))
  | [] => none
  | b :: l => if eqSlot a b then some l else match delSlot a l with
    | some l' => some (b :: l')
    | none => none

/-- Pair the axes up: the unpaired ones and one of every pair. -/
def pairUp : List (Var × Nat) → List (Var × Nat) → List (Var × Nat) → List (Var × Nat) × List (Var × Nat)
  | [], o, c => (o, c)
  | q :: S, o, c => match delSlot q o with
    | some o' => pairUp S o' (q :: c)
    | none => pairUp S (q :: o) c

/-- The second list is the first one in some order. -/
def permSlot : List (Var × Nat) → List (Var × Nat) → Bool
  | [], o => o.isEmpty
  | q :: w, o => match delSlot q o with
    | some o' => permSlot w o'
    | none => false

def memVar (v : Var) : List (Var × Nat) → Bool
  | [] => false
  | b :: l => if v.beq b.1 then true else memVar v l

def distinct : List (Var × Nat) → Bool
  | [] => true
  | q :: l => if memVar q.1 l then false else distinct l

def eqLen {α β : Type} : List α → List β → Bool
  | [], [] => true
  | _ :: l, _ :: m => eqLen l m
  | _, _ => false

def sameSp : List Var → List Nat → Bool
  | [], [] => true
  | v :: w, s :: ss => (v % 2).beq s && sameSp w ss
  | _, _ => false

def Prog.rotFast (col : Nat → List Nat) (t : Nat) (ss cs : List Nat) (P : Prog) : Bool :=
  (P.all fun b => (b.fs.all fun f => eqLen f.ix (col f.t) && !f.t.beq t) && match pairUp (slots col b.fs) [] [] with
    | (o, c) => distinct (o ++ c) && b.ps.all fun p => permSlot (p.2.zip cs) o && sameSp p.2 ss) &&
    (ss.all fun s => decide (s < 2)) && ss.length == cs.length

theorem eqSlot_iff (a b : Var × Nat) : eqSlot a b = true ↔ a = b := by
  simp only [eqSlot, Bool.and_eq_true, Nat.beq_eq]
  exact Prod.ext_iff.symm

theorem delSlot_perm (a : Var × Nat) (l : List (Var × Nat)) : ∀ l', delSlot a l = some l' → l.Perm (a :: l') := by
  induction l with
  | nil => intro l' h; simp [delSlot] at h
  | cons b l ih =>
    intro l' h
    simp only [delSlot] at h
    split at h
    · next e => rw [(eqSlot_iff a b).1 e]; simp only [Option.some.injEq] at h; rw [h]
    · split at h
      · next l'' e =>
        simp only [Option.some.injEq] at h
        rw [← h]
        exact ((ih l'' e).cons b).trans (List.Perm.swap a b l'')
      · simp at h

theorem pairUp_perm (S : List (Var × Nat)) : ∀ o c, (S ++ (o ++ (c ++ c))).Perm ((pairUp S o c).1 ++
    ((pairUp S o c).2 ++ (pairUp S o c).2)) := by
  induction S with
  | nil => intro o c; exact List.Perm.refl _
  | cons q S ih =>
    intro o c
    simp only [pairUp]
    split
    · next o' e =>
      refine List.Perm.trans ?_ (ih o' (q :: c))
      have h := delSlot_perm q o o' e
      rw [← Multiset.coe_eq_coe] at h ⊢
      simp only [← Multiset.coe_add, ← Multiset.cons_coe] at h ⊢
      rw [h]
      simp only [← Multiset.singleton_add]
      abel
    · refine List.Perm.trans ?_ (ih (q :: o) c)
      rw [← Multiset.coe_eq_coe]
      simp only [← Multiset.coe_add, ← Multiset.cons_coe]
      simp only [← Multiset.singleton_add]
      abel

theorem permSlot_perm (w : List (Var × Nat)) : ∀ o, permSlot w o = true → w.Perm o := by
  induction w with
  | nil => intro o h; simp only [permSlot, List.isEmpty_iff] at h; rw [h]
  | cons q w ih =>
    intro o h
    simp only [permSlot] at h
    split at h
    · next o' e => exact ((ih o' h).cons q).trans (delSlot_perm q o o' e).symm
    · simp at h

theorem memVar_iff (v : Var) (l : List (Var × Nat)) : memVar v l = true ↔ v ∈ l.map Prod.fst := by
  induction l with
  | nil => simp [memVar]
  | cons b l ih =>
    simp only [memVar, List.map_cons, List.mem_cons, ← ih]
    by_cases h : v = b.1 <;> simp [h]

theorem distinct_iff (l : List (Var × Nat)) (h : distinct l = true) : (l.map Prod.fst).Nodup := by
  induction l with
  | nil => simp
  | cons q l ih =>
    simp only [distinct] at h
    split at h
    · simp at h
    · next e =>
      rw [memVar_iff] at e
      exact List.nodup_cons.2 ⟨e, ih h⟩

theorem eqLen_iff {α β : Type} (l : List α) : ∀ m : List β, eqLen l m = true → l.length = m.length := by
  induction l with
  | nil => intro m h; cases m <;> simp [eqLen] at h ⊢
  | cons a l ih =>
    intro m h
    cases m with
    | nil => simp [eqLen] at h
    | cons b m => simpa using ih m h

theorem sameSp_iff (w : List Var) : ∀ ss, sameSp w ss = true → w.map sp = ss := by
  induction w with
  | nil => intro ss h; cases ss <;> simp [sameSp] at h ⊢
  | cons v w ih =>
    intro ss h
    cases ss with
    | nil => simp [sameSp] at h
    | cons s ss =>
      simp only [sameSp, Bool.and_eq_true, Nat.beq_eq] at h
      rw [List.map_cons, ih ss h.2]
      exact congrArg (· :: ss) h.1

theorem filter_fst (E : List (Var × Nat)) (h : (E.map Prod.fst).Nodup) (v : Var) (hv : v ∈ E.map Prod.fst) :
    ∃ e, (E.filter fun q => q.1 == v) = [e] := by
  induction E with
  | nil => simp at hv
  | cons q E ih =>
    rw [List.map_cons, List.nodup_cons] at h
    by_cases hq : q.1 = v
    · refine ⟨q, ?_⟩
      have : (E.filter fun q => q.1 == v) = [] := by
        rw [List.filter_eq_nil_iff]
        intro x hx hxv
        exact h.1 (hq ▸ (beq_iff_eq.1 hxv) ▸ List.mem_map_of_mem hx)
      simp [hq, this]
    · rw [List.map_cons, List.mem_cons] at hv
      obtain ⟨e, he⟩ := ih h.2 (hv.resolve_left fun e => hq e.symm)
      exact ⟨e, by simp [hq, he]⟩

theorem mem_slots_fst (col : Nat → List Nat) (fs : List Fac) (hl : (fs.all fun f => f.ix.length == (col f.t).length) = true)
    (v : Var) (h : v ∈ vars fs) : v ∈ (slots col fs).map Prod.fst := by
  induction fs with
  | nil => simp [vars] at h
  | cons f fs ih =>
    rw [List.all_cons, Bool.and_eq_true, beq_iff_eq] at hl
    have hv : v ∈ vars (f :: fs) ↔ v ∈ f.ix ∨ v ∈ vars fs := mem_varsIx f.ix (vars fs) v
    have e2 : slots col (f :: fs) = f.ix.zip (col f.t) ++ slots col fs := by simp [slots]
    rw [e2, List.map_append, List.map_fst_zip (le_of_eq hl.1), List.mem_append]
    rcases hv.1 h with h | h
    · exact Or.inl h
    · exact Or.inr (ih hl.2 h)

theorem paired_of_perm (col : Nat → List Nat) (fs : List Fac) (hl : (fs.all fun f => f.ix.length == (col f.t).length) = true)
    (E : List (Var × Nat)) (h : (slots col fs).Perm (E ++ E)) (hE : (E.map Prod.fst).Nodup) : paired col fs = true := by
  rw [paired, hl, Bool.true_and, List.all_eq_true]
  intro v hv
  have hv := (h.map Prod.fst).subset (mem_slots_fst col fs hl v hv)
  rw [List.map_append, List.mem_append, or_self] at hv
  obtain ⟨e, he⟩ := filter_fst E hE v hv
  have hp := h.filter fun q => q.1 == v
  rw [List.filter_append, he] at hp
  have : ((slots col fs).filter fun q => q.1 == v) = [e, e] := by
    exact List.perm_replicate.1 (show List.Perm _ (List.replicate 2 e) from hp)
  rw [this]
  simp

theorem slots_update (col : Nat → List Nat) (t : Nat) (cs : List Nat) (fs : List Fac) (h : ∀ f ∈ fs, f.t ≠ t) :
    slots (Function.update col t cs) fs = slots col fs := by
  unfold slots
  rw [List.flatMap_def, List.flatMap_def]
  congr 1
  refine List.map_congr_left fun f hf => ?_
  rw [Function.update_of_ne (h f hf)]

/-! ### The same check with recursors -/

noncomputable def eqSlotR (a b : Var × Nat) : Bool := cif (Nat.beq a.1 b.1) (Nat.beq a.2 b.2) false

noncomputable def delR {β : Type} (a : Var × Nat) (l : List (Var × Nat)) : (List (Var × Nat) → β) → β → β :=
  List.rec (motive := fun _ => (List (Var × Nat) → β) → β → β) (fun _ kn => kn)
    (fun b l ih ks kn => cif (eqSlotR a b) (ks l) (ih (fun l' => ks (b :: l')) kn)) l

noncomputable def pairR {β : Type} (k : List (Var × Nat) → List (Var × Nat) → β) (S : List (Var × Nat)) :
    List (Var × Nat) → List (Var × Nat) → β :=
  List.rec (motive := fun _ => List (Var × Nat) → List (Var × Nat) → β) k
    (fun q _ ih o c => delR q o (fun o' => ih o' (q :: c)) (ih (q :: o) c)) S

noncomputable def memVarR (v : Var) (l : List (Var × Nat)) : Bool :=
  List.rec (motive := fun _ => Bool) false (fun b _ ih => cif (Nat.beq v b.1) true ih) l

noncomputable def distinctR (l : List (Var × Nat)) : Bool :=
  List.rec (motive := fun _ => Bool) true (fun q l ih => cif (memVarR q.1 l) false ih) l

noncomputable def emptyR {α : Type} (l : List α) : Bool := List.rec (motive := fun _ => Bool) true (fun _ _ _ => false) l

noncomputable def permR (w : List (Var × Nat)) : List (Var × Nat) → Bool :=
  List.rec (motive := fun _ => List (Var × Nat) → Bool) (fun o => emptyR o) (fun q _ ih o => delR q o ih false) w

noncomputable def zipApp (w : List Var) (tl : List (Var × Nat)) : List Nat → List (Var × Nat) :=
  List.rec (motive := fun _ => List Nat → List (Var × Nat)) (fun _ => tl)
    (fun v _ ih cs => List.rec (motive := fun _ => List (Var × Nat)) tl (fun c cs _ => (v, c) :: ih cs) cs) w

noncomputable def eqLenR {α β : Type} (l : List α) : List β → Bool :=
  List.rec (motive := fun _ => List β → Bool) (fun m => emptyR m)
    (fun _ _ ih m => List.rec (motive := fun _ => Bool) false (fun _ m _ => ih m) m) l

noncomputable def sameSpR (w : List Var) : List Nat → Bool :=
  List.rec (motive := fun _ => List Nat → Bool) (fun m => emptyR m)
    (fun v _ ih m => List.rec (motive := fun _ => Bool) false (fun s m _ => cif (Nat.beq (Nat.land v 1) s) (ih m) false) m) w

noncomputable def slotsR (col : Nat → List Nat) (fs : List Fac) : List (Var × Nat) :=
  List.rec (motive := fun _ => List (Var × Nat)) [] (fun f _ ih => zipApp f.ix ih (col f.t)) fs

noncomputable def appR (l m : List (Var × Nat)) : List (Var × Nat) := List.rec (motive := fun _ => List (Var × Nat)) m (fun x _ ih => x :: ih) l

/-- `Prog.rotFast`, for evaluation in the kernel. -/
noncomputable def Prog.rotR (col : Nat → List Nat) (t : Nat) (ss cs : List Nat) (P : Prog) : Bool :=
  cif (allR (fun b => cif (allR (fun f => cif (eqLenR f.ix (col f.t)) (cif (Nat.beq f.t t) false true) false) b.fs)
    (pairR (fun o c => cif (distinctR (appR o c)) (allR (fun p => cif (permR (zipApp p.2 [] cs) o) (sameSpR p.2 ss) false) b.ps) false)
      (slotsR col b.fs) [] []) false) P) ((ss.all fun s => decide (s < 2)) && ss.length == cs.length) false

theorem eqSlotR_eq (a b : Var × Nat) : eqSlotR a b = eqSlot a b := cif_band _ _

theorem delR_eq {β : Type} (a : Var × Nat) (l : List (Var × Nat)) : ∀ (ks : List (Var × Nat) → β) (kn : β), delR a l ks kn = match delSlot a l with
    | some l' => ks l'
    | none => kn := by
  induction l with
  | nil => intro ks kn; rfl
  | cons b l ih =>
    intro ks kn
    show cif (eqSlotR a b) (ks l) (delR a l (fun l' => ks (b :: l')) kn) = _
    rw [ih, eqSlotR_eq]
    simp only [delSlot]
    cases eqSlot a b with
    | true => rfl
    | false =>
      show (match delSlot a l with | some l' => ks (b :: l') | none => kn) = _
      simp only [Bool.false_eq_true, if_false]
      cases delSlot a l <;> rfl

theorem pairR_eq {β : Type} (k : List (Var × Nat) → List (Var × Nat) → β) (S : List (Var × Nat)) : ∀ o c,
    pairR k S o c = k (pairUp S o c).1 (pairUp S o c).2 := by
  induction S with
  | nil => intro o c; rfl
  | cons q S ih =>
    intro o c
    show delR q o (fun o' => pairR k S o' (q :: c)) (pairR k S (q :: o) c) = _
    rw [delR_eq]
    simp only [pairUp]
    cases delSlot q o with
    | some o' => exact ih _ _
    | none => exact ih _ _

theorem memVarR_eq (v : Var) (l : List (Var × Nat)) : memVarR v l = memVar v l := by
  induction l with
  | nil => rfl
  | cons b l ih =>
    show cif (Nat.beq v b.1) true (memVarR v l) = _
    rw [ih]
    simp only [memVar]
    cases Nat.beq v b.1 <;> rfl

theorem distinctR_eq (l : List (Var × Nat)) : distinctR l = distinct l := by
  induction l with
  | nil => rfl
  | cons b l ih =>
    show cif (memVarR b.1 l) false (distinctR l) = _
    rw [ih, memVarR_eq]
    simp only [distinct]
    cases memVar b.1 l <;> rfl

theorem emptyR_eq {α : Type} (l : List α) : emptyR l = l.isEmpty := by cases l <;> rfl

theorem permR_eq (w : List (Var × Nat)) : ∀ o, permR w o = permSlot w o := by
  induction w with
  | nil => intro o; exact emptyR_eq o
  | cons q w ih =>
    intro o
    show delR q o (permR w) false = _
    rw [delR_eq]
    simp only [permSlot]
    cases delSlot q o with
    | some o' => exact ih _
    | none => rfl

theorem zipApp_eq (w : List Var) (tl : List (Var × Nat)) : ∀ cs, zipApp w tl cs = w.zip cs ++ tl := by
  induction w with
  | nil => intro cs; rfl
  | cons v w ih =>
    intro cs
    cases cs with
    | nil => rfl
    | cons c cs => exact congrArg ((v, c) :: ·) (ih cs)

theorem eqLenR_eq {α β : Type} (l : List α) : ∀ m : List β, eqLenR l m = eqLen l m := by
  induction l with
  | nil => intro m; cases m <;> rfl
  | cons a l ih =>
    intro m
    cases m with
    | nil => rfl
    | cons b m => exact ih m

theorem sameSpR_eq (w : List Var) : ∀ m, sameSpR w m = sameSp w m := by
  induction w with
  | nil => intro m; cases m <;> rfl
  | cons v w ih =>
    intro m
    cases m with
    | nil => rfl
    | cons s m =>
      show cif (Nat.beq (Nat.land v 1) s) (sameSpR w m) false = _
      rw [ih, cif_band]
      simp only [sameSp]
      rw [show Nat.land v 1 = v % 2 from Nat.and_one_is_mod v]

theorem slotsR_eq (col : Nat → List Nat) (fs : List Fac) : slotsR col fs = slots col fs := by
  induction fs with
  | nil => rfl
  | cons f fs ih =>
    show zipApp f.ix (slotsR col fs) (col f.t) = _
    rw [zipApp_eq, ih]
    rfl

theorem appR_eq (l m : List (Var × Nat)) : appR l m = l ++ m := by
  induction l with
  | nil => rfl
  | cons x l ih => exact congrArg (x :: ·) ih

theorem Prog.rotR_eq (col : Nat → List Nat) (t : Nat) (ss cs : List Nat) (P : Prog) : P.rotR col t ss cs = P.rotFast col t ss cs := by
  unfold Prog.rotR Prog.rotFast
  have hb : ∀ b : Blk, (cif (allR (fun f => cif (eqLenR f.ix (col f.t)) (cif (Nat.beq f.t t) false true) false) b.fs)
      (pairR (fun o c => cif (distinctR (appR o c)) (allR (fun p => cif (permR (zipApp p.2 [] cs) o) (sameSpR p.2 ss) false) b.ps) false)
      (slotsR col b.fs) [] []) false) = ((b.fs.all fun f => eqLen f.ix (col f.t) && !f.t.beq t) && match pairUp (slots col b.fs) [] [] with
      | (o, c) => distinct (o ++ c) && b.ps.all fun p => permSlot (p.2.zip cs) o && sameSp p.2 ss) := by
    intro b
    have hn : ∀ x : Bool, cif x false true = !x := by intro x; cases x <;> rfl
    simp only [cif_band, allR_eq, pairR_eq, distinctR_eq, appR_eq, permR_eq, zipApp_eq, List.append_nil, sameSpR_eq, slotsR_eq, eqLenR_eq, hn]
  rw [cif_band, allR_eq, funext hb, Bool.and_assoc]

theorem Prog.rotOk_of_fast {col : Nat → List Nat} {t : Nat} {ss cs : List Nat} {P : Prog}
    (h : P.rotR col t ss cs = true) : P.rotOk col t ss cs = true := by
  rw [Prog.rotR_eq] at h
  simp only [Prog.rotFast, Bool.and_eq_true] at h
  obtain ⟨⟨h, h4⟩, h5⟩ := h
  rw [beq_iff_eq] at h5
  have h := List.all_eq_true.1 h
  have key : ∀ b ∈ P, (∀ f ∈ b.fs, f.ix.length = (col f.t).length ∧ f.t ≠ t) ∧ ∀ p ∈ b.ps, p.2.Nodup ∧ p.2.map sp = ss ∧
      Ein.paired (Function.update col t cs) (⟨t, p.2⟩ :: b.fs) = true := by
    intro b hb
    have h1 := h b hb
    rw [Bool.and_eq_true] at h1
    have hf : ∀ f ∈ b.fs, f.ix.length = (col f.t).length ∧ f.t ≠ t := by
      intro f hf
      have := List.all_eq_true.1 h1.1 f hf
      rw [Bool.and_eq_true] at this
      refine ⟨eqLen_iff _ _ this.1, ?_⟩
      intro e
      simp [e] at this
    refine ⟨hf, fun p hp => ?_⟩
    have h2 := h1.2
    have hpair := pairUp_perm (slots col b.fs) [] []
    generalize pairUp (slots col b.fs) [] [] = oc at h2 hpair
    obtain ⟨o, c⟩ := oc
    simp only [Bool.and_eq_true, List.append_nil] at h2 hpair
    have hd := distinct_iff _ h2.1
    have h3 := List.all_eq_true.1 h2.2 p hp
    rw [Bool.and_eq_true] at h3
    have hs := sameSp_iff _ _ h3.2
    have hpl : p.2.length = cs.length := by rw [← h5, ← hs, List.length_map]
    have hpo := permSlot_perm _ _ h3.1
    have hn : p.2.Nodup := by
      have : ((p.2.zip cs).map Prod.fst).Nodup := by
        rw [(hpo.map Prod.fst).nodup_iff]
        rw [List.map_append] at hd
        exact (List.nodup_append.1 hd).1
      rwa [List.map_fst_zip (le_of_eq hpl)] at this
    refine ⟨hn, hs, ?_⟩
    refine paired_of_perm _ _ ?_ (o ++ c) ?_ hd
    · rw [List.all_cons, Bool.and_eq_true, beq_iff_eq, Function.update_self]
      refine ⟨hpl, List.all_eq_true.2 fun f hf' => ?_⟩
      rw [Function.update_of_ne (hf f hf').2, beq_iff_eq]
      exact (hf f hf').1
    · have e2 : slots (Function.update col t cs) (⟨t, p.2⟩ :: b.fs) = p.2.zip cs ++ slots col b.fs := by
        rw [← slots_update col t cs b.fs fun f hf' => (hf f hf').2]
        simp [slots]
      rw [e2]
      refine (hpo.append hpair).trans ?_
      rw [← Multiset.coe_eq_coe]
      simp only [← Multiset.coe_add]
      abel
  simp only [Prog.rotOk, Bool.and_eq_true, beq_iff_eq]
  refine ⟨⟨⟨⟨?_, ?_⟩, ?_⟩, h4⟩, h5⟩
  · refine List.all_eq_true.2 fun b hb => List.all_eq_true.2 fun p hp => ?_
    obtain ⟨h1, h2, _⟩ := (key b hb).2 p hp
    simp [h1, h2]
  · refine List.all_eq_true.2 fun b hb => ?_
    obtain ⟨b', hb', hb⟩ := List.mem_flatMap.1 hb
    obtain ⟨p, hp, rfl⟩ := List.mem_map.1 hb
    have := ((key b' hb').2 p hp).2.2
    simp only [List.drop_zero, List.take_zero, List.all_cons, List.all_nil, List.isEmpty_nil, Bool.and_true]
    exact this
  · refine List.all_eq_true.2 fun b hb => List.all_eq_true.2 fun f hf => ?_
    simpa using ((key b hb).1 f hf).2

/-- The check for a program computing a number. -/
def Prog.pairedFast (col : Nat → List Nat) (P : Prog) : Bool :=
  P.all fun b => (b.fs.all fun f => eqLen f.ix (col f.t)) && (match pairUp (slots col b.fs) [] [] with
    | (o, c) => o.isEmpty && distinct c) && b.ps.all fun p => p.2.isEmpty

theorem Prog.paired_of_fast {col : Nat → List Nat} {P : Prog} (h : P.pairedFast col = true) : P.paired col = true := by
  refine List.all_eq_true.2 fun b hb => ?_
  have h1 := List.all_eq_true.1 h b hb
  simp only [Bool.and_eq_true] at h1
  obtain ⟨⟨h1, h2⟩, h3⟩ := h1
  rw [h3, Bool.and_true]
  have hpair := pairUp_perm (slots col b.fs) [] []
  generalize pairUp (slots col b.fs) [] [] = oc at h2 hpair
  obtain ⟨o, c⟩ := oc
  simp only [List.append_nil, List.isEmpty_iff] at h2 hpair
  rw [h2.1, List.nil_append] at hpair
  refine paired_of_perm _ _ ?_ c hpair (distinct_iff _ h2.2)
  refine List.all_eq_true.2 fun f hf => ?_
  rw [beq_iff_eq]
  exact eqLen_iff _ _ (List.all_eq_true.1 h1 f hf)

end Verif.Ein
