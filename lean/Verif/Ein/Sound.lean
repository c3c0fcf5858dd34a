import Verif.Ein.Norm
import Mathlib.Algebra.Order.BigOperators.Group.Finset
import Mathlib.Algebra.BigOperators.Ring.Finset
import Mathlib.Algebra.CharZero.Defs
import Mathlib.Tactic.Ring
import Mathlib.Tactic.LinearCombination
import Mathlib.Tactic.FieldSimp
import Mathlib.Data.Nat.Digits.Defs
import Mathlib.Data.List.Perm.Basic

/-! Soundness of the normal form of `Verif.Ein.Norm`. -/

namespace Verif.Ein

variable {I K : Type} [Field K]

theorem bind_of_not_mem (w : List Var) : ∀ (ρ : Var → I) (xs : List I) (x : Var), x ∉ w →
    bind ρ w xs x = ρ x := by
  induction w with
  | nil => intro ρ xs x _; cases xs <;> rfl
  | cons y w ih =>
    intro ρ xs x h
    cases xs with
    | nil => rfl
    | cons i is =>
      simp only [bind]
      rw [ih _ _ _ (fun hm => h (List.mem_cons_of_mem _ hm))]
      exact Function.update_of_ne (fun e : x = y => h (by rw [e]; exact List.mem_cons_self)) _ _

theorem bind_append (w v : List Var) : ∀ (ρ : Var → I) (xs ys : List I), xs.length = w.length →
    bind ρ (w ++ v) (xs ++ ys) = bind (bind ρ w xs) v ys := by
  induction w with
  | nil => intro ρ xs ys h; cases xs with
    | nil => rfl
    | cons _ _ => simp at h
  | cons x w ih =>
    intro ρ xs ys h
    cases xs with
    | nil => simp at h
    | cons i is =>
      simp only [List.cons_append, bind]
      exact ih _ _ _ (by simpa using h)

theorem bind_map (r : Var → Var) (L : List Var) : ∀ (ρ ρ' : Var → I) (vals : List I) (v : Var),
    (L.map r).Nodup → L.length ≤ vals.length → v ∈ L →
    bind ρ L vals v = bind ρ' (L.map r) vals (r v) := by
  induction L with
  | nil => intro _ _ _ _ _ _ h; simp at h
  | cons x L ih =>
    intro ρ ρ' vals v hn hl hv
    cases vals with
    | nil => simp at hl
    | cons i vals =>
      simp only [List.map_cons, bind]
      simp only [List.map_cons, List.nodup_cons] at hn
      by_cases hvL : v ∈ L
      · exact ih _ _ _ _ hn.2 (by simpa using hl) hvL
      · have hvx : v = x := by
          rcases List.mem_cons.1 hv with h | h
          · exact h
          · exact absurd h hvL
        subst hvx
        rw [bind_of_not_mem _ _ _ _ hvL, bind_of_not_mem _ _ _ _ hn.1, Function.update_self,
          Function.update_self]

theorem sumOver_congr (D : Nat → Finset I) (xs : List Var) : ∀ (ys : List Var) (f f' : (Var → I) → K)
    (ρ ρ' : Var → I), List.Forall₂ (fun x y => sp x = sp y) xs ys →
    (∀ is : List I, is.length = xs.length → f (bind ρ xs is) = f' (bind ρ' ys is)) →
    sumOver D xs f ρ = sumOver D ys f' ρ' := by
  induction xs with
  | nil =>
    intro ys f f' ρ ρ' h1 h2
    cases h1
    exact h2 [] rfl
  | cons x xs ih =>
    intro ys f f' ρ ρ' h1 h2
    cases h1 with
    | cons hxy h1 =>
      simp only [sumOver]
      rw [hxy]
      refine Finset.sum_congr rfl fun i _ => ih _ f f' _ _ h1 fun is his => ?_
      exact h2 (i :: is) (by simp [his])

theorem sumOver_perm (D : Nat → Finset I) {xs ys : List Var} (h : xs.Perm ys) :
    ∀ (f : (Var → I) → K) (ρ : Var → I), xs.Nodup → sumOver D xs f ρ = sumOver D ys f ρ := by
  induction h with
  | nil => intros; rfl
  | cons x _ ih =>
    intro f ρ hn
    simp only [sumOver]
    exact Finset.sum_congr rfl fun i _ => ih f _ (List.nodup_cons.1 hn).2
  | swap x y l =>
    intro f ρ hn
    simp only [sumOver]
    rw [Finset.sum_comm]
    refine Finset.sum_congr rfl fun i _ => Finset.sum_congr rfl fun j _ => ?_
    have hne : y ≠ x := by
      intro e; subst e; simp at hn
    rw [Function.update_comm hne]
  | trans h1 _ ih1 ih2 =>
    intro f ρ hn
    rw [ih1 f ρ hn, ih2 f ρ (h1.nodup_iff.1 hn)]

theorem sumOver_zero (D : Nat → Finset I) (xs : List Var) (f : (Var → I) → K) (hf : ∀ ρ, f ρ = 0) :
    ∀ ρ, sumOver D xs f ρ = 0 := by
  induction xs with
  | nil => intro ρ; exact hf ρ
  | cons x xs ih => intro ρ; simp only [sumOver, ih, Finset.sum_const_zero]

theorem sumOver_mul (D : Nat → Finset I) (c : K) (xs : List Var) (f : (Var → I) → K) :
    ∀ ρ, sumOver D xs (fun ρ => c * f ρ) ρ = c * sumOver D xs f ρ := by
  induction xs with
  | nil => intro ρ; rfl
  | cons x xs ih => intro ρ; simp only [sumOver, ih, Finset.mul_sum]

/-! ## letters -/

theorem mem_insertNew (x y : Var) (l : List Var) : y ∈ insertNew x l ↔ y = x ∨ y ∈ l := by
  unfold insertNew
  split
  · next h =>
    have : x ∈ l := by simpa using h
    constructor
    · exact Or.inr
    · rintro (rfl | h')
      · exact this
      · exact h'
  · simp

theorem nodup_insertNew (x : Var) (l : List Var) (h : l.Nodup) : (insertNew x l).Nodup := by
  unfold insertNew
  split
  · exact h
  · next hx => exact List.nodup_cons.2 ⟨by simpa using hx, h⟩

theorem mem_varsIx (ix acc : List Var) (y : Var) : y ∈ varsIx ix acc ↔ y ∈ ix ∨ y ∈ acc := by
  induction ix with
  | nil => simp [varsIx]
  | cons x ix ih =>
    have : varsIx (x :: ix) acc = insertNew x (varsIx ix acc) := rfl
    rw [this, mem_insertNew, ih, List.mem_cons, or_assoc]

theorem nodup_varsIx (ix acc : List Var) (h : acc.Nodup) : (varsIx ix acc).Nodup := by
  induction ix with
  | nil => exact h
  | cons x ix ih => exact nodup_insertNew _ _ ih

theorem mem_vars (fs : List Fac) (y : Var) : y ∈ vars fs ↔ ∃ f ∈ fs, y ∈ f.ix := by
  induction fs with
  | nil => simp [vars]
  | cons f fs ih =>
    have : vars (f :: fs) = varsIx f.ix (vars fs) := rfl
    rw [this, mem_varsIx, ih]
    simp

theorem nodup_vars (fs : List Fac) : (vars fs).Nodup := by
  induction fs with
  | nil => exact List.nodup_nil
  | cons f fs ih => exact nodup_varsIx _ _ ih

theorem mem_dums (w : List Var) (fs : List Fac) (y : Var) : y ∈ dums w fs ↔ y ∈ vars fs ∧ y ∉ w := by
  simp [dums]

theorem nodup_dums (w : List Var) (fs : List Fac) : (dums w fs).Nodup := (nodup_vars fs).filter _

theorem evalFs_congr (T : Nat → List I → K) (fs : List Fac) (ρ ρ' : Var → I)
    (h : ∀ v ∈ vars fs, ρ v = ρ' v) : evalFs T fs ρ = evalFs T fs ρ' := by
  induction fs with
  | nil => rfl
  | cons f fs ih =>
    simp only [evalFs]
    rw [ih fun v hv => h v ((mem_vars _ _).2 (by
      obtain ⟨g, hg, hv⟩ := (mem_vars _ _).1 hv
      exact ⟨g, List.mem_cons_of_mem _ hg, hv⟩))]
    congr 2
    exact List.map_congr_left fun v hv => h v ((mem_vars _ _).2 ⟨f, List.mem_cons_self, hv⟩)

/-- Rename the letters of the operands. -/
def renFs (r : Var → Var) (fs : List Fac) : List Fac := fs.map fun f => ⟨f.t, f.ix.map r⟩

theorem evalFs_ren (T : Nat → List I → K) (r : Var → Var) (fs : List Fac) (ρ ρ' : Var → I)
    (h : ∀ v ∈ vars fs, ρ v = ρ' (r v)) : evalFs T fs ρ = evalFs T (renFs r fs) ρ' := by
  induction fs with
  | nil => rfl
  | cons f fs ih =>
    simp only [evalFs, renFs, List.map_cons, List.map_map]
    rw [ih fun v hv => h v ((mem_vars _ _).2 (by
      obtain ⟨g, hg, hv⟩ := (mem_vars _ _).1 hv
      exact ⟨g, List.mem_cons_of_mem _ hg, hv⟩))]
    congr 2
    exact List.map_congr_left fun v hv => h v ((mem_vars _ _).2 ⟨f, List.mem_cons_self, hv⟩)

theorem mem_vars_renFs (r : Var → Var) (fs : List Fac) (y : Var) :
    y ∈ vars (renFs r fs) ↔ ∃ x ∈ vars fs, r x = y := by
  simp only [mem_vars, renFs, List.mem_map]
  constructor
  · rintro ⟨_, ⟨f, hf, rfl⟩, hy⟩
    obtain ⟨x, hx, rfl⟩ := List.mem_map.1 hy
    exact ⟨x, ⟨f, hf, hx⟩, rfl⟩
  · rintro ⟨x, ⟨f, hf, hx⟩, rfl⟩
    exact ⟨_, ⟨f, hf, rfl⟩, List.mem_map.2 ⟨x, hx, rfl⟩⟩

/-! ## renaming -/

/-- The sum of a term without its coefficient. -/
def raw [Inhabited I] (D : Nat → Finset I) (T : Nat → List I → K) (fs : List Fac) (w : List Var) (xs : List I) : K :=
  sumOver D (dums w fs) (evalFs T fs) (bind (fun _ => default) w xs)

/-- Renaming the letters of a term, injectively and inside the ranges, does not change its value. -/
theorem raw_ren [Inhabited I] (D : Nat → Finset I) (T : Nat → List I → K) (fs : List Fac)
    (w : List Var) (r : Var → Var) (hw : w.Nodup)
    (hinj : ∀ x, x ∈ w ∨ x ∈ vars fs → ∀ y, y ∈ w ∨ y ∈ vars fs → r x = r y → x = y)
    (hsp : ∀ x, x ∈ vars fs → sp (r x) = sp x) (xs : List I) (hxs : xs.length = w.length) :
    raw D T fs w xs = raw D T (renFs r fs) (w.map r) xs := by
  have hperm : ((dums w fs).map r).Perm (dums (w.map r) (renFs r fs)) := by
    refine (List.perm_ext_iff_of_nodup ?_ (nodup_dums _ _)).2 ?_
    · refine List.Nodup.map_on ?_ (nodup_dums _ _)
      intro x hx y hy e
      exact hinj x (Or.inr ((mem_dums _ _ _).1 hx).1) y (Or.inr ((mem_dums _ _ _).1 hy).1) e
    · intro y
      rw [mem_dums, mem_vars_renFs]
      constructor
      · intro hy
        obtain ⟨x, hx, rfl⟩ := List.mem_map.1 hy
        obtain ⟨h1, h2⟩ := (mem_dums _ _ _).1 hx
        refine ⟨⟨x, h1, rfl⟩, ?_⟩
        intro hm
        obtain ⟨z, hz, e⟩ := List.mem_map.1 hm
        have := hinj z (Or.inl hz) x (Or.inr h1) e
        exact h2 (this ▸ hz)
      · rintro ⟨⟨x, hx, rfl⟩, hy⟩
        refine List.mem_map.2 ⟨x, (mem_dums _ _ _).2 ⟨hx, fun hxw => hy (List.mem_map.2 ⟨x, hxw, rfl⟩)⟩, rfl⟩
  unfold raw
  rw [← sumOver_perm D hperm _ _ (hperm.nodup_iff.2 (nodup_dums _ _))]
  apply sumOver_congr
  · rw [List.forall₂_map_right_iff]
    refine List.forall₂_same.2 fun x hx => ?_
    exact (hsp x ((mem_dums _ _ _).1 hx).1).symm
  · intro is his
    apply evalFs_ren
    intro v hv
    rw [← bind_append w (dums w fs) _ xs is hxs,
      ← bind_append (w.map r) ((dums w fs).map r) _ xs is (by simpa using hxs),
      ← List.map_append]
    have hsub : ∀ y, y ∈ w ++ dums w fs → y ∈ w ∨ y ∈ vars fs := by
      intro y hy
      rcases List.mem_append.1 hy with h | h
      · exact Or.inl h
      · exact Or.inr ((mem_dums _ _ _).1 h).1
    apply bind_map
    · refine List.Nodup.map_on ?_ ?_
      · intro x hx y hy e
        exact hinj x (hsub x hx) y (hsub y hy) e
      · refine List.nodup_append.2 ⟨hw, nodup_dums _ _, ?_⟩
        intro a ha b hb e
        subst e
        exact ((mem_dums _ _ _).1 hb).2 ha
    · simp [hxs, his]
    · by_cases hvw : v ∈ w
      · exact List.mem_append.2 (Or.inl hvw)
      · exact List.mem_append.2 (Or.inr ((mem_dums _ _ _).2 ⟨hv, hvw⟩))

/-! ## the pieces of the check -/

@[simp] theorem force_eq {α : Type} (n : Nat) (f : Nat → α) : force n f = f n := by cases n <;> rfl

@[simp] theorem cif_true {α : Type} (x y : α) : cif true x y = x := rfl

@[simp] theorem cif_false {α : Type} (x y : α) : cif false x y = y := rfl

theorem cif_eq {α : Type} (b : Bool) (x y : α) : cif b x y = if b then x else y := by cases b <;> rfl

theorem cif_and (b c : Bool) : cif b c false = true ↔ b = true ∧ c = true := by cases b <;> simp

theorem renIx_eq (R : Nat) (ix : List Var) : renIx R ix = ix.map (look R) := by
  induction ix with
  | nil => rfl
  | cons x ix ih =>
    have : renIx R (x :: ix) = force (look R x) fun y => y :: renIx R ix := rfl
    rw [this, force_eq, ih]; rfl

theorem look_lt (R x : Nat) : look R x < 64 := by
  have : look R x = (R >>> (6 * x)) % 2 ^ 6 := Nat.and_two_pow_sub_one_eq_mod _ 6
  rw [this]; exact Nat.mod_lt _ (by norm_num)

theorem okIx_iff (R S : Nat) (ix : List Var) :
    okIx R S ix = true ↔ ∀ x ∈ ix, look S (look R x) = x ∧ sp (look R x) = sp x := by
  induction ix with
  | nil => simp [okIx]
  | cons x ix ih =>
    have : okIx R S (x :: ix) = force (look R x) fun y =>
      cif (Nat.beq (look S y) x) (cif (Nat.beq (Nat.land y 1) (Nat.land x 1)) (okIx R S ix) false) false := rfl
    rw [this, force_eq, cif_and, cif_and, ih, Nat.beq_eq, Nat.beq_eq]
    have h1 : ∀ n, Nat.land n 1 = sp n := fun n => Nat.and_one_is_mod n
    rw [h1, h1]
    simp only [List.mem_cons, forall_eq_or_imp, and_assoc]

theorem okFs_iff (R S : Nat) (fs : List Fac) :
    okFs R S fs = true ↔ ∀ f ∈ fs, okIx R S f.ix = true ∧ f.t < 256 := by
  induction fs with
  | nil => simp [okFs]
  | cons f fs ih =>
    have : okFs R S (f :: fs) = cif (okIx R S f.ix) (cif (Nat.blt f.t 256) (okFs R S fs) false) false := rfl
    rw [this, cif_and, cif_and, ih, Nat.blt_eq]
    simp only [List.mem_cons, forall_eq_or_imp, and_assoc]

theorem eqIx_iff (xs : List Var) : ∀ ys, eqIx xs ys = true ↔ xs = ys := by
  induction xs with
  | nil => intro ys; cases ys <;> simp [eqIx]
  | cons x xs ih =>
    intro ys
    cases ys with
    | nil => simp [eqIx]
    | cons y ys =>
      have : eqIx (x :: xs) (y :: ys) = cif (Nat.beq x y) (eqIx xs ys) false := rfl
      rw [this, cif_and, ih, Nat.beq_eq]; simp

theorem nodupB_sound (l : List Var) (h : nodupB l = true) : l.Nodup := by
  induction l with
  | nil => exact List.nodup_nil
  | cons x l ih =>
    have e : nodupB (x :: l) = cif (List.rec (motive := fun _ => Bool) true
      (fun y _ ih => cif (Nat.beq x y) false ih) l) (nodupB l) false := rfl
    rw [e, cif_and] at h
    refine List.nodup_cons.2 ⟨?_, ih h.2⟩
    have h1 := h.1
    clear h e ih
    induction l with
    | nil => simp
    | cons y l ih =>
      simp only at h1
      cases hb : Nat.beq x y with
      | true => rw [hb] at h1; cases h1
      | false =>
        rw [hb] at h1
        simp only [List.mem_cons, not_or]
        refine ⟨?_, ih h1⟩
        intro e
        rw [e, Nat.beq_refl] at hb
        cases hb

/-! ## index sorting -/

/-- The sign of a Boolean: true is minus. -/
def sgn (s : Bool) : K := if s then -1 else 1

theorem sgn_not (a : Bool) : (sgn (cif a false true) : K) = - sgn a := by
  cases a <;> simp [sgn]

theorem insIx_sound [CharZero K] {β : Type} (z : β) (k : Kind) (t : List I → K) (hk : k.Holds t) (x : Var)
    (ys : List Var) : ∀ (ls : List Bool) (s : Bool) (n : Nat),
    (∀ m, ls[m]? = some true → k.links[n + m]? = some true) →
    ((∀ K, insIx z x ys ls s K = z) ∧
      ∀ (ρ : Var → I) (pre : List I), pre.length = n → t (pre ++ (x :: ys).map ρ) = 0) ∨
    ∃ s' r, (∀ K, insIx z x ys ls s K = K s' r) ∧ r.Perm (x :: ys) ∧
      ∀ (ρ : Var → I) (pre : List I), pre.length = n →
        sgn s * t (pre ++ (x :: ys).map ρ) = sgn s' * t (pre ++ r.map ρ) := by
  induction ys with
  | nil =>
    intro ls s n _
    exact Or.inr ⟨s, [x], fun _ => rfl, List.Perm.refl _, fun _ _ _ => rfl⟩
  | cons y ys ih =>
    intro ls s n hl
    cases ls with
    | nil => exact Or.inr ⟨s, x :: y :: ys, fun _ => rfl, List.Perm.refl _, fun _ _ _ => rfl⟩
    | cons b ls =>
      have e : ∀ K, insIx z x (y :: ys) (b :: ls) s K = cif b
          (cif (Nat.blt x y) (K s (x :: y :: ys))
            (cif (Nat.beq x y) z (insIx z x ys ls (cif s false true) fun s r => K s (y :: r))))
          (K s (x :: y :: ys)) := fun _ => rfl
      cases b with
      | false => exact Or.inr ⟨s, x :: y :: ys, fun K => by rw [e]; rfl, List.Perm.refl _, fun _ _ _ => rfl⟩
      | true =>
        simp only [cif_true] at e
        have hlink : k.links[n]? = some true := by simpa using hl 0 rfl
        have hsw : ∀ (ρ : Var → I) (pre : List I), pre.length = n →
            t (pre ++ (x :: y :: ys).map ρ) = - t ((pre ++ [ρ y]) ++ (x :: ys).map ρ) := by
          intro ρ pre hp
          simpa using hk.anti pre (ρ x) (ρ y) (ys.map ρ) (by rw [hp]; exact hlink)
        cases h1 : Nat.blt x y with
        | true =>
          simp only [h1, cif_true] at e
          exact Or.inr ⟨s, x :: y :: ys, e, List.Perm.refl _, fun _ _ _ => rfl⟩
        | false =>
          simp only [h1, cif_false] at e
          cases h2 : Nat.beq x y with
          | true =>
            simp only [h2, cif_true] at e
            refine Or.inl ⟨e, ?_⟩
            intro ρ pre hp
            rw [Nat.beq_eq] at h2
            subst h2
            have h := hk.anti pre (ρ x) (ρ x) (ys.map ρ) (by rw [hp]; exact hlink)
            have h2 : (2 : K) * t (pre ++ ρ x :: ρ x :: ys.map ρ) = 0 := by linear_combination h
            rcases mul_eq_zero.1 h2 with h3 | h3
            · exact absurd h3 (OfNat.ofNat_ne_zero 2)
            · simpa using h3
          | false =>
            simp only [h2, cif_false] at e
            rcases ih ls (cif s false true) (n + 1) (by
              intro m hm
              have := hl (m + 1) (by simpa using hm)
              simpa [Nat.add_assoc, Nat.add_comm 1 m] using this) with ⟨h3, h4⟩ | ⟨s', r, h3, h4, h5⟩
            · refine Or.inl ⟨fun K => by rw [e, h3], fun ρ pre hp => ?_⟩
              rw [hsw ρ pre hp, h4 ρ _ (by simp [hp]), neg_zero]
            · refine Or.inr ⟨s', y :: r, fun K => by rw [e, h3],
                (h4.cons y).trans (List.Perm.swap _ _ _), fun ρ pre hp => ?_⟩
              rw [hsw ρ pre hp]
              have := h5 ρ (pre ++ [ρ y]) (by simp [hp])
              rw [sgn_not] at this
              simp only [List.map_cons] at this ⊢
              rw [show pre ++ ρ y :: List.map ρ r = pre ++ [ρ y] ++ List.map ρ r by simp]
              linear_combination this

theorem sortIx_sound [CharZero K] {β : Type} (z : β) (k : Kind) (t : List I → K) (hk : k.Holds t)
    (ls : List Bool) : ∀ (xs : List Var) (s : Bool) (n : Nat),
    (∀ m, ls[m]? = some true → k.links[n + m]? = some true) →
    ((∀ K, sortIx z ls xs s K = z) ∧
      ∀ (ρ : Var → I) (pre : List I), pre.length = n → t (pre ++ xs.map ρ) = 0) ∨
    ∃ s' r, (∀ K, sortIx z ls xs s K = K s' r) ∧ r.Perm xs ∧
      ∀ (ρ : Var → I) (pre : List I), pre.length = n →
        sgn s * t (pre ++ xs.map ρ) = sgn s' * t (pre ++ r.map ρ) := by
  induction ls with
  | nil => intro xs s n _; exact Or.inr ⟨s, xs, fun _ => rfl, List.Perm.refl _, fun _ _ _ => rfl⟩
  | cons l ls ih =>
    intro xs s n hl
    cases xs with
    | nil => exact Or.inr ⟨s, [], fun _ => rfl, List.Perm.refl _, fun _ _ _ => rfl⟩
    | cons x xs =>
      have e : ∀ K, sortIx z (l :: ls) (x :: xs) s K =
        sortIx z ls xs s fun s r => insIx z x r (l :: ls) s K := fun _ => rfl
      rcases ih xs s (n + 1) (by
          intro m hm
          have := hl (m + 1) (by simpa using hm)
          simpa [Nat.add_assoc, Nat.add_comm 1 m] using this) with ⟨h3, h4⟩ | ⟨s1, r1, h3, h4, h5⟩
      · refine Or.inl ⟨fun K => by rw [e, h3], fun ρ pre hp => ?_⟩
        have := h4 ρ (pre ++ [ρ x]) (by simp [hp])
        simpa using this
      · have e5 : ∀ (ρ : Var → I) (pre : List I), pre.length = n →
            sgn s * t (pre ++ (x :: xs).map ρ) = sgn s1 * t (pre ++ (x :: r1).map ρ) := by
          intro ρ pre hp
          have := h5 ρ (pre ++ [ρ x]) (by simp [hp])
          simpa using this
        rcases insIx_sound z k t hk x r1 (l :: ls) s1 n hl with ⟨h6, h7⟩ | ⟨s2, r2, h6, h7, h8⟩
        · refine Or.inl ⟨fun K => by rw [e, h3, h6], fun ρ pre hp => ?_⟩
          have := e5 ρ pre hp
          rw [h7 ρ pre hp, mul_zero] at this
          cases s <;> simpa [sgn] using this
        · refine Or.inr ⟨s2, r2, fun K => by rw [e, h3, h6], h7.trans (h4.cons x), fun ρ pre hp => ?_⟩
          rw [e5 ρ pre hp, h8 ρ pre hp]

theorem hermIx_sound (k : Kind) (t : List I → K) (hk : k.Holds t) (hh : k.herm = true) (ix : List Var)
    (ρ : Var → I) : t ((hermIx ix).map ρ) = t (ix.map ρ) := by
  unfold hermIx
  split
  · rw [cif_eq]; split
    · next p q _ => simpa using hk.herm hh [ρ q] [ρ p] rfl
    · rfl
  · rw [cif_eq]; split
    · next p q r s _ => simpa using hk.herm hh [ρ r, ρ s] [ρ p, ρ q] rfl
    · rfl
  · rfl

theorem hermIx_perm (ix : List Var) : (hermIx ix).Perm ix := by
  unfold hermIx
  split
  · rw [cif_eq]; split
    · exact List.Perm.swap _ _ _
    · exact List.Perm.refl _
  · rw [cif_eq]; split
    · next p q r s _ => exact List.perm_append_comm (l₁ := [r, s]) (l₂ := [p, q])
    · exact List.Perm.refl _
  · exact List.Perm.refl _

/-- Numbers fit the key of an operand. -/
def Valid (fs : List Fac) : Prop := ∀ f ∈ fs, f.t < 256 ∧ ∀ x ∈ f.ix, x < 64

theorem normFs_sound [CharZero K] {β : Type} (z : β) (kinds : Nat → Kind) (T : Nat → List I → K)
    (hk : ∀ t, (kinds t).Holds (T t)) (R : Nat) (fs : List Fac) : ∀ s,
    (∀ f ∈ fs, f.t < 256) →
    ((∀ K, normFs z kinds R fs s K = z) ∧ ∀ ρ, evalFs T (renFs (look R) fs) ρ = 0) ∨
    ∃ s' fs', (∀ K, normFs z kinds R fs s K = K s' fs') ∧
      (∀ ρ, sgn s * evalFs T (renFs (look R) fs) ρ = sgn s' * evalFs T fs' ρ) ∧
      (∀ y, y ∈ vars fs' ↔ y ∈ vars (renFs (look R) fs)) ∧ Valid fs' := by
  induction fs with
  | nil =>
    intro s _
    exact Or.inr ⟨s, [], fun _ => rfl, fun _ => rfl, fun _ => Iff.rfl, fun f hf => by simp at hf⟩
  | cons f fs ih =>
    intro s ht
    have e : ∀ K, normFs z kinds R (f :: fs) s K =
      sortIx z (kinds f.t).links (renIx R f.ix) s fun s ix => normFs z kinds R fs s fun s fs =>
        K s (⟨f.t, cif (kinds f.t).herm (hermIx ix) ix⟩ :: fs) := fun _ => rfl
    have ec : renFs (look R) (f :: fs) = ⟨f.t, f.ix.map (look R)⟩ :: renFs (look R) fs := rfl
    rw [renIx_eq] at e
    rcases sortIx_sound z (kinds f.t) (T f.t) (hk f.t) (kinds f.t).links (f.ix.map (look R)) s 0
      (by intro m hm; simpa using hm) with ⟨h3, h4⟩ | ⟨s1, r1, h3, h4, h5⟩
    · refine Or.inl ⟨fun K => by rw [e, h3], fun ρ => ?_⟩
      have := h4 ρ [] rfl
      rw [ec]
      simp only [evalFs]
      rw [List.nil_append] at this
      rw [this, zero_mul]
    · rcases ih s1 (fun g hg => ht g (List.mem_cons_of_mem _ hg)) with ⟨h6, h7⟩ | ⟨s2, fs2, h6, h7, h8, h9⟩
      · refine Or.inl ⟨fun K => by rw [e, h3, h6], fun ρ => ?_⟩
        rw [ec]
        simp only [evalFs]
        rw [h7, mul_zero]
      · refine Or.inr ⟨s2, _, fun K => by rw [e, h3, h6], fun ρ => ?_, ?_, ?_⟩
        · rw [ec]
          simp only [evalFs]
          have h10 := h5 ρ [] rfl
          simp only [List.nil_append] at h10
          have h11 : T f.t ((cif (kinds f.t).herm (hermIx r1) r1).map ρ) = T f.t (r1.map ρ) := by
            cases hh : (kinds f.t).herm with
            | false => rfl
            | true => exact hermIx_sound (kinds f.t) (T f.t) (hk f.t) hh r1 ρ
          rw [h11, ← mul_assoc, h10]
          linear_combination T f.t (r1.map ρ) * h7 ρ
        · intro y
          have hp : (cif (kinds f.t).herm (hermIx r1) r1).Perm (f.ix.map (look R)) := by
            refine List.Perm.trans ?_ h4
            cases (kinds f.t).herm with
            | false => exact List.Perm.refl _
            | true => exact hermIx_perm r1
          have h8 := h8 y
          rw [ec]
          simp only [mem_vars, List.mem_cons, exists_eq_or_imp] at h8 ⊢
          rw [h8, hp.mem_iff]
        · intro g hg
          rcases List.mem_cons.1 hg with rfl | hg
          · refine ⟨ht f List.mem_cons_self, fun x hx => ?_⟩
            have hp : (cif (kinds f.t).herm (hermIx r1) r1).Perm (f.ix.map (look R)) := by
              refine List.Perm.trans ?_ h4
              cases (kinds f.t).herm with
              | false => exact List.Perm.refl _
              | true => exact hermIx_perm r1
            obtain ⟨y, _, rfl⟩ := List.mem_map.1 (hp.mem_iff.1 hx)
            exact look_lt _ _
          · exact h9 g hg

theorem evalFs_perm (T : Nat → List I → K) {fs gs : List Fac} (h : fs.Perm gs) (ρ : Var → I) :
    evalFs T fs ρ = evalFs T gs ρ := by
  induction h with
  | nil => rfl
  | cons x _ ih => simp only [evalFs, ih]
  | swap x y l => simp only [evalFs]; ring
  | trans _ _ ih1 ih2 => rw [ih1, ih2]

theorem dums_perm_of_vars (w : List Var) (fs fs' : List Fac) (h : ∀ y, y ∈ vars fs' ↔ y ∈ vars fs) :
    (dums w fs).Perm (dums w fs') := by
  refine (List.perm_ext_iff_of_nodup (nodup_dums _ _) (nodup_dums _ _)).2 fun y => ?_
  rw [mem_dums, mem_dums, h]

theorem raw_congr [Inhabited I] (D : Nat → Finset I) (T : Nat → List I → K) (fs fs' : List Fac) (w : List Var)
    (xs : List I) (c : K) (h1 : ∀ y, y ∈ vars fs' ↔ y ∈ vars fs) (h2 : ∀ ρ, evalFs T fs ρ = c * evalFs T fs' ρ) :
    raw D T fs w xs = c * raw D T fs' w xs := by
  unfold raw
  rw [← sumOver_perm D (dums_perm_of_vars w fs fs' h1) _ _ (nodup_dums _ _), funext h2, sumOver_mul]

theorem raw_perm [Inhabited I] (D : Nat → Finset I) (T : Nat → List I → K) {fs fs' : List Fac} (h : fs.Perm fs')
    (w : List Var) (xs : List I) : raw D T fs w xs = raw D T fs' w xs := by
  have := raw_congr D T fs fs' w xs 1 (by
    intro y
    simp only [mem_vars, h.mem_iff]) (fun ρ => by rw [one_mul, evalFs_perm T h])
  rw [this, one_mul]

/-! ## keys -/

theorem ixKey_eq (ix : List Var) : ixKey ix = Nat.ofDigits 64 (ix ++ [1]) := by
  induction ix with
  | nil => rfl
  | cons x ix ih =>
    have : ixKey (x :: ix) = x + 64 * ixKey ix := rfl
    rw [this, ih, List.cons_append, Nat.ofDigits_cons]

/-- The operand with a given key. -/
def unKey (k : Nat) : Fac := ⟨k % 256, (Nat.digits 64 (k / 256)).dropLast⟩

theorem unKey_facKey (f : Fac) (h : f.t < 256 ∧ ∀ x ∈ f.ix, x < 64) : unKey (facKey f) = f := by
  have e : facKey f = f.t + 256 * ixKey f.ix := rfl
  unfold unKey
  rw [e, ixKey_eq, Nat.add_mul_mod_self_left, Nat.mod_eq_of_lt h.1, Nat.add_mul_div_left _ _ (by norm_num),
    Nat.div_eq_of_lt h.1, Nat.zero_add, Nat.digits_ofDigits]
  · simp
  · norm_num
  · intro l hl
    rcases List.mem_append.1 hl with hl | hl
    · exact h.2 l hl
    · simp at hl; rw [hl]; norm_num
  · intro _; simp

theorem facKey_pos (f : Fac) : facKey f ≠ 0 := by
  have e : facKey f = f.t + 256 * ixKey f.ix := rfl
  have : 0 < ixKey f.ix := by
    cases f.ix with
    | nil => exact Nat.one_pos
    | cons x ix =>
      rw [ixKey_eq, List.cons_append, Nat.ofDigits_cons, ← ixKey_eq]
      have : 0 < ixKey ix := by
        induction ix with
        | nil => exact Nat.one_pos
        | cons y ix ih =>
          have : ixKey (y :: ix) = y + 64 * ixKey ix := rfl
          omega
      omega
  omega

theorem insKey_perm (k : Nat) (l : List Nat) : (insKey k l).Perm (k :: l) := by
  induction l with
  | nil => exact List.Perm.refl _
  | cons k' l ih =>
    have : insKey k (k' :: l) = cif (Nat.blt k k') (k :: k' :: l) (k' :: insKey k l) := rfl
    rw [this, cif_eq]
    split
    · exact List.Perm.refl _
    · exact (ih.cons k').trans (List.Perm.swap _ _ _)

theorem sortKeys_perm (fs : List Fac) : (sortKeys fs).Perm (fs.map facKey) := by
  induction fs with
  | nil => exact List.Perm.refl _
  | cons f fs ih =>
    have : sortKeys (f :: fs) = force (facKey f) fun k => insKey k (sortKeys fs) := rfl
    rw [this, force_eq]
    exact (insKey_perm _ _).trans (ih.cons _)

theorem perm_of_sortKeys (fs fs' : List Fac) (h : Valid fs) (h' : Valid fs') (e : sortKeys fs = sortKeys fs') :
    fs.Perm fs' := by
  have hp : (fs.map facKey).Perm (fs'.map facKey) := (sortKeys_perm fs).symm.trans (e ▸ sortKeys_perm fs')
  have hid : ∀ gs : List Fac, Valid gs → (gs.map facKey).map unKey = gs := by
    intro gs hg
    rw [List.map_map]
    conv_rhs => rw [← List.map_id gs]
    exact List.map_congr_left fun f hf => unKey_facKey f (hg f hf)
  rw [← hid fs h, ← hid fs' h']
  exact hp.map unKey

/-- Size of the keys. -/
abbrev big : Nat := 340282366920938463463374607431768211456

theorem combKey_sound (l : List Nat) : ∀ K, combKey false l K = true →
    K (Nat.ofDigits big l) = true ∧ ∀ x ∈ l, x < big := by
  induction l with
  | nil => intro K h; exact ⟨h, by simp⟩
  | cons x l ih =>
    intro K h
    have e : combKey false (x :: l) K = cif (Nat.blt x big) (combKey false l fun n => K (x + big * n)) false := rfl
    rw [e, cif_and, Nat.blt_eq] at h
    obtain ⟨h1, h2⟩ := ih _ h.2
    refine ⟨?_, ?_⟩
    · rw [Nat.ofDigits_cons]; exact h1
    · intro y hy
      rcases List.mem_cons.1 hy with rfl | hy
      · exact h.1
      · exact h2 y hy

theorem ofDigits_big_inj (l l' : List Nat) (h : ∀ x ∈ l, x < big) (h' : ∀ x ∈ l', x < big)
    (h0 : ∀ x ∈ l, x ≠ 0) (h0' : ∀ x ∈ l', x ≠ 0) (e : Nat.ofDigits big l = Nat.ofDigits big l') : l = l' := by
  have hb : 1 < big := by norm_num
  rw [← Nat.digits_ofDigits big hb l h (fun hl => h0 _ (List.getLast_mem hl)),
    ← Nat.digits_ofDigits big hb l' h' (fun hl => h0' _ (List.getLast_mem hl)), e]

/-! ## collection -/

variable [Inhabited I]

/-- The key of a node is the key of its operands. -/
def Keyed (k : Nat) (fs : List Fac) : Prop :=
  Valid fs ∧ (∀ x ∈ sortKeys fs, x < big) ∧ k = Nat.ofDigits big (sortKeys fs)

theorem Keyed.perm {k : Nat} {fs fs' : List Fac} (h : Keyed k fs) (h' : Keyed k fs') : fs.Perm fs' := by
  refine perm_of_sortKeys fs fs' h.1 h'.1 (ofDigits_big_inj _ _ h.2.1 h'.2.1 ?_ ?_ (h.2.2 ▸ h'.2.2))
  · intro x hx
    obtain ⟨f, _, rfl⟩ := List.mem_map.1 ((sortKeys_perm fs).mem_iff.1 hx)
    exact facKey_pos f
  · intro x hx
    obtain ⟨f, _, rfl⟩ := List.mem_map.1 ((sortKeys_perm fs').mem_iff.1 hx)
    exact facKey_pos f

def Tree.Ok : Tree → Prop
  | leaf => True
  | node l k fs _ _ r => l.Ok ∧ Keyed k fs ∧ r.Ok

def Tree.val (D : Nat → Finset I) (T : Nat → List I → K) (w : List Var) (xs : List I) : Tree → K
  | leaf => 0
  | node l _ fs p n r => l.val D T w xs + ((p : K) - n) * raw D T fs w xs + r.val D T w xs

theorem Tree.insert_sound (D : Nat → Finset I) (T : Nat → List I → K) (w : List Var) (xs : List I) {β : Type}
    (k : Nat) (fs : List Fac) (p n : Nat) (hk : Keyed k fs) (tr : Tree) (ho : tr.Ok) :
    ∃ tr' : Tree, (∀ K : Tree → β, tr.insert k fs p n K = K tr') ∧ tr'.Ok ∧
      tr'.val D T w xs = tr.val D T w xs + ((p : K) - n) * raw D T fs w xs := by
  induction tr with
  | leaf =>
    refine ⟨_, fun _ => rfl, ⟨trivial, hk, trivial⟩, ?_⟩
    simp [Tree.val]
  | node l k' fs' p' n' r ihl ihr =>
    have e : ∀ K : Tree → β, (node l k' fs' p' n' r).insert k fs p n K = cif (Nat.beq k k')
        (force (Nat.add p' p) fun p => force (Nat.add n' n) fun n => K (node l k' fs' p n r))
        (cif (Nat.blt k k') (l.insert k fs p n fun l => K (node l k' fs' p' n' r))
          (r.insert k fs p n fun r => K (node l k' fs' p' n' r))) := fun _ => rfl
    cases h1 : Nat.beq k k' with
    | true =>
      refine ⟨node l k' fs' (Nat.add p' p) (Nat.add n' n) r,
        fun K => by rw [e, h1, cif_true, force_eq, force_eq], ⟨ho.1, ho.2⟩, ?_⟩
      rw [Nat.beq_eq] at h1
      subst h1
      simp only [Tree.val]
      rw [raw_perm D T (hk.perm ho.2.1)]
      have h2 : ((Nat.add p' p : Nat) : K) = p' + p := Nat.cast_add _ _
      have h3 : ((Nat.add n' n : Nat) : K) = n' + n := Nat.cast_add _ _
      rw [h2, h3]
      ring
    | false =>
      cases h2 : Nat.blt k k' with
      | true =>
        obtain ⟨l', h3, h4, h5⟩ := ihl ho.1
        refine ⟨node l' k' fs' p' n' r, fun K => by rw [e, h1, cif_false, h2, cif_true, h3], ⟨h4, ho.2⟩, ?_⟩
        simp only [Tree.val, h5]; ring
      | false =>
        obtain ⟨r', h3, h4, h5⟩ := ihr ho.2.2
        refine ⟨node l k' fs' p' n' r', fun K => by rw [e, h1, cif_false, h2, cif_false, h3], ⟨ho.1, ho.2.1, h4⟩, ?_⟩
        simp only [Tree.val, h5]; ring

theorem Tree.val_allZero (D : Nat → Finset I) (T : Nat → List I → K) (w : List Var) (xs : List I)
    (tr : Tree) (h : tr.allZero = true) : tr.val D T w xs = 0 := by
  induction tr with
  | leaf => rfl
  | node l k' fs' p n r ihl ihr =>
    have e : (node l k' fs' p n r).allZero = cif (Nat.beq p n) (cif l.allZero r.allZero false) false := rfl
    rw [e, cif_and, cif_and, Nat.beq_eq] at h
    obtain ⟨rfl, h1, h2⟩ := h
    simp [Tree.val, ihl h1, ihr h2]

variable [CharZero K] (D : Nat → Finset I) (kinds : Nat → Kind) (T : Nat → List I → K)
  (hk : ∀ t, (kinds t).Holds (T t)) (outs : List Var) (hout : outs.Nodup) (xs : List I)
  (hxs : xs.length = outs.length)

include hk hxs hout

theorem addRen_sound (p n : Nat) (fs : List Fac) (w : List Var) (R S : Nat) (tr : Tree) (ho : tr.Ok)
    (C : Tree → Bool) (h : addRen kinds outs p n fs w R S tr C = true) :
    ∃ tr', tr'.Ok ∧ C tr' = true ∧
      tr'.val D T outs xs = tr.val D T outs xs + ((p : K) - n) * raw D T fs w xs := by
  unfold addRen at h
  rw [cif_and, cif_and, cif_and, okIx_iff, okFs_iff, eqIx_iff, renIx_eq] at h
  obtain ⟨hw, hf, hwo, h⟩ := h
  have hlen : xs.length = w.length := by rw [hxs, ← hwo, List.length_map]
  have hall : ∀ x, x ∈ w ∨ x ∈ vars fs → look S (look R x) = x ∧ sp (look R x) = sp x := by
    rintro x (hx | hx)
    · exact hw x hx
    · obtain ⟨f, hff, hx⟩ := (mem_vars _ _).1 hx
      exact (okIx_iff R S f.ix).1 (hf f hff).1 x hx
  have hren : raw D T fs w xs = raw D T (renFs (look R) fs) outs xs := by
    rw [raw_ren D T fs w (look R) ?_ ?_ ?_ xs hlen, hwo]
    · rw [← hwo] at hout; exact List.Nodup.of_map _ hout
    · intro x hx y hy e
      rw [← (hall x hx).1, e, (hall y hy).1]
    · intro x hx; exact (hall x (Or.inr hx)).2
  rw [hren]
  rcases normFs_sound (C tr) kinds T hk R fs false (fun f hff => (hf f hff).2) with
    ⟨h3, h4⟩ | ⟨s', fs', h3, h4, h5, h6⟩
  · rw [h3] at h
    refine ⟨tr, ho, h, ?_⟩
    unfold raw
    rw [sumOver_zero _ _ _ h4, mul_zero, add_zero]
  · rw [h3] at h
    obtain ⟨h7, h8⟩ := combKey_sound _ _ h
    rw [force_eq] at h7
    have hkey : Keyed (Nat.ofDigits big (sortKeys fs')) fs' := ⟨h6, h8, rfl⟩
    have e1 : raw D T (renFs (look R) fs) outs xs = sgn s' * raw D T fs' outs xs := by
      refine raw_congr D T _ _ outs xs _ h5 fun ρ => ?_
      rw [← h4 ρ]; simp [sgn]
    rw [e1]
    cases s' with
    | true =>
      rw [cif_true] at h7
      obtain ⟨tr', h9, h10, h11⟩ := Tree.insert_sound D T outs xs (β := Bool) _ fs' n p hkey tr ho
      rw [h9] at h7
      refine ⟨tr', h10, h7, ?_⟩
      rw [h11]; simp only [sgn, if_true]; ring
    | false =>
      rw [cif_false] at h7
      obtain ⟨tr', h9, h10, h11⟩ := Tree.insert_sound D T outs xs (β := Bool) _ fs' p n hkey tr ho
      rw [h9] at h7
      refine ⟨tr', h10, h7, ?_⟩
      rw [h11]; simp [sgn]

theorem addTerm_sound (p n : Nat) (fs : List Fac) (w : List Var) (tr : Tree) (ho : tr.Ok) (cs : List Nat)
    (C : Tree → List Nat → Bool) (h : addTerm kinds outs p n fs w tr cs C = true) :
    ∃ tr' cs', tr'.Ok ∧ C tr' cs' = true ∧
      tr'.val D T outs xs = tr.val D T outs xs + 2 * ((p : K) - n) * raw D T fs w xs := by
  unfold addTerm at h
  split at h
  · next R S cs =>
    rw [cif_eq] at h
    split at h
    · split at h
      · next S₁ R₂ S₂ cs =>
        obtain ⟨tr1, h1, h2, h3⟩ := addRen_sound D kinds T hk outs hout xs hxs _ _ _ _ _ _ _ ho _ h
        obtain ⟨tr2, h4, h5, h6⟩ := addRen_sound D kinds T hk outs hout xs hxs _ _ _ _ _ _ _ h1 _ h2
        exact ⟨tr2, cs, h4, h5, by rw [h6, h3]; ring⟩
      · cases h
    · rw [force_eq, force_eq] at h
      obtain ⟨tr1, h1, h2, h3⟩ := addRen_sound D kinds T hk outs hout xs hxs _ _ _ _ _ _ _ ho _ h
      refine ⟨tr1, cs, h1, h2, ?_⟩
      have e : ∀ m : Nat, ((Nat.mul 2 m : Nat) : K) = 2 * m := fun m => by
        rw [show Nat.mul 2 m = 2 * m from rfl, Nat.cast_mul]; norm_num
      rw [h3, e, e]; ring
  · cases h

theorem addPs_sound (p n : Nat) (fs : List Fac) (ps : List (ℤ × List Var)) :
    ∀ (tr : Tree) (_ : tr.Ok) (cs : List Nat) (C : Tree → List Nat → Bool),
    addPs kinds outs p n fs ps tr cs C = true →
    ∃ tr' cs', tr'.Ok ∧ C tr' cs' = true ∧ tr'.val D T outs xs = tr.val D T outs xs +
      2 * ((p : K) - n) * (ps.map fun q => (q.1 : K) * raw D T fs q.2 xs).sum := by
  induction ps with
  | nil =>
    intro tr ho cs C h
    exact ⟨tr, cs, ho, h, by simp⟩
  | cons q ps ih =>
    intro tr ho cs C h
    obtain ⟨q1, q2⟩ := q
    cases q1 with
    | ofNat m =>
      have e : addPs kinds outs p n fs ((Int.ofNat m, q2) :: ps) tr cs C =
        addTerm kinds outs (Nat.mul m p) (Nat.mul m n) fs q2 tr cs
          fun tr cs => addPs kinds outs p n fs ps tr cs C := rfl
      rw [e] at h
      obtain ⟨tr1, cs1, h1, h2, h3⟩ := addTerm_sound D kinds T hk outs hout xs hxs _ _ _ _ _ ho _ _ h
      obtain ⟨tr2, cs2, h4, h5, h6⟩ := ih tr1 h1 cs1 C h2
      refine ⟨tr2, cs2, h4, h5, ?_⟩
      have e : ∀ a b : Nat, ((Nat.mul a b : Nat) : K) = a * b := fun a b => Nat.cast_mul a b
      rw [h6, h3, e, e]
      simp only [List.map_cons, List.sum_cons, Int.ofNat_eq_natCast, Int.cast_natCast]
      ring
    | negSucc m =>
      have e : addPs kinds outs p n fs ((Int.negSucc m, q2) :: ps) tr cs C =
        addTerm kinds outs (Nat.mul (Nat.succ m) n) (Nat.mul (Nat.succ m) p) fs q2 tr cs
          fun tr cs => addPs kinds outs p n fs ps tr cs C := rfl
      rw [e] at h
      obtain ⟨tr1, cs1, h1, h2, h3⟩ := addTerm_sound D kinds T hk outs hout xs hxs _ _ _ _ _ ho _ _ h
      obtain ⟨tr2, cs2, h4, h5, h6⟩ := ih tr1 h1 cs1 C h2
      refine ⟨tr2, cs2, h4, h5, ?_⟩
      have e : ∀ a b : Nat, ((Nat.mul a b : Nat) : K) = a * b := fun a b => Nat.cast_mul a b
      rw [h6, h3, e, e]
      simp only [List.map_cons, List.sum_cons, Int.cast_negSucc]
      push_cast
      ring

omit hk hxs hout [CharZero K] in
theorem Blk.eval_eq (b : Blk) :
    b.eval D T xs = (b.c : K) * (b.ps.map fun q => (q.1 : K) * raw D T b.fs q.2 xs).sum := by
  unfold Blk.eval
  induction b.ps with
  | nil => simp
  | cons q ps ih =>
    rw [List.map_cons, List.sum_cons, ih, List.map_cons, List.sum_cons]
    simp only [termVal, raw]
    ring

theorem addProg_sound (den : Nat) (P : Prog) :
    ∀ (tr : Tree) (_ : tr.Ok) (cs : List Nat) (C : Tree → List Nat → Bool),
    addProg kinds outs den P tr cs C = true →
    ∃ tr' cs', tr'.Ok ∧ C tr' cs' = true ∧
      tr'.val D T outs xs = tr.val D T outs xs + 2 * (den : K) * P.eval D T xs := by
  induction P with
  | nil =>
    intro tr ho cs C h
    exact ⟨tr, cs, ho, h, by simp [Prog.eval]⟩
  | cons b P ih =>
    intro tr ho cs C h
    have e : addProg kinds outs den (b :: P) tr cs C = cif (Nat.beq (Nat.mod den b.c.den) 0)
        (Int.rec (motive := fun _ => Bool)
          (fun m => force (Nat.mul m (Nat.div den b.c.den)) fun p =>
            addPs kinds outs p 0 b.fs b.ps tr cs fun tr cs => addProg kinds outs den P tr cs C)
          (fun m => force (Nat.mul (Nat.succ m) (Nat.div den b.c.den)) fun n =>
            addPs kinds outs 0 n b.fs b.ps tr cs fun tr cs => addProg kinds outs den P tr cs C) b.c.num)
        false := rfl
    rw [e, cif_and, Nat.beq_eq] at h
    obtain ⟨hd, h⟩ := h
    have hd : b.c.den ∣ den := Nat.dvd_of_mod_eq_zero hd
    obtain ⟨q, hq⟩ := hd
    have hq' : Nat.div den b.c.den = q := by
      show den / b.c.den = q
      rw [hq, Nat.mul_div_cancel_left _ b.c.den_pos]
    have hc : (den : K) * (b.c : K) = (b.c.num : K) * q := by
      have hden0 : (b.c.den : K) ≠ 0 := Nat.cast_ne_zero.2 b.c.den_nz
      have hr : (b.c : K) = (b.c.num : K) / (b.c.den : K) := Rat.cast_def b.c
      rw [hr, hq, Nat.cast_mul]
      field_simp
    rw [hq'] at h
    have key : ∃ tr1 cs1, tr1.Ok ∧ addProg kinds outs den P tr1 cs1 C = true ∧
        tr1.val D T outs xs = tr.val D T outs xs + 2 * ((b.c.num : K) * q) *
          (b.ps.map fun q => (q.1 : K) * raw D T b.fs q.2 xs).sum := by
      cases hn : b.c.num with
      | ofNat m =>
        rw [hn] at h
        simp only [force_eq] at h
        obtain ⟨tr1, cs1, h1, h2, h3⟩ := addPs_sound D kinds T hk outs hout xs hxs _ _ _ _ _ ho _ _ h
        refine ⟨tr1, cs1, h1, h2, ?_⟩
        have e : ∀ a b : Nat, ((Nat.mul a b : Nat) : K) = a * b := fun a b => Nat.cast_mul a b
        rw [h3, e]
        simp
      | negSucc m =>
        rw [hn] at h
        simp only [force_eq] at h
        obtain ⟨tr1, cs1, h1, h2, h3⟩ := addPs_sound D kinds T hk outs hout xs hxs _ _ _ _ _ ho _ _ h
        refine ⟨tr1, cs1, h1, h2, ?_⟩
        have e : ∀ a b : Nat, ((Nat.mul a b : Nat) : K) = a * b := fun a b => Nat.cast_mul a b
        rw [h3, e, Int.cast_negSucc]
        push_cast
        ring
    obtain ⟨tr1, cs1, h1, h2, h3⟩ := key
    obtain ⟨tr2, cs2, h4, h5, h6⟩ := ih tr1 h1 cs1 C h2
    refine ⟨tr2, cs2, h4, h5, ?_⟩
    rw [h6, h3, ← hc]
    simp only [Prog.eval, List.map_cons, List.sum_cons, Blk.eval_eq]
    ring

omit hout in
/-- **Soundness of the check**: the program gives zero for all tensors with the stated symmetries, over all
index sets, at every entry. -/
theorem eval_eq_zero (den : Nat) (P : Prog) (cs : List Nat) (h : isZero kinds outs den P cs = true) :
    P.eval D T xs = 0 := by
  unfold isZero at h
  rw [cif_and, cif_and, Nat.blt_eq] at h
  obtain ⟨h1, h2, h3⟩ := h
  obtain ⟨tr, cs', _, h5, h6⟩ := addProg_sound D kinds T hk outs (nodupB_sound _ h1) xs hxs den P .leaf
    trivial cs _ h3
  rw [Tree.val_allZero D T outs xs tr h5] at h6
  simp only [Tree.val, zero_add] at h6
  have h7 : (2 : K) * (den : K) ≠ 0 :=
    mul_ne_zero (OfNat.ofNat_ne_zero 2) (Nat.cast_ne_zero.2 (Nat.pos_iff_ne_zero.1 h2))
  exact (mul_eq_zero.1 h6.symm).resolve_left h7

end Verif.Ein
