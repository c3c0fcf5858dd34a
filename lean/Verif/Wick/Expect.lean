import Verif.Wick.Line

/-!
# Expectation values as einsum programs

`wickE` lists the full contractions of a string of operators, with weights. `prog` is the einsum program of the
expectation value of an operator given by terms.
-/

namespace Verif.Wick

open Verif.Ein

/-- All full contractions: weight and renamed operands. -/
noncomputable def wickE : Nat → List (Bool × Var) → List Fac → List (ℤ × List Fac)
  | _, [], fs => [(1, fs)]
  | 0, _ :: _, _ => []
  | n + 1, x :: l, fs =>
    cif (isQ x) ((runs nul l).flatMap fun r => cif (canC x r.2.2.1)
      ((wickE n r.2.2.2 (subst r.2.2.1.2 x.2 fs)).map fun q => ((if r.2.1 then -1 else 1) * (r.1 * q.1), q.2)) []) []

variable {I K A M : Type} [DecidableEq I] [Field K] [Ring A] [Algebra K A] [AddCommGroup M] [Module K M]
  {D : Nat → Finset I} (F : Fermi I K A D)

/-- The letters of the operators are distinct and known, output letters are quasi-annihilators, equivalent operators
belong to equivalent axes. -/
structure GoodE (T : Nat → List I → K) (w : List Var) (fs : List Fac) (ops : List (Bool × Var)) : Prop where
  nodup : (ops.map Prod.snd).Nodup
  known : ∀ x ∈ ops, x.2 ∈ w ∨ x.2 ∈ vars fs
  ext : ∀ x ∈ ops, x.2 ∈ w → isQ x = true
  sw : ∀ z ∈ ops, ∀ z' ∈ ops, z ≠ z' → eqv z z' = true → Sw T fs z.2 z'.2

omit [DecidableEq I] in
theorem Sw.subst {T : Nat → List I → K} {fs : List Fac} {y y' : Var} (h : Sw T fs y y') (z x : Var) (hz : z ≠ y)
    (hz' : z ≠ y') (hx : x ≠ y) (hx' : x ≠ y') : Sw T (Wick.subst z x fs) y y' := by
  intro ρ
  rw [subst_eq]
  set r : Var → Var := fun v => if v = z then x else v with hr
  rw [← evalFs_ren T r fs ((ρ ∘ Equiv.swap y y') ∘ r) (ρ ∘ Equiv.swap y y') fun _ _ => rfl,
    ← evalFs_ren T r fs (ρ ∘ r) ρ fun _ _ => rfl, ← h]
  congr 1
  funext v
  simp only [Function.comp, hr]
  by_cases hv : v = z
  · subst hv
    rw [if_pos rfl, Equiv.swap_apply_of_ne_of_ne hx hx', Equiv.swap_apply_of_ne_of_ne hz hz', if_pos rfl]
  · rw [if_neg hv, if_neg]
    intro h
    apply hv
    have := congrArg (Equiv.swap y y') h
    rwa [Equiv.swap_apply_self, Equiv.swap_apply_of_ne_of_ne hz hz'] at this

theorem vars_subst (z x : Var) (fs : List Fac) (v : Var) (hv : v ∈ vars fs) (hz : v ≠ z) : v ∈ vars (subst z x fs) := by
  rw [subst_eq, mem_vars_renFs]
  exact ⟨v, hv, by simp [hz]⟩

variable [Inhabited I]

/-- The expectation value of a term is the sum of its full contractions. -/
theorem wickE_sound (hD : Disjoint (D 0) (D 1)) (T : Nat → List I → K) (w : List Var) (xs : List I)
    (hxs : ∀ v ∈ w, bind (fun _ => default) w xs v ∈ D (sp v)) (hw : ∀ v ∈ w, v < 64) :
    ∀ (n : Nat) (ops : List (Bool × Var)) (fs : List Fac), ops.length ≤ n → GoodE T w fs ops →
    vv F T w xs F.ω fs ops = ((wickE n ops fs).map fun q => (q.1 : K) * raw D T q.2 w xs).sum := by
  intro n
  induction n with
  | zero =>
    intro ops fs hl hg
    have : ops = [] := List.length_eq_zero_iff.1 (by omega)
    subst this
    simp [vv, wickE, inst, Fermi.prod, F.one, raw, sumM_eq]
  | succ n ih =>
    intro ops fs hl hg
    cases ops with
    | nil => simp [vv, wickE, inst, Fermi.prod, F.one, raw, sumM_eq]
    | cons x l =>
      have hval : ∀ ρ, Reach D (dums w fs) (bind (fun _ => default) w xs) ρ → ρ x.2 ∈ D (sp x.2) := by
        intro ρ hr
        by_cases hm : x.2 ∈ dums w fs
        · exact hr.1 _ hm
        · rw [hr.2 _ hm]
          apply hxs
          by_contra hw
          exact hm ((mem_dums _ _ _).2 ⟨(hg.known x List.mem_cons_self).resolve_left hw, hw⟩)
      cases hq : isQ x with
      | false =>
        have e : wickE (n + 1) (x :: l) fs = [] := by
          rw [wickE, hq]; rfl
        rw [e]
        simp only [List.map_nil, List.sum_nil]
        unfold vv
        rw [sumM_congr D _ _ (fun _ => 0) _ (nodup_dums _ _), sumM_zero]
        intro ρ hr
        have h1 : F.prod (inst ρ (x :: l)) = F.op (x.1, ρ x.2) * F.prod (inst ρ l) := by simp [Fermi.prod, inst]
        rw [h1, F.left, smul_zero]
        have h2 := hval ρ hr
        rw [isQ_eq, decide_eq_false_iff_not] at hq
        unfold quasiL
        have : sp x.2 = if x.1 then 1 else 0 := by
          rcases sp_cases x.2 with h | h <;> rw [h] at hq ⊢ <;> cases hx : x.1 <;> simp [hx] at hq ⊢
        rw [this] at h2
        exact h2
      | true =>
        have hqx : sp x.2 = if x.1 then 0 else 1 := by rw [isQ_eq] at hq; simpa using hq
        have h1 : vv F T w xs F.ω fs (x :: l) =
            sumM D (dums w fs) (fun ρ => ((picks l).map fun p => (evalFs T fs ρ * (sg p.1 *
              acc (x.1, ρ x.2) (p.2.1.1, ρ p.2.1.2))) • F.ω (F.prod (inst ρ ([] ++ p.2.2 ++ [])))).sum)
              (bind (fun _ => default) w xs) := by
          unfold vv
          refine sumM_congr D _ _ _ _ (nodup_dums _ _) fun ρ hr => ?_
          have hx := hval ρ hr
          rw [hqx] at hx
          have : F.ω (F.prod (inst ρ (x :: l))) = _ := F.wick (x.1, ρ x.2) hx (inst ρ l)
          rw [this]
          unfold inst
          rw [picks_map, List.map_map, smul_eq_mul, ← List.sum_map_mul_left]
          congr 1
          refine List.map_congr_left fun p _ => ?_
          simp [mul_assoc]
        rw [h1, contract F hD T w xs hxs hw F.ω x [] l [] fs (by simpa using hg.nodup) (by simpa using hg.known)]
        · rw [wickE, hq, cif_true, map_sum_flatMap]
          congr 1
          refine List.map_congr_left fun r hr => ?_
          obtain ⟨m, p⟩ := r
          have hp : p ∈ picks l := mem_runs l nul _ hr
          have hperm := mem_picks l p hp
          simp only [List.nil_append, List.append_nil]
          cases hc : canC x p.2.1 with
          | false => simp
          | true =>
            simp only [cif_true]
            have hnd := hg.nodup
            rw [List.map_cons, List.nodup_cons] at hnd
            have hnd2 : ((p.2.1 :: p.2.2).map Prod.snd).Nodup := (hperm.map Prod.snd).nodup_iff.1 hnd.2
            rw [List.map_cons, List.nodup_cons] at hnd2
            have hsub : ∀ y ∈ p.2.2, y ∈ l := fun y hy => hperm.mem_iff.2 (List.mem_cons_of_mem _ hy)
            have hyz : ∀ y ∈ p.2.2, p.2.1.2 ≠ y.2 := fun y hy h2 => hnd2.1 (List.mem_map.2 ⟨y, hy, h2.symm⟩)
            have hyx : ∀ y ∈ p.2.2, x.2 ≠ y.2 := fun y hy h2 => hnd.1 (List.mem_map.2 ⟨y, hsub y hy, h2.symm⟩)
            rw [ih p.2.2 (subst p.2.1.2 x.2 fs)]
            · rw [List.map_map, smul_eq_mul, nsmul_eq_mul, ← mul_assoc, ← List.sum_map_mul_left]
              congr 1
              refine List.map_congr_left fun q _ => ?_
              simp only [Function.comp]
              cases p.1 <;> simp [sg] <;> ring
            · have := hperm.length_eq
              simp only [List.length_cons] at this hl
              omega
            · refine ⟨hnd2.2, ?_, ?_, ?_⟩
              · intro y hy
                rcases hg.known y (List.mem_cons_of_mem _ (hsub y hy)) with h | h
                · exact Or.inl h
                · exact Or.inr (vars_subst _ _ _ _ h (Ne.symm (hyz y hy)))
              · intro y hy hw
                exact hg.ext y (List.mem_cons_of_mem _ (hsub y hy)) hw
              · intro y hy y' hy' hne he
                exact (hg.sw y (List.mem_cons_of_mem _ (hsub y hy)) y' (List.mem_cons_of_mem _ (hsub y' hy'))
                  hne he).subst _ _ (hyz y hy) (hyz y' hy') (hyx y hy) (hyx y' hy')
        · intro z hz hc h
          obtain ⟨hc1, hc2⟩ := (canC_iff _ _).1 hc
          have h1 := hg.ext z (List.mem_cons_of_mem _ hz) h
          rw [isQ_eq] at h1
          simp only [decide_eq_true_eq] at h1
          rw [← hc2, hqx] at h1
          cases hx : x.1 <;> cases hy : z.1 <;> simp [hx, hy] at hc1 h1
        · intro z hz z' hz'
          exact hg.sw z (List.mem_cons_of_mem _ hz) z' (List.mem_cons_of_mem _ hz')

omit [DecidableEq I] [Inhabited I] in
theorem wickE_balanced : ∀ (n : Nat) (ops : List (Bool × Var)) (fs : List Fac), wickE n ops fs ≠ [] →
    ∀ s, cnt true s ops = cnt false s ops := by
  intro n
  induction n with
  | zero =>
    intro ops fs h s
    cases ops with
    | nil => rfl
    | cons x l => exact absurd rfl h
  | succ n ih =>
    intro ops fs h s
    cases ops with
    | nil => rfl
    | cons x l =>
      cases hq : isQ x with
      | false => exact absurd (by rw [wickE, hq]; rfl) h
      | true =>
        rw [wickE, hq, cif_true] at h
        have : ∃ r ∈ runs nul l, cif (canC x r.2.2.1) ((wickE n r.2.2.2 (subst r.2.2.1.2 x.2 fs)).map fun q =>
            (((if r.2.1 then -1 else 1) * (r.1 * q.1) : ℤ), q.2)) [] ≠ [] := by
          by_contra hc
          push Not at hc
          exact h (List.flatMap_eq_nil_iff.2 hc)
        obtain ⟨r, hr, hne⟩ := this
        obtain ⟨m, p⟩ := r
        have hp : p ∈ picks l := mem_runs l nul _ hr
        simp only at hne
        cases hc : canC x p.2.1 with
        | false => rw [hc] at hne; exact absurd rfl hne
        | true =>
          rw [hc, cif_true] at hne
          have hi := ih p.2.2 _ (fun h0 => hne (by rw [h0]; rfl)) s
          have hperm := mem_picks l p hp
          rw [cnt_perm true s (hperm.cons x), cnt_perm false s (hperm.cons x), cnt_cons, cnt_cons, cnt_cons, cnt_cons,
            hi]
          obtain ⟨h1, h2⟩ := (canC_iff _ _).1 hc
          rw [h2]
          cases hx : x.1 <;> cases hz : p.2.1.1 <;> simp [hx, hz] at h1 ⊢

/-! ### the same, written for the kernel -/

/-- A block of the program. -/
noncomputable def leafE (q : ℚ) (w : List Var) (s : Bool) (k : Nat) (fs : List Fac) : Blk :=
  ⟨q, fs, [(cif s (Int.neg (Int.ofNat k)) (Int.ofNat k), w)]⟩

/-- Contract `x` with the elements of a list; `R` does the rest. -/
noncomputable def pickB (b : Bool) (x : Var) (fs : List Fac)
    (R : List (Bool × Var) → List Fac → Nat → Bool → Prog → Prog) (l : List (Bool × Var)) :
    (Bool × Var) → Nat → Bool → List (Bool × Var) → Prog → Prog :=
  List.rec (motive := fun _ => (Bool × Var) → Nat → Bool → List (Bool × Var) → Prog → Prog) (fun _ _ _ _ tail => tail)
    (fun z l ih prev k s pre tail => Prod.rec (motive := fun _ => Prog) (fun c y =>
      cif (canC (b, x) (c, y))
        (cif (eqv prev (c, y)) (ih (c, y) k (cif s false true) ((c, y) :: pre) tail)
          (substK y x fs fun fs' => revK pre l fun r => force (Nat.mul k (Nat.succ (runLen (c, y) l))) fun k' =>
            R r fs' k' s (ih (c, y) k (cif s false true) ((c, y) :: pre) tail)))
        (ih (c, y) k (cif s false true) ((c, y) :: pre) tail)) z) l

/-- `wickE` with the blocks of the program put in front of `tail`. -/
noncomputable def wickB (q : ℚ) (w : List Var) (n : Nat) :
    List (Bool × Var) → List Fac → Nat → Bool → Prog → Prog :=
  Nat.rec (motive := fun _ => List (Bool × Var) → List Fac → Nat → Bool → Prog → Prog)
    (fun ops fs k s tail => List.rec (motive := fun _ => Prog) (leafE q w s k fs :: tail) (fun _ _ _ => tail) ops)
    (fun _ R ops fs k s tail => List.rec (motive := fun _ => Prog) (leafE q w s k fs :: tail)
      (fun x l _ => Prod.rec (motive := fun _ => Prog) (fun b v =>
        cif (isQ (b, v)) (pickB b v fs R l nul k s [] tail) tail) x) ops) n

/-- The weights of `wickB`. -/
noncomputable def sgn (s : Bool) (k : Nat) : ℤ := cif s (Int.neg (Int.ofNat k)) (Int.ofNat k)

/-- `wickE` with sign and size of the weight kept apart. -/
noncomputable def wickN : Nat → List (Bool × Var) → List Fac → Nat → Bool → List (Bool × Nat × List Fac)
  | _, [], fs, k, s => [(s, k, fs)]
  | 0, _ :: _, _, _, _ => []
  | n + 1, x :: l, fs, k, s =>
    cif (isQ x) ((runs nul l).flatMap fun r => cif (canC x r.2.2.1)
      (wickN n r.2.2.2 (subst r.2.2.1.2 x.2 fs) (k * r.1) (s ^^ r.2.1)) []) []

omit [DecidableEq I] [Inhabited I] in
theorem wickN_eq : ∀ (n : Nat) (ops : List (Bool × Var)) (fs : List Fac) (k : Nat) (s : Bool),
    (wickN n ops fs k s).map (fun r => (sgn r.1 r.2.1, r.2.2)) =
    (wickE n ops fs).map fun q => (sgn s k * q.1, q.2) := by
  intro n
  induction n with
  | zero =>
    intro ops fs k s
    cases ops <;> simp [wickN, wickE]
  | succ n ih =>
    intro ops fs k s
    cases ops with
    | nil => simp [wickN, wickE]
    | cons x l =>
      rw [wickN, wickE]
      cases isQ x with
      | false => rfl
      | true =>
        rw [cif_true, cif_true, List.map_flatMap, List.map_flatMap]
        congr 1
        funext r
        cases canC x r.2.2.1 with
        | false => rfl
        | true =>
          rw [cif_true, cif_true, ih, List.map_map]
          refine List.map_congr_left fun q _ => ?_
          simp only [Function.comp]
          congr 1
          unfold sgn
          have hneg : ∀ i : ℤ, Int.neg i = - i := fun _ => rfl
          cases s <;> cases r.2.1 <;> simp [hneg] <;> ring

omit [DecidableEq I] [Inhabited I] in
theorem pickB_eq (q : ℚ) (w : List Var) (n : Nat) (x : Bool × Var) (fs : List Fac)
    (R : List (Bool × Var) → List Fac → Nat → Bool → Prog → Prog)
    (hR : ∀ ops fs k s tail, R ops fs k s tail = ((wickN n ops fs k s).map fun r => leafE q w r.1 r.2.1 r.2.2) ++ tail)
    (l : List (Bool × Var)) : ∀ (prev : Bool × Var) (k : Nat) (s : Bool) (pre : List (Bool × Var)) (tail : Prog),
    pickB x.1 x.2 fs R l prev k s pre tail = ((runs prev l).flatMap fun r => cif (canC x r.2.2.1)
      ((wickN n (pre.reverse ++ r.2.2.2) (subst r.2.2.1.2 x.2 fs) (k * r.1) (s ^^ r.2.1)).map
        fun r => leafE q w r.1 r.2.1 r.2.2) []) ++ tail := by
  induction l with
  | nil => intro prev k s pre tail; rfl
  | cons z l ih =>
    intro prev k s pre tail
    have e : pickB x.1 x.2 fs R (z :: l) prev k s pre tail = cif (canC x z)
      (cif (eqv prev z) (pickB x.1 x.2 fs R l z k (cif s false true) (z :: pre) tail)
        (substK z.2 x.2 fs fun fs' => revK pre l fun r => force (Nat.mul k (Nat.succ (runLen z l))) fun k' => R r fs' k' s
          (pickB x.1 x.2 fs R l z k (cif s false true) (z :: pre) tail)))
      (pickB x.1 x.2 fs R l z k (cif s false true) (z :: pre) tail) := rfl
    have hs : cif s false true = !s := by cases s <;> rfl
    rw [e, substK_eq, revK_eq, force_eq, hR, ih, hs]
    have h2 : ((runs z l).flatMap fun r => cif (canC x r.2.2.1)
        ((wickN n ((z :: pre).reverse ++ r.2.2.2) (subst r.2.2.1.2 x.2 fs) (k * r.1) ((!s) ^^ r.2.1)).map
          fun r => leafE q w r.1 r.2.1 r.2.2) []) =
        (((runs z l).map fun r => (r.1, !r.2.1, r.2.2.1, z :: r.2.2.2)).flatMap fun r => cif (canC x r.2.2.1)
        ((wickN n (pre.reverse ++ r.2.2.2) (subst r.2.2.1.2 x.2 fs) (k * r.1) (s ^^ r.2.1)).map
          fun r => leafE q w r.1 r.2.1 r.2.2) []) := by
      rw [List.flatMap_map]
      congr 1
      funext r
      have : ((!s) ^^ r.2.1) = (s ^^ !r.2.1) := by cases s <;> cases r.2.1 <;> rfl
      simp only [List.reverse_cons, List.append_assoc, List.singleton_append, this]
    rw [h2, runs, List.flatMap_append, List.append_assoc]
    cases hc : canC x z with
    | false =>
      cases eqv prev z
      · simp [hc]
      · simp
    | true =>
      cases eqv prev z
      · simp [hc]
      · simp

omit [DecidableEq I] [Inhabited I] in
theorem wickB_eq (q : ℚ) (w : List Var) : ∀ (n : Nat) (ops : List (Bool × Var)) (fs : List Fac) (k : Nat) (s : Bool)
    (tail : Prog), wickB q w n ops fs k s tail = ((wickN n ops fs k s).map fun r => leafE q w r.1 r.2.1 r.2.2) ++ tail := by
  intro n
  induction n with
  | zero =>
    intro ops fs k s tail
    cases ops with
    | nil => rfl
    | cons x l => rfl
  | succ n ih =>
    intro ops fs k s tail
    cases ops with
    | nil => rfl
    | cons x l =>
      have e : wickB q w (n + 1) (x :: l) fs k s tail =
        cif (isQ x) (pickB x.1 x.2 fs (wickB q w n) l nul k s [] tail) tail := rfl
      rw [e, pickB_eq q w n x fs _ ih, wickN]
      cases isQ x
      · rfl
      · simp only [cif_true, List.reverse_nil, List.nil_append, List.map_flatMap]
        congr 2
        funext r
        cases canC x r.2.2.1
        · rfl
        · rfl

/-! ### conditions as checks -/

/-- `b` follows in `ix`, through linked axes only; neither `a` nor `b` occurs a second time. `l` is the link of the axis
before. -/
def linkTo (a b : Var) : Bool → List Bool → List Var → Bool
  | _, _, [] => false
  | l, ls, v :: vs => l && (if v = b then !(vs.elem a) && !(vs.elem b) else
      match ls with
      | [] => false
      | l' :: ls => !(v == a) && linkTo a b l' ls vs)

/-- `a` and then `b` occur on linked axes. -/
def linked (a b : Var) : List Bool → List Var → Bool
  | l :: ls, v :: vs => if v = a then linkTo a b l ls vs else !(v == b) && linked a b ls vs
  | _, _ => false

/-- Exchanging `a` and `b` changes the sign: both occur once, on linked axes of the same tensor. -/
def swOk (kinds : Nat → Kind) (a b : Var) : List Fac → Bool
  | [] => false
  | f :: fs => if f.ix.elem a || f.ix.elem b then
      (linked a b (kinds f.t).links f.ix || linked b a (kinds f.t).links f.ix) &&
        fs.all fun g => !(g.ix.elem a) && !(g.ix.elem b)
    else swOk kinds a b fs

omit [DecidableEq I] [Inhabited I] in
theorem linkTo_sound (a b : Var) (vs : List Var) : ∀ (l : Bool) (ls : List Bool), linkTo a b l ls vs = true →
    ∃ m r, vs = m ++ b :: r ∧ a ∉ m ∧ a ∉ r ∧ b ∉ m ∧ b ∉ r ∧ ∀ k ≤ m.length, (l :: ls)[k]? = some true := by
  induction vs with
  | nil => intro l ls h; simp [linkTo] at h
  | cons v vs ih =>
    intro l ls h
    unfold linkTo at h
    rw [Bool.and_eq_true] at h
    obtain ⟨rfl, h⟩ := h
    split_ifs at h with hv
    · subst hv
      simp only [Bool.and_eq_true, Bool.not_eq_true', List.elem_eq_mem, decide_eq_false_iff_not] at h
      exact ⟨[], vs, rfl, by simp, h.1, by simp, h.2, by simp⟩
    · cases ls with
      | nil => simp at h
      | cons l' ls =>
        simp only [Bool.and_eq_true, Bool.not_eq_true', beq_eq_false_iff_ne] at h
        obtain ⟨m, r, rfl, h1, h2, h3, h4, h5⟩ := ih l' ls h.2
        refine ⟨v :: m, r, rfl, ?_, h2, ?_, h4, ?_⟩
        · simp [Ne.symm h.1, h1]
        · simp [Ne.symm hv, h3]
        · intro k hk
          cases k with
          | zero => rfl
          | succ k => exact h5 k (by simpa using hk)

omit [DecidableEq I] [Inhabited I] in
theorem linked_sound (a b : Var) (vs : List Var) : ∀ (ls : List Bool), linked a b ls vs = true → a ≠ b →
    ∃ p m r, vs = p ++ a :: (m ++ b :: r) ∧ a ∉ p ∧ a ∉ m ∧ a ∉ r ∧ b ∉ p ∧ b ∉ m ∧ b ∉ r ∧
      ∀ k ≤ m.length, ls[p.length + k]? = some true := by
  induction vs with
  | nil => intro ls h; cases ls <;> simp [linked] at h
  | cons v vs ih =>
    intro ls h hab
    cases ls with
    | nil => simp [linked] at h
    | cons l ls =>
      rw [linked] at h
      split_ifs at h with hv
      · subst hv
        obtain ⟨m, r, rfl, h1, h2, h3, h4, h5⟩ := linkTo_sound v b vs l ls h
        exact ⟨[], m, r, rfl, by simp, h1, h2, by simp, h3, h4, by simpa using h5⟩
      · simp only [Bool.and_eq_true, Bool.not_eq_true', beq_eq_false_iff_ne] at h
        obtain ⟨p, m, r, rfl, h1, h2, h3, h4, h5, h6, h7⟩ := ih ls h.2 hab
        refine ⟨v :: p, m, r, rfl, ?_, h2, h3, ?_, h5, h6, ?_⟩
        · simp [Ne.symm hv, h1]
        · simp [Ne.symm h.1, h4]
        · intro k hk
          have := h7 k hk
          rw [List.length_cons, show p.length + 1 + k = (p.length + k) + 1 by omega]
          simpa using this

omit [DecidableEq I] [Inhabited I] in
/-- An array antisymmetric in neighbouring axes is antisymmetric under exchange of any two of them. -/
theorem anti_far (k : Kind) (t : List I → K) (h : k.Holds t) (x y : I) (m : List I) : ∀ (p r : List I),
    (∀ j ≤ m.length, k.links[p.length + j]? = some true) →
    t (p ++ x :: (m ++ y :: r)) = - t (p ++ y :: (m ++ x :: r)) := by
  induction m with
  | nil =>
    intro p r hl
    exact h.anti p x y r (by simpa using hl 0 (by simp))
  | cons z m ih =>
    intro p r hl
    have h0 : k.links[p.length]? = some true := by simpa using hl 0 (by simp)
    have h1 := h.anti p x z (m ++ y :: r) h0
    have h2 := ih (p ++ [z]) r fun j hj => by
      have := hl (j + 1) (by simpa using hj)
      rw [List.length_append, List.length_singleton, show p.length + 1 + j = p.length + (j + 1) by omega]
      exact this
    have h3 := h.anti p z y (m ++ x :: r) h0
    simp only [List.append_assoc, List.cons_append, List.nil_append] at h1 h2 h3 ⊢
    rw [h1, h2, h3]
    ring

omit [DecidableEq I] [Inhabited I] in
theorem fac_swap (kinds : Nat → Kind) (T : Nat → List I → K) (hk : ∀ t, (kinds t).Holds (T t)) (a b : Var) (hab : a ≠ b)
    (f : Fac) (h : linked a b (kinds f.t).links f.ix = true) (ρ : Var → I) :
    T f.t (f.ix.map (ρ ∘ Equiv.swap a b)) = - T f.t (f.ix.map ρ) := by
  obtain ⟨p, m, r, e, h1, h2, h3, h4, h5, h6, h7⟩ := linked_sound a b f.ix _ h hab
  have hid : ∀ l : List Var, a ∉ l → b ∉ l → l.map (ρ ∘ Equiv.swap a b) = l.map ρ := by
    intro l ha hb
    refine List.map_congr_left fun v hv => ?_
    simp only [Function.comp]
    rw [Equiv.swap_apply_of_ne_of_ne (fun h : v = a => ha (h ▸ hv)) (fun h : v = b => hb (h ▸ hv))]
  rw [e]
  simp only [List.map_append, List.map_cons, hid p h1 h4, hid m h2 h5, hid r h3 h6]
  have e1 : (ρ ∘ Equiv.swap a b) a = ρ b := by simp
  have e2 : (ρ ∘ Equiv.swap a b) b = ρ a := by simp
  rw [e1, e2]
  exact anti_far (kinds f.t) (T f.t) (hk f.t) (ρ b) (ρ a) (m.map ρ) (p.map ρ) (r.map ρ) (by simpa using h7)

omit [DecidableEq I] [Inhabited I] in
theorem swOk_sound (kinds : Nat → Kind) (T : Nat → List I → K) (hk : ∀ t, (kinds t).Holds (T t)) (a b : Var)
    (hab : a ≠ b) (fs : List Fac) (h : swOk kinds a b fs = true) : Sw T fs a b := by
  induction fs with
  | nil => simp [swOk] at h
  | cons f fs ih =>
    intro ρ
    rw [swOk] at h
    split_ifs at h with hf
    · rw [Bool.and_eq_true, Bool.or_eq_true] at h
      have h1 : evalFs T fs (ρ ∘ Equiv.swap a b) = evalFs T fs ρ := by
        refine evalFs_congr T fs _ _ fun v hv => ?_
        obtain ⟨g, hg, hvg⟩ := (mem_vars _ _).1 hv
        have := List.all_eq_true.1 h.2 g hg
        simp only [Bool.and_eq_true, Bool.not_eq_true', List.elem_eq_mem, decide_eq_false_iff_not] at this
        simp only [Function.comp]
        rw [Equiv.swap_apply_of_ne_of_ne (fun e : v = a => this.1 (e ▸ hvg)) (fun e : v = b => this.2 (e ▸ hvg))]
      have h2 : T f.t (f.ix.map (ρ ∘ Equiv.swap a b)) = - T f.t (f.ix.map ρ) := by
        rcases h.1 with h | h
        · exact fac_swap kinds T hk a b hab f h ρ
        · rw [Equiv.swap_comm]
          exact fac_swap kinds T hk b a (Ne.symm hab) f h ρ
      simp only [evalFs, h1, h2]
      ring
    · rw [Bool.or_eq_true, not_or] at hf
      have h2 : T f.t (f.ix.map (ρ ∘ Equiv.swap a b)) = T f.t (f.ix.map ρ) := by
        congr 1
        refine List.map_congr_left fun v hv => ?_
        simp only [Function.comp]
        rw [Equiv.swap_apply_of_ne_of_ne]
        · rintro rfl; exact hf.1 (by simpa using hv)
        · rintro rfl; exact hf.2 (by simpa using hv)
      simp only [evalFs, h2, ih h ρ]
      ring

end Verif.Wick
