import Verif.Wick.Comm

/-!
# Nested commutators with cluster operators as einsum programs

`nestB` is the program of `⟨B [[[s, t₁], t₂], …]⟩` for a term `s` and terms `tᵢ` of cluster operators.
-/

namespace Verif.Wick

open Verif.Ein

/-! ### loops -/

/-- Loop over all ways to single out an element of a list. -/
noncomputable def splitB {α : Type} (f : List α → α → List α → Prog → Prog) (l : List α) : List α → Prog → Prog :=
  List.rec (motive := fun _ => List α → Prog → Prog) (fun _ tail => tail)
    (fun y l ih pre tail => f pre y l (ih (y :: pre) tail)) l

theorem splitB_eq {α : Type} (f : List α → α → List α → Prog → Prog) (l : List α) : ∀ (pre : List α) (tail : Prog),
    splitB f l pre tail = (splits l).foldr (fun p acc => f (p.1.reverse ++ pre) p.2.1 p.2.2 acc) tail := by
  induction l with
  | nil => intro pre tail; rfl
  | cons y l ih =>
    intro pre tail
    have e : splitB f (y :: l) pre tail = f pre y l (splitB f l (y :: pre) tail) := rfl
    rw [e, ih, splits, List.foldr_cons, List.foldr_map]
    simp

theorem pickB_fold (x : Bool × Var) (fs : List Fac) (R : List (Bool × Var) → List Fac → Nat → Bool → Prog → Prog)
    (l : List (Bool × Var)) : ∀ (prev : Bool × Var) (k : Nat) (s : Bool) (pre : List (Bool × Var)) (tail : Prog),
    pickB x.1 x.2 fs R l prev k s pre tail = (runs prev l).foldr (fun r acc => cif (canC x r.2.2.1)
      (R (pre.reverse ++ r.2.2.2) (subst r.2.2.1.2 x.2 fs) (k * r.1) (s ^^ r.2.1) acc) acc) tail := by
  induction l with
  | nil => intro prev k s pre tail; rfl
  | cons z l ih =>
    intro prev k s pre tail
    have e : pickB x.1 x.2 fs R (z :: l) prev k s pre tail = cif (canC x z)
      (cif (eqv prev z) (pickB x.1 x.2 fs R l z k (cif s false true) (z :: pre) tail)
        (substK z.2 x.2 fs fun fs' => revK pre l fun r => force (Nat.mul k (Nat.succ (runLen z l))) fun k' => R r fs' k' s
          (pickB x.1 x.2 fs R l z k (cif s false true) (z :: pre) tail)))
      (pickB x.1 x.2 fs R l z k (cif s false true) (z :: pre) tail) := rfl
    have hs : cif s false true = !s := by cases s <;> rfl
    rw [e, substK_eq, revK_eq, force_eq, ih, hs, runs, List.foldr_append, List.foldr_map]
    have h2 : ((runs z l).foldr (fun r acc => cif (canC x r.2.2.1)
        (R ((z :: pre).reverse ++ r.2.2.2) (subst r.2.2.1.2 x.2 fs) (k * r.1) ((!s) ^^ r.2.1) acc) acc) tail) =
        ((runs z l).foldr (fun r acc => cif (canC x r.2.2.1)
        (R (pre.reverse ++ (z :: r.2.2.2)) (subst r.2.2.1.2 x.2 fs) (k * r.1) (s ^^ !r.2.1) acc) acc) tail) := by
      congr 1
      funext r acc
      have : ((!s) ^^ r.2.1) = (s ^^ !r.2.1) := by cases s <;> cases r.2.1 <;> rfl
      rw [this]
      simp
    rw [h2]
    cases hc : canC x z with
    | false =>
      cases eqv prev z
      · simp [hc]
      · simp
    | true =>
      cases eqv prev z
      · simp [hc]
      · simp

theorem eval_foldr {I K : Type} [Field K] [Inhabited I] (D : Nat → Finset I) (T : Nat → List I → K) (xs : List I)
    {α : Type} (f : α → Prog → Prog) (V : α → K) (l : List α)
    (h : ∀ r ∈ l, ∀ tail, (f r tail).eval D T xs = V r + tail.eval D T xs) (tail : Prog) :
    (l.foldr f tail).eval D T xs = (l.map V).sum + tail.eval D T xs := by
  induction l with
  | nil => simp
  | cons r l ih =>
    rw [List.foldr_cons, h r List.mem_cons_self, ih fun q hq => h q (List.mem_cons_of_mem _ hq), List.map_cons,
      List.sum_cons, add_assoc]

theorem foldr_id {α : Type} (f : α → Prog → Prog) (l : List α) (h : ∀ r ∈ l, ∀ tail, f r tail = tail) (tail : Prog) :
    l.foldr f tail = tail := by
  induction l with
  | nil => rfl
  | cons r l ih =>
    rw [List.foldr_cons, h r List.mem_cons_self, ih fun q hq => h q (List.mem_cons_of_mem _ hq)]

/-- `l ++ r`, evaluated. -/
noncomputable def appK {α β : Type} (l r : List α) : (List α → β) → β :=
  List.rec (motive := fun _ => (List α → β) → β) (fun k => k r) (fun y _ ih k => ih fun t => k (y :: t)) l

theorem appK_eq {α β : Type} (l r : List α) : ∀ k : List α → β, appK l r k = k (l ++ r) := by
  induction l with
  | nil => intro k; rfl
  | cons y l ih =>
    intro k
    have e : appK (y :: l) r k = appK l r fun t => k (y :: t) := rfl
    rw [e, ih, List.cons_append]

/-! ### the program -/

/-- The program of `⟨B [[[s, t₁], t₂], …]⟩`; `s` has the operators `ops` and the operands `fs`. -/
noncomputable def nestB (q : ℚ) (w : List Var) (bfs : List Fac) (bops : List (Bool × Var)) (ts : List OpTerm) :
    List (Bool × Var) → List Fac → Nat → Bool → Prog → Prog :=
  List.rec (motive := fun _ => List (Bool × Var) → List Fac → Nat → Bool → Prog → Prog)
    (fun ops fs k s tail => appK bops ops fun o => force o.length fun n => appK bfs fs fun f => wickB q w n o f k s tail)
    (fun t _ ih ops fs k s tail => appK fs t.fs fun f => splitB (fun pre y post tail =>
      Prod.rec (motive := fun _ => Prog) (fun b v => cif (isQ (b, v)) (pickB b v f (fun r f k s tail =>
        appK r post fun l => revK pre l fun l => ih l f k s tail) t.ops nul k s [] tail) tail) y) ops [] tail) ts

theorem nestB_nil (q : ℚ) (w : List Var) (bfs : List Fac) (bops : List (Bool × Var)) (ops : List (Bool × Var))
    (fs : List Fac) (k : Nat) (s : Bool) (tail : Prog) : nestB q w bfs bops [] ops fs k s tail =
    wickB q w (bops ++ ops).length (bops ++ ops) (bfs ++ fs) k s tail := by
  have e : nestB q w bfs bops [] ops fs k s tail = appK bops ops fun o => force o.length fun n =>
    appK bfs fs fun f => wickB q w n o f k s tail := rfl
  rw [e, appK_eq, force_eq, appK_eq]

theorem nestB_cons (q : ℚ) (w : List Var) (bfs : List Fac) (bops : List (Bool × Var)) (t : OpTerm) (ts : List OpTerm)
    (ops : List (Bool × Var)) (fs : List Fac) (k : Nat) (s : Bool) (tail : Prog) :
    nestB q w bfs bops (t :: ts) ops fs k s tail = (splits ops).foldr (fun p acc => cif (isQ p.2.1)
      ((runs nul t.ops).foldr (fun r acc => cif (canC p.2.1 r.2.2.1)
        (nestB q w bfs bops ts (p.1 ++ r.2.2.2 ++ p.2.2) (subst r.2.2.1.2 p.2.1.2 (fs ++ t.fs)) (k * r.1) (s ^^ r.2.1)
          acc) acc) acc) acc) tail := by
  have e : nestB q w bfs bops (t :: ts) ops fs k s tail = appK fs t.fs fun f => splitB (fun pre y post tail =>
      Prod.rec (motive := fun _ => Prog) (fun b v => cif (isQ (b, v)) (pickB b v f (fun r f k s tail =>
        appK r post fun l => revK pre l fun l => nestB q w bfs bops ts l f k s tail) t.ops nul k s [] tail) tail) y)
      ops [] tail := rfl
  rw [e, appK_eq, splitB_eq]
  congr 1
  funext p acc
  obtain ⟨pre, ⟨b, v⟩, post⟩ := p
  have h := pickB_fold (b, v) (fs ++ t.fs) (fun r f k s tail =>
        appK r post fun l => revK (pre.reverse ++ []) l fun l => nestB q w bfs bops ts l f k s tail) t.ops nul k s [] acc
  simp only at h ⊢
  rw [h]
  simp only [appK_eq, revK_eq, List.append_nil, List.reverse_reverse, List.reverse_nil, List.nil_append,
    List.append_assoc]

/-! ### strings with a different number of creators and annihilators -/

/-- Creators minus annihilators in the space `p`. -/
noncomputable def dif (p : Nat) (l : List (Bool × Var)) : ℤ := (cnt true p l : ℤ) - cnt false p l

theorem dif_cons (p : Nat) (x : Bool × Var) (l : List (Bool × Var)) :
    dif p (x :: l) = dif p l + if sp x.2 = p then (if x.1 then 1 else -1) else 0 := by
  unfold dif
  rw [cnt_cons, cnt_cons]
  cases x.1 <;> by_cases h : sp x.2 = p <;> simp [h] <;> ring

theorem dif_append (p : Nat) (l l' : List (Bool × Var)) : dif p (l ++ l') = dif p l + dif p l' := by
  induction l with
  | nil => simp [dif, cnt]
  | cons x l ih => rw [List.cons_append, dif_cons, dif_cons, ih]; ring

theorem dif_perm (p : Nat) {l l' : List (Bool × Var)} (h : l.Perm l') : dif p l = dif p l' := by
  induction h with
  | nil => rfl
  | cons x _ ih => rw [dif_cons, dif_cons, ih]
  | swap x y l => rw [dif_cons, dif_cons, dif_cons, dif_cons]; ring
  | trans _ _ h1 h2 => rw [h1, h2]

theorem dif_canC (p : Nat) (y z : Bool × Var) (h : canC y z = true) (l l' : List (Bool × Var)) :
    dif p (y :: l) + dif p (z :: l') = dif p l + dif p l' := by
  obtain ⟨h1, h2⟩ := (canC_iff _ _).1 h
  rw [dif_cons, dif_cons, h2]
  have : y.1 = !z.1 := by cases hy : y.1 <;> cases hz : z.1 <;> simp_all
  rw [this]
  cases z.1 <;> by_cases hp : sp z.2 = p <;> simp [hp] <;> ring

/-- The operators of a list of terms. -/
def allOps (ts : List OpTerm) : List (Bool × Var) := ts.flatMap OpTerm.ops

theorem wickB_unbal (q : ℚ) (w : List Var) (n : Nat) (ops : List (Bool × Var)) (fs : List Fac) (k : Nat) (s : Bool)
    (tail : Prog) (p : Nat) (h : dif p ops ≠ 0) : wickB q w n ops fs k s tail = tail := by
  rw [wickB_eq]
  have hE : wickE n ops fs = [] := by
    by_contra hne
    apply h
    have := wickE_balanced _ _ _ hne p
    unfold dif
    omega
  have hN := wickN_eq n ops fs k s
  rw [hE, List.map_nil, List.map_eq_nil_iff] at hN
  rw [hN]
  rfl

theorem nestB_unbal (q : ℚ) (w : List Var) (bfs : List Fac) (bops : List (Bool × Var)) (p : Nat) (ts : List OpTerm) :
    ∀ (ops : List (Bool × Var)) (fs : List Fac) (k : Nat) (s : Bool) (tail : Prog),
    dif p (bops ++ ops ++ allOps ts) ≠ 0 → nestB q w bfs bops ts ops fs k s tail = tail := by
  induction ts with
  | nil =>
    intro ops fs k s tail h
    rw [nestB_nil]
    exact wickB_unbal _ _ _ _ _ _ _ _ p (by simpa [allOps] using h)
  | cons t ts ih =>
    intro ops fs k s tail h
    rw [nestB_cons]
    refine foldr_id _ _ (fun pp hpp tail => ?_) _
    cases hq : isQ pp.2.1 with
    | false => rfl
    | true =>
      rw [cif_true]
      refine foldr_id _ _ (fun r hr tail => ?_) _
      cases hc : canC pp.2.1 r.2.2.1 with
      | false => rfl
      | true =>
        rw [cif_true]
        refine ih _ _ _ _ _ ?_
        have h1 := mem_splits _ _ hpp
        have h2 := mem_picks _ _ (mem_runs _ nul _ hr)
        have h3 := dif_canC p _ _ hc (pp.1 ++ pp.2.2) r.2.2.2
        have h4 : dif p ops = dif p (pp.2.1 :: (pp.1 ++ pp.2.2)) := by
          rw [h1]; exact dif_perm p List.perm_middle
        have h5 := dif_perm p h2
        have h6 : allOps (t :: ts) = t.ops ++ allOps ts := rfl
        rw [h6] at h
        simp only [dif_append] at h h3 h4 ⊢
        intro h7
        apply h
        rw [h4, h5]
        linarith

theorem balanced_dif (l : List (Bool × Var)) (h : balanced l = false) : ∃ p, dif p l ≠ 0 := by
  by_contra hc
  push Not at hc
  have h0 := hc 0
  have h1 := hc 1
  unfold dif at h0 h1
  have e0 : cnt true 0 l = cnt false 0 l := by omega
  have e1 : cnt true 1 l = cnt false 1 l := by omega
  rw [balanced, e0, e1] at h
  simp at h

/-! ### its value -/

variable {I K A : Type} [DecidableEq I] [Field K] [Ring A] [Algebra K A] {D : Nat → Finset I} (F : Fermi I K A D)

/-- Nested commutators. -/
def adW : List A → A → A
  | [], Y => Y
  | X :: Xs, Y => adW Xs (Y * X - X * Y)

omit [Algebra K A] in
theorem adW_sum {α : Type} (Xs : List A) (l : List α) (f : α → A) :
    adW Xs (l.map f).sum = (l.map fun x => adW Xs (f x)).sum := by
  induction Xs generalizing f with
  | nil => rfl
  | cons X Xs ih =>
    simp only [adW]
    rw [← ih]
    congr 1
    rw [← List.sum_map_mul_right, ← List.sum_map_mul_left]
    clear ih
    induction l with
    | nil => simp
    | cons x l ih2 => simp only [List.map_cons, List.sum_cons]; rw [← ih2]; abel

theorem adW_smul (Xs : List A) (c : K) (Y : A) : adW Xs (c • Y) = c • adW Xs Y := by
  induction Xs generalizing Y with
  | nil => rfl
  | cons X Xs ih => simp only [adW]; rw [← ih, smul_sub, smul_mul_assoc, mul_smul_comm]

/-- The running term after `m` commutators. -/
structure Run (T : Nat → List I → K) (m : Nat) (fs : List Fac) (ops : List (Bool × Var)) : Prop where
  nodup : (ops.map Prod.snd).Nodup
  known : ∀ x ∈ ops, x.2 ∈ vars fs
  low : ∀ v ∈ vars fs, 42 ≤ v
  high : ∀ v ∈ vars fs, v < 64 + 16 * m
  sw : ∀ z ∈ ops, ∀ z' ∈ ops, z ≠ z' → eqv z z' = true → Sw T fs z.2 z'.2

/-- Term number `m` of a cluster operator, with its own letters. -/
structure Piece (T : Nat → List I → K) (m : Nat) (t : OpTerm) : Prop where
  one : t.k = 1
  even : Even t.ops.length
  nodup : (t.ops.map Prod.snd).Nodup
  known : ∀ x ∈ t.ops, x.2 ∈ vars t.fs
  low : ∀ v ∈ vars t.fs, 64 + 16 * m ≤ v
  high : ∀ v ∈ vars t.fs, v < 64 + 16 * (m + 1)
  creator : ∀ x ∈ t.ops, isQ x = false
  sw : ∀ z ∈ t.ops, ∀ z' ∈ t.ops, z ≠ z' → eqv z z' = true → Sw T t.fs z.2 z'.2

/-- A list of such terms. -/
def Pieces (T : Nat → List I → K) : Nat → List OpTerm → Prop
  | _, [] => True
  | m, t :: ts => Piece T m t ∧ Pieces T (m + 1) ts

omit [DecidableEq I] in
theorem Sw.append {T : Nat → List I → K} {fs gs : List Fac} {a b : Var} (h : Sw T fs a b) (ha : a ∉ vars gs)
    (hb : b ∉ vars gs) : Sw T (fs ++ gs) a b := by
  intro ρ
  rw [evalFs_append, evalFs_append, h ρ]
  have : evalFs T gs (ρ ∘ Equiv.swap a b) = evalFs T gs ρ := by
    refine evalFs_congr T gs _ _ fun v hv => ?_
    simp only [Function.comp]
    rw [Equiv.swap_apply_of_ne_of_ne (fun e : v = a => ha (e ▸ hv)) (fun e : v = b => hb (e ▸ hv))]
  rw [this]; ring

omit [DecidableEq I] in
theorem Sw.append' {T : Nat → List I → K} {fs gs : List Fac} {a b : Var} (h : Sw T gs a b) (ha : a ∉ vars fs)
    (hb : b ∉ vars fs) : Sw T (fs ++ gs) a b := by
  intro ρ
  have := h.append ha hb ρ
  rw [evalFs_append] at this ⊢
  rw [evalFs_append] at this ⊢
  rw [mul_comm, this]; ring

theorem vars_subst_sub (z x : Var) (fs : List Fac) (v : Var) (hv : v ∈ vars (subst z x fs)) : v = x ∨ v ∈ vars fs := by
  rw [subst_eq, mem_vars_renFs] at hv
  obtain ⟨u, hu, h⟩ := hv
  by_cases huz : u = z
  · left; rw [← h]; simp [huz]
  · right; rw [← h]; simpa [huz] using hu

omit [DecidableEq I] in
theorem Run.step {T : Nat → List I → K} {m : Nat} {fs : List Fac} {ops : List (Bool × Var)} (h : Run T m fs ops)
    {t : OpTerm} (ht : Piece T m t) (p : List (Bool × Var) × (Bool × Var) × List (Bool × Var)) (hp : p ∈ splits ops)
    (q : Bool × (Bool × Var) × List (Bool × Var)) (hq : q ∈ picks t.ops) :
    Run T (m + 1) (subst q.2.1.2 p.2.1.2 (fs ++ t.fs)) (p.1 ++ q.2.2 ++ p.2.2) := by
  have hs := mem_splits _ _ hp
  have ho := mem_picks _ _ hq
  obtain ⟨pre, y, post⟩ := p
  obtain ⟨b, z, rest⟩ := q
  simp only at *
  have hy : y ∈ ops := by rw [hs]; simp
  have hz : z ∈ t.ops := ho.mem_iff.2 List.mem_cons_self
  have hlow : ∀ x ∈ ops, x.2 < 64 + 16 * m := fun x hx => h.high _ (h.known x hx)
  have hhigh : ∀ x ∈ t.ops, 64 + 16 * m ≤ x.2 := fun x hx => ht.low _ (ht.known x hx)
  have hlt : ∀ x ∈ ops, ∀ x' ∈ t.ops, x.2 ≠ x'.2 := fun x hx x' hx' =>
    Nat.ne_of_lt (lt_of_lt_of_le (hlow x hx) (hhigh x' hx'))
  have hn1 : ((y :: (pre ++ post)).map Prod.snd).Nodup := by
    refine ((List.Perm.map Prod.snd ?_).nodup_iff).1 h.nodup
    rw [hs]; exact List.perm_middle
  have hn2 : ((z :: rest).map Prod.snd).Nodup := (ho.map Prod.snd).nodup_iff.1 ht.nodup
  rw [List.map_cons, List.nodup_cons] at hn1 hn2
  have hm : ∀ x ∈ pre ++ rest ++ post, (x ∈ ops ∧ y.2 ≠ x.2) ∨ (x ∈ t.ops ∧ z.2 ≠ x.2) := by
    intro x hx
    have : x ∈ pre ++ post ∨ x ∈ rest := by
      simp only [List.mem_append] at hx ⊢; tauto
    rcases this with hx | hx
    · left
      refine ⟨?_, fun e => hn1.1 (List.mem_map.2 ⟨x, hx, e.symm⟩)⟩
      rw [hs]
      simp only [List.mem_append, List.mem_cons] at hx ⊢
      tauto
    · right
      exact ⟨ho.mem_iff.2 (List.mem_cons_of_mem _ hx), fun e => hn2.1 (List.mem_map.2 ⟨x, hx, e.symm⟩)⟩
  have hne : ∀ x ∈ pre ++ rest ++ post, x.2 ≠ z.2 ∧ x.2 ≠ y.2 := by
    intro x hx
    rcases hm x hx with ⟨h1, h2⟩ | ⟨h1, h2⟩
    · exact ⟨hlt x h1 z hz, Ne.symm h2⟩
    · exact ⟨Ne.symm h2, Ne.symm (hlt y hy x h1)⟩
  refine ⟨?_, ?_, ?_, ?_, ?_⟩
  · have hperm : (pre ++ rest ++ post).Perm ((pre ++ post) ++ rest) := by
      rw [List.append_assoc, List.append_assoc]
      exact List.Perm.append_left _ List.perm_append_comm
    rw [(hperm.map Prod.snd).nodup_iff, List.map_append, List.nodup_append]
    refine ⟨hn1.2, hn2.2, ?_⟩
    intro a ha b hb e
    obtain ⟨x, hx, rfl⟩ := List.mem_map.1 ha
    obtain ⟨x', hx', rfl⟩ := List.mem_map.1 hb
    refine hlt x ?_ x' (ho.mem_iff.2 (List.mem_cons_of_mem _ hx')) e
    rw [hs]
    simp only [List.mem_append, List.mem_cons] at hx ⊢
    tauto
  · intro x hx
    refine vars_subst _ _ _ _ ?_ (hne x hx).1
    rw [vars_append]
    rcases hm x hx with ⟨h1, -⟩ | ⟨h1, -⟩
    · exact Or.inl (h.known x h1)
    · exact Or.inr (ht.known x h1)
  · intro v hv
    rcases vars_subst_sub _ _ _ _ hv with rfl | hv
    · exact h.low _ (h.known y hy)
    · rw [vars_append] at hv
      rcases hv with hv | hv
      · exact h.low v hv
      · exact le_trans (show (42 : Nat) ≤ 64 + 16 * m by omega) (ht.low v hv)
  · intro v hv
    have hmm : 64 + 16 * m ≤ 64 + 16 * (m + 1) := by omega
    rcases vars_subst_sub _ _ _ _ hv with rfl | hv
    · exact lt_of_lt_of_le (h.high _ (h.known y hy)) hmm
    · rw [vars_append] at hv
      rcases hv with hv | hv
      · exact lt_of_lt_of_le (h.high v hv) hmm
      · exact ht.high v hv
  · intro u hu u' hu' huu he
    refine Sw.subst ?_ _ _ (Ne.symm (hne u hu).1) (Ne.symm (hne u' hu').1) (Ne.symm (hne u hu).2) (Ne.symm (hne u' hu').2)
    have hnot : ∀ x ∈ ops, ∀ x' ∈ t.ops, (x.2 : Nat) / 16 ≠ (x'.2 : Nat) / 16 := by
      have key : ∀ a b : Nat, a < 64 + 16 * m → 64 + 16 * m ≤ b → a / 16 ≠ b / 16 := by intro a b h1 h2; omega
      exact fun x hx x' hx' => key _ _ (hlow x hx) (hhigh x' hx')
    rcases hm u hu with ⟨h1, -⟩ | ⟨h1, -⟩ <;> rcases hm u' hu' with ⟨h2, -⟩ | ⟨h2, -⟩
    · exact (h.sw u h1 u' h2 huu he).append (fun hc => Nat.not_lt.2 (ht.low _ hc) (hlow u h1))
        (fun hc => Nat.not_lt.2 (ht.low _ hc) (hlow u' h2))
    · exact absurd ((eqv_iff _ _).1 he).2.2.1 (hnot u h1 u' h2)
    · exact absurd ((eqv_iff _ _).1 he).2.2.1.symm (hnot u' h2 u h1)
    · exact (ht.sw u h1 u' h2 huu he).append' (fun hc => Nat.not_lt.2 (hhigh u h1) (h.high _ hc))
        (fun hc => Nat.not_lt.2 (hhigh u' h2) (h.high _ hc))

/-- What is needed of the operator `B`. -/
structure Bra (w : List Var) (b : OpTerm) : Prop where
  one : b.k = 1
  nodup : (b.ops.map Prod.snd).Nodup
  known : ∀ x ∈ b.ops, x.2 ∈ w ∨ x.2 ∈ vars b.fs
  ext : ∀ x ∈ b.ops, x.2 ∈ w → isQ x = true
  high : ∀ v ∈ vars b.fs, v < 42

variable [Inhabited I]

theorem nestB_eval [CharZero K] (hD : Disjoint (D 0) (D 1)) (T : Nat → List I → K) (w : List Var) (xs : List I)
    (hxs : ∀ v ∈ w, bind (fun _ => default) w xs v ∈ D (sp v)) (hw : ∀ v ∈ w, v < 42) (q : ℚ) (b : OpTerm)
    (hb : Bra w b) (ts : List OpTerm) : ∀ (m : Nat) (ops : List (Bool × Var)) (fs : List Fac) (k : Nat) (s : Bool)
    (tail : Prog), Run T m fs ops → Pieces T m ts →
    (nestB q w b.fs b.ops ts ops fs k s tail).eval D T xs = (q : K) * (sgn s k : K) *
      F.ω (b.val F T w xs * adW (ts.map fun t => t.val F T w xs) (OpTerm.val F T w xs ⟨1, fs, ops⟩)) +
      tail.eval D T xs := by
  have hw64 : ∀ v ∈ w, v < 64 := fun v hv => lt_trans (hw v hv) (by decide)
  induction ts with
  | nil =>
    intro m ops fs k s tail hr _
    have hfr : ∀ v ∈ vars fs, v ∉ w := fun v hv hm => Nat.not_lt.2 (hr.low v hv) (hw v hm)
    have hbl : ∀ x ∈ b.ops, x.2 < 42 := by
      intro x hx
      rcases hb.known x hx with h | h
      · exact hw _ h
      · exact hb.high _ h
    have hap : b.apart w ⟨1, fs, ops⟩ = true := by
      simp only [OpTerm.apart, Bool.and_eq_true, List.all_eq_true, Bool.not_eq_true', List.elem_eq_mem,
        decide_eq_false_iff_not]
      constructor
      · intro v hv
        have h1 : v < 42 := hb.high v ((mem_dums _ _ _).1 hv).1
        refine ⟨fun h => Nat.not_lt.2 (hr.low v h) h1, fun h => ?_⟩
        obtain ⟨x, hx, rfl⟩ := List.mem_map.1 h
        exact Nat.not_lt.2 (hr.low _ (hr.known x hx)) h1
      · intro v hv
        have h1 : 42 ≤ v := hr.low v ((mem_dums _ _ _).1 hv).1
        refine ⟨fun h => Nat.not_lt.2 h1 (hb.high v h), fun h => ?_⟩
        obtain ⟨x, hx, rfl⟩ := List.mem_map.1 h
        exact Nat.not_lt.2 h1 (hbl x hx)
    have hlt : ∀ x ∈ b.ops, ∀ y ∈ ops, x.2 ≠ y.2 := fun x hx y hy =>
      Nat.ne_of_lt (lt_of_lt_of_le (hbl x hx) (hr.low _ (hr.known y hy)))
    have hg : GoodE T w (b.fs ++ fs) (b.ops ++ ops) := by
      refine ⟨?_, ?_, ?_, ?_⟩
      · rw [List.map_append, List.nodup_append]
        refine ⟨hb.nodup, hr.nodup, ?_⟩
        intro u hu v hv e
        obtain ⟨x, hx, rfl⟩ := List.mem_map.1 hu
        obtain ⟨y, hy, rfl⟩ := List.mem_map.1 hv
        exact hlt x hx y hy e
      · intro x hx
        rw [vars_append]
        rcases List.mem_append.1 hx with hx | hx
        · rcases hb.known x hx with h | h
          · exact Or.inl h
          · exact Or.inr (Or.inl h)
        · exact Or.inr (Or.inr (hr.known x hx))
      · intro x hx hm
        rcases List.mem_append.1 hx with hx | hx
        · exact hb.ext x hx hm
        · exact absurd hm (hfr _ (hr.known x hx))
      · intro z hz z' hz' hne he
        have h64 := (eqv_iff _ _).1 he
        have hz64 : ∀ u ∈ b.ops ++ ops, 64 ≤ u.2 → u ∈ ops := by
          intro u hu h
          rcases List.mem_append.1 hu with hu | hu
          · exact absurd (hbl u hu) (Nat.not_lt.2 (le_trans (by decide) h))
          · exact hu
        have h1 := hz64 z hz h64.1
        have h2 := hz64 z' hz' h64.2.1
        exact (hr.sw z h1 z' h2 hne he).append' (fun h => Nat.not_lt.2 (hr.low _ (hr.known z h1)) (hb.high _ h))
          (fun h => Nat.not_lt.2 (hr.low _ (hr.known z' h2)) (hb.high _ h))
    have hs := wickE_sound F hD T w xs hxs hw64 _ _ _ le_rfl hg
    have h1 : F.ω (b.val F T w xs * OpTerm.val F T w xs ⟨1, fs, ops⟩) =
        ((wickE (b.ops ++ ops).length (b.ops ++ ops) (b.fs ++ fs)).map fun q => (q.1 : K) * raw D T q.2 w xs).sum := by
      rw [← OpTerm.val_mul F T w xs _ _ hap, ← hs, OpTerm.val, OpTerm.mul, hb.one]
      simp only [show Int.mul 1 1 = 1 from rfl, Int.cast_one, one_smul]
      rw [vv]
      rw [show F.ω (sumM D (dums w (b.fs ++ fs)) (fun ρ => evalFs T (b.fs ++ fs) ρ • F.prod (inst ρ (b.ops ++ ops)))
          (bind (fun _ => default) w xs)) = F.ω.toAddMonoidHom (sumM D (dums w (b.fs ++ fs)) (fun ρ =>
          evalFs T (b.fs ++ fs) ρ • F.prod (inst ρ (b.ops ++ ops))) (bind (fun _ => default) w xs)) from rfl, sumM_hom]
      congr 1
      funext ρ
      simp
    rw [nestB_nil, List.map_nil, adW, h1, wickB_eq, Prog.eval_append]
    congr 1
    have h2 := congrArg (List.map fun r : ℤ × List Fac => (q : K) * ((r.1 : K) * raw D T r.2 w xs))
      (wickN_eq (b.ops ++ ops).length (b.ops ++ ops) (b.fs ++ fs) k s)
    rw [List.map_map, List.map_map] at h2
    unfold Prog.eval
    rw [List.map_map]
    have h3 : ((fun B => Blk.eval D T B xs) ∘ fun r : Bool × Nat × List Fac => leafE q w r.1 r.2.1 r.2.2) =
        ((fun r : ℤ × List Fac => (q : K) * ((r.1 : K) * raw D T r.2 w xs)) ∘
          fun r : Bool × Nat × List Fac => (sgn r.1 r.2.1, r.2.2)) := by
      funext r
      simp only [Function.comp, Blk.eval, leafE, List.map_cons, List.map_nil, List.sum_cons, List.sum_nil, add_zero,
        termVal]
      rw [mul_left_comm]
      rfl
    rw [h3, h2, ← List.sum_map_mul_left]
    congr 1
    refine List.map_congr_left fun r _ => ?_
    simp only [Function.comp]
    push_cast
    ring
  | cons t ts ih =>
    intro m ops fs k s tail hr hts
    obtain ⟨ht, hts⟩ := hts
    have hfr : ∀ v ∈ vars fs, v ∉ w := fun v hv hm => Nat.not_lt.2 (hr.low v hv) (hw v hm)
    have hft : ∀ v ∈ vars t.fs, v ∉ w := fun v hv hm =>
      Nat.not_lt.2 (le_trans (show 42 ≤ 64 + 16 * m by omega) (ht.low v hv)) (hw v hm)
    have hap : OpTerm.apart w ⟨1, fs, ops⟩ t = true := by
      simp only [OpTerm.apart, Bool.and_eq_true, List.all_eq_true, Bool.not_eq_true', List.elem_eq_mem,
        decide_eq_false_iff_not]
      constructor
      · intro v hv
        have h1 := hr.high v ((mem_dums _ _ _).1 hv).1
        refine ⟨fun h => Nat.not_lt.2 (ht.low v h) h1, fun h => ?_⟩
        obtain ⟨x, hx, rfl⟩ := List.mem_map.1 h
        exact Nat.not_lt.2 (ht.low _ (ht.known x hx)) h1
      · intro v hv
        have h1 := ht.low v ((mem_dums _ _ _).1 hv).1
        refine ⟨fun h => Nat.not_lt.2 h1 (hr.high v h), fun h => ?_⟩
        obtain ⟨x, hx, rfl⟩ := List.mem_map.1 h
        exact Nat.not_lt.2 h1 (hr.high _ (hr.known x hx))
    have hc := OpTerm.val_comm F hD T w xs hxs hw64 ⟨1, fs, ops⟩ t hap ⟨hr.nodup, fun x hx => Or.inr (hr.known x hx)⟩
      ⟨ht.even, ht.nodup, ht.known, fun x hx => hft _ (ht.known x hx), ht.creator, ht.sw⟩
    rw [List.map_cons, adW, ← hc, nestB_cons]
    -- the commutator as a sum
    unfold OpProg.val OpTerm.comm
    rw [map_sum_flatMap, adW_sum, ← List.sum_map_mul_left, map_list_sum, ← List.sum_map_mul_left, List.map_map]
    refine eval_foldr D T xs _ _ _ (fun p hp tail => ?_) _
    simp only [Function.comp]
    cases hq : isQ p.2.1 with
    | false =>
      have h0 : adW (ts.map fun t => t.val F T w xs) (0 : A) = 0 := by
        simpa using adW_smul (K := K) (ts.map fun t => t.val F T w xs) 0 (0 : A)
      simp [h0]
    | true =>
      rw [cif_true, cif_true, map_sum_flatMap, adW_sum, ← List.sum_map_mul_left, map_list_sum, ← List.sum_map_mul_left,
        List.map_map]
      refine eval_foldr D T xs _ _ _ (fun r hrr tail => ?_) _
      simp only [Function.comp]
      cases hcc : canC p.2.1 r.2.2.1 with
      | false =>
        have h0 : adW (ts.map fun t => t.val F T w xs) (0 : A) = 0 := by
          simpa using adW_smul (K := K) (ts.map fun t => t.val F T w xs) 0 (0 : A)
        simp [h0]
      | true =>
        rw [cif_true, cif_true]
        rw [ih (m + 1) _ _ _ _ _ (hr.step ht p hp r.2 (mem_runs _ nul _ hrr)) hts]
        congr 1
        simp only [List.map_cons, List.map_nil, List.sum_cons, List.sum_nil, add_zero]
        have hv : ∀ (c : ℤ) (f : List Fac) (o : List (Bool × Var)), OpTerm.val F T w xs ⟨c, f, o⟩ =
            (c : K) • OpTerm.val F T w xs ⟨1, f, o⟩ := by
          intro c f o
          simp [OpTerm.val]
        rw [hv ((if r.2.1 then -1 else 1) * (r.1 * (1 * t.k))), adW_smul, mul_smul_comm, map_smul, smul_eq_mul, ht.one,
          ← mul_assoc]
        congr 1
        have hsg : (sgn (s ^^ r.2.1) (k * r.1) : ℤ) = sgn s k * ((if r.2.1 then -1 else 1) * (r.1 * (1 * 1))) := by
          unfold sgn
          have hneg : ∀ i : ℤ, Int.neg i = - i := fun _ => rfl
          cases s <;> cases r.2.1 <;> simp [hneg]
        rw [hsg]
        push_cast
        ring

end Verif.Wick
