import Verif.Wick.Matrix

/-!
# Matrix elements with a summed bra

The programs of `Verif/Wick/Project.lean` keep the letters of the bra apart, and the number of terms grows with the
factorials of its rank. Here the bra is a de-excitation operator, summed with an antisymmetric array, and only the first of
every run of equivalent operators is contracted. `Verif/Wick/Delta.lean` goes back to the single matrix elements.
-/

namespace Verif.Wick

open Verif.Ein

/-! ### the terms -/

/-- Letters that `cmpV` keeps apart. -/
noncomputable def okV (v : Var) : Bool :=
  cif (Nat.ble 42 v) (cif (Nat.ble v 63) true (cif (Nat.ble v 143) (Nat.ble (Nat.mod v 16) 7) false)) false

/-- Letters below 64 for the letters of cluster operators. -/
noncomputable def cmpV (v : Var) : Var :=
  cif (Nat.ble 64 v) (Nat.add (Nat.mul 8 (Nat.div (Nat.sub v 64) 16)) (Nat.mod v 16)) v

noncomputable def okIxs (ix : List Var) : Bool :=
  List.rec (motive := fun _ => Bool) true (fun v _ ih => cif (okV v) ih false) ix

noncomputable def okFs (fs : List Fac) : Bool :=
  List.rec (motive := fun _ => Bool) true (fun f _ ih => cif (okIxs f.ix) ih false) fs

noncomputable def cmpIx {β : Type} (ix : List Var) : (List Var → β) → β :=
  List.rec (motive := fun _ => (List Var → β) → β) (fun k => k [])
    (fun v _ ih k => force (cmpV v) fun v => ih fun r => k (v :: r)) ix

noncomputable def cmpK {β : Type} (fs : List Fac) : (List Fac → β) → β :=
  List.rec (motive := fun _ => (List Fac → β) → β) (fun k => k [])
    (fun f _ ih k => Fac.rec (motive := fun _ => β) (fun t ix => cmpIx ix fun ix => ih fun r => k (⟨t, ix⟩ :: r)) f) fs

/-- A term of the program. -/
noncomputable def leafX (q : ℚ) (s : Bool) (k : Nat) (fs : List Fac) (tail : Prog) : Prog :=
  cif (okFs fs) (cmpK fs fun fs => leafE q [] s k fs :: tail) (leafE q [] s k fs :: tail)

/-- Is the length even? -/
noncomputable def evenB {α : Type} (l : List α) : Bool :=
  List.rec (motive := fun _ => Bool) true (fun _ _ ih => cif ih false true) l

/-- The full contractions of `B ++ ops`, where `B` has quasi-annihilators only: a quasi-annihilator of `ops` is contracted to
the right, a quasi-creator to the left, with `B`. -/
noncomputable def wickX (q : ℚ) (n : Nat) :
    List (Bool × Var) → List (Bool × Var) → List Fac → Nat → Bool → Prog → Prog :=
  Nat.rec (motive := fun _ => List (Bool × Var) → List (Bool × Var) → List Fac → Nat → Bool → Prog → Prog)
    (fun B ops fs k s tail => List.rec (motive := fun _ => Prog)
      (List.rec (motive := fun _ => Prog) (leafX q s k fs tail) (fun _ _ _ => tail) B) (fun _ _ _ => tail) ops)
    (fun _ R B ops fs k s tail => List.rec (motive := fun _ => Prog)
      (List.rec (motive := fun _ => Prog) (leafX q s k fs tail) (fun _ _ _ => tail) B)
      (fun x l _ => Prod.rec (motive := fun _ => Prog) (fun b v =>
        cif (isQ (b, v)) (pickB b v fs (fun r => R B r) l nul k s [] tail)
          (pickB b v fs (fun r => R r l) B nul k (cif (evenB B) (cif s false true) s) [] tail)) x) ops) n

/-- The program of `⟨B [[[s, t₁], t₂], …]⟩`; `s` has the operators `ops` and the operands `fs`. -/
noncomputable def nestX (q : ℚ) (bfs : List Fac) (bops : List (Bool × Var)) (ts : List OpTerm) :
    List (Bool × Var) → List Fac → Nat → Bool → Prog → Prog :=
  List.rec (motive := fun _ => List (Bool × Var) → List Fac → Nat → Bool → Prog → Prog)
    (fun ops fs k s tail => force ops.length fun n => appK bfs fs fun f => wickX q n bops ops f k s tail)
    (fun t _ ih ops fs k s tail => appK fs t.fs fun f => splitB (fun pre y post tail =>
      Prod.rec (motive := fun _ => Prog) (fun b v => cif (isQ (b, v)) (pickB b v f (fun r f k s tail =>
        appK r post fun l => revK pre l fun l => ih l f k s tail) t.ops nul k s [] tail) tail) y) ops [] tail) ts

/-- The program of `⟨B [[[P, t₁], t₂], …]⟩`. -/
noncomputable def commX (q : ℚ) (b : OpTerm) (ts : List OpTerm) (P : OpProg) (tail : Prog) : Prog :=
  List.rec (motive := fun _ => Prog) tail (fun h _ ih => OpTerm.rec (motive := fun _ => Prog) (fun k fs ops =>
    evalFacs fs fun fs => evalOps ops fun ops => cif (balanced (b.ops ++ ops ++ allOps ts))
      (Int.rec (motive := fun _ => Prog) (fun n => force n fun n => nestX q b.fs b.ops ts ops fs n false ih)
        (fun n => force (Nat.succ n) fun n => nestX q b.fs b.ops ts ops fs n true ih) k) ih) h) P

/-- The program of `∑ q ⟨B [[[X, T], T'], …]⟩`; the list gives `q`, the ranks of `T, T', …` and `X`. -/
noncomputable def matX (b : OpTerm) (cs : List (ℚ × List Nat × Part)) : Prog :=
  List.rec (motive := fun _ => Prog) [] (fun c _ ih => evalTerms (pieces c.2.1 0) fun ts =>
    commX c.1 b ts c.2.2.prog ih) cs

/-! ### renaming -/

theorem okV_iff (v : Var) : okV v = true ↔ (42 : Nat) ≤ v ∧ ((v : Nat) ≤ 63 ∨ ((v : Nat) ≤ 143 ∧ (v : Nat) % 16 ≤ 7)) := by
  unfold okV
  have hm : Nat.mod v 16 = v % 16 := rfl
  rw [cif_and, Nat.ble_eq, hm]
  cases h : Nat.ble v 63 with
  | true => rw [Nat.ble_eq] at h; simp [h]
  | false =>
    have h' : ¬ (v : Nat) ≤ 63 := by rw [← Nat.ble_eq, h]; simp
    rw [cif_false, cif_and, Nat.ble_eq, Nat.ble_eq]
    simp [h']

theorem cmpV_eq (v : Var) : cmpV v = if (64 : Nat) ≤ v then 8 * (((v : Nat) - 64) / 16) + (v : Nat) % 16 else v := by
  unfold cmpV
  cases h : Nat.ble 64 v with
  | true => rw [Nat.ble_eq] at h; rw [if_pos h]; rfl
  | false =>
    have h' : ¬ (64 : Nat) ≤ v := by rw [← Nat.ble_eq, h]; simp
    rw [if_neg h']; rfl

theorem cmpV_inj (x y : Var) (hx : okV x = true) (hy : okV y = true) (h : cmpV x = cmpV y) : x = y := by
  rw [okV_iff] at hx hy
  rw [cmpV_eq, cmpV_eq] at h
  have key : ∀ x y : Nat, 42 ≤ x ∧ (x ≤ 63 ∨ (x ≤ 143 ∧ x % 16 ≤ 7)) → 42 ≤ y ∧ (y ≤ 63 ∨ (y ≤ 143 ∧ y % 16 ≤ 7)) →
      (if 64 ≤ x then 8 * ((x - 64) / 16) + x % 16 else x) = (if 64 ≤ y then 8 * ((y - 64) / 16) + y % 16 else y) →
      x = y := by
    intro x y h1 h2 h3
    split_ifs at h3 <;> omega
  exact key x y hx hy h

theorem cmpV_sp (v : Var) : sp (cmpV v) = sp v := by
  rw [cmpV_eq]
  have key : ∀ x : Nat, (if 64 ≤ x then 8 * ((x - 64) / 16) + x % 16 else x) % 2 = x % 2 := by
    intro x
    split_ifs <;> omega
  exact key v

theorem okFs_iff (fs : List Fac) : okFs fs = true → ∀ v ∈ vars fs, okV v = true := by
  have hix : ∀ ix : List Var, okIxs ix = true → ∀ v ∈ ix, okV v = true := by
    intro ix
    induction ix with
    | nil => intro _ v hv; simp at hv
    | cons u ix ih =>
      intro h
      have e : okIxs (u :: ix) = cif (okV u) (okIxs ix) false := rfl
      rw [e, cif_and] at h
      intro v hv
      rcases List.mem_cons.1 hv with rfl | hv
      · exact h.1
      · exact ih h.2 v hv
  induction fs with
  | nil => intro _ v hv; simp [vars] at hv
  | cons f fs ih =>
    intro h v hv
    have e : okFs (f :: fs) = cif (okIxs f.ix) (okFs fs) false := rfl
    rw [e, cif_and] at h
    obtain ⟨g, hg, hvg⟩ := (mem_vars _ _).1 hv
    rcases List.mem_cons.1 hg with rfl | hg
    · exact hix _ h.1 v hvg
    · exact ih h.2 v ((mem_vars _ _).2 ⟨g, hg, hvg⟩)

theorem cmpIx_eq {β : Type} (ix : List Var) : ∀ k : List Var → β, cmpIx ix k = k (ix.map cmpV) := by
  induction ix with
  | nil => intro k; rfl
  | cons v ix ih =>
    intro k
    have e : cmpIx (v :: ix) k = force (cmpV v) fun v => cmpIx ix fun r => k (v :: r) := rfl
    rw [e, force_eq, ih]; rfl

theorem cmpK_eq {β : Type} (fs : List Fac) : ∀ k : List Fac → β, cmpK fs k = k (renFs cmpV fs) := by
  induction fs with
  | nil => intro k; rfl
  | cons f fs ih =>
    intro k
    have e : cmpK (f :: fs) k = cmpIx f.ix fun ix => cmpK fs fun r => k (⟨f.t, ix⟩ :: r) := rfl
    rw [e, cmpIx_eq, ih]; rfl

theorem evenB_cons {α : Type} (x : α) (l : List α) : evenB (x :: l) = !evenB l := by
  have e : evenB (x :: l) = cif (evenB l) false true := rfl
  rw [e]; cases evenB l <;> rfl

theorem sg_evenB {K α : Type} [Field K] (l : List α) : (sg (evenB l) : K) = (-1) ^ (l.length + 1) := by
  induction l with
  | nil => simp [evenB, sg]
  | cons x l ih => rw [evenB_cons, sg_not, ih, List.length_cons, pow_succ]; ring

section
variable {I K : Type} [Field K] [Inhabited I] (D : Nat → Finset I) (T : Nat → List I → K)

theorem leafX_eval (q : ℚ) (s : Bool) (k : Nat) (fs : List Fac) (tail : Prog) :
    (leafX q s k fs tail).eval D T [] = (q : K) * (sgn s k : K) * raw D T fs [] [] + tail.eval D T [] := by
  have key : ∀ fs, Prog.eval D T (leafE q [] s k fs :: tail) [] =
      (q : K) * (sgn s k : K) * raw D T fs [] [] + tail.eval D T [] := by
    intro fs
    simp only [Prog.eval, List.map_cons, List.sum_cons, Blk.eval, leafE, List.map_nil, List.sum_nil, add_zero, termVal]
    congr 1
    rw [mul_left_comm, ← mul_assoc]
    rfl
  unfold leafX
  cases h : okFs fs with
  | false => rw [cif_false, key]
  | true =>
    rw [cif_true, cmpK_eq, key]
    congr 2
    refine (raw_ren D T fs [] cmpV (by simp) ?_ (fun x _ => cmpV_sp x) [] rfl).symm
    intro x hx y hy e
    simp only [List.not_mem_nil, false_or] at hx hy
    exact cmpV_inj x y (okFs_iff fs h x hx) (okFs_iff fs h y hy) e
end

variable {I K A : Type} [DecidableEq I] [Field K] [Ring A] [Algebra K A] {D : Nat → Finset I} (F : Fermi I K A D)

/-- Wick's theorem for a quasi-creator, contracted to the left. -/
theorem Fermi.wickL (x : Bool × I) (h : quasiL D x) (B l : List (Bool × I)) :
    F.ω (F.prod (B ++ x :: l)) = ((picks B).map fun p => ((-1) ^ (B.length + 1) * (sg p.1 * acc x p.2.1) : K) *
      F.ω (F.prod (p.2.2 ++ l))).sum := by
  have hp : ∀ l l' : List (Bool × I), F.prod (l ++ l') = F.prod l * F.prod l' := by intro l l'; simp [Fermi.prod]
  have hm := F.move x B
  have h1 : F.prod B * F.op x = ((-1 : K) ^ B.length) • (F.op x * F.prod B -
      ((picks B).map fun p => (sg p.1 * acc x p.2.1 : K) • F.prod p.2.2).sum) := by
    rw [hm, add_sub_cancel_left, smul_smul, ← mul_pow]
    simp
  have h2 : F.prod (B ++ x :: l) = F.prod B * F.op x * F.prod l := by
    rw [hp, show F.prod (x :: l) = F.op x * F.prod l by simp [Fermi.prod], mul_assoc]
  rw [h2, h1, smul_mul_assoc, map_smul, sub_mul, map_sub, mul_assoc, F.left x h, zero_sub, smul_neg, ← neg_smul]
  rw [← List.sum_map_mul_right, map_list_sum, List.map_map, smul_eq_mul, ← List.sum_map_mul_left]
  congr 1
  refine List.map_congr_left fun p _ => ?_
  simp only [Function.comp, smul_mul_assoc, map_smul, smul_eq_mul, hp, pow_succ]
  ring

/-- What is needed of the operators. -/
structure GoodX (T : Nat → List I → K) (fs : List Fac) (B ops : List (Bool × Var)) : Prop where
  nodup : ((B ++ ops).map Prod.snd).Nodup
  known : ∀ x ∈ B ++ ops, x.2 ∈ vars fs
  quasi : ∀ x ∈ B, isQ x = true
  swB : ∀ z ∈ B, ∀ z' ∈ B, z ≠ z' → eqv z z' = true → Sw T fs z.2 z'.2
  sw : ∀ z ∈ ops, ∀ z' ∈ ops, z ≠ z' → eqv z z' = true → Sw T fs z.2 z'.2

omit [DecidableEq I] in
/-- Contracting `x` with an element of `t`. -/
theorem GoodX.step {T : Nat → List I → K} {fs : List Fac} {B ops : List (Bool × Var)} (hg : GoodX T fs B ops)
    {B' ops' : List (Bool × Var)} {x z : Bool × Var} (hp : (B ++ ops).Perm (x :: z :: (B' ++ ops')))
    (hB : ∀ y ∈ B', y ∈ B) (ho : ∀ y ∈ ops', y ∈ ops) : GoodX T (subst z.2 x.2 fs) B' ops' := by
  have hn := (hp.map Prod.snd).nodup_iff.1 hg.nodup
  simp only [List.map_cons, List.nodup_cons, List.mem_cons, not_or] at hn
  obtain ⟨⟨_, hx⟩, hz, hn⟩ := hn
  have hxne : ∀ y ∈ B' ++ ops', x.2 ≠ y.2 := fun y hy e => hx (List.mem_map.2 ⟨y, hy, e.symm⟩)
  have hzne : ∀ y ∈ B' ++ ops', z.2 ≠ y.2 := fun y hy e => hz (List.mem_map.2 ⟨y, hy, e.symm⟩)
  have hl : ∀ y ∈ B', y ∈ B' ++ ops' := fun y hy => List.mem_append.2 (Or.inl hy)
  have hr : ∀ y ∈ ops', y ∈ B' ++ ops' := fun y hy => List.mem_append.2 (Or.inr hy)
  refine ⟨hn, ?_, fun y hy => hg.quasi y (hB y hy), ?_, ?_⟩
  · intro y hy
    refine vars_subst _ _ _ _ (hg.known y ?_) (Ne.symm (hzne y hy))
    exact hp.mem_iff.2 (List.mem_cons_of_mem _ (List.mem_cons_of_mem _ hy))
  · intro y hy y' hy' hne he
    exact (hg.swB y (hB y hy) y' (hB y' hy') hne he).subst _ _ (hzne y (hl y hy)) (hzne y' (hl y' hy')) (hxne y (hl y hy))
      (hxne y' (hl y' hy'))
  · intro y hy y' hy' hne he
    exact (hg.sw y (ho y hy) y' (ho y' hy') hne he).subst _ _ (hzne y (hr y hy)) (hzne y' (hr y' hy')) (hxne y (hr y hy))
      (hxne y' (hr y' hy'))

variable [Inhabited I]

theorem wickX_eval [CharZero K] (hD : Disjoint (D 0) (D 1)) (T : Nat → List I → K) (q : ℚ) :
    ∀ (n : Nat) (B ops : List (Bool × Var)) (fs : List Fac) (k : Nat) (s : Bool) (tail : Prog), ops.length ≤ n →
    GoodX T fs B ops → (wickX q n B ops fs k s tail).eval D T [] =
      (q : K) * (sgn s k : K) * vv F T [] [] F.ω fs (B ++ ops) + tail.eval D T [] := by
  -- no operators to the right
  have hend : ∀ (B : List (Bool × Var)) (fs : List Fac) (k : Nat) (s : Bool) (tail : Prog), GoodX T fs B [] →
      Prog.eval D T (List.rec (motive := fun _ => Prog) (leafX q s k fs tail) (fun _ _ _ => tail) B) [] =
      (q : K) * (sgn s k : K) * vv F T [] [] F.ω fs (B ++ []) + tail.eval D T [] := by
    intro B fs k s tail hg
    rcases List.eq_nil_or_concat B with rfl | ⟨B, x, rfl⟩
    · rw [leafX_eval]
      simp [vv, inst, Fermi.prod, F.one, raw, sumM_eq]
    · have h0 : vv F T [] [] F.ω fs (B.concat x ++ []) = 0 := by
        unfold vv
        rw [sumM_congr D _ _ (fun _ => 0) _ (nodup_dums _ _), sumM_zero]
        intro ρ hr
        have hx : ρ x.2 ∈ D (sp x.2) := by
          refine hr.1 _ ((mem_dums _ _ _).2 ⟨hg.known x (by simp), by simp⟩)
        have hq := hg.quasi x (by simp)
        rw [isQ_eq, decide_eq_true_eq] at hq
        rw [hq] at hx
        have h1 : F.prod (inst ρ (B.concat x ++ [])) = F.prod (inst ρ B) * F.op (x.1, ρ x.2) := by simp [Fermi.prod, inst]
        rw [h1, F.right (x.1, ρ x.2) hx, smul_zero]
      rw [h0, mul_zero, zero_add]
      cases hc : B.concat x with
      | nil => simp at hc
      | cons y l => rfl
  have hsg : ∀ (s b : Bool) (k m : Nat), ((sgn (s ^^ b) (k * m) : ℤ) : K) = (sgn s k : K) * ((m : K) * sg b) := by
    intro s b k m
    have hneg : ∀ i : ℤ, Int.neg i = - i := fun _ => rfl
    cases s <;> cases b <;> simp [sgn, sg, hneg]
  intro n
  induction n with
  | zero =>
    intro B ops fs k s tail hl hg
    have : ops = [] := List.length_eq_zero_iff.1 (by omega)
    subst this
    exact hend B fs k s tail hg
  | succ n ih =>
    intro B ops fs k s tail hl hg
    cases ops with
    | nil => exact hend B fs k s tail hg
    | cons x l =>
      have e : wickX q (n + 1) B (x :: l) fs k s tail =
        cif (isQ x) (pickB x.1 x.2 fs (fun r => wickX q n B r) l nul k s [] tail)
          (pickB x.1 x.2 fs (fun r => wickX q n r l) B nul k (cif (evenB B) (cif s false true) s) [] tail) := rfl
      have hval : ∀ ρ, Reach D (dums [] fs) (bind (fun _ => default) [] []) ρ → ρ x.2 ∈ D (sp x.2) := fun ρ hr =>
        hr.1 _ ((mem_dums _ _ _).2 ⟨hg.known x (by simp), by simp⟩)
      rw [e]
      simp only [List.length_cons] at hl
      cases hq : isQ x with
      | true =>
        rw [cif_true, pickB_fold]
        have hqx : sp x.2 = if x.1 then 0 else 1 := by rw [isQ_eq] at hq; simpa using hq
        -- move to the right
        have h1 : vv F T [] [] F.ω fs (B ++ x :: l) =
            sumM D (dums [] fs) (fun ρ => ((picks l).map fun p => (evalFs T fs ρ * (sg p.1 *
              acc (x.1, ρ x.2) (p.2.1.1, ρ p.2.1.2))) • F.ω (F.prod (inst ρ (B ++ p.2.2 ++ [])))).sum)
              (bind (fun _ => default) [] []) := by
          unfold vv
          refine sumM_congr D _ _ _ _ (nodup_dums _ _) fun ρ hr => ?_
          have hx := hval ρ hr
          rw [hqx] at hx
          have hp : ∀ l l' : List (Bool × I), F.prod (l ++ l') = F.prod l * F.prod l' := by intro l l'; simp [Fermi.prod]
          have hi : ∀ l l' : List (Bool × Var), inst ρ (l ++ l') = inst ρ l ++ inst ρ l' := by intro l l'; simp [inst]
          have hc : F.prod (inst ρ (x :: l)) = F.op (x.1, ρ x.2) * F.prod (inst ρ l) := by simp [Fermi.prod, inst]
          rw [hi, hp, hc, F.move, mul_add, map_add, mul_smul_comm, ← mul_assoc, map_smul, F.right (x.1, ρ x.2) hx, smul_zero, add_zero,
            ← List.sum_map_mul_left, map_list_sum, List.map_map]
          unfold inst
          rw [picks_map, List.map_map, smul_eq_mul, ← List.sum_map_mul_left]
          congr 1
          refine List.map_congr_left fun p _ => ?_
          have h3 := hp (B.map fun y => (y.1, ρ y.2)) (p.2.2.map fun y => (y.1, ρ y.2))
          simp only [List.append_nil, List.map_append, Function.comp, mul_smul_comm, map_smul, smul_eq_mul] at h3 ⊢
          rw [h3]
          ring
        rw [h1, contract F hD T [] [] (by simp) (by simp) F.ω x B l [] fs]
        · rw [mul_comm ((q : K) * _), ← List.sum_map_mul_right]
          refine eval_foldr D T [] _ _ _ (fun r hr tail => ?_) _
          have hp := mem_picks l r.2 (mem_runs l nul _ hr)
          cases hc : canC x r.2.2.1 with
          | false => simp
          | true =>
            rw [cif_true, cif_true, List.reverse_nil, List.nil_append, ih, hsg]
            · congr 1
              rw [List.append_nil, smul_eq_mul, nsmul_eq_mul]
              ring
            · have := hp.length_eq
              simp only [List.length_cons] at this
              omega
            · refine hg.step ?_ (fun y hy => hy) (fun y hy => List.mem_cons_of_mem _ (hp.mem_iff.2 (List.mem_cons_of_mem _ hy)))
              refine List.perm_middle.trans (List.Perm.cons x ?_)
              exact (List.Perm.append_left B hp).trans List.perm_middle
        · have := (List.Perm.map Prod.snd (List.perm_middle (l₁ := B) (a := x) (l₂ := l))).nodup_iff.1 hg.nodup
          simpa using this
        · intro y hy
          refine Or.inr (hg.known y ?_)
          simp only [List.append_nil, List.mem_cons, List.mem_append] at hy ⊢
          tauto
        · simp
        · intro z hz z' hz'
          exact hg.sw z (List.mem_cons_of_mem _ hz) z' (List.mem_cons_of_mem _ hz')
      | false =>
        rw [cif_false, pickB_fold]
        have h1 : vv F T [] [] F.ω fs (B ++ x :: l) = (sg (evenB B) : K) *
            sumM D (dums [] fs) (fun ρ => ((picks B).map fun p => (evalFs T fs ρ * (sg p.1 *
              acc (x.1, ρ x.2) (p.2.1.1, ρ p.2.1.2))) • F.ω (F.prod (inst ρ ([] ++ p.2.2 ++ l)))).sum)
              (bind (fun _ => default) [] []) := by
          rw [show ∀ y : K, (sg (evenB B) : K) * y = (AddMonoidHom.mulLeft (sg (evenB B) : K)) y from fun _ => rfl, sumM_hom]
          unfold vv
          refine sumM_congr D _ _ _ _ (nodup_dums _ _) fun ρ hr => ?_
          have hx := hval ρ hr
          have hxL : quasiL D (x.1, ρ x.2) := by
            rw [isQ_eq, decide_eq_false_iff_not] at hq
            unfold quasiL
            have : sp x.2 = if x.1 then 1 else 0 := by
              rcases sp_cases x.2 with h | h <;> rw [h] at hq ⊢ <;> cases hx : x.1 <;> simp [hx] at hq ⊢
            rw [this] at hx
            exact hx
          have hi : inst ρ (B ++ x :: l) = inst ρ B ++ (x.1, ρ x.2) :: inst ρ l := by simp [inst]
          rw [hi, F.wickL _ hxL, sg_evenB]
          simp only [AddMonoidHom.coe_mulLeft]
          unfold inst
          rw [picks_map, List.map_map, smul_eq_mul, ← List.sum_map_mul_left, ← List.sum_map_mul_left]
          congr 1
          refine List.map_congr_left fun p _ => ?_
          simp only [List.nil_append, List.map_append, Function.comp, smul_eq_mul, List.length_map]
          ring
        rw [h1, contract F hD T [] [] (by simp) (by simp) F.ω x [] B l fs]
        · have hs : cif (evenB B) (cif s false true) s = (s ^^ evenB B) := by cases evenB B <;> cases s <;> rfl
          rw [hs, ← mul_assoc, mul_comm ((q : K) * _ * _), ← List.sum_map_mul_right]
          refine eval_foldr D T [] _ _ _ (fun r hr tail => ?_) _
          have hp := mem_picks B r.2 (mem_runs B nul _ hr)
          cases hc : canC x r.2.2.1 with
          | false => simp
          | true =>
            rw [cif_true, cif_true, List.reverse_nil, List.nil_append, ih, hsg]
            · congr 1
              have := hsg s (evenB B) k 1
              rw [mul_one, Nat.cast_one, one_mul] at this
              rw [this, smul_eq_mul, nsmul_eq_mul]
              ring
            · omega
            · refine hg.step ?_ (fun y hy => hp.mem_iff.2 (List.mem_cons_of_mem _ hy)) (fun y hy => List.mem_cons_of_mem _ hy)
              refine List.perm_middle.trans (List.Perm.cons x ?_)
              exact List.Perm.append_right l hp
        · have := (List.Perm.map Prod.snd (List.perm_middle (l₁ := B) (a := x) (l₂ := l))).nodup_iff.1 hg.nodup
          simpa using this
        · intro y hy
          refine Or.inr (hg.known y ?_)
          simp only [List.nil_append, List.mem_cons, List.mem_append] at hy ⊢
          tauto
        · simp
        · intro z hz z' hz'
          exact hg.swB z hz z' hz'

/-! ### nested commutators -/

omit [DecidableEq I] [Inhabited I] in
theorem nestX_nil (q : ℚ) (bfs : List Fac) (bops : List (Bool × Var)) (ops : List (Bool × Var)) (fs : List Fac) (k : Nat)
    (s : Bool) (tail : Prog) :
    nestX q bfs bops [] ops fs k s tail = wickX q ops.length bops ops (bfs ++ fs) k s tail := by
  have e : nestX q bfs bops [] ops fs k s tail = force ops.length fun n =>
    appK bfs fs fun f => wickX q n bops ops f k s tail := rfl
  rw [e, force_eq, appK_eq]

omit [DecidableEq I] [Inhabited I] in
theorem nestX_cons (q : ℚ) (bfs : List Fac) (bops : List (Bool × Var)) (t : OpTerm) (ts : List OpTerm)
    (ops : List (Bool × Var)) (fs : List Fac) (k : Nat) (s : Bool) (tail : Prog) :
    nestX q bfs bops (t :: ts) ops fs k s tail = (splits ops).foldr (fun p acc => cif (isQ p.2.1)
      ((runs nul t.ops).foldr (fun r acc => cif (canC p.2.1 r.2.2.1)
        (nestX q bfs bops ts (p.1 ++ r.2.2.2 ++ p.2.2) (subst r.2.2.1.2 p.2.1.2 (fs ++ t.fs)) (k * r.1) (s ^^ r.2.1)
          acc) acc) acc) acc) tail := by
  have e : nestX q bfs bops (t :: ts) ops fs k s tail = appK fs t.fs fun f => splitB (fun pre y post tail =>
      Prod.rec (motive := fun _ => Prog) (fun b v => cif (isQ (b, v)) (pickB b v f (fun r f k s tail =>
        appK r post fun l => revK pre l fun l => nestX q bfs bops ts l f k s tail) t.ops nul k s [] tail) tail) y)
      ops [] tail := rfl
  rw [e, appK_eq, splitB_eq]
  congr 1
  funext p acc
  obtain ⟨pre, ⟨b, v⟩, post⟩ := p
  have h := pickB_fold (b, v) (fs ++ t.fs) (fun r f k s tail =>
        appK r post fun l => revK (pre.reverse ++ []) l fun l => nestX q bfs bops ts l f k s tail) t.ops nul k s [] acc
  simp only at h ⊢
  rw [h]
  simp only [appK_eq, revK_eq, List.append_nil, List.reverse_reverse, List.reverse_nil, List.nil_append,
    List.append_assoc]

omit [DecidableEq I] [Inhabited I] in
theorem wickX_unbal (q : ℚ) (p : Nat) : ∀ (n : Nat) (B ops : List (Bool × Var)) (fs : List Fac) (k : Nat) (s : Bool)
    (tail : Prog), dif p (B ++ ops) ≠ 0 → wickX q n B ops fs k s tail = tail := by
  have hend : ∀ (B : List (Bool × Var)) (fs : List Fac) (k : Nat) (s : Bool) (tail : Prog), dif p (B ++ []) ≠ 0 →
      (List.rec (motive := fun _ => Prog) (leafX q s k fs tail) (fun _ _ _ => tail) B) = tail := by
    intro B fs k s tail h
    cases B with
    | nil => exact absurd rfl h
    | cons x B => rfl
  intro n
  induction n with
  | zero =>
    intro B ops fs k s tail h
    cases ops with
    | nil => exact hend B fs k s tail h
    | cons x l => rfl
  | succ n ih =>
    intro B ops fs k s tail h
    cases ops with
    | nil => exact hend B fs k s tail h
    | cons x l =>
      have e : wickX q (n + 1) B (x :: l) fs k s tail =
        cif (isQ x) (pickB x.1 x.2 fs (fun r => wickX q n B r) l nul k s [] tail)
          (pickB x.1 x.2 fs (fun r => wickX q n r l) B nul k (cif (evenB B) (cif s false true) s) [] tail) := rfl
      rw [e, pickB_fold, pickB_fold]
      have hx : dif p (B ++ x :: l) = dif p B + dif p (x :: l) := dif_append _ _ _
      cases isQ x with
      | true =>
        rw [cif_true]
        refine foldr_id _ _ (fun r hr tail => ?_) _
        cases hc : canC x r.2.2.1 with
        | false => rfl
        | true =>
          rw [cif_true]
          refine ih _ _ _ _ _ _ ?_
          have hp := dif_perm p (mem_picks _ _ (mem_runs _ nul _ hr))
          have h3 := dif_canC p _ _ hc [] r.2.2.2
          have h4 : dif p [x] + dif p l = dif p (x :: l) := (dif_append p [x] l).symm
          have h5 : dif p ([] : List (Bool × Var)) = 0 := rfl
          simp only [List.reverse_nil, List.nil_append, dif_append]
          intro h7
          apply h
          rw [hx]
          linarith
      | false =>
        rw [cif_false]
        refine foldr_id _ _ (fun r hr tail => ?_) _
        cases hc : canC x r.2.2.1 with
        | false => rfl
        | true =>
          rw [cif_true]
          refine ih _ _ _ _ _ _ ?_
          have hp := dif_perm p (mem_picks _ _ (mem_runs _ nul _ hr))
          have h3 := dif_canC p _ _ hc l r.2.2.2
          simp only [List.reverse_nil, List.nil_append, dif_append]
          intro h7
          apply h
          rw [hx]
          linarith

omit [DecidableEq I] [Inhabited I] in
theorem nestX_unbal (q : ℚ) (bfs : List Fac) (bops : List (Bool × Var)) (p : Nat) (ts : List OpTerm) :
    ∀ (ops : List (Bool × Var)) (fs : List Fac) (k : Nat) (s : Bool) (tail : Prog),
    dif p (bops ++ ops ++ allOps ts) ≠ 0 → nestX q bfs bops ts ops fs k s tail = tail := by
  induction ts with
  | nil =>
    intro ops fs k s tail h
    rw [nestX_nil]
    exact wickX_unbal _ p _ _ _ _ _ _ _ (by simpa [allOps] using h)
  | cons t ts ih =>
    intro ops fs k s tail h
    rw [nestX_cons]
    refine foldr_id _ _ (fun pp hpp tail => ?_) _
    cases hq : isQ pp.2.1 with
    | false => rfl
    | true =>
      rw [cif_true]
      refine foldr_id _ _ (fun r hr tail => ?_) _
      cases hc : canC pp.2.1 r.2.2.1 with
      | false => rfl
      | true =>
        rw [cif_true]
        refine ih _ _ _ _ _ ?_
        have h1 := mem_splits _ _ hpp
        have h2 := mem_picks _ _ (mem_runs _ nul _ hr)
        have h3 := dif_canC p _ _ hc (pp.1 ++ pp.2.2) r.2.2.2
        have h4 : dif p ops = dif p (pp.2.1 :: (pp.1 ++ pp.2.2)) := by
          rw [h1]; exact dif_perm p List.perm_middle
        have h5 := dif_perm p h2
        have h6 : allOps (t :: ts) = t.ops ++ allOps ts := rfl
        rw [h6] at h
        simp only [dif_append] at h h3 h4 ⊢
        intro h7
        apply h
        rw [h4, h5]
        linarith

/-- What is needed of the operator `B`. -/
structure BraX (T : Nat → List I → K) (b : OpTerm) : Prop where
  one : b.k = 1
  nodup : (b.ops.map Prod.snd).Nodup
  known : ∀ x ∈ b.ops, x.2 ∈ vars b.fs
  quasi : ∀ x ∈ b.ops, isQ x = true
  low : ∀ v ∈ vars b.fs, 192 ≤ v
  sw : ∀ z ∈ b.ops, ∀ z' ∈ b.ops, z ≠ z' → eqv z z' = true → Sw T b.fs z.2 z'.2

theorem nestX_eval [CharZero K] (hD : Disjoint (D 0) (D 1)) (T : Nat → List I → K) (q : ℚ) (b : OpTerm)
    (hb : BraX T b) (ts : List OpTerm) : ∀ (m : Nat) (ops : List (Bool × Var)) (fs : List Fac) (k : Nat) (s : Bool)
    (tail : Prog), Run T m fs ops → Pieces T m ts → m + ts.length ≤ 8 →
    (nestX q b.fs b.ops ts ops fs k s tail).eval D T [] = (q : K) * (sgn s k : K) *
      F.ω (b.val F T [] [] * adW (ts.map fun t => t.val F T [] []) (OpTerm.val F T [] [] ⟨1, fs, ops⟩)) +
      tail.eval D T [] := by
  induction ts with
  | nil =>
    intro m ops fs k s tail hr _ hm
    have h192 : (64 + 16 * m : Nat) ≤ 192 := by simp only [List.length_nil] at hm; omega
    have hlt' : ∀ v ∈ vars fs, v < 192 := fun v hv => lt_of_lt_of_le (hr.high v hv) h192
    have hap : b.apart [] ⟨1, fs, ops⟩ = true := by
      simp only [OpTerm.apart, Bool.and_eq_true, List.all_eq_true, Bool.not_eq_true', List.elem_eq_mem,
        decide_eq_false_iff_not]
      constructor
      · intro v hv
        have h1 := hb.low v ((mem_dums _ _ _).1 hv).1
        refine ⟨fun h => Nat.not_lt.2 h1 (hlt' v h), fun h => ?_⟩
        obtain ⟨x, hx, rfl⟩ := List.mem_map.1 h
        exact Nat.not_lt.2 h1 (hlt' _ (hr.known x hx))
      · intro v hv
        have h1 := hlt' v ((mem_dums _ _ _).1 hv).1
        refine ⟨fun h => Nat.not_lt.2 (hb.low v h) h1, fun h => ?_⟩
        obtain ⟨x, hx, rfl⟩ := List.mem_map.1 h
        exact Nat.not_lt.2 (hb.low _ (hb.known x hx)) h1
    have hg : GoodX T (b.fs ++ fs) b.ops ops := by
      refine ⟨?_, ?_, hb.quasi, ?_, ?_⟩
      · rw [List.map_append, List.nodup_append]
        refine ⟨hb.nodup, hr.nodup, ?_⟩
        intro u hu v hv e
        obtain ⟨x, hx, rfl⟩ := List.mem_map.1 hu
        obtain ⟨y, hy, rfl⟩ := List.mem_map.1 hv
        exact Nat.not_lt.2 (hb.low _ (hb.known x hx)) (e ▸ hlt' _ (hr.known y hy))
      · intro x hx
        rw [vars_append]
        rcases List.mem_append.1 hx with hx | hx
        · exact Or.inl (hb.known x hx)
        · exact Or.inr (hr.known x hx)
      · intro z hz z' hz' hne he
        exact (hb.sw z hz z' hz' hne he).append (fun h => Nat.not_lt.2 (hb.low _ (hb.known z hz)) (hlt' _ h))
          (fun h => Nat.not_lt.2 (hb.low _ (hb.known z' hz')) (hlt' _ h))
      · intro z hz z' hz' hne he
        exact (hr.sw z hz z' hz' hne he).append' (fun h => Nat.not_lt.2 (hb.low _ h) (hlt' _ (hr.known z hz)))
          (fun h => Nat.not_lt.2 (hb.low _ h) (hlt' _ (hr.known z' hz')))
    rw [nestX_nil, wickX_eval F hD T q _ _ _ _ _ _ _ le_rfl hg, List.map_nil, adW, ← OpTerm.val_mul F T [] [] _ _ hap,
      OpTerm.val, OpTerm.mul, hb.one]
    simp only [show Int.mul 1 1 = 1 from rfl, Int.cast_one, one_smul]
    congr 2
    rw [vv]
    rw [show F.ω (sumM D (dums [] (b.fs ++ fs)) (fun ρ => evalFs T (b.fs ++ fs) ρ • F.prod (inst ρ (b.ops ++ ops)))
        (bind (fun _ => default) [] [])) = F.ω.toAddMonoidHom (sumM D (dums [] (b.fs ++ fs)) (fun ρ =>
        evalFs T (b.fs ++ fs) ρ • F.prod (inst ρ (b.ops ++ ops))) (bind (fun _ => default) [] [])) from rfl, sumM_hom]
    congr 1
    funext ρ
    simp
  | cons t ts ih =>
    intro m ops fs k s tail hr hts hm
    obtain ⟨ht, hts⟩ := hts
    have hap : OpTerm.apart [] ⟨1, fs, ops⟩ t = true := by
      simp only [OpTerm.apart, Bool.and_eq_true, List.all_eq_true, Bool.not_eq_true', List.elem_eq_mem,
        decide_eq_false_iff_not]
      constructor
      · intro v hv
        have h1 := hr.high v ((mem_dums _ _ _).1 hv).1
        refine ⟨fun h => Nat.not_lt.2 (ht.low v h) h1, fun h => ?_⟩
        obtain ⟨x, hx, rfl⟩ := List.mem_map.1 h
        exact Nat.not_lt.2 (ht.low _ (ht.known x hx)) h1
      · intro v hv
        have h1 := ht.low v ((mem_dums _ _ _).1 hv).1
        refine ⟨fun h => Nat.not_lt.2 h1 (hr.high v h), fun h => ?_⟩
        obtain ⟨x, hx, rfl⟩ := List.mem_map.1 h
        exact Nat.not_lt.2 h1 (hr.high _ (hr.known x hx))
    have hc := OpTerm.val_comm F hD T [] [] (by simp) (by simp) ⟨1, fs, ops⟩ t hap
      ⟨hr.nodup, fun x hx => Or.inr (hr.known x hx)⟩ ⟨ht.even, ht.nodup, ht.known, by simp, ht.creator, ht.sw⟩
    rw [List.map_cons, adW, ← hc, nestX_cons]
    unfold OpProg.val OpTerm.comm
    rw [map_sum_flatMap, adW_sum, ← List.sum_map_mul_left, map_list_sum, ← List.sum_map_mul_left, List.map_map]
    refine eval_foldr D T [] _ _ _ (fun p hp tail => ?_) _
    simp only [Function.comp]
    cases hq : isQ p.2.1 with
    | false =>
      have h0 : adW (ts.map fun t => t.val F T [] []) (0 : A) = 0 := by
        simpa using adW_smul (K := K) (ts.map fun t => t.val F T [] []) 0 (0 : A)
      simp [h0]
    | true =>
      rw [cif_true, cif_true, map_sum_flatMap, adW_sum, ← List.sum_map_mul_left, map_list_sum, ← List.sum_map_mul_left,
        List.map_map]
      refine eval_foldr D T [] _ _ _ (fun r hrr tail => ?_) _
      simp only [Function.comp]
      cases hcc : canC p.2.1 r.2.2.1 with
      | false =>
        have h0 : adW (ts.map fun t => t.val F T [] []) (0 : A) = 0 := by
          simpa using adW_smul (K := K) (ts.map fun t => t.val F T [] []) 0 (0 : A)
        simp [h0]
      | true =>
        rw [cif_true, cif_true]
        rw [ih (m + 1) _ _ _ _ _ (hr.step ht p hp r.2 (mem_runs _ nul _ hrr)) hts (by
          simp only [List.length_cons] at hm; omega)]
        congr 1
        simp only [List.map_cons, List.map_nil, List.sum_cons, List.sum_nil, add_zero]
        have hv : ∀ (c : ℤ) (f : List Fac) (o : List (Bool × Var)), OpTerm.val F T [] [] ⟨c, f, o⟩ =
            (c : K) • OpTerm.val F T [] [] ⟨1, f, o⟩ := by
          intro c f o
          simp [OpTerm.val]
        rw [hv ((if r.2.1 then -1 else 1) * (r.1 * (1 * t.k))), adW_smul, mul_smul_comm, map_smul, smul_eq_mul, ht.one,
          ← mul_assoc]
        congr 1
        have hsg : (sgn (s ^^ r.2.1) (k * r.1) : ℤ) = sgn s k * ((if r.2.1 then -1 else 1) * (r.1 * (1 * 1))) := by
          unfold sgn
          have hneg : ∀ i : ℤ, Int.neg i = - i := fun _ => rfl
          cases s <;> cases r.2.1 <;> simp [hneg]
        rw [hsg]
        push_cast
        ring

theorem commX_eval [CharZero K] (hD : Disjoint (D 0) (D 1)) (T : Nat → List I → K) (q : ℚ) (b : OpTerm)
    (hb : BraX T b) (ts : List OpTerm) (hts : Pieces T 0 ts) (hlen : ts.length ≤ 8) (P : OpProg)
    (hP : ∀ h ∈ P, Run T 0 h.fs h.ops) (tail : Prog) :
    (commX q b ts P tail).eval D T [] = (q : K) *
      F.ω (b.val F T [] [] * adW (ts.map fun t => t.val F T [] []) (P.val F T [] [])) + tail.eval D T [] := by
  induction P with
  | nil =>
    have h0 : adW (ts.map fun t => t.val F T [] []) (0 : A) = 0 := by
      simpa using adW_smul (K := K) (ts.map fun t => t.val F T [] []) 0 (0 : A)
    simp [OpProg.val, commX, h0]
  | cons h P ih =>
    have e : commX q b ts (h :: P) tail = evalFacs h.fs fun fs => evalOps h.ops fun ops =>
      cif (balanced (b.ops ++ ops ++ allOps ts))
      (Int.rec (motive := fun _ => Prog)
        (fun n => force n fun n => nestX q b.fs b.ops ts ops fs n false (commX q b ts P tail))
        (fun n => force (Nat.succ n) fun n => nestX q b.fs b.ops ts ops fs n true (commX q b ts P tail)) h.k)
      (commX q b ts P tail) := rfl
    have hr := hP h List.mem_cons_self
    have key : ∀ s n, sgn s n = h.k → (nestX q b.fs b.ops ts h.ops h.fs n s (commX q b ts P tail)).eval D T [] =
        (q : K) * F.ω (b.val F T [] [] * adW (ts.map fun t => t.val F T [] []) (h.val F T [] [])) +
        (commX q b ts P tail).eval D T [] := by
      intro s n hk
      rw [nestX_eval F hD T q b hb ts 0 h.ops h.fs n s _ hr hts (by omega), hk]
      have hv : h.val F T [] [] = (h.k : K) • OpTerm.val F T [] [] ⟨1, h.fs, h.ops⟩ := by simp [OpTerm.val]
      rw [hv, adW_smul, mul_smul_comm, map_smul, smul_eq_mul]
      ring
    have hrhs : (q : K) * F.ω (b.val F T [] [] * adW (ts.map fun t => t.val F T [] []) (OpProg.val F T [] [] (h :: P))) +
        tail.eval D T [] =
        (q : K) * F.ω (b.val F T [] [] * adW (ts.map fun t => t.val F T [] []) (h.val F T [] [])) +
        (commX q b ts P tail).eval D T [] := by
      rw [ih fun x hx => hP x (List.mem_cons_of_mem _ hx)]
      unfold OpProg.val
      rw [adW_sum, adW_sum, List.map_cons, List.sum_cons, mul_add, map_add]
      ring
    rw [hrhs, e, evalFacs_eq, evalOps_eq]
    cases hbal : balanced (b.ops ++ h.ops ++ allOps ts) with
    | true =>
      rw [cif_true]
      cases hk : h.k with
      | ofNat n => simp only [force_eq]; exact key false n (by rw [hk]; rfl)
      | negSucc n => simp only [force_eq]; exact key true (n + 1) (by rw [hk]; rfl)
    | false =>
      rw [cif_false]
      obtain ⟨p, hp⟩ := balanced_dif _ hbal
      have hz : ∀ s n, (nestX q b.fs b.ops ts h.ops h.fs n s (commX q b ts P tail)) = commX q b ts P tail :=
        fun s n => nestX_unbal q b.fs b.ops p ts h.ops h.fs n s _ hp
      cases hk : h.k with
      | ofNat n => rw [← key false n (by rw [hk]; rfl), hz]
      | negSucc n => rw [← key true (n + 1) (by rw [hk]; rfl), hz]

omit [DecidableEq I] [Inhabited I] in
theorem pieces_length (u : List Nat) : ∀ m, (pieces u m).length = u.length := by
  induction u with
  | nil => intro m; rfl
  | cons k u ih => intro m; simp [pieces, ih]

/-- The programs `matX` give the matrix elements of the commutators. -/
theorem matrixX [CharZero K] (hD : Disjoint (D 0) (D 1)) (S : SO I K) (hS : S.Sym) (h : I → I → K)
    (hf : IsFock D h S.f S.g) (b : OpTerm) (hb : BraX S.T b) (cs : List (ℚ × List Nat × Part))
    (hcs : ∀ c ∈ cs, c.2.1.length ≤ 8) :
    (matX b cs).eval D S.T [] = (cs.map fun c => ((c.1 * (4 * scale c.2.1 : ℕ) : ℚ) : K) *
      F.ω (b.val F S.T [] [] * adW (c.2.1.map (F.cl S)) (F.part h S c.2.2))).sum := by
  induction cs with
  | nil => rfl
  | cons c cs ih =>
    have e : matX b (c :: cs) = evalTerms (pieces c.2.1 0) fun ts => commX c.1 b ts c.2.2.prog (matX b cs) := rfl
    rw [e, evalTerms_eq, commX_eval F hD S.T _ b hb _ (pieces_ok S hS c.2.1 0)
      (by rw [pieces_length]; exact hcs c List.mem_cons_self) _ (part_run S c.2.2),
      ih (fun c hc => hcs c (List.mem_cons_of_mem _ hc)),
      List.map_cons, List.sum_cons, pieces_val F S [] [] (by simp), adW_scale, val_part F hD S h hf [] [] (by simp), adW_smul]
    congr 1
    simp only [mul_smul_comm, map_smul, smul_eq_mul]
    have hs' : (((c.2.1.map tS).prod : ℕ) : K) = (scale c.2.1 : K) := rfl
    rw [hs']
    push_cast
    ring

end Verif.Wick
