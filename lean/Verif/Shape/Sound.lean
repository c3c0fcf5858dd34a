import Verif.Shape.Core

/-!
# A well-typed function never fails (C45)

If the interpreter succeeds on letters, it succeeds on the numbers they stand for, with the shapes that the letters
predict.
-/

namespace Verif.Shape

variable {δ ε : Type}

/-- Steps that succeed in `A` succeed in `B` with the image of the result. -/
structure Hom (A : Alg δ) (eqA : δ → δ → Bool) (B : Alg ε) (eqB : ε → ε → Bool) (h : δ → ε) : Prop where
  slice : ∀ s d e, A.slice s d = some e → B.slice s (h d) = some (h e)
  join : ∀ d e r, A.join d e = some r → B.join (h d) (h e) = some (h r)
  eqv : ∀ d e, eqA d e = true → eqB (h d) (h e) = true

variable {A : Alg δ} {eqA : δ → δ → Bool} {B : Alg ε} {eqB : ε → ε → Bool} {h : δ → ε}

/-- Image of a list of bindings. -/
def mapEnv {α β : Type} (f : α → β) (m : List (Nat × α)) : List (Nat × β) := m.map fun p => (p.1, f p.2)

theorem lookup_mapEnv {α β : Type} (f : α → β) (m : List (Nat × α)) (x : Nat) :
    lookup (mapEnv f m) x = (lookup m x).map f := by
  induction m with
  | nil => rfl
  | cons p m ih =>
    obtain ⟨y, a⟩ := p
    simp only [mapEnv, List.map_cons, lookup]
    split
    · rfl
    · exact ih

theorem slices_hom (H : Hom A eqA B eqB h) : ∀ (ss : List Sl) (ds es : List δ), slices A ss ds = some es →
    slices B ss (ds.map h) = some (es.map h)
  | [], ds, es, e => by
    simp only [slices, Option.some.injEq] at e ⊢; rw [e]
  | _ :: _, [], es, e => by simp [slices] at e
  | s :: ss, d :: ds, es, e => by
    simp only [slices] at e
    split at e
    · rename_i e1 h1
      split at e
      · rename_i es1 h2
        simp only [Option.some.injEq] at e
        subst e
        simp only [List.map_cons, slices, H.slice _ _ _ h1, slices_hom H ss ds es1 h2]
      · cases e
    · cases e

theorem getAll_hom {α β : Type} (f : Nat → Option α) (g : Nat → Option β) (k : α → β)
    (hf : ∀ x a, f x = some a → g x = some (k a)) : ∀ (ks : List Nat) (as : List α), getAll f ks = some as →
    getAll g ks = some (as.map k)
  | [], as, e => by simp only [getAll, Option.some.injEq] at e; subst e; rfl
  | x :: xs, as, e => by
    simp only [getAll] at e
    split at e
    · rename_i a h1
      split at e
      · rename_i as1 h2
        simp only [Option.some.injEq] at e
        subst e
        simp only [getAll, hf _ _ h1, getAll_hom f g k hf xs as1 h2, List.map_cons]
      · cases e
    · cases e

theorem nth_hom {α β : Type} (k : α → β) : ∀ (l : List α) (n : Nat) (a : α), nth l n = some a →
    nth (l.map k) n = some (k a)
  | [], _, _, e => by simp [nth] at e
  | b :: l, 0, a, e => by simp only [nth, Option.some.injEq] at e; subst e; rfl
  | b :: l, n + 1, a, e => by simpa [nth] using nth_hom k l n a (by simpa [nth] using e)

theorem transpose_hom (p : List Nat) (ds es : List δ) (e : transpose p ds = some es) :
    transpose p (ds.map h) = some (es.map h) := by
  simp only [transpose] at e ⊢
  rw [List.length_map]
  split at e
  · rename_i h1
    rw [if_pos h1]
    exact getAll_hom _ _ h (fun x a => nth_hom h ds x a) p es e
  · cases e

theorem applyOps_hom (H : Hom A eqA B eqB h) : ∀ (ops : List Op) (ds es : List δ), applyOps A ops ds = some es →
    applyOps B ops (ds.map h) = some (es.map h)
  | [], ds, es, e => by simp only [applyOps, Option.some.injEq] at e; subst e; rfl
  | .sl s :: ops, ds, es, e => by
    simp only [applyOps] at e
    split at e
    · rename_i fs h1
      simp only [applyOps, slices_hom H _ _ _ h1, applyOps_hom H ops fs es e]
    · cases e
  | .tr p :: ops, ds, es, e => by
    simp only [applyOps] at e
    split at e
    · rename_i fs h1
      simp only [applyOps, transpose_hom _ _ _ h1, applyOps_hom H ops fs es e]
    · cases e

theorem argShape_hom (H : Hom A eqA B eqB h) (ρ : List (Nat × Val δ)) (a : Arg) (s : List δ)
    (e : argShape A ρ a = some s) : argShape B (mapEnv (Val.map h) ρ) a = some (s.map h) := by
  simp only [argShape] at e
  split at e
  · rename_i t h1
    simp only [argShape, lookup_mapEnv, h1, Option.map_some, Val.map]
    exact applyOps_hom H _ _ _ e
  · cases e

theorem argVal_hom (H : Hom A eqA B eqB h) (ρ : List (Nat × Val δ)) (a : Arg) (w : Val δ)
    (e : argVal A ρ a = some w) : argVal B (mapEnv (Val.map h) ρ) a = some (w.map h) := by
  simp only [argVal] at e
  split at e
  · rename_i t h1
    split at e
    · rename_i u h2
      simp only [Option.some.injEq] at e
      subst e
      simp only [argVal, lookup_mapEnv, h1, Option.map_some, Val.map, applyOps_hom H _ _ _ h2]
    · cases e
  · rename_i w' hw h1
    split at e
    · rename_i h2
      simp only [Option.some.injEq] at e
      subst e
      cases w' with
      | arr t => exact absurd rfl (hw t)
      | int n => simp only [argVal, lookup_mapEnv, h1, Option.map_some, Val.map, h2]
      | none => simp only [argVal, lookup_mapEnv, h1, Option.map_some, Val.map, h2]
    · cases e
  · cases e

theorem assign_hom (H : Hom A eqA B eqB h) : ∀ (ls : List Nat) (ds : List δ) (m m' : List (Nat × δ)),
    assign A ls ds m = some m' → assign B ls (ds.map h) (mapEnv h m) = some (mapEnv h m')
  | [], [], m, m', e => by simp only [assign, Option.some.injEq] at e; subst e; rfl
  | [], _ :: _, _, _, e => by simp [assign] at e
  | _ :: _, [], _, _, e => by simp [assign] at e
  | l :: ls, d :: ds, m, m', e => by
    simp only [assign] at e
    split at e
    · rename_i h1
      simp only [List.map_cons, assign, lookup_mapEnv, h1, Option.map_none]
      exact assign_hom H ls ds _ m' e
    · rename_i e1 h1
      split at e
      · rename_i r h2
        simp only [List.map_cons, assign, lookup_mapEnv, h1, Option.map_some, H.join _ _ _ h2]
        exact assign_hom H ls ds _ m' e
      · cases e

theorem assigns_hom (H : Hom A eqA B eqB h) (ρ : List (Nat × Val δ)) : ∀ (lss : List (List Nat)) (as : List Arg)
    (m m' : List (Nat × δ)), assigns A ρ lss as m = some m' →
    assigns B (mapEnv (Val.map h) ρ) lss as (mapEnv h m) = some (mapEnv h m')
  | [], [], m, m', e => by simp only [assigns, Option.some.injEq] at e; subst e; rfl
  | [], _ :: _, _, _, e => by simp [assigns] at e
  | _ :: _, [], _, _, e => by simp [assigns] at e
  | ls :: lss, a :: as, m, m', e => by
    simp only [assigns] at e
    split at e
    · rename_i s h1
      split at e
      · rename_i m1 h2
        simp only [assigns, argShape_hom H _ _ _ h1, assign_hom H _ _ _ _ h2]
        exact assigns_hom H ρ lss as m1 m' e
      · cases e
    · cases e

theorem bcastRev_hom (H : Hom A eqA B eqB h) : ∀ (s t r : List δ), bcastRev A s t = some r →
    bcastRev B (s.map h) (t.map h) = some (r.map h)
  | [], t, r, e => by simp only [bcastRev, Option.some.injEq] at e; subst e; rfl
  | s :: ss, [], r, e => by simp only [bcastRev, Option.some.injEq] at e; subst e; rfl
  | s :: ss, t :: ts, r, e => by
    simp only [bcastRev] at e
    split at e
    · rename_i u h1
      split at e
      · rename_i us h2
        simp only [Option.some.injEq] at e
        subst e
        simp only [List.map_cons, bcastRev, H.join _ _ _ h1, bcastRev_hom H ss ts us h2]
      · cases e
    · cases e

theorem bcast_hom (H : Hom A eqA B eqB h) (s t r : List δ) (e : bcast A s t = some r) :
    bcast B (s.map h) (t.map h) = some (r.map h) := by
  simp only [bcast] at e
  split at e
  · rename_i u h1
    simp only [Option.some.injEq] at e
    subst e
    simp only [bcast, ← List.map_reverse, bcastRev_hom H _ _ _ h1]
  · cases e

theorem mapArgs_hom (H : Hom A eqA B eqB h) (ρ : List (Nat × Val δ)) : ∀ (as : List Arg) (ws : List (Val δ)),
    mapArgs A ρ as = some ws → mapArgs B (mapEnv (Val.map h) ρ) as = some (ws.map (Val.map h))
  | [], ws, e => by simp only [mapArgs, Option.some.injEq] at e; subst e; rfl
  | a :: as, ws, e => by
    simp only [mapArgs] at e
    split at e
    · rename_i w h1
      split at e
      · rename_i ws1 h2
        simp only [Option.some.injEq] at e
        subst e
        simp only [mapArgs, argVal_hom H _ _ _ h1, mapArgs_hom H ρ as ws1 h2, List.map_cons]
      · cases e
    · cases e

theorem intOf_hom (ρ : List (Nat × Val δ)) (x : Nat) (n : δ) (e : intOf ρ x = some n) :
    intOf (mapEnv (Val.map h) ρ) x = some (h n) := by
  simp only [intOf] at e
  split at e
  · rename_i n' h1
    simp only [Option.some.injEq] at e
    subst e
    simp only [intOf, lookup_mapEnv, h1, Option.map_some, Val.map]
  · cases e

variable {ΦA : Calls δ} {ΦB : Calls ε}

/-- The calls succeed alike. -/
def CallsHom (h : δ → ε) (ΦA : Calls δ) (ΦB : Calls ε) : Prop :=
  ∀ f ws w, ΦA f ws = some w → ΦB f (ws.map (Val.map h)) = some (w.map h)

theorem termVal_hom (H : Hom A eqA B eqB h) (hΦ : CallsHom h ΦA ΦB) (ρ : List (Nat × Val δ)) (t : Term) (w : Val δ)
    (e : termVal A ΦA ρ t = some w) : termVal B ΦB (mapEnv (Val.map h) ρ) t = some (w.map h) := by
  cases t with
  | ein ins out args =>
    simp only [termVal] at e
    split at e
    · rename_i m h1
      split at e
      · rename_i h2
        split at e
        · rename_i s h3
          simp only [Option.some.injEq] at e
          subst e
          have h4 := assigns_hom H ρ ins args [] m h1
          have h5 := getAll_hom (lookup m) (lookup (mapEnv h m)) h
            (fun x a hx => by rw [lookup_mapEnv, hx]; rfl) out s h3
          have h0 : mapEnv h [] = [] := rfl
          rw [h0] at h4
          simp only [termVal, h4, h2, if_true, h5]
          rfl
        · cases e
      · cases e
    · cases e
  | arg a => exact argVal_hom H ρ a w e
  | zeros ds =>
    simp only [termVal] at e
    split at e
    · rename_i s h1
      simp only [Option.some.injEq] at e
      subst e
      simp only [termVal, getAll_hom (intOf ρ) (intOf (mapEnv (Val.map h) ρ)) h (intOf_hom ρ) ds s h1, Val.map]
    · cases e
  | num => simp only [termVal, Option.some.injEq] at e; subst e; rfl
  | mul a b =>
    simp only [termVal] at e
    split at e
    · rename_i s h1
      split at e
      · rename_i t h2
        split at e
        · rename_i r h3
          simp only [Option.some.injEq] at e
          subst e
          simp only [termVal, argShape_hom H _ _ _ h1, argShape_hom H _ _ _ h2, bcast_hom H _ _ _ h3, Val.map]
        · cases e
      · cases e
    · cases e
  | call f args =>
    simp only [termVal] at e
    split at e
    · rename_i ws h1
      simp only [termVal, mapArgs_hom H ρ args ws h1]
      exact hΦ f ws w e
    · cases e
  | none => simp only [termVal, Option.some.injEq] at e; subst e; rfl

theorem addTerms_hom (H : Hom A eqA B eqB h) (hΦ : CallsHom h ΦA ΦB) (ρ : List (Nat × Val δ)) :
    ∀ (ts : List Term) (s r : List δ), addTerms A ΦA ρ s ts = some r →
    addTerms B ΦB (mapEnv (Val.map h) ρ) (s.map h) ts = some (r.map h)
  | [], s, r, e => by simp only [addTerms, Option.some.injEq] at e; subst e; rfl
  | t :: ts, s, r, e => by
    simp only [addTerms] at e
    split at e
    · rename_i u h1
      split at e
      · rename_i q h2
        simp only [addTerms, termVal_hom H hΦ ρ t _ h1, Val.map, bcast_hom H _ _ _ h2]
        exact addTerms_hom H hΦ ρ ts q r e
      · cases e
    · cases e

theorem rhs_hom (H : Hom A eqA B eqB h) (hΦ : CallsHom h ΦA ΦB) (ρ : List (Nat × Val δ)) : ∀ (ts : List Term)
    (w : Val δ), rhs A ΦA ρ ts = some w → rhs B ΦB (mapEnv (Val.map h) ρ) ts = some (w.map h)
  | [], _, e => by simp [rhs] at e
  | [t], w, e => termVal_hom H hΦ ρ t w e
  | t :: t' :: ts, w, e => by
    simp only [rhs] at e
    split at e
    · rename_i s h1
      split at e
      · rename_i r h2
        simp only [Option.some.injEq] at e
        subst e
        simp only [rhs, termVal_hom H hΦ ρ t _ h1, Val.map, addTerms_hom H hΦ ρ _ _ _ h2]
      · cases e
    · cases e

theorem fitsRev_hom (H : Hom A eqA B eqB h) : ∀ (s t : List δ), fitsRev A eqA s t = true →
    fitsRev B eqB (s.map h) (t.map h) = true
  | [], [], _ => rfl
  | _ :: _, [], _ => rfl
  | [], _ :: _, e => by simp [fitsRev] at e
  | s :: ss, t :: ts, e => by
    simp only [fitsRev, Bool.and_eq_true] at e
    simp only [List.map_cons, fitsRev, Bool.and_eq_true]
    refine ⟨?_, fitsRev_hom H ss ts e.2⟩
    have h1 := e.1
    split at h1
    · rename_i r h2
      rw [H.join _ _ _ h2]
      exact H.eqv _ _ h1
    · cases h1

theorem exec_hom (H : Hom A eqA B eqB h) (hΦ : CallsHom h ΦA ΦB) (ρ ρ' : List (Nat × Val δ)) (st : Stmt)
    (e : exec A ΦA eqA ρ st = some ρ') :
    exec B ΦB eqB (mapEnv (Val.map h) ρ) st = some (mapEnv (Val.map h) ρ') := by
  cases st with
  | set x ts =>
    simp only [exec] at e
    split at e
    · rename_i w h1
      simp only [Option.some.injEq] at e
      subst e
      simp only [exec, rhs_hom H hΦ ρ ts w h1]
      rfl
    · cases e
  | aug x ts =>
    simp only [exec] at e
    split at e
    · rename_i s h1
      split at e
      · rename_i t h2
        have h3 := rhs_hom H hΦ ρ ts _ h2
        cases s with
        | nil =>
          cases t with
          | nil =>
            simp only [Option.some.injEq] at e
            subst e
            simp only [exec, lookup_mapEnv, h1, Option.map_some, Val.map, h3, List.map_nil]
          | cons t ts =>
            simp only [Option.some.injEq] at e
            subst e
            simp only [exec, lookup_mapEnv, h1, Option.map_some, Val.map, h3, List.map_nil, List.map_cons]
            rfl
        | cons d ds =>
          simp only at e
          split at e
          · rename_i h4
            simp only [Option.some.injEq] at e
            subst e
            have h5 := fitsRev_hom H _ _ h4
            rw [List.map_reverse, List.map_reverse] at h5
            simp only [List.map_cons] at h5
            simp only [exec, lookup_mapEnv, h1, Option.map_some, Val.map, h3, List.map_cons, h5, if_true]
          · cases e
      · cases e
    · cases e
  | dim x y k =>
    simp only [exec] at e
    split at e
    · rename_i s h1
      split at e
      · rename_i d h2
        simp only [Option.some.injEq] at e
        subst e
        simp only [exec, lookup_mapEnv, h1, Option.map_some, Val.map, nth_hom h s k d h2]
        rfl
      · cases e
    · cases e

theorem execs_hom (H : Hom A eqA B eqB h) (hΦ : CallsHom h ΦA ΦB) : ∀ (ss : List Stmt) (ρ ρ' : List (Nat × Val δ)),
    execs A ΦA eqA ρ ss = some ρ' →
    execs B ΦB eqB (mapEnv (Val.map h) ρ) ss = some (mapEnv (Val.map h) ρ')
  | [], ρ, ρ', e => by simp only [execs, Option.some.injEq] at e; subst e; rfl
  | s :: ss, ρ, ρ', e => by
    simp only [execs] at e
    split at e
    · rename_i ρ1 h1
      simp only [execs, exec_hom H hΦ ρ ρ1 s h1]
      exact execs_hom H hΦ ss ρ1 ρ' e
    · cases e

theorem bindParams_hom (k : Val δ → Val ε) : ∀ (xs : List Nat) (ws : List (Val δ)) (ρ : List (Nat × Val δ)),
    bindParams xs ws = some ρ → bindParams xs (ws.map k) = some (mapEnv k ρ)
  | [], [], ρ, e => by simp only [bindParams, Option.some.injEq] at e; subst e; rfl
  | [], _ :: _, _, e => by simp [bindParams] at e
  | _ :: _, [], _, e => by simp [bindParams] at e
  | x :: xs, w :: ws, ρ, e => by
    simp only [bindParams] at e
    split at e
    · rename_i ρ1 h1
      simp only [Option.some.injEq] at e
      subst e
      simp only [List.map_cons, bindParams, bindParams_hom k xs ws ρ1 h1]
      rfl
    · cases e

theorem run_hom (H : Hom A eqA B eqB h) (hΦ : CallsHom h ΦA ΦB) (f : Fn) (ws rs : List (Val δ))
    (e : run A ΦA eqA f ws = some rs) : run B ΦB eqB f (ws.map (Val.map h)) = some (rs.map (Val.map h)) := by
  simp only [run] at e
  split at e
  · rename_i ρ h1
    split at e
    · rename_i ρ' h2
      simp only [run, bindParams_hom (Val.map h) _ _ _ h1, execs_hom H hΦ _ _ _ h2]
      exact mapArgs_hom H ρ' f.ret rs e
    · cases e
  · cases e

/-- The letters describe the numbers. -/
theorem sym_num (z : Sizes) : Hom Alg.sym Dim.eqb (Alg.num z) Nat.beq (Dim.size z) where
  slice s d e h := by
    cases s <;> cases d <;> simp [Alg.sym] at h <;> subst h <;> simp [Alg.num, Dim.size]
  join d e r h := by
    cases d <;> cases e <;> simp [Alg.sym] at h <;> subst h <;> simp [Alg.num]
  eqv d e h := by
    cases d <;> cases e <;> simp [Dim.eqb] at h <;> simp [Dim.size]

/-- Declared shapes of callable functions: number of the function, parameter shapes, shape of the result. -/
abbrev Sigs := List (Nat × List (Val Dim) × Val Dim)

def Val.eqb : Val Dim → Val Dim → Bool
  | .arr s, .arr t => eqL s t
  | .int d, .int e => d.eqb e
  | .none, .none => true
  | _, _ => false
where eqL : List Dim → List Dim → Bool
  | [], [] => true
  | d :: ds, e :: es => d.eqb e && eqL ds es
  | _, _ => false

theorem Dim.eqb_iff (d e : Dim) : d.eqb e = true ↔ d = e := by cases d <;> cases e <;> simp [Dim.eqb]

theorem Val.eqL_iff : ∀ s t : List Dim, Val.eqb.eqL s t = true ↔ s = t
  | [], [] => by simp [Val.eqb.eqL]
  | [], _ :: _ => by simp [Val.eqb.eqL]
  | _ :: _, [] => by simp [Val.eqb.eqL]
  | d :: ds, e :: es => by simp [Val.eqb.eqL, Dim.eqb_iff, Val.eqL_iff ds es]

theorem Val.eqb_iff (u w : Val Dim) : u.eqb w = true ↔ u = w := by
  cases u <;> cases w <;> simp [Val.eqb, Val.eqL_iff, Dim.eqb_iff]

def eqVals : List (Val Dim) → List (Val Dim) → Bool
  | [], [] => true
  | u :: us, w :: ws => u.eqb w && eqVals us ws
  | _, _ => false

theorem eqVals_iff : ∀ us ws : List (Val Dim), eqVals us ws = true ↔ us = ws
  | [], [] => by simp [eqVals]
  | [], _ :: _ => by simp [eqVals]
  | _ :: _, [] => by simp [eqVals]
  | u :: us, w :: ws => by simp [eqVals, Val.eqb_iff, eqVals_iff us ws]

/-- Calls of declared functions on arguments of the declared shapes; a function may be declared several times. -/
def Sigs.calls : Sigs → Calls Dim
  | [], _, _ => .none
  | (g, ps, r) :: S, f, ws => if Nat.beq g f && eqVals ps ws then some r else Sigs.calls S f ws

/-- Type check of a function against declared shapes of its parameters and results. -/
def Fn.check (S : Sigs) (f : Fn) (ps rs : List (Val Dim)) : Bool :=
  match run Alg.sym S.calls Dim.eqb f ps with
  | some ws => eqVals ws rs
  | .none => false

/-- The functions called do what their declared shapes say, for the given sizes. -/
def Sigs.Sound (S : Sigs) (z : Sizes) (Φ : Calls Nat) : Prop :=
  ∀ f ps r, (f, ps, r) ∈ S → Φ f (ps.map (Val.map (Dim.size z))) = some (r.map (Dim.size z))

theorem Sigs.calls_sound {z : Sizes} {Φ : Calls Nat} : ∀ {S : Sigs}, S.Sound z Φ → ∀ f ws w, S.calls f ws = some w →
    Φ f (ws.map (Val.map (Dim.size z))) = some (w.map (Dim.size z))
  | [], _, f, ws, w, e => by simp [Sigs.calls] at e
  | (g, ps, r) :: S, hS, f, ws, w, e => by
    simp only [Sigs.calls] at e
    split at e
    · rename_i h1
      simp only [Bool.and_eq_true, eqVals_iff] at h1
      obtain ⟨h2, h3⟩ := h1
      simp only [Option.some.injEq] at e
      subst e h3
      rw [← Nat.eq_of_beq_eq_true h2]
      exact hS g ps r (by simp)
    · exact Sigs.calls_sound (fun f' ps' r' hm => hS f' ps' r' (by simp [hm])) f ws w e

/-- A function that passes the type check runs without error on arrays of the declared shapes, whatever the numbers of
occupied and virtual orbitals, and returns arrays of the declared shapes. -/
theorem Fn.check_sound {S : Sigs} {z : Sizes} {Φ : Calls Nat} (hΦ : S.Sound z Φ) {f : Fn} {ps rs : List (Val Dim)}
    (h : f.check S ps rs = true) :
    f.exec z Φ (ps.map (Val.map (Dim.size z))) = some (rs.map (Val.map (Dim.size z))) := by
  unfold Fn.check at h
  split at h
  · rename_i ws h1
    rw [← (eqVals_iff _ _).1 h]
    refine run_hom (sym_num z) ?_ f ps ws h1
    intro g us w hg
    exact Sigs.calls_sound hΦ g us w hg
  · cases h

/-! ## Functions that call each other -/

/-- A function that others call, with the shapes it is used at. -/
structure Item where
  id : Nat
  fn : Fn
  uses : List (List (Val Dim) × Val Dim)

/-- Calls between functions; a function calls only functions further down the list. -/
def callTable (z : Sizes) : List Item → Calls Nat
  | [], _, _ => .none
  | it :: l, f, ws => if Nat.beq it.id f then
      match it.fn.exec z (callTable z l) ws with
      | some [w] => some w
      | _ => .none
    else callTable z l f ws

def Item.sigs (it : Item) : Sigs := it.uses.map fun p => (it.id, p.1, p.2)

def _root_.List.sigs : List Item → Sigs
  | [] => []
  | it :: l => it.sigs ++ List.sigs l

/-- All declared uses are well typed. -/
def libOk : List Item → Bool
  | [] => true
  | it :: l => libOk l && !(l.any fun j => Nat.beq j.id it.id) && it.uses.all fun p => it.fn.check l.sigs p.1 [p.2]

theorem mem_sigs {f : Nat} {ps : List (Val Dim)} {r : Val Dim} : ∀ {l : List Item}, (f, ps, r) ∈ l.sigs →
    ∃ j ∈ l, j.id = f
  | [], h => by simp [List.sigs] at h
  | it :: l, h => by
    simp only [List.sigs, List.mem_append] at h
    rcases h with h | h
    · simp only [Item.sigs, List.mem_map] at h
      obtain ⟨p, _, hp⟩ := h
      exact ⟨it, by simp, by simpa using congrArg Prod.fst hp⟩
    · obtain ⟨j, hj, hf⟩ := mem_sigs h
      exact ⟨j, by simp [hj], hf⟩

theorem lib_sound (z : Sizes) : ∀ l : List Item, libOk l = true → l.sigs.Sound z (callTable z l)
  | [], _ => by intro f ps r h; simp [List.sigs] at h
  | it :: l, h => by
    simp only [libOk, Bool.and_eq_true, Bool.not_eq_true', List.all_eq_true] at h
    obtain ⟨⟨h1, h2⟩, h3⟩ := h
    intro f ps r hm
    simp only [List.sigs, List.mem_append] at hm
    rcases hm with hm | hm
    · simp only [Item.sigs, List.mem_map] at hm
      obtain ⟨p, hp, he⟩ := hm
      simp only [Prod.mk.injEq] at he
      obtain ⟨rfl, rfl, rfl⟩ := he
      have := Fn.check_sound (lib_sound z l h1) (h3 p hp)
      simp only [callTable, Nat.beq_refl, if_true, this, List.map_cons, List.map_nil]
    · obtain ⟨j, hj, hf⟩ := mem_sigs hm
      have hne : Nat.beq it.id f = false := by
        rw [Bool.eq_false_iff]
        intro hb
        rw [List.any_eq_false] at h2
        refine h2 j hj ?_
        rw [hf, Nat.eq_of_beq_eq_true hb]
        exact Nat.beq_refl f
      simp only [callTable, hne]
      exact lib_sound z l h1 f ps r hm

/-- A function together with the shapes of its parameters and of what it returns. -/
structure Entry where
  name : String
  fn : Fn
  ins : List (Val Dim)
  outs : List (Val Dim)

def Entry.ok (S : Sigs) (e : Entry) : Bool := e.fn.check S e.ins e.outs

end Verif.Shape
