import Verif.Wick.Bch

/-!
# Projected equations as einsum programs

`⟨Φ| B e^{-T} H e^{T} |Φ⟩` for a cluster operator `T`, as an einsum program.
-/

namespace Verif.Wick

open Verif.Ein

variable {I K A : Type} [DecidableEq I] [Field K] [Ring A] [Algebra K A] {D : Nat → Finset I} (F : Fermi I K A D)

/-- The cluster operator of rank `k`, apart from the factor, with the letters of the place `m`. -/
def tT (k m : Nat) : OpTerm :=
  match k with
  | 1 => t1T 1 (65 + 16 * m) (64 + 16 * m)
  | 2 => t2T 1 (65 + 16 * m) (67 + 16 * m) (64 + 16 * m) (66 + 16 * m)
  | 3 => t3T 1 (65 + 16 * m) (67 + 16 * m) (69 + 16 * m) (64 + 16 * m) (66 + 16 * m) (68 + 16 * m)
  | _ => t4T 1 (65 + 16 * m) (67 + 16 * m) (69 + 16 * m) (71 + 16 * m) (64 + 16 * m) (66 + 16 * m) (68 + 16 * m)
      (70 + 16 * m)

/-- The factor. -/
def tS (k : Nat) : Nat :=
  match k with
  | 1 => 1
  | 2 => 4
  | 3 => 36
  | _ => 576

/-- The cluster operator of rank `k`. -/
def Fermi.cl (S : SO I K) (k : Nat) : A :=
  match k with
  | 1 => F.T1 S.t1
  | 2 => F.T2 S.t2
  | 3 => F.T3 S.t3
  | _ => F.T4 S.t4

/-- The terms of a word. -/
def pieces : List Nat → Nat → List OpTerm
  | [], _ => []
  | k :: u, m => tT k m :: pieces u (m + 1)

/-- A list of terms, evaluated. -/
noncomputable def evalTerms (ts : List OpTerm) : (List OpTerm → Prog) → Prog :=
  List.rec (motive := fun _ => (List OpTerm → Prog) → Prog) (fun k => k []) (fun t _ ih k =>
    OpTerm.rec (motive := fun _ => Prog) (fun c fs ops => evalFacs fs fun fs => evalOps ops fun ops =>
      ih fun r => k (⟨c, fs, ops⟩ :: r)) t) ts

theorem evalTerms_eq (ts : List OpTerm) : ∀ k, evalTerms ts k = k ts := by
  induction ts with
  | nil => intro k; rfl
  | cons t ts ih =>
    intro k
    have e : evalTerms (t :: ts) k = evalFacs t.fs fun fs => evalOps t.ops fun ops => evalTerms ts fun r =>
      k (⟨t.k, fs, ops⟩ :: r) := rfl
    rw [e, evalFacs_eq, evalOps_eq, ih]

/-- The program of `⟨B [[[P, t₁], t₂], …]⟩`. -/
noncomputable def commB (q : ℚ) (w : List Var) (b : OpTerm) (ts : List OpTerm) (P : OpProg) (tail : Prog) : Prog :=
  List.rec (motive := fun _ => Prog) tail (fun h _ ih => OpTerm.rec (motive := fun _ => Prog) (fun k fs ops =>
    evalFacs fs fun fs => evalOps ops fun ops => cif (balanced (b.ops ++ ops ++ allOps ts))
      (Int.rec (motive := fun _ => Prog) (fun n => force n fun n => nestB q w b.fs b.ops ts ops fs n false ih)
        (fun n => force (Nat.succ n) fun n => nestB q w b.fs b.ops ts ops fs n true ih) k) ih) h) P

/-- The program of `⟨B e^{-T} H e^{T}⟩`; `cs` lists the words and their coefficients. -/
noncomputable def projP (b : OpTerm) (w : List Var) (cs : List (List Nat × ℚ)) : Prog :=
  List.rec (motive := fun _ => Prog) [] (fun c _ ih => evalTerms (pieces c.1 0) fun ts => commB c.2 w b ts hamP ih) cs

/-- The product of the factors of a word. -/
def scale (u : List Nat) : Nat := (u.map tS).prod

/-- The words and coefficients, for `T` with the given ranks and powers below `L`. -/
def wordsC (ks : List Nat) (L : Nat) : List (List Nat × ℚ) :=
  ((List.range L).flatMap (words ks)).map fun u => (u.1, 1 / (4 * u.2 * scale u.1 : ℕ))

/-! ### the terms of the cluster operators -/

omit [DecidableEq I] in
theorem sw_links (T : Nat → List I → K) (hk : ∀ t, (N.kinds t).Holds (T t)) (t : Nat) (ix : List Var) (a b : Var)
    (hab : a ≠ b) (h : (linked a b (N.kinds t).links ix || linked b a (N.kinds t).links ix) = true) :
    Sw T [⟨t, ix⟩] a b := by
  refine swOk_sound N.kinds T hk a b hab _ ?_
  rw [swOk]
  split_ifs with hf
  · rw [h]; rfl
  · exfalso
    apply hf
    rw [Bool.or_eq_true] at h
    rcases h with h | h
    · obtain ⟨p, m, r, e, -⟩ := linked_sound a b ix _ h hab
      simp [e]
    · obtain ⟨p, m, r, e, -⟩ := linked_sound b a ix _ h (Ne.symm hab)
      simp [e]

theorem eqv_b (b c : Bool) (x y : Var) (h : eqv (b, x) (c, y) = true) : b = c := ((eqv_iff _ _).1 h).2.2.2.2

omit [DecidableEq I] in
theorem tT_piece [CharZero K] (S : SO I K) (hS : S.Sym) (k m : Nat) : Piece S.T m (tT k m) := by
  have l2 : (N.kinds 39).links = [true, false, true, false] := by decide
  have l3 : (N.kinds 47).links = [true, true, false, true, true, false] := by decide
  have l4 : (N.kinds 55).links = [true, true, true, false, true, true, true, false] := by decide
  have hne : ∀ c d : Nat, c ≠ d → (c + 16 * m : Nat) ≠ d + 16 * m := fun c d h => by omega
  have hge : ∀ c : Nat, 64 ≤ c → 64 + 16 * m ≤ c + 16 * m := fun c h => by omega
  have hlt : ∀ c : Nat, c < 80 → c + 16 * m < 64 + 16 * (m + 1) := fun c h => by omega
  unfold tT
  split
  · refine ⟨rfl, ⟨1, rfl⟩, ?_, ?_, ?_, ?_, ?_, ?_⟩
    · simp [t1T]
    · simp [t1T, mem_vars]
    · simp only [t1T, mem_vars, List.mem_singleton, exists_eq_left, List.forall_mem_cons]
      exact ⟨hge _ (by decide),
        by rintro _ rfl; exact hge _ (by decide)⟩
    · simp only [t1T, mem_vars, List.mem_singleton, exists_eq_left, List.forall_mem_cons]
      exact ⟨hlt _ (by decide),
        by rintro _ rfl; exact hlt _ (by decide)⟩
    · simp [t1T, isQ_eq, sp]; omega
    · simp only [t1T, List.forall_mem_cons]
      refine ⟨⟨?_, ?_, by simp⟩, ⟨?_, ?_, by simp⟩, by simp⟩ <;>
        first
        | (intro h; exact absurd rfl h)
        | (intro _ h; exact absurd (eqv_b _ _ _ _ h) (by decide))
  · refine ⟨rfl, ⟨2, rfl⟩, ?_, ?_, ?_, ?_, ?_, ?_⟩
    · simp [t2T]
    · simp [t2T, mem_vars]
    · simp only [t2T, mem_vars, List.mem_singleton, exists_eq_left, List.forall_mem_cons]
      exact ⟨hge _ (by decide), hge _ (by decide), hge _ (by decide),
        by rintro _ rfl; exact hge _ (by decide)⟩
    · simp only [t2T, mem_vars, List.mem_singleton, exists_eq_left, List.forall_mem_cons]
      exact ⟨hlt _ (by decide), hlt _ (by decide), hlt _ (by decide),
        by rintro _ rfl; exact hlt _ (by decide)⟩
    · simp [t2T, isQ_eq, sp]; omega
    · simp only [t2T, List.forall_mem_cons]
      refine ⟨⟨?_, ?_, ?_, ?_, by simp⟩, ⟨?_, ?_, ?_, ?_, by simp⟩, ⟨?_, ?_, ?_, ?_, by simp⟩, ⟨?_, ?_, ?_, ?_, by simp⟩,
        by simp⟩ <;>
        first
        | (intro h; exact absurd rfl h)
        | (intro _ h; exact absurd (eqv_b _ _ _ _ h) (by decide))
        | (intro _ _; exact sw_links S.T hS.holds _ _ _ _ (hne _ _ (by decide)) (by rw [l2]; simp [linked, linkTo]))
  · refine ⟨rfl, ⟨3, rfl⟩, ?_, ?_, ?_, ?_, ?_, ?_⟩
    · simp [t3T]
    · simp [t3T, mem_vars]
    · simp only [t3T, mem_vars, List.mem_singleton, exists_eq_left, List.forall_mem_cons]
      exact ⟨hge _ (by decide), hge _ (by decide), hge _ (by decide), hge _ (by decide), hge _ (by decide),
        by rintro _ rfl; exact hge _ (by decide)⟩
    · simp only [t3T, mem_vars, List.mem_singleton, exists_eq_left, List.forall_mem_cons]
      exact ⟨hlt _ (by decide), hlt _ (by decide), hlt _ (by decide), hlt _ (by decide), hlt _ (by decide),
        by rintro _ rfl; exact hlt _ (by decide)⟩
    · simp [t3T, isQ_eq, sp]; omega
    · simp only [t3T, List.forall_mem_cons]
      refine ⟨⟨?_, ?_, ?_, ?_, ?_, ?_, by simp⟩, ⟨?_, ?_, ?_, ?_, ?_, ?_, by simp⟩, ⟨?_, ?_, ?_, ?_, ?_, ?_, by simp⟩,
        ⟨?_, ?_, ?_, ?_, ?_, ?_, by simp⟩, ⟨?_, ?_, ?_, ?_, ?_, ?_, by simp⟩, ⟨?_, ?_, ?_, ?_, ?_, ?_, by simp⟩,
        by simp⟩ <;>
        first
        | (intro h; exact absurd rfl h)
        | (intro _ h; exact absurd (eqv_b _ _ _ _ h) (by decide))
        | (intro _ _; exact sw_links S.T hS.holds _ _ _ _ (hne _ _ (by decide)) (by rw [l3]; simp [linked, linkTo]))
  · refine ⟨rfl, ⟨4, rfl⟩, ?_, ?_, ?_, ?_, ?_, ?_⟩
    · simp [t4T]
    · simp [t4T, mem_vars]
    · simp only [t4T, mem_vars, List.mem_singleton, exists_eq_left, List.forall_mem_cons]
      exact ⟨hge _ (by decide), hge _ (by decide), hge _ (by decide), hge _ (by decide), hge _ (by decide), hge _ (by decide), hge _ (by decide),
        by rintro _ rfl; exact hge _ (by decide)⟩
    · simp only [t4T, mem_vars, List.mem_singleton, exists_eq_left, List.forall_mem_cons]
      exact ⟨hlt _ (by decide), hlt _ (by decide), hlt _ (by decide), hlt _ (by decide), hlt _ (by decide), hlt _ (by decide), hlt _ (by decide),
        by rintro _ rfl; exact hlt _ (by decide)⟩
    · simp [t4T, isQ_eq, sp]; omega
    · simp only [t4T, List.forall_mem_cons]
      refine ⟨⟨?_, ?_, ?_, ?_, ?_, ?_, ?_, ?_, by simp⟩, ⟨?_, ?_, ?_, ?_, ?_, ?_, ?_, ?_, by simp⟩,
        ⟨?_, ?_, ?_, ?_, ?_, ?_, ?_, ?_, by simp⟩, ⟨?_, ?_, ?_, ?_, ?_, ?_, ?_, ?_, by simp⟩,
        ⟨?_, ?_, ?_, ?_, ?_, ?_, ?_, ?_, by simp⟩, ⟨?_, ?_, ?_, ?_, ?_, ?_, ?_, ?_, by simp⟩,
        ⟨?_, ?_, ?_, ?_, ?_, ?_, ?_, ?_, by simp⟩, ⟨?_, ?_, ?_, ?_, ?_, ?_, ?_, ?_, by simp⟩, by simp⟩ <;>
        first
        | (intro h; exact absurd rfl h)
        | (intro _ h; exact absurd (eqv_b _ _ _ _ h) (by decide))
        | (intro _ _; exact sw_links S.T hS.holds _ _ _ _ (hne _ _ (by decide)) (by rw [l4]; simp [linked, linkTo]))

omit [DecidableEq I] in
theorem pieces_ok [CharZero K] (S : SO I K) (hS : S.Sym) (u : List Nat) : ∀ m, Pieces S.T m (pieces u m) := by
  induction u with
  | nil => intro m; trivial
  | cons k u ih => intro m; exact ⟨tT_piece S hS k m, ih (m + 1)⟩

omit [DecidableEq I] in
theorem ham_run (S : SO I K) : ∀ h ∈ hamP, Run S.T 0 h.fs h.ops := by
  have hlow : ∀ h ∈ hamP, ∀ v ∈ vars h.fs, (42 : Nat) ≤ v ∧ (v : Nat) < 64 := by decide
  have hkn : ∀ h ∈ hamP, ∀ x ∈ h.ops, x.2 ∈ vars h.fs := by decide
  have hnd : ∀ h ∈ hamP, (h.ops.map Prod.snd).Nodup := by decide
  intro h hh
  refine ⟨hnd h hh, hkn h hh, fun v hv => (hlow h hh v hv).1, fun v hv => (hlow h hh v hv).2, ?_⟩
  intro z hz z' hz' _ he
  exact absurd ((eqv_iff _ _).1 he).1 (Nat.not_le.2 (hlow h hh _ (hkn h hh z hz)).2)

variable [Inhabited I]

theorem tT_val [CharZero K] (S : SO I K) (w : List Var) (xs : List I) (hw : ∀ v ∈ w, v < 42) (k m : Nat) :
    (tT k m).val F S.T w xs = (tS k : K) • F.cl S k := by
  have h8 : ∀ v : Nat, 42 ≤ v → v ∉ w := fun v hv hm => Nat.not_lt.2 hv (hw v hm)
  have hne : ∀ c d : Nat, c ≠ d → (c + 16 * m : Nat) ≠ d + 16 * m := fun c d h => by omega
  have hsp : ∀ c : Nat, sp (c + 16 * m) = sp c := fun c => by unfold sp; omega
  have hm : ∀ c : Nat, 42 ≤ c → c + 16 * m ∉ w := fun c h => h8 _ (by omega)
  unfold tT tS Fermi.cl
  split
  · rw [val_t1 F S w xs 1 (65 + 16 * m) (64 + 16 * m) (hsp _) (hsp _) (by
        simp only [List.forall_mem_cons]
        exact ⟨hm _ (by omega), hm _ (by omega), by simp⟩)]
    push_cast; rfl
  · rw [val_t2 F S w xs 1 _ _ _ _ (hsp _) (hsp _) (hsp _) (hsp _) (hne _ _ (by decide)) (hne _ _ (by decide)) (by
        simp only [List.forall_mem_cons]
        exact ⟨hm _ (by omega), hm _ (by omega), hm _ (by omega), hm _ (by omega), by simp⟩)]
    push_cast; rw [mul_one]
  · rw [val_t3 F S w xs 1 _ _ _ _ _ _ (hsp _) (hsp _) (hsp _) (hsp _) (hsp _) (hsp _) (hne _ _ (by decide))
      (hne _ _ (by decide)) (hne _ _ (by decide)) (hne _ _ (by decide)) (hne _ _ (by decide)) (hne _ _ (by decide)) (by
        simp only [List.forall_mem_cons]
        exact ⟨hm _ (by omega), hm _ (by omega), hm _ (by omega), hm _ (by omega), hm _ (by omega), hm _ (by omega),
          by simp⟩)]
    push_cast; rw [mul_one]
  · rw [val_t4 F S w xs 1 _ _ _ _ _ _ _ _ (hsp _) (hsp _) (hsp _) (hsp _) (hsp _) (hsp _) (hsp _) (hsp _) (by simp) (by
        simp only [List.forall_mem_cons]
        exact ⟨hm _ (by omega), hm _ (by omega), hm _ (by omega), hm _ (by omega), hm _ (by omega), hm _ (by omega),
          hm _ (by omega), hm _ (by omega), by simp⟩)]
    push_cast; rw [mul_one]

theorem tS_ne (k : Nat) : tS k ≠ 0 := by unfold tS; split <;> decide

/-- Cluster operators commute. -/
theorem cl_commute [CharZero K] (hD : Disjoint (D 0) (D 1)) (S : SO I K) (hS : S.Sym) (a b : Nat) :
    Commute (F.cl S a) (F.cl S b) := by
  have ha := tT_piece S hS a 0
  have hb := tT_piece S hS b 1
  have hap : (tT a 0).apart [] (tT b 1) = true := by
    simp only [OpTerm.apart, Bool.and_eq_true, List.all_eq_true, Bool.not_eq_true', List.elem_eq_mem,
      decide_eq_false_iff_not]
    constructor
    · intro v hv
      have h1 := ha.high v ((mem_dums _ _ _).1 hv).1
      refine ⟨fun h => Nat.not_lt.2 (hb.low v h) h1, fun h => ?_⟩
      obtain ⟨x, hx, rfl⟩ := List.mem_map.1 h
      exact Nat.not_lt.2 (hb.low _ (hb.known x hx)) h1
    · intro v hv
      have h1 := hb.low v ((mem_dums _ _ _).1 hv).1
      refine ⟨fun h => Nat.not_lt.2 h1 (ha.high v h), fun h => ?_⟩
      obtain ⟨x, hx, rfl⟩ := List.mem_map.1 h
      exact Nat.not_lt.2 h1 (ha.high _ (ha.known x hx))
  have hc := OpTerm.val_comm F hD S.T [] [] (by simp) (by simp) (tT a 0) (tT b 1) hap
    ⟨ha.nodup, fun x hx => Or.inr (ha.known x hx)⟩ ⟨hb.even, hb.nodup, hb.known, by simp, hb.creator, hb.sw⟩
  have h0 : (tT a 0).comm (tT b 1) = [] := by
    unfold OpTerm.comm
    rw [List.flatMap_eq_nil_iff]
    intro p hp
    have : p.2.1 ∈ (tT a 0).ops := by rw [mem_splits _ _ hp]; simp
    rw [ha.creator _ this]
    rfl
  rw [h0, tT_val F S [] [] (by simp), tT_val F S [] [] (by simp)] at hc
  simp only [OpProg.val, List.map_nil, List.sum_nil, smul_mul_smul_comm] at hc
  rw [mul_comm (tS b : K), ← smul_sub] at hc
  have hs : (tS a : K) * (tS b : K) ≠ 0 := by
    have := tS_ne a
    have := tS_ne b
    positivity
  have := (smul_eq_zero.1 hc.symm).resolve_left hs
  exact sub_eq_zero.1 this

theorem pieces_val [CharZero K] (S : SO I K) (w : List Var) (xs : List I) (hw : ∀ v ∈ w, v < 42) (u : List Nat) : ∀ m,
    (pieces u m).map (fun t => t.val F S.T w xs) = u.map fun k => (tS k : K) • F.cl S k := by
  induction u with
  | nil => intro m; rfl
  | cons k u ih => intro m; rw [pieces, List.map_cons, List.map_cons, tT_val F S w xs hw, ih]

omit [Inhabited I] [DecidableEq I] in
theorem adW_scale (c : Nat → Nat) (X : Nat → A) (u : List Nat) (Y : A) :
    adW (u.map fun k => (c k : K) • X k) Y = (((u.map c).prod : ℕ) : K) • adW (u.map X) Y := by
  induction u generalizing Y with
  | nil => simp [adW]
  | cons k u ih =>
    simp only [List.map_cons, adW, List.prod_cons]
    rw [ih, show Y * (c k : K) • X k - (c k : K) • X k * Y = (c k : K) • (Y * X k - X k * Y) by
      rw [smul_sub, mul_smul_comm, smul_mul_assoc], adW_smul, smul_smul]
    congr 1
    push_cast; ring

theorem commB_eval [CharZero K] (hD : Disjoint (D 0) (D 1)) (T : Nat → List I → K) (w : List Var) (xs : List I)
    (hxs : ∀ v ∈ w, bind (fun _ => default) w xs v ∈ D (sp v)) (hw : ∀ v ∈ w, v < 42) (q : ℚ) (b : OpTerm)
    (hb : Bra w b) (ts : List OpTerm) (hts : Pieces T 0 ts) (P : OpProg) (hP : ∀ h ∈ P, Run T 0 h.fs h.ops) (tail : Prog) :
    (commB q w b ts P tail).eval D T xs = (q : K) *
      F.ω (b.val F T w xs * adW (ts.map fun t => t.val F T w xs) (P.val F T w xs)) + tail.eval D T xs := by
  induction P with
  | nil =>
    have h0 : adW (ts.map fun t => t.val F T w xs) (0 : A) = 0 := by
      simpa using adW_smul (K := K) (ts.map fun t => t.val F T w xs) 0 (0 : A)
    simp [OpProg.val, commB, h0]
  | cons h P ih =>
    have e : commB q w b ts (h :: P) tail = evalFacs h.fs fun fs => evalOps h.ops fun ops =>
      cif (balanced (b.ops ++ ops ++ allOps ts))
      (Int.rec (motive := fun _ => Prog)
        (fun n => force n fun n => nestB q w b.fs b.ops ts ops fs n false (commB q w b ts P tail))
        (fun n => force (Nat.succ n) fun n => nestB q w b.fs b.ops ts ops fs n true (commB q w b ts P tail)) h.k)
      (commB q w b ts P tail) := rfl
    have hr := hP h List.mem_cons_self
    have key : ∀ s n, sgn s n = h.k → (nestB q w b.fs b.ops ts h.ops h.fs n s (commB q w b ts P tail)).eval D T xs =
        (q : K) * F.ω (b.val F T w xs * adW (ts.map fun t => t.val F T w xs) (h.val F T w xs)) +
        (commB q w b ts P tail).eval D T xs := by
      intro s n hk
      rw [nestB_eval F hD T w xs hxs hw q b hb ts 0 h.ops h.fs n s _ hr hts, hk]
      have hv : h.val F T w xs = (h.k : K) • OpTerm.val F T w xs ⟨1, h.fs, h.ops⟩ := by simp [OpTerm.val]
      rw [hv, adW_smul, mul_smul_comm, map_smul, smul_eq_mul]
      ring
    have hrhs : (q : K) * F.ω (b.val F T w xs * adW (ts.map fun t => t.val F T w xs) (OpProg.val F T w xs (h :: P))) +
        tail.eval D T xs =
        (q : K) * F.ω (b.val F T w xs * adW (ts.map fun t => t.val F T w xs) (h.val F T w xs)) +
        (commB q w b ts P tail).eval D T xs := by
      rw [ih fun x hx => hP x (List.mem_cons_of_mem _ hx)]
      unfold OpProg.val
      rw [adW_sum, adW_sum, List.map_cons, List.sum_cons, mul_add, map_add]
      ring
    rw [hrhs, e, evalFacs_eq, evalOps_eq]
    cases hbal : balanced (b.ops ++ h.ops ++ allOps ts) with
    | true =>
      rw [cif_true]
      cases hk : h.k with
      | ofNat n => simp only [force_eq]; exact key false n (by rw [hk]; rfl)
      | negSucc n => simp only [force_eq]; exact key true (n + 1) (by rw [hk]; rfl)
    | false =>
      rw [cif_false]
      obtain ⟨p, hp⟩ := balanced_dif _ hbal
      have hz : ∀ s n, (nestB q w b.fs b.ops ts h.ops h.fs n s (commB q w b ts P tail)) = commB q w b ts P tail :=
        fun s n => nestB_unbal q w b.fs b.ops p ts h.ops h.fs n s _ hp
      cases hk : h.k with
      | ofNat n => rw [← key false n (by rw [hk]; rfl), hz]
      | negSucc n => rw [← key true (n + 1) (by rw [hk]; rfl), hz]

/-- `⟨B e^{-T} H e^{T}⟩` is the value of the program `projP`. -/
theorem projected [CharZero K] (hD : Disjoint (D 0) (D 1)) (S : SO I K) (hS : S.Sym) (h : I → I → K)
    (hf : IsFock D h S.f S.g) (w : List Var) (xs : List I) (hxs : ∀ v ∈ w, bind (fun _ => default) w xs v ∈ D (sp v))
    (hw : ∀ v ∈ w, v < 42) (b : OpTerm) (hb : Bra w b) (ks : List Nat) (L : Nat) (cs : List (List Nat × ℚ))
    (hcs : cs = wordsC ks L) (kB kX : ℤ) (hB : b.val F S.T w xs ∈ F.Ge kB) (hX : (ks.map (F.cl S)).sum ∈ F.Ge kX)
    (hkX : 0 ≤ kX) (hL : 0 < kB - 4 + kX * L) (M N : Nat) (hM : L ≤ M) (hN : L ≤ N) :
    F.ω (b.val F S.T w xs * expS K M (-(ks.map (F.cl S)).sum) * F.ham h S.g * expS K N (ks.map (F.cl S)).sum) =
      (projP b w cs).eval D S.T xs := by
  rw [bch F.ω _ _ (F.cl S) (cl_commute F hD S hS) ks L (fun m n hmn => ?_) M N hM hN]
  · rw [hcs, wordsC]
    generalize (List.range L).flatMap (words ks) = us
    induction us with
    | nil => rfl
    | cons u us ih =>
      have e : projP b w ((u :: us).map fun u => (u.1, (1 / (4 * u.2 * scale u.1 : ℕ) : ℚ))) =
        evalTerms (pieces u.1 0) fun ts => commB (1 / (4 * u.2 * scale u.1 : ℕ)) w b ts hamP
          (projP b w (us.map fun u => (u.1, (1 / (4 * u.2 * scale u.1 : ℕ) : ℚ)))) := rfl
      rw [e, evalTerms_eq, commB_eval F hD S.T w xs hxs hw _ b hb _ (pieces_ok S hS u.1 0) hamP (ham_run S), ← ih,
        List.map_cons, List.sum_cons, pieces_val F S w xs hw, adW_scale, val_ham F hD S h hf w xs hw, adW_smul]
      congr 1
      simp only [mul_smul_comm, map_smul, smul_eq_mul]
      have hs : (scale u.1 : K) ≠ 0 := by
        have : scale u.1 ≠ 0 := by
          unfold scale
          rw [Ne, List.prod_eq_zero_iff]
          intro hc
          obtain ⟨k, _, hk⟩ := List.mem_map.1 hc
          exact tS_ne k hk
        exact_mod_cast this
      have hs' : (((u.1.map tS).prod : ℕ) : K) = (scale u.1 : K) := rfl
      rw [hs']
      push_cast
      by_cases hu : (u.2 : K) = 0
      · simp [hu]
      · field_simp
  · have h1 := F.mul_Ge (F.mul_Ge (F.mul_Ge hB (F.pow_Ge hX m)) (F.ham_Ge h S.g)) (F.pow_Ge hX n)
    refine F.ω_Ge hD _ ?_ _ h1
    have : kX * L ≤ kX * (m + n) := mul_le_mul_of_nonneg_left (by exact_mod_cast hmn) hkX
    linarith

/-! ### bras -/

theorem bra_ok (n : Nat) : Bra (braW n) (braT n) := by
  unfold braT braW
  split <;> exact ⟨rfl, by decide, by decide, by decide, by decide⟩

theorem braW_lt (n : Nat) : ∀ v ∈ braW n, (v : Nat) < 42 := by
  unfold braW
  split <;> decide

theorem val_bra0 (T : Nat → List I → K) : (braT 0).val F T (braW 0) [] = 1 := by
  simp [braT, braW, OpTerm.val, dums, vars, sumM, evalFs, inst, Fermi.prod]

theorem val_bra1 (T : Nat → List I → K) (a i : I) : (braT 1).val F T (braW 1) [a, i] = F.bra1 a i := by
  simp [OpTerm.val, braT, braW, dums, vars, sumM, evalFs, inst, Fermi.prod, Fermi.op, Fermi.bra1, Ein.bind]

theorem val_bra2 (T : Nat → List I → K) (a b i j : I) :
    (braT 2).val F T (braW 2) [a, b, i, j] = F.bra2 a b i j := by
  simp [OpTerm.val, braT, braW, dums, vars, sumM, evalFs, inst, Fermi.prod, Fermi.op, Fermi.bra2, Ein.bind, mul_assoc]

theorem val_bra3 (T : Nat → List I → K) (a b c i j k : I) :
    (braT 3).val F T (braW 3) [a, b, c, i, j, k] = F.bra3 a b c i j k := by
  simp [OpTerm.val, braT, braW, dums, vars, sumM, evalFs, inst, Fermi.prod, Fermi.op, Fermi.bra3, Ein.bind, mul_assoc]

theorem val_bra4 (T : Nat → List I → K) (a b c d i j k l : I) :
    (braT 4).val F T (braW 4) [a, b, c, d, i, j, k, l] = F.bra4 a b c d i j k l := by
  simp [OpTerm.val, braT, braW, dums, vars, sumM, evalFs, inst, Fermi.prod, Fermi.op, Fermi.bra4, Ein.bind, mul_assoc]

end Verif.Wick
