import Verif.Ein.Sound
import Mathlib.Data.List.GetD

/-!
# Operations on einsum programs

Programs multiplied by a number, with permuted outputs, sent through an antisymmetriser, or with the terms
dropped that contain given tensors; and what these operations mean for the values.
-/

namespace Verif.Ein

/-- `q * P`. -/
def Prog.scale (q : ℚ) (P : Prog) : Prog := P.map fun b => ⟨q * b.c, b.fs, b.ps⟩

/-- The letters of `w` at the positions `π`. -/
def pick {α : Type} (d : α) (π : List Nat) (w : List α) : List α := π.map fun k => w.getD k d

/-- The array `P` transposed: `np.transpose(P, π)`, or `einsum` with one operand. -/
def Prog.outs (π : List Nat) (P : Prog) : Prog := P.map fun b => ⟨b.c, b.fs, b.ps.map fun p => (p.1, pick 0 π p.2)⟩

/-- A signed sum of transposed arrays, as computed by the antisymmetrising functions: `tab` lists the signs and
the output positions of the accumulated `einsum` calls. -/
def Prog.through (tab : List (ℤ × List Nat)) (P : Prog) : Prog :=
  P.map fun b => ⟨b.c, b.fs, b.ps.flatMap fun p => tab.map fun q => (q.1 * p.1, pick 0 q.2 p.2)⟩

/-- Drop the terms with a tensor from `ts`. -/
def Prog.drop (ts : List Nat) (P : Prog) : Prog := P.filter fun b => b.fs.all fun f => ts.all fun t => !Nat.beq f.t t

/-- All outputs have `n` distinct letters. -/
noncomputable def Prog.wf (n : Nat) (P : Prog) : Bool :=
  allR (fun b => allR (fun p => cif (Nat.beq p.2.length n) (nodupB p.2) false) b.ps) P

theorem Prog.wf_eq (n : Nat) (P : Prog) :
    P.wf n = P.all fun b => b.ps.all fun p => Nat.beq p.2.length n && decide p.2.Nodup := by
  simp only [Prog.wf, allR_eq, cif_band, nodupB_eq]

/-- A permutation of `0 … n-1`. -/
def isPerm (n : Nat) (π : List Nat) : Bool := Nat.beq π.length n && (List.range n).all fun k => π.elem k

variable {I K : Type} [Field K] [Inhabited I] (D : Nat → Finset I) (T : Nat → List I → K)

theorem Prog.eval_nil (xs : List I) : Prog.eval D T [] xs = 0 := rfl

theorem Prog.eval_append (P Q : Prog) (xs : List I) :
    Prog.eval D T (P ++ Q) xs = Prog.eval D T P xs + Prog.eval D T Q xs := by
  simp [Prog.eval]

theorem Prog.eval_cons (b : Blk) (Q : Prog) (xs : List I) :
    Prog.eval D T (b :: Q) xs = b.eval D T xs + Prog.eval D T Q xs := by
  simp [Prog.eval]

theorem Prog.eval_scale [CharZero K] (q : ℚ) (P : Prog) (xs : List I) :
    (P.scale q).eval D T xs = (q : K) * P.eval D T xs := by
  induction P with
  | nil => simp [Prog.scale, Prog.eval]
  | cons b P ih =>
    have : Prog.scale q (b :: P) = ⟨q * b.c, b.fs, b.ps⟩ :: Prog.scale q P := rfl
    rw [this, Prog.eval_cons, Prog.eval_cons, ih, mul_add]
    congr 1
    rw [Blk.eval_eq, Blk.eval_eq]
    push_cast
    ring

theorem Prog.eval_drop (ts : List Nat) (P : Prog) (xs : List I) (h : ∀ t ∈ ts, ∀ l, T t l = 0) :
    (P.drop ts).eval D T xs = P.eval D T xs := by
  induction P with
  | nil => rfl
  | cons b P ih =>
    simp only [Prog.drop, List.filter_cons] at ih ⊢
    split
    · rw [Prog.eval_cons, Prog.eval_cons, ih]
    · next hb =>
      rw [Prog.eval_cons, ih]
      have : ∃ f ∈ b.fs, ∃ t ∈ ts, f.t = t := by
        by_contra hc
        apply hb
        simp only [List.all_eq_true, Bool.not_eq_true']
        intro f hf t ht
        cases hbeq : Nat.beq f.t t with
        | false => rfl
        | true => exact absurd ⟨f, hf, t, ht, by rwa [Nat.beq_eq] at hbeq⟩ hc
      obtain ⟨f, hf, t, ht, rfl⟩ := this
      have hz : ∀ ρ, evalFs T b.fs ρ = 0 := by
        intro ρ
        clear hb
        revert hf
        generalize b.fs = fs
        intro hf
        induction fs with
        | nil => simp at hf
        | cons g gs ih2 =>
          rw [evalFs]
          rcases List.mem_cons.1 hf with rfl | hf
          · rw [h _ ht, zero_mul]
          · rw [ih2 hf, mul_zero]
      have : ∀ w, raw D T b.fs w xs = 0 := fun w => sumOver_zero D _ _ hz _
      rw [Blk.eval_eq]
      simp [this]

/-! ## permuted outputs -/

omit [Inhabited I] in
theorem bind_getElem (w : List Var) : ∀ (ρ : Var → I) (xs : List I), w.Nodup → xs.length = w.length →
    ∀ k (h : k < w.length) (h' : k < xs.length), bind ρ w xs w[k] = xs[k] := by
  induction w with
  | nil => intro _ _ _ _ k h; simp at h
  | cons x w ih =>
    intro ρ xs hn hl k h h'
    cases xs with
    | nil => simp at h'
    | cons i xs =>
      rw [List.nodup_cons] at hn
      cases k with
      | zero =>
        simp only [bind, List.getElem_cons_zero]
        rw [bind_of_not_mem _ _ _ _ hn.1, Function.update_self]
      | succ k =>
        simp only [bind, List.getElem_cons_succ]
        exact ih _ _ hn.2 (by simpa using hl) k _ _

theorem pick_getElem {α : Type} (d : α) (π : List Nat) (w : List α) (k : Nat) (h : k < (pick d π w).length)
    (h' : k < π.length) : (pick d π w)[k] = w.getD π[k] d := by
  simp [pick]

theorem bind_pick (n : Nat) (π : List Nat) (hπ : isPerm n π = true) (w : List Var) (xs : List I)
    (hw : w.Nodup) (hl : w.length = n) (hx : xs.length = n) (ρ : Var → I) :
    bind ρ (pick 0 π w) (pick default π xs) = bind ρ w xs := by
  simp only [isPerm, Bool.and_eq_true, Nat.beq_eq, List.all_eq_true, List.mem_range, List.elem_eq_mem,
    decide_eq_true_eq] at hπ
  obtain ⟨h1, h2⟩ := hπ
  have hnd : π.Nodup := by
    have hsub : (List.range n).Subperm π := List.subperm_of_subset List.nodup_range fun k hk =>
      h2 k (List.mem_range.1 hk)
    have hp : (List.range n).Perm π := hsub.perm_of_length_le (by simp [h1])
    exact hp.nodup_iff.1 List.nodup_range
  have hlt : ∀ k ∈ π, k < n := by
    have hsub : (List.range n).Subperm π := List.subperm_of_subset List.nodup_range fun k hk =>
      h2 k (List.mem_range.1 hk)
    have hp : (List.range n).Perm π := hsub.perm_of_length_le (by simp [h1])
    intro k hk
    exact List.mem_range.1 (hp.mem_iff.2 hk)
  have hpn : (pick 0 π w).Nodup := by
    refine List.Nodup.map_on ?_ hnd
    intro a ha b hb e
    have ha' := hlt a ha
    have hb' := hlt b hb
    rw [List.getD_eq_getElem _ _ (by omega), List.getD_eq_getElem _ _ (by omega)] at e
    exact (List.Nodup.getElem_inj_iff hw).1 e
  funext v
  by_cases hv : v ∈ w
  · obtain ⟨m, hm, rfl⟩ := List.getElem_of_mem hv
    obtain ⟨k, hk, hkm⟩ := List.getElem_of_mem (h2 m (by omega))
    rw [bind_getElem w ρ xs hw (by omega) m hm (by omega)]
    have e1 : w[m] = (pick 0 π w)[k]'(by simp [pick, hk]) := by
      rw [pick_getElem _ _ _ _ _ hk]
      simp only [hkm]
      rw [List.getD_eq_getElem _ _ hm]
    rw [e1, bind_getElem (pick 0 π w) ρ _ hpn (by simp [pick]) k _ (by simp [pick, hk]),
      pick_getElem _ _ _ _ _ hk]
    simp only [hkm]
    rw [List.getD_eq_getElem _ _ (by omega)]
  · rw [bind_of_not_mem _ _ _ _ hv, bind_of_not_mem]
    intro hm
    obtain ⟨k, hk, rfl⟩ := List.mem_map.1 hm
    have := hlt k hk
    apply hv
    rw [List.getD_eq_getElem _ _ (by omega)]
    exact List.getElem_mem _

theorem dums_pick (n : Nat) (π : List Nat) (hπ : isPerm n π = true) (w : List Var) (hl : w.length = n)
    (fs : List Fac) : dums (pick 0 π w) fs = dums w fs := by
  simp only [isPerm, Bool.and_eq_true, Nat.beq_eq, List.all_eq_true, List.mem_range, List.elem_eq_mem,
    decide_eq_true_eq] at hπ
  obtain ⟨h1, h2⟩ := hπ
  have hsub : (List.range n).Subperm π := List.subperm_of_subset List.nodup_range fun k hk =>
      h2 k (List.mem_range.1 hk)
  have hp : (List.range n).Perm π := hsub.perm_of_length_le (by simp [h1])
  have hiff : ∀ x, x ∈ pick 0 π w ↔ x ∈ w := by
    intro x
    constructor
    · intro hm
      obtain ⟨k, hk, rfl⟩ := List.mem_map.1 hm
      have := List.mem_range.1 (hp.mem_iff.2 hk)
      rw [List.getD_eq_getElem _ _ (by omega)]
      exact List.getElem_mem _
    · intro hx
      obtain ⟨m, hm, rfl⟩ := List.getElem_of_mem hx
      refine List.mem_map.2 ⟨m, h2 m (by omega), ?_⟩
      rw [List.getD_eq_getElem _ _ hm]
  unfold dums
  refine List.filter_congr fun x _ => ?_
  simp only [List.elem_eq_mem, hiff]

theorem raw_pick (n : Nat) (π : List Nat) (hπ : isPerm n π = true) (w : List Var) (xs : List I)
    (hw : w.Nodup) (hl : w.length = n) (hx : xs.length = n) (fs : List Fac) :
    raw D T fs (pick 0 π w) (pick default π xs) = raw D T fs w xs := by
  unfold raw
  rw [bind_pick n π hπ w xs hw hl hx, dums_pick n π hπ w hl]

theorem Prog.wf_cons (n : Nat) (b : Blk) (P : Prog) (h : Prog.wf n (b :: P) = true) :
    (∀ p ∈ b.ps, p.2.length = n ∧ p.2.Nodup) ∧ Prog.wf n P = true := by
  simp only [Prog.wf_eq, List.all_cons, Bool.and_eq_true, List.all_eq_true, Nat.beq_eq, decide_eq_true_eq] at h
  refine ⟨h.1, ?_⟩
  simp only [Prog.wf_eq, List.all_eq_true, Bool.and_eq_true, Nat.beq_eq, decide_eq_true_eq]
  exact h.2

/-- The transposed program gives the transposed array. -/
theorem Prog.eval_outs (n : Nat) (π : List Nat) (hπ : isPerm n π = true) (P : Prog) (hP : P.wf n = true)
    (xs : List I) (hx : xs.length = n) : (P.outs π).eval D T (pick default π xs) = P.eval D T xs := by
  induction P with
  | nil => rfl
  | cons b P ih =>
    obtain ⟨h1, h2⟩ := Prog.wf_cons n b P hP
    have : Prog.outs π (b :: P) = ⟨b.c, b.fs, b.ps.map fun p => (p.1, pick 0 π p.2)⟩ :: Prog.outs π P := rfl
    rw [this, Prog.eval_cons, Prog.eval_cons, ih h2]
    congr 1
    rw [Blk.eval_eq, Blk.eval_eq]
    simp only [List.map_map]
    congr 2
    refine List.map_congr_left fun p hp => ?_
    simp only [Function.comp]
    rw [raw_pick D T n π hπ p.2 xs (h1 p hp).2 (h1 p hp).1 hx]

/-- Value of an antisymmetrised program: the signed sum of the transposed arrays. `σ` is the inverse of the
position list `q.2`: the array transposed by `π` has at `xs` the entry at `pick σ xs`. -/
theorem Prog.eval_through_cons (q : ℤ × List Nat) (tab : List (ℤ × List Nat)) (P : Prog) (xs : List I) :
    (P.through (q :: tab)).eval D T xs = (q.1 : K) * (P.outs q.2).eval D T xs + (P.through tab).eval D T xs := by
  induction P with
  | nil => simp [Prog.through, Prog.outs, Prog.eval]
  | cons b P ih =>
    have e : ∀ tab, Prog.through tab (b :: P) =
      ⟨b.c, b.fs, b.ps.flatMap fun p => tab.map fun q => (q.1 * p.1, pick 0 q.2 p.2)⟩ :: Prog.through tab P :=
      fun _ => rfl
    have e2 : Prog.outs q.2 (b :: P) =
      ⟨b.c, b.fs, b.ps.map fun p => (p.1, pick 0 q.2 p.2)⟩ :: Prog.outs q.2 P := rfl
    rw [e, e, e2, Prog.eval_cons, Prog.eval_cons, Prog.eval_cons, ih, Blk.eval_eq, Blk.eval_eq, Blk.eval_eq]
    have : ((b.ps.flatMap fun p => (q :: tab).map fun q => (q.1 * p.1, pick 0 q.2 p.2)).map
        fun r => (r.1 : K) * raw D T b.fs r.2 xs).sum =
        (q.1 : K) * ((b.ps.map fun p => (p.1, pick 0 q.2 p.2)).map
          fun r => (r.1 : K) * raw D T b.fs r.2 xs).sum +
        ((b.ps.flatMap fun p => tab.map fun q => (q.1 * p.1, pick 0 q.2 p.2)).map
          fun r => (r.1 : K) * raw D T b.fs r.2 xs).sum := by
      induction b.ps with
      | nil => simp
      | cons p ps ih =>
        simp only [List.flatMap_cons, List.map_append, List.sum_append, List.map_cons, List.sum_cons] at ih ⊢
        rw [ih]
        push_cast
        ring
    rw [this]
    ring

theorem Prog.eval_through_nil (P : Prog) (xs : List I) : (P.through []).eval D T xs = 0 := by
  induction P with
  | nil => rfl
  | cons b P ih =>
    have e : Prog.through [] (b :: P) = ⟨b.c, b.fs, b.ps.flatMap fun _ => []⟩ :: Prog.through [] P := rfl
    rw [e, Prog.eval_cons, ih, Blk.eval_eq]
    have : b.ps.flatMap (fun _ => ([] : List (ℤ × List Var))) = [] := by simp
    rw [this]
    simp

variable [CharZero K] (kinds : Nat → Kind) (hk : ∀ t, (kinds t).Holds (T t))
include hk

/-- Two programs with a zero difference give the same array. -/
theorem eval_eq_of_isZero (outs : List Var) (den : Nat) (P Q : Prog) (cs : List Nat)
    (h : isZero kinds outs den (P ++ Q.scale (-1)) cs = true) (xs : List I) (hxs : xs.length = outs.length) :
    P.eval D T xs = Q.eval D T xs := by
  have := eval_eq_zero D kinds T hk outs xs hxs den _ cs h
  rw [Prog.eval_append, Prog.eval_scale] at this
  push_cast at this
  linear_combination this

/-- Antisymmetry: the program plus its transpose gives zero. -/
theorem eval_anti_of_isZero (outs : List Var) (n den : Nat) (π : List Nat) (P : Prog) (cs : List Nat)
    (h : isZero kinds outs den (P ++ P.outs π) cs = true) (hπ : isPerm n π = true) (hP : P.wf n = true)
    (xs : List I) (hx : xs.length = n) (hn : outs.length = n) :
    P.eval D T (pick default π xs) = - P.eval D T xs := by
  have := eval_eq_zero D kinds T hk outs (pick default π xs) (by
    simp only [isPerm, Bool.and_eq_true, Nat.beq_eq] at hπ
    simp [pick, hπ.1, hn]) den _ cs h
  rw [Prog.eval_append, Prog.eval_outs D T n π hπ P hP xs hx] at this
  linear_combination this

end Verif.Ein
