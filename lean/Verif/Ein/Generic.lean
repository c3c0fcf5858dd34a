import Verif.Ein.Ops2
import Mathlib.Data.Finset.Sum
import Mathlib.Algebra.BigOperators.Ring.Finset
import Mathlib.Algebra.BigOperators.Group.Finset.Piecewise

/-!
# Theorems about all einsum programs

* `Prog.eval_embed`: relabelling the orbitals.
* `Prog.eval_frag`, `Prog.eval_mixed`, `Prog.eval_split`: programs all of whose terms are connected, on arrays that
  vanish between fragments.
* `Prog.eval_affine`: programs in which a tensor occurs at most once per term.
-/

namespace Verif.Ein

/-! ## letters of the outputs -/

/-- The output letters of every term have the right number and occur in the term. -/
noncomputable def Prog.closed (n : Nat) (P : Prog) : Bool :=
  allR (fun b => allR (fun p => cif (Nat.beq p.2.length n) (allR (fun x => memFs x b.fs) p.2) false) b.ps) P

theorem Prog.closed_eq (n : Nat) (P : Prog) :
    P.closed n = P.all fun b => b.ps.all fun p => Nat.beq p.2.length n && p.2.all fun x => (vars b.fs).elem x := by
  simp only [Prog.closed, allR_eq, cif_band, memFs_eq]

variable {I J K : Type} [Field K]

theorem bind_rel (e : I → J) (w : List Var) : ∀ (ρ : Var → I) (ρ' : Var → J) (xs : List I) (v : Var),
    xs.length = w.length → (v ∈ w ∨ ρ' v = e (ρ v)) → bind ρ' w (xs.map e) v = e (bind ρ w xs v) := by
  induction w with
  | nil => intro ρ ρ' xs v hl h; cases xs with
    | nil => simpa [bind] using h
    | cons _ _ => simp at hl
  | cons x w ih =>
    intro ρ ρ' xs v hl h
    cases xs with
    | nil => simp at hl
    | cons i is =>
      simp only [List.map_cons, bind]
      refine ih _ _ _ _ (by simpa using hl) ?_
      by_cases hx : v = x
      · right; subst hx; simp
      · rcases h with h | h
        · left; simpa [hx] using h
        · right; simp [Function.update_of_ne hx, h]

theorem evalFs_rel (e : I → J) (T : Nat → List I → K) (T' : Nat → List J → K)
    (hT : ∀ t l, T' t (l.map e) = T t l) (fs : List Fac) (ρ : Var → I) (ρ' : Var → J)
    (h : ∀ v ∈ vars fs, ρ' v = e (ρ v)) : evalFs T' fs ρ' = evalFs T fs ρ := by
  induction fs with
  | nil => rfl
  | cons f fs ih =>
    simp only [evalFs]
    have hv : ∀ v ∈ f.ix, ρ' v = e (ρ v) := fun v hv => h v ((mem_vars _ _).2 ⟨f, List.mem_cons_self, hv⟩)
    have : f.ix.map ρ' = (f.ix.map ρ).map e := by
      rw [List.map_map]
      exact List.map_congr_left fun v hv' => hv v hv'
    rw [this, hT, ih fun v hv => h v ((mem_vars _ _).2 (by
      obtain ⟨g, hg, hv⟩ := (mem_vars _ _).1 hv
      exact ⟨g, List.mem_cons_of_mem _ hg, hv⟩))]

theorem sumOver_rel (e : I → J) (D : Nat → Finset I) (D' : Nat → Finset J) (he : Function.Injective e)
    (hD : ∀ s, D' s = (D s).map ⟨e, he⟩) (T : Nat → List I → K) (T' : Nat → List J → K)
    (hT : ∀ t l, T' t (l.map e) = T t l) (fs : List Fac) (L : List Var) : ∀ (ρ : Var → I) (ρ' : Var → J),
    (∀ v ∈ vars fs, v ∉ L → ρ' v = e (ρ v)) → sumOver D' L (evalFs T' fs) ρ' = sumOver D L (evalFs T fs) ρ := by
  induction L with
  | nil => intro ρ ρ' h; exact evalFs_rel e T T' hT fs ρ ρ' fun v hv => h v hv (by simp)
  | cons x L ih =>
    intro ρ ρ' h
    simp only [sumOver]
    rw [hD, Finset.sum_map]
    refine Finset.sum_congr rfl fun i _ => ih _ _ fun v hv hL => ?_
    by_cases hx : v = x
    · subst hx; simp
    · simp only [Function.update_of_ne hx]
      exact h v hv (by simp [hx, hL])

/-- Relabelling the orbitals: the arrays carried along an embedding give the same entries. -/
theorem Prog.eval_embed [Inhabited I] [Inhabited J] (e : I → J) (he : Function.Injective e) (D : Nat → Finset I)
    (D' : Nat → Finset J) (hD : ∀ s, D' s = (D s).map ⟨e, he⟩) (T : Nat → List I → K) (T' : Nat → List J → K)
    (hT : ∀ t l, T' t (l.map e) = T t l) (n : Nat) (P : Prog) (hP : P.closed n = true) (xs : List I)
    (hx : xs.length = n) : P.eval D' T' (xs.map e) = P.eval D T xs := by
  unfold Prog.eval
  congr 1
  refine List.map_congr_left fun b hb => ?_
  rw [Blk.eval_eq, Blk.eval_eq]
  congr 2
  refine List.map_congr_left fun p hp => ?_
  congr 1
  simp only [Prog.closed_eq, List.all_eq_true, Bool.and_eq_true, Nat.beq_eq] at hP
  have hl := (hP b hb p hp).1
  refine sumOver_rel e D D' he hD T T' hT b.fs _ _ _ fun v hv hL => ?_
  refine bind_rel e p.2 _ _ xs v (by omega) (Or.inl ?_)
  by_contra hw
  exact hL ((mem_dums _ _ _).2 ⟨hv, hw⟩)

/-! ## connected terms -/

/-- Take the operands that share a letter with `seen`, adding their letters to `seen`. -/
def absorb (seen : List Var) : List Fac → List Var × List Fac
  | [] => (seen, [])
  | f :: fs =>
    if f.ix.any (fun x => seen.elem x) then absorb (f.ix ++ seen) fs
    else ((absorb seen fs).1, f :: (absorb seen fs).2)

/-- All operands are linked to `seen` through shared letters. -/
def linked : Nat → List Var → List Fac → Bool
  | 0, _, fs => fs.isEmpty
  | n + 1, seen, fs => linked n (absorb seen fs).1 (absorb seen fs).2

/-- A term is connected: its operands hang together by shared letters, and it has letters. -/
def connected : List Fac → Bool
  | [] => false
  | f :: fs => !f.ix.isEmpty && linked (f :: fs).length f.ix fs

/-- `absorb`, `linked` and `connected` written with recursors. -/
noncomputable def absorbR {β : Type} (fs : List Fac) : List Var → (List Var → List Fac → β) → β :=
  List.rec (motive := fun _ => List Var → (List Var → List Fac → β) → β) (fun seen k => k seen [])
    (fun f _ ih seen k => cif (meetR seen f.ix) (ih (f.ix ++ seen) k) (ih seen fun s l => k s (f :: l))) fs

noncomputable def linkedR (n : Nat) : List Var → List Fac → Bool :=
  Nat.rec (motive := fun _ => List Var → List Fac → Bool) (fun _ fs => fs.isEmpty) (fun _ ih seen fs => absorbR fs seen ih) n

noncomputable def connectedR (fs : List Fac) : Bool :=
  List.rec (motive := fun _ => Bool) false (fun f fs _ => cif f.ix.isEmpty false (linkedR (f :: fs).length f.ix fs)) fs

theorem absorbR_eq {β : Type} (fs : List Fac) (seen : List Var) (k : List Var → List Fac → β) :
    absorbR fs seen k = k (absorb seen fs).1 (absorb seen fs).2 := by
  induction fs generalizing seen k with
  | nil => rfl
  | cons f fs ih =>
    have e : absorbR (f :: fs) seen k = cif (meetR seen f.ix) (absorbR fs (f.ix ++ seen) k) (absorbR fs seen fun s l => k s (f :: l)) := rfl
    rw [e, ih, ih, meetR_eq, absorb]
    cases f.ix.any fun x => seen.elem x <;> rfl

theorem linkedR_eq (n : Nat) (seen : List Var) (fs : List Fac) : linkedR n seen fs = linked n seen fs := by
  induction n generalizing seen fs with
  | zero => rfl
  | succ n ih =>
    have e : linkedR (n + 1) seen fs = absorbR fs seen (linkedR n) := rfl
    rw [e, absorbR_eq, ih, linked]

theorem connectedR_eq (fs : List Fac) : connectedR fs = connected fs := by
  cases fs with
  | nil => rfl
  | cons f fs =>
    have e : connectedR (f :: fs) = cif f.ix.isEmpty false (linkedR (f :: fs).length f.ix fs) := rfl
    rw [e, linkedR_eq, connected]
    cases f.ix.isEmpty <;> rfl

/-- All terms are connected. -/
noncomputable def Prog.connected (P : Prog) : Bool := allR (fun b => connectedR b.fs) P

theorem Prog.connected_eq (P : Prog) : P.connected = P.all fun b => Ein.connected b.fs := by
  simp only [Prog.connected, allR_eq, connectedR_eq]

section frag

variable {F : Type} (fr : I → F)

/-- All orbitals of a list lie in one fragment. -/
def Same (l : List I) : Prop := ∀ x ∈ l, ∀ y ∈ l, fr x = fr y

variable (T : Nat → List I → K) (hT : ∀ t l, T t l ≠ 0 → Same fr l)

include hT

theorem absorb_sound (c : F) (ρ : Var → I) (fs : List Fac) : ∀ (seen : List Var), evalFs T fs ρ ≠ 0 →
    (∀ v ∈ seen, fr (ρ v) = c) →
    (∀ v ∈ (absorb seen fs).1, fr (ρ v) = c) ∧ evalFs T (absorb seen fs).2 ρ ≠ 0 ∧
      ∀ f ∈ fs, f ∈ (absorb seen fs).2 ∨ ∀ v ∈ f.ix, fr (ρ v) = c := by
  induction fs with
  | nil => intro seen _ h; exact ⟨h, by simp [absorb, evalFs], by simp⟩
  | cons f fs ih =>
    intro seen hne h
    simp only [evalFs] at hne
    have h1 := left_ne_zero_of_mul hne
    have h2 := right_ne_zero_of_mul hne
    simp only [absorb]
    split
    · next ha =>
      obtain ⟨x, hx, hs⟩ := List.any_eq_true.1 ha
      have hs : x ∈ seen := by simpa using hs
      have hf : ∀ v ∈ f.ix, fr (ρ v) = c := fun v hv => by
        rw [← h x hs]
        exact hT _ _ h1 _ (List.mem_map_of_mem hv) _ (List.mem_map_of_mem hx)
      obtain ⟨k1, k2, k3⟩ := ih (f.ix ++ seen) h2 fun v hv => by
        rcases List.mem_append.1 hv with hv | hv
        · exact hf v hv
        · exact h v hv
      refine ⟨k1, k2, ?_⟩
      simp only [List.mem_cons, forall_eq_or_imp]
      exact ⟨Or.inr hf, k3⟩
    · obtain ⟨k1, k2, k3⟩ := ih seen h2 h
      refine ⟨k1, ?_, ?_⟩
      · simp only [evalFs]; exact mul_ne_zero h1 k2
      · simp only [List.mem_cons, forall_eq_or_imp]
        exact ⟨Or.inl (Or.inl trivial), fun g hg => (k3 g hg).imp (fun h => Or.inr h) id⟩

theorem linked_sound (c : F) (ρ : Var → I) (n : Nat) : ∀ (seen : List Var) (fs : List Fac),
    linked n seen fs = true → evalFs T fs ρ ≠ 0 → (∀ v ∈ seen, fr (ρ v) = c) → ∀ v ∈ vars fs, fr (ρ v) = c := by
  induction n with
  | zero =>
    intro seen fs hl _ _ v hv
    simp only [linked, List.isEmpty_iff] at hl
    subst hl
    simp [vars] at hv
  | succ n ih =>
    intro seen fs hl hne h v hv
    obtain ⟨k1, k2, k3⟩ := absorb_sound fr T hT c ρ fs seen hne h
    obtain ⟨f, hf, hv⟩ := (mem_vars _ _).1 hv
    rcases k3 f hf with hf | hf
    · exact ih _ _ hl k2 k1 v ((mem_vars _ _).2 ⟨f, hf, hv⟩)
    · exact hf v hv

/-- If a connected term does not vanish, all its letters stand for orbitals of one fragment. -/
theorem connected_sound (ρ : Var → I) (fs : List Fac) (hc : connected fs = true) (hne : evalFs T fs ρ ≠ 0) :
    ∀ v ∈ vars fs, ∀ u ∈ vars fs, fr (ρ v) = fr (ρ u) := by
  cases fs with
  | nil => simp [connected] at hc
  | cons f fs =>
    simp only [connected, Bool.and_eq_true, Bool.not_eq_true', List.isEmpty_eq_false_iff] at hc
    obtain ⟨x, hx⟩ := List.exists_mem_of_ne_nil _ hc.1
    have hne' := hne
    simp only [evalFs] at hne'
    have h1 := left_ne_zero_of_mul hne'
    have h2 := right_ne_zero_of_mul hne'
    have hf : ∀ v ∈ f.ix, fr (ρ v) = fr (ρ x) := fun v hv =>
      hT _ _ h1 _ (List.mem_map_of_mem hv) _ (List.mem_map_of_mem hx)
    have hall : ∀ v ∈ vars (f :: fs), fr (ρ v) = fr (ρ x) := by
      intro v hv
      obtain ⟨g, hg, hvg⟩ := (mem_vars _ _).1 hv
      rcases List.mem_cons.1 hg with rfl | hg
      · exact hf v hvg
      · exact linked_sound fr T hT _ ρ _ _ _ hc.2 h2 hf v ((mem_vars _ _).2 ⟨g, hg, hvg⟩)
    intro v hv u hu
    rw [hall v hv, hall u hu]

end frag

/-- Restricting the sums to values where the summand does not vanish. -/
theorem sumOver_filter (D D' : Nat → Finset I) (q : I → Prop) [DecidablePred q]
    (hD : ∀ s, D' s = (D s).filter q) (L : List Var) : ∀ (ρ : Var → I) (f : (Var → I) → K), L.Nodup →
    (∀ ρ', (∀ v, v ∉ L → ρ' v = ρ v) → f ρ' ≠ 0 → ∀ v ∈ L, q (ρ' v)) →
    sumOver D' L f ρ = sumOver D L f ρ := by
  induction L with
  | nil => intro ρ f _ _; rfl
  | cons x L ih =>
    intro ρ f hn h
    obtain ⟨hx, hn⟩ := List.nodup_cons.1 hn
    have hz : ∀ i, ¬ q i → sumOver D L f (Function.update ρ x i) = 0 := by
      intro i hi
      have : ∀ (M : List Var) (ρ₀ : Var → I), x ∉ M → (∀ v, v ∉ L → v ≠ x → ρ₀ v = ρ v) → ρ₀ x = i →
          (∀ v ∈ M, v ∈ L) → sumOver D M f ρ₀ = 0 := by
        intro M
        induction M with
        | nil =>
          intro ρ₀ _ h1 h2 _
          by_contra hne
          refine hi ?_
          have := h ρ₀ (fun v hv => h1 v (by simp at hv; exact hv.2) (by simp at hv; exact hv.1)) hne x
            List.mem_cons_self
          rwa [h2] at this
        | cons y M ihM =>
          intro ρ₀ hM h1 h2 h3
          simp only [sumOver]
          refine Finset.sum_eq_zero fun j _ => ihM _ (fun h => hM (List.mem_cons_of_mem _ h)) ?_ ?_ ?_
          · intro v hv hvx
            have : v ≠ y := fun e => hv (e ▸ h3 y List.mem_cons_self)
            rw [Function.update_of_ne this]; exact h1 v hv hvx
          · have hxy : x ≠ y := fun e => hM (e ▸ List.mem_cons_self)
            rw [Function.update_of_ne hxy]; exact h2
          · exact fun v hv => h3 v (List.mem_cons_of_mem _ hv)
      refine this L _ hx (fun v _ hvx => Function.update_of_ne hvx _ _) (by simp) fun v hv => hv
    simp only [sumOver]
    rw [hD, Finset.sum_filter]
    refine Finset.sum_congr rfl fun i _ => ?_
    split
    · refine ih _ f hn fun ρ' h1 h2 v hv => h ρ' (fun u hu => ?_) h2 v (List.mem_cons_of_mem _ hv)
      simp only [List.mem_cons, not_or] at hu
      rw [h1 u hu.2, Function.update_of_ne hu.1]
    · next hi => exact (hz i hi).symm

theorem sumOver_zero' (D : Nat → Finset I) (L : List Var) : ∀ (ρ : Var → I) (f : (Var → I) → K),
    (∀ ρ', (∀ v, v ∉ L → ρ' v = ρ v) → f ρ' = 0) → sumOver D L f ρ = 0 := by
  induction L with
  | nil => intro ρ f h; exact h ρ fun _ _ => rfl
  | cons x L ih =>
    intro ρ f h
    simp only [sumOver]
    refine Finset.sum_eq_zero fun i _ => ih _ f fun ρ' h1 => h ρ' fun v hv => ?_
    simp only [List.mem_cons, not_or] at hv
    rw [h1 v hv.2, Function.update_of_ne hv.1]

theorem bind_mem (w : List Var) : ∀ (ρ : Var → I) (xs : List I), xs.length = w.length → ∀ v ∈ w, bind ρ w xs v ∈ xs := by
  induction w with
  | nil => intro _ _ _ v hv; simp at hv
  | cons x w ih =>
    intro ρ xs hl v hv
    cases xs with
    | nil => simp at hl
    | cons i is =>
      simp only [bind]
      by_cases hw : v ∈ w
      · exact List.mem_cons_of_mem _ (ih _ is (by simpa using hl) v hw)
      · rw [bind_of_not_mem _ _ _ _ hw]
        rcases List.mem_cons.1 hv with rfl | h
        · simp
        · exact absurd h hw

/-- Without repeated letters every value is bound. -/
theorem mem_bind (w : List Var) : ∀ (ρ : Var → I) (xs : List I), xs.length = w.length → w.Nodup → ∀ x ∈ xs,
    ∃ v ∈ w, bind ρ w xs v = x := by
  induction w with
  | nil => intro _ xs hl _ x hx; cases xs with
    | nil => simp at hx
    | cons _ _ => simp at hl
  | cons y w ih =>
    intro ρ xs hl hn x hx
    obtain ⟨hy, hn⟩ := List.nodup_cons.1 hn
    cases xs with
    | nil => simp at hl
    | cons i is =>
      simp only [bind]
      rcases List.mem_cons.1 hx with rfl | hx
      · exact ⟨y, List.mem_cons_self, by rw [bind_of_not_mem _ _ _ _ hy]; simp⟩
      · obtain ⟨v, hv, e⟩ := ih (Function.update ρ y i) is (by simpa using hl) hn x hx
        exact ⟨v, List.mem_cons_of_mem _ hv, e⟩

section frag

variable [Inhabited I] {F : Type} (fr : I → F) (D : Nat → Finset I)
variable (T : Nat → List I → K) (hT : ∀ t l, T t l ≠ 0 → Same fr l)

include hT

/-- Entries between fragments vanish. -/
theorem Prog.eval_mixed (n : Nat) (P : Prog) (hc : P.connected = true) (hP : P.closed n = true)
    (hw : P.wf n = true) (xs : List I) (hx : xs.length = n) (hm : ¬ Same fr xs) : P.eval D T xs = 0 := by
  unfold Prog.eval
  refine List.sum_eq_zero fun y hy => ?_
  obtain ⟨b, hb, rfl⟩ := List.mem_map.1 hy
  simp only [Prog.connected_eq, List.all_eq_true] at hc
  simp only [Prog.closed_eq, List.all_eq_true, Bool.and_eq_true, Nat.beq_eq, List.elem_eq_mem,
    decide_eq_true_eq] at hP
  simp only [Prog.wf_eq, List.all_eq_true, Bool.and_eq_true, Nat.beq_eq, decide_eq_true_eq] at hw
  rw [Blk.eval_eq]
  rw [List.sum_eq_zero, mul_zero]
  intro y hy
  obtain ⟨p, hp, rfl⟩ := List.mem_map.1 hy
  rw [mul_eq_zero]
  right
  refine sumOver_zero' D _ _ _ fun ρ' h1 => ?_
  by_contra hne
  refine hm fun x hxs y hys => ?_
  have hl : xs.length = p.2.length := by rw [hx, (hP b hb p hp).1]
  obtain ⟨v, hv, rfl⟩ := mem_bind p.2 (fun _ => default) xs hl (hw b hb p hp).2 x hxs
  obtain ⟨u, hu, rfl⟩ := mem_bind p.2 (fun _ => default) xs hl (hw b hb p hp).2 y hys
  have hd : ∀ z ∈ p.2, z ∉ dums p.2 b.fs := fun z hz h => ((mem_dums _ _ _).1 h).2 hz
  rw [← h1 v (hd v hv), ← h1 u (hd u hu)]
  exact connected_sound fr T hT ρ' b.fs (hc b hb) hne v ((hP b hb p hp).2 v hv) u ((hP b hb p hp).2 u hu)

/-- Entries of one fragment are those of the fragment alone. -/
theorem Prog.eval_frag [DecidableEq F] (n : Nat) (hn : n ≠ 0) (P : Prog) (hc : P.connected = true)
    (hP : P.closed n = true) (c : F) (D' : Nat → Finset I) (hD : ∀ s, D' s = (D s).filter fun x => fr x = c)
    (xs : List I) (hx : xs.length = n) (hs : ∀ x ∈ xs, fr x = c) : P.eval D T xs = P.eval D' T xs := by
  unfold Prog.eval
  congr 1
  refine List.map_congr_left fun b hb => ?_
  simp only [Prog.connected_eq, List.all_eq_true] at hc
  simp only [Prog.closed_eq, List.all_eq_true, Bool.and_eq_true, Nat.beq_eq, List.elem_eq_mem,
    decide_eq_true_eq] at hP
  rw [Blk.eval_eq, Blk.eval_eq]
  congr 2
  refine List.map_congr_left fun p hp => ?_
  congr 1
  symm
  refine sumOver_filter D D' (fun x => fr x = c) hD _ _ _ (nodup_dums _ _) fun ρ' h1 hne v hv => ?_
  have hl : xs.length = p.2.length := by rw [hx, (hP b hb p hp).1]
  obtain ⟨z, hz⟩ : ∃ z, z ∈ p.2 := List.exists_mem_of_ne_nil _ (by
    rintro e; rw [e] at hl; exact hn (by rw [← hx, hl]; rfl))
  have hzd : z ∉ dums p.2 b.fs := fun h => ((mem_dums _ _ _).1 h).2 hz
  rw [connected_sound fr T hT ρ' b.fs (hc b hb) hne v ((mem_dums _ _ _).1 hv).1 z ((hP b hb p hp).2 z hz), h1 z hzd]
  exact hs _ (bind_mem p.2 _ xs hl z hz)

/-- Numbers add up over the fragments. -/
theorem Prog.eval_split [DecidableEq F] [Fintype F] (P : Prog) (hc : P.connected = true) (hP : P.closed 0 = true)
    (D' : F → Nat → Finset I) (hD : ∀ c s, D' c s = (D s).filter fun x => fr x = c) :
    P.eval D T [] = ∑ c, P.eval (D' c) T [] := by
  induction P with
  | nil => simp [Prog.eval]
  | cons b P ih =>
    simp only [Prog.connected_eq, Prog.closed_eq, List.all_cons, Bool.and_eq_true] at hc hP
    simp only [Prog.eval_cons, Finset.sum_add_distrib]
    rw [ih (by rw [Prog.connected_eq]; exact hc.2) (by rw [Prog.closed_eq]; exact hP.2)]
    congr 1
    simp only [Blk.eval_eq]
    rw [← Finset.mul_sum]
    congr 1
    have hps := hP.1
    revert hps
    generalize b.ps = ps
    intro hps
    induction ps with
    | nil => simp
    | cons p ps ihp =>
      simp only [List.all_cons, Bool.and_eq_true, Nat.beq_eq] at hps
      simp only [List.map_cons, List.sum_cons, Finset.sum_add_distrib]
      rw [ihp (by simpa [List.all_eq_true] using hps.2), ← Finset.mul_sum]
      congr 2
      have hw : p.2 = [] := List.length_eq_zero_iff.1 hps.1.1
      rw [hw]
      unfold raw
      -- the first summed letter decides the fragment
      have hne : dums [] b.fs ≠ [] := by
        intro h0
        cases hfs : b.fs with
        | nil => rw [hfs] at hc; simp [Ein.connected] at hc
        | cons f fs =>
          rw [hfs] at hc
          simp only [Ein.connected, Bool.and_eq_true, Bool.not_eq_true', List.isEmpty_eq_false_iff] at hc
          obtain ⟨x, hx⟩ := List.exists_mem_of_ne_nil _ hc.1.1
          have : x ∈ dums [] b.fs := (mem_dums _ _ _).2 ⟨(mem_vars _ _).2 ⟨f, by simp [hfs], hx⟩, by simp⟩
          rw [h0] at this; simp at this
      obtain ⟨z, L, hL⟩ := List.exists_cons_of_ne_nil hne
      have hnd : (z :: L).Nodup := hL ▸ nodup_dums _ _
      have key : ∀ c, sumOver (D' c) (dums [] b.fs) (evalFs T b.fs) (bind (fun _ => default) [] []) =
          ∑ i ∈ D (sp z), if fr i = c then
            sumOver D L (evalFs T b.fs) (Function.update (bind (fun _ => default) [] []) z i) else 0 := by
        intro c
        rw [hL]
        simp only [sumOver]
        rw [hD, Finset.sum_filter]
        refine Finset.sum_congr rfl fun i _ => ?_
        split
        · next hi =>
          refine sumOver_filter D (D' c) (fun x => fr x = c) (hD c) _ _ _ (List.nodup_cons.1 hnd).2
            fun ρ' h1 hne v hv => ?_
          have hv' : v ∈ vars b.fs := ((mem_dums [] b.fs v).1 (hL ▸ List.mem_cons_of_mem _ hv)).1
          have hz' : z ∈ vars b.fs := ((mem_dums [] b.fs z).1 (hL ▸ List.mem_cons_self)).1
          rw [connected_sound fr T hT ρ' b.fs hc.1 hne v hv' z hz', h1 z (List.nodup_cons.1 hnd).1]
          simpa using hi
        · rfl
      simp only [key]
      rw [Finset.sum_comm, hL]
      simp only [sumOver]
      refine Finset.sum_congr rfl fun i _ => ?_
      simp

end frag

/-! ## tensors that occur at most once in every term -/

/-- Number of operands with the given tensor. -/
def occurs (t : Nat) (fs : List Fac) : Nat := (fs.filter fun f => Nat.beq f.t t).length

/-- The tensor occurs at most `k` times in every term. -/
def Prog.degLe (t k : Nat) (P : Prog) : Bool := P.all fun b => Nat.ble (occurs t b.fs) k

/-- The tensor occurs exactly `k` times in every term. -/
def Prog.degEq (t k : Nat) (P : Prog) : Bool := P.all fun b => Nat.beq (occurs t b.fs) k

theorem sumOver_add (D : Nat → Finset I) (L : List Var) (f g : (Var → I) → K) : ∀ ρ,
    sumOver D L (fun ρ => f ρ + g ρ) ρ = sumOver D L f ρ + sumOver D L g ρ := by
  induction L with
  | nil => intro ρ; rfl
  | cons x L ih => intro ρ; simp only [sumOver, ih, Finset.sum_add_distrib]

section affine

variable (t : Nat) (α β : K) (T U V : Nat → List I → K)
  (h1 : ∀ s, s ≠ t → ∀ l, T s l = U s l ∧ T s l = V s l) (h2 : ∀ l, T t l = α * U t l + β * V t l)

include h1 in
theorem evalFs_occurs_zero (fs : List Fac) (h : occurs t fs = 0) (ρ : Var → I) :
    evalFs T fs ρ = evalFs U fs ρ ∧ evalFs T fs ρ = evalFs V fs ρ := by
  induction fs with
  | nil => exact ⟨rfl, rfl⟩
  | cons f fs ih =>
    simp only [occurs, List.filter_cons] at h
    split at h
    · simp at h
    · next hf =>
      have hf : f.t ≠ t := by simpa using hf
      obtain ⟨a, b⟩ := ih h
      simp only [evalFs]
      exact ⟨by rw [a, (h1 _ hf _).1], by rw [b, (h1 _ hf _).2]⟩

include h1 h2 in
theorem evalFs_occurs_one (fs : List Fac) (h : occurs t fs = 1) (ρ : Var → I) :
    evalFs T fs ρ = α * evalFs U fs ρ + β * evalFs V fs ρ := by
  induction fs with
  | nil => simp [occurs] at h
  | cons f fs ih =>
    simp only [occurs, List.filter_cons] at h
    simp only [evalFs]
    split at h
    · next hf =>
      have hf : f.t = t := by simpa using hf
      obtain ⟨a, b⟩ := evalFs_occurs_zero t T U V h1 fs (by simpa [occurs] using h) ρ
      rw [hf, h2, ← a, ← b]
      ring
    · next hf =>
      have hf : f.t ≠ t := by simpa using hf
      rw [ih h, ← (h1 _ hf _).1, ← (h1 _ hf _).2]
      ring

include h1 h2 in
theorem raw_occurs_one [Inhabited I] (D : Nat → Finset I) (fs : List Fac) (h : occurs t fs = 1) (w : List Var)
    (xs : List I) : raw D T fs w xs = α * raw D U fs w xs + β * raw D V fs w xs := by
  unfold raw
  rw [← sumOver_mul, ← sumOver_mul, ← sumOver_add]
  congr 1
  funext ρ
  exact evalFs_occurs_one t α β T U V h1 h2 fs h ρ

include h1 in
theorem raw_occurs_zero [Inhabited I] (D : Nat → Finset I) (fs : List Fac) (h : occurs t fs = 0) (w : List Var)
    (xs : List I) : raw D T fs w xs = raw D U fs w xs ∧ raw D T fs w xs = raw D V fs w xs := by
  unfold raw
  constructor <;> congr 1 <;> funext ρ
  · exact (evalFs_occurs_zero t T U V h1 fs h ρ).1
  · exact (evalFs_occurs_zero t T U V h1 fs h ρ).2

include h1 h2 in
/-- Affine dependence on a tensor that occurs at most once in every term. -/
theorem Prog.eval_affine [Inhabited I] (D : Nat → Finset I) (hαβ : α + β = 1) (P : Prog) (hP : P.degLe t 1 = true)
    (xs : List I) : P.eval D T xs = α * P.eval D U xs + β * P.eval D V xs := by
  induction P with
  | nil => simp [Prog.eval]
  | cons b P ih =>
    simp only [Prog.degLe, List.all_cons, Bool.and_eq_true, Nat.ble_eq] at hP
    simp only [Prog.eval_cons]
    rw [ih (by simpa [Prog.degLe] using hP.2)]
    have hb : b.eval D T xs = α * b.eval D U xs + β * b.eval D V xs := by
      simp only [Blk.eval_eq]
      have : ∀ ps : List (ℤ × List Var), (ps.map fun p => (p.1 : K) * raw D T b.fs p.2 xs).sum =
          α * (ps.map fun p => (p.1 : K) * raw D U b.fs p.2 xs).sum +
            β * (ps.map fun p => (p.1 : K) * raw D V b.fs p.2 xs).sum := by
        intro ps
        induction ps with
        | nil => simp
        | cons p ps ihp =>
          simp only [List.map_cons, List.sum_cons, ihp]
          rcases Nat.le_one_iff_eq_zero_or_eq_one.1 hP.1 with h | h
          · obtain ⟨a, c⟩ := raw_occurs_zero t T U V h1 D b.fs h p.2 xs
            rw [← a, ← c]
            linear_combination (-(p.1 : K) * raw D T b.fs p.2 xs) * hαβ
          · rw [raw_occurs_one t α β T U V h1 h2 D b.fs h]
            ring
      rw [this]
      ring
    rw [hb]
    ring

include h1 h2 in
/-- Linear dependence on a tensor that occurs exactly once in every term. -/
theorem Prog.eval_linear [Inhabited I] (D : Nat → Finset I) (P : Prog) (hP : P.degEq t 1 = true)
    (xs : List I) : P.eval D T xs = α * P.eval D U xs + β * P.eval D V xs := by
  induction P with
  | nil => simp [Prog.eval]
  | cons b P ih =>
    simp only [Prog.degEq, List.all_cons, Bool.and_eq_true, Nat.beq_eq] at hP
    simp only [Prog.eval_cons]
    rw [ih (by simpa [Prog.degEq] using hP.2)]
    have hb : b.eval D T xs = α * b.eval D U xs + β * b.eval D V xs := by
      simp only [Blk.eval_eq]
      have : ∀ ps : List (ℤ × List Var), (ps.map fun p => (p.1 : K) * raw D T b.fs p.2 xs).sum =
          α * (ps.map fun p => (p.1 : K) * raw D U b.fs p.2 xs).sum +
            β * (ps.map fun p => (p.1 : K) * raw D V b.fs p.2 xs).sum := by
        intro ps
        induction ps with
        | nil => simp
        | cons p ps ihp =>
          simp only [List.map_cons, List.sum_cons, ihp]
          rw [raw_occurs_one t α β T U V h1 h2 D b.fs hP.1]
          ring
      rw [this]
      ring
    rw [hb]
    ring

end affine

end Verif.Ein
