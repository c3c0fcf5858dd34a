import Verif.Ein.Charge
import Verif.Ein.Rotate

/-!
# Conserved charges of alpha and beta orbitals

As `Ein/Charge`, but the charge of an orbital may depend on the colour (spin) of the axis: `q c p` is the charge of
orbital `p` at an axis of colour `c`. `Prog.conserves` is the check for a program, made for evaluation in the kernel.
-/

namespace Verif.Ein

/-- Strike out what occurs in both lists. -/
def cancel : List (Var × Nat) → List (Var × Nat) → List (Var × Nat) × List (Var × Nat)
  | [], d => ([], d)
  | u :: us, d => match delSlot u d with
    | some d' => cancel us d'
    | none => match cancel us d with
      | (u', d') => (u :: u', d')

/-- The letters left over on the two sides are the output letters on their own sides, or all on the other side. -/
def sides (cs : List Nat) (ps : List (ℤ × List Var)) : List (Var × Nat) × List (Var × Nat) → Bool
  | (u, d) => ps.all fun p => eqLen p.2 cs && distinct (p.2.zip cs) &&
      (permSlot (half1 (p.2.zip cs)) u && permSlot (half2 (p.2.zip cs)) d ||
        permSlot (half2 (p.2.zip cs)) u && permSlot (half1 (p.2.zip cs)) d)

/-- With the first halves of the operands on one side and the second halves on the other (operands may be turned round), every
summation letter stands once on each side, at axes of the same colour, and the output letters, of colours `cs`, are left over. -/
def balance (col : Nat → List Nat) (cs : List Nat) (ps : List (ℤ × List Var)) : List Fac → List (Var × Nat) → List (Var × Nat) → Bool
  | [], u, d => sides cs ps (cancel u d)
  | f :: fs, u, d =>
    balance col cs ps fs (half1 (f.ix.zip (col f.t)) ++ u) (half2 (f.ix.zip (col f.t)) ++ d) ||
      balance col cs ps fs (half2 (f.ix.zip (col f.t)) ++ u) (half1 (f.ix.zip (col f.t)) ++ d)

/-! The same check with recursors, for evaluation in the kernel. -/

noncomputable def lenR {α : Type} (l : List α) : Nat := List.rec (motive := fun _ => Nat) 0 (fun _ _ ih => Nat.succ ih) l

/-- The first `n` entries and the rest. -/
noncomputable def splitR {β : Type} (l : List (Var × Nat)) : Nat → (List (Var × Nat) → List (Var × Nat) → β) → β :=
  List.rec (motive := fun _ => Nat → (List (Var × Nat) → List (Var × Nat) → β) → β) (fun _ k => k [] [])
    (fun x l ih n k => cif (Nat.beq n 0) (k [] (x :: l)) (ih (Nat.sub n 1) fun u d => k (x :: u) d)) l

noncomputable def cancelR {β : Type} (u : List (Var × Nat)) : List (Var × Nat) → (List (Var × Nat) → List (Var × Nat) → β) → β :=
  List.rec (motive := fun _ => List (Var × Nat) → (List (Var × Nat) → List (Var × Nat) → β) → β) (fun d k => k [] d)
    (fun x _ ih d k => delR x d (fun d' => ih d' k) (ih d fun u' d' => k (x :: u') d')) u

noncomputable def sidesR (cs : List Nat) (ps : List (ℤ × List Var)) (u d : List (Var × Nat)) : Bool :=
  allR (fun p => cif (eqLenR p.2 cs) (cif (distinctR (zipApp p.2 [] cs))
    (splitR (zipApp p.2 [] cs) (Nat.div (lenR (zipApp p.2 [] cs)) 2) fun x y => cif (cif (permR x u) (permR y d) false) true (cif (permR y u) (permR x d) false))
    false) false) ps

noncomputable def balanceR (col : Nat → List Nat) (cs : List Nat) (ps : List (ℤ × List Var)) (fs : List Fac) :
    List (Var × Nat) → List (Var × Nat) → Bool :=
  List.rec (motive := fun _ => List (Var × Nat) → List (Var × Nat) → Bool) (fun u d => cancelR u d (sidesR cs ps))
    (fun f _ ih u d => splitR (zipApp f.ix [] (col f.t)) (Nat.div (lenR (zipApp f.ix [] (col f.t))) 2) fun x y =>
      cif (ih (appR x u) (appR y d)) true (ih (appR y u) (appR x d))) fs

noncomputable def Prog.conserves (col : Nat → List Nat) (cs : List Nat) (P : Prog) : Bool := allR (fun b => balanceR col cs b.ps b.fs [] []) P

theorem lenR_eq {α : Type} (l : List α) : lenR l = l.length := by
  induction l with
  | nil => rfl
  | cons x l ih => exact congrArg Nat.succ ih

theorem splitR_eq {β : Type} (l : List (Var × Nat)) : ∀ n (k : List (Var × Nat) → List (Var × Nat) → β),
    splitR l n k = k (l.take n) (l.drop n) := by
  induction l with
  | nil => intro n k; rw [List.take_nil, List.drop_nil]; rfl
  | cons x l ih =>
    intro n k
    cases n with
    | zero => rfl
    | succ n => exact ih n _

theorem halfR_eq {β : Type} (l : List (Var × Nat)) (k : List (Var × Nat) → List (Var × Nat) → β) :
    splitR l (Nat.div (lenR l) 2) k = k (half1 l) (half2 l) := by
  rw [splitR_eq, lenR_eq]
  rfl

theorem cancelR_eq {β : Type} (u : List (Var × Nat)) : ∀ d (k : List (Var × Nat) → List (Var × Nat) → β),
    cancelR u d k = k (cancel u d).1 (cancel u d).2 := by
  induction u with
  | nil => intro d k; rfl
  | cons x u ih =>
    intro d k
    show delR x d (fun d' => cancelR u d' k) (cancelR u d fun u' d' => k (x :: u') d') = _
    rw [delR_eq]
    simp only [cancel]
    cases delSlot x d with
    | some d' => exact ih d' k
    | none => exact ih d _

theorem sidesR_eq (cs : List Nat) (ps : List (ℤ × List Var)) (x : List (Var × Nat) × List (Var × Nat)) :
    sidesR cs ps x.1 x.2 = sides cs ps x := by
  simp only [sidesR, sides, allR_eq, cif_band, cif_bor, eqLenR_eq, distinctR_eq, zipApp_eq, List.append_nil, halfR_eq, permR_eq, Bool.and_assoc]

theorem balanceR_eq (col : Nat → List Nat) (cs : List Nat) (ps : List (ℤ × List Var)) (fs : List Fac) : ∀ u d,
    balanceR col cs ps fs u d = balance col cs ps fs u d := by
  induction fs with
  | nil => intro u d; exact (cancelR_eq u d _).trans (sidesR_eq cs ps _)
  | cons f fs ih =>
    intro u d
    show (splitR (zipApp f.ix [] (col f.t)) (Nat.div (lenR (zipApp f.ix [] (col f.t))) 2) fun x y =>
      cif (balanceR col cs ps fs (appR x u) (appR y d)) true (balanceR col cs ps fs (appR y u) (appR x d))) = _
    rw [halfR_eq, cif_bor, ih, ih, appR_eq, appR_eq, appR_eq, appR_eq, zipApp_eq, List.append_nil]
    rfl

theorem Prog.conserves_eq (col : Nat → List Nat) (cs : List Nat) (P : Prog) :
    P.conserves col cs = P.all fun b => balance col cs b.ps b.fs [] [] := by
  simp only [Prog.conserves, allR_eq, balanceR_eq]

variable {I K G : Type} [Field K] [AddCommGroup G] (q : Nat → I → G)

/-- Sum of the charges of orbitals at axes with colours. -/
def colSum (l : List (I × Nat)) : G := (l.map fun z => q z.2 z.1).sum

/-- The charges of the two halves agree. -/
def ColBalanced (l : List (I × Nat)) : Prop := colSum q (half1 l) = colSum q (half2 l)

theorem colSum_append (l m : List (I × Nat)) : colSum q (l ++ m) = colSum q l + colSum q m := by simp [colSum]

theorem colSum_perm {l m : List (I × Nat)} (h : l.Perm m) : colSum q l = colSum q m := (h.map _).sum_eq

/-- Put orbitals for the letters. -/
def put (ρ : Var → I) (l : List (Var × Nat)) : List (I × Nat) := l.map fun z => (ρ z.1, z.2)

theorem put_zip (ρ : Var → I) (ix : List Var) : ∀ cs : List Nat, put ρ (ix.zip cs) = (ix.map ρ).zip cs := by
  induction ix with
  | nil => intro cs; simp [put]
  | cons x ix ih =>
    intro cs
    cases cs with
    | nil => simp [put]
    | cons c cs => simpa [put] using ih cs

theorem cancel_sum (ρ : Var → I) (u : List (Var × Nat)) : ∀ d,
    colSum q (put ρ u) + colSum q (put ρ (cancel u d).2) = colSum q (put ρ d) + colSum q (put ρ (cancel u d).1) := by
  induction u with
  | nil => intro d; simp [cancel, put, colSum]
  | cons x u ih =>
    intro d
    have hx : colSum q (put ρ (x :: u)) = q x.2 (ρ x.1) + colSum q (put ρ u) := by simp [put, colSum]
    simp only [cancel]
    split
    · next d' e =>
      have hd : colSum q (put ρ d) = q x.2 (ρ x.1) + colSum q (put ρ d') := by
        unfold put; rw [colSum_perm q ((delSlot_perm x d d' e).map _)]; simp [colSum]
      rw [hx, hd, add_assoc, ih d', add_assoc]
    · have := ih d
      rw [hx, show colSum q (put ρ (x :: (cancel u d).1)) = q x.2 (ρ x.1) + colSum q (put ρ (cancel u d).1) by simp [put, colSum],
        add_assoc, this]
      abel

theorem balance_sound (col : Nat → List Nat) (T : Nat → List I → K) (hT : ∀ t l, T t l ≠ 0 → ColBalanced q (l.zip (col t)))
    (cs : List Nat) (ps : List (ℤ × List Var)) (ρ : Var → I) (fs : List Fac) : ∀ u d : List (Var × Nat),
    balance col cs ps fs u d = true → evalFs T fs ρ ≠ 0 → colSum q (put ρ u) = colSum q (put ρ d) →
    ∃ u' d', sides cs ps (cancel u' d') = true ∧ colSum q (put ρ u') = colSum q (put ρ d') := by
  induction fs with
  | nil => intro u d h _ e; exact ⟨u, d, h, e⟩
  | cons f fs ih =>
    intro u d hb h hu
    simp only [evalFs, ne_eq, mul_eq_zero, not_or] at h
    have e := hT _ _ h.1
    rw [ColBalanced, ← put_zip] at e
    simp only [put, half1_map, half2_map] at e hu
    simp only [balance, Bool.or_eq_true] at hb
    rcases hb with hb | hb <;> refine ih _ _ hb h.2 ?_ <;> simp only [put, List.map_append, colSum_append] <;> rw [e, hu]

/-- Every factor of a term balances its letters, so the output letters of a nonzero term balance. -/
theorem sides_sound (cs : List Nat) (ps : List (ℤ × List Var)) (ρ : Var → I) (u d : List (Var × Nat))
    (h : sides cs ps (cancel u d) = true) (e : colSum q (put ρ u) = colSum q (put ρ d)) (p : ℤ × List Var) (hp : p ∈ ps) :
    p.2.length = cs.length ∧ p.2.Nodup ∧ ColBalanced q ((p.2.map ρ).zip cs) := by
  simp only [sides, List.all_eq_true, Bool.and_eq_true] at h
  obtain ⟨⟨hl, hd⟩, hc⟩ := h p hp
  have hl := eqLen_iff _ _ hl
  refine ⟨hl, ?_, ?_⟩
  · have := distinct_iff _ hd
    rwa [List.map_fst_zip (le_of_eq hl)] at this
  have e2 := cancel_sum q ρ u d
  rw [e] at e2
  have e3 := add_left_cancel e2
  rw [ColBalanced, ← put_zip]
  simp only [put, half1_map, half2_map]
  simp only [Bool.or_eq_true, Bool.and_eq_true] at hc
  rcases hc with ⟨h1, h2⟩ | ⟨h1, h2⟩
  · rw [colSum_perm q ((permSlot_perm _ _ h1).map _), colSum_perm q ((permSlot_perm _ _ h2).map _)]; exact e3.symm
  · rw [colSum_perm q ((permSlot_perm _ _ h1).map _), colSum_perm q ((permSlot_perm _ _ h2).map _)]; exact e3

theorem balance_ps (col : Nat → List Nat) (cs : List Nat) (ps : List (ℤ × List Var)) (fs : List Fac) : ∀ u d,
    balance col cs ps fs u d = true → ∃ u' d', sides cs ps (cancel u' d') = true := by
  induction fs with
  | nil => intro u d h; exact ⟨u, d, h⟩
  | cons f fs ih =>
    intro u d h
    simp only [balance, Bool.or_eq_true] at h
    rcases h with h | h <;> exact ih _ _ h

/-- Charge conservation with colours. -/
theorem Prog.eval_col [Inhabited I] (D : Nat → Finset I) (col : Nat → List Nat) (T : Nat → List I → K)
    (hT : ∀ t l, T t l ≠ 0 → ColBalanced q (l.zip (col t))) (cs : List Nat) (P : Prog) (hP : P.conserves col cs = true)
    (xs : List I) (hx : xs.length = cs.length) (h : P.eval D T xs ≠ 0) : ColBalanced q (xs.zip cs) := by
  by_contra hb
  refine h ?_
  unfold Prog.eval
  refine List.sum_eq_zero fun y hy => ?_
  obtain ⟨b, hb', rfl⟩ := List.mem_map.1 hy
  simp only [Prog.conserves_eq, List.all_eq_true] at hP
  have hP := hP b hb'
  unfold Blk.eval
  refine List.sum_eq_zero fun y hy => ?_
  obtain ⟨p, hp, rfl⟩ := List.mem_map.1 hy
  have hb2 : p.2.length = cs.length ∧ p.2.Nodup := by
    obtain ⟨u', d', h'⟩ := balance_ps col cs b.ps b.fs [] [] hP
    simp only [sides, List.all_eq_true, Bool.and_eq_true] at h'
    have hl := eqLen_iff _ _ (h' p hp).1.1
    have hd := distinct_iff _ (h' p hp).1.2
    rw [List.map_fst_zip (le_of_eq hl)] at hd
    exact ⟨hl, hd⟩
  have : sumOver D (dums p.2 b.fs) (evalFs T b.fs) (Ein.bind (fun _ => default) p.2 xs) = 0 := by
    refine sumOver_zero' D _ _ _ fun ρ' hρ => ?_
    by_contra hne
    have e : p.2.map ρ' = xs := by
      rw [← map_bind p.2 (fun _ => default) xs hb2.2 (by omega)]
      refine List.map_congr_left fun v hv => ?_
      exact hρ v fun hd => ((mem_dums _ _ _).1 hd).2 hv
    obtain ⟨u', d', h1, h2⟩ := balance_sound q col T hT cs b.ps ρ' b.fs [] [] hP hne rfl
    have := (sides_sound q cs b.ps ρ' u' d' h1 h2 p hp).2.2
    rw [e] at this
    exact hb this
  unfold termVal
  rw [this]
  ring

end Verif.Ein
