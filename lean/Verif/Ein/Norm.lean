import Verif.Ein.Core

/-!
# A normal form for einsum programs

`isZero` decides (soundly, see `Verif.Ein.Sound`) that a program gives the zero array for all tensors with the
symmetries given by `kinds`. The names of the summed letters are chosen by a certificate: for every einsum and
every output two numbers, a table of new letter names and the table of the inverse renaming (6 bits per letter).
A certificate that starts with 0 gives two renamings; half of the term is entered under each (for terms that
are the negative of themselves).

Everything is written with recursors and natural-number operations, so that the kernel evaluates it quickly.
-/

namespace Verif.Ein

/-- Entry `x` of a packed table. -/
def look (R x : Nat) : Nat := Nat.land (Nat.shiftRight R (Nat.mul 6 x)) 63

/-- `f n`, evaluating `n` first. -/
noncomputable def force {α : Type} (n : Nat) (f : Nat → α) : α :=
  Nat.rec (motive := fun _ => α) (f 0) (fun m _ => f (Nat.succ m)) n

/-- `if b then x else y`. -/
noncomputable def cif {α : Type} (b : Bool) (x y : α) : α := Bool.rec (motive := fun _ => α) y x b

/-- Rename a list of letters. -/
noncomputable def renIx (R : Nat) (ix : List Var) : List Var :=
  List.rec (motive := fun _ => List Var) [] (fun x _ ih => force (look R x) fun y => y :: ih) ix

/-- The renaming `R` is undone by `S` and keeps the range, on the given letters. -/
noncomputable def okIx (R S : Nat) (ix : List Var) : Bool :=
  List.rec (motive := fun _ => Bool) true
    (fun x _ ih => force (look R x) fun y =>
      cif (Nat.beq (look S y) x) (cif (Nat.beq (Nat.land y 1) (Nat.land x 1)) ih false) false) ix

noncomputable def okFs (R S : Nat) (fs : List Fac) : Bool :=
  List.rec (motive := fun _ => Bool) true
    (fun f _ ih => cif (okIx R S f.ix) (cif (Nat.blt f.t 256) ih false) false) fs

noncomputable def eqIx (xs : List Var) : List Var → Bool :=
  List.rec (motive := fun _ => List Var → Bool)
    (fun ys => List.rec (motive := fun _ => Bool) true (fun _ _ _ => false) ys)
    (fun x _ ih ys => List.rec (motive := fun _ => Bool) false (fun y ys _ => cif (Nat.beq x y) (ih ys) false) ys) xs

/-- Insert an index to the front of a sorted linked block; the answer goes to the continuation, with the sign
(true: minus); `z` is the answer if an index repeats inside a block. -/
noncomputable def insIx {β : Type} (z : β) (x : Var) (ys : List Var) :
    List Bool → Bool → (Bool → List Var → β) → β :=
  List.rec (motive := fun _ => List Bool → Bool → (Bool → List Var → β) → β)
    (fun _ s k => k s [x])
    (fun y ys ih ls s k =>
      List.rec (motive := fun _ => β) (k s (x :: y :: ys))
        (fun l ls _ => cif l
          (cif (Nat.blt x y) (k s (x :: y :: ys))
            (cif (Nat.beq x y) z (ih ls (cif s false true) fun s r => k s (y :: r))))
          (k s (x :: y :: ys))) ls) ys

/-- Sort the linked blocks of an index list. -/
noncomputable def sortIx {β : Type} (z : β) (ls : List Bool) :
    List Var → Bool → (Bool → List Var → β) → β :=
  List.rec (motive := fun _ => List Var → Bool → (Bool → List Var → β) → β)
    (fun xs s k => k s xs)
    (fun l ls ih xs s k =>
      List.rec (motive := fun _ => β) (k s [])
        (fun x xs _ => ih xs s fun s r => insIx z x r (l :: ls) s k) xs) ls

/-- Exchange the halves of two or four indices, the smaller half first. -/
noncomputable def hermIx (ix : List Var) : List Var :=
  match ix with
  | [p, q] => cif (Nat.blt q p) [q, p] [p, q]
  | [p, q, r, s] =>
    cif (Nat.blt (Nat.add (Nat.mul r 64) s) (Nat.add (Nat.mul p 64) q)) [r, s, p, q] [p, q, r, s]
  | ix => ix

/-- Rename and sort the operands. -/
noncomputable def normFs {β : Type} (z : β) (kinds : Nat → Kind) (R : Nat) (fs : List Fac) :
    Bool → (Bool → List Fac → β) → β :=
  List.rec (motive := fun _ => Bool → (Bool → List Fac → β) → β)
    (fun s k => k s [])
    (fun f _ ih s k => sortIx z (kinds f.t).links (renIx R f.ix) s fun s ix => ih s fun s fs =>
      k s (⟨f.t, cif (kinds f.t).herm (hermIx ix) ix⟩ :: fs)) fs

noncomputable def ixKey (ix : List Var) : Nat :=
  List.rec (motive := fun _ => Nat) 1 (fun x _ ih => Nat.add x (Nat.mul 64 ih)) ix

noncomputable def facKey (f : Fac) : Nat := Nat.add f.t (Nat.mul 256 (ixKey f.ix))

noncomputable def insKey (k : Nat) (l : List Nat) : List Nat :=
  List.rec (motive := fun _ => List Nat) [k] (fun k' l ih => cif (Nat.blt k k') (k :: k' :: l) (k' :: ih)) l

/-- The keys of the operands in ascending order. -/
noncomputable def sortKeys (fs : List Fac) : List Nat :=
  List.rec (motive := fun _ => List Nat) [] (fun f _ ih => force (facKey f) fun k => insKey k ih) fs

/-- One number for the sorted keys; `z` is the answer if a key is too large. -/
noncomputable def combKey {β : Type} (z : β) (l : List Nat) : (Nat → β) → β :=
  List.rec (motive := fun _ => (Nat → β) → β) (fun k => k 0)
    (fun x _ ih k => cif (Nat.blt x 340282366920938463463374607431768211456)
      (ih fun n => k (Nat.add x (Nat.mul 340282366920938463463374607431768211456 n))) z) l

/-- Collected terms by key, with positive and negative weight. -/
inductive Tree
  | leaf
  | node (l : Tree) (k : Nat) (fs : List Fac) (p n : Nat) (r : Tree)

/-- Add a term. -/
noncomputable def Tree.insert {β : Type} (k : Nat) (fs : List Fac) (p n : Nat) (tr : Tree) : (Tree → β) → β :=
  Tree.rec (motive := fun _ => (Tree → β) → β)
    (fun K => K (node leaf k fs p n leaf))
    (fun l k' fs' p' n' r ihl ihr K =>
      cif (Nat.beq k k')
        (force (Nat.add p' p) fun p => force (Nat.add n' n) fun n => K (node l k' fs' p n r))
        (cif (Nat.blt k k') (ihl fun l => K (node l k' fs' p' n' r)) (ihr fun r => K (node l k' fs' p' n' r)))) tr

noncomputable def Tree.allZero (tr : Tree) : Bool :=
  Tree.rec (motive := fun _ => Bool) true (fun _ _ _ p n _ ihl ihr => cif (Nat.beq p n) (cif ihl ihr false) false) tr

/-- One term with weight `p - n`, entered under a renaming. -/
noncomputable def addRen (kinds : Nat → Kind) (outs : List Var) (p n : Nat) (fs : List Fac) (w : List Var)
    (R S : Nat) (tr : Tree) (K : Tree → Bool) : Bool :=
  cif (okIx R S w) (cif (okFs R S fs) (cif (eqIx (renIx R w) outs)
    (normFs (K tr) kinds R fs false fun s fs' =>
      combKey false (sortKeys fs') fun key => force key fun key =>
        cif s (tr.insert key fs' n p K) (tr.insert key fs' p n K)) false) false) false

/-- One term with its certificate. -/
noncomputable def addTerm (kinds : Nat → Kind) (outs : List Var) (p n : Nat) (fs : List Fac) (w : List Var)
    (tr : Tree) (cs : List Nat) (K : Tree → List Nat → Bool) : Bool :=
  match cs with
  | R :: S :: cs =>
    cif (Nat.beq R 0)
      (match cs with
        | S₁ :: R₂ :: S₂ :: cs =>
          addRen kinds outs p n fs w S S₁ tr fun tr => addRen kinds outs p n fs w R₂ S₂ tr fun tr => K tr cs
        | _ => false)
      (force (Nat.mul 2 p) fun p => force (Nat.mul 2 n) fun n => addRen kinds outs p n fs w R S tr fun tr => K tr cs)
  | _ => false

/-- The outputs of one einsum; `p - n` is the weight of the einsum. -/
noncomputable def addPs (kinds : Nat → Kind) (outs : List Var) (p n : Nat) (fs : List Fac)
    (ps : List (ℤ × List Var)) : Tree → List Nat → (Tree → List Nat → Bool) → Bool :=
  List.rec (motive := fun _ => Tree → List Nat → (Tree → List Nat → Bool) → Bool)
    (fun tr cs K => K tr cs)
    (fun q _ ih tr cs K =>
      Int.rec (motive := fun _ => Bool)
        (fun m => addTerm kinds outs (Nat.mul m p) (Nat.mul m n) fs q.2 tr cs fun tr cs => ih tr cs K)
        (fun m => addTerm kinds outs (Nat.mul (Nat.succ m) n) (Nat.mul (Nat.succ m) p) fs q.2 tr cs
          fun tr cs => ih tr cs K) q.1) ps

/-- A program; `den` is a common denominator of the coefficients. -/
noncomputable def addProg (kinds : Nat → Kind) (outs : List Var) (den : Nat) (P : Prog) :
    Tree → List Nat → (Tree → List Nat → Bool) → Bool :=
  List.rec (motive := fun _ => Tree → List Nat → (Tree → List Nat → Bool) → Bool)
    (fun tr cs K => K tr cs)
    (fun b _ ih tr cs K =>
      cif (Nat.beq (Nat.mod den b.c.den) 0)
        (Int.rec (motive := fun _ => Bool)
          (fun m => force (Nat.mul m (Nat.div den b.c.den)) fun p =>
            addPs kinds outs p 0 b.fs b.ps tr cs fun tr cs => ih tr cs K)
          (fun m => force (Nat.mul (Nat.succ m) (Nat.div den b.c.den)) fun n =>
            addPs kinds outs 0 n b.fs b.ps tr cs fun tr cs => ih tr cs K) b.c.num)
        false) P

noncomputable def nodupB (l : List Var) : Bool :=
  List.rec (motive := fun _ => Bool) true
    (fun x l ih => cif (List.rec (motive := fun _ => Bool) true (fun y _ ih => cif (Nat.beq x y) false ih) l) ih false) l

/-! Checks on lists, written with recursors for the kernel. -/

/-- `List.all`. -/
noncomputable def allR {α : Type} (p : α → Bool) (l : List α) : Bool :=
  List.rec (motive := fun _ => Bool) true (fun x _ ih => cif (p x) ih false) l

/-- Membership of a letter. -/
noncomputable def memR (x : Var) (l : List Var) : Bool :=
  List.rec (motive := fun _ => Bool) false (fun y _ ih => cif (Nat.beq x y) true ih) l

/-- A letter of some operand. -/
noncomputable def memFs (x : Var) (fs : List Fac) : Bool :=
  List.rec (motive := fun _ => Bool) false (fun f _ ih => cif (memR x f.ix) true ih) fs

/-- Two lists of letters have one in common. -/
noncomputable def meetR (ys xs : List Var) : Bool :=
  List.rec (motive := fun _ => Bool) false (fun x _ ih => cif (memR x ys) true ih) xs

theorem cif_band (a b : Bool) : cif a b false = (a && b) := by cases a <;> rfl

theorem cif_bor (a b : Bool) : cif a true b = (a || b) := by cases a <;> rfl

theorem allR_eq {α : Type} (p : α → Bool) (l : List α) : allR p l = l.all p := by
  induction l with
  | nil => rfl
  | cons x l ih =>
    rw [List.all_cons, ← ih, ← cif_band]
    rfl

theorem memR_eq (x : Var) (l : List Var) : memR x l = l.elem x := by
  induction l with
  | nil => rfl
  | cons y l ih =>
    have e : memR x (y :: l) = cif (Nat.beq x y) true (memR x l) := rfl
    rw [e, ih, cif_bor, List.elem_eq_mem, List.elem_eq_mem, Bool.eq_iff_iff]
    simp only [Bool.or_eq_true, Nat.beq_eq, decide_eq_true_eq, List.mem_cons]

theorem nodupB_eq (l : List Var) : nodupB l = decide l.Nodup := by
  induction l with
  | nil => rfl
  | cons x l ih =>
    have e : nodupB (x :: l) = cif (List.rec (motive := fun _ => Bool) true (fun y _ ih => cif (Nat.beq x y) false ih) l) (nodupB l) false := rfl
    have k : List.rec (motive := fun _ => Bool) true (fun y _ ih => cif (Nat.beq x y) false ih) l = decide (x ∉ l) := by
      clear e ih
      induction l with
      | nil => rfl
      | cons y l ih =>
        show cif (Nat.beq x y) false _ = _
        rw [ih]
        cases h : Nat.beq x y
        · have hn : ¬ x = y := Nat.ne_of_beq_eq_false h
          show decide (x ∉ l) = _
          simp [hn]
        · have hy : x = y := Nat.eq_of_beq_eq_true h
          show false = _
          simp [hy]
    rw [e, k, ih, cif_band, Bool.eq_iff_iff]
    simp only [Bool.and_eq_true, decide_eq_true_eq, List.nodup_cons]

theorem memFs_eq (x : Var) (fs : List Fac) : memFs x fs = (vars fs).elem x := by
  have ins : ∀ (y : Var) (l : List Var), x ∈ insertNew y l ↔ x = y ∨ x ∈ l := by
    intro y l
    unfold insertNew
    split
    · rename_i h
      have hy : y ∈ l := by simpa using h
      exact ⟨.inr, fun h => h.elim (fun e => e ▸ hy) id⟩
    · exact List.mem_cons
  have ix : ∀ (ix acc : List Var), x ∈ varsIx ix acc ↔ x ∈ ix ∨ x ∈ acc := by
    intro ix acc
    induction ix with
    | nil => simp [varsIx]
    | cons y ix ih =>
      have e : varsIx (y :: ix) acc = insertNew y (varsIx ix acc) := rfl
      rw [e, ins, ih, List.mem_cons, or_assoc]
  induction fs with
  | nil => rfl
  | cons f fs ih =>
    have e : memFs x (f :: fs) = cif (memR x f.ix) true (memFs x fs) := rfl
    have e' : vars (f :: fs) = varsIx f.ix (vars fs) := rfl
    rw [e, e', ih, memR_eq, cif_bor, List.elem_eq_mem, List.elem_eq_mem, List.elem_eq_mem, Bool.eq_iff_iff]
    simp only [Bool.or_eq_true, decide_eq_true_eq, ix]

theorem meetR_eq (ys xs : List Var) : meetR ys xs = xs.any fun x => ys.elem x := by
  induction xs with
  | nil => rfl
  | cons x xs ih =>
    rw [List.any_cons, ← ih, ← memR_eq, ← cif_bor]
    rfl

/-- The check: all collected coefficients are zero. -/
noncomputable def isZero (kinds : Nat → Kind) (outs : List Var) (den : Nat) (P : Prog) (cs : List Nat) : Bool :=
  cif (nodupB outs) (cif (Nat.blt 0 den) (addProg kinds outs den P .leaf cs fun tr _ => tr.allZero) false) false

end Verif.Ein
