import Verif.Props.WeakFock

/-!
# `DriveCC` with weak interaction (C94)
-/

set_option maxRecDepth 100000

namespace Verif.Props

open Verif.Ein Verif.UT2 Verif.Kernel Verif.Py Verif.WholeDrive Verif.Weak
open Verif.Wick (InBox)

variable {I : Type} [DecidableEq I] [Inhabited I] (D : Nat → Finset I)

/-! ## amplitudes as vectors -/

/-- The arrays a method updates. -/
def lvls : Eqns → List Nat
  | .ccsdt => [31, 39, 47]
  | .ccsd => [31, 39]
  | .ccdq => [39, 55]
  | .ccd => [39]

/-- The axes of the amplitudes: virtual (1) first, then occupied (0). -/
def axesOf (t : Nat) : List Nat :=
  if t = 31 then [1, 0] else if t = 39 then [1, 1, 0, 0] else if t = 47 then [1, 1, 1, 0, 0, 0] else if t = 55 then [1, 1, 1, 1, 0, 0, 0, 0] else []

/-- An entry of an array that the method updates. -/
def InSlot (m : Eqns) (p : Nat × List I) : Prop := p.1 ∈ lvls m ∧ InBox D (axesOf p.1) p.2

abbrev DSlot (m : Eqns) : Type := {p : Nat × List I // InSlot D m p}

omit [DecidableEq I] [Inhabited I] in
theorem box_finite (ss : List Nat) : {l : List I | InBox D ss l}.Finite := by
  induction ss with
  | nil =>
    refine (Set.finite_singleton ([] : List I)).subset fun l hl => ?_
    simpa [InBox] using hl
  | cons s ss ih =>
    refine ((D s).finite_toSet.image2 List.cons ih).subset fun l hl => ?_
    match l, hl with
    | x :: l, hl =>
      simp only [Set.mem_ofPred_eq, InBox, List.forall₂_cons] at hl
      exact ⟨x, hl.1, l, hl.2, rfl⟩

instance (m : Eqns) : Finite (DSlot D m) := by
  have : {p : Nat × List I | InSlot D m p}.Finite := by
    refine ((lvls m).toFinset.finite_toSet.biUnion fun t _ => (box_finite D (axesOf t)).image (Prod.mk t)).subset fun p hp => ?_
    simp only [Set.mem_iUnion]
    exact ⟨p.1, by simpa using hp.1, p.2, hp.2, rfl⟩
  exact this

noncomputable instance (m : Eqns) : Fintype (DSlot D m) := Fintype.ofFinite _

variable {D}

open Classical in
/-- The entry of a vector, zero elsewhere. -/
noncomputable def ext {m : Eqns} (v : DSlot D m → ℝ) (t : Nat) (l : List I) : ℝ := if h : InSlot D m (t, l) then v ⟨(t, l), h⟩ else 0

/-- The integrals of `S` with the amplitudes of a vector. -/
noncomputable def driveAt {m : Eqns} (S : SO I ℝ) (v : DSlot D m → ℝ) : SO I ℝ :=
  { S with
    t1 := fun a i => ext v 31 [a, i]
    t2 := fun a b i j => ext v 39 [a, b, i, j]
    t3 := fun a b c i j k => ext v 47 [a, b, c, i, j, k]
    t4 := fun a b c d i j k l => ext v 55 [a, b, c, d, i, j, k, l] }

/-- The two-electron integrals multiplied by `c`. -/
def scaleW (c : ℝ) (S : SO I ℝ) : SO I ℝ := { S with g := fun p q r s => c * S.g p q r s }

variable {m : Eqns} (v w : DSlot D m → ℝ) (S : SO I ℝ)

omit [DecidableEq I] [Inhabited I] in
theorem ext_mem {t : Nat} {l : List I} (h : InSlot D m (t, l)) : ext v t l = v ⟨(t, l), h⟩ := dif_pos h

omit [DecidableEq I] [Inhabited I] in
theorem ext_off {t : Nat} {l : List I} (h : ¬ InSlot D m (t, l)) : ext v t l = 0 := dif_neg h

omit [DecidableEq I] [Inhabited I] in
theorem ext_add (t : Nat) (l : List I) : ext (v + w) t l = ext v t l + ext w t l := by
  unfold ext
  split
  · rfl
  · rw [add_zero]

omit [DecidableEq I] [Inhabited I] in
theorem ext_smul (c : ℝ) (t : Nat) (l : List I) : ext (c • v) t l = c * ext v t l := by
  unfold ext
  split
  · rfl
  · rw [mul_zero]

omit [DecidableEq I] [Inhabited I] in
theorem ext_tame (t : Nat) (l : List I) : Tame fun v : DSlot D m → ℝ => ext v t l := by
  unfold ext
  split
  · exact Tame.coord _
  · exact Tame.const 0

omit [DecidableEq I] [Inhabited I] in
theorem slot_length {t : Nat} {l : List I} (h : InSlot D m (t, l)) : l.length = (axesOf t).length := h.2.length_eq.symm

omit [DecidableEq I] [Inhabited I] in
theorem driveAt_T (t : Nat) (l : List I) : (driveAt S v).T t l = if t ∈ [31, 39, 47, 55] then ext v t l else S.T t l := by
  split
  · next h =>
    simp only [List.mem_cons, List.not_mem_nil, or_false] at h
    rcases h with rfl | rfl | rfl | rfl
    · show at2 (fun a i => ext v 31 [a, i]) l = _
      unfold at2
      split
      · rfl
      · next h => exact (ext_off v fun hs => by
          have := slot_length hs
          match l, this, h with
          | [a, i], _, h => exact h a i rfl).symm
    · show at4 (fun a b i j => ext v 39 [a, b, i, j]) l = _
      unfold at4
      split
      · rfl
      · next h => exact (ext_off v fun hs => by
          have := slot_length hs
          match l, this, h with
          | [a, b, i, j], _, h => exact h a b i j rfl).symm
    · show at6 (fun a b c i j k => ext v 47 [a, b, c, i, j, k]) l = _
      unfold at6
      split
      · rfl
      · next h => exact (ext_off v fun hs => by
          have := slot_length hs
          match l, this, h with
          | [a, b, c, i, j, k], _, h => exact h a b c i j k rfl).symm
    · show at8 (fun a b c d i j k l => ext v 55 [a, b, c, d, i, j, k, l]) l = _
      unfold at8
      split
      · rfl
      · next h => exact (ext_off v fun hs => by
          have := slot_length hs
          match l, this, h with
          | [a, b, c, d, i, j, k, l], _, h => exact h a b c d i j k l rfl).symm
  · next h =>
    simp only [List.mem_cons, List.not_mem_nil, or_false, not_or] at h
    unfold SO.T driveAt
    simp only [h, if_false]

omit [DecidableEq I] [Inhabited I] in
theorem scaleW_T (c : ℝ) : (∀ t ∉ [23], ∀ l, (scaleW c S).T t l = S.T t l) ∧ ∀ t ∈ [23], ∀ l, (scaleW c S).T t l = c * S.T t l := by
  constructor
  · intro t ht l
    simp only [List.mem_cons, List.not_mem_nil, or_false] at ht
    unfold SO.T scaleW
    simp only [ht, if_false]
  · intro t ht l
    rw [List.mem_singleton.1 ht]
    show at4 (fun p q r s => c * S.g p q r s) l = c * at4 S.g l
    unfold at4
    split
    · rfl
    · rw [mul_zero]

omit [DecidableEq I] [Inhabited I] in
theorem driveAt_tame (t : Nat) (l : List I) : Tame fun v : DSlot D m → ℝ => (driveAt S v).T t l := by
  simp only [driveAt_T]
  split
  · exact ext_tame t l
  · exact Tame.const _

/-- Two entries that differ by an exchange of neighbouring virtual or occupied orbitals. -/
def Swap (t : Nat) (l l' : List I) : Prop :=
  (t = 39 ∧ ∃ a b i j, l = [a, b, i, j] ∧ (l' = [b, a, i, j] ∨ l' = [a, b, j, i])) ∨
  (t = 47 ∧ ∃ a b c i j k, l = [a, b, c, i, j, k] ∧ (l' = [b, a, c, i, j, k] ∨ l' = [a, c, b, i, j, k] ∨ l' = [a, b, c, j, i, k] ∨ l' = [a, b, c, i, k, j])) ∨
  (t = 55 ∧ ∃ a b c d i j k n, l = [a, b, c, d, i, j, k, n] ∧ (l' = [b, a, c, d, i, j, k, n] ∨ l' = [a, c, b, d, i, j, k, n] ∨ l' = [a, b, d, c, i, j, k, n] ∨
    l' = [a, b, c, d, j, i, k, n] ∨ l' = [a, b, c, d, i, k, j, n] ∨ l' = [a, b, c, d, i, j, n, k]))

variable (D m) in
/-- The antisymmetric vectors. -/
noncomputable def antiV : Submodule ℝ (DSlot D m → ℝ) where
  carrier := {v | ∀ t l l', Swap t l l' → ext v t l = - ext v t l'}
  add_mem' {v w} hv hw t l l' h := by rw [ext_add, ext_add, hv t l l' h, hw t l l' h]; ring
  zero_mem' t l l' _ := by
    have e : ∀ l : List I, ext (0 : DSlot D m → ℝ) t l = 0 := fun l => by unfold ext; split <;> rfl
    rw [e, e, neg_zero]
  smul_mem' c v hv t l l' h := by rw [ext_smul, ext_smul, hv t l l' h]; ring

omit [DecidableEq I] [Inhabited I] in
theorem driveAt_sym (hS : S.Sym) (hv : v ∈ antiV D m) : (driveAt S v).Sym where
  f_herm := hS.f_herm
  g_anti0 := hS.g_anti0
  g_anti2 := hS.g_anti2
  g_herm := hS.g_herm
  t2_anti0 a b i j := hv _ _ _ (.inl ⟨rfl, a, b, i, j, rfl, .inl rfl⟩)
  t2_anti2 a b i j := hv _ _ _ (.inl ⟨rfl, a, b, i, j, rfl, .inr rfl⟩)
  t3_anti0 a b c i j k := hv _ _ _ (.inr (.inl ⟨rfl, a, b, c, i, j, k, rfl, .inl rfl⟩))
  t3_anti1 a b c i j k := hv _ _ _ (.inr (.inl ⟨rfl, a, b, c, i, j, k, rfl, .inr (.inl rfl)⟩))
  t3_anti3 a b c i j k := hv _ _ _ (.inr (.inl ⟨rfl, a, b, c, i, j, k, rfl, .inr (.inr (.inl rfl))⟩))
  t3_anti4 a b c i j k := hv _ _ _ (.inr (.inl ⟨rfl, a, b, c, i, j, k, rfl, .inr (.inr (.inr rfl))⟩))
  t4_anti0 a b c d i j k l := hv _ _ _ (.inr (.inr ⟨rfl, a, b, c, d, i, j, k, l, rfl, .inl rfl⟩))
  t4_anti1 a b c d i j k l := hv _ _ _ (.inr (.inr ⟨rfl, a, b, c, d, i, j, k, l, rfl, .inr (.inl rfl)⟩))
  t4_anti2 a b c d i j k l := hv _ _ _ (.inr (.inr ⟨rfl, a, b, c, d, i, j, k, l, rfl, .inr (.inr (.inl rfl))⟩))
  t4_anti4 a b c d i j k l := hv _ _ _ (.inr (.inr ⟨rfl, a, b, c, d, i, j, k, l, rfl, .inr (.inr (.inr (.inl rfl)))⟩))
  t4_anti5 a b c d i j k l := hv _ _ _ (.inr (.inr ⟨rfl, a, b, c, d, i, j, k, l, rfl, .inr (.inr (.inr (.inr (.inl rfl))))⟩))
  t4_anti6 a b c d i j k l := hv _ _ _ (.inr (.inr ⟨rfl, a, b, c, d, i, j, k, l, rfl, .inr (.inr (.inr (.inr (.inr rfl))))⟩))
  l2_anti0 := hS.l2_anti0
  l2_anti2 := hS.l2_anti2
  l3_anti0 := hS.l3_anti0
  l3_anti1 := hS.l3_anti1
  l3_anti3 := hS.l3_anti3
  l3_anti4 := hS.l3_anti4
  l4_anti0 := hS.l4_anti0
  l4_anti1 := hS.l4_anti1
  l4_anti2 := hS.l4_anti2
  l4_anti4 := hS.l4_anti4
  l4_anti5 := hS.l4_anti5
  l4_anti6 := hS.l4_anti6

variable (D m) in
/-- The amplitudes as a vector. -/
noncomputable def packD (B : SO I ℝ) : DSlot D m → ℝ := fun s => B.T s.1.1 s.1.2

omit [DecidableEq I] [Inhabited I] in
theorem swap_slot {t : Nat} {l l' : List I} (h : Swap t l l') : InSlot D m (t, l) ↔ InSlot D m (t, l') := by
  refine and_congr Iff.rfl ?_
  rcases h with ⟨rfl, a, b, i, j, rfl, h⟩ | ⟨rfl, a, b, c, i, j, k, rfl, h⟩ | ⟨rfl, a, b, c, d, i, j, k, n, rfl, h⟩
  · rcases h with rfl | rfl <;> simp only [InBox, axesOf, reduceIte, Nat.reduceEqDiff, List.forall₂_cons] <;> tauto
  · rcases h with rfl | rfl | rfl | rfl <;> simp only [InBox, axesOf, reduceIte, Nat.reduceEqDiff, List.forall₂_cons] <;> tauto
  · rcases h with rfl | rfl | rfl | rfl | rfl | rfl <;> simp only [InBox, axesOf, reduceIte, Nat.reduceEqDiff, List.forall₂_cons] <;> tauto

omit [DecidableEq I] [Inhabited I] in
theorem packD_anti (B : SO I ℝ) (hB : B.Sym) : packD D m B ∈ antiV D m := by
  intro t l l' h
  by_cases hs : InSlot D m (t, l)
  · rw [ext_mem _ hs, ext_mem _ ((swap_slot h).1 hs)]
    show B.T t l = - B.T t l'
    rcases h with ⟨rfl, a, b, i, j, rfl, h⟩ | ⟨rfl, a, b, c, i, j, k, rfl, h⟩ | ⟨rfl, a, b, c, d, i, j, k, n, rfl, h⟩
    · rcases h with rfl | rfl
      exacts [hB.t2_anti0 _ _ _ _, hB.t2_anti2 _ _ _ _]
    · rcases h with rfl | rfl | rfl | rfl
      exacts [hB.t3_anti0 _ _ _ _ _ _, hB.t3_anti1 _ _ _ _ _ _, hB.t3_anti3 _ _ _ _ _ _, hB.t3_anti4 _ _ _ _ _ _]
    · rcases h with rfl | rfl | rfl | rfl | rfl | rfl
      exacts [hB.t4_anti0 _ _ _ _ _ _ _ _, hB.t4_anti1 _ _ _ _ _ _ _ _, hB.t4_anti2 _ _ _ _ _ _ _ _, hB.t4_anti4 _ _ _ _ _ _ _ _,
        hB.t4_anti5 _ _ _ _ _ _ _ _, hB.t4_anti6 _ _ _ _ _ _ _ _]
  · rw [ext_off _ hs, ext_off _ (mt (swap_slot h).2 hs), neg_zero]

/-! ## the equations of a method -/

/-- The equations for an array. -/
def progOf : Eqns → Nat → Prog
  | .ccsdt, t => if t = 31 then Gen.ccsdt_t1eqns else if t = 39 then Gen.ccsdt_t2eqns else Gen.ccsdt_t3eqns
  | .ccsd, t => if t = 31 then Gen.ccsd_t1resid else Gen.ccsd_t2resid
  | .ccdq, t => if t = 39 then Gen.ccdq_t2eqns else Gen.ccdq_t4eqns
  | .ccd, _ => Gen.ccsd_t2resid

/-- The arrays that are read. -/
def inputOf : Eqns → SO I ℝ → SO I ℝ
  | .ccd, B => noSingles B
  | _, B => B

/-- The occupied orbitals of an entry first. -/
def rotL : List I → List I
  | [a, i] => [i, a]
  | [a, b, i, j] => [i, j, a, b]
  | [a, b, c, i, j, k] => [i, j, k, a, b, c]
  | [a, b, c, d, i, j, k, l] => [i, j, k, l, a, b, c, d]
  | l => l

/-- Energies of the occupied minus energies of the virtual orbitals of an entry. -/
noncomputable def gapOf (ε : I → ℝ) : List I → ℝ
  | [a, i] => -ε a + ε i
  | [a, b, i, j] => -ε a - ε b + ε i + ε j
  | [a, b, c, i, j, k] => -ε a - ε b - ε c + ε i + ε j + ε k
  | [a, b, c, d, i, j, k, l] => -ε a - ε b - ε c - ε d + ε i + ε j + ε k + ε l
  | _ => 0

/-- What the equations of a method read. -/
def okFac (m : Eqns) (f : Fac) : Bool :=
  [15, 23].elem f.t || ((lvls m).elem f.t && decide (f.ix.map sp = axesOf f.t)) || (decide (m = .ccd) && Nat.beq f.t 31)

def axesRot (t : Nat) : List Nat :=
  if t = 31 then [0, 1] else if t = 39 then [0, 0, 1, 1] else if t = 47 then [0, 0, 0, 1, 1, 1] else [0, 0, 0, 0, 1, 1, 1, 1]

theorem progOf_ok (m : Eqns) : ∀ t ∈ lvls m, (progOf m t).allFac (okFac m) = true ∧ (progOf m t).outSp (axesRot t) = true ∧
    (progOf m t).readsLe [23] = true := by
  cases m <;> intro t ht <;> simp only [lvls, List.mem_cons, List.not_mem_nil, or_false] at ht
  · rcases ht with rfl | rfl | rfl <;> refine ⟨?_, ?_, ?_⟩ <;> decide +kernel
  · rcases ht with rfl | rfl <;> refine ⟨?_, ?_, ?_⟩ <;> decide +kernel
  · rcases ht with rfl | rfl <;> refine ⟨?_, ?_, ?_⟩ <;> decide +kernel
  · rcases ht with rfl; refine ⟨?_, ?_, ?_⟩ <;> decide +kernel

theorem lvls_sub (m : Eqns) : ∀ t ∈ lvls m, t ∈ [31, 39, 47, 55] := by cases m <;> decide

omit [DecidableEq I] [Inhabited I] in
/-- The entries of an array, one by one. -/
theorem slot_cases {P : Nat → List I → Prop} (m : Eqns)
    (h1 : 31 ∈ lvls m → ∀ a ∈ D 1, ∀ i ∈ D 0, P 31 [a, i])
    (h2 : 39 ∈ lvls m → ∀ a ∈ D 1, ∀ b ∈ D 1, ∀ i ∈ D 0, ∀ j ∈ D 0, P 39 [a, b, i, j])
    (h3 : 47 ∈ lvls m → ∀ a ∈ D 1, ∀ b ∈ D 1, ∀ c ∈ D 1, ∀ i ∈ D 0, ∀ j ∈ D 0, ∀ k ∈ D 0, P 47 [a, b, c, i, j, k])
    (h4 : 55 ∈ lvls m → ∀ a ∈ D 1, ∀ b ∈ D 1, ∀ c ∈ D 1, ∀ d ∈ D 1, ∀ i ∈ D 0, ∀ j ∈ D 0, ∀ k ∈ D 0, ∀ l ∈ D 0, P 55 [a, b, c, d, i, j, k, l])
    (t : Nat) (l : List I) (h : InSlot D m (t, l)) : P t l := by
  obtain ⟨ht, hl⟩ := h
  have ht' := lvls_sub m t ht
  simp only [List.mem_cons, List.not_mem_nil, or_false] at ht'
  simp only at ht hl
  rcases ht' with rfl | rfl | rfl | rfl
  · match l, hl with
    | [a, i], .cons ha (.cons hi .nil) => exact h1 ht a ha i hi
  · match l, hl with
    | [a, b, i, j], .cons ha (.cons hb (.cons hi (.cons hj .nil))) => exact h2 ht a ha b hb i hi j hj
  · match l, hl with
    | [a, b, c, i, j, k], .cons ha (.cons hb (.cons hc (.cons hi (.cons hj (.cons hk .nil))))) => exact h3 ht a ha b hb c hc i hi j hj k hk
  · match l, hl with
    | [a, b, c, d, i, j, k, l], .cons ha (.cons hb (.cons hc (.cons hd (.cons hi (.cons hj (.cons hk (.cons hl .nil))))))) =>
      exact h4 ht a ha b hb c hc d hd i hi j hj k hk l hl

omit [DecidableEq I] [Inhabited I] in
theorem slot1 {a i : I} (h : 31 ∈ lvls m) (ha : a ∈ D 1) (hi : i ∈ D 0) : InSlot D m (31, [a, i]) := ⟨h, .cons ha (.cons hi .nil)⟩

omit [DecidableEq I] [Inhabited I] in
theorem slot2 {a b i j : I} (h : 39 ∈ lvls m) (ha : a ∈ D 1) (hb : b ∈ D 1) (hi : i ∈ D 0) (hj : j ∈ D 0) : InSlot D m (39, [a, b, i, j]) :=
  ⟨h, .cons ha (.cons hb (.cons hi (.cons hj .nil)))⟩

omit [DecidableEq I] [Inhabited I] in
theorem slot3 {a b c i j k : I} (h : 47 ∈ lvls m) (ha : a ∈ D 1) (hb : b ∈ D 1) (hc : c ∈ D 1) (hi : i ∈ D 0) (hj : j ∈ D 0) (hk : k ∈ D 0) :
    InSlot D m (47, [a, b, c, i, j, k]) := ⟨h, .cons ha (.cons hb (.cons hc (.cons hi (.cons hj (.cons hk .nil)))))⟩

omit [DecidableEq I] [Inhabited I] in
theorem slot4 {a b c d i j k l : I} (h : 55 ∈ lvls m) (ha : a ∈ D 1) (hb : b ∈ D 1) (hc : c ∈ D 1) (hd : d ∈ D 1) (hi : i ∈ D 0) (hj : j ∈ D 0)
    (hk : k ∈ D 0) (hl : l ∈ D 0) : InSlot D m (55, [a, b, c, d, i, j, k, l]) :=
  ⟨h, .cons ha (.cons hb (.cons hc (.cons hd (.cons hi (.cons hj (.cons hk (.cons hl .nil)))))))⟩

omit [DecidableEq I] [Inhabited I] in
theorem slot_rot {t : Nat} {l : List I} (h : InSlot D m (t, l)) : InBox D (axesRot t) (rotL l) := by
  refine slot_cases (P := fun t l => InBox D (axesRot t) (rotL l)) m ?_ ?_ ?_ ?_ t l h
  · exact fun _ a ha i hi => .cons hi (.cons ha .nil)
  · exact fun _ a ha b hb i hi j hj => .cons hi (.cons hj (.cons ha (.cons hb .nil)))
  · exact fun _ a ha b hb c hc i hi j hj k hk => .cons hi (.cons hj (.cons hk (.cons ha (.cons hb (.cons hc .nil)))))
  · exact fun _ a ha b hb c hc d hd i hi j hj k hk l hl => .cons hi (.cons hj (.cons hk (.cons hl (.cons ha (.cons hb (.cons hc (.cons hd .nil)))))))

omit [DecidableEq I] [Inhabited I] in
theorem gapOf_neg {ε : I → ℝ} (hg : ∀ i ∈ D 0, ∀ a ∈ D 1, ε i < ε a) {t : Nat} {l : List I} (h : InSlot D m (t, l)) : gapOf ε l < 0 := by
  refine slot_cases (P := fun _ l => gapOf ε l < 0) m ?_ ?_ ?_ ?_ t l h
  · intro _ a ha i hi
    have := hg i hi a ha
    simp only [gapOf]; linarith
  · intro _ a ha b hb i hi j hj
    have := hg i hi a ha; have := hg j hj b hb
    simp only [gapOf]; linarith
  · intro _ a ha b hb c hc i hi j hj k hk
    have := hg i hi a ha; have := hg j hj b hb; have := hg k hk c hc
    simp only [gapOf]; linarith
  · intro _ a ha b hb c hc d hd i hi j hj k hk l hl
    have := hg i hi a ha; have := hg j hj b hb; have := hg k hk c hc; have := hg l hl d hd
    simp only [gapOf]; linarith

omit [DecidableEq I] in
/-- One pass, entry by entry. -/
theorem pass_entry (ε : I → ℝ) (B : SO I ℝ) {t : Nat} {l : List I} (h : InSlot D m (t, l)) :
    (WholeDrive.pass D m ε B).T t l = WholeDrive.next (1 / gapOf ε l) ((progOf m t).eval D (inputOf m B).T (rotL l)) (B.T t l) := by
  refine slot_cases (P := fun t l => (WholeDrive.pass D m ε B).T t l =
    WholeDrive.next (1 / gapOf ε l) ((progOf m t).eval D (inputOf m B).T (rotL l)) (B.T t l)) m ?_ ?_ ?_ ?_ t l h
  · intro ht a _ i _
    cases m <;> simp only [lvls, List.mem_cons, List.not_mem_nil, or_false] at ht
    · rfl
    · rfl
    · omega
    · omega
  · intro ht a _ b _ i _ j _
    cases m <;> rfl
  · intro ht a _ b _ c _ i _ j _ k _
    cases m <;> simp only [lvls, List.mem_cons, List.not_mem_nil, or_false] at ht
    · rfl
    · omega
    · omega
    · omega
  · intro ht a _ b _ c _ d _ i _ j _ k _ l _
    cases m <;> simp only [lvls, List.mem_cons, List.not_mem_nil, or_false] at ht
    · omega
    · omega
    · rfl
    · omega

/-- Without interaction. -/
theorem fock_entry {ε : I → ℝ} {B : SO I ℝ} (hB : B.Sym) (h0 : B.g = fun _ _ _ _ => 0) (hf : DiagF D ε B) (hg : ∀ i ∈ D 0, ∀ a ∈ D 1, ε i < ε a)
    {t : Nat} {l : List I} (h : InSlot D m (t, l)) : (progOf m t).eval D B.T (rotL l) = - (kappa t * gapOf ε l) * B.T t l := by
  have k1 : kappa 31 = 1 := by unfold kappa; rw [if_neg (by decide), if_neg (by decide)]
  have k2 : kappa 39 = 1 := by unfold kappa; rw [if_neg (by decide), if_neg (by decide)]
  refine slot_cases (P := fun t l => (progOf m t).eval D B.T (rotL l) = - (kappa t * gapOf ε l) * B.T t l) m ?_ ?_ ?_ ?_ t l h
  · intro ht a ha i hi
    rw [k1, one_mul]
    obtain ⟨e1, e2⟩ := fock_t1 h0 hf hg a i ha hi
    cases m <;> simp only [lvls, List.mem_cons, List.not_mem_nil, or_false] at ht
    · exact e2
    · exact e1
    · omega
    · omega
  · intro ht a ha b hb i hi j hj
    rw [k2, one_mul]
    obtain ⟨e1, e2, e3⟩ := fock_t2 hB h0 hf hg a b i j ha hb hi hj
    cases m
    · exact e2
    · exact e1
    · exact e3
    · exact e1
  · intro ht a ha b hb c hc i hi j hj k hk
    have e := fock_t3 hB h0 hf hg a b c i j k ha hb hc hi hj hk
    cases m <;> simp only [lvls, List.mem_cons, List.not_mem_nil, or_false] at ht
    · exact e
    · omega
    · omega
    · omega
  · intro ht a ha b hb c hc d hd i hi j hj k hk l hl
    have e := fock_t4 hB h0 hf hg a b c d i j k l ha hb hc hd hi hj hk hl
    cases m <;> simp only [lvls, List.mem_cons, List.not_mem_nil, or_false] at ht
    · omega
    · omega
    · exact e
    · omega

/-! ## passes as maps of vectors -/

/-- The part of a pass that is due to the interaction. -/
noncomputable def driveQ (ε : I → ℝ) (S : SO I ℝ) (v : DSlot D m → ℝ) : DSlot D m → ℝ := fun s =>
  ((progOf m s.1.1).eval D (driveAt S v).T (rotL s.1.2) - (progOf m s.1.1).eval D (driveAt (scaleW 0 S) v).T (rotL s.1.2)) * (1 / gapOf ε s.1.2)

/-- The part that the printed decimals leave of the amplitudes. -/
noncomputable def driveδ : DSlot D m → ℝ := fun s => 1 - kappa s.1.1

omit [DecidableEq I] in
theorem driveQ_tame (ε : I → ℝ) (S : SO I ℝ) (s : DSlot D m) : Tame fun v => driveQ ε S v s := by
  unfold driveQ
  have e := fun S : SO I ℝ => Prog.eval_tame D (fun v : DSlot D m → ℝ => (driveAt S v).T) (driveAt_tame S) (progOf m s.1.1) (rotL s.1.2)
  refine (congrArg Tame (funext fun v => ?_)).mp (((e S).add ((e (scaleW 0 S)).smul (-1))).mul (Tame.const (1 / gapOf ε s.1.2)))
  ring

/-- Arrays with the integrals of `S`, the interaction multiplied by `c`, and the amplitudes of a vector. -/
structure DHolds (S : SO I ℝ) (c : ℝ) (v : DSlot D m → ℝ) (B : SO I ℝ) : Prop where
  sym : B.Sym
  f : B.f = S.f
  g : B.g = (scaleW c S).g
  amps : ∀ t l, InSlot D m (t, l) → B.T t l = ext v t l

omit [DecidableEq I] [Inhabited I] in
theorem DHolds.packed {S B : SO I ℝ} {c : ℝ} {v : DSlot D m → ℝ} (h : DHolds S c v B) : packD D m B = v := by
  funext ⟨⟨t, l⟩, hs⟩
  exact (h.amps t l hs).trans (ext_mem v hs)

omit [DecidableEq I] [Inhabited I] in
theorem DHolds.anti {S B : SO I ℝ} {c : ℝ} {v : DSlot D m → ℝ} (h : DHolds S c v B) : v ∈ antiV D m := h.packed ▸ packD_anti B h.sym

omit [DecidableEq I] [Inhabited I] in
theorem scaleW_sym (c : ℝ) (hS : S.Sym) : (scaleW c S).Sym :=
  { hS with
    g_anti0 := fun p q r s => by simp only [scaleW]; rw [hS.g_anti0]; ring
    g_anti2 := fun p q r s => by simp only [scaleW]; rw [hS.g_anti2]; ring
    g_herm := fun p q r s => by simp only [scaleW]; rw [hS.g_herm] }

omit [DecidableEq I] [Inhabited I] in
theorem DHolds.of (hS : S.Sym) (c : ℝ) (hv : v ∈ antiV D m) : DHolds S c v (driveAt (scaleW c S) v) where
  sym := driveAt_sym v _ (scaleW_sym S c hS) hv
  f := rfl
  g := rfl
  amps t l h := by rw [driveAt_T, if_pos (lvls_sub m t h.1)]

omit [DecidableEq I] in
/-- The equations read nothing else. -/
theorem DHolds.eval {S B : SO I ℝ} {c : ℝ} {v : DSlot D m → ℝ} (h : DHolds S c v B) {t : Nat} {l : List I} (hs : InSlot D m (t, l)) :
    (progOf m t).eval D (inputOf m B).T (rotL l) = (progOf m t).eval D (driveAt (scaleW c S) v).T (rotL l) := by
  obtain ⟨o1, o2, -⟩ := progOf_ok m t hs.1
  refine Prog.eval_local D _ _ _ (okFac m) o1 (fun f hf l' hl => ?_) _ o2 _ (slot_rot hs)
  simp only [okFac, Bool.or_eq_true, Bool.and_eq_true, decide_eq_true_eq, List.elem_iff, Nat.beq_eq] at hf
  have ff : (inputOf m B).f = S.f := by cases m <;> exact h.f
  have gg : (inputOf m B).g = (scaleW c S).g := by cases m <;> exact h.g
  rcases hf with (hf | ⟨hf, hix⟩) | ⟨hm, hf⟩
  · simp only [List.mem_cons, List.not_mem_nil, or_false] at hf
    rcases hf with hf | hf
    · rw [hf]; exact congrArg (at2 · l') ff
    · rw [hf]; exact congrArg (at4 · l') gg
  · rw [hix] at hl
    have e : (inputOf m B).T f.t l' = B.T f.t l' := by
      cases m with
      | ccd => rw [List.mem_singleton.1 hf]; rfl
      | _ => rfl
    rw [e, h.amps f.t l' ⟨hf, hl⟩, driveAt_T, if_pos (lvls_sub m _ hf)]
  · subst hm
    rw [hf, driveAt_T, if_pos (by decide), ext_off v (fun hs => by simpa [lvls] using hs.1)]
    show at2 (fun _ _ => (0 : ℝ)) l' = 0
    unfold at2
    split <;> rfl

section pass

variable {ε : I → ℝ} {S B : SO I ℝ} {c : ℝ} {v : DSlot D m → ℝ} (hS : S.Sym) (hf : DiagF D ε S) (hg : ∀ i ∈ D 0, ∀ a ∈ D 1, ε i < ε a)
include hS hf hg

/-- The residuals. -/
theorem DHolds.resid (h : DHolds S c v B) (s : DSlot D m) :
    (progOf m s.1.1).eval D (inputOf m B).T (rotL s.1.2) = gapOf ε s.1.2 * (damped (driveQ ε S) driveδ c v s - v s) := by
  obtain ⟨⟨t, l⟩, hs⟩ := s
  have hn := (gapOf_neg hg hs).ne
  rw [h.eval hs]
  have sT : ∀ c : ℝ, (∀ t ∉ [23], ∀ l, (driveAt (scaleW c S) v).T t l = (driveAt S v).T t l) ∧
      ∀ t ∈ [23], ∀ l, (driveAt (scaleW c S) v).T t l = c * (driveAt S v).T t l := by
    refine fun c => ⟨fun t ht l => ?_, fun t ht l => ?_⟩
    · rw [driveAt_T, driveAt_T, (scaleW_T S c).1 t ht l]
    · have e : t ∉ [31, 39, 47, 55] := by rw [List.mem_singleton.1 ht]; decide
      rw [driveAt_T, driveAt_T, if_neg e, if_neg e, (scaleW_T S c).2 t ht l]
  rw [Prog.eval_scaled_once D (sT c).1 (sT c).2 (sT 0).1 (fun t ht l => by rw [(sT 0).2 t ht l, zero_mul]) _ (progOf_ok m t hs.1).2.2]
  have hZ := DHolds.of v S hS 0 h.anti
  have e0 := fock_entry hZ.sym (by rw [hZ.g]; funext p q r s; simp [scaleW]) (fun p hp q hq => hf p hp q hq) hg hs
  rw [hZ.amps t l hs, ext_mem v hs] at e0
  simp only [damped, driveQ, driveδ]
  rw [e0]
  field_simp
  ring

/-- One pass. -/
theorem DHolds.pass (h : DHolds S c v B) : DHolds S c (damped (driveQ ε S) driveδ c v) (WholeDrive.pass D m ε B) where
  sym := drive_pass_sym D m ε B h.sym
  f := by cases m <;> exact h.f
  g := by cases m <;> exact h.g
  amps t l hs := by
    have hn := (gapOf_neg hg hs).ne
    rw [pass_entry ε B hs, h.resid hS hf hg ⟨(t, l), hs⟩, h.amps t l hs, ext_mem v hs, ext_mem _ hs]
    unfold WholeDrive.next
    field_simp
    ring

/-- Fixed points are solutions. -/
theorem DHolds.fixed (h : DHolds S c v B) : damped (driveQ ε S) driveδ c v = v ↔ DriveStationary D m ε B := by
  have e : damped (driveQ ε S) driveδ c v = v ↔ ∀ t l, InSlot D m (t, l) → (WholeDrive.pass D m ε B).T t l = B.T t l := by
    constructor
    · intro e t l hs
      rw [(h.pass hS hf hg).amps t l hs, h.amps t l hs, e]
    · intro e
      funext ⟨⟨t, l⟩, hs⟩
      have := e t l hs
      rwa [(h.pass hS hf hg).amps t l hs, h.amps t l hs, ext_mem _ hs, ext_mem _ hs] at this
  rw [e]
  constructor
  · intro e
    refine ⟨?_, ?_, ?_, ?_⟩
    · intro a ha i hi
      by_cases hl : 31 ∈ lvls m
      · exact e 31 [a, i] (slot1 hl ha hi)
      · cases m <;> first | rfl | exact absurd (by decide) hl
    · intro a ha b hb i hi j hj
      exact e 39 [a, b, i, j] (slot2 (by cases m <;> decide) ha hb hi hj)
    · intro a ha b hb c hc i hi j hj k hk
      by_cases hl : 47 ∈ lvls m
      · exact e 47 [a, b, c, i, j, k] (slot3 hl ha hb hc hi hj hk)
      · cases m <;> first | rfl | exact absurd (by decide) hl
    · intro a ha b hb c hc d hd i hi j hj k hk n hn
      by_cases hl : 55 ∈ lvls m
      · exact e 55 [a, b, c, d, i, j, k, n] (slot4 hl ha hb hc hd hi hj hk hn)
      · cases m <;> first | rfl | exact absurd (by decide) hl
  · intro hd
    exact slot_cases (P := fun t l => (WholeDrive.pass D m ε B).T t l = B.T t l) m (fun _ => hd.t1) (fun _ => hd.t2) (fun _ => hd.t3) (fun _ => hd.t4)

end pass

end Verif.Props
