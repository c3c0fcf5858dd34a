import Verif.Props.WholeDriveEq
import Verif.Props.Weak
import Verif.Props.SpinHigh

/-!
# The equations of `DriveCC` with a diagonal Fock matrix and without interaction
-/

set_option maxRecDepth 100000

namespace Verif.Ein

open Verif.Wick (InBox)

variable {I K : Type} [Field K] [Inhabited I] (D : Nat → Finset I)

/-- Terms with a factor that is zero on its slice can be left out. -/
theorem Prog.eval_skip (T : Nat → List I → K) (c : Fac → Bool) (hz : ∀ f, c f = true → ∀ l : List I, InBox D (f.ix.map sp) l → T f.t l = 0)
    (P : Prog) (ss : List Nat) (ho : P.outSp ss = true) (xs : List I) (hx : InBox D ss xs) :
    Prog.eval D T (P.filter fun b => !b.fs.any c) xs = P.eval D T xs := by
  induction P with
  | nil => rfl
  | cons b P ih =>
    have ho' : Prog.outSp ss P = true := by
      simp only [Prog.outSp, List.all_cons, Bool.and_eq_true] at ho ⊢
      exact ho.2
    rw [List.filter_cons, Prog.eval_cons]
    split
    · rw [Prog.eval_cons, ih ho']
    · next hb =>
      rw [ih ho']
      simp only [Bool.not_eq_true', Bool.not_eq_false, List.any_eq_true] at hb
      obtain ⟨f, hf, hc⟩ := hb
      have e : b.eval D T xs = 0 := by
        unfold Blk.eval
        refine List.sum_eq_zero fun x hx' => ?_
        obtain ⟨p, hp, rfl⟩ := List.mem_map.1 hx'
        have z : sumOver D (dums p.2 b.fs) (evalFs T b.fs) (Ein.bind (fun _ => default) p.2 xs) =
            sumOver D (dums p.2 b.fs) (fun _ => 0) (Ein.bind (fun _ => default) p.2 xs) := by
          simp only [Prog.outSp, List.all_cons, Bool.and_eq_true, List.all_eq_true, decide_eq_true_eq] at ho
          refine sumOver_range D _ _ _ (vars b.fs) _ (fun v hv => ?_) fun ρ' hρ => ?_
          · by_cases hw : v ∈ p.2
            · exact Or.inr (bind_range D p.2 _ xs (by rw [ho.1 p hp]; exact hx) v (Or.inl hw))
            · exact Or.inl ((mem_dums _ _ _).2 ⟨hv, hw⟩)
          · have key : ∀ fs : List Fac, f ∈ fs → evalFs T fs ρ' = 0 := by
              intro fs
              induction fs with
              | nil => intro h; simp at h
              | cons g fs ih =>
                intro h
                rcases List.mem_cons.1 h with rfl | h
                · simp only [evalFs]
                  rw [hz f hc _ (inBox_map D ρ' f.ix fun v hv => hρ v (mem_vars_of_fac hf hv)), zero_mul]
                · simp only [evalFs]
                  rw [ih h, mul_zero]
            exact key b.fs hf
        have s0 : ∀ (L : List Var) (ρ : Var → I), sumOver D L (fun _ => (0 : K)) ρ = 0 := by
          intro L
          induction L with
          | nil => intro ρ; rfl
          | cons x L ih => intro ρ; simp only [sumOver, ih, Finset.sum_const_zero]
        simp only [termVal, z, s0, mul_zero]
      rw [e, zero_add]

end Verif.Ein

namespace Verif.Props

open Verif.Ein Verif.UT2 Verif.WholeDrive
open Verif.Wick (InBox)

variable {I : Type} [DecidableEq I] [Inhabited I] (D : Nat → Finset I)

/-- The Fock matrix is diagonal, with the orbital energies `ε`. -/
def DiagF (ε : I → ℝ) (S : SO I ℝ) : Prop := ∀ p ∈ D 0 ∪ D 1, ∀ q ∈ D 0 ∪ D 1, S.f p q = if p = q then ε p else 0

/-- The factor with which the equations for the triples and quadruples contain their diagonal part: `83333333/10^9` is printed for 1/12
(`ccsdt_eqns.py` 71, 75) and `1736111/(25·10^7)` for 1/144 (`ccdq_eqns.py`). -/
noncomputable def kappa (t : Nat) : ℝ := if t = 47 then 249999999 / 250000000 else if t = 55 then 15624999 / 15625000 else 1

/-- A Fock factor between an occupied and a virtual orbital. -/
def offFock (f : Fac) : Bool := Nat.beq f.t 15 && (decide (f.ix.map sp = [0, 1]) || decide (f.ix.map sp = [1, 0]))

variable {D} {ε : I → ℝ} {B : SO I ℝ}

omit [Inhabited I] in
theorem DiagF.off (hf : DiagF D ε B) (hg : ∀ i ∈ D 0, ∀ a ∈ D 1, ε i < ε a) (i a : I) (hi : i ∈ D 0) (ha : a ∈ D 1) : B.f i a = 0 ∧ B.f a i = 0 := by
  have hne : i ≠ a := fun e => by have := hg i hi a ha; rw [e] at this; exact lt_irrefl _ this
  rw [hf i (Finset.mem_union_left _ hi) a (Finset.mem_union_right _ ha), hf a (Finset.mem_union_right _ ha) i (Finset.mem_union_left _ hi),
    if_neg hne, if_neg hne.symm]
  exact ⟨rfl, rfl⟩

omit [Inhabited I] in
theorem DiagF.offT (hf : DiagF D ε B) (hg : ∀ i ∈ D 0, ∀ a ∈ D 1, ε i < ε a) (f : Fac) (hc : offFock f = true) (l : List I)
    (hl : InBox D (f.ix.map sp) l) : B.T f.t l = 0 := by
  simp only [offFock, Bool.and_eq_true, Bool.or_eq_true, decide_eq_true_eq, Nat.beq_eq] at hc
  obtain ⟨ht, hs⟩ := hc
  rw [ht]
  rcases hs with hs | hs <;> rw [hs] at hl
  · match l, hl with
    | [i, a], hl =>
      simp only [InBox, List.forall₂_cons, List.forall₂_nil_right_iff] at hl
      exact (hf.off hg i a hl.1 hl.2.1).1
  · match l, hl with
    | [a, i], hl =>
      simp only [InBox, List.forall₂_cons, List.forall₂_nil_right_iff] at hl
      exact (hf.off hg i a hl.2.1 hl.1).2

omit [Inhabited I] in
theorem DiagF.row (hf : DiagF D ε B) (s : Nat) (hs : D s ⊆ D 0 ∪ D 1) (x : I) (hx : x ∈ D s) (g : I → ℝ) :
    ∑ y ∈ D s, B.f x y * g y = ε x * g x ∧ ∑ y ∈ D s, B.f y x * g y = ε x * g x := by
  constructor
  · refine sum_diag s _ x hx _ g fun y hy => ?_
    rw [hf x (hs hx) y (hs hy)]
    by_cases h : y = x
    · rw [h]
    · rw [if_neg h, if_neg (Ne.symm h)]
  · refine sum_diag s _ x hx _ g fun y hy => ?_
    rw [hf y (hs hy) x (hs hx)]
    by_cases h : y = x
    · rw [h]
    · rw [if_neg h, if_neg h]

variable (hB : B.Sym) (h0 : B.g = fun _ _ _ _ => 0) (hf : DiagF D ε B) (hg : ∀ i ∈ D 0, ∀ a ∈ D 1, ε i < ε a)
include h0 hf hg

/-- The terms that remain without interaction and without Fock elements between occupied and virtual orbitals. -/
theorem fock_terms (P : Prog) (ss : List Nat) (ho : P.outSp ss = true) (xs : List I) (hx : InBox D ss xs) :
    P.eval D B.T xs = Prog.eval D B.T ((P.drop [23]).filter fun b => !b.fs.any offFock) xs := by
  have hz : ∀ t ∈ [23], ∀ l, B.T t l = 0 := by
    intro t ht l
    rw [List.mem_singleton.1 ht]
    have e : B.T 23 l = at4 B.g l := rfl
    rw [e, h0]
    unfold at4
    split <;> rfl
  have ho' : (P.drop [23]).outSp ss = true := by
    simp only [Prog.outSp, Prog.drop, List.all_eq_true] at ho ⊢
    exact fun b hb => ho b (List.mem_of_mem_filter hb)
  rw [Prog.eval_skip D B.T offFock (fun f hc l hl => hf.offT hg f hc l hl) _ ss ho' xs hx, Prog.eval_drop D B.T [23] P xs hz]

theorem fock_t1 (a i : I) (ha : a ∈ D 1) (hi : i ∈ D 0) :
    ccsd_t1resid D B i a = - (-ε a + ε i) * B.t1 a i ∧ ccsdt_t1eqns D B i a = - (-ε a + ε i) * B.t1 a i := by
  have hx : InBox D [0, 1] [i, a] := .cons hi (.cons ha .nil)
  have l0 := Finset.subset_union_left (s₁ := D 0) (s₂ := D 1)
  have l1 := Finset.subset_union_right (s₁ := D 0) (s₂ := D 1)
  have key : Prog.eval D B.T [⟨-1, [⟨15, [0, 2]⟩, ⟨31, [1, 2]⟩], [(1, [0, 1])]⟩, ⟨1, [⟨15, [3, 1]⟩, ⟨31, [3, 0]⟩], [(1, [0, 1])]⟩] [i, a] =
      - (-ε a + ε i) * B.t1 a i := by
    simp [Prog.eval, Blk.eval, termVal, dums, vars, varsIx, insertNew, sumOver, evalFs, SO.T, at2, Ein.bind, Function.update, sp]
    rw [(hf.row 0 l0 i hi _).1, (hf.row 1 l1 a ha _).2]
    ring
  constructor
  · unfold ccsd_t1resid
    rw [fock_terms h0 hf hg _ [0, 1] (by decide +kernel) _ hx]
    exact key
  · unfold ccsdt_t1eqns
    rw [fock_terms h0 hf hg _ [0, 1] (by decide +kernel) _ hx]
    exact key

include hB

theorem fock_t2 (a b i j : I) (ha : a ∈ D 1) (hb : b ∈ D 1) (hi : i ∈ D 0) (hj : j ∈ D 0) :
    ccsd_t2resid D B i j a b = - (-ε a - ε b + ε i + ε j) * B.t2 a b i j ∧ ccsdt_t2eqns D B i j a b = - (-ε a - ε b + ε i + ε j) * B.t2 a b i j ∧
    ccdq_t2eqns D B i j a b = - (-ε a - ε b + ε i + ε j) * B.t2 a b i j := by
  have hx : InBox D [0, 0, 1, 1] [i, j, a, b] := .cons hi (.cons hj (.cons ha (.cons hb .nil)))
  have l0 := Finset.subset_union_left (s₁ := D 0) (s₂ := D 1)
  have l1 := Finset.subset_union_right (s₁ := D 0) (s₂ := D 1)
  have key : Prog.eval D B.T (Prog.through Gen.tamps_antisym_T2 [⟨1/2, [⟨15, [0, 4]⟩, ⟨39, [1, 3, 2, 4]⟩], [(1, [0, 2, 1, 3])]⟩,
      ⟨-1/2, [⟨15, [5, 1]⟩, ⟨39, [3, 5, 0, 2]⟩], [(1, [0, 2, 1, 3])]⟩]) [i, j, a, b] = - (-ε a - ε b + ε i + ε j) * B.t2 a b i j := by
    simp [Gen.tamps_antisym_T2, Prog.through, pick, Prog.eval, Blk.eval, termVal, dums, vars, varsIx, insertNew, sumOver, evalFs, SO.T, at2, at4, Ein.bind,
      Function.update, sp]
    rw [(hf.row 0 l0 i hi _).1, (hf.row 0 l0 i hi _).1, (hf.row 0 l0 j hj _).1, (hf.row 0 l0 j hj _).1, (hf.row 1 l1 a ha _).2, (hf.row 1 l1 a ha _).2,
      (hf.row 1 l1 b hb _).2, (hf.row 1 l1 b hb _).2, hB.t2_anti0 b a i j, hB.t2_anti0 b a j i, hB.t2_anti2 a b j i]
    ring
  refine ⟨?_, ?_, ?_⟩
  · unfold ccsd_t2resid
    rw [fock_terms h0 hf hg _ [0, 0, 1, 1] (by decide +kernel) _ hx]
    exact key
  · unfold ccsdt_t2eqns
    rw [fock_terms h0 hf hg _ [0, 0, 1, 1] (by decide +kernel) _ hx]
    exact key
  · unfold ccdq_t2eqns
    rw [fock_terms h0 hf hg _ [0, 0, 1, 1] (by decide +kernel) _ hx]
    exact key

/-! ## triples and quadruples -/

section high
open Verif.Gen

/-- The terms `f t3` of `ccsdt_t3eqns` before they are antisymmetrised. -/
def fockT3 : Prog := [⟨-83333333/1000000000, [⟨15, [0, 6]⟩, ⟨47, [1, 3, 5, 2, 4, 6]⟩], [(1, [0, 2, 4, 1, 3, 5])]⟩,
  ⟨83333333/1000000000, [⟨15, [7, 1]⟩, ⟨47, [3, 5, 7, 0, 2, 4]⟩], [(1, [0, 2, 4, 1, 3, 5])]⟩]

/-- The terms `f t4` of `ccdq_t4eqns`. -/
def fockT4 : Prog := [⟨1736111/250000000, [⟨15, [0, 8]⟩, ⟨55, [1, 3, 5, 7, 2, 4, 6, 8]⟩], [(1, [0, 2, 4, 6, 1, 3, 5, 7])]⟩,
  ⟨-1736111/250000000, [⟨15, [9, 1]⟩, ⟨55, [3, 5, 7, 9, 0, 2, 4, 6]⟩], [(1, [0, 2, 4, 6, 1, 3, 5, 7])]⟩]

def split_fock3 : List Split := [⟨[0], ro3_4, ho3_5, rv3_6, allv3⟩, ⟨[1], ro3_7, allo3, rv3_8, hv3_9⟩]
def split_fock4 : List Split := [⟨[0], ro4_14, ho4_15, rv4_16, allv4⟩, ⟨[1], ro4_17, allo4, rv4_18, hv4_19⟩]

def fock_cert_0 : List Nat × List Nat := ([417753473088, 417753473088, 417719926848, 417719926848, 417753473088, 417753473088],
  [417753473088, 417753473088, 415606513728, 415606513728, 417752948928, 417752948928, 415605465408, 413459030208, 413459030208,
    415605465408, 413458506048, 413458506048, 417753473088, 417753473088])

def fock_cert_1 : List Nat × List Nat := ([30791762190400, 30791762190400, 30791728644160, 30791728644160, 30791762182210, 30791762182210,
    30791728627780, 30791695089730, 30791695089730, 30791728627780, 30791695081540, 30791695081540, 30791762190400, 30791762190400],
  [30791762190400, 30791762190400, 30789615231040, 30789615231040, 30791762190400, 30791762190400])

def fock_cert_2 : List Nat × List Nat := ([2283003892736064, 2283003892736064, 2282866487337024, 2282866487337024, 2283003859189824,
    2283003859189824, 2282866420244544, 2282729048391744, 2282729048391744, 2282866420244544, 2282729014845504, 2282729014845504,
    2283003892736064, 2283003892736064],
  [2283003892736064, 2283003892736064, 2274209947197504, 2274209947197504, 2283001745776704, 2283001745776704, 2274205653278784,
    2265413854699584, 2265413854699584, 2274205653278784, 2265411707740224, 2265411707740224, 2283003892211904, 2283003892211904,
    2274209946673344, 2274209946673344, 2283001744728384, 2282999598293184, 2274205651706304, 2256617761677504, 2265413853651264,
    2274203505795264, 2265411706167744, 2256615614718144, 2282999598293184, 2283001744728384, 2274203505795264, 2265413853651264,
    2282999597769024, 2282999597769024, 2274203504746944, 2256617761153344, 2265407412773184, 2265407412773184, 2265407412249024,
    2256613467234624, 2256617761677504, 2274205651706304, 2256615614718144, 2265411706167744, 2256617761153344, 2274203504746944,
    2256615613669824, 2256615613669824, 2256613467234624, 2265407412249024, 2256613466710464, 2256613466710464, 2283003892736064,
    2283003892736064])

def fock_cert_3 : List Nat × List Nat := ([162160790664388672, 162160790664388672, 162160653258989632, 162160653258989632,
    162160790630842432, 162160790630842432, 162160653191897152, 162160515820044352, 162160515820044352, 162160653191897152,
    162160515786498112, 162160515786498112, 162160790664380482, 162160790664380482, 162160653258981442, 162160653258981442,
    162160790630826052, 162160790597288002, 162160653191872582, 162160378381090882, 162160515820027972, 162160653158342722,
    162160515786473542, 162160378347544642, 162160790597288002, 162160790630826052, 162160653158342722, 162160515820027972,
    162160790597279812, 162160790597279812, 162160653158326342, 162160378381082692, 162160515719389252, 162160515719389252,
    162160515719381062, 162160378313990212, 162160378381090882, 162160653191872582, 162160378347544642, 162160515786473542,
    162160378381082692, 162160653158326342, 162160378347528262, 162160378347528262, 162160378313990212, 162160515719381062,
    162160378313982022, 162160378313982022, 162160790664388672, 162160790664388672],
  [162160790664388672, 162160790664388672, 162151996718850112, 162151996718850112, 162160788517429312, 162160788517429312,
    162151992424931392, 162143200626352192, 162143200626352192, 162151992424931392, 162143198479392832, 162143198479392832,
    162160790664388672, 162160790664388672])

omit [DecidableEq I] [Inhabited I] hB h0 hf hg in
theorem split_fock3_anti : antiOk N.kinds [0, 2, 4, 1, 3, 5] 1000000000 fockT3 split_fock3 [fock_cert_0, fock_cert_1] = true := by decide +kernel

omit [DecidableEq I] [Inhabited I] hB h0 hf hg in
theorem split_fock4_anti : antiOk N.kinds [0, 2, 4, 6, 1, 3, 5, 7] 250000000 fockT4 split_fock4 [fock_cert_2, fock_cert_3] = true := by decide +kernel

theorem fock_t3 (a b c i j k : I) (ha : a ∈ D 1) (hb : b ∈ D 1) (hc : c ∈ D 1) (hi : i ∈ D 0) (hj : j ∈ D 0) (hk : k ∈ D 0) :
    UT2.ccsdt_t3eqns D B i j k a b c = - (kappa 47 * (-ε a - ε b - ε c + ε i + ε j + ε k)) * B.t3 a b c i j k := by
  have hx : InBox D [0, 0, 0, 1, 1, 1] [i, j, k, a, b, c] := .cons hi (.cons hj (.cons hk (.cons ha (.cons hb (.cons hc .nil)))))
  have l0 := Finset.subset_union_left (s₁ := D 0) (s₂ := D 1)
  have l1 := Finset.subset_union_right (s₁ := D 0) (s₂ := D 1)
  unfold UT2.ccsdt_t3eqns
  rw [fock_terms h0 hf hg _ [0, 0, 0, 1, 1, 1] (by decide +kernel) _ hx]
  have e : ((Gen.ccsdt_t3eqns.drop [23]).filter fun b => !b.fs.any offFock) = Prog.through tamps_antisym_T3 fockT3 := rfl
  rw [e, Prog.eval_thin D B.T (perm_of_sortRows Cert.all3_rows) (by decide +kernel) (by decide +kernel) split_fock3 (by decide +kernel) _
    (by decide +kernel) (by decide +kernel) (antiOk_eval D B.T N.kinds hB.holds _ _ _ _ _ split_fock3_anti) _ rfl]
  simp [Prog.thin, split_fock3, fockT3, Prog.sel, Split.reps, Prog.scale, compose, rv3_6, ro3_4, rv3_8, ro3_7, ho3_5, hv3_9, allo3, allv3, Prog.through, pick,
    Prog.eval, Blk.eval, termVal, dums, vars, varsIx, insertNew, sumOver, evalFs, SO.T, at2, at6, Ein.bind, Function.update, sp]
  rw [(hf.row 0 l0 i hi _).1, (hf.row 0 l0 j hj _).1, (hf.row 0 l0 k hk _).1, (hf.row 1 l1 a ha _).2, (hf.row 1 l1 b hb _).2, (hf.row 1 l1 c hc _).2]
  rw [hB.t3_anti4 a b c j k i, hB.t3_anti3 a b c j i k, hB.t3_anti4 a b c i k j, hB.t3_anti1 b c a i j k, hB.t3_anti0 b a c i j k,
    hB.t3_anti1 a c b i j k, kappa, if_pos rfl]
  ring

theorem fock_t4 (a b c d i j k l : I) (ha : a ∈ D 1) (hb : b ∈ D 1) (hc : c ∈ D 1) (hd : d ∈ D 1) (hi : i ∈ D 0) (hj : j ∈ D 0) (hk : k ∈ D 0)
    (hl : l ∈ D 0) :
    UT2.ccdq_t4eqns D B i j k l a b c d = - (kappa 55 * (-ε a - ε b - ε c - ε d + ε i + ε j + ε k + ε l)) * B.t4 a b c d i j k l := by
  have hx : InBox D [0, 0, 0, 0, 1, 1, 1, 1] [i, j, k, l, a, b, c, d] :=
    .cons hi (.cons hj (.cons hk (.cons hl (.cons ha (.cons hb (.cons hc (.cons hd .nil)))))))
  have l0 := Finset.subset_union_left (s₁ := D 0) (s₂ := D 1)
  have l1 := Finset.subset_union_right (s₁ := D 0) (s₂ := D 1)
  unfold UT2.ccdq_t4eqns
  rw [fock_terms h0 hf hg _ [0, 0, 0, 0, 1, 1, 1, 1] (by decide +kernel) _ hx]
  have e : ((Gen.ccdq_t4eqns.drop [23]).filter fun b => !b.fs.any offFock) = Prog.through tamps_antisym_T4 fockT4 := rfl
  rw [e, Prog.eval_thin D B.T (perm_of_sortRows Cert.all4_rows) (by decide +kernel) (by decide +kernel) split_fock4 (by decide +kernel) _
    (by decide +kernel) (by decide +kernel) (antiOk_eval D B.T N.kinds hB.holds _ _ _ _ _ split_fock4_anti) _ rfl]
  have n1 : ho4_15.length = 6 := rfl
  have n2 : allv4.length = 24 := rfl
  have n3 : allo4.length = 24 := rfl
  have n4 : hv4_19.length = 6 := rfl
  simp [Prog.thin, split_fock4, fockT4, Prog.sel, Split.reps, Prog.scale, compose, rv4_16, ro4_14, rv4_18, ro4_17, n1, n2, n3, n4, Prog.through, pick,
    Prog.eval, Blk.eval, termVal, dums, vars, varsIx, insertNew, sumOver, evalFs, SO.T, at2, at8, Ein.bind, Function.update, sp]
  rw [(hf.row 0 l0 i hi _).1, (hf.row 0 l0 j hj _).1, (hf.row 0 l0 k hk _).1, (hf.row 0 l0 l hl _).1, (hf.row 1 l1 a ha _).2, (hf.row 1 l1 b hb _).2,
    (hf.row 1 l1 c hc _).2, (hf.row 1 l1 d hd _).2]
  rw [hB.t4_anti6 a b c d j k l i, hB.t4_anti5 a b c d j k i l, hB.t4_anti4 a b c d j i k l, hB.t4_anti6 a b c d i k l j, hB.t4_anti5 a b c d i k j l,
    hB.t4_anti6 a b c d i j l k, hB.t4_anti2 b c d a, hB.t4_anti1 b c a d, hB.t4_anti0 b a c d, hB.t4_anti2 a c d b, hB.t4_anti1 a c b d, hB.t4_anti2 a b d c,
    kappa, if_neg (by decide), if_pos rfl]
  ring

end high

end Verif.Props
