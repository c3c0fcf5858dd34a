import Verif.Wick.Symbolic
import Verif.Wick.Grade
import Verif.Ein.Arrays
import Mathlib.Algebra.BigOperators.Group.Finset.Piecewise
import Mathlib.Algebra.Module.BigOperators
import Mathlib.Data.Nat.Factorial.Basic

/-!
# Hamiltonian and cluster operators

The textbook definitions, for any number of orbitals, and the same operators as lists of terms for `wick`.
-/

namespace Verif.Wick

open Verif.Ein

variable {I K A : Type} [DecidableEq I] [Field K] [Ring A] [Algebra K A] {D : Nat → Finset I}
  (F : Fermi I K A D)

/-- All spin orbitals. -/
def orbs (D : Nat → Finset I) : Finset I := D 0 ∪ D 1

/-- The electronic Hamiltonian, with one-electron integrals `h` and antisymmetrised two-electron integrals
`g p q r s = <pq||rs>`. -/
def Fermi.ham (h : I → I → K) (g : I → I → I → I → K) : A :=
  ∑ p ∈ orbs D, ∑ q ∈ orbs D, h p q • (F.cd p * F.c q) +
  (1 / 4 : K) • ∑ p ∈ orbs D, ∑ q ∈ orbs D, ∑ r ∈ orbs D, ∑ s ∈ orbs D,
    g p q r s • (F.cd p * F.cd q * F.c s * F.c r)

/-- `f` is the Fock matrix of the integrals `h`, `g`. -/
def IsFock (D : Nat → Finset I) (h f : I → I → K) (g : I → I → I → I → K) : Prop :=
  ∀ p q, f p q = h p q + ∑ k ∈ D 0, g p k q k

/-- Cluster operators. -/
def Fermi.T1 (t : I → I → K) : A := ∑ a ∈ D 1, ∑ i ∈ D 0, t a i • (F.cd a * F.c i)

def Fermi.T2 (t : I → I → I → I → K) : A :=
  (1 / 4 : K) • ∑ a ∈ D 1, ∑ b ∈ D 1, ∑ i ∈ D 0, ∑ j ∈ D 0, t a b i j • (F.cd a * F.cd b * F.c j * F.c i)

def Fermi.T3 (t : I → I → I → I → I → I → K) : A :=
  (1 / 36 : K) • ∑ a ∈ D 1, ∑ b ∈ D 1, ∑ c ∈ D 1, ∑ i ∈ D 0, ∑ j ∈ D 0, ∑ k ∈ D 0,
    t a b c i j k • (F.cd a * F.cd b * F.cd c * F.c k * F.c j * F.c i)

def Fermi.T4 (t : I → I → I → I → I → I → I → I → K) : A :=
  (1 / 576 : K) • ∑ a ∈ D 1, ∑ b ∈ D 1, ∑ c ∈ D 1, ∑ d ∈ D 1, ∑ i ∈ D 0, ∑ j ∈ D 0, ∑ k ∈ D 0, ∑ l ∈ D 0,
    t a b c d i j k l • (F.cd a * F.cd b * F.cd c * F.cd d * F.c l * F.c k * F.c j * F.c i)

/-- `⟨Φ_i^a|`, `⟨Φ_ij^ab|`, `⟨Φ_ijk^abc|` as operators to the left of which `⟨Φ|` stands. -/
def Fermi.bra1 (a i : I) : A := F.cd i * F.c a

def Fermi.bra2 (a b i j : I) : A := F.cd i * F.cd j * F.c b * F.c a

def Fermi.bra3 (a b c i j k : I) : A := F.cd i * F.cd j * F.cd k * F.c c * F.c b * F.c a

def Fermi.bra4 (a b c d i j k l : I) : A :=
  F.cd i * F.cd j * F.cd k * F.cd l * F.c d * F.c c * F.c b * F.c a

/-- The exponential series up to the power `N - 1`. -/
def expS (K : Type) {A : Type} [Field K] [Ring A] [Algebra K A] (N : Nat) (x : A) : A :=
  ∑ n ∈ Finset.range N, (1 / (n.factorial : K)) • x ^ n

/-! ## as terms -/

/-- `4 H`, in terms of the Fock matrix. -/
def hamP : OpProg :=
  ([(44, 46), (44, 47), (45, 46), (45, 47)].flatMap fun p =>
    [⟨4, [⟨15, [p.1, p.2]⟩], [(true, p.1), (false, p.2)]⟩,
     ⟨-4, [⟨23, [p.1, 42, p.2, 42]⟩], [(true, p.1), (false, p.2)]⟩]) ++
  ([44, 45].flatMap fun p => [46, 47].flatMap fun q => [48, 49].flatMap fun r => [50, 51].map fun s =>
    ⟨1, [⟨23, [p, q, r, s]⟩], [(true, p), (true, q), (false, s), (false, r)]⟩)

def t1T (k : ℤ) (a i : Var) : OpTerm := ⟨k, [⟨31, [a, i]⟩], [(true, a), (false, i)]⟩

def t2T (k : ℤ) (a b i j : Var) : OpTerm :=
  ⟨k, [⟨39, [a, b, i, j]⟩], [(true, a), (true, b), (false, j), (false, i)]⟩

def t3T (k : ℤ) (a b c i j l : Var) : OpTerm :=
  ⟨k, [⟨47, [a, b, c, i, j, l]⟩], [(true, a), (true, b), (true, c), (false, l), (false, j), (false, i)]⟩

def t4T (k : ℤ) (a b c d i j l m : Var) : OpTerm :=
  ⟨k, [⟨55, [a, b, c, d, i, j, l, m]⟩],
    [(true, a), (true, b), (true, c), (true, d), (false, m), (false, l), (false, j), (false, i)]⟩

/-- Bras; `braT 0` is the bra of the reference. -/
def braT : Nat → OpTerm
  | 0 => ⟨1, [], []⟩
  | 1 => ⟨1, [], [(true, 0), (false, 1)]⟩
  | 2 => ⟨1, [], [(true, 0), (true, 2), (false, 3), (false, 1)]⟩
  | 3 => ⟨1, [], [(true, 0), (true, 2), (true, 4), (false, 5), (false, 3), (false, 1)]⟩
  | _ => ⟨1, [], [(true, 0), (true, 2), (true, 4), (true, 6), (false, 7), (false, 5), (false, 3), (false, 1)]⟩

/-- Output letters. -/
def braW : Nat → List Var
  | 0 => []
  | 1 => [1, 0]
  | 2 => [1, 3, 0, 2]
  | 3 => [1, 3, 5, 0, 2, 4]
  | _ => [1, 3, 5, 7, 0, 2, 4, 6]

/-! ## their values -/

theorem varsIx_nodup (ix : List Var) (h : ix.Nodup) : varsIx ix [] = ix := by
  induction ix with
  | nil => rfl
  | cons x ix ih =>
    rw [List.nodup_cons] at h
    have e : varsIx (x :: ix) [] = insertNew x (varsIx ix []) := rfl
    rw [e, ih h.2, insertNew, if_neg]
    simpa using h.1

theorem dums_one (w : List Var) (t : Nat) (ix : List Var) (h : ix.Nodup) (hw : ∀ v ∈ ix, v ∉ w) :
    dums w [⟨t, ix⟩] = ix := by
  have e : vars [⟨t, ix⟩] = varsIx ix [] := rfl
  unfold dums
  rw [e, varsIx_nodup ix h, List.filter_eq_self]
  intro v hv
  simpa using hw v hv

variable [Inhabited I]

theorem val_one (T : Nat → List I → K) (w : List Var) (xs : List I) (k : ℤ) (t : Nat) (ix : List Var)
    (ops : List (Bool × Var)) (h : ix.Nodup) (hw : ∀ v ∈ ix, v ∉ w) :
    OpTerm.val F T w xs ⟨k, [⟨t, ix⟩], ops⟩ = (k : K) • sumM D ix (fun ρ => T t (ix.map ρ) • F.prod (inst ρ ops))
      (bind (fun _ => default) w xs) := by
  unfold OpTerm.val
  simp only [dums_one w t ix h hw]
  congr 2
  funext ρ
  simp [evalFs]

theorem val_t1 (S : SO I K) (w : List Var) (xs : List I) (k : ℤ) (a i : Var) (ha : sp a = 1) (hi : sp i = 0)
    (hw : ∀ v ∈ [a, i], v ∉ w) : (t1T k a i).val F S.T w xs = (k : K) • F.T1 S.t1 := by
  have hn : a ≠ i := by rintro rfl; omega
  rw [t1T, val_one F _ _ _ _ _ _ _ (by simp [hn]) hw]
  simp [sumM, inst, Fermi.prod, Fermi.op, Fermi.T1, ha, hi, hn, SO.T, at2]

theorem val_t2 (S : SO I K) [CharZero K] (w : List Var) (xs : List I) (k : ℤ) (a b i j : Var) (ha : sp a = 1)
    (hb : sp b = 1) (hi : sp i = 0) (hj : sp j = 0) (hab : a ≠ b) (hij : i ≠ j) (hw : ∀ v ∈ [a, b, i, j], v ∉ w) :
    (t2T k a b i j).val F S.T w xs = (4 * k : K) • F.T2 S.t2 := by
  have h1 : a ≠ i := by rintro rfl; omega
  have h2 : a ≠ j := by rintro rfl; omega
  have h3 : b ≠ i := by rintro rfl; omega
  have h4 : b ≠ j := by rintro rfl; omega
  rw [t2T, val_one F _ _ _ _ _ _ _ (by simp [hab, hij, h1, h2, h3, h4]) hw, Fermi.T2, smul_smul,
    show (4 * k * (1 / 4) : K) = k by field_simp]
  simp [sumM, inst, Fermi.prod, Fermi.op, ha, hb, hi, hj, hab, hij, h1, h2, h3, h4, SO.T, at4, mul_assoc]

theorem val_t3 (S : SO I K) [CharZero K] (w : List Var) (xs : List I) (m : ℤ) (a b c i j k : Var) (ha : sp a = 1)
    (hb : sp b = 1) (hc : sp c = 1) (hi : sp i = 0) (hj : sp j = 0) (hk : sp k = 0) (hab : a ≠ b) (hac : a ≠ c)
    (hbc : b ≠ c) (hij : i ≠ j) (hik : i ≠ k) (hjk : j ≠ k) (hw : ∀ v ∈ [a, b, c, i, j, k], v ∉ w) :
    (t3T m a b c i j k).val F S.T w xs = (36 * m : K) • F.T3 S.t3 := by
  have h1 : a ≠ i := by rintro rfl; omega
  have h2 : a ≠ j := by rintro rfl; omega
  have h3 : a ≠ k := by rintro rfl; omega
  have h4 : b ≠ i := by rintro rfl; omega
  have h5 : b ≠ j := by rintro rfl; omega
  have h6 : b ≠ k := by rintro rfl; omega
  have h7 : c ≠ i := by rintro rfl; omega
  have h8 : c ≠ j := by rintro rfl; omega
  have h9 : c ≠ k := by rintro rfl; omega
  rw [t3T, val_one F _ _ _ _ _ _ _ (by simp [*]) hw, Fermi.T3, smul_smul,
    show (36 * m * (1 / 36) : K) = m by field_simp]
  simp [sumM, inst, Fermi.prod, Fermi.op, ha, hb, hc, hi, hj, hk, hab, hac, hbc, hij, hik, hjk, h1, h2, h3, h4, h5, h6,
    h7, h8, h9, SO.T, at6, mul_assoc]

/-- The sum over letters as an iterated sum over values. -/
def sumL {M : Type} [AddCommMonoid M] (D : Nat → Finset I) : List Var → (List I → M) → M
  | [], g => g []
  | x :: xs, g => ∑ i ∈ D (sp x), sumL D xs fun l => g (i :: l)

omit [DecidableEq I] [Inhabited I] in
theorem sumM_sumL {M : Type} [AddCommMonoid M] (ix : List Var) (h : ix.Nodup) : ∀ (g : List I → M) (ρ : Var → I),
    sumM D ix (fun ρ => g (ix.map ρ)) ρ = sumL D ix g := by
  induction ix with
  | nil => intro g ρ; rfl
  | cons x ix ih =>
    intro g ρ
    rw [List.nodup_cons] at h
    simp only [sumM, sumL]
    refine Finset.sum_congr rfl fun i _ => ?_
    rw [← ih h.2 _ (Function.update ρ x i)]
    refine sumM_congr D _ _ _ _ h.2 fun ρ' hr => ?_
    rw [List.map_cons, hr.2 x h.1, Function.update_self]

theorem val_t4 (S : SO I K) [CharZero K] (w : List Var) (xs : List I) (m : ℤ) (a b c d i j k l : Var) (ha : sp a = 1)
    (hb : sp b = 1) (hc : sp c = 1) (hd : sp d = 1) (hi : sp i = 0) (hj : sp j = 0) (hk : sp k = 0) (hl : sp l = 0)
    (hn : [a, b, c, d, i, j, k, l].Nodup) (hw : ∀ v ∈ [a, b, c, d, i, j, k, l], v ∉ w) :
    (t4T m a b c d i j k l).val F S.T w xs = (576 * m : K) • F.T4 S.t4 := by
  rw [t4T, val_one F _ _ _ _ _ _ _ hn hw, Fermi.T4, smul_smul,
    show (576 * m * (1 / 576) : K) = m by field_simp]
  have e := sumM_sumL (D := D) [a, b, c, d, i, j, k, l] hn (fun x => match x with
    | [a, b, c, d, i, j, k, l] => S.t4 a b c d i j k l • (F.cd a * F.cd b * F.cd c * F.cd d * F.c l * F.c k * F.c j * F.c i)
    | _ => 0) (Ein.bind (fun _ => default) w xs)
  simp only [sumL, ha, hb, hc, hd, hi, hj, hk, hl] at e
  rw [← e]
  congr 2
  funext ρ
  simp [inst, Fermi.prod, Fermi.op, SO.T, at8, mul_assoc]

theorem val_h2 (S : SO I K) (w : List Var) (xs : List I) (k : ℤ) (p q r s : Var)
    (hn : [p, q, r, s].Nodup) (hw : ∀ v ∈ [p, q, r, s], v ∉ w) :
    OpTerm.val F S.T w xs ⟨k, [⟨23, [p, q, r, s]⟩], [(true, p), (true, q), (false, s), (false, r)]⟩ =
      (k : K) • ∑ x ∈ D (sp p), ∑ y ∈ D (sp q), ∑ u ∈ D (sp r), ∑ v ∈ D (sp s),
        S.g x y u v • (F.cd x * F.cd y * F.c v * F.c u) := by
  rw [val_one F _ _ _ _ _ _ _ hn hw]
  simp only [List.nodup_cons, List.mem_cons, List.not_mem_nil, or_false, not_or, not_false_eq_true, List.nodup_nil,
    and_true] at hn
  obtain ⟨⟨h1, h2, h3⟩, ⟨h4, h5⟩, h6⟩ := hn
  simp [sumM, inst, Fermi.prod, Fermi.op, h1, h2, h3, h4, h5, h6, SO.T, at4, mul_assoc]

theorem val_f (S : SO I K) (w : List Var) (xs : List I) (k : ℤ) (p q : Var)
    (hn : [p, q].Nodup) (hw : ∀ v ∈ [p, q], v ∉ w) :
    OpTerm.val F S.T w xs ⟨k, [⟨15, [p, q]⟩], [(true, p), (false, q)]⟩ =
      (k : K) • ∑ x ∈ D (sp p), ∑ y ∈ D (sp q), S.f x y • (F.cd x * F.c y) := by
  rw [val_one F _ _ _ _ _ _ _ hn hw]
  simp only [List.nodup_cons, List.mem_cons, List.not_mem_nil, or_false, not_false_eq_true, List.nodup_nil,
    and_true] at hn
  simp [sumM, inst, Fermi.prod, Fermi.op, hn, SO.T, at2]

theorem val_h1 (S : SO I K) (w : List Var) (xs : List I) (k : ℤ) (p q m : Var)
    (hn : [p, q, m].Nodup) (hw : ∀ v ∈ [p, q, m], v ∉ w) :
    OpTerm.val F S.T w xs ⟨k, [⟨23, [p, m, q, m]⟩], [(true, p), (false, q)]⟩ =
      (k : K) • ∑ x ∈ D (sp p), ∑ y ∈ D (sp q), (∑ z ∈ D (sp m), S.g x z y z) • (F.cd x * F.c y) := by
  simp only [List.nodup_cons, List.mem_cons, List.not_mem_nil, or_false, not_or, not_false_eq_true, List.nodup_nil,
    and_true] at hn
  obtain ⟨⟨h1, h2⟩, h3⟩ := hn
  have hv : vars [⟨23, [p, m, q, m]⟩] = [p, q, m] := by
    simp [vars, varsIx, insertNew, h1, h2, h3]
  have hd : dums w [⟨23, [p, m, q, m]⟩] = [p, q, m] := by
    unfold dums
    rw [hv, List.filter_eq_self]
    intro v h
    simpa using hw v h
  unfold OpTerm.val
  simp only [hd]
  simp [sumM, inst, Fermi.prod, Fermi.op, h1, h2, h3, SO.T, at4, evalFs, Finset.sum_smul]

omit [Inhabited I] in
theorem sum_orbs {M : Type} [AddCommMonoid M] (hD : Disjoint (D 0) (D 1)) (f : I → M) :
    ∑ p ∈ orbs D, f p = ∑ p ∈ D 0, f p + ∑ p ∈ D 1, f p := Finset.sum_union hD

theorem val_ham [CharZero K] (hD : Disjoint (D 0) (D 1)) (S : SO I K) (h : I → I → K) (hf : IsFock D h S.f S.g)
    (w : List Var) (xs : List I) (hw : ∀ v ∈ w, v < 42) :
    hamP.val F S.T w xs = (4 : K) • F.ham h S.g := by
  have hw' : ∀ v, 42 ≤ v → v ∉ w := fun v hv hm => Nat.not_lt.2 hv (hw v hm)
  have e4 : (4 : K) • (1 / 4 : K) • ∑ p ∈ orbs D, ∑ q ∈ orbs D, ∑ r ∈ orbs D, ∑ s ∈ orbs D,
      S.g p q r s • (F.cd p * F.cd q * F.c s * F.c r) = ∑ p ∈ orbs D, ∑ q ∈ orbs D, ∑ r ∈ orbs D, ∑ s ∈ orbs D,
      S.g p q r s • (F.cd p * F.cd q * F.c s * F.c r) := by
    rw [smul_smul, show (4 * (1 / 4) : K) = 1 by norm_num, one_smul]
  have eh : ∀ p q, h p q • (F.cd p * F.c q) =
      S.f p q • (F.cd p * F.c q) - (∑ z ∈ D 0, S.g p z q z) • (F.cd p * F.c q) := by
    intro p q
    rw [hf p q, ← sub_smul]
    congr 1
    ring
  unfold Fermi.ham
  rw [smul_add, e4]
  simp only [eh]
  unfold OpProg.val hamP
  simp only [List.flatMap_cons, List.flatMap_nil, List.map_cons, List.map_nil, List.append_nil, List.cons_append,
    List.nil_append, List.sum_cons, List.sum_nil]
  rw [val_f F S w xs 4 44 46 (by decide) (by intro v hv; apply hw'; revert hv v; decide),
    val_f F S w xs 4 44 47 (by decide) (by intro v hv; apply hw'; revert hv v; decide),
    val_f F S w xs 4 45 46 (by decide) (by intro v hv; apply hw'; revert hv v; decide),
    val_f F S w xs 4 45 47 (by decide) (by intro v hv; apply hw'; revert hv v; decide),
    val_h1 F S w xs (-4) 44 46 42 (by decide) (by intro v hv; apply hw'; revert hv v; decide),
    val_h1 F S w xs (-4) 44 47 42 (by decide) (by intro v hv; apply hw'; revert hv v; decide),
    val_h1 F S w xs (-4) 45 46 42 (by decide) (by intro v hv; apply hw'; revert hv v; decide),
    val_h1 F S w xs (-4) 45 47 42 (by decide) (by intro v hv; apply hw'; revert hv v; decide)]
  rw [val_h2 F S w xs 1 44 46 48 50 (by decide) (by intro v hv; apply hw'; revert hv v; decide),
    val_h2 F S w xs 1 44 46 48 51 (by decide) (by intro v hv; apply hw'; revert hv v; decide),
    val_h2 F S w xs 1 44 46 49 50 (by decide) (by intro v hv; apply hw'; revert hv v; decide),
    val_h2 F S w xs 1 44 46 49 51 (by decide) (by intro v hv; apply hw'; revert hv v; decide),
    val_h2 F S w xs 1 44 47 48 50 (by decide) (by intro v hv; apply hw'; revert hv v; decide),
    val_h2 F S w xs 1 44 47 48 51 (by decide) (by intro v hv; apply hw'; revert hv v; decide),
    val_h2 F S w xs 1 44 47 49 50 (by decide) (by intro v hv; apply hw'; revert hv v; decide),
    val_h2 F S w xs 1 44 47 49 51 (by decide) (by intro v hv; apply hw'; revert hv v; decide),
    val_h2 F S w xs 1 45 46 48 50 (by decide) (by intro v hv; apply hw'; revert hv v; decide),
    val_h2 F S w xs 1 45 46 48 51 (by decide) (by intro v hv; apply hw'; revert hv v; decide),
    val_h2 F S w xs 1 45 46 49 50 (by decide) (by intro v hv; apply hw'; revert hv v; decide),
    val_h2 F S w xs 1 45 46 49 51 (by decide) (by intro v hv; apply hw'; revert hv v; decide),
    val_h2 F S w xs 1 45 47 48 50 (by decide) (by intro v hv; apply hw'; revert hv v; decide),
    val_h2 F S w xs 1 45 47 48 51 (by decide) (by intro v hv; apply hw'; revert hv v; decide),
    val_h2 F S w xs 1 45 47 49 50 (by decide) (by intro v hv; apply hw'; revert hv v; decide),
    val_h2 F S w xs 1 45 47 49 51 (by decide) (by intro v hv; apply hw'; revert hv v; decide)]
  simp only [show sp 42 = 0 from rfl, show sp 44 = 0 from rfl, show sp 45 = 1 from rfl, show sp 46 = 0 from rfl,
    show sp 47 = 1 from rfl, show sp 48 = 0 from rfl, show sp 49 = 1 from rfl, show sp 50 = 0 from rfl,
    show sp 51 = 1 from rfl, sum_orbs hD, Finset.sum_add_distrib, Finset.sum_sub_distrib, smul_add, smul_sub,
    Int.cast_one, one_smul, Int.cast_neg, neg_smul, Int.cast_ofNat]
  abel

/-! ## excitation rank -/

omit [Inhabited I] in
theorem Fermi.T2_Ge (hD : Disjoint (D 0) (D 1)) (t : I → I → I → I → K) : F.T2 t ∈ F.Ge 4 := by
  refine Submodule.smul_mem _ _ (Submodule.sum_mem _ fun a ha => Submodule.sum_mem _ fun b hb => Submodule.sum_mem _
    fun i hi => Submodule.sum_mem _ fun j hj => Submodule.smul_mem _ _ ?_)
  have e : F.cd a * F.cd b * F.c j * F.c i = F.prod [(true, a), (true, b), (false, j), (false, i)] := by
    simp [Fermi.prod, Fermi.op, mul_assoc]
  rw [e]
  have h1 : ∀ x ∈ D 0, x ∉ D 1 := fun x hx => Finset.disjoint_left.1 hD hx
  have h2 : ∀ x ∈ D 1, x ∉ D 0 := fun x hx => Finset.disjoint_right.1 hD hx
  refine F.prod_Ge _ (by simp [inD, ha, hb, hi, hj]) _ ?_
  simp [chg, h1 i hi, h1 j hj, h2 a ha, h2 b hb]

omit [Inhabited I] in
theorem Fermi.T1_Ge (hD : Disjoint (D 0) (D 1)) (t : I → I → K) : F.T1 t ∈ F.Ge 2 := by
  refine Submodule.sum_mem _ fun a ha => Submodule.sum_mem _ fun i hi => Submodule.smul_mem _ _ ?_
  have e : F.cd a * F.c i = F.prod [(true, a), (false, i)] := by
    simp [Fermi.prod, Fermi.op]
  rw [e]
  have h1 : ∀ x ∈ D 0, x ∉ D 1 := fun x hx => Finset.disjoint_left.1 hD hx
  have h2 : ∀ x ∈ D 1, x ∉ D 0 := fun x hx => Finset.disjoint_right.1 hD hx
  refine F.prod_Ge _ (by simp [inD, ha, hi]) _ ?_
  simp [chg, h1 i hi, h2 a ha]

omit [Inhabited I] in
theorem Fermi.T3_Ge (hD : Disjoint (D 0) (D 1)) (t : I → I → I → I → I → I → K) : F.T3 t ∈ F.Ge 6 := by
  refine Submodule.smul_mem _ _ (Submodule.sum_mem _ fun a ha => Submodule.sum_mem _ fun b hb => Submodule.sum_mem _
    fun c hc => Submodule.sum_mem _ fun i hi => Submodule.sum_mem _ fun j hj => Submodule.sum_mem _ fun k hk =>
    Submodule.smul_mem _ _ ?_)
  have e : F.cd a * F.cd b * F.cd c * F.c k * F.c j * F.c i =
      F.prod [(true, a), (true, b), (true, c), (false, k), (false, j), (false, i)] := by
    simp [Fermi.prod, Fermi.op, mul_assoc]
  rw [e]
  have h1 : ∀ x ∈ D 0, x ∉ D 1 := fun x hx => Finset.disjoint_left.1 hD hx
  have h2 : ∀ x ∈ D 1, x ∉ D 0 := fun x hx => Finset.disjoint_right.1 hD hx
  refine F.prod_Ge _ (by simp [inD, ha, hb, hc, hi, hj, hk]) _ ?_
  simp [chg, h1 i hi, h1 j hj, h1 k hk, h2 a ha, h2 b hb, h2 c hc]

omit [Inhabited I] in
theorem Fermi.T4_Ge (hD : Disjoint (D 0) (D 1)) (t : I → I → I → I → I → I → I → I → K) : F.T4 t ∈ F.Ge 8 := by
  refine Submodule.smul_mem _ _ (Submodule.sum_mem _ fun a ha => Submodule.sum_mem _ fun b hb => Submodule.sum_mem _
    fun c hc => Submodule.sum_mem _ fun d hd => Submodule.sum_mem _ fun i hi => Submodule.sum_mem _ fun j hj =>
    Submodule.sum_mem _ fun k hk => Submodule.sum_mem _ fun l hl => Submodule.smul_mem _ _ ?_)
  have e : F.cd a * F.cd b * F.cd c * F.cd d * F.c l * F.c k * F.c j * F.c i =
      F.prod [(true, a), (true, b), (true, c), (true, d), (false, l), (false, k), (false, j), (false, i)] := by
    simp [Fermi.prod, Fermi.op, mul_assoc]
  rw [e]
  have h1 : ∀ x ∈ D 0, x ∉ D 1 := fun x hx => Finset.disjoint_left.1 hD hx
  have h2 : ∀ x ∈ D 1, x ∉ D 0 := fun x hx => Finset.disjoint_right.1 hD hx
  refine F.prod_Ge _ (by simp [inD, ha, hb, hc, hd, hi, hj, hk, hl]) _ ?_
  simp [chg, h1 i hi, h1 j hj, h1 k hk, h1 l hl, h2 a ha, h2 b hb, h2 c hc, h2 d hd]

omit [Inhabited I] in
theorem Fermi.ham_Ge (h : I → I → K) (g : I → I → I → I → K) : F.ham h g ∈ F.Ge (-4) := by
  have hm : ∀ x ∈ orbs D, x ∈ D 0 ∨ x ∈ D 1 := fun x hx => Finset.mem_union.1 hx
  refine Submodule.add_mem _ ?_ (Submodule.smul_mem _ _ ?_)
  · refine Submodule.sum_mem _ fun p hp => Submodule.sum_mem _ fun q hq => Submodule.smul_mem _ _ ?_
    have e : F.cd p * F.c q = F.prod [(true, p), (false, q)] := by simp [Fermi.prod, Fermi.op]
    rw [e]
    exact F.prod_Ge _ (by simp [inD, hm p hp, hm q hq]) _ (le_trans (by simp) (chg_ge _))
  · refine Submodule.sum_mem _ fun p hp => Submodule.sum_mem _ fun q hq => Submodule.sum_mem _ fun r hr =>
      Submodule.sum_mem _ fun s hs => Submodule.smul_mem _ _ ?_
    have e : F.cd p * F.cd q * F.c s * F.c r = F.prod [(true, p), (true, q), (false, s), (false, r)] := by
      simp [Fermi.prod, Fermi.op, mul_assoc]
    rw [e]
    exact F.prod_Ge _ (by simp [inD, hm p hp, hm q hq, hm r hr, hm s hs]) _ (le_trans (by simp) (chg_ge _))

omit [Inhabited I] in
theorem Fermi.bra2_Ge (a b i j : I) (ha : a ∈ D 1) (hb : b ∈ D 1) (hi : i ∈ D 0) (hj : j ∈ D 0) :
    F.bra2 a b i j ∈ F.Ge (-4) := by
  have e : F.bra2 a b i j = F.prod [(true, i), (true, j), (false, b), (false, a)] := by
    simp [Fermi.prod, Fermi.op, mul_assoc, Fermi.bra2]
  rw [e]
  exact F.prod_Ge _ (by simp [inD, ha, hb, hi, hj]) _ (le_trans (by simp) (chg_ge _))

omit [Inhabited I] in
theorem Fermi.bra1_Ge (a i : I) (ha : a ∈ D 1) (hi : i ∈ D 0) : F.bra1 a i ∈ F.Ge (-2) := by
  have e : F.bra1 a i = F.prod [(true, i), (false, a)] := by
    simp [Fermi.prod, Fermi.op, Fermi.bra1]
  rw [e]
  exact F.prod_Ge _ (by simp [inD, ha, hi]) _ (le_trans (by simp) (chg_ge _))

omit [Inhabited I] in
theorem Fermi.bra3_Ge (a b c i j k : I) (ha : a ∈ D 1) (hb : b ∈ D 1) (hc : c ∈ D 1) (hi : i ∈ D 0) (hj : j ∈ D 0)
    (hk : k ∈ D 0) : F.bra3 a b c i j k ∈ F.Ge (-6) := by
  have e : F.bra3 a b c i j k = F.prod [(true, i), (true, j), (true, k), (false, c), (false, b), (false, a)] := by
    simp [Fermi.prod, Fermi.op, mul_assoc, Fermi.bra3]
  rw [e]
  exact F.prod_Ge _ (by simp [inD, ha, hb, hc, hi, hj, hk]) _ (le_trans (by simp) (chg_ge _))

omit [Inhabited I] in
theorem Fermi.bra4_Ge (a b c d i j k l : I) (ha : a ∈ D 1) (hb : b ∈ D 1) (hc : c ∈ D 1) (hd : d ∈ D 1) (hi : i ∈ D 0)
    (hj : j ∈ D 0) (hk : k ∈ D 0) (hl : l ∈ D 0) : F.bra4 a b c d i j k l ∈ F.Ge (-8) := by
  have e : F.bra4 a b c d i j k l = F.prod [(true, i), (true, j), (true, k), (true, l), (false, d), (false, c),
      (false, b), (false, a)] := by
    simp [Fermi.prod, Fermi.op, mul_assoc, Fermi.bra4]
  rw [e]
  exact F.prod_Ge _ (by simp [inD, ha, hb, hc, hd, hi, hj, hk, hl]) _ (le_trans (by simp) (chg_ge _))

end Verif.Wick
