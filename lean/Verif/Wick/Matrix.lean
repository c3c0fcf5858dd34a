import Verif.Wick.Project

/-!
# Matrix elements of nested commutators as einsum programs

`⟨Φ| B [[[X, T], T'], …] |Φ⟩`, where `B` is a bra, possibly followed by de-excitation operators, `X` is the
Hamiltonian, its Fock part or the rest, and `T, T', …` are cluster operators.
-/

namespace Verif.Wick

open Verif.Ein

variable {I K A : Type} [DecidableEq I] [Field K] [Ring A] [Algebra K A] {D : Nat → Finset I} (F : Fermi I K A D)

/-- De-excitation operators. -/
def Fermi.L1 (l : I → I → K) : A := ∑ i ∈ D 0, ∑ a ∈ D 1, l i a • (F.cd i * F.c a)

def Fermi.L2 (l : I → I → I → I → K) : A :=
  (1 / 4 : K) • ∑ i ∈ D 0, ∑ j ∈ D 0, ∑ a ∈ D 1, ∑ b ∈ D 1, l i j a b • (F.cd i * F.cd j * F.c b * F.c a)

/-- The Fock operator. -/
def Fermi.fockOp (f : I → I → K) : A := ∑ p ∈ orbs D, ∑ q ∈ orbs D, f p q • (F.cd p * F.c q)

/-- The fluctuation operator, `H` without the Fock operator. -/
def Fermi.fluct (h f : I → I → K) (g : I → I → I → I → K) : A := F.ham h g - F.fockOp f

/-- The commutator. -/
def com (x y : A) : A := x * y - y * x

/-- The operator in the commutators: the Hamiltonian, the Fock operator, the fluctuation operator, or the
de-excitation operator. -/
inductive Part | all | fock | fluct | l2
  deriving DecidableEq

/-- Four times the operator, as a list of terms. -/
def Part.prog : Part → OpProg
  | .all => hamP
  | .fock => [(44, 46), (44, 47), (45, 46), (45, 47)].map fun p =>
      ⟨4, [⟨15, [p.1, p.2]⟩], [(true, p.1), (false, p.2)]⟩
  | .fluct => ([(44, 46), (44, 47), (45, 46), (45, 47)].map fun p =>
      ⟨-4, [⟨23, [p.1, 42, p.2, 42]⟩], [(true, p.1), (false, p.2)]⟩) ++
    ([44, 45].flatMap fun p => [46, 47].flatMap fun q => [48, 49].flatMap fun r => [50, 51].map fun s =>
      ⟨1, [⟨23, [p, q, r, s]⟩], [(true, p), (true, q), (false, s), (false, r)]⟩)
  | .l2 => [⟨1, [⟨71, [44, 46, 45, 47]⟩], [(true, 44), (true, 46), (false, 47), (false, 45)]⟩]

/-- The operator. -/
def Fermi.part (h : I → I → K) (S : SO I K) : Part → A
  | .all => F.ham h S.g
  | .fock => F.fockOp S.f
  | .fluct => F.fluct h S.f S.g
  | .l2 => F.L2 S.l2

/-- The program of `∑ q ⟨B [[[X, T], T'], …]⟩`; the list gives `q`, the ranks of `T, T', …` and `X`. -/
noncomputable def matP (b : OpTerm) (w : List Var) (cs : List (ℚ × List Nat × Part)) : Prog :=
  List.rec (motive := fun _ => Prog) [] (fun c _ ih => evalTerms (pieces c.2.1 0) fun ts =>
    commB c.1 w b ts c.2.2.prog ih) cs

/-- A bra followed by a de-excitation operator. -/
def OpTerm.l1 (b : OpTerm) (i a : Var) : OpTerm := b.mul ⟨1, [⟨63, [i, a]⟩], [(true, i), (false, a)]⟩

def OpTerm.l2 (b : OpTerm) (i j a c : Var) : OpTerm :=
  b.mul ⟨1, [⟨71, [i, j, a, c]⟩], [(true, i), (true, j), (false, c), (false, a)]⟩

omit [DecidableEq I] in
theorem part_run (S : SO I K) (X : Part) : ∀ h ∈ X.prog, Run S.T 0 h.fs h.ops := by
  have hlow : ∀ h ∈ X.prog, ∀ v ∈ vars h.fs, (42 : Nat) ≤ v ∧ (v : Nat) < 64 := by cases X <;> decide
  have hkn : ∀ h ∈ X.prog, ∀ x ∈ h.ops, x.2 ∈ vars h.fs := by cases X <;> decide
  have hnd : ∀ h ∈ X.prog, (h.ops.map Prod.snd).Nodup := by cases X <;> decide
  intro h hh
  refine ⟨hnd h hh, hkn h hh, fun v hv => (hlow h hh v hv).1, fun v hv => (hlow h hh v hv).2, ?_⟩
  intro z hz z' hz' _ he
  exact absurd ((eqv_iff _ _).1 he).1 (Nat.not_le.2 (hlow h hh _ (hkn h hh z hz)).2)

variable [Inhabited I]

theorem val_fock (hD : Disjoint (D 0) (D 1)) (S : SO I K) (w : List Var) (xs : List I) (hw : ∀ v ∈ w, v < 42) :
    Part.fock.prog.val F S.T w xs = (4 : K) • F.fockOp S.f := by
  have hw' : ∀ v, 42 ≤ v → v ∉ w := fun v hv hm => Nat.not_lt.2 hv (hw v hm)
  unfold OpProg.val Part.prog Fermi.fockOp
  simp only [List.map_cons, List.map_nil, List.sum_cons, List.sum_nil]
  rw [val_f F S w xs 4 44 46 (by decide) (by intro v hv; apply hw'; revert hv v; decide),
    val_f F S w xs 4 44 47 (by decide) (by intro v hv; apply hw'; revert hv v; decide),
    val_f F S w xs 4 45 46 (by decide) (by intro v hv; apply hw'; revert hv v; decide),
    val_f F S w xs 4 45 47 (by decide) (by intro v hv; apply hw'; revert hv v; decide)]
  simp only [show sp 44 = 0 from rfl, show sp 45 = 1 from rfl, show sp 46 = 0 from rfl,
    show sp 47 = 1 from rfl, sum_orbs hD, Finset.sum_add_distrib, smul_add, Int.cast_ofNat]
  abel

theorem val_part [CharZero K] (hD : Disjoint (D 0) (D 1)) (S : SO I K) (h : I → I → K) (hf : IsFock D h S.f S.g)
    (w : List Var) (xs : List I) (hw : ∀ v ∈ w, v < 42) (X : Part) :
    X.prog.val F S.T w xs = (4 : K) • F.part h S X := by
  cases X with
  | all => exact val_ham F hD S h hf w xs hw
  | fock => exact val_fock F hD S w xs hw
  | fluct =>
    have e : hamP.val F S.T w xs = Part.fock.prog.val F S.T w xs + Part.fluct.prog.val F S.T w xs := by
      simp only [OpProg.val, hamP, Part.prog, List.flatMap_cons, List.flatMap_nil, List.map_cons, List.map_nil,
        List.append_nil, List.cons_append, List.nil_append, List.sum_cons, List.sum_nil]
      abel
    rw [val_ham F hD S h hf w xs hw, val_fock F hD S w xs hw] at e
    rw [Fermi.part, Fermi.fluct, smul_sub, e]
    abel
  | l2 =>
    have hw' : ∀ v, 42 ≤ v → v ∉ w := fun v hv hm => Nat.not_lt.2 hv (hw v hm)
    have hn : ([44, 46, 45, 47] : List Var).Nodup := by decide
    simp only [OpProg.val, Part.prog, List.map_cons, List.map_nil, List.sum_cons, List.sum_nil, add_zero]
    rw [val_one F _ _ _ _ _ _ _ hn (by intro v hv; apply hw'; revert hv v; decide), Fermi.part, Fermi.L2, smul_smul,
      show (4 * (1 / 4) : K) = 1 by norm_num, one_smul]
    simp [sumM, inst, Fermi.prod, Fermi.op, sp, SO.T, at4, mul_assoc]

/-- The programs `matP` give the matrix elements of the commutators. -/
theorem matrix [CharZero K] (hD : Disjoint (D 0) (D 1)) (S : SO I K) (hS : S.Sym) (h : I → I → K)
    (hf : IsFock D h S.f S.g) (w : List Var) (xs : List I) (hxs : ∀ v ∈ w, bind (fun _ => default) w xs v ∈ D (sp v))
    (hw : ∀ v ∈ w, v < 42) (b : OpTerm) (hb : Bra w b) (cs : List (ℚ × List Nat × Part)) :
    (matP b w cs).eval D S.T xs = (cs.map fun c => ((c.1 * (4 * scale c.2.1 : ℕ) : ℚ) : K) *
      F.ω (b.val F S.T w xs * adW (c.2.1.map (F.cl S)) (F.part h S c.2.2))).sum := by
  induction cs with
  | nil => rfl
  | cons c cs ih =>
    have e : matP b w (c :: cs) = evalTerms (pieces c.2.1 0) fun ts => commB c.1 w b ts c.2.2.prog (matP b w cs) := rfl
    rw [e, evalTerms_eq, commB_eval F hD S.T w xs hxs hw _ b hb _ (pieces_ok S hS c.2.1 0) _ (part_run S c.2.2), ih,
      List.map_cons, List.sum_cons, pieces_val F S w xs hw, adW_scale, val_part F hD S h hf w xs hw, adW_smul]
    congr 1
    simp only [mul_smul_comm, map_smul, smul_eq_mul]
    have hs' : (((c.2.1.map tS).prod : ℕ) : K) = (scale c.2.1 : K) := rfl
    rw [hs']
    push_cast
    ring

/-! ### bras with de-excitation operators -/

theorem val_l1 (S : SO I K) (w : List Var) (xs : List I) (b : OpTerm) (i a : Var)
    (hn : [i, a].Nodup) (hi : sp i = 0) (ha : sp a = 1) (hw : ∀ v ∈ [i, a], v ∉ w)
    (h : b.apart w ⟨1, [⟨63, [i, a]⟩], [(true, i), (false, a)]⟩ = true) :
    (b.l1 i a).val F S.T w xs = b.val F S.T w xs * F.L1 S.l1 := by
  rw [OpTerm.l1, OpTerm.val_mul F S.T w xs _ _ h, val_one F _ _ _ _ _ _ _ hn hw]
  simp only [List.nodup_cons, List.mem_cons, List.not_mem_nil, or_false, not_false_eq_true, List.nodup_nil,
    and_true] at hn
  simp [sumM, inst, Fermi.prod, Fermi.op, hn, hi, ha, SO.T, at2, Fermi.L1]

theorem val_l2 [CharZero K] (S : SO I K) (w : List Var) (xs : List I) (b : OpTerm) (i j a c : Var)
    (hn : [i, j, a, c].Nodup) (hi : sp i = 0) (hj : sp j = 0) (ha : sp a = 1) (hc : sp c = 1)
    (hw : ∀ v ∈ [i, j, a, c], v ∉ w)
    (h : b.apart w ⟨1, [⟨71, [i, j, a, c]⟩], [(true, i), (true, j), (false, c), (false, a)]⟩ = true) :
    (b.l2 i j a c).val F S.T w xs = (4 : K) • (b.val F S.T w xs * F.L2 S.l2) := by
  rw [OpTerm.l2, OpTerm.val_mul F S.T w xs _ _ h, val_one F _ _ _ _ _ _ _ hn hw, Fermi.L2, mul_smul_comm (1 / 4 : K), smul_smul,
    show (4 * (1 / 4) : K) = 1 by norm_num, one_smul]
  simp only [List.nodup_cons, List.mem_cons, List.not_mem_nil, or_false, not_or, not_false_eq_true, List.nodup_nil,
    and_true] at hn
  obtain ⟨⟨h1, h2, h3⟩, ⟨h4, h5⟩, h6⟩ := hn
  simp [sumM, inst, Fermi.prod, Fermi.op, h1, h2, h3, h4, h5, h6, hi, hj, ha, hc, SO.T, at4, mul_assoc]

theorem val_bra0_l1 (S : SO I K) : ((braT 0).l1 8 9).val F S.T (braW 0) [] = F.L1 S.l1 := by
  rw [val_l1 F S _ _ _ _ _ (by decide) rfl rfl (by decide) (by decide), val_bra0, one_mul]

theorem val_bra0_l2 [CharZero K] (S : SO I K) : ((braT 0).l2 8 10 9 11).val F S.T (braW 0) [] = (4 : K) • F.L2 S.l2 := by
  rw [val_l2 F S _ _ _ _ _ _ _ (by decide) rfl rfl rfl rfl (by decide) (by decide), val_bra0, one_mul]

theorem val_bra0_l2l2 [CharZero K] (S : SO I K) :
    (((braT 0).l2 8 10 9 11).l2 12 14 13 15).val F S.T (braW 0) [] = (16 : K) • (F.L2 S.l2 * F.L2 S.l2) := by
  rw [val_l2 F S _ _ _ _ _ _ _ (by decide) rfl rfl rfl rfl (by decide) (by decide), val_bra0_l2, smul_mul_assoc, smul_smul]
  norm_num

theorem val_bra2_l2 [CharZero K] (S : SO I K) (a b i j : I) :
    ((braT 2).l2 8 10 9 11).val F S.T (braW 2) [a, b, i, j] = (4 : K) • (F.bra2 a b i j * F.L2 S.l2) := by
  rw [val_l2 F S _ _ _ _ _ _ _ (by decide) rfl rfl rfl rfl (by decide) (by decide), val_bra2]

theorem val_bra1_l2 [CharZero K] (S : SO I K) (a i : I) :
    ((braT 1).l2 8 10 9 11).val F S.T (braW 1) [a, i] = (4 : K) • (F.bra1 a i * F.L2 S.l2) := by
  rw [val_l2 F S _ _ _ _ _ _ _ (by decide) rfl rfl rfl rfl (by decide) (by decide), val_bra1]

theorem bra1_l2_ok : Bra (braW 1) ((braT 1).l2 8 10 9 11) := ⟨rfl, by decide, by decide, by decide, by decide⟩
theorem bra0_l1_ok : Bra (braW 0) ((braT 0).l1 8 9) := ⟨rfl, by decide, by decide, by decide, by decide⟩
theorem bra0_l2_ok : Bra (braW 0) ((braT 0).l2 8 10 9 11) := ⟨rfl, by decide, by decide, by decide, by decide⟩
theorem bra0_l2l2_ok : Bra (braW 0) (((braT 0).l2 8 10 9 11).l2 12 14 13 15) :=
  ⟨rfl, by decide, by decide, by decide, by decide⟩
theorem bra2_l2_ok : Bra (braW 2) ((braT 2).l2 8 10 9 11) := ⟨rfl, by decide, by decide, by decide, by decide⟩

end Verif.Wick
