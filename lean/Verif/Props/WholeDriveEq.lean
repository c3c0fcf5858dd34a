import Verif.Props.WholeDrive

/-!
# Which equations a `DriveCC` calculation solves, and which other calculations it agrees with (C91)
-/

namespace Verif.Props

open Verif.Ein Verif.UT2 Verif.Kernel Verif.Py Verif.WholeDrive
open Verif.Wick (InBox)

variable {I : Type} [Inhabited I] (D : Nat → Finset I)

/-! ## stationary amplitudes -/

/-- One more pass leaves all amplitudes between occupied and virtual orbitals as they are. -/
structure DriveStationary (m : Eqns) (ε : I → ℝ) (B : SO I ℝ) : Prop where
  t1 : ∀ a ∈ D 1, ∀ i ∈ D 0, (WholeDrive.pass D m ε B).t1 a i = B.t1 a i
  t2 : ∀ a ∈ D 1, ∀ b ∈ D 1, ∀ i ∈ D 0, ∀ j ∈ D 0, (WholeDrive.pass D m ε B).t2 a b i j = B.t2 a b i j
  t3 : ∀ a ∈ D 1, ∀ b ∈ D 1, ∀ c ∈ D 1, ∀ i ∈ D 0, ∀ j ∈ D 0, ∀ k ∈ D 0, (WholeDrive.pass D m ε B).t3 a b c i j k = B.t3 a b c i j k
  t4 : ∀ a ∈ D 1, ∀ b ∈ D 1, ∀ c ∈ D 1, ∀ d ∈ D 1, ∀ i ∈ D 0, ∀ j ∈ D 0, ∀ k ∈ D 0, ∀ l ∈ D 0,
    (WholeDrive.pass D m ε B).t4 a b c d i j k l = B.t4 a b c d i j k l

theorem next_fix {d r t : ℝ} (hd : d ≠ 0) : WholeDrive.next d r t = t ↔ r = 0 := by
  unfold WholeDrive.next
  constructor
  · intro h
    have : r * d = 0 := by
      have e : (r + d⁻¹ * t) * d = r * d + t := by field_simp
      linarith [e]
    exact (mul_eq_zero.1 this).resolve_right hd
  · rintro rfl
    field_simp
    ring

/-- **C91** If all virtual orbital energies are above all occupied ones, one more pass leaves the amplitudes alone exactly when they
solve the equations of the method. -/
theorem C91_stationary (ε : I → ℝ) (hε : ∀ i ∈ D 0, ∀ a ∈ D 1, ε i < ε a) (B : SO I ℝ) :
    (DriveStationary D .ccsdt ε B ↔ Solves_ccsdt D B) ∧ (DriveStationary D .ccsd ε B ↔ Solves_ccsd D B) ∧
    (DriveStationary D .ccdq ε B ↔ Solves_ccdq D B) ∧
    (DriveStationary D .ccd ε B ↔ ∀ i ∈ D 0, ∀ j ∈ D 0, ∀ a ∈ D 1, ∀ b ∈ D 1, ccsd_t2resid D (noSingles B) i j a b = 0) := by
  have n1 : ∀ a ∈ D 1, ∀ i ∈ D 0, WholeDrive.den1 ε a i ≠ 0 := fun a ha i hi =>
    one_div_ne_zero (by have := hε i hi a ha; linarith)
  have n2 : ∀ a ∈ D 1, ∀ b ∈ D 1, ∀ i ∈ D 0, ∀ j ∈ D 0, WholeDrive.den2 ε a b i j ≠ 0 := fun a ha b hb i hi j hj =>
    one_div_ne_zero (by have := hε i hi a ha; have := hε j hj b hb; linarith)
  have n3 : ∀ a ∈ D 1, ∀ b ∈ D 1, ∀ c ∈ D 1, ∀ i ∈ D 0, ∀ j ∈ D 0, ∀ k ∈ D 0, WholeDrive.den3 ε a b c i j k ≠ 0 :=
    fun a ha b hb c hc i hi j hj k hk => one_div_ne_zero (by have := hε i hi a ha; have := hε j hj b hb; have := hε k hk c hc; linarith)
  have n4 : ∀ a ∈ D 1, ∀ b ∈ D 1, ∀ c ∈ D 1, ∀ d ∈ D 1, ∀ i ∈ D 0, ∀ j ∈ D 0, ∀ k ∈ D 0, ∀ l ∈ D 0, WholeDrive.den4 ε a b c d i j k l ≠ 0 :=
    fun a ha b hb c hc d hd i hi j hj k hk l hl => one_div_ne_zero (by
      have := hε i hi a ha; have := hε j hj b hb; have := hε k hk c hc; have := hε l hl d hd; linarith)
  refine ⟨⟨fun h => ⟨?_, ?_, ?_⟩, fun h => ⟨?_, ?_, ?_, ?_⟩⟩, ⟨fun h => ⟨?_, ?_⟩, fun h => ⟨?_, ?_, ?_, ?_⟩⟩,
    ⟨fun h => ⟨?_, ?_⟩, fun h => ⟨?_, ?_, ?_, ?_⟩⟩, ⟨fun h => ?_, fun h => ⟨?_, ?_, ?_, ?_⟩⟩⟩
  · exact fun i hi a ha => (next_fix (n1 a ha i hi)).1 (h.t1 a ha i hi)
  · exact fun i hi j hj a ha b hb => (next_fix (n2 a ha b hb i hi j hj)).1 (h.t2 a ha b hb i hi j hj)
  · exact fun i hi j hj k hk a ha b hb c hc => (next_fix (n3 a ha b hb c hc i hi j hj k hk)).1 (h.t3 a ha b hb c hc i hi j hj k hk)
  · exact fun a ha i hi => (next_fix (n1 a ha i hi)).2 (h.1 i hi a ha)
  · exact fun a ha b hb i hi j hj => (next_fix (n2 a ha b hb i hi j hj)).2 (h.2.1 i hi j hj a ha b hb)
  · exact fun a ha b hb c hc i hi j hj k hk => (next_fix (n3 a ha b hb c hc i hi j hj k hk)).2 (h.2.2 i hi j hj k hk a ha b hb c hc)
  · exact fun _ _ _ _ _ _ _ _ _ _ _ _ _ _ _ _ => rfl
  · exact fun i hi a ha => (next_fix (n1 a ha i hi)).1 (h.t1 a ha i hi)
  · exact fun i hi j hj a ha b hb => (next_fix (n2 a ha b hb i hi j hj)).1 (h.t2 a ha b hb i hi j hj)
  · exact fun a ha i hi => (next_fix (n1 a ha i hi)).2 (h.1 i hi a ha)
  · exact fun a ha b hb i hi j hj => (next_fix (n2 a ha b hb i hi j hj)).2 (h.2 i hi j hj a ha b hb)
  · exact fun _ _ _ _ _ _ _ _ _ _ _ _ => rfl
  · exact fun _ _ _ _ _ _ _ _ _ _ _ _ _ _ _ _ => rfl
  · exact fun i hi j hj a ha b hb => (next_fix (n2 a ha b hb i hi j hj)).1 (h.t2 a ha b hb i hi j hj)
  · exact fun i hi j hj k hk l hl a ha b hb c hc d hd =>
      (next_fix (n4 a ha b hb c hc d hd i hi j hj k hk l hl)).1 (h.t4 a ha b hb c hc d hd i hi j hj k hk l hl)
  · exact fun _ _ _ _ => rfl
  · exact fun a ha b hb i hi j hj => (next_fix (n2 a ha b hb i hi j hj)).2 (h.1 i hi j hj a ha b hb)
  · exact fun _ _ _ _ _ _ _ _ _ _ _ _ => rfl
  · exact fun a ha b hb c hc d hd i hi j hj k hk l hl =>
      (next_fix (n4 a ha b hb c hc d hd i hi j hj k hk l hl)).2 (h.2 i hi j hj k hk l hl a ha b hb c hc d hd)
  · exact fun i hi j hj a ha b hb => (next_fix (n2 a ha b hb i hi j hj)).1 (h.t2 a ha b hb i hi j hj)
  · exact fun _ _ _ _ => rfl
  · exact fun a ha b hb i hi j hj => (next_fix (n2 a ha b hb i hi j hj)).2 (h i hi j hj a ha b hb)
  · exact fun _ _ _ _ _ _ _ _ _ _ _ _ => rfl
  · exact fun _ _ _ _ _ _ _ _ _ _ _ _ _ _ _ _ => rfl

/-- **C91** A system of at most two electrons: if a CCSD calculation returns amplitudes that one more pass leaves alone, then they are
an eigenstate of the Hamiltonian, and the energy that is returned is its energy. -/
theorem C91_two_electrons [LinearOrder I] (hD : Disjoint (D 0) (D 1)) (hc : (D 0).card ≤ 2) (o : Opts I) (ho : eqns o.cc_type = .ccsd)
    (hε : ∀ i ∈ D 0, ∀ a ∈ D 1, o.ε i < o.ε a) (S : SO I ℝ) (hS : S.Sym)
    (hF : ∀ x, o.file = some x → ∀ i j a b, x i j a b = - x j i a b ∧ x i j a b = - x i j b a)
    (h : I → I → ℝ) (hf : Verif.Wick.IsFock D h S.f S.g) (r : Res (SO I ℝ) Unit ℝ) (hr : WholeDrive.calculate D o S = .ok r)
    (hs : DriveStationary D .ccsd o.ε r.st.amps) (n : ℕ) (hn : 5 ≤ n) :
    IsEigen D hD h S.g n (clSD D hD r.st.amps) r.energy := by
  obtain ⟨-, -, -, ha, he, -⟩ := drive_returned D o S r hr
  have hsym := C91_antisymmetry D o S hS hF r.log.length
  obtain ⟨e1, e2⟩ := drive_integrals D o S r.log.length
  rw [← ha] at hsym e1 e2
  have hsol := ((C91_stationary D o.ε hε r.st.amps).2.1).1 hs
  have hS' : hasSub "S" o.cc_type = true := by
    have : hasSub "CCSD" o.cc_type = true := by
      unfold WholeDrive.eqns at ho
      by_contra hne
      rw [if_neg hne] at ho
      revert ho
      split
      · exact fun q => by cases q
      · split <;> exact fun q => by cases q
    rw [hasSub_iff] at this ⊢
    exact List.IsInfix.trans ((hasSub_iff "S" "CCSD").1 (by decide)) this
  have hE : r.energy = spinorbitalCCSDE D r.st.amps := by
    rw [he, ha]
    unfold driveE WholeDrive.energy
    rw [if_pos hS']
  have k := C76_two_electrons D hD hc r.st.amps hsym h (by rw [e1, e2]; exact hf) (fun a ha i hi => hsol.1 i hi a ha)
    (fun a ha b hb i hi j hj => hsol.2 i hi j hj a ha b hb) n hn
  rw [e2] at k
  rwa [hE]

/-! ## few electrons -/

/-- The same integrals, and the same singles and doubles between occupied and virtual orbitals. -/
structure SameSD (B C : SO I ℝ) : Prop where
  f : B.f = C.f
  g : B.g = C.g
  t1 : ∀ a ∈ D 1, ∀ i ∈ D 0, B.t1 a i = C.t1 a i
  t2 : ∀ a ∈ D 1, ∀ b ∈ D 1, ∀ i ∈ D 0, ∀ j ∈ D 0, B.t2 a b i j = C.t2 a b i j

/-- Fock matrix, integrals, and amplitudes with virtual axes first. -/
def driveFac (f : Fac) : Bool :=
  [15, 23].elem f.t || (Nat.beq f.t 31 && decide (f.ix.map sp = [1, 0])) || (Nat.beq f.t 39 && decide (f.ix.map sp = [1, 1, 0, 0]))

/-- The same with triples, or with quadruples. -/
def driveFac3 (f : Fac) : Bool := driveFac f || (Nat.beq f.t 47 && decide (f.ix.map sp = [1, 1, 1, 0, 0, 0]))
def driveFac4 (f : Fac) : Bool := driveFac f || (Nat.beq f.t 55 && decide (f.ix.map sp = [1, 1, 1, 1, 0, 0, 0, 0]))

omit [Inhabited I] in
theorem SameSD.T {B C : SO I ℝ} (h : SameSD D B C) (f : Fac) (hf : driveFac f = true) (l : List I)
    (hl : InBox D (f.ix.map sp) l) : B.T f.t l = C.T f.t l := by
  simp only [driveFac, Bool.or_eq_true, Bool.and_eq_true, decide_eq_true_eq, List.elem_iff, List.mem_cons,
    List.not_mem_nil, or_false, Nat.beq_eq, or_assoc] at hf
  rcases hf with h' | h' | ⟨h', hs⟩ | ⟨h', hs⟩
  · rw [h']; exact congrArg (at2 · l) h.f
  · rw [h']; exact congrArg (at4 · l) h.g
  · rw [hs] at hl
    match l, hl with
    | [a, i], hl =>
      simp only [InBox, List.forall₂_cons, List.forall₂_nil_right_iff] at hl
      obtain ⟨ha, hi, -⟩ := hl
      rw [h']; exact h.t1 a ha i hi
  · rw [hs] at hl
    match l, hl with
    | [a, b, i, j], hl =>
      simp only [InBox, List.forall₂_cons, List.forall₂_nil_right_iff] at hl
      obtain ⟨ha, hb, hi, hj, -⟩ := hl
      rw [h']; exact h.t2 a ha b hb i hi j hj

omit [Inhabited I] in
/-- Antisymmetric triples with more axes than orbitals are zero. -/
theorem t3_few (hc : (D 0).card < 3 ∨ (D 1).card < 3) (B : SO I ℝ) (hB : B.Sym) (a b c i j k : I) (ha : a ∈ D 1) (hb : b ∈ D 1)
    (hc' : c ∈ D 1) (hi : i ∈ D 0) (hj : j ∈ D 0) (hk : k ∈ D 0) : B.t3 a b c i j k = 0 := by
  have z : ∀ {x : ℝ}, x = - x → x = 0 := fun h => by linarith
  rcases hc with hc | hc
  · obtain ⟨x, -, y, -, hxy, e⟩ := Finset.exists_ne_map_eq_of_card_lt_of_maps_to (s := Finset.univ) (t := D 0) (f := (![i, j, k] : Fin 3 → I))
      (by simpa using hc) (fun n _ => by fin_cases n <;> assumption)
    fin_cases x <;> fin_cases y <;> simp at hxy e <;> subst e
    · exact z (hB.t3_anti3 a b c i i k)
    · rw [hB.t3_anti3 a b c i j i, z (hB.t3_anti4 a b c j i i), neg_zero]
    · exact z (hB.t3_anti3 _ _ _ _ _ _)
    · exact z (hB.t3_anti4 _ _ _ _ _ _)
    · rw [hB.t3_anti3, z (hB.t3_anti4 _ _ _ _ _ _), neg_zero]
    · exact z (hB.t3_anti4 _ _ _ _ _ _)
  · obtain ⟨x, -, y, -, hxy, e⟩ := Finset.exists_ne_map_eq_of_card_lt_of_maps_to (s := Finset.univ) (t := D 1) (f := (![a, b, c] : Fin 3 → I))
      (by simpa using hc) (fun n _ => by fin_cases n <;> assumption)
    fin_cases x <;> fin_cases y <;> simp at hxy e <;> subst e
    · exact z (hB.t3_anti0 _ _ _ _ _ _)
    · rw [hB.t3_anti0, z (hB.t3_anti1 _ _ _ _ _ _), neg_zero]
    · exact z (hB.t3_anti0 _ _ _ _ _ _)
    · exact z (hB.t3_anti1 _ _ _ _ _ _)
    · rw [hB.t3_anti0, z (hB.t3_anti1 _ _ _ _ _ _), neg_zero]
    · exact z (hB.t3_anti1 _ _ _ _ _ _)

omit [Inhabited I] in
/-- Antisymmetric quadruples with more axes than orbitals are zero. -/
theorem t4_few (hc : (D 0).card < 4 ∨ (D 1).card < 4) (B : SO I ℝ) (hB : B.Sym) (a b c d i j k l : I) (ha : a ∈ D 1) (hb : b ∈ D 1)
    (hc' : c ∈ D 1) (hd : d ∈ D 1) (hi : i ∈ D 0) (hj : j ∈ D 0) (hk : k ∈ D 0) (hl : l ∈ D 0) : B.t4 a b c d i j k l = 0 := by
  have z : ∀ {x : ℝ}, x = - x → x = 0 := fun h => by linarith
  rcases hc with hc | hc
  · obtain ⟨x, -, y, -, hxy, e⟩ := Finset.exists_ne_map_eq_of_card_lt_of_maps_to (s := Finset.univ) (t := D 0) (f := (![i, j, k, l] : Fin 4 → I))
      (by simpa using hc) (fun n _ => by fin_cases n <;> assumption)
    have h01 : ∀ a b c d i k l, B.t4 a b c d i i k l = 0 := fun a b c d i k l => z (hB.t4_anti4 a b c d i i k l)
    have h12 : ∀ a b c d i k l, B.t4 a b c d k i i l = 0 := fun a b c d i k l => z (hB.t4_anti5 a b c d k i i l)
    have h23 : ∀ a b c d i k l, B.t4 a b c d k l i i = 0 := fun a b c d i k l => z (hB.t4_anti6 a b c d k l i i)
    have h02 : ∀ a b c d i k l, B.t4 a b c d i k i l = 0 := fun a b c d i k l => by rw [hB.t4_anti4, h12, neg_zero]
    have h13 : ∀ a b c d i k l, B.t4 a b c d k i l i = 0 := fun a b c d i k l => by rw [hB.t4_anti5, h23, neg_zero]
    have h03 : ∀ a b c d i k l, B.t4 a b c d i k l i = 0 := fun a b c d i k l => by rw [hB.t4_anti4, h13, neg_zero]
    fin_cases x <;> fin_cases y <;> simp at hxy e <;> subst e <;> first | exact h01 _ _ _ _ _ _ _ | exact h12 _ _ _ _ _ _ _ | exact h23 _ _ _ _ _ _ _ | exact h02 _ _ _ _ _ _ _ | exact h13 _ _ _ _ _ _ _ | exact h03 _ _ _ _ _ _ _
  · obtain ⟨x, -, y, -, hxy, e⟩ := Finset.exists_ne_map_eq_of_card_lt_of_maps_to (s := Finset.univ) (t := D 1) (f := (![a, b, c, d] : Fin 4 → I))
      (by simpa using hc) (fun n _ => by fin_cases n <;> assumption)
    have h01 : ∀ i j k l a c d, B.t4 a a c d i j k l = 0 := fun i j k l a c d => z (hB.t4_anti0 a a c d i j k l)
    have h12 : ∀ i j k l a c d, B.t4 c a a d i j k l = 0 := fun i j k l a c d => z (hB.t4_anti1 c a a d i j k l)
    have h23 : ∀ i j k l a c d, B.t4 c d a a i j k l = 0 := fun i j k l a c d => z (hB.t4_anti2 c d a a i j k l)
    have h02 : ∀ i j k l a c d, B.t4 a c a d i j k l = 0 := fun i j k l a c d => by rw [hB.t4_anti0, h12, neg_zero]
    have h13 : ∀ i j k l a c d, B.t4 c a d a i j k l = 0 := fun i j k l a c d => by rw [hB.t4_anti1, h23, neg_zero]
    have h03 : ∀ i j k l a c d, B.t4 a c d a i j k l = 0 := fun i j k l a c d => by rw [hB.t4_anti0, h13, neg_zero]
    fin_cases x <;> fin_cases y <;> simp at hxy e <;> subst e <;> first | exact h01 _ _ _ _ _ _ _ | exact h12 _ _ _ _ _ _ _ | exact h23 _ _ _ _ _ _ _ | exact h02 _ _ _ _ _ _ _ | exact h13 _ _ _ _ _ _ _ | exact h03 _ _ _ _ _ _ _

/-- A CCSDT pass without room for triples is a CCSD pass. -/
theorem pass_t3_few (hc : (D 0).card < 3 ∨ (D 1).card < 3) (ε : I → ℝ) (B C : SO I ℝ) (hB : B.Sym) (h : SameSD D B C) :
    SameSD D (WholeDrive.pass D .ccsdt ε B) (WholeDrive.pass D .ccsd ε C) := by
  set Z : SO I ℝ := { B with t3 := fun _ _ _ _ _ _ => 0 } with hZ
  have hZs : Z.Sym := { hB with
    t3_anti0 := fun _ _ _ _ _ _ => neg_zero.symm, t3_anti1 := fun _ _ _ _ _ _ => neg_zero.symm
    t3_anti3 := fun _ _ _ _ _ _ => neg_zero.symm, t3_anti4 := fun _ _ _ _ _ _ => neg_zero.symm }
  have hBZ : SameSD D B Z := ⟨rfl, rfl, fun _ _ _ _ => rfl, fun _ _ _ _ _ _ _ _ => rfl⟩
  have hZC : SameSD D Z C := ⟨h.f, h.g, h.t1, h.t2⟩
  have hT : ∀ f : Fac, driveFac3 f = true → ∀ l : List I, InBox D (f.ix.map sp) l → B.T f.t l = Z.T f.t l := by
    intro f hf l hl
    simp only [driveFac3, Bool.or_eq_true, Bool.and_eq_true, Nat.beq_eq, decide_eq_true_eq] at hf
    rcases hf with hf | ⟨h', hs⟩
    · exact hBZ.T D f hf l hl
    · rw [hs] at hl
      match l, hl with
      | [a, b, c, i, j, k], hl =>
        simp only [InBox, List.forall₂_cons, List.forall₂_nil_right_iff] at hl
        obtain ⟨ha, hb, hc', hi, hj, hk, -⟩ := hl
        rw [h']; exact t3_few D hc B hB a b c i j k ha hb hc' hi hj hk
  refine ⟨h.f, h.g, fun a ha i hi => ?_, fun a ha b hb i hi j hj => ?_⟩
  · have hx : InBox D [0, 1] [i, a] := by simp [InBox, ha, hi]
    have e1 : ccsdt_t1eqns D B i a = ccsdt_t1eqns D Z i a := Prog.eval_local D B.T Z.T _ driveFac3 (by decide +kernel) hT _ (by decide +kernel) _ hx
    have e2 : ccsd_t1resid D Z i a = ccsd_t1resid D C i a :=
      Prog.eval_local D Z.T C.T _ driveFac (by decide +kernel) (hZC.T D) _ (by decide +kernel) _ hx
    show WholeDrive.next _ _ _ = WholeDrive.next _ _ _
    rw [e1, C38_ccsdt_t1 D Z hZs (fun _ _ _ _ _ _ => rfl), e2, h.t1 a ha i hi]
  · have hx : InBox D [0, 0, 1, 1] [i, j, a, b] := by simp [InBox, ha, hi, hb, hj]
    have e1 : ccsdt_t2eqns D B i j a b = ccsdt_t2eqns D Z i j a b :=
      Prog.eval_local D B.T Z.T _ driveFac3 (by decide +kernel) hT _ (by decide +kernel) _ hx
    have e2 : ccsd_t2resid D Z i j a b = ccsd_t2resid D C i j a b :=
      Prog.eval_local D Z.T C.T _ driveFac (by decide +kernel) (hZC.T D) _ (by decide +kernel) _ hx
    show WholeDrive.next _ _ _ = WholeDrive.next _ _ _
    rw [e1, C38_ccsdt_t2 D Z hZs (fun _ _ _ _ _ _ => rfl), e2, h.t2 a ha b hb i hi j hj]

/-- A CCDQ pass without room for quadruples is a CCD pass. -/
theorem pass_t4_few (hc : (D 0).card < 4 ∨ (D 1).card < 4) (ε : I → ℝ) (B C : SO I ℝ) (hB : B.Sym) (h : SameSD D B C) :
    SameSD D (WholeDrive.pass D .ccdq ε B) (WholeDrive.pass D .ccd ε C) := by
  set Z : SO I ℝ := { B with t1 := fun _ _ => 0, t4 := fun _ _ _ _ _ _ _ _ => 0 } with hZ
  have z : (0 : ℝ) = -0 := neg_zero.symm
  have hZs : Z.Sym := { hB with
    t4_anti0 := fun _ _ _ _ _ _ _ _ => z, t4_anti1 := fun _ _ _ _ _ _ _ _ => z, t4_anti2 := fun _ _ _ _ _ _ _ _ => z
    t4_anti4 := fun _ _ _ _ _ _ _ _ => z, t4_anti5 := fun _ _ _ _ _ _ _ _ => z, t4_anti6 := fun _ _ _ _ _ _ _ _ => z }
  have hZC : SameSD D Z (noSingles C) := ⟨h.f, h.g, fun _ _ _ _ => rfl, h.t2⟩
  have hT : ∀ f : Fac, (driveFac4 f && !Nat.beq f.t 31) = true → ∀ l : List I, InBox D (f.ix.map sp) l → B.T f.t l = Z.T f.t l := by
    intro f hf l hl
    have hBZ : SameSD D { B with t1 := fun _ _ => 0 } Z := ⟨rfl, rfl, fun _ _ _ _ => rfl, fun _ _ _ _ _ _ _ _ => rfl⟩
    simp only [driveFac4, Bool.or_eq_true, Bool.and_eq_true, Nat.beq_eq, decide_eq_true_eq, Bool.not_eq_true'] at hf
    rcases hf with ⟨hf | ⟨h', hs⟩, h31⟩
    · rw [← hBZ.T D f hf l hl]
      simp only [driveFac, Bool.or_eq_true, Bool.and_eq_true, decide_eq_true_eq, List.elem_iff, List.mem_cons,
        List.not_mem_nil, or_false, Nat.beq_eq, or_assoc] at hf
      rcases hf with h' | h' | ⟨h', -⟩ | ⟨h', -⟩ <;> rw [h'] at h31 ⊢ <;> first | rfl | cases h31
    · rw [hs] at hl
      match l, hl with
      | [a, b, c, d, i, j, k, m], hl =>
        simp only [InBox, List.forall₂_cons, List.forall₂_nil_right_iff] at hl
        obtain ⟨ha, hb, hc', hd, hi, hj, hk, hm, -⟩ := hl
        rw [h']; exact t4_few D hc B hB a b c d i j k m ha hb hc' hd hi hj hk hm
  refine ⟨h.f, h.g, h.t1, fun a ha b hb i hi j hj => ?_⟩
  have hx : InBox D [0, 0, 1, 1] [i, j, a, b] := by simp [InBox, ha, hi, hb, hj]
  have e1 : ccdq_t2eqns D B i j a b = ccdq_t2eqns D Z i j a b :=
    Prog.eval_local D B.T Z.T _ (fun f => driveFac4 f && !Nat.beq f.t 31) (by decide +kernel) hT _ (by decide +kernel) _ hx
  have e2 : ccsd_t2resid D Z i j a b = ccsd_t2resid D (noSingles C) i j a b :=
    Prog.eval_local D Z.T (noSingles C).T _ driveFac (by decide +kernel) (hZC.T D) _ (by decide +kernel) _ hx
  show WholeDrive.next _ _ _ = WholeDrive.next _ _ _
  rw [e1, C38_ccdq_t2 D Z hZs (fun _ _ _ _ _ _ _ _ => rfl), ← C37_ccd_two_forms D Z hZs (fun _ _ => rfl), e2, h.t2 a ha b hb i hi j hj]

/-- The energies read these amplitudes only. -/
theorem SameSD.energy {B C : SO I ℝ} (h : SameSD D B C) : spinorbitalCCSDE D B = spinorbitalCCSDE D C ∧ spinorbitalCCDE D B = spinorbitalCCDE D C :=
  ⟨Prog.eval_local D B.T C.T _ driveFac (by decide +kernel) (h.T D) [] (by decide +kernel) [] List.Forall₂.nil,
   Prog.eval_local D B.T C.T _ driveFac (by decide +kernel) (h.T D) [] (by decide +kernel) [] List.Forall₂.nil⟩

/-- **C91** With at most two electrons, or at most two virtual orbitals, a CCSDT calculation ends as the CCSD calculation, with the same
energies and the same singles and doubles. -/
theorem C91_ccsdt_few (hc : (D 0).card < 3 ∨ (D 1).card < 3) (o : Opts I) (ho : o.cc_type = "CCSDT") (S : SO I ℝ) (hS : S.Sym)
    (hF : ∀ x, o.file = some x → ∀ i j a b, x i j a b = - x j i a b ∧ x i j a b = - x i j b a) :
    SameRun (fun r r' => r'.log = r.log ∧ r'.energy = r.energy ∧ SameSD D r.st.amps r'.st.amps)
      (WholeDrive.calculate D o S) (WholeDrive.calculate D { o with cc_type := "CCSD" } S) := by
  have key : ∀ k, SameSD D (driveAmps D o S k) (driveAmps D { o with cc_type := "CCSD" } S k) := by
    intro k
    induction k with
    | zero => exact ⟨rfl, rfl, fun _ _ _ _ => rfl, fun _ _ _ _ _ _ _ _ => rfl⟩
    | succ k ih =>
      rw [driveAmps_succ, driveAmps_succ, ho, show WholeDrive.eqns "CCSDT" = .ccsdt by decide +kernel,
        show WholeDrive.eqns ({ o with cc_type := "CCSD" } : Opts I).cc_type = .ccsd from (by decide +kernel : WholeDrive.eqns "CCSD" = .ccsd)]
      exact pass_t3_few D hc o.ε _ _ (C91_antisymmetry D o S hS hF k) ih
  have h := drive_same D D o S { o with cc_type := "CCSD" } S 1 one_pos (by rw [ho]; exact (by decide +kernel : hasSub "D" "CCSD" = hasSub "D" "CCSDT")) rfl (one_mul _).symm fun k => by
    rw [one_mul]
    unfold driveE WholeDrive.energy
    rw [((key k).energy D).1, ho, if_pos (show hasSub "S" "CCSD" = true by decide +kernel), if_pos (by decide +kernel)]
  revert h
  cases WholeDrive.calculate D o S <;> cases WholeDrive.calculate D { o with cc_type := "CCSD" } S <;> intro h
  · exact h
  · exact h
  · exact h
  · obtain ⟨h1, h2, h3, h4⟩ := h
    exact ⟨by simpa using h1, by simpa using h2, by rw [h4, h3]; exact key _⟩

/-- **C91** With at most three electrons, or at most three virtual orbitals, a CCDQ calculation ends as the CCD calculation, with the
same energies and the same doubles. -/
theorem C91_ccdq_few (hc : (D 0).card < 4 ∨ (D 1).card < 4) (o : Opts I) (ho : o.cc_type = "CCDQ") (S : SO I ℝ) (hS : S.Sym)
    (hF : ∀ x, o.file = some x → ∀ i j a b, x i j a b = - x j i a b ∧ x i j a b = - x i j b a) :
    SameRun (fun r r' => r'.log = r.log ∧ r'.energy = r.energy ∧ SameSD D r.st.amps r'.st.amps)
      (WholeDrive.calculate D o S) (WholeDrive.calculate D { o with cc_type := "CCD" } S) := by
  have key : ∀ k, SameSD D (driveAmps D o S k) (driveAmps D { o with cc_type := "CCD" } S k) := by
    intro k
    induction k with
    | zero => exact ⟨rfl, rfl, fun _ _ _ _ => rfl, fun _ _ _ _ _ _ _ _ => rfl⟩
    | succ k ih =>
      rw [driveAmps_succ, driveAmps_succ, ho, show WholeDrive.eqns "CCDQ" = .ccdq by decide +kernel,
        show WholeDrive.eqns ({ o with cc_type := "CCD" } : Opts I).cc_type = .ccd from (by decide +kernel : WholeDrive.eqns "CCD" = .ccd)]
      exact pass_t4_few D hc o.ε _ _ (C91_antisymmetry D o S hS hF k) ih
  have h := drive_same D D o S { o with cc_type := "CCD" } S 1 one_pos (by rw [ho]; exact (by decide +kernel : hasSub "D" "CCD" = hasSub "D" "CCDQ")) rfl (one_mul _).symm fun k => by
    rw [one_mul]
    unfold driveE WholeDrive.energy
    rw [((key k).energy D).2, ho, if_neg (show ¬ hasSub "S" "CCD" = true by decide +kernel), if_neg (by decide +kernel)]
  revert h
  cases WholeDrive.calculate D o S <;> cases WholeDrive.calculate D { o with cc_type := "CCD" } S <;> intro h
  · exact h
  · exact h
  · exact h
  · obtain ⟨h1, h2, h3, h4⟩ := h
    exact ⟨by simpa using h1, by simpa using h2, by rw [h4, h3]; exact key _⟩

/-! ## the other driver -/

/-- The CCD energies of the two drivers agree. -/
theorem ccd_energies_agree (B : SO I ℝ) (hB : B.Sym) : spinorbitalCCDE D B = ccdEnergy D B := by
  have e := eval_eq_of_isZero D B.T N.kinds hB.holds _ _ _ _ _ Cert.ccd_energy_wicked [] rfl
  exact e

omit [Inhabited I] in
/-- The loop of the other driver, from pass `idx` to the pass `k` that ends it. -/
theorem slow_loop_to [DecidableEq I] (c : Cfg (SO I ℝ) (WholeSlow.Acc D) ℝ) (B : ℕ → SO I ℝ) (e : ℕ → ℝ) (acc : WholeSlow.Acc D)
    (hs : ∀ j l2, c.step ⟨B j, l2, acc⟩ = .ok ⟨B (j + 1), B j, acc⟩) (he : ∀ j, c.energy (B j) = .ok (e j)) (k : ℕ) (hk : k < c.maxIter)
    (h76 : c.maxIter ≤ 76) (h1 : |e k - e (k + 1)| < c.eps) (h2 : ∀ j < k, ¬ |e j - e (j + 1)| < c.eps) :
    ∀ m idx cur l2 log, idx + m = k → c.loop (c.maxIter - idx) idx (e idx) cur ⟨B idx, l2, acc⟩ log =
      .ok (⟨B (k + 1), B k, acc⟩, some (e (k + 1)), log ++ (List.range (m + 1)).map fun j => e (idx + j + 1)) := by
  intro m
  induction m with
  | zero =>
    intro idx cur l2 log hi
    obtain rfl : idx = k := by omega
    obtain ⟨n, hn⟩ : ∃ n, c.maxIter - idx = n + 1 := ⟨c.maxIter - idx - 1, by omega⟩
    rw [hn, Cfg.loop, if_neg (by omega), hs]
    simp only [Bind.bind, Except.bind, he]
    rw [if_pos h1]
    simp
  | succ m ih =>
    intro idx cur l2 log hi
    obtain ⟨n, hn⟩ : ∃ n, c.maxIter - idx = n + 1 := ⟨c.maxIter - idx - 1, by omega⟩
    rw [hn, loop_next c n idx (e idx) cur _ _ log (e (idx + 1)) (hs idx l2) (he _) (by omega) (not_lt.1 (h2 idx (by omega))) (by omega),
      show n = c.maxIter - (idx + 1) by omega, ih (idx + 1) _ _ _ (by omega), List.range_succ_eq_map (n := m + 1), List.map_cons, List.map_map,
      List.append_assoc]
    refine congrArg (fun l => Except.ok (_, _, log ++ l)) ?_
    show e (idx + 1) :: _ = e (idx + 0 + 1) :: _
    refine congrArg _ (List.map_congr_left fun j _ => ?_)
    show _ = e (idx + (j + 1) + 1)
    congr 1
    omega

/-- **C91** If a CCD calculation of `DriveCC` without amplitude file returns, so does the spin-orbital CCD calculation of `UltT2CC`
without DIIS, with the same energies and the same doubles. The other way round holds if the energy settles: `UltT2CC` returns also if
it does not. -/
theorem C91_kernel [DecidableEq I] (o : Opts I) (ho : o.cc_type = "CCD") (hfile : o.file = none) (h76 : o.maxIter ≤ 76) (S : SO I ℝ) (hS : S.Sym)
    (o' : WholeSlow.Opts I) (ho' : o'.cc_type = "CCD") (hd : o'.d2 = WholeDrive.den2 o.ε) (hm : o'.maxIter = o.maxIter) (he : o'.eps = o.eps)
    (hdi : o'.diis = none) (r : Res (SO I ℝ) Unit ℝ) (hr : WholeDrive.calculate D o S = .ok r) :
    ∃ r', WholeSlow.calculate D o' S = .ok r' ∧ r'.energy = r.energy ∧ r'.log = r.log ∧ r'.st.amps.t2 = r.st.amps.t2 := by
  have hF : ∀ x, o.file = some x → ∀ i j a b, x i j a b = - x j i a b ∧ x i j a b = - x i j b a := fun x hx => by rw [hfile] at hx; cases hx
  set B : ℕ → SO I ℝ := fun j => { S with t2 := (driveAmps D o S j).t2 } with hB
  have hsym : ∀ j, (B j).Sym := fun j =>
    { hS with t2_anti0 := (C91_antisymmetry D o S hS hF j).t2_anti0, t2_anti2 := (C91_antisymmetry D o S hS hF j).t2_anti2 }
  have hres : ∀ j, WholeSlow.resid D o'.cc_type o'.d2 (B j) = .ok (B (j + 1)) := by
    intro j
    unfold WholeSlow.resid
    rw [ho', if_neg (by decide +kernel)]
    refine congrArg _ ?_
    have b : ∀ {x y}, x = y → ({ S with t2 := x } : SO I ℝ) = { S with t2 := y } := by rintro _ _ rfl; rfl
    refine b ?_
    rw [driveAmps_succ, ho, show WholeDrive.eqns "CCD" = .ccd by decide +kernel]
    funext a c i l
    obtain ⟨ef, eg⟩ := drive_integrals D o S j
    set C := driveAmps D o S j with hC
    have hN : (noSingles C).Sym := { C91_antisymmetry D o S hS hF j with }
    have e1 := C37_ccd_two_forms D (noSingles C) hN (fun _ _ => rfl) a c i l
    have e2 := (ccd_congr D (noSingles C) (B j) ef eg rfl).1
    show (if _ then _ else (residSlow D "CCD" _ (B j) a c i l + _) * _) = (ccsd_t2resid D (noSingles C) i l a c + _) * _
    rw [if_neg (by decide), e1, e2, hd]
    simp only [residSlow, if_neg (show ¬ ("CCD" = "pCCD") by decide), if_neg (show ¬ ("CCD" = "LCCD") by decide), add_zero]
    rfl
  have hstep : ∀ j l2, (WholeSlow.cfg D o').step ⟨B j, l2, (Diis.init (o'.diis.getD 0) o'.start, 0)⟩ =
      .ok ⟨B (j + 1), B j, (Diis.init (o'.diis.getD 0) o'.start, 0)⟩ := by
    intro j l2
    refine (step_ok_iff _ _ _).2 ⟨B (j + 1), hres j, ?_, rfl⟩
    simp only [WholeSlow.cfg, WholeSlow.accel, hdi, Option.isSome_none, Bool.false_eq_true, if_false]
  have hen : ∀ j, (WholeSlow.cfg D o').energy (B j) = .ok (driveE D o S j) := by
    intro j
    show WholeSlow.energy D o'.cc_type o'.d2 (B j) = _
    unfold WholeSlow.energy driveE WholeDrive.energy
    rw [ho', if_neg (by decide +kernel), ho, if_neg (by decide +kernel), ccd_energies_agree D _ (C91_antisymmetry D o S hS hF j)]
    obtain ⟨ef, eg⟩ := drive_integrals D o S j
    rw [(ccd_congr D (driveAmps D o S j) (B j) ef eg rfl).2]
  obtain ⟨hD1, -⟩ := C91_result D o S
  rcases hD1 (by rw [ho]; decide +kernel) with ⟨k, hk, hs, hl, r0, hr0, ha, hee, hlog⟩ | ⟨-, hbad⟩
  · rw [hr] at hr0
    cases hr0
    have hinit : WholeSlow.initial D o' S = ⟨B 0, S, (Diis.init (o'.diis.getD 0) o'.start, 0)⟩ := by
      have b : ∀ {x y : SO I ℝ} {z} {w : WholeSlow.Acc D}, x = y → (⟨x, z, w⟩ : St (SO I ℝ) (WholeSlow.Acc D)) = ⟨y, z, w⟩ := by rintro _ _ _ _ rfl; rfl
      refine b ?_
      show ({ S with t2 := _ } : SO I ℝ) = { S with t2 := _ }
      have b' : ∀ {x y}, x = y → ({ S with t2 := x } : SO I ℝ) = { S with t2 := y } := by rintro _ _ rfl; rfl
      refine b' ?_
      funext a c i l
      show S.g a c i l * o'.d2 a c i l = (match o.file with | some x => x i l a c | none => S.g i l a c * WholeDrive.den2 o.ε a c i l)
      rw [hfile, hd, hS.g_herm a c i l]
    have hloop := slow_loop_to D (WholeSlow.cfg D o') B (driveE D o S) (Diis.init (o'.diis.getD 0) o'.start, 0) hstep hen k
      (by show k < o'.maxIter; omega) (by show o'.maxIter ≤ 76; omega) (by show _ < o'.eps; rw [he]; exact hs)
      (fun j hj => by show ¬ _ < o'.eps; rw [he]; exact hl j hj) k 0 none S [] (by omega)
    refine ⟨⟨⟨B (k + 1), B k, (Diis.init (o'.diis.getD 0) o'.start, 0)⟩, driveE D o S (k + 1), _⟩, ?_, hee.symm, hlog.symm, ?_⟩
    · unfold WholeSlow.calculate
      rw [hinit, run_from _ _ _ (hen 0)]
      rw [Nat.sub_zero] at hloop
      rw [hloop]
      simp
    · rw [ha]
  · rw [hr] at hbad; cases hbad

/-! ## the energies stored at the end -/

/-- The energy of the reference determinant from the Fock matrix and the integrals. -/
noncomputable def refE (S : SO I ℝ) : ℝ := ∑ i ∈ D 0, S.f i i - 1 / 2 * ∑ i ∈ D 0, ∑ j ∈ D 0, S.g i j i j

/-- The correlation energy of the amplitudes: doubles, and for names with an `"S"` also singles. -/
noncomputable def driveCorrE (name : String) (S : SO I ℝ) : ℝ :=
  1 / 4 * ∑ i ∈ D 0, ∑ j ∈ D 0, ∑ a ∈ D 1, ∑ b ∈ D 1, S.g a b i j * S.t2 a b i j +
  if hasSub "S" name then ∑ i ∈ D 0, ∑ a ∈ D 1, S.f a i * S.t1 a i +
    1 / 2 * ∑ i ∈ D 0, ∑ j ∈ D 0, ∑ a ∈ D 1, ∑ b ∈ D 1, S.g a b i j * S.t1 a i * S.t1 b j else 0

theorem drive_energy (name : String) (S : SO I ℝ) : WholeDrive.energy D name S = refE D S + driveCorrE D name S := by
  have hc : ∀ F : I → I → I → I → ℝ, ∑ a ∈ D 1, ∑ b ∈ D 1, ∑ i ∈ D 0, ∑ j ∈ D 0, F a b i j = ∑ i ∈ D 0, ∑ j ∈ D 0, ∑ a ∈ D 1, ∑ b ∈ D 1, F a b i j := by
    intro F
    rw [Finset.sum_congr rfl fun a _ => (Finset.sum_comm (s := D 1) (t := D 0)), Finset.sum_comm]
    refine Finset.sum_congr rfl fun i _ => ?_
    rw [Finset.sum_congr rfl fun a _ => (Finset.sum_comm (s := D 1) (t := D 0)), Finset.sum_comm]
  have hd : spinorbitalCCDE D S = refE D S + 1 / 4 * ∑ i ∈ D 0, ∑ j ∈ D 0, ∑ a ∈ D 1, ∑ b ∈ D 1, S.g a b i j * S.t2 a b i j := by
    rw [← hc]
    unfold spinorbitalCCDE refE
    simp [Gen.spinorbitalCCDE, N.f, N.g, N.t2, N.iₒ, N.jₒ, N.aᵥ, N.bᵥ, Prog.eval, Blk.eval, termVal, dums, vars, varsIx, insertNew, sumOver, evalFs, SO.T, at4,
      at2, Ein.bind, Function.update, sp]
    simp only [mul_comm (S.t2 _ _ _ _)]
    ring
  unfold WholeDrive.energy driveCorrE
  cases hasSub "S" name with
  | false => rw [if_neg Bool.false_ne_true, if_neg Bool.false_ne_true, hd, add_zero]
  | true =>
    rw [if_pos rfl, if_pos rfl, ← add_assoc, ← hd]
    have e : Gen.spinorbitalCCSDE = Gen.spinorbitalCCDE ++ [⟨1, [N.f [N.aᵥ, N.iₒ], N.t1 [N.aᵥ, N.iₒ]], [(1, [])]⟩,
      ⟨1/2, [N.t1 [N.aᵥ, N.iₒ], N.t1 [N.bᵥ, N.jₒ], N.g [N.aᵥ, N.bᵥ, N.iₒ, N.jₒ]], [(1, [])]⟩] := rfl
    unfold spinorbitalCCSDE spinorbitalCCDE
    rw [e, Prog.eval_append]
    congr 1
    simp [N.f, N.g, N.t1, N.iₒ, N.jₒ, N.aᵥ, N.bᵥ, Prog.eval, Blk.eval, termVal, dums, vars, varsIx, insertNew, sumOver, evalFs, SO.T, at4, at2, Ein.bind,
      Function.update, sp]
    congr 1
    · rw [Finset.sum_comm]
    · congr 1
      rw [hc]
      exact Finset.sum_congr rfl fun i _ => Finset.sum_congr rfl fun j _ => Finset.sum_congr rfl fun a _ => Finset.sum_congr rfl fun b _ => by ring

/-- **C91** The energies stored at the end of a calculation. `totalE` is the energy returned, that is, the reference energy without nuclear
repulsion plus the correlation energy of the amplitudes. If the SCF energy is the nuclear repulsion plus the reference energy, `totalCorrE` is
that correlation energy. Without amplitude file, `mp2e` is the reference energy plus the energy of second-order perturbation theory. -/
theorem C91_report (o : Opts I) (nucE hf : ℝ) (S : SO I ℝ) (hn : hasSub "(" o.cc_type = false) (r : Res (SO I ℝ) Unit ℝ)
    (hr : WholeDrive.calculate D o S = .ok r) : ∃ x, WholeDrive.finish D o nucE hf S r = .ok x ∧
      x.totalE = refE D S + driveCorrE D o.cc_type r.st.amps ∧
      (hf = nucE + refE D S → x.totalCorrE = driveCorrE D o.cc_type r.st.amps) ∧
      (o.file = none → x.mp2e = refE D S + 1 / 4 * ∑ i ∈ D 0, ∑ j ∈ D 0, ∑ a ∈ D 1, ∑ b ∈ D 1,
        S.g a b i j * S.g i j a b / (o.ε i + o.ε j - o.ε a - o.ε b)) := by
  obtain ⟨-, -, -, h4, h5, -⟩ := drive_returned D o S r hr
  have hi := drive_integrals D o S r.log.length
  have he : r.energy = refE D S + driveCorrE D o.cc_type r.st.amps := by
    rw [h5, driveE, drive_energy, h4]
    congr 1
    unfold refE
    rw [hi.1, hi.2]
  refine ⟨_, by unfold WholeDrive.finish; rw [hn]; rfl, he, fun h => ?_, fun h => ?_⟩
  · show nucE + r.energy - hf = _
    rw [he, h]
    ring
  · show WholeDrive.energy D o.cc_type (WholeDrive.start o S) = _
    rw [drive_energy]
    unfold driveCorrE
    have ez : (if hasSub "S" o.cc_type then ∑ i ∈ D 0, ∑ a ∈ D 1, (WholeDrive.start o S).f a i * (WholeDrive.start o S).t1 a i +
      1 / 2 * ∑ i ∈ D 0, ∑ j ∈ D 0, ∑ a ∈ D 1, ∑ b ∈ D 1, (WholeDrive.start o S).g a b i j * (WholeDrive.start o S).t1 a i * (WholeDrive.start o S).t1 b j else 0) = 0 := by
      simp [WholeDrive.start]
    rw [ez, add_zero]
    refine congrArg (fun x => refE D S + 1 / 4 * x) ?_
    refine Finset.sum_congr rfl fun i _ => Finset.sum_congr rfl fun j _ => Finset.sum_congr rfl fun a _ => Finset.sum_congr rfl fun b _ => ?_
    simp only [WholeDrive.start, h, WholeDrive.den2]
    rw [show -o.ε a - o.ε b + o.ε i + o.ε j = o.ε i + o.ε j - o.ε a - o.ε b by ring]
    ring

/-! ## an example -/

/-- Two electrons in four spin orbitals with orbital energies 1, 1, 5/2, 5/2 and the solution of the CCSD equations. -/
def exPair : SO ℕ ℚ where
  f p q := if p = q then if p < 2 then 1 else 5 / 2 else 0
  g p q r s := 2 * (occPair p q * virtPair r s + virtPair p q * occPair r s)
  t2 a b i j := virtPair a b * occPair i j * (-1 / 2)

theorem exPair_sym : (exPair.cast ℝ).Sym := by
  have po : ∀ p q : ℕ, (occPair p q : ℚ) = - occPair q p := by
    intro p q
    unfold occPair
    by_cases h1 : p = 0 ∧ q = 1
    · obtain ⟨rfl, rfl⟩ := h1; norm_num
    · by_cases h2 : p = 1 ∧ q = 0
      · obtain ⟨rfl, rfl⟩ := h2; norm_num
      · rw [if_neg h1, if_neg h2, if_neg (fun h => h2 ⟨h.2, h.1⟩), if_neg (fun h => h1 ⟨h.2, h.1⟩), neg_zero]
  have pv : ∀ p q : ℕ, (virtPair p q : ℚ) = - virtPair q p := by
    intro p q
    unfold virtPair
    by_cases h1 : p = 2 ∧ q = 3
    · obtain ⟨rfl, rfl⟩ := h1; norm_num
    · by_cases h2 : p = 3 ∧ q = 2
      · obtain ⟨rfl, rfl⟩ := h2; norm_num
      · rw [if_neg h1, if_neg h2, if_neg (fun h => h2 ⟨h.2, h.1⟩), if_neg (fun h => h1 ⟨h.2, h.1⟩), neg_zero]
  have c : ∀ {x y : ℚ}, x = - y → (x : ℝ) = - (y : ℝ) := fun h => by rw [h, Rat.cast_neg]
  constructor
  · intro p q
    refine congrArg (fun x : ℚ => (x : ℝ)) ?_
    simp only [exPair]
    by_cases h : p = q
    · rw [h]
    · rw [if_neg h, if_neg (Ne.symm h)]
  · intro p q r s; refine c ?_; simp only [exPair]; rw [po p q, pv p q]; ring
  · intro p q r s; refine c ?_; simp only [exPair]; rw [po r s, pv r s]; ring
  · intro p q r s; refine congrArg (fun x : ℚ => (x : ℝ)) ?_; simp only [exPair]; ring
  · intro p q r s; refine c ?_; simp only [exPair]; rw [pv p q]; ring
  · intro p q r s; refine c ?_; simp only [exPair]; rw [po r s]; ring
  all_goals intros; refine c ?_; simp [exPair]

/-- A CCSD calculation that reads the doubles of `exPair` from a file. -/
noncomputable def exOpts : Opts ℕ where
  cc_type := "CCSD"
  ε p := if p < 2 then 1 else 5 / 2
  maxIter := 50
  eps := 1 / 1000
  diis := some 6
  file := some fun i j a b => (exPair.cast ℝ).t2 a b i j

theorem exPair_start : WholeDrive.start exOpts (exPair.cast ℝ) = exPair.cast ℝ := by
  simp only [WholeDrive.start, exOpts, SO.cast, exPair, Rat.cast_zero]

theorem exPair_t1 : ∀ i ∈ Witness.D 0, ∀ a ∈ Witness.D 1, ccsd_t1resid Witness.D (exPair.cast ℝ) i a = 0 := by
  have k : ∀ i ∈ Witness.D 0, ∀ a ∈ Witness.D 1, ccsd_t1resid Witness.D exPair i a = 0 := by decide +kernel
  intro i hi a ha
  have e := k i hi a ha
  unfold ccsd_t1resid at e ⊢
  rw [SO.eval_cast, e, Rat.cast_zero]

theorem exPair_nz : ∀ t l, nzPair t l = false → exPair.T t l = 0 := by
  intro t l h
  have h2 : ∀ p q, l = [p, q] → p ≠ q := by
    rintro p q rfl e
    exact absurd h (by simp [nzPair, e])
  have h4 : ∀ p q r s, l = [p, q, r, s] → (occPair p q * virtPair r s : ℚ) = 0 ∧ (virtPair p q * occPair r s : ℚ) = 0 := by
    rintro p q r s rfl
    exact pair_support p q r s h
  unfold SO.T
  split_ifs
  · unfold at2
    split
    · exact if_neg (h2 _ _ rfl)
    · rfl
  · unfold at4
    split
    · show 2 * (_ + _) = (0 : ℚ)
      rw [(h4 _ _ _ _ rfl).1, (h4 _ _ _ _ rfl).2, add_zero, mul_zero]
    · rfl
  · unfold at2; split <;> rfl
  · unfold at4
    split
    · show virtPair _ _ * occPair _ _ * (-1 / 2) = (0 : ℚ)
      rw [(h4 _ _ _ _ rfl).2, zero_mul]
    · rfl
  · unfold at6; split <;> rfl
  · unfold at8; split <;> rfl
  · unfold at2; split <;> rfl
  · unfold at4; split <;> rfl
  · unfold at6; split <;> rfl
  · unfold at8; split <;> rfl
  · rfl

theorem exPair_t2 : ∀ i ∈ Witness.D 0, ∀ j ∈ Witness.D 0, ∀ a ∈ Witness.D 1, ∀ b ∈ Witness.D 1, ccsd_t2resid Witness.D (exPair.cast ℝ) i j a b = 0 := by
  have k : ∀ i ∈ Witness.D 0, ∀ j ∈ Witness.D 0, ∀ a ∈ Witness.D 1, ∀ b ∈ Witness.D 1, ccd_t2residual Witness.D exPair a b i j = 0 := by
    unfold ccd_t2residual
    simp only [Prog.eval_terms Witness.D WL WL_ok _ nzPair exPair_nz]
    decide +kernel
  intro i hi j hj a ha b hb
  have e := k i hi j hj a ha b hb
  rw [C37_ccd_two_forms Witness.D _ exPair_sym (fun _ _ => Rat.cast_zero)]
  unfold ccd_t2residual at e ⊢
  rw [SO.eval_cast, e, Rat.cast_zero]

theorem exPair_energy : spinorbitalCCSDE Witness.D (exPair.cast ℝ) = 1 := by
  have k : spinorbitalCCSDE Witness.D exPair = 1 := by decide +kernel
  unfold spinorbitalCCSDE at k ⊢
  rw [SO.eval_cast, k, Rat.cast_one]

theorem exPair_solves : Solves_ccsd Witness.D (exPair.cast ℝ) ∧ spinorbitalCCSDE Witness.D (exPair.cast ℝ) = 1 :=
  ⟨⟨exPair_t1, exPair_t2⟩, exPair_energy⟩

theorem exPair_gap : ∀ i ∈ Witness.D 0, ∀ a ∈ Witness.D 1, exOpts.ε i < exOpts.ε a := by
  intro i hi a ha
  have h1 : i < 2 := by revert hi; simp only [Witness.D, Finset.mem_insert, Finset.mem_singleton]; omega
  have h2 : ¬ a < 2 := by revert ha; simp only [Witness.D, Finset.mem_insert, Finset.mem_singleton]; omega
  simp only [exOpts, if_pos h1, if_neg h2]
  norm_num

/-- The hypotheses of `C91_two_electrons` hold: the calculation returns after one pass with energy 1, its amplitudes are stationary and
are an eigenstate of the Hamiltonian. -/
theorem exPair_returns : ∃ r, WholeDrive.calculate Witness.D exOpts (exPair.cast ℝ) = .ok r ∧ r.energy = 1 ∧ DriveStationary Witness.D .ccsd exOpts.ε r.st.amps ∧
    ∃ h, IsEigen Witness.D Witness.D_disjoint h (exPair.cast ℝ).g 5 (clSD Witness.D Witness.D_disjoint r.st.amps) 1 := by
  have hst := ((C91_stationary Witness.D exOpts.ε exPair_gap (exPair.cast ℝ)).2.1).2 exPair_solves.1
  have h1 : driveAmps Witness.D exOpts (exPair.cast ℝ) 1 = WholeDrive.pass Witness.D .ccsd exOpts.ε (exPair.cast ℝ) := by
    rw [driveAmps_succ]
    unfold driveAmps
    rw [Function.iterate_zero, id, exPair_start, show WholeDrive.eqns exOpts.cc_type = .ccsd from (by decide +kernel : WholeDrive.eqns "CCSD" = .ccsd)]
  have hsame : SameSD Witness.D (WholeDrive.pass Witness.D .ccsd exOpts.ε (exPair.cast ℝ)) (exPair.cast ℝ) := ⟨rfl, rfl, hst.t1, hst.t2⟩
  have hS : hasSub "S" exOpts.cc_type = true := (by decide +kernel : hasSub "S" "CCSD" = true)
  have e0 : driveE Witness.D exOpts (exPair.cast ℝ) 0 = 1 := by
    unfold driveE driveAmps WholeDrive.energy
    rw [if_pos hS, Function.iterate_zero, id, exPair_start]
    exact exPair_solves.2
  have e1 : driveE Witness.D exOpts (exPair.cast ℝ) 1 = 1 := by
    unfold driveE WholeDrive.energy
    rw [if_pos hS, h1, (hsame.energy Witness.D).1]
    exact exPair_solves.2
  have hset : Settled Witness.D exOpts (exPair.cast ℝ) 0 := by
    unfold Settled
    rw [e0, e1]
    norm_num [exOpts]
  rcases (C91_result Witness.D exOpts (exPair.cast ℝ)).1 (by decide +kernel : hasSub "D" "CCSD" = true) with ⟨k, hk, hs, hl, r, hr, ha, he, -⟩ | ⟨hb, -⟩
  · obtain rfl : k = 0 := by
      by_contra hne
      exact hl 0 (by omega) hset
    rw [e1] at he
    rw [h1] at ha
    have hstat : DriveStationary Witness.D .ccsd exOpts.ε r.st.amps := by
      refine ((C91_stationary Witness.D exOpts.ε exPair_gap r.st.amps).2.1).2 ?_
      rw [ha]
      refine ⟨fun i hi a ha => ?_, fun i hi j hj a ha b hb => ?_⟩
      · exact (Prog.eval_local Witness.D _ _ Gen.ccsd_t1resid driveFac (by decide +kernel) (hsame.T Witness.D) [0, 1] (by decide +kernel) [i, a]
          (by simp [InBox, ha, hi])).trans (exPair_solves.1.1 i hi a ha)
      · exact (Prog.eval_local Witness.D _ _ Gen.ccsd_t2resid driveFac (by decide +kernel) (hsame.T Witness.D) [0, 0, 1, 1] (by decide +kernel) [i, j, a, b]
          (by simp [InBox, ha, hi, hb, hj])).trans (exPair_solves.1.2 i hi j hj a ha b hb)
    refine ⟨r, hr, he, hstat, ?_⟩
    let h : ℕ → ℕ → ℝ := fun p q => (exPair.cast ℝ).f p q - ∑ k ∈ Witness.D 0, (exPair.cast ℝ).g p k q k
    refine ⟨h, ?_⟩
    rw [← he]
    refine C91_two_electrons Witness.D Witness.D_disjoint (by decide) exOpts (by decide +kernel : WholeDrive.eqns "CCSD" = .ccsd) exPair_gap (exPair.cast ℝ) exPair_sym ?_ h
      (fun p q => by simp [h]) r hr hstat 5 le_rfl
    intro x hx i j a b
    cases hx
    exact ⟨exPair_sym.t2_anti2 a b i j, exPair_sym.t2_anti0 a b i j⟩
  · exact absurd hset (hb 0 (by decide))

/-- The total energy stored for the example. -/
example (nucE : ℝ) : ∃ r x, WholeDrive.calculate Witness.D exOpts (exPair.cast ℝ) = .ok r ∧
    WholeDrive.finish Witness.D exOpts nucE (nucE + refE Witness.D (exPair.cast ℝ)) (exPair.cast ℝ) r = .ok x ∧ x.totalE = 1 := by
  obtain ⟨r, hr, he, -⟩ := exPair_returns
  obtain ⟨x, hx, -⟩ := C91_report Witness.D exOpts nucE (nucE + refE Witness.D (exPair.cast ℝ)) (exPair.cast ℝ)
    (by decide +kernel : hasSub "(" "CCSD" = false) r hr
  refine ⟨r, x, hr, hx, ?_⟩
  unfold WholeDrive.finish at hx
  rw [show (hasSub "(" exOpts.cc_type && !hasSub "(qf)" exOpts.cc_type) = false from (by decide +kernel : (hasSub "(" "CCSD" && !hasSub "(qf)" "CCSD") = false)] at hx
  injection hx with hx
  rw [← hx]
  exact he

end Verif.Props
