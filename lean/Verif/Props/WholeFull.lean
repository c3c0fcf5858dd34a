import Verif.Model.WholeFull
import Verif.Props.Whole
import Verif.Props.CcdqSym
import Verif.Props.SpinHigh
import Verif.Props.SpinProjected

/-!
# Whole calculations with connected quadruples (C87)

What a `CCDQ` calculation under `fullCCType` returns, with any number of passes and with or without DIIS.
-/

namespace Verif.Props

open Verif.Ein Verif.UT2 Verif.Kernel Verif.WholeFull

variable {I : Type} [DecidableEq I] [Inhabited I] (D : Nat → Finset I)

/-! ## passes -/

/-- A pass that ends without an error. -/
theorem full_step (o : Opts I) (s s' : St (SI I ℝ) (Acc D)) (h : (cfg D o).step s = .ok s') :
    o.cc_type = "CCDQ" ∧ accel D o.diis.isSome s.diis (iterCcdq D o.εa o.εb s.amps) = .ok (s'.diis, s'.amps) := by
  obtain ⟨a, ha, hb, -⟩ := (step_ok_iff _ _ _).1 h
  simp only [cfg, WholeFull.resid] at ha
  split at ha
  · next hc =>
    simp only [Except.ok.injEq] at ha
    exact ⟨hc, ha ▸ hb⟩
  · cases ha

/-- A property of the arrays that passes keep, and that linear combinations of amplitude vectors keep, holds at the end. -/
theorem full_keeps (o : Opts I) (P : SI I ℝ → Prop) (W : Submodule ℝ (Slot D → ℝ)) (hstep : ∀ A, P A → P (iterCcdq D o.εa o.εb A))
    (hpack : ∀ A, P A → pack D A ∈ W) (hunpack : ∀ A v, P A → v ∈ W → P (unpack D v A))
    (A : SI I ℝ) (hA : P A) (r : Res (SI I ℝ) (Acc D) ℝ) (h : calculate D o A = .ok r) : P r.st.amps := by
  refine (run_keeps (cfg D o) (fun s => P s.amps ∧ ∀ x ∈ s.diis.1.prev, x ∈ W) ?_ _ ⟨hA, ?_⟩ r h).1
  · rintro s s' ⟨h1, h2⟩ hs
    obtain ⟨-, hb⟩ := full_step D o s s' hs
    have hPa := hstep _ h1
    generalize iterCcdq D o.εa o.εb s.amps = a at *
    simp only [accel] at hb
    split at hb
    · split at hb
      · cases hb
      · next v hv =>
        simp only [Except.ok.injEq, Prod.mk.injEq] at hb
        obtain ⟨hd, hu⟩ := hb
        rw [← hd, ← hu]
        exact ⟨hunpack a v hPa (newVec_mem W _ _ _ v h2 (hpack a hPa) hv), push_mem W _ _ _ h2 (hpack a hPa)⟩
    · simp only [Except.ok.injEq, Prod.mk.injEq] at hb
      obtain ⟨hd, hu⟩ := hb
      rw [← hd, ← hu]
      exact ⟨hPa, h2⟩
  · intro x hx
    simp [initial, Diis.init] at hx

/-- Calculations whose arrays are related in a way that passes keep, and whose amplitude vectors differ by an isometry, agree. -/
theorem full_related (o o' : Opts I) (hc : o'.cc_type = o.cc_type) (hm : o'.maxIter = o.maxIter) (he : o'.eps = o.eps) (hd : o'.diis = o.diis)
    (hs : o'.start = o.start) (φ : (Slot D → ℝ) →ₗ[ℝ] (Slot D → ℝ)) (hφ : ∀ x y, Diis.edot (φ x) (φ y) = Diis.edot x y)
    (W : Submodule ℝ (Slot D → ℝ)) (S : SI I ℝ → SI I ℝ → Prop)
    (hstep : ∀ A B, S A B → S (iterCcdq D o.εa o.εb A) (iterCcdq D o'.εa o'.εb B))
    (hW : ∀ A B, S A B → pack D A ∈ W) (hpack : ∀ A B, S A B → pack D B = φ (pack D A))
    (hunpack : ∀ A B v, S A B → v ∈ W → S (unpack D v A) (unpack D (φ v) B))
    (hE : ∀ A B, S A B → ccsd_energy_with_spin D B = ccsd_energy_with_spin D A) (A B : SI I ℝ) (hAB : S A B) :
    SameRun (fun r r' => S r.st.amps r'.st.amps ∧ r'.energy = r.energy ∧ r'.log = r.log) (calculate D o A) (calculate D o' B) := by
  let R : St (SI I ℝ) (Acc D) → St (SI I ℝ) (Acc D) → Prop := fun s t => (S s.amps t.amps ∧ ∀ x ∈ s.diis.1.prev, x ∈ W) ∧
    t.diis.1 = diisMap φ s.diis.1 ∧ t.diis.2 = φ s.diis.2
  have key := run_same (cfg D o) (cfg D o') hm he R ?_ ?_ (initial D o A) (initial D o' B) ?_
  · unfold calculate
    cases h1 : (cfg D o).run (initial D o A) <;> cases h2 : (cfg D o').run (initial D o' B) <;> rw [h1, h2] at key
    · exact key
    · exact key
    · exact key
    · exact ⟨key.1.1.1, key.2⟩
  · rintro s t ⟨⟨p, -⟩, -, -⟩
    simp only [cfg]
    rw [hE _ _ p]
  · rintro s t ⟨⟨p, w⟩, h1, h2⟩
    have hp := hstep _ _ p
    have a1 : (cfg D o).resid s.amps ((cfg D o).dag s.amps) = WholeFull.resid D o.cc_type o.εa o.εb s.amps := rfl
    have a2 : (cfg D o').resid t.amps ((cfg D o').dag t.amps) = WholeFull.resid D o.cc_type o'.εa o'.εb t.amps := by rw [← hc]; rfl
    unfold Cfg.step
    simp only [a1, a2, WholeFull.resid]
    by_cases hq : o.cc_type = "CCDQ"
    · simp only [if_pos hq, Bind.bind, Except.bind]
      generalize iterCcdq D o.εa o.εb s.amps = A1 at *
      generalize iterCcdq D o'.εa o'.εb t.amps = B1 at *
      have b1 : (cfg D o).accel = accel D o.diis.isSome := rfl
      have b2 : (cfg D o').accel = accel D o.diis.isSome := by rw [← hd]; rfl
      rw [b1, b2]
      unfold accel
      cases o.diis.isSome with
      | false => exact ⟨⟨hp, w⟩, h1, h2⟩
      | true =>
        simp only [if_true]
        have e : t.diis.1.newVec (pack D B1) (t.diis.2 - pack D B1) = (s.diis.1.newVec (pack D A1) (s.diis.2 - pack D A1)).map φ := by
          rw [h1, h2, hpack _ _ hp, ← map_sub, newVec_map _ hφ]
        rw [e]
        cases hv : s.diis.1.newVec (pack D A1) (s.diis.2 - pack D A1) with
        | none => exact rfl
        | some v =>
          refine ⟨⟨hunpack _ _ v hp (newVec_mem W _ _ _ v w (hW _ _ hp) hv), push_mem W _ _ _ w (hW _ _ hp)⟩, ?_, rfl⟩
          simp only
          rw [h1, h2, hpack _ _ hp, ← map_sub, push_map]
    · simp only [if_neg hq, Bind.bind, Except.bind]
      exact rfl
  · refine ⟨⟨hAB, by simp [initial, Diis.init]⟩, ?_, hpack _ _ hAB⟩
    simp [initial, Diis.init, diisMap, hd, hs]

/-! ## antisymmetry -/

section anti8

variable {V O : Type} {x y z : Bool} {h h' : V → V → V → V → O → O → O → O → ℝ}

/-- Sums, products with numbers and with symmetric arrays. -/
theorem Anti8.add (p : Anti8 x y z h) (q : Anti8 x y z h') : Anti8 x y z fun a b c d i j k l => h a b c d i j k l + h' a b c d i j k l where
  v0 t a b c d i j k l := by rw [p.v0 t, q.v0 t]; ring
  v1 t a b c d i j k l := by rw [p.v1 t, q.v1 t]; ring
  v2 t a b c d i j k l := by rw [p.v2 t, q.v2 t]; ring
  o0 t a b c d i j k l := by rw [p.o0 t, q.o0 t]; ring
  o1 t a b c d i j k l := by rw [p.o1 t, q.o1 t]; ring
  o2 t a b c d i j k l := by rw [p.o2 t, q.o2 t]; ring

theorem Anti8.smul (m : ℝ) (p : Anti8 x y z h) : Anti8 x y z fun a b c d i j k l => m * h a b c d i j k l where
  v0 t a b c d i j k l := by rw [p.v0 t]; ring
  v1 t a b c d i j k l := by rw [p.v1 t]; ring
  v2 t a b c d i j k l := by rw [p.v2 t]; ring
  o0 t a b c d i j k l := by rw [p.o0 t]; ring
  o1 t a b c d i j k l := by rw [p.o1 t]; ring
  o2 t a b c d i j k l := by rw [p.o2 t]; ring

theorem Anti8.zero : Anti8 x y z fun (_ _ _ _ : V) (_ _ _ _ : O) => (0 : ℝ) := by constructor <;> simp

end anti8

/-- At which positions of a quadruples block neighbours have the same spin. -/
def same0 : Fin 5 → Bool := ![true, true, true, false, true]
/-- The same for the second and third position. -/
def same1 : Fin 5 → Bool := ![true, true, false, true, true]
/-- The same for the third and fourth position. -/
def same2 : Fin 5 → Bool := ![true, false, true, true, true]

/-- Arrays with given doubles and quadruples. -/
def withAmps (A : SI I ℝ) (p : Fin 3 → I → I → I → I → ℝ) (q : Fin 5 → I → I → I → I → I → I → I → I → ℝ) : SI I ℝ :=
  { A with
    t2_aaaa := p 0
    t2_bbbb := p 1
    t2_abab := p 2
    t4_aaaaaaaa := q 0
    t4_aaabaaab := q 1
    t4_aabbaabb := q 2
    t4_abbbabbb := q 3
    t4_bbbbbbbb := q 4 }

omit [DecidableEq I] [Inhabited I] in
theorem withAmps_sym (A : SI I ℝ) (hA : A.Sym) (p : Fin 3 → I → I → I → I → ℝ) (q : Fin 5 → I → I → I → I → I → I → I → I → ℝ)
    (hp : ∀ m, m ≠ 2 → Anti4 (p m)) (hq : ∀ m, Anti8 (same0 m) (same1 m) (same2 m) (q m)) : (withAmps A p q).Sym :=
  { hA with
    t2_aaaa_anti0 := fun a b => (hp 0 (by decide)).first b a
    t2_aaaa_anti2 := fun a b i j => (hp 0 (by decide)).last a b j i
    t2_bbbb_anti0 := fun a b => (hp 1 (by decide)).first b a
    t2_bbbb_anti2 := fun a b i j => (hp 1 (by decide)).last a b j i
    t4_aaaaaaaa_anti0 := fun a b c d i j k l => (hq 0).v0 rfl b a c d i j k l
    t4_aaaaaaaa_anti1 := fun a b c d i j k l => (hq 0).v1 rfl a c b d i j k l
    t4_aaaaaaaa_anti2 := fun a b c d i j k l => (hq 0).v2 rfl a b d c i j k l
    t4_aaaaaaaa_anti4 := fun a b c d i j k l => (hq 0).o0 rfl a b c d j i k l
    t4_aaaaaaaa_anti5 := fun a b c d i j k l => (hq 0).o1 rfl a b c d i k j l
    t4_aaaaaaaa_anti6 := fun a b c d i j k l => (hq 0).o2 rfl a b c d i j l k
    t4_aaabaaab_anti0 := fun a b c d i j k l => (hq 1).v0 rfl b a c d i j k l
    t4_aaabaaab_anti1 := fun a b c d i j k l => (hq 1).v1 rfl a c b d i j k l
    t4_aaabaaab_anti4 := fun a b c d i j k l => (hq 1).o0 rfl a b c d j i k l
    t4_aaabaaab_anti5 := fun a b c d i j k l => (hq 1).o1 rfl a b c d i k j l
    t4_aabbaabb_anti0 := fun a b c d i j k l => (hq 2).v0 rfl b a c d i j k l
    t4_aabbaabb_anti2 := fun a b c d i j k l => (hq 2).v2 rfl a b d c i j k l
    t4_aabbaabb_anti4 := fun a b c d i j k l => (hq 2).o0 rfl a b c d j i k l
    t4_aabbaabb_anti6 := fun a b c d i j k l => (hq 2).o2 rfl a b c d i j l k
    t4_abbbabbb_anti1 := fun a b c d i j k l => (hq 3).v1 rfl a c b d i j k l
    t4_abbbabbb_anti2 := fun a b c d i j k l => (hq 3).v2 rfl a b d c i j k l
    t4_abbbabbb_anti5 := fun a b c d i j k l => (hq 3).o1 rfl a b c d i k j l
    t4_abbbabbb_anti6 := fun a b c d i j k l => (hq 3).o2 rfl a b c d i j l k
    t4_bbbbbbbb_anti0 := fun a b c d i j k l => (hq 4).v0 rfl b a c d i j k l
    t4_bbbbbbbb_anti1 := fun a b c d i j k l => (hq 4).v1 rfl a c b d i j k l
    t4_bbbbbbbb_anti2 := fun a b c d i j k l => (hq 4).v2 rfl a b d c i j k l
    t4_bbbbbbbb_anti4 := fun a b c d i j k l => (hq 4).o0 rfl a b c d j i k l
    t4_bbbbbbbb_anti5 := fun a b c d i j k l => (hq 4).o1 rfl a b c d i k j l
    t4_bbbbbbbb_anti6 := fun a b c d i j k l => (hq 4).o2 rfl a b c d i j l k }

omit [DecidableEq I] [Inhabited I] in
theorem block2_anti (A : SI I ℝ) (hA : A.Sym) (m : Fin 3) (hm : m ≠ 2) : Anti4 (block2 A m) := by
  fin_cases m
  · exact ⟨fun a b => hA.t2_aaaa_anti0 b a, fun a b i j => hA.t2_aaaa_anti2 a b j i⟩
  · exact ⟨fun a b => hA.t2_bbbb_anti0 b a, fun a b i j => hA.t2_bbbb_anti2 a b j i⟩
  · exact absurd rfl hm

omit [DecidableEq I] [Inhabited I] in
theorem block4_anti (A : SI I ℝ) (hA : A.Sym) (m : Fin 5) : Anti8 (same0 m) (same1 m) (same2 m) (block4 A m) := by
  fin_cases m
  · exact ⟨fun _ a b => hA.t4_aaaaaaaa_anti0 b a, fun _ a b c => hA.t4_aaaaaaaa_anti1 a c b, fun _ a b c d => hA.t4_aaaaaaaa_anti2 a b d c,
      fun _ a b c d i j => hA.t4_aaaaaaaa_anti4 a b c d j i, fun _ a b c d i j k => hA.t4_aaaaaaaa_anti5 a b c d i k j,
      fun _ a b c d i j k l => hA.t4_aaaaaaaa_anti6 a b c d i j l k⟩
  · exact ⟨fun _ a b => hA.t4_aaabaaab_anti0 b a, fun _ a b c => hA.t4_aaabaaab_anti1 a c b, fun h => absurd h Bool.false_ne_true,
      fun _ a b c d i j => hA.t4_aaabaaab_anti4 a b c d j i, fun _ a b c d i j k => hA.t4_aaabaaab_anti5 a b c d i k j,
      fun h => absurd h Bool.false_ne_true⟩
  · exact ⟨fun _ a b => hA.t4_aabbaabb_anti0 b a, fun h => absurd h Bool.false_ne_true, fun _ a b c d => hA.t4_aabbaabb_anti2 a b d c,
      fun _ a b c d i j => hA.t4_aabbaabb_anti4 a b c d j i, fun h => absurd h Bool.false_ne_true,
      fun _ a b c d i j k l => hA.t4_aabbaabb_anti6 a b c d i j l k⟩
  · exact ⟨fun h => absurd h Bool.false_ne_true, fun _ a b c => hA.t4_abbbabbb_anti1 a c b, fun _ a b c d => hA.t4_abbbabbb_anti2 a b d c,
      fun h => absurd h Bool.false_ne_true, fun _ a b c d i j k => hA.t4_abbbabbb_anti5 a b c d i k j,
      fun _ a b c d i j k l => hA.t4_abbbabbb_anti6 a b c d i j l k⟩
  · exact ⟨fun _ a b => hA.t4_bbbbbbbb_anti0 b a, fun _ a b c => hA.t4_bbbbbbbb_anti1 a c b, fun _ a b c d => hA.t4_bbbbbbbb_anti2 a b d c,
      fun _ a b c d i j => hA.t4_bbbbbbbb_anti4 a b c d j i, fun _ a b c d i j k => hA.t4_bbbbbbbb_anti5 a b c d i k j,
      fun _ a b c d i j k l => hA.t4_bbbbbbbb_anti6 a b c d i j l k⟩

/-- Vectors whose entries change sign when orbitals of the same spin are exchanged. -/
def fullAnti : Submodule ℝ (Slot D → ℝ) where
  carrier := {v | (∀ m : Fin 3, m ≠ 2 → ∀ a b i j, v (.inl (m, (b, a), i, j)) = - v (.inl (m, (a, b), i, j)) ∧
      v (.inl (m, (a, b), j, i)) = - v (.inl (m, (a, b), i, j))) ∧
    ∀ m : Fin 5, Anti8 (same0 m) (same1 m) (same2 m) fun a b c d i j k l => v (.inr (m, (a, b, c, d), i, j, k, l))}
  add_mem' := fun hv hw => ⟨fun m hm a b i j => by
    obtain ⟨v1, v2⟩ := hv.1 m hm a b i j
    obtain ⟨w1, w2⟩ := hw.1 m hm a b i j
    exact ⟨by simp only [Pi.add_apply, v1, w1]; ring, by simp only [Pi.add_apply, v2, w2]; ring⟩, fun m => (hv.2 m).add (hw.2 m)⟩
  zero_mem' := ⟨fun m hm a b i j => by simp, fun m => Anti8.zero⟩
  smul_mem' := fun c v hv => ⟨fun m hm a b i j => by
    obtain ⟨v1, v2⟩ := hv.1 m hm a b i j
    exact ⟨by simp only [Pi.smul_apply, smul_eq_mul, v1]; ring, by simp only [Pi.smul_apply, smul_eq_mul, v2]; ring⟩,
    fun m => (hv.2 m).smul c⟩

omit [DecidableEq I] [Inhabited I] in
theorem full_pack_anti (A : SI I ℝ) (hA : A.Sym) : pack D A ∈ fullAnti D :=
  ⟨fun m hm _ _ _ _ => ⟨(block2_anti A hA m hm).first _ _ _ _, (block2_anti A hA m hm).last _ _ _ _⟩, fun m =>
    { v0 := fun t _ _ _ _ _ _ _ _ => (block4_anti A hA m).v0 t _ _ _ _ _ _ _ _
      v1 := fun t _ _ _ _ _ _ _ _ => (block4_anti A hA m).v1 t _ _ _ _ _ _ _ _
      v2 := fun t _ _ _ _ _ _ _ _ => (block4_anti A hA m).v2 t _ _ _ _ _ _ _ _
      o0 := fun t _ _ _ _ _ _ _ _ => (block4_anti A hA m).o0 t _ _ _ _ _ _ _ _
      o1 := fun t _ _ _ _ _ _ _ _ => (block4_anti A hA m).o1 t _ _ _ _ _ _ _ _
      o2 := fun t _ _ _ _ _ _ _ _ => (block4_anti A hA m).o2 t _ _ _ _ _ _ _ _ }⟩

omit [Inhabited I] in
theorem fill2_anti (v : Slot D → ℝ) (hv : v ∈ fullAnti D) (m : Fin 3) (hm : m ≠ 2) (x : I → I → I → I → ℝ) (hx : Anti4 x) :
    Anti4 (fill2 D v m x) := by
  constructor <;> intro a b i j <;> unfold fill2 <;> by_cases h : a ∈ D 1 ∧ b ∈ D 1 ∧ i ∈ D 0 ∧ j ∈ D 0
  · rw [dif_pos h, dif_pos (by tauto)]; exact (hv.1 m hm _ _ _ _).1
  · rw [dif_neg h, dif_neg (by tauto)]; exact hx.first ..
  · rw [dif_pos h, dif_pos (by tauto)]; exact (hv.1 m hm _ _ _ _).2
  · rw [dif_neg h, dif_neg (by tauto)]; exact hx.last ..

omit [Inhabited I] in
theorem fill4_anti (v : Slot D → ℝ) (hv : v ∈ fullAnti D) (m : Fin 5) (x : I → I → I → I → I → I → I → I → ℝ)
    (hx : Anti8 (same0 m) (same1 m) (same2 m) x) : Anti8 (same0 m) (same1 m) (same2 m) (fill4 D v m x) := by
  have H := hv.2 m
  constructor <;> intro t a b c d i j k l <;> unfold fill4 <;>
    by_cases h : a ∈ D 1 ∧ b ∈ D 1 ∧ c ∈ D 1 ∧ d ∈ D 1 ∧ i ∈ D 0 ∧ j ∈ D 0 ∧ k ∈ D 0 ∧ l ∈ D 0
  · rw [dif_pos h, dif_pos (by tauto)]; exact H.v0 t ..
  · rw [dif_neg h, dif_neg (by tauto)]; exact hx.v0 t ..
  · rw [dif_pos h, dif_pos (by tauto)]; exact H.v1 t ..
  · rw [dif_neg h, dif_neg (by tauto)]; exact hx.v1 t ..
  · rw [dif_pos h, dif_pos (by tauto)]; exact H.v2 t ..
  · rw [dif_neg h, dif_neg (by tauto)]; exact hx.v2 t ..
  · rw [dif_pos h, dif_pos (by tauto)]; exact H.o0 t ..
  · rw [dif_neg h, dif_neg (by tauto)]; exact hx.o0 t ..
  · rw [dif_pos h, dif_pos (by tauto)]; exact H.o1 t ..
  · rw [dif_neg h, dif_neg (by tauto)]; exact hx.o1 t ..
  · rw [dif_pos h, dif_pos (by tauto)]; exact H.o2 t ..
  · rw [dif_neg h, dif_neg (by tauto)]; exact hx.o2 t ..

omit [Inhabited I] in
theorem unpack_eq (v : Slot D → ℝ) (A : SI I ℝ) :
    unpack D v A = withAmps A (fun m => fill2 D v m (block2 A m)) (fun m => fill4 D v m (block4 A m)) := rfl

omit [Inhabited I] in
theorem full_unpack_sym (v : Slot D → ℝ) (hv : v ∈ fullAnti D) (A : SI I ℝ) (hA : A.Sym) : (unpack D v A).Sym := by
  rw [unpack_eq]
  exact withAmps_sym A hA _ _ (fun m hm => fill2_anti D v hv m hm _ (block2_anti A hA m hm)) (fun m => fill4_anti D v hv m _ (block4_anti A hA m))

/-- The denominators of the blocks. -/
noncomputable def dens2 (εa εb : I → ℝ) : Fin 3 → I → I → I → I → ℝ := ![den2 εa εa, den2 εb εb, den2 εa εb]
/-- The denominators of the quadruples blocks. -/
noncomputable def dens4 (εa εb : I → ℝ) : Fin 5 → I → I → I → I → I → I → I → I → ℝ :=
  ![den4 εa εa εa εa, den4 εa εa εa εb, den4 εa εa εb εb, den4 εa εb εb εb, den4 εb εb εb εb]
/-- The residuals of the doubles. -/
noncomputable def resids2 (A : SI I ℝ) : Fin 3 → I → I → I → I → ℝ := ![ccdq_t2_aaaa D A, ccdq_t2_bbbb D A, ccdq_t2_abab D A]
/-- The residuals of the quadruples. -/
noncomputable def resids4 (A : SI I ℝ) : Fin 5 → I → I → I → I → I → I → I → I → ℝ :=
  ![ccdq_t4_aaaaaaaa D A, ccdq_t4_aaabaaab D A, ccdq_t4_aabbaabb D A, ccdq_t4_abbbabbb D A, ccdq_t4_bbbbbbbb D A]

/-- Arrays without singles and triples. -/
def dropOdd (A : SI I ℝ) : SI I ℝ :=
  { A with
    t1_aa := fun _ _ => 0
    t1_bb := fun _ _ => 0
    t3_aaaaaa := fun _ _ _ _ _ _ => 0
    t3_bbbbbb := fun _ _ _ _ _ _ => 0
    t3_aabaab := fun _ _ _ _ _ _ => 0
    t3_abbabb := fun _ _ _ _ _ _ => 0 }

omit [DecidableEq I] in
theorem iterCcdq_eq (εa εb : I → ℝ) (A : SI I ℝ) : iterCcdq D εa εb A =
    withAmps (dropOdd A) (fun m => next2 (resids2 D A m) (block2 A m) (dens2 εa εb m))
      (fun m => next4 (resids4 D A m) (block4 A m) (dens4 εa εb m)) := rfl

omit [DecidableEq I] [Inhabited I] in
theorem dropOdd_sym (A : SI I ℝ) (hA : A.Sym) : (dropOdd A).Sym :=
  { hA with
    t3_aaaaaa_anti0 := fun _ _ _ _ _ _ => neg_zero.symm
    t3_aaaaaa_anti1 := fun _ _ _ _ _ _ => neg_zero.symm
    t3_aaaaaa_anti3 := fun _ _ _ _ _ _ => neg_zero.symm
    t3_aaaaaa_anti4 := fun _ _ _ _ _ _ => neg_zero.symm
    t3_aabaab_anti0 := fun _ _ _ _ _ _ => neg_zero.symm
    t3_aabaab_anti3 := fun _ _ _ _ _ _ => neg_zero.symm
    t3_abbabb_anti1 := fun _ _ _ _ _ _ => neg_zero.symm
    t3_abbabb_anti4 := fun _ _ _ _ _ _ => neg_zero.symm
    t3_bbbbbb_anti0 := fun _ _ _ _ _ _ => neg_zero.symm
    t3_bbbbbb_anti1 := fun _ _ _ _ _ _ => neg_zero.symm
    t3_bbbbbb_anti3 := fun _ _ _ _ _ _ => neg_zero.symm
    t3_bbbbbb_anti4 := fun _ _ _ _ _ _ => neg_zero.symm }

omit [DecidableEq I] [Inhabited I] in
/-- The update keeps the sign rules if the denominators are symmetric. -/
theorem next4_anti {x y z : Bool} {r t : I → I → I → I → I → I → I → I → ℝ} (hr : Anti8 x y z r) (ht : Anti8 x y z t) (e f g h : I → ℝ)
    (h0 : x = true → e = f) (h1 : y = true → f = g) (h2 : z = true → g = h) : Anti8 x y z (next4 r t (den4 e f g h)) := by
  constructor <;> intro p a b c d i j k l <;> unfold next4
  · rw [hr.v0 p, ht.v0 p, show den4 e f g h b a c d i j k l = den4 e f g h a b c d i j k l by rw [h0 p]; unfold den4; congr 1; ring]; ring
  · rw [hr.v1 p, ht.v1 p, show den4 e f g h a c b d i j k l = den4 e f g h a b c d i j k l by rw [h1 p]; unfold den4; congr 1; ring]; ring
  · rw [hr.v2 p, ht.v2 p, show den4 e f g h a b d c i j k l = den4 e f g h a b c d i j k l by rw [h2 p]; unfold den4; congr 1; ring]; ring
  · rw [hr.o0 p, ht.o0 p, show den4 e f g h a b c d j i k l = den4 e f g h a b c d i j k l by rw [h0 p]; unfold den4; congr 1; ring]; ring
  · rw [hr.o1 p, ht.o1 p, show den4 e f g h a b c d i k j l = den4 e f g h a b c d i j k l by rw [h1 p]; unfold den4; congr 1; ring]; ring
  · rw [hr.o2 p, ht.o2 p, show den4 e f g h a b c d i j l k = den4 e f g h a b c d i j k l by rw [h2 p]; unfold den4; congr 1; ring]; ring

omit [DecidableEq I] [Inhabited I] in
theorem next2_anti {r t : I → I → I → I → ℝ} (hr : Anti4 r) (ht : Anti4 t) (e : I → ℝ) : Anti4 (next2 r t (den2 e e)) := by
  constructor <;> intro a b i j <;> unfold next2
  · rw [hr.first, ht.first, show den2 e e b a i j = den2 e e a b i j by unfold den2; congr 1; ring]; ring
  · rw [hr.last, ht.last, show den2 e e a b j i = den2 e e a b i j by unfold den2; congr 1; ring]; ring

omit [DecidableEq I] in
/-- One pass keeps the antisymmetry of all amplitudes. -/
theorem C87_step_antisymmetry (εa εb : I → ℝ) (A : SI I ℝ) (hA : A.Sym) : (iterCcdq D εa εb A).Sym := by
  obtain ⟨d1, d2⟩ := C87_doubles_antisymmetry D A hA
  obtain ⟨q0, q1, q2, q3, q4⟩ := C87_quadruples_antisymmetry D A hA
  rw [iterCcdq_eq]
  refine withAmps_sym _ (dropOdd_sym A hA) _ _ (fun m hm => ?_) (fun m => ?_)
  · fin_cases m
    · exact next2_anti d1 (block2_anti A hA 0 (by decide)) εa
    · exact next2_anti d2 (block2_anti A hA 1 (by decide)) εb
    · exact absurd rfl hm
  · fin_cases m
    · exact next4_anti q0 (block4_anti A hA 0) εa εa εa εa (fun _ => rfl) (fun _ => rfl) (fun _ => rfl)
    · exact next4_anti q1 (block4_anti A hA 1) εa εa εa εb (fun _ => rfl) (fun _ => rfl) (fun h => absurd h Bool.false_ne_true)
    · exact next4_anti q2 (block4_anti A hA 2) εa εa εb εb (fun _ => rfl) (fun h => absurd h Bool.false_ne_true) (fun _ => rfl)
    · exact next4_anti q3 (block4_anti A hA 3) εa εb εb εb (fun h => absurd h Bool.false_ne_true) (fun _ => rfl) (fun _ => rfl)
    · exact next4_anti q4 (block4_anti A hA 4) εb εb εb εb (fun _ => rfl) (fun _ => rfl) (fun _ => rfl)

/-- **C87** The amplitudes a calculation returns have the antisymmetry of the amplitudes it started from, with and without DIIS. -/
theorem C87_antisymmetry (o : Opts I) (A : SI I ℝ) (hA : A.Sym) (r : Res (SI I ℝ) (Acc D) ℝ) (h : calculate D o A = .ok r) : r.st.amps.Sym :=
  full_keeps D o SI.Sym (fullAnti D) (C87_step_antisymmetry D o.εa o.εb) (full_pack_anti D) (fun B v hB hv => full_unpack_sym D v hv B hB) A hA r h

/-- **C87** The returned amplitudes have neither singles nor triples, whatever the starting amplitudes are. -/
theorem C87_no_singles_no_triples (o : Opts I) (A : SI I ℝ) (r : Res (SI I ℝ) (Acc D) ℝ) (h : calculate D o A = .ok r) :
    (∀ a i, r.st.amps.t1_aa a i = 0 ∧ r.st.amps.t1_bb a i = 0) ∧
    ∀ a b c i j k, r.st.amps.t3_aaaaaa a b c i j k = 0 ∧ r.st.amps.t3_aabaab a b c i j k = 0 ∧ r.st.amps.t3_abbabb a b c i j k = 0 ∧
      r.st.amps.t3_bbbbbb a b c i j k = 0 := by
  obtain ⟨h1, -⟩ := C01_iteration_budget _ _ r h
  obtain ⟨q, -, hn, hp, -⟩ := C01_passes _ _ r h
  obtain ⟨n, hl⟩ : ∃ n, r.log.length = n + 1 := ⟨r.log.length - 1, by omega⟩
  have hs := (step_ok_iff (cfg D o) (q n) (q (n + 1))).2 (hp n (by omega))
  rw [← hl, hn] at hs
  obtain ⟨-, hb⟩ := full_step D o _ _ hs
  have key : ∃ v : Option (Slot D → ℝ), r.st.amps = (match v with
      | none => iterCcdq D o.εa o.εb (q n).amps
      | some v => unpack D v (iterCcdq D o.εa o.εb (q n).amps)) := by
    simp only [accel] at hb
    split at hb
    · split at hb
      · cases hb
      · next v _ =>
        simp only [Except.ok.injEq, Prod.mk.injEq] at hb
        exact ⟨some v, hb.2.symm⟩
    · simp only [Except.ok.injEq, Prod.mk.injEq] at hb
      exact ⟨none, hb.2.symm⟩
  obtain ⟨v, hv⟩ := key
  rw [hv]
  cases v <;> exact ⟨fun _ _ => ⟨rfl, rfl⟩, fun _ _ _ _ _ _ => ⟨rfl, rfl, rfl, rfl⟩⟩

/-! ## exchange of the spins -/

/-- Exchange of the spins of a position. -/
def fullFlipSlot : Slot D → Slot D
  | .inl (m, (a, b), i, j) => .inl (![(1, (a, b), i, j), (0, (a, b), i, j), (2, (b, a), j, i)] m)
  | .inr (m, (a, b, c, d), i, j, k, l) => .inr (![(4, (a, b, c, d), i, j, k, l), (3, (d, a, b, c), l, i, j, k), (2, (c, d, a, b), k, l, i, j),
      (1, (b, c, d, a), j, k, l, i), (0, (a, b, c, d), i, j, k, l)] m)

omit [DecidableEq I] [Inhabited I] in
theorem fullFlipSlot_twice : Function.Involutive (fullFlipSlot D) := by
  rintro (⟨m, ⟨a, b⟩, i, j⟩ | ⟨m, ⟨a, b, c, d⟩, i, j, k, l⟩) <;> fin_cases m <;> rfl

/-- Options with the spins exchanged. -/
def fullFlipOpts (o : Opts I) : Opts I := { o with εa := o.εb, εb := o.εa }

omit [DecidableEq I] in
/-- One pass with exchanged spins is the exchanged pass. -/
theorem C87_step_flip (εa εb : I → ℝ) (A : SI I ℝ) (hA : A.Sym) : iterCcdq D εb εa A.flip = (iterCcdq D εa εb A).flip := by
  have e2 : ∀ e f : I → ℝ, ∀ a b i j, den2 e f a b i j = den2 f e b a j i := fun e f a b i j => by unfold den2; congr 1; ring
  have d := C87_doubles_flip D A hA
  have q := C87_quadruples_flip D A hA
  have a1 : next2 (ccdq_t2_aaaa D A.flip) A.flip.t2_aaaa (den2 εb εb) = (iterCcdq D εa εb A).flip.t2_aaaa := by
    funext a b i j
    simp only [next2, (d a b i j).1]
    rfl
  have a2 : next2 (ccdq_t2_bbbb D A.flip) A.flip.t2_bbbb (den2 εa εa) = (iterCcdq D εa εb A).flip.t2_bbbb := by
    funext a b i j
    simp only [next2, (d a b i j).2.1]
    rfl
  have a3 : next2 (ccdq_t2_abab D A.flip) A.flip.t2_abab (den2 εb εa) = (iterCcdq D εa εb A).flip.t2_abab := by
    funext a b i j
    simp only [next2, (d a b i j).2.2, e2 εb εa a b i j]
    rfl
  have b0 : next4 (ccdq_t4_aaaaaaaa D A.flip) A.flip.t4_aaaaaaaa (den4 εb εb εb εb) = (iterCcdq D εa εb A).flip.t4_aaaaaaaa := by
    funext a b c d i j k l
    simp only [next4, (q a b c d i j k l).1]
    rfl
  have b1 : next4 (ccdq_t4_aaabaaab D A.flip) A.flip.t4_aaabaaab (den4 εb εb εb εa) = (iterCcdq D εa εb A).flip.t4_aaabaaab := by
    funext a b c d i j k l
    have e : den4 εb εb εb εa a b c d i j k l = den4 εa εb εb εb d a b c l i j k := by unfold den4; congr 1; ring
    simp only [next4, (q a b c d i j k l).2.1, e]
    rfl
  have b2 : next4 (ccdq_t4_aabbaabb D A.flip) A.flip.t4_aabbaabb (den4 εb εb εa εa) = (iterCcdq D εa εb A).flip.t4_aabbaabb := by
    funext a b c d i j k l
    have e : den4 εb εb εa εa a b c d i j k l = den4 εa εa εb εb c d a b k l i j := by unfold den4; congr 1; ring
    simp only [next4, (q a b c d i j k l).2.2.1, e]
    rfl
  have b3 : next4 (ccdq_t4_abbbabbb D A.flip) A.flip.t4_abbbabbb (den4 εb εa εa εa) = (iterCcdq D εa εb A).flip.t4_abbbabbb := by
    funext a b c d i j k l
    have e : den4 εb εa εa εa a b c d i j k l = den4 εa εa εa εb b c d a j k l i := by unfold den4; congr 1; ring
    simp only [next4, (q a b c d i j k l).2.2.2.1, e]
    rfl
  have b4 : next4 (ccdq_t4_bbbbbbbb D A.flip) A.flip.t4_bbbbbbbb (den4 εa εa εa εa) = (iterCcdq D εa εb A).flip.t4_bbbbbbbb := by
    funext a b c d i j k l
    simp only [next4, (q a b c d i j k l).2.2.2.2]
    rfl
  rw [iterCcdq, a1, a2, a3, b0, b1, b2, b3, b4]
  rfl

omit [DecidableEq I] in
theorem ccsd_energy_flip (A : SI I ℝ) (hA : A.Sym) : ccsd_energy_with_spin D A.flip = ccsd_energy_with_spin D A := by
  rw [C64_ccsd_energy (D := D) A hA, C64_ccsd_energy (D := D) A.flip hA.flip]
  exact SI.flip_eval D A 0 Gen.spinorbitalCCSDE (by decide +kernel) (by decide +kernel) [] rfl

/-- **C87** A calculation with the two spins exchanged fails in the same way or gives the same energies, after the same number of
passes, and the exchanged amplitudes. -/
theorem C87_spin_exchange (o : Opts I) (A : SI I ℝ) (hA : A.Sym) :
    SameRun (fun r r' => (r.st.amps.Sym ∧ r'.st.amps = r.st.amps.flip) ∧ r'.energy = r.energy ∧ r'.log = r.log)
      (calculate D o A) (calculate D (fullFlipOpts o) A.flip) := by
  refine full_related D o (fullFlipOpts o) rfl rfl rfl rfl rfl (renumber (fullFlipSlot_twice D).toPerm) (edot_renumber _) (fullAnti D)
    (fun A B => A.Sym ∧ B = A.flip) ?_ (fun A _ h => full_pack_anti D A h.1) ?_ ?_ ?_ A A.flip ⟨hA, rfl⟩
  · rintro A _ ⟨h, rfl⟩
    exact ⟨C87_step_antisymmetry D _ _ A h, C87_step_flip D o.εa o.εb A h⟩
  · rintro A _ ⟨h, rfl⟩
    funext x
    obtain ⟨m, ⟨a, b⟩, i, j⟩ | ⟨m, ⟨a, b, c, d⟩, i, j, k, l⟩ := x <;> fin_cases m <;> rfl
  · rintro A _ v ⟨h, rfl⟩ hv
    refine ⟨full_unpack_sym D v hv A h, ?_⟩
    have h2 : ∀ (m m' : Fin 3) (x : I → I → I → I → ℝ) (y : I → I → I → I → ℝ), 
        (∀ a b i j, fullFlipSlot D (.inl (m, (a, b), i, j)) = .inl (m', (a, b), i, j)) → (∀ a b i j, x a b i j = y a b i j) →
        fill2 D (renumber (fullFlipSlot_twice D).toPerm v) m x = fill2 D v m' y := by
      intro m m' x y hσ hxy
      funext a b i j
      unfold fill2
      by_cases h : a ∈ D 1 ∧ b ∈ D 1 ∧ i ∈ D 0 ∧ j ∈ D 0
      · rw [dif_pos h, dif_pos h]; exact congrArg v (hσ _ _ _ _)
      · rw [dif_neg h, dif_neg h]; exact hxy ..
    have h3 : fill2 D (renumber (fullFlipSlot_twice D).toPerm v) 2 A.flip.t2_abab = fun a b i j => fill2 D v 2 A.t2_abab b a j i := by
      funext a b i j
      unfold fill2
      by_cases h : a ∈ D 1 ∧ b ∈ D 1 ∧ i ∈ D 0 ∧ j ∈ D 0
      · rw [dif_pos h, dif_pos (by tauto)]; rfl
      · rw [dif_neg h, dif_neg (by tauto)]; rfl
    have h4 : ∀ (m m' : Fin 5), (m = 0 ∧ m' = 4 ∨ m = 4 ∧ m' = 0) → ∀ (x : I → I → I → I → I → I → I → I → ℝ),
        fill4 D (renumber (fullFlipSlot_twice D).toPerm v) m x = fill4 D v m' x := by
      intro m m' hm x
      funext a b c d i j k l
      unfold fill4
      by_cases h : a ∈ D 1 ∧ b ∈ D 1 ∧ c ∈ D 1 ∧ d ∈ D 1 ∧ i ∈ D 0 ∧ j ∈ D 0 ∧ k ∈ D 0 ∧ l ∈ D 0
      · rw [dif_pos h, dif_pos h]; rcases hm with ⟨rfl, rfl⟩ | ⟨rfl, rfl⟩ <;> rfl
      · rw [dif_neg h, dif_neg h]
    have h5 : fill4 D (renumber (fullFlipSlot_twice D).toPerm v) 1 A.flip.t4_aaabaaab =
        fun a b c d i j k l => fill4 D v 3 A.t4_abbbabbb d a b c l i j k := by
      funext a b c d i j k l
      unfold fill4
      by_cases h : a ∈ D 1 ∧ b ∈ D 1 ∧ c ∈ D 1 ∧ d ∈ D 1 ∧ i ∈ D 0 ∧ j ∈ D 0 ∧ k ∈ D 0 ∧ l ∈ D 0
      · rw [dif_pos h, dif_pos (by tauto)]; rfl
      · rw [dif_neg h, dif_neg (by tauto)]; rfl
    have h6 : fill4 D (renumber (fullFlipSlot_twice D).toPerm v) 2 A.flip.t4_aabbaabb =
        fun a b c d i j k l => fill4 D v 2 A.t4_aabbaabb c d a b k l i j := by
      funext a b c d i j k l
      unfold fill4
      by_cases h : a ∈ D 1 ∧ b ∈ D 1 ∧ c ∈ D 1 ∧ d ∈ D 1 ∧ i ∈ D 0 ∧ j ∈ D 0 ∧ k ∈ D 0 ∧ l ∈ D 0
      · rw [dif_pos h, dif_pos (by tauto)]; rfl
      · rw [dif_neg h, dif_neg (by tauto)]; rfl
    have h7 : fill4 D (renumber (fullFlipSlot_twice D).toPerm v) 3 A.flip.t4_abbbabbb =
        fun a b c d i j k l => fill4 D v 1 A.t4_aaabaaab b c d a j k l i := by
      funext a b c d i j k l
      unfold fill4
      by_cases h : a ∈ D 1 ∧ b ∈ D 1 ∧ c ∈ D 1 ∧ d ∈ D 1 ∧ i ∈ D 0 ∧ j ∈ D 0 ∧ k ∈ D 0 ∧ l ∈ D 0
      · rw [dif_pos h, dif_pos (by tauto)]; rfl
      · rw [dif_neg h, dif_neg (by tauto)]; rfl
    unfold unpack
    rw [h3, h5, h6, h7, h4 0 4 (.inl ⟨rfl, rfl⟩), h4 4 0 (.inr ⟨rfl, rfl⟩), h2 0 1 A.flip.t2_aaaa A.t2_bbbb (fun _ _ _ _ => rfl) (fun _ _ _ _ => rfl),
      h2 1 0 A.flip.t2_bbbb A.t2_aaaa (fun _ _ _ _ => rfl) (fun _ _ _ _ => rfl)]
    rfl
  · rintro A _ ⟨h, rfl⟩
    exact ccsd_energy_flip D A h

/-! ## order of the orbitals -/

/-- Renaming of the orbitals of a position. -/
def fullRelabelSlot (e : I ≃ I) (hD : ∀ s x, e x ∈ D s ↔ x ∈ D s) : Slot D ≃ Slot D :=
  let f (s : Nat) : {x // x ∈ D s} ≃ {x // x ∈ D s} := e.subtypeEquiv fun x => (hD s x).symm
  ((Equiv.refl _).prodCongr (((f 1).prodCongr (f 1)).prodCongr ((f 0).prodCongr (f 0)))).sumCongr
    ((Equiv.refl _).prodCongr (((f 1).prodCongr ((f 1).prodCongr ((f 1).prodCongr (f 1)))).prodCongr
      ((f 0).prodCongr ((f 0).prodCongr ((f 0).prodCongr (f 0))))))

/-- Options with renamed orbitals. -/
def fullRelabelOpts (e : I → I) (o : Opts I) : Opts I := { o with εa := fun p => o.εa (e p), εb := fun p => o.εb (e p) }

/-- **C87** A calculation with the orbitals in another order fails in the same way or gives the same energies, after the same number
of passes, and the amplitudes in the other order. -/
theorem C87_orbital_order (e : I ≃ I) (hD : ∀ s x, e x ∈ D s ↔ x ∈ D s) (o : Opts I) (A : SI I ℝ) :
    SameRun (fun r r' => r'.st.amps = r.st.amps.comap e ∧ r'.energy = r.energy ∧ r'.log = r.log)
      (calculate D o A) (calculate D (fullRelabelOpts e o) (A.comap e)) := by
  refine full_related D o (fullRelabelOpts e o) rfl rfl rfl rfl rfl (renumber (fullRelabelSlot D e hD)) (edot_renumber _) ⊤
    (fun A B => B = A.comap e) ?_ (fun _ _ _ => trivial) ?_ ?_ ?_ A (A.comap e) rfl
  · rintro A _ rfl
    obtain ⟨d1, d2, d3, q0, q1, q2, q3, q4⟩ := C42_si_ccdq D e hD A
    have n2 : ∀ (x y : I → I → I → I → ℝ) (f g : I → ℝ) (t : I → I → I → I → ℝ), (∀ a b i j, x a b i j = y (e a) (e b) (e i) (e j)) →
        next2 x (fun a b i j => t (e a) (e b) (e i) (e j)) (den2 (fun p => f (e p)) fun p => g (e p)) =
          fun a b i j => next2 y t (den2 f g) (e a) (e b) (e i) (e j) := by
      intro x y f g t h
      funext a b i j
      simp only [next2, den2, h]
    have n4 : ∀ (x y : I → I → I → I → I → I → I → I → ℝ) (f g p q : I → ℝ) (t : I → I → I → I → I → I → I → I → ℝ),
        (∀ a b c d i j k l, x a b c d i j k l = y (e a) (e b) (e c) (e d) (e i) (e j) (e k) (e l)) →
        next4 x (fun a b c d i j k l => t (e a) (e b) (e c) (e d) (e i) (e j) (e k) (e l))
            (den4 (fun x => f (e x)) (fun x => g (e x)) (fun x => p (e x)) fun x => q (e x)) =
          fun a b c d i j k l => next4 y t (den4 f g p q) (e a) (e b) (e c) (e d) (e i) (e j) (e k) (e l) := by
      intro x y f g p q t h
      funext a b c d i j k l
      simp only [next4, den4, h]
    have a0 := n2 _ _ o.εa o.εa A.t2_aaaa d1
    have a1 := n2 _ _ o.εb o.εb A.t2_bbbb d2
    have a2 := n2 _ _ o.εa o.εb A.t2_abab d3
    have b0 := n4 _ _ o.εa o.εa o.εa o.εa A.t4_aaaaaaaa q0
    have b1 := n4 _ _ o.εa o.εa o.εa o.εb A.t4_aaabaaab q1
    have b2 := n4 _ _ o.εa o.εa o.εb o.εb A.t4_aabbaabb q2
    have b3 := n4 _ _ o.εa o.εb o.εb o.εb A.t4_abbbabbb q3
    have b4 := n4 _ _ o.εb o.εb o.εb o.εb A.t4_bbbbbbbb q4
    rw [iterCcdq_eq, iterCcdq_eq]
    refine congrArg₂ (withAmps (dropOdd (A.comap e)))
      (x' := fun m a b i j => next2 (resids2 D A m) (block2 A m) (dens2 o.εa o.εb m) (e a) (e b) (e i) (e j))
      (y' := fun m a b c d i j k l => next4 (resids4 D A m) (block4 A m) (dens4 o.εa o.εb m) (e a) (e b) (e c) (e d) (e i) (e j) (e k) (e l))
      (funext fun m => ?_) (funext fun m => ?_) <;> fin_cases m
    exacts [a0, a1, a2, b0, b1, b2, b3, b4]
  · rintro A _ rfl
    funext x
    obtain ⟨m, ⟨a, b⟩, i, j⟩ | ⟨m, ⟨a, b, c, d⟩, i, j, k, l⟩ := x <;> fin_cases m <;> rfl
  · rintro A _ v rfl -
    have h2 : ∀ m x, fill2 D (renumber (fullRelabelSlot D e hD) v) m (fun a b i j => x (e a) (e b) (e i) (e j)) =
        fun a b i j => fill2 D v m x (e a) (e b) (e i) (e j) := by
      intro m x
      funext a b i j
      unfold fill2
      by_cases h : a ∈ D 1 ∧ b ∈ D 1 ∧ i ∈ D 0 ∧ j ∈ D 0
      · rw [dif_pos h, dif_pos (by simpa only [hD] using h)]; rfl
      · rw [dif_neg h, dif_neg (by simpa only [hD] using h)]
    have h4 : ∀ m x, fill4 D (renumber (fullRelabelSlot D e hD) v) m (fun a b c d i j k l => x (e a) (e b) (e c) (e d) (e i) (e j) (e k) (e l)) =
        fun a b c d i j k l => fill4 D v m x (e a) (e b) (e c) (e d) (e i) (e j) (e k) (e l) := by
      intro m x
      funext a b c d i j k l
      unfold fill4
      by_cases h : a ∈ D 1 ∧ b ∈ D 1 ∧ c ∈ D 1 ∧ d ∈ D 1 ∧ i ∈ D 0 ∧ j ∈ D 0 ∧ k ∈ D 0 ∧ l ∈ D 0
      · rw [dif_pos h, dif_pos (by simpa only [hD] using h)]; rfl
      · rw [dif_neg h, dif_neg (by simpa only [hD] using h)]
    have a0 := h2 0 A.t2_aaaa
    have a1 := h2 1 A.t2_bbbb
    have a2 := h2 2 A.t2_abab
    have b0 := h4 0 A.t4_aaaaaaaa
    have b1 := h4 1 A.t4_aaabaaab
    have b2 := h4 2 A.t4_aabbaabb
    have b3 := h4 3 A.t4_abbbabbb
    have b4 := h4 4 A.t4_bbbbbbbb
    simp only [unpack, SI.comap, a0, a1, a2, b0, b1, b2, b3, b4]
  · rintro A _ rfl
    exact (C42_si_ccsdt D e hD A).1

/-! ## selection rules -/

variable {G : Type} [AddCommGroup G]

/-- The spins of the blocks; `true` is beta. -/
def spins2 : Fin 3 → Bool × Bool := ![(false, false), (true, true), (false, true)]
/-- The spins of the quadruples blocks. -/
def spins4 : Fin 5 → Bool × Bool × Bool × Bool :=
  ![(false, false, false, false), (false, false, false, true), (false, false, true, true), (false, true, true, true), (true, true, true, true)]

/-- Vectors that vanish at positions whose charges do not balance; `κ σ` is the charge of the orbitals of spin `σ`. -/
def fullBalanced (κ : Bool → I → G) : Submodule ℝ (Slot D → ℝ) where
  carrier := {v | (∀ m a b i j, v (.inl (m, (a, b), i, j)) ≠ 0 → κ (spins2 m).1 a + κ (spins2 m).2 b = κ (spins2 m).1 i + κ (spins2 m).2 j) ∧
    ∀ m a b c d i j k l, v (.inr (m, (a, b, c, d), i, j, k, l)) ≠ 0 →
      κ (spins4 m).1 a + κ (spins4 m).2.1 b + κ (spins4 m).2.2.1 c + κ (spins4 m).2.2.2 d =
        κ (spins4 m).1 i + κ (spins4 m).2.1 j + κ (spins4 m).2.2.1 k + κ (spins4 m).2.2.2 l}
  add_mem' := fun hv hw => ⟨fun m a b i j h => add_ne (hv.1 m a b i j) (hw.1 m a b i j) h,
    fun m a b c d i j k l h => add_ne (hv.2 m a b c d i j k l) (hw.2 m a b c d i j k l) h⟩
  zero_mem' := ⟨fun _ _ _ _ _ h => absurd rfl h, fun _ _ _ _ _ _ _ _ _ h => absurd rfl h⟩
  smul_mem' := fun _ _ hv => ⟨fun m a b i j h => mul_ne (hv.1 m a b i j) h, fun m a b c d i j k l h => mul_ne (hv.2 m a b c d i j k l) h⟩

omit [DecidableEq I] [Inhabited I] in
theorem withAmps_conserves {κ : Bool → I → G} (A : SI I ℝ) (hA : A.Conserves (κ false) (κ true)) (p : Fin 3 → I → I → I → I → ℝ)
    (q : Fin 5 → I → I → I → I → I → I → I → I → ℝ)
    (hp : ∀ m a b i j, p m a b i j ≠ 0 → κ (spins2 m).1 a + κ (spins2 m).2 b = κ (spins2 m).1 i + κ (spins2 m).2 j)
    (hq : ∀ m a b c d i j k l, q m a b c d i j k l ≠ 0 → κ (spins4 m).1 a + κ (spins4 m).2.1 b + κ (spins4 m).2.2.1 c + κ (spins4 m).2.2.2 d =
        κ (spins4 m).1 i + κ (spins4 m).2.1 j + κ (spins4 m).2.2.1 k + κ (spins4 m).2.2.2 l) : (withAmps A p q).Conserves (κ false) (κ true) :=
  { hA with
    t2_aaaa := hp 0
    t2_bbbb := hp 1
    t2_abab := hp 2
    t4_aaaaaaaa := hq 0
    t4_aaabaaab := hq 1
    t4_aabbaabb := hq 2
    t4_abbbabbb := hq 3
    t4_bbbbbbbb := hq 4 }

omit [DecidableEq I] [Inhabited I] in
theorem conserves_block {κ : Bool → I → G} (A : SI I ℝ) (hA : A.Conserves (κ false) (κ true)) :
    (∀ m a b i j, block2 A m a b i j ≠ 0 → κ (spins2 m).1 a + κ (spins2 m).2 b = κ (spins2 m).1 i + κ (spins2 m).2 j) ∧
    ∀ m a b c d i j k l, block4 A m a b c d i j k l ≠ 0 → κ (spins4 m).1 a + κ (spins4 m).2.1 b + κ (spins4 m).2.2.1 c + κ (spins4 m).2.2.2 d =
        κ (spins4 m).1 i + κ (spins4 m).2.1 j + κ (spins4 m).2.2.1 k + κ (spins4 m).2.2.2 l := by
  refine ⟨fun m => ?_, fun m => ?_⟩ <;> fin_cases m
  exacts [hA.t2_aaaa, hA.t2_bbbb, hA.t2_abab, hA.t4_aaaaaaaa, hA.t4_aaabaaab, hA.t4_aabbaabb, hA.t4_abbbabbb, hA.t4_bbbbbbbb]

/-- **C87** The amplitudes a calculation returns obey the selection rules of every charge that the integrals conserve. -/
theorem C87_selection (κ : Bool → I → G) (o : Opts I) (A : SI I ℝ) (hA : A.Conserves (κ false) (κ true)) (r : Res (SI I ℝ) (Acc D) ℝ)
    (h : calculate D o A = .ok r) : r.st.amps.Conserves (κ false) (κ true) := by
  refine full_keeps D o (fun B => B.Conserves (κ false) (κ true)) (fullBalanced D κ) ?_ ?_ ?_ A hA r h
  · intro B hB
    obtain ⟨d1, d2, d3, q0, q1, q2, q3, q4⟩ := C67_spin_ccdq D hB
    have e2 : ∀ m a b i j, resids2 D B m a b i j ≠ 0 → κ (spins2 m).1 a + κ (spins2 m).2 b = κ (spins2 m).1 i + κ (spins2 m).2 j := by
      intro m; fin_cases m
      exacts [d1, d2, d3]
    have e4 : ∀ m a b c d i j k l, resids4 D B m a b c d i j k l ≠ 0 →
        κ (spins4 m).1 a + κ (spins4 m).2.1 b + κ (spins4 m).2.2.1 c + κ (spins4 m).2.2.2 d =
          κ (spins4 m).1 i + κ (spins4 m).2.1 j + κ (spins4 m).2.2.1 k + κ (spins4 m).2.2.2 l := by
      intro m; fin_cases m
      exacts [q0, q1, q2, q3, q4]
    obtain ⟨b2, b4⟩ := conserves_block B hB
    have h0 : (dropOdd B).Conserves (κ false) (κ true) :=
      { hB with
        t1_aa := fun _ _ h => absurd rfl h
        t1_bb := fun _ _ h => absurd rfl h
        t3_aaaaaa := fun _ _ _ _ _ _ h => absurd rfl h
        t3_aabaab := fun _ _ _ _ _ _ h => absurd rfl h
        t3_abbabb := fun _ _ _ _ _ _ h => absurd rfl h
        t3_bbbbbb := fun _ _ _ _ _ _ h => absurd rfl h }
    rw [iterCcdq_eq]
    refine withAmps_conserves _ h0 _ _ (fun m a b i j hne => ?_) (fun m a b c d i j k l hne => ?_)
    · have := left_ne_zero_of_mul hne
      by_contra hc
      exact this (by rw [not_imp_comm.1 (e2 m a b i j) hc, not_imp_comm.1 (b2 m a b i j) hc]; ring)
    · have := left_ne_zero_of_mul hne
      by_contra hc
      exact this (by rw [not_imp_comm.1 (e4 m a b c d i j k l) hc, not_imp_comm.1 (b4 m a b c d i j k l) hc]; ring)
  · intro B hB
    obtain ⟨b2, b4⟩ := conserves_block B hB
    exact ⟨fun m _ _ _ _ => b2 m _ _ _ _, fun m _ _ _ _ _ _ _ _ => b4 m _ _ _ _ _ _ _ _⟩
  · intro B v hB hv
    obtain ⟨b2, b4⟩ := conserves_block B hB
    rw [unpack_eq]
    refine withAmps_conserves _ hB _ _ (fun m a b i j hne => ?_) (fun m a b c d i j k l hne => ?_)
    · unfold fill2 at hne
      split at hne
      · exact hv.1 _ _ _ _ _ hne
      · exact b2 _ _ _ _ _ hne
    · unfold fill4 at hne
      split at hne
      · exact hv.2 _ _ _ _ _ _ _ _ _ hne
      · exact b4 _ _ _ _ _ _ _ _ _ hne

/-! ## few electrons -/

/-- **C87** With one occupied orbital (two electrons) every quadruples amplitude of the result is zero. -/
theorem C87_two_electrons (o : Opts I) (A : SI I ℝ) (hA : A.Sym) (hc : (D 0).card ≤ 1) (r : Res (SI I ℝ) (Acc D) ℝ)
    (h : calculate D o A = .ok r) (a b c d i j k l : I) (hi : i ∈ D 0) (hj : j ∈ D 0) (hk : k ∈ D 0) (hl : l ∈ D 0) :
    r.st.amps.t4_aaaaaaaa a b c d i j k l = 0 ∧ r.st.amps.t4_aaabaaab a b c d i j k l = 0 ∧ r.st.amps.t4_aabbaabb a b c d i j k l = 0 ∧
    r.st.amps.t4_abbbabbb a b c d i j k l = 0 ∧ r.st.amps.t4_bbbbbbbb a b c d i j k l = 0 := by
  have hS := C87_antisymmetry D o A hA r h
  have e : ∀ x ∈ D 0, ∀ y ∈ D 0, x = y := fun x hx y hy => Finset.card_le_one.1 hc x hx y hy
  obtain rfl := e i hi j hj
  obtain rfl := e i hi k hk
  obtain rfl := e i hi l hl
  have z : ∀ x : ℝ, x = -x → x = 0 := fun x hx => by linarith
  exact ⟨z _ (hS.t4_aaaaaaaa_anti4 ..), z _ (hS.t4_aaabaaab_anti4 ..), z _ (hS.t4_aabbaabb_anti4 ..), z _ (hS.t4_abbbabbb_anti5 ..),
    z _ (hS.t4_bbbbbbbb_anti4 ..)⟩

/-! ## names and errors -/

/-- **C87** Every other name ends in the `UnboundLocalError` of the first pass. -/
theorem C87_other_names (o : Opts I) (hc : o.cc_type ≠ "CCDQ") (h1 : 1 ≤ o.maxIter) (A : SI I ℝ) : calculate D o A = .error .unboundLocal := by
  have hstep : (cfg D o).step (initial D o A) = .error .unboundLocal := by
    have hr : ∀ B l, (cfg D o).resid B l = .error .unboundLocal := fun B l => if_neg hc
    unfold Cfg.step
    simp only [hr, Bind.bind, Except.bind]
  obtain ⟨n, hn⟩ := Nat.exists_eq_succ_of_ne_zero (show o.maxIter ≠ 0 by omega)
  have he : (cfg D o).energy (initial D o A).amps = .ok (ccsd_energy_with_spin D A) := rfl
  have hm : (cfg D o).maxIter = n + 1 := hn
  unfold calculate Cfg.run
  rw [he, hm]
  simp only [Bind.bind, Except.bind, Cfg.loop, hstep]
  rfl

/-- Without DIIS, or before DIIS starts, every `CCDQ` calculation of 1 to 76 passes returns, so the theorems above speak about all of them. -/
theorem C87_returns (o : Opts I) (hc : o.cc_type = "CCDQ") (hd : o.diis = none ∨ o.maxIter ≤ o.start) (h1 : 1 ≤ o.maxIter)
    (h2 : o.maxIter ≤ 76) (A : SI I ℝ) : ∃ r, calculate D o A = .ok r := by
  have hres : ∀ B l, (cfg D o).resid B l = .ok (iterCcdq D o.εa o.εb B) := fun B l => if_pos hc
  have hs : ∀ idx s, idx < o.maxIter → (s.diis.1.iterIdx = idx ∧ s.diis.1.startIter = o.start ∨ o.diis = none) →
      ∃ s', (cfg D o).step s = .ok s' ∧ (s'.diis.1.iterIdx = idx + 1 ∧ s'.diis.1.startIter = o.start ∨ o.diis = none) := by
    intro idx s hi h
    by_cases hn : o.diis = none
    · refine ⟨⟨iterCcdq D o.εa o.εb s.amps, set_l2amps s.amps, s.diis⟩, (step_ok_iff _ _ _).2 ⟨_, hres _ _, ?_, rfl⟩, .inr hn⟩
      simp only [cfg, accel, hn, Option.isSome_none, Bool.false_eq_true, if_false]
    · obtain ⟨e1, e2⟩ := h.resolve_right hn
      have hst := hd.resolve_left hn
      have hlt : s.diis.1.iterIdx < s.diis.1.startIter := by rw [e1, e2]; omega
      have hsome : o.diis.isSome = true := Option.isSome_iff_ne_none.2 hn
      let B := iterCcdq D o.εa o.εb s.amps
      refine ⟨⟨unpack D (pack D B) B, set_l2amps s.amps, ⟨{ s.diis.1 with iterIdx := s.diis.1.iterIdx + 1 }, pack D B⟩⟩,
        (step_ok_iff _ _ _).2 ⟨B, hres _ _, ?_, rfl⟩, .inl ⟨congrArg (· + 1) e1, e2⟩⟩
      simp only [cfg, accel, hsome, if_true, Diis.State.newVec, if_pos hlt, Diis.State.push]
  have hl : ∀ n idx old cur s log, idx + n = o.maxIter → (n = 0 → cur.isSome) → (s.diis.1.iterIdx = idx ∧ s.diis.1.startIter = o.start ∨ o.diis = none) →
      ∃ s' e log', (cfg D o).loop n idx old cur s log = .ok (s', some e, log') := by
    intro n
    induction n with
    | zero =>
      intro idx old cur s log _ hc _
      obtain ⟨e, rfl⟩ := Option.isSome_iff_exists.1 (hc rfl)
      exact ⟨s, e, log, rfl⟩
    | succ n ih =>
      intro idx old cur s log hn _ hi
      obtain ⟨s', h', hi'⟩ := hs idx s (by omega) hi
      unfold Cfg.loop
      rw [if_neg (by omega), h']
      simp only [Bind.bind, Except.bind]
      have he : (cfg D o).energy s'.amps = .ok (ccsd_energy_with_spin D s'.amps) := rfl
      rw [he]
      dsimp only
      split
      · exact ⟨_, _, _, rfl⟩
      · have hm : (cfg D o).maxIter = o.maxIter := rfl
        rw [hm, if_neg (by omega)]
        exact ih _ _ _ _ _ (by omega) (fun _ => rfl) hi'
  obtain ⟨s', e, log, h⟩ := hl o.maxIter 0 (ccsd_energy_with_spin D A) none (initial D o A) [] (by omega) (by omega) (.inl ⟨rfl, rfl⟩)
  refine ⟨⟨s', e, log⟩, ?_⟩
  unfold calculate Cfg.run
  have he : (cfg D o).energy (initial D o A).amps = .ok (ccsd_energy_with_spin D A) := rfl
  have hm : (cfg D o).maxIter = o.maxIter := rfl
  rw [he, hm]
  simp only [Bind.bind, Except.bind]
  rw [h]
  rfl

omit [DecidableEq I] [Inhabited I] in
/-- `finalize` reports the energy with the nuclear repulsion and its difference to the Hartree-Fock energy; nothing is added. -/
theorem C87_report (o : Opts I) (hc : o.cc_type = "CCDQ") (nucE hf : ℝ) (r : Res (SI I ℝ) (Acc D) ℝ) :
    finish D o nucE hf r = some (r.energy + nucE, nucE + r.energy - hf) := by
  have hu : Verif.Py.hasSub "UT2" "CCDQ" = false := by decide +kernel
  unfold finish Finalize.finalize
  rw [hc]
  simp [Finalize.qfNames, hu]

/-! ## equations and energy -/

section equations

open Verif.Wick

variable {B : Type} [Ring B] [Algebra ℝ B]

/-- The programs of the quadruples blocks. -/
def quadProgs : Fin 5 → Prog :=
  ![Gen.ccdq_t4_aaaaaaaa, Gen.ccdq_t4_aaabaaab, Gen.ccdq_t4_aabbaabb, Gen.ccdq_t4_abbbabbb, Gen.ccdq_t4_bbbbbbbb]

/-- The printed coefficients of the quadruples differ from the exact ones by at most this much. -/
theorem quadProgs_roundoff (m : Fin 5) : ∀ b ∈ roundoff (quadProgs m), |b.c| ≤ 1 / 5000000000000 := by
  fin_cases m
  exacts [C83_ccdq_t4_aaaaaaaa_roundoff, C83_ccdq_t4_aaabaaab_roundoff, C83_ccdq_t4_aabbaabb_roundoff, C83_ccdq_t4_abbbabbb_roundoff,
    C83_ccdq_t4_bbbbbbbb_roundoff]

/-- **C87** With a gap between the occupied and the virtual orbital energies, a pass leaves an amplitude as it is exactly if the
projection of `H exp(T2 + T4)` on the excited determinant of that position vanishes, for the quadruples up to the rounding of the
printed coefficients. -/
theorem C87_stationary (F : Fermi (I × Bool) ℝ B (spinD D)) (hD : Disjoint (D 0) (D 1)) (A : SI I ℝ) (hA : A.Sym)
    (h : I × Bool → I × Bool → ℝ) (hf : IsFock (spinD D) h A.so.f A.so.g) (εa εb : I → ℝ)
    (gap : ∀ i ∈ D 0, ∀ a ∈ D 1, εa i < εa a ∧ εb i < εb a) (n : Nat) (hn : 4 ≤ n) (a b c d i j k l : I)
    (ha : a ∈ D 1) (hb : b ∈ D 1) (hc : c ∈ D 1) (hd : d ∈ D 1) (hi : i ∈ D 0) (hj : j ∈ D 0) (hk : k ∈ D 0) (hl : l ∈ D 0) :
    (∀ m, block2 (iterCcdq D εa εb A) m a b i j = block2 A m a b i j ↔
      F.ω (F.bra2 (a, (spins2 m).1) (b, (spins2 m).2) (i, (spins2 m).1) (j, (spins2 m).2) *
        hbar F h A.so.g n (F.T2 A.so.t2 + F.T4 A.so.t4)) = 0) ∧
    ∀ m, block4 (iterCcdq D εa εb A) m a b c d i j k l = block4 A m a b c d i j k l ↔
      F.ω (F.bra4 (a, (spins4 m).1) (b, (spins4 m).2.1) (c, (spins4 m).2.2.1) (d, (spins4 m).2.2.2)
          (i, (spins4 m).1) (j, (spins4 m).2.1) (k, (spins4 m).2.2.1) (l, (spins4 m).2.2.2) *
        hbar F h A.so.g n (F.T2 A.so.t2 + F.T4 A.so.t4)) + (roundoff (quadProgs m)).eval D A.T [a, b, c, d, i, j, k, l] = 0 := by
  have next : ∀ r t d : ℝ, d ≠ 0 → ((r + d⁻¹ * t) * d = t ↔ r = 0) := by
    intro r t d hd
    rw [add_mul, mul_comm d⁻¹, mul_assoc, inv_mul_cancel₀ hd, mul_one, add_eq_right, mul_eq_zero, or_iff_left hd]
  have gi := fun i hi a ha => (gap i hi a ha).1
  have gb := fun i hi a ha => (gap i hi a ha).2
  have x1 := gap i hi a ha
  have x2 := gap j hj b hb
  have x3 := gap k hk c hc
  have x4 := gap l hl d hd
  have ne2 : ∀ m, dens2 εa εb m a b i j ≠ 0 := by
    intro m
    fin_cases m <;> exact one_div_ne_zero (by linarith [x1.1, x1.2, x2.1, x2.2])
  have ne4 : ∀ m, dens4 εa εb m a b c d i j k l ≠ 0 := by
    intro m
    fin_cases m <;> exact one_div_ne_zero (by linarith [x1.1, x1.2, x2.1, x2.2, x3.1, x3.2, x4.1, x4.2])
  refine ⟨fun m => ?_, fun m => ?_⟩
  · have e : block2 (iterCcdq D εa εb A) m a b i j =
        (resids2 D A m a b i j + (dens2 εa εb m a b i j)⁻¹ * block2 A m a b i j) * dens2 εa εb m a b i j := by
      fin_cases m <;> rfl
    rw [e, next _ _ _ (ne2 m)]
    obtain ⟨h1, h2, h3⟩ := C79_ccdq_t2 F hD A hA h hf a b i j ha hb hi hj n (by omega)
    fin_cases m
    · exact Iff.of_eq (congrArg (fun x : ℝ => x = 0) h1)
    · exact Iff.of_eq (congrArg (fun x : ℝ => x = 0) h3)
    · exact Iff.of_eq (congrArg (fun x : ℝ => x = 0) h2)
  · have e : block4 (iterCcdq D εa εb A) m a b c d i j k l =
        (resids4 D A m a b c d i j k l + (dens4 εa εb m a b c d i j k l)⁻¹ * block4 A m a b c d i j k l) * dens4 εa εb m a b c d i j k l := by
      fin_cases m <;> rfl
    rw [e, next _ _ _ (ne4 m)]
    have q0 := C83_ccdq_t4_aaaaaaaa_projected F hD A hA h hf a b c d i j k l ha hb hc hd hi hj hk hl n hn
    have q1 := C83_ccdq_t4_aaabaaab_projected F hD A hA h hf a b c d i j k l ha hb hc hd hi hj hk hl n hn
    have q2 := C83_ccdq_t4_aabbaabb_projected F hD A hA h hf a b c d i j k l ha hb hc hd hi hj hk hl n hn
    have q3 := C83_ccdq_t4_abbbabbb_projected F hD A hA h hf a b c d i j k l ha hb hc hd hi hj hk hl n hn
    have q4 := C83_ccdq_t4_bbbbbbbb_projected F hD A hA h hf a b c d i j k l ha hb hc hd hi hj hk hl n hn
    fin_cases m
    · exact Iff.of_eq (congrArg (fun x : ℝ => x = 0) q0)
    · exact Iff.of_eq (congrArg (fun x : ℝ => x = 0) q1)
    · exact Iff.of_eq (congrArg (fun x : ℝ => x = 0) q2)
    · exact Iff.of_eq (congrArg (fun x : ℝ => x = 0) q3)
    · exact Iff.of_eq (congrArg (fun x : ℝ => x = 0) q4)

/-- **C87** The energy that a calculation returns is the expectation value of `H exp(T2 + T4)` for the amplitudes it returns. -/
theorem C87_energy (F : Fermi (I × Bool) ℝ B (spinD D)) (hD : Disjoint (D 0) (D 1)) (o : Opts I) (A : SI I ℝ) (hA : A.Sym)
    (r : Res (SI I ℝ) (Acc D) ℝ) (hr : calculate D o A = .ok r) (h : I × Bool → I × Bool → ℝ)
    (hf : IsFock (spinD D) h r.st.amps.so.f r.st.amps.so.g) (n : Nat) (hn : 3 ≤ n) :
    r.energy = F.ω (hbar F h r.st.amps.so.g n (F.T2 r.st.amps.so.t2 + F.T4 r.st.amps.so.t4)) := by
  have hS := C87_antisymmetry D o A hA r hr
  obtain ⟨e1, e2, -, e4⟩ := C79_energy F hD r.st.amps hS h hf n hn
  have hz := (C87_no_singles_no_triples D o A r hr).1
  have t1 : F.T1 r.st.amps.so.t1 = 0 := by
    unfold Fermi.T1
    refine Finset.sum_eq_zero fun a _ => Finset.sum_eq_zero fun i _ => ?_
    obtain ⟨a, s⟩ := a
    obtain ⟨i, u⟩ := i
    obtain ⟨z1, z2, z3, z4⟩ := SI.so_t1 r.st.amps a i
    have : r.st.amps.so.t1 (a, s) (i, u) = 0 := by
      cases s <;> cases u
      exacts [z1.trans (hz a i).1, z3, z4, z2.trans (hz a i).2]
    rw [this, zero_smul]
  rw [t1, zero_add] at e2
  have e := (C03_energy_of_returned_amplitudes _ _ r hr).1
  have e : ccsd_energy_with_spin D r.st.amps = r.energy := Except.ok.inj e
  rw [← e, e2, ← e1, e4]

end equations

/-! ## an example -/

/-- Options of a `CCDQ` calculation of 40 passes on four orbitals with energies 1, 2, 3, 4. -/
noncomputable def fullOptsR : Opts ℕ :=
  { cc_type := "CCDQ", εa := fun p => (p : ℝ) + 1, εb := fun p => (p : ℝ) + 1, maxIter := 40, eps := 1 / 1000, diis := some 6, start := 40 }

example : ∃ r, calculate Witness.D fullOptsR Witness.csR = .ok r ∧ r.st.amps.Sym ∧
    (∃ r', calculate Witness.D (fullFlipOpts fullOptsR) Witness.csR.flip = .ok r' ∧ r'.energy = r.energy) ∧
    (∃ r', calculate Witness.D (fullRelabelOpts (Equiv.swap 0 1) fullOptsR) (Witness.csR.comap (Equiv.swap 0 1)) = .ok r' ∧ r'.energy = r.energy) ∧
    Witness.csR.g_abab 0 1 2 3 ≠ 0 := by
  obtain ⟨r, h⟩ := C87_returns Witness.D fullOptsR rfl (.inr (le_refl 40)) (show 1 ≤ 40 by omega) (show 40 ≤ 76 by omega) Witness.csR
  have flip := C87_spin_exchange Witness.D fullOptsR Witness.csR Witness.csR_sym
  have swap := C87_orbital_order Witness.D (Equiv.swap 0 1) (fun s x => by
    by_cases hs : s = 0
    · subst hs
      rcases eq_or_ne x 0 with rfl | h0
      · simp [Witness.D]
      · rcases eq_or_ne x 1 with rfl | h1
        · simp [Witness.D]
        · rw [Equiv.swap_apply_of_ne_of_ne h0 h1]
    · have hD : Witness.D s = {2, 3} := by cases s <;> [exact absurd rfl hs; rfl]
      rw [hD]
      rcases eq_or_ne x 0 with rfl | h0
      · simp
      · rcases eq_or_ne x 1 with rfl | h1
        · simp
        · rw [Equiv.swap_apply_of_ne_of_ne h0 h1]) fullOptsR Witness.csR
  rw [h] at flip swap
  refine ⟨r, h, C87_antisymmetry _ _ _ Witness.csR_sym r h, ?_, ?_, ?_⟩
  · cases hf : calculate Witness.D (fullFlipOpts fullOptsR) Witness.csR.flip with
    | error e => rw [hf] at flip; exact flip.elim
    | ok r' => rw [hf] at flip; exact ⟨r', rfl, flip.2.1⟩
  · cases hf : calculate Witness.D (fullRelabelOpts (Equiv.swap 0 1) fullOptsR) (Witness.csR.comap (Equiv.swap 0 1)) with
    | error e => rw [hf] at swap; exact swap.elim
    | ok r' => rw [hf] at swap; exact ⟨r', rfl, swap.2.1⟩
  · norm_num [Witness.csR, Witness.cs, Witness.gab, Witness.z]

/-- The energies of the example have a gap, as `C87_stationary` asks, and one occupied orbital meets `C87_two_electrons`. -/
example : (∀ i ∈ Witness.D 0, ∀ a ∈ Witness.D 1, fullOptsR.εa i < fullOptsR.εa a ∧ fullOptsR.εb i < fullOptsR.εb a) ∧
    ((fun s => if s = 0 then {0} else {1, 2} : Nat → Finset ℕ) 0).card ≤ 1 := by
  refine ⟨fun i hi a ha => ?_, by decide⟩
  have : i < a := by
    simp only [Witness.D, Finset.mem_insert, Finset.mem_singleton] at hi ha
    omega
  have : (i : ℝ) < a := by exact_mod_cast this
  constructor <;> simpa [fullOptsR] using this

/-- `CCSDTQ` is one of the names that fail. -/
example : calculate Witness.D { fullOptsR with cc_type := "CCSDTQ" } Witness.csR = .error .unboundLocal :=
  C87_other_names _ _ (show "CCSDTQ" ≠ "CCDQ" by decide) (show 1 ≤ 40 by omega) _

end Verif.Props
