import Verif.Props.Rotate
import Verif.Props.Sizes
import Verif.Lemmas.Witness

/-!
# Rotated solutions (C68)

Solutions of the equations of the code are rotated to solutions with the same energy. The pair energy `pccdEnergy` is not
of this kind: it changes under rotations.
-/

namespace Verif.Props

open Verif.Ein Verif.UT2

section
variable {I K : Type} [DecidableEq I] [Field K] {D : Nat → Finset I} (hD : Disjoint (D 0) (D 1))
include hD

theorem rot1_zero {U : I → I → K} (hU : Rotation D U) {x : I → K} {s : Nat} (hs : s < 2) (hx : ∀ p ∈ D s, x p = 0) :
    ∀ p ∈ D s, rot1 (D 0 ∪ D 1) U x p = 0 := fun p hp => by
  rw [hU.rot1 hD x s hs p hp]
  exact Finset.sum_eq_zero fun q hq => by rw [hx q hq, mul_zero]

theorem rot2_zero {U V : I → I → K} (hU : Rotation D U) (hV : Rotation D V) {x : I → I → K} {s s' : Nat} (hs : s < 2)
    (hs' : s' < 2) (hx : ∀ p ∈ D s, ∀ q ∈ D s', x p q = 0) :
    ∀ p ∈ D s, ∀ q ∈ D s', rot2 (D 0 ∪ D 1) U V x p q = 0 := fun p hp q hq =>
  rot1_zero hD hU hs (fun p' hp' => rot1_zero hD hV hs' (hx p' hp') q hq) p hp

theorem rot4_zero {U V W X : I → I → K} (hU : Rotation D U) (hV : Rotation D V) (hW : Rotation D W) (hX : Rotation D X)
    {x : I → I → I → I → K} {s0 s1 s2 s3 : Nat} (h0 : s0 < 2) (h1 : s1 < 2) (h2 : s2 < 2) (h3 : s3 < 2)
    (hx : ∀ p ∈ D s0, ∀ q ∈ D s1, ∀ r ∈ D s2, ∀ s ∈ D s3, x p q r s = 0) :
    ∀ p ∈ D s0, ∀ q ∈ D s1, ∀ r ∈ D s2, ∀ s ∈ D s3, rot4 (D 0 ∪ D 1) U V W X x p q r s = 0 := fun p hp q hq r hr s hs =>
  rot2_zero hD hU hV h0 h1 (fun p' hp' q' hq' => rot2_zero hD hW hX h2 h3 (hx p' hp' q' hq') r hr s hs) p hp q hq

theorem rot6_zero {U0 U1 U2 U3 U4 U5 : I → I → K} (k0 : Rotation D U0) (k1 : Rotation D U1) (k2 : Rotation D U2)
    (k3 : Rotation D U3) (k4 : Rotation D U4) (k5 : Rotation D U5) {x : I → I → I → I → I → I → K} {s0 s1 s2 s3 s4 s5 : Nat}
    (h0 : s0 < 2) (h1 : s1 < 2) (h2 : s2 < 2) (h3 : s3 < 2) (h4 : s4 < 2) (h5 : s5 < 2)
    (hx : ∀ p ∈ D s0, ∀ q ∈ D s1, ∀ r ∈ D s2, ∀ s ∈ D s3, ∀ u ∈ D s4, ∀ v ∈ D s5, x p q r s u v = 0) :
    ∀ p ∈ D s0, ∀ q ∈ D s1, ∀ r ∈ D s2, ∀ s ∈ D s3, ∀ u ∈ D s4, ∀ v ∈ D s5,
      rot6 (D 0 ∪ D 1) U0 U1 U2 U3 U4 U5 x p q r s u v = 0 := fun p hp q hq r hr s hs u hu v hv =>
  rot2_zero hD k0 k1 h0 h1 (fun p' hp' q' hq' =>
    rot4_zero hD k2 k3 k4 k5 h2 h3 h4 h5 (hx p' hp' q' hq') r hr s hs u hu v hv) p hp q hq

theorem rot8_zero {U0 U1 U2 U3 U4 U5 U6 U7 : I → I → K} (k0 : Rotation D U0) (k1 : Rotation D U1) (k2 : Rotation D U2)
    (k3 : Rotation D U3) (k4 : Rotation D U4) (k5 : Rotation D U5) (k6 : Rotation D U6) (k7 : Rotation D U7)
    {x : I → I → I → I → I → I → I → I → K} {s0 s1 s2 s3 s4 s5 s6 s7 : Nat}
    (h0 : s0 < 2) (h1 : s1 < 2) (h2 : s2 < 2) (h3 : s3 < 2) (h4 : s4 < 2) (h5 : s5 < 2) (h6 : s6 < 2) (h7 : s7 < 2)
    (hx : ∀ p ∈ D s0, ∀ q ∈ D s1, ∀ r ∈ D s2, ∀ s ∈ D s3, ∀ u ∈ D s4, ∀ v ∈ D s5, ∀ w ∈ D s6, ∀ z ∈ D s7, x p q r s u v w z = 0) :
    ∀ p ∈ D s0, ∀ q ∈ D s1, ∀ r ∈ D s2, ∀ s ∈ D s3, ∀ u ∈ D s4, ∀ v ∈ D s5, ∀ w ∈ D s6, ∀ z ∈ D s7,
      rot8 (D 0 ∪ D 1) U0 U1 U2 U3 U4 U5 U6 U7 x p q r s u v w z = 0 := fun p hp q hq r hr s hs u hu v hv w hw z hz =>
  rot2_zero hD k0 k1 h0 h1 (fun p' hp' q' hq' =>
    rot6_zero hD k2 k3 k4 k5 k6 k7 h2 h3 h4 h5 h6 h7 (hx p' hp' q' hq') r hr s hs u hu v hv w hw z hz) p hp q hq

end

variable {I K : Type} [DecidableEq I] [Field K] [Inhabited I] {D : Nat → Finset I} (hD : Disjoint (D 0) (D 1))
  {U Ua Ub : I → I → K} (h : Rotation D U) (ha : Rotation D Ua) (hb : Rotation D Ub)
include hD

include h in
/-- Rotated solutions of the CCD equations are solutions, with the same energy. -/
theorem C68_ccd_solutions (A : SO I K)
    (hA : ∀ a ∈ D 1, ∀ b ∈ D 1, ∀ i ∈ D 0, ∀ j ∈ D 0, ccd_t2residual D A a b i j = 0) :
    (∀ a ∈ D 1, ∀ b ∈ D 1, ∀ i ∈ D 0, ∀ j ∈ D 0, ccd_t2residual D (A.rotate (D 0 ∪ D 1) U) a b i j = 0) ∧
    ccdEnergy D (A.rotate (D 0 ∪ D 1) U) = ccdEnergy D A :=
  ⟨fun a ha b hb i hi j hj => ((C68_ccd hD h A).2.1 a ha b hb i hi j hj).trans
    (rot4_zero hD h h h h (by decide) (by decide) (by decide) (by decide) hA a ha b hb i hi j hj), (C68_ccd hD h A).1⟩

include ha hb in
/-- Rotated solutions of the spin-integrated CCD equations are solutions, with the same energy. -/
theorem C68_spin_ccd_solutions (A : SI I K)
    (hA : ∀ a ∈ D 1, ∀ b ∈ D 1, ∀ i ∈ D 0, ∀ j ∈ D 0,
      ccd_t2_aaaa D A a b i j = 0 ∧ ccd_t2_abab D A a b i j = 0 ∧ ccd_t2_bbbb D A a b i j = 0) :
    (∀ a ∈ D 1, ∀ b ∈ D 1, ∀ i ∈ D 0, ∀ j ∈ D 0, ccd_t2_aaaa D (A.rotate (D 0 ∪ D 1) Ua Ub) a b i j = 0 ∧
      ccd_t2_abab D (A.rotate (D 0 ∪ D 1) Ua Ub) a b i j = 0 ∧ ccd_t2_bbbb D (A.rotate (D 0 ∪ D 1) Ua Ub) a b i j = 0) ∧
    ccd_energy_with_spin D (A.rotate (D 0 ∪ D 1) Ua Ub) = ccd_energy_with_spin D A := by
  obtain ⟨e, p1, p2, p3⟩ := C68_spin_ccd hD ha hb A
  refine ⟨fun a xa b xb i xi j xj => ⟨(p1 a xa b xb i xi j xj).trans ?_, (p2 a xa b xb i xi j xj).trans ?_,
    (p3 a xa b xb i xi j xj).trans ?_⟩, e⟩
  · exact rot4_zero hD ha ha ha ha (by decide) (by decide) (by decide) (by decide)
      (fun a xa b xb i xi j xj => (hA a xa b xb i xi j xj).1) a xa b xb i xi j xj
  · exact rot4_zero hD ha hb ha hb (by decide) (by decide) (by decide) (by decide)
      (fun a xa b xb i xi j xj => (hA a xa b xb i xi j xj).2.1) a xa b xb i xi j xj
  · exact rot4_zero hD hb hb hb hb (by decide) (by decide) (by decide) (by decide)
      (fun a xa b xb i xi j xj => (hA a xa b xb i xi j xj).2.2) a xa b xb i xi j xj

include h in
/-- CCSD. -/
theorem C68_ccsd_solutions (A : SO I K) (hA : Solves_ccsd D A) :
    Solves_ccsd D (A.rotate (D 0 ∪ D 1) U) ∧ spinorbitalCCSDE D (A.rotate (D 0 ∪ D 1) U) = spinorbitalCCSDE D A := by
  obtain ⟨e, _, p1, p2⟩ := C68_ccsd hD h A
  refine ⟨⟨fun i hi a ha => (p1 i hi a ha).trans ?_, fun i hi j hj a ha b hb => (p2 i hi j hj a ha b hb).trans ?_⟩, e⟩
  · exact rot2_zero hD h h (by decide) (by decide) hA.1 i hi a ha
  · exact rot4_zero hD h h h h (by decide) (by decide) (by decide) (by decide) hA.2 i hi j hj a ha b hb

include h in
/-- CCSDT. -/
theorem C68_ccsdt_solutions (A : SO I K) (hA : Solves_ccsdt D A) :
    Solves_ccsdt D (A.rotate (D 0 ∪ D 1) U) ∧ spinorbitalCCSDE D (A.rotate (D 0 ∪ D 1) U) = spinorbitalCCSDE D A := by
  obtain ⟨p1, p2, p3⟩ := C68_ccsdt hD h A
  refine ⟨⟨fun i hi a ha => (p1 i hi a ha).trans ?_, fun i hi j hj a ha b hb => (p2 i hi j hj a ha b hb).trans ?_,
    fun i hi j hj k hk a ha b hb c hc => (p3 i hi j hj k hk a ha b hb c hc).trans ?_⟩, (C68_ccsd hD h A).1⟩
  · exact rot2_zero hD h h (by decide) (by decide) hA.1 i hi a ha
  · exact rot4_zero hD h h h h (by decide) (by decide) (by decide) (by decide) hA.2.1 i hi j hj a ha b hb
  · exact rot6_zero hD h h h h h h (by decide) (by decide) (by decide) (by decide) (by decide) (by decide) hA.2.2
      i hi j hj k hk a ha b hb c hc

include h in
/-- CCDQ. -/
theorem C68_ccdq_solutions (A : SO I K) (hA : Solves_ccdq D A) :
    Solves_ccdq D (A.rotate (D 0 ∪ D 1) U) ∧ spinorbitalCCDE D (A.rotate (D 0 ∪ D 1) U) = spinorbitalCCDE D A := by
  obtain ⟨p1, p2⟩ := C68_ccdq hD h A
  refine ⟨⟨fun i hi j hj a ha b hb => (p1 i hi j hj a ha b hb).trans ?_,
    fun i hi j hj k hk l hl a ha b hb c hc d hd => (p2 i hi j hj k hk l hl a ha b hb c hc d hd).trans ?_⟩,
    (C68_ccsd hD h A).2.1⟩
  · exact rot4_zero hD h h h h (by decide) (by decide) (by decide) (by decide) hA.1 i hi j hj a ha b hb
  · exact rot8_zero hD h h h h h h h h (by decide) (by decide) (by decide) (by decide) (by decide) (by decide) (by decide)
      (by decide) hA.2 i hi j hj k hk l hl a ha b hb c hc d hd

include ha hb in
/-- Spin-integrated CCSDT, with different rotations of alpha and beta orbitals. -/
theorem C68_spin_ccsdt_solutions (A : SI I K) (hA : Solves_spin_ccsdt D A) :
    Solves_spin_ccsdt D (A.rotate (D 0 ∪ D 1) Ua Ub) ∧
    ccsd_energy_with_spin D (A.rotate (D 0 ∪ D 1) Ua Ub) = ccsd_energy_with_spin D A := by
  obtain ⟨e, p1, p2, p3, p4, p5, p6, p7, p8, p9⟩ := C68_spin_ccsdt hD ha hb A
  obtain ⟨q1, q2, q3, q4, q5, q6, q7, q8, q9⟩ := hA
  have z0 : (0 : Nat) < 2 := by decide
  have z1 : (1 : Nat) < 2 := by decide
  refine ⟨⟨?_, ?_, ?_, ?_, ?_, ?_, ?_, ?_, ?_⟩, e⟩
  · exact fun a h1 i h2 => (p1 a h1 i h2).trans (rot2_zero hD ha ha z1 z0 q1 a h1 i h2)
  · exact fun a h1 i h2 => (p2 a h1 i h2).trans (rot2_zero hD hb hb z1 z0 q2 a h1 i h2)
  · exact fun a h1 b h2 i h3 j h4 => (p3 a h1 b h2 i h3 j h4).trans (rot4_zero hD ha ha ha ha z1 z1 z0 z0 q3 a h1 b h2 i h3 j h4)
  · exact fun a h1 b h2 i h3 j h4 => (p4 a h1 b h2 i h3 j h4).trans (rot4_zero hD hb hb hb hb z1 z1 z0 z0 q4 a h1 b h2 i h3 j h4)
  · exact fun a h1 b h2 i h3 j h4 => (p5 a h1 b h2 i h3 j h4).trans (rot4_zero hD ha hb ha hb z1 z1 z0 z0 q5 a h1 b h2 i h3 j h4)
  · exact fun a h1 b h2 c h3 i h4 j h5 k h6 => (p6 a h1 b h2 c h3 i h4 j h5 k h6).trans
      (rot6_zero hD ha ha ha ha ha ha z1 z1 z1 z0 z0 z0 q6 a h1 b h2 c h3 i h4 j h5 k h6)
  · exact fun a h1 b h2 c h3 i h4 j h5 k h6 => (p7 a h1 b h2 c h3 i h4 j h5 k h6).trans
      (rot6_zero hD ha ha hb ha ha hb z1 z1 z1 z0 z0 z0 q7 a h1 b h2 c h3 i h4 j h5 k h6)
  · exact fun a h1 b h2 c h3 i h4 j h5 k h6 => (p8 a h1 b h2 c h3 i h4 j h5 k h6).trans
      (rot6_zero hD ha hb hb ha hb hb z1 z1 z1 z0 z0 z0 q8 a h1 b h2 c h3 i h4 j h5 k h6)
  · exact fun a h1 b h2 c h3 i h4 j h5 k h6 => (p9 a h1 b h2 c h3 i h4 j h5 k h6).trans
      (rot6_zero hD hb hb hb hb hb hb z1 z1 z1 z0 z0 z0 q9 a h1 b h2 c h3 i h4 j h5 k h6)

omit hD

/-! ## a rotation -/

def DR : Nat → Finset ℕ
  | 0 => {0, 1}
  | _ => {2, 3}

/-- Occupied orbitals turned by the angle with cosine 3/5, virtual orbitals exchanged. -/
def turn : ℕ → ℕ → ℚ
  | 0, 0 => 3 / 5
  | 0, 1 => -4 / 5
  | 1, 0 => 4 / 5
  | 1, 1 => 3 / 5
  | 2, 3 => 1
  | 3, 2 => -1
  | _, _ => 0

theorem turn_rotation : Rotation DR turn where
  orth s hs := by
    rcases (by omega : s = 0 ∨ s = 1) with rfl | rfl <;> decide +kernel
  block p q hpq := by
    have : (p = 0 ∨ p = 1) ∧ (q = 2 ∨ q = 3) ∨ (p = 2 ∨ p = 3) ∧ (q = 0 ∨ q = 1) := by simpa [DR] using hpq
    rcases this with ⟨rfl | rfl, rfl | rfl⟩ | ⟨rfl | rfl, rfl | rfl⟩ <;> rfl

/-- The arrays do change. -/
example : (Witness.so.rotate (DR 0 ∪ DR 1) turn).t2 2 3 0 1 ≠ Witness.so.t2 2 3 0 1 ∨
    (Witness.so.rotate (DR 0 ∪ DR 1) turn).f 0 1 ≠ Witness.so.f 0 1 := by decide +kernel

/-- The energy of the example is not zero. -/
example : ccdEnergy DR (Witness.so.rotate (DR 0 ∪ DR 1) turn) = ccdEnergy DR Witness.so ∧ ccdEnergy DR Witness.so ≠ 0 :=
  ⟨(C68_ccd (by decide) turn_rotation Witness.so).1, by decide +kernel⟩

/-- One non-zero pair amplitude. -/
def onePair : SO ℕ ℚ where
  g p q r s := if p < 2 ∧ q < 2 ∧ 2 ≤ r ∧ 2 ≤ s then 1 else 0
  t2 a b i j := if a = 2 ∧ b = 2 ∧ i = 0 ∧ j = 0 then 1 else 0

/-- The pair energy is not invariant: it is not a function of the occupied and virtual spaces alone. -/
theorem C68_pair_energy_not_invariant : ∃ (D : Nat → Finset ℕ) (U : ℕ → ℕ → ℚ) (A : SO ℕ ℚ), Disjoint (D 0) (D 1) ∧
    Rotation D U ∧ pccdEnergy D (A.rotate (D 0 ∪ D 1) U) ≠ pccdEnergy D A :=
  ⟨DR, turn, onePair, by decide, turn_rotation, by decide +kernel⟩

end Verif.Props
