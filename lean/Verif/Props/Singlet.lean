import Verif.Ein.SpinRot
import Verif.Ein.RotArrays
import Verif.Props.SpinCcd
import Verif.Props.OpenShell
import Verif.Props.Setup

/-!
# Closed-shell amplitudes stay spin adapted (C81)

For a closed-shell reference the integrals do not depend on the spin; then the same-spin amplitudes are the mixed-spin
amplitudes minus their exchange. The blocks are computed separately by the code. The proof rotates the spin axis:
arrays of this form are exactly those that no rotation of the spin changes, and the equations commute with rotations.
-/

namespace Verif.Props

open Verif.Ein Verif.UT2 Verif.Setup
open Verif.Wick (InBox)

variable {I K : Type} [DecidableEq I] [Field K]

/-- Three spin blocks with the first two indices in `S`, the others in `S'`: both same-spin blocks are the mixed block
minus its exchange, and the mixed block does not change when the electrons are exchanged. -/
structure Adapted (S S' : Finset I) (aaaa abab bbbb : I → I → I → I → K) : Prop where
  aaaa : ∀ p ∈ S, ∀ q ∈ S, ∀ r ∈ S', ∀ s ∈ S', aaaa p q r s = abab p q r s - abab p q s r
  bbbb : ∀ p ∈ S, ∀ q ∈ S, ∀ r ∈ S', ∀ s ∈ S', bbbb p q r s = abab p q r s - abab p q s r
  swap : ∀ p ∈ S, ∀ q ∈ S, ∀ r ∈ S', ∀ s ∈ S', abab q p s r = abab p q r s

/-- The closed-shell case: spin-free integrals, spin-adapted amplitudes. -/
structure Closed (D : Nat → Finset I) (A : SI I K) : Prop where
  f : ∀ p ∈ D 0 ∪ D 1, ∀ q ∈ D 0 ∪ D 1, A.f_bb p q = A.f_aa p q
  g : Adapted (D 0 ∪ D 1) (D 0 ∪ D 1) A.g_aaaa A.g_abab A.g_bbbb
  t2 : Adapted (D 1) (D 0) A.t2_aaaa A.t2_abab A.t2_bbbb
  l2 : Adapted (D 0) (D 1) A.l2_aaaa A.l2_abab A.l2_bbbb

/-- Arrays read by the residuals, on their slices. -/
noncomputable def cutT (D : Nat → Finset I) (A : SI I K) (t : Nat) (l : List (I × Bool)) : K :=
  open Classical in
  if t = 15 ∨ t = 23 ∨ (t = 39 ∧ InBox (spinD D) [1, 1, 0, 0] l) ∨ (t = 71 ∧ InBox (spinD D) [0, 0, 1, 1] l) then A.so.T t l else 0

/-- The operand is one of these arrays on its slice. -/
def cutFac (f : Fac) : Bool := (Nat.beq f.t 15) || (Nat.beq f.t 23) || (Nat.beq f.t 39 && decide (f.ix.map sp = [1, 1, 0, 0]))
  || (Nat.beq f.t 71 && decide (f.ix.map sp = [0, 0, 1, 1]))

variable (D : Nat → Finset I)

omit [DecidableEq I] in
theorem cutT_eq (A : SI I K) (f : Fac) (hf : cutFac f = true) (l : List (I × Bool)) (hl : InBox (spinD D) (f.ix.map sp) l) :
    A.so.T f.t l = cutT D A f.t l := by
  classical
  unfold cutT
  rw [if_pos]
  simp only [cutFac, Bool.or_eq_true, Bool.and_eq_true, Nat.beq_eq, decide_eq_true_eq] at hf
  rcases hf with ((h | h) | ⟨h, e⟩) | ⟨h, e⟩
  · exact Or.inl h
  · exact Or.inr (Or.inl h)
  · exact Or.inr (Or.inr (Or.inl ⟨h, e ▸ hl⟩))
  · exact Or.inr (Or.inr (Or.inr ⟨h, e ▸ hl⟩))

omit [DecidableEq I] in
theorem adapted_entry4 {x : I → I → I → I → K} {X : I × Bool → I × Bool → I × Bool → I × Bool → K} {y z : I → I → I → I → K}
    (same : ∀ p q r s, X (p, false) (q, false) (r, false) (s, false) = y p q r s ∧ X (p, true) (q, true) (r, true) (s, true) = z p q r s)
    (mixed : ∀ p q r s, X (p, false) (q, true) (r, false) (s, true) = x p q r s ∧
      X (p, false) (q, true) (r, true) (s, false) = - x p q s r ∧
      X (p, true) (q, false) (r, false) (s, true) = - x q p r s ∧ X (p, true) (q, false) (r, true) (s, false) = x q p s r)
    (zero : ∀ p q r s (a b c d : Bool), a.toNat + b.toNat ≠ c.toNat + d.toNat → X (p, a) (q, b) (r, c) (s, d) = 0)
    {S S' : Finset I} (h : Adapted S S' y x z) (p q r s : I) (hp : p ∈ S) (hq : q ∈ S) (hr : r ∈ S') (hs : s ∈ S')
    (a b c d : Bool) : X (p, a) (q, b) (r, c) (s, d) = adapted (x p q r s) (x p q s r) a b c d := by
  obtain ⟨s1, s2⟩ := same p q r s
  obtain ⟨m1, m2, m3, m4⟩ := mixed p q r s
  have e1 := h.aaaa p hp q hq r hr s hs
  have e2 := h.bbbb p hp q hq r hr s hs
  have e3 := h.swap p hp q hq r hr s hs
  have e4 := h.swap p hp q hq s hs r hr
  cases a <;> cases b <;> cases c <;> cases d <;> simp only [adapted] <;>
    first
    | (rw [zero _ _ _ _ _ _ _ _ (by decide)]; simp)
    | (simp [s1, s2, m1, m2, m3, m4, e1, e2, e3, e4])

omit [DecidableEq I] in
/-- Spin-adapted entries are unchanged by rotations of the spin. -/
theorem spinSum4 (c s : K) (h : c * c + s * s = 1) (X : List (I × Bool) → K) (p q r t : I) (v w : K)
    (hX : ∀ a b c d : Bool, X [(p, a), (q, b), (r, c), (t, d)] = adapted v w a b c d) (a b a' b' : Bool) :
    X [(p, a), (q, b), (r, a'), (t, b')] = spinSum c s [(p, a), (q, b), (r, a'), (t, b')] X := by
  simp only [spinSum, hX]
  exact adapted_invariant c s h v w a b a' b'

omit [DecidableEq I] in
theorem spinSum_zero (c s : K) (l : List (I × Bool)) : ∀ X : List (I × Bool) → K, (∀ z, z.map Prod.fst = l.map Prod.fst → X z = 0) →
    spinSum c s l X = 0 := by
  induction l with
  | nil => intro X h; exact h [] rfl
  | cons x l ih =>
    intro X h
    simp only [spinSum]
    refine Finset.sum_eq_zero fun τ _ => ?_
    rw [ih _ fun z hz => h _ (by simp [hz]), mul_zero]

omit [DecidableEq I] in
theorem inBox_fst (ss : List Nat) (l : List (I × Bool)) : InBox (spinD D) ss l ↔ InBox D ss (l.map Prod.fst) := by
  unfold InBox
  rw [List.forall₂_map_right_iff]
  simp [spinD]

omit [DecidableEq I] in
theorem inBox_congr (ss : List Nat) (l z : List (I × Bool)) (h : z.map Prod.fst = l.map Prod.fst) :
    InBox (spinD D) ss z ↔ InBox (spinD D) ss l := by
  rw [inBox_fst, inBox_fst, h]

/-- In the closed-shell case the arrays are unchanged by rotations of the spin. -/
theorem cutT_invariant (c s : K) (h : c * c + s * s = 1) (A : SI I K) (hA : Closed D A) (t : Nat) (ss : List Nat) (l : List (I × Bool))
    (hs : ss.length = (SO.col t).length) (h2 : ∀ n ∈ ss, n < 2) (hl : InBox (spinD D) ss l) :
    cutT D A t l = spinSum c s l (cutT D A t) := by
  classical
  by_cases h15 : t = 15
  · subst h15
    have e : ∀ z, cutT D A 15 z = A.so.T 15 z := fun z => by simp [cutT]
    rw [e, show cutT D A 15 = A.so.T 15 from funext e]
    have hlen : ss.length = 2 := hs
    obtain ⟨s0, s1, rfl⟩ := List.length_eq_two.1 hlen
    rcases hl with _ | ⟨hp, _ | ⟨hq, ⟨⟩⟩⟩
    rename_i x y
    obtain ⟨p, a⟩ := x
    obtain ⟨q, b⟩ := y
    have m : ∀ n, n < 2 → ∀ x : I × Bool, x ∈ spinD D n → x.1 ∈ D 0 ∪ D 1 := by
      intro n hn x hx
      have hx := (Finset.mem_product.1 hx).1
      rcases (by omega : n = 0 ∨ n = 1) with rfl | rfl
      · exact Finset.mem_union_left _ hx
      · exact Finset.mem_union_right _ hx
    have hf := hA.f p (m _ (h2 _ (by simp)) _ hp) q (m _ (h2 _ (by simp)) _ hq)
    obtain ⟨f1, f2, f3, f4⟩ := SI.so_f A p q
    have e : ∀ a b, A.so.T 15 [(p, a), (q, b)] = if a = b then A.f_aa p q else 0 := by
      intro a b
      rw [show A.so.T 15 [(p, a), (q, b)] = A.so.f (p, a) (q, b) from rfl]
      cases a <;> cases b <;> simp [f1, f2, f3, f4, hf]
    simp only [spinSum, e, Fintype.sum_bool]
    cases a <;> cases b <;> simp [spinMat] <;> first | ring1 | linear_combination (-A.f_aa p q) * h
  by_cases h23 : t = 23
  · subst h23
    have e : ∀ z, cutT D A 23 z = A.so.T 23 z := fun z => by simp [cutT]
    rw [e, show cutT D A 23 = A.so.T 23 from funext e]
    have hlen : ss.length = 4 := hs
    rcases ss with _ | ⟨s0, _ | ⟨s1, _ | ⟨s2, _ | ⟨s3, _ | ⟨s4, ss⟩⟩⟩⟩⟩ <;> simp at hlen
    rcases hl with _ | ⟨hp, _ | ⟨hq, _ | ⟨hr, _ | ⟨ht, ⟨⟩⟩⟩⟩⟩
    rename_i x y z w
    obtain ⟨p, a⟩ := x
    obtain ⟨q, b⟩ := y
    obtain ⟨r, a'⟩ := z
    obtain ⟨u, b'⟩ := w
    have m : ∀ n, n < 2 → ∀ x : I × Bool, x ∈ spinD D n → x.1 ∈ D 0 ∪ D 1 := by
      intro n hn x hx
      have hx := (Finset.mem_product.1 hx).1
      rcases (by omega : n = 0 ∨ n = 1) with rfl | rfl
      · exact Finset.mem_union_left _ hx
      · exact Finset.mem_union_right _ hx
    exact spinSum4 c s h _ p q r u _ _ (fun a b a' b' => adapted_entry4 (X := A.so.g) (SI.so_g_same A) (SI.so_g_mixed A) (SI.so_g_zero A) hA.g
      p q r u (m _ (h2 _ (by simp)) _ hp) (m _ (h2 _ (by simp)) _ hq) (m _ (h2 _ (by simp)) _ hr) (m _ (h2 _ (by simp)) _ ht) a b a' b') a b a' b'
  by_cases h39 : t = 39 ∧ InBox (spinD D) [1, 1, 0, 0] l
  · obtain ⟨rfl, hb⟩ := h39
    have e : ∀ z, z.map Prod.fst = l.map Prod.fst → cutT D A 39 z = A.so.T 39 z := fun z hz => by
      simp [cutT, inBox_congr D _ l z hz, hb]
    rcases hb with _ | ⟨hp, _ | ⟨hq, _ | ⟨hr, _ | ⟨ht, ⟨⟩⟩⟩⟩⟩
    rename_i x y z w
    obtain ⟨p, a⟩ := x
    obtain ⟨q, b⟩ := y
    obtain ⟨r, a'⟩ := z
    obtain ⟨u, b'⟩ := w
    refine spinSum4 c s h _ p q r u (A.t2_abab p q r u) (A.t2_abab p q u r) (fun a b a' b' => ?_) a b a' b'
    rw [e _ (by simp)]
    exact adapted_entry4 (X := A.so.t2) (SI.so_t2_same A) (SI.so_t2_mixed A) (SI.so_t2_zero A) hA.t2
      p q r u (Finset.mem_product.1 hp).1 (Finset.mem_product.1 hq).1 (Finset.mem_product.1 hr).1 (Finset.mem_product.1 ht).1 a b a' b'
  by_cases h71 : t = 71 ∧ InBox (spinD D) [0, 0, 1, 1] l
  · obtain ⟨rfl, hb⟩ := h71
    have e : ∀ z, z.map Prod.fst = l.map Prod.fst → cutT D A 71 z = A.so.T 71 z := fun z hz => by
      simp [cutT, inBox_congr D _ l z hz, hb]
    rcases hb with _ | ⟨hp, _ | ⟨hq, _ | ⟨hr, _ | ⟨ht, ⟨⟩⟩⟩⟩⟩
    rename_i x y z w
    obtain ⟨p, a⟩ := x
    obtain ⟨q, b⟩ := y
    obtain ⟨r, a'⟩ := z
    obtain ⟨u, b'⟩ := w
    refine spinSum4 c s h _ p q r u (A.l2_abab p q r u) (A.l2_abab p q u r) (fun a b a' b' => ?_) a b a' b'
    rw [e _ (by simp)]
    exact adapted_entry4 (X := A.so.l2) (SI.so_l2_same A) (SI.so_l2_mixed A) (SI.so_l2_zero A) hA.l2
      p q r u (Finset.mem_product.1 hp).1 (Finset.mem_product.1 hq).1 (Finset.mem_product.1 hr).1 (Finset.mem_product.1 ht).1 a b a' b'
  have e : ∀ z, z.map Prod.fst = l.map Prod.fst → cutT D A t z = 0 := by
    intro z hz
    rw [← inBox_congr D _ l z hz] at h39 h71
    exact if_neg (by rintro (h | h | h | h) <;> contradiction)
  rw [e l rfl, spinSum_zero c s l _ e]

omit [DecidableEq I] in
/-- What rotations of the spin leave unchanged, conserving the number of beta spins, is spin adapted. -/
theorem adapted_of_invariant [CharZero K] (X : I × Bool → I × Bool → I × Bool → I × Bool → K) (S S' : Finset I)
    (hX : ∀ c s : K, c * c + s * s = 1 → ∀ p ∈ S, ∀ q ∈ S, ∀ r ∈ S', ∀ t ∈ S', ∀ a b a' b' : Bool,
      X (p, a) (q, b) (r, a') (t, b') = spinSum c s [(p, a), (q, b), (r, a'), (t, b')] (at4 X))
    (zero : ∀ p q r s (a b c d : Bool), a.toNat + b.toNat ≠ c.toNat + d.toNat → X (p, a) (q, b) (r, c) (s, d) = 0)
    (anti : Anti4 X) :
    Adapted S S' (fun p q r s => X (p, false) (q, false) (r, false) (s, false)) (fun p q r s => X (p, false) (q, true) (r, false) (s, true))
      (fun p q r s => X (p, true) (q, true) (r, true) (s, true)) := by
  have flip : ∀ p ∈ S, ∀ q ∈ S, ∀ r ∈ S', ∀ t ∈ S', X (p, true) (q, true) (r, true) (t, true) = X (p, false) (q, false) (r, false) (t, false) := by
    intro p hp q hq r hr t ht
    have := hX 0 1 (by ring) p hp q hq r hr t ht true true true true
    simpa [spinSum, spinMat, at4] using this
  have swap : ∀ p ∈ S, ∀ q ∈ S, ∀ r ∈ S', ∀ t ∈ S', X (q, false) (p, true) (t, false) (r, true) = X (p, false) (q, true) (r, false) (t, true) := by
    intro p hp q hq r hr t ht
    have := hX 0 1 (by ring) p hp q hq r hr t ht false true false true
    simp [spinSum, spinMat, at4] at this
    rw [this, anti.first (p, true) (q, false), anti.last _ _ (r, true) (t, false), neg_neg]
  have main : ∀ p ∈ S, ∀ q ∈ S, ∀ r ∈ S', ∀ t ∈ S', X (p, false) (q, false) (r, false) (t, false) =
      X (p, false) (q, true) (r, false) (t, true) - X (p, false) (q, true) (t, false) (r, true) := by
    intro p hp q hq r hr t ht
    have e := hX (3/5) (4/5) (by norm_num) p hp q hq r hr t ht false false false false
    simp only [spinSum, spinMat, at4, Fintype.sum_bool] at e
    rw [zero p q r t true true true false (by decide), zero p q r t true true false true (by decide), zero p q r t true true false false (by decide),
      zero p q r t true false true true (by decide), zero p q r t true false false false (by decide),
      zero p q r t false true true true (by decide), zero p q r t false true false false (by decide),
      zero p q r t false false true true (by decide), zero p q r t false false true false (by decide), zero p q r t false false false true (by decide),
      flip p hp q hq r hr t ht] at e
    have a1 : X (p, false) (q, true) (r, true) (t, false) = - X (p, false) (q, true) (t, false) (r, true) := anti.last _ _ _ _
    have a2 : X (p, true) (q, false) (r, false) (t, true) = - X (q, false) (p, true) (r, false) (t, true) := anti.first _ _ _ _
    have a3 : X (p, true) (q, false) (r, true) (t, false) = X (q, false) (p, true) (t, false) (r, true) := by
      rw [anti.first (q, false) (p, true), anti.last _ _ (t, false) (r, true), neg_neg]
    rw [a1, a2, a3, swap p hp q hq r hr t ht, swap p hp q hq t ht r hr] at e
    linear_combination (625/288) * e
  exact ⟨main, fun p hp q hq r hr t ht => (flip p hp q hq r hr t ht).trans (main p hp q hq r hr t ht), swap⟩

omit [DecidableEq I] in
theorem spinSum_congr (c s : K) (l : List (I × Bool)) : ∀ X Y : List (I × Bool) → K,
    (∀ z, z.map Prod.fst = l.map Prod.fst → X z = Y z) → spinSum c s l X = spinSum c s l Y := by
  induction l with
  | nil => intro X Y h; exact h [] rfl
  | cons x l ih =>
    intro X Y h
    simp only [spinSum]
    refine Finset.sum_congr rfl fun τ _ => ?_
    rw [ih _ _ fun z hz => h _ (by simp [hz])]

omit [DecidableEq I] in
theorem spinSum_add (c s : K) (l : List (I × Bool)) : ∀ X Y : List (I × Bool) → K,
    spinSum c s l (fun z => X z + Y z) = spinSum c s l X + spinSum c s l Y := by
  induction l with
  | nil => intro X Y; rfl
  | cons x l ih =>
    intro X Y
    simp only [spinSum]
    rw [← Finset.sum_add_distrib]
    refine Finset.sum_congr rfl fun τ _ => ?_
    rw [ih, mul_add]

omit [DecidableEq I] in
theorem spinSum_mul (c s w : K) (l : List (I × Bool)) : ∀ X : List (I × Bool) → K,
    spinSum c s l (fun z => w * X z) = w * spinSum c s l X := by
  induction l with
  | nil => intro X; rfl
  | cons x l ih =>
    intro X
    simp only [spinSum]
    rw [Finset.mul_sum]
    refine Finset.sum_congr rfl fun τ _ => ?_
    rw [ih]; ring

variable [Inhabited I]

/-- Programs reading only these arrays commute with rotations of the spin. -/
theorem prog_invariant (hD : Disjoint (D 0) (D 1)) (c s : K) (h : c * c + s * s = 1) (A : SI I K) (hA : Closed D A) (P : Prog)
    (hP : P.allFac cutFac = true) (ho : P.outSp [1, 1, 0, 0] = true) (hr : P.rotOk SO.col 200 [1, 1, 0, 0] [0, 0, 0, 0] = true)
    (xs : List (I × Bool)) (hx : InBox (spinD D) [1, 1, 0, 0] xs) :
    P.eval (spinD D) A.so.T xs = spinSum c s xs fun z => P.eval (spinD D) A.so.T z := by
  have e : ∀ z, InBox (spinD D) [1, 1, 0, 0] z → P.eval (spinD D) A.so.T z = P.eval (spinD D) (cutT D A) z := fun z hz =>
    Prog.eval_local (spinD D) _ _ P cutFac hP (cutT_eq D A) _ ho z hz
  rw [e xs hx, Prog.eval_spinRot D hD c s h SO.col (cutT D A) (cutT_invariant D c s h A hA) 200 _ _ P hr xs hx]
  exact spinSum_congr c s xs _ _ fun z hz => (e z ((inBox_congr D _ xs z hz).2 hx)).symm

theorem soResid_invariant (hD : Disjoint (D 0) (D 1)) (c s : K) (h : c * c + s * s = 1) (cc_type : String) (A : SI I K) (hA : Closed D A)
    (p : I) (hp : p ∈ D 1) (q : I) (hq : q ∈ D 1) (r : I) (hr : r ∈ D 0) (t : I) (ht : t ∈ D 0) (a b a' b' : Bool) :
    soResid (spinD D) cc_type A.so (p, a) (q, b) (r, a') (t, b') =
      spinSum c s [(p, a), (q, b), (r, a'), (t, b')] (at4 (soResid (spinD D) cc_type A.so)) := by
  have hx : InBox (spinD D) [1, 1, 0, 0] [(p, a), (q, b), (r, a'), (t, b')] := by
    simp [InBox, spinD, hp, hq, hr, ht]
  have e1 := prog_invariant D hD c s h A hA Gen.ccd_t2residual (by decide +kernel) (by decide +kernel) (by decide +kernel) _ hx
  have e2 := prog_invariant D hD c s h A hA Gen.residQf1 (by decide +kernel) (by decide +kernel) (by decide +kernel) _ hx
  have e3 := prog_invariant D hD c s h A hA Gen.residQf2 (by decide +kernel) (by decide +kernel) (by decide +kernel) _ hx
  have e : soResid (spinD D) cc_type A.so (p, a) (q, b) (r, a') (t, b') =
      Gen.ccd_t2residual.eval (spinD D) A.so.T [(p, a), (q, b), (r, a'), (t, b')]
      + ((qfWeights cc_type).1 : K) * Gen.residQf1.eval (spinD D) A.so.T [(p, a), (q, b), (r, a'), (t, b')]
      + ((qfWeights cc_type).2 : K) * Gen.residQf2.eval (spinD D) A.so.T [(p, a), (q, b), (r, a'), (t, b')] := rfl
  rw [e, e1, e2, e3, ← spinSum_mul, ← spinSum_mul, ← spinSum_add, ← spinSum_add]
  refine spinSum_congr c s _ _ _ fun z hz => ?_
  obtain ⟨z0, z1, z2, z3, rfl⟩ : ∃ z0 z1 z2 z3, z = [z0, z1, z2, z3] := by
    have := congrArg List.length hz
    rcases z with _ | ⟨z0, _ | ⟨z1, _ | ⟨z2, _ | ⟨z3, _ | ⟨z4, z⟩⟩⟩⟩⟩ <;> simp at this
    exact ⟨_, _, _, _, rfl⟩
  rfl

variable [CharZero K]

/-- In the closed-shell case the three blocks of the residual are spin adapted. -/
theorem C81_residual (hD : Disjoint (D 0) (D 1)) (cc_type : String) (A : SI I K) (hS : A.Sym) (hA : Closed D A) :
    Adapted (D 1) (D 0) (resid_aaaa D cc_type A) (resid_abab D cc_type A) (resid_bbbb D cc_type A) := by
  have h := adapted_of_invariant (soResid (spinD D) cc_type A.so) (D 1) (D 0)
    (fun c s hcs p hp q hq r hr t ht a b a' b' => soResid_invariant D hD c s hcs cc_type A hA p hp q hq r hr t ht a b a' b')
    (fun p q r s a b c d hb => soResid_unbalanced D cc_type A _ _ _ _ (not_balanced a b c d hb p q r s))
    (soResid_anti (spinD D) cc_type A.so hS.so)
  have e := resid_so D cc_type A hS
  rw [show resid_aaaa D cc_type A = _ from funext fun p => funext fun q => funext fun r => funext fun s => (e p q r s).1,
    show resid_abab D cc_type A = _ from funext fun p => funext fun q => funext fun r => funext fun s => (e p q r s).2.1,
    show resid_bbbb D cc_type A = _ from funext fun p => funext fun q => funext fun r => funext fun s => (e p q r s).2.2]
  exact h

omit [Inhabited I] [CharZero K] in
theorem set_l2amps_closed (A : SI I K) (hA : Closed D A) : Closed D (set_l2amps A) where
  f := hA.f
  g := hA.g
  t2 := hA.t2
  l2 := by
    refine ⟨fun i hi j hj a ha b hb => ?_, fun i hi j hj a ha b hb => ?_, fun i hi j hj a ha b hb => ?_⟩
    · show A.t2_aaaa a b i j = A.t2_abab a b i j - A.t2_abab b a i j
      rw [hA.t2.aaaa a ha b hb i hi j hj, hA.t2.swap a ha b hb j hj i hi]
    · show A.t2_bbbb a b i j = A.t2_abab a b i j - A.t2_abab b a i j
      rw [hA.t2.bbbb a ha b hb i hi j hj, hA.t2.swap a ha b hb j hj i hi]
    · exact hA.t2.swap a ha b hb i hi j hj

/-- One pass keeps the amplitudes spin adapted, if the denominators do not depend on the spin. -/
theorem C81_step (hD : Disjoint (D 0) (D 1)) (cc_type : String) (d2 : I → I → I → I → K) (hd : Sym4 d2)
    (A : SI I K) (hS : A.Sym) (hA : Closed D A) : Closed D (iterSi D cc_type d2 d2 d2 A) := by
  have hB := set_l2amps_closed D A hA
  have h := C81_residual D hD cc_type _ (set_l2amps_sym A hS) hB
  refine ⟨hB.f, hB.g, ⟨fun a ha b hb i hi j hj => ?_, fun a ha b hb i hi j hj => ?_, fun a ha b hb i hi j hj => ?_⟩, hB.l2⟩
  · simp only [iterSi, residMain]
    rw [h.aaaa a ha b hb i hi j hj, hB.t2.aaaa a ha b hb i hi j hj, hd.last a b i j]; ring
  · simp only [iterSi, residMain]
    rw [h.bbbb a ha b hb i hi j hj, hB.t2.bbbb a ha b hb i hi j hj, hd.last a b i j]; ring
  · simp only [iterSi, residMain]
    rw [h.swap a ha b hb i hi j hj, hB.t2.swap a ha b hb i hi j hj, hd.first a b, hd.last a b i j]

/-- In every iteration of CCD, CCDQf-1 and CCDQf-2 on a closed-shell reference, the same-spin amplitudes are the mixed-spin
amplitudes minus their exchange. -/
theorem C81_iterates (hD : Disjoint (D 0) (D 1)) (cc_type : String) (d2 : I → I → I → I → K) (hd : Sym4 d2)
    (A : SI I K) (hS : A.Sym) (hA : Closed D A) (n : Nat) : Closed D ((iterSi D cc_type d2 d2 d2)^[n] A) := by
  induction n with
  | zero => exact hA
  | succ n ih =>
    rw [Function.iterate_succ_apply']
    exact C81_step D hD cc_type d2 hd _ (C33_iterates D cc_type d2 d2 d2 hd hd A hS n) ih

/-- The closed-shell energy in spatial orbitals: Hartree-Fock plus `(2 <ij|ab> - <ij|ba>) t`. -/
theorem C81_energy (A : SI I K) (hA : Closed D A) : ccd_energy_with_spin D A =
    2 * ∑ i ∈ D 0, A.f_aa i i - ∑ j ∈ D 0, ∑ i ∈ D 0, (2 * A.g_abab j i j i - A.g_abab j i i j)
      + ∑ a ∈ D 1, ∑ b ∈ D 1, ∑ j ∈ D 0, ∑ i ∈ D 0, (2 * A.g_abab j i a b - A.g_abab j i b a) * A.t2_abab a b j i := by
  have e : ccd_energy_with_spin D A = openRef D D A + openCorr D D A := C56_closed_shell_partial D A
  have o : ∀ {i}, i ∈ D 0 → i ∈ D 0 ∪ D 1 := fun h => Finset.mem_union_left _ h
  have v : ∀ {i}, i ∈ D 1 → i ∈ D 0 ∪ D 1 := fun h => Finset.mem_union_right _ h
  have f : ∑ i ∈ D 0, A.f_bb i i = ∑ i ∈ D 0, A.f_aa i i := Finset.sum_congr rfl fun i hi => hA.f i (o hi) i (o hi)
  have g1 : ∑ j ∈ D 0, ∑ i ∈ D 0, A.g_aaaa j i j i = ∑ j ∈ D 0, ∑ i ∈ D 0, (A.g_abab j i j i - A.g_abab j i i j) :=
    Finset.sum_congr rfl fun j hj => Finset.sum_congr rfl fun i hi => hA.g.aaaa j (o hj) i (o hi) j (o hj) i (o hi)
  have g2 : ∑ j ∈ D 0, ∑ i ∈ D 0, A.g_bbbb j i j i = ∑ j ∈ D 0, ∑ i ∈ D 0, (A.g_abab j i j i - A.g_abab j i i j) :=
    Finset.sum_congr rfl fun j hj => Finset.sum_congr rfl fun i hi => hA.g.bbbb j (o hj) i (o hi) j (o hj) i (o hi)
  have t1 : ∑ a ∈ D 1, ∑ b ∈ D 1, ∑ j ∈ D 0, ∑ i ∈ D 0, A.g_aaaa j i a b * A.t2_aaaa a b j i =
      ∑ a ∈ D 1, ∑ b ∈ D 1, ∑ j ∈ D 0, ∑ i ∈ D 0, (A.g_abab j i a b - A.g_abab j i b a) * (A.t2_abab a b j i - A.t2_abab a b i j) :=
    Finset.sum_congr rfl fun a ha => Finset.sum_congr rfl fun b hb => Finset.sum_congr rfl fun j hj => Finset.sum_congr rfl fun i hi => by
      rw [hA.g.aaaa j (o hj) i (o hi) a (v ha) b (v hb), hA.t2.aaaa a ha b hb j hj i hi]
  have t2 : ∑ a ∈ D 1, ∑ b ∈ D 1, ∑ j ∈ D 0, ∑ i ∈ D 0, A.g_bbbb j i a b * A.t2_bbbb a b j i =
      ∑ a ∈ D 1, ∑ b ∈ D 1, ∑ j ∈ D 0, ∑ i ∈ D 0, (A.g_abab j i a b - A.g_abab j i b a) * (A.t2_abab a b j i - A.t2_abab a b i j) :=
    Finset.sum_congr rfl fun a ha => Finset.sum_congr rfl fun b hb => Finset.sum_congr rfl fun j hj => Finset.sum_congr rfl fun i hi => by
      rw [hA.g.bbbb j (o hj) i (o hi) a (v ha) b (v hb), hA.t2.bbbb a ha b hb j hj i hi]
  have x1 : ∑ a ∈ D 1, ∑ b ∈ D 1, ∑ j ∈ D 0, ∑ i ∈ D 0, A.g_abab j i b a * A.t2_abab a b i j =
      ∑ a ∈ D 1, ∑ b ∈ D 1, ∑ j ∈ D 0, ∑ i ∈ D 0, A.g_abab j i a b * A.t2_abab a b j i := by
    rw [Finset.sum_comm]
    exact Finset.sum_congr rfl fun a ha => Finset.sum_congr rfl fun b hb => Finset.sum_congr rfl fun j hj => Finset.sum_congr rfl fun i hi => by
      rw [hA.t2.swap a ha b hb j hj i hi]
  have x2 : ∑ a ∈ D 1, ∑ b ∈ D 1, ∑ j ∈ D 0, ∑ i ∈ D 0, A.g_abab j i a b * A.t2_abab a b i j =
      ∑ a ∈ D 1, ∑ b ∈ D 1, ∑ j ∈ D 0, ∑ i ∈ D 0, A.g_abab j i b a * A.t2_abab a b j i := by
    rw [Finset.sum_comm]
    exact Finset.sum_congr rfl fun a ha => Finset.sum_congr rfl fun b hb => Finset.sum_congr rfl fun j hj => Finset.sum_congr rfl fun i hi => by
      rw [hA.t2.swap a ha b hb j hj i hi]
  rw [e, openRef, openCorr, f, g1, g2, t1, t2]
  simp only [sub_mul, mul_sub, Finset.sum_sub_distrib, mul_assoc, ← Finset.mul_sum, x1, x2]
  ring

omit [CharZero K] in
/-- Calculations started from RHF orbitals are in the closed-shell case. -/
theorem generalUHF_closed (E : Nat → Finset ℕ) (n : ℕ) (J : Tei K) (hJ : EriSym J) (F C : Mat K) : Closed E (generalUHF n J F F C C) where
  f _ _ _ _ := rfl
  g := by
    refine ⟨fun p _ q _ r _ s _ => ?_, fun p _ q _ r _ s _ => ?_, fun p _ q _ r _ s _ => ?_⟩ <;> simp only [generalUHF, dirac, diracMixed]
    · rw [general_ket hJ n C C C p s r q]
    · rw [general_ket hJ n C C C p s r q]
    · rw [general_swap hJ n C C C C q s p r]
  t2 := by constructor <;> intros <;> simp [generalUHF]
  l2 := by constructor <;> intros <;> simp [generalUHF]

/-- CCD, CCDQf-1 and CCDQf-2 from the RHF set-up: in every iteration the amplitudes are those of a singlet. -/
theorem C81_rhf (n m : ℕ) (J : Tei K) (hJ : EriSym J) (F C : Mat K) (hF : ∀ x y, F x y = F y x) (e : ℕ → K) (cc_type : String) (k : ℕ) :
    Closed (spaces m n) ((iterSi (spaces m n) cc_type (den e) (den e) (den e))^[k] (generalUHF n J F F C C)) := by
  refine C81_iterates (spaces m n) ?_ cc_type _ (den_sym e) _ (C26_spin_integrated n J hJ F F C C hF hF) (generalUHF_closed _ n J hJ F C) k
  rw [Finset.disjoint_left]
  simp only [spaces, if_pos, Finset.mem_range]
  intro x hx
  simp
  omega

/-- The witness is closed-shell, with same-spin amplitudes that are not zero. -/
example : Closed Witness.D33 Witness.cs ∧ Witness.cs.Sym ∧ Disjoint (Witness.D33 0) (Witness.D33 1) ∧
    ∃ a ∈ Witness.D33 1, ∃ b ∈ Witness.D33 1, ∃ i ∈ Witness.D33 0, ∃ j ∈ Witness.D33 0, Witness.cs.t2_aaaa a b i j ≠ 0 := by
  refine ⟨⟨fun _ _ _ _ => rfl, ?_, ?_, ?_⟩, Witness.cs_sym, by decide, by decide +kernel⟩ <;> constructor <;> intros <;>
    simp only [Witness.cs, Witness.gab, Witness.tab] <;> ring

end Verif.Props
