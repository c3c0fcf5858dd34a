import Verif.Ein.Rotate
import Verif.Ein.Arrays

/-!
# Arrays with rotated orbitals (written by `/verif/tools/rot.py`)

`O` is the set of all orbitals, `U p q` the coefficient of the old orbital `q` in the new orbital `p`. Every axis of an
array is transformed with `U`; in the spin-integrated case alpha axes with `Ua` and beta axes with `Ub`.
-/

namespace Verif.Ein

open Verif.Wick (InBox boxSum boxSum_congr boxSum_zero)

variable {I K : Type} [Field K]

/-- One axis transformed. -/
def rot1 (O : Finset I) (U : I → I → K) (x : I → K) (p : I) : K := ∑ q ∈ O, U p q * x q

/-- Two axes transformed. -/
def rot2 (O : Finset I) (U V : I → I → K) (x : I → I → K) (p q : I) : K := rot1 O U (fun p' => rot1 O V (x p') q) p

/-- Four axes transformed. -/
def rot4 (O : Finset I) (U0 U1 U2 U3 : I → I → K) (x : I → I → I → I → K) (p q r s : I) : K :=
  rot2 O U0 U1 (fun p' q' => rot2 O U2 U3 (x p' q') r s) p q

/-- Six axes transformed. -/
def rot6 (O : Finset I) (U0 U1 U2 U3 U4 U5 : I → I → K) (x : I → I → I → I → I → I → K) (p q r s u v : I) : K :=
  rot2 O U0 U1 (fun p' q' => rot4 O U2 U3 U4 U5 (x p' q') r s u v) p q

/-- Eight axes transformed. -/
def rot8 (O : Finset I) (U0 U1 U2 U3 U4 U5 U6 U7 : I → I → K) (x : I → I → I → I → I → I → I → I → K) (p q r s u v w z : I) : K :=
  rot2 O U0 U1 (fun p' q' => rot6 O U2 U3 U4 U5 U6 U7 (x p' q') r s u v w z) p q

/-- All axes of a function of lists transformed. -/
def rotL (O : Finset I) : List (I → I → K) → List I → (List I → K) → K
  | U :: Us, p :: ps, x => rot1 O U (fun q => rotL O Us ps fun l => x (q :: l)) p
  | _, _, x => x []

theorem at2_rot (O : Finset I) (U0 U1 : I → I → K) (h : I → I → K) (l : List I) (hl : l.length = 2) :
    at2 (rot2 O U0 U1 h) l = rotL O [U0, U1] l (at2 h) := by
  rcases l with _ | ⟨x0, _ | ⟨x1, _ | ⟨y, l⟩⟩⟩ <;> simp at hl
  rfl

theorem at4_rot (O : Finset I) (U0 U1 U2 U3 : I → I → K) (h : I → I → I → I → K) (l : List I) (hl : l.length = 4) :
    at4 (rot4 O U0 U1 U2 U3 h) l = rotL O [U0, U1, U2, U3] l (at4 h) := by
  rcases l with _ | ⟨x0, _ | ⟨x1, _ | ⟨x2, _ | ⟨x3, _ | ⟨y, l⟩⟩⟩⟩⟩ <;> simp at hl
  rfl

theorem at6_rot (O : Finset I) (U0 U1 U2 U3 U4 U5 : I → I → K) (h : I → I → I → I → I → I → K) (l : List I) (hl : l.length = 6) :
    at6 (rot6 O U0 U1 U2 U3 U4 U5 h) l = rotL O [U0, U1, U2, U3, U4, U5] l (at6 h) := by
  rcases l with _ | ⟨x0, _ | ⟨x1, _ | ⟨x2, _ | ⟨x3, _ | ⟨x4, _ | ⟨x5, _ | ⟨y, l⟩⟩⟩⟩⟩⟩⟩ <;> simp at hl
  rfl

theorem at8_rot (O : Finset I) (U0 U1 U2 U3 U4 U5 U6 U7 : I → I → K) (h : I → I → I → I → I → I → I → I → K) (l : List I) (hl : l.length = 8) :
    at8 (rot8 O U0 U1 U2 U3 U4 U5 U6 U7 h) l = rotL O [U0, U1, U2, U3, U4, U5, U6, U7] l (at8 h) := by
  rcases l with _ | ⟨x0, _ | ⟨x1, _ | ⟨x2, _ | ⟨x3, _ | ⟨x4, _ | ⟨x5, _ | ⟨x6, _ | ⟨x7, _ | ⟨y, l⟩⟩⟩⟩⟩⟩⟩⟩⟩ <;> simp at hl
  rfl

/-- A rotation among the occupied and among the virtual orbitals: orthogonal, and not mixing the two. -/
structure Rotation [DecidableEq I] (D : Nat → Finset I) (U : I → I → K) : Prop where
  orth : ∀ s, s < 2 → ∀ q ∈ D s, ∀ r ∈ D s, ∑ p ∈ D s, U p q * U p r = if q = r then 1 else 0
  block : ∀ p q, (p ∈ D 0 ∧ q ∈ D 1 ∨ p ∈ D 1 ∧ q ∈ D 0) → U p q = 0

variable [DecidableEq I] {D : Nat → Finset I}

theorem Rotation.orthogonal {U : Nat → I → I → K} (h : ∀ c, Rotation D (U c)) : Orthogonal D U := fun c => (h c).orth

theorem Rotation.rot1 (hD : Disjoint (D 0) (D 1)) {U : I → I → K} (h : Rotation D U) (x : I → K) (s : Nat) (hs : s < 2) (p : I)
    (hp : p ∈ D s) : rot1 (D 0 ∪ D 1) U x p = ∑ q ∈ D s, U p q * x q := by
  unfold Ein.rot1
  rw [Finset.sum_union hD]
  rcases (by omega : s = 0 ∨ s = 1) with rfl | rfl
  · rw [Finset.sum_eq_zero (s := D 1) fun q hq => by rw [h.block p q (Or.inl ⟨hp, hq⟩), zero_mul], add_zero]
  · rw [Finset.sum_eq_zero (s := D 0) fun q hq => by rw [h.block p q (Or.inr ⟨hp, hq⟩), zero_mul], zero_add]

/-- At orbitals of given ranges only orbitals of the same ranges contribute. -/
theorem rotL_box (hD : Disjoint (D 0) (D 1)) {U : Nat → I → I → K} (h : ∀ c, Rotation D (U c)) (cs : List Nat) : ∀ ss : List Nat,
    ss.length = cs.length → (∀ s ∈ ss, s < 2) → ∀ l, InBox D ss l → ∀ x : List I → K,
    rotL (D 0 ∪ D 1) (cs.map U) l x = boxSum D ss fun z => wt U cs l z * x z := by
  induction cs with
  | nil =>
    intro ss hl _ l hb x
    rw [List.length_eq_zero_iff.1 hl] at hb ⊢
    cases hb
    simp [rotL, boxSum, wt]
  | cons c cs ih =>
    intro ss hl hs l hb x
    cases ss with
    | nil => simp at hl
    | cons s ss =>
      cases hb with
      | cons hi hb =>
        simp only [List.map_cons, rotL, boxSum, wt]
        rw [(h c).rot1 hD _ s (hs s List.mem_cons_self) _ hi]
        refine Finset.sum_congr rfl fun q _ => ?_
        rw [ih ss (by simpa using hl) (fun s hs' => hs s (List.mem_cons_of_mem _ hs')) _ hb, ← boxSum_mul]
        exact boxSum_congr D _ _ _ fun z _ => by rw [mul_assoc]

/-- The rotation of alpha (0) and beta (1) orbitals. -/
def spinU (Ua Ub : I → I → K) (c : Nat) : I → I → K := if c = 0 then Ua else Ub

theorem Rotation.spin {Ua Ub : I → I → K} (ha : Rotation D Ua) (hb : Rotation D Ub) (c : Nat) : Rotation D (spinU Ua Ub c) := by
  unfold spinU
  split
  · exact ha
  · exact hb

omit [DecidableEq I] in
/-- The arrays with rotated orbitals. -/
def SO.rotate (O : Finset I) (U : I → I → K) (A : SO I K) : SO I K where
  f := rot2 O U U A.f
  g := rot4 O U U U U A.g
  t1 := rot2 O U U A.t1
  t2 := rot4 O U U U U A.t2
  t3 := rot6 O U U U U U U A.t3
  t4 := rot8 O U U U U U U U U A.t4
  l1 := rot2 O U U A.l1
  l2 := rot4 O U U U U A.l2
  l3 := rot6 O U U U U U U A.l3
  l4 := rot8 O U U U U U U U U A.l4

/-- Colours (spins) of the axes. -/
def SO.col (t : Nat) : List Nat := (([
    [],
    [[], [], [], [], [], [], [], [0, 0]],
    [[], [], [], [], [], [], [], [0, 0, 0, 0]],
    [[], [], [], [], [], [], [], [0, 0]],
    [[], [], [], [], [], [], [], [0, 0, 0, 0]],
    [[], [], [], [], [], [], [], [0, 0, 0, 0, 0, 0]],
    [[], [], [], [], [], [], [], [0, 0, 0, 0, 0, 0, 0, 0]],
    [[], [], [], [], [], [], [], [0, 0]],
    [[], [], [], [], [], [], [], [0, 0, 0, 0]],
    [[], [], [], [], [], [], [], [0, 0, 0, 0, 0, 0]],
    [],
    [],
    [],
    [],
    [[], [], [], [], [], [], [], [0, 0, 0, 0, 0, 0, 0, 0]]] : List (List (List Nat)))[t / 8]?.getD [])[t % 8]?.getD []

theorem SO.rotate_rot (hD : Disjoint (D 0) (D 1)) {U : I → I → K} (h : Rotation D U) (A : SO I K) :
    Rot D (fun _ => U) SO.col A.T (A.rotate (D 0 ∪ D 1) U).T := by
  intro t ss l hs hs2 hl
  by_cases h15 : t = 15
  · subst h15
    exact (at2_rot _ U U A.f l (by rw [InBox.length D hl, hs]; rfl)).trans (rotL_box hD (fun _ => h) [0, 0] ss hs hs2 l hl _)
  by_cases h23 : t = 23
  · subst h23
    exact (at4_rot _ U U U U A.g l (by rw [InBox.length D hl, hs]; rfl)).trans (rotL_box hD (fun _ => h) [0, 0, 0, 0] ss hs hs2 l hl _)
  by_cases h31 : t = 31
  · subst h31
    exact (at2_rot _ U U A.t1 l (by rw [InBox.length D hl, hs]; rfl)).trans (rotL_box hD (fun _ => h) [0, 0] ss hs hs2 l hl _)
  by_cases h39 : t = 39
  · subst h39
    exact (at4_rot _ U U U U A.t2 l (by rw [InBox.length D hl, hs]; rfl)).trans (rotL_box hD (fun _ => h) [0, 0, 0, 0] ss hs hs2 l hl _)
  by_cases h47 : t = 47
  · subst h47
    exact (at6_rot _ U U U U U U A.t3 l (by rw [InBox.length D hl, hs]; rfl)).trans (rotL_box hD (fun _ => h) [0, 0, 0, 0, 0, 0] ss hs hs2 l hl _)
  by_cases h55 : t = 55
  · subst h55
    exact (at8_rot _ U U U U U U U U A.t4 l (by rw [InBox.length D hl, hs]; rfl)).trans (rotL_box hD (fun _ => h) [0, 0, 0, 0, 0, 0, 0, 0] ss hs hs2 l hl _)
  by_cases h63 : t = 63
  · subst h63
    exact (at2_rot _ U U A.l1 l (by rw [InBox.length D hl, hs]; rfl)).trans (rotL_box hD (fun _ => h) [0, 0] ss hs hs2 l hl _)
  by_cases h71 : t = 71
  · subst h71
    exact (at4_rot _ U U U U A.l2 l (by rw [InBox.length D hl, hs]; rfl)).trans (rotL_box hD (fun _ => h) [0, 0, 0, 0] ss hs hs2 l hl _)
  by_cases h79 : t = 79
  · subst h79
    exact (at6_rot _ U U U U U U A.l3 l (by rw [InBox.length D hl, hs]; rfl)).trans (rotL_box hD (fun _ => h) [0, 0, 0, 0, 0, 0] ss hs hs2 l hl _)
  by_cases h119 : t = 119
  · subst h119
    exact (at8_rot _ U U U U U U U U A.l4 l (by rw [InBox.length D hl, hs]; rfl)).trans (rotL_box hD (fun _ => h) [0, 0, 0, 0, 0, 0, 0, 0] ss hs hs2 l hl _)
  have e : ∀ B : SO I K, B.T t = fun _ => 0 := fun B => by
    unfold SO.T
    simp only [if_neg h15, if_neg h23, if_neg h31, if_neg h39, if_neg h47, if_neg h55, if_neg h63, if_neg h71, if_neg h79, if_neg h119]
  rw [e, e, boxSum_congr D ss _ (fun _ => 0) fun z _ => mul_zero _, boxSum_zero]

omit [DecidableEq I] in
/-- The arrays with rotated orbitals. -/
def SI.rotate (O : Finset I) (Ua Ub : I → I → K) (A : SI I K) : SI I K where
  t1_aa := rot2 O Ua Ua A.t1_aa
  t1_bb := rot2 O Ub Ub A.t1_bb
  t2_aaaa := rot4 O Ua Ua Ua Ua A.t2_aaaa
  t2_abab := rot4 O Ua Ub Ua Ub A.t2_abab
  t2_bbbb := rot4 O Ub Ub Ub Ub A.t2_bbbb
  t3_aaaaaa := rot6 O Ua Ua Ua Ua Ua Ua A.t3_aaaaaa
  t3_aabaab := rot6 O Ua Ua Ub Ua Ua Ub A.t3_aabaab
  t3_abbabb := rot6 O Ua Ub Ub Ua Ub Ub A.t3_abbabb
  t3_bbbbbb := rot6 O Ub Ub Ub Ub Ub Ub A.t3_bbbbbb
  t4_aaaaaaaa := rot8 O Ua Ua Ua Ua Ua Ua Ua Ua A.t4_aaaaaaaa
  t4_aaabaaab := rot8 O Ua Ua Ua Ub Ua Ua Ua Ub A.t4_aaabaaab
  t4_aabbaabb := rot8 O Ua Ua Ub Ub Ua Ua Ub Ub A.t4_aabbaabb
  t4_abbbabbb := rot8 O Ua Ub Ub Ub Ua Ub Ub Ub A.t4_abbbabbb
  t4_bbbbbbbb := rot8 O Ub Ub Ub Ub Ub Ub Ub Ub A.t4_bbbbbbbb
  l1_aa := rot2 O Ua Ua A.l1_aa
  l1_bb := rot2 O Ub Ub A.l1_bb
  l2_aaaa := rot4 O Ua Ua Ua Ua A.l2_aaaa
  l2_abab := rot4 O Ua Ub Ua Ub A.l2_abab
  l2_bbbb := rot4 O Ub Ub Ub Ub A.l2_bbbb
  l3_aaaaaa := rot6 O Ua Ua Ua Ua Ua Ua A.l3_aaaaaa
  l3_aabaab := rot6 O Ua Ua Ub Ua Ua Ub A.l3_aabaab
  l3_abbabb := rot6 O Ua Ub Ub Ua Ub Ub A.l3_abbabb
  l3_bbbbbb := rot6 O Ub Ub Ub Ub Ub Ub A.l3_bbbbbb
  f_aa := rot2 O Ua Ua A.f_aa
  f_bb := rot2 O Ub Ub A.f_bb
  g_aaaa := rot4 O Ua Ua Ua Ua A.g_aaaa
  g_abab := rot4 O Ua Ub Ua Ub A.g_abab
  g_bbbb := rot4 O Ub Ub Ub Ub A.g_bbbb

/-- Colours (spins) of the axes. -/
def SI.col (t : Nat) : List Nat := (([
    [],
    [[0, 0], [1, 1]],
    [[0, 0, 0, 0], [0, 1, 0, 1], [1, 1, 1, 1]],
    [[0, 0], [1, 1]],
    [[0, 0, 0, 0], [0, 1, 0, 1], [1, 1, 1, 1]],
    [[0, 0, 0, 0, 0, 0], [0, 0, 1, 0, 0, 1], [0, 1, 1, 0, 1, 1], [1, 1, 1, 1, 1, 1]],
    [[0, 0, 0, 0, 0, 0, 0, 0], [0, 0, 0, 1, 0, 0, 0, 1], [0, 0, 1, 1, 0, 0, 1, 1], [0, 1, 1, 1, 0, 1, 1, 1], [1, 1, 1, 1, 1, 1, 1, 1]],
    [[0, 0], [1, 1]],
    [[0, 0, 0, 0], [0, 1, 0, 1], [1, 1, 1, 1]],
    [[0, 0, 0, 0, 0, 0], [0, 0, 1, 0, 0, 1], [0, 1, 1, 0, 1, 1], [1, 1, 1, 1, 1, 1]]] : List (List (List Nat)))[t / 8]?.getD [])[t % 8]?.getD []

theorem SI.rotate_rot (hD : Disjoint (D 0) (D 1)) {Ua Ub : I → I → K} (ha : Rotation D Ua) (hb : Rotation D Ub) (A : SI I K) :
    Rot D (spinU Ua Ub) SI.col A.T (A.rotate (D 0 ∪ D 1) Ua Ub).T := by
  intro t ss l hs hs2 hl
  by_cases h24 : t = 24
  · subst h24
    exact (at2_rot _ Ua Ua A.t1_aa l (by rw [InBox.length D hl, hs]; rfl)).trans (rotL_box hD (ha.spin hb) [0, 0] ss hs hs2 l hl _)
  by_cases h25 : t = 25
  · subst h25
    exact (at2_rot _ Ub Ub A.t1_bb l (by rw [InBox.length D hl, hs]; rfl)).trans (rotL_box hD (ha.spin hb) [1, 1] ss hs hs2 l hl _)
  by_cases h32 : t = 32
  · subst h32
    exact (at4_rot _ Ua Ua Ua Ua A.t2_aaaa l (by rw [InBox.length D hl, hs]; rfl)).trans (rotL_box hD (ha.spin hb) [0, 0, 0, 0] ss hs hs2 l hl _)
  by_cases h33 : t = 33
  · subst h33
    exact (at4_rot _ Ua Ub Ua Ub A.t2_abab l (by rw [InBox.length D hl, hs]; rfl)).trans (rotL_box hD (ha.spin hb) [0, 1, 0, 1] ss hs hs2 l hl _)
  by_cases h34 : t = 34
  · subst h34
    exact (at4_rot _ Ub Ub Ub Ub A.t2_bbbb l (by rw [InBox.length D hl, hs]; rfl)).trans (rotL_box hD (ha.spin hb) [1, 1, 1, 1] ss hs hs2 l hl _)
  by_cases h40 : t = 40
  · subst h40
    exact (at6_rot _ Ua Ua Ua Ua Ua Ua A.t3_aaaaaa l (by rw [InBox.length D hl, hs]; rfl)).trans (rotL_box hD (ha.spin hb) [0, 0, 0, 0, 0, 0] ss hs hs2 l hl _)
  by_cases h41 : t = 41
  · subst h41
    exact (at6_rot _ Ua Ua Ub Ua Ua Ub A.t3_aabaab l (by rw [InBox.length D hl, hs]; rfl)).trans (rotL_box hD (ha.spin hb) [0, 0, 1, 0, 0, 1] ss hs hs2 l hl _)
  by_cases h42 : t = 42
  · subst h42
    exact (at6_rot _ Ua Ub Ub Ua Ub Ub A.t3_abbabb l (by rw [InBox.length D hl, hs]; rfl)).trans (rotL_box hD (ha.spin hb) [0, 1, 1, 0, 1, 1] ss hs hs2 l hl _)
  by_cases h43 : t = 43
  · subst h43
    exact (at6_rot _ Ub Ub Ub Ub Ub Ub A.t3_bbbbbb l (by rw [InBox.length D hl, hs]; rfl)).trans (rotL_box hD (ha.spin hb) [1, 1, 1, 1, 1, 1] ss hs hs2 l hl _)
  by_cases h48 : t = 48
  · subst h48
    exact (at8_rot _ Ua Ua Ua Ua Ua Ua Ua Ua A.t4_aaaaaaaa l (by rw [InBox.length D hl, hs]; rfl)).trans (rotL_box hD (ha.spin hb) [0, 0, 0, 0, 0, 0, 0, 0] ss hs hs2 l hl _)
  by_cases h49 : t = 49
  · subst h49
    exact (at8_rot _ Ua Ua Ua Ub Ua Ua Ua Ub A.t4_aaabaaab l (by rw [InBox.length D hl, hs]; rfl)).trans (rotL_box hD (ha.spin hb) [0, 0, 0, 1, 0, 0, 0, 1] ss hs hs2 l hl _)
  by_cases h50 : t = 50
  · subst h50
    exact (at8_rot _ Ua Ua Ub Ub Ua Ua Ub Ub A.t4_aabbaabb l (by rw [InBox.length D hl, hs]; rfl)).trans (rotL_box hD (ha.spin hb) [0, 0, 1, 1, 0, 0, 1, 1] ss hs hs2 l hl _)
  by_cases h51 : t = 51
  · subst h51
    exact (at8_rot _ Ua Ub Ub Ub Ua Ub Ub Ub A.t4_abbbabbb l (by rw [InBox.length D hl, hs]; rfl)).trans (rotL_box hD (ha.spin hb) [0, 1, 1, 1, 0, 1, 1, 1] ss hs hs2 l hl _)
  by_cases h52 : t = 52
  · subst h52
    exact (at8_rot _ Ub Ub Ub Ub Ub Ub Ub Ub A.t4_bbbbbbbb l (by rw [InBox.length D hl, hs]; rfl)).trans (rotL_box hD (ha.spin hb) [1, 1, 1, 1, 1, 1, 1, 1] ss hs hs2 l hl _)
  by_cases h56 : t = 56
  · subst h56
    exact (at2_rot _ Ua Ua A.l1_aa l (by rw [InBox.length D hl, hs]; rfl)).trans (rotL_box hD (ha.spin hb) [0, 0] ss hs hs2 l hl _)
  by_cases h57 : t = 57
  · subst h57
    exact (at2_rot _ Ub Ub A.l1_bb l (by rw [InBox.length D hl, hs]; rfl)).trans (rotL_box hD (ha.spin hb) [1, 1] ss hs hs2 l hl _)
  by_cases h64 : t = 64
  · subst h64
    exact (at4_rot _ Ua Ua Ua Ua A.l2_aaaa l (by rw [InBox.length D hl, hs]; rfl)).trans (rotL_box hD (ha.spin hb) [0, 0, 0, 0] ss hs hs2 l hl _)
  by_cases h65 : t = 65
  · subst h65
    exact (at4_rot _ Ua Ub Ua Ub A.l2_abab l (by rw [InBox.length D hl, hs]; rfl)).trans (rotL_box hD (ha.spin hb) [0, 1, 0, 1] ss hs hs2 l hl _)
  by_cases h66 : t = 66
  · subst h66
    exact (at4_rot _ Ub Ub Ub Ub A.l2_bbbb l (by rw [InBox.length D hl, hs]; rfl)).trans (rotL_box hD (ha.spin hb) [1, 1, 1, 1] ss hs hs2 l hl _)
  by_cases h72 : t = 72
  · subst h72
    exact (at6_rot _ Ua Ua Ua Ua Ua Ua A.l3_aaaaaa l (by rw [InBox.length D hl, hs]; rfl)).trans (rotL_box hD (ha.spin hb) [0, 0, 0, 0, 0, 0] ss hs hs2 l hl _)
  by_cases h73 : t = 73
  · subst h73
    exact (at6_rot _ Ua Ua Ub Ua Ua Ub A.l3_aabaab l (by rw [InBox.length D hl, hs]; rfl)).trans (rotL_box hD (ha.spin hb) [0, 0, 1, 0, 0, 1] ss hs hs2 l hl _)
  by_cases h74 : t = 74
  · subst h74
    exact (at6_rot _ Ua Ub Ub Ua Ub Ub A.l3_abbabb l (by rw [InBox.length D hl, hs]; rfl)).trans (rotL_box hD (ha.spin hb) [0, 1, 1, 0, 1, 1] ss hs hs2 l hl _)
  by_cases h75 : t = 75
  · subst h75
    exact (at6_rot _ Ub Ub Ub Ub Ub Ub A.l3_bbbbbb l (by rw [InBox.length D hl, hs]; rfl)).trans (rotL_box hD (ha.spin hb) [1, 1, 1, 1, 1, 1] ss hs hs2 l hl _)
  by_cases h8 : t = 8
  · subst h8
    exact (at2_rot _ Ua Ua A.f_aa l (by rw [InBox.length D hl, hs]; rfl)).trans (rotL_box hD (ha.spin hb) [0, 0] ss hs hs2 l hl _)
  by_cases h9 : t = 9
  · subst h9
    exact (at2_rot _ Ub Ub A.f_bb l (by rw [InBox.length D hl, hs]; rfl)).trans (rotL_box hD (ha.spin hb) [1, 1] ss hs hs2 l hl _)
  by_cases h16 : t = 16
  · subst h16
    exact (at4_rot _ Ua Ua Ua Ua A.g_aaaa l (by rw [InBox.length D hl, hs]; rfl)).trans (rotL_box hD (ha.spin hb) [0, 0, 0, 0] ss hs hs2 l hl _)
  by_cases h17 : t = 17
  · subst h17
    exact (at4_rot _ Ua Ub Ua Ub A.g_abab l (by rw [InBox.length D hl, hs]; rfl)).trans (rotL_box hD (ha.spin hb) [0, 1, 0, 1] ss hs hs2 l hl _)
  by_cases h18 : t = 18
  · subst h18
    exact (at4_rot _ Ub Ub Ub Ub A.g_bbbb l (by rw [InBox.length D hl, hs]; rfl)).trans (rotL_box hD (ha.spin hb) [1, 1, 1, 1] ss hs hs2 l hl _)
  have e : ∀ B : SI I K, B.T t = fun _ => 0 := fun B => by
    unfold SI.T
    simp only [if_neg h24, if_neg h25, if_neg h32, if_neg h33, if_neg h34, if_neg h40, if_neg h41, if_neg h42, if_neg h43, if_neg h48, if_neg h49, if_neg h50, if_neg h51, if_neg h52, if_neg h56, if_neg h57, if_neg h64, if_neg h65, if_neg h66, if_neg h72, if_neg h73, if_neg h74, if_neg h75, if_neg h8, if_neg h9, if_neg h16, if_neg h17, if_neg h18]
  rw [e, e, boxSum_congr D ss _ (fun _ => 0) fun z _ => mul_zero _, boxSum_zero]

end Verif.Ein
