import Verif.Ein.Generic
import Verif.Ein.Arrays
import Mathlib.Data.Finset.Sum
import Mathlib.Data.Fintype.BigOperators

/-!
# Relabelled arrays and arrays of two fragments (written by `/verif/tools/maps.py`)

`A.comap e` are the arrays `A` read through a map `e` of orbitals. `A.sum B` are the arrays of two systems without
interaction: entries between the systems are zero. Programs commute with both.
-/

namespace Verif.Ein

variable {I J K : Type} [Field K]

theorem at2_comap (h : I → I → K) (e : J → I) (l : List J) :
    at2 (fun p q => h (e p) (e q)) l = at2 h (l.map e) := by
  rcases l with _ | ⟨x0, _ | ⟨x1, _ | ⟨y, l⟩⟩⟩ <;> rfl

/-- Block-diagonal array. -/
def sum2 (h : I → I → K) (k : J → J → K) : (I ⊕ J) → (I ⊕ J) → K
  | .inl p, .inl q => h p q
  | .inr p, .inr q => k p q
  | _, _ => 0

theorem sum2_same (h : I → I → K) (k : J → J → K) (x0 x1 : I ⊕ J)
    (hne : sum2 h k x0 x1 ≠ 0) : Same Sum.isLeft [x0, x1] := by
  unfold sum2 at hne
  split at hne
  · simp [Same]
  · simp [Same]
  · exact absurd rfl hne

theorem at2_inl (h : I → I → K) (k : J → J → K) (l : List I) : at2 (sum2 h k) (l.map .inl) = at2 h l := by
  rw [← at2_comap]; rfl

theorem at2_inr (h : I → I → K) (k : J → J → K) (l : List J) : at2 (sum2 h k) (l.map .inr) = at2 k l := by
  rw [← at2_comap]; rfl

theorem at2_same (h : I → I → K) (k : J → J → K) (l : List (I ⊕ J)) (hne : at2 (sum2 h k) l ≠ 0) : Same Sum.isLeft l := by
  by_cases hl : l.length = 2
  · rcases l with _ | ⟨x0, _ | ⟨x1, _ | ⟨y, l⟩⟩⟩ <;> simp at hl
    exact sum2_same h k _ _ hne
  · exact absurd (at2_ne _ _ hl) hne

theorem at4_comap (h : I → I → I → I → K) (e : J → I) (l : List J) :
    at4 (fun p q r s => h (e p) (e q) (e r) (e s)) l = at4 h (l.map e) := by
  rcases l with _ | ⟨x0, _ | ⟨x1, _ | ⟨x2, _ | ⟨x3, _ | ⟨y, l⟩⟩⟩⟩⟩ <;> rfl

/-- Block-diagonal array. -/
def sum4 (h : I → I → I → I → K) (k : J → J → J → J → K) : (I ⊕ J) → (I ⊕ J) → (I ⊕ J) → (I ⊕ J) → K
  | .inl p, .inl q, .inl r, .inl s => h p q r s
  | .inr p, .inr q, .inr r, .inr s => k p q r s
  | _, _, _, _ => 0

theorem sum4_same (h : I → I → I → I → K) (k : J → J → J → J → K) (x0 x1 x2 x3 : I ⊕ J)
    (hne : sum4 h k x0 x1 x2 x3 ≠ 0) : Same Sum.isLeft [x0, x1, x2, x3] := by
  unfold sum4 at hne
  split at hne
  · simp [Same]
  · simp [Same]
  · exact absurd rfl hne

theorem at4_inl (h : I → I → I → I → K) (k : J → J → J → J → K) (l : List I) : at4 (sum4 h k) (l.map .inl) = at4 h l := by
  rw [← at4_comap]; rfl

theorem at4_inr (h : I → I → I → I → K) (k : J → J → J → J → K) (l : List J) : at4 (sum4 h k) (l.map .inr) = at4 k l := by
  rw [← at4_comap]; rfl

theorem at4_same (h : I → I → I → I → K) (k : J → J → J → J → K) (l : List (I ⊕ J)) (hne : at4 (sum4 h k) l ≠ 0) : Same Sum.isLeft l := by
  by_cases hl : l.length = 4
  · rcases l with _ | ⟨x0, _ | ⟨x1, _ | ⟨x2, _ | ⟨x3, _ | ⟨y, l⟩⟩⟩⟩⟩ <;> simp at hl
    exact sum4_same h k _ _ _ _ hne
  · exact absurd (at4_ne _ _ hl) hne

theorem at6_comap (h : I → I → I → I → I → I → K) (e : J → I) (l : List J) :
    at6 (fun p q r s u v => h (e p) (e q) (e r) (e s) (e u) (e v)) l = at6 h (l.map e) := by
  rcases l with _ | ⟨x0, _ | ⟨x1, _ | ⟨x2, _ | ⟨x3, _ | ⟨x4, _ | ⟨x5, _ | ⟨y, l⟩⟩⟩⟩⟩⟩⟩ <;> rfl

/-- Block-diagonal array. -/
def sum6 (h : I → I → I → I → I → I → K) (k : J → J → J → J → J → J → K) : (I ⊕ J) → (I ⊕ J) → (I ⊕ J) → (I ⊕ J) → (I ⊕ J) → (I ⊕ J) → K
  | .inl p, .inl q, .inl r, .inl s, .inl u, .inl v => h p q r s u v
  | .inr p, .inr q, .inr r, .inr s, .inr u, .inr v => k p q r s u v
  | _, _, _, _, _, _ => 0

theorem sum6_same (h : I → I → I → I → I → I → K) (k : J → J → J → J → J → J → K) (x0 x1 x2 x3 x4 x5 : I ⊕ J)
    (hne : sum6 h k x0 x1 x2 x3 x4 x5 ≠ 0) : Same Sum.isLeft [x0, x1, x2, x3, x4, x5] := by
  unfold sum6 at hne
  split at hne
  · simp [Same]
  · simp [Same]
  · exact absurd rfl hne

theorem at6_inl (h : I → I → I → I → I → I → K) (k : J → J → J → J → J → J → K) (l : List I) : at6 (sum6 h k) (l.map .inl) = at6 h l := by
  rw [← at6_comap]; rfl

theorem at6_inr (h : I → I → I → I → I → I → K) (k : J → J → J → J → J → J → K) (l : List J) : at6 (sum6 h k) (l.map .inr) = at6 k l := by
  rw [← at6_comap]; rfl

theorem at6_same (h : I → I → I → I → I → I → K) (k : J → J → J → J → J → J → K) (l : List (I ⊕ J)) (hne : at6 (sum6 h k) l ≠ 0) : Same Sum.isLeft l := by
  by_cases hl : l.length = 6
  · rcases l with _ | ⟨x0, _ | ⟨x1, _ | ⟨x2, _ | ⟨x3, _ | ⟨x4, _ | ⟨x5, _ | ⟨y, l⟩⟩⟩⟩⟩⟩⟩ <;> simp at hl
    exact sum6_same h k _ _ _ _ _ _ hne
  · exact absurd (at6_ne _ _ hl) hne

theorem at8_comap (h : I → I → I → I → I → I → I → I → K) (e : J → I) (l : List J) :
    at8 (fun p q r s u v w z => h (e p) (e q) (e r) (e s) (e u) (e v) (e w) (e z)) l = at8 h (l.map e) := by
  rcases l with _ | ⟨x0, _ | ⟨x1, _ | ⟨x2, _ | ⟨x3, _ | ⟨x4, _ | ⟨x5, _ | ⟨x6, _ | ⟨x7, _ | ⟨y, l⟩⟩⟩⟩⟩⟩⟩⟩⟩ <;> rfl

/-- Block-diagonal array. -/
def sum8 (h : I → I → I → I → I → I → I → I → K) (k : J → J → J → J → J → J → J → J → K) : (I ⊕ J) → (I ⊕ J) → (I ⊕ J) → (I ⊕ J) → (I ⊕ J) → (I ⊕ J) → (I ⊕ J) → (I ⊕ J) → K
  | .inl p, .inl q, .inl r, .inl s, .inl u, .inl v, .inl w, .inl z => h p q r s u v w z
  | .inr p, .inr q, .inr r, .inr s, .inr u, .inr v, .inr w, .inr z => k p q r s u v w z
  | _, _, _, _, _, _, _, _ => 0

theorem sum8_same (h : I → I → I → I → I → I → I → I → K) (k : J → J → J → J → J → J → J → J → K) (x0 x1 x2 x3 x4 x5 x6 x7 : I ⊕ J)
    (hne : sum8 h k x0 x1 x2 x3 x4 x5 x6 x7 ≠ 0) : Same Sum.isLeft [x0, x1, x2, x3, x4, x5, x6, x7] := by
  unfold sum8 at hne
  split at hne
  · simp [Same]
  · simp [Same]
  · exact absurd rfl hne

theorem at8_inl (h : I → I → I → I → I → I → I → I → K) (k : J → J → J → J → J → J → J → J → K) (l : List I) : at8 (sum8 h k) (l.map .inl) = at8 h l := by
  rw [← at8_comap]; rfl

theorem at8_inr (h : I → I → I → I → I → I → I → I → K) (k : J → J → J → J → J → J → J → J → K) (l : List J) : at8 (sum8 h k) (l.map .inr) = at8 k l := by
  rw [← at8_comap]; rfl

theorem at8_same (h : I → I → I → I → I → I → I → I → K) (k : J → J → J → J → J → J → J → J → K) (l : List (I ⊕ J)) (hne : at8 (sum8 h k) l ≠ 0) : Same Sum.isLeft l := by
  by_cases hl : l.length = 8
  · rcases l with _ | ⟨x0, _ | ⟨x1, _ | ⟨x2, _ | ⟨x3, _ | ⟨x4, _ | ⟨x5, _ | ⟨x6, _ | ⟨x7, _ | ⟨y, l⟩⟩⟩⟩⟩⟩⟩⟩⟩ <;> simp at hl
    exact sum8_same h k _ _ _ _ _ _ _ _ hne
  · exact absurd (at8_ne _ _ hl) hne

/-- The arrays read through a map of orbitals. -/
def SO.comap (e : J → I) (A : SO I K) : SO J K where
  f p q := A.f (e p) (e q)
  g p q r s := A.g (e p) (e q) (e r) (e s)
  t1 p q := A.t1 (e p) (e q)
  t2 p q r s := A.t2 (e p) (e q) (e r) (e s)
  t3 p q r s u v := A.t3 (e p) (e q) (e r) (e s) (e u) (e v)
  t4 p q r s u v w z := A.t4 (e p) (e q) (e r) (e s) (e u) (e v) (e w) (e z)
  l1 p q := A.l1 (e p) (e q)
  l2 p q r s := A.l2 (e p) (e q) (e r) (e s)
  l3 p q r s u v := A.l3 (e p) (e q) (e r) (e s) (e u) (e v)
  l4 p q r s u v w z := A.l4 (e p) (e q) (e r) (e s) (e u) (e v) (e w) (e z)

theorem SO.comap_T (e : J → I) (A : SO I K) (t : Nat) (l : List J) : (A.comap e).T t l = A.T t (l.map e) := by
  by_cases h15 : t = 15
  · subst h15; exact at2_comap _ e l
  by_cases h23 : t = 23
  · subst h23; exact at4_comap _ e l
  by_cases h31 : t = 31
  · subst h31; exact at2_comap _ e l
  by_cases h39 : t = 39
  · subst h39; exact at4_comap _ e l
  by_cases h47 : t = 47
  · subst h47; exact at6_comap _ e l
  by_cases h55 : t = 55
  · subst h55; exact at8_comap _ e l
  by_cases h63 : t = 63
  · subst h63; exact at2_comap _ e l
  by_cases h71 : t = 71
  · subst h71; exact at4_comap _ e l
  by_cases h79 : t = 79
  · subst h79; exact at6_comap _ e l
  by_cases h119 : t = 119
  · subst h119; exact at8_comap _ e l
  unfold SO.T
  simp only [if_neg h15, if_neg h23, if_neg h31, if_neg h39, if_neg h47, if_neg h55, if_neg h63, if_neg h71, if_neg h79, if_neg h119]

/-- The arrays of two systems without interaction. -/
def SO.sum (A : SO I K) (B : SO J K) : SO (I ⊕ J) K where
  f := sum2 A.f B.f
  g := sum4 A.g B.g
  t1 := sum2 A.t1 B.t1
  t2 := sum4 A.t2 B.t2
  t3 := sum6 A.t3 B.t3
  t4 := sum8 A.t4 B.t4
  l1 := sum2 A.l1 B.l1
  l2 := sum4 A.l2 B.l2
  l3 := sum6 A.l3 B.l3
  l4 := sum8 A.l4 B.l4

theorem SO.sum_T_inl (A : SO I K) (B : SO J K) (t : Nat) (l : List I) : (A.sum B).T t (l.map .inl) = A.T t l := by
  by_cases h15 : t = 15
  · subst h15; exact at2_inl _ _ l
  by_cases h23 : t = 23
  · subst h23; exact at4_inl _ _ l
  by_cases h31 : t = 31
  · subst h31; exact at2_inl _ _ l
  by_cases h39 : t = 39
  · subst h39; exact at4_inl _ _ l
  by_cases h47 : t = 47
  · subst h47; exact at6_inl _ _ l
  by_cases h55 : t = 55
  · subst h55; exact at8_inl _ _ l
  by_cases h63 : t = 63
  · subst h63; exact at2_inl _ _ l
  by_cases h71 : t = 71
  · subst h71; exact at4_inl _ _ l
  by_cases h79 : t = 79
  · subst h79; exact at6_inl _ _ l
  by_cases h119 : t = 119
  · subst h119; exact at8_inl _ _ l
  unfold SO.T
  simp only [if_neg h15, if_neg h23, if_neg h31, if_neg h39, if_neg h47, if_neg h55, if_neg h63, if_neg h71, if_neg h79, if_neg h119]

theorem SO.sum_T_inr (A : SO I K) (B : SO J K) (t : Nat) (l : List J) : (A.sum B).T t (l.map .inr) = B.T t l := by
  by_cases h15 : t = 15
  · subst h15; exact at2_inr _ _ l
  by_cases h23 : t = 23
  · subst h23; exact at4_inr _ _ l
  by_cases h31 : t = 31
  · subst h31; exact at2_inr _ _ l
  by_cases h39 : t = 39
  · subst h39; exact at4_inr _ _ l
  by_cases h47 : t = 47
  · subst h47; exact at6_inr _ _ l
  by_cases h55 : t = 55
  · subst h55; exact at8_inr _ _ l
  by_cases h63 : t = 63
  · subst h63; exact at2_inr _ _ l
  by_cases h71 : t = 71
  · subst h71; exact at4_inr _ _ l
  by_cases h79 : t = 79
  · subst h79; exact at6_inr _ _ l
  by_cases h119 : t = 119
  · subst h119; exact at8_inr _ _ l
  unfold SO.T
  simp only [if_neg h15, if_neg h23, if_neg h31, if_neg h39, if_neg h47, if_neg h55, if_neg h63, if_neg h71, if_neg h79, if_neg h119]

theorem SO.sum_T_same (A : SO I K) (B : SO J K) (t : Nat) (l : List (I ⊕ J)) (h : (A.sum B).T t l ≠ 0) :
    Same Sum.isLeft l := by
  by_cases h15 : t = 15
  · subst h15; exact at2_same _ _ l h
  by_cases h23 : t = 23
  · subst h23; exact at4_same _ _ l h
  by_cases h31 : t = 31
  · subst h31; exact at2_same _ _ l h
  by_cases h39 : t = 39
  · subst h39; exact at4_same _ _ l h
  by_cases h47 : t = 47
  · subst h47; exact at6_same _ _ l h
  by_cases h55 : t = 55
  · subst h55; exact at8_same _ _ l h
  by_cases h63 : t = 63
  · subst h63; exact at2_same _ _ l h
  by_cases h71 : t = 71
  · subst h71; exact at4_same _ _ l h
  by_cases h79 : t = 79
  · subst h79; exact at6_same _ _ l h
  by_cases h119 : t = 119
  · subst h119; exact at8_same _ _ l h
  unfold SO.T at h
  rw [if_neg h15, if_neg h23, if_neg h31, if_neg h39, if_neg h47, if_neg h55, if_neg h63, if_neg h71, if_neg h79, if_neg h119] at h
  exact absurd rfl h

/-- The arrays read through a map of orbitals. -/
def SI.comap (e : J → I) (A : SI I K) : SI J K where
  t1_aa p q := A.t1_aa (e p) (e q)
  t1_bb p q := A.t1_bb (e p) (e q)
  t2_aaaa p q r s := A.t2_aaaa (e p) (e q) (e r) (e s)
  t2_abab p q r s := A.t2_abab (e p) (e q) (e r) (e s)
  t2_bbbb p q r s := A.t2_bbbb (e p) (e q) (e r) (e s)
  t3_aaaaaa p q r s u v := A.t3_aaaaaa (e p) (e q) (e r) (e s) (e u) (e v)
  t3_aabaab p q r s u v := A.t3_aabaab (e p) (e q) (e r) (e s) (e u) (e v)
  t3_abbabb p q r s u v := A.t3_abbabb (e p) (e q) (e r) (e s) (e u) (e v)
  t3_bbbbbb p q r s u v := A.t3_bbbbbb (e p) (e q) (e r) (e s) (e u) (e v)
  t4_aaaaaaaa p q r s u v w z := A.t4_aaaaaaaa (e p) (e q) (e r) (e s) (e u) (e v) (e w) (e z)
  t4_aaabaaab p q r s u v w z := A.t4_aaabaaab (e p) (e q) (e r) (e s) (e u) (e v) (e w) (e z)
  t4_aabbaabb p q r s u v w z := A.t4_aabbaabb (e p) (e q) (e r) (e s) (e u) (e v) (e w) (e z)
  t4_abbbabbb p q r s u v w z := A.t4_abbbabbb (e p) (e q) (e r) (e s) (e u) (e v) (e w) (e z)
  t4_bbbbbbbb p q r s u v w z := A.t4_bbbbbbbb (e p) (e q) (e r) (e s) (e u) (e v) (e w) (e z)
  l1_aa p q := A.l1_aa (e p) (e q)
  l1_bb p q := A.l1_bb (e p) (e q)
  l2_aaaa p q r s := A.l2_aaaa (e p) (e q) (e r) (e s)
  l2_abab p q r s := A.l2_abab (e p) (e q) (e r) (e s)
  l2_bbbb p q r s := A.l2_bbbb (e p) (e q) (e r) (e s)
  l3_aaaaaa p q r s u v := A.l3_aaaaaa (e p) (e q) (e r) (e s) (e u) (e v)
  l3_aabaab p q r s u v := A.l3_aabaab (e p) (e q) (e r) (e s) (e u) (e v)
  l3_abbabb p q r s u v := A.l3_abbabb (e p) (e q) (e r) (e s) (e u) (e v)
  l3_bbbbbb p q r s u v := A.l3_bbbbbb (e p) (e q) (e r) (e s) (e u) (e v)
  f_aa p q := A.f_aa (e p) (e q)
  f_bb p q := A.f_bb (e p) (e q)
  g_aaaa p q r s := A.g_aaaa (e p) (e q) (e r) (e s)
  g_abab p q r s := A.g_abab (e p) (e q) (e r) (e s)
  g_bbbb p q r s := A.g_bbbb (e p) (e q) (e r) (e s)

theorem SI.comap_T (e : J → I) (A : SI I K) (t : Nat) (l : List J) : (A.comap e).T t l = A.T t (l.map e) := by
  by_cases h24 : t = 24
  · subst h24; exact at2_comap _ e l
  by_cases h25 : t = 25
  · subst h25; exact at2_comap _ e l
  by_cases h32 : t = 32
  · subst h32; exact at4_comap _ e l
  by_cases h33 : t = 33
  · subst h33; exact at4_comap _ e l
  by_cases h34 : t = 34
  · subst h34; exact at4_comap _ e l
  by_cases h40 : t = 40
  · subst h40; exact at6_comap _ e l
  by_cases h41 : t = 41
  · subst h41; exact at6_comap _ e l
  by_cases h42 : t = 42
  · subst h42; exact at6_comap _ e l
  by_cases h43 : t = 43
  · subst h43; exact at6_comap _ e l
  by_cases h48 : t = 48
  · subst h48; exact at8_comap _ e l
  by_cases h49 : t = 49
  · subst h49; exact at8_comap _ e l
  by_cases h50 : t = 50
  · subst h50; exact at8_comap _ e l
  by_cases h51 : t = 51
  · subst h51; exact at8_comap _ e l
  by_cases h52 : t = 52
  · subst h52; exact at8_comap _ e l
  by_cases h56 : t = 56
  · subst h56; exact at2_comap _ e l
  by_cases h57 : t = 57
  · subst h57; exact at2_comap _ e l
  by_cases h64 : t = 64
  · subst h64; exact at4_comap _ e l
  by_cases h65 : t = 65
  · subst h65; exact at4_comap _ e l
  by_cases h66 : t = 66
  · subst h66; exact at4_comap _ e l
  by_cases h72 : t = 72
  · subst h72; exact at6_comap _ e l
  by_cases h73 : t = 73
  · subst h73; exact at6_comap _ e l
  by_cases h74 : t = 74
  · subst h74; exact at6_comap _ e l
  by_cases h75 : t = 75
  · subst h75; exact at6_comap _ e l
  by_cases h8 : t = 8
  · subst h8; exact at2_comap _ e l
  by_cases h9 : t = 9
  · subst h9; exact at2_comap _ e l
  by_cases h16 : t = 16
  · subst h16; exact at4_comap _ e l
  by_cases h17 : t = 17
  · subst h17; exact at4_comap _ e l
  by_cases h18 : t = 18
  · subst h18; exact at4_comap _ e l
  unfold SI.T
  simp only [if_neg h24, if_neg h25, if_neg h32, if_neg h33, if_neg h34, if_neg h40, if_neg h41, if_neg h42, if_neg h43, if_neg h48, if_neg h49, if_neg h50, if_neg h51, if_neg h52, if_neg h56, if_neg h57, if_neg h64, if_neg h65, if_neg h66, if_neg h72, if_neg h73, if_neg h74, if_neg h75, if_neg h8, if_neg h9, if_neg h16, if_neg h17, if_neg h18]

/-- The arrays of two systems without interaction. -/
def SI.sum (A : SI I K) (B : SI J K) : SI (I ⊕ J) K where
  t1_aa := sum2 A.t1_aa B.t1_aa
  t1_bb := sum2 A.t1_bb B.t1_bb
  t2_aaaa := sum4 A.t2_aaaa B.t2_aaaa
  t2_abab := sum4 A.t2_abab B.t2_abab
  t2_bbbb := sum4 A.t2_bbbb B.t2_bbbb
  t3_aaaaaa := sum6 A.t3_aaaaaa B.t3_aaaaaa
  t3_aabaab := sum6 A.t3_aabaab B.t3_aabaab
  t3_abbabb := sum6 A.t3_abbabb B.t3_abbabb
  t3_bbbbbb := sum6 A.t3_bbbbbb B.t3_bbbbbb
  t4_aaaaaaaa := sum8 A.t4_aaaaaaaa B.t4_aaaaaaaa
  t4_aaabaaab := sum8 A.t4_aaabaaab B.t4_aaabaaab
  t4_aabbaabb := sum8 A.t4_aabbaabb B.t4_aabbaabb
  t4_abbbabbb := sum8 A.t4_abbbabbb B.t4_abbbabbb
  t4_bbbbbbbb := sum8 A.t4_bbbbbbbb B.t4_bbbbbbbb
  l1_aa := sum2 A.l1_aa B.l1_aa
  l1_bb := sum2 A.l1_bb B.l1_bb
  l2_aaaa := sum4 A.l2_aaaa B.l2_aaaa
  l2_abab := sum4 A.l2_abab B.l2_abab
  l2_bbbb := sum4 A.l2_bbbb B.l2_bbbb
  l3_aaaaaa := sum6 A.l3_aaaaaa B.l3_aaaaaa
  l3_aabaab := sum6 A.l3_aabaab B.l3_aabaab
  l3_abbabb := sum6 A.l3_abbabb B.l3_abbabb
  l3_bbbbbb := sum6 A.l3_bbbbbb B.l3_bbbbbb
  f_aa := sum2 A.f_aa B.f_aa
  f_bb := sum2 A.f_bb B.f_bb
  g_aaaa := sum4 A.g_aaaa B.g_aaaa
  g_abab := sum4 A.g_abab B.g_abab
  g_bbbb := sum4 A.g_bbbb B.g_bbbb

theorem SI.sum_T_inl (A : SI I K) (B : SI J K) (t : Nat) (l : List I) : (A.sum B).T t (l.map .inl) = A.T t l := by
  by_cases h24 : t = 24
  · subst h24; exact at2_inl _ _ l
  by_cases h25 : t = 25
  · subst h25; exact at2_inl _ _ l
  by_cases h32 : t = 32
  · subst h32; exact at4_inl _ _ l
  by_cases h33 : t = 33
  · subst h33; exact at4_inl _ _ l
  by_cases h34 : t = 34
  · subst h34; exact at4_inl _ _ l
  by_cases h40 : t = 40
  · subst h40; exact at6_inl _ _ l
  by_cases h41 : t = 41
  · subst h41; exact at6_inl _ _ l
  by_cases h42 : t = 42
  · subst h42; exact at6_inl _ _ l
  by_cases h43 : t = 43
  · subst h43; exact at6_inl _ _ l
  by_cases h48 : t = 48
  · subst h48; exact at8_inl _ _ l
  by_cases h49 : t = 49
  · subst h49; exact at8_inl _ _ l
  by_cases h50 : t = 50
  · subst h50; exact at8_inl _ _ l
  by_cases h51 : t = 51
  · subst h51; exact at8_inl _ _ l
  by_cases h52 : t = 52
  · subst h52; exact at8_inl _ _ l
  by_cases h56 : t = 56
  · subst h56; exact at2_inl _ _ l
  by_cases h57 : t = 57
  · subst h57; exact at2_inl _ _ l
  by_cases h64 : t = 64
  · subst h64; exact at4_inl _ _ l
  by_cases h65 : t = 65
  · subst h65; exact at4_inl _ _ l
  by_cases h66 : t = 66
  · subst h66; exact at4_inl _ _ l
  by_cases h72 : t = 72
  · subst h72; exact at6_inl _ _ l
  by_cases h73 : t = 73
  · subst h73; exact at6_inl _ _ l
  by_cases h74 : t = 74
  · subst h74; exact at6_inl _ _ l
  by_cases h75 : t = 75
  · subst h75; exact at6_inl _ _ l
  by_cases h8 : t = 8
  · subst h8; exact at2_inl _ _ l
  by_cases h9 : t = 9
  · subst h9; exact at2_inl _ _ l
  by_cases h16 : t = 16
  · subst h16; exact at4_inl _ _ l
  by_cases h17 : t = 17
  · subst h17; exact at4_inl _ _ l
  by_cases h18 : t = 18
  · subst h18; exact at4_inl _ _ l
  unfold SI.T
  simp only [if_neg h24, if_neg h25, if_neg h32, if_neg h33, if_neg h34, if_neg h40, if_neg h41, if_neg h42, if_neg h43, if_neg h48, if_neg h49, if_neg h50, if_neg h51, if_neg h52, if_neg h56, if_neg h57, if_neg h64, if_neg h65, if_neg h66, if_neg h72, if_neg h73, if_neg h74, if_neg h75, if_neg h8, if_neg h9, if_neg h16, if_neg h17, if_neg h18]

theorem SI.sum_T_inr (A : SI I K) (B : SI J K) (t : Nat) (l : List J) : (A.sum B).T t (l.map .inr) = B.T t l := by
  by_cases h24 : t = 24
  · subst h24; exact at2_inr _ _ l
  by_cases h25 : t = 25
  · subst h25; exact at2_inr _ _ l
  by_cases h32 : t = 32
  · subst h32; exact at4_inr _ _ l
  by_cases h33 : t = 33
  · subst h33; exact at4_inr _ _ l
  by_cases h34 : t = 34
  · subst h34; exact at4_inr _ _ l
  by_cases h40 : t = 40
  · subst h40; exact at6_inr _ _ l
  by_cases h41 : t = 41
  · subst h41; exact at6_inr _ _ l
  by_cases h42 : t = 42
  · subst h42; exact at6_inr _ _ l
  by_cases h43 : t = 43
  · subst h43; exact at6_inr _ _ l
  by_cases h48 : t = 48
  · subst h48; exact at8_inr _ _ l
  by_cases h49 : t = 49
  · subst h49; exact at8_inr _ _ l
  by_cases h50 : t = 50
  · subst h50; exact at8_inr _ _ l
  by_cases h51 : t = 51
  · subst h51; exact at8_inr _ _ l
  by_cases h52 : t = 52
  · subst h52; exact at8_inr _ _ l
  by_cases h56 : t = 56
  · subst h56; exact at2_inr _ _ l
  by_cases h57 : t = 57
  · subst h57; exact at2_inr _ _ l
  by_cases h64 : t = 64
  · subst h64; exact at4_inr _ _ l
  by_cases h65 : t = 65
  · subst h65; exact at4_inr _ _ l
  by_cases h66 : t = 66
  · subst h66; exact at4_inr _ _ l
  by_cases h72 : t = 72
  · subst h72; exact at6_inr _ _ l
  by_cases h73 : t = 73
  · subst h73; exact at6_inr _ _ l
  by_cases h74 : t = 74
  · subst h74; exact at6_inr _ _ l
  by_cases h75 : t = 75
  · subst h75; exact at6_inr _ _ l
  by_cases h8 : t = 8
  · subst h8; exact at2_inr _ _ l
  by_cases h9 : t = 9
  · subst h9; exact at2_inr _ _ l
  by_cases h16 : t = 16
  · subst h16; exact at4_inr _ _ l
  by_cases h17 : t = 17
  · subst h17; exact at4_inr _ _ l
  by_cases h18 : t = 18
  · subst h18; exact at4_inr _ _ l
  unfold SI.T
  simp only [if_neg h24, if_neg h25, if_neg h32, if_neg h33, if_neg h34, if_neg h40, if_neg h41, if_neg h42, if_neg h43, if_neg h48, if_neg h49, if_neg h50, if_neg h51, if_neg h52, if_neg h56, if_neg h57, if_neg h64, if_neg h65, if_neg h66, if_neg h72, if_neg h73, if_neg h74, if_neg h75, if_neg h8, if_neg h9, if_neg h16, if_neg h17, if_neg h18]

theorem SI.sum_T_same (A : SI I K) (B : SI J K) (t : Nat) (l : List (I ⊕ J)) (h : (A.sum B).T t l ≠ 0) :
    Same Sum.isLeft l := by
  by_cases h24 : t = 24
  · subst h24; exact at2_same _ _ l h
  by_cases h25 : t = 25
  · subst h25; exact at2_same _ _ l h
  by_cases h32 : t = 32
  · subst h32; exact at4_same _ _ l h
  by_cases h33 : t = 33
  · subst h33; exact at4_same _ _ l h
  by_cases h34 : t = 34
  · subst h34; exact at4_same _ _ l h
  by_cases h40 : t = 40
  · subst h40; exact at6_same _ _ l h
  by_cases h41 : t = 41
  · subst h41; exact at6_same _ _ l h
  by_cases h42 : t = 42
  · subst h42; exact at6_same _ _ l h
  by_cases h43 : t = 43
  · subst h43; exact at6_same _ _ l h
  by_cases h48 : t = 48
  · subst h48; exact at8_same _ _ l h
  by_cases h49 : t = 49
  · subst h49; exact at8_same _ _ l h
  by_cases h50 : t = 50
  · subst h50; exact at8_same _ _ l h
  by_cases h51 : t = 51
  · subst h51; exact at8_same _ _ l h
  by_cases h52 : t = 52
  · subst h52; exact at8_same _ _ l h
  by_cases h56 : t = 56
  · subst h56; exact at2_same _ _ l h
  by_cases h57 : t = 57
  · subst h57; exact at2_same _ _ l h
  by_cases h64 : t = 64
  · subst h64; exact at4_same _ _ l h
  by_cases h65 : t = 65
  · subst h65; exact at4_same _ _ l h
  by_cases h66 : t = 66
  · subst h66; exact at4_same _ _ l h
  by_cases h72 : t = 72
  · subst h72; exact at6_same _ _ l h
  by_cases h73 : t = 73
  · subst h73; exact at6_same _ _ l h
  by_cases h74 : t = 74
  · subst h74; exact at6_same _ _ l h
  by_cases h75 : t = 75
  · subst h75; exact at6_same _ _ l h
  by_cases h8 : t = 8
  · subst h8; exact at2_same _ _ l h
  by_cases h9 : t = 9
  · subst h9; exact at2_same _ _ l h
  by_cases h16 : t = 16
  · subst h16; exact at4_same _ _ l h
  by_cases h17 : t = 17
  · subst h17; exact at4_same _ _ l h
  by_cases h18 : t = 18
  · subst h18; exact at4_same _ _ l h
  unfold SI.T at h
  rw [if_neg h24, if_neg h25, if_neg h32, if_neg h33, if_neg h34, if_neg h40, if_neg h41, if_neg h42, if_neg h43, if_neg h48, if_neg h49, if_neg h50, if_neg h51, if_neg h52, if_neg h56, if_neg h57, if_neg h64, if_neg h65, if_neg h66, if_neg h72, if_neg h73, if_neg h74, if_neg h75, if_neg h8, if_neg h9, if_neg h16, if_neg h17, if_neg h18] at h
  exact absurd rfl h

/-- Orbitals of two systems. -/
def sumD (D : Nat → Finset I) (E : Nat → Finset J) (s : Nat) : Finset (I ⊕ J) := (D s).disjSum (E s)

theorem sumD_left (D : Nat → Finset I) (E : Nat → Finset J) (s : Nat) :
    (D s).map ⟨Sum.inl, Sum.inl_injective⟩ = (sumD D E s).filter fun x => x.isLeft = true := by
  ext x; cases x <;> simp [sumD]

theorem sumD_right (D : Nat → Finset I) (E : Nat → Finset J) (s : Nat) :
    (E s).map ⟨Sum.inr, Sum.inr_injective⟩ = (sumD D E s).filter fun x => x.isLeft = false := by
  ext x; cases x <;> simp [sumD]

section programs

variable [Inhabited I] [Inhabited J]

/-- Programs commute with relabelling orbitals. -/
theorem Prog.eval_relabel (e : I ≃ I) (D : Nat → Finset I) (hD : ∀ s x, e x ∈ D s ↔ x ∈ D s)
    (T T' : Nat → List I → K) (hT : ∀ t l, T' t l = T t (l.map e)) (n : Nat) (P : Prog) (hP : P.closed n = true)
    (xs : List I) (hx : xs.length = n) : P.eval D T' xs = P.eval D T (xs.map e) := by
  refine (Prog.eval_embed e e.injective D D (fun s => ?_) T' T (fun t l => (hT t l).symm) n P hP xs hx).symm
  ext x
  simp only [Finset.mem_map, Function.Embedding.coeFn_mk]
  constructor
  · intro hx
    exact ⟨e.symm x, (hD s _).1 (by simpa using hx), by simp⟩
  · rintro ⟨y, hy, rfl⟩
    exact (hD s y).2 hy

variable (D : Nat → Finset I) (E : Nat → Finset J) (T : Nat → List (I ⊕ J) → K) (TA : Nat → List I → K)
  (TB : Nat → List J → K) (h1 : ∀ t l, T t (l.map .inl) = TA t l) (h2 : ∀ t l, T t (l.map .inr) = TB t l)
  (h3 : ∀ t l, T t l ≠ 0 → Same Sum.isLeft l)

include h1 h3 in
theorem Prog.sum_inl (n : Nat) (hn : n ≠ 0) (P : Prog) (hc : P.connected = true) (hP : P.closed n = true) (xs : List I)
    (hx : xs.length = n) : P.eval (sumD D E) T (xs.map .inl) = P.eval D TA xs := by
  rw [Prog.eval_frag Sum.isLeft (sumD D E) T h3 n hn P hc hP true
    (fun s => (D s).map ⟨Sum.inl, Sum.inl_injective⟩) (sumD_left D E) _ (by simpa using hx)
    (by intro x hx; obtain ⟨y, _, rfl⟩ := List.mem_map.1 hx; rfl)]
  exact Prog.eval_embed .inl Sum.inl_injective D _ (fun _ => rfl) TA T h1 n P hP xs hx

omit [Inhabited I] in
include h2 h3 in
theorem Prog.sum_inr (n : Nat) (hn : n ≠ 0) (P : Prog) (hc : P.connected = true) (hP : P.closed n = true) (xs : List J)
    (hx : xs.length = n) : P.eval (sumD D E) T (xs.map .inr) = P.eval E TB xs := by
  rw [Prog.eval_frag Sum.isLeft (sumD D E) T h3 n hn P hc hP false
    (fun s => (E s).map ⟨Sum.inr, Sum.inr_injective⟩) (sumD_right D E) _ (by simpa using hx)
    (by intro x hx; obtain ⟨y, _, rfl⟩ := List.mem_map.1 hx; rfl)]
  exact Prog.eval_embed .inr Sum.inr_injective E _ (fun _ => rfl) TB T h2 n P hP xs hx

include h1 h2 h3 in
theorem Prog.sum_number (P : Prog) (hc : P.connected = true) (hP : P.closed 0 = true) :
    P.eval (sumD D E) T [] = P.eval D TA [] + P.eval E TB [] := by
  rw [Prog.eval_split Sum.isLeft (sumD D E) T h3 P hc hP
    (fun c s => (sumD D E s).filter fun x => x.isLeft = c) (fun _ _ => rfl), Fintype.sum_bool]
  congr 1
  · exact Prog.eval_embed .inl Sum.inl_injective D _ (fun s => (sumD_left D E s).symm) TA T h1 0 P hP [] rfl
  · exact Prog.eval_embed .inr Sum.inr_injective E _ (fun s => (sumD_right D E s).symm) TB T h2 0 P hP [] rfl

end programs

end Verif.Ein
