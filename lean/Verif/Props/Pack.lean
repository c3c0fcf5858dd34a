import Verif.Model.Pack
import Mathlib.Tactic.Ring
import Mathlib.Tactic.Linarith
import Mathlib.Algebra.Order.Ring.Nat

/-! Property C16: packing amplitude blocks into the DIIS vector and back. -/

namespace Verif.Props
open Verif.Pack
variable {K : Type}

theorem length_flatten (sh : List ℕ) (f : List ℕ → K) : (flatten sh f).length = size sh := by
  induction sh generalizing f with
  | nil => rfl
  | cons n sh ih =>
    simp only [flatten, size, List.length_flatMap, ih]
    simp

theorem getElem?_flatMap_range (n m : ℕ) (g : ℕ → List K) (hg : ∀ i, (g i).length = m) (i k : ℕ)
    (hi : i < n) (hk : k < m) : ((List.range n).flatMap g)[i * m + k]? = (g i)[k]? := by
  induction n with
  | zero => omega
  | succ n ih =>
    rw [List.range_succ, List.flatMap_append]
    have hlen : ((List.range n).flatMap g).length = n * m := by
      simp [List.length_flatMap, hg]
    by_cases h : i < n
    · rw [List.getElem?_append_left, ih h]
      rw [hlen]; nlinarith
    · have : i = n := by omega
      subst this
      rw [List.getElem?_append_right (by rw [hlen]; omega), hlen]
      simp

theorem offset_lt (sh ix : List ℕ) (h : InBounds sh ix) : offset sh ix < size sh := by
  induction sh generalizing ix with
  | nil => simp [offset, size]
  | cons n sh ih =>
    cases ix with
    | nil => exact h.elim
    | cons i ix =>
      obtain ⟨h1, h2⟩ := h
      have := ih ix h2
      simp only [offset, size]; nlinarith

/-- **C16** (arrays) Flattening an array and reshaping to its shape gives back every entry, for every
shape and content. -/
theorem C16_flatten_reshape (sh : List ℕ) (f : List ℕ → K) (ix : List ℕ) (h : InBounds sh ix) :
    reshape sh (flatten sh f) ix = some (f ix) := by
  unfold reshape
  rw [if_pos (length_flatten sh f)]
  induction sh generalizing f ix with
  | nil => cases ix with
    | nil => rfl
    | cons i ix => exact h.elim
  | cons n sh ih =>
    cases ix with
    | nil => exact h.elim
    | cons i ix =>
      obtain ⟨h1, h2⟩ := h
      simp only [offset, flatten]
      rw [getElem?_flatMap_range n (size sh) _ (fun _ => length_flatten _ _) i _ h1 (offset_lt _ _ h2),
        ih _ _ h2]

theorem slice_append_mid (a b c : List K) : slice (a ++ (b ++ c)) a.length (a.length + b.length) = b := by
  unfold slice
  have : a.length + b.length = (a ++ b).length := by simp
  rw [← List.append_assoc, this, List.take_left, List.drop_left]

/-- **C16** (general layout) Unpacking a packed vector gives back the three blocks. -/
theorem C16_roundtrip_doubles (a b c : List K) :
    unpackD a.length b.length (packD a b c) = (a, b, c) := by
  unfold unpackD packD
  rw [List.append_assoc, slice_append_mid]
  simp

/-- **C16** (`UCC(4)` layout) -/
theorem C16_roundtrip_ucc4 (a b c : List K) :
    unpackUCC4 a.length b.length (packUCC4 a b c) = (a, b, c) :=
  C16_roundtrip_doubles a b c

theorem slice_append_gen (p b c : List K) (i j : ℕ) (hi : i = p.length) (hj : j = p.length + b.length) :
    slice (p ++ (b ++ c)) i j = b := by subst hi; subst hj; exact slice_append_mid p b c

/-- **C16** (`CCDQ` layout) -/
theorem C16_roundtrip_ccdq (q : Q (List K)) :
    unpackQ ⟨q.aa.length, q.bb.length, q.ab.length, q.aaaa.length, q.aaab.length, q.aabb.length,
      q.abbb.length, q.bbbb.length⟩ (packQ q) = q := by
  obtain ⟨a, b, c, d, e, f, g, h⟩ := q
  simp only [unpackQ, packQ, Q.mk.injEq]
  refine ⟨by simp [List.append_assoc], ?_, ?_, ?_, ?_, ?_, ?_, ?_⟩
  · have := slice_append_gen a b (c ++ d ++ e ++ f ++ g ++ h) a.length (a.length + b.length) rfl rfl
    simpa [List.append_assoc] using this
  · have := slice_append_gen (a ++ b) c (d ++ e ++ f ++ g ++ h) (a.length + b.length)
      (a.length + b.length + c.length) (by simp) (by simp)
    simpa [List.append_assoc] using this
  · have := slice_append_gen (a ++ b ++ c) d (e ++ f ++ g ++ h) (a.length + b.length + c.length)
      (a.length + b.length + c.length + d.length) (by simp; omega) (by simp; omega)
    simpa [List.append_assoc] using this
  · have := slice_append_gen (a ++ b ++ c ++ d) e (f ++ g ++ h)
      (a.length + b.length + c.length + d.length)
      (a.length + b.length + c.length + d.length + e.length) (by simp; omega) (by simp; omega)
    simpa [List.append_assoc] using this
  · have := slice_append_gen (a ++ b ++ c ++ d ++ e) f (g ++ h)
      (a.length + b.length + c.length + d.length + e.length)
      (a.length + b.length + c.length + d.length + e.length + f.length)
      (by simp; omega) (by simp; omega)
    simpa [List.append_assoc] using this
  · have := slice_append_gen (a ++ b ++ c ++ d ++ e ++ f) g h
      (a.length + b.length + c.length + d.length + e.length + f.length)
      (a.length + b.length + c.length + d.length + e.length + f.length + g.length)
      (by simp; omega) (by simp; omega)
    simpa [List.append_assoc] using this
  · rw [List.drop_append_of_le_length (by simp; omega)]
    have hl : (a ++ b ++ c ++ d ++ e ++ f ++ g).length =
        a.length + b.length + c.length + d.length + e.length + f.length + g.length := by simp; omega
    rw [← hl, List.drop_length]; rfl

theorem slice_append_slice (v : List K) (i j : ℕ) (h : i ≤ j) :
    v.take i ++ slice v i j = v.take j := by
  unfold slice
  conv_rhs => rw [← List.take_append_drop i (v.take j)]
  rw [List.take_take, min_eq_left h]

/-- **C16** (the other direction, all layouts) Nothing of the DIIS vector is lost or duplicated: packing
the unpacked blocks gives back the vector, and all blocks but the open-ended last one get exactly
their sizes (the last one too when the length is the sum of the sizes). -/
theorem C16_unpack_pack (v : List K) :
    (∀ d1 d2, packD (unpackD d1 d2 v).1 (unpackD d1 d2 v).2.1 (unpackD d1 d2 v).2.2 = v) ∧
    (∀ d1 d2, packUCC4 (unpackUCC4 d1 d2 v).1 (unpackUCC4 d1 d2 v).2.1 (unpackUCC4 d1 d2 v).2.2 = v) ∧
    (∀ d : Q ℕ, packQ (unpackQ d v) = v) := by
  have h3 : ∀ d1 d2, packD (unpackD d1 d2 v).1 (unpackD d1 d2 v).2.1 (unpackD d1 d2 v).2.2 = v := by
    intro d1 d2
    simp only [packD, unpackD]
    rw [slice_append_slice v _ _ (by omega), List.take_append_drop]
  refine ⟨h3, h3, fun d => ?_⟩
  simp only [packQ, unpackQ]
  rw [slice_append_slice v _ _ (by omega), slice_append_slice v _ _ (by omega),
    slice_append_slice v _ _ (by omega), slice_append_slice v _ _ (by omega),
    slice_append_slice v _ _ (by omega), slice_append_slice v _ _ (by omega), List.take_append_drop]

/-- **C16** (whole path) The blocks of a vector of the right length can be reshaped to the shapes of the
arrays they replace: entry `ix` of the block is entry `offset ix` after the preceding blocks. -/
theorem C16_unpacked_entries (sh1 sh2 sh3 : List ℕ) (v : List K)
    (hv : v.length = size sh1 + size sh2 + size sh3) (ix : List ℕ) :
    (InBounds sh1 ix → reshape sh1 (unpackD (size sh1) (size sh2) v).1 ix = v[offset sh1 ix]?) ∧
    (InBounds sh2 ix → reshape sh2 (unpackD (size sh1) (size sh2) v).2.1 ix =
      v[size sh1 + offset sh2 ix]?) ∧
    (InBounds sh3 ix → reshape sh3 (unpackD (size sh1) (size sh2) v).2.2 ix =
      v[size sh1 + size sh2 + offset sh3 ix]?) := by
  refine ⟨fun h => ?_, fun h => ?_, fun h => ?_⟩
  · have := offset_lt _ _ h
    unfold reshape unpackD
    rw [if_pos (by simp; omega)]
    simp [this]
  · have := offset_lt _ _ h
    unfold reshape unpackD slice
    rw [if_pos (by simp; omega)]
    simp [this]
  · unfold reshape unpackD
    rw [if_pos (by simp; omega)]
    simp

-- a 2x3 array and its fourth entry
example : InBounds [2, 3] [1, 0] ∧
    reshape [2, 3] (flatten [2, 3] (fun ix => ix.sum)) [1, 0] = some 1 ∧
    flatten [2, 3] (fun ix => ix) = [[0, 0], [0, 1], [0, 2], [1, 0], [1, 1], [1, 2]] :=
  ⟨by simp [InBounds], by decide, by decide⟩

end Verif.Props
