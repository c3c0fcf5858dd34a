import Verif.Ein.SpinArrays
import Verif.Ein.Charge

/-!
# Symmetry of the spin-orbital arrays made of spin blocks

`SI.Sym.so`: if the spin blocks have their symmetries, the spin-orbital arrays `A.so` have theirs.
-/

namespace Verif.Ein

variable {I K : Type}

section lists

variable (l₁ l₂ : List (I × Bool)) (x y : I × Bool)

theorem nb_adj : nb (l₁ ++ y :: x :: l₂) = nb (l₁ ++ x :: y :: l₂) := by
  simp only [nb, List.countP_append, List.countP_cons]; omega

theorem inv_append (l l' : List (I × Bool)) :
    inv (l ++ l') = inv l + inv l' + l.countP (·.2) * l'.countP (fun y => !y.2) := by
  induction l with
  | nil => simp [inv]
  | cons z l ih =>
    simp only [List.cons_append, inv, ih, List.countP_append, List.countP_cons]
    cases z.2
    · simp
    · simp only [Nat.add_mul, if_true]; simp; omega

theorem inv_adj_same (h : x.2 = y.2) : inv (l₁ ++ y :: x :: l₂) = inv (l₁ ++ x :: y :: l₂) := by
  simp only [inv_append, inv, List.countP_cons, h]

theorem inv_adj_ne (h : x.2 ≠ y.2) : (-1 : ℤ) ^ inv (l₁ ++ y :: x :: l₂) = - (-1) ^ inv (l₁ ++ x :: y :: l₂) := by
  obtain ⟨x, a⟩ := x
  obtain ⟨y, b⟩ := y
  simp only [inv_append, inv, List.countP_cons]
  cases a <;> cases b
  · exact absurd rfl h
  · simp [pow_add]
  · simp [pow_add]
  · exact absurd rfl h

theorem sortSpin_adj_ne (h : x.2 ≠ y.2) : sortSpin (l₁ ++ y :: x :: l₂) = sortSpin (l₁ ++ x :: y :: l₂) := by
  obtain ⟨x, a⟩ := x
  obtain ⟨y, b⟩ := y
  cases a <;> cases b
  · exact absurd rfl h
  · simp [sortSpin]
  · simp [sortSpin]
  · exact absurd rfl h

/-- Two neighbours with the same spin stay neighbours, both among the alpha or both among the beta indices. -/
theorem sortSpin_adj (h : x.2 = y.2) : ∃ s₁ s₂, sortSpin (l₁ ++ x :: y :: l₂) = s₁ ++ x.1 :: y.1 :: s₂ ∧
    sortSpin (l₁ ++ y :: x :: l₂) = s₁ ++ y.1 :: x.1 :: s₂ ∧
    s₁.length + 2 + s₂.length = (l₁ ++ x :: y :: l₂).length ∧
    (s₁.length + 1 + nb (l₁ ++ x :: y :: l₂) < (l₁ ++ x :: y :: l₂).length ∨
      (l₁ ++ x :: y :: l₂).length ≤ s₁.length + nb (l₁ ++ x :: y :: l₂)) := by
  obtain ⟨x, a⟩ := x
  obtain ⟨y, b⟩ := y
  simp only at h
  subst h
  have e : ∀ l : List (I × Bool), l.length = (l.filter (fun z => !z.2)).length + (l.filter (·.2)).length := by
    intro l
    have := List.length_eq_countP_add_countP (fun z : I × Bool => !z.2) (l := l)
    simpa [List.countP_eq_length_filter] using this
  have e1 := e l₁
  have e2 := e l₂
  cases a
  · refine ⟨(l₁.filter (fun z => !z.2)).map (·.1), (l₂.filter (fun z => !z.2)).map (·.1) ++
      ((l₁.filter (·.2)).map (·.1) ++ (l₂.filter (·.2)).map (·.1)), ?_, ?_, ?_, Or.inl ?_⟩
    · simp [sortSpin]
    · simp [sortSpin]
    · simp only [List.length_append, List.length_map, List.length_cons]; omega
    · simp only [nb, List.length_append, List.length_map, List.length_cons,
        List.countP_eq_length_filter]
      simp
      omega
  · refine ⟨(l₁.filter (fun z => !z.2)).map (·.1) ++ ((l₂.filter (fun z => !z.2)).map (·.1) ++
      (l₁.filter (·.2)).map (·.1)), (l₂.filter (·.2)).map (·.1), ?_, ?_, ?_, Or.inr ?_⟩
    · simp [sortSpin]
    · simp [sortSpin]
    · simp only [List.length_append, List.length_map, List.length_cons]; omega
    · simp only [nb, List.length_append, List.length_map, List.length_cons,
        List.countP_eq_length_filter]
      simp
      omega

theorem length_sortSpin (l : List (I × Bool)) : (sortSpin l).length = l.length := by
  have := List.length_eq_countP_add_countP (fun z : I × Bool => !z.2) (l := l)
  simp only [sortSpin, List.length_append, List.length_map]
  simpa [List.countP_eq_length_filter] using this.symm

theorem nb_le (l : List (I × Bool)) : nb l ≤ l.length := List.countP_le_length

end lists

section sym

variable [Field K] (kinds : Nat → Kind) (T : Nat → List I → K) (hk : ∀ t, (kinds t).Holds (T t))

/-- The links a spin block needs: neighbours of the same spin, at positions `off, ..., off + n - 1`. -/
def links (kinds : Nat → Kind) (t n off : Nat) : Prop := ∀ b < n + 1, ∀ k < n, k + 1 < n → (k + 1 + b < n ∨ n ≤ k + b) →
  (kinds (8 * (t / 8) + b)).links[off + k]? = some true

include hk

theorem spinT_first (t n : Nat) (h : links kinds t n 0) (l₁ l₂ m : List (I × Bool)) (x y : I × Bool)
    (hl : (l₁ ++ x :: y :: l₂).length = n) (hm : m.length = n) :
    spinT T t (l₁ ++ x :: y :: l₂ ++ m) = - spinT T t (l₁ ++ y :: x :: l₂ ++ m) := by
  have hl' : (l₁ ++ y :: x :: l₂).length = n := by simpa using hl
  have tk : ∀ l : List (I × Bool), l.length = n → (l ++ m).take ((l ++ m).length / 2) = l ∧
      (l ++ m).drop ((l ++ m).length / 2) = m := by
    intro l hl
    have e : (l ++ m).length / 2 = l.length := by rw [List.length_append]; omega
    rw [e]; simp
  unfold spinT
  rw [(tk _ hl).1, (tk _ hl).2, (tk _ hl').1, (tk _ hl').2, nb_adj l₁ l₂ x y]
  split
  · by_cases hs : x.2 = y.2
    · rw [inv_adj_same l₁ l₂ x y hs]
      obtain ⟨s₁, s₂, e1, e2, e3, e4⟩ := sortSpin_adj l₁ l₂ x y hs
      rw [e1, e2]
      have := (hk (8 * (t / 8) + nb (l₁ ++ x :: y :: l₂))).anti s₁ x.1 y.1 (s₂ ++ sortSpin m) (by
        have := h _ (Nat.lt_succ_of_le (hl ▸ nb_le _)) s₁.length (by omega) (by omega) (by omega)
        simpa using this)
      simp only [List.append_assoc, List.cons_append]
      rw [this]; ring
    · have := inv_adj_ne l₁ l₂ x y hs
      have c : ((-1 : K)) ^ inv (l₁ ++ y :: x :: l₂) = - (-1) ^ inv (l₁ ++ x :: y :: l₂) := by
        have := congrArg (fun z : ℤ => (z : K)) this
        simpa using this
      rw [sortSpin_adj_ne l₁ l₂ x y hs, pow_add, pow_add, c]; ring
  · simp

theorem spinT_last (t n : Nat) (h : links kinds t n n) (l₁ l₂ m : List (I × Bool)) (x y : I × Bool)
    (hl : (l₁ ++ x :: y :: l₂).length = n) (hm : m.length = n) :
    spinT T t (m ++ (l₁ ++ x :: y :: l₂)) = - spinT T t (m ++ (l₁ ++ y :: x :: l₂)) := by
  have hl' : (l₁ ++ y :: x :: l₂).length = n := by simpa using hl
  have tk : ∀ l : List (I × Bool), l.length = n → (m ++ l).take ((m ++ l).length / 2) = m ∧
      (m ++ l).drop ((m ++ l).length / 2) = l := by
    intro l hl
    have e : (m ++ l).length / 2 = m.length := by rw [List.length_append]; omega
    rw [e]; simp
  unfold spinT
  rw [(tk _ hl).1, (tk _ hl).2, (tk _ hl').1, (tk _ hl').2, nb_adj l₁ l₂ x y]
  split
  · next hb =>
    by_cases hs : x.2 = y.2
    · rw [inv_adj_same l₁ l₂ x y hs]
      obtain ⟨s₁, s₂, e1, e2, e3, e4⟩ := sortSpin_adj l₁ l₂ x y hs
      rw [e1, e2]
      have := (hk (8 * (t / 8) + nb m)).anti (sortSpin m ++ s₁) x.1 y.1 s₂ (by
        have := h _ (Nat.lt_succ_of_le (hl ▸ nb_le _)) s₁.length (by omega) (by omega) (by omega)
        rw [hb, List.length_append, length_sortSpin, hm]
        exact this)
      simp only [List.append_assoc] at this ⊢
      rw [this]; ring
    · have := inv_adj_ne l₁ l₂ x y hs
      have c : ((-1 : K)) ^ inv (l₁ ++ y :: x :: l₂) = - (-1) ^ inv (l₁ ++ x :: y :: l₂) := by
        have := congrArg (fun z : ℤ => (z : K)) this
        simpa using this
      rw [sortSpin_adj_ne l₁ l₂ x y hs, pow_add, pow_add, c]; ring
  · simp

theorem spinT_herm (t n : Nat) (h : ∀ b < n + 1, (kinds (8 * (t / 8) + b)).herm = true) (u v : List (I × Bool))
    (hu : u.length = n) (hv : v.length = n) : spinT T t (u ++ v) = spinT T t (v ++ u) := by
  have tk : ∀ l m : List (I × Bool), l.length = n → m.length = n → (l ++ m).take ((l ++ m).length / 2) = l ∧
      (l ++ m).drop ((l ++ m).length / 2) = m := by
    intro l m hl hm
    have e : (l ++ m).length / 2 = l.length := by rw [List.length_append]; omega
    rw [e]; simp
  unfold spinT
  rw [(tk u v hu hv).1, (tk u v hu hv).2, (tk v u hv hu).1, (tk v u hv hu).2]
  by_cases hb : nb u = nb v
  · rw [if_pos hb, if_pos hb.symm, hb, Nat.add_comm (inv u),
      (hk _).herm (h _ (Nat.lt_succ_of_le (hv ▸ nb_le v))) (sortSpin u) (sortSpin v)
        (by rw [length_sortSpin, length_sortSpin, hu, hv])]
  · rw [if_neg hb, if_neg (Ne.symm hb)]

end sym

instance (kinds : Nat → Kind) (t n off : Nat) : Decidable (links kinds t n off) := by unfold links; infer_instance

/-- The spin-orbital arrays made of symmetric spin blocks are symmetric. -/
theorem SI.Sym.so [Field K] {A : SI I K} (h : A.Sym) : A.so.Sym where
  f_herm p q := spinT_herm N.kinds A.T h.holds 15 1 (by decide) [p] [q] rfl rfl
  g_anti0 p q r s := spinT_first N.kinds A.T h.holds 23 2 (by decide) [] [] [r, s] p q rfl rfl
  g_anti2 p q r s := spinT_last N.kinds A.T h.holds 23 2 (by decide) [] [] [p, q] r s rfl rfl
  g_herm p q r s := spinT_herm N.kinds A.T h.holds 23 2 (by decide) [p, q] [r, s] rfl rfl
  t2_anti0 p q r s := spinT_first N.kinds A.T h.holds 39 2 (by decide) [] [] [r, s] p q rfl rfl
  t2_anti2 p q r s := spinT_last N.kinds A.T h.holds 39 2 (by decide) [] [] [p, q] r s rfl rfl
  t3_anti0 p q r s u v := spinT_first N.kinds A.T h.holds 47 3 (by decide) [] [r] [s, u, v] p q rfl rfl
  t3_anti1 p q r s u v := spinT_first N.kinds A.T h.holds 47 3 (by decide) [p] [] [s, u, v] q r rfl rfl
  t3_anti3 p q r s u v := spinT_last N.kinds A.T h.holds 47 3 (by decide) [] [v] [p, q, r] s u rfl rfl
  t3_anti4 p q r s u v := spinT_last N.kinds A.T h.holds 47 3 (by decide) [s] [] [p, q, r] u v rfl rfl
  t4_anti0 p q r s u v w z := spinT_first N.kinds A.T h.holds 55 4 (by decide) [] [r, s] [u, v, w, z] p q rfl rfl
  t4_anti1 p q r s u v w z := spinT_first N.kinds A.T h.holds 55 4 (by decide) [p] [s] [u, v, w, z] q r rfl rfl
  t4_anti2 p q r s u v w z := spinT_first N.kinds A.T h.holds 55 4 (by decide) [p, q] [] [u, v, w, z] r s rfl rfl
  t4_anti4 p q r s u v w z := spinT_last N.kinds A.T h.holds 55 4 (by decide) [] [w, z] [p, q, r, s] u v rfl rfl
  t4_anti5 p q r s u v w z := spinT_last N.kinds A.T h.holds 55 4 (by decide) [u] [z] [p, q, r, s] v w rfl rfl
  t4_anti6 p q r s u v w z := spinT_last N.kinds A.T h.holds 55 4 (by decide) [u, v] [] [p, q, r, s] w z rfl rfl
  l2_anti0 p q r s := spinT_first N.kinds A.T h.holds 71 2 (by decide) [] [] [r, s] p q rfl rfl
  l2_anti2 p q r s := spinT_last N.kinds A.T h.holds 71 2 (by decide) [] [] [p, q] r s rfl rfl
  l3_anti0 p q r s u v := spinT_first N.kinds A.T h.holds 79 3 (by decide) [] [r] [s, u, v] p q rfl rfl
  l3_anti1 p q r s u v := spinT_first N.kinds A.T h.holds 79 3 (by decide) [p] [] [s, u, v] q r rfl rfl
  l3_anti3 p q r s u v := spinT_last N.kinds A.T h.holds 79 3 (by decide) [] [v] [p, q, r] s u rfl rfl
  l3_anti4 p q r s u v := spinT_last N.kinds A.T h.holds 79 3 (by decide) [s] [] [p, q, r] u v rfl rfl
  l4_anti0 _ _ _ _ _ _ _ _ := neg_zero.symm
  l4_anti1 _ _ _ _ _ _ _ _ := neg_zero.symm
  l4_anti2 _ _ _ _ _ _ _ _ := neg_zero.symm
  l4_anti4 _ _ _ _ _ _ _ _ := neg_zero.symm
  l4_anti5 _ _ _ _ _ _ _ _ := neg_zero.symm
  l4_anti6 _ _ _ _ _ _ _ _ := neg_zero.symm

/-- Spin projection: 0 for alpha, 1 for beta. -/
def spinOf (p : I × Bool) : ℤ := if p.2 then 1 else 0

theorem chargeSum_spin (l : List (I × Bool)) : chargeSum spinOf l = nb l := by
  induction l with
  | nil => rfl
  | cons x l ih =>
    simp only [chargeSum, nb, List.map_cons, List.sum_cons, List.countP_cons] at ih ⊢
    rw [ih]
    cases hx : x.2 <;> simp [spinOf, hx, add_comm]

/-- The spin-orbital arrays made of spin blocks conserve spin. -/
theorem SI.so_balanced [Field K] (A : SI I K) (t : Nat) (l : List (I × Bool)) (h : A.so.T t l ≠ 0) :
    Balanced spinOf l := by
  have s : ∀ u, spinT A.T u l ≠ 0 → Balanced spinOf l := by
    intro u hu
    unfold spinT at hu
    split at hu
    · next e => rw [Balanced, chargeSum_spin, chargeSum_spin]; exact_mod_cast e
    · exact absurd rfl hu
  unfold SO.T at h
  split_ifs at h <;>
  first
  | exact absurd rfl h
  | (unfold at2 at h; split at h; (exact s _ h); exact absurd rfl h)
  | (unfold at4 at h; split at h; (exact s _ h); exact absurd rfl h)
  | (unfold at6 at h; split at h; (exact s _ h); exact absurd rfl h)
  | (unfold at8 at h; split at h; (exact s _ h); exact absurd rfl h)
  | (unfold at8 at h; split at h <;> exact absurd rfl h)

end Verif.Ein
