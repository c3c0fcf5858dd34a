import Verif.Ein.SpinArrays
import Mathlib.Tactic.Ring

/-!
# A spin-orbital tensor from its canonical blocks

A tensor on spin orbitals that is antisymmetric in each half of its axes is fixed by the blocks in which the alpha indices
come first, wherever the two halves have the same number of beta indices.
-/

namespace Verif.Ein

variable {α K : Type} [Field K]

/-- The indices with alpha spin, then those with beta spin, each with its spin. -/
def sortB (l : List (α × Bool)) : List (α × Bool) := l.filter (fun x => !x.2) ++ l.filter (·.2)

theorem swap_past {β : Type} (f : List β → K) (hf : ∀ u x y v, f (u ++ x :: y :: v) = - f (u ++ y :: x :: v)) (x : β) :
    ∀ m u v, f (u ++ x :: (m ++ v)) = (-1) ^ m.length * f (u ++ m ++ x :: v) := by
  intro m
  induction m with
  | nil => intro u v; simp
  | cons y m ih =>
    intro u v
    rw [List.cons_append, hf]
    have := ih (u ++ [y]) v
    simp only [List.append_assoc, List.cons_append, List.nil_append] at this ⊢
    rw [this, List.length_cons, pow_succ]
    ring

theorem sort_sign (f : List (α × Bool) → K) (hf : ∀ u x y v, f (u ++ x :: y :: v) = - f (u ++ y :: x :: v)) :
    ∀ l p, f (p ++ l) = (-1) ^ inv l * f (p ++ sortB l) := by
  intro l
  induction l with
  | nil => intro p; simp [inv, sortB]
  | cons x l ih =>
    intro p
    have h := ih (p ++ [x])
    simp only [List.append_assoc, List.cons_append, List.nil_append] at h
    rw [h]
    cases hx : x.2
    · simp [inv, sortB, hx]
    · rw [sortB, swap_past f hf x _ p]
      simp only [inv, sortB, hx, if_true, List.filter_cons, Bool.not_true, List.append_assoc, Bool.false_eq_true, if_false,
        List.countP_eq_length_filter]
      rw [← mul_assoc, ← pow_add, add_comm]

theorem sort4 (l : List (α × Bool)) (hl : l.length = 4) : ∃ a b c d, sortSpin l = [a, b, c, d] ∧
    ((nb l = 0 ∧ sortB l = [(a, false), (b, false), (c, false), (d, false)]) ∨
     (nb l = 1 ∧ sortB l = [(a, false), (b, false), (c, false), (d, true)]) ∨
     (nb l = 2 ∧ sortB l = [(a, false), (b, false), (c, true), (d, true)]) ∨
     (nb l = 3 ∧ sortB l = [(a, false), (b, true), (c, true), (d, true)]) ∨
     (nb l = 4 ∧ sortB l = [(a, true), (b, true), (c, true), (d, true)])) := by
  rcases l with _ | ⟨⟨a, p⟩, _ | ⟨⟨b, q⟩, _ | ⟨⟨c, r⟩, _ | ⟨⟨d, s⟩, _ | ⟨x, l⟩⟩⟩⟩⟩ <;> simp at hl
  cases p <;> cases q <;> cases r <;> cases s <;> simp [sortSpin, sortB, nb]

/-- The array changes sign when neighbouring indices of one half are exchanged. -/
structure Anti8 {J : Type} (M : J → J → J → J → J → J → J → J → K) : Prop where
  ab : ∀ a b c d i j k l, M a b c d i j k l = - M b a c d i j k l
  bc : ∀ a b c d i j k l, M a b c d i j k l = - M a c b d i j k l
  cd : ∀ a b c d i j k l, M a b c d i j k l = - M a b d c i j k l
  ij : ∀ a b c d i j k l, M a b c d i j k l = - M a b c d j i k l
  jk : ∀ a b c d i j k l, M a b c d i j k l = - M a b c d i k j l
  kl : ∀ a b c d i j k l, M a b c d i j k l = - M a b c d i j l k

theorem at4_swap {J : Type} (h : J → J → J → J → K) (h0 : ∀ a b c d, h a b c d = - h b a c d)
    (h1 : ∀ a b c d, h a b c d = - h a c b d) (h2 : ∀ a b c d, h a b c d = - h a b d c) (u : List J) (x y : J) (v : List J) :
    at4 h (u ++ x :: y :: v) = - at4 h (u ++ y :: x :: v) := by
  by_cases hl : (u ++ x :: y :: v).length = 4
  · simp only [List.length_append, List.length_cons] at hl
    rcases u with _ | ⟨a, _ | ⟨b, _ | ⟨c, u⟩⟩⟩
    · rcases v with _ | ⟨c, _ | ⟨d, _ | ⟨e, v⟩⟩⟩ <;> simp at hl
      exact h0 x y c d
    · rcases v with _ | ⟨c, _ | ⟨d, v⟩⟩
      · simp at hl
      · exact h1 a x y c
      · simp at hl; omega
    · rcases v with _ | ⟨c, v⟩
      · exact h2 a b x y
      · simp at hl; omega
    · simp at hl; omega
  · rw [at4_ne _ _ hl, at4_ne _ _ (by simpa using hl), neg_zero]

/-- The blocks of `A` with four upper and four lower indices are those of `M`. -/
structure SI.Blocks4 {I : Type} (A : SI I K) (M : I × Bool → I × Bool → I × Bool → I × Bool → I × Bool → I × Bool → I × Bool → I × Bool → K) :
    Prop where
  aaaa : ∀ a b c d i j k l, A.t4_aaaaaaaa a b c d i j k l =
    M (a, false) (b, false) (c, false) (d, false) (i, false) (j, false) (k, false) (l, false)
  aaab : ∀ a b c d i j k l, A.t4_aaabaaab a b c d i j k l =
    M (a, false) (b, false) (c, false) (d, true) (i, false) (j, false) (k, false) (l, true)
  aabb : ∀ a b c d i j k l, A.t4_aabbaabb a b c d i j k l =
    M (a, false) (b, false) (c, true) (d, true) (i, false) (j, false) (k, true) (l, true)
  abbb : ∀ a b c d i j k l, A.t4_abbbabbb a b c d i j k l =
    M (a, false) (b, true) (c, true) (d, true) (i, false) (j, true) (k, true) (l, true)
  bbbb : ∀ a b c d i j k l, A.t4_bbbbbbbb a b c d i j k l =
    M (a, true) (b, true) (c, true) (d, true) (i, true) (j, true) (k, true) (l, true)

/-- Where upper and lower indices have the same number of beta spins, the spin-orbital form of the blocks is the tensor. -/
theorem SI.Blocks4.so {I : Type} {A : SI I K} {M : I × Bool → I × Bool → I × Bool → I × Bool → I × Bool → I × Bool → I × Bool → I × Bool → K}
    (hA : A.Blocks4 M) (hM : Anti8 M) (a b c d i j k l : I × Bool) (h : nb [a, b, c, d] = nb [i, j, k, l]) :
    A.so.t4 a b c d i j k l = M a b c d i j k l := by
  have e : A.so.t4 a b c d i j k l = if nb [a, b, c, d] = nb [i, j, k, l] then
    (-1) ^ (inv [a, b, c, d] + inv [i, j, k, l]) * A.T (48 + nb [a, b, c, d]) (sortSpin [a, b, c, d] ++ sortSpin [i, j, k, l])
    else 0 := by simp [SI.so, spinT]
  rw [e, if_pos h]
  have s1 : ∀ i j k l, at4 (fun a b c d => M a b c d i j k l) [a, b, c, d] = _ := fun i j k l => sort_sign _
    (at4_swap _ (fun a b c d => hM.ab a b c d i j k l) (fun a b c d => hM.bc a b c d i j k l)
      (fun a b c d => hM.cd a b c d i j k l)) [a, b, c, d] []
  have s2 : ∀ a b c d, at4 (M a b c d) [i, j, k, l] = _ := fun a b c d => sort_sign _
    (at4_swap _ (fun i j k l => hM.ij a b c d i j k l) (fun i j k l => hM.jk a b c d i j k l)
      (fun i j k l => hM.kl a b c d i j k l)) [i, j, k, l] []
  simp only [List.nil_append] at s1 s2
  obtain ⟨a', b', c', d', p, hp⟩ := sort4 [a, b, c, d] rfl
  obtain ⟨i', j', k', l', q, hq⟩ := sort4 [i, j, k, l] rfl
  rw [p, q]
  have m : M a b c d i j k l = (-1) ^ inv [a, b, c, d] * at4 (fun a b c d => M a b c d i j k l) (sortB [a, b, c, d]) :=
    s1 i j k l
  have m' : ∀ a b c d, M a b c d i j k l = (-1) ^ inv [i, j, k, l] * at4 (M a b c d) (sortB [i, j, k, l]) :=
    fun a b c d => s2 a b c d
  rw [m, pow_add]
  rcases hp with ⟨n, hp⟩ | ⟨n, hp⟩ | ⟨n, hp⟩ | ⟨n, hp⟩ | ⟨n, hp⟩ <;> rw [hp] <;> rw [n] at h ⊢ <;>
    rcases hq with ⟨n', hq⟩ | ⟨n', hq⟩ | ⟨n', hq⟩ | ⟨n', hq⟩ | ⟨n', hq⟩ <;> rw [n'] at h <;>
    first | exact absurd h (by decide) | skip
  · show _ = _ * M _ _ _ _ i j k l
    rw [m', hq, mul_assoc]
    exact congrArg (fun x => _ * (_ * x)) (hA.aaaa a' b' c' d' i' j' k' l')
  · show _ = _ * M _ _ _ _ i j k l
    rw [m', hq, mul_assoc]
    exact congrArg (fun x => _ * (_ * x)) (hA.aaab a' b' c' d' i' j' k' l')
  · show _ = _ * M _ _ _ _ i j k l
    rw [m', hq, mul_assoc]
    exact congrArg (fun x => _ * (_ * x)) (hA.aabb a' b' c' d' i' j' k' l')
  · show _ = _ * M _ _ _ _ i j k l
    rw [m', hq, mul_assoc]
    exact congrArg (fun x => _ * (_ * x)) (hA.abbb a' b' c' d' i' j' k' l')
  · show _ = _ * M _ _ _ _ i j k l
    rw [m', hq, mul_assoc]
    exact congrArg (fun x => _ * (_ * x)) (hA.bbbb a' b' c' d' i' j' k' l')

end Verif.Ein
