import Verif.Cert.AntiDq
import Verif.Cert.AntiT4_0a
import Verif.Cert.AntiT4_0b
import Verif.Cert.AntiT4_1a
import Verif.Cert.AntiT4_1b
import Verif.Cert.AntiT4_2
import Verif.Cert.FlipT4_0
import Verif.Cert.FlipT4_1
import Verif.Cert.FlipT4_2
import Verif.Fn.All
import Verif.Props.SpinCc
import Verif.Props.SpinFlip

/-!
# Symmetry of the residuals with connected quadruples (C87)

The residual blocks of `UT2/ccdq_resids.py` have the antisymmetry of the amplitudes, and the exchange of alpha and beta spin
turns the blocks into each other. For the quadruples this holds for the coefficients as they are printed, `1.00000000000001` included.
-/

namespace Verif.Props

open Verif.Ein Verif.UT2

variable {I K : Type} [Field K] [CharZero K] [Inhabited I] (D : Nat → Finset I)

/-! ## doubles -/

/-- Antisymmetry of the spin-orbital doubles residual. -/
theorem C87_ccdq_t2 (A : SO I K) (hA : A.Sym) : Anti4 fun a b i j => ccdq_t2eqns D A i j a b := by
  have h := anti4_of_isZero D A.T hA.holds Cert.ccdq_t2_anti0 Cert.ccdq_t2_anti1 (by decide +kernel) rfl
  have e : (fun a b i j => (Prog.outs [2, 3, 0, 1] Gen.ccdq_t2eqns).eval D A.T [a, b, i, j]) = fun a b i j => ccdq_t2eqns D A i j a b := by
    funext a b i j
    rw [Prog.eval_outs' D A.T 4 [2, 3, 0, 1] (by decide) _ (by decide +kernel) [a, b, i, j] rfl]
    rfl
  rwa [e] at h

/-- Antisymmetry of the same-spin doubles residuals. -/
theorem C87_doubles_antisymmetry (A : SI I K) (hA : A.Sym) : Anti4 (ccdq_t2_aaaa D A) ∧ Anti4 (ccdq_t2_bbbb D A) := by
  have h := C87_ccdq_t2 (spinD D) A.so hA.so
  refine ⟨⟨fun a b i j => ?_, fun a b i j => ?_⟩, ⟨fun a b i j => ?_, fun a b i j => ?_⟩⟩ <;>
    simp only [C64_ccdq_t2_aaaa D A hA, C64_ccdq_t2_bbbb D A hA]
  exacts [h.first _ _ _ _, h.last _ _ _ _, h.first _ _ _ _, h.last _ _ _ _]

/-- The doubles residuals with exchanged spins. -/
theorem C87_doubles_flip (A : SI I K) (hA : A.Sym) (a b i j : I) :
    ccdq_t2_aaaa D A.flip a b i j = ccdq_t2_bbbb D A a b i j ∧ ccdq_t2_bbbb D A.flip a b i j = ccdq_t2_aaaa D A a b i j ∧
    ccdq_t2_abab D A.flip a b i j = ccdq_t2_abab D A b a j i := by
  have e : ∀ p q r s, ccdq_t2eqns (spinD D) A.flip.so p q r s = ccdq_t2eqns (spinD D) A.so (flipS p) (flipS q) (flipS r) (flipS s) :=
    fun p q r s => SI.flip_eval D A 4 Gen.ccdq_t2eqns (by decide +kernel) (by decide +kernel) [p, q, r, s] rfl
  have h := C87_ccdq_t2 (spinD D) A.so hA.so
  rw [C64_ccdq_t2_aaaa D A.flip hA.flip, C64_ccdq_t2_bbbb D A.flip hA.flip, C64_ccdq_t2_abab D A.flip hA.flip,
    C64_ccdq_t2_aaaa D A hA, C64_ccdq_t2_bbbb D A hA, C64_ccdq_t2_abab D A hA]
  simp only [e, flipS, Bool.not_true, Bool.not_false, true_and]
  have h1 := h.first (b, false) (a, true) (i, true) (j, false)
  have h2 := h.last (b, false) (a, true) (j, false) (i, true)
  rw [h1, h2, neg_neg]

/-! ## quadruples -/

/-- The entries change sign when orbitals at the positions 0 and 1 of a half are exchanged, if `x` is true, at 1 and 2, if `y` is
true, and at 2 and 3, if `z` is true. -/
structure Anti8 {V O K : Type} [Neg K] (x y z : Bool) (h : V → V → V → V → O → O → O → O → K) : Prop where
  v0 : x = true → ∀ a b c d i j k l, h b a c d i j k l = - h a b c d i j k l
  v1 : y = true → ∀ a b c d i j k l, h a c b d i j k l = - h a b c d i j k l
  v2 : z = true → ∀ a b c d i j k l, h a b d c i j k l = - h a b c d i j k l
  o0 : x = true → ∀ a b c d i j k l, h a b c d j i k l = - h a b c d i j k l
  o1 : y = true → ∀ a b c d i j k l, h a b c d i k j l = - h a b c d i j k l
  o2 : z = true → ∀ a b c d i j k l, h a b c d i j l k = - h a b c d i j k l

omit [CharZero K] [Inhabited I] in
/-- A cycle of three and an exchange with the fourth give all exchanges. -/
theorem cycle_last (r : I → I → I → I → K) (C : ∀ a b c d, r b c a d = r a b c d) (S : ∀ a b c d, r a b d c = - r a b c d) :
    (∀ a b c d, r b a c d = - r a b c d) ∧ ∀ a b c d, r a c b d = - r a b c d := by
  have m : ∀ a b c d, r a d c b = - r a b c d := fun a b c d => by rw [← C a d c b, ← C d c a b, S c a b d, ← C a b c d, ← C b c a d]
  have h1 : ∀ a b c d, r a c b d = - r a b c d := fun a b c d => by rw [← m a c b d |> neg_eq_iff_eq_neg.2, S a d c b, neg_neg, m a b c d]
  exact ⟨fun a b c d => by rw [← C b a c d, h1 a b c d], h1⟩

omit [CharZero K] [Inhabited I] in
/-- A cycle of three and the exchange of the first two. -/
theorem cycle_first (r : I → I → I → K) (C : ∀ a b c, r b c a = r a b c) (S : ∀ a b c, r b a c = - r a b c) (a b c : I) :
    r a c b = - r a b c := by rw [← C a c b, S b c a, C]

/-- Antisymmetry of the quadruples residual `aaaaaaaa`. -/
theorem t4_aaaaaaaa_anti (A : SI I K) (hA : A.Sym) : Anti8 true true true (ccdq_t4_aaaaaaaa D A) := by
  have x : ∀ a b c d i j k l, ccdq_t4_aaaaaaaa D A b c a d i j l k = - ccdq_t4_aaaaaaaa D A a b c d i j k l := fun a b c d i j k l =>
    eval_anti_of_isZero D A.T N.kinds hA.holds _ 8 _ [1, 2, 0, 3, 4, 5, 7, 6] _ _ Cert.ccdq_t4_aaaaaaaa_anti0 (by decide) (by decide +kernel)
      [a, b, c, d, i, j, k, l] rfl rfl
  have y : ∀ a b c d i j k l, ccdq_t4_aaaaaaaa D A a b d c j k i l = - ccdq_t4_aaaaaaaa D A a b c d i j k l := fun a b c d i j k l =>
    eval_anti_of_isZero D A.T N.kinds hA.holds _ 8 _ [0, 1, 3, 2, 5, 6, 4, 7] _ _ Cert.ccdq_t4_aaaaaaaa_anti1 (by decide) (by decide +kernel)
      [a, b, c, d, i, j, k, l] rfl rfl
  generalize ccdq_t4_aaaaaaaa D A = r at x y
  have s1 : ∀ a b c d i j k l, r a b c d i j l k = - r a b c d i j k l := fun a b c d i j k l => by
    rw [x c a b d, x b c a d, x a b c d]; ring
  have c1 : ∀ a b c d i j k l, r b c a d i j k l = r a b c d i j k l := fun a b c d i j k l => by rw [x, s1]; ring
  have s2 : ∀ a b c d i j k l, r a b d c i j k l = - r a b c d i j k l := fun a b c d i j k l => by
    rw [y _ _ _ _ k i j, y _ _ _ _ j k i, y _ _ _ _ i j k]; ring
  have c2 : ∀ a b c d i j k l, r a b c d j k i l = r a b c d i j k l := fun a b c d i j k l => by rw [y, s2]; ring
  exact
    { v0 := fun _ a b c d i j k l => (cycle_last (fun a b c d => r a b c d i j k l) (fun _ _ _ _ => c1 ..) (fun _ _ _ _ => s2 ..)).1 a b c d
      v1 := fun _ a b c d i j k l => (cycle_last (fun a b c d => r a b c d i j k l) (fun _ _ _ _ => c1 ..) (fun _ _ _ _ => s2 ..)).2 a b c d
      v2 := fun _ => s2
      o0 := fun _ a b c d i j k l => (cycle_last (fun i j k l => r a b c d i j k l) (fun _ _ _ _ => c2 ..) (fun _ _ _ _ => s1 ..)).1 i j k l
      o1 := fun _ a b c d i j k l => (cycle_last (fun i j k l => r a b c d i j k l) (fun _ _ _ _ => c2 ..) (fun _ _ _ _ => s1 ..)).2 i j k l
      o2 := fun _ => s1 }

/-- Antisymmetry of the quadruples residual `aaabaaab`. -/
theorem t4_aaabaaab_anti (A : SI I K) (hA : A.Sym) : Anti8 true true false (ccdq_t4_aaabaaab D A) := by
  have x : ∀ a b c d i j k l, ccdq_t4_aaabaaab D A b c a d j i k l = - ccdq_t4_aaabaaab D A a b c d i j k l := fun a b c d i j k l =>
    eval_anti_of_isZero D A.T N.kinds hA.holds _ 8 _ [1, 2, 0, 3, 5, 4, 6, 7] _ _ Cert.ccdq_t4_aaabaaab_anti0 (by decide) (by decide +kernel)
      [a, b, c, d, i, j, k, l] rfl rfl
  have y : ∀ a b c d i j k l, ccdq_t4_aaabaaab D A b a c d j k i l = - ccdq_t4_aaabaaab D A a b c d i j k l := fun a b c d i j k l =>
    eval_anti_of_isZero D A.T N.kinds hA.holds _ 8 _ [1, 0, 2, 3, 5, 6, 4, 7] _ _ Cert.ccdq_t4_aaabaaab_anti1 (by decide) (by decide +kernel)
      [a, b, c, d, i, j, k, l] rfl rfl
  generalize ccdq_t4_aaabaaab D A = r at x y
  have s1 : ∀ a b c d i j k l, r a b c d j i k l = - r a b c d i j k l := fun a b c d i j k l => by
    rw [x c a b d, x b c a d, x a b c d]; ring
  have c1 : ∀ a b c d i j k l, r b c a d i j k l = r a b c d i j k l := fun a b c d i j k l => by rw [x, s1]; ring
  have s2 : ∀ a b c d i j k l, r b a c d i j k l = - r a b c d i j k l := fun a b c d i j k l => by
    rw [y _ _ _ _ k i j, y _ _ _ _ j k i, y _ _ _ _ i j k]; ring
  have c2 : ∀ a b c d i j k l, r a b c d j k i l = r a b c d i j k l := fun a b c d i j k l => by rw [y, s2]; ring
  exact
    { v0 := fun _ => s2
      v1 := fun _ a b c d i j k l => cycle_first (fun a b c => r a b c d i j k l) (fun _ _ _ => c1 ..) (fun _ _ _ => s2 ..) a b c
      v2 := fun h => absurd h (by decide)
      o0 := fun _ => s1
      o1 := fun _ a b c d i j k l => cycle_first (fun i j k => r a b c d i j k l) (fun _ _ _ => c2 ..) (fun _ _ _ => s1 ..) i j k
      o2 := fun h => absurd h (by decide) }

/-! ## quadruples with exchanged spins -/

theorem t4_aaaaaaaa_flip (A : SI I K) (hA : A.Sym) (a b c d i j k l : I) :
    ccdq_t4_aaaaaaaa D A.flip a b c d i j k l = ccdq_t4_bbbbbbbb D A a b c d i j k l := by
  have h := eval_eq_of_isZero D A.T N.kinds hA.holds _ _ _ _ _ Cert.ccdq_t4_aaaaaaaa_flip [a, b, c, d, i, j, k, l] rfl
  rw [Prog.eval_flip D A _ (by decide +kernel), Prog.eval_outs' D A.T 8 _ (by decide) _ (by decide +kernel) _ rfl] at h
  exact h

theorem t4_aaabaaab_flip (A : SI I K) (hA : A.Sym) (a b c d i j k l : I) :
    ccdq_t4_aaabaaab D A.flip a b c d i j k l = ccdq_t4_abbbabbb D A d a b c l i j k := by
  have h := eval_eq_of_isZero D A.T N.kinds hA.holds _ _ _ _ _ Cert.ccdq_t4_aaabaaab_flip [a, b, c, d, i, j, k, l] rfl
  rw [Prog.eval_flip D A _ (by decide +kernel), Prog.eval_outs' D A.T 8 _ (by decide) _ (by decide +kernel) _ rfl] at h
  exact h

theorem t4_aabbaabb_flip (A : SI I K) (hA : A.Sym) (a b c d i j k l : I) :
    ccdq_t4_aabbaabb D A.flip a b c d i j k l = ccdq_t4_aabbaabb D A c d a b k l i j := by
  have h := eval_eq_of_isZero D A.T N.kinds hA.holds _ _ _ _ _ Cert.ccdq_t4_aabbaabb_flip [a, b, c, d, i, j, k, l] rfl
  rw [Prog.eval_flip D A _ (by decide +kernel), Prog.eval_outs' D A.T 8 _ (by decide) _ (by decide +kernel) _ rfl] at h
  exact h

/-- **C87** The quadruples residuals with exchanged spins. -/
theorem C87_quadruples_flip (A : SI I K) (hA : A.Sym) (a b c d i j k l : I) :
    ccdq_t4_aaaaaaaa D A.flip a b c d i j k l = ccdq_t4_bbbbbbbb D A a b c d i j k l ∧
    ccdq_t4_aaabaaab D A.flip a b c d i j k l = ccdq_t4_abbbabbb D A d a b c l i j k ∧
    ccdq_t4_aabbaabb D A.flip a b c d i j k l = ccdq_t4_aabbaabb D A c d a b k l i j ∧
    ccdq_t4_abbbabbb D A.flip a b c d i j k l = ccdq_t4_aaabaaab D A b c d a j k l i ∧
    ccdq_t4_bbbbbbbb D A.flip a b c d i j k l = ccdq_t4_aaaaaaaa D A a b c d i j k l := by
  refine ⟨t4_aaaaaaaa_flip D A hA .., t4_aaabaaab_flip D A hA .., t4_aabbaabb_flip D A hA .., ?_, ?_⟩
  · rw [← t4_aaabaaab_flip D A.flip hA.flip, SI.flip_flip]
  · rw [← t4_aaaaaaaa_flip D A.flip hA.flip, SI.flip_flip]

/-- **C87** The quadruples residuals change sign when two orbitals of the same spin are exchanged. -/
theorem C87_quadruples_antisymmetry (A : SI I K) (hA : A.Sym) :
    Anti8 true true true (ccdq_t4_aaaaaaaa D A) ∧ Anti8 true true false (ccdq_t4_aaabaaab D A) ∧
    Anti8 true false true (ccdq_t4_aabbaabb D A) ∧ Anti8 false true true (ccdq_t4_abbbabbb D A) ∧
    Anti8 true true true (ccdq_t4_bbbbbbbb D A) := by
  refine ⟨t4_aaaaaaaa_anti D A hA, t4_aaabaaab_anti D A hA, ?_, ?_, ?_⟩
  · have x : ∀ A : SI I K, A.Sym → ∀ a b c d i j k l, ccdq_t4_aabbaabb D A b a c d i j k l = - ccdq_t4_aabbaabb D A a b c d i j k l :=
      fun A hA a b c d i j k l =>
        eval_anti_of_isZero D A.T N.kinds hA.holds _ 8 _ [1, 0, 2, 3, 4, 5, 6, 7] _ _ Cert.ccdq_t4_aabbaabb_anti0 (by decide) (by decide +kernel)
          [a, b, c, d, i, j, k, l] rfl rfl
    have y : ∀ A : SI I K, A.Sym → ∀ a b c d i j k l, ccdq_t4_aabbaabb D A a b c d j i k l = - ccdq_t4_aabbaabb D A a b c d i j k l :=
      fun A hA a b c d i j k l =>
        eval_anti_of_isZero D A.T N.kinds hA.holds _ 8 _ [0, 1, 2, 3, 5, 4, 6, 7] _ _ Cert.ccdq_t4_aabbaabb_anti1 (by decide) (by decide +kernel)
          [a, b, c, d, i, j, k, l] rfl rfl
    have f := t4_aabbaabb_flip D A hA
    exact
      { v0 := fun _ => x A hA
        v1 := fun h => absurd h (by decide)
        v2 := fun _ a b c d i j k l => by rw [← f, ← f, x A.flip hA.flip]
        o0 := fun _ => y A hA
        o1 := fun h => absurd h (by decide)
        o2 := fun _ a b c d i j k l => by rw [← f, ← f, y A.flip hA.flip] }
  · have f : ∀ a b c d i j k l, ccdq_t4_abbbabbb D A a b c d i j k l = ccdq_t4_aaabaaab D A.flip b c d a j k l i := fun a b c d i j k l =>
      (t4_aaabaaab_flip D A hA ..).symm
    have h := t4_aaabaaab_anti D A.flip hA.flip
    exact
      { v0 := fun h => absurd h (by decide)
        v1 := fun _ a b c d i j k l => by rw [f, f]; exact h.v0 rfl ..
        v2 := fun _ a b c d i j k l => by rw [f, f]; exact h.v1 rfl ..
        o0 := fun h => absurd h (by decide)
        o1 := fun _ a b c d i j k l => by rw [f, f]; exact h.o0 rfl ..
        o2 := fun _ a b c d i j k l => by rw [f, f]; exact h.o1 rfl .. }
  · have f : ccdq_t4_bbbbbbbb D A = ccdq_t4_aaaaaaaa D A.flip := by
      funext a b c d i j k l
      exact (t4_aaaaaaaa_flip D A hA ..).symm
    rw [f]
    exact t4_aaaaaaaa_anti D A.flip hA.flip

end Verif.Props
