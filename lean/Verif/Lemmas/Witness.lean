import Verif.Ein.Flip
import Mathlib.Tactic.Ring
import Mathlib.Tactic.NormNum
import Mathlib.Algebra.Ring.Rat
import Mathlib.Algebra.Field.Rat

/-!
# Concrete arrays

Arrays with all required symmetries and no zero entries to speak of, used to show that hypotheses of the property
theorems can be met: orbitals are natural numbers, 0 and 1 occupied, 2 and 3 virtual.
-/

namespace Verif.Witness

open Verif.Ein

/-- Occupied orbitals 0, 1; virtual orbitals 2, 3. -/
def D : Nat → Finset ℕ
  | 0 => {0, 1}
  | _ => {2, 3}

/-- An orbital as a number. -/
def z (p : ℕ) : ℚ := (p : ℚ) + 1

/-- Three occupied and three virtual orbitals. -/
def D33 : Nat → Finset ℕ
  | 0 => {0, 1, 2}
  | _ => {3, 4, 5}

/-- Vandermonde products. -/
def v2 (p q : ℚ) : ℚ := p - q
def v3 (p q r : ℚ) : ℚ := (p - q) * (p - r) * (q - r)
def v4 (p q r s : ℚ) : ℚ := (p - q) * (p - r) * (p - s) * (q - r) * (q - s) * (r - s)

/-- Spin-orbital arrays. -/
def so : SO ℕ ℚ where
  f p q := z p * z q
  g p q r s := v2 (z p) (z q) * v2 (z r) (z s) * (1 + (z p + z q) * (z r + z s) + z p * z q * z r * z s)
  t1 a i := z a + z i + z a * z a * z i * z i
  t2 a b i j := v2 (z a) (z b) * v2 (z i) (z j) * (2 + z a * z b * (z i + z j) + z i * z j)
  t3 a b c i j k := v3 (z a) (z b) (z c) * v3 (z i) (z j) (z k)
  t4 a b c d i j k l := v4 (z a) (z b) (z c) (z d) * v4 (z i) (z j) (z k) (z l)
  l1 i a := z a + z i + z a * z a * z i * z i
  l2 i j a b := v2 (z a) (z b) * v2 (z i) (z j) * (2 + z a * z b * (z i + z j) + z i * z j)
  l3 i j k a b c := v3 (z a) (z b) (z c) * v3 (z i) (z j) (z k)

theorem so_sym : so.Sym := by
  constructor <;> intros <;> simp only [so, v2, v3, v4] <;> ring

/-- Spin-integrated arrays. -/
def si : SI ℕ ℚ where
  f_aa p q := z p * z q
  f_bb p q := z p + z q
  g_aaaa p q r s := v2 (z p) (z q) * v2 (z r) (z s)
  g_abab p q r s := z p * z q * z r * z s + z p * z r
  g_bbbb p q r s := 2 * v2 (z p) (z q) * v2 (z r) (z s)
  t1_aa a i := z a + z i
  t1_bb a i := z a * z i
  t2_aaaa a b i j := v2 (z a) (z b) * v2 (z i) (z j)
  t2_abab a b i j := z a + 2 * z b + z i * z j
  t2_bbbb a b i j := 3 * v2 (z a) (z b) * v2 (z i) (z j)
  l2_aaaa i j a b := v2 (z a) (z b) * v2 (z i) (z j)
  l2_abab i j a b := z a + 2 * z b + z i * z j
  l2_bbbb i j a b := 3 * v2 (z a) (z b) * v2 (z i) (z j)
  t3_aaaaaa a b c i j k := v3 (z a) (z b) (z c) * v3 (z i) (z j) (z k)
  t3_aabaab a b c i j k := v2 (z a) (z b) * z c * v2 (z i) (z j) * z k
  t3_abbabb a b c i j k := v2 (z b) (z c) * z a * v2 (z j) (z k) * z i
  t3_bbbbbb a b c i j k := v3 (z a) (z b) (z c) * v3 (z i) (z j) (z k)
  t4_aaaaaaaa a b c d i j k l := v4 (z a) (z b) (z c) (z d) * v4 (z i) (z j) (z k) (z l)
  t4_aaabaaab a b c d i j k l := v3 (z a) (z b) (z c) * z d * v3 (z i) (z j) (z k) * z l
  t4_aabbaabb a b c d i j k l := v2 (z a) (z b) * v2 (z c) (z d) * v2 (z i) (z j) * v2 (z k) (z l)
  t4_abbbabbb a b c d i j k l := v3 (z b) (z c) (z d) * z a * v3 (z j) (z k) (z l) * z i
  t4_bbbbbbbb a b c d i j k l := v4 (z a) (z b) (z c) (z d) * v4 (z i) (z j) (z k) (z l)

theorem si_sym : si.Sym := by
  constructor <;> intros <;> simp only [si, v2, v3, v4] <;> ring

/-- Blocks of the mixed-spin arrays of a closed-shell system. -/
def gab (p q r s : ℕ) : ℚ := (z p + z r) * (z q + z s) + z p * z q * z r * z s
def tab (a b i j : ℕ) : ℚ := (z a + 2 * z i) * (z b + 2 * z j) + z a * z b * z i * z j

/-- Spin-integrated arrays of a closed-shell system: the same for both spins, and the same-spin arrays are the
antisymmetrised mixed-spin arrays. -/
def cs : SI ℕ ℚ where
  f_aa p q := z p * z q
  f_bb p q := z p * z q
  g_aaaa p q r s := gab p q r s - gab p q s r
  g_abab := gab
  g_bbbb p q r s := gab p q r s - gab p q s r
  t1_aa a i := z a + z i
  t1_bb a i := z a + z i
  t2_aaaa a b i j := tab a b i j - tab a b j i
  t2_abab := tab
  t2_bbbb a b i j := tab a b i j - tab a b j i
  l2_aaaa i j a b := tab a b i j - tab a b j i
  l2_abab i j a b := tab a b i j
  l2_bbbb i j a b := tab a b i j - tab a b j i

theorem cs_sym : cs.Sym := by
  constructor <;> intros <;> simp only [cs, gab, tab] <;> ring

theorem cs_flip : cs.flip = cs := by
  simp only [SI.flip, cs, SI.mk.injEq]
  simp only [true_and, and_true]
  refine ⟨?_, ?_, ?_⟩ <;> funext p q r s <;> simp only [gab, tab] <;> ring

end Verif.Witness
