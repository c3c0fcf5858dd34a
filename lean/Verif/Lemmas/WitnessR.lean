import Verif.Lemmas.Witness
import Mathlib.Data.Real.Basic
import Mathlib.Tactic.NormNum
import Mathlib.Tactic.Ring

/-!
# Concrete arrays of real numbers
-/

namespace Verif.Witness

open Verif.Ein

/-- Integrals of a closed-shell system and no amplitudes. -/
noncomputable def csR : SI ℕ ℝ where
  f_aa p q := cs.f_aa p q
  f_bb p q := cs.f_bb p q
  g_aaaa p q r s := cs.g_aaaa p q r s
  g_abab p q r s := cs.g_abab p q r s
  g_bbbb p q r s := cs.g_bbbb p q r s

theorem csR_sym : csR.Sym := by
  constructor <;> intros <;> simp only [csR, cs, gab, neg_zero] <;> push_cast <;> ring

/-- Orbital energies 1, 2, 3, 4 of both spins. -/
noncomputable def εR (x : ℕ × Bool) : ℝ := (x.1 : ℝ) + 1

theorem D_disjoint : Disjoint (D 0) (D 1) := by decide

end Verif.Witness
