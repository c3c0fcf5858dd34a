import Mathlib.Algebra.BigOperators.Group.Finset.Basic
import Mathlib.Algebra.Field.Rat

/-!
# `determine_pCCD_correction`

The local function of `run_wickedTest` (`/repo/UT2/amphandler.py:131-145`). Arrays have rational entries instead of
floating-point ones. The two-electron array `g` has `nocc` occupied indices first, then `nvirt` virtual ones.
-/

namespace Verif.PccdCorr

abbrev Arr := ℕ → ℕ → ℕ → ℕ → ℚ

/-- `zerod_T2[i,i+1,a,a+1]=0.0` for one pair (`amphandler.py:138`). -/
def zeroAt (T : Arr) (x : ℕ × ℕ) : Arr := fun i j a b =>
  if i = x.1 ∧ j = x.1 + 1 ∧ a = x.2 ∧ b = x.2 + 1 then 0 else T i j a b

/-- The pairs of the two loops (`amphandler.py:135-136`). -/
def pairs (nocc nvirt : ℕ) : List (ℕ × ℕ) := (List.range (nocc - 1)).flatMap fun i => (List.range (nvirt - 1)).map fun a => (i, a)

/-- `0.25*einsum("abij,ijab->", g[v,v,o,o], T)` (`amphandler.py:132,140`). -/
def energy (nocc nvirt : ℕ) (g T : Arr) : ℚ :=
  (1/4) * ∑ i ∈ Finset.range nocc, ∑ j ∈ Finset.range nocc, ∑ a ∈ Finset.range nvirt, ∑ b ∈ Finset.range nvirt,
    g (nocc + a) (nocc + b) i j * T i j a b

/-- One pass of the loop (`amphandler.py:137-138`) on `subtractE` and the array, which is read and then changed; `g` is
indexed with `a`, not with the virtual orbital `nocc + a`. -/
def loopStep (g : Arr) (s : ℚ × Arr) (x : ℕ × ℕ) : ℚ × Arr :=
  (s.1 + (1/4) * s.2 x.1 (x.1 + 1) x.2 (x.2 + 1) * g x.2 (x.2 + 1) x.1 (x.1 + 1), zeroAt s.2 x)

/-- The loop (`amphandler.py:133-138`). -/
def loop (nocc nvirt : ℕ) (g T : Arr) : ℚ × Arr := (pairs nocc nvirt).foldl (loopStep g) (0, T)

/-- What the function prints and returns (`amphandler.py:139-143`). -/
structure Out where
  fullE : ℚ
  subtractE : ℚ
  /-- "test of off-diagon" -/
  test : ℚ
  offDiagE : ℚ

/-- The function (`amphandler.py:131-145`); the second component is the caller's array afterwards, since `zerod_T2` is
the same array as `T2op` (line 134). -/
def determine (nocc nvirt : ℕ) (g T : Arr) : Out × Arr :=
  let full := energy nocc nvirt g T
  let (s, T') := loop nocc nvirt g T
  (⟨full, s, energy nocc nvirt g T', full - s⟩, T')

end Verif.PccdCorr
