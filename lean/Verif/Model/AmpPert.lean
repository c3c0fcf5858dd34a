import Mathlib.Algebra.BigOperators.Group.Finset.Basic
import Mathlib.Algebra.Field.Rat
import Mathlib.Data.Fintype.BigOperators
import Mathlib.Data.Fintype.Sum

/-!
# The perturbation energies of the test routes of `AmpHandler`

The local functions of `run_wickedTest` and the method `run_UCCDcheck` (`/repo/UT2/amphandler.py`). Orbitals are the
occupied ones `Fin no` and the virtual ones `Fin nv`; the two-electron array is indexed by both kinds, so `g[o,o,v,v]`
is `g` at `inl i, inl j, inr a, inr b`. Array entries are elements of a field `K` instead of floating-point numbers.
Prints are modelled as the values printed.
-/

namespace Verif.AmpPert

variable {K : Type*} [Field K] {no nv : ℕ}

/-- An orbital: occupied or virtual. -/
abbrev Orb (no nv : ℕ) := Fin no ⊕ Fin nv

/-- The two-electron array `self.g`. -/
abbrev Two (no nv : ℕ) (K : Type*) := Orb no nv → Orb no nv → Orb no nv → Orb no nv → K

/-- An array of shape `(o,o,v,v)`. -/
abbrev Oovv (no nv : ℕ) (K : Type*) := Fin no → Fin no → Fin nv → Fin nv → K

/-- An array of shape `(v,v,o,o)`, such as `self.denoms["D2aa"]`. -/
abbrev Vvoo (no nv : ℕ) (K : Type*) := Fin nv → Fin nv → Fin no → Fin no → K

/-- `oovv.transpose(2,3,0,1)`. -/
def toVvoo (R : Oovv no nv K) : Vvoo no nv K := fun a b i j => R i j a b

/-- `vvoo.transpose(2,3,0,1)`. -/
def toOovv (R : Vvoo no nv K) : Oovv no nv K := fun i j a b => R a b i j

/-- `antisym_T2` (`/repo/UT2/wicked_T3corr.py:188-195`). -/
def antisymT2 (R : Oovv no nv K) : Oovv no nv K := fun i j a b => R i j a b - R j i a b - R i j b a + R j i b a

/-- Transpose, multiply with `self.denoms["D2aa"]`, transpose back (`amphandler.py:205-207`, `218-220`, `246-248`,
`260-262`). -/
def divide (D : Vvoo no nv K) (R : Oovv no nv K) : Oovv no nv K := toOovv fun a b i j => toVvoo R a b i j * D a b i j

/-- `build_MP2_T2` (`amphandler.py:202-208`) called with `W = self.g[o,o,v,v]` (line 266). -/
def buildMP2 (g : Two no nv K) (D : Vvoo no nv K) : Oovv no nv K :=
  divide D (antisymT2 fun i j a b => (1/4) * g (.inl i) (.inl j) (.inr a) (.inr b))

/-- The three contractions of `build_LCCD_T2` (`amphandler.py:213-215`), the same as lines 88-90 and 160-162. -/
def lccdRaw (T : Oovv no nv K) (g : Two no nv K) : Oovv no nv K := fun i j a b =>
  (1/8) * ∑ k, ∑ l, T k l a b * g (.inl i) (.inl j) (.inl k) (.inl l)
  + (-1) * ∑ k, ∑ c, T i k a c * g (.inl j) (.inr c) (.inl k) (.inr b)
  + (1/8) * ∑ c, ∑ d, T i j c d * g (.inr c) (.inr d) (.inr a) (.inr b)

/-- `build_LCCD_T2` (`amphandler.py:212-221`). -/
def buildLCCD (T : Oovv no nv K) (g : Two no nv K) (D : Vvoo no nv K) : Oovv no nv K := divide D (antisymT2 (lccdRaw T g))

/-- `get_WnT2_energy` (`amphandler.py:224-226`) called with `self.g[v,v,o,o]`. -/
def energy (T : Oovv no nv K) (g : Two no nv K) : K :=
  (1/4) * ∑ i, ∑ j, ∑ a, ∑ b, T i j a b * g (.inr a) (.inr b) (.inl i) (.inl j)

/-- The four assignments of one pass of the loops of `kill_Diag_T2` (`amphandler.py:232-235`). -/
def kill (T : Oovv no nv K) (x : ℕ × ℕ) : Oovv no nv K := fun i j a b =>
  if (i.val = x.1 ∧ j.val = x.1 + 1 ∧ a.val = x.2 ∧ b.val = x.2 + 1) ∨ (i.val = x.1 + 1 ∧ j.val = x.1 ∧ a.val = x.2 ∧ b.val = x.2 + 1)
    ∨ (i.val = x.1 ∧ j.val = x.1 + 1 ∧ a.val = x.2 + 1 ∧ b.val = x.2) ∨ (i.val = x.1 + 1 ∧ j.val = x.1 ∧ a.val = x.2 + 1 ∧ b.val = x.2)
  then 0 else T i j a b

/-- `kill_Diag_T2` (`amphandler.py:229-237`): the loops run over `range(nocc-1)` and `range(nvirt-1)`. The callers pass
a copy (or use the result only), so the change in place is not visible. -/
def killDiag (T : Oovv no nv K) : Oovv no nv K :=
  ((List.range (no - 1)).flatMap fun i => (List.range (nv - 1)).map fun a => (i, a)).foldl kill T

/-- The two contractions of `build_WnT1_T2` (`amphandler.py:242-243`). -/
def t1Raw (T1 : Fin no → Fin nv → K) (g : Two no nv K) : Oovv no nv K := fun i j a b =>
  (-1/2) * ∑ k, T1 k a * g (.inl i) (.inl j) (.inl k) (.inr b)
  + (-1/2) * ∑ c, T1 i c * g (.inl j) (.inr c) (.inr a) (.inr b)

/-- `build_WnT1_T2` (`amphandler.py:240-249`). -/
def buildT1 (T1 : Fin no → Fin nv → K) (g : Two no nv K) (D : Vvoo no nv K) : Oovv no nv K := divide D (antisymT2 (t1Raw T1 g))

/-- The values printed in `amphandler.py:266-303`, in order. The last line printed before `sys.exit()`
("Wnt2^2 from MP2 off-diagonal amps", line 308) is left out. -/
structure Printed (K : Type*) where
  mp2 : K
  mp2Off : K
  mp3 : K
  mp3Off : K
  lccd : K
  lccdOff : K
  t1 : K
  t1Off : K

/-- `amphandler.py:266-303`. `T1` and `T2` are `self.t1`, `self.t2` after the transposes of lines 128 and 130. -/
def printed (g : Two no nv K) (D : Vvoo no nv K) (T1 : Fin no → Fin nv → K) (T2 : Oovv no nv K) : Printed K :=
  let first := buildMP2 g D
  let firstOff := killDiag first
  let second := buildLCCD first g D
  let secondOff := buildLCCD firstOff g D
  let lccd := buildLCCD T2 g D
  let t1 := buildT1 T1 g D
  { mp2 := energy first g, mp2Off := energy firstOff g, mp3 := -energy second g, mp3Off := -energy secondOff g,
    lccd := -energy lccd g, lccdOff := -energy (killDiag lccd) g, t1 := energy t1 g, t1Off := energy (killDiag t1) g }

/-- The values printed by `run_UCCDcheck` (`amphandler.py:59-95`): `energyA`, `energyB`, `energyC`, `fockpart`,
`energy` (line 82) and `newE`. -/
structure Check (K : Type*) where
  a : K
  b : K
  c : K
  fock : K
  total : K
  newC : K

/-- `run_UCCDcheck` (`amphandler.py:59-95`); `Tdag` is the array `self.t2` it starts from. The constant added in the
print of line 83 is left out. -/
def uccdCheck (g : Two no nv K) (f : Orb no nv → Orb no nv → K) (Tdag : Vvoo no nv K) : Check K :=
  let T := toOovv Tdag
  let a := (1/4) * ∑ i, ∑ j, ∑ a, ∑ b, T i j a b * g (.inr a) (.inr b) (.inl i) (.inl j)
  let b := (1/4) * ∑ a, ∑ b, ∑ i, ∑ j, Tdag a b i j * g (.inl i) (.inl j) (.inr a) (.inr b)
  let c := (1/8) * ∑ i, ∑ j, ∑ a, ∑ b, ∑ c, ∑ d, T i j a b * Tdag c d i j * g (.inr a) (.inr b) (.inr c) (.inr d)
    + (-1) * ∑ i, ∑ j, ∑ a, ∑ b, ∑ c, ∑ k, T i j a b * Tdag a c i k * g (.inl k) (.inr b) (.inl j) (.inr c)
    + (1/8) * ∑ i, ∑ j, ∑ a, ∑ b, ∑ k, ∑ l, T i j a b * Tdag a b k l * g (.inl k) (.inl l) (.inl i) (.inl j)
  let fk := (-1/2) * ∑ j, ∑ i, ∑ k, ∑ a, ∑ b, f (.inl j) (.inl i) * T i k a b * Tdag a b j k
    + (1/2) * ∑ b, ∑ a, ∑ i, ∑ j, ∑ c, f (.inr b) (.inr a) * T i j b c * Tdag a c i j
  let r := antisymT2 (lccdRaw T g)
  { a := a, b := b, c := c, fock := fk, total := a + b + c,
    newC := (1/4) * ∑ i, ∑ j, ∑ a, ∑ b, r i j a b * Tdag a b i j }

end Verif.AmpPert
