import Verif.Ein.SpinArrays
import Mathlib.Algebra.BigOperators.Group.Finset.Basic
import Mathlib.Order.Interval.Finset.Nat

/-!
# From the SCF result to the arrays of a calculation

Model of `/repo/UT2/run_ccd.py`: `convertSCFinfo` (605-668), `spin_block_tei` (671-680),
`convertSCFinfo_tmpslow` (683-780), `convertSCFinfo_slow` (782-944), `generalUHF` (1146-1215),
`spinorb_from_spatial` (1217-1257), `spinorb_from_UHFspatial` (1259-1301), and of `SetupCC.get_occInfo`,
`SetupCC.get_integrals` (`/repo/UT2/test.py` 62-146).

The inputs are what PySCF returns: AO integrals, Fock matrix, orbital coefficients and energies; PySCF itself is
not modelled, its `ao2mo.incore.general` and `ao2mo.kernel` are the plain four-index transformation `general`.
An array is a function of its (natural number) indices; the entries of the Python array are those inside its
shape, the formulas are used outside as well. Printing and the SCF energy check of `generalUHF` are left out.
-/

namespace Verif.Setup

open Verif.Ein Finset

variable {K : Type} [Field K]

abbrev Mat (K : Type) := ℕ → ℕ → K
abbrev Tei (K : Type) := ℕ → ℕ → ℕ → ℕ → K

/-- `C.T @ F @ C` for `n` basis functions (`run_ccd.py` 1164-1169). -/
def oneBody (n : ℕ) (F C : Mat K) : Mat K := fun p q => ∑ x ∈ range n, ∑ y ∈ range n, C x p * F x y * C y q

/-- `ao2mo.incore.general(eri, (C1, C2, C3, C4))` (`run_ccd.py` 1182-1184). -/
def general (n : ℕ) (I : Tei K) (C1 C2 C3 C4 : Mat K) : Tei K := fun p q r s =>
  ∑ x ∈ range n, ∑ y ∈ range n, ∑ z ∈ range n, ∑ w ∈ range n, C1 x p * C2 y q * C3 z r * C4 w s * I x y z w

/-- `g.transpose(0,2,1,3) - g.transpose(0,3,2,1)` (`run_ccd.py` 1199-1200). -/
def dirac (G : Tei K) : Tei K := fun p q r s => G p r q s - G p s r q

/-- `g.transpose(0,2,1,3)` (`run_ccd.py` 1201). -/
def diracMixed (G : Tei K) : Tei K := fun p q r s => G p r q s

/-- `generalUHF` (`run_ccd.py` 1146-1215): Fock matrices and integrals of the spin-integrated codes. `Ca`, `Cb` are
`orb[0]`, `orb[1]`, `Fa`, `Fb` are `f[0]`, `f[1]`; for RHF `convertSCFinfo` passes the same array twice (626-633).
The amplitudes are the zero arrays with which `UltT2CC.__init__` starts (`kernel.py` 124-126). -/
def generalUHF (n : ℕ) (I : Tei K) (Fa Fb Ca Cb : Mat K) : SI ℕ K where
  f_aa := oneBody n Fa Ca
  f_bb := oneBody n Fb Cb
  g_aaaa := dirac (general n I Ca Ca Ca Ca)
  g_bbbb := dirac (general n I Cb Cb Cb Cb)
  g_abab := diracMixed (general n I Ca Ca Cb Cb)

/-! ## spin-orbital set-up by sorting -/

/-- `np.kron(np.eye(2), A)` for a four-dimensional `A` whose last two axes have length `m`: the identity matrix is
extended by two leading axes of length 1. -/
def kron2 (m : ℕ) (A : Tei K) : Tei K := fun p q R S => (if R / m = S / m then 1 else 0) * A p q (R % m) (S % m)

/-- `A.T` for four dimensions: all axes reversed. -/
def rev (A : Tei K) : Tei K := fun p q r s => A s r q p

/-- `spin_block_tei` (`run_ccd.py` 671-680). -/
def spin_block_tei (n : ℕ) (I : Tei K) : Tei K := kron2 n (rev (kron2 n I))

/-- `tmp = I_spinblock.transpose(0,2,1,3); gao = tmp - tmp.transpose(0,1,3,2)` (`run_ccd.py` 738-741). -/
def gao (n : ℕ) (I : Tei K) : Tei K :=
  let tmp : Tei K := fun p q r s => spin_block_tei n I p r q s
  fun p q r s => tmp p q r s - tmp p q s r

/-- `np.block([[Ca, 0], [0, Cb]])` (`run_ccd.py` 720-723). -/
def block (n : ℕ) (Ca Cb : Mat K) : Mat K := fun P Q =>
  if P < n then (if Q < n then Ca P Q else 0) else (if Q < n then 0 else Cb (P - n) (Q - n))

/-- `np.append(eps_a, eps_b)` (`run_ccd.py` 742). -/
def appendEps (n : ℕ) (ea eb : ℕ → K) : ℕ → K := fun P => if P < n then ea P else eb (P - n)

/-- What `np.argsort` promises for an array of length `m`: `π` is a rearrangement of the positions `0..m-1` (it is
extended by the identity) that puts the values in non-decreasing order. Which one is chosen when values are equal is
left open, since `argsort`'s default algorithm is not stable. -/
structure IsArgsort [LE K] (m : ℕ) (eps : ℕ → K) (π : Equiv.Perm ℕ) : Prop where
  fix : ∀ x, m ≤ x → π x = x
  mono : ∀ x y, x ≤ y → y < m → eps (π x) ≤ eps (π y)

/-- The four nested einsum calls that transform `gao` (`run_ccd.py` 756-759). -/
def transform (m : ℕ) (G : Tei K) (C : Mat K) : Tei K :=
  let g1 : Tei K := fun p q r S => ∑ s ∈ range m, G p q r s * C s S
  let g2 : Tei K := fun p q R S => ∑ r ∈ range m, g1 p q r S * C r R
  let g3 : Tei K := fun p Q R S => ∑ q ∈ range m, g2 p q R S * C q Q
  fun P Q R S => ∑ p ∈ range m, g3 p Q R S * C p P

/-- `convertSCFinfo_tmpslow` (`run_ccd.py` 683-780), the UHF branch of `convertSCFinfo_slow` (858-944) and
`SetupCC.get_integrals` (`test.py` 62-117): `oei = diag(eps)` and `tei = gmo` in the sorted spin-orbital basis, with zero
amplitudes. `drop` is `2*dropcore` (`test.py` 102-104; 0 in `run_ccd.py`): the first `drop` spin orbitals of the
sorted list are left out. -/
def tmpslow (n drop : ℕ) (I : Tei K) (Ca Cb : Mat K) (ea eb : ℕ → K) (π : Equiv.Perm ℕ) : SO ℕ K :=
  let C : Mat K := fun P Q => block n Ca Cb P (π (Q + drop))
  let eps : ℕ → K := fun P => appendEps n ea eb (π (P + drop))
  { f := fun P Q => if P = Q then eps P else 0
    g := transform (2 * n) (gao n I) C }

/-! ## spin-orbital set-up by interleaving -/

/-- Assignments `A[idx] = value` carried out in order. -/
def store {X : Type} [DecidableEq X] (A : X → K) (ws : List (X × K)) : X → K :=
  ws.foldl (fun A w => Function.update A w.1 w.2) A

/-- The assignments of `spinorb_from_UHFspatial` (`run_ccd.py` 1259-1301) to the one-body array, in the order of the
loops over `p` and `q`. `spinorb_from_spatial` (1217-1257) is the same with equal arrays. -/
def oneWrites (n : ℕ) (ha hb : Mat K) : List ((ℕ × ℕ) × K) :=
  (List.range n).flatMap fun p => (List.range n).flatMap fun q =>
    [((2 * p, 2 * q), ha p q), ((2 * p + 1, 2 * q + 1), hb p q)]

/-- The assignments to the two-body array, in the order of the loops over `p`, `q`, `r`, `s`. -/
def twoWrites (n : ℕ) (ta tb tm : Tei K) : List ((ℕ × ℕ × ℕ × ℕ) × K) :=
  (List.range n).flatMap fun p => (List.range n).flatMap fun q => (List.range n).flatMap fun r =>
    (List.range n).flatMap fun s =>
      [((2 * p, 2 * q + 1, 2 * r + 1, 2 * s), tm p q r s), ((2 * p + 1, 2 * q, 2 * r, 2 * s + 1), tm p q r s),
       ((2 * p, 2 * q, 2 * r, 2 * s), ta p q r s), ((2 * p + 1, 2 * q + 1, 2 * r + 1, 2 * s + 1), tb p q r s)]

/-- `spinorb_from_UHFspatial` (`run_ccd.py` 1259-1301), one-body result. -/
def spinorbOne (n : ℕ) (ha hb : Mat K) : Mat K := fun P Q => store (fun _ => 0) (oneWrites n ha hb) (P, Q)

/-- `spinorb_from_UHFspatial` (`run_ccd.py` 1259-1301), two-body result. -/
def spinorbTwo (n : ℕ) (ta tb tm : Tei K) : Tei K := fun P Q R S =>
  store (fun _ => 0) (twoWrites n ta tb tm) (P, Q, R, S)

/-- The RHF branch of `convertSCFinfo_slow` (`run_ccd.py` 797-857): `hcoreMO`, the four-index transformation,
`transpose(0,2,3,1)`, `spinorb_from_spatial`, antisymmetrisation, `gtei = astei.transpose(0,1,3,2)` and
`fock = soei + einsum('piiq->pq', astei[:,o,o,:])` with `o = slice(None, nsocc)`. (The `except` branch of the
integral transformation, which reads a pickle and then uses an unbound name, is left out.) -/
def slowRhf (n nsocc : ℕ) (I : Tei K) (hcore C : Mat K) : SO ℕ K :=
  let G := general n I C C C C
  let two : Tei K := fun p q r s => G p s q r
  let soei := spinorbOne n (oneBody n hcore C) (oneBody n hcore C)
  let stei := spinorbTwo n two two two
  let astei : Tei K := fun p q r s => stei p q r s - stei p q s r
  { f := fun p q => soei p q + ∑ i ∈ range nsocc, astei p i i q
    g := fun p q r s => astei p q s r }

/-! ## numbers of orbitals -/

/-- The recorded counts `nocc_aa`, `nvirt_aa` and the position at which the slices `o`, `v` split. -/
structure Counts where
  nocc : ℕ
  nvirt : ℕ
  split : ℕ

/-- RHF (`run_ccd.py` 684-692, 726-727; `test.py` 123-133, 144-145): `nele = int(sum(occ))`, `n` spatial orbitals. -/
def countsRhf (n nele : ℕ) : Counts := ⟨2 * (nele / 2), 2 * (n - nele / 2), nele⟩

/-- UHF (`run_ccd.py` 697-703, 726-727; `test.py` 135-145, where `drop = 2*dropcore`). -/
def countsUhf (n na nb drop : ℕ) : Counts := ⟨na + nb - drop, 2 * (n - na), na + nb - drop⟩

end Verif.Setup
