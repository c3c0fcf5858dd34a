import Mathlib.Algebra.Field.Defs
import Mathlib.Data.List.Basic

/-!
# Amplitude files and the correction-only route

Model of `AmpHandler` (`/repo/UT2/amphandler.py`) as far as it decides which arrays the energy formulas get, and of
the `pertCorr` branch of `ccd_main` (`/repo/UT2/run_ccd.py:144-187`). File contents are arrays; a missing file
(`FileNotFoundError`) is not modelled.
-/

namespace Verif.Amp

inductive Err | nameError | typeError | unboundLocal | valueError | indexError
  deriving DecidableEq, Repr

variable {K : Type}

/-- Two- and four-index arrays with their shapes. -/
structure Arr2 (K : Type) where
  shape : ℕ × ℕ
  at' : ℕ → ℕ → K

structure Arr4 (K : Type) where
  shape : ℕ × ℕ × ℕ × ℕ
  at' : ℕ → ℕ → ℕ → ℕ → K

/-- `A.transpose(1,0)` -/
def Arr2.tr (A : Arr2 K) : Arr2 K := ⟨(A.shape.2, A.shape.1), fun x y => A.at' y x⟩

/-- `A.transpose(2,3,0,1)` -/
def Arr4.tr (A : Arr4 K) : Arr4 K :=
  ⟨(A.shape.2.2.1, A.shape.2.2.2, A.shape.1, A.shape.2.1), fun x y z w => A.at' z w x y⟩

/-- `np.zeros((m,n))` -/
def zeros2 [Zero K] (m n : ℕ) : Arr2 K := ⟨(m, n), fun _ _ => 0⟩

/-- `getAmps` (`amphandler.py:34-56`). `open(None)` is a `TypeError`. With a singles file `t1_tmp` is never assigned:
the `try` block fails, and its handler fails again on the same name (lines 51-56). -/
def getAmps [Zero K] (nocc nvirt : ℕ) (T2 : Option (Arr4 K)) (T1 : Option (Arr2 K)) : Except Err (Arr2 K × Arr4 K) :=
  match T2 with
  | none => .error .typeError
  | some t2 =>
    match T1 with
    | some _ => .error .unboundLocal
    | none => .ok (zeros2 nvirt nocc, t2)

/-- `AmpHandler.__init__` (`amphandler.py:6-28`). `sys` is not imported, so `sys.exit()` is a `NameError`. -/
def init [Zero K] (nocc nvirt : ℕ) (T2 : Option (Arr4 K)) (T1 : Option (Arr2 K)) (xacc : Option (Arr2 K × Arr4 K)) :
    Except Err (Arr2 K × Arr4 K) :=
  if T2.isSome || T1.isSome then getAmps nocc nvirt T2 T1
  else match xacc with
    | some a => .ok a
    | none => .error .nameError

/-- The arrays passed on by `run_pdagq`: `t1`, `t2`, `l1`, `l2` (`amphandler.py:100-110`). -/
structure Pdagq (K : Type) where
  t1 : Arr2 K
  t2 : Arr4 K
  l1 : Arr2 K
  l2 : Arr4 K

def orient (nvirt : ℕ) (a : Arr2 K × Arr4 K) : Pdagq K :=
  if a.2.shape.1 ≠ nvirt then ⟨a.1.tr, a.2.tr, a.1, a.2⟩ else ⟨a.1, a.2, a.1.tr, a.2.tr⟩

/-- The shapes that the formulas of `pdagq_T3corr` need (`pdagq_T3corr.py:7,41,44,57,63,66`): `t` virtual indices
first, `l` occupied indices first. NumPy raises `ValueError` when a letter stands for two lengths. -/
def Pdagq.fits (nocc nvirt : ℕ) (p : Pdagq K) : Prop :=
  p.t1.shape = (nvirt, nocc) ∧ p.t2.shape = (nvirt, nvirt, nocc, nocc) ∧ p.l1.shape = (nocc, nvirt) ∧
    p.l2.shape = (nocc, nocc, nvirt, nvirt)

instance (nocc nvirt : ℕ) (p : Pdagq K) : Decidable (p.fits nocc nvirt) := by unfold Pdagq.fits; infer_instance

/-- What is stored under `integralInfo["oei"]`: the list of orbital energies (xacc, `run_ccd.py:151`) or a matrix. -/
inductive Oei | list | matrix
  deriving DecidableEq

/-- `run_pdagq` (`amphandler.py:97-119`): the triples energy `eT` of the oriented arrays, then `ccsd_energy`, which
indexes the Fock matrix with a pair (a `TypeError` on a list) and has no `return` statement (`pdagq_T3corr.py:51-68`).
The numerical values are in `Verif.Props.Triples`; here the value is a function of the oriented arrays. -/
def run_pdagq (eT : Pdagq K → K) (nocc nvirt : ℕ) (oei : Oei) (a : Arr2 K × Arr4 K) : Except Err (Option K × K) :=
  let p := orient nvirt a
  if p.fits nocc nvirt then
    match oei with
    | .list => .error .typeError
    | .matrix => .ok (none, eT p)
  else .error .valueError

/-- The source of the amplitudes: `pertOrderSoftware == 'xacc'` or amplitude files (`run_ccd.py:146-176`). -/
inductive Source (K : Type)
  | xacc (t1 : Arr2 K) (t2 : Arr4 K)
  | files (T2 : Option (Arr4 K)) (T1 : Option (Arr2 K))

/-- The `pertCorr` branch (`run_ccd.py:144-187`) up to the values of `currentE, corrE`. `run_wickedTest` and
`run_UCCDcheck` end in `sys.exit()` (`amphandler.py:309`, `95`), a `NameError`, if not in an earlier exception
(simplified: that one). Any other order string leaves both variables unassigned, and `return currentE, corrE` fails. -/
def pertRoute [Zero K] (eT : Pdagq K → K) (nocc nvirt : ℕ) (s : Source K) (orders : String) :
    Except Err (Option K × K) :=
  let amps := match s with
    | .xacc t1 t2 => init nocc nvirt none none (some (t1, t2))
    | .files T2 T1 => init nocc nvirt T2 T1 none
  match amps with
  | .error e => .error e
  | .ok a =>
    if orders = "pdagq_parT" then run_pdagq eT nocc nvirt (match s with | .xacc _ _ => .list | .files _ _ => .matrix) a
    else if orders = "wicked_parT" then .error .nameError
    else if orders = "checkUCCD" then .error .nameError
    else .error .unboundLocal

end Verif.Amp
