import Verif.Model.Py
import Mathlib.Data.Rat.Defs
import Mathlib.Tactic.NormNum

/-!
# Driver: dictionaries, dispatch, method names

Models of `ccd_main` (`/repo/UT2/run_ccd.py:109-244`), `get_calc` and `extract_integer`
(`/repo/UT2/kernel.py:33-83`), the branch structure of `get_denoms` (`run_ccd.py:961-1142`), and the parts
of `UltT2CC.__init__`/`kernel`, `fullCCresidEqns.residMain`, `t2energySlow` that decide whether a run
can proceed. Numerical content is not part of this file.
-/

namespace Verif.Driver
open Verif.Py

/-- Values stored in `cc_runtype`. `other` stands for any further Python object. -/
inductive Val
  | nat (n : ℕ) | num (q : ℚ) | str (s : String) | bool (b : Bool) | none | other (n : ℕ)
  deriving DecidableEq

/-- Exceptions. -/
inductive Err
  | keyError (k : String) | unboundLocal | typeError | valueError | nameError
  deriving DecidableEq

/-- The three method keys, and the family of equations each stands for. -/
inductive Family | spinIntegrated | full | spinOrbital
  deriving DecidableEq

/-- `if k not in cc_runtype: cc_runtype.update({k: v})` -/
def setDefault (d : Dict Val) (k : String) (v : Val) : Dict Val :=
  if d.has k then d else Dict.set d k v

/-- `10**-10` -/
def tenM10 : Val := .num (1 / 10 ^ 10)

/-- `ccd_main`, first part (`run_ccd.py:128-142`). -/
def fillDefaults (hf nuc : Val) (d : Dict Val) : Dict Val :=
  let d := Dict.set (Dict.set d "hf_energy" hf) "nuclear_energy" nuc
  let d := setDefault d "stopping_eps" tenM10
  let d := setDefault d "max_iter" (.nat 75)
  let d := setDefault d "dump_tamps" (.bool false)
  let d := setDefault d "pert_wvfxn_corr" (.str "0")
  setDefault d "pert_E_corr" (.str "0")

/-- The family chosen by the `if/elif/elif` at `run_ccd.py:204,212,232`. -/
def mainFamily (d : Dict Val) : Option Family :=
  if d.has "ccdType" then some .spinIntegrated
  else if d.has "fullCCType" then some .full
  else if d.has "ccdTypeSlow" then some .spinOrbital
  else none

/-- The DIIS settings of the second and third branch (`run_ccd.py:222-228`, `234-240`). -/
def userDiis (d : Dict Val) : Except Err (Dict Val) :=
  match d.get? "diis_size" with
  | some ds =>
    match d.get? "diis_start_cycle" with
    | some st => .ok (Dict.set (Dict.set d "diis_size" ds) "diis_start_cycle" st)
    | none => .error (.keyError "diis_start_cycle")
  | none => .ok (Dict.set (Dict.set d "diis_size" .none) "diis_start_cycle" .none)

/-- The dictionary as `UltT2CC.__init__` sees it (`run_ccd.py:128-242`, without the perturbative
branch 144-201, which does not touch the dictionary). A missing method key ends in the
`UnboundLocalError` of line 244. `StoredInfo` keeps a reference, so the updates are seen. -/
def prepare (hf nuc : Val) (d : Dict Val) : Except Err (Dict Val) :=
  let d := fillDefaults hf nuc d
  match mainFamily d with
  | some .spinIntegrated =>                                            -- line 207
    .ok (Dict.update d [("max_iter", .nat 75), ("stopping_eps", tenM10), ("diis_size", .nat 10),
      ("diis_start_cycle", .nat 1)])
  | some .full =>                                                      -- lines 216-228
    userDiis (setDefault (setDefault d "stopping_eps" tenM10) "max_iter" (.nat 75))
  | some .spinOrbital => userDiis d                                    -- lines 234-240
  | none => .error .unboundLocal

/-- `get_calc` (`kernel.py:33-59`) with the list of line 96: the label and the name stored under it. -/
def getCalc (d : Dict Val) : Option (String × Val) :=
  match d.get? "ccdType" with
  | some v => some ("ccdType", v)
  | none =>
    match d.get? "ccdTypeSlow" with
    | some v => some ("ccdTypeSlow", v)
    | none =>
      match d.get? "fullCCType" with
      | some v => some ("fullCCType", v)
      | none => none

/-- The family of equations that `UltT2CC.kernel` runs for a label (`kernel.py:295-334`). -/
def labelFamily (l : String) : Option Family :=
  if l = "ccdType" then some .spinIntegrated
  else if l = "ccdTypeSlow" then some .spinOrbital
  else if l = "fullCCType" then some .full
  else none

/-- The family whose orbital data `get_denoms` uses (`run_ccd.py:964,972`): spin orbitals or
spin-integrated data (shared by two families). -/
inductive DenomData | spinOrbital | spinIntegrated
  deriving DecidableEq

/-- First dispatch of `get_denoms` (`run_ccd.py:964-992`). -/
def denomData (d : Dict Val) : Option DenomData :=
  if d.has "ccdTypeSlow" then some .spinOrbital
  else if d.has "ccdType" || d.has "fullCCType" then some .spinIntegrated
  else none

/-- The occupation/eps data that the conversion routine called by `ccd_main` provides:
`convertSCFinfo` (lines 206, 213) or `convertSCFinfo_tmpslow` (line 233). -/
def providedData : Family → DenomData
  | .spinIntegrated => .spinIntegrated
  | .full => .spinIntegrated
  | .spinOrbital => .spinOrbital

/-! ## Method names -/

/-- `int(val)` for a single character, as used by `extract_integer` (`kernel.py:71-76`); Python also
accepts non-ASCII decimal digits, which are left out. -/
def digitVal (c : Char) : Option ℕ :=
  if '0' ≤ c ∧ c ≤ '9' then some (c.toNat - '0'.toNat) else none

/-- `extract_integer` (`kernel.py:62-83`): `None` without digits, otherwise `[5, ..., last digit]`. -/
def extractInteger (s : List Char) : Option (List ℕ) :=
  match (s.filterMap digitVal).getLast? with
  | none => none
  | some n => some ((List.range (n + 1 - 5)).map (· + 5))

/-! ## DIIS vector layouts -/

/-- The amplitude arrays that occur in the layouts. -/
inductive Blk | t1aa | t2aa | t2bb | t2ab | t3aa | t4aaaa | t4aaab | t4aabb | t4abbb | t4bbbb
  deriving DecidableEq

/-- The dictionary key of an array. -/
def Blk.key : Blk → String
  | .t1aa => "t1aa" | .t2aa => "t2aa" | .t2bb => "t2bb" | .t2ab => "t2ab" | .t3aa => "t3aa"
  | .t4aaaa => "t4aaaa" | .t4aaab => "t4aaab" | .t4aabb => "t4aabb" | .t4abbb => "t4abbb"
  | .t4bbbb => "t4bbbb"

/-- Number of entries of an array with `o` occupied and `v` virtual orbitals (all spin cases use the
alpha counts, `kernel.py:124-151`). -/
def Blk.size (o v : ℕ) : Blk → ℕ
  | .t1aa => v * o
  | .t2aa | .t2bb | .t2ab => v * v * o * o
  | .t3aa => v * v * v * o * o * o
  | _ => v * v * v * v * o * o * o * o

def t2Blks : List Blk := [.t2aa, .t2bb, .t2ab]
def t4Blks : List Blk := [.t4aaaa, .t4aaab, .t4aabb, .t4abbb, .t4bbbb]

/-- `old_vec` built in `__init__` when DIIS is on (`kernel.py:123-141` and `163-167`). -/
def initLayout (fam : Family) (ccType : String) : List Blk :=
  match fam with
  | .spinIntegrated | .spinOrbital =>
    if hasSub "UCC(4)" ccType then [.t1aa, .t2aa, .t3aa] else t2Blks
  | .full => t2Blks ++ t4Blks

/-- `vectorized_iterate` (`kernel.py:339-367`). -/
def iterLayout (ccType : String) : List Blk :=
  if hasSub "UCC(4)" ccType then [.t1aa, .t2aa, .t3aa]
  else if hasSub "CCDQ" ccType then t2Blks ++ t4Blks
  else t2Blks

/-- The arrays that are filled from the extrapolated vector, in the order of their slices (`kernel.py:373-433`). -/
def unpackLayout (ccType : String) : List Blk :=
  if hasSub "UCC(4)" ccType then [.t1aa, .t2aa, .t3aa]
  else if hasSub "CCDQ" ccType then [.t2aa, .t2bb, .t2ab, .t4aaaa, .t4aaab, .t4aabb, .t4abbb, .t4bbbb]
  else [.t2aa, .t2bb, .t2ab]

/-- The arrays present in `self.tamps` after one call of the residual routine with DIIS on: the
dictionaries installed by `t2residEqns.py:83-84`, `t2residEqnsSlow.py:72-97`,
`drive_ucc4.py:resid_main` (t1, t2, t3) and `fullCCresidEqns.py:149-181` (all blocks used by the
layouts). -/
def tampsAfterResid (fam : Family) (ccType : String) : List Blk :=
  match fam with
  | .spinIntegrated => t2Blks
  | .spinOrbital => if hasSub "UCC(4)" ccType then [.t1aa, .t2aa, .t2bb, .t2ab, .t3aa] else t2Blks
  | .full => [.t1aa] ++ t2Blks ++ t4Blks

def layoutLen (o v : ℕ) (l : List Blk) : ℕ := (l.map (Blk.size o v)).sum

/-- What happens in the DIIS section of one pass: a missing array is a `KeyError`; arrays of different
length in `old_vec - vectorized_iterate` are a broadcasting `ValueError` (NumPy would broadcast a
length-one array, which is why the lengths have to differ and neither be one); otherwise the packed
length. -/
def diisPass (fam : Family) (ccType : String) (o v : ℕ) : Except Err ℕ :=
  let l := iterLayout ccType
  if l.all (· ∈ tampsAfterResid fam ccType) then
    let n := layoutLen o v l
    let m := layoutLen o v (initLayout fam ccType)
    if n = m ∨ n = 1 ∨ m = 1 then .ok n else .error .valueError
  else .error (.keyError (((l.find? (· ∉ tampsAfterResid fam ccType)).map Blk.key).getD ""))

/-! ## Which names get through a pass of the `fullCCType` family -/

/-- Whether `get_denoms` stores the quadruples denominators (`run_ccd.py:1083`):
`"CCSDTQ" in cc_runtype.values() or "CCDQ" in cc_runtype.values()`. -/
def hasD4 (d : Dict Val) : Bool :=
  d.any (fun p => p.2 = .str "CCSDTQ") || d.any (fun p => p.2 = .str "CCDQ")

/-- `fullCCresidEqns.residMain` (`fullCCresidEqns.py:10-181`): lines 71-75 read the `D4*` denominators,
and lines 143-147 update `resid_t4*`, which are only assigned in the `CCDQ` branch. -/
def fullResid (d : Dict Val) (ccType : String) : Except Err Unit :=
  if hasD4 d then
    if ccType = "CCDQ" then .ok () else .error .unboundLocal
  else .error (.keyError "D4aaaa")

/-- `for order in ccd_kernel.pertOrder` in `add_XCCenergy` (`t2energySlow.py:79`): iterating over `None`
is a `TypeError`. The (Qf) branch of `finalize` calls it for `ccdTypeSlow` (`kernel.py:256-257`). -/
def slowPertCorr (ccType : String) : Except Err (List ℕ) :=
  match extractInteger ccType.toList with
  | none => .error .typeError
  | some l => .ok l

/-- Whether `finalize` asks for a perturbative correction at all (`kernel.py:250,268`). -/
def wantsCorrection (ccType : String) : Bool :=
  ccType ∈ ["CCD(Qf)", "CCD(Qf*)", "CCSDT(Qf)", "CCSDT(Qf*)", "CCSD(Qf)"] || hasSub "UT2" ccType

end Verif.Driver
