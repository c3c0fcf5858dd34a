import Mathlib.Data.List.Basic
import Mathlib.Logic.Function.Basic

/-!
# References and in-place updates

The iteration code of `/repo/UT2/kernel.py`, `t2residEqns.py`, `t2residEqnsSlow.py`, `fullCCresidEqns.py`,
`drive_ucc4.py` as sequences of the three things that matter for aliasing: a name is bound to a newly computed array,
a name is bound to an existing array (or a view of one), an array is changed in place. What is computed is arbitrary.
A view is treated as the array it looks into. Variables are local names and dictionary entries (`"t2aa"` is
`tamps["t2aa"]`).
-/

namespace Verif.Alias

inductive Op (V : Type)
  /-- `x = expression`, a new array computed from the listed names -/
  | calc (x : String) (reads : List String) (f : List V → V)
  /-- `x = y`, or `x` a view of `y` (`transpose`, slice, `reshape`) -/
  | alias (x y : String)
  /-- `x += expression`, `x -= expression`, `x[...] = expression` -/
  | upd (x : String) (reads : List String) (f : List V → V)

variable {V : Type}

/-- Memory: cells, first unused cell, the cell each name refers to. -/
structure Heap (V : Type) where
  mem : ℕ → V
  next : ℕ
  env : String → ℕ

/-- The array a name refers to. -/
def Heap.val (h : Heap V) (x : String) : V := h.mem (h.env x)

/-- Python: names are references. -/
def Heap.step (h : Heap V) : Op V → Heap V
  | .calc x rs f => ⟨Function.update h.mem h.next (f (rs.map h.val)), h.next + 1, Function.update h.env x h.next⟩
  | .alias x y => { h with env := Function.update h.env x (h.env y) }
  | .upd x rs f => { h with mem := Function.update h.mem (h.env x) (f (rs.map h.val)) }

def Heap.run (h : Heap V) (ops : List (Op V)) : Heap V := ops.foldl Heap.step h

/-- `set_l2amps` (`kernel.py:204-206`): transposes, hence views, of the current amplitudes. -/
def setL2 : List (Op V) := [.alias "l2aa" "t2aa", .alias "l2bb" "t2bb", .alias "l2ab" "t2ab"]

def t2names : List String := ["t2aa", "t2bb", "t2ab"]
def l2names : List String := ["l2aa", "l2bb", "l2ab"]

/-- The additions of `t2residEqns.residMain` for `CCDQf-1` and `CCDQf-2` (`t2residEqns.py:54-78`). -/
def qfPart (F : String → List V → V) : List (Op V) :=
  [.calc "qf_aaaa" (t2names ++ l2names) (F "qf_aaaa"), .calc "qf_bbbb" (t2names ++ l2names) (F "qf_bbbb"),
   .calc "qf_abab" (t2names ++ l2names) (F "qf_abab"),
   .upd "resid_aaaa" ["resid_aaaa", "qf_aaaa"] (F "aaaa+="), .upd "resid_bbbb" ["resid_bbbb", "qf_bbbb"] (F "bbbb+="),
   .upd "resid_abab" ["resid_abab", "qf_abab"] (F "abab+=")]

/-- `t2residEqns.residMain` (`t2residEqns.py:47-90`). -/
def residSi (qf : Bool) (F : String → List V → V) : List (Op V) :=
  [.calc "resid_aaaa" t2names (F "aaaa"), .calc "resid_bbbb" t2names (F "bbbb"), .calc "resid_abab" t2names (F "abab")] ++
  (if qf then qfPart F else []) ++
  [.calc "resid_aaaa" ["resid_aaaa", "t2aa"] (F "aaaa="), .calc "resid_bbbb" ["resid_bbbb", "t2bb"] (F "bbbb="),
   .calc "resid_abab" ["resid_abab", "t2ab"] (F "abab="),
   .alias "resT2aa" "resid_aaaa", .alias "resT2bb" "resid_bbbb", .alias "resT2ab" "resid_abab",
   .calc "t2aa" ["resid_aaaa"] (F "t2aa"), .calc "t2bb" ["resid_bbbb"] (F "t2bb"), .calc "t2ab" ["resid_abab"] (F "t2ab")]

/-- `t2residEqnsSlow.residMain` (`t2residEqnsSlow.py:34-101`): `lccd` for the subtraction of line 50, `orders` the
additions of an extended CCD method (lines 53-58). `resid_aaaaBKUP` is a second name for the residual. -/
def residSo (lccd : Bool) (xccd : Bool) (orders : List ℕ) (F : String → List V → V) : List (Op V) :=
  [.calc "resid_aaaa" ["t2aa"] (F "aaaa")] ++
  (if lccd then [.calc "offset" ["t2aa"] (F "offset"), .upd "resid_aaaa" ["resid_aaaa", "offset"] (F "aaaa-=")] else []) ++
  (if xccd then .alias "resid_aaaaBKUP" "resid_aaaa" :: orders.flatMap fun k =>
    [.calc "t_base" ["t2aa"] (F s!"base{k}"), .upd "resid_aaaa" ["resid_aaaa", "t_base"] (F s!"aaaa+={k}")] else []) ++
  [.calc "resid_aaaa" ["resid_aaaa", "t2aa"] (F "aaaa="), .alias "resT2aa" "resid_aaaa",
   .calc "t2aa" ["resid_aaaa"] (F "t2aa"), .calc "t2bb" ["resid_aaaa"] (F "t2bb"), .calc "t2ab" ["resid_aaaa"] (F "t2ab")]

/-- `drive_ucc4.resid_main` (`drive_ucc4.py:44-88`). -/
def residUcc4 (F : String → List V → V) : List (Op V) :=
  [.alias "t2" "t2aa", .alias "t2_dag" "t2aa", .alias "t1" "t1aa", .alias "t3" "t3aa",
   .calc "resid_t1" ["t1", "t2"] (F "t1"), .calc "resid_t2" ["t2"] (F "t2"),
   .upd "resid_t2" ["resid_t2", "t2"] (F "t2-="), .upd "resid_t2" ["resid_t2", "t2", "t2_dag"] (F "t2+="),
   .upd "resid_t2" ["resid_t2", "t1", "t3"] (F "t2++="), .calc "resid_t3" ["t2", "t3"] (F "t3"),
   .calc "resid_t1" ["resid_t1", "t1"] (F "t1="), .calc "resid_t2" ["resid_t2", "t2"] (F "t2="),
   .calc "resid_t3" ["resid_t3", "t3"] (F "t3="),
   .calc "t2aa" ["resid_t2"] (F "t2aa"), .calc "t1aa" ["resid_t1"] (F "t1aa"), .calc "t3aa" ["resid_t3"] (F "t3aa")]

def t3names : List String := ["t3aaa", "t3bbb", "t3aab", "t3abb"]
def t4names : List String := ["t4aaaa", "t4aaab", "t4aabb", "t4abbb", "t4bbbb"]
def ampNames : List String := ["t1aa", "t1bb"] ++ t2names ++ t3names ++ t4names

/-- `fullCCresidEqns.residMain` (`fullCCresidEqns.py:74-183`): new residuals, `r = r + ...` for ranks one and two,
`r += ...` for ranks three and four, several names for one zero array when singles and triples are switched off
(lines 149-151), the additions of lines 157-165, new amplitudes. -/
def residFull (off qf : Bool) (F : String → List V → V) : List (Op V) :=
  (ampNames.map fun n => .calc ("r" ++ n) ampNames (F n)) ++
  (["t1aa", "t1bb", "t2aa", "t2bb", "t2ab"].map fun n => .calc ("r" ++ n) ["r" ++ n, n] (F (n ++ "="))) ++
  ((t3names ++ t4names).map fun n => .upd ("r" ++ n) ["r" ++ n, n] (F (n ++ "+="))) ++
  (if off then [.calc "rt1bb" ["rt1aa"] (F "zero1"), .alias "rt1aa" "rt1bb", .calc "rt3aab" ["rt3aaa"] (F "zero3"),
    .alias "rt3abb" "rt3aab", .alias "rt3bbb" "rt3aab", .alias "rt3aaa" "rt3aab"] else []) ++
  (if qf then t2names.map fun n => .upd ("r" ++ n) (("r" ++ n) :: t2names ++ t3names) (F (n ++ "qf")) else []) ++
  (ampNames.map fun n => .calc n ["r" ++ n] (F ("new" ++ n)))

/-- The DIIS part of an iteration (`kernel.py:340-447`, `diis.py:44-73`) for the blocks `names`: the vector is a copy,
during the warm-up the returned vector is that copy, afterwards it is a new array which is filled in place while the
copy is kept in the history. The amplitudes become views of the returned vector. -/
def diis (names : List String) (warm : Bool) (F : String → List V → V) : List (Op V) :=
  [.calc "vec" names (F "vec"), .calc "err" ["old_vec", "vec"] (F "err")] ++
  (if warm then [.alias "new" "vec"]
   else [.calc "hist" ["hist", "vec"] (F "hist"), .calc "new" ["vec"] (F "zeros"), .upd "new" ["new", "hist", "err"] (F "new+=")]) ++
  (names.map fun n => .alias n "new") ++ [.alias "old_vec" "new"]

end Verif.Alias
