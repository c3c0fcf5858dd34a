import Verif.Ein.Names
import Verif.Ein.Ops

/-! Written by `/verif/tools/gen.py`. The antisymmetrising functions. -/

set_option maxRecDepth 100000

namespace Verif.Gen

open Verif.Ein Verif.Ein.N


/-- `tamps.py` 53-61 `antisym_T2`: signs and output positions of the accumulated `einsum` calls. -/
def tamps_antisym_T2 : List (ℤ × List Nat) := [
  (1, [0, 1, 2, 3]),
  (-1, [1, 0, 2, 3]),
  (-1, [0, 1, 3, 2]),
  (1, [1, 0, 3, 2])
  ]

/-- `tamps.py` 65-107 `antisym_T3`: signs and output positions of the accumulated `einsum` calls. -/
def tamps_antisym_T3 : List (ℤ × List Nat) := [
  (1, [0, 1, 2, 3, 4, 5]),
  (-1, [0, 1, 2, 3, 5, 4]),
  (-1, [0, 1, 2, 4, 3, 5]),
  (1, [0, 1, 2, 4, 5, 3]),
  (1, [0, 1, 2, 5, 3, 4]),
  (-1, [0, 1, 2, 5, 4, 3]),
  (-1, [0, 2, 1, 3, 4, 5]),
  (1, [0, 2, 1, 3, 5, 4]),
  (1, [0, 2, 1, 4, 3, 5]),
  (-1, [0, 2, 1, 4, 5, 3]),
  (-1, [0, 2, 1, 5, 3, 4]),
  (1, [0, 2, 1, 5, 4, 3]),
  (-1, [1, 0, 2, 3, 4, 5]),
  (1, [1, 0, 2, 3, 5, 4]),
  (1, [1, 0, 2, 4, 3, 5]),
  (-1, [1, 0, 2, 4, 5, 3]),
  (-1, [1, 0, 2, 5, 3, 4]),
  (1, [1, 0, 2, 5, 4, 3]),
  (1, [1, 2, 0, 3, 4, 5]),
  (-1, [1, 2, 0, 3, 5, 4]),
  (-1, [1, 2, 0, 4, 3, 5]),
  (1, [1, 2, 0, 4, 5, 3]),
  (1, [1, 2, 0, 5, 3, 4]),
  (-1, [1, 2, 0, 5, 4, 3]),
  (1, [2, 0, 1, 3, 4, 5]),
  (-1, [2, 0, 1, 3, 5, 4]),
  (-1, [2, 0, 1, 4, 3, 5]),
  (1, [2, 0, 1, 4, 5, 3]),
  (1, [2, 0, 1, 5, 3, 4]),
  (-1, [2, 0, 1, 5, 4, 3]),
  (-1, [2, 1, 0, 3, 4, 5]),
  (1, [2, 1, 0, 3, 5, 4]),
  (1, [2, 1, 0, 4, 3, 5]),
  (-1, [2, 1, 0, 4, 5, 3]),
  (-1, [2, 1, 0, 5, 3, 4]),
  (1, [2, 1, 0, 5, 4, 3])
  ]

def tamps_antisym_T4_0 : List (ℤ × List Nat) := [
  (1, [0, 1, 2, 3, 4, 5, 6, 7]),
  (-1, [0, 1, 2, 3, 4, 5, 7, 6]),
  (-1, [0, 1, 2, 3, 4, 6, 5, 7]),
  (1, [0, 1, 2, 3, 4, 6, 7, 5]),
  (-1, [0, 1, 2, 3, 4, 7, 6, 5]),
  (1, [0, 1, 2, 3, 4, 7, 5, 6]),
  (-1, [0, 1, 2, 3, 5, 4, 6, 7]),
  (1, [0, 1, 2, 3, 5, 4, 7, 6]),
  (1, [0, 1, 2, 3, 5, 6, 4, 7]),
  (-1, [0, 1, 2, 3, 5, 6, 7, 4]),
  (1, [0, 1, 2, 3, 5, 7, 6, 4]),
  (-1, [0, 1, 2, 3, 5, 7, 4, 6]),
  (-1, [0, 1, 2, 3, 6, 5, 4, 7]),
  (1, [0, 1, 2, 3, 6, 5, 7, 4]),
  (1, [0, 1, 2, 3, 6, 4, 5, 7]),
  (-1, [0, 1, 2, 3, 6, 4, 7, 5]),
  (1, [0, 1, 2, 3, 6, 7, 4, 5]),
  (-1, [0, 1, 2, 3, 6, 7, 5, 4]),
  (-1, [0, 1, 2, 3, 7, 5, 6, 4]),
  (1, [0, 1, 2, 3, 7, 5, 4, 6]),
  (1, [0, 1, 2, 3, 7, 6, 5, 4]),
  (-1, [0, 1, 2, 3, 7, 6, 4, 5]),
  (1, [0, 1, 2, 3, 7, 4, 6, 5]),
  (-1, [0, 1, 2, 3, 7, 4, 5, 6]),
  (-1, [0, 1, 3, 2, 4, 5, 6, 7]),
  (1, [0, 1, 3, 2, 4, 5, 7, 6]),
  (1, [0, 1, 3, 2, 4, 6, 5, 7]),
  (-1, [0, 1, 3, 2, 4, 6, 7, 5]),
  (1, [0, 1, 3, 2, 4, 7, 6, 5]),
  (-1, [0, 1, 3, 2, 4, 7, 5, 6]),
  (1, [0, 1, 3, 2, 5, 4, 6, 7]),
  (-1, [0, 1, 3, 2, 5, 4, 7, 6]),
  (-1, [0, 1, 3, 2, 5, 6, 4, 7]),
  (1, [0, 1, 3, 2, 5, 6, 7, 4]),
  (-1, [0, 1, 3, 2, 5, 7, 6, 4]),
  (1, [0, 1, 3, 2, 5, 7, 4, 6])]

def tamps_antisym_T4_1 : List (ℤ × List Nat) := [
  (1, [0, 1, 3, 2, 6, 5, 4, 7]),
  (-1, [0, 1, 3, 2, 6, 5, 7, 4]),
  (-1, [0, 1, 3, 2, 6, 4, 5, 7]),
  (1, [0, 1, 3, 2, 6, 4, 7, 5]),
  (-1, [0, 1, 3, 2, 6, 7, 4, 5]),
  (1, [0, 1, 3, 2, 6, 7, 5, 4]),
  (1, [0, 1, 3, 2, 7, 5, 6, 4]),
  (-1, [0, 1, 3, 2, 7, 5, 4, 6]),
  (-1, [0, 1, 3, 2, 7, 6, 5, 4]),
  (1, [0, 1, 3, 2, 7, 6, 4, 5]),
  (-1, [0, 1, 3, 2, 7, 4, 6, 5]),
  (1, [0, 1, 3, 2, 7, 4, 5, 6]),
  (-1, [0, 2, 1, 3, 4, 5, 6, 7]),
  (1, [0, 2, 1, 3, 4, 5, 7, 6]),
  (1, [0, 2, 1, 3, 4, 6, 5, 7]),
  (-1, [0, 2, 1, 3, 4, 6, 7, 5]),
  (1, [0, 2, 1, 3, 4, 7, 6, 5]),
  (-1, [0, 2, 1, 3, 4, 7, 5, 6]),
  (1, [0, 2, 1, 3, 5, 4, 6, 7]),
  (-1, [0, 2, 1, 3, 5, 4, 7, 6]),
  (-1, [0, 2, 1, 3, 5, 6, 4, 7]),
  (1, [0, 2, 1, 3, 5, 6, 7, 4]),
  (-1, [0, 2, 1, 3, 5, 7, 6, 4]),
  (1, [0, 2, 1, 3, 5, 7, 4, 6]),
  (1, [0, 2, 1, 3, 6, 5, 4, 7]),
  (-1, [0, 2, 1, 3, 6, 5, 7, 4]),
  (-1, [0, 2, 1, 3, 6, 4, 5, 7]),
  (1, [0, 2, 1, 3, 6, 4, 7, 5]),
  (-1, [0, 2, 1, 3, 6, 7, 4, 5]),
  (1, [0, 2, 1, 3, 6, 7, 5, 4]),
  (1, [0, 2, 1, 3, 7, 5, 6, 4]),
  (-1, [0, 2, 1, 3, 7, 5, 4, 6]),
  (-1, [0, 2, 1, 3, 7, 6, 5, 4]),
  (1, [0, 2, 1, 3, 7, 6, 4, 5]),
  (-1, [0, 2, 1, 3, 7, 4, 6, 5]),
  (1, [0, 2, 1, 3, 7, 4, 5, 6])]

def tamps_antisym_T4_2 : List (ℤ × List Nat) := [
  (1, [0, 2, 3, 1, 4, 5, 6, 7]),
  (-1, [0, 2, 3, 1, 4, 5, 7, 6]),
  (-1, [0, 2, 3, 1, 4, 6, 5, 7]),
  (1, [0, 2, 3, 1, 4, 6, 7, 5]),
  (-1, [0, 2, 3, 1, 4, 7, 6, 5]),
  (1, [0, 2, 3, 1, 4, 7, 5, 6]),
  (-1, [0, 2, 3, 1, 5, 4, 6, 7]),
  (1, [0, 2, 3, 1, 5, 4, 7, 6]),
  (1, [0, 2, 3, 1, 5, 6, 4, 7]),
  (-1, [0, 2, 3, 1, 5, 6, 7, 4]),
  (1, [0, 2, 3, 1, 5, 7, 6, 4]),
  (-1, [0, 2, 3, 1, 5, 7, 4, 6]),
  (-1, [0, 2, 3, 1, 6, 5, 4, 7]),
  (1, [0, 2, 3, 1, 6, 5, 7, 4]),
  (1, [0, 2, 3, 1, 6, 4, 5, 7]),
  (-1, [0, 2, 3, 1, 6, 4, 7, 5]),
  (1, [0, 2, 3, 1, 6, 7, 4, 5]),
  (-1, [0, 2, 3, 1, 6, 7, 5, 4]),
  (-1, [0, 2, 3, 1, 7, 5, 6, 4]),
  (1, [0, 2, 3, 1, 7, 5, 4, 6]),
  (1, [0, 2, 3, 1, 7, 6, 5, 4]),
  (-1, [0, 2, 3, 1, 7, 6, 4, 5]),
  (1, [0, 2, 3, 1, 7, 4, 6, 5]),
  (-1, [0, 2, 3, 1, 7, 4, 5, 6]),
  (-1, [0, 3, 2, 1, 4, 5, 6, 7]),
  (1, [0, 3, 2, 1, 4, 5, 7, 6]),
  (1, [0, 3, 2, 1, 4, 6, 5, 7]),
  (-1, [0, 3, 2, 1, 4, 6, 7, 5]),
  (1, [0, 3, 2, 1, 4, 7, 6, 5]),
  (-1, [0, 3, 2, 1, 4, 7, 5, 6]),
  (1, [0, 3, 2, 1, 5, 4, 6, 7]),
  (-1, [0, 3, 2, 1, 5, 4, 7, 6]),
  (-1, [0, 3, 2, 1, 5, 6, 4, 7]),
  (1, [0, 3, 2, 1, 5, 6, 7, 4]),
  (-1, [0, 3, 2, 1, 5, 7, 6, 4]),
  (1, [0, 3, 2, 1, 5, 7, 4, 6])]

def tamps_antisym_T4_3 : List (ℤ × List Nat) := [
  (1, [0, 3, 2, 1, 6, 5, 4, 7]),
  (-1, [0, 3, 2, 1, 6, 5, 7, 4]),
  (-1, [0, 3, 2, 1, 6, 4, 5, 7]),
  (1, [0, 3, 2, 1, 6, 4, 7, 5]),
  (-1, [0, 3, 2, 1, 6, 7, 4, 5]),
  (1, [0, 3, 2, 1, 6, 7, 5, 4]),
  (1, [0, 3, 2, 1, 7, 5, 6, 4]),
  (-1, [0, 3, 2, 1, 7, 5, 4, 6]),
  (-1, [0, 3, 2, 1, 7, 6, 5, 4]),
  (1, [0, 3, 2, 1, 7, 6, 4, 5]),
  (-1, [0, 3, 2, 1, 7, 4, 6, 5]),
  (1, [0, 3, 2, 1, 7, 4, 5, 6]),
  (1, [0, 3, 1, 2, 4, 5, 6, 7]),
  (-1, [0, 3, 1, 2, 4, 5, 7, 6]),
  (-1, [0, 3, 1, 2, 4, 6, 5, 7]),
  (1, [0, 3, 1, 2, 4, 6, 7, 5]),
  (-1, [0, 3, 1, 2, 4, 7, 6, 5]),
  (1, [0, 3, 1, 2, 4, 7, 5, 6]),
  (-1, [0, 3, 1, 2, 5, 4, 6, 7]),
  (1, [0, 3, 1, 2, 5, 4, 7, 6]),
  (1, [0, 3, 1, 2, 5, 6, 4, 7]),
  (-1, [0, 3, 1, 2, 5, 6, 7, 4]),
  (1, [0, 3, 1, 2, 5, 7, 6, 4]),
  (-1, [0, 3, 1, 2, 5, 7, 4, 6]),
  (-1, [0, 3, 1, 2, 6, 5, 4, 7]),
  (1, [0, 3, 1, 2, 6, 5, 7, 4]),
  (1, [0, 3, 1, 2, 6, 4, 5, 7]),
  (-1, [0, 3, 1, 2, 6, 4, 7, 5]),
  (1, [0, 3, 1, 2, 6, 7, 4, 5]),
  (-1, [0, 3, 1, 2, 6, 7, 5, 4]),
  (-1, [0, 3, 1, 2, 7, 5, 6, 4]),
  (1, [0, 3, 1, 2, 7, 5, 4, 6]),
  (1, [0, 3, 1, 2, 7, 6, 5, 4]),
  (-1, [0, 3, 1, 2, 7, 6, 4, 5]),
  (1, [0, 3, 1, 2, 7, 4, 6, 5]),
  (-1, [0, 3, 1, 2, 7, 4, 5, 6])]

def tamps_antisym_T4_4 : List (ℤ × List Nat) := [
  (-1, [1, 0, 2, 3, 4, 5, 6, 7]),
  (1, [1, 0, 2, 3, 4, 5, 7, 6]),
  (1, [1, 0, 2, 3, 4, 6, 5, 7]),
  (-1, [1, 0, 2, 3, 4, 6, 7, 5]),
  (1, [1, 0, 2, 3, 4, 7, 6, 5]),
  (-1, [1, 0, 2, 3, 4, 7, 5, 6]),
  (1, [1, 0, 2, 3, 5, 4, 6, 7]),
  (-1, [1, 0, 2, 3, 5, 4, 7, 6]),
  (-1, [1, 0, 2, 3, 5, 6, 4, 7]),
  (1, [1, 0, 2, 3, 5, 6, 7, 4]),
  (-1, [1, 0, 2, 3, 5, 7, 6, 4]),
  (1, [1, 0, 2, 3, 5, 7, 4, 6]),
  (1, [1, 0, 2, 3, 6, 5, 4, 7]),
  (-1, [1, 0, 2, 3, 6, 5, 7, 4]),
  (-1, [1, 0, 2, 3, 6, 4, 5, 7]),
  (1, [1, 0, 2, 3, 6, 4, 7, 5]),
  (-1, [1, 0, 2, 3, 6, 7, 4, 5]),
  (1, [1, 0, 2, 3, 6, 7, 5, 4]),
  (1, [1, 0, 2, 3, 7, 5, 6, 4]),
  (-1, [1, 0, 2, 3, 7, 5, 4, 6]),
  (-1, [1, 0, 2, 3, 7, 6, 5, 4]),
  (1, [1, 0, 2, 3, 7, 6, 4, 5]),
  (-1, [1, 0, 2, 3, 7, 4, 6, 5]),
  (1, [1, 0, 2, 3, 7, 4, 5, 6]),
  (1, [1, 0, 3, 2, 4, 5, 6, 7]),
  (-1, [1, 0, 3, 2, 4, 5, 7, 6]),
  (-1, [1, 0, 3, 2, 4, 6, 5, 7]),
  (1, [1, 0, 3, 2, 4, 6, 7, 5]),
  (-1, [1, 0, 3, 2, 4, 7, 6, 5]),
  (1, [1, 0, 3, 2, 4, 7, 5, 6]),
  (-1, [1, 0, 3, 2, 5, 4, 6, 7]),
  (1, [1, 0, 3, 2, 5, 4, 7, 6]),
  (1, [1, 0, 3, 2, 5, 6, 4, 7]),
  (-1, [1, 0, 3, 2, 5, 6, 7, 4]),
  (1, [1, 0, 3, 2, 5, 7, 6, 4]),
  (-1, [1, 0, 3, 2, 5, 7, 4, 6])]

def tamps_antisym_T4_5 : List (ℤ × List Nat) := [
  (-1, [1, 0, 3, 2, 6, 5, 4, 7]),
  (1, [1, 0, 3, 2, 6, 5, 7, 4]),
  (1, [1, 0, 3, 2, 6, 4, 5, 7]),
  (-1, [1, 0, 3, 2, 6, 4, 7, 5]),
  (1, [1, 0, 3, 2, 6, 7, 4, 5]),
  (-1, [1, 0, 3, 2, 6, 7, 5, 4]),
  (-1, [1, 0, 3, 2, 7, 5, 6, 4]),
  (1, [1, 0, 3, 2, 7, 5, 4, 6]),
  (1, [1, 0, 3, 2, 7, 6, 5, 4]),
  (-1, [1, 0, 3, 2, 7, 6, 4, 5]),
  (1, [1, 0, 3, 2, 7, 4, 6, 5]),
  (-1, [1, 0, 3, 2, 7, 4, 5, 6]),
  (1, [1, 2, 0, 3, 4, 5, 6, 7]),
  (-1, [1, 2, 0, 3, 4, 5, 7, 6]),
  (-1, [1, 2, 0, 3, 4, 6, 5, 7]),
  (1, [1, 2, 0, 3, 4, 6, 7, 5]),
  (-1, [1, 2, 0, 3, 4, 7, 6, 5]),
  (1, [1, 2, 0, 3, 4, 7, 5, 6]),
  (-1, [1, 2, 0, 3, 5, 4, 6, 7]),
  (1, [1, 2, 0, 3, 5, 4, 7, 6]),
  (1, [1, 2, 0, 3, 5, 6, 4, 7]),
  (-1, [1, 2, 0, 3, 5, 6, 7, 4]),
  (1, [1, 2, 0, 3, 5, 7, 6, 4]),
  (-1, [1, 2, 0, 3, 5, 7, 4, 6]),
  (-1, [1, 2, 0, 3, 6, 5, 4, 7]),
  (1, [1, 2, 0, 3, 6, 5, 7, 4]),
  (1, [1, 2, 0, 3, 6, 4, 5, 7]),
  (-1, [1, 2, 0, 3, 6, 4, 7, 5]),
  (1, [1, 2, 0, 3, 6, 7, 4, 5]),
  (-1, [1, 2, 0, 3, 6, 7, 5, 4]),
  (-1, [1, 2, 0, 3, 7, 5, 6, 4]),
  (1, [1, 2, 0, 3, 7, 5, 4, 6]),
  (1, [1, 2, 0, 3, 7, 6, 5, 4]),
  (-1, [1, 2, 0, 3, 7, 6, 4, 5]),
  (1, [1, 2, 0, 3, 7, 4, 6, 5]),
  (-1, [1, 2, 0, 3, 7, 4, 5, 6])]

def tamps_antisym_T4_6 : List (ℤ × List Nat) := [
  (-1, [1, 2, 3, 0, 4, 5, 6, 7]),
  (1, [1, 2, 3, 0, 4, 5, 7, 6]),
  (1, [1, 2, 3, 0, 4, 6, 5, 7]),
  (-1, [1, 2, 3, 0, 4, 6, 7, 5]),
  (1, [1, 2, 3, 0, 4, 7, 6, 5]),
  (-1, [1, 2, 3, 0, 4, 7, 5, 6]),
  (1, [1, 2, 3, 0, 5, 4, 6, 7]),
  (-1, [1, 2, 3, 0, 5, 4, 7, 6]),
  (-1, [1, 2, 3, 0, 5, 6, 4, 7]),
  (1, [1, 2, 3, 0, 5, 6, 7, 4]),
  (-1, [1, 2, 3, 0, 5, 7, 6, 4]),
  (1, [1, 2, 3, 0, 5, 7, 4, 6]),
  (1, [1, 2, 3, 0, 6, 5, 4, 7]),
  (-1, [1, 2, 3, 0, 6, 5, 7, 4]),
  (-1, [1, 2, 3, 0, 6, 4, 5, 7]),
  (1, [1, 2, 3, 0, 6, 4, 7, 5]),
  (-1, [1, 2, 3, 0, 6, 7, 4, 5]),
  (1, [1, 2, 3, 0, 6, 7, 5, 4]),
  (1, [1, 2, 3, 0, 7, 5, 6, 4]),
  (-1, [1, 2, 3, 0, 7, 5, 4, 6]),
  (-1, [1, 2, 3, 0, 7, 6, 5, 4]),
  (1, [1, 2, 3, 0, 7, 6, 4, 5]),
  (-1, [1, 2, 3, 0, 7, 4, 6, 5]),
  (1, [1, 2, 3, 0, 7, 4, 5, 6]),
  (1, [1, 3, 2, 0, 4, 5, 6, 7]),
  (-1, [1, 3, 2, 0, 4, 5, 7, 6]),
  (-1, [1, 3, 2, 0, 4, 6, 5, 7]),
  (1, [1, 3, 2, 0, 4, 6, 7, 5]),
  (-1, [1, 3, 2, 0, 4, 7, 6, 5]),
  (1, [1, 3, 2, 0, 4, 7, 5, 6]),
  (-1, [1, 3, 2, 0, 5, 4, 6, 7]),
  (1, [1, 3, 2, 0, 5, 4, 7, 6]),
  (1, [1, 3, 2, 0, 5, 6, 4, 7]),
  (-1, [1, 3, 2, 0, 5, 6, 7, 4]),
  (1, [1, 3, 2, 0, 5, 7, 6, 4]),
  (-1, [1, 3, 2, 0, 5, 7, 4, 6])]

def tamps_antisym_T4_7 : List (ℤ × List Nat) := [
  (-1, [1, 3, 2, 0, 6, 5, 4, 7]),
  (1, [1, 3, 2, 0, 6, 5, 7, 4]),
  (1, [1, 3, 2, 0, 6, 4, 5, 7]),
  (-1, [1, 3, 2, 0, 6, 4, 7, 5]),
  (1, [1, 3, 2, 0, 6, 7, 4, 5]),
  (-1, [1, 3, 2, 0, 6, 7, 5, 4]),
  (-1, [1, 3, 2, 0, 7, 5, 6, 4]),
  (1, [1, 3, 2, 0, 7, 5, 4, 6]),
  (1, [1, 3, 2, 0, 7, 6, 5, 4]),
  (-1, [1, 3, 2, 0, 7, 6, 4, 5]),
  (1, [1, 3, 2, 0, 7, 4, 6, 5]),
  (-1, [1, 3, 2, 0, 7, 4, 5, 6]),
  (-1, [1, 3, 0, 2, 4, 5, 6, 7]),
  (1, [1, 3, 0, 2, 4, 5, 7, 6]),
  (1, [1, 3, 0, 2, 4, 6, 5, 7]),
  (-1, [1, 3, 0, 2, 4, 6, 7, 5]),
  (1, [1, 3, 0, 2, 4, 7, 6, 5]),
  (-1, [1, 3, 0, 2, 4, 7, 5, 6]),
  (1, [1, 3, 0, 2, 5, 4, 6, 7]),
  (-1, [1, 3, 0, 2, 5, 4, 7, 6]),
  (-1, [1, 3, 0, 2, 5, 6, 4, 7]),
  (1, [1, 3, 0, 2, 5, 6, 7, 4]),
  (-1, [1, 3, 0, 2, 5, 7, 6, 4]),
  (1, [1, 3, 0, 2, 5, 7, 4, 6]),
  (1, [1, 3, 0, 2, 6, 5, 4, 7]),
  (-1, [1, 3, 0, 2, 6, 5, 7, 4]),
  (-1, [1, 3, 0, 2, 6, 4, 5, 7]),
  (1, [1, 3, 0, 2, 6, 4, 7, 5]),
  (-1, [1, 3, 0, 2, 6, 7, 4, 5]),
  (1, [1, 3, 0, 2, 6, 7, 5, 4]),
  (1, [1, 3, 0, 2, 7, 5, 6, 4]),
  (-1, [1, 3, 0, 2, 7, 5, 4, 6]),
  (-1, [1, 3, 0, 2, 7, 6, 5, 4]),
  (1, [1, 3, 0, 2, 7, 6, 4, 5]),
  (-1, [1, 3, 0, 2, 7, 4, 6, 5]),
  (1, [1, 3, 0, 2, 7, 4, 5, 6])]

def tamps_antisym_T4_8 : List (ℤ × List Nat) := [
  (-1, [2, 1, 0, 3, 4, 5, 6, 7]),
  (1, [2, 1, 0, 3, 4, 5, 7, 6]),
  (1, [2, 1, 0, 3, 4, 6, 5, 7]),
  (-1, [2, 1, 0, 3, 4, 6, 7, 5]),
  (1, [2, 1, 0, 3, 4, 7, 6, 5]),
  (-1, [2, 1, 0, 3, 4, 7, 5, 6]),
  (1, [2, 1, 0, 3, 5, 4, 6, 7]),
  (-1, [2, 1, 0, 3, 5, 4, 7, 6]),
  (-1, [2, 1, 0, 3, 5, 6, 4, 7]),
  (1, [2, 1, 0, 3, 5, 6, 7, 4]),
  (-1, [2, 1, 0, 3, 5, 7, 6, 4]),
  (1, [2, 1, 0, 3, 5, 7, 4, 6]),
  (1, [2, 1, 0, 3, 6, 5, 4, 7]),
  (-1, [2, 1, 0, 3, 6, 5, 7, 4]),
  (-1, [2, 1, 0, 3, 6, 4, 5, 7]),
  (1, [2, 1, 0, 3, 6, 4, 7, 5]),
  (-1, [2, 1, 0, 3, 6, 7, 4, 5]),
  (1, [2, 1, 0, 3, 6, 7, 5, 4]),
  (1, [2, 1, 0, 3, 7, 5, 6, 4]),
  (-1, [2, 1, 0, 3, 7, 5, 4, 6]),
  (-1, [2, 1, 0, 3, 7, 6, 5, 4]),
  (1, [2, 1, 0, 3, 7, 6, 4, 5]),
  (-1, [2, 1, 0, 3, 7, 4, 6, 5]),
  (1, [2, 1, 0, 3, 7, 4, 5, 6]),
  (1, [2, 1, 3, 0, 4, 5, 6, 7]),
  (-1, [2, 1, 3, 0, 4, 5, 7, 6]),
  (-1, [2, 1, 3, 0, 4, 6, 5, 7]),
  (1, [2, 1, 3, 0, 4, 6, 7, 5]),
  (-1, [2, 1, 3, 0, 4, 7, 6, 5]),
  (1, [2, 1, 3, 0, 4, 7, 5, 6]),
  (-1, [2, 1, 3, 0, 5, 4, 6, 7]),
  (1, [2, 1, 3, 0, 5, 4, 7, 6]),
  (1, [2, 1, 3, 0, 5, 6, 4, 7]),
  (-1, [2, 1, 3, 0, 5, 6, 7, 4]),
  (1, [2, 1, 3, 0, 5, 7, 6, 4]),
  (-1, [2, 1, 3, 0, 5, 7, 4, 6])]

def tamps_antisym_T4_9 : List (ℤ × List Nat) := [
  (-1, [2, 1, 3, 0, 6, 5, 4, 7]),
  (1, [2, 1, 3, 0, 6, 5, 7, 4]),
  (1, [2, 1, 3, 0, 6, 4, 5, 7]),
  (-1, [2, 1, 3, 0, 6, 4, 7, 5]),
  (1, [2, 1, 3, 0, 6, 7, 4, 5]),
  (-1, [2, 1, 3, 0, 6, 7, 5, 4]),
  (-1, [2, 1, 3, 0, 7, 5, 6, 4]),
  (1, [2, 1, 3, 0, 7, 5, 4, 6]),
  (1, [2, 1, 3, 0, 7, 6, 5, 4]),
  (-1, [2, 1, 3, 0, 7, 6, 4, 5]),
  (1, [2, 1, 3, 0, 7, 4, 6, 5]),
  (-1, [2, 1, 3, 0, 7, 4, 5, 6]),
  (1, [2, 0, 1, 3, 4, 5, 6, 7]),
  (-1, [2, 0, 1, 3, 4, 5, 7, 6]),
  (-1, [2, 0, 1, 3, 4, 6, 5, 7]),
  (1, [2, 0, 1, 3, 4, 6, 7, 5]),
  (-1, [2, 0, 1, 3, 4, 7, 6, 5]),
  (1, [2, 0, 1, 3, 4, 7, 5, 6]),
  (-1, [2, 0, 1, 3, 5, 4, 6, 7]),
  (1, [2, 0, 1, 3, 5, 4, 7, 6]),
  (1, [2, 0, 1, 3, 5, 6, 4, 7]),
  (-1, [2, 0, 1, 3, 5, 6, 7, 4]),
  (1, [2, 0, 1, 3, 5, 7, 6, 4]),
  (-1, [2, 0, 1, 3, 5, 7, 4, 6]),
  (-1, [2, 0, 1, 3, 6, 5, 4, 7]),
  (1, [2, 0, 1, 3, 6, 5, 7, 4]),
  (1, [2, 0, 1, 3, 6, 4, 5, 7]),
  (-1, [2, 0, 1, 3, 6, 4, 7, 5]),
  (1, [2, 0, 1, 3, 6, 7, 4, 5]),
  (-1, [2, 0, 1, 3, 6, 7, 5, 4]),
  (-1, [2, 0, 1, 3, 7, 5, 6, 4]),
  (1, [2, 0, 1, 3, 7, 5, 4, 6]),
  (1, [2, 0, 1, 3, 7, 6, 5, 4]),
  (-1, [2, 0, 1, 3, 7, 6, 4, 5]),
  (1, [2, 0, 1, 3, 7, 4, 6, 5]),
  (-1, [2, 0, 1, 3, 7, 4, 5, 6])]

def tamps_antisym_T4_10 : List (ℤ × List Nat) := [
  (-1, [2, 0, 3, 1, 4, 5, 6, 7]),
  (1, [2, 0, 3, 1, 4, 5, 7, 6]),
  (1, [2, 0, 3, 1, 4, 6, 5, 7]),
  (-1, [2, 0, 3, 1, 4, 6, 7, 5]),
  (1, [2, 0, 3, 1, 4, 7, 6, 5]),
  (-1, [2, 0, 3, 1, 4, 7, 5, 6]),
  (1, [2, 0, 3, 1, 5, 4, 6, 7]),
  (-1, [2, 0, 3, 1, 5, 4, 7, 6]),
  (-1, [2, 0, 3, 1, 5, 6, 4, 7]),
  (1, [2, 0, 3, 1, 5, 6, 7, 4]),
  (-1, [2, 0, 3, 1, 5, 7, 6, 4]),
  (1, [2, 0, 3, 1, 5, 7, 4, 6]),
  (1, [2, 0, 3, 1, 6, 5, 4, 7]),
  (-1, [2, 0, 3, 1, 6, 5, 7, 4]),
  (-1, [2, 0, 3, 1, 6, 4, 5, 7]),
  (1, [2, 0, 3, 1, 6, 4, 7, 5]),
  (-1, [2, 0, 3, 1, 6, 7, 4, 5]),
  (1, [2, 0, 3, 1, 6, 7, 5, 4]),
  (1, [2, 0, 3, 1, 7, 5, 6, 4]),
  (-1, [2, 0, 3, 1, 7, 5, 4, 6]),
  (-1, [2, 0, 3, 1, 7, 6, 5, 4]),
  (1, [2, 0, 3, 1, 7, 6, 4, 5]),
  (-1, [2, 0, 3, 1, 7, 4, 6, 5]),
  (1, [2, 0, 3, 1, 7, 4, 5, 6]),
  (1, [2, 3, 0, 1, 4, 5, 6, 7]),
  (-1, [2, 3, 0, 1, 4, 5, 7, 6]),
  (-1, [2, 3, 0, 1, 4, 6, 5, 7]),
  (1, [2, 3, 0, 1, 4, 6, 7, 5]),
  (-1, [2, 3, 0, 1, 4, 7, 6, 5]),
  (1, [2, 3, 0, 1, 4, 7, 5, 6]),
  (-1, [2, 3, 0, 1, 5, 4, 6, 7]),
  (1, [2, 3, 0, 1, 5, 4, 7, 6]),
  (1, [2, 3, 0, 1, 5, 6, 4, 7]),
  (-1, [2, 3, 0, 1, 5, 6, 7, 4]),
  (1, [2, 3, 0, 1, 5, 7, 6, 4]),
  (-1, [2, 3, 0, 1, 5, 7, 4, 6])]

def tamps_antisym_T4_11 : List (ℤ × List Nat) := [
  (-1, [2, 3, 0, 1, 6, 5, 4, 7]),
  (1, [2, 3, 0, 1, 6, 5, 7, 4]),
  (1, [2, 3, 0, 1, 6, 4, 5, 7]),
  (-1, [2, 3, 0, 1, 6, 4, 7, 5]),
  (1, [2, 3, 0, 1, 6, 7, 4, 5]),
  (-1, [2, 3, 0, 1, 6, 7, 5, 4]),
  (-1, [2, 3, 0, 1, 7, 5, 6, 4]),
  (1, [2, 3, 0, 1, 7, 5, 4, 6]),
  (1, [2, 3, 0, 1, 7, 6, 5, 4]),
  (-1, [2, 3, 0, 1, 7, 6, 4, 5]),
  (1, [2, 3, 0, 1, 7, 4, 6, 5]),
  (-1, [2, 3, 0, 1, 7, 4, 5, 6]),
  (-1, [2, 3, 1, 0, 4, 5, 6, 7]),
  (1, [2, 3, 1, 0, 4, 5, 7, 6]),
  (1, [2, 3, 1, 0, 4, 6, 5, 7]),
  (-1, [2, 3, 1, 0, 4, 6, 7, 5]),
  (1, [2, 3, 1, 0, 4, 7, 6, 5]),
  (-1, [2, 3, 1, 0, 4, 7, 5, 6]),
  (1, [2, 3, 1, 0, 5, 4, 6, 7]),
  (-1, [2, 3, 1, 0, 5, 4, 7, 6]),
  (-1, [2, 3, 1, 0, 5, 6, 4, 7]),
  (1, [2, 3, 1, 0, 5, 6, 7, 4]),
  (-1, [2, 3, 1, 0, 5, 7, 6, 4]),
  (1, [2, 3, 1, 0, 5, 7, 4, 6]),
  (1, [2, 3, 1, 0, 6, 5, 4, 7]),
  (-1, [2, 3, 1, 0, 6, 5, 7, 4]),
  (-1, [2, 3, 1, 0, 6, 4, 5, 7]),
  (1, [2, 3, 1, 0, 6, 4, 7, 5]),
  (-1, [2, 3, 1, 0, 6, 7, 4, 5]),
  (1, [2, 3, 1, 0, 6, 7, 5, 4]),
  (1, [2, 3, 1, 0, 7, 5, 6, 4]),
  (-1, [2, 3, 1, 0, 7, 5, 4, 6]),
  (-1, [2, 3, 1, 0, 7, 6, 5, 4]),
  (1, [2, 3, 1, 0, 7, 6, 4, 5]),
  (-1, [2, 3, 1, 0, 7, 4, 6, 5]),
  (1, [2, 3, 1, 0, 7, 4, 5, 6])]

def tamps_antisym_T4_12 : List (ℤ × List Nat) := [
  (-1, [3, 1, 2, 0, 4, 5, 6, 7]),
  (1, [3, 1, 2, 0, 4, 5, 7, 6]),
  (1, [3, 1, 2, 0, 4, 6, 5, 7]),
  (-1, [3, 1, 2, 0, 4, 6, 7, 5]),
  (1, [3, 1, 2, 0, 4, 7, 6, 5]),
  (-1, [3, 1, 2, 0, 4, 7, 5, 6]),
  (1, [3, 1, 2, 0, 5, 4, 6, 7]),
  (-1, [3, 1, 2, 0, 5, 4, 7, 6]),
  (-1, [3, 1, 2, 0, 5, 6, 4, 7]),
  (1, [3, 1, 2, 0, 5, 6, 7, 4]),
  (-1, [3, 1, 2, 0, 5, 7, 6, 4]),
  (1, [3, 1, 2, 0, 5, 7, 4, 6]),
  (1, [3, 1, 2, 0, 6, 5, 4, 7]),
  (-1, [3, 1, 2, 0, 6, 5, 7, 4]),
  (-1, [3, 1, 2, 0, 6, 4, 5, 7]),
  (1, [3, 1, 2, 0, 6, 4, 7, 5]),
  (-1, [3, 1, 2, 0, 6, 7, 4, 5]),
  (1, [3, 1, 2, 0, 6, 7, 5, 4]),
  (1, [3, 1, 2, 0, 7, 5, 6, 4]),
  (-1, [3, 1, 2, 0, 7, 5, 4, 6]),
  (-1, [3, 1, 2, 0, 7, 6, 5, 4]),
  (1, [3, 1, 2, 0, 7, 6, 4, 5]),
  (-1, [3, 1, 2, 0, 7, 4, 6, 5]),
  (1, [3, 1, 2, 0, 7, 4, 5, 6]),
  (1, [3, 1, 0, 2, 4, 5, 6, 7]),
  (-1, [3, 1, 0, 2, 4, 5, 7, 6]),
  (-1, [3, 1, 0, 2, 4, 6, 5, 7]),
  (1, [3, 1, 0, 2, 4, 6, 7, 5]),
  (-1, [3, 1, 0, 2, 4, 7, 6, 5]),
  (1, [3, 1, 0, 2, 4, 7, 5, 6]),
  (-1, [3, 1, 0, 2, 5, 4, 6, 7]),
  (1, [3, 1, 0, 2, 5, 4, 7, 6]),
  (1, [3, 1, 0, 2, 5, 6, 4, 7]),
  (-1, [3, 1, 0, 2, 5, 6, 7, 4]),
  (1, [3, 1, 0, 2, 5, 7, 6, 4]),
  (-1, [3, 1, 0, 2, 5, 7, 4, 6])]

def tamps_antisym_T4_13 : List (ℤ × List Nat) := [
  (-1, [3, 1, 0, 2, 6, 5, 4, 7]),
  (1, [3, 1, 0, 2, 6, 5, 7, 4]),
  (1, [3, 1, 0, 2, 6, 4, 5, 7]),
  (-1, [3, 1, 0, 2, 6, 4, 7, 5]),
  (1, [3, 1, 0, 2, 6, 7, 4, 5]),
  (-1, [3, 1, 0, 2, 6, 7, 5, 4]),
  (-1, [3, 1, 0, 2, 7, 5, 6, 4]),
  (1, [3, 1, 0, 2, 7, 5, 4, 6]),
  (1, [3, 1, 0, 2, 7, 6, 5, 4]),
  (-1, [3, 1, 0, 2, 7, 6, 4, 5]),
  (1, [3, 1, 0, 2, 7, 4, 6, 5]),
  (-1, [3, 1, 0, 2, 7, 4, 5, 6]),
  (1, [3, 2, 1, 0, 4, 5, 6, 7]),
  (-1, [3, 2, 1, 0, 4, 5, 7, 6]),
  (-1, [3, 2, 1, 0, 4, 6, 5, 7]),
  (1, [3, 2, 1, 0, 4, 6, 7, 5]),
  (-1, [3, 2, 1, 0, 4, 7, 6, 5]),
  (1, [3, 2, 1, 0, 4, 7, 5, 6]),
  (-1, [3, 2, 1, 0, 5, 4, 6, 7]),
  (1, [3, 2, 1, 0, 5, 4, 7, 6]),
  (1, [3, 2, 1, 0, 5, 6, 4, 7]),
  (-1, [3, 2, 1, 0, 5, 6, 7, 4]),
  (1, [3, 2, 1, 0, 5, 7, 6, 4]),
  (-1, [3, 2, 1, 0, 5, 7, 4, 6]),
  (-1, [3, 2, 1, 0, 6, 5, 4, 7]),
  (1, [3, 2, 1, 0, 6, 5, 7, 4]),
  (1, [3, 2, 1, 0, 6, 4, 5, 7]),
  (-1, [3, 2, 1, 0, 6, 4, 7, 5]),
  (1, [3, 2, 1, 0, 6, 7, 4, 5]),
  (-1, [3, 2, 1, 0, 6, 7, 5, 4]),
  (-1, [3, 2, 1, 0, 7, 5, 6, 4]),
  (1, [3, 2, 1, 0, 7, 5, 4, 6]),
  (1, [3, 2, 1, 0, 7, 6, 5, 4]),
  (-1, [3, 2, 1, 0, 7, 6, 4, 5]),
  (1, [3, 2, 1, 0, 7, 4, 6, 5]),
  (-1, [3, 2, 1, 0, 7, 4, 5, 6])]

def tamps_antisym_T4_14 : List (ℤ × List Nat) := [
  (-1, [3, 2, 0, 1, 4, 5, 6, 7]),
  (1, [3, 2, 0, 1, 4, 5, 7, 6]),
  (1, [3, 2, 0, 1, 4, 6, 5, 7]),
  (-1, [3, 2, 0, 1, 4, 6, 7, 5]),
  (1, [3, 2, 0, 1, 4, 7, 6, 5]),
  (-1, [3, 2, 0, 1, 4, 7, 5, 6]),
  (1, [3, 2, 0, 1, 5, 4, 6, 7]),
  (-1, [3, 2, 0, 1, 5, 4, 7, 6]),
  (-1, [3, 2, 0, 1, 5, 6, 4, 7]),
  (1, [3, 2, 0, 1, 5, 6, 7, 4]),
  (-1, [3, 2, 0, 1, 5, 7, 6, 4]),
  (1, [3, 2, 0, 1, 5, 7, 4, 6]),
  (1, [3, 2, 0, 1, 6, 5, 4, 7]),
  (-1, [3, 2, 0, 1, 6, 5, 7, 4]),
  (-1, [3, 2, 0, 1, 6, 4, 5, 7]),
  (1, [3, 2, 0, 1, 6, 4, 7, 5]),
  (-1, [3, 2, 0, 1, 6, 7, 4, 5]),
  (1, [3, 2, 0, 1, 6, 7, 5, 4]),
  (1, [3, 2, 0, 1, 7, 5, 6, 4]),
  (-1, [3, 2, 0, 1, 7, 5, 4, 6]),
  (-1, [3, 2, 0, 1, 7, 6, 5, 4]),
  (1, [3, 2, 0, 1, 7, 6, 4, 5]),
  (-1, [3, 2, 0, 1, 7, 4, 6, 5]),
  (1, [3, 2, 0, 1, 7, 4, 5, 6]),
  (1, [3, 0, 2, 1, 4, 5, 6, 7]),
  (-1, [3, 0, 2, 1, 4, 5, 7, 6]),
  (-1, [3, 0, 2, 1, 4, 6, 5, 7]),
  (1, [3, 0, 2, 1, 4, 6, 7, 5]),
  (-1, [3, 0, 2, 1, 4, 7, 6, 5]),
  (1, [3, 0, 2, 1, 4, 7, 5, 6]),
  (-1, [3, 0, 2, 1, 5, 4, 6, 7]),
  (1, [3, 0, 2, 1, 5, 4, 7, 6]),
  (1, [3, 0, 2, 1, 5, 6, 4, 7]),
  (-1, [3, 0, 2, 1, 5, 6, 7, 4]),
  (1, [3, 0, 2, 1, 5, 7, 6, 4]),
  (-1, [3, 0, 2, 1, 5, 7, 4, 6])]

def tamps_antisym_T4_15 : List (ℤ × List Nat) := [
  (-1, [3, 0, 2, 1, 6, 5, 4, 7]),
  (1, [3, 0, 2, 1, 6, 5, 7, 4]),
  (1, [3, 0, 2, 1, 6, 4, 5, 7]),
  (-1, [3, 0, 2, 1, 6, 4, 7, 5]),
  (1, [3, 0, 2, 1, 6, 7, 4, 5]),
  (-1, [3, 0, 2, 1, 6, 7, 5, 4]),
  (-1, [3, 0, 2, 1, 7, 5, 6, 4]),
  (1, [3, 0, 2, 1, 7, 5, 4, 6]),
  (1, [3, 0, 2, 1, 7, 6, 5, 4]),
  (-1, [3, 0, 2, 1, 7, 6, 4, 5]),
  (1, [3, 0, 2, 1, 7, 4, 6, 5]),
  (-1, [3, 0, 2, 1, 7, 4, 5, 6]),
  (-1, [3, 0, 1, 2, 4, 5, 6, 7]),
  (1, [3, 0, 1, 2, 4, 5, 7, 6]),
  (1, [3, 0, 1, 2, 4, 6, 5, 7]),
  (-1, [3, 0, 1, 2, 4, 6, 7, 5]),
  (1, [3, 0, 1, 2, 4, 7, 6, 5]),
  (-1, [3, 0, 1, 2, 4, 7, 5, 6]),
  (1, [3, 0, 1, 2, 5, 4, 6, 7]),
  (-1, [3, 0, 1, 2, 5, 4, 7, 6]),
  (-1, [3, 0, 1, 2, 5, 6, 4, 7]),
  (1, [3, 0, 1, 2, 5, 6, 7, 4]),
  (-1, [3, 0, 1, 2, 5, 7, 6, 4]),
  (1, [3, 0, 1, 2, 5, 7, 4, 6]),
  (1, [3, 0, 1, 2, 6, 5, 4, 7]),
  (-1, [3, 0, 1, 2, 6, 5, 7, 4]),
  (-1, [3, 0, 1, 2, 6, 4, 5, 7]),
  (1, [3, 0, 1, 2, 6, 4, 7, 5]),
  (-1, [3, 0, 1, 2, 6, 7, 4, 5]),
  (1, [3, 0, 1, 2, 6, 7, 5, 4]),
  (1, [3, 0, 1, 2, 7, 5, 6, 4]),
  (-1, [3, 0, 1, 2, 7, 5, 4, 6]),
  (-1, [3, 0, 1, 2, 7, 6, 5, 4]),
  (1, [3, 0, 1, 2, 7, 6, 4, 5]),
  (-1, [3, 0, 1, 2, 7, 4, 6, 5]),
  (1, [3, 0, 1, 2, 7, 4, 5, 6])]

/-- `tamps.py` 110-692 `antisym_T4`: signs and output positions of the accumulated `einsum` calls. -/
def tamps_antisym_T4 : List (ℤ × List Nat) :=
  tamps_antisym_T4_0 ++ (tamps_antisym_T4_1 ++ (tamps_antisym_T4_2 ++ (tamps_antisym_T4_3 ++ (tamps_antisym_T4_4 ++ (tamps_antisym_T4_5 ++ (tamps_antisym_T4_6 ++ (tamps_antisym_T4_7 ++ (tamps_antisym_T4_8 ++ (tamps_antisym_T4_9 ++ (tamps_antisym_T4_10 ++ (tamps_antisym_T4_11 ++ (tamps_antisym_T4_12 ++ (tamps_antisym_T4_13 ++ (tamps_antisym_T4_14 ++ (tamps_antisym_T4_15)))))))))))))))

/-- `wicked_T3corr.py` 188-195 `antisym_T2`: signs and output positions of the accumulated `einsum` calls. -/
def wicked_antisym_T2 : List (ℤ × List Nat) := [
  (1, [0, 1, 2, 3]),
  (-1, [1, 0, 2, 3]),
  (-1, [0, 1, 3, 2]),
  (1, [1, 0, 3, 2])
  ]

/-- `wicked_T3corr.py` 146-185 `antisym_T3`: signs and output positions of the accumulated `einsum` calls. -/
def wicked_antisym_T3 : List (ℤ × List Nat) := [
  (1, [0, 1, 2, 3, 4, 5]),
  (-1, [0, 1, 2, 3, 5, 4]),
  (-1, [0, 1, 2, 4, 3, 5]),
  (1, [0, 1, 2, 4, 5, 3]),
  (1, [0, 1, 2, 5, 3, 4]),
  (-1, [0, 1, 2, 5, 4, 3]),
  (-1, [0, 2, 1, 3, 4, 5]),
  (1, [0, 2, 1, 3, 5, 4]),
  (1, [0, 2, 1, 4, 3, 5]),
  (-1, [0, 2, 1, 4, 5, 3]),
  (-1, [0, 2, 1, 5, 3, 4]),
  (1, [0, 2, 1, 5, 4, 3]),
  (-1, [1, 0, 2, 3, 4, 5]),
  (1, [1, 0, 2, 3, 5, 4]),
  (1, [1, 0, 2, 4, 3, 5]),
  (-1, [1, 0, 2, 4, 5, 3]),
  (-1, [1, 0, 2, 5, 3, 4]),
  (1, [1, 0, 2, 5, 4, 3]),
  (1, [1, 2, 0, 3, 4, 5]),
  (-1, [1, 2, 0, 3, 5, 4]),
  (-1, [1, 2, 0, 4, 3, 5]),
  (1, [1, 2, 0, 4, 5, 3]),
  (1, [1, 2, 0, 5, 3, 4]),
  (-1, [1, 2, 0, 5, 4, 3]),
  (1, [2, 0, 1, 3, 4, 5]),
  (-1, [2, 0, 1, 3, 5, 4]),
  (-1, [2, 0, 1, 4, 3, 5]),
  (1, [2, 0, 1, 4, 5, 3]),
  (1, [2, 0, 1, 5, 3, 4]),
  (-1, [2, 0, 1, 5, 4, 3]),
  (-1, [2, 1, 0, 3, 4, 5]),
  (1, [2, 1, 0, 3, 5, 4]),
  (1, [2, 1, 0, 4, 3, 5]),
  (-1, [2, 1, 0, 4, 5, 3]),
  (-1, [2, 1, 0, 5, 3, 4]),
  (1, [2, 1, 0, 5, 4, 3])
  ]

end Verif.Gen
