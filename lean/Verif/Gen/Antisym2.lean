import Verif.Ein.Names
import Verif.Ein.Ops

/-! Written by `/verif/tools/gen.py`. The antisymmetrising functions of `antisym_t4resids.py`. -/

set_option maxRecDepth 100000

namespace Verif.Gen

open Verif.Ein Verif.Ein.N


def t4resids_antisym_T3_0 : List (ℤ × List Nat) := [
  (1, [0, 1, 2, 3, 4, 5]),
  (-1, [0, 1, 2, 3, 5, 4]),
  (-1, [0, 1, 2, 4, 3, 5]),
  (1, [0, 1, 2, 4, 5, 3]),
  (-1, [0, 1, 2, 5, 4, 3]),
  (1, [0, 1, 2, 5, 3, 4]),
  (-1, [0, 1, 3, 2, 4, 5]),
  (1, [0, 1, 3, 2, 5, 4]),
  (1, [0, 1, 3, 4, 2, 5]),
  (-1, [0, 1, 3, 4, 5, 2]),
  (1, [0, 1, 3, 5, 4, 2]),
  (-1, [0, 1, 3, 5, 2, 4]),
  (-1, [0, 1, 4, 3, 2, 5]),
  (1, [0, 1, 4, 3, 5, 2]),
  (1, [0, 1, 4, 2, 3, 5]),
  (-1, [0, 1, 4, 2, 5, 3]),
  (1, [0, 1, 4, 5, 2, 3]),
  (-1, [0, 1, 4, 5, 3, 2]),
  (-1, [0, 1, 5, 3, 4, 2]),
  (1, [0, 1, 5, 3, 2, 4]),
  (1, [0, 1, 5, 4, 3, 2]),
  (-1, [0, 1, 5, 4, 2, 3]),
  (1, [0, 1, 5, 2, 4, 3]),
  (-1, [0, 1, 5, 2, 3, 4]),
  (-1, [1, 0, 2, 3, 4, 5]),
  (1, [1, 0, 2, 3, 5, 4]),
  (1, [1, 0, 2, 4, 3, 5]),
  (-1, [1, 0, 2, 4, 5, 3]),
  (1, [1, 0, 2, 5, 4, 3]),
  (-1, [1, 0, 2, 5, 3, 4]),
  (1, [1, 0, 3, 2, 4, 5]),
  (-1, [1, 0, 3, 2, 5, 4]),
  (-1, [1, 0, 3, 4, 2, 5]),
  (1, [1, 0, 3, 4, 5, 2]),
  (-1, [1, 0, 3, 5, 4, 2]),
  (1, [1, 0, 3, 5, 2, 4])]

def t4resids_antisym_T3_1 : List (ℤ × List Nat) := [
  (1, [1, 0, 4, 3, 2, 5]),
  (-1, [1, 0, 4, 3, 5, 2]),
  (-1, [1, 0, 4, 2, 3, 5]),
  (1, [1, 0, 4, 2, 5, 3]),
  (-1, [1, 0, 4, 5, 2, 3]),
  (1, [1, 0, 4, 5, 3, 2]),
  (1, [1, 0, 5, 3, 4, 2]),
  (-1, [1, 0, 5, 3, 2, 4]),
  (-1, [1, 0, 5, 4, 3, 2]),
  (1, [1, 0, 5, 4, 2, 3]),
  (-1, [1, 0, 5, 2, 4, 3]),
  (1, [1, 0, 5, 2, 3, 4])]

/-- `antisym_t4resids.py` 149-198 `antisym_T3`: signs and output positions of the accumulated `einsum` calls. -/
def t4resids_antisym_T3 : List (ℤ × List Nat) :=
  t4resids_antisym_T3_0 ++ (t4resids_antisym_T3_1)

def t4resids_antisym_t4_residual_0 : List (ℤ × List Nat) := [
  (1, [0, 1, 2, 3, 4, 5, 6, 7]),
  (-1, [0, 1, 2, 3, 4, 5, 7, 6]),
  (-1, [0, 1, 2, 3, 4, 6, 5, 7]),
  (1, [0, 1, 2, 3, 4, 6, 7, 5]),
  (-1, [0, 1, 2, 3, 4, 7, 6, 5]),
  (1, [0, 1, 2, 3, 4, 7, 5, 6]),
  (-1, [0, 1, 2, 3, 5, 4, 6, 7]),
  (1, [0, 1, 2, 3, 5, 4, 7, 6]),
  (1, [0, 1, 2, 3, 5, 6, 4, 7]),
  (-1, [0, 1, 2, 3, 5, 6, 7, 4]),
  (1, [0, 1, 2, 3, 5, 7, 6, 4]),
  (-1, [0, 1, 2, 3, 5, 7, 4, 6]),
  (-1, [0, 1, 2, 3, 6, 5, 4, 7]),
  (1, [0, 1, 2, 3, 6, 5, 7, 4]),
  (1, [0, 1, 2, 3, 6, 4, 5, 7]),
  (-1, [0, 1, 2, 3, 6, 4, 7, 5]),
  (1, [0, 1, 2, 3, 6, 7, 4, 5]),
  (-1, [0, 1, 2, 3, 6, 7, 5, 4]),
  (-1, [0, 1, 2, 3, 7, 5, 6, 4]),
  (1, [0, 1, 2, 3, 7, 5, 4, 6]),
  (1, [0, 1, 2, 3, 7, 6, 5, 4]),
  (-1, [0, 1, 2, 3, 7, 6, 4, 5]),
  (1, [0, 1, 2, 3, 7, 4, 6, 5]),
  (-1, [0, 1, 2, 3, 7, 4, 5, 6]),
  (-1, [0, 1, 3, 2, 4, 5, 6, 7]),
  (1, [0, 1, 3, 2, 4, 5, 7, 6]),
  (1, [0, 1, 3, 2, 4, 6, 5, 7]),
  (-1, [0, 1, 3, 2, 4, 6, 7, 5]),
  (1, [0, 1, 3, 2, 4, 7, 6, 5]),
  (-1, [0, 1, 3, 2, 4, 7, 5, 6]),
  (1, [0, 1, 3, 2, 5, 4, 6, 7]),
  (-1, [0, 1, 3, 2, 5, 4, 7, 6]),
  (-1, [0, 1, 3, 2, 5, 6, 4, 7]),
  (1, [0, 1, 3, 2, 5, 6, 7, 4]),
  (-1, [0, 1, 3, 2, 5, 7, 6, 4]),
  (1, [0, 1, 3, 2, 5, 7, 4, 6])]

def t4resids_antisym_t4_residual_1 : List (ℤ × List Nat) := [
  (1, [0, 1, 3, 2, 6, 5, 4, 7]),
  (-1, [0, 1, 3, 2, 6, 5, 7, 4]),
  (-1, [0, 1, 3, 2, 6, 4, 5, 7]),
  (1, [0, 1, 3, 2, 6, 4, 7, 5]),
  (-1, [0, 1, 3, 2, 6, 7, 4, 5]),
  (1, [0, 1, 3, 2, 6, 7, 5, 4]),
  (1, [0, 1, 3, 2, 7, 5, 6, 4]),
  (-1, [0, 1, 3, 2, 7, 5, 4, 6]),
  (-1, [0, 1, 3, 2, 7, 6, 5, 4]),
  (1, [0, 1, 3, 2, 7, 6, 4, 5]),
  (-1, [0, 1, 3, 2, 7, 4, 6, 5]),
  (1, [0, 1, 3, 2, 7, 4, 5, 6]),
  (-1, [0, 2, 1, 3, 4, 5, 6, 7]),
  (1, [0, 2, 1, 3, 4, 5, 7, 6]),
  (1, [0, 2, 1, 3, 4, 6, 5, 7]),
  (-1, [0, 2, 1, 3, 4, 6, 7, 5]),
  (1, [0, 2, 1, 3, 4, 7, 6, 5]),
  (-1, [0, 2, 1, 3, 4, 7, 5, 6]),
  (1, [0, 2, 1, 3, 5, 4, 6, 7]),
  (-1, [0, 2, 1, 3, 5, 4, 7, 6]),
  (-1, [0, 2, 1, 3, 5, 6, 4, 7]),
  (1, [0, 2, 1, 3, 5, 6, 7, 4]),
  (-1, [0, 2, 1, 3, 5, 7, 6, 4]),
  (1, [0, 2, 1, 3, 5, 7, 4, 6]),
  (1, [0, 2, 1, 3, 6, 5, 4, 7]),
  (-1, [0, 2, 1, 3, 6, 5, 7, 4]),
  (-1, [0, 2, 1, 3, 6, 4, 5, 7]),
  (1, [0, 2, 1, 3, 6, 4, 7, 5]),
  (-1, [0, 2, 1, 3, 6, 7, 4, 5]),
  (1, [0, 2, 1, 3, 6, 7, 5, 4]),
  (1, [0, 2, 1, 3, 7, 5, 6, 4]),
  (-1, [0, 2, 1, 3, 7, 5, 4, 6]),
  (-1, [0, 2, 1, 3, 7, 6, 5, 4]),
  (1, [0, 2, 1, 3, 7, 6, 4, 5]),
  (-1, [0, 2, 1, 3, 7, 4, 6, 5]),
  (1, [0, 2, 1, 3, 7, 4, 5, 6])]

def t4resids_antisym_t4_residual_2 : List (ℤ × List Nat) := [
  (1, [0, 2, 3, 1, 4, 5, 6, 7]),
  (-1, [0, 2, 3, 1, 4, 5, 7, 6]),
  (-1, [0, 2, 3, 1, 4, 6, 5, 7]),
  (1, [0, 2, 3, 1, 4, 6, 7, 5]),
  (-1, [0, 2, 3, 1, 4, 7, 6, 5]),
  (1, [0, 2, 3, 1, 4, 7, 5, 6]),
  (-1, [0, 2, 3, 1, 5, 4, 6, 7]),
  (1, [0, 2, 3, 1, 5, 4, 7, 6]),
  (1, [0, 2, 3, 1, 5, 6, 4, 7]),
  (-1, [0, 2, 3, 1, 5, 6, 7, 4]),
  (1, [0, 2, 3, 1, 5, 7, 6, 4]),
  (-1, [0, 2, 3, 1, 5, 7, 4, 6]),
  (-1, [0, 2, 3, 1, 6, 5, 4, 7]),
  (1, [0, 2, 3, 1, 6, 5, 7, 4]),
  (1, [0, 2, 3, 1, 6, 4, 5, 7]),
  (-1, [0, 2, 3, 1, 6, 4, 7, 5]),
  (1, [0, 2, 3, 1, 6, 7, 4, 5]),
  (-1, [0, 2, 3, 1, 6, 7, 5, 4]),
  (-1, [0, 2, 3, 1, 7, 5, 6, 4]),
  (1, [0, 2, 3, 1, 7, 5, 4, 6]),
  (1, [0, 2, 3, 1, 7, 6, 5, 4]),
  (-1, [0, 2, 3, 1, 7, 6, 4, 5]),
  (1, [0, 2, 3, 1, 7, 4, 6, 5]),
  (-1, [0, 2, 3, 1, 7, 4, 5, 6]),
  (-1, [0, 3, 2, 1, 4, 5, 6, 7]),
  (1, [0, 3, 2, 1, 4, 5, 7, 6]),
  (1, [0, 3, 2, 1, 4, 6, 5, 7]),
  (-1, [0, 3, 2, 1, 4, 6, 7, 5]),
  (1, [0, 3, 2, 1, 4, 7, 6, 5]),
  (-1, [0, 3, 2, 1, 4, 7, 5, 6]),
  (1, [0, 3, 2, 1, 5, 4, 6, 7]),
  (-1, [0, 3, 2, 1, 5, 4, 7, 6]),
  (-1, [0, 3, 2, 1, 5, 6, 4, 7]),
  (1, [0, 3, 2, 1, 5, 6, 7, 4]),
  (-1, [0, 3, 2, 1, 5, 7, 6, 4]),
  (1, [0, 3, 2, 1, 5, 7, 4, 6])]

def t4resids_antisym_t4_residual_3 : List (ℤ × List Nat) := [
  (1, [0, 3, 2, 1, 6, 5, 4, 7]),
  (-1, [0, 3, 2, 1, 6, 5, 7, 4]),
  (-1, [0, 3, 2, 1, 6, 4, 5, 7]),
  (1, [0, 3, 2, 1, 6, 4, 7, 5]),
  (-1, [0, 3, 2, 1, 6, 7, 4, 5]),
  (1, [0, 3, 2, 1, 6, 7, 5, 4]),
  (1, [0, 3, 2, 1, 7, 5, 6, 4]),
  (-1, [0, 3, 2, 1, 7, 5, 4, 6]),
  (-1, [0, 3, 2, 1, 7, 6, 5, 4]),
  (1, [0, 3, 2, 1, 7, 6, 4, 5]),
  (-1, [0, 3, 2, 1, 7, 4, 6, 5]),
  (1, [0, 3, 2, 1, 7, 4, 5, 6]),
  (1, [0, 3, 1, 2, 4, 5, 6, 7]),
  (-1, [0, 3, 1, 2, 4, 5, 7, 6]),
  (-1, [0, 3, 1, 2, 4, 6, 5, 7]),
  (1, [0, 3, 1, 2, 4, 6, 7, 5]),
  (-1, [0, 3, 1, 2, 4, 7, 6, 5]),
  (1, [0, 3, 1, 2, 4, 7, 5, 6]),
  (-1, [0, 3, 1, 2, 5, 4, 6, 7]),
  (1, [0, 3, 1, 2, 5, 4, 7, 6]),
  (1, [0, 3, 1, 2, 5, 6, 4, 7]),
  (-1, [0, 3, 1, 2, 5, 6, 7, 4]),
  (1, [0, 3, 1, 2, 5, 7, 6, 4]),
  (-1, [0, 3, 1, 2, 5, 7, 4, 6]),
  (-1, [0, 3, 1, 2, 6, 5, 4, 7]),
  (1, [0, 3, 1, 2, 6, 5, 7, 4]),
  (1, [0, 3, 1, 2, 6, 4, 5, 7]),
  (-1, [0, 3, 1, 2, 6, 4, 7, 5]),
  (1, [0, 3, 1, 2, 6, 7, 4, 5]),
  (-1, [0, 3, 1, 2, 6, 7, 5, 4]),
  (-1, [0, 3, 1, 2, 7, 5, 6, 4]),
  (1, [0, 3, 1, 2, 7, 5, 4, 6]),
  (1, [0, 3, 1, 2, 7, 6, 5, 4]),
  (-1, [0, 3, 1, 2, 7, 6, 4, 5]),
  (1, [0, 3, 1, 2, 7, 4, 6, 5]),
  (-1, [0, 3, 1, 2, 7, 4, 5, 6])]

def t4resids_antisym_t4_residual_4 : List (ℤ × List Nat) := [
  (-1, [1, 0, 2, 3, 4, 5, 6, 7]),
  (1, [1, 0, 2, 3, 4, 5, 7, 6]),
  (1, [1, 0, 2, 3, 4, 6, 5, 7]),
  (-1, [1, 0, 2, 3, 4, 6, 7, 5]),
  (1, [1, 0, 2, 3, 4, 7, 6, 5]),
  (-1, [1, 0, 2, 3, 4, 7, 5, 6]),
  (1, [1, 0, 2, 3, 5, 4, 6, 7]),
  (-1, [1, 0, 2, 3, 5, 4, 7, 6]),
  (-1, [1, 0, 2, 3, 5, 6, 4, 7]),
  (1, [1, 0, 2, 3, 5, 6, 7, 4]),
  (-1, [1, 0, 2, 3, 5, 7, 6, 4]),
  (1, [1, 0, 2, 3, 5, 7, 4, 6]),
  (1, [1, 0, 2, 3, 6, 5, 4, 7]),
  (-1, [1, 0, 2, 3, 6, 5, 7, 4]),
  (-1, [1, 0, 2, 3, 6, 4, 5, 7]),
  (1, [1, 0, 2, 3, 6, 4, 7, 5]),
  (-1, [1, 0, 2, 3, 6, 7, 4, 5]),
  (1, [1, 0, 2, 3, 6, 7, 5, 4]),
  (1, [1, 0, 2, 3, 7, 5, 6, 4]),
  (-1, [1, 0, 2, 3, 7, 5, 4, 6]),
  (-1, [1, 0, 2, 3, 7, 6, 5, 4]),
  (1, [1, 0, 2, 3, 7, 6, 4, 5]),
  (-1, [1, 0, 2, 3, 7, 4, 6, 5]),
  (1, [1, 0, 2, 3, 7, 4, 5, 6]),
  (1, [1, 0, 3, 2, 4, 5, 6, 7]),
  (-1, [1, 0, 3, 2, 4, 5, 7, 6]),
  (-1, [1, 0, 3, 2, 4, 6, 5, 7]),
  (1, [1, 0, 3, 2, 4, 6, 7, 5]),
  (-1, [1, 0, 3, 2, 4, 7, 6, 5]),
  (1, [1, 0, 3, 2, 4, 7, 5, 6]),
  (-1, [1, 0, 3, 2, 5, 4, 6, 7]),
  (1, [1, 0, 3, 2, 5, 4, 7, 6]),
  (1, [1, 0, 3, 2, 5, 6, 4, 7]),
  (-1, [1, 0, 3, 2, 5, 6, 7, 4]),
  (1, [1, 0, 3, 2, 5, 7, 6, 4]),
  (-1, [1, 0, 3, 2, 5, 7, 4, 6])]

def t4resids_antisym_t4_residual_5 : List (ℤ × List Nat) := [
  (-1, [1, 0, 3, 2, 6, 5, 4, 7]),
  (1, [1, 0, 3, 2, 6, 5, 7, 4]),
  (1, [1, 0, 3, 2, 6, 4, 5, 7]),
  (-1, [1, 0, 3, 2, 6, 4, 7, 5]),
  (1, [1, 0, 3, 2, 6, 7, 4, 5]),
  (-1, [1, 0, 3, 2, 6, 7, 5, 4]),
  (-1, [1, 0, 3, 2, 7, 5, 6, 4]),
  (1, [1, 0, 3, 2, 7, 5, 4, 6]),
  (1, [1, 0, 3, 2, 7, 6, 5, 4]),
  (-1, [1, 0, 3, 2, 7, 6, 4, 5]),
  (1, [1, 0, 3, 2, 7, 4, 6, 5]),
  (-1, [1, 0, 3, 2, 7, 4, 5, 6]),
  (1, [1, 2, 0, 3, 4, 5, 6, 7]),
  (-1, [1, 2, 0, 3, 4, 5, 7, 6]),
  (-1, [1, 2, 0, 3, 4, 6, 5, 7]),
  (1, [1, 2, 0, 3, 4, 6, 7, 5]),
  (-1, [1, 2, 0, 3, 4, 7, 6, 5]),
  (1, [1, 2, 0, 3, 4, 7, 5, 6]),
  (-1, [1, 2, 0, 3, 5, 4, 6, 7]),
  (1, [1, 2, 0, 3, 5, 4, 7, 6]),
  (1, [1, 2, 0, 3, 5, 6, 4, 7]),
  (-1, [1, 2, 0, 3, 5, 6, 7, 4]),
  (1, [1, 2, 0, 3, 5, 7, 6, 4]),
  (-1, [1, 2, 0, 3, 5, 7, 4, 6]),
  (-1, [1, 2, 0, 3, 6, 5, 4, 7]),
  (1, [1, 2, 0, 3, 6, 5, 7, 4]),
  (1, [1, 2, 0, 3, 6, 4, 5, 7]),
  (-1, [1, 2, 0, 3, 6, 4, 7, 5]),
  (1, [1, 2, 0, 3, 6, 7, 4, 5]),
  (-1, [1, 2, 0, 3, 6, 7, 5, 4]),
  (-1, [1, 2, 0, 3, 7, 5, 6, 4]),
  (1, [1, 2, 0, 3, 7, 5, 4, 6]),
  (1, [1, 2, 0, 3, 7, 6, 5, 4]),
  (-1, [1, 2, 0, 3, 7, 6, 4, 5]),
  (1, [1, 2, 0, 3, 7, 4, 6, 5]),
  (-1, [1, 2, 0, 3, 7, 4, 5, 6])]

def t4resids_antisym_t4_residual_6 : List (ℤ × List Nat) := [
  (-1, [1, 2, 3, 0, 4, 5, 6, 7]),
  (1, [1, 2, 3, 0, 4, 5, 7, 6]),
  (1, [1, 2, 3, 0, 4, 6, 5, 7]),
  (-1, [1, 2, 3, 0, 4, 6, 7, 5]),
  (1, [1, 2, 3, 0, 4, 7, 6, 5]),
  (-1, [1, 2, 3, 0, 4, 7, 5, 6]),
  (1, [1, 2, 3, 0, 5, 4, 6, 7]),
  (-1, [1, 2, 3, 0, 5, 4, 7, 6]),
  (-1, [1, 2, 3, 0, 5, 6, 4, 7]),
  (1, [1, 2, 3, 0, 5, 6, 7, 4]),
  (-1, [1, 2, 3, 0, 5, 7, 6, 4]),
  (1, [1, 2, 3, 0, 5, 7, 4, 6]),
  (1, [1, 2, 3, 0, 6, 5, 4, 7]),
  (-1, [1, 2, 3, 0, 6, 5, 7, 4]),
  (-1, [1, 2, 3, 0, 6, 4, 5, 7]),
  (1, [1, 2, 3, 0, 6, 4, 7, 5]),
  (-1, [1, 2, 3, 0, 6, 7, 4, 5]),
  (1, [1, 2, 3, 0, 6, 7, 5, 4]),
  (1, [1, 2, 3, 0, 7, 5, 6, 4]),
  (-1, [1, 2, 3, 0, 7, 5, 4, 6]),
  (-1, [1, 2, 3, 0, 7, 6, 5, 4]),
  (1, [1, 2, 3, 0, 7, 6, 4, 5]),
  (-1, [1, 2, 3, 0, 7, 4, 6, 5]),
  (1, [1, 2, 3, 0, 7, 4, 5, 6]),
  (1, [1, 3, 2, 0, 4, 5, 6, 7]),
  (-1, [1, 3, 2, 0, 4, 5, 7, 6]),
  (-1, [1, 3, 2, 0, 4, 6, 5, 7]),
  (1, [1, 3, 2, 0, 4, 6, 7, 5]),
  (-1, [1, 3, 2, 0, 4, 7, 6, 5]),
  (1, [1, 3, 2, 0, 4, 7, 5, 6]),
  (-1, [1, 3, 2, 0, 5, 4, 6, 7]),
  (1, [1, 3, 2, 0, 5, 4, 7, 6]),
  (1, [1, 3, 2, 0, 5, 6, 4, 7]),
  (-1, [1, 3, 2, 0, 5, 6, 7, 4]),
  (1, [1, 3, 2, 0, 5, 7, 6, 4]),
  (-1, [1, 3, 2, 0, 5, 7, 4, 6])]

def t4resids_antisym_t4_residual_7 : List (ℤ × List Nat) := [
  (-1, [1, 3, 2, 0, 6, 5, 4, 7]),
  (1, [1, 3, 2, 0, 6, 5, 7, 4]),
  (1, [1, 3, 2, 0, 6, 4, 5, 7]),
  (-1, [1, 3, 2, 0, 6, 4, 7, 5]),
  (1, [1, 3, 2, 0, 6, 7, 4, 5]),
  (-1, [1, 3, 2, 0, 6, 7, 5, 4]),
  (-1, [1, 3, 2, 0, 7, 5, 6, 4]),
  (1, [1, 3, 2, 0, 7, 5, 4, 6]),
  (1, [1, 3, 2, 0, 7, 6, 5, 4]),
  (-1, [1, 3, 2, 0, 7, 6, 4, 5]),
  (1, [1, 3, 2, 0, 7, 4, 6, 5]),
  (-1, [1, 3, 2, 0, 7, 4, 5, 6]),
  (-1, [1, 3, 0, 2, 4, 5, 6, 7]),
  (1, [1, 3, 0, 2, 4, 5, 7, 6]),
  (1, [1, 3, 0, 2, 4, 6, 5, 7]),
  (-1, [1, 3, 0, 2, 4, 6, 7, 5]),
  (1, [1, 3, 0, 2, 4, 7, 6, 5]),
  (-1, [1, 3, 0, 2, 4, 7, 5, 6]),
  (1, [1, 3, 0, 2, 5, 4, 6, 7]),
  (-1, [1, 3, 0, 2, 5, 4, 7, 6]),
  (-1, [1, 3, 0, 2, 5, 6, 4, 7]),
  (1, [1, 3, 0, 2, 5, 6, 7, 4]),
  (-1, [1, 3, 0, 2, 5, 7, 6, 4]),
  (1, [1, 3, 0, 2, 5, 7, 4, 6]),
  (1, [1, 3, 0, 2, 6, 5, 4, 7]),
  (-1, [1, 3, 0, 2, 6, 5, 7, 4]),
  (-1, [1, 3, 0, 2, 6, 4, 5, 7]),
  (1, [1, 3, 0, 2, 6, 4, 7, 5]),
  (-1, [1, 3, 0, 2, 6, 7, 4, 5]),
  (1, [1, 3, 0, 2, 6, 7, 5, 4]),
  (1, [1, 3, 0, 2, 7, 5, 6, 4]),
  (-1, [1, 3, 0, 2, 7, 5, 4, 6]),
  (-1, [1, 3, 0, 2, 7, 6, 5, 4]),
  (1, [1, 3, 0, 2, 7, 6, 4, 5]),
  (-1, [1, 3, 0, 2, 7, 4, 6, 5]),
  (1, [1, 3, 0, 2, 7, 4, 5, 6])]

def t4resids_antisym_t4_residual_8 : List (ℤ × List Nat) := [
  (-1, [2, 1, 0, 3, 4, 5, 6, 7]),
  (1, [2, 1, 0, 3, 4, 5, 7, 6]),
  (1, [2, 1, 0, 3, 4, 6, 5, 7]),
  (-1, [2, 1, 0, 3, 4, 6, 7, 5]),
  (1, [2, 1, 0, 3, 4, 7, 6, 5]),
  (-1, [2, 1, 0, 3, 4, 7, 5, 6]),
  (1, [2, 1, 0, 3, 5, 4, 6, 7]),
  (-1, [2, 1, 0, 3, 5, 4, 7, 6]),
  (-1, [2, 1, 0, 3, 5, 6, 4, 7]),
  (1, [2, 1, 0, 3, 5, 6, 7, 4]),
  (-1, [2, 1, 0, 3, 5, 7, 6, 4]),
  (1, [2, 1, 0, 3, 5, 7, 4, 6]),
  (1, [2, 1, 0, 3, 6, 5, 4, 7]),
  (-1, [2, 1, 0, 3, 6, 5, 7, 4]),
  (-1, [2, 1, 0, 3, 6, 4, 5, 7]),
  (1, [2, 1, 0, 3, 6, 4, 7, 5]),
  (-1, [2, 1, 0, 3, 6, 7, 4, 5]),
  (1, [2, 1, 0, 3, 6, 7, 5, 4]),
  (1, [2, 1, 0, 3, 7, 5, 6, 4]),
  (-1, [2, 1, 0, 3, 7, 5, 4, 6]),
  (-1, [2, 1, 0, 3, 7, 6, 5, 4]),
  (1, [2, 1, 0, 3, 7, 6, 4, 5]),
  (-1, [2, 1, 0, 3, 7, 4, 6, 5]),
  (1, [2, 1, 0, 3, 7, 4, 5, 6]),
  (1, [2, 1, 3, 0, 4, 5, 6, 7]),
  (-1, [2, 1, 3, 0, 4, 5, 7, 6]),
  (-1, [2, 1, 3, 0, 4, 6, 5, 7]),
  (1, [2, 1, 3, 0, 4, 6, 7, 5]),
  (-1, [2, 1, 3, 0, 4, 7, 6, 5]),
  (1, [2, 1, 3, 0, 4, 7, 5, 6]),
  (-1, [2, 1, 3, 0, 5, 4, 6, 7]),
  (1, [2, 1, 3, 0, 5, 4, 7, 6]),
  (1, [2, 1, 3, 0, 5, 6, 4, 7]),
  (-1, [2, 1, 3, 0, 5, 6, 7, 4]),
  (1, [2, 1, 3, 0, 5, 7, 6, 4]),
  (-1, [2, 1, 3, 0, 5, 7, 4, 6])]

def t4resids_antisym_t4_residual_9 : List (ℤ × List Nat) := [
  (-1, [2, 1, 3, 0, 6, 5, 4, 7]),
  (1, [2, 1, 3, 0, 6, 5, 7, 4]),
  (1, [2, 1, 3, 0, 6, 4, 5, 7]),
  (-1, [2, 1, 3, 0, 6, 4, 7, 5]),
  (1, [2, 1, 3, 0, 6, 7, 4, 5]),
  (-1, [2, 1, 3, 0, 6, 7, 5, 4]),
  (-1, [2, 1, 3, 0, 7, 5, 6, 4]),
  (1, [2, 1, 3, 0, 7, 5, 4, 6]),
  (1, [2, 1, 3, 0, 7, 6, 5, 4]),
  (-1, [2, 1, 3, 0, 7, 6, 4, 5]),
  (1, [2, 1, 3, 0, 7, 4, 6, 5]),
  (-1, [2, 1, 3, 0, 7, 4, 5, 6]),
  (1, [2, 0, 1, 3, 4, 5, 6, 7]),
  (-1, [2, 0, 1, 3, 4, 5, 7, 6]),
  (-1, [2, 0, 1, 3, 4, 6, 5, 7]),
  (1, [2, 0, 1, 3, 4, 6, 7, 5]),
  (-1, [2, 0, 1, 3, 4, 7, 6, 5]),
  (1, [2, 0, 1, 3, 4, 7, 5, 6]),
  (-1, [2, 0, 1, 3, 5, 4, 6, 7]),
  (1, [2, 0, 1, 3, 5, 4, 7, 6]),
  (1, [2, 0, 1, 3, 5, 6, 4, 7]),
  (-1, [2, 0, 1, 3, 5, 6, 7, 4]),
  (1, [2, 0, 1, 3, 5, 7, 6, 4]),
  (-1, [2, 0, 1, 3, 5, 7, 4, 6]),
  (-1, [2, 0, 1, 3, 6, 5, 4, 7]),
  (1, [2, 0, 1, 3, 6, 5, 7, 4]),
  (1, [2, 0, 1, 3, 6, 4, 5, 7]),
  (-1, [2, 0, 1, 3, 6, 4, 7, 5]),
  (1, [2, 0, 1, 3, 6, 7, 4, 5]),
  (-1, [2, 0, 1, 3, 6, 7, 5, 4]),
  (-1, [2, 0, 1, 3, 7, 5, 6, 4]),
  (1, [2, 0, 1, 3, 7, 5, 4, 6]),
  (1, [2, 0, 1, 3, 7, 6, 5, 4]),
  (-1, [2, 0, 1, 3, 7, 6, 4, 5]),
  (1, [2, 0, 1, 3, 7, 4, 6, 5]),
  (-1, [2, 0, 1, 3, 7, 4, 5, 6])]

def t4resids_antisym_t4_residual_10 : List (ℤ × List Nat) := [
  (-1, [2, 0, 3, 1, 4, 5, 6, 7]),
  (1, [2, 0, 3, 1, 4, 5, 7, 6]),
  (1, [2, 0, 3, 1, 4, 6, 5, 7]),
  (-1, [2, 0, 3, 1, 4, 6, 7, 5]),
  (1, [2, 0, 3, 1, 4, 7, 6, 5]),
  (-1, [2, 0, 3, 1, 4, 7, 5, 6]),
  (1, [2, 0, 3, 1, 5, 4, 6, 7]),
  (-1, [2, 0, 3, 1, 5, 4, 7, 6]),
  (-1, [2, 0, 3, 1, 5, 6, 4, 7]),
  (1, [2, 0, 3, 1, 5, 6, 7, 4]),
  (-1, [2, 0, 3, 1, 5, 7, 6, 4]),
  (1, [2, 0, 3, 1, 5, 7, 4, 6]),
  (1, [2, 0, 3, 1, 6, 5, 4, 7]),
  (-1, [2, 0, 3, 1, 6, 5, 7, 4]),
  (-1, [2, 0, 3, 1, 6, 4, 5, 7]),
  (1, [2, 0, 3, 1, 6, 4, 7, 5]),
  (-1, [2, 0, 3, 1, 6, 7, 4, 5]),
  (1, [2, 0, 3, 1, 6, 7, 5, 4]),
  (1, [2, 0, 3, 1, 7, 5, 6, 4]),
  (-1, [2, 0, 3, 1, 7, 5, 4, 6]),
  (-1, [2, 0, 3, 1, 7, 6, 5, 4]),
  (1, [2, 0, 3, 1, 7, 6, 4, 5]),
  (-1, [2, 0, 3, 1, 7, 4, 6, 5]),
  (1, [2, 0, 3, 1, 7, 4, 5, 6]),
  (1, [2, 3, 0, 1, 4, 5, 6, 7]),
  (-1, [2, 3, 0, 1, 4, 5, 7, 6]),
  (-1, [2, 3, 0, 1, 4, 6, 5, 7]),
  (1, [2, 3, 0, 1, 4, 6, 7, 5]),
  (-1, [2, 3, 0, 1, 4, 7, 6, 5]),
  (1, [2, 3, 0, 1, 4, 7, 5, 6]),
  (-1, [2, 3, 0, 1, 5, 4, 6, 7]),
  (1, [2, 3, 0, 1, 5, 4, 7, 6]),
  (1, [2, 3, 0, 1, 5, 6, 4, 7]),
  (-1, [2, 3, 0, 1, 5, 6, 7, 4]),
  (1, [2, 3, 0, 1, 5, 7, 6, 4]),
  (-1, [2, 3, 0, 1, 5, 7, 4, 6])]

def t4resids_antisym_t4_residual_11 : List (ℤ × List Nat) := [
  (-1, [2, 3, 0, 1, 6, 5, 4, 7]),
  (1, [2, 3, 0, 1, 6, 5, 7, 4]),
  (1, [2, 3, 0, 1, 6, 4, 5, 7]),
  (-1, [2, 3, 0, 1, 6, 4, 7, 5]),
  (1, [2, 3, 0, 1, 6, 7, 4, 5]),
  (-1, [2, 3, 0, 1, 6, 7, 5, 4]),
  (-1, [2, 3, 0, 1, 7, 5, 6, 4]),
  (1, [2, 3, 0, 1, 7, 5, 4, 6]),
  (1, [2, 3, 0, 1, 7, 6, 5, 4]),
  (-1, [2, 3, 0, 1, 7, 6, 4, 5]),
  (1, [2, 3, 0, 1, 7, 4, 6, 5]),
  (-1, [2, 3, 0, 1, 7, 4, 5, 6]),
  (-1, [2, 3, 1, 0, 4, 5, 6, 7]),
  (1, [2, 3, 1, 0, 4, 5, 7, 6]),
  (1, [2, 3, 1, 0, 4, 6, 5, 7]),
  (-1, [2, 3, 1, 0, 4, 6, 7, 5]),
  (1, [2, 3, 1, 0, 4, 7, 6, 5]),
  (-1, [2, 3, 1, 0, 4, 7, 5, 6]),
  (1, [2, 3, 1, 0, 5, 4, 6, 7]),
  (-1, [2, 3, 1, 0, 5, 4, 7, 6]),
  (-1, [2, 3, 1, 0, 5, 6, 4, 7]),
  (1, [2, 3, 1, 0, 5, 6, 7, 4]),
  (-1, [2, 3, 1, 0, 5, 7, 6, 4]),
  (1, [2, 3, 1, 0, 5, 7, 4, 6]),
  (1, [2, 3, 1, 0, 6, 5, 4, 7]),
  (-1, [2, 3, 1, 0, 6, 5, 7, 4]),
  (-1, [2, 3, 1, 0, 6, 4, 5, 7]),
  (1, [2, 3, 1, 0, 6, 4, 7, 5]),
  (-1, [2, 3, 1, 0, 6, 7, 4, 5]),
  (1, [2, 3, 1, 0, 6, 7, 5, 4]),
  (1, [2, 3, 1, 0, 7, 5, 6, 4]),
  (-1, [2, 3, 1, 0, 7, 5, 4, 6]),
  (-1, [2, 3, 1, 0, 7, 6, 5, 4]),
  (1, [2, 3, 1, 0, 7, 6, 4, 5]),
  (-1, [2, 3, 1, 0, 7, 4, 6, 5]),
  (1, [2, 3, 1, 0, 7, 4, 5, 6])]

def t4resids_antisym_t4_residual_12 : List (ℤ × List Nat) := [
  (-1, [3, 1, 2, 0, 4, 5, 6, 7]),
  (1, [3, 1, 2, 0, 4, 5, 7, 6]),
  (1, [3, 1, 2, 0, 4, 6, 5, 7]),
  (-1, [3, 1, 2, 0, 4, 6, 7, 5]),
  (1, [3, 1, 2, 0, 4, 7, 6, 5]),
  (-1, [3, 1, 2, 0, 4, 7, 5, 6]),
  (1, [3, 1, 2, 0, 5, 4, 6, 7]),
  (-1, [3, 1, 2, 0, 5, 4, 7, 6]),
  (-1, [3, 1, 2, 0, 5, 6, 4, 7]),
  (1, [3, 1, 2, 0, 5, 6, 7, 4]),
  (-1, [3, 1, 2, 0, 5, 7, 6, 4]),
  (1, [3, 1, 2, 0, 5, 7, 4, 6]),
  (1, [3, 1, 2, 0, 6, 5, 4, 7]),
  (-1, [3, 1, 2, 0, 6, 5, 7, 4]),
  (-1, [3, 1, 2, 0, 6, 4, 5, 7]),
  (1, [3, 1, 2, 0, 6, 4, 7, 5]),
  (-1, [3, 1, 2, 0, 6, 7, 4, 5]),
  (1, [3, 1, 2, 0, 6, 7, 5, 4]),
  (1, [3, 1, 2, 0, 7, 5, 6, 4]),
  (-1, [3, 1, 2, 0, 7, 5, 4, 6]),
  (-1, [3, 1, 2, 0, 7, 6, 5, 4]),
  (1, [3, 1, 2, 0, 7, 6, 4, 5]),
  (-1, [3, 1, 2, 0, 7, 4, 6, 5]),
  (1, [3, 1, 2, 0, 7, 4, 5, 6]),
  (1, [3, 1, 0, 2, 4, 5, 6, 7]),
  (-1, [3, 1, 0, 2, 4, 5, 7, 6]),
  (-1, [3, 1, 0, 2, 4, 6, 5, 7]),
  (1, [3, 1, 0, 2, 4, 6, 7, 5]),
  (-1, [3, 1, 0, 2, 4, 7, 6, 5]),
  (1, [3, 1, 0, 2, 4, 7, 5, 6]),
  (-1, [3, 1, 0, 2, 5, 4, 6, 7]),
  (1, [3, 1, 0, 2, 5, 4, 7, 6]),
  (1, [3, 1, 0, 2, 5, 6, 4, 7]),
  (-1, [3, 1, 0, 2, 5, 6, 7, 4]),
  (1, [3, 1, 0, 2, 5, 7, 6, 4]),
  (-1, [3, 1, 0, 2, 5, 7, 4, 6])]

def t4resids_antisym_t4_residual_13 : List (ℤ × List Nat) := [
  (-1, [3, 1, 0, 2, 6, 5, 4, 7]),
  (1, [3, 1, 0, 2, 6, 5, 7, 4]),
  (1, [3, 1, 0, 2, 6, 4, 5, 7]),
  (-1, [3, 1, 0, 2, 6, 4, 7, 5]),
  (1, [3, 1, 0, 2, 6, 7, 4, 5]),
  (-1, [3, 1, 0, 2, 6, 7, 5, 4]),
  (-1, [3, 1, 0, 2, 7, 5, 6, 4]),
  (1, [3, 1, 0, 2, 7, 5, 4, 6]),
  (1, [3, 1, 0, 2, 7, 6, 5, 4]),
  (-1, [3, 1, 0, 2, 7, 6, 4, 5]),
  (1, [3, 1, 0, 2, 7, 4, 6, 5]),
  (-1, [3, 1, 0, 2, 7, 4, 5, 6]),
  (1, [3, 2, 1, 0, 4, 5, 6, 7]),
  (-1, [3, 2, 1, 0, 4, 5, 7, 6]),
  (-1, [3, 2, 1, 0, 4, 6, 5, 7]),
  (1, [3, 2, 1, 0, 4, 6, 7, 5]),
  (-1, [3, 2, 1, 0, 4, 7, 6, 5]),
  (1, [3, 2, 1, 0, 4, 7, 5, 6]),
  (-1, [3, 2, 1, 0, 5, 4, 6, 7]),
  (1, [3, 2, 1, 0, 5, 4, 7, 6]),
  (1, [3, 2, 1, 0, 5, 6, 4, 7]),
  (-1, [3, 2, 1, 0, 5, 6, 7, 4]),
  (1, [3, 2, 1, 0, 5, 7, 6, 4]),
  (-1, [3, 2, 1, 0, 5, 7, 4, 6]),
  (-1, [3, 2, 1, 0, 6, 5, 4, 7]),
  (1, [3, 2, 1, 0, 6, 5, 7, 4]),
  (1, [3, 2, 1, 0, 6, 4, 5, 7]),
  (-1, [3, 2, 1, 0, 6, 4, 7, 5]),
  (1, [3, 2, 1, 0, 6, 7, 4, 5]),
  (-1, [3, 2, 1, 0, 6, 7, 5, 4]),
  (-1, [3, 2, 1, 0, 7, 5, 6, 4]),
  (1, [3, 2, 1, 0, 7, 5, 4, 6]),
  (1, [3, 2, 1, 0, 7, 6, 5, 4]),
  (-1, [3, 2, 1, 0, 7, 6, 4, 5]),
  (1, [3, 2, 1, 0, 7, 4, 6, 5]),
  (-1, [3, 2, 1, 0, 7, 4, 5, 6])]

def t4resids_antisym_t4_residual_14 : List (ℤ × List Nat) := [
  (-1, [3, 2, 0, 1, 4, 5, 6, 7]),
  (1, [3, 2, 0, 1, 4, 5, 7, 6]),
  (1, [3, 2, 0, 1, 4, 6, 5, 7]),
  (-1, [3, 2, 0, 1, 4, 6, 7, 5]),
  (1, [3, 2, 0, 1, 4, 7, 6, 5]),
  (-1, [3, 2, 0, 1, 4, 7, 5, 6]),
  (1, [3, 2, 0, 1, 5, 4, 6, 7]),
  (-1, [3, 2, 0, 1, 5, 4, 7, 6]),
  (-1, [3, 2, 0, 1, 5, 6, 4, 7]),
  (1, [3, 2, 0, 1, 5, 6, 7, 4]),
  (-1, [3, 2, 0, 1, 5, 7, 6, 4]),
  (1, [3, 2, 0, 1, 5, 7, 4, 6]),
  (1, [3, 2, 0, 1, 6, 5, 4, 7]),
  (-1, [3, 2, 0, 1, 6, 5, 7, 4]),
  (-1, [3, 2, 0, 1, 6, 4, 5, 7]),
  (1, [3, 2, 0, 1, 6, 4, 7, 5]),
  (-1, [3, 2, 0, 1, 6, 7, 4, 5]),
  (1, [3, 2, 0, 1, 6, 7, 5, 4]),
  (1, [3, 2, 0, 1, 7, 5, 6, 4]),
  (-1, [3, 2, 0, 1, 7, 5, 4, 6]),
  (-1, [3, 2, 0, 1, 7, 6, 5, 4]),
  (1, [3, 2, 0, 1, 7, 6, 4, 5]),
  (-1, [3, 2, 0, 1, 7, 4, 6, 5]),
  (1, [3, 2, 0, 1, 7, 4, 5, 6]),
  (1, [3, 0, 2, 1, 4, 5, 6, 7]),
  (-1, [3, 0, 2, 1, 4, 5, 7, 6]),
  (-1, [3, 0, 2, 1, 4, 6, 5, 7]),
  (1, [3, 0, 2, 1, 4, 6, 7, 5]),
  (-1, [3, 0, 2, 1, 4, 7, 6, 5]),
  (1, [3, 0, 2, 1, 4, 7, 5, 6]),
  (-1, [3, 0, 2, 1, 5, 4, 6, 7]),
  (1, [3, 0, 2, 1, 5, 4, 7, 6]),
  (1, [3, 0, 2, 1, 5, 6, 4, 7]),
  (-1, [3, 0, 2, 1, 5, 6, 7, 4]),
  (1, [3, 0, 2, 1, 5, 7, 6, 4]),
  (-1, [3, 0, 2, 1, 5, 7, 4, 6])]

def t4resids_antisym_t4_residual_15 : List (ℤ × List Nat) := [
  (-1, [3, 0, 2, 1, 6, 5, 4, 7]),
  (1, [3, 0, 2, 1, 6, 5, 7, 4]),
  (1, [3, 0, 2, 1, 6, 4, 5, 7]),
  (-1, [3, 0, 2, 1, 6, 4, 7, 5]),
  (1, [3, 0, 2, 1, 6, 7, 4, 5]),
  (-1, [3, 0, 2, 1, 6, 7, 5, 4]),
  (-1, [3, 0, 2, 1, 7, 5, 6, 4]),
  (1, [3, 0, 2, 1, 7, 5, 4, 6]),
  (1, [3, 0, 2, 1, 7, 6, 5, 4]),
  (-1, [3, 0, 2, 1, 7, 6, 4, 5]),
  (1, [3, 0, 2, 1, 7, 4, 6, 5]),
  (-1, [3, 0, 2, 1, 7, 4, 5, 6]),
  (-1, [3, 0, 1, 2, 4, 5, 6, 7]),
  (1, [3, 0, 1, 2, 4, 5, 7, 6]),
  (1, [3, 0, 1, 2, 4, 6, 5, 7]),
  (-1, [3, 0, 1, 2, 4, 6, 7, 5]),
  (1, [3, 0, 1, 2, 4, 7, 6, 5]),
  (-1, [3, 0, 1, 2, 4, 7, 5, 6]),
  (1, [3, 0, 1, 2, 5, 4, 6, 7]),
  (-1, [3, 0, 1, 2, 5, 4, 7, 6]),
  (-1, [3, 0, 1, 2, 5, 6, 4, 7]),
  (1, [3, 0, 1, 2, 5, 6, 7, 4]),
  (-1, [3, 0, 1, 2, 5, 7, 6, 4]),
  (1, [3, 0, 1, 2, 5, 7, 4, 6]),
  (1, [3, 0, 1, 2, 6, 5, 4, 7]),
  (-1, [3, 0, 1, 2, 6, 5, 7, 4]),
  (-1, [3, 0, 1, 2, 6, 4, 5, 7]),
  (1, [3, 0, 1, 2, 6, 4, 7, 5]),
  (-1, [3, 0, 1, 2, 6, 7, 4, 5]),
  (1, [3, 0, 1, 2, 6, 7, 5, 4]),
  (1, [3, 0, 1, 2, 7, 5, 6, 4]),
  (-1, [3, 0, 1, 2, 7, 5, 4, 6]),
  (-1, [3, 0, 1, 2, 7, 6, 5, 4]),
  (1, [3, 0, 1, 2, 7, 6, 4, 5]),
  (-1, [3, 0, 1, 2, 7, 4, 6, 5]),
  (1, [3, 0, 1, 2, 7, 4, 5, 6])]

/-- `antisym_t4resids.py` 475-1054 `antisym_t4_residual`: signs and output positions of the accumulated `einsum` calls. -/
def t4resids_antisym_t4_residual : List (ℤ × List Nat) :=
  t4resids_antisym_t4_residual_0 ++ (t4resids_antisym_t4_residual_1 ++ (t4resids_antisym_t4_residual_2 ++ (t4resids_antisym_t4_residual_3 ++ (t4resids_antisym_t4_residual_4 ++ (t4resids_antisym_t4_residual_5 ++ (t4resids_antisym_t4_residual_6 ++ (t4resids_antisym_t4_residual_7 ++ (t4resids_antisym_t4_residual_8 ++ (t4resids_antisym_t4_residual_9 ++ (t4resids_antisym_t4_residual_10 ++ (t4resids_antisym_t4_residual_11 ++ (t4resids_antisym_t4_residual_12 ++ (t4resids_antisym_t4_residual_13 ++ (t4resids_antisym_t4_residual_14 ++ (t4resids_antisym_t4_residual_15)))))))))))))))

/-- `antisym_t4resids.py` 125-132 `antisymmetrize_residual_2_2`: signs and output positions of the accumulated `einsum` calls. -/
def t4resids_antisymmetrize_residual_2_2 : List (ℤ × List Nat) := [
  (1, [0, 1, 2, 3]),
  (-1, [1, 0, 2, 3]),
  (-1, [0, 1, 3, 2]),
  (1, [1, 0, 3, 2])
  ]

end Verif.Gen
