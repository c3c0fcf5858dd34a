import Verif.Ein.Thin

/-! Written by `/verif/tools/gen.py`. How the permutations of the antisymmetrisers are split for terms that are antisymmetric in some of their indices. -/

set_option maxRecDepth 100000

namespace Verif.Gen

open Verif.Ein Verif.Ein.N


open Verif.Ein

/-- A program for `⟨Φ_ijkl^abcd| [V, T3] |Φ⟩` before it is antisymmetrised. It is not read from the code: what it stands for is checked in `Cert.T4_lin_mat`. -/
def linT3 : Prog := [
  ⟨-1/24, [g [aᵥ, bᵥ, eᵥ, iₒ], t3 [eᵥ, cᵥ, dᵥ, jₒ, kₒ, lₒ]], [(1, [iₒ, jₒ, kₒ, lₒ, aᵥ, bᵥ, cᵥ, dᵥ])]⟩,
  ⟨-1/24, [g [aᵥ, mₒ, iₒ, jₒ], t3 [bᵥ, cᵥ, dᵥ, mₒ, kₒ, lₒ]], [(1, [iₒ, jₒ, kₒ, lₒ, aᵥ, bᵥ, cᵥ, dᵥ])]⟩]

/-- `1/16 g[i,j,a,b] l2[k,l,c,d] t4[a,b,c,d,i,j,k,l]`, summed over everything; not read from the code. -/
def pertT4 : Prog := [⟨1/16, [g [iₒ, jₒ, aᵥ, bᵥ], l2 [kₒ, lₒ, cᵥ, dᵥ], t4 [aᵥ, bᵥ, cᵥ, dᵥ, iₒ, jₒ, kₒ, lₒ]], [(1, [])]⟩]

/-- All permutations of the first 3 axes. -/
def allo3 : List (ℤ × List Nat) := [(1, [0, 1, 2, 3, 4, 5]), (-1, [0, 2, 1, 3, 4, 5]), (-1, [1, 0, 2, 3, 4, 5]), (1, [1, 2, 0, 3, 4, 5]), (1, [2, 0, 1, 3, 4, 5]), (-1, [2, 1, 0, 3, 4, 5])]

/-- All permutations of the last 3 axes. -/
def allv3 : List (ℤ × List Nat) := [(1, [0, 1, 2, 3, 4, 5]), (-1, [0, 1, 2, 3, 5, 4]), (-1, [0, 1, 2, 4, 3, 5]), (1, [0, 1, 2, 4, 5, 3]), (1, [0, 1, 2, 5, 3, 4]), (-1, [0, 1, 2, 5, 4, 3])]

/-- All permutations of the first 4 axes. -/
def allo4 : List (ℤ × List Nat) := [(1, [0, 1, 2, 3, 4, 5, 6, 7]), (-1, [0, 1, 3, 2, 4, 5, 6, 7]), (-1, [0, 2, 1, 3, 4, 5, 6, 7]), (1, [0, 2, 3, 1, 4, 5, 6, 7]), (1, [0, 3, 1, 2, 4, 5, 6, 7]), (-1, [0, 3, 2, 1, 4, 5, 6, 7]), (-1, [1, 0, 2, 3, 4, 5, 6, 7]), (1, [1, 0, 3, 2, 4, 5, 6, 7]), (1, [1, 2, 0, 3, 4, 5, 6, 7]), (-1, [1, 2, 3, 0, 4, 5, 6, 7]), (-1, [1, 3, 0, 2, 4, 5, 6, 7]), (1, [1, 3, 2, 0, 4, 5, 6, 7]), (1, [2, 0, 1, 3, 4, 5, 6, 7]), (-1, [2, 0, 3, 1, 4, 5, 6, 7]), (-1, [2, 1, 0, 3, 4, 5, 6, 7]), (1, [2, 1, 3, 0, 4, 5, 6, 7]), (1, [2, 3, 0, 1, 4, 5, 6, 7]), (-1, [2, 3, 1, 0, 4, 5, 6, 7]), (-1, [3, 0, 1, 2, 4, 5, 6, 7]), (1, [3, 0, 2, 1, 4, 5, 6, 7]), (1, [3, 1, 0, 2, 4, 5, 6, 7]), (-1, [3, 1, 2, 0, 4, 5, 6, 7]), (-1, [3, 2, 0, 1, 4, 5, 6, 7]), (1, [3, 2, 1, 0, 4, 5, 6, 7])]

/-- All permutations of the last 4 axes. -/
def allv4 : List (ℤ × List Nat) := [(1, [0, 1, 2, 3, 4, 5, 6, 7]), (-1, [0, 1, 2, 3, 4, 5, 7, 6]), (-1, [0, 1, 2, 3, 4, 6, 5, 7]), (1, [0, 1, 2, 3, 4, 6, 7, 5]), (1, [0, 1, 2, 3, 4, 7, 5, 6]), (-1, [0, 1, 2, 3, 4, 7, 6, 5]), (-1, [0, 1, 2, 3, 5, 4, 6, 7]), (1, [0, 1, 2, 3, 5, 4, 7, 6]), (1, [0, 1, 2, 3, 5, 6, 4, 7]), (-1, [0, 1, 2, 3, 5, 6, 7, 4]), (-1, [0, 1, 2, 3, 5, 7, 4, 6]), (1, [0, 1, 2, 3, 5, 7, 6, 4]), (1, [0, 1, 2, 3, 6, 4, 5, 7]), (-1, [0, 1, 2, 3, 6, 4, 7, 5]), (-1, [0, 1, 2, 3, 6, 5, 4, 7]), (1, [0, 1, 2, 3, 6, 5, 7, 4]), (1, [0, 1, 2, 3, 6, 7, 4, 5]), (-1, [0, 1, 2, 3, 6, 7, 5, 4]), (-1, [0, 1, 2, 3, 7, 4, 5, 6]), (1, [0, 1, 2, 3, 7, 4, 6, 5]), (1, [0, 1, 2, 3, 7, 5, 4, 6]), (-1, [0, 1, 2, 3, 7, 5, 6, 4]), (-1, [0, 1, 2, 3, 7, 6, 4, 5]), (1, [0, 1, 2, 3, 7, 6, 5, 4])]

def ro3_4 : List (ℤ × List Nat) := [(1, [0, 1, 2, 3, 4, 5]), (-1, [1, 0, 2, 3, 4, 5]), (1, [1, 2, 0, 3, 4, 5])]
def ho3_5 : List (ℤ × List Nat) := [(1, [0, 1, 2, 3, 4, 5]), (-1, [0, 2, 1, 3, 4, 5])]
def rv3_6 : List (ℤ × List Nat) := [(1, [0, 1, 2, 3, 4, 5])]
def ro3_7 : List (ℤ × List Nat) := [(1, [0, 1, 2, 3, 4, 5])]
def rv3_8 : List (ℤ × List Nat) := [(1, [0, 1, 2, 3, 4, 5]), (-1, [0, 1, 2, 4, 3, 5]), (1, [0, 1, 2, 4, 5, 3])]
def hv3_9 : List (ℤ × List Nat) := [(1, [0, 1, 2, 3, 4, 5]), (-1, [0, 1, 2, 3, 5, 4])]
def rv3_10 : List (ℤ × List Nat) := [(1, [0, 1, 2, 3, 4, 5]), (-1, [0, 1, 2, 3, 5, 4]), (1, [0, 1, 2, 5, 3, 4])]
def hv3_11 : List (ℤ × List Nat) := [(1, [0, 1, 2, 3, 4, 5]), (-1, [0, 1, 2, 4, 3, 5])]
def ro3_12 : List (ℤ × List Nat) := [(1, [0, 1, 2, 3, 4, 5]), (-1, [0, 2, 1, 3, 4, 5]), (1, [2, 0, 1, 3, 4, 5])]
def ho3_13 : List (ℤ × List Nat) := [(1, [0, 1, 2, 3, 4, 5]), (-1, [1, 0, 2, 3, 4, 5])]
/-- The split for `Prog.ideal (ccsdt_t3eqns_0 ++ ccsdt_t3eqns_1)`: numbers of the terms, representatives and permutations of the first half, of the second half. -/
def split_ccsdt_t3 : List Split := [
  ⟨[0, 2, 21, 43, 44], ro3_4, ho3_5, rv3_6, allv3⟩,
  ⟨[1, 4, 12, 41, 46], ro3_7, allo3, rv3_8, hv3_9⟩,
  ⟨[3, 24, 27, 28, 32, 33, 34], ro3_4, ho3_5, rv3_10, hv3_11⟩,
  ⟨[5, 10], ro3_4, ho3_5, allv3, rv3_6⟩,
  ⟨[6, 15, 16, 37], ro3_12, ho3_13, allv3, rv3_6⟩,
  ⟨[7, 18], ro3_7, allo3, allv3, rv3_6⟩,
  ⟨[8, 9], allo3, ro3_7, rv3_8, hv3_9⟩,
  ⟨[11, 13, 14, 25, 40], ro3_4, ho3_5, rv3_8, hv3_9⟩,
  ⟨[17, 38, 39], ro3_12, ho3_13, rv3_8, hv3_9⟩,
  ⟨[19, 22, 23, 31], allo3, ro3_7, rv3_10, hv3_11⟩,
  ⟨[20, 26], allo3, ro3_7, rv3_6, allv3⟩,
  ⟨[29, 42], ro3_12, ho3_13, rv3_6, allv3⟩,
  ⟨[30, 36], ro3_7, allo3, rv3_10, hv3_11⟩,
  ⟨[35, 45], ro3_12, ho3_13, rv3_10, hv3_11⟩]

def ro4_14 : List (ℤ × List Nat) := [(1, [0, 1, 2, 3, 4, 5, 6, 7]), (-1, [1, 0, 2, 3, 4, 5, 6, 7]), (1, [1, 2, 0, 3, 4, 5, 6, 7]), (-1, [1, 2, 3, 0, 4, 5, 6, 7])]
def ho4_15 : List (ℤ × List Nat) := [(1, [0, 1, 2, 3, 4, 5, 6, 7]), (-1, [0, 1, 3, 2, 4, 5, 6, 7]), (-1, [0, 2, 1, 3, 4, 5, 6, 7]), (1, [0, 2, 3, 1, 4, 5, 6, 7]), (1, [0, 3, 1, 2, 4, 5, 6, 7]), (-1, [0, 3, 2, 1, 4, 5, 6, 7])]
def rv4_16 : List (ℤ × List Nat) := [(1, [0, 1, 2, 3, 4, 5, 6, 7])]
def ro4_17 : List (ℤ × List Nat) := [(1, [0, 1, 2, 3, 4, 5, 6, 7])]
def rv4_18 : List (ℤ × List Nat) := [(1, [0, 1, 2, 3, 4, 5, 6, 7]), (-1, [0, 1, 2, 3, 5, 4, 6, 7]), (1, [0, 1, 2, 3, 5, 6, 4, 7]), (-1, [0, 1, 2, 3, 5, 6, 7, 4])]
def hv4_19 : List (ℤ × List Nat) := [(1, [0, 1, 2, 3, 4, 5, 6, 7]), (-1, [0, 1, 2, 3, 4, 5, 7, 6]), (-1, [0, 1, 2, 3, 4, 6, 5, 7]), (1, [0, 1, 2, 3, 4, 6, 7, 5]), (1, [0, 1, 2, 3, 4, 7, 5, 6]), (-1, [0, 1, 2, 3, 4, 7, 6, 5])]
def ro4_20 : List (ℤ × List Nat) := [(1, [0, 1, 2, 3, 4, 5, 6, 7]), (-1, [0, 2, 1, 3, 4, 5, 6, 7]), (1, [0, 2, 3, 1, 4, 5, 6, 7]), (-1, [1, 0, 2, 3, 4, 5, 6, 7]), (1, [1, 2, 0, 3, 4, 5, 6, 7]), (-1, [1, 2, 3, 0, 4, 5, 6, 7]), (1, [2, 0, 1, 3, 4, 5, 6, 7]), (-1, [2, 0, 3, 1, 4, 5, 6, 7]), (-1, [2, 1, 0, 3, 4, 5, 6, 7]), (1, [2, 1, 3, 0, 4, 5, 6, 7]), (1, [2, 3, 0, 1, 4, 5, 6, 7]), (-1, [2, 3, 1, 0, 4, 5, 6, 7])]
def ho4_21 : List (ℤ × List Nat) := [(1, [0, 1, 2, 3, 4, 5, 6, 7]), (-1, [0, 1, 3, 2, 4, 5, 6, 7])]
def rv4_22 : List (ℤ × List Nat) := [(1, [0, 1, 2, 3, 4, 5, 6, 7]), (-1, [0, 1, 2, 3, 4, 6, 5, 7]), (1, [0, 1, 2, 3, 4, 6, 7, 5]), (1, [0, 1, 2, 3, 6, 4, 5, 7]), (-1, [0, 1, 2, 3, 6, 4, 7, 5]), (1, [0, 1, 2, 3, 6, 7, 4, 5])]
def hv4_23 : List (ℤ × List Nat) := [(1, [0, 1, 2, 3, 4, 5, 6, 7]), (-1, [0, 1, 2, 3, 4, 5, 7, 6]), (-1, [0, 1, 2, 3, 5, 4, 6, 7]), (1, [0, 1, 2, 3, 5, 4, 7, 6])]
def ro4_24 : List (ℤ × List Nat) := [(1, [0, 1, 2, 3, 4, 5, 6, 7]), (-1, [0, 1, 3, 2, 4, 5, 6, 7]), (1, [0, 3, 1, 2, 4, 5, 6, 7]), (-1, [1, 0, 2, 3, 4, 5, 6, 7]), (1, [1, 0, 3, 2, 4, 5, 6, 7]), (1, [1, 2, 0, 3, 4, 5, 6, 7]), (-1, [1, 2, 3, 0, 4, 5, 6, 7]), (-1, [1, 3, 0, 2, 4, 5, 6, 7]), (1, [1, 3, 2, 0, 4, 5, 6, 7]), (-1, [3, 0, 1, 2, 4, 5, 6, 7]), (1, [3, 1, 0, 2, 4, 5, 6, 7]), (-1, [3, 1, 2, 0, 4, 5, 6, 7])]
def ho4_25 : List (ℤ × List Nat) := [(1, [0, 1, 2, 3, 4, 5, 6, 7]), (-1, [0, 2, 1, 3, 4, 5, 6, 7])]
def rv4_26 : List (ℤ × List Nat) := [(1, [0, 1, 2, 3, 4, 5, 6, 7]), (-1, [0, 1, 2, 3, 4, 5, 7, 6]), (-1, [0, 1, 2, 3, 4, 6, 5, 7]), (1, [0, 1, 2, 3, 4, 6, 7, 5]), (1, [0, 1, 2, 3, 4, 7, 5, 6]), (-1, [0, 1, 2, 3, 4, 7, 6, 5]), (1, [0, 1, 2, 3, 6, 4, 5, 7]), (-1, [0, 1, 2, 3, 6, 4, 7, 5]), (1, [0, 1, 2, 3, 6, 7, 4, 5]), (-1, [0, 1, 2, 3, 7, 4, 5, 6]), (1, [0, 1, 2, 3, 7, 4, 6, 5]), (-1, [0, 1, 2, 3, 7, 6, 4, 5])]
def hv4_27 : List (ℤ × List Nat) := [(1, [0, 1, 2, 3, 4, 5, 6, 7]), (-1, [0, 1, 2, 3, 5, 4, 6, 7])]
def ro4_28 : List (ℤ × List Nat) := [(1, [0, 1, 2, 3, 4, 5, 6, 7]), (-1, [0, 2, 1, 3, 4, 5, 6, 7]), (1, [0, 2, 3, 1, 4, 5, 6, 7]), (1, [2, 0, 1, 3, 4, 5, 6, 7]), (-1, [2, 0, 3, 1, 4, 5, 6, 7]), (1, [2, 3, 0, 1, 4, 5, 6, 7])]
def ho4_29 : List (ℤ × List Nat) := [(1, [0, 1, 2, 3, 4, 5, 6, 7]), (-1, [0, 1, 3, 2, 4, 5, 6, 7]), (-1, [1, 0, 2, 3, 4, 5, 6, 7]), (1, [1, 0, 3, 2, 4, 5, 6, 7])]
def rv4_30 : List (ℤ × List Nat) := [(1, [0, 1, 2, 3, 4, 5, 6, 7]), (-1, [0, 1, 2, 3, 4, 6, 5, 7]), (1, [0, 1, 2, 3, 4, 6, 7, 5]), (-1, [0, 1, 2, 3, 5, 4, 6, 7]), (1, [0, 1, 2, 3, 5, 6, 4, 7]), (-1, [0, 1, 2, 3, 5, 6, 7, 4]), (1, [0, 1, 2, 3, 6, 4, 5, 7]), (-1, [0, 1, 2, 3, 6, 4, 7, 5]), (-1, [0, 1, 2, 3, 6, 5, 4, 7]), (1, [0, 1, 2, 3, 6, 5, 7, 4]), (1, [0, 1, 2, 3, 6, 7, 4, 5]), (-1, [0, 1, 2, 3, 6, 7, 5, 4])]
def hv4_31 : List (ℤ × List Nat) := [(1, [0, 1, 2, 3, 4, 5, 6, 7]), (-1, [0, 1, 2, 3, 4, 5, 7, 6])]
def ro4_32 : List (ℤ × List Nat) := [(1, [0, 1, 2, 3, 4, 5, 6, 7]), (-1, [0, 1, 3, 2, 4, 5, 6, 7]), (1, [0, 3, 1, 2, 4, 5, 6, 7]), (-1, [3, 0, 1, 2, 4, 5, 6, 7])]
def ho4_33 : List (ℤ × List Nat) := [(1, [0, 1, 2, 3, 4, 5, 6, 7]), (-1, [0, 2, 1, 3, 4, 5, 6, 7]), (-1, [1, 0, 2, 3, 4, 5, 6, 7]), (1, [1, 2, 0, 3, 4, 5, 6, 7]), (1, [2, 0, 1, 3, 4, 5, 6, 7]), (-1, [2, 1, 0, 3, 4, 5, 6, 7])]
def rv4_34 : List (ℤ × List Nat) := [(1, [0, 1, 2, 3, 4, 5, 6, 7]), (-1, [0, 1, 2, 3, 4, 5, 7, 6]), (1, [0, 1, 2, 3, 4, 7, 5, 6]), (-1, [0, 1, 2, 3, 7, 4, 5, 6])]
def hv4_35 : List (ℤ × List Nat) := [(1, [0, 1, 2, 3, 4, 5, 6, 7]), (-1, [0, 1, 2, 3, 4, 6, 5, 7]), (-1, [0, 1, 2, 3, 5, 4, 6, 7]), (1, [0, 1, 2, 3, 5, 6, 4, 7]), (1, [0, 1, 2, 3, 6, 4, 5, 7]), (-1, [0, 1, 2, 3, 6, 5, 4, 7])]
/-- The split for `Prog.ideal (ccdq_t4eqns_0)`: numbers of the terms, representatives and permutations of the first half, of the second half. -/
def split_ccdq_t4 : List Split := [
  ⟨[0, 14], ro4_14, ho4_15, rv4_16, allv4⟩,
  ⟨[1, 12], ro4_17, allo4, rv4_18, hv4_19⟩,
  ⟨[2, 3], ro4_20, ho4_21, rv4_22, hv4_23⟩,
  ⟨[4, 5], ro4_24, ho4_25, rv4_26, hv4_27⟩,
  ⟨[6], ro4_14, ho4_15, rv4_22, hv4_23⟩,
  ⟨[7], ro4_28, ho4_29, rv4_26, hv4_27⟩,
  ⟨[8, 17], ro4_17, allo4, rv4_22, hv4_23⟩,
  ⟨[9], ro4_28, ho4_29, rv4_30, hv4_31⟩,
  ⟨[10], ro4_28, ho4_29, rv4_18, hv4_19⟩,
  ⟨[11], ro4_14, ho4_15, rv4_18, hv4_19⟩,
  ⟨[13, 15], ro4_28, ho4_29, rv4_16, allv4⟩,
  ⟨[16], ro4_32, ho4_33, rv4_34, hv4_35⟩]

/-- The split for `Prog.part [[23, 39, 39, 39]] (wnT2cubed_toT4_0)`: numbers of the terms, representatives and permutations of the first half, of the second half. -/
def split_cub_t4 : List Split := [
  ⟨[0], ro4_20, ho4_21, rv4_22, hv4_23⟩,
  ⟨[1], ro4_24, ho4_25, rv4_26, hv4_27⟩,
  ⟨[2], ro4_28, ho4_29, rv4_26, hv4_27⟩]

/-- The split for `Prog.part [[23, 39, 39]] (wnT2cubed_toT4_0)`: numbers of the terms, representatives and permutations of the first half, of the second half. -/
def split_quad_t4 : List Split := [
  ⟨[0], ro4_20, ho4_21, rv4_22, hv4_23⟩,
  ⟨[1], ro4_24, ho4_25, rv4_26, hv4_27⟩,
  ⟨[2], ro4_28, ho4_29, rv4_30, hv4_31⟩]

/-- The split for `linT3`: numbers of the terms, representatives and permutations of the first half, of the second half. -/
def split_lin_t4 : List Split := [
  ⟨[0], ro4_14, ho4_15, rv4_22, hv4_23⟩,
  ⟨[1], ro4_28, ho4_29, rv4_18, hv4_19⟩]

end Verif.Gen
