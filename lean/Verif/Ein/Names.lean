import Verif.Ein.Core

/-!
Names used by the generated modules `Verif/Gen/*` (written by `/verif/tools/gen.py`).

Letters: the subscript tells the range (`ₒ` occupied, `ᵥ` virtual). Tensors: number `8*base + s`, where
`s` is 7 for a spin-orbital tensor and otherwise the number of beta indices in each half. `kinds` lists
the symmetry the normal form may use.
-/

namespace Verif.Ein.N

abbrev aₒ : Var := 36
abbrev aᵥ : Var := 1
abbrev bₒ : Var := 38
abbrev bᵥ : Var := 3
abbrev cₒ : Var := 40
abbrev cᵥ : Var := 5
abbrev dₒ : Var := 42
abbrev dᵥ : Var := 7
abbrev eₒ : Var := 44
abbrev eᵥ : Var := 9
abbrev fₒ : Var := 46
abbrev fᵥ : Var := 11
abbrev gₒ : Var := 48
abbrev gᵥ : Var := 13
abbrev hₒ : Var := 50
abbrev hᵥ : Var := 15
abbrev iₒ : Var := 0
abbrev iᵥ : Var := 17
abbrev jₒ : Var := 2
abbrev jᵥ : Var := 19
abbrev kₒ : Var := 4
abbrev kᵥ : Var := 21
abbrev lₒ : Var := 6
abbrev lᵥ : Var := 23
abbrev mₒ : Var := 8
abbrev mᵥ : Var := 25
abbrev nₒ : Var := 10
abbrev nᵥ : Var := 27
abbrev oₒ : Var := 12
abbrev oᵥ : Var := 29
abbrev pₒ : Var := 14
abbrev pᵥ : Var := 31
abbrev qₒ : Var := 16
abbrev qᵥ : Var := 33
abbrev rₒ : Var := 18
abbrev rᵥ : Var := 35
abbrev sₒ : Var := 20
abbrev sᵥ : Var := 37
abbrev tₒ : Var := 22
abbrev tᵥ : Var := 39
abbrev uₒ : Var := 24
abbrev uᵥ : Var := 41
abbrev vₒ : Var := 26
abbrev vᵥ : Var := 43
abbrev wₒ : Var := 28
abbrev wᵥ : Var := 45
abbrev xₒ : Var := 30
abbrev xᵥ : Var := 47
abbrev yₒ : Var := 32
abbrev yᵥ : Var := 49
abbrev zₒ : Var := 34
abbrev zᵥ : Var := 51

abbrev f (ix : List Var) : Fac := ⟨15, ix⟩
abbrev g (ix : List Var) : Fac := ⟨23, ix⟩
abbrev t1 (ix : List Var) : Fac := ⟨31, ix⟩
abbrev t1_aa (ix : List Var) : Fac := ⟨24, ix⟩
abbrev t1_bb (ix : List Var) : Fac := ⟨25, ix⟩
abbrev t2 (ix : List Var) : Fac := ⟨39, ix⟩
abbrev t2_aaaa (ix : List Var) : Fac := ⟨32, ix⟩
abbrev t2_abab (ix : List Var) : Fac := ⟨33, ix⟩
abbrev t2_bbbb (ix : List Var) : Fac := ⟨34, ix⟩
abbrev t3 (ix : List Var) : Fac := ⟨47, ix⟩
abbrev t3_aaaaaa (ix : List Var) : Fac := ⟨40, ix⟩
abbrev t3_aabaab (ix : List Var) : Fac := ⟨41, ix⟩
abbrev t3_abbabb (ix : List Var) : Fac := ⟨42, ix⟩
abbrev t3_bbbbbb (ix : List Var) : Fac := ⟨43, ix⟩
abbrev t4 (ix : List Var) : Fac := ⟨55, ix⟩
abbrev t4_aaaaaaaa (ix : List Var) : Fac := ⟨48, ix⟩
abbrev t4_aaabaaab (ix : List Var) : Fac := ⟨49, ix⟩
abbrev t4_aabbaabb (ix : List Var) : Fac := ⟨50, ix⟩
abbrev t4_abbbabbb (ix : List Var) : Fac := ⟨51, ix⟩
abbrev t4_bbbbbbbb (ix : List Var) : Fac := ⟨52, ix⟩
abbrev l1 (ix : List Var) : Fac := ⟨63, ix⟩
abbrev l1_aa (ix : List Var) : Fac := ⟨56, ix⟩
abbrev l1_bb (ix : List Var) : Fac := ⟨57, ix⟩
abbrev l2 (ix : List Var) : Fac := ⟨71, ix⟩
abbrev l2_aaaa (ix : List Var) : Fac := ⟨64, ix⟩
abbrev l2_abab (ix : List Var) : Fac := ⟨65, ix⟩
abbrev l2_bbbb (ix : List Var) : Fac := ⟨66, ix⟩
abbrev l3 (ix : List Var) : Fac := ⟨79, ix⟩
abbrev l3_aaaaaa (ix : List Var) : Fac := ⟨72, ix⟩
abbrev l3_aabaab (ix : List Var) : Fac := ⟨73, ix⟩
abbrev l3_abbabb (ix : List Var) : Fac := ⟨74, ix⟩
abbrev l3_bbbbbb (ix : List Var) : Fac := ⟨75, ix⟩
abbrev l4 (ix : List Var) : Fac := ⟨119, ix⟩
abbrev f_aa (ix : List Var) : Fac := ⟨8, ix⟩
abbrev f_bb (ix : List Var) : Fac := ⟨9, ix⟩
abbrev g_aaaa (ix : List Var) : Fac := ⟨16, ix⟩
abbrev g_abab (ix : List Var) : Fac := ⟨17, ix⟩
abbrev g_bbbb (ix : List Var) : Fac := ⟨18, ix⟩
abbrev X0 (ix : List Var) : Fac := ⟨80, ix⟩
abbrev X1 (ix : List Var) : Fac := ⟨81, ix⟩
abbrev X2 (ix : List Var) : Fac := ⟨82, ix⟩
abbrev X3 (ix : List Var) : Fac := ⟨83, ix⟩
abbrev X4 (ix : List Var) : Fac := ⟨84, ix⟩
abbrev X5 (ix : List Var) : Fac := ⟨85, ix⟩
abbrev X6 (ix : List Var) : Fac := ⟨86, ix⟩
abbrev X7 (ix : List Var) : Fac := ⟨87, ix⟩
abbrev Y1 (ix : List Var) : Fac := ⟨89, ix⟩
abbrev Y2 (ix : List Var) : Fac := ⟨90, ix⟩
abbrev Y3 (ix : List Var) : Fac := ⟨91, ix⟩
abbrev Y4 (ix : List Var) : Fac := ⟨92, ix⟩

/-- Symmetry of the tensors. -/
def kinds (t : Nat) : Kind :=
  match t / 8 with
  | 1 => match t % 8 with
    | 7 => ⟨[], true⟩
    | 0 => ⟨[], true⟩
    | 1 => ⟨[], true⟩
    | _ => ⟨[], false⟩
  | 2 => match t % 8 with
    | 7 => ⟨[true, false, true, false], true⟩
    | 0 => ⟨[true, false, true, false], true⟩
    | 1 => ⟨[false, false, false, false], true⟩
    | 2 => ⟨[true, false, true, false], true⟩
    | _ => ⟨[], false⟩
  | 3 => match t % 8 with
    | 7 => ⟨[false, false], false⟩
    | 0 => ⟨[false, false], false⟩
    | 1 => ⟨[false, false], false⟩
    | _ => ⟨[], false⟩
  | 4 => match t % 8 with
    | 7 => ⟨[true, false, true, false], false⟩
    | 0 => ⟨[true, false, true, false], false⟩
    | 1 => ⟨[false, false, false, false], false⟩
    | 2 => ⟨[true, false, true, false], false⟩
    | _ => ⟨[], false⟩
  | 5 => match t % 8 with
    | 7 => ⟨[true, true, false, true, true, false], false⟩
    | 0 => ⟨[true, true, false, true, true, false], false⟩
    | 1 => ⟨[true, false, false, true, false, false], false⟩
    | 2 => ⟨[false, true, false, false, true, false], false⟩
    | 3 => ⟨[true, true, false, true, true, false], false⟩
    | _ => ⟨[], false⟩
  | 6 => match t % 8 with
    | 7 => ⟨[true, true, true, false, true, true, true, false], false⟩
    | 0 => ⟨[true, true, true, false, true, true, true, false], false⟩
    | 1 => ⟨[true, true, false, false, true, true, false, false], false⟩
    | 2 => ⟨[true, false, true, false, true, false, true, false], false⟩
    | 3 => ⟨[false, true, true, false, false, true, true, false], false⟩
    | 4 => ⟨[true, true, true, false, true, true, true, false], false⟩
    | _ => ⟨[], false⟩
  | 7 => match t % 8 with
    | 7 => ⟨[false, false], false⟩
    | 0 => ⟨[false, false], false⟩
    | 1 => ⟨[false, false], false⟩
    | _ => ⟨[], false⟩
  | 8 => match t % 8 with
    | 7 => ⟨[true, false, true, false], false⟩
    | 0 => ⟨[true, false, true, false], false⟩
    | 1 => ⟨[false, false, false, false], false⟩
    | 2 => ⟨[true, false, true, false], false⟩
    | _ => ⟨[], false⟩
  | 9 => match t % 8 with
    | 7 => ⟨[true, true, false, true, true, false], false⟩
    | 0 => ⟨[true, true, false, true, true, false], false⟩
    | 1 => ⟨[true, false, false, true, false, false], false⟩
    | 2 => ⟨[false, true, false, false, true, false], false⟩
    | 3 => ⟨[true, true, false, true, true, false], false⟩
    | _ => ⟨[], false⟩
  | 10 => match t % 8 with
    | 0 => ⟨[], false⟩
    | 1 => ⟨[], false⟩
    | 2 => ⟨[], false⟩
    | 3 => ⟨[], false⟩
    | 4 => ⟨[], false⟩
    | 5 => ⟨[], false⟩
    | 6 => ⟨[], false⟩
    | 7 => ⟨[], false⟩
    | _ => ⟨[], false⟩
  | 11 => match t % 8 with
    | 1 => ⟨[false, false], false⟩
    | 2 => ⟨[true, false, true, false], false⟩
    | 3 => ⟨[true, true, false, true, true, false], false⟩
    | 4 => ⟨[true, true, true, false, true, true, true, false], false⟩
    | _ => ⟨[], false⟩
  | 14 => match t % 8 with
    | 7 => ⟨[true, true, true, false, true, true, true, false], false⟩
    | _ => ⟨[], false⟩
  | _ => ⟨[], false⟩

end Verif.Ein.N
