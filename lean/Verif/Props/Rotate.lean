import Verif.Ein.RotArrays
import Verif.Fn.All

/-!
# Rotations among the occupied and among the virtual orbitals (C68)

Written by `tools/rotprops.py`. `A.rotate O U` are the integrals and amplitudes in the rotated orbitals. Energies do not
change, residuals and corrections are rotated like the amplitudes; alpha and beta orbitals may be rotated differently.
So solutions of the equations are rotated to solutions with the same energy.
-/

namespace Verif.Props

open Verif.Ein Verif.UT2

variable {I K : Type} [DecidableEq I] [Field K] [Inhabited I] {D : Nat → Finset I} (hD : Disjoint (D 0) (D 1))
  {U Ua Ub : I → I → K} (hU : Rotation D U) (ha : Rotation D Ua) (hb : Rotation D Ub)
include hD

include hU in
theorem covariant2_so (A : SO I K) (P : Prog) (s0 s1 : Nat) (hP : P.rotOk SO.col 200 [s0, s1] [0, 0] = true)
    (x0 x1 : I) (h0 : x0 ∈ D s0) (h1 : x1 ∈ D s1) :
    P.eval D (A.rotate (D 0 ∪ D 1) U).T [x0, x1] =
      rot2 (D 0 ∪ D 1) U U (fun x0 x1 => P.eval D A.T [x0, x1]) x0 x1 := by
  have hx : Wick.InBox D [s0, s1] [x0, x1] := .cons h0 (.cons h1 (List.Forall₂.nil))
  have h2 : ∀ s ∈ [s0, s1], s < 2 := by
    simp only [Prog.rotOk, Bool.and_eq_true] at hP
    exact fun s hs => by simpa using List.all_eq_true.1 hP.1.2 s hs
  exact (Prog.eval_rot_out D hD (fun _ => U) (Rotation.orthogonal (fun _ => hU)) SO.col _ _ (SO.rotate_rot hD hU A) 200 _ _ P hP _ hx).trans
    (rotL_box hD (fun _ => hU) [0, 0] [s0, s1] rfl h2 _ hx (fun l => P.eval D A.T l)).symm

include ha hb in
theorem covariant2_si (A : SI I K) (P : Prog) (s0 s1 : Nat) (c0 c1 : Nat) (hP : P.rotOk SI.col 200 [s0, s1] [c0, c1] = true)
    (x0 x1 : I) (h0 : x0 ∈ D s0) (h1 : x1 ∈ D s1) :
    P.eval D (A.rotate (D 0 ∪ D 1) Ua Ub).T [x0, x1] =
      rot2 (D 0 ∪ D 1) (spinU Ua Ub c0) (spinU Ua Ub c1) (fun x0 x1 => P.eval D A.T [x0, x1]) x0 x1 := by
  have hx : Wick.InBox D [s0, s1] [x0, x1] := .cons h0 (.cons h1 (List.Forall₂.nil))
  have h2 : ∀ s ∈ [s0, s1], s < 2 := by
    simp only [Prog.rotOk, Bool.and_eq_true] at hP
    exact fun s hs => by simpa using List.all_eq_true.1 hP.1.2 s hs
  exact (Prog.eval_rot_out D hD (spinU Ua Ub) (Rotation.orthogonal (ha.spin hb)) SI.col _ _ (SI.rotate_rot hD ha hb A) 200 _ _ P hP _ hx).trans
    (rotL_box hD (ha.spin hb) [c0, c1] [s0, s1] rfl h2 _ hx (fun l => P.eval D A.T l)).symm

include hU in
theorem covariant4_so (A : SO I K) (P : Prog) (s0 s1 s2 s3 : Nat) (hP : P.rotOk SO.col 200 [s0, s1, s2, s3] [0, 0, 0, 0] = true)
    (x0 x1 x2 x3 : I) (h0 : x0 ∈ D s0) (h1 : x1 ∈ D s1) (h2 : x2 ∈ D s2) (h3 : x3 ∈ D s3) :
    P.eval D (A.rotate (D 0 ∪ D 1) U).T [x0, x1, x2, x3] =
      rot4 (D 0 ∪ D 1) U U U U (fun x0 x1 x2 x3 => P.eval D A.T [x0, x1, x2, x3]) x0 x1 x2 x3 := by
  have hx : Wick.InBox D [s0, s1, s2, s3] [x0, x1, x2, x3] := .cons h0 (.cons h1 (.cons h2 (.cons h3 (List.Forall₂.nil))))
  have h2 : ∀ s ∈ [s0, s1, s2, s3], s < 2 := by
    simp only [Prog.rotOk, Bool.and_eq_true] at hP
    exact fun s hs => by simpa using List.all_eq_true.1 hP.1.2 s hs
  exact (Prog.eval_rot_out D hD (fun _ => U) (Rotation.orthogonal (fun _ => hU)) SO.col _ _ (SO.rotate_rot hD hU A) 200 _ _ P hP _ hx).trans
    (rotL_box hD (fun _ => hU) [0, 0, 0, 0] [s0, s1, s2, s3] rfl h2 _ hx (fun l => P.eval D A.T l)).symm

include ha hb in
theorem covariant4_si (A : SI I K) (P : Prog) (s0 s1 s2 s3 : Nat) (c0 c1 c2 c3 : Nat) (hP : P.rotOk SI.col 200 [s0, s1, s2, s3] [c0, c1, c2, c3] = true)
    (x0 x1 x2 x3 : I) (h0 : x0 ∈ D s0) (h1 : x1 ∈ D s1) (h2 : x2 ∈ D s2) (h3 : x3 ∈ D s3) :
    P.eval D (A.rotate (D 0 ∪ D 1) Ua Ub).T [x0, x1, x2, x3] =
      rot4 (D 0 ∪ D 1) (spinU Ua Ub c0) (spinU Ua Ub c1) (spinU Ua Ub c2) (spinU Ua Ub c3) (fun x0 x1 x2 x3 => P.eval D A.T [x0, x1, x2, x3]) x0 x1 x2 x3 := by
  have hx : Wick.InBox D [s0, s1, s2, s3] [x0, x1, x2, x3] := .cons h0 (.cons h1 (.cons h2 (.cons h3 (List.Forall₂.nil))))
  have h2 : ∀ s ∈ [s0, s1, s2, s3], s < 2 := by
    simp only [Prog.rotOk, Bool.and_eq_true] at hP
    exact fun s hs => by simpa using List.all_eq_true.1 hP.1.2 s hs
  exact (Prog.eval_rot_out D hD (spinU Ua Ub) (Rotation.orthogonal (ha.spin hb)) SI.col _ _ (SI.rotate_rot hD ha hb A) 200 _ _ P hP _ hx).trans
    (rotL_box hD (ha.spin hb) [c0, c1, c2, c3] [s0, s1, s2, s3] rfl h2 _ hx (fun l => P.eval D A.T l)).symm

include hU in
theorem covariant6_so (A : SO I K) (P : Prog) (s0 s1 s2 s3 s4 s5 : Nat) (hP : P.rotOk SO.col 200 [s0, s1, s2, s3, s4, s5] [0, 0, 0, 0, 0, 0] = true)
    (x0 x1 x2 x3 x4 x5 : I) (h0 : x0 ∈ D s0) (h1 : x1 ∈ D s1) (h2 : x2 ∈ D s2) (h3 : x3 ∈ D s3) (h4 : x4 ∈ D s4) (h5 : x5 ∈ D s5) :
    P.eval D (A.rotate (D 0 ∪ D 1) U).T [x0, x1, x2, x3, x4, x5] =
      rot6 (D 0 ∪ D 1) U U U U U U (fun x0 x1 x2 x3 x4 x5 => P.eval D A.T [x0, x1, x2, x3, x4, x5]) x0 x1 x2 x3 x4 x5 := by
  have hx : Wick.InBox D [s0, s1, s2, s3, s4, s5] [x0, x1, x2, x3, x4, x5] := .cons h0 (.cons h1 (.cons h2 (.cons h3 (.cons h4 (.cons h5 (List.Forall₂.nil))))))
  have h2 : ∀ s ∈ [s0, s1, s2, s3, s4, s5], s < 2 := by
    simp only [Prog.rotOk, Bool.and_eq_true] at hP
    exact fun s hs => by simpa using List.all_eq_true.1 hP.1.2 s hs
  exact (Prog.eval_rot_out D hD (fun _ => U) (Rotation.orthogonal (fun _ => hU)) SO.col _ _ (SO.rotate_rot hD hU A) 200 _ _ P hP _ hx).trans
    (rotL_box hD (fun _ => hU) [0, 0, 0, 0, 0, 0] [s0, s1, s2, s3, s4, s5] rfl h2 _ hx (fun l => P.eval D A.T l)).symm

include ha hb in
theorem covariant6_si (A : SI I K) (P : Prog) (s0 s1 s2 s3 s4 s5 : Nat) (c0 c1 c2 c3 c4 c5 : Nat) (hP : P.rotOk SI.col 200 [s0, s1, s2, s3, s4, s5] [c0, c1, c2, c3, c4, c5] = true)
    (x0 x1 x2 x3 x4 x5 : I) (h0 : x0 ∈ D s0) (h1 : x1 ∈ D s1) (h2 : x2 ∈ D s2) (h3 : x3 ∈ D s3) (h4 : x4 ∈ D s4) (h5 : x5 ∈ D s5) :
    P.eval D (A.rotate (D 0 ∪ D 1) Ua Ub).T [x0, x1, x2, x3, x4, x5] =
      rot6 (D 0 ∪ D 1) (spinU Ua Ub c0) (spinU Ua Ub c1) (spinU Ua Ub c2) (spinU Ua Ub c3) (spinU Ua Ub c4) (spinU Ua Ub c5) (fun x0 x1 x2 x3 x4 x5 => P.eval D A.T [x0, x1, x2, x3, x4, x5]) x0 x1 x2 x3 x4 x5 := by
  have hx : Wick.InBox D [s0, s1, s2, s3, s4, s5] [x0, x1, x2, x3, x4, x5] := .cons h0 (.cons h1 (.cons h2 (.cons h3 (.cons h4 (.cons h5 (List.Forall₂.nil))))))
  have h2 : ∀ s ∈ [s0, s1, s2, s3, s4, s5], s < 2 := by
    simp only [Prog.rotOk, Bool.and_eq_true] at hP
    exact fun s hs => by simpa using List.all_eq_true.1 hP.1.2 s hs
  exact (Prog.eval_rot_out D hD (spinU Ua Ub) (Rotation.orthogonal (ha.spin hb)) SI.col _ _ (SI.rotate_rot hD ha hb A) 200 _ _ P hP _ hx).trans
    (rotL_box hD (ha.spin hb) [c0, c1, c2, c3, c4, c5] [s0, s1, s2, s3, s4, s5] rfl h2 _ hx (fun l => P.eval D A.T l)).symm

include hU in
theorem covariant8_so (A : SO I K) (P : Prog) (s0 s1 s2 s3 s4 s5 s6 s7 : Nat) (hP : P.rotOk SO.col 200 [s0, s1, s2, s3, s4, s5, s6, s7] [0, 0, 0, 0, 0, 0, 0, 0] = true)
    (x0 x1 x2 x3 x4 x5 x6 x7 : I) (h0 : x0 ∈ D s0) (h1 : x1 ∈ D s1) (h2 : x2 ∈ D s2) (h3 : x3 ∈ D s3) (h4 : x4 ∈ D s4) (h5 : x5 ∈ D s5) (h6 : x6 ∈ D s6) (h7 : x7 ∈ D s7) :
    P.eval D (A.rotate (D 0 ∪ D 1) U).T [x0, x1, x2, x3, x4, x5, x6, x7] =
      rot8 (D 0 ∪ D 1) U U U U U U U U (fun x0 x1 x2 x3 x4 x5 x6 x7 => P.eval D A.T [x0, x1, x2, x3, x4, x5, x6, x7]) x0 x1 x2 x3 x4 x5 x6 x7 := by
  have hx : Wick.InBox D [s0, s1, s2, s3, s4, s5, s6, s7] [x0, x1, x2, x3, x4, x5, x6, x7] := .cons h0 (.cons h1 (.cons h2 (.cons h3 (.cons h4 (.cons h5 (.cons h6 (.cons h7 (List.Forall₂.nil))))))))
  have h2 : ∀ s ∈ [s0, s1, s2, s3, s4, s5, s6, s7], s < 2 := by
    simp only [Prog.rotOk, Bool.and_eq_true] at hP
    exact fun s hs => by simpa using List.all_eq_true.1 hP.1.2 s hs
  exact (Prog.eval_rot_out D hD (fun _ => U) (Rotation.orthogonal (fun _ => hU)) SO.col _ _ (SO.rotate_rot hD hU A) 200 _ _ P hP _ hx).trans
    (rotL_box hD (fun _ => hU) [0, 0, 0, 0, 0, 0, 0, 0] [s0, s1, s2, s3, s4, s5, s6, s7] rfl h2 _ hx (fun l => P.eval D A.T l)).symm

include ha hb in
theorem covariant8_si (A : SI I K) (P : Prog) (s0 s1 s2 s3 s4 s5 s6 s7 : Nat) (c0 c1 c2 c3 c4 c5 c6 c7 : Nat) (hP : P.rotOk SI.col 200 [s0, s1, s2, s3, s4, s5, s6, s7] [c0, c1, c2, c3, c4, c5, c6, c7] = true)
    (x0 x1 x2 x3 x4 x5 x6 x7 : I) (h0 : x0 ∈ D s0) (h1 : x1 ∈ D s1) (h2 : x2 ∈ D s2) (h3 : x3 ∈ D s3) (h4 : x4 ∈ D s4) (h5 : x5 ∈ D s5) (h6 : x6 ∈ D s6) (h7 : x7 ∈ D s7) :
    P.eval D (A.rotate (D 0 ∪ D 1) Ua Ub).T [x0, x1, x2, x3, x4, x5, x6, x7] =
      rot8 (D 0 ∪ D 1) (spinU Ua Ub c0) (spinU Ua Ub c1) (spinU Ua Ub c2) (spinU Ua Ub c3) (spinU Ua Ub c4) (spinU Ua Ub c5) (spinU Ua Ub c6) (spinU Ua Ub c7) (fun x0 x1 x2 x3 x4 x5 x6 x7 => P.eval D A.T [x0, x1, x2, x3, x4, x5, x6, x7]) x0 x1 x2 x3 x4 x5 x6 x7 := by
  have hx : Wick.InBox D [s0, s1, s2, s3, s4, s5, s6, s7] [x0, x1, x2, x3, x4, x5, x6, x7] := .cons h0 (.cons h1 (.cons h2 (.cons h3 (.cons h4 (.cons h5 (.cons h6 (.cons h7 (List.Forall₂.nil))))))))
  have h2 : ∀ s ∈ [s0, s1, s2, s3, s4, s5, s6, s7], s < 2 := by
    simp only [Prog.rotOk, Bool.and_eq_true] at hP
    exact fun s hs => by simpa using List.all_eq_true.1 hP.1.2 s hs
  exact (Prog.eval_rot_out D hD (spinU Ua Ub) (Rotation.orthogonal (ha.spin hb)) SI.col _ _ (SI.rotate_rot hD ha hb A) 200 _ _ P hP _ hx).trans
    (rotL_box hD (ha.spin hb) [c0, c1, c2, c3, c4, c5, c6, c7] [s0, s1, s2, s3, s4, s5, s6, s7] rfl h2 _ hx (fun l => P.eval D A.T l)).symm

include hU in
/-- CCD: energies are invariant, arrays are rotated. -/
theorem C68_ccd (A : SO I K) :
    ccdEnergy D (A.rotate (D 0 ∪ D 1) U) = ccdEnergy D A ∧
    (∀ a ∈ D 1, ∀ b ∈ D 1, ∀ i ∈ D 0, ∀ j ∈ D 0,
      ccd_t2residual D (A.rotate (D 0 ∪ D 1) U) a b i j = rot4 (D 0 ∪ D 1) U U U U (ccd_t2residual D A) a b i j) ∧
    (∀ a ∈ D 1, ∀ b ∈ D 1, ∀ i ∈ D 0, ∀ j ∈ D 0,
      doubles_resLCCDoffset D (A.rotate (D 0 ∪ D 1) U) a b i j = rot4 (D 0 ∪ D 1) U U U U (doubles_resLCCDoffset D A) a b i j) :=
  ⟨Prog.eval_rot D (fun _ => U) (Rotation.orthogonal fun _ => hU) SO.col _ _ (SO.rotate_rot hD hU A) Gen.ccdEnergy (Prog.paired_of_fast (by decide +kernel)),
   fun a ma b mb i mi j mj => covariant4_so hD hU A Gen.ccd_t2residual 1 1 0 0 (Prog.rotOk_of_fast (by decide +kernel)) a b i j ma mb mi mj,
   fun a ma b mb i mi j mj => covariant4_so hD hU A Gen.doubles_resLCCDoffset 1 1 0 0 (Prog.rotOk_of_fast (by decide +kernel)) a b i j ma mb mi mj⟩

include hU in
/-- Factorised quadruples: energies are invariant, arrays are rotated. -/
theorem C68_qf (A : SO I K) :
    energy_pertQf D (A.rotate (D 0 ∪ D 1) U) = energy_pertQf D A ∧
    (∀ a ∈ D 1, ∀ b ∈ D 1, ∀ i ∈ D 0, ∀ j ∈ D 0,
      residQf1 D (A.rotate (D 0 ∪ D 1) U) a b i j = rot4 (D 0 ∪ D 1) U U U U (residQf1 D A) a b i j) ∧
    (∀ a ∈ D 1, ∀ b ∈ D 1, ∀ i ∈ D 0, ∀ j ∈ D 0,
      residQf2 D (A.rotate (D 0 ∪ D 1) U) a b i j = rot4 (D 0 ∪ D 1) U U U U (residQf2 D A) a b i j) :=
  ⟨Prog.eval_rot D (fun _ => U) (Rotation.orthogonal fun _ => hU) SO.col _ _ (SO.rotate_rot hD hU A) Gen.energy_pertQf (Prog.paired_of_fast (by decide +kernel)),
   fun a ma b mb i mi j mj => covariant4_so hD hU A Gen.residQf1 1 1 0 0 (Prog.rotOk_of_fast (by decide +kernel)) a b i j ma mb mi mj,
   fun a ma b mb i mi j mj => covariant4_so hD hU A Gen.residQf2 1 1 0 0 (Prog.rotOk_of_fast (by decide +kernel)) a b i j ma mb mi mj⟩

include ha hb in
/-- Spin-integrated CCD: energies are invariant, arrays are rotated. -/
theorem C68_spin_ccd (A : SI I K) :
    ccd_energy_with_spin D (A.rotate (D 0 ∪ D 1) Ua Ub) = ccd_energy_with_spin D A ∧
    (∀ a ∈ D 1, ∀ b ∈ D 1, ∀ i ∈ D 0, ∀ j ∈ D 0,
      ccd_t2_aaaa D (A.rotate (D 0 ∪ D 1) Ua Ub) a b i j = rot4 (D 0 ∪ D 1) Ua Ua Ua Ua (ccd_t2_aaaa D A) a b i j) ∧
    (∀ a ∈ D 1, ∀ b ∈ D 1, ∀ i ∈ D 0, ∀ j ∈ D 0,
      ccd_t2_abab D (A.rotate (D 0 ∪ D 1) Ua Ub) a b i j = rot4 (D 0 ∪ D 1) Ua Ub Ua Ub (ccd_t2_abab D A) a b i j) ∧
    (∀ a ∈ D 1, ∀ b ∈ D 1, ∀ i ∈ D 0, ∀ j ∈ D 0,
      ccd_t2_bbbb D (A.rotate (D 0 ∪ D 1) Ua Ub) a b i j = rot4 (D 0 ∪ D 1) Ub Ub Ub Ub (ccd_t2_bbbb D A) a b i j) :=
  ⟨Prog.eval_rot D (spinU Ua Ub) (Rotation.orthogonal (ha.spin hb)) SI.col _ _ (SI.rotate_rot hD ha hb A) Gen.ccd_energy_with_spin (Prog.paired_of_fast (by decide +kernel)),
   fun a ma b mb i mi j mj => covariant4_si hD ha hb A Gen.ccd_t2_aaaa 1 1 0 0 0 0 0 0 (Prog.rotOk_of_fast (by decide +kernel)) a b i j ma mb mi mj,
   fun a ma b mb i mi j mj => covariant4_si hD ha hb A Gen.ccd_t2_abab 1 1 0 0 0 1 0 1 (Prog.rotOk_of_fast (by decide +kernel)) a b i j ma mb mi mj,
   fun a ma b mb i mi j mj => covariant4_si hD ha hb A Gen.ccd_t2_bbbb 1 1 0 0 1 1 1 1 (Prog.rotOk_of_fast (by decide +kernel)) a b i j ma mb mi mj⟩

include ha hb in
/-- Spin-integrated factorised quadruples: energies are invariant, arrays are rotated. -/
theorem C68_spin_qf (A : SI I K) :
    si_energy_pertQf D (A.rotate (D 0 ∪ D 1) Ua Ub) = si_energy_pertQf D A ∧
    (∀ a ∈ D 1, ∀ b ∈ D 1, ∀ i ∈ D 0, ∀ j ∈ D 0,
      residQf1_aaaa D (A.rotate (D 0 ∪ D 1) Ua Ub) a b i j = rot4 (D 0 ∪ D 1) Ua Ua Ua Ua (residQf1_aaaa D A) a b i j) ∧
    (∀ a ∈ D 1, ∀ b ∈ D 1, ∀ i ∈ D 0, ∀ j ∈ D 0,
      residQf1_abab D (A.rotate (D 0 ∪ D 1) Ua Ub) a b i j = rot4 (D 0 ∪ D 1) Ua Ub Ua Ub (residQf1_abab D A) a b i j) ∧
    (∀ a ∈ D 1, ∀ b ∈ D 1, ∀ i ∈ D 0, ∀ j ∈ D 0,
      residQf1_bbbb D (A.rotate (D 0 ∪ D 1) Ua Ub) a b i j = rot4 (D 0 ∪ D 1) Ub Ub Ub Ub (residQf1_bbbb D A) a b i j) ∧
    (∀ a ∈ D 1, ∀ b ∈ D 1, ∀ i ∈ D 0, ∀ j ∈ D 0,
      residQf2_aaaa D (A.rotate (D 0 ∪ D 1) Ua Ub) a b i j = rot4 (D 0 ∪ D 1) Ua Ua Ua Ua (residQf2_aaaa D A) a b i j) ∧
    (∀ a ∈ D 1, ∀ b ∈ D 1, ∀ i ∈ D 0, ∀ j ∈ D 0,
      residQf2_abab D (A.rotate (D 0 ∪ D 1) Ua Ub) a b i j = rot4 (D 0 ∪ D 1) Ua Ub Ua Ub (residQf2_abab D A) a b i j) ∧
    (∀ a ∈ D 1, ∀ b ∈ D 1, ∀ i ∈ D 0, ∀ j ∈ D 0,
      residQf2_bbbb D (A.rotate (D 0 ∪ D 1) Ua Ub) a b i j = rot4 (D 0 ∪ D 1) Ub Ub Ub Ub (residQf2_bbbb D A) a b i j) :=
  ⟨Prog.eval_rot D (spinU Ua Ub) (Rotation.orthogonal (ha.spin hb)) SI.col _ _ (SI.rotate_rot hD ha hb A) Gen.si_energy_pertQf (Prog.paired_of_fast (by decide +kernel)),
   fun a ma b mb i mi j mj => covariant4_si hD ha hb A Gen.residQf1_aaaa 1 1 0 0 0 0 0 0 (Prog.rotOk_of_fast (by decide +kernel)) a b i j ma mb mi mj,
   fun a ma b mb i mi j mj => covariant4_si hD ha hb A Gen.residQf1_abab 1 1 0 0 0 1 0 1 (Prog.rotOk_of_fast (by decide +kernel)) a b i j ma mb mi mj,
   fun a ma b mb i mi j mj => covariant4_si hD ha hb A Gen.residQf1_bbbb 1 1 0 0 1 1 1 1 (Prog.rotOk_of_fast (by decide +kernel)) a b i j ma mb mi mj,
   fun a ma b mb i mi j mj => covariant4_si hD ha hb A Gen.residQf2_aaaa 1 1 0 0 0 0 0 0 (Prog.rotOk_of_fast (by decide +kernel)) a b i j ma mb mi mj,
   fun a ma b mb i mi j mj => covariant4_si hD ha hb A Gen.residQf2_abab 1 1 0 0 0 1 0 1 (Prog.rotOk_of_fast (by decide +kernel)) a b i j ma mb mi mj,
   fun a ma b mb i mi j mj => covariant4_si hD ha hb A Gen.residQf2_bbbb 1 1 0 0 1 1 1 1 (Prog.rotOk_of_fast (by decide +kernel)) a b i j ma mb mi mj⟩

include hU in
/-- CCSD: energies are invariant, arrays are rotated. -/
theorem C68_ccsd (A : SO I K) :
    spinorbitalCCSDE D (A.rotate (D 0 ∪ D 1) U) = spinorbitalCCSDE D A ∧
    spinorbitalCCDE D (A.rotate (D 0 ∪ D 1) U) = spinorbitalCCDE D A ∧
    (∀ i ∈ D 0, ∀ a ∈ D 1,
      ccsd_t1resid D (A.rotate (D 0 ∪ D 1) U) i a = rot2 (D 0 ∪ D 1) U U (ccsd_t1resid D A) i a) ∧
    (∀ i ∈ D 0, ∀ j ∈ D 0, ∀ a ∈ D 1, ∀ b ∈ D 1,
      ccsd_t2resid D (A.rotate (D 0 ∪ D 1) U) i j a b = rot4 (D 0 ∪ D 1) U U U U (ccsd_t2resid D A) i j a b) :=
  ⟨Prog.eval_rot D (fun _ => U) (Rotation.orthogonal fun _ => hU) SO.col _ _ (SO.rotate_rot hD hU A) Gen.spinorbitalCCSDE (Prog.paired_of_fast (by decide +kernel)),
   Prog.eval_rot D (fun _ => U) (Rotation.orthogonal fun _ => hU) SO.col _ _ (SO.rotate_rot hD hU A) Gen.spinorbitalCCDE (Prog.paired_of_fast (by decide +kernel)),
   fun i mi a ma => covariant2_so hD hU A Gen.ccsd_t1resid 0 1 (Prog.rotOk_of_fast (by decide +kernel)) i a mi ma,
   fun i mi j mj a ma b mb => covariant4_so hD hU A Gen.ccsd_t2resid 0 0 1 1 (Prog.rotOk_of_fast (by decide +kernel)) i j a b mi mj ma mb⟩

include hU in
/-- CCSDT: energies are invariant, arrays are rotated. -/
theorem C68_ccsdt (A : SO I K) :
    (∀ i ∈ D 0, ∀ a ∈ D 1,
      ccsdt_t1eqns D (A.rotate (D 0 ∪ D 1) U) i a = rot2 (D 0 ∪ D 1) U U (ccsdt_t1eqns D A) i a) ∧
    (∀ i ∈ D 0, ∀ j ∈ D 0, ∀ a ∈ D 1, ∀ b ∈ D 1,
      ccsdt_t2eqns D (A.rotate (D 0 ∪ D 1) U) i j a b = rot4 (D 0 ∪ D 1) U U U U (ccsdt_t2eqns D A) i j a b) ∧
    (∀ i ∈ D 0, ∀ j ∈ D 0, ∀ k ∈ D 0, ∀ a ∈ D 1, ∀ b ∈ D 1, ∀ c ∈ D 1,
      ccsdt_t3eqns D (A.rotate (D 0 ∪ D 1) U) i j k a b c = rot6 (D 0 ∪ D 1) U U U U U U (ccsdt_t3eqns D A) i j k a b c) :=
  ⟨fun i mi a ma => covariant2_so hD hU A Gen.ccsdt_t1eqns 0 1 (Prog.rotOk_of_fast (by decide +kernel)) i a mi ma,
   fun i mi j mj a ma b mb => covariant4_so hD hU A Gen.ccsdt_t2eqns 0 0 1 1 (Prog.rotOk_of_fast (by decide +kernel)) i j a b mi mj ma mb,
   fun i mi j mj k mk a ma b mb c mc => covariant6_so hD hU A Gen.ccsdt_t3eqns 0 0 0 1 1 1 (Prog.rotOk_of_fast (by decide +kernel)) i j k a b c mi mj mk ma mb mc⟩

include hU in
/-- CCDQ: energies are invariant, arrays are rotated. -/
theorem C68_ccdq (A : SO I K) :
    (∀ i ∈ D 0, ∀ j ∈ D 0, ∀ a ∈ D 1, ∀ b ∈ D 1,
      ccdq_t2eqns D (A.rotate (D 0 ∪ D 1) U) i j a b = rot4 (D 0 ∪ D 1) U U U U (ccdq_t2eqns D A) i j a b) ∧
    (∀ i ∈ D 0, ∀ j ∈ D 0, ∀ k ∈ D 0, ∀ l ∈ D 0, ∀ a ∈ D 1, ∀ b ∈ D 1, ∀ c ∈ D 1, ∀ d ∈ D 1,
      ccdq_t4eqns D (A.rotate (D 0 ∪ D 1) U) i j k l a b c d = rot8 (D 0 ∪ D 1) U U U U U U U U (ccdq_t4eqns D A) i j k l a b c d) :=
  ⟨fun i mi j mj a ma b mb => covariant4_so hD hU A Gen.ccdq_t2eqns 0 0 1 1 (Prog.rotOk_of_fast (by decide +kernel)) i j a b mi mj ma mb,
   fun i mi j mj k mk l ml a ma b mb c mc d md => covariant8_so hD hU A Gen.ccdq_t4eqns 0 0 0 0 1 1 1 1 (Prog.rotOk_of_fast (by decide +kernel)) i j k l a b c d mi mj mk ml ma mb mc md⟩

include hU in
/-- Perturbative triples: energies are invariant, arrays are rotated. -/
theorem C68_triples (A : SO I K) :
    (∀ a ∈ D 1, ∀ b ∈ D 1, ∀ c ∈ D 1, ∀ i ∈ D 0, ∀ j ∈ D 0, ∀ k ∈ D 0,
      build_T3 D (A.rotate (D 0 ∪ D 1) U) a b c i j k = rot6 (D 0 ∪ D 1) U U U U U U (build_T3 D A) a b c i j k) ∧
    pdagq_T3energy D (A.rotate (D 0 ∪ D 1) U) = pdagq_T3energy D A ∧
    pdagq_ccsd_energy D (A.rotate (D 0 ∪ D 1) U) = pdagq_ccsd_energy D A ∧
    (∀ a ∈ D 1, ∀ b ∈ D 1, ∀ c ∈ D 1, ∀ i ∈ D 0, ∀ j ∈ D 0, ∀ k ∈ D 0,
      fifthOrder_capA D (A.rotate (D 0 ∪ D 1) U) a b c i j k = rot6 (D 0 ∪ D 1) U U U U U U (fifthOrder_capA D A) a b c i j k) ∧
    contractE D (A.rotate (D 0 ∪ D 1) U) = contractE D A ∧
    (∀ i ∈ D 0, ∀ j ∈ D 0, ∀ k ∈ D 0, ∀ a ∈ D 1, ∀ b ∈ D 1, ∀ c ∈ D 1,
      build_T3_thirdO D (A.rotate (D 0 ∪ D 1) U) i j k a b c = rot6 (D 0 ∪ D 1) U U U U U U (build_T3_thirdO D A) i j k a b c) ∧
    (∀ i ∈ D 0, ∀ j ∈ D 0, ∀ k ∈ D 0, ∀ a ∈ D 1, ∀ b ∈ D 1, ∀ c ∈ D 1,
      build_T3_secondO D (A.rotate (D 0 ∪ D 1) U) i j k a b c = rot6 (D 0 ∪ D 1) U U U U U U (build_T3_secondO D A) i j k a b c) ∧
    (∀ i ∈ D 0, ∀ j ∈ D 0, ∀ a ∈ D 1, ∀ b ∈ D 1,
      build_netT2 D (A.rotate (D 0 ∪ D 1) U) i j a b = rot4 (D 0 ∪ D 1) U U U U (build_netT2 D A) i j a b) ∧
    getE_squareBrackT D (A.rotate (D 0 ∪ D 1) U) = getE_squareBrackT D A ∧
    getE_parenT_t1 D (A.rotate (D 0 ∪ D 1) U) = getE_parenT_t1 D A ∧
    (∀ i ∈ D 0, ∀ a ∈ D 1,
      get_netT1_fromT2 D (A.rotate (D 0 ∪ D 1) U) i a = rot2 (D 0 ∪ D 1) U U (get_netT1_fromT2 D A) i a) ∧
    (∀ i ∈ D 0, ∀ a ∈ D 1,
      get_netT1_thirdO D (A.rotate (D 0 ∪ D 1) U) i a = rot2 (D 0 ∪ D 1) U U (get_netT1_thirdO D A) i a) ∧
    (∀ i ∈ D 0, ∀ j ∈ D 0, ∀ a ∈ D 1, ∀ b ∈ D 1,
      get_T2resid_fromT1bar D (A.rotate (D 0 ∪ D 1) U) i j a b = rot4 (D 0 ∪ D 1) U U U U (get_T2resid_fromT1bar D A) i j a b) ∧
    (∀ a ∈ D 1, ∀ b ∈ D 1, ∀ c ∈ D 1, ∀ i ∈ D 0, ∀ j ∈ D 0, ∀ k ∈ D 0,
      fifthOrder_capC D (A.rotate (D 0 ∪ D 1) U) a b c i j k = rot6 (D 0 ∪ D 1) U U U U U U (fifthOrder_capC D A) a b c i j k) :=
  ⟨fun a ma b mb c mc i mi j mj k mk => covariant6_so hD hU A Gen.build_T3 1 1 1 0 0 0 (Prog.rotOk_of_fast (by decide +kernel)) a b c i j k ma mb mc mi mj mk,
   Prog.eval_rot D (fun _ => U) (Rotation.orthogonal fun _ => hU) SO.col _ _ (SO.rotate_rot hD hU A) Gen.pdagq_T3energy (Prog.paired_of_fast (by decide +kernel)),
   Prog.eval_rot D (fun _ => U) (Rotation.orthogonal fun _ => hU) SO.col _ _ (SO.rotate_rot hD hU A) Gen.pdagq_ccsd_energy (Prog.paired_of_fast (by decide +kernel)),
   fun a ma b mb c mc i mi j mj k mk => covariant6_so hD hU A Gen.fifthOrder_capA 1 1 1 0 0 0 (Prog.rotOk_of_fast (by decide +kernel)) a b c i j k ma mb mc mi mj mk,
   Prog.eval_rot D (fun _ => U) (Rotation.orthogonal fun _ => hU) SO.col _ _ (SO.rotate_rot hD hU A) Gen.contractE (Prog.paired_of_fast (by decide +kernel)),
   fun i mi j mj k mk a ma b mb c mc => covariant6_so hD hU A Gen.build_T3_thirdO 0 0 0 1 1 1 (Prog.rotOk_of_fast (by decide +kernel)) i j k a b c mi mj mk ma mb mc,
   fun i mi j mj k mk a ma b mb c mc => covariant6_so hD hU A Gen.build_T3_secondO 0 0 0 1 1 1 (Prog.rotOk_of_fast (by decide +kernel)) i j k a b c mi mj mk ma mb mc,
   fun i mi j mj a ma b mb => covariant4_so hD hU A Gen.build_netT2 0 0 1 1 (Prog.rotOk_of_fast (by decide +kernel)) i j a b mi mj ma mb,
   Prog.eval_rot D (fun _ => U) (Rotation.orthogonal fun _ => hU) SO.col _ _ (SO.rotate_rot hD hU A) Gen.getE_squareBrackT (Prog.paired_of_fast (by decide +kernel)),
   Prog.eval_rot D (fun _ => U) (Rotation.orthogonal fun _ => hU) SO.col _ _ (SO.rotate_rot hD hU A) Gen.getE_parenT_t1 (Prog.paired_of_fast (by decide +kernel)),
   fun i mi a ma => covariant2_so hD hU A Gen.get_netT1_fromT2 0 1 (Prog.rotOk_of_fast (by decide +kernel)) i a mi ma,
   fun i mi a ma => covariant2_so hD hU A Gen.get_netT1_thirdO 0 1 (Prog.rotOk_of_fast (by decide +kernel)) i a mi ma,
   fun i mi j mj a ma b mb => covariant4_so hD hU A Gen.get_T2resid_fromT1bar 0 0 1 1 (Prog.rotOk_of_fast (by decide +kernel)) i j a b mi mj ma mb,
   fun a ma b mb c mc i mi j mj k mk => covariant6_so hD hU A Gen.fifthOrder_capC 1 1 1 0 0 0 (Prog.rotOk_of_fast (by decide +kernel)) a b c i j k ma mb mc mi mj mk⟩

include hU in
/-- UCC(4): energies are invariant, arrays are rotated. -/
theorem C68_ucc4 (A : SO I K) :
    (∀ a ∈ D 1, ∀ i ∈ D 0,
      t1_residEqns D (A.rotate (D 0 ∪ D 1) U) a i = rot2 (D 0 ∪ D 1) U U (t1_residEqns D A) a i) ∧
    (∀ a ∈ D 1, ∀ b ∈ D 1, ∀ c ∈ D 1, ∀ i ∈ D 0, ∀ j ∈ D 0, ∀ k ∈ D 0,
      t3_resid D (A.rotate (D 0 ∪ D 1) U) a b c i j k = rot6 (D 0 ∪ D 1) U U U U U U (t3_resid D A) a b c i j k) ∧
    (∀ a ∈ D 1, ∀ b ∈ D 1, ∀ i ∈ D 0, ∀ j ∈ D 0,
      offset_t2resid_t2squared D (A.rotate (D 0 ∪ D 1) U) a b i j = rot4 (D 0 ∪ D 1) U U U U (offset_t2resid_t2squared D A) a b i j) ∧
    (∀ a ∈ D 1, ∀ b ∈ D 1, ∀ i ∈ D 0, ∀ j ∈ D 0,
      offset_t2resid_t2dag_w_t2 D (A.rotate (D 0 ∪ D 1) U) a b i j = rot4 (D 0 ∪ D 1) U U U U (offset_t2resid_t2dag_w_t2 D A) a b i j) ∧
    (∀ a ∈ D 1, ∀ b ∈ D 1, ∀ i ∈ D 0, ∀ j ∈ D 0,
      offset_t2resid_T1_T3 D (A.rotate (D 0 ∪ D 1) U) a b i j = rot4 (D 0 ∪ D 1) U U U U (offset_t2resid_T1_T3 D A) a b i j) :=
  ⟨fun a ma i mi => covariant2_so hD hU A Gen.t1_residEqns 1 0 (Prog.rotOk_of_fast (by decide +kernel)) a i ma mi,
   fun a ma b mb c mc i mi j mj k mk => covariant6_so hD hU A Gen.t3_resid 1 1 1 0 0 0 (Prog.rotOk_of_fast (by decide +kernel)) a b c i j k ma mb mc mi mj mk,
   fun a ma b mb i mi j mj => covariant4_so hD hU A Gen.offset_t2resid_t2squared 1 1 0 0 (Prog.rotOk_of_fast (by decide +kernel)) a b i j ma mb mi mj,
   fun a ma b mb i mi j mj => covariant4_so hD hU A Gen.offset_t2resid_t2dag_w_t2 1 1 0 0 (Prog.rotOk_of_fast (by decide +kernel)) a b i j ma mb mi mj,
   fun a ma b mb i mi j mj => covariant4_so hD hU A Gen.offset_t2resid_T1_T3 1 1 0 0 (Prog.rotOk_of_fast (by decide +kernel)) a b i j ma mb mi mj⟩

include hU in
/-- Quadruples residuals and their corrections: energies are invariant, arrays are rotated. -/
theorem C68_quadruples (A : SO I K) :
    (∀ a ∈ D 1, ∀ b ∈ D 1, ∀ c ∈ D 1, ∀ d ∈ D 1, ∀ i ∈ D 0, ∀ j ∈ D 0, ∀ k ∈ D 0, ∀ l ∈ D 0,
      unsym_residQf1 D (A.rotate (D 0 ∪ D 1) U) a b c d i j k l = rot8 (D 0 ∪ D 1) U U U U U U U U (unsym_residQf1 D A) a b c d i j k l) ∧
    (∀ a ∈ D 1, ∀ b ∈ D 1, ∀ c ∈ D 1, ∀ d ∈ D 1, ∀ i ∈ D 0, ∀ j ∈ D 0, ∀ k ∈ D 0, ∀ l ∈ D 0,
      unsym_residQf2 D (A.rotate (D 0 ∪ D 1) U) a b c d i j k l = rot8 (D 0 ∪ D 1) U U U U U U U U (unsym_residQf2 D A) a b c d i j k l) ∧
    (∀ i ∈ D 0, ∀ j ∈ D 0, ∀ a ∈ D 1, ∀ b ∈ D 1,
      optWnT3 D (A.rotate (D 0 ∪ D 1) U) i j a b = rot4 (D 0 ∪ D 1) U U U U (optWnT3 D A) i j a b) ∧
    (∀ i ∈ D 0, ∀ j ∈ D 0, ∀ a ∈ D 1, ∀ b ∈ D 1,
      optWnT2sqr D (A.rotate (D 0 ∪ D 1) U) i j a b = rot4 (D 0 ∪ D 1) U U U U (optWnT2sqr D A) i j a b) ∧
    (∀ i ∈ D 0, ∀ j ∈ D 0, ∀ a ∈ D 1, ∀ b ∈ D 1,
      T3portion_Qf D (A.rotate (D 0 ∪ D 1) U) i j a b = rot4 (D 0 ∪ D 1) U U U U (T3portion_Qf D A) i j a b) ∧
    (∀ i ∈ D 0, ∀ j ∈ D 0, ∀ k ∈ D 0, ∀ a ∈ D 1, ∀ b ∈ D 1, ∀ c ∈ D 1,
      build_approxT3 D (A.rotate (D 0 ∪ D 1) U) i j k a b c = rot6 (D 0 ∪ D 1) U U U U U U (build_approxT3 D A) i j k a b c) ∧
    (∀ i ∈ D 0, ∀ j ∈ D 0, ∀ k ∈ D 0, ∀ l ∈ D 0, ∀ a ∈ D 1, ∀ b ∈ D 1, ∀ c ∈ D 1, ∀ d ∈ D 1,
      wnT2T3_toT4 D (A.rotate (D 0 ∪ D 1) U) i j k l a b c d = rot8 (D 0 ∪ D 1) U U U U U U U U (wnT2T3_toT4 D A) i j k l a b c d) ∧
    (∀ i ∈ D 0, ∀ j ∈ D 0, ∀ k ∈ D 0, ∀ l ∈ D 0, ∀ a ∈ D 1, ∀ b ∈ D 1, ∀ c ∈ D 1, ∀ d ∈ D 1,
      wnT2cubed_toT4 D (A.rotate (D 0 ∪ D 1) U) i j k l a b c d = rot8 (D 0 ∪ D 1) U U U U U U U U (wnT2cubed_toT4 D A) i j k l a b c d) ∧
    (∀ i ∈ D 0, ∀ j ∈ D 0, ∀ a ∈ D 1, ∀ b ∈ D 1,
      wnT2cubed_toT2 D (A.rotate (D 0 ∪ D 1) U) i j a b = rot4 (D 0 ∪ D 1) U U U U (wnT2cubed_toT2 D A) i j a b) ∧
    (∀ i ∈ D 0, ∀ j ∈ D 0, ∀ a ∈ D 1, ∀ b ∈ D 1,
      wnT2T3_toT2 D (A.rotate (D 0 ∪ D 1) U) i j a b = rot4 (D 0 ∪ D 1) U U U U (wnT2T3_toT2 D A) i j a b) ∧
    (∀ a ∈ D 1, ∀ b ∈ D 1, ∀ c ∈ D 1, ∀ d ∈ D 1, ∀ i ∈ D 0, ∀ j ∈ D 0, ∀ k ∈ D 0, ∀ l ∈ D 0,
      t4_test_residual D (A.rotate (D 0 ∪ D 1) U) a b c d i j k l = rot8 (D 0 ∪ D 1) U U U U U U U U (t4_test_residual D A) a b c d i j k l) ∧
    (∀ a ∈ D 1, ∀ b ∈ D 1, ∀ c ∈ D 1, ∀ d ∈ D 1, ∀ i ∈ D 0, ∀ j ∈ D 0, ∀ k ∈ D 0, ∀ l ∈ D 0,
      t4_test_residual_oo D (A.rotate (D 0 ∪ D 1) U) a b c d i j k l = rot8 (D 0 ∪ D 1) U U U U U U U U (t4_test_residual_oo D A) a b c d i j k l) :=
  ⟨fun a ma b mb c mc d md i mi j mj k mk l ml => covariant8_so hD hU A Gen.unsym_residQf1 1 1 1 1 0 0 0 0 (Prog.rotOk_of_fast (by decide +kernel)) a b c d i j k l ma mb mc md mi mj mk ml,
   fun a ma b mb c mc d md i mi j mj k mk l ml => covariant8_so hD hU A Gen.unsym_residQf2 1 1 1 1 0 0 0 0 (Prog.rotOk_of_fast (by decide +kernel)) a b c d i j k l ma mb mc md mi mj mk ml,
   fun i mi j mj a ma b mb => covariant4_so hD hU A Gen.optWnT3 0 0 1 1 (Prog.rotOk_of_fast (by decide +kernel)) i j a b mi mj ma mb,
   fun i mi j mj a ma b mb => covariant4_so hD hU A Gen.optWnT2sqr 0 0 1 1 (Prog.rotOk_of_fast (by decide +kernel)) i j a b mi mj ma mb,
   fun i mi j mj a ma b mb => covariant4_so hD hU A Gen.T3portion_Qf 0 0 1 1 (Prog.rotOk_of_fast (by decide +kernel)) i j a b mi mj ma mb,
   fun i mi j mj k mk a ma b mb c mc => covariant6_so hD hU A Gen.build_approxT3 0 0 0 1 1 1 (Prog.rotOk_of_fast (by decide +kernel)) i j k a b c mi mj mk ma mb mc,
   fun i mi j mj k mk l ml a ma b mb c mc d md => covariant8_so hD hU A Gen.wnT2T3_toT4 0 0 0 0 1 1 1 1 (Prog.rotOk_of_fast (by decide +kernel)) i j k l a b c d mi mj mk ml ma mb mc md,
   fun i mi j mj k mk l ml a ma b mb c mc d md => covariant8_so hD hU A Gen.wnT2cubed_toT4 0 0 0 0 1 1 1 1 (Prog.rotOk_of_fast (by decide +kernel)) i j k l a b c d mi mj mk ml ma mb mc md,
   fun i mi j mj a ma b mb => covariant4_so hD hU A Gen.wnT2cubed_toT2 0 0 1 1 (Prog.rotOk_of_fast (by decide +kernel)) i j a b mi mj ma mb,
   fun i mi j mj a ma b mb => covariant4_so hD hU A Gen.wnT2T3_toT2 0 0 1 1 (Prog.rotOk_of_fast (by decide +kernel)) i j a b mi mj ma mb,
   fun a ma b mb c mc d md i mi j mj k mk l ml => covariant8_so hD hU A Gen.t4_test_residual 1 1 1 1 0 0 0 0 (Prog.rotOk_of_fast (by decide +kernel)) a b c d i j k l ma mb mc md mi mj mk ml,
   fun a ma b mb c mc d md i mi j mj k mk l ml => covariant8_so hD hU A Gen.t4_test_residual_oo 1 1 1 1 0 0 0 0 (Prog.rotOk_of_fast (by decide +kernel)) a b c d i j k l ma mb mc md mi mj mk ml⟩

include hU in
/-- XCCD: energies are invariant, arrays are rotated. -/
theorem C68_xccd (A : SO I K) :
    (∀ i ∈ D 0, ∀ j ∈ D 0, ∀ k ∈ D 0, ∀ l ∈ D 0, ∀ a ∈ D 1, ∀ b ∈ D 1, ∀ c ∈ D 1, ∀ d ∈ D 1,
      xccd5_quad D (A.rotate (D 0 ∪ D 1) U) i j k l a b c d = rot8 (D 0 ∪ D 1) U U U U U U U U (xccd5_quad D A) i j k l a b c d) ∧
    (∀ i ∈ D 0, ∀ j ∈ D 0, ∀ k ∈ D 0, ∀ l ∈ D 0, ∀ a ∈ D 1, ∀ b ∈ D 1, ∀ c ∈ D 1, ∀ d ∈ D 1,
      xccd6_quad D (A.rotate (D 0 ∪ D 1) U) i j k l a b c d = rot8 (D 0 ∪ D 1) U U U U U U U U (xccd6_quad D A) i j k l a b c d) ∧
    (∀ i ∈ D 0, ∀ j ∈ D 0, ∀ k ∈ D 0, ∀ l ∈ D 0, ∀ a ∈ D 1, ∀ b ∈ D 1, ∀ c ∈ D 1, ∀ d ∈ D 1,
      get_xcc7residual D (A.rotate (D 0 ∪ D 1) U) i j k l a b c d = rot8 (D 0 ∪ D 1) U U U U U U U U (get_xcc7residual D A) i j k l a b c d) ∧
    (∀ i ∈ D 0, ∀ j ∈ D 0, ∀ k ∈ D 0, ∀ l ∈ D 0, ∀ a ∈ D 1, ∀ b ∈ D 1, ∀ c ∈ D 1, ∀ d ∈ D 1,
      get_xcc8residual D (A.rotate (D 0 ∪ D 1) U) i j k l a b c d = rot8 (D 0 ∪ D 1) U U U U U U U U (get_xcc8residual D A) i j k l a b c d) ∧
    (∀ i ∈ D 0, ∀ j ∈ D 0, ∀ k ∈ D 0, ∀ l ∈ D 0, ∀ a ∈ D 1, ∀ b ∈ D 1, ∀ c ∈ D 1, ∀ d ∈ D 1,
      get_xcc9residual D (A.rotate (D 0 ∪ D 1) U) i j k l a b c d = rot8 (D 0 ∪ D 1) U U U U U U U U (get_xcc9residual D A) i j k l a b c d) :=
  ⟨fun i mi j mj k mk l ml a ma b mb c mc d md => covariant8_so hD hU A Gen.xccd5_quad 0 0 0 0 1 1 1 1 (Prog.rotOk_of_fast (by decide +kernel)) i j k l a b c d mi mj mk ml ma mb mc md,
   fun i mi j mj k mk l ml a ma b mb c mc d md => covariant8_so hD hU A Gen.xccd6_quad 0 0 0 0 1 1 1 1 (Prog.rotOk_of_fast (by decide +kernel)) i j k l a b c d mi mj mk ml ma mb mc md,
   fun i mi j mj k mk l ml a ma b mb c mc d md => covariant8_so hD hU A Gen.get_xcc7residual 0 0 0 0 1 1 1 1 (Prog.rotOk_of_fast (by decide +kernel)) i j k l a b c d mi mj mk ml ma mb mc md,
   fun i mi j mj k mk l ml a ma b mb c mc d md => covariant8_so hD hU A Gen.get_xcc8residual 0 0 0 0 1 1 1 1 (Prog.rotOk_of_fast (by decide +kernel)) i j k l a b c d mi mj mk ml ma mb mc md,
   fun i mi j mj k mk l ml a ma b mb c mc d md => covariant8_so hD hU A Gen.get_xcc9residual 0 0 0 0 1 1 1 1 (Prog.rotOk_of_fast (by decide +kernel)) i j k l a b c d mi mj mk ml ma mb mc md⟩

include ha hb in
/-- Spin-integrated CCSDT: energies are invariant, arrays are rotated. -/
theorem C68_spin_ccsdt (A : SI I K) :
    ccsd_energy_with_spin D (A.rotate (D 0 ∪ D 1) Ua Ub) = ccsd_energy_with_spin D A ∧
    (∀ a ∈ D 1, ∀ i ∈ D 0,
      ccsdt_t1_aa D (A.rotate (D 0 ∪ D 1) Ua Ub) a i = rot2 (D 0 ∪ D 1) Ua Ua (ccsdt_t1_aa D A) a i) ∧
    (∀ a ∈ D 1, ∀ i ∈ D 0,
      ccsdt_t1_bb D (A.rotate (D 0 ∪ D 1) Ua Ub) a i = rot2 (D 0 ∪ D 1) Ub Ub (ccsdt_t1_bb D A) a i) ∧
    (∀ a ∈ D 1, ∀ b ∈ D 1, ∀ i ∈ D 0, ∀ j ∈ D 0,
      ccsdt_t2_aaaa D (A.rotate (D 0 ∪ D 1) Ua Ub) a b i j = rot4 (D 0 ∪ D 1) Ua Ua Ua Ua (ccsdt_t2_aaaa D A) a b i j) ∧
    (∀ a ∈ D 1, ∀ b ∈ D 1, ∀ i ∈ D 0, ∀ j ∈ D 0,
      ccsdt_t2_bbbb D (A.rotate (D 0 ∪ D 1) Ua Ub) a b i j = rot4 (D 0 ∪ D 1) Ub Ub Ub Ub (ccsdt_t2_bbbb D A) a b i j) ∧
    (∀ a ∈ D 1, ∀ b ∈ D 1, ∀ i ∈ D 0, ∀ j ∈ D 0,
      ccsdt_t2_abab D (A.rotate (D 0 ∪ D 1) Ua Ub) a b i j = rot4 (D 0 ∪ D 1) Ua Ub Ua Ub (ccsdt_t2_abab D A) a b i j) ∧
    (∀ a ∈ D 1, ∀ b ∈ D 1, ∀ c ∈ D 1, ∀ i ∈ D 0, ∀ j ∈ D 0, ∀ k ∈ D 0,
      ccsdt_t3_aaaaaa D (A.rotate (D 0 ∪ D 1) Ua Ub) a b c i j k = rot6 (D 0 ∪ D 1) Ua Ua Ua Ua Ua Ua (ccsdt_t3_aaaaaa D A) a b c i j k) ∧
    (∀ a ∈ D 1, ∀ b ∈ D 1, ∀ c ∈ D 1, ∀ i ∈ D 0, ∀ j ∈ D 0, ∀ k ∈ D 0,
      ccsdt_t3_aabaab D (A.rotate (D 0 ∪ D 1) Ua Ub) a b c i j k = rot6 (D 0 ∪ D 1) Ua Ua Ub Ua Ua Ub (ccsdt_t3_aabaab D A) a b c i j k) ∧
    (∀ a ∈ D 1, ∀ b ∈ D 1, ∀ c ∈ D 1, ∀ i ∈ D 0, ∀ j ∈ D 0, ∀ k ∈ D 0,
      ccsdt_t3_abbabb D (A.rotate (D 0 ∪ D 1) Ua Ub) a b c i j k = rot6 (D 0 ∪ D 1) Ua Ub Ub Ua Ub Ub (ccsdt_t3_abbabb D A) a b c i j k) ∧
    (∀ a ∈ D 1, ∀ b ∈ D 1, ∀ c ∈ D 1, ∀ i ∈ D 0, ∀ j ∈ D 0, ∀ k ∈ D 0,
      ccsdt_t3_bbbbbb D (A.rotate (D 0 ∪ D 1) Ua Ub) a b c i j k = rot6 (D 0 ∪ D 1) Ub Ub Ub Ub Ub Ub (ccsdt_t3_bbbbbb D A) a b c i j k) :=
  ⟨Prog.eval_rot D (spinU Ua Ub) (Rotation.orthogonal (ha.spin hb)) SI.col _ _ (SI.rotate_rot hD ha hb A) Gen.ccsd_energy_with_spin (Prog.paired_of_fast (by decide +kernel)),
   fun a ma i mi => covariant2_si hD ha hb A Gen.ccsdt_t1_aa 1 0 0 0 (Prog.rotOk_of_fast (by decide +kernel)) a i ma mi,
   fun a ma i mi => covariant2_si hD ha hb A Gen.ccsdt_t1_bb 1 0 1 1 (Prog.rotOk_of_fast (by decide +kernel)) a i ma mi,
   fun a ma b mb i mi j mj => covariant4_si hD ha hb A Gen.ccsdt_t2_aaaa 1 1 0 0 0 0 0 0 (Prog.rotOk_of_fast (by decide +kernel)) a b i j ma mb mi mj,
   fun a ma b mb i mi j mj => covariant4_si hD ha hb A Gen.ccsdt_t2_bbbb 1 1 0 0 1 1 1 1 (Prog.rotOk_of_fast (by decide +kernel)) a b i j ma mb mi mj,
   fun a ma b mb i mi j mj => covariant4_si hD ha hb A Gen.ccsdt_t2_abab 1 1 0 0 0 1 0 1 (Prog.rotOk_of_fast (by decide +kernel)) a b i j ma mb mi mj,
   fun a ma b mb c mc i mi j mj k mk => covariant6_si hD ha hb A Gen.ccsdt_t3_aaaaaa 1 1 1 0 0 0 0 0 0 0 0 0 (Prog.rotOk_of_fast (by decide +kernel)) a b c i j k ma mb mc mi mj mk,
   fun a ma b mb c mc i mi j mj k mk => covariant6_si hD ha hb A Gen.ccsdt_t3_aabaab 1 1 1 0 0 0 0 0 1 0 0 1 (Prog.rotOk_of_fast (by decide +kernel)) a b c i j k ma mb mc mi mj mk,
   fun a ma b mb c mc i mi j mj k mk => covariant6_si hD ha hb A Gen.ccsdt_t3_abbabb 1 1 1 0 0 0 0 1 1 0 1 1 (Prog.rotOk_of_fast (by decide +kernel)) a b c i j k ma mb mc mi mj mk,
   fun a ma b mb c mc i mi j mj k mk => covariant6_si hD ha hb A Gen.ccsdt_t3_bbbbbb 1 1 1 0 0 0 1 1 1 1 1 1 (Prog.rotOk_of_fast (by decide +kernel)) a b c i j k ma mb mc mi mj mk⟩

include ha hb in
/-- Spin-integrated CCDQ: energies are invariant, arrays are rotated. -/
theorem C68_spin_ccdq (A : SI I K) :
    (∀ a ∈ D 1, ∀ b ∈ D 1, ∀ i ∈ D 0, ∀ j ∈ D 0,
      ccdq_t2_aaaa D (A.rotate (D 0 ∪ D 1) Ua Ub) a b i j = rot4 (D 0 ∪ D 1) Ua Ua Ua Ua (ccdq_t2_aaaa D A) a b i j) ∧
    (∀ a ∈ D 1, ∀ b ∈ D 1, ∀ i ∈ D 0, ∀ j ∈ D 0,
      ccdq_t2_bbbb D (A.rotate (D 0 ∪ D 1) Ua Ub) a b i j = rot4 (D 0 ∪ D 1) Ub Ub Ub Ub (ccdq_t2_bbbb D A) a b i j) ∧
    (∀ a ∈ D 1, ∀ b ∈ D 1, ∀ i ∈ D 0, ∀ j ∈ D 0,
      ccdq_t2_abab D (A.rotate (D 0 ∪ D 1) Ua Ub) a b i j = rot4 (D 0 ∪ D 1) Ua Ub Ua Ub (ccdq_t2_abab D A) a b i j) ∧
    (∀ a ∈ D 1, ∀ b ∈ D 1, ∀ c ∈ D 1, ∀ d ∈ D 1, ∀ i ∈ D 0, ∀ j ∈ D 0, ∀ k ∈ D 0, ∀ l ∈ D 0,
      ccdq_t4_aaaaaaaa D (A.rotate (D 0 ∪ D 1) Ua Ub) a b c d i j k l = rot8 (D 0 ∪ D 1) Ua Ua Ua Ua Ua Ua Ua Ua (ccdq_t4_aaaaaaaa D A) a b c d i j k l) ∧
    (∀ a ∈ D 1, ∀ b ∈ D 1, ∀ c ∈ D 1, ∀ d ∈ D 1, ∀ i ∈ D 0, ∀ j ∈ D 0, ∀ k ∈ D 0, ∀ l ∈ D 0,
      ccdq_t4_aaabaaab D (A.rotate (D 0 ∪ D 1) Ua Ub) a b c d i j k l = rot8 (D 0 ∪ D 1) Ua Ua Ua Ub Ua Ua Ua Ub (ccdq_t4_aaabaaab D A) a b c d i j k l) ∧
    (∀ a ∈ D 1, ∀ b ∈ D 1, ∀ c ∈ D 1, ∀ d ∈ D 1, ∀ i ∈ D 0, ∀ j ∈ D 0, ∀ k ∈ D 0, ∀ l ∈ D 0,
      ccdq_t4_aabbaabb D (A.rotate (D 0 ∪ D 1) Ua Ub) a b c d i j k l = rot8 (D 0 ∪ D 1) Ua Ua Ub Ub Ua Ua Ub Ub (ccdq_t4_aabbaabb D A) a b c d i j k l) ∧
    (∀ a ∈ D 1, ∀ b ∈ D 1, ∀ c ∈ D 1, ∀ d ∈ D 1, ∀ i ∈ D 0, ∀ j ∈ D 0, ∀ k ∈ D 0, ∀ l ∈ D 0,
      ccdq_t4_abbbabbb D (A.rotate (D 0 ∪ D 1) Ua Ub) a b c d i j k l = rot8 (D 0 ∪ D 1) Ua Ub Ub Ub Ua Ub Ub Ub (ccdq_t4_abbbabbb D A) a b c d i j k l) ∧
    (∀ a ∈ D 1, ∀ b ∈ D 1, ∀ c ∈ D 1, ∀ d ∈ D 1, ∀ i ∈ D 0, ∀ j ∈ D 0, ∀ k ∈ D 0, ∀ l ∈ D 0,
      ccdq_t4_bbbbbbbb D (A.rotate (D 0 ∪ D 1) Ua Ub) a b c d i j k l = rot8 (D 0 ∪ D 1) Ub Ub Ub Ub Ub Ub Ub Ub (ccdq_t4_bbbbbbbb D A) a b c d i j k l) :=
  ⟨fun a ma b mb i mi j mj => covariant4_si hD ha hb A Gen.ccdq_t2_aaaa 1 1 0 0 0 0 0 0 (Prog.rotOk_of_fast (by decide +kernel)) a b i j ma mb mi mj,
   fun a ma b mb i mi j mj => covariant4_si hD ha hb A Gen.ccdq_t2_bbbb 1 1 0 0 1 1 1 1 (Prog.rotOk_of_fast (by decide +kernel)) a b i j ma mb mi mj,
   fun a ma b mb i mi j mj => covariant4_si hD ha hb A Gen.ccdq_t2_abab 1 1 0 0 0 1 0 1 (Prog.rotOk_of_fast (by decide +kernel)) a b i j ma mb mi mj,
   fun a ma b mb c mc d md i mi j mj k mk l ml => covariant8_si hD ha hb A Gen.ccdq_t4_aaaaaaaa 1 1 1 1 0 0 0 0 0 0 0 0 0 0 0 0 (Prog.rotOk_of_fast (by decide +kernel)) a b c d i j k l ma mb mc md mi mj mk ml,
   fun a ma b mb c mc d md i mi j mj k mk l ml => covariant8_si hD ha hb A Gen.ccdq_t4_aaabaaab 1 1 1 1 0 0 0 0 0 0 0 1 0 0 0 1 (Prog.rotOk_of_fast (by decide +kernel)) a b c d i j k l ma mb mc md mi mj mk ml,
   fun a ma b mb c mc d md i mi j mj k mk l ml => covariant8_si hD ha hb A Gen.ccdq_t4_aabbaabb 1 1 1 1 0 0 0 0 0 0 1 1 0 0 1 1 (Prog.rotOk_of_fast (by decide +kernel)) a b c d i j k l ma mb mc md mi mj mk ml,
   fun a ma b mb c mc d md i mi j mj k mk l ml => covariant8_si hD ha hb A Gen.ccdq_t4_abbbabbb 1 1 1 1 0 0 0 0 0 1 1 1 0 1 1 1 (Prog.rotOk_of_fast (by decide +kernel)) a b c d i j k l ma mb mc md mi mj mk ml,
   fun a ma b mb c mc d md i mi j mj k mk l ml => covariant8_si hD ha hb A Gen.ccdq_t4_bbbbbbbb 1 1 1 1 0 0 0 0 1 1 1 1 1 1 1 1 (Prog.rotOk_of_fast (by decide +kernel)) a b c d i j k l ma mb mc md mi mj mk ml⟩

include ha hb in
/-- Spin-integrated perturbative corrections: energies are invariant, arrays are rotated. -/
theorem C68_spin_pert (A : SI I K) :
    si_energy_pertQf_t4 D (A.rotate (D 0 ∪ D 1) Ua Ub) = si_energy_pertQf_t4 D A ∧
    (∀ a ∈ D 1, ∀ b ∈ D 1, ∀ c ∈ D 1, ∀ i ∈ D 0, ∀ j ∈ D 0, ∀ k ∈ D 0,
      approxT3_aaaaaa D (A.rotate (D 0 ∪ D 1) Ua Ub) a b c i j k = rot6 (D 0 ∪ D 1) Ua Ua Ua Ua Ua Ua (approxT3_aaaaaa D A) a b c i j k) ∧
    (∀ a ∈ D 1, ∀ b ∈ D 1, ∀ c ∈ D 1, ∀ i ∈ D 0, ∀ j ∈ D 0, ∀ k ∈ D 0,
      approxT3_aabaab D (A.rotate (D 0 ∪ D 1) Ua Ub) a b c i j k = rot6 (D 0 ∪ D 1) Ua Ua Ub Ua Ua Ub (approxT3_aabaab D A) a b c i j k) ∧
    (∀ a ∈ D 1, ∀ b ∈ D 1, ∀ c ∈ D 1, ∀ i ∈ D 0, ∀ j ∈ D 0, ∀ k ∈ D 0,
      approxT3_abbabb D (A.rotate (D 0 ∪ D 1) Ua Ub) a b c i j k = rot6 (D 0 ∪ D 1) Ua Ub Ub Ua Ub Ub (approxT3_abbabb D A) a b c i j k) ∧
    (∀ a ∈ D 1, ∀ b ∈ D 1, ∀ c ∈ D 1, ∀ i ∈ D 0, ∀ j ∈ D 0, ∀ k ∈ D 0,
      approxT3_bbbbbb D (A.rotate (D 0 ∪ D 1) Ua Ub) a b c i j k = rot6 (D 0 ∪ D 1) Ub Ub Ub Ub Ub Ub (approxT3_bbbbbb D A) a b c i j k) ∧
    square_brakT D (A.rotate (D 0 ∪ D 1) Ua Ub) = square_brakT D A ∧
    (∀ a ∈ D 1, ∀ b ∈ D 1, ∀ i ∈ D 0, ∀ j ∈ D 0,
      test_t2_aaaa D (A.rotate (D 0 ∪ D 1) Ua Ub) a b i j = rot4 (D 0 ∪ D 1) Ua Ua Ua Ua (test_t2_aaaa D A) a b i j) ∧
    (∀ a ∈ D 1, ∀ b ∈ D 1, ∀ i ∈ D 0, ∀ j ∈ D 0,
      test_t2_abab D (A.rotate (D 0 ∪ D 1) Ua Ub) a b i j = rot4 (D 0 ∪ D 1) Ua Ub Ua Ub (test_t2_abab D A) a b i j) ∧
    (∀ a ∈ D 1, ∀ b ∈ D 1, ∀ i ∈ D 0, ∀ j ∈ D 0,
      test_t2_bbbb D (A.rotate (D 0 ∪ D 1) Ua Ub) a b i j = rot4 (D 0 ∪ D 1) Ub Ub Ub Ub (test_t2_bbbb D A) a b i j) :=
  ⟨Prog.eval_rot D (spinU Ua Ub) (Rotation.orthogonal (ha.spin hb)) SI.col _ _ (SI.rotate_rot hD ha hb A) Gen.si_energy_pertQf_t4 (Prog.paired_of_fast (by decide +kernel)),
   fun a ma b mb c mc i mi j mj k mk => covariant6_si hD ha hb A Gen.approxT3_aaaaaa 1 1 1 0 0 0 0 0 0 0 0 0 (Prog.rotOk_of_fast (by decide +kernel)) a b c i j k ma mb mc mi mj mk,
   fun a ma b mb c mc i mi j mj k mk => covariant6_si hD ha hb A Gen.approxT3_aabaab 1 1 1 0 0 0 0 0 1 0 0 1 (Prog.rotOk_of_fast (by decide +kernel)) a b c i j k ma mb mc mi mj mk,
   fun a ma b mb c mc i mi j mj k mk => covariant6_si hD ha hb A Gen.approxT3_abbabb 1 1 1 0 0 0 0 1 1 0 1 1 (Prog.rotOk_of_fast (by decide +kernel)) a b c i j k ma mb mc mi mj mk,
   fun a ma b mb c mc i mi j mj k mk => covariant6_si hD ha hb A Gen.approxT3_bbbbbb 1 1 1 0 0 0 1 1 1 1 1 1 (Prog.rotOk_of_fast (by decide +kernel)) a b c i j k ma mb mc mi mj mk,
   Prog.eval_rot D (spinU Ua Ub) (Rotation.orthogonal (ha.spin hb)) SI.col _ _ (SI.rotate_rot hD ha hb A) Gen.square_brakT (Prog.paired_of_fast (by decide +kernel)),
   fun a ma b mb i mi j mj => covariant4_si hD ha hb A Gen.test_t2_aaaa 1 1 0 0 0 0 0 0 (Prog.rotOk_of_fast (by decide +kernel)) a b i j ma mb mi mj,
   fun a ma b mb i mi j mj => covariant4_si hD ha hb A Gen.test_t2_abab 1 1 0 0 0 1 0 1 (Prog.rotOk_of_fast (by decide +kernel)) a b i j ma mb mi mj,
   fun a ma b mb i mi j mj => covariant4_si hD ha hb A Gen.test_t2_bbbb 1 1 0 0 1 1 1 1 (Prog.rotOk_of_fast (by decide +kernel)) a b i j ma mb mi mj⟩

include ha hb in
/-- Spin-integrated quadruples from doubles: energies are invariant, arrays are rotated. -/
theorem C68_spin_t4 (A : SI I K) :
    (∀ a ∈ D 1, ∀ b ∈ D 1, ∀ c ∈ D 1, ∀ d ∈ D 1, ∀ i ∈ D 0, ∀ j ∈ D 0, ∀ k ∈ D 0, ∀ l ∈ D 0,
      ccsdtq_t4_aaaaaaaa D (A.rotate (D 0 ∪ D 1) Ua Ub) a b c d i j k l = rot8 (D 0 ∪ D 1) Ua Ua Ua Ua Ua Ua Ua Ua (ccsdtq_t4_aaaaaaaa D A) a b c d i j k l) ∧
    (∀ a ∈ D 1, ∀ b ∈ D 1, ∀ c ∈ D 1, ∀ d ∈ D 1, ∀ i ∈ D 0, ∀ j ∈ D 0, ∀ k ∈ D 0, ∀ l ∈ D 0,
      ccsdtq_t4_aaabaaab D (A.rotate (D 0 ∪ D 1) Ua Ub) a b c d i j k l = rot8 (D 0 ∪ D 1) Ua Ua Ua Ub Ua Ua Ua Ub (ccsdtq_t4_aaabaaab D A) a b c d i j k l) ∧
    (∀ a ∈ D 1, ∀ b ∈ D 1, ∀ c ∈ D 1, ∀ d ∈ D 1, ∀ i ∈ D 0, ∀ j ∈ D 0, ∀ k ∈ D 0, ∀ l ∈ D 0,
      ccsdtq_t4_aabbaabb D (A.rotate (D 0 ∪ D 1) Ua Ub) a b c d i j k l = rot8 (D 0 ∪ D 1) Ua Ua Ub Ub Ua Ua Ub Ub (ccsdtq_t4_aabbaabb D A) a b c d i j k l) ∧
    (∀ a ∈ D 1, ∀ b ∈ D 1, ∀ c ∈ D 1, ∀ d ∈ D 1, ∀ i ∈ D 0, ∀ j ∈ D 0, ∀ k ∈ D 0, ∀ l ∈ D 0,
      ccsdtq_t4_abbbabbb D (A.rotate (D 0 ∪ D 1) Ua Ub) a b c d i j k l = rot8 (D 0 ∪ D 1) Ua Ub Ub Ub Ua Ub Ub Ub (ccsdtq_t4_abbbabbb D A) a b c d i j k l) ∧
    (∀ a ∈ D 1, ∀ b ∈ D 1, ∀ c ∈ D 1, ∀ d ∈ D 1, ∀ i ∈ D 0, ∀ j ∈ D 0, ∀ k ∈ D 0, ∀ l ∈ D 0,
      ccsdtq_t4_bbbbbbbb D (A.rotate (D 0 ∪ D 1) Ua Ub) a b c d i j k l = rot8 (D 0 ∪ D 1) Ub Ub Ub Ub Ub Ub Ub Ub (ccsdtq_t4_bbbbbbbb D A) a b c d i j k l) ∧
    (∀ a ∈ D 1, ∀ b ∈ D 1, ∀ c ∈ D 1, ∀ d ∈ D 1, ∀ i ∈ D 0, ∀ j ∈ D 0, ∀ k ∈ D 0, ∀ l ∈ D 0,
      ccsdtqT2cubed_t4_aaaaaaaa D (A.rotate (D 0 ∪ D 1) Ua Ub) a b c d i j k l = rot8 (D 0 ∪ D 1) Ua Ua Ua Ua Ua Ua Ua Ua (ccsdtqT2cubed_t4_aaaaaaaa D A) a b c d i j k l) ∧
    (∀ a ∈ D 1, ∀ b ∈ D 1, ∀ c ∈ D 1, ∀ d ∈ D 1, ∀ i ∈ D 0, ∀ j ∈ D 0, ∀ k ∈ D 0, ∀ l ∈ D 0,
      ccsdtqT2cubed_t4_aaabaaab D (A.rotate (D 0 ∪ D 1) Ua Ub) a b c d i j k l = rot8 (D 0 ∪ D 1) Ua Ua Ua Ub Ua Ua Ua Ub (ccsdtqT2cubed_t4_aaabaaab D A) a b c d i j k l) ∧
    (∀ a ∈ D 1, ∀ b ∈ D 1, ∀ c ∈ D 1, ∀ d ∈ D 1, ∀ i ∈ D 0, ∀ j ∈ D 0, ∀ k ∈ D 0, ∀ l ∈ D 0,
      ccsdtqT2cubed_t4_aabbaabb D (A.rotate (D 0 ∪ D 1) Ua Ub) a b c d i j k l = rot8 (D 0 ∪ D 1) Ua Ua Ub Ub Ua Ua Ub Ub (ccsdtqT2cubed_t4_aabbaabb D A) a b c d i j k l) ∧
    (∀ a ∈ D 1, ∀ b ∈ D 1, ∀ c ∈ D 1, ∀ d ∈ D 1, ∀ i ∈ D 0, ∀ j ∈ D 0, ∀ k ∈ D 0, ∀ l ∈ D 0,
      ccsdtqT2cubed_t4_abbbabbb D (A.rotate (D 0 ∪ D 1) Ua Ub) a b c d i j k l = rot8 (D 0 ∪ D 1) Ua Ub Ub Ub Ua Ub Ub Ub (ccsdtqT2cubed_t4_abbbabbb D A) a b c d i j k l) ∧
    (∀ a ∈ D 1, ∀ b ∈ D 1, ∀ c ∈ D 1, ∀ d ∈ D 1, ∀ i ∈ D 0, ∀ j ∈ D 0, ∀ k ∈ D 0, ∀ l ∈ D 0,
      ccsdtqT2cubed_t4_bbbbbbbb D (A.rotate (D 0 ∪ D 1) Ua Ub) a b c d i j k l = rot8 (D 0 ∪ D 1) Ub Ub Ub Ub Ub Ub Ub Ub (ccsdtqT2cubed_t4_bbbbbbbb D A) a b c d i j k l) :=
  ⟨fun a ma b mb c mc d md i mi j mj k mk l ml => covariant8_si hD ha hb A Gen.ccsdtq_t4_aaaaaaaa 1 1 1 1 0 0 0 0 0 0 0 0 0 0 0 0 (Prog.rotOk_of_fast (by decide +kernel)) a b c d i j k l ma mb mc md mi mj mk ml,
   fun a ma b mb c mc d md i mi j mj k mk l ml => covariant8_si hD ha hb A Gen.ccsdtq_t4_aaabaaab 1 1 1 1 0 0 0 0 0 0 0 1 0 0 0 1 (Prog.rotOk_of_fast (by decide +kernel)) a b c d i j k l ma mb mc md mi mj mk ml,
   fun a ma b mb c mc d md i mi j mj k mk l ml => covariant8_si hD ha hb A Gen.ccsdtq_t4_aabbaabb 1 1 1 1 0 0 0 0 0 0 1 1 0 0 1 1 (Prog.rotOk_of_fast (by decide +kernel)) a b c d i j k l ma mb mc md mi mj mk ml,
   fun a ma b mb c mc d md i mi j mj k mk l ml => covariant8_si hD ha hb A Gen.ccsdtq_t4_abbbabbb 1 1 1 1 0 0 0 0 0 1 1 1 0 1 1 1 (Prog.rotOk_of_fast (by decide +kernel)) a b c d i j k l ma mb mc md mi mj mk ml,
   fun a ma b mb c mc d md i mi j mj k mk l ml => covariant8_si hD ha hb A Gen.ccsdtq_t4_bbbbbbbb 1 1 1 1 0 0 0 0 1 1 1 1 1 1 1 1 (Prog.rotOk_of_fast (by decide +kernel)) a b c d i j k l ma mb mc md mi mj mk ml,
   fun a ma b mb c mc d md i mi j mj k mk l ml => covariant8_si hD ha hb A Gen.ccsdtqT2cubed_t4_aaaaaaaa 1 1 1 1 0 0 0 0 0 0 0 0 0 0 0 0 (Prog.rotOk_of_fast (by decide +kernel)) a b c d i j k l ma mb mc md mi mj mk ml,
   fun a ma b mb c mc d md i mi j mj k mk l ml => covariant8_si hD ha hb A Gen.ccsdtqT2cubed_t4_aaabaaab 1 1 1 1 0 0 0 0 0 0 0 1 0 0 0 1 (Prog.rotOk_of_fast (by decide +kernel)) a b c d i j k l ma mb mc md mi mj mk ml,
   fun a ma b mb c mc d md i mi j mj k mk l ml => covariant8_si hD ha hb A Gen.ccsdtqT2cubed_t4_aabbaabb 1 1 1 1 0 0 0 0 0 0 1 1 0 0 1 1 (Prog.rotOk_of_fast (by decide +kernel)) a b c d i j k l ma mb mc md mi mj mk ml,
   fun a ma b mb c mc d md i mi j mj k mk l ml => covariant8_si hD ha hb A Gen.ccsdtqT2cubed_t4_abbbabbb 1 1 1 1 0 0 0 0 0 1 1 1 0 1 1 1 (Prog.rotOk_of_fast (by decide +kernel)) a b c d i j k l ma mb mc md mi mj mk ml,
   fun a ma b mb c mc d md i mi j mj k mk l ml => covariant8_si hD ha hb A Gen.ccsdtqT2cubed_t4_bbbbbbbb 1 1 1 1 0 0 0 0 1 1 1 1 1 1 1 1 (Prog.rotOk_of_fast (by decide +kernel)) a b c d i j k l ma mb mc md mi mj mk ml⟩

end Verif.Props
