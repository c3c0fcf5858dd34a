import Verif.Model.Kernel
import Verif.Model.Finalize
import Verif.Model.Diis
import Verif.Fn.All
import Verif.Model.Resid
import Mathlib.Data.Fintype.Prod
import Mathlib.Data.Fintype.Sum
import Mathlib.Data.Finset.Attach

/-!
# A calculation with doubles and quadruples from start to end

`UltT2CC.kernel` (`/repo/UT2/kernel.py` 282-475) with its parts filled in for `cc_label == "fullCCType"`: the residual code of
`fullCCresidEqns.residMain` (`/repo/UT2/fullCCresidEqns.py` 10-188), DIIS on the doubles and quadruples, and the energy of
`fullCCenergy.fullCC_energyMain`. The only name that gets through the residual code is `CCDQ` (C18). Numbers are real, not
floating point. `D 0` are the occupied, `D 1` the virtual orbitals.
-/

namespace Verif.WholeFull

open Verif.Ein Verif.UT2 Verif.Kernel

variable {I : Type} [DecidableEq I] [Inhabited I] (D : Nat → Finset I)

/-- `1.0/(-eps[a]-eps[b]+eps[i]+eps[j])`, `run_ccd.py` 980-999. -/
noncomputable def den2 (e f : I → ℝ) (a b i j : I) : ℝ := 1 / (e i + f j - e a - f b)

/-- The denominators of the quadruples, `run_ccd.py` 1085-1136, for equally many alpha and beta electrons (C24). -/
noncomputable def den4 (e f g h : I → ℝ) (a b c d i j k l : I) : ℝ := 1 / (e i + f j + g k + h l - e a - f b - g c - h d)

/-- `resid+np.reciprocal(D)*t`, times `D` (`fullCCresidEqns.py` 133-147 and 176-183) for doubles. -/
noncomputable def next2 (r t d : I → I → I → I → ℝ) (a b i j : I) : ℝ := (r a b i j + (d a b i j)⁻¹ * t a b i j) * d a b i j

/-- The same for quadruples. -/
noncomputable def next4 (r t dn : I → I → I → I → I → I → I → I → ℝ) (a b c d i j k l : I) : ℝ :=
  (r a b c d i j k l + (dn a b c d i j k l)⁻¹ * t a b c d i j k l) * dn a b c d i j k l

/-- Arrays after one pass for `CCDQ` (`fullCCresidEqns.py` 84-108 and 117-185). The residuals of singles and triples are
multiplied by zero (150-152), so these amplitudes are zero; `εa`, `εb` are the orbital energies. -/
noncomputable def iterCcdq (εa εb : I → ℝ) (A : SI I ℝ) : SI I ℝ :=
  { A with
    t1_aa := fun _ _ => 0
    t1_bb := fun _ _ => 0
    t2_aaaa := next2 (ccdq_t2_aaaa D A) A.t2_aaaa (den2 εa εa)
    t2_bbbb := next2 (ccdq_t2_bbbb D A) A.t2_bbbb (den2 εb εb)
    t2_abab := next2 (ccdq_t2_abab D A) A.t2_abab (den2 εa εb)
    t3_aaaaaa := fun _ _ _ _ _ _ => 0
    t3_bbbbbb := fun _ _ _ _ _ _ => 0
    t3_aabaab := fun _ _ _ _ _ _ => 0
    t3_abbabb := fun _ _ _ _ _ _ => 0
    t4_aaaaaaaa := next4 (ccdq_t4_aaaaaaaa D A) A.t4_aaaaaaaa (den4 εa εa εa εa)
    t4_aaabaaab := next4 (ccdq_t4_aaabaaab D A) A.t4_aaabaaab (den4 εa εa εa εb)
    t4_aabbaabb := next4 (ccdq_t4_aabbaabb D A) A.t4_aabbaabb (den4 εa εa εb εb)
    t4_abbbabbb := next4 (ccdq_t4_abbbabbb D A) A.t4_abbbabbb (den4 εa εb εb εb)
    t4_bbbbbbbb := next4 (ccdq_t4_bbbbbbbb D A) A.t4_bbbbbbbb (den4 εb εb εb εb) }

/-- `fullCCresidEqns.residMain`. Names other than `CCDQ` reach line 143 without `resid_t4aaaa`: an `UnboundLocalError`. -/
noncomputable def resid (cc_type : String) (εa εb : I → ℝ) (A : SI I ℝ) : Except Err (SI I ℝ) :=
  if cc_type = "CCDQ" then .ok (iterCcdq D εa εb A) else .error .unboundLocal

/-- Positions in the DIIS vector (`kernel.py` 348-359): block (0 `t2aa`, 1 `t2bb`, 2 `t2ab`) and orbitals of the doubles, or
block (0 `t4aaaa`, 1 `t4aaab`, 2 `t4aabb`, 3 `t4abbb`, 4 `t4bbbb`) and orbitals of the quadruples. That `hstack`, slices and
`reshape` are inverse to each other is C16. -/
abbrev Slot : Type :=
  (Fin 3 × ({a // a ∈ D 1} × {a // a ∈ D 1}) × {i // i ∈ D 0} × {i // i ∈ D 0}) ⊕
  (Fin 5 × ({a // a ∈ D 1} × {a // a ∈ D 1} × {a // a ∈ D 1} × {a // a ∈ D 1}) ×
    {i // i ∈ D 0} × {i // i ∈ D 0} × {i // i ∈ D 0} × {i // i ∈ D 0})

/-- The doubles block with this number. -/
def block2 (A : SI I ℝ) : Fin 3 → I → I → I → I → ℝ := ![A.t2_aaaa, A.t2_bbbb, A.t2_abab]

/-- The quadruples block with this number. -/
def block4 (A : SI I ℝ) : Fin 5 → I → I → I → I → I → I → I → I → ℝ :=
  ![A.t4_aaaaaaaa, A.t4_aaabaaab, A.t4_aabbaabb, A.t4_abbbabbb, A.t4_bbbbbbbb]

/-- `np.hstack` of the eight flattened blocks (`kernel.py` 348-359). -/
def pack (A : SI I ℝ) : Slot D → ℝ
  | .inl (m, (a, b), i, j) => block2 A m a b i j
  | .inr (m, (a, b, c, d), i, j, k, l) => block4 A m a b c d i j k l

/-- A doubles block read from the vector; entries that the Python array does not have are left alone. -/
def fill2 (v : Slot D → ℝ) (m : Fin 3) (x : I → I → I → I → ℝ) (a b i j : I) : ℝ :=
  if h : a ∈ D 1 ∧ b ∈ D 1 ∧ i ∈ D 0 ∧ j ∈ D 0 then v (.inl (m, (⟨a, h.1⟩, ⟨b, h.2.1⟩), ⟨i, h.2.2.1⟩, ⟨j, h.2.2.2⟩)) else x a b i j

/-- A quadruples block read from the vector. -/
def fill4 (v : Slot D → ℝ) (m : Fin 5) (x : I → I → I → I → I → I → I → I → ℝ) (a b c d i j k l : I) : ℝ :=
  if h : a ∈ D 1 ∧ b ∈ D 1 ∧ c ∈ D 1 ∧ d ∈ D 1 ∧ i ∈ D 0 ∧ j ∈ D 0 ∧ k ∈ D 0 ∧ l ∈ D 0 then
    v (.inr (m, (⟨a, h.1⟩, ⟨b, h.2.1⟩, ⟨c, h.2.2.1⟩, ⟨d, h.2.2.2.1⟩), ⟨i, h.2.2.2.2.1⟩, ⟨j, h.2.2.2.2.2.1⟩, ⟨k, h.2.2.2.2.2.2.1⟩,
      ⟨l, h.2.2.2.2.2.2.2⟩)) else x a b c d i j k l

/-- The slices and `reshape`s of `kernel.py` 391-421. -/
def unpack (v : Slot D → ℝ) (A : SI I ℝ) : SI I ℝ :=
  { A with
    t2_aaaa := fill2 D v 0 A.t2_aaaa
    t2_bbbb := fill2 D v 1 A.t2_bbbb
    t2_abab := fill2 D v 2 A.t2_abab
    t4_aaaaaaaa := fill4 D v 0 A.t4_aaaaaaaa
    t4_aaabaaab := fill4 D v 1 A.t4_aaabaaab
    t4_aabbaabb := fill4 D v 2 A.t4_aabbaabb
    t4_abbbabbb := fill4 D v 3 A.t4_abbbabbb
    t4_bbbbbbbb := fill4 D v 4 A.t4_bbbbbbbb }

/-- `self.diis_update` and `self.old_vec`. -/
abbrev Acc : Type := Diis.State (Slot D) × (Slot D → ℝ)

/-- The DIIS section (`kernel.py` 338-436) for `CCDQ`; `on` is `diis_size is not None`. A singular matrix is the error 0. Other
names do not come this far. -/
noncomputable def accel (on : Bool) (d : Acc D) (A : SI I ℝ) : Except Err (Acc D × SI I ℝ) :=
  if on then
    match d.1.newVec (pack D A) (d.2 - pack D A) with
    | none => .error (.other 0)
    | some v => .ok ((d.1.push (pack D A) (d.2 - pack D A), v), unpack D v A)
  else .ok (d, A)

/-- Options of the calculation: `cc_type`, orbital energies, `max_iter`, `stopping_eps`, and `diis_size`, `diis_start_cycle`. -/
structure Opts (I : Type) where
  cc_type : String
  εa : I → ℝ
  εb : I → ℝ
  maxIter : ℕ
  eps : ℝ
  diis : Option ℕ
  start : ℕ

/-- The calculation as a configuration of the kernel loop. The residual code does not read the de-excitation amplitudes. -/
noncomputable def cfg (o : Opts I) : Cfg (SI I ℝ) (Acc D) ℝ where
  maxIter := o.maxIter
  eps := o.eps
  resid A _ := resid D o.cc_type o.εa o.εb A
  accel := accel D o.diis.isSome
  energy A := .ok (ccsd_energy_with_spin D A)
  dag := set_l2amps

/-- The object made by `__init__` (`kernel.py` 143-168): `old_vec` is the vector of the starting amplitudes. -/
def initial (o : Opts I) (A : SI I ℝ) : St (SI I ℝ) (Acc D) := ⟨A, A, (Diis.init (o.diis.getD 0) o.start, pack D A)⟩

/-- The calculation with integrals and starting amplitudes `A`. -/
noncomputable def calculate (o : Opts I) (A : SI I ℝ) : Except Err (Res (SI I ℝ) (Acc D) ℝ) := (cfg D o).run (initial D o A)

/-- `finalize` (`kernel.py` 226-280) after a `CCDQ` calculation: neither a factorised nor a `UT2` correction. -/
noncomputable def finish (o : Opts I) (nucE hf : ℝ) (r : Res (SI I ℝ) (Acc D) ℝ) : Option (ℝ × ℝ) :=
  Finalize.finalize o.cc_type nucE r.energy hf 0 0

end Verif.WholeFull
