import Verif.Model.WholeSlow
import Verif.Model.Resid
import Mathlib.Data.Fintype.Sum

/-!
# A UCC(4) calculation from start to end

`UltT2CC.kernel` (`/repo/UT2/kernel.py` 282-475) with its parts filled in for `cc_label == "ccdTypeSlow"` and a name with
`"UCC(4)"` in it: the residual code `drive_ucc4.resid_main`, DIIS on singles, doubles and triples, and the energy
`drive_ucc4.ucc4_energy_simplified`. Numbers are real, not floating point. `D 0` are the occupied, `D 1` the virtual spin orbitals.
-/

namespace Verif.WholeUcc4

open Verif.Ein Verif.UT2 Verif.Kernel Verif.Py

variable {I : Type} [DecidableEq I] [Inhabited I] (D : Nat → Finset I)

/-- `D1aa`, `1.0/(-eps[a]+eps[i])`, `run_ccd.py` 986-1005. -/
noncomputable def den1 (ε : I → ℝ) (a i : I) : ℝ := 1 / (ε i - ε a)

/-- `D2aa`, `run_ccd.py` 986-1005. -/
noncomputable def den2 (ε : I → ℝ) (a b i j : I) : ℝ := 1 / (ε i + ε j - ε a - ε b)

/-- `D3aa`, `run_ccd.py` 986-1005. -/
noncomputable def den3 (ε : I → ℝ) (a b c i j k : I) : ℝ := 1 / (ε i + ε j + ε k - ε a - ε b - ε c)

/-- The arrays with `t2_dag = t2.transpose(2,3,0,1)` (`drive_ucc4.py` 12, 48). -/
def withDag (S : SO I ℝ) : SO I ℝ := { S with l2 := fun i j a b => S.t2 a b i j }

/-- `np.einsum('jiab,abji',t2_dag,t2_resid)` of `drive_ucc4.py` 17-21, with `t2_resid=2.0*offset*D2aa`. -/
noncomputable def uccPart (d2 : I → I → I → I → ℝ) (S : SO I ℝ) : ℝ :=
  ∑ a ∈ D 1, ∑ b ∈ D 1, ∑ j ∈ D 0, ∑ i ∈ D 0, S.t2 a b j i * (2 * offset_t2resid_t2dag_w_t2 D (withDag S) a b j i * d2 a b j i)

/-- `ucc4_energy_simplified` (`drive_ucc4.py` 8-24); `t2energySlow.ccd_energyMain` is the part of `WholeSlow.energy`. -/
noncomputable def energy (cc_type : String) (ε : I → ℝ) (S : SO I ℝ) : Except Err ℝ :=
  (WholeSlow.energy D cc_type (den2 ε) S).map (· + uccPart D (den2 ε) S)

/-- Positions in the DIIS vector (`kernel.py` 339-346): singles, doubles, triples. That `hstack`, slices and `reshape` are
inverse to each other is C16. -/
abbrev Slot : Type :=
  ({a // a ∈ D 1} × {i // i ∈ D 0}) ⊕
  (({a // a ∈ D 1} × {a // a ∈ D 1}) × {i // i ∈ D 0} × {i // i ∈ D 0}) ⊕
  (({a // a ∈ D 1} × {a // a ∈ D 1} × {a // a ∈ D 1}) × {i // i ∈ D 0} × {i // i ∈ D 0} × {i // i ∈ D 0})

/-- `np.hstack((t1aa.flatten(), t2aa.flatten(), t3aa.flatten()))` (`kernel.py` 340-346). -/
def pack (S : SO I ℝ) : Slot D → ℝ
  | .inl (a, i) => S.t1 a i
  | .inr (.inl ((a, b), i, j)) => S.t2 a b i j
  | .inr (.inr ((a, b, c), i, j, k)) => S.t3 a b c i j k

/-- The slices and `reshape`s of `kernel.py` 373-387; entries that the Python arrays do not have are left alone. -/
def unpack (v : Slot D → ℝ) (S : SO I ℝ) : SO I ℝ :=
  { S with
    t1 := fun a i => if h : a ∈ D 1 ∧ i ∈ D 0 then v (.inl (⟨a, h.1⟩, ⟨i, h.2⟩)) else S.t1 a i
    t2 := fun a b i j =>
      if h : a ∈ D 1 ∧ b ∈ D 1 ∧ i ∈ D 0 ∧ j ∈ D 0 then
        v (.inr (.inl ((⟨a, h.1⟩, ⟨b, h.2.1⟩), ⟨i, h.2.2.1⟩, ⟨j, h.2.2.2⟩))) else S.t2 a b i j
    t3 := fun a b c i j k =>
      if h : a ∈ D 1 ∧ b ∈ D 1 ∧ c ∈ D 1 ∧ i ∈ D 0 ∧ j ∈ D 0 ∧ k ∈ D 0 then
        v (.inr (.inr ((⟨a, h.1⟩, ⟨b, h.2.1⟩, ⟨c, h.2.2.1⟩), ⟨i, h.2.2.2.1⟩, ⟨j, h.2.2.2.2.1⟩, ⟨k, h.2.2.2.2.2⟩)))
      else S.t3 a b c i j k }

/-- `self.diis_update` and `self.old_vec`. -/
abbrev Acc : Type := Diis.State (Slot D) × (Slot D → ℝ)

/-- The DIIS section (`kernel.py` 338-387) for names with `"UCC(4)"`; `on` is `diis_size is not None`. A singular matrix is the
error 0. -/
noncomputable def accel (on : Bool) (d : Acc D) (S : SO I ℝ) : Except Err (Acc D × SO I ℝ) :=
  if on then
    match d.1.newVec (pack D S) (d.2 - pack D S) with
    | none => .error (.other 0)
    | some v => .ok ((d.1.push (pack D S) (d.2 - pack D S), v), unpack D v S)
  else .ok (d, S)

/-- Options of the calculation: `cc_type`, orbital energies, `max_iter`, `stopping_eps`, `diis_size`, `diis_start_cycle`. -/
structure Opts (I : Type) where
  cc_type : String
  ε : I → ℝ
  maxIter : ℕ
  eps : ℝ
  diis : Option ℕ
  start : ℕ

/-- The arrays after one pass (`drive_ucc4.py` 27-93). -/
noncomputable def pass (ε : I → ℝ) (S : SO I ℝ) : SO I ℝ := residUcc4 D (den1 ε) (den2 ε) (den3 ε) S

/-- The parts of `UltT2CC.kernel`. Names without `"UCC(4)"` in them use other code (`kernel.py` 302, 326, 443): the error 8 stands
for them. -/
noncomputable def cfg (o : Opts I) : Cfg (SO I ℝ) (Acc D) ℝ where
  maxIter := o.maxIter
  eps := o.eps
  resid S _ := if hasSub "UCC(4)" o.cc_type then .ok (pass D o.ε S) else .error (.other 8)
  accel := accel D o.diis.isSome
  energy := energy D o.cc_type o.ε
  dag := id

/-- The amplitudes before the first pass: no singles and triples (`kernel.py` 135-139, `drive_ucc4.py` 38-41), and
`g[va,va,oa,oa]*D2aa` (`kernel.py` 301). -/
noncomputable def start (ε : I → ℝ) (S : SO I ℝ) : SO I ℝ :=
  { S with t1 := fun _ _ => 0, t2 := fun a b i j => S.g a b i j * den2 ε a b i j, t3 := fun _ _ _ _ _ _ => 0 }

/-- The object before the first pass. `old_vec` is made by `__init__` (`kernel.py` 139) when the amplitudes are zero. -/
noncomputable def initial (o : Opts I) (S : SO I ℝ) : St (SO I ℝ) (Acc D) := ⟨start o.ε S, S, (Diis.init (o.diis.getD 0) o.start, 0)⟩

/-- The calculation with the integrals in `S`. -/
noncomputable def calculate (o : Opts I) (S : SO I ℝ) : Except Err (Res (SO I ℝ) (Acc D) ℝ) := (cfg D o).run (initial D o S)

/-- `finalize` (`kernel.py` 226-280) for the name `UCC(4)`, which has no perturbative correction: total energy and `corrE`. -/
noncomputable def finish (o : Opts I) (nucE hf : ℝ) (r : Res (SO I ℝ) (Acc D) ℝ) : Option (ℝ × ℝ) :=
  Finalize.finalize o.cc_type nucE r.energy hf 0 0

end Verif.WholeUcc4
