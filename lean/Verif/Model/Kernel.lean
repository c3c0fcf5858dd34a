import Mathlib.Algebra.Order.Group.Abs
import Mathlib.Algebra.Order.Field.Basic
import Mathlib.Tactic.Ring
import Mathlib.Tactic.Linarith

/-!
# The iteration loop

Model of `UltT2CC.kernel` (`/repo/UT2/kernel.py:282-475`), of the legacy loops
(`/repo/UT2/run_ccd.py:316-575`, `/repo/UT2/run_ccd_SOslow.py:140-348`) and of
`DriveCC.kernel` (`/repo/UT2/test.py:178-215`).

Simplifications: the residual/update, the DIIS step and the energy are arbitrary (possibly failing)
functions; printing is dropped; numbers live in an ordered field.
-/

namespace Verif.Kernel

/-- The exceptions that matter here. -/
inductive Err
  | systemExit      -- `sys.exit()`
  | valueError      -- `raise ValueError(...)`
  | unboundLocal    -- use of a local variable before assignment
  | nameError       -- use of a module that was never imported
  | other (n : ℕ)   -- anything raised by the residual, DIIS or energy code
  deriving DecidableEq, Repr

/-- What `self` carries through the loop: the amplitudes (`self.tamps`), the de-excitation amplitudes
(`self.l2`) and the DIIS object (`self.diis_update` with `self.old_vec`). -/
structure St (A D : Type) where
  amps : A
  l2 : A
  diis : D

/-- The method-dependent parts of a run. `resid` is `residMain` (which reads amplitudes and `l2` and
replaces the amplitudes, `kernel.py:323-334`); `accel` is the DIIS section (`kernel.py:338-436`,
the identity when `diis_size is None`); `energy` is the energy call (`kernel.py:439-449`); `dag` is
the transposition used by `set_l2amps` (`kernel.py:204-206`). -/
structure Cfg (A D K : Type) where
  maxIter : ℕ
  eps : K
  resid : A → A → Except Err A
  accel : D → A → Except Err (D × A)
  energy : A → Except Err K
  dag : A → A

variable {A D K : Type}

/-- The body of one pass up to the DIIS update (`kernel.py:320-436`). -/
def Cfg.step (c : Cfg A D K) (s : St A D) : Except Err (St A D) := do
  let l2 := c.dag s.amps
  let a ← c.resid s.amps l2
  let (d, a') ← c.accel s.diis a
  return ⟨a', l2, d⟩

variable [Field K] [LinearOrder K]

/-- `for idx in range(self.max_iter)` (`kernel.py:316-464`): `n` passes are left, the next one has
number `idx`; `cur` is `current_energy` (unassigned before the first pass). The second component of a
result lists the energies computed, newest last, for use as an observable. -/
def Cfg.loop (c : Cfg A D K) : ℕ → ℕ → K → Option K → St A D → List K →
    Except Err (St A D × Option K × List K)
  | 0, _, _, cur, s, log => .ok (s, cur, log)
  | n + 1, idx, old, _, s, log =>
    if idx > 75 then .error .systemExit               -- kernel.py:317-318
    else do
      let s' ← c.step s
      let e ← c.energy s'.amps
      let delta := |old - e|                          -- kernel.py:451
      if delta < c.eps then .ok (s', some e, log ++ [e])  -- kernel.py:459-460
      else if idx > c.maxIter then .error .valueError -- kernel.py:463-464
      else c.loop n (idx + 1) e (some e) s' (log ++ [e])

/-- What `kernel` hands to `finalize`, and the amplitudes it returns. -/
structure Res (A D K : Type) where
  st : St A D
  energy : K
  log : List K

/-- `UltT2CC.kernel` up to the call of `finalize` (`kernel.py:295-473`). The first energy is that of
the initial amplitudes; `current_energy` is read at line 473, an `UnboundLocalError` if no pass was
made. -/
def Cfg.run (c : Cfg A D K) (s : St A D) : Except Err (Res A D K) := do
  let e0 ← c.energy s.amps
  let (s', cur, log) ← c.loop c.maxIter 0 e0 none s []
  match cur with
  | none => .error .unboundLocal
  | some e => return ⟨s', e, log⟩

/-- The legacy loops end with `for ... else: raise ValueError`
(`/repo/UT2/run_ccd.py:574-575`, `/repo/UT2/run_ccd_SOslow.py:347-348`); they have no cap. -/
def Cfg.legacyLoop (c : Cfg A D K) : ℕ → K → St A D → List K → Except Err (St A D × K × List K)
  | 0, _, _, _ => .error .valueError
  | n + 1, old, s, log => do
      let s' ← c.step s
      let e ← c.energy s'.amps
      if |old - e| < c.eps then .ok (s', e, log ++ [e])
      else c.legacyLoop n e s' (log ++ [e])

/-- The legacy kernel (`run_ccd.py:297-575`). -/
def Cfg.legacyRun (c : Cfg A D K) (s : St A D) : Except Err (Res A D K) := do
  let e0 ← c.energy s.amps
  let (s', e, log) ← c.legacyLoop c.maxIter e0 s []
  return ⟨s', e, log⟩

/-- `DriveCC.kernel` (`/repo/UT2/test.py:186-215`): `convergedCC` is set only by the `break`; after a
loop without it `sys.exit()` is called although `sys` is not imported, a `NameError`. The check at
208-209 compares `idx` with `max_iter` as in `kernel.py`. -/
def Cfg.driveLoop (c : Cfg A D K) : ℕ → ℕ → K → St A D → List K →
    Except Err (St A D × K × List K)
  | 0, _, _, _, _ => .error .nameError
  | n + 1, idx, old, s, log => do
      let s' ← c.step s
      let e ← c.energy s'.amps
      if |old - e| < c.eps then .ok (s', e, log ++ [e])
      else if idx > c.maxIter then .error .valueError
      else c.driveLoop n (idx + 1) e s' (log ++ [e])

/-- `DriveCC.kernel` up to `finalizeCC`. -/
def Cfg.driveRun (c : Cfg A D K) (s : St A D) : Except Err (Res A D K) := do
  let e0 ← c.energy s.amps
  let (s', e, log) ← c.driveLoop c.maxIter 0 e0 s []
  return ⟨s', e, log⟩

end Verif.Kernel
