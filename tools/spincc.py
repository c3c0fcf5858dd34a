def ent(sp, letters):
    return " ".join("(%s, %s)" % (l, {"a":"false","b":"true"}[s]) for l,s in zip(letters,sp))
out=['''import Verif.Fn.All
import Verif.Cert.SpinCc
import Verif.Cert.SpinT3
import Verif.Ein.Anti
import Verif.Ein.SpinSym
import Verif.Ein.SpinArrays
import Verif.Lemmas.Witness

/-!
# Spin-integrated higher methods (C64)

`fullCCresidEqns.py`, `fullCCenergy.py`, `ccdq_resids.py`, `build_approxT3full.py` and `square_brakT_corr.py` compute the
spin blocks of what `ccsdt_eqns.py`, `cc_eqns.py`, `ccdq_eqns.py` and `pdagq_T3corr.py` compute for spin orbitals. `A.so`
is the spin-orbital form of the spin-integrated arrays `A`: a spin orbital is a pair of a spatial orbital and a spin
(`false` alpha, `true` beta). Written by `/verif/tools/spincc.py`.
-/

namespace Verif.Props

open Verif.Ein Verif.UT2

variable {I K : Type} [Field K] [CharZero K] [Inhabited I] (D : Nat → Finset I)

/-- CCSD energy. -/
theorem C64_ccsd_energy (A : SI I K) (hA : A.Sym) : ccsd_energy_with_spin D A = spinorbitalCCSDE (spinD D) A.so :=
  (so_eval_of_isZero D A hA _ _ [] _ _ _ Cert.ccsd_energy (by decide +kernel) (by decide +kernel) rfl [] rfl).symm

/-- The `[T]` energy. -/
theorem C64_squareT (A : SI I K) (hA : A.Sym) : square_brakT D A = pdagq_T3energy (spinD D) A.so :=
  (so_eval_of_isZero D A hA _ _ [] _ _ _ Cert.squareT_spin (by decide +kernel) (by decide +kernel) rfl [] rfl).symm
''']
def thm(name, fn, sofn, up, lo, perm, doc):
    n=len(up)
    letters=list("abcd"[:n])+list("ijkl"[:n])
    args=" ".join(letters)
    sp=fn.split("_")[-1]
    ss="[%s]"%", ".join({"a":"false","b":"true"}[s] for s in sp)
    # so function args
    so=ent(sp, letters) if not perm else ent(sp[n:]+sp[:n], letters[n:]+letters[:n])
    out.append("/-- %s -/"%doc)
    out.append("theorem C64_%s (A : SI I K) (hA : A.Sym) (%s : I) :\n    %s D A %s = %s (spinD D) A.so %s := by" % (fn,args,fn,args,sofn,so))
    out.append("  have h := so_eval_of_isZero D A hA _ _ %s _ _ _ Cert.%s (by decide +kernel) (by decide +kernel) rfl\n    [%s] rfl" % (ss,fn,", ".join(letters)))
    if perm:
        out.append("  rw [Prog.eval_outs' (spinD D) A.so.T %d _ (by decide) _ (by decide +kernel) _ rfl] at h" % (2*n))
    out.append("  exact h.symm\n")
for s in ("aa","bb"):
    thm("",'ccsdt_t1_'+s,'ccsdt_t1eqns',"a","i",True,"CCSDT singles residual, block `%s`."%s)
for s in ("aaaa","abab","bbbb"):
    thm("",'ccsdt_t2_'+s,'ccsdt_t2eqns',"ab","ij",True,"CCSDT doubles residual, block `%s`."%s)
for s in ("aaaa","abab","bbbb"):
    thm("",'ccdq_t2_'+s,'ccdq_t2eqns',"ab","ij",True,"CCDQ doubles residual, block `%s`."%s)
for s in ("aaaaaa","aabaab","abbabb","bbbbbb"):
    thm("",'approxT3_'+s,'build_T3',"abc","ijk",False,"Approximate triples residual, block `%s`."%s)
out.append('''/-- The hypotheses can be met with arrays for which the blocks do not vanish. -/
example : Witness.si.Sym ∧ ccsdt_t1_aa Witness.D Witness.si 2 0 ≠ 0 ∧ approxT3_aabaab Witness.D Witness.si 2 3 2 0 1 0 ≠ 0 :=
  ⟨Witness.si_sym, by decide +kernel, by decide +kernel⟩

end Verif.Props''')
open('/verif/lean/Verif/Props/SpinCc.lean','w').write("\n".join(out)+"\n")
