import Verif.Ein.Names
import Verif.Gen.Antisym

/-! Written by `/verif/tools/gen.py`. Programs read from `/repo/UT2`. -/

set_option maxRecDepth 100000

namespace Verif.Gen

open Verif.Ein Verif.Ein.N


/-- `UT2/cc_energy.py` 28-40, `spinorbitalCCSDE`. -/
def spinorbitalCCSDE : Prog := [
  -- line 30: ii
  ⟨1, [f [iₒ, iₒ]], [(1, [])]⟩,
  -- line 32: jiji
  ⟨-1/2, [g [jₒ, iₒ, jₒ, iₒ]], [(1, [])]⟩,
  -- line 33: ijab,abij->
  ⟨1/4, [t2 [aᵥ, bᵥ, iₒ, jₒ], g [aᵥ, bᵥ, iₒ, jₒ]], [(1, [])]⟩,
  -- line 36: ai,ia->
  ⟨1, [f [aᵥ, iₒ], t1 [aᵥ, iₒ]], [(1, [])]⟩,
  -- line 37: ia,jb,abij->
  ⟨1/2, [t1 [aᵥ, iₒ], t1 [bᵥ, jₒ], g [aᵥ, bᵥ, iₒ, jₒ]], [(1, [])]⟩
  ]

/-- `UT2/cc_energy.py` 28-40, `spinorbitalCCSDE` with `T1=None`. -/
def spinorbitalCCDE : Prog := [
  -- line 30: ii
  ⟨1, [f [iₒ, iₒ]], [(1, [])]⟩,
  -- line 32: jiji
  ⟨-1/2, [g [jₒ, iₒ, jₒ, iₒ]], [(1, [])]⟩,
  -- line 33: ijab,abij->
  ⟨1/4, [t2 [aᵥ, bᵥ, iₒ, jₒ], g [aᵥ, bᵥ, iₒ, jₒ]], [(1, [])]⟩
  ]

/-- `UT2/cc_eqns.py` 67-83, `ccsd_t1resid`. -/
def ccsd_t1resid : Prog := [
  -- line 69: ij,ja->ia
  ⟨-1, [f [iₒ, jₒ], t1 [aᵥ, jₒ]], [(1, [iₒ, aᵥ])]⟩,
  -- line 70: bj,ja,ib->ia
  ⟨-1, [f [bᵥ, jₒ], t1 [aᵥ, jₒ], t1 [bᵥ, iₒ]], [(1, [iₒ, aᵥ])]⟩,
  -- line 71: bj,ijab->ia
  ⟨1, [f [bᵥ, jₒ], t2 [aᵥ, bᵥ, iₒ, jₒ]], [(1, [iₒ, aᵥ])]⟩,
  -- line 72: ia->ia
  ⟨1, [f [iₒ, aᵥ]], [(1, [iₒ, aᵥ])]⟩,
  -- line 73: ba,ib->ia
  ⟨1, [f [bᵥ, aᵥ], t1 [bᵥ, iₒ]], [(1, [iₒ, aᵥ])]⟩,
  -- line 74: ja,ib,kc,bcjk->ia
  ⟨-1, [t1 [aᵥ, jₒ], t1 [bᵥ, iₒ], t1 [cᵥ, kₒ], g [bᵥ, cᵥ, jₒ, kₒ]], [(1, [iₒ, aᵥ])]⟩,
  -- line 75: ja,kb,ibjk->ia
  ⟨-1, [t1 [aᵥ, jₒ], t1 [bᵥ, kₒ], g [iₒ, bᵥ, jₒ, kₒ]], [(1, [iₒ, aᵥ])]⟩,
  -- line 76: ja,ikbc,bcjk->ia
  ⟨-1/2, [t1 [aᵥ, jₒ], t2 [bᵥ, cᵥ, iₒ, kₒ], g [bᵥ, cᵥ, jₒ, kₒ]], [(1, [iₒ, aᵥ])]⟩,
  -- line 77: ib,jc,bcja->ia
  ⟨-1, [t1 [bᵥ, iₒ], t1 [cᵥ, jₒ], g [bᵥ, cᵥ, jₒ, aᵥ]], [(1, [iₒ, aᵥ])]⟩,
  -- line 78: ib,jkac,bcjk->ia
  ⟨-1/2, [t1 [bᵥ, iₒ], t2 [aᵥ, cᵥ, jₒ, kₒ], g [bᵥ, cᵥ, jₒ, kₒ]], [(1, [iₒ, aᵥ])]⟩,
  -- line 79: jb,ikac,bcjk->ia
  ⟨1, [t1 [bᵥ, jₒ], t2 [aᵥ, cᵥ, iₒ, kₒ], g [bᵥ, cᵥ, jₒ, kₒ]], [(1, [iₒ, aᵥ])]⟩,
  -- line 80: jb,ibja->ia
  ⟨-1, [t1 [bᵥ, jₒ], g [iₒ, bᵥ, jₒ, aᵥ]], [(1, [iₒ, aᵥ])]⟩,
  -- line 81: jkab,ibjk->ia
  ⟨-1/2, [t2 [aᵥ, bᵥ, jₒ, kₒ], g [iₒ, bᵥ, jₒ, kₒ]], [(1, [iₒ, aᵥ])]⟩,
  -- line 82: ijbc,bcja->ia
  ⟨-1/2, [t2 [bᵥ, cᵥ, iₒ, jₒ], g [bᵥ, cᵥ, jₒ, aᵥ]], [(1, [iₒ, aᵥ])]⟩
  ]

/-- Part 0 of `ccsd_t2resid`. -/
def ccsd_t2resid_0 : Prog := [
  -- line 88: ik,jkab->ijab
  ⟨1/2, [f [iₒ, kₒ], t2 [aᵥ, bᵥ, jₒ, kₒ]], [(1, [iₒ, jₒ, aᵥ, bᵥ])]⟩,
  -- line 89: ck,ka,ijbc->ijab
  ⟨1/2, [f [cᵥ, kₒ], t1 [aᵥ, kₒ], t2 [bᵥ, cᵥ, iₒ, jₒ]], [(1, [iₒ, jₒ, aᵥ, bᵥ])]⟩,
  -- line 90: ck,ic,jkab->ijab
  ⟨1/2, [f [cᵥ, kₒ], t1 [cᵥ, iₒ], t2 [aᵥ, bᵥ, jₒ, kₒ]], [(1, [iₒ, jₒ, aᵥ, bᵥ])]⟩,
  -- line 91: ca,ijbc->ijab
  ⟨-1/2, [f [cᵥ, aᵥ], t2 [bᵥ, cᵥ, iₒ, jₒ]], [(1, [iₒ, jₒ, aᵥ, bᵥ])]⟩,
  -- line 92: ka,lb,ic,jd,cdkl->ijab
  ⟨1/4, [t1 [aᵥ, kₒ], t1 [bᵥ, lₒ], t1 [cᵥ, iₒ], t1 [dᵥ, jₒ], g [cᵥ, dᵥ, kₒ, lₒ]], [(1, [iₒ, jₒ, aᵥ, bᵥ])]⟩,
  -- line 93: ka,lb,ic,jckl->ijab
  ⟨-1/2, [t1 [aᵥ, kₒ], t1 [bᵥ, lₒ], t1 [cᵥ, iₒ], g [jₒ, cᵥ, kₒ, lₒ]], [(1, [iₒ, jₒ, aᵥ, bᵥ])]⟩,
  -- line 94: ka,lb,ijcd,cdkl->ijab
  ⟨1/8, [t1 [aᵥ, kₒ], t1 [bᵥ, lₒ], t2 [cᵥ, dᵥ, iₒ, jₒ], g [cᵥ, dᵥ, kₒ, lₒ]], [(1, [iₒ, jₒ, aᵥ, bᵥ])]⟩,
  -- line 95: ka,lb,ijkl->ijab
  ⟨1/4, [t1 [aᵥ, kₒ], t1 [bᵥ, lₒ], g [iₒ, jₒ, kₒ, lₒ]], [(1, [iₒ, jₒ, aᵥ, bᵥ])]⟩,
  -- line 96: ka,ic,jd,cdkb->ijab
  ⟨-1/2, [t1 [aᵥ, kₒ], t1 [cᵥ, iₒ], t1 [dᵥ, jₒ], g [cᵥ, dᵥ, kₒ, bᵥ]], [(1, [iₒ, jₒ, aᵥ, bᵥ])]⟩,
  -- line 97: ka,ic,jlbd,cdkl->ijab
  ⟨-1, [t1 [aᵥ, kₒ], t1 [cᵥ, iₒ], t2 [bᵥ, dᵥ, jₒ, lₒ], g [cᵥ, dᵥ, kₒ, lₒ]], [(1, [iₒ, jₒ, aᵥ, bᵥ])]⟩,
  -- line 98: ka,ic,jckb->ijab
  ⟨1, [t1 [aᵥ, kₒ], t1 [cᵥ, iₒ], g [jₒ, cᵥ, kₒ, bᵥ]], [(1, [iₒ, jₒ, aᵥ, bᵥ])]⟩,
  -- line 99: ka,lc,ijbd,cdkl->ijab
  ⟨-1/2, [t1 [aᵥ, kₒ], t1 [cᵥ, lₒ], t2 [bᵥ, dᵥ, iₒ, jₒ], g [cᵥ, dᵥ, kₒ, lₒ]], [(1, [iₒ, jₒ, aᵥ, bᵥ])]⟩,
  -- line 100: ka,ilbc,jckl->ijab
  ⟨1, [t1 [aᵥ, kₒ], t2 [bᵥ, cᵥ, iₒ, lₒ], g [jₒ, cᵥ, kₒ, lₒ]], [(1, [iₒ, jₒ, aᵥ, bᵥ])]⟩,
  -- line 101: ka,ijcd,cdkb->ijab
  ⟨-1/4, [t1 [aᵥ, kₒ], t2 [cᵥ, dᵥ, iₒ, jₒ], g [cᵥ, dᵥ, kₒ, bᵥ]], [(1, [iₒ, jₒ, aᵥ, bᵥ])]⟩,
  -- line 102: ka,ijkb->ijab
  ⟨-1/2, [t1 [aᵥ, kₒ], g [iₒ, jₒ, kₒ, bᵥ]], [(1, [iₒ, jₒ, aᵥ, bᵥ])]⟩,
  -- line 103: ic,jd,klab,cdkl->ijab
  ⟨1/8, [t1 [cᵥ, iₒ], t1 [dᵥ, jₒ], t2 [aᵥ, bᵥ, kₒ, lₒ], g [cᵥ, dᵥ, kₒ, lₒ]], [(1, [iₒ, jₒ, aᵥ, bᵥ])]⟩,
  -- line 104: ic,jd,cdab->ijab
  ⟨1/4, [t1 [cᵥ, iₒ], t1 [dᵥ, jₒ], g [cᵥ, dᵥ, aᵥ, bᵥ]], [(1, [iₒ, jₒ, aᵥ, bᵥ])]⟩,
  -- line 105: ic,kd,jlab,cdkl->ijab
  ⟨-1/2, [t1 [cᵥ, iₒ], t1 [dᵥ, kₒ], t2 [aᵥ, bᵥ, jₒ, lₒ], g [cᵥ, dᵥ, kₒ, lₒ]], [(1, [iₒ, jₒ, aᵥ, bᵥ])]⟩,
  -- line 106: ic,klab,jckl->ijab
  ⟨-1/4, [t1 [cᵥ, iₒ], t2 [aᵥ, bᵥ, kₒ, lₒ], g [jₒ, cᵥ, kₒ, lₒ]], [(1, [iₒ, jₒ, aᵥ, bᵥ])]⟩,
  -- line 107: ic,jkad,cdkb->ijab
  ⟨1, [t1 [cᵥ, iₒ], t2 [aᵥ, dᵥ, jₒ, kₒ], g [cᵥ, dᵥ, kₒ, bᵥ]], [(1, [iₒ, jₒ, aᵥ, bᵥ])]⟩,
  -- line 108: ic,jcab->ijab
  ⟨-1/2, [t1 [cᵥ, iₒ], g [jₒ, cᵥ, aᵥ, bᵥ]], [(1, [iₒ, jₒ, aᵥ, bᵥ])]⟩,
  -- line 109: kc,ilab,jckl->ijab
  ⟨1/2, [t1 [cᵥ, kₒ], t2 [aᵥ, bᵥ, iₒ, lₒ], g [jₒ, cᵥ, kₒ, lₒ]], [(1, [iₒ, jₒ, aᵥ, bᵥ])]⟩,
  -- line 110: kc,ijad,cdkb->ijab
  ⟨1/2, [t1 [cᵥ, kₒ], t2 [aᵥ, dᵥ, iₒ, jₒ], g [cᵥ, dᵥ, kₒ, bᵥ]], [(1, [iₒ, jₒ, aᵥ, bᵥ])]⟩,
  -- line 111: ikab,jlcd,cdkl->ijab
  ⟨-1/4, [t2 [aᵥ, bᵥ, iₒ, kₒ], t2 [cᵥ, dᵥ, jₒ, lₒ], g [cᵥ, dᵥ, kₒ, lₒ]], [(1, [iₒ, jₒ, aᵥ, bᵥ])]⟩,
  -- line 112: klab,ijcd,cdkl->ijab
  ⟨1/16, [t2 [aᵥ, bᵥ, kₒ, lₒ], t2 [cᵥ, dᵥ, iₒ, jₒ], g [cᵥ, dᵥ, kₒ, lₒ]], [(1, [iₒ, jₒ, aᵥ, bᵥ])]⟩,
  -- line 113: klab,ijkl->ijab
  ⟨1/8, [t2 [aᵥ, bᵥ, kₒ, lₒ], g [iₒ, jₒ, kₒ, lₒ]], [(1, [iₒ, jₒ, aᵥ, bᵥ])]⟩,
  -- line 114: ijac,klbd,cdkl->ijab
  ⟨-1/4, [t2 [aᵥ, cᵥ, iₒ, jₒ], t2 [bᵥ, dᵥ, kₒ, lₒ], g [cᵥ, dᵥ, kₒ, lₒ]], [(1, [iₒ, jₒ, aᵥ, bᵥ])]⟩,
  -- line 115: ikac,jlbd,cdkl->ijab
  ⟨1/2, [t2 [aᵥ, cᵥ, iₒ, kₒ], t2 [bᵥ, dᵥ, jₒ, lₒ], g [cᵥ, dᵥ, kₒ, lₒ]], [(1, [iₒ, jₒ, aᵥ, bᵥ])]⟩,
  -- line 116: ikac,jckb->ijab
  ⟨-1, [t2 [aᵥ, cᵥ, iₒ, kₒ], g [jₒ, cᵥ, kₒ, bᵥ]], [(1, [iₒ, jₒ, aᵥ, bᵥ])]⟩,
  -- line 117: ijcd,cdab->ijab
  ⟨1/8, [t2 [cᵥ, dᵥ, iₒ, jₒ], g [cᵥ, dᵥ, aᵥ, bᵥ]], [(1, [iₒ, jₒ, aᵥ, bᵥ])]⟩,
  -- line 118: ijab->ijab
  ⟨1/4, [g [iₒ, jₒ, aᵥ, bᵥ]], [(1, [iₒ, jₒ, aᵥ, bᵥ])]⟩
  ]

/-- `UT2/cc_eqns.py` 86-122, `ccsd_t2resid`. -/
def ccsd_t2resid : Prog := Prog.through tamps_antisym_T2 (ccsd_t2resid_0)

end Verif.Gen
