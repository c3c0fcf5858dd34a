import Verif.Ein.Names
import Verif.Gen.Antisym

/-! Written by `/verif/tools/gen.py`. Programs read from `/repo/UT2`. -/

set_option maxRecDepth 100000

namespace Verif.Gen

open Verif.Ein Verif.Ein.N


/-- `UT2/ccsdt_eqns.py` 5-22, `ccsdt_t1eqns`. -/
def ccsdt_t1eqns : Prog := [
  -- line 7: ij,ja->ia
  ⟨-1, [f [iₒ, jₒ], t1 [aᵥ, jₒ]], [(1, [iₒ, aᵥ])]⟩,
  -- line 8: bj,ja,ib->ia
  ⟨-1, [f [bᵥ, jₒ], t1 [aᵥ, jₒ], t1 [bᵥ, iₒ]], [(1, [iₒ, aᵥ])]⟩,
  -- line 9: bj,ijab->ia
  ⟨1, [f [bᵥ, jₒ], t2 [aᵥ, bᵥ, iₒ, jₒ]], [(1, [iₒ, aᵥ])]⟩,
  -- line 10: ia->ia
  ⟨1, [f [iₒ, aᵥ]], [(1, [iₒ, aᵥ])]⟩,
  -- line 11: ba,ib->ia
  ⟨1, [f [bᵥ, aᵥ], t1 [bᵥ, iₒ]], [(1, [iₒ, aᵥ])]⟩,
  -- line 12: ja,ib,kc,bcjk->ia
  ⟨-1, [t1 [aᵥ, jₒ], t1 [bᵥ, iₒ], t1 [cᵥ, kₒ], g [bᵥ, cᵥ, jₒ, kₒ]], [(1, [iₒ, aᵥ])]⟩,
  -- line 13: ja,kb,ibjk->ia
  ⟨-1, [t1 [aᵥ, jₒ], t1 [bᵥ, kₒ], g [iₒ, bᵥ, jₒ, kₒ]], [(1, [iₒ, aᵥ])]⟩,
  -- line 14: ja,ikbc,bcjk->ia
  ⟨-1/2, [t1 [aᵥ, jₒ], t2 [bᵥ, cᵥ, iₒ, kₒ], g [bᵥ, cᵥ, jₒ, kₒ]], [(1, [iₒ, aᵥ])]⟩,
  -- line 15: ib,jc,bcja->ia
  ⟨-1, [t1 [bᵥ, iₒ], t1 [cᵥ, jₒ], g [bᵥ, cᵥ, jₒ, aᵥ]], [(1, [iₒ, aᵥ])]⟩,
  -- line 16: ib,jkac,bcjk->ia
  ⟨-1/2, [t1 [bᵥ, iₒ], t2 [aᵥ, cᵥ, jₒ, kₒ], g [bᵥ, cᵥ, jₒ, kₒ]], [(1, [iₒ, aᵥ])]⟩,
  -- line 17: jb,ikac,bcjk->ia
  ⟨1, [t1 [bᵥ, jₒ], t2 [aᵥ, cᵥ, iₒ, kₒ], g [bᵥ, cᵥ, jₒ, kₒ]], [(1, [iₒ, aᵥ])]⟩,
  -- line 18: jb,ibja->ia
  ⟨-1, [t1 [bᵥ, jₒ], g [iₒ, bᵥ, jₒ, aᵥ]], [(1, [iₒ, aᵥ])]⟩,
  -- line 19: jkab,ibjk->ia
  ⟨-1/2, [t2 [aᵥ, bᵥ, jₒ, kₒ], g [iₒ, bᵥ, jₒ, kₒ]], [(1, [iₒ, aᵥ])]⟩,
  -- line 20: ijbc,bcja->ia
  ⟨-1/2, [t2 [bᵥ, cᵥ, iₒ, jₒ], g [bᵥ, cᵥ, jₒ, aᵥ]], [(1, [iₒ, aᵥ])]⟩,
  -- line 21: ijkabc,bcjk->ia
  ⟨1/4, [t3 [aᵥ, bᵥ, cᵥ, iₒ, jₒ, kₒ], g [bᵥ, cᵥ, jₒ, kₒ]], [(1, [iₒ, aᵥ])]⟩
  ]

/-- Part 0 of `ccsdt_t2eqns`. -/
def ccsdt_t2eqns_0 : Prog := [
  -- line 26: ik,jkab->ijab
  ⟨1/2, [f [iₒ, kₒ], t2 [aᵥ, bᵥ, jₒ, kₒ]], [(1, [iₒ, jₒ, aᵥ, bᵥ])]⟩,
  -- line 27: ck,ka,ijbc->ijab
  ⟨1/2, [f [cᵥ, kₒ], t1 [aᵥ, kₒ], t2 [bᵥ, cᵥ, iₒ, jₒ]], [(1, [iₒ, jₒ, aᵥ, bᵥ])]⟩,
  -- line 28: ck,ic,jkab->ijab
  ⟨1/2, [f [cᵥ, kₒ], t1 [cᵥ, iₒ], t2 [aᵥ, bᵥ, jₒ, kₒ]], [(1, [iₒ, jₒ, aᵥ, bᵥ])]⟩,
  -- line 29: ck,ijkabc->ijab
  ⟨1/4, [f [cᵥ, kₒ], t3 [aᵥ, bᵥ, cᵥ, iₒ, jₒ, kₒ]], [(1, [iₒ, jₒ, aᵥ, bᵥ])]⟩,
  -- line 30: ca,ijbc->ijab
  ⟨-1/2, [f [cᵥ, aᵥ], t2 [bᵥ, cᵥ, iₒ, jₒ]], [(1, [iₒ, jₒ, aᵥ, bᵥ])]⟩,
  -- line 31: ka,lb,ic,jd,cdkl->ijab
  ⟨1/4, [t1 [aᵥ, kₒ], t1 [bᵥ, lₒ], t1 [cᵥ, iₒ], t1 [dᵥ, jₒ], g [cᵥ, dᵥ, kₒ, lₒ]], [(1, [iₒ, jₒ, aᵥ, bᵥ])]⟩,
  -- line 32: ka,lb,ic,jckl->ijab
  ⟨-1/2, [t1 [aᵥ, kₒ], t1 [bᵥ, lₒ], t1 [cᵥ, iₒ], g [jₒ, cᵥ, kₒ, lₒ]], [(1, [iₒ, jₒ, aᵥ, bᵥ])]⟩,
  -- line 33: ka,lb,ijcd,cdkl->ijab
  ⟨1/8, [t1 [aᵥ, kₒ], t1 [bᵥ, lₒ], t2 [cᵥ, dᵥ, iₒ, jₒ], g [cᵥ, dᵥ, kₒ, lₒ]], [(1, [iₒ, jₒ, aᵥ, bᵥ])]⟩,
  -- line 34: ka,lb,ijkl->ijab
  ⟨1/4, [t1 [aᵥ, kₒ], t1 [bᵥ, lₒ], g [iₒ, jₒ, kₒ, lₒ]], [(1, [iₒ, jₒ, aᵥ, bᵥ])]⟩,
  -- line 35: ka,ic,jd,cdkb->ijab
  ⟨-1/2, [t1 [aᵥ, kₒ], t1 [cᵥ, iₒ], t1 [dᵥ, jₒ], g [cᵥ, dᵥ, kₒ, bᵥ]], [(1, [iₒ, jₒ, aᵥ, bᵥ])]⟩,
  -- line 36: ka,ic,jlbd,cdkl->ijab
  ⟨-1, [t1 [aᵥ, kₒ], t1 [cᵥ, iₒ], t2 [bᵥ, dᵥ, jₒ, lₒ], g [cᵥ, dᵥ, kₒ, lₒ]], [(1, [iₒ, jₒ, aᵥ, bᵥ])]⟩,
  -- line 37: ka,ic,jckb->ijab
  ⟨1, [t1 [aᵥ, kₒ], t1 [cᵥ, iₒ], g [jₒ, cᵥ, kₒ, bᵥ]], [(1, [iₒ, jₒ, aᵥ, bᵥ])]⟩,
  -- line 38: ka,lc,ijbd,cdkl->ijab
  ⟨-1/2, [t1 [aᵥ, kₒ], t1 [cᵥ, lₒ], t2 [bᵥ, dᵥ, iₒ, jₒ], g [cᵥ, dᵥ, kₒ, lₒ]], [(1, [iₒ, jₒ, aᵥ, bᵥ])]⟩,
  -- line 39: ka,ilbc,jckl->ijab
  ⟨1, [t1 [aᵥ, kₒ], t2 [bᵥ, cᵥ, iₒ, lₒ], g [jₒ, cᵥ, kₒ, lₒ]], [(1, [iₒ, jₒ, aᵥ, bᵥ])]⟩,
  -- line 40: ka,ijcd,cdkb->ijab
  ⟨-1/4, [t1 [aᵥ, kₒ], t2 [cᵥ, dᵥ, iₒ, jₒ], g [cᵥ, dᵥ, kₒ, bᵥ]], [(1, [iₒ, jₒ, aᵥ, bᵥ])]⟩,
  -- line 41: ka,ijlbcd,cdkl->ijab
  ⟨1/4, [t1 [aᵥ, kₒ], t3 [bᵥ, cᵥ, dᵥ, iₒ, jₒ, lₒ], g [cᵥ, dᵥ, kₒ, lₒ]], [(1, [iₒ, jₒ, aᵥ, bᵥ])]⟩,
  -- line 42: ka,ijkb->ijab
  ⟨-1/2, [t1 [aᵥ, kₒ], g [iₒ, jₒ, kₒ, bᵥ]], [(1, [iₒ, jₒ, aᵥ, bᵥ])]⟩,
  -- line 43: ic,jd,klab,cdkl->ijab
  ⟨1/8, [t1 [cᵥ, iₒ], t1 [dᵥ, jₒ], t2 [aᵥ, bᵥ, kₒ, lₒ], g [cᵥ, dᵥ, kₒ, lₒ]], [(1, [iₒ, jₒ, aᵥ, bᵥ])]⟩,
  -- line 44: ic,jd,cdab->ijab
  ⟨1/4, [t1 [cᵥ, iₒ], t1 [dᵥ, jₒ], g [cᵥ, dᵥ, aᵥ, bᵥ]], [(1, [iₒ, jₒ, aᵥ, bᵥ])]⟩,
  -- line 45: ic,kd,jlab,cdkl->ijab
  ⟨-1/2, [t1 [cᵥ, iₒ], t1 [dᵥ, kₒ], t2 [aᵥ, bᵥ, jₒ, lₒ], g [cᵥ, dᵥ, kₒ, lₒ]], [(1, [iₒ, jₒ, aᵥ, bᵥ])]⟩,
  -- line 46: ic,klab,jckl->ijab
  ⟨-1/4, [t1 [cᵥ, iₒ], t2 [aᵥ, bᵥ, kₒ, lₒ], g [jₒ, cᵥ, kₒ, lₒ]], [(1, [iₒ, jₒ, aᵥ, bᵥ])]⟩,
  -- line 47: ic,jkad,cdkb->ijab
  ⟨1, [t1 [cᵥ, iₒ], t2 [aᵥ, dᵥ, jₒ, kₒ], g [cᵥ, dᵥ, kₒ, bᵥ]], [(1, [iₒ, jₒ, aᵥ, bᵥ])]⟩,
  -- line 48: ic,jklabd,cdkl->ijab
  ⟨1/4, [t1 [cᵥ, iₒ], t3 [aᵥ, bᵥ, dᵥ, jₒ, kₒ, lₒ], g [cᵥ, dᵥ, kₒ, lₒ]], [(1, [iₒ, jₒ, aᵥ, bᵥ])]⟩,
  -- line 49: ic,jcab->ijab
  ⟨-1/2, [t1 [cᵥ, iₒ], g [jₒ, cᵥ, aᵥ, bᵥ]], [(1, [iₒ, jₒ, aᵥ, bᵥ])]⟩,
  -- line 50: kc,ilab,jckl->ijab
  ⟨1/2, [t1 [cᵥ, kₒ], t2 [aᵥ, bᵥ, iₒ, lₒ], g [jₒ, cᵥ, kₒ, lₒ]], [(1, [iₒ, jₒ, aᵥ, bᵥ])]⟩,
  -- line 51: kc,ijad,cdkb->ijab
  ⟨1/2, [t1 [cᵥ, kₒ], t2 [aᵥ, dᵥ, iₒ, jₒ], g [cᵥ, dᵥ, kₒ, bᵥ]], [(1, [iₒ, jₒ, aᵥ, bᵥ])]⟩,
  -- line 52: kc,ijlabd,cdkl->ijab
  ⟨1/4, [t1 [cᵥ, kₒ], t3 [aᵥ, bᵥ, dᵥ, iₒ, jₒ, lₒ], g [cᵥ, dᵥ, kₒ, lₒ]], [(1, [iₒ, jₒ, aᵥ, bᵥ])]⟩,
  -- line 53: ikab,jlcd,cdkl->ijab
  ⟨-1/4, [t2 [aᵥ, bᵥ, iₒ, kₒ], t2 [cᵥ, dᵥ, jₒ, lₒ], g [cᵥ, dᵥ, kₒ, lₒ]], [(1, [iₒ, jₒ, aᵥ, bᵥ])]⟩,
  -- line 54: klab,ijcd,cdkl->ijab
  ⟨1/16, [t2 [aᵥ, bᵥ, kₒ, lₒ], t2 [cᵥ, dᵥ, iₒ, jₒ], g [cᵥ, dᵥ, kₒ, lₒ]], [(1, [iₒ, jₒ, aᵥ, bᵥ])]⟩,
  -- line 55: klab,ijkl->ijab
  ⟨1/8, [t2 [aᵥ, bᵥ, kₒ, lₒ], g [iₒ, jₒ, kₒ, lₒ]], [(1, [iₒ, jₒ, aᵥ, bᵥ])]⟩,
  -- line 56: ijac,klbd,cdkl->ijab
  ⟨-1/4, [t2 [aᵥ, cᵥ, iₒ, jₒ], t2 [bᵥ, dᵥ, kₒ, lₒ], g [cᵥ, dᵥ, kₒ, lₒ]], [(1, [iₒ, jₒ, aᵥ, bᵥ])]⟩,
  -- line 57: ikac,jlbd,cdkl->ijab
  ⟨1/2, [t2 [aᵥ, cᵥ, iₒ, kₒ], t2 [bᵥ, dᵥ, jₒ, lₒ], g [cᵥ, dᵥ, kₒ, lₒ]], [(1, [iₒ, jₒ, aᵥ, bᵥ])]⟩,
  -- line 58: ikac,jckb->ijab
  ⟨-1, [t2 [aᵥ, cᵥ, iₒ, kₒ], g [jₒ, cᵥ, kₒ, bᵥ]], [(1, [iₒ, jₒ, aᵥ, bᵥ])]⟩,
  -- line 59: ijcd,cdab->ijab
  ⟨1/8, [t2 [cᵥ, dᵥ, iₒ, jₒ], g [cᵥ, dᵥ, aᵥ, bᵥ]], [(1, [iₒ, jₒ, aᵥ, bᵥ])]⟩,
  -- line 60: iklabc,jckl->ijab
  ⟨-1/4, [t3 [aᵥ, bᵥ, cᵥ, iₒ, kₒ, lₒ], g [jₒ, cᵥ, kₒ, lₒ]], [(1, [iₒ, jₒ, aᵥ, bᵥ])]⟩,
  -- line 61: ijkacd,cdkb->ijab
  ⟨-1/4, [t3 [aᵥ, cᵥ, dᵥ, iₒ, jₒ, kₒ], g [cᵥ, dᵥ, kₒ, bᵥ]], [(1, [iₒ, jₒ, aᵥ, bᵥ])]⟩,
  -- line 62: ijab->ijab
  ⟨1/4, [g [iₒ, jₒ, aᵥ, bᵥ]], [(1, [iₒ, jₒ, aᵥ, bᵥ])]⟩
  ]

/-- `UT2/ccsdt_eqns.py` 24-66, `ccsdt_t2eqns`. -/
def ccsdt_t2eqns : Prog := Prog.through tamps_antisym_T2 (ccsdt_t2eqns_0)

/-- Part 0 of `ccsdt_t3eqns`. -/
def ccsdt_t3eqns_0 : Prog := [
  -- line 71: il,jklabc->ijkabc
  ⟨-83333333/1000000000, [f [iₒ, lₒ], t3 [aᵥ, bᵥ, cᵥ, jₒ, kₒ, lₒ]], [(1, [iₒ, jₒ, kₒ, aᵥ, bᵥ, cᵥ])]⟩,
  -- line 72: dl,la,ijkbcd->ijkabc
  ⟨-83333333/1000000000, [f [dᵥ, lₒ], t1 [aᵥ, lₒ], t3 [bᵥ, cᵥ, dᵥ, iₒ, jₒ, kₒ]], [(1, [iₒ, jₒ, kₒ, aᵥ, bᵥ, cᵥ])]⟩,
  -- line 73: dl,id,jklabc->ijkabc
  ⟨-83333333/1000000000, [f [dᵥ, lₒ], t1 [dᵥ, iₒ], t3 [aᵥ, bᵥ, cᵥ, jₒ, kₒ, lₒ]], [(1, [iₒ, jₒ, kₒ, aᵥ, bᵥ, cᵥ])]⟩,
  -- line 74: dl,ilab,jkcd->ijkabc
  ⟨1/4, [f [dᵥ, lₒ], t2 [aᵥ, bᵥ, iₒ, lₒ], t2 [cᵥ, dᵥ, jₒ, kₒ]], [(1, [iₒ, jₒ, kₒ, aᵥ, bᵥ, cᵥ])]⟩,
  -- line 75: da,ijkbcd->ijkabc
  ⟨83333333/1000000000, [f [dᵥ, aᵥ], t3 [bᵥ, cᵥ, dᵥ, iₒ, jₒ, kₒ]], [(1, [iₒ, jₒ, kₒ, aᵥ, bᵥ, cᵥ])]⟩,
  -- line 76: la,mb,id,jkce,delm->ijkabc
  ⟨-1/4, [t1 [aᵥ, lₒ], t1 [bᵥ, mₒ], t1 [dᵥ, iₒ], t2 [cᵥ, eᵥ, jₒ, kₒ], g [dᵥ, eᵥ, lₒ, mₒ]], [(1, [iₒ, jₒ, kₒ, aᵥ, bᵥ, cᵥ])]⟩,
  -- line 77: la,mb,ijcd,kdlm->ijkabc
  ⟨-1/4, [t1 [aᵥ, lₒ], t1 [bᵥ, mₒ], t2 [cᵥ, dᵥ, iₒ, jₒ], g [kₒ, dᵥ, lₒ, mₒ]], [(1, [iₒ, jₒ, kₒ, aᵥ, bᵥ, cᵥ])]⟩,
  -- line 78: la,mb,ijkcde,delm->ijkabc
  ⟨41666667/1000000000, [t1 [aᵥ, lₒ], t1 [bᵥ, mₒ], t3 [cᵥ, dᵥ, eᵥ, iₒ, jₒ, kₒ], g [dᵥ, eᵥ, lₒ, mₒ]], [(1, [iₒ, jₒ, kₒ, aᵥ, bᵥ, cᵥ])]⟩,
  -- line 79: la,id,je,kmbc,delm->ijkabc
  ⟨-1/4, [t1 [aᵥ, lₒ], t1 [dᵥ, iₒ], t1 [eᵥ, jₒ], t2 [bᵥ, cᵥ, kₒ, mₒ], g [dᵥ, eᵥ, lₒ, mₒ]], [(1, [iₒ, jₒ, kₒ, aᵥ, bᵥ, cᵥ])]⟩,
  -- line 80: la,id,jmbc,kdlm->ijkabc
  ⟨-1/2, [t1 [aᵥ, lₒ], t1 [dᵥ, iₒ], t2 [bᵥ, cᵥ, jₒ, mₒ], g [kₒ, dᵥ, lₒ, mₒ]], [(1, [iₒ, jₒ, kₒ, aᵥ, bᵥ, cᵥ])]⟩,
  -- line 81: la,id,jkbe,delc->ijkabc
  ⟨-1/2, [t1 [aᵥ, lₒ], t1 [dᵥ, iₒ], t2 [bᵥ, eᵥ, jₒ, kₒ], g [dᵥ, eᵥ, lₒ, cᵥ]], [(1, [iₒ, jₒ, kₒ, aᵥ, bᵥ, cᵥ])]⟩,
  -- line 82: la,id,jkmbce,delm->ijkabc
  ⟨-1/4, [t1 [aᵥ, lₒ], t1 [dᵥ, iₒ], t3 [bᵥ, cᵥ, eᵥ, jₒ, kₒ, mₒ], g [dᵥ, eᵥ, lₒ, mₒ]], [(1, [iₒ, jₒ, kₒ, aᵥ, bᵥ, cᵥ])]⟩,
  -- line 83: la,md,ijkbce,delm->ijkabc
  ⟨83333333/1000000000, [t1 [aᵥ, lₒ], t1 [dᵥ, mₒ], t3 [bᵥ, cᵥ, eᵥ, iₒ, jₒ, kₒ], g [dᵥ, eᵥ, lₒ, mₒ]], [(1, [iₒ, jₒ, kₒ, aᵥ, bᵥ, cᵥ])]⟩,
  -- line 84: la,imbc,jkde,delm->ijkabc
  ⟨-1/8, [t1 [aᵥ, lₒ], t2 [bᵥ, cᵥ, iₒ, mₒ], t2 [dᵥ, eᵥ, jₒ, kₒ], g [dᵥ, eᵥ, lₒ, mₒ]], [(1, [iₒ, jₒ, kₒ, aᵥ, bᵥ, cᵥ])]⟩,
  -- line 85: la,imbc,jklm->ijkabc
  ⟨-1/4, [t1 [aᵥ, lₒ], t2 [bᵥ, cᵥ, iₒ, mₒ], g [jₒ, kₒ, lₒ, mₒ]], [(1, [iₒ, jₒ, kₒ, aᵥ, bᵥ, cᵥ])]⟩,
  -- line 86: la,ijbd,kmce,delm->ijkabc
  ⟨1/2, [t1 [aᵥ, lₒ], t2 [bᵥ, dᵥ, iₒ, jₒ], t2 [cᵥ, eᵥ, kₒ, mₒ], g [dᵥ, eᵥ, lₒ, mₒ]], [(1, [iₒ, jₒ, kₒ, aᵥ, bᵥ, cᵥ])]⟩,
  -- line 87: la,ijbd,kdlc->ijkabc
  ⟨-1/2, [t1 [aᵥ, lₒ], t2 [bᵥ, dᵥ, iₒ, jₒ], g [kₒ, dᵥ, lₒ, cᵥ]], [(1, [iₒ, jₒ, kₒ, aᵥ, bᵥ, cᵥ])]⟩,
  -- line 88: la,ijmbcd,kdlm->ijkabc
  ⟨-1/4, [t1 [aᵥ, lₒ], t3 [bᵥ, cᵥ, dᵥ, iₒ, jₒ, mₒ], g [kₒ, dᵥ, lₒ, mₒ]], [(1, [iₒ, jₒ, kₒ, aᵥ, bᵥ, cᵥ])]⟩,
  -- line 89: la,ijkbde,delc->ijkabc
  ⟨83333333/1000000000, [t1 [aᵥ, lₒ], t3 [bᵥ, dᵥ, eᵥ, iₒ, jₒ, kₒ], g [dᵥ, eᵥ, lₒ, cᵥ]], [(1, [iₒ, jₒ, kₒ, aᵥ, bᵥ, cᵥ])]⟩,
  -- line 90: id,je,klab,delc->ijkabc
  ⟨-1/4, [t1 [dᵥ, iₒ], t1 [eᵥ, jₒ], t2 [aᵥ, bᵥ, kₒ, lₒ], g [dᵥ, eᵥ, lₒ, cᵥ]], [(1, [iₒ, jₒ, kₒ, aᵥ, bᵥ, cᵥ])]⟩,
  -- line 91: id,je,klmabc,delm->ijkabc
  ⟨41666667/1000000000, [t1 [dᵥ, iₒ], t1 [eᵥ, jₒ], t3 [aᵥ, bᵥ, cᵥ, kₒ, lₒ, mₒ], g [dᵥ, eᵥ, lₒ, mₒ]], [(1, [iₒ, jₒ, kₒ, aᵥ, bᵥ, cᵥ])]⟩,
  -- line 92: id,le,jkmabc,delm->ijkabc
  ⟨83333333/1000000000, [t1 [dᵥ, iₒ], t1 [eᵥ, lₒ], t3 [aᵥ, bᵥ, cᵥ, jₒ, kₒ, mₒ], g [dᵥ, eᵥ, lₒ, mₒ]], [(1, [iₒ, jₒ, kₒ, aᵥ, bᵥ, cᵥ])]⟩,
  -- line 93: id,jlab,kmce,delm->ijkabc
  ⟨1/2, [t1 [dᵥ, iₒ], t2 [aᵥ, bᵥ, jₒ, lₒ], t2 [cᵥ, eᵥ, kₒ, mₒ], g [dᵥ, eᵥ, lₒ, mₒ]], [(1, [iₒ, jₒ, kₒ, aᵥ, bᵥ, cᵥ])]⟩,
  -- line 94: id,jlab,kdlc->ijkabc
  ⟨-1/2, [t1 [dᵥ, iₒ], t2 [aᵥ, bᵥ, jₒ, lₒ], g [kₒ, dᵥ, lₒ, cᵥ]], [(1, [iₒ, jₒ, kₒ, aᵥ, bᵥ, cᵥ])]⟩,
  -- line 95: id,lmab,jkce,delm->ijkabc
  ⟨-1/8, [t1 [dᵥ, iₒ], t2 [aᵥ, bᵥ, lₒ, mₒ], t2 [cᵥ, eᵥ, jₒ, kₒ], g [dᵥ, eᵥ, lₒ, mₒ]], [(1, [iₒ, jₒ, kₒ, aᵥ, bᵥ, cᵥ])]⟩,
  -- line 96: id,jkae,debc->ijkabc
  ⟨-1/4, [t1 [dᵥ, iₒ], t2 [aᵥ, eᵥ, jₒ, kₒ], g [dᵥ, eᵥ, bᵥ, cᵥ]], [(1, [iₒ, jₒ, kₒ, aᵥ, bᵥ, cᵥ])]⟩,
  -- line 97: id,jlmabc,kdlm->ijkabc
  ⟨83333333/1000000000, [t1 [dᵥ, iₒ], t3 [aᵥ, bᵥ, cᵥ, jₒ, lₒ, mₒ], g [kₒ, dᵥ, lₒ, mₒ]], [(1, [iₒ, jₒ, kₒ, aᵥ, bᵥ, cᵥ])]⟩,
  -- line 98: id,jklabe,delc->ijkabc
  ⟨-1/4, [t1 [dᵥ, iₒ], t3 [aᵥ, bᵥ, eᵥ, jₒ, kₒ, lₒ], g [dᵥ, eᵥ, lₒ, cᵥ]], [(1, [iₒ, jₒ, kₒ, aᵥ, bᵥ, cᵥ])]⟩,
  -- line 99: ld,imab,jkce,delm->ijkabc
  ⟨1/4, [t1 [dᵥ, lₒ], t2 [aᵥ, bᵥ, iₒ, mₒ], t2 [cᵥ, eᵥ, jₒ, kₒ], g [dᵥ, eᵥ, lₒ, mₒ]], [(1, [iₒ, jₒ, kₒ, aᵥ, bᵥ, cᵥ])]⟩,
  -- line 100: ld,ijmabc,kdlm->ijkabc
  ⟨83333333/1000000000, [t1 [dᵥ, lₒ], t3 [aᵥ, bᵥ, cᵥ, iₒ, jₒ, mₒ], g [kₒ, dᵥ, lₒ, mₒ]], [(1, [iₒ, jₒ, kₒ, aᵥ, bᵥ, cᵥ])]⟩,
  -- line 101: ld,ijkabe,delc->ijkabc
  ⟨83333333/1000000000, [t1 [dᵥ, lₒ], t3 [aᵥ, bᵥ, eᵥ, iₒ, jₒ, kₒ], g [dᵥ, eᵥ, lₒ, cᵥ]], [(1, [iₒ, jₒ, kₒ, aᵥ, bᵥ, cᵥ])]⟩,
  -- line 102: ilab,jmcd,kdlm->ijkabc
  ⟨1/2, [t2 [aᵥ, bᵥ, iₒ, lₒ], t2 [cᵥ, dᵥ, jₒ, mₒ], g [kₒ, dᵥ, lₒ, mₒ]], [(1, [iₒ, jₒ, kₒ, aᵥ, bᵥ, cᵥ])]⟩,
  -- line 103: ilab,jkde,delc->ijkabc
  ⟨-1/8, [t2 [aᵥ, bᵥ, iₒ, lₒ], t2 [dᵥ, eᵥ, jₒ, kₒ], g [dᵥ, eᵥ, lₒ, cᵥ]], [(1, [iₒ, jₒ, kₒ, aᵥ, bᵥ, cᵥ])]⟩,
  -- line 104: ilab,jkmcde,delm->ijkabc
  ⟨1/8, [t2 [aᵥ, bᵥ, iₒ, lₒ], t3 [cᵥ, dᵥ, eᵥ, jₒ, kₒ, mₒ], g [dᵥ, eᵥ, lₒ, mₒ]], [(1, [iₒ, jₒ, kₒ, aᵥ, bᵥ, cᵥ])]⟩,
  -- line 105: ilab,jklc->ijkabc
  ⟨-1/4, [t2 [aᵥ, bᵥ, iₒ, lₒ], g [jₒ, kₒ, lₒ, cᵥ]], [(1, [iₒ, jₒ, kₒ, aᵥ, bᵥ, cᵥ])]⟩,
  -- line 106: lmab,ijcd,kdlm->ijkabc
  ⟨-1/8, [t2 [aᵥ, bᵥ, lₒ, mₒ], t2 [cᵥ, dᵥ, iₒ, jₒ], g [kₒ, dᵥ, lₒ, mₒ]], [(1, [iₒ, jₒ, kₒ, aᵥ, bᵥ, cᵥ])]⟩,
  -- line 107: lmab,ijkcde,delm->ijkabc
  ⟨20833333/1000000000, [t2 [aᵥ, bᵥ, lₒ, mₒ], t3 [cᵥ, dᵥ, eᵥ, iₒ, jₒ, kₒ], g [dᵥ, eᵥ, lₒ, mₒ]], [(1, [iₒ, jₒ, kₒ, aᵥ, bᵥ, cᵥ])]⟩,
  -- line 108: ijad,klbe,delc->ijkabc
  ⟨1/2, [t2 [aᵥ, dᵥ, iₒ, jₒ], t2 [bᵥ, eᵥ, kₒ, lₒ], g [dᵥ, eᵥ, lₒ, cᵥ]], [(1, [iₒ, jₒ, kₒ, aᵥ, bᵥ, cᵥ])]⟩,
  -- line 109: ijad,klmbce,delm->ijkabc
  ⟨1/8, [t2 [aᵥ, dᵥ, iₒ, jₒ], t3 [bᵥ, cᵥ, eᵥ, kₒ, lₒ, mₒ], g [dᵥ, eᵥ, lₒ, mₒ]], [(1, [iₒ, jₒ, kₒ, aᵥ, bᵥ, cᵥ])]⟩,
  -- line 110: ijad,kdbc->ijkabc
  ⟨-1/4, [t2 [aᵥ, dᵥ, iₒ, jₒ], g [kₒ, dᵥ, bᵥ, cᵥ]], [(1, [iₒ, jₒ, kₒ, aᵥ, bᵥ, cᵥ])]⟩
  ]

/-- Part 1 of `ccsdt_t3eqns`. -/
def ccsdt_t3eqns_1 : Prog := [
  -- line 111: ilad,jkmbce,delm->ijkabc
  ⟨1/4, [t2 [aᵥ, dᵥ, iₒ, lₒ], t3 [bᵥ, cᵥ, eᵥ, jₒ, kₒ, mₒ], g [dᵥ, eᵥ, lₒ, mₒ]], [(1, [iₒ, jₒ, kₒ, aᵥ, bᵥ, cᵥ])]⟩,
  -- line 112: lmad,ijkbce,delm->ijkabc
  ⟨41666667/1000000000, [t2 [aᵥ, dᵥ, lₒ, mₒ], t3 [bᵥ, cᵥ, eᵥ, iₒ, jₒ, kₒ], g [dᵥ, eᵥ, lₒ, mₒ]], [(1, [iₒ, jₒ, kₒ, aᵥ, bᵥ, cᵥ])]⟩,
  -- line 113: ijde,klmabc,delm->ijkabc
  ⟨20833333/1000000000, [t2 [dᵥ, eᵥ, iₒ, jₒ], t3 [aᵥ, bᵥ, cᵥ, kₒ, lₒ, mₒ], g [dᵥ, eᵥ, lₒ, mₒ]], [(1, [iₒ, jₒ, kₒ, aᵥ, bᵥ, cᵥ])]⟩,
  -- line 114: ilde,jkmabc,delm->ijkabc
  ⟨41666667/1000000000, [t2 [dᵥ, eᵥ, iₒ, lₒ], t3 [aᵥ, bᵥ, cᵥ, jₒ, kₒ, mₒ], g [dᵥ, eᵥ, lₒ, mₒ]], [(1, [iₒ, jₒ, kₒ, aᵥ, bᵥ, cᵥ])]⟩,
  -- line 115: ilmabc,jklm->ijkabc
  ⟨41666667/1000000000, [t3 [aᵥ, bᵥ, cᵥ, iₒ, lₒ, mₒ], g [jₒ, kₒ, lₒ, mₒ]], [(1, [iₒ, jₒ, kₒ, aᵥ, bᵥ, cᵥ])]⟩,
  -- line 116: ijlabd,kdlc->ijkabc
  ⟨-1/4, [t3 [aᵥ, bᵥ, dᵥ, iₒ, jₒ, lₒ], g [kₒ, dᵥ, lₒ, cᵥ]], [(1, [iₒ, jₒ, kₒ, aᵥ, bᵥ, cᵥ])]⟩,
  -- line 117: ijkade,debc->ijkabc
  ⟨41666667/1000000000, [t3 [aᵥ, dᵥ, eᵥ, iₒ, jₒ, kₒ], g [dᵥ, eᵥ, bᵥ, cᵥ]], [(1, [iₒ, jₒ, kₒ, aᵥ, bᵥ, cᵥ])]⟩
  ]

/-- `UT2/ccsdt_eqns.py` 69-122, `ccsdt_t3eqns`. -/
def ccsdt_t3eqns : Prog := Prog.through tamps_antisym_T3 (ccsdt_t3eqns_0) ++ (Prog.through tamps_antisym_T3 (ccsdt_t3eqns_1))

end Verif.Gen
