import Verif.Ein.Names
import Verif.Gen.Antisym

/-! Written by `/verif/tools/gen.py`. Programs read from `/repo/UT2`. -/

set_option maxRecDepth 100000

namespace Verif.Gen

open Verif.Ein Verif.Ein.N


/-- `UT2/pdagq_T3corr.py` 4-37, `build_T3`. -/
def build_T3 : Prog := [
  -- line 7: lajk,bcil->abcijk
  ⟨-1, [g [lₒ, aᵥ, jₒ, kₒ], t2 [bᵥ, cᵥ, iₒ, lₒ]], [(1, [aᵥ, bᵥ, cᵥ, iₒ, jₒ, kₒ]), (-1, [aᵥ, bᵥ, cᵥ, jₒ, iₒ, kₒ]), (-1, [bᵥ, aᵥ, cᵥ, iₒ, jₒ, kₒ]), (1, [bᵥ, aᵥ, cᵥ, jₒ, iₒ, kₒ])]⟩,
  -- line 11: laij,bckl->abcijk
  ⟨-1, [g [lₒ, aᵥ, iₒ, jₒ], t2 [bᵥ, cᵥ, kₒ, lₒ]], [(1, [aᵥ, bᵥ, cᵥ, iₒ, jₒ, kₒ]), (-1, [bᵥ, aᵥ, cᵥ, iₒ, jₒ, kₒ])]⟩,
  -- line 15: lcjk,abil->abcijk
  ⟨-1, [g [lₒ, cᵥ, jₒ, kₒ], t2 [aᵥ, bᵥ, iₒ, lₒ]], [(1, [aᵥ, bᵥ, cᵥ, iₒ, jₒ, kₒ]), (-1, [aᵥ, bᵥ, cᵥ, jₒ, iₒ, kₒ])]⟩,
  -- line 19: lcij,abkl->abcijk
  ⟨-1, [g [lₒ, cᵥ, iₒ, jₒ], t2 [aᵥ, bᵥ, kₒ, lₒ]], [(1, [aᵥ, bᵥ, cᵥ, iₒ, jₒ, kₒ])]⟩,
  -- line 22: abdk,dcij->abcijk
  ⟨-1, [g [aᵥ, bᵥ, dᵥ, kₒ], t2 [dᵥ, cᵥ, iₒ, jₒ]], [(1, [aᵥ, bᵥ, cᵥ, iₒ, jₒ, kₒ]), (-1, [aᵥ, bᵥ, cᵥ, iₒ, kₒ, jₒ]), (-1, [aᵥ, cᵥ, bᵥ, iₒ, jₒ, kₒ]), (1, [aᵥ, cᵥ, bᵥ, iₒ, kₒ, jₒ])]⟩,
  -- line 26: abdi,dcjk->abcijk
  ⟨-1, [g [aᵥ, bᵥ, dᵥ, iₒ], t2 [dᵥ, cᵥ, jₒ, kₒ]], [(1, [aᵥ, bᵥ, cᵥ, iₒ, jₒ, kₒ]), (-1, [aᵥ, cᵥ, bᵥ, iₒ, jₒ, kₒ])]⟩,
  -- line 30: bcdk,daij->abcijk
  ⟨-1, [g [bᵥ, cᵥ, dᵥ, kₒ], t2 [dᵥ, aᵥ, iₒ, jₒ]], [(1, [aᵥ, bᵥ, cᵥ, iₒ, jₒ, kₒ]), (-1, [aᵥ, bᵥ, cᵥ, iₒ, kₒ, jₒ])]⟩,
  -- line 34: bcdi,dajk->abcijk
  ⟨-1, [g [bᵥ, cᵥ, dᵥ, iₒ], t2 [dᵥ, aᵥ, jₒ, kₒ]], [(1, [aᵥ, bᵥ, cᵥ, iₒ, jₒ, kₒ])]⟩
  ]

/-- `UT2/pdagq_T3corr.py` 39-49, `pdagq_T3energy`. -/
def pdagq_T3energy : Prog := [
  -- line 44: lkcj,ijba,cbailk
  ⟨1/4, [g [lₒ, kₒ, cᵥ, jₒ], l2 [iₒ, jₒ, bᵥ, aᵥ], t3 [cᵥ, bᵥ, aᵥ, iₒ, lₒ, kₒ]], [(1, [])]⟩,
  -- line 47: kbcd,ijba,cdaijk
  ⟨1/4, [g [kₒ, bᵥ, cᵥ, dᵥ], l2 [iₒ, jₒ, bᵥ, aᵥ], t3 [cᵥ, dᵥ, aᵥ, iₒ, jₒ, kₒ]], [(1, [])]⟩
  ]

/-- `UT2/pdagq_T3corr.py` 51-68, `ccsd_energy`. -/
def pdagq_ccsd_energy : Prog := [
  -- line 53: ii
  ⟨1, [f [iₒ, iₒ]], [(1, [])]⟩,
  -- line 57: ia,ai
  ⟨1, [f [iₒ, aᵥ], t1 [aᵥ, iₒ]], [(1, [])]⟩,
  -- line 60: jiji
  ⟨-1/2, [g [jₒ, iₒ, jₒ, iₒ]], [(1, [])]⟩,
  -- line 63: jiab,abji
  ⟨1/4, [g [jₒ, iₒ, aᵥ, bᵥ], t2 [aᵥ, bᵥ, jₒ, iₒ]], [(1, [])]⟩,
  -- line 66: jiab,ai,bj
  ⟨-1/2, [g [jₒ, iₒ, aᵥ, bᵥ], t1 [aᵥ, iₒ], t1 [bᵥ, jₒ]], [(1, [])]⟩
  ]

/-- Part 0 of `fifthOrder_capC`. -/
def fifthOrder_capC_0 : Prog := [
  -- line 50: abij,dekl,lcde->abcijk
  ⟨-1/8, [l2 [iₒ, jₒ, aᵥ, bᵥ], l2 [kₒ, lₒ, dᵥ, eᵥ], g [lₒ, cᵥ, dᵥ, eᵥ]], [(1, [iₒ, jₒ, kₒ, aᵥ, bᵥ, cᵥ])]⟩,
  -- line 51: abij,cdlm,lmkd->abcijk
  ⟨-1/8, [l2 [iₒ, jₒ, aᵥ, bᵥ], l2 [lₒ, mₒ, cᵥ, dᵥ], g [lₒ, mₒ, kₒ, dᵥ]], [(1, [iₒ, jₒ, kₒ, aᵥ, bᵥ, cᵥ])]⟩
  ]

/-- `UT2/wicked_T3corr.py` 49-55, `fifthOrder_capC`. -/
def fifthOrder_capC : Prog := Prog.outs [3, 4, 5, 0, 1, 2] (Prog.through wicked_antisym_T3 (fifthOrder_capC_0))

/-- Part 0 of `fifthOrder_capA`. -/
def fifthOrder_capA_0 : Prog := [
  -- line 58: adij,bekl,lcde->abcijk
  ⟨1, [l2 [iₒ, jₒ, aᵥ, dᵥ], l2 [kₒ, lₒ, bᵥ, eᵥ], g [lₒ, cᵥ, dᵥ, eᵥ]], [(1, [iₒ, jₒ, kₒ, aᵥ, bᵥ, cᵥ])]⟩,
  -- line 59: adij,bclm,lmkd->abcijk
  ⟨-1/4, [l2 [iₒ, jₒ, aᵥ, dᵥ], l2 [lₒ, mₒ, bᵥ, cᵥ], g [lₒ, mₒ, kₒ, dᵥ]], [(1, [iₒ, jₒ, kₒ, aᵥ, bᵥ, cᵥ])]⟩,
  -- line 60: deij,abkl,lcde->abcijk
  ⟨-1/4, [l2 [iₒ, jₒ, dᵥ, eᵥ], l2 [kₒ, lₒ, aᵥ, bᵥ], g [lₒ, cᵥ, dᵥ, eᵥ]], [(1, [iₒ, jₒ, kₒ, aᵥ, bᵥ, cᵥ])]⟩,
  -- line 61: abil,cdjm,lmkd->abcijk
  ⟨1, [l2 [iₒ, lₒ, aᵥ, bᵥ], l2 [jₒ, mₒ, cᵥ, dᵥ], g [lₒ, mₒ, kₒ, dᵥ]], [(1, [iₒ, jₒ, kₒ, aᵥ, bᵥ, cᵥ])]⟩
  ]

/-- `UT2/wicked_T3corr.py` 57-65, `fifthOrder_capA`. -/
def fifthOrder_capA : Prog := Prog.outs [3, 4, 5, 0, 1, 2] (Prog.through wicked_antisym_T3 (fifthOrder_capA_0))

/-- `UT2/wicked_T3corr.py` 73-74, `contractE`. -/
def contractE : Prog := [
  -- line 74: ijkabc,abcijk->
  ⟨111111111/1000000000, [t3 [aᵥ, bᵥ, cᵥ, iₒ, jₒ, kₒ], l3 [iₒ, jₒ, kₒ, aᵥ, bᵥ, cᵥ]], [(1, [])]⟩
  ]

/-- `UT2/wicked_T3corr.py` 90-95, `build_T3_thirdO`. -/
def build_T3_thirdO : Prog := [
  -- line 91: ilab,jmcd,kdlm->ijkabc
  ⟨1/2, [t2 [aᵥ, bᵥ, iₒ, lₒ], t2 [cᵥ, dᵥ, jₒ, mₒ], g [kₒ, dᵥ, lₒ, mₒ]], [(1, [iₒ, jₒ, kₒ, aᵥ, bᵥ, cᵥ])]⟩,
  -- line 92: ilab,jkde,delc->ijkabc
  ⟨-1/8, [t2 [aᵥ, bᵥ, iₒ, lₒ], t2 [dᵥ, eᵥ, jₒ, kₒ], g [dᵥ, eᵥ, lₒ, cᵥ]], [(1, [iₒ, jₒ, kₒ, aᵥ, bᵥ, cᵥ])]⟩,
  -- line 93: lmab,ijcd,kdlm->ijkabc
  ⟨-1/8, [t2 [aᵥ, bᵥ, lₒ, mₒ], t2 [cᵥ, dᵥ, iₒ, jₒ], g [kₒ, dᵥ, lₒ, mₒ]], [(1, [iₒ, jₒ, kₒ, aᵥ, bᵥ, cᵥ])]⟩,
  -- line 94: ijad,klbe,delc->ijkabc
  ⟨1/2, [t2 [aᵥ, dᵥ, iₒ, jₒ], t2 [bᵥ, eᵥ, kₒ, lₒ], g [dᵥ, eᵥ, lₒ, cᵥ]], [(1, [iₒ, jₒ, kₒ, aᵥ, bᵥ, cᵥ])]⟩
  ]

/-- `UT2/wicked_T3corr.py` 97-101, `build_netT2`. -/
def build_netT2 : Prog := [
  -- line 98: iklabc,jckl->ijab
  ⟨-1/4, [t3 [aᵥ, bᵥ, cᵥ, iₒ, kₒ, lₒ], g [jₒ, cᵥ, kₒ, lₒ]], [(1, [iₒ, jₒ, aᵥ, bᵥ])]⟩,
  -- line 99: ijkacd,cdkb->ijab
  ⟨-1/4, [t3 [aᵥ, cᵥ, dᵥ, iₒ, jₒ, kₒ], g [cᵥ, dᵥ, kₒ, bᵥ]], [(1, [iₒ, jₒ, aᵥ, bᵥ])]⟩
  ]

/-- `UT2/wicked_T3corr.py` 103-107, `build_T3_secondO`. -/
def build_T3_secondO : Prog := [
  -- line 105: ilab,jklc->ijkabc
  ⟨-1/4, [t2 [aᵥ, bᵥ, iₒ, lₒ], g [jₒ, kₒ, lₒ, cᵥ]], [(1, [iₒ, jₒ, kₒ, aᵥ, bᵥ, cᵥ])]⟩,
  -- line 106: ijad,kdbc->ijkabc
  ⟨-1/4, [t2 [aᵥ, dᵥ, iₒ, jₒ], g [kₒ, dᵥ, bᵥ, cᵥ]], [(1, [iₒ, jₒ, kₒ, aᵥ, bᵥ, cᵥ])]⟩
  ]

/-- `UT2/wicked_T3corr.py` 109-113, `getE_squareBrackT`. -/
def getE_squareBrackT : Prog := [
  -- line 111: ijkabc,adij,bckd->
  ⟨-1/4, [t3 [aᵥ, bᵥ, cᵥ, iₒ, jₒ, kₒ], l2 [iₒ, jₒ, aᵥ, dᵥ], g [bᵥ, cᵥ, kₒ, dᵥ]], [(1, [])]⟩,
  -- line 112: ijkabc,abil,lcjk->
  ⟨-1/4, [t3 [aᵥ, bᵥ, cᵥ, iₒ, jₒ, kₒ], l2 [iₒ, lₒ, aᵥ, bᵥ], g [lₒ, cᵥ, jₒ, kₒ]], [(1, [])]⟩
  ]

/-- `UT2/wicked_T3corr.py` 115-118, `getE_parenT_t1`. -/
def getE_parenT_t1 : Prog := [
  -- line 117: ijkabc,ai,bcjk->
  ⟨1/4, [t3 [aᵥ, bᵥ, cᵥ, iₒ, jₒ, kₒ], l1 [iₒ, aᵥ], g [bᵥ, cᵥ, jₒ, kₒ]], [(1, [])]⟩
  ]

/-- `UT2/wicked_T3corr.py` 122-125, `get_netT1_fromT2`. -/
def get_netT1_fromT2 : Prog := [
  -- line 123: jkab,ibjk->ia
  ⟨-1/2, [t2 [aᵥ, bᵥ, jₒ, kₒ], g [iₒ, bᵥ, jₒ, kₒ]], [(1, [iₒ, aᵥ])]⟩,
  -- line 124: ijbc,bcja->ia
  ⟨-1/2, [t2 [bᵥ, cᵥ, iₒ, jₒ], g [bᵥ, cᵥ, jₒ, aᵥ]], [(1, [iₒ, aᵥ])]⟩
  ]

/-- `UT2/wicked_T3corr.py` 127-137, `get_netT1_thirdO`. -/
def get_netT1_thirdO : Prog := [
  -- line 129: ijab,cdjk,kbcd->ia
  ⟨-1/2, [t2 [aᵥ, bᵥ, iₒ, jₒ], t2 [cᵥ, dᵥ, jₒ, kₒ], g [kₒ, bᵥ, cᵥ, dᵥ]], [(1, [iₒ, aᵥ])]⟩,
  -- line 130: ijab,bckl,kljc->ia
  ⟨-1/2, [t2 [aᵥ, bᵥ, iₒ, jₒ], t2 [bᵥ, cᵥ, kₒ, lₒ], g [kₒ, lₒ, jₒ, cᵥ]], [(1, [iₒ, aᵥ])]⟩,
  -- line 131: jkab,cdjk,ibcd->ia
  ⟨-1/4, [t2 [aᵥ, bᵥ, jₒ, kₒ], t2 [cᵥ, dᵥ, jₒ, kₒ], g [iₒ, bᵥ, cᵥ, dᵥ]], [(1, [iₒ, aᵥ])]⟩,
  -- line 132: jkab,bcjl,ilkc->ia
  ⟨1, [t2 [aᵥ, bᵥ, jₒ, kₒ], t2 [bᵥ, cᵥ, jₒ, lₒ], g [iₒ, lₒ, kₒ, cᵥ]], [(1, [iₒ, aᵥ])]⟩,
  -- line 133: ijbc,bdjk,kcad->ia
  ⟨1, [t2 [bᵥ, cᵥ, iₒ, jₒ], t2 [bᵥ, dᵥ, jₒ, kₒ], g [kₒ, cᵥ, aᵥ, dᵥ]], [(1, [iₒ, aᵥ])]⟩,
  -- line 134: ijbc,bckl,klja->ia
  ⟨-1/4, [t2 [bᵥ, cᵥ, iₒ, jₒ], t2 [bᵥ, cᵥ, kₒ, lₒ], g [kₒ, lₒ, jₒ, aᵥ]], [(1, [iₒ, aᵥ])]⟩,
  -- line 135: jkbc,bdjk,icad->ia
  ⟨1/2, [t2 [bᵥ, cᵥ, jₒ, kₒ], t2 [bᵥ, dᵥ, jₒ, kₒ], g [iₒ, cᵥ, aᵥ, dᵥ]], [(1, [iₒ, aᵥ])]⟩,
  -- line 136: jkbc,bcjl,ilka->ia
  ⟨1/2, [t2 [bᵥ, cᵥ, jₒ, kₒ], t2 [bᵥ, cᵥ, jₒ, lₒ], g [iₒ, lₒ, kₒ, aᵥ]], [(1, [iₒ, aᵥ])]⟩
  ]

/-- `UT2/wicked_T3corr.py` 139-142, `get_T2resid_fromT1bar`. -/
def get_T2resid_fromT1bar : Prog := [
  -- line 140: ka,ijkb->ijab
  ⟨-1/2, [t1 [aᵥ, kₒ], g [iₒ, jₒ, kₒ, bᵥ]], [(1, [iₒ, jₒ, aᵥ, bᵥ])]⟩,
  -- line 141: ic,jcab->ijab
  ⟨-1/2, [t1 [cᵥ, iₒ], g [jₒ, cᵥ, aᵥ, bᵥ]], [(1, [iₒ, jₒ, aᵥ, bᵥ])]⟩
  ]

end Verif.Gen
