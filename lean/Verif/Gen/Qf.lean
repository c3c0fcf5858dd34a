import Verif.Ein.Names
import Verif.Gen.Antisym

/-! Written by `/verif/tools/gen.py`. Programs read from `/repo/UT2`. -/

set_option maxRecDepth 100000

namespace Verif.Gen

open Verif.Ein Verif.Ein.N


/-- `UT2/modify_T2resid_T4Qf1Slow.py` 33-159, `residQf1_aaaa`. -/
def residQf1 : Prog := [
  -- line 37: nmkl,kldc,dcjm,abin->abij
  ⟨-1/4, [g [nₒ, mₒ, kₒ, lₒ], l2 [kₒ, lₒ, dᵥ, cᵥ], t2 [dᵥ, cᵥ, jₒ, mₒ], t2 [aᵥ, bᵥ, iₒ, nₒ]], [(1, [aᵥ, bᵥ, iₒ, jₒ]), (-1, [aᵥ, bᵥ, jₒ, iₒ])]⟩,
  -- line 41: nmkl,kldc,dajm,cbin->abij
  ⟨1/2, [g [nₒ, mₒ, kₒ, lₒ], l2 [kₒ, lₒ, dᵥ, cᵥ], t2 [dᵥ, aᵥ, jₒ, mₒ], t2 [cᵥ, bᵥ, iₒ, nₒ]], [(1, [aᵥ, bᵥ, iₒ, jₒ]), (-1, [aᵥ, bᵥ, jₒ, iₒ])]⟩,
  -- line 45: nmjl,kldc,dckm,abin->abij
  ⟨1/2, [g [nₒ, mₒ, jₒ, lₒ], l2 [kₒ, lₒ, dᵥ, cᵥ], t2 [dᵥ, cᵥ, kₒ, mₒ], t2 [aᵥ, bᵥ, iₒ, nₒ]], [(1, [aᵥ, bᵥ, iₒ, jₒ]), (-1, [aᵥ, bᵥ, jₒ, iₒ])]⟩,
  -- line 49: nmjl,kldc,dcim,abkn->abij
  ⟨-1/2, [g [nₒ, mₒ, jₒ, lₒ], l2 [kₒ, lₒ, dᵥ, cᵥ], t2 [dᵥ, cᵥ, iₒ, mₒ], t2 [aᵥ, bᵥ, kₒ, nₒ]], [(1, [aᵥ, bᵥ, iₒ, jₒ]), (-1, [aᵥ, bᵥ, jₒ, iₒ])]⟩,
  -- line 53: nmjl,kldc,dakm,cbin->abij
  ⟨-1, [g [nₒ, mₒ, jₒ, lₒ], l2 [kₒ, lₒ, dᵥ, cᵥ], t2 [dᵥ, aᵥ, kₒ, mₒ], t2 [cᵥ, bᵥ, iₒ, nₒ]], [(1, [aᵥ, bᵥ, iₒ, jₒ]), (-1, [aᵥ, bᵥ, jₒ, iₒ])]⟩,
  -- line 57: nmjl,kldc,daim,cbkn->abij
  ⟨1, [g [nₒ, mₒ, jₒ, lₒ], l2 [kₒ, lₒ, dᵥ, cᵥ], t2 [dᵥ, aᵥ, iₒ, mₒ], t2 [cᵥ, bᵥ, kₒ, nₒ]], [(1, [aᵥ, bᵥ, iₒ, jₒ]), (-1, [aᵥ, bᵥ, jₒ, iₒ])]⟩,
  -- line 61: nmij,kldc,dclm,abkn->abij
  ⟨-1/2, [g [nₒ, mₒ, iₒ, jₒ], l2 [kₒ, lₒ, dᵥ, cᵥ], t2 [dᵥ, cᵥ, lₒ, mₒ], t2 [aᵥ, bᵥ, kₒ, nₒ]], [(1, [aᵥ, bᵥ, iₒ, jₒ])]⟩,
  -- line 64: nmij,kldc,dalm,cbkn->abij
  ⟨1/2, [g [nₒ, mₒ, iₒ, jₒ], l2 [kₒ, lₒ, dᵥ, cᵥ], t2 [dᵥ, aᵥ, lₒ, mₒ], t2 [cᵥ, bᵥ, kₒ, nₒ]], [(1, [aᵥ, bᵥ, iₒ, jₒ]), (-1, [bᵥ, aᵥ, iₒ, jₒ])]⟩,
  -- line 68: mdel,kldc,ecjk,abim->abij
  ⟨1, [g [mₒ, dᵥ, eᵥ, lₒ], l2 [kₒ, lₒ, dᵥ, cᵥ], t2 [eᵥ, cᵥ, jₒ, kₒ], t2 [aᵥ, bᵥ, iₒ, mₒ]], [(1, [aᵥ, bᵥ, iₒ, jₒ]), (-1, [aᵥ, bᵥ, jₒ, iₒ])]⟩,
  -- line 72: mdel,kldc,ecij,abkm->abij
  ⟨1, [g [mₒ, dᵥ, eᵥ, lₒ], l2 [kₒ, lₒ, dᵥ, cᵥ], t2 [eᵥ, cᵥ, iₒ, jₒ], t2 [aᵥ, bᵥ, kₒ, mₒ]], [(1, [aᵥ, bᵥ, iₒ, jₒ])]⟩,
  -- line 75: mdel,kldc,eajk,cbim->abij
  ⟨-1, [g [mₒ, dᵥ, eᵥ, lₒ], l2 [kₒ, lₒ, dᵥ, cᵥ], t2 [eᵥ, aᵥ, jₒ, kₒ], t2 [cᵥ, bᵥ, iₒ, mₒ]], [(1, [aᵥ, bᵥ, iₒ, jₒ]), (-1, [aᵥ, bᵥ, jₒ, iₒ]), (-1, [bᵥ, aᵥ, iₒ, jₒ]), (1, [bᵥ, aᵥ, jₒ, iₒ])]⟩,
  -- line 79: mdel,kldc,eaij,cbkm->abij
  ⟨-1, [g [mₒ, dᵥ, eᵥ, lₒ], l2 [kₒ, lₒ, dᵥ, cᵥ], t2 [eᵥ, aᵥ, iₒ, jₒ], t2 [cᵥ, bᵥ, kₒ, mₒ]], [(1, [aᵥ, bᵥ, iₒ, jₒ]), (-1, [bᵥ, aᵥ, iₒ, jₒ])]⟩,
  -- line 83: mdej,kldc,eckl,abim->abij
  ⟨1/2, [g [mₒ, dᵥ, eᵥ, jₒ], l2 [kₒ, lₒ, dᵥ, cᵥ], t2 [eᵥ, cᵥ, kₒ, lₒ], t2 [aᵥ, bᵥ, iₒ, mₒ]], [(1, [aᵥ, bᵥ, iₒ, jₒ]), (-1, [aᵥ, bᵥ, jₒ, iₒ])]⟩,
  -- line 87: mdej,kldc,ecil,abkm->abij
  ⟨-1, [g [mₒ, dᵥ, eᵥ, jₒ], l2 [kₒ, lₒ, dᵥ, cᵥ], t2 [eᵥ, cᵥ, iₒ, lₒ], t2 [aᵥ, bᵥ, kₒ, mₒ]], [(1, [aᵥ, bᵥ, iₒ, jₒ]), (-1, [aᵥ, bᵥ, jₒ, iₒ])]⟩,
  -- line 91: mdej,kldc,eakl,cbim->abij
  ⟨-1/2, [g [mₒ, dᵥ, eᵥ, jₒ], l2 [kₒ, lₒ, dᵥ, cᵥ], t2 [eᵥ, aᵥ, kₒ, lₒ], t2 [cᵥ, bᵥ, iₒ, mₒ]], [(1, [aᵥ, bᵥ, iₒ, jₒ]), (-1, [aᵥ, bᵥ, jₒ, iₒ]), (-1, [bᵥ, aᵥ, iₒ, jₒ]), (1, [bᵥ, aᵥ, jₒ, iₒ])]⟩,
  -- line 95: mdej,kldc,eail,cbkm->abij
  ⟨1, [g [mₒ, dᵥ, eᵥ, jₒ], l2 [kₒ, lₒ, dᵥ, cᵥ], t2 [eᵥ, aᵥ, iₒ, lₒ], t2 [cᵥ, bᵥ, kₒ, mₒ]], [(1, [aᵥ, bᵥ, iₒ, jₒ]), (-1, [aᵥ, bᵥ, jₒ, iₒ]), (-1, [bᵥ, aᵥ, iₒ, jₒ]), (1, [bᵥ, aᵥ, jₒ, iₒ])]⟩,
  -- line 99: mael,kldc,edjk,cbim->abij
  ⟨1, [g [mₒ, aᵥ, eᵥ, lₒ], l2 [kₒ, lₒ, dᵥ, cᵥ], t2 [eᵥ, dᵥ, jₒ, kₒ], t2 [cᵥ, bᵥ, iₒ, mₒ]], [(1, [aᵥ, bᵥ, iₒ, jₒ]), (-1, [aᵥ, bᵥ, jₒ, iₒ]), (-1, [bᵥ, aᵥ, iₒ, jₒ]), (1, [bᵥ, aᵥ, jₒ, iₒ])]⟩,
  -- line 103: mael,kldc,edij,cbkm->abij
  ⟨1, [g [mₒ, aᵥ, eᵥ, lₒ], l2 [kₒ, lₒ, dᵥ, cᵥ], t2 [eᵥ, dᵥ, iₒ, jₒ], t2 [cᵥ, bᵥ, kₒ, mₒ]], [(1, [aᵥ, bᵥ, iₒ, jₒ]), (-1, [bᵥ, aᵥ, iₒ, jₒ])]⟩,
  -- line 107: mael,kldc,ebjk,dcim->abij
  ⟨1/2, [g [mₒ, aᵥ, eᵥ, lₒ], l2 [kₒ, lₒ, dᵥ, cᵥ], t2 [eᵥ, bᵥ, jₒ, kₒ], t2 [dᵥ, cᵥ, iₒ, mₒ]], [(1, [aᵥ, bᵥ, iₒ, jₒ]), (-1, [aᵥ, bᵥ, jₒ, iₒ]), (-1, [bᵥ, aᵥ, iₒ, jₒ]), (1, [bᵥ, aᵥ, jₒ, iₒ])]⟩,
  -- line 111: mael,kldc,ebij,dckm->abij
  ⟨1/2, [g [mₒ, aᵥ, eᵥ, lₒ], l2 [kₒ, lₒ, dᵥ, cᵥ], t2 [eᵥ, bᵥ, iₒ, jₒ], t2 [dᵥ, cᵥ, kₒ, mₒ]], [(1, [aᵥ, bᵥ, iₒ, jₒ]), (-1, [bᵥ, aᵥ, iₒ, jₒ])]⟩,
  -- line 115: maej,kldc,edkl,cbim->abij
  ⟨1/2, [g [mₒ, aᵥ, eᵥ, jₒ], l2 [kₒ, lₒ, dᵥ, cᵥ], t2 [eᵥ, dᵥ, kₒ, lₒ], t2 [cᵥ, bᵥ, iₒ, mₒ]], [(1, [aᵥ, bᵥ, iₒ, jₒ]), (-1, [aᵥ, bᵥ, jₒ, iₒ]), (-1, [bᵥ, aᵥ, iₒ, jₒ]), (1, [bᵥ, aᵥ, jₒ, iₒ])]⟩,
  -- line 119: maej,kldc,edil,cbkm->abij
  ⟨-1, [g [mₒ, aᵥ, eᵥ, jₒ], l2 [kₒ, lₒ, dᵥ, cᵥ], t2 [eᵥ, dᵥ, iₒ, lₒ], t2 [cᵥ, bᵥ, kₒ, mₒ]], [(1, [aᵥ, bᵥ, iₒ, jₒ]), (-1, [aᵥ, bᵥ, jₒ, iₒ]), (-1, [bᵥ, aᵥ, iₒ, jₒ]), (1, [bᵥ, aᵥ, jₒ, iₒ])]⟩,
  -- line 123: maej,kldc,ebkl,dcim->abij
  ⟨1/4, [g [mₒ, aᵥ, eᵥ, jₒ], l2 [kₒ, lₒ, dᵥ, cᵥ], t2 [eᵥ, bᵥ, kₒ, lₒ], t2 [dᵥ, cᵥ, iₒ, mₒ]], [(1, [aᵥ, bᵥ, iₒ, jₒ]), (-1, [aᵥ, bᵥ, jₒ, iₒ]), (-1, [bᵥ, aᵥ, iₒ, jₒ]), (1, [bᵥ, aᵥ, jₒ, iₒ])]⟩,
  -- line 127: maej,kldc,ebil,dckm->abij
  ⟨-1/2, [g [mₒ, aᵥ, eᵥ, jₒ], l2 [kₒ, lₒ, dᵥ, cᵥ], t2 [eᵥ, bᵥ, iₒ, lₒ], t2 [dᵥ, cᵥ, kₒ, mₒ]], [(1, [aᵥ, bᵥ, iₒ, jₒ]), (-1, [aᵥ, bᵥ, jₒ, iₒ]), (-1, [bᵥ, aᵥ, iₒ, jₒ]), (1, [bᵥ, aᵥ, jₒ, iₒ])]⟩,
  -- line 131: dcef,kldc,eakl,fbij->abij
  ⟨-1/4, [g [dᵥ, cᵥ, eᵥ, fᵥ], l2 [kₒ, lₒ, dᵥ, cᵥ], t2 [eᵥ, aᵥ, kₒ, lₒ], t2 [fᵥ, bᵥ, iₒ, jₒ]], [(1, [aᵥ, bᵥ, iₒ, jₒ])]⟩,
  -- line 134: dcef,kldc,eajl,fbik->abij
  ⟨1/2, [g [dᵥ, cᵥ, eᵥ, fᵥ], l2 [kₒ, lₒ, dᵥ, cᵥ], t2 [eᵥ, aᵥ, jₒ, lₒ], t2 [fᵥ, bᵥ, iₒ, kₒ]], [(1, [aᵥ, bᵥ, iₒ, jₒ]), (-1, [aᵥ, bᵥ, jₒ, iₒ])]⟩,
  -- line 138: dcef,kldc,eaij,fbkl->abij
  ⟨-1/4, [g [dᵥ, cᵥ, eᵥ, fᵥ], l2 [kₒ, lₒ, dᵥ, cᵥ], t2 [eᵥ, aᵥ, iₒ, jₒ], t2 [fᵥ, bᵥ, kₒ, lₒ]], [(1, [aᵥ, bᵥ, iₒ, jₒ])]⟩,
  -- line 141: daef,kldc,eckl,fbij->abij
  ⟨1/2, [g [dᵥ, aᵥ, eᵥ, fᵥ], l2 [kₒ, lₒ, dᵥ, cᵥ], t2 [eᵥ, cᵥ, kₒ, lₒ], t2 [fᵥ, bᵥ, iₒ, jₒ]], [(1, [aᵥ, bᵥ, iₒ, jₒ]), (-1, [bᵥ, aᵥ, iₒ, jₒ])]⟩,
  -- line 145: daef,kldc,ecjl,fbik->abij
  ⟨-1, [g [dᵥ, aᵥ, eᵥ, fᵥ], l2 [kₒ, lₒ, dᵥ, cᵥ], t2 [eᵥ, cᵥ, jₒ, lₒ], t2 [fᵥ, bᵥ, iₒ, kₒ]], [(1, [aᵥ, bᵥ, iₒ, jₒ]), (-1, [aᵥ, bᵥ, jₒ, iₒ]), (-1, [bᵥ, aᵥ, iₒ, jₒ]), (1, [bᵥ, aᵥ, jₒ, iₒ])]⟩,
  -- line 149: daef,kldc,ecij,fbkl->abij
  ⟨1/2, [g [dᵥ, aᵥ, eᵥ, fᵥ], l2 [kₒ, lₒ, dᵥ, cᵥ], t2 [eᵥ, cᵥ, iₒ, jₒ], t2 [fᵥ, bᵥ, kₒ, lₒ]], [(1, [aᵥ, bᵥ, iₒ, jₒ]), (-1, [bᵥ, aᵥ, iₒ, jₒ])]⟩,
  -- line 153: abef,kldc,edkl,fcij->abij
  ⟨-1/2, [g [aᵥ, bᵥ, eᵥ, fᵥ], l2 [kₒ, lₒ, dᵥ, cᵥ], t2 [eᵥ, dᵥ, kₒ, lₒ], t2 [fᵥ, cᵥ, iₒ, jₒ]], [(1, [aᵥ, bᵥ, iₒ, jₒ])]⟩,
  -- line 156: abef,kldc,edjl,fcik->abij
  ⟨1/2, [g [aᵥ, bᵥ, eᵥ, fᵥ], l2 [kₒ, lₒ, dᵥ, cᵥ], t2 [eᵥ, dᵥ, jₒ, lₒ], t2 [fᵥ, cᵥ, iₒ, kₒ]], [(1, [aᵥ, bᵥ, iₒ, jₒ]), (-1, [aᵥ, bᵥ, jₒ, iₒ])]⟩
  ]

/-- Part 0 of `residQf2`. -/
def residQf2_0 : Prog := [
  -- line 8: nmef,kldc,efkl,dcjm,abin->abij
  ⟨-1/8, [g [nₒ, mₒ, eᵥ, fᵥ], l2 [kₒ, lₒ, dᵥ, cᵥ], t2 [eᵥ, fᵥ, kₒ, lₒ], t2 [dᵥ, cᵥ, jₒ, mₒ], t2 [aᵥ, bᵥ, iₒ, nₒ]], [(1, [aᵥ, bᵥ, iₒ, jₒ]), (-1, [aᵥ, bᵥ, jₒ, iₒ])]⟩,
  -- line 12: nmef,kldc,efkl,dajm,cbin->abij
  ⟨1/4, [g [nₒ, mₒ, eᵥ, fᵥ], l2 [kₒ, lₒ, dᵥ, cᵥ], t2 [eᵥ, fᵥ, kₒ, lₒ], t2 [dᵥ, aᵥ, jₒ, mₒ], t2 [cᵥ, bᵥ, iₒ, nₒ]], [(1, [aᵥ, bᵥ, iₒ, jₒ]), (-1, [aᵥ, bᵥ, jₒ, iₒ])]⟩,
  -- line 16: nmef,kldc,efjl,dckm,abin->abij
  ⟨1/4, [g [nₒ, mₒ, eᵥ, fᵥ], l2 [kₒ, lₒ, dᵥ, cᵥ], t2 [eᵥ, fᵥ, jₒ, lₒ], t2 [dᵥ, cᵥ, kₒ, mₒ], t2 [aᵥ, bᵥ, iₒ, nₒ]], [(1, [aᵥ, bᵥ, iₒ, jₒ]), (-1, [aᵥ, bᵥ, jₒ, iₒ])]⟩,
  -- line 20: nmef,kldc,efjl,dcim,abkn->abij
  ⟨-1/4, [g [nₒ, mₒ, eᵥ, fᵥ], l2 [kₒ, lₒ, dᵥ, cᵥ], t2 [eᵥ, fᵥ, jₒ, lₒ], t2 [dᵥ, cᵥ, iₒ, mₒ], t2 [aᵥ, bᵥ, kₒ, nₒ]], [(1, [aᵥ, bᵥ, iₒ, jₒ]), (-1, [aᵥ, bᵥ, jₒ, iₒ])]⟩,
  -- line 24: nmef,kldc,efjl,dakm,cbin->abij
  ⟨-1/2, [g [nₒ, mₒ, eᵥ, fᵥ], l2 [kₒ, lₒ, dᵥ, cᵥ], t2 [eᵥ, fᵥ, jₒ, lₒ], t2 [dᵥ, aᵥ, kₒ, mₒ], t2 [cᵥ, bᵥ, iₒ, nₒ]], [(1, [aᵥ, bᵥ, iₒ, jₒ]), (-1, [aᵥ, bᵥ, jₒ, iₒ])]⟩,
  -- line 28: nmef,kldc,efjl,daim,cbkn->abij
  ⟨1/2, [g [nₒ, mₒ, eᵥ, fᵥ], l2 [kₒ, lₒ, dᵥ, cᵥ], t2 [eᵥ, fᵥ, jₒ, lₒ], t2 [dᵥ, aᵥ, iₒ, mₒ], t2 [cᵥ, bᵥ, kₒ, nₒ]], [(1, [aᵥ, bᵥ, iₒ, jₒ]), (-1, [aᵥ, bᵥ, jₒ, iₒ])]⟩,
  -- line 32: nmef,kldc,efij,dclm,abkn->abij
  ⟨-1/4, [g [nₒ, mₒ, eᵥ, fᵥ], l2 [kₒ, lₒ, dᵥ, cᵥ], t2 [eᵥ, fᵥ, iₒ, jₒ], t2 [dᵥ, cᵥ, lₒ, mₒ], t2 [aᵥ, bᵥ, kₒ, nₒ]], [(1, [aᵥ, bᵥ, iₒ, jₒ])]⟩,
  -- line 35: nmef,kldc,efij,dalm,cbkn->abij
  ⟨1/4, [g [nₒ, mₒ, eᵥ, fᵥ], l2 [kₒ, lₒ, dᵥ, cᵥ], t2 [eᵥ, fᵥ, iₒ, jₒ], t2 [dᵥ, aᵥ, lₒ, mₒ], t2 [cᵥ, bᵥ, kₒ, nₒ]], [(1, [aᵥ, bᵥ, iₒ, jₒ]), (-1, [bᵥ, aᵥ, iₒ, jₒ])]⟩,
  -- line 39: nmef,kldc,edlm,fcjk,abin->abij
  ⟨1/2, [g [nₒ, mₒ, eᵥ, fᵥ], l2 [kₒ, lₒ, dᵥ, cᵥ], t2 [eᵥ, dᵥ, lₒ, mₒ], t2 [fᵥ, cᵥ, jₒ, kₒ], t2 [aᵥ, bᵥ, iₒ, nₒ]], [(1, [aᵥ, bᵥ, iₒ, jₒ]), (-1, [aᵥ, bᵥ, jₒ, iₒ])]⟩,
  -- line 43: nmef,kldc,edlm,fcij,abkn->abij
  ⟨1, [g [nₒ, mₒ, eᵥ, fᵥ], l2 [kₒ, lₒ, dᵥ, cᵥ], t2 [eᵥ, dᵥ, lₒ, mₒ], t2 [fᵥ, cᵥ, iₒ, jₒ], t2 [aᵥ, bᵥ, kₒ, nₒ]], [(1, [aᵥ, bᵥ, iₒ, jₒ])]⟩,
  -- line 46: nmef,kldc,edlm,fajk,cbin->abij
  ⟨-3/4, [g [nₒ, mₒ, eᵥ, fᵥ], l2 [kₒ, lₒ, dᵥ, cᵥ], t2 [eᵥ, dᵥ, lₒ, mₒ], t2 [fᵥ, aᵥ, jₒ, kₒ], t2 [cᵥ, bᵥ, iₒ, nₒ]], [(1, [aᵥ, bᵥ, iₒ, jₒ]), (-1, [aᵥ, bᵥ, jₒ, iₒ]), (-1, [bᵥ, aᵥ, iₒ, jₒ]), (1, [bᵥ, aᵥ, jₒ, iₒ])]⟩,
  -- line 50: nmef,kldc,edlm,faij,cbkn->abij
  ⟨-1, [g [nₒ, mₒ, eᵥ, fᵥ], l2 [kₒ, lₒ, dᵥ, cᵥ], t2 [eᵥ, dᵥ, lₒ, mₒ], t2 [fᵥ, aᵥ, iₒ, jₒ], t2 [cᵥ, bᵥ, kₒ, nₒ]], [(1, [aᵥ, bᵥ, iₒ, jₒ]), (-1, [bᵥ, aᵥ, iₒ, jₒ])]⟩,
  -- line 54: nmef,kldc,edjm,fckl,abin->abij
  ⟨1/2, [g [nₒ, mₒ, eᵥ, fᵥ], l2 [kₒ, lₒ, dᵥ, cᵥ], t2 [eᵥ, dᵥ, jₒ, mₒ], t2 [fᵥ, cᵥ, kₒ, lₒ], t2 [aᵥ, bᵥ, iₒ, nₒ]], [(1, [aᵥ, bᵥ, iₒ, jₒ]), (-1, [aᵥ, bᵥ, jₒ, iₒ])]⟩,
  -- line 58: nmef,kldc,edjm,fcil,abkn->abij
  ⟨-1, [g [nₒ, mₒ, eᵥ, fᵥ], l2 [kₒ, lₒ, dᵥ, cᵥ], t2 [eᵥ, dᵥ, jₒ, mₒ], t2 [fᵥ, cᵥ, iₒ, lₒ], t2 [aᵥ, bᵥ, kₒ, nₒ]], [(1, [aᵥ, bᵥ, iₒ, jₒ]), (-1, [aᵥ, bᵥ, jₒ, iₒ])]⟩,
  -- line 62: nmef,kldc,edjm,fakl,cbin->abij
  ⟨-1/2, [g [nₒ, mₒ, eᵥ, fᵥ], l2 [kₒ, lₒ, dᵥ, cᵥ], t2 [eᵥ, dᵥ, jₒ, mₒ], t2 [fᵥ, aᵥ, kₒ, lₒ], t2 [cᵥ, bᵥ, iₒ, nₒ]], [(1, [aᵥ, bᵥ, iₒ, jₒ]), (-1, [aᵥ, bᵥ, jₒ, iₒ]), (-1, [bᵥ, aᵥ, iₒ, jₒ]), (1, [bᵥ, aᵥ, jₒ, iₒ])]⟩,
  -- line 66: nmef,kldc,edjm,fail,cbkn->abij
  ⟨1, [g [nₒ, mₒ, eᵥ, fᵥ], l2 [kₒ, lₒ, dᵥ, cᵥ], t2 [eᵥ, dᵥ, jₒ, mₒ], t2 [fᵥ, aᵥ, iₒ, lₒ], t2 [cᵥ, bᵥ, kₒ, nₒ]], [(1, [aᵥ, bᵥ, iₒ, jₒ]), (-1, [aᵥ, bᵥ, jₒ, iₒ]), (-1, [bᵥ, aᵥ, iₒ, jₒ]), (1, [bᵥ, aᵥ, jₒ, iₒ])]⟩,
  -- line 70: nmef,kldc,edkl,fcij,abnm->abij
  ⟨-1/4, [g [nₒ, mₒ, eᵥ, fᵥ], l2 [kₒ, lₒ, dᵥ, cᵥ], t2 [eᵥ, dᵥ, kₒ, lₒ], t2 [fᵥ, cᵥ, iₒ, jₒ], t2 [aᵥ, bᵥ, nₒ, mₒ]], [(1, [aᵥ, bᵥ, iₒ, jₒ])]⟩,
  -- line 73: nmef,kldc,edkl,fajm,cbin->abij
  ⟨-1/2, [g [nₒ, mₒ, eᵥ, fᵥ], l2 [kₒ, lₒ, dᵥ, cᵥ], t2 [eᵥ, dᵥ, kₒ, lₒ], t2 [fᵥ, aᵥ, jₒ, mₒ], t2 [cᵥ, bᵥ, iₒ, nₒ]], [(1, [aᵥ, bᵥ, iₒ, jₒ]), (-1, [aᵥ, bᵥ, jₒ, iₒ]), (-1, [bᵥ, aᵥ, iₒ, jₒ]), (1, [bᵥ, aᵥ, jₒ, iₒ])]⟩,
  -- line 77: nmef,kldc,edkl,faij,cbnm->abij
  ⟨1/4, [g [nₒ, mₒ, eᵥ, fᵥ], l2 [kₒ, lₒ, dᵥ, cᵥ], t2 [eᵥ, dᵥ, kₒ, lₒ], t2 [fᵥ, aᵥ, iₒ, jₒ], t2 [cᵥ, bᵥ, nₒ, mₒ]], [(1, [aᵥ, bᵥ, iₒ, jₒ]), (-1, [bᵥ, aᵥ, iₒ, jₒ])]⟩,
  -- line 81: nmef,kldc,edjl,fckm,abin->abij
  ⟨-1/2, [g [nₒ, mₒ, eᵥ, fᵥ], l2 [kₒ, lₒ, dᵥ, cᵥ], t2 [eᵥ, dᵥ, jₒ, lₒ], t2 [fᵥ, cᵥ, kₒ, mₒ], t2 [aᵥ, bᵥ, iₒ, nₒ]], [(1, [aᵥ, bᵥ, iₒ, jₒ]), (-1, [aᵥ, bᵥ, jₒ, iₒ])]⟩,
  -- line 85: nmef,kldc,edjl,fcik,abnm->abij
  ⟨1/4, [g [nₒ, mₒ, eᵥ, fᵥ], l2 [kₒ, lₒ, dᵥ, cᵥ], t2 [eᵥ, dᵥ, jₒ, lₒ], t2 [fᵥ, cᵥ, iₒ, kₒ], t2 [aᵥ, bᵥ, nₒ, mₒ]], [(1, [aᵥ, bᵥ, iₒ, jₒ]), (-1, [aᵥ, bᵥ, jₒ, iₒ])]⟩,
  -- line 89: nmef,kldc,edjl,fakm,cbin->abij
  ⟨91666666666667/100000000000000, [g [nₒ, mₒ, eᵥ, fᵥ], l2 [kₒ, lₒ, dᵥ, cᵥ], t2 [eᵥ, dᵥ, jₒ, lₒ], t2 [fᵥ, aᵥ, kₒ, mₒ], t2 [cᵥ, bᵥ, iₒ, nₒ]], [(1, [aᵥ, bᵥ, iₒ, jₒ]), (-1, [aᵥ, bᵥ, jₒ, iₒ]), (-1, [bᵥ, aᵥ, iₒ, jₒ]), (1, [bᵥ, aᵥ, jₒ, iₒ])]⟩,
  -- line 93: nmef,kldc,edjl,faim,cbkn->abij
  ⟨-1, [g [nₒ, mₒ, eᵥ, fᵥ], l2 [kₒ, lₒ, dᵥ, cᵥ], t2 [eᵥ, dᵥ, jₒ, lₒ], t2 [fᵥ, aᵥ, iₒ, mₒ], t2 [cᵥ, bᵥ, kₒ, nₒ]], [(1, [aᵥ, bᵥ, iₒ, jₒ]), (-1, [aᵥ, bᵥ, jₒ, iₒ]), (-1, [bᵥ, aᵥ, iₒ, jₒ]), (1, [bᵥ, aᵥ, jₒ, iₒ])]⟩,
  -- line 97: nmef,kldc,edjl,faik,cbnm->abij
  ⟨-1/2, [g [nₒ, mₒ, eᵥ, fᵥ], l2 [kₒ, lₒ, dᵥ, cᵥ], t2 [eᵥ, dᵥ, jₒ, lₒ], t2 [fᵥ, aᵥ, iₒ, kₒ], t2 [cᵥ, bᵥ, nₒ, mₒ]], [(1, [aᵥ, bᵥ, iₒ, jₒ]), (-1, [aᵥ, bᵥ, jₒ, iₒ]), (-1, [bᵥ, aᵥ, iₒ, jₒ]), (1, [bᵥ, aᵥ, jₒ, iₒ])]⟩,
  -- line 101: nmef,kldc,edij,falm,cbkn->abij
  ⟨-1, [g [nₒ, mₒ, eᵥ, fᵥ], l2 [kₒ, lₒ, dᵥ, cᵥ], t2 [eᵥ, dᵥ, iₒ, jₒ], t2 [fᵥ, aᵥ, lₒ, mₒ], t2 [cᵥ, bᵥ, kₒ, nₒ]], [(1, [aᵥ, bᵥ, iₒ, jₒ]), (-1, [bᵥ, aᵥ, iₒ, jₒ])]⟩,
  -- line 105: nmef,kldc,edij,fakl,cbnm->abij
  ⟨1/4, [g [nₒ, mₒ, eᵥ, fᵥ], l2 [kₒ, lₒ, dᵥ, cᵥ], t2 [eᵥ, dᵥ, iₒ, jₒ], t2 [fᵥ, aᵥ, kₒ, lₒ], t2 [cᵥ, bᵥ, nₒ, mₒ]], [(1, [aᵥ, bᵥ, iₒ, jₒ]), (-1, [bᵥ, aᵥ, iₒ, jₒ])]⟩,
  -- line 109: nmef,kldc,ealm,fbjk,dcin->abij
  ⟨1/2, [g [nₒ, mₒ, eᵥ, fᵥ], l2 [kₒ, lₒ, dᵥ, cᵥ], t2 [eᵥ, aᵥ, lₒ, mₒ], t2 [fᵥ, bᵥ, jₒ, kₒ], t2 [dᵥ, cᵥ, iₒ, nₒ]], [(1, [aᵥ, bᵥ, iₒ, jₒ]), (-1, [aᵥ, bᵥ, jₒ, iₒ])]⟩,
  -- line 113: nmef,kldc,ealm,fbij,dckn->abij
  ⟨3/8, [g [nₒ, mₒ, eᵥ, fᵥ], l2 [kₒ, lₒ, dᵥ, cᵥ], t2 [eᵥ, aᵥ, lₒ, mₒ], t2 [fᵥ, bᵥ, iₒ, jₒ], t2 [dᵥ, cᵥ, kₒ, nₒ]], [(1, [aᵥ, bᵥ, iₒ, jₒ])]⟩,
  -- line 116: nmef,kldc,eajm,fbkl,dcin->abij
  ⟨1/4, [g [nₒ, mₒ, eᵥ, fᵥ], l2 [kₒ, lₒ, dᵥ, cᵥ], t2 [eᵥ, aᵥ, jₒ, mₒ], t2 [fᵥ, bᵥ, kₒ, lₒ], t2 [dᵥ, cᵥ, iₒ, nₒ]], [(1, [aᵥ, bᵥ, iₒ, jₒ]), (-1, [aᵥ, bᵥ, jₒ, iₒ])]⟩,
  -- line 120: nmef,kldc,eajm,fbil,dckn->abij
  ⟨-3/8, [g [nₒ, mₒ, eᵥ, fᵥ], l2 [kₒ, lₒ, dᵥ, cᵥ], t2 [eᵥ, aᵥ, jₒ, mₒ], t2 [fᵥ, bᵥ, iₒ, lₒ], t2 [dᵥ, cᵥ, kₒ, nₒ]], [(1, [aᵥ, bᵥ, iₒ, jₒ]), (-1, [aᵥ, bᵥ, jₒ, iₒ])]⟩,
  -- line 124: nmef,kldc,eakl,fbjm,dcin->abij
  ⟨1/4, [g [nₒ, mₒ, eᵥ, fᵥ], l2 [kₒ, lₒ, dᵥ, cᵥ], t2 [eᵥ, aᵥ, kₒ, lₒ], t2 [fᵥ, bᵥ, jₒ, mₒ], t2 [dᵥ, cᵥ, iₒ, nₒ]], [(1, [aᵥ, bᵥ, iₒ, jₒ]), (-1, [aᵥ, bᵥ, jₒ, iₒ])]⟩,
  -- line 128: nmef,kldc,eakl,fbij,dcnm->abij
  ⟨-1/8, [g [nₒ, mₒ, eᵥ, fᵥ], l2 [kₒ, lₒ, dᵥ, cᵥ], t2 [eᵥ, aᵥ, kₒ, lₒ], t2 [fᵥ, bᵥ, iₒ, jₒ], t2 [dᵥ, cᵥ, nₒ, mₒ]], [(1, [aᵥ, bᵥ, iₒ, jₒ])]⟩,
  -- line 131: nmef,kldc,eajl,fbkm,dcin->abij
  ⟨-1/2, [g [nₒ, mₒ, eᵥ, fᵥ], l2 [kₒ, lₒ, dᵥ, cᵥ], t2 [eᵥ, aᵥ, jₒ, lₒ], t2 [fᵥ, bᵥ, kₒ, mₒ], t2 [dᵥ, cᵥ, iₒ, nₒ]], [(1, [aᵥ, bᵥ, iₒ, jₒ]), (-1, [aᵥ, bᵥ, jₒ, iₒ])]⟩,
  -- line 135: nmef,kldc,eajl,fbim,dckn->abij
  ⟨1/2, [g [nₒ, mₒ, eᵥ, fᵥ], l2 [kₒ, lₒ, dᵥ, cᵥ], t2 [eᵥ, aᵥ, jₒ, lₒ], t2 [fᵥ, bᵥ, iₒ, mₒ], t2 [dᵥ, cᵥ, kₒ, nₒ]], [(1, [aᵥ, bᵥ, iₒ, jₒ]), (-1, [aᵥ, bᵥ, jₒ, iₒ])]⟩,
  -- line 139: nmef,kldc,eajl,fbik,dcnm->abij
  ⟨1/4, [g [nₒ, mₒ, eᵥ, fᵥ], l2 [kₒ, lₒ, dᵥ, cᵥ], t2 [eᵥ, aᵥ, jₒ, lₒ], t2 [fᵥ, bᵥ, iₒ, kₒ], t2 [dᵥ, cᵥ, nₒ, mₒ]], [(1, [aᵥ, bᵥ, iₒ, jₒ]), (-1, [aᵥ, bᵥ, jₒ, iₒ])]⟩,
  -- line 143: nmef,kldc,eajk,dbim,fcln->abij
  ⟨1/4, [g [nₒ, mₒ, eᵥ, fᵥ], l2 [kₒ, lₒ, dᵥ, cᵥ], t2 [eᵥ, aᵥ, jₒ, kₒ], t2 [dᵥ, bᵥ, iₒ, mₒ], t2 [fᵥ, cᵥ, lₒ, nₒ]], [(1, [aᵥ, bᵥ, iₒ, jₒ]), (-1, [aᵥ, bᵥ, jₒ, iₒ]), (-1, [bᵥ, aᵥ, iₒ, jₒ]), (1, [bᵥ, aᵥ, jₒ, iₒ])]⟩,
  -- line 147: nmef,kldc,eaij,fblm,dckn->abij
  ⟨1/2, [g [nₒ, mₒ, eᵥ, fᵥ], l2 [kₒ, lₒ, dᵥ, cᵥ], t2 [eᵥ, aᵥ, iₒ, jₒ], t2 [fᵥ, bᵥ, lₒ, mₒ], t2 [dᵥ, cᵥ, kₒ, nₒ]], [(1, [aᵥ, bᵥ, iₒ, jₒ])]⟩,
  -- line 150: nmef,kldc,eaij,fbkl,dcnm->abij
  ⟨-1/8, [g [nₒ, mₒ, eᵥ, fᵥ], l2 [kₒ, lₒ, dᵥ, cᵥ], t2 [eᵥ, aᵥ, iₒ, jₒ], t2 [fᵥ, bᵥ, kₒ, lₒ], t2 [dᵥ, cᵥ, nₒ, mₒ]], [(1, [aᵥ, bᵥ, iₒ, jₒ])]⟩,
  -- line 153: nmef,kldc,ebjk,dclm,fain->abij
  ⟨-1/8, [g [nₒ, mₒ, eᵥ, fᵥ], l2 [kₒ, lₒ, dᵥ, cᵥ], t2 [eᵥ, bᵥ, jₒ, kₒ], t2 [dᵥ, cᵥ, lₒ, mₒ], t2 [fᵥ, aᵥ, iₒ, nₒ]], [(1, [aᵥ, bᵥ, iₒ, jₒ]), (-1, [aᵥ, bᵥ, jₒ, iₒ])]⟩,
  -- line 157: nmef,kldc,ebij,dclm,fakn->abij
  ⟨-1/8, [g [nₒ, mₒ, eᵥ, fᵥ], l2 [kₒ, lₒ, dᵥ, cᵥ], t2 [eᵥ, bᵥ, iₒ, jₒ], t2 [dᵥ, cᵥ, lₒ, mₒ], t2 [fᵥ, aᵥ, kₒ, nₒ]], [(1, [aᵥ, bᵥ, iₒ, jₒ])]⟩
  ]

/-- Part 1 of `residQf2`. -/
def residQf2_1 : Prog := [
  -- line 160: nmef,kldc,dajm,ebkn,fcil->abij
  ⟨-8333333333333/100000000000000, [g [nₒ, mₒ, eᵥ, fᵥ], l2 [kₒ, lₒ, dᵥ, cᵥ], t2 [dᵥ, aᵥ, jₒ, mₒ], t2 [eᵥ, bᵥ, kₒ, nₒ], t2 [fᵥ, cᵥ, iₒ, lₒ]], [(1, [aᵥ, bᵥ, iₒ, jₒ]), (-1, [aᵥ, bᵥ, jₒ, iₒ]), (-1, [bᵥ, aᵥ, iₒ, jₒ]), (1, [bᵥ, aᵥ, jₒ, iₒ])]⟩
  ]

/-- `UT2/modify_T2resid_T4Qf2Slow.py` 6-164, `residQf2_aaaa`. -/
def residQf2 : Prog := residQf2_0 ++ (residQf2_1)

/-- `UT2/modify_T2resid_T4Qf1Slow.py` 5-18, `unsym_residQf1`. -/
def unsym_residQf1 : Prog := [
  -- line 12: imab,jncd,klmn
  ⟨-1/16, [t2 [aᵥ, bᵥ, iₒ, mₒ], t2 [cᵥ, dᵥ, jₒ, nₒ], g [kₒ, lₒ, mₒ, nₒ]], [(1, [aᵥ, bᵥ, cᵥ, dᵥ, iₒ, jₒ, kₒ, lₒ])]⟩,
  -- line 14: imab,jkce,lemd
  ⟨-1/4, [t2 [aᵥ, bᵥ, iₒ, mₒ], t2 [cᵥ, eᵥ, jₒ, kₒ], g [lₒ, eᵥ, mₒ, dᵥ]], [(1, [aᵥ, bᵥ, cᵥ, dᵥ, iₒ, jₒ, kₒ, lₒ])]⟩,
  -- line 15: ijae,klbf,efcd
  ⟨-1/16, [t2 [aᵥ, eᵥ, iₒ, jₒ], t2 [bᵥ, fᵥ, kₒ, lₒ], g [eᵥ, fᵥ, cᵥ, dᵥ]], [(1, [aᵥ, bᵥ, cᵥ, dᵥ, iₒ, jₒ, kₒ, lₒ])]⟩
  ]

/-- `UT2/modify_T2resid_T4Qf1Slow.py` 21-30, `unsym_residQf2`. -/
def unsym_residQf2 : Prog := [
  -- line 27: imab,jncd,klef,efmn
  ⟨-1/32, [t2 [aᵥ, bᵥ, iₒ, mₒ], t2 [cᵥ, dᵥ, jₒ, nₒ], t2 [eᵥ, fᵥ, kₒ, lₒ], g [eᵥ, fᵥ, mₒ, nₒ]], [(1, [aᵥ, bᵥ, cᵥ, dᵥ, iₒ, jₒ, kₒ, lₒ])]⟩,
  -- line 28: imab,jkce,lndf,efmn
  ⟨1/4, [t2 [aᵥ, bᵥ, iₒ, mₒ], t2 [cᵥ, eᵥ, jₒ, kₒ], t2 [dᵥ, fᵥ, lₒ, nₒ], g [eᵥ, fᵥ, mₒ, nₒ]], [(1, [aᵥ, bᵥ, cᵥ, dᵥ, iₒ, jₒ, kₒ, lₒ])]⟩,
  -- line 29: mnab,ijce,kldf,efmn
  ⟨-1/32, [t2 [aᵥ, bᵥ, mₒ, nₒ], t2 [cᵥ, eᵥ, iₒ, jₒ], t2 [dᵥ, fᵥ, kₒ, lₒ], g [eᵥ, fᵥ, mₒ, nₒ]], [(1, [aᵥ, bᵥ, cᵥ, dᵥ, iₒ, jₒ, kₒ, lₒ])]⟩
  ]

/-- `UT2/modify_T2energy_pertQfSlow.py` 4-103, `energy_pertQf`. -/
def energy_pertQf : Prog := [
  -- line 8: nmkl,ijba,kldc,dcjm,bain
  ⟨-1/8, [g [nₒ, mₒ, kₒ, lₒ], l2 [iₒ, jₒ, bᵥ, aᵥ], l2 [kₒ, lₒ, dᵥ, cᵥ], t2 [dᵥ, cᵥ, jₒ, mₒ], t2 [bᵥ, aᵥ, iₒ, nₒ]], [(1, [])]⟩,
  -- line 11: nmkl,ijba,kldc,dbjm,cain
  ⟨1/4, [g [nₒ, mₒ, kₒ, lₒ], l2 [iₒ, jₒ, bᵥ, aᵥ], l2 [kₒ, lₒ, dᵥ, cᵥ], t2 [dᵥ, bᵥ, jₒ, mₒ], t2 [cᵥ, aᵥ, iₒ, nₒ]], [(1, [])]⟩,
  -- line 14: nmjl,ijba,kldc,dckm,bain
  ⟨1/4, [g [nₒ, mₒ, jₒ, lₒ], l2 [iₒ, jₒ, bᵥ, aᵥ], l2 [kₒ, lₒ, dᵥ, cᵥ], t2 [dᵥ, cᵥ, kₒ, mₒ], t2 [bᵥ, aᵥ, iₒ, nₒ]], [(1, [])]⟩,
  -- line 17: nmjl,ijba,kldc,dcim,bakn
  ⟨-1/4, [g [nₒ, mₒ, jₒ, lₒ], l2 [iₒ, jₒ, bᵥ, aᵥ], l2 [kₒ, lₒ, dᵥ, cᵥ], t2 [dᵥ, cᵥ, iₒ, mₒ], t2 [bᵥ, aᵥ, kₒ, nₒ]], [(1, [])]⟩,
  -- line 20: nmjl,ijba,kldc,dbkm,cain
  ⟨-1/2, [g [nₒ, mₒ, jₒ, lₒ], l2 [iₒ, jₒ, bᵥ, aᵥ], l2 [kₒ, lₒ, dᵥ, cᵥ], t2 [dᵥ, bᵥ, kₒ, mₒ], t2 [cᵥ, aᵥ, iₒ, nₒ]], [(1, [])]⟩,
  -- line 23: nmjl,ijba,kldc,dbim,cakn
  ⟨1/2, [g [nₒ, mₒ, jₒ, lₒ], l2 [iₒ, jₒ, bᵥ, aᵥ], l2 [kₒ, lₒ, dᵥ, cᵥ], t2 [dᵥ, bᵥ, iₒ, mₒ], t2 [cᵥ, aᵥ, kₒ, nₒ]], [(1, [])]⟩,
  -- line 26: nmij,ijba,kldc,dclm,bakn
  ⟨-1/8, [g [nₒ, mₒ, iₒ, jₒ], l2 [iₒ, jₒ, bᵥ, aᵥ], l2 [kₒ, lₒ, dᵥ, cᵥ], t2 [dᵥ, cᵥ, lₒ, mₒ], t2 [bᵥ, aᵥ, kₒ, nₒ]], [(1, [])]⟩,
  -- line 29: nmij,ijba,kldc,dblm,cakn
  ⟨1/4, [g [nₒ, mₒ, iₒ, jₒ], l2 [iₒ, jₒ, bᵥ, aᵥ], l2 [kₒ, lₒ, dᵥ, cᵥ], t2 [dᵥ, bᵥ, lₒ, mₒ], t2 [cᵥ, aᵥ, kₒ, nₒ]], [(1, [])]⟩,
  -- line 32: mdel,ijba,kldc,ecjk,baim
  ⟨1/2, [g [mₒ, dᵥ, eᵥ, lₒ], l2 [iₒ, jₒ, bᵥ, aᵥ], l2 [kₒ, lₒ, dᵥ, cᵥ], t2 [eᵥ, cᵥ, jₒ, kₒ], t2 [bᵥ, aᵥ, iₒ, mₒ]], [(1, [])]⟩,
  -- line 35: mdel,ijba,kldc,ecij,bakm
  ⟨1/4, [g [mₒ, dᵥ, eᵥ, lₒ], l2 [iₒ, jₒ, bᵥ, aᵥ], l2 [kₒ, lₒ, dᵥ, cᵥ], t2 [eᵥ, cᵥ, iₒ, jₒ], t2 [bᵥ, aᵥ, kₒ, mₒ]], [(1, [])]⟩,
  -- line 38: mdel,ijba,kldc,ebjk,caim
  ⟨-1, [g [mₒ, dᵥ, eᵥ, lₒ], l2 [iₒ, jₒ, bᵥ, aᵥ], l2 [kₒ, lₒ, dᵥ, cᵥ], t2 [eᵥ, bᵥ, jₒ, kₒ], t2 [cᵥ, aᵥ, iₒ, mₒ]], [(1, [])]⟩,
  -- line 41: mdel,ijba,kldc,ebij,cakm
  ⟨-1/2, [g [mₒ, dᵥ, eᵥ, lₒ], l2 [iₒ, jₒ, bᵥ, aᵥ], l2 [kₒ, lₒ, dᵥ, cᵥ], t2 [eᵥ, bᵥ, iₒ, jₒ], t2 [cᵥ, aᵥ, kₒ, mₒ]], [(1, [])]⟩,
  -- line 44: mdej,ijba,kldc,eckl,baim
  ⟨1/4, [g [mₒ, dᵥ, eᵥ, jₒ], l2 [iₒ, jₒ, bᵥ, aᵥ], l2 [kₒ, lₒ, dᵥ, cᵥ], t2 [eᵥ, cᵥ, kₒ, lₒ], t2 [bᵥ, aᵥ, iₒ, mₒ]], [(1, [])]⟩,
  -- line 47: mdej,ijba,kldc,ecil,bakm
  ⟨-1/2, [g [mₒ, dᵥ, eᵥ, jₒ], l2 [iₒ, jₒ, bᵥ, aᵥ], l2 [kₒ, lₒ, dᵥ, cᵥ], t2 [eᵥ, cᵥ, iₒ, lₒ], t2 [bᵥ, aᵥ, kₒ, mₒ]], [(1, [])]⟩,
  -- line 50: mdej,ijba,kldc,ebkl,caim
  ⟨-1/2, [g [mₒ, dᵥ, eᵥ, jₒ], l2 [iₒ, jₒ, bᵥ, aᵥ], l2 [kₒ, lₒ, dᵥ, cᵥ], t2 [eᵥ, bᵥ, kₒ, lₒ], t2 [cᵥ, aᵥ, iₒ, mₒ]], [(1, [])]⟩,
  -- line 53: mdej,ijba,kldc,ebil,cakm
  ⟨1, [g [mₒ, dᵥ, eᵥ, jₒ], l2 [iₒ, jₒ, bᵥ, aᵥ], l2 [kₒ, lₒ, dᵥ, cᵥ], t2 [eᵥ, bᵥ, iₒ, lₒ], t2 [cᵥ, aᵥ, kₒ, mₒ]], [(1, [])]⟩,
  -- line 56: mbel,ijba,kldc,edjk,caim
  ⟨1, [g [mₒ, bᵥ, eᵥ, lₒ], l2 [iₒ, jₒ, bᵥ, aᵥ], l2 [kₒ, lₒ, dᵥ, cᵥ], t2 [eᵥ, dᵥ, jₒ, kₒ], t2 [cᵥ, aᵥ, iₒ, mₒ]], [(1, [])]⟩,
  -- line 59: mbel,ijba,kldc,edij,cakm
  ⟨1/2, [g [mₒ, bᵥ, eᵥ, lₒ], l2 [iₒ, jₒ, bᵥ, aᵥ], l2 [kₒ, lₒ, dᵥ, cᵥ], t2 [eᵥ, dᵥ, iₒ, jₒ], t2 [cᵥ, aᵥ, kₒ, mₒ]], [(1, [])]⟩,
  -- line 62: mbel,ijba,kldc,eajk,dcim
  ⟨1/2, [g [mₒ, bᵥ, eᵥ, lₒ], l2 [iₒ, jₒ, bᵥ, aᵥ], l2 [kₒ, lₒ, dᵥ, cᵥ], t2 [eᵥ, aᵥ, jₒ, kₒ], t2 [dᵥ, cᵥ, iₒ, mₒ]], [(1, [])]⟩,
  -- line 65: mbel,ijba,kldc,eaij,dckm
  ⟨1/4, [g [mₒ, bᵥ, eᵥ, lₒ], l2 [iₒ, jₒ, bᵥ, aᵥ], l2 [kₒ, lₒ, dᵥ, cᵥ], t2 [eᵥ, aᵥ, iₒ, jₒ], t2 [dᵥ, cᵥ, kₒ, mₒ]], [(1, [])]⟩,
  -- line 68: mbej,ijba,kldc,edkl,caim
  ⟨1/2, [g [mₒ, bᵥ, eᵥ, jₒ], l2 [iₒ, jₒ, bᵥ, aᵥ], l2 [kₒ, lₒ, dᵥ, cᵥ], t2 [eᵥ, dᵥ, kₒ, lₒ], t2 [cᵥ, aᵥ, iₒ, mₒ]], [(1, [])]⟩,
  -- line 71: mbej,ijba,kldc,edil,cakm
  ⟨-1, [g [mₒ, bᵥ, eᵥ, jₒ], l2 [iₒ, jₒ, bᵥ, aᵥ], l2 [kₒ, lₒ, dᵥ, cᵥ], t2 [eᵥ, dᵥ, iₒ, lₒ], t2 [cᵥ, aᵥ, kₒ, mₒ]], [(1, [])]⟩,
  -- line 74: mbej,ijba,kldc,eakl,dcim
  ⟨1/4, [g [mₒ, bᵥ, eᵥ, jₒ], l2 [iₒ, jₒ, bᵥ, aᵥ], l2 [kₒ, lₒ, dᵥ, cᵥ], t2 [eᵥ, aᵥ, kₒ, lₒ], t2 [dᵥ, cᵥ, iₒ, mₒ]], [(1, [])]⟩,
  -- line 77: mbej,ijba,kldc,eail,dckm
  ⟨-1/2, [g [mₒ, bᵥ, eᵥ, jₒ], l2 [iₒ, jₒ, bᵥ, aᵥ], l2 [kₒ, lₒ, dᵥ, cᵥ], t2 [eᵥ, aᵥ, iₒ, lₒ], t2 [dᵥ, cᵥ, kₒ, mₒ]], [(1, [])]⟩,
  -- line 80: dcef,ijba,kldc,ebkl,faij
  ⟨-1/8, [g [dᵥ, cᵥ, eᵥ, fᵥ], l2 [iₒ, jₒ, bᵥ, aᵥ], l2 [kₒ, lₒ, dᵥ, cᵥ], t2 [eᵥ, bᵥ, kₒ, lₒ], t2 [fᵥ, aᵥ, iₒ, jₒ]], [(1, [])]⟩,
  -- line 83: dcef,ijba,kldc,ebjl,faik
  ⟨1/4, [g [dᵥ, cᵥ, eᵥ, fᵥ], l2 [iₒ, jₒ, bᵥ, aᵥ], l2 [kₒ, lₒ, dᵥ, cᵥ], t2 [eᵥ, bᵥ, jₒ, lₒ], t2 [fᵥ, aᵥ, iₒ, kₒ]], [(1, [])]⟩,
  -- line 86: dbef,ijba,kldc,eckl,faij
  ⟨1/4, [g [dᵥ, bᵥ, eᵥ, fᵥ], l2 [iₒ, jₒ, bᵥ, aᵥ], l2 [kₒ, lₒ, dᵥ, cᵥ], t2 [eᵥ, cᵥ, kₒ, lₒ], t2 [fᵥ, aᵥ, iₒ, jₒ]], [(1, [])]⟩,
  -- line 89: dbef,ijba,kldc,ecjl,faik
  ⟨-5/8, [g [dᵥ, bᵥ, eᵥ, fᵥ], l2 [iₒ, jₒ, bᵥ, aᵥ], l2 [kₒ, lₒ, dᵥ, cᵥ], t2 [eᵥ, cᵥ, jₒ, lₒ], t2 [fᵥ, aᵥ, iₒ, kₒ]], [(1, [])]⟩,
  -- line 92: dbef,ijba,kldc,ecij,fakl
  ⟨1/4, [g [dᵥ, bᵥ, eᵥ, fᵥ], l2 [iₒ, jₒ, bᵥ, aᵥ], l2 [kₒ, lₒ, dᵥ, cᵥ], t2 [eᵥ, cᵥ, iₒ, jₒ], t2 [fᵥ, aᵥ, kₒ, lₒ]], [(1, [])]⟩,
  -- line 95: daef,ijba,kldc,ebjl,fcik
  ⟨-3/8, [g [dᵥ, aᵥ, eᵥ, fᵥ], l2 [iₒ, jₒ, bᵥ, aᵥ], l2 [kₒ, lₒ, dᵥ, cᵥ], t2 [eᵥ, bᵥ, jₒ, lₒ], t2 [fᵥ, cᵥ, iₒ, kₒ]], [(1, [])]⟩,
  -- line 98: baef,ijba,kldc,edkl,fcij
  ⟨-1/8, [g [bᵥ, aᵥ, eᵥ, fᵥ], l2 [iₒ, jₒ, bᵥ, aᵥ], l2 [kₒ, lₒ, dᵥ, cᵥ], t2 [eᵥ, dᵥ, kₒ, lₒ], t2 [fᵥ, cᵥ, iₒ, jₒ]], [(1, [])]⟩,
  -- line 101: baef,ijba,kldc,edjl,fcik
  ⟨1/4, [g [bᵥ, aᵥ, eᵥ, fᵥ], l2 [iₒ, jₒ, bᵥ, aᵥ], l2 [kₒ, lₒ, dᵥ, cᵥ], t2 [eᵥ, dᵥ, jₒ, lₒ], t2 [fᵥ, cᵥ, iₒ, kₒ]], [(1, [])]⟩
  ]

/-- `UT2/cc_energy.py` 177-193, `optWnT3`. -/
def optWnT3 : Prog := [
  -- line 180: cdkl,ijmabd,klmc->ijab
  ⟨1/8, [t2 [cᵥ, dᵥ, kₒ, lₒ], t3 [aᵥ, bᵥ, dᵥ, iₒ, jₒ, mₒ], g [kₒ, lₒ, mₒ, cᵥ]], [(1, [iₒ, jₒ, aᵥ, bᵥ])]⟩,
  -- line 181: cdkl,ilmabd,jkmc->ijab
  ⟨1/2, [t2 [cᵥ, dᵥ, kₒ, lₒ], t3 [aᵥ, bᵥ, dᵥ, iₒ, lₒ, mₒ], g [jₒ, kₒ, mₒ, cᵥ]], [(1, [iₒ, jₒ, aᵥ, bᵥ])]⟩,
  -- line 182: cdkl,klmabd,ijmc->ijab
  ⟨1/8, [t2 [cᵥ, dᵥ, kₒ, lₒ], t3 [aᵥ, bᵥ, dᵥ, kₒ, lₒ, mₒ], g [iₒ, jₒ, mₒ, cᵥ]], [(1, [iₒ, jₒ, aᵥ, bᵥ])]⟩,
  -- line 183: cdkl,ijlabe,kecd->ijab
  ⟨1/8, [t2 [cᵥ, dᵥ, kₒ, lₒ], t3 [aᵥ, bᵥ, eᵥ, iₒ, jₒ, lₒ], g [kₒ, eᵥ, cᵥ, dᵥ]], [(1, [iₒ, jₒ, aᵥ, bᵥ])]⟩,
  -- line 184: cdkl,iklabe,jecd->ijab
  ⟨-1/8, [t2 [cᵥ, dᵥ, kₒ, lₒ], t3 [aᵥ, bᵥ, eᵥ, iₒ, kₒ, lₒ], g [jₒ, eᵥ, cᵥ, dᵥ]], [(1, [iₒ, jₒ, aᵥ, bᵥ])]⟩,
  -- line 185: cdkl,ijmacd,klmb->ijab
  ⟨-1/8, [t2 [cᵥ, dᵥ, kₒ, lₒ], t3 [aᵥ, cᵥ, dᵥ, iₒ, jₒ, mₒ], g [kₒ, lₒ, mₒ, bᵥ]], [(1, [iₒ, jₒ, aᵥ, bᵥ])]⟩,
  -- line 186: cdkl,ilmacd,jkmb->ijab
  ⟨-1/2, [t2 [cᵥ, dᵥ, kₒ, lₒ], t3 [aᵥ, cᵥ, dᵥ, iₒ, lₒ, mₒ], g [jₒ, kₒ, mₒ, bᵥ]], [(1, [iₒ, jₒ, aᵥ, bᵥ])]⟩,
  -- line 187: cdkl,klmacd,ijmb->ijab
  ⟨-1/8, [t2 [cᵥ, dᵥ, kₒ, lₒ], t3 [aᵥ, cᵥ, dᵥ, kₒ, lₒ, mₒ], g [iₒ, jₒ, mₒ, bᵥ]], [(1, [iₒ, jₒ, aᵥ, bᵥ])]⟩,
  -- line 188: cdkl,ijlade,kebc->ijab
  ⟨1/2, [t2 [cᵥ, dᵥ, kₒ, lₒ], t3 [aᵥ, dᵥ, eᵥ, iₒ, jₒ, lₒ], g [kₒ, eᵥ, bᵥ, cᵥ]], [(1, [iₒ, jₒ, aᵥ, bᵥ])]⟩,
  -- line 189: cdkl,iklade,jebc->ijab
  ⟨-1/2, [t2 [cᵥ, dᵥ, kₒ, lₒ], t3 [aᵥ, dᵥ, eᵥ, iₒ, kₒ, lₒ], g [jₒ, eᵥ, bᵥ, cᵥ]], [(1, [iₒ, jₒ, aᵥ, bᵥ])]⟩,
  -- line 190: cdkl,ijlcde,keab->ijab
  ⟨1/8, [t2 [cᵥ, dᵥ, kₒ, lₒ], t3 [cᵥ, dᵥ, eᵥ, iₒ, jₒ, lₒ], g [kₒ, eᵥ, aᵥ, bᵥ]], [(1, [iₒ, jₒ, aᵥ, bᵥ])]⟩,
  -- line 191: cdkl,iklcde,jeab->ijab
  ⟨-1/8, [t2 [cᵥ, dᵥ, kₒ, lₒ], t3 [cᵥ, dᵥ, eᵥ, iₒ, kₒ, lₒ], g [jₒ, eᵥ, aᵥ, bᵥ]], [(1, [iₒ, jₒ, aᵥ, bᵥ])]⟩
  ]

/-- `UT2/cc_energy.py` 198-231, `optWnT2sqr`. -/
def optWnT2sqr : Prog := [
  -- line 201: ikab,jlcd,celm,mdke->ijab
  ⟨-1/2, [t2 [aᵥ, bᵥ, iₒ, kₒ], t2 [cᵥ, dᵥ, jₒ, lₒ], t2 [cᵥ, eᵥ, lₒ, mₒ], g [mₒ, dᵥ, kₒ, eᵥ]], [(1, [iₒ, jₒ, aᵥ, bᵥ])]⟩,
  -- line 202: ikab,jlcd,cdmn,mnkl->ijab
  ⟨-1/8, [t2 [aᵥ, bᵥ, iₒ, kₒ], t2 [cᵥ, dᵥ, jₒ, lₒ], t2 [cᵥ, dᵥ, mₒ, nₒ], g [mₒ, nₒ, kₒ, lₒ]], [(1, [iₒ, jₒ, aᵥ, bᵥ])]⟩,
  -- line 203: ikab,lmcd,celm,jdke->ijab
  ⟨-1/4, [t2 [aᵥ, bᵥ, iₒ, kₒ], t2 [cᵥ, dᵥ, lₒ, mₒ], t2 [cᵥ, eᵥ, lₒ, mₒ], g [jₒ, dᵥ, kₒ, eᵥ]], [(1, [iₒ, jₒ, aᵥ, bᵥ])]⟩,
  -- line 204: ikab,lmcd,cdln,jnkm->ijab
  ⟨1/4, [t2 [aᵥ, bᵥ, iₒ, kₒ], t2 [cᵥ, dᵥ, lₒ, mₒ], t2 [cᵥ, dᵥ, lₒ, nₒ], g [jₒ, nₒ, kₒ, mₒ]], [(1, [iₒ, jₒ, aᵥ, bᵥ])]⟩,
  -- line 205: klab,ijcd,cekm,mdle->ijab
  ⟨-1/4, [t2 [aᵥ, bᵥ, kₒ, lₒ], t2 [cᵥ, dᵥ, iₒ, jₒ], t2 [cᵥ, eᵥ, kₒ, mₒ], g [mₒ, dᵥ, lₒ, eᵥ]], [(1, [iₒ, jₒ, aᵥ, bᵥ])]⟩,
  -- line 206: klab,imcd,cekm,jdle->ijab
  ⟨1/2, [t2 [aᵥ, bᵥ, kₒ, lₒ], t2 [cᵥ, dᵥ, iₒ, mₒ], t2 [cᵥ, eᵥ, kₒ, mₒ], g [jₒ, dᵥ, lₒ, eᵥ]], [(1, [iₒ, jₒ, aᵥ, bᵥ])]⟩,
  -- line 207: klab,imcd,cdkn,jnlm->ijab
  ⟨-1/4, [t2 [aᵥ, bᵥ, kₒ, lₒ], t2 [cᵥ, dᵥ, iₒ, mₒ], t2 [cᵥ, dᵥ, kₒ, nₒ], g [jₒ, nₒ, lₒ, mₒ]], [(1, [iₒ, jₒ, aᵥ, bᵥ])]⟩,
  -- line 208: klab,mncd,cdkm,ijln->ijab
  ⟨-1/8, [t2 [aᵥ, bᵥ, kₒ, lₒ], t2 [cᵥ, dᵥ, mₒ, nₒ], t2 [cᵥ, dᵥ, kₒ, mₒ], g [iₒ, jₒ, lₒ, nₒ]], [(1, [iₒ, jₒ, aᵥ, bᵥ])]⟩,
  -- line 209: ijac,klbd,efkl,cdef->ijab
  ⟨-1/8, [t2 [aᵥ, cᵥ, iₒ, jₒ], t2 [bᵥ, dᵥ, kₒ, lₒ], t2 [eᵥ, fᵥ, kₒ, lₒ], g [cᵥ, dᵥ, eᵥ, fᵥ]], [(1, [iₒ, jₒ, aᵥ, bᵥ])]⟩,
  -- line 210: ijac,klbd,dekm,mcle->ijab
  ⟨-1/2, [t2 [aᵥ, cᵥ, iₒ, jₒ], t2 [bᵥ, dᵥ, kₒ, lₒ], t2 [dᵥ, eᵥ, kₒ, mₒ], g [mₒ, cᵥ, lₒ, eᵥ]], [(1, [iₒ, jₒ, aᵥ, bᵥ])]⟩,
  -- line 211: ijac,klde,dfkl,cebf->ijab
  ⟨1/4, [t2 [aᵥ, cᵥ, iₒ, jₒ], t2 [dᵥ, eᵥ, kₒ, lₒ], t2 [dᵥ, fᵥ, kₒ, lₒ], g [cᵥ, eᵥ, bᵥ, fᵥ]], [(1, [iₒ, jₒ, aᵥ, bᵥ])]⟩,
  -- line 212: ijac,klde,dekm,mclb->ijab
  ⟨-1/4, [t2 [aᵥ, cᵥ, iₒ, jₒ], t2 [dᵥ, eᵥ, kₒ, lₒ], t2 [dᵥ, eᵥ, kₒ, mₒ], g [mₒ, cᵥ, lₒ, bᵥ]], [(1, [iₒ, jₒ, aᵥ, bᵥ])]⟩,
  -- line 213: ikac,jlbd,efkl,cdef->ijab
  ⟨1/4, [t2 [aᵥ, cᵥ, iₒ, kₒ], t2 [bᵥ, dᵥ, jₒ, lₒ], t2 [eᵥ, fᵥ, kₒ, lₒ], g [cᵥ, dᵥ, eᵥ, fᵥ]], [(1, [iₒ, jₒ, aᵥ, bᵥ])]⟩,
  -- line 214: ikac,jlbd,dekm,mcle->ijab
  ⟨1, [t2 [aᵥ, cᵥ, iₒ, kₒ], t2 [bᵥ, dᵥ, jₒ, lₒ], t2 [dᵥ, eᵥ, kₒ, mₒ], g [mₒ, cᵥ, lₒ, eᵥ]], [(1, [iₒ, jₒ, aᵥ, bᵥ])]⟩,
  -- line 215: ikac,jlbd,cdmn,mnkl->ijab
  ⟨1/4, [t2 [aᵥ, cᵥ, iₒ, kₒ], t2 [bᵥ, dᵥ, jₒ, lₒ], t2 [cᵥ, dᵥ, mₒ, nₒ], g [mₒ, nₒ, kₒ, lₒ]], [(1, [iₒ, jₒ, aᵥ, bᵥ])]⟩,
  -- line 216: ikac,lmbd,dekl,jcme->ijab
  ⟨-1, [t2 [aᵥ, cᵥ, iₒ, kₒ], t2 [bᵥ, dᵥ, lₒ, mₒ], t2 [dᵥ, eᵥ, kₒ, lₒ], g [jₒ, cᵥ, mₒ, eᵥ]], [(1, [iₒ, jₒ, aᵥ, bᵥ])]⟩,
  -- line 217: ikac,lmbd,cdln,jnkm->ijab
  ⟨-1, [t2 [aᵥ, cᵥ, iₒ, kₒ], t2 [bᵥ, dᵥ, lₒ, mₒ], t2 [cᵥ, dᵥ, lₒ, nₒ], g [jₒ, nₒ, kₒ, mₒ]], [(1, [iₒ, jₒ, aᵥ, bᵥ])]⟩,
  -- line 218: ikac,jlde,dfkl,cebf->ijab
  ⟨-1, [t2 [aᵥ, cᵥ, iₒ, kₒ], t2 [dᵥ, eᵥ, jₒ, lₒ], t2 [dᵥ, fᵥ, kₒ, lₒ], g [cᵥ, eᵥ, bᵥ, fᵥ]], [(1, [iₒ, jₒ, aᵥ, bᵥ])]⟩,
  -- line 219: ikac,jlde,dekm,mclb->ijab
  ⟨1/2, [t2 [aᵥ, cᵥ, iₒ, kₒ], t2 [dᵥ, eᵥ, jₒ, lₒ], t2 [dᵥ, eᵥ, kₒ, mₒ], g [mₒ, cᵥ, lₒ, bᵥ]], [(1, [iₒ, jₒ, aᵥ, bᵥ])]⟩,
  -- line 220: ikac,jlde,cdlm,mekb->ijab
  ⟨-1, [t2 [aᵥ, cᵥ, iₒ, kₒ], t2 [dᵥ, eᵥ, jₒ, lₒ], t2 [cᵥ, dᵥ, lₒ, mₒ], g [mₒ, eᵥ, kₒ, bᵥ]], [(1, [iₒ, jₒ, aᵥ, bᵥ])]⟩,
  -- line 221: ikac,lmde,dekl,jcmb->ijab
  ⟨-1/2, [t2 [aᵥ, cᵥ, iₒ, kₒ], t2 [dᵥ, eᵥ, lₒ, mₒ], t2 [dᵥ, eᵥ, kₒ, lₒ], g [jₒ, cᵥ, mₒ, bᵥ]], [(1, [iₒ, jₒ, aᵥ, bᵥ])]⟩,
  -- line 222: ikac,lmde,cdlm,jekb->ijab
  ⟨-1/2, [t2 [aᵥ, cᵥ, iₒ, kₒ], t2 [dᵥ, eᵥ, lₒ, mₒ], t2 [cᵥ, dᵥ, lₒ, mₒ], g [jₒ, eᵥ, kₒ, bᵥ]], [(1, [iₒ, jₒ, aᵥ, bᵥ])]⟩,
  -- line 223: klac,imbd,dekl,jcme->ijab
  ⟨-1/2, [t2 [aᵥ, cᵥ, kₒ, lₒ], t2 [bᵥ, dᵥ, iₒ, mₒ], t2 [dᵥ, eᵥ, kₒ, lₒ], g [jₒ, cᵥ, mₒ, eᵥ]], [(1, [iₒ, jₒ, aᵥ, bᵥ])]⟩,
  -- line 224: klac,mnbd,cdkm,ijln->ijab
  ⟨1/4, [t2 [aᵥ, cᵥ, kₒ, lₒ], t2 [bᵥ, dᵥ, mₒ, nₒ], t2 [cᵥ, dᵥ, kₒ, mₒ], g [iₒ, jₒ, lₒ, nₒ]], [(1, [iₒ, jₒ, aᵥ, bᵥ])]⟩,
  -- line 225: klac,ijde,dfkl,cebf->ijab
  ⟨1/4, [t2 [aᵥ, cᵥ, kₒ, lₒ], t2 [dᵥ, eᵥ, iₒ, jₒ], t2 [dᵥ, fᵥ, kₒ, lₒ], g [cᵥ, eᵥ, bᵥ, fᵥ]], [(1, [iₒ, jₒ, aᵥ, bᵥ])]⟩,
  -- line 226: klac,ijde,cdkm,melb->ijab
  ⟨-1/2, [t2 [aᵥ, cᵥ, kₒ, lₒ], t2 [dᵥ, eᵥ, iₒ, jₒ], t2 [cᵥ, dᵥ, kₒ, mₒ], g [mₒ, eᵥ, lₒ, bᵥ]], [(1, [iₒ, jₒ, aᵥ, bᵥ])]⟩,
  -- line 227: klac,imde,dekl,jcmb->ijab
  ⟨-1/4, [t2 [aᵥ, cᵥ, kₒ, lₒ], t2 [dᵥ, eᵥ, iₒ, mₒ], t2 [dᵥ, eᵥ, kₒ, lₒ], g [jₒ, cᵥ, mₒ, bᵥ]], [(1, [iₒ, jₒ, aᵥ, bᵥ])]⟩,
  -- line 228: klac,imde,cdkm,jelb->ijab
  ⟨1, [t2 [aᵥ, cᵥ, kₒ, lₒ], t2 [dᵥ, eᵥ, iₒ, mₒ], t2 [cᵥ, dᵥ, kₒ, mₒ], g [jₒ, eᵥ, lₒ, bᵥ]], [(1, [iₒ, jₒ, aᵥ, bᵥ])]⟩,
  -- line 229: ijcd,klef,cekl,dfab->ijab
  ⟨-1/8, [t2 [cᵥ, dᵥ, iₒ, jₒ], t2 [eᵥ, fᵥ, kₒ, lₒ], t2 [cᵥ, eᵥ, kₒ, lₒ], g [dᵥ, fᵥ, aᵥ, bᵥ]], [(1, [iₒ, jₒ, aᵥ, bᵥ])]⟩,
  -- line 230: ikcd,jlef,cekl,dfab->ijab
  ⟨1/4, [t2 [cᵥ, dᵥ, iₒ, kₒ], t2 [eᵥ, fᵥ, jₒ, lₒ], t2 [cᵥ, eᵥ, kₒ, lₒ], g [dᵥ, fᵥ, aᵥ, bᵥ]], [(1, [iₒ, jₒ, aᵥ, bᵥ])]⟩
  ]

/-- `UT2/cc_energy.py` 235-249, `T3portion_Qf`. -/
def T3portion_Qf : Prog := [
  -- line 237: cdkl,ijmabd,klmc->ijab
  ⟨1/8, [t2 [cᵥ, dᵥ, kₒ, lₒ], t3 [aᵥ, bᵥ, dᵥ, iₒ, jₒ, mₒ], g [kₒ, lₒ, mₒ, cᵥ]], [(1, [iₒ, jₒ, aᵥ, bᵥ])]⟩,
  -- line 238: cdkl,ilmabd,jkmc->ijab
  ⟨1/2, [t2 [cᵥ, dᵥ, kₒ, lₒ], t3 [aᵥ, bᵥ, dᵥ, iₒ, lₒ, mₒ], g [jₒ, kₒ, mₒ, cᵥ]], [(1, [iₒ, jₒ, aᵥ, bᵥ])]⟩,
  -- line 239: cdkl,klmabd,ijmc->ijab
  ⟨1/8, [t2 [cᵥ, dᵥ, kₒ, lₒ], t3 [aᵥ, bᵥ, dᵥ, kₒ, lₒ, mₒ], g [iₒ, jₒ, mₒ, cᵥ]], [(1, [iₒ, jₒ, aᵥ, bᵥ])]⟩,
  -- line 240: cdkl,ijlabe,kecd->ijab
  ⟨1/8, [t2 [cᵥ, dᵥ, kₒ, lₒ], t3 [aᵥ, bᵥ, eᵥ, iₒ, jₒ, lₒ], g [kₒ, eᵥ, cᵥ, dᵥ]], [(1, [iₒ, jₒ, aᵥ, bᵥ])]⟩,
  -- line 241: cdkl,iklabe,jecd->ijab
  ⟨-1/8, [t2 [cᵥ, dᵥ, kₒ, lₒ], t3 [aᵥ, bᵥ, eᵥ, iₒ, kₒ, lₒ], g [jₒ, eᵥ, cᵥ, dᵥ]], [(1, [iₒ, jₒ, aᵥ, bᵥ])]⟩,
  -- line 242: cdkl,ijmacd,klmb->ijab
  ⟨-1/8, [t2 [cᵥ, dᵥ, kₒ, lₒ], t3 [aᵥ, cᵥ, dᵥ, iₒ, jₒ, mₒ], g [kₒ, lₒ, mₒ, bᵥ]], [(1, [iₒ, jₒ, aᵥ, bᵥ])]⟩,
  -- line 243: cdkl,ilmacd,jkmb->ijab
  ⟨-1/2, [t2 [cᵥ, dᵥ, kₒ, lₒ], t3 [aᵥ, cᵥ, dᵥ, iₒ, lₒ, mₒ], g [jₒ, kₒ, mₒ, bᵥ]], [(1, [iₒ, jₒ, aᵥ, bᵥ])]⟩,
  -- line 244: cdkl,klmacd,ijmb->ijab
  ⟨-1/8, [t2 [cᵥ, dᵥ, kₒ, lₒ], t3 [aᵥ, cᵥ, dᵥ, kₒ, lₒ, mₒ], g [iₒ, jₒ, mₒ, bᵥ]], [(1, [iₒ, jₒ, aᵥ, bᵥ])]⟩,
  -- line 245: cdkl,ijlade,kebc->ijab
  ⟨1/2, [t2 [cᵥ, dᵥ, kₒ, lₒ], t3 [aᵥ, dᵥ, eᵥ, iₒ, jₒ, lₒ], g [kₒ, eᵥ, bᵥ, cᵥ]], [(1, [iₒ, jₒ, aᵥ, bᵥ])]⟩,
  -- line 246: cdkl,iklade,jebc->ijab
  ⟨-1/2, [t2 [cᵥ, dᵥ, kₒ, lₒ], t3 [aᵥ, dᵥ, eᵥ, iₒ, kₒ, lₒ], g [jₒ, eᵥ, bᵥ, cᵥ]], [(1, [iₒ, jₒ, aᵥ, bᵥ])]⟩,
  -- line 247: cdkl,ijlcde,keab->ijab
  ⟨1/8, [t2 [cᵥ, dᵥ, kₒ, lₒ], t3 [cᵥ, dᵥ, eᵥ, iₒ, jₒ, lₒ], g [kₒ, eᵥ, aᵥ, bᵥ]], [(1, [iₒ, jₒ, aᵥ, bᵥ])]⟩,
  -- line 248: cdkl,iklcde,jeab->ijab
  ⟨-1/8, [t2 [cᵥ, dᵥ, kₒ, lₒ], t3 [cᵥ, dᵥ, eᵥ, iₒ, kₒ, lₒ], g [jₒ, eᵥ, aᵥ, bᵥ]], [(1, [iₒ, jₒ, aᵥ, bᵥ])]⟩
  ]

/-- `UT2/cc_energy.py` 251-255, `build_approxT3`. -/
def build_approxT3 : Prog := [
  -- line 253: ilab,jklc->ijkabc
  ⟨-1/4, [t2 [aᵥ, bᵥ, iₒ, lₒ], g [jₒ, kₒ, lₒ, cᵥ]], [(1, [iₒ, jₒ, kₒ, aᵥ, bᵥ, cᵥ])]⟩,
  -- line 254: ijad,kdbc->ijkabc
  ⟨-1/4, [t2 [aᵥ, dᵥ, iₒ, jₒ], g [kₒ, dᵥ, bᵥ, cᵥ]], [(1, [iₒ, jₒ, kₒ, aᵥ, bᵥ, cᵥ])]⟩
  ]

/-- Part 0 of `wnT2T3_toT4`. -/
def wnT2T3_toT4_0 : Prog := [
  -- line 7: imab,jkncde,lemn->ijklabcd
  ⟨-1/8, [t2 [aᵥ, bᵥ, iₒ, mₒ], t3 [cᵥ, dᵥ, eᵥ, jₒ, kₒ, nₒ], g [lₒ, eᵥ, mₒ, nₒ]], [(1, [iₒ, jₒ, kₒ, lₒ, aᵥ, bᵥ, cᵥ, dᵥ])]⟩,
  -- line 8: imab,jklcef,efmd->ijklabcd
  ⟨41666667/1000000000, [t2 [aᵥ, bᵥ, iₒ, mₒ], t3 [cᵥ, eᵥ, fᵥ, jₒ, kₒ, lₒ], g [eᵥ, fᵥ, mₒ, dᵥ]], [(1, [iₒ, jₒ, kₒ, lₒ, aᵥ, bᵥ, cᵥ, dᵥ])]⟩,
  -- line 9: mnab,ijkcde,lemn->ijklabcd
  ⟨-20833333/1000000000, [t2 [aᵥ, bᵥ, mₒ, nₒ], t3 [cᵥ, dᵥ, eᵥ, iₒ, jₒ, kₒ], g [lₒ, eᵥ, mₒ, nₒ]], [(1, [iₒ, jₒ, kₒ, lₒ, aᵥ, bᵥ, cᵥ, dᵥ])]⟩,
  -- line 10: ijae,kmnbcd,lemn->ijklabcd
  ⟨41666667/1000000000, [t2 [aᵥ, eᵥ, iₒ, jₒ], t3 [bᵥ, cᵥ, dᵥ, kₒ, mₒ, nₒ], g [lₒ, eᵥ, mₒ, nₒ]], [(1, [iₒ, jₒ, kₒ, lₒ, aᵥ, bᵥ, cᵥ, dᵥ])]⟩,
  -- line 11: ijae,klmbcf,efmd->ijklabcd
  ⟨-1/8, [t2 [aᵥ, eᵥ, iₒ, jₒ], t3 [bᵥ, cᵥ, fᵥ, kₒ, lₒ, mₒ], g [eᵥ, fᵥ, mₒ, dᵥ]], [(1, [iₒ, jₒ, kₒ, lₒ, aᵥ, bᵥ, cᵥ, dᵥ])]⟩,
  -- line 12: imae,jknbcd,lemn->ijklabcd
  ⟨83333333/1000000000, [t2 [aᵥ, eᵥ, iₒ, mₒ], t3 [bᵥ, cᵥ, dᵥ, jₒ, kₒ, nₒ], g [lₒ, eᵥ, mₒ, nₒ]], [(1, [iₒ, jₒ, kₒ, lₒ, aᵥ, bᵥ, cᵥ, dᵥ])]⟩,
  -- line 13: imae,jklbcf,efmd->ijklabcd
  ⟨83333333/1000000000, [t2 [aᵥ, eᵥ, iₒ, mₒ], t3 [bᵥ, cᵥ, fᵥ, jₒ, kₒ, lₒ], g [eᵥ, fᵥ, mₒ, dᵥ]], [(1, [iₒ, jₒ, kₒ, lₒ, aᵥ, bᵥ, cᵥ, dᵥ])]⟩,
  -- line 14: ijef,klmabc,efmd->ijklabcd
  ⟨-20833333/1000000000, [t2 [eᵥ, fᵥ, iₒ, jₒ], t3 [aᵥ, bᵥ, cᵥ, kₒ, lₒ, mₒ], g [eᵥ, fᵥ, mₒ, dᵥ]], [(1, [iₒ, jₒ, kₒ, lₒ, aᵥ, bᵥ, cᵥ, dᵥ])]⟩
  ]

/-- `UT2/build_qf_correction.py` 6-17, `wnT2T3_toT4`. -/
def wnT2T3_toT4 : Prog := Prog.through tamps_antisym_T4 (wnT2T3_toT4_0)

/-- Part 0 of `wnT2cubed_toT4`. -/
def wnT2cubed_toT4_0 : Prog := [
  -- line 21: imab,jncd,klef,efmn->ijklabcd
  ⟨-1/32, [t2 [aᵥ, bᵥ, iₒ, mₒ], t2 [cᵥ, dᵥ, jₒ, nₒ], t2 [eᵥ, fᵥ, kₒ, lₒ], g [eᵥ, fᵥ, mₒ, nₒ]], [(1, [iₒ, jₒ, kₒ, lₒ, aᵥ, bᵥ, cᵥ, dᵥ])]⟩,
  -- line 22: imab,jncd,klmn->ijklabcd
  ⟨-1/16, [t2 [aᵥ, bᵥ, iₒ, mₒ], t2 [cᵥ, dᵥ, jₒ, nₒ], g [kₒ, lₒ, mₒ, nₒ]], [(1, [iₒ, jₒ, kₒ, lₒ, aᵥ, bᵥ, cᵥ, dᵥ])]⟩,
  -- line 23: imab,jkce,lndf,efmn->ijklabcd
  ⟨1/4, [t2 [aᵥ, bᵥ, iₒ, mₒ], t2 [cᵥ, eᵥ, jₒ, kₒ], t2 [dᵥ, fᵥ, lₒ, nₒ], g [eᵥ, fᵥ, mₒ, nₒ]], [(1, [iₒ, jₒ, kₒ, lₒ, aᵥ, bᵥ, cᵥ, dᵥ])]⟩,
  -- line 24: imab,jkce,lemd->ijklabcd
  ⟨-1/4, [t2 [aᵥ, bᵥ, iₒ, mₒ], t2 [cᵥ, eᵥ, jₒ, kₒ], g [lₒ, eᵥ, mₒ, dᵥ]], [(1, [iₒ, jₒ, kₒ, lₒ, aᵥ, bᵥ, cᵥ, dᵥ])]⟩,
  -- line 25: mnab,ijce,kldf,efmn->ijklabcd
  ⟨-1/32, [t2 [aᵥ, bᵥ, mₒ, nₒ], t2 [cᵥ, eᵥ, iₒ, jₒ], t2 [dᵥ, fᵥ, kₒ, lₒ], g [eᵥ, fᵥ, mₒ, nₒ]], [(1, [iₒ, jₒ, kₒ, lₒ, aᵥ, bᵥ, cᵥ, dᵥ])]⟩,
  -- line 26: ijae,klbf,efcd->ijklabcd
  ⟨-1/16, [t2 [aᵥ, eᵥ, iₒ, jₒ], t2 [bᵥ, fᵥ, kₒ, lₒ], g [eᵥ, fᵥ, cᵥ, dᵥ]], [(1, [iₒ, jₒ, kₒ, lₒ, aᵥ, bᵥ, cᵥ, dᵥ])]⟩
  ]

/-- `UT2/build_qf_correction.py` 20-29, `wnT2cubed_toT4`. -/
def wnT2cubed_toT4 : Prog := Prog.through tamps_antisym_T4 (wnT2cubed_toT4_0)

/-- Part 0 of `wnT2cubed_toT2`. -/
def wnT2cubed_toT2_0 : Prog := [
  -- line 34: ikab,jlcd,mnef,celm,dfkn->ijab
  ⟨1/2, [t2 [aᵥ, bᵥ, iₒ, kₒ], t2 [cᵥ, dᵥ, jₒ, lₒ], t2 [eᵥ, fᵥ, mₒ, nₒ], t2 [cᵥ, eᵥ, lₒ, mₒ], g [dᵥ, fᵥ, kₒ, nₒ]], [(1, [iₒ, jₒ, aᵥ, bᵥ])]⟩,
  -- line 35: ikab,jlcd,mnef,eflm,cdkn->ijab
  ⟨-1/8, [t2 [aᵥ, bᵥ, iₒ, kₒ], t2 [cᵥ, dᵥ, jₒ, lₒ], t2 [eᵥ, fᵥ, mₒ, nₒ], t2 [eᵥ, fᵥ, lₒ, mₒ], g [cᵥ, dᵥ, kₒ, nₒ]], [(1, [iₒ, jₒ, aᵥ, bᵥ])]⟩,
  -- line 36: ikab,jlcd,mnef,cemn,dfkl->ijab
  ⟨1/4, [t2 [aᵥ, bᵥ, iₒ, kₒ], t2 [cᵥ, dᵥ, jₒ, lₒ], t2 [eᵥ, fᵥ, mₒ, nₒ], t2 [cᵥ, eᵥ, mₒ, nₒ], g [dᵥ, fᵥ, kₒ, lₒ]], [(1, [iₒ, jₒ, aᵥ, bᵥ])]⟩,
  -- line 37: ikab,lmcd,jnef,eflm,cdkn->ijab
  ⟨-1/16, [t2 [aᵥ, bᵥ, iₒ, kₒ], t2 [cᵥ, dᵥ, lₒ, mₒ], t2 [eᵥ, fᵥ, jₒ, nₒ], t2 [eᵥ, fᵥ, lₒ, mₒ], g [cᵥ, dᵥ, kₒ, nₒ]], [(1, [iₒ, jₒ, aᵥ, bᵥ])]⟩,
  -- line 38: klab,ijcd,mnef,cekm,dfln->ijab
  ⟨1/4, [t2 [aᵥ, bᵥ, kₒ, lₒ], t2 [cᵥ, dᵥ, iₒ, jₒ], t2 [eᵥ, fᵥ, mₒ, nₒ], t2 [cᵥ, eᵥ, kₒ, mₒ], g [dᵥ, fᵥ, lₒ, nₒ]], [(1, [iₒ, jₒ, aᵥ, bᵥ])]⟩,
  -- line 39: klab,ijcd,mnef,efkm,cdln->ijab
  ⟨-1/16, [t2 [aᵥ, bᵥ, kₒ, lₒ], t2 [cᵥ, dᵥ, iₒ, jₒ], t2 [eᵥ, fᵥ, mₒ, nₒ], t2 [eᵥ, fᵥ, kₒ, mₒ], g [cᵥ, dᵥ, lₒ, nₒ]], [(1, [iₒ, jₒ, aᵥ, bᵥ])]⟩,
  -- line 40: klab,ijcd,mnef,cemn,dfkl->ijab
  ⟨-1/16, [t2 [aᵥ, bᵥ, kₒ, lₒ], t2 [cᵥ, dᵥ, iₒ, jₒ], t2 [eᵥ, fᵥ, mₒ, nₒ], t2 [cᵥ, eᵥ, mₒ, nₒ], g [dᵥ, fᵥ, kₒ, lₒ]], [(1, [iₒ, jₒ, aᵥ, bᵥ])]⟩,
  -- line 41: klab,imcd,jnef,efkm,cdln->ijab
  ⟨1/8, [t2 [aᵥ, bᵥ, kₒ, lₒ], t2 [cᵥ, dᵥ, iₒ, mₒ], t2 [eᵥ, fᵥ, jₒ, nₒ], t2 [eᵥ, fᵥ, kₒ, mₒ], g [cᵥ, dᵥ, lₒ, nₒ]], [(1, [iₒ, jₒ, aᵥ, bᵥ])]⟩,
  -- line 42: klab,imcd,jnef,cekn,dflm->ijab
  ⟨1/2, [t2 [aᵥ, bᵥ, kₒ, lₒ], t2 [cᵥ, dᵥ, iₒ, mₒ], t2 [eᵥ, fᵥ, jₒ, nₒ], t2 [cᵥ, eᵥ, kₒ, nₒ], g [dᵥ, fᵥ, lₒ, mₒ]], [(1, [iₒ, jₒ, aᵥ, bᵥ])]⟩,
  -- line 43: klab,imcd,jnef,cemn,dfkl->ijab
  ⟨1/8, [t2 [aᵥ, bᵥ, kₒ, lₒ], t2 [cᵥ, dᵥ, iₒ, mₒ], t2 [eᵥ, fᵥ, jₒ, nₒ], t2 [cᵥ, eᵥ, mₒ, nₒ], g [dᵥ, fᵥ, kₒ, lₒ]], [(1, [iₒ, jₒ, aᵥ, bᵥ])]⟩,
  -- line 44: ijac,klbd,mnef,efkl,cdmn->ijab
  ⟨-1/16, [t2 [aᵥ, cᵥ, iₒ, jₒ], t2 [bᵥ, dᵥ, kₒ, lₒ], t2 [eᵥ, fᵥ, mₒ, nₒ], t2 [eᵥ, fᵥ, kₒ, lₒ], g [cᵥ, dᵥ, mₒ, nₒ]], [(1, [iₒ, jₒ, aᵥ, bᵥ])]⟩,
  -- line 45: ijac,klbd,mnef,dekm,cfln->ijab
  ⟨1/2, [t2 [aᵥ, cᵥ, iₒ, jₒ], t2 [bᵥ, dᵥ, kₒ, lₒ], t2 [eᵥ, fᵥ, mₒ, nₒ], t2 [dᵥ, eᵥ, kₒ, mₒ], g [cᵥ, fᵥ, lₒ, nₒ]], [(1, [iₒ, jₒ, aᵥ, bᵥ])]⟩,
  -- line 46: ijac,klbd,mnef,efkm,cdln->ijab
  ⟨1/4, [t2 [aᵥ, cᵥ, iₒ, jₒ], t2 [bᵥ, dᵥ, kₒ, lₒ], t2 [eᵥ, fᵥ, mₒ, nₒ], t2 [eᵥ, fᵥ, kₒ, mₒ], g [cᵥ, dᵥ, lₒ, nₒ]], [(1, [iₒ, jₒ, aᵥ, bᵥ])]⟩,
  -- line 47: ijac,klbd,mnef,demn,cfkl->ijab
  ⟨-1/8, [t2 [aᵥ, cᵥ, iₒ, jₒ], t2 [bᵥ, dᵥ, kₒ, lₒ], t2 [eᵥ, fᵥ, mₒ, nₒ], t2 [dᵥ, eᵥ, mₒ, nₒ], g [cᵥ, fᵥ, kₒ, lₒ]], [(1, [iₒ, jₒ, aᵥ, bᵥ])]⟩,
  -- line 48: ikac,jlbd,mnef,efkl,cdmn->ijab
  ⟨1/8, [t2 [aᵥ, cᵥ, iₒ, kₒ], t2 [bᵥ, dᵥ, jₒ, lₒ], t2 [eᵥ, fᵥ, mₒ, nₒ], t2 [eᵥ, fᵥ, kₒ, lₒ], g [cᵥ, dᵥ, mₒ, nₒ]], [(1, [iₒ, jₒ, aᵥ, bᵥ])]⟩,
  -- line 49: ikac,jlbd,mnef,dekm,cfln->ijab
  ⟨-1, [t2 [aᵥ, cᵥ, iₒ, kₒ], t2 [bᵥ, dᵥ, jₒ, lₒ], t2 [eᵥ, fᵥ, mₒ, nₒ], t2 [dᵥ, eᵥ, kₒ, mₒ], g [cᵥ, fᵥ, lₒ, nₒ]], [(1, [iₒ, jₒ, aᵥ, bᵥ])]⟩,
  -- line 50: ikac,jlbd,mnef,eflm,cdkn->ijab
  ⟨1/2, [t2 [aᵥ, cᵥ, iₒ, kₒ], t2 [bᵥ, dᵥ, jₒ, lₒ], t2 [eᵥ, fᵥ, mₒ, nₒ], t2 [eᵥ, fᵥ, lₒ, mₒ], g [cᵥ, dᵥ, kₒ, nₒ]], [(1, [iₒ, jₒ, aᵥ, bᵥ])]⟩,
  -- line 51: ikac,jlbd,mnef,demn,cfkl->ijab
  ⟨1/2, [t2 [aᵥ, cᵥ, iₒ, kₒ], t2 [bᵥ, dᵥ, jₒ, lₒ], t2 [eᵥ, fᵥ, mₒ, nₒ], t2 [dᵥ, eᵥ, mₒ, nₒ], g [cᵥ, fᵥ, kₒ, lₒ]], [(1, [iₒ, jₒ, aᵥ, bᵥ])]⟩,
  -- line 52: ikac,lmbd,jnef,dekl,cfmn->ijab
  ⟨1, [t2 [aᵥ, cᵥ, iₒ, kₒ], t2 [bᵥ, dᵥ, lₒ, mₒ], t2 [eᵥ, fᵥ, jₒ, nₒ], t2 [dᵥ, eᵥ, kₒ, lₒ], g [cᵥ, fᵥ, mₒ, nₒ]], [(1, [iₒ, jₒ, aᵥ, bᵥ])]⟩,
  -- line 53: ikac,lmbd,jnef,efkl,cdmn->ijab
  ⟨1/2, [t2 [aᵥ, cᵥ, iₒ, kₒ], t2 [bᵥ, dᵥ, lₒ, mₒ], t2 [eᵥ, fᵥ, jₒ, nₒ], t2 [eᵥ, fᵥ, kₒ, lₒ], g [cᵥ, dᵥ, mₒ, nₒ]], [(1, [iₒ, jₒ, aᵥ, bᵥ])]⟩,
  -- line 54: ikac,lmbd,jnef,dekn,cflm->ijab
  ⟨1/2, [t2 [aᵥ, cᵥ, iₒ, kₒ], t2 [bᵥ, dᵥ, lₒ, mₒ], t2 [eᵥ, fᵥ, jₒ, nₒ], t2 [dᵥ, eᵥ, kₒ, nₒ], g [cᵥ, fᵥ, lₒ, mₒ]], [(1, [iₒ, jₒ, aᵥ, bᵥ])]⟩,
  -- line 55: ikac,lmbd,jnef,eflm,cdkn->ijab
  ⟨1/4, [t2 [aᵥ, cᵥ, iₒ, kₒ], t2 [bᵥ, dᵥ, lₒ, mₒ], t2 [eᵥ, fᵥ, jₒ, nₒ], t2 [eᵥ, fᵥ, lₒ, mₒ], g [cᵥ, dᵥ, kₒ, nₒ]], [(1, [iₒ, jₒ, aᵥ, bᵥ])]⟩,
  -- line 56: ikac,lmbd,jnef,deln,cfkm->ijab
  ⟨-1, [t2 [aᵥ, cᵥ, iₒ, kₒ], t2 [bᵥ, dᵥ, lₒ, mₒ], t2 [eᵥ, fᵥ, jₒ, nₒ], t2 [dᵥ, eᵥ, lₒ, nₒ], g [cᵥ, fᵥ, kₒ, mₒ]], [(1, [iₒ, jₒ, aᵥ, bᵥ])]⟩,
  -- line 57: klac,imbd,jnef,dekl,cfmn->ijab
  ⟨1/2, [t2 [aᵥ, cᵥ, kₒ, lₒ], t2 [bᵥ, dᵥ, iₒ, mₒ], t2 [eᵥ, fᵥ, jₒ, nₒ], t2 [dᵥ, eᵥ, kₒ, lₒ], g [cᵥ, fᵥ, mₒ, nₒ]], [(1, [iₒ, jₒ, aᵥ, bᵥ])]⟩,
  -- line 58: klac,imbd,jnef,dekn,cflm->ijab
  ⟨1, [t2 [aᵥ, cᵥ, kₒ, lₒ], t2 [bᵥ, dᵥ, iₒ, mₒ], t2 [eᵥ, fᵥ, jₒ, nₒ], t2 [dᵥ, eᵥ, kₒ, nₒ], g [cᵥ, fᵥ, lₒ, mₒ]], [(1, [iₒ, jₒ, aᵥ, bᵥ])]⟩,
  -- line 59: klac,mnbd,ijef,dekl,cfmn->ijab
  ⟨-1/8, [t2 [aᵥ, cᵥ, kₒ, lₒ], t2 [bᵥ, dᵥ, mₒ, nₒ], t2 [eᵥ, fᵥ, iₒ, jₒ], t2 [dᵥ, eᵥ, kₒ, lₒ], g [cᵥ, fᵥ, mₒ, nₒ]], [(1, [iₒ, jₒ, aᵥ, bᵥ])]⟩,
  -- line 60: klac,mnbd,ijef,dekm,cfln->ijab
  ⟨1/2, [t2 [aᵥ, cᵥ, kₒ, lₒ], t2 [bᵥ, dᵥ, mₒ, nₒ], t2 [eᵥ, fᵥ, iₒ, jₒ], t2 [dᵥ, eᵥ, kₒ, mₒ], g [cᵥ, fᵥ, lₒ, nₒ]], [(1, [iₒ, jₒ, aᵥ, bᵥ])]⟩,
  -- line 61: ijcd,klae,mnbf,efkm,cdln->ijab
  ⟨1/8, [t2 [cᵥ, dᵥ, iₒ, jₒ], t2 [aᵥ, eᵥ, kₒ, lₒ], t2 [bᵥ, fᵥ, mₒ, nₒ], t2 [eᵥ, fᵥ, kₒ, mₒ], g [cᵥ, dᵥ, lₒ, nₒ]], [(1, [iₒ, jₒ, aᵥ, bᵥ])]⟩,
  -- line 62: ikcd,jlae,mnbf,efkm,cdln->ijab
  ⟨-1/2, [t2 [cᵥ, dᵥ, iₒ, kₒ], t2 [aᵥ, eᵥ, jₒ, lₒ], t2 [bᵥ, fᵥ, mₒ, nₒ], t2 [eᵥ, fᵥ, kₒ, mₒ], g [cᵥ, dᵥ, lₒ, nₒ]], [(1, [iₒ, jₒ, aᵥ, bᵥ])]⟩,
  -- line 63: klcd,imae,jnbf,efkl,cdmn->ijab
  ⟨1/8, [t2 [cᵥ, dᵥ, kₒ, lₒ], t2 [aᵥ, eᵥ, iₒ, mₒ], t2 [bᵥ, fᵥ, jₒ, nₒ], t2 [eᵥ, fᵥ, kₒ, lₒ], g [cᵥ, dᵥ, mₒ, nₒ]], [(1, [iₒ, jₒ, aᵥ, bᵥ])]⟩
  ]

/-- `UT2/build_qf_correction.py` 32-67, `wnT2cubed_toT2`. -/
def wnT2cubed_toT2 : Prog := Prog.through tamps_antisym_T2 (wnT2cubed_toT2_0)

/-- Part 0 of `wnT2T3_toT2`. -/
def wnT2T3_toT2_0 : Prog := [
  -- line 72: ikab,cdlm,jmncde,lekn->ijab
  ⟨1/4, [t2 [aᵥ, bᵥ, iₒ, kₒ], t2 [cᵥ, dᵥ, lₒ, mₒ], t3 [cᵥ, dᵥ, eᵥ, jₒ, mₒ, nₒ], g [lₒ, eᵥ, kₒ, nₒ]], [(1, [iₒ, jₒ, aᵥ, bᵥ])]⟩,
  -- line 73: ikab,cdlm,lmncde,jekn->ijab
  ⟨-1/8, [t2 [aᵥ, bᵥ, iₒ, kₒ], t2 [cᵥ, dᵥ, lₒ, mₒ], t3 [cᵥ, dᵥ, eᵥ, lₒ, mₒ, nₒ], g [jₒ, eᵥ, kₒ, nₒ]], [(1, [iₒ, jₒ, aᵥ, bᵥ])]⟩,
  -- line 74: ikab,cdlm,jlmdef,efkc->ijab
  ⟨-1/8, [t2 [aᵥ, bᵥ, iₒ, kₒ], t2 [cᵥ, dᵥ, lₒ, mₒ], t3 [dᵥ, eᵥ, fᵥ, jₒ, lₒ, mₒ], g [eᵥ, fᵥ, kₒ, cᵥ]], [(1, [iₒ, jₒ, aᵥ, bᵥ])]⟩,
  -- line 75: klab,cdkm,ijncde,meln->ijab
  ⟨-1/8, [t2 [aᵥ, bᵥ, kₒ, lₒ], t2 [cᵥ, dᵥ, kₒ, mₒ], t3 [cᵥ, dᵥ, eᵥ, iₒ, jₒ, nₒ], g [mₒ, eᵥ, lₒ, nₒ]], [(1, [iₒ, jₒ, aᵥ, bᵥ])]⟩,
  -- line 76: klab,cdkm,imncde,jeln->ijab
  ⟨1/4, [t2 [aᵥ, bᵥ, kₒ, lₒ], t2 [cᵥ, dᵥ, kₒ, mₒ], t3 [cᵥ, dᵥ, eᵥ, iₒ, mₒ, nₒ], g [jₒ, eᵥ, lₒ, nₒ]], [(1, [iₒ, jₒ, aᵥ, bᵥ])]⟩,
  -- line 77: klab,cdkm,ijmdef,eflc->ijab
  ⟨-1/8, [t2 [aᵥ, bᵥ, kₒ, lₒ], t2 [cᵥ, dᵥ, kₒ, mₒ], t3 [dᵥ, eᵥ, fᵥ, iₒ, jₒ, mₒ], g [eᵥ, fᵥ, lₒ, cᵥ]], [(1, [iₒ, jₒ, aᵥ, bᵥ])]⟩,
  -- line 78: klab,cdmn,ijncde,mekl->ijab
  ⟨1/16, [t2 [aᵥ, bᵥ, kₒ, lₒ], t2 [cᵥ, dᵥ, mₒ, nₒ], t3 [cᵥ, dᵥ, eᵥ, iₒ, jₒ, nₒ], g [mₒ, eᵥ, kₒ, lₒ]], [(1, [iₒ, jₒ, aᵥ, bᵥ])]⟩,
  -- line 79: klab,cdmn,imncde,jekl->ijab
  ⟨-1/16, [t2 [aᵥ, bᵥ, kₒ, lₒ], t2 [cᵥ, dᵥ, mₒ, nₒ], t3 [cᵥ, dᵥ, eᵥ, iₒ, mₒ, nₒ], g [jₒ, eᵥ, kₒ, lₒ]], [(1, [iₒ, jₒ, aᵥ, bᵥ])]⟩,
  -- line 80: ijac,dekl,lmnbde,kcmn->ijab
  ⟨-1/8, [t2 [aᵥ, cᵥ, iₒ, jₒ], t2 [dᵥ, eᵥ, kₒ, lₒ], t3 [bᵥ, dᵥ, eᵥ, lₒ, mₒ, nₒ], g [kₒ, cᵥ, mₒ, nₒ]], [(1, [iₒ, jₒ, aᵥ, bᵥ])]⟩,
  -- line 81: ijac,dekl,klmbef,cfmd->ijab
  ⟨1/4, [t2 [aᵥ, cᵥ, iₒ, jₒ], t2 [dᵥ, eᵥ, kₒ, lₒ], t3 [bᵥ, eᵥ, fᵥ, kₒ, lₒ, mₒ], g [cᵥ, fᵥ, mₒ, dᵥ]], [(1, [iₒ, jₒ, aᵥ, bᵥ])]⟩,
  -- line 82: ijac,dekl,klmdef,cfmb->ijab
  ⟨-1/8, [t2 [aᵥ, cᵥ, iₒ, jₒ], t2 [dᵥ, eᵥ, kₒ, lₒ], t3 [dᵥ, eᵥ, fᵥ, kₒ, lₒ, mₒ], g [cᵥ, fᵥ, mₒ, bᵥ]], [(1, [iₒ, jₒ, aᵥ, bᵥ])]⟩,
  -- line 83: ikac,dekl,jmnbde,lcmn->ijab
  ⟨-1/4, [t2 [aᵥ, cᵥ, iₒ, kₒ], t2 [dᵥ, eᵥ, kₒ, lₒ], t3 [bᵥ, dᵥ, eᵥ, jₒ, mₒ, nₒ], g [lₒ, cᵥ, mₒ, nₒ]], [(1, [iₒ, jₒ, aᵥ, bᵥ])]⟩,
  -- line 84: ikac,dekl,lmnbde,jcmn->ijab
  ⟨1/4, [t2 [aᵥ, cᵥ, iₒ, kₒ], t2 [dᵥ, eᵥ, kₒ, lₒ], t3 [bᵥ, dᵥ, eᵥ, lₒ, mₒ, nₒ], g [jₒ, cᵥ, mₒ, nₒ]], [(1, [iₒ, jₒ, aᵥ, bᵥ])]⟩,
  -- line 85: ikac,dekl,jlmbef,cfmd->ijab
  ⟨-1, [t2 [aᵥ, cᵥ, iₒ, kₒ], t2 [dᵥ, eᵥ, kₒ, lₒ], t3 [bᵥ, eᵥ, fᵥ, jₒ, lₒ, mₒ], g [cᵥ, fᵥ, mₒ, dᵥ]], [(1, [iₒ, jₒ, aᵥ, bᵥ])]⟩,
  -- line 86: ikac,dekl,jlmdef,cfmb->ijab
  ⟨1/2, [t2 [aᵥ, cᵥ, iₒ, kₒ], t2 [dᵥ, eᵥ, kₒ, lₒ], t3 [dᵥ, eᵥ, fᵥ, jₒ, lₒ, mₒ], g [cᵥ, fᵥ, mₒ, bᵥ]], [(1, [iₒ, jₒ, aᵥ, bᵥ])]⟩,
  -- line 87: ikac,cdlm,jmnbde,lekn->ijab
  ⟨-1, [t2 [aᵥ, cᵥ, iₒ, kₒ], t2 [cᵥ, dᵥ, lₒ, mₒ], t3 [bᵥ, dᵥ, eᵥ, jₒ, mₒ, nₒ], g [lₒ, eᵥ, kₒ, nₒ]], [(1, [iₒ, jₒ, aᵥ, bᵥ])]⟩,
  -- line 88: ikac,cdlm,lmnbde,jekn->ijab
  ⟨1/2, [t2 [aᵥ, cᵥ, iₒ, kₒ], t2 [cᵥ, dᵥ, lₒ, mₒ], t3 [bᵥ, dᵥ, eᵥ, lₒ, mₒ, nₒ], g [jₒ, eᵥ, kₒ, nₒ]], [(1, [iₒ, jₒ, aᵥ, bᵥ])]⟩,
  -- line 89: ikac,cdlm,jlmbef,efkd->ijab
  ⟨-1/4, [t2 [aᵥ, cᵥ, iₒ, kₒ], t2 [cᵥ, dᵥ, lₒ, mₒ], t3 [bᵥ, eᵥ, fᵥ, jₒ, lₒ, mₒ], g [eᵥ, fᵥ, kₒ, dᵥ]], [(1, [iₒ, jₒ, aᵥ, bᵥ])]⟩,
  -- line 90: ikac,cdlm,jlmdef,efkb->ijab
  ⟨1/4, [t2 [aᵥ, cᵥ, iₒ, kₒ], t2 [cᵥ, dᵥ, lₒ, mₒ], t3 [dᵥ, eᵥ, fᵥ, jₒ, lₒ, mₒ], g [eᵥ, fᵥ, kₒ, bᵥ]], [(1, [iₒ, jₒ, aᵥ, bᵥ])]⟩,
  -- line 91: ikac,delm,jmnbde,lckn->ijab
  ⟨-1/2, [t2 [aᵥ, cᵥ, iₒ, kₒ], t2 [dᵥ, eᵥ, lₒ, mₒ], t3 [bᵥ, dᵥ, eᵥ, jₒ, mₒ, nₒ], g [lₒ, cᵥ, kₒ, nₒ]], [(1, [iₒ, jₒ, aᵥ, bᵥ])]⟩,
  -- line 92: ikac,delm,lmnbde,jckn->ijab
  ⟨1/4, [t2 [aᵥ, cᵥ, iₒ, kₒ], t2 [dᵥ, eᵥ, lₒ, mₒ], t3 [bᵥ, dᵥ, eᵥ, lₒ, mₒ, nₒ], g [jₒ, cᵥ, kₒ, nₒ]], [(1, [iₒ, jₒ, aᵥ, bᵥ])]⟩,
  -- line 93: ikac,delm,jlmbef,cfkd->ijab
  ⟨-1/2, [t2 [aᵥ, cᵥ, iₒ, kₒ], t2 [dᵥ, eᵥ, lₒ, mₒ], t3 [bᵥ, eᵥ, fᵥ, jₒ, lₒ, mₒ], g [cᵥ, fᵥ, kₒ, dᵥ]], [(1, [iₒ, jₒ, aᵥ, bᵥ])]⟩,
  -- line 94: ikac,delm,jlmdef,cfkb->ijab
  ⟨1/4, [t2 [aᵥ, cᵥ, iₒ, kₒ], t2 [dᵥ, eᵥ, lₒ, mₒ], t3 [dᵥ, eᵥ, fᵥ, jₒ, lₒ, mₒ], g [cᵥ, fᵥ, kₒ, bᵥ]], [(1, [iₒ, jₒ, aᵥ, bᵥ])]⟩,
  -- line 95: klac,dekl,imnbde,jcmn->ijab
  ⟨1/8, [t2 [aᵥ, cᵥ, kₒ, lₒ], t2 [dᵥ, eᵥ, kₒ, lₒ], t3 [bᵥ, dᵥ, eᵥ, iₒ, mₒ, nₒ], g [jₒ, cᵥ, mₒ, nₒ]], [(1, [iₒ, jₒ, aᵥ, bᵥ])]⟩,
  -- line 96: klac,dekl,ijmbef,cfmd->ijab
  ⟨1/4, [t2 [aᵥ, cᵥ, kₒ, lₒ], t2 [dᵥ, eᵥ, kₒ, lₒ], t3 [bᵥ, eᵥ, fᵥ, iₒ, jₒ, mₒ], g [cᵥ, fᵥ, mₒ, dᵥ]], [(1, [iₒ, jₒ, aᵥ, bᵥ])]⟩,
  -- line 97: klac,dekl,ijmdef,cfmb->ijab
  ⟨-1/8, [t2 [aᵥ, cᵥ, kₒ, lₒ], t2 [dᵥ, eᵥ, kₒ, lₒ], t3 [dᵥ, eᵥ, fᵥ, iₒ, jₒ, mₒ], g [cᵥ, fᵥ, mₒ, bᵥ]], [(1, [iₒ, jₒ, aᵥ, bᵥ])]⟩,
  -- line 98: klac,cdkm,ijnbde,meln->ijab
  ⟨1/2, [t2 [aᵥ, cᵥ, kₒ, lₒ], t2 [cᵥ, dᵥ, kₒ, mₒ], t3 [bᵥ, dᵥ, eᵥ, iₒ, jₒ, nₒ], g [mₒ, eᵥ, lₒ, nₒ]], [(1, [iₒ, jₒ, aᵥ, bᵥ])]⟩,
  -- line 99: klac,cdkm,imnbde,jeln->ijab
  ⟨-1, [t2 [aᵥ, cᵥ, kₒ, lₒ], t2 [cᵥ, dᵥ, kₒ, mₒ], t3 [bᵥ, dᵥ, eᵥ, iₒ, mₒ, nₒ], g [jₒ, eᵥ, lₒ, nₒ]], [(1, [iₒ, jₒ, aᵥ, bᵥ])]⟩,
  -- line 100: klac,cdkm,ijmbef,efld->ijab
  ⟨-1/4, [t2 [aᵥ, cᵥ, kₒ, lₒ], t2 [cᵥ, dᵥ, kₒ, mₒ], t3 [bᵥ, eᵥ, fᵥ, iₒ, jₒ, mₒ], g [eᵥ, fᵥ, lₒ, dᵥ]], [(1, [iₒ, jₒ, aᵥ, bᵥ])]⟩,
  -- line 101: klac,cdkm,ijmdef,eflb->ijab
  ⟨1/4, [t2 [aᵥ, cᵥ, kₒ, lₒ], t2 [cᵥ, dᵥ, kₒ, mₒ], t3 [dᵥ, eᵥ, fᵥ, iₒ, jₒ, mₒ], g [eᵥ, fᵥ, lₒ, bᵥ]], [(1, [iₒ, jₒ, aᵥ, bᵥ])]⟩,
  -- line 102: klac,dekm,ijnbde,mcln->ijab
  ⟨1/4, [t2 [aᵥ, cᵥ, kₒ, lₒ], t2 [dᵥ, eᵥ, kₒ, mₒ], t3 [bᵥ, dᵥ, eᵥ, iₒ, jₒ, nₒ], g [mₒ, cᵥ, lₒ, nₒ]], [(1, [iₒ, jₒ, aᵥ, bᵥ])]⟩,
  -- line 103: klac,dekm,imnbde,jcln->ijab
  ⟨-1/2, [t2 [aᵥ, cᵥ, kₒ, lₒ], t2 [dᵥ, eᵥ, kₒ, mₒ], t3 [bᵥ, dᵥ, eᵥ, iₒ, mₒ, nₒ], g [jₒ, cᵥ, lₒ, nₒ]], [(1, [iₒ, jₒ, aᵥ, bᵥ])]⟩,
  -- line 104: klac,dekm,ijmbef,cfld->ijab
  ⟨-1/2, [t2 [aᵥ, cᵥ, kₒ, lₒ], t2 [dᵥ, eᵥ, kₒ, mₒ], t3 [bᵥ, eᵥ, fᵥ, iₒ, jₒ, mₒ], g [cᵥ, fᵥ, lₒ, dᵥ]], [(1, [iₒ, jₒ, aᵥ, bᵥ])]⟩,
  -- line 105: klac,dekm,ijmdef,cflb->ijab
  ⟨1/4, [t2 [aᵥ, cᵥ, kₒ, lₒ], t2 [dᵥ, eᵥ, kₒ, mₒ], t3 [dᵥ, eᵥ, fᵥ, iₒ, jₒ, mₒ], g [cᵥ, fᵥ, lₒ, bᵥ]], [(1, [iₒ, jₒ, aᵥ, bᵥ])]⟩,
  -- line 106: klac,cdmn,ijnbde,mekl->ijab
  ⟨-1/4, [t2 [aᵥ, cᵥ, kₒ, lₒ], t2 [cᵥ, dᵥ, mₒ, nₒ], t3 [bᵥ, dᵥ, eᵥ, iₒ, jₒ, nₒ], g [mₒ, eᵥ, kₒ, lₒ]], [(1, [iₒ, jₒ, aᵥ, bᵥ])]⟩,
  -- line 107: klac,cdmn,imnbde,jekl->ijab
  ⟨1/4, [t2 [aᵥ, cᵥ, kₒ, lₒ], t2 [cᵥ, dᵥ, mₒ, nₒ], t3 [bᵥ, dᵥ, eᵥ, iₒ, mₒ, nₒ], g [jₒ, eᵥ, kₒ, lₒ]], [(1, [iₒ, jₒ, aᵥ, bᵥ])]⟩,
  -- line 108: ijcd,cekl,lmnabe,kdmn->ijab
  ⟨-1/8, [t2 [cᵥ, dᵥ, iₒ, jₒ], t2 [cᵥ, eᵥ, kₒ, lₒ], t3 [aᵥ, bᵥ, eᵥ, lₒ, mₒ, nₒ], g [kₒ, dᵥ, mₒ, nₒ]], [(1, [iₒ, jₒ, aᵥ, bᵥ])]⟩,
  -- line 109: ijcd,cekl,klmabf,dfme->ijab
  ⟨-1/8, [t2 [cᵥ, dᵥ, iₒ, jₒ], t2 [cᵥ, eᵥ, kₒ, lₒ], t3 [aᵥ, bᵥ, fᵥ, kₒ, lₒ, mₒ], g [dᵥ, fᵥ, mₒ, eᵥ]], [(1, [iₒ, jₒ, aᵥ, bᵥ])]⟩,
  -- line 110: ijcd,cekl,klmaef,dfmb->ijab
  ⟨1/4, [t2 [cᵥ, dᵥ, iₒ, jₒ], t2 [cᵥ, eᵥ, kₒ, lₒ], t3 [aᵥ, eᵥ, fᵥ, kₒ, lₒ, mₒ], g [dᵥ, fᵥ, mₒ, bᵥ]], [(1, [iₒ, jₒ, aᵥ, bᵥ])]⟩,
  -- line 111: ijcd,efkl,klmabf,cdme->ijab
  ⟨1/16, [t2 [cᵥ, dᵥ, iₒ, jₒ], t2 [eᵥ, fᵥ, kₒ, lₒ], t3 [aᵥ, bᵥ, fᵥ, kₒ, lₒ, mₒ], g [cᵥ, dᵥ, mₒ, eᵥ]], [(1, [iₒ, jₒ, aᵥ, bᵥ])]⟩
  ]

/-- Part 1 of `wnT2T3_toT2`. -/
def wnT2T3_toT2_1 : Prog := [
  -- line 112: ijcd,efkl,klmaef,cdmb->ijab
  ⟨-1/16, [t2 [cᵥ, dᵥ, iₒ, jₒ], t2 [eᵥ, fᵥ, kₒ, lₒ], t3 [aᵥ, eᵥ, fᵥ, kₒ, lₒ, mₒ], g [cᵥ, dᵥ, mₒ, bᵥ]], [(1, [iₒ, jₒ, aᵥ, bᵥ])]⟩,
  -- line 113: ikcd,cekl,jmnabe,ldmn->ijab
  ⟨-1/4, [t2 [cᵥ, dᵥ, iₒ, kₒ], t2 [cᵥ, eᵥ, kₒ, lₒ], t3 [aᵥ, bᵥ, eᵥ, jₒ, mₒ, nₒ], g [lₒ, dᵥ, mₒ, nₒ]], [(1, [iₒ, jₒ, aᵥ, bᵥ])]⟩,
  -- line 114: ikcd,cekl,lmnabe,jdmn->ijab
  ⟨1/4, [t2 [cᵥ, dᵥ, iₒ, kₒ], t2 [cᵥ, eᵥ, kₒ, lₒ], t3 [aᵥ, bᵥ, eᵥ, lₒ, mₒ, nₒ], g [jₒ, dᵥ, mₒ, nₒ]], [(1, [iₒ, jₒ, aᵥ, bᵥ])]⟩,
  -- line 115: ikcd,cekl,jlmabf,dfme->ijab
  ⟨1/2, [t2 [cᵥ, dᵥ, iₒ, kₒ], t2 [cᵥ, eᵥ, kₒ, lₒ], t3 [aᵥ, bᵥ, fᵥ, jₒ, lₒ, mₒ], g [dᵥ, fᵥ, mₒ, eᵥ]], [(1, [iₒ, jₒ, aᵥ, bᵥ])]⟩,
  -- line 116: ikcd,cekl,jlmaef,dfmb->ijab
  ⟨-1, [t2 [cᵥ, dᵥ, iₒ, kₒ], t2 [cᵥ, eᵥ, kₒ, lₒ], t3 [aᵥ, eᵥ, fᵥ, jₒ, lₒ, mₒ], g [dᵥ, fᵥ, mₒ, bᵥ]], [(1, [iₒ, jₒ, aᵥ, bᵥ])]⟩,
  -- line 117: ikcd,efkl,jlmabf,cdme->ijab
  ⟨-1/4, [t2 [cᵥ, dᵥ, iₒ, kₒ], t2 [eᵥ, fᵥ, kₒ, lₒ], t3 [aᵥ, bᵥ, fᵥ, jₒ, lₒ, mₒ], g [cᵥ, dᵥ, mₒ, eᵥ]], [(1, [iₒ, jₒ, aᵥ, bᵥ])]⟩,
  -- line 118: ikcd,efkl,jlmaef,cdmb->ijab
  ⟨1/4, [t2 [cᵥ, dᵥ, iₒ, kₒ], t2 [eᵥ, fᵥ, kₒ, lₒ], t3 [aᵥ, eᵥ, fᵥ, jₒ, lₒ, mₒ], g [cᵥ, dᵥ, mₒ, bᵥ]], [(1, [iₒ, jₒ, aᵥ, bᵥ])]⟩,
  -- line 119: ikcd,cdlm,jmnabe,lekn->ijab
  ⟨1/4, [t2 [cᵥ, dᵥ, iₒ, kₒ], t2 [cᵥ, dᵥ, lₒ, mₒ], t3 [aᵥ, bᵥ, eᵥ, jₒ, mₒ, nₒ], g [lₒ, eᵥ, kₒ, nₒ]], [(1, [iₒ, jₒ, aᵥ, bᵥ])]⟩,
  -- line 120: ikcd,cdlm,lmnabe,jekn->ijab
  ⟨-1/8, [t2 [cᵥ, dᵥ, iₒ, kₒ], t2 [cᵥ, dᵥ, lₒ, mₒ], t3 [aᵥ, bᵥ, eᵥ, lₒ, mₒ, nₒ], g [jₒ, eᵥ, kₒ, nₒ]], [(1, [iₒ, jₒ, aᵥ, bᵥ])]⟩,
  -- line 121: ikcd,cdlm,jlmaef,efkb->ijab
  ⟨1/8, [t2 [cᵥ, dᵥ, iₒ, kₒ], t2 [cᵥ, dᵥ, lₒ, mₒ], t3 [aᵥ, eᵥ, fᵥ, jₒ, lₒ, mₒ], g [eᵥ, fᵥ, kₒ, bᵥ]], [(1, [iₒ, jₒ, aᵥ, bᵥ])]⟩,
  -- line 122: ikcd,celm,jmnabe,ldkn->ijab
  ⟨-1/2, [t2 [cᵥ, dᵥ, iₒ, kₒ], t2 [cᵥ, eᵥ, lₒ, mₒ], t3 [aᵥ, bᵥ, eᵥ, jₒ, mₒ, nₒ], g [lₒ, dᵥ, kₒ, nₒ]], [(1, [iₒ, jₒ, aᵥ, bᵥ])]⟩,
  -- line 123: ikcd,celm,lmnabe,jdkn->ijab
  ⟨1/4, [t2 [cᵥ, dᵥ, iₒ, kₒ], t2 [cᵥ, eᵥ, lₒ, mₒ], t3 [aᵥ, bᵥ, eᵥ, lₒ, mₒ, nₒ], g [jₒ, dᵥ, kₒ, nₒ]], [(1, [iₒ, jₒ, aᵥ, bᵥ])]⟩,
  -- line 124: ikcd,celm,jlmabf,dfke->ijab
  ⟨1/4, [t2 [cᵥ, dᵥ, iₒ, kₒ], t2 [cᵥ, eᵥ, lₒ, mₒ], t3 [aᵥ, bᵥ, fᵥ, jₒ, lₒ, mₒ], g [dᵥ, fᵥ, kₒ, eᵥ]], [(1, [iₒ, jₒ, aᵥ, bᵥ])]⟩,
  -- line 125: ikcd,celm,jlmaef,dfkb->ijab
  ⟨-1/2, [t2 [cᵥ, dᵥ, iₒ, kₒ], t2 [cᵥ, eᵥ, lₒ, mₒ], t3 [aᵥ, eᵥ, fᵥ, jₒ, lₒ, mₒ], g [dᵥ, fᵥ, kₒ, bᵥ]], [(1, [iₒ, jₒ, aᵥ, bᵥ])]⟩,
  -- line 126: klcd,cekl,imnabe,jdmn->ijab
  ⟨1/8, [t2 [cᵥ, dᵥ, kₒ, lₒ], t2 [cᵥ, eᵥ, kₒ, lₒ], t3 [aᵥ, bᵥ, eᵥ, iₒ, mₒ, nₒ], g [jₒ, dᵥ, mₒ, nₒ]], [(1, [iₒ, jₒ, aᵥ, bᵥ])]⟩,
  -- line 127: klcd,cekl,ijmabf,dfme->ijab
  ⟨-1/8, [t2 [cᵥ, dᵥ, kₒ, lₒ], t2 [cᵥ, eᵥ, kₒ, lₒ], t3 [aᵥ, bᵥ, fᵥ, iₒ, jₒ, mₒ], g [dᵥ, fᵥ, mₒ, eᵥ]], [(1, [iₒ, jₒ, aᵥ, bᵥ])]⟩,
  -- line 128: klcd,cekl,ijmaef,dfmb->ijab
  ⟨1/4, [t2 [cᵥ, dᵥ, kₒ, lₒ], t2 [cᵥ, eᵥ, kₒ, lₒ], t3 [aᵥ, eᵥ, fᵥ, iₒ, jₒ, mₒ], g [dᵥ, fᵥ, mₒ, bᵥ]], [(1, [iₒ, jₒ, aᵥ, bᵥ])]⟩,
  -- line 129: klcd,efkl,ijmabf,cdme->ijab
  ⟨1/16, [t2 [cᵥ, dᵥ, kₒ, lₒ], t2 [eᵥ, fᵥ, kₒ, lₒ], t3 [aᵥ, bᵥ, fᵥ, iₒ, jₒ, mₒ], g [cᵥ, dᵥ, mₒ, eᵥ]], [(1, [iₒ, jₒ, aᵥ, bᵥ])]⟩,
  -- line 130: klcd,efkl,ijmaef,cdmb->ijab
  ⟨-1/16, [t2 [cᵥ, dᵥ, kₒ, lₒ], t2 [eᵥ, fᵥ, kₒ, lₒ], t3 [aᵥ, eᵥ, fᵥ, iₒ, jₒ, mₒ], g [cᵥ, dᵥ, mₒ, bᵥ]], [(1, [iₒ, jₒ, aᵥ, bᵥ])]⟩,
  -- line 131: klcd,cdkm,ijnabe,meln->ijab
  ⟨-1/8, [t2 [cᵥ, dᵥ, kₒ, lₒ], t2 [cᵥ, dᵥ, kₒ, mₒ], t3 [aᵥ, bᵥ, eᵥ, iₒ, jₒ, nₒ], g [mₒ, eᵥ, lₒ, nₒ]], [(1, [iₒ, jₒ, aᵥ, bᵥ])]⟩,
  -- line 132: klcd,cdkm,imnabe,jeln->ijab
  ⟨1/4, [t2 [cᵥ, dᵥ, kₒ, lₒ], t2 [cᵥ, dᵥ, kₒ, mₒ], t3 [aᵥ, bᵥ, eᵥ, iₒ, mₒ, nₒ], g [jₒ, eᵥ, lₒ, nₒ]], [(1, [iₒ, jₒ, aᵥ, bᵥ])]⟩,
  -- line 133: klcd,cdkm,ijmaef,eflb->ijab
  ⟨1/8, [t2 [cᵥ, dᵥ, kₒ, lₒ], t2 [cᵥ, dᵥ, kₒ, mₒ], t3 [aᵥ, eᵥ, fᵥ, iₒ, jₒ, mₒ], g [eᵥ, fᵥ, lₒ, bᵥ]], [(1, [iₒ, jₒ, aᵥ, bᵥ])]⟩,
  -- line 134: klcd,cekm,ijnabe,mdln->ijab
  ⟨1/4, [t2 [cᵥ, dᵥ, kₒ, lₒ], t2 [cᵥ, eᵥ, kₒ, mₒ], t3 [aᵥ, bᵥ, eᵥ, iₒ, jₒ, nₒ], g [mₒ, dᵥ, lₒ, nₒ]], [(1, [iₒ, jₒ, aᵥ, bᵥ])]⟩,
  -- line 135: klcd,cekm,imnabe,jdln->ijab
  ⟨-1/2, [t2 [cᵥ, dᵥ, kₒ, lₒ], t2 [cᵥ, eᵥ, kₒ, mₒ], t3 [aᵥ, bᵥ, eᵥ, iₒ, mₒ, nₒ], g [jₒ, dᵥ, lₒ, nₒ]], [(1, [iₒ, jₒ, aᵥ, bᵥ])]⟩,
  -- line 136: klcd,cekm,ijmabf,dfle->ijab
  ⟨1/4, [t2 [cᵥ, dᵥ, kₒ, lₒ], t2 [cᵥ, eᵥ, kₒ, mₒ], t3 [aᵥ, bᵥ, fᵥ, iₒ, jₒ, mₒ], g [dᵥ, fᵥ, lₒ, eᵥ]], [(1, [iₒ, jₒ, aᵥ, bᵥ])]⟩,
  -- line 137: klcd,cekm,ijmaef,dflb->ijab
  ⟨-1/2, [t2 [cᵥ, dᵥ, kₒ, lₒ], t2 [cᵥ, eᵥ, kₒ, mₒ], t3 [aᵥ, eᵥ, fᵥ, iₒ, jₒ, mₒ], g [dᵥ, fᵥ, lₒ, bᵥ]], [(1, [iₒ, jₒ, aᵥ, bᵥ])]⟩,
  -- line 138: klcd,cdmn,ijnabe,mekl->ijab
  ⟨1/16, [t2 [cᵥ, dᵥ, kₒ, lₒ], t2 [cᵥ, dᵥ, mₒ, nₒ], t3 [aᵥ, bᵥ, eᵥ, iₒ, jₒ, nₒ], g [mₒ, eᵥ, kₒ, lₒ]], [(1, [iₒ, jₒ, aᵥ, bᵥ])]⟩,
  -- line 139: klcd,cdmn,imnabe,jekl->ijab
  ⟨-1/16, [t2 [cᵥ, dᵥ, kₒ, lₒ], t2 [cᵥ, dᵥ, mₒ, nₒ], t3 [aᵥ, bᵥ, eᵥ, iₒ, mₒ, nₒ], g [jₒ, eᵥ, kₒ, lₒ]], [(1, [iₒ, jₒ, aᵥ, bᵥ])]⟩
  ]

/-- `UT2/build_qf_correction.py` 70-142, `wnT2T3_toT2`. -/
def wnT2T3_toT2 : Prog := Prog.through tamps_antisym_T2 (wnT2T3_toT2_0) ++ (Prog.through tamps_antisym_T2 (wnT2T3_toT2_1))

/-- Part 0 of `t4_test_residual`. -/
def t4_test_residual_0 : Prog := [
  -- line 11: nmkl,abjm,cdin->abcdijkl
  ⟨-1, [g [nₒ, mₒ, kₒ, lₒ], t2 [aᵥ, bᵥ, jₒ, mₒ], t2 [cᵥ, dᵥ, iₒ, nₒ]], [(1, [aᵥ, bᵥ, cᵥ, dᵥ, iₒ, jₒ, kₒ, lₒ]), (-1, [aᵥ, bᵥ, cᵥ, dᵥ, jₒ, iₒ, kₒ, lₒ]), (-1, [aᵥ, cᵥ, bᵥ, dᵥ, iₒ, jₒ, kₒ, lₒ]), (1, [aᵥ, cᵥ, bᵥ, dᵥ, jₒ, iₒ, kₒ, lₒ])]⟩,
  -- line 15: nmkl,adjm,bcin->abcdijkl
  ⟨-1, [g [nₒ, mₒ, kₒ, lₒ], t2 [aᵥ, dᵥ, jₒ, mₒ], t2 [bᵥ, cᵥ, iₒ, nₒ]], [(1, [aᵥ, bᵥ, cᵥ, dᵥ, iₒ, jₒ, kₒ, lₒ]), (-1, [aᵥ, bᵥ, cᵥ, dᵥ, jₒ, iₒ, kₒ, lₒ])]⟩,
  -- line 19: nmjl,abkm,cdin->abcdijkl
  ⟨1, [g [nₒ, mₒ, jₒ, lₒ], t2 [aᵥ, bᵥ, kₒ, mₒ], t2 [cᵥ, dᵥ, iₒ, nₒ]], [(1, [aᵥ, bᵥ, cᵥ, dᵥ, iₒ, jₒ, kₒ, lₒ]), (-1, [aᵥ, bᵥ, cᵥ, dᵥ, kₒ, jₒ, iₒ, lₒ]), (-1, [aᵥ, cᵥ, bᵥ, dᵥ, iₒ, jₒ, kₒ, lₒ]), (1, [aᵥ, cᵥ, bᵥ, dᵥ, kₒ, jₒ, iₒ, lₒ])]⟩,
  -- line 23: nmjl,adkm,bcin->abcdijkl
  ⟨1, [g [nₒ, mₒ, jₒ, lₒ], t2 [aᵥ, dᵥ, kₒ, mₒ], t2 [bᵥ, cᵥ, iₒ, nₒ]], [(1, [aᵥ, bᵥ, cᵥ, dᵥ, iₒ, jₒ, kₒ, lₒ]), (-1, [aᵥ, bᵥ, cᵥ, dᵥ, kₒ, jₒ, iₒ, lₒ])]⟩,
  -- line 27: nmil,abkm,cdjn->abcdijkl
  ⟨-1, [g [nₒ, mₒ, iₒ, lₒ], t2 [aᵥ, bᵥ, kₒ, mₒ], t2 [cᵥ, dᵥ, jₒ, nₒ]], [(1, [aᵥ, bᵥ, cᵥ, dᵥ, iₒ, jₒ, kₒ, lₒ]), (-1, [aᵥ, bᵥ, cᵥ, dᵥ, iₒ, kₒ, jₒ, lₒ]), (-1, [aᵥ, cᵥ, bᵥ, dᵥ, iₒ, jₒ, kₒ, lₒ]), (1, [aᵥ, cᵥ, bᵥ, dᵥ, iₒ, kₒ, jₒ, lₒ])]⟩,
  -- line 31: nmil,adkm,bcjn->abcdijkl
  ⟨-1, [g [nₒ, mₒ, iₒ, lₒ], t2 [aᵥ, dᵥ, kₒ, mₒ], t2 [bᵥ, cᵥ, jₒ, nₒ]], [(1, [aᵥ, bᵥ, cᵥ, dᵥ, iₒ, jₒ, kₒ, lₒ]), (-1, [aᵥ, bᵥ, cᵥ, dᵥ, iₒ, kₒ, jₒ, lₒ])]⟩,
  -- line 35: nmjk,ablm,cdin->abcdijkl
  ⟨-1, [g [nₒ, mₒ, jₒ, kₒ], t2 [aᵥ, bᵥ, lₒ, mₒ], t2 [cᵥ, dᵥ, iₒ, nₒ]], [(1, [aᵥ, bᵥ, cᵥ, dᵥ, iₒ, jₒ, kₒ, lₒ]), (-1, [aᵥ, bᵥ, cᵥ, dᵥ, lₒ, jₒ, kₒ, iₒ]), (-1, [aᵥ, cᵥ, bᵥ, dᵥ, iₒ, jₒ, kₒ, lₒ]), (1, [aᵥ, cᵥ, bᵥ, dᵥ, lₒ, jₒ, kₒ, iₒ])]⟩,
  -- line 39: nmjk,adlm,bcin->abcdijkl
  ⟨-1, [g [nₒ, mₒ, jₒ, kₒ], t2 [aᵥ, dᵥ, lₒ, mₒ], t2 [bᵥ, cᵥ, iₒ, nₒ]], [(1, [aᵥ, bᵥ, cᵥ, dᵥ, iₒ, jₒ, kₒ, lₒ]), (-1, [aᵥ, bᵥ, cᵥ, dᵥ, lₒ, jₒ, kₒ, iₒ])]⟩,
  -- line 43: nmik,ablm,cdjn->abcdijkl
  ⟨1, [g [nₒ, mₒ, iₒ, kₒ], t2 [aᵥ, bᵥ, lₒ, mₒ], t2 [cᵥ, dᵥ, jₒ, nₒ]], [(1, [aᵥ, bᵥ, cᵥ, dᵥ, iₒ, jₒ, kₒ, lₒ]), (-1, [aᵥ, bᵥ, cᵥ, dᵥ, iₒ, lₒ, kₒ, jₒ]), (-1, [aᵥ, cᵥ, bᵥ, dᵥ, iₒ, jₒ, kₒ, lₒ]), (1, [aᵥ, cᵥ, bᵥ, dᵥ, iₒ, lₒ, kₒ, jₒ])]⟩,
  -- line 47: nmik,adlm,bcjn->abcdijkl
  ⟨1, [g [nₒ, mₒ, iₒ, kₒ], t2 [aᵥ, dᵥ, lₒ, mₒ], t2 [bᵥ, cᵥ, jₒ, nₒ]], [(1, [aᵥ, bᵥ, cᵥ, dᵥ, iₒ, jₒ, kₒ, lₒ]), (-1, [aᵥ, bᵥ, cᵥ, dᵥ, iₒ, lₒ, kₒ, jₒ])]⟩,
  -- line 51: nmij,ablm,cdkn->abcdijkl
  ⟨-1, [g [nₒ, mₒ, iₒ, jₒ], t2 [aᵥ, bᵥ, lₒ, mₒ], t2 [cᵥ, dᵥ, kₒ, nₒ]], [(1, [aᵥ, bᵥ, cᵥ, dᵥ, iₒ, jₒ, kₒ, lₒ]), (-1, [aᵥ, bᵥ, cᵥ, dᵥ, iₒ, jₒ, lₒ, kₒ]), (-1, [aᵥ, cᵥ, bᵥ, dᵥ, iₒ, jₒ, kₒ, lₒ]), (1, [aᵥ, cᵥ, bᵥ, dᵥ, iₒ, jₒ, lₒ, kₒ])]⟩,
  -- line 55: nmij,adlm,bckn->abcdijkl
  ⟨-1, [g [nₒ, mₒ, iₒ, jₒ], t2 [aᵥ, dᵥ, lₒ, mₒ], t2 [bᵥ, cᵥ, kₒ, nₒ]], [(1, [aᵥ, bᵥ, cᵥ, dᵥ, iₒ, jₒ, kₒ, lₒ]), (-1, [aᵥ, bᵥ, cᵥ, dᵥ, iₒ, jₒ, lₒ, kₒ])]⟩,
  -- line 61: mael,ebjk,cdim->abcdijkl
  ⟨1, [g [mₒ, aᵥ, eᵥ, lₒ], t2 [eᵥ, bᵥ, jₒ, kₒ], t2 [cᵥ, dᵥ, iₒ, mₒ]], [(1, [aᵥ, bᵥ, cᵥ, dᵥ, iₒ, jₒ, kₒ, lₒ]), (-1, [aᵥ, bᵥ, cᵥ, dᵥ, jₒ, iₒ, kₒ, lₒ]), (-1, [aᵥ, cᵥ, bᵥ, dᵥ, iₒ, jₒ, kₒ, lₒ]), (1, [aᵥ, cᵥ, bᵥ, dᵥ, jₒ, iₒ, kₒ, lₒ])]⟩,
  -- line 65: mael,ebij,cdkm->abcdijkl
  ⟨1, [g [mₒ, aᵥ, eᵥ, lₒ], t2 [eᵥ, bᵥ, iₒ, jₒ], t2 [cᵥ, dᵥ, kₒ, mₒ]], [(1, [aᵥ, bᵥ, cᵥ, dᵥ, iₒ, jₒ, kₒ, lₒ]), (-1, [aᵥ, bᵥ, cᵥ, dᵥ, iₒ, jₒ, lₒ, kₒ]), (-1, [aᵥ, cᵥ, bᵥ, dᵥ, iₒ, jₒ, kₒ, lₒ]), (1, [aᵥ, cᵥ, bᵥ, dᵥ, iₒ, jₒ, lₒ, kₒ])]⟩,
  -- line 69: mael,edjk,bcim->abcdijkl
  ⟨1, [g [mₒ, aᵥ, eᵥ, lₒ], t2 [eᵥ, dᵥ, jₒ, kₒ], t2 [bᵥ, cᵥ, iₒ, mₒ]], [(1, [aᵥ, bᵥ, cᵥ, dᵥ, iₒ, jₒ, kₒ, lₒ]), (-1, [aᵥ, bᵥ, cᵥ, dᵥ, jₒ, iₒ, kₒ, lₒ]), (-1, [bᵥ, aᵥ, cᵥ, dᵥ, iₒ, jₒ, kₒ, lₒ]), (1, [bᵥ, aᵥ, cᵥ, dᵥ, jₒ, iₒ, kₒ, lₒ])]⟩,
  -- line 73: mael,edij,bckm->abcdijkl
  ⟨1, [g [mₒ, aᵥ, eᵥ, lₒ], t2 [eᵥ, dᵥ, iₒ, jₒ], t2 [bᵥ, cᵥ, kₒ, mₒ]], [(1, [aᵥ, bᵥ, cᵥ, dᵥ, iₒ, jₒ, kₒ, lₒ]), (-1, [aᵥ, bᵥ, cᵥ, dᵥ, iₒ, jₒ, lₒ, kₒ]), (-1, [bᵥ, aᵥ, cᵥ, dᵥ, iₒ, jₒ, kₒ, lₒ]), (1, [bᵥ, aᵥ, cᵥ, dᵥ, iₒ, jₒ, lₒ, kₒ])]⟩,
  -- line 77: maek,ebjl,cdim->abcdijkl
  ⟨-1, [g [mₒ, aᵥ, eᵥ, kₒ], t2 [eᵥ, bᵥ, jₒ, lₒ], t2 [cᵥ, dᵥ, iₒ, mₒ]], [(1, [aᵥ, bᵥ, cᵥ, dᵥ, iₒ, jₒ, kₒ, lₒ]), (-1, [aᵥ, bᵥ, cᵥ, dᵥ, jₒ, iₒ, kₒ, lₒ]), (-1, [aᵥ, cᵥ, bᵥ, dᵥ, iₒ, jₒ, kₒ, lₒ]), (1, [aᵥ, cᵥ, bᵥ, dᵥ, jₒ, iₒ, kₒ, lₒ])]⟩,
  -- line 81: maek,edjl,bcim->abcdijkl
  ⟨-1, [g [mₒ, aᵥ, eᵥ, kₒ], t2 [eᵥ, dᵥ, jₒ, lₒ], t2 [bᵥ, cᵥ, iₒ, mₒ]], [(1, [aᵥ, bᵥ, cᵥ, dᵥ, iₒ, jₒ, kₒ, lₒ]), (-1, [aᵥ, bᵥ, cᵥ, dᵥ, jₒ, iₒ, kₒ, lₒ]), (-1, [bᵥ, aᵥ, cᵥ, dᵥ, iₒ, jₒ, kₒ, lₒ]), (1, [bᵥ, aᵥ, cᵥ, dᵥ, jₒ, iₒ, kₒ, lₒ])]⟩,
  -- line 85: maej,ebkl,cdim->abcdijkl
  ⟨1, [g [mₒ, aᵥ, eᵥ, jₒ], t2 [eᵥ, bᵥ, kₒ, lₒ], t2 [cᵥ, dᵥ, iₒ, mₒ]], [(1, [aᵥ, bᵥ, cᵥ, dᵥ, iₒ, jₒ, kₒ, lₒ]), (-1, [aᵥ, bᵥ, cᵥ, dᵥ, kₒ, jₒ, iₒ, lₒ]), (-1, [aᵥ, cᵥ, bᵥ, dᵥ, iₒ, jₒ, kₒ, lₒ]), (1, [aᵥ, cᵥ, bᵥ, dᵥ, kₒ, jₒ, iₒ, lₒ])]⟩,
  -- line 89: maej,ebik,cdlm->abcdijkl
  ⟨1, [g [mₒ, aᵥ, eᵥ, jₒ], t2 [eᵥ, bᵥ, iₒ, kₒ], t2 [cᵥ, dᵥ, lₒ, mₒ]], [(1, [aᵥ, bᵥ, cᵥ, dᵥ, iₒ, jₒ, kₒ, lₒ]), (-1, [aᵥ, bᵥ, cᵥ, dᵥ, jₒ, iₒ, kₒ, lₒ]), (-1, [aᵥ, cᵥ, bᵥ, dᵥ, iₒ, jₒ, kₒ, lₒ]), (1, [aᵥ, cᵥ, bᵥ, dᵥ, jₒ, iₒ, kₒ, lₒ])]⟩,
  -- line 93: maej,edkl,bcim->abcdijkl
  ⟨1, [g [mₒ, aᵥ, eᵥ, jₒ], t2 [eᵥ, dᵥ, kₒ, lₒ], t2 [bᵥ, cᵥ, iₒ, mₒ]], [(1, [aᵥ, bᵥ, cᵥ, dᵥ, iₒ, jₒ, kₒ, lₒ]), (-1, [aᵥ, bᵥ, cᵥ, dᵥ, kₒ, jₒ, iₒ, lₒ]), (-1, [bᵥ, aᵥ, cᵥ, dᵥ, iₒ, jₒ, kₒ, lₒ]), (1, [bᵥ, aᵥ, cᵥ, dᵥ, kₒ, jₒ, iₒ, lₒ])]⟩,
  -- line 97: maej,edik,bclm->abcdijkl
  ⟨1, [g [mₒ, aᵥ, eᵥ, jₒ], t2 [eᵥ, dᵥ, iₒ, kₒ], t2 [bᵥ, cᵥ, lₒ, mₒ]], [(1, [aᵥ, bᵥ, cᵥ, dᵥ, iₒ, jₒ, kₒ, lₒ]), (-1, [aᵥ, bᵥ, cᵥ, dᵥ, jₒ, iₒ, kₒ, lₒ]), (-1, [bᵥ, aᵥ, cᵥ, dᵥ, iₒ, jₒ, kₒ, lₒ]), (1, [bᵥ, aᵥ, cᵥ, dᵥ, jₒ, iₒ, kₒ, lₒ])]⟩,
  -- line 101: maei,ebkl,cdjm->abcdijkl
  ⟨-1, [g [mₒ, aᵥ, eᵥ, iₒ], t2 [eᵥ, bᵥ, kₒ, lₒ], t2 [cᵥ, dᵥ, jₒ, mₒ]], [(1, [aᵥ, bᵥ, cᵥ, dᵥ, iₒ, jₒ, kₒ, lₒ]), (-1, [aᵥ, bᵥ, cᵥ, dᵥ, iₒ, kₒ, jₒ, lₒ]), (-1, [aᵥ, cᵥ, bᵥ, dᵥ, iₒ, jₒ, kₒ, lₒ]), (1, [aᵥ, cᵥ, bᵥ, dᵥ, iₒ, kₒ, jₒ, lₒ])]⟩,
  -- line 105: maei,edkl,bcjm->abcdijkl
  ⟨-1, [g [mₒ, aᵥ, eᵥ, iₒ], t2 [eᵥ, dᵥ, kₒ, lₒ], t2 [bᵥ, cᵥ, jₒ, mₒ]], [(1, [aᵥ, bᵥ, cᵥ, dᵥ, iₒ, jₒ, kₒ, lₒ]), (-1, [aᵥ, bᵥ, cᵥ, dᵥ, iₒ, kₒ, jₒ, lₒ]), (-1, [bᵥ, aᵥ, cᵥ, dᵥ, iₒ, jₒ, kₒ, lₒ]), (1, [bᵥ, aᵥ, cᵥ, dᵥ, iₒ, kₒ, jₒ, lₒ])]⟩,
  -- line 109: mbel,eajk,cdim->abcdijkl
  ⟨-1, [g [mₒ, bᵥ, eᵥ, lₒ], t2 [eᵥ, aᵥ, jₒ, kₒ], t2 [cᵥ, dᵥ, iₒ, mₒ]], [(1, [aᵥ, bᵥ, cᵥ, dᵥ, iₒ, jₒ, kₒ, lₒ]), (-1, [aᵥ, bᵥ, cᵥ, dᵥ, jₒ, iₒ, kₒ, lₒ]), (-1, [cᵥ, bᵥ, aᵥ, dᵥ, iₒ, jₒ, kₒ, lₒ]), (1, [cᵥ, bᵥ, aᵥ, dᵥ, jₒ, iₒ, kₒ, lₒ])]⟩,
  -- line 113: mbel,eaij,cdkm->abcdijkl
  ⟨-1, [g [mₒ, bᵥ, eᵥ, lₒ], t2 [eᵥ, aᵥ, iₒ, jₒ], t2 [cᵥ, dᵥ, kₒ, mₒ]], [(1, [aᵥ, bᵥ, cᵥ, dᵥ, iₒ, jₒ, kₒ, lₒ]), (-1, [aᵥ, bᵥ, cᵥ, dᵥ, iₒ, jₒ, lₒ, kₒ]), (-1, [cᵥ, bᵥ, aᵥ, dᵥ, iₒ, jₒ, kₒ, lₒ]), (1, [cᵥ, bᵥ, aᵥ, dᵥ, iₒ, jₒ, lₒ, kₒ])]⟩,
  -- line 117: mbek,eajl,cdim->abcdijkl
  ⟨1, [g [mₒ, bᵥ, eᵥ, kₒ], t2 [eᵥ, aᵥ, jₒ, lₒ], t2 [cᵥ, dᵥ, iₒ, mₒ]], [(1, [aᵥ, bᵥ, cᵥ, dᵥ, iₒ, jₒ, kₒ, lₒ]), (-1, [aᵥ, bᵥ, cᵥ, dᵥ, jₒ, iₒ, kₒ, lₒ]), (-1, [cᵥ, bᵥ, aᵥ, dᵥ, iₒ, jₒ, kₒ, lₒ]), (1, [cᵥ, bᵥ, aᵥ, dᵥ, jₒ, iₒ, kₒ, lₒ])]⟩,
  -- line 121: mbej,eakl,cdim->abcdijkl
  ⟨-1, [g [mₒ, bᵥ, eᵥ, jₒ], t2 [eᵥ, aᵥ, kₒ, lₒ], t2 [cᵥ, dᵥ, iₒ, mₒ]], [(1, [aᵥ, bᵥ, cᵥ, dᵥ, iₒ, jₒ, kₒ, lₒ]), (-1, [aᵥ, bᵥ, cᵥ, dᵥ, kₒ, jₒ, iₒ, lₒ]), (-1, [cᵥ, bᵥ, aᵥ, dᵥ, iₒ, jₒ, kₒ, lₒ]), (1, [cᵥ, bᵥ, aᵥ, dᵥ, kₒ, jₒ, iₒ, lₒ])]⟩,
  -- line 125: mbej,eaik,cdlm->abcdijkl
  ⟨-1, [g [mₒ, bᵥ, eᵥ, jₒ], t2 [eᵥ, aᵥ, iₒ, kₒ], t2 [cᵥ, dᵥ, lₒ, mₒ]], [(1, [aᵥ, bᵥ, cᵥ, dᵥ, iₒ, jₒ, kₒ, lₒ]), (-1, [aᵥ, bᵥ, cᵥ, dᵥ, jₒ, iₒ, kₒ, lₒ]), (-1, [cᵥ, bᵥ, aᵥ, dᵥ, iₒ, jₒ, kₒ, lₒ]), (1, [cᵥ, bᵥ, aᵥ, dᵥ, jₒ, iₒ, kₒ, lₒ])]⟩,
  -- line 129: mbei,eakl,cdjm->abcdijkl
  ⟨1, [g [mₒ, bᵥ, eᵥ, iₒ], t2 [eᵥ, aᵥ, kₒ, lₒ], t2 [cᵥ, dᵥ, jₒ, mₒ]], [(1, [aᵥ, bᵥ, cᵥ, dᵥ, iₒ, jₒ, kₒ, lₒ]), (-1, [aᵥ, bᵥ, cᵥ, dᵥ, iₒ, kₒ, jₒ, lₒ]), (-1, [cᵥ, bᵥ, aᵥ, dᵥ, iₒ, jₒ, kₒ, lₒ]), (1, [cᵥ, bᵥ, aᵥ, dᵥ, iₒ, kₒ, jₒ, lₒ])]⟩,
  -- line 133: mcel,eajk,bdim->abcdijkl
  ⟨1, [g [mₒ, cᵥ, eᵥ, lₒ], t2 [eᵥ, aᵥ, jₒ, kₒ], t2 [bᵥ, dᵥ, iₒ, mₒ]], [(1, [aᵥ, bᵥ, cᵥ, dᵥ, iₒ, jₒ, kₒ, lₒ]), (-1, [aᵥ, bᵥ, cᵥ, dᵥ, jₒ, iₒ, kₒ, lₒ]), (-1, [bᵥ, aᵥ, cᵥ, dᵥ, iₒ, jₒ, kₒ, lₒ]), (1, [bᵥ, aᵥ, cᵥ, dᵥ, jₒ, iₒ, kₒ, lₒ])]⟩,
  -- line 137: mcel,eaij,bdkm->abcdijkl
  ⟨1, [g [mₒ, cᵥ, eᵥ, lₒ], t2 [eᵥ, aᵥ, iₒ, jₒ], t2 [bᵥ, dᵥ, kₒ, mₒ]], [(1, [aᵥ, bᵥ, cᵥ, dᵥ, iₒ, jₒ, kₒ, lₒ]), (-1, [aᵥ, bᵥ, cᵥ, dᵥ, iₒ, jₒ, lₒ, kₒ]), (-1, [bᵥ, aᵥ, cᵥ, dᵥ, iₒ, jₒ, kₒ, lₒ]), (1, [bᵥ, aᵥ, cᵥ, dᵥ, iₒ, jₒ, lₒ, kₒ])]⟩,
  -- line 141: mcel,edjk,abim->abcdijkl
  ⟨1, [g [mₒ, cᵥ, eᵥ, lₒ], t2 [eᵥ, dᵥ, jₒ, kₒ], t2 [aᵥ, bᵥ, iₒ, mₒ]], [(1, [aᵥ, bᵥ, cᵥ, dᵥ, iₒ, jₒ, kₒ, lₒ]), (-1, [aᵥ, bᵥ, cᵥ, dᵥ, jₒ, iₒ, kₒ, lₒ]), (-1, [aᵥ, bᵥ, dᵥ, cᵥ, iₒ, jₒ, kₒ, lₒ]), (1, [aᵥ, bᵥ, dᵥ, cᵥ, jₒ, iₒ, kₒ, lₒ])]⟩,
  -- line 145: mcel,edij,abkm->abcdijkl
  ⟨1, [g [mₒ, cᵥ, eᵥ, lₒ], t2 [eᵥ, dᵥ, iₒ, jₒ], t2 [aᵥ, bᵥ, kₒ, mₒ]], [(1, [aᵥ, bᵥ, cᵥ, dᵥ, iₒ, jₒ, kₒ, lₒ]), (-1, [aᵥ, bᵥ, cᵥ, dᵥ, iₒ, jₒ, lₒ, kₒ]), (-1, [aᵥ, bᵥ, dᵥ, cᵥ, iₒ, jₒ, kₒ, lₒ]), (1, [aᵥ, bᵥ, dᵥ, cᵥ, iₒ, jₒ, lₒ, kₒ])]⟩,
  -- line 149: mcek,eajl,bdim->abcdijkl
  ⟨-1, [g [mₒ, cᵥ, eᵥ, kₒ], t2 [eᵥ, aᵥ, jₒ, lₒ], t2 [bᵥ, dᵥ, iₒ, mₒ]], [(1, [aᵥ, bᵥ, cᵥ, dᵥ, iₒ, jₒ, kₒ, lₒ]), (-1, [aᵥ, bᵥ, cᵥ, dᵥ, jₒ, iₒ, kₒ, lₒ]), (-1, [bᵥ, aᵥ, cᵥ, dᵥ, iₒ, jₒ, kₒ, lₒ]), (1, [bᵥ, aᵥ, cᵥ, dᵥ, jₒ, iₒ, kₒ, lₒ])]⟩,
  -- line 153: mcek,edjl,abim->abcdijkl
  ⟨-1, [g [mₒ, cᵥ, eᵥ, kₒ], t2 [eᵥ, dᵥ, jₒ, lₒ], t2 [aᵥ, bᵥ, iₒ, mₒ]], [(1, [aᵥ, bᵥ, cᵥ, dᵥ, iₒ, jₒ, kₒ, lₒ]), (-1, [aᵥ, bᵥ, cᵥ, dᵥ, jₒ, iₒ, kₒ, lₒ]), (-1, [aᵥ, bᵥ, dᵥ, cᵥ, iₒ, jₒ, kₒ, lₒ]), (1, [aᵥ, bᵥ, dᵥ, cᵥ, jₒ, iₒ, kₒ, lₒ])]⟩,
  -- line 157: mcej,eakl,bdim->abcdijkl
  ⟨1, [g [mₒ, cᵥ, eᵥ, jₒ], t2 [eᵥ, aᵥ, kₒ, lₒ], t2 [bᵥ, dᵥ, iₒ, mₒ]], [(1, [aᵥ, bᵥ, cᵥ, dᵥ, iₒ, jₒ, kₒ, lₒ]), (-1, [aᵥ, bᵥ, cᵥ, dᵥ, kₒ, jₒ, iₒ, lₒ]), (-1, [bᵥ, aᵥ, cᵥ, dᵥ, iₒ, jₒ, kₒ, lₒ]), (1, [bᵥ, aᵥ, cᵥ, dᵥ, kₒ, jₒ, iₒ, lₒ])]⟩,
  -- line 161: mcej,eaik,bdlm->abcdijkl
  ⟨1, [g [mₒ, cᵥ, eᵥ, jₒ], t2 [eᵥ, aᵥ, iₒ, kₒ], t2 [bᵥ, dᵥ, lₒ, mₒ]], [(1, [aᵥ, bᵥ, cᵥ, dᵥ, iₒ, jₒ, kₒ, lₒ]), (-1, [aᵥ, bᵥ, cᵥ, dᵥ, jₒ, iₒ, kₒ, lₒ]), (-1, [bᵥ, aᵥ, cᵥ, dᵥ, iₒ, jₒ, kₒ, lₒ]), (1, [bᵥ, aᵥ, cᵥ, dᵥ, jₒ, iₒ, kₒ, lₒ])]⟩,
  -- line 165: mcej,edkl,abim->abcdijkl
  ⟨1, [g [mₒ, cᵥ, eᵥ, jₒ], t2 [eᵥ, dᵥ, kₒ, lₒ], t2 [aᵥ, bᵥ, iₒ, mₒ]], [(1, [aᵥ, bᵥ, cᵥ, dᵥ, iₒ, jₒ, kₒ, lₒ]), (-1, [aᵥ, bᵥ, cᵥ, dᵥ, kₒ, jₒ, iₒ, lₒ]), (-1, [aᵥ, bᵥ, dᵥ, cᵥ, iₒ, jₒ, kₒ, lₒ]), (1, [aᵥ, bᵥ, dᵥ, cᵥ, kₒ, jₒ, iₒ, lₒ])]⟩,
  -- line 169: mcej,edik,ablm->abcdijkl
  ⟨1, [g [mₒ, cᵥ, eᵥ, jₒ], t2 [eᵥ, dᵥ, iₒ, kₒ], t2 [aᵥ, bᵥ, lₒ, mₒ]], [(1, [aᵥ, bᵥ, cᵥ, dᵥ, iₒ, jₒ, kₒ, lₒ]), (-1, [aᵥ, bᵥ, cᵥ, dᵥ, jₒ, iₒ, kₒ, lₒ]), (-1, [aᵥ, bᵥ, dᵥ, cᵥ, iₒ, jₒ, kₒ, lₒ]), (1, [aᵥ, bᵥ, dᵥ, cᵥ, jₒ, iₒ, kₒ, lₒ])]⟩
  ]

/-- Part 1 of `t4_test_residual`. -/
def t4_test_residual_1 : Prog := [
  -- line 173: mcei,eakl,bdjm->abcdijkl
  ⟨-1, [g [mₒ, cᵥ, eᵥ, iₒ], t2 [eᵥ, aᵥ, kₒ, lₒ], t2 [bᵥ, dᵥ, jₒ, mₒ]], [(1, [aᵥ, bᵥ, cᵥ, dᵥ, iₒ, jₒ, kₒ, lₒ]), (-1, [aᵥ, bᵥ, cᵥ, dᵥ, iₒ, kₒ, jₒ, lₒ]), (-1, [bᵥ, aᵥ, cᵥ, dᵥ, iₒ, jₒ, kₒ, lₒ]), (1, [bᵥ, aᵥ, cᵥ, dᵥ, iₒ, kₒ, jₒ, lₒ])]⟩,
  -- line 177: mcei,edkl,abjm->abcdijkl
  ⟨-1, [g [mₒ, cᵥ, eᵥ, iₒ], t2 [eᵥ, dᵥ, kₒ, lₒ], t2 [aᵥ, bᵥ, jₒ, mₒ]], [(1, [aᵥ, bᵥ, cᵥ, dᵥ, iₒ, jₒ, kₒ, lₒ]), (-1, [aᵥ, bᵥ, cᵥ, dᵥ, iₒ, kₒ, jₒ, lₒ]), (-1, [aᵥ, bᵥ, dᵥ, cᵥ, iₒ, jₒ, kₒ, lₒ]), (1, [aᵥ, bᵥ, dᵥ, cᵥ, iₒ, kₒ, jₒ, lₒ])]⟩,
  -- line 181: mdel,eajk,bcim->abcdijkl
  ⟨-1, [g [mₒ, dᵥ, eᵥ, lₒ], t2 [eᵥ, aᵥ, jₒ, kₒ], t2 [bᵥ, cᵥ, iₒ, mₒ]], [(1, [aᵥ, bᵥ, cᵥ, dᵥ, iₒ, jₒ, kₒ, lₒ]), (-1, [aᵥ, bᵥ, cᵥ, dᵥ, jₒ, iₒ, kₒ, lₒ]), (-1, [bᵥ, aᵥ, cᵥ, dᵥ, iₒ, jₒ, kₒ, lₒ]), (1, [bᵥ, aᵥ, cᵥ, dᵥ, jₒ, iₒ, kₒ, lₒ])]⟩,
  -- line 185: mdel,eaij,bckm->abcdijkl
  ⟨-1, [g [mₒ, dᵥ, eᵥ, lₒ], t2 [eᵥ, aᵥ, iₒ, jₒ], t2 [bᵥ, cᵥ, kₒ, mₒ]], [(1, [aᵥ, bᵥ, cᵥ, dᵥ, iₒ, jₒ, kₒ, lₒ]), (-1, [aᵥ, bᵥ, cᵥ, dᵥ, iₒ, jₒ, lₒ, kₒ]), (-1, [bᵥ, aᵥ, cᵥ, dᵥ, iₒ, jₒ, kₒ, lₒ]), (1, [bᵥ, aᵥ, cᵥ, dᵥ, iₒ, jₒ, lₒ, kₒ])]⟩,
  -- line 189: mdek,eajl,bcim->abcdijkl
  ⟨1, [g [mₒ, dᵥ, eᵥ, kₒ], t2 [eᵥ, aᵥ, jₒ, lₒ], t2 [bᵥ, cᵥ, iₒ, mₒ]], [(1, [aᵥ, bᵥ, cᵥ, dᵥ, iₒ, jₒ, kₒ, lₒ]), (-1, [aᵥ, bᵥ, cᵥ, dᵥ, jₒ, iₒ, kₒ, lₒ]), (-1, [bᵥ, aᵥ, cᵥ, dᵥ, iₒ, jₒ, kₒ, lₒ]), (1, [bᵥ, aᵥ, cᵥ, dᵥ, jₒ, iₒ, kₒ, lₒ])]⟩,
  -- line 193: mdej,eakl,bcim->abcdijkl
  ⟨-1, [g [mₒ, dᵥ, eᵥ, jₒ], t2 [eᵥ, aᵥ, kₒ, lₒ], t2 [bᵥ, cᵥ, iₒ, mₒ]], [(1, [aᵥ, bᵥ, cᵥ, dᵥ, iₒ, jₒ, kₒ, lₒ]), (-1, [aᵥ, bᵥ, cᵥ, dᵥ, kₒ, jₒ, iₒ, lₒ]), (-1, [bᵥ, aᵥ, cᵥ, dᵥ, iₒ, jₒ, kₒ, lₒ]), (1, [bᵥ, aᵥ, cᵥ, dᵥ, kₒ, jₒ, iₒ, lₒ])]⟩,
  -- line 197: mdej,eaik,bclm->abcdijkl
  ⟨-1, [g [mₒ, dᵥ, eᵥ, jₒ], t2 [eᵥ, aᵥ, iₒ, kₒ], t2 [bᵥ, cᵥ, lₒ, mₒ]], [(1, [aᵥ, bᵥ, cᵥ, dᵥ, iₒ, jₒ, kₒ, lₒ]), (-1, [aᵥ, bᵥ, cᵥ, dᵥ, jₒ, iₒ, kₒ, lₒ]), (-1, [bᵥ, aᵥ, cᵥ, dᵥ, iₒ, jₒ, kₒ, lₒ]), (1, [bᵥ, aᵥ, cᵥ, dᵥ, jₒ, iₒ, kₒ, lₒ])]⟩,
  -- line 201: mdei,eakl,bcjm->abcdijkl
  ⟨1, [g [mₒ, dᵥ, eᵥ, iₒ], t2 [eᵥ, aᵥ, kₒ, lₒ], t2 [bᵥ, cᵥ, jₒ, mₒ]], [(1, [aᵥ, bᵥ, cᵥ, dᵥ, iₒ, jₒ, kₒ, lₒ]), (-1, [aᵥ, bᵥ, cᵥ, dᵥ, iₒ, kₒ, jₒ, lₒ]), (-1, [bᵥ, aᵥ, cᵥ, dᵥ, iₒ, jₒ, kₒ, lₒ]), (1, [bᵥ, aᵥ, cᵥ, dᵥ, iₒ, kₒ, jₒ, lₒ])]⟩,
  -- line 205: abef,eckl,fdij->abcdijkl
  ⟨-1, [g [aᵥ, bᵥ, eᵥ, fᵥ], t2 [eᵥ, cᵥ, kₒ, lₒ], t2 [fᵥ, dᵥ, iₒ, jₒ]], [(1, [aᵥ, bᵥ, cᵥ, dᵥ, iₒ, jₒ, kₒ, lₒ]), (-1, [aᵥ, bᵥ, cᵥ, dᵥ, iₒ, kₒ, jₒ, lₒ]), (-1, [aᵥ, cᵥ, bᵥ, dᵥ, iₒ, jₒ, kₒ, lₒ]), (1, [aᵥ, cᵥ, bᵥ, dᵥ, iₒ, kₒ, jₒ, lₒ])]⟩,
  -- line 209: abef,ecil,fdjk->abcdijkl
  ⟨-1, [g [aᵥ, bᵥ, eᵥ, fᵥ], t2 [eᵥ, cᵥ, iₒ, lₒ], t2 [fᵥ, dᵥ, jₒ, kₒ]], [(1, [aᵥ, bᵥ, cᵥ, dᵥ, iₒ, jₒ, kₒ, lₒ]), (-1, [aᵥ, bᵥ, cᵥ, dᵥ, iₒ, jₒ, lₒ, kₒ]), (-1, [aᵥ, cᵥ, bᵥ, dᵥ, iₒ, jₒ, kₒ, lₒ]), (1, [aᵥ, cᵥ, bᵥ, dᵥ, iₒ, jₒ, lₒ, kₒ])]⟩,
  -- line 213: abef,ecjk,fdil->abcdijkl
  ⟨-1, [g [aᵥ, bᵥ, eᵥ, fᵥ], t2 [eᵥ, cᵥ, jₒ, kₒ], t2 [fᵥ, dᵥ, iₒ, lₒ]], [(1, [aᵥ, bᵥ, cᵥ, dᵥ, iₒ, jₒ, kₒ, lₒ]), (-1, [aᵥ, bᵥ, cᵥ, dᵥ, kₒ, jₒ, iₒ, lₒ]), (-1, [aᵥ, cᵥ, bᵥ, dᵥ, iₒ, jₒ, kₒ, lₒ]), (1, [aᵥ, cᵥ, bᵥ, dᵥ, kₒ, jₒ, iₒ, lₒ])]⟩,
  -- line 217: adef,ebkl,fcij->abcdijkl
  ⟨-1, [g [aᵥ, dᵥ, eᵥ, fᵥ], t2 [eᵥ, bᵥ, kₒ, lₒ], t2 [fᵥ, cᵥ, iₒ, jₒ]], [(1, [aᵥ, bᵥ, cᵥ, dᵥ, iₒ, jₒ, kₒ, lₒ]), (-1, [aᵥ, bᵥ, cᵥ, dᵥ, iₒ, kₒ, jₒ, lₒ]), (-1, [bᵥ, aᵥ, cᵥ, dᵥ, iₒ, jₒ, kₒ, lₒ]), (1, [bᵥ, aᵥ, cᵥ, dᵥ, iₒ, kₒ, jₒ, lₒ])]⟩,
  -- line 221: adef,ebil,fcjk->abcdijkl
  ⟨-1, [g [aᵥ, dᵥ, eᵥ, fᵥ], t2 [eᵥ, bᵥ, iₒ, lₒ], t2 [fᵥ, cᵥ, jₒ, kₒ]], [(1, [aᵥ, bᵥ, cᵥ, dᵥ, iₒ, jₒ, kₒ, lₒ]), (-1, [aᵥ, bᵥ, cᵥ, dᵥ, iₒ, jₒ, lₒ, kₒ]), (-1, [bᵥ, aᵥ, cᵥ, dᵥ, iₒ, jₒ, kₒ, lₒ]), (1, [bᵥ, aᵥ, cᵥ, dᵥ, iₒ, jₒ, lₒ, kₒ])]⟩,
  -- line 225: adef,ebjk,fcil->abcdijkl
  ⟨-1, [g [aᵥ, dᵥ, eᵥ, fᵥ], t2 [eᵥ, bᵥ, jₒ, kₒ], t2 [fᵥ, cᵥ, iₒ, lₒ]], [(1, [aᵥ, bᵥ, cᵥ, dᵥ, iₒ, jₒ, kₒ, lₒ]), (-1, [aᵥ, bᵥ, cᵥ, dᵥ, kₒ, jₒ, iₒ, lₒ]), (-1, [bᵥ, aᵥ, cᵥ, dᵥ, iₒ, jₒ, kₒ, lₒ]), (1, [bᵥ, aᵥ, cᵥ, dᵥ, kₒ, jₒ, iₒ, lₒ])]⟩,
  -- line 229: bcef,eakl,fdij->abcdijkl
  ⟨-1, [g [bᵥ, cᵥ, eᵥ, fᵥ], t2 [eᵥ, aᵥ, kₒ, lₒ], t2 [fᵥ, dᵥ, iₒ, jₒ]], [(1, [aᵥ, bᵥ, cᵥ, dᵥ, iₒ, jₒ, kₒ, lₒ]), (-1, [aᵥ, bᵥ, cᵥ, dᵥ, iₒ, kₒ, jₒ, lₒ]), (-1, [aᵥ, dᵥ, cᵥ, bᵥ, iₒ, jₒ, kₒ, lₒ]), (1, [aᵥ, dᵥ, cᵥ, bᵥ, iₒ, kₒ, jₒ, lₒ])]⟩,
  -- line 233: bcef,eail,fdjk->abcdijkl
  ⟨-1, [g [bᵥ, cᵥ, eᵥ, fᵥ], t2 [eᵥ, aᵥ, iₒ, lₒ], t2 [fᵥ, dᵥ, jₒ, kₒ]], [(1, [aᵥ, bᵥ, cᵥ, dᵥ, iₒ, jₒ, kₒ, lₒ]), (-1, [aᵥ, bᵥ, cᵥ, dᵥ, iₒ, jₒ, lₒ, kₒ]), (-1, [aᵥ, dᵥ, cᵥ, bᵥ, iₒ, jₒ, kₒ, lₒ]), (1, [aᵥ, dᵥ, cᵥ, bᵥ, iₒ, jₒ, lₒ, kₒ])]⟩,
  -- line 237: bcef,eajk,fdil->abcdijkl
  ⟨-1, [g [bᵥ, cᵥ, eᵥ, fᵥ], t2 [eᵥ, aᵥ, jₒ, kₒ], t2 [fᵥ, dᵥ, iₒ, lₒ]], [(1, [aᵥ, bᵥ, cᵥ, dᵥ, iₒ, jₒ, kₒ, lₒ]), (-1, [aᵥ, bᵥ, cᵥ, dᵥ, kₒ, jₒ, iₒ, lₒ]), (-1, [aᵥ, dᵥ, cᵥ, bᵥ, iₒ, jₒ, kₒ, lₒ]), (1, [aᵥ, dᵥ, cᵥ, bᵥ, kₒ, jₒ, iₒ, lₒ])]⟩
  ]

/-- `UT2/pdagq_t4resid.py` 3-240, `t4_test_residual`. -/
def t4_test_residual : Prog := t4_test_residual_0 ++ (t4_test_residual_1)

/-- `UT2/pdagq_t4resid.py` 3-240, `t4_test_residual`. -/
def t4_test_residual_oo : Prog := [
  -- line 11: nmkl,abjm,cdin->abcdijkl
  ⟨-1, [g [nₒ, mₒ, kₒ, lₒ], t2 [aᵥ, bᵥ, jₒ, mₒ], t2 [cᵥ, dᵥ, iₒ, nₒ]], [(1, [aᵥ, bᵥ, cᵥ, dᵥ, iₒ, jₒ, kₒ, lₒ]), (-1, [aᵥ, bᵥ, cᵥ, dᵥ, jₒ, iₒ, kₒ, lₒ]), (-1, [aᵥ, cᵥ, bᵥ, dᵥ, iₒ, jₒ, kₒ, lₒ]), (1, [aᵥ, cᵥ, bᵥ, dᵥ, jₒ, iₒ, kₒ, lₒ])]⟩,
  -- line 15: nmkl,adjm,bcin->abcdijkl
  ⟨-1, [g [nₒ, mₒ, kₒ, lₒ], t2 [aᵥ, dᵥ, jₒ, mₒ], t2 [bᵥ, cᵥ, iₒ, nₒ]], [(1, [aᵥ, bᵥ, cᵥ, dᵥ, iₒ, jₒ, kₒ, lₒ]), (-1, [aᵥ, bᵥ, cᵥ, dᵥ, jₒ, iₒ, kₒ, lₒ])]⟩,
  -- line 19: nmjl,abkm,cdin->abcdijkl
  ⟨1, [g [nₒ, mₒ, jₒ, lₒ], t2 [aᵥ, bᵥ, kₒ, mₒ], t2 [cᵥ, dᵥ, iₒ, nₒ]], [(1, [aᵥ, bᵥ, cᵥ, dᵥ, iₒ, jₒ, kₒ, lₒ]), (-1, [aᵥ, bᵥ, cᵥ, dᵥ, kₒ, jₒ, iₒ, lₒ]), (-1, [aᵥ, cᵥ, bᵥ, dᵥ, iₒ, jₒ, kₒ, lₒ]), (1, [aᵥ, cᵥ, bᵥ, dᵥ, kₒ, jₒ, iₒ, lₒ])]⟩,
  -- line 23: nmjl,adkm,bcin->abcdijkl
  ⟨1, [g [nₒ, mₒ, jₒ, lₒ], t2 [aᵥ, dᵥ, kₒ, mₒ], t2 [bᵥ, cᵥ, iₒ, nₒ]], [(1, [aᵥ, bᵥ, cᵥ, dᵥ, iₒ, jₒ, kₒ, lₒ]), (-1, [aᵥ, bᵥ, cᵥ, dᵥ, kₒ, jₒ, iₒ, lₒ])]⟩,
  -- line 27: nmil,abkm,cdjn->abcdijkl
  ⟨-1, [g [nₒ, mₒ, iₒ, lₒ], t2 [aᵥ, bᵥ, kₒ, mₒ], t2 [cᵥ, dᵥ, jₒ, nₒ]], [(1, [aᵥ, bᵥ, cᵥ, dᵥ, iₒ, jₒ, kₒ, lₒ]), (-1, [aᵥ, bᵥ, cᵥ, dᵥ, iₒ, kₒ, jₒ, lₒ]), (-1, [aᵥ, cᵥ, bᵥ, dᵥ, iₒ, jₒ, kₒ, lₒ]), (1, [aᵥ, cᵥ, bᵥ, dᵥ, iₒ, kₒ, jₒ, lₒ])]⟩,
  -- line 31: nmil,adkm,bcjn->abcdijkl
  ⟨-1, [g [nₒ, mₒ, iₒ, lₒ], t2 [aᵥ, dᵥ, kₒ, mₒ], t2 [bᵥ, cᵥ, jₒ, nₒ]], [(1, [aᵥ, bᵥ, cᵥ, dᵥ, iₒ, jₒ, kₒ, lₒ]), (-1, [aᵥ, bᵥ, cᵥ, dᵥ, iₒ, kₒ, jₒ, lₒ])]⟩,
  -- line 35: nmjk,ablm,cdin->abcdijkl
  ⟨-1, [g [nₒ, mₒ, jₒ, kₒ], t2 [aᵥ, bᵥ, lₒ, mₒ], t2 [cᵥ, dᵥ, iₒ, nₒ]], [(1, [aᵥ, bᵥ, cᵥ, dᵥ, iₒ, jₒ, kₒ, lₒ]), (-1, [aᵥ, bᵥ, cᵥ, dᵥ, lₒ, jₒ, kₒ, iₒ]), (-1, [aᵥ, cᵥ, bᵥ, dᵥ, iₒ, jₒ, kₒ, lₒ]), (1, [aᵥ, cᵥ, bᵥ, dᵥ, lₒ, jₒ, kₒ, iₒ])]⟩,
  -- line 39: nmjk,adlm,bcin->abcdijkl
  ⟨-1, [g [nₒ, mₒ, jₒ, kₒ], t2 [aᵥ, dᵥ, lₒ, mₒ], t2 [bᵥ, cᵥ, iₒ, nₒ]], [(1, [aᵥ, bᵥ, cᵥ, dᵥ, iₒ, jₒ, kₒ, lₒ]), (-1, [aᵥ, bᵥ, cᵥ, dᵥ, lₒ, jₒ, kₒ, iₒ])]⟩,
  -- line 43: nmik,ablm,cdjn->abcdijkl
  ⟨1, [g [nₒ, mₒ, iₒ, kₒ], t2 [aᵥ, bᵥ, lₒ, mₒ], t2 [cᵥ, dᵥ, jₒ, nₒ]], [(1, [aᵥ, bᵥ, cᵥ, dᵥ, iₒ, jₒ, kₒ, lₒ]), (-1, [aᵥ, bᵥ, cᵥ, dᵥ, iₒ, lₒ, kₒ, jₒ]), (-1, [aᵥ, cᵥ, bᵥ, dᵥ, iₒ, jₒ, kₒ, lₒ]), (1, [aᵥ, cᵥ, bᵥ, dᵥ, iₒ, lₒ, kₒ, jₒ])]⟩,
  -- line 47: nmik,adlm,bcjn->abcdijkl
  ⟨1, [g [nₒ, mₒ, iₒ, kₒ], t2 [aᵥ, dᵥ, lₒ, mₒ], t2 [bᵥ, cᵥ, jₒ, nₒ]], [(1, [aᵥ, bᵥ, cᵥ, dᵥ, iₒ, jₒ, kₒ, lₒ]), (-1, [aᵥ, bᵥ, cᵥ, dᵥ, iₒ, lₒ, kₒ, jₒ])]⟩,
  -- line 51: nmij,ablm,cdkn->abcdijkl
  ⟨-1, [g [nₒ, mₒ, iₒ, jₒ], t2 [aᵥ, bᵥ, lₒ, mₒ], t2 [cᵥ, dᵥ, kₒ, nₒ]], [(1, [aᵥ, bᵥ, cᵥ, dᵥ, iₒ, jₒ, kₒ, lₒ]), (-1, [aᵥ, bᵥ, cᵥ, dᵥ, iₒ, jₒ, lₒ, kₒ]), (-1, [aᵥ, cᵥ, bᵥ, dᵥ, iₒ, jₒ, kₒ, lₒ]), (1, [aᵥ, cᵥ, bᵥ, dᵥ, iₒ, jₒ, lₒ, kₒ])]⟩,
  -- line 55: nmij,adlm,bckn->abcdijkl
  ⟨-1, [g [nₒ, mₒ, iₒ, jₒ], t2 [aᵥ, dᵥ, lₒ, mₒ], t2 [bᵥ, cᵥ, kₒ, nₒ]], [(1, [aᵥ, bᵥ, cᵥ, dᵥ, iₒ, jₒ, kₒ, lₒ]), (-1, [aᵥ, bᵥ, cᵥ, dᵥ, iₒ, jₒ, lₒ, kₒ])]⟩
  ]

end Verif.Gen
