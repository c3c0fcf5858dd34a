import Verif.Ein.Names
import Verif.Gen.Antisym

/-! Written by `/verif/tools/gen.py`. Programs read from `/repo/UT2`. -/

set_option maxRecDepth 100000

namespace Verif.Gen

open Verif.Ein Verif.Ein.N


/-- Part 0 of `residQf1_aaaa`. -/
def residQf1_aaaa_0 : Prog := [
  -- line 21: nmkl,kldc,dcjm,abin->abij
  ⟨-1/4, [g_aaaa [nₒ, mₒ, kₒ, lₒ], l2_aaaa [kₒ, lₒ, dᵥ, cᵥ], t2_aaaa [dᵥ, cᵥ, jₒ, mₒ], t2_aaaa [aᵥ, bᵥ, iₒ, nₒ]], [(1, [aᵥ, bᵥ, iₒ, jₒ]), (-1, [aᵥ, bᵥ, jₒ, iₒ])]⟩,
  -- line 25: nmkl,kldc,dcjm,abin->abij
  ⟨-1/4, [g_abab [nₒ, mₒ, kₒ, lₒ], l2_abab [kₒ, lₒ, dᵥ, cᵥ], t2_abab [dᵥ, cᵥ, jₒ, mₒ], t2_aaaa [aᵥ, bᵥ, iₒ, nₒ]], [(1, [aᵥ, bᵥ, iₒ, jₒ]), (-1, [aᵥ, bᵥ, jₒ, iₒ])]⟩,
  -- line 29: nmkl,klcd,cdjm,abin->abij
  ⟨-1/4, [g_abab [nₒ, mₒ, kₒ, lₒ], l2_abab [kₒ, lₒ, cᵥ, dᵥ], t2_abab [cᵥ, dᵥ, jₒ, mₒ], t2_aaaa [aᵥ, bᵥ, iₒ, nₒ]], [(1, [aᵥ, bᵥ, iₒ, jₒ]), (-1, [aᵥ, bᵥ, jₒ, iₒ])]⟩,
  -- line 33: nmlk,lkdc,dcjm,abin->abij
  ⟨-1/4, [g_abab [nₒ, mₒ, lₒ, kₒ], l2_abab [lₒ, kₒ, dᵥ, cᵥ], t2_abab [dᵥ, cᵥ, jₒ, mₒ], t2_aaaa [aᵥ, bᵥ, iₒ, nₒ]], [(1, [aᵥ, bᵥ, iₒ, jₒ]), (-1, [aᵥ, bᵥ, jₒ, iₒ])]⟩,
  -- line 37: nmlk,lkcd,cdjm,abin->abij
  ⟨-1/4, [g_abab [nₒ, mₒ, lₒ, kₒ], l2_abab [lₒ, kₒ, cᵥ, dᵥ], t2_abab [cᵥ, dᵥ, jₒ, mₒ], t2_aaaa [aᵥ, bᵥ, iₒ, nₒ]], [(1, [aᵥ, bᵥ, iₒ, jₒ]), (-1, [aᵥ, bᵥ, jₒ, iₒ])]⟩,
  -- line 41: nmkl,kldc,dajm,cbin->abij
  ⟨1/2, [g_aaaa [nₒ, mₒ, kₒ, lₒ], l2_aaaa [kₒ, lₒ, dᵥ, cᵥ], t2_aaaa [dᵥ, aᵥ, jₒ, mₒ], t2_aaaa [cᵥ, bᵥ, iₒ, nₒ]], [(1, [aᵥ, bᵥ, iₒ, jₒ]), (-1, [aᵥ, bᵥ, jₒ, iₒ])]⟩,
  -- line 45: mnkl,kldc,dajm,bcin->abij
  ⟨1/2, [g_abab [mₒ, nₒ, kₒ, lₒ], l2_abab [kₒ, lₒ, dᵥ, cᵥ], t2_aaaa [dᵥ, aᵥ, jₒ, mₒ], t2_abab [bᵥ, cᵥ, iₒ, nₒ]], [(1, [aᵥ, bᵥ, iₒ, jₒ]), (-1, [aᵥ, bᵥ, jₒ, iₒ])]⟩,
  -- line 49: nmkl,klcd,adjm,cbin->abij
  ⟨1/2, [g_abab [nₒ, mₒ, kₒ, lₒ], l2_abab [kₒ, lₒ, cᵥ, dᵥ], t2_abab [aᵥ, dᵥ, jₒ, mₒ], t2_aaaa [cᵥ, bᵥ, iₒ, nₒ]], [(1, [aᵥ, bᵥ, iₒ, jₒ]), (-1, [aᵥ, bᵥ, jₒ, iₒ])]⟩,
  -- line 53: mnlk,lkdc,dajm,bcin->abij
  ⟨1/2, [g_abab [mₒ, nₒ, lₒ, kₒ], l2_abab [lₒ, kₒ, dᵥ, cᵥ], t2_aaaa [dᵥ, aᵥ, jₒ, mₒ], t2_abab [bᵥ, cᵥ, iₒ, nₒ]], [(1, [aᵥ, bᵥ, iₒ, jₒ]), (-1, [aᵥ, bᵥ, jₒ, iₒ])]⟩,
  -- line 57: nmlk,lkcd,adjm,cbin->abij
  ⟨1/2, [g_abab [nₒ, mₒ, lₒ, kₒ], l2_abab [lₒ, kₒ, cᵥ, dᵥ], t2_abab [aᵥ, dᵥ, jₒ, mₒ], t2_aaaa [cᵥ, bᵥ, iₒ, nₒ]], [(1, [aᵥ, bᵥ, iₒ, jₒ]), (-1, [aᵥ, bᵥ, jₒ, iₒ])]⟩,
  -- line 61: nmkl,kldc,adjm,bcin->abij
  ⟨1/2, [g_bbbb [nₒ, mₒ, kₒ, lₒ], l2_bbbb [kₒ, lₒ, dᵥ, cᵥ], t2_abab [aᵥ, dᵥ, jₒ, mₒ], t2_abab [bᵥ, cᵥ, iₒ, nₒ]], [(1, [aᵥ, bᵥ, iₒ, jₒ]), (-1, [aᵥ, bᵥ, jₒ, iₒ])]⟩,
  -- line 65: nmjl,kldc,dckm,abin->abij
  ⟨1/2, [g_aaaa [nₒ, mₒ, jₒ, lₒ], l2_aaaa [kₒ, lₒ, dᵥ, cᵥ], t2_aaaa [dᵥ, cᵥ, kₒ, mₒ], t2_aaaa [aᵥ, bᵥ, iₒ, nₒ]], [(1, [aᵥ, bᵥ, iₒ, jₒ]), (-1, [aᵥ, bᵥ, jₒ, iₒ])]⟩,
  -- line 69: nmjl,kldc,dckm,abin->abij
  ⟨1/2, [g_abab [nₒ, mₒ, jₒ, lₒ], l2_abab [kₒ, lₒ, dᵥ, cᵥ], t2_abab [dᵥ, cᵥ, kₒ, mₒ], t2_aaaa [aᵥ, bᵥ, iₒ, nₒ]], [(1, [aᵥ, bᵥ, iₒ, jₒ]), (-1, [aᵥ, bᵥ, jₒ, iₒ])]⟩,
  -- line 73: nmjl,klcd,cdkm,abin->abij
  ⟨1/2, [g_abab [nₒ, mₒ, jₒ, lₒ], l2_abab [kₒ, lₒ, cᵥ, dᵥ], t2_abab [cᵥ, dᵥ, kₒ, mₒ], t2_aaaa [aᵥ, bᵥ, iₒ, nₒ]], [(1, [aᵥ, bᵥ, iₒ, jₒ]), (-1, [aᵥ, bᵥ, jₒ, iₒ])]⟩,
  -- line 77: nmjl,lkdc,dcmk,abin->abij
  ⟨1/2, [g_aaaa [nₒ, mₒ, jₒ, lₒ], l2_abab [lₒ, kₒ, dᵥ, cᵥ], t2_abab [dᵥ, cᵥ, mₒ, kₒ], t2_aaaa [aᵥ, bᵥ, iₒ, nₒ]], [(1, [aᵥ, bᵥ, iₒ, jₒ]), (-1, [aᵥ, bᵥ, jₒ, iₒ])]⟩,
  -- line 81: nmjl,lkcd,cdmk,abin->abij
  ⟨1/2, [g_aaaa [nₒ, mₒ, jₒ, lₒ], l2_abab [lₒ, kₒ, cᵥ, dᵥ], t2_abab [cᵥ, dᵥ, mₒ, kₒ], t2_aaaa [aᵥ, bᵥ, iₒ, nₒ]], [(1, [aᵥ, bᵥ, iₒ, jₒ]), (-1, [aᵥ, bᵥ, jₒ, iₒ])]⟩,
  -- line 85: nmjl,kldc,dckm,abin->abij
  ⟨1/2, [g_abab [nₒ, mₒ, jₒ, lₒ], l2_bbbb [kₒ, lₒ, dᵥ, cᵥ], t2_bbbb [dᵥ, cᵥ, kₒ, mₒ], t2_aaaa [aᵥ, bᵥ, iₒ, nₒ]], [(1, [aᵥ, bᵥ, iₒ, jₒ]), (-1, [aᵥ, bᵥ, jₒ, iₒ])]⟩,
  -- line 89: nmjl,kldc,dcim,abkn->abij
  ⟨-1/2, [g_aaaa [nₒ, mₒ, jₒ, lₒ], l2_aaaa [kₒ, lₒ, dᵥ, cᵥ], t2_aaaa [dᵥ, cᵥ, iₒ, mₒ], t2_aaaa [aᵥ, bᵥ, kₒ, nₒ]], [(1, [aᵥ, bᵥ, iₒ, jₒ]), (-1, [aᵥ, bᵥ, jₒ, iₒ])]⟩,
  -- line 93: nmjl,kldc,dcim,abkn->abij
  ⟨-1/2, [g_abab [nₒ, mₒ, jₒ, lₒ], l2_abab [kₒ, lₒ, dᵥ, cᵥ], t2_abab [dᵥ, cᵥ, iₒ, mₒ], t2_aaaa [aᵥ, bᵥ, kₒ, nₒ]], [(1, [aᵥ, bᵥ, iₒ, jₒ]), (-1, [aᵥ, bᵥ, jₒ, iₒ])]⟩,
  -- line 97: nmjl,klcd,cdim,abkn->abij
  ⟨-1/2, [g_abab [nₒ, mₒ, jₒ, lₒ], l2_abab [kₒ, lₒ, cᵥ, dᵥ], t2_abab [cᵥ, dᵥ, iₒ, mₒ], t2_aaaa [aᵥ, bᵥ, kₒ, nₒ]], [(1, [aᵥ, bᵥ, iₒ, jₒ]), (-1, [aᵥ, bᵥ, jₒ, iₒ])]⟩,
  -- line 101: nmjl,kldc,dakm,cbin->abij
  ⟨-1, [g_aaaa [nₒ, mₒ, jₒ, lₒ], l2_aaaa [kₒ, lₒ, dᵥ, cᵥ], t2_aaaa [dᵥ, aᵥ, kₒ, mₒ], t2_aaaa [cᵥ, bᵥ, iₒ, nₒ]], [(1, [aᵥ, bᵥ, iₒ, jₒ]), (-1, [aᵥ, bᵥ, jₒ, iₒ])]⟩,
  -- line 105: mnjl,kldc,dakm,bcin->abij
  ⟨-1, [g_abab [mₒ, nₒ, jₒ, lₒ], l2_abab [kₒ, lₒ, dᵥ, cᵥ], t2_aaaa [dᵥ, aᵥ, kₒ, mₒ], t2_abab [bᵥ, cᵥ, iₒ, nₒ]], [(1, [aᵥ, bᵥ, iₒ, jₒ]), (-1, [aᵥ, bᵥ, jₒ, iₒ])]⟩,
  -- line 109: nmjl,klcd,adkm,cbin->abij
  ⟨-1, [g_abab [nₒ, mₒ, jₒ, lₒ], l2_abab [kₒ, lₒ, cᵥ, dᵥ], t2_abab [aᵥ, dᵥ, kₒ, mₒ], t2_aaaa [cᵥ, bᵥ, iₒ, nₒ]], [(1, [aᵥ, bᵥ, iₒ, jₒ]), (-1, [aᵥ, bᵥ, jₒ, iₒ])]⟩,
  -- line 113: nmjl,lkcd,admk,cbin->abij
  ⟨-1, [g_aaaa [nₒ, mₒ, jₒ, lₒ], l2_abab [lₒ, kₒ, cᵥ, dᵥ], t2_abab [aᵥ, dᵥ, mₒ, kₒ], t2_aaaa [cᵥ, bᵥ, iₒ, nₒ]], [(1, [aᵥ, bᵥ, iₒ, jₒ]), (-1, [aᵥ, bᵥ, jₒ, iₒ])]⟩,
  -- line 117: mnjl,kldc,admk,bcin->abij
  ⟨-1, [g_abab [mₒ, nₒ, jₒ, lₒ], l2_bbbb [kₒ, lₒ, dᵥ, cᵥ], t2_abab [aᵥ, dᵥ, mₒ, kₒ], t2_abab [bᵥ, cᵥ, iₒ, nₒ]], [(1, [aᵥ, bᵥ, iₒ, jₒ]), (-1, [aᵥ, bᵥ, jₒ, iₒ])]⟩,
  -- line 121: nmjl,kldc,daim,cbkn->abij
  ⟨1, [g_aaaa [nₒ, mₒ, jₒ, lₒ], l2_aaaa [kₒ, lₒ, dᵥ, cᵥ], t2_aaaa [dᵥ, aᵥ, iₒ, mₒ], t2_aaaa [cᵥ, bᵥ, kₒ, nₒ]], [(1, [aᵥ, bᵥ, iₒ, jₒ]), (-1, [aᵥ, bᵥ, jₒ, iₒ])]⟩,
  -- line 125: mnjl,kldc,daim,bckn->abij
  ⟨1, [g_abab [mₒ, nₒ, jₒ, lₒ], l2_abab [kₒ, lₒ, dᵥ, cᵥ], t2_aaaa [dᵥ, aᵥ, iₒ, mₒ], t2_abab [bᵥ, cᵥ, kₒ, nₒ]], [(1, [aᵥ, bᵥ, iₒ, jₒ]), (-1, [aᵥ, bᵥ, jₒ, iₒ])]⟩,
  -- line 129: nmjl,klcd,adim,cbkn->abij
  ⟨1, [g_abab [nₒ, mₒ, jₒ, lₒ], l2_abab [kₒ, lₒ, cᵥ, dᵥ], t2_abab [aᵥ, dᵥ, iₒ, mₒ], t2_aaaa [cᵥ, bᵥ, kₒ, nₒ]], [(1, [aᵥ, bᵥ, iₒ, jₒ]), (-1, [aᵥ, bᵥ, jₒ, iₒ])]⟩,
  -- line 133: nmjl,lkdc,daim,bcnk->abij
  ⟨-1, [g_aaaa [nₒ, mₒ, jₒ, lₒ], l2_abab [lₒ, kₒ, dᵥ, cᵥ], t2_aaaa [dᵥ, aᵥ, iₒ, mₒ], t2_abab [bᵥ, cᵥ, nₒ, kₒ]], [(1, [aᵥ, bᵥ, iₒ, jₒ]), (-1, [aᵥ, bᵥ, jₒ, iₒ])]⟩,
  -- line 137: nmjl,kldc,adim,bcnk->abij
  ⟨-1, [g_abab [nₒ, mₒ, jₒ, lₒ], l2_bbbb [kₒ, lₒ, dᵥ, cᵥ], t2_abab [aᵥ, dᵥ, iₒ, mₒ], t2_abab [bᵥ, cᵥ, nₒ, kₒ]], [(1, [aᵥ, bᵥ, iₒ, jₒ]), (-1, [aᵥ, bᵥ, jₒ, iₒ])]⟩,
  -- line 141: nmij,kldc,dclm,abkn->abij
  ⟨-1/2, [g_aaaa [nₒ, mₒ, iₒ, jₒ], l2_aaaa [kₒ, lₒ, dᵥ, cᵥ], t2_aaaa [dᵥ, cᵥ, lₒ, mₒ], t2_aaaa [aᵥ, bᵥ, kₒ, nₒ]], [(1, [aᵥ, bᵥ, iₒ, jₒ])]⟩,
  -- line 144: nmij,kldc,dcml,abkn->abij
  ⟨1/2, [g_aaaa [nₒ, mₒ, iₒ, jₒ], l2_abab [kₒ, lₒ, dᵥ, cᵥ], t2_abab [dᵥ, cᵥ, mₒ, lₒ], t2_aaaa [aᵥ, bᵥ, kₒ, nₒ]], [(1, [aᵥ, bᵥ, iₒ, jₒ])]⟩,
  -- line 147: nmij,klcd,cdml,abkn->abij
  ⟨1/2, [g_aaaa [nₒ, mₒ, iₒ, jₒ], l2_abab [kₒ, lₒ, cᵥ, dᵥ], t2_abab [cᵥ, dᵥ, mₒ, lₒ], t2_aaaa [aᵥ, bᵥ, kₒ, nₒ]], [(1, [aᵥ, bᵥ, iₒ, jₒ])]⟩,
  -- line 150: nmij,kldc,dalm,cbkn->abij
  ⟨1/2, [g_aaaa [nₒ, mₒ, iₒ, jₒ], l2_aaaa [kₒ, lₒ, dᵥ, cᵥ], t2_aaaa [dᵥ, aᵥ, lₒ, mₒ], t2_aaaa [cᵥ, bᵥ, kₒ, nₒ]], [(1, [aᵥ, bᵥ, iₒ, jₒ]), (-1, [bᵥ, aᵥ, iₒ, jₒ])]⟩,
  -- line 154: nmij,klcd,adml,cbkn->abij
  ⟨-1/2, [g_aaaa [nₒ, mₒ, iₒ, jₒ], l2_abab [kₒ, lₒ, cᵥ, dᵥ], t2_abab [aᵥ, dᵥ, mₒ, lₒ], t2_aaaa [cᵥ, bᵥ, kₒ, nₒ]], [(1, [aᵥ, bᵥ, iₒ, jₒ]), (-1, [bᵥ, aᵥ, iₒ, jₒ])]⟩,
  -- line 158: nmij,lkdc,dalm,bcnk->abij
  ⟨-1/2, [g_aaaa [nₒ, mₒ, iₒ, jₒ], l2_abab [lₒ, kₒ, dᵥ, cᵥ], t2_aaaa [dᵥ, aᵥ, lₒ, mₒ], t2_abab [bᵥ, cᵥ, nₒ, kₒ]], [(1, [aᵥ, bᵥ, iₒ, jₒ]), (-1, [bᵥ, aᵥ, iₒ, jₒ])]⟩,
  -- line 162: nmij,kldc,adml,bcnk->abij
  ⟨1/2, [g_aaaa [nₒ, mₒ, iₒ, jₒ], l2_bbbb [kₒ, lₒ, dᵥ, cᵥ], t2_abab [aᵥ, dᵥ, mₒ, lₒ], t2_abab [bᵥ, cᵥ, nₒ, kₒ]], [(1, [aᵥ, bᵥ, iₒ, jₒ]), (-1, [bᵥ, aᵥ, iₒ, jₒ])]⟩,
  -- line 166: mdel,kldc,ecjk,abim->abij
  ⟨1, [g_aaaa [mₒ, dᵥ, eᵥ, lₒ], l2_aaaa [kₒ, lₒ, dᵥ, cᵥ], t2_aaaa [eᵥ, cᵥ, jₒ, kₒ], t2_aaaa [aᵥ, bᵥ, iₒ, mₒ]], [(1, [aᵥ, bᵥ, iₒ, jₒ]), (-1, [aᵥ, bᵥ, jₒ, iₒ])]⟩,
  -- line 170: mdel,klcd,ecjk,abim->abij
  ⟨-1, [g_abab [mₒ, dᵥ, eᵥ, lₒ], l2_abab [kₒ, lₒ, cᵥ, dᵥ], t2_aaaa [eᵥ, cᵥ, jₒ, kₒ], t2_aaaa [aᵥ, bᵥ, iₒ, mₒ]], [(1, [aᵥ, bᵥ, iₒ, jₒ]), (-1, [aᵥ, bᵥ, jₒ, iₒ])]⟩,
  -- line 174: mdel,lkdc,ecjk,abim->abij
  ⟨-1, [g_aaaa [mₒ, dᵥ, eᵥ, lₒ], l2_abab [lₒ, kₒ, dᵥ, cᵥ], t2_abab [eᵥ, cᵥ, jₒ, kₒ], t2_aaaa [aᵥ, bᵥ, iₒ, mₒ]], [(1, [aᵥ, bᵥ, iₒ, jₒ]), (-1, [aᵥ, bᵥ, jₒ, iₒ])]⟩
  ]

/-- Part 1 of `residQf1_aaaa`. -/
def residQf1_aaaa_1 : Prog := [
  -- line 178: mdle,lkcd,cejk,abim->abij
  ⟨1, [g_abab [mₒ, dᵥ, lₒ, eᵥ], l2_abab [lₒ, kₒ, cᵥ, dᵥ], t2_abab [cᵥ, eᵥ, jₒ, kₒ], t2_aaaa [aᵥ, bᵥ, iₒ, mₒ]], [(1, [aᵥ, bᵥ, iₒ, jₒ]), (-1, [aᵥ, bᵥ, jₒ, iₒ])]⟩,
  -- line 182: mdel,kldc,ecjk,abim->abij
  ⟨1, [g_abab [mₒ, dᵥ, eᵥ, lₒ], l2_bbbb [kₒ, lₒ, dᵥ, cᵥ], t2_abab [eᵥ, cᵥ, jₒ, kₒ], t2_aaaa [aᵥ, bᵥ, iₒ, mₒ]], [(1, [aᵥ, bᵥ, iₒ, jₒ]), (-1, [aᵥ, bᵥ, jₒ, iₒ])]⟩,
  -- line 186: mdel,kldc,ecij,abkm->abij
  ⟨1, [g_aaaa [mₒ, dᵥ, eᵥ, lₒ], l2_aaaa [kₒ, lₒ, dᵥ, cᵥ], t2_aaaa [eᵥ, cᵥ, iₒ, jₒ], t2_aaaa [aᵥ, bᵥ, kₒ, mₒ]], [(1, [aᵥ, bᵥ, iₒ, jₒ])]⟩,
  -- line 189: mdel,klcd,ecij,abkm->abij
  ⟨-1, [g_abab [mₒ, dᵥ, eᵥ, lₒ], l2_abab [kₒ, lₒ, cᵥ, dᵥ], t2_aaaa [eᵥ, cᵥ, iₒ, jₒ], t2_aaaa [aᵥ, bᵥ, kₒ, mₒ]], [(1, [aᵥ, bᵥ, iₒ, jₒ])]⟩,
  -- line 192: mdel,kldc,eajk,cbim->abij
  ⟨-1, [g_aaaa [mₒ, dᵥ, eᵥ, lₒ], l2_aaaa [kₒ, lₒ, dᵥ, cᵥ], t2_aaaa [eᵥ, aᵥ, jₒ, kₒ], t2_aaaa [cᵥ, bᵥ, iₒ, mₒ]], [(1, [aᵥ, bᵥ, iₒ, jₒ]), (-1, [aᵥ, bᵥ, jₒ, iₒ]), (-1, [bᵥ, aᵥ, iₒ, jₒ]), (1, [bᵥ, aᵥ, jₒ, iₒ])]⟩,
  -- line 196: dmel,kldc,eajk,bcim->abij
  ⟨-1, [g_abab [dᵥ, mₒ, eᵥ, lₒ], l2_abab [kₒ, lₒ, dᵥ, cᵥ], t2_aaaa [eᵥ, aᵥ, jₒ, kₒ], t2_abab [bᵥ, cᵥ, iₒ, mₒ]], [(1, [aᵥ, bᵥ, iₒ, jₒ]), (-1, [aᵥ, bᵥ, jₒ, iₒ]), (-1, [bᵥ, aᵥ, iₒ, jₒ]), (1, [bᵥ, aᵥ, jₒ, iₒ])]⟩,
  -- line 200: mdel,klcd,eajk,cbim->abij
  ⟨1, [g_abab [mₒ, dᵥ, eᵥ, lₒ], l2_abab [kₒ, lₒ, cᵥ, dᵥ], t2_aaaa [eᵥ, aᵥ, jₒ, kₒ], t2_aaaa [cᵥ, bᵥ, iₒ, mₒ]], [(1, [aᵥ, bᵥ, iₒ, jₒ]), (-1, [aᵥ, bᵥ, jₒ, iₒ]), (-1, [bᵥ, aᵥ, iₒ, jₒ]), (1, [bᵥ, aᵥ, jₒ, iₒ])]⟩,
  -- line 204: dmle,lkdc,aejk,bcim->abij
  ⟨1, [g_abab [dᵥ, mₒ, lₒ, eᵥ], l2_abab [lₒ, kₒ, dᵥ, cᵥ], t2_abab [aᵥ, eᵥ, jₒ, kₒ], t2_abab [bᵥ, cᵥ, iₒ, mₒ]], [(1, [aᵥ, bᵥ, iₒ, jₒ]), (-1, [aᵥ, bᵥ, jₒ, iₒ]), (-1, [bᵥ, aᵥ, iₒ, jₒ]), (1, [bᵥ, aᵥ, jₒ, iₒ])]⟩,
  -- line 208: mdle,lkcd,aejk,cbim->abij
  ⟨-1, [g_abab [mₒ, dᵥ, lₒ, eᵥ], l2_abab [lₒ, kₒ, cᵥ, dᵥ], t2_abab [aᵥ, eᵥ, jₒ, kₒ], t2_aaaa [cᵥ, bᵥ, iₒ, mₒ]], [(1, [aᵥ, bᵥ, iₒ, jₒ]), (-1, [aᵥ, bᵥ, jₒ, iₒ]), (-1, [bᵥ, aᵥ, iₒ, jₒ]), (1, [bᵥ, aᵥ, jₒ, iₒ])]⟩,
  -- line 212: mdel,kldc,aejk,bcim->abij
  ⟨-1, [g_bbbb [mₒ, dᵥ, eᵥ, lₒ], l2_bbbb [kₒ, lₒ, dᵥ, cᵥ], t2_abab [aᵥ, eᵥ, jₒ, kₒ], t2_abab [bᵥ, cᵥ, iₒ, mₒ]], [(1, [aᵥ, bᵥ, iₒ, jₒ]), (-1, [aᵥ, bᵥ, jₒ, iₒ]), (-1, [bᵥ, aᵥ, iₒ, jₒ]), (1, [bᵥ, aᵥ, jₒ, iₒ])]⟩,
  -- line 216: mdel,kldc,eaij,cbkm->abij
  ⟨-1, [g_aaaa [mₒ, dᵥ, eᵥ, lₒ], l2_aaaa [kₒ, lₒ, dᵥ, cᵥ], t2_aaaa [eᵥ, aᵥ, iₒ, jₒ], t2_aaaa [cᵥ, bᵥ, kₒ, mₒ]], [(1, [aᵥ, bᵥ, iₒ, jₒ]), (-1, [bᵥ, aᵥ, iₒ, jₒ])]⟩,
  -- line 220: dmel,kldc,eaij,bckm->abij
  ⟨-1, [g_abab [dᵥ, mₒ, eᵥ, lₒ], l2_abab [kₒ, lₒ, dᵥ, cᵥ], t2_aaaa [eᵥ, aᵥ, iₒ, jₒ], t2_abab [bᵥ, cᵥ, kₒ, mₒ]], [(1, [aᵥ, bᵥ, iₒ, jₒ]), (-1, [bᵥ, aᵥ, iₒ, jₒ])]⟩,
  -- line 224: mdel,klcd,eaij,cbkm->abij
  ⟨1, [g_abab [mₒ, dᵥ, eᵥ, lₒ], l2_abab [kₒ, lₒ, cᵥ, dᵥ], t2_aaaa [eᵥ, aᵥ, iₒ, jₒ], t2_aaaa [cᵥ, bᵥ, kₒ, mₒ]], [(1, [aᵥ, bᵥ, iₒ, jₒ]), (-1, [bᵥ, aᵥ, iₒ, jₒ])]⟩,
  -- line 228: mdel,lkdc,eaij,bcmk->abij
  ⟨1, [g_aaaa [mₒ, dᵥ, eᵥ, lₒ], l2_abab [lₒ, kₒ, dᵥ, cᵥ], t2_aaaa [eᵥ, aᵥ, iₒ, jₒ], t2_abab [bᵥ, cᵥ, mₒ, kₒ]], [(1, [aᵥ, bᵥ, iₒ, jₒ]), (-1, [bᵥ, aᵥ, iₒ, jₒ])]⟩,
  -- line 232: mdel,kldc,eaij,bcmk->abij
  ⟨-1, [g_abab [mₒ, dᵥ, eᵥ, lₒ], l2_bbbb [kₒ, lₒ, dᵥ, cᵥ], t2_aaaa [eᵥ, aᵥ, iₒ, jₒ], t2_abab [bᵥ, cᵥ, mₒ, kₒ]], [(1, [aᵥ, bᵥ, iₒ, jₒ]), (-1, [bᵥ, aᵥ, iₒ, jₒ])]⟩,
  -- line 236: mdej,kldc,eckl,abim->abij
  ⟨1/2, [g_aaaa [mₒ, dᵥ, eᵥ, jₒ], l2_aaaa [kₒ, lₒ, dᵥ, cᵥ], t2_aaaa [eᵥ, cᵥ, kₒ, lₒ], t2_aaaa [aᵥ, bᵥ, iₒ, mₒ]], [(1, [aᵥ, bᵥ, iₒ, jₒ]), (-1, [aᵥ, bᵥ, jₒ, iₒ])]⟩,
  -- line 240: mdej,kldc,eckl,abim->abij
  ⟨1/2, [g_aaaa [mₒ, dᵥ, eᵥ, jₒ], l2_abab [kₒ, lₒ, dᵥ, cᵥ], t2_abab [eᵥ, cᵥ, kₒ, lₒ], t2_aaaa [aᵥ, bᵥ, iₒ, mₒ]], [(1, [aᵥ, bᵥ, iₒ, jₒ]), (-1, [aᵥ, bᵥ, jₒ, iₒ])]⟩,
  -- line 244: mdje,klcd,cekl,abim->abij
  ⟨-1/2, [g_abab [mₒ, dᵥ, jₒ, eᵥ], l2_abab [kₒ, lₒ, cᵥ, dᵥ], t2_abab [cᵥ, eᵥ, kₒ, lₒ], t2_aaaa [aᵥ, bᵥ, iₒ, mₒ]], [(1, [aᵥ, bᵥ, iₒ, jₒ]), (-1, [aᵥ, bᵥ, jₒ, iₒ])]⟩,
  -- line 248: mdej,lkdc,eclk,abim->abij
  ⟨1/2, [g_aaaa [mₒ, dᵥ, eᵥ, jₒ], l2_abab [lₒ, kₒ, dᵥ, cᵥ], t2_abab [eᵥ, cᵥ, lₒ, kₒ], t2_aaaa [aᵥ, bᵥ, iₒ, mₒ]], [(1, [aᵥ, bᵥ, iₒ, jₒ]), (-1, [aᵥ, bᵥ, jₒ, iₒ])]⟩,
  -- line 252: mdje,lkcd,celk,abim->abij
  ⟨-1/2, [g_abab [mₒ, dᵥ, jₒ, eᵥ], l2_abab [lₒ, kₒ, cᵥ, dᵥ], t2_abab [cᵥ, eᵥ, lₒ, kₒ], t2_aaaa [aᵥ, bᵥ, iₒ, mₒ]], [(1, [aᵥ, bᵥ, iₒ, jₒ]), (-1, [aᵥ, bᵥ, jₒ, iₒ])]⟩,
  -- line 256: mdje,kldc,eckl,abim->abij
  ⟨-1/2, [g_abab [mₒ, dᵥ, jₒ, eᵥ], l2_bbbb [kₒ, lₒ, dᵥ, cᵥ], t2_bbbb [eᵥ, cᵥ, kₒ, lₒ], t2_aaaa [aᵥ, bᵥ, iₒ, mₒ]], [(1, [aᵥ, bᵥ, iₒ, jₒ]), (-1, [aᵥ, bᵥ, jₒ, iₒ])]⟩,
  -- line 260: mdej,kldc,ecil,abkm->abij
  ⟨-1, [g_aaaa [mₒ, dᵥ, eᵥ, jₒ], l2_aaaa [kₒ, lₒ, dᵥ, cᵥ], t2_aaaa [eᵥ, cᵥ, iₒ, lₒ], t2_aaaa [aᵥ, bᵥ, kₒ, mₒ]], [(1, [aᵥ, bᵥ, iₒ, jₒ]), (-1, [aᵥ, bᵥ, jₒ, iₒ])]⟩,
  -- line 264: mdej,kldc,ecil,abkm->abij
  ⟨-1, [g_aaaa [mₒ, dᵥ, eᵥ, jₒ], l2_abab [kₒ, lₒ, dᵥ, cᵥ], t2_abab [eᵥ, cᵥ, iₒ, lₒ], t2_aaaa [aᵥ, bᵥ, kₒ, mₒ]], [(1, [aᵥ, bᵥ, iₒ, jₒ]), (-1, [aᵥ, bᵥ, jₒ, iₒ])]⟩,
  -- line 268: mdje,klcd,ceil,abkm->abij
  ⟨1, [g_abab [mₒ, dᵥ, jₒ, eᵥ], l2_abab [kₒ, lₒ, cᵥ, dᵥ], t2_abab [cᵥ, eᵥ, iₒ, lₒ], t2_aaaa [aᵥ, bᵥ, kₒ, mₒ]], [(1, [aᵥ, bᵥ, iₒ, jₒ]), (-1, [aᵥ, bᵥ, jₒ, iₒ])]⟩,
  -- line 272: mdej,kldc,eakl,cbim->abij
  ⟨-1/2, [g_aaaa [mₒ, dᵥ, eᵥ, jₒ], l2_aaaa [kₒ, lₒ, dᵥ, cᵥ], t2_aaaa [eᵥ, aᵥ, kₒ, lₒ], t2_aaaa [cᵥ, bᵥ, iₒ, mₒ]], [(1, [aᵥ, bᵥ, iₒ, jₒ]), (-1, [aᵥ, bᵥ, jₒ, iₒ]), (-1, [bᵥ, aᵥ, iₒ, jₒ]), (1, [bᵥ, aᵥ, jₒ, iₒ])]⟩,
  -- line 276: dmje,kldc,aekl,bcim->abij
  ⟨-1/2, [g_abab [dᵥ, mₒ, jₒ, eᵥ], l2_abab [kₒ, lₒ, dᵥ, cᵥ], t2_abab [aᵥ, eᵥ, kₒ, lₒ], t2_abab [bᵥ, cᵥ, iₒ, mₒ]], [(1, [aᵥ, bᵥ, iₒ, jₒ]), (-1, [aᵥ, bᵥ, jₒ, iₒ]), (-1, [bᵥ, aᵥ, iₒ, jₒ]), (1, [bᵥ, aᵥ, jₒ, iₒ])]⟩,
  -- line 280: mdje,klcd,aekl,cbim->abij
  ⟨1/2, [g_abab [mₒ, dᵥ, jₒ, eᵥ], l2_abab [kₒ, lₒ, cᵥ, dᵥ], t2_abab [aᵥ, eᵥ, kₒ, lₒ], t2_aaaa [cᵥ, bᵥ, iₒ, mₒ]], [(1, [aᵥ, bᵥ, iₒ, jₒ]), (-1, [aᵥ, bᵥ, jₒ, iₒ]), (-1, [bᵥ, aᵥ, iₒ, jₒ]), (1, [bᵥ, aᵥ, jₒ, iₒ])]⟩,
  -- line 284: dmje,lkdc,aelk,bcim->abij
  ⟨-1/2, [g_abab [dᵥ, mₒ, jₒ, eᵥ], l2_abab [lₒ, kₒ, dᵥ, cᵥ], t2_abab [aᵥ, eᵥ, lₒ, kₒ], t2_abab [bᵥ, cᵥ, iₒ, mₒ]], [(1, [aᵥ, bᵥ, iₒ, jₒ]), (-1, [aᵥ, bᵥ, jₒ, iₒ]), (-1, [bᵥ, aᵥ, iₒ, jₒ]), (1, [bᵥ, aᵥ, jₒ, iₒ])]⟩,
  -- line 288: mdje,lkcd,aelk,cbim->abij
  ⟨1/2, [g_abab [mₒ, dᵥ, jₒ, eᵥ], l2_abab [lₒ, kₒ, cᵥ, dᵥ], t2_abab [aᵥ, eᵥ, lₒ, kₒ], t2_aaaa [cᵥ, bᵥ, iₒ, mₒ]], [(1, [aᵥ, bᵥ, iₒ, jₒ]), (-1, [aᵥ, bᵥ, jₒ, iₒ]), (-1, [bᵥ, aᵥ, iₒ, jₒ]), (1, [bᵥ, aᵥ, jₒ, iₒ])]⟩,
  -- line 292: mdej,kldc,eail,cbkm->abij
  ⟨1, [g_aaaa [mₒ, dᵥ, eᵥ, jₒ], l2_aaaa [kₒ, lₒ, dᵥ, cᵥ], t2_aaaa [eᵥ, aᵥ, iₒ, lₒ], t2_aaaa [cᵥ, bᵥ, kₒ, mₒ]], [(1, [aᵥ, bᵥ, iₒ, jₒ]), (-1, [aᵥ, bᵥ, jₒ, iₒ]), (-1, [bᵥ, aᵥ, iₒ, jₒ]), (1, [bᵥ, aᵥ, jₒ, iₒ])]⟩,
  -- line 296: dmje,kldc,aeil,bckm->abij
  ⟨1, [g_abab [dᵥ, mₒ, jₒ, eᵥ], l2_abab [kₒ, lₒ, dᵥ, cᵥ], t2_abab [aᵥ, eᵥ, iₒ, lₒ], t2_abab [bᵥ, cᵥ, kₒ, mₒ]], [(1, [aᵥ, bᵥ, iₒ, jₒ]), (-1, [aᵥ, bᵥ, jₒ, iₒ]), (-1, [bᵥ, aᵥ, iₒ, jₒ]), (1, [bᵥ, aᵥ, jₒ, iₒ])]⟩,
  -- line 300: mdje,klcd,aeil,cbkm->abij
  ⟨-1, [g_abab [mₒ, dᵥ, jₒ, eᵥ], l2_abab [kₒ, lₒ, cᵥ, dᵥ], t2_abab [aᵥ, eᵥ, iₒ, lₒ], t2_aaaa [cᵥ, bᵥ, kₒ, mₒ]], [(1, [aᵥ, bᵥ, iₒ, jₒ]), (-1, [aᵥ, bᵥ, jₒ, iₒ]), (-1, [bᵥ, aᵥ, iₒ, jₒ]), (1, [bᵥ, aᵥ, jₒ, iₒ])]⟩,
  -- line 304: mdej,lkdc,eail,bcmk->abij
  ⟨-1, [g_aaaa [mₒ, dᵥ, eᵥ, jₒ], l2_abab [lₒ, kₒ, dᵥ, cᵥ], t2_aaaa [eᵥ, aᵥ, iₒ, lₒ], t2_abab [bᵥ, cᵥ, mₒ, kₒ]], [(1, [aᵥ, bᵥ, iₒ, jₒ]), (-1, [aᵥ, bᵥ, jₒ, iₒ]), (-1, [bᵥ, aᵥ, iₒ, jₒ]), (1, [bᵥ, aᵥ, jₒ, iₒ])]⟩,
  -- line 308: mdje,kldc,aeil,bcmk->abij
  ⟨1, [g_abab [mₒ, dᵥ, jₒ, eᵥ], l2_bbbb [kₒ, lₒ, dᵥ, cᵥ], t2_abab [aᵥ, eᵥ, iₒ, lₒ], t2_abab [bᵥ, cᵥ, mₒ, kₒ]], [(1, [aᵥ, bᵥ, iₒ, jₒ]), (-1, [aᵥ, bᵥ, jₒ, iₒ]), (-1, [bᵥ, aᵥ, iₒ, jₒ]), (1, [bᵥ, aᵥ, jₒ, iₒ])]⟩,
  -- line 312: mael,kldc,edjk,cbim->abij
  ⟨1, [g_aaaa [mₒ, aᵥ, eᵥ, lₒ], l2_aaaa [kₒ, lₒ, dᵥ, cᵥ], t2_aaaa [eᵥ, dᵥ, jₒ, kₒ], t2_aaaa [cᵥ, bᵥ, iₒ, mₒ]], [(1, [aᵥ, bᵥ, iₒ, jₒ]), (-1, [aᵥ, bᵥ, jₒ, iₒ]), (-1, [bᵥ, aᵥ, iₒ, jₒ]), (1, [bᵥ, aᵥ, jₒ, iₒ])]⟩,
  -- line 316: amel,kldc,edjk,bcim->abij
  ⟨1, [g_abab [aᵥ, mₒ, eᵥ, lₒ], l2_abab [kₒ, lₒ, dᵥ, cᵥ], t2_aaaa [eᵥ, dᵥ, jₒ, kₒ], t2_abab [bᵥ, cᵥ, iₒ, mₒ]], [(1, [aᵥ, bᵥ, iₒ, jₒ]), (-1, [aᵥ, bᵥ, jₒ, iₒ]), (-1, [bᵥ, aᵥ, iₒ, jₒ]), (1, [bᵥ, aᵥ, jₒ, iₒ])]⟩,
  -- line 320: amle,lkdc,dejk,bcim->abij
  ⟨-1, [g_abab [aᵥ, mₒ, lₒ, eᵥ], l2_abab [lₒ, kₒ, dᵥ, cᵥ], t2_abab [dᵥ, eᵥ, jₒ, kₒ], t2_abab [bᵥ, cᵥ, iₒ, mₒ]], [(1, [aᵥ, bᵥ, iₒ, jₒ]), (-1, [aᵥ, bᵥ, jₒ, iₒ]), (-1, [bᵥ, aᵥ, iₒ, jₒ]), (1, [bᵥ, aᵥ, jₒ, iₒ])]⟩,
  -- line 324: mael,lkcd,edjk,cbim->abij
  ⟨1, [g_aaaa [mₒ, aᵥ, eᵥ, lₒ], l2_abab [lₒ, kₒ, cᵥ, dᵥ], t2_abab [eᵥ, dᵥ, jₒ, kₒ], t2_aaaa [cᵥ, bᵥ, iₒ, mₒ]], [(1, [aᵥ, bᵥ, iₒ, jₒ]), (-1, [aᵥ, bᵥ, jₒ, iₒ]), (-1, [bᵥ, aᵥ, iₒ, jₒ]), (1, [bᵥ, aᵥ, jₒ, iₒ])]⟩,
  -- line 328: amel,kldc,edjk,bcim->abij
  ⟨1, [g_abab [aᵥ, mₒ, eᵥ, lₒ], l2_bbbb [kₒ, lₒ, dᵥ, cᵥ], t2_abab [eᵥ, dᵥ, jₒ, kₒ], t2_abab [bᵥ, cᵥ, iₒ, mₒ]], [(1, [aᵥ, bᵥ, iₒ, jₒ]), (-1, [aᵥ, bᵥ, jₒ, iₒ]), (-1, [bᵥ, aᵥ, iₒ, jₒ]), (1, [bᵥ, aᵥ, jₒ, iₒ])]⟩,
  -- line 332: mael,kldc,edij,cbkm->abij
  ⟨1, [g_aaaa [mₒ, aᵥ, eᵥ, lₒ], l2_aaaa [kₒ, lₒ, dᵥ, cᵥ], t2_aaaa [eᵥ, dᵥ, iₒ, jₒ], t2_aaaa [cᵥ, bᵥ, kₒ, mₒ]], [(1, [aᵥ, bᵥ, iₒ, jₒ]), (-1, [bᵥ, aᵥ, iₒ, jₒ])]⟩
  ]

/-- Part 2 of `residQf1_aaaa`. -/
def residQf1_aaaa_2 : Prog := [
  -- line 336: amel,kldc,edij,bckm->abij
  ⟨1, [g_abab [aᵥ, mₒ, eᵥ, lₒ], l2_abab [kₒ, lₒ, dᵥ, cᵥ], t2_aaaa [eᵥ, dᵥ, iₒ, jₒ], t2_abab [bᵥ, cᵥ, kₒ, mₒ]], [(1, [aᵥ, bᵥ, iₒ, jₒ]), (-1, [bᵥ, aᵥ, iₒ, jₒ])]⟩,
  -- line 340: mael,lkdc,edij,bcmk->abij
  ⟨-1, [g_aaaa [mₒ, aᵥ, eᵥ, lₒ], l2_abab [lₒ, kₒ, dᵥ, cᵥ], t2_aaaa [eᵥ, dᵥ, iₒ, jₒ], t2_abab [bᵥ, cᵥ, mₒ, kₒ]], [(1, [aᵥ, bᵥ, iₒ, jₒ]), (-1, [bᵥ, aᵥ, iₒ, jₒ])]⟩,
  -- line 344: mael,kldc,ebjk,dcim->abij
  ⟨1/2, [g_aaaa [mₒ, aᵥ, eᵥ, lₒ], l2_aaaa [kₒ, lₒ, dᵥ, cᵥ], t2_aaaa [eᵥ, bᵥ, jₒ, kₒ], t2_aaaa [dᵥ, cᵥ, iₒ, mₒ]], [(1, [aᵥ, bᵥ, iₒ, jₒ]), (-1, [aᵥ, bᵥ, jₒ, iₒ]), (-1, [bᵥ, aᵥ, iₒ, jₒ]), (1, [bᵥ, aᵥ, jₒ, iₒ])]⟩,
  -- line 348: amel,kldc,ebjk,dcim->abij
  ⟨-1/2, [g_abab [aᵥ, mₒ, eᵥ, lₒ], l2_abab [kₒ, lₒ, dᵥ, cᵥ], t2_aaaa [eᵥ, bᵥ, jₒ, kₒ], t2_abab [dᵥ, cᵥ, iₒ, mₒ]], [(1, [aᵥ, bᵥ, iₒ, jₒ]), (-1, [aᵥ, bᵥ, jₒ, iₒ]), (-1, [bᵥ, aᵥ, iₒ, jₒ]), (1, [bᵥ, aᵥ, jₒ, iₒ])]⟩,
  -- line 352: amel,klcd,ebjk,cdim->abij
  ⟨-1/2, [g_abab [aᵥ, mₒ, eᵥ, lₒ], l2_abab [kₒ, lₒ, cᵥ, dᵥ], t2_aaaa [eᵥ, bᵥ, jₒ, kₒ], t2_abab [cᵥ, dᵥ, iₒ, mₒ]], [(1, [aᵥ, bᵥ, iₒ, jₒ]), (-1, [aᵥ, bᵥ, jₒ, iₒ]), (-1, [bᵥ, aᵥ, iₒ, jₒ]), (1, [bᵥ, aᵥ, jₒ, iₒ])]⟩,
  -- line 356: amle,lkdc,bejk,dcim->abij
  ⟨1/2, [g_abab [aᵥ, mₒ, lₒ, eᵥ], l2_abab [lₒ, kₒ, dᵥ, cᵥ], t2_abab [bᵥ, eᵥ, jₒ, kₒ], t2_abab [dᵥ, cᵥ, iₒ, mₒ]], [(1, [aᵥ, bᵥ, iₒ, jₒ]), (-1, [aᵥ, bᵥ, jₒ, iₒ]), (-1, [bᵥ, aᵥ, iₒ, jₒ]), (1, [bᵥ, aᵥ, jₒ, iₒ])]⟩,
  -- line 360: amle,lkcd,bejk,cdim->abij
  ⟨1/2, [g_abab [aᵥ, mₒ, lₒ, eᵥ], l2_abab [lₒ, kₒ, cᵥ, dᵥ], t2_abab [bᵥ, eᵥ, jₒ, kₒ], t2_abab [cᵥ, dᵥ, iₒ, mₒ]], [(1, [aᵥ, bᵥ, iₒ, jₒ]), (-1, [aᵥ, bᵥ, jₒ, iₒ]), (-1, [bᵥ, aᵥ, iₒ, jₒ]), (1, [bᵥ, aᵥ, jₒ, iₒ])]⟩,
  -- line 364: mael,kldc,ebij,dckm->abij
  ⟨1/2, [g_aaaa [mₒ, aᵥ, eᵥ, lₒ], l2_aaaa [kₒ, lₒ, dᵥ, cᵥ], t2_aaaa [eᵥ, bᵥ, iₒ, jₒ], t2_aaaa [dᵥ, cᵥ, kₒ, mₒ]], [(1, [aᵥ, bᵥ, iₒ, jₒ]), (-1, [bᵥ, aᵥ, iₒ, jₒ])]⟩,
  -- line 368: amel,kldc,ebij,dckm->abij
  ⟨-1/2, [g_abab [aᵥ, mₒ, eᵥ, lₒ], l2_abab [kₒ, lₒ, dᵥ, cᵥ], t2_aaaa [eᵥ, bᵥ, iₒ, jₒ], t2_abab [dᵥ, cᵥ, kₒ, mₒ]], [(1, [aᵥ, bᵥ, iₒ, jₒ]), (-1, [bᵥ, aᵥ, iₒ, jₒ])]⟩,
  -- line 372: amel,klcd,ebij,cdkm->abij
  ⟨-1/2, [g_abab [aᵥ, mₒ, eᵥ, lₒ], l2_abab [kₒ, lₒ, cᵥ, dᵥ], t2_aaaa [eᵥ, bᵥ, iₒ, jₒ], t2_abab [cᵥ, dᵥ, kₒ, mₒ]], [(1, [aᵥ, bᵥ, iₒ, jₒ]), (-1, [bᵥ, aᵥ, iₒ, jₒ])]⟩,
  -- line 376: mael,lkdc,ebij,dcmk->abij
  ⟨1/2, [g_aaaa [mₒ, aᵥ, eᵥ, lₒ], l2_abab [lₒ, kₒ, dᵥ, cᵥ], t2_aaaa [eᵥ, bᵥ, iₒ, jₒ], t2_abab [dᵥ, cᵥ, mₒ, kₒ]], [(1, [aᵥ, bᵥ, iₒ, jₒ]), (-1, [bᵥ, aᵥ, iₒ, jₒ])]⟩,
  -- line 380: mael,lkcd,ebij,cdmk->abij
  ⟨1/2, [g_aaaa [mₒ, aᵥ, eᵥ, lₒ], l2_abab [lₒ, kₒ, cᵥ, dᵥ], t2_aaaa [eᵥ, bᵥ, iₒ, jₒ], t2_abab [cᵥ, dᵥ, mₒ, kₒ]], [(1, [aᵥ, bᵥ, iₒ, jₒ]), (-1, [bᵥ, aᵥ, iₒ, jₒ])]⟩,
  -- line 384: amel,kldc,ebij,dckm->abij
  ⟨-1/2, [g_abab [aᵥ, mₒ, eᵥ, lₒ], l2_bbbb [kₒ, lₒ, dᵥ, cᵥ], t2_aaaa [eᵥ, bᵥ, iₒ, jₒ], t2_bbbb [dᵥ, cᵥ, kₒ, mₒ]], [(1, [aᵥ, bᵥ, iₒ, jₒ]), (-1, [bᵥ, aᵥ, iₒ, jₒ])]⟩,
  -- line 388: maej,kldc,edkl,cbim->abij
  ⟨1/2, [g_aaaa [mₒ, aᵥ, eᵥ, jₒ], l2_aaaa [kₒ, lₒ, dᵥ, cᵥ], t2_aaaa [eᵥ, dᵥ, kₒ, lₒ], t2_aaaa [cᵥ, bᵥ, iₒ, mₒ]], [(1, [aᵥ, bᵥ, iₒ, jₒ]), (-1, [aᵥ, bᵥ, jₒ, iₒ]), (-1, [bᵥ, aᵥ, iₒ, jₒ]), (1, [bᵥ, aᵥ, jₒ, iₒ])]⟩,
  -- line 392: amje,kldc,dekl,bcim->abij
  ⟨1/2, [g_abab [aᵥ, mₒ, jₒ, eᵥ], l2_abab [kₒ, lₒ, dᵥ, cᵥ], t2_abab [dᵥ, eᵥ, kₒ, lₒ], t2_abab [bᵥ, cᵥ, iₒ, mₒ]], [(1, [aᵥ, bᵥ, iₒ, jₒ]), (-1, [aᵥ, bᵥ, jₒ, iₒ]), (-1, [bᵥ, aᵥ, iₒ, jₒ]), (1, [bᵥ, aᵥ, jₒ, iₒ])]⟩,
  -- line 396: maej,klcd,edkl,cbim->abij
  ⟨-1/2, [g_aaaa [mₒ, aᵥ, eᵥ, jₒ], l2_abab [kₒ, lₒ, cᵥ, dᵥ], t2_abab [eᵥ, dᵥ, kₒ, lₒ], t2_aaaa [cᵥ, bᵥ, iₒ, mₒ]], [(1, [aᵥ, bᵥ, iₒ, jₒ]), (-1, [aᵥ, bᵥ, jₒ, iₒ]), (-1, [bᵥ, aᵥ, iₒ, jₒ]), (1, [bᵥ, aᵥ, jₒ, iₒ])]⟩,
  -- line 400: amje,lkdc,delk,bcim->abij
  ⟨1/2, [g_abab [aᵥ, mₒ, jₒ, eᵥ], l2_abab [lₒ, kₒ, dᵥ, cᵥ], t2_abab [dᵥ, eᵥ, lₒ, kₒ], t2_abab [bᵥ, cᵥ, iₒ, mₒ]], [(1, [aᵥ, bᵥ, iₒ, jₒ]), (-1, [aᵥ, bᵥ, jₒ, iₒ]), (-1, [bᵥ, aᵥ, iₒ, jₒ]), (1, [bᵥ, aᵥ, jₒ, iₒ])]⟩,
  -- line 404: maej,lkcd,edlk,cbim->abij
  ⟨-1/2, [g_aaaa [mₒ, aᵥ, eᵥ, jₒ], l2_abab [lₒ, kₒ, cᵥ, dᵥ], t2_abab [eᵥ, dᵥ, lₒ, kₒ], t2_aaaa [cᵥ, bᵥ, iₒ, mₒ]], [(1, [aᵥ, bᵥ, iₒ, jₒ]), (-1, [aᵥ, bᵥ, jₒ, iₒ]), (-1, [bᵥ, aᵥ, iₒ, jₒ]), (1, [bᵥ, aᵥ, jₒ, iₒ])]⟩,
  -- line 408: amje,kldc,edkl,bcim->abij
  ⟨-1/2, [g_abab [aᵥ, mₒ, jₒ, eᵥ], l2_bbbb [kₒ, lₒ, dᵥ, cᵥ], t2_bbbb [eᵥ, dᵥ, kₒ, lₒ], t2_abab [bᵥ, cᵥ, iₒ, mₒ]], [(1, [aᵥ, bᵥ, iₒ, jₒ]), (-1, [aᵥ, bᵥ, jₒ, iₒ]), (-1, [bᵥ, aᵥ, iₒ, jₒ]), (1, [bᵥ, aᵥ, jₒ, iₒ])]⟩,
  -- line 412: maej,kldc,edil,cbkm->abij
  ⟨-1, [g_aaaa [mₒ, aᵥ, eᵥ, jₒ], l2_aaaa [kₒ, lₒ, dᵥ, cᵥ], t2_aaaa [eᵥ, dᵥ, iₒ, lₒ], t2_aaaa [cᵥ, bᵥ, kₒ, mₒ]], [(1, [aᵥ, bᵥ, iₒ, jₒ]), (-1, [aᵥ, bᵥ, jₒ, iₒ]), (-1, [bᵥ, aᵥ, iₒ, jₒ]), (1, [bᵥ, aᵥ, jₒ, iₒ])]⟩,
  -- line 416: amje,kldc,deil,bckm->abij
  ⟨-1, [g_abab [aᵥ, mₒ, jₒ, eᵥ], l2_abab [kₒ, lₒ, dᵥ, cᵥ], t2_abab [dᵥ, eᵥ, iₒ, lₒ], t2_abab [bᵥ, cᵥ, kₒ, mₒ]], [(1, [aᵥ, bᵥ, iₒ, jₒ]), (-1, [aᵥ, bᵥ, jₒ, iₒ]), (-1, [bᵥ, aᵥ, iₒ, jₒ]), (1, [bᵥ, aᵥ, jₒ, iₒ])]⟩,
  -- line 420: maej,klcd,edil,cbkm->abij
  ⟨1, [g_aaaa [mₒ, aᵥ, eᵥ, jₒ], l2_abab [kₒ, lₒ, cᵥ, dᵥ], t2_abab [eᵥ, dᵥ, iₒ, lₒ], t2_aaaa [cᵥ, bᵥ, kₒ, mₒ]], [(1, [aᵥ, bᵥ, iₒ, jₒ]), (-1, [aᵥ, bᵥ, jₒ, iₒ]), (-1, [bᵥ, aᵥ, iₒ, jₒ]), (1, [bᵥ, aᵥ, jₒ, iₒ])]⟩,
  -- line 424: maej,lkdc,edil,bcmk->abij
  ⟨1, [g_aaaa [mₒ, aᵥ, eᵥ, jₒ], l2_abab [lₒ, kₒ, dᵥ, cᵥ], t2_aaaa [eᵥ, dᵥ, iₒ, lₒ], t2_abab [bᵥ, cᵥ, mₒ, kₒ]], [(1, [aᵥ, bᵥ, iₒ, jₒ]), (-1, [aᵥ, bᵥ, jₒ, iₒ]), (-1, [bᵥ, aᵥ, iₒ, jₒ]), (1, [bᵥ, aᵥ, jₒ, iₒ])]⟩,
  -- line 428: maej,kldc,edil,bcmk->abij
  ⟨-1, [g_aaaa [mₒ, aᵥ, eᵥ, jₒ], l2_bbbb [kₒ, lₒ, dᵥ, cᵥ], t2_abab [eᵥ, dᵥ, iₒ, lₒ], t2_abab [bᵥ, cᵥ, mₒ, kₒ]], [(1, [aᵥ, bᵥ, iₒ, jₒ]), (-1, [aᵥ, bᵥ, jₒ, iₒ]), (-1, [bᵥ, aᵥ, iₒ, jₒ]), (1, [bᵥ, aᵥ, jₒ, iₒ])]⟩,
  -- line 432: maej,kldc,ebkl,dcim->abij
  ⟨1/4, [g_aaaa [mₒ, aᵥ, eᵥ, jₒ], l2_aaaa [kₒ, lₒ, dᵥ, cᵥ], t2_aaaa [eᵥ, bᵥ, kₒ, lₒ], t2_aaaa [dᵥ, cᵥ, iₒ, mₒ]], [(1, [aᵥ, bᵥ, iₒ, jₒ]), (-1, [aᵥ, bᵥ, jₒ, iₒ]), (-1, [bᵥ, aᵥ, iₒ, jₒ]), (1, [bᵥ, aᵥ, jₒ, iₒ])]⟩,
  -- line 436: amje,kldc,bekl,dcim->abij
  ⟨-1/4, [g_abab [aᵥ, mₒ, jₒ, eᵥ], l2_abab [kₒ, lₒ, dᵥ, cᵥ], t2_abab [bᵥ, eᵥ, kₒ, lₒ], t2_abab [dᵥ, cᵥ, iₒ, mₒ]], [(1, [aᵥ, bᵥ, iₒ, jₒ]), (-1, [aᵥ, bᵥ, jₒ, iₒ]), (-1, [bᵥ, aᵥ, iₒ, jₒ]), (1, [bᵥ, aᵥ, jₒ, iₒ])]⟩,
  -- line 440: amje,klcd,bekl,cdim->abij
  ⟨-1/4, [g_abab [aᵥ, mₒ, jₒ, eᵥ], l2_abab [kₒ, lₒ, cᵥ, dᵥ], t2_abab [bᵥ, eᵥ, kₒ, lₒ], t2_abab [cᵥ, dᵥ, iₒ, mₒ]], [(1, [aᵥ, bᵥ, iₒ, jₒ]), (-1, [aᵥ, bᵥ, jₒ, iₒ]), (-1, [bᵥ, aᵥ, iₒ, jₒ]), (1, [bᵥ, aᵥ, jₒ, iₒ])]⟩,
  -- line 444: amje,lkdc,belk,dcim->abij
  ⟨-1/4, [g_abab [aᵥ, mₒ, jₒ, eᵥ], l2_abab [lₒ, kₒ, dᵥ, cᵥ], t2_abab [bᵥ, eᵥ, lₒ, kₒ], t2_abab [dᵥ, cᵥ, iₒ, mₒ]], [(1, [aᵥ, bᵥ, iₒ, jₒ]), (-1, [aᵥ, bᵥ, jₒ, iₒ]), (-1, [bᵥ, aᵥ, iₒ, jₒ]), (1, [bᵥ, aᵥ, jₒ, iₒ])]⟩,
  -- line 448: amje,lkcd,belk,cdim->abij
  ⟨-1/4, [g_abab [aᵥ, mₒ, jₒ, eᵥ], l2_abab [lₒ, kₒ, cᵥ, dᵥ], t2_abab [bᵥ, eᵥ, lₒ, kₒ], t2_abab [cᵥ, dᵥ, iₒ, mₒ]], [(1, [aᵥ, bᵥ, iₒ, jₒ]), (-1, [aᵥ, bᵥ, jₒ, iₒ]), (-1, [bᵥ, aᵥ, iₒ, jₒ]), (1, [bᵥ, aᵥ, jₒ, iₒ])]⟩,
  -- line 452: maej,kldc,ebil,dckm->abij
  ⟨-1/2, [g_aaaa [mₒ, aᵥ, eᵥ, jₒ], l2_aaaa [kₒ, lₒ, dᵥ, cᵥ], t2_aaaa [eᵥ, bᵥ, iₒ, lₒ], t2_aaaa [dᵥ, cᵥ, kₒ, mₒ]], [(1, [aᵥ, bᵥ, iₒ, jₒ]), (-1, [aᵥ, bᵥ, jₒ, iₒ]), (-1, [bᵥ, aᵥ, iₒ, jₒ]), (1, [bᵥ, aᵥ, jₒ, iₒ])]⟩,
  -- line 456: amje,kldc,beil,dckm->abij
  ⟨1/2, [g_abab [aᵥ, mₒ, jₒ, eᵥ], l2_abab [kₒ, lₒ, dᵥ, cᵥ], t2_abab [bᵥ, eᵥ, iₒ, lₒ], t2_abab [dᵥ, cᵥ, kₒ, mₒ]], [(1, [aᵥ, bᵥ, iₒ, jₒ]), (-1, [aᵥ, bᵥ, jₒ, iₒ]), (-1, [bᵥ, aᵥ, iₒ, jₒ]), (1, [bᵥ, aᵥ, jₒ, iₒ])]⟩,
  -- line 460: amje,klcd,beil,cdkm->abij
  ⟨1/2, [g_abab [aᵥ, mₒ, jₒ, eᵥ], l2_abab [kₒ, lₒ, cᵥ, dᵥ], t2_abab [bᵥ, eᵥ, iₒ, lₒ], t2_abab [cᵥ, dᵥ, kₒ, mₒ]], [(1, [aᵥ, bᵥ, iₒ, jₒ]), (-1, [aᵥ, bᵥ, jₒ, iₒ]), (-1, [bᵥ, aᵥ, iₒ, jₒ]), (1, [bᵥ, aᵥ, jₒ, iₒ])]⟩,
  -- line 464: maej,lkdc,ebil,dcmk->abij
  ⟨-1/2, [g_aaaa [mₒ, aᵥ, eᵥ, jₒ], l2_abab [lₒ, kₒ, dᵥ, cᵥ], t2_aaaa [eᵥ, bᵥ, iₒ, lₒ], t2_abab [dᵥ, cᵥ, mₒ, kₒ]], [(1, [aᵥ, bᵥ, iₒ, jₒ]), (-1, [aᵥ, bᵥ, jₒ, iₒ]), (-1, [bᵥ, aᵥ, iₒ, jₒ]), (1, [bᵥ, aᵥ, jₒ, iₒ])]⟩,
  -- line 468: maej,lkcd,ebil,cdmk->abij
  ⟨-1/2, [g_aaaa [mₒ, aᵥ, eᵥ, jₒ], l2_abab [lₒ, kₒ, cᵥ, dᵥ], t2_aaaa [eᵥ, bᵥ, iₒ, lₒ], t2_abab [cᵥ, dᵥ, mₒ, kₒ]], [(1, [aᵥ, bᵥ, iₒ, jₒ]), (-1, [aᵥ, bᵥ, jₒ, iₒ]), (-1, [bᵥ, aᵥ, iₒ, jₒ]), (1, [bᵥ, aᵥ, jₒ, iₒ])]⟩,
  -- line 472: amje,kldc,beil,dckm->abij
  ⟨1/2, [g_abab [aᵥ, mₒ, jₒ, eᵥ], l2_bbbb [kₒ, lₒ, dᵥ, cᵥ], t2_abab [bᵥ, eᵥ, iₒ, lₒ], t2_bbbb [dᵥ, cᵥ, kₒ, mₒ]], [(1, [aᵥ, bᵥ, iₒ, jₒ]), (-1, [aᵥ, bᵥ, jₒ, iₒ]), (-1, [bᵥ, aᵥ, iₒ, jₒ]), (1, [bᵥ, aᵥ, jₒ, iₒ])]⟩,
  -- line 476: dcef,kldc,eakl,fbij->abij
  ⟨-1/4, [g_aaaa [dᵥ, cᵥ, eᵥ, fᵥ], l2_aaaa [kₒ, lₒ, dᵥ, cᵥ], t2_aaaa [eᵥ, aᵥ, kₒ, lₒ], t2_aaaa [fᵥ, bᵥ, iₒ, jₒ]], [(1, [aᵥ, bᵥ, iₒ, jₒ])]⟩,
  -- line 479: dcfe,kldc,aekl,fbij->abij
  ⟨-1/4, [g_abab [dᵥ, cᵥ, fᵥ, eᵥ], l2_abab [kₒ, lₒ, dᵥ, cᵥ], t2_abab [aᵥ, eᵥ, kₒ, lₒ], t2_aaaa [fᵥ, bᵥ, iₒ, jₒ]], [(1, [aᵥ, bᵥ, iₒ, jₒ])]⟩,
  -- line 482: cdfe,klcd,aekl,fbij->abij
  ⟨-1/4, [g_abab [cᵥ, dᵥ, fᵥ, eᵥ], l2_abab [kₒ, lₒ, cᵥ, dᵥ], t2_abab [aᵥ, eᵥ, kₒ, lₒ], t2_aaaa [fᵥ, bᵥ, iₒ, jₒ]], [(1, [aᵥ, bᵥ, iₒ, jₒ])]⟩,
  -- line 485: dcfe,lkdc,aelk,fbij->abij
  ⟨-1/4, [g_abab [dᵥ, cᵥ, fᵥ, eᵥ], l2_abab [lₒ, kₒ, dᵥ, cᵥ], t2_abab [aᵥ, eᵥ, lₒ, kₒ], t2_aaaa [fᵥ, bᵥ, iₒ, jₒ]], [(1, [aᵥ, bᵥ, iₒ, jₒ])]⟩,
  -- line 488: cdfe,lkcd,aelk,fbij->abij
  ⟨-1/4, [g_abab [cᵥ, dᵥ, fᵥ, eᵥ], l2_abab [lₒ, kₒ, cᵥ, dᵥ], t2_abab [aᵥ, eᵥ, lₒ, kₒ], t2_aaaa [fᵥ, bᵥ, iₒ, jₒ]], [(1, [aᵥ, bᵥ, iₒ, jₒ])]⟩
  ]

/-- Part 3 of `residQf1_aaaa`. -/
def residQf1_aaaa_3 : Prog := [
  -- line 491: dcef,kldc,eajl,fbik->abij
  ⟨1/2, [g_aaaa [dᵥ, cᵥ, eᵥ, fᵥ], l2_aaaa [kₒ, lₒ, dᵥ, cᵥ], t2_aaaa [eᵥ, aᵥ, jₒ, lₒ], t2_aaaa [fᵥ, bᵥ, iₒ, kₒ]], [(1, [aᵥ, bᵥ, iₒ, jₒ]), (-1, [aᵥ, bᵥ, jₒ, iₒ])]⟩,
  -- line 495: dcfe,kldc,aejl,fbik->abij
  ⟨1/2, [g_abab [dᵥ, cᵥ, fᵥ, eᵥ], l2_abab [kₒ, lₒ, dᵥ, cᵥ], t2_abab [aᵥ, eᵥ, jₒ, lₒ], t2_aaaa [fᵥ, bᵥ, iₒ, kₒ]], [(1, [aᵥ, bᵥ, iₒ, jₒ]), (-1, [aᵥ, bᵥ, jₒ, iₒ])]⟩,
  -- line 499: cdfe,klcd,aejl,fbik->abij
  ⟨1/2, [g_abab [cᵥ, dᵥ, fᵥ, eᵥ], l2_abab [kₒ, lₒ, cᵥ, dᵥ], t2_abab [aᵥ, eᵥ, jₒ, lₒ], t2_aaaa [fᵥ, bᵥ, iₒ, kₒ]], [(1, [aᵥ, bᵥ, iₒ, jₒ]), (-1, [aᵥ, bᵥ, jₒ, iₒ])]⟩,
  -- line 503: dcef,lkdc,eajl,bfik->abij
  ⟨1/2, [g_abab [dᵥ, cᵥ, eᵥ, fᵥ], l2_abab [lₒ, kₒ, dᵥ, cᵥ], t2_aaaa [eᵥ, aᵥ, jₒ, lₒ], t2_abab [bᵥ, fᵥ, iₒ, kₒ]], [(1, [aᵥ, bᵥ, iₒ, jₒ]), (-1, [aᵥ, bᵥ, jₒ, iₒ])]⟩,
  -- line 507: cdef,lkcd,eajl,bfik->abij
  ⟨1/2, [g_abab [cᵥ, dᵥ, eᵥ, fᵥ], l2_abab [lₒ, kₒ, cᵥ, dᵥ], t2_aaaa [eᵥ, aᵥ, jₒ, lₒ], t2_abab [bᵥ, fᵥ, iₒ, kₒ]], [(1, [aᵥ, bᵥ, iₒ, jₒ]), (-1, [aᵥ, bᵥ, jₒ, iₒ])]⟩,
  -- line 511: dcef,kldc,aejl,bfik->abij
  ⟨1/2, [g_bbbb [dᵥ, cᵥ, eᵥ, fᵥ], l2_bbbb [kₒ, lₒ, dᵥ, cᵥ], t2_abab [aᵥ, eᵥ, jₒ, lₒ], t2_abab [bᵥ, fᵥ, iₒ, kₒ]], [(1, [aᵥ, bᵥ, iₒ, jₒ]), (-1, [aᵥ, bᵥ, jₒ, iₒ])]⟩,
  -- line 515: dcef,kldc,eaij,fbkl->abij
  ⟨-1/4, [g_aaaa [dᵥ, cᵥ, eᵥ, fᵥ], l2_aaaa [kₒ, lₒ, dᵥ, cᵥ], t2_aaaa [eᵥ, aᵥ, iₒ, jₒ], t2_aaaa [fᵥ, bᵥ, kₒ, lₒ]], [(1, [aᵥ, bᵥ, iₒ, jₒ])]⟩,
  -- line 518: dcef,kldc,eaij,bfkl->abij
  ⟨1/4, [g_abab [dᵥ, cᵥ, eᵥ, fᵥ], l2_abab [kₒ, lₒ, dᵥ, cᵥ], t2_aaaa [eᵥ, aᵥ, iₒ, jₒ], t2_abab [bᵥ, fᵥ, kₒ, lₒ]], [(1, [aᵥ, bᵥ, iₒ, jₒ])]⟩,
  -- line 521: cdef,klcd,eaij,bfkl->abij
  ⟨1/4, [g_abab [cᵥ, dᵥ, eᵥ, fᵥ], l2_abab [kₒ, lₒ, cᵥ, dᵥ], t2_aaaa [eᵥ, aᵥ, iₒ, jₒ], t2_abab [bᵥ, fᵥ, kₒ, lₒ]], [(1, [aᵥ, bᵥ, iₒ, jₒ])]⟩,
  -- line 524: dcef,lkdc,eaij,bflk->abij
  ⟨1/4, [g_abab [dᵥ, cᵥ, eᵥ, fᵥ], l2_abab [lₒ, kₒ, dᵥ, cᵥ], t2_aaaa [eᵥ, aᵥ, iₒ, jₒ], t2_abab [bᵥ, fᵥ, lₒ, kₒ]], [(1, [aᵥ, bᵥ, iₒ, jₒ])]⟩,
  -- line 527: cdef,lkcd,eaij,bflk->abij
  ⟨1/4, [g_abab [cᵥ, dᵥ, eᵥ, fᵥ], l2_abab [lₒ, kₒ, cᵥ, dᵥ], t2_aaaa [eᵥ, aᵥ, iₒ, jₒ], t2_abab [bᵥ, fᵥ, lₒ, kₒ]], [(1, [aᵥ, bᵥ, iₒ, jₒ])]⟩,
  -- line 530: daef,kldc,eckl,fbij->abij
  ⟨1/2, [g_aaaa [dᵥ, aᵥ, eᵥ, fᵥ], l2_aaaa [kₒ, lₒ, dᵥ, cᵥ], t2_aaaa [eᵥ, cᵥ, kₒ, lₒ], t2_aaaa [fᵥ, bᵥ, iₒ, jₒ]], [(1, [aᵥ, bᵥ, iₒ, jₒ]), (-1, [bᵥ, aᵥ, iₒ, jₒ])]⟩,
  -- line 534: daef,kldc,eckl,fbij->abij
  ⟨1/2, [g_aaaa [dᵥ, aᵥ, eᵥ, fᵥ], l2_abab [kₒ, lₒ, dᵥ, cᵥ], t2_abab [eᵥ, cᵥ, kₒ, lₒ], t2_aaaa [fᵥ, bᵥ, iₒ, jₒ]], [(1, [aᵥ, bᵥ, iₒ, jₒ]), (-1, [bᵥ, aᵥ, iₒ, jₒ])]⟩,
  -- line 538: adfe,klcd,cekl,fbij->abij
  ⟨1/2, [g_abab [aᵥ, dᵥ, fᵥ, eᵥ], l2_abab [kₒ, lₒ, cᵥ, dᵥ], t2_abab [cᵥ, eᵥ, kₒ, lₒ], t2_aaaa [fᵥ, bᵥ, iₒ, jₒ]], [(1, [aᵥ, bᵥ, iₒ, jₒ]), (-1, [bᵥ, aᵥ, iₒ, jₒ])]⟩,
  -- line 542: daef,lkdc,eclk,fbij->abij
  ⟨1/2, [g_aaaa [dᵥ, aᵥ, eᵥ, fᵥ], l2_abab [lₒ, kₒ, dᵥ, cᵥ], t2_abab [eᵥ, cᵥ, lₒ, kₒ], t2_aaaa [fᵥ, bᵥ, iₒ, jₒ]], [(1, [aᵥ, bᵥ, iₒ, jₒ]), (-1, [bᵥ, aᵥ, iₒ, jₒ])]⟩,
  -- line 546: adfe,lkcd,celk,fbij->abij
  ⟨1/2, [g_abab [aᵥ, dᵥ, fᵥ, eᵥ], l2_abab [lₒ, kₒ, cᵥ, dᵥ], t2_abab [cᵥ, eᵥ, lₒ, kₒ], t2_aaaa [fᵥ, bᵥ, iₒ, jₒ]], [(1, [aᵥ, bᵥ, iₒ, jₒ]), (-1, [bᵥ, aᵥ, iₒ, jₒ])]⟩,
  -- line 550: adfe,kldc,eckl,fbij->abij
  ⟨1/2, [g_abab [aᵥ, dᵥ, fᵥ, eᵥ], l2_bbbb [kₒ, lₒ, dᵥ, cᵥ], t2_bbbb [eᵥ, cᵥ, kₒ, lₒ], t2_aaaa [fᵥ, bᵥ, iₒ, jₒ]], [(1, [aᵥ, bᵥ, iₒ, jₒ]), (-1, [bᵥ, aᵥ, iₒ, jₒ])]⟩,
  -- line 554: daef,kldc,ecjl,fbik->abij
  ⟨-1, [g_aaaa [dᵥ, aᵥ, eᵥ, fᵥ], l2_aaaa [kₒ, lₒ, dᵥ, cᵥ], t2_aaaa [eᵥ, cᵥ, jₒ, lₒ], t2_aaaa [fᵥ, bᵥ, iₒ, kₒ]], [(1, [aᵥ, bᵥ, iₒ, jₒ]), (-1, [aᵥ, bᵥ, jₒ, iₒ]), (-1, [bᵥ, aᵥ, iₒ, jₒ]), (1, [bᵥ, aᵥ, jₒ, iₒ])]⟩,
  -- line 558: daef,kldc,ecjl,fbik->abij
  ⟨-1, [g_aaaa [dᵥ, aᵥ, eᵥ, fᵥ], l2_abab [kₒ, lₒ, dᵥ, cᵥ], t2_abab [eᵥ, cᵥ, jₒ, lₒ], t2_aaaa [fᵥ, bᵥ, iₒ, kₒ]], [(1, [aᵥ, bᵥ, iₒ, jₒ]), (-1, [aᵥ, bᵥ, jₒ, iₒ]), (-1, [bᵥ, aᵥ, iₒ, jₒ]), (1, [bᵥ, aᵥ, jₒ, iₒ])]⟩,
  -- line 562: adfe,klcd,cejl,fbik->abij
  ⟨-1, [g_abab [aᵥ, dᵥ, fᵥ, eᵥ], l2_abab [kₒ, lₒ, cᵥ, dᵥ], t2_abab [cᵥ, eᵥ, jₒ, lₒ], t2_aaaa [fᵥ, bᵥ, iₒ, kₒ]], [(1, [aᵥ, bᵥ, iₒ, jₒ]), (-1, [aᵥ, bᵥ, jₒ, iₒ]), (-1, [bᵥ, aᵥ, iₒ, jₒ]), (1, [bᵥ, aᵥ, jₒ, iₒ])]⟩,
  -- line 566: adef,lkcd,ecjl,bfik->abij
  ⟨-1, [g_abab [aᵥ, dᵥ, eᵥ, fᵥ], l2_abab [lₒ, kₒ, cᵥ, dᵥ], t2_aaaa [eᵥ, cᵥ, jₒ, lₒ], t2_abab [bᵥ, fᵥ, iₒ, kₒ]], [(1, [aᵥ, bᵥ, iₒ, jₒ]), (-1, [aᵥ, bᵥ, jₒ, iₒ]), (-1, [bᵥ, aᵥ, iₒ, jₒ]), (1, [bᵥ, aᵥ, jₒ, iₒ])]⟩,
  -- line 570: adef,kldc,ecjl,bfik->abij
  ⟨-1, [g_abab [aᵥ, dᵥ, eᵥ, fᵥ], l2_bbbb [kₒ, lₒ, dᵥ, cᵥ], t2_abab [eᵥ, cᵥ, jₒ, lₒ], t2_abab [bᵥ, fᵥ, iₒ, kₒ]], [(1, [aᵥ, bᵥ, iₒ, jₒ]), (-1, [aᵥ, bᵥ, jₒ, iₒ]), (-1, [bᵥ, aᵥ, iₒ, jₒ]), (1, [bᵥ, aᵥ, jₒ, iₒ])]⟩,
  -- line 574: daef,kldc,ecij,fbkl->abij
  ⟨1/2, [g_aaaa [dᵥ, aᵥ, eᵥ, fᵥ], l2_aaaa [kₒ, lₒ, dᵥ, cᵥ], t2_aaaa [eᵥ, cᵥ, iₒ, jₒ], t2_aaaa [fᵥ, bᵥ, kₒ, lₒ]], [(1, [aᵥ, bᵥ, iₒ, jₒ]), (-1, [bᵥ, aᵥ, iₒ, jₒ])]⟩,
  -- line 578: adef,klcd,ecij,bfkl->abij
  ⟨-1/2, [g_abab [aᵥ, dᵥ, eᵥ, fᵥ], l2_abab [kₒ, lₒ, cᵥ, dᵥ], t2_aaaa [eᵥ, cᵥ, iₒ, jₒ], t2_abab [bᵥ, fᵥ, kₒ, lₒ]], [(1, [aᵥ, bᵥ, iₒ, jₒ]), (-1, [bᵥ, aᵥ, iₒ, jₒ])]⟩,
  -- line 582: adef,lkcd,ecij,bflk->abij
  ⟨-1/2, [g_abab [aᵥ, dᵥ, eᵥ, fᵥ], l2_abab [lₒ, kₒ, cᵥ, dᵥ], t2_aaaa [eᵥ, cᵥ, iₒ, jₒ], t2_abab [bᵥ, fᵥ, lₒ, kₒ]], [(1, [aᵥ, bᵥ, iₒ, jₒ]), (-1, [bᵥ, aᵥ, iₒ, jₒ])]⟩,
  -- line 586: abef,kldc,edkl,fcij->abij
  ⟨-1/2, [g_aaaa [aᵥ, bᵥ, eᵥ, fᵥ], l2_aaaa [kₒ, lₒ, dᵥ, cᵥ], t2_aaaa [eᵥ, dᵥ, kₒ, lₒ], t2_aaaa [fᵥ, cᵥ, iₒ, jₒ]], [(1, [aᵥ, bᵥ, iₒ, jₒ])]⟩,
  -- line 589: abef,klcd,edkl,fcij->abij
  ⟨1/2, [g_aaaa [aᵥ, bᵥ, eᵥ, fᵥ], l2_abab [kₒ, lₒ, cᵥ, dᵥ], t2_abab [eᵥ, dᵥ, kₒ, lₒ], t2_aaaa [fᵥ, cᵥ, iₒ, jₒ]], [(1, [aᵥ, bᵥ, iₒ, jₒ])]⟩,
  -- line 592: abef,lkcd,edlk,fcij->abij
  ⟨1/2, [g_aaaa [aᵥ, bᵥ, eᵥ, fᵥ], l2_abab [lₒ, kₒ, cᵥ, dᵥ], t2_abab [eᵥ, dᵥ, lₒ, kₒ], t2_aaaa [fᵥ, cᵥ, iₒ, jₒ]], [(1, [aᵥ, bᵥ, iₒ, jₒ])]⟩,
  -- line 595: abef,kldc,edjl,fcik->abij
  ⟨1/2, [g_aaaa [aᵥ, bᵥ, eᵥ, fᵥ], l2_aaaa [kₒ, lₒ, dᵥ, cᵥ], t2_aaaa [eᵥ, dᵥ, jₒ, lₒ], t2_aaaa [fᵥ, cᵥ, iₒ, kₒ]], [(1, [aᵥ, bᵥ, iₒ, jₒ]), (-1, [aᵥ, bᵥ, jₒ, iₒ])]⟩,
  -- line 599: abef,klcd,edjl,fcik->abij
  ⟨-1/2, [g_aaaa [aᵥ, bᵥ, eᵥ, fᵥ], l2_abab [kₒ, lₒ, cᵥ, dᵥ], t2_abab [eᵥ, dᵥ, jₒ, lₒ], t2_aaaa [fᵥ, cᵥ, iₒ, kₒ]], [(1, [aᵥ, bᵥ, iₒ, jₒ]), (-1, [aᵥ, bᵥ, jₒ, iₒ])]⟩,
  -- line 603: abef,lkdc,edjl,fcik->abij
  ⟨-1/2, [g_aaaa [aᵥ, bᵥ, eᵥ, fᵥ], l2_abab [lₒ, kₒ, dᵥ, cᵥ], t2_aaaa [eᵥ, dᵥ, jₒ, lₒ], t2_abab [fᵥ, cᵥ, iₒ, kₒ]], [(1, [aᵥ, bᵥ, iₒ, jₒ]), (-1, [aᵥ, bᵥ, jₒ, iₒ])]⟩,
  -- line 607: abef,kldc,edjl,fcik->abij
  ⟨1/2, [g_aaaa [aᵥ, bᵥ, eᵥ, fᵥ], l2_bbbb [kₒ, lₒ, dᵥ, cᵥ], t2_abab [eᵥ, dᵥ, jₒ, lₒ], t2_abab [fᵥ, cᵥ, iₒ, kₒ]], [(1, [aᵥ, bᵥ, iₒ, jₒ]), (-1, [aᵥ, bᵥ, jₒ, iₒ])]⟩
  ]

/-- `UT2/modify_T2resid_T4Qf1.py` 6-611, `residQf1_aaaa`. -/
def residQf1_aaaa : Prog := residQf1_aaaa_0 ++ (residQf1_aaaa_1 ++ (residQf1_aaaa_2 ++ (residQf1_aaaa_3)))

end Verif.Gen
