import Verif.Ein.Names
import Verif.Gen.Antisym

/-! Written by `/verif/tools/gen.py`. Programs read from `/repo/UT2`. -/

set_option maxRecDepth 100000

namespace Verif.Gen

open Verif.Ein Verif.Ein.N


/-- Part 0 of `test_t2_aaaa`. -/
def test_t2_aaaa_0 : Prog := [
  -- line 12: nmkl,kldc,dcjm,abin->abij
  ⟨-1/4, [g_aaaa [nₒ, mₒ, kₒ, lₒ], l2_aaaa [kₒ, lₒ, dᵥ, cᵥ], t2_aaaa [dᵥ, cᵥ, jₒ, mₒ], t2_aaaa [aᵥ, bᵥ, iₒ, nₒ]], [(1, [aᵥ, bᵥ, iₒ, jₒ]), (-1, [aᵥ, bᵥ, jₒ, iₒ])]⟩,
  -- line 16: nmkl,kldc,dcjm,abin->abij
  ⟨-1/4, [g_abab [nₒ, mₒ, kₒ, lₒ], l2_abab [kₒ, lₒ, dᵥ, cᵥ], t2_abab [dᵥ, cᵥ, jₒ, mₒ], t2_aaaa [aᵥ, bᵥ, iₒ, nₒ]], [(1, [aᵥ, bᵥ, iₒ, jₒ]), (-1, [aᵥ, bᵥ, jₒ, iₒ])]⟩,
  -- line 20: nmkl,klcd,cdjm,abin->abij
  ⟨-1/4, [g_abab [nₒ, mₒ, kₒ, lₒ], l2_abab [kₒ, lₒ, cᵥ, dᵥ], t2_abab [cᵥ, dᵥ, jₒ, mₒ], t2_aaaa [aᵥ, bᵥ, iₒ, nₒ]], [(1, [aᵥ, bᵥ, iₒ, jₒ]), (-1, [aᵥ, bᵥ, jₒ, iₒ])]⟩,
  -- line 24: nmlk,lkdc,dcjm,abin->abij
  ⟨-1/4, [g_abab [nₒ, mₒ, lₒ, kₒ], l2_abab [lₒ, kₒ, dᵥ, cᵥ], t2_abab [dᵥ, cᵥ, jₒ, mₒ], t2_aaaa [aᵥ, bᵥ, iₒ, nₒ]], [(1, [aᵥ, bᵥ, iₒ, jₒ]), (-1, [aᵥ, bᵥ, jₒ, iₒ])]⟩,
  -- line 28: nmlk,lkcd,cdjm,abin->abij
  ⟨-1/4, [g_abab [nₒ, mₒ, lₒ, kₒ], l2_abab [lₒ, kₒ, cᵥ, dᵥ], t2_abab [cᵥ, dᵥ, jₒ, mₒ], t2_aaaa [aᵥ, bᵥ, iₒ, nₒ]], [(1, [aᵥ, bᵥ, iₒ, jₒ]), (-1, [aᵥ, bᵥ, jₒ, iₒ])]⟩,
  -- line 32: nmkl,kldc,dajm,cbin->abij
  ⟨1/2, [g_aaaa [nₒ, mₒ, kₒ, lₒ], l2_aaaa [kₒ, lₒ, dᵥ, cᵥ], t2_aaaa [dᵥ, aᵥ, jₒ, mₒ], t2_aaaa [cᵥ, bᵥ, iₒ, nₒ]], [(1, [aᵥ, bᵥ, iₒ, jₒ]), (-1, [aᵥ, bᵥ, jₒ, iₒ])]⟩,
  -- line 36: mnkl,kldc,dajm,bcin->abij
  ⟨1/2, [g_abab [mₒ, nₒ, kₒ, lₒ], l2_abab [kₒ, lₒ, dᵥ, cᵥ], t2_aaaa [dᵥ, aᵥ, jₒ, mₒ], t2_abab [bᵥ, cᵥ, iₒ, nₒ]], [(1, [aᵥ, bᵥ, iₒ, jₒ]), (-1, [aᵥ, bᵥ, jₒ, iₒ])]⟩,
  -- line 40: nmkl,klcd,adjm,cbin->abij
  ⟨1/2, [g_abab [nₒ, mₒ, kₒ, lₒ], l2_abab [kₒ, lₒ, cᵥ, dᵥ], t2_abab [aᵥ, dᵥ, jₒ, mₒ], t2_aaaa [cᵥ, bᵥ, iₒ, nₒ]], [(1, [aᵥ, bᵥ, iₒ, jₒ]), (-1, [aᵥ, bᵥ, jₒ, iₒ])]⟩,
  -- line 44: mnlk,lkdc,dajm,bcin->abij
  ⟨1/2, [g_abab [mₒ, nₒ, lₒ, kₒ], l2_abab [lₒ, kₒ, dᵥ, cᵥ], t2_aaaa [dᵥ, aᵥ, jₒ, mₒ], t2_abab [bᵥ, cᵥ, iₒ, nₒ]], [(1, [aᵥ, bᵥ, iₒ, jₒ]), (-1, [aᵥ, bᵥ, jₒ, iₒ])]⟩,
  -- line 48: nmlk,lkcd,adjm,cbin->abij
  ⟨1/2, [g_abab [nₒ, mₒ, lₒ, kₒ], l2_abab [lₒ, kₒ, cᵥ, dᵥ], t2_abab [aᵥ, dᵥ, jₒ, mₒ], t2_aaaa [cᵥ, bᵥ, iₒ, nₒ]], [(1, [aᵥ, bᵥ, iₒ, jₒ]), (-1, [aᵥ, bᵥ, jₒ, iₒ])]⟩,
  -- line 52: nmkl,kldc,adjm,bcin->abij
  ⟨1/2, [g_bbbb [nₒ, mₒ, kₒ, lₒ], l2_bbbb [kₒ, lₒ, dᵥ, cᵥ], t2_abab [aᵥ, dᵥ, jₒ, mₒ], t2_abab [bᵥ, cᵥ, iₒ, nₒ]], [(1, [aᵥ, bᵥ, iₒ, jₒ]), (-1, [aᵥ, bᵥ, jₒ, iₒ])]⟩,
  -- line 56: nmjl,kldc,dckm,abin->abij
  ⟨1/2, [g_aaaa [nₒ, mₒ, jₒ, lₒ], l2_aaaa [kₒ, lₒ, dᵥ, cᵥ], t2_aaaa [dᵥ, cᵥ, kₒ, mₒ], t2_aaaa [aᵥ, bᵥ, iₒ, nₒ]], [(1, [aᵥ, bᵥ, iₒ, jₒ]), (-1, [aᵥ, bᵥ, jₒ, iₒ])]⟩,
  -- line 60: nmjl,kldc,dckm,abin->abij
  ⟨1/2, [g_abab [nₒ, mₒ, jₒ, lₒ], l2_abab [kₒ, lₒ, dᵥ, cᵥ], t2_abab [dᵥ, cᵥ, kₒ, mₒ], t2_aaaa [aᵥ, bᵥ, iₒ, nₒ]], [(1, [aᵥ, bᵥ, iₒ, jₒ]), (-1, [aᵥ, bᵥ, jₒ, iₒ])]⟩,
  -- line 64: nmjl,klcd,cdkm,abin->abij
  ⟨1/2, [g_abab [nₒ, mₒ, jₒ, lₒ], l2_abab [kₒ, lₒ, cᵥ, dᵥ], t2_abab [cᵥ, dᵥ, kₒ, mₒ], t2_aaaa [aᵥ, bᵥ, iₒ, nₒ]], [(1, [aᵥ, bᵥ, iₒ, jₒ]), (-1, [aᵥ, bᵥ, jₒ, iₒ])]⟩,
  -- line 68: nmjl,lkdc,dcmk,abin->abij
  ⟨1/2, [g_aaaa [nₒ, mₒ, jₒ, lₒ], l2_abab [lₒ, kₒ, dᵥ, cᵥ], t2_abab [dᵥ, cᵥ, mₒ, kₒ], t2_aaaa [aᵥ, bᵥ, iₒ, nₒ]], [(1, [aᵥ, bᵥ, iₒ, jₒ]), (-1, [aᵥ, bᵥ, jₒ, iₒ])]⟩,
  -- line 72: nmjl,lkcd,cdmk,abin->abij
  ⟨1/2, [g_aaaa [nₒ, mₒ, jₒ, lₒ], l2_abab [lₒ, kₒ, cᵥ, dᵥ], t2_abab [cᵥ, dᵥ, mₒ, kₒ], t2_aaaa [aᵥ, bᵥ, iₒ, nₒ]], [(1, [aᵥ, bᵥ, iₒ, jₒ]), (-1, [aᵥ, bᵥ, jₒ, iₒ])]⟩,
  -- line 76: nmjl,kldc,dckm,abin->abij
  ⟨1/2, [g_abab [nₒ, mₒ, jₒ, lₒ], l2_bbbb [kₒ, lₒ, dᵥ, cᵥ], t2_bbbb [dᵥ, cᵥ, kₒ, mₒ], t2_aaaa [aᵥ, bᵥ, iₒ, nₒ]], [(1, [aᵥ, bᵥ, iₒ, jₒ]), (-1, [aᵥ, bᵥ, jₒ, iₒ])]⟩,
  -- line 80: nmjl,kldc,dcim,abkn->abij
  ⟨-1/2, [g_aaaa [nₒ, mₒ, jₒ, lₒ], l2_aaaa [kₒ, lₒ, dᵥ, cᵥ], t2_aaaa [dᵥ, cᵥ, iₒ, mₒ], t2_aaaa [aᵥ, bᵥ, kₒ, nₒ]], [(1, [aᵥ, bᵥ, iₒ, jₒ]), (-1, [aᵥ, bᵥ, jₒ, iₒ])]⟩,
  -- line 84: nmjl,kldc,dcim,abkn->abij
  ⟨-1/2, [g_abab [nₒ, mₒ, jₒ, lₒ], l2_abab [kₒ, lₒ, dᵥ, cᵥ], t2_abab [dᵥ, cᵥ, iₒ, mₒ], t2_aaaa [aᵥ, bᵥ, kₒ, nₒ]], [(1, [aᵥ, bᵥ, iₒ, jₒ]), (-1, [aᵥ, bᵥ, jₒ, iₒ])]⟩,
  -- line 88: nmjl,klcd,cdim,abkn->abij
  ⟨-1/2, [g_abab [nₒ, mₒ, jₒ, lₒ], l2_abab [kₒ, lₒ, cᵥ, dᵥ], t2_abab [cᵥ, dᵥ, iₒ, mₒ], t2_aaaa [aᵥ, bᵥ, kₒ, nₒ]], [(1, [aᵥ, bᵥ, iₒ, jₒ]), (-1, [aᵥ, bᵥ, jₒ, iₒ])]⟩,
  -- line 92: nmjl,kldc,dakm,cbin->abij
  ⟨-1, [g_aaaa [nₒ, mₒ, jₒ, lₒ], l2_aaaa [kₒ, lₒ, dᵥ, cᵥ], t2_aaaa [dᵥ, aᵥ, kₒ, mₒ], t2_aaaa [cᵥ, bᵥ, iₒ, nₒ]], [(1, [aᵥ, bᵥ, iₒ, jₒ]), (-1, [aᵥ, bᵥ, jₒ, iₒ])]⟩,
  -- line 96: mnjl,kldc,dakm,bcin->abij
  ⟨-1, [g_abab [mₒ, nₒ, jₒ, lₒ], l2_abab [kₒ, lₒ, dᵥ, cᵥ], t2_aaaa [dᵥ, aᵥ, kₒ, mₒ], t2_abab [bᵥ, cᵥ, iₒ, nₒ]], [(1, [aᵥ, bᵥ, iₒ, jₒ]), (-1, [aᵥ, bᵥ, jₒ, iₒ])]⟩,
  -- line 100: nmjl,klcd,adkm,cbin->abij
  ⟨-1, [g_abab [nₒ, mₒ, jₒ, lₒ], l2_abab [kₒ, lₒ, cᵥ, dᵥ], t2_abab [aᵥ, dᵥ, kₒ, mₒ], t2_aaaa [cᵥ, bᵥ, iₒ, nₒ]], [(1, [aᵥ, bᵥ, iₒ, jₒ]), (-1, [aᵥ, bᵥ, jₒ, iₒ])]⟩,
  -- line 104: nmjl,lkcd,admk,cbin->abij
  ⟨-1, [g_aaaa [nₒ, mₒ, jₒ, lₒ], l2_abab [lₒ, kₒ, cᵥ, dᵥ], t2_abab [aᵥ, dᵥ, mₒ, kₒ], t2_aaaa [cᵥ, bᵥ, iₒ, nₒ]], [(1, [aᵥ, bᵥ, iₒ, jₒ]), (-1, [aᵥ, bᵥ, jₒ, iₒ])]⟩,
  -- line 108: mnjl,kldc,admk,bcin->abij
  ⟨-1, [g_abab [mₒ, nₒ, jₒ, lₒ], l2_bbbb [kₒ, lₒ, dᵥ, cᵥ], t2_abab [aᵥ, dᵥ, mₒ, kₒ], t2_abab [bᵥ, cᵥ, iₒ, nₒ]], [(1, [aᵥ, bᵥ, iₒ, jₒ]), (-1, [aᵥ, bᵥ, jₒ, iₒ])]⟩,
  -- line 112: nmjl,kldc,daim,cbkn->abij
  ⟨1, [g_aaaa [nₒ, mₒ, jₒ, lₒ], l2_aaaa [kₒ, lₒ, dᵥ, cᵥ], t2_aaaa [dᵥ, aᵥ, iₒ, mₒ], t2_aaaa [cᵥ, bᵥ, kₒ, nₒ]], [(1, [aᵥ, bᵥ, iₒ, jₒ]), (-1, [aᵥ, bᵥ, jₒ, iₒ])]⟩,
  -- line 116: mnjl,kldc,daim,bckn->abij
  ⟨1, [g_abab [mₒ, nₒ, jₒ, lₒ], l2_abab [kₒ, lₒ, dᵥ, cᵥ], t2_aaaa [dᵥ, aᵥ, iₒ, mₒ], t2_abab [bᵥ, cᵥ, kₒ, nₒ]], [(1, [aᵥ, bᵥ, iₒ, jₒ]), (-1, [aᵥ, bᵥ, jₒ, iₒ])]⟩,
  -- line 120: nmjl,klcd,adim,cbkn->abij
  ⟨1, [g_abab [nₒ, mₒ, jₒ, lₒ], l2_abab [kₒ, lₒ, cᵥ, dᵥ], t2_abab [aᵥ, dᵥ, iₒ, mₒ], t2_aaaa [cᵥ, bᵥ, kₒ, nₒ]], [(1, [aᵥ, bᵥ, iₒ, jₒ]), (-1, [aᵥ, bᵥ, jₒ, iₒ])]⟩,
  -- line 124: nmjl,lkdc,daim,bcnk->abij
  ⟨-1, [g_aaaa [nₒ, mₒ, jₒ, lₒ], l2_abab [lₒ, kₒ, dᵥ, cᵥ], t2_aaaa [dᵥ, aᵥ, iₒ, mₒ], t2_abab [bᵥ, cᵥ, nₒ, kₒ]], [(1, [aᵥ, bᵥ, iₒ, jₒ]), (-1, [aᵥ, bᵥ, jₒ, iₒ])]⟩,
  -- line 128: nmjl,kldc,adim,bcnk->abij
  ⟨-1, [g_abab [nₒ, mₒ, jₒ, lₒ], l2_bbbb [kₒ, lₒ, dᵥ, cᵥ], t2_abab [aᵥ, dᵥ, iₒ, mₒ], t2_abab [bᵥ, cᵥ, nₒ, kₒ]], [(1, [aᵥ, bᵥ, iₒ, jₒ]), (-1, [aᵥ, bᵥ, jₒ, iₒ])]⟩,
  -- line 132: nmij,kldc,dclm,abkn->abij
  ⟨-1/2, [g_aaaa [nₒ, mₒ, iₒ, jₒ], l2_aaaa [kₒ, lₒ, dᵥ, cᵥ], t2_aaaa [dᵥ, cᵥ, lₒ, mₒ], t2_aaaa [aᵥ, bᵥ, kₒ, nₒ]], [(1, [aᵥ, bᵥ, iₒ, jₒ])]⟩,
  -- line 135: nmij,kldc,dcml,abkn->abij
  ⟨1/2, [g_aaaa [nₒ, mₒ, iₒ, jₒ], l2_abab [kₒ, lₒ, dᵥ, cᵥ], t2_abab [dᵥ, cᵥ, mₒ, lₒ], t2_aaaa [aᵥ, bᵥ, kₒ, nₒ]], [(1, [aᵥ, bᵥ, iₒ, jₒ])]⟩,
  -- line 138: nmij,klcd,cdml,abkn->abij
  ⟨1/2, [g_aaaa [nₒ, mₒ, iₒ, jₒ], l2_abab [kₒ, lₒ, cᵥ, dᵥ], t2_abab [cᵥ, dᵥ, mₒ, lₒ], t2_aaaa [aᵥ, bᵥ, kₒ, nₒ]], [(1, [aᵥ, bᵥ, iₒ, jₒ])]⟩,
  -- line 141: nmij,kldc,dalm,cbkn->abij
  ⟨1/2, [g_aaaa [nₒ, mₒ, iₒ, jₒ], l2_aaaa [kₒ, lₒ, dᵥ, cᵥ], t2_aaaa [dᵥ, aᵥ, lₒ, mₒ], t2_aaaa [cᵥ, bᵥ, kₒ, nₒ]], [(1, [aᵥ, bᵥ, iₒ, jₒ]), (-1, [bᵥ, aᵥ, iₒ, jₒ])]⟩,
  -- line 145: nmij,klcd,adml,cbkn->abij
  ⟨-1/2, [g_aaaa [nₒ, mₒ, iₒ, jₒ], l2_abab [kₒ, lₒ, cᵥ, dᵥ], t2_abab [aᵥ, dᵥ, mₒ, lₒ], t2_aaaa [cᵥ, bᵥ, kₒ, nₒ]], [(1, [aᵥ, bᵥ, iₒ, jₒ]), (-1, [bᵥ, aᵥ, iₒ, jₒ])]⟩,
  -- line 149: nmij,lkdc,dalm,bcnk->abij
  ⟨-1/2, [g_aaaa [nₒ, mₒ, iₒ, jₒ], l2_abab [lₒ, kₒ, dᵥ, cᵥ], t2_aaaa [dᵥ, aᵥ, lₒ, mₒ], t2_abab [bᵥ, cᵥ, nₒ, kₒ]], [(1, [aᵥ, bᵥ, iₒ, jₒ]), (-1, [bᵥ, aᵥ, iₒ, jₒ])]⟩,
  -- line 153: nmij,kldc,adml,bcnk->abij
  ⟨1/2, [g_aaaa [nₒ, mₒ, iₒ, jₒ], l2_bbbb [kₒ, lₒ, dᵥ, cᵥ], t2_abab [aᵥ, dᵥ, mₒ, lₒ], t2_abab [bᵥ, cᵥ, nₒ, kₒ]], [(1, [aᵥ, bᵥ, iₒ, jₒ]), (-1, [bᵥ, aᵥ, iₒ, jₒ])]⟩,
  -- line 157: mdel,kldc,ecjk,abim->abij
  ⟨1, [g_aaaa [mₒ, dᵥ, eᵥ, lₒ], l2_aaaa [kₒ, lₒ, dᵥ, cᵥ], t2_aaaa [eᵥ, cᵥ, jₒ, kₒ], t2_aaaa [aᵥ, bᵥ, iₒ, mₒ]], [(1, [aᵥ, bᵥ, iₒ, jₒ]), (-1, [aᵥ, bᵥ, jₒ, iₒ])]⟩,
  -- line 161: mdel,klcd,ecjk,abim->abij
  ⟨-1, [g_abab [mₒ, dᵥ, eᵥ, lₒ], l2_abab [kₒ, lₒ, cᵥ, dᵥ], t2_aaaa [eᵥ, cᵥ, jₒ, kₒ], t2_aaaa [aᵥ, bᵥ, iₒ, mₒ]], [(1, [aᵥ, bᵥ, iₒ, jₒ]), (-1, [aᵥ, bᵥ, jₒ, iₒ])]⟩,
  -- line 165: mdel,lkdc,ecjk,abim->abij
  ⟨-1, [g_aaaa [mₒ, dᵥ, eᵥ, lₒ], l2_abab [lₒ, kₒ, dᵥ, cᵥ], t2_abab [eᵥ, cᵥ, jₒ, kₒ], t2_aaaa [aᵥ, bᵥ, iₒ, mₒ]], [(1, [aᵥ, bᵥ, iₒ, jₒ]), (-1, [aᵥ, bᵥ, jₒ, iₒ])]⟩
  ]

/-- Part 1 of `test_t2_aaaa`. -/
def test_t2_aaaa_1 : Prog := [
  -- line 169: mdle,lkcd,cejk,abim->abij
  ⟨1, [g_abab [mₒ, dᵥ, lₒ, eᵥ], l2_abab [lₒ, kₒ, cᵥ, dᵥ], t2_abab [cᵥ, eᵥ, jₒ, kₒ], t2_aaaa [aᵥ, bᵥ, iₒ, mₒ]], [(1, [aᵥ, bᵥ, iₒ, jₒ]), (-1, [aᵥ, bᵥ, jₒ, iₒ])]⟩,
  -- line 173: mdel,kldc,ecjk,abim->abij
  ⟨1, [g_abab [mₒ, dᵥ, eᵥ, lₒ], l2_bbbb [kₒ, lₒ, dᵥ, cᵥ], t2_abab [eᵥ, cᵥ, jₒ, kₒ], t2_aaaa [aᵥ, bᵥ, iₒ, mₒ]], [(1, [aᵥ, bᵥ, iₒ, jₒ]), (-1, [aᵥ, bᵥ, jₒ, iₒ])]⟩,
  -- line 177: mdel,kldc,ecij,abkm->abij
  ⟨1, [g_aaaa [mₒ, dᵥ, eᵥ, lₒ], l2_aaaa [kₒ, lₒ, dᵥ, cᵥ], t2_aaaa [eᵥ, cᵥ, iₒ, jₒ], t2_aaaa [aᵥ, bᵥ, kₒ, mₒ]], [(1, [aᵥ, bᵥ, iₒ, jₒ])]⟩,
  -- line 180: mdel,klcd,ecij,abkm->abij
  ⟨-1, [g_abab [mₒ, dᵥ, eᵥ, lₒ], l2_abab [kₒ, lₒ, cᵥ, dᵥ], t2_aaaa [eᵥ, cᵥ, iₒ, jₒ], t2_aaaa [aᵥ, bᵥ, kₒ, mₒ]], [(1, [aᵥ, bᵥ, iₒ, jₒ])]⟩,
  -- line 183: mdel,kldc,eajk,cbim->abij
  ⟨-1, [g_aaaa [mₒ, dᵥ, eᵥ, lₒ], l2_aaaa [kₒ, lₒ, dᵥ, cᵥ], t2_aaaa [eᵥ, aᵥ, jₒ, kₒ], t2_aaaa [cᵥ, bᵥ, iₒ, mₒ]], [(1, [aᵥ, bᵥ, iₒ, jₒ]), (-1, [aᵥ, bᵥ, jₒ, iₒ]), (-1, [bᵥ, aᵥ, iₒ, jₒ]), (1, [bᵥ, aᵥ, jₒ, iₒ])]⟩,
  -- line 187: dmel,kldc,eajk,bcim->abij
  ⟨-1, [g_abab [dᵥ, mₒ, eᵥ, lₒ], l2_abab [kₒ, lₒ, dᵥ, cᵥ], t2_aaaa [eᵥ, aᵥ, jₒ, kₒ], t2_abab [bᵥ, cᵥ, iₒ, mₒ]], [(1, [aᵥ, bᵥ, iₒ, jₒ]), (-1, [aᵥ, bᵥ, jₒ, iₒ]), (-1, [bᵥ, aᵥ, iₒ, jₒ]), (1, [bᵥ, aᵥ, jₒ, iₒ])]⟩,
  -- line 191: mdel,klcd,eajk,cbim->abij
  ⟨1, [g_abab [mₒ, dᵥ, eᵥ, lₒ], l2_abab [kₒ, lₒ, cᵥ, dᵥ], t2_aaaa [eᵥ, aᵥ, jₒ, kₒ], t2_aaaa [cᵥ, bᵥ, iₒ, mₒ]], [(1, [aᵥ, bᵥ, iₒ, jₒ]), (-1, [aᵥ, bᵥ, jₒ, iₒ]), (-1, [bᵥ, aᵥ, iₒ, jₒ]), (1, [bᵥ, aᵥ, jₒ, iₒ])]⟩,
  -- line 195: dmle,lkdc,aejk,bcim->abij
  ⟨1, [g_abab [dᵥ, mₒ, lₒ, eᵥ], l2_abab [lₒ, kₒ, dᵥ, cᵥ], t2_abab [aᵥ, eᵥ, jₒ, kₒ], t2_abab [bᵥ, cᵥ, iₒ, mₒ]], [(1, [aᵥ, bᵥ, iₒ, jₒ]), (-1, [aᵥ, bᵥ, jₒ, iₒ]), (-1, [bᵥ, aᵥ, iₒ, jₒ]), (1, [bᵥ, aᵥ, jₒ, iₒ])]⟩,
  -- line 199: mdle,lkcd,aejk,cbim->abij
  ⟨-1, [g_abab [mₒ, dᵥ, lₒ, eᵥ], l2_abab [lₒ, kₒ, cᵥ, dᵥ], t2_abab [aᵥ, eᵥ, jₒ, kₒ], t2_aaaa [cᵥ, bᵥ, iₒ, mₒ]], [(1, [aᵥ, bᵥ, iₒ, jₒ]), (-1, [aᵥ, bᵥ, jₒ, iₒ]), (-1, [bᵥ, aᵥ, iₒ, jₒ]), (1, [bᵥ, aᵥ, jₒ, iₒ])]⟩,
  -- line 203: mdel,kldc,aejk,bcim->abij
  ⟨-1, [g_bbbb [mₒ, dᵥ, eᵥ, lₒ], l2_bbbb [kₒ, lₒ, dᵥ, cᵥ], t2_abab [aᵥ, eᵥ, jₒ, kₒ], t2_abab [bᵥ, cᵥ, iₒ, mₒ]], [(1, [aᵥ, bᵥ, iₒ, jₒ]), (-1, [aᵥ, bᵥ, jₒ, iₒ]), (-1, [bᵥ, aᵥ, iₒ, jₒ]), (1, [bᵥ, aᵥ, jₒ, iₒ])]⟩,
  -- line 207: mdel,kldc,eaij,cbkm->abij
  ⟨-1, [g_aaaa [mₒ, dᵥ, eᵥ, lₒ], l2_aaaa [kₒ, lₒ, dᵥ, cᵥ], t2_aaaa [eᵥ, aᵥ, iₒ, jₒ], t2_aaaa [cᵥ, bᵥ, kₒ, mₒ]], [(1, [aᵥ, bᵥ, iₒ, jₒ]), (-1, [bᵥ, aᵥ, iₒ, jₒ])]⟩,
  -- line 211: dmel,kldc,eaij,bckm->abij
  ⟨-1, [g_abab [dᵥ, mₒ, eᵥ, lₒ], l2_abab [kₒ, lₒ, dᵥ, cᵥ], t2_aaaa [eᵥ, aᵥ, iₒ, jₒ], t2_abab [bᵥ, cᵥ, kₒ, mₒ]], [(1, [aᵥ, bᵥ, iₒ, jₒ]), (-1, [bᵥ, aᵥ, iₒ, jₒ])]⟩,
  -- line 215: mdel,klcd,eaij,cbkm->abij
  ⟨1, [g_abab [mₒ, dᵥ, eᵥ, lₒ], l2_abab [kₒ, lₒ, cᵥ, dᵥ], t2_aaaa [eᵥ, aᵥ, iₒ, jₒ], t2_aaaa [cᵥ, bᵥ, kₒ, mₒ]], [(1, [aᵥ, bᵥ, iₒ, jₒ]), (-1, [bᵥ, aᵥ, iₒ, jₒ])]⟩,
  -- line 219: mdel,lkdc,eaij,bcmk->abij
  ⟨1, [g_aaaa [mₒ, dᵥ, eᵥ, lₒ], l2_abab [lₒ, kₒ, dᵥ, cᵥ], t2_aaaa [eᵥ, aᵥ, iₒ, jₒ], t2_abab [bᵥ, cᵥ, mₒ, kₒ]], [(1, [aᵥ, bᵥ, iₒ, jₒ]), (-1, [bᵥ, aᵥ, iₒ, jₒ])]⟩,
  -- line 223: mdel,kldc,eaij,bcmk->abij
  ⟨-1, [g_abab [mₒ, dᵥ, eᵥ, lₒ], l2_bbbb [kₒ, lₒ, dᵥ, cᵥ], t2_aaaa [eᵥ, aᵥ, iₒ, jₒ], t2_abab [bᵥ, cᵥ, mₒ, kₒ]], [(1, [aᵥ, bᵥ, iₒ, jₒ]), (-1, [bᵥ, aᵥ, iₒ, jₒ])]⟩,
  -- line 227: mdej,kldc,eckl,abim->abij
  ⟨1/2, [g_aaaa [mₒ, dᵥ, eᵥ, jₒ], l2_aaaa [kₒ, lₒ, dᵥ, cᵥ], t2_aaaa [eᵥ, cᵥ, kₒ, lₒ], t2_aaaa [aᵥ, bᵥ, iₒ, mₒ]], [(1, [aᵥ, bᵥ, iₒ, jₒ]), (-1, [aᵥ, bᵥ, jₒ, iₒ])]⟩,
  -- line 231: mdej,kldc,eckl,abim->abij
  ⟨1/2, [g_aaaa [mₒ, dᵥ, eᵥ, jₒ], l2_abab [kₒ, lₒ, dᵥ, cᵥ], t2_abab [eᵥ, cᵥ, kₒ, lₒ], t2_aaaa [aᵥ, bᵥ, iₒ, mₒ]], [(1, [aᵥ, bᵥ, iₒ, jₒ]), (-1, [aᵥ, bᵥ, jₒ, iₒ])]⟩,
  -- line 235: mdje,klcd,cekl,abim->abij
  ⟨-1/2, [g_abab [mₒ, dᵥ, jₒ, eᵥ], l2_abab [kₒ, lₒ, cᵥ, dᵥ], t2_abab [cᵥ, eᵥ, kₒ, lₒ], t2_aaaa [aᵥ, bᵥ, iₒ, mₒ]], [(1, [aᵥ, bᵥ, iₒ, jₒ]), (-1, [aᵥ, bᵥ, jₒ, iₒ])]⟩,
  -- line 239: mdej,lkdc,eclk,abim->abij
  ⟨1/2, [g_aaaa [mₒ, dᵥ, eᵥ, jₒ], l2_abab [lₒ, kₒ, dᵥ, cᵥ], t2_abab [eᵥ, cᵥ, lₒ, kₒ], t2_aaaa [aᵥ, bᵥ, iₒ, mₒ]], [(1, [aᵥ, bᵥ, iₒ, jₒ]), (-1, [aᵥ, bᵥ, jₒ, iₒ])]⟩,
  -- line 243: mdje,lkcd,celk,abim->abij
  ⟨-1/2, [g_abab [mₒ, dᵥ, jₒ, eᵥ], l2_abab [lₒ, kₒ, cᵥ, dᵥ], t2_abab [cᵥ, eᵥ, lₒ, kₒ], t2_aaaa [aᵥ, bᵥ, iₒ, mₒ]], [(1, [aᵥ, bᵥ, iₒ, jₒ]), (-1, [aᵥ, bᵥ, jₒ, iₒ])]⟩,
  -- line 247: mdje,kldc,eckl,abim->abij
  ⟨-1/2, [g_abab [mₒ, dᵥ, jₒ, eᵥ], l2_bbbb [kₒ, lₒ, dᵥ, cᵥ], t2_bbbb [eᵥ, cᵥ, kₒ, lₒ], t2_aaaa [aᵥ, bᵥ, iₒ, mₒ]], [(1, [aᵥ, bᵥ, iₒ, jₒ]), (-1, [aᵥ, bᵥ, jₒ, iₒ])]⟩,
  -- line 251: mdej,kldc,ecil,abkm->abij
  ⟨-1, [g_aaaa [mₒ, dᵥ, eᵥ, jₒ], l2_aaaa [kₒ, lₒ, dᵥ, cᵥ], t2_aaaa [eᵥ, cᵥ, iₒ, lₒ], t2_aaaa [aᵥ, bᵥ, kₒ, mₒ]], [(1, [aᵥ, bᵥ, iₒ, jₒ]), (-1, [aᵥ, bᵥ, jₒ, iₒ])]⟩,
  -- line 255: mdej,kldc,ecil,abkm->abij
  ⟨-1, [g_aaaa [mₒ, dᵥ, eᵥ, jₒ], l2_abab [kₒ, lₒ, dᵥ, cᵥ], t2_abab [eᵥ, cᵥ, iₒ, lₒ], t2_aaaa [aᵥ, bᵥ, kₒ, mₒ]], [(1, [aᵥ, bᵥ, iₒ, jₒ]), (-1, [aᵥ, bᵥ, jₒ, iₒ])]⟩,
  -- line 259: mdje,klcd,ceil,abkm->abij
  ⟨1, [g_abab [mₒ, dᵥ, jₒ, eᵥ], l2_abab [kₒ, lₒ, cᵥ, dᵥ], t2_abab [cᵥ, eᵥ, iₒ, lₒ], t2_aaaa [aᵥ, bᵥ, kₒ, mₒ]], [(1, [aᵥ, bᵥ, iₒ, jₒ]), (-1, [aᵥ, bᵥ, jₒ, iₒ])]⟩,
  -- line 263: mdej,kldc,eakl,cbim->abij
  ⟨-1/2, [g_aaaa [mₒ, dᵥ, eᵥ, jₒ], l2_aaaa [kₒ, lₒ, dᵥ, cᵥ], t2_aaaa [eᵥ, aᵥ, kₒ, lₒ], t2_aaaa [cᵥ, bᵥ, iₒ, mₒ]], [(1, [aᵥ, bᵥ, iₒ, jₒ]), (-1, [aᵥ, bᵥ, jₒ, iₒ]), (-1, [bᵥ, aᵥ, iₒ, jₒ]), (1, [bᵥ, aᵥ, jₒ, iₒ])]⟩,
  -- line 267: dmje,kldc,aekl,bcim->abij
  ⟨-1/2, [g_abab [dᵥ, mₒ, jₒ, eᵥ], l2_abab [kₒ, lₒ, dᵥ, cᵥ], t2_abab [aᵥ, eᵥ, kₒ, lₒ], t2_abab [bᵥ, cᵥ, iₒ, mₒ]], [(1, [aᵥ, bᵥ, iₒ, jₒ]), (-1, [aᵥ, bᵥ, jₒ, iₒ]), (-1, [bᵥ, aᵥ, iₒ, jₒ]), (1, [bᵥ, aᵥ, jₒ, iₒ])]⟩,
  -- line 271: mdje,klcd,aekl,cbim->abij
  ⟨1/2, [g_abab [mₒ, dᵥ, jₒ, eᵥ], l2_abab [kₒ, lₒ, cᵥ, dᵥ], t2_abab [aᵥ, eᵥ, kₒ, lₒ], t2_aaaa [cᵥ, bᵥ, iₒ, mₒ]], [(1, [aᵥ, bᵥ, iₒ, jₒ]), (-1, [aᵥ, bᵥ, jₒ, iₒ]), (-1, [bᵥ, aᵥ, iₒ, jₒ]), (1, [bᵥ, aᵥ, jₒ, iₒ])]⟩,
  -- line 275: dmje,lkdc,aelk,bcim->abij
  ⟨-1/2, [g_abab [dᵥ, mₒ, jₒ, eᵥ], l2_abab [lₒ, kₒ, dᵥ, cᵥ], t2_abab [aᵥ, eᵥ, lₒ, kₒ], t2_abab [bᵥ, cᵥ, iₒ, mₒ]], [(1, [aᵥ, bᵥ, iₒ, jₒ]), (-1, [aᵥ, bᵥ, jₒ, iₒ]), (-1, [bᵥ, aᵥ, iₒ, jₒ]), (1, [bᵥ, aᵥ, jₒ, iₒ])]⟩,
  -- line 279: mdje,lkcd,aelk,cbim->abij
  ⟨1/2, [g_abab [mₒ, dᵥ, jₒ, eᵥ], l2_abab [lₒ, kₒ, cᵥ, dᵥ], t2_abab [aᵥ, eᵥ, lₒ, kₒ], t2_aaaa [cᵥ, bᵥ, iₒ, mₒ]], [(1, [aᵥ, bᵥ, iₒ, jₒ]), (-1, [aᵥ, bᵥ, jₒ, iₒ]), (-1, [bᵥ, aᵥ, iₒ, jₒ]), (1, [bᵥ, aᵥ, jₒ, iₒ])]⟩,
  -- line 283: mdej,kldc,eail,cbkm->abij
  ⟨1, [g_aaaa [mₒ, dᵥ, eᵥ, jₒ], l2_aaaa [kₒ, lₒ, dᵥ, cᵥ], t2_aaaa [eᵥ, aᵥ, iₒ, lₒ], t2_aaaa [cᵥ, bᵥ, kₒ, mₒ]], [(1, [aᵥ, bᵥ, iₒ, jₒ]), (-1, [aᵥ, bᵥ, jₒ, iₒ]), (-1, [bᵥ, aᵥ, iₒ, jₒ]), (1, [bᵥ, aᵥ, jₒ, iₒ])]⟩,
  -- line 287: dmje,kldc,aeil,bckm->abij
  ⟨1, [g_abab [dᵥ, mₒ, jₒ, eᵥ], l2_abab [kₒ, lₒ, dᵥ, cᵥ], t2_abab [aᵥ, eᵥ, iₒ, lₒ], t2_abab [bᵥ, cᵥ, kₒ, mₒ]], [(1, [aᵥ, bᵥ, iₒ, jₒ]), (-1, [aᵥ, bᵥ, jₒ, iₒ]), (-1, [bᵥ, aᵥ, iₒ, jₒ]), (1, [bᵥ, aᵥ, jₒ, iₒ])]⟩,
  -- line 291: mdje,klcd,aeil,cbkm->abij
  ⟨-1, [g_abab [mₒ, dᵥ, jₒ, eᵥ], l2_abab [kₒ, lₒ, cᵥ, dᵥ], t2_abab [aᵥ, eᵥ, iₒ, lₒ], t2_aaaa [cᵥ, bᵥ, kₒ, mₒ]], [(1, [aᵥ, bᵥ, iₒ, jₒ]), (-1, [aᵥ, bᵥ, jₒ, iₒ]), (-1, [bᵥ, aᵥ, iₒ, jₒ]), (1, [bᵥ, aᵥ, jₒ, iₒ])]⟩,
  -- line 295: mdej,lkdc,eail,bcmk->abij
  ⟨-1, [g_aaaa [mₒ, dᵥ, eᵥ, jₒ], l2_abab [lₒ, kₒ, dᵥ, cᵥ], t2_aaaa [eᵥ, aᵥ, iₒ, lₒ], t2_abab [bᵥ, cᵥ, mₒ, kₒ]], [(1, [aᵥ, bᵥ, iₒ, jₒ]), (-1, [aᵥ, bᵥ, jₒ, iₒ]), (-1, [bᵥ, aᵥ, iₒ, jₒ]), (1, [bᵥ, aᵥ, jₒ, iₒ])]⟩,
  -- line 299: mdje,kldc,aeil,bcmk->abij
  ⟨1, [g_abab [mₒ, dᵥ, jₒ, eᵥ], l2_bbbb [kₒ, lₒ, dᵥ, cᵥ], t2_abab [aᵥ, eᵥ, iₒ, lₒ], t2_abab [bᵥ, cᵥ, mₒ, kₒ]], [(1, [aᵥ, bᵥ, iₒ, jₒ]), (-1, [aᵥ, bᵥ, jₒ, iₒ]), (-1, [bᵥ, aᵥ, iₒ, jₒ]), (1, [bᵥ, aᵥ, jₒ, iₒ])]⟩,
  -- line 303: mael,kldc,edjk,cbim->abij
  ⟨1, [g_aaaa [mₒ, aᵥ, eᵥ, lₒ], l2_aaaa [kₒ, lₒ, dᵥ, cᵥ], t2_aaaa [eᵥ, dᵥ, jₒ, kₒ], t2_aaaa [cᵥ, bᵥ, iₒ, mₒ]], [(1, [aᵥ, bᵥ, iₒ, jₒ]), (-1, [aᵥ, bᵥ, jₒ, iₒ]), (-1, [bᵥ, aᵥ, iₒ, jₒ]), (1, [bᵥ, aᵥ, jₒ, iₒ])]⟩,
  -- line 307: amel,kldc,edjk,bcim->abij
  ⟨1, [g_abab [aᵥ, mₒ, eᵥ, lₒ], l2_abab [kₒ, lₒ, dᵥ, cᵥ], t2_aaaa [eᵥ, dᵥ, jₒ, kₒ], t2_abab [bᵥ, cᵥ, iₒ, mₒ]], [(1, [aᵥ, bᵥ, iₒ, jₒ]), (-1, [aᵥ, bᵥ, jₒ, iₒ]), (-1, [bᵥ, aᵥ, iₒ, jₒ]), (1, [bᵥ, aᵥ, jₒ, iₒ])]⟩,
  -- line 311: amle,lkdc,dejk,bcim->abij
  ⟨-1, [g_abab [aᵥ, mₒ, lₒ, eᵥ], l2_abab [lₒ, kₒ, dᵥ, cᵥ], t2_abab [dᵥ, eᵥ, jₒ, kₒ], t2_abab [bᵥ, cᵥ, iₒ, mₒ]], [(1, [aᵥ, bᵥ, iₒ, jₒ]), (-1, [aᵥ, bᵥ, jₒ, iₒ]), (-1, [bᵥ, aᵥ, iₒ, jₒ]), (1, [bᵥ, aᵥ, jₒ, iₒ])]⟩,
  -- line 315: mael,lkcd,edjk,cbim->abij
  ⟨1, [g_aaaa [mₒ, aᵥ, eᵥ, lₒ], l2_abab [lₒ, kₒ, cᵥ, dᵥ], t2_abab [eᵥ, dᵥ, jₒ, kₒ], t2_aaaa [cᵥ, bᵥ, iₒ, mₒ]], [(1, [aᵥ, bᵥ, iₒ, jₒ]), (-1, [aᵥ, bᵥ, jₒ, iₒ]), (-1, [bᵥ, aᵥ, iₒ, jₒ]), (1, [bᵥ, aᵥ, jₒ, iₒ])]⟩,
  -- line 319: amel,kldc,edjk,bcim->abij
  ⟨1, [g_abab [aᵥ, mₒ, eᵥ, lₒ], l2_bbbb [kₒ, lₒ, dᵥ, cᵥ], t2_abab [eᵥ, dᵥ, jₒ, kₒ], t2_abab [bᵥ, cᵥ, iₒ, mₒ]], [(1, [aᵥ, bᵥ, iₒ, jₒ]), (-1, [aᵥ, bᵥ, jₒ, iₒ]), (-1, [bᵥ, aᵥ, iₒ, jₒ]), (1, [bᵥ, aᵥ, jₒ, iₒ])]⟩,
  -- line 323: mael,kldc,edij,cbkm->abij
  ⟨1, [g_aaaa [mₒ, aᵥ, eᵥ, lₒ], l2_aaaa [kₒ, lₒ, dᵥ, cᵥ], t2_aaaa [eᵥ, dᵥ, iₒ, jₒ], t2_aaaa [cᵥ, bᵥ, kₒ, mₒ]], [(1, [aᵥ, bᵥ, iₒ, jₒ]), (-1, [bᵥ, aᵥ, iₒ, jₒ])]⟩
  ]

/-- Part 2 of `test_t2_aaaa`. -/
def test_t2_aaaa_2 : Prog := [
  -- line 327: amel,kldc,edij,bckm->abij
  ⟨1, [g_abab [aᵥ, mₒ, eᵥ, lₒ], l2_abab [kₒ, lₒ, dᵥ, cᵥ], t2_aaaa [eᵥ, dᵥ, iₒ, jₒ], t2_abab [bᵥ, cᵥ, kₒ, mₒ]], [(1, [aᵥ, bᵥ, iₒ, jₒ]), (-1, [bᵥ, aᵥ, iₒ, jₒ])]⟩,
  -- line 331: mael,lkdc,edij,bcmk->abij
  ⟨-1, [g_aaaa [mₒ, aᵥ, eᵥ, lₒ], l2_abab [lₒ, kₒ, dᵥ, cᵥ], t2_aaaa [eᵥ, dᵥ, iₒ, jₒ], t2_abab [bᵥ, cᵥ, mₒ, kₒ]], [(1, [aᵥ, bᵥ, iₒ, jₒ]), (-1, [bᵥ, aᵥ, iₒ, jₒ])]⟩,
  -- line 335: mael,kldc,ebjk,dcim->abij
  ⟨1/2, [g_aaaa [mₒ, aᵥ, eᵥ, lₒ], l2_aaaa [kₒ, lₒ, dᵥ, cᵥ], t2_aaaa [eᵥ, bᵥ, jₒ, kₒ], t2_aaaa [dᵥ, cᵥ, iₒ, mₒ]], [(1, [aᵥ, bᵥ, iₒ, jₒ]), (-1, [aᵥ, bᵥ, jₒ, iₒ]), (-1, [bᵥ, aᵥ, iₒ, jₒ]), (1, [bᵥ, aᵥ, jₒ, iₒ])]⟩,
  -- line 339: amel,kldc,ebjk,dcim->abij
  ⟨-1/2, [g_abab [aᵥ, mₒ, eᵥ, lₒ], l2_abab [kₒ, lₒ, dᵥ, cᵥ], t2_aaaa [eᵥ, bᵥ, jₒ, kₒ], t2_abab [dᵥ, cᵥ, iₒ, mₒ]], [(1, [aᵥ, bᵥ, iₒ, jₒ]), (-1, [aᵥ, bᵥ, jₒ, iₒ]), (-1, [bᵥ, aᵥ, iₒ, jₒ]), (1, [bᵥ, aᵥ, jₒ, iₒ])]⟩,
  -- line 343: amel,klcd,ebjk,cdim->abij
  ⟨-1/2, [g_abab [aᵥ, mₒ, eᵥ, lₒ], l2_abab [kₒ, lₒ, cᵥ, dᵥ], t2_aaaa [eᵥ, bᵥ, jₒ, kₒ], t2_abab [cᵥ, dᵥ, iₒ, mₒ]], [(1, [aᵥ, bᵥ, iₒ, jₒ]), (-1, [aᵥ, bᵥ, jₒ, iₒ]), (-1, [bᵥ, aᵥ, iₒ, jₒ]), (1, [bᵥ, aᵥ, jₒ, iₒ])]⟩,
  -- line 347: amle,lkdc,bejk,dcim->abij
  ⟨1/2, [g_abab [aᵥ, mₒ, lₒ, eᵥ], l2_abab [lₒ, kₒ, dᵥ, cᵥ], t2_abab [bᵥ, eᵥ, jₒ, kₒ], t2_abab [dᵥ, cᵥ, iₒ, mₒ]], [(1, [aᵥ, bᵥ, iₒ, jₒ]), (-1, [aᵥ, bᵥ, jₒ, iₒ]), (-1, [bᵥ, aᵥ, iₒ, jₒ]), (1, [bᵥ, aᵥ, jₒ, iₒ])]⟩,
  -- line 351: amle,lkcd,bejk,cdim->abij
  ⟨1/2, [g_abab [aᵥ, mₒ, lₒ, eᵥ], l2_abab [lₒ, kₒ, cᵥ, dᵥ], t2_abab [bᵥ, eᵥ, jₒ, kₒ], t2_abab [cᵥ, dᵥ, iₒ, mₒ]], [(1, [aᵥ, bᵥ, iₒ, jₒ]), (-1, [aᵥ, bᵥ, jₒ, iₒ]), (-1, [bᵥ, aᵥ, iₒ, jₒ]), (1, [bᵥ, aᵥ, jₒ, iₒ])]⟩,
  -- line 355: mael,kldc,ebij,dckm->abij
  ⟨1/2, [g_aaaa [mₒ, aᵥ, eᵥ, lₒ], l2_aaaa [kₒ, lₒ, dᵥ, cᵥ], t2_aaaa [eᵥ, bᵥ, iₒ, jₒ], t2_aaaa [dᵥ, cᵥ, kₒ, mₒ]], [(1, [aᵥ, bᵥ, iₒ, jₒ]), (-1, [bᵥ, aᵥ, iₒ, jₒ])]⟩,
  -- line 359: amel,kldc,ebij,dckm->abij
  ⟨-1/2, [g_abab [aᵥ, mₒ, eᵥ, lₒ], l2_abab [kₒ, lₒ, dᵥ, cᵥ], t2_aaaa [eᵥ, bᵥ, iₒ, jₒ], t2_abab [dᵥ, cᵥ, kₒ, mₒ]], [(1, [aᵥ, bᵥ, iₒ, jₒ]), (-1, [bᵥ, aᵥ, iₒ, jₒ])]⟩,
  -- line 363: amel,klcd,ebij,cdkm->abij
  ⟨-1/2, [g_abab [aᵥ, mₒ, eᵥ, lₒ], l2_abab [kₒ, lₒ, cᵥ, dᵥ], t2_aaaa [eᵥ, bᵥ, iₒ, jₒ], t2_abab [cᵥ, dᵥ, kₒ, mₒ]], [(1, [aᵥ, bᵥ, iₒ, jₒ]), (-1, [bᵥ, aᵥ, iₒ, jₒ])]⟩,
  -- line 367: mael,lkdc,ebij,dcmk->abij
  ⟨1/2, [g_aaaa [mₒ, aᵥ, eᵥ, lₒ], l2_abab [lₒ, kₒ, dᵥ, cᵥ], t2_aaaa [eᵥ, bᵥ, iₒ, jₒ], t2_abab [dᵥ, cᵥ, mₒ, kₒ]], [(1, [aᵥ, bᵥ, iₒ, jₒ]), (-1, [bᵥ, aᵥ, iₒ, jₒ])]⟩,
  -- line 371: mael,lkcd,ebij,cdmk->abij
  ⟨1/2, [g_aaaa [mₒ, aᵥ, eᵥ, lₒ], l2_abab [lₒ, kₒ, cᵥ, dᵥ], t2_aaaa [eᵥ, bᵥ, iₒ, jₒ], t2_abab [cᵥ, dᵥ, mₒ, kₒ]], [(1, [aᵥ, bᵥ, iₒ, jₒ]), (-1, [bᵥ, aᵥ, iₒ, jₒ])]⟩,
  -- line 375: amel,kldc,ebij,dckm->abij
  ⟨-1/2, [g_abab [aᵥ, mₒ, eᵥ, lₒ], l2_bbbb [kₒ, lₒ, dᵥ, cᵥ], t2_aaaa [eᵥ, bᵥ, iₒ, jₒ], t2_bbbb [dᵥ, cᵥ, kₒ, mₒ]], [(1, [aᵥ, bᵥ, iₒ, jₒ]), (-1, [bᵥ, aᵥ, iₒ, jₒ])]⟩,
  -- line 379: maej,kldc,edkl,cbim->abij
  ⟨1/2, [g_aaaa [mₒ, aᵥ, eᵥ, jₒ], l2_aaaa [kₒ, lₒ, dᵥ, cᵥ], t2_aaaa [eᵥ, dᵥ, kₒ, lₒ], t2_aaaa [cᵥ, bᵥ, iₒ, mₒ]], [(1, [aᵥ, bᵥ, iₒ, jₒ]), (-1, [aᵥ, bᵥ, jₒ, iₒ]), (-1, [bᵥ, aᵥ, iₒ, jₒ]), (1, [bᵥ, aᵥ, jₒ, iₒ])]⟩,
  -- line 383: amje,kldc,dekl,bcim->abij
  ⟨1/2, [g_abab [aᵥ, mₒ, jₒ, eᵥ], l2_abab [kₒ, lₒ, dᵥ, cᵥ], t2_abab [dᵥ, eᵥ, kₒ, lₒ], t2_abab [bᵥ, cᵥ, iₒ, mₒ]], [(1, [aᵥ, bᵥ, iₒ, jₒ]), (-1, [aᵥ, bᵥ, jₒ, iₒ]), (-1, [bᵥ, aᵥ, iₒ, jₒ]), (1, [bᵥ, aᵥ, jₒ, iₒ])]⟩,
  -- line 387: maej,klcd,edkl,cbim->abij
  ⟨-1/2, [g_aaaa [mₒ, aᵥ, eᵥ, jₒ], l2_abab [kₒ, lₒ, cᵥ, dᵥ], t2_abab [eᵥ, dᵥ, kₒ, lₒ], t2_aaaa [cᵥ, bᵥ, iₒ, mₒ]], [(1, [aᵥ, bᵥ, iₒ, jₒ]), (-1, [aᵥ, bᵥ, jₒ, iₒ]), (-1, [bᵥ, aᵥ, iₒ, jₒ]), (1, [bᵥ, aᵥ, jₒ, iₒ])]⟩,
  -- line 391: amje,lkdc,delk,bcim->abij
  ⟨1/2, [g_abab [aᵥ, mₒ, jₒ, eᵥ], l2_abab [lₒ, kₒ, dᵥ, cᵥ], t2_abab [dᵥ, eᵥ, lₒ, kₒ], t2_abab [bᵥ, cᵥ, iₒ, mₒ]], [(1, [aᵥ, bᵥ, iₒ, jₒ]), (-1, [aᵥ, bᵥ, jₒ, iₒ]), (-1, [bᵥ, aᵥ, iₒ, jₒ]), (1, [bᵥ, aᵥ, jₒ, iₒ])]⟩,
  -- line 395: maej,lkcd,edlk,cbim->abij
  ⟨-1/2, [g_aaaa [mₒ, aᵥ, eᵥ, jₒ], l2_abab [lₒ, kₒ, cᵥ, dᵥ], t2_abab [eᵥ, dᵥ, lₒ, kₒ], t2_aaaa [cᵥ, bᵥ, iₒ, mₒ]], [(1, [aᵥ, bᵥ, iₒ, jₒ]), (-1, [aᵥ, bᵥ, jₒ, iₒ]), (-1, [bᵥ, aᵥ, iₒ, jₒ]), (1, [bᵥ, aᵥ, jₒ, iₒ])]⟩,
  -- line 399: amje,kldc,edkl,bcim->abij
  ⟨-1/2, [g_abab [aᵥ, mₒ, jₒ, eᵥ], l2_bbbb [kₒ, lₒ, dᵥ, cᵥ], t2_bbbb [eᵥ, dᵥ, kₒ, lₒ], t2_abab [bᵥ, cᵥ, iₒ, mₒ]], [(1, [aᵥ, bᵥ, iₒ, jₒ]), (-1, [aᵥ, bᵥ, jₒ, iₒ]), (-1, [bᵥ, aᵥ, iₒ, jₒ]), (1, [bᵥ, aᵥ, jₒ, iₒ])]⟩,
  -- line 403: maej,kldc,edil,cbkm->abij
  ⟨-1, [g_aaaa [mₒ, aᵥ, eᵥ, jₒ], l2_aaaa [kₒ, lₒ, dᵥ, cᵥ], t2_aaaa [eᵥ, dᵥ, iₒ, lₒ], t2_aaaa [cᵥ, bᵥ, kₒ, mₒ]], [(1, [aᵥ, bᵥ, iₒ, jₒ]), (-1, [aᵥ, bᵥ, jₒ, iₒ]), (-1, [bᵥ, aᵥ, iₒ, jₒ]), (1, [bᵥ, aᵥ, jₒ, iₒ])]⟩,
  -- line 407: amje,kldc,deil,bckm->abij
  ⟨-1, [g_abab [aᵥ, mₒ, jₒ, eᵥ], l2_abab [kₒ, lₒ, dᵥ, cᵥ], t2_abab [dᵥ, eᵥ, iₒ, lₒ], t2_abab [bᵥ, cᵥ, kₒ, mₒ]], [(1, [aᵥ, bᵥ, iₒ, jₒ]), (-1, [aᵥ, bᵥ, jₒ, iₒ]), (-1, [bᵥ, aᵥ, iₒ, jₒ]), (1, [bᵥ, aᵥ, jₒ, iₒ])]⟩,
  -- line 411: maej,klcd,edil,cbkm->abij
  ⟨1, [g_aaaa [mₒ, aᵥ, eᵥ, jₒ], l2_abab [kₒ, lₒ, cᵥ, dᵥ], t2_abab [eᵥ, dᵥ, iₒ, lₒ], t2_aaaa [cᵥ, bᵥ, kₒ, mₒ]], [(1, [aᵥ, bᵥ, iₒ, jₒ]), (-1, [aᵥ, bᵥ, jₒ, iₒ]), (-1, [bᵥ, aᵥ, iₒ, jₒ]), (1, [bᵥ, aᵥ, jₒ, iₒ])]⟩,
  -- line 415: maej,lkdc,edil,bcmk->abij
  ⟨1, [g_aaaa [mₒ, aᵥ, eᵥ, jₒ], l2_abab [lₒ, kₒ, dᵥ, cᵥ], t2_aaaa [eᵥ, dᵥ, iₒ, lₒ], t2_abab [bᵥ, cᵥ, mₒ, kₒ]], [(1, [aᵥ, bᵥ, iₒ, jₒ]), (-1, [aᵥ, bᵥ, jₒ, iₒ]), (-1, [bᵥ, aᵥ, iₒ, jₒ]), (1, [bᵥ, aᵥ, jₒ, iₒ])]⟩,
  -- line 419: maej,kldc,edil,bcmk->abij
  ⟨-1, [g_aaaa [mₒ, aᵥ, eᵥ, jₒ], l2_bbbb [kₒ, lₒ, dᵥ, cᵥ], t2_abab [eᵥ, dᵥ, iₒ, lₒ], t2_abab [bᵥ, cᵥ, mₒ, kₒ]], [(1, [aᵥ, bᵥ, iₒ, jₒ]), (-1, [aᵥ, bᵥ, jₒ, iₒ]), (-1, [bᵥ, aᵥ, iₒ, jₒ]), (1, [bᵥ, aᵥ, jₒ, iₒ])]⟩,
  -- line 423: maej,kldc,ebkl,dcim->abij
  ⟨1/4, [g_aaaa [mₒ, aᵥ, eᵥ, jₒ], l2_aaaa [kₒ, lₒ, dᵥ, cᵥ], t2_aaaa [eᵥ, bᵥ, kₒ, lₒ], t2_aaaa [dᵥ, cᵥ, iₒ, mₒ]], [(1, [aᵥ, bᵥ, iₒ, jₒ]), (-1, [aᵥ, bᵥ, jₒ, iₒ]), (-1, [bᵥ, aᵥ, iₒ, jₒ]), (1, [bᵥ, aᵥ, jₒ, iₒ])]⟩,
  -- line 427: amje,kldc,bekl,dcim->abij
  ⟨-1/4, [g_abab [aᵥ, mₒ, jₒ, eᵥ], l2_abab [kₒ, lₒ, dᵥ, cᵥ], t2_abab [bᵥ, eᵥ, kₒ, lₒ], t2_abab [dᵥ, cᵥ, iₒ, mₒ]], [(1, [aᵥ, bᵥ, iₒ, jₒ]), (-1, [aᵥ, bᵥ, jₒ, iₒ]), (-1, [bᵥ, aᵥ, iₒ, jₒ]), (1, [bᵥ, aᵥ, jₒ, iₒ])]⟩,
  -- line 431: amje,klcd,bekl,cdim->abij
  ⟨-1/4, [g_abab [aᵥ, mₒ, jₒ, eᵥ], l2_abab [kₒ, lₒ, cᵥ, dᵥ], t2_abab [bᵥ, eᵥ, kₒ, lₒ], t2_abab [cᵥ, dᵥ, iₒ, mₒ]], [(1, [aᵥ, bᵥ, iₒ, jₒ]), (-1, [aᵥ, bᵥ, jₒ, iₒ]), (-1, [bᵥ, aᵥ, iₒ, jₒ]), (1, [bᵥ, aᵥ, jₒ, iₒ])]⟩,
  -- line 435: amje,lkdc,belk,dcim->abij
  ⟨-1/4, [g_abab [aᵥ, mₒ, jₒ, eᵥ], l2_abab [lₒ, kₒ, dᵥ, cᵥ], t2_abab [bᵥ, eᵥ, lₒ, kₒ], t2_abab [dᵥ, cᵥ, iₒ, mₒ]], [(1, [aᵥ, bᵥ, iₒ, jₒ]), (-1, [aᵥ, bᵥ, jₒ, iₒ]), (-1, [bᵥ, aᵥ, iₒ, jₒ]), (1, [bᵥ, aᵥ, jₒ, iₒ])]⟩,
  -- line 439: amje,lkcd,belk,cdim->abij
  ⟨-1/4, [g_abab [aᵥ, mₒ, jₒ, eᵥ], l2_abab [lₒ, kₒ, cᵥ, dᵥ], t2_abab [bᵥ, eᵥ, lₒ, kₒ], t2_abab [cᵥ, dᵥ, iₒ, mₒ]], [(1, [aᵥ, bᵥ, iₒ, jₒ]), (-1, [aᵥ, bᵥ, jₒ, iₒ]), (-1, [bᵥ, aᵥ, iₒ, jₒ]), (1, [bᵥ, aᵥ, jₒ, iₒ])]⟩,
  -- line 443: maej,kldc,ebil,dckm->abij
  ⟨-1/2, [g_aaaa [mₒ, aᵥ, eᵥ, jₒ], l2_aaaa [kₒ, lₒ, dᵥ, cᵥ], t2_aaaa [eᵥ, bᵥ, iₒ, lₒ], t2_aaaa [dᵥ, cᵥ, kₒ, mₒ]], [(1, [aᵥ, bᵥ, iₒ, jₒ]), (-1, [aᵥ, bᵥ, jₒ, iₒ]), (-1, [bᵥ, aᵥ, iₒ, jₒ]), (1, [bᵥ, aᵥ, jₒ, iₒ])]⟩,
  -- line 447: amje,kldc,beil,dckm->abij
  ⟨1/2, [g_abab [aᵥ, mₒ, jₒ, eᵥ], l2_abab [kₒ, lₒ, dᵥ, cᵥ], t2_abab [bᵥ, eᵥ, iₒ, lₒ], t2_abab [dᵥ, cᵥ, kₒ, mₒ]], [(1, [aᵥ, bᵥ, iₒ, jₒ]), (-1, [aᵥ, bᵥ, jₒ, iₒ]), (-1, [bᵥ, aᵥ, iₒ, jₒ]), (1, [bᵥ, aᵥ, jₒ, iₒ])]⟩,
  -- line 451: amje,klcd,beil,cdkm->abij
  ⟨1/2, [g_abab [aᵥ, mₒ, jₒ, eᵥ], l2_abab [kₒ, lₒ, cᵥ, dᵥ], t2_abab [bᵥ, eᵥ, iₒ, lₒ], t2_abab [cᵥ, dᵥ, kₒ, mₒ]], [(1, [aᵥ, bᵥ, iₒ, jₒ]), (-1, [aᵥ, bᵥ, jₒ, iₒ]), (-1, [bᵥ, aᵥ, iₒ, jₒ]), (1, [bᵥ, aᵥ, jₒ, iₒ])]⟩,
  -- line 455: maej,lkdc,ebil,dcmk->abij
  ⟨-1/2, [g_aaaa [mₒ, aᵥ, eᵥ, jₒ], l2_abab [lₒ, kₒ, dᵥ, cᵥ], t2_aaaa [eᵥ, bᵥ, iₒ, lₒ], t2_abab [dᵥ, cᵥ, mₒ, kₒ]], [(1, [aᵥ, bᵥ, iₒ, jₒ]), (-1, [aᵥ, bᵥ, jₒ, iₒ]), (-1, [bᵥ, aᵥ, iₒ, jₒ]), (1, [bᵥ, aᵥ, jₒ, iₒ])]⟩,
  -- line 459: maej,lkcd,ebil,cdmk->abij
  ⟨-1/2, [g_aaaa [mₒ, aᵥ, eᵥ, jₒ], l2_abab [lₒ, kₒ, cᵥ, dᵥ], t2_aaaa [eᵥ, bᵥ, iₒ, lₒ], t2_abab [cᵥ, dᵥ, mₒ, kₒ]], [(1, [aᵥ, bᵥ, iₒ, jₒ]), (-1, [aᵥ, bᵥ, jₒ, iₒ]), (-1, [bᵥ, aᵥ, iₒ, jₒ]), (1, [bᵥ, aᵥ, jₒ, iₒ])]⟩,
  -- line 463: amje,kldc,beil,dckm->abij
  ⟨1/2, [g_abab [aᵥ, mₒ, jₒ, eᵥ], l2_bbbb [kₒ, lₒ, dᵥ, cᵥ], t2_abab [bᵥ, eᵥ, iₒ, lₒ], t2_bbbb [dᵥ, cᵥ, kₒ, mₒ]], [(1, [aᵥ, bᵥ, iₒ, jₒ]), (-1, [aᵥ, bᵥ, jₒ, iₒ]), (-1, [bᵥ, aᵥ, iₒ, jₒ]), (1, [bᵥ, aᵥ, jₒ, iₒ])]⟩,
  -- line 467: dcef,kldc,eakl,fbij->abij
  ⟨-1/4, [g_aaaa [dᵥ, cᵥ, eᵥ, fᵥ], l2_aaaa [kₒ, lₒ, dᵥ, cᵥ], t2_aaaa [eᵥ, aᵥ, kₒ, lₒ], t2_aaaa [fᵥ, bᵥ, iₒ, jₒ]], [(1, [aᵥ, bᵥ, iₒ, jₒ])]⟩,
  -- line 470: dcfe,kldc,aekl,fbij->abij
  ⟨-1/4, [g_abab [dᵥ, cᵥ, fᵥ, eᵥ], l2_abab [kₒ, lₒ, dᵥ, cᵥ], t2_abab [aᵥ, eᵥ, kₒ, lₒ], t2_aaaa [fᵥ, bᵥ, iₒ, jₒ]], [(1, [aᵥ, bᵥ, iₒ, jₒ])]⟩,
  -- line 473: cdfe,klcd,aekl,fbij->abij
  ⟨-1/4, [g_abab [cᵥ, dᵥ, fᵥ, eᵥ], l2_abab [kₒ, lₒ, cᵥ, dᵥ], t2_abab [aᵥ, eᵥ, kₒ, lₒ], t2_aaaa [fᵥ, bᵥ, iₒ, jₒ]], [(1, [aᵥ, bᵥ, iₒ, jₒ])]⟩,
  -- line 476: dcfe,lkdc,aelk,fbij->abij
  ⟨-1/4, [g_abab [dᵥ, cᵥ, fᵥ, eᵥ], l2_abab [lₒ, kₒ, dᵥ, cᵥ], t2_abab [aᵥ, eᵥ, lₒ, kₒ], t2_aaaa [fᵥ, bᵥ, iₒ, jₒ]], [(1, [aᵥ, bᵥ, iₒ, jₒ])]⟩,
  -- line 479: cdfe,lkcd,aelk,fbij->abij
  ⟨-1/4, [g_abab [cᵥ, dᵥ, fᵥ, eᵥ], l2_abab [lₒ, kₒ, cᵥ, dᵥ], t2_abab [aᵥ, eᵥ, lₒ, kₒ], t2_aaaa [fᵥ, bᵥ, iₒ, jₒ]], [(1, [aᵥ, bᵥ, iₒ, jₒ])]⟩
  ]

/-- Part 3 of `test_t2_aaaa`. -/
def test_t2_aaaa_3 : Prog := [
  -- line 482: dcef,kldc,eajl,fbik->abij
  ⟨1/2, [g_aaaa [dᵥ, cᵥ, eᵥ, fᵥ], l2_aaaa [kₒ, lₒ, dᵥ, cᵥ], t2_aaaa [eᵥ, aᵥ, jₒ, lₒ], t2_aaaa [fᵥ, bᵥ, iₒ, kₒ]], [(1, [aᵥ, bᵥ, iₒ, jₒ]), (-1, [aᵥ, bᵥ, jₒ, iₒ])]⟩,
  -- line 486: dcfe,kldc,aejl,fbik->abij
  ⟨1/2, [g_abab [dᵥ, cᵥ, fᵥ, eᵥ], l2_abab [kₒ, lₒ, dᵥ, cᵥ], t2_abab [aᵥ, eᵥ, jₒ, lₒ], t2_aaaa [fᵥ, bᵥ, iₒ, kₒ]], [(1, [aᵥ, bᵥ, iₒ, jₒ]), (-1, [aᵥ, bᵥ, jₒ, iₒ])]⟩,
  -- line 490: cdfe,klcd,aejl,fbik->abij
  ⟨1/2, [g_abab [cᵥ, dᵥ, fᵥ, eᵥ], l2_abab [kₒ, lₒ, cᵥ, dᵥ], t2_abab [aᵥ, eᵥ, jₒ, lₒ], t2_aaaa [fᵥ, bᵥ, iₒ, kₒ]], [(1, [aᵥ, bᵥ, iₒ, jₒ]), (-1, [aᵥ, bᵥ, jₒ, iₒ])]⟩,
  -- line 494: dcef,lkdc,eajl,bfik->abij
  ⟨1/2, [g_abab [dᵥ, cᵥ, eᵥ, fᵥ], l2_abab [lₒ, kₒ, dᵥ, cᵥ], t2_aaaa [eᵥ, aᵥ, jₒ, lₒ], t2_abab [bᵥ, fᵥ, iₒ, kₒ]], [(1, [aᵥ, bᵥ, iₒ, jₒ]), (-1, [aᵥ, bᵥ, jₒ, iₒ])]⟩,
  -- line 498: cdef,lkcd,eajl,bfik->abij
  ⟨1/2, [g_abab [cᵥ, dᵥ, eᵥ, fᵥ], l2_abab [lₒ, kₒ, cᵥ, dᵥ], t2_aaaa [eᵥ, aᵥ, jₒ, lₒ], t2_abab [bᵥ, fᵥ, iₒ, kₒ]], [(1, [aᵥ, bᵥ, iₒ, jₒ]), (-1, [aᵥ, bᵥ, jₒ, iₒ])]⟩,
  -- line 502: dcef,kldc,aejl,bfik->abij
  ⟨1/2, [g_bbbb [dᵥ, cᵥ, eᵥ, fᵥ], l2_bbbb [kₒ, lₒ, dᵥ, cᵥ], t2_abab [aᵥ, eᵥ, jₒ, lₒ], t2_abab [bᵥ, fᵥ, iₒ, kₒ]], [(1, [aᵥ, bᵥ, iₒ, jₒ]), (-1, [aᵥ, bᵥ, jₒ, iₒ])]⟩,
  -- line 506: dcef,kldc,eaij,fbkl->abij
  ⟨-1/4, [g_aaaa [dᵥ, cᵥ, eᵥ, fᵥ], l2_aaaa [kₒ, lₒ, dᵥ, cᵥ], t2_aaaa [eᵥ, aᵥ, iₒ, jₒ], t2_aaaa [fᵥ, bᵥ, kₒ, lₒ]], [(1, [aᵥ, bᵥ, iₒ, jₒ])]⟩,
  -- line 509: dcef,kldc,eaij,bfkl->abij
  ⟨1/4, [g_abab [dᵥ, cᵥ, eᵥ, fᵥ], l2_abab [kₒ, lₒ, dᵥ, cᵥ], t2_aaaa [eᵥ, aᵥ, iₒ, jₒ], t2_abab [bᵥ, fᵥ, kₒ, lₒ]], [(1, [aᵥ, bᵥ, iₒ, jₒ])]⟩,
  -- line 512: cdef,klcd,eaij,bfkl->abij
  ⟨1/4, [g_abab [cᵥ, dᵥ, eᵥ, fᵥ], l2_abab [kₒ, lₒ, cᵥ, dᵥ], t2_aaaa [eᵥ, aᵥ, iₒ, jₒ], t2_abab [bᵥ, fᵥ, kₒ, lₒ]], [(1, [aᵥ, bᵥ, iₒ, jₒ])]⟩,
  -- line 515: dcef,lkdc,eaij,bflk->abij
  ⟨1/4, [g_abab [dᵥ, cᵥ, eᵥ, fᵥ], l2_abab [lₒ, kₒ, dᵥ, cᵥ], t2_aaaa [eᵥ, aᵥ, iₒ, jₒ], t2_abab [bᵥ, fᵥ, lₒ, kₒ]], [(1, [aᵥ, bᵥ, iₒ, jₒ])]⟩,
  -- line 518: cdef,lkcd,eaij,bflk->abij
  ⟨1/4, [g_abab [cᵥ, dᵥ, eᵥ, fᵥ], l2_abab [lₒ, kₒ, cᵥ, dᵥ], t2_aaaa [eᵥ, aᵥ, iₒ, jₒ], t2_abab [bᵥ, fᵥ, lₒ, kₒ]], [(1, [aᵥ, bᵥ, iₒ, jₒ])]⟩,
  -- line 521: daef,kldc,eckl,fbij->abij
  ⟨1/2, [g_aaaa [dᵥ, aᵥ, eᵥ, fᵥ], l2_aaaa [kₒ, lₒ, dᵥ, cᵥ], t2_aaaa [eᵥ, cᵥ, kₒ, lₒ], t2_aaaa [fᵥ, bᵥ, iₒ, jₒ]], [(1, [aᵥ, bᵥ, iₒ, jₒ]), (-1, [bᵥ, aᵥ, iₒ, jₒ])]⟩,
  -- line 525: daef,kldc,eckl,fbij->abij
  ⟨1/2, [g_aaaa [dᵥ, aᵥ, eᵥ, fᵥ], l2_abab [kₒ, lₒ, dᵥ, cᵥ], t2_abab [eᵥ, cᵥ, kₒ, lₒ], t2_aaaa [fᵥ, bᵥ, iₒ, jₒ]], [(1, [aᵥ, bᵥ, iₒ, jₒ]), (-1, [bᵥ, aᵥ, iₒ, jₒ])]⟩,
  -- line 529: adfe,klcd,cekl,fbij->abij
  ⟨1/2, [g_abab [aᵥ, dᵥ, fᵥ, eᵥ], l2_abab [kₒ, lₒ, cᵥ, dᵥ], t2_abab [cᵥ, eᵥ, kₒ, lₒ], t2_aaaa [fᵥ, bᵥ, iₒ, jₒ]], [(1, [aᵥ, bᵥ, iₒ, jₒ]), (-1, [bᵥ, aᵥ, iₒ, jₒ])]⟩,
  -- line 533: daef,lkdc,eclk,fbij->abij
  ⟨1/2, [g_aaaa [dᵥ, aᵥ, eᵥ, fᵥ], l2_abab [lₒ, kₒ, dᵥ, cᵥ], t2_abab [eᵥ, cᵥ, lₒ, kₒ], t2_aaaa [fᵥ, bᵥ, iₒ, jₒ]], [(1, [aᵥ, bᵥ, iₒ, jₒ]), (-1, [bᵥ, aᵥ, iₒ, jₒ])]⟩,
  -- line 537: adfe,lkcd,celk,fbij->abij
  ⟨1/2, [g_abab [aᵥ, dᵥ, fᵥ, eᵥ], l2_abab [lₒ, kₒ, cᵥ, dᵥ], t2_abab [cᵥ, eᵥ, lₒ, kₒ], t2_aaaa [fᵥ, bᵥ, iₒ, jₒ]], [(1, [aᵥ, bᵥ, iₒ, jₒ]), (-1, [bᵥ, aᵥ, iₒ, jₒ])]⟩,
  -- line 541: adfe,kldc,eckl,fbij->abij
  ⟨1/2, [g_abab [aᵥ, dᵥ, fᵥ, eᵥ], l2_bbbb [kₒ, lₒ, dᵥ, cᵥ], t2_bbbb [eᵥ, cᵥ, kₒ, lₒ], t2_aaaa [fᵥ, bᵥ, iₒ, jₒ]], [(1, [aᵥ, bᵥ, iₒ, jₒ]), (-1, [bᵥ, aᵥ, iₒ, jₒ])]⟩,
  -- line 545: daef,kldc,ecjl,fbik->abij
  ⟨-1, [g_aaaa [dᵥ, aᵥ, eᵥ, fᵥ], l2_aaaa [kₒ, lₒ, dᵥ, cᵥ], t2_aaaa [eᵥ, cᵥ, jₒ, lₒ], t2_aaaa [fᵥ, bᵥ, iₒ, kₒ]], [(1, [aᵥ, bᵥ, iₒ, jₒ]), (-1, [aᵥ, bᵥ, jₒ, iₒ]), (-1, [bᵥ, aᵥ, iₒ, jₒ]), (1, [bᵥ, aᵥ, jₒ, iₒ])]⟩,
  -- line 549: daef,kldc,ecjl,fbik->abij
  ⟨-1, [g_aaaa [dᵥ, aᵥ, eᵥ, fᵥ], l2_abab [kₒ, lₒ, dᵥ, cᵥ], t2_abab [eᵥ, cᵥ, jₒ, lₒ], t2_aaaa [fᵥ, bᵥ, iₒ, kₒ]], [(1, [aᵥ, bᵥ, iₒ, jₒ]), (-1, [aᵥ, bᵥ, jₒ, iₒ]), (-1, [bᵥ, aᵥ, iₒ, jₒ]), (1, [bᵥ, aᵥ, jₒ, iₒ])]⟩,
  -- line 553: adfe,klcd,cejl,fbik->abij
  ⟨-1, [g_abab [aᵥ, dᵥ, fᵥ, eᵥ], l2_abab [kₒ, lₒ, cᵥ, dᵥ], t2_abab [cᵥ, eᵥ, jₒ, lₒ], t2_aaaa [fᵥ, bᵥ, iₒ, kₒ]], [(1, [aᵥ, bᵥ, iₒ, jₒ]), (-1, [aᵥ, bᵥ, jₒ, iₒ]), (-1, [bᵥ, aᵥ, iₒ, jₒ]), (1, [bᵥ, aᵥ, jₒ, iₒ])]⟩,
  -- line 557: adef,lkcd,ecjl,bfik->abij
  ⟨-1, [g_abab [aᵥ, dᵥ, eᵥ, fᵥ], l2_abab [lₒ, kₒ, cᵥ, dᵥ], t2_aaaa [eᵥ, cᵥ, jₒ, lₒ], t2_abab [bᵥ, fᵥ, iₒ, kₒ]], [(1, [aᵥ, bᵥ, iₒ, jₒ]), (-1, [aᵥ, bᵥ, jₒ, iₒ]), (-1, [bᵥ, aᵥ, iₒ, jₒ]), (1, [bᵥ, aᵥ, jₒ, iₒ])]⟩,
  -- line 561: adef,kldc,ecjl,bfik->abij
  ⟨-1, [g_abab [aᵥ, dᵥ, eᵥ, fᵥ], l2_bbbb [kₒ, lₒ, dᵥ, cᵥ], t2_abab [eᵥ, cᵥ, jₒ, lₒ], t2_abab [bᵥ, fᵥ, iₒ, kₒ]], [(1, [aᵥ, bᵥ, iₒ, jₒ]), (-1, [aᵥ, bᵥ, jₒ, iₒ]), (-1, [bᵥ, aᵥ, iₒ, jₒ]), (1, [bᵥ, aᵥ, jₒ, iₒ])]⟩,
  -- line 565: daef,kldc,ecij,fbkl->abij
  ⟨1/2, [g_aaaa [dᵥ, aᵥ, eᵥ, fᵥ], l2_aaaa [kₒ, lₒ, dᵥ, cᵥ], t2_aaaa [eᵥ, cᵥ, iₒ, jₒ], t2_aaaa [fᵥ, bᵥ, kₒ, lₒ]], [(1, [aᵥ, bᵥ, iₒ, jₒ]), (-1, [bᵥ, aᵥ, iₒ, jₒ])]⟩,
  -- line 569: adef,klcd,ecij,bfkl->abij
  ⟨-1/2, [g_abab [aᵥ, dᵥ, eᵥ, fᵥ], l2_abab [kₒ, lₒ, cᵥ, dᵥ], t2_aaaa [eᵥ, cᵥ, iₒ, jₒ], t2_abab [bᵥ, fᵥ, kₒ, lₒ]], [(1, [aᵥ, bᵥ, iₒ, jₒ]), (-1, [bᵥ, aᵥ, iₒ, jₒ])]⟩,
  -- line 573: adef,lkcd,ecij,bflk->abij
  ⟨-1/2, [g_abab [aᵥ, dᵥ, eᵥ, fᵥ], l2_abab [lₒ, kₒ, cᵥ, dᵥ], t2_aaaa [eᵥ, cᵥ, iₒ, jₒ], t2_abab [bᵥ, fᵥ, lₒ, kₒ]], [(1, [aᵥ, bᵥ, iₒ, jₒ]), (-1, [bᵥ, aᵥ, iₒ, jₒ])]⟩,
  -- line 577: abef,kldc,edkl,fcij->abij
  ⟨-1/2, [g_aaaa [aᵥ, bᵥ, eᵥ, fᵥ], l2_aaaa [kₒ, lₒ, dᵥ, cᵥ], t2_aaaa [eᵥ, dᵥ, kₒ, lₒ], t2_aaaa [fᵥ, cᵥ, iₒ, jₒ]], [(1, [aᵥ, bᵥ, iₒ, jₒ])]⟩,
  -- line 580: abef,klcd,edkl,fcij->abij
  ⟨1/2, [g_aaaa [aᵥ, bᵥ, eᵥ, fᵥ], l2_abab [kₒ, lₒ, cᵥ, dᵥ], t2_abab [eᵥ, dᵥ, kₒ, lₒ], t2_aaaa [fᵥ, cᵥ, iₒ, jₒ]], [(1, [aᵥ, bᵥ, iₒ, jₒ])]⟩,
  -- line 583: abef,lkcd,edlk,fcij->abij
  ⟨1/2, [g_aaaa [aᵥ, bᵥ, eᵥ, fᵥ], l2_abab [lₒ, kₒ, cᵥ, dᵥ], t2_abab [eᵥ, dᵥ, lₒ, kₒ], t2_aaaa [fᵥ, cᵥ, iₒ, jₒ]], [(1, [aᵥ, bᵥ, iₒ, jₒ])]⟩,
  -- line 586: abef,kldc,edjl,fcik->abij
  ⟨1/2, [g_aaaa [aᵥ, bᵥ, eᵥ, fᵥ], l2_aaaa [kₒ, lₒ, dᵥ, cᵥ], t2_aaaa [eᵥ, dᵥ, jₒ, lₒ], t2_aaaa [fᵥ, cᵥ, iₒ, kₒ]], [(1, [aᵥ, bᵥ, iₒ, jₒ]), (-1, [aᵥ, bᵥ, jₒ, iₒ])]⟩,
  -- line 590: abef,klcd,edjl,fcik->abij
  ⟨-1/2, [g_aaaa [aᵥ, bᵥ, eᵥ, fᵥ], l2_abab [kₒ, lₒ, cᵥ, dᵥ], t2_abab [eᵥ, dᵥ, jₒ, lₒ], t2_aaaa [fᵥ, cᵥ, iₒ, kₒ]], [(1, [aᵥ, bᵥ, iₒ, jₒ]), (-1, [aᵥ, bᵥ, jₒ, iₒ])]⟩,
  -- line 594: abef,lkdc,edjl,fcik->abij
  ⟨-1/2, [g_aaaa [aᵥ, bᵥ, eᵥ, fᵥ], l2_abab [lₒ, kₒ, dᵥ, cᵥ], t2_aaaa [eᵥ, dᵥ, jₒ, lₒ], t2_abab [fᵥ, cᵥ, iₒ, kₒ]], [(1, [aᵥ, bᵥ, iₒ, jₒ]), (-1, [aᵥ, bᵥ, jₒ, iₒ])]⟩,
  -- line 598: abef,kldc,edjl,fcik->abij
  ⟨1/2, [g_aaaa [aᵥ, bᵥ, eᵥ, fᵥ], l2_bbbb [kₒ, lₒ, dᵥ, cᵥ], t2_abab [eᵥ, dᵥ, jₒ, lₒ], t2_abab [fᵥ, cᵥ, iₒ, kₒ]], [(1, [aᵥ, bᵥ, iₒ, jₒ]), (-1, [aᵥ, bᵥ, jₒ, iₒ])]⟩,
  -- line 602: mdkl,kldc,cabijm->abij
  ⟨1/2, [g_aaaa [mₒ, dᵥ, kₒ, lₒ], l2_aaaa [kₒ, lₒ, dᵥ, cᵥ], t3_aaaaaa [cᵥ, aᵥ, bᵥ, iₒ, jₒ, mₒ]], [(1, [aᵥ, bᵥ, iₒ, jₒ])]⟩,
  -- line 605: dmkl,kldc,bacijm->abij
  ⟨1/2, [g_abab [dᵥ, mₒ, kₒ, lₒ], l2_abab [kₒ, lₒ, dᵥ, cᵥ], t3_aabaab [bᵥ, aᵥ, cᵥ, iₒ, jₒ, mₒ]], [(1, [aᵥ, bᵥ, iₒ, jₒ])]⟩,
  -- line 608: mdkl,klcd,cabijm->abij
  ⟨-1/2, [g_abab [mₒ, dᵥ, kₒ, lₒ], l2_abab [kₒ, lₒ, cᵥ, dᵥ], t3_aaaaaa [cᵥ, aᵥ, bᵥ, iₒ, jₒ, mₒ]], [(1, [aᵥ, bᵥ, iₒ, jₒ])]⟩,
  -- line 611: dmlk,lkdc,bacijm->abij
  ⟨1/2, [g_abab [dᵥ, mₒ, lₒ, kₒ], l2_abab [lₒ, kₒ, dᵥ, cᵥ], t3_aabaab [bᵥ, aᵥ, cᵥ, iₒ, jₒ, mₒ]], [(1, [aᵥ, bᵥ, iₒ, jₒ])]⟩,
  -- line 614: mdlk,lkcd,cabijm->abij
  ⟨-1/2, [g_abab [mₒ, dᵥ, lₒ, kₒ], l2_abab [lₒ, kₒ, cᵥ, dᵥ], t3_aaaaaa [cᵥ, aᵥ, bᵥ, iₒ, jₒ, mₒ]], [(1, [aᵥ, bᵥ, iₒ, jₒ])]⟩,
  -- line 617: mdkl,kldc,bacijm->abij
  ⟨-1/2, [g_bbbb [mₒ, dᵥ, kₒ, lₒ], l2_bbbb [kₒ, lₒ, dᵥ, cᵥ], t3_aabaab [bᵥ, aᵥ, cᵥ, iₒ, jₒ, mₒ]], [(1, [aᵥ, bᵥ, iₒ, jₒ])]⟩,
  -- line 620: mdjl,kldc,cabikm->abij
  ⟨-1, [g_aaaa [mₒ, dᵥ, jₒ, lₒ], l2_aaaa [kₒ, lₒ, dᵥ, cᵥ], t3_aaaaaa [cᵥ, aᵥ, bᵥ, iₒ, kₒ, mₒ]], [(1, [aᵥ, bᵥ, iₒ, jₒ]), (-1, [aᵥ, bᵥ, jₒ, iₒ])]⟩,
  -- line 624: dmjl,kldc,bacikm->abij
  ⟨-1, [g_abab [dᵥ, mₒ, jₒ, lₒ], l2_abab [kₒ, lₒ, dᵥ, cᵥ], t3_aabaab [bᵥ, aᵥ, cᵥ, iₒ, kₒ, mₒ]], [(1, [aᵥ, bᵥ, iₒ, jₒ]), (-1, [aᵥ, bᵥ, jₒ, iₒ])]⟩
  ]

/-- Part 4 of `test_t2_aaaa`. -/
def test_t2_aaaa_4 : Prog := [
  -- line 628: mdjl,klcd,cabikm->abij
  ⟨1, [g_abab [mₒ, dᵥ, jₒ, lₒ], l2_abab [kₒ, lₒ, cᵥ, dᵥ], t3_aaaaaa [cᵥ, aᵥ, bᵥ, iₒ, kₒ, mₒ]], [(1, [aᵥ, bᵥ, iₒ, jₒ]), (-1, [aᵥ, bᵥ, jₒ, iₒ])]⟩,
  -- line 632: mdjl,lkdc,bacimk->abij
  ⟨1, [g_aaaa [mₒ, dᵥ, jₒ, lₒ], l2_abab [lₒ, kₒ, dᵥ, cᵥ], t3_aabaab [bᵥ, aᵥ, cᵥ, iₒ, mₒ, kₒ]], [(1, [aᵥ, bᵥ, iₒ, jₒ]), (-1, [aᵥ, bᵥ, jₒ, iₒ])]⟩,
  -- line 636: mdjl,kldc,bacimk->abij
  ⟨-1, [g_abab [mₒ, dᵥ, jₒ, lₒ], l2_bbbb [kₒ, lₒ, dᵥ, cᵥ], t3_aabaab [bᵥ, aᵥ, cᵥ, iₒ, mₒ, kₒ]], [(1, [aᵥ, bᵥ, iₒ, jₒ]), (-1, [aᵥ, bᵥ, jₒ, iₒ])]⟩,
  -- line 640: mdij,kldc,cabklm->abij
  ⟨1/2, [g_aaaa [mₒ, dᵥ, iₒ, jₒ], l2_aaaa [kₒ, lₒ, dᵥ, cᵥ], t3_aaaaaa [cᵥ, aᵥ, bᵥ, kₒ, lₒ, mₒ]], [(1, [aᵥ, bᵥ, iₒ, jₒ])]⟩,
  -- line 643: mdij,kldc,backml->abij
  ⟨1/2, [g_aaaa [mₒ, dᵥ, iₒ, jₒ], l2_abab [kₒ, lₒ, dᵥ, cᵥ], t3_aabaab [bᵥ, aᵥ, cᵥ, kₒ, mₒ, lₒ]], [(1, [aᵥ, bᵥ, iₒ, jₒ])]⟩,
  -- line 646: mdij,lkdc,bacmlk->abij
  ⟨-1/2, [g_aaaa [mₒ, dᵥ, iₒ, jₒ], l2_abab [lₒ, kₒ, dᵥ, cᵥ], t3_aabaab [bᵥ, aᵥ, cᵥ, mₒ, lₒ, kₒ]], [(1, [aᵥ, bᵥ, iₒ, jₒ])]⟩,
  -- line 649: makl,kldc,dcbijm->abij
  ⟨1/4, [g_aaaa [mₒ, aᵥ, kₒ, lₒ], l2_aaaa [kₒ, lₒ, dᵥ, cᵥ], t3_aaaaaa [dᵥ, cᵥ, bᵥ, iₒ, jₒ, mₒ]], [(1, [aᵥ, bᵥ, iₒ, jₒ]), (-1, [bᵥ, aᵥ, iₒ, jₒ])]⟩,
  -- line 653: amkl,kldc,dbcijm->abij
  ⟨1/4, [g_abab [aᵥ, mₒ, kₒ, lₒ], l2_abab [kₒ, lₒ, dᵥ, cᵥ], t3_aabaab [dᵥ, bᵥ, cᵥ, iₒ, jₒ, mₒ]], [(1, [aᵥ, bᵥ, iₒ, jₒ]), (-1, [bᵥ, aᵥ, iₒ, jₒ])]⟩,
  -- line 657: amkl,klcd,bcdijm->abij
  ⟨-1/4, [g_abab [aᵥ, mₒ, kₒ, lₒ], l2_abab [kₒ, lₒ, cᵥ, dᵥ], t3_aabaab [bᵥ, cᵥ, dᵥ, iₒ, jₒ, mₒ]], [(1, [aᵥ, bᵥ, iₒ, jₒ]), (-1, [bᵥ, aᵥ, iₒ, jₒ])]⟩,
  -- line 661: amlk,lkdc,dbcijm->abij
  ⟨1/4, [g_abab [aᵥ, mₒ, lₒ, kₒ], l2_abab [lₒ, kₒ, dᵥ, cᵥ], t3_aabaab [dᵥ, bᵥ, cᵥ, iₒ, jₒ, mₒ]], [(1, [aᵥ, bᵥ, iₒ, jₒ]), (-1, [bᵥ, aᵥ, iₒ, jₒ])]⟩,
  -- line 665: amlk,lkcd,bcdijm->abij
  ⟨-1/4, [g_abab [aᵥ, mₒ, lₒ, kₒ], l2_abab [lₒ, kₒ, cᵥ, dᵥ], t3_aabaab [bᵥ, cᵥ, dᵥ, iₒ, jₒ, mₒ]], [(1, [aᵥ, bᵥ, iₒ, jₒ]), (-1, [bᵥ, aᵥ, iₒ, jₒ])]⟩,
  -- line 669: majl,kldc,dcbikm->abij
  ⟨-1/2, [g_aaaa [mₒ, aᵥ, jₒ, lₒ], l2_aaaa [kₒ, lₒ, dᵥ, cᵥ], t3_aaaaaa [dᵥ, cᵥ, bᵥ, iₒ, kₒ, mₒ]], [(1, [aᵥ, bᵥ, iₒ, jₒ]), (-1, [aᵥ, bᵥ, jₒ, iₒ]), (-1, [bᵥ, aᵥ, iₒ, jₒ]), (1, [bᵥ, aᵥ, jₒ, iₒ])]⟩,
  -- line 673: amjl,kldc,dbcikm->abij
  ⟨-1/2, [g_abab [aᵥ, mₒ, jₒ, lₒ], l2_abab [kₒ, lₒ, dᵥ, cᵥ], t3_aabaab [dᵥ, bᵥ, cᵥ, iₒ, kₒ, mₒ]], [(1, [aᵥ, bᵥ, iₒ, jₒ]), (-1, [aᵥ, bᵥ, jₒ, iₒ]), (-1, [bᵥ, aᵥ, iₒ, jₒ]), (1, [bᵥ, aᵥ, jₒ, iₒ])]⟩,
  -- line 677: amjl,klcd,bcdikm->abij
  ⟨1/2, [g_abab [aᵥ, mₒ, jₒ, lₒ], l2_abab [kₒ, lₒ, cᵥ, dᵥ], t3_aabaab [bᵥ, cᵥ, dᵥ, iₒ, kₒ, mₒ]], [(1, [aᵥ, bᵥ, iₒ, jₒ]), (-1, [aᵥ, bᵥ, jₒ, iₒ]), (-1, [bᵥ, aᵥ, iₒ, jₒ]), (1, [bᵥ, aᵥ, jₒ, iₒ])]⟩,
  -- line 681: majl,lkdc,dbcimk->abij
  ⟨1/2, [g_aaaa [mₒ, aᵥ, jₒ, lₒ], l2_abab [lₒ, kₒ, dᵥ, cᵥ], t3_aabaab [dᵥ, bᵥ, cᵥ, iₒ, mₒ, kₒ]], [(1, [aᵥ, bᵥ, iₒ, jₒ]), (-1, [aᵥ, bᵥ, jₒ, iₒ]), (-1, [bᵥ, aᵥ, iₒ, jₒ]), (1, [bᵥ, aᵥ, jₒ, iₒ])]⟩,
  -- line 685: majl,lkcd,bcdimk->abij
  ⟨-1/2, [g_aaaa [mₒ, aᵥ, jₒ, lₒ], l2_abab [lₒ, kₒ, cᵥ, dᵥ], t3_aabaab [bᵥ, cᵥ, dᵥ, iₒ, mₒ, kₒ]], [(1, [aᵥ, bᵥ, iₒ, jₒ]), (-1, [aᵥ, bᵥ, jₒ, iₒ]), (-1, [bᵥ, aᵥ, iₒ, jₒ]), (1, [bᵥ, aᵥ, jₒ, iₒ])]⟩,
  -- line 689: amjl,kldc,bcdikm->abij
  ⟨-1/2, [g_abab [aᵥ, mₒ, jₒ, lₒ], l2_bbbb [kₒ, lₒ, dᵥ, cᵥ], t3_abbabb [bᵥ, cᵥ, dᵥ, iₒ, kₒ, mₒ]], [(1, [aᵥ, bᵥ, iₒ, jₒ]), (-1, [aᵥ, bᵥ, jₒ, iₒ]), (-1, [bᵥ, aᵥ, iₒ, jₒ]), (1, [bᵥ, aᵥ, jₒ, iₒ])]⟩,
  -- line 693: maij,kldc,dcbklm->abij
  ⟨1/4, [g_aaaa [mₒ, aᵥ, iₒ, jₒ], l2_aaaa [kₒ, lₒ, dᵥ, cᵥ], t3_aaaaaa [dᵥ, cᵥ, bᵥ, kₒ, lₒ, mₒ]], [(1, [aᵥ, bᵥ, iₒ, jₒ]), (-1, [bᵥ, aᵥ, iₒ, jₒ])]⟩,
  -- line 697: maij,kldc,dbckml->abij
  ⟨1/4, [g_aaaa [mₒ, aᵥ, iₒ, jₒ], l2_abab [kₒ, lₒ, dᵥ, cᵥ], t3_aabaab [dᵥ, bᵥ, cᵥ, kₒ, mₒ, lₒ]], [(1, [aᵥ, bᵥ, iₒ, jₒ]), (-1, [bᵥ, aᵥ, iₒ, jₒ])]⟩,
  -- line 701: maij,klcd,bcdkml->abij
  ⟨-1/4, [g_aaaa [mₒ, aᵥ, iₒ, jₒ], l2_abab [kₒ, lₒ, cᵥ, dᵥ], t3_aabaab [bᵥ, cᵥ, dᵥ, kₒ, mₒ, lₒ]], [(1, [aᵥ, bᵥ, iₒ, jₒ]), (-1, [bᵥ, aᵥ, iₒ, jₒ])]⟩,
  -- line 705: maij,lkdc,dbcmlk->abij
  ⟨-1/4, [g_aaaa [mₒ, aᵥ, iₒ, jₒ], l2_abab [lₒ, kₒ, dᵥ, cᵥ], t3_aabaab [dᵥ, bᵥ, cᵥ, mₒ, lₒ, kₒ]], [(1, [aᵥ, bᵥ, iₒ, jₒ]), (-1, [bᵥ, aᵥ, iₒ, jₒ])]⟩,
  -- line 709: maij,lkcd,bcdmlk->abij
  ⟨1/4, [g_aaaa [mₒ, aᵥ, iₒ, jₒ], l2_abab [lₒ, kₒ, cᵥ, dᵥ], t3_aabaab [bᵥ, cᵥ, dᵥ, mₒ, lₒ, kₒ]], [(1, [aᵥ, bᵥ, iₒ, jₒ]), (-1, [bᵥ, aᵥ, iₒ, jₒ])]⟩,
  -- line 713: maij,kldc,bcdmlk->abij
  ⟨1/4, [g_aaaa [mₒ, aᵥ, iₒ, jₒ], l2_bbbb [kₒ, lₒ, dᵥ, cᵥ], t3_abbabb [bᵥ, cᵥ, dᵥ, mₒ, lₒ, kₒ]], [(1, [aᵥ, bᵥ, iₒ, jₒ]), (-1, [bᵥ, aᵥ, iₒ, jₒ])]⟩,
  -- line 717: dcel,kldc,eabijk->abij
  ⟨1/2, [g_aaaa [dᵥ, cᵥ, eᵥ, lₒ], l2_aaaa [kₒ, lₒ, dᵥ, cᵥ], t3_aaaaaa [eᵥ, aᵥ, bᵥ, iₒ, jₒ, kₒ]], [(1, [aᵥ, bᵥ, iₒ, jₒ])]⟩,
  -- line 720: dcel,kldc,eabijk->abij
  ⟨1/2, [g_abab [dᵥ, cᵥ, eᵥ, lₒ], l2_abab [kₒ, lₒ, dᵥ, cᵥ], t3_aaaaaa [eᵥ, aᵥ, bᵥ, iₒ, jₒ, kₒ]], [(1, [aᵥ, bᵥ, iₒ, jₒ])]⟩,
  -- line 723: cdel,klcd,eabijk->abij
  ⟨1/2, [g_abab [cᵥ, dᵥ, eᵥ, lₒ], l2_abab [kₒ, lₒ, cᵥ, dᵥ], t3_aaaaaa [eᵥ, aᵥ, bᵥ, iₒ, jₒ, kₒ]], [(1, [aᵥ, bᵥ, iₒ, jₒ])]⟩,
  -- line 726: dcle,lkdc,baeijk->abij
  ⟨-1/2, [g_abab [dᵥ, cᵥ, lₒ, eᵥ], l2_abab [lₒ, kₒ, dᵥ, cᵥ], t3_aabaab [bᵥ, aᵥ, eᵥ, iₒ, jₒ, kₒ]], [(1, [aᵥ, bᵥ, iₒ, jₒ])]⟩,
  -- line 729: cdle,lkcd,baeijk->abij
  ⟨-1/2, [g_abab [cᵥ, dᵥ, lₒ, eᵥ], l2_abab [lₒ, kₒ, cᵥ, dᵥ], t3_aabaab [bᵥ, aᵥ, eᵥ, iₒ, jₒ, kₒ]], [(1, [aᵥ, bᵥ, iₒ, jₒ])]⟩,
  -- line 732: dcel,kldc,baeijk->abij
  ⟨-1/2, [g_bbbb [dᵥ, cᵥ, eᵥ, lₒ], l2_bbbb [kₒ, lₒ, dᵥ, cᵥ], t3_aabaab [bᵥ, aᵥ, eᵥ, iₒ, jₒ, kₒ]], [(1, [aᵥ, bᵥ, iₒ, jₒ])]⟩,
  -- line 735: dcej,kldc,eabikl->abij
  ⟨1/4, [g_aaaa [dᵥ, cᵥ, eᵥ, jₒ], l2_aaaa [kₒ, lₒ, dᵥ, cᵥ], t3_aaaaaa [eᵥ, aᵥ, bᵥ, iₒ, kₒ, lₒ]], [(1, [aᵥ, bᵥ, iₒ, jₒ]), (-1, [aᵥ, bᵥ, jₒ, iₒ])]⟩,
  -- line 739: dcje,kldc,baeikl->abij
  ⟨1/4, [g_abab [dᵥ, cᵥ, jₒ, eᵥ], l2_abab [kₒ, lₒ, dᵥ, cᵥ], t3_aabaab [bᵥ, aᵥ, eᵥ, iₒ, kₒ, lₒ]], [(1, [aᵥ, bᵥ, iₒ, jₒ]), (-1, [aᵥ, bᵥ, jₒ, iₒ])]⟩,
  -- line 743: cdje,klcd,baeikl->abij
  ⟨1/4, [g_abab [cᵥ, dᵥ, jₒ, eᵥ], l2_abab [kₒ, lₒ, cᵥ, dᵥ], t3_aabaab [bᵥ, aᵥ, eᵥ, iₒ, kₒ, lₒ]], [(1, [aᵥ, bᵥ, iₒ, jₒ]), (-1, [aᵥ, bᵥ, jₒ, iₒ])]⟩,
  -- line 747: dcje,lkdc,baeilk->abij
  ⟨1/4, [g_abab [dᵥ, cᵥ, jₒ, eᵥ], l2_abab [lₒ, kₒ, dᵥ, cᵥ], t3_aabaab [bᵥ, aᵥ, eᵥ, iₒ, lₒ, kₒ]], [(1, [aᵥ, bᵥ, iₒ, jₒ]), (-1, [aᵥ, bᵥ, jₒ, iₒ])]⟩,
  -- line 751: cdje,lkcd,baeilk->abij
  ⟨1/4, [g_abab [cᵥ, dᵥ, jₒ, eᵥ], l2_abab [lₒ, kₒ, cᵥ, dᵥ], t3_aabaab [bᵥ, aᵥ, eᵥ, iₒ, lₒ, kₒ]], [(1, [aᵥ, bᵥ, iₒ, jₒ]), (-1, [aᵥ, bᵥ, jₒ, iₒ])]⟩,
  -- line 755: dael,kldc,ecbijk->abij
  ⟨-1, [g_aaaa [dᵥ, aᵥ, eᵥ, lₒ], l2_aaaa [kₒ, lₒ, dᵥ, cᵥ], t3_aaaaaa [eᵥ, cᵥ, bᵥ, iₒ, jₒ, kₒ]], [(1, [aᵥ, bᵥ, iₒ, jₒ]), (-1, [bᵥ, aᵥ, iₒ, jₒ])]⟩,
  -- line 759: adel,klcd,ecbijk->abij
  ⟨-1, [g_abab [aᵥ, dᵥ, eᵥ, lₒ], l2_abab [kₒ, lₒ, cᵥ, dᵥ], t3_aaaaaa [eᵥ, cᵥ, bᵥ, iₒ, jₒ, kₒ]], [(1, [aᵥ, bᵥ, iₒ, jₒ]), (-1, [bᵥ, aᵥ, iₒ, jₒ])]⟩,
  -- line 763: dael,lkdc,ebcijk->abij
  ⟨-1, [g_aaaa [dᵥ, aᵥ, eᵥ, lₒ], l2_abab [lₒ, kₒ, dᵥ, cᵥ], t3_aabaab [eᵥ, bᵥ, cᵥ, iₒ, jₒ, kₒ]], [(1, [aᵥ, bᵥ, iₒ, jₒ]), (-1, [bᵥ, aᵥ, iₒ, jₒ])]⟩,
  -- line 767: adle,lkcd,bceijk->abij
  ⟨1, [g_abab [aᵥ, dᵥ, lₒ, eᵥ], l2_abab [lₒ, kₒ, cᵥ, dᵥ], t3_aabaab [bᵥ, cᵥ, eᵥ, iₒ, jₒ, kₒ]], [(1, [aᵥ, bᵥ, iₒ, jₒ]), (-1, [bᵥ, aᵥ, iₒ, jₒ])]⟩,
  -- line 771: adel,kldc,ebcijk->abij
  ⟨-1, [g_abab [aᵥ, dᵥ, eᵥ, lₒ], l2_bbbb [kₒ, lₒ, dᵥ, cᵥ], t3_aabaab [eᵥ, bᵥ, cᵥ, iₒ, jₒ, kₒ]], [(1, [aᵥ, bᵥ, iₒ, jₒ]), (-1, [bᵥ, aᵥ, iₒ, jₒ])]⟩,
  -- line 775: daej,kldc,ecbikl->abij
  ⟨-1/2, [g_aaaa [dᵥ, aᵥ, eᵥ, jₒ], l2_aaaa [kₒ, lₒ, dᵥ, cᵥ], t3_aaaaaa [eᵥ, cᵥ, bᵥ, iₒ, kₒ, lₒ]], [(1, [aᵥ, bᵥ, iₒ, jₒ]), (-1, [aᵥ, bᵥ, jₒ, iₒ]), (-1, [bᵥ, aᵥ, iₒ, jₒ]), (1, [bᵥ, aᵥ, jₒ, iₒ])]⟩
  ]

/-- Part 5 of `test_t2_aaaa`. -/
def test_t2_aaaa_5 : Prog := [
  -- line 779: daej,kldc,ebcikl->abij
  ⟨1/2, [g_aaaa [dᵥ, aᵥ, eᵥ, jₒ], l2_abab [kₒ, lₒ, dᵥ, cᵥ], t3_aabaab [eᵥ, bᵥ, cᵥ, iₒ, kₒ, lₒ]], [(1, [aᵥ, bᵥ, iₒ, jₒ]), (-1, [aᵥ, bᵥ, jₒ, iₒ]), (-1, [bᵥ, aᵥ, iₒ, jₒ]), (1, [bᵥ, aᵥ, jₒ, iₒ])]⟩,
  -- line 783: adje,klcd,bceikl->abij
  ⟨-1/2, [g_abab [aᵥ, dᵥ, jₒ, eᵥ], l2_abab [kₒ, lₒ, cᵥ, dᵥ], t3_aabaab [bᵥ, cᵥ, eᵥ, iₒ, kₒ, lₒ]], [(1, [aᵥ, bᵥ, iₒ, jₒ]), (-1, [aᵥ, bᵥ, jₒ, iₒ]), (-1, [bᵥ, aᵥ, iₒ, jₒ]), (1, [bᵥ, aᵥ, jₒ, iₒ])]⟩,
  -- line 787: daej,lkdc,ebcilk->abij
  ⟨1/2, [g_aaaa [dᵥ, aᵥ, eᵥ, jₒ], l2_abab [lₒ, kₒ, dᵥ, cᵥ], t3_aabaab [eᵥ, bᵥ, cᵥ, iₒ, lₒ, kₒ]], [(1, [aᵥ, bᵥ, iₒ, jₒ]), (-1, [aᵥ, bᵥ, jₒ, iₒ]), (-1, [bᵥ, aᵥ, iₒ, jₒ]), (1, [bᵥ, aᵥ, jₒ, iₒ])]⟩,
  -- line 791: adje,lkcd,bceilk->abij
  ⟨-1/2, [g_abab [aᵥ, dᵥ, jₒ, eᵥ], l2_abab [lₒ, kₒ, cᵥ, dᵥ], t3_aabaab [bᵥ, cᵥ, eᵥ, iₒ, lₒ, kₒ]], [(1, [aᵥ, bᵥ, iₒ, jₒ]), (-1, [aᵥ, bᵥ, jₒ, iₒ]), (-1, [bᵥ, aᵥ, iₒ, jₒ]), (1, [bᵥ, aᵥ, jₒ, iₒ])]⟩,
  -- line 795: adje,kldc,bceikl->abij
  ⟨1/2, [g_abab [aᵥ, dᵥ, jₒ, eᵥ], l2_bbbb [kₒ, lₒ, dᵥ, cᵥ], t3_abbabb [bᵥ, cᵥ, eᵥ, iₒ, kₒ, lₒ]], [(1, [aᵥ, bᵥ, iₒ, jₒ]), (-1, [aᵥ, bᵥ, jₒ, iₒ]), (-1, [bᵥ, aᵥ, iₒ, jₒ]), (1, [bᵥ, aᵥ, jₒ, iₒ])]⟩,
  -- line 799: abel,kldc,edcijk->abij
  ⟨1/2, [g_aaaa [aᵥ, bᵥ, eᵥ, lₒ], l2_aaaa [kₒ, lₒ, dᵥ, cᵥ], t3_aaaaaa [eᵥ, dᵥ, cᵥ, iₒ, jₒ, kₒ]], [(1, [aᵥ, bᵥ, iₒ, jₒ])]⟩,
  -- line 802: abel,lkdc,edcijk->abij
  ⟨-1/2, [g_aaaa [aᵥ, bᵥ, eᵥ, lₒ], l2_abab [lₒ, kₒ, dᵥ, cᵥ], t3_aabaab [eᵥ, dᵥ, cᵥ, iₒ, jₒ, kₒ]], [(1, [aᵥ, bᵥ, iₒ, jₒ])]⟩,
  -- line 805: abel,lkcd,ecdijk->abij
  ⟨-1/2, [g_aaaa [aᵥ, bᵥ, eᵥ, lₒ], l2_abab [lₒ, kₒ, cᵥ, dᵥ], t3_aabaab [eᵥ, cᵥ, dᵥ, iₒ, jₒ, kₒ]], [(1, [aᵥ, bᵥ, iₒ, jₒ])]⟩,
  -- line 808: abej,kldc,edcikl->abij
  ⟨1/4, [g_aaaa [aᵥ, bᵥ, eᵥ, jₒ], l2_aaaa [kₒ, lₒ, dᵥ, cᵥ], t3_aaaaaa [eᵥ, dᵥ, cᵥ, iₒ, kₒ, lₒ]], [(1, [aᵥ, bᵥ, iₒ, jₒ]), (-1, [aᵥ, bᵥ, jₒ, iₒ])]⟩,
  -- line 812: abej,kldc,edcikl->abij
  ⟨1/4, [g_aaaa [aᵥ, bᵥ, eᵥ, jₒ], l2_abab [kₒ, lₒ, dᵥ, cᵥ], t3_aabaab [eᵥ, dᵥ, cᵥ, iₒ, kₒ, lₒ]], [(1, [aᵥ, bᵥ, iₒ, jₒ]), (-1, [aᵥ, bᵥ, jₒ, iₒ])]⟩,
  -- line 816: abej,klcd,ecdikl->abij
  ⟨1/4, [g_aaaa [aᵥ, bᵥ, eᵥ, jₒ], l2_abab [kₒ, lₒ, cᵥ, dᵥ], t3_aabaab [eᵥ, cᵥ, dᵥ, iₒ, kₒ, lₒ]], [(1, [aᵥ, bᵥ, iₒ, jₒ]), (-1, [aᵥ, bᵥ, jₒ, iₒ])]⟩,
  -- line 820: abej,lkdc,edcilk->abij
  ⟨1/4, [g_aaaa [aᵥ, bᵥ, eᵥ, jₒ], l2_abab [lₒ, kₒ, dᵥ, cᵥ], t3_aabaab [eᵥ, dᵥ, cᵥ, iₒ, lₒ, kₒ]], [(1, [aᵥ, bᵥ, iₒ, jₒ]), (-1, [aᵥ, bᵥ, jₒ, iₒ])]⟩,
  -- line 824: abej,lkcd,ecdilk->abij
  ⟨1/4, [g_aaaa [aᵥ, bᵥ, eᵥ, jₒ], l2_abab [lₒ, kₒ, cᵥ, dᵥ], t3_aabaab [eᵥ, cᵥ, dᵥ, iₒ, lₒ, kₒ]], [(1, [aᵥ, bᵥ, iₒ, jₒ]), (-1, [aᵥ, bᵥ, jₒ, iₒ])]⟩,
  -- line 828: abej,kldc,edcikl->abij
  ⟨1/4, [g_aaaa [aᵥ, bᵥ, eᵥ, jₒ], l2_bbbb [kₒ, lₒ, dᵥ, cᵥ], t3_abbabb [eᵥ, dᵥ, cᵥ, iₒ, kₒ, lₒ]], [(1, [aᵥ, bᵥ, iₒ, jₒ]), (-1, [aᵥ, bᵥ, jₒ, iₒ])]⟩
  ]

/-- `UT2/testing_modifyT2eqns_with_T4.py` 4-831, `ccsdt_t2_aaaa_residual_Qf`. -/
def test_t2_aaaa : Prog := test_t2_aaaa_0 ++ (test_t2_aaaa_1 ++ (test_t2_aaaa_2 ++ (test_t2_aaaa_3 ++ (test_t2_aaaa_4 ++ (test_t2_aaaa_5)))))

end Verif.Gen
