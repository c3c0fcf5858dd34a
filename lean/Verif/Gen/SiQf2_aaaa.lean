import Verif.Ein.Names
import Verif.Gen.Antisym

/-! Written by `/verif/tools/gen.py`. Programs read from `/repo/UT2`. -/

set_option maxRecDepth 100000

namespace Verif.Gen

open Verif.Ein Verif.Ein.N


/-- Part 0 of `residQf2_aaaa`. -/
def residQf2_aaaa_0 : Prog := [
  -- line 20: nmef,kldc,efkl,dcjm,abin->abij
  ⟨-1/8, [g_aaaa [nₒ, mₒ, eᵥ, fᵥ], l2_aaaa [kₒ, lₒ, dᵥ, cᵥ], t2_aaaa [eᵥ, fᵥ, kₒ, lₒ], t2_aaaa [dᵥ, cᵥ, jₒ, mₒ], t2_aaaa [aᵥ, bᵥ, iₒ, nₒ]], [(1, [aᵥ, bᵥ, iₒ, jₒ]), (-1, [aᵥ, bᵥ, jₒ, iₒ])]⟩,
  -- line 24: nmef,kldc,efkl,dcjm,abin->abij
  ⟨-1/8, [g_abab [nₒ, mₒ, eᵥ, fᵥ], l2_abab [kₒ, lₒ, dᵥ, cᵥ], t2_abab [eᵥ, fᵥ, kₒ, lₒ], t2_abab [dᵥ, cᵥ, jₒ, mₒ], t2_aaaa [aᵥ, bᵥ, iₒ, nₒ]], [(1, [aᵥ, bᵥ, iₒ, jₒ]), (-1, [aᵥ, bᵥ, jₒ, iₒ])]⟩,
  -- line 28: nmfe,kldc,fekl,dcjm,abin->abij
  ⟨-1/8, [g_abab [nₒ, mₒ, fᵥ, eᵥ], l2_abab [kₒ, lₒ, dᵥ, cᵥ], t2_abab [fᵥ, eᵥ, kₒ, lₒ], t2_abab [dᵥ, cᵥ, jₒ, mₒ], t2_aaaa [aᵥ, bᵥ, iₒ, nₒ]], [(1, [aᵥ, bᵥ, iₒ, jₒ]), (-1, [aᵥ, bᵥ, jₒ, iₒ])]⟩,
  -- line 32: nmef,klcd,efkl,cdjm,abin->abij
  ⟨-1/8, [g_abab [nₒ, mₒ, eᵥ, fᵥ], l2_abab [kₒ, lₒ, cᵥ, dᵥ], t2_abab [eᵥ, fᵥ, kₒ, lₒ], t2_abab [cᵥ, dᵥ, jₒ, mₒ], t2_aaaa [aᵥ, bᵥ, iₒ, nₒ]], [(1, [aᵥ, bᵥ, iₒ, jₒ]), (-1, [aᵥ, bᵥ, jₒ, iₒ])]⟩,
  -- line 36: nmfe,klcd,fekl,cdjm,abin->abij
  ⟨-1/8, [g_abab [nₒ, mₒ, fᵥ, eᵥ], l2_abab [kₒ, lₒ, cᵥ, dᵥ], t2_abab [fᵥ, eᵥ, kₒ, lₒ], t2_abab [cᵥ, dᵥ, jₒ, mₒ], t2_aaaa [aᵥ, bᵥ, iₒ, nₒ]], [(1, [aᵥ, bᵥ, iₒ, jₒ]), (-1, [aᵥ, bᵥ, jₒ, iₒ])]⟩,
  -- line 40: nmef,lkdc,eflk,dcjm,abin->abij
  ⟨-1/8, [g_abab [nₒ, mₒ, eᵥ, fᵥ], l2_abab [lₒ, kₒ, dᵥ, cᵥ], t2_abab [eᵥ, fᵥ, lₒ, kₒ], t2_abab [dᵥ, cᵥ, jₒ, mₒ], t2_aaaa [aᵥ, bᵥ, iₒ, nₒ]], [(1, [aᵥ, bᵥ, iₒ, jₒ]), (-1, [aᵥ, bᵥ, jₒ, iₒ])]⟩,
  -- line 44: nmfe,lkdc,felk,dcjm,abin->abij
  ⟨-1/8, [g_abab [nₒ, mₒ, fᵥ, eᵥ], l2_abab [lₒ, kₒ, dᵥ, cᵥ], t2_abab [fᵥ, eᵥ, lₒ, kₒ], t2_abab [dᵥ, cᵥ, jₒ, mₒ], t2_aaaa [aᵥ, bᵥ, iₒ, nₒ]], [(1, [aᵥ, bᵥ, iₒ, jₒ]), (-1, [aᵥ, bᵥ, jₒ, iₒ])]⟩,
  -- line 48: nmef,lkcd,eflk,cdjm,abin->abij
  ⟨-1/8, [g_abab [nₒ, mₒ, eᵥ, fᵥ], l2_abab [lₒ, kₒ, cᵥ, dᵥ], t2_abab [eᵥ, fᵥ, lₒ, kₒ], t2_abab [cᵥ, dᵥ, jₒ, mₒ], t2_aaaa [aᵥ, bᵥ, iₒ, nₒ]], [(1, [aᵥ, bᵥ, iₒ, jₒ]), (-1, [aᵥ, bᵥ, jₒ, iₒ])]⟩,
  -- line 52: nmfe,lkcd,felk,cdjm,abin->abij
  ⟨-1/8, [g_abab [nₒ, mₒ, fᵥ, eᵥ], l2_abab [lₒ, kₒ, cᵥ, dᵥ], t2_abab [fᵥ, eᵥ, lₒ, kₒ], t2_abab [cᵥ, dᵥ, jₒ, mₒ], t2_aaaa [aᵥ, bᵥ, iₒ, nₒ]], [(1, [aᵥ, bᵥ, iₒ, jₒ]), (-1, [aᵥ, bᵥ, jₒ, iₒ])]⟩,
  -- line 56: nmef,kldc,efkl,dajm,cbin->abij
  ⟨1/4, [g_aaaa [nₒ, mₒ, eᵥ, fᵥ], l2_aaaa [kₒ, lₒ, dᵥ, cᵥ], t2_aaaa [eᵥ, fᵥ, kₒ, lₒ], t2_aaaa [dᵥ, aᵥ, jₒ, mₒ], t2_aaaa [cᵥ, bᵥ, iₒ, nₒ]], [(1, [aᵥ, bᵥ, iₒ, jₒ]), (-1, [aᵥ, bᵥ, jₒ, iₒ])]⟩,
  -- line 60: mnef,kldc,efkl,dajm,bcin->abij
  ⟨1/4, [g_abab [mₒ, nₒ, eᵥ, fᵥ], l2_abab [kₒ, lₒ, dᵥ, cᵥ], t2_abab [eᵥ, fᵥ, kₒ, lₒ], t2_aaaa [dᵥ, aᵥ, jₒ, mₒ], t2_abab [bᵥ, cᵥ, iₒ, nₒ]], [(1, [aᵥ, bᵥ, iₒ, jₒ]), (-1, [aᵥ, bᵥ, jₒ, iₒ])]⟩,
  -- line 64: mnfe,kldc,fekl,dajm,bcin->abij
  ⟨1/4, [g_abab [mₒ, nₒ, fᵥ, eᵥ], l2_abab [kₒ, lₒ, dᵥ, cᵥ], t2_abab [fᵥ, eᵥ, kₒ, lₒ], t2_aaaa [dᵥ, aᵥ, jₒ, mₒ], t2_abab [bᵥ, cᵥ, iₒ, nₒ]], [(1, [aᵥ, bᵥ, iₒ, jₒ]), (-1, [aᵥ, bᵥ, jₒ, iₒ])]⟩,
  -- line 68: nmef,klcd,efkl,adjm,cbin->abij
  ⟨1/4, [g_abab [nₒ, mₒ, eᵥ, fᵥ], l2_abab [kₒ, lₒ, cᵥ, dᵥ], t2_abab [eᵥ, fᵥ, kₒ, lₒ], t2_abab [aᵥ, dᵥ, jₒ, mₒ], t2_aaaa [cᵥ, bᵥ, iₒ, nₒ]], [(1, [aᵥ, bᵥ, iₒ, jₒ]), (-1, [aᵥ, bᵥ, jₒ, iₒ])]⟩,
  -- line 72: nmfe,klcd,fekl,adjm,cbin->abij
  ⟨1/4, [g_abab [nₒ, mₒ, fᵥ, eᵥ], l2_abab [kₒ, lₒ, cᵥ, dᵥ], t2_abab [fᵥ, eᵥ, kₒ, lₒ], t2_abab [aᵥ, dᵥ, jₒ, mₒ], t2_aaaa [cᵥ, bᵥ, iₒ, nₒ]], [(1, [aᵥ, bᵥ, iₒ, jₒ]), (-1, [aᵥ, bᵥ, jₒ, iₒ])]⟩,
  -- line 76: mnef,lkdc,eflk,dajm,bcin->abij
  ⟨1/4, [g_abab [mₒ, nₒ, eᵥ, fᵥ], l2_abab [lₒ, kₒ, dᵥ, cᵥ], t2_abab [eᵥ, fᵥ, lₒ, kₒ], t2_aaaa [dᵥ, aᵥ, jₒ, mₒ], t2_abab [bᵥ, cᵥ, iₒ, nₒ]], [(1, [aᵥ, bᵥ, iₒ, jₒ]), (-1, [aᵥ, bᵥ, jₒ, iₒ])]⟩,
  -- line 80: mnfe,lkdc,felk,dajm,bcin->abij
  ⟨1/4, [g_abab [mₒ, nₒ, fᵥ, eᵥ], l2_abab [lₒ, kₒ, dᵥ, cᵥ], t2_abab [fᵥ, eᵥ, lₒ, kₒ], t2_aaaa [dᵥ, aᵥ, jₒ, mₒ], t2_abab [bᵥ, cᵥ, iₒ, nₒ]], [(1, [aᵥ, bᵥ, iₒ, jₒ]), (-1, [aᵥ, bᵥ, jₒ, iₒ])]⟩,
  -- line 84: nmef,lkcd,eflk,adjm,cbin->abij
  ⟨1/4, [g_abab [nₒ, mₒ, eᵥ, fᵥ], l2_abab [lₒ, kₒ, cᵥ, dᵥ], t2_abab [eᵥ, fᵥ, lₒ, kₒ], t2_abab [aᵥ, dᵥ, jₒ, mₒ], t2_aaaa [cᵥ, bᵥ, iₒ, nₒ]], [(1, [aᵥ, bᵥ, iₒ, jₒ]), (-1, [aᵥ, bᵥ, jₒ, iₒ])]⟩,
  -- line 88: nmfe,lkcd,felk,adjm,cbin->abij
  ⟨1/4, [g_abab [nₒ, mₒ, fᵥ, eᵥ], l2_abab [lₒ, kₒ, cᵥ, dᵥ], t2_abab [fᵥ, eᵥ, lₒ, kₒ], t2_abab [aᵥ, dᵥ, jₒ, mₒ], t2_aaaa [cᵥ, bᵥ, iₒ, nₒ]], [(1, [aᵥ, bᵥ, iₒ, jₒ]), (-1, [aᵥ, bᵥ, jₒ, iₒ])]⟩,
  -- line 92: nmef,kldc,efkl,adjm,bcin->abij
  ⟨1/4, [g_bbbb [nₒ, mₒ, eᵥ, fᵥ], l2_bbbb [kₒ, lₒ, dᵥ, cᵥ], t2_bbbb [eᵥ, fᵥ, kₒ, lₒ], t2_abab [aᵥ, dᵥ, jₒ, mₒ], t2_abab [bᵥ, cᵥ, iₒ, nₒ]], [(1, [aᵥ, bᵥ, iₒ, jₒ]), (-1, [aᵥ, bᵥ, jₒ, iₒ])]⟩,
  -- line 96: nmef,kldc,efjl,dckm,abin->abij
  ⟨1/4, [g_aaaa [nₒ, mₒ, eᵥ, fᵥ], l2_aaaa [kₒ, lₒ, dᵥ, cᵥ], t2_aaaa [eᵥ, fᵥ, jₒ, lₒ], t2_aaaa [dᵥ, cᵥ, kₒ, mₒ], t2_aaaa [aᵥ, bᵥ, iₒ, nₒ]], [(1, [aᵥ, bᵥ, iₒ, jₒ]), (-1, [aᵥ, bᵥ, jₒ, iₒ])]⟩,
  -- line 100: nmef,kldc,efjl,dckm,abin->abij
  ⟨1/4, [g_abab [nₒ, mₒ, eᵥ, fᵥ], l2_abab [kₒ, lₒ, dᵥ, cᵥ], t2_abab [eᵥ, fᵥ, jₒ, lₒ], t2_abab [dᵥ, cᵥ, kₒ, mₒ], t2_aaaa [aᵥ, bᵥ, iₒ, nₒ]], [(1, [aᵥ, bᵥ, iₒ, jₒ]), (-1, [aᵥ, bᵥ, jₒ, iₒ])]⟩,
  -- line 104: nmfe,kldc,fejl,dckm,abin->abij
  ⟨1/4, [g_abab [nₒ, mₒ, fᵥ, eᵥ], l2_abab [kₒ, lₒ, dᵥ, cᵥ], t2_abab [fᵥ, eᵥ, jₒ, lₒ], t2_abab [dᵥ, cᵥ, kₒ, mₒ], t2_aaaa [aᵥ, bᵥ, iₒ, nₒ]], [(1, [aᵥ, bᵥ, iₒ, jₒ]), (-1, [aᵥ, bᵥ, jₒ, iₒ])]⟩,
  -- line 108: nmef,klcd,efjl,cdkm,abin->abij
  ⟨1/4, [g_abab [nₒ, mₒ, eᵥ, fᵥ], l2_abab [kₒ, lₒ, cᵥ, dᵥ], t2_abab [eᵥ, fᵥ, jₒ, lₒ], t2_abab [cᵥ, dᵥ, kₒ, mₒ], t2_aaaa [aᵥ, bᵥ, iₒ, nₒ]], [(1, [aᵥ, bᵥ, iₒ, jₒ]), (-1, [aᵥ, bᵥ, jₒ, iₒ])]⟩,
  -- line 112: nmfe,klcd,fejl,cdkm,abin->abij
  ⟨1/4, [g_abab [nₒ, mₒ, fᵥ, eᵥ], l2_abab [kₒ, lₒ, cᵥ, dᵥ], t2_abab [fᵥ, eᵥ, jₒ, lₒ], t2_abab [cᵥ, dᵥ, kₒ, mₒ], t2_aaaa [aᵥ, bᵥ, iₒ, nₒ]], [(1, [aᵥ, bᵥ, iₒ, jₒ]), (-1, [aᵥ, bᵥ, jₒ, iₒ])]⟩,
  -- line 116: nmef,lkdc,efjl,dcmk,abin->abij
  ⟨1/4, [g_aaaa [nₒ, mₒ, eᵥ, fᵥ], l2_abab [lₒ, kₒ, dᵥ, cᵥ], t2_aaaa [eᵥ, fᵥ, jₒ, lₒ], t2_abab [dᵥ, cᵥ, mₒ, kₒ], t2_aaaa [aᵥ, bᵥ, iₒ, nₒ]], [(1, [aᵥ, bᵥ, iₒ, jₒ]), (-1, [aᵥ, bᵥ, jₒ, iₒ])]⟩,
  -- line 120: nmef,lkcd,efjl,cdmk,abin->abij
  ⟨1/4, [g_aaaa [nₒ, mₒ, eᵥ, fᵥ], l2_abab [lₒ, kₒ, cᵥ, dᵥ], t2_aaaa [eᵥ, fᵥ, jₒ, lₒ], t2_abab [cᵥ, dᵥ, mₒ, kₒ], t2_aaaa [aᵥ, bᵥ, iₒ, nₒ]], [(1, [aᵥ, bᵥ, iₒ, jₒ]), (-1, [aᵥ, bᵥ, jₒ, iₒ])]⟩,
  -- line 124: nmef,kldc,efjl,dckm,abin->abij
  ⟨1/4, [g_abab [nₒ, mₒ, eᵥ, fᵥ], l2_bbbb [kₒ, lₒ, dᵥ, cᵥ], t2_abab [eᵥ, fᵥ, jₒ, lₒ], t2_bbbb [dᵥ, cᵥ, kₒ, mₒ], t2_aaaa [aᵥ, bᵥ, iₒ, nₒ]], [(1, [aᵥ, bᵥ, iₒ, jₒ]), (-1, [aᵥ, bᵥ, jₒ, iₒ])]⟩,
  -- line 128: nmfe,kldc,fejl,dckm,abin->abij
  ⟨1/4, [g_abab [nₒ, mₒ, fᵥ, eᵥ], l2_bbbb [kₒ, lₒ, dᵥ, cᵥ], t2_abab [fᵥ, eᵥ, jₒ, lₒ], t2_bbbb [dᵥ, cᵥ, kₒ, mₒ], t2_aaaa [aᵥ, bᵥ, iₒ, nₒ]], [(1, [aᵥ, bᵥ, iₒ, jₒ]), (-1, [aᵥ, bᵥ, jₒ, iₒ])]⟩,
  -- line 132: nmef,kldc,efjl,dcim,abkn->abij
  ⟨-1/4, [g_aaaa [nₒ, mₒ, eᵥ, fᵥ], l2_aaaa [kₒ, lₒ, dᵥ, cᵥ], t2_aaaa [eᵥ, fᵥ, jₒ, lₒ], t2_aaaa [dᵥ, cᵥ, iₒ, mₒ], t2_aaaa [aᵥ, bᵥ, kₒ, nₒ]], [(1, [aᵥ, bᵥ, iₒ, jₒ]), (-1, [aᵥ, bᵥ, jₒ, iₒ])]⟩,
  -- line 136: nmef,kldc,efjl,dcim,abkn->abij
  ⟨-1/4, [g_abab [nₒ, mₒ, eᵥ, fᵥ], l2_abab [kₒ, lₒ, dᵥ, cᵥ], t2_abab [eᵥ, fᵥ, jₒ, lₒ], t2_abab [dᵥ, cᵥ, iₒ, mₒ], t2_aaaa [aᵥ, bᵥ, kₒ, nₒ]], [(1, [aᵥ, bᵥ, iₒ, jₒ]), (-1, [aᵥ, bᵥ, jₒ, iₒ])]⟩,
  -- line 140: nmfe,kldc,fejl,dcim,abkn->abij
  ⟨-1/4, [g_abab [nₒ, mₒ, fᵥ, eᵥ], l2_abab [kₒ, lₒ, dᵥ, cᵥ], t2_abab [fᵥ, eᵥ, jₒ, lₒ], t2_abab [dᵥ, cᵥ, iₒ, mₒ], t2_aaaa [aᵥ, bᵥ, kₒ, nₒ]], [(1, [aᵥ, bᵥ, iₒ, jₒ]), (-1, [aᵥ, bᵥ, jₒ, iₒ])]⟩,
  -- line 144: nmef,klcd,efjl,cdim,abkn->abij
  ⟨-1/4, [g_abab [nₒ, mₒ, eᵥ, fᵥ], l2_abab [kₒ, lₒ, cᵥ, dᵥ], t2_abab [eᵥ, fᵥ, jₒ, lₒ], t2_abab [cᵥ, dᵥ, iₒ, mₒ], t2_aaaa [aᵥ, bᵥ, kₒ, nₒ]], [(1, [aᵥ, bᵥ, iₒ, jₒ]), (-1, [aᵥ, bᵥ, jₒ, iₒ])]⟩,
  -- line 148: nmfe,klcd,fejl,cdim,abkn->abij
  ⟨-1/4, [g_abab [nₒ, mₒ, fᵥ, eᵥ], l2_abab [kₒ, lₒ, cᵥ, dᵥ], t2_abab [fᵥ, eᵥ, jₒ, lₒ], t2_abab [cᵥ, dᵥ, iₒ, mₒ], t2_aaaa [aᵥ, bᵥ, kₒ, nₒ]], [(1, [aᵥ, bᵥ, iₒ, jₒ]), (-1, [aᵥ, bᵥ, jₒ, iₒ])]⟩,
  -- line 152: nmef,kldc,efjl,dakm,cbin->abij
  ⟨-1/2, [g_aaaa [nₒ, mₒ, eᵥ, fᵥ], l2_aaaa [kₒ, lₒ, dᵥ, cᵥ], t2_aaaa [eᵥ, fᵥ, jₒ, lₒ], t2_aaaa [dᵥ, aᵥ, kₒ, mₒ], t2_aaaa [cᵥ, bᵥ, iₒ, nₒ]], [(1, [aᵥ, bᵥ, iₒ, jₒ]), (-1, [aᵥ, bᵥ, jₒ, iₒ])]⟩,
  -- line 156: mnef,kldc,efjl,dakm,bcin->abij
  ⟨-1/2, [g_abab [mₒ, nₒ, eᵥ, fᵥ], l2_abab [kₒ, lₒ, dᵥ, cᵥ], t2_abab [eᵥ, fᵥ, jₒ, lₒ], t2_aaaa [dᵥ, aᵥ, kₒ, mₒ], t2_abab [bᵥ, cᵥ, iₒ, nₒ]], [(1, [aᵥ, bᵥ, iₒ, jₒ]), (-1, [aᵥ, bᵥ, jₒ, iₒ])]⟩,
  -- line 160: mnfe,kldc,fejl,dakm,bcin->abij
  ⟨-1/2, [g_abab [mₒ, nₒ, fᵥ, eᵥ], l2_abab [kₒ, lₒ, dᵥ, cᵥ], t2_abab [fᵥ, eᵥ, jₒ, lₒ], t2_aaaa [dᵥ, aᵥ, kₒ, mₒ], t2_abab [bᵥ, cᵥ, iₒ, nₒ]], [(1, [aᵥ, bᵥ, iₒ, jₒ]), (-1, [aᵥ, bᵥ, jₒ, iₒ])]⟩,
  -- line 164: nmef,klcd,efjl,adkm,cbin->abij
  ⟨-1/2, [g_abab [nₒ, mₒ, eᵥ, fᵥ], l2_abab [kₒ, lₒ, cᵥ, dᵥ], t2_abab [eᵥ, fᵥ, jₒ, lₒ], t2_abab [aᵥ, dᵥ, kₒ, mₒ], t2_aaaa [cᵥ, bᵥ, iₒ, nₒ]], [(1, [aᵥ, bᵥ, iₒ, jₒ]), (-1, [aᵥ, bᵥ, jₒ, iₒ])]⟩,
  -- line 168: nmfe,klcd,fejl,adkm,cbin->abij
  ⟨-1/2, [g_abab [nₒ, mₒ, fᵥ, eᵥ], l2_abab [kₒ, lₒ, cᵥ, dᵥ], t2_abab [fᵥ, eᵥ, jₒ, lₒ], t2_abab [aᵥ, dᵥ, kₒ, mₒ], t2_aaaa [cᵥ, bᵥ, iₒ, nₒ]], [(1, [aᵥ, bᵥ, iₒ, jₒ]), (-1, [aᵥ, bᵥ, jₒ, iₒ])]⟩,
  -- line 172: nmef,lkcd,efjl,admk,cbin->abij
  ⟨-1/2, [g_aaaa [nₒ, mₒ, eᵥ, fᵥ], l2_abab [lₒ, kₒ, cᵥ, dᵥ], t2_aaaa [eᵥ, fᵥ, jₒ, lₒ], t2_abab [aᵥ, dᵥ, mₒ, kₒ], t2_aaaa [cᵥ, bᵥ, iₒ, nₒ]], [(1, [aᵥ, bᵥ, iₒ, jₒ]), (-1, [aᵥ, bᵥ, jₒ, iₒ])]⟩,
  -- line 176: mnef,kldc,efjl,admk,bcin->abij
  ⟨-1/2, [g_abab [mₒ, nₒ, eᵥ, fᵥ], l2_bbbb [kₒ, lₒ, dᵥ, cᵥ], t2_abab [eᵥ, fᵥ, jₒ, lₒ], t2_abab [aᵥ, dᵥ, mₒ, kₒ], t2_abab [bᵥ, cᵥ, iₒ, nₒ]], [(1, [aᵥ, bᵥ, iₒ, jₒ]), (-1, [aᵥ, bᵥ, jₒ, iₒ])]⟩
  ]

/-- Part 1 of `residQf2_aaaa`. -/
def residQf2_aaaa_1 : Prog := [
  -- line 180: mnfe,kldc,fejl,admk,bcin->abij
  ⟨-1/2, [g_abab [mₒ, nₒ, fᵥ, eᵥ], l2_bbbb [kₒ, lₒ, dᵥ, cᵥ], t2_abab [fᵥ, eᵥ, jₒ, lₒ], t2_abab [aᵥ, dᵥ, mₒ, kₒ], t2_abab [bᵥ, cᵥ, iₒ, nₒ]], [(1, [aᵥ, bᵥ, iₒ, jₒ]), (-1, [aᵥ, bᵥ, jₒ, iₒ])]⟩,
  -- line 184: nmef,kldc,efjl,daim,cbkn->abij
  ⟨1/2, [g_aaaa [nₒ, mₒ, eᵥ, fᵥ], l2_aaaa [kₒ, lₒ, dᵥ, cᵥ], t2_aaaa [eᵥ, fᵥ, jₒ, lₒ], t2_aaaa [dᵥ, aᵥ, iₒ, mₒ], t2_aaaa [cᵥ, bᵥ, kₒ, nₒ]], [(1, [aᵥ, bᵥ, iₒ, jₒ]), (-1, [aᵥ, bᵥ, jₒ, iₒ])]⟩,
  -- line 188: mnef,kldc,efjl,daim,bckn->abij
  ⟨1/2, [g_abab [mₒ, nₒ, eᵥ, fᵥ], l2_abab [kₒ, lₒ, dᵥ, cᵥ], t2_abab [eᵥ, fᵥ, jₒ, lₒ], t2_aaaa [dᵥ, aᵥ, iₒ, mₒ], t2_abab [bᵥ, cᵥ, kₒ, nₒ]], [(1, [aᵥ, bᵥ, iₒ, jₒ]), (-1, [aᵥ, bᵥ, jₒ, iₒ])]⟩,
  -- line 192: mnfe,kldc,fejl,daim,bckn->abij
  ⟨1/2, [g_abab [mₒ, nₒ, fᵥ, eᵥ], l2_abab [kₒ, lₒ, dᵥ, cᵥ], t2_abab [fᵥ, eᵥ, jₒ, lₒ], t2_aaaa [dᵥ, aᵥ, iₒ, mₒ], t2_abab [bᵥ, cᵥ, kₒ, nₒ]], [(1, [aᵥ, bᵥ, iₒ, jₒ]), (-1, [aᵥ, bᵥ, jₒ, iₒ])]⟩,
  -- line 196: nmef,klcd,efjl,adim,cbkn->abij
  ⟨1/2, [g_abab [nₒ, mₒ, eᵥ, fᵥ], l2_abab [kₒ, lₒ, cᵥ, dᵥ], t2_abab [eᵥ, fᵥ, jₒ, lₒ], t2_abab [aᵥ, dᵥ, iₒ, mₒ], t2_aaaa [cᵥ, bᵥ, kₒ, nₒ]], [(1, [aᵥ, bᵥ, iₒ, jₒ]), (-1, [aᵥ, bᵥ, jₒ, iₒ])]⟩,
  -- line 200: nmfe,klcd,fejl,adim,cbkn->abij
  ⟨1/2, [g_abab [nₒ, mₒ, fᵥ, eᵥ], l2_abab [kₒ, lₒ, cᵥ, dᵥ], t2_abab [fᵥ, eᵥ, jₒ, lₒ], t2_abab [aᵥ, dᵥ, iₒ, mₒ], t2_aaaa [cᵥ, bᵥ, kₒ, nₒ]], [(1, [aᵥ, bᵥ, iₒ, jₒ]), (-1, [aᵥ, bᵥ, jₒ, iₒ])]⟩,
  -- line 204: nmef,lkdc,efjl,daim,bcnk->abij
  ⟨-1/2, [g_aaaa [nₒ, mₒ, eᵥ, fᵥ], l2_abab [lₒ, kₒ, dᵥ, cᵥ], t2_aaaa [eᵥ, fᵥ, jₒ, lₒ], t2_aaaa [dᵥ, aᵥ, iₒ, mₒ], t2_abab [bᵥ, cᵥ, nₒ, kₒ]], [(1, [aᵥ, bᵥ, iₒ, jₒ]), (-1, [aᵥ, bᵥ, jₒ, iₒ])]⟩,
  -- line 208: nmef,kldc,efjl,adim,bcnk->abij
  ⟨-1/2, [g_abab [nₒ, mₒ, eᵥ, fᵥ], l2_bbbb [kₒ, lₒ, dᵥ, cᵥ], t2_abab [eᵥ, fᵥ, jₒ, lₒ], t2_abab [aᵥ, dᵥ, iₒ, mₒ], t2_abab [bᵥ, cᵥ, nₒ, kₒ]], [(1, [aᵥ, bᵥ, iₒ, jₒ]), (-1, [aᵥ, bᵥ, jₒ, iₒ])]⟩,
  -- line 212: nmfe,kldc,fejl,adim,bcnk->abij
  ⟨-1/2, [g_abab [nₒ, mₒ, fᵥ, eᵥ], l2_bbbb [kₒ, lₒ, dᵥ, cᵥ], t2_abab [fᵥ, eᵥ, jₒ, lₒ], t2_abab [aᵥ, dᵥ, iₒ, mₒ], t2_abab [bᵥ, cᵥ, nₒ, kₒ]], [(1, [aᵥ, bᵥ, iₒ, jₒ]), (-1, [aᵥ, bᵥ, jₒ, iₒ])]⟩,
  -- line 216: nmef,kldc,efij,dclm,abkn->abij
  ⟨-1/4, [g_aaaa [nₒ, mₒ, eᵥ, fᵥ], l2_aaaa [kₒ, lₒ, dᵥ, cᵥ], t2_aaaa [eᵥ, fᵥ, iₒ, jₒ], t2_aaaa [dᵥ, cᵥ, lₒ, mₒ], t2_aaaa [aᵥ, bᵥ, kₒ, nₒ]], [(1, [aᵥ, bᵥ, iₒ, jₒ])]⟩,
  -- line 219: nmef,kldc,efij,dcml,abkn->abij
  ⟨1/4, [g_aaaa [nₒ, mₒ, eᵥ, fᵥ], l2_abab [kₒ, lₒ, dᵥ, cᵥ], t2_aaaa [eᵥ, fᵥ, iₒ, jₒ], t2_abab [dᵥ, cᵥ, mₒ, lₒ], t2_aaaa [aᵥ, bᵥ, kₒ, nₒ]], [(1, [aᵥ, bᵥ, iₒ, jₒ])]⟩,
  -- line 222: nmef,klcd,efij,cdml,abkn->abij
  ⟨1/4, [g_aaaa [nₒ, mₒ, eᵥ, fᵥ], l2_abab [kₒ, lₒ, cᵥ, dᵥ], t2_aaaa [eᵥ, fᵥ, iₒ, jₒ], t2_abab [cᵥ, dᵥ, mₒ, lₒ], t2_aaaa [aᵥ, bᵥ, kₒ, nₒ]], [(1, [aᵥ, bᵥ, iₒ, jₒ])]⟩,
  -- line 225: nmef,kldc,efij,dalm,cbkn->abij
  ⟨1/4, [g_aaaa [nₒ, mₒ, eᵥ, fᵥ], l2_aaaa [kₒ, lₒ, dᵥ, cᵥ], t2_aaaa [eᵥ, fᵥ, iₒ, jₒ], t2_aaaa [dᵥ, aᵥ, lₒ, mₒ], t2_aaaa [cᵥ, bᵥ, kₒ, nₒ]], [(1, [aᵥ, bᵥ, iₒ, jₒ]), (-1, [bᵥ, aᵥ, iₒ, jₒ])]⟩,
  -- line 229: nmef,klcd,efij,adml,cbkn->abij
  ⟨-1/4, [g_aaaa [nₒ, mₒ, eᵥ, fᵥ], l2_abab [kₒ, lₒ, cᵥ, dᵥ], t2_aaaa [eᵥ, fᵥ, iₒ, jₒ], t2_abab [aᵥ, dᵥ, mₒ, lₒ], t2_aaaa [cᵥ, bᵥ, kₒ, nₒ]], [(1, [aᵥ, bᵥ, iₒ, jₒ]), (-1, [bᵥ, aᵥ, iₒ, jₒ])]⟩,
  -- line 233: nmef,lkdc,efij,dalm,bcnk->abij
  ⟨-1/4, [g_aaaa [nₒ, mₒ, eᵥ, fᵥ], l2_abab [lₒ, kₒ, dᵥ, cᵥ], t2_aaaa [eᵥ, fᵥ, iₒ, jₒ], t2_aaaa [dᵥ, aᵥ, lₒ, mₒ], t2_abab [bᵥ, cᵥ, nₒ, kₒ]], [(1, [aᵥ, bᵥ, iₒ, jₒ]), (-1, [bᵥ, aᵥ, iₒ, jₒ])]⟩,
  -- line 237: nmef,kldc,efij,adml,bcnk->abij
  ⟨1/4, [g_aaaa [nₒ, mₒ, eᵥ, fᵥ], l2_bbbb [kₒ, lₒ, dᵥ, cᵥ], t2_aaaa [eᵥ, fᵥ, iₒ, jₒ], t2_abab [aᵥ, dᵥ, mₒ, lₒ], t2_abab [bᵥ, cᵥ, nₒ, kₒ]], [(1, [aᵥ, bᵥ, iₒ, jₒ]), (-1, [bᵥ, aᵥ, iₒ, jₒ])]⟩,
  -- line 241: nmef,kldc,edlm,fcjk,abin->abij
  ⟨1/2, [g_aaaa [nₒ, mₒ, eᵥ, fᵥ], l2_aaaa [kₒ, lₒ, dᵥ, cᵥ], t2_aaaa [eᵥ, dᵥ, lₒ, mₒ], t2_aaaa [fᵥ, cᵥ, jₒ, kₒ], t2_aaaa [aᵥ, bᵥ, iₒ, nₒ]], [(1, [aᵥ, bᵥ, iₒ, jₒ]), (-1, [aᵥ, bᵥ, jₒ, iₒ])]⟩,
  -- line 245: nmfe,kldc,delm,fcjk,abin->abij
  ⟨1/2, [g_abab [nₒ, mₒ, fᵥ, eᵥ], l2_aaaa [kₒ, lₒ, dᵥ, cᵥ], t2_abab [dᵥ, eᵥ, lₒ, mₒ], t2_aaaa [fᵥ, cᵥ, jₒ, kₒ], t2_aaaa [aᵥ, bᵥ, iₒ, nₒ]], [(1, [aᵥ, bᵥ, iₒ, jₒ]), (-1, [aᵥ, bᵥ, jₒ, iₒ])]⟩,
  -- line 249: nmef,klcd,edml,fcjk,abin->abij
  ⟨1/2, [g_aaaa [nₒ, mₒ, eᵥ, fᵥ], l2_abab [kₒ, lₒ, cᵥ, dᵥ], t2_abab [eᵥ, dᵥ, mₒ, lₒ], t2_aaaa [fᵥ, cᵥ, jₒ, kₒ], t2_aaaa [aᵥ, bᵥ, iₒ, nₒ]], [(1, [aᵥ, bᵥ, iₒ, jₒ]), (-1, [aᵥ, bᵥ, jₒ, iₒ])]⟩,
  -- line 253: nmfe,klcd,edlm,fcjk,abin->abij
  ⟨1/2, [g_abab [nₒ, mₒ, fᵥ, eᵥ], l2_abab [kₒ, lₒ, cᵥ, dᵥ], t2_bbbb [eᵥ, dᵥ, lₒ, mₒ], t2_aaaa [fᵥ, cᵥ, jₒ, kₒ], t2_aaaa [aᵥ, bᵥ, iₒ, nₒ]], [(1, [aᵥ, bᵥ, iₒ, jₒ]), (-1, [aᵥ, bᵥ, jₒ, iₒ])]⟩,
  -- line 257: nmef,lkdc,edlm,fcjk,abin->abij
  ⟨-1/2, [g_aaaa [nₒ, mₒ, eᵥ, fᵥ], l2_abab [lₒ, kₒ, dᵥ, cᵥ], t2_aaaa [eᵥ, dᵥ, lₒ, mₒ], t2_abab [fᵥ, cᵥ, jₒ, kₒ], t2_aaaa [aᵥ, bᵥ, iₒ, nₒ]], [(1, [aᵥ, bᵥ, iₒ, jₒ]), (-1, [aᵥ, bᵥ, jₒ, iₒ])]⟩,
  -- line 261: nmfe,lkdc,delm,fcjk,abin->abij
  ⟨-1/2, [g_abab [nₒ, mₒ, fᵥ, eᵥ], l2_abab [lₒ, kₒ, dᵥ, cᵥ], t2_abab [dᵥ, eᵥ, lₒ, mₒ], t2_abab [fᵥ, cᵥ, jₒ, kₒ], t2_aaaa [aᵥ, bᵥ, iₒ, nₒ]], [(1, [aᵥ, bᵥ, iₒ, jₒ]), (-1, [aᵥ, bᵥ, jₒ, iₒ])]⟩,
  -- line 265: nmef,lkcd,edlm,cfjk,abin->abij
  ⟨-1/2, [g_abab [nₒ, mₒ, eᵥ, fᵥ], l2_abab [lₒ, kₒ, cᵥ, dᵥ], t2_abab [eᵥ, dᵥ, lₒ, mₒ], t2_abab [cᵥ, fᵥ, jₒ, kₒ], t2_aaaa [aᵥ, bᵥ, iₒ, nₒ]], [(1, [aᵥ, bᵥ, iₒ, jₒ]), (-1, [aᵥ, bᵥ, jₒ, iₒ])]⟩,
  -- line 269: nmef,kldc,edml,fcjk,abin->abij
  ⟨-1/2, [g_aaaa [nₒ, mₒ, eᵥ, fᵥ], l2_bbbb [kₒ, lₒ, dᵥ, cᵥ], t2_abab [eᵥ, dᵥ, mₒ, lₒ], t2_abab [fᵥ, cᵥ, jₒ, kₒ], t2_aaaa [aᵥ, bᵥ, iₒ, nₒ]], [(1, [aᵥ, bᵥ, iₒ, jₒ]), (-1, [aᵥ, bᵥ, jₒ, iₒ])]⟩,
  -- line 273: nmfe,kldc,edlm,fcjk,abin->abij
  ⟨-1/2, [g_abab [nₒ, mₒ, fᵥ, eᵥ], l2_bbbb [kₒ, lₒ, dᵥ, cᵥ], t2_bbbb [eᵥ, dᵥ, lₒ, mₒ], t2_abab [fᵥ, cᵥ, jₒ, kₒ], t2_aaaa [aᵥ, bᵥ, iₒ, nₒ]], [(1, [aᵥ, bᵥ, iₒ, jₒ]), (-1, [aᵥ, bᵥ, jₒ, iₒ])]⟩,
  -- line 277: nmef,kldc,edlm,fcij,abkn->abij
  ⟨1, [g_aaaa [nₒ, mₒ, eᵥ, fᵥ], l2_aaaa [kₒ, lₒ, dᵥ, cᵥ], t2_aaaa [eᵥ, dᵥ, lₒ, mₒ], t2_aaaa [fᵥ, cᵥ, iₒ, jₒ], t2_aaaa [aᵥ, bᵥ, kₒ, nₒ]], [(1, [aᵥ, bᵥ, iₒ, jₒ])]⟩,
  -- line 280: nmfe,kldc,delm,fcij,abkn->abij
  ⟨1, [g_abab [nₒ, mₒ, fᵥ, eᵥ], l2_aaaa [kₒ, lₒ, dᵥ, cᵥ], t2_abab [dᵥ, eᵥ, lₒ, mₒ], t2_aaaa [fᵥ, cᵥ, iₒ, jₒ], t2_aaaa [aᵥ, bᵥ, kₒ, nₒ]], [(1, [aᵥ, bᵥ, iₒ, jₒ])]⟩,
  -- line 283: nmef,klcd,edml,fcij,abkn->abij
  ⟨1, [g_aaaa [nₒ, mₒ, eᵥ, fᵥ], l2_abab [kₒ, lₒ, cᵥ, dᵥ], t2_abab [eᵥ, dᵥ, mₒ, lₒ], t2_aaaa [fᵥ, cᵥ, iₒ, jₒ], t2_aaaa [aᵥ, bᵥ, kₒ, nₒ]], [(1, [aᵥ, bᵥ, iₒ, jₒ])]⟩,
  -- line 286: nmfe,klcd,edlm,fcij,abkn->abij
  ⟨1, [g_abab [nₒ, mₒ, fᵥ, eᵥ], l2_abab [kₒ, lₒ, cᵥ, dᵥ], t2_bbbb [eᵥ, dᵥ, lₒ, mₒ], t2_aaaa [fᵥ, cᵥ, iₒ, jₒ], t2_aaaa [aᵥ, bᵥ, kₒ, nₒ]], [(1, [aᵥ, bᵥ, iₒ, jₒ])]⟩,
  -- line 289: nmef,kldc,edlm,fajk,cbin->abij
  ⟨-3/4, [g_aaaa [nₒ, mₒ, eᵥ, fᵥ], l2_aaaa [kₒ, lₒ, dᵥ, cᵥ], t2_aaaa [eᵥ, dᵥ, lₒ, mₒ], t2_aaaa [fᵥ, aᵥ, jₒ, kₒ], t2_aaaa [cᵥ, bᵥ, iₒ, nₒ]], [(1, [aᵥ, bᵥ, iₒ, jₒ]), (-1, [aᵥ, bᵥ, jₒ, iₒ]), (-1, [bᵥ, aᵥ, iₒ, jₒ]), (1, [bᵥ, aᵥ, jₒ, iₒ])]⟩,
  -- line 293: nmfe,kldc,delm,fajk,cbin->abij
  ⟨-3/4, [g_abab [nₒ, mₒ, fᵥ, eᵥ], l2_aaaa [kₒ, lₒ, dᵥ, cᵥ], t2_abab [dᵥ, eᵥ, lₒ, mₒ], t2_aaaa [fᵥ, aᵥ, jₒ, kₒ], t2_aaaa [cᵥ, bᵥ, iₒ, nₒ]], [(1, [aᵥ, bᵥ, iₒ, jₒ]), (-1, [aᵥ, bᵥ, jₒ, iₒ]), (-1, [bᵥ, aᵥ, iₒ, jₒ]), (1, [bᵥ, aᵥ, jₒ, iₒ])]⟩,
  -- line 297: mnfe,kldc,deml,fajk,bcin->abij
  ⟨3/4, [g_abab [mₒ, nₒ, fᵥ, eᵥ], l2_abab [kₒ, lₒ, dᵥ, cᵥ], t2_abab [dᵥ, eᵥ, mₒ, lₒ], t2_aaaa [fᵥ, aᵥ, jₒ, kₒ], t2_abab [bᵥ, cᵥ, iₒ, nₒ]], [(1, [aᵥ, bᵥ, iₒ, jₒ]), (-1, [aᵥ, bᵥ, jₒ, iₒ]), (-1, [bᵥ, aᵥ, iₒ, jₒ]), (1, [bᵥ, aᵥ, jₒ, iₒ])]⟩,
  -- line 301: nmef,klcd,edml,fajk,cbin->abij
  ⟨-3/4, [g_aaaa [nₒ, mₒ, eᵥ, fᵥ], l2_abab [kₒ, lₒ, cᵥ, dᵥ], t2_abab [eᵥ, dᵥ, mₒ, lₒ], t2_aaaa [fᵥ, aᵥ, jₒ, kₒ], t2_aaaa [cᵥ, bᵥ, iₒ, nₒ]], [(1, [aᵥ, bᵥ, iₒ, jₒ]), (-1, [aᵥ, bᵥ, jₒ, iₒ]), (-1, [bᵥ, aᵥ, iₒ, jₒ]), (1, [bᵥ, aᵥ, jₒ, iₒ])]⟩,
  -- line 305: nmfe,klcd,edlm,fajk,cbin->abij
  ⟨-3/4, [g_abab [nₒ, mₒ, fᵥ, eᵥ], l2_abab [kₒ, lₒ, cᵥ, dᵥ], t2_bbbb [eᵥ, dᵥ, lₒ, mₒ], t2_aaaa [fᵥ, aᵥ, jₒ, kₒ], t2_aaaa [cᵥ, bᵥ, iₒ, nₒ]], [(1, [aᵥ, bᵥ, iₒ, jₒ]), (-1, [aᵥ, bᵥ, jₒ, iₒ]), (-1, [bᵥ, aᵥ, iₒ, jₒ]), (1, [bᵥ, aᵥ, jₒ, iₒ])]⟩,
  -- line 309: mnef,lkdc,edlm,afjk,bcin->abij
  ⟨-3/4, [g_abab [mₒ, nₒ, eᵥ, fᵥ], l2_abab [lₒ, kₒ, dᵥ, cᵥ], t2_aaaa [eᵥ, dᵥ, lₒ, mₒ], t2_abab [aᵥ, fᵥ, jₒ, kₒ], t2_abab [bᵥ, cᵥ, iₒ, nₒ]], [(1, [aᵥ, bᵥ, iₒ, jₒ]), (-1, [aᵥ, bᵥ, jₒ, iₒ]), (-1, [bᵥ, aᵥ, iₒ, jₒ]), (1, [bᵥ, aᵥ, jₒ, iₒ])]⟩,
  -- line 313: nmef,lkdc,delm,afjk,bcin->abij
  ⟨-3/4, [g_bbbb [nₒ, mₒ, eᵥ, fᵥ], l2_abab [lₒ, kₒ, dᵥ, cᵥ], t2_abab [dᵥ, eᵥ, lₒ, mₒ], t2_abab [aᵥ, fᵥ, jₒ, kₒ], t2_abab [bᵥ, cᵥ, iₒ, nₒ]], [(1, [aᵥ, bᵥ, iₒ, jₒ]), (-1, [aᵥ, bᵥ, jₒ, iₒ]), (-1, [bᵥ, aᵥ, iₒ, jₒ]), (1, [bᵥ, aᵥ, jₒ, iₒ])]⟩,
  -- line 317: nmef,lkcd,edlm,afjk,cbin->abij
  ⟨3/4, [g_abab [nₒ, mₒ, eᵥ, fᵥ], l2_abab [lₒ, kₒ, cᵥ, dᵥ], t2_abab [eᵥ, dᵥ, lₒ, mₒ], t2_abab [aᵥ, fᵥ, jₒ, kₒ], t2_aaaa [cᵥ, bᵥ, iₒ, nₒ]], [(1, [aᵥ, bᵥ, iₒ, jₒ]), (-1, [aᵥ, bᵥ, jₒ, iₒ]), (-1, [bᵥ, aᵥ, iₒ, jₒ]), (1, [bᵥ, aᵥ, jₒ, iₒ])]⟩,
  -- line 321: mnef,kldc,edml,afjk,bcin->abij
  ⟨-3/4, [g_abab [mₒ, nₒ, eᵥ, fᵥ], l2_bbbb [kₒ, lₒ, dᵥ, cᵥ], t2_abab [eᵥ, dᵥ, mₒ, lₒ], t2_abab [aᵥ, fᵥ, jₒ, kₒ], t2_abab [bᵥ, cᵥ, iₒ, nₒ]], [(1, [aᵥ, bᵥ, iₒ, jₒ]), (-1, [aᵥ, bᵥ, jₒ, iₒ]), (-1, [bᵥ, aᵥ, iₒ, jₒ]), (1, [bᵥ, aᵥ, jₒ, iₒ])]⟩,
  -- line 325: nmef,kldc,edlm,afjk,bcin->abij
  ⟨-3/4, [g_bbbb [nₒ, mₒ, eᵥ, fᵥ], l2_bbbb [kₒ, lₒ, dᵥ, cᵥ], t2_bbbb [eᵥ, dᵥ, lₒ, mₒ], t2_abab [aᵥ, fᵥ, jₒ, kₒ], t2_abab [bᵥ, cᵥ, iₒ, nₒ]], [(1, [aᵥ, bᵥ, iₒ, jₒ]), (-1, [aᵥ, bᵥ, jₒ, iₒ]), (-1, [bᵥ, aᵥ, iₒ, jₒ]), (1, [bᵥ, aᵥ, jₒ, iₒ])]⟩,
  -- line 329: nmef,kldc,edlm,faij,cbkn->abij
  ⟨-1, [g_aaaa [nₒ, mₒ, eᵥ, fᵥ], l2_aaaa [kₒ, lₒ, dᵥ, cᵥ], t2_aaaa [eᵥ, dᵥ, lₒ, mₒ], t2_aaaa [fᵥ, aᵥ, iₒ, jₒ], t2_aaaa [cᵥ, bᵥ, kₒ, nₒ]], [(1, [aᵥ, bᵥ, iₒ, jₒ]), (-1, [bᵥ, aᵥ, iₒ, jₒ])]⟩
  ]

/-- Part 2 of `residQf2_aaaa`. -/
def residQf2_aaaa_2 : Prog := [
  -- line 333: nmfe,kldc,delm,faij,cbkn->abij
  ⟨-1, [g_abab [nₒ, mₒ, fᵥ, eᵥ], l2_aaaa [kₒ, lₒ, dᵥ, cᵥ], t2_abab [dᵥ, eᵥ, lₒ, mₒ], t2_aaaa [fᵥ, aᵥ, iₒ, jₒ], t2_aaaa [cᵥ, bᵥ, kₒ, nₒ]], [(1, [aᵥ, bᵥ, iₒ, jₒ]), (-1, [bᵥ, aᵥ, iₒ, jₒ])]⟩,
  -- line 337: mnfe,kldc,deml,faij,bckn->abij
  ⟨1, [g_abab [mₒ, nₒ, fᵥ, eᵥ], l2_abab [kₒ, lₒ, dᵥ, cᵥ], t2_abab [dᵥ, eᵥ, mₒ, lₒ], t2_aaaa [fᵥ, aᵥ, iₒ, jₒ], t2_abab [bᵥ, cᵥ, kₒ, nₒ]], [(1, [aᵥ, bᵥ, iₒ, jₒ]), (-1, [bᵥ, aᵥ, iₒ, jₒ])]⟩,
  -- line 341: nmef,klcd,edml,faij,cbkn->abij
  ⟨-1, [g_aaaa [nₒ, mₒ, eᵥ, fᵥ], l2_abab [kₒ, lₒ, cᵥ, dᵥ], t2_abab [eᵥ, dᵥ, mₒ, lₒ], t2_aaaa [fᵥ, aᵥ, iₒ, jₒ], t2_aaaa [cᵥ, bᵥ, kₒ, nₒ]], [(1, [aᵥ, bᵥ, iₒ, jₒ]), (-1, [bᵥ, aᵥ, iₒ, jₒ])]⟩,
  -- line 345: nmfe,klcd,edlm,faij,cbkn->abij
  ⟨-1, [g_abab [nₒ, mₒ, fᵥ, eᵥ], l2_abab [kₒ, lₒ, cᵥ, dᵥ], t2_bbbb [eᵥ, dᵥ, lₒ, mₒ], t2_aaaa [fᵥ, aᵥ, iₒ, jₒ], t2_aaaa [cᵥ, bᵥ, kₒ, nₒ]], [(1, [aᵥ, bᵥ, iₒ, jₒ]), (-1, [bᵥ, aᵥ, iₒ, jₒ])]⟩,
  -- line 349: nmef,lkdc,edlm,faij,bcnk->abij
  ⟨1, [g_aaaa [nₒ, mₒ, eᵥ, fᵥ], l2_abab [lₒ, kₒ, dᵥ, cᵥ], t2_aaaa [eᵥ, dᵥ, lₒ, mₒ], t2_aaaa [fᵥ, aᵥ, iₒ, jₒ], t2_abab [bᵥ, cᵥ, nₒ, kₒ]], [(1, [aᵥ, bᵥ, iₒ, jₒ]), (-1, [bᵥ, aᵥ, iₒ, jₒ])]⟩,
  -- line 353: nmfe,lkdc,delm,faij,bcnk->abij
  ⟨1, [g_abab [nₒ, mₒ, fᵥ, eᵥ], l2_abab [lₒ, kₒ, dᵥ, cᵥ], t2_abab [dᵥ, eᵥ, lₒ, mₒ], t2_aaaa [fᵥ, aᵥ, iₒ, jₒ], t2_abab [bᵥ, cᵥ, nₒ, kₒ]], [(1, [aᵥ, bᵥ, iₒ, jₒ]), (-1, [bᵥ, aᵥ, iₒ, jₒ])]⟩,
  -- line 357: nmef,kldc,edml,faij,bcnk->abij
  ⟨1, [g_aaaa [nₒ, mₒ, eᵥ, fᵥ], l2_bbbb [kₒ, lₒ, dᵥ, cᵥ], t2_abab [eᵥ, dᵥ, mₒ, lₒ], t2_aaaa [fᵥ, aᵥ, iₒ, jₒ], t2_abab [bᵥ, cᵥ, nₒ, kₒ]], [(1, [aᵥ, bᵥ, iₒ, jₒ]), (-1, [bᵥ, aᵥ, iₒ, jₒ])]⟩,
  -- line 361: nmfe,kldc,edlm,faij,bcnk->abij
  ⟨1, [g_abab [nₒ, mₒ, fᵥ, eᵥ], l2_bbbb [kₒ, lₒ, dᵥ, cᵥ], t2_bbbb [eᵥ, dᵥ, lₒ, mₒ], t2_aaaa [fᵥ, aᵥ, iₒ, jₒ], t2_abab [bᵥ, cᵥ, nₒ, kₒ]], [(1, [aᵥ, bᵥ, iₒ, jₒ]), (-1, [bᵥ, aᵥ, iₒ, jₒ])]⟩,
  -- line 365: nmef,kldc,edjm,fckl,abin->abij
  ⟨1/2, [g_aaaa [nₒ, mₒ, eᵥ, fᵥ], l2_aaaa [kₒ, lₒ, dᵥ, cᵥ], t2_aaaa [eᵥ, dᵥ, jₒ, mₒ], t2_aaaa [fᵥ, cᵥ, kₒ, lₒ], t2_aaaa [aᵥ, bᵥ, iₒ, nₒ]], [(1, [aᵥ, bᵥ, iₒ, jₒ]), (-1, [aᵥ, bᵥ, jₒ, iₒ])]⟩,
  -- line 369: nmfe,kldc,dejm,fckl,abin->abij
  ⟨1/2, [g_abab [nₒ, mₒ, fᵥ, eᵥ], l2_aaaa [kₒ, lₒ, dᵥ, cᵥ], t2_abab [dᵥ, eᵥ, jₒ, mₒ], t2_aaaa [fᵥ, cᵥ, kₒ, lₒ], t2_aaaa [aᵥ, bᵥ, iₒ, nₒ]], [(1, [aᵥ, bᵥ, iₒ, jₒ]), (-1, [aᵥ, bᵥ, jₒ, iₒ])]⟩,
  -- line 373: nmef,kldc,edjm,fckl,abin->abij
  ⟨1/2, [g_aaaa [nₒ, mₒ, eᵥ, fᵥ], l2_abab [kₒ, lₒ, dᵥ, cᵥ], t2_aaaa [eᵥ, dᵥ, jₒ, mₒ], t2_abab [fᵥ, cᵥ, kₒ, lₒ], t2_aaaa [aᵥ, bᵥ, iₒ, nₒ]], [(1, [aᵥ, bᵥ, iₒ, jₒ]), (-1, [aᵥ, bᵥ, jₒ, iₒ])]⟩,
  -- line 377: nmfe,kldc,dejm,fckl,abin->abij
  ⟨1/2, [g_abab [nₒ, mₒ, fᵥ, eᵥ], l2_abab [kₒ, lₒ, dᵥ, cᵥ], t2_abab [dᵥ, eᵥ, jₒ, mₒ], t2_abab [fᵥ, cᵥ, kₒ, lₒ], t2_aaaa [aᵥ, bᵥ, iₒ, nₒ]], [(1, [aᵥ, bᵥ, iₒ, jₒ]), (-1, [aᵥ, bᵥ, jₒ, iₒ])]⟩,
  -- line 381: nmef,klcd,edjm,cfkl,abin->abij
  ⟨1/2, [g_abab [nₒ, mₒ, eᵥ, fᵥ], l2_abab [kₒ, lₒ, cᵥ, dᵥ], t2_abab [eᵥ, dᵥ, jₒ, mₒ], t2_abab [cᵥ, fᵥ, kₒ, lₒ], t2_aaaa [aᵥ, bᵥ, iₒ, nₒ]], [(1, [aᵥ, bᵥ, iₒ, jₒ]), (-1, [aᵥ, bᵥ, jₒ, iₒ])]⟩,
  -- line 385: nmef,lkdc,edjm,fclk,abin->abij
  ⟨1/2, [g_aaaa [nₒ, mₒ, eᵥ, fᵥ], l2_abab [lₒ, kₒ, dᵥ, cᵥ], t2_aaaa [eᵥ, dᵥ, jₒ, mₒ], t2_abab [fᵥ, cᵥ, lₒ, kₒ], t2_aaaa [aᵥ, bᵥ, iₒ, nₒ]], [(1, [aᵥ, bᵥ, iₒ, jₒ]), (-1, [aᵥ, bᵥ, jₒ, iₒ])]⟩,
  -- line 389: nmfe,lkdc,dejm,fclk,abin->abij
  ⟨1/2, [g_abab [nₒ, mₒ, fᵥ, eᵥ], l2_abab [lₒ, kₒ, dᵥ, cᵥ], t2_abab [dᵥ, eᵥ, jₒ, mₒ], t2_abab [fᵥ, cᵥ, lₒ, kₒ], t2_aaaa [aᵥ, bᵥ, iₒ, nₒ]], [(1, [aᵥ, bᵥ, iₒ, jₒ]), (-1, [aᵥ, bᵥ, jₒ, iₒ])]⟩,
  -- line 393: nmef,lkcd,edjm,cflk,abin->abij
  ⟨1/2, [g_abab [nₒ, mₒ, eᵥ, fᵥ], l2_abab [lₒ, kₒ, cᵥ, dᵥ], t2_abab [eᵥ, dᵥ, jₒ, mₒ], t2_abab [cᵥ, fᵥ, lₒ, kₒ], t2_aaaa [aᵥ, bᵥ, iₒ, nₒ]], [(1, [aᵥ, bᵥ, iₒ, jₒ]), (-1, [aᵥ, bᵥ, jₒ, iₒ])]⟩,
  -- line 397: nmef,kldc,edjm,fckl,abin->abij
  ⟨1/2, [g_abab [nₒ, mₒ, eᵥ, fᵥ], l2_bbbb [kₒ, lₒ, dᵥ, cᵥ], t2_abab [eᵥ, dᵥ, jₒ, mₒ], t2_bbbb [fᵥ, cᵥ, kₒ, lₒ], t2_aaaa [aᵥ, bᵥ, iₒ, nₒ]], [(1, [aᵥ, bᵥ, iₒ, jₒ]), (-1, [aᵥ, bᵥ, jₒ, iₒ])]⟩,
  -- line 401: nmef,kldc,edjm,fcil,abkn->abij
  ⟨-1, [g_aaaa [nₒ, mₒ, eᵥ, fᵥ], l2_aaaa [kₒ, lₒ, dᵥ, cᵥ], t2_aaaa [eᵥ, dᵥ, jₒ, mₒ], t2_aaaa [fᵥ, cᵥ, iₒ, lₒ], t2_aaaa [aᵥ, bᵥ, kₒ, nₒ]], [(1, [aᵥ, bᵥ, iₒ, jₒ]), (-1, [aᵥ, bᵥ, jₒ, iₒ])]⟩,
  -- line 405: nmfe,kldc,dejm,fcil,abkn->abij
  ⟨-1, [g_abab [nₒ, mₒ, fᵥ, eᵥ], l2_aaaa [kₒ, lₒ, dᵥ, cᵥ], t2_abab [dᵥ, eᵥ, jₒ, mₒ], t2_aaaa [fᵥ, cᵥ, iₒ, lₒ], t2_aaaa [aᵥ, bᵥ, kₒ, nₒ]], [(1, [aᵥ, bᵥ, iₒ, jₒ]), (-1, [aᵥ, bᵥ, jₒ, iₒ])]⟩,
  -- line 409: nmef,kldc,edjm,fcil,abkn->abij
  ⟨-1, [g_aaaa [nₒ, mₒ, eᵥ, fᵥ], l2_abab [kₒ, lₒ, dᵥ, cᵥ], t2_aaaa [eᵥ, dᵥ, jₒ, mₒ], t2_abab [fᵥ, cᵥ, iₒ, lₒ], t2_aaaa [aᵥ, bᵥ, kₒ, nₒ]], [(1, [aᵥ, bᵥ, iₒ, jₒ]), (-1, [aᵥ, bᵥ, jₒ, iₒ])]⟩,
  -- line 413: nmfe,kldc,dejm,fcil,abkn->abij
  ⟨-1, [g_abab [nₒ, mₒ, fᵥ, eᵥ], l2_abab [kₒ, lₒ, dᵥ, cᵥ], t2_abab [dᵥ, eᵥ, jₒ, mₒ], t2_abab [fᵥ, cᵥ, iₒ, lₒ], t2_aaaa [aᵥ, bᵥ, kₒ, nₒ]], [(1, [aᵥ, bᵥ, iₒ, jₒ]), (-1, [aᵥ, bᵥ, jₒ, iₒ])]⟩,
  -- line 417: nmef,klcd,edjm,cfil,abkn->abij
  ⟨-1, [g_abab [nₒ, mₒ, eᵥ, fᵥ], l2_abab [kₒ, lₒ, cᵥ, dᵥ], t2_abab [eᵥ, dᵥ, jₒ, mₒ], t2_abab [cᵥ, fᵥ, iₒ, lₒ], t2_aaaa [aᵥ, bᵥ, kₒ, nₒ]], [(1, [aᵥ, bᵥ, iₒ, jₒ]), (-1, [aᵥ, bᵥ, jₒ, iₒ])]⟩,
  -- line 421: nmef,kldc,edjm,fakl,cbin->abij
  ⟨-1/2, [g_aaaa [nₒ, mₒ, eᵥ, fᵥ], l2_aaaa [kₒ, lₒ, dᵥ, cᵥ], t2_aaaa [eᵥ, dᵥ, jₒ, mₒ], t2_aaaa [fᵥ, aᵥ, kₒ, lₒ], t2_aaaa [cᵥ, bᵥ, iₒ, nₒ]], [(1, [aᵥ, bᵥ, iₒ, jₒ]), (-1, [aᵥ, bᵥ, jₒ, iₒ]), (-1, [bᵥ, aᵥ, iₒ, jₒ]), (1, [bᵥ, aᵥ, jₒ, iₒ])]⟩,
  -- line 425: nmfe,kldc,dejm,fakl,cbin->abij
  ⟨-1/2, [g_abab [nₒ, mₒ, fᵥ, eᵥ], l2_aaaa [kₒ, lₒ, dᵥ, cᵥ], t2_abab [dᵥ, eᵥ, jₒ, mₒ], t2_aaaa [fᵥ, aᵥ, kₒ, lₒ], t2_aaaa [cᵥ, bᵥ, iₒ, nₒ]], [(1, [aᵥ, bᵥ, iₒ, jₒ]), (-1, [aᵥ, bᵥ, jₒ, iₒ]), (-1, [bᵥ, aᵥ, iₒ, jₒ]), (1, [bᵥ, aᵥ, jₒ, iₒ])]⟩,
  -- line 429: mnef,kldc,edjm,afkl,bcin->abij
  ⟨1/2, [g_abab [mₒ, nₒ, eᵥ, fᵥ], l2_abab [kₒ, lₒ, dᵥ, cᵥ], t2_aaaa [eᵥ, dᵥ, jₒ, mₒ], t2_abab [aᵥ, fᵥ, kₒ, lₒ], t2_abab [bᵥ, cᵥ, iₒ, nₒ]], [(1, [aᵥ, bᵥ, iₒ, jₒ]), (-1, [aᵥ, bᵥ, jₒ, iₒ]), (-1, [bᵥ, aᵥ, iₒ, jₒ]), (1, [bᵥ, aᵥ, jₒ, iₒ])]⟩,
  -- line 433: nmef,kldc,dejm,afkl,bcin->abij
  ⟨1/2, [g_bbbb [nₒ, mₒ, eᵥ, fᵥ], l2_abab [kₒ, lₒ, dᵥ, cᵥ], t2_abab [dᵥ, eᵥ, jₒ, mₒ], t2_abab [aᵥ, fᵥ, kₒ, lₒ], t2_abab [bᵥ, cᵥ, iₒ, nₒ]], [(1, [aᵥ, bᵥ, iₒ, jₒ]), (-1, [aᵥ, bᵥ, jₒ, iₒ]), (-1, [bᵥ, aᵥ, iₒ, jₒ]), (1, [bᵥ, aᵥ, jₒ, iₒ])]⟩,
  -- line 437: nmef,klcd,edjm,afkl,cbin->abij
  ⟨-1/2, [g_abab [nₒ, mₒ, eᵥ, fᵥ], l2_abab [kₒ, lₒ, cᵥ, dᵥ], t2_abab [eᵥ, dᵥ, jₒ, mₒ], t2_abab [aᵥ, fᵥ, kₒ, lₒ], t2_aaaa [cᵥ, bᵥ, iₒ, nₒ]], [(1, [aᵥ, bᵥ, iₒ, jₒ]), (-1, [aᵥ, bᵥ, jₒ, iₒ]), (-1, [bᵥ, aᵥ, iₒ, jₒ]), (1, [bᵥ, aᵥ, jₒ, iₒ])]⟩,
  -- line 441: mnef,lkdc,edjm,aflk,bcin->abij
  ⟨1/2, [g_abab [mₒ, nₒ, eᵥ, fᵥ], l2_abab [lₒ, kₒ, dᵥ, cᵥ], t2_aaaa [eᵥ, dᵥ, jₒ, mₒ], t2_abab [aᵥ, fᵥ, lₒ, kₒ], t2_abab [bᵥ, cᵥ, iₒ, nₒ]], [(1, [aᵥ, bᵥ, iₒ, jₒ]), (-1, [aᵥ, bᵥ, jₒ, iₒ]), (-1, [bᵥ, aᵥ, iₒ, jₒ]), (1, [bᵥ, aᵥ, jₒ, iₒ])]⟩,
  -- line 445: nmef,lkdc,dejm,aflk,bcin->abij
  ⟨1/2, [g_bbbb [nₒ, mₒ, eᵥ, fᵥ], l2_abab [lₒ, kₒ, dᵥ, cᵥ], t2_abab [dᵥ, eᵥ, jₒ, mₒ], t2_abab [aᵥ, fᵥ, lₒ, kₒ], t2_abab [bᵥ, cᵥ, iₒ, nₒ]], [(1, [aᵥ, bᵥ, iₒ, jₒ]), (-1, [aᵥ, bᵥ, jₒ, iₒ]), (-1, [bᵥ, aᵥ, iₒ, jₒ]), (1, [bᵥ, aᵥ, jₒ, iₒ])]⟩,
  -- line 449: nmef,lkcd,edjm,aflk,cbin->abij
  ⟨-1/2, [g_abab [nₒ, mₒ, eᵥ, fᵥ], l2_abab [lₒ, kₒ, cᵥ, dᵥ], t2_abab [eᵥ, dᵥ, jₒ, mₒ], t2_abab [aᵥ, fᵥ, lₒ, kₒ], t2_aaaa [cᵥ, bᵥ, iₒ, nₒ]], [(1, [aᵥ, bᵥ, iₒ, jₒ]), (-1, [aᵥ, bᵥ, jₒ, iₒ]), (-1, [bᵥ, aᵥ, iₒ, jₒ]), (1, [bᵥ, aᵥ, jₒ, iₒ])]⟩,
  -- line 453: nmef,kldc,edjm,fail,cbkn->abij
  ⟨1, [g_aaaa [nₒ, mₒ, eᵥ, fᵥ], l2_aaaa [kₒ, lₒ, dᵥ, cᵥ], t2_aaaa [eᵥ, dᵥ, jₒ, mₒ], t2_aaaa [fᵥ, aᵥ, iₒ, lₒ], t2_aaaa [cᵥ, bᵥ, kₒ, nₒ]], [(1, [aᵥ, bᵥ, iₒ, jₒ]), (-1, [aᵥ, bᵥ, jₒ, iₒ]), (-1, [bᵥ, aᵥ, iₒ, jₒ]), (1, [bᵥ, aᵥ, jₒ, iₒ])]⟩,
  -- line 457: nmfe,kldc,dejm,fail,cbkn->abij
  ⟨1, [g_abab [nₒ, mₒ, fᵥ, eᵥ], l2_aaaa [kₒ, lₒ, dᵥ, cᵥ], t2_abab [dᵥ, eᵥ, jₒ, mₒ], t2_aaaa [fᵥ, aᵥ, iₒ, lₒ], t2_aaaa [cᵥ, bᵥ, kₒ, nₒ]], [(1, [aᵥ, bᵥ, iₒ, jₒ]), (-1, [aᵥ, bᵥ, jₒ, iₒ]), (-1, [bᵥ, aᵥ, iₒ, jₒ]), (1, [bᵥ, aᵥ, jₒ, iₒ])]⟩,
  -- line 461: mnef,kldc,edjm,afil,bckn->abij
  ⟨-1, [g_abab [mₒ, nₒ, eᵥ, fᵥ], l2_abab [kₒ, lₒ, dᵥ, cᵥ], t2_aaaa [eᵥ, dᵥ, jₒ, mₒ], t2_abab [aᵥ, fᵥ, iₒ, lₒ], t2_abab [bᵥ, cᵥ, kₒ, nₒ]], [(1, [aᵥ, bᵥ, iₒ, jₒ]), (-1, [aᵥ, bᵥ, jₒ, iₒ]), (-1, [bᵥ, aᵥ, iₒ, jₒ]), (1, [bᵥ, aᵥ, jₒ, iₒ])]⟩,
  -- line 465: nmef,kldc,dejm,afil,bckn->abij
  ⟨-1, [g_bbbb [nₒ, mₒ, eᵥ, fᵥ], l2_abab [kₒ, lₒ, dᵥ, cᵥ], t2_abab [dᵥ, eᵥ, jₒ, mₒ], t2_abab [aᵥ, fᵥ, iₒ, lₒ], t2_abab [bᵥ, cᵥ, kₒ, nₒ]], [(1, [aᵥ, bᵥ, iₒ, jₒ]), (-1, [aᵥ, bᵥ, jₒ, iₒ]), (-1, [bᵥ, aᵥ, iₒ, jₒ]), (1, [bᵥ, aᵥ, jₒ, iₒ])]⟩,
  -- line 469: nmef,klcd,edjm,afil,cbkn->abij
  ⟨1, [g_abab [nₒ, mₒ, eᵥ, fᵥ], l2_abab [kₒ, lₒ, cᵥ, dᵥ], t2_abab [eᵥ, dᵥ, jₒ, mₒ], t2_abab [aᵥ, fᵥ, iₒ, lₒ], t2_aaaa [cᵥ, bᵥ, kₒ, nₒ]], [(1, [aᵥ, bᵥ, iₒ, jₒ]), (-1, [aᵥ, bᵥ, jₒ, iₒ]), (-1, [bᵥ, aᵥ, iₒ, jₒ]), (1, [bᵥ, aᵥ, jₒ, iₒ])]⟩,
  -- line 473: nmef,lkdc,edjm,fail,bcnk->abij
  ⟨-1, [g_aaaa [nₒ, mₒ, eᵥ, fᵥ], l2_abab [lₒ, kₒ, dᵥ, cᵥ], t2_aaaa [eᵥ, dᵥ, jₒ, mₒ], t2_aaaa [fᵥ, aᵥ, iₒ, lₒ], t2_abab [bᵥ, cᵥ, nₒ, kₒ]], [(1, [aᵥ, bᵥ, iₒ, jₒ]), (-1, [aᵥ, bᵥ, jₒ, iₒ]), (-1, [bᵥ, aᵥ, iₒ, jₒ]), (1, [bᵥ, aᵥ, jₒ, iₒ])]⟩,
  -- line 477: nmfe,lkdc,dejm,fail,bcnk->abij
  ⟨-1, [g_abab [nₒ, mₒ, fᵥ, eᵥ], l2_abab [lₒ, kₒ, dᵥ, cᵥ], t2_abab [dᵥ, eᵥ, jₒ, mₒ], t2_aaaa [fᵥ, aᵥ, iₒ, lₒ], t2_abab [bᵥ, cᵥ, nₒ, kₒ]], [(1, [aᵥ, bᵥ, iₒ, jₒ]), (-1, [aᵥ, bᵥ, jₒ, iₒ]), (-1, [bᵥ, aᵥ, iₒ, jₒ]), (1, [bᵥ, aᵥ, jₒ, iₒ])]⟩,
  -- line 481: nmef,kldc,edjm,afil,bcnk->abij
  ⟨-1, [g_abab [nₒ, mₒ, eᵥ, fᵥ], l2_bbbb [kₒ, lₒ, dᵥ, cᵥ], t2_abab [eᵥ, dᵥ, jₒ, mₒ], t2_abab [aᵥ, fᵥ, iₒ, lₒ], t2_abab [bᵥ, cᵥ, nₒ, kₒ]], [(1, [aᵥ, bᵥ, iₒ, jₒ]), (-1, [aᵥ, bᵥ, jₒ, iₒ]), (-1, [bᵥ, aᵥ, iₒ, jₒ]), (1, [bᵥ, aᵥ, jₒ, iₒ])]⟩,
  -- line 485: nmef,kldc,edkl,fcij,abnm->abij
  ⟨-1/4, [g_aaaa [nₒ, mₒ, eᵥ, fᵥ], l2_aaaa [kₒ, lₒ, dᵥ, cᵥ], t2_aaaa [eᵥ, dᵥ, kₒ, lₒ], t2_aaaa [fᵥ, cᵥ, iₒ, jₒ], t2_aaaa [aᵥ, bᵥ, nₒ, mₒ]], [(1, [aᵥ, bᵥ, iₒ, jₒ])]⟩,
  -- line 488: nmef,klcd,edkl,fcij,abnm->abij
  ⟨1/4, [g_aaaa [nₒ, mₒ, eᵥ, fᵥ], l2_abab [kₒ, lₒ, cᵥ, dᵥ], t2_abab [eᵥ, dᵥ, kₒ, lₒ], t2_aaaa [fᵥ, cᵥ, iₒ, jₒ], t2_aaaa [aᵥ, bᵥ, nₒ, mₒ]], [(1, [aᵥ, bᵥ, iₒ, jₒ])]⟩
  ]

/-- Part 3 of `residQf2_aaaa`. -/
def residQf2_aaaa_3 : Prog := [
  -- line 491: nmef,lkcd,edlk,fcij,abnm->abij
  ⟨1/4, [g_aaaa [nₒ, mₒ, eᵥ, fᵥ], l2_abab [lₒ, kₒ, cᵥ, dᵥ], t2_abab [eᵥ, dᵥ, lₒ, kₒ], t2_aaaa [fᵥ, cᵥ, iₒ, jₒ], t2_aaaa [aᵥ, bᵥ, nₒ, mₒ]], [(1, [aᵥ, bᵥ, iₒ, jₒ])]⟩,
  -- line 494: nmef,kldc,edkl,fajm,cbin->abij
  ⟨-1/2, [g_aaaa [nₒ, mₒ, eᵥ, fᵥ], l2_aaaa [kₒ, lₒ, dᵥ, cᵥ], t2_aaaa [eᵥ, dᵥ, kₒ, lₒ], t2_aaaa [fᵥ, aᵥ, jₒ, mₒ], t2_aaaa [cᵥ, bᵥ, iₒ, nₒ]], [(1, [aᵥ, bᵥ, iₒ, jₒ]), (-1, [aᵥ, bᵥ, jₒ, iₒ]), (-1, [bᵥ, aᵥ, iₒ, jₒ]), (1, [bᵥ, aᵥ, jₒ, iₒ])]⟩,
  -- line 498: nmef,kldc,edkl,afjm,cbin->abij
  ⟨1/2, [g_abab [nₒ, mₒ, eᵥ, fᵥ], l2_aaaa [kₒ, lₒ, dᵥ, cᵥ], t2_aaaa [eᵥ, dᵥ, kₒ, lₒ], t2_abab [aᵥ, fᵥ, jₒ, mₒ], t2_aaaa [cᵥ, bᵥ, iₒ, nₒ]], [(1, [aᵥ, bᵥ, iₒ, jₒ]), (-1, [aᵥ, bᵥ, jₒ, iₒ]), (-1, [bᵥ, aᵥ, iₒ, jₒ]), (1, [bᵥ, aᵥ, jₒ, iₒ])]⟩,
  -- line 502: mnfe,kldc,dekl,fajm,bcin->abij
  ⟨-1/2, [g_abab [mₒ, nₒ, fᵥ, eᵥ], l2_abab [kₒ, lₒ, dᵥ, cᵥ], t2_abab [dᵥ, eᵥ, kₒ, lₒ], t2_aaaa [fᵥ, aᵥ, jₒ, mₒ], t2_abab [bᵥ, cᵥ, iₒ, nₒ]], [(1, [aᵥ, bᵥ, iₒ, jₒ]), (-1, [aᵥ, bᵥ, jₒ, iₒ]), (-1, [bᵥ, aᵥ, iₒ, jₒ]), (1, [bᵥ, aᵥ, jₒ, iₒ])]⟩,
  -- line 506: nmef,kldc,dekl,afjm,bcin->abij
  ⟨1/2, [g_bbbb [nₒ, mₒ, eᵥ, fᵥ], l2_abab [kₒ, lₒ, dᵥ, cᵥ], t2_abab [dᵥ, eᵥ, kₒ, lₒ], t2_abab [aᵥ, fᵥ, jₒ, mₒ], t2_abab [bᵥ, cᵥ, iₒ, nₒ]], [(1, [aᵥ, bᵥ, iₒ, jₒ]), (-1, [aᵥ, bᵥ, jₒ, iₒ]), (-1, [bᵥ, aᵥ, iₒ, jₒ]), (1, [bᵥ, aᵥ, jₒ, iₒ])]⟩,
  -- line 510: nmef,klcd,edkl,fajm,cbin->abij
  ⟨1/2, [g_aaaa [nₒ, mₒ, eᵥ, fᵥ], l2_abab [kₒ, lₒ, cᵥ, dᵥ], t2_abab [eᵥ, dᵥ, kₒ, lₒ], t2_aaaa [fᵥ, aᵥ, jₒ, mₒ], t2_aaaa [cᵥ, bᵥ, iₒ, nₒ]], [(1, [aᵥ, bᵥ, iₒ, jₒ]), (-1, [aᵥ, bᵥ, jₒ, iₒ]), (-1, [bᵥ, aᵥ, iₒ, jₒ]), (1, [bᵥ, aᵥ, jₒ, iₒ])]⟩,
  -- line 514: nmef,klcd,edkl,afjm,cbin->abij
  ⟨-1/2, [g_abab [nₒ, mₒ, eᵥ, fᵥ], l2_abab [kₒ, lₒ, cᵥ, dᵥ], t2_abab [eᵥ, dᵥ, kₒ, lₒ], t2_abab [aᵥ, fᵥ, jₒ, mₒ], t2_aaaa [cᵥ, bᵥ, iₒ, nₒ]], [(1, [aᵥ, bᵥ, iₒ, jₒ]), (-1, [aᵥ, bᵥ, jₒ, iₒ]), (-1, [bᵥ, aᵥ, iₒ, jₒ]), (1, [bᵥ, aᵥ, jₒ, iₒ])]⟩,
  -- line 518: mnfe,lkdc,delk,fajm,bcin->abij
  ⟨-1/2, [g_abab [mₒ, nₒ, fᵥ, eᵥ], l2_abab [lₒ, kₒ, dᵥ, cᵥ], t2_abab [dᵥ, eᵥ, lₒ, kₒ], t2_aaaa [fᵥ, aᵥ, jₒ, mₒ], t2_abab [bᵥ, cᵥ, iₒ, nₒ]], [(1, [aᵥ, bᵥ, iₒ, jₒ]), (-1, [aᵥ, bᵥ, jₒ, iₒ]), (-1, [bᵥ, aᵥ, iₒ, jₒ]), (1, [bᵥ, aᵥ, jₒ, iₒ])]⟩,
  -- line 522: nmef,lkdc,delk,afjm,bcin->abij
  ⟨1/2, [g_bbbb [nₒ, mₒ, eᵥ, fᵥ], l2_abab [lₒ, kₒ, dᵥ, cᵥ], t2_abab [dᵥ, eᵥ, lₒ, kₒ], t2_abab [aᵥ, fᵥ, jₒ, mₒ], t2_abab [bᵥ, cᵥ, iₒ, nₒ]], [(1, [aᵥ, bᵥ, iₒ, jₒ]), (-1, [aᵥ, bᵥ, jₒ, iₒ]), (-1, [bᵥ, aᵥ, iₒ, jₒ]), (1, [bᵥ, aᵥ, jₒ, iₒ])]⟩,
  -- line 526: nmef,lkcd,edlk,fajm,cbin->abij
  ⟨1/2, [g_aaaa [nₒ, mₒ, eᵥ, fᵥ], l2_abab [lₒ, kₒ, cᵥ, dᵥ], t2_abab [eᵥ, dᵥ, lₒ, kₒ], t2_aaaa [fᵥ, aᵥ, jₒ, mₒ], t2_aaaa [cᵥ, bᵥ, iₒ, nₒ]], [(1, [aᵥ, bᵥ, iₒ, jₒ]), (-1, [aᵥ, bᵥ, jₒ, iₒ]), (-1, [bᵥ, aᵥ, iₒ, jₒ]), (1, [bᵥ, aᵥ, jₒ, iₒ])]⟩,
  -- line 530: nmef,lkcd,edlk,afjm,cbin->abij
  ⟨-1/2, [g_abab [nₒ, mₒ, eᵥ, fᵥ], l2_abab [lₒ, kₒ, cᵥ, dᵥ], t2_abab [eᵥ, dᵥ, lₒ, kₒ], t2_abab [aᵥ, fᵥ, jₒ, mₒ], t2_aaaa [cᵥ, bᵥ, iₒ, nₒ]], [(1, [aᵥ, bᵥ, iₒ, jₒ]), (-1, [aᵥ, bᵥ, jₒ, iₒ]), (-1, [bᵥ, aᵥ, iₒ, jₒ]), (1, [bᵥ, aᵥ, jₒ, iₒ])]⟩,
  -- line 534: mnfe,kldc,edkl,fajm,bcin->abij
  ⟨1/2, [g_abab [mₒ, nₒ, fᵥ, eᵥ], l2_bbbb [kₒ, lₒ, dᵥ, cᵥ], t2_bbbb [eᵥ, dᵥ, kₒ, lₒ], t2_aaaa [fᵥ, aᵥ, jₒ, mₒ], t2_abab [bᵥ, cᵥ, iₒ, nₒ]], [(1, [aᵥ, bᵥ, iₒ, jₒ]), (-1, [aᵥ, bᵥ, jₒ, iₒ]), (-1, [bᵥ, aᵥ, iₒ, jₒ]), (1, [bᵥ, aᵥ, jₒ, iₒ])]⟩,
  -- line 538: nmef,kldc,edkl,afjm,bcin->abij
  ⟨-1/2, [g_bbbb [nₒ, mₒ, eᵥ, fᵥ], l2_bbbb [kₒ, lₒ, dᵥ, cᵥ], t2_bbbb [eᵥ, dᵥ, kₒ, lₒ], t2_abab [aᵥ, fᵥ, jₒ, mₒ], t2_abab [bᵥ, cᵥ, iₒ, nₒ]], [(1, [aᵥ, bᵥ, iₒ, jₒ]), (-1, [aᵥ, bᵥ, jₒ, iₒ]), (-1, [bᵥ, aᵥ, iₒ, jₒ]), (1, [bᵥ, aᵥ, jₒ, iₒ])]⟩,
  -- line 542: nmef,kldc,edkl,faij,cbnm->abij
  ⟨1/4, [g_aaaa [nₒ, mₒ, eᵥ, fᵥ], l2_aaaa [kₒ, lₒ, dᵥ, cᵥ], t2_aaaa [eᵥ, dᵥ, kₒ, lₒ], t2_aaaa [fᵥ, aᵥ, iₒ, jₒ], t2_aaaa [cᵥ, bᵥ, nₒ, mₒ]], [(1, [aᵥ, bᵥ, iₒ, jₒ]), (-1, [bᵥ, aᵥ, iₒ, jₒ])]⟩,
  -- line 546: nmfe,kldc,dekl,faij,bcnm->abij
  ⟨-1/4, [g_abab [nₒ, mₒ, fᵥ, eᵥ], l2_abab [kₒ, lₒ, dᵥ, cᵥ], t2_abab [dᵥ, eᵥ, kₒ, lₒ], t2_aaaa [fᵥ, aᵥ, iₒ, jₒ], t2_abab [bᵥ, cᵥ, nₒ, mₒ]], [(1, [aᵥ, bᵥ, iₒ, jₒ]), (-1, [bᵥ, aᵥ, iₒ, jₒ])]⟩,
  -- line 550: mnfe,kldc,dekl,faij,bcmn->abij
  ⟨-1/4, [g_abab [mₒ, nₒ, fᵥ, eᵥ], l2_abab [kₒ, lₒ, dᵥ, cᵥ], t2_abab [dᵥ, eᵥ, kₒ, lₒ], t2_aaaa [fᵥ, aᵥ, iₒ, jₒ], t2_abab [bᵥ, cᵥ, mₒ, nₒ]], [(1, [aᵥ, bᵥ, iₒ, jₒ]), (-1, [bᵥ, aᵥ, iₒ, jₒ])]⟩,
  -- line 554: nmef,klcd,edkl,faij,cbnm->abij
  ⟨-1/4, [g_aaaa [nₒ, mₒ, eᵥ, fᵥ], l2_abab [kₒ, lₒ, cᵥ, dᵥ], t2_abab [eᵥ, dᵥ, kₒ, lₒ], t2_aaaa [fᵥ, aᵥ, iₒ, jₒ], t2_aaaa [cᵥ, bᵥ, nₒ, mₒ]], [(1, [aᵥ, bᵥ, iₒ, jₒ]), (-1, [bᵥ, aᵥ, iₒ, jₒ])]⟩,
  -- line 558: nmfe,lkdc,delk,faij,bcnm->abij
  ⟨-1/4, [g_abab [nₒ, mₒ, fᵥ, eᵥ], l2_abab [lₒ, kₒ, dᵥ, cᵥ], t2_abab [dᵥ, eᵥ, lₒ, kₒ], t2_aaaa [fᵥ, aᵥ, iₒ, jₒ], t2_abab [bᵥ, cᵥ, nₒ, mₒ]], [(1, [aᵥ, bᵥ, iₒ, jₒ]), (-1, [bᵥ, aᵥ, iₒ, jₒ])]⟩,
  -- line 562: mnfe,lkdc,delk,faij,bcmn->abij
  ⟨-1/4, [g_abab [mₒ, nₒ, fᵥ, eᵥ], l2_abab [lₒ, kₒ, dᵥ, cᵥ], t2_abab [dᵥ, eᵥ, lₒ, kₒ], t2_aaaa [fᵥ, aᵥ, iₒ, jₒ], t2_abab [bᵥ, cᵥ, mₒ, nₒ]], [(1, [aᵥ, bᵥ, iₒ, jₒ]), (-1, [bᵥ, aᵥ, iₒ, jₒ])]⟩,
  -- line 566: nmef,lkcd,edlk,faij,cbnm->abij
  ⟨-1/4, [g_aaaa [nₒ, mₒ, eᵥ, fᵥ], l2_abab [lₒ, kₒ, cᵥ, dᵥ], t2_abab [eᵥ, dᵥ, lₒ, kₒ], t2_aaaa [fᵥ, aᵥ, iₒ, jₒ], t2_aaaa [cᵥ, bᵥ, nₒ, mₒ]], [(1, [aᵥ, bᵥ, iₒ, jₒ]), (-1, [bᵥ, aᵥ, iₒ, jₒ])]⟩,
  -- line 570: nmfe,kldc,edkl,faij,bcnm->abij
  ⟨1/4, [g_abab [nₒ, mₒ, fᵥ, eᵥ], l2_bbbb [kₒ, lₒ, dᵥ, cᵥ], t2_bbbb [eᵥ, dᵥ, kₒ, lₒ], t2_aaaa [fᵥ, aᵥ, iₒ, jₒ], t2_abab [bᵥ, cᵥ, nₒ, mₒ]], [(1, [aᵥ, bᵥ, iₒ, jₒ]), (-1, [bᵥ, aᵥ, iₒ, jₒ])]⟩,
  -- line 574: mnfe,kldc,edkl,faij,bcmn->abij
  ⟨1/4, [g_abab [mₒ, nₒ, fᵥ, eᵥ], l2_bbbb [kₒ, lₒ, dᵥ, cᵥ], t2_bbbb [eᵥ, dᵥ, kₒ, lₒ], t2_aaaa [fᵥ, aᵥ, iₒ, jₒ], t2_abab [bᵥ, cᵥ, mₒ, nₒ]], [(1, [aᵥ, bᵥ, iₒ, jₒ]), (-1, [bᵥ, aᵥ, iₒ, jₒ])]⟩,
  -- line 578: nmef,kldc,edjl,fckm,abin->abij
  ⟨-1/2, [g_aaaa [nₒ, mₒ, eᵥ, fᵥ], l2_aaaa [kₒ, lₒ, dᵥ, cᵥ], t2_aaaa [eᵥ, dᵥ, jₒ, lₒ], t2_aaaa [fᵥ, cᵥ, kₒ, mₒ], t2_aaaa [aᵥ, bᵥ, iₒ, nₒ]], [(1, [aᵥ, bᵥ, iₒ, jₒ]), (-1, [aᵥ, bᵥ, jₒ, iₒ])]⟩,
  -- line 582: nmef,kldc,edjl,cfkm,abin->abij
  ⟨1/2, [g_abab [nₒ, mₒ, eᵥ, fᵥ], l2_aaaa [kₒ, lₒ, dᵥ, cᵥ], t2_aaaa [eᵥ, dᵥ, jₒ, lₒ], t2_abab [cᵥ, fᵥ, kₒ, mₒ], t2_aaaa [aᵥ, bᵥ, iₒ, nₒ]], [(1, [aᵥ, bᵥ, iₒ, jₒ]), (-1, [aᵥ, bᵥ, jₒ, iₒ])]⟩,
  -- line 586: nmfe,kldc,dejl,fckm,abin->abij
  ⟨-1/2, [g_abab [nₒ, mₒ, fᵥ, eᵥ], l2_abab [kₒ, lₒ, dᵥ, cᵥ], t2_abab [dᵥ, eᵥ, jₒ, lₒ], t2_abab [fᵥ, cᵥ, kₒ, mₒ], t2_aaaa [aᵥ, bᵥ, iₒ, nₒ]], [(1, [aᵥ, bᵥ, iₒ, jₒ]), (-1, [aᵥ, bᵥ, jₒ, iₒ])]⟩,
  -- line 590: nmef,klcd,edjl,fckm,abin->abij
  ⟨1/2, [g_aaaa [nₒ, mₒ, eᵥ, fᵥ], l2_abab [kₒ, lₒ, cᵥ, dᵥ], t2_abab [eᵥ, dᵥ, jₒ, lₒ], t2_aaaa [fᵥ, cᵥ, kₒ, mₒ], t2_aaaa [aᵥ, bᵥ, iₒ, nₒ]], [(1, [aᵥ, bᵥ, iₒ, jₒ]), (-1, [aᵥ, bᵥ, jₒ, iₒ])]⟩,
  -- line 594: nmef,klcd,edjl,cfkm,abin->abij
  ⟨-1/2, [g_abab [nₒ, mₒ, eᵥ, fᵥ], l2_abab [kₒ, lₒ, cᵥ, dᵥ], t2_abab [eᵥ, dᵥ, jₒ, lₒ], t2_abab [cᵥ, fᵥ, kₒ, mₒ], t2_aaaa [aᵥ, bᵥ, iₒ, nₒ]], [(1, [aᵥ, bᵥ, iₒ, jₒ]), (-1, [aᵥ, bᵥ, jₒ, iₒ])]⟩,
  -- line 598: nmef,lkdc,edjl,fcmk,abin->abij
  ⟨-1/2, [g_aaaa [nₒ, mₒ, eᵥ, fᵥ], l2_abab [lₒ, kₒ, dᵥ, cᵥ], t2_aaaa [eᵥ, dᵥ, jₒ, lₒ], t2_abab [fᵥ, cᵥ, mₒ, kₒ], t2_aaaa [aᵥ, bᵥ, iₒ, nₒ]], [(1, [aᵥ, bᵥ, iₒ, jₒ]), (-1, [aᵥ, bᵥ, jₒ, iₒ])]⟩,
  -- line 602: nmef,lkdc,edjl,fckm,abin->abij
  ⟨1/2, [g_abab [nₒ, mₒ, eᵥ, fᵥ], l2_abab [lₒ, kₒ, dᵥ, cᵥ], t2_aaaa [eᵥ, dᵥ, jₒ, lₒ], t2_bbbb [fᵥ, cᵥ, kₒ, mₒ], t2_aaaa [aᵥ, bᵥ, iₒ, nₒ]], [(1, [aᵥ, bᵥ, iₒ, jₒ]), (-1, [aᵥ, bᵥ, jₒ, iₒ])]⟩,
  -- line 606: nmef,kldc,edjl,fcmk,abin->abij
  ⟨1/2, [g_aaaa [nₒ, mₒ, eᵥ, fᵥ], l2_bbbb [kₒ, lₒ, dᵥ, cᵥ], t2_abab [eᵥ, dᵥ, jₒ, lₒ], t2_abab [fᵥ, cᵥ, mₒ, kₒ], t2_aaaa [aᵥ, bᵥ, iₒ, nₒ]], [(1, [aᵥ, bᵥ, iₒ, jₒ]), (-1, [aᵥ, bᵥ, jₒ, iₒ])]⟩,
  -- line 610: nmef,kldc,edjl,fckm,abin->abij
  ⟨-1/2, [g_abab [nₒ, mₒ, eᵥ, fᵥ], l2_bbbb [kₒ, lₒ, dᵥ, cᵥ], t2_abab [eᵥ, dᵥ, jₒ, lₒ], t2_bbbb [fᵥ, cᵥ, kₒ, mₒ], t2_aaaa [aᵥ, bᵥ, iₒ, nₒ]], [(1, [aᵥ, bᵥ, iₒ, jₒ]), (-1, [aᵥ, bᵥ, jₒ, iₒ])]⟩,
  -- line 614: nmef,kldc,edjl,fcik,abnm->abij
  ⟨1/4, [g_aaaa [nₒ, mₒ, eᵥ, fᵥ], l2_aaaa [kₒ, lₒ, dᵥ, cᵥ], t2_aaaa [eᵥ, dᵥ, jₒ, lₒ], t2_aaaa [fᵥ, cᵥ, iₒ, kₒ], t2_aaaa [aᵥ, bᵥ, nₒ, mₒ]], [(1, [aᵥ, bᵥ, iₒ, jₒ]), (-1, [aᵥ, bᵥ, jₒ, iₒ])]⟩,
  -- line 618: nmef,klcd,edjl,fcik,abnm->abij
  ⟨-1/4, [g_aaaa [nₒ, mₒ, eᵥ, fᵥ], l2_abab [kₒ, lₒ, cᵥ, dᵥ], t2_abab [eᵥ, dᵥ, jₒ, lₒ], t2_aaaa [fᵥ, cᵥ, iₒ, kₒ], t2_aaaa [aᵥ, bᵥ, nₒ, mₒ]], [(1, [aᵥ, bᵥ, iₒ, jₒ]), (-1, [aᵥ, bᵥ, jₒ, iₒ])]⟩,
  -- line 622: nmef,lkdc,edjl,fcik,abnm->abij
  ⟨-1/4, [g_aaaa [nₒ, mₒ, eᵥ, fᵥ], l2_abab [lₒ, kₒ, dᵥ, cᵥ], t2_aaaa [eᵥ, dᵥ, jₒ, lₒ], t2_abab [fᵥ, cᵥ, iₒ, kₒ], t2_aaaa [aᵥ, bᵥ, nₒ, mₒ]], [(1, [aᵥ, bᵥ, iₒ, jₒ]), (-1, [aᵥ, bᵥ, jₒ, iₒ])]⟩,
  -- line 626: nmef,kldc,edjl,fcik,abnm->abij
  ⟨1/4, [g_aaaa [nₒ, mₒ, eᵥ, fᵥ], l2_bbbb [kₒ, lₒ, dᵥ, cᵥ], t2_abab [eᵥ, dᵥ, jₒ, lₒ], t2_abab [fᵥ, cᵥ, iₒ, kₒ], t2_aaaa [aᵥ, bᵥ, nₒ, mₒ]], [(1, [aᵥ, bᵥ, iₒ, jₒ]), (-1, [aᵥ, bᵥ, jₒ, iₒ])]⟩,
  -- line 630: nmef,kldc,edjl,fakm,cbin->abij
  ⟨91666666666667/100000000000000, [g_aaaa [nₒ, mₒ, eᵥ, fᵥ], l2_aaaa [kₒ, lₒ, dᵥ, cᵥ], t2_aaaa [eᵥ, dᵥ, jₒ, lₒ], t2_aaaa [fᵥ, aᵥ, kₒ, mₒ], t2_aaaa [cᵥ, bᵥ, iₒ, nₒ]], [(1, [aᵥ, bᵥ, iₒ, jₒ]), (-1, [aᵥ, bᵥ, jₒ, iₒ]), (-1, [bᵥ, aᵥ, iₒ, jₒ]), (1, [bᵥ, aᵥ, jₒ, iₒ])]⟩,
  -- line 634: nmef,kldc,edjl,afkm,cbin->abij
  ⟨-91666666666667/100000000000000, [g_abab [nₒ, mₒ, eᵥ, fᵥ], l2_aaaa [kₒ, lₒ, dᵥ, cᵥ], t2_aaaa [eᵥ, dᵥ, jₒ, lₒ], t2_abab [aᵥ, fᵥ, kₒ, mₒ], t2_aaaa [cᵥ, bᵥ, iₒ, nₒ]], [(1, [aᵥ, bᵥ, iₒ, jₒ]), (-1, [aᵥ, bᵥ, jₒ, iₒ]), (-1, [bᵥ, aᵥ, iₒ, jₒ]), (1, [bᵥ, aᵥ, jₒ, iₒ])]⟩,
  -- line 638: mnfe,kldc,dejl,fakm,bcin->abij
  ⟨91666666666667/100000000000000, [g_abab [mₒ, nₒ, fᵥ, eᵥ], l2_abab [kₒ, lₒ, dᵥ, cᵥ], t2_abab [dᵥ, eᵥ, jₒ, lₒ], t2_aaaa [fᵥ, aᵥ, kₒ, mₒ], t2_abab [bᵥ, cᵥ, iₒ, nₒ]], [(1, [aᵥ, bᵥ, iₒ, jₒ]), (-1, [aᵥ, bᵥ, jₒ, iₒ]), (-1, [bᵥ, aᵥ, iₒ, jₒ]), (1, [bᵥ, aᵥ, jₒ, iₒ])]⟩,
  -- line 642: nmef,kldc,dejl,afkm,bcin->abij
  ⟨-91666666666667/100000000000000, [g_bbbb [nₒ, mₒ, eᵥ, fᵥ], l2_abab [kₒ, lₒ, dᵥ, cᵥ], t2_abab [dᵥ, eᵥ, jₒ, lₒ], t2_abab [aᵥ, fᵥ, kₒ, mₒ], t2_abab [bᵥ, cᵥ, iₒ, nₒ]], [(1, [aᵥ, bᵥ, iₒ, jₒ]), (-1, [aᵥ, bᵥ, jₒ, iₒ]), (-1, [bᵥ, aᵥ, iₒ, jₒ]), (1, [bᵥ, aᵥ, jₒ, iₒ])]⟩,
  -- line 646: nmef,klcd,edjl,fakm,cbin->abij
  ⟨-91666666666667/100000000000000, [g_aaaa [nₒ, mₒ, eᵥ, fᵥ], l2_abab [kₒ, lₒ, cᵥ, dᵥ], t2_abab [eᵥ, dᵥ, jₒ, lₒ], t2_aaaa [fᵥ, aᵥ, kₒ, mₒ], t2_aaaa [cᵥ, bᵥ, iₒ, nₒ]], [(1, [aᵥ, bᵥ, iₒ, jₒ]), (-1, [aᵥ, bᵥ, jₒ, iₒ]), (-1, [bᵥ, aᵥ, iₒ, jₒ]), (1, [bᵥ, aᵥ, jₒ, iₒ])]⟩
  ]

/-- Part 4 of `residQf2_aaaa`. -/
def residQf2_aaaa_4 : Prog := [
  -- line 650: nmef,klcd,edjl,afkm,cbin->abij
  ⟨91666666666667/100000000000000, [g_abab [nₒ, mₒ, eᵥ, fᵥ], l2_abab [kₒ, lₒ, cᵥ, dᵥ], t2_abab [eᵥ, dᵥ, jₒ, lₒ], t2_abab [aᵥ, fᵥ, kₒ, mₒ], t2_aaaa [cᵥ, bᵥ, iₒ, nₒ]], [(1, [aᵥ, bᵥ, iₒ, jₒ]), (-1, [aᵥ, bᵥ, jₒ, iₒ]), (-1, [bᵥ, aᵥ, iₒ, jₒ]), (1, [bᵥ, aᵥ, jₒ, iₒ])]⟩,
  -- line 654: mnef,lkdc,edjl,afmk,bcin->abij
  ⟨-91666666666667/100000000000000, [g_abab [mₒ, nₒ, eᵥ, fᵥ], l2_abab [lₒ, kₒ, dᵥ, cᵥ], t2_aaaa [eᵥ, dᵥ, jₒ, lₒ], t2_abab [aᵥ, fᵥ, mₒ, kₒ], t2_abab [bᵥ, cᵥ, iₒ, nₒ]], [(1, [aᵥ, bᵥ, iₒ, jₒ]), (-1, [aᵥ, bᵥ, jₒ, iₒ]), (-1, [bᵥ, aᵥ, iₒ, jₒ]), (1, [bᵥ, aᵥ, jₒ, iₒ])]⟩,
  -- line 658: mnef,kldc,edjl,afmk,bcin->abij
  ⟨91666666666667/100000000000000, [g_abab [mₒ, nₒ, eᵥ, fᵥ], l2_bbbb [kₒ, lₒ, dᵥ, cᵥ], t2_abab [eᵥ, dᵥ, jₒ, lₒ], t2_abab [aᵥ, fᵥ, mₒ, kₒ], t2_abab [bᵥ, cᵥ, iₒ, nₒ]], [(1, [aᵥ, bᵥ, iₒ, jₒ]), (-1, [aᵥ, bᵥ, jₒ, iₒ]), (-1, [bᵥ, aᵥ, iₒ, jₒ]), (1, [bᵥ, aᵥ, jₒ, iₒ])]⟩,
  -- line 662: nmef,kldc,edjl,faim,cbkn->abij
  ⟨-1, [g_aaaa [nₒ, mₒ, eᵥ, fᵥ], l2_aaaa [kₒ, lₒ, dᵥ, cᵥ], t2_aaaa [eᵥ, dᵥ, jₒ, lₒ], t2_aaaa [fᵥ, aᵥ, iₒ, mₒ], t2_aaaa [cᵥ, bᵥ, kₒ, nₒ]], [(1, [aᵥ, bᵥ, iₒ, jₒ]), (-1, [aᵥ, bᵥ, jₒ, iₒ]), (-1, [bᵥ, aᵥ, iₒ, jₒ]), (1, [bᵥ, aᵥ, jₒ, iₒ])]⟩,
  -- line 666: nmef,kldc,edjl,afim,cbkn->abij
  ⟨1, [g_abab [nₒ, mₒ, eᵥ, fᵥ], l2_aaaa [kₒ, lₒ, dᵥ, cᵥ], t2_aaaa [eᵥ, dᵥ, jₒ, lₒ], t2_abab [aᵥ, fᵥ, iₒ, mₒ], t2_aaaa [cᵥ, bᵥ, kₒ, nₒ]], [(1, [aᵥ, bᵥ, iₒ, jₒ]), (-1, [aᵥ, bᵥ, jₒ, iₒ]), (-1, [bᵥ, aᵥ, iₒ, jₒ]), (1, [bᵥ, aᵥ, jₒ, iₒ])]⟩,
  -- line 670: mnfe,kldc,dejl,faim,bckn->abij
  ⟨-1, [g_abab [mₒ, nₒ, fᵥ, eᵥ], l2_abab [kₒ, lₒ, dᵥ, cᵥ], t2_abab [dᵥ, eᵥ, jₒ, lₒ], t2_aaaa [fᵥ, aᵥ, iₒ, mₒ], t2_abab [bᵥ, cᵥ, kₒ, nₒ]], [(1, [aᵥ, bᵥ, iₒ, jₒ]), (-1, [aᵥ, bᵥ, jₒ, iₒ]), (-1, [bᵥ, aᵥ, iₒ, jₒ]), (1, [bᵥ, aᵥ, jₒ, iₒ])]⟩,
  -- line 674: nmef,kldc,dejl,afim,bckn->abij
  ⟨1, [g_bbbb [nₒ, mₒ, eᵥ, fᵥ], l2_abab [kₒ, lₒ, dᵥ, cᵥ], t2_abab [dᵥ, eᵥ, jₒ, lₒ], t2_abab [aᵥ, fᵥ, iₒ, mₒ], t2_abab [bᵥ, cᵥ, kₒ, nₒ]], [(1, [aᵥ, bᵥ, iₒ, jₒ]), (-1, [aᵥ, bᵥ, jₒ, iₒ]), (-1, [bᵥ, aᵥ, iₒ, jₒ]), (1, [bᵥ, aᵥ, jₒ, iₒ])]⟩,
  -- line 678: nmef,klcd,edjl,faim,cbkn->abij
  ⟨1, [g_aaaa [nₒ, mₒ, eᵥ, fᵥ], l2_abab [kₒ, lₒ, cᵥ, dᵥ], t2_abab [eᵥ, dᵥ, jₒ, lₒ], t2_aaaa [fᵥ, aᵥ, iₒ, mₒ], t2_aaaa [cᵥ, bᵥ, kₒ, nₒ]], [(1, [aᵥ, bᵥ, iₒ, jₒ]), (-1, [aᵥ, bᵥ, jₒ, iₒ]), (-1, [bᵥ, aᵥ, iₒ, jₒ]), (1, [bᵥ, aᵥ, jₒ, iₒ])]⟩,
  -- line 682: nmef,klcd,edjl,afim,cbkn->abij
  ⟨-1, [g_abab [nₒ, mₒ, eᵥ, fᵥ], l2_abab [kₒ, lₒ, cᵥ, dᵥ], t2_abab [eᵥ, dᵥ, jₒ, lₒ], t2_abab [aᵥ, fᵥ, iₒ, mₒ], t2_aaaa [cᵥ, bᵥ, kₒ, nₒ]], [(1, [aᵥ, bᵥ, iₒ, jₒ]), (-1, [aᵥ, bᵥ, jₒ, iₒ]), (-1, [bᵥ, aᵥ, iₒ, jₒ]), (1, [bᵥ, aᵥ, jₒ, iₒ])]⟩,
  -- line 686: nmef,lkdc,edjl,faim,bcnk->abij
  ⟨1, [g_aaaa [nₒ, mₒ, eᵥ, fᵥ], l2_abab [lₒ, kₒ, dᵥ, cᵥ], t2_aaaa [eᵥ, dᵥ, jₒ, lₒ], t2_aaaa [fᵥ, aᵥ, iₒ, mₒ], t2_abab [bᵥ, cᵥ, nₒ, kₒ]], [(1, [aᵥ, bᵥ, iₒ, jₒ]), (-1, [aᵥ, bᵥ, jₒ, iₒ]), (-1, [bᵥ, aᵥ, iₒ, jₒ]), (1, [bᵥ, aᵥ, jₒ, iₒ])]⟩,
  -- line 690: nmef,lkdc,edjl,afim,bcnk->abij
  ⟨-1, [g_abab [nₒ, mₒ, eᵥ, fᵥ], l2_abab [lₒ, kₒ, dᵥ, cᵥ], t2_aaaa [eᵥ, dᵥ, jₒ, lₒ], t2_abab [aᵥ, fᵥ, iₒ, mₒ], t2_abab [bᵥ, cᵥ, nₒ, kₒ]], [(1, [aᵥ, bᵥ, iₒ, jₒ]), (-1, [aᵥ, bᵥ, jₒ, iₒ]), (-1, [bᵥ, aᵥ, iₒ, jₒ]), (1, [bᵥ, aᵥ, jₒ, iₒ])]⟩,
  -- line 694: nmef,kldc,edjl,faim,bcnk->abij
  ⟨-1, [g_aaaa [nₒ, mₒ, eᵥ, fᵥ], l2_bbbb [kₒ, lₒ, dᵥ, cᵥ], t2_abab [eᵥ, dᵥ, jₒ, lₒ], t2_aaaa [fᵥ, aᵥ, iₒ, mₒ], t2_abab [bᵥ, cᵥ, nₒ, kₒ]], [(1, [aᵥ, bᵥ, iₒ, jₒ]), (-1, [aᵥ, bᵥ, jₒ, iₒ]), (-1, [bᵥ, aᵥ, iₒ, jₒ]), (1, [bᵥ, aᵥ, jₒ, iₒ])]⟩,
  -- line 698: nmef,kldc,edjl,afim,bcnk->abij
  ⟨1, [g_abab [nₒ, mₒ, eᵥ, fᵥ], l2_bbbb [kₒ, lₒ, dᵥ, cᵥ], t2_abab [eᵥ, dᵥ, jₒ, lₒ], t2_abab [aᵥ, fᵥ, iₒ, mₒ], t2_abab [bᵥ, cᵥ, nₒ, kₒ]], [(1, [aᵥ, bᵥ, iₒ, jₒ]), (-1, [aᵥ, bᵥ, jₒ, iₒ]), (-1, [bᵥ, aᵥ, iₒ, jₒ]), (1, [bᵥ, aᵥ, jₒ, iₒ])]⟩,
  -- line 702: nmef,kldc,edjl,faik,cbnm->abij
  ⟨-1/2, [g_aaaa [nₒ, mₒ, eᵥ, fᵥ], l2_aaaa [kₒ, lₒ, dᵥ, cᵥ], t2_aaaa [eᵥ, dᵥ, jₒ, lₒ], t2_aaaa [fᵥ, aᵥ, iₒ, kₒ], t2_aaaa [cᵥ, bᵥ, nₒ, mₒ]], [(1, [aᵥ, bᵥ, iₒ, jₒ]), (-1, [aᵥ, bᵥ, jₒ, iₒ]), (-1, [bᵥ, aᵥ, iₒ, jₒ]), (1, [bᵥ, aᵥ, jₒ, iₒ])]⟩,
  -- line 706: nmfe,kldc,dejl,faik,bcnm->abij
  ⟨1/2, [g_abab [nₒ, mₒ, fᵥ, eᵥ], l2_abab [kₒ, lₒ, dᵥ, cᵥ], t2_abab [dᵥ, eᵥ, jₒ, lₒ], t2_aaaa [fᵥ, aᵥ, iₒ, kₒ], t2_abab [bᵥ, cᵥ, nₒ, mₒ]], [(1, [aᵥ, bᵥ, iₒ, jₒ]), (-1, [aᵥ, bᵥ, jₒ, iₒ]), (-1, [bᵥ, aᵥ, iₒ, jₒ]), (1, [bᵥ, aᵥ, jₒ, iₒ])]⟩,
  -- line 710: mnfe,kldc,dejl,faik,bcmn->abij
  ⟨1/2, [g_abab [mₒ, nₒ, fᵥ, eᵥ], l2_abab [kₒ, lₒ, dᵥ, cᵥ], t2_abab [dᵥ, eᵥ, jₒ, lₒ], t2_aaaa [fᵥ, aᵥ, iₒ, kₒ], t2_abab [bᵥ, cᵥ, mₒ, nₒ]], [(1, [aᵥ, bᵥ, iₒ, jₒ]), (-1, [aᵥ, bᵥ, jₒ, iₒ]), (-1, [bᵥ, aᵥ, iₒ, jₒ]), (1, [bᵥ, aᵥ, jₒ, iₒ])]⟩,
  -- line 714: nmef,klcd,edjl,faik,cbnm->abij
  ⟨1/2, [g_aaaa [nₒ, mₒ, eᵥ, fᵥ], l2_abab [kₒ, lₒ, cᵥ, dᵥ], t2_abab [eᵥ, dᵥ, jₒ, lₒ], t2_aaaa [fᵥ, aᵥ, iₒ, kₒ], t2_aaaa [cᵥ, bᵥ, nₒ, mₒ]], [(1, [aᵥ, bᵥ, iₒ, jₒ]), (-1, [aᵥ, bᵥ, jₒ, iₒ]), (-1, [bᵥ, aᵥ, iₒ, jₒ]), (1, [bᵥ, aᵥ, jₒ, iₒ])]⟩,
  -- line 718: nmef,lkdc,edjl,afik,bcnm->abij
  ⟨1/2, [g_abab [nₒ, mₒ, eᵥ, fᵥ], l2_abab [lₒ, kₒ, dᵥ, cᵥ], t2_aaaa [eᵥ, dᵥ, jₒ, lₒ], t2_abab [aᵥ, fᵥ, iₒ, kₒ], t2_abab [bᵥ, cᵥ, nₒ, mₒ]], [(1, [aᵥ, bᵥ, iₒ, jₒ]), (-1, [aᵥ, bᵥ, jₒ, iₒ]), (-1, [bᵥ, aᵥ, iₒ, jₒ]), (1, [bᵥ, aᵥ, jₒ, iₒ])]⟩,
  -- line 722: mnef,lkdc,edjl,afik,bcmn->abij
  ⟨1/2, [g_abab [mₒ, nₒ, eᵥ, fᵥ], l2_abab [lₒ, kₒ, dᵥ, cᵥ], t2_aaaa [eᵥ, dᵥ, jₒ, lₒ], t2_abab [aᵥ, fᵥ, iₒ, kₒ], t2_abab [bᵥ, cᵥ, mₒ, nₒ]], [(1, [aᵥ, bᵥ, iₒ, jₒ]), (-1, [aᵥ, bᵥ, jₒ, iₒ]), (-1, [bᵥ, aᵥ, iₒ, jₒ]), (1, [bᵥ, aᵥ, jₒ, iₒ])]⟩,
  -- line 726: nmef,kldc,edjl,afik,bcnm->abij
  ⟨-1/2, [g_abab [nₒ, mₒ, eᵥ, fᵥ], l2_bbbb [kₒ, lₒ, dᵥ, cᵥ], t2_abab [eᵥ, dᵥ, jₒ, lₒ], t2_abab [aᵥ, fᵥ, iₒ, kₒ], t2_abab [bᵥ, cᵥ, nₒ, mₒ]], [(1, [aᵥ, bᵥ, iₒ, jₒ]), (-1, [aᵥ, bᵥ, jₒ, iₒ]), (-1, [bᵥ, aᵥ, iₒ, jₒ]), (1, [bᵥ, aᵥ, jₒ, iₒ])]⟩,
  -- line 730: mnef,kldc,edjl,afik,bcmn->abij
  ⟨-1/2, [g_abab [mₒ, nₒ, eᵥ, fᵥ], l2_bbbb [kₒ, lₒ, dᵥ, cᵥ], t2_abab [eᵥ, dᵥ, jₒ, lₒ], t2_abab [aᵥ, fᵥ, iₒ, kₒ], t2_abab [bᵥ, cᵥ, mₒ, nₒ]], [(1, [aᵥ, bᵥ, iₒ, jₒ]), (-1, [aᵥ, bᵥ, jₒ, iₒ]), (-1, [bᵥ, aᵥ, iₒ, jₒ]), (1, [bᵥ, aᵥ, jₒ, iₒ])]⟩,
  -- line 734: nmef,kldc,edij,falm,cbkn->abij
  ⟨-1, [g_aaaa [nₒ, mₒ, eᵥ, fᵥ], l2_aaaa [kₒ, lₒ, dᵥ, cᵥ], t2_aaaa [eᵥ, dᵥ, iₒ, jₒ], t2_aaaa [fᵥ, aᵥ, lₒ, mₒ], t2_aaaa [cᵥ, bᵥ, kₒ, nₒ]], [(1, [aᵥ, bᵥ, iₒ, jₒ]), (-1, [bᵥ, aᵥ, iₒ, jₒ])]⟩,
  -- line 738: nmef,kldc,edij,aflm,cbkn->abij
  ⟨1, [g_abab [nₒ, mₒ, eᵥ, fᵥ], l2_aaaa [kₒ, lₒ, dᵥ, cᵥ], t2_aaaa [eᵥ, dᵥ, iₒ, jₒ], t2_abab [aᵥ, fᵥ, lₒ, mₒ], t2_aaaa [cᵥ, bᵥ, kₒ, nₒ]], [(1, [aᵥ, bᵥ, iₒ, jₒ]), (-1, [bᵥ, aᵥ, iₒ, jₒ])]⟩,
  -- line 742: mnef,kldc,edij,afml,bckn->abij
  ⟨-1, [g_abab [mₒ, nₒ, eᵥ, fᵥ], l2_abab [kₒ, lₒ, dᵥ, cᵥ], t2_aaaa [eᵥ, dᵥ, iₒ, jₒ], t2_abab [aᵥ, fᵥ, mₒ, lₒ], t2_abab [bᵥ, cᵥ, kₒ, nₒ]], [(1, [aᵥ, bᵥ, iₒ, jₒ]), (-1, [bᵥ, aᵥ, iₒ, jₒ])]⟩,
  -- line 746: nmef,lkdc,edij,falm,bcnk->abij
  ⟨1, [g_aaaa [nₒ, mₒ, eᵥ, fᵥ], l2_abab [lₒ, kₒ, dᵥ, cᵥ], t2_aaaa [eᵥ, dᵥ, iₒ, jₒ], t2_aaaa [fᵥ, aᵥ, lₒ, mₒ], t2_abab [bᵥ, cᵥ, nₒ, kₒ]], [(1, [aᵥ, bᵥ, iₒ, jₒ]), (-1, [bᵥ, aᵥ, iₒ, jₒ])]⟩,
  -- line 750: nmef,lkdc,edij,aflm,bcnk->abij
  ⟨-1, [g_abab [nₒ, mₒ, eᵥ, fᵥ], l2_abab [lₒ, kₒ, dᵥ, cᵥ], t2_aaaa [eᵥ, dᵥ, iₒ, jₒ], t2_abab [aᵥ, fᵥ, lₒ, mₒ], t2_abab [bᵥ, cᵥ, nₒ, kₒ]], [(1, [aᵥ, bᵥ, iₒ, jₒ]), (-1, [bᵥ, aᵥ, iₒ, jₒ])]⟩,
  -- line 754: nmef,kldc,edij,fakl,cbnm->abij
  ⟨1/4, [g_aaaa [nₒ, mₒ, eᵥ, fᵥ], l2_aaaa [kₒ, lₒ, dᵥ, cᵥ], t2_aaaa [eᵥ, dᵥ, iₒ, jₒ], t2_aaaa [fᵥ, aᵥ, kₒ, lₒ], t2_aaaa [cᵥ, bᵥ, nₒ, mₒ]], [(1, [aᵥ, bᵥ, iₒ, jₒ]), (-1, [bᵥ, aᵥ, iₒ, jₒ])]⟩,
  -- line 758: nmef,kldc,edij,afkl,bcnm->abij
  ⟨1/4, [g_abab [nₒ, mₒ, eᵥ, fᵥ], l2_abab [kₒ, lₒ, dᵥ, cᵥ], t2_aaaa [eᵥ, dᵥ, iₒ, jₒ], t2_abab [aᵥ, fᵥ, kₒ, lₒ], t2_abab [bᵥ, cᵥ, nₒ, mₒ]], [(1, [aᵥ, bᵥ, iₒ, jₒ]), (-1, [bᵥ, aᵥ, iₒ, jₒ])]⟩,
  -- line 762: mnef,kldc,edij,afkl,bcmn->abij
  ⟨1/4, [g_abab [mₒ, nₒ, eᵥ, fᵥ], l2_abab [kₒ, lₒ, dᵥ, cᵥ], t2_aaaa [eᵥ, dᵥ, iₒ, jₒ], t2_abab [aᵥ, fᵥ, kₒ, lₒ], t2_abab [bᵥ, cᵥ, mₒ, nₒ]], [(1, [aᵥ, bᵥ, iₒ, jₒ]), (-1, [bᵥ, aᵥ, iₒ, jₒ])]⟩,
  -- line 766: nmef,lkdc,edij,aflk,bcnm->abij
  ⟨1/4, [g_abab [nₒ, mₒ, eᵥ, fᵥ], l2_abab [lₒ, kₒ, dᵥ, cᵥ], t2_aaaa [eᵥ, dᵥ, iₒ, jₒ], t2_abab [aᵥ, fᵥ, lₒ, kₒ], t2_abab [bᵥ, cᵥ, nₒ, mₒ]], [(1, [aᵥ, bᵥ, iₒ, jₒ]), (-1, [bᵥ, aᵥ, iₒ, jₒ])]⟩,
  -- line 770: mnef,lkdc,edij,aflk,bcmn->abij
  ⟨1/4, [g_abab [mₒ, nₒ, eᵥ, fᵥ], l2_abab [lₒ, kₒ, dᵥ, cᵥ], t2_aaaa [eᵥ, dᵥ, iₒ, jₒ], t2_abab [aᵥ, fᵥ, lₒ, kₒ], t2_abab [bᵥ, cᵥ, mₒ, nₒ]], [(1, [aᵥ, bᵥ, iₒ, jₒ]), (-1, [bᵥ, aᵥ, iₒ, jₒ])]⟩,
  -- line 774: nmef,kldc,ealm,fbjk,dcin->abij
  ⟨1/2, [g_aaaa [nₒ, mₒ, eᵥ, fᵥ], l2_aaaa [kₒ, lₒ, dᵥ, cᵥ], t2_aaaa [eᵥ, aᵥ, lₒ, mₒ], t2_aaaa [fᵥ, bᵥ, jₒ, kₒ], t2_aaaa [dᵥ, cᵥ, iₒ, nₒ]], [(1, [aᵥ, bᵥ, iₒ, jₒ]), (-1, [aᵥ, bᵥ, jₒ, iₒ])]⟩,
  -- line 778: nmfe,kldc,aelm,fbjk,dcin->abij
  ⟨1/2, [g_abab [nₒ, mₒ, fᵥ, eᵥ], l2_aaaa [kₒ, lₒ, dᵥ, cᵥ], t2_abab [aᵥ, eᵥ, lₒ, mₒ], t2_aaaa [fᵥ, bᵥ, jₒ, kₒ], t2_aaaa [dᵥ, cᵥ, iₒ, nₒ]], [(1, [aᵥ, bᵥ, iₒ, jₒ]), (-1, [aᵥ, bᵥ, jₒ, iₒ])]⟩,
  -- line 782: mnfe,kldc,aeml,fbjk,dcin->abij
  ⟨1/2, [g_abab [mₒ, nₒ, fᵥ, eᵥ], l2_abab [kₒ, lₒ, dᵥ, cᵥ], t2_abab [aᵥ, eᵥ, mₒ, lₒ], t2_aaaa [fᵥ, bᵥ, jₒ, kₒ], t2_abab [dᵥ, cᵥ, iₒ, nₒ]], [(1, [aᵥ, bᵥ, iₒ, jₒ]), (-1, [aᵥ, bᵥ, jₒ, iₒ])]⟩,
  -- line 786: mnfe,klcd,aeml,fbjk,cdin->abij
  ⟨1/2, [g_abab [mₒ, nₒ, fᵥ, eᵥ], l2_abab [kₒ, lₒ, cᵥ, dᵥ], t2_abab [aᵥ, eᵥ, mₒ, lₒ], t2_aaaa [fᵥ, bᵥ, jₒ, kₒ], t2_abab [cᵥ, dᵥ, iₒ, nₒ]], [(1, [aᵥ, bᵥ, iₒ, jₒ]), (-1, [aᵥ, bᵥ, jₒ, iₒ])]⟩,
  -- line 790: mnef,lkdc,ealm,bfjk,dcin->abij
  ⟨-1/2, [g_abab [mₒ, nₒ, eᵥ, fᵥ], l2_abab [lₒ, kₒ, dᵥ, cᵥ], t2_aaaa [eᵥ, aᵥ, lₒ, mₒ], t2_abab [bᵥ, fᵥ, jₒ, kₒ], t2_abab [dᵥ, cᵥ, iₒ, nₒ]], [(1, [aᵥ, bᵥ, iₒ, jₒ]), (-1, [aᵥ, bᵥ, jₒ, iₒ])]⟩,
  -- line 794: nmef,lkdc,aelm,bfjk,dcin->abij
  ⟨-1/2, [g_bbbb [nₒ, mₒ, eᵥ, fᵥ], l2_abab [lₒ, kₒ, dᵥ, cᵥ], t2_abab [aᵥ, eᵥ, lₒ, mₒ], t2_abab [bᵥ, fᵥ, jₒ, kₒ], t2_abab [dᵥ, cᵥ, iₒ, nₒ]], [(1, [aᵥ, bᵥ, iₒ, jₒ]), (-1, [aᵥ, bᵥ, jₒ, iₒ])]⟩,
  -- line 798: mnef,lkcd,ealm,bfjk,cdin->abij
  ⟨-1/2, [g_abab [mₒ, nₒ, eᵥ, fᵥ], l2_abab [lₒ, kₒ, cᵥ, dᵥ], t2_aaaa [eᵥ, aᵥ, lₒ, mₒ], t2_abab [bᵥ, fᵥ, jₒ, kₒ], t2_abab [cᵥ, dᵥ, iₒ, nₒ]], [(1, [aᵥ, bᵥ, iₒ, jₒ]), (-1, [aᵥ, bᵥ, jₒ, iₒ])]⟩,
  -- line 802: nmef,lkcd,aelm,bfjk,cdin->abij
  ⟨-1/2, [g_bbbb [nₒ, mₒ, eᵥ, fᵥ], l2_abab [lₒ, kₒ, cᵥ, dᵥ], t2_abab [aᵥ, eᵥ, lₒ, mₒ], t2_abab [bᵥ, fᵥ, jₒ, kₒ], t2_abab [cᵥ, dᵥ, iₒ, nₒ]], [(1, [aᵥ, bᵥ, iₒ, jₒ]), (-1, [aᵥ, bᵥ, jₒ, iₒ])]⟩,
  -- line 806: nmef,kldc,ealm,fbij,dckn->abij
  ⟨3/8, [g_aaaa [nₒ, mₒ, eᵥ, fᵥ], l2_aaaa [kₒ, lₒ, dᵥ, cᵥ], t2_aaaa [eᵥ, aᵥ, lₒ, mₒ], t2_aaaa [fᵥ, bᵥ, iₒ, jₒ], t2_aaaa [dᵥ, cᵥ, kₒ, nₒ]], [(1, [aᵥ, bᵥ, iₒ, jₒ])]⟩
  ]

/-- Part 5 of `residQf2_aaaa`. -/
def residQf2_aaaa_5 : Prog := [
  -- line 809: nmfe,kldc,aelm,fbij,dckn->abij
  ⟨3/8, [g_abab [nₒ, mₒ, fᵥ, eᵥ], l2_aaaa [kₒ, lₒ, dᵥ, cᵥ], t2_abab [aᵥ, eᵥ, lₒ, mₒ], t2_aaaa [fᵥ, bᵥ, iₒ, jₒ], t2_aaaa [dᵥ, cᵥ, kₒ, nₒ]], [(1, [aᵥ, bᵥ, iₒ, jₒ])]⟩,
  -- line 812: mnfe,kldc,aeml,fbij,dckn->abij
  ⟨3/8, [g_abab [mₒ, nₒ, fᵥ, eᵥ], l2_abab [kₒ, lₒ, dᵥ, cᵥ], t2_abab [aᵥ, eᵥ, mₒ, lₒ], t2_aaaa [fᵥ, bᵥ, iₒ, jₒ], t2_abab [dᵥ, cᵥ, kₒ, nₒ]], [(1, [aᵥ, bᵥ, iₒ, jₒ])]⟩,
  -- line 815: mnfe,klcd,aeml,fbij,cdkn->abij
  ⟨3/8, [g_abab [mₒ, nₒ, fᵥ, eᵥ], l2_abab [kₒ, lₒ, cᵥ, dᵥ], t2_abab [aᵥ, eᵥ, mₒ, lₒ], t2_aaaa [fᵥ, bᵥ, iₒ, jₒ], t2_abab [cᵥ, dᵥ, kₒ, nₒ]], [(1, [aᵥ, bᵥ, iₒ, jₒ])]⟩,
  -- line 818: nmef,lkdc,ealm,fbij,dcnk->abij
  ⟨3/8, [g_aaaa [nₒ, mₒ, eᵥ, fᵥ], l2_abab [lₒ, kₒ, dᵥ, cᵥ], t2_aaaa [eᵥ, aᵥ, lₒ, mₒ], t2_aaaa [fᵥ, bᵥ, iₒ, jₒ], t2_abab [dᵥ, cᵥ, nₒ, kₒ]], [(1, [aᵥ, bᵥ, iₒ, jₒ])]⟩,
  -- line 821: nmfe,lkdc,aelm,fbij,dcnk->abij
  ⟨3/8, [g_abab [nₒ, mₒ, fᵥ, eᵥ], l2_abab [lₒ, kₒ, dᵥ, cᵥ], t2_abab [aᵥ, eᵥ, lₒ, mₒ], t2_aaaa [fᵥ, bᵥ, iₒ, jₒ], t2_abab [dᵥ, cᵥ, nₒ, kₒ]], [(1, [aᵥ, bᵥ, iₒ, jₒ])]⟩,
  -- line 824: nmef,lkcd,ealm,fbij,cdnk->abij
  ⟨3/8, [g_aaaa [nₒ, mₒ, eᵥ, fᵥ], l2_abab [lₒ, kₒ, cᵥ, dᵥ], t2_aaaa [eᵥ, aᵥ, lₒ, mₒ], t2_aaaa [fᵥ, bᵥ, iₒ, jₒ], t2_abab [cᵥ, dᵥ, nₒ, kₒ]], [(1, [aᵥ, bᵥ, iₒ, jₒ])]⟩,
  -- line 827: nmfe,lkcd,aelm,fbij,cdnk->abij
  ⟨3/8, [g_abab [nₒ, mₒ, fᵥ, eᵥ], l2_abab [lₒ, kₒ, cᵥ, dᵥ], t2_abab [aᵥ, eᵥ, lₒ, mₒ], t2_aaaa [fᵥ, bᵥ, iₒ, jₒ], t2_abab [cᵥ, dᵥ, nₒ, kₒ]], [(1, [aᵥ, bᵥ, iₒ, jₒ])]⟩,
  -- line 830: mnfe,kldc,aeml,fbij,dckn->abij
  ⟨3/8, [g_abab [mₒ, nₒ, fᵥ, eᵥ], l2_bbbb [kₒ, lₒ, dᵥ, cᵥ], t2_abab [aᵥ, eᵥ, mₒ, lₒ], t2_aaaa [fᵥ, bᵥ, iₒ, jₒ], t2_bbbb [dᵥ, cᵥ, kₒ, nₒ]], [(1, [aᵥ, bᵥ, iₒ, jₒ])]⟩,
  -- line 833: nmef,kldc,eajm,fbkl,dcin->abij
  ⟨1/4, [g_aaaa [nₒ, mₒ, eᵥ, fᵥ], l2_aaaa [kₒ, lₒ, dᵥ, cᵥ], t2_aaaa [eᵥ, aᵥ, jₒ, mₒ], t2_aaaa [fᵥ, bᵥ, kₒ, lₒ], t2_aaaa [dᵥ, cᵥ, iₒ, nₒ]], [(1, [aᵥ, bᵥ, iₒ, jₒ]), (-1, [aᵥ, bᵥ, jₒ, iₒ])]⟩,
  -- line 837: nmfe,kldc,aejm,fbkl,dcin->abij
  ⟨1/4, [g_abab [nₒ, mₒ, fᵥ, eᵥ], l2_aaaa [kₒ, lₒ, dᵥ, cᵥ], t2_abab [aᵥ, eᵥ, jₒ, mₒ], t2_aaaa [fᵥ, bᵥ, kₒ, lₒ], t2_aaaa [dᵥ, cᵥ, iₒ, nₒ]], [(1, [aᵥ, bᵥ, iₒ, jₒ]), (-1, [aᵥ, bᵥ, jₒ, iₒ])]⟩,
  -- line 841: mnef,kldc,eajm,bfkl,dcin->abij
  ⟨1/4, [g_abab [mₒ, nₒ, eᵥ, fᵥ], l2_abab [kₒ, lₒ, dᵥ, cᵥ], t2_aaaa [eᵥ, aᵥ, jₒ, mₒ], t2_abab [bᵥ, fᵥ, kₒ, lₒ], t2_abab [dᵥ, cᵥ, iₒ, nₒ]], [(1, [aᵥ, bᵥ, iₒ, jₒ]), (-1, [aᵥ, bᵥ, jₒ, iₒ])]⟩,
  -- line 845: nmef,kldc,aejm,bfkl,dcin->abij
  ⟨1/4, [g_bbbb [nₒ, mₒ, eᵥ, fᵥ], l2_abab [kₒ, lₒ, dᵥ, cᵥ], t2_abab [aᵥ, eᵥ, jₒ, mₒ], t2_abab [bᵥ, fᵥ, kₒ, lₒ], t2_abab [dᵥ, cᵥ, iₒ, nₒ]], [(1, [aᵥ, bᵥ, iₒ, jₒ]), (-1, [aᵥ, bᵥ, jₒ, iₒ])]⟩,
  -- line 849: mnef,klcd,eajm,bfkl,cdin->abij
  ⟨1/4, [g_abab [mₒ, nₒ, eᵥ, fᵥ], l2_abab [kₒ, lₒ, cᵥ, dᵥ], t2_aaaa [eᵥ, aᵥ, jₒ, mₒ], t2_abab [bᵥ, fᵥ, kₒ, lₒ], t2_abab [cᵥ, dᵥ, iₒ, nₒ]], [(1, [aᵥ, bᵥ, iₒ, jₒ]), (-1, [aᵥ, bᵥ, jₒ, iₒ])]⟩,
  -- line 853: nmef,klcd,aejm,bfkl,cdin->abij
  ⟨1/4, [g_bbbb [nₒ, mₒ, eᵥ, fᵥ], l2_abab [kₒ, lₒ, cᵥ, dᵥ], t2_abab [aᵥ, eᵥ, jₒ, mₒ], t2_abab [bᵥ, fᵥ, kₒ, lₒ], t2_abab [cᵥ, dᵥ, iₒ, nₒ]], [(1, [aᵥ, bᵥ, iₒ, jₒ]), (-1, [aᵥ, bᵥ, jₒ, iₒ])]⟩,
  -- line 857: mnef,lkdc,eajm,bflk,dcin->abij
  ⟨1/4, [g_abab [mₒ, nₒ, eᵥ, fᵥ], l2_abab [lₒ, kₒ, dᵥ, cᵥ], t2_aaaa [eᵥ, aᵥ, jₒ, mₒ], t2_abab [bᵥ, fᵥ, lₒ, kₒ], t2_abab [dᵥ, cᵥ, iₒ, nₒ]], [(1, [aᵥ, bᵥ, iₒ, jₒ]), (-1, [aᵥ, bᵥ, jₒ, iₒ])]⟩,
  -- line 861: nmef,lkdc,aejm,bflk,dcin->abij
  ⟨1/4, [g_bbbb [nₒ, mₒ, eᵥ, fᵥ], l2_abab [lₒ, kₒ, dᵥ, cᵥ], t2_abab [aᵥ, eᵥ, jₒ, mₒ], t2_abab [bᵥ, fᵥ, lₒ, kₒ], t2_abab [dᵥ, cᵥ, iₒ, nₒ]], [(1, [aᵥ, bᵥ, iₒ, jₒ]), (-1, [aᵥ, bᵥ, jₒ, iₒ])]⟩,
  -- line 865: mnef,lkcd,eajm,bflk,cdin->abij
  ⟨1/4, [g_abab [mₒ, nₒ, eᵥ, fᵥ], l2_abab [lₒ, kₒ, cᵥ, dᵥ], t2_aaaa [eᵥ, aᵥ, jₒ, mₒ], t2_abab [bᵥ, fᵥ, lₒ, kₒ], t2_abab [cᵥ, dᵥ, iₒ, nₒ]], [(1, [aᵥ, bᵥ, iₒ, jₒ]), (-1, [aᵥ, bᵥ, jₒ, iₒ])]⟩,
  -- line 869: nmef,lkcd,aejm,bflk,cdin->abij
  ⟨1/4, [g_bbbb [nₒ, mₒ, eᵥ, fᵥ], l2_abab [lₒ, kₒ, cᵥ, dᵥ], t2_abab [aᵥ, eᵥ, jₒ, mₒ], t2_abab [bᵥ, fᵥ, lₒ, kₒ], t2_abab [cᵥ, dᵥ, iₒ, nₒ]], [(1, [aᵥ, bᵥ, iₒ, jₒ]), (-1, [aᵥ, bᵥ, jₒ, iₒ])]⟩,
  -- line 873: nmef,kldc,eajm,fbil,dckn->abij
  ⟨-3/8, [g_aaaa [nₒ, mₒ, eᵥ, fᵥ], l2_aaaa [kₒ, lₒ, dᵥ, cᵥ], t2_aaaa [eᵥ, aᵥ, jₒ, mₒ], t2_aaaa [fᵥ, bᵥ, iₒ, lₒ], t2_aaaa [dᵥ, cᵥ, kₒ, nₒ]], [(1, [aᵥ, bᵥ, iₒ, jₒ]), (-1, [aᵥ, bᵥ, jₒ, iₒ])]⟩,
  -- line 877: nmfe,kldc,aejm,fbil,dckn->abij
  ⟨-3/8, [g_abab [nₒ, mₒ, fᵥ, eᵥ], l2_aaaa [kₒ, lₒ, dᵥ, cᵥ], t2_abab [aᵥ, eᵥ, jₒ, mₒ], t2_aaaa [fᵥ, bᵥ, iₒ, lₒ], t2_aaaa [dᵥ, cᵥ, kₒ, nₒ]], [(1, [aᵥ, bᵥ, iₒ, jₒ]), (-1, [aᵥ, bᵥ, jₒ, iₒ])]⟩,
  -- line 881: mnef,kldc,eajm,bfil,dckn->abij
  ⟨-3/8, [g_abab [mₒ, nₒ, eᵥ, fᵥ], l2_abab [kₒ, lₒ, dᵥ, cᵥ], t2_aaaa [eᵥ, aᵥ, jₒ, mₒ], t2_abab [bᵥ, fᵥ, iₒ, lₒ], t2_abab [dᵥ, cᵥ, kₒ, nₒ]], [(1, [aᵥ, bᵥ, iₒ, jₒ]), (-1, [aᵥ, bᵥ, jₒ, iₒ])]⟩,
  -- line 885: nmef,kldc,aejm,bfil,dckn->abij
  ⟨-3/8, [g_bbbb [nₒ, mₒ, eᵥ, fᵥ], l2_abab [kₒ, lₒ, dᵥ, cᵥ], t2_abab [aᵥ, eᵥ, jₒ, mₒ], t2_abab [bᵥ, fᵥ, iₒ, lₒ], t2_abab [dᵥ, cᵥ, kₒ, nₒ]], [(1, [aᵥ, bᵥ, iₒ, jₒ]), (-1, [aᵥ, bᵥ, jₒ, iₒ])]⟩,
  -- line 889: mnef,klcd,eajm,bfil,cdkn->abij
  ⟨-3/8, [g_abab [mₒ, nₒ, eᵥ, fᵥ], l2_abab [kₒ, lₒ, cᵥ, dᵥ], t2_aaaa [eᵥ, aᵥ, jₒ, mₒ], t2_abab [bᵥ, fᵥ, iₒ, lₒ], t2_abab [cᵥ, dᵥ, kₒ, nₒ]], [(1, [aᵥ, bᵥ, iₒ, jₒ]), (-1, [aᵥ, bᵥ, jₒ, iₒ])]⟩,
  -- line 893: nmef,klcd,aejm,bfil,cdkn->abij
  ⟨-3/8, [g_bbbb [nₒ, mₒ, eᵥ, fᵥ], l2_abab [kₒ, lₒ, cᵥ, dᵥ], t2_abab [aᵥ, eᵥ, jₒ, mₒ], t2_abab [bᵥ, fᵥ, iₒ, lₒ], t2_abab [cᵥ, dᵥ, kₒ, nₒ]], [(1, [aᵥ, bᵥ, iₒ, jₒ]), (-1, [aᵥ, bᵥ, jₒ, iₒ])]⟩,
  -- line 897: nmef,lkdc,eajm,fbil,dcnk->abij
  ⟨-3/8, [g_aaaa [nₒ, mₒ, eᵥ, fᵥ], l2_abab [lₒ, kₒ, dᵥ, cᵥ], t2_aaaa [eᵥ, aᵥ, jₒ, mₒ], t2_aaaa [fᵥ, bᵥ, iₒ, lₒ], t2_abab [dᵥ, cᵥ, nₒ, kₒ]], [(1, [aᵥ, bᵥ, iₒ, jₒ]), (-1, [aᵥ, bᵥ, jₒ, iₒ])]⟩,
  -- line 901: nmfe,lkdc,aejm,fbil,dcnk->abij
  ⟨-3/8, [g_abab [nₒ, mₒ, fᵥ, eᵥ], l2_abab [lₒ, kₒ, dᵥ, cᵥ], t2_abab [aᵥ, eᵥ, jₒ, mₒ], t2_aaaa [fᵥ, bᵥ, iₒ, lₒ], t2_abab [dᵥ, cᵥ, nₒ, kₒ]], [(1, [aᵥ, bᵥ, iₒ, jₒ]), (-1, [aᵥ, bᵥ, jₒ, iₒ])]⟩,
  -- line 905: nmef,lkcd,eajm,fbil,cdnk->abij
  ⟨-3/8, [g_aaaa [nₒ, mₒ, eᵥ, fᵥ], l2_abab [lₒ, kₒ, cᵥ, dᵥ], t2_aaaa [eᵥ, aᵥ, jₒ, mₒ], t2_aaaa [fᵥ, bᵥ, iₒ, lₒ], t2_abab [cᵥ, dᵥ, nₒ, kₒ]], [(1, [aᵥ, bᵥ, iₒ, jₒ]), (-1, [aᵥ, bᵥ, jₒ, iₒ])]⟩,
  -- line 909: nmfe,lkcd,aejm,fbil,cdnk->abij
  ⟨-3/8, [g_abab [nₒ, mₒ, fᵥ, eᵥ], l2_abab [lₒ, kₒ, cᵥ, dᵥ], t2_abab [aᵥ, eᵥ, jₒ, mₒ], t2_aaaa [fᵥ, bᵥ, iₒ, lₒ], t2_abab [cᵥ, dᵥ, nₒ, kₒ]], [(1, [aᵥ, bᵥ, iₒ, jₒ]), (-1, [aᵥ, bᵥ, jₒ, iₒ])]⟩,
  -- line 913: mnef,kldc,eajm,bfil,dckn->abij
  ⟨-3/8, [g_abab [mₒ, nₒ, eᵥ, fᵥ], l2_bbbb [kₒ, lₒ, dᵥ, cᵥ], t2_aaaa [eᵥ, aᵥ, jₒ, mₒ], t2_abab [bᵥ, fᵥ, iₒ, lₒ], t2_bbbb [dᵥ, cᵥ, kₒ, nₒ]], [(1, [aᵥ, bᵥ, iₒ, jₒ]), (-1, [aᵥ, bᵥ, jₒ, iₒ])]⟩,
  -- line 917: nmef,kldc,aejm,bfil,dckn->abij
  ⟨-3/8, [g_bbbb [nₒ, mₒ, eᵥ, fᵥ], l2_bbbb [kₒ, lₒ, dᵥ, cᵥ], t2_abab [aᵥ, eᵥ, jₒ, mₒ], t2_abab [bᵥ, fᵥ, iₒ, lₒ], t2_bbbb [dᵥ, cᵥ, kₒ, nₒ]], [(1, [aᵥ, bᵥ, iₒ, jₒ]), (-1, [aᵥ, bᵥ, jₒ, iₒ])]⟩,
  -- line 921: nmef,kldc,eakl,fbjm,dcin->abij
  ⟨1/4, [g_aaaa [nₒ, mₒ, eᵥ, fᵥ], l2_aaaa [kₒ, lₒ, dᵥ, cᵥ], t2_aaaa [eᵥ, aᵥ, kₒ, lₒ], t2_aaaa [fᵥ, bᵥ, jₒ, mₒ], t2_aaaa [dᵥ, cᵥ, iₒ, nₒ]], [(1, [aᵥ, bᵥ, iₒ, jₒ]), (-1, [aᵥ, bᵥ, jₒ, iₒ])]⟩,
  -- line 925: nmef,kldc,eakl,bfjm,dcin->abij
  ⟨-1/4, [g_abab [nₒ, mₒ, eᵥ, fᵥ], l2_aaaa [kₒ, lₒ, dᵥ, cᵥ], t2_aaaa [eᵥ, aᵥ, kₒ, lₒ], t2_abab [bᵥ, fᵥ, jₒ, mₒ], t2_aaaa [dᵥ, cᵥ, iₒ, nₒ]], [(1, [aᵥ, bᵥ, iₒ, jₒ]), (-1, [aᵥ, bᵥ, jₒ, iₒ])]⟩,
  -- line 929: mnfe,kldc,aekl,fbjm,dcin->abij
  ⟨-1/4, [g_abab [mₒ, nₒ, fᵥ, eᵥ], l2_abab [kₒ, lₒ, dᵥ, cᵥ], t2_abab [aᵥ, eᵥ, kₒ, lₒ], t2_aaaa [fᵥ, bᵥ, jₒ, mₒ], t2_abab [dᵥ, cᵥ, iₒ, nₒ]], [(1, [aᵥ, bᵥ, iₒ, jₒ]), (-1, [aᵥ, bᵥ, jₒ, iₒ])]⟩,
  -- line 933: nmef,kldc,aekl,bfjm,dcin->abij
  ⟨1/4, [g_bbbb [nₒ, mₒ, eᵥ, fᵥ], l2_abab [kₒ, lₒ, dᵥ, cᵥ], t2_abab [aᵥ, eᵥ, kₒ, lₒ], t2_abab [bᵥ, fᵥ, jₒ, mₒ], t2_abab [dᵥ, cᵥ, iₒ, nₒ]], [(1, [aᵥ, bᵥ, iₒ, jₒ]), (-1, [aᵥ, bᵥ, jₒ, iₒ])]⟩,
  -- line 937: mnfe,klcd,aekl,fbjm,cdin->abij
  ⟨-1/4, [g_abab [mₒ, nₒ, fᵥ, eᵥ], l2_abab [kₒ, lₒ, cᵥ, dᵥ], t2_abab [aᵥ, eᵥ, kₒ, lₒ], t2_aaaa [fᵥ, bᵥ, jₒ, mₒ], t2_abab [cᵥ, dᵥ, iₒ, nₒ]], [(1, [aᵥ, bᵥ, iₒ, jₒ]), (-1, [aᵥ, bᵥ, jₒ, iₒ])]⟩,
  -- line 941: nmef,klcd,aekl,bfjm,cdin->abij
  ⟨1/4, [g_bbbb [nₒ, mₒ, eᵥ, fᵥ], l2_abab [kₒ, lₒ, cᵥ, dᵥ], t2_abab [aᵥ, eᵥ, kₒ, lₒ], t2_abab [bᵥ, fᵥ, jₒ, mₒ], t2_abab [cᵥ, dᵥ, iₒ, nₒ]], [(1, [aᵥ, bᵥ, iₒ, jₒ]), (-1, [aᵥ, bᵥ, jₒ, iₒ])]⟩,
  -- line 945: mnfe,lkdc,aelk,fbjm,dcin->abij
  ⟨-1/4, [g_abab [mₒ, nₒ, fᵥ, eᵥ], l2_abab [lₒ, kₒ, dᵥ, cᵥ], t2_abab [aᵥ, eᵥ, lₒ, kₒ], t2_aaaa [fᵥ, bᵥ, jₒ, mₒ], t2_abab [dᵥ, cᵥ, iₒ, nₒ]], [(1, [aᵥ, bᵥ, iₒ, jₒ]), (-1, [aᵥ, bᵥ, jₒ, iₒ])]⟩,
  -- line 949: nmef,lkdc,aelk,bfjm,dcin->abij
  ⟨1/4, [g_bbbb [nₒ, mₒ, eᵥ, fᵥ], l2_abab [lₒ, kₒ, dᵥ, cᵥ], t2_abab [aᵥ, eᵥ, lₒ, kₒ], t2_abab [bᵥ, fᵥ, jₒ, mₒ], t2_abab [dᵥ, cᵥ, iₒ, nₒ]], [(1, [aᵥ, bᵥ, iₒ, jₒ]), (-1, [aᵥ, bᵥ, jₒ, iₒ])]⟩,
  -- line 953: mnfe,lkcd,aelk,fbjm,cdin->abij
  ⟨-1/4, [g_abab [mₒ, nₒ, fᵥ, eᵥ], l2_abab [lₒ, kₒ, cᵥ, dᵥ], t2_abab [aᵥ, eᵥ, lₒ, kₒ], t2_aaaa [fᵥ, bᵥ, jₒ, mₒ], t2_abab [cᵥ, dᵥ, iₒ, nₒ]], [(1, [aᵥ, bᵥ, iₒ, jₒ]), (-1, [aᵥ, bᵥ, jₒ, iₒ])]⟩,
  -- line 957: nmef,lkcd,aelk,bfjm,cdin->abij
  ⟨1/4, [g_bbbb [nₒ, mₒ, eᵥ, fᵥ], l2_abab [lₒ, kₒ, cᵥ, dᵥ], t2_abab [aᵥ, eᵥ, lₒ, kₒ], t2_abab [bᵥ, fᵥ, jₒ, mₒ], t2_abab [cᵥ, dᵥ, iₒ, nₒ]], [(1, [aᵥ, bᵥ, iₒ, jₒ]), (-1, [aᵥ, bᵥ, jₒ, iₒ])]⟩
  ]

/-- Part 6 of `residQf2_aaaa`. -/
def residQf2_aaaa_6 : Prog := [
  -- line 961: nmef,kldc,eakl,fbij,dcnm->abij
  ⟨-1/8, [g_aaaa [nₒ, mₒ, eᵥ, fᵥ], l2_aaaa [kₒ, lₒ, dᵥ, cᵥ], t2_aaaa [eᵥ, aᵥ, kₒ, lₒ], t2_aaaa [fᵥ, bᵥ, iₒ, jₒ], t2_aaaa [dᵥ, cᵥ, nₒ, mₒ]], [(1, [aᵥ, bᵥ, iₒ, jₒ])]⟩,
  -- line 964: nmfe,kldc,aekl,fbij,dcnm->abij
  ⟨-1/8, [g_abab [nₒ, mₒ, fᵥ, eᵥ], l2_abab [kₒ, lₒ, dᵥ, cᵥ], t2_abab [aᵥ, eᵥ, kₒ, lₒ], t2_aaaa [fᵥ, bᵥ, iₒ, jₒ], t2_abab [dᵥ, cᵥ, nₒ, mₒ]], [(1, [aᵥ, bᵥ, iₒ, jₒ])]⟩,
  -- line 967: mnfe,kldc,aekl,fbij,dcmn->abij
  ⟨-1/8, [g_abab [mₒ, nₒ, fᵥ, eᵥ], l2_abab [kₒ, lₒ, dᵥ, cᵥ], t2_abab [aᵥ, eᵥ, kₒ, lₒ], t2_aaaa [fᵥ, bᵥ, iₒ, jₒ], t2_abab [dᵥ, cᵥ, mₒ, nₒ]], [(1, [aᵥ, bᵥ, iₒ, jₒ])]⟩,
  -- line 970: nmfe,klcd,aekl,fbij,cdnm->abij
  ⟨-1/8, [g_abab [nₒ, mₒ, fᵥ, eᵥ], l2_abab [kₒ, lₒ, cᵥ, dᵥ], t2_abab [aᵥ, eᵥ, kₒ, lₒ], t2_aaaa [fᵥ, bᵥ, iₒ, jₒ], t2_abab [cᵥ, dᵥ, nₒ, mₒ]], [(1, [aᵥ, bᵥ, iₒ, jₒ])]⟩,
  -- line 973: mnfe,klcd,aekl,fbij,cdmn->abij
  ⟨-1/8, [g_abab [mₒ, nₒ, fᵥ, eᵥ], l2_abab [kₒ, lₒ, cᵥ, dᵥ], t2_abab [aᵥ, eᵥ, kₒ, lₒ], t2_aaaa [fᵥ, bᵥ, iₒ, jₒ], t2_abab [cᵥ, dᵥ, mₒ, nₒ]], [(1, [aᵥ, bᵥ, iₒ, jₒ])]⟩,
  -- line 976: nmfe,lkdc,aelk,fbij,dcnm->abij
  ⟨-1/8, [g_abab [nₒ, mₒ, fᵥ, eᵥ], l2_abab [lₒ, kₒ, dᵥ, cᵥ], t2_abab [aᵥ, eᵥ, lₒ, kₒ], t2_aaaa [fᵥ, bᵥ, iₒ, jₒ], t2_abab [dᵥ, cᵥ, nₒ, mₒ]], [(1, [aᵥ, bᵥ, iₒ, jₒ])]⟩,
  -- line 979: mnfe,lkdc,aelk,fbij,dcmn->abij
  ⟨-1/8, [g_abab [mₒ, nₒ, fᵥ, eᵥ], l2_abab [lₒ, kₒ, dᵥ, cᵥ], t2_abab [aᵥ, eᵥ, lₒ, kₒ], t2_aaaa [fᵥ, bᵥ, iₒ, jₒ], t2_abab [dᵥ, cᵥ, mₒ, nₒ]], [(1, [aᵥ, bᵥ, iₒ, jₒ])]⟩,
  -- line 982: nmfe,lkcd,aelk,fbij,cdnm->abij
  ⟨-1/8, [g_abab [nₒ, mₒ, fᵥ, eᵥ], l2_abab [lₒ, kₒ, cᵥ, dᵥ], t2_abab [aᵥ, eᵥ, lₒ, kₒ], t2_aaaa [fᵥ, bᵥ, iₒ, jₒ], t2_abab [cᵥ, dᵥ, nₒ, mₒ]], [(1, [aᵥ, bᵥ, iₒ, jₒ])]⟩,
  -- line 985: mnfe,lkcd,aelk,fbij,cdmn->abij
  ⟨-1/8, [g_abab [mₒ, nₒ, fᵥ, eᵥ], l2_abab [lₒ, kₒ, cᵥ, dᵥ], t2_abab [aᵥ, eᵥ, lₒ, kₒ], t2_aaaa [fᵥ, bᵥ, iₒ, jₒ], t2_abab [cᵥ, dᵥ, mₒ, nₒ]], [(1, [aᵥ, bᵥ, iₒ, jₒ])]⟩,
  -- line 988: nmef,kldc,eajl,fbkm,dcin->abij
  ⟨-1/2, [g_aaaa [nₒ, mₒ, eᵥ, fᵥ], l2_aaaa [kₒ, lₒ, dᵥ, cᵥ], t2_aaaa [eᵥ, aᵥ, jₒ, lₒ], t2_aaaa [fᵥ, bᵥ, kₒ, mₒ], t2_aaaa [dᵥ, cᵥ, iₒ, nₒ]], [(1, [aᵥ, bᵥ, iₒ, jₒ]), (-1, [aᵥ, bᵥ, jₒ, iₒ])]⟩,
  -- line 992: nmef,kldc,eajl,bfkm,dcin->abij
  ⟨1/2, [g_abab [nₒ, mₒ, eᵥ, fᵥ], l2_aaaa [kₒ, lₒ, dᵥ, cᵥ], t2_aaaa [eᵥ, aᵥ, jₒ, lₒ], t2_abab [bᵥ, fᵥ, kₒ, mₒ], t2_aaaa [dᵥ, cᵥ, iₒ, nₒ]], [(1, [aᵥ, bᵥ, iₒ, jₒ]), (-1, [aᵥ, bᵥ, jₒ, iₒ])]⟩,
  -- line 996: mnfe,kldc,aejl,fbkm,dcin->abij
  ⟨1/2, [g_abab [mₒ, nₒ, fᵥ, eᵥ], l2_abab [kₒ, lₒ, dᵥ, cᵥ], t2_abab [aᵥ, eᵥ, jₒ, lₒ], t2_aaaa [fᵥ, bᵥ, kₒ, mₒ], t2_abab [dᵥ, cᵥ, iₒ, nₒ]], [(1, [aᵥ, bᵥ, iₒ, jₒ]), (-1, [aᵥ, bᵥ, jₒ, iₒ])]⟩,
  -- line 1000: nmef,kldc,aejl,bfkm,dcin->abij
  ⟨-1/2, [g_bbbb [nₒ, mₒ, eᵥ, fᵥ], l2_abab [kₒ, lₒ, dᵥ, cᵥ], t2_abab [aᵥ, eᵥ, jₒ, lₒ], t2_abab [bᵥ, fᵥ, kₒ, mₒ], t2_abab [dᵥ, cᵥ, iₒ, nₒ]], [(1, [aᵥ, bᵥ, iₒ, jₒ]), (-1, [aᵥ, bᵥ, jₒ, iₒ])]⟩,
  -- line 1004: mnfe,klcd,aejl,fbkm,cdin->abij
  ⟨1/2, [g_abab [mₒ, nₒ, fᵥ, eᵥ], l2_abab [kₒ, lₒ, cᵥ, dᵥ], t2_abab [aᵥ, eᵥ, jₒ, lₒ], t2_aaaa [fᵥ, bᵥ, kₒ, mₒ], t2_abab [cᵥ, dᵥ, iₒ, nₒ]], [(1, [aᵥ, bᵥ, iₒ, jₒ]), (-1, [aᵥ, bᵥ, jₒ, iₒ])]⟩,
  -- line 1008: nmef,klcd,aejl,bfkm,cdin->abij
  ⟨-1/2, [g_bbbb [nₒ, mₒ, eᵥ, fᵥ], l2_abab [kₒ, lₒ, cᵥ, dᵥ], t2_abab [aᵥ, eᵥ, jₒ, lₒ], t2_abab [bᵥ, fᵥ, kₒ, mₒ], t2_abab [cᵥ, dᵥ, iₒ, nₒ]], [(1, [aᵥ, bᵥ, iₒ, jₒ]), (-1, [aᵥ, bᵥ, jₒ, iₒ])]⟩,
  -- line 1012: mnef,lkdc,eajl,bfmk,dcin->abij
  ⟨-1/2, [g_abab [mₒ, nₒ, eᵥ, fᵥ], l2_abab [lₒ, kₒ, dᵥ, cᵥ], t2_aaaa [eᵥ, aᵥ, jₒ, lₒ], t2_abab [bᵥ, fᵥ, mₒ, kₒ], t2_abab [dᵥ, cᵥ, iₒ, nₒ]], [(1, [aᵥ, bᵥ, iₒ, jₒ]), (-1, [aᵥ, bᵥ, jₒ, iₒ])]⟩,
  -- line 1016: mnef,lkcd,eajl,bfmk,cdin->abij
  ⟨-1/2, [g_abab [mₒ, nₒ, eᵥ, fᵥ], l2_abab [lₒ, kₒ, cᵥ, dᵥ], t2_aaaa [eᵥ, aᵥ, jₒ, lₒ], t2_abab [bᵥ, fᵥ, mₒ, kₒ], t2_abab [cᵥ, dᵥ, iₒ, nₒ]], [(1, [aᵥ, bᵥ, iₒ, jₒ]), (-1, [aᵥ, bᵥ, jₒ, iₒ])]⟩,
  -- line 1020: nmef,kldc,eajl,fbim,dckn->abij
  ⟨1/2, [g_aaaa [nₒ, mₒ, eᵥ, fᵥ], l2_aaaa [kₒ, lₒ, dᵥ, cᵥ], t2_aaaa [eᵥ, aᵥ, jₒ, lₒ], t2_aaaa [fᵥ, bᵥ, iₒ, mₒ], t2_aaaa [dᵥ, cᵥ, kₒ, nₒ]], [(1, [aᵥ, bᵥ, iₒ, jₒ]), (-1, [aᵥ, bᵥ, jₒ, iₒ])]⟩,
  -- line 1024: nmef,kldc,eajl,bfim,dckn->abij
  ⟨-1/2, [g_abab [nₒ, mₒ, eᵥ, fᵥ], l2_aaaa [kₒ, lₒ, dᵥ, cᵥ], t2_aaaa [eᵥ, aᵥ, jₒ, lₒ], t2_abab [bᵥ, fᵥ, iₒ, mₒ], t2_aaaa [dᵥ, cᵥ, kₒ, nₒ]], [(1, [aᵥ, bᵥ, iₒ, jₒ]), (-1, [aᵥ, bᵥ, jₒ, iₒ])]⟩,
  -- line 1028: mnfe,kldc,aejl,fbim,dckn->abij
  ⟨-1/2, [g_abab [mₒ, nₒ, fᵥ, eᵥ], l2_abab [kₒ, lₒ, dᵥ, cᵥ], t2_abab [aᵥ, eᵥ, jₒ, lₒ], t2_aaaa [fᵥ, bᵥ, iₒ, mₒ], t2_abab [dᵥ, cᵥ, kₒ, nₒ]], [(1, [aᵥ, bᵥ, iₒ, jₒ]), (-1, [aᵥ, bᵥ, jₒ, iₒ])]⟩,
  -- line 1032: nmef,kldc,aejl,bfim,dckn->abij
  ⟨1/2, [g_bbbb [nₒ, mₒ, eᵥ, fᵥ], l2_abab [kₒ, lₒ, dᵥ, cᵥ], t2_abab [aᵥ, eᵥ, jₒ, lₒ], t2_abab [bᵥ, fᵥ, iₒ, mₒ], t2_abab [dᵥ, cᵥ, kₒ, nₒ]], [(1, [aᵥ, bᵥ, iₒ, jₒ]), (-1, [aᵥ, bᵥ, jₒ, iₒ])]⟩,
  -- line 1036: mnfe,klcd,aejl,fbim,cdkn->abij
  ⟨-1/2, [g_abab [mₒ, nₒ, fᵥ, eᵥ], l2_abab [kₒ, lₒ, cᵥ, dᵥ], t2_abab [aᵥ, eᵥ, jₒ, lₒ], t2_aaaa [fᵥ, bᵥ, iₒ, mₒ], t2_abab [cᵥ, dᵥ, kₒ, nₒ]], [(1, [aᵥ, bᵥ, iₒ, jₒ]), (-1, [aᵥ, bᵥ, jₒ, iₒ])]⟩,
  -- line 1040: nmef,klcd,aejl,bfim,cdkn->abij
  ⟨1/2, [g_bbbb [nₒ, mₒ, eᵥ, fᵥ], l2_abab [kₒ, lₒ, cᵥ, dᵥ], t2_abab [aᵥ, eᵥ, jₒ, lₒ], t2_abab [bᵥ, fᵥ, iₒ, mₒ], t2_abab [cᵥ, dᵥ, kₒ, nₒ]], [(1, [aᵥ, bᵥ, iₒ, jₒ]), (-1, [aᵥ, bᵥ, jₒ, iₒ])]⟩,
  -- line 1044: nmef,lkdc,eajl,fbim,dcnk->abij
  ⟨1/2, [g_aaaa [nₒ, mₒ, eᵥ, fᵥ], l2_abab [lₒ, kₒ, dᵥ, cᵥ], t2_aaaa [eᵥ, aᵥ, jₒ, lₒ], t2_aaaa [fᵥ, bᵥ, iₒ, mₒ], t2_abab [dᵥ, cᵥ, nₒ, kₒ]], [(1, [aᵥ, bᵥ, iₒ, jₒ]), (-1, [aᵥ, bᵥ, jₒ, iₒ])]⟩,
  -- line 1048: nmef,lkdc,eajl,bfim,dcnk->abij
  ⟨-1/2, [g_abab [nₒ, mₒ, eᵥ, fᵥ], l2_abab [lₒ, kₒ, dᵥ, cᵥ], t2_aaaa [eᵥ, aᵥ, jₒ, lₒ], t2_abab [bᵥ, fᵥ, iₒ, mₒ], t2_abab [dᵥ, cᵥ, nₒ, kₒ]], [(1, [aᵥ, bᵥ, iₒ, jₒ]), (-1, [aᵥ, bᵥ, jₒ, iₒ])]⟩,
  -- line 1052: nmef,lkcd,eajl,fbim,cdnk->abij
  ⟨1/2, [g_aaaa [nₒ, mₒ, eᵥ, fᵥ], l2_abab [lₒ, kₒ, cᵥ, dᵥ], t2_aaaa [eᵥ, aᵥ, jₒ, lₒ], t2_aaaa [fᵥ, bᵥ, iₒ, mₒ], t2_abab [cᵥ, dᵥ, nₒ, kₒ]], [(1, [aᵥ, bᵥ, iₒ, jₒ]), (-1, [aᵥ, bᵥ, jₒ, iₒ])]⟩,
  -- line 1056: nmef,lkcd,eajl,bfim,cdnk->abij
  ⟨-1/2, [g_abab [nₒ, mₒ, eᵥ, fᵥ], l2_abab [lₒ, kₒ, cᵥ, dᵥ], t2_aaaa [eᵥ, aᵥ, jₒ, lₒ], t2_abab [bᵥ, fᵥ, iₒ, mₒ], t2_abab [cᵥ, dᵥ, nₒ, kₒ]], [(1, [aᵥ, bᵥ, iₒ, jₒ]), (-1, [aᵥ, bᵥ, jₒ, iₒ])]⟩,
  -- line 1060: mnfe,kldc,aejl,fbim,dckn->abij
  ⟨-1/2, [g_abab [mₒ, nₒ, fᵥ, eᵥ], l2_bbbb [kₒ, lₒ, dᵥ, cᵥ], t2_abab [aᵥ, eᵥ, jₒ, lₒ], t2_aaaa [fᵥ, bᵥ, iₒ, mₒ], t2_bbbb [dᵥ, cᵥ, kₒ, nₒ]], [(1, [aᵥ, bᵥ, iₒ, jₒ]), (-1, [aᵥ, bᵥ, jₒ, iₒ])]⟩,
  -- line 1064: nmef,kldc,aejl,bfim,dckn->abij
  ⟨1/2, [g_bbbb [nₒ, mₒ, eᵥ, fᵥ], l2_bbbb [kₒ, lₒ, dᵥ, cᵥ], t2_abab [aᵥ, eᵥ, jₒ, lₒ], t2_abab [bᵥ, fᵥ, iₒ, mₒ], t2_bbbb [dᵥ, cᵥ, kₒ, nₒ]], [(1, [aᵥ, bᵥ, iₒ, jₒ]), (-1, [aᵥ, bᵥ, jₒ, iₒ])]⟩,
  -- line 1068: nmef,kldc,eajl,fbik,dcnm->abij
  ⟨1/4, [g_aaaa [nₒ, mₒ, eᵥ, fᵥ], l2_aaaa [kₒ, lₒ, dᵥ, cᵥ], t2_aaaa [eᵥ, aᵥ, jₒ, lₒ], t2_aaaa [fᵥ, bᵥ, iₒ, kₒ], t2_aaaa [dᵥ, cᵥ, nₒ, mₒ]], [(1, [aᵥ, bᵥ, iₒ, jₒ]), (-1, [aᵥ, bᵥ, jₒ, iₒ])]⟩,
  -- line 1072: nmfe,kldc,aejl,fbik,dcnm->abij
  ⟨1/4, [g_abab [nₒ, mₒ, fᵥ, eᵥ], l2_abab [kₒ, lₒ, dᵥ, cᵥ], t2_abab [aᵥ, eᵥ, jₒ, lₒ], t2_aaaa [fᵥ, bᵥ, iₒ, kₒ], t2_abab [dᵥ, cᵥ, nₒ, mₒ]], [(1, [aᵥ, bᵥ, iₒ, jₒ]), (-1, [aᵥ, bᵥ, jₒ, iₒ])]⟩,
  -- line 1076: mnfe,kldc,aejl,fbik,dcmn->abij
  ⟨1/4, [g_abab [mₒ, nₒ, fᵥ, eᵥ], l2_abab [kₒ, lₒ, dᵥ, cᵥ], t2_abab [aᵥ, eᵥ, jₒ, lₒ], t2_aaaa [fᵥ, bᵥ, iₒ, kₒ], t2_abab [dᵥ, cᵥ, mₒ, nₒ]], [(1, [aᵥ, bᵥ, iₒ, jₒ]), (-1, [aᵥ, bᵥ, jₒ, iₒ])]⟩,
  -- line 1080: nmfe,klcd,aejl,fbik,cdnm->abij
  ⟨1/4, [g_abab [nₒ, mₒ, fᵥ, eᵥ], l2_abab [kₒ, lₒ, cᵥ, dᵥ], t2_abab [aᵥ, eᵥ, jₒ, lₒ], t2_aaaa [fᵥ, bᵥ, iₒ, kₒ], t2_abab [cᵥ, dᵥ, nₒ, mₒ]], [(1, [aᵥ, bᵥ, iₒ, jₒ]), (-1, [aᵥ, bᵥ, jₒ, iₒ])]⟩,
  -- line 1084: mnfe,klcd,aejl,fbik,cdmn->abij
  ⟨1/4, [g_abab [mₒ, nₒ, fᵥ, eᵥ], l2_abab [kₒ, lₒ, cᵥ, dᵥ], t2_abab [aᵥ, eᵥ, jₒ, lₒ], t2_aaaa [fᵥ, bᵥ, iₒ, kₒ], t2_abab [cᵥ, dᵥ, mₒ, nₒ]], [(1, [aᵥ, bᵥ, iₒ, jₒ]), (-1, [aᵥ, bᵥ, jₒ, iₒ])]⟩,
  -- line 1088: nmef,lkdc,eajl,bfik,dcnm->abij
  ⟨1/4, [g_abab [nₒ, mₒ, eᵥ, fᵥ], l2_abab [lₒ, kₒ, dᵥ, cᵥ], t2_aaaa [eᵥ, aᵥ, jₒ, lₒ], t2_abab [bᵥ, fᵥ, iₒ, kₒ], t2_abab [dᵥ, cᵥ, nₒ, mₒ]], [(1, [aᵥ, bᵥ, iₒ, jₒ]), (-1, [aᵥ, bᵥ, jₒ, iₒ])]⟩,
  -- line 1092: mnef,lkdc,eajl,bfik,dcmn->abij
  ⟨1/4, [g_abab [mₒ, nₒ, eᵥ, fᵥ], l2_abab [lₒ, kₒ, dᵥ, cᵥ], t2_aaaa [eᵥ, aᵥ, jₒ, lₒ], t2_abab [bᵥ, fᵥ, iₒ, kₒ], t2_abab [dᵥ, cᵥ, mₒ, nₒ]], [(1, [aᵥ, bᵥ, iₒ, jₒ]), (-1, [aᵥ, bᵥ, jₒ, iₒ])]⟩,
  -- line 1096: nmef,lkcd,eajl,bfik,cdnm->abij
  ⟨1/4, [g_abab [nₒ, mₒ, eᵥ, fᵥ], l2_abab [lₒ, kₒ, cᵥ, dᵥ], t2_aaaa [eᵥ, aᵥ, jₒ, lₒ], t2_abab [bᵥ, fᵥ, iₒ, kₒ], t2_abab [cᵥ, dᵥ, nₒ, mₒ]], [(1, [aᵥ, bᵥ, iₒ, jₒ]), (-1, [aᵥ, bᵥ, jₒ, iₒ])]⟩,
  -- line 1100: mnef,lkcd,eajl,bfik,cdmn->abij
  ⟨1/4, [g_abab [mₒ, nₒ, eᵥ, fᵥ], l2_abab [lₒ, kₒ, cᵥ, dᵥ], t2_aaaa [eᵥ, aᵥ, jₒ, lₒ], t2_abab [bᵥ, fᵥ, iₒ, kₒ], t2_abab [cᵥ, dᵥ, mₒ, nₒ]], [(1, [aᵥ, bᵥ, iₒ, jₒ]), (-1, [aᵥ, bᵥ, jₒ, iₒ])]⟩,
  -- line 1104: nmef,kldc,aejl,bfik,dcnm->abij
  ⟨1/4, [g_bbbb [nₒ, mₒ, eᵥ, fᵥ], l2_bbbb [kₒ, lₒ, dᵥ, cᵥ], t2_abab [aᵥ, eᵥ, jₒ, lₒ], t2_abab [bᵥ, fᵥ, iₒ, kₒ], t2_bbbb [dᵥ, cᵥ, nₒ, mₒ]], [(1, [aᵥ, bᵥ, iₒ, jₒ]), (-1, [aᵥ, bᵥ, jₒ, iₒ])]⟩,
  -- line 1108: nmef,kldc,eajk,dbim,fcln->abij
  ⟨1/4, [g_aaaa [nₒ, mₒ, eᵥ, fᵥ], l2_aaaa [kₒ, lₒ, dᵥ, cᵥ], t2_aaaa [eᵥ, aᵥ, jₒ, kₒ], t2_aaaa [dᵥ, bᵥ, iₒ, mₒ], t2_aaaa [fᵥ, cᵥ, lₒ, nₒ]], [(1, [aᵥ, bᵥ, iₒ, jₒ]), (-1, [aᵥ, bᵥ, jₒ, iₒ]), (-1, [bᵥ, aᵥ, iₒ, jₒ]), (1, [bᵥ, aᵥ, jₒ, iₒ])]⟩
  ]

/-- Part 7 of `residQf2_aaaa`. -/
def residQf2_aaaa_7 : Prog := [
  -- line 1112: mnef,kldc,eajk,dbim,cfln->abij
  ⟨1/4, [g_abab [mₒ, nₒ, eᵥ, fᵥ], l2_aaaa [kₒ, lₒ, dᵥ, cᵥ], t2_aaaa [eᵥ, aᵥ, jₒ, kₒ], t2_aaaa [dᵥ, bᵥ, iₒ, mₒ], t2_abab [cᵥ, fᵥ, lₒ, nₒ]], [(1, [aᵥ, bᵥ, iₒ, jₒ]), (-1, [aᵥ, bᵥ, jₒ, iₒ]), (-1, [bᵥ, aᵥ, iₒ, jₒ]), (1, [bᵥ, aᵥ, jₒ, iₒ])]⟩,
  -- line 1116: nmef,kldc,eajk,dbim,fcnl->abij
  ⟨-1/4, [g_aaaa [nₒ, mₒ, eᵥ, fᵥ], l2_abab [kₒ, lₒ, dᵥ, cᵥ], t2_aaaa [eᵥ, aᵥ, jₒ, kₒ], t2_aaaa [dᵥ, bᵥ, iₒ, mₒ], t2_abab [fᵥ, cᵥ, nₒ, lₒ]], [(1, [aᵥ, bᵥ, iₒ, jₒ]), (-1, [aᵥ, bᵥ, jₒ, iₒ]), (-1, [bᵥ, aᵥ, iₒ, jₒ]), (1, [bᵥ, aᵥ, jₒ, iₒ])]⟩,
  -- line 1120: mnef,kldc,eajk,dbim,fcln->abij
  ⟨-1/4, [g_abab [mₒ, nₒ, eᵥ, fᵥ], l2_abab [kₒ, lₒ, dᵥ, cᵥ], t2_aaaa [eᵥ, aᵥ, jₒ, kₒ], t2_aaaa [dᵥ, bᵥ, iₒ, mₒ], t2_bbbb [fᵥ, cᵥ, lₒ, nₒ]], [(1, [aᵥ, bᵥ, iₒ, jₒ]), (-1, [aᵥ, bᵥ, jₒ, iₒ]), (-1, [bᵥ, aᵥ, iₒ, jₒ]), (1, [bᵥ, aᵥ, jₒ, iₒ])]⟩,
  -- line 1124: nmef,klcd,eajk,bdim,cfnl->abij
  ⟨1/4, [g_abab [nₒ, mₒ, eᵥ, fᵥ], l2_abab [kₒ, lₒ, cᵥ, dᵥ], t2_aaaa [eᵥ, aᵥ, jₒ, kₒ], t2_abab [bᵥ, dᵥ, iₒ, mₒ], t2_abab [cᵥ, fᵥ, nₒ, lₒ]], [(1, [aᵥ, bᵥ, iₒ, jₒ]), (-1, [aᵥ, bᵥ, jₒ, iₒ]), (-1, [bᵥ, aᵥ, iₒ, jₒ]), (1, [bᵥ, aᵥ, jₒ, iₒ])]⟩,
  -- line 1128: mnfe,lkdc,aejk,dbim,fcln->abij
  ⟨1/4, [g_abab [mₒ, nₒ, fᵥ, eᵥ], l2_abab [lₒ, kₒ, dᵥ, cᵥ], t2_abab [aᵥ, eᵥ, jₒ, kₒ], t2_aaaa [dᵥ, bᵥ, iₒ, mₒ], t2_abab [fᵥ, cᵥ, lₒ, nₒ]], [(1, [aᵥ, bᵥ, iₒ, jₒ]), (-1, [aᵥ, bᵥ, jₒ, iₒ]), (-1, [bᵥ, aᵥ, iₒ, jₒ]), (1, [bᵥ, aᵥ, jₒ, iₒ])]⟩,
  -- line 1132: nmfe,lkcd,aejk,bdim,fcln->abij
  ⟨-1/4, [g_abab [nₒ, mₒ, fᵥ, eᵥ], l2_abab [lₒ, kₒ, cᵥ, dᵥ], t2_abab [aᵥ, eᵥ, jₒ, kₒ], t2_abab [bᵥ, dᵥ, iₒ, mₒ], t2_aaaa [fᵥ, cᵥ, lₒ, nₒ]], [(1, [aᵥ, bᵥ, iₒ, jₒ]), (-1, [aᵥ, bᵥ, jₒ, iₒ]), (-1, [bᵥ, aᵥ, iₒ, jₒ]), (1, [bᵥ, aᵥ, jₒ, iₒ])]⟩,
  -- line 1136: nmef,lkcd,aejk,bdim,cfln->abij
  ⟨-1/4, [g_bbbb [nₒ, mₒ, eᵥ, fᵥ], l2_abab [lₒ, kₒ, cᵥ, dᵥ], t2_abab [aᵥ, eᵥ, jₒ, kₒ], t2_abab [bᵥ, dᵥ, iₒ, mₒ], t2_abab [cᵥ, fᵥ, lₒ, nₒ]], [(1, [aᵥ, bᵥ, iₒ, jₒ]), (-1, [aᵥ, bᵥ, jₒ, iₒ]), (-1, [bᵥ, aᵥ, iₒ, jₒ]), (1, [bᵥ, aᵥ, jₒ, iₒ])]⟩,
  -- line 1140: nmfe,kldc,aejk,bdim,fcnl->abij
  ⟨1/4, [g_abab [nₒ, mₒ, fᵥ, eᵥ], l2_bbbb [kₒ, lₒ, dᵥ, cᵥ], t2_abab [aᵥ, eᵥ, jₒ, kₒ], t2_abab [bᵥ, dᵥ, iₒ, mₒ], t2_abab [fᵥ, cᵥ, nₒ, lₒ]], [(1, [aᵥ, bᵥ, iₒ, jₒ]), (-1, [aᵥ, bᵥ, jₒ, iₒ]), (-1, [bᵥ, aᵥ, iₒ, jₒ]), (1, [bᵥ, aᵥ, jₒ, iₒ])]⟩,
  -- line 1144: nmef,kldc,aejk,bdim,fcln->abij
  ⟨1/4, [g_bbbb [nₒ, mₒ, eᵥ, fᵥ], l2_bbbb [kₒ, lₒ, dᵥ, cᵥ], t2_abab [aᵥ, eᵥ, jₒ, kₒ], t2_abab [bᵥ, dᵥ, iₒ, mₒ], t2_bbbb [fᵥ, cᵥ, lₒ, nₒ]], [(1, [aᵥ, bᵥ, iₒ, jₒ]), (-1, [aᵥ, bᵥ, jₒ, iₒ]), (-1, [bᵥ, aᵥ, iₒ, jₒ]), (1, [bᵥ, aᵥ, jₒ, iₒ])]⟩,
  -- line 1148: nmef,kldc,eaij,fblm,dckn->abij
  ⟨1/2, [g_aaaa [nₒ, mₒ, eᵥ, fᵥ], l2_aaaa [kₒ, lₒ, dᵥ, cᵥ], t2_aaaa [eᵥ, aᵥ, iₒ, jₒ], t2_aaaa [fᵥ, bᵥ, lₒ, mₒ], t2_aaaa [dᵥ, cᵥ, kₒ, nₒ]], [(1, [aᵥ, bᵥ, iₒ, jₒ])]⟩,
  -- line 1151: nmef,kldc,eaij,bflm,dckn->abij
  ⟨-1/2, [g_abab [nₒ, mₒ, eᵥ, fᵥ], l2_aaaa [kₒ, lₒ, dᵥ, cᵥ], t2_aaaa [eᵥ, aᵥ, iₒ, jₒ], t2_abab [bᵥ, fᵥ, lₒ, mₒ], t2_aaaa [dᵥ, cᵥ, kₒ, nₒ]], [(1, [aᵥ, bᵥ, iₒ, jₒ])]⟩,
  -- line 1154: mnef,kldc,eaij,bfml,dckn->abij
  ⟨-1/2, [g_abab [mₒ, nₒ, eᵥ, fᵥ], l2_abab [kₒ, lₒ, dᵥ, cᵥ], t2_aaaa [eᵥ, aᵥ, iₒ, jₒ], t2_abab [bᵥ, fᵥ, mₒ, lₒ], t2_abab [dᵥ, cᵥ, kₒ, nₒ]], [(1, [aᵥ, bᵥ, iₒ, jₒ])]⟩,
  -- line 1157: mnef,klcd,eaij,bfml,cdkn->abij
  ⟨-1/2, [g_abab [mₒ, nₒ, eᵥ, fᵥ], l2_abab [kₒ, lₒ, cᵥ, dᵥ], t2_aaaa [eᵥ, aᵥ, iₒ, jₒ], t2_abab [bᵥ, fᵥ, mₒ, lₒ], t2_abab [cᵥ, dᵥ, kₒ, nₒ]], [(1, [aᵥ, bᵥ, iₒ, jₒ])]⟩,
  -- line 1160: nmef,lkdc,eaij,fblm,dcnk->abij
  ⟨1/2, [g_aaaa [nₒ, mₒ, eᵥ, fᵥ], l2_abab [lₒ, kₒ, dᵥ, cᵥ], t2_aaaa [eᵥ, aᵥ, iₒ, jₒ], t2_aaaa [fᵥ, bᵥ, lₒ, mₒ], t2_abab [dᵥ, cᵥ, nₒ, kₒ]], [(1, [aᵥ, bᵥ, iₒ, jₒ])]⟩,
  -- line 1163: nmef,lkdc,eaij,bflm,dcnk->abij
  ⟨-1/2, [g_abab [nₒ, mₒ, eᵥ, fᵥ], l2_abab [lₒ, kₒ, dᵥ, cᵥ], t2_aaaa [eᵥ, aᵥ, iₒ, jₒ], t2_abab [bᵥ, fᵥ, lₒ, mₒ], t2_abab [dᵥ, cᵥ, nₒ, kₒ]], [(1, [aᵥ, bᵥ, iₒ, jₒ])]⟩,
  -- line 1166: nmef,lkcd,eaij,fblm,cdnk->abij
  ⟨1/2, [g_aaaa [nₒ, mₒ, eᵥ, fᵥ], l2_abab [lₒ, kₒ, cᵥ, dᵥ], t2_aaaa [eᵥ, aᵥ, iₒ, jₒ], t2_aaaa [fᵥ, bᵥ, lₒ, mₒ], t2_abab [cᵥ, dᵥ, nₒ, kₒ]], [(1, [aᵥ, bᵥ, iₒ, jₒ])]⟩,
  -- line 1169: nmef,lkcd,eaij,bflm,cdnk->abij
  ⟨-1/2, [g_abab [nₒ, mₒ, eᵥ, fᵥ], l2_abab [lₒ, kₒ, cᵥ, dᵥ], t2_aaaa [eᵥ, aᵥ, iₒ, jₒ], t2_abab [bᵥ, fᵥ, lₒ, mₒ], t2_abab [cᵥ, dᵥ, nₒ, kₒ]], [(1, [aᵥ, bᵥ, iₒ, jₒ])]⟩,
  -- line 1172: mnef,kldc,eaij,bfml,dckn->abij
  ⟨-1/2, [g_abab [mₒ, nₒ, eᵥ, fᵥ], l2_bbbb [kₒ, lₒ, dᵥ, cᵥ], t2_aaaa [eᵥ, aᵥ, iₒ, jₒ], t2_abab [bᵥ, fᵥ, mₒ, lₒ], t2_bbbb [dᵥ, cᵥ, kₒ, nₒ]], [(1, [aᵥ, bᵥ, iₒ, jₒ])]⟩,
  -- line 1175: nmef,kldc,eaij,fbkl,dcnm->abij
  ⟨-1/8, [g_aaaa [nₒ, mₒ, eᵥ, fᵥ], l2_aaaa [kₒ, lₒ, dᵥ, cᵥ], t2_aaaa [eᵥ, aᵥ, iₒ, jₒ], t2_aaaa [fᵥ, bᵥ, kₒ, lₒ], t2_aaaa [dᵥ, cᵥ, nₒ, mₒ]], [(1, [aᵥ, bᵥ, iₒ, jₒ])]⟩,
  -- line 1178: nmef,kldc,eaij,bfkl,dcnm->abij
  ⟨1/8, [g_abab [nₒ, mₒ, eᵥ, fᵥ], l2_abab [kₒ, lₒ, dᵥ, cᵥ], t2_aaaa [eᵥ, aᵥ, iₒ, jₒ], t2_abab [bᵥ, fᵥ, kₒ, lₒ], t2_abab [dᵥ, cᵥ, nₒ, mₒ]], [(1, [aᵥ, bᵥ, iₒ, jₒ])]⟩,
  -- line 1181: mnef,kldc,eaij,bfkl,dcmn->abij
  ⟨1/8, [g_abab [mₒ, nₒ, eᵥ, fᵥ], l2_abab [kₒ, lₒ, dᵥ, cᵥ], t2_aaaa [eᵥ, aᵥ, iₒ, jₒ], t2_abab [bᵥ, fᵥ, kₒ, lₒ], t2_abab [dᵥ, cᵥ, mₒ, nₒ]], [(1, [aᵥ, bᵥ, iₒ, jₒ])]⟩,
  -- line 1184: nmef,klcd,eaij,bfkl,cdnm->abij
  ⟨1/8, [g_abab [nₒ, mₒ, eᵥ, fᵥ], l2_abab [kₒ, lₒ, cᵥ, dᵥ], t2_aaaa [eᵥ, aᵥ, iₒ, jₒ], t2_abab [bᵥ, fᵥ, kₒ, lₒ], t2_abab [cᵥ, dᵥ, nₒ, mₒ]], [(1, [aᵥ, bᵥ, iₒ, jₒ])]⟩,
  -- line 1187: mnef,klcd,eaij,bfkl,cdmn->abij
  ⟨1/8, [g_abab [mₒ, nₒ, eᵥ, fᵥ], l2_abab [kₒ, lₒ, cᵥ, dᵥ], t2_aaaa [eᵥ, aᵥ, iₒ, jₒ], t2_abab [bᵥ, fᵥ, kₒ, lₒ], t2_abab [cᵥ, dᵥ, mₒ, nₒ]], [(1, [aᵥ, bᵥ, iₒ, jₒ])]⟩,
  -- line 1190: nmef,lkdc,eaij,bflk,dcnm->abij
  ⟨1/8, [g_abab [nₒ, mₒ, eᵥ, fᵥ], l2_abab [lₒ, kₒ, dᵥ, cᵥ], t2_aaaa [eᵥ, aᵥ, iₒ, jₒ], t2_abab [bᵥ, fᵥ, lₒ, kₒ], t2_abab [dᵥ, cᵥ, nₒ, mₒ]], [(1, [aᵥ, bᵥ, iₒ, jₒ])]⟩,
  -- line 1193: mnef,lkdc,eaij,bflk,dcmn->abij
  ⟨1/8, [g_abab [mₒ, nₒ, eᵥ, fᵥ], l2_abab [lₒ, kₒ, dᵥ, cᵥ], t2_aaaa [eᵥ, aᵥ, iₒ, jₒ], t2_abab [bᵥ, fᵥ, lₒ, kₒ], t2_abab [dᵥ, cᵥ, mₒ, nₒ]], [(1, [aᵥ, bᵥ, iₒ, jₒ])]⟩,
  -- line 1196: nmef,lkcd,eaij,bflk,cdnm->abij
  ⟨1/8, [g_abab [nₒ, mₒ, eᵥ, fᵥ], l2_abab [lₒ, kₒ, cᵥ, dᵥ], t2_aaaa [eᵥ, aᵥ, iₒ, jₒ], t2_abab [bᵥ, fᵥ, lₒ, kₒ], t2_abab [cᵥ, dᵥ, nₒ, mₒ]], [(1, [aᵥ, bᵥ, iₒ, jₒ])]⟩,
  -- line 1199: mnef,lkcd,eaij,bflk,cdmn->abij
  ⟨1/8, [g_abab [mₒ, nₒ, eᵥ, fᵥ], l2_abab [lₒ, kₒ, cᵥ, dᵥ], t2_aaaa [eᵥ, aᵥ, iₒ, jₒ], t2_abab [bᵥ, fᵥ, lₒ, kₒ], t2_abab [cᵥ, dᵥ, mₒ, nₒ]], [(1, [aᵥ, bᵥ, iₒ, jₒ])]⟩,
  -- line 1202: nmef,kldc,ebjk,dclm,fain->abij
  ⟨-1/8, [g_aaaa [nₒ, mₒ, eᵥ, fᵥ], l2_aaaa [kₒ, lₒ, dᵥ, cᵥ], t2_aaaa [eᵥ, bᵥ, jₒ, kₒ], t2_aaaa [dᵥ, cᵥ, lₒ, mₒ], t2_aaaa [fᵥ, aᵥ, iₒ, nₒ]], [(1, [aᵥ, bᵥ, iₒ, jₒ]), (-1, [aᵥ, bᵥ, jₒ, iₒ])]⟩,
  -- line 1206: mnef,kldc,ebjk,dclm,afin->abij
  ⟨-1/8, [g_abab [mₒ, nₒ, eᵥ, fᵥ], l2_aaaa [kₒ, lₒ, dᵥ, cᵥ], t2_aaaa [eᵥ, bᵥ, jₒ, kₒ], t2_aaaa [dᵥ, cᵥ, lₒ, mₒ], t2_abab [aᵥ, fᵥ, iₒ, nₒ]], [(1, [aᵥ, bᵥ, iₒ, jₒ]), (-1, [aᵥ, bᵥ, jₒ, iₒ])]⟩,
  -- line 1210: nmef,kldc,ebjk,dcml,fain->abij
  ⟨1/8, [g_aaaa [nₒ, mₒ, eᵥ, fᵥ], l2_abab [kₒ, lₒ, dᵥ, cᵥ], t2_aaaa [eᵥ, bᵥ, jₒ, kₒ], t2_abab [dᵥ, cᵥ, mₒ, lₒ], t2_aaaa [fᵥ, aᵥ, iₒ, nₒ]], [(1, [aᵥ, bᵥ, iₒ, jₒ]), (-1, [aᵥ, bᵥ, jₒ, iₒ])]⟩,
  -- line 1214: mnef,kldc,ebjk,dcml,afin->abij
  ⟨1/8, [g_abab [mₒ, nₒ, eᵥ, fᵥ], l2_abab [kₒ, lₒ, dᵥ, cᵥ], t2_aaaa [eᵥ, bᵥ, jₒ, kₒ], t2_abab [dᵥ, cᵥ, mₒ, lₒ], t2_abab [aᵥ, fᵥ, iₒ, nₒ]], [(1, [aᵥ, bᵥ, iₒ, jₒ]), (-1, [aᵥ, bᵥ, jₒ, iₒ])]⟩,
  -- line 1218: nmef,klcd,ebjk,cdml,fain->abij
  ⟨1/8, [g_aaaa [nₒ, mₒ, eᵥ, fᵥ], l2_abab [kₒ, lₒ, cᵥ, dᵥ], t2_aaaa [eᵥ, bᵥ, jₒ, kₒ], t2_abab [cᵥ, dᵥ, mₒ, lₒ], t2_aaaa [fᵥ, aᵥ, iₒ, nₒ]], [(1, [aᵥ, bᵥ, iₒ, jₒ]), (-1, [aᵥ, bᵥ, jₒ, iₒ])]⟩,
  -- line 1222: mnef,klcd,ebjk,cdml,afin->abij
  ⟨1/8, [g_abab [mₒ, nₒ, eᵥ, fᵥ], l2_abab [kₒ, lₒ, cᵥ, dᵥ], t2_aaaa [eᵥ, bᵥ, jₒ, kₒ], t2_abab [cᵥ, dᵥ, mₒ, lₒ], t2_abab [aᵥ, fᵥ, iₒ, nₒ]], [(1, [aᵥ, bᵥ, iₒ, jₒ]), (-1, [aᵥ, bᵥ, jₒ, iₒ])]⟩,
  -- line 1226: nmfe,lkdc,bejk,dclm,fain->abij
  ⟨1/8, [g_abab [nₒ, mₒ, fᵥ, eᵥ], l2_abab [lₒ, kₒ, dᵥ, cᵥ], t2_abab [bᵥ, eᵥ, jₒ, kₒ], t2_abab [dᵥ, cᵥ, lₒ, mₒ], t2_aaaa [fᵥ, aᵥ, iₒ, nₒ]], [(1, [aᵥ, bᵥ, iₒ, jₒ]), (-1, [aᵥ, bᵥ, jₒ, iₒ])]⟩,
  -- line 1230: nmef,lkdc,bejk,dclm,afin->abij
  ⟨1/8, [g_bbbb [nₒ, mₒ, eᵥ, fᵥ], l2_abab [lₒ, kₒ, dᵥ, cᵥ], t2_abab [bᵥ, eᵥ, jₒ, kₒ], t2_abab [dᵥ, cᵥ, lₒ, mₒ], t2_abab [aᵥ, fᵥ, iₒ, nₒ]], [(1, [aᵥ, bᵥ, iₒ, jₒ]), (-1, [aᵥ, bᵥ, jₒ, iₒ])]⟩,
  -- line 1234: nmfe,lkcd,bejk,cdlm,fain->abij
  ⟨1/8, [g_abab [nₒ, mₒ, fᵥ, eᵥ], l2_abab [lₒ, kₒ, cᵥ, dᵥ], t2_abab [bᵥ, eᵥ, jₒ, kₒ], t2_abab [cᵥ, dᵥ, lₒ, mₒ], t2_aaaa [fᵥ, aᵥ, iₒ, nₒ]], [(1, [aᵥ, bᵥ, iₒ, jₒ]), (-1, [aᵥ, bᵥ, jₒ, iₒ])]⟩,
  -- line 1238: nmef,lkcd,bejk,cdlm,afin->abij
  ⟨1/8, [g_bbbb [nₒ, mₒ, eᵥ, fᵥ], l2_abab [lₒ, kₒ, cᵥ, dᵥ], t2_abab [bᵥ, eᵥ, jₒ, kₒ], t2_abab [cᵥ, dᵥ, lₒ, mₒ], t2_abab [aᵥ, fᵥ, iₒ, nₒ]], [(1, [aᵥ, bᵥ, iₒ, jₒ]), (-1, [aᵥ, bᵥ, jₒ, iₒ])]⟩,
  -- line 1242: nmfe,kldc,bejk,dclm,fain->abij
  ⟨-1/8, [g_abab [nₒ, mₒ, fᵥ, eᵥ], l2_bbbb [kₒ, lₒ, dᵥ, cᵥ], t2_abab [bᵥ, eᵥ, jₒ, kₒ], t2_bbbb [dᵥ, cᵥ, lₒ, mₒ], t2_aaaa [fᵥ, aᵥ, iₒ, nₒ]], [(1, [aᵥ, bᵥ, iₒ, jₒ]), (-1, [aᵥ, bᵥ, jₒ, iₒ])]⟩,
  -- line 1246: nmef,kldc,bejk,dclm,afin->abij
  ⟨-1/8, [g_bbbb [nₒ, mₒ, eᵥ, fᵥ], l2_bbbb [kₒ, lₒ, dᵥ, cᵥ], t2_abab [bᵥ, eᵥ, jₒ, kₒ], t2_bbbb [dᵥ, cᵥ, lₒ, mₒ], t2_abab [aᵥ, fᵥ, iₒ, nₒ]], [(1, [aᵥ, bᵥ, iₒ, jₒ]), (-1, [aᵥ, bᵥ, jₒ, iₒ])]⟩,
  -- line 1250: nmef,kldc,ebij,dclm,fakn->abij
  ⟨-1/8, [g_aaaa [nₒ, mₒ, eᵥ, fᵥ], l2_aaaa [kₒ, lₒ, dᵥ, cᵥ], t2_aaaa [eᵥ, bᵥ, iₒ, jₒ], t2_aaaa [dᵥ, cᵥ, lₒ, mₒ], t2_aaaa [fᵥ, aᵥ, kₒ, nₒ]], [(1, [aᵥ, bᵥ, iₒ, jₒ])]⟩
  ]

/-- Part 8 of `residQf2_aaaa`. -/
def residQf2_aaaa_8 : Prog := [
  -- line 1253: mnef,kldc,ebij,dclm,afkn->abij
  ⟨-1/8, [g_abab [mₒ, nₒ, eᵥ, fᵥ], l2_aaaa [kₒ, lₒ, dᵥ, cᵥ], t2_aaaa [eᵥ, bᵥ, iₒ, jₒ], t2_aaaa [dᵥ, cᵥ, lₒ, mₒ], t2_abab [aᵥ, fᵥ, kₒ, nₒ]], [(1, [aᵥ, bᵥ, iₒ, jₒ])]⟩,
  -- line 1256: nmef,kldc,ebij,dcml,fakn->abij
  ⟨1/8, [g_aaaa [nₒ, mₒ, eᵥ, fᵥ], l2_abab [kₒ, lₒ, dᵥ, cᵥ], t2_aaaa [eᵥ, bᵥ, iₒ, jₒ], t2_abab [dᵥ, cᵥ, mₒ, lₒ], t2_aaaa [fᵥ, aᵥ, kₒ, nₒ]], [(1, [aᵥ, bᵥ, iₒ, jₒ])]⟩,
  -- line 1259: mnef,kldc,ebij,dcml,afkn->abij
  ⟨1/8, [g_abab [mₒ, nₒ, eᵥ, fᵥ], l2_abab [kₒ, lₒ, dᵥ, cᵥ], t2_aaaa [eᵥ, bᵥ, iₒ, jₒ], t2_abab [dᵥ, cᵥ, mₒ, lₒ], t2_abab [aᵥ, fᵥ, kₒ, nₒ]], [(1, [aᵥ, bᵥ, iₒ, jₒ])]⟩,
  -- line 1262: nmef,klcd,ebij,cdml,fakn->abij
  ⟨1/8, [g_aaaa [nₒ, mₒ, eᵥ, fᵥ], l2_abab [kₒ, lₒ, cᵥ, dᵥ], t2_aaaa [eᵥ, bᵥ, iₒ, jₒ], t2_abab [cᵥ, dᵥ, mₒ, lₒ], t2_aaaa [fᵥ, aᵥ, kₒ, nₒ]], [(1, [aᵥ, bᵥ, iₒ, jₒ])]⟩,
  -- line 1265: mnef,klcd,ebij,cdml,afkn->abij
  ⟨1/8, [g_abab [mₒ, nₒ, eᵥ, fᵥ], l2_abab [kₒ, lₒ, cᵥ, dᵥ], t2_aaaa [eᵥ, bᵥ, iₒ, jₒ], t2_abab [cᵥ, dᵥ, mₒ, lₒ], t2_abab [aᵥ, fᵥ, kₒ, nₒ]], [(1, [aᵥ, bᵥ, iₒ, jₒ])]⟩,
  -- line 1268: nmef,lkdc,ebij,dclm,afnk->abij
  ⟨1/8, [g_abab [nₒ, mₒ, eᵥ, fᵥ], l2_abab [lₒ, kₒ, dᵥ, cᵥ], t2_aaaa [eᵥ, bᵥ, iₒ, jₒ], t2_abab [dᵥ, cᵥ, lₒ, mₒ], t2_abab [aᵥ, fᵥ, nₒ, kₒ]], [(1, [aᵥ, bᵥ, iₒ, jₒ])]⟩,
  -- line 1271: nmef,lkcd,ebij,cdlm,afnk->abij
  ⟨1/8, [g_abab [nₒ, mₒ, eᵥ, fᵥ], l2_abab [lₒ, kₒ, cᵥ, dᵥ], t2_aaaa [eᵥ, bᵥ, iₒ, jₒ], t2_abab [cᵥ, dᵥ, lₒ, mₒ], t2_abab [aᵥ, fᵥ, nₒ, kₒ]], [(1, [aᵥ, bᵥ, iₒ, jₒ])]⟩,
  -- line 1274: nmef,kldc,ebij,dclm,afnk->abij
  ⟨-1/8, [g_abab [nₒ, mₒ, eᵥ, fᵥ], l2_bbbb [kₒ, lₒ, dᵥ, cᵥ], t2_aaaa [eᵥ, bᵥ, iₒ, jₒ], t2_bbbb [dᵥ, cᵥ, lₒ, mₒ], t2_abab [aᵥ, fᵥ, nₒ, kₒ]], [(1, [aᵥ, bᵥ, iₒ, jₒ])]⟩,
  -- line 1277: nmef,kldc,dajm,ebkn,fcil->abij
  ⟨-8333333333333/100000000000000, [g_aaaa [nₒ, mₒ, eᵥ, fᵥ], l2_aaaa [kₒ, lₒ, dᵥ, cᵥ], t2_aaaa [dᵥ, aᵥ, jₒ, mₒ], t2_aaaa [eᵥ, bᵥ, kₒ, nₒ], t2_aaaa [fᵥ, cᵥ, iₒ, lₒ]], [(1, [aᵥ, bᵥ, iₒ, jₒ]), (-1, [aᵥ, bᵥ, jₒ, iₒ]), (-1, [bᵥ, aᵥ, iₒ, jₒ]), (1, [bᵥ, aᵥ, jₒ, iₒ])]⟩,
  -- line 1281: mnfe,kldc,dajm,bekn,fcil->abij
  ⟨8333333333333/100000000000000, [g_abab [mₒ, nₒ, fᵥ, eᵥ], l2_aaaa [kₒ, lₒ, dᵥ, cᵥ], t2_aaaa [dᵥ, aᵥ, jₒ, mₒ], t2_abab [bᵥ, eᵥ, kₒ, nₒ], t2_aaaa [fᵥ, cᵥ, iₒ, lₒ]], [(1, [aᵥ, bᵥ, iₒ, jₒ]), (-1, [aᵥ, bᵥ, jₒ, iₒ]), (-1, [bᵥ, aᵥ, iₒ, jₒ]), (1, [bᵥ, aᵥ, jₒ, iₒ])]⟩,
  -- line 1285: nmef,kldc,dajm,ebkn,fcil->abij
  ⟨-8333333333333/100000000000000, [g_aaaa [nₒ, mₒ, eᵥ, fᵥ], l2_abab [kₒ, lₒ, dᵥ, cᵥ], t2_aaaa [dᵥ, aᵥ, jₒ, mₒ], t2_aaaa [eᵥ, bᵥ, kₒ, nₒ], t2_abab [fᵥ, cᵥ, iₒ, lₒ]], [(1, [aᵥ, bᵥ, iₒ, jₒ]), (-1, [aᵥ, bᵥ, jₒ, iₒ]), (-1, [bᵥ, aᵥ, iₒ, jₒ]), (1, [bᵥ, aᵥ, jₒ, iₒ])]⟩,
  -- line 1289: mnfe,kldc,dajm,bekn,fcil->abij
  ⟨8333333333333/100000000000000, [g_abab [mₒ, nₒ, fᵥ, eᵥ], l2_abab [kₒ, lₒ, dᵥ, cᵥ], t2_aaaa [dᵥ, aᵥ, jₒ, mₒ], t2_abab [bᵥ, eᵥ, kₒ, nₒ], t2_abab [fᵥ, cᵥ, iₒ, lₒ]], [(1, [aᵥ, bᵥ, iₒ, jₒ]), (-1, [aᵥ, bᵥ, jₒ, iₒ]), (-1, [bᵥ, aᵥ, iₒ, jₒ]), (1, [bᵥ, aᵥ, jₒ, iₒ])]⟩,
  -- line 1293: nmef,klcd,adjm,ebkn,cfil->abij
  ⟨8333333333333/100000000000000, [g_abab [nₒ, mₒ, eᵥ, fᵥ], l2_abab [kₒ, lₒ, cᵥ, dᵥ], t2_abab [aᵥ, dᵥ, jₒ, mₒ], t2_aaaa [eᵥ, bᵥ, kₒ, nₒ], t2_abab [cᵥ, fᵥ, iₒ, lₒ]], [(1, [aᵥ, bᵥ, iₒ, jₒ]), (-1, [aᵥ, bᵥ, jₒ, iₒ]), (-1, [bᵥ, aᵥ, iₒ, jₒ]), (1, [bᵥ, aᵥ, jₒ, iₒ])]⟩,
  -- line 1297: nmef,klcd,adjm,bekn,cfil->abij
  ⟨-8333333333333/100000000000000, [g_bbbb [nₒ, mₒ, eᵥ, fᵥ], l2_abab [kₒ, lₒ, cᵥ, dᵥ], t2_abab [aᵥ, dᵥ, jₒ, mₒ], t2_abab [bᵥ, eᵥ, kₒ, nₒ], t2_abab [cᵥ, fᵥ, iₒ, lₒ]], [(1, [aᵥ, bᵥ, iₒ, jₒ]), (-1, [aᵥ, bᵥ, jₒ, iₒ]), (-1, [bᵥ, aᵥ, iₒ, jₒ]), (1, [bᵥ, aᵥ, jₒ, iₒ])]⟩,
  -- line 1301: nmfe,lkcd,adjm,benk,fcil->abij
  ⟨-8333333333333/100000000000000, [g_abab [nₒ, mₒ, fᵥ, eᵥ], l2_abab [lₒ, kₒ, cᵥ, dᵥ], t2_abab [aᵥ, dᵥ, jₒ, mₒ], t2_abab [bᵥ, eᵥ, nₒ, kₒ], t2_aaaa [fᵥ, cᵥ, iₒ, lₒ]], [(1, [aᵥ, bᵥ, iₒ, jₒ]), (-1, [aᵥ, bᵥ, jₒ, iₒ]), (-1, [bᵥ, aᵥ, iₒ, jₒ]), (1, [bᵥ, aᵥ, jₒ, iₒ])]⟩,
  -- line 1305: nmfe,kldc,adjm,benk,fcil->abij
  ⟨-8333333333333/100000000000000, [g_abab [nₒ, mₒ, fᵥ, eᵥ], l2_bbbb [kₒ, lₒ, dᵥ, cᵥ], t2_abab [aᵥ, dᵥ, jₒ, mₒ], t2_abab [bᵥ, eᵥ, nₒ, kₒ], t2_abab [fᵥ, cᵥ, iₒ, lₒ]], [(1, [aᵥ, bᵥ, iₒ, jₒ]), (-1, [aᵥ, bᵥ, jₒ, iₒ]), (-1, [bᵥ, aᵥ, iₒ, jₒ]), (1, [bᵥ, aᵥ, jₒ, iₒ])]⟩
  ]

/-- `UT2/modify_T2resid_T4Qf2.py` 6-1308, `residQf2_aaaa`. -/
def residQf2_aaaa : Prog := residQf2_aaaa_0 ++ (residQf2_aaaa_1 ++ (residQf2_aaaa_2 ++ (residQf2_aaaa_3 ++ (residQf2_aaaa_4 ++ (residQf2_aaaa_5 ++ (residQf2_aaaa_6 ++ (residQf2_aaaa_7 ++ (residQf2_aaaa_8))))))))

end Verif.Gen
