import Verif.Ein.Names
import Verif.Gen.Antisym

/-! Written by `/verif/tools/gen.py`. Programs read from `/repo/UT2`. -/

set_option maxRecDepth 100000

namespace Verif.Gen

open Verif.Ein Verif.Ein.N


/-- Part 0 of `ccsdtq_t4_aaaaaaaa`. -/
def ccsdtq_t4_aaaaaaaa_0 : Prog := [
  -- line 356: nmkl,abjm,cdin->abcdijkl
  ⟨-1, [g_aaaa [nₒ, mₒ, kₒ, lₒ], t2_aaaa [aᵥ, bᵥ, jₒ, mₒ], t2_aaaa [cᵥ, dᵥ, iₒ, nₒ]], [(1, [aᵥ, bᵥ, cᵥ, dᵥ, iₒ, jₒ, kₒ, lₒ]), (-1, [aᵥ, bᵥ, cᵥ, dᵥ, jₒ, iₒ, kₒ, lₒ]), (-1, [aᵥ, cᵥ, bᵥ, dᵥ, iₒ, jₒ, kₒ, lₒ]), (1, [aᵥ, cᵥ, bᵥ, dᵥ, jₒ, iₒ, kₒ, lₒ])]⟩,
  -- line 360: nmkl,adjm,bcin->abcdijkl
  ⟨-1, [g_aaaa [nₒ, mₒ, kₒ, lₒ], t2_aaaa [aᵥ, dᵥ, jₒ, mₒ], t2_aaaa [bᵥ, cᵥ, iₒ, nₒ]], [(1, [aᵥ, bᵥ, cᵥ, dᵥ, iₒ, jₒ, kₒ, lₒ]), (-1, [aᵥ, bᵥ, cᵥ, dᵥ, jₒ, iₒ, kₒ, lₒ])]⟩,
  -- line 364: nmjl,abkm,cdin->abcdijkl
  ⟨1, [g_aaaa [nₒ, mₒ, jₒ, lₒ], t2_aaaa [aᵥ, bᵥ, kₒ, mₒ], t2_aaaa [cᵥ, dᵥ, iₒ, nₒ]], [(1, [aᵥ, bᵥ, cᵥ, dᵥ, iₒ, jₒ, kₒ, lₒ]), (-1, [aᵥ, bᵥ, cᵥ, dᵥ, kₒ, jₒ, iₒ, lₒ]), (-1, [aᵥ, cᵥ, bᵥ, dᵥ, iₒ, jₒ, kₒ, lₒ]), (1, [aᵥ, cᵥ, bᵥ, dᵥ, kₒ, jₒ, iₒ, lₒ])]⟩,
  -- line 368: nmjl,adkm,bcin->abcdijkl
  ⟨1, [g_aaaa [nₒ, mₒ, jₒ, lₒ], t2_aaaa [aᵥ, dᵥ, kₒ, mₒ], t2_aaaa [bᵥ, cᵥ, iₒ, nₒ]], [(1, [aᵥ, bᵥ, cᵥ, dᵥ, iₒ, jₒ, kₒ, lₒ]), (-1, [aᵥ, bᵥ, cᵥ, dᵥ, kₒ, jₒ, iₒ, lₒ])]⟩,
  -- line 372: nmil,abkm,cdjn->abcdijkl
  ⟨-1, [g_aaaa [nₒ, mₒ, iₒ, lₒ], t2_aaaa [aᵥ, bᵥ, kₒ, mₒ], t2_aaaa [cᵥ, dᵥ, jₒ, nₒ]], [(1, [aᵥ, bᵥ, cᵥ, dᵥ, iₒ, jₒ, kₒ, lₒ]), (-1, [aᵥ, bᵥ, cᵥ, dᵥ, iₒ, kₒ, jₒ, lₒ]), (-1, [aᵥ, cᵥ, bᵥ, dᵥ, iₒ, jₒ, kₒ, lₒ]), (1, [aᵥ, cᵥ, bᵥ, dᵥ, iₒ, kₒ, jₒ, lₒ])]⟩,
  -- line 376: nmil,adkm,bcjn->abcdijkl
  ⟨-1, [g_aaaa [nₒ, mₒ, iₒ, lₒ], t2_aaaa [aᵥ, dᵥ, kₒ, mₒ], t2_aaaa [bᵥ, cᵥ, jₒ, nₒ]], [(1, [aᵥ, bᵥ, cᵥ, dᵥ, iₒ, jₒ, kₒ, lₒ]), (-1, [aᵥ, bᵥ, cᵥ, dᵥ, iₒ, kₒ, jₒ, lₒ])]⟩,
  -- line 380: nmjk,ablm,cdin->abcdijkl
  ⟨-1, [g_aaaa [nₒ, mₒ, jₒ, kₒ], t2_aaaa [aᵥ, bᵥ, lₒ, mₒ], t2_aaaa [cᵥ, dᵥ, iₒ, nₒ]], [(1, [aᵥ, bᵥ, cᵥ, dᵥ, iₒ, jₒ, kₒ, lₒ]), (-1, [aᵥ, bᵥ, cᵥ, dᵥ, lₒ, jₒ, kₒ, iₒ]), (-1, [aᵥ, cᵥ, bᵥ, dᵥ, iₒ, jₒ, kₒ, lₒ]), (1, [aᵥ, cᵥ, bᵥ, dᵥ, lₒ, jₒ, kₒ, iₒ])]⟩,
  -- line 384: nmjk,adlm,bcin->abcdijkl
  ⟨-1, [g_aaaa [nₒ, mₒ, jₒ, kₒ], t2_aaaa [aᵥ, dᵥ, lₒ, mₒ], t2_aaaa [bᵥ, cᵥ, iₒ, nₒ]], [(1, [aᵥ, bᵥ, cᵥ, dᵥ, iₒ, jₒ, kₒ, lₒ]), (-1, [aᵥ, bᵥ, cᵥ, dᵥ, lₒ, jₒ, kₒ, iₒ])]⟩,
  -- line 388: nmik,ablm,cdjn->abcdijkl
  ⟨1, [g_aaaa [nₒ, mₒ, iₒ, kₒ], t2_aaaa [aᵥ, bᵥ, lₒ, mₒ], t2_aaaa [cᵥ, dᵥ, jₒ, nₒ]], [(1, [aᵥ, bᵥ, cᵥ, dᵥ, iₒ, jₒ, kₒ, lₒ]), (-1, [aᵥ, bᵥ, cᵥ, dᵥ, iₒ, lₒ, kₒ, jₒ]), (-1, [aᵥ, cᵥ, bᵥ, dᵥ, iₒ, jₒ, kₒ, lₒ]), (1, [aᵥ, cᵥ, bᵥ, dᵥ, iₒ, lₒ, kₒ, jₒ])]⟩,
  -- line 392: nmik,adlm,bcjn->abcdijkl
  ⟨1, [g_aaaa [nₒ, mₒ, iₒ, kₒ], t2_aaaa [aᵥ, dᵥ, lₒ, mₒ], t2_aaaa [bᵥ, cᵥ, jₒ, nₒ]], [(1, [aᵥ, bᵥ, cᵥ, dᵥ, iₒ, jₒ, kₒ, lₒ]), (-1, [aᵥ, bᵥ, cᵥ, dᵥ, iₒ, lₒ, kₒ, jₒ])]⟩,
  -- line 396: nmij,ablm,cdkn->abcdijkl
  ⟨-1, [g_aaaa [nₒ, mₒ, iₒ, jₒ], t2_aaaa [aᵥ, bᵥ, lₒ, mₒ], t2_aaaa [cᵥ, dᵥ, kₒ, nₒ]], [(1, [aᵥ, bᵥ, cᵥ, dᵥ, iₒ, jₒ, kₒ, lₒ]), (-1, [aᵥ, bᵥ, cᵥ, dᵥ, iₒ, jₒ, lₒ, kₒ]), (-1, [aᵥ, cᵥ, bᵥ, dᵥ, iₒ, jₒ, kₒ, lₒ]), (1, [aᵥ, cᵥ, bᵥ, dᵥ, iₒ, jₒ, lₒ, kₒ])]⟩,
  -- line 400: nmij,adlm,bckn->abcdijkl
  ⟨-1, [g_aaaa [nₒ, mₒ, iₒ, jₒ], t2_aaaa [aᵥ, dᵥ, lₒ, mₒ], t2_aaaa [bᵥ, cᵥ, kₒ, nₒ]], [(1, [aᵥ, bᵥ, cᵥ, dᵥ, iₒ, jₒ, kₒ, lₒ]), (-1, [aᵥ, bᵥ, cᵥ, dᵥ, iₒ, jₒ, lₒ, kₒ])]⟩,
  -- line 404: mael,ebjk,cdim->abcdijkl
  ⟨1, [g_aaaa [mₒ, aᵥ, eᵥ, lₒ], t2_aaaa [eᵥ, bᵥ, jₒ, kₒ], t2_aaaa [cᵥ, dᵥ, iₒ, mₒ]], [(1, [aᵥ, bᵥ, cᵥ, dᵥ, iₒ, jₒ, kₒ, lₒ]), (-1, [aᵥ, bᵥ, cᵥ, dᵥ, jₒ, iₒ, kₒ, lₒ]), (-1, [aᵥ, cᵥ, bᵥ, dᵥ, iₒ, jₒ, kₒ, lₒ]), (1, [aᵥ, cᵥ, bᵥ, dᵥ, jₒ, iₒ, kₒ, lₒ])]⟩,
  -- line 408: mael,ebij,cdkm->abcdijkl
  ⟨1, [g_aaaa [mₒ, aᵥ, eᵥ, lₒ], t2_aaaa [eᵥ, bᵥ, iₒ, jₒ], t2_aaaa [cᵥ, dᵥ, kₒ, mₒ]], [(1, [aᵥ, bᵥ, cᵥ, dᵥ, iₒ, jₒ, kₒ, lₒ]), (-1, [aᵥ, bᵥ, cᵥ, dᵥ, iₒ, jₒ, lₒ, kₒ]), (-1, [aᵥ, cᵥ, bᵥ, dᵥ, iₒ, jₒ, kₒ, lₒ]), (1, [aᵥ, cᵥ, bᵥ, dᵥ, iₒ, jₒ, lₒ, kₒ])]⟩,
  -- line 412: mael,edjk,bcim->abcdijkl
  ⟨1, [g_aaaa [mₒ, aᵥ, eᵥ, lₒ], t2_aaaa [eᵥ, dᵥ, jₒ, kₒ], t2_aaaa [bᵥ, cᵥ, iₒ, mₒ]], [(1, [aᵥ, bᵥ, cᵥ, dᵥ, iₒ, jₒ, kₒ, lₒ]), (-1, [aᵥ, bᵥ, cᵥ, dᵥ, jₒ, iₒ, kₒ, lₒ]), (-1, [bᵥ, aᵥ, cᵥ, dᵥ, iₒ, jₒ, kₒ, lₒ]), (1, [bᵥ, aᵥ, cᵥ, dᵥ, jₒ, iₒ, kₒ, lₒ])]⟩,
  -- line 416: mael,edij,bckm->abcdijkl
  ⟨1, [g_aaaa [mₒ, aᵥ, eᵥ, lₒ], t2_aaaa [eᵥ, dᵥ, iₒ, jₒ], t2_aaaa [bᵥ, cᵥ, kₒ, mₒ]], [(1, [aᵥ, bᵥ, cᵥ, dᵥ, iₒ, jₒ, kₒ, lₒ]), (-1, [aᵥ, bᵥ, cᵥ, dᵥ, iₒ, jₒ, lₒ, kₒ]), (-1, [bᵥ, aᵥ, cᵥ, dᵥ, iₒ, jₒ, kₒ, lₒ]), (1, [bᵥ, aᵥ, cᵥ, dᵥ, iₒ, jₒ, lₒ, kₒ])]⟩,
  -- line 420: maek,ebjl,cdim->abcdijkl
  ⟨-1, [g_aaaa [mₒ, aᵥ, eᵥ, kₒ], t2_aaaa [eᵥ, bᵥ, jₒ, lₒ], t2_aaaa [cᵥ, dᵥ, iₒ, mₒ]], [(1, [aᵥ, bᵥ, cᵥ, dᵥ, iₒ, jₒ, kₒ, lₒ]), (-1, [aᵥ, bᵥ, cᵥ, dᵥ, jₒ, iₒ, kₒ, lₒ]), (-1, [aᵥ, cᵥ, bᵥ, dᵥ, iₒ, jₒ, kₒ, lₒ]), (1, [aᵥ, cᵥ, bᵥ, dᵥ, jₒ, iₒ, kₒ, lₒ])]⟩,
  -- line 424: maek,edjl,bcim->abcdijkl
  ⟨-1, [g_aaaa [mₒ, aᵥ, eᵥ, kₒ], t2_aaaa [eᵥ, dᵥ, jₒ, lₒ], t2_aaaa [bᵥ, cᵥ, iₒ, mₒ]], [(1, [aᵥ, bᵥ, cᵥ, dᵥ, iₒ, jₒ, kₒ, lₒ]), (-1, [aᵥ, bᵥ, cᵥ, dᵥ, jₒ, iₒ, kₒ, lₒ]), (-1, [bᵥ, aᵥ, cᵥ, dᵥ, iₒ, jₒ, kₒ, lₒ]), (1, [bᵥ, aᵥ, cᵥ, dᵥ, jₒ, iₒ, kₒ, lₒ])]⟩,
  -- line 428: maej,ebkl,cdim->abcdijkl
  ⟨1, [g_aaaa [mₒ, aᵥ, eᵥ, jₒ], t2_aaaa [eᵥ, bᵥ, kₒ, lₒ], t2_aaaa [cᵥ, dᵥ, iₒ, mₒ]], [(1, [aᵥ, bᵥ, cᵥ, dᵥ, iₒ, jₒ, kₒ, lₒ]), (-1, [aᵥ, bᵥ, cᵥ, dᵥ, kₒ, jₒ, iₒ, lₒ]), (-1, [aᵥ, cᵥ, bᵥ, dᵥ, iₒ, jₒ, kₒ, lₒ]), (1, [aᵥ, cᵥ, bᵥ, dᵥ, kₒ, jₒ, iₒ, lₒ])]⟩,
  -- line 432: maej,ebik,cdlm->abcdijkl
  ⟨1, [g_aaaa [mₒ, aᵥ, eᵥ, jₒ], t2_aaaa [eᵥ, bᵥ, iₒ, kₒ], t2_aaaa [cᵥ, dᵥ, lₒ, mₒ]], [(1, [aᵥ, bᵥ, cᵥ, dᵥ, iₒ, jₒ, kₒ, lₒ]), (-1, [aᵥ, bᵥ, cᵥ, dᵥ, jₒ, iₒ, kₒ, lₒ]), (-1, [aᵥ, cᵥ, bᵥ, dᵥ, iₒ, jₒ, kₒ, lₒ]), (1, [aᵥ, cᵥ, bᵥ, dᵥ, jₒ, iₒ, kₒ, lₒ])]⟩,
  -- line 436: maej,edkl,bcim->abcdijkl
  ⟨1, [g_aaaa [mₒ, aᵥ, eᵥ, jₒ], t2_aaaa [eᵥ, dᵥ, kₒ, lₒ], t2_aaaa [bᵥ, cᵥ, iₒ, mₒ]], [(1, [aᵥ, bᵥ, cᵥ, dᵥ, iₒ, jₒ, kₒ, lₒ]), (-1, [aᵥ, bᵥ, cᵥ, dᵥ, kₒ, jₒ, iₒ, lₒ]), (-1, [bᵥ, aᵥ, cᵥ, dᵥ, iₒ, jₒ, kₒ, lₒ]), (1, [bᵥ, aᵥ, cᵥ, dᵥ, kₒ, jₒ, iₒ, lₒ])]⟩,
  -- line 440: maej,edik,bclm->abcdijkl
  ⟨1, [g_aaaa [mₒ, aᵥ, eᵥ, jₒ], t2_aaaa [eᵥ, dᵥ, iₒ, kₒ], t2_aaaa [bᵥ, cᵥ, lₒ, mₒ]], [(1, [aᵥ, bᵥ, cᵥ, dᵥ, iₒ, jₒ, kₒ, lₒ]), (-1, [aᵥ, bᵥ, cᵥ, dᵥ, jₒ, iₒ, kₒ, lₒ]), (-1, [bᵥ, aᵥ, cᵥ, dᵥ, iₒ, jₒ, kₒ, lₒ]), (1, [bᵥ, aᵥ, cᵥ, dᵥ, jₒ, iₒ, kₒ, lₒ])]⟩,
  -- line 444: maei,ebkl,cdjm->abcdijkl
  ⟨-1, [g_aaaa [mₒ, aᵥ, eᵥ, iₒ], t2_aaaa [eᵥ, bᵥ, kₒ, lₒ], t2_aaaa [cᵥ, dᵥ, jₒ, mₒ]], [(1, [aᵥ, bᵥ, cᵥ, dᵥ, iₒ, jₒ, kₒ, lₒ]), (-1, [aᵥ, bᵥ, cᵥ, dᵥ, iₒ, kₒ, jₒ, lₒ]), (-1, [aᵥ, cᵥ, bᵥ, dᵥ, iₒ, jₒ, kₒ, lₒ]), (1, [aᵥ, cᵥ, bᵥ, dᵥ, iₒ, kₒ, jₒ, lₒ])]⟩,
  -- line 448: maei,edkl,bcjm->abcdijkl
  ⟨-1, [g_aaaa [mₒ, aᵥ, eᵥ, iₒ], t2_aaaa [eᵥ, dᵥ, kₒ, lₒ], t2_aaaa [bᵥ, cᵥ, jₒ, mₒ]], [(1, [aᵥ, bᵥ, cᵥ, dᵥ, iₒ, jₒ, kₒ, lₒ]), (-1, [aᵥ, bᵥ, cᵥ, dᵥ, iₒ, kₒ, jₒ, lₒ]), (-1, [bᵥ, aᵥ, cᵥ, dᵥ, iₒ, jₒ, kₒ, lₒ]), (1, [bᵥ, aᵥ, cᵥ, dᵥ, iₒ, kₒ, jₒ, lₒ])]⟩,
  -- line 452: mbel,eajk,cdim->abcdijkl
  ⟨-1, [g_aaaa [mₒ, bᵥ, eᵥ, lₒ], t2_aaaa [eᵥ, aᵥ, jₒ, kₒ], t2_aaaa [cᵥ, dᵥ, iₒ, mₒ]], [(1, [aᵥ, bᵥ, cᵥ, dᵥ, iₒ, jₒ, kₒ, lₒ]), (-1, [aᵥ, bᵥ, cᵥ, dᵥ, jₒ, iₒ, kₒ, lₒ]), (-1, [cᵥ, bᵥ, aᵥ, dᵥ, iₒ, jₒ, kₒ, lₒ]), (1, [cᵥ, bᵥ, aᵥ, dᵥ, jₒ, iₒ, kₒ, lₒ])]⟩,
  -- line 456: mbel,eaij,cdkm->abcdijkl
  ⟨-1, [g_aaaa [mₒ, bᵥ, eᵥ, lₒ], t2_aaaa [eᵥ, aᵥ, iₒ, jₒ], t2_aaaa [cᵥ, dᵥ, kₒ, mₒ]], [(1, [aᵥ, bᵥ, cᵥ, dᵥ, iₒ, jₒ, kₒ, lₒ]), (-1, [aᵥ, bᵥ, cᵥ, dᵥ, iₒ, jₒ, lₒ, kₒ]), (-1, [cᵥ, bᵥ, aᵥ, dᵥ, iₒ, jₒ, kₒ, lₒ]), (1, [cᵥ, bᵥ, aᵥ, dᵥ, iₒ, jₒ, lₒ, kₒ])]⟩,
  -- line 460: mbek,eajl,cdim->abcdijkl
  ⟨1, [g_aaaa [mₒ, bᵥ, eᵥ, kₒ], t2_aaaa [eᵥ, aᵥ, jₒ, lₒ], t2_aaaa [cᵥ, dᵥ, iₒ, mₒ]], [(1, [aᵥ, bᵥ, cᵥ, dᵥ, iₒ, jₒ, kₒ, lₒ]), (-1, [aᵥ, bᵥ, cᵥ, dᵥ, jₒ, iₒ, kₒ, lₒ]), (-1, [cᵥ, bᵥ, aᵥ, dᵥ, iₒ, jₒ, kₒ, lₒ]), (1, [cᵥ, bᵥ, aᵥ, dᵥ, jₒ, iₒ, kₒ, lₒ])]⟩,
  -- line 464: mbej,eakl,cdim->abcdijkl
  ⟨-1, [g_aaaa [mₒ, bᵥ, eᵥ, jₒ], t2_aaaa [eᵥ, aᵥ, kₒ, lₒ], t2_aaaa [cᵥ, dᵥ, iₒ, mₒ]], [(1, [aᵥ, bᵥ, cᵥ, dᵥ, iₒ, jₒ, kₒ, lₒ]), (-1, [aᵥ, bᵥ, cᵥ, dᵥ, kₒ, jₒ, iₒ, lₒ]), (-1, [cᵥ, bᵥ, aᵥ, dᵥ, iₒ, jₒ, kₒ, lₒ]), (1, [cᵥ, bᵥ, aᵥ, dᵥ, kₒ, jₒ, iₒ, lₒ])]⟩,
  -- line 468: mbej,eaik,cdlm->abcdijkl
  ⟨-1, [g_aaaa [mₒ, bᵥ, eᵥ, jₒ], t2_aaaa [eᵥ, aᵥ, iₒ, kₒ], t2_aaaa [cᵥ, dᵥ, lₒ, mₒ]], [(1, [aᵥ, bᵥ, cᵥ, dᵥ, iₒ, jₒ, kₒ, lₒ]), (-1, [aᵥ, bᵥ, cᵥ, dᵥ, jₒ, iₒ, kₒ, lₒ]), (-1, [cᵥ, bᵥ, aᵥ, dᵥ, iₒ, jₒ, kₒ, lₒ]), (1, [cᵥ, bᵥ, aᵥ, dᵥ, jₒ, iₒ, kₒ, lₒ])]⟩,
  -- line 472: mbei,eakl,cdjm->abcdijkl
  ⟨1, [g_aaaa [mₒ, bᵥ, eᵥ, iₒ], t2_aaaa [eᵥ, aᵥ, kₒ, lₒ], t2_aaaa [cᵥ, dᵥ, jₒ, mₒ]], [(1, [aᵥ, bᵥ, cᵥ, dᵥ, iₒ, jₒ, kₒ, lₒ]), (-1, [aᵥ, bᵥ, cᵥ, dᵥ, iₒ, kₒ, jₒ, lₒ]), (-1, [cᵥ, bᵥ, aᵥ, dᵥ, iₒ, jₒ, kₒ, lₒ]), (1, [cᵥ, bᵥ, aᵥ, dᵥ, iₒ, kₒ, jₒ, lₒ])]⟩,
  -- line 476: mcel,eajk,bdim->abcdijkl
  ⟨1, [g_aaaa [mₒ, cᵥ, eᵥ, lₒ], t2_aaaa [eᵥ, aᵥ, jₒ, kₒ], t2_aaaa [bᵥ, dᵥ, iₒ, mₒ]], [(1, [aᵥ, bᵥ, cᵥ, dᵥ, iₒ, jₒ, kₒ, lₒ]), (-1, [aᵥ, bᵥ, cᵥ, dᵥ, jₒ, iₒ, kₒ, lₒ]), (-1, [bᵥ, aᵥ, cᵥ, dᵥ, iₒ, jₒ, kₒ, lₒ]), (1, [bᵥ, aᵥ, cᵥ, dᵥ, jₒ, iₒ, kₒ, lₒ])]⟩,
  -- line 480: mcel,eaij,bdkm->abcdijkl
  ⟨1, [g_aaaa [mₒ, cᵥ, eᵥ, lₒ], t2_aaaa [eᵥ, aᵥ, iₒ, jₒ], t2_aaaa [bᵥ, dᵥ, kₒ, mₒ]], [(1, [aᵥ, bᵥ, cᵥ, dᵥ, iₒ, jₒ, kₒ, lₒ]), (-1, [aᵥ, bᵥ, cᵥ, dᵥ, iₒ, jₒ, lₒ, kₒ]), (-1, [bᵥ, aᵥ, cᵥ, dᵥ, iₒ, jₒ, kₒ, lₒ]), (1, [bᵥ, aᵥ, cᵥ, dᵥ, iₒ, jₒ, lₒ, kₒ])]⟩,
  -- line 484: mcel,edjk,abim->abcdijkl
  ⟨1, [g_aaaa [mₒ, cᵥ, eᵥ, lₒ], t2_aaaa [eᵥ, dᵥ, jₒ, kₒ], t2_aaaa [aᵥ, bᵥ, iₒ, mₒ]], [(1, [aᵥ, bᵥ, cᵥ, dᵥ, iₒ, jₒ, kₒ, lₒ]), (-1, [aᵥ, bᵥ, cᵥ, dᵥ, jₒ, iₒ, kₒ, lₒ]), (-1, [aᵥ, bᵥ, dᵥ, cᵥ, iₒ, jₒ, kₒ, lₒ]), (1, [aᵥ, bᵥ, dᵥ, cᵥ, jₒ, iₒ, kₒ, lₒ])]⟩,
  -- line 488: mcel,edij,abkm->abcdijkl
  ⟨1, [g_aaaa [mₒ, cᵥ, eᵥ, lₒ], t2_aaaa [eᵥ, dᵥ, iₒ, jₒ], t2_aaaa [aᵥ, bᵥ, kₒ, mₒ]], [(1, [aᵥ, bᵥ, cᵥ, dᵥ, iₒ, jₒ, kₒ, lₒ]), (-1, [aᵥ, bᵥ, cᵥ, dᵥ, iₒ, jₒ, lₒ, kₒ]), (-1, [aᵥ, bᵥ, dᵥ, cᵥ, iₒ, jₒ, kₒ, lₒ]), (1, [aᵥ, bᵥ, dᵥ, cᵥ, iₒ, jₒ, lₒ, kₒ])]⟩,
  -- line 492: mcek,eajl,bdim->abcdijkl
  ⟨-1, [g_aaaa [mₒ, cᵥ, eᵥ, kₒ], t2_aaaa [eᵥ, aᵥ, jₒ, lₒ], t2_aaaa [bᵥ, dᵥ, iₒ, mₒ]], [(1, [aᵥ, bᵥ, cᵥ, dᵥ, iₒ, jₒ, kₒ, lₒ]), (-1, [aᵥ, bᵥ, cᵥ, dᵥ, jₒ, iₒ, kₒ, lₒ]), (-1, [bᵥ, aᵥ, cᵥ, dᵥ, iₒ, jₒ, kₒ, lₒ]), (1, [bᵥ, aᵥ, cᵥ, dᵥ, jₒ, iₒ, kₒ, lₒ])]⟩,
  -- line 496: mcek,edjl,abim->abcdijkl
  ⟨-1, [g_aaaa [mₒ, cᵥ, eᵥ, kₒ], t2_aaaa [eᵥ, dᵥ, jₒ, lₒ], t2_aaaa [aᵥ, bᵥ, iₒ, mₒ]], [(1, [aᵥ, bᵥ, cᵥ, dᵥ, iₒ, jₒ, kₒ, lₒ]), (-1, [aᵥ, bᵥ, cᵥ, dᵥ, jₒ, iₒ, kₒ, lₒ]), (-1, [aᵥ, bᵥ, dᵥ, cᵥ, iₒ, jₒ, kₒ, lₒ]), (1, [aᵥ, bᵥ, dᵥ, cᵥ, jₒ, iₒ, kₒ, lₒ])]⟩,
  -- line 500: mcej,eakl,bdim->abcdijkl
  ⟨1, [g_aaaa [mₒ, cᵥ, eᵥ, jₒ], t2_aaaa [eᵥ, aᵥ, kₒ, lₒ], t2_aaaa [bᵥ, dᵥ, iₒ, mₒ]], [(1, [aᵥ, bᵥ, cᵥ, dᵥ, iₒ, jₒ, kₒ, lₒ]), (-1, [aᵥ, bᵥ, cᵥ, dᵥ, kₒ, jₒ, iₒ, lₒ]), (-1, [bᵥ, aᵥ, cᵥ, dᵥ, iₒ, jₒ, kₒ, lₒ]), (1, [bᵥ, aᵥ, cᵥ, dᵥ, kₒ, jₒ, iₒ, lₒ])]⟩,
  -- line 504: mcej,eaik,bdlm->abcdijkl
  ⟨1, [g_aaaa [mₒ, cᵥ, eᵥ, jₒ], t2_aaaa [eᵥ, aᵥ, iₒ, kₒ], t2_aaaa [bᵥ, dᵥ, lₒ, mₒ]], [(1, [aᵥ, bᵥ, cᵥ, dᵥ, iₒ, jₒ, kₒ, lₒ]), (-1, [aᵥ, bᵥ, cᵥ, dᵥ, jₒ, iₒ, kₒ, lₒ]), (-1, [bᵥ, aᵥ, cᵥ, dᵥ, iₒ, jₒ, kₒ, lₒ]), (1, [bᵥ, aᵥ, cᵥ, dᵥ, jₒ, iₒ, kₒ, lₒ])]⟩,
  -- line 508: mcej,edkl,abim->abcdijkl
  ⟨1, [g_aaaa [mₒ, cᵥ, eᵥ, jₒ], t2_aaaa [eᵥ, dᵥ, kₒ, lₒ], t2_aaaa [aᵥ, bᵥ, iₒ, mₒ]], [(1, [aᵥ, bᵥ, cᵥ, dᵥ, iₒ, jₒ, kₒ, lₒ]), (-1, [aᵥ, bᵥ, cᵥ, dᵥ, kₒ, jₒ, iₒ, lₒ]), (-1, [aᵥ, bᵥ, dᵥ, cᵥ, iₒ, jₒ, kₒ, lₒ]), (1, [aᵥ, bᵥ, dᵥ, cᵥ, kₒ, jₒ, iₒ, lₒ])]⟩,
  -- line 512: mcej,edik,ablm->abcdijkl
  ⟨1, [g_aaaa [mₒ, cᵥ, eᵥ, jₒ], t2_aaaa [eᵥ, dᵥ, iₒ, kₒ], t2_aaaa [aᵥ, bᵥ, lₒ, mₒ]], [(1, [aᵥ, bᵥ, cᵥ, dᵥ, iₒ, jₒ, kₒ, lₒ]), (-1, [aᵥ, bᵥ, cᵥ, dᵥ, jₒ, iₒ, kₒ, lₒ]), (-1, [aᵥ, bᵥ, dᵥ, cᵥ, iₒ, jₒ, kₒ, lₒ]), (1, [aᵥ, bᵥ, dᵥ, cᵥ, jₒ, iₒ, kₒ, lₒ])]⟩
  ]

/-- Part 1 of `ccsdtq_t4_aaaaaaaa`. -/
def ccsdtq_t4_aaaaaaaa_1 : Prog := [
  -- line 516: mcei,eakl,bdjm->abcdijkl
  ⟨-1, [g_aaaa [mₒ, cᵥ, eᵥ, iₒ], t2_aaaa [eᵥ, aᵥ, kₒ, lₒ], t2_aaaa [bᵥ, dᵥ, jₒ, mₒ]], [(1, [aᵥ, bᵥ, cᵥ, dᵥ, iₒ, jₒ, kₒ, lₒ]), (-1, [aᵥ, bᵥ, cᵥ, dᵥ, iₒ, kₒ, jₒ, lₒ]), (-1, [bᵥ, aᵥ, cᵥ, dᵥ, iₒ, jₒ, kₒ, lₒ]), (1, [bᵥ, aᵥ, cᵥ, dᵥ, iₒ, kₒ, jₒ, lₒ])]⟩,
  -- line 520: mcei,edkl,abjm->abcdijkl
  ⟨-1, [g_aaaa [mₒ, cᵥ, eᵥ, iₒ], t2_aaaa [eᵥ, dᵥ, kₒ, lₒ], t2_aaaa [aᵥ, bᵥ, jₒ, mₒ]], [(1, [aᵥ, bᵥ, cᵥ, dᵥ, iₒ, jₒ, kₒ, lₒ]), (-1, [aᵥ, bᵥ, cᵥ, dᵥ, iₒ, kₒ, jₒ, lₒ]), (-1, [aᵥ, bᵥ, dᵥ, cᵥ, iₒ, jₒ, kₒ, lₒ]), (1, [aᵥ, bᵥ, dᵥ, cᵥ, iₒ, kₒ, jₒ, lₒ])]⟩,
  -- line 524: mdel,eajk,bcim->abcdijkl
  ⟨-1, [g_aaaa [mₒ, dᵥ, eᵥ, lₒ], t2_aaaa [eᵥ, aᵥ, jₒ, kₒ], t2_aaaa [bᵥ, cᵥ, iₒ, mₒ]], [(1, [aᵥ, bᵥ, cᵥ, dᵥ, iₒ, jₒ, kₒ, lₒ]), (-1, [aᵥ, bᵥ, cᵥ, dᵥ, jₒ, iₒ, kₒ, lₒ]), (-1, [bᵥ, aᵥ, cᵥ, dᵥ, iₒ, jₒ, kₒ, lₒ]), (1, [bᵥ, aᵥ, cᵥ, dᵥ, jₒ, iₒ, kₒ, lₒ])]⟩,
  -- line 528: mdel,eaij,bckm->abcdijkl
  ⟨-1, [g_aaaa [mₒ, dᵥ, eᵥ, lₒ], t2_aaaa [eᵥ, aᵥ, iₒ, jₒ], t2_aaaa [bᵥ, cᵥ, kₒ, mₒ]], [(1, [aᵥ, bᵥ, cᵥ, dᵥ, iₒ, jₒ, kₒ, lₒ]), (-1, [aᵥ, bᵥ, cᵥ, dᵥ, iₒ, jₒ, lₒ, kₒ]), (-1, [bᵥ, aᵥ, cᵥ, dᵥ, iₒ, jₒ, kₒ, lₒ]), (1, [bᵥ, aᵥ, cᵥ, dᵥ, iₒ, jₒ, lₒ, kₒ])]⟩,
  -- line 532: mdek,eajl,bcim->abcdijkl
  ⟨1, [g_aaaa [mₒ, dᵥ, eᵥ, kₒ], t2_aaaa [eᵥ, aᵥ, jₒ, lₒ], t2_aaaa [bᵥ, cᵥ, iₒ, mₒ]], [(1, [aᵥ, bᵥ, cᵥ, dᵥ, iₒ, jₒ, kₒ, lₒ]), (-1, [aᵥ, bᵥ, cᵥ, dᵥ, jₒ, iₒ, kₒ, lₒ]), (-1, [bᵥ, aᵥ, cᵥ, dᵥ, iₒ, jₒ, kₒ, lₒ]), (1, [bᵥ, aᵥ, cᵥ, dᵥ, jₒ, iₒ, kₒ, lₒ])]⟩,
  -- line 536: mdej,eakl,bcim->abcdijkl
  ⟨-1, [g_aaaa [mₒ, dᵥ, eᵥ, jₒ], t2_aaaa [eᵥ, aᵥ, kₒ, lₒ], t2_aaaa [bᵥ, cᵥ, iₒ, mₒ]], [(1, [aᵥ, bᵥ, cᵥ, dᵥ, iₒ, jₒ, kₒ, lₒ]), (-1, [aᵥ, bᵥ, cᵥ, dᵥ, kₒ, jₒ, iₒ, lₒ]), (-1, [bᵥ, aᵥ, cᵥ, dᵥ, iₒ, jₒ, kₒ, lₒ]), (1, [bᵥ, aᵥ, cᵥ, dᵥ, kₒ, jₒ, iₒ, lₒ])]⟩,
  -- line 540: mdej,eaik,bclm->abcdijkl
  ⟨-1, [g_aaaa [mₒ, dᵥ, eᵥ, jₒ], t2_aaaa [eᵥ, aᵥ, iₒ, kₒ], t2_aaaa [bᵥ, cᵥ, lₒ, mₒ]], [(1, [aᵥ, bᵥ, cᵥ, dᵥ, iₒ, jₒ, kₒ, lₒ]), (-1, [aᵥ, bᵥ, cᵥ, dᵥ, jₒ, iₒ, kₒ, lₒ]), (-1, [bᵥ, aᵥ, cᵥ, dᵥ, iₒ, jₒ, kₒ, lₒ]), (1, [bᵥ, aᵥ, cᵥ, dᵥ, jₒ, iₒ, kₒ, lₒ])]⟩,
  -- line 544: mdei,eakl,bcjm->abcdijkl
  ⟨1, [g_aaaa [mₒ, dᵥ, eᵥ, iₒ], t2_aaaa [eᵥ, aᵥ, kₒ, lₒ], t2_aaaa [bᵥ, cᵥ, jₒ, mₒ]], [(1, [aᵥ, bᵥ, cᵥ, dᵥ, iₒ, jₒ, kₒ, lₒ]), (-1, [aᵥ, bᵥ, cᵥ, dᵥ, iₒ, kₒ, jₒ, lₒ]), (-1, [bᵥ, aᵥ, cᵥ, dᵥ, iₒ, jₒ, kₒ, lₒ]), (1, [bᵥ, aᵥ, cᵥ, dᵥ, iₒ, kₒ, jₒ, lₒ])]⟩,
  -- line 548: abef,eckl,fdij->abcdijkl
  ⟨-1, [g_aaaa [aᵥ, bᵥ, eᵥ, fᵥ], t2_aaaa [eᵥ, cᵥ, kₒ, lₒ], t2_aaaa [fᵥ, dᵥ, iₒ, jₒ]], [(1, [aᵥ, bᵥ, cᵥ, dᵥ, iₒ, jₒ, kₒ, lₒ]), (-1, [aᵥ, bᵥ, cᵥ, dᵥ, iₒ, kₒ, jₒ, lₒ]), (-1, [aᵥ, cᵥ, bᵥ, dᵥ, iₒ, jₒ, kₒ, lₒ]), (1, [aᵥ, cᵥ, bᵥ, dᵥ, iₒ, kₒ, jₒ, lₒ])]⟩,
  -- line 552: abef,ecil,fdjk->abcdijkl
  ⟨-1, [g_aaaa [aᵥ, bᵥ, eᵥ, fᵥ], t2_aaaa [eᵥ, cᵥ, iₒ, lₒ], t2_aaaa [fᵥ, dᵥ, jₒ, kₒ]], [(1, [aᵥ, bᵥ, cᵥ, dᵥ, iₒ, jₒ, kₒ, lₒ]), (-1, [aᵥ, bᵥ, cᵥ, dᵥ, iₒ, jₒ, lₒ, kₒ]), (-1, [aᵥ, cᵥ, bᵥ, dᵥ, iₒ, jₒ, kₒ, lₒ]), (1, [aᵥ, cᵥ, bᵥ, dᵥ, iₒ, jₒ, lₒ, kₒ])]⟩,
  -- line 556: abef,ecjk,fdil->abcdijkl
  ⟨-1, [g_aaaa [aᵥ, bᵥ, eᵥ, fᵥ], t2_aaaa [eᵥ, cᵥ, jₒ, kₒ], t2_aaaa [fᵥ, dᵥ, iₒ, lₒ]], [(1, [aᵥ, bᵥ, cᵥ, dᵥ, iₒ, jₒ, kₒ, lₒ]), (-1, [aᵥ, bᵥ, cᵥ, dᵥ, kₒ, jₒ, iₒ, lₒ]), (-1, [aᵥ, cᵥ, bᵥ, dᵥ, iₒ, jₒ, kₒ, lₒ]), (1, [aᵥ, cᵥ, bᵥ, dᵥ, kₒ, jₒ, iₒ, lₒ])]⟩,
  -- line 560: adef,ebkl,fcij->abcdijkl
  ⟨-1, [g_aaaa [aᵥ, dᵥ, eᵥ, fᵥ], t2_aaaa [eᵥ, bᵥ, kₒ, lₒ], t2_aaaa [fᵥ, cᵥ, iₒ, jₒ]], [(1, [aᵥ, bᵥ, cᵥ, dᵥ, iₒ, jₒ, kₒ, lₒ]), (-1, [aᵥ, bᵥ, cᵥ, dᵥ, iₒ, kₒ, jₒ, lₒ]), (-1, [bᵥ, aᵥ, cᵥ, dᵥ, iₒ, jₒ, kₒ, lₒ]), (1, [bᵥ, aᵥ, cᵥ, dᵥ, iₒ, kₒ, jₒ, lₒ])]⟩,
  -- line 564: adef,ebil,fcjk->abcdijkl
  ⟨-1, [g_aaaa [aᵥ, dᵥ, eᵥ, fᵥ], t2_aaaa [eᵥ, bᵥ, iₒ, lₒ], t2_aaaa [fᵥ, cᵥ, jₒ, kₒ]], [(1, [aᵥ, bᵥ, cᵥ, dᵥ, iₒ, jₒ, kₒ, lₒ]), (-1, [aᵥ, bᵥ, cᵥ, dᵥ, iₒ, jₒ, lₒ, kₒ]), (-1, [bᵥ, aᵥ, cᵥ, dᵥ, iₒ, jₒ, kₒ, lₒ]), (1, [bᵥ, aᵥ, cᵥ, dᵥ, iₒ, jₒ, lₒ, kₒ])]⟩,
  -- line 568: adef,ebjk,fcil->abcdijkl
  ⟨-1, [g_aaaa [aᵥ, dᵥ, eᵥ, fᵥ], t2_aaaa [eᵥ, bᵥ, jₒ, kₒ], t2_aaaa [fᵥ, cᵥ, iₒ, lₒ]], [(1, [aᵥ, bᵥ, cᵥ, dᵥ, iₒ, jₒ, kₒ, lₒ]), (-1, [aᵥ, bᵥ, cᵥ, dᵥ, kₒ, jₒ, iₒ, lₒ]), (-1, [bᵥ, aᵥ, cᵥ, dᵥ, iₒ, jₒ, kₒ, lₒ]), (1, [bᵥ, aᵥ, cᵥ, dᵥ, kₒ, jₒ, iₒ, lₒ])]⟩,
  -- line 572: bcef,eakl,fdij->abcdijkl
  ⟨-1, [g_aaaa [bᵥ, cᵥ, eᵥ, fᵥ], t2_aaaa [eᵥ, aᵥ, kₒ, lₒ], t2_aaaa [fᵥ, dᵥ, iₒ, jₒ]], [(1, [aᵥ, bᵥ, cᵥ, dᵥ, iₒ, jₒ, kₒ, lₒ]), (-1, [aᵥ, bᵥ, cᵥ, dᵥ, iₒ, kₒ, jₒ, lₒ]), (-1, [aᵥ, dᵥ, cᵥ, bᵥ, iₒ, jₒ, kₒ, lₒ]), (1, [aᵥ, dᵥ, cᵥ, bᵥ, iₒ, kₒ, jₒ, lₒ])]⟩,
  -- line 576: bcef,eail,fdjk->abcdijkl
  ⟨-1, [g_aaaa [bᵥ, cᵥ, eᵥ, fᵥ], t2_aaaa [eᵥ, aᵥ, iₒ, lₒ], t2_aaaa [fᵥ, dᵥ, jₒ, kₒ]], [(1, [aᵥ, bᵥ, cᵥ, dᵥ, iₒ, jₒ, kₒ, lₒ]), (-1, [aᵥ, bᵥ, cᵥ, dᵥ, iₒ, jₒ, lₒ, kₒ]), (-1, [aᵥ, dᵥ, cᵥ, bᵥ, iₒ, jₒ, kₒ, lₒ]), (1, [aᵥ, dᵥ, cᵥ, bᵥ, iₒ, jₒ, lₒ, kₒ])]⟩,
  -- line 580: bcef,eajk,fdil->abcdijkl
  ⟨-1, [g_aaaa [bᵥ, cᵥ, eᵥ, fᵥ], t2_aaaa [eᵥ, aᵥ, jₒ, kₒ], t2_aaaa [fᵥ, dᵥ, iₒ, lₒ]], [(1, [aᵥ, bᵥ, cᵥ, dᵥ, iₒ, jₒ, kₒ, lₒ]), (-1, [aᵥ, bᵥ, cᵥ, dᵥ, kₒ, jₒ, iₒ, lₒ]), (-1, [aᵥ, dᵥ, cᵥ, bᵥ, iₒ, jₒ, kₒ, lₒ]), (1, [aᵥ, dᵥ, cᵥ, bᵥ, kₒ, jₒ, iₒ, lₒ])]⟩,
  -- line 584: makl,bcdijm->abcdijkl
  ⟨1, [g_aaaa [mₒ, aᵥ, kₒ, lₒ], t3_aaaaaa [bᵥ, cᵥ, dᵥ, iₒ, jₒ, mₒ]], [(1, [aᵥ, bᵥ, cᵥ, dᵥ, iₒ, jₒ, kₒ, lₒ]), (-1, [aᵥ, bᵥ, cᵥ, dᵥ, iₒ, kₒ, jₒ, lₒ]), (-1, [bᵥ, aᵥ, cᵥ, dᵥ, iₒ, jₒ, kₒ, lₒ]), (1, [bᵥ, aᵥ, cᵥ, dᵥ, iₒ, kₒ, jₒ, lₒ])]⟩,
  -- line 588: mail,bcdjkm->abcdijkl
  ⟨1, [g_aaaa [mₒ, aᵥ, iₒ, lₒ], t3_aaaaaa [bᵥ, cᵥ, dᵥ, jₒ, kₒ, mₒ]], [(1, [aᵥ, bᵥ, cᵥ, dᵥ, iₒ, jₒ, kₒ, lₒ]), (-1, [aᵥ, bᵥ, cᵥ, dᵥ, iₒ, jₒ, lₒ, kₒ]), (-1, [bᵥ, aᵥ, cᵥ, dᵥ, iₒ, jₒ, kₒ, lₒ]), (1, [bᵥ, aᵥ, cᵥ, dᵥ, iₒ, jₒ, lₒ, kₒ])]⟩,
  -- line 592: majk,bcdilm->abcdijkl
  ⟨1, [g_aaaa [mₒ, aᵥ, jₒ, kₒ], t3_aaaaaa [bᵥ, cᵥ, dᵥ, iₒ, lₒ, mₒ]], [(1, [aᵥ, bᵥ, cᵥ, dᵥ, iₒ, jₒ, kₒ, lₒ]), (-1, [aᵥ, bᵥ, cᵥ, dᵥ, kₒ, jₒ, iₒ, lₒ]), (-1, [bᵥ, aᵥ, cᵥ, dᵥ, iₒ, jₒ, kₒ, lₒ]), (1, [bᵥ, aᵥ, cᵥ, dᵥ, kₒ, jₒ, iₒ, lₒ])]⟩,
  -- line 596: mckl,abdijm->abcdijkl
  ⟨1, [g_aaaa [mₒ, cᵥ, kₒ, lₒ], t3_aaaaaa [aᵥ, bᵥ, dᵥ, iₒ, jₒ, mₒ]], [(1, [aᵥ, bᵥ, cᵥ, dᵥ, iₒ, jₒ, kₒ, lₒ]), (-1, [aᵥ, bᵥ, cᵥ, dᵥ, iₒ, kₒ, jₒ, lₒ]), (-1, [aᵥ, bᵥ, dᵥ, cᵥ, iₒ, jₒ, kₒ, lₒ]), (1, [aᵥ, bᵥ, dᵥ, cᵥ, iₒ, kₒ, jₒ, lₒ])]⟩,
  -- line 600: mcil,abdjkm->abcdijkl
  ⟨1, [g_aaaa [mₒ, cᵥ, iₒ, lₒ], t3_aaaaaa [aᵥ, bᵥ, dᵥ, jₒ, kₒ, mₒ]], [(1, [aᵥ, bᵥ, cᵥ, dᵥ, iₒ, jₒ, kₒ, lₒ]), (-1, [aᵥ, bᵥ, cᵥ, dᵥ, iₒ, jₒ, lₒ, kₒ]), (-1, [aᵥ, bᵥ, dᵥ, cᵥ, iₒ, jₒ, kₒ, lₒ]), (1, [aᵥ, bᵥ, dᵥ, cᵥ, iₒ, jₒ, lₒ, kₒ])]⟩,
  -- line 604: mcjk,abdilm->abcdijkl
  ⟨1, [g_aaaa [mₒ, cᵥ, jₒ, kₒ], t3_aaaaaa [aᵥ, bᵥ, dᵥ, iₒ, lₒ, mₒ]], [(1, [aᵥ, bᵥ, cᵥ, dᵥ, iₒ, jₒ, kₒ, lₒ]), (-1, [aᵥ, bᵥ, cᵥ, dᵥ, kₒ, jₒ, iₒ, lₒ]), (-1, [aᵥ, bᵥ, dᵥ, cᵥ, iₒ, jₒ, kₒ, lₒ]), (1, [aᵥ, bᵥ, dᵥ, cᵥ, kₒ, jₒ, iₒ, lₒ])]⟩,
  -- line 608: abel,ecdijk->abcdijkl
  ⟨1, [g_aaaa [aᵥ, bᵥ, eᵥ, lₒ], t3_aaaaaa [eᵥ, cᵥ, dᵥ, iₒ, jₒ, kₒ]], [(1, [aᵥ, bᵥ, cᵥ, dᵥ, iₒ, jₒ, kₒ, lₒ]), (-1, [aᵥ, bᵥ, cᵥ, dᵥ, iₒ, jₒ, lₒ, kₒ]), (-1, [aᵥ, cᵥ, bᵥ, dᵥ, iₒ, jₒ, kₒ, lₒ]), (1, [aᵥ, cᵥ, bᵥ, dᵥ, iₒ, jₒ, lₒ, kₒ])]⟩,
  -- line 612: abej,ecdikl->abcdijkl
  ⟨1, [g_aaaa [aᵥ, bᵥ, eᵥ, jₒ], t3_aaaaaa [eᵥ, cᵥ, dᵥ, iₒ, kₒ, lₒ]], [(1, [aᵥ, bᵥ, cᵥ, dᵥ, iₒ, jₒ, kₒ, lₒ]), (-1, [aᵥ, bᵥ, cᵥ, dᵥ, jₒ, iₒ, kₒ, lₒ]), (-1, [aᵥ, cᵥ, bᵥ, dᵥ, iₒ, jₒ, kₒ, lₒ]), (1, [aᵥ, cᵥ, bᵥ, dᵥ, jₒ, iₒ, kₒ, lₒ])]⟩,
  -- line 616: adel,ebcijk->abcdijkl
  ⟨1, [g_aaaa [aᵥ, dᵥ, eᵥ, lₒ], t3_aaaaaa [eᵥ, bᵥ, cᵥ, iₒ, jₒ, kₒ]], [(1, [aᵥ, bᵥ, cᵥ, dᵥ, iₒ, jₒ, kₒ, lₒ]), (-1, [aᵥ, bᵥ, cᵥ, dᵥ, iₒ, jₒ, lₒ, kₒ]), (-1, [bᵥ, aᵥ, cᵥ, dᵥ, iₒ, jₒ, kₒ, lₒ]), (1, [bᵥ, aᵥ, cᵥ, dᵥ, iₒ, jₒ, lₒ, kₒ])]⟩,
  -- line 620: adej,ebcikl->abcdijkl
  ⟨1, [g_aaaa [aᵥ, dᵥ, eᵥ, jₒ], t3_aaaaaa [eᵥ, bᵥ, cᵥ, iₒ, kₒ, lₒ]], [(1, [aᵥ, bᵥ, cᵥ, dᵥ, iₒ, jₒ, kₒ, lₒ]), (-1, [aᵥ, bᵥ, cᵥ, dᵥ, jₒ, iₒ, kₒ, lₒ]), (-1, [bᵥ, aᵥ, cᵥ, dᵥ, iₒ, jₒ, kₒ, lₒ]), (1, [bᵥ, aᵥ, cᵥ, dᵥ, jₒ, iₒ, kₒ, lₒ])]⟩,
  -- line 624: bcel,eadijk->abcdijkl
  ⟨1, [g_aaaa [bᵥ, cᵥ, eᵥ, lₒ], t3_aaaaaa [eᵥ, aᵥ, dᵥ, iₒ, jₒ, kₒ]], [(1, [aᵥ, bᵥ, cᵥ, dᵥ, iₒ, jₒ, kₒ, lₒ]), (-1, [aᵥ, bᵥ, cᵥ, dᵥ, iₒ, jₒ, lₒ, kₒ]), (-1, [aᵥ, dᵥ, cᵥ, bᵥ, iₒ, jₒ, kₒ, lₒ]), (1, [aᵥ, dᵥ, cᵥ, bᵥ, iₒ, jₒ, lₒ, kₒ])]⟩,
  -- line 628: bcej,eadikl->abcdijkl
  ⟨1, [g_aaaa [bᵥ, cᵥ, eᵥ, jₒ], t3_aaaaaa [eᵥ, aᵥ, dᵥ, iₒ, kₒ, lₒ]], [(1, [aᵥ, bᵥ, cᵥ, dᵥ, iₒ, jₒ, kₒ, lₒ]), (-1, [aᵥ, bᵥ, cᵥ, dᵥ, jₒ, iₒ, kₒ, lₒ]), (-1, [aᵥ, dᵥ, cᵥ, bᵥ, iₒ, jₒ, kₒ, lₒ]), (1, [aᵥ, dᵥ, cᵥ, bᵥ, jₒ, iₒ, kₒ, lₒ])]⟩
  ]

/-- `UT2/fullCCenergy.py` 344-631, `ccsdtq_t4_aaaaaaaa_residual`. -/
def ccsdtq_t4_aaaaaaaa : Prog := ccsdtq_t4_aaaaaaaa_0 ++ (ccsdtq_t4_aaaaaaaa_1)

end Verif.Gen
