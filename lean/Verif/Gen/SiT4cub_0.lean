import Verif.Ein.Names
import Verif.Gen.Antisym

/-! Written by `/verif/tools/gen.py`. Programs read from `/repo/UT2`. -/

set_option maxRecDepth 100000

namespace Verif.Gen

open Verif.Ein Verif.Ein.N


/-- Part 0 of `ccsdtqT2cubed_t4_aaaaaaaa`. -/
def ccsdtqT2cubed_t4_aaaaaaaa_0 : Prog := [
  -- line 2090: nmef,efkl,abjm,cdin->abcdijkl
  ⟨-1/2, [g_aaaa [nₒ, mₒ, eᵥ, fᵥ], t2_aaaa [eᵥ, fᵥ, kₒ, lₒ], t2_aaaa [aᵥ, bᵥ, jₒ, mₒ], t2_aaaa [cᵥ, dᵥ, iₒ, nₒ]], [(1, [aᵥ, bᵥ, cᵥ, dᵥ, iₒ, jₒ, kₒ, lₒ]), (-1, [aᵥ, bᵥ, cᵥ, dᵥ, jₒ, iₒ, kₒ, lₒ]), (-1, [aᵥ, cᵥ, bᵥ, dᵥ, iₒ, jₒ, kₒ, lₒ]), (1, [aᵥ, cᵥ, bᵥ, dᵥ, jₒ, iₒ, kₒ, lₒ])]⟩,
  -- line 2094: nmef,efkl,adjm,bcin->abcdijkl
  ⟨-1/2, [g_aaaa [nₒ, mₒ, eᵥ, fᵥ], t2_aaaa [eᵥ, fᵥ, kₒ, lₒ], t2_aaaa [aᵥ, dᵥ, jₒ, mₒ], t2_aaaa [bᵥ, cᵥ, iₒ, nₒ]], [(1, [aᵥ, bᵥ, cᵥ, dᵥ, iₒ, jₒ, kₒ, lₒ]), (-1, [aᵥ, bᵥ, cᵥ, dᵥ, jₒ, iₒ, kₒ, lₒ])]⟩,
  -- line 2098: nmef,efjl,abkm,cdin->abcdijkl
  ⟨1/2, [g_aaaa [nₒ, mₒ, eᵥ, fᵥ], t2_aaaa [eᵥ, fᵥ, jₒ, lₒ], t2_aaaa [aᵥ, bᵥ, kₒ, mₒ], t2_aaaa [cᵥ, dᵥ, iₒ, nₒ]], [(1, [aᵥ, bᵥ, cᵥ, dᵥ, iₒ, jₒ, kₒ, lₒ]), (-1, [aᵥ, bᵥ, cᵥ, dᵥ, kₒ, jₒ, iₒ, lₒ]), (-1, [aᵥ, cᵥ, bᵥ, dᵥ, iₒ, jₒ, kₒ, lₒ]), (1, [aᵥ, cᵥ, bᵥ, dᵥ, kₒ, jₒ, iₒ, lₒ])]⟩,
  -- line 2102: nmef,efjl,adkm,bcin->abcdijkl
  ⟨1/2, [g_aaaa [nₒ, mₒ, eᵥ, fᵥ], t2_aaaa [eᵥ, fᵥ, jₒ, lₒ], t2_aaaa [aᵥ, dᵥ, kₒ, mₒ], t2_aaaa [bᵥ, cᵥ, iₒ, nₒ]], [(1, [aᵥ, bᵥ, cᵥ, dᵥ, iₒ, jₒ, kₒ, lₒ]), (-1, [aᵥ, bᵥ, cᵥ, dᵥ, kₒ, jₒ, iₒ, lₒ])]⟩,
  -- line 2106: nmef,efil,abkm,cdjn->abcdijkl
  ⟨-1/2, [g_aaaa [nₒ, mₒ, eᵥ, fᵥ], t2_aaaa [eᵥ, fᵥ, iₒ, lₒ], t2_aaaa [aᵥ, bᵥ, kₒ, mₒ], t2_aaaa [cᵥ, dᵥ, jₒ, nₒ]], [(1, [aᵥ, bᵥ, cᵥ, dᵥ, iₒ, jₒ, kₒ, lₒ]), (-1, [aᵥ, bᵥ, cᵥ, dᵥ, iₒ, kₒ, jₒ, lₒ]), (-1, [aᵥ, cᵥ, bᵥ, dᵥ, iₒ, jₒ, kₒ, lₒ]), (1, [aᵥ, cᵥ, bᵥ, dᵥ, iₒ, kₒ, jₒ, lₒ])]⟩,
  -- line 2110: nmef,efil,adkm,bcjn->abcdijkl
  ⟨-1/2, [g_aaaa [nₒ, mₒ, eᵥ, fᵥ], t2_aaaa [eᵥ, fᵥ, iₒ, lₒ], t2_aaaa [aᵥ, dᵥ, kₒ, mₒ], t2_aaaa [bᵥ, cᵥ, jₒ, nₒ]], [(1, [aᵥ, bᵥ, cᵥ, dᵥ, iₒ, jₒ, kₒ, lₒ]), (-1, [aᵥ, bᵥ, cᵥ, dᵥ, iₒ, kₒ, jₒ, lₒ])]⟩,
  -- line 2114: nmef,efjk,ablm,cdin->abcdijkl
  ⟨-1/2, [g_aaaa [nₒ, mₒ, eᵥ, fᵥ], t2_aaaa [eᵥ, fᵥ, jₒ, kₒ], t2_aaaa [aᵥ, bᵥ, lₒ, mₒ], t2_aaaa [cᵥ, dᵥ, iₒ, nₒ]], [(1, [aᵥ, bᵥ, cᵥ, dᵥ, iₒ, jₒ, kₒ, lₒ]), (-1, [aᵥ, bᵥ, cᵥ, dᵥ, lₒ, jₒ, kₒ, iₒ]), (-1, [aᵥ, cᵥ, bᵥ, dᵥ, iₒ, jₒ, kₒ, lₒ]), (1, [aᵥ, cᵥ, bᵥ, dᵥ, lₒ, jₒ, kₒ, iₒ])]⟩,
  -- line 2118: nmef,efjk,adlm,bcin->abcdijkl
  ⟨-1/2, [g_aaaa [nₒ, mₒ, eᵥ, fᵥ], t2_aaaa [eᵥ, fᵥ, jₒ, kₒ], t2_aaaa [aᵥ, dᵥ, lₒ, mₒ], t2_aaaa [bᵥ, cᵥ, iₒ, nₒ]], [(1, [aᵥ, bᵥ, cᵥ, dᵥ, iₒ, jₒ, kₒ, lₒ]), (-1, [aᵥ, bᵥ, cᵥ, dᵥ, lₒ, jₒ, kₒ, iₒ])]⟩,
  -- line 2122: nmef,efik,ablm,cdjn->abcdijkl
  ⟨1/2, [g_aaaa [nₒ, mₒ, eᵥ, fᵥ], t2_aaaa [eᵥ, fᵥ, iₒ, kₒ], t2_aaaa [aᵥ, bᵥ, lₒ, mₒ], t2_aaaa [cᵥ, dᵥ, jₒ, nₒ]], [(1, [aᵥ, bᵥ, cᵥ, dᵥ, iₒ, jₒ, kₒ, lₒ]), (-1, [aᵥ, bᵥ, cᵥ, dᵥ, iₒ, lₒ, kₒ, jₒ]), (-1, [aᵥ, cᵥ, bᵥ, dᵥ, iₒ, jₒ, kₒ, lₒ]), (1, [aᵥ, cᵥ, bᵥ, dᵥ, iₒ, lₒ, kₒ, jₒ])]⟩,
  -- line 2126: nmef,efik,adlm,bcjn->abcdijkl
  ⟨1/2, [g_aaaa [nₒ, mₒ, eᵥ, fᵥ], t2_aaaa [eᵥ, fᵥ, iₒ, kₒ], t2_aaaa [aᵥ, dᵥ, lₒ, mₒ], t2_aaaa [bᵥ, cᵥ, jₒ, nₒ]], [(1, [aᵥ, bᵥ, cᵥ, dᵥ, iₒ, jₒ, kₒ, lₒ]), (-1, [aᵥ, bᵥ, cᵥ, dᵥ, iₒ, lₒ, kₒ, jₒ])]⟩,
  -- line 2130: nmef,efij,ablm,cdkn->abcdijkl
  ⟨-1/2, [g_aaaa [nₒ, mₒ, eᵥ, fᵥ], t2_aaaa [eᵥ, fᵥ, iₒ, jₒ], t2_aaaa [aᵥ, bᵥ, lₒ, mₒ], t2_aaaa [cᵥ, dᵥ, kₒ, nₒ]], [(1, [aᵥ, bᵥ, cᵥ, dᵥ, iₒ, jₒ, kₒ, lₒ]), (-1, [aᵥ, bᵥ, cᵥ, dᵥ, iₒ, jₒ, lₒ, kₒ]), (-1, [aᵥ, cᵥ, bᵥ, dᵥ, iₒ, jₒ, kₒ, lₒ]), (1, [aᵥ, cᵥ, bᵥ, dᵥ, iₒ, jₒ, lₒ, kₒ])]⟩,
  -- line 2134: nmef,efij,adlm,bckn->abcdijkl
  ⟨-1/2, [g_aaaa [nₒ, mₒ, eᵥ, fᵥ], t2_aaaa [eᵥ, fᵥ, iₒ, jₒ], t2_aaaa [aᵥ, dᵥ, lₒ, mₒ], t2_aaaa [bᵥ, cᵥ, kₒ, nₒ]], [(1, [aᵥ, bᵥ, cᵥ, dᵥ, iₒ, jₒ, kₒ, lₒ]), (-1, [aᵥ, bᵥ, cᵥ, dᵥ, iₒ, jₒ, lₒ, kₒ])]⟩,
  -- line 2138: nmef,ealm,fbjk,cdin->abcdijkl
  ⟨1, [g_aaaa [nₒ, mₒ, eᵥ, fᵥ], t2_aaaa [eᵥ, aᵥ, lₒ, mₒ], t2_aaaa [fᵥ, bᵥ, jₒ, kₒ], t2_aaaa [cᵥ, dᵥ, iₒ, nₒ]], [(1, [aᵥ, bᵥ, cᵥ, dᵥ, iₒ, jₒ, kₒ, lₒ]), (-1, [aᵥ, bᵥ, cᵥ, dᵥ, jₒ, iₒ, kₒ, lₒ]), (-1, [aᵥ, cᵥ, bᵥ, dᵥ, iₒ, jₒ, kₒ, lₒ]), (1, [aᵥ, cᵥ, bᵥ, dᵥ, jₒ, iₒ, kₒ, lₒ])]⟩,
  -- line 2142: nmfe,aelm,fbjk,cdin->abcdijkl
  ⟨1, [g_abab [nₒ, mₒ, fᵥ, eᵥ], t2_abab [aᵥ, eᵥ, lₒ, mₒ], t2_aaaa [fᵥ, bᵥ, jₒ, kₒ], t2_aaaa [cᵥ, dᵥ, iₒ, nₒ]], [(1, [aᵥ, bᵥ, cᵥ, dᵥ, iₒ, jₒ, kₒ, lₒ]), (-1, [aᵥ, bᵥ, cᵥ, dᵥ, jₒ, iₒ, kₒ, lₒ]), (-1, [aᵥ, cᵥ, bᵥ, dᵥ, iₒ, jₒ, kₒ, lₒ]), (1, [aᵥ, cᵥ, bᵥ, dᵥ, jₒ, iₒ, kₒ, lₒ])]⟩,
  -- line 2146: nmef,ealm,fbij,cdkn->abcdijkl
  ⟨1, [g_aaaa [nₒ, mₒ, eᵥ, fᵥ], t2_aaaa [eᵥ, aᵥ, lₒ, mₒ], t2_aaaa [fᵥ, bᵥ, iₒ, jₒ], t2_aaaa [cᵥ, dᵥ, kₒ, nₒ]], [(1, [aᵥ, bᵥ, cᵥ, dᵥ, iₒ, jₒ, kₒ, lₒ]), (-1, [aᵥ, bᵥ, cᵥ, dᵥ, iₒ, jₒ, lₒ, kₒ]), (-1, [aᵥ, cᵥ, bᵥ, dᵥ, iₒ, jₒ, kₒ, lₒ]), (1, [aᵥ, cᵥ, bᵥ, dᵥ, iₒ, jₒ, lₒ, kₒ])]⟩,
  -- line 2150: nmfe,aelm,fbij,cdkn->abcdijkl
  ⟨1, [g_abab [nₒ, mₒ, fᵥ, eᵥ], t2_abab [aᵥ, eᵥ, lₒ, mₒ], t2_aaaa [fᵥ, bᵥ, iₒ, jₒ], t2_aaaa [cᵥ, dᵥ, kₒ, nₒ]], [(1, [aᵥ, bᵥ, cᵥ, dᵥ, iₒ, jₒ, kₒ, lₒ]), (-1, [aᵥ, bᵥ, cᵥ, dᵥ, iₒ, jₒ, lₒ, kₒ]), (-1, [aᵥ, cᵥ, bᵥ, dᵥ, iₒ, jₒ, kₒ, lₒ]), (1, [aᵥ, cᵥ, bᵥ, dᵥ, iₒ, jₒ, lₒ, kₒ])]⟩,
  -- line 2154: nmef,ealm,fdjk,bcin->abcdijkl
  ⟨1, [g_aaaa [nₒ, mₒ, eᵥ, fᵥ], t2_aaaa [eᵥ, aᵥ, lₒ, mₒ], t2_aaaa [fᵥ, dᵥ, jₒ, kₒ], t2_aaaa [bᵥ, cᵥ, iₒ, nₒ]], [(1, [aᵥ, bᵥ, cᵥ, dᵥ, iₒ, jₒ, kₒ, lₒ]), (-1, [aᵥ, bᵥ, cᵥ, dᵥ, jₒ, iₒ, kₒ, lₒ]), (-1, [bᵥ, aᵥ, cᵥ, dᵥ, iₒ, jₒ, kₒ, lₒ]), (1, [bᵥ, aᵥ, cᵥ, dᵥ, jₒ, iₒ, kₒ, lₒ])]⟩,
  -- line 2158: nmfe,aelm,fdjk,bcin->abcdijkl
  ⟨1, [g_abab [nₒ, mₒ, fᵥ, eᵥ], t2_abab [aᵥ, eᵥ, lₒ, mₒ], t2_aaaa [fᵥ, dᵥ, jₒ, kₒ], t2_aaaa [bᵥ, cᵥ, iₒ, nₒ]], [(1, [aᵥ, bᵥ, cᵥ, dᵥ, iₒ, jₒ, kₒ, lₒ]), (-1, [aᵥ, bᵥ, cᵥ, dᵥ, jₒ, iₒ, kₒ, lₒ]), (-1, [bᵥ, aᵥ, cᵥ, dᵥ, iₒ, jₒ, kₒ, lₒ]), (1, [bᵥ, aᵥ, cᵥ, dᵥ, jₒ, iₒ, kₒ, lₒ])]⟩,
  -- line 2162: nmef,ealm,fdij,bckn->abcdijkl
  ⟨1, [g_aaaa [nₒ, mₒ, eᵥ, fᵥ], t2_aaaa [eᵥ, aᵥ, lₒ, mₒ], t2_aaaa [fᵥ, dᵥ, iₒ, jₒ], t2_aaaa [bᵥ, cᵥ, kₒ, nₒ]], [(1, [aᵥ, bᵥ, cᵥ, dᵥ, iₒ, jₒ, kₒ, lₒ]), (-1, [aᵥ, bᵥ, cᵥ, dᵥ, iₒ, jₒ, lₒ, kₒ]), (-1, [bᵥ, aᵥ, cᵥ, dᵥ, iₒ, jₒ, kₒ, lₒ]), (1, [bᵥ, aᵥ, cᵥ, dᵥ, iₒ, jₒ, lₒ, kₒ])]⟩,
  -- line 2166: nmfe,aelm,fdij,bckn->abcdijkl
  ⟨1, [g_abab [nₒ, mₒ, fᵥ, eᵥ], t2_abab [aᵥ, eᵥ, lₒ, mₒ], t2_aaaa [fᵥ, dᵥ, iₒ, jₒ], t2_aaaa [bᵥ, cᵥ, kₒ, nₒ]], [(1, [aᵥ, bᵥ, cᵥ, dᵥ, iₒ, jₒ, kₒ, lₒ]), (-1, [aᵥ, bᵥ, cᵥ, dᵥ, iₒ, jₒ, lₒ, kₒ]), (-1, [bᵥ, aᵥ, cᵥ, dᵥ, iₒ, jₒ, kₒ, lₒ]), (1, [bᵥ, aᵥ, cᵥ, dᵥ, iₒ, jₒ, lₒ, kₒ])]⟩,
  -- line 2170: nmef,eakm,fbjl,cdin->abcdijkl
  ⟨-1, [g_aaaa [nₒ, mₒ, eᵥ, fᵥ], t2_aaaa [eᵥ, aᵥ, kₒ, mₒ], t2_aaaa [fᵥ, bᵥ, jₒ, lₒ], t2_aaaa [cᵥ, dᵥ, iₒ, nₒ]], [(1, [aᵥ, bᵥ, cᵥ, dᵥ, iₒ, jₒ, kₒ, lₒ]), (-1, [aᵥ, bᵥ, cᵥ, dᵥ, jₒ, iₒ, kₒ, lₒ]), (-1, [aᵥ, cᵥ, bᵥ, dᵥ, iₒ, jₒ, kₒ, lₒ]), (1, [aᵥ, cᵥ, bᵥ, dᵥ, jₒ, iₒ, kₒ, lₒ])]⟩,
  -- line 2174: nmfe,aekm,fbjl,cdin->abcdijkl
  ⟨-1, [g_abab [nₒ, mₒ, fᵥ, eᵥ], t2_abab [aᵥ, eᵥ, kₒ, mₒ], t2_aaaa [fᵥ, bᵥ, jₒ, lₒ], t2_aaaa [cᵥ, dᵥ, iₒ, nₒ]], [(1, [aᵥ, bᵥ, cᵥ, dᵥ, iₒ, jₒ, kₒ, lₒ]), (-1, [aᵥ, bᵥ, cᵥ, dᵥ, jₒ, iₒ, kₒ, lₒ]), (-1, [aᵥ, cᵥ, bᵥ, dᵥ, iₒ, jₒ, kₒ, lₒ]), (1, [aᵥ, cᵥ, bᵥ, dᵥ, jₒ, iₒ, kₒ, lₒ])]⟩,
  -- line 2178: nmef,eakm,fdjl,bcin->abcdijkl
  ⟨-1, [g_aaaa [nₒ, mₒ, eᵥ, fᵥ], t2_aaaa [eᵥ, aᵥ, kₒ, mₒ], t2_aaaa [fᵥ, dᵥ, jₒ, lₒ], t2_aaaa [bᵥ, cᵥ, iₒ, nₒ]], [(1, [aᵥ, bᵥ, cᵥ, dᵥ, iₒ, jₒ, kₒ, lₒ]), (-1, [aᵥ, bᵥ, cᵥ, dᵥ, jₒ, iₒ, kₒ, lₒ]), (-1, [bᵥ, aᵥ, cᵥ, dᵥ, iₒ, jₒ, kₒ, lₒ]), (1, [bᵥ, aᵥ, cᵥ, dᵥ, jₒ, iₒ, kₒ, lₒ])]⟩,
  -- line 2182: nmfe,aekm,fdjl,bcin->abcdijkl
  ⟨-1, [g_abab [nₒ, mₒ, fᵥ, eᵥ], t2_abab [aᵥ, eᵥ, kₒ, mₒ], t2_aaaa [fᵥ, dᵥ, jₒ, lₒ], t2_aaaa [bᵥ, cᵥ, iₒ, nₒ]], [(1, [aᵥ, bᵥ, cᵥ, dᵥ, iₒ, jₒ, kₒ, lₒ]), (-1, [aᵥ, bᵥ, cᵥ, dᵥ, jₒ, iₒ, kₒ, lₒ]), (-1, [bᵥ, aᵥ, cᵥ, dᵥ, iₒ, jₒ, kₒ, lₒ]), (1, [bᵥ, aᵥ, cᵥ, dᵥ, jₒ, iₒ, kₒ, lₒ])]⟩,
  -- line 2186: nmef,eajm,fbkl,cdin->abcdijkl
  ⟨1, [g_aaaa [nₒ, mₒ, eᵥ, fᵥ], t2_aaaa [eᵥ, aᵥ, jₒ, mₒ], t2_aaaa [fᵥ, bᵥ, kₒ, lₒ], t2_aaaa [cᵥ, dᵥ, iₒ, nₒ]], [(1, [aᵥ, bᵥ, cᵥ, dᵥ, iₒ, jₒ, kₒ, lₒ]), (-1, [aᵥ, bᵥ, cᵥ, dᵥ, kₒ, jₒ, iₒ, lₒ]), (-1, [aᵥ, cᵥ, bᵥ, dᵥ, iₒ, jₒ, kₒ, lₒ]), (1, [aᵥ, cᵥ, bᵥ, dᵥ, kₒ, jₒ, iₒ, lₒ])]⟩,
  -- line 2190: nmfe,aejm,fbkl,cdin->abcdijkl
  ⟨1, [g_abab [nₒ, mₒ, fᵥ, eᵥ], t2_abab [aᵥ, eᵥ, jₒ, mₒ], t2_aaaa [fᵥ, bᵥ, kₒ, lₒ], t2_aaaa [cᵥ, dᵥ, iₒ, nₒ]], [(1, [aᵥ, bᵥ, cᵥ, dᵥ, iₒ, jₒ, kₒ, lₒ]), (-1, [aᵥ, bᵥ, cᵥ, dᵥ, kₒ, jₒ, iₒ, lₒ]), (-1, [aᵥ, cᵥ, bᵥ, dᵥ, iₒ, jₒ, kₒ, lₒ]), (1, [aᵥ, cᵥ, bᵥ, dᵥ, kₒ, jₒ, iₒ, lₒ])]⟩,
  -- line 2194: nmef,eajm,fbik,cdln->abcdijkl
  ⟨1, [g_aaaa [nₒ, mₒ, eᵥ, fᵥ], t2_aaaa [eᵥ, aᵥ, jₒ, mₒ], t2_aaaa [fᵥ, bᵥ, iₒ, kₒ], t2_aaaa [cᵥ, dᵥ, lₒ, nₒ]], [(1, [aᵥ, bᵥ, cᵥ, dᵥ, iₒ, jₒ, kₒ, lₒ]), (-1, [aᵥ, bᵥ, cᵥ, dᵥ, jₒ, iₒ, kₒ, lₒ]), (-1, [aᵥ, cᵥ, bᵥ, dᵥ, iₒ, jₒ, kₒ, lₒ]), (1, [aᵥ, cᵥ, bᵥ, dᵥ, jₒ, iₒ, kₒ, lₒ])]⟩,
  -- line 2198: nmfe,aejm,fbik,cdln->abcdijkl
  ⟨1, [g_abab [nₒ, mₒ, fᵥ, eᵥ], t2_abab [aᵥ, eᵥ, jₒ, mₒ], t2_aaaa [fᵥ, bᵥ, iₒ, kₒ], t2_aaaa [cᵥ, dᵥ, lₒ, nₒ]], [(1, [aᵥ, bᵥ, cᵥ, dᵥ, iₒ, jₒ, kₒ, lₒ]), (-1, [aᵥ, bᵥ, cᵥ, dᵥ, jₒ, iₒ, kₒ, lₒ]), (-1, [aᵥ, cᵥ, bᵥ, dᵥ, iₒ, jₒ, kₒ, lₒ]), (1, [aᵥ, cᵥ, bᵥ, dᵥ, jₒ, iₒ, kₒ, lₒ])]⟩,
  -- line 2202: nmef,eajm,fdkl,bcin->abcdijkl
  ⟨1, [g_aaaa [nₒ, mₒ, eᵥ, fᵥ], t2_aaaa [eᵥ, aᵥ, jₒ, mₒ], t2_aaaa [fᵥ, dᵥ, kₒ, lₒ], t2_aaaa [bᵥ, cᵥ, iₒ, nₒ]], [(1, [aᵥ, bᵥ, cᵥ, dᵥ, iₒ, jₒ, kₒ, lₒ]), (-1, [aᵥ, bᵥ, cᵥ, dᵥ, kₒ, jₒ, iₒ, lₒ]), (-1, [bᵥ, aᵥ, cᵥ, dᵥ, iₒ, jₒ, kₒ, lₒ]), (1, [bᵥ, aᵥ, cᵥ, dᵥ, kₒ, jₒ, iₒ, lₒ])]⟩,
  -- line 2206: nmfe,aejm,fdkl,bcin->abcdijkl
  ⟨1, [g_abab [nₒ, mₒ, fᵥ, eᵥ], t2_abab [aᵥ, eᵥ, jₒ, mₒ], t2_aaaa [fᵥ, dᵥ, kₒ, lₒ], t2_aaaa [bᵥ, cᵥ, iₒ, nₒ]], [(1, [aᵥ, bᵥ, cᵥ, dᵥ, iₒ, jₒ, kₒ, lₒ]), (-1, [aᵥ, bᵥ, cᵥ, dᵥ, kₒ, jₒ, iₒ, lₒ]), (-1, [bᵥ, aᵥ, cᵥ, dᵥ, iₒ, jₒ, kₒ, lₒ]), (1, [bᵥ, aᵥ, cᵥ, dᵥ, kₒ, jₒ, iₒ, lₒ])]⟩,
  -- line 2210: nmef,eajm,fdik,bcln->abcdijkl
  ⟨1, [g_aaaa [nₒ, mₒ, eᵥ, fᵥ], t2_aaaa [eᵥ, aᵥ, jₒ, mₒ], t2_aaaa [fᵥ, dᵥ, iₒ, kₒ], t2_aaaa [bᵥ, cᵥ, lₒ, nₒ]], [(1, [aᵥ, bᵥ, cᵥ, dᵥ, iₒ, jₒ, kₒ, lₒ]), (-1, [aᵥ, bᵥ, cᵥ, dᵥ, jₒ, iₒ, kₒ, lₒ]), (-1, [bᵥ, aᵥ, cᵥ, dᵥ, iₒ, jₒ, kₒ, lₒ]), (1, [bᵥ, aᵥ, cᵥ, dᵥ, jₒ, iₒ, kₒ, lₒ])]⟩,
  -- line 2214: nmfe,aejm,fdik,bcln->abcdijkl
  ⟨1, [g_abab [nₒ, mₒ, fᵥ, eᵥ], t2_abab [aᵥ, eᵥ, jₒ, mₒ], t2_aaaa [fᵥ, dᵥ, iₒ, kₒ], t2_aaaa [bᵥ, cᵥ, lₒ, nₒ]], [(1, [aᵥ, bᵥ, cᵥ, dᵥ, iₒ, jₒ, kₒ, lₒ]), (-1, [aᵥ, bᵥ, cᵥ, dᵥ, jₒ, iₒ, kₒ, lₒ]), (-1, [bᵥ, aᵥ, cᵥ, dᵥ, iₒ, jₒ, kₒ, lₒ]), (1, [bᵥ, aᵥ, cᵥ, dᵥ, jₒ, iₒ, kₒ, lₒ])]⟩,
  -- line 2218: nmef,eaim,fbkl,cdjn->abcdijkl
  ⟨-1, [g_aaaa [nₒ, mₒ, eᵥ, fᵥ], t2_aaaa [eᵥ, aᵥ, iₒ, mₒ], t2_aaaa [fᵥ, bᵥ, kₒ, lₒ], t2_aaaa [cᵥ, dᵥ, jₒ, nₒ]], [(1, [aᵥ, bᵥ, cᵥ, dᵥ, iₒ, jₒ, kₒ, lₒ]), (-1, [aᵥ, bᵥ, cᵥ, dᵥ, iₒ, kₒ, jₒ, lₒ]), (-1, [aᵥ, cᵥ, bᵥ, dᵥ, iₒ, jₒ, kₒ, lₒ]), (1, [aᵥ, cᵥ, bᵥ, dᵥ, iₒ, kₒ, jₒ, lₒ])]⟩,
  -- line 2222: nmfe,aeim,fbkl,cdjn->abcdijkl
  ⟨-1, [g_abab [nₒ, mₒ, fᵥ, eᵥ], t2_abab [aᵥ, eᵥ, iₒ, mₒ], t2_aaaa [fᵥ, bᵥ, kₒ, lₒ], t2_aaaa [cᵥ, dᵥ, jₒ, nₒ]], [(1, [aᵥ, bᵥ, cᵥ, dᵥ, iₒ, jₒ, kₒ, lₒ]), (-1, [aᵥ, bᵥ, cᵥ, dᵥ, iₒ, kₒ, jₒ, lₒ]), (-1, [aᵥ, cᵥ, bᵥ, dᵥ, iₒ, jₒ, kₒ, lₒ]), (1, [aᵥ, cᵥ, bᵥ, dᵥ, iₒ, kₒ, jₒ, lₒ])]⟩,
  -- line 2226: nmef,eaim,fdkl,bcjn->abcdijkl
  ⟨-1, [g_aaaa [nₒ, mₒ, eᵥ, fᵥ], t2_aaaa [eᵥ, aᵥ, iₒ, mₒ], t2_aaaa [fᵥ, dᵥ, kₒ, lₒ], t2_aaaa [bᵥ, cᵥ, jₒ, nₒ]], [(1, [aᵥ, bᵥ, cᵥ, dᵥ, iₒ, jₒ, kₒ, lₒ]), (-1, [aᵥ, bᵥ, cᵥ, dᵥ, iₒ, kₒ, jₒ, lₒ]), (-1, [bᵥ, aᵥ, cᵥ, dᵥ, iₒ, jₒ, kₒ, lₒ]), (1, [bᵥ, aᵥ, cᵥ, dᵥ, iₒ, kₒ, jₒ, lₒ])]⟩,
  -- line 2230: nmfe,aeim,fdkl,bcjn->abcdijkl
  ⟨-1, [g_abab [nₒ, mₒ, fᵥ, eᵥ], t2_abab [aᵥ, eᵥ, iₒ, mₒ], t2_aaaa [fᵥ, dᵥ, kₒ, lₒ], t2_aaaa [bᵥ, cᵥ, jₒ, nₒ]], [(1, [aᵥ, bᵥ, cᵥ, dᵥ, iₒ, jₒ, kₒ, lₒ]), (-1, [aᵥ, bᵥ, cᵥ, dᵥ, iₒ, kₒ, jₒ, lₒ]), (-1, [bᵥ, aᵥ, cᵥ, dᵥ, iₒ, jₒ, kₒ, lₒ]), (1, [bᵥ, aᵥ, cᵥ, dᵥ, iₒ, kₒ, jₒ, lₒ])]⟩,
  -- line 2234: nmef,eakl,fbjm,cdin->abcdijkl
  ⟨1, [g_aaaa [nₒ, mₒ, eᵥ, fᵥ], t2_aaaa [eᵥ, aᵥ, kₒ, lₒ], t2_aaaa [fᵥ, bᵥ, jₒ, mₒ], t2_aaaa [cᵥ, dᵥ, iₒ, nₒ]], [(1, [aᵥ, bᵥ, cᵥ, dᵥ, iₒ, jₒ, kₒ, lₒ]), (-1, [aᵥ, bᵥ, cᵥ, dᵥ, jₒ, iₒ, kₒ, lₒ]), (-1, [aᵥ, cᵥ, bᵥ, dᵥ, iₒ, jₒ, kₒ, lₒ]), (1, [aᵥ, cᵥ, bᵥ, dᵥ, jₒ, iₒ, kₒ, lₒ])]⟩,
  -- line 2238: nmef,eakl,bfjm,cdin->abcdijkl
  ⟨-1, [g_abab [nₒ, mₒ, eᵥ, fᵥ], t2_aaaa [eᵥ, aᵥ, kₒ, lₒ], t2_abab [bᵥ, fᵥ, jₒ, mₒ], t2_aaaa [cᵥ, dᵥ, iₒ, nₒ]], [(1, [aᵥ, bᵥ, cᵥ, dᵥ, iₒ, jₒ, kₒ, lₒ]), (-1, [aᵥ, bᵥ, cᵥ, dᵥ, jₒ, iₒ, kₒ, lₒ]), (-1, [aᵥ, cᵥ, bᵥ, dᵥ, iₒ, jₒ, kₒ, lₒ]), (1, [aᵥ, cᵥ, bᵥ, dᵥ, jₒ, iₒ, kₒ, lₒ])]⟩,
  -- line 2242: nmef,eakl,fbij,cdnm->abcdijkl
  ⟨-1/2, [g_aaaa [nₒ, mₒ, eᵥ, fᵥ], t2_aaaa [eᵥ, aᵥ, kₒ, lₒ], t2_aaaa [fᵥ, bᵥ, iₒ, jₒ], t2_aaaa [cᵥ, dᵥ, nₒ, mₒ]], [(1, [aᵥ, bᵥ, cᵥ, dᵥ, iₒ, jₒ, kₒ, lₒ]), (-1, [aᵥ, bᵥ, cᵥ, dᵥ, iₒ, kₒ, jₒ, lₒ]), (-1, [aᵥ, cᵥ, bᵥ, dᵥ, iₒ, jₒ, kₒ, lₒ]), (1, [aᵥ, cᵥ, bᵥ, dᵥ, iₒ, kₒ, jₒ, lₒ])]⟩,
  -- line 2246: nmef,eakl,fdjm,bcin->abcdijkl
  ⟨1, [g_aaaa [nₒ, mₒ, eᵥ, fᵥ], t2_aaaa [eᵥ, aᵥ, kₒ, lₒ], t2_aaaa [fᵥ, dᵥ, jₒ, mₒ], t2_aaaa [bᵥ, cᵥ, iₒ, nₒ]], [(1, [aᵥ, bᵥ, cᵥ, dᵥ, iₒ, jₒ, kₒ, lₒ]), (-1, [aᵥ, bᵥ, cᵥ, dᵥ, jₒ, iₒ, kₒ, lₒ]), (-1, [bᵥ, aᵥ, cᵥ, dᵥ, iₒ, jₒ, kₒ, lₒ]), (1, [bᵥ, aᵥ, cᵥ, dᵥ, jₒ, iₒ, kₒ, lₒ])]⟩
  ]

/-- Part 1 of `ccsdtqT2cubed_t4_aaaaaaaa`. -/
def ccsdtqT2cubed_t4_aaaaaaaa_1 : Prog := [
  -- line 2250: nmef,eakl,dfjm,bcin->abcdijkl
  ⟨-1, [g_abab [nₒ, mₒ, eᵥ, fᵥ], t2_aaaa [eᵥ, aᵥ, kₒ, lₒ], t2_abab [dᵥ, fᵥ, jₒ, mₒ], t2_aaaa [bᵥ, cᵥ, iₒ, nₒ]], [(1, [aᵥ, bᵥ, cᵥ, dᵥ, iₒ, jₒ, kₒ, lₒ]), (-1, [aᵥ, bᵥ, cᵥ, dᵥ, jₒ, iₒ, kₒ, lₒ]), (-1, [bᵥ, aᵥ, cᵥ, dᵥ, iₒ, jₒ, kₒ, lₒ]), (1, [bᵥ, aᵥ, cᵥ, dᵥ, jₒ, iₒ, kₒ, lₒ])]⟩,
  -- line 2254: nmef,eakl,fdij,bcnm->abcdijkl
  ⟨-1/2, [g_aaaa [nₒ, mₒ, eᵥ, fᵥ], t2_aaaa [eᵥ, aᵥ, kₒ, lₒ], t2_aaaa [fᵥ, dᵥ, iₒ, jₒ], t2_aaaa [bᵥ, cᵥ, nₒ, mₒ]], [(1, [aᵥ, bᵥ, cᵥ, dᵥ, iₒ, jₒ, kₒ, lₒ]), (-1, [aᵥ, bᵥ, cᵥ, dᵥ, iₒ, kₒ, jₒ, lₒ]), (-1, [bᵥ, aᵥ, cᵥ, dᵥ, iₒ, jₒ, kₒ, lₒ]), (1, [bᵥ, aᵥ, cᵥ, dᵥ, iₒ, kₒ, jₒ, lₒ])]⟩,
  -- line 2258: nmef,eajl,fbkm,cdin->abcdijkl
  ⟨-1, [g_aaaa [nₒ, mₒ, eᵥ, fᵥ], t2_aaaa [eᵥ, aᵥ, jₒ, lₒ], t2_aaaa [fᵥ, bᵥ, kₒ, mₒ], t2_aaaa [cᵥ, dᵥ, iₒ, nₒ]], [(1, [aᵥ, bᵥ, cᵥ, dᵥ, iₒ, jₒ, kₒ, lₒ]), (-1, [aᵥ, bᵥ, cᵥ, dᵥ, kₒ, jₒ, iₒ, lₒ]), (-1, [aᵥ, cᵥ, bᵥ, dᵥ, iₒ, jₒ, kₒ, lₒ]), (1, [aᵥ, cᵥ, bᵥ, dᵥ, kₒ, jₒ, iₒ, lₒ])]⟩,
  -- line 2262: nmef,eajl,bfkm,cdin->abcdijkl
  ⟨1, [g_abab [nₒ, mₒ, eᵥ, fᵥ], t2_aaaa [eᵥ, aᵥ, jₒ, lₒ], t2_abab [bᵥ, fᵥ, kₒ, mₒ], t2_aaaa [cᵥ, dᵥ, iₒ, nₒ]], [(1, [aᵥ, bᵥ, cᵥ, dᵥ, iₒ, jₒ, kₒ, lₒ]), (-1, [aᵥ, bᵥ, cᵥ, dᵥ, kₒ, jₒ, iₒ, lₒ]), (-1, [aᵥ, cᵥ, bᵥ, dᵥ, iₒ, jₒ, kₒ, lₒ]), (1, [aᵥ, cᵥ, bᵥ, dᵥ, kₒ, jₒ, iₒ, lₒ])]⟩,
  -- line 2266: nmef,eajl,fdkm,bcin->abcdijkl
  ⟨-1, [g_aaaa [nₒ, mₒ, eᵥ, fᵥ], t2_aaaa [eᵥ, aᵥ, jₒ, lₒ], t2_aaaa [fᵥ, dᵥ, kₒ, mₒ], t2_aaaa [bᵥ, cᵥ, iₒ, nₒ]], [(1, [aᵥ, bᵥ, cᵥ, dᵥ, iₒ, jₒ, kₒ, lₒ]), (-1, [aᵥ, bᵥ, cᵥ, dᵥ, kₒ, jₒ, iₒ, lₒ]), (-1, [bᵥ, aᵥ, cᵥ, dᵥ, iₒ, jₒ, kₒ, lₒ]), (1, [bᵥ, aᵥ, cᵥ, dᵥ, kₒ, jₒ, iₒ, lₒ])]⟩,
  -- line 2270: nmef,eajl,dfkm,bcin->abcdijkl
  ⟨1, [g_abab [nₒ, mₒ, eᵥ, fᵥ], t2_aaaa [eᵥ, aᵥ, jₒ, lₒ], t2_abab [dᵥ, fᵥ, kₒ, mₒ], t2_aaaa [bᵥ, cᵥ, iₒ, nₒ]], [(1, [aᵥ, bᵥ, cᵥ, dᵥ, iₒ, jₒ, kₒ, lₒ]), (-1, [aᵥ, bᵥ, cᵥ, dᵥ, kₒ, jₒ, iₒ, lₒ]), (-1, [bᵥ, aᵥ, cᵥ, dᵥ, iₒ, jₒ, kₒ, lₒ]), (1, [bᵥ, aᵥ, cᵥ, dᵥ, kₒ, jₒ, iₒ, lₒ])]⟩,
  -- line 2274: nmef,eail,fbkm,cdjn->abcdijkl
  ⟨1, [g_aaaa [nₒ, mₒ, eᵥ, fᵥ], t2_aaaa [eᵥ, aᵥ, iₒ, lₒ], t2_aaaa [fᵥ, bᵥ, kₒ, mₒ], t2_aaaa [cᵥ, dᵥ, jₒ, nₒ]], [(1, [aᵥ, bᵥ, cᵥ, dᵥ, iₒ, jₒ, kₒ, lₒ]), (-1, [aᵥ, bᵥ, cᵥ, dᵥ, iₒ, kₒ, jₒ, lₒ]), (-1, [aᵥ, cᵥ, bᵥ, dᵥ, iₒ, jₒ, kₒ, lₒ]), (1, [aᵥ, cᵥ, bᵥ, dᵥ, iₒ, kₒ, jₒ, lₒ])]⟩,
  -- line 2278: nmef,eail,bfkm,cdjn->abcdijkl
  ⟨-1, [g_abab [nₒ, mₒ, eᵥ, fᵥ], t2_aaaa [eᵥ, aᵥ, iₒ, lₒ], t2_abab [bᵥ, fᵥ, kₒ, mₒ], t2_aaaa [cᵥ, dᵥ, jₒ, nₒ]], [(1, [aᵥ, bᵥ, cᵥ, dᵥ, iₒ, jₒ, kₒ, lₒ]), (-1, [aᵥ, bᵥ, cᵥ, dᵥ, iₒ, kₒ, jₒ, lₒ]), (-1, [aᵥ, cᵥ, bᵥ, dᵥ, iₒ, jₒ, kₒ, lₒ]), (1, [aᵥ, cᵥ, bᵥ, dᵥ, iₒ, kₒ, jₒ, lₒ])]⟩,
  -- line 2282: nmef,eail,fbjk,cdnm->abcdijkl
  ⟨-1/2, [g_aaaa [nₒ, mₒ, eᵥ, fᵥ], t2_aaaa [eᵥ, aᵥ, iₒ, lₒ], t2_aaaa [fᵥ, bᵥ, jₒ, kₒ], t2_aaaa [cᵥ, dᵥ, nₒ, mₒ]], [(1, [aᵥ, bᵥ, cᵥ, dᵥ, iₒ, jₒ, kₒ, lₒ]), (-1, [aᵥ, bᵥ, cᵥ, dᵥ, iₒ, jₒ, lₒ, kₒ]), (-1, [aᵥ, cᵥ, bᵥ, dᵥ, iₒ, jₒ, kₒ, lₒ]), (1, [aᵥ, cᵥ, bᵥ, dᵥ, iₒ, jₒ, lₒ, kₒ])]⟩,
  -- line 2286: nmef,eail,fdkm,bcjn->abcdijkl
  ⟨1, [g_aaaa [nₒ, mₒ, eᵥ, fᵥ], t2_aaaa [eᵥ, aᵥ, iₒ, lₒ], t2_aaaa [fᵥ, dᵥ, kₒ, mₒ], t2_aaaa [bᵥ, cᵥ, jₒ, nₒ]], [(1, [aᵥ, bᵥ, cᵥ, dᵥ, iₒ, jₒ, kₒ, lₒ]), (-1, [aᵥ, bᵥ, cᵥ, dᵥ, iₒ, kₒ, jₒ, lₒ]), (-1, [bᵥ, aᵥ, cᵥ, dᵥ, iₒ, jₒ, kₒ, lₒ]), (1, [bᵥ, aᵥ, cᵥ, dᵥ, iₒ, kₒ, jₒ, lₒ])]⟩,
  -- line 2290: nmef,eail,dfkm,bcjn->abcdijkl
  ⟨-1, [g_abab [nₒ, mₒ, eᵥ, fᵥ], t2_aaaa [eᵥ, aᵥ, iₒ, lₒ], t2_abab [dᵥ, fᵥ, kₒ, mₒ], t2_aaaa [bᵥ, cᵥ, jₒ, nₒ]], [(1, [aᵥ, bᵥ, cᵥ, dᵥ, iₒ, jₒ, kₒ, lₒ]), (-1, [aᵥ, bᵥ, cᵥ, dᵥ, iₒ, kₒ, jₒ, lₒ]), (-1, [bᵥ, aᵥ, cᵥ, dᵥ, iₒ, jₒ, kₒ, lₒ]), (1, [bᵥ, aᵥ, cᵥ, dᵥ, iₒ, kₒ, jₒ, lₒ])]⟩,
  -- line 2294: nmef,eail,fdjk,bcnm->abcdijkl
  ⟨-1/2, [g_aaaa [nₒ, mₒ, eᵥ, fᵥ], t2_aaaa [eᵥ, aᵥ, iₒ, lₒ], t2_aaaa [fᵥ, dᵥ, jₒ, kₒ], t2_aaaa [bᵥ, cᵥ, nₒ, mₒ]], [(1, [aᵥ, bᵥ, cᵥ, dᵥ, iₒ, jₒ, kₒ, lₒ]), (-1, [aᵥ, bᵥ, cᵥ, dᵥ, iₒ, jₒ, lₒ, kₒ]), (-1, [bᵥ, aᵥ, cᵥ, dᵥ, iₒ, jₒ, kₒ, lₒ]), (1, [bᵥ, aᵥ, cᵥ, dᵥ, iₒ, jₒ, lₒ, kₒ])]⟩,
  -- line 2298: nmef,eajk,fblm,cdin->abcdijkl
  ⟨1, [g_aaaa [nₒ, mₒ, eᵥ, fᵥ], t2_aaaa [eᵥ, aᵥ, jₒ, kₒ], t2_aaaa [fᵥ, bᵥ, lₒ, mₒ], t2_aaaa [cᵥ, dᵥ, iₒ, nₒ]], [(1, [aᵥ, bᵥ, cᵥ, dᵥ, iₒ, jₒ, kₒ, lₒ]), (-1, [aᵥ, bᵥ, cᵥ, dᵥ, lₒ, jₒ, kₒ, iₒ]), (-1, [aᵥ, cᵥ, bᵥ, dᵥ, iₒ, jₒ, kₒ, lₒ]), (1, [aᵥ, cᵥ, bᵥ, dᵥ, lₒ, jₒ, kₒ, iₒ])]⟩,
  -- line 2302: nmef,eajk,bflm,cdin->abcdijkl
  ⟨-1, [g_abab [nₒ, mₒ, eᵥ, fᵥ], t2_aaaa [eᵥ, aᵥ, jₒ, kₒ], t2_abab [bᵥ, fᵥ, lₒ, mₒ], t2_aaaa [cᵥ, dᵥ, iₒ, nₒ]], [(1, [aᵥ, bᵥ, cᵥ, dᵥ, iₒ, jₒ, kₒ, lₒ]), (-1, [aᵥ, bᵥ, cᵥ, dᵥ, lₒ, jₒ, kₒ, iₒ]), (-1, [aᵥ, cᵥ, bᵥ, dᵥ, iₒ, jₒ, kₒ, lₒ]), (1, [aᵥ, cᵥ, bᵥ, dᵥ, lₒ, jₒ, kₒ, iₒ])]⟩,
  -- line 2306: nmef,eajk,fbil,cdnm->abcdijkl
  ⟨-1/2, [g_aaaa [nₒ, mₒ, eᵥ, fᵥ], t2_aaaa [eᵥ, aᵥ, jₒ, kₒ], t2_aaaa [fᵥ, bᵥ, iₒ, lₒ], t2_aaaa [cᵥ, dᵥ, nₒ, mₒ]], [(1, [aᵥ, bᵥ, cᵥ, dᵥ, iₒ, jₒ, kₒ, lₒ]), (-1, [aᵥ, bᵥ, cᵥ, dᵥ, kₒ, jₒ, iₒ, lₒ]), (-1, [aᵥ, cᵥ, bᵥ, dᵥ, iₒ, jₒ, kₒ, lₒ]), (1, [aᵥ, cᵥ, bᵥ, dᵥ, kₒ, jₒ, iₒ, lₒ])]⟩,
  -- line 2310: nmef,eajk,fdlm,bcin->abcdijkl
  ⟨1, [g_aaaa [nₒ, mₒ, eᵥ, fᵥ], t2_aaaa [eᵥ, aᵥ, jₒ, kₒ], t2_aaaa [fᵥ, dᵥ, lₒ, mₒ], t2_aaaa [bᵥ, cᵥ, iₒ, nₒ]], [(1, [aᵥ, bᵥ, cᵥ, dᵥ, iₒ, jₒ, kₒ, lₒ]), (-1, [aᵥ, bᵥ, cᵥ, dᵥ, lₒ, jₒ, kₒ, iₒ]), (-1, [bᵥ, aᵥ, cᵥ, dᵥ, iₒ, jₒ, kₒ, lₒ]), (1, [bᵥ, aᵥ, cᵥ, dᵥ, lₒ, jₒ, kₒ, iₒ])]⟩,
  -- line 2314: nmef,eajk,dflm,bcin->abcdijkl
  ⟨-1, [g_abab [nₒ, mₒ, eᵥ, fᵥ], t2_aaaa [eᵥ, aᵥ, jₒ, kₒ], t2_abab [dᵥ, fᵥ, lₒ, mₒ], t2_aaaa [bᵥ, cᵥ, iₒ, nₒ]], [(1, [aᵥ, bᵥ, cᵥ, dᵥ, iₒ, jₒ, kₒ, lₒ]), (-1, [aᵥ, bᵥ, cᵥ, dᵥ, lₒ, jₒ, kₒ, iₒ]), (-1, [bᵥ, aᵥ, cᵥ, dᵥ, iₒ, jₒ, kₒ, lₒ]), (1, [bᵥ, aᵥ, cᵥ, dᵥ, lₒ, jₒ, kₒ, iₒ])]⟩,
  -- line 2318: nmef,eajk,fdil,bcnm->abcdijkl
  ⟨-1/2, [g_aaaa [nₒ, mₒ, eᵥ, fᵥ], t2_aaaa [eᵥ, aᵥ, jₒ, kₒ], t2_aaaa [fᵥ, dᵥ, iₒ, lₒ], t2_aaaa [bᵥ, cᵥ, nₒ, mₒ]], [(1, [aᵥ, bᵥ, cᵥ, dᵥ, iₒ, jₒ, kₒ, lₒ]), (-1, [aᵥ, bᵥ, cᵥ, dᵥ, kₒ, jₒ, iₒ, lₒ]), (-1, [bᵥ, aᵥ, cᵥ, dᵥ, iₒ, jₒ, kₒ, lₒ]), (1, [bᵥ, aᵥ, cᵥ, dᵥ, kₒ, jₒ, iₒ, lₒ])]⟩,
  -- line 2322: nmef,eaik,fblm,cdjn->abcdijkl
  ⟨-1, [g_aaaa [nₒ, mₒ, eᵥ, fᵥ], t2_aaaa [eᵥ, aᵥ, iₒ, kₒ], t2_aaaa [fᵥ, bᵥ, lₒ, mₒ], t2_aaaa [cᵥ, dᵥ, jₒ, nₒ]], [(1, [aᵥ, bᵥ, cᵥ, dᵥ, iₒ, jₒ, kₒ, lₒ]), (-1, [aᵥ, bᵥ, cᵥ, dᵥ, iₒ, lₒ, kₒ, jₒ]), (-1, [aᵥ, cᵥ, bᵥ, dᵥ, iₒ, jₒ, kₒ, lₒ]), (1, [aᵥ, cᵥ, bᵥ, dᵥ, iₒ, lₒ, kₒ, jₒ])]⟩,
  -- line 2326: nmef,eaik,bflm,cdjn->abcdijkl
  ⟨1, [g_abab [nₒ, mₒ, eᵥ, fᵥ], t2_aaaa [eᵥ, aᵥ, iₒ, kₒ], t2_abab [bᵥ, fᵥ, lₒ, mₒ], t2_aaaa [cᵥ, dᵥ, jₒ, nₒ]], [(1, [aᵥ, bᵥ, cᵥ, dᵥ, iₒ, jₒ, kₒ, lₒ]), (-1, [aᵥ, bᵥ, cᵥ, dᵥ, iₒ, lₒ, kₒ, jₒ]), (-1, [aᵥ, cᵥ, bᵥ, dᵥ, iₒ, jₒ, kₒ, lₒ]), (1, [aᵥ, cᵥ, bᵥ, dᵥ, iₒ, lₒ, kₒ, jₒ])]⟩,
  -- line 2330: nmef,eaik,fdlm,bcjn->abcdijkl
  ⟨-1, [g_aaaa [nₒ, mₒ, eᵥ, fᵥ], t2_aaaa [eᵥ, aᵥ, iₒ, kₒ], t2_aaaa [fᵥ, dᵥ, lₒ, mₒ], t2_aaaa [bᵥ, cᵥ, jₒ, nₒ]], [(1, [aᵥ, bᵥ, cᵥ, dᵥ, iₒ, jₒ, kₒ, lₒ]), (-1, [aᵥ, bᵥ, cᵥ, dᵥ, iₒ, lₒ, kₒ, jₒ]), (-1, [bᵥ, aᵥ, cᵥ, dᵥ, iₒ, jₒ, kₒ, lₒ]), (1, [bᵥ, aᵥ, cᵥ, dᵥ, iₒ, lₒ, kₒ, jₒ])]⟩,
  -- line 2334: nmef,eaik,dflm,bcjn->abcdijkl
  ⟨1, [g_abab [nₒ, mₒ, eᵥ, fᵥ], t2_aaaa [eᵥ, aᵥ, iₒ, kₒ], t2_abab [dᵥ, fᵥ, lₒ, mₒ], t2_aaaa [bᵥ, cᵥ, jₒ, nₒ]], [(1, [aᵥ, bᵥ, cᵥ, dᵥ, iₒ, jₒ, kₒ, lₒ]), (-1, [aᵥ, bᵥ, cᵥ, dᵥ, iₒ, lₒ, kₒ, jₒ]), (-1, [bᵥ, aᵥ, cᵥ, dᵥ, iₒ, jₒ, kₒ, lₒ]), (1, [bᵥ, aᵥ, cᵥ, dᵥ, iₒ, lₒ, kₒ, jₒ])]⟩,
  -- line 2338: nmef,eaij,fblm,cdkn->abcdijkl
  ⟨1, [g_aaaa [nₒ, mₒ, eᵥ, fᵥ], t2_aaaa [eᵥ, aᵥ, iₒ, jₒ], t2_aaaa [fᵥ, bᵥ, lₒ, mₒ], t2_aaaa [cᵥ, dᵥ, kₒ, nₒ]], [(1, [aᵥ, bᵥ, cᵥ, dᵥ, iₒ, jₒ, kₒ, lₒ]), (-1, [aᵥ, bᵥ, cᵥ, dᵥ, iₒ, jₒ, lₒ, kₒ]), (-1, [aᵥ, cᵥ, bᵥ, dᵥ, iₒ, jₒ, kₒ, lₒ]), (1, [aᵥ, cᵥ, bᵥ, dᵥ, iₒ, jₒ, lₒ, kₒ])]⟩,
  -- line 2342: nmef,eaij,bflm,cdkn->abcdijkl
  ⟨-1, [g_abab [nₒ, mₒ, eᵥ, fᵥ], t2_aaaa [eᵥ, aᵥ, iₒ, jₒ], t2_abab [bᵥ, fᵥ, lₒ, mₒ], t2_aaaa [cᵥ, dᵥ, kₒ, nₒ]], [(1, [aᵥ, bᵥ, cᵥ, dᵥ, iₒ, jₒ, kₒ, lₒ]), (-1, [aᵥ, bᵥ, cᵥ, dᵥ, iₒ, jₒ, lₒ, kₒ]), (-1, [aᵥ, cᵥ, bᵥ, dᵥ, iₒ, jₒ, kₒ, lₒ]), (1, [aᵥ, cᵥ, bᵥ, dᵥ, iₒ, jₒ, lₒ, kₒ])]⟩,
  -- line 2346: nmef,eaij,fdlm,bckn->abcdijkl
  ⟨1, [g_aaaa [nₒ, mₒ, eᵥ, fᵥ], t2_aaaa [eᵥ, aᵥ, iₒ, jₒ], t2_aaaa [fᵥ, dᵥ, lₒ, mₒ], t2_aaaa [bᵥ, cᵥ, kₒ, nₒ]], [(1, [aᵥ, bᵥ, cᵥ, dᵥ, iₒ, jₒ, kₒ, lₒ]), (-1, [aᵥ, bᵥ, cᵥ, dᵥ, iₒ, jₒ, lₒ, kₒ]), (-1, [bᵥ, aᵥ, cᵥ, dᵥ, iₒ, jₒ, kₒ, lₒ]), (1, [bᵥ, aᵥ, cᵥ, dᵥ, iₒ, jₒ, lₒ, kₒ])]⟩,
  -- line 2350: nmef,eaij,dflm,bckn->abcdijkl
  ⟨-1, [g_abab [nₒ, mₒ, eᵥ, fᵥ], t2_aaaa [eᵥ, aᵥ, iₒ, jₒ], t2_abab [dᵥ, fᵥ, lₒ, mₒ], t2_aaaa [bᵥ, cᵥ, kₒ, nₒ]], [(1, [aᵥ, bᵥ, cᵥ, dᵥ, iₒ, jₒ, kₒ, lₒ]), (-1, [aᵥ, bᵥ, cᵥ, dᵥ, iₒ, jₒ, lₒ, kₒ]), (-1, [bᵥ, aᵥ, cᵥ, dᵥ, iₒ, jₒ, kₒ, lₒ]), (1, [bᵥ, aᵥ, cᵥ, dᵥ, iₒ, jₒ, lₒ, kₒ])]⟩,
  -- line 2354: nmef,eblm,fcjk,adin->abcdijkl
  ⟨1, [g_aaaa [nₒ, mₒ, eᵥ, fᵥ], t2_aaaa [eᵥ, bᵥ, lₒ, mₒ], t2_aaaa [fᵥ, cᵥ, jₒ, kₒ], t2_aaaa [aᵥ, dᵥ, iₒ, nₒ]], [(1, [aᵥ, bᵥ, cᵥ, dᵥ, iₒ, jₒ, kₒ, lₒ]), (-1, [aᵥ, bᵥ, cᵥ, dᵥ, jₒ, iₒ, kₒ, lₒ])]⟩,
  -- line 2358: nmfe,belm,fcjk,adin->abcdijkl
  ⟨1, [g_abab [nₒ, mₒ, fᵥ, eᵥ], t2_abab [bᵥ, eᵥ, lₒ, mₒ], t2_aaaa [fᵥ, cᵥ, jₒ, kₒ], t2_aaaa [aᵥ, dᵥ, iₒ, nₒ]], [(1, [aᵥ, bᵥ, cᵥ, dᵥ, iₒ, jₒ, kₒ, lₒ]), (-1, [aᵥ, bᵥ, cᵥ, dᵥ, jₒ, iₒ, kₒ, lₒ])]⟩,
  -- line 2362: nmef,eblm,fcij,adkn->abcdijkl
  ⟨1, [g_aaaa [nₒ, mₒ, eᵥ, fᵥ], t2_aaaa [eᵥ, bᵥ, lₒ, mₒ], t2_aaaa [fᵥ, cᵥ, iₒ, jₒ], t2_aaaa [aᵥ, dᵥ, kₒ, nₒ]], [(1, [aᵥ, bᵥ, cᵥ, dᵥ, iₒ, jₒ, kₒ, lₒ]), (-1, [aᵥ, bᵥ, cᵥ, dᵥ, iₒ, jₒ, lₒ, kₒ])]⟩,
  -- line 2366: nmfe,belm,fcij,adkn->abcdijkl
  ⟨1, [g_abab [nₒ, mₒ, fᵥ, eᵥ], t2_abab [bᵥ, eᵥ, lₒ, mₒ], t2_aaaa [fᵥ, cᵥ, iₒ, jₒ], t2_aaaa [aᵥ, dᵥ, kₒ, nₒ]], [(1, [aᵥ, bᵥ, cᵥ, dᵥ, iₒ, jₒ, kₒ, lₒ]), (-1, [aᵥ, bᵥ, cᵥ, dᵥ, iₒ, jₒ, lₒ, kₒ])]⟩,
  -- line 2370: nmef,ebkm,fcjl,adin->abcdijkl
  ⟨-1, [g_aaaa [nₒ, mₒ, eᵥ, fᵥ], t2_aaaa [eᵥ, bᵥ, kₒ, mₒ], t2_aaaa [fᵥ, cᵥ, jₒ, lₒ], t2_aaaa [aᵥ, dᵥ, iₒ, nₒ]], [(1, [aᵥ, bᵥ, cᵥ, dᵥ, iₒ, jₒ, kₒ, lₒ]), (-1, [aᵥ, bᵥ, cᵥ, dᵥ, jₒ, iₒ, kₒ, lₒ])]⟩,
  -- line 2374: nmfe,bekm,fcjl,adin->abcdijkl
  ⟨-1, [g_abab [nₒ, mₒ, fᵥ, eᵥ], t2_abab [bᵥ, eᵥ, kₒ, mₒ], t2_aaaa [fᵥ, cᵥ, jₒ, lₒ], t2_aaaa [aᵥ, dᵥ, iₒ, nₒ]], [(1, [aᵥ, bᵥ, cᵥ, dᵥ, iₒ, jₒ, kₒ, lₒ]), (-1, [aᵥ, bᵥ, cᵥ, dᵥ, jₒ, iₒ, kₒ, lₒ])]⟩,
  -- line 2378: nmef,ebjm,fckl,adin->abcdijkl
  ⟨1, [g_aaaa [nₒ, mₒ, eᵥ, fᵥ], t2_aaaa [eᵥ, bᵥ, jₒ, mₒ], t2_aaaa [fᵥ, cᵥ, kₒ, lₒ], t2_aaaa [aᵥ, dᵥ, iₒ, nₒ]], [(1, [aᵥ, bᵥ, cᵥ, dᵥ, iₒ, jₒ, kₒ, lₒ]), (-1, [aᵥ, bᵥ, cᵥ, dᵥ, kₒ, jₒ, iₒ, lₒ])]⟩,
  -- line 2382: nmfe,bejm,fckl,adin->abcdijkl
  ⟨1, [g_abab [nₒ, mₒ, fᵥ, eᵥ], t2_abab [bᵥ, eᵥ, jₒ, mₒ], t2_aaaa [fᵥ, cᵥ, kₒ, lₒ], t2_aaaa [aᵥ, dᵥ, iₒ, nₒ]], [(1, [aᵥ, bᵥ, cᵥ, dᵥ, iₒ, jₒ, kₒ, lₒ]), (-1, [aᵥ, bᵥ, cᵥ, dᵥ, kₒ, jₒ, iₒ, lₒ])]⟩,
  -- line 2386: nmef,ebjm,fcik,adln->abcdijkl
  ⟨1, [g_aaaa [nₒ, mₒ, eᵥ, fᵥ], t2_aaaa [eᵥ, bᵥ, jₒ, mₒ], t2_aaaa [fᵥ, cᵥ, iₒ, kₒ], t2_aaaa [aᵥ, dᵥ, lₒ, nₒ]], [(1, [aᵥ, bᵥ, cᵥ, dᵥ, iₒ, jₒ, kₒ, lₒ]), (-1, [aᵥ, bᵥ, cᵥ, dᵥ, jₒ, iₒ, kₒ, lₒ])]⟩,
  -- line 2390: nmfe,bejm,fcik,adln->abcdijkl
  ⟨1, [g_abab [nₒ, mₒ, fᵥ, eᵥ], t2_abab [bᵥ, eᵥ, jₒ, mₒ], t2_aaaa [fᵥ, cᵥ, iₒ, kₒ], t2_aaaa [aᵥ, dᵥ, lₒ, nₒ]], [(1, [aᵥ, bᵥ, cᵥ, dᵥ, iₒ, jₒ, kₒ, lₒ]), (-1, [aᵥ, bᵥ, cᵥ, dᵥ, jₒ, iₒ, kₒ, lₒ])]⟩,
  -- line 2394: nmef,ebim,fckl,adjn->abcdijkl
  ⟨-1, [g_aaaa [nₒ, mₒ, eᵥ, fᵥ], t2_aaaa [eᵥ, bᵥ, iₒ, mₒ], t2_aaaa [fᵥ, cᵥ, kₒ, lₒ], t2_aaaa [aᵥ, dᵥ, jₒ, nₒ]], [(1, [aᵥ, bᵥ, cᵥ, dᵥ, iₒ, jₒ, kₒ, lₒ]), (-1, [aᵥ, bᵥ, cᵥ, dᵥ, iₒ, kₒ, jₒ, lₒ])]⟩,
  -- line 2398: nmfe,beim,fckl,adjn->abcdijkl
  ⟨-1, [g_abab [nₒ, mₒ, fᵥ, eᵥ], t2_abab [bᵥ, eᵥ, iₒ, mₒ], t2_aaaa [fᵥ, cᵥ, kₒ, lₒ], t2_aaaa [aᵥ, dᵥ, jₒ, nₒ]], [(1, [aᵥ, bᵥ, cᵥ, dᵥ, iₒ, jₒ, kₒ, lₒ]), (-1, [aᵥ, bᵥ, cᵥ, dᵥ, iₒ, kₒ, jₒ, lₒ])]⟩,
  -- line 2402: nmef,ebkl,fcjm,adin->abcdijkl
  ⟨1, [g_aaaa [nₒ, mₒ, eᵥ, fᵥ], t2_aaaa [eᵥ, bᵥ, kₒ, lₒ], t2_aaaa [fᵥ, cᵥ, jₒ, mₒ], t2_aaaa [aᵥ, dᵥ, iₒ, nₒ]], [(1, [aᵥ, bᵥ, cᵥ, dᵥ, iₒ, jₒ, kₒ, lₒ]), (-1, [aᵥ, bᵥ, cᵥ, dᵥ, jₒ, iₒ, kₒ, lₒ])]⟩,
  -- line 2406: nmef,ebkl,cfjm,adin->abcdijkl
  ⟨-1, [g_abab [nₒ, mₒ, eᵥ, fᵥ], t2_aaaa [eᵥ, bᵥ, kₒ, lₒ], t2_abab [cᵥ, fᵥ, jₒ, mₒ], t2_aaaa [aᵥ, dᵥ, iₒ, nₒ]], [(1, [aᵥ, bᵥ, cᵥ, dᵥ, iₒ, jₒ, kₒ, lₒ]), (-1, [aᵥ, bᵥ, cᵥ, dᵥ, jₒ, iₒ, kₒ, lₒ])]⟩
  ]

/-- Part 2 of `ccsdtqT2cubed_t4_aaaaaaaa`. -/
def ccsdtqT2cubed_t4_aaaaaaaa_2 : Prog := [
  -- line 2410: nmef,ebkl,fcij,adnm->abcdijkl
  ⟨-1/2, [g_aaaa [nₒ, mₒ, eᵥ, fᵥ], t2_aaaa [eᵥ, bᵥ, kₒ, lₒ], t2_aaaa [fᵥ, cᵥ, iₒ, jₒ], t2_aaaa [aᵥ, dᵥ, nₒ, mₒ]], [(1, [aᵥ, bᵥ, cᵥ, dᵥ, iₒ, jₒ, kₒ, lₒ]), (-1, [aᵥ, bᵥ, cᵥ, dᵥ, iₒ, kₒ, jₒ, lₒ])]⟩,
  -- line 2414: nmef,ebjl,fckm,adin->abcdijkl
  ⟨-1, [g_aaaa [nₒ, mₒ, eᵥ, fᵥ], t2_aaaa [eᵥ, bᵥ, jₒ, lₒ], t2_aaaa [fᵥ, cᵥ, kₒ, mₒ], t2_aaaa [aᵥ, dᵥ, iₒ, nₒ]], [(1, [aᵥ, bᵥ, cᵥ, dᵥ, iₒ, jₒ, kₒ, lₒ]), (-1, [aᵥ, bᵥ, cᵥ, dᵥ, kₒ, jₒ, iₒ, lₒ])]⟩,
  -- line 2418: nmef,ebjl,cfkm,adin->abcdijkl
  ⟨1, [g_abab [nₒ, mₒ, eᵥ, fᵥ], t2_aaaa [eᵥ, bᵥ, jₒ, lₒ], t2_abab [cᵥ, fᵥ, kₒ, mₒ], t2_aaaa [aᵥ, dᵥ, iₒ, nₒ]], [(1, [aᵥ, bᵥ, cᵥ, dᵥ, iₒ, jₒ, kₒ, lₒ]), (-1, [aᵥ, bᵥ, cᵥ, dᵥ, kₒ, jₒ, iₒ, lₒ])]⟩,
  -- line 2422: nmef,ebil,fckm,adjn->abcdijkl
  ⟨1, [g_aaaa [nₒ, mₒ, eᵥ, fᵥ], t2_aaaa [eᵥ, bᵥ, iₒ, lₒ], t2_aaaa [fᵥ, cᵥ, kₒ, mₒ], t2_aaaa [aᵥ, dᵥ, jₒ, nₒ]], [(1, [aᵥ, bᵥ, cᵥ, dᵥ, iₒ, jₒ, kₒ, lₒ]), (-1, [aᵥ, bᵥ, cᵥ, dᵥ, iₒ, kₒ, jₒ, lₒ])]⟩,
  -- line 2426: nmef,ebil,cfkm,adjn->abcdijkl
  ⟨-1, [g_abab [nₒ, mₒ, eᵥ, fᵥ], t2_aaaa [eᵥ, bᵥ, iₒ, lₒ], t2_abab [cᵥ, fᵥ, kₒ, mₒ], t2_aaaa [aᵥ, dᵥ, jₒ, nₒ]], [(1, [aᵥ, bᵥ, cᵥ, dᵥ, iₒ, jₒ, kₒ, lₒ]), (-1, [aᵥ, bᵥ, cᵥ, dᵥ, iₒ, kₒ, jₒ, lₒ])]⟩,
  -- line 2430: nmef,ebil,fcjk,adnm->abcdijkl
  ⟨-1/2, [g_aaaa [nₒ, mₒ, eᵥ, fᵥ], t2_aaaa [eᵥ, bᵥ, iₒ, lₒ], t2_aaaa [fᵥ, cᵥ, jₒ, kₒ], t2_aaaa [aᵥ, dᵥ, nₒ, mₒ]], [(1, [aᵥ, bᵥ, cᵥ, dᵥ, iₒ, jₒ, kₒ, lₒ]), (-1, [aᵥ, bᵥ, cᵥ, dᵥ, iₒ, jₒ, lₒ, kₒ])]⟩,
  -- line 2434: nmef,ebjk,fclm,adin->abcdijkl
  ⟨1, [g_aaaa [nₒ, mₒ, eᵥ, fᵥ], t2_aaaa [eᵥ, bᵥ, jₒ, kₒ], t2_aaaa [fᵥ, cᵥ, lₒ, mₒ], t2_aaaa [aᵥ, dᵥ, iₒ, nₒ]], [(1, [aᵥ, bᵥ, cᵥ, dᵥ, iₒ, jₒ, kₒ, lₒ]), (-1, [aᵥ, bᵥ, cᵥ, dᵥ, lₒ, jₒ, kₒ, iₒ])]⟩,
  -- line 2438: nmef,ebjk,cflm,adin->abcdijkl
  ⟨-1, [g_abab [nₒ, mₒ, eᵥ, fᵥ], t2_aaaa [eᵥ, bᵥ, jₒ, kₒ], t2_abab [cᵥ, fᵥ, lₒ, mₒ], t2_aaaa [aᵥ, dᵥ, iₒ, nₒ]], [(1, [aᵥ, bᵥ, cᵥ, dᵥ, iₒ, jₒ, kₒ, lₒ]), (-1, [aᵥ, bᵥ, cᵥ, dᵥ, lₒ, jₒ, kₒ, iₒ])]⟩,
  -- line 2442: nmef,ebjk,fcil,adnm->abcdijkl
  ⟨-1/2, [g_aaaa [nₒ, mₒ, eᵥ, fᵥ], t2_aaaa [eᵥ, bᵥ, jₒ, kₒ], t2_aaaa [fᵥ, cᵥ, iₒ, lₒ], t2_aaaa [aᵥ, dᵥ, nₒ, mₒ]], [(1, [aᵥ, bᵥ, cᵥ, dᵥ, iₒ, jₒ, kₒ, lₒ]), (-1, [aᵥ, bᵥ, cᵥ, dᵥ, kₒ, jₒ, iₒ, lₒ])]⟩,
  -- line 2446: nmef,ebik,fclm,adjn->abcdijkl
  ⟨-1, [g_aaaa [nₒ, mₒ, eᵥ, fᵥ], t2_aaaa [eᵥ, bᵥ, iₒ, kₒ], t2_aaaa [fᵥ, cᵥ, lₒ, mₒ], t2_aaaa [aᵥ, dᵥ, jₒ, nₒ]], [(1, [aᵥ, bᵥ, cᵥ, dᵥ, iₒ, jₒ, kₒ, lₒ]), (-1, [aᵥ, bᵥ, cᵥ, dᵥ, iₒ, lₒ, kₒ, jₒ])]⟩,
  -- line 2450: nmef,ebik,cflm,adjn->abcdijkl
  ⟨1, [g_abab [nₒ, mₒ, eᵥ, fᵥ], t2_aaaa [eᵥ, bᵥ, iₒ, kₒ], t2_abab [cᵥ, fᵥ, lₒ, mₒ], t2_aaaa [aᵥ, dᵥ, jₒ, nₒ]], [(1, [aᵥ, bᵥ, cᵥ, dᵥ, iₒ, jₒ, kₒ, lₒ]), (-1, [aᵥ, bᵥ, cᵥ, dᵥ, iₒ, lₒ, kₒ, jₒ])]⟩,
  -- line 2454: nmef,ebij,fclm,adkn->abcdijkl
  ⟨1, [g_aaaa [nₒ, mₒ, eᵥ, fᵥ], t2_aaaa [eᵥ, bᵥ, iₒ, jₒ], t2_aaaa [fᵥ, cᵥ, lₒ, mₒ], t2_aaaa [aᵥ, dᵥ, kₒ, nₒ]], [(1, [aᵥ, bᵥ, cᵥ, dᵥ, iₒ, jₒ, kₒ, lₒ]), (-1, [aᵥ, bᵥ, cᵥ, dᵥ, iₒ, jₒ, lₒ, kₒ])]⟩,
  -- line 2458: nmef,ebij,cflm,adkn->abcdijkl
  ⟨-1, [g_abab [nₒ, mₒ, eᵥ, fᵥ], t2_aaaa [eᵥ, bᵥ, iₒ, jₒ], t2_abab [cᵥ, fᵥ, lₒ, mₒ], t2_aaaa [aᵥ, dᵥ, kₒ, nₒ]], [(1, [aᵥ, bᵥ, cᵥ, dᵥ, iₒ, jₒ, kₒ, lₒ]), (-1, [aᵥ, bᵥ, cᵥ, dᵥ, iₒ, jₒ, lₒ, kₒ])]⟩,
  -- line 2462: nmef,eclm,fdjk,abin->abcdijkl
  ⟨1, [g_aaaa [nₒ, mₒ, eᵥ, fᵥ], t2_aaaa [eᵥ, cᵥ, lₒ, mₒ], t2_aaaa [fᵥ, dᵥ, jₒ, kₒ], t2_aaaa [aᵥ, bᵥ, iₒ, nₒ]], [(1, [aᵥ, bᵥ, cᵥ, dᵥ, iₒ, jₒ, kₒ, lₒ]), (-1, [aᵥ, bᵥ, cᵥ, dᵥ, jₒ, iₒ, kₒ, lₒ])]⟩,
  -- line 2466: nmfe,celm,fdjk,abin->abcdijkl
  ⟨1, [g_abab [nₒ, mₒ, fᵥ, eᵥ], t2_abab [cᵥ, eᵥ, lₒ, mₒ], t2_aaaa [fᵥ, dᵥ, jₒ, kₒ], t2_aaaa [aᵥ, bᵥ, iₒ, nₒ]], [(1, [aᵥ, bᵥ, cᵥ, dᵥ, iₒ, jₒ, kₒ, lₒ]), (-1, [aᵥ, bᵥ, cᵥ, dᵥ, jₒ, iₒ, kₒ, lₒ])]⟩,
  -- line 2470: nmef,eclm,fdij,abkn->abcdijkl
  ⟨1, [g_aaaa [nₒ, mₒ, eᵥ, fᵥ], t2_aaaa [eᵥ, cᵥ, lₒ, mₒ], t2_aaaa [fᵥ, dᵥ, iₒ, jₒ], t2_aaaa [aᵥ, bᵥ, kₒ, nₒ]], [(1, [aᵥ, bᵥ, cᵥ, dᵥ, iₒ, jₒ, kₒ, lₒ]), (-1, [aᵥ, bᵥ, cᵥ, dᵥ, iₒ, jₒ, lₒ, kₒ])]⟩,
  -- line 2474: nmfe,celm,fdij,abkn->abcdijkl
  ⟨1, [g_abab [nₒ, mₒ, fᵥ, eᵥ], t2_abab [cᵥ, eᵥ, lₒ, mₒ], t2_aaaa [fᵥ, dᵥ, iₒ, jₒ], t2_aaaa [aᵥ, bᵥ, kₒ, nₒ]], [(1, [aᵥ, bᵥ, cᵥ, dᵥ, iₒ, jₒ, kₒ, lₒ]), (-1, [aᵥ, bᵥ, cᵥ, dᵥ, iₒ, jₒ, lₒ, kₒ])]⟩,
  -- line 2478: nmef,eckm,fdjl,abin->abcdijkl
  ⟨-1, [g_aaaa [nₒ, mₒ, eᵥ, fᵥ], t2_aaaa [eᵥ, cᵥ, kₒ, mₒ], t2_aaaa [fᵥ, dᵥ, jₒ, lₒ], t2_aaaa [aᵥ, bᵥ, iₒ, nₒ]], [(1, [aᵥ, bᵥ, cᵥ, dᵥ, iₒ, jₒ, kₒ, lₒ]), (-1, [aᵥ, bᵥ, cᵥ, dᵥ, jₒ, iₒ, kₒ, lₒ])]⟩,
  -- line 2482: nmfe,cekm,fdjl,abin->abcdijkl
  ⟨-1, [g_abab [nₒ, mₒ, fᵥ, eᵥ], t2_abab [cᵥ, eᵥ, kₒ, mₒ], t2_aaaa [fᵥ, dᵥ, jₒ, lₒ], t2_aaaa [aᵥ, bᵥ, iₒ, nₒ]], [(1, [aᵥ, bᵥ, cᵥ, dᵥ, iₒ, jₒ, kₒ, lₒ]), (-1, [aᵥ, bᵥ, cᵥ, dᵥ, jₒ, iₒ, kₒ, lₒ])]⟩,
  -- line 2486: nmef,ecjm,fdkl,abin->abcdijkl
  ⟨1, [g_aaaa [nₒ, mₒ, eᵥ, fᵥ], t2_aaaa [eᵥ, cᵥ, jₒ, mₒ], t2_aaaa [fᵥ, dᵥ, kₒ, lₒ], t2_aaaa [aᵥ, bᵥ, iₒ, nₒ]], [(1, [aᵥ, bᵥ, cᵥ, dᵥ, iₒ, jₒ, kₒ, lₒ]), (-1, [aᵥ, bᵥ, cᵥ, dᵥ, kₒ, jₒ, iₒ, lₒ])]⟩,
  -- line 2490: nmfe,cejm,fdkl,abin->abcdijkl
  ⟨1, [g_abab [nₒ, mₒ, fᵥ, eᵥ], t2_abab [cᵥ, eᵥ, jₒ, mₒ], t2_aaaa [fᵥ, dᵥ, kₒ, lₒ], t2_aaaa [aᵥ, bᵥ, iₒ, nₒ]], [(1, [aᵥ, bᵥ, cᵥ, dᵥ, iₒ, jₒ, kₒ, lₒ]), (-1, [aᵥ, bᵥ, cᵥ, dᵥ, kₒ, jₒ, iₒ, lₒ])]⟩,
  -- line 2494: nmef,ecjm,fdik,abln->abcdijkl
  ⟨1, [g_aaaa [nₒ, mₒ, eᵥ, fᵥ], t2_aaaa [eᵥ, cᵥ, jₒ, mₒ], t2_aaaa [fᵥ, dᵥ, iₒ, kₒ], t2_aaaa [aᵥ, bᵥ, lₒ, nₒ]], [(1, [aᵥ, bᵥ, cᵥ, dᵥ, iₒ, jₒ, kₒ, lₒ]), (-1, [aᵥ, bᵥ, cᵥ, dᵥ, jₒ, iₒ, kₒ, lₒ])]⟩,
  -- line 2498: nmfe,cejm,fdik,abln->abcdijkl
  ⟨1, [g_abab [nₒ, mₒ, fᵥ, eᵥ], t2_abab [cᵥ, eᵥ, jₒ, mₒ], t2_aaaa [fᵥ, dᵥ, iₒ, kₒ], t2_aaaa [aᵥ, bᵥ, lₒ, nₒ]], [(1, [aᵥ, bᵥ, cᵥ, dᵥ, iₒ, jₒ, kₒ, lₒ]), (-1, [aᵥ, bᵥ, cᵥ, dᵥ, jₒ, iₒ, kₒ, lₒ])]⟩,
  -- line 2502: nmef,ecim,fdkl,abjn->abcdijkl
  ⟨-1, [g_aaaa [nₒ, mₒ, eᵥ, fᵥ], t2_aaaa [eᵥ, cᵥ, iₒ, mₒ], t2_aaaa [fᵥ, dᵥ, kₒ, lₒ], t2_aaaa [aᵥ, bᵥ, jₒ, nₒ]], [(1, [aᵥ, bᵥ, cᵥ, dᵥ, iₒ, jₒ, kₒ, lₒ]), (-1, [aᵥ, bᵥ, cᵥ, dᵥ, iₒ, kₒ, jₒ, lₒ])]⟩,
  -- line 2506: nmfe,ceim,fdkl,abjn->abcdijkl
  ⟨-1, [g_abab [nₒ, mₒ, fᵥ, eᵥ], t2_abab [cᵥ, eᵥ, iₒ, mₒ], t2_aaaa [fᵥ, dᵥ, kₒ, lₒ], t2_aaaa [aᵥ, bᵥ, jₒ, nₒ]], [(1, [aᵥ, bᵥ, cᵥ, dᵥ, iₒ, jₒ, kₒ, lₒ]), (-1, [aᵥ, bᵥ, cᵥ, dᵥ, iₒ, kₒ, jₒ, lₒ])]⟩,
  -- line 2510: nmef,eckl,fdjm,abin->abcdijkl
  ⟨1, [g_aaaa [nₒ, mₒ, eᵥ, fᵥ], t2_aaaa [eᵥ, cᵥ, kₒ, lₒ], t2_aaaa [fᵥ, dᵥ, jₒ, mₒ], t2_aaaa [aᵥ, bᵥ, iₒ, nₒ]], [(1, [aᵥ, bᵥ, cᵥ, dᵥ, iₒ, jₒ, kₒ, lₒ]), (-1, [aᵥ, bᵥ, cᵥ, dᵥ, jₒ, iₒ, kₒ, lₒ])]⟩,
  -- line 2514: nmef,eckl,dfjm,abin->abcdijkl
  ⟨-1, [g_abab [nₒ, mₒ, eᵥ, fᵥ], t2_aaaa [eᵥ, cᵥ, kₒ, lₒ], t2_abab [dᵥ, fᵥ, jₒ, mₒ], t2_aaaa [aᵥ, bᵥ, iₒ, nₒ]], [(1, [aᵥ, bᵥ, cᵥ, dᵥ, iₒ, jₒ, kₒ, lₒ]), (-1, [aᵥ, bᵥ, cᵥ, dᵥ, jₒ, iₒ, kₒ, lₒ])]⟩,
  -- line 2518: nmef,eckl,fdij,abnm->abcdijkl
  ⟨-1/2, [g_aaaa [nₒ, mₒ, eᵥ, fᵥ], t2_aaaa [eᵥ, cᵥ, kₒ, lₒ], t2_aaaa [fᵥ, dᵥ, iₒ, jₒ], t2_aaaa [aᵥ, bᵥ, nₒ, mₒ]], [(1, [aᵥ, bᵥ, cᵥ, dᵥ, iₒ, jₒ, kₒ, lₒ]), (-1, [aᵥ, bᵥ, cᵥ, dᵥ, iₒ, kₒ, jₒ, lₒ])]⟩,
  -- line 2522: nmef,ecjl,fdkm,abin->abcdijkl
  ⟨-1, [g_aaaa [nₒ, mₒ, eᵥ, fᵥ], t2_aaaa [eᵥ, cᵥ, jₒ, lₒ], t2_aaaa [fᵥ, dᵥ, kₒ, mₒ], t2_aaaa [aᵥ, bᵥ, iₒ, nₒ]], [(1, [aᵥ, bᵥ, cᵥ, dᵥ, iₒ, jₒ, kₒ, lₒ]), (-1, [aᵥ, bᵥ, cᵥ, dᵥ, kₒ, jₒ, iₒ, lₒ])]⟩,
  -- line 2526: nmef,ecjl,dfkm,abin->abcdijkl
  ⟨1, [g_abab [nₒ, mₒ, eᵥ, fᵥ], t2_aaaa [eᵥ, cᵥ, jₒ, lₒ], t2_abab [dᵥ, fᵥ, kₒ, mₒ], t2_aaaa [aᵥ, bᵥ, iₒ, nₒ]], [(1, [aᵥ, bᵥ, cᵥ, dᵥ, iₒ, jₒ, kₒ, lₒ]), (-1, [aᵥ, bᵥ, cᵥ, dᵥ, kₒ, jₒ, iₒ, lₒ])]⟩,
  -- line 2530: nmef,ecil,fdkm,abjn->abcdijkl
  ⟨1, [g_aaaa [nₒ, mₒ, eᵥ, fᵥ], t2_aaaa [eᵥ, cᵥ, iₒ, lₒ], t2_aaaa [fᵥ, dᵥ, kₒ, mₒ], t2_aaaa [aᵥ, bᵥ, jₒ, nₒ]], [(1, [aᵥ, bᵥ, cᵥ, dᵥ, iₒ, jₒ, kₒ, lₒ]), (-1, [aᵥ, bᵥ, cᵥ, dᵥ, iₒ, kₒ, jₒ, lₒ])]⟩,
  -- line 2534: nmef,ecil,dfkm,abjn->abcdijkl
  ⟨-1, [g_abab [nₒ, mₒ, eᵥ, fᵥ], t2_aaaa [eᵥ, cᵥ, iₒ, lₒ], t2_abab [dᵥ, fᵥ, kₒ, mₒ], t2_aaaa [aᵥ, bᵥ, jₒ, nₒ]], [(1, [aᵥ, bᵥ, cᵥ, dᵥ, iₒ, jₒ, kₒ, lₒ]), (-1, [aᵥ, bᵥ, cᵥ, dᵥ, iₒ, kₒ, jₒ, lₒ])]⟩,
  -- line 2538: nmef,ecil,fdjk,abnm->abcdijkl
  ⟨-1/2, [g_aaaa [nₒ, mₒ, eᵥ, fᵥ], t2_aaaa [eᵥ, cᵥ, iₒ, lₒ], t2_aaaa [fᵥ, dᵥ, jₒ, kₒ], t2_aaaa [aᵥ, bᵥ, nₒ, mₒ]], [(1, [aᵥ, bᵥ, cᵥ, dᵥ, iₒ, jₒ, kₒ, lₒ]), (-1, [aᵥ, bᵥ, cᵥ, dᵥ, iₒ, jₒ, lₒ, kₒ])]⟩,
  -- line 2542: nmef,ecjk,fdlm,abin->abcdijkl
  ⟨1, [g_aaaa [nₒ, mₒ, eᵥ, fᵥ], t2_aaaa [eᵥ, cᵥ, jₒ, kₒ], t2_aaaa [fᵥ, dᵥ, lₒ, mₒ], t2_aaaa [aᵥ, bᵥ, iₒ, nₒ]], [(1, [aᵥ, bᵥ, cᵥ, dᵥ, iₒ, jₒ, kₒ, lₒ]), (-1, [aᵥ, bᵥ, cᵥ, dᵥ, lₒ, jₒ, kₒ, iₒ])]⟩,
  -- line 2546: nmef,ecjk,dflm,abin->abcdijkl
  ⟨-1, [g_abab [nₒ, mₒ, eᵥ, fᵥ], t2_aaaa [eᵥ, cᵥ, jₒ, kₒ], t2_abab [dᵥ, fᵥ, lₒ, mₒ], t2_aaaa [aᵥ, bᵥ, iₒ, nₒ]], [(1, [aᵥ, bᵥ, cᵥ, dᵥ, iₒ, jₒ, kₒ, lₒ]), (-1, [aᵥ, bᵥ, cᵥ, dᵥ, lₒ, jₒ, kₒ, iₒ])]⟩,
  -- line 2550: nmef,ecjk,fdil,abnm->abcdijkl
  ⟨-1/2, [g_aaaa [nₒ, mₒ, eᵥ, fᵥ], t2_aaaa [eᵥ, cᵥ, jₒ, kₒ], t2_aaaa [fᵥ, dᵥ, iₒ, lₒ], t2_aaaa [aᵥ, bᵥ, nₒ, mₒ]], [(1, [aᵥ, bᵥ, cᵥ, dᵥ, iₒ, jₒ, kₒ, lₒ]), (-1, [aᵥ, bᵥ, cᵥ, dᵥ, kₒ, jₒ, iₒ, lₒ])]⟩,
  -- line 2554: nmef,ecik,fdlm,abjn->abcdijkl
  ⟨-1, [g_aaaa [nₒ, mₒ, eᵥ, fᵥ], t2_aaaa [eᵥ, cᵥ, iₒ, kₒ], t2_aaaa [fᵥ, dᵥ, lₒ, mₒ], t2_aaaa [aᵥ, bᵥ, jₒ, nₒ]], [(1, [aᵥ, bᵥ, cᵥ, dᵥ, iₒ, jₒ, kₒ, lₒ]), (-1, [aᵥ, bᵥ, cᵥ, dᵥ, iₒ, lₒ, kₒ, jₒ])]⟩,
  -- line 2558: nmef,ecik,dflm,abjn->abcdijkl
  ⟨1, [g_abab [nₒ, mₒ, eᵥ, fᵥ], t2_aaaa [eᵥ, cᵥ, iₒ, kₒ], t2_abab [dᵥ, fᵥ, lₒ, mₒ], t2_aaaa [aᵥ, bᵥ, jₒ, nₒ]], [(1, [aᵥ, bᵥ, cᵥ, dᵥ, iₒ, jₒ, kₒ, lₒ]), (-1, [aᵥ, bᵥ, cᵥ, dᵥ, iₒ, lₒ, kₒ, jₒ])]⟩,
  -- line 2562: nmef,ecij,fdlm,abkn->abcdijkl
  ⟨1, [g_aaaa [nₒ, mₒ, eᵥ, fᵥ], t2_aaaa [eᵥ, cᵥ, iₒ, jₒ], t2_aaaa [fᵥ, dᵥ, lₒ, mₒ], t2_aaaa [aᵥ, bᵥ, kₒ, nₒ]], [(1, [aᵥ, bᵥ, cᵥ, dᵥ, iₒ, jₒ, kₒ, lₒ]), (-1, [aᵥ, bᵥ, cᵥ, dᵥ, iₒ, jₒ, lₒ, kₒ])]⟩,
  -- line 2566: nmef,ecij,dflm,abkn->abcdijkl
  ⟨-1, [g_abab [nₒ, mₒ, eᵥ, fᵥ], t2_aaaa [eᵥ, cᵥ, iₒ, jₒ], t2_abab [dᵥ, fᵥ, lₒ, mₒ], t2_aaaa [aᵥ, bᵥ, kₒ, nₒ]], [(1, [aᵥ, bᵥ, cᵥ, dᵥ, iₒ, jₒ, kₒ, lₒ]), (-1, [aᵥ, bᵥ, cᵥ, dᵥ, iₒ, jₒ, lₒ, kₒ])]⟩
  ]

/-- `UT2/fullCCenergy.py` 2078-2569, `ccsdtqT2cubed_t4_aaaaaaaa_residual`. -/
def ccsdtqT2cubed_t4_aaaaaaaa : Prog := ccsdtqT2cubed_t4_aaaaaaaa_0 ++ (ccsdtqT2cubed_t4_aaaaaaaa_1 ++ (ccsdtqT2cubed_t4_aaaaaaaa_2))

end Verif.Gen
