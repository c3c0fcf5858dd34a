import Verif.Ein.Names
import Verif.Gen.Antisym

/-! Written by `/verif/tools/gen.py`. Programs read from `/repo/UT2`. -/

set_option maxRecDepth 100000

namespace Verif.Gen

open Verif.Ein Verif.Ein.N


/-- Part 0 of `ccdq_t4_aabbaabb`. -/
def ccdq_t4_aabbaabb_0 : Prog := [
  -- line 2692: ml,abcdijkm->abcdijkl
  ⟨-100000000000001/100000000000000, [f_bb [mₒ, lₒ], t4_aabbaabb [aᵥ, bᵥ, cᵥ, dᵥ, iₒ, jₒ, kₒ, mₒ]], [(1, [aᵥ, bᵥ, cᵥ, dᵥ, iₒ, jₒ, kₒ, lₒ]), (-1, [aᵥ, bᵥ, cᵥ, dᵥ, iₒ, jₒ, lₒ, kₒ])]⟩,
  -- line 2696: mj,abcdimlk->abcdijkl
  ⟨100000000000001/100000000000000, [f_aa [mₒ, jₒ], t4_aabbaabb [aᵥ, bᵥ, cᵥ, dᵥ, iₒ, mₒ, lₒ, kₒ]], [(1, [aᵥ, bᵥ, cᵥ, dᵥ, iₒ, jₒ, kₒ, lₒ]), (-1, [aᵥ, bᵥ, cᵥ, dᵥ, jₒ, iₒ, kₒ, lₒ])]⟩,
  -- line 2700: ae,ebcdijkl->abcdijkl
  ⟨100000000000001/100000000000000, [f_aa [aᵥ, eᵥ], t4_aabbaabb [eᵥ, bᵥ, cᵥ, dᵥ, iₒ, jₒ, kₒ, lₒ]], [(1, [aᵥ, bᵥ, cᵥ, dᵥ, iₒ, jₒ, kₒ, lₒ]), (-1, [bᵥ, aᵥ, cᵥ, dᵥ, iₒ, jₒ, kₒ, lₒ])]⟩,
  -- line 2704: ce,baedijkl->abcdijkl
  ⟨-100000000000001/100000000000000, [f_bb [cᵥ, eᵥ], t4_aabbaabb [bᵥ, aᵥ, eᵥ, dᵥ, iₒ, jₒ, kₒ, lₒ]], [(1, [aᵥ, bᵥ, cᵥ, dᵥ, iₒ, jₒ, kₒ, lₒ]), (-1, [aᵥ, bᵥ, dᵥ, cᵥ, iₒ, jₒ, kₒ, lₒ])]⟩,
  -- line 2708: nmkl,abcdijnm->abcdijkl
  ⟨50000000000001/100000000000000, [g_bbbb [nₒ, mₒ, kₒ, lₒ], t4_aabbaabb [aᵥ, bᵥ, cᵥ, dᵥ, iₒ, jₒ, nₒ, mₒ]], [(1, [aᵥ, bᵥ, cᵥ, dᵥ, iₒ, jₒ, kₒ, lₒ])]⟩,
  -- line 2711: nmjl,abcdinkm->abcdijkl
  ⟨50000000000001/100000000000000, [g_abab [nₒ, mₒ, jₒ, lₒ], t4_aabbaabb [aᵥ, bᵥ, cᵥ, dᵥ, iₒ, nₒ, kₒ, mₒ]], [(1, [aᵥ, bᵥ, cᵥ, dᵥ, iₒ, jₒ, kₒ, lₒ])]⟩,
  -- line 2714: mnjl,abcdimnk->abcdijkl
  ⟨-50000000000001/100000000000000, [g_abab [mₒ, nₒ, jₒ, lₒ], t4_aabbaabb [aᵥ, bᵥ, cᵥ, dᵥ, iₒ, mₒ, nₒ, kₒ]], [(1, [aᵥ, bᵥ, cᵥ, dᵥ, iₒ, jₒ, kₒ, lₒ])]⟩,
  -- line 2717: nmil,abcdjnkm->abcdijkl
  ⟨-50000000000001/100000000000000, [g_abab [nₒ, mₒ, iₒ, lₒ], t4_aabbaabb [aᵥ, bᵥ, cᵥ, dᵥ, jₒ, nₒ, kₒ, mₒ]], [(1, [aᵥ, bᵥ, cᵥ, dᵥ, iₒ, jₒ, kₒ, lₒ]), (-1, [aᵥ, bᵥ, cᵥ, dᵥ, iₒ, jₒ, lₒ, kₒ])]⟩,
  -- line 2721: mnil,abcdjmnk->abcdijkl
  ⟨50000000000001/100000000000000, [g_abab [mₒ, nₒ, iₒ, lₒ], t4_aabbaabb [aᵥ, bᵥ, cᵥ, dᵥ, jₒ, mₒ, nₒ, kₒ]], [(1, [aᵥ, bᵥ, cᵥ, dᵥ, iₒ, jₒ, kₒ, lₒ]), (-1, [aᵥ, bᵥ, cᵥ, dᵥ, iₒ, jₒ, lₒ, kₒ])]⟩,
  -- line 2725: nmjk,abcdinlm->abcdijkl
  ⟨-50000000000001/100000000000000, [g_abab [nₒ, mₒ, jₒ, kₒ], t4_aabbaabb [aᵥ, bᵥ, cᵥ, dᵥ, iₒ, nₒ, lₒ, mₒ]], [(1, [aᵥ, bᵥ, cᵥ, dᵥ, iₒ, jₒ, kₒ, lₒ])]⟩,
  -- line 2728: mnjk,abcdimnl->abcdijkl
  ⟨50000000000001/100000000000000, [g_abab [mₒ, nₒ, jₒ, kₒ], t4_aabbaabb [aᵥ, bᵥ, cᵥ, dᵥ, iₒ, mₒ, nₒ, lₒ]], [(1, [aᵥ, bᵥ, cᵥ, dᵥ, iₒ, jₒ, kₒ, lₒ])]⟩,
  -- line 2731: nmji,abcdnmkl->abcdijkl
  ⟨-50000000000001/100000000000000, [g_aaaa [nₒ, mₒ, jₒ, iₒ], t4_aabbaabb [aᵥ, bᵥ, cᵥ, dᵥ, nₒ, mₒ, kₒ, lₒ]], [(1, [aᵥ, bᵥ, cᵥ, dᵥ, iₒ, jₒ, kₒ, lₒ])]⟩,
  -- line 2734: amel,ebcdijkm->abcdijkl
  ⟨-50000000000001/50000000000000, [g_abab [aᵥ, mₒ, eᵥ, lₒ], t4_aabbaabb [eᵥ, bᵥ, cᵥ, dᵥ, iₒ, jₒ, kₒ, mₒ]], [(1, [aᵥ, bᵥ, cᵥ, dᵥ, iₒ, jₒ, kₒ, lₒ]), (-1, [aᵥ, bᵥ, cᵥ, dᵥ, iₒ, jₒ, lₒ, kₒ]), (-1, [bᵥ, aᵥ, cᵥ, dᵥ, iₒ, jₒ, kₒ, lₒ]), (1, [bᵥ, aᵥ, cᵥ, dᵥ, iₒ, jₒ, lₒ, kₒ])]⟩,
  -- line 2738: maej,ebcdimlk->abcdijkl
  ⟨-50000000000001/50000000000000, [g_aaaa [mₒ, aᵥ, eᵥ, jₒ], t4_aabbaabb [eᵥ, bᵥ, cᵥ, dᵥ, iₒ, mₒ, lₒ, kₒ]], [(1, [aᵥ, bᵥ, cᵥ, dᵥ, iₒ, jₒ, kₒ, lₒ]), (-1, [aᵥ, bᵥ, cᵥ, dᵥ, jₒ, iₒ, kₒ, lₒ]), (-1, [bᵥ, aᵥ, cᵥ, dᵥ, iₒ, jₒ, kₒ, lₒ]), (1, [bᵥ, aᵥ, cᵥ, dᵥ, jₒ, iₒ, kₒ, lₒ])]⟩,
  -- line 2742: amje,becdiklm->abcdijkl
  ⟨-50000000000001/50000000000000, [g_abab [aᵥ, mₒ, jₒ, eᵥ], t4_abbbabbb [bᵥ, eᵥ, cᵥ, dᵥ, iₒ, kₒ, lₒ, mₒ]], [(1, [aᵥ, bᵥ, cᵥ, dᵥ, iₒ, jₒ, kₒ, lₒ]), (-1, [aᵥ, bᵥ, cᵥ, dᵥ, jₒ, iₒ, kₒ, lₒ]), (-1, [bᵥ, aᵥ, cᵥ, dᵥ, iₒ, jₒ, kₒ, lₒ]), (1, [bᵥ, aᵥ, cᵥ, dᵥ, jₒ, iₒ, kₒ, lₒ])]⟩,
  -- line 2746: mcel,eabdijmk->abcdijkl
  ⟨-50000000000001/50000000000000, [g_abab [mₒ, cᵥ, eᵥ, lₒ], t4_aaabaaab [eᵥ, aᵥ, bᵥ, dᵥ, iₒ, jₒ, mₒ, kₒ]], [(1, [aᵥ, bᵥ, cᵥ, dᵥ, iₒ, jₒ, kₒ, lₒ]), (-1, [aᵥ, bᵥ, cᵥ, dᵥ, iₒ, jₒ, lₒ, kₒ]), (-1, [aᵥ, bᵥ, dᵥ, cᵥ, iₒ, jₒ, kₒ, lₒ]), (1, [aᵥ, bᵥ, dᵥ, cᵥ, iₒ, jₒ, lₒ, kₒ])]⟩,
  -- line 2750: mcel,baedijkm->abcdijkl
  ⟨-50000000000001/50000000000000, [g_bbbb [mₒ, cᵥ, eᵥ, lₒ], t4_aabbaabb [bᵥ, aᵥ, eᵥ, dᵥ, iₒ, jₒ, kₒ, mₒ]], [(1, [aᵥ, bᵥ, cᵥ, dᵥ, iₒ, jₒ, kₒ, lₒ]), (-1, [aᵥ, bᵥ, cᵥ, dᵥ, iₒ, jₒ, lₒ, kₒ]), (-1, [aᵥ, bᵥ, dᵥ, cᵥ, iₒ, jₒ, kₒ, lₒ]), (1, [aᵥ, bᵥ, dᵥ, cᵥ, iₒ, jₒ, lₒ, kₒ])]⟩,
  -- line 2754: mcje,baedimlk->abcdijkl
  ⟨-50000000000001/50000000000000, [g_abab [mₒ, cᵥ, jₒ, eᵥ], t4_aabbaabb [bᵥ, aᵥ, eᵥ, dᵥ, iₒ, mₒ, lₒ, kₒ]], [(1, [aᵥ, bᵥ, cᵥ, dᵥ, iₒ, jₒ, kₒ, lₒ]), (-1, [aᵥ, bᵥ, cᵥ, dᵥ, jₒ, iₒ, kₒ, lₒ]), (-1, [aᵥ, bᵥ, dᵥ, cᵥ, iₒ, jₒ, kₒ, lₒ]), (1, [aᵥ, bᵥ, dᵥ, cᵥ, jₒ, iₒ, kₒ, lₒ])]⟩,
  -- line 2758: abef,efcdijkl->abcdijkl
  ⟨50000000000001/100000000000000, [g_aaaa [aᵥ, bᵥ, eᵥ, fᵥ], t4_aabbaabb [eᵥ, fᵥ, cᵥ, dᵥ, iₒ, jₒ, kₒ, lₒ]], [(1, [aᵥ, bᵥ, cᵥ, dᵥ, iₒ, jₒ, kₒ, lₒ])]⟩,
  -- line 2761: acef,ebfdijkl->abcdijkl
  ⟨50000000000001/100000000000000, [g_abab [aᵥ, cᵥ, eᵥ, fᵥ], t4_aabbaabb [eᵥ, bᵥ, fᵥ, dᵥ, iₒ, jₒ, kₒ, lₒ]], [(1, [aᵥ, bᵥ, cᵥ, dᵥ, iₒ, jₒ, kₒ, lₒ])]⟩,
  -- line 2764: acfe,bfedijkl->abcdijkl
  ⟨-50000000000001/100000000000000, [g_abab [aᵥ, cᵥ, fᵥ, eᵥ], t4_aabbaabb [bᵥ, fᵥ, eᵥ, dᵥ, iₒ, jₒ, kₒ, lₒ]], [(1, [aᵥ, bᵥ, cᵥ, dᵥ, iₒ, jₒ, kₒ, lₒ])]⟩,
  -- line 2767: adef,ebfcijkl->abcdijkl
  ⟨-50000000000001/100000000000000, [g_abab [aᵥ, dᵥ, eᵥ, fᵥ], t4_aabbaabb [eᵥ, bᵥ, fᵥ, cᵥ, iₒ, jₒ, kₒ, lₒ]], [(1, [aᵥ, bᵥ, cᵥ, dᵥ, iₒ, jₒ, kₒ, lₒ]), (-1, [bᵥ, aᵥ, cᵥ, dᵥ, iₒ, jₒ, kₒ, lₒ])]⟩,
  -- line 2771: adfe,bfecijkl->abcdijkl
  ⟨50000000000001/100000000000000, [g_abab [aᵥ, dᵥ, fᵥ, eᵥ], t4_aabbaabb [bᵥ, fᵥ, eᵥ, cᵥ, iₒ, jₒ, kₒ, lₒ]], [(1, [aᵥ, bᵥ, cᵥ, dᵥ, iₒ, jₒ, kₒ, lₒ]), (-1, [bᵥ, aᵥ, cᵥ, dᵥ, iₒ, jₒ, kₒ, lₒ])]⟩,
  -- line 2775: bcef,eafdijkl->abcdijkl
  ⟨-50000000000001/100000000000000, [g_abab [bᵥ, cᵥ, eᵥ, fᵥ], t4_aabbaabb [eᵥ, aᵥ, fᵥ, dᵥ, iₒ, jₒ, kₒ, lₒ]], [(1, [aᵥ, bᵥ, cᵥ, dᵥ, iₒ, jₒ, kₒ, lₒ])]⟩,
  -- line 2778: bcfe,afedijkl->abcdijkl
  ⟨50000000000001/100000000000000, [g_abab [bᵥ, cᵥ, fᵥ, eᵥ], t4_aabbaabb [aᵥ, fᵥ, eᵥ, dᵥ, iₒ, jₒ, kₒ, lₒ]], [(1, [aᵥ, bᵥ, cᵥ, dᵥ, iₒ, jₒ, kₒ, lₒ])]⟩,
  -- line 2781: dcef,abefijkl->abcdijkl
  ⟨-50000000000001/100000000000000, [g_bbbb [dᵥ, cᵥ, eᵥ, fᵥ], t4_aabbaabb [aᵥ, bᵥ, eᵥ, fᵥ, iₒ, jₒ, kₒ, lₒ]], [(1, [aᵥ, bᵥ, cᵥ, dᵥ, iₒ, jₒ, kₒ, lₒ])]⟩,
  -- line 2784: mnef,efml,abcdijkn->abcdijkl
  ⟨-9999999999999/20000000000000, [g_abab [mₒ, nₒ, eᵥ, fᵥ], t2_abab [eᵥ, fᵥ, mₒ, lₒ], t4_aabbaabb [aᵥ, bᵥ, cᵥ, dᵥ, iₒ, jₒ, kₒ, nₒ]], [(1, [aᵥ, bᵥ, cᵥ, dᵥ, iₒ, jₒ, kₒ, lₒ]), (-1, [aᵥ, bᵥ, cᵥ, dᵥ, iₒ, jₒ, lₒ, kₒ])]⟩,
  -- line 2788: mnfe,feml,abcdijkn->abcdijkl
  ⟨-9999999999999/20000000000000, [g_abab [mₒ, nₒ, fᵥ, eᵥ], t2_abab [fᵥ, eᵥ, mₒ, lₒ], t4_aabbaabb [aᵥ, bᵥ, cᵥ, dᵥ, iₒ, jₒ, kₒ, nₒ]], [(1, [aᵥ, bᵥ, cᵥ, dᵥ, iₒ, jₒ, kₒ, lₒ]), (-1, [aᵥ, bᵥ, cᵥ, dᵥ, iₒ, jₒ, lₒ, kₒ])]⟩,
  -- line 2792: nmef,eflm,abcdijkn->abcdijkl
  ⟨-9999999999999/20000000000000, [g_bbbb [nₒ, mₒ, eᵥ, fᵥ], t2_bbbb [eᵥ, fᵥ, lₒ, mₒ], t4_aabbaabb [aᵥ, bᵥ, cᵥ, dᵥ, iₒ, jₒ, kₒ, nₒ]], [(1, [aᵥ, bᵥ, cᵥ, dᵥ, iₒ, jₒ, kₒ, lₒ]), (-1, [aᵥ, bᵥ, cᵥ, dᵥ, iₒ, jₒ, lₒ, kₒ])]⟩,
  -- line 2796: nmef,efjm,abcdinlk->abcdijkl
  ⟨9999999999999/20000000000000, [g_aaaa [nₒ, mₒ, eᵥ, fᵥ], t2_aaaa [eᵥ, fᵥ, jₒ, mₒ], t4_aabbaabb [aᵥ, bᵥ, cᵥ, dᵥ, iₒ, nₒ, lₒ, kₒ]], [(1, [aᵥ, bᵥ, cᵥ, dᵥ, iₒ, jₒ, kₒ, lₒ]), (-1, [aᵥ, bᵥ, cᵥ, dᵥ, jₒ, iₒ, kₒ, lₒ])]⟩,
  -- line 2800: nmef,efjm,abcdinlk->abcdijkl
  ⟨9999999999999/20000000000000, [g_abab [nₒ, mₒ, eᵥ, fᵥ], t2_abab [eᵥ, fᵥ, jₒ, mₒ], t4_aabbaabb [aᵥ, bᵥ, cᵥ, dᵥ, iₒ, nₒ, lₒ, kₒ]], [(1, [aᵥ, bᵥ, cᵥ, dᵥ, iₒ, jₒ, kₒ, lₒ]), (-1, [aᵥ, bᵥ, cᵥ, dᵥ, jₒ, iₒ, kₒ, lₒ])]⟩,
  -- line 2804: nmfe,fejm,abcdinlk->abcdijkl
  ⟨9999999999999/20000000000000, [g_abab [nₒ, mₒ, fᵥ, eᵥ], t2_abab [fᵥ, eᵥ, jₒ, mₒ], t4_aabbaabb [aᵥ, bᵥ, cᵥ, dᵥ, iₒ, nₒ, lₒ, kₒ]], [(1, [aᵥ, bᵥ, cᵥ, dᵥ, iₒ, jₒ, kₒ, lₒ]), (-1, [aᵥ, bᵥ, cᵥ, dᵥ, jₒ, iₒ, kₒ, lₒ])]⟩,
  -- line 2808: nmef,efkl,abcdijnm->abcdijkl
  ⟨25000000000001/100000000000000, [g_bbbb [nₒ, mₒ, eᵥ, fᵥ], t2_bbbb [eᵥ, fᵥ, kₒ, lₒ], t4_aabbaabb [aᵥ, bᵥ, cᵥ, dᵥ, iₒ, jₒ, nₒ, mₒ]], [(1, [aᵥ, bᵥ, cᵥ, dᵥ, iₒ, jₒ, kₒ, lₒ])]⟩,
  -- line 2811: nmef,efjl,abcdinkm->abcdijkl
  ⟨25000000000001/100000000000000, [g_abab [nₒ, mₒ, eᵥ, fᵥ], t2_abab [eᵥ, fᵥ, jₒ, lₒ], t4_aabbaabb [aᵥ, bᵥ, cᵥ, dᵥ, iₒ, nₒ, kₒ, mₒ]], [(1, [aᵥ, bᵥ, cᵥ, dᵥ, iₒ, jₒ, kₒ, lₒ])]⟩,
  -- line 2814: mnef,efjl,abcdimnk->abcdijkl
  ⟨-25000000000001/100000000000000, [g_abab [mₒ, nₒ, eᵥ, fᵥ], t2_abab [eᵥ, fᵥ, jₒ, lₒ], t4_aabbaabb [aᵥ, bᵥ, cᵥ, dᵥ, iₒ, mₒ, nₒ, kₒ]], [(1, [aᵥ, bᵥ, cᵥ, dᵥ, iₒ, jₒ, kₒ, lₒ])]⟩,
  -- line 2817: nmfe,fejl,abcdinkm->abcdijkl
  ⟨25000000000001/100000000000000, [g_abab [nₒ, mₒ, fᵥ, eᵥ], t2_abab [fᵥ, eᵥ, jₒ, lₒ], t4_aabbaabb [aᵥ, bᵥ, cᵥ, dᵥ, iₒ, nₒ, kₒ, mₒ]], [(1, [aᵥ, bᵥ, cᵥ, dᵥ, iₒ, jₒ, kₒ, lₒ])]⟩,
  -- line 2820: mnfe,fejl,abcdimnk->abcdijkl
  ⟨-25000000000001/100000000000000, [g_abab [mₒ, nₒ, fᵥ, eᵥ], t2_abab [fᵥ, eᵥ, jₒ, lₒ], t4_aabbaabb [aᵥ, bᵥ, cᵥ, dᵥ, iₒ, mₒ, nₒ, kₒ]], [(1, [aᵥ, bᵥ, cᵥ, dᵥ, iₒ, jₒ, kₒ, lₒ])]⟩,
  -- line 2823: nmef,efil,abcdjnkm->abcdijkl
  ⟨-25000000000001/100000000000000, [g_abab [nₒ, mₒ, eᵥ, fᵥ], t2_abab [eᵥ, fᵥ, iₒ, lₒ], t4_aabbaabb [aᵥ, bᵥ, cᵥ, dᵥ, jₒ, nₒ, kₒ, mₒ]], [(1, [aᵥ, bᵥ, cᵥ, dᵥ, iₒ, jₒ, kₒ, lₒ]), (-1, [aᵥ, bᵥ, cᵥ, dᵥ, iₒ, jₒ, lₒ, kₒ])]⟩,
  -- line 2827: mnef,efil,abcdjmnk->abcdijkl
  ⟨25000000000001/100000000000000, [g_abab [mₒ, nₒ, eᵥ, fᵥ], t2_abab [eᵥ, fᵥ, iₒ, lₒ], t4_aabbaabb [aᵥ, bᵥ, cᵥ, dᵥ, jₒ, mₒ, nₒ, kₒ]], [(1, [aᵥ, bᵥ, cᵥ, dᵥ, iₒ, jₒ, kₒ, lₒ]), (-1, [aᵥ, bᵥ, cᵥ, dᵥ, iₒ, jₒ, lₒ, kₒ])]⟩,
  -- line 2831: nmfe,feil,abcdjnkm->abcdijkl
  ⟨-25000000000001/100000000000000, [g_abab [nₒ, mₒ, fᵥ, eᵥ], t2_abab [fᵥ, eᵥ, iₒ, lₒ], t4_aabbaabb [aᵥ, bᵥ, cᵥ, dᵥ, jₒ, nₒ, kₒ, mₒ]], [(1, [aᵥ, bᵥ, cᵥ, dᵥ, iₒ, jₒ, kₒ, lₒ]), (-1, [aᵥ, bᵥ, cᵥ, dᵥ, iₒ, jₒ, lₒ, kₒ])]⟩
  ]

/-- Part 1 of `ccdq_t4_aabbaabb`. -/
def ccdq_t4_aabbaabb_1 : Prog := [
  -- line 2835: mnfe,feil,abcdjmnk->abcdijkl
  ⟨25000000000001/100000000000000, [g_abab [mₒ, nₒ, fᵥ, eᵥ], t2_abab [fᵥ, eᵥ, iₒ, lₒ], t4_aabbaabb [aᵥ, bᵥ, cᵥ, dᵥ, jₒ, mₒ, nₒ, kₒ]], [(1, [aᵥ, bᵥ, cᵥ, dᵥ, iₒ, jₒ, kₒ, lₒ]), (-1, [aᵥ, bᵥ, cᵥ, dᵥ, iₒ, jₒ, lₒ, kₒ])]⟩,
  -- line 2839: nmef,efjk,abcdinlm->abcdijkl
  ⟨-25000000000001/100000000000000, [g_abab [nₒ, mₒ, eᵥ, fᵥ], t2_abab [eᵥ, fᵥ, jₒ, kₒ], t4_aabbaabb [aᵥ, bᵥ, cᵥ, dᵥ, iₒ, nₒ, lₒ, mₒ]], [(1, [aᵥ, bᵥ, cᵥ, dᵥ, iₒ, jₒ, kₒ, lₒ])]⟩,
  -- line 2842: mnef,efjk,abcdimnl->abcdijkl
  ⟨25000000000001/100000000000000, [g_abab [mₒ, nₒ, eᵥ, fᵥ], t2_abab [eᵥ, fᵥ, jₒ, kₒ], t4_aabbaabb [aᵥ, bᵥ, cᵥ, dᵥ, iₒ, mₒ, nₒ, lₒ]], [(1, [aᵥ, bᵥ, cᵥ, dᵥ, iₒ, jₒ, kₒ, lₒ])]⟩,
  -- line 2845: nmfe,fejk,abcdinlm->abcdijkl
  ⟨-25000000000001/100000000000000, [g_abab [nₒ, mₒ, fᵥ, eᵥ], t2_abab [fᵥ, eᵥ, jₒ, kₒ], t4_aabbaabb [aᵥ, bᵥ, cᵥ, dᵥ, iₒ, nₒ, lₒ, mₒ]], [(1, [aᵥ, bᵥ, cᵥ, dᵥ, iₒ, jₒ, kₒ, lₒ])]⟩,
  -- line 2848: mnfe,fejk,abcdimnl->abcdijkl
  ⟨25000000000001/100000000000000, [g_abab [mₒ, nₒ, fᵥ, eᵥ], t2_abab [fᵥ, eᵥ, jₒ, kₒ], t4_aabbaabb [aᵥ, bᵥ, cᵥ, dᵥ, iₒ, mₒ, nₒ, lₒ]], [(1, [aᵥ, bᵥ, cᵥ, dᵥ, iₒ, jₒ, kₒ, lₒ])]⟩,
  -- line 2851: nmef,efji,abcdnmkl->abcdijkl
  ⟨-25000000000001/100000000000000, [g_aaaa [nₒ, mₒ, eᵥ, fᵥ], t2_aaaa [eᵥ, fᵥ, jₒ, iₒ], t4_aabbaabb [aᵥ, bᵥ, cᵥ, dᵥ, nₒ, mₒ, kₒ, lₒ]], [(1, [aᵥ, bᵥ, cᵥ, dᵥ, iₒ, jₒ, kₒ, lₒ])]⟩,
  -- line 2854: nmef,eanm,fbcdijkl->abcdijkl
  ⟨-9999999999999/20000000000000, [g_aaaa [nₒ, mₒ, eᵥ, fᵥ], t2_aaaa [eᵥ, aᵥ, nₒ, mₒ], t4_aabbaabb [fᵥ, bᵥ, cᵥ, dᵥ, iₒ, jₒ, kₒ, lₒ]], [(1, [aᵥ, bᵥ, cᵥ, dᵥ, iₒ, jₒ, kₒ, lₒ]), (-1, [bᵥ, aᵥ, cᵥ, dᵥ, iₒ, jₒ, kₒ, lₒ])]⟩,
  -- line 2858: nmfe,aenm,fbcdijkl->abcdijkl
  ⟨-9999999999999/20000000000000, [g_abab [nₒ, mₒ, fᵥ, eᵥ], t2_abab [aᵥ, eᵥ, nₒ, mₒ], t4_aabbaabb [fᵥ, bᵥ, cᵥ, dᵥ, iₒ, jₒ, kₒ, lₒ]], [(1, [aᵥ, bᵥ, cᵥ, dᵥ, iₒ, jₒ, kₒ, lₒ]), (-1, [bᵥ, aᵥ, cᵥ, dᵥ, iₒ, jₒ, kₒ, lₒ])]⟩,
  -- line 2862: mnfe,aemn,fbcdijkl->abcdijkl
  ⟨-9999999999999/20000000000000, [g_abab [mₒ, nₒ, fᵥ, eᵥ], t2_abab [aᵥ, eᵥ, mₒ, nₒ], t4_aabbaabb [fᵥ, bᵥ, cᵥ, dᵥ, iₒ, jₒ, kₒ, lₒ]], [(1, [aᵥ, bᵥ, cᵥ, dᵥ, iₒ, jₒ, kₒ, lₒ]), (-1, [bᵥ, aᵥ, cᵥ, dᵥ, iₒ, jₒ, kₒ, lₒ])]⟩,
  -- line 2866: mnfe,aeml,fbcdijkn->abcdijkl
  ⟨6249999999999/6250000000000, [g_abab [mₒ, nₒ, fᵥ, eᵥ], t2_abab [aᵥ, eᵥ, mₒ, lₒ], t4_aabbaabb [fᵥ, bᵥ, cᵥ, dᵥ, iₒ, jₒ, kₒ, nₒ]], [(1, [aᵥ, bᵥ, cᵥ, dᵥ, iₒ, jₒ, kₒ, lₒ]), (-1, [aᵥ, bᵥ, cᵥ, dᵥ, iₒ, jₒ, lₒ, kₒ]), (-1, [bᵥ, aᵥ, cᵥ, dᵥ, iₒ, jₒ, kₒ, lₒ]), (1, [bᵥ, aᵥ, cᵥ, dᵥ, iₒ, jₒ, lₒ, kₒ])]⟩,
  -- line 2870: nmef,eajm,fbcdinlk->abcdijkl
  ⟨-6249999999999/6250000000000, [g_aaaa [nₒ, mₒ, eᵥ, fᵥ], t2_aaaa [eᵥ, aᵥ, jₒ, mₒ], t4_aabbaabb [fᵥ, bᵥ, cᵥ, dᵥ, iₒ, nₒ, lₒ, kₒ]], [(1, [aᵥ, bᵥ, cᵥ, dᵥ, iₒ, jₒ, kₒ, lₒ]), (-1, [aᵥ, bᵥ, cᵥ, dᵥ, jₒ, iₒ, kₒ, lₒ]), (-1, [bᵥ, aᵥ, cᵥ, dᵥ, iₒ, jₒ, kₒ, lₒ]), (1, [bᵥ, aᵥ, cᵥ, dᵥ, jₒ, iₒ, kₒ, lₒ])]⟩,
  -- line 2874: mnef,eajm,bfcdikln->abcdijkl
  ⟨6249999999999/6250000000000, [g_abab [mₒ, nₒ, eᵥ, fᵥ], t2_aaaa [eᵥ, aᵥ, jₒ, mₒ], t4_abbbabbb [bᵥ, fᵥ, cᵥ, dᵥ, iₒ, kₒ, lₒ, nₒ]], [(1, [aᵥ, bᵥ, cᵥ, dᵥ, iₒ, jₒ, kₒ, lₒ]), (-1, [aᵥ, bᵥ, cᵥ, dᵥ, jₒ, iₒ, kₒ, lₒ]), (-1, [bᵥ, aᵥ, cᵥ, dᵥ, iₒ, jₒ, kₒ, lₒ]), (1, [bᵥ, aᵥ, cᵥ, dᵥ, jₒ, iₒ, kₒ, lₒ])]⟩,
  -- line 2878: nmfe,aejm,fbcdinlk->abcdijkl
  ⟨-6249999999999/6250000000000, [g_abab [nₒ, mₒ, fᵥ, eᵥ], t2_abab [aᵥ, eᵥ, jₒ, mₒ], t4_aabbaabb [fᵥ, bᵥ, cᵥ, dᵥ, iₒ, nₒ, lₒ, kₒ]], [(1, [aᵥ, bᵥ, cᵥ, dᵥ, iₒ, jₒ, kₒ, lₒ]), (-1, [aᵥ, bᵥ, cᵥ, dᵥ, jₒ, iₒ, kₒ, lₒ]), (-1, [bᵥ, aᵥ, cᵥ, dᵥ, iₒ, jₒ, kₒ, lₒ]), (1, [bᵥ, aᵥ, cᵥ, dᵥ, jₒ, iₒ, kₒ, lₒ])]⟩,
  -- line 2882: nmef,aejm,bfcdikln->abcdijkl
  ⟨6249999999999/6250000000000, [g_bbbb [nₒ, mₒ, eᵥ, fᵥ], t2_abab [aᵥ, eᵥ, jₒ, mₒ], t4_abbbabbb [bᵥ, fᵥ, cᵥ, dᵥ, iₒ, kₒ, lₒ, nₒ]], [(1, [aᵥ, bᵥ, cᵥ, dᵥ, iₒ, jₒ, kₒ, lₒ]), (-1, [aᵥ, bᵥ, cᵥ, dᵥ, jₒ, iₒ, kₒ, lₒ]), (-1, [bᵥ, aᵥ, cᵥ, dᵥ, iₒ, jₒ, kₒ, lₒ]), (1, [bᵥ, aᵥ, cᵥ, dᵥ, jₒ, iₒ, kₒ, lₒ])]⟩,
  -- line 2886: nmfe,aejl,fbcdinkm->abcdijkl
  ⟨-9999999999999/20000000000000, [g_abab [nₒ, mₒ, fᵥ, eᵥ], t2_abab [aᵥ, eᵥ, jₒ, lₒ], t4_aabbaabb [fᵥ, bᵥ, cᵥ, dᵥ, iₒ, nₒ, kₒ, mₒ]], [(1, [aᵥ, bᵥ, cᵥ, dᵥ, iₒ, jₒ, kₒ, lₒ]), (-1, [bᵥ, aᵥ, cᵥ, dᵥ, iₒ, jₒ, kₒ, lₒ])]⟩,
  -- line 2890: mnfe,aejl,fbcdimnk->abcdijkl
  ⟨9999999999999/20000000000000, [g_abab [mₒ, nₒ, fᵥ, eᵥ], t2_abab [aᵥ, eᵥ, jₒ, lₒ], t4_aabbaabb [fᵥ, bᵥ, cᵥ, dᵥ, iₒ, mₒ, nₒ, kₒ]], [(1, [aᵥ, bᵥ, cᵥ, dᵥ, iₒ, jₒ, kₒ, lₒ]), (-1, [bᵥ, aᵥ, cᵥ, dᵥ, iₒ, jₒ, kₒ, lₒ])]⟩,
  -- line 2894: nmef,aejl,bfcdiknm->abcdijkl
  ⟨9999999999999/20000000000000, [g_bbbb [nₒ, mₒ, eᵥ, fᵥ], t2_abab [aᵥ, eᵥ, jₒ, lₒ], t4_abbbabbb [bᵥ, fᵥ, cᵥ, dᵥ, iₒ, kₒ, nₒ, mₒ]], [(1, [aᵥ, bᵥ, cᵥ, dᵥ, iₒ, jₒ, kₒ, lₒ]), (-1, [bᵥ, aᵥ, cᵥ, dᵥ, iₒ, jₒ, kₒ, lₒ])]⟩,
  -- line 2898: nmfe,aeil,fbcdjnkm->abcdijkl
  ⟨9999999999999/20000000000000, [g_abab [nₒ, mₒ, fᵥ, eᵥ], t2_abab [aᵥ, eᵥ, iₒ, lₒ], t4_aabbaabb [fᵥ, bᵥ, cᵥ, dᵥ, jₒ, nₒ, kₒ, mₒ]], [(1, [aᵥ, bᵥ, cᵥ, dᵥ, iₒ, jₒ, kₒ, lₒ]), (-1, [aᵥ, bᵥ, cᵥ, dᵥ, iₒ, jₒ, lₒ, kₒ]), (-1, [bᵥ, aᵥ, cᵥ, dᵥ, iₒ, jₒ, kₒ, lₒ]), (1, [bᵥ, aᵥ, cᵥ, dᵥ, iₒ, jₒ, lₒ, kₒ])]⟩,
  -- line 2902: mnfe,aeil,fbcdjmnk->abcdijkl
  ⟨-9999999999999/20000000000000, [g_abab [mₒ, nₒ, fᵥ, eᵥ], t2_abab [aᵥ, eᵥ, iₒ, lₒ], t4_aabbaabb [fᵥ, bᵥ, cᵥ, dᵥ, jₒ, mₒ, nₒ, kₒ]], [(1, [aᵥ, bᵥ, cᵥ, dᵥ, iₒ, jₒ, kₒ, lₒ]), (-1, [aᵥ, bᵥ, cᵥ, dᵥ, iₒ, jₒ, lₒ, kₒ]), (-1, [bᵥ, aᵥ, cᵥ, dᵥ, iₒ, jₒ, kₒ, lₒ]), (1, [bᵥ, aᵥ, cᵥ, dᵥ, iₒ, jₒ, lₒ, kₒ])]⟩,
  -- line 2906: nmef,aeil,bfcdjknm->abcdijkl
  ⟨-9999999999999/20000000000000, [g_bbbb [nₒ, mₒ, eᵥ, fᵥ], t2_abab [aᵥ, eᵥ, iₒ, lₒ], t4_abbbabbb [bᵥ, fᵥ, cᵥ, dᵥ, jₒ, kₒ, nₒ, mₒ]], [(1, [aᵥ, bᵥ, cᵥ, dᵥ, iₒ, jₒ, kₒ, lₒ]), (-1, [aᵥ, bᵥ, cᵥ, dᵥ, iₒ, jₒ, lₒ, kₒ]), (-1, [bᵥ, aᵥ, cᵥ, dᵥ, iₒ, jₒ, kₒ, lₒ]), (1, [bᵥ, aᵥ, cᵥ, dᵥ, iₒ, jₒ, lₒ, kₒ])]⟩,
  -- line 2910: nmfe,aejk,fbcdinlm->abcdijkl
  ⟨9999999999999/20000000000000, [g_abab [nₒ, mₒ, fᵥ, eᵥ], t2_abab [aᵥ, eᵥ, jₒ, kₒ], t4_aabbaabb [fᵥ, bᵥ, cᵥ, dᵥ, iₒ, nₒ, lₒ, mₒ]], [(1, [aᵥ, bᵥ, cᵥ, dᵥ, iₒ, jₒ, kₒ, lₒ]), (-1, [bᵥ, aᵥ, cᵥ, dᵥ, iₒ, jₒ, kₒ, lₒ])]⟩,
  -- line 2914: mnfe,aejk,fbcdimnl->abcdijkl
  ⟨-9999999999999/20000000000000, [g_abab [mₒ, nₒ, fᵥ, eᵥ], t2_abab [aᵥ, eᵥ, jₒ, kₒ], t4_aabbaabb [fᵥ, bᵥ, cᵥ, dᵥ, iₒ, mₒ, nₒ, lₒ]], [(1, [aᵥ, bᵥ, cᵥ, dᵥ, iₒ, jₒ, kₒ, lₒ]), (-1, [bᵥ, aᵥ, cᵥ, dᵥ, iₒ, jₒ, kₒ, lₒ])]⟩,
  -- line 2918: nmef,aejk,bfcdilnm->abcdijkl
  ⟨-9999999999999/20000000000000, [g_bbbb [nₒ, mₒ, eᵥ, fᵥ], t2_abab [aᵥ, eᵥ, jₒ, kₒ], t4_abbbabbb [bᵥ, fᵥ, cᵥ, dᵥ, iₒ, lₒ, nₒ, mₒ]], [(1, [aᵥ, bᵥ, cᵥ, dᵥ, iₒ, jₒ, kₒ, lₒ]), (-1, [bᵥ, aᵥ, cᵥ, dᵥ, iₒ, jₒ, kₒ, lₒ])]⟩,
  -- line 2922: nmef,eaji,fbcdnmkl->abcdijkl
  ⟨9999999999999/20000000000000, [g_aaaa [nₒ, mₒ, eᵥ, fᵥ], t2_aaaa [eᵥ, aᵥ, jₒ, iₒ], t4_aabbaabb [fᵥ, bᵥ, cᵥ, dᵥ, nₒ, mₒ, kₒ, lₒ]], [(1, [aᵥ, bᵥ, cᵥ, dᵥ, iₒ, jₒ, kₒ, lₒ]), (-1, [bᵥ, aᵥ, cᵥ, dᵥ, iₒ, jₒ, kₒ, lₒ])]⟩,
  -- line 2926: nmef,eaji,bfcdnlkm->abcdijkl
  ⟨9999999999999/20000000000000, [g_abab [nₒ, mₒ, eᵥ, fᵥ], t2_aaaa [eᵥ, aᵥ, jₒ, iₒ], t4_abbbabbb [bᵥ, fᵥ, cᵥ, dᵥ, nₒ, lₒ, kₒ, mₒ]], [(1, [aᵥ, bᵥ, cᵥ, dᵥ, iₒ, jₒ, kₒ, lₒ]), (-1, [bᵥ, aᵥ, cᵥ, dᵥ, iₒ, jₒ, kₒ, lₒ])]⟩,
  -- line 2930: mnef,eaji,bfcdmlnk->abcdijkl
  ⟨-9999999999999/20000000000000, [g_abab [mₒ, nₒ, eᵥ, fᵥ], t2_aaaa [eᵥ, aᵥ, jₒ, iₒ], t4_abbbabbb [bᵥ, fᵥ, cᵥ, dᵥ, mₒ, lₒ, nₒ, kₒ]], [(1, [aᵥ, bᵥ, cᵥ, dᵥ, iₒ, jₒ, kₒ, lₒ]), (-1, [bᵥ, aᵥ, cᵥ, dᵥ, iₒ, jₒ, kₒ, lₒ])]⟩,
  -- line 2934: nmef,ecnm,bafdijkl->abcdijkl
  ⟨9999999999999/20000000000000, [g_abab [nₒ, mₒ, eᵥ, fᵥ], t2_abab [eᵥ, cᵥ, nₒ, mₒ], t4_aabbaabb [bᵥ, aᵥ, fᵥ, dᵥ, iₒ, jₒ, kₒ, lₒ]], [(1, [aᵥ, bᵥ, cᵥ, dᵥ, iₒ, jₒ, kₒ, lₒ]), (-1, [aᵥ, bᵥ, dᵥ, cᵥ, iₒ, jₒ, kₒ, lₒ])]⟩,
  -- line 2938: mnef,ecmn,bafdijkl->abcdijkl
  ⟨9999999999999/20000000000000, [g_abab [mₒ, nₒ, eᵥ, fᵥ], t2_abab [eᵥ, cᵥ, mₒ, nₒ], t4_aabbaabb [bᵥ, aᵥ, fᵥ, dᵥ, iₒ, jₒ, kₒ, lₒ]], [(1, [aᵥ, bᵥ, cᵥ, dᵥ, iₒ, jₒ, kₒ, lₒ]), (-1, [aᵥ, bᵥ, dᵥ, cᵥ, iₒ, jₒ, kₒ, lₒ])]⟩,
  -- line 2942: nmef,ecnm,bafdijkl->abcdijkl
  ⟨9999999999999/20000000000000, [g_bbbb [nₒ, mₒ, eᵥ, fᵥ], t2_bbbb [eᵥ, cᵥ, nₒ, mₒ], t4_aabbaabb [bᵥ, aᵥ, fᵥ, dᵥ, iₒ, jₒ, kₒ, lₒ]], [(1, [aᵥ, bᵥ, cᵥ, dᵥ, iₒ, jₒ, kₒ, lₒ]), (-1, [aᵥ, bᵥ, dᵥ, cᵥ, iₒ, jₒ, kₒ, lₒ])]⟩,
  -- line 2946: nmef,ecml,fabdijnk->abcdijkl
  ⟨6249999999999/6250000000000, [g_aaaa [nₒ, mₒ, eᵥ, fᵥ], t2_abab [eᵥ, cᵥ, mₒ, lₒ], t4_aaabaaab [fᵥ, aᵥ, bᵥ, dᵥ, iₒ, jₒ, nₒ, kₒ]], [(1, [aᵥ, bᵥ, cᵥ, dᵥ, iₒ, jₒ, kₒ, lₒ]), (-1, [aᵥ, bᵥ, cᵥ, dᵥ, iₒ, jₒ, lₒ, kₒ]), (-1, [aᵥ, bᵥ, dᵥ, cᵥ, iₒ, jₒ, kₒ, lₒ]), (1, [aᵥ, bᵥ, dᵥ, cᵥ, iₒ, jₒ, lₒ, kₒ])]⟩,
  -- line 2950: mnef,ecml,bafdijkn->abcdijkl
  ⟨-6249999999999/6250000000000, [g_abab [mₒ, nₒ, eᵥ, fᵥ], t2_abab [eᵥ, cᵥ, mₒ, lₒ], t4_aabbaabb [bᵥ, aᵥ, fᵥ, dᵥ, iₒ, jₒ, kₒ, nₒ]], [(1, [aᵥ, bᵥ, cᵥ, dᵥ, iₒ, jₒ, kₒ, lₒ]), (-1, [aᵥ, bᵥ, cᵥ, dᵥ, iₒ, jₒ, lₒ, kₒ]), (-1, [aᵥ, bᵥ, dᵥ, cᵥ, iₒ, jₒ, kₒ, lₒ]), (1, [aᵥ, bᵥ, dᵥ, cᵥ, iₒ, jₒ, lₒ, kₒ])]⟩,
  -- line 2954: nmfe,eclm,fabdijnk->abcdijkl
  ⟨6249999999999/6250000000000, [g_abab [nₒ, mₒ, fᵥ, eᵥ], t2_bbbb [eᵥ, cᵥ, lₒ, mₒ], t4_aaabaaab [fᵥ, aᵥ, bᵥ, dᵥ, iₒ, jₒ, nₒ, kₒ]], [(1, [aᵥ, bᵥ, cᵥ, dᵥ, iₒ, jₒ, kₒ, lₒ]), (-1, [aᵥ, bᵥ, cᵥ, dᵥ, iₒ, jₒ, lₒ, kₒ]), (-1, [aᵥ, bᵥ, dᵥ, cᵥ, iₒ, jₒ, kₒ, lₒ]), (1, [aᵥ, bᵥ, dᵥ, cᵥ, iₒ, jₒ, lₒ, kₒ])]⟩,
  -- line 2958: nmef,eclm,bafdijkn->abcdijkl
  ⟨-6249999999999/6250000000000, [g_bbbb [nₒ, mₒ, eᵥ, fᵥ], t2_bbbb [eᵥ, cᵥ, lₒ, mₒ], t4_aabbaabb [bᵥ, aᵥ, fᵥ, dᵥ, iₒ, jₒ, kₒ, nₒ]], [(1, [aᵥ, bᵥ, cᵥ, dᵥ, iₒ, jₒ, kₒ, lₒ]), (-1, [aᵥ, bᵥ, cᵥ, dᵥ, iₒ, jₒ, lₒ, kₒ]), (-1, [aᵥ, bᵥ, dᵥ, cᵥ, iₒ, jₒ, kₒ, lₒ]), (1, [aᵥ, bᵥ, dᵥ, cᵥ, iₒ, jₒ, lₒ, kₒ])]⟩,
  -- line 2962: nmef,ecjm,bafdinlk->abcdijkl
  ⟨6249999999999/6250000000000, [g_abab [nₒ, mₒ, eᵥ, fᵥ], t2_abab [eᵥ, cᵥ, jₒ, mₒ], t4_aabbaabb [bᵥ, aᵥ, fᵥ, dᵥ, iₒ, nₒ, lₒ, kₒ]], [(1, [aᵥ, bᵥ, cᵥ, dᵥ, iₒ, jₒ, kₒ, lₒ]), (-1, [aᵥ, bᵥ, cᵥ, dᵥ, jₒ, iₒ, kₒ, lₒ]), (-1, [aᵥ, bᵥ, dᵥ, cᵥ, iₒ, jₒ, kₒ, lₒ]), (1, [aᵥ, bᵥ, dᵥ, cᵥ, jₒ, iₒ, kₒ, lₒ])]⟩,
  -- line 2966: nmfe,eckl,fabdijnm->abcdijkl
  ⟨9999999999999/20000000000000, [g_abab [nₒ, mₒ, fᵥ, eᵥ], t2_bbbb [eᵥ, cᵥ, kₒ, lₒ], t4_aaabaaab [fᵥ, aᵥ, bᵥ, dᵥ, iₒ, jₒ, nₒ, mₒ]], [(1, [aᵥ, bᵥ, cᵥ, dᵥ, iₒ, jₒ, kₒ, lₒ]), (-1, [aᵥ, bᵥ, dᵥ, cᵥ, iₒ, jₒ, kₒ, lₒ])]⟩,
  -- line 2970: mnfe,eckl,fabdijmn->abcdijkl
  ⟨9999999999999/20000000000000, [g_abab [mₒ, nₒ, fᵥ, eᵥ], t2_bbbb [eᵥ, cᵥ, kₒ, lₒ], t4_aaabaaab [fᵥ, aᵥ, bᵥ, dᵥ, iₒ, jₒ, mₒ, nₒ]], [(1, [aᵥ, bᵥ, cᵥ, dᵥ, iₒ, jₒ, kₒ, lₒ]), (-1, [aᵥ, bᵥ, dᵥ, cᵥ, iₒ, jₒ, kₒ, lₒ])]⟩,
  -- line 2974: nmef,eckl,bafdijnm->abcdijkl
  ⟨9999999999999/20000000000000, [g_bbbb [nₒ, mₒ, eᵥ, fᵥ], t2_bbbb [eᵥ, cᵥ, kₒ, lₒ], t4_aabbaabb [bᵥ, aᵥ, fᵥ, dᵥ, iₒ, jₒ, nₒ, mₒ]], [(1, [aᵥ, bᵥ, cᵥ, dᵥ, iₒ, jₒ, kₒ, lₒ]), (-1, [aᵥ, bᵥ, dᵥ, cᵥ, iₒ, jₒ, kₒ, lₒ])]⟩,
  -- line 2978: nmef,ecjl,fabdimnk->abcdijkl
  ⟨-9999999999999/20000000000000, [g_aaaa [nₒ, mₒ, eᵥ, fᵥ], t2_abab [eᵥ, cᵥ, jₒ, lₒ], t4_aaabaaab [fᵥ, aᵥ, bᵥ, dᵥ, iₒ, mₒ, nₒ, kₒ]], [(1, [aᵥ, bᵥ, cᵥ, dᵥ, iₒ, jₒ, kₒ, lₒ]), (-1, [aᵥ, bᵥ, dᵥ, cᵥ, iₒ, jₒ, kₒ, lₒ])]⟩,
  -- line 2982: nmef,ecjl,bafdinkm->abcdijkl
  ⟨9999999999999/20000000000000, [g_abab [nₒ, mₒ, eᵥ, fᵥ], t2_abab [eᵥ, cᵥ, jₒ, lₒ], t4_aabbaabb [bᵥ, aᵥ, fᵥ, dᵥ, iₒ, nₒ, kₒ, mₒ]], [(1, [aᵥ, bᵥ, cᵥ, dᵥ, iₒ, jₒ, kₒ, lₒ]), (-1, [aᵥ, bᵥ, dᵥ, cᵥ, iₒ, jₒ, kₒ, lₒ])]⟩,
  -- line 2986: mnef,ecjl,bafdimnk->abcdijkl
  ⟨-9999999999999/20000000000000, [g_abab [mₒ, nₒ, eᵥ, fᵥ], t2_abab [eᵥ, cᵥ, jₒ, lₒ], t4_aabbaabb [bᵥ, aᵥ, fᵥ, dᵥ, iₒ, mₒ, nₒ, kₒ]], [(1, [aᵥ, bᵥ, cᵥ, dᵥ, iₒ, jₒ, kₒ, lₒ]), (-1, [aᵥ, bᵥ, dᵥ, cᵥ, iₒ, jₒ, kₒ, lₒ])]⟩
  ]

/-- Part 2 of `ccdq_t4_aabbaabb`. -/
def ccdq_t4_aabbaabb_2 : Prog := [
  -- line 2990: nmef,ecil,fabdjmnk->abcdijkl
  ⟨9999999999999/20000000000000, [g_aaaa [nₒ, mₒ, eᵥ, fᵥ], t2_abab [eᵥ, cᵥ, iₒ, lₒ], t4_aaabaaab [fᵥ, aᵥ, bᵥ, dᵥ, jₒ, mₒ, nₒ, kₒ]], [(1, [aᵥ, bᵥ, cᵥ, dᵥ, iₒ, jₒ, kₒ, lₒ]), (-1, [aᵥ, bᵥ, cᵥ, dᵥ, iₒ, jₒ, lₒ, kₒ]), (-1, [aᵥ, bᵥ, dᵥ, cᵥ, iₒ, jₒ, kₒ, lₒ]), (1, [aᵥ, bᵥ, dᵥ, cᵥ, iₒ, jₒ, lₒ, kₒ])]⟩,
  -- line 2994: nmef,ecil,bafdjnkm->abcdijkl
  ⟨-9999999999999/20000000000000, [g_abab [nₒ, mₒ, eᵥ, fᵥ], t2_abab [eᵥ, cᵥ, iₒ, lₒ], t4_aabbaabb [bᵥ, aᵥ, fᵥ, dᵥ, jₒ, nₒ, kₒ, mₒ]], [(1, [aᵥ, bᵥ, cᵥ, dᵥ, iₒ, jₒ, kₒ, lₒ]), (-1, [aᵥ, bᵥ, cᵥ, dᵥ, iₒ, jₒ, lₒ, kₒ]), (-1, [aᵥ, bᵥ, dᵥ, cᵥ, iₒ, jₒ, kₒ, lₒ]), (1, [aᵥ, bᵥ, dᵥ, cᵥ, iₒ, jₒ, lₒ, kₒ])]⟩,
  -- line 2998: mnef,ecil,bafdjmnk->abcdijkl
  ⟨9999999999999/20000000000000, [g_abab [mₒ, nₒ, eᵥ, fᵥ], t2_abab [eᵥ, cᵥ, iₒ, lₒ], t4_aabbaabb [bᵥ, aᵥ, fᵥ, dᵥ, jₒ, mₒ, nₒ, kₒ]], [(1, [aᵥ, bᵥ, cᵥ, dᵥ, iₒ, jₒ, kₒ, lₒ]), (-1, [aᵥ, bᵥ, cᵥ, dᵥ, iₒ, jₒ, lₒ, kₒ]), (-1, [aᵥ, bᵥ, dᵥ, cᵥ, iₒ, jₒ, kₒ, lₒ]), (1, [aᵥ, bᵥ, dᵥ, cᵥ, iₒ, jₒ, lₒ, kₒ])]⟩,
  -- line 3002: nmef,ecjk,fabdimnl->abcdijkl
  ⟨9999999999999/20000000000000, [g_aaaa [nₒ, mₒ, eᵥ, fᵥ], t2_abab [eᵥ, cᵥ, jₒ, kₒ], t4_aaabaaab [fᵥ, aᵥ, bᵥ, dᵥ, iₒ, mₒ, nₒ, lₒ]], [(1, [aᵥ, bᵥ, cᵥ, dᵥ, iₒ, jₒ, kₒ, lₒ]), (-1, [aᵥ, bᵥ, dᵥ, cᵥ, iₒ, jₒ, kₒ, lₒ])]⟩,
  -- line 3006: nmef,ecjk,bafdinlm->abcdijkl
  ⟨-9999999999999/20000000000000, [g_abab [nₒ, mₒ, eᵥ, fᵥ], t2_abab [eᵥ, cᵥ, jₒ, kₒ], t4_aabbaabb [bᵥ, aᵥ, fᵥ, dᵥ, iₒ, nₒ, lₒ, mₒ]], [(1, [aᵥ, bᵥ, cᵥ, dᵥ, iₒ, jₒ, kₒ, lₒ]), (-1, [aᵥ, bᵥ, dᵥ, cᵥ, iₒ, jₒ, kₒ, lₒ])]⟩,
  -- line 3010: mnef,ecjk,bafdimnl->abcdijkl
  ⟨9999999999999/20000000000000, [g_abab [mₒ, nₒ, eᵥ, fᵥ], t2_abab [eᵥ, cᵥ, jₒ, kₒ], t4_aabbaabb [bᵥ, aᵥ, fᵥ, dᵥ, iₒ, mₒ, nₒ, lₒ]], [(1, [aᵥ, bᵥ, cᵥ, dᵥ, iₒ, jₒ, kₒ, lₒ]), (-1, [aᵥ, bᵥ, dᵥ, cᵥ, iₒ, jₒ, kₒ, lₒ])]⟩,
  -- line 3014: nmef,abnm,efcdijkl->abcdijkl
  ⟨25000000000001/100000000000000, [g_aaaa [nₒ, mₒ, eᵥ, fᵥ], t2_aaaa [aᵥ, bᵥ, nₒ, mₒ], t4_aabbaabb [eᵥ, fᵥ, cᵥ, dᵥ, iₒ, jₒ, kₒ, lₒ]], [(1, [aᵥ, bᵥ, cᵥ, dᵥ, iₒ, jₒ, kₒ, lₒ])]⟩,
  -- line 3017: nmef,acnm,ebfdijkl->abcdijkl
  ⟨25000000000001/100000000000000, [g_abab [nₒ, mₒ, eᵥ, fᵥ], t2_abab [aᵥ, cᵥ, nₒ, mₒ], t4_aabbaabb [eᵥ, bᵥ, fᵥ, dᵥ, iₒ, jₒ, kₒ, lₒ]], [(1, [aᵥ, bᵥ, cᵥ, dᵥ, iₒ, jₒ, kₒ, lₒ])]⟩,
  -- line 3020: nmfe,acnm,bfedijkl->abcdijkl
  ⟨-25000000000001/100000000000000, [g_abab [nₒ, mₒ, fᵥ, eᵥ], t2_abab [aᵥ, cᵥ, nₒ, mₒ], t4_aabbaabb [bᵥ, fᵥ, eᵥ, dᵥ, iₒ, jₒ, kₒ, lₒ]], [(1, [aᵥ, bᵥ, cᵥ, dᵥ, iₒ, jₒ, kₒ, lₒ])]⟩,
  -- line 3023: mnef,acmn,ebfdijkl->abcdijkl
  ⟨25000000000001/100000000000000, [g_abab [mₒ, nₒ, eᵥ, fᵥ], t2_abab [aᵥ, cᵥ, mₒ, nₒ], t4_aabbaabb [eᵥ, bᵥ, fᵥ, dᵥ, iₒ, jₒ, kₒ, lₒ]], [(1, [aᵥ, bᵥ, cᵥ, dᵥ, iₒ, jₒ, kₒ, lₒ])]⟩,
  -- line 3026: mnfe,acmn,bfedijkl->abcdijkl
  ⟨-25000000000001/100000000000000, [g_abab [mₒ, nₒ, fᵥ, eᵥ], t2_abab [aᵥ, cᵥ, mₒ, nₒ], t4_aabbaabb [bᵥ, fᵥ, eᵥ, dᵥ, iₒ, jₒ, kₒ, lₒ]], [(1, [aᵥ, bᵥ, cᵥ, dᵥ, iₒ, jₒ, kₒ, lₒ])]⟩,
  -- line 3029: nmef,acml,efbdijnk->abcdijkl
  ⟨9999999999999/20000000000000, [g_aaaa [nₒ, mₒ, eᵥ, fᵥ], t2_abab [aᵥ, cᵥ, mₒ, lₒ], t4_aaabaaab [eᵥ, fᵥ, bᵥ, dᵥ, iₒ, jₒ, nₒ, kₒ]], [(1, [aᵥ, bᵥ, cᵥ, dᵥ, iₒ, jₒ, kₒ, lₒ]), (-1, [aᵥ, bᵥ, cᵥ, dᵥ, iₒ, jₒ, lₒ, kₒ])]⟩,
  -- line 3033: mnef,acml,ebfdijkn->abcdijkl
  ⟨-9999999999999/20000000000000, [g_abab [mₒ, nₒ, eᵥ, fᵥ], t2_abab [aᵥ, cᵥ, mₒ, lₒ], t4_aabbaabb [eᵥ, bᵥ, fᵥ, dᵥ, iₒ, jₒ, kₒ, nₒ]], [(1, [aᵥ, bᵥ, cᵥ, dᵥ, iₒ, jₒ, kₒ, lₒ]), (-1, [aᵥ, bᵥ, cᵥ, dᵥ, iₒ, jₒ, lₒ, kₒ])]⟩,
  -- line 3037: mnfe,acml,bfedijkn->abcdijkl
  ⟨9999999999999/20000000000000, [g_abab [mₒ, nₒ, fᵥ, eᵥ], t2_abab [aᵥ, cᵥ, mₒ, lₒ], t4_aabbaabb [bᵥ, fᵥ, eᵥ, dᵥ, iₒ, jₒ, kₒ, nₒ]], [(1, [aᵥ, bᵥ, cᵥ, dᵥ, iₒ, jₒ, kₒ, lₒ]), (-1, [aᵥ, bᵥ, cᵥ, dᵥ, iₒ, jₒ, lₒ, kₒ])]⟩,
  -- line 3041: nmef,abjm,efcdinlk->abcdijkl
  ⟨9999999999999/20000000000000, [g_aaaa [nₒ, mₒ, eᵥ, fᵥ], t2_aaaa [aᵥ, bᵥ, jₒ, mₒ], t4_aabbaabb [eᵥ, fᵥ, cᵥ, dᵥ, iₒ, nₒ, lₒ, kₒ]], [(1, [aᵥ, bᵥ, cᵥ, dᵥ, iₒ, jₒ, kₒ, lₒ]), (-1, [aᵥ, bᵥ, cᵥ, dᵥ, jₒ, iₒ, kₒ, lₒ])]⟩,
  -- line 3045: mnef,abjm,efcdikln->abcdijkl
  ⟨9999999999999/20000000000000, [g_abab [mₒ, nₒ, eᵥ, fᵥ], t2_aaaa [aᵥ, bᵥ, jₒ, mₒ], t4_abbbabbb [eᵥ, fᵥ, cᵥ, dᵥ, iₒ, kₒ, lₒ, nₒ]], [(1, [aᵥ, bᵥ, cᵥ, dᵥ, iₒ, jₒ, kₒ, lₒ]), (-1, [aᵥ, bᵥ, cᵥ, dᵥ, jₒ, iₒ, kₒ, lₒ])]⟩,
  -- line 3049: mnfe,abjm,fecdikln->abcdijkl
  ⟨9999999999999/20000000000000, [g_abab [mₒ, nₒ, fᵥ, eᵥ], t2_aaaa [aᵥ, bᵥ, jₒ, mₒ], t4_abbbabbb [fᵥ, eᵥ, cᵥ, dᵥ, iₒ, kₒ, lₒ, nₒ]], [(1, [aᵥ, bᵥ, cᵥ, dᵥ, iₒ, jₒ, kₒ, lₒ]), (-1, [aᵥ, bᵥ, cᵥ, dᵥ, jₒ, iₒ, kₒ, lₒ])]⟩,
  -- line 3053: nmef,acjm,ebfdinlk->abcdijkl
  ⟨9999999999999/20000000000000, [g_abab [nₒ, mₒ, eᵥ, fᵥ], t2_abab [aᵥ, cᵥ, jₒ, mₒ], t4_aabbaabb [eᵥ, bᵥ, fᵥ, dᵥ, iₒ, nₒ, lₒ, kₒ]], [(1, [aᵥ, bᵥ, cᵥ, dᵥ, iₒ, jₒ, kₒ, lₒ]), (-1, [aᵥ, bᵥ, cᵥ, dᵥ, jₒ, iₒ, kₒ, lₒ])]⟩,
  -- line 3057: nmfe,acjm,bfedinlk->abcdijkl
  ⟨-9999999999999/20000000000000, [g_abab [nₒ, mₒ, fᵥ, eᵥ], t2_abab [aᵥ, cᵥ, jₒ, mₒ], t4_aabbaabb [bᵥ, fᵥ, eᵥ, dᵥ, iₒ, nₒ, lₒ, kₒ]], [(1, [aᵥ, bᵥ, cᵥ, dᵥ, iₒ, jₒ, kₒ, lₒ]), (-1, [aᵥ, bᵥ, cᵥ, dᵥ, jₒ, iₒ, kₒ, lₒ])]⟩,
  -- line 3061: nmef,acjm,bfedikln->abcdijkl
  ⟨-9999999999999/20000000000000, [g_bbbb [nₒ, mₒ, eᵥ, fᵥ], t2_abab [aᵥ, cᵥ, jₒ, mₒ], t4_abbbabbb [bᵥ, fᵥ, eᵥ, dᵥ, iₒ, kₒ, lₒ, nₒ]], [(1, [aᵥ, bᵥ, cᵥ, dᵥ, iₒ, jₒ, kₒ, lₒ]), (-1, [aᵥ, bᵥ, cᵥ, dᵥ, jₒ, iₒ, kₒ, lₒ])]⟩,
  -- line 3065: nmef,adnm,ebfcijkl->abcdijkl
  ⟨-25000000000001/100000000000000, [g_abab [nₒ, mₒ, eᵥ, fᵥ], t2_abab [aᵥ, dᵥ, nₒ, mₒ], t4_aabbaabb [eᵥ, bᵥ, fᵥ, cᵥ, iₒ, jₒ, kₒ, lₒ]], [(1, [aᵥ, bᵥ, cᵥ, dᵥ, iₒ, jₒ, kₒ, lₒ]), (-1, [bᵥ, aᵥ, cᵥ, dᵥ, iₒ, jₒ, kₒ, lₒ])]⟩,
  -- line 3069: nmfe,adnm,bfecijkl->abcdijkl
  ⟨25000000000001/100000000000000, [g_abab [nₒ, mₒ, fᵥ, eᵥ], t2_abab [aᵥ, dᵥ, nₒ, mₒ], t4_aabbaabb [bᵥ, fᵥ, eᵥ, cᵥ, iₒ, jₒ, kₒ, lₒ]], [(1, [aᵥ, bᵥ, cᵥ, dᵥ, iₒ, jₒ, kₒ, lₒ]), (-1, [bᵥ, aᵥ, cᵥ, dᵥ, iₒ, jₒ, kₒ, lₒ])]⟩,
  -- line 3073: mnef,admn,ebfcijkl->abcdijkl
  ⟨-25000000000001/100000000000000, [g_abab [mₒ, nₒ, eᵥ, fᵥ], t2_abab [aᵥ, dᵥ, mₒ, nₒ], t4_aabbaabb [eᵥ, bᵥ, fᵥ, cᵥ, iₒ, jₒ, kₒ, lₒ]], [(1, [aᵥ, bᵥ, cᵥ, dᵥ, iₒ, jₒ, kₒ, lₒ]), (-1, [bᵥ, aᵥ, cᵥ, dᵥ, iₒ, jₒ, kₒ, lₒ])]⟩,
  -- line 3077: mnfe,admn,bfecijkl->abcdijkl
  ⟨25000000000001/100000000000000, [g_abab [mₒ, nₒ, fᵥ, eᵥ], t2_abab [aᵥ, dᵥ, mₒ, nₒ], t4_aabbaabb [bᵥ, fᵥ, eᵥ, cᵥ, iₒ, jₒ, kₒ, lₒ]], [(1, [aᵥ, bᵥ, cᵥ, dᵥ, iₒ, jₒ, kₒ, lₒ]), (-1, [bᵥ, aᵥ, cᵥ, dᵥ, iₒ, jₒ, kₒ, lₒ])]⟩,
  -- line 3081: nmef,adml,efbcijnk->abcdijkl
  ⟨-9999999999999/20000000000000, [g_aaaa [nₒ, mₒ, eᵥ, fᵥ], t2_abab [aᵥ, dᵥ, mₒ, lₒ], t4_aaabaaab [eᵥ, fᵥ, bᵥ, cᵥ, iₒ, jₒ, nₒ, kₒ]], [(1, [aᵥ, bᵥ, cᵥ, dᵥ, iₒ, jₒ, kₒ, lₒ]), (-1, [aᵥ, bᵥ, cᵥ, dᵥ, iₒ, jₒ, lₒ, kₒ]), (-1, [bᵥ, aᵥ, cᵥ, dᵥ, iₒ, jₒ, kₒ, lₒ]), (1, [bᵥ, aᵥ, cᵥ, dᵥ, iₒ, jₒ, lₒ, kₒ])]⟩,
  -- line 3085: mnef,adml,ebfcijkn->abcdijkl
  ⟨9999999999999/20000000000000, [g_abab [mₒ, nₒ, eᵥ, fᵥ], t2_abab [aᵥ, dᵥ, mₒ, lₒ], t4_aabbaabb [eᵥ, bᵥ, fᵥ, cᵥ, iₒ, jₒ, kₒ, nₒ]], [(1, [aᵥ, bᵥ, cᵥ, dᵥ, iₒ, jₒ, kₒ, lₒ]), (-1, [aᵥ, bᵥ, cᵥ, dᵥ, iₒ, jₒ, lₒ, kₒ]), (-1, [bᵥ, aᵥ, cᵥ, dᵥ, iₒ, jₒ, kₒ, lₒ]), (1, [bᵥ, aᵥ, cᵥ, dᵥ, iₒ, jₒ, lₒ, kₒ])]⟩,
  -- line 3089: mnfe,adml,bfecijkn->abcdijkl
  ⟨-9999999999999/20000000000000, [g_abab [mₒ, nₒ, fᵥ, eᵥ], t2_abab [aᵥ, dᵥ, mₒ, lₒ], t4_aabbaabb [bᵥ, fᵥ, eᵥ, cᵥ, iₒ, jₒ, kₒ, nₒ]], [(1, [aᵥ, bᵥ, cᵥ, dᵥ, iₒ, jₒ, kₒ, lₒ]), (-1, [aᵥ, bᵥ, cᵥ, dᵥ, iₒ, jₒ, lₒ, kₒ]), (-1, [bᵥ, aᵥ, cᵥ, dᵥ, iₒ, jₒ, kₒ, lₒ]), (1, [bᵥ, aᵥ, cᵥ, dᵥ, iₒ, jₒ, lₒ, kₒ])]⟩,
  -- line 3093: nmef,adjm,ebfcinlk->abcdijkl
  ⟨-9999999999999/20000000000000, [g_abab [nₒ, mₒ, eᵥ, fᵥ], t2_abab [aᵥ, dᵥ, jₒ, mₒ], t4_aabbaabb [eᵥ, bᵥ, fᵥ, cᵥ, iₒ, nₒ, lₒ, kₒ]], [(1, [aᵥ, bᵥ, cᵥ, dᵥ, iₒ, jₒ, kₒ, lₒ]), (-1, [aᵥ, bᵥ, cᵥ, dᵥ, jₒ, iₒ, kₒ, lₒ]), (-1, [bᵥ, aᵥ, cᵥ, dᵥ, iₒ, jₒ, kₒ, lₒ]), (1, [bᵥ, aᵥ, cᵥ, dᵥ, jₒ, iₒ, kₒ, lₒ])]⟩,
  -- line 3097: nmfe,adjm,bfecinlk->abcdijkl
  ⟨9999999999999/20000000000000, [g_abab [nₒ, mₒ, fᵥ, eᵥ], t2_abab [aᵥ, dᵥ, jₒ, mₒ], t4_aabbaabb [bᵥ, fᵥ, eᵥ, cᵥ, iₒ, nₒ, lₒ, kₒ]], [(1, [aᵥ, bᵥ, cᵥ, dᵥ, iₒ, jₒ, kₒ, lₒ]), (-1, [aᵥ, bᵥ, cᵥ, dᵥ, jₒ, iₒ, kₒ, lₒ]), (-1, [bᵥ, aᵥ, cᵥ, dᵥ, iₒ, jₒ, kₒ, lₒ]), (1, [bᵥ, aᵥ, cᵥ, dᵥ, jₒ, iₒ, kₒ, lₒ])]⟩,
  -- line 3101: nmef,adjm,bfecikln->abcdijkl
  ⟨9999999999999/20000000000000, [g_bbbb [nₒ, mₒ, eᵥ, fᵥ], t2_abab [aᵥ, dᵥ, jₒ, mₒ], t4_abbbabbb [bᵥ, fᵥ, eᵥ, cᵥ, iₒ, kₒ, lₒ, nₒ]], [(1, [aᵥ, bᵥ, cᵥ, dᵥ, iₒ, jₒ, kₒ, lₒ]), (-1, [aᵥ, bᵥ, cᵥ, dᵥ, jₒ, iₒ, kₒ, lₒ]), (-1, [bᵥ, aᵥ, cᵥ, dᵥ, iₒ, jₒ, kₒ, lₒ]), (1, [bᵥ, aᵥ, cᵥ, dᵥ, jₒ, iₒ, kₒ, lₒ])]⟩,
  -- line 3105: nmef,bcnm,eafdijkl->abcdijkl
  ⟨-25000000000001/100000000000000, [g_abab [nₒ, mₒ, eᵥ, fᵥ], t2_abab [bᵥ, cᵥ, nₒ, mₒ], t4_aabbaabb [eᵥ, aᵥ, fᵥ, dᵥ, iₒ, jₒ, kₒ, lₒ]], [(1, [aᵥ, bᵥ, cᵥ, dᵥ, iₒ, jₒ, kₒ, lₒ])]⟩,
  -- line 3108: nmfe,bcnm,afedijkl->abcdijkl
  ⟨25000000000001/100000000000000, [g_abab [nₒ, mₒ, fᵥ, eᵥ], t2_abab [bᵥ, cᵥ, nₒ, mₒ], t4_aabbaabb [aᵥ, fᵥ, eᵥ, dᵥ, iₒ, jₒ, kₒ, lₒ]], [(1, [aᵥ, bᵥ, cᵥ, dᵥ, iₒ, jₒ, kₒ, lₒ])]⟩,
  -- line 3111: mnef,bcmn,eafdijkl->abcdijkl
  ⟨-25000000000001/100000000000000, [g_abab [mₒ, nₒ, eᵥ, fᵥ], t2_abab [bᵥ, cᵥ, mₒ, nₒ], t4_aabbaabb [eᵥ, aᵥ, fᵥ, dᵥ, iₒ, jₒ, kₒ, lₒ]], [(1, [aᵥ, bᵥ, cᵥ, dᵥ, iₒ, jₒ, kₒ, lₒ])]⟩,
  -- line 3114: mnfe,bcmn,afedijkl->abcdijkl
  ⟨25000000000001/100000000000000, [g_abab [mₒ, nₒ, fᵥ, eᵥ], t2_abab [bᵥ, cᵥ, mₒ, nₒ], t4_aabbaabb [aᵥ, fᵥ, eᵥ, dᵥ, iₒ, jₒ, kₒ, lₒ]], [(1, [aᵥ, bᵥ, cᵥ, dᵥ, iₒ, jₒ, kₒ, lₒ])]⟩,
  -- line 3117: nmef,dcnm,abefijkl->abcdijkl
  ⟨-25000000000001/100000000000000, [g_bbbb [nₒ, mₒ, eᵥ, fᵥ], t2_bbbb [dᵥ, cᵥ, nₒ, mₒ], t4_aabbaabb [aᵥ, bᵥ, eᵥ, fᵥ, iₒ, jₒ, kₒ, lₒ]], [(1, [aᵥ, bᵥ, cᵥ, dᵥ, iₒ, jₒ, kₒ, lₒ])]⟩,
  -- line 3120: nmef,bcml,efadijnk->abcdijkl
  ⟨-9999999999999/20000000000000, [g_aaaa [nₒ, mₒ, eᵥ, fᵥ], t2_abab [bᵥ, cᵥ, mₒ, lₒ], t4_aaabaaab [eᵥ, fᵥ, aᵥ, dᵥ, iₒ, jₒ, nₒ, kₒ]], [(1, [aᵥ, bᵥ, cᵥ, dᵥ, iₒ, jₒ, kₒ, lₒ]), (-1, [aᵥ, bᵥ, cᵥ, dᵥ, iₒ, jₒ, lₒ, kₒ])]⟩,
  -- line 3124: mnef,bcml,eafdijkn->abcdijkl
  ⟨9999999999999/20000000000000, [g_abab [mₒ, nₒ, eᵥ, fᵥ], t2_abab [bᵥ, cᵥ, mₒ, lₒ], t4_aabbaabb [eᵥ, aᵥ, fᵥ, dᵥ, iₒ, jₒ, kₒ, nₒ]], [(1, [aᵥ, bᵥ, cᵥ, dᵥ, iₒ, jₒ, kₒ, lₒ]), (-1, [aᵥ, bᵥ, cᵥ, dᵥ, iₒ, jₒ, lₒ, kₒ])]⟩,
  -- line 3128: mnfe,bcml,afedijkn->abcdijkl
  ⟨-9999999999999/20000000000000, [g_abab [mₒ, nₒ, fᵥ, eᵥ], t2_abab [bᵥ, cᵥ, mₒ, lₒ], t4_aabbaabb [aᵥ, fᵥ, eᵥ, dᵥ, iₒ, jₒ, kₒ, nₒ]], [(1, [aᵥ, bᵥ, cᵥ, dᵥ, iₒ, jₒ, kₒ, lₒ]), (-1, [aᵥ, bᵥ, cᵥ, dᵥ, iₒ, jₒ, lₒ, kₒ])]⟩,
  -- line 3132: nmef,dclm,ebafijnk->abcdijkl
  ⟨9999999999999/20000000000000, [g_abab [nₒ, mₒ, eᵥ, fᵥ], t2_bbbb [dᵥ, cᵥ, lₒ, mₒ], t4_aaabaaab [eᵥ, bᵥ, aᵥ, fᵥ, iₒ, jₒ, nₒ, kₒ]], [(1, [aᵥ, bᵥ, cᵥ, dᵥ, iₒ, jₒ, kₒ, lₒ]), (-1, [aᵥ, bᵥ, cᵥ, dᵥ, iₒ, jₒ, lₒ, kₒ])]⟩,
  -- line 3136: nmfe,dclm,bfaeijnk->abcdijkl
  ⟨-9999999999999/20000000000000, [g_abab [nₒ, mₒ, fᵥ, eᵥ], t2_bbbb [dᵥ, cᵥ, lₒ, mₒ], t4_aaabaaab [bᵥ, fᵥ, aᵥ, eᵥ, iₒ, jₒ, nₒ, kₒ]], [(1, [aᵥ, bᵥ, cᵥ, dᵥ, iₒ, jₒ, kₒ, lₒ]), (-1, [aᵥ, bᵥ, cᵥ, dᵥ, iₒ, jₒ, lₒ, kₒ])]⟩
  ]

/-- Part 3 of `ccdq_t4_aabbaabb`. -/
def ccdq_t4_aabbaabb_3 : Prog := [
  -- line 3140: nmef,dclm,abefijkn->abcdijkl
  ⟨9999999999999/20000000000000, [g_bbbb [nₒ, mₒ, eᵥ, fᵥ], t2_bbbb [dᵥ, cᵥ, lₒ, mₒ], t4_aabbaabb [aᵥ, bᵥ, eᵥ, fᵥ, iₒ, jₒ, kₒ, nₒ]], [(1, [aᵥ, bᵥ, cᵥ, dᵥ, iₒ, jₒ, kₒ, lₒ]), (-1, [aᵥ, bᵥ, cᵥ, dᵥ, iₒ, jₒ, lₒ, kₒ])]⟩,
  -- line 3144: nmef,bcjm,eafdinlk->abcdijkl
  ⟨-9999999999999/20000000000000, [g_abab [nₒ, mₒ, eᵥ, fᵥ], t2_abab [bᵥ, cᵥ, jₒ, mₒ], t4_aabbaabb [eᵥ, aᵥ, fᵥ, dᵥ, iₒ, nₒ, lₒ, kₒ]], [(1, [aᵥ, bᵥ, cᵥ, dᵥ, iₒ, jₒ, kₒ, lₒ]), (-1, [aᵥ, bᵥ, cᵥ, dᵥ, jₒ, iₒ, kₒ, lₒ])]⟩,
  -- line 3148: nmfe,bcjm,afedinlk->abcdijkl
  ⟨9999999999999/20000000000000, [g_abab [nₒ, mₒ, fᵥ, eᵥ], t2_abab [bᵥ, cᵥ, jₒ, mₒ], t4_aabbaabb [aᵥ, fᵥ, eᵥ, dᵥ, iₒ, nₒ, lₒ, kₒ]], [(1, [aᵥ, bᵥ, cᵥ, dᵥ, iₒ, jₒ, kₒ, lₒ]), (-1, [aᵥ, bᵥ, cᵥ, dᵥ, jₒ, iₒ, kₒ, lₒ])]⟩,
  -- line 3152: nmef,bcjm,afedikln->abcdijkl
  ⟨9999999999999/20000000000000, [g_bbbb [nₒ, mₒ, eᵥ, fᵥ], t2_abab [bᵥ, cᵥ, jₒ, mₒ], t4_abbbabbb [aᵥ, fᵥ, eᵥ, dᵥ, iₒ, kₒ, lₒ, nₒ]], [(1, [aᵥ, bᵥ, cᵥ, dᵥ, iₒ, jₒ, kₒ, lₒ]), (-1, [aᵥ, bᵥ, cᵥ, dᵥ, jₒ, iₒ, kₒ, lₒ])]⟩,
  -- line 3156: nmkl,acjm,bdin->abcdijkl
  ⟨1, [g_bbbb [nₒ, mₒ, kₒ, lₒ], t2_abab [aᵥ, cᵥ, jₒ, mₒ], t2_abab [bᵥ, dᵥ, iₒ, nₒ]], [(1, [aᵥ, bᵥ, cᵥ, dᵥ, iₒ, jₒ, kₒ, lₒ]), (-1, [aᵥ, bᵥ, cᵥ, dᵥ, jₒ, iₒ, kₒ, lₒ])]⟩,
  -- line 3160: nmkl,adjm,bcin->abcdijkl
  ⟨-1, [g_bbbb [nₒ, mₒ, kₒ, lₒ], t2_abab [aᵥ, dᵥ, jₒ, mₒ], t2_abab [bᵥ, cᵥ, iₒ, nₒ]], [(1, [aᵥ, bᵥ, cᵥ, dᵥ, iₒ, jₒ, kₒ, lₒ]), (-1, [aᵥ, bᵥ, cᵥ, dᵥ, jₒ, iₒ, kₒ, lₒ])]⟩,
  -- line 3164: mnjl,acmk,bdin->abcdijkl
  ⟨-1, [g_abab [mₒ, nₒ, jₒ, lₒ], t2_abab [aᵥ, cᵥ, mₒ, kₒ], t2_abab [bᵥ, dᵥ, iₒ, nₒ]], [(1, [aᵥ, bᵥ, cᵥ, dᵥ, iₒ, jₒ, kₒ, lₒ])]⟩,
  -- line 3167: mnjl,abim,cdkn->abcdijkl
  ⟨1, [g_abab [mₒ, nₒ, jₒ, lₒ], t2_aaaa [aᵥ, bᵥ, iₒ, mₒ], t2_bbbb [cᵥ, dᵥ, kₒ, nₒ]], [(1, [aᵥ, bᵥ, cᵥ, dᵥ, iₒ, jₒ, kₒ, lₒ])]⟩,
  -- line 3170: nmjl,acim,bdnk->abcdijkl
  ⟨-1, [g_abab [nₒ, mₒ, jₒ, lₒ], t2_abab [aᵥ, cᵥ, iₒ, mₒ], t2_abab [bᵥ, dᵥ, nₒ, kₒ]], [(1, [aᵥ, bᵥ, cᵥ, dᵥ, iₒ, jₒ, kₒ, lₒ])]⟩,
  -- line 3173: mnjl,admk,bcin->abcdijkl
  ⟨1, [g_abab [mₒ, nₒ, jₒ, lₒ], t2_abab [aᵥ, dᵥ, mₒ, kₒ], t2_abab [bᵥ, cᵥ, iₒ, nₒ]], [(1, [aᵥ, bᵥ, cᵥ, dᵥ, iₒ, jₒ, kₒ, lₒ])]⟩,
  -- line 3176: nmjl,adim,bcnk->abcdijkl
  ⟨1, [g_abab [nₒ, mₒ, jₒ, lₒ], t2_abab [aᵥ, dᵥ, iₒ, mₒ], t2_abab [bᵥ, cᵥ, nₒ, kₒ]], [(1, [aᵥ, bᵥ, cᵥ, dᵥ, iₒ, jₒ, kₒ, lₒ])]⟩,
  -- line 3179: mnil,acmk,bdjn->abcdijkl
  ⟨1, [g_abab [mₒ, nₒ, iₒ, lₒ], t2_abab [aᵥ, cᵥ, mₒ, kₒ], t2_abab [bᵥ, dᵥ, jₒ, nₒ]], [(1, [aᵥ, bᵥ, cᵥ, dᵥ, iₒ, jₒ, kₒ, lₒ])]⟩,
  -- line 3182: mnil,abjm,cdkn->abcdijkl
  ⟨-1, [g_abab [mₒ, nₒ, iₒ, lₒ], t2_aaaa [aᵥ, bᵥ, jₒ, mₒ], t2_bbbb [cᵥ, dᵥ, kₒ, nₒ]], [(1, [aᵥ, bᵥ, cᵥ, dᵥ, iₒ, jₒ, kₒ, lₒ])]⟩,
  -- line 3185: nmil,acjm,bdnk->abcdijkl
  ⟨1, [g_abab [nₒ, mₒ, iₒ, lₒ], t2_abab [aᵥ, cᵥ, jₒ, mₒ], t2_abab [bᵥ, dᵥ, nₒ, kₒ]], [(1, [aᵥ, bᵥ, cᵥ, dᵥ, iₒ, jₒ, kₒ, lₒ])]⟩,
  -- line 3188: mnil,admk,bcjn->abcdijkl
  ⟨-1, [g_abab [mₒ, nₒ, iₒ, lₒ], t2_abab [aᵥ, dᵥ, mₒ, kₒ], t2_abab [bᵥ, cᵥ, jₒ, nₒ]], [(1, [aᵥ, bᵥ, cᵥ, dᵥ, iₒ, jₒ, kₒ, lₒ])]⟩,
  -- line 3191: nmil,adjm,bcnk->abcdijkl
  ⟨-1, [g_abab [nₒ, mₒ, iₒ, lₒ], t2_abab [aᵥ, dᵥ, jₒ, mₒ], t2_abab [bᵥ, cᵥ, nₒ, kₒ]], [(1, [aᵥ, bᵥ, cᵥ, dᵥ, iₒ, jₒ, kₒ, lₒ])]⟩,
  -- line 3194: mnjk,acml,bdin->abcdijkl
  ⟨1, [g_abab [mₒ, nₒ, jₒ, kₒ], t2_abab [aᵥ, cᵥ, mₒ, lₒ], t2_abab [bᵥ, dᵥ, iₒ, nₒ]], [(1, [aᵥ, bᵥ, cᵥ, dᵥ, iₒ, jₒ, kₒ, lₒ])]⟩,
  -- line 3197: mnjk,abim,cdln->abcdijkl
  ⟨-1, [g_abab [mₒ, nₒ, jₒ, kₒ], t2_aaaa [aᵥ, bᵥ, iₒ, mₒ], t2_bbbb [cᵥ, dᵥ, lₒ, nₒ]], [(1, [aᵥ, bᵥ, cᵥ, dᵥ, iₒ, jₒ, kₒ, lₒ])]⟩,
  -- line 3200: nmjk,acim,bdnl->abcdijkl
  ⟨1, [g_abab [nₒ, mₒ, jₒ, kₒ], t2_abab [aᵥ, cᵥ, iₒ, mₒ], t2_abab [bᵥ, dᵥ, nₒ, lₒ]], [(1, [aᵥ, bᵥ, cᵥ, dᵥ, iₒ, jₒ, kₒ, lₒ])]⟩,
  -- line 3203: mnjk,adml,bcin->abcdijkl
  ⟨-1, [g_abab [mₒ, nₒ, jₒ, kₒ], t2_abab [aᵥ, dᵥ, mₒ, lₒ], t2_abab [bᵥ, cᵥ, iₒ, nₒ]], [(1, [aᵥ, bᵥ, cᵥ, dᵥ, iₒ, jₒ, kₒ, lₒ])]⟩,
  -- line 3206: nmjk,adim,bcnl->abcdijkl
  ⟨-1, [g_abab [nₒ, mₒ, jₒ, kₒ], t2_abab [aᵥ, dᵥ, iₒ, mₒ], t2_abab [bᵥ, cᵥ, nₒ, lₒ]], [(1, [aᵥ, bᵥ, cᵥ, dᵥ, iₒ, jₒ, kₒ, lₒ])]⟩,
  -- line 3209: mnik,acml,bdjn->abcdijkl
  ⟨-1, [g_abab [mₒ, nₒ, iₒ, kₒ], t2_abab [aᵥ, cᵥ, mₒ, lₒ], t2_abab [bᵥ, dᵥ, jₒ, nₒ]], [(1, [aᵥ, bᵥ, cᵥ, dᵥ, iₒ, jₒ, kₒ, lₒ])]⟩,
  -- line 3212: mnik,abjm,cdln->abcdijkl
  ⟨1, [g_abab [mₒ, nₒ, iₒ, kₒ], t2_aaaa [aᵥ, bᵥ, jₒ, mₒ], t2_bbbb [cᵥ, dᵥ, lₒ, nₒ]], [(1, [aᵥ, bᵥ, cᵥ, dᵥ, iₒ, jₒ, kₒ, lₒ])]⟩,
  -- line 3215: nmik,acjm,bdnl->abcdijkl
  ⟨-1, [g_abab [nₒ, mₒ, iₒ, kₒ], t2_abab [aᵥ, cᵥ, jₒ, mₒ], t2_abab [bᵥ, dᵥ, nₒ, lₒ]], [(1, [aᵥ, bᵥ, cᵥ, dᵥ, iₒ, jₒ, kₒ, lₒ])]⟩,
  -- line 3218: mnik,adml,bcjn->abcdijkl
  ⟨1, [g_abab [mₒ, nₒ, iₒ, kₒ], t2_abab [aᵥ, dᵥ, mₒ, lₒ], t2_abab [bᵥ, cᵥ, jₒ, nₒ]], [(1, [aᵥ, bᵥ, cᵥ, dᵥ, iₒ, jₒ, kₒ, lₒ])]⟩,
  -- line 3221: nmik,adjm,bcnl->abcdijkl
  ⟨1, [g_abab [nₒ, mₒ, iₒ, kₒ], t2_abab [aᵥ, dᵥ, jₒ, mₒ], t2_abab [bᵥ, cᵥ, nₒ, lₒ]], [(1, [aᵥ, bᵥ, cᵥ, dᵥ, iₒ, jₒ, kₒ, lₒ])]⟩,
  -- line 3224: nmij,acml,bdnk->abcdijkl
  ⟨1, [g_aaaa [nₒ, mₒ, iₒ, jₒ], t2_abab [aᵥ, cᵥ, mₒ, lₒ], t2_abab [bᵥ, dᵥ, nₒ, kₒ]], [(1, [aᵥ, bᵥ, cᵥ, dᵥ, iₒ, jₒ, kₒ, lₒ]), (-1, [aᵥ, bᵥ, cᵥ, dᵥ, iₒ, jₒ, lₒ, kₒ])]⟩,
  -- line 3228: nmij,adml,bcnk->abcdijkl
  ⟨-1, [g_aaaa [nₒ, mₒ, iₒ, jₒ], t2_abab [aᵥ, dᵥ, mₒ, lₒ], t2_abab [bᵥ, cᵥ, nₒ, kₒ]], [(1, [aᵥ, bᵥ, cᵥ, dᵥ, iₒ, jₒ, kₒ, lₒ]), (-1, [aᵥ, bᵥ, cᵥ, dᵥ, iₒ, jₒ, lₒ, kₒ])]⟩,
  -- line 3232: amel,ecjk,bdim->abcdijkl
  ⟨1, [g_abab [aᵥ, mₒ, eᵥ, lₒ], t2_abab [eᵥ, cᵥ, jₒ, kₒ], t2_abab [bᵥ, dᵥ, iₒ, mₒ]], [(1, [aᵥ, bᵥ, cᵥ, dᵥ, iₒ, jₒ, kₒ, lₒ]), (-1, [aᵥ, bᵥ, cᵥ, dᵥ, jₒ, iₒ, kₒ, lₒ])]⟩,
  -- line 3236: amel,ebij,cdkm->abcdijkl
  ⟨-1, [g_abab [aᵥ, mₒ, eᵥ, lₒ], t2_aaaa [eᵥ, bᵥ, iₒ, jₒ], t2_bbbb [cᵥ, dᵥ, kₒ, mₒ]], [(1, [aᵥ, bᵥ, cᵥ, dᵥ, iₒ, jₒ, kₒ, lₒ]), (-1, [aᵥ, bᵥ, cᵥ, dᵥ, iₒ, jₒ, lₒ, kₒ])]⟩,
  -- line 3240: amel,edjk,bcim->abcdijkl
  ⟨-1, [g_abab [aᵥ, mₒ, eᵥ, lₒ], t2_abab [eᵥ, dᵥ, jₒ, kₒ], t2_abab [bᵥ, cᵥ, iₒ, mₒ]], [(1, [aᵥ, bᵥ, cᵥ, dᵥ, iₒ, jₒ, kₒ, lₒ]), (-1, [aᵥ, bᵥ, cᵥ, dᵥ, jₒ, iₒ, kₒ, lₒ]), (-1, [bᵥ, aᵥ, cᵥ, dᵥ, iₒ, jₒ, kₒ, lₒ]), (1, [bᵥ, aᵥ, cᵥ, dᵥ, jₒ, iₒ, kₒ, lₒ])]⟩,
  -- line 3244: amek,ecjl,bdim->abcdijkl
  ⟨-1, [g_abab [aᵥ, mₒ, eᵥ, kₒ], t2_abab [eᵥ, cᵥ, jₒ, lₒ], t2_abab [bᵥ, dᵥ, iₒ, mₒ]], [(1, [aᵥ, bᵥ, cᵥ, dᵥ, iₒ, jₒ, kₒ, lₒ]), (-1, [aᵥ, bᵥ, cᵥ, dᵥ, jₒ, iₒ, kₒ, lₒ])]⟩,
  -- line 3248: amek,edjl,bcim->abcdijkl
  ⟨1, [g_abab [aᵥ, mₒ, eᵥ, kₒ], t2_abab [eᵥ, dᵥ, jₒ, lₒ], t2_abab [bᵥ, cᵥ, iₒ, mₒ]], [(1, [aᵥ, bᵥ, cᵥ, dᵥ, iₒ, jₒ, kₒ, lₒ]), (-1, [aᵥ, bᵥ, cᵥ, dᵥ, jₒ, iₒ, kₒ, lₒ]), (-1, [bᵥ, aᵥ, cᵥ, dᵥ, iₒ, jₒ, kₒ, lₒ]), (1, [bᵥ, aᵥ, cᵥ, dᵥ, jₒ, iₒ, kₒ, lₒ])]⟩,
  -- line 3252: amje,eckl,bdim->abcdijkl
  ⟨-1, [g_abab [aᵥ, mₒ, jₒ, eᵥ], t2_bbbb [eᵥ, cᵥ, kₒ, lₒ], t2_abab [bᵥ, dᵥ, iₒ, mₒ]], [(1, [aᵥ, bᵥ, cᵥ, dᵥ, iₒ, jₒ, kₒ, lₒ])]⟩,
  -- line 3255: amje,beil,cdkm->abcdijkl
  ⟨1, [g_abab [aᵥ, mₒ, jₒ, eᵥ], t2_abab [bᵥ, eᵥ, iₒ, lₒ], t2_bbbb [cᵥ, dᵥ, kₒ, mₒ]], [(1, [aᵥ, bᵥ, cᵥ, dᵥ, iₒ, jₒ, kₒ, lₒ])]⟩,
  -- line 3258: maej,ecil,bdmk->abcdijkl
  ⟨-1, [g_aaaa [mₒ, aᵥ, eᵥ, jₒ], t2_abab [eᵥ, cᵥ, iₒ, lₒ], t2_abab [bᵥ, dᵥ, mₒ, kₒ]], [(1, [aᵥ, bᵥ, cᵥ, dᵥ, iₒ, jₒ, kₒ, lₒ])]⟩,
  -- line 3261: amje,beik,cdlm->abcdijkl
  ⟨-1, [g_abab [aᵥ, mₒ, jₒ, eᵥ], t2_abab [bᵥ, eᵥ, iₒ, kₒ], t2_bbbb [cᵥ, dᵥ, lₒ, mₒ]], [(1, [aᵥ, bᵥ, cᵥ, dᵥ, iₒ, jₒ, kₒ, lₒ]), (-1, [aᵥ, bᵥ, cᵥ, dᵥ, jₒ, iₒ, kₒ, lₒ])]⟩,
  -- line 3265: maej,ecik,bdml->abcdijkl
  ⟨1, [g_aaaa [mₒ, aᵥ, eᵥ, jₒ], t2_abab [eᵥ, cᵥ, iₒ, kₒ], t2_abab [bᵥ, dᵥ, mₒ, lₒ]], [(1, [aᵥ, bᵥ, cᵥ, dᵥ, iₒ, jₒ, kₒ, lₒ]), (-1, [aᵥ, bᵥ, cᵥ, dᵥ, jₒ, iₒ, kₒ, lₒ])]⟩,
  -- line 3269: amje,edkl,bcim->abcdijkl
  ⟨1, [g_abab [aᵥ, mₒ, jₒ, eᵥ], t2_bbbb [eᵥ, dᵥ, kₒ, lₒ], t2_abab [bᵥ, cᵥ, iₒ, mₒ]], [(1, [aᵥ, bᵥ, cᵥ, dᵥ, iₒ, jₒ, kₒ, lₒ]), (-1, [bᵥ, aᵥ, cᵥ, dᵥ, iₒ, jₒ, kₒ, lₒ])]⟩,
  -- line 3273: maej,edil,bcmk->abcdijkl
  ⟨1, [g_aaaa [mₒ, aᵥ, eᵥ, jₒ], t2_abab [eᵥ, dᵥ, iₒ, lₒ], t2_abab [bᵥ, cᵥ, mₒ, kₒ]], [(1, [aᵥ, bᵥ, cᵥ, dᵥ, iₒ, jₒ, kₒ, lₒ]), (-1, [bᵥ, aᵥ, cᵥ, dᵥ, iₒ, jₒ, kₒ, lₒ])]⟩
  ]

/-- Part 4 of `ccdq_t4_aabbaabb`. -/
def ccdq_t4_aabbaabb_4 : Prog := [
  -- line 3277: maej,edik,bcml->abcdijkl
  ⟨-1, [g_aaaa [mₒ, aᵥ, eᵥ, jₒ], t2_abab [eᵥ, dᵥ, iₒ, kₒ], t2_abab [bᵥ, cᵥ, mₒ, lₒ]], [(1, [aᵥ, bᵥ, cᵥ, dᵥ, iₒ, jₒ, kₒ, lₒ]), (-1, [aᵥ, bᵥ, cᵥ, dᵥ, jₒ, iₒ, kₒ, lₒ]), (-1, [bᵥ, aᵥ, cᵥ, dᵥ, iₒ, jₒ, kₒ, lₒ]), (1, [bᵥ, aᵥ, cᵥ, dᵥ, jₒ, iₒ, kₒ, lₒ])]⟩,
  -- line 3281: amie,eckl,bdjm->abcdijkl
  ⟨1, [g_abab [aᵥ, mₒ, iₒ, eᵥ], t2_bbbb [eᵥ, cᵥ, kₒ, lₒ], t2_abab [bᵥ, dᵥ, jₒ, mₒ]], [(1, [aᵥ, bᵥ, cᵥ, dᵥ, iₒ, jₒ, kₒ, lₒ])]⟩,
  -- line 3284: amie,bejl,cdkm->abcdijkl
  ⟨-1, [g_abab [aᵥ, mₒ, iₒ, eᵥ], t2_abab [bᵥ, eᵥ, jₒ, lₒ], t2_bbbb [cᵥ, dᵥ, kₒ, mₒ]], [(1, [aᵥ, bᵥ, cᵥ, dᵥ, iₒ, jₒ, kₒ, lₒ])]⟩,
  -- line 3287: maei,ecjl,bdmk->abcdijkl
  ⟨1, [g_aaaa [mₒ, aᵥ, eᵥ, iₒ], t2_abab [eᵥ, cᵥ, jₒ, lₒ], t2_abab [bᵥ, dᵥ, mₒ, kₒ]], [(1, [aᵥ, bᵥ, cᵥ, dᵥ, iₒ, jₒ, kₒ, lₒ])]⟩,
  -- line 3290: amie,edkl,bcjm->abcdijkl
  ⟨-1, [g_abab [aᵥ, mₒ, iₒ, eᵥ], t2_bbbb [eᵥ, dᵥ, kₒ, lₒ], t2_abab [bᵥ, cᵥ, jₒ, mₒ]], [(1, [aᵥ, bᵥ, cᵥ, dᵥ, iₒ, jₒ, kₒ, lₒ]), (-1, [bᵥ, aᵥ, cᵥ, dᵥ, iₒ, jₒ, kₒ, lₒ])]⟩,
  -- line 3294: maei,edjl,bcmk->abcdijkl
  ⟨-1, [g_aaaa [mₒ, aᵥ, eᵥ, iₒ], t2_abab [eᵥ, dᵥ, jₒ, lₒ], t2_abab [bᵥ, cᵥ, mₒ, kₒ]], [(1, [aᵥ, bᵥ, cᵥ, dᵥ, iₒ, jₒ, kₒ, lₒ]), (-1, [bᵥ, aᵥ, cᵥ, dᵥ, iₒ, jₒ, kₒ, lₒ])]⟩,
  -- line 3298: bmel,ecjk,adim->abcdijkl
  ⟨-1, [g_abab [bᵥ, mₒ, eᵥ, lₒ], t2_abab [eᵥ, cᵥ, jₒ, kₒ], t2_abab [aᵥ, dᵥ, iₒ, mₒ]], [(1, [aᵥ, bᵥ, cᵥ, dᵥ, iₒ, jₒ, kₒ, lₒ]), (-1, [aᵥ, bᵥ, cᵥ, dᵥ, jₒ, iₒ, kₒ, lₒ])]⟩,
  -- line 3302: bmel,eaij,cdkm->abcdijkl
  ⟨1, [g_abab [bᵥ, mₒ, eᵥ, lₒ], t2_aaaa [eᵥ, aᵥ, iₒ, jₒ], t2_bbbb [cᵥ, dᵥ, kₒ, mₒ]], [(1, [aᵥ, bᵥ, cᵥ, dᵥ, iₒ, jₒ, kₒ, lₒ]), (-1, [aᵥ, bᵥ, cᵥ, dᵥ, iₒ, jₒ, lₒ, kₒ])]⟩,
  -- line 3306: bmek,ecjl,adim->abcdijkl
  ⟨1, [g_abab [bᵥ, mₒ, eᵥ, kₒ], t2_abab [eᵥ, cᵥ, jₒ, lₒ], t2_abab [aᵥ, dᵥ, iₒ, mₒ]], [(1, [aᵥ, bᵥ, cᵥ, dᵥ, iₒ, jₒ, kₒ, lₒ]), (-1, [aᵥ, bᵥ, cᵥ, dᵥ, jₒ, iₒ, kₒ, lₒ])]⟩,
  -- line 3310: bmje,eckl,adim->abcdijkl
  ⟨1, [g_abab [bᵥ, mₒ, jₒ, eᵥ], t2_bbbb [eᵥ, cᵥ, kₒ, lₒ], t2_abab [aᵥ, dᵥ, iₒ, mₒ]], [(1, [aᵥ, bᵥ, cᵥ, dᵥ, iₒ, jₒ, kₒ, lₒ])]⟩,
  -- line 3313: bmje,aeil,cdkm->abcdijkl
  ⟨-1, [g_abab [bᵥ, mₒ, jₒ, eᵥ], t2_abab [aᵥ, eᵥ, iₒ, lₒ], t2_bbbb [cᵥ, dᵥ, kₒ, mₒ]], [(1, [aᵥ, bᵥ, cᵥ, dᵥ, iₒ, jₒ, kₒ, lₒ])]⟩,
  -- line 3316: mbej,ecil,admk->abcdijkl
  ⟨1, [g_aaaa [mₒ, bᵥ, eᵥ, jₒ], t2_abab [eᵥ, cᵥ, iₒ, lₒ], t2_abab [aᵥ, dᵥ, mₒ, kₒ]], [(1, [aᵥ, bᵥ, cᵥ, dᵥ, iₒ, jₒ, kₒ, lₒ])]⟩,
  -- line 3319: bmje,aeik,cdlm->abcdijkl
  ⟨1, [g_abab [bᵥ, mₒ, jₒ, eᵥ], t2_abab [aᵥ, eᵥ, iₒ, kₒ], t2_bbbb [cᵥ, dᵥ, lₒ, mₒ]], [(1, [aᵥ, bᵥ, cᵥ, dᵥ, iₒ, jₒ, kₒ, lₒ]), (-1, [aᵥ, bᵥ, cᵥ, dᵥ, jₒ, iₒ, kₒ, lₒ])]⟩,
  -- line 3323: mbej,ecik,adml->abcdijkl
  ⟨-1, [g_aaaa [mₒ, bᵥ, eᵥ, jₒ], t2_abab [eᵥ, cᵥ, iₒ, kₒ], t2_abab [aᵥ, dᵥ, mₒ, lₒ]], [(1, [aᵥ, bᵥ, cᵥ, dᵥ, iₒ, jₒ, kₒ, lₒ]), (-1, [aᵥ, bᵥ, cᵥ, dᵥ, jₒ, iₒ, kₒ, lₒ])]⟩,
  -- line 3327: bmie,eckl,adjm->abcdijkl
  ⟨-1, [g_abab [bᵥ, mₒ, iₒ, eᵥ], t2_bbbb [eᵥ, cᵥ, kₒ, lₒ], t2_abab [aᵥ, dᵥ, jₒ, mₒ]], [(1, [aᵥ, bᵥ, cᵥ, dᵥ, iₒ, jₒ, kₒ, lₒ])]⟩,
  -- line 3330: bmie,aejl,cdkm->abcdijkl
  ⟨1, [g_abab [bᵥ, mₒ, iₒ, eᵥ], t2_abab [aᵥ, eᵥ, jₒ, lₒ], t2_bbbb [cᵥ, dᵥ, kₒ, mₒ]], [(1, [aᵥ, bᵥ, cᵥ, dᵥ, iₒ, jₒ, kₒ, lₒ])]⟩,
  -- line 3333: mbei,ecjl,admk->abcdijkl
  ⟨-1, [g_aaaa [mₒ, bᵥ, eᵥ, iₒ], t2_abab [eᵥ, cᵥ, jₒ, lₒ], t2_abab [aᵥ, dᵥ, mₒ, kₒ]], [(1, [aᵥ, bᵥ, cᵥ, dᵥ, iₒ, jₒ, kₒ, lₒ])]⟩,
  -- line 3336: mcel,aejk,bdim->abcdijkl
  ⟨-1, [g_bbbb [mₒ, cᵥ, eᵥ, lₒ], t2_abab [aᵥ, eᵥ, jₒ, kₒ], t2_abab [bᵥ, dᵥ, iₒ, mₒ]], [(1, [aᵥ, bᵥ, cᵥ, dᵥ, iₒ, jₒ, kₒ, lₒ]), (-1, [aᵥ, bᵥ, cᵥ, dᵥ, jₒ, iₒ, kₒ, lₒ]), (-1, [bᵥ, aᵥ, cᵥ, dᵥ, iₒ, jₒ, kₒ, lₒ]), (1, [bᵥ, aᵥ, cᵥ, dᵥ, jₒ, iₒ, kₒ, lₒ])]⟩,
  -- line 3340: mcel,eaij,bdmk->abcdijkl
  ⟨-1, [g_abab [mₒ, cᵥ, eᵥ, lₒ], t2_aaaa [eᵥ, aᵥ, iₒ, jₒ], t2_abab [bᵥ, dᵥ, mₒ, kₒ]], [(1, [aᵥ, bᵥ, cᵥ, dᵥ, iₒ, jₒ, kₒ, lₒ]), (-1, [aᵥ, bᵥ, cᵥ, dᵥ, iₒ, jₒ, lₒ, kₒ]), (-1, [bᵥ, aᵥ, cᵥ, dᵥ, iₒ, jₒ, kₒ, lₒ]), (1, [bᵥ, aᵥ, cᵥ, dᵥ, iₒ, jₒ, lₒ, kₒ])]⟩,
  -- line 3344: mcel,edjk,abim->abcdijkl
  ⟨1, [g_abab [mₒ, cᵥ, eᵥ, lₒ], t2_abab [eᵥ, dᵥ, jₒ, kₒ], t2_aaaa [aᵥ, bᵥ, iₒ, mₒ]], [(1, [aᵥ, bᵥ, cᵥ, dᵥ, iₒ, jₒ, kₒ, lₒ]), (-1, [aᵥ, bᵥ, cᵥ, dᵥ, jₒ, iₒ, kₒ, lₒ]), (-1, [aᵥ, bᵥ, dᵥ, cᵥ, iₒ, jₒ, kₒ, lₒ]), (1, [aᵥ, bᵥ, dᵥ, cᵥ, jₒ, iₒ, kₒ, lₒ])]⟩,
  -- line 3348: mcek,aejl,bdim->abcdijkl
  ⟨1, [g_bbbb [mₒ, cᵥ, eᵥ, kₒ], t2_abab [aᵥ, eᵥ, jₒ, lₒ], t2_abab [bᵥ, dᵥ, iₒ, mₒ]], [(1, [aᵥ, bᵥ, cᵥ, dᵥ, iₒ, jₒ, kₒ, lₒ]), (-1, [aᵥ, bᵥ, cᵥ, dᵥ, jₒ, iₒ, kₒ, lₒ]), (-1, [bᵥ, aᵥ, cᵥ, dᵥ, iₒ, jₒ, kₒ, lₒ]), (1, [bᵥ, aᵥ, cᵥ, dᵥ, jₒ, iₒ, kₒ, lₒ])]⟩,
  -- line 3352: mcek,edjl,abim->abcdijkl
  ⟨-1, [g_abab [mₒ, cᵥ, eᵥ, kₒ], t2_abab [eᵥ, dᵥ, jₒ, lₒ], t2_aaaa [aᵥ, bᵥ, iₒ, mₒ]], [(1, [aᵥ, bᵥ, cᵥ, dᵥ, iₒ, jₒ, kₒ, lₒ]), (-1, [aᵥ, bᵥ, cᵥ, dᵥ, jₒ, iₒ, kₒ, lₒ]), (-1, [aᵥ, bᵥ, dᵥ, cᵥ, iₒ, jₒ, kₒ, lₒ]), (1, [aᵥ, bᵥ, dᵥ, cᵥ, jₒ, iₒ, kₒ, lₒ])]⟩,
  -- line 3356: mcje,aeil,bdmk->abcdijkl
  ⟨1, [g_abab [mₒ, cᵥ, jₒ, eᵥ], t2_abab [aᵥ, eᵥ, iₒ, lₒ], t2_abab [bᵥ, dᵥ, mₒ, kₒ]], [(1, [aᵥ, bᵥ, cᵥ, dᵥ, iₒ, jₒ, kₒ, lₒ]), (-1, [bᵥ, aᵥ, cᵥ, dᵥ, iₒ, jₒ, kₒ, lₒ])]⟩,
  -- line 3360: mcje,aeik,bdml->abcdijkl
  ⟨-1, [g_abab [mₒ, cᵥ, jₒ, eᵥ], t2_abab [aᵥ, eᵥ, iₒ, kₒ], t2_abab [bᵥ, dᵥ, mₒ, lₒ]], [(1, [aᵥ, bᵥ, cᵥ, dᵥ, iₒ, jₒ, kₒ, lₒ]), (-1, [aᵥ, bᵥ, cᵥ, dᵥ, jₒ, iₒ, kₒ, lₒ]), (-1, [bᵥ, aᵥ, cᵥ, dᵥ, iₒ, jₒ, kₒ, lₒ]), (1, [bᵥ, aᵥ, cᵥ, dᵥ, jₒ, iₒ, kₒ, lₒ])]⟩,
  -- line 3364: mcje,edkl,abim->abcdijkl
  ⟨-1, [g_abab [mₒ, cᵥ, jₒ, eᵥ], t2_bbbb [eᵥ, dᵥ, kₒ, lₒ], t2_aaaa [aᵥ, bᵥ, iₒ, mₒ]], [(1, [aᵥ, bᵥ, cᵥ, dᵥ, iₒ, jₒ, kₒ, lₒ]), (-1, [aᵥ, bᵥ, dᵥ, cᵥ, iₒ, jₒ, kₒ, lₒ])]⟩,
  -- line 3368: mcie,aejl,bdmk->abcdijkl
  ⟨-1, [g_abab [mₒ, cᵥ, iₒ, eᵥ], t2_abab [aᵥ, eᵥ, jₒ, lₒ], t2_abab [bᵥ, dᵥ, mₒ, kₒ]], [(1, [aᵥ, bᵥ, cᵥ, dᵥ, iₒ, jₒ, kₒ, lₒ]), (-1, [bᵥ, aᵥ, cᵥ, dᵥ, iₒ, jₒ, kₒ, lₒ])]⟩,
  -- line 3372: mcie,edkl,abjm->abcdijkl
  ⟨1, [g_abab [mₒ, cᵥ, iₒ, eᵥ], t2_bbbb [eᵥ, dᵥ, kₒ, lₒ], t2_aaaa [aᵥ, bᵥ, jₒ, mₒ]], [(1, [aᵥ, bᵥ, cᵥ, dᵥ, iₒ, jₒ, kₒ, lₒ]), (-1, [aᵥ, bᵥ, dᵥ, cᵥ, iₒ, jₒ, kₒ, lₒ])]⟩,
  -- line 3376: mdel,aejk,bcim->abcdijkl
  ⟨1, [g_bbbb [mₒ, dᵥ, eᵥ, lₒ], t2_abab [aᵥ, eᵥ, jₒ, kₒ], t2_abab [bᵥ, cᵥ, iₒ, mₒ]], [(1, [aᵥ, bᵥ, cᵥ, dᵥ, iₒ, jₒ, kₒ, lₒ]), (-1, [aᵥ, bᵥ, cᵥ, dᵥ, jₒ, iₒ, kₒ, lₒ]), (-1, [bᵥ, aᵥ, cᵥ, dᵥ, iₒ, jₒ, kₒ, lₒ]), (1, [bᵥ, aᵥ, cᵥ, dᵥ, jₒ, iₒ, kₒ, lₒ])]⟩,
  -- line 3380: mdel,eaij,bcmk->abcdijkl
  ⟨1, [g_abab [mₒ, dᵥ, eᵥ, lₒ], t2_aaaa [eᵥ, aᵥ, iₒ, jₒ], t2_abab [bᵥ, cᵥ, mₒ, kₒ]], [(1, [aᵥ, bᵥ, cᵥ, dᵥ, iₒ, jₒ, kₒ, lₒ]), (-1, [aᵥ, bᵥ, cᵥ, dᵥ, iₒ, jₒ, lₒ, kₒ]), (-1, [bᵥ, aᵥ, cᵥ, dᵥ, iₒ, jₒ, kₒ, lₒ]), (1, [bᵥ, aᵥ, cᵥ, dᵥ, iₒ, jₒ, lₒ, kₒ])]⟩,
  -- line 3384: mdek,aejl,bcim->abcdijkl
  ⟨-1, [g_bbbb [mₒ, dᵥ, eᵥ, kₒ], t2_abab [aᵥ, eᵥ, jₒ, lₒ], t2_abab [bᵥ, cᵥ, iₒ, mₒ]], [(1, [aᵥ, bᵥ, cᵥ, dᵥ, iₒ, jₒ, kₒ, lₒ]), (-1, [aᵥ, bᵥ, cᵥ, dᵥ, jₒ, iₒ, kₒ, lₒ]), (-1, [bᵥ, aᵥ, cᵥ, dᵥ, iₒ, jₒ, kₒ, lₒ]), (1, [bᵥ, aᵥ, cᵥ, dᵥ, jₒ, iₒ, kₒ, lₒ])]⟩,
  -- line 3388: mdje,aeil,bcmk->abcdijkl
  ⟨-1, [g_abab [mₒ, dᵥ, jₒ, eᵥ], t2_abab [aᵥ, eᵥ, iₒ, lₒ], t2_abab [bᵥ, cᵥ, mₒ, kₒ]], [(1, [aᵥ, bᵥ, cᵥ, dᵥ, iₒ, jₒ, kₒ, lₒ]), (-1, [bᵥ, aᵥ, cᵥ, dᵥ, iₒ, jₒ, kₒ, lₒ])]⟩,
  -- line 3392: mdje,aeik,bcml->abcdijkl
  ⟨1, [g_abab [mₒ, dᵥ, jₒ, eᵥ], t2_abab [aᵥ, eᵥ, iₒ, kₒ], t2_abab [bᵥ, cᵥ, mₒ, lₒ]], [(1, [aᵥ, bᵥ, cᵥ, dᵥ, iₒ, jₒ, kₒ, lₒ]), (-1, [aᵥ, bᵥ, cᵥ, dᵥ, jₒ, iₒ, kₒ, lₒ]), (-1, [bᵥ, aᵥ, cᵥ, dᵥ, iₒ, jₒ, kₒ, lₒ]), (1, [bᵥ, aᵥ, cᵥ, dᵥ, jₒ, iₒ, kₒ, lₒ])]⟩,
  -- line 3396: mdie,aejl,bcmk->abcdijkl
  ⟨1, [g_abab [mₒ, dᵥ, iₒ, eᵥ], t2_abab [aᵥ, eᵥ, jₒ, lₒ], t2_abab [bᵥ, cᵥ, mₒ, kₒ]], [(1, [aᵥ, bᵥ, cᵥ, dᵥ, iₒ, jₒ, kₒ, lₒ]), (-1, [bᵥ, aᵥ, cᵥ, dᵥ, iₒ, jₒ, kₒ, lₒ])]⟩,
  -- line 3400: abef,ecjl,fdik->abcdijkl
  ⟨1, [g_aaaa [aᵥ, bᵥ, eᵥ, fᵥ], t2_abab [eᵥ, cᵥ, jₒ, lₒ], t2_abab [fᵥ, dᵥ, iₒ, kₒ]], [(1, [aᵥ, bᵥ, cᵥ, dᵥ, iₒ, jₒ, kₒ, lₒ])]⟩,
  -- line 3403: acfe,bejl,fdik->abcdijkl
  ⟨-1, [g_abab [aᵥ, cᵥ, fᵥ, eᵥ], t2_abab [bᵥ, eᵥ, jₒ, lₒ], t2_abab [fᵥ, dᵥ, iₒ, kₒ]], [(1, [aᵥ, bᵥ, cᵥ, dᵥ, iₒ, jₒ, kₒ, lₒ])]⟩,
  -- line 3406: abef,ecil,fdjk->abcdijkl
  ⟨-1, [g_aaaa [aᵥ, bᵥ, eᵥ, fᵥ], t2_abab [eᵥ, cᵥ, iₒ, lₒ], t2_abab [fᵥ, dᵥ, jₒ, kₒ]], [(1, [aᵥ, bᵥ, cᵥ, dᵥ, iₒ, jₒ, kₒ, lₒ]), (-1, [aᵥ, bᵥ, cᵥ, dᵥ, iₒ, jₒ, lₒ, kₒ])]⟩,
  -- line 3410: acfe,beil,fdjk->abcdijkl
  ⟨1, [g_abab [aᵥ, cᵥ, fᵥ, eᵥ], t2_abab [bᵥ, eᵥ, iₒ, lₒ], t2_abab [fᵥ, dᵥ, jₒ, kₒ]], [(1, [aᵥ, bᵥ, cᵥ, dᵥ, iₒ, jₒ, kₒ, lₒ]), (-1, [aᵥ, bᵥ, cᵥ, dᵥ, iₒ, jₒ, lₒ, kₒ])]⟩,
  -- line 3414: abef,ecjk,fdil->abcdijkl
  ⟨-1, [g_aaaa [aᵥ, bᵥ, eᵥ, fᵥ], t2_abab [eᵥ, cᵥ, jₒ, kₒ], t2_abab [fᵥ, dᵥ, iₒ, lₒ]], [(1, [aᵥ, bᵥ, cᵥ, dᵥ, iₒ, jₒ, kₒ, lₒ])]⟩,
  -- line 3417: acfe,bejk,fdil->abcdijkl
  ⟨1, [g_abab [aᵥ, cᵥ, fᵥ, eᵥ], t2_abab [bᵥ, eᵥ, jₒ, kₒ], t2_abab [fᵥ, dᵥ, iₒ, lₒ]], [(1, [aᵥ, bᵥ, cᵥ, dᵥ, iₒ, jₒ, kₒ, lₒ])]⟩,
  -- line 3420: acef,ebji,fdkl->abcdijkl
  ⟨-1, [g_abab [aᵥ, cᵥ, eᵥ, fᵥ], t2_aaaa [eᵥ, bᵥ, jₒ, iₒ], t2_bbbb [fᵥ, dᵥ, kₒ, lₒ]], [(1, [aᵥ, bᵥ, cᵥ, dᵥ, iₒ, jₒ, kₒ, lₒ])]⟩
  ]

/-- Part 5 of `ccdq_t4_aabbaabb`. -/
def ccdq_t4_aabbaabb_5 : Prog := [
  -- line 3423: adfe,bejl,fcik->abcdijkl
  ⟨1, [g_abab [aᵥ, dᵥ, fᵥ, eᵥ], t2_abab [bᵥ, eᵥ, jₒ, lₒ], t2_abab [fᵥ, cᵥ, iₒ, kₒ]], [(1, [aᵥ, bᵥ, cᵥ, dᵥ, iₒ, jₒ, kₒ, lₒ]), (-1, [bᵥ, aᵥ, cᵥ, dᵥ, iₒ, jₒ, kₒ, lₒ])]⟩,
  -- line 3427: adfe,beil,fcjk->abcdijkl
  ⟨-1, [g_abab [aᵥ, dᵥ, fᵥ, eᵥ], t2_abab [bᵥ, eᵥ, iₒ, lₒ], t2_abab [fᵥ, cᵥ, jₒ, kₒ]], [(1, [aᵥ, bᵥ, cᵥ, dᵥ, iₒ, jₒ, kₒ, lₒ]), (-1, [aᵥ, bᵥ, cᵥ, dᵥ, iₒ, jₒ, lₒ, kₒ]), (-1, [bᵥ, aᵥ, cᵥ, dᵥ, iₒ, jₒ, kₒ, lₒ]), (1, [bᵥ, aᵥ, cᵥ, dᵥ, iₒ, jₒ, lₒ, kₒ])]⟩,
  -- line 3431: adfe,bejk,fcil->abcdijkl
  ⟨-1, [g_abab [aᵥ, dᵥ, fᵥ, eᵥ], t2_abab [bᵥ, eᵥ, jₒ, kₒ], t2_abab [fᵥ, cᵥ, iₒ, lₒ]], [(1, [aᵥ, bᵥ, cᵥ, dᵥ, iₒ, jₒ, kₒ, lₒ]), (-1, [bᵥ, aᵥ, cᵥ, dᵥ, iₒ, jₒ, kₒ, lₒ])]⟩,
  -- line 3435: adef,ebji,fckl->abcdijkl
  ⟨1, [g_abab [aᵥ, dᵥ, eᵥ, fᵥ], t2_aaaa [eᵥ, bᵥ, jₒ, iₒ], t2_bbbb [fᵥ, cᵥ, kₒ, lₒ]], [(1, [aᵥ, bᵥ, cᵥ, dᵥ, iₒ, jₒ, kₒ, lₒ]), (-1, [bᵥ, aᵥ, cᵥ, dᵥ, iₒ, jₒ, kₒ, lₒ])]⟩,
  -- line 3439: bcfe,aejl,fdik->abcdijkl
  ⟨1, [g_abab [bᵥ, cᵥ, fᵥ, eᵥ], t2_abab [aᵥ, eᵥ, jₒ, lₒ], t2_abab [fᵥ, dᵥ, iₒ, kₒ]], [(1, [aᵥ, bᵥ, cᵥ, dᵥ, iₒ, jₒ, kₒ, lₒ])]⟩,
  -- line 3442: dcef,aejl,bfik->abcdijkl
  ⟨-1, [g_bbbb [dᵥ, cᵥ, eᵥ, fᵥ], t2_abab [aᵥ, eᵥ, jₒ, lₒ], t2_abab [bᵥ, fᵥ, iₒ, kₒ]], [(1, [aᵥ, bᵥ, cᵥ, dᵥ, iₒ, jₒ, kₒ, lₒ])]⟩,
  -- line 3445: bcfe,aeil,fdjk->abcdijkl
  ⟨-1, [g_abab [bᵥ, cᵥ, fᵥ, eᵥ], t2_abab [aᵥ, eᵥ, iₒ, lₒ], t2_abab [fᵥ, dᵥ, jₒ, kₒ]], [(1, [aᵥ, bᵥ, cᵥ, dᵥ, iₒ, jₒ, kₒ, lₒ]), (-1, [aᵥ, bᵥ, cᵥ, dᵥ, iₒ, jₒ, lₒ, kₒ])]⟩,
  -- line 3449: dcef,aeil,bfjk->abcdijkl
  ⟨1, [g_bbbb [dᵥ, cᵥ, eᵥ, fᵥ], t2_abab [aᵥ, eᵥ, iₒ, lₒ], t2_abab [bᵥ, fᵥ, jₒ, kₒ]], [(1, [aᵥ, bᵥ, cᵥ, dᵥ, iₒ, jₒ, kₒ, lₒ]), (-1, [aᵥ, bᵥ, cᵥ, dᵥ, iₒ, jₒ, lₒ, kₒ])]⟩,
  -- line 3453: bcfe,aejk,fdil->abcdijkl
  ⟨-1, [g_abab [bᵥ, cᵥ, fᵥ, eᵥ], t2_abab [aᵥ, eᵥ, jₒ, kₒ], t2_abab [fᵥ, dᵥ, iₒ, lₒ]], [(1, [aᵥ, bᵥ, cᵥ, dᵥ, iₒ, jₒ, kₒ, lₒ])]⟩,
  -- line 3456: dcef,aejk,bfil->abcdijkl
  ⟨1, [g_bbbb [dᵥ, cᵥ, eᵥ, fᵥ], t2_abab [aᵥ, eᵥ, jₒ, kₒ], t2_abab [bᵥ, fᵥ, iₒ, lₒ]], [(1, [aᵥ, bᵥ, cᵥ, dᵥ, iₒ, jₒ, kₒ, lₒ])]⟩,
  -- line 3459: bcef,eaji,fdkl->abcdijkl
  ⟨1, [g_abab [bᵥ, cᵥ, eᵥ, fᵥ], t2_aaaa [eᵥ, aᵥ, jₒ, iₒ], t2_bbbb [fᵥ, dᵥ, kₒ, lₒ]], [(1, [aᵥ, bᵥ, cᵥ, dᵥ, iₒ, jₒ, kₒ, lₒ])]⟩,
  -- line 3462: nmef,efkl,acjm,bdin->abcdijkl
  ⟨1/2, [g_bbbb [nₒ, mₒ, eᵥ, fᵥ], t2_bbbb [eᵥ, fᵥ, kₒ, lₒ], t2_abab [aᵥ, cᵥ, jₒ, mₒ], t2_abab [bᵥ, dᵥ, iₒ, nₒ]], [(1, [aᵥ, bᵥ, cᵥ, dᵥ, iₒ, jₒ, kₒ, lₒ]), (-1, [aᵥ, bᵥ, cᵥ, dᵥ, jₒ, iₒ, kₒ, lₒ])]⟩,
  -- line 3466: nmef,efkl,adjm,bcin->abcdijkl
  ⟨-1/2, [g_bbbb [nₒ, mₒ, eᵥ, fᵥ], t2_bbbb [eᵥ, fᵥ, kₒ, lₒ], t2_abab [aᵥ, dᵥ, jₒ, mₒ], t2_abab [bᵥ, cᵥ, iₒ, nₒ]], [(1, [aᵥ, bᵥ, cᵥ, dᵥ, iₒ, jₒ, kₒ, lₒ]), (-1, [aᵥ, bᵥ, cᵥ, dᵥ, jₒ, iₒ, kₒ, lₒ])]⟩,
  -- line 3470: mnef,efjl,acmk,bdin->abcdijkl
  ⟨-1/2, [g_abab [mₒ, nₒ, eᵥ, fᵥ], t2_abab [eᵥ, fᵥ, jₒ, lₒ], t2_abab [aᵥ, cᵥ, mₒ, kₒ], t2_abab [bᵥ, dᵥ, iₒ, nₒ]], [(1, [aᵥ, bᵥ, cᵥ, dᵥ, iₒ, jₒ, kₒ, lₒ])]⟩,
  -- line 3473: mnfe,fejl,acmk,bdin->abcdijkl
  ⟨-1/2, [g_abab [mₒ, nₒ, fᵥ, eᵥ], t2_abab [fᵥ, eᵥ, jₒ, lₒ], t2_abab [aᵥ, cᵥ, mₒ, kₒ], t2_abab [bᵥ, dᵥ, iₒ, nₒ]], [(1, [aᵥ, bᵥ, cᵥ, dᵥ, iₒ, jₒ, kₒ, lₒ])]⟩,
  -- line 3476: mnef,efjl,abim,cdkn->abcdijkl
  ⟨1/2, [g_abab [mₒ, nₒ, eᵥ, fᵥ], t2_abab [eᵥ, fᵥ, jₒ, lₒ], t2_aaaa [aᵥ, bᵥ, iₒ, mₒ], t2_bbbb [cᵥ, dᵥ, kₒ, nₒ]], [(1, [aᵥ, bᵥ, cᵥ, dᵥ, iₒ, jₒ, kₒ, lₒ])]⟩,
  -- line 3479: mnfe,fejl,abim,cdkn->abcdijkl
  ⟨1/2, [g_abab [mₒ, nₒ, fᵥ, eᵥ], t2_abab [fᵥ, eᵥ, jₒ, lₒ], t2_aaaa [aᵥ, bᵥ, iₒ, mₒ], t2_bbbb [cᵥ, dᵥ, kₒ, nₒ]], [(1, [aᵥ, bᵥ, cᵥ, dᵥ, iₒ, jₒ, kₒ, lₒ])]⟩,
  -- line 3482: nmef,efjl,acim,bdnk->abcdijkl
  ⟨-1/2, [g_abab [nₒ, mₒ, eᵥ, fᵥ], t2_abab [eᵥ, fᵥ, jₒ, lₒ], t2_abab [aᵥ, cᵥ, iₒ, mₒ], t2_abab [bᵥ, dᵥ, nₒ, kₒ]], [(1, [aᵥ, bᵥ, cᵥ, dᵥ, iₒ, jₒ, kₒ, lₒ])]⟩,
  -- line 3485: nmfe,fejl,acim,bdnk->abcdijkl
  ⟨-1/2, [g_abab [nₒ, mₒ, fᵥ, eᵥ], t2_abab [fᵥ, eᵥ, jₒ, lₒ], t2_abab [aᵥ, cᵥ, iₒ, mₒ], t2_abab [bᵥ, dᵥ, nₒ, kₒ]], [(1, [aᵥ, bᵥ, cᵥ, dᵥ, iₒ, jₒ, kₒ, lₒ])]⟩,
  -- line 3488: mnef,efjl,admk,bcin->abcdijkl
  ⟨1/2, [g_abab [mₒ, nₒ, eᵥ, fᵥ], t2_abab [eᵥ, fᵥ, jₒ, lₒ], t2_abab [aᵥ, dᵥ, mₒ, kₒ], t2_abab [bᵥ, cᵥ, iₒ, nₒ]], [(1, [aᵥ, bᵥ, cᵥ, dᵥ, iₒ, jₒ, kₒ, lₒ])]⟩,
  -- line 3491: mnfe,fejl,admk,bcin->abcdijkl
  ⟨1/2, [g_abab [mₒ, nₒ, fᵥ, eᵥ], t2_abab [fᵥ, eᵥ, jₒ, lₒ], t2_abab [aᵥ, dᵥ, mₒ, kₒ], t2_abab [bᵥ, cᵥ, iₒ, nₒ]], [(1, [aᵥ, bᵥ, cᵥ, dᵥ, iₒ, jₒ, kₒ, lₒ])]⟩,
  -- line 3494: nmef,efjl,adim,bcnk->abcdijkl
  ⟨1/2, [g_abab [nₒ, mₒ, eᵥ, fᵥ], t2_abab [eᵥ, fᵥ, jₒ, lₒ], t2_abab [aᵥ, dᵥ, iₒ, mₒ], t2_abab [bᵥ, cᵥ, nₒ, kₒ]], [(1, [aᵥ, bᵥ, cᵥ, dᵥ, iₒ, jₒ, kₒ, lₒ])]⟩,
  -- line 3497: nmfe,fejl,adim,bcnk->abcdijkl
  ⟨1/2, [g_abab [nₒ, mₒ, fᵥ, eᵥ], t2_abab [fᵥ, eᵥ, jₒ, lₒ], t2_abab [aᵥ, dᵥ, iₒ, mₒ], t2_abab [bᵥ, cᵥ, nₒ, kₒ]], [(1, [aᵥ, bᵥ, cᵥ, dᵥ, iₒ, jₒ, kₒ, lₒ])]⟩,
  -- line 3500: mnef,efil,acmk,bdjn->abcdijkl
  ⟨1/2, [g_abab [mₒ, nₒ, eᵥ, fᵥ], t2_abab [eᵥ, fᵥ, iₒ, lₒ], t2_abab [aᵥ, cᵥ, mₒ, kₒ], t2_abab [bᵥ, dᵥ, jₒ, nₒ]], [(1, [aᵥ, bᵥ, cᵥ, dᵥ, iₒ, jₒ, kₒ, lₒ])]⟩,
  -- line 3503: mnfe,feil,acmk,bdjn->abcdijkl
  ⟨1/2, [g_abab [mₒ, nₒ, fᵥ, eᵥ], t2_abab [fᵥ, eᵥ, iₒ, lₒ], t2_abab [aᵥ, cᵥ, mₒ, kₒ], t2_abab [bᵥ, dᵥ, jₒ, nₒ]], [(1, [aᵥ, bᵥ, cᵥ, dᵥ, iₒ, jₒ, kₒ, lₒ])]⟩,
  -- line 3506: mnef,efil,abjm,cdkn->abcdijkl
  ⟨-1/2, [g_abab [mₒ, nₒ, eᵥ, fᵥ], t2_abab [eᵥ, fᵥ, iₒ, lₒ], t2_aaaa [aᵥ, bᵥ, jₒ, mₒ], t2_bbbb [cᵥ, dᵥ, kₒ, nₒ]], [(1, [aᵥ, bᵥ, cᵥ, dᵥ, iₒ, jₒ, kₒ, lₒ])]⟩,
  -- line 3509: mnfe,feil,abjm,cdkn->abcdijkl
  ⟨-1/2, [g_abab [mₒ, nₒ, fᵥ, eᵥ], t2_abab [fᵥ, eᵥ, iₒ, lₒ], t2_aaaa [aᵥ, bᵥ, jₒ, mₒ], t2_bbbb [cᵥ, dᵥ, kₒ, nₒ]], [(1, [aᵥ, bᵥ, cᵥ, dᵥ, iₒ, jₒ, kₒ, lₒ])]⟩,
  -- line 3512: nmef,efil,acjm,bdnk->abcdijkl
  ⟨1/2, [g_abab [nₒ, mₒ, eᵥ, fᵥ], t2_abab [eᵥ, fᵥ, iₒ, lₒ], t2_abab [aᵥ, cᵥ, jₒ, mₒ], t2_abab [bᵥ, dᵥ, nₒ, kₒ]], [(1, [aᵥ, bᵥ, cᵥ, dᵥ, iₒ, jₒ, kₒ, lₒ])]⟩,
  -- line 3515: nmfe,feil,acjm,bdnk->abcdijkl
  ⟨1/2, [g_abab [nₒ, mₒ, fᵥ, eᵥ], t2_abab [fᵥ, eᵥ, iₒ, lₒ], t2_abab [aᵥ, cᵥ, jₒ, mₒ], t2_abab [bᵥ, dᵥ, nₒ, kₒ]], [(1, [aᵥ, bᵥ, cᵥ, dᵥ, iₒ, jₒ, kₒ, lₒ])]⟩,
  -- line 3518: mnef,efil,admk,bcjn->abcdijkl
  ⟨-1/2, [g_abab [mₒ, nₒ, eᵥ, fᵥ], t2_abab [eᵥ, fᵥ, iₒ, lₒ], t2_abab [aᵥ, dᵥ, mₒ, kₒ], t2_abab [bᵥ, cᵥ, jₒ, nₒ]], [(1, [aᵥ, bᵥ, cᵥ, dᵥ, iₒ, jₒ, kₒ, lₒ])]⟩,
  -- line 3521: mnfe,feil,admk,bcjn->abcdijkl
  ⟨-1/2, [g_abab [mₒ, nₒ, fᵥ, eᵥ], t2_abab [fᵥ, eᵥ, iₒ, lₒ], t2_abab [aᵥ, dᵥ, mₒ, kₒ], t2_abab [bᵥ, cᵥ, jₒ, nₒ]], [(1, [aᵥ, bᵥ, cᵥ, dᵥ, iₒ, jₒ, kₒ, lₒ])]⟩,
  -- line 3524: nmef,efil,adjm,bcnk->abcdijkl
  ⟨-1/2, [g_abab [nₒ, mₒ, eᵥ, fᵥ], t2_abab [eᵥ, fᵥ, iₒ, lₒ], t2_abab [aᵥ, dᵥ, jₒ, mₒ], t2_abab [bᵥ, cᵥ, nₒ, kₒ]], [(1, [aᵥ, bᵥ, cᵥ, dᵥ, iₒ, jₒ, kₒ, lₒ])]⟩,
  -- line 3527: nmfe,feil,adjm,bcnk->abcdijkl
  ⟨-1/2, [g_abab [nₒ, mₒ, fᵥ, eᵥ], t2_abab [fᵥ, eᵥ, iₒ, lₒ], t2_abab [aᵥ, dᵥ, jₒ, mₒ], t2_abab [bᵥ, cᵥ, nₒ, kₒ]], [(1, [aᵥ, bᵥ, cᵥ, dᵥ, iₒ, jₒ, kₒ, lₒ])]⟩,
  -- line 3530: mnef,efjk,acml,bdin->abcdijkl
  ⟨1/2, [g_abab [mₒ, nₒ, eᵥ, fᵥ], t2_abab [eᵥ, fᵥ, jₒ, kₒ], t2_abab [aᵥ, cᵥ, mₒ, lₒ], t2_abab [bᵥ, dᵥ, iₒ, nₒ]], [(1, [aᵥ, bᵥ, cᵥ, dᵥ, iₒ, jₒ, kₒ, lₒ])]⟩,
  -- line 3533: mnfe,fejk,acml,bdin->abcdijkl
  ⟨1/2, [g_abab [mₒ, nₒ, fᵥ, eᵥ], t2_abab [fᵥ, eᵥ, jₒ, kₒ], t2_abab [aᵥ, cᵥ, mₒ, lₒ], t2_abab [bᵥ, dᵥ, iₒ, nₒ]], [(1, [aᵥ, bᵥ, cᵥ, dᵥ, iₒ, jₒ, kₒ, lₒ])]⟩,
  -- line 3536: mnef,efjk,abim,cdln->abcdijkl
  ⟨-1/2, [g_abab [mₒ, nₒ, eᵥ, fᵥ], t2_abab [eᵥ, fᵥ, jₒ, kₒ], t2_aaaa [aᵥ, bᵥ, iₒ, mₒ], t2_bbbb [cᵥ, dᵥ, lₒ, nₒ]], [(1, [aᵥ, bᵥ, cᵥ, dᵥ, iₒ, jₒ, kₒ, lₒ])]⟩,
  -- line 3539: mnfe,fejk,abim,cdln->abcdijkl
  ⟨-1/2, [g_abab [mₒ, nₒ, fᵥ, eᵥ], t2_abab [fᵥ, eᵥ, jₒ, kₒ], t2_aaaa [aᵥ, bᵥ, iₒ, mₒ], t2_bbbb [cᵥ, dᵥ, lₒ, nₒ]], [(1, [aᵥ, bᵥ, cᵥ, dᵥ, iₒ, jₒ, kₒ, lₒ])]⟩,
  -- line 3542: nmef,efjk,acim,bdnl->abcdijkl
  ⟨1/2, [g_abab [nₒ, mₒ, eᵥ, fᵥ], t2_abab [eᵥ, fᵥ, jₒ, kₒ], t2_abab [aᵥ, cᵥ, iₒ, mₒ], t2_abab [bᵥ, dᵥ, nₒ, lₒ]], [(1, [aᵥ, bᵥ, cᵥ, dᵥ, iₒ, jₒ, kₒ, lₒ])]⟩,
  -- line 3545: nmfe,fejk,acim,bdnl->abcdijkl
  ⟨1/2, [g_abab [nₒ, mₒ, fᵥ, eᵥ], t2_abab [fᵥ, eᵥ, jₒ, kₒ], t2_abab [aᵥ, cᵥ, iₒ, mₒ], t2_abab [bᵥ, dᵥ, nₒ, lₒ]], [(1, [aᵥ, bᵥ, cᵥ, dᵥ, iₒ, jₒ, kₒ, lₒ])]⟩,
  -- line 3548: mnef,efjk,adml,bcin->abcdijkl
  ⟨-1/2, [g_abab [mₒ, nₒ, eᵥ, fᵥ], t2_abab [eᵥ, fᵥ, jₒ, kₒ], t2_abab [aᵥ, dᵥ, mₒ, lₒ], t2_abab [bᵥ, cᵥ, iₒ, nₒ]], [(1, [aᵥ, bᵥ, cᵥ, dᵥ, iₒ, jₒ, kₒ, lₒ])]⟩
  ]

/-- Part 6 of `ccdq_t4_aabbaabb`. -/
def ccdq_t4_aabbaabb_6 : Prog := [
  -- line 3551: mnfe,fejk,adml,bcin->abcdijkl
  ⟨-1/2, [g_abab [mₒ, nₒ, fᵥ, eᵥ], t2_abab [fᵥ, eᵥ, jₒ, kₒ], t2_abab [aᵥ, dᵥ, mₒ, lₒ], t2_abab [bᵥ, cᵥ, iₒ, nₒ]], [(1, [aᵥ, bᵥ, cᵥ, dᵥ, iₒ, jₒ, kₒ, lₒ])]⟩,
  -- line 3554: nmef,efjk,adim,bcnl->abcdijkl
  ⟨-1/2, [g_abab [nₒ, mₒ, eᵥ, fᵥ], t2_abab [eᵥ, fᵥ, jₒ, kₒ], t2_abab [aᵥ, dᵥ, iₒ, mₒ], t2_abab [bᵥ, cᵥ, nₒ, lₒ]], [(1, [aᵥ, bᵥ, cᵥ, dᵥ, iₒ, jₒ, kₒ, lₒ])]⟩,
  -- line 3557: nmfe,fejk,adim,bcnl->abcdijkl
  ⟨-1/2, [g_abab [nₒ, mₒ, fᵥ, eᵥ], t2_abab [fᵥ, eᵥ, jₒ, kₒ], t2_abab [aᵥ, dᵥ, iₒ, mₒ], t2_abab [bᵥ, cᵥ, nₒ, lₒ]], [(1, [aᵥ, bᵥ, cᵥ, dᵥ, iₒ, jₒ, kₒ, lₒ])]⟩,
  -- line 3560: mnef,efik,acml,bdjn->abcdijkl
  ⟨-1/2, [g_abab [mₒ, nₒ, eᵥ, fᵥ], t2_abab [eᵥ, fᵥ, iₒ, kₒ], t2_abab [aᵥ, cᵥ, mₒ, lₒ], t2_abab [bᵥ, dᵥ, jₒ, nₒ]], [(1, [aᵥ, bᵥ, cᵥ, dᵥ, iₒ, jₒ, kₒ, lₒ])]⟩,
  -- line 3563: mnfe,feik,acml,bdjn->abcdijkl
  ⟨-1/2, [g_abab [mₒ, nₒ, fᵥ, eᵥ], t2_abab [fᵥ, eᵥ, iₒ, kₒ], t2_abab [aᵥ, cᵥ, mₒ, lₒ], t2_abab [bᵥ, dᵥ, jₒ, nₒ]], [(1, [aᵥ, bᵥ, cᵥ, dᵥ, iₒ, jₒ, kₒ, lₒ])]⟩,
  -- line 3566: mnef,efik,abjm,cdln->abcdijkl
  ⟨1/2, [g_abab [mₒ, nₒ, eᵥ, fᵥ], t2_abab [eᵥ, fᵥ, iₒ, kₒ], t2_aaaa [aᵥ, bᵥ, jₒ, mₒ], t2_bbbb [cᵥ, dᵥ, lₒ, nₒ]], [(1, [aᵥ, bᵥ, cᵥ, dᵥ, iₒ, jₒ, kₒ, lₒ])]⟩,
  -- line 3569: mnfe,feik,abjm,cdln->abcdijkl
  ⟨1/2, [g_abab [mₒ, nₒ, fᵥ, eᵥ], t2_abab [fᵥ, eᵥ, iₒ, kₒ], t2_aaaa [aᵥ, bᵥ, jₒ, mₒ], t2_bbbb [cᵥ, dᵥ, lₒ, nₒ]], [(1, [aᵥ, bᵥ, cᵥ, dᵥ, iₒ, jₒ, kₒ, lₒ])]⟩,
  -- line 3572: nmef,efik,acjm,bdnl->abcdijkl
  ⟨-1/2, [g_abab [nₒ, mₒ, eᵥ, fᵥ], t2_abab [eᵥ, fᵥ, iₒ, kₒ], t2_abab [aᵥ, cᵥ, jₒ, mₒ], t2_abab [bᵥ, dᵥ, nₒ, lₒ]], [(1, [aᵥ, bᵥ, cᵥ, dᵥ, iₒ, jₒ, kₒ, lₒ])]⟩,
  -- line 3575: nmfe,feik,acjm,bdnl->abcdijkl
  ⟨-1/2, [g_abab [nₒ, mₒ, fᵥ, eᵥ], t2_abab [fᵥ, eᵥ, iₒ, kₒ], t2_abab [aᵥ, cᵥ, jₒ, mₒ], t2_abab [bᵥ, dᵥ, nₒ, lₒ]], [(1, [aᵥ, bᵥ, cᵥ, dᵥ, iₒ, jₒ, kₒ, lₒ])]⟩,
  -- line 3578: mnef,efik,adml,bcjn->abcdijkl
  ⟨1/2, [g_abab [mₒ, nₒ, eᵥ, fᵥ], t2_abab [eᵥ, fᵥ, iₒ, kₒ], t2_abab [aᵥ, dᵥ, mₒ, lₒ], t2_abab [bᵥ, cᵥ, jₒ, nₒ]], [(1, [aᵥ, bᵥ, cᵥ, dᵥ, iₒ, jₒ, kₒ, lₒ])]⟩,
  -- line 3581: mnfe,feik,adml,bcjn->abcdijkl
  ⟨1/2, [g_abab [mₒ, nₒ, fᵥ, eᵥ], t2_abab [fᵥ, eᵥ, iₒ, kₒ], t2_abab [aᵥ, dᵥ, mₒ, lₒ], t2_abab [bᵥ, cᵥ, jₒ, nₒ]], [(1, [aᵥ, bᵥ, cᵥ, dᵥ, iₒ, jₒ, kₒ, lₒ])]⟩,
  -- line 3584: nmef,efik,adjm,bcnl->abcdijkl
  ⟨1/2, [g_abab [nₒ, mₒ, eᵥ, fᵥ], t2_abab [eᵥ, fᵥ, iₒ, kₒ], t2_abab [aᵥ, dᵥ, jₒ, mₒ], t2_abab [bᵥ, cᵥ, nₒ, lₒ]], [(1, [aᵥ, bᵥ, cᵥ, dᵥ, iₒ, jₒ, kₒ, lₒ])]⟩,
  -- line 3587: nmfe,feik,adjm,bcnl->abcdijkl
  ⟨1/2, [g_abab [nₒ, mₒ, fᵥ, eᵥ], t2_abab [fᵥ, eᵥ, iₒ, kₒ], t2_abab [aᵥ, dᵥ, jₒ, mₒ], t2_abab [bᵥ, cᵥ, nₒ, lₒ]], [(1, [aᵥ, bᵥ, cᵥ, dᵥ, iₒ, jₒ, kₒ, lₒ])]⟩,
  -- line 3590: nmef,efij,acml,bdnk->abcdijkl
  ⟨1/2, [g_aaaa [nₒ, mₒ, eᵥ, fᵥ], t2_aaaa [eᵥ, fᵥ, iₒ, jₒ], t2_abab [aᵥ, cᵥ, mₒ, lₒ], t2_abab [bᵥ, dᵥ, nₒ, kₒ]], [(1, [aᵥ, bᵥ, cᵥ, dᵥ, iₒ, jₒ, kₒ, lₒ]), (-1, [aᵥ, bᵥ, cᵥ, dᵥ, iₒ, jₒ, lₒ, kₒ])]⟩,
  -- line 3594: nmef,efij,adml,bcnk->abcdijkl
  ⟨-1/2, [g_aaaa [nₒ, mₒ, eᵥ, fᵥ], t2_aaaa [eᵥ, fᵥ, iₒ, jₒ], t2_abab [aᵥ, dᵥ, mₒ, lₒ], t2_abab [bᵥ, cᵥ, nₒ, kₒ]], [(1, [aᵥ, bᵥ, cᵥ, dᵥ, iₒ, jₒ, kₒ, lₒ]), (-1, [aᵥ, bᵥ, cᵥ, dᵥ, iₒ, jₒ, lₒ, kₒ])]⟩,
  -- line 3598: mnfe,aeml,fcjk,bdin->abcdijkl
  ⟨-1, [g_abab [mₒ, nₒ, fᵥ, eᵥ], t2_abab [aᵥ, eᵥ, mₒ, lₒ], t2_abab [fᵥ, cᵥ, jₒ, kₒ], t2_abab [bᵥ, dᵥ, iₒ, nₒ]], [(1, [aᵥ, bᵥ, cᵥ, dᵥ, iₒ, jₒ, kₒ, lₒ]), (-1, [aᵥ, bᵥ, cᵥ, dᵥ, jₒ, iₒ, kₒ, lₒ])]⟩,
  -- line 3602: mnfe,aeml,fbij,cdkn->abcdijkl
  ⟨1, [g_abab [mₒ, nₒ, fᵥ, eᵥ], t2_abab [aᵥ, eᵥ, mₒ, lₒ], t2_aaaa [fᵥ, bᵥ, iₒ, jₒ], t2_bbbb [cᵥ, dᵥ, kₒ, nₒ]], [(1, [aᵥ, bᵥ, cᵥ, dᵥ, iₒ, jₒ, kₒ, lₒ]), (-1, [aᵥ, bᵥ, cᵥ, dᵥ, iₒ, jₒ, lₒ, kₒ])]⟩,
  -- line 3606: mnfe,aeml,fdjk,bcin->abcdijkl
  ⟨1, [g_abab [mₒ, nₒ, fᵥ, eᵥ], t2_abab [aᵥ, eᵥ, mₒ, lₒ], t2_abab [fᵥ, dᵥ, jₒ, kₒ], t2_abab [bᵥ, cᵥ, iₒ, nₒ]], [(1, [aᵥ, bᵥ, cᵥ, dᵥ, iₒ, jₒ, kₒ, lₒ]), (-1, [aᵥ, bᵥ, cᵥ, dᵥ, jₒ, iₒ, kₒ, lₒ]), (-1, [bᵥ, aᵥ, cᵥ, dᵥ, iₒ, jₒ, kₒ, lₒ]), (1, [bᵥ, aᵥ, cᵥ, dᵥ, jₒ, iₒ, kₒ, lₒ])]⟩,
  -- line 3610: mnfe,aemk,fcjl,bdin->abcdijkl
  ⟨1, [g_abab [mₒ, nₒ, fᵥ, eᵥ], t2_abab [aᵥ, eᵥ, mₒ, kₒ], t2_abab [fᵥ, cᵥ, jₒ, lₒ], t2_abab [bᵥ, dᵥ, iₒ, nₒ]], [(1, [aᵥ, bᵥ, cᵥ, dᵥ, iₒ, jₒ, kₒ, lₒ]), (-1, [aᵥ, bᵥ, cᵥ, dᵥ, jₒ, iₒ, kₒ, lₒ])]⟩,
  -- line 3614: mnfe,aemk,fdjl,bcin->abcdijkl
  ⟨-1, [g_abab [mₒ, nₒ, fᵥ, eᵥ], t2_abab [aᵥ, eᵥ, mₒ, kₒ], t2_abab [fᵥ, dᵥ, jₒ, lₒ], t2_abab [bᵥ, cᵥ, iₒ, nₒ]], [(1, [aᵥ, bᵥ, cᵥ, dᵥ, iₒ, jₒ, kₒ, lₒ]), (-1, [aᵥ, bᵥ, cᵥ, dᵥ, jₒ, iₒ, kₒ, lₒ]), (-1, [bᵥ, aᵥ, cᵥ, dᵥ, iₒ, jₒ, kₒ, lₒ]), (1, [bᵥ, aᵥ, cᵥ, dᵥ, jₒ, iₒ, kₒ, lₒ])]⟩,
  -- line 3618: mnef,eajm,fckl,bdin->abcdijkl
  ⟨1, [g_abab [mₒ, nₒ, eᵥ, fᵥ], t2_aaaa [eᵥ, aᵥ, jₒ, mₒ], t2_bbbb [fᵥ, cᵥ, kₒ, lₒ], t2_abab [bᵥ, dᵥ, iₒ, nₒ]], [(1, [aᵥ, bᵥ, cᵥ, dᵥ, iₒ, jₒ, kₒ, lₒ])]⟩,
  -- line 3621: nmef,aejm,fckl,bdin->abcdijkl
  ⟨1, [g_bbbb [nₒ, mₒ, eᵥ, fᵥ], t2_abab [aᵥ, eᵥ, jₒ, mₒ], t2_bbbb [fᵥ, cᵥ, kₒ, lₒ], t2_abab [bᵥ, dᵥ, iₒ, nₒ]], [(1, [aᵥ, bᵥ, cᵥ, dᵥ, iₒ, jₒ, kₒ, lₒ])]⟩,
  -- line 3624: mnef,eajm,bfil,cdkn->abcdijkl
  ⟨-1, [g_abab [mₒ, nₒ, eᵥ, fᵥ], t2_aaaa [eᵥ, aᵥ, jₒ, mₒ], t2_abab [bᵥ, fᵥ, iₒ, lₒ], t2_bbbb [cᵥ, dᵥ, kₒ, nₒ]], [(1, [aᵥ, bᵥ, cᵥ, dᵥ, iₒ, jₒ, kₒ, lₒ])]⟩,
  -- line 3627: nmef,aejm,bfil,cdkn->abcdijkl
  ⟨-1, [g_bbbb [nₒ, mₒ, eᵥ, fᵥ], t2_abab [aᵥ, eᵥ, jₒ, mₒ], t2_abab [bᵥ, fᵥ, iₒ, lₒ], t2_bbbb [cᵥ, dᵥ, kₒ, nₒ]], [(1, [aᵥ, bᵥ, cᵥ, dᵥ, iₒ, jₒ, kₒ, lₒ])]⟩,
  -- line 3630: nmef,eajm,fcil,bdnk->abcdijkl
  ⟨-1, [g_aaaa [nₒ, mₒ, eᵥ, fᵥ], t2_aaaa [eᵥ, aᵥ, jₒ, mₒ], t2_abab [fᵥ, cᵥ, iₒ, lₒ], t2_abab [bᵥ, dᵥ, nₒ, kₒ]], [(1, [aᵥ, bᵥ, cᵥ, dᵥ, iₒ, jₒ, kₒ, lₒ])]⟩,
  -- line 3633: nmfe,aejm,fcil,bdnk->abcdijkl
  ⟨-1, [g_abab [nₒ, mₒ, fᵥ, eᵥ], t2_abab [aᵥ, eᵥ, jₒ, mₒ], t2_abab [fᵥ, cᵥ, iₒ, lₒ], t2_abab [bᵥ, dᵥ, nₒ, kₒ]], [(1, [aᵥ, bᵥ, cᵥ, dᵥ, iₒ, jₒ, kₒ, lₒ])]⟩,
  -- line 3636: mnef,eajm,bfik,cdln->abcdijkl
  ⟨1, [g_abab [mₒ, nₒ, eᵥ, fᵥ], t2_aaaa [eᵥ, aᵥ, jₒ, mₒ], t2_abab [bᵥ, fᵥ, iₒ, kₒ], t2_bbbb [cᵥ, dᵥ, lₒ, nₒ]], [(1, [aᵥ, bᵥ, cᵥ, dᵥ, iₒ, jₒ, kₒ, lₒ]), (-1, [aᵥ, bᵥ, cᵥ, dᵥ, jₒ, iₒ, kₒ, lₒ])]⟩,
  -- line 3640: nmef,aejm,bfik,cdln->abcdijkl
  ⟨1, [g_bbbb [nₒ, mₒ, eᵥ, fᵥ], t2_abab [aᵥ, eᵥ, jₒ, mₒ], t2_abab [bᵥ, fᵥ, iₒ, kₒ], t2_bbbb [cᵥ, dᵥ, lₒ, nₒ]], [(1, [aᵥ, bᵥ, cᵥ, dᵥ, iₒ, jₒ, kₒ, lₒ]), (-1, [aᵥ, bᵥ, cᵥ, dᵥ, jₒ, iₒ, kₒ, lₒ])]⟩,
  -- line 3644: nmef,eajm,fcik,bdnl->abcdijkl
  ⟨1, [g_aaaa [nₒ, mₒ, eᵥ, fᵥ], t2_aaaa [eᵥ, aᵥ, jₒ, mₒ], t2_abab [fᵥ, cᵥ, iₒ, kₒ], t2_abab [bᵥ, dᵥ, nₒ, lₒ]], [(1, [aᵥ, bᵥ, cᵥ, dᵥ, iₒ, jₒ, kₒ, lₒ]), (-1, [aᵥ, bᵥ, cᵥ, dᵥ, jₒ, iₒ, kₒ, lₒ])]⟩,
  -- line 3648: nmfe,aejm,fcik,bdnl->abcdijkl
  ⟨1, [g_abab [nₒ, mₒ, fᵥ, eᵥ], t2_abab [aᵥ, eᵥ, jₒ, mₒ], t2_abab [fᵥ, cᵥ, iₒ, kₒ], t2_abab [bᵥ, dᵥ, nₒ, lₒ]], [(1, [aᵥ, bᵥ, cᵥ, dᵥ, iₒ, jₒ, kₒ, lₒ]), (-1, [aᵥ, bᵥ, cᵥ, dᵥ, jₒ, iₒ, kₒ, lₒ])]⟩,
  -- line 3652: mnef,eajm,fdkl,bcin->abcdijkl
  ⟨-1, [g_abab [mₒ, nₒ, eᵥ, fᵥ], t2_aaaa [eᵥ, aᵥ, jₒ, mₒ], t2_bbbb [fᵥ, dᵥ, kₒ, lₒ], t2_abab [bᵥ, cᵥ, iₒ, nₒ]], [(1, [aᵥ, bᵥ, cᵥ, dᵥ, iₒ, jₒ, kₒ, lₒ]), (-1, [bᵥ, aᵥ, cᵥ, dᵥ, iₒ, jₒ, kₒ, lₒ])]⟩,
  -- line 3656: nmef,aejm,fdkl,bcin->abcdijkl
  ⟨-1, [g_bbbb [nₒ, mₒ, eᵥ, fᵥ], t2_abab [aᵥ, eᵥ, jₒ, mₒ], t2_bbbb [fᵥ, dᵥ, kₒ, lₒ], t2_abab [bᵥ, cᵥ, iₒ, nₒ]], [(1, [aᵥ, bᵥ, cᵥ, dᵥ, iₒ, jₒ, kₒ, lₒ]), (-1, [bᵥ, aᵥ, cᵥ, dᵥ, iₒ, jₒ, kₒ, lₒ])]⟩,
  -- line 3660: nmef,eajm,fdil,bcnk->abcdijkl
  ⟨1, [g_aaaa [nₒ, mₒ, eᵥ, fᵥ], t2_aaaa [eᵥ, aᵥ, jₒ, mₒ], t2_abab [fᵥ, dᵥ, iₒ, lₒ], t2_abab [bᵥ, cᵥ, nₒ, kₒ]], [(1, [aᵥ, bᵥ, cᵥ, dᵥ, iₒ, jₒ, kₒ, lₒ]), (-1, [bᵥ, aᵥ, cᵥ, dᵥ, iₒ, jₒ, kₒ, lₒ])]⟩,
  -- line 3664: nmfe,aejm,fdil,bcnk->abcdijkl
  ⟨1, [g_abab [nₒ, mₒ, fᵥ, eᵥ], t2_abab [aᵥ, eᵥ, jₒ, mₒ], t2_abab [fᵥ, dᵥ, iₒ, lₒ], t2_abab [bᵥ, cᵥ, nₒ, kₒ]], [(1, [aᵥ, bᵥ, cᵥ, dᵥ, iₒ, jₒ, kₒ, lₒ]), (-1, [bᵥ, aᵥ, cᵥ, dᵥ, iₒ, jₒ, kₒ, lₒ])]⟩,
  -- line 3668: nmef,eajm,fdik,bcnl->abcdijkl
  ⟨-1, [g_aaaa [nₒ, mₒ, eᵥ, fᵥ], t2_aaaa [eᵥ, aᵥ, jₒ, mₒ], t2_abab [fᵥ, dᵥ, iₒ, kₒ], t2_abab [bᵥ, cᵥ, nₒ, lₒ]], [(1, [aᵥ, bᵥ, cᵥ, dᵥ, iₒ, jₒ, kₒ, lₒ]), (-1, [aᵥ, bᵥ, cᵥ, dᵥ, jₒ, iₒ, kₒ, lₒ]), (-1, [bᵥ, aᵥ, cᵥ, dᵥ, iₒ, jₒ, kₒ, lₒ]), (1, [bᵥ, aᵥ, cᵥ, dᵥ, jₒ, iₒ, kₒ, lₒ])]⟩,
  -- line 3672: nmfe,aejm,fdik,bcnl->abcdijkl
  ⟨-1, [g_abab [nₒ, mₒ, fᵥ, eᵥ], t2_abab [aᵥ, eᵥ, jₒ, mₒ], t2_abab [fᵥ, dᵥ, iₒ, kₒ], t2_abab [bᵥ, cᵥ, nₒ, lₒ]], [(1, [aᵥ, bᵥ, cᵥ, dᵥ, iₒ, jₒ, kₒ, lₒ]), (-1, [aᵥ, bᵥ, cᵥ, dᵥ, jₒ, iₒ, kₒ, lₒ]), (-1, [bᵥ, aᵥ, cᵥ, dᵥ, iₒ, jₒ, kₒ, lₒ]), (1, [bᵥ, aᵥ, cᵥ, dᵥ, jₒ, iₒ, kₒ, lₒ])]⟩,
  -- line 3676: mnef,eaim,fckl,bdjn->abcdijkl
  ⟨-1, [g_abab [mₒ, nₒ, eᵥ, fᵥ], t2_aaaa [eᵥ, aᵥ, iₒ, mₒ], t2_bbbb [fᵥ, cᵥ, kₒ, lₒ], t2_abab [bᵥ, dᵥ, jₒ, nₒ]], [(1, [aᵥ, bᵥ, cᵥ, dᵥ, iₒ, jₒ, kₒ, lₒ])]⟩,
  -- line 3679: nmef,aeim,fckl,bdjn->abcdijkl
  ⟨-1, [g_bbbb [nₒ, mₒ, eᵥ, fᵥ], t2_abab [aᵥ, eᵥ, iₒ, mₒ], t2_bbbb [fᵥ, cᵥ, kₒ, lₒ], t2_abab [bᵥ, dᵥ, jₒ, nₒ]], [(1, [aᵥ, bᵥ, cᵥ, dᵥ, iₒ, jₒ, kₒ, lₒ])]⟩,
  -- line 3682: mnef,eaim,bfjl,cdkn->abcdijkl
  ⟨1, [g_abab [mₒ, nₒ, eᵥ, fᵥ], t2_aaaa [eᵥ, aᵥ, iₒ, mₒ], t2_abab [bᵥ, fᵥ, jₒ, lₒ], t2_bbbb [cᵥ, dᵥ, kₒ, nₒ]], [(1, [aᵥ, bᵥ, cᵥ, dᵥ, iₒ, jₒ, kₒ, lₒ])]⟩,
  -- line 3685: nmef,aeim,bfjl,cdkn->abcdijkl
  ⟨1, [g_bbbb [nₒ, mₒ, eᵥ, fᵥ], t2_abab [aᵥ, eᵥ, iₒ, mₒ], t2_abab [bᵥ, fᵥ, jₒ, lₒ], t2_bbbb [cᵥ, dᵥ, kₒ, nₒ]], [(1, [aᵥ, bᵥ, cᵥ, dᵥ, iₒ, jₒ, kₒ, lₒ])]⟩
  ]

/-- Part 7 of `ccdq_t4_aabbaabb`. -/
def ccdq_t4_aabbaabb_7 : Prog := [
  -- line 3688: nmef,eaim,fcjl,bdnk->abcdijkl
  ⟨1, [g_aaaa [nₒ, mₒ, eᵥ, fᵥ], t2_aaaa [eᵥ, aᵥ, iₒ, mₒ], t2_abab [fᵥ, cᵥ, jₒ, lₒ], t2_abab [bᵥ, dᵥ, nₒ, kₒ]], [(1, [aᵥ, bᵥ, cᵥ, dᵥ, iₒ, jₒ, kₒ, lₒ])]⟩,
  -- line 3691: nmfe,aeim,fcjl,bdnk->abcdijkl
  ⟨1, [g_abab [nₒ, mₒ, fᵥ, eᵥ], t2_abab [aᵥ, eᵥ, iₒ, mₒ], t2_abab [fᵥ, cᵥ, jₒ, lₒ], t2_abab [bᵥ, dᵥ, nₒ, kₒ]], [(1, [aᵥ, bᵥ, cᵥ, dᵥ, iₒ, jₒ, kₒ, lₒ])]⟩,
  -- line 3694: mnef,eaim,fdkl,bcjn->abcdijkl
  ⟨1, [g_abab [mₒ, nₒ, eᵥ, fᵥ], t2_aaaa [eᵥ, aᵥ, iₒ, mₒ], t2_bbbb [fᵥ, dᵥ, kₒ, lₒ], t2_abab [bᵥ, cᵥ, jₒ, nₒ]], [(1, [aᵥ, bᵥ, cᵥ, dᵥ, iₒ, jₒ, kₒ, lₒ]), (-1, [bᵥ, aᵥ, cᵥ, dᵥ, iₒ, jₒ, kₒ, lₒ])]⟩,
  -- line 3698: nmef,aeim,fdkl,bcjn->abcdijkl
  ⟨1, [g_bbbb [nₒ, mₒ, eᵥ, fᵥ], t2_abab [aᵥ, eᵥ, iₒ, mₒ], t2_bbbb [fᵥ, dᵥ, kₒ, lₒ], t2_abab [bᵥ, cᵥ, jₒ, nₒ]], [(1, [aᵥ, bᵥ, cᵥ, dᵥ, iₒ, jₒ, kₒ, lₒ]), (-1, [bᵥ, aᵥ, cᵥ, dᵥ, iₒ, jₒ, kₒ, lₒ])]⟩,
  -- line 3702: nmef,eaim,fdjl,bcnk->abcdijkl
  ⟨-1, [g_aaaa [nₒ, mₒ, eᵥ, fᵥ], t2_aaaa [eᵥ, aᵥ, iₒ, mₒ], t2_abab [fᵥ, dᵥ, jₒ, lₒ], t2_abab [bᵥ, cᵥ, nₒ, kₒ]], [(1, [aᵥ, bᵥ, cᵥ, dᵥ, iₒ, jₒ, kₒ, lₒ]), (-1, [bᵥ, aᵥ, cᵥ, dᵥ, iₒ, jₒ, kₒ, lₒ])]⟩,
  -- line 3706: nmfe,aeim,fdjl,bcnk->abcdijkl
  ⟨-1, [g_abab [nₒ, mₒ, fᵥ, eᵥ], t2_abab [aᵥ, eᵥ, iₒ, mₒ], t2_abab [fᵥ, dᵥ, jₒ, lₒ], t2_abab [bᵥ, cᵥ, nₒ, kₒ]], [(1, [aᵥ, bᵥ, cᵥ, dᵥ, iₒ, jₒ, kₒ, lₒ]), (-1, [bᵥ, aᵥ, cᵥ, dᵥ, iₒ, jₒ, kₒ, lₒ])]⟩,
  -- line 3710: nmef,aejl,bfik,cdnm->abcdijkl
  ⟨1/2, [g_bbbb [nₒ, mₒ, eᵥ, fᵥ], t2_abab [aᵥ, eᵥ, jₒ, lₒ], t2_abab [bᵥ, fᵥ, iₒ, kₒ], t2_bbbb [cᵥ, dᵥ, nₒ, mₒ]], [(1, [aᵥ, bᵥ, cᵥ, dᵥ, iₒ, jₒ, kₒ, lₒ])]⟩,
  -- line 3713: nmfe,aejl,fcik,bdnm->abcdijkl
  ⟨-1/2, [g_abab [nₒ, mₒ, fᵥ, eᵥ], t2_abab [aᵥ, eᵥ, jₒ, lₒ], t2_abab [fᵥ, cᵥ, iₒ, kₒ], t2_abab [bᵥ, dᵥ, nₒ, mₒ]], [(1, [aᵥ, bᵥ, cᵥ, dᵥ, iₒ, jₒ, kₒ, lₒ])]⟩,
  -- line 3716: mnfe,aejl,fcik,bdmn->abcdijkl
  ⟨-1/2, [g_abab [mₒ, nₒ, fᵥ, eᵥ], t2_abab [aᵥ, eᵥ, jₒ, lₒ], t2_abab [fᵥ, cᵥ, iₒ, kₒ], t2_abab [bᵥ, dᵥ, mₒ, nₒ]], [(1, [aᵥ, bᵥ, cᵥ, dᵥ, iₒ, jₒ, kₒ, lₒ])]⟩,
  -- line 3719: nmfe,aejl,fdik,bcnm->abcdijkl
  ⟨1/2, [g_abab [nₒ, mₒ, fᵥ, eᵥ], t2_abab [aᵥ, eᵥ, jₒ, lₒ], t2_abab [fᵥ, dᵥ, iₒ, kₒ], t2_abab [bᵥ, cᵥ, nₒ, mₒ]], [(1, [aᵥ, bᵥ, cᵥ, dᵥ, iₒ, jₒ, kₒ, lₒ]), (-1, [bᵥ, aᵥ, cᵥ, dᵥ, iₒ, jₒ, kₒ, lₒ])]⟩,
  -- line 3723: mnfe,aejl,fdik,bcmn->abcdijkl
  ⟨1/2, [g_abab [mₒ, nₒ, fᵥ, eᵥ], t2_abab [aᵥ, eᵥ, jₒ, lₒ], t2_abab [fᵥ, dᵥ, iₒ, kₒ], t2_abab [bᵥ, cᵥ, mₒ, nₒ]], [(1, [aᵥ, bᵥ, cᵥ, dᵥ, iₒ, jₒ, kₒ, lₒ]), (-1, [bᵥ, aᵥ, cᵥ, dᵥ, iₒ, jₒ, kₒ, lₒ])]⟩,
  -- line 3727: mnfe,aejl,fcmk,bdin->abcdijkl
  ⟨1, [g_abab [mₒ, nₒ, fᵥ, eᵥ], t2_abab [aᵥ, eᵥ, jₒ, lₒ], t2_abab [fᵥ, cᵥ, mₒ, kₒ], t2_abab [bᵥ, dᵥ, iₒ, nₒ]], [(1, [aᵥ, bᵥ, cᵥ, dᵥ, iₒ, jₒ, kₒ, lₒ])]⟩,
  -- line 3730: nmef,aejl,fckm,bdin->abcdijkl
  ⟨-1, [g_bbbb [nₒ, mₒ, eᵥ, fᵥ], t2_abab [aᵥ, eᵥ, jₒ, lₒ], t2_bbbb [fᵥ, cᵥ, kₒ, mₒ], t2_abab [bᵥ, dᵥ, iₒ, nₒ]], [(1, [aᵥ, bᵥ, cᵥ, dᵥ, iₒ, jₒ, kₒ, lₒ])]⟩,
  -- line 3733: mnfe,aejl,fbim,cdkn->abcdijkl
  ⟨-1, [g_abab [mₒ, nₒ, fᵥ, eᵥ], t2_abab [aᵥ, eᵥ, jₒ, lₒ], t2_aaaa [fᵥ, bᵥ, iₒ, mₒ], t2_bbbb [cᵥ, dᵥ, kₒ, nₒ]], [(1, [aᵥ, bᵥ, cᵥ, dᵥ, iₒ, jₒ, kₒ, lₒ])]⟩,
  -- line 3736: nmef,aejl,bfim,cdkn->abcdijkl
  ⟨1, [g_bbbb [nₒ, mₒ, eᵥ, fᵥ], t2_abab [aᵥ, eᵥ, jₒ, lₒ], t2_abab [bᵥ, fᵥ, iₒ, mₒ], t2_bbbb [cᵥ, dᵥ, kₒ, nₒ]], [(1, [aᵥ, bᵥ, cᵥ, dᵥ, iₒ, jₒ, kₒ, lₒ])]⟩,
  -- line 3739: nmfe,aejl,fcim,bdnk->abcdijkl
  ⟨1, [g_abab [nₒ, mₒ, fᵥ, eᵥ], t2_abab [aᵥ, eᵥ, jₒ, lₒ], t2_abab [fᵥ, cᵥ, iₒ, mₒ], t2_abab [bᵥ, dᵥ, nₒ, kₒ]], [(1, [aᵥ, bᵥ, cᵥ, dᵥ, iₒ, jₒ, kₒ, lₒ])]⟩,
  -- line 3742: mnfe,aejl,fdmk,bcin->abcdijkl
  ⟨-1, [g_abab [mₒ, nₒ, fᵥ, eᵥ], t2_abab [aᵥ, eᵥ, jₒ, lₒ], t2_abab [fᵥ, dᵥ, mₒ, kₒ], t2_abab [bᵥ, cᵥ, iₒ, nₒ]], [(1, [aᵥ, bᵥ, cᵥ, dᵥ, iₒ, jₒ, kₒ, lₒ]), (-1, [bᵥ, aᵥ, cᵥ, dᵥ, iₒ, jₒ, kₒ, lₒ])]⟩,
  -- line 3746: nmef,aejl,fdkm,bcin->abcdijkl
  ⟨1, [g_bbbb [nₒ, mₒ, eᵥ, fᵥ], t2_abab [aᵥ, eᵥ, jₒ, lₒ], t2_bbbb [fᵥ, dᵥ, kₒ, mₒ], t2_abab [bᵥ, cᵥ, iₒ, nₒ]], [(1, [aᵥ, bᵥ, cᵥ, dᵥ, iₒ, jₒ, kₒ, lₒ]), (-1, [bᵥ, aᵥ, cᵥ, dᵥ, iₒ, jₒ, kₒ, lₒ])]⟩,
  -- line 3750: nmfe,aejl,fdim,bcnk->abcdijkl
  ⟨-1, [g_abab [nₒ, mₒ, fᵥ, eᵥ], t2_abab [aᵥ, eᵥ, jₒ, lₒ], t2_abab [fᵥ, dᵥ, iₒ, mₒ], t2_abab [bᵥ, cᵥ, nₒ, kₒ]], [(1, [aᵥ, bᵥ, cᵥ, dᵥ, iₒ, jₒ, kₒ, lₒ]), (-1, [bᵥ, aᵥ, cᵥ, dᵥ, iₒ, jₒ, kₒ, lₒ])]⟩,
  -- line 3754: mnfe,aeil,fcmk,bdjn->abcdijkl
  ⟨-1, [g_abab [mₒ, nₒ, fᵥ, eᵥ], t2_abab [aᵥ, eᵥ, iₒ, lₒ], t2_abab [fᵥ, cᵥ, mₒ, kₒ], t2_abab [bᵥ, dᵥ, jₒ, nₒ]], [(1, [aᵥ, bᵥ, cᵥ, dᵥ, iₒ, jₒ, kₒ, lₒ])]⟩,
  -- line 3757: nmef,aeil,fckm,bdjn->abcdijkl
  ⟨1, [g_bbbb [nₒ, mₒ, eᵥ, fᵥ], t2_abab [aᵥ, eᵥ, iₒ, lₒ], t2_bbbb [fᵥ, cᵥ, kₒ, mₒ], t2_abab [bᵥ, dᵥ, jₒ, nₒ]], [(1, [aᵥ, bᵥ, cᵥ, dᵥ, iₒ, jₒ, kₒ, lₒ])]⟩,
  -- line 3760: mnfe,aeil,fbjm,cdkn->abcdijkl
  ⟨1, [g_abab [mₒ, nₒ, fᵥ, eᵥ], t2_abab [aᵥ, eᵥ, iₒ, lₒ], t2_aaaa [fᵥ, bᵥ, jₒ, mₒ], t2_bbbb [cᵥ, dᵥ, kₒ, nₒ]], [(1, [aᵥ, bᵥ, cᵥ, dᵥ, iₒ, jₒ, kₒ, lₒ])]⟩,
  -- line 3763: nmef,aeil,bfjm,cdkn->abcdijkl
  ⟨-1, [g_bbbb [nₒ, mₒ, eᵥ, fᵥ], t2_abab [aᵥ, eᵥ, iₒ, lₒ], t2_abab [bᵥ, fᵥ, jₒ, mₒ], t2_bbbb [cᵥ, dᵥ, kₒ, nₒ]], [(1, [aᵥ, bᵥ, cᵥ, dᵥ, iₒ, jₒ, kₒ, lₒ])]⟩,
  -- line 3766: nmfe,aeil,fcjm,bdnk->abcdijkl
  ⟨-1, [g_abab [nₒ, mₒ, fᵥ, eᵥ], t2_abab [aᵥ, eᵥ, iₒ, lₒ], t2_abab [fᵥ, cᵥ, jₒ, mₒ], t2_abab [bᵥ, dᵥ, nₒ, kₒ]], [(1, [aᵥ, bᵥ, cᵥ, dᵥ, iₒ, jₒ, kₒ, lₒ])]⟩,
  -- line 3769: nmef,aeil,bfjk,cdnm->abcdijkl
  ⟨-1/2, [g_bbbb [nₒ, mₒ, eᵥ, fᵥ], t2_abab [aᵥ, eᵥ, iₒ, lₒ], t2_abab [bᵥ, fᵥ, jₒ, kₒ], t2_bbbb [cᵥ, dᵥ, nₒ, mₒ]], [(1, [aᵥ, bᵥ, cᵥ, dᵥ, iₒ, jₒ, kₒ, lₒ]), (-1, [aᵥ, bᵥ, cᵥ, dᵥ, iₒ, jₒ, lₒ, kₒ])]⟩,
  -- line 3773: nmfe,aeil,fcjk,bdnm->abcdijkl
  ⟨1/2, [g_abab [nₒ, mₒ, fᵥ, eᵥ], t2_abab [aᵥ, eᵥ, iₒ, lₒ], t2_abab [fᵥ, cᵥ, jₒ, kₒ], t2_abab [bᵥ, dᵥ, nₒ, mₒ]], [(1, [aᵥ, bᵥ, cᵥ, dᵥ, iₒ, jₒ, kₒ, lₒ]), (-1, [aᵥ, bᵥ, cᵥ, dᵥ, iₒ, jₒ, lₒ, kₒ])]⟩,
  -- line 3777: mnfe,aeil,fcjk,bdmn->abcdijkl
  ⟨1/2, [g_abab [mₒ, nₒ, fᵥ, eᵥ], t2_abab [aᵥ, eᵥ, iₒ, lₒ], t2_abab [fᵥ, cᵥ, jₒ, kₒ], t2_abab [bᵥ, dᵥ, mₒ, nₒ]], [(1, [aᵥ, bᵥ, cᵥ, dᵥ, iₒ, jₒ, kₒ, lₒ]), (-1, [aᵥ, bᵥ, cᵥ, dᵥ, iₒ, jₒ, lₒ, kₒ])]⟩,
  -- line 3781: mnfe,aeil,fdmk,bcjn->abcdijkl
  ⟨1, [g_abab [mₒ, nₒ, fᵥ, eᵥ], t2_abab [aᵥ, eᵥ, iₒ, lₒ], t2_abab [fᵥ, dᵥ, mₒ, kₒ], t2_abab [bᵥ, cᵥ, jₒ, nₒ]], [(1, [aᵥ, bᵥ, cᵥ, dᵥ, iₒ, jₒ, kₒ, lₒ]), (-1, [bᵥ, aᵥ, cᵥ, dᵥ, iₒ, jₒ, kₒ, lₒ])]⟩,
  -- line 3785: nmef,aeil,fdkm,bcjn->abcdijkl
  ⟨-1, [g_bbbb [nₒ, mₒ, eᵥ, fᵥ], t2_abab [aᵥ, eᵥ, iₒ, lₒ], t2_bbbb [fᵥ, dᵥ, kₒ, mₒ], t2_abab [bᵥ, cᵥ, jₒ, nₒ]], [(1, [aᵥ, bᵥ, cᵥ, dᵥ, iₒ, jₒ, kₒ, lₒ]), (-1, [bᵥ, aᵥ, cᵥ, dᵥ, iₒ, jₒ, kₒ, lₒ])]⟩,
  -- line 3789: nmfe,aeil,fdjm,bcnk->abcdijkl
  ⟨1, [g_abab [nₒ, mₒ, fᵥ, eᵥ], t2_abab [aᵥ, eᵥ, iₒ, lₒ], t2_abab [fᵥ, dᵥ, jₒ, mₒ], t2_abab [bᵥ, cᵥ, nₒ, kₒ]], [(1, [aᵥ, bᵥ, cᵥ, dᵥ, iₒ, jₒ, kₒ, lₒ]), (-1, [bᵥ, aᵥ, cᵥ, dᵥ, iₒ, jₒ, kₒ, lₒ])]⟩,
  -- line 3793: nmfe,aeil,fdjk,bcnm->abcdijkl
  ⟨-1/2, [g_abab [nₒ, mₒ, fᵥ, eᵥ], t2_abab [aᵥ, eᵥ, iₒ, lₒ], t2_abab [fᵥ, dᵥ, jₒ, kₒ], t2_abab [bᵥ, cᵥ, nₒ, mₒ]], [(1, [aᵥ, bᵥ, cᵥ, dᵥ, iₒ, jₒ, kₒ, lₒ]), (-1, [aᵥ, bᵥ, cᵥ, dᵥ, iₒ, jₒ, lₒ, kₒ]), (-1, [bᵥ, aᵥ, cᵥ, dᵥ, iₒ, jₒ, kₒ, lₒ]), (1, [bᵥ, aᵥ, cᵥ, dᵥ, iₒ, jₒ, lₒ, kₒ])]⟩,
  -- line 3797: mnfe,aeil,fdjk,bcmn->abcdijkl
  ⟨-1/2, [g_abab [mₒ, nₒ, fᵥ, eᵥ], t2_abab [aᵥ, eᵥ, iₒ, lₒ], t2_abab [fᵥ, dᵥ, jₒ, kₒ], t2_abab [bᵥ, cᵥ, mₒ, nₒ]], [(1, [aᵥ, bᵥ, cᵥ, dᵥ, iₒ, jₒ, kₒ, lₒ]), (-1, [aᵥ, bᵥ, cᵥ, dᵥ, iₒ, jₒ, lₒ, kₒ]), (-1, [bᵥ, aᵥ, cᵥ, dᵥ, iₒ, jₒ, kₒ, lₒ]), (1, [bᵥ, aᵥ, cᵥ, dᵥ, iₒ, jₒ, lₒ, kₒ])]⟩,
  -- line 3801: mnfe,aejk,fcml,bdin->abcdijkl
  ⟨-1, [g_abab [mₒ, nₒ, fᵥ, eᵥ], t2_abab [aᵥ, eᵥ, jₒ, kₒ], t2_abab [fᵥ, cᵥ, mₒ, lₒ], t2_abab [bᵥ, dᵥ, iₒ, nₒ]], [(1, [aᵥ, bᵥ, cᵥ, dᵥ, iₒ, jₒ, kₒ, lₒ])]⟩,
  -- line 3804: nmef,aejk,fclm,bdin->abcdijkl
  ⟨1, [g_bbbb [nₒ, mₒ, eᵥ, fᵥ], t2_abab [aᵥ, eᵥ, jₒ, kₒ], t2_bbbb [fᵥ, cᵥ, lₒ, mₒ], t2_abab [bᵥ, dᵥ, iₒ, nₒ]], [(1, [aᵥ, bᵥ, cᵥ, dᵥ, iₒ, jₒ, kₒ, lₒ])]⟩,
  -- line 3807: mnfe,aejk,fbim,cdln->abcdijkl
  ⟨1, [g_abab [mₒ, nₒ, fᵥ, eᵥ], t2_abab [aᵥ, eᵥ, jₒ, kₒ], t2_aaaa [fᵥ, bᵥ, iₒ, mₒ], t2_bbbb [cᵥ, dᵥ, lₒ, nₒ]], [(1, [aᵥ, bᵥ, cᵥ, dᵥ, iₒ, jₒ, kₒ, lₒ])]⟩,
  -- line 3810: nmef,aejk,bfim,cdln->abcdijkl
  ⟨-1, [g_bbbb [nₒ, mₒ, eᵥ, fᵥ], t2_abab [aᵥ, eᵥ, jₒ, kₒ], t2_abab [bᵥ, fᵥ, iₒ, mₒ], t2_bbbb [cᵥ, dᵥ, lₒ, nₒ]], [(1, [aᵥ, bᵥ, cᵥ, dᵥ, iₒ, jₒ, kₒ, lₒ])]⟩,
  -- line 3813: nmfe,aejk,fcim,bdnl->abcdijkl
  ⟨-1, [g_abab [nₒ, mₒ, fᵥ, eᵥ], t2_abab [aᵥ, eᵥ, jₒ, kₒ], t2_abab [fᵥ, cᵥ, iₒ, mₒ], t2_abab [bᵥ, dᵥ, nₒ, lₒ]], [(1, [aᵥ, bᵥ, cᵥ, dᵥ, iₒ, jₒ, kₒ, lₒ])]⟩,
  -- line 3816: nmef,aejk,bfil,cdnm->abcdijkl
  ⟨-1/2, [g_bbbb [nₒ, mₒ, eᵥ, fᵥ], t2_abab [aᵥ, eᵥ, jₒ, kₒ], t2_abab [bᵥ, fᵥ, iₒ, lₒ], t2_bbbb [cᵥ, dᵥ, nₒ, mₒ]], [(1, [aᵥ, bᵥ, cᵥ, dᵥ, iₒ, jₒ, kₒ, lₒ])]⟩,
  -- line 3819: nmfe,aejk,fcil,bdnm->abcdijkl
  ⟨1/2, [g_abab [nₒ, mₒ, fᵥ, eᵥ], t2_abab [aᵥ, eᵥ, jₒ, kₒ], t2_abab [fᵥ, cᵥ, iₒ, lₒ], t2_abab [bᵥ, dᵥ, nₒ, mₒ]], [(1, [aᵥ, bᵥ, cᵥ, dᵥ, iₒ, jₒ, kₒ, lₒ])]⟩,
  -- line 3822: mnfe,aejk,fcil,bdmn->abcdijkl
  ⟨1/2, [g_abab [mₒ, nₒ, fᵥ, eᵥ], t2_abab [aᵥ, eᵥ, jₒ, kₒ], t2_abab [fᵥ, cᵥ, iₒ, lₒ], t2_abab [bᵥ, dᵥ, mₒ, nₒ]], [(1, [aᵥ, bᵥ, cᵥ, dᵥ, iₒ, jₒ, kₒ, lₒ])]⟩
  ]

/-- Part 8 of `ccdq_t4_aabbaabb`. -/
def ccdq_t4_aabbaabb_8 : Prog := [
  -- line 3825: nmef,eaji,fckl,bdnm->abcdijkl
  ⟨-1/2, [g_abab [nₒ, mₒ, eᵥ, fᵥ], t2_aaaa [eᵥ, aᵥ, jₒ, iₒ], t2_bbbb [fᵥ, cᵥ, kₒ, lₒ], t2_abab [bᵥ, dᵥ, nₒ, mₒ]], [(1, [aᵥ, bᵥ, cᵥ, dᵥ, iₒ, jₒ, kₒ, lₒ])]⟩,
  -- line 3828: mnef,eaji,fckl,bdmn->abcdijkl
  ⟨-1/2, [g_abab [mₒ, nₒ, eᵥ, fᵥ], t2_aaaa [eᵥ, aᵥ, jₒ, iₒ], t2_bbbb [fᵥ, cᵥ, kₒ, lₒ], t2_abab [bᵥ, dᵥ, mₒ, nₒ]], [(1, [aᵥ, bᵥ, cᵥ, dᵥ, iₒ, jₒ, kₒ, lₒ])]⟩,
  -- line 3831: mnfe,aejk,fdml,bcin->abcdijkl
  ⟨1, [g_abab [mₒ, nₒ, fᵥ, eᵥ], t2_abab [aᵥ, eᵥ, jₒ, kₒ], t2_abab [fᵥ, dᵥ, mₒ, lₒ], t2_abab [bᵥ, cᵥ, iₒ, nₒ]], [(1, [aᵥ, bᵥ, cᵥ, dᵥ, iₒ, jₒ, kₒ, lₒ]), (-1, [bᵥ, aᵥ, cᵥ, dᵥ, iₒ, jₒ, kₒ, lₒ])]⟩,
  -- line 3835: nmef,aejk,fdlm,bcin->abcdijkl
  ⟨-1, [g_bbbb [nₒ, mₒ, eᵥ, fᵥ], t2_abab [aᵥ, eᵥ, jₒ, kₒ], t2_bbbb [fᵥ, dᵥ, lₒ, mₒ], t2_abab [bᵥ, cᵥ, iₒ, nₒ]], [(1, [aᵥ, bᵥ, cᵥ, dᵥ, iₒ, jₒ, kₒ, lₒ]), (-1, [bᵥ, aᵥ, cᵥ, dᵥ, iₒ, jₒ, kₒ, lₒ])]⟩,
  -- line 3839: nmfe,aejk,fdim,bcnl->abcdijkl
  ⟨1, [g_abab [nₒ, mₒ, fᵥ, eᵥ], t2_abab [aᵥ, eᵥ, jₒ, kₒ], t2_abab [fᵥ, dᵥ, iₒ, mₒ], t2_abab [bᵥ, cᵥ, nₒ, lₒ]], [(1, [aᵥ, bᵥ, cᵥ, dᵥ, iₒ, jₒ, kₒ, lₒ]), (-1, [bᵥ, aᵥ, cᵥ, dᵥ, iₒ, jₒ, kₒ, lₒ])]⟩,
  -- line 3843: nmfe,aejk,fdil,bcnm->abcdijkl
  ⟨-1/2, [g_abab [nₒ, mₒ, fᵥ, eᵥ], t2_abab [aᵥ, eᵥ, jₒ, kₒ], t2_abab [fᵥ, dᵥ, iₒ, lₒ], t2_abab [bᵥ, cᵥ, nₒ, mₒ]], [(1, [aᵥ, bᵥ, cᵥ, dᵥ, iₒ, jₒ, kₒ, lₒ]), (-1, [bᵥ, aᵥ, cᵥ, dᵥ, iₒ, jₒ, kₒ, lₒ])]⟩,
  -- line 3847: mnfe,aejk,fdil,bcmn->abcdijkl
  ⟨-1/2, [g_abab [mₒ, nₒ, fᵥ, eᵥ], t2_abab [aᵥ, eᵥ, jₒ, kₒ], t2_abab [fᵥ, dᵥ, iₒ, lₒ], t2_abab [bᵥ, cᵥ, mₒ, nₒ]], [(1, [aᵥ, bᵥ, cᵥ, dᵥ, iₒ, jₒ, kₒ, lₒ]), (-1, [bᵥ, aᵥ, cᵥ, dᵥ, iₒ, jₒ, kₒ, lₒ])]⟩,
  -- line 3851: nmef,eaji,fdkl,bcnm->abcdijkl
  ⟨1/2, [g_abab [nₒ, mₒ, eᵥ, fᵥ], t2_aaaa [eᵥ, aᵥ, jₒ, iₒ], t2_bbbb [fᵥ, dᵥ, kₒ, lₒ], t2_abab [bᵥ, cᵥ, nₒ, mₒ]], [(1, [aᵥ, bᵥ, cᵥ, dᵥ, iₒ, jₒ, kₒ, lₒ]), (-1, [bᵥ, aᵥ, cᵥ, dᵥ, iₒ, jₒ, kₒ, lₒ])]⟩,
  -- line 3855: mnef,eaji,fdkl,bcmn->abcdijkl
  ⟨1/2, [g_abab [mₒ, nₒ, eᵥ, fᵥ], t2_aaaa [eᵥ, aᵥ, jₒ, iₒ], t2_bbbb [fᵥ, dᵥ, kₒ, lₒ], t2_abab [bᵥ, cᵥ, mₒ, nₒ]], [(1, [aᵥ, bᵥ, cᵥ, dᵥ, iₒ, jₒ, kₒ, lₒ]), (-1, [bᵥ, aᵥ, cᵥ, dᵥ, iₒ, jₒ, kₒ, lₒ])]⟩,
  -- line 3859: mnfe,aeik,fcml,bdjn->abcdijkl
  ⟨1, [g_abab [mₒ, nₒ, fᵥ, eᵥ], t2_abab [aᵥ, eᵥ, iₒ, kₒ], t2_abab [fᵥ, cᵥ, mₒ, lₒ], t2_abab [bᵥ, dᵥ, jₒ, nₒ]], [(1, [aᵥ, bᵥ, cᵥ, dᵥ, iₒ, jₒ, kₒ, lₒ])]⟩,
  -- line 3862: nmef,aeik,fclm,bdjn->abcdijkl
  ⟨-1, [g_bbbb [nₒ, mₒ, eᵥ, fᵥ], t2_abab [aᵥ, eᵥ, iₒ, kₒ], t2_bbbb [fᵥ, cᵥ, lₒ, mₒ], t2_abab [bᵥ, dᵥ, jₒ, nₒ]], [(1, [aᵥ, bᵥ, cᵥ, dᵥ, iₒ, jₒ, kₒ, lₒ])]⟩,
  -- line 3865: mnfe,aeik,fbjm,cdln->abcdijkl
  ⟨-1, [g_abab [mₒ, nₒ, fᵥ, eᵥ], t2_abab [aᵥ, eᵥ, iₒ, kₒ], t2_aaaa [fᵥ, bᵥ, jₒ, mₒ], t2_bbbb [cᵥ, dᵥ, lₒ, nₒ]], [(1, [aᵥ, bᵥ, cᵥ, dᵥ, iₒ, jₒ, kₒ, lₒ])]⟩,
  -- line 3868: nmef,aeik,bfjm,cdln->abcdijkl
  ⟨1, [g_bbbb [nₒ, mₒ, eᵥ, fᵥ], t2_abab [aᵥ, eᵥ, iₒ, kₒ], t2_abab [bᵥ, fᵥ, jₒ, mₒ], t2_bbbb [cᵥ, dᵥ, lₒ, nₒ]], [(1, [aᵥ, bᵥ, cᵥ, dᵥ, iₒ, jₒ, kₒ, lₒ])]⟩,
  -- line 3871: nmfe,aeik,fcjm,bdnl->abcdijkl
  ⟨1, [g_abab [nₒ, mₒ, fᵥ, eᵥ], t2_abab [aᵥ, eᵥ, iₒ, kₒ], t2_abab [fᵥ, cᵥ, jₒ, mₒ], t2_abab [bᵥ, dᵥ, nₒ, lₒ]], [(1, [aᵥ, bᵥ, cᵥ, dᵥ, iₒ, jₒ, kₒ, lₒ])]⟩,
  -- line 3874: mnfe,aeik,fdml,bcjn->abcdijkl
  ⟨-1, [g_abab [mₒ, nₒ, fᵥ, eᵥ], t2_abab [aᵥ, eᵥ, iₒ, kₒ], t2_abab [fᵥ, dᵥ, mₒ, lₒ], t2_abab [bᵥ, cᵥ, jₒ, nₒ]], [(1, [aᵥ, bᵥ, cᵥ, dᵥ, iₒ, jₒ, kₒ, lₒ]), (-1, [bᵥ, aᵥ, cᵥ, dᵥ, iₒ, jₒ, kₒ, lₒ])]⟩,
  -- line 3878: nmef,aeik,fdlm,bcjn->abcdijkl
  ⟨1, [g_bbbb [nₒ, mₒ, eᵥ, fᵥ], t2_abab [aᵥ, eᵥ, iₒ, kₒ], t2_bbbb [fᵥ, dᵥ, lₒ, mₒ], t2_abab [bᵥ, cᵥ, jₒ, nₒ]], [(1, [aᵥ, bᵥ, cᵥ, dᵥ, iₒ, jₒ, kₒ, lₒ]), (-1, [bᵥ, aᵥ, cᵥ, dᵥ, iₒ, jₒ, kₒ, lₒ])]⟩,
  -- line 3882: nmfe,aeik,fdjm,bcnl->abcdijkl
  ⟨-1, [g_abab [nₒ, mₒ, fᵥ, eᵥ], t2_abab [aᵥ, eᵥ, iₒ, kₒ], t2_abab [fᵥ, dᵥ, jₒ, mₒ], t2_abab [bᵥ, cᵥ, nₒ, lₒ]], [(1, [aᵥ, bᵥ, cᵥ, dᵥ, iₒ, jₒ, kₒ, lₒ]), (-1, [bᵥ, aᵥ, cᵥ, dᵥ, iₒ, jₒ, kₒ, lₒ])]⟩,
  -- line 3886: mnef,eaij,bfml,cdkn->abcdijkl
  ⟨-1, [g_abab [mₒ, nₒ, eᵥ, fᵥ], t2_aaaa [eᵥ, aᵥ, iₒ, jₒ], t2_abab [bᵥ, fᵥ, mₒ, lₒ], t2_bbbb [cᵥ, dᵥ, kₒ, nₒ]], [(1, [aᵥ, bᵥ, cᵥ, dᵥ, iₒ, jₒ, kₒ, lₒ]), (-1, [aᵥ, bᵥ, cᵥ, dᵥ, iₒ, jₒ, lₒ, kₒ])]⟩,
  -- line 3890: nmef,eaij,fcml,bdnk->abcdijkl
  ⟨-1, [g_aaaa [nₒ, mₒ, eᵥ, fᵥ], t2_aaaa [eᵥ, aᵥ, iₒ, jₒ], t2_abab [fᵥ, cᵥ, mₒ, lₒ], t2_abab [bᵥ, dᵥ, nₒ, kₒ]], [(1, [aᵥ, bᵥ, cᵥ, dᵥ, iₒ, jₒ, kₒ, lₒ]), (-1, [aᵥ, bᵥ, cᵥ, dᵥ, iₒ, jₒ, lₒ, kₒ])]⟩,
  -- line 3894: nmef,eaij,fclm,bdnk->abcdijkl
  ⟨1, [g_abab [nₒ, mₒ, eᵥ, fᵥ], t2_aaaa [eᵥ, aᵥ, iₒ, jₒ], t2_bbbb [fᵥ, cᵥ, lₒ, mₒ], t2_abab [bᵥ, dᵥ, nₒ, kₒ]], [(1, [aᵥ, bᵥ, cᵥ, dᵥ, iₒ, jₒ, kₒ, lₒ]), (-1, [aᵥ, bᵥ, cᵥ, dᵥ, iₒ, jₒ, lₒ, kₒ])]⟩,
  -- line 3898: nmef,eaij,fdml,bcnk->abcdijkl
  ⟨1, [g_aaaa [nₒ, mₒ, eᵥ, fᵥ], t2_aaaa [eᵥ, aᵥ, iₒ, jₒ], t2_abab [fᵥ, dᵥ, mₒ, lₒ], t2_abab [bᵥ, cᵥ, nₒ, kₒ]], [(1, [aᵥ, bᵥ, cᵥ, dᵥ, iₒ, jₒ, kₒ, lₒ]), (-1, [aᵥ, bᵥ, cᵥ, dᵥ, iₒ, jₒ, lₒ, kₒ]), (-1, [bᵥ, aᵥ, cᵥ, dᵥ, iₒ, jₒ, kₒ, lₒ]), (1, [bᵥ, aᵥ, cᵥ, dᵥ, iₒ, jₒ, lₒ, kₒ])]⟩,
  -- line 3902: nmef,eaij,fdlm,bcnk->abcdijkl
  ⟨-1, [g_abab [nₒ, mₒ, eᵥ, fᵥ], t2_aaaa [eᵥ, aᵥ, iₒ, jₒ], t2_bbbb [fᵥ, dᵥ, lₒ, mₒ], t2_abab [bᵥ, cᵥ, nₒ, kₒ]], [(1, [aᵥ, bᵥ, cᵥ, dᵥ, iₒ, jₒ, kₒ, lₒ]), (-1, [aᵥ, bᵥ, cᵥ, dᵥ, iₒ, jₒ, lₒ, kₒ]), (-1, [bᵥ, aᵥ, cᵥ, dᵥ, iₒ, jₒ, kₒ, lₒ]), (1, [bᵥ, aᵥ, cᵥ, dᵥ, iₒ, jₒ, lₒ, kₒ])]⟩,
  -- line 3906: mnfe,beml,fcjk,adin->abcdijkl
  ⟨1, [g_abab [mₒ, nₒ, fᵥ, eᵥ], t2_abab [bᵥ, eᵥ, mₒ, lₒ], t2_abab [fᵥ, cᵥ, jₒ, kₒ], t2_abab [aᵥ, dᵥ, iₒ, nₒ]], [(1, [aᵥ, bᵥ, cᵥ, dᵥ, iₒ, jₒ, kₒ, lₒ]), (-1, [aᵥ, bᵥ, cᵥ, dᵥ, jₒ, iₒ, kₒ, lₒ])]⟩,
  -- line 3910: mnfe,bemk,fcjl,adin->abcdijkl
  ⟨-1, [g_abab [mₒ, nₒ, fᵥ, eᵥ], t2_abab [bᵥ, eᵥ, mₒ, kₒ], t2_abab [fᵥ, cᵥ, jₒ, lₒ], t2_abab [aᵥ, dᵥ, iₒ, nₒ]], [(1, [aᵥ, bᵥ, cᵥ, dᵥ, iₒ, jₒ, kₒ, lₒ]), (-1, [aᵥ, bᵥ, cᵥ, dᵥ, jₒ, iₒ, kₒ, lₒ])]⟩,
  -- line 3914: mnef,ebjm,fckl,adin->abcdijkl
  ⟨-1, [g_abab [mₒ, nₒ, eᵥ, fᵥ], t2_aaaa [eᵥ, bᵥ, jₒ, mₒ], t2_bbbb [fᵥ, cᵥ, kₒ, lₒ], t2_abab [aᵥ, dᵥ, iₒ, nₒ]], [(1, [aᵥ, bᵥ, cᵥ, dᵥ, iₒ, jₒ, kₒ, lₒ])]⟩,
  -- line 3917: nmef,bejm,fckl,adin->abcdijkl
  ⟨-1, [g_bbbb [nₒ, mₒ, eᵥ, fᵥ], t2_abab [bᵥ, eᵥ, jₒ, mₒ], t2_bbbb [fᵥ, cᵥ, kₒ, lₒ], t2_abab [aᵥ, dᵥ, iₒ, nₒ]], [(1, [aᵥ, bᵥ, cᵥ, dᵥ, iₒ, jₒ, kₒ, lₒ])]⟩,
  -- line 3920: nmef,ebjm,fcil,adnk->abcdijkl
  ⟨1, [g_aaaa [nₒ, mₒ, eᵥ, fᵥ], t2_aaaa [eᵥ, bᵥ, jₒ, mₒ], t2_abab [fᵥ, cᵥ, iₒ, lₒ], t2_abab [aᵥ, dᵥ, nₒ, kₒ]], [(1, [aᵥ, bᵥ, cᵥ, dᵥ, iₒ, jₒ, kₒ, lₒ])]⟩,
  -- line 3923: nmfe,bejm,fcil,adnk->abcdijkl
  ⟨1, [g_abab [nₒ, mₒ, fᵥ, eᵥ], t2_abab [bᵥ, eᵥ, jₒ, mₒ], t2_abab [fᵥ, cᵥ, iₒ, lₒ], t2_abab [aᵥ, dᵥ, nₒ, kₒ]], [(1, [aᵥ, bᵥ, cᵥ, dᵥ, iₒ, jₒ, kₒ, lₒ])]⟩,
  -- line 3926: nmef,ebjm,fcik,adnl->abcdijkl
  ⟨-1, [g_aaaa [nₒ, mₒ, eᵥ, fᵥ], t2_aaaa [eᵥ, bᵥ, jₒ, mₒ], t2_abab [fᵥ, cᵥ, iₒ, kₒ], t2_abab [aᵥ, dᵥ, nₒ, lₒ]], [(1, [aᵥ, bᵥ, cᵥ, dᵥ, iₒ, jₒ, kₒ, lₒ]), (-1, [aᵥ, bᵥ, cᵥ, dᵥ, jₒ, iₒ, kₒ, lₒ])]⟩,
  -- line 3930: nmfe,bejm,fcik,adnl->abcdijkl
  ⟨-1, [g_abab [nₒ, mₒ, fᵥ, eᵥ], t2_abab [bᵥ, eᵥ, jₒ, mₒ], t2_abab [fᵥ, cᵥ, iₒ, kₒ], t2_abab [aᵥ, dᵥ, nₒ, lₒ]], [(1, [aᵥ, bᵥ, cᵥ, dᵥ, iₒ, jₒ, kₒ, lₒ]), (-1, [aᵥ, bᵥ, cᵥ, dᵥ, jₒ, iₒ, kₒ, lₒ])]⟩,
  -- line 3934: mnef,ebim,fckl,adjn->abcdijkl
  ⟨1, [g_abab [mₒ, nₒ, eᵥ, fᵥ], t2_aaaa [eᵥ, bᵥ, iₒ, mₒ], t2_bbbb [fᵥ, cᵥ, kₒ, lₒ], t2_abab [aᵥ, dᵥ, jₒ, nₒ]], [(1, [aᵥ, bᵥ, cᵥ, dᵥ, iₒ, jₒ, kₒ, lₒ])]⟩,
  -- line 3937: nmef,beim,fckl,adjn->abcdijkl
  ⟨1, [g_bbbb [nₒ, mₒ, eᵥ, fᵥ], t2_abab [bᵥ, eᵥ, iₒ, mₒ], t2_bbbb [fᵥ, cᵥ, kₒ, lₒ], t2_abab [aᵥ, dᵥ, jₒ, nₒ]], [(1, [aᵥ, bᵥ, cᵥ, dᵥ, iₒ, jₒ, kₒ, lₒ])]⟩,
  -- line 3940: nmef,ebim,fcjl,adnk->abcdijkl
  ⟨-1, [g_aaaa [nₒ, mₒ, eᵥ, fᵥ], t2_aaaa [eᵥ, bᵥ, iₒ, mₒ], t2_abab [fᵥ, cᵥ, jₒ, lₒ], t2_abab [aᵥ, dᵥ, nₒ, kₒ]], [(1, [aᵥ, bᵥ, cᵥ, dᵥ, iₒ, jₒ, kₒ, lₒ])]⟩,
  -- line 3943: nmfe,beim,fcjl,adnk->abcdijkl
  ⟨-1, [g_abab [nₒ, mₒ, fᵥ, eᵥ], t2_abab [bᵥ, eᵥ, iₒ, mₒ], t2_abab [fᵥ, cᵥ, jₒ, lₒ], t2_abab [aᵥ, dᵥ, nₒ, kₒ]], [(1, [aᵥ, bᵥ, cᵥ, dᵥ, iₒ, jₒ, kₒ, lₒ])]⟩,
  -- line 3946: nmfe,bejl,fcik,adnm->abcdijkl
  ⟨1/2, [g_abab [nₒ, mₒ, fᵥ, eᵥ], t2_abab [bᵥ, eᵥ, jₒ, lₒ], t2_abab [fᵥ, cᵥ, iₒ, kₒ], t2_abab [aᵥ, dᵥ, nₒ, mₒ]], [(1, [aᵥ, bᵥ, cᵥ, dᵥ, iₒ, jₒ, kₒ, lₒ])]⟩,
  -- line 3949: mnfe,bejl,fcik,admn->abcdijkl
  ⟨1/2, [g_abab [mₒ, nₒ, fᵥ, eᵥ], t2_abab [bᵥ, eᵥ, jₒ, lₒ], t2_abab [fᵥ, cᵥ, iₒ, kₒ], t2_abab [aᵥ, dᵥ, mₒ, nₒ]], [(1, [aᵥ, bᵥ, cᵥ, dᵥ, iₒ, jₒ, kₒ, lₒ])]⟩,
  -- line 3952: mnfe,bejl,fcmk,adin->abcdijkl
  ⟨-1, [g_abab [mₒ, nₒ, fᵥ, eᵥ], t2_abab [bᵥ, eᵥ, jₒ, lₒ], t2_abab [fᵥ, cᵥ, mₒ, kₒ], t2_abab [aᵥ, dᵥ, iₒ, nₒ]], [(1, [aᵥ, bᵥ, cᵥ, dᵥ, iₒ, jₒ, kₒ, lₒ])]⟩,
  -- line 3955: nmef,bejl,fckm,adin->abcdijkl
  ⟨1, [g_bbbb [nₒ, mₒ, eᵥ, fᵥ], t2_abab [bᵥ, eᵥ, jₒ, lₒ], t2_bbbb [fᵥ, cᵥ, kₒ, mₒ], t2_abab [aᵥ, dᵥ, iₒ, nₒ]], [(1, [aᵥ, bᵥ, cᵥ, dᵥ, iₒ, jₒ, kₒ, lₒ])]⟩,
  -- line 3958: nmfe,bejl,fcim,adnk->abcdijkl
  ⟨-1, [g_abab [nₒ, mₒ, fᵥ, eᵥ], t2_abab [bᵥ, eᵥ, jₒ, lₒ], t2_abab [fᵥ, cᵥ, iₒ, mₒ], t2_abab [aᵥ, dᵥ, nₒ, kₒ]], [(1, [aᵥ, bᵥ, cᵥ, dᵥ, iₒ, jₒ, kₒ, lₒ])]⟩,
  -- line 3961: mnfe,beil,fcmk,adjn->abcdijkl
  ⟨1, [g_abab [mₒ, nₒ, fᵥ, eᵥ], t2_abab [bᵥ, eᵥ, iₒ, lₒ], t2_abab [fᵥ, cᵥ, mₒ, kₒ], t2_abab [aᵥ, dᵥ, jₒ, nₒ]], [(1, [aᵥ, bᵥ, cᵥ, dᵥ, iₒ, jₒ, kₒ, lₒ])]⟩
  ]

/-- Part 9 of `ccdq_t4_aabbaabb`. -/
def ccdq_t4_aabbaabb_9 : Prog := [
  -- line 3964: nmef,beil,fckm,adjn->abcdijkl
  ⟨-1, [g_bbbb [nₒ, mₒ, eᵥ, fᵥ], t2_abab [bᵥ, eᵥ, iₒ, lₒ], t2_bbbb [fᵥ, cᵥ, kₒ, mₒ], t2_abab [aᵥ, dᵥ, jₒ, nₒ]], [(1, [aᵥ, bᵥ, cᵥ, dᵥ, iₒ, jₒ, kₒ, lₒ])]⟩,
  -- line 3967: nmfe,beil,fcjm,adnk->abcdijkl
  ⟨1, [g_abab [nₒ, mₒ, fᵥ, eᵥ], t2_abab [bᵥ, eᵥ, iₒ, lₒ], t2_abab [fᵥ, cᵥ, jₒ, mₒ], t2_abab [aᵥ, dᵥ, nₒ, kₒ]], [(1, [aᵥ, bᵥ, cᵥ, dᵥ, iₒ, jₒ, kₒ, lₒ])]⟩,
  -- line 3970: nmfe,beil,fcjk,adnm->abcdijkl
  ⟨-1/2, [g_abab [nₒ, mₒ, fᵥ, eᵥ], t2_abab [bᵥ, eᵥ, iₒ, lₒ], t2_abab [fᵥ, cᵥ, jₒ, kₒ], t2_abab [aᵥ, dᵥ, nₒ, mₒ]], [(1, [aᵥ, bᵥ, cᵥ, dᵥ, iₒ, jₒ, kₒ, lₒ]), (-1, [aᵥ, bᵥ, cᵥ, dᵥ, iₒ, jₒ, lₒ, kₒ])]⟩,
  -- line 3974: mnfe,beil,fcjk,admn->abcdijkl
  ⟨-1/2, [g_abab [mₒ, nₒ, fᵥ, eᵥ], t2_abab [bᵥ, eᵥ, iₒ, lₒ], t2_abab [fᵥ, cᵥ, jₒ, kₒ], t2_abab [aᵥ, dᵥ, mₒ, nₒ]], [(1, [aᵥ, bᵥ, cᵥ, dᵥ, iₒ, jₒ, kₒ, lₒ]), (-1, [aᵥ, bᵥ, cᵥ, dᵥ, iₒ, jₒ, lₒ, kₒ])]⟩,
  -- line 3978: mnfe,bejk,fcml,adin->abcdijkl
  ⟨1, [g_abab [mₒ, nₒ, fᵥ, eᵥ], t2_abab [bᵥ, eᵥ, jₒ, kₒ], t2_abab [fᵥ, cᵥ, mₒ, lₒ], t2_abab [aᵥ, dᵥ, iₒ, nₒ]], [(1, [aᵥ, bᵥ, cᵥ, dᵥ, iₒ, jₒ, kₒ, lₒ])]⟩,
  -- line 3981: nmef,bejk,fclm,adin->abcdijkl
  ⟨-1, [g_bbbb [nₒ, mₒ, eᵥ, fᵥ], t2_abab [bᵥ, eᵥ, jₒ, kₒ], t2_bbbb [fᵥ, cᵥ, lₒ, mₒ], t2_abab [aᵥ, dᵥ, iₒ, nₒ]], [(1, [aᵥ, bᵥ, cᵥ, dᵥ, iₒ, jₒ, kₒ, lₒ])]⟩,
  -- line 3984: nmfe,bejk,fcim,adnl->abcdijkl
  ⟨1, [g_abab [nₒ, mₒ, fᵥ, eᵥ], t2_abab [bᵥ, eᵥ, jₒ, kₒ], t2_abab [fᵥ, cᵥ, iₒ, mₒ], t2_abab [aᵥ, dᵥ, nₒ, lₒ]], [(1, [aᵥ, bᵥ, cᵥ, dᵥ, iₒ, jₒ, kₒ, lₒ])]⟩,
  -- line 3987: nmfe,bejk,fcil,adnm->abcdijkl
  ⟨-1/2, [g_abab [nₒ, mₒ, fᵥ, eᵥ], t2_abab [bᵥ, eᵥ, jₒ, kₒ], t2_abab [fᵥ, cᵥ, iₒ, lₒ], t2_abab [aᵥ, dᵥ, nₒ, mₒ]], [(1, [aᵥ, bᵥ, cᵥ, dᵥ, iₒ, jₒ, kₒ, lₒ])]⟩,
  -- line 3990: mnfe,bejk,fcil,admn->abcdijkl
  ⟨-1/2, [g_abab [mₒ, nₒ, fᵥ, eᵥ], t2_abab [bᵥ, eᵥ, jₒ, kₒ], t2_abab [fᵥ, cᵥ, iₒ, lₒ], t2_abab [aᵥ, dᵥ, mₒ, nₒ]], [(1, [aᵥ, bᵥ, cᵥ, dᵥ, iₒ, jₒ, kₒ, lₒ])]⟩,
  -- line 3993: nmef,ebji,fckl,adnm->abcdijkl
  ⟨1/2, [g_abab [nₒ, mₒ, eᵥ, fᵥ], t2_aaaa [eᵥ, bᵥ, jₒ, iₒ], t2_bbbb [fᵥ, cᵥ, kₒ, lₒ], t2_abab [aᵥ, dᵥ, nₒ, mₒ]], [(1, [aᵥ, bᵥ, cᵥ, dᵥ, iₒ, jₒ, kₒ, lₒ])]⟩,
  -- line 3996: mnef,ebji,fckl,admn->abcdijkl
  ⟨1/2, [g_abab [mₒ, nₒ, eᵥ, fᵥ], t2_aaaa [eᵥ, bᵥ, jₒ, iₒ], t2_bbbb [fᵥ, cᵥ, kₒ, lₒ], t2_abab [aᵥ, dᵥ, mₒ, nₒ]], [(1, [aᵥ, bᵥ, cᵥ, dᵥ, iₒ, jₒ, kₒ, lₒ])]⟩,
  -- line 3999: mnfe,beik,fcml,adjn->abcdijkl
  ⟨-1, [g_abab [mₒ, nₒ, fᵥ, eᵥ], t2_abab [bᵥ, eᵥ, iₒ, kₒ], t2_abab [fᵥ, cᵥ, mₒ, lₒ], t2_abab [aᵥ, dᵥ, jₒ, nₒ]], [(1, [aᵥ, bᵥ, cᵥ, dᵥ, iₒ, jₒ, kₒ, lₒ])]⟩,
  -- line 4002: nmef,beik,fclm,adjn->abcdijkl
  ⟨1, [g_bbbb [nₒ, mₒ, eᵥ, fᵥ], t2_abab [bᵥ, eᵥ, iₒ, kₒ], t2_bbbb [fᵥ, cᵥ, lₒ, mₒ], t2_abab [aᵥ, dᵥ, jₒ, nₒ]], [(1, [aᵥ, bᵥ, cᵥ, dᵥ, iₒ, jₒ, kₒ, lₒ])]⟩,
  -- line 4005: nmfe,beik,fcjm,adnl->abcdijkl
  ⟨-1, [g_abab [nₒ, mₒ, fᵥ, eᵥ], t2_abab [bᵥ, eᵥ, iₒ, kₒ], t2_abab [fᵥ, cᵥ, jₒ, mₒ], t2_abab [aᵥ, dᵥ, nₒ, lₒ]], [(1, [aᵥ, bᵥ, cᵥ, dᵥ, iₒ, jₒ, kₒ, lₒ])]⟩,
  -- line 4008: nmef,ebij,fcml,adnk->abcdijkl
  ⟨1, [g_aaaa [nₒ, mₒ, eᵥ, fᵥ], t2_aaaa [eᵥ, bᵥ, iₒ, jₒ], t2_abab [fᵥ, cᵥ, mₒ, lₒ], t2_abab [aᵥ, dᵥ, nₒ, kₒ]], [(1, [aᵥ, bᵥ, cᵥ, dᵥ, iₒ, jₒ, kₒ, lₒ]), (-1, [aᵥ, bᵥ, cᵥ, dᵥ, iₒ, jₒ, lₒ, kₒ])]⟩,
  -- line 4012: nmef,ebij,fclm,adnk->abcdijkl
  ⟨-1, [g_abab [nₒ, mₒ, eᵥ, fᵥ], t2_aaaa [eᵥ, bᵥ, iₒ, jₒ], t2_bbbb [fᵥ, cᵥ, lₒ, mₒ], t2_abab [aᵥ, dᵥ, nₒ, kₒ]], [(1, [aᵥ, bᵥ, cᵥ, dᵥ, iₒ, jₒ, kₒ, lₒ]), (-1, [aᵥ, bᵥ, cᵥ, dᵥ, iₒ, jₒ, lₒ, kₒ])]⟩,
  -- line 4016: nmef,ecml,fdjk,abin->abcdijkl
  ⟨-1, [g_aaaa [nₒ, mₒ, eᵥ, fᵥ], t2_abab [eᵥ, cᵥ, mₒ, lₒ], t2_abab [fᵥ, dᵥ, jₒ, kₒ], t2_aaaa [aᵥ, bᵥ, iₒ, nₒ]], [(1, [aᵥ, bᵥ, cᵥ, dᵥ, iₒ, jₒ, kₒ, lₒ]), (-1, [aᵥ, bᵥ, cᵥ, dᵥ, jₒ, iₒ, kₒ, lₒ])]⟩,
  -- line 4020: nmfe,eclm,fdjk,abin->abcdijkl
  ⟨-1, [g_abab [nₒ, mₒ, fᵥ, eᵥ], t2_bbbb [eᵥ, cᵥ, lₒ, mₒ], t2_abab [fᵥ, dᵥ, jₒ, kₒ], t2_aaaa [aᵥ, bᵥ, iₒ, nₒ]], [(1, [aᵥ, bᵥ, cᵥ, dᵥ, iₒ, jₒ, kₒ, lₒ]), (-1, [aᵥ, bᵥ, cᵥ, dᵥ, jₒ, iₒ, kₒ, lₒ])]⟩,
  -- line 4024: nmef,ecmk,fdjl,abin->abcdijkl
  ⟨1, [g_aaaa [nₒ, mₒ, eᵥ, fᵥ], t2_abab [eᵥ, cᵥ, mₒ, kₒ], t2_abab [fᵥ, dᵥ, jₒ, lₒ], t2_aaaa [aᵥ, bᵥ, iₒ, nₒ]], [(1, [aᵥ, bᵥ, cᵥ, dᵥ, iₒ, jₒ, kₒ, lₒ]), (-1, [aᵥ, bᵥ, cᵥ, dᵥ, jₒ, iₒ, kₒ, lₒ])]⟩,
  -- line 4028: nmfe,eckm,fdjl,abin->abcdijkl
  ⟨1, [g_abab [nₒ, mₒ, fᵥ, eᵥ], t2_bbbb [eᵥ, cᵥ, kₒ, mₒ], t2_abab [fᵥ, dᵥ, jₒ, lₒ], t2_aaaa [aᵥ, bᵥ, iₒ, nₒ]], [(1, [aᵥ, bᵥ, cᵥ, dᵥ, iₒ, jₒ, kₒ, lₒ]), (-1, [aᵥ, bᵥ, cᵥ, dᵥ, jₒ, iₒ, kₒ, lₒ])]⟩,
  -- line 4032: nmef,ecjm,fdkl,abin->abcdijkl
  ⟨1, [g_abab [nₒ, mₒ, eᵥ, fᵥ], t2_abab [eᵥ, cᵥ, jₒ, mₒ], t2_bbbb [fᵥ, dᵥ, kₒ, lₒ], t2_aaaa [aᵥ, bᵥ, iₒ, nₒ]], [(1, [aᵥ, bᵥ, cᵥ, dᵥ, iₒ, jₒ, kₒ, lₒ])]⟩,
  -- line 4035: nmef,ecim,fdkl,abjn->abcdijkl
  ⟨-1, [g_abab [nₒ, mₒ, eᵥ, fᵥ], t2_abab [eᵥ, cᵥ, iₒ, mₒ], t2_bbbb [fᵥ, dᵥ, kₒ, lₒ], t2_aaaa [aᵥ, bᵥ, jₒ, nₒ]], [(1, [aᵥ, bᵥ, cᵥ, dᵥ, iₒ, jₒ, kₒ, lₒ])]⟩,
  -- line 4038: nmfe,eckl,fdjm,abin->abcdijkl
  ⟨-1, [g_abab [nₒ, mₒ, fᵥ, eᵥ], t2_bbbb [eᵥ, cᵥ, kₒ, lₒ], t2_abab [fᵥ, dᵥ, jₒ, mₒ], t2_aaaa [aᵥ, bᵥ, iₒ, nₒ]], [(1, [aᵥ, bᵥ, cᵥ, dᵥ, iₒ, jₒ, kₒ, lₒ]), (-1, [aᵥ, bᵥ, cᵥ, dᵥ, jₒ, iₒ, kₒ, lₒ])]⟩,
  -- line 4042: nmef,ecjl,fdik,abnm->abcdijkl
  ⟨1/2, [g_aaaa [nₒ, mₒ, eᵥ, fᵥ], t2_abab [eᵥ, cᵥ, jₒ, lₒ], t2_abab [fᵥ, dᵥ, iₒ, kₒ], t2_aaaa [aᵥ, bᵥ, nₒ, mₒ]], [(1, [aᵥ, bᵥ, cᵥ, dᵥ, iₒ, jₒ, kₒ, lₒ])]⟩,
  -- line 4045: nmef,ecjl,fdmk,abin->abcdijkl
  ⟨1, [g_aaaa [nₒ, mₒ, eᵥ, fᵥ], t2_abab [eᵥ, cᵥ, jₒ, lₒ], t2_abab [fᵥ, dᵥ, mₒ, kₒ], t2_aaaa [aᵥ, bᵥ, iₒ, nₒ]], [(1, [aᵥ, bᵥ, cᵥ, dᵥ, iₒ, jₒ, kₒ, lₒ])]⟩,
  -- line 4048: nmef,ecjl,fdkm,abin->abcdijkl
  ⟨-1, [g_abab [nₒ, mₒ, eᵥ, fᵥ], t2_abab [eᵥ, cᵥ, jₒ, lₒ], t2_bbbb [fᵥ, dᵥ, kₒ, mₒ], t2_aaaa [aᵥ, bᵥ, iₒ, nₒ]], [(1, [aᵥ, bᵥ, cᵥ, dᵥ, iₒ, jₒ, kₒ, lₒ])]⟩,
  -- line 4051: nmef,ecil,fdmk,abjn->abcdijkl
  ⟨-1, [g_aaaa [nₒ, mₒ, eᵥ, fᵥ], t2_abab [eᵥ, cᵥ, iₒ, lₒ], t2_abab [fᵥ, dᵥ, mₒ, kₒ], t2_aaaa [aᵥ, bᵥ, jₒ, nₒ]], [(1, [aᵥ, bᵥ, cᵥ, dᵥ, iₒ, jₒ, kₒ, lₒ])]⟩,
  -- line 4054: nmef,ecil,fdkm,abjn->abcdijkl
  ⟨1, [g_abab [nₒ, mₒ, eᵥ, fᵥ], t2_abab [eᵥ, cᵥ, iₒ, lₒ], t2_bbbb [fᵥ, dᵥ, kₒ, mₒ], t2_aaaa [aᵥ, bᵥ, jₒ, nₒ]], [(1, [aᵥ, bᵥ, cᵥ, dᵥ, iₒ, jₒ, kₒ, lₒ])]⟩,
  -- line 4057: nmef,ecil,fdjk,abnm->abcdijkl
  ⟨-1/2, [g_aaaa [nₒ, mₒ, eᵥ, fᵥ], t2_abab [eᵥ, cᵥ, iₒ, lₒ], t2_abab [fᵥ, dᵥ, jₒ, kₒ], t2_aaaa [aᵥ, bᵥ, nₒ, mₒ]], [(1, [aᵥ, bᵥ, cᵥ, dᵥ, iₒ, jₒ, kₒ, lₒ]), (-1, [aᵥ, bᵥ, cᵥ, dᵥ, iₒ, jₒ, lₒ, kₒ])]⟩,
  -- line 4061: nmef,ecjk,fdml,abin->abcdijkl
  ⟨-1, [g_aaaa [nₒ, mₒ, eᵥ, fᵥ], t2_abab [eᵥ, cᵥ, jₒ, kₒ], t2_abab [fᵥ, dᵥ, mₒ, lₒ], t2_aaaa [aᵥ, bᵥ, iₒ, nₒ]], [(1, [aᵥ, bᵥ, cᵥ, dᵥ, iₒ, jₒ, kₒ, lₒ])]⟩,
  -- line 4064: nmef,ecjk,fdlm,abin->abcdijkl
  ⟨1, [g_abab [nₒ, mₒ, eᵥ, fᵥ], t2_abab [eᵥ, cᵥ, jₒ, kₒ], t2_bbbb [fᵥ, dᵥ, lₒ, mₒ], t2_aaaa [aᵥ, bᵥ, iₒ, nₒ]], [(1, [aᵥ, bᵥ, cᵥ, dᵥ, iₒ, jₒ, kₒ, lₒ])]⟩,
  -- line 4067: nmef,ecjk,fdil,abnm->abcdijkl
  ⟨-1/2, [g_aaaa [nₒ, mₒ, eᵥ, fᵥ], t2_abab [eᵥ, cᵥ, jₒ, kₒ], t2_abab [fᵥ, dᵥ, iₒ, lₒ], t2_aaaa [aᵥ, bᵥ, nₒ, mₒ]], [(1, [aᵥ, bᵥ, cᵥ, dᵥ, iₒ, jₒ, kₒ, lₒ])]⟩,
  -- line 4070: nmef,ecik,fdml,abjn->abcdijkl
  ⟨1, [g_aaaa [nₒ, mₒ, eᵥ, fᵥ], t2_abab [eᵥ, cᵥ, iₒ, kₒ], t2_abab [fᵥ, dᵥ, mₒ, lₒ], t2_aaaa [aᵥ, bᵥ, jₒ, nₒ]], [(1, [aᵥ, bᵥ, cᵥ, dᵥ, iₒ, jₒ, kₒ, lₒ])]⟩,
  -- line 4073: nmef,ecik,fdlm,abjn->abcdijkl
  ⟨-1, [g_abab [nₒ, mₒ, eᵥ, fᵥ], t2_abab [eᵥ, cᵥ, iₒ, kₒ], t2_bbbb [fᵥ, dᵥ, lₒ, mₒ], t2_aaaa [aᵥ, bᵥ, jₒ, nₒ]], [(1, [aᵥ, bᵥ, cᵥ, dᵥ, iₒ, jₒ, kₒ, lₒ])]⟩
  ]

/-- `UT2/ccdq_resids.py` 2682-4075, `ccdq_t4_aabbaabb_residual`. -/
def ccdq_t4_aabbaabb : Prog := ccdq_t4_aabbaabb_0 ++ (ccdq_t4_aabbaabb_1 ++ (ccdq_t4_aabbaabb_2 ++ (ccdq_t4_aabbaabb_3 ++ (ccdq_t4_aabbaabb_4 ++ (ccdq_t4_aabbaabb_5 ++ (ccdq_t4_aabbaabb_6 ++ (ccdq_t4_aabbaabb_7 ++ (ccdq_t4_aabbaabb_8 ++ (ccdq_t4_aabbaabb_9)))))))))

end Verif.Gen
