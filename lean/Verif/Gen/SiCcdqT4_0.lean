import Verif.Ein.Names
import Verif.Gen.Antisym

/-! Written by `/verif/tools/gen.py`. Programs read from `/repo/UT2`. -/

set_option maxRecDepth 100000

namespace Verif.Gen

open Verif.Ein Verif.Ein.N


/-- Part 0 of `ccdq_t4_aaaaaaaa`. -/
def ccdq_t4_aaaaaaaa_0 : Prog := [
  -- line 359: ml,abcdijkm->abcdijkl
  ⟨-100000000000001/100000000000000, [f_aa [mₒ, lₒ], t4_aaaaaaaa [aᵥ, bᵥ, cᵥ, dᵥ, iₒ, jₒ, kₒ, mₒ]], [(1, [aᵥ, bᵥ, cᵥ, dᵥ, iₒ, jₒ, kₒ, lₒ]), (-1, [aᵥ, bᵥ, cᵥ, dᵥ, iₒ, jₒ, lₒ, kₒ])]⟩,
  -- line 363: mj,abcdiklm->abcdijkl
  ⟨-100000000000001/100000000000000, [f_aa [mₒ, jₒ], t4_aaaaaaaa [aᵥ, bᵥ, cᵥ, dᵥ, iₒ, kₒ, lₒ, mₒ]], [(1, [aᵥ, bᵥ, cᵥ, dᵥ, iₒ, jₒ, kₒ, lₒ]), (-1, [aᵥ, bᵥ, cᵥ, dᵥ, jₒ, iₒ, kₒ, lₒ])]⟩,
  -- line 367: ae,ebcdijkl->abcdijkl
  ⟨100000000000001/100000000000000, [f_aa [aᵥ, eᵥ], t4_aaaaaaaa [eᵥ, bᵥ, cᵥ, dᵥ, iₒ, jₒ, kₒ, lₒ]], [(1, [aᵥ, bᵥ, cᵥ, dᵥ, iₒ, jₒ, kₒ, lₒ]), (-1, [bᵥ, aᵥ, cᵥ, dᵥ, iₒ, jₒ, kₒ, lₒ])]⟩,
  -- line 371: ce,eabdijkl->abcdijkl
  ⟨100000000000001/100000000000000, [f_aa [cᵥ, eᵥ], t4_aaaaaaaa [eᵥ, aᵥ, bᵥ, dᵥ, iₒ, jₒ, kₒ, lₒ]], [(1, [aᵥ, bᵥ, cᵥ, dᵥ, iₒ, jₒ, kₒ, lₒ]), (-1, [aᵥ, bᵥ, dᵥ, cᵥ, iₒ, jₒ, kₒ, lₒ])]⟩,
  -- line 375: nmkl,abcdijnm->abcdijkl
  ⟨50000000000001/100000000000000, [g_aaaa [nₒ, mₒ, kₒ, lₒ], t4_aaaaaaaa [aᵥ, bᵥ, cᵥ, dᵥ, iₒ, jₒ, nₒ, mₒ]], [(1, [aᵥ, bᵥ, cᵥ, dᵥ, iₒ, jₒ, kₒ, lₒ]), (-1, [aᵥ, bᵥ, cᵥ, dᵥ, iₒ, kₒ, jₒ, lₒ])]⟩,
  -- line 379: nmil,abcdjknm->abcdijkl
  ⟨50000000000001/100000000000000, [g_aaaa [nₒ, mₒ, iₒ, lₒ], t4_aaaaaaaa [aᵥ, bᵥ, cᵥ, dᵥ, jₒ, kₒ, nₒ, mₒ]], [(1, [aᵥ, bᵥ, cᵥ, dᵥ, iₒ, jₒ, kₒ, lₒ]), (-1, [aᵥ, bᵥ, cᵥ, dᵥ, iₒ, jₒ, lₒ, kₒ])]⟩,
  -- line 383: nmjk,abcdilnm->abcdijkl
  ⟨50000000000001/100000000000000, [g_aaaa [nₒ, mₒ, jₒ, kₒ], t4_aaaaaaaa [aᵥ, bᵥ, cᵥ, dᵥ, iₒ, lₒ, nₒ, mₒ]], [(1, [aᵥ, bᵥ, cᵥ, dᵥ, iₒ, jₒ, kₒ, lₒ]), (-1, [aᵥ, bᵥ, cᵥ, dᵥ, kₒ, jₒ, iₒ, lₒ])]⟩,
  -- line 387: mael,ebcdijkm->abcdijkl
  ⟨50000000000001/50000000000000, [g_aaaa [mₒ, aᵥ, eᵥ, lₒ], t4_aaaaaaaa [eᵥ, bᵥ, cᵥ, dᵥ, iₒ, jₒ, kₒ, mₒ]], [(1, [aᵥ, bᵥ, cᵥ, dᵥ, iₒ, jₒ, kₒ, lₒ]), (-1, [aᵥ, bᵥ, cᵥ, dᵥ, iₒ, jₒ, lₒ, kₒ]), (-1, [bᵥ, aᵥ, cᵥ, dᵥ, iₒ, jₒ, kₒ, lₒ]), (1, [bᵥ, aᵥ, cᵥ, dᵥ, iₒ, jₒ, lₒ, kₒ])]⟩,
  -- line 391: amle,dbceijkm->abcdijkl
  ⟨-50000000000001/50000000000000, [g_abab [aᵥ, mₒ, lₒ, eᵥ], t4_aaabaaab [dᵥ, bᵥ, cᵥ, eᵥ, iₒ, jₒ, kₒ, mₒ]], [(1, [aᵥ, bᵥ, cᵥ, dᵥ, iₒ, jₒ, kₒ, lₒ]), (-1, [aᵥ, bᵥ, cᵥ, dᵥ, iₒ, jₒ, lₒ, kₒ]), (-1, [bᵥ, aᵥ, cᵥ, dᵥ, iₒ, jₒ, kₒ, lₒ]), (1, [bᵥ, aᵥ, cᵥ, dᵥ, iₒ, jₒ, lₒ, kₒ])]⟩,
  -- line 395: maej,ebcdiklm->abcdijkl
  ⟨50000000000001/50000000000000, [g_aaaa [mₒ, aᵥ, eᵥ, jₒ], t4_aaaaaaaa [eᵥ, bᵥ, cᵥ, dᵥ, iₒ, kₒ, lₒ, mₒ]], [(1, [aᵥ, bᵥ, cᵥ, dᵥ, iₒ, jₒ, kₒ, lₒ]), (-1, [aᵥ, bᵥ, cᵥ, dᵥ, jₒ, iₒ, kₒ, lₒ]), (-1, [bᵥ, aᵥ, cᵥ, dᵥ, iₒ, jₒ, kₒ, lₒ]), (1, [bᵥ, aᵥ, cᵥ, dᵥ, jₒ, iₒ, kₒ, lₒ])]⟩,
  -- line 399: amje,dbceiklm->abcdijkl
  ⟨-50000000000001/50000000000000, [g_abab [aᵥ, mₒ, jₒ, eᵥ], t4_aaabaaab [dᵥ, bᵥ, cᵥ, eᵥ, iₒ, kₒ, lₒ, mₒ]], [(1, [aᵥ, bᵥ, cᵥ, dᵥ, iₒ, jₒ, kₒ, lₒ]), (-1, [aᵥ, bᵥ, cᵥ, dᵥ, jₒ, iₒ, kₒ, lₒ]), (-1, [bᵥ, aᵥ, cᵥ, dᵥ, iₒ, jₒ, kₒ, lₒ]), (1, [bᵥ, aᵥ, cᵥ, dᵥ, jₒ, iₒ, kₒ, lₒ])]⟩,
  -- line 403: mcel,eabdijkm->abcdijkl
  ⟨50000000000001/50000000000000, [g_aaaa [mₒ, cᵥ, eᵥ, lₒ], t4_aaaaaaaa [eᵥ, aᵥ, bᵥ, dᵥ, iₒ, jₒ, kₒ, mₒ]], [(1, [aᵥ, bᵥ, cᵥ, dᵥ, iₒ, jₒ, kₒ, lₒ]), (-1, [aᵥ, bᵥ, cᵥ, dᵥ, iₒ, jₒ, lₒ, kₒ]), (-1, [aᵥ, bᵥ, dᵥ, cᵥ, iₒ, jₒ, kₒ, lₒ]), (1, [aᵥ, bᵥ, dᵥ, cᵥ, iₒ, jₒ, lₒ, kₒ])]⟩,
  -- line 407: cmle,dabeijkm->abcdijkl
  ⟨-50000000000001/50000000000000, [g_abab [cᵥ, mₒ, lₒ, eᵥ], t4_aaabaaab [dᵥ, aᵥ, bᵥ, eᵥ, iₒ, jₒ, kₒ, mₒ]], [(1, [aᵥ, bᵥ, cᵥ, dᵥ, iₒ, jₒ, kₒ, lₒ]), (-1, [aᵥ, bᵥ, cᵥ, dᵥ, iₒ, jₒ, lₒ, kₒ]), (-1, [aᵥ, bᵥ, dᵥ, cᵥ, iₒ, jₒ, kₒ, lₒ]), (1, [aᵥ, bᵥ, dᵥ, cᵥ, iₒ, jₒ, lₒ, kₒ])]⟩,
  -- line 411: mcej,eabdiklm->abcdijkl
  ⟨50000000000001/50000000000000, [g_aaaa [mₒ, cᵥ, eᵥ, jₒ], t4_aaaaaaaa [eᵥ, aᵥ, bᵥ, dᵥ, iₒ, kₒ, lₒ, mₒ]], [(1, [aᵥ, bᵥ, cᵥ, dᵥ, iₒ, jₒ, kₒ, lₒ]), (-1, [aᵥ, bᵥ, cᵥ, dᵥ, jₒ, iₒ, kₒ, lₒ]), (-1, [aᵥ, bᵥ, dᵥ, cᵥ, iₒ, jₒ, kₒ, lₒ]), (1, [aᵥ, bᵥ, dᵥ, cᵥ, jₒ, iₒ, kₒ, lₒ])]⟩,
  -- line 415: cmje,dabeiklm->abcdijkl
  ⟨-50000000000001/50000000000000, [g_abab [cᵥ, mₒ, jₒ, eᵥ], t4_aaabaaab [dᵥ, aᵥ, bᵥ, eᵥ, iₒ, kₒ, lₒ, mₒ]], [(1, [aᵥ, bᵥ, cᵥ, dᵥ, iₒ, jₒ, kₒ, lₒ]), (-1, [aᵥ, bᵥ, cᵥ, dᵥ, jₒ, iₒ, kₒ, lₒ]), (-1, [aᵥ, bᵥ, dᵥ, cᵥ, iₒ, jₒ, kₒ, lₒ]), (1, [aᵥ, bᵥ, dᵥ, cᵥ, jₒ, iₒ, kₒ, lₒ])]⟩,
  -- line 419: abef,efcdijkl->abcdijkl
  ⟨50000000000001/100000000000000, [g_aaaa [aᵥ, bᵥ, eᵥ, fᵥ], t4_aaaaaaaa [eᵥ, fᵥ, cᵥ, dᵥ, iₒ, jₒ, kₒ, lₒ]], [(1, [aᵥ, bᵥ, cᵥ, dᵥ, iₒ, jₒ, kₒ, lₒ]), (-1, [aᵥ, cᵥ, bᵥ, dᵥ, iₒ, jₒ, kₒ, lₒ])]⟩,
  -- line 423: adef,efbcijkl->abcdijkl
  ⟨50000000000001/100000000000000, [g_aaaa [aᵥ, dᵥ, eᵥ, fᵥ], t4_aaaaaaaa [eᵥ, fᵥ, bᵥ, cᵥ, iₒ, jₒ, kₒ, lₒ]], [(1, [aᵥ, bᵥ, cᵥ, dᵥ, iₒ, jₒ, kₒ, lₒ]), (-1, [bᵥ, aᵥ, cᵥ, dᵥ, iₒ, jₒ, kₒ, lₒ])]⟩,
  -- line 427: bcef,efadijkl->abcdijkl
  ⟨50000000000001/100000000000000, [g_aaaa [bᵥ, cᵥ, eᵥ, fᵥ], t4_aaaaaaaa [eᵥ, fᵥ, aᵥ, dᵥ, iₒ, jₒ, kₒ, lₒ]], [(1, [aᵥ, bᵥ, cᵥ, dᵥ, iₒ, jₒ, kₒ, lₒ]), (-1, [aᵥ, dᵥ, cᵥ, bᵥ, iₒ, jₒ, kₒ, lₒ])]⟩,
  -- line 431: nmef,eflm,abcdijkn->abcdijkl
  ⟨-9999999999999/20000000000000, [g_aaaa [nₒ, mₒ, eᵥ, fᵥ], t2_aaaa [eᵥ, fᵥ, lₒ, mₒ], t4_aaaaaaaa [aᵥ, bᵥ, cᵥ, dᵥ, iₒ, jₒ, kₒ, nₒ]], [(1, [aᵥ, bᵥ, cᵥ, dᵥ, iₒ, jₒ, kₒ, lₒ]), (-1, [aᵥ, bᵥ, cᵥ, dᵥ, iₒ, jₒ, lₒ, kₒ])]⟩,
  -- line 435: nmef,eflm,abcdijkn->abcdijkl
  ⟨-9999999999999/20000000000000, [g_abab [nₒ, mₒ, eᵥ, fᵥ], t2_abab [eᵥ, fᵥ, lₒ, mₒ], t4_aaaaaaaa [aᵥ, bᵥ, cᵥ, dᵥ, iₒ, jₒ, kₒ, nₒ]], [(1, [aᵥ, bᵥ, cᵥ, dᵥ, iₒ, jₒ, kₒ, lₒ]), (-1, [aᵥ, bᵥ, cᵥ, dᵥ, iₒ, jₒ, lₒ, kₒ])]⟩,
  -- line 439: nmfe,felm,abcdijkn->abcdijkl
  ⟨-9999999999999/20000000000000, [g_abab [nₒ, mₒ, fᵥ, eᵥ], t2_abab [fᵥ, eᵥ, lₒ, mₒ], t4_aaaaaaaa [aᵥ, bᵥ, cᵥ, dᵥ, iₒ, jₒ, kₒ, nₒ]], [(1, [aᵥ, bᵥ, cᵥ, dᵥ, iₒ, jₒ, kₒ, lₒ]), (-1, [aᵥ, bᵥ, cᵥ, dᵥ, iₒ, jₒ, lₒ, kₒ])]⟩,
  -- line 443: nmef,efjm,abcdikln->abcdijkl
  ⟨-9999999999999/20000000000000, [g_aaaa [nₒ, mₒ, eᵥ, fᵥ], t2_aaaa [eᵥ, fᵥ, jₒ, mₒ], t4_aaaaaaaa [aᵥ, bᵥ, cᵥ, dᵥ, iₒ, kₒ, lₒ, nₒ]], [(1, [aᵥ, bᵥ, cᵥ, dᵥ, iₒ, jₒ, kₒ, lₒ]), (-1, [aᵥ, bᵥ, cᵥ, dᵥ, jₒ, iₒ, kₒ, lₒ])]⟩,
  -- line 447: nmef,efjm,abcdikln->abcdijkl
  ⟨-9999999999999/20000000000000, [g_abab [nₒ, mₒ, eᵥ, fᵥ], t2_abab [eᵥ, fᵥ, jₒ, mₒ], t4_aaaaaaaa [aᵥ, bᵥ, cᵥ, dᵥ, iₒ, kₒ, lₒ, nₒ]], [(1, [aᵥ, bᵥ, cᵥ, dᵥ, iₒ, jₒ, kₒ, lₒ]), (-1, [aᵥ, bᵥ, cᵥ, dᵥ, jₒ, iₒ, kₒ, lₒ])]⟩,
  -- line 451: nmfe,fejm,abcdikln->abcdijkl
  ⟨-9999999999999/20000000000000, [g_abab [nₒ, mₒ, fᵥ, eᵥ], t2_abab [fᵥ, eᵥ, jₒ, mₒ], t4_aaaaaaaa [aᵥ, bᵥ, cᵥ, dᵥ, iₒ, kₒ, lₒ, nₒ]], [(1, [aᵥ, bᵥ, cᵥ, dᵥ, iₒ, jₒ, kₒ, lₒ]), (-1, [aᵥ, bᵥ, cᵥ, dᵥ, jₒ, iₒ, kₒ, lₒ])]⟩,
  -- line 455: nmef,efkl,abcdijnm->abcdijkl
  ⟨25000000000001/100000000000000, [g_aaaa [nₒ, mₒ, eᵥ, fᵥ], t2_aaaa [eᵥ, fᵥ, kₒ, lₒ], t4_aaaaaaaa [aᵥ, bᵥ, cᵥ, dᵥ, iₒ, jₒ, nₒ, mₒ]], [(1, [aᵥ, bᵥ, cᵥ, dᵥ, iₒ, jₒ, kₒ, lₒ]), (-1, [aᵥ, bᵥ, cᵥ, dᵥ, iₒ, kₒ, jₒ, lₒ])]⟩,
  -- line 459: nmef,efil,abcdjknm->abcdijkl
  ⟨25000000000001/100000000000000, [g_aaaa [nₒ, mₒ, eᵥ, fᵥ], t2_aaaa [eᵥ, fᵥ, iₒ, lₒ], t4_aaaaaaaa [aᵥ, bᵥ, cᵥ, dᵥ, jₒ, kₒ, nₒ, mₒ]], [(1, [aᵥ, bᵥ, cᵥ, dᵥ, iₒ, jₒ, kₒ, lₒ]), (-1, [aᵥ, bᵥ, cᵥ, dᵥ, iₒ, jₒ, lₒ, kₒ])]⟩,
  -- line 463: nmef,efjk,abcdilnm->abcdijkl
  ⟨25000000000001/100000000000000, [g_aaaa [nₒ, mₒ, eᵥ, fᵥ], t2_aaaa [eᵥ, fᵥ, jₒ, kₒ], t4_aaaaaaaa [aᵥ, bᵥ, cᵥ, dᵥ, iₒ, lₒ, nₒ, mₒ]], [(1, [aᵥ, bᵥ, cᵥ, dᵥ, iₒ, jₒ, kₒ, lₒ]), (-1, [aᵥ, bᵥ, cᵥ, dᵥ, kₒ, jₒ, iₒ, lₒ])]⟩,
  -- line 467: nmef,eanm,fbcdijkl->abcdijkl
  ⟨-9999999999999/20000000000000, [g_aaaa [nₒ, mₒ, eᵥ, fᵥ], t2_aaaa [eᵥ, aᵥ, nₒ, mₒ], t4_aaaaaaaa [fᵥ, bᵥ, cᵥ, dᵥ, iₒ, jₒ, kₒ, lₒ]], [(1, [aᵥ, bᵥ, cᵥ, dᵥ, iₒ, jₒ, kₒ, lₒ]), (-1, [bᵥ, aᵥ, cᵥ, dᵥ, iₒ, jₒ, kₒ, lₒ])]⟩,
  -- line 471: nmfe,aenm,fbcdijkl->abcdijkl
  ⟨-9999999999999/20000000000000, [g_abab [nₒ, mₒ, fᵥ, eᵥ], t2_abab [aᵥ, eᵥ, nₒ, mₒ], t4_aaaaaaaa [fᵥ, bᵥ, cᵥ, dᵥ, iₒ, jₒ, kₒ, lₒ]], [(1, [aᵥ, bᵥ, cᵥ, dᵥ, iₒ, jₒ, kₒ, lₒ]), (-1, [bᵥ, aᵥ, cᵥ, dᵥ, iₒ, jₒ, kₒ, lₒ])]⟩,
  -- line 475: mnfe,aemn,fbcdijkl->abcdijkl
  ⟨-9999999999999/20000000000000, [g_abab [mₒ, nₒ, fᵥ, eᵥ], t2_abab [aᵥ, eᵥ, mₒ, nₒ], t4_aaaaaaaa [fᵥ, bᵥ, cᵥ, dᵥ, iₒ, jₒ, kₒ, lₒ]], [(1, [aᵥ, bᵥ, cᵥ, dᵥ, iₒ, jₒ, kₒ, lₒ]), (-1, [bᵥ, aᵥ, cᵥ, dᵥ, iₒ, jₒ, kₒ, lₒ])]⟩,
  -- line 479: nmef,ealm,fbcdijkn->abcdijkl
  ⟨6249999999999/6250000000000, [g_aaaa [nₒ, mₒ, eᵥ, fᵥ], t2_aaaa [eᵥ, aᵥ, lₒ, mₒ], t4_aaaaaaaa [fᵥ, bᵥ, cᵥ, dᵥ, iₒ, jₒ, kₒ, nₒ]], [(1, [aᵥ, bᵥ, cᵥ, dᵥ, iₒ, jₒ, kₒ, lₒ]), (-1, [aᵥ, bᵥ, cᵥ, dᵥ, iₒ, jₒ, lₒ, kₒ]), (-1, [bᵥ, aᵥ, cᵥ, dᵥ, iₒ, jₒ, kₒ, lₒ]), (1, [bᵥ, aᵥ, cᵥ, dᵥ, iₒ, jₒ, lₒ, kₒ])]⟩,
  -- line 483: mnef,ealm,dbcfijkn->abcdijkl
  ⟨6249999999999/6250000000000, [g_abab [mₒ, nₒ, eᵥ, fᵥ], t2_aaaa [eᵥ, aᵥ, lₒ, mₒ], t4_aaabaaab [dᵥ, bᵥ, cᵥ, fᵥ, iₒ, jₒ, kₒ, nₒ]], [(1, [aᵥ, bᵥ, cᵥ, dᵥ, iₒ, jₒ, kₒ, lₒ]), (-1, [aᵥ, bᵥ, cᵥ, dᵥ, iₒ, jₒ, lₒ, kₒ]), (-1, [bᵥ, aᵥ, cᵥ, dᵥ, iₒ, jₒ, kₒ, lₒ]), (1, [bᵥ, aᵥ, cᵥ, dᵥ, iₒ, jₒ, lₒ, kₒ])]⟩,
  -- line 487: nmfe,aelm,fbcdijkn->abcdijkl
  ⟨6249999999999/6250000000000, [g_abab [nₒ, mₒ, fᵥ, eᵥ], t2_abab [aᵥ, eᵥ, lₒ, mₒ], t4_aaaaaaaa [fᵥ, bᵥ, cᵥ, dᵥ, iₒ, jₒ, kₒ, nₒ]], [(1, [aᵥ, bᵥ, cᵥ, dᵥ, iₒ, jₒ, kₒ, lₒ]), (-1, [aᵥ, bᵥ, cᵥ, dᵥ, iₒ, jₒ, lₒ, kₒ]), (-1, [bᵥ, aᵥ, cᵥ, dᵥ, iₒ, jₒ, kₒ, lₒ]), (1, [bᵥ, aᵥ, cᵥ, dᵥ, iₒ, jₒ, lₒ, kₒ])]⟩,
  -- line 491: nmef,aelm,dbcfijkn->abcdijkl
  ⟨6249999999999/6250000000000, [g_bbbb [nₒ, mₒ, eᵥ, fᵥ], t2_abab [aᵥ, eᵥ, lₒ, mₒ], t4_aaabaaab [dᵥ, bᵥ, cᵥ, fᵥ, iₒ, jₒ, kₒ, nₒ]], [(1, [aᵥ, bᵥ, cᵥ, dᵥ, iₒ, jₒ, kₒ, lₒ]), (-1, [aᵥ, bᵥ, cᵥ, dᵥ, iₒ, jₒ, lₒ, kₒ]), (-1, [bᵥ, aᵥ, cᵥ, dᵥ, iₒ, jₒ, kₒ, lₒ]), (1, [bᵥ, aᵥ, cᵥ, dᵥ, iₒ, jₒ, lₒ, kₒ])]⟩,
  -- line 495: nmef,eajm,fbcdikln->abcdijkl
  ⟨6249999999999/6250000000000, [g_aaaa [nₒ, mₒ, eᵥ, fᵥ], t2_aaaa [eᵥ, aᵥ, jₒ, mₒ], t4_aaaaaaaa [fᵥ, bᵥ, cᵥ, dᵥ, iₒ, kₒ, lₒ, nₒ]], [(1, [aᵥ, bᵥ, cᵥ, dᵥ, iₒ, jₒ, kₒ, lₒ]), (-1, [aᵥ, bᵥ, cᵥ, dᵥ, jₒ, iₒ, kₒ, lₒ]), (-1, [bᵥ, aᵥ, cᵥ, dᵥ, iₒ, jₒ, kₒ, lₒ]), (1, [bᵥ, aᵥ, cᵥ, dᵥ, jₒ, iₒ, kₒ, lₒ])]⟩,
  -- line 499: mnef,eajm,dbcfikln->abcdijkl
  ⟨6249999999999/6250000000000, [g_abab [mₒ, nₒ, eᵥ, fᵥ], t2_aaaa [eᵥ, aᵥ, jₒ, mₒ], t4_aaabaaab [dᵥ, bᵥ, cᵥ, fᵥ, iₒ, kₒ, lₒ, nₒ]], [(1, [aᵥ, bᵥ, cᵥ, dᵥ, iₒ, jₒ, kₒ, lₒ]), (-1, [aᵥ, bᵥ, cᵥ, dᵥ, jₒ, iₒ, kₒ, lₒ]), (-1, [bᵥ, aᵥ, cᵥ, dᵥ, iₒ, jₒ, kₒ, lₒ]), (1, [bᵥ, aᵥ, cᵥ, dᵥ, jₒ, iₒ, kₒ, lₒ])]⟩,
  -- line 503: nmfe,aejm,fbcdikln->abcdijkl
  ⟨6249999999999/6250000000000, [g_abab [nₒ, mₒ, fᵥ, eᵥ], t2_abab [aᵥ, eᵥ, jₒ, mₒ], t4_aaaaaaaa [fᵥ, bᵥ, cᵥ, dᵥ, iₒ, kₒ, lₒ, nₒ]], [(1, [aᵥ, bᵥ, cᵥ, dᵥ, iₒ, jₒ, kₒ, lₒ]), (-1, [aᵥ, bᵥ, cᵥ, dᵥ, jₒ, iₒ, kₒ, lₒ]), (-1, [bᵥ, aᵥ, cᵥ, dᵥ, iₒ, jₒ, kₒ, lₒ]), (1, [bᵥ, aᵥ, cᵥ, dᵥ, jₒ, iₒ, kₒ, lₒ])]⟩,
  -- line 507: nmef,aejm,dbcfikln->abcdijkl
  ⟨6249999999999/6250000000000, [g_bbbb [nₒ, mₒ, eᵥ, fᵥ], t2_abab [aᵥ, eᵥ, jₒ, mₒ], t4_aaabaaab [dᵥ, bᵥ, cᵥ, fᵥ, iₒ, kₒ, lₒ, nₒ]], [(1, [aᵥ, bᵥ, cᵥ, dᵥ, iₒ, jₒ, kₒ, lₒ]), (-1, [aᵥ, bᵥ, cᵥ, dᵥ, jₒ, iₒ, kₒ, lₒ]), (-1, [bᵥ, aᵥ, cᵥ, dᵥ, iₒ, jₒ, kₒ, lₒ]), (1, [bᵥ, aᵥ, cᵥ, dᵥ, jₒ, iₒ, kₒ, lₒ])]⟩,
  -- line 511: nmef,eakl,fbcdijnm->abcdijkl
  ⟨-9999999999999/20000000000000, [g_aaaa [nₒ, mₒ, eᵥ, fᵥ], t2_aaaa [eᵥ, aᵥ, kₒ, lₒ], t4_aaaaaaaa [fᵥ, bᵥ, cᵥ, dᵥ, iₒ, jₒ, nₒ, mₒ]], [(1, [aᵥ, bᵥ, cᵥ, dᵥ, iₒ, jₒ, kₒ, lₒ]), (-1, [aᵥ, bᵥ, cᵥ, dᵥ, iₒ, kₒ, jₒ, lₒ]), (-1, [bᵥ, aᵥ, cᵥ, dᵥ, iₒ, jₒ, kₒ, lₒ]), (1, [bᵥ, aᵥ, cᵥ, dᵥ, iₒ, kₒ, jₒ, lₒ])]⟩,
  -- line 515: nmef,eakl,dbcfijnm->abcdijkl
  ⟨9999999999999/20000000000000, [g_abab [nₒ, mₒ, eᵥ, fᵥ], t2_aaaa [eᵥ, aᵥ, kₒ, lₒ], t4_aaabaaab [dᵥ, bᵥ, cᵥ, fᵥ, iₒ, jₒ, nₒ, mₒ]], [(1, [aᵥ, bᵥ, cᵥ, dᵥ, iₒ, jₒ, kₒ, lₒ]), (-1, [aᵥ, bᵥ, cᵥ, dᵥ, iₒ, kₒ, jₒ, lₒ]), (-1, [bᵥ, aᵥ, cᵥ, dᵥ, iₒ, jₒ, kₒ, lₒ]), (1, [bᵥ, aᵥ, cᵥ, dᵥ, iₒ, kₒ, jₒ, lₒ])]⟩
  ]

/-- Part 1 of `ccdq_t4_aaaaaaaa`. -/
def ccdq_t4_aaaaaaaa_1 : Prog := [
  -- line 519: mnef,eakl,dbcfijmn->abcdijkl
  ⟨9999999999999/20000000000000, [g_abab [mₒ, nₒ, eᵥ, fᵥ], t2_aaaa [eᵥ, aᵥ, kₒ, lₒ], t4_aaabaaab [dᵥ, bᵥ, cᵥ, fᵥ, iₒ, jₒ, mₒ, nₒ]], [(1, [aᵥ, bᵥ, cᵥ, dᵥ, iₒ, jₒ, kₒ, lₒ]), (-1, [aᵥ, bᵥ, cᵥ, dᵥ, iₒ, kₒ, jₒ, lₒ]), (-1, [bᵥ, aᵥ, cᵥ, dᵥ, iₒ, jₒ, kₒ, lₒ]), (1, [bᵥ, aᵥ, cᵥ, dᵥ, iₒ, kₒ, jₒ, lₒ])]⟩,
  -- line 523: nmef,eail,fbcdjknm->abcdijkl
  ⟨-9999999999999/20000000000000, [g_aaaa [nₒ, mₒ, eᵥ, fᵥ], t2_aaaa [eᵥ, aᵥ, iₒ, lₒ], t4_aaaaaaaa [fᵥ, bᵥ, cᵥ, dᵥ, jₒ, kₒ, nₒ, mₒ]], [(1, [aᵥ, bᵥ, cᵥ, dᵥ, iₒ, jₒ, kₒ, lₒ]), (-1, [aᵥ, bᵥ, cᵥ, dᵥ, iₒ, jₒ, lₒ, kₒ]), (-1, [bᵥ, aᵥ, cᵥ, dᵥ, iₒ, jₒ, kₒ, lₒ]), (1, [bᵥ, aᵥ, cᵥ, dᵥ, iₒ, jₒ, lₒ, kₒ])]⟩,
  -- line 527: nmef,eail,dbcfjknm->abcdijkl
  ⟨9999999999999/20000000000000, [g_abab [nₒ, mₒ, eᵥ, fᵥ], t2_aaaa [eᵥ, aᵥ, iₒ, lₒ], t4_aaabaaab [dᵥ, bᵥ, cᵥ, fᵥ, jₒ, kₒ, nₒ, mₒ]], [(1, [aᵥ, bᵥ, cᵥ, dᵥ, iₒ, jₒ, kₒ, lₒ]), (-1, [aᵥ, bᵥ, cᵥ, dᵥ, iₒ, jₒ, lₒ, kₒ]), (-1, [bᵥ, aᵥ, cᵥ, dᵥ, iₒ, jₒ, kₒ, lₒ]), (1, [bᵥ, aᵥ, cᵥ, dᵥ, iₒ, jₒ, lₒ, kₒ])]⟩,
  -- line 531: mnef,eail,dbcfjkmn->abcdijkl
  ⟨9999999999999/20000000000000, [g_abab [mₒ, nₒ, eᵥ, fᵥ], t2_aaaa [eᵥ, aᵥ, iₒ, lₒ], t4_aaabaaab [dᵥ, bᵥ, cᵥ, fᵥ, jₒ, kₒ, mₒ, nₒ]], [(1, [aᵥ, bᵥ, cᵥ, dᵥ, iₒ, jₒ, kₒ, lₒ]), (-1, [aᵥ, bᵥ, cᵥ, dᵥ, iₒ, jₒ, lₒ, kₒ]), (-1, [bᵥ, aᵥ, cᵥ, dᵥ, iₒ, jₒ, kₒ, lₒ]), (1, [bᵥ, aᵥ, cᵥ, dᵥ, iₒ, jₒ, lₒ, kₒ])]⟩,
  -- line 535: nmef,eajk,fbcdilnm->abcdijkl
  ⟨-9999999999999/20000000000000, [g_aaaa [nₒ, mₒ, eᵥ, fᵥ], t2_aaaa [eᵥ, aᵥ, jₒ, kₒ], t4_aaaaaaaa [fᵥ, bᵥ, cᵥ, dᵥ, iₒ, lₒ, nₒ, mₒ]], [(1, [aᵥ, bᵥ, cᵥ, dᵥ, iₒ, jₒ, kₒ, lₒ]), (-1, [aᵥ, bᵥ, cᵥ, dᵥ, kₒ, jₒ, iₒ, lₒ]), (-1, [bᵥ, aᵥ, cᵥ, dᵥ, iₒ, jₒ, kₒ, lₒ]), (1, [bᵥ, aᵥ, cᵥ, dᵥ, kₒ, jₒ, iₒ, lₒ])]⟩,
  -- line 539: nmef,eajk,dbcfilnm->abcdijkl
  ⟨9999999999999/20000000000000, [g_abab [nₒ, mₒ, eᵥ, fᵥ], t2_aaaa [eᵥ, aᵥ, jₒ, kₒ], t4_aaabaaab [dᵥ, bᵥ, cᵥ, fᵥ, iₒ, lₒ, nₒ, mₒ]], [(1, [aᵥ, bᵥ, cᵥ, dᵥ, iₒ, jₒ, kₒ, lₒ]), (-1, [aᵥ, bᵥ, cᵥ, dᵥ, kₒ, jₒ, iₒ, lₒ]), (-1, [bᵥ, aᵥ, cᵥ, dᵥ, iₒ, jₒ, kₒ, lₒ]), (1, [bᵥ, aᵥ, cᵥ, dᵥ, kₒ, jₒ, iₒ, lₒ])]⟩,
  -- line 543: mnef,eajk,dbcfilmn->abcdijkl
  ⟨9999999999999/20000000000000, [g_abab [mₒ, nₒ, eᵥ, fᵥ], t2_aaaa [eᵥ, aᵥ, jₒ, kₒ], t4_aaabaaab [dᵥ, bᵥ, cᵥ, fᵥ, iₒ, lₒ, mₒ, nₒ]], [(1, [aᵥ, bᵥ, cᵥ, dᵥ, iₒ, jₒ, kₒ, lₒ]), (-1, [aᵥ, bᵥ, cᵥ, dᵥ, kₒ, jₒ, iₒ, lₒ]), (-1, [bᵥ, aᵥ, cᵥ, dᵥ, iₒ, jₒ, kₒ, lₒ]), (1, [bᵥ, aᵥ, cᵥ, dᵥ, kₒ, jₒ, iₒ, lₒ])]⟩,
  -- line 547: nmef,ecnm,fabdijkl->abcdijkl
  ⟨-9999999999999/20000000000000, [g_aaaa [nₒ, mₒ, eᵥ, fᵥ], t2_aaaa [eᵥ, cᵥ, nₒ, mₒ], t4_aaaaaaaa [fᵥ, aᵥ, bᵥ, dᵥ, iₒ, jₒ, kₒ, lₒ]], [(1, [aᵥ, bᵥ, cᵥ, dᵥ, iₒ, jₒ, kₒ, lₒ]), (-1, [aᵥ, bᵥ, dᵥ, cᵥ, iₒ, jₒ, kₒ, lₒ])]⟩,
  -- line 551: nmfe,cenm,fabdijkl->abcdijkl
  ⟨-9999999999999/20000000000000, [g_abab [nₒ, mₒ, fᵥ, eᵥ], t2_abab [cᵥ, eᵥ, nₒ, mₒ], t4_aaaaaaaa [fᵥ, aᵥ, bᵥ, dᵥ, iₒ, jₒ, kₒ, lₒ]], [(1, [aᵥ, bᵥ, cᵥ, dᵥ, iₒ, jₒ, kₒ, lₒ]), (-1, [aᵥ, bᵥ, dᵥ, cᵥ, iₒ, jₒ, kₒ, lₒ])]⟩,
  -- line 555: mnfe,cemn,fabdijkl->abcdijkl
  ⟨-9999999999999/20000000000000, [g_abab [mₒ, nₒ, fᵥ, eᵥ], t2_abab [cᵥ, eᵥ, mₒ, nₒ], t4_aaaaaaaa [fᵥ, aᵥ, bᵥ, dᵥ, iₒ, jₒ, kₒ, lₒ]], [(1, [aᵥ, bᵥ, cᵥ, dᵥ, iₒ, jₒ, kₒ, lₒ]), (-1, [aᵥ, bᵥ, dᵥ, cᵥ, iₒ, jₒ, kₒ, lₒ])]⟩,
  -- line 559: nmef,eclm,fabdijkn->abcdijkl
  ⟨6249999999999/6250000000000, [g_aaaa [nₒ, mₒ, eᵥ, fᵥ], t2_aaaa [eᵥ, cᵥ, lₒ, mₒ], t4_aaaaaaaa [fᵥ, aᵥ, bᵥ, dᵥ, iₒ, jₒ, kₒ, nₒ]], [(1, [aᵥ, bᵥ, cᵥ, dᵥ, iₒ, jₒ, kₒ, lₒ]), (-1, [aᵥ, bᵥ, cᵥ, dᵥ, iₒ, jₒ, lₒ, kₒ]), (-1, [aᵥ, bᵥ, dᵥ, cᵥ, iₒ, jₒ, kₒ, lₒ]), (1, [aᵥ, bᵥ, dᵥ, cᵥ, iₒ, jₒ, lₒ, kₒ])]⟩,
  -- line 563: mnef,eclm,dabfijkn->abcdijkl
  ⟨6249999999999/6250000000000, [g_abab [mₒ, nₒ, eᵥ, fᵥ], t2_aaaa [eᵥ, cᵥ, lₒ, mₒ], t4_aaabaaab [dᵥ, aᵥ, bᵥ, fᵥ, iₒ, jₒ, kₒ, nₒ]], [(1, [aᵥ, bᵥ, cᵥ, dᵥ, iₒ, jₒ, kₒ, lₒ]), (-1, [aᵥ, bᵥ, cᵥ, dᵥ, iₒ, jₒ, lₒ, kₒ]), (-1, [aᵥ, bᵥ, dᵥ, cᵥ, iₒ, jₒ, kₒ, lₒ]), (1, [aᵥ, bᵥ, dᵥ, cᵥ, iₒ, jₒ, lₒ, kₒ])]⟩,
  -- line 567: nmfe,celm,fabdijkn->abcdijkl
  ⟨6249999999999/6250000000000, [g_abab [nₒ, mₒ, fᵥ, eᵥ], t2_abab [cᵥ, eᵥ, lₒ, mₒ], t4_aaaaaaaa [fᵥ, aᵥ, bᵥ, dᵥ, iₒ, jₒ, kₒ, nₒ]], [(1, [aᵥ, bᵥ, cᵥ, dᵥ, iₒ, jₒ, kₒ, lₒ]), (-1, [aᵥ, bᵥ, cᵥ, dᵥ, iₒ, jₒ, lₒ, kₒ]), (-1, [aᵥ, bᵥ, dᵥ, cᵥ, iₒ, jₒ, kₒ, lₒ]), (1, [aᵥ, bᵥ, dᵥ, cᵥ, iₒ, jₒ, lₒ, kₒ])]⟩,
  -- line 571: nmef,celm,dabfijkn->abcdijkl
  ⟨6249999999999/6250000000000, [g_bbbb [nₒ, mₒ, eᵥ, fᵥ], t2_abab [cᵥ, eᵥ, lₒ, mₒ], t4_aaabaaab [dᵥ, aᵥ, bᵥ, fᵥ, iₒ, jₒ, kₒ, nₒ]], [(1, [aᵥ, bᵥ, cᵥ, dᵥ, iₒ, jₒ, kₒ, lₒ]), (-1, [aᵥ, bᵥ, cᵥ, dᵥ, iₒ, jₒ, lₒ, kₒ]), (-1, [aᵥ, bᵥ, dᵥ, cᵥ, iₒ, jₒ, kₒ, lₒ]), (1, [aᵥ, bᵥ, dᵥ, cᵥ, iₒ, jₒ, lₒ, kₒ])]⟩,
  -- line 575: nmef,ecjm,fabdikln->abcdijkl
  ⟨6249999999999/6250000000000, [g_aaaa [nₒ, mₒ, eᵥ, fᵥ], t2_aaaa [eᵥ, cᵥ, jₒ, mₒ], t4_aaaaaaaa [fᵥ, aᵥ, bᵥ, dᵥ, iₒ, kₒ, lₒ, nₒ]], [(1, [aᵥ, bᵥ, cᵥ, dᵥ, iₒ, jₒ, kₒ, lₒ]), (-1, [aᵥ, bᵥ, cᵥ, dᵥ, jₒ, iₒ, kₒ, lₒ]), (-1, [aᵥ, bᵥ, dᵥ, cᵥ, iₒ, jₒ, kₒ, lₒ]), (1, [aᵥ, bᵥ, dᵥ, cᵥ, jₒ, iₒ, kₒ, lₒ])]⟩,
  -- line 579: mnef,ecjm,dabfikln->abcdijkl
  ⟨6249999999999/6250000000000, [g_abab [mₒ, nₒ, eᵥ, fᵥ], t2_aaaa [eᵥ, cᵥ, jₒ, mₒ], t4_aaabaaab [dᵥ, aᵥ, bᵥ, fᵥ, iₒ, kₒ, lₒ, nₒ]], [(1, [aᵥ, bᵥ, cᵥ, dᵥ, iₒ, jₒ, kₒ, lₒ]), (-1, [aᵥ, bᵥ, cᵥ, dᵥ, jₒ, iₒ, kₒ, lₒ]), (-1, [aᵥ, bᵥ, dᵥ, cᵥ, iₒ, jₒ, kₒ, lₒ]), (1, [aᵥ, bᵥ, dᵥ, cᵥ, jₒ, iₒ, kₒ, lₒ])]⟩,
  -- line 583: nmfe,cejm,fabdikln->abcdijkl
  ⟨6249999999999/6250000000000, [g_abab [nₒ, mₒ, fᵥ, eᵥ], t2_abab [cᵥ, eᵥ, jₒ, mₒ], t4_aaaaaaaa [fᵥ, aᵥ, bᵥ, dᵥ, iₒ, kₒ, lₒ, nₒ]], [(1, [aᵥ, bᵥ, cᵥ, dᵥ, iₒ, jₒ, kₒ, lₒ]), (-1, [aᵥ, bᵥ, cᵥ, dᵥ, jₒ, iₒ, kₒ, lₒ]), (-1, [aᵥ, bᵥ, dᵥ, cᵥ, iₒ, jₒ, kₒ, lₒ]), (1, [aᵥ, bᵥ, dᵥ, cᵥ, jₒ, iₒ, kₒ, lₒ])]⟩,
  -- line 587: nmef,cejm,dabfikln->abcdijkl
  ⟨6249999999999/6250000000000, [g_bbbb [nₒ, mₒ, eᵥ, fᵥ], t2_abab [cᵥ, eᵥ, jₒ, mₒ], t4_aaabaaab [dᵥ, aᵥ, bᵥ, fᵥ, iₒ, kₒ, lₒ, nₒ]], [(1, [aᵥ, bᵥ, cᵥ, dᵥ, iₒ, jₒ, kₒ, lₒ]), (-1, [aᵥ, bᵥ, cᵥ, dᵥ, jₒ, iₒ, kₒ, lₒ]), (-1, [aᵥ, bᵥ, dᵥ, cᵥ, iₒ, jₒ, kₒ, lₒ]), (1, [aᵥ, bᵥ, dᵥ, cᵥ, jₒ, iₒ, kₒ, lₒ])]⟩,
  -- line 591: nmef,eckl,fabdijnm->abcdijkl
  ⟨-9999999999999/20000000000000, [g_aaaa [nₒ, mₒ, eᵥ, fᵥ], t2_aaaa [eᵥ, cᵥ, kₒ, lₒ], t4_aaaaaaaa [fᵥ, aᵥ, bᵥ, dᵥ, iₒ, jₒ, nₒ, mₒ]], [(1, [aᵥ, bᵥ, cᵥ, dᵥ, iₒ, jₒ, kₒ, lₒ]), (-1, [aᵥ, bᵥ, cᵥ, dᵥ, iₒ, kₒ, jₒ, lₒ]), (-1, [aᵥ, bᵥ, dᵥ, cᵥ, iₒ, jₒ, kₒ, lₒ]), (1, [aᵥ, bᵥ, dᵥ, cᵥ, iₒ, kₒ, jₒ, lₒ])]⟩,
  -- line 595: nmef,eckl,dabfijnm->abcdijkl
  ⟨9999999999999/20000000000000, [g_abab [nₒ, mₒ, eᵥ, fᵥ], t2_aaaa [eᵥ, cᵥ, kₒ, lₒ], t4_aaabaaab [dᵥ, aᵥ, bᵥ, fᵥ, iₒ, jₒ, nₒ, mₒ]], [(1, [aᵥ, bᵥ, cᵥ, dᵥ, iₒ, jₒ, kₒ, lₒ]), (-1, [aᵥ, bᵥ, cᵥ, dᵥ, iₒ, kₒ, jₒ, lₒ]), (-1, [aᵥ, bᵥ, dᵥ, cᵥ, iₒ, jₒ, kₒ, lₒ]), (1, [aᵥ, bᵥ, dᵥ, cᵥ, iₒ, kₒ, jₒ, lₒ])]⟩,
  -- line 599: mnef,eckl,dabfijmn->abcdijkl
  ⟨9999999999999/20000000000000, [g_abab [mₒ, nₒ, eᵥ, fᵥ], t2_aaaa [eᵥ, cᵥ, kₒ, lₒ], t4_aaabaaab [dᵥ, aᵥ, bᵥ, fᵥ, iₒ, jₒ, mₒ, nₒ]], [(1, [aᵥ, bᵥ, cᵥ, dᵥ, iₒ, jₒ, kₒ, lₒ]), (-1, [aᵥ, bᵥ, cᵥ, dᵥ, iₒ, kₒ, jₒ, lₒ]), (-1, [aᵥ, bᵥ, dᵥ, cᵥ, iₒ, jₒ, kₒ, lₒ]), (1, [aᵥ, bᵥ, dᵥ, cᵥ, iₒ, kₒ, jₒ, lₒ])]⟩,
  -- line 603: nmef,ecil,fabdjknm->abcdijkl
  ⟨-9999999999999/20000000000000, [g_aaaa [nₒ, mₒ, eᵥ, fᵥ], t2_aaaa [eᵥ, cᵥ, iₒ, lₒ], t4_aaaaaaaa [fᵥ, aᵥ, bᵥ, dᵥ, jₒ, kₒ, nₒ, mₒ]], [(1, [aᵥ, bᵥ, cᵥ, dᵥ, iₒ, jₒ, kₒ, lₒ]), (-1, [aᵥ, bᵥ, cᵥ, dᵥ, iₒ, jₒ, lₒ, kₒ]), (-1, [aᵥ, bᵥ, dᵥ, cᵥ, iₒ, jₒ, kₒ, lₒ]), (1, [aᵥ, bᵥ, dᵥ, cᵥ, iₒ, jₒ, lₒ, kₒ])]⟩,
  -- line 607: nmef,ecil,dabfjknm->abcdijkl
  ⟨9999999999999/20000000000000, [g_abab [nₒ, mₒ, eᵥ, fᵥ], t2_aaaa [eᵥ, cᵥ, iₒ, lₒ], t4_aaabaaab [dᵥ, aᵥ, bᵥ, fᵥ, jₒ, kₒ, nₒ, mₒ]], [(1, [aᵥ, bᵥ, cᵥ, dᵥ, iₒ, jₒ, kₒ, lₒ]), (-1, [aᵥ, bᵥ, cᵥ, dᵥ, iₒ, jₒ, lₒ, kₒ]), (-1, [aᵥ, bᵥ, dᵥ, cᵥ, iₒ, jₒ, kₒ, lₒ]), (1, [aᵥ, bᵥ, dᵥ, cᵥ, iₒ, jₒ, lₒ, kₒ])]⟩,
  -- line 611: mnef,ecil,dabfjkmn->abcdijkl
  ⟨9999999999999/20000000000000, [g_abab [mₒ, nₒ, eᵥ, fᵥ], t2_aaaa [eᵥ, cᵥ, iₒ, lₒ], t4_aaabaaab [dᵥ, aᵥ, bᵥ, fᵥ, jₒ, kₒ, mₒ, nₒ]], [(1, [aᵥ, bᵥ, cᵥ, dᵥ, iₒ, jₒ, kₒ, lₒ]), (-1, [aᵥ, bᵥ, cᵥ, dᵥ, iₒ, jₒ, lₒ, kₒ]), (-1, [aᵥ, bᵥ, dᵥ, cᵥ, iₒ, jₒ, kₒ, lₒ]), (1, [aᵥ, bᵥ, dᵥ, cᵥ, iₒ, jₒ, lₒ, kₒ])]⟩,
  -- line 615: nmef,ecjk,fabdilnm->abcdijkl
  ⟨-9999999999999/20000000000000, [g_aaaa [nₒ, mₒ, eᵥ, fᵥ], t2_aaaa [eᵥ, cᵥ, jₒ, kₒ], t4_aaaaaaaa [fᵥ, aᵥ, bᵥ, dᵥ, iₒ, lₒ, nₒ, mₒ]], [(1, [aᵥ, bᵥ, cᵥ, dᵥ, iₒ, jₒ, kₒ, lₒ]), (-1, [aᵥ, bᵥ, cᵥ, dᵥ, kₒ, jₒ, iₒ, lₒ]), (-1, [aᵥ, bᵥ, dᵥ, cᵥ, iₒ, jₒ, kₒ, lₒ]), (1, [aᵥ, bᵥ, dᵥ, cᵥ, kₒ, jₒ, iₒ, lₒ])]⟩,
  -- line 619: nmef,ecjk,dabfilnm->abcdijkl
  ⟨9999999999999/20000000000000, [g_abab [nₒ, mₒ, eᵥ, fᵥ], t2_aaaa [eᵥ, cᵥ, jₒ, kₒ], t4_aaabaaab [dᵥ, aᵥ, bᵥ, fᵥ, iₒ, lₒ, nₒ, mₒ]], [(1, [aᵥ, bᵥ, cᵥ, dᵥ, iₒ, jₒ, kₒ, lₒ]), (-1, [aᵥ, bᵥ, cᵥ, dᵥ, kₒ, jₒ, iₒ, lₒ]), (-1, [aᵥ, bᵥ, dᵥ, cᵥ, iₒ, jₒ, kₒ, lₒ]), (1, [aᵥ, bᵥ, dᵥ, cᵥ, kₒ, jₒ, iₒ, lₒ])]⟩,
  -- line 623: mnef,ecjk,dabfilmn->abcdijkl
  ⟨9999999999999/20000000000000, [g_abab [mₒ, nₒ, eᵥ, fᵥ], t2_aaaa [eᵥ, cᵥ, jₒ, kₒ], t4_aaabaaab [dᵥ, aᵥ, bᵥ, fᵥ, iₒ, lₒ, mₒ, nₒ]], [(1, [aᵥ, bᵥ, cᵥ, dᵥ, iₒ, jₒ, kₒ, lₒ]), (-1, [aᵥ, bᵥ, cᵥ, dᵥ, kₒ, jₒ, iₒ, lₒ]), (-1, [aᵥ, bᵥ, dᵥ, cᵥ, iₒ, jₒ, kₒ, lₒ]), (1, [aᵥ, bᵥ, dᵥ, cᵥ, kₒ, jₒ, iₒ, lₒ])]⟩,
  -- line 627: nmef,abnm,efcdijkl->abcdijkl
  ⟨25000000000001/100000000000000, [g_aaaa [nₒ, mₒ, eᵥ, fᵥ], t2_aaaa [aᵥ, bᵥ, nₒ, mₒ], t4_aaaaaaaa [eᵥ, fᵥ, cᵥ, dᵥ, iₒ, jₒ, kₒ, lₒ]], [(1, [aᵥ, bᵥ, cᵥ, dᵥ, iₒ, jₒ, kₒ, lₒ]), (-1, [aᵥ, cᵥ, bᵥ, dᵥ, iₒ, jₒ, kₒ, lₒ])]⟩,
  -- line 631: nmef,ablm,efcdijkn->abcdijkl
  ⟨-9999999999999/20000000000000, [g_aaaa [nₒ, mₒ, eᵥ, fᵥ], t2_aaaa [aᵥ, bᵥ, lₒ, mₒ], t4_aaaaaaaa [eᵥ, fᵥ, cᵥ, dᵥ, iₒ, jₒ, kₒ, nₒ]], [(1, [aᵥ, bᵥ, cᵥ, dᵥ, iₒ, jₒ, kₒ, lₒ]), (-1, [aᵥ, bᵥ, cᵥ, dᵥ, iₒ, jₒ, lₒ, kₒ]), (-1, [aᵥ, cᵥ, bᵥ, dᵥ, iₒ, jₒ, kₒ, lₒ]), (1, [aᵥ, cᵥ, bᵥ, dᵥ, iₒ, jₒ, lₒ, kₒ])]⟩,
  -- line 635: mnef,ablm,edcfijkn->abcdijkl
  ⟨-9999999999999/20000000000000, [g_abab [mₒ, nₒ, eᵥ, fᵥ], t2_aaaa [aᵥ, bᵥ, lₒ, mₒ], t4_aaabaaab [eᵥ, dᵥ, cᵥ, fᵥ, iₒ, jₒ, kₒ, nₒ]], [(1, [aᵥ, bᵥ, cᵥ, dᵥ, iₒ, jₒ, kₒ, lₒ]), (-1, [aᵥ, bᵥ, cᵥ, dᵥ, iₒ, jₒ, lₒ, kₒ]), (-1, [aᵥ, cᵥ, bᵥ, dᵥ, iₒ, jₒ, kₒ, lₒ]), (1, [aᵥ, cᵥ, bᵥ, dᵥ, iₒ, jₒ, lₒ, kₒ])]⟩,
  -- line 639: mnfe,ablm,dfceijkn->abcdijkl
  ⟨9999999999999/20000000000000, [g_abab [mₒ, nₒ, fᵥ, eᵥ], t2_aaaa [aᵥ, bᵥ, lₒ, mₒ], t4_aaabaaab [dᵥ, fᵥ, cᵥ, eᵥ, iₒ, jₒ, kₒ, nₒ]], [(1, [aᵥ, bᵥ, cᵥ, dᵥ, iₒ, jₒ, kₒ, lₒ]), (-1, [aᵥ, bᵥ, cᵥ, dᵥ, iₒ, jₒ, lₒ, kₒ]), (-1, [aᵥ, cᵥ, bᵥ, dᵥ, iₒ, jₒ, kₒ, lₒ]), (1, [aᵥ, cᵥ, bᵥ, dᵥ, iₒ, jₒ, lₒ, kₒ])]⟩,
  -- line 643: nmef,abjm,efcdikln->abcdijkl
  ⟨-9999999999999/20000000000000, [g_aaaa [nₒ, mₒ, eᵥ, fᵥ], t2_aaaa [aᵥ, bᵥ, jₒ, mₒ], t4_aaaaaaaa [eᵥ, fᵥ, cᵥ, dᵥ, iₒ, kₒ, lₒ, nₒ]], [(1, [aᵥ, bᵥ, cᵥ, dᵥ, iₒ, jₒ, kₒ, lₒ]), (-1, [aᵥ, bᵥ, cᵥ, dᵥ, jₒ, iₒ, kₒ, lₒ]), (-1, [aᵥ, cᵥ, bᵥ, dᵥ, iₒ, jₒ, kₒ, lₒ]), (1, [aᵥ, cᵥ, bᵥ, dᵥ, jₒ, iₒ, kₒ, lₒ])]⟩,
  -- line 647: mnef,abjm,edcfikln->abcdijkl
  ⟨-9999999999999/20000000000000, [g_abab [mₒ, nₒ, eᵥ, fᵥ], t2_aaaa [aᵥ, bᵥ, jₒ, mₒ], t4_aaabaaab [eᵥ, dᵥ, cᵥ, fᵥ, iₒ, kₒ, lₒ, nₒ]], [(1, [aᵥ, bᵥ, cᵥ, dᵥ, iₒ, jₒ, kₒ, lₒ]), (-1, [aᵥ, bᵥ, cᵥ, dᵥ, jₒ, iₒ, kₒ, lₒ]), (-1, [aᵥ, cᵥ, bᵥ, dᵥ, iₒ, jₒ, kₒ, lₒ]), (1, [aᵥ, cᵥ, bᵥ, dᵥ, jₒ, iₒ, kₒ, lₒ])]⟩,
  -- line 651: mnfe,abjm,dfceikln->abcdijkl
  ⟨9999999999999/20000000000000, [g_abab [mₒ, nₒ, fᵥ, eᵥ], t2_aaaa [aᵥ, bᵥ, jₒ, mₒ], t4_aaabaaab [dᵥ, fᵥ, cᵥ, eᵥ, iₒ, kₒ, lₒ, nₒ]], [(1, [aᵥ, bᵥ, cᵥ, dᵥ, iₒ, jₒ, kₒ, lₒ]), (-1, [aᵥ, bᵥ, cᵥ, dᵥ, jₒ, iₒ, kₒ, lₒ]), (-1, [aᵥ, cᵥ, bᵥ, dᵥ, iₒ, jₒ, kₒ, lₒ]), (1, [aᵥ, cᵥ, bᵥ, dᵥ, jₒ, iₒ, kₒ, lₒ])]⟩,
  -- line 655: nmef,adnm,efbcijkl->abcdijkl
  ⟨25000000000001/100000000000000, [g_aaaa [nₒ, mₒ, eᵥ, fᵥ], t2_aaaa [aᵥ, dᵥ, nₒ, mₒ], t4_aaaaaaaa [eᵥ, fᵥ, bᵥ, cᵥ, iₒ, jₒ, kₒ, lₒ]], [(1, [aᵥ, bᵥ, cᵥ, dᵥ, iₒ, jₒ, kₒ, lₒ]), (-1, [bᵥ, aᵥ, cᵥ, dᵥ, iₒ, jₒ, kₒ, lₒ])]⟩,
  -- line 659: nmef,adlm,efbcijkn->abcdijkl
  ⟨-9999999999999/20000000000000, [g_aaaa [nₒ, mₒ, eᵥ, fᵥ], t2_aaaa [aᵥ, dᵥ, lₒ, mₒ], t4_aaaaaaaa [eᵥ, fᵥ, bᵥ, cᵥ, iₒ, jₒ, kₒ, nₒ]], [(1, [aᵥ, bᵥ, cᵥ, dᵥ, iₒ, jₒ, kₒ, lₒ]), (-1, [aᵥ, bᵥ, cᵥ, dᵥ, iₒ, jₒ, lₒ, kₒ]), (-1, [bᵥ, aᵥ, cᵥ, dᵥ, iₒ, jₒ, kₒ, lₒ]), (1, [bᵥ, aᵥ, cᵥ, dᵥ, iₒ, jₒ, lₒ, kₒ])]⟩,
  -- line 663: mnef,adlm,ecbfijkn->abcdijkl
  ⟨-9999999999999/20000000000000, [g_abab [mₒ, nₒ, eᵥ, fᵥ], t2_aaaa [aᵥ, dᵥ, lₒ, mₒ], t4_aaabaaab [eᵥ, cᵥ, bᵥ, fᵥ, iₒ, jₒ, kₒ, nₒ]], [(1, [aᵥ, bᵥ, cᵥ, dᵥ, iₒ, jₒ, kₒ, lₒ]), (-1, [aᵥ, bᵥ, cᵥ, dᵥ, iₒ, jₒ, lₒ, kₒ]), (-1, [bᵥ, aᵥ, cᵥ, dᵥ, iₒ, jₒ, kₒ, lₒ]), (1, [bᵥ, aᵥ, cᵥ, dᵥ, iₒ, jₒ, lₒ, kₒ])]⟩,
  -- line 667: mnfe,adlm,cfbeijkn->abcdijkl
  ⟨9999999999999/20000000000000, [g_abab [mₒ, nₒ, fᵥ, eᵥ], t2_aaaa [aᵥ, dᵥ, lₒ, mₒ], t4_aaabaaab [cᵥ, fᵥ, bᵥ, eᵥ, iₒ, jₒ, kₒ, nₒ]], [(1, [aᵥ, bᵥ, cᵥ, dᵥ, iₒ, jₒ, kₒ, lₒ]), (-1, [aᵥ, bᵥ, cᵥ, dᵥ, iₒ, jₒ, lₒ, kₒ]), (-1, [bᵥ, aᵥ, cᵥ, dᵥ, iₒ, jₒ, kₒ, lₒ]), (1, [bᵥ, aᵥ, cᵥ, dᵥ, iₒ, jₒ, lₒ, kₒ])]⟩,
  -- line 671: nmef,adjm,efbcikln->abcdijkl
  ⟨-9999999999999/20000000000000, [g_aaaa [nₒ, mₒ, eᵥ, fᵥ], t2_aaaa [aᵥ, dᵥ, jₒ, mₒ], t4_aaaaaaaa [eᵥ, fᵥ, bᵥ, cᵥ, iₒ, kₒ, lₒ, nₒ]], [(1, [aᵥ, bᵥ, cᵥ, dᵥ, iₒ, jₒ, kₒ, lₒ]), (-1, [aᵥ, bᵥ, cᵥ, dᵥ, jₒ, iₒ, kₒ, lₒ]), (-1, [bᵥ, aᵥ, cᵥ, dᵥ, iₒ, jₒ, kₒ, lₒ]), (1, [bᵥ, aᵥ, cᵥ, dᵥ, jₒ, iₒ, kₒ, lₒ])]⟩,
  -- line 675: mnef,adjm,ecbfikln->abcdijkl
  ⟨-9999999999999/20000000000000, [g_abab [mₒ, nₒ, eᵥ, fᵥ], t2_aaaa [aᵥ, dᵥ, jₒ, mₒ], t4_aaabaaab [eᵥ, cᵥ, bᵥ, fᵥ, iₒ, kₒ, lₒ, nₒ]], [(1, [aᵥ, bᵥ, cᵥ, dᵥ, iₒ, jₒ, kₒ, lₒ]), (-1, [aᵥ, bᵥ, cᵥ, dᵥ, jₒ, iₒ, kₒ, lₒ]), (-1, [bᵥ, aᵥ, cᵥ, dᵥ, iₒ, jₒ, kₒ, lₒ]), (1, [bᵥ, aᵥ, cᵥ, dᵥ, jₒ, iₒ, kₒ, lₒ])]⟩
  ]

/-- Part 2 of `ccdq_t4_aaaaaaaa`. -/
def ccdq_t4_aaaaaaaa_2 : Prog := [
  -- line 679: mnfe,adjm,cfbeikln->abcdijkl
  ⟨9999999999999/20000000000000, [g_abab [mₒ, nₒ, fᵥ, eᵥ], t2_aaaa [aᵥ, dᵥ, jₒ, mₒ], t4_aaabaaab [cᵥ, fᵥ, bᵥ, eᵥ, iₒ, kₒ, lₒ, nₒ]], [(1, [aᵥ, bᵥ, cᵥ, dᵥ, iₒ, jₒ, kₒ, lₒ]), (-1, [aᵥ, bᵥ, cᵥ, dᵥ, jₒ, iₒ, kₒ, lₒ]), (-1, [bᵥ, aᵥ, cᵥ, dᵥ, iₒ, jₒ, kₒ, lₒ]), (1, [bᵥ, aᵥ, cᵥ, dᵥ, jₒ, iₒ, kₒ, lₒ])]⟩,
  -- line 683: nmef,bcnm,efadijkl->abcdijkl
  ⟨25000000000001/100000000000000, [g_aaaa [nₒ, mₒ, eᵥ, fᵥ], t2_aaaa [bᵥ, cᵥ, nₒ, mₒ], t4_aaaaaaaa [eᵥ, fᵥ, aᵥ, dᵥ, iₒ, jₒ, kₒ, lₒ]], [(1, [aᵥ, bᵥ, cᵥ, dᵥ, iₒ, jₒ, kₒ, lₒ]), (-1, [aᵥ, dᵥ, cᵥ, bᵥ, iₒ, jₒ, kₒ, lₒ])]⟩,
  -- line 687: nmef,bclm,efadijkn->abcdijkl
  ⟨-9999999999999/20000000000000, [g_aaaa [nₒ, mₒ, eᵥ, fᵥ], t2_aaaa [bᵥ, cᵥ, lₒ, mₒ], t4_aaaaaaaa [eᵥ, fᵥ, aᵥ, dᵥ, iₒ, jₒ, kₒ, nₒ]], [(1, [aᵥ, bᵥ, cᵥ, dᵥ, iₒ, jₒ, kₒ, lₒ]), (-1, [aᵥ, bᵥ, cᵥ, dᵥ, iₒ, jₒ, lₒ, kₒ]), (-1, [aᵥ, dᵥ, cᵥ, bᵥ, iₒ, jₒ, kₒ, lₒ]), (1, [aᵥ, dᵥ, cᵥ, bᵥ, iₒ, jₒ, lₒ, kₒ])]⟩,
  -- line 691: mnef,bclm,edafijkn->abcdijkl
  ⟨-9999999999999/20000000000000, [g_abab [mₒ, nₒ, eᵥ, fᵥ], t2_aaaa [bᵥ, cᵥ, lₒ, mₒ], t4_aaabaaab [eᵥ, dᵥ, aᵥ, fᵥ, iₒ, jₒ, kₒ, nₒ]], [(1, [aᵥ, bᵥ, cᵥ, dᵥ, iₒ, jₒ, kₒ, lₒ]), (-1, [aᵥ, bᵥ, cᵥ, dᵥ, iₒ, jₒ, lₒ, kₒ]), (-1, [aᵥ, dᵥ, cᵥ, bᵥ, iₒ, jₒ, kₒ, lₒ]), (1, [aᵥ, dᵥ, cᵥ, bᵥ, iₒ, jₒ, lₒ, kₒ])]⟩,
  -- line 695: mnfe,bclm,dfaeijkn->abcdijkl
  ⟨9999999999999/20000000000000, [g_abab [mₒ, nₒ, fᵥ, eᵥ], t2_aaaa [bᵥ, cᵥ, lₒ, mₒ], t4_aaabaaab [dᵥ, fᵥ, aᵥ, eᵥ, iₒ, jₒ, kₒ, nₒ]], [(1, [aᵥ, bᵥ, cᵥ, dᵥ, iₒ, jₒ, kₒ, lₒ]), (-1, [aᵥ, bᵥ, cᵥ, dᵥ, iₒ, jₒ, lₒ, kₒ]), (-1, [aᵥ, dᵥ, cᵥ, bᵥ, iₒ, jₒ, kₒ, lₒ]), (1, [aᵥ, dᵥ, cᵥ, bᵥ, iₒ, jₒ, lₒ, kₒ])]⟩,
  -- line 699: nmef,bcjm,efadikln->abcdijkl
  ⟨-9999999999999/20000000000000, [g_aaaa [nₒ, mₒ, eᵥ, fᵥ], t2_aaaa [bᵥ, cᵥ, jₒ, mₒ], t4_aaaaaaaa [eᵥ, fᵥ, aᵥ, dᵥ, iₒ, kₒ, lₒ, nₒ]], [(1, [aᵥ, bᵥ, cᵥ, dᵥ, iₒ, jₒ, kₒ, lₒ]), (-1, [aᵥ, bᵥ, cᵥ, dᵥ, jₒ, iₒ, kₒ, lₒ]), (-1, [aᵥ, dᵥ, cᵥ, bᵥ, iₒ, jₒ, kₒ, lₒ]), (1, [aᵥ, dᵥ, cᵥ, bᵥ, jₒ, iₒ, kₒ, lₒ])]⟩,
  -- line 703: mnef,bcjm,edafikln->abcdijkl
  ⟨-9999999999999/20000000000000, [g_abab [mₒ, nₒ, eᵥ, fᵥ], t2_aaaa [bᵥ, cᵥ, jₒ, mₒ], t4_aaabaaab [eᵥ, dᵥ, aᵥ, fᵥ, iₒ, kₒ, lₒ, nₒ]], [(1, [aᵥ, bᵥ, cᵥ, dᵥ, iₒ, jₒ, kₒ, lₒ]), (-1, [aᵥ, bᵥ, cᵥ, dᵥ, jₒ, iₒ, kₒ, lₒ]), (-1, [aᵥ, dᵥ, cᵥ, bᵥ, iₒ, jₒ, kₒ, lₒ]), (1, [aᵥ, dᵥ, cᵥ, bᵥ, jₒ, iₒ, kₒ, lₒ])]⟩,
  -- line 707: mnfe,bcjm,dfaeikln->abcdijkl
  ⟨9999999999999/20000000000000, [g_abab [mₒ, nₒ, fᵥ, eᵥ], t2_aaaa [bᵥ, cᵥ, jₒ, mₒ], t4_aaabaaab [dᵥ, fᵥ, aᵥ, eᵥ, iₒ, kₒ, lₒ, nₒ]], [(1, [aᵥ, bᵥ, cᵥ, dᵥ, iₒ, jₒ, kₒ, lₒ]), (-1, [aᵥ, bᵥ, cᵥ, dᵥ, jₒ, iₒ, kₒ, lₒ]), (-1, [aᵥ, dᵥ, cᵥ, bᵥ, iₒ, jₒ, kₒ, lₒ]), (1, [aᵥ, dᵥ, cᵥ, bᵥ, jₒ, iₒ, kₒ, lₒ])]⟩,
  -- line 711: nmkl,abjm,cdin->abcdijkl
  ⟨-1, [g_aaaa [nₒ, mₒ, kₒ, lₒ], t2_aaaa [aᵥ, bᵥ, jₒ, mₒ], t2_aaaa [cᵥ, dᵥ, iₒ, nₒ]], [(1, [aᵥ, bᵥ, cᵥ, dᵥ, iₒ, jₒ, kₒ, lₒ]), (-1, [aᵥ, bᵥ, cᵥ, dᵥ, jₒ, iₒ, kₒ, lₒ]), (-1, [aᵥ, cᵥ, bᵥ, dᵥ, iₒ, jₒ, kₒ, lₒ]), (1, [aᵥ, cᵥ, bᵥ, dᵥ, jₒ, iₒ, kₒ, lₒ])]⟩,
  -- line 715: nmkl,adjm,bcin->abcdijkl
  ⟨-1, [g_aaaa [nₒ, mₒ, kₒ, lₒ], t2_aaaa [aᵥ, dᵥ, jₒ, mₒ], t2_aaaa [bᵥ, cᵥ, iₒ, nₒ]], [(1, [aᵥ, bᵥ, cᵥ, dᵥ, iₒ, jₒ, kₒ, lₒ]), (-1, [aᵥ, bᵥ, cᵥ, dᵥ, jₒ, iₒ, kₒ, lₒ])]⟩,
  -- line 719: nmjl,abkm,cdin->abcdijkl
  ⟨1, [g_aaaa [nₒ, mₒ, jₒ, lₒ], t2_aaaa [aᵥ, bᵥ, kₒ, mₒ], t2_aaaa [cᵥ, dᵥ, iₒ, nₒ]], [(1, [aᵥ, bᵥ, cᵥ, dᵥ, iₒ, jₒ, kₒ, lₒ]), (-1, [aᵥ, bᵥ, cᵥ, dᵥ, kₒ, jₒ, iₒ, lₒ]), (-1, [aᵥ, cᵥ, bᵥ, dᵥ, iₒ, jₒ, kₒ, lₒ]), (1, [aᵥ, cᵥ, bᵥ, dᵥ, kₒ, jₒ, iₒ, lₒ])]⟩,
  -- line 723: nmjl,adkm,bcin->abcdijkl
  ⟨1, [g_aaaa [nₒ, mₒ, jₒ, lₒ], t2_aaaa [aᵥ, dᵥ, kₒ, mₒ], t2_aaaa [bᵥ, cᵥ, iₒ, nₒ]], [(1, [aᵥ, bᵥ, cᵥ, dᵥ, iₒ, jₒ, kₒ, lₒ]), (-1, [aᵥ, bᵥ, cᵥ, dᵥ, kₒ, jₒ, iₒ, lₒ])]⟩,
  -- line 727: nmil,abkm,cdjn->abcdijkl
  ⟨-1, [g_aaaa [nₒ, mₒ, iₒ, lₒ], t2_aaaa [aᵥ, bᵥ, kₒ, mₒ], t2_aaaa [cᵥ, dᵥ, jₒ, nₒ]], [(1, [aᵥ, bᵥ, cᵥ, dᵥ, iₒ, jₒ, kₒ, lₒ]), (-1, [aᵥ, bᵥ, cᵥ, dᵥ, iₒ, kₒ, jₒ, lₒ]), (-1, [aᵥ, cᵥ, bᵥ, dᵥ, iₒ, jₒ, kₒ, lₒ]), (1, [aᵥ, cᵥ, bᵥ, dᵥ, iₒ, kₒ, jₒ, lₒ])]⟩,
  -- line 731: nmil,adkm,bcjn->abcdijkl
  ⟨-1, [g_aaaa [nₒ, mₒ, iₒ, lₒ], t2_aaaa [aᵥ, dᵥ, kₒ, mₒ], t2_aaaa [bᵥ, cᵥ, jₒ, nₒ]], [(1, [aᵥ, bᵥ, cᵥ, dᵥ, iₒ, jₒ, kₒ, lₒ]), (-1, [aᵥ, bᵥ, cᵥ, dᵥ, iₒ, kₒ, jₒ, lₒ])]⟩,
  -- line 735: nmjk,ablm,cdin->abcdijkl
  ⟨-1, [g_aaaa [nₒ, mₒ, jₒ, kₒ], t2_aaaa [aᵥ, bᵥ, lₒ, mₒ], t2_aaaa [cᵥ, dᵥ, iₒ, nₒ]], [(1, [aᵥ, bᵥ, cᵥ, dᵥ, iₒ, jₒ, kₒ, lₒ]), (-1, [aᵥ, bᵥ, cᵥ, dᵥ, lₒ, jₒ, kₒ, iₒ]), (-1, [aᵥ, cᵥ, bᵥ, dᵥ, iₒ, jₒ, kₒ, lₒ]), (1, [aᵥ, cᵥ, bᵥ, dᵥ, lₒ, jₒ, kₒ, iₒ])]⟩,
  -- line 739: nmjk,adlm,bcin->abcdijkl
  ⟨-1, [g_aaaa [nₒ, mₒ, jₒ, kₒ], t2_aaaa [aᵥ, dᵥ, lₒ, mₒ], t2_aaaa [bᵥ, cᵥ, iₒ, nₒ]], [(1, [aᵥ, bᵥ, cᵥ, dᵥ, iₒ, jₒ, kₒ, lₒ]), (-1, [aᵥ, bᵥ, cᵥ, dᵥ, lₒ, jₒ, kₒ, iₒ])]⟩,
  -- line 743: nmik,ablm,cdjn->abcdijkl
  ⟨1, [g_aaaa [nₒ, mₒ, iₒ, kₒ], t2_aaaa [aᵥ, bᵥ, lₒ, mₒ], t2_aaaa [cᵥ, dᵥ, jₒ, nₒ]], [(1, [aᵥ, bᵥ, cᵥ, dᵥ, iₒ, jₒ, kₒ, lₒ]), (-1, [aᵥ, bᵥ, cᵥ, dᵥ, iₒ, lₒ, kₒ, jₒ]), (-1, [aᵥ, cᵥ, bᵥ, dᵥ, iₒ, jₒ, kₒ, lₒ]), (1, [aᵥ, cᵥ, bᵥ, dᵥ, iₒ, lₒ, kₒ, jₒ])]⟩,
  -- line 747: nmik,adlm,bcjn->abcdijkl
  ⟨1, [g_aaaa [nₒ, mₒ, iₒ, kₒ], t2_aaaa [aᵥ, dᵥ, lₒ, mₒ], t2_aaaa [bᵥ, cᵥ, jₒ, nₒ]], [(1, [aᵥ, bᵥ, cᵥ, dᵥ, iₒ, jₒ, kₒ, lₒ]), (-1, [aᵥ, bᵥ, cᵥ, dᵥ, iₒ, lₒ, kₒ, jₒ])]⟩,
  -- line 751: nmij,ablm,cdkn->abcdijkl
  ⟨-1, [g_aaaa [nₒ, mₒ, iₒ, jₒ], t2_aaaa [aᵥ, bᵥ, lₒ, mₒ], t2_aaaa [cᵥ, dᵥ, kₒ, nₒ]], [(1, [aᵥ, bᵥ, cᵥ, dᵥ, iₒ, jₒ, kₒ, lₒ]), (-1, [aᵥ, bᵥ, cᵥ, dᵥ, iₒ, jₒ, lₒ, kₒ]), (-1, [aᵥ, cᵥ, bᵥ, dᵥ, iₒ, jₒ, kₒ, lₒ]), (1, [aᵥ, cᵥ, bᵥ, dᵥ, iₒ, jₒ, lₒ, kₒ])]⟩,
  -- line 755: nmij,adlm,bckn->abcdijkl
  ⟨-1, [g_aaaa [nₒ, mₒ, iₒ, jₒ], t2_aaaa [aᵥ, dᵥ, lₒ, mₒ], t2_aaaa [bᵥ, cᵥ, kₒ, nₒ]], [(1, [aᵥ, bᵥ, cᵥ, dᵥ, iₒ, jₒ, kₒ, lₒ]), (-1, [aᵥ, bᵥ, cᵥ, dᵥ, iₒ, jₒ, lₒ, kₒ])]⟩,
  -- line 759: mael,ebjk,cdim->abcdijkl
  ⟨1, [g_aaaa [mₒ, aᵥ, eᵥ, lₒ], t2_aaaa [eᵥ, bᵥ, jₒ, kₒ], t2_aaaa [cᵥ, dᵥ, iₒ, mₒ]], [(1, [aᵥ, bᵥ, cᵥ, dᵥ, iₒ, jₒ, kₒ, lₒ]), (-1, [aᵥ, bᵥ, cᵥ, dᵥ, jₒ, iₒ, kₒ, lₒ]), (-1, [aᵥ, cᵥ, bᵥ, dᵥ, iₒ, jₒ, kₒ, lₒ]), (1, [aᵥ, cᵥ, bᵥ, dᵥ, jₒ, iₒ, kₒ, lₒ])]⟩,
  -- line 763: mael,ebij,cdkm->abcdijkl
  ⟨1, [g_aaaa [mₒ, aᵥ, eᵥ, lₒ], t2_aaaa [eᵥ, bᵥ, iₒ, jₒ], t2_aaaa [cᵥ, dᵥ, kₒ, mₒ]], [(1, [aᵥ, bᵥ, cᵥ, dᵥ, iₒ, jₒ, kₒ, lₒ]), (-1, [aᵥ, bᵥ, cᵥ, dᵥ, iₒ, jₒ, lₒ, kₒ]), (-1, [aᵥ, cᵥ, bᵥ, dᵥ, iₒ, jₒ, kₒ, lₒ]), (1, [aᵥ, cᵥ, bᵥ, dᵥ, iₒ, jₒ, lₒ, kₒ])]⟩,
  -- line 767: mael,edjk,bcim->abcdijkl
  ⟨1, [g_aaaa [mₒ, aᵥ, eᵥ, lₒ], t2_aaaa [eᵥ, dᵥ, jₒ, kₒ], t2_aaaa [bᵥ, cᵥ, iₒ, mₒ]], [(1, [aᵥ, bᵥ, cᵥ, dᵥ, iₒ, jₒ, kₒ, lₒ]), (-1, [aᵥ, bᵥ, cᵥ, dᵥ, jₒ, iₒ, kₒ, lₒ]), (-1, [bᵥ, aᵥ, cᵥ, dᵥ, iₒ, jₒ, kₒ, lₒ]), (1, [bᵥ, aᵥ, cᵥ, dᵥ, jₒ, iₒ, kₒ, lₒ])]⟩,
  -- line 771: mael,edij,bckm->abcdijkl
  ⟨1, [g_aaaa [mₒ, aᵥ, eᵥ, lₒ], t2_aaaa [eᵥ, dᵥ, iₒ, jₒ], t2_aaaa [bᵥ, cᵥ, kₒ, mₒ]], [(1, [aᵥ, bᵥ, cᵥ, dᵥ, iₒ, jₒ, kₒ, lₒ]), (-1, [aᵥ, bᵥ, cᵥ, dᵥ, iₒ, jₒ, lₒ, kₒ]), (-1, [bᵥ, aᵥ, cᵥ, dᵥ, iₒ, jₒ, kₒ, lₒ]), (1, [bᵥ, aᵥ, cᵥ, dᵥ, iₒ, jₒ, lₒ, kₒ])]⟩,
  -- line 775: maek,ebjl,cdim->abcdijkl
  ⟨-1, [g_aaaa [mₒ, aᵥ, eᵥ, kₒ], t2_aaaa [eᵥ, bᵥ, jₒ, lₒ], t2_aaaa [cᵥ, dᵥ, iₒ, mₒ]], [(1, [aᵥ, bᵥ, cᵥ, dᵥ, iₒ, jₒ, kₒ, lₒ]), (-1, [aᵥ, bᵥ, cᵥ, dᵥ, jₒ, iₒ, kₒ, lₒ]), (-1, [aᵥ, cᵥ, bᵥ, dᵥ, iₒ, jₒ, kₒ, lₒ]), (1, [aᵥ, cᵥ, bᵥ, dᵥ, jₒ, iₒ, kₒ, lₒ])]⟩,
  -- line 779: maek,edjl,bcim->abcdijkl
  ⟨-1, [g_aaaa [mₒ, aᵥ, eᵥ, kₒ], t2_aaaa [eᵥ, dᵥ, jₒ, lₒ], t2_aaaa [bᵥ, cᵥ, iₒ, mₒ]], [(1, [aᵥ, bᵥ, cᵥ, dᵥ, iₒ, jₒ, kₒ, lₒ]), (-1, [aᵥ, bᵥ, cᵥ, dᵥ, jₒ, iₒ, kₒ, lₒ]), (-1, [bᵥ, aᵥ, cᵥ, dᵥ, iₒ, jₒ, kₒ, lₒ]), (1, [bᵥ, aᵥ, cᵥ, dᵥ, jₒ, iₒ, kₒ, lₒ])]⟩,
  -- line 783: maej,ebkl,cdim->abcdijkl
  ⟨1, [g_aaaa [mₒ, aᵥ, eᵥ, jₒ], t2_aaaa [eᵥ, bᵥ, kₒ, lₒ], t2_aaaa [cᵥ, dᵥ, iₒ, mₒ]], [(1, [aᵥ, bᵥ, cᵥ, dᵥ, iₒ, jₒ, kₒ, lₒ]), (-1, [aᵥ, bᵥ, cᵥ, dᵥ, kₒ, jₒ, iₒ, lₒ]), (-1, [aᵥ, cᵥ, bᵥ, dᵥ, iₒ, jₒ, kₒ, lₒ]), (1, [aᵥ, cᵥ, bᵥ, dᵥ, kₒ, jₒ, iₒ, lₒ])]⟩,
  -- line 787: maej,ebik,cdlm->abcdijkl
  ⟨1, [g_aaaa [mₒ, aᵥ, eᵥ, jₒ], t2_aaaa [eᵥ, bᵥ, iₒ, kₒ], t2_aaaa [cᵥ, dᵥ, lₒ, mₒ]], [(1, [aᵥ, bᵥ, cᵥ, dᵥ, iₒ, jₒ, kₒ, lₒ]), (-1, [aᵥ, bᵥ, cᵥ, dᵥ, jₒ, iₒ, kₒ, lₒ]), (-1, [aᵥ, cᵥ, bᵥ, dᵥ, iₒ, jₒ, kₒ, lₒ]), (1, [aᵥ, cᵥ, bᵥ, dᵥ, jₒ, iₒ, kₒ, lₒ])]⟩,
  -- line 791: maej,edkl,bcim->abcdijkl
  ⟨1, [g_aaaa [mₒ, aᵥ, eᵥ, jₒ], t2_aaaa [eᵥ, dᵥ, kₒ, lₒ], t2_aaaa [bᵥ, cᵥ, iₒ, mₒ]], [(1, [aᵥ, bᵥ, cᵥ, dᵥ, iₒ, jₒ, kₒ, lₒ]), (-1, [aᵥ, bᵥ, cᵥ, dᵥ, kₒ, jₒ, iₒ, lₒ]), (-1, [bᵥ, aᵥ, cᵥ, dᵥ, iₒ, jₒ, kₒ, lₒ]), (1, [bᵥ, aᵥ, cᵥ, dᵥ, kₒ, jₒ, iₒ, lₒ])]⟩,
  -- line 795: maej,edik,bclm->abcdijkl
  ⟨1, [g_aaaa [mₒ, aᵥ, eᵥ, jₒ], t2_aaaa [eᵥ, dᵥ, iₒ, kₒ], t2_aaaa [bᵥ, cᵥ, lₒ, mₒ]], [(1, [aᵥ, bᵥ, cᵥ, dᵥ, iₒ, jₒ, kₒ, lₒ]), (-1, [aᵥ, bᵥ, cᵥ, dᵥ, jₒ, iₒ, kₒ, lₒ]), (-1, [bᵥ, aᵥ, cᵥ, dᵥ, iₒ, jₒ, kₒ, lₒ]), (1, [bᵥ, aᵥ, cᵥ, dᵥ, jₒ, iₒ, kₒ, lₒ])]⟩,
  -- line 799: maei,ebkl,cdjm->abcdijkl
  ⟨-1, [g_aaaa [mₒ, aᵥ, eᵥ, iₒ], t2_aaaa [eᵥ, bᵥ, kₒ, lₒ], t2_aaaa [cᵥ, dᵥ, jₒ, mₒ]], [(1, [aᵥ, bᵥ, cᵥ, dᵥ, iₒ, jₒ, kₒ, lₒ]), (-1, [aᵥ, bᵥ, cᵥ, dᵥ, iₒ, kₒ, jₒ, lₒ]), (-1, [aᵥ, cᵥ, bᵥ, dᵥ, iₒ, jₒ, kₒ, lₒ]), (1, [aᵥ, cᵥ, bᵥ, dᵥ, iₒ, kₒ, jₒ, lₒ])]⟩,
  -- line 803: maei,edkl,bcjm->abcdijkl
  ⟨-1, [g_aaaa [mₒ, aᵥ, eᵥ, iₒ], t2_aaaa [eᵥ, dᵥ, kₒ, lₒ], t2_aaaa [bᵥ, cᵥ, jₒ, mₒ]], [(1, [aᵥ, bᵥ, cᵥ, dᵥ, iₒ, jₒ, kₒ, lₒ]), (-1, [aᵥ, bᵥ, cᵥ, dᵥ, iₒ, kₒ, jₒ, lₒ]), (-1, [bᵥ, aᵥ, cᵥ, dᵥ, iₒ, jₒ, kₒ, lₒ]), (1, [bᵥ, aᵥ, cᵥ, dᵥ, iₒ, kₒ, jₒ, lₒ])]⟩,
  -- line 807: mbel,eajk,cdim->abcdijkl
  ⟨-1, [g_aaaa [mₒ, bᵥ, eᵥ, lₒ], t2_aaaa [eᵥ, aᵥ, jₒ, kₒ], t2_aaaa [cᵥ, dᵥ, iₒ, mₒ]], [(1, [aᵥ, bᵥ, cᵥ, dᵥ, iₒ, jₒ, kₒ, lₒ]), (-1, [aᵥ, bᵥ, cᵥ, dᵥ, jₒ, iₒ, kₒ, lₒ]), (-1, [cᵥ, bᵥ, aᵥ, dᵥ, iₒ, jₒ, kₒ, lₒ]), (1, [cᵥ, bᵥ, aᵥ, dᵥ, jₒ, iₒ, kₒ, lₒ])]⟩,
  -- line 811: mbel,eaij,cdkm->abcdijkl
  ⟨-1, [g_aaaa [mₒ, bᵥ, eᵥ, lₒ], t2_aaaa [eᵥ, aᵥ, iₒ, jₒ], t2_aaaa [cᵥ, dᵥ, kₒ, mₒ]], [(1, [aᵥ, bᵥ, cᵥ, dᵥ, iₒ, jₒ, kₒ, lₒ]), (-1, [aᵥ, bᵥ, cᵥ, dᵥ, iₒ, jₒ, lₒ, kₒ]), (-1, [cᵥ, bᵥ, aᵥ, dᵥ, iₒ, jₒ, kₒ, lₒ]), (1, [cᵥ, bᵥ, aᵥ, dᵥ, iₒ, jₒ, lₒ, kₒ])]⟩,
  -- line 815: mbek,eajl,cdim->abcdijkl
  ⟨1, [g_aaaa [mₒ, bᵥ, eᵥ, kₒ], t2_aaaa [eᵥ, aᵥ, jₒ, lₒ], t2_aaaa [cᵥ, dᵥ, iₒ, mₒ]], [(1, [aᵥ, bᵥ, cᵥ, dᵥ, iₒ, jₒ, kₒ, lₒ]), (-1, [aᵥ, bᵥ, cᵥ, dᵥ, jₒ, iₒ, kₒ, lₒ]), (-1, [cᵥ, bᵥ, aᵥ, dᵥ, iₒ, jₒ, kₒ, lₒ]), (1, [cᵥ, bᵥ, aᵥ, dᵥ, jₒ, iₒ, kₒ, lₒ])]⟩,
  -- line 819: mbej,eakl,cdim->abcdijkl
  ⟨-1, [g_aaaa [mₒ, bᵥ, eᵥ, jₒ], t2_aaaa [eᵥ, aᵥ, kₒ, lₒ], t2_aaaa [cᵥ, dᵥ, iₒ, mₒ]], [(1, [aᵥ, bᵥ, cᵥ, dᵥ, iₒ, jₒ, kₒ, lₒ]), (-1, [aᵥ, bᵥ, cᵥ, dᵥ, kₒ, jₒ, iₒ, lₒ]), (-1, [cᵥ, bᵥ, aᵥ, dᵥ, iₒ, jₒ, kₒ, lₒ]), (1, [cᵥ, bᵥ, aᵥ, dᵥ, kₒ, jₒ, iₒ, lₒ])]⟩,
  -- line 823: mbej,eaik,cdlm->abcdijkl
  ⟨-1, [g_aaaa [mₒ, bᵥ, eᵥ, jₒ], t2_aaaa [eᵥ, aᵥ, iₒ, kₒ], t2_aaaa [cᵥ, dᵥ, lₒ, mₒ]], [(1, [aᵥ, bᵥ, cᵥ, dᵥ, iₒ, jₒ, kₒ, lₒ]), (-1, [aᵥ, bᵥ, cᵥ, dᵥ, jₒ, iₒ, kₒ, lₒ]), (-1, [cᵥ, bᵥ, aᵥ, dᵥ, iₒ, jₒ, kₒ, lₒ]), (1, [cᵥ, bᵥ, aᵥ, dᵥ, jₒ, iₒ, kₒ, lₒ])]⟩,
  -- line 827: mbei,eakl,cdjm->abcdijkl
  ⟨1, [g_aaaa [mₒ, bᵥ, eᵥ, iₒ], t2_aaaa [eᵥ, aᵥ, kₒ, lₒ], t2_aaaa [cᵥ, dᵥ, jₒ, mₒ]], [(1, [aᵥ, bᵥ, cᵥ, dᵥ, iₒ, jₒ, kₒ, lₒ]), (-1, [aᵥ, bᵥ, cᵥ, dᵥ, iₒ, kₒ, jₒ, lₒ]), (-1, [cᵥ, bᵥ, aᵥ, dᵥ, iₒ, jₒ, kₒ, lₒ]), (1, [cᵥ, bᵥ, aᵥ, dᵥ, iₒ, kₒ, jₒ, lₒ])]⟩,
  -- line 831: mcel,eajk,bdim->abcdijkl
  ⟨1, [g_aaaa [mₒ, cᵥ, eᵥ, lₒ], t2_aaaa [eᵥ, aᵥ, jₒ, kₒ], t2_aaaa [bᵥ, dᵥ, iₒ, mₒ]], [(1, [aᵥ, bᵥ, cᵥ, dᵥ, iₒ, jₒ, kₒ, lₒ]), (-1, [aᵥ, bᵥ, cᵥ, dᵥ, jₒ, iₒ, kₒ, lₒ]), (-1, [bᵥ, aᵥ, cᵥ, dᵥ, iₒ, jₒ, kₒ, lₒ]), (1, [bᵥ, aᵥ, cᵥ, dᵥ, jₒ, iₒ, kₒ, lₒ])]⟩,
  -- line 835: mcel,eaij,bdkm->abcdijkl
  ⟨1, [g_aaaa [mₒ, cᵥ, eᵥ, lₒ], t2_aaaa [eᵥ, aᵥ, iₒ, jₒ], t2_aaaa [bᵥ, dᵥ, kₒ, mₒ]], [(1, [aᵥ, bᵥ, cᵥ, dᵥ, iₒ, jₒ, kₒ, lₒ]), (-1, [aᵥ, bᵥ, cᵥ, dᵥ, iₒ, jₒ, lₒ, kₒ]), (-1, [bᵥ, aᵥ, cᵥ, dᵥ, iₒ, jₒ, kₒ, lₒ]), (1, [bᵥ, aᵥ, cᵥ, dᵥ, iₒ, jₒ, lₒ, kₒ])]⟩
  ]

/-- Part 3 of `ccdq_t4_aaaaaaaa`. -/
def ccdq_t4_aaaaaaaa_3 : Prog := [
  -- line 839: mcel,edjk,abim->abcdijkl
  ⟨1, [g_aaaa [mₒ, cᵥ, eᵥ, lₒ], t2_aaaa [eᵥ, dᵥ, jₒ, kₒ], t2_aaaa [aᵥ, bᵥ, iₒ, mₒ]], [(1, [aᵥ, bᵥ, cᵥ, dᵥ, iₒ, jₒ, kₒ, lₒ]), (-1, [aᵥ, bᵥ, cᵥ, dᵥ, jₒ, iₒ, kₒ, lₒ]), (-1, [aᵥ, bᵥ, dᵥ, cᵥ, iₒ, jₒ, kₒ, lₒ]), (1, [aᵥ, bᵥ, dᵥ, cᵥ, jₒ, iₒ, kₒ, lₒ])]⟩,
  -- line 843: mcel,edij,abkm->abcdijkl
  ⟨1, [g_aaaa [mₒ, cᵥ, eᵥ, lₒ], t2_aaaa [eᵥ, dᵥ, iₒ, jₒ], t2_aaaa [aᵥ, bᵥ, kₒ, mₒ]], [(1, [aᵥ, bᵥ, cᵥ, dᵥ, iₒ, jₒ, kₒ, lₒ]), (-1, [aᵥ, bᵥ, cᵥ, dᵥ, iₒ, jₒ, lₒ, kₒ]), (-1, [aᵥ, bᵥ, dᵥ, cᵥ, iₒ, jₒ, kₒ, lₒ]), (1, [aᵥ, bᵥ, dᵥ, cᵥ, iₒ, jₒ, lₒ, kₒ])]⟩,
  -- line 847: mcek,eajl,bdim->abcdijkl
  ⟨-1, [g_aaaa [mₒ, cᵥ, eᵥ, kₒ], t2_aaaa [eᵥ, aᵥ, jₒ, lₒ], t2_aaaa [bᵥ, dᵥ, iₒ, mₒ]], [(1, [aᵥ, bᵥ, cᵥ, dᵥ, iₒ, jₒ, kₒ, lₒ]), (-1, [aᵥ, bᵥ, cᵥ, dᵥ, jₒ, iₒ, kₒ, lₒ]), (-1, [bᵥ, aᵥ, cᵥ, dᵥ, iₒ, jₒ, kₒ, lₒ]), (1, [bᵥ, aᵥ, cᵥ, dᵥ, jₒ, iₒ, kₒ, lₒ])]⟩,
  -- line 851: mcek,edjl,abim->abcdijkl
  ⟨-1, [g_aaaa [mₒ, cᵥ, eᵥ, kₒ], t2_aaaa [eᵥ, dᵥ, jₒ, lₒ], t2_aaaa [aᵥ, bᵥ, iₒ, mₒ]], [(1, [aᵥ, bᵥ, cᵥ, dᵥ, iₒ, jₒ, kₒ, lₒ]), (-1, [aᵥ, bᵥ, cᵥ, dᵥ, jₒ, iₒ, kₒ, lₒ]), (-1, [aᵥ, bᵥ, dᵥ, cᵥ, iₒ, jₒ, kₒ, lₒ]), (1, [aᵥ, bᵥ, dᵥ, cᵥ, jₒ, iₒ, kₒ, lₒ])]⟩,
  -- line 855: mcej,eakl,bdim->abcdijkl
  ⟨1, [g_aaaa [mₒ, cᵥ, eᵥ, jₒ], t2_aaaa [eᵥ, aᵥ, kₒ, lₒ], t2_aaaa [bᵥ, dᵥ, iₒ, mₒ]], [(1, [aᵥ, bᵥ, cᵥ, dᵥ, iₒ, jₒ, kₒ, lₒ]), (-1, [aᵥ, bᵥ, cᵥ, dᵥ, kₒ, jₒ, iₒ, lₒ]), (-1, [bᵥ, aᵥ, cᵥ, dᵥ, iₒ, jₒ, kₒ, lₒ]), (1, [bᵥ, aᵥ, cᵥ, dᵥ, kₒ, jₒ, iₒ, lₒ])]⟩,
  -- line 859: mcej,eaik,bdlm->abcdijkl
  ⟨1, [g_aaaa [mₒ, cᵥ, eᵥ, jₒ], t2_aaaa [eᵥ, aᵥ, iₒ, kₒ], t2_aaaa [bᵥ, dᵥ, lₒ, mₒ]], [(1, [aᵥ, bᵥ, cᵥ, dᵥ, iₒ, jₒ, kₒ, lₒ]), (-1, [aᵥ, bᵥ, cᵥ, dᵥ, jₒ, iₒ, kₒ, lₒ]), (-1, [bᵥ, aᵥ, cᵥ, dᵥ, iₒ, jₒ, kₒ, lₒ]), (1, [bᵥ, aᵥ, cᵥ, dᵥ, jₒ, iₒ, kₒ, lₒ])]⟩,
  -- line 863: mcej,edkl,abim->abcdijkl
  ⟨1, [g_aaaa [mₒ, cᵥ, eᵥ, jₒ], t2_aaaa [eᵥ, dᵥ, kₒ, lₒ], t2_aaaa [aᵥ, bᵥ, iₒ, mₒ]], [(1, [aᵥ, bᵥ, cᵥ, dᵥ, iₒ, jₒ, kₒ, lₒ]), (-1, [aᵥ, bᵥ, cᵥ, dᵥ, kₒ, jₒ, iₒ, lₒ]), (-1, [aᵥ, bᵥ, dᵥ, cᵥ, iₒ, jₒ, kₒ, lₒ]), (1, [aᵥ, bᵥ, dᵥ, cᵥ, kₒ, jₒ, iₒ, lₒ])]⟩,
  -- line 867: mcej,edik,ablm->abcdijkl
  ⟨1, [g_aaaa [mₒ, cᵥ, eᵥ, jₒ], t2_aaaa [eᵥ, dᵥ, iₒ, kₒ], t2_aaaa [aᵥ, bᵥ, lₒ, mₒ]], [(1, [aᵥ, bᵥ, cᵥ, dᵥ, iₒ, jₒ, kₒ, lₒ]), (-1, [aᵥ, bᵥ, cᵥ, dᵥ, jₒ, iₒ, kₒ, lₒ]), (-1, [aᵥ, bᵥ, dᵥ, cᵥ, iₒ, jₒ, kₒ, lₒ]), (1, [aᵥ, bᵥ, dᵥ, cᵥ, jₒ, iₒ, kₒ, lₒ])]⟩,
  -- line 871: mcei,eakl,bdjm->abcdijkl
  ⟨-1, [g_aaaa [mₒ, cᵥ, eᵥ, iₒ], t2_aaaa [eᵥ, aᵥ, kₒ, lₒ], t2_aaaa [bᵥ, dᵥ, jₒ, mₒ]], [(1, [aᵥ, bᵥ, cᵥ, dᵥ, iₒ, jₒ, kₒ, lₒ]), (-1, [aᵥ, bᵥ, cᵥ, dᵥ, iₒ, kₒ, jₒ, lₒ]), (-1, [bᵥ, aᵥ, cᵥ, dᵥ, iₒ, jₒ, kₒ, lₒ]), (1, [bᵥ, aᵥ, cᵥ, dᵥ, iₒ, kₒ, jₒ, lₒ])]⟩,
  -- line 875: mcei,edkl,abjm->abcdijkl
  ⟨-1, [g_aaaa [mₒ, cᵥ, eᵥ, iₒ], t2_aaaa [eᵥ, dᵥ, kₒ, lₒ], t2_aaaa [aᵥ, bᵥ, jₒ, mₒ]], [(1, [aᵥ, bᵥ, cᵥ, dᵥ, iₒ, jₒ, kₒ, lₒ]), (-1, [aᵥ, bᵥ, cᵥ, dᵥ, iₒ, kₒ, jₒ, lₒ]), (-1, [aᵥ, bᵥ, dᵥ, cᵥ, iₒ, jₒ, kₒ, lₒ]), (1, [aᵥ, bᵥ, dᵥ, cᵥ, iₒ, kₒ, jₒ, lₒ])]⟩,
  -- line 879: mdel,eajk,bcim->abcdijkl
  ⟨-1, [g_aaaa [mₒ, dᵥ, eᵥ, lₒ], t2_aaaa [eᵥ, aᵥ, jₒ, kₒ], t2_aaaa [bᵥ, cᵥ, iₒ, mₒ]], [(1, [aᵥ, bᵥ, cᵥ, dᵥ, iₒ, jₒ, kₒ, lₒ]), (-1, [aᵥ, bᵥ, cᵥ, dᵥ, jₒ, iₒ, kₒ, lₒ]), (-1, [bᵥ, aᵥ, cᵥ, dᵥ, iₒ, jₒ, kₒ, lₒ]), (1, [bᵥ, aᵥ, cᵥ, dᵥ, jₒ, iₒ, kₒ, lₒ])]⟩,
  -- line 883: mdel,eaij,bckm->abcdijkl
  ⟨-1, [g_aaaa [mₒ, dᵥ, eᵥ, lₒ], t2_aaaa [eᵥ, aᵥ, iₒ, jₒ], t2_aaaa [bᵥ, cᵥ, kₒ, mₒ]], [(1, [aᵥ, bᵥ, cᵥ, dᵥ, iₒ, jₒ, kₒ, lₒ]), (-1, [aᵥ, bᵥ, cᵥ, dᵥ, iₒ, jₒ, lₒ, kₒ]), (-1, [bᵥ, aᵥ, cᵥ, dᵥ, iₒ, jₒ, kₒ, lₒ]), (1, [bᵥ, aᵥ, cᵥ, dᵥ, iₒ, jₒ, lₒ, kₒ])]⟩,
  -- line 887: mdek,eajl,bcim->abcdijkl
  ⟨1, [g_aaaa [mₒ, dᵥ, eᵥ, kₒ], t2_aaaa [eᵥ, aᵥ, jₒ, lₒ], t2_aaaa [bᵥ, cᵥ, iₒ, mₒ]], [(1, [aᵥ, bᵥ, cᵥ, dᵥ, iₒ, jₒ, kₒ, lₒ]), (-1, [aᵥ, bᵥ, cᵥ, dᵥ, jₒ, iₒ, kₒ, lₒ]), (-1, [bᵥ, aᵥ, cᵥ, dᵥ, iₒ, jₒ, kₒ, lₒ]), (1, [bᵥ, aᵥ, cᵥ, dᵥ, jₒ, iₒ, kₒ, lₒ])]⟩,
  -- line 891: mdej,eakl,bcim->abcdijkl
  ⟨-1, [g_aaaa [mₒ, dᵥ, eᵥ, jₒ], t2_aaaa [eᵥ, aᵥ, kₒ, lₒ], t2_aaaa [bᵥ, cᵥ, iₒ, mₒ]], [(1, [aᵥ, bᵥ, cᵥ, dᵥ, iₒ, jₒ, kₒ, lₒ]), (-1, [aᵥ, bᵥ, cᵥ, dᵥ, kₒ, jₒ, iₒ, lₒ]), (-1, [bᵥ, aᵥ, cᵥ, dᵥ, iₒ, jₒ, kₒ, lₒ]), (1, [bᵥ, aᵥ, cᵥ, dᵥ, kₒ, jₒ, iₒ, lₒ])]⟩,
  -- line 895: mdej,eaik,bclm->abcdijkl
  ⟨-1, [g_aaaa [mₒ, dᵥ, eᵥ, jₒ], t2_aaaa [eᵥ, aᵥ, iₒ, kₒ], t2_aaaa [bᵥ, cᵥ, lₒ, mₒ]], [(1, [aᵥ, bᵥ, cᵥ, dᵥ, iₒ, jₒ, kₒ, lₒ]), (-1, [aᵥ, bᵥ, cᵥ, dᵥ, jₒ, iₒ, kₒ, lₒ]), (-1, [bᵥ, aᵥ, cᵥ, dᵥ, iₒ, jₒ, kₒ, lₒ]), (1, [bᵥ, aᵥ, cᵥ, dᵥ, jₒ, iₒ, kₒ, lₒ])]⟩,
  -- line 899: mdei,eakl,bcjm->abcdijkl
  ⟨1, [g_aaaa [mₒ, dᵥ, eᵥ, iₒ], t2_aaaa [eᵥ, aᵥ, kₒ, lₒ], t2_aaaa [bᵥ, cᵥ, jₒ, mₒ]], [(1, [aᵥ, bᵥ, cᵥ, dᵥ, iₒ, jₒ, kₒ, lₒ]), (-1, [aᵥ, bᵥ, cᵥ, dᵥ, iₒ, kₒ, jₒ, lₒ]), (-1, [bᵥ, aᵥ, cᵥ, dᵥ, iₒ, jₒ, kₒ, lₒ]), (1, [bᵥ, aᵥ, cᵥ, dᵥ, iₒ, kₒ, jₒ, lₒ])]⟩,
  -- line 903: abef,eckl,fdij->abcdijkl
  ⟨-1, [g_aaaa [aᵥ, bᵥ, eᵥ, fᵥ], t2_aaaa [eᵥ, cᵥ, kₒ, lₒ], t2_aaaa [fᵥ, dᵥ, iₒ, jₒ]], [(1, [aᵥ, bᵥ, cᵥ, dᵥ, iₒ, jₒ, kₒ, lₒ]), (-1, [aᵥ, bᵥ, cᵥ, dᵥ, iₒ, kₒ, jₒ, lₒ]), (-1, [aᵥ, cᵥ, bᵥ, dᵥ, iₒ, jₒ, kₒ, lₒ]), (1, [aᵥ, cᵥ, bᵥ, dᵥ, iₒ, kₒ, jₒ, lₒ])]⟩,
  -- line 907: abef,ecil,fdjk->abcdijkl
  ⟨-1, [g_aaaa [aᵥ, bᵥ, eᵥ, fᵥ], t2_aaaa [eᵥ, cᵥ, iₒ, lₒ], t2_aaaa [fᵥ, dᵥ, jₒ, kₒ]], [(1, [aᵥ, bᵥ, cᵥ, dᵥ, iₒ, jₒ, kₒ, lₒ]), (-1, [aᵥ, bᵥ, cᵥ, dᵥ, iₒ, jₒ, lₒ, kₒ]), (-1, [aᵥ, cᵥ, bᵥ, dᵥ, iₒ, jₒ, kₒ, lₒ]), (1, [aᵥ, cᵥ, bᵥ, dᵥ, iₒ, jₒ, lₒ, kₒ])]⟩,
  -- line 911: abef,ecjk,fdil->abcdijkl
  ⟨-1, [g_aaaa [aᵥ, bᵥ, eᵥ, fᵥ], t2_aaaa [eᵥ, cᵥ, jₒ, kₒ], t2_aaaa [fᵥ, dᵥ, iₒ, lₒ]], [(1, [aᵥ, bᵥ, cᵥ, dᵥ, iₒ, jₒ, kₒ, lₒ]), (-1, [aᵥ, bᵥ, cᵥ, dᵥ, kₒ, jₒ, iₒ, lₒ]), (-1, [aᵥ, cᵥ, bᵥ, dᵥ, iₒ, jₒ, kₒ, lₒ]), (1, [aᵥ, cᵥ, bᵥ, dᵥ, kₒ, jₒ, iₒ, lₒ])]⟩,
  -- line 915: adef,ebkl,fcij->abcdijkl
  ⟨-1, [g_aaaa [aᵥ, dᵥ, eᵥ, fᵥ], t2_aaaa [eᵥ, bᵥ, kₒ, lₒ], t2_aaaa [fᵥ, cᵥ, iₒ, jₒ]], [(1, [aᵥ, bᵥ, cᵥ, dᵥ, iₒ, jₒ, kₒ, lₒ]), (-1, [aᵥ, bᵥ, cᵥ, dᵥ, iₒ, kₒ, jₒ, lₒ]), (-1, [bᵥ, aᵥ, cᵥ, dᵥ, iₒ, jₒ, kₒ, lₒ]), (1, [bᵥ, aᵥ, cᵥ, dᵥ, iₒ, kₒ, jₒ, lₒ])]⟩,
  -- line 919: adef,ebil,fcjk->abcdijkl
  ⟨-1, [g_aaaa [aᵥ, dᵥ, eᵥ, fᵥ], t2_aaaa [eᵥ, bᵥ, iₒ, lₒ], t2_aaaa [fᵥ, cᵥ, jₒ, kₒ]], [(1, [aᵥ, bᵥ, cᵥ, dᵥ, iₒ, jₒ, kₒ, lₒ]), (-1, [aᵥ, bᵥ, cᵥ, dᵥ, iₒ, jₒ, lₒ, kₒ]), (-1, [bᵥ, aᵥ, cᵥ, dᵥ, iₒ, jₒ, kₒ, lₒ]), (1, [bᵥ, aᵥ, cᵥ, dᵥ, iₒ, jₒ, lₒ, kₒ])]⟩,
  -- line 923: adef,ebjk,fcil->abcdijkl
  ⟨-1, [g_aaaa [aᵥ, dᵥ, eᵥ, fᵥ], t2_aaaa [eᵥ, bᵥ, jₒ, kₒ], t2_aaaa [fᵥ, cᵥ, iₒ, lₒ]], [(1, [aᵥ, bᵥ, cᵥ, dᵥ, iₒ, jₒ, kₒ, lₒ]), (-1, [aᵥ, bᵥ, cᵥ, dᵥ, kₒ, jₒ, iₒ, lₒ]), (-1, [bᵥ, aᵥ, cᵥ, dᵥ, iₒ, jₒ, kₒ, lₒ]), (1, [bᵥ, aᵥ, cᵥ, dᵥ, kₒ, jₒ, iₒ, lₒ])]⟩,
  -- line 927: bcef,eakl,fdij->abcdijkl
  ⟨-1, [g_aaaa [bᵥ, cᵥ, eᵥ, fᵥ], t2_aaaa [eᵥ, aᵥ, kₒ, lₒ], t2_aaaa [fᵥ, dᵥ, iₒ, jₒ]], [(1, [aᵥ, bᵥ, cᵥ, dᵥ, iₒ, jₒ, kₒ, lₒ]), (-1, [aᵥ, bᵥ, cᵥ, dᵥ, iₒ, kₒ, jₒ, lₒ]), (-1, [aᵥ, dᵥ, cᵥ, bᵥ, iₒ, jₒ, kₒ, lₒ]), (1, [aᵥ, dᵥ, cᵥ, bᵥ, iₒ, kₒ, jₒ, lₒ])]⟩,
  -- line 931: bcef,eail,fdjk->abcdijkl
  ⟨-1, [g_aaaa [bᵥ, cᵥ, eᵥ, fᵥ], t2_aaaa [eᵥ, aᵥ, iₒ, lₒ], t2_aaaa [fᵥ, dᵥ, jₒ, kₒ]], [(1, [aᵥ, bᵥ, cᵥ, dᵥ, iₒ, jₒ, kₒ, lₒ]), (-1, [aᵥ, bᵥ, cᵥ, dᵥ, iₒ, jₒ, lₒ, kₒ]), (-1, [aᵥ, dᵥ, cᵥ, bᵥ, iₒ, jₒ, kₒ, lₒ]), (1, [aᵥ, dᵥ, cᵥ, bᵥ, iₒ, jₒ, lₒ, kₒ])]⟩,
  -- line 935: bcef,eajk,fdil->abcdijkl
  ⟨-1, [g_aaaa [bᵥ, cᵥ, eᵥ, fᵥ], t2_aaaa [eᵥ, aᵥ, jₒ, kₒ], t2_aaaa [fᵥ, dᵥ, iₒ, lₒ]], [(1, [aᵥ, bᵥ, cᵥ, dᵥ, iₒ, jₒ, kₒ, lₒ]), (-1, [aᵥ, bᵥ, cᵥ, dᵥ, kₒ, jₒ, iₒ, lₒ]), (-1, [aᵥ, dᵥ, cᵥ, bᵥ, iₒ, jₒ, kₒ, lₒ]), (1, [aᵥ, dᵥ, cᵥ, bᵥ, kₒ, jₒ, iₒ, lₒ])]⟩,
  -- line 939: nmef,efkl,abjm,cdin->abcdijkl
  ⟨-1/2, [g_aaaa [nₒ, mₒ, eᵥ, fᵥ], t2_aaaa [eᵥ, fᵥ, kₒ, lₒ], t2_aaaa [aᵥ, bᵥ, jₒ, mₒ], t2_aaaa [cᵥ, dᵥ, iₒ, nₒ]], [(1, [aᵥ, bᵥ, cᵥ, dᵥ, iₒ, jₒ, kₒ, lₒ]), (-1, [aᵥ, bᵥ, cᵥ, dᵥ, jₒ, iₒ, kₒ, lₒ]), (-1, [aᵥ, cᵥ, bᵥ, dᵥ, iₒ, jₒ, kₒ, lₒ]), (1, [aᵥ, cᵥ, bᵥ, dᵥ, jₒ, iₒ, kₒ, lₒ])]⟩,
  -- line 943: nmef,efkl,adjm,bcin->abcdijkl
  ⟨-1/2, [g_aaaa [nₒ, mₒ, eᵥ, fᵥ], t2_aaaa [eᵥ, fᵥ, kₒ, lₒ], t2_aaaa [aᵥ, dᵥ, jₒ, mₒ], t2_aaaa [bᵥ, cᵥ, iₒ, nₒ]], [(1, [aᵥ, bᵥ, cᵥ, dᵥ, iₒ, jₒ, kₒ, lₒ]), (-1, [aᵥ, bᵥ, cᵥ, dᵥ, jₒ, iₒ, kₒ, lₒ])]⟩,
  -- line 947: nmef,efjl,abkm,cdin->abcdijkl
  ⟨1/2, [g_aaaa [nₒ, mₒ, eᵥ, fᵥ], t2_aaaa [eᵥ, fᵥ, jₒ, lₒ], t2_aaaa [aᵥ, bᵥ, kₒ, mₒ], t2_aaaa [cᵥ, dᵥ, iₒ, nₒ]], [(1, [aᵥ, bᵥ, cᵥ, dᵥ, iₒ, jₒ, kₒ, lₒ]), (-1, [aᵥ, bᵥ, cᵥ, dᵥ, kₒ, jₒ, iₒ, lₒ]), (-1, [aᵥ, cᵥ, bᵥ, dᵥ, iₒ, jₒ, kₒ, lₒ]), (1, [aᵥ, cᵥ, bᵥ, dᵥ, kₒ, jₒ, iₒ, lₒ])]⟩,
  -- line 951: nmef,efjl,adkm,bcin->abcdijkl
  ⟨1/2, [g_aaaa [nₒ, mₒ, eᵥ, fᵥ], t2_aaaa [eᵥ, fᵥ, jₒ, lₒ], t2_aaaa [aᵥ, dᵥ, kₒ, mₒ], t2_aaaa [bᵥ, cᵥ, iₒ, nₒ]], [(1, [aᵥ, bᵥ, cᵥ, dᵥ, iₒ, jₒ, kₒ, lₒ]), (-1, [aᵥ, bᵥ, cᵥ, dᵥ, kₒ, jₒ, iₒ, lₒ])]⟩,
  -- line 955: nmef,efil,abkm,cdjn->abcdijkl
  ⟨-1/2, [g_aaaa [nₒ, mₒ, eᵥ, fᵥ], t2_aaaa [eᵥ, fᵥ, iₒ, lₒ], t2_aaaa [aᵥ, bᵥ, kₒ, mₒ], t2_aaaa [cᵥ, dᵥ, jₒ, nₒ]], [(1, [aᵥ, bᵥ, cᵥ, dᵥ, iₒ, jₒ, kₒ, lₒ]), (-1, [aᵥ, bᵥ, cᵥ, dᵥ, iₒ, kₒ, jₒ, lₒ]), (-1, [aᵥ, cᵥ, bᵥ, dᵥ, iₒ, jₒ, kₒ, lₒ]), (1, [aᵥ, cᵥ, bᵥ, dᵥ, iₒ, kₒ, jₒ, lₒ])]⟩,
  -- line 959: nmef,efil,adkm,bcjn->abcdijkl
  ⟨-1/2, [g_aaaa [nₒ, mₒ, eᵥ, fᵥ], t2_aaaa [eᵥ, fᵥ, iₒ, lₒ], t2_aaaa [aᵥ, dᵥ, kₒ, mₒ], t2_aaaa [bᵥ, cᵥ, jₒ, nₒ]], [(1, [aᵥ, bᵥ, cᵥ, dᵥ, iₒ, jₒ, kₒ, lₒ]), (-1, [aᵥ, bᵥ, cᵥ, dᵥ, iₒ, kₒ, jₒ, lₒ])]⟩,
  -- line 963: nmef,efjk,ablm,cdin->abcdijkl
  ⟨-1/2, [g_aaaa [nₒ, mₒ, eᵥ, fᵥ], t2_aaaa [eᵥ, fᵥ, jₒ, kₒ], t2_aaaa [aᵥ, bᵥ, lₒ, mₒ], t2_aaaa [cᵥ, dᵥ, iₒ, nₒ]], [(1, [aᵥ, bᵥ, cᵥ, dᵥ, iₒ, jₒ, kₒ, lₒ]), (-1, [aᵥ, bᵥ, cᵥ, dᵥ, lₒ, jₒ, kₒ, iₒ]), (-1, [aᵥ, cᵥ, bᵥ, dᵥ, iₒ, jₒ, kₒ, lₒ]), (1, [aᵥ, cᵥ, bᵥ, dᵥ, lₒ, jₒ, kₒ, iₒ])]⟩,
  -- line 967: nmef,efjk,adlm,bcin->abcdijkl
  ⟨-1/2, [g_aaaa [nₒ, mₒ, eᵥ, fᵥ], t2_aaaa [eᵥ, fᵥ, jₒ, kₒ], t2_aaaa [aᵥ, dᵥ, lₒ, mₒ], t2_aaaa [bᵥ, cᵥ, iₒ, nₒ]], [(1, [aᵥ, bᵥ, cᵥ, dᵥ, iₒ, jₒ, kₒ, lₒ]), (-1, [aᵥ, bᵥ, cᵥ, dᵥ, lₒ, jₒ, kₒ, iₒ])]⟩,
  -- line 971: nmef,efik,ablm,cdjn->abcdijkl
  ⟨1/2, [g_aaaa [nₒ, mₒ, eᵥ, fᵥ], t2_aaaa [eᵥ, fᵥ, iₒ, kₒ], t2_aaaa [aᵥ, bᵥ, lₒ, mₒ], t2_aaaa [cᵥ, dᵥ, jₒ, nₒ]], [(1, [aᵥ, bᵥ, cᵥ, dᵥ, iₒ, jₒ, kₒ, lₒ]), (-1, [aᵥ, bᵥ, cᵥ, dᵥ, iₒ, lₒ, kₒ, jₒ]), (-1, [aᵥ, cᵥ, bᵥ, dᵥ, iₒ, jₒ, kₒ, lₒ]), (1, [aᵥ, cᵥ, bᵥ, dᵥ, iₒ, lₒ, kₒ, jₒ])]⟩,
  -- line 975: nmef,efik,adlm,bcjn->abcdijkl
  ⟨1/2, [g_aaaa [nₒ, mₒ, eᵥ, fᵥ], t2_aaaa [eᵥ, fᵥ, iₒ, kₒ], t2_aaaa [aᵥ, dᵥ, lₒ, mₒ], t2_aaaa [bᵥ, cᵥ, jₒ, nₒ]], [(1, [aᵥ, bᵥ, cᵥ, dᵥ, iₒ, jₒ, kₒ, lₒ]), (-1, [aᵥ, bᵥ, cᵥ, dᵥ, iₒ, lₒ, kₒ, jₒ])]⟩,
  -- line 979: nmef,efij,ablm,cdkn->abcdijkl
  ⟨-1/2, [g_aaaa [nₒ, mₒ, eᵥ, fᵥ], t2_aaaa [eᵥ, fᵥ, iₒ, jₒ], t2_aaaa [aᵥ, bᵥ, lₒ, mₒ], t2_aaaa [cᵥ, dᵥ, kₒ, nₒ]], [(1, [aᵥ, bᵥ, cᵥ, dᵥ, iₒ, jₒ, kₒ, lₒ]), (-1, [aᵥ, bᵥ, cᵥ, dᵥ, iₒ, jₒ, lₒ, kₒ]), (-1, [aᵥ, cᵥ, bᵥ, dᵥ, iₒ, jₒ, kₒ, lₒ]), (1, [aᵥ, cᵥ, bᵥ, dᵥ, iₒ, jₒ, lₒ, kₒ])]⟩,
  -- line 983: nmef,efij,adlm,bckn->abcdijkl
  ⟨-1/2, [g_aaaa [nₒ, mₒ, eᵥ, fᵥ], t2_aaaa [eᵥ, fᵥ, iₒ, jₒ], t2_aaaa [aᵥ, dᵥ, lₒ, mₒ], t2_aaaa [bᵥ, cᵥ, kₒ, nₒ]], [(1, [aᵥ, bᵥ, cᵥ, dᵥ, iₒ, jₒ, kₒ, lₒ]), (-1, [aᵥ, bᵥ, cᵥ, dᵥ, iₒ, jₒ, lₒ, kₒ])]⟩,
  -- line 987: nmef,ealm,fbjk,cdin->abcdijkl
  ⟨1, [g_aaaa [nₒ, mₒ, eᵥ, fᵥ], t2_aaaa [eᵥ, aᵥ, lₒ, mₒ], t2_aaaa [fᵥ, bᵥ, jₒ, kₒ], t2_aaaa [cᵥ, dᵥ, iₒ, nₒ]], [(1, [aᵥ, bᵥ, cᵥ, dᵥ, iₒ, jₒ, kₒ, lₒ]), (-1, [aᵥ, bᵥ, cᵥ, dᵥ, jₒ, iₒ, kₒ, lₒ]), (-1, [aᵥ, cᵥ, bᵥ, dᵥ, iₒ, jₒ, kₒ, lₒ]), (1, [aᵥ, cᵥ, bᵥ, dᵥ, jₒ, iₒ, kₒ, lₒ])]⟩,
  -- line 991: nmfe,aelm,fbjk,cdin->abcdijkl
  ⟨1, [g_abab [nₒ, mₒ, fᵥ, eᵥ], t2_abab [aᵥ, eᵥ, lₒ, mₒ], t2_aaaa [fᵥ, bᵥ, jₒ, kₒ], t2_aaaa [cᵥ, dᵥ, iₒ, nₒ]], [(1, [aᵥ, bᵥ, cᵥ, dᵥ, iₒ, jₒ, kₒ, lₒ]), (-1, [aᵥ, bᵥ, cᵥ, dᵥ, jₒ, iₒ, kₒ, lₒ]), (-1, [aᵥ, cᵥ, bᵥ, dᵥ, iₒ, jₒ, kₒ, lₒ]), (1, [aᵥ, cᵥ, bᵥ, dᵥ, jₒ, iₒ, kₒ, lₒ])]⟩,
  -- line 995: nmef,ealm,fbij,cdkn->abcdijkl
  ⟨1, [g_aaaa [nₒ, mₒ, eᵥ, fᵥ], t2_aaaa [eᵥ, aᵥ, lₒ, mₒ], t2_aaaa [fᵥ, bᵥ, iₒ, jₒ], t2_aaaa [cᵥ, dᵥ, kₒ, nₒ]], [(1, [aᵥ, bᵥ, cᵥ, dᵥ, iₒ, jₒ, kₒ, lₒ]), (-1, [aᵥ, bᵥ, cᵥ, dᵥ, iₒ, jₒ, lₒ, kₒ]), (-1, [aᵥ, cᵥ, bᵥ, dᵥ, iₒ, jₒ, kₒ, lₒ]), (1, [aᵥ, cᵥ, bᵥ, dᵥ, iₒ, jₒ, lₒ, kₒ])]⟩
  ]

/-- Part 4 of `ccdq_t4_aaaaaaaa`. -/
def ccdq_t4_aaaaaaaa_4 : Prog := [
  -- line 999: nmfe,aelm,fbij,cdkn->abcdijkl
  ⟨1, [g_abab [nₒ, mₒ, fᵥ, eᵥ], t2_abab [aᵥ, eᵥ, lₒ, mₒ], t2_aaaa [fᵥ, bᵥ, iₒ, jₒ], t2_aaaa [cᵥ, dᵥ, kₒ, nₒ]], [(1, [aᵥ, bᵥ, cᵥ, dᵥ, iₒ, jₒ, kₒ, lₒ]), (-1, [aᵥ, bᵥ, cᵥ, dᵥ, iₒ, jₒ, lₒ, kₒ]), (-1, [aᵥ, cᵥ, bᵥ, dᵥ, iₒ, jₒ, kₒ, lₒ]), (1, [aᵥ, cᵥ, bᵥ, dᵥ, iₒ, jₒ, lₒ, kₒ])]⟩,
  -- line 1003: nmef,ealm,fdjk,bcin->abcdijkl
  ⟨1, [g_aaaa [nₒ, mₒ, eᵥ, fᵥ], t2_aaaa [eᵥ, aᵥ, lₒ, mₒ], t2_aaaa [fᵥ, dᵥ, jₒ, kₒ], t2_aaaa [bᵥ, cᵥ, iₒ, nₒ]], [(1, [aᵥ, bᵥ, cᵥ, dᵥ, iₒ, jₒ, kₒ, lₒ]), (-1, [aᵥ, bᵥ, cᵥ, dᵥ, jₒ, iₒ, kₒ, lₒ]), (-1, [bᵥ, aᵥ, cᵥ, dᵥ, iₒ, jₒ, kₒ, lₒ]), (1, [bᵥ, aᵥ, cᵥ, dᵥ, jₒ, iₒ, kₒ, lₒ])]⟩,
  -- line 1007: nmfe,aelm,fdjk,bcin->abcdijkl
  ⟨1, [g_abab [nₒ, mₒ, fᵥ, eᵥ], t2_abab [aᵥ, eᵥ, lₒ, mₒ], t2_aaaa [fᵥ, dᵥ, jₒ, kₒ], t2_aaaa [bᵥ, cᵥ, iₒ, nₒ]], [(1, [aᵥ, bᵥ, cᵥ, dᵥ, iₒ, jₒ, kₒ, lₒ]), (-1, [aᵥ, bᵥ, cᵥ, dᵥ, jₒ, iₒ, kₒ, lₒ]), (-1, [bᵥ, aᵥ, cᵥ, dᵥ, iₒ, jₒ, kₒ, lₒ]), (1, [bᵥ, aᵥ, cᵥ, dᵥ, jₒ, iₒ, kₒ, lₒ])]⟩,
  -- line 1011: nmef,ealm,fdij,bckn->abcdijkl
  ⟨1, [g_aaaa [nₒ, mₒ, eᵥ, fᵥ], t2_aaaa [eᵥ, aᵥ, lₒ, mₒ], t2_aaaa [fᵥ, dᵥ, iₒ, jₒ], t2_aaaa [bᵥ, cᵥ, kₒ, nₒ]], [(1, [aᵥ, bᵥ, cᵥ, dᵥ, iₒ, jₒ, kₒ, lₒ]), (-1, [aᵥ, bᵥ, cᵥ, dᵥ, iₒ, jₒ, lₒ, kₒ]), (-1, [bᵥ, aᵥ, cᵥ, dᵥ, iₒ, jₒ, kₒ, lₒ]), (1, [bᵥ, aᵥ, cᵥ, dᵥ, iₒ, jₒ, lₒ, kₒ])]⟩,
  -- line 1015: nmfe,aelm,fdij,bckn->abcdijkl
  ⟨1, [g_abab [nₒ, mₒ, fᵥ, eᵥ], t2_abab [aᵥ, eᵥ, lₒ, mₒ], t2_aaaa [fᵥ, dᵥ, iₒ, jₒ], t2_aaaa [bᵥ, cᵥ, kₒ, nₒ]], [(1, [aᵥ, bᵥ, cᵥ, dᵥ, iₒ, jₒ, kₒ, lₒ]), (-1, [aᵥ, bᵥ, cᵥ, dᵥ, iₒ, jₒ, lₒ, kₒ]), (-1, [bᵥ, aᵥ, cᵥ, dᵥ, iₒ, jₒ, kₒ, lₒ]), (1, [bᵥ, aᵥ, cᵥ, dᵥ, iₒ, jₒ, lₒ, kₒ])]⟩,
  -- line 1019: nmef,eakm,fbjl,cdin->abcdijkl
  ⟨-1, [g_aaaa [nₒ, mₒ, eᵥ, fᵥ], t2_aaaa [eᵥ, aᵥ, kₒ, mₒ], t2_aaaa [fᵥ, bᵥ, jₒ, lₒ], t2_aaaa [cᵥ, dᵥ, iₒ, nₒ]], [(1, [aᵥ, bᵥ, cᵥ, dᵥ, iₒ, jₒ, kₒ, lₒ]), (-1, [aᵥ, bᵥ, cᵥ, dᵥ, jₒ, iₒ, kₒ, lₒ]), (-1, [aᵥ, cᵥ, bᵥ, dᵥ, iₒ, jₒ, kₒ, lₒ]), (1, [aᵥ, cᵥ, bᵥ, dᵥ, jₒ, iₒ, kₒ, lₒ])]⟩,
  -- line 1023: nmfe,aekm,fbjl,cdin->abcdijkl
  ⟨-1, [g_abab [nₒ, mₒ, fᵥ, eᵥ], t2_abab [aᵥ, eᵥ, kₒ, mₒ], t2_aaaa [fᵥ, bᵥ, jₒ, lₒ], t2_aaaa [cᵥ, dᵥ, iₒ, nₒ]], [(1, [aᵥ, bᵥ, cᵥ, dᵥ, iₒ, jₒ, kₒ, lₒ]), (-1, [aᵥ, bᵥ, cᵥ, dᵥ, jₒ, iₒ, kₒ, lₒ]), (-1, [aᵥ, cᵥ, bᵥ, dᵥ, iₒ, jₒ, kₒ, lₒ]), (1, [aᵥ, cᵥ, bᵥ, dᵥ, jₒ, iₒ, kₒ, lₒ])]⟩,
  -- line 1027: nmef,eakm,fdjl,bcin->abcdijkl
  ⟨-1, [g_aaaa [nₒ, mₒ, eᵥ, fᵥ], t2_aaaa [eᵥ, aᵥ, kₒ, mₒ], t2_aaaa [fᵥ, dᵥ, jₒ, lₒ], t2_aaaa [bᵥ, cᵥ, iₒ, nₒ]], [(1, [aᵥ, bᵥ, cᵥ, dᵥ, iₒ, jₒ, kₒ, lₒ]), (-1, [aᵥ, bᵥ, cᵥ, dᵥ, jₒ, iₒ, kₒ, lₒ]), (-1, [bᵥ, aᵥ, cᵥ, dᵥ, iₒ, jₒ, kₒ, lₒ]), (1, [bᵥ, aᵥ, cᵥ, dᵥ, jₒ, iₒ, kₒ, lₒ])]⟩,
  -- line 1031: nmfe,aekm,fdjl,bcin->abcdijkl
  ⟨-1, [g_abab [nₒ, mₒ, fᵥ, eᵥ], t2_abab [aᵥ, eᵥ, kₒ, mₒ], t2_aaaa [fᵥ, dᵥ, jₒ, lₒ], t2_aaaa [bᵥ, cᵥ, iₒ, nₒ]], [(1, [aᵥ, bᵥ, cᵥ, dᵥ, iₒ, jₒ, kₒ, lₒ]), (-1, [aᵥ, bᵥ, cᵥ, dᵥ, jₒ, iₒ, kₒ, lₒ]), (-1, [bᵥ, aᵥ, cᵥ, dᵥ, iₒ, jₒ, kₒ, lₒ]), (1, [bᵥ, aᵥ, cᵥ, dᵥ, jₒ, iₒ, kₒ, lₒ])]⟩,
  -- line 1035: nmef,eajm,fbkl,cdin->abcdijkl
  ⟨1, [g_aaaa [nₒ, mₒ, eᵥ, fᵥ], t2_aaaa [eᵥ, aᵥ, jₒ, mₒ], t2_aaaa [fᵥ, bᵥ, kₒ, lₒ], t2_aaaa [cᵥ, dᵥ, iₒ, nₒ]], [(1, [aᵥ, bᵥ, cᵥ, dᵥ, iₒ, jₒ, kₒ, lₒ]), (-1, [aᵥ, bᵥ, cᵥ, dᵥ, kₒ, jₒ, iₒ, lₒ]), (-1, [aᵥ, cᵥ, bᵥ, dᵥ, iₒ, jₒ, kₒ, lₒ]), (1, [aᵥ, cᵥ, bᵥ, dᵥ, kₒ, jₒ, iₒ, lₒ])]⟩,
  -- line 1039: nmfe,aejm,fbkl,cdin->abcdijkl
  ⟨1, [g_abab [nₒ, mₒ, fᵥ, eᵥ], t2_abab [aᵥ, eᵥ, jₒ, mₒ], t2_aaaa [fᵥ, bᵥ, kₒ, lₒ], t2_aaaa [cᵥ, dᵥ, iₒ, nₒ]], [(1, [aᵥ, bᵥ, cᵥ, dᵥ, iₒ, jₒ, kₒ, lₒ]), (-1, [aᵥ, bᵥ, cᵥ, dᵥ, kₒ, jₒ, iₒ, lₒ]), (-1, [aᵥ, cᵥ, bᵥ, dᵥ, iₒ, jₒ, kₒ, lₒ]), (1, [aᵥ, cᵥ, bᵥ, dᵥ, kₒ, jₒ, iₒ, lₒ])]⟩,
  -- line 1043: nmef,eajm,fbik,cdln->abcdijkl
  ⟨1, [g_aaaa [nₒ, mₒ, eᵥ, fᵥ], t2_aaaa [eᵥ, aᵥ, jₒ, mₒ], t2_aaaa [fᵥ, bᵥ, iₒ, kₒ], t2_aaaa [cᵥ, dᵥ, lₒ, nₒ]], [(1, [aᵥ, bᵥ, cᵥ, dᵥ, iₒ, jₒ, kₒ, lₒ]), (-1, [aᵥ, bᵥ, cᵥ, dᵥ, jₒ, iₒ, kₒ, lₒ]), (-1, [aᵥ, cᵥ, bᵥ, dᵥ, iₒ, jₒ, kₒ, lₒ]), (1, [aᵥ, cᵥ, bᵥ, dᵥ, jₒ, iₒ, kₒ, lₒ])]⟩,
  -- line 1047: nmfe,aejm,fbik,cdln->abcdijkl
  ⟨1, [g_abab [nₒ, mₒ, fᵥ, eᵥ], t2_abab [aᵥ, eᵥ, jₒ, mₒ], t2_aaaa [fᵥ, bᵥ, iₒ, kₒ], t2_aaaa [cᵥ, dᵥ, lₒ, nₒ]], [(1, [aᵥ, bᵥ, cᵥ, dᵥ, iₒ, jₒ, kₒ, lₒ]), (-1, [aᵥ, bᵥ, cᵥ, dᵥ, jₒ, iₒ, kₒ, lₒ]), (-1, [aᵥ, cᵥ, bᵥ, dᵥ, iₒ, jₒ, kₒ, lₒ]), (1, [aᵥ, cᵥ, bᵥ, dᵥ, jₒ, iₒ, kₒ, lₒ])]⟩,
  -- line 1051: nmef,eajm,fdkl,bcin->abcdijkl
  ⟨1, [g_aaaa [nₒ, mₒ, eᵥ, fᵥ], t2_aaaa [eᵥ, aᵥ, jₒ, mₒ], t2_aaaa [fᵥ, dᵥ, kₒ, lₒ], t2_aaaa [bᵥ, cᵥ, iₒ, nₒ]], [(1, [aᵥ, bᵥ, cᵥ, dᵥ, iₒ, jₒ, kₒ, lₒ]), (-1, [aᵥ, bᵥ, cᵥ, dᵥ, kₒ, jₒ, iₒ, lₒ]), (-1, [bᵥ, aᵥ, cᵥ, dᵥ, iₒ, jₒ, kₒ, lₒ]), (1, [bᵥ, aᵥ, cᵥ, dᵥ, kₒ, jₒ, iₒ, lₒ])]⟩,
  -- line 1055: nmfe,aejm,fdkl,bcin->abcdijkl
  ⟨1, [g_abab [nₒ, mₒ, fᵥ, eᵥ], t2_abab [aᵥ, eᵥ, jₒ, mₒ], t2_aaaa [fᵥ, dᵥ, kₒ, lₒ], t2_aaaa [bᵥ, cᵥ, iₒ, nₒ]], [(1, [aᵥ, bᵥ, cᵥ, dᵥ, iₒ, jₒ, kₒ, lₒ]), (-1, [aᵥ, bᵥ, cᵥ, dᵥ, kₒ, jₒ, iₒ, lₒ]), (-1, [bᵥ, aᵥ, cᵥ, dᵥ, iₒ, jₒ, kₒ, lₒ]), (1, [bᵥ, aᵥ, cᵥ, dᵥ, kₒ, jₒ, iₒ, lₒ])]⟩,
  -- line 1059: nmef,eajm,fdik,bcln->abcdijkl
  ⟨1, [g_aaaa [nₒ, mₒ, eᵥ, fᵥ], t2_aaaa [eᵥ, aᵥ, jₒ, mₒ], t2_aaaa [fᵥ, dᵥ, iₒ, kₒ], t2_aaaa [bᵥ, cᵥ, lₒ, nₒ]], [(1, [aᵥ, bᵥ, cᵥ, dᵥ, iₒ, jₒ, kₒ, lₒ]), (-1, [aᵥ, bᵥ, cᵥ, dᵥ, jₒ, iₒ, kₒ, lₒ]), (-1, [bᵥ, aᵥ, cᵥ, dᵥ, iₒ, jₒ, kₒ, lₒ]), (1, [bᵥ, aᵥ, cᵥ, dᵥ, jₒ, iₒ, kₒ, lₒ])]⟩,
  -- line 1063: nmfe,aejm,fdik,bcln->abcdijkl
  ⟨1, [g_abab [nₒ, mₒ, fᵥ, eᵥ], t2_abab [aᵥ, eᵥ, jₒ, mₒ], t2_aaaa [fᵥ, dᵥ, iₒ, kₒ], t2_aaaa [bᵥ, cᵥ, lₒ, nₒ]], [(1, [aᵥ, bᵥ, cᵥ, dᵥ, iₒ, jₒ, kₒ, lₒ]), (-1, [aᵥ, bᵥ, cᵥ, dᵥ, jₒ, iₒ, kₒ, lₒ]), (-1, [bᵥ, aᵥ, cᵥ, dᵥ, iₒ, jₒ, kₒ, lₒ]), (1, [bᵥ, aᵥ, cᵥ, dᵥ, jₒ, iₒ, kₒ, lₒ])]⟩,
  -- line 1067: nmef,eaim,fbkl,cdjn->abcdijkl
  ⟨-1, [g_aaaa [nₒ, mₒ, eᵥ, fᵥ], t2_aaaa [eᵥ, aᵥ, iₒ, mₒ], t2_aaaa [fᵥ, bᵥ, kₒ, lₒ], t2_aaaa [cᵥ, dᵥ, jₒ, nₒ]], [(1, [aᵥ, bᵥ, cᵥ, dᵥ, iₒ, jₒ, kₒ, lₒ]), (-1, [aᵥ, bᵥ, cᵥ, dᵥ, iₒ, kₒ, jₒ, lₒ]), (-1, [aᵥ, cᵥ, bᵥ, dᵥ, iₒ, jₒ, kₒ, lₒ]), (1, [aᵥ, cᵥ, bᵥ, dᵥ, iₒ, kₒ, jₒ, lₒ])]⟩,
  -- line 1071: nmfe,aeim,fbkl,cdjn->abcdijkl
  ⟨-1, [g_abab [nₒ, mₒ, fᵥ, eᵥ], t2_abab [aᵥ, eᵥ, iₒ, mₒ], t2_aaaa [fᵥ, bᵥ, kₒ, lₒ], t2_aaaa [cᵥ, dᵥ, jₒ, nₒ]], [(1, [aᵥ, bᵥ, cᵥ, dᵥ, iₒ, jₒ, kₒ, lₒ]), (-1, [aᵥ, bᵥ, cᵥ, dᵥ, iₒ, kₒ, jₒ, lₒ]), (-1, [aᵥ, cᵥ, bᵥ, dᵥ, iₒ, jₒ, kₒ, lₒ]), (1, [aᵥ, cᵥ, bᵥ, dᵥ, iₒ, kₒ, jₒ, lₒ])]⟩,
  -- line 1075: nmef,eaim,fdkl,bcjn->abcdijkl
  ⟨-1, [g_aaaa [nₒ, mₒ, eᵥ, fᵥ], t2_aaaa [eᵥ, aᵥ, iₒ, mₒ], t2_aaaa [fᵥ, dᵥ, kₒ, lₒ], t2_aaaa [bᵥ, cᵥ, jₒ, nₒ]], [(1, [aᵥ, bᵥ, cᵥ, dᵥ, iₒ, jₒ, kₒ, lₒ]), (-1, [aᵥ, bᵥ, cᵥ, dᵥ, iₒ, kₒ, jₒ, lₒ]), (-1, [bᵥ, aᵥ, cᵥ, dᵥ, iₒ, jₒ, kₒ, lₒ]), (1, [bᵥ, aᵥ, cᵥ, dᵥ, iₒ, kₒ, jₒ, lₒ])]⟩,
  -- line 1079: nmfe,aeim,fdkl,bcjn->abcdijkl
  ⟨-1, [g_abab [nₒ, mₒ, fᵥ, eᵥ], t2_abab [aᵥ, eᵥ, iₒ, mₒ], t2_aaaa [fᵥ, dᵥ, kₒ, lₒ], t2_aaaa [bᵥ, cᵥ, jₒ, nₒ]], [(1, [aᵥ, bᵥ, cᵥ, dᵥ, iₒ, jₒ, kₒ, lₒ]), (-1, [aᵥ, bᵥ, cᵥ, dᵥ, iₒ, kₒ, jₒ, lₒ]), (-1, [bᵥ, aᵥ, cᵥ, dᵥ, iₒ, jₒ, kₒ, lₒ]), (1, [bᵥ, aᵥ, cᵥ, dᵥ, iₒ, kₒ, jₒ, lₒ])]⟩,
  -- line 1083: nmef,eakl,fbjm,cdin->abcdijkl
  ⟨1, [g_aaaa [nₒ, mₒ, eᵥ, fᵥ], t2_aaaa [eᵥ, aᵥ, kₒ, lₒ], t2_aaaa [fᵥ, bᵥ, jₒ, mₒ], t2_aaaa [cᵥ, dᵥ, iₒ, nₒ]], [(1, [aᵥ, bᵥ, cᵥ, dᵥ, iₒ, jₒ, kₒ, lₒ]), (-1, [aᵥ, bᵥ, cᵥ, dᵥ, jₒ, iₒ, kₒ, lₒ]), (-1, [aᵥ, cᵥ, bᵥ, dᵥ, iₒ, jₒ, kₒ, lₒ]), (1, [aᵥ, cᵥ, bᵥ, dᵥ, jₒ, iₒ, kₒ, lₒ])]⟩,
  -- line 1087: nmef,eakl,bfjm,cdin->abcdijkl
  ⟨-1, [g_abab [nₒ, mₒ, eᵥ, fᵥ], t2_aaaa [eᵥ, aᵥ, kₒ, lₒ], t2_abab [bᵥ, fᵥ, jₒ, mₒ], t2_aaaa [cᵥ, dᵥ, iₒ, nₒ]], [(1, [aᵥ, bᵥ, cᵥ, dᵥ, iₒ, jₒ, kₒ, lₒ]), (-1, [aᵥ, bᵥ, cᵥ, dᵥ, jₒ, iₒ, kₒ, lₒ]), (-1, [aᵥ, cᵥ, bᵥ, dᵥ, iₒ, jₒ, kₒ, lₒ]), (1, [aᵥ, cᵥ, bᵥ, dᵥ, jₒ, iₒ, kₒ, lₒ])]⟩,
  -- line 1091: nmef,eakl,fbij,cdnm->abcdijkl
  ⟨-1/2, [g_aaaa [nₒ, mₒ, eᵥ, fᵥ], t2_aaaa [eᵥ, aᵥ, kₒ, lₒ], t2_aaaa [fᵥ, bᵥ, iₒ, jₒ], t2_aaaa [cᵥ, dᵥ, nₒ, mₒ]], [(1, [aᵥ, bᵥ, cᵥ, dᵥ, iₒ, jₒ, kₒ, lₒ]), (-1, [aᵥ, bᵥ, cᵥ, dᵥ, iₒ, kₒ, jₒ, lₒ]), (-1, [aᵥ, cᵥ, bᵥ, dᵥ, iₒ, jₒ, kₒ, lₒ]), (1, [aᵥ, cᵥ, bᵥ, dᵥ, iₒ, kₒ, jₒ, lₒ])]⟩,
  -- line 1095: nmef,eakl,fdjm,bcin->abcdijkl
  ⟨1, [g_aaaa [nₒ, mₒ, eᵥ, fᵥ], t2_aaaa [eᵥ, aᵥ, kₒ, lₒ], t2_aaaa [fᵥ, dᵥ, jₒ, mₒ], t2_aaaa [bᵥ, cᵥ, iₒ, nₒ]], [(1, [aᵥ, bᵥ, cᵥ, dᵥ, iₒ, jₒ, kₒ, lₒ]), (-1, [aᵥ, bᵥ, cᵥ, dᵥ, jₒ, iₒ, kₒ, lₒ]), (-1, [bᵥ, aᵥ, cᵥ, dᵥ, iₒ, jₒ, kₒ, lₒ]), (1, [bᵥ, aᵥ, cᵥ, dᵥ, jₒ, iₒ, kₒ, lₒ])]⟩,
  -- line 1099: nmef,eakl,dfjm,bcin->abcdijkl
  ⟨-1, [g_abab [nₒ, mₒ, eᵥ, fᵥ], t2_aaaa [eᵥ, aᵥ, kₒ, lₒ], t2_abab [dᵥ, fᵥ, jₒ, mₒ], t2_aaaa [bᵥ, cᵥ, iₒ, nₒ]], [(1, [aᵥ, bᵥ, cᵥ, dᵥ, iₒ, jₒ, kₒ, lₒ]), (-1, [aᵥ, bᵥ, cᵥ, dᵥ, jₒ, iₒ, kₒ, lₒ]), (-1, [bᵥ, aᵥ, cᵥ, dᵥ, iₒ, jₒ, kₒ, lₒ]), (1, [bᵥ, aᵥ, cᵥ, dᵥ, jₒ, iₒ, kₒ, lₒ])]⟩,
  -- line 1103: nmef,eakl,fdij,bcnm->abcdijkl
  ⟨-1/2, [g_aaaa [nₒ, mₒ, eᵥ, fᵥ], t2_aaaa [eᵥ, aᵥ, kₒ, lₒ], t2_aaaa [fᵥ, dᵥ, iₒ, jₒ], t2_aaaa [bᵥ, cᵥ, nₒ, mₒ]], [(1, [aᵥ, bᵥ, cᵥ, dᵥ, iₒ, jₒ, kₒ, lₒ]), (-1, [aᵥ, bᵥ, cᵥ, dᵥ, iₒ, kₒ, jₒ, lₒ]), (-1, [bᵥ, aᵥ, cᵥ, dᵥ, iₒ, jₒ, kₒ, lₒ]), (1, [bᵥ, aᵥ, cᵥ, dᵥ, iₒ, kₒ, jₒ, lₒ])]⟩,
  -- line 1107: nmef,eajl,fbkm,cdin->abcdijkl
  ⟨-1, [g_aaaa [nₒ, mₒ, eᵥ, fᵥ], t2_aaaa [eᵥ, aᵥ, jₒ, lₒ], t2_aaaa [fᵥ, bᵥ, kₒ, mₒ], t2_aaaa [cᵥ, dᵥ, iₒ, nₒ]], [(1, [aᵥ, bᵥ, cᵥ, dᵥ, iₒ, jₒ, kₒ, lₒ]), (-1, [aᵥ, bᵥ, cᵥ, dᵥ, kₒ, jₒ, iₒ, lₒ]), (-1, [aᵥ, cᵥ, bᵥ, dᵥ, iₒ, jₒ, kₒ, lₒ]), (1, [aᵥ, cᵥ, bᵥ, dᵥ, kₒ, jₒ, iₒ, lₒ])]⟩,
  -- line 1111: nmef,eajl,bfkm,cdin->abcdijkl
  ⟨1, [g_abab [nₒ, mₒ, eᵥ, fᵥ], t2_aaaa [eᵥ, aᵥ, jₒ, lₒ], t2_abab [bᵥ, fᵥ, kₒ, mₒ], t2_aaaa [cᵥ, dᵥ, iₒ, nₒ]], [(1, [aᵥ, bᵥ, cᵥ, dᵥ, iₒ, jₒ, kₒ, lₒ]), (-1, [aᵥ, bᵥ, cᵥ, dᵥ, kₒ, jₒ, iₒ, lₒ]), (-1, [aᵥ, cᵥ, bᵥ, dᵥ, iₒ, jₒ, kₒ, lₒ]), (1, [aᵥ, cᵥ, bᵥ, dᵥ, kₒ, jₒ, iₒ, lₒ])]⟩,
  -- line 1115: nmef,eajl,fdkm,bcin->abcdijkl
  ⟨-1, [g_aaaa [nₒ, mₒ, eᵥ, fᵥ], t2_aaaa [eᵥ, aᵥ, jₒ, lₒ], t2_aaaa [fᵥ, dᵥ, kₒ, mₒ], t2_aaaa [bᵥ, cᵥ, iₒ, nₒ]], [(1, [aᵥ, bᵥ, cᵥ, dᵥ, iₒ, jₒ, kₒ, lₒ]), (-1, [aᵥ, bᵥ, cᵥ, dᵥ, kₒ, jₒ, iₒ, lₒ]), (-1, [bᵥ, aᵥ, cᵥ, dᵥ, iₒ, jₒ, kₒ, lₒ]), (1, [bᵥ, aᵥ, cᵥ, dᵥ, kₒ, jₒ, iₒ, lₒ])]⟩,
  -- line 1119: nmef,eajl,dfkm,bcin->abcdijkl
  ⟨1, [g_abab [nₒ, mₒ, eᵥ, fᵥ], t2_aaaa [eᵥ, aᵥ, jₒ, lₒ], t2_abab [dᵥ, fᵥ, kₒ, mₒ], t2_aaaa [bᵥ, cᵥ, iₒ, nₒ]], [(1, [aᵥ, bᵥ, cᵥ, dᵥ, iₒ, jₒ, kₒ, lₒ]), (-1, [aᵥ, bᵥ, cᵥ, dᵥ, kₒ, jₒ, iₒ, lₒ]), (-1, [bᵥ, aᵥ, cᵥ, dᵥ, iₒ, jₒ, kₒ, lₒ]), (1, [bᵥ, aᵥ, cᵥ, dᵥ, kₒ, jₒ, iₒ, lₒ])]⟩,
  -- line 1123: nmef,eail,fbkm,cdjn->abcdijkl
  ⟨1, [g_aaaa [nₒ, mₒ, eᵥ, fᵥ], t2_aaaa [eᵥ, aᵥ, iₒ, lₒ], t2_aaaa [fᵥ, bᵥ, kₒ, mₒ], t2_aaaa [cᵥ, dᵥ, jₒ, nₒ]], [(1, [aᵥ, bᵥ, cᵥ, dᵥ, iₒ, jₒ, kₒ, lₒ]), (-1, [aᵥ, bᵥ, cᵥ, dᵥ, iₒ, kₒ, jₒ, lₒ]), (-1, [aᵥ, cᵥ, bᵥ, dᵥ, iₒ, jₒ, kₒ, lₒ]), (1, [aᵥ, cᵥ, bᵥ, dᵥ, iₒ, kₒ, jₒ, lₒ])]⟩,
  -- line 1127: nmef,eail,bfkm,cdjn->abcdijkl
  ⟨-1, [g_abab [nₒ, mₒ, eᵥ, fᵥ], t2_aaaa [eᵥ, aᵥ, iₒ, lₒ], t2_abab [bᵥ, fᵥ, kₒ, mₒ], t2_aaaa [cᵥ, dᵥ, jₒ, nₒ]], [(1, [aᵥ, bᵥ, cᵥ, dᵥ, iₒ, jₒ, kₒ, lₒ]), (-1, [aᵥ, bᵥ, cᵥ, dᵥ, iₒ, kₒ, jₒ, lₒ]), (-1, [aᵥ, cᵥ, bᵥ, dᵥ, iₒ, jₒ, kₒ, lₒ]), (1, [aᵥ, cᵥ, bᵥ, dᵥ, iₒ, kₒ, jₒ, lₒ])]⟩,
  -- line 1131: nmef,eail,fbjk,cdnm->abcdijkl
  ⟨-1/2, [g_aaaa [nₒ, mₒ, eᵥ, fᵥ], t2_aaaa [eᵥ, aᵥ, iₒ, lₒ], t2_aaaa [fᵥ, bᵥ, jₒ, kₒ], t2_aaaa [cᵥ, dᵥ, nₒ, mₒ]], [(1, [aᵥ, bᵥ, cᵥ, dᵥ, iₒ, jₒ, kₒ, lₒ]), (-1, [aᵥ, bᵥ, cᵥ, dᵥ, iₒ, jₒ, lₒ, kₒ]), (-1, [aᵥ, cᵥ, bᵥ, dᵥ, iₒ, jₒ, kₒ, lₒ]), (1, [aᵥ, cᵥ, bᵥ, dᵥ, iₒ, jₒ, lₒ, kₒ])]⟩,
  -- line 1135: nmef,eail,fdkm,bcjn->abcdijkl
  ⟨1, [g_aaaa [nₒ, mₒ, eᵥ, fᵥ], t2_aaaa [eᵥ, aᵥ, iₒ, lₒ], t2_aaaa [fᵥ, dᵥ, kₒ, mₒ], t2_aaaa [bᵥ, cᵥ, jₒ, nₒ]], [(1, [aᵥ, bᵥ, cᵥ, dᵥ, iₒ, jₒ, kₒ, lₒ]), (-1, [aᵥ, bᵥ, cᵥ, dᵥ, iₒ, kₒ, jₒ, lₒ]), (-1, [bᵥ, aᵥ, cᵥ, dᵥ, iₒ, jₒ, kₒ, lₒ]), (1, [bᵥ, aᵥ, cᵥ, dᵥ, iₒ, kₒ, jₒ, lₒ])]⟩,
  -- line 1139: nmef,eail,dfkm,bcjn->abcdijkl
  ⟨-1, [g_abab [nₒ, mₒ, eᵥ, fᵥ], t2_aaaa [eᵥ, aᵥ, iₒ, lₒ], t2_abab [dᵥ, fᵥ, kₒ, mₒ], t2_aaaa [bᵥ, cᵥ, jₒ, nₒ]], [(1, [aᵥ, bᵥ, cᵥ, dᵥ, iₒ, jₒ, kₒ, lₒ]), (-1, [aᵥ, bᵥ, cᵥ, dᵥ, iₒ, kₒ, jₒ, lₒ]), (-1, [bᵥ, aᵥ, cᵥ, dᵥ, iₒ, jₒ, kₒ, lₒ]), (1, [bᵥ, aᵥ, cᵥ, dᵥ, iₒ, kₒ, jₒ, lₒ])]⟩,
  -- line 1143: nmef,eail,fdjk,bcnm->abcdijkl
  ⟨-1/2, [g_aaaa [nₒ, mₒ, eᵥ, fᵥ], t2_aaaa [eᵥ, aᵥ, iₒ, lₒ], t2_aaaa [fᵥ, dᵥ, jₒ, kₒ], t2_aaaa [bᵥ, cᵥ, nₒ, mₒ]], [(1, [aᵥ, bᵥ, cᵥ, dᵥ, iₒ, jₒ, kₒ, lₒ]), (-1, [aᵥ, bᵥ, cᵥ, dᵥ, iₒ, jₒ, lₒ, kₒ]), (-1, [bᵥ, aᵥ, cᵥ, dᵥ, iₒ, jₒ, kₒ, lₒ]), (1, [bᵥ, aᵥ, cᵥ, dᵥ, iₒ, jₒ, lₒ, kₒ])]⟩,
  -- line 1147: nmef,eajk,fblm,cdin->abcdijkl
  ⟨1, [g_aaaa [nₒ, mₒ, eᵥ, fᵥ], t2_aaaa [eᵥ, aᵥ, jₒ, kₒ], t2_aaaa [fᵥ, bᵥ, lₒ, mₒ], t2_aaaa [cᵥ, dᵥ, iₒ, nₒ]], [(1, [aᵥ, bᵥ, cᵥ, dᵥ, iₒ, jₒ, kₒ, lₒ]), (-1, [aᵥ, bᵥ, cᵥ, dᵥ, lₒ, jₒ, kₒ, iₒ]), (-1, [aᵥ, cᵥ, bᵥ, dᵥ, iₒ, jₒ, kₒ, lₒ]), (1, [aᵥ, cᵥ, bᵥ, dᵥ, lₒ, jₒ, kₒ, iₒ])]⟩,
  -- line 1151: nmef,eajk,bflm,cdin->abcdijkl
  ⟨-1, [g_abab [nₒ, mₒ, eᵥ, fᵥ], t2_aaaa [eᵥ, aᵥ, jₒ, kₒ], t2_abab [bᵥ, fᵥ, lₒ, mₒ], t2_aaaa [cᵥ, dᵥ, iₒ, nₒ]], [(1, [aᵥ, bᵥ, cᵥ, dᵥ, iₒ, jₒ, kₒ, lₒ]), (-1, [aᵥ, bᵥ, cᵥ, dᵥ, lₒ, jₒ, kₒ, iₒ]), (-1, [aᵥ, cᵥ, bᵥ, dᵥ, iₒ, jₒ, kₒ, lₒ]), (1, [aᵥ, cᵥ, bᵥ, dᵥ, lₒ, jₒ, kₒ, iₒ])]⟩,
  -- line 1155: nmef,eajk,fbil,cdnm->abcdijkl
  ⟨-1/2, [g_aaaa [nₒ, mₒ, eᵥ, fᵥ], t2_aaaa [eᵥ, aᵥ, jₒ, kₒ], t2_aaaa [fᵥ, bᵥ, iₒ, lₒ], t2_aaaa [cᵥ, dᵥ, nₒ, mₒ]], [(1, [aᵥ, bᵥ, cᵥ, dᵥ, iₒ, jₒ, kₒ, lₒ]), (-1, [aᵥ, bᵥ, cᵥ, dᵥ, kₒ, jₒ, iₒ, lₒ]), (-1, [aᵥ, cᵥ, bᵥ, dᵥ, iₒ, jₒ, kₒ, lₒ]), (1, [aᵥ, cᵥ, bᵥ, dᵥ, kₒ, jₒ, iₒ, lₒ])]⟩
  ]

/-- Part 5 of `ccdq_t4_aaaaaaaa`. -/
def ccdq_t4_aaaaaaaa_5 : Prog := [
  -- line 1159: nmef,eajk,fdlm,bcin->abcdijkl
  ⟨1, [g_aaaa [nₒ, mₒ, eᵥ, fᵥ], t2_aaaa [eᵥ, aᵥ, jₒ, kₒ], t2_aaaa [fᵥ, dᵥ, lₒ, mₒ], t2_aaaa [bᵥ, cᵥ, iₒ, nₒ]], [(1, [aᵥ, bᵥ, cᵥ, dᵥ, iₒ, jₒ, kₒ, lₒ]), (-1, [aᵥ, bᵥ, cᵥ, dᵥ, lₒ, jₒ, kₒ, iₒ]), (-1, [bᵥ, aᵥ, cᵥ, dᵥ, iₒ, jₒ, kₒ, lₒ]), (1, [bᵥ, aᵥ, cᵥ, dᵥ, lₒ, jₒ, kₒ, iₒ])]⟩,
  -- line 1163: nmef,eajk,dflm,bcin->abcdijkl
  ⟨-1, [g_abab [nₒ, mₒ, eᵥ, fᵥ], t2_aaaa [eᵥ, aᵥ, jₒ, kₒ], t2_abab [dᵥ, fᵥ, lₒ, mₒ], t2_aaaa [bᵥ, cᵥ, iₒ, nₒ]], [(1, [aᵥ, bᵥ, cᵥ, dᵥ, iₒ, jₒ, kₒ, lₒ]), (-1, [aᵥ, bᵥ, cᵥ, dᵥ, lₒ, jₒ, kₒ, iₒ]), (-1, [bᵥ, aᵥ, cᵥ, dᵥ, iₒ, jₒ, kₒ, lₒ]), (1, [bᵥ, aᵥ, cᵥ, dᵥ, lₒ, jₒ, kₒ, iₒ])]⟩,
  -- line 1167: nmef,eajk,fdil,bcnm->abcdijkl
  ⟨-1/2, [g_aaaa [nₒ, mₒ, eᵥ, fᵥ], t2_aaaa [eᵥ, aᵥ, jₒ, kₒ], t2_aaaa [fᵥ, dᵥ, iₒ, lₒ], t2_aaaa [bᵥ, cᵥ, nₒ, mₒ]], [(1, [aᵥ, bᵥ, cᵥ, dᵥ, iₒ, jₒ, kₒ, lₒ]), (-1, [aᵥ, bᵥ, cᵥ, dᵥ, kₒ, jₒ, iₒ, lₒ]), (-1, [bᵥ, aᵥ, cᵥ, dᵥ, iₒ, jₒ, kₒ, lₒ]), (1, [bᵥ, aᵥ, cᵥ, dᵥ, kₒ, jₒ, iₒ, lₒ])]⟩,
  -- line 1171: nmef,eaik,fblm,cdjn->abcdijkl
  ⟨-1, [g_aaaa [nₒ, mₒ, eᵥ, fᵥ], t2_aaaa [eᵥ, aᵥ, iₒ, kₒ], t2_aaaa [fᵥ, bᵥ, lₒ, mₒ], t2_aaaa [cᵥ, dᵥ, jₒ, nₒ]], [(1, [aᵥ, bᵥ, cᵥ, dᵥ, iₒ, jₒ, kₒ, lₒ]), (-1, [aᵥ, bᵥ, cᵥ, dᵥ, iₒ, lₒ, kₒ, jₒ]), (-1, [aᵥ, cᵥ, bᵥ, dᵥ, iₒ, jₒ, kₒ, lₒ]), (1, [aᵥ, cᵥ, bᵥ, dᵥ, iₒ, lₒ, kₒ, jₒ])]⟩,
  -- line 1175: nmef,eaik,bflm,cdjn->abcdijkl
  ⟨1, [g_abab [nₒ, mₒ, eᵥ, fᵥ], t2_aaaa [eᵥ, aᵥ, iₒ, kₒ], t2_abab [bᵥ, fᵥ, lₒ, mₒ], t2_aaaa [cᵥ, dᵥ, jₒ, nₒ]], [(1, [aᵥ, bᵥ, cᵥ, dᵥ, iₒ, jₒ, kₒ, lₒ]), (-1, [aᵥ, bᵥ, cᵥ, dᵥ, iₒ, lₒ, kₒ, jₒ]), (-1, [aᵥ, cᵥ, bᵥ, dᵥ, iₒ, jₒ, kₒ, lₒ]), (1, [aᵥ, cᵥ, bᵥ, dᵥ, iₒ, lₒ, kₒ, jₒ])]⟩,
  -- line 1179: nmef,eaik,fdlm,bcjn->abcdijkl
  ⟨-1, [g_aaaa [nₒ, mₒ, eᵥ, fᵥ], t2_aaaa [eᵥ, aᵥ, iₒ, kₒ], t2_aaaa [fᵥ, dᵥ, lₒ, mₒ], t2_aaaa [bᵥ, cᵥ, jₒ, nₒ]], [(1, [aᵥ, bᵥ, cᵥ, dᵥ, iₒ, jₒ, kₒ, lₒ]), (-1, [aᵥ, bᵥ, cᵥ, dᵥ, iₒ, lₒ, kₒ, jₒ]), (-1, [bᵥ, aᵥ, cᵥ, dᵥ, iₒ, jₒ, kₒ, lₒ]), (1, [bᵥ, aᵥ, cᵥ, dᵥ, iₒ, lₒ, kₒ, jₒ])]⟩,
  -- line 1183: nmef,eaik,dflm,bcjn->abcdijkl
  ⟨1, [g_abab [nₒ, mₒ, eᵥ, fᵥ], t2_aaaa [eᵥ, aᵥ, iₒ, kₒ], t2_abab [dᵥ, fᵥ, lₒ, mₒ], t2_aaaa [bᵥ, cᵥ, jₒ, nₒ]], [(1, [aᵥ, bᵥ, cᵥ, dᵥ, iₒ, jₒ, kₒ, lₒ]), (-1, [aᵥ, bᵥ, cᵥ, dᵥ, iₒ, lₒ, kₒ, jₒ]), (-1, [bᵥ, aᵥ, cᵥ, dᵥ, iₒ, jₒ, kₒ, lₒ]), (1, [bᵥ, aᵥ, cᵥ, dᵥ, iₒ, lₒ, kₒ, jₒ])]⟩,
  -- line 1187: nmef,eaij,fblm,cdkn->abcdijkl
  ⟨1, [g_aaaa [nₒ, mₒ, eᵥ, fᵥ], t2_aaaa [eᵥ, aᵥ, iₒ, jₒ], t2_aaaa [fᵥ, bᵥ, lₒ, mₒ], t2_aaaa [cᵥ, dᵥ, kₒ, nₒ]], [(1, [aᵥ, bᵥ, cᵥ, dᵥ, iₒ, jₒ, kₒ, lₒ]), (-1, [aᵥ, bᵥ, cᵥ, dᵥ, iₒ, jₒ, lₒ, kₒ]), (-1, [aᵥ, cᵥ, bᵥ, dᵥ, iₒ, jₒ, kₒ, lₒ]), (1, [aᵥ, cᵥ, bᵥ, dᵥ, iₒ, jₒ, lₒ, kₒ])]⟩,
  -- line 1191: nmef,eaij,bflm,cdkn->abcdijkl
  ⟨-1, [g_abab [nₒ, mₒ, eᵥ, fᵥ], t2_aaaa [eᵥ, aᵥ, iₒ, jₒ], t2_abab [bᵥ, fᵥ, lₒ, mₒ], t2_aaaa [cᵥ, dᵥ, kₒ, nₒ]], [(1, [aᵥ, bᵥ, cᵥ, dᵥ, iₒ, jₒ, kₒ, lₒ]), (-1, [aᵥ, bᵥ, cᵥ, dᵥ, iₒ, jₒ, lₒ, kₒ]), (-1, [aᵥ, cᵥ, bᵥ, dᵥ, iₒ, jₒ, kₒ, lₒ]), (1, [aᵥ, cᵥ, bᵥ, dᵥ, iₒ, jₒ, lₒ, kₒ])]⟩,
  -- line 1195: nmef,eaij,fdlm,bckn->abcdijkl
  ⟨1, [g_aaaa [nₒ, mₒ, eᵥ, fᵥ], t2_aaaa [eᵥ, aᵥ, iₒ, jₒ], t2_aaaa [fᵥ, dᵥ, lₒ, mₒ], t2_aaaa [bᵥ, cᵥ, kₒ, nₒ]], [(1, [aᵥ, bᵥ, cᵥ, dᵥ, iₒ, jₒ, kₒ, lₒ]), (-1, [aᵥ, bᵥ, cᵥ, dᵥ, iₒ, jₒ, lₒ, kₒ]), (-1, [bᵥ, aᵥ, cᵥ, dᵥ, iₒ, jₒ, kₒ, lₒ]), (1, [bᵥ, aᵥ, cᵥ, dᵥ, iₒ, jₒ, lₒ, kₒ])]⟩,
  -- line 1199: nmef,eaij,dflm,bckn->abcdijkl
  ⟨-1, [g_abab [nₒ, mₒ, eᵥ, fᵥ], t2_aaaa [eᵥ, aᵥ, iₒ, jₒ], t2_abab [dᵥ, fᵥ, lₒ, mₒ], t2_aaaa [bᵥ, cᵥ, kₒ, nₒ]], [(1, [aᵥ, bᵥ, cᵥ, dᵥ, iₒ, jₒ, kₒ, lₒ]), (-1, [aᵥ, bᵥ, cᵥ, dᵥ, iₒ, jₒ, lₒ, kₒ]), (-1, [bᵥ, aᵥ, cᵥ, dᵥ, iₒ, jₒ, kₒ, lₒ]), (1, [bᵥ, aᵥ, cᵥ, dᵥ, iₒ, jₒ, lₒ, kₒ])]⟩,
  -- line 1203: nmef,eblm,fcjk,adin->abcdijkl
  ⟨1, [g_aaaa [nₒ, mₒ, eᵥ, fᵥ], t2_aaaa [eᵥ, bᵥ, lₒ, mₒ], t2_aaaa [fᵥ, cᵥ, jₒ, kₒ], t2_aaaa [aᵥ, dᵥ, iₒ, nₒ]], [(1, [aᵥ, bᵥ, cᵥ, dᵥ, iₒ, jₒ, kₒ, lₒ]), (-1, [aᵥ, bᵥ, cᵥ, dᵥ, jₒ, iₒ, kₒ, lₒ])]⟩,
  -- line 1207: nmfe,belm,fcjk,adin->abcdijkl
  ⟨1, [g_abab [nₒ, mₒ, fᵥ, eᵥ], t2_abab [bᵥ, eᵥ, lₒ, mₒ], t2_aaaa [fᵥ, cᵥ, jₒ, kₒ], t2_aaaa [aᵥ, dᵥ, iₒ, nₒ]], [(1, [aᵥ, bᵥ, cᵥ, dᵥ, iₒ, jₒ, kₒ, lₒ]), (-1, [aᵥ, bᵥ, cᵥ, dᵥ, jₒ, iₒ, kₒ, lₒ])]⟩,
  -- line 1211: nmef,eblm,fcij,adkn->abcdijkl
  ⟨1, [g_aaaa [nₒ, mₒ, eᵥ, fᵥ], t2_aaaa [eᵥ, bᵥ, lₒ, mₒ], t2_aaaa [fᵥ, cᵥ, iₒ, jₒ], t2_aaaa [aᵥ, dᵥ, kₒ, nₒ]], [(1, [aᵥ, bᵥ, cᵥ, dᵥ, iₒ, jₒ, kₒ, lₒ]), (-1, [aᵥ, bᵥ, cᵥ, dᵥ, iₒ, jₒ, lₒ, kₒ])]⟩,
  -- line 1215: nmfe,belm,fcij,adkn->abcdijkl
  ⟨1, [g_abab [nₒ, mₒ, fᵥ, eᵥ], t2_abab [bᵥ, eᵥ, lₒ, mₒ], t2_aaaa [fᵥ, cᵥ, iₒ, jₒ], t2_aaaa [aᵥ, dᵥ, kₒ, nₒ]], [(1, [aᵥ, bᵥ, cᵥ, dᵥ, iₒ, jₒ, kₒ, lₒ]), (-1, [aᵥ, bᵥ, cᵥ, dᵥ, iₒ, jₒ, lₒ, kₒ])]⟩,
  -- line 1219: nmef,ebkm,fcjl,adin->abcdijkl
  ⟨-1, [g_aaaa [nₒ, mₒ, eᵥ, fᵥ], t2_aaaa [eᵥ, bᵥ, kₒ, mₒ], t2_aaaa [fᵥ, cᵥ, jₒ, lₒ], t2_aaaa [aᵥ, dᵥ, iₒ, nₒ]], [(1, [aᵥ, bᵥ, cᵥ, dᵥ, iₒ, jₒ, kₒ, lₒ]), (-1, [aᵥ, bᵥ, cᵥ, dᵥ, jₒ, iₒ, kₒ, lₒ])]⟩,
  -- line 1223: nmfe,bekm,fcjl,adin->abcdijkl
  ⟨-1, [g_abab [nₒ, mₒ, fᵥ, eᵥ], t2_abab [bᵥ, eᵥ, kₒ, mₒ], t2_aaaa [fᵥ, cᵥ, jₒ, lₒ], t2_aaaa [aᵥ, dᵥ, iₒ, nₒ]], [(1, [aᵥ, bᵥ, cᵥ, dᵥ, iₒ, jₒ, kₒ, lₒ]), (-1, [aᵥ, bᵥ, cᵥ, dᵥ, jₒ, iₒ, kₒ, lₒ])]⟩,
  -- line 1227: nmef,ebjm,fckl,adin->abcdijkl
  ⟨1, [g_aaaa [nₒ, mₒ, eᵥ, fᵥ], t2_aaaa [eᵥ, bᵥ, jₒ, mₒ], t2_aaaa [fᵥ, cᵥ, kₒ, lₒ], t2_aaaa [aᵥ, dᵥ, iₒ, nₒ]], [(1, [aᵥ, bᵥ, cᵥ, dᵥ, iₒ, jₒ, kₒ, lₒ]), (-1, [aᵥ, bᵥ, cᵥ, dᵥ, kₒ, jₒ, iₒ, lₒ])]⟩,
  -- line 1231: nmfe,bejm,fckl,adin->abcdijkl
  ⟨1, [g_abab [nₒ, mₒ, fᵥ, eᵥ], t2_abab [bᵥ, eᵥ, jₒ, mₒ], t2_aaaa [fᵥ, cᵥ, kₒ, lₒ], t2_aaaa [aᵥ, dᵥ, iₒ, nₒ]], [(1, [aᵥ, bᵥ, cᵥ, dᵥ, iₒ, jₒ, kₒ, lₒ]), (-1, [aᵥ, bᵥ, cᵥ, dᵥ, kₒ, jₒ, iₒ, lₒ])]⟩,
  -- line 1235: nmef,ebjm,fcik,adln->abcdijkl
  ⟨1, [g_aaaa [nₒ, mₒ, eᵥ, fᵥ], t2_aaaa [eᵥ, bᵥ, jₒ, mₒ], t2_aaaa [fᵥ, cᵥ, iₒ, kₒ], t2_aaaa [aᵥ, dᵥ, lₒ, nₒ]], [(1, [aᵥ, bᵥ, cᵥ, dᵥ, iₒ, jₒ, kₒ, lₒ]), (-1, [aᵥ, bᵥ, cᵥ, dᵥ, jₒ, iₒ, kₒ, lₒ])]⟩,
  -- line 1239: nmfe,bejm,fcik,adln->abcdijkl
  ⟨1, [g_abab [nₒ, mₒ, fᵥ, eᵥ], t2_abab [bᵥ, eᵥ, jₒ, mₒ], t2_aaaa [fᵥ, cᵥ, iₒ, kₒ], t2_aaaa [aᵥ, dᵥ, lₒ, nₒ]], [(1, [aᵥ, bᵥ, cᵥ, dᵥ, iₒ, jₒ, kₒ, lₒ]), (-1, [aᵥ, bᵥ, cᵥ, dᵥ, jₒ, iₒ, kₒ, lₒ])]⟩,
  -- line 1243: nmef,ebim,fckl,adjn->abcdijkl
  ⟨-1, [g_aaaa [nₒ, mₒ, eᵥ, fᵥ], t2_aaaa [eᵥ, bᵥ, iₒ, mₒ], t2_aaaa [fᵥ, cᵥ, kₒ, lₒ], t2_aaaa [aᵥ, dᵥ, jₒ, nₒ]], [(1, [aᵥ, bᵥ, cᵥ, dᵥ, iₒ, jₒ, kₒ, lₒ]), (-1, [aᵥ, bᵥ, cᵥ, dᵥ, iₒ, kₒ, jₒ, lₒ])]⟩,
  -- line 1247: nmfe,beim,fckl,adjn->abcdijkl
  ⟨-1, [g_abab [nₒ, mₒ, fᵥ, eᵥ], t2_abab [bᵥ, eᵥ, iₒ, mₒ], t2_aaaa [fᵥ, cᵥ, kₒ, lₒ], t2_aaaa [aᵥ, dᵥ, jₒ, nₒ]], [(1, [aᵥ, bᵥ, cᵥ, dᵥ, iₒ, jₒ, kₒ, lₒ]), (-1, [aᵥ, bᵥ, cᵥ, dᵥ, iₒ, kₒ, jₒ, lₒ])]⟩,
  -- line 1251: nmef,ebkl,fcjm,adin->abcdijkl
  ⟨1, [g_aaaa [nₒ, mₒ, eᵥ, fᵥ], t2_aaaa [eᵥ, bᵥ, kₒ, lₒ], t2_aaaa [fᵥ, cᵥ, jₒ, mₒ], t2_aaaa [aᵥ, dᵥ, iₒ, nₒ]], [(1, [aᵥ, bᵥ, cᵥ, dᵥ, iₒ, jₒ, kₒ, lₒ]), (-1, [aᵥ, bᵥ, cᵥ, dᵥ, jₒ, iₒ, kₒ, lₒ])]⟩,
  -- line 1255: nmef,ebkl,cfjm,adin->abcdijkl
  ⟨-1, [g_abab [nₒ, mₒ, eᵥ, fᵥ], t2_aaaa [eᵥ, bᵥ, kₒ, lₒ], t2_abab [cᵥ, fᵥ, jₒ, mₒ], t2_aaaa [aᵥ, dᵥ, iₒ, nₒ]], [(1, [aᵥ, bᵥ, cᵥ, dᵥ, iₒ, jₒ, kₒ, lₒ]), (-1, [aᵥ, bᵥ, cᵥ, dᵥ, jₒ, iₒ, kₒ, lₒ])]⟩,
  -- line 1259: nmef,ebkl,fcij,adnm->abcdijkl
  ⟨-1/2, [g_aaaa [nₒ, mₒ, eᵥ, fᵥ], t2_aaaa [eᵥ, bᵥ, kₒ, lₒ], t2_aaaa [fᵥ, cᵥ, iₒ, jₒ], t2_aaaa [aᵥ, dᵥ, nₒ, mₒ]], [(1, [aᵥ, bᵥ, cᵥ, dᵥ, iₒ, jₒ, kₒ, lₒ]), (-1, [aᵥ, bᵥ, cᵥ, dᵥ, iₒ, kₒ, jₒ, lₒ])]⟩,
  -- line 1263: nmef,ebjl,fckm,adin->abcdijkl
  ⟨-1, [g_aaaa [nₒ, mₒ, eᵥ, fᵥ], t2_aaaa [eᵥ, bᵥ, jₒ, lₒ], t2_aaaa [fᵥ, cᵥ, kₒ, mₒ], t2_aaaa [aᵥ, dᵥ, iₒ, nₒ]], [(1, [aᵥ, bᵥ, cᵥ, dᵥ, iₒ, jₒ, kₒ, lₒ]), (-1, [aᵥ, bᵥ, cᵥ, dᵥ, kₒ, jₒ, iₒ, lₒ])]⟩,
  -- line 1267: nmef,ebjl,cfkm,adin->abcdijkl
  ⟨1, [g_abab [nₒ, mₒ, eᵥ, fᵥ], t2_aaaa [eᵥ, bᵥ, jₒ, lₒ], t2_abab [cᵥ, fᵥ, kₒ, mₒ], t2_aaaa [aᵥ, dᵥ, iₒ, nₒ]], [(1, [aᵥ, bᵥ, cᵥ, dᵥ, iₒ, jₒ, kₒ, lₒ]), (-1, [aᵥ, bᵥ, cᵥ, dᵥ, kₒ, jₒ, iₒ, lₒ])]⟩,
  -- line 1271: nmef,ebil,fckm,adjn->abcdijkl
  ⟨1, [g_aaaa [nₒ, mₒ, eᵥ, fᵥ], t2_aaaa [eᵥ, bᵥ, iₒ, lₒ], t2_aaaa [fᵥ, cᵥ, kₒ, mₒ], t2_aaaa [aᵥ, dᵥ, jₒ, nₒ]], [(1, [aᵥ, bᵥ, cᵥ, dᵥ, iₒ, jₒ, kₒ, lₒ]), (-1, [aᵥ, bᵥ, cᵥ, dᵥ, iₒ, kₒ, jₒ, lₒ])]⟩,
  -- line 1275: nmef,ebil,cfkm,adjn->abcdijkl
  ⟨-1, [g_abab [nₒ, mₒ, eᵥ, fᵥ], t2_aaaa [eᵥ, bᵥ, iₒ, lₒ], t2_abab [cᵥ, fᵥ, kₒ, mₒ], t2_aaaa [aᵥ, dᵥ, jₒ, nₒ]], [(1, [aᵥ, bᵥ, cᵥ, dᵥ, iₒ, jₒ, kₒ, lₒ]), (-1, [aᵥ, bᵥ, cᵥ, dᵥ, iₒ, kₒ, jₒ, lₒ])]⟩,
  -- line 1279: nmef,ebil,fcjk,adnm->abcdijkl
  ⟨-1/2, [g_aaaa [nₒ, mₒ, eᵥ, fᵥ], t2_aaaa [eᵥ, bᵥ, iₒ, lₒ], t2_aaaa [fᵥ, cᵥ, jₒ, kₒ], t2_aaaa [aᵥ, dᵥ, nₒ, mₒ]], [(1, [aᵥ, bᵥ, cᵥ, dᵥ, iₒ, jₒ, kₒ, lₒ]), (-1, [aᵥ, bᵥ, cᵥ, dᵥ, iₒ, jₒ, lₒ, kₒ])]⟩,
  -- line 1283: nmef,ebjk,fclm,adin->abcdijkl
  ⟨1, [g_aaaa [nₒ, mₒ, eᵥ, fᵥ], t2_aaaa [eᵥ, bᵥ, jₒ, kₒ], t2_aaaa [fᵥ, cᵥ, lₒ, mₒ], t2_aaaa [aᵥ, dᵥ, iₒ, nₒ]], [(1, [aᵥ, bᵥ, cᵥ, dᵥ, iₒ, jₒ, kₒ, lₒ]), (-1, [aᵥ, bᵥ, cᵥ, dᵥ, lₒ, jₒ, kₒ, iₒ])]⟩,
  -- line 1287: nmef,ebjk,cflm,adin->abcdijkl
  ⟨-1, [g_abab [nₒ, mₒ, eᵥ, fᵥ], t2_aaaa [eᵥ, bᵥ, jₒ, kₒ], t2_abab [cᵥ, fᵥ, lₒ, mₒ], t2_aaaa [aᵥ, dᵥ, iₒ, nₒ]], [(1, [aᵥ, bᵥ, cᵥ, dᵥ, iₒ, jₒ, kₒ, lₒ]), (-1, [aᵥ, bᵥ, cᵥ, dᵥ, lₒ, jₒ, kₒ, iₒ])]⟩,
  -- line 1291: nmef,ebjk,fcil,adnm->abcdijkl
  ⟨-1/2, [g_aaaa [nₒ, mₒ, eᵥ, fᵥ], t2_aaaa [eᵥ, bᵥ, jₒ, kₒ], t2_aaaa [fᵥ, cᵥ, iₒ, lₒ], t2_aaaa [aᵥ, dᵥ, nₒ, mₒ]], [(1, [aᵥ, bᵥ, cᵥ, dᵥ, iₒ, jₒ, kₒ, lₒ]), (-1, [aᵥ, bᵥ, cᵥ, dᵥ, kₒ, jₒ, iₒ, lₒ])]⟩,
  -- line 1295: nmef,ebik,fclm,adjn->abcdijkl
  ⟨-1, [g_aaaa [nₒ, mₒ, eᵥ, fᵥ], t2_aaaa [eᵥ, bᵥ, iₒ, kₒ], t2_aaaa [fᵥ, cᵥ, lₒ, mₒ], t2_aaaa [aᵥ, dᵥ, jₒ, nₒ]], [(1, [aᵥ, bᵥ, cᵥ, dᵥ, iₒ, jₒ, kₒ, lₒ]), (-1, [aᵥ, bᵥ, cᵥ, dᵥ, iₒ, lₒ, kₒ, jₒ])]⟩,
  -- line 1299: nmef,ebik,cflm,adjn->abcdijkl
  ⟨1, [g_abab [nₒ, mₒ, eᵥ, fᵥ], t2_aaaa [eᵥ, bᵥ, iₒ, kₒ], t2_abab [cᵥ, fᵥ, lₒ, mₒ], t2_aaaa [aᵥ, dᵥ, jₒ, nₒ]], [(1, [aᵥ, bᵥ, cᵥ, dᵥ, iₒ, jₒ, kₒ, lₒ]), (-1, [aᵥ, bᵥ, cᵥ, dᵥ, iₒ, lₒ, kₒ, jₒ])]⟩,
  -- line 1303: nmef,ebij,fclm,adkn->abcdijkl
  ⟨1, [g_aaaa [nₒ, mₒ, eᵥ, fᵥ], t2_aaaa [eᵥ, bᵥ, iₒ, jₒ], t2_aaaa [fᵥ, cᵥ, lₒ, mₒ], t2_aaaa [aᵥ, dᵥ, kₒ, nₒ]], [(1, [aᵥ, bᵥ, cᵥ, dᵥ, iₒ, jₒ, kₒ, lₒ]), (-1, [aᵥ, bᵥ, cᵥ, dᵥ, iₒ, jₒ, lₒ, kₒ])]⟩,
  -- line 1307: nmef,ebij,cflm,adkn->abcdijkl
  ⟨-1, [g_abab [nₒ, mₒ, eᵥ, fᵥ], t2_aaaa [eᵥ, bᵥ, iₒ, jₒ], t2_abab [cᵥ, fᵥ, lₒ, mₒ], t2_aaaa [aᵥ, dᵥ, kₒ, nₒ]], [(1, [aᵥ, bᵥ, cᵥ, dᵥ, iₒ, jₒ, kₒ, lₒ]), (-1, [aᵥ, bᵥ, cᵥ, dᵥ, iₒ, jₒ, lₒ, kₒ])]⟩,
  -- line 1311: nmef,eclm,fdjk,abin->abcdijkl
  ⟨1, [g_aaaa [nₒ, mₒ, eᵥ, fᵥ], t2_aaaa [eᵥ, cᵥ, lₒ, mₒ], t2_aaaa [fᵥ, dᵥ, jₒ, kₒ], t2_aaaa [aᵥ, bᵥ, iₒ, nₒ]], [(1, [aᵥ, bᵥ, cᵥ, dᵥ, iₒ, jₒ, kₒ, lₒ]), (-1, [aᵥ, bᵥ, cᵥ, dᵥ, jₒ, iₒ, kₒ, lₒ])]⟩,
  -- line 1315: nmfe,celm,fdjk,abin->abcdijkl
  ⟨1, [g_abab [nₒ, mₒ, fᵥ, eᵥ], t2_abab [cᵥ, eᵥ, lₒ, mₒ], t2_aaaa [fᵥ, dᵥ, jₒ, kₒ], t2_aaaa [aᵥ, bᵥ, iₒ, nₒ]], [(1, [aᵥ, bᵥ, cᵥ, dᵥ, iₒ, jₒ, kₒ, lₒ]), (-1, [aᵥ, bᵥ, cᵥ, dᵥ, jₒ, iₒ, kₒ, lₒ])]⟩
  ]

/-- Part 6 of `ccdq_t4_aaaaaaaa`. -/
def ccdq_t4_aaaaaaaa_6 : Prog := [
  -- line 1319: nmef,eclm,fdij,abkn->abcdijkl
  ⟨1, [g_aaaa [nₒ, mₒ, eᵥ, fᵥ], t2_aaaa [eᵥ, cᵥ, lₒ, mₒ], t2_aaaa [fᵥ, dᵥ, iₒ, jₒ], t2_aaaa [aᵥ, bᵥ, kₒ, nₒ]], [(1, [aᵥ, bᵥ, cᵥ, dᵥ, iₒ, jₒ, kₒ, lₒ]), (-1, [aᵥ, bᵥ, cᵥ, dᵥ, iₒ, jₒ, lₒ, kₒ])]⟩,
  -- line 1323: nmfe,celm,fdij,abkn->abcdijkl
  ⟨1, [g_abab [nₒ, mₒ, fᵥ, eᵥ], t2_abab [cᵥ, eᵥ, lₒ, mₒ], t2_aaaa [fᵥ, dᵥ, iₒ, jₒ], t2_aaaa [aᵥ, bᵥ, kₒ, nₒ]], [(1, [aᵥ, bᵥ, cᵥ, dᵥ, iₒ, jₒ, kₒ, lₒ]), (-1, [aᵥ, bᵥ, cᵥ, dᵥ, iₒ, jₒ, lₒ, kₒ])]⟩,
  -- line 1327: nmef,eckm,fdjl,abin->abcdijkl
  ⟨-1, [g_aaaa [nₒ, mₒ, eᵥ, fᵥ], t2_aaaa [eᵥ, cᵥ, kₒ, mₒ], t2_aaaa [fᵥ, dᵥ, jₒ, lₒ], t2_aaaa [aᵥ, bᵥ, iₒ, nₒ]], [(1, [aᵥ, bᵥ, cᵥ, dᵥ, iₒ, jₒ, kₒ, lₒ]), (-1, [aᵥ, bᵥ, cᵥ, dᵥ, jₒ, iₒ, kₒ, lₒ])]⟩,
  -- line 1331: nmfe,cekm,fdjl,abin->abcdijkl
  ⟨-1, [g_abab [nₒ, mₒ, fᵥ, eᵥ], t2_abab [cᵥ, eᵥ, kₒ, mₒ], t2_aaaa [fᵥ, dᵥ, jₒ, lₒ], t2_aaaa [aᵥ, bᵥ, iₒ, nₒ]], [(1, [aᵥ, bᵥ, cᵥ, dᵥ, iₒ, jₒ, kₒ, lₒ]), (-1, [aᵥ, bᵥ, cᵥ, dᵥ, jₒ, iₒ, kₒ, lₒ])]⟩,
  -- line 1335: nmef,ecjm,fdkl,abin->abcdijkl
  ⟨1, [g_aaaa [nₒ, mₒ, eᵥ, fᵥ], t2_aaaa [eᵥ, cᵥ, jₒ, mₒ], t2_aaaa [fᵥ, dᵥ, kₒ, lₒ], t2_aaaa [aᵥ, bᵥ, iₒ, nₒ]], [(1, [aᵥ, bᵥ, cᵥ, dᵥ, iₒ, jₒ, kₒ, lₒ]), (-1, [aᵥ, bᵥ, cᵥ, dᵥ, kₒ, jₒ, iₒ, lₒ])]⟩,
  -- line 1339: nmfe,cejm,fdkl,abin->abcdijkl
  ⟨1, [g_abab [nₒ, mₒ, fᵥ, eᵥ], t2_abab [cᵥ, eᵥ, jₒ, mₒ], t2_aaaa [fᵥ, dᵥ, kₒ, lₒ], t2_aaaa [aᵥ, bᵥ, iₒ, nₒ]], [(1, [aᵥ, bᵥ, cᵥ, dᵥ, iₒ, jₒ, kₒ, lₒ]), (-1, [aᵥ, bᵥ, cᵥ, dᵥ, kₒ, jₒ, iₒ, lₒ])]⟩,
  -- line 1343: nmef,ecjm,fdik,abln->abcdijkl
  ⟨1, [g_aaaa [nₒ, mₒ, eᵥ, fᵥ], t2_aaaa [eᵥ, cᵥ, jₒ, mₒ], t2_aaaa [fᵥ, dᵥ, iₒ, kₒ], t2_aaaa [aᵥ, bᵥ, lₒ, nₒ]], [(1, [aᵥ, bᵥ, cᵥ, dᵥ, iₒ, jₒ, kₒ, lₒ]), (-1, [aᵥ, bᵥ, cᵥ, dᵥ, jₒ, iₒ, kₒ, lₒ])]⟩,
  -- line 1347: nmfe,cejm,fdik,abln->abcdijkl
  ⟨1, [g_abab [nₒ, mₒ, fᵥ, eᵥ], t2_abab [cᵥ, eᵥ, jₒ, mₒ], t2_aaaa [fᵥ, dᵥ, iₒ, kₒ], t2_aaaa [aᵥ, bᵥ, lₒ, nₒ]], [(1, [aᵥ, bᵥ, cᵥ, dᵥ, iₒ, jₒ, kₒ, lₒ]), (-1, [aᵥ, bᵥ, cᵥ, dᵥ, jₒ, iₒ, kₒ, lₒ])]⟩,
  -- line 1351: nmef,ecim,fdkl,abjn->abcdijkl
  ⟨-1, [g_aaaa [nₒ, mₒ, eᵥ, fᵥ], t2_aaaa [eᵥ, cᵥ, iₒ, mₒ], t2_aaaa [fᵥ, dᵥ, kₒ, lₒ], t2_aaaa [aᵥ, bᵥ, jₒ, nₒ]], [(1, [aᵥ, bᵥ, cᵥ, dᵥ, iₒ, jₒ, kₒ, lₒ]), (-1, [aᵥ, bᵥ, cᵥ, dᵥ, iₒ, kₒ, jₒ, lₒ])]⟩,
  -- line 1355: nmfe,ceim,fdkl,abjn->abcdijkl
  ⟨-1, [g_abab [nₒ, mₒ, fᵥ, eᵥ], t2_abab [cᵥ, eᵥ, iₒ, mₒ], t2_aaaa [fᵥ, dᵥ, kₒ, lₒ], t2_aaaa [aᵥ, bᵥ, jₒ, nₒ]], [(1, [aᵥ, bᵥ, cᵥ, dᵥ, iₒ, jₒ, kₒ, lₒ]), (-1, [aᵥ, bᵥ, cᵥ, dᵥ, iₒ, kₒ, jₒ, lₒ])]⟩,
  -- line 1359: nmef,eckl,fdjm,abin->abcdijkl
  ⟨1, [g_aaaa [nₒ, mₒ, eᵥ, fᵥ], t2_aaaa [eᵥ, cᵥ, kₒ, lₒ], t2_aaaa [fᵥ, dᵥ, jₒ, mₒ], t2_aaaa [aᵥ, bᵥ, iₒ, nₒ]], [(1, [aᵥ, bᵥ, cᵥ, dᵥ, iₒ, jₒ, kₒ, lₒ]), (-1, [aᵥ, bᵥ, cᵥ, dᵥ, jₒ, iₒ, kₒ, lₒ])]⟩,
  -- line 1363: nmef,eckl,dfjm,abin->abcdijkl
  ⟨-1, [g_abab [nₒ, mₒ, eᵥ, fᵥ], t2_aaaa [eᵥ, cᵥ, kₒ, lₒ], t2_abab [dᵥ, fᵥ, jₒ, mₒ], t2_aaaa [aᵥ, bᵥ, iₒ, nₒ]], [(1, [aᵥ, bᵥ, cᵥ, dᵥ, iₒ, jₒ, kₒ, lₒ]), (-1, [aᵥ, bᵥ, cᵥ, dᵥ, jₒ, iₒ, kₒ, lₒ])]⟩,
  -- line 1367: nmef,eckl,fdij,abnm->abcdijkl
  ⟨-1/2, [g_aaaa [nₒ, mₒ, eᵥ, fᵥ], t2_aaaa [eᵥ, cᵥ, kₒ, lₒ], t2_aaaa [fᵥ, dᵥ, iₒ, jₒ], t2_aaaa [aᵥ, bᵥ, nₒ, mₒ]], [(1, [aᵥ, bᵥ, cᵥ, dᵥ, iₒ, jₒ, kₒ, lₒ]), (-1, [aᵥ, bᵥ, cᵥ, dᵥ, iₒ, kₒ, jₒ, lₒ])]⟩,
  -- line 1371: nmef,ecjl,fdkm,abin->abcdijkl
  ⟨-1, [g_aaaa [nₒ, mₒ, eᵥ, fᵥ], t2_aaaa [eᵥ, cᵥ, jₒ, lₒ], t2_aaaa [fᵥ, dᵥ, kₒ, mₒ], t2_aaaa [aᵥ, bᵥ, iₒ, nₒ]], [(1, [aᵥ, bᵥ, cᵥ, dᵥ, iₒ, jₒ, kₒ, lₒ]), (-1, [aᵥ, bᵥ, cᵥ, dᵥ, kₒ, jₒ, iₒ, lₒ])]⟩,
  -- line 1375: nmef,ecjl,dfkm,abin->abcdijkl
  ⟨1, [g_abab [nₒ, mₒ, eᵥ, fᵥ], t2_aaaa [eᵥ, cᵥ, jₒ, lₒ], t2_abab [dᵥ, fᵥ, kₒ, mₒ], t2_aaaa [aᵥ, bᵥ, iₒ, nₒ]], [(1, [aᵥ, bᵥ, cᵥ, dᵥ, iₒ, jₒ, kₒ, lₒ]), (-1, [aᵥ, bᵥ, cᵥ, dᵥ, kₒ, jₒ, iₒ, lₒ])]⟩,
  -- line 1379: nmef,ecil,fdkm,abjn->abcdijkl
  ⟨1, [g_aaaa [nₒ, mₒ, eᵥ, fᵥ], t2_aaaa [eᵥ, cᵥ, iₒ, lₒ], t2_aaaa [fᵥ, dᵥ, kₒ, mₒ], t2_aaaa [aᵥ, bᵥ, jₒ, nₒ]], [(1, [aᵥ, bᵥ, cᵥ, dᵥ, iₒ, jₒ, kₒ, lₒ]), (-1, [aᵥ, bᵥ, cᵥ, dᵥ, iₒ, kₒ, jₒ, lₒ])]⟩,
  -- line 1383: nmef,ecil,dfkm,abjn->abcdijkl
  ⟨-1, [g_abab [nₒ, mₒ, eᵥ, fᵥ], t2_aaaa [eᵥ, cᵥ, iₒ, lₒ], t2_abab [dᵥ, fᵥ, kₒ, mₒ], t2_aaaa [aᵥ, bᵥ, jₒ, nₒ]], [(1, [aᵥ, bᵥ, cᵥ, dᵥ, iₒ, jₒ, kₒ, lₒ]), (-1, [aᵥ, bᵥ, cᵥ, dᵥ, iₒ, kₒ, jₒ, lₒ])]⟩,
  -- line 1387: nmef,ecil,fdjk,abnm->abcdijkl
  ⟨-1/2, [g_aaaa [nₒ, mₒ, eᵥ, fᵥ], t2_aaaa [eᵥ, cᵥ, iₒ, lₒ], t2_aaaa [fᵥ, dᵥ, jₒ, kₒ], t2_aaaa [aᵥ, bᵥ, nₒ, mₒ]], [(1, [aᵥ, bᵥ, cᵥ, dᵥ, iₒ, jₒ, kₒ, lₒ]), (-1, [aᵥ, bᵥ, cᵥ, dᵥ, iₒ, jₒ, lₒ, kₒ])]⟩,
  -- line 1391: nmef,ecjk,fdlm,abin->abcdijkl
  ⟨1, [g_aaaa [nₒ, mₒ, eᵥ, fᵥ], t2_aaaa [eᵥ, cᵥ, jₒ, kₒ], t2_aaaa [fᵥ, dᵥ, lₒ, mₒ], t2_aaaa [aᵥ, bᵥ, iₒ, nₒ]], [(1, [aᵥ, bᵥ, cᵥ, dᵥ, iₒ, jₒ, kₒ, lₒ]), (-1, [aᵥ, bᵥ, cᵥ, dᵥ, lₒ, jₒ, kₒ, iₒ])]⟩,
  -- line 1395: nmef,ecjk,dflm,abin->abcdijkl
  ⟨-1, [g_abab [nₒ, mₒ, eᵥ, fᵥ], t2_aaaa [eᵥ, cᵥ, jₒ, kₒ], t2_abab [dᵥ, fᵥ, lₒ, mₒ], t2_aaaa [aᵥ, bᵥ, iₒ, nₒ]], [(1, [aᵥ, bᵥ, cᵥ, dᵥ, iₒ, jₒ, kₒ, lₒ]), (-1, [aᵥ, bᵥ, cᵥ, dᵥ, lₒ, jₒ, kₒ, iₒ])]⟩,
  -- line 1399: nmef,ecjk,fdil,abnm->abcdijkl
  ⟨-1/2, [g_aaaa [nₒ, mₒ, eᵥ, fᵥ], t2_aaaa [eᵥ, cᵥ, jₒ, kₒ], t2_aaaa [fᵥ, dᵥ, iₒ, lₒ], t2_aaaa [aᵥ, bᵥ, nₒ, mₒ]], [(1, [aᵥ, bᵥ, cᵥ, dᵥ, iₒ, jₒ, kₒ, lₒ]), (-1, [aᵥ, bᵥ, cᵥ, dᵥ, kₒ, jₒ, iₒ, lₒ])]⟩,
  -- line 1403: nmef,ecik,fdlm,abjn->abcdijkl
  ⟨-1, [g_aaaa [nₒ, mₒ, eᵥ, fᵥ], t2_aaaa [eᵥ, cᵥ, iₒ, kₒ], t2_aaaa [fᵥ, dᵥ, lₒ, mₒ], t2_aaaa [aᵥ, bᵥ, jₒ, nₒ]], [(1, [aᵥ, bᵥ, cᵥ, dᵥ, iₒ, jₒ, kₒ, lₒ]), (-1, [aᵥ, bᵥ, cᵥ, dᵥ, iₒ, lₒ, kₒ, jₒ])]⟩,
  -- line 1407: nmef,ecik,dflm,abjn->abcdijkl
  ⟨1, [g_abab [nₒ, mₒ, eᵥ, fᵥ], t2_aaaa [eᵥ, cᵥ, iₒ, kₒ], t2_abab [dᵥ, fᵥ, lₒ, mₒ], t2_aaaa [aᵥ, bᵥ, jₒ, nₒ]], [(1, [aᵥ, bᵥ, cᵥ, dᵥ, iₒ, jₒ, kₒ, lₒ]), (-1, [aᵥ, bᵥ, cᵥ, dᵥ, iₒ, lₒ, kₒ, jₒ])]⟩,
  -- line 1411: nmef,ecij,fdlm,abkn->abcdijkl
  ⟨1, [g_aaaa [nₒ, mₒ, eᵥ, fᵥ], t2_aaaa [eᵥ, cᵥ, iₒ, jₒ], t2_aaaa [fᵥ, dᵥ, lₒ, mₒ], t2_aaaa [aᵥ, bᵥ, kₒ, nₒ]], [(1, [aᵥ, bᵥ, cᵥ, dᵥ, iₒ, jₒ, kₒ, lₒ]), (-1, [aᵥ, bᵥ, cᵥ, dᵥ, iₒ, jₒ, lₒ, kₒ])]⟩,
  -- line 1415: nmef,ecij,dflm,abkn->abcdijkl
  ⟨-1, [g_abab [nₒ, mₒ, eᵥ, fᵥ], t2_aaaa [eᵥ, cᵥ, iₒ, jₒ], t2_abab [dᵥ, fᵥ, lₒ, mₒ], t2_aaaa [aᵥ, bᵥ, kₒ, nₒ]], [(1, [aᵥ, bᵥ, cᵥ, dᵥ, iₒ, jₒ, kₒ, lₒ]), (-1, [aᵥ, bᵥ, cᵥ, dᵥ, iₒ, jₒ, lₒ, kₒ])]⟩
  ]

/-- `UT2/ccdq_resids.py` 349-1418, `ccdq_t4_aaaaaaaa_residual`. -/
def ccdq_t4_aaaaaaaa : Prog := ccdq_t4_aaaaaaaa_0 ++ (ccdq_t4_aaaaaaaa_1 ++ (ccdq_t4_aaaaaaaa_2 ++ (ccdq_t4_aaaaaaaa_3 ++ (ccdq_t4_aaaaaaaa_4 ++ (ccdq_t4_aaaaaaaa_5 ++ (ccdq_t4_aaaaaaaa_6))))))

end Verif.Gen
