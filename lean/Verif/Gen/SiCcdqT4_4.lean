import Verif.Ein.Names
import Verif.Gen.Antisym

/-! Written by `/verif/tools/gen.py`. Programs read from `/repo/UT2`. -/

set_option maxRecDepth 100000

namespace Verif.Gen

open Verif.Ein Verif.Ein.N


/-- Part 0 of `ccdq_t4_bbbbbbbb`. -/
def ccdq_t4_bbbbbbbb_0 : Prog := [
  -- line 5613: ml,abcdijkm->abcdijkl
  ⟨-100000000000001/100000000000000, [f_bb [mₒ, lₒ], t4_bbbbbbbb [aᵥ, bᵥ, cᵥ, dᵥ, iₒ, jₒ, kₒ, mₒ]], [(1, [aᵥ, bᵥ, cᵥ, dᵥ, iₒ, jₒ, kₒ, lₒ]), (-1, [aᵥ, bᵥ, cᵥ, dᵥ, iₒ, jₒ, lₒ, kₒ])]⟩,
  -- line 5617: mj,abcdiklm->abcdijkl
  ⟨-100000000000001/100000000000000, [f_bb [mₒ, jₒ], t4_bbbbbbbb [aᵥ, bᵥ, cᵥ, dᵥ, iₒ, kₒ, lₒ, mₒ]], [(1, [aᵥ, bᵥ, cᵥ, dᵥ, iₒ, jₒ, kₒ, lₒ]), (-1, [aᵥ, bᵥ, cᵥ, dᵥ, jₒ, iₒ, kₒ, lₒ])]⟩,
  -- line 5621: ae,ebcdijkl->abcdijkl
  ⟨100000000000001/100000000000000, [f_bb [aᵥ, eᵥ], t4_bbbbbbbb [eᵥ, bᵥ, cᵥ, dᵥ, iₒ, jₒ, kₒ, lₒ]], [(1, [aᵥ, bᵥ, cᵥ, dᵥ, iₒ, jₒ, kₒ, lₒ]), (-1, [bᵥ, aᵥ, cᵥ, dᵥ, iₒ, jₒ, kₒ, lₒ])]⟩,
  -- line 5625: ce,eabdijkl->abcdijkl
  ⟨100000000000001/100000000000000, [f_bb [cᵥ, eᵥ], t4_bbbbbbbb [eᵥ, aᵥ, bᵥ, dᵥ, iₒ, jₒ, kₒ, lₒ]], [(1, [aᵥ, bᵥ, cᵥ, dᵥ, iₒ, jₒ, kₒ, lₒ]), (-1, [aᵥ, bᵥ, dᵥ, cᵥ, iₒ, jₒ, kₒ, lₒ])]⟩,
  -- line 5629: nmkl,abcdijnm->abcdijkl
  ⟨50000000000001/100000000000000, [g_bbbb [nₒ, mₒ, kₒ, lₒ], t4_bbbbbbbb [aᵥ, bᵥ, cᵥ, dᵥ, iₒ, jₒ, nₒ, mₒ]], [(1, [aᵥ, bᵥ, cᵥ, dᵥ, iₒ, jₒ, kₒ, lₒ]), (-1, [aᵥ, bᵥ, cᵥ, dᵥ, iₒ, kₒ, jₒ, lₒ])]⟩,
  -- line 5633: nmil,abcdjknm->abcdijkl
  ⟨50000000000001/100000000000000, [g_bbbb [nₒ, mₒ, iₒ, lₒ], t4_bbbbbbbb [aᵥ, bᵥ, cᵥ, dᵥ, jₒ, kₒ, nₒ, mₒ]], [(1, [aᵥ, bᵥ, cᵥ, dᵥ, iₒ, jₒ, kₒ, lₒ]), (-1, [aᵥ, bᵥ, cᵥ, dᵥ, iₒ, jₒ, lₒ, kₒ])]⟩,
  -- line 5637: nmjk,abcdilnm->abcdijkl
  ⟨50000000000001/100000000000000, [g_bbbb [nₒ, mₒ, jₒ, kₒ], t4_bbbbbbbb [aᵥ, bᵥ, cᵥ, dᵥ, iₒ, lₒ, nₒ, mₒ]], [(1, [aᵥ, bᵥ, cᵥ, dᵥ, iₒ, jₒ, kₒ, lₒ]), (-1, [aᵥ, bᵥ, cᵥ, dᵥ, kₒ, jₒ, iₒ, lₒ])]⟩,
  -- line 5641: mael,ebcdmjki->abcdijkl
  ⟨-50000000000001/50000000000000, [g_abab [mₒ, aᵥ, eᵥ, lₒ], t4_abbbabbb [eᵥ, bᵥ, cᵥ, dᵥ, mₒ, jₒ, kₒ, iₒ]], [(1, [aᵥ, bᵥ, cᵥ, dᵥ, iₒ, jₒ, kₒ, lₒ]), (-1, [aᵥ, bᵥ, cᵥ, dᵥ, iₒ, jₒ, lₒ, kₒ]), (-1, [bᵥ, aᵥ, cᵥ, dᵥ, iₒ, jₒ, kₒ, lₒ]), (1, [bᵥ, aᵥ, cᵥ, dᵥ, iₒ, jₒ, lₒ, kₒ])]⟩,
  -- line 5645: mael,ebcdijkm->abcdijkl
  ⟨50000000000001/50000000000000, [g_bbbb [mₒ, aᵥ, eᵥ, lₒ], t4_bbbbbbbb [eᵥ, bᵥ, cᵥ, dᵥ, iₒ, jₒ, kₒ, mₒ]], [(1, [aᵥ, bᵥ, cᵥ, dᵥ, iₒ, jₒ, kₒ, lₒ]), (-1, [aᵥ, bᵥ, cᵥ, dᵥ, iₒ, jₒ, lₒ, kₒ]), (-1, [bᵥ, aᵥ, cᵥ, dᵥ, iₒ, jₒ, kₒ, lₒ]), (1, [bᵥ, aᵥ, cᵥ, dᵥ, iₒ, jₒ, lₒ, kₒ])]⟩,
  -- line 5649: maej,ebcdmkli->abcdijkl
  ⟨-50000000000001/50000000000000, [g_abab [mₒ, aᵥ, eᵥ, jₒ], t4_abbbabbb [eᵥ, bᵥ, cᵥ, dᵥ, mₒ, kₒ, lₒ, iₒ]], [(1, [aᵥ, bᵥ, cᵥ, dᵥ, iₒ, jₒ, kₒ, lₒ]), (-1, [aᵥ, bᵥ, cᵥ, dᵥ, jₒ, iₒ, kₒ, lₒ]), (-1, [bᵥ, aᵥ, cᵥ, dᵥ, iₒ, jₒ, kₒ, lₒ]), (1, [bᵥ, aᵥ, cᵥ, dᵥ, jₒ, iₒ, kₒ, lₒ])]⟩,
  -- line 5653: maej,ebcdiklm->abcdijkl
  ⟨50000000000001/50000000000000, [g_bbbb [mₒ, aᵥ, eᵥ, jₒ], t4_bbbbbbbb [eᵥ, bᵥ, cᵥ, dᵥ, iₒ, kₒ, lₒ, mₒ]], [(1, [aᵥ, bᵥ, cᵥ, dᵥ, iₒ, jₒ, kₒ, lₒ]), (-1, [aᵥ, bᵥ, cᵥ, dᵥ, jₒ, iₒ, kₒ, lₒ]), (-1, [bᵥ, aᵥ, cᵥ, dᵥ, iₒ, jₒ, kₒ, lₒ]), (1, [bᵥ, aᵥ, cᵥ, dᵥ, jₒ, iₒ, kₒ, lₒ])]⟩,
  -- line 5657: mcel,eabdmjki->abcdijkl
  ⟨-50000000000001/50000000000000, [g_abab [mₒ, cᵥ, eᵥ, lₒ], t4_abbbabbb [eᵥ, aᵥ, bᵥ, dᵥ, mₒ, jₒ, kₒ, iₒ]], [(1, [aᵥ, bᵥ, cᵥ, dᵥ, iₒ, jₒ, kₒ, lₒ]), (-1, [aᵥ, bᵥ, cᵥ, dᵥ, iₒ, jₒ, lₒ, kₒ]), (-1, [aᵥ, bᵥ, dᵥ, cᵥ, iₒ, jₒ, kₒ, lₒ]), (1, [aᵥ, bᵥ, dᵥ, cᵥ, iₒ, jₒ, lₒ, kₒ])]⟩,
  -- line 5661: mcel,eabdijkm->abcdijkl
  ⟨50000000000001/50000000000000, [g_bbbb [mₒ, cᵥ, eᵥ, lₒ], t4_bbbbbbbb [eᵥ, aᵥ, bᵥ, dᵥ, iₒ, jₒ, kₒ, mₒ]], [(1, [aᵥ, bᵥ, cᵥ, dᵥ, iₒ, jₒ, kₒ, lₒ]), (-1, [aᵥ, bᵥ, cᵥ, dᵥ, iₒ, jₒ, lₒ, kₒ]), (-1, [aᵥ, bᵥ, dᵥ, cᵥ, iₒ, jₒ, kₒ, lₒ]), (1, [aᵥ, bᵥ, dᵥ, cᵥ, iₒ, jₒ, lₒ, kₒ])]⟩,
  -- line 5665: mcej,eabdmkli->abcdijkl
  ⟨-50000000000001/50000000000000, [g_abab [mₒ, cᵥ, eᵥ, jₒ], t4_abbbabbb [eᵥ, aᵥ, bᵥ, dᵥ, mₒ, kₒ, lₒ, iₒ]], [(1, [aᵥ, bᵥ, cᵥ, dᵥ, iₒ, jₒ, kₒ, lₒ]), (-1, [aᵥ, bᵥ, cᵥ, dᵥ, jₒ, iₒ, kₒ, lₒ]), (-1, [aᵥ, bᵥ, dᵥ, cᵥ, iₒ, jₒ, kₒ, lₒ]), (1, [aᵥ, bᵥ, dᵥ, cᵥ, jₒ, iₒ, kₒ, lₒ])]⟩,
  -- line 5669: mcej,eabdiklm->abcdijkl
  ⟨50000000000001/50000000000000, [g_bbbb [mₒ, cᵥ, eᵥ, jₒ], t4_bbbbbbbb [eᵥ, aᵥ, bᵥ, dᵥ, iₒ, kₒ, lₒ, mₒ]], [(1, [aᵥ, bᵥ, cᵥ, dᵥ, iₒ, jₒ, kₒ, lₒ]), (-1, [aᵥ, bᵥ, cᵥ, dᵥ, jₒ, iₒ, kₒ, lₒ]), (-1, [aᵥ, bᵥ, dᵥ, cᵥ, iₒ, jₒ, kₒ, lₒ]), (1, [aᵥ, bᵥ, dᵥ, cᵥ, jₒ, iₒ, kₒ, lₒ])]⟩,
  -- line 5673: abef,efcdijkl->abcdijkl
  ⟨50000000000001/100000000000000, [g_bbbb [aᵥ, bᵥ, eᵥ, fᵥ], t4_bbbbbbbb [eᵥ, fᵥ, cᵥ, dᵥ, iₒ, jₒ, kₒ, lₒ]], [(1, [aᵥ, bᵥ, cᵥ, dᵥ, iₒ, jₒ, kₒ, lₒ]), (-1, [aᵥ, cᵥ, bᵥ, dᵥ, iₒ, jₒ, kₒ, lₒ])]⟩,
  -- line 5677: adef,efbcijkl->abcdijkl
  ⟨50000000000001/100000000000000, [g_bbbb [aᵥ, dᵥ, eᵥ, fᵥ], t4_bbbbbbbb [eᵥ, fᵥ, bᵥ, cᵥ, iₒ, jₒ, kₒ, lₒ]], [(1, [aᵥ, bᵥ, cᵥ, dᵥ, iₒ, jₒ, kₒ, lₒ]), (-1, [bᵥ, aᵥ, cᵥ, dᵥ, iₒ, jₒ, kₒ, lₒ])]⟩,
  -- line 5681: bcef,efadijkl->abcdijkl
  ⟨50000000000001/100000000000000, [g_bbbb [bᵥ, cᵥ, eᵥ, fᵥ], t4_bbbbbbbb [eᵥ, fᵥ, aᵥ, dᵥ, iₒ, jₒ, kₒ, lₒ]], [(1, [aᵥ, bᵥ, cᵥ, dᵥ, iₒ, jₒ, kₒ, lₒ]), (-1, [aᵥ, dᵥ, cᵥ, bᵥ, iₒ, jₒ, kₒ, lₒ])]⟩,
  -- line 5685: mnef,efml,abcdijkn->abcdijkl
  ⟨-9999999999999/20000000000000, [g_abab [mₒ, nₒ, eᵥ, fᵥ], t2_abab [eᵥ, fᵥ, mₒ, lₒ], t4_bbbbbbbb [aᵥ, bᵥ, cᵥ, dᵥ, iₒ, jₒ, kₒ, nₒ]], [(1, [aᵥ, bᵥ, cᵥ, dᵥ, iₒ, jₒ, kₒ, lₒ]), (-1, [aᵥ, bᵥ, cᵥ, dᵥ, iₒ, jₒ, lₒ, kₒ])]⟩,
  -- line 5689: mnfe,feml,abcdijkn->abcdijkl
  ⟨-9999999999999/20000000000000, [g_abab [mₒ, nₒ, fᵥ, eᵥ], t2_abab [fᵥ, eᵥ, mₒ, lₒ], t4_bbbbbbbb [aᵥ, bᵥ, cᵥ, dᵥ, iₒ, jₒ, kₒ, nₒ]], [(1, [aᵥ, bᵥ, cᵥ, dᵥ, iₒ, jₒ, kₒ, lₒ]), (-1, [aᵥ, bᵥ, cᵥ, dᵥ, iₒ, jₒ, lₒ, kₒ])]⟩,
  -- line 5693: nmef,eflm,abcdijkn->abcdijkl
  ⟨-9999999999999/20000000000000, [g_bbbb [nₒ, mₒ, eᵥ, fᵥ], t2_bbbb [eᵥ, fᵥ, lₒ, mₒ], t4_bbbbbbbb [aᵥ, bᵥ, cᵥ, dᵥ, iₒ, jₒ, kₒ, nₒ]], [(1, [aᵥ, bᵥ, cᵥ, dᵥ, iₒ, jₒ, kₒ, lₒ]), (-1, [aᵥ, bᵥ, cᵥ, dᵥ, iₒ, jₒ, lₒ, kₒ])]⟩,
  -- line 5697: mnef,efmj,abcdikln->abcdijkl
  ⟨-9999999999999/20000000000000, [g_abab [mₒ, nₒ, eᵥ, fᵥ], t2_abab [eᵥ, fᵥ, mₒ, jₒ], t4_bbbbbbbb [aᵥ, bᵥ, cᵥ, dᵥ, iₒ, kₒ, lₒ, nₒ]], [(1, [aᵥ, bᵥ, cᵥ, dᵥ, iₒ, jₒ, kₒ, lₒ]), (-1, [aᵥ, bᵥ, cᵥ, dᵥ, jₒ, iₒ, kₒ, lₒ])]⟩,
  -- line 5701: mnfe,femj,abcdikln->abcdijkl
  ⟨-9999999999999/20000000000000, [g_abab [mₒ, nₒ, fᵥ, eᵥ], t2_abab [fᵥ, eᵥ, mₒ, jₒ], t4_bbbbbbbb [aᵥ, bᵥ, cᵥ, dᵥ, iₒ, kₒ, lₒ, nₒ]], [(1, [aᵥ, bᵥ, cᵥ, dᵥ, iₒ, jₒ, kₒ, lₒ]), (-1, [aᵥ, bᵥ, cᵥ, dᵥ, jₒ, iₒ, kₒ, lₒ])]⟩,
  -- line 5705: nmef,efjm,abcdikln->abcdijkl
  ⟨-9999999999999/20000000000000, [g_bbbb [nₒ, mₒ, eᵥ, fᵥ], t2_bbbb [eᵥ, fᵥ, jₒ, mₒ], t4_bbbbbbbb [aᵥ, bᵥ, cᵥ, dᵥ, iₒ, kₒ, lₒ, nₒ]], [(1, [aᵥ, bᵥ, cᵥ, dᵥ, iₒ, jₒ, kₒ, lₒ]), (-1, [aᵥ, bᵥ, cᵥ, dᵥ, jₒ, iₒ, kₒ, lₒ])]⟩,
  -- line 5709: nmef,efkl,abcdijnm->abcdijkl
  ⟨25000000000001/100000000000000, [g_bbbb [nₒ, mₒ, eᵥ, fᵥ], t2_bbbb [eᵥ, fᵥ, kₒ, lₒ], t4_bbbbbbbb [aᵥ, bᵥ, cᵥ, dᵥ, iₒ, jₒ, nₒ, mₒ]], [(1, [aᵥ, bᵥ, cᵥ, dᵥ, iₒ, jₒ, kₒ, lₒ]), (-1, [aᵥ, bᵥ, cᵥ, dᵥ, iₒ, kₒ, jₒ, lₒ])]⟩,
  -- line 5713: nmef,efil,abcdjknm->abcdijkl
  ⟨25000000000001/100000000000000, [g_bbbb [nₒ, mₒ, eᵥ, fᵥ], t2_bbbb [eᵥ, fᵥ, iₒ, lₒ], t4_bbbbbbbb [aᵥ, bᵥ, cᵥ, dᵥ, jₒ, kₒ, nₒ, mₒ]], [(1, [aᵥ, bᵥ, cᵥ, dᵥ, iₒ, jₒ, kₒ, lₒ]), (-1, [aᵥ, bᵥ, cᵥ, dᵥ, iₒ, jₒ, lₒ, kₒ])]⟩,
  -- line 5717: nmef,efjk,abcdilnm->abcdijkl
  ⟨25000000000001/100000000000000, [g_bbbb [nₒ, mₒ, eᵥ, fᵥ], t2_bbbb [eᵥ, fᵥ, jₒ, kₒ], t4_bbbbbbbb [aᵥ, bᵥ, cᵥ, dᵥ, iₒ, lₒ, nₒ, mₒ]], [(1, [aᵥ, bᵥ, cᵥ, dᵥ, iₒ, jₒ, kₒ, lₒ]), (-1, [aᵥ, bᵥ, cᵥ, dᵥ, kₒ, jₒ, iₒ, lₒ])]⟩,
  -- line 5721: nmef,eanm,fbcdijkl->abcdijkl
  ⟨-9999999999999/20000000000000, [g_abab [nₒ, mₒ, eᵥ, fᵥ], t2_abab [eᵥ, aᵥ, nₒ, mₒ], t4_bbbbbbbb [fᵥ, bᵥ, cᵥ, dᵥ, iₒ, jₒ, kₒ, lₒ]], [(1, [aᵥ, bᵥ, cᵥ, dᵥ, iₒ, jₒ, kₒ, lₒ]), (-1, [bᵥ, aᵥ, cᵥ, dᵥ, iₒ, jₒ, kₒ, lₒ])]⟩,
  -- line 5725: mnef,eamn,fbcdijkl->abcdijkl
  ⟨-9999999999999/20000000000000, [g_abab [mₒ, nₒ, eᵥ, fᵥ], t2_abab [eᵥ, aᵥ, mₒ, nₒ], t4_bbbbbbbb [fᵥ, bᵥ, cᵥ, dᵥ, iₒ, jₒ, kₒ, lₒ]], [(1, [aᵥ, bᵥ, cᵥ, dᵥ, iₒ, jₒ, kₒ, lₒ]), (-1, [bᵥ, aᵥ, cᵥ, dᵥ, iₒ, jₒ, kₒ, lₒ])]⟩,
  -- line 5729: nmef,eanm,fbcdijkl->abcdijkl
  ⟨-9999999999999/20000000000000, [g_bbbb [nₒ, mₒ, eᵥ, fᵥ], t2_bbbb [eᵥ, aᵥ, nₒ, mₒ], t4_bbbbbbbb [fᵥ, bᵥ, cᵥ, dᵥ, iₒ, jₒ, kₒ, lₒ]], [(1, [aᵥ, bᵥ, cᵥ, dᵥ, iₒ, jₒ, kₒ, lₒ]), (-1, [bᵥ, aᵥ, cᵥ, dᵥ, iₒ, jₒ, kₒ, lₒ])]⟩,
  -- line 5733: nmef,eaml,fbcdnjki->abcdijkl
  ⟨6249999999999/6250000000000, [g_aaaa [nₒ, mₒ, eᵥ, fᵥ], t2_abab [eᵥ, aᵥ, mₒ, lₒ], t4_abbbabbb [fᵥ, bᵥ, cᵥ, dᵥ, nₒ, jₒ, kₒ, iₒ]], [(1, [aᵥ, bᵥ, cᵥ, dᵥ, iₒ, jₒ, kₒ, lₒ]), (-1, [aᵥ, bᵥ, cᵥ, dᵥ, iₒ, jₒ, lₒ, kₒ]), (-1, [bᵥ, aᵥ, cᵥ, dᵥ, iₒ, jₒ, kₒ, lₒ]), (1, [bᵥ, aᵥ, cᵥ, dᵥ, iₒ, jₒ, lₒ, kₒ])]⟩,
  -- line 5737: mnef,eaml,fbcdijkn->abcdijkl
  ⟨6249999999999/6250000000000, [g_abab [mₒ, nₒ, eᵥ, fᵥ], t2_abab [eᵥ, aᵥ, mₒ, lₒ], t4_bbbbbbbb [fᵥ, bᵥ, cᵥ, dᵥ, iₒ, jₒ, kₒ, nₒ]], [(1, [aᵥ, bᵥ, cᵥ, dᵥ, iₒ, jₒ, kₒ, lₒ]), (-1, [aᵥ, bᵥ, cᵥ, dᵥ, iₒ, jₒ, lₒ, kₒ]), (-1, [bᵥ, aᵥ, cᵥ, dᵥ, iₒ, jₒ, kₒ, lₒ]), (1, [bᵥ, aᵥ, cᵥ, dᵥ, iₒ, jₒ, lₒ, kₒ])]⟩,
  -- line 5741: nmfe,ealm,fbcdnjki->abcdijkl
  ⟨6249999999999/6250000000000, [g_abab [nₒ, mₒ, fᵥ, eᵥ], t2_bbbb [eᵥ, aᵥ, lₒ, mₒ], t4_abbbabbb [fᵥ, bᵥ, cᵥ, dᵥ, nₒ, jₒ, kₒ, iₒ]], [(1, [aᵥ, bᵥ, cᵥ, dᵥ, iₒ, jₒ, kₒ, lₒ]), (-1, [aᵥ, bᵥ, cᵥ, dᵥ, iₒ, jₒ, lₒ, kₒ]), (-1, [bᵥ, aᵥ, cᵥ, dᵥ, iₒ, jₒ, kₒ, lₒ]), (1, [bᵥ, aᵥ, cᵥ, dᵥ, iₒ, jₒ, lₒ, kₒ])]⟩,
  -- line 5745: nmef,ealm,fbcdijkn->abcdijkl
  ⟨6249999999999/6250000000000, [g_bbbb [nₒ, mₒ, eᵥ, fᵥ], t2_bbbb [eᵥ, aᵥ, lₒ, mₒ], t4_bbbbbbbb [fᵥ, bᵥ, cᵥ, dᵥ, iₒ, jₒ, kₒ, nₒ]], [(1, [aᵥ, bᵥ, cᵥ, dᵥ, iₒ, jₒ, kₒ, lₒ]), (-1, [aᵥ, bᵥ, cᵥ, dᵥ, iₒ, jₒ, lₒ, kₒ]), (-1, [bᵥ, aᵥ, cᵥ, dᵥ, iₒ, jₒ, kₒ, lₒ]), (1, [bᵥ, aᵥ, cᵥ, dᵥ, iₒ, jₒ, lₒ, kₒ])]⟩,
  -- line 5749: nmef,eamj,fbcdnkli->abcdijkl
  ⟨6249999999999/6250000000000, [g_aaaa [nₒ, mₒ, eᵥ, fᵥ], t2_abab [eᵥ, aᵥ, mₒ, jₒ], t4_abbbabbb [fᵥ, bᵥ, cᵥ, dᵥ, nₒ, kₒ, lₒ, iₒ]], [(1, [aᵥ, bᵥ, cᵥ, dᵥ, iₒ, jₒ, kₒ, lₒ]), (-1, [aᵥ, bᵥ, cᵥ, dᵥ, jₒ, iₒ, kₒ, lₒ]), (-1, [bᵥ, aᵥ, cᵥ, dᵥ, iₒ, jₒ, kₒ, lₒ]), (1, [bᵥ, aᵥ, cᵥ, dᵥ, jₒ, iₒ, kₒ, lₒ])]⟩,
  -- line 5753: mnef,eamj,fbcdikln->abcdijkl
  ⟨6249999999999/6250000000000, [g_abab [mₒ, nₒ, eᵥ, fᵥ], t2_abab [eᵥ, aᵥ, mₒ, jₒ], t4_bbbbbbbb [fᵥ, bᵥ, cᵥ, dᵥ, iₒ, kₒ, lₒ, nₒ]], [(1, [aᵥ, bᵥ, cᵥ, dᵥ, iₒ, jₒ, kₒ, lₒ]), (-1, [aᵥ, bᵥ, cᵥ, dᵥ, jₒ, iₒ, kₒ, lₒ]), (-1, [bᵥ, aᵥ, cᵥ, dᵥ, iₒ, jₒ, kₒ, lₒ]), (1, [bᵥ, aᵥ, cᵥ, dᵥ, jₒ, iₒ, kₒ, lₒ])]⟩,
  -- line 5757: nmfe,eajm,fbcdnkli->abcdijkl
  ⟨6249999999999/6250000000000, [g_abab [nₒ, mₒ, fᵥ, eᵥ], t2_bbbb [eᵥ, aᵥ, jₒ, mₒ], t4_abbbabbb [fᵥ, bᵥ, cᵥ, dᵥ, nₒ, kₒ, lₒ, iₒ]], [(1, [aᵥ, bᵥ, cᵥ, dᵥ, iₒ, jₒ, kₒ, lₒ]), (-1, [aᵥ, bᵥ, cᵥ, dᵥ, jₒ, iₒ, kₒ, lₒ]), (-1, [bᵥ, aᵥ, cᵥ, dᵥ, iₒ, jₒ, kₒ, lₒ]), (1, [bᵥ, aᵥ, cᵥ, dᵥ, jₒ, iₒ, kₒ, lₒ])]⟩,
  -- line 5761: nmef,eajm,fbcdikln->abcdijkl
  ⟨6249999999999/6250000000000, [g_bbbb [nₒ, mₒ, eᵥ, fᵥ], t2_bbbb [eᵥ, aᵥ, jₒ, mₒ], t4_bbbbbbbb [fᵥ, bᵥ, cᵥ, dᵥ, iₒ, kₒ, lₒ, nₒ]], [(1, [aᵥ, bᵥ, cᵥ, dᵥ, iₒ, jₒ, kₒ, lₒ]), (-1, [aᵥ, bᵥ, cᵥ, dᵥ, jₒ, iₒ, kₒ, lₒ]), (-1, [bᵥ, aᵥ, cᵥ, dᵥ, iₒ, jₒ, kₒ, lₒ]), (1, [bᵥ, aᵥ, cᵥ, dᵥ, jₒ, iₒ, kₒ, lₒ])]⟩,
  -- line 5765: nmfe,eakl,fbcdnjim->abcdijkl
  ⟨-9999999999999/20000000000000, [g_abab [nₒ, mₒ, fᵥ, eᵥ], t2_bbbb [eᵥ, aᵥ, kₒ, lₒ], t4_abbbabbb [fᵥ, bᵥ, cᵥ, dᵥ, nₒ, jₒ, iₒ, mₒ]], [(1, [aᵥ, bᵥ, cᵥ, dᵥ, iₒ, jₒ, kₒ, lₒ]), (-1, [aᵥ, bᵥ, cᵥ, dᵥ, iₒ, kₒ, jₒ, lₒ]), (-1, [bᵥ, aᵥ, cᵥ, dᵥ, iₒ, jₒ, kₒ, lₒ]), (1, [bᵥ, aᵥ, cᵥ, dᵥ, iₒ, kₒ, jₒ, lₒ])]⟩,
  -- line 5769: mnfe,eakl,fbcdmjni->abcdijkl
  ⟨9999999999999/20000000000000, [g_abab [mₒ, nₒ, fᵥ, eᵥ], t2_bbbb [eᵥ, aᵥ, kₒ, lₒ], t4_abbbabbb [fᵥ, bᵥ, cᵥ, dᵥ, mₒ, jₒ, nₒ, iₒ]], [(1, [aᵥ, bᵥ, cᵥ, dᵥ, iₒ, jₒ, kₒ, lₒ]), (-1, [aᵥ, bᵥ, cᵥ, dᵥ, iₒ, kₒ, jₒ, lₒ]), (-1, [bᵥ, aᵥ, cᵥ, dᵥ, iₒ, jₒ, kₒ, lₒ]), (1, [bᵥ, aᵥ, cᵥ, dᵥ, iₒ, kₒ, jₒ, lₒ])]⟩
  ]

/-- Part 1 of `ccdq_t4_bbbbbbbb`. -/
def ccdq_t4_bbbbbbbb_1 : Prog := [
  -- line 5773: nmef,eakl,fbcdijnm->abcdijkl
  ⟨-9999999999999/20000000000000, [g_bbbb [nₒ, mₒ, eᵥ, fᵥ], t2_bbbb [eᵥ, aᵥ, kₒ, lₒ], t4_bbbbbbbb [fᵥ, bᵥ, cᵥ, dᵥ, iₒ, jₒ, nₒ, mₒ]], [(1, [aᵥ, bᵥ, cᵥ, dᵥ, iₒ, jₒ, kₒ, lₒ]), (-1, [aᵥ, bᵥ, cᵥ, dᵥ, iₒ, kₒ, jₒ, lₒ]), (-1, [bᵥ, aᵥ, cᵥ, dᵥ, iₒ, jₒ, kₒ, lₒ]), (1, [bᵥ, aᵥ, cᵥ, dᵥ, iₒ, kₒ, jₒ, lₒ])]⟩,
  -- line 5777: nmfe,eail,fbcdnkjm->abcdijkl
  ⟨-9999999999999/20000000000000, [g_abab [nₒ, mₒ, fᵥ, eᵥ], t2_bbbb [eᵥ, aᵥ, iₒ, lₒ], t4_abbbabbb [fᵥ, bᵥ, cᵥ, dᵥ, nₒ, kₒ, jₒ, mₒ]], [(1, [aᵥ, bᵥ, cᵥ, dᵥ, iₒ, jₒ, kₒ, lₒ]), (-1, [aᵥ, bᵥ, cᵥ, dᵥ, iₒ, jₒ, lₒ, kₒ]), (-1, [bᵥ, aᵥ, cᵥ, dᵥ, iₒ, jₒ, kₒ, lₒ]), (1, [bᵥ, aᵥ, cᵥ, dᵥ, iₒ, jₒ, lₒ, kₒ])]⟩,
  -- line 5781: mnfe,eail,fbcdmknj->abcdijkl
  ⟨9999999999999/20000000000000, [g_abab [mₒ, nₒ, fᵥ, eᵥ], t2_bbbb [eᵥ, aᵥ, iₒ, lₒ], t4_abbbabbb [fᵥ, bᵥ, cᵥ, dᵥ, mₒ, kₒ, nₒ, jₒ]], [(1, [aᵥ, bᵥ, cᵥ, dᵥ, iₒ, jₒ, kₒ, lₒ]), (-1, [aᵥ, bᵥ, cᵥ, dᵥ, iₒ, jₒ, lₒ, kₒ]), (-1, [bᵥ, aᵥ, cᵥ, dᵥ, iₒ, jₒ, kₒ, lₒ]), (1, [bᵥ, aᵥ, cᵥ, dᵥ, iₒ, jₒ, lₒ, kₒ])]⟩,
  -- line 5785: nmef,eail,fbcdjknm->abcdijkl
  ⟨-9999999999999/20000000000000, [g_bbbb [nₒ, mₒ, eᵥ, fᵥ], t2_bbbb [eᵥ, aᵥ, iₒ, lₒ], t4_bbbbbbbb [fᵥ, bᵥ, cᵥ, dᵥ, jₒ, kₒ, nₒ, mₒ]], [(1, [aᵥ, bᵥ, cᵥ, dᵥ, iₒ, jₒ, kₒ, lₒ]), (-1, [aᵥ, bᵥ, cᵥ, dᵥ, iₒ, jₒ, lₒ, kₒ]), (-1, [bᵥ, aᵥ, cᵥ, dᵥ, iₒ, jₒ, kₒ, lₒ]), (1, [bᵥ, aᵥ, cᵥ, dᵥ, iₒ, jₒ, lₒ, kₒ])]⟩,
  -- line 5789: nmfe,eajk,fbcdnlim->abcdijkl
  ⟨-9999999999999/20000000000000, [g_abab [nₒ, mₒ, fᵥ, eᵥ], t2_bbbb [eᵥ, aᵥ, jₒ, kₒ], t4_abbbabbb [fᵥ, bᵥ, cᵥ, dᵥ, nₒ, lₒ, iₒ, mₒ]], [(1, [aᵥ, bᵥ, cᵥ, dᵥ, iₒ, jₒ, kₒ, lₒ]), (-1, [aᵥ, bᵥ, cᵥ, dᵥ, kₒ, jₒ, iₒ, lₒ]), (-1, [bᵥ, aᵥ, cᵥ, dᵥ, iₒ, jₒ, kₒ, lₒ]), (1, [bᵥ, aᵥ, cᵥ, dᵥ, kₒ, jₒ, iₒ, lₒ])]⟩,
  -- line 5793: mnfe,eajk,fbcdmlni->abcdijkl
  ⟨9999999999999/20000000000000, [g_abab [mₒ, nₒ, fᵥ, eᵥ], t2_bbbb [eᵥ, aᵥ, jₒ, kₒ], t4_abbbabbb [fᵥ, bᵥ, cᵥ, dᵥ, mₒ, lₒ, nₒ, iₒ]], [(1, [aᵥ, bᵥ, cᵥ, dᵥ, iₒ, jₒ, kₒ, lₒ]), (-1, [aᵥ, bᵥ, cᵥ, dᵥ, kₒ, jₒ, iₒ, lₒ]), (-1, [bᵥ, aᵥ, cᵥ, dᵥ, iₒ, jₒ, kₒ, lₒ]), (1, [bᵥ, aᵥ, cᵥ, dᵥ, kₒ, jₒ, iₒ, lₒ])]⟩,
  -- line 5797: nmef,eajk,fbcdilnm->abcdijkl
  ⟨-9999999999999/20000000000000, [g_bbbb [nₒ, mₒ, eᵥ, fᵥ], t2_bbbb [eᵥ, aᵥ, jₒ, kₒ], t4_bbbbbbbb [fᵥ, bᵥ, cᵥ, dᵥ, iₒ, lₒ, nₒ, mₒ]], [(1, [aᵥ, bᵥ, cᵥ, dᵥ, iₒ, jₒ, kₒ, lₒ]), (-1, [aᵥ, bᵥ, cᵥ, dᵥ, kₒ, jₒ, iₒ, lₒ]), (-1, [bᵥ, aᵥ, cᵥ, dᵥ, iₒ, jₒ, kₒ, lₒ]), (1, [bᵥ, aᵥ, cᵥ, dᵥ, kₒ, jₒ, iₒ, lₒ])]⟩,
  -- line 5801: nmef,ecnm,fabdijkl->abcdijkl
  ⟨-9999999999999/20000000000000, [g_abab [nₒ, mₒ, eᵥ, fᵥ], t2_abab [eᵥ, cᵥ, nₒ, mₒ], t4_bbbbbbbb [fᵥ, aᵥ, bᵥ, dᵥ, iₒ, jₒ, kₒ, lₒ]], [(1, [aᵥ, bᵥ, cᵥ, dᵥ, iₒ, jₒ, kₒ, lₒ]), (-1, [aᵥ, bᵥ, dᵥ, cᵥ, iₒ, jₒ, kₒ, lₒ])]⟩,
  -- line 5805: mnef,ecmn,fabdijkl->abcdijkl
  ⟨-9999999999999/20000000000000, [g_abab [mₒ, nₒ, eᵥ, fᵥ], t2_abab [eᵥ, cᵥ, mₒ, nₒ], t4_bbbbbbbb [fᵥ, aᵥ, bᵥ, dᵥ, iₒ, jₒ, kₒ, lₒ]], [(1, [aᵥ, bᵥ, cᵥ, dᵥ, iₒ, jₒ, kₒ, lₒ]), (-1, [aᵥ, bᵥ, dᵥ, cᵥ, iₒ, jₒ, kₒ, lₒ])]⟩,
  -- line 5809: nmef,ecnm,fabdijkl->abcdijkl
  ⟨-9999999999999/20000000000000, [g_bbbb [nₒ, mₒ, eᵥ, fᵥ], t2_bbbb [eᵥ, cᵥ, nₒ, mₒ], t4_bbbbbbbb [fᵥ, aᵥ, bᵥ, dᵥ, iₒ, jₒ, kₒ, lₒ]], [(1, [aᵥ, bᵥ, cᵥ, dᵥ, iₒ, jₒ, kₒ, lₒ]), (-1, [aᵥ, bᵥ, dᵥ, cᵥ, iₒ, jₒ, kₒ, lₒ])]⟩,
  -- line 5813: nmef,ecml,fabdnjki->abcdijkl
  ⟨6249999999999/6250000000000, [g_aaaa [nₒ, mₒ, eᵥ, fᵥ], t2_abab [eᵥ, cᵥ, mₒ, lₒ], t4_abbbabbb [fᵥ, aᵥ, bᵥ, dᵥ, nₒ, jₒ, kₒ, iₒ]], [(1, [aᵥ, bᵥ, cᵥ, dᵥ, iₒ, jₒ, kₒ, lₒ]), (-1, [aᵥ, bᵥ, cᵥ, dᵥ, iₒ, jₒ, lₒ, kₒ]), (-1, [aᵥ, bᵥ, dᵥ, cᵥ, iₒ, jₒ, kₒ, lₒ]), (1, [aᵥ, bᵥ, dᵥ, cᵥ, iₒ, jₒ, lₒ, kₒ])]⟩,
  -- line 5817: mnef,ecml,fabdijkn->abcdijkl
  ⟨6249999999999/6250000000000, [g_abab [mₒ, nₒ, eᵥ, fᵥ], t2_abab [eᵥ, cᵥ, mₒ, lₒ], t4_bbbbbbbb [fᵥ, aᵥ, bᵥ, dᵥ, iₒ, jₒ, kₒ, nₒ]], [(1, [aᵥ, bᵥ, cᵥ, dᵥ, iₒ, jₒ, kₒ, lₒ]), (-1, [aᵥ, bᵥ, cᵥ, dᵥ, iₒ, jₒ, lₒ, kₒ]), (-1, [aᵥ, bᵥ, dᵥ, cᵥ, iₒ, jₒ, kₒ, lₒ]), (1, [aᵥ, bᵥ, dᵥ, cᵥ, iₒ, jₒ, lₒ, kₒ])]⟩,
  -- line 5821: nmfe,eclm,fabdnjki->abcdijkl
  ⟨6249999999999/6250000000000, [g_abab [nₒ, mₒ, fᵥ, eᵥ], t2_bbbb [eᵥ, cᵥ, lₒ, mₒ], t4_abbbabbb [fᵥ, aᵥ, bᵥ, dᵥ, nₒ, jₒ, kₒ, iₒ]], [(1, [aᵥ, bᵥ, cᵥ, dᵥ, iₒ, jₒ, kₒ, lₒ]), (-1, [aᵥ, bᵥ, cᵥ, dᵥ, iₒ, jₒ, lₒ, kₒ]), (-1, [aᵥ, bᵥ, dᵥ, cᵥ, iₒ, jₒ, kₒ, lₒ]), (1, [aᵥ, bᵥ, dᵥ, cᵥ, iₒ, jₒ, lₒ, kₒ])]⟩,
  -- line 5825: nmef,eclm,fabdijkn->abcdijkl
  ⟨6249999999999/6250000000000, [g_bbbb [nₒ, mₒ, eᵥ, fᵥ], t2_bbbb [eᵥ, cᵥ, lₒ, mₒ], t4_bbbbbbbb [fᵥ, aᵥ, bᵥ, dᵥ, iₒ, jₒ, kₒ, nₒ]], [(1, [aᵥ, bᵥ, cᵥ, dᵥ, iₒ, jₒ, kₒ, lₒ]), (-1, [aᵥ, bᵥ, cᵥ, dᵥ, iₒ, jₒ, lₒ, kₒ]), (-1, [aᵥ, bᵥ, dᵥ, cᵥ, iₒ, jₒ, kₒ, lₒ]), (1, [aᵥ, bᵥ, dᵥ, cᵥ, iₒ, jₒ, lₒ, kₒ])]⟩,
  -- line 5829: nmef,ecmj,fabdnkli->abcdijkl
  ⟨6249999999999/6250000000000, [g_aaaa [nₒ, mₒ, eᵥ, fᵥ], t2_abab [eᵥ, cᵥ, mₒ, jₒ], t4_abbbabbb [fᵥ, aᵥ, bᵥ, dᵥ, nₒ, kₒ, lₒ, iₒ]], [(1, [aᵥ, bᵥ, cᵥ, dᵥ, iₒ, jₒ, kₒ, lₒ]), (-1, [aᵥ, bᵥ, cᵥ, dᵥ, jₒ, iₒ, kₒ, lₒ]), (-1, [aᵥ, bᵥ, dᵥ, cᵥ, iₒ, jₒ, kₒ, lₒ]), (1, [aᵥ, bᵥ, dᵥ, cᵥ, jₒ, iₒ, kₒ, lₒ])]⟩,
  -- line 5833: mnef,ecmj,fabdikln->abcdijkl
  ⟨6249999999999/6250000000000, [g_abab [mₒ, nₒ, eᵥ, fᵥ], t2_abab [eᵥ, cᵥ, mₒ, jₒ], t4_bbbbbbbb [fᵥ, aᵥ, bᵥ, dᵥ, iₒ, kₒ, lₒ, nₒ]], [(1, [aᵥ, bᵥ, cᵥ, dᵥ, iₒ, jₒ, kₒ, lₒ]), (-1, [aᵥ, bᵥ, cᵥ, dᵥ, jₒ, iₒ, kₒ, lₒ]), (-1, [aᵥ, bᵥ, dᵥ, cᵥ, iₒ, jₒ, kₒ, lₒ]), (1, [aᵥ, bᵥ, dᵥ, cᵥ, jₒ, iₒ, kₒ, lₒ])]⟩,
  -- line 5837: nmfe,ecjm,fabdnkli->abcdijkl
  ⟨6249999999999/6250000000000, [g_abab [nₒ, mₒ, fᵥ, eᵥ], t2_bbbb [eᵥ, cᵥ, jₒ, mₒ], t4_abbbabbb [fᵥ, aᵥ, bᵥ, dᵥ, nₒ, kₒ, lₒ, iₒ]], [(1, [aᵥ, bᵥ, cᵥ, dᵥ, iₒ, jₒ, kₒ, lₒ]), (-1, [aᵥ, bᵥ, cᵥ, dᵥ, jₒ, iₒ, kₒ, lₒ]), (-1, [aᵥ, bᵥ, dᵥ, cᵥ, iₒ, jₒ, kₒ, lₒ]), (1, [aᵥ, bᵥ, dᵥ, cᵥ, jₒ, iₒ, kₒ, lₒ])]⟩,
  -- line 5841: nmef,ecjm,fabdikln->abcdijkl
  ⟨6249999999999/6250000000000, [g_bbbb [nₒ, mₒ, eᵥ, fᵥ], t2_bbbb [eᵥ, cᵥ, jₒ, mₒ], t4_bbbbbbbb [fᵥ, aᵥ, bᵥ, dᵥ, iₒ, kₒ, lₒ, nₒ]], [(1, [aᵥ, bᵥ, cᵥ, dᵥ, iₒ, jₒ, kₒ, lₒ]), (-1, [aᵥ, bᵥ, cᵥ, dᵥ, jₒ, iₒ, kₒ, lₒ]), (-1, [aᵥ, bᵥ, dᵥ, cᵥ, iₒ, jₒ, kₒ, lₒ]), (1, [aᵥ, bᵥ, dᵥ, cᵥ, jₒ, iₒ, kₒ, lₒ])]⟩,
  -- line 5845: nmfe,eckl,fabdnjim->abcdijkl
  ⟨-9999999999999/20000000000000, [g_abab [nₒ, mₒ, fᵥ, eᵥ], t2_bbbb [eᵥ, cᵥ, kₒ, lₒ], t4_abbbabbb [fᵥ, aᵥ, bᵥ, dᵥ, nₒ, jₒ, iₒ, mₒ]], [(1, [aᵥ, bᵥ, cᵥ, dᵥ, iₒ, jₒ, kₒ, lₒ]), (-1, [aᵥ, bᵥ, cᵥ, dᵥ, iₒ, kₒ, jₒ, lₒ]), (-1, [aᵥ, bᵥ, dᵥ, cᵥ, iₒ, jₒ, kₒ, lₒ]), (1, [aᵥ, bᵥ, dᵥ, cᵥ, iₒ, kₒ, jₒ, lₒ])]⟩,
  -- line 5849: mnfe,eckl,fabdmjni->abcdijkl
  ⟨9999999999999/20000000000000, [g_abab [mₒ, nₒ, fᵥ, eᵥ], t2_bbbb [eᵥ, cᵥ, kₒ, lₒ], t4_abbbabbb [fᵥ, aᵥ, bᵥ, dᵥ, mₒ, jₒ, nₒ, iₒ]], [(1, [aᵥ, bᵥ, cᵥ, dᵥ, iₒ, jₒ, kₒ, lₒ]), (-1, [aᵥ, bᵥ, cᵥ, dᵥ, iₒ, kₒ, jₒ, lₒ]), (-1, [aᵥ, bᵥ, dᵥ, cᵥ, iₒ, jₒ, kₒ, lₒ]), (1, [aᵥ, bᵥ, dᵥ, cᵥ, iₒ, kₒ, jₒ, lₒ])]⟩,
  -- line 5853: nmef,eckl,fabdijnm->abcdijkl
  ⟨-9999999999999/20000000000000, [g_bbbb [nₒ, mₒ, eᵥ, fᵥ], t2_bbbb [eᵥ, cᵥ, kₒ, lₒ], t4_bbbbbbbb [fᵥ, aᵥ, bᵥ, dᵥ, iₒ, jₒ, nₒ, mₒ]], [(1, [aᵥ, bᵥ, cᵥ, dᵥ, iₒ, jₒ, kₒ, lₒ]), (-1, [aᵥ, bᵥ, cᵥ, dᵥ, iₒ, kₒ, jₒ, lₒ]), (-1, [aᵥ, bᵥ, dᵥ, cᵥ, iₒ, jₒ, kₒ, lₒ]), (1, [aᵥ, bᵥ, dᵥ, cᵥ, iₒ, kₒ, jₒ, lₒ])]⟩,
  -- line 5857: nmfe,ecil,fabdnkjm->abcdijkl
  ⟨-9999999999999/20000000000000, [g_abab [nₒ, mₒ, fᵥ, eᵥ], t2_bbbb [eᵥ, cᵥ, iₒ, lₒ], t4_abbbabbb [fᵥ, aᵥ, bᵥ, dᵥ, nₒ, kₒ, jₒ, mₒ]], [(1, [aᵥ, bᵥ, cᵥ, dᵥ, iₒ, jₒ, kₒ, lₒ]), (-1, [aᵥ, bᵥ, cᵥ, dᵥ, iₒ, jₒ, lₒ, kₒ]), (-1, [aᵥ, bᵥ, dᵥ, cᵥ, iₒ, jₒ, kₒ, lₒ]), (1, [aᵥ, bᵥ, dᵥ, cᵥ, iₒ, jₒ, lₒ, kₒ])]⟩,
  -- line 5861: mnfe,ecil,fabdmknj->abcdijkl
  ⟨9999999999999/20000000000000, [g_abab [mₒ, nₒ, fᵥ, eᵥ], t2_bbbb [eᵥ, cᵥ, iₒ, lₒ], t4_abbbabbb [fᵥ, aᵥ, bᵥ, dᵥ, mₒ, kₒ, nₒ, jₒ]], [(1, [aᵥ, bᵥ, cᵥ, dᵥ, iₒ, jₒ, kₒ, lₒ]), (-1, [aᵥ, bᵥ, cᵥ, dᵥ, iₒ, jₒ, lₒ, kₒ]), (-1, [aᵥ, bᵥ, dᵥ, cᵥ, iₒ, jₒ, kₒ, lₒ]), (1, [aᵥ, bᵥ, dᵥ, cᵥ, iₒ, jₒ, lₒ, kₒ])]⟩,
  -- line 5865: nmef,ecil,fabdjknm->abcdijkl
  ⟨-9999999999999/20000000000000, [g_bbbb [nₒ, mₒ, eᵥ, fᵥ], t2_bbbb [eᵥ, cᵥ, iₒ, lₒ], t4_bbbbbbbb [fᵥ, aᵥ, bᵥ, dᵥ, jₒ, kₒ, nₒ, mₒ]], [(1, [aᵥ, bᵥ, cᵥ, dᵥ, iₒ, jₒ, kₒ, lₒ]), (-1, [aᵥ, bᵥ, cᵥ, dᵥ, iₒ, jₒ, lₒ, kₒ]), (-1, [aᵥ, bᵥ, dᵥ, cᵥ, iₒ, jₒ, kₒ, lₒ]), (1, [aᵥ, bᵥ, dᵥ, cᵥ, iₒ, jₒ, lₒ, kₒ])]⟩,
  -- line 5869: nmfe,ecjk,fabdnlim->abcdijkl
  ⟨-9999999999999/20000000000000, [g_abab [nₒ, mₒ, fᵥ, eᵥ], t2_bbbb [eᵥ, cᵥ, jₒ, kₒ], t4_abbbabbb [fᵥ, aᵥ, bᵥ, dᵥ, nₒ, lₒ, iₒ, mₒ]], [(1, [aᵥ, bᵥ, cᵥ, dᵥ, iₒ, jₒ, kₒ, lₒ]), (-1, [aᵥ, bᵥ, cᵥ, dᵥ, kₒ, jₒ, iₒ, lₒ]), (-1, [aᵥ, bᵥ, dᵥ, cᵥ, iₒ, jₒ, kₒ, lₒ]), (1, [aᵥ, bᵥ, dᵥ, cᵥ, kₒ, jₒ, iₒ, lₒ])]⟩,
  -- line 5873: mnfe,ecjk,fabdmlni->abcdijkl
  ⟨9999999999999/20000000000000, [g_abab [mₒ, nₒ, fᵥ, eᵥ], t2_bbbb [eᵥ, cᵥ, jₒ, kₒ], t4_abbbabbb [fᵥ, aᵥ, bᵥ, dᵥ, mₒ, lₒ, nₒ, iₒ]], [(1, [aᵥ, bᵥ, cᵥ, dᵥ, iₒ, jₒ, kₒ, lₒ]), (-1, [aᵥ, bᵥ, cᵥ, dᵥ, kₒ, jₒ, iₒ, lₒ]), (-1, [aᵥ, bᵥ, dᵥ, cᵥ, iₒ, jₒ, kₒ, lₒ]), (1, [aᵥ, bᵥ, dᵥ, cᵥ, kₒ, jₒ, iₒ, lₒ])]⟩,
  -- line 5877: nmef,ecjk,fabdilnm->abcdijkl
  ⟨-9999999999999/20000000000000, [g_bbbb [nₒ, mₒ, eᵥ, fᵥ], t2_bbbb [eᵥ, cᵥ, jₒ, kₒ], t4_bbbbbbbb [fᵥ, aᵥ, bᵥ, dᵥ, iₒ, lₒ, nₒ, mₒ]], [(1, [aᵥ, bᵥ, cᵥ, dᵥ, iₒ, jₒ, kₒ, lₒ]), (-1, [aᵥ, bᵥ, cᵥ, dᵥ, kₒ, jₒ, iₒ, lₒ]), (-1, [aᵥ, bᵥ, dᵥ, cᵥ, iₒ, jₒ, kₒ, lₒ]), (1, [aᵥ, bᵥ, dᵥ, cᵥ, kₒ, jₒ, iₒ, lₒ])]⟩,
  -- line 5881: nmef,abnm,efcdijkl->abcdijkl
  ⟨25000000000001/100000000000000, [g_bbbb [nₒ, mₒ, eᵥ, fᵥ], t2_bbbb [aᵥ, bᵥ, nₒ, mₒ], t4_bbbbbbbb [eᵥ, fᵥ, cᵥ, dᵥ, iₒ, jₒ, kₒ, lₒ]], [(1, [aᵥ, bᵥ, cᵥ, dᵥ, iₒ, jₒ, kₒ, lₒ]), (-1, [aᵥ, cᵥ, bᵥ, dᵥ, iₒ, jₒ, kₒ, lₒ])]⟩,
  -- line 5885: nmef,ablm,efcdnjki->abcdijkl
  ⟨9999999999999/20000000000000, [g_abab [nₒ, mₒ, eᵥ, fᵥ], t2_bbbb [aᵥ, bᵥ, lₒ, mₒ], t4_abbbabbb [eᵥ, fᵥ, cᵥ, dᵥ, nₒ, jₒ, kₒ, iₒ]], [(1, [aᵥ, bᵥ, cᵥ, dᵥ, iₒ, jₒ, kₒ, lₒ]), (-1, [aᵥ, bᵥ, cᵥ, dᵥ, iₒ, jₒ, lₒ, kₒ]), (-1, [aᵥ, cᵥ, bᵥ, dᵥ, iₒ, jₒ, kₒ, lₒ]), (1, [aᵥ, cᵥ, bᵥ, dᵥ, iₒ, jₒ, lₒ, kₒ])]⟩,
  -- line 5889: nmfe,ablm,fecdnjki->abcdijkl
  ⟨9999999999999/20000000000000, [g_abab [nₒ, mₒ, fᵥ, eᵥ], t2_bbbb [aᵥ, bᵥ, lₒ, mₒ], t4_abbbabbb [fᵥ, eᵥ, cᵥ, dᵥ, nₒ, jₒ, kₒ, iₒ]], [(1, [aᵥ, bᵥ, cᵥ, dᵥ, iₒ, jₒ, kₒ, lₒ]), (-1, [aᵥ, bᵥ, cᵥ, dᵥ, iₒ, jₒ, lₒ, kₒ]), (-1, [aᵥ, cᵥ, bᵥ, dᵥ, iₒ, jₒ, kₒ, lₒ]), (1, [aᵥ, cᵥ, bᵥ, dᵥ, iₒ, jₒ, lₒ, kₒ])]⟩,
  -- line 5893: nmef,ablm,efcdijkn->abcdijkl
  ⟨-9999999999999/20000000000000, [g_bbbb [nₒ, mₒ, eᵥ, fᵥ], t2_bbbb [aᵥ, bᵥ, lₒ, mₒ], t4_bbbbbbbb [eᵥ, fᵥ, cᵥ, dᵥ, iₒ, jₒ, kₒ, nₒ]], [(1, [aᵥ, bᵥ, cᵥ, dᵥ, iₒ, jₒ, kₒ, lₒ]), (-1, [aᵥ, bᵥ, cᵥ, dᵥ, iₒ, jₒ, lₒ, kₒ]), (-1, [aᵥ, cᵥ, bᵥ, dᵥ, iₒ, jₒ, kₒ, lₒ]), (1, [aᵥ, cᵥ, bᵥ, dᵥ, iₒ, jₒ, lₒ, kₒ])]⟩,
  -- line 5897: nmef,abjm,efcdnkli->abcdijkl
  ⟨9999999999999/20000000000000, [g_abab [nₒ, mₒ, eᵥ, fᵥ], t2_bbbb [aᵥ, bᵥ, jₒ, mₒ], t4_abbbabbb [eᵥ, fᵥ, cᵥ, dᵥ, nₒ, kₒ, lₒ, iₒ]], [(1, [aᵥ, bᵥ, cᵥ, dᵥ, iₒ, jₒ, kₒ, lₒ]), (-1, [aᵥ, bᵥ, cᵥ, dᵥ, jₒ, iₒ, kₒ, lₒ]), (-1, [aᵥ, cᵥ, bᵥ, dᵥ, iₒ, jₒ, kₒ, lₒ]), (1, [aᵥ, cᵥ, bᵥ, dᵥ, jₒ, iₒ, kₒ, lₒ])]⟩,
  -- line 5901: nmfe,abjm,fecdnkli->abcdijkl
  ⟨9999999999999/20000000000000, [g_abab [nₒ, mₒ, fᵥ, eᵥ], t2_bbbb [aᵥ, bᵥ, jₒ, mₒ], t4_abbbabbb [fᵥ, eᵥ, cᵥ, dᵥ, nₒ, kₒ, lₒ, iₒ]], [(1, [aᵥ, bᵥ, cᵥ, dᵥ, iₒ, jₒ, kₒ, lₒ]), (-1, [aᵥ, bᵥ, cᵥ, dᵥ, jₒ, iₒ, kₒ, lₒ]), (-1, [aᵥ, cᵥ, bᵥ, dᵥ, iₒ, jₒ, kₒ, lₒ]), (1, [aᵥ, cᵥ, bᵥ, dᵥ, jₒ, iₒ, kₒ, lₒ])]⟩,
  -- line 5905: nmef,abjm,efcdikln->abcdijkl
  ⟨-9999999999999/20000000000000, [g_bbbb [nₒ, mₒ, eᵥ, fᵥ], t2_bbbb [aᵥ, bᵥ, jₒ, mₒ], t4_bbbbbbbb [eᵥ, fᵥ, cᵥ, dᵥ, iₒ, kₒ, lₒ, nₒ]], [(1, [aᵥ, bᵥ, cᵥ, dᵥ, iₒ, jₒ, kₒ, lₒ]), (-1, [aᵥ, bᵥ, cᵥ, dᵥ, jₒ, iₒ, kₒ, lₒ]), (-1, [aᵥ, cᵥ, bᵥ, dᵥ, iₒ, jₒ, kₒ, lₒ]), (1, [aᵥ, cᵥ, bᵥ, dᵥ, jₒ, iₒ, kₒ, lₒ])]⟩,
  -- line 5909: nmef,adnm,efbcijkl->abcdijkl
  ⟨25000000000001/100000000000000, [g_bbbb [nₒ, mₒ, eᵥ, fᵥ], t2_bbbb [aᵥ, dᵥ, nₒ, mₒ], t4_bbbbbbbb [eᵥ, fᵥ, bᵥ, cᵥ, iₒ, jₒ, kₒ, lₒ]], [(1, [aᵥ, bᵥ, cᵥ, dᵥ, iₒ, jₒ, kₒ, lₒ]), (-1, [bᵥ, aᵥ, cᵥ, dᵥ, iₒ, jₒ, kₒ, lₒ])]⟩,
  -- line 5913: nmef,adlm,efbcnjki->abcdijkl
  ⟨9999999999999/20000000000000, [g_abab [nₒ, mₒ, eᵥ, fᵥ], t2_bbbb [aᵥ, dᵥ, lₒ, mₒ], t4_abbbabbb [eᵥ, fᵥ, bᵥ, cᵥ, nₒ, jₒ, kₒ, iₒ]], [(1, [aᵥ, bᵥ, cᵥ, dᵥ, iₒ, jₒ, kₒ, lₒ]), (-1, [aᵥ, bᵥ, cᵥ, dᵥ, iₒ, jₒ, lₒ, kₒ]), (-1, [bᵥ, aᵥ, cᵥ, dᵥ, iₒ, jₒ, kₒ, lₒ]), (1, [bᵥ, aᵥ, cᵥ, dᵥ, iₒ, jₒ, lₒ, kₒ])]⟩,
  -- line 5917: nmfe,adlm,febcnjki->abcdijkl
  ⟨9999999999999/20000000000000, [g_abab [nₒ, mₒ, fᵥ, eᵥ], t2_bbbb [aᵥ, dᵥ, lₒ, mₒ], t4_abbbabbb [fᵥ, eᵥ, bᵥ, cᵥ, nₒ, jₒ, kₒ, iₒ]], [(1, [aᵥ, bᵥ, cᵥ, dᵥ, iₒ, jₒ, kₒ, lₒ]), (-1, [aᵥ, bᵥ, cᵥ, dᵥ, iₒ, jₒ, lₒ, kₒ]), (-1, [bᵥ, aᵥ, cᵥ, dᵥ, iₒ, jₒ, kₒ, lₒ]), (1, [bᵥ, aᵥ, cᵥ, dᵥ, iₒ, jₒ, lₒ, kₒ])]⟩,
  -- line 5921: nmef,adlm,efbcijkn->abcdijkl
  ⟨-9999999999999/20000000000000, [g_bbbb [nₒ, mₒ, eᵥ, fᵥ], t2_bbbb [aᵥ, dᵥ, lₒ, mₒ], t4_bbbbbbbb [eᵥ, fᵥ, bᵥ, cᵥ, iₒ, jₒ, kₒ, nₒ]], [(1, [aᵥ, bᵥ, cᵥ, dᵥ, iₒ, jₒ, kₒ, lₒ]), (-1, [aᵥ, bᵥ, cᵥ, dᵥ, iₒ, jₒ, lₒ, kₒ]), (-1, [bᵥ, aᵥ, cᵥ, dᵥ, iₒ, jₒ, kₒ, lₒ]), (1, [bᵥ, aᵥ, cᵥ, dᵥ, iₒ, jₒ, lₒ, kₒ])]⟩,
  -- line 5925: nmef,adjm,efbcnkli->abcdijkl
  ⟨9999999999999/20000000000000, [g_abab [nₒ, mₒ, eᵥ, fᵥ], t2_bbbb [aᵥ, dᵥ, jₒ, mₒ], t4_abbbabbb [eᵥ, fᵥ, bᵥ, cᵥ, nₒ, kₒ, lₒ, iₒ]], [(1, [aᵥ, bᵥ, cᵥ, dᵥ, iₒ, jₒ, kₒ, lₒ]), (-1, [aᵥ, bᵥ, cᵥ, dᵥ, jₒ, iₒ, kₒ, lₒ]), (-1, [bᵥ, aᵥ, cᵥ, dᵥ, iₒ, jₒ, kₒ, lₒ]), (1, [bᵥ, aᵥ, cᵥ, dᵥ, jₒ, iₒ, kₒ, lₒ])]⟩,
  -- line 5929: nmfe,adjm,febcnkli->abcdijkl
  ⟨9999999999999/20000000000000, [g_abab [nₒ, mₒ, fᵥ, eᵥ], t2_bbbb [aᵥ, dᵥ, jₒ, mₒ], t4_abbbabbb [fᵥ, eᵥ, bᵥ, cᵥ, nₒ, kₒ, lₒ, iₒ]], [(1, [aᵥ, bᵥ, cᵥ, dᵥ, iₒ, jₒ, kₒ, lₒ]), (-1, [aᵥ, bᵥ, cᵥ, dᵥ, jₒ, iₒ, kₒ, lₒ]), (-1, [bᵥ, aᵥ, cᵥ, dᵥ, iₒ, jₒ, kₒ, lₒ]), (1, [bᵥ, aᵥ, cᵥ, dᵥ, jₒ, iₒ, kₒ, lₒ])]⟩
  ]

/-- Part 2 of `ccdq_t4_bbbbbbbb`. -/
def ccdq_t4_bbbbbbbb_2 : Prog := [
  -- line 5933: nmef,adjm,efbcikln->abcdijkl
  ⟨-9999999999999/20000000000000, [g_bbbb [nₒ, mₒ, eᵥ, fᵥ], t2_bbbb [aᵥ, dᵥ, jₒ, mₒ], t4_bbbbbbbb [eᵥ, fᵥ, bᵥ, cᵥ, iₒ, kₒ, lₒ, nₒ]], [(1, [aᵥ, bᵥ, cᵥ, dᵥ, iₒ, jₒ, kₒ, lₒ]), (-1, [aᵥ, bᵥ, cᵥ, dᵥ, jₒ, iₒ, kₒ, lₒ]), (-1, [bᵥ, aᵥ, cᵥ, dᵥ, iₒ, jₒ, kₒ, lₒ]), (1, [bᵥ, aᵥ, cᵥ, dᵥ, jₒ, iₒ, kₒ, lₒ])]⟩,
  -- line 5937: nmef,bcnm,efadijkl->abcdijkl
  ⟨25000000000001/100000000000000, [g_bbbb [nₒ, mₒ, eᵥ, fᵥ], t2_bbbb [bᵥ, cᵥ, nₒ, mₒ], t4_bbbbbbbb [eᵥ, fᵥ, aᵥ, dᵥ, iₒ, jₒ, kₒ, lₒ]], [(1, [aᵥ, bᵥ, cᵥ, dᵥ, iₒ, jₒ, kₒ, lₒ]), (-1, [aᵥ, dᵥ, cᵥ, bᵥ, iₒ, jₒ, kₒ, lₒ])]⟩,
  -- line 5941: nmef,bclm,efadnjki->abcdijkl
  ⟨9999999999999/20000000000000, [g_abab [nₒ, mₒ, eᵥ, fᵥ], t2_bbbb [bᵥ, cᵥ, lₒ, mₒ], t4_abbbabbb [eᵥ, fᵥ, aᵥ, dᵥ, nₒ, jₒ, kₒ, iₒ]], [(1, [aᵥ, bᵥ, cᵥ, dᵥ, iₒ, jₒ, kₒ, lₒ]), (-1, [aᵥ, bᵥ, cᵥ, dᵥ, iₒ, jₒ, lₒ, kₒ]), (-1, [aᵥ, dᵥ, cᵥ, bᵥ, iₒ, jₒ, kₒ, lₒ]), (1, [aᵥ, dᵥ, cᵥ, bᵥ, iₒ, jₒ, lₒ, kₒ])]⟩,
  -- line 5945: nmfe,bclm,feadnjki->abcdijkl
  ⟨9999999999999/20000000000000, [g_abab [nₒ, mₒ, fᵥ, eᵥ], t2_bbbb [bᵥ, cᵥ, lₒ, mₒ], t4_abbbabbb [fᵥ, eᵥ, aᵥ, dᵥ, nₒ, jₒ, kₒ, iₒ]], [(1, [aᵥ, bᵥ, cᵥ, dᵥ, iₒ, jₒ, kₒ, lₒ]), (-1, [aᵥ, bᵥ, cᵥ, dᵥ, iₒ, jₒ, lₒ, kₒ]), (-1, [aᵥ, dᵥ, cᵥ, bᵥ, iₒ, jₒ, kₒ, lₒ]), (1, [aᵥ, dᵥ, cᵥ, bᵥ, iₒ, jₒ, lₒ, kₒ])]⟩,
  -- line 5949: nmef,bclm,efadijkn->abcdijkl
  ⟨-9999999999999/20000000000000, [g_bbbb [nₒ, mₒ, eᵥ, fᵥ], t2_bbbb [bᵥ, cᵥ, lₒ, mₒ], t4_bbbbbbbb [eᵥ, fᵥ, aᵥ, dᵥ, iₒ, jₒ, kₒ, nₒ]], [(1, [aᵥ, bᵥ, cᵥ, dᵥ, iₒ, jₒ, kₒ, lₒ]), (-1, [aᵥ, bᵥ, cᵥ, dᵥ, iₒ, jₒ, lₒ, kₒ]), (-1, [aᵥ, dᵥ, cᵥ, bᵥ, iₒ, jₒ, kₒ, lₒ]), (1, [aᵥ, dᵥ, cᵥ, bᵥ, iₒ, jₒ, lₒ, kₒ])]⟩,
  -- line 5953: nmef,bcjm,efadnkli->abcdijkl
  ⟨9999999999999/20000000000000, [g_abab [nₒ, mₒ, eᵥ, fᵥ], t2_bbbb [bᵥ, cᵥ, jₒ, mₒ], t4_abbbabbb [eᵥ, fᵥ, aᵥ, dᵥ, nₒ, kₒ, lₒ, iₒ]], [(1, [aᵥ, bᵥ, cᵥ, dᵥ, iₒ, jₒ, kₒ, lₒ]), (-1, [aᵥ, bᵥ, cᵥ, dᵥ, jₒ, iₒ, kₒ, lₒ]), (-1, [aᵥ, dᵥ, cᵥ, bᵥ, iₒ, jₒ, kₒ, lₒ]), (1, [aᵥ, dᵥ, cᵥ, bᵥ, jₒ, iₒ, kₒ, lₒ])]⟩,
  -- line 5957: nmfe,bcjm,feadnkli->abcdijkl
  ⟨9999999999999/20000000000000, [g_abab [nₒ, mₒ, fᵥ, eᵥ], t2_bbbb [bᵥ, cᵥ, jₒ, mₒ], t4_abbbabbb [fᵥ, eᵥ, aᵥ, dᵥ, nₒ, kₒ, lₒ, iₒ]], [(1, [aᵥ, bᵥ, cᵥ, dᵥ, iₒ, jₒ, kₒ, lₒ]), (-1, [aᵥ, bᵥ, cᵥ, dᵥ, jₒ, iₒ, kₒ, lₒ]), (-1, [aᵥ, dᵥ, cᵥ, bᵥ, iₒ, jₒ, kₒ, lₒ]), (1, [aᵥ, dᵥ, cᵥ, bᵥ, jₒ, iₒ, kₒ, lₒ])]⟩,
  -- line 5961: nmef,bcjm,efadikln->abcdijkl
  ⟨-9999999999999/20000000000000, [g_bbbb [nₒ, mₒ, eᵥ, fᵥ], t2_bbbb [bᵥ, cᵥ, jₒ, mₒ], t4_bbbbbbbb [eᵥ, fᵥ, aᵥ, dᵥ, iₒ, kₒ, lₒ, nₒ]], [(1, [aᵥ, bᵥ, cᵥ, dᵥ, iₒ, jₒ, kₒ, lₒ]), (-1, [aᵥ, bᵥ, cᵥ, dᵥ, jₒ, iₒ, kₒ, lₒ]), (-1, [aᵥ, dᵥ, cᵥ, bᵥ, iₒ, jₒ, kₒ, lₒ]), (1, [aᵥ, dᵥ, cᵥ, bᵥ, jₒ, iₒ, kₒ, lₒ])]⟩,
  -- line 5965: nmkl,abjm,cdin->abcdijkl
  ⟨-1, [g_bbbb [nₒ, mₒ, kₒ, lₒ], t2_bbbb [aᵥ, bᵥ, jₒ, mₒ], t2_bbbb [cᵥ, dᵥ, iₒ, nₒ]], [(1, [aᵥ, bᵥ, cᵥ, dᵥ, iₒ, jₒ, kₒ, lₒ]), (-1, [aᵥ, bᵥ, cᵥ, dᵥ, jₒ, iₒ, kₒ, lₒ]), (-1, [aᵥ, cᵥ, bᵥ, dᵥ, iₒ, jₒ, kₒ, lₒ]), (1, [aᵥ, cᵥ, bᵥ, dᵥ, jₒ, iₒ, kₒ, lₒ])]⟩,
  -- line 5969: nmkl,adjm,bcin->abcdijkl
  ⟨-1, [g_bbbb [nₒ, mₒ, kₒ, lₒ], t2_bbbb [aᵥ, dᵥ, jₒ, mₒ], t2_bbbb [bᵥ, cᵥ, iₒ, nₒ]], [(1, [aᵥ, bᵥ, cᵥ, dᵥ, iₒ, jₒ, kₒ, lₒ]), (-1, [aᵥ, bᵥ, cᵥ, dᵥ, jₒ, iₒ, kₒ, lₒ])]⟩,
  -- line 5973: nmjl,abkm,cdin->abcdijkl
  ⟨1, [g_bbbb [nₒ, mₒ, jₒ, lₒ], t2_bbbb [aᵥ, bᵥ, kₒ, mₒ], t2_bbbb [cᵥ, dᵥ, iₒ, nₒ]], [(1, [aᵥ, bᵥ, cᵥ, dᵥ, iₒ, jₒ, kₒ, lₒ]), (-1, [aᵥ, bᵥ, cᵥ, dᵥ, kₒ, jₒ, iₒ, lₒ]), (-1, [aᵥ, cᵥ, bᵥ, dᵥ, iₒ, jₒ, kₒ, lₒ]), (1, [aᵥ, cᵥ, bᵥ, dᵥ, kₒ, jₒ, iₒ, lₒ])]⟩,
  -- line 5977: nmjl,adkm,bcin->abcdijkl
  ⟨1, [g_bbbb [nₒ, mₒ, jₒ, lₒ], t2_bbbb [aᵥ, dᵥ, kₒ, mₒ], t2_bbbb [bᵥ, cᵥ, iₒ, nₒ]], [(1, [aᵥ, bᵥ, cᵥ, dᵥ, iₒ, jₒ, kₒ, lₒ]), (-1, [aᵥ, bᵥ, cᵥ, dᵥ, kₒ, jₒ, iₒ, lₒ])]⟩,
  -- line 5981: nmil,abkm,cdjn->abcdijkl
  ⟨-1, [g_bbbb [nₒ, mₒ, iₒ, lₒ], t2_bbbb [aᵥ, bᵥ, kₒ, mₒ], t2_bbbb [cᵥ, dᵥ, jₒ, nₒ]], [(1, [aᵥ, bᵥ, cᵥ, dᵥ, iₒ, jₒ, kₒ, lₒ]), (-1, [aᵥ, bᵥ, cᵥ, dᵥ, iₒ, kₒ, jₒ, lₒ]), (-1, [aᵥ, cᵥ, bᵥ, dᵥ, iₒ, jₒ, kₒ, lₒ]), (1, [aᵥ, cᵥ, bᵥ, dᵥ, iₒ, kₒ, jₒ, lₒ])]⟩,
  -- line 5985: nmil,adkm,bcjn->abcdijkl
  ⟨-1, [g_bbbb [nₒ, mₒ, iₒ, lₒ], t2_bbbb [aᵥ, dᵥ, kₒ, mₒ], t2_bbbb [bᵥ, cᵥ, jₒ, nₒ]], [(1, [aᵥ, bᵥ, cᵥ, dᵥ, iₒ, jₒ, kₒ, lₒ]), (-1, [aᵥ, bᵥ, cᵥ, dᵥ, iₒ, kₒ, jₒ, lₒ])]⟩,
  -- line 5989: nmjk,ablm,cdin->abcdijkl
  ⟨-1, [g_bbbb [nₒ, mₒ, jₒ, kₒ], t2_bbbb [aᵥ, bᵥ, lₒ, mₒ], t2_bbbb [cᵥ, dᵥ, iₒ, nₒ]], [(1, [aᵥ, bᵥ, cᵥ, dᵥ, iₒ, jₒ, kₒ, lₒ]), (-1, [aᵥ, bᵥ, cᵥ, dᵥ, lₒ, jₒ, kₒ, iₒ]), (-1, [aᵥ, cᵥ, bᵥ, dᵥ, iₒ, jₒ, kₒ, lₒ]), (1, [aᵥ, cᵥ, bᵥ, dᵥ, lₒ, jₒ, kₒ, iₒ])]⟩,
  -- line 5993: nmjk,adlm,bcin->abcdijkl
  ⟨-1, [g_bbbb [nₒ, mₒ, jₒ, kₒ], t2_bbbb [aᵥ, dᵥ, lₒ, mₒ], t2_bbbb [bᵥ, cᵥ, iₒ, nₒ]], [(1, [aᵥ, bᵥ, cᵥ, dᵥ, iₒ, jₒ, kₒ, lₒ]), (-1, [aᵥ, bᵥ, cᵥ, dᵥ, lₒ, jₒ, kₒ, iₒ])]⟩,
  -- line 5997: nmik,ablm,cdjn->abcdijkl
  ⟨1, [g_bbbb [nₒ, mₒ, iₒ, kₒ], t2_bbbb [aᵥ, bᵥ, lₒ, mₒ], t2_bbbb [cᵥ, dᵥ, jₒ, nₒ]], [(1, [aᵥ, bᵥ, cᵥ, dᵥ, iₒ, jₒ, kₒ, lₒ]), (-1, [aᵥ, bᵥ, cᵥ, dᵥ, iₒ, lₒ, kₒ, jₒ]), (-1, [aᵥ, cᵥ, bᵥ, dᵥ, iₒ, jₒ, kₒ, lₒ]), (1, [aᵥ, cᵥ, bᵥ, dᵥ, iₒ, lₒ, kₒ, jₒ])]⟩,
  -- line 6001: nmik,adlm,bcjn->abcdijkl
  ⟨1, [g_bbbb [nₒ, mₒ, iₒ, kₒ], t2_bbbb [aᵥ, dᵥ, lₒ, mₒ], t2_bbbb [bᵥ, cᵥ, jₒ, nₒ]], [(1, [aᵥ, bᵥ, cᵥ, dᵥ, iₒ, jₒ, kₒ, lₒ]), (-1, [aᵥ, bᵥ, cᵥ, dᵥ, iₒ, lₒ, kₒ, jₒ])]⟩,
  -- line 6005: nmij,ablm,cdkn->abcdijkl
  ⟨-1, [g_bbbb [nₒ, mₒ, iₒ, jₒ], t2_bbbb [aᵥ, bᵥ, lₒ, mₒ], t2_bbbb [cᵥ, dᵥ, kₒ, nₒ]], [(1, [aᵥ, bᵥ, cᵥ, dᵥ, iₒ, jₒ, kₒ, lₒ]), (-1, [aᵥ, bᵥ, cᵥ, dᵥ, iₒ, jₒ, lₒ, kₒ]), (-1, [aᵥ, cᵥ, bᵥ, dᵥ, iₒ, jₒ, kₒ, lₒ]), (1, [aᵥ, cᵥ, bᵥ, dᵥ, iₒ, jₒ, lₒ, kₒ])]⟩,
  -- line 6009: nmij,adlm,bckn->abcdijkl
  ⟨-1, [g_bbbb [nₒ, mₒ, iₒ, jₒ], t2_bbbb [aᵥ, dᵥ, lₒ, mₒ], t2_bbbb [bᵥ, cᵥ, kₒ, nₒ]], [(1, [aᵥ, bᵥ, cᵥ, dᵥ, iₒ, jₒ, kₒ, lₒ]), (-1, [aᵥ, bᵥ, cᵥ, dᵥ, iₒ, jₒ, lₒ, kₒ])]⟩,
  -- line 6013: mael,ebjk,cdim->abcdijkl
  ⟨1, [g_bbbb [mₒ, aᵥ, eᵥ, lₒ], t2_bbbb [eᵥ, bᵥ, jₒ, kₒ], t2_bbbb [cᵥ, dᵥ, iₒ, mₒ]], [(1, [aᵥ, bᵥ, cᵥ, dᵥ, iₒ, jₒ, kₒ, lₒ]), (-1, [aᵥ, bᵥ, cᵥ, dᵥ, jₒ, iₒ, kₒ, lₒ]), (-1, [aᵥ, cᵥ, bᵥ, dᵥ, iₒ, jₒ, kₒ, lₒ]), (1, [aᵥ, cᵥ, bᵥ, dᵥ, jₒ, iₒ, kₒ, lₒ])]⟩,
  -- line 6017: mael,ebij,cdkm->abcdijkl
  ⟨1, [g_bbbb [mₒ, aᵥ, eᵥ, lₒ], t2_bbbb [eᵥ, bᵥ, iₒ, jₒ], t2_bbbb [cᵥ, dᵥ, kₒ, mₒ]], [(1, [aᵥ, bᵥ, cᵥ, dᵥ, iₒ, jₒ, kₒ, lₒ]), (-1, [aᵥ, bᵥ, cᵥ, dᵥ, iₒ, jₒ, lₒ, kₒ]), (-1, [aᵥ, cᵥ, bᵥ, dᵥ, iₒ, jₒ, kₒ, lₒ]), (1, [aᵥ, cᵥ, bᵥ, dᵥ, iₒ, jₒ, lₒ, kₒ])]⟩,
  -- line 6021: mael,edjk,bcim->abcdijkl
  ⟨1, [g_bbbb [mₒ, aᵥ, eᵥ, lₒ], t2_bbbb [eᵥ, dᵥ, jₒ, kₒ], t2_bbbb [bᵥ, cᵥ, iₒ, mₒ]], [(1, [aᵥ, bᵥ, cᵥ, dᵥ, iₒ, jₒ, kₒ, lₒ]), (-1, [aᵥ, bᵥ, cᵥ, dᵥ, jₒ, iₒ, kₒ, lₒ]), (-1, [bᵥ, aᵥ, cᵥ, dᵥ, iₒ, jₒ, kₒ, lₒ]), (1, [bᵥ, aᵥ, cᵥ, dᵥ, jₒ, iₒ, kₒ, lₒ])]⟩,
  -- line 6025: mael,edij,bckm->abcdijkl
  ⟨1, [g_bbbb [mₒ, aᵥ, eᵥ, lₒ], t2_bbbb [eᵥ, dᵥ, iₒ, jₒ], t2_bbbb [bᵥ, cᵥ, kₒ, mₒ]], [(1, [aᵥ, bᵥ, cᵥ, dᵥ, iₒ, jₒ, kₒ, lₒ]), (-1, [aᵥ, bᵥ, cᵥ, dᵥ, iₒ, jₒ, lₒ, kₒ]), (-1, [bᵥ, aᵥ, cᵥ, dᵥ, iₒ, jₒ, kₒ, lₒ]), (1, [bᵥ, aᵥ, cᵥ, dᵥ, iₒ, jₒ, lₒ, kₒ])]⟩,
  -- line 6029: maek,ebjl,cdim->abcdijkl
  ⟨-1, [g_bbbb [mₒ, aᵥ, eᵥ, kₒ], t2_bbbb [eᵥ, bᵥ, jₒ, lₒ], t2_bbbb [cᵥ, dᵥ, iₒ, mₒ]], [(1, [aᵥ, bᵥ, cᵥ, dᵥ, iₒ, jₒ, kₒ, lₒ]), (-1, [aᵥ, bᵥ, cᵥ, dᵥ, jₒ, iₒ, kₒ, lₒ]), (-1, [aᵥ, cᵥ, bᵥ, dᵥ, iₒ, jₒ, kₒ, lₒ]), (1, [aᵥ, cᵥ, bᵥ, dᵥ, jₒ, iₒ, kₒ, lₒ])]⟩,
  -- line 6033: maek,edjl,bcim->abcdijkl
  ⟨-1, [g_bbbb [mₒ, aᵥ, eᵥ, kₒ], t2_bbbb [eᵥ, dᵥ, jₒ, lₒ], t2_bbbb [bᵥ, cᵥ, iₒ, mₒ]], [(1, [aᵥ, bᵥ, cᵥ, dᵥ, iₒ, jₒ, kₒ, lₒ]), (-1, [aᵥ, bᵥ, cᵥ, dᵥ, jₒ, iₒ, kₒ, lₒ]), (-1, [bᵥ, aᵥ, cᵥ, dᵥ, iₒ, jₒ, kₒ, lₒ]), (1, [bᵥ, aᵥ, cᵥ, dᵥ, jₒ, iₒ, kₒ, lₒ])]⟩,
  -- line 6037: maej,ebkl,cdim->abcdijkl
  ⟨1, [g_bbbb [mₒ, aᵥ, eᵥ, jₒ], t2_bbbb [eᵥ, bᵥ, kₒ, lₒ], t2_bbbb [cᵥ, dᵥ, iₒ, mₒ]], [(1, [aᵥ, bᵥ, cᵥ, dᵥ, iₒ, jₒ, kₒ, lₒ]), (-1, [aᵥ, bᵥ, cᵥ, dᵥ, kₒ, jₒ, iₒ, lₒ]), (-1, [aᵥ, cᵥ, bᵥ, dᵥ, iₒ, jₒ, kₒ, lₒ]), (1, [aᵥ, cᵥ, bᵥ, dᵥ, kₒ, jₒ, iₒ, lₒ])]⟩,
  -- line 6041: maej,ebik,cdlm->abcdijkl
  ⟨1, [g_bbbb [mₒ, aᵥ, eᵥ, jₒ], t2_bbbb [eᵥ, bᵥ, iₒ, kₒ], t2_bbbb [cᵥ, dᵥ, lₒ, mₒ]], [(1, [aᵥ, bᵥ, cᵥ, dᵥ, iₒ, jₒ, kₒ, lₒ]), (-1, [aᵥ, bᵥ, cᵥ, dᵥ, jₒ, iₒ, kₒ, lₒ]), (-1, [aᵥ, cᵥ, bᵥ, dᵥ, iₒ, jₒ, kₒ, lₒ]), (1, [aᵥ, cᵥ, bᵥ, dᵥ, jₒ, iₒ, kₒ, lₒ])]⟩,
  -- line 6045: maej,edkl,bcim->abcdijkl
  ⟨1, [g_bbbb [mₒ, aᵥ, eᵥ, jₒ], t2_bbbb [eᵥ, dᵥ, kₒ, lₒ], t2_bbbb [bᵥ, cᵥ, iₒ, mₒ]], [(1, [aᵥ, bᵥ, cᵥ, dᵥ, iₒ, jₒ, kₒ, lₒ]), (-1, [aᵥ, bᵥ, cᵥ, dᵥ, kₒ, jₒ, iₒ, lₒ]), (-1, [bᵥ, aᵥ, cᵥ, dᵥ, iₒ, jₒ, kₒ, lₒ]), (1, [bᵥ, aᵥ, cᵥ, dᵥ, kₒ, jₒ, iₒ, lₒ])]⟩,
  -- line 6049: maej,edik,bclm->abcdijkl
  ⟨1, [g_bbbb [mₒ, aᵥ, eᵥ, jₒ], t2_bbbb [eᵥ, dᵥ, iₒ, kₒ], t2_bbbb [bᵥ, cᵥ, lₒ, mₒ]], [(1, [aᵥ, bᵥ, cᵥ, dᵥ, iₒ, jₒ, kₒ, lₒ]), (-1, [aᵥ, bᵥ, cᵥ, dᵥ, jₒ, iₒ, kₒ, lₒ]), (-1, [bᵥ, aᵥ, cᵥ, dᵥ, iₒ, jₒ, kₒ, lₒ]), (1, [bᵥ, aᵥ, cᵥ, dᵥ, jₒ, iₒ, kₒ, lₒ])]⟩,
  -- line 6053: maei,ebkl,cdjm->abcdijkl
  ⟨-1, [g_bbbb [mₒ, aᵥ, eᵥ, iₒ], t2_bbbb [eᵥ, bᵥ, kₒ, lₒ], t2_bbbb [cᵥ, dᵥ, jₒ, mₒ]], [(1, [aᵥ, bᵥ, cᵥ, dᵥ, iₒ, jₒ, kₒ, lₒ]), (-1, [aᵥ, bᵥ, cᵥ, dᵥ, iₒ, kₒ, jₒ, lₒ]), (-1, [aᵥ, cᵥ, bᵥ, dᵥ, iₒ, jₒ, kₒ, lₒ]), (1, [aᵥ, cᵥ, bᵥ, dᵥ, iₒ, kₒ, jₒ, lₒ])]⟩,
  -- line 6057: maei,edkl,bcjm->abcdijkl
  ⟨-1, [g_bbbb [mₒ, aᵥ, eᵥ, iₒ], t2_bbbb [eᵥ, dᵥ, kₒ, lₒ], t2_bbbb [bᵥ, cᵥ, jₒ, mₒ]], [(1, [aᵥ, bᵥ, cᵥ, dᵥ, iₒ, jₒ, kₒ, lₒ]), (-1, [aᵥ, bᵥ, cᵥ, dᵥ, iₒ, kₒ, jₒ, lₒ]), (-1, [bᵥ, aᵥ, cᵥ, dᵥ, iₒ, jₒ, kₒ, lₒ]), (1, [bᵥ, aᵥ, cᵥ, dᵥ, iₒ, kₒ, jₒ, lₒ])]⟩,
  -- line 6061: mbel,eajk,cdim->abcdijkl
  ⟨-1, [g_bbbb [mₒ, bᵥ, eᵥ, lₒ], t2_bbbb [eᵥ, aᵥ, jₒ, kₒ], t2_bbbb [cᵥ, dᵥ, iₒ, mₒ]], [(1, [aᵥ, bᵥ, cᵥ, dᵥ, iₒ, jₒ, kₒ, lₒ]), (-1, [aᵥ, bᵥ, cᵥ, dᵥ, jₒ, iₒ, kₒ, lₒ]), (-1, [cᵥ, bᵥ, aᵥ, dᵥ, iₒ, jₒ, kₒ, lₒ]), (1, [cᵥ, bᵥ, aᵥ, dᵥ, jₒ, iₒ, kₒ, lₒ])]⟩,
  -- line 6065: mbel,eaij,cdkm->abcdijkl
  ⟨-1, [g_bbbb [mₒ, bᵥ, eᵥ, lₒ], t2_bbbb [eᵥ, aᵥ, iₒ, jₒ], t2_bbbb [cᵥ, dᵥ, kₒ, mₒ]], [(1, [aᵥ, bᵥ, cᵥ, dᵥ, iₒ, jₒ, kₒ, lₒ]), (-1, [aᵥ, bᵥ, cᵥ, dᵥ, iₒ, jₒ, lₒ, kₒ]), (-1, [cᵥ, bᵥ, aᵥ, dᵥ, iₒ, jₒ, kₒ, lₒ]), (1, [cᵥ, bᵥ, aᵥ, dᵥ, iₒ, jₒ, lₒ, kₒ])]⟩,
  -- line 6069: mbek,eajl,cdim->abcdijkl
  ⟨1, [g_bbbb [mₒ, bᵥ, eᵥ, kₒ], t2_bbbb [eᵥ, aᵥ, jₒ, lₒ], t2_bbbb [cᵥ, dᵥ, iₒ, mₒ]], [(1, [aᵥ, bᵥ, cᵥ, dᵥ, iₒ, jₒ, kₒ, lₒ]), (-1, [aᵥ, bᵥ, cᵥ, dᵥ, jₒ, iₒ, kₒ, lₒ]), (-1, [cᵥ, bᵥ, aᵥ, dᵥ, iₒ, jₒ, kₒ, lₒ]), (1, [cᵥ, bᵥ, aᵥ, dᵥ, jₒ, iₒ, kₒ, lₒ])]⟩,
  -- line 6073: mbej,eakl,cdim->abcdijkl
  ⟨-1, [g_bbbb [mₒ, bᵥ, eᵥ, jₒ], t2_bbbb [eᵥ, aᵥ, kₒ, lₒ], t2_bbbb [cᵥ, dᵥ, iₒ, mₒ]], [(1, [aᵥ, bᵥ, cᵥ, dᵥ, iₒ, jₒ, kₒ, lₒ]), (-1, [aᵥ, bᵥ, cᵥ, dᵥ, kₒ, jₒ, iₒ, lₒ]), (-1, [cᵥ, bᵥ, aᵥ, dᵥ, iₒ, jₒ, kₒ, lₒ]), (1, [cᵥ, bᵥ, aᵥ, dᵥ, kₒ, jₒ, iₒ, lₒ])]⟩,
  -- line 6077: mbej,eaik,cdlm->abcdijkl
  ⟨-1, [g_bbbb [mₒ, bᵥ, eᵥ, jₒ], t2_bbbb [eᵥ, aᵥ, iₒ, kₒ], t2_bbbb [cᵥ, dᵥ, lₒ, mₒ]], [(1, [aᵥ, bᵥ, cᵥ, dᵥ, iₒ, jₒ, kₒ, lₒ]), (-1, [aᵥ, bᵥ, cᵥ, dᵥ, jₒ, iₒ, kₒ, lₒ]), (-1, [cᵥ, bᵥ, aᵥ, dᵥ, iₒ, jₒ, kₒ, lₒ]), (1, [cᵥ, bᵥ, aᵥ, dᵥ, jₒ, iₒ, kₒ, lₒ])]⟩,
  -- line 6081: mbei,eakl,cdjm->abcdijkl
  ⟨1, [g_bbbb [mₒ, bᵥ, eᵥ, iₒ], t2_bbbb [eᵥ, aᵥ, kₒ, lₒ], t2_bbbb [cᵥ, dᵥ, jₒ, mₒ]], [(1, [aᵥ, bᵥ, cᵥ, dᵥ, iₒ, jₒ, kₒ, lₒ]), (-1, [aᵥ, bᵥ, cᵥ, dᵥ, iₒ, kₒ, jₒ, lₒ]), (-1, [cᵥ, bᵥ, aᵥ, dᵥ, iₒ, jₒ, kₒ, lₒ]), (1, [cᵥ, bᵥ, aᵥ, dᵥ, iₒ, kₒ, jₒ, lₒ])]⟩,
  -- line 6085: mcel,eajk,bdim->abcdijkl
  ⟨1, [g_bbbb [mₒ, cᵥ, eᵥ, lₒ], t2_bbbb [eᵥ, aᵥ, jₒ, kₒ], t2_bbbb [bᵥ, dᵥ, iₒ, mₒ]], [(1, [aᵥ, bᵥ, cᵥ, dᵥ, iₒ, jₒ, kₒ, lₒ]), (-1, [aᵥ, bᵥ, cᵥ, dᵥ, jₒ, iₒ, kₒ, lₒ]), (-1, [bᵥ, aᵥ, cᵥ, dᵥ, iₒ, jₒ, kₒ, lₒ]), (1, [bᵥ, aᵥ, cᵥ, dᵥ, jₒ, iₒ, kₒ, lₒ])]⟩,
  -- line 6089: mcel,eaij,bdkm->abcdijkl
  ⟨1, [g_bbbb [mₒ, cᵥ, eᵥ, lₒ], t2_bbbb [eᵥ, aᵥ, iₒ, jₒ], t2_bbbb [bᵥ, dᵥ, kₒ, mₒ]], [(1, [aᵥ, bᵥ, cᵥ, dᵥ, iₒ, jₒ, kₒ, lₒ]), (-1, [aᵥ, bᵥ, cᵥ, dᵥ, iₒ, jₒ, lₒ, kₒ]), (-1, [bᵥ, aᵥ, cᵥ, dᵥ, iₒ, jₒ, kₒ, lₒ]), (1, [bᵥ, aᵥ, cᵥ, dᵥ, iₒ, jₒ, lₒ, kₒ])]⟩
  ]

/-- Part 3 of `ccdq_t4_bbbbbbbb`. -/
def ccdq_t4_bbbbbbbb_3 : Prog := [
  -- line 6093: mcel,edjk,abim->abcdijkl
  ⟨1, [g_bbbb [mₒ, cᵥ, eᵥ, lₒ], t2_bbbb [eᵥ, dᵥ, jₒ, kₒ], t2_bbbb [aᵥ, bᵥ, iₒ, mₒ]], [(1, [aᵥ, bᵥ, cᵥ, dᵥ, iₒ, jₒ, kₒ, lₒ]), (-1, [aᵥ, bᵥ, cᵥ, dᵥ, jₒ, iₒ, kₒ, lₒ]), (-1, [aᵥ, bᵥ, dᵥ, cᵥ, iₒ, jₒ, kₒ, lₒ]), (1, [aᵥ, bᵥ, dᵥ, cᵥ, jₒ, iₒ, kₒ, lₒ])]⟩,
  -- line 6097: mcel,edij,abkm->abcdijkl
  ⟨1, [g_bbbb [mₒ, cᵥ, eᵥ, lₒ], t2_bbbb [eᵥ, dᵥ, iₒ, jₒ], t2_bbbb [aᵥ, bᵥ, kₒ, mₒ]], [(1, [aᵥ, bᵥ, cᵥ, dᵥ, iₒ, jₒ, kₒ, lₒ]), (-1, [aᵥ, bᵥ, cᵥ, dᵥ, iₒ, jₒ, lₒ, kₒ]), (-1, [aᵥ, bᵥ, dᵥ, cᵥ, iₒ, jₒ, kₒ, lₒ]), (1, [aᵥ, bᵥ, dᵥ, cᵥ, iₒ, jₒ, lₒ, kₒ])]⟩,
  -- line 6101: mcek,eajl,bdim->abcdijkl
  ⟨-1, [g_bbbb [mₒ, cᵥ, eᵥ, kₒ], t2_bbbb [eᵥ, aᵥ, jₒ, lₒ], t2_bbbb [bᵥ, dᵥ, iₒ, mₒ]], [(1, [aᵥ, bᵥ, cᵥ, dᵥ, iₒ, jₒ, kₒ, lₒ]), (-1, [aᵥ, bᵥ, cᵥ, dᵥ, jₒ, iₒ, kₒ, lₒ]), (-1, [bᵥ, aᵥ, cᵥ, dᵥ, iₒ, jₒ, kₒ, lₒ]), (1, [bᵥ, aᵥ, cᵥ, dᵥ, jₒ, iₒ, kₒ, lₒ])]⟩,
  -- line 6105: mcek,edjl,abim->abcdijkl
  ⟨-1, [g_bbbb [mₒ, cᵥ, eᵥ, kₒ], t2_bbbb [eᵥ, dᵥ, jₒ, lₒ], t2_bbbb [aᵥ, bᵥ, iₒ, mₒ]], [(1, [aᵥ, bᵥ, cᵥ, dᵥ, iₒ, jₒ, kₒ, lₒ]), (-1, [aᵥ, bᵥ, cᵥ, dᵥ, jₒ, iₒ, kₒ, lₒ]), (-1, [aᵥ, bᵥ, dᵥ, cᵥ, iₒ, jₒ, kₒ, lₒ]), (1, [aᵥ, bᵥ, dᵥ, cᵥ, jₒ, iₒ, kₒ, lₒ])]⟩,
  -- line 6109: mcej,eakl,bdim->abcdijkl
  ⟨1, [g_bbbb [mₒ, cᵥ, eᵥ, jₒ], t2_bbbb [eᵥ, aᵥ, kₒ, lₒ], t2_bbbb [bᵥ, dᵥ, iₒ, mₒ]], [(1, [aᵥ, bᵥ, cᵥ, dᵥ, iₒ, jₒ, kₒ, lₒ]), (-1, [aᵥ, bᵥ, cᵥ, dᵥ, kₒ, jₒ, iₒ, lₒ]), (-1, [bᵥ, aᵥ, cᵥ, dᵥ, iₒ, jₒ, kₒ, lₒ]), (1, [bᵥ, aᵥ, cᵥ, dᵥ, kₒ, jₒ, iₒ, lₒ])]⟩,
  -- line 6113: mcej,eaik,bdlm->abcdijkl
  ⟨1, [g_bbbb [mₒ, cᵥ, eᵥ, jₒ], t2_bbbb [eᵥ, aᵥ, iₒ, kₒ], t2_bbbb [bᵥ, dᵥ, lₒ, mₒ]], [(1, [aᵥ, bᵥ, cᵥ, dᵥ, iₒ, jₒ, kₒ, lₒ]), (-1, [aᵥ, bᵥ, cᵥ, dᵥ, jₒ, iₒ, kₒ, lₒ]), (-1, [bᵥ, aᵥ, cᵥ, dᵥ, iₒ, jₒ, kₒ, lₒ]), (1, [bᵥ, aᵥ, cᵥ, dᵥ, jₒ, iₒ, kₒ, lₒ])]⟩,
  -- line 6117: mcej,edkl,abim->abcdijkl
  ⟨1, [g_bbbb [mₒ, cᵥ, eᵥ, jₒ], t2_bbbb [eᵥ, dᵥ, kₒ, lₒ], t2_bbbb [aᵥ, bᵥ, iₒ, mₒ]], [(1, [aᵥ, bᵥ, cᵥ, dᵥ, iₒ, jₒ, kₒ, lₒ]), (-1, [aᵥ, bᵥ, cᵥ, dᵥ, kₒ, jₒ, iₒ, lₒ]), (-1, [aᵥ, bᵥ, dᵥ, cᵥ, iₒ, jₒ, kₒ, lₒ]), (1, [aᵥ, bᵥ, dᵥ, cᵥ, kₒ, jₒ, iₒ, lₒ])]⟩,
  -- line 6121: mcej,edik,ablm->abcdijkl
  ⟨1, [g_bbbb [mₒ, cᵥ, eᵥ, jₒ], t2_bbbb [eᵥ, dᵥ, iₒ, kₒ], t2_bbbb [aᵥ, bᵥ, lₒ, mₒ]], [(1, [aᵥ, bᵥ, cᵥ, dᵥ, iₒ, jₒ, kₒ, lₒ]), (-1, [aᵥ, bᵥ, cᵥ, dᵥ, jₒ, iₒ, kₒ, lₒ]), (-1, [aᵥ, bᵥ, dᵥ, cᵥ, iₒ, jₒ, kₒ, lₒ]), (1, [aᵥ, bᵥ, dᵥ, cᵥ, jₒ, iₒ, kₒ, lₒ])]⟩,
  -- line 6125: mcei,eakl,bdjm->abcdijkl
  ⟨-1, [g_bbbb [mₒ, cᵥ, eᵥ, iₒ], t2_bbbb [eᵥ, aᵥ, kₒ, lₒ], t2_bbbb [bᵥ, dᵥ, jₒ, mₒ]], [(1, [aᵥ, bᵥ, cᵥ, dᵥ, iₒ, jₒ, kₒ, lₒ]), (-1, [aᵥ, bᵥ, cᵥ, dᵥ, iₒ, kₒ, jₒ, lₒ]), (-1, [bᵥ, aᵥ, cᵥ, dᵥ, iₒ, jₒ, kₒ, lₒ]), (1, [bᵥ, aᵥ, cᵥ, dᵥ, iₒ, kₒ, jₒ, lₒ])]⟩,
  -- line 6129: mcei,edkl,abjm->abcdijkl
  ⟨-1, [g_bbbb [mₒ, cᵥ, eᵥ, iₒ], t2_bbbb [eᵥ, dᵥ, kₒ, lₒ], t2_bbbb [aᵥ, bᵥ, jₒ, mₒ]], [(1, [aᵥ, bᵥ, cᵥ, dᵥ, iₒ, jₒ, kₒ, lₒ]), (-1, [aᵥ, bᵥ, cᵥ, dᵥ, iₒ, kₒ, jₒ, lₒ]), (-1, [aᵥ, bᵥ, dᵥ, cᵥ, iₒ, jₒ, kₒ, lₒ]), (1, [aᵥ, bᵥ, dᵥ, cᵥ, iₒ, kₒ, jₒ, lₒ])]⟩,
  -- line 6133: mdel,eajk,bcim->abcdijkl
  ⟨-1, [g_bbbb [mₒ, dᵥ, eᵥ, lₒ], t2_bbbb [eᵥ, aᵥ, jₒ, kₒ], t2_bbbb [bᵥ, cᵥ, iₒ, mₒ]], [(1, [aᵥ, bᵥ, cᵥ, dᵥ, iₒ, jₒ, kₒ, lₒ]), (-1, [aᵥ, bᵥ, cᵥ, dᵥ, jₒ, iₒ, kₒ, lₒ]), (-1, [bᵥ, aᵥ, cᵥ, dᵥ, iₒ, jₒ, kₒ, lₒ]), (1, [bᵥ, aᵥ, cᵥ, dᵥ, jₒ, iₒ, kₒ, lₒ])]⟩,
  -- line 6137: mdel,eaij,bckm->abcdijkl
  ⟨-1, [g_bbbb [mₒ, dᵥ, eᵥ, lₒ], t2_bbbb [eᵥ, aᵥ, iₒ, jₒ], t2_bbbb [bᵥ, cᵥ, kₒ, mₒ]], [(1, [aᵥ, bᵥ, cᵥ, dᵥ, iₒ, jₒ, kₒ, lₒ]), (-1, [aᵥ, bᵥ, cᵥ, dᵥ, iₒ, jₒ, lₒ, kₒ]), (-1, [bᵥ, aᵥ, cᵥ, dᵥ, iₒ, jₒ, kₒ, lₒ]), (1, [bᵥ, aᵥ, cᵥ, dᵥ, iₒ, jₒ, lₒ, kₒ])]⟩,
  -- line 6141: mdek,eajl,bcim->abcdijkl
  ⟨1, [g_bbbb [mₒ, dᵥ, eᵥ, kₒ], t2_bbbb [eᵥ, aᵥ, jₒ, lₒ], t2_bbbb [bᵥ, cᵥ, iₒ, mₒ]], [(1, [aᵥ, bᵥ, cᵥ, dᵥ, iₒ, jₒ, kₒ, lₒ]), (-1, [aᵥ, bᵥ, cᵥ, dᵥ, jₒ, iₒ, kₒ, lₒ]), (-1, [bᵥ, aᵥ, cᵥ, dᵥ, iₒ, jₒ, kₒ, lₒ]), (1, [bᵥ, aᵥ, cᵥ, dᵥ, jₒ, iₒ, kₒ, lₒ])]⟩,
  -- line 6145: mdej,eakl,bcim->abcdijkl
  ⟨-1, [g_bbbb [mₒ, dᵥ, eᵥ, jₒ], t2_bbbb [eᵥ, aᵥ, kₒ, lₒ], t2_bbbb [bᵥ, cᵥ, iₒ, mₒ]], [(1, [aᵥ, bᵥ, cᵥ, dᵥ, iₒ, jₒ, kₒ, lₒ]), (-1, [aᵥ, bᵥ, cᵥ, dᵥ, kₒ, jₒ, iₒ, lₒ]), (-1, [bᵥ, aᵥ, cᵥ, dᵥ, iₒ, jₒ, kₒ, lₒ]), (1, [bᵥ, aᵥ, cᵥ, dᵥ, kₒ, jₒ, iₒ, lₒ])]⟩,
  -- line 6149: mdej,eaik,bclm->abcdijkl
  ⟨-1, [g_bbbb [mₒ, dᵥ, eᵥ, jₒ], t2_bbbb [eᵥ, aᵥ, iₒ, kₒ], t2_bbbb [bᵥ, cᵥ, lₒ, mₒ]], [(1, [aᵥ, bᵥ, cᵥ, dᵥ, iₒ, jₒ, kₒ, lₒ]), (-1, [aᵥ, bᵥ, cᵥ, dᵥ, jₒ, iₒ, kₒ, lₒ]), (-1, [bᵥ, aᵥ, cᵥ, dᵥ, iₒ, jₒ, kₒ, lₒ]), (1, [bᵥ, aᵥ, cᵥ, dᵥ, jₒ, iₒ, kₒ, lₒ])]⟩,
  -- line 6153: mdei,eakl,bcjm->abcdijkl
  ⟨1, [g_bbbb [mₒ, dᵥ, eᵥ, iₒ], t2_bbbb [eᵥ, aᵥ, kₒ, lₒ], t2_bbbb [bᵥ, cᵥ, jₒ, mₒ]], [(1, [aᵥ, bᵥ, cᵥ, dᵥ, iₒ, jₒ, kₒ, lₒ]), (-1, [aᵥ, bᵥ, cᵥ, dᵥ, iₒ, kₒ, jₒ, lₒ]), (-1, [bᵥ, aᵥ, cᵥ, dᵥ, iₒ, jₒ, kₒ, lₒ]), (1, [bᵥ, aᵥ, cᵥ, dᵥ, iₒ, kₒ, jₒ, lₒ])]⟩,
  -- line 6157: abef,eckl,fdij->abcdijkl
  ⟨-1, [g_bbbb [aᵥ, bᵥ, eᵥ, fᵥ], t2_bbbb [eᵥ, cᵥ, kₒ, lₒ], t2_bbbb [fᵥ, dᵥ, iₒ, jₒ]], [(1, [aᵥ, bᵥ, cᵥ, dᵥ, iₒ, jₒ, kₒ, lₒ]), (-1, [aᵥ, bᵥ, cᵥ, dᵥ, iₒ, kₒ, jₒ, lₒ]), (-1, [aᵥ, cᵥ, bᵥ, dᵥ, iₒ, jₒ, kₒ, lₒ]), (1, [aᵥ, cᵥ, bᵥ, dᵥ, iₒ, kₒ, jₒ, lₒ])]⟩,
  -- line 6161: abef,ecil,fdjk->abcdijkl
  ⟨-1, [g_bbbb [aᵥ, bᵥ, eᵥ, fᵥ], t2_bbbb [eᵥ, cᵥ, iₒ, lₒ], t2_bbbb [fᵥ, dᵥ, jₒ, kₒ]], [(1, [aᵥ, bᵥ, cᵥ, dᵥ, iₒ, jₒ, kₒ, lₒ]), (-1, [aᵥ, bᵥ, cᵥ, dᵥ, iₒ, jₒ, lₒ, kₒ]), (-1, [aᵥ, cᵥ, bᵥ, dᵥ, iₒ, jₒ, kₒ, lₒ]), (1, [aᵥ, cᵥ, bᵥ, dᵥ, iₒ, jₒ, lₒ, kₒ])]⟩,
  -- line 6165: abef,ecjk,fdil->abcdijkl
  ⟨-1, [g_bbbb [aᵥ, bᵥ, eᵥ, fᵥ], t2_bbbb [eᵥ, cᵥ, jₒ, kₒ], t2_bbbb [fᵥ, dᵥ, iₒ, lₒ]], [(1, [aᵥ, bᵥ, cᵥ, dᵥ, iₒ, jₒ, kₒ, lₒ]), (-1, [aᵥ, bᵥ, cᵥ, dᵥ, kₒ, jₒ, iₒ, lₒ]), (-1, [aᵥ, cᵥ, bᵥ, dᵥ, iₒ, jₒ, kₒ, lₒ]), (1, [aᵥ, cᵥ, bᵥ, dᵥ, kₒ, jₒ, iₒ, lₒ])]⟩,
  -- line 6169: adef,ebkl,fcij->abcdijkl
  ⟨-1, [g_bbbb [aᵥ, dᵥ, eᵥ, fᵥ], t2_bbbb [eᵥ, bᵥ, kₒ, lₒ], t2_bbbb [fᵥ, cᵥ, iₒ, jₒ]], [(1, [aᵥ, bᵥ, cᵥ, dᵥ, iₒ, jₒ, kₒ, lₒ]), (-1, [aᵥ, bᵥ, cᵥ, dᵥ, iₒ, kₒ, jₒ, lₒ]), (-1, [bᵥ, aᵥ, cᵥ, dᵥ, iₒ, jₒ, kₒ, lₒ]), (1, [bᵥ, aᵥ, cᵥ, dᵥ, iₒ, kₒ, jₒ, lₒ])]⟩,
  -- line 6173: adef,ebil,fcjk->abcdijkl
  ⟨-1, [g_bbbb [aᵥ, dᵥ, eᵥ, fᵥ], t2_bbbb [eᵥ, bᵥ, iₒ, lₒ], t2_bbbb [fᵥ, cᵥ, jₒ, kₒ]], [(1, [aᵥ, bᵥ, cᵥ, dᵥ, iₒ, jₒ, kₒ, lₒ]), (-1, [aᵥ, bᵥ, cᵥ, dᵥ, iₒ, jₒ, lₒ, kₒ]), (-1, [bᵥ, aᵥ, cᵥ, dᵥ, iₒ, jₒ, kₒ, lₒ]), (1, [bᵥ, aᵥ, cᵥ, dᵥ, iₒ, jₒ, lₒ, kₒ])]⟩,
  -- line 6177: adef,ebjk,fcil->abcdijkl
  ⟨-1, [g_bbbb [aᵥ, dᵥ, eᵥ, fᵥ], t2_bbbb [eᵥ, bᵥ, jₒ, kₒ], t2_bbbb [fᵥ, cᵥ, iₒ, lₒ]], [(1, [aᵥ, bᵥ, cᵥ, dᵥ, iₒ, jₒ, kₒ, lₒ]), (-1, [aᵥ, bᵥ, cᵥ, dᵥ, kₒ, jₒ, iₒ, lₒ]), (-1, [bᵥ, aᵥ, cᵥ, dᵥ, iₒ, jₒ, kₒ, lₒ]), (1, [bᵥ, aᵥ, cᵥ, dᵥ, kₒ, jₒ, iₒ, lₒ])]⟩,
  -- line 6181: bcef,eakl,fdij->abcdijkl
  ⟨-1, [g_bbbb [bᵥ, cᵥ, eᵥ, fᵥ], t2_bbbb [eᵥ, aᵥ, kₒ, lₒ], t2_bbbb [fᵥ, dᵥ, iₒ, jₒ]], [(1, [aᵥ, bᵥ, cᵥ, dᵥ, iₒ, jₒ, kₒ, lₒ]), (-1, [aᵥ, bᵥ, cᵥ, dᵥ, iₒ, kₒ, jₒ, lₒ]), (-1, [aᵥ, dᵥ, cᵥ, bᵥ, iₒ, jₒ, kₒ, lₒ]), (1, [aᵥ, dᵥ, cᵥ, bᵥ, iₒ, kₒ, jₒ, lₒ])]⟩,
  -- line 6185: bcef,eail,fdjk->abcdijkl
  ⟨-1, [g_bbbb [bᵥ, cᵥ, eᵥ, fᵥ], t2_bbbb [eᵥ, aᵥ, iₒ, lₒ], t2_bbbb [fᵥ, dᵥ, jₒ, kₒ]], [(1, [aᵥ, bᵥ, cᵥ, dᵥ, iₒ, jₒ, kₒ, lₒ]), (-1, [aᵥ, bᵥ, cᵥ, dᵥ, iₒ, jₒ, lₒ, kₒ]), (-1, [aᵥ, dᵥ, cᵥ, bᵥ, iₒ, jₒ, kₒ, lₒ]), (1, [aᵥ, dᵥ, cᵥ, bᵥ, iₒ, jₒ, lₒ, kₒ])]⟩,
  -- line 6189: bcef,eajk,fdil->abcdijkl
  ⟨-1, [g_bbbb [bᵥ, cᵥ, eᵥ, fᵥ], t2_bbbb [eᵥ, aᵥ, jₒ, kₒ], t2_bbbb [fᵥ, dᵥ, iₒ, lₒ]], [(1, [aᵥ, bᵥ, cᵥ, dᵥ, iₒ, jₒ, kₒ, lₒ]), (-1, [aᵥ, bᵥ, cᵥ, dᵥ, kₒ, jₒ, iₒ, lₒ]), (-1, [aᵥ, dᵥ, cᵥ, bᵥ, iₒ, jₒ, kₒ, lₒ]), (1, [aᵥ, dᵥ, cᵥ, bᵥ, kₒ, jₒ, iₒ, lₒ])]⟩,
  -- line 6193: nmef,efkl,abjm,cdin->abcdijkl
  ⟨-1/2, [g_bbbb [nₒ, mₒ, eᵥ, fᵥ], t2_bbbb [eᵥ, fᵥ, kₒ, lₒ], t2_bbbb [aᵥ, bᵥ, jₒ, mₒ], t2_bbbb [cᵥ, dᵥ, iₒ, nₒ]], [(1, [aᵥ, bᵥ, cᵥ, dᵥ, iₒ, jₒ, kₒ, lₒ]), (-1, [aᵥ, bᵥ, cᵥ, dᵥ, jₒ, iₒ, kₒ, lₒ]), (-1, [aᵥ, cᵥ, bᵥ, dᵥ, iₒ, jₒ, kₒ, lₒ]), (1, [aᵥ, cᵥ, bᵥ, dᵥ, jₒ, iₒ, kₒ, lₒ])]⟩,
  -- line 6197: nmef,efkl,adjm,bcin->abcdijkl
  ⟨-1/2, [g_bbbb [nₒ, mₒ, eᵥ, fᵥ], t2_bbbb [eᵥ, fᵥ, kₒ, lₒ], t2_bbbb [aᵥ, dᵥ, jₒ, mₒ], t2_bbbb [bᵥ, cᵥ, iₒ, nₒ]], [(1, [aᵥ, bᵥ, cᵥ, dᵥ, iₒ, jₒ, kₒ, lₒ]), (-1, [aᵥ, bᵥ, cᵥ, dᵥ, jₒ, iₒ, kₒ, lₒ])]⟩,
  -- line 6201: nmef,efjl,abkm,cdin->abcdijkl
  ⟨1/2, [g_bbbb [nₒ, mₒ, eᵥ, fᵥ], t2_bbbb [eᵥ, fᵥ, jₒ, lₒ], t2_bbbb [aᵥ, bᵥ, kₒ, mₒ], t2_bbbb [cᵥ, dᵥ, iₒ, nₒ]], [(1, [aᵥ, bᵥ, cᵥ, dᵥ, iₒ, jₒ, kₒ, lₒ]), (-1, [aᵥ, bᵥ, cᵥ, dᵥ, kₒ, jₒ, iₒ, lₒ]), (-1, [aᵥ, cᵥ, bᵥ, dᵥ, iₒ, jₒ, kₒ, lₒ]), (1, [aᵥ, cᵥ, bᵥ, dᵥ, kₒ, jₒ, iₒ, lₒ])]⟩,
  -- line 6205: nmef,efjl,adkm,bcin->abcdijkl
  ⟨1/2, [g_bbbb [nₒ, mₒ, eᵥ, fᵥ], t2_bbbb [eᵥ, fᵥ, jₒ, lₒ], t2_bbbb [aᵥ, dᵥ, kₒ, mₒ], t2_bbbb [bᵥ, cᵥ, iₒ, nₒ]], [(1, [aᵥ, bᵥ, cᵥ, dᵥ, iₒ, jₒ, kₒ, lₒ]), (-1, [aᵥ, bᵥ, cᵥ, dᵥ, kₒ, jₒ, iₒ, lₒ])]⟩,
  -- line 6209: nmef,efil,abkm,cdjn->abcdijkl
  ⟨-1/2, [g_bbbb [nₒ, mₒ, eᵥ, fᵥ], t2_bbbb [eᵥ, fᵥ, iₒ, lₒ], t2_bbbb [aᵥ, bᵥ, kₒ, mₒ], t2_bbbb [cᵥ, dᵥ, jₒ, nₒ]], [(1, [aᵥ, bᵥ, cᵥ, dᵥ, iₒ, jₒ, kₒ, lₒ]), (-1, [aᵥ, bᵥ, cᵥ, dᵥ, iₒ, kₒ, jₒ, lₒ]), (-1, [aᵥ, cᵥ, bᵥ, dᵥ, iₒ, jₒ, kₒ, lₒ]), (1, [aᵥ, cᵥ, bᵥ, dᵥ, iₒ, kₒ, jₒ, lₒ])]⟩,
  -- line 6213: nmef,efil,adkm,bcjn->abcdijkl
  ⟨-1/2, [g_bbbb [nₒ, mₒ, eᵥ, fᵥ], t2_bbbb [eᵥ, fᵥ, iₒ, lₒ], t2_bbbb [aᵥ, dᵥ, kₒ, mₒ], t2_bbbb [bᵥ, cᵥ, jₒ, nₒ]], [(1, [aᵥ, bᵥ, cᵥ, dᵥ, iₒ, jₒ, kₒ, lₒ]), (-1, [aᵥ, bᵥ, cᵥ, dᵥ, iₒ, kₒ, jₒ, lₒ])]⟩,
  -- line 6217: nmef,efjk,ablm,cdin->abcdijkl
  ⟨-1/2, [g_bbbb [nₒ, mₒ, eᵥ, fᵥ], t2_bbbb [eᵥ, fᵥ, jₒ, kₒ], t2_bbbb [aᵥ, bᵥ, lₒ, mₒ], t2_bbbb [cᵥ, dᵥ, iₒ, nₒ]], [(1, [aᵥ, bᵥ, cᵥ, dᵥ, iₒ, jₒ, kₒ, lₒ]), (-1, [aᵥ, bᵥ, cᵥ, dᵥ, lₒ, jₒ, kₒ, iₒ]), (-1, [aᵥ, cᵥ, bᵥ, dᵥ, iₒ, jₒ, kₒ, lₒ]), (1, [aᵥ, cᵥ, bᵥ, dᵥ, lₒ, jₒ, kₒ, iₒ])]⟩,
  -- line 6221: nmef,efjk,adlm,bcin->abcdijkl
  ⟨-1/2, [g_bbbb [nₒ, mₒ, eᵥ, fᵥ], t2_bbbb [eᵥ, fᵥ, jₒ, kₒ], t2_bbbb [aᵥ, dᵥ, lₒ, mₒ], t2_bbbb [bᵥ, cᵥ, iₒ, nₒ]], [(1, [aᵥ, bᵥ, cᵥ, dᵥ, iₒ, jₒ, kₒ, lₒ]), (-1, [aᵥ, bᵥ, cᵥ, dᵥ, lₒ, jₒ, kₒ, iₒ])]⟩,
  -- line 6225: nmef,efik,ablm,cdjn->abcdijkl
  ⟨1/2, [g_bbbb [nₒ, mₒ, eᵥ, fᵥ], t2_bbbb [eᵥ, fᵥ, iₒ, kₒ], t2_bbbb [aᵥ, bᵥ, lₒ, mₒ], t2_bbbb [cᵥ, dᵥ, jₒ, nₒ]], [(1, [aᵥ, bᵥ, cᵥ, dᵥ, iₒ, jₒ, kₒ, lₒ]), (-1, [aᵥ, bᵥ, cᵥ, dᵥ, iₒ, lₒ, kₒ, jₒ]), (-1, [aᵥ, cᵥ, bᵥ, dᵥ, iₒ, jₒ, kₒ, lₒ]), (1, [aᵥ, cᵥ, bᵥ, dᵥ, iₒ, lₒ, kₒ, jₒ])]⟩,
  -- line 6229: nmef,efik,adlm,bcjn->abcdijkl
  ⟨1/2, [g_bbbb [nₒ, mₒ, eᵥ, fᵥ], t2_bbbb [eᵥ, fᵥ, iₒ, kₒ], t2_bbbb [aᵥ, dᵥ, lₒ, mₒ], t2_bbbb [bᵥ, cᵥ, jₒ, nₒ]], [(1, [aᵥ, bᵥ, cᵥ, dᵥ, iₒ, jₒ, kₒ, lₒ]), (-1, [aᵥ, bᵥ, cᵥ, dᵥ, iₒ, lₒ, kₒ, jₒ])]⟩,
  -- line 6233: nmef,efij,ablm,cdkn->abcdijkl
  ⟨-1/2, [g_bbbb [nₒ, mₒ, eᵥ, fᵥ], t2_bbbb [eᵥ, fᵥ, iₒ, jₒ], t2_bbbb [aᵥ, bᵥ, lₒ, mₒ], t2_bbbb [cᵥ, dᵥ, kₒ, nₒ]], [(1, [aᵥ, bᵥ, cᵥ, dᵥ, iₒ, jₒ, kₒ, lₒ]), (-1, [aᵥ, bᵥ, cᵥ, dᵥ, iₒ, jₒ, lₒ, kₒ]), (-1, [aᵥ, cᵥ, bᵥ, dᵥ, iₒ, jₒ, kₒ, lₒ]), (1, [aᵥ, cᵥ, bᵥ, dᵥ, iₒ, jₒ, lₒ, kₒ])]⟩,
  -- line 6237: nmef,efij,adlm,bckn->abcdijkl
  ⟨-1/2, [g_bbbb [nₒ, mₒ, eᵥ, fᵥ], t2_bbbb [eᵥ, fᵥ, iₒ, jₒ], t2_bbbb [aᵥ, dᵥ, lₒ, mₒ], t2_bbbb [bᵥ, cᵥ, kₒ, nₒ]], [(1, [aᵥ, bᵥ, cᵥ, dᵥ, iₒ, jₒ, kₒ, lₒ]), (-1, [aᵥ, bᵥ, cᵥ, dᵥ, iₒ, jₒ, lₒ, kₒ])]⟩,
  -- line 6241: mnef,eaml,fbjk,cdin->abcdijkl
  ⟨1, [g_abab [mₒ, nₒ, eᵥ, fᵥ], t2_abab [eᵥ, aᵥ, mₒ, lₒ], t2_bbbb [fᵥ, bᵥ, jₒ, kₒ], t2_bbbb [cᵥ, dᵥ, iₒ, nₒ]], [(1, [aᵥ, bᵥ, cᵥ, dᵥ, iₒ, jₒ, kₒ, lₒ]), (-1, [aᵥ, bᵥ, cᵥ, dᵥ, jₒ, iₒ, kₒ, lₒ]), (-1, [aᵥ, cᵥ, bᵥ, dᵥ, iₒ, jₒ, kₒ, lₒ]), (1, [aᵥ, cᵥ, bᵥ, dᵥ, jₒ, iₒ, kₒ, lₒ])]⟩,
  -- line 6245: nmef,ealm,fbjk,cdin->abcdijkl
  ⟨1, [g_bbbb [nₒ, mₒ, eᵥ, fᵥ], t2_bbbb [eᵥ, aᵥ, lₒ, mₒ], t2_bbbb [fᵥ, bᵥ, jₒ, kₒ], t2_bbbb [cᵥ, dᵥ, iₒ, nₒ]], [(1, [aᵥ, bᵥ, cᵥ, dᵥ, iₒ, jₒ, kₒ, lₒ]), (-1, [aᵥ, bᵥ, cᵥ, dᵥ, jₒ, iₒ, kₒ, lₒ]), (-1, [aᵥ, cᵥ, bᵥ, dᵥ, iₒ, jₒ, kₒ, lₒ]), (1, [aᵥ, cᵥ, bᵥ, dᵥ, jₒ, iₒ, kₒ, lₒ])]⟩,
  -- line 6249: mnef,eaml,fbij,cdkn->abcdijkl
  ⟨1, [g_abab [mₒ, nₒ, eᵥ, fᵥ], t2_abab [eᵥ, aᵥ, mₒ, lₒ], t2_bbbb [fᵥ, bᵥ, iₒ, jₒ], t2_bbbb [cᵥ, dᵥ, kₒ, nₒ]], [(1, [aᵥ, bᵥ, cᵥ, dᵥ, iₒ, jₒ, kₒ, lₒ]), (-1, [aᵥ, bᵥ, cᵥ, dᵥ, iₒ, jₒ, lₒ, kₒ]), (-1, [aᵥ, cᵥ, bᵥ, dᵥ, iₒ, jₒ, kₒ, lₒ]), (1, [aᵥ, cᵥ, bᵥ, dᵥ, iₒ, jₒ, lₒ, kₒ])]⟩
  ]

/-- Part 4 of `ccdq_t4_bbbbbbbb`. -/
def ccdq_t4_bbbbbbbb_4 : Prog := [
  -- line 6253: nmef,ealm,fbij,cdkn->abcdijkl
  ⟨1, [g_bbbb [nₒ, mₒ, eᵥ, fᵥ], t2_bbbb [eᵥ, aᵥ, lₒ, mₒ], t2_bbbb [fᵥ, bᵥ, iₒ, jₒ], t2_bbbb [cᵥ, dᵥ, kₒ, nₒ]], [(1, [aᵥ, bᵥ, cᵥ, dᵥ, iₒ, jₒ, kₒ, lₒ]), (-1, [aᵥ, bᵥ, cᵥ, dᵥ, iₒ, jₒ, lₒ, kₒ]), (-1, [aᵥ, cᵥ, bᵥ, dᵥ, iₒ, jₒ, kₒ, lₒ]), (1, [aᵥ, cᵥ, bᵥ, dᵥ, iₒ, jₒ, lₒ, kₒ])]⟩,
  -- line 6257: mnef,eaml,fdjk,bcin->abcdijkl
  ⟨1, [g_abab [mₒ, nₒ, eᵥ, fᵥ], t2_abab [eᵥ, aᵥ, mₒ, lₒ], t2_bbbb [fᵥ, dᵥ, jₒ, kₒ], t2_bbbb [bᵥ, cᵥ, iₒ, nₒ]], [(1, [aᵥ, bᵥ, cᵥ, dᵥ, iₒ, jₒ, kₒ, lₒ]), (-1, [aᵥ, bᵥ, cᵥ, dᵥ, jₒ, iₒ, kₒ, lₒ]), (-1, [bᵥ, aᵥ, cᵥ, dᵥ, iₒ, jₒ, kₒ, lₒ]), (1, [bᵥ, aᵥ, cᵥ, dᵥ, jₒ, iₒ, kₒ, lₒ])]⟩,
  -- line 6261: nmef,ealm,fdjk,bcin->abcdijkl
  ⟨1, [g_bbbb [nₒ, mₒ, eᵥ, fᵥ], t2_bbbb [eᵥ, aᵥ, lₒ, mₒ], t2_bbbb [fᵥ, dᵥ, jₒ, kₒ], t2_bbbb [bᵥ, cᵥ, iₒ, nₒ]], [(1, [aᵥ, bᵥ, cᵥ, dᵥ, iₒ, jₒ, kₒ, lₒ]), (-1, [aᵥ, bᵥ, cᵥ, dᵥ, jₒ, iₒ, kₒ, lₒ]), (-1, [bᵥ, aᵥ, cᵥ, dᵥ, iₒ, jₒ, kₒ, lₒ]), (1, [bᵥ, aᵥ, cᵥ, dᵥ, jₒ, iₒ, kₒ, lₒ])]⟩,
  -- line 6265: mnef,eaml,fdij,bckn->abcdijkl
  ⟨1, [g_abab [mₒ, nₒ, eᵥ, fᵥ], t2_abab [eᵥ, aᵥ, mₒ, lₒ], t2_bbbb [fᵥ, dᵥ, iₒ, jₒ], t2_bbbb [bᵥ, cᵥ, kₒ, nₒ]], [(1, [aᵥ, bᵥ, cᵥ, dᵥ, iₒ, jₒ, kₒ, lₒ]), (-1, [aᵥ, bᵥ, cᵥ, dᵥ, iₒ, jₒ, lₒ, kₒ]), (-1, [bᵥ, aᵥ, cᵥ, dᵥ, iₒ, jₒ, kₒ, lₒ]), (1, [bᵥ, aᵥ, cᵥ, dᵥ, iₒ, jₒ, lₒ, kₒ])]⟩,
  -- line 6269: nmef,ealm,fdij,bckn->abcdijkl
  ⟨1, [g_bbbb [nₒ, mₒ, eᵥ, fᵥ], t2_bbbb [eᵥ, aᵥ, lₒ, mₒ], t2_bbbb [fᵥ, dᵥ, iₒ, jₒ], t2_bbbb [bᵥ, cᵥ, kₒ, nₒ]], [(1, [aᵥ, bᵥ, cᵥ, dᵥ, iₒ, jₒ, kₒ, lₒ]), (-1, [aᵥ, bᵥ, cᵥ, dᵥ, iₒ, jₒ, lₒ, kₒ]), (-1, [bᵥ, aᵥ, cᵥ, dᵥ, iₒ, jₒ, kₒ, lₒ]), (1, [bᵥ, aᵥ, cᵥ, dᵥ, iₒ, jₒ, lₒ, kₒ])]⟩,
  -- line 6273: mnef,eamk,fbjl,cdin->abcdijkl
  ⟨-1, [g_abab [mₒ, nₒ, eᵥ, fᵥ], t2_abab [eᵥ, aᵥ, mₒ, kₒ], t2_bbbb [fᵥ, bᵥ, jₒ, lₒ], t2_bbbb [cᵥ, dᵥ, iₒ, nₒ]], [(1, [aᵥ, bᵥ, cᵥ, dᵥ, iₒ, jₒ, kₒ, lₒ]), (-1, [aᵥ, bᵥ, cᵥ, dᵥ, jₒ, iₒ, kₒ, lₒ]), (-1, [aᵥ, cᵥ, bᵥ, dᵥ, iₒ, jₒ, kₒ, lₒ]), (1, [aᵥ, cᵥ, bᵥ, dᵥ, jₒ, iₒ, kₒ, lₒ])]⟩,
  -- line 6277: nmef,eakm,fbjl,cdin->abcdijkl
  ⟨-1, [g_bbbb [nₒ, mₒ, eᵥ, fᵥ], t2_bbbb [eᵥ, aᵥ, kₒ, mₒ], t2_bbbb [fᵥ, bᵥ, jₒ, lₒ], t2_bbbb [cᵥ, dᵥ, iₒ, nₒ]], [(1, [aᵥ, bᵥ, cᵥ, dᵥ, iₒ, jₒ, kₒ, lₒ]), (-1, [aᵥ, bᵥ, cᵥ, dᵥ, jₒ, iₒ, kₒ, lₒ]), (-1, [aᵥ, cᵥ, bᵥ, dᵥ, iₒ, jₒ, kₒ, lₒ]), (1, [aᵥ, cᵥ, bᵥ, dᵥ, jₒ, iₒ, kₒ, lₒ])]⟩,
  -- line 6281: mnef,eamk,fdjl,bcin->abcdijkl
  ⟨-1, [g_abab [mₒ, nₒ, eᵥ, fᵥ], t2_abab [eᵥ, aᵥ, mₒ, kₒ], t2_bbbb [fᵥ, dᵥ, jₒ, lₒ], t2_bbbb [bᵥ, cᵥ, iₒ, nₒ]], [(1, [aᵥ, bᵥ, cᵥ, dᵥ, iₒ, jₒ, kₒ, lₒ]), (-1, [aᵥ, bᵥ, cᵥ, dᵥ, jₒ, iₒ, kₒ, lₒ]), (-1, [bᵥ, aᵥ, cᵥ, dᵥ, iₒ, jₒ, kₒ, lₒ]), (1, [bᵥ, aᵥ, cᵥ, dᵥ, jₒ, iₒ, kₒ, lₒ])]⟩,
  -- line 6285: nmef,eakm,fdjl,bcin->abcdijkl
  ⟨-1, [g_bbbb [nₒ, mₒ, eᵥ, fᵥ], t2_bbbb [eᵥ, aᵥ, kₒ, mₒ], t2_bbbb [fᵥ, dᵥ, jₒ, lₒ], t2_bbbb [bᵥ, cᵥ, iₒ, nₒ]], [(1, [aᵥ, bᵥ, cᵥ, dᵥ, iₒ, jₒ, kₒ, lₒ]), (-1, [aᵥ, bᵥ, cᵥ, dᵥ, jₒ, iₒ, kₒ, lₒ]), (-1, [bᵥ, aᵥ, cᵥ, dᵥ, iₒ, jₒ, kₒ, lₒ]), (1, [bᵥ, aᵥ, cᵥ, dᵥ, jₒ, iₒ, kₒ, lₒ])]⟩,
  -- line 6289: mnef,eamj,fbkl,cdin->abcdijkl
  ⟨1, [g_abab [mₒ, nₒ, eᵥ, fᵥ], t2_abab [eᵥ, aᵥ, mₒ, jₒ], t2_bbbb [fᵥ, bᵥ, kₒ, lₒ], t2_bbbb [cᵥ, dᵥ, iₒ, nₒ]], [(1, [aᵥ, bᵥ, cᵥ, dᵥ, iₒ, jₒ, kₒ, lₒ]), (-1, [aᵥ, bᵥ, cᵥ, dᵥ, kₒ, jₒ, iₒ, lₒ]), (-1, [aᵥ, cᵥ, bᵥ, dᵥ, iₒ, jₒ, kₒ, lₒ]), (1, [aᵥ, cᵥ, bᵥ, dᵥ, kₒ, jₒ, iₒ, lₒ])]⟩,
  -- line 6293: nmef,eajm,fbkl,cdin->abcdijkl
  ⟨1, [g_bbbb [nₒ, mₒ, eᵥ, fᵥ], t2_bbbb [eᵥ, aᵥ, jₒ, mₒ], t2_bbbb [fᵥ, bᵥ, kₒ, lₒ], t2_bbbb [cᵥ, dᵥ, iₒ, nₒ]], [(1, [aᵥ, bᵥ, cᵥ, dᵥ, iₒ, jₒ, kₒ, lₒ]), (-1, [aᵥ, bᵥ, cᵥ, dᵥ, kₒ, jₒ, iₒ, lₒ]), (-1, [aᵥ, cᵥ, bᵥ, dᵥ, iₒ, jₒ, kₒ, lₒ]), (1, [aᵥ, cᵥ, bᵥ, dᵥ, kₒ, jₒ, iₒ, lₒ])]⟩,
  -- line 6297: mnef,eamj,fbik,cdln->abcdijkl
  ⟨1, [g_abab [mₒ, nₒ, eᵥ, fᵥ], t2_abab [eᵥ, aᵥ, mₒ, jₒ], t2_bbbb [fᵥ, bᵥ, iₒ, kₒ], t2_bbbb [cᵥ, dᵥ, lₒ, nₒ]], [(1, [aᵥ, bᵥ, cᵥ, dᵥ, iₒ, jₒ, kₒ, lₒ]), (-1, [aᵥ, bᵥ, cᵥ, dᵥ, jₒ, iₒ, kₒ, lₒ]), (-1, [aᵥ, cᵥ, bᵥ, dᵥ, iₒ, jₒ, kₒ, lₒ]), (1, [aᵥ, cᵥ, bᵥ, dᵥ, jₒ, iₒ, kₒ, lₒ])]⟩,
  -- line 6301: nmef,eajm,fbik,cdln->abcdijkl
  ⟨1, [g_bbbb [nₒ, mₒ, eᵥ, fᵥ], t2_bbbb [eᵥ, aᵥ, jₒ, mₒ], t2_bbbb [fᵥ, bᵥ, iₒ, kₒ], t2_bbbb [cᵥ, dᵥ, lₒ, nₒ]], [(1, [aᵥ, bᵥ, cᵥ, dᵥ, iₒ, jₒ, kₒ, lₒ]), (-1, [aᵥ, bᵥ, cᵥ, dᵥ, jₒ, iₒ, kₒ, lₒ]), (-1, [aᵥ, cᵥ, bᵥ, dᵥ, iₒ, jₒ, kₒ, lₒ]), (1, [aᵥ, cᵥ, bᵥ, dᵥ, jₒ, iₒ, kₒ, lₒ])]⟩,
  -- line 6305: mnef,eamj,fdkl,bcin->abcdijkl
  ⟨1, [g_abab [mₒ, nₒ, eᵥ, fᵥ], t2_abab [eᵥ, aᵥ, mₒ, jₒ], t2_bbbb [fᵥ, dᵥ, kₒ, lₒ], t2_bbbb [bᵥ, cᵥ, iₒ, nₒ]], [(1, [aᵥ, bᵥ, cᵥ, dᵥ, iₒ, jₒ, kₒ, lₒ]), (-1, [aᵥ, bᵥ, cᵥ, dᵥ, kₒ, jₒ, iₒ, lₒ]), (-1, [bᵥ, aᵥ, cᵥ, dᵥ, iₒ, jₒ, kₒ, lₒ]), (1, [bᵥ, aᵥ, cᵥ, dᵥ, kₒ, jₒ, iₒ, lₒ])]⟩,
  -- line 6309: nmef,eajm,fdkl,bcin->abcdijkl
  ⟨1, [g_bbbb [nₒ, mₒ, eᵥ, fᵥ], t2_bbbb [eᵥ, aᵥ, jₒ, mₒ], t2_bbbb [fᵥ, dᵥ, kₒ, lₒ], t2_bbbb [bᵥ, cᵥ, iₒ, nₒ]], [(1, [aᵥ, bᵥ, cᵥ, dᵥ, iₒ, jₒ, kₒ, lₒ]), (-1, [aᵥ, bᵥ, cᵥ, dᵥ, kₒ, jₒ, iₒ, lₒ]), (-1, [bᵥ, aᵥ, cᵥ, dᵥ, iₒ, jₒ, kₒ, lₒ]), (1, [bᵥ, aᵥ, cᵥ, dᵥ, kₒ, jₒ, iₒ, lₒ])]⟩,
  -- line 6313: mnef,eamj,fdik,bcln->abcdijkl
  ⟨1, [g_abab [mₒ, nₒ, eᵥ, fᵥ], t2_abab [eᵥ, aᵥ, mₒ, jₒ], t2_bbbb [fᵥ, dᵥ, iₒ, kₒ], t2_bbbb [bᵥ, cᵥ, lₒ, nₒ]], [(1, [aᵥ, bᵥ, cᵥ, dᵥ, iₒ, jₒ, kₒ, lₒ]), (-1, [aᵥ, bᵥ, cᵥ, dᵥ, jₒ, iₒ, kₒ, lₒ]), (-1, [bᵥ, aᵥ, cᵥ, dᵥ, iₒ, jₒ, kₒ, lₒ]), (1, [bᵥ, aᵥ, cᵥ, dᵥ, jₒ, iₒ, kₒ, lₒ])]⟩,
  -- line 6317: nmef,eajm,fdik,bcln->abcdijkl
  ⟨1, [g_bbbb [nₒ, mₒ, eᵥ, fᵥ], t2_bbbb [eᵥ, aᵥ, jₒ, mₒ], t2_bbbb [fᵥ, dᵥ, iₒ, kₒ], t2_bbbb [bᵥ, cᵥ, lₒ, nₒ]], [(1, [aᵥ, bᵥ, cᵥ, dᵥ, iₒ, jₒ, kₒ, lₒ]), (-1, [aᵥ, bᵥ, cᵥ, dᵥ, jₒ, iₒ, kₒ, lₒ]), (-1, [bᵥ, aᵥ, cᵥ, dᵥ, iₒ, jₒ, kₒ, lₒ]), (1, [bᵥ, aᵥ, cᵥ, dᵥ, jₒ, iₒ, kₒ, lₒ])]⟩,
  -- line 6321: mnef,eami,fbkl,cdjn->abcdijkl
  ⟨-1, [g_abab [mₒ, nₒ, eᵥ, fᵥ], t2_abab [eᵥ, aᵥ, mₒ, iₒ], t2_bbbb [fᵥ, bᵥ, kₒ, lₒ], t2_bbbb [cᵥ, dᵥ, jₒ, nₒ]], [(1, [aᵥ, bᵥ, cᵥ, dᵥ, iₒ, jₒ, kₒ, lₒ]), (-1, [aᵥ, bᵥ, cᵥ, dᵥ, iₒ, kₒ, jₒ, lₒ]), (-1, [aᵥ, cᵥ, bᵥ, dᵥ, iₒ, jₒ, kₒ, lₒ]), (1, [aᵥ, cᵥ, bᵥ, dᵥ, iₒ, kₒ, jₒ, lₒ])]⟩,
  -- line 6325: nmef,eaim,fbkl,cdjn->abcdijkl
  ⟨-1, [g_bbbb [nₒ, mₒ, eᵥ, fᵥ], t2_bbbb [eᵥ, aᵥ, iₒ, mₒ], t2_bbbb [fᵥ, bᵥ, kₒ, lₒ], t2_bbbb [cᵥ, dᵥ, jₒ, nₒ]], [(1, [aᵥ, bᵥ, cᵥ, dᵥ, iₒ, jₒ, kₒ, lₒ]), (-1, [aᵥ, bᵥ, cᵥ, dᵥ, iₒ, kₒ, jₒ, lₒ]), (-1, [aᵥ, cᵥ, bᵥ, dᵥ, iₒ, jₒ, kₒ, lₒ]), (1, [aᵥ, cᵥ, bᵥ, dᵥ, iₒ, kₒ, jₒ, lₒ])]⟩,
  -- line 6329: mnef,eami,fdkl,bcjn->abcdijkl
  ⟨-1, [g_abab [mₒ, nₒ, eᵥ, fᵥ], t2_abab [eᵥ, aᵥ, mₒ, iₒ], t2_bbbb [fᵥ, dᵥ, kₒ, lₒ], t2_bbbb [bᵥ, cᵥ, jₒ, nₒ]], [(1, [aᵥ, bᵥ, cᵥ, dᵥ, iₒ, jₒ, kₒ, lₒ]), (-1, [aᵥ, bᵥ, cᵥ, dᵥ, iₒ, kₒ, jₒ, lₒ]), (-1, [bᵥ, aᵥ, cᵥ, dᵥ, iₒ, jₒ, kₒ, lₒ]), (1, [bᵥ, aᵥ, cᵥ, dᵥ, iₒ, kₒ, jₒ, lₒ])]⟩,
  -- line 6333: nmef,eaim,fdkl,bcjn->abcdijkl
  ⟨-1, [g_bbbb [nₒ, mₒ, eᵥ, fᵥ], t2_bbbb [eᵥ, aᵥ, iₒ, mₒ], t2_bbbb [fᵥ, dᵥ, kₒ, lₒ], t2_bbbb [bᵥ, cᵥ, jₒ, nₒ]], [(1, [aᵥ, bᵥ, cᵥ, dᵥ, iₒ, jₒ, kₒ, lₒ]), (-1, [aᵥ, bᵥ, cᵥ, dᵥ, iₒ, kₒ, jₒ, lₒ]), (-1, [bᵥ, aᵥ, cᵥ, dᵥ, iₒ, jₒ, kₒ, lₒ]), (1, [bᵥ, aᵥ, cᵥ, dᵥ, iₒ, kₒ, jₒ, lₒ])]⟩,
  -- line 6337: mnfe,eakl,fbmj,cdin->abcdijkl
  ⟨-1, [g_abab [mₒ, nₒ, fᵥ, eᵥ], t2_bbbb [eᵥ, aᵥ, kₒ, lₒ], t2_abab [fᵥ, bᵥ, mₒ, jₒ], t2_bbbb [cᵥ, dᵥ, iₒ, nₒ]], [(1, [aᵥ, bᵥ, cᵥ, dᵥ, iₒ, jₒ, kₒ, lₒ]), (-1, [aᵥ, bᵥ, cᵥ, dᵥ, jₒ, iₒ, kₒ, lₒ]), (-1, [aᵥ, cᵥ, bᵥ, dᵥ, iₒ, jₒ, kₒ, lₒ]), (1, [aᵥ, cᵥ, bᵥ, dᵥ, jₒ, iₒ, kₒ, lₒ])]⟩,
  -- line 6341: nmef,eakl,fbjm,cdin->abcdijkl
  ⟨1, [g_bbbb [nₒ, mₒ, eᵥ, fᵥ], t2_bbbb [eᵥ, aᵥ, kₒ, lₒ], t2_bbbb [fᵥ, bᵥ, jₒ, mₒ], t2_bbbb [cᵥ, dᵥ, iₒ, nₒ]], [(1, [aᵥ, bᵥ, cᵥ, dᵥ, iₒ, jₒ, kₒ, lₒ]), (-1, [aᵥ, bᵥ, cᵥ, dᵥ, jₒ, iₒ, kₒ, lₒ]), (-1, [aᵥ, cᵥ, bᵥ, dᵥ, iₒ, jₒ, kₒ, lₒ]), (1, [aᵥ, cᵥ, bᵥ, dᵥ, jₒ, iₒ, kₒ, lₒ])]⟩,
  -- line 6345: nmef,eakl,fbij,cdnm->abcdijkl
  ⟨-1/2, [g_bbbb [nₒ, mₒ, eᵥ, fᵥ], t2_bbbb [eᵥ, aᵥ, kₒ, lₒ], t2_bbbb [fᵥ, bᵥ, iₒ, jₒ], t2_bbbb [cᵥ, dᵥ, nₒ, mₒ]], [(1, [aᵥ, bᵥ, cᵥ, dᵥ, iₒ, jₒ, kₒ, lₒ]), (-1, [aᵥ, bᵥ, cᵥ, dᵥ, iₒ, kₒ, jₒ, lₒ]), (-1, [aᵥ, cᵥ, bᵥ, dᵥ, iₒ, jₒ, kₒ, lₒ]), (1, [aᵥ, cᵥ, bᵥ, dᵥ, iₒ, kₒ, jₒ, lₒ])]⟩,
  -- line 6349: mnfe,eakl,fdmj,bcin->abcdijkl
  ⟨-1, [g_abab [mₒ, nₒ, fᵥ, eᵥ], t2_bbbb [eᵥ, aᵥ, kₒ, lₒ], t2_abab [fᵥ, dᵥ, mₒ, jₒ], t2_bbbb [bᵥ, cᵥ, iₒ, nₒ]], [(1, [aᵥ, bᵥ, cᵥ, dᵥ, iₒ, jₒ, kₒ, lₒ]), (-1, [aᵥ, bᵥ, cᵥ, dᵥ, jₒ, iₒ, kₒ, lₒ]), (-1, [bᵥ, aᵥ, cᵥ, dᵥ, iₒ, jₒ, kₒ, lₒ]), (1, [bᵥ, aᵥ, cᵥ, dᵥ, jₒ, iₒ, kₒ, lₒ])]⟩,
  -- line 6353: nmef,eakl,fdjm,bcin->abcdijkl
  ⟨1, [g_bbbb [nₒ, mₒ, eᵥ, fᵥ], t2_bbbb [eᵥ, aᵥ, kₒ, lₒ], t2_bbbb [fᵥ, dᵥ, jₒ, mₒ], t2_bbbb [bᵥ, cᵥ, iₒ, nₒ]], [(1, [aᵥ, bᵥ, cᵥ, dᵥ, iₒ, jₒ, kₒ, lₒ]), (-1, [aᵥ, bᵥ, cᵥ, dᵥ, jₒ, iₒ, kₒ, lₒ]), (-1, [bᵥ, aᵥ, cᵥ, dᵥ, iₒ, jₒ, kₒ, lₒ]), (1, [bᵥ, aᵥ, cᵥ, dᵥ, jₒ, iₒ, kₒ, lₒ])]⟩,
  -- line 6357: nmef,eakl,fdij,bcnm->abcdijkl
  ⟨-1/2, [g_bbbb [nₒ, mₒ, eᵥ, fᵥ], t2_bbbb [eᵥ, aᵥ, kₒ, lₒ], t2_bbbb [fᵥ, dᵥ, iₒ, jₒ], t2_bbbb [bᵥ, cᵥ, nₒ, mₒ]], [(1, [aᵥ, bᵥ, cᵥ, dᵥ, iₒ, jₒ, kₒ, lₒ]), (-1, [aᵥ, bᵥ, cᵥ, dᵥ, iₒ, kₒ, jₒ, lₒ]), (-1, [bᵥ, aᵥ, cᵥ, dᵥ, iₒ, jₒ, kₒ, lₒ]), (1, [bᵥ, aᵥ, cᵥ, dᵥ, iₒ, kₒ, jₒ, lₒ])]⟩,
  -- line 6361: mnfe,eajl,fbmk,cdin->abcdijkl
  ⟨1, [g_abab [mₒ, nₒ, fᵥ, eᵥ], t2_bbbb [eᵥ, aᵥ, jₒ, lₒ], t2_abab [fᵥ, bᵥ, mₒ, kₒ], t2_bbbb [cᵥ, dᵥ, iₒ, nₒ]], [(1, [aᵥ, bᵥ, cᵥ, dᵥ, iₒ, jₒ, kₒ, lₒ]), (-1, [aᵥ, bᵥ, cᵥ, dᵥ, kₒ, jₒ, iₒ, lₒ]), (-1, [aᵥ, cᵥ, bᵥ, dᵥ, iₒ, jₒ, kₒ, lₒ]), (1, [aᵥ, cᵥ, bᵥ, dᵥ, kₒ, jₒ, iₒ, lₒ])]⟩,
  -- line 6365: nmef,eajl,fbkm,cdin->abcdijkl
  ⟨-1, [g_bbbb [nₒ, mₒ, eᵥ, fᵥ], t2_bbbb [eᵥ, aᵥ, jₒ, lₒ], t2_bbbb [fᵥ, bᵥ, kₒ, mₒ], t2_bbbb [cᵥ, dᵥ, iₒ, nₒ]], [(1, [aᵥ, bᵥ, cᵥ, dᵥ, iₒ, jₒ, kₒ, lₒ]), (-1, [aᵥ, bᵥ, cᵥ, dᵥ, kₒ, jₒ, iₒ, lₒ]), (-1, [aᵥ, cᵥ, bᵥ, dᵥ, iₒ, jₒ, kₒ, lₒ]), (1, [aᵥ, cᵥ, bᵥ, dᵥ, kₒ, jₒ, iₒ, lₒ])]⟩,
  -- line 6369: mnfe,eajl,fdmk,bcin->abcdijkl
  ⟨1, [g_abab [mₒ, nₒ, fᵥ, eᵥ], t2_bbbb [eᵥ, aᵥ, jₒ, lₒ], t2_abab [fᵥ, dᵥ, mₒ, kₒ], t2_bbbb [bᵥ, cᵥ, iₒ, nₒ]], [(1, [aᵥ, bᵥ, cᵥ, dᵥ, iₒ, jₒ, kₒ, lₒ]), (-1, [aᵥ, bᵥ, cᵥ, dᵥ, kₒ, jₒ, iₒ, lₒ]), (-1, [bᵥ, aᵥ, cᵥ, dᵥ, iₒ, jₒ, kₒ, lₒ]), (1, [bᵥ, aᵥ, cᵥ, dᵥ, kₒ, jₒ, iₒ, lₒ])]⟩,
  -- line 6373: nmef,eajl,fdkm,bcin->abcdijkl
  ⟨-1, [g_bbbb [nₒ, mₒ, eᵥ, fᵥ], t2_bbbb [eᵥ, aᵥ, jₒ, lₒ], t2_bbbb [fᵥ, dᵥ, kₒ, mₒ], t2_bbbb [bᵥ, cᵥ, iₒ, nₒ]], [(1, [aᵥ, bᵥ, cᵥ, dᵥ, iₒ, jₒ, kₒ, lₒ]), (-1, [aᵥ, bᵥ, cᵥ, dᵥ, kₒ, jₒ, iₒ, lₒ]), (-1, [bᵥ, aᵥ, cᵥ, dᵥ, iₒ, jₒ, kₒ, lₒ]), (1, [bᵥ, aᵥ, cᵥ, dᵥ, kₒ, jₒ, iₒ, lₒ])]⟩,
  -- line 6377: mnfe,eail,fbmk,cdjn->abcdijkl
  ⟨-1, [g_abab [mₒ, nₒ, fᵥ, eᵥ], t2_bbbb [eᵥ, aᵥ, iₒ, lₒ], t2_abab [fᵥ, bᵥ, mₒ, kₒ], t2_bbbb [cᵥ, dᵥ, jₒ, nₒ]], [(1, [aᵥ, bᵥ, cᵥ, dᵥ, iₒ, jₒ, kₒ, lₒ]), (-1, [aᵥ, bᵥ, cᵥ, dᵥ, iₒ, kₒ, jₒ, lₒ]), (-1, [aᵥ, cᵥ, bᵥ, dᵥ, iₒ, jₒ, kₒ, lₒ]), (1, [aᵥ, cᵥ, bᵥ, dᵥ, iₒ, kₒ, jₒ, lₒ])]⟩,
  -- line 6381: nmef,eail,fbkm,cdjn->abcdijkl
  ⟨1, [g_bbbb [nₒ, mₒ, eᵥ, fᵥ], t2_bbbb [eᵥ, aᵥ, iₒ, lₒ], t2_bbbb [fᵥ, bᵥ, kₒ, mₒ], t2_bbbb [cᵥ, dᵥ, jₒ, nₒ]], [(1, [aᵥ, bᵥ, cᵥ, dᵥ, iₒ, jₒ, kₒ, lₒ]), (-1, [aᵥ, bᵥ, cᵥ, dᵥ, iₒ, kₒ, jₒ, lₒ]), (-1, [aᵥ, cᵥ, bᵥ, dᵥ, iₒ, jₒ, kₒ, lₒ]), (1, [aᵥ, cᵥ, bᵥ, dᵥ, iₒ, kₒ, jₒ, lₒ])]⟩,
  -- line 6385: nmef,eail,fbjk,cdnm->abcdijkl
  ⟨-1/2, [g_bbbb [nₒ, mₒ, eᵥ, fᵥ], t2_bbbb [eᵥ, aᵥ, iₒ, lₒ], t2_bbbb [fᵥ, bᵥ, jₒ, kₒ], t2_bbbb [cᵥ, dᵥ, nₒ, mₒ]], [(1, [aᵥ, bᵥ, cᵥ, dᵥ, iₒ, jₒ, kₒ, lₒ]), (-1, [aᵥ, bᵥ, cᵥ, dᵥ, iₒ, jₒ, lₒ, kₒ]), (-1, [aᵥ, cᵥ, bᵥ, dᵥ, iₒ, jₒ, kₒ, lₒ]), (1, [aᵥ, cᵥ, bᵥ, dᵥ, iₒ, jₒ, lₒ, kₒ])]⟩,
  -- line 6389: mnfe,eail,fdmk,bcjn->abcdijkl
  ⟨-1, [g_abab [mₒ, nₒ, fᵥ, eᵥ], t2_bbbb [eᵥ, aᵥ, iₒ, lₒ], t2_abab [fᵥ, dᵥ, mₒ, kₒ], t2_bbbb [bᵥ, cᵥ, jₒ, nₒ]], [(1, [aᵥ, bᵥ, cᵥ, dᵥ, iₒ, jₒ, kₒ, lₒ]), (-1, [aᵥ, bᵥ, cᵥ, dᵥ, iₒ, kₒ, jₒ, lₒ]), (-1, [bᵥ, aᵥ, cᵥ, dᵥ, iₒ, jₒ, kₒ, lₒ]), (1, [bᵥ, aᵥ, cᵥ, dᵥ, iₒ, kₒ, jₒ, lₒ])]⟩,
  -- line 6393: nmef,eail,fdkm,bcjn->abcdijkl
  ⟨1, [g_bbbb [nₒ, mₒ, eᵥ, fᵥ], t2_bbbb [eᵥ, aᵥ, iₒ, lₒ], t2_bbbb [fᵥ, dᵥ, kₒ, mₒ], t2_bbbb [bᵥ, cᵥ, jₒ, nₒ]], [(1, [aᵥ, bᵥ, cᵥ, dᵥ, iₒ, jₒ, kₒ, lₒ]), (-1, [aᵥ, bᵥ, cᵥ, dᵥ, iₒ, kₒ, jₒ, lₒ]), (-1, [bᵥ, aᵥ, cᵥ, dᵥ, iₒ, jₒ, kₒ, lₒ]), (1, [bᵥ, aᵥ, cᵥ, dᵥ, iₒ, kₒ, jₒ, lₒ])]⟩,
  -- line 6397: nmef,eail,fdjk,bcnm->abcdijkl
  ⟨-1/2, [g_bbbb [nₒ, mₒ, eᵥ, fᵥ], t2_bbbb [eᵥ, aᵥ, iₒ, lₒ], t2_bbbb [fᵥ, dᵥ, jₒ, kₒ], t2_bbbb [bᵥ, cᵥ, nₒ, mₒ]], [(1, [aᵥ, bᵥ, cᵥ, dᵥ, iₒ, jₒ, kₒ, lₒ]), (-1, [aᵥ, bᵥ, cᵥ, dᵥ, iₒ, jₒ, lₒ, kₒ]), (-1, [bᵥ, aᵥ, cᵥ, dᵥ, iₒ, jₒ, kₒ, lₒ]), (1, [bᵥ, aᵥ, cᵥ, dᵥ, iₒ, jₒ, lₒ, kₒ])]⟩,
  -- line 6401: mnfe,eajk,fbml,cdin->abcdijkl
  ⟨-1, [g_abab [mₒ, nₒ, fᵥ, eᵥ], t2_bbbb [eᵥ, aᵥ, jₒ, kₒ], t2_abab [fᵥ, bᵥ, mₒ, lₒ], t2_bbbb [cᵥ, dᵥ, iₒ, nₒ]], [(1, [aᵥ, bᵥ, cᵥ, dᵥ, iₒ, jₒ, kₒ, lₒ]), (-1, [aᵥ, bᵥ, cᵥ, dᵥ, lₒ, jₒ, kₒ, iₒ]), (-1, [aᵥ, cᵥ, bᵥ, dᵥ, iₒ, jₒ, kₒ, lₒ]), (1, [aᵥ, cᵥ, bᵥ, dᵥ, lₒ, jₒ, kₒ, iₒ])]⟩,
  -- line 6405: nmef,eajk,fblm,cdin->abcdijkl
  ⟨1, [g_bbbb [nₒ, mₒ, eᵥ, fᵥ], t2_bbbb [eᵥ, aᵥ, jₒ, kₒ], t2_bbbb [fᵥ, bᵥ, lₒ, mₒ], t2_bbbb [cᵥ, dᵥ, iₒ, nₒ]], [(1, [aᵥ, bᵥ, cᵥ, dᵥ, iₒ, jₒ, kₒ, lₒ]), (-1, [aᵥ, bᵥ, cᵥ, dᵥ, lₒ, jₒ, kₒ, iₒ]), (-1, [aᵥ, cᵥ, bᵥ, dᵥ, iₒ, jₒ, kₒ, lₒ]), (1, [aᵥ, cᵥ, bᵥ, dᵥ, lₒ, jₒ, kₒ, iₒ])]⟩,
  -- line 6409: nmef,eajk,fbil,cdnm->abcdijkl
  ⟨-1/2, [g_bbbb [nₒ, mₒ, eᵥ, fᵥ], t2_bbbb [eᵥ, aᵥ, jₒ, kₒ], t2_bbbb [fᵥ, bᵥ, iₒ, lₒ], t2_bbbb [cᵥ, dᵥ, nₒ, mₒ]], [(1, [aᵥ, bᵥ, cᵥ, dᵥ, iₒ, jₒ, kₒ, lₒ]), (-1, [aᵥ, bᵥ, cᵥ, dᵥ, kₒ, jₒ, iₒ, lₒ]), (-1, [aᵥ, cᵥ, bᵥ, dᵥ, iₒ, jₒ, kₒ, lₒ]), (1, [aᵥ, cᵥ, bᵥ, dᵥ, kₒ, jₒ, iₒ, lₒ])]⟩
  ]

/-- Part 5 of `ccdq_t4_bbbbbbbb`. -/
def ccdq_t4_bbbbbbbb_5 : Prog := [
  -- line 6413: mnfe,eajk,fdml,bcin->abcdijkl
  ⟨-1, [g_abab [mₒ, nₒ, fᵥ, eᵥ], t2_bbbb [eᵥ, aᵥ, jₒ, kₒ], t2_abab [fᵥ, dᵥ, mₒ, lₒ], t2_bbbb [bᵥ, cᵥ, iₒ, nₒ]], [(1, [aᵥ, bᵥ, cᵥ, dᵥ, iₒ, jₒ, kₒ, lₒ]), (-1, [aᵥ, bᵥ, cᵥ, dᵥ, lₒ, jₒ, kₒ, iₒ]), (-1, [bᵥ, aᵥ, cᵥ, dᵥ, iₒ, jₒ, kₒ, lₒ]), (1, [bᵥ, aᵥ, cᵥ, dᵥ, lₒ, jₒ, kₒ, iₒ])]⟩,
  -- line 6417: nmef,eajk,fdlm,bcin->abcdijkl
  ⟨1, [g_bbbb [nₒ, mₒ, eᵥ, fᵥ], t2_bbbb [eᵥ, aᵥ, jₒ, kₒ], t2_bbbb [fᵥ, dᵥ, lₒ, mₒ], t2_bbbb [bᵥ, cᵥ, iₒ, nₒ]], [(1, [aᵥ, bᵥ, cᵥ, dᵥ, iₒ, jₒ, kₒ, lₒ]), (-1, [aᵥ, bᵥ, cᵥ, dᵥ, lₒ, jₒ, kₒ, iₒ]), (-1, [bᵥ, aᵥ, cᵥ, dᵥ, iₒ, jₒ, kₒ, lₒ]), (1, [bᵥ, aᵥ, cᵥ, dᵥ, lₒ, jₒ, kₒ, iₒ])]⟩,
  -- line 6421: nmef,eajk,fdil,bcnm->abcdijkl
  ⟨-1/2, [g_bbbb [nₒ, mₒ, eᵥ, fᵥ], t2_bbbb [eᵥ, aᵥ, jₒ, kₒ], t2_bbbb [fᵥ, dᵥ, iₒ, lₒ], t2_bbbb [bᵥ, cᵥ, nₒ, mₒ]], [(1, [aᵥ, bᵥ, cᵥ, dᵥ, iₒ, jₒ, kₒ, lₒ]), (-1, [aᵥ, bᵥ, cᵥ, dᵥ, kₒ, jₒ, iₒ, lₒ]), (-1, [bᵥ, aᵥ, cᵥ, dᵥ, iₒ, jₒ, kₒ, lₒ]), (1, [bᵥ, aᵥ, cᵥ, dᵥ, kₒ, jₒ, iₒ, lₒ])]⟩,
  -- line 6425: mnfe,eaik,fbml,cdjn->abcdijkl
  ⟨1, [g_abab [mₒ, nₒ, fᵥ, eᵥ], t2_bbbb [eᵥ, aᵥ, iₒ, kₒ], t2_abab [fᵥ, bᵥ, mₒ, lₒ], t2_bbbb [cᵥ, dᵥ, jₒ, nₒ]], [(1, [aᵥ, bᵥ, cᵥ, dᵥ, iₒ, jₒ, kₒ, lₒ]), (-1, [aᵥ, bᵥ, cᵥ, dᵥ, iₒ, lₒ, kₒ, jₒ]), (-1, [aᵥ, cᵥ, bᵥ, dᵥ, iₒ, jₒ, kₒ, lₒ]), (1, [aᵥ, cᵥ, bᵥ, dᵥ, iₒ, lₒ, kₒ, jₒ])]⟩,
  -- line 6429: nmef,eaik,fblm,cdjn->abcdijkl
  ⟨-1, [g_bbbb [nₒ, mₒ, eᵥ, fᵥ], t2_bbbb [eᵥ, aᵥ, iₒ, kₒ], t2_bbbb [fᵥ, bᵥ, lₒ, mₒ], t2_bbbb [cᵥ, dᵥ, jₒ, nₒ]], [(1, [aᵥ, bᵥ, cᵥ, dᵥ, iₒ, jₒ, kₒ, lₒ]), (-1, [aᵥ, bᵥ, cᵥ, dᵥ, iₒ, lₒ, kₒ, jₒ]), (-1, [aᵥ, cᵥ, bᵥ, dᵥ, iₒ, jₒ, kₒ, lₒ]), (1, [aᵥ, cᵥ, bᵥ, dᵥ, iₒ, lₒ, kₒ, jₒ])]⟩,
  -- line 6433: mnfe,eaik,fdml,bcjn->abcdijkl
  ⟨1, [g_abab [mₒ, nₒ, fᵥ, eᵥ], t2_bbbb [eᵥ, aᵥ, iₒ, kₒ], t2_abab [fᵥ, dᵥ, mₒ, lₒ], t2_bbbb [bᵥ, cᵥ, jₒ, nₒ]], [(1, [aᵥ, bᵥ, cᵥ, dᵥ, iₒ, jₒ, kₒ, lₒ]), (-1, [aᵥ, bᵥ, cᵥ, dᵥ, iₒ, lₒ, kₒ, jₒ]), (-1, [bᵥ, aᵥ, cᵥ, dᵥ, iₒ, jₒ, kₒ, lₒ]), (1, [bᵥ, aᵥ, cᵥ, dᵥ, iₒ, lₒ, kₒ, jₒ])]⟩,
  -- line 6437: nmef,eaik,fdlm,bcjn->abcdijkl
  ⟨-1, [g_bbbb [nₒ, mₒ, eᵥ, fᵥ], t2_bbbb [eᵥ, aᵥ, iₒ, kₒ], t2_bbbb [fᵥ, dᵥ, lₒ, mₒ], t2_bbbb [bᵥ, cᵥ, jₒ, nₒ]], [(1, [aᵥ, bᵥ, cᵥ, dᵥ, iₒ, jₒ, kₒ, lₒ]), (-1, [aᵥ, bᵥ, cᵥ, dᵥ, iₒ, lₒ, kₒ, jₒ]), (-1, [bᵥ, aᵥ, cᵥ, dᵥ, iₒ, jₒ, kₒ, lₒ]), (1, [bᵥ, aᵥ, cᵥ, dᵥ, iₒ, lₒ, kₒ, jₒ])]⟩,
  -- line 6441: mnfe,eaij,fbml,cdkn->abcdijkl
  ⟨-1, [g_abab [mₒ, nₒ, fᵥ, eᵥ], t2_bbbb [eᵥ, aᵥ, iₒ, jₒ], t2_abab [fᵥ, bᵥ, mₒ, lₒ], t2_bbbb [cᵥ, dᵥ, kₒ, nₒ]], [(1, [aᵥ, bᵥ, cᵥ, dᵥ, iₒ, jₒ, kₒ, lₒ]), (-1, [aᵥ, bᵥ, cᵥ, dᵥ, iₒ, jₒ, lₒ, kₒ]), (-1, [aᵥ, cᵥ, bᵥ, dᵥ, iₒ, jₒ, kₒ, lₒ]), (1, [aᵥ, cᵥ, bᵥ, dᵥ, iₒ, jₒ, lₒ, kₒ])]⟩,
  -- line 6445: nmef,eaij,fblm,cdkn->abcdijkl
  ⟨1, [g_bbbb [nₒ, mₒ, eᵥ, fᵥ], t2_bbbb [eᵥ, aᵥ, iₒ, jₒ], t2_bbbb [fᵥ, bᵥ, lₒ, mₒ], t2_bbbb [cᵥ, dᵥ, kₒ, nₒ]], [(1, [aᵥ, bᵥ, cᵥ, dᵥ, iₒ, jₒ, kₒ, lₒ]), (-1, [aᵥ, bᵥ, cᵥ, dᵥ, iₒ, jₒ, lₒ, kₒ]), (-1, [aᵥ, cᵥ, bᵥ, dᵥ, iₒ, jₒ, kₒ, lₒ]), (1, [aᵥ, cᵥ, bᵥ, dᵥ, iₒ, jₒ, lₒ, kₒ])]⟩,
  -- line 6449: mnfe,eaij,fdml,bckn->abcdijkl
  ⟨-1, [g_abab [mₒ, nₒ, fᵥ, eᵥ], t2_bbbb [eᵥ, aᵥ, iₒ, jₒ], t2_abab [fᵥ, dᵥ, mₒ, lₒ], t2_bbbb [bᵥ, cᵥ, kₒ, nₒ]], [(1, [aᵥ, bᵥ, cᵥ, dᵥ, iₒ, jₒ, kₒ, lₒ]), (-1, [aᵥ, bᵥ, cᵥ, dᵥ, iₒ, jₒ, lₒ, kₒ]), (-1, [bᵥ, aᵥ, cᵥ, dᵥ, iₒ, jₒ, kₒ, lₒ]), (1, [bᵥ, aᵥ, cᵥ, dᵥ, iₒ, jₒ, lₒ, kₒ])]⟩,
  -- line 6453: nmef,eaij,fdlm,bckn->abcdijkl
  ⟨1, [g_bbbb [nₒ, mₒ, eᵥ, fᵥ], t2_bbbb [eᵥ, aᵥ, iₒ, jₒ], t2_bbbb [fᵥ, dᵥ, lₒ, mₒ], t2_bbbb [bᵥ, cᵥ, kₒ, nₒ]], [(1, [aᵥ, bᵥ, cᵥ, dᵥ, iₒ, jₒ, kₒ, lₒ]), (-1, [aᵥ, bᵥ, cᵥ, dᵥ, iₒ, jₒ, lₒ, kₒ]), (-1, [bᵥ, aᵥ, cᵥ, dᵥ, iₒ, jₒ, kₒ, lₒ]), (1, [bᵥ, aᵥ, cᵥ, dᵥ, iₒ, jₒ, lₒ, kₒ])]⟩,
  -- line 6457: mnef,ebml,fcjk,adin->abcdijkl
  ⟨1, [g_abab [mₒ, nₒ, eᵥ, fᵥ], t2_abab [eᵥ, bᵥ, mₒ, lₒ], t2_bbbb [fᵥ, cᵥ, jₒ, kₒ], t2_bbbb [aᵥ, dᵥ, iₒ, nₒ]], [(1, [aᵥ, bᵥ, cᵥ, dᵥ, iₒ, jₒ, kₒ, lₒ]), (-1, [aᵥ, bᵥ, cᵥ, dᵥ, jₒ, iₒ, kₒ, lₒ])]⟩,
  -- line 6461: nmef,eblm,fcjk,adin->abcdijkl
  ⟨1, [g_bbbb [nₒ, mₒ, eᵥ, fᵥ], t2_bbbb [eᵥ, bᵥ, lₒ, mₒ], t2_bbbb [fᵥ, cᵥ, jₒ, kₒ], t2_bbbb [aᵥ, dᵥ, iₒ, nₒ]], [(1, [aᵥ, bᵥ, cᵥ, dᵥ, iₒ, jₒ, kₒ, lₒ]), (-1, [aᵥ, bᵥ, cᵥ, dᵥ, jₒ, iₒ, kₒ, lₒ])]⟩,
  -- line 6465: mnef,ebml,fcij,adkn->abcdijkl
  ⟨1, [g_abab [mₒ, nₒ, eᵥ, fᵥ], t2_abab [eᵥ, bᵥ, mₒ, lₒ], t2_bbbb [fᵥ, cᵥ, iₒ, jₒ], t2_bbbb [aᵥ, dᵥ, kₒ, nₒ]], [(1, [aᵥ, bᵥ, cᵥ, dᵥ, iₒ, jₒ, kₒ, lₒ]), (-1, [aᵥ, bᵥ, cᵥ, dᵥ, iₒ, jₒ, lₒ, kₒ])]⟩,
  -- line 6469: nmef,eblm,fcij,adkn->abcdijkl
  ⟨1, [g_bbbb [nₒ, mₒ, eᵥ, fᵥ], t2_bbbb [eᵥ, bᵥ, lₒ, mₒ], t2_bbbb [fᵥ, cᵥ, iₒ, jₒ], t2_bbbb [aᵥ, dᵥ, kₒ, nₒ]], [(1, [aᵥ, bᵥ, cᵥ, dᵥ, iₒ, jₒ, kₒ, lₒ]), (-1, [aᵥ, bᵥ, cᵥ, dᵥ, iₒ, jₒ, lₒ, kₒ])]⟩,
  -- line 6473: mnef,ebmk,fcjl,adin->abcdijkl
  ⟨-1, [g_abab [mₒ, nₒ, eᵥ, fᵥ], t2_abab [eᵥ, bᵥ, mₒ, kₒ], t2_bbbb [fᵥ, cᵥ, jₒ, lₒ], t2_bbbb [aᵥ, dᵥ, iₒ, nₒ]], [(1, [aᵥ, bᵥ, cᵥ, dᵥ, iₒ, jₒ, kₒ, lₒ]), (-1, [aᵥ, bᵥ, cᵥ, dᵥ, jₒ, iₒ, kₒ, lₒ])]⟩,
  -- line 6477: nmef,ebkm,fcjl,adin->abcdijkl
  ⟨-1, [g_bbbb [nₒ, mₒ, eᵥ, fᵥ], t2_bbbb [eᵥ, bᵥ, kₒ, mₒ], t2_bbbb [fᵥ, cᵥ, jₒ, lₒ], t2_bbbb [aᵥ, dᵥ, iₒ, nₒ]], [(1, [aᵥ, bᵥ, cᵥ, dᵥ, iₒ, jₒ, kₒ, lₒ]), (-1, [aᵥ, bᵥ, cᵥ, dᵥ, jₒ, iₒ, kₒ, lₒ])]⟩,
  -- line 6481: mnef,ebmj,fckl,adin->abcdijkl
  ⟨1, [g_abab [mₒ, nₒ, eᵥ, fᵥ], t2_abab [eᵥ, bᵥ, mₒ, jₒ], t2_bbbb [fᵥ, cᵥ, kₒ, lₒ], t2_bbbb [aᵥ, dᵥ, iₒ, nₒ]], [(1, [aᵥ, bᵥ, cᵥ, dᵥ, iₒ, jₒ, kₒ, lₒ]), (-1, [aᵥ, bᵥ, cᵥ, dᵥ, kₒ, jₒ, iₒ, lₒ])]⟩,
  -- line 6485: nmef,ebjm,fckl,adin->abcdijkl
  ⟨1, [g_bbbb [nₒ, mₒ, eᵥ, fᵥ], t2_bbbb [eᵥ, bᵥ, jₒ, mₒ], t2_bbbb [fᵥ, cᵥ, kₒ, lₒ], t2_bbbb [aᵥ, dᵥ, iₒ, nₒ]], [(1, [aᵥ, bᵥ, cᵥ, dᵥ, iₒ, jₒ, kₒ, lₒ]), (-1, [aᵥ, bᵥ, cᵥ, dᵥ, kₒ, jₒ, iₒ, lₒ])]⟩,
  -- line 6489: mnef,ebmj,fcik,adln->abcdijkl
  ⟨1, [g_abab [mₒ, nₒ, eᵥ, fᵥ], t2_abab [eᵥ, bᵥ, mₒ, jₒ], t2_bbbb [fᵥ, cᵥ, iₒ, kₒ], t2_bbbb [aᵥ, dᵥ, lₒ, nₒ]], [(1, [aᵥ, bᵥ, cᵥ, dᵥ, iₒ, jₒ, kₒ, lₒ]), (-1, [aᵥ, bᵥ, cᵥ, dᵥ, jₒ, iₒ, kₒ, lₒ])]⟩,
  -- line 6493: nmef,ebjm,fcik,adln->abcdijkl
  ⟨1, [g_bbbb [nₒ, mₒ, eᵥ, fᵥ], t2_bbbb [eᵥ, bᵥ, jₒ, mₒ], t2_bbbb [fᵥ, cᵥ, iₒ, kₒ], t2_bbbb [aᵥ, dᵥ, lₒ, nₒ]], [(1, [aᵥ, bᵥ, cᵥ, dᵥ, iₒ, jₒ, kₒ, lₒ]), (-1, [aᵥ, bᵥ, cᵥ, dᵥ, jₒ, iₒ, kₒ, lₒ])]⟩,
  -- line 6497: mnef,ebmi,fckl,adjn->abcdijkl
  ⟨-1, [g_abab [mₒ, nₒ, eᵥ, fᵥ], t2_abab [eᵥ, bᵥ, mₒ, iₒ], t2_bbbb [fᵥ, cᵥ, kₒ, lₒ], t2_bbbb [aᵥ, dᵥ, jₒ, nₒ]], [(1, [aᵥ, bᵥ, cᵥ, dᵥ, iₒ, jₒ, kₒ, lₒ]), (-1, [aᵥ, bᵥ, cᵥ, dᵥ, iₒ, kₒ, jₒ, lₒ])]⟩,
  -- line 6501: nmef,ebim,fckl,adjn->abcdijkl
  ⟨-1, [g_bbbb [nₒ, mₒ, eᵥ, fᵥ], t2_bbbb [eᵥ, bᵥ, iₒ, mₒ], t2_bbbb [fᵥ, cᵥ, kₒ, lₒ], t2_bbbb [aᵥ, dᵥ, jₒ, nₒ]], [(1, [aᵥ, bᵥ, cᵥ, dᵥ, iₒ, jₒ, kₒ, lₒ]), (-1, [aᵥ, bᵥ, cᵥ, dᵥ, iₒ, kₒ, jₒ, lₒ])]⟩,
  -- line 6505: mnfe,ebkl,fcmj,adin->abcdijkl
  ⟨-1, [g_abab [mₒ, nₒ, fᵥ, eᵥ], t2_bbbb [eᵥ, bᵥ, kₒ, lₒ], t2_abab [fᵥ, cᵥ, mₒ, jₒ], t2_bbbb [aᵥ, dᵥ, iₒ, nₒ]], [(1, [aᵥ, bᵥ, cᵥ, dᵥ, iₒ, jₒ, kₒ, lₒ]), (-1, [aᵥ, bᵥ, cᵥ, dᵥ, jₒ, iₒ, kₒ, lₒ])]⟩,
  -- line 6509: nmef,ebkl,fcjm,adin->abcdijkl
  ⟨1, [g_bbbb [nₒ, mₒ, eᵥ, fᵥ], t2_bbbb [eᵥ, bᵥ, kₒ, lₒ], t2_bbbb [fᵥ, cᵥ, jₒ, mₒ], t2_bbbb [aᵥ, dᵥ, iₒ, nₒ]], [(1, [aᵥ, bᵥ, cᵥ, dᵥ, iₒ, jₒ, kₒ, lₒ]), (-1, [aᵥ, bᵥ, cᵥ, dᵥ, jₒ, iₒ, kₒ, lₒ])]⟩,
  -- line 6513: nmef,ebkl,fcij,adnm->abcdijkl
  ⟨-1/2, [g_bbbb [nₒ, mₒ, eᵥ, fᵥ], t2_bbbb [eᵥ, bᵥ, kₒ, lₒ], t2_bbbb [fᵥ, cᵥ, iₒ, jₒ], t2_bbbb [aᵥ, dᵥ, nₒ, mₒ]], [(1, [aᵥ, bᵥ, cᵥ, dᵥ, iₒ, jₒ, kₒ, lₒ]), (-1, [aᵥ, bᵥ, cᵥ, dᵥ, iₒ, kₒ, jₒ, lₒ])]⟩,
  -- line 6517: mnfe,ebjl,fcmk,adin->abcdijkl
  ⟨1, [g_abab [mₒ, nₒ, fᵥ, eᵥ], t2_bbbb [eᵥ, bᵥ, jₒ, lₒ], t2_abab [fᵥ, cᵥ, mₒ, kₒ], t2_bbbb [aᵥ, dᵥ, iₒ, nₒ]], [(1, [aᵥ, bᵥ, cᵥ, dᵥ, iₒ, jₒ, kₒ, lₒ]), (-1, [aᵥ, bᵥ, cᵥ, dᵥ, kₒ, jₒ, iₒ, lₒ])]⟩,
  -- line 6521: nmef,ebjl,fckm,adin->abcdijkl
  ⟨-1, [g_bbbb [nₒ, mₒ, eᵥ, fᵥ], t2_bbbb [eᵥ, bᵥ, jₒ, lₒ], t2_bbbb [fᵥ, cᵥ, kₒ, mₒ], t2_bbbb [aᵥ, dᵥ, iₒ, nₒ]], [(1, [aᵥ, bᵥ, cᵥ, dᵥ, iₒ, jₒ, kₒ, lₒ]), (-1, [aᵥ, bᵥ, cᵥ, dᵥ, kₒ, jₒ, iₒ, lₒ])]⟩,
  -- line 6525: mnfe,ebil,fcmk,adjn->abcdijkl
  ⟨-1, [g_abab [mₒ, nₒ, fᵥ, eᵥ], t2_bbbb [eᵥ, bᵥ, iₒ, lₒ], t2_abab [fᵥ, cᵥ, mₒ, kₒ], t2_bbbb [aᵥ, dᵥ, jₒ, nₒ]], [(1, [aᵥ, bᵥ, cᵥ, dᵥ, iₒ, jₒ, kₒ, lₒ]), (-1, [aᵥ, bᵥ, cᵥ, dᵥ, iₒ, kₒ, jₒ, lₒ])]⟩,
  -- line 6529: nmef,ebil,fckm,adjn->abcdijkl
  ⟨1, [g_bbbb [nₒ, mₒ, eᵥ, fᵥ], t2_bbbb [eᵥ, bᵥ, iₒ, lₒ], t2_bbbb [fᵥ, cᵥ, kₒ, mₒ], t2_bbbb [aᵥ, dᵥ, jₒ, nₒ]], [(1, [aᵥ, bᵥ, cᵥ, dᵥ, iₒ, jₒ, kₒ, lₒ]), (-1, [aᵥ, bᵥ, cᵥ, dᵥ, iₒ, kₒ, jₒ, lₒ])]⟩,
  -- line 6533: nmef,ebil,fcjk,adnm->abcdijkl
  ⟨-1/2, [g_bbbb [nₒ, mₒ, eᵥ, fᵥ], t2_bbbb [eᵥ, bᵥ, iₒ, lₒ], t2_bbbb [fᵥ, cᵥ, jₒ, kₒ], t2_bbbb [aᵥ, dᵥ, nₒ, mₒ]], [(1, [aᵥ, bᵥ, cᵥ, dᵥ, iₒ, jₒ, kₒ, lₒ]), (-1, [aᵥ, bᵥ, cᵥ, dᵥ, iₒ, jₒ, lₒ, kₒ])]⟩,
  -- line 6537: mnfe,ebjk,fcml,adin->abcdijkl
  ⟨-1, [g_abab [mₒ, nₒ, fᵥ, eᵥ], t2_bbbb [eᵥ, bᵥ, jₒ, kₒ], t2_abab [fᵥ, cᵥ, mₒ, lₒ], t2_bbbb [aᵥ, dᵥ, iₒ, nₒ]], [(1, [aᵥ, bᵥ, cᵥ, dᵥ, iₒ, jₒ, kₒ, lₒ]), (-1, [aᵥ, bᵥ, cᵥ, dᵥ, lₒ, jₒ, kₒ, iₒ])]⟩,
  -- line 6541: nmef,ebjk,fclm,adin->abcdijkl
  ⟨1, [g_bbbb [nₒ, mₒ, eᵥ, fᵥ], t2_bbbb [eᵥ, bᵥ, jₒ, kₒ], t2_bbbb [fᵥ, cᵥ, lₒ, mₒ], t2_bbbb [aᵥ, dᵥ, iₒ, nₒ]], [(1, [aᵥ, bᵥ, cᵥ, dᵥ, iₒ, jₒ, kₒ, lₒ]), (-1, [aᵥ, bᵥ, cᵥ, dᵥ, lₒ, jₒ, kₒ, iₒ])]⟩,
  -- line 6545: nmef,ebjk,fcil,adnm->abcdijkl
  ⟨-1/2, [g_bbbb [nₒ, mₒ, eᵥ, fᵥ], t2_bbbb [eᵥ, bᵥ, jₒ, kₒ], t2_bbbb [fᵥ, cᵥ, iₒ, lₒ], t2_bbbb [aᵥ, dᵥ, nₒ, mₒ]], [(1, [aᵥ, bᵥ, cᵥ, dᵥ, iₒ, jₒ, kₒ, lₒ]), (-1, [aᵥ, bᵥ, cᵥ, dᵥ, kₒ, jₒ, iₒ, lₒ])]⟩,
  -- line 6549: mnfe,ebik,fcml,adjn->abcdijkl
  ⟨1, [g_abab [mₒ, nₒ, fᵥ, eᵥ], t2_bbbb [eᵥ, bᵥ, iₒ, kₒ], t2_abab [fᵥ, cᵥ, mₒ, lₒ], t2_bbbb [aᵥ, dᵥ, jₒ, nₒ]], [(1, [aᵥ, bᵥ, cᵥ, dᵥ, iₒ, jₒ, kₒ, lₒ]), (-1, [aᵥ, bᵥ, cᵥ, dᵥ, iₒ, lₒ, kₒ, jₒ])]⟩,
  -- line 6553: nmef,ebik,fclm,adjn->abcdijkl
  ⟨-1, [g_bbbb [nₒ, mₒ, eᵥ, fᵥ], t2_bbbb [eᵥ, bᵥ, iₒ, kₒ], t2_bbbb [fᵥ, cᵥ, lₒ, mₒ], t2_bbbb [aᵥ, dᵥ, jₒ, nₒ]], [(1, [aᵥ, bᵥ, cᵥ, dᵥ, iₒ, jₒ, kₒ, lₒ]), (-1, [aᵥ, bᵥ, cᵥ, dᵥ, iₒ, lₒ, kₒ, jₒ])]⟩,
  -- line 6557: mnfe,ebij,fcml,adkn->abcdijkl
  ⟨-1, [g_abab [mₒ, nₒ, fᵥ, eᵥ], t2_bbbb [eᵥ, bᵥ, iₒ, jₒ], t2_abab [fᵥ, cᵥ, mₒ, lₒ], t2_bbbb [aᵥ, dᵥ, kₒ, nₒ]], [(1, [aᵥ, bᵥ, cᵥ, dᵥ, iₒ, jₒ, kₒ, lₒ]), (-1, [aᵥ, bᵥ, cᵥ, dᵥ, iₒ, jₒ, lₒ, kₒ])]⟩,
  -- line 6561: nmef,ebij,fclm,adkn->abcdijkl
  ⟨1, [g_bbbb [nₒ, mₒ, eᵥ, fᵥ], t2_bbbb [eᵥ, bᵥ, iₒ, jₒ], t2_bbbb [fᵥ, cᵥ, lₒ, mₒ], t2_bbbb [aᵥ, dᵥ, kₒ, nₒ]], [(1, [aᵥ, bᵥ, cᵥ, dᵥ, iₒ, jₒ, kₒ, lₒ]), (-1, [aᵥ, bᵥ, cᵥ, dᵥ, iₒ, jₒ, lₒ, kₒ])]⟩,
  -- line 6565: mnef,ecml,fdjk,abin->abcdijkl
  ⟨1, [g_abab [mₒ, nₒ, eᵥ, fᵥ], t2_abab [eᵥ, cᵥ, mₒ, lₒ], t2_bbbb [fᵥ, dᵥ, jₒ, kₒ], t2_bbbb [aᵥ, bᵥ, iₒ, nₒ]], [(1, [aᵥ, bᵥ, cᵥ, dᵥ, iₒ, jₒ, kₒ, lₒ]), (-1, [aᵥ, bᵥ, cᵥ, dᵥ, jₒ, iₒ, kₒ, lₒ])]⟩,
  -- line 6569: nmef,eclm,fdjk,abin->abcdijkl
  ⟨1, [g_bbbb [nₒ, mₒ, eᵥ, fᵥ], t2_bbbb [eᵥ, cᵥ, lₒ, mₒ], t2_bbbb [fᵥ, dᵥ, jₒ, kₒ], t2_bbbb [aᵥ, bᵥ, iₒ, nₒ]], [(1, [aᵥ, bᵥ, cᵥ, dᵥ, iₒ, jₒ, kₒ, lₒ]), (-1, [aᵥ, bᵥ, cᵥ, dᵥ, jₒ, iₒ, kₒ, lₒ])]⟩
  ]

/-- Part 6 of `ccdq_t4_bbbbbbbb`. -/
def ccdq_t4_bbbbbbbb_6 : Prog := [
  -- line 6573: mnef,ecml,fdij,abkn->abcdijkl
  ⟨1, [g_abab [mₒ, nₒ, eᵥ, fᵥ], t2_abab [eᵥ, cᵥ, mₒ, lₒ], t2_bbbb [fᵥ, dᵥ, iₒ, jₒ], t2_bbbb [aᵥ, bᵥ, kₒ, nₒ]], [(1, [aᵥ, bᵥ, cᵥ, dᵥ, iₒ, jₒ, kₒ, lₒ]), (-1, [aᵥ, bᵥ, cᵥ, dᵥ, iₒ, jₒ, lₒ, kₒ])]⟩,
  -- line 6577: nmef,eclm,fdij,abkn->abcdijkl
  ⟨1, [g_bbbb [nₒ, mₒ, eᵥ, fᵥ], t2_bbbb [eᵥ, cᵥ, lₒ, mₒ], t2_bbbb [fᵥ, dᵥ, iₒ, jₒ], t2_bbbb [aᵥ, bᵥ, kₒ, nₒ]], [(1, [aᵥ, bᵥ, cᵥ, dᵥ, iₒ, jₒ, kₒ, lₒ]), (-1, [aᵥ, bᵥ, cᵥ, dᵥ, iₒ, jₒ, lₒ, kₒ])]⟩,
  -- line 6581: mnef,ecmk,fdjl,abin->abcdijkl
  ⟨-1, [g_abab [mₒ, nₒ, eᵥ, fᵥ], t2_abab [eᵥ, cᵥ, mₒ, kₒ], t2_bbbb [fᵥ, dᵥ, jₒ, lₒ], t2_bbbb [aᵥ, bᵥ, iₒ, nₒ]], [(1, [aᵥ, bᵥ, cᵥ, dᵥ, iₒ, jₒ, kₒ, lₒ]), (-1, [aᵥ, bᵥ, cᵥ, dᵥ, jₒ, iₒ, kₒ, lₒ])]⟩,
  -- line 6585: nmef,eckm,fdjl,abin->abcdijkl
  ⟨-1, [g_bbbb [nₒ, mₒ, eᵥ, fᵥ], t2_bbbb [eᵥ, cᵥ, kₒ, mₒ], t2_bbbb [fᵥ, dᵥ, jₒ, lₒ], t2_bbbb [aᵥ, bᵥ, iₒ, nₒ]], [(1, [aᵥ, bᵥ, cᵥ, dᵥ, iₒ, jₒ, kₒ, lₒ]), (-1, [aᵥ, bᵥ, cᵥ, dᵥ, jₒ, iₒ, kₒ, lₒ])]⟩,
  -- line 6589: mnef,ecmj,fdkl,abin->abcdijkl
  ⟨1, [g_abab [mₒ, nₒ, eᵥ, fᵥ], t2_abab [eᵥ, cᵥ, mₒ, jₒ], t2_bbbb [fᵥ, dᵥ, kₒ, lₒ], t2_bbbb [aᵥ, bᵥ, iₒ, nₒ]], [(1, [aᵥ, bᵥ, cᵥ, dᵥ, iₒ, jₒ, kₒ, lₒ]), (-1, [aᵥ, bᵥ, cᵥ, dᵥ, kₒ, jₒ, iₒ, lₒ])]⟩,
  -- line 6593: nmef,ecjm,fdkl,abin->abcdijkl
  ⟨1, [g_bbbb [nₒ, mₒ, eᵥ, fᵥ], t2_bbbb [eᵥ, cᵥ, jₒ, mₒ], t2_bbbb [fᵥ, dᵥ, kₒ, lₒ], t2_bbbb [aᵥ, bᵥ, iₒ, nₒ]], [(1, [aᵥ, bᵥ, cᵥ, dᵥ, iₒ, jₒ, kₒ, lₒ]), (-1, [aᵥ, bᵥ, cᵥ, dᵥ, kₒ, jₒ, iₒ, lₒ])]⟩,
  -- line 6597: mnef,ecmj,fdik,abln->abcdijkl
  ⟨1, [g_abab [mₒ, nₒ, eᵥ, fᵥ], t2_abab [eᵥ, cᵥ, mₒ, jₒ], t2_bbbb [fᵥ, dᵥ, iₒ, kₒ], t2_bbbb [aᵥ, bᵥ, lₒ, nₒ]], [(1, [aᵥ, bᵥ, cᵥ, dᵥ, iₒ, jₒ, kₒ, lₒ]), (-1, [aᵥ, bᵥ, cᵥ, dᵥ, jₒ, iₒ, kₒ, lₒ])]⟩,
  -- line 6601: nmef,ecjm,fdik,abln->abcdijkl
  ⟨1, [g_bbbb [nₒ, mₒ, eᵥ, fᵥ], t2_bbbb [eᵥ, cᵥ, jₒ, mₒ], t2_bbbb [fᵥ, dᵥ, iₒ, kₒ], t2_bbbb [aᵥ, bᵥ, lₒ, nₒ]], [(1, [aᵥ, bᵥ, cᵥ, dᵥ, iₒ, jₒ, kₒ, lₒ]), (-1, [aᵥ, bᵥ, cᵥ, dᵥ, jₒ, iₒ, kₒ, lₒ])]⟩,
  -- line 6605: mnef,ecmi,fdkl,abjn->abcdijkl
  ⟨-1, [g_abab [mₒ, nₒ, eᵥ, fᵥ], t2_abab [eᵥ, cᵥ, mₒ, iₒ], t2_bbbb [fᵥ, dᵥ, kₒ, lₒ], t2_bbbb [aᵥ, bᵥ, jₒ, nₒ]], [(1, [aᵥ, bᵥ, cᵥ, dᵥ, iₒ, jₒ, kₒ, lₒ]), (-1, [aᵥ, bᵥ, cᵥ, dᵥ, iₒ, kₒ, jₒ, lₒ])]⟩,
  -- line 6609: nmef,ecim,fdkl,abjn->abcdijkl
  ⟨-1, [g_bbbb [nₒ, mₒ, eᵥ, fᵥ], t2_bbbb [eᵥ, cᵥ, iₒ, mₒ], t2_bbbb [fᵥ, dᵥ, kₒ, lₒ], t2_bbbb [aᵥ, bᵥ, jₒ, nₒ]], [(1, [aᵥ, bᵥ, cᵥ, dᵥ, iₒ, jₒ, kₒ, lₒ]), (-1, [aᵥ, bᵥ, cᵥ, dᵥ, iₒ, kₒ, jₒ, lₒ])]⟩,
  -- line 6613: mnfe,eckl,fdmj,abin->abcdijkl
  ⟨-1, [g_abab [mₒ, nₒ, fᵥ, eᵥ], t2_bbbb [eᵥ, cᵥ, kₒ, lₒ], t2_abab [fᵥ, dᵥ, mₒ, jₒ], t2_bbbb [aᵥ, bᵥ, iₒ, nₒ]], [(1, [aᵥ, bᵥ, cᵥ, dᵥ, iₒ, jₒ, kₒ, lₒ]), (-1, [aᵥ, bᵥ, cᵥ, dᵥ, jₒ, iₒ, kₒ, lₒ])]⟩,
  -- line 6617: nmef,eckl,fdjm,abin->abcdijkl
  ⟨1, [g_bbbb [nₒ, mₒ, eᵥ, fᵥ], t2_bbbb [eᵥ, cᵥ, kₒ, lₒ], t2_bbbb [fᵥ, dᵥ, jₒ, mₒ], t2_bbbb [aᵥ, bᵥ, iₒ, nₒ]], [(1, [aᵥ, bᵥ, cᵥ, dᵥ, iₒ, jₒ, kₒ, lₒ]), (-1, [aᵥ, bᵥ, cᵥ, dᵥ, jₒ, iₒ, kₒ, lₒ])]⟩,
  -- line 6621: nmef,eckl,fdij,abnm->abcdijkl
  ⟨-1/2, [g_bbbb [nₒ, mₒ, eᵥ, fᵥ], t2_bbbb [eᵥ, cᵥ, kₒ, lₒ], t2_bbbb [fᵥ, dᵥ, iₒ, jₒ], t2_bbbb [aᵥ, bᵥ, nₒ, mₒ]], [(1, [aᵥ, bᵥ, cᵥ, dᵥ, iₒ, jₒ, kₒ, lₒ]), (-1, [aᵥ, bᵥ, cᵥ, dᵥ, iₒ, kₒ, jₒ, lₒ])]⟩,
  -- line 6625: mnfe,ecjl,fdmk,abin->abcdijkl
  ⟨1, [g_abab [mₒ, nₒ, fᵥ, eᵥ], t2_bbbb [eᵥ, cᵥ, jₒ, lₒ], t2_abab [fᵥ, dᵥ, mₒ, kₒ], t2_bbbb [aᵥ, bᵥ, iₒ, nₒ]], [(1, [aᵥ, bᵥ, cᵥ, dᵥ, iₒ, jₒ, kₒ, lₒ]), (-1, [aᵥ, bᵥ, cᵥ, dᵥ, kₒ, jₒ, iₒ, lₒ])]⟩,
  -- line 6629: nmef,ecjl,fdkm,abin->abcdijkl
  ⟨-1, [g_bbbb [nₒ, mₒ, eᵥ, fᵥ], t2_bbbb [eᵥ, cᵥ, jₒ, lₒ], t2_bbbb [fᵥ, dᵥ, kₒ, mₒ], t2_bbbb [aᵥ, bᵥ, iₒ, nₒ]], [(1, [aᵥ, bᵥ, cᵥ, dᵥ, iₒ, jₒ, kₒ, lₒ]), (-1, [aᵥ, bᵥ, cᵥ, dᵥ, kₒ, jₒ, iₒ, lₒ])]⟩,
  -- line 6633: mnfe,ecil,fdmk,abjn->abcdijkl
  ⟨-1, [g_abab [mₒ, nₒ, fᵥ, eᵥ], t2_bbbb [eᵥ, cᵥ, iₒ, lₒ], t2_abab [fᵥ, dᵥ, mₒ, kₒ], t2_bbbb [aᵥ, bᵥ, jₒ, nₒ]], [(1, [aᵥ, bᵥ, cᵥ, dᵥ, iₒ, jₒ, kₒ, lₒ]), (-1, [aᵥ, bᵥ, cᵥ, dᵥ, iₒ, kₒ, jₒ, lₒ])]⟩,
  -- line 6637: nmef,ecil,fdkm,abjn->abcdijkl
  ⟨1, [g_bbbb [nₒ, mₒ, eᵥ, fᵥ], t2_bbbb [eᵥ, cᵥ, iₒ, lₒ], t2_bbbb [fᵥ, dᵥ, kₒ, mₒ], t2_bbbb [aᵥ, bᵥ, jₒ, nₒ]], [(1, [aᵥ, bᵥ, cᵥ, dᵥ, iₒ, jₒ, kₒ, lₒ]), (-1, [aᵥ, bᵥ, cᵥ, dᵥ, iₒ, kₒ, jₒ, lₒ])]⟩,
  -- line 6641: nmef,ecil,fdjk,abnm->abcdijkl
  ⟨-1/2, [g_bbbb [nₒ, mₒ, eᵥ, fᵥ], t2_bbbb [eᵥ, cᵥ, iₒ, lₒ], t2_bbbb [fᵥ, dᵥ, jₒ, kₒ], t2_bbbb [aᵥ, bᵥ, nₒ, mₒ]], [(1, [aᵥ, bᵥ, cᵥ, dᵥ, iₒ, jₒ, kₒ, lₒ]), (-1, [aᵥ, bᵥ, cᵥ, dᵥ, iₒ, jₒ, lₒ, kₒ])]⟩,
  -- line 6645: mnfe,ecjk,fdml,abin->abcdijkl
  ⟨-1, [g_abab [mₒ, nₒ, fᵥ, eᵥ], t2_bbbb [eᵥ, cᵥ, jₒ, kₒ], t2_abab [fᵥ, dᵥ, mₒ, lₒ], t2_bbbb [aᵥ, bᵥ, iₒ, nₒ]], [(1, [aᵥ, bᵥ, cᵥ, dᵥ, iₒ, jₒ, kₒ, lₒ]), (-1, [aᵥ, bᵥ, cᵥ, dᵥ, lₒ, jₒ, kₒ, iₒ])]⟩,
  -- line 6649: nmef,ecjk,fdlm,abin->abcdijkl
  ⟨1, [g_bbbb [nₒ, mₒ, eᵥ, fᵥ], t2_bbbb [eᵥ, cᵥ, jₒ, kₒ], t2_bbbb [fᵥ, dᵥ, lₒ, mₒ], t2_bbbb [aᵥ, bᵥ, iₒ, nₒ]], [(1, [aᵥ, bᵥ, cᵥ, dᵥ, iₒ, jₒ, kₒ, lₒ]), (-1, [aᵥ, bᵥ, cᵥ, dᵥ, lₒ, jₒ, kₒ, iₒ])]⟩,
  -- line 6653: nmef,ecjk,fdil,abnm->abcdijkl
  ⟨-1/2, [g_bbbb [nₒ, mₒ, eᵥ, fᵥ], t2_bbbb [eᵥ, cᵥ, jₒ, kₒ], t2_bbbb [fᵥ, dᵥ, iₒ, lₒ], t2_bbbb [aᵥ, bᵥ, nₒ, mₒ]], [(1, [aᵥ, bᵥ, cᵥ, dᵥ, iₒ, jₒ, kₒ, lₒ]), (-1, [aᵥ, bᵥ, cᵥ, dᵥ, kₒ, jₒ, iₒ, lₒ])]⟩,
  -- line 6657: mnfe,ecik,fdml,abjn->abcdijkl
  ⟨1, [g_abab [mₒ, nₒ, fᵥ, eᵥ], t2_bbbb [eᵥ, cᵥ, iₒ, kₒ], t2_abab [fᵥ, dᵥ, mₒ, lₒ], t2_bbbb [aᵥ, bᵥ, jₒ, nₒ]], [(1, [aᵥ, bᵥ, cᵥ, dᵥ, iₒ, jₒ, kₒ, lₒ]), (-1, [aᵥ, bᵥ, cᵥ, dᵥ, iₒ, lₒ, kₒ, jₒ])]⟩,
  -- line 6661: nmef,ecik,fdlm,abjn->abcdijkl
  ⟨-1, [g_bbbb [nₒ, mₒ, eᵥ, fᵥ], t2_bbbb [eᵥ, cᵥ, iₒ, kₒ], t2_bbbb [fᵥ, dᵥ, lₒ, mₒ], t2_bbbb [aᵥ, bᵥ, jₒ, nₒ]], [(1, [aᵥ, bᵥ, cᵥ, dᵥ, iₒ, jₒ, kₒ, lₒ]), (-1, [aᵥ, bᵥ, cᵥ, dᵥ, iₒ, lₒ, kₒ, jₒ])]⟩,
  -- line 6665: mnfe,ecij,fdml,abkn->abcdijkl
  ⟨-1, [g_abab [mₒ, nₒ, fᵥ, eᵥ], t2_bbbb [eᵥ, cᵥ, iₒ, jₒ], t2_abab [fᵥ, dᵥ, mₒ, lₒ], t2_bbbb [aᵥ, bᵥ, kₒ, nₒ]], [(1, [aᵥ, bᵥ, cᵥ, dᵥ, iₒ, jₒ, kₒ, lₒ]), (-1, [aᵥ, bᵥ, cᵥ, dᵥ, iₒ, jₒ, lₒ, kₒ])]⟩,
  -- line 6669: nmef,ecij,fdlm,abkn->abcdijkl
  ⟨1, [g_bbbb [nₒ, mₒ, eᵥ, fᵥ], t2_bbbb [eᵥ, cᵥ, iₒ, jₒ], t2_bbbb [fᵥ, dᵥ, lₒ, mₒ], t2_bbbb [aᵥ, bᵥ, kₒ, nₒ]], [(1, [aᵥ, bᵥ, cᵥ, dᵥ, iₒ, jₒ, kₒ, lₒ]), (-1, [aᵥ, bᵥ, cᵥ, dᵥ, iₒ, jₒ, lₒ, kₒ])]⟩
  ]

/-- `UT2/ccdq_resids.py` 5603-6672, `ccdq_t4_bbbbbbbb_residual`. -/
def ccdq_t4_bbbbbbbb : Prog := ccdq_t4_bbbbbbbb_0 ++ (ccdq_t4_bbbbbbbb_1 ++ (ccdq_t4_bbbbbbbb_2 ++ (ccdq_t4_bbbbbbbb_3 ++ (ccdq_t4_bbbbbbbb_4 ++ (ccdq_t4_bbbbbbbb_5 ++ (ccdq_t4_bbbbbbbb_6))))))

end Verif.Gen
