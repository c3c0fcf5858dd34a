import Verif.Ein.Names
import Verif.Gen.Antisym

/-! Written by `/verif/tools/gen.py`. Programs read from `/repo/UT2`. -/

set_option maxRecDepth 100000

namespace Verif.Gen

open Verif.Ein Verif.Ein.N


/-- Part 0 of `ccdq_t4_aaabaaab`. -/
def ccdq_t4_aaabaaab_0 : Prog := [
  -- line 1431: ml,abcdijkm->abcdijkl
  ⟨-100000000000001/100000000000000, [f_bb [mₒ, lₒ], t4_aaabaaab [aᵥ, bᵥ, cᵥ, dᵥ, iₒ, jₒ, kₒ, mₒ]], [(1, [aᵥ, bᵥ, cᵥ, dᵥ, iₒ, jₒ, kₒ, lₒ])]⟩,
  -- line 1434: mk,abcdijml->abcdijkl
  ⟨-100000000000001/100000000000000, [f_aa [mₒ, kₒ], t4_aaabaaab [aᵥ, bᵥ, cᵥ, dᵥ, iₒ, jₒ, mₒ, lₒ]], [(1, [aᵥ, bᵥ, cᵥ, dᵥ, iₒ, jₒ, kₒ, lₒ])]⟩,
  -- line 1437: mj,abcdikml->abcdijkl
  ⟨100000000000001/100000000000000, [f_aa [mₒ, jₒ], t4_aaabaaab [aᵥ, bᵥ, cᵥ, dᵥ, iₒ, kₒ, mₒ, lₒ]], [(1, [aᵥ, bᵥ, cᵥ, dᵥ, iₒ, jₒ, kₒ, lₒ]), (-1, [aᵥ, bᵥ, cᵥ, dᵥ, jₒ, iₒ, kₒ, lₒ])]⟩,
  -- line 1441: ae,ebcdijkl->abcdijkl
  ⟨100000000000001/100000000000000, [f_aa [aᵥ, eᵥ], t4_aaabaaab [eᵥ, bᵥ, cᵥ, dᵥ, iₒ, jₒ, kₒ, lₒ]], [(1, [aᵥ, bᵥ, cᵥ, dᵥ, iₒ, jₒ, kₒ, lₒ]), (-1, [bᵥ, aᵥ, cᵥ, dᵥ, iₒ, jₒ, kₒ, lₒ])]⟩,
  -- line 1445: ce,eabdijkl->abcdijkl
  ⟨100000000000001/100000000000000, [f_aa [cᵥ, eᵥ], t4_aaabaaab [eᵥ, aᵥ, bᵥ, dᵥ, iₒ, jₒ, kₒ, lₒ]], [(1, [aᵥ, bᵥ, cᵥ, dᵥ, iₒ, jₒ, kₒ, lₒ])]⟩,
  -- line 1448: de,cabeijkl->abcdijkl
  ⟨100000000000001/100000000000000, [f_bb [dᵥ, eᵥ], t4_aaabaaab [cᵥ, aᵥ, bᵥ, eᵥ, iₒ, jₒ, kₒ, lₒ]], [(1, [aᵥ, bᵥ, cᵥ, dᵥ, iₒ, jₒ, kₒ, lₒ])]⟩,
  -- line 1451: nmkl,abcdijnm->abcdijkl
  ⟨50000000000001/100000000000000, [g_abab [nₒ, mₒ, kₒ, lₒ], t4_aaabaaab [aᵥ, bᵥ, cᵥ, dᵥ, iₒ, jₒ, nₒ, mₒ]], [(1, [aᵥ, bᵥ, cᵥ, dᵥ, iₒ, jₒ, kₒ, lₒ]), (-1, [aᵥ, bᵥ, cᵥ, dᵥ, iₒ, kₒ, jₒ, lₒ])]⟩,
  -- line 1455: mnkl,abcdijmn->abcdijkl
  ⟨50000000000001/100000000000000, [g_abab [mₒ, nₒ, kₒ, lₒ], t4_aaabaaab [aᵥ, bᵥ, cᵥ, dᵥ, iₒ, jₒ, mₒ, nₒ]], [(1, [aᵥ, bᵥ, cᵥ, dᵥ, iₒ, jₒ, kₒ, lₒ]), (-1, [aᵥ, bᵥ, cᵥ, dᵥ, iₒ, kₒ, jₒ, lₒ])]⟩,
  -- line 1459: nmil,abcdjknm->abcdijkl
  ⟨50000000000001/100000000000000, [g_abab [nₒ, mₒ, iₒ, lₒ], t4_aaabaaab [aᵥ, bᵥ, cᵥ, dᵥ, jₒ, kₒ, nₒ, mₒ]], [(1, [aᵥ, bᵥ, cᵥ, dᵥ, iₒ, jₒ, kₒ, lₒ])]⟩,
  -- line 1462: mnil,abcdjkmn->abcdijkl
  ⟨50000000000001/100000000000000, [g_abab [mₒ, nₒ, iₒ, lₒ], t4_aaabaaab [aᵥ, bᵥ, cᵥ, dᵥ, jₒ, kₒ, mₒ, nₒ]], [(1, [aᵥ, bᵥ, cᵥ, dᵥ, iₒ, jₒ, kₒ, lₒ])]⟩,
  -- line 1465: nmik,abcdjmnl->abcdijkl
  ⟨50000000000001/100000000000000, [g_aaaa [nₒ, mₒ, iₒ, kₒ], t4_aaabaaab [aᵥ, bᵥ, cᵥ, dᵥ, jₒ, mₒ, nₒ, lₒ]], [(1, [aᵥ, bᵥ, cᵥ, dᵥ, iₒ, jₒ, kₒ, lₒ])]⟩,
  -- line 1468: nmjk,abcdimnl->abcdijkl
  ⟨-50000000000001/100000000000000, [g_aaaa [nₒ, mₒ, jₒ, kₒ], t4_aaabaaab [aᵥ, bᵥ, cᵥ, dᵥ, iₒ, mₒ, nₒ, lₒ]], [(1, [aᵥ, bᵥ, cᵥ, dᵥ, iₒ, jₒ, kₒ, lₒ]), (-1, [aᵥ, bᵥ, cᵥ, dᵥ, kₒ, jₒ, iₒ, lₒ])]⟩,
  -- line 1472: amel,ebcdijkm->abcdijkl
  ⟨-50000000000001/50000000000000, [g_abab [aᵥ, mₒ, eᵥ, lₒ], t4_aaabaaab [eᵥ, bᵥ, cᵥ, dᵥ, iₒ, jₒ, kₒ, mₒ]], [(1, [aᵥ, bᵥ, cᵥ, dᵥ, iₒ, jₒ, kₒ, lₒ]), (-1, [bᵥ, aᵥ, cᵥ, dᵥ, iₒ, jₒ, kₒ, lₒ])]⟩,
  -- line 1476: maek,ebcdijml->abcdijkl
  ⟨50000000000001/50000000000000, [g_aaaa [mₒ, aᵥ, eᵥ, kₒ], t4_aaabaaab [eᵥ, bᵥ, cᵥ, dᵥ, iₒ, jₒ, mₒ, lₒ]], [(1, [aᵥ, bᵥ, cᵥ, dᵥ, iₒ, jₒ, kₒ, lₒ]), (-1, [bᵥ, aᵥ, cᵥ, dᵥ, iₒ, jₒ, kₒ, lₒ])]⟩,
  -- line 1480: amke,cbedijlm->abcdijkl
  ⟨50000000000001/50000000000000, [g_abab [aᵥ, mₒ, kₒ, eᵥ], t4_aabbaabb [cᵥ, bᵥ, eᵥ, dᵥ, iₒ, jₒ, lₒ, mₒ]], [(1, [aᵥ, bᵥ, cᵥ, dᵥ, iₒ, jₒ, kₒ, lₒ]), (-1, [bᵥ, aᵥ, cᵥ, dᵥ, iₒ, jₒ, kₒ, lₒ])]⟩,
  -- line 1484: maej,ebcdikml->abcdijkl
  ⟨-50000000000001/50000000000000, [g_aaaa [mₒ, aᵥ, eᵥ, jₒ], t4_aaabaaab [eᵥ, bᵥ, cᵥ, dᵥ, iₒ, kₒ, mₒ, lₒ]], [(1, [aᵥ, bᵥ, cᵥ, dᵥ, iₒ, jₒ, kₒ, lₒ]), (-1, [aᵥ, bᵥ, cᵥ, dᵥ, jₒ, iₒ, kₒ, lₒ]), (-1, [bᵥ, aᵥ, cᵥ, dᵥ, iₒ, jₒ, kₒ, lₒ]), (1, [bᵥ, aᵥ, cᵥ, dᵥ, jₒ, iₒ, kₒ, lₒ])]⟩,
  -- line 1488: amje,cbediklm->abcdijkl
  ⟨-50000000000001/50000000000000, [g_abab [aᵥ, mₒ, jₒ, eᵥ], t4_aabbaabb [cᵥ, bᵥ, eᵥ, dᵥ, iₒ, kₒ, lₒ, mₒ]], [(1, [aᵥ, bᵥ, cᵥ, dᵥ, iₒ, jₒ, kₒ, lₒ]), (-1, [aᵥ, bᵥ, cᵥ, dᵥ, jₒ, iₒ, kₒ, lₒ]), (-1, [bᵥ, aᵥ, cᵥ, dᵥ, iₒ, jₒ, kₒ, lₒ]), (1, [bᵥ, aᵥ, cᵥ, dᵥ, jₒ, iₒ, kₒ, lₒ])]⟩,
  -- line 1492: cmel,eabdijkm->abcdijkl
  ⟨-50000000000001/50000000000000, [g_abab [cᵥ, mₒ, eᵥ, lₒ], t4_aaabaaab [eᵥ, aᵥ, bᵥ, dᵥ, iₒ, jₒ, kₒ, mₒ]], [(1, [aᵥ, bᵥ, cᵥ, dᵥ, iₒ, jₒ, kₒ, lₒ])]⟩,
  -- line 1495: mdel,eabcijkm->abcdijkl
  ⟨-50000000000001/50000000000000, [g_abab [mₒ, dᵥ, eᵥ, lₒ], t4_aaaaaaaa [eᵥ, aᵥ, bᵥ, cᵥ, iₒ, jₒ, kₒ, mₒ]], [(1, [aᵥ, bᵥ, cᵥ, dᵥ, iₒ, jₒ, kₒ, lₒ])]⟩,
  -- line 1498: mdel,cabeijkm->abcdijkl
  ⟨50000000000001/50000000000000, [g_bbbb [mₒ, dᵥ, eᵥ, lₒ], t4_aaabaaab [cᵥ, aᵥ, bᵥ, eᵥ, iₒ, jₒ, kₒ, mₒ]], [(1, [aᵥ, bᵥ, cᵥ, dᵥ, iₒ, jₒ, kₒ, lₒ])]⟩,
  -- line 1501: mcek,eabdijml->abcdijkl
  ⟨50000000000001/50000000000000, [g_aaaa [mₒ, cᵥ, eᵥ, kₒ], t4_aaabaaab [eᵥ, aᵥ, bᵥ, dᵥ, iₒ, jₒ, mₒ, lₒ]], [(1, [aᵥ, bᵥ, cᵥ, dᵥ, iₒ, jₒ, kₒ, lₒ])]⟩,
  -- line 1504: cmke,baedijlm->abcdijkl
  ⟨50000000000001/50000000000000, [g_abab [cᵥ, mₒ, kₒ, eᵥ], t4_aabbaabb [bᵥ, aᵥ, eᵥ, dᵥ, iₒ, jₒ, lₒ, mₒ]], [(1, [aᵥ, bᵥ, cᵥ, dᵥ, iₒ, jₒ, kₒ, lₒ])]⟩,
  -- line 1507: mdke,cabeijml->abcdijkl
  ⟨-50000000000001/50000000000000, [g_abab [mₒ, dᵥ, kₒ, eᵥ], t4_aaabaaab [cᵥ, aᵥ, bᵥ, eᵥ, iₒ, jₒ, mₒ, lₒ]], [(1, [aᵥ, bᵥ, cᵥ, dᵥ, iₒ, jₒ, kₒ, lₒ])]⟩,
  -- line 1510: mcej,eabdikml->abcdijkl
  ⟨-50000000000001/50000000000000, [g_aaaa [mₒ, cᵥ, eᵥ, jₒ], t4_aaabaaab [eᵥ, aᵥ, bᵥ, dᵥ, iₒ, kₒ, mₒ, lₒ]], [(1, [aᵥ, bᵥ, cᵥ, dᵥ, iₒ, jₒ, kₒ, lₒ]), (-1, [aᵥ, bᵥ, cᵥ, dᵥ, jₒ, iₒ, kₒ, lₒ])]⟩,
  -- line 1514: cmje,baediklm->abcdijkl
  ⟨-50000000000001/50000000000000, [g_abab [cᵥ, mₒ, jₒ, eᵥ], t4_aabbaabb [bᵥ, aᵥ, eᵥ, dᵥ, iₒ, kₒ, lₒ, mₒ]], [(1, [aᵥ, bᵥ, cᵥ, dᵥ, iₒ, jₒ, kₒ, lₒ]), (-1, [aᵥ, bᵥ, cᵥ, dᵥ, jₒ, iₒ, kₒ, lₒ])]⟩,
  -- line 1518: mdje,cabeikml->abcdijkl
  ⟨50000000000001/50000000000000, [g_abab [mₒ, dᵥ, jₒ, eᵥ], t4_aaabaaab [cᵥ, aᵥ, bᵥ, eᵥ, iₒ, kₒ, mₒ, lₒ]], [(1, [aᵥ, bᵥ, cᵥ, dᵥ, iₒ, jₒ, kₒ, lₒ]), (-1, [aᵥ, bᵥ, cᵥ, dᵥ, jₒ, iₒ, kₒ, lₒ])]⟩,
  -- line 1522: abef,efcdijkl->abcdijkl
  ⟨50000000000001/100000000000000, [g_aaaa [aᵥ, bᵥ, eᵥ, fᵥ], t4_aaabaaab [eᵥ, fᵥ, cᵥ, dᵥ, iₒ, jₒ, kₒ, lₒ]], [(1, [aᵥ, bᵥ, cᵥ, dᵥ, iₒ, jₒ, kₒ, lₒ]), (-1, [aᵥ, cᵥ, bᵥ, dᵥ, iₒ, jₒ, kₒ, lₒ])]⟩,
  -- line 1526: adef,ecbfijkl->abcdijkl
  ⟨-50000000000001/100000000000000, [g_abab [aᵥ, dᵥ, eᵥ, fᵥ], t4_aaabaaab [eᵥ, cᵥ, bᵥ, fᵥ, iₒ, jₒ, kₒ, lₒ]], [(1, [aᵥ, bᵥ, cᵥ, dᵥ, iₒ, jₒ, kₒ, lₒ]), (-1, [bᵥ, aᵥ, cᵥ, dᵥ, iₒ, jₒ, kₒ, lₒ])]⟩,
  -- line 1530: adfe,cfbeijkl->abcdijkl
  ⟨50000000000001/100000000000000, [g_abab [aᵥ, dᵥ, fᵥ, eᵥ], t4_aaabaaab [cᵥ, fᵥ, bᵥ, eᵥ, iₒ, jₒ, kₒ, lₒ]], [(1, [aᵥ, bᵥ, cᵥ, dᵥ, iₒ, jₒ, kₒ, lₒ]), (-1, [bᵥ, aᵥ, cᵥ, dᵥ, iₒ, jₒ, kₒ, lₒ])]⟩,
  -- line 1534: bcef,efadijkl->abcdijkl
  ⟨50000000000001/100000000000000, [g_aaaa [bᵥ, cᵥ, eᵥ, fᵥ], t4_aaabaaab [eᵥ, fᵥ, aᵥ, dᵥ, iₒ, jₒ, kₒ, lₒ]], [(1, [aᵥ, bᵥ, cᵥ, dᵥ, iₒ, jₒ, kₒ, lₒ])]⟩,
  -- line 1537: cdef,ebafijkl->abcdijkl
  ⟨-50000000000001/100000000000000, [g_abab [cᵥ, dᵥ, eᵥ, fᵥ], t4_aaabaaab [eᵥ, bᵥ, aᵥ, fᵥ, iₒ, jₒ, kₒ, lₒ]], [(1, [aᵥ, bᵥ, cᵥ, dᵥ, iₒ, jₒ, kₒ, lₒ])]⟩,
  -- line 1540: cdfe,bfaeijkl->abcdijkl
  ⟨50000000000001/100000000000000, [g_abab [cᵥ, dᵥ, fᵥ, eᵥ], t4_aaabaaab [bᵥ, fᵥ, aᵥ, eᵥ, iₒ, jₒ, kₒ, lₒ]], [(1, [aᵥ, bᵥ, cᵥ, dᵥ, iₒ, jₒ, kₒ, lₒ])]⟩,
  -- line 1543: mnef,efml,abcdijkn->abcdijkl
  ⟨-9999999999999/20000000000000, [g_abab [mₒ, nₒ, eᵥ, fᵥ], t2_abab [eᵥ, fᵥ, mₒ, lₒ], t4_aaabaaab [aᵥ, bᵥ, cᵥ, dᵥ, iₒ, jₒ, kₒ, nₒ]], [(1, [aᵥ, bᵥ, cᵥ, dᵥ, iₒ, jₒ, kₒ, lₒ])]⟩,
  -- line 1546: mnfe,feml,abcdijkn->abcdijkl
  ⟨-9999999999999/20000000000000, [g_abab [mₒ, nₒ, fᵥ, eᵥ], t2_abab [fᵥ, eᵥ, mₒ, lₒ], t4_aaabaaab [aᵥ, bᵥ, cᵥ, dᵥ, iₒ, jₒ, kₒ, nₒ]], [(1, [aᵥ, bᵥ, cᵥ, dᵥ, iₒ, jₒ, kₒ, lₒ])]⟩,
  -- line 1549: nmef,eflm,abcdijkn->abcdijkl
  ⟨-9999999999999/20000000000000, [g_bbbb [nₒ, mₒ, eᵥ, fᵥ], t2_bbbb [eᵥ, fᵥ, lₒ, mₒ], t4_aaabaaab [aᵥ, bᵥ, cᵥ, dᵥ, iₒ, jₒ, kₒ, nₒ]], [(1, [aᵥ, bᵥ, cᵥ, dᵥ, iₒ, jₒ, kₒ, lₒ])]⟩,
  -- line 1552: nmef,efkm,abcdijnl->abcdijkl
  ⟨-9999999999999/20000000000000, [g_aaaa [nₒ, mₒ, eᵥ, fᵥ], t2_aaaa [eᵥ, fᵥ, kₒ, mₒ], t4_aaabaaab [aᵥ, bᵥ, cᵥ, dᵥ, iₒ, jₒ, nₒ, lₒ]], [(1, [aᵥ, bᵥ, cᵥ, dᵥ, iₒ, jₒ, kₒ, lₒ])]⟩,
  -- line 1555: nmef,efkm,abcdijnl->abcdijkl
  ⟨-9999999999999/20000000000000, [g_abab [nₒ, mₒ, eᵥ, fᵥ], t2_abab [eᵥ, fᵥ, kₒ, mₒ], t4_aaabaaab [aᵥ, bᵥ, cᵥ, dᵥ, iₒ, jₒ, nₒ, lₒ]], [(1, [aᵥ, bᵥ, cᵥ, dᵥ, iₒ, jₒ, kₒ, lₒ])]⟩,
  -- line 1558: nmfe,fekm,abcdijnl->abcdijkl
  ⟨-9999999999999/20000000000000, [g_abab [nₒ, mₒ, fᵥ, eᵥ], t2_abab [fᵥ, eᵥ, kₒ, mₒ], t4_aaabaaab [aᵥ, bᵥ, cᵥ, dᵥ, iₒ, jₒ, nₒ, lₒ]], [(1, [aᵥ, bᵥ, cᵥ, dᵥ, iₒ, jₒ, kₒ, lₒ])]⟩,
  -- line 1561: nmef,efjm,abcdiknl->abcdijkl
  ⟨9999999999999/20000000000000, [g_aaaa [nₒ, mₒ, eᵥ, fᵥ], t2_aaaa [eᵥ, fᵥ, jₒ, mₒ], t4_aaabaaab [aᵥ, bᵥ, cᵥ, dᵥ, iₒ, kₒ, nₒ, lₒ]], [(1, [aᵥ, bᵥ, cᵥ, dᵥ, iₒ, jₒ, kₒ, lₒ]), (-1, [aᵥ, bᵥ, cᵥ, dᵥ, jₒ, iₒ, kₒ, lₒ])]⟩,
  -- line 1565: nmef,efjm,abcdiknl->abcdijkl
  ⟨9999999999999/20000000000000, [g_abab [nₒ, mₒ, eᵥ, fᵥ], t2_abab [eᵥ, fᵥ, jₒ, mₒ], t4_aaabaaab [aᵥ, bᵥ, cᵥ, dᵥ, iₒ, kₒ, nₒ, lₒ]], [(1, [aᵥ, bᵥ, cᵥ, dᵥ, iₒ, jₒ, kₒ, lₒ]), (-1, [aᵥ, bᵥ, cᵥ, dᵥ, jₒ, iₒ, kₒ, lₒ])]⟩
  ]

/-- Part 1 of `ccdq_t4_aaabaaab`. -/
def ccdq_t4_aaabaaab_1 : Prog := [
  -- line 1569: nmfe,fejm,abcdiknl->abcdijkl
  ⟨9999999999999/20000000000000, [g_abab [nₒ, mₒ, fᵥ, eᵥ], t2_abab [fᵥ, eᵥ, jₒ, mₒ], t4_aaabaaab [aᵥ, bᵥ, cᵥ, dᵥ, iₒ, kₒ, nₒ, lₒ]], [(1, [aᵥ, bᵥ, cᵥ, dᵥ, iₒ, jₒ, kₒ, lₒ]), (-1, [aᵥ, bᵥ, cᵥ, dᵥ, jₒ, iₒ, kₒ, lₒ])]⟩,
  -- line 1573: nmef,efkl,abcdijnm->abcdijkl
  ⟨25000000000001/100000000000000, [g_abab [nₒ, mₒ, eᵥ, fᵥ], t2_abab [eᵥ, fᵥ, kₒ, lₒ], t4_aaabaaab [aᵥ, bᵥ, cᵥ, dᵥ, iₒ, jₒ, nₒ, mₒ]], [(1, [aᵥ, bᵥ, cᵥ, dᵥ, iₒ, jₒ, kₒ, lₒ]), (-1, [aᵥ, bᵥ, cᵥ, dᵥ, iₒ, kₒ, jₒ, lₒ])]⟩,
  -- line 1577: mnef,efkl,abcdijmn->abcdijkl
  ⟨25000000000001/100000000000000, [g_abab [mₒ, nₒ, eᵥ, fᵥ], t2_abab [eᵥ, fᵥ, kₒ, lₒ], t4_aaabaaab [aᵥ, bᵥ, cᵥ, dᵥ, iₒ, jₒ, mₒ, nₒ]], [(1, [aᵥ, bᵥ, cᵥ, dᵥ, iₒ, jₒ, kₒ, lₒ]), (-1, [aᵥ, bᵥ, cᵥ, dᵥ, iₒ, kₒ, jₒ, lₒ])]⟩,
  -- line 1581: nmfe,fekl,abcdijnm->abcdijkl
  ⟨25000000000001/100000000000000, [g_abab [nₒ, mₒ, fᵥ, eᵥ], t2_abab [fᵥ, eᵥ, kₒ, lₒ], t4_aaabaaab [aᵥ, bᵥ, cᵥ, dᵥ, iₒ, jₒ, nₒ, mₒ]], [(1, [aᵥ, bᵥ, cᵥ, dᵥ, iₒ, jₒ, kₒ, lₒ]), (-1, [aᵥ, bᵥ, cᵥ, dᵥ, iₒ, kₒ, jₒ, lₒ])]⟩,
  -- line 1585: mnfe,fekl,abcdijmn->abcdijkl
  ⟨25000000000001/100000000000000, [g_abab [mₒ, nₒ, fᵥ, eᵥ], t2_abab [fᵥ, eᵥ, kₒ, lₒ], t4_aaabaaab [aᵥ, bᵥ, cᵥ, dᵥ, iₒ, jₒ, mₒ, nₒ]], [(1, [aᵥ, bᵥ, cᵥ, dᵥ, iₒ, jₒ, kₒ, lₒ]), (-1, [aᵥ, bᵥ, cᵥ, dᵥ, iₒ, kₒ, jₒ, lₒ])]⟩,
  -- line 1589: nmef,efil,abcdjknm->abcdijkl
  ⟨25000000000001/100000000000000, [g_abab [nₒ, mₒ, eᵥ, fᵥ], t2_abab [eᵥ, fᵥ, iₒ, lₒ], t4_aaabaaab [aᵥ, bᵥ, cᵥ, dᵥ, jₒ, kₒ, nₒ, mₒ]], [(1, [aᵥ, bᵥ, cᵥ, dᵥ, iₒ, jₒ, kₒ, lₒ])]⟩,
  -- line 1592: mnef,efil,abcdjkmn->abcdijkl
  ⟨25000000000001/100000000000000, [g_abab [mₒ, nₒ, eᵥ, fᵥ], t2_abab [eᵥ, fᵥ, iₒ, lₒ], t4_aaabaaab [aᵥ, bᵥ, cᵥ, dᵥ, jₒ, kₒ, mₒ, nₒ]], [(1, [aᵥ, bᵥ, cᵥ, dᵥ, iₒ, jₒ, kₒ, lₒ])]⟩,
  -- line 1595: nmfe,feil,abcdjknm->abcdijkl
  ⟨25000000000001/100000000000000, [g_abab [nₒ, mₒ, fᵥ, eᵥ], t2_abab [fᵥ, eᵥ, iₒ, lₒ], t4_aaabaaab [aᵥ, bᵥ, cᵥ, dᵥ, jₒ, kₒ, nₒ, mₒ]], [(1, [aᵥ, bᵥ, cᵥ, dᵥ, iₒ, jₒ, kₒ, lₒ])]⟩,
  -- line 1598: mnfe,feil,abcdjkmn->abcdijkl
  ⟨25000000000001/100000000000000, [g_abab [mₒ, nₒ, fᵥ, eᵥ], t2_abab [fᵥ, eᵥ, iₒ, lₒ], t4_aaabaaab [aᵥ, bᵥ, cᵥ, dᵥ, jₒ, kₒ, mₒ, nₒ]], [(1, [aᵥ, bᵥ, cᵥ, dᵥ, iₒ, jₒ, kₒ, lₒ])]⟩,
  -- line 1601: nmef,efik,abcdjmnl->abcdijkl
  ⟨25000000000001/100000000000000, [g_aaaa [nₒ, mₒ, eᵥ, fᵥ], t2_aaaa [eᵥ, fᵥ, iₒ, kₒ], t4_aaabaaab [aᵥ, bᵥ, cᵥ, dᵥ, jₒ, mₒ, nₒ, lₒ]], [(1, [aᵥ, bᵥ, cᵥ, dᵥ, iₒ, jₒ, kₒ, lₒ])]⟩,
  -- line 1604: nmef,efjk,abcdimnl->abcdijkl
  ⟨-25000000000001/100000000000000, [g_aaaa [nₒ, mₒ, eᵥ, fᵥ], t2_aaaa [eᵥ, fᵥ, jₒ, kₒ], t4_aaabaaab [aᵥ, bᵥ, cᵥ, dᵥ, iₒ, mₒ, nₒ, lₒ]], [(1, [aᵥ, bᵥ, cᵥ, dᵥ, iₒ, jₒ, kₒ, lₒ]), (-1, [aᵥ, bᵥ, cᵥ, dᵥ, kₒ, jₒ, iₒ, lₒ])]⟩,
  -- line 1608: nmef,eanm,fbcdijkl->abcdijkl
  ⟨-9999999999999/20000000000000, [g_aaaa [nₒ, mₒ, eᵥ, fᵥ], t2_aaaa [eᵥ, aᵥ, nₒ, mₒ], t4_aaabaaab [fᵥ, bᵥ, cᵥ, dᵥ, iₒ, jₒ, kₒ, lₒ]], [(1, [aᵥ, bᵥ, cᵥ, dᵥ, iₒ, jₒ, kₒ, lₒ]), (-1, [bᵥ, aᵥ, cᵥ, dᵥ, iₒ, jₒ, kₒ, lₒ])]⟩,
  -- line 1612: nmfe,aenm,fbcdijkl->abcdijkl
  ⟨-9999999999999/20000000000000, [g_abab [nₒ, mₒ, fᵥ, eᵥ], t2_abab [aᵥ, eᵥ, nₒ, mₒ], t4_aaabaaab [fᵥ, bᵥ, cᵥ, dᵥ, iₒ, jₒ, kₒ, lₒ]], [(1, [aᵥ, bᵥ, cᵥ, dᵥ, iₒ, jₒ, kₒ, lₒ]), (-1, [bᵥ, aᵥ, cᵥ, dᵥ, iₒ, jₒ, kₒ, lₒ])]⟩,
  -- line 1616: mnfe,aemn,fbcdijkl->abcdijkl
  ⟨-9999999999999/20000000000000, [g_abab [mₒ, nₒ, fᵥ, eᵥ], t2_abab [aᵥ, eᵥ, mₒ, nₒ], t4_aaabaaab [fᵥ, bᵥ, cᵥ, dᵥ, iₒ, jₒ, kₒ, lₒ]], [(1, [aᵥ, bᵥ, cᵥ, dᵥ, iₒ, jₒ, kₒ, lₒ]), (-1, [bᵥ, aᵥ, cᵥ, dᵥ, iₒ, jₒ, kₒ, lₒ])]⟩,
  -- line 1620: mnfe,aeml,fbcdijkn->abcdijkl
  ⟨6249999999999/6250000000000, [g_abab [mₒ, nₒ, fᵥ, eᵥ], t2_abab [aᵥ, eᵥ, mₒ, lₒ], t4_aaabaaab [fᵥ, bᵥ, cᵥ, dᵥ, iₒ, jₒ, kₒ, nₒ]], [(1, [aᵥ, bᵥ, cᵥ, dᵥ, iₒ, jₒ, kₒ, lₒ]), (-1, [bᵥ, aᵥ, cᵥ, dᵥ, iₒ, jₒ, kₒ, lₒ])]⟩,
  -- line 1624: nmef,eakm,fbcdijnl->abcdijkl
  ⟨6249999999999/6250000000000, [g_aaaa [nₒ, mₒ, eᵥ, fᵥ], t2_aaaa [eᵥ, aᵥ, kₒ, mₒ], t4_aaabaaab [fᵥ, bᵥ, cᵥ, dᵥ, iₒ, jₒ, nₒ, lₒ]], [(1, [aᵥ, bᵥ, cᵥ, dᵥ, iₒ, jₒ, kₒ, lₒ]), (-1, [bᵥ, aᵥ, cᵥ, dᵥ, iₒ, jₒ, kₒ, lₒ])]⟩,
  -- line 1628: mnef,eakm,cbfdijln->abcdijkl
  ⟨-6249999999999/6250000000000, [g_abab [mₒ, nₒ, eᵥ, fᵥ], t2_aaaa [eᵥ, aᵥ, kₒ, mₒ], t4_aabbaabb [cᵥ, bᵥ, fᵥ, dᵥ, iₒ, jₒ, lₒ, nₒ]], [(1, [aᵥ, bᵥ, cᵥ, dᵥ, iₒ, jₒ, kₒ, lₒ]), (-1, [bᵥ, aᵥ, cᵥ, dᵥ, iₒ, jₒ, kₒ, lₒ])]⟩,
  -- line 1632: nmfe,aekm,fbcdijnl->abcdijkl
  ⟨6249999999999/6250000000000, [g_abab [nₒ, mₒ, fᵥ, eᵥ], t2_abab [aᵥ, eᵥ, kₒ, mₒ], t4_aaabaaab [fᵥ, bᵥ, cᵥ, dᵥ, iₒ, jₒ, nₒ, lₒ]], [(1, [aᵥ, bᵥ, cᵥ, dᵥ, iₒ, jₒ, kₒ, lₒ]), (-1, [bᵥ, aᵥ, cᵥ, dᵥ, iₒ, jₒ, kₒ, lₒ])]⟩,
  -- line 1636: nmef,aekm,cbfdijln->abcdijkl
  ⟨-6249999999999/6250000000000, [g_bbbb [nₒ, mₒ, eᵥ, fᵥ], t2_abab [aᵥ, eᵥ, kₒ, mₒ], t4_aabbaabb [cᵥ, bᵥ, fᵥ, dᵥ, iₒ, jₒ, lₒ, nₒ]], [(1, [aᵥ, bᵥ, cᵥ, dᵥ, iₒ, jₒ, kₒ, lₒ]), (-1, [bᵥ, aᵥ, cᵥ, dᵥ, iₒ, jₒ, kₒ, lₒ])]⟩,
  -- line 1640: nmef,eajm,fbcdiknl->abcdijkl
  ⟨-6249999999999/6250000000000, [g_aaaa [nₒ, mₒ, eᵥ, fᵥ], t2_aaaa [eᵥ, aᵥ, jₒ, mₒ], t4_aaabaaab [fᵥ, bᵥ, cᵥ, dᵥ, iₒ, kₒ, nₒ, lₒ]], [(1, [aᵥ, bᵥ, cᵥ, dᵥ, iₒ, jₒ, kₒ, lₒ]), (-1, [aᵥ, bᵥ, cᵥ, dᵥ, jₒ, iₒ, kₒ, lₒ]), (-1, [bᵥ, aᵥ, cᵥ, dᵥ, iₒ, jₒ, kₒ, lₒ]), (1, [bᵥ, aᵥ, cᵥ, dᵥ, jₒ, iₒ, kₒ, lₒ])]⟩,
  -- line 1644: mnef,eajm,cbfdikln->abcdijkl
  ⟨6249999999999/6250000000000, [g_abab [mₒ, nₒ, eᵥ, fᵥ], t2_aaaa [eᵥ, aᵥ, jₒ, mₒ], t4_aabbaabb [cᵥ, bᵥ, fᵥ, dᵥ, iₒ, kₒ, lₒ, nₒ]], [(1, [aᵥ, bᵥ, cᵥ, dᵥ, iₒ, jₒ, kₒ, lₒ]), (-1, [aᵥ, bᵥ, cᵥ, dᵥ, jₒ, iₒ, kₒ, lₒ]), (-1, [bᵥ, aᵥ, cᵥ, dᵥ, iₒ, jₒ, kₒ, lₒ]), (1, [bᵥ, aᵥ, cᵥ, dᵥ, jₒ, iₒ, kₒ, lₒ])]⟩,
  -- line 1648: nmfe,aejm,fbcdiknl->abcdijkl
  ⟨-6249999999999/6250000000000, [g_abab [nₒ, mₒ, fᵥ, eᵥ], t2_abab [aᵥ, eᵥ, jₒ, mₒ], t4_aaabaaab [fᵥ, bᵥ, cᵥ, dᵥ, iₒ, kₒ, nₒ, lₒ]], [(1, [aᵥ, bᵥ, cᵥ, dᵥ, iₒ, jₒ, kₒ, lₒ]), (-1, [aᵥ, bᵥ, cᵥ, dᵥ, jₒ, iₒ, kₒ, lₒ]), (-1, [bᵥ, aᵥ, cᵥ, dᵥ, iₒ, jₒ, kₒ, lₒ]), (1, [bᵥ, aᵥ, cᵥ, dᵥ, jₒ, iₒ, kₒ, lₒ])]⟩,
  -- line 1652: nmef,aejm,cbfdikln->abcdijkl
  ⟨6249999999999/6250000000000, [g_bbbb [nₒ, mₒ, eᵥ, fᵥ], t2_abab [aᵥ, eᵥ, jₒ, mₒ], t4_aabbaabb [cᵥ, bᵥ, fᵥ, dᵥ, iₒ, kₒ, lₒ, nₒ]], [(1, [aᵥ, bᵥ, cᵥ, dᵥ, iₒ, jₒ, kₒ, lₒ]), (-1, [aᵥ, bᵥ, cᵥ, dᵥ, jₒ, iₒ, kₒ, lₒ]), (-1, [bᵥ, aᵥ, cᵥ, dᵥ, iₒ, jₒ, kₒ, lₒ]), (1, [bᵥ, aᵥ, cᵥ, dᵥ, jₒ, iₒ, kₒ, lₒ])]⟩,
  -- line 1656: nmfe,aekl,fbcdijnm->abcdijkl
  ⟨-9999999999999/20000000000000, [g_abab [nₒ, mₒ, fᵥ, eᵥ], t2_abab [aᵥ, eᵥ, kₒ, lₒ], t4_aaabaaab [fᵥ, bᵥ, cᵥ, dᵥ, iₒ, jₒ, nₒ, mₒ]], [(1, [aᵥ, bᵥ, cᵥ, dᵥ, iₒ, jₒ, kₒ, lₒ]), (-1, [aᵥ, bᵥ, cᵥ, dᵥ, iₒ, kₒ, jₒ, lₒ]), (-1, [bᵥ, aᵥ, cᵥ, dᵥ, iₒ, jₒ, kₒ, lₒ]), (1, [bᵥ, aᵥ, cᵥ, dᵥ, iₒ, kₒ, jₒ, lₒ])]⟩,
  -- line 1660: mnfe,aekl,fbcdijmn->abcdijkl
  ⟨-9999999999999/20000000000000, [g_abab [mₒ, nₒ, fᵥ, eᵥ], t2_abab [aᵥ, eᵥ, kₒ, lₒ], t4_aaabaaab [fᵥ, bᵥ, cᵥ, dᵥ, iₒ, jₒ, mₒ, nₒ]], [(1, [aᵥ, bᵥ, cᵥ, dᵥ, iₒ, jₒ, kₒ, lₒ]), (-1, [aᵥ, bᵥ, cᵥ, dᵥ, iₒ, kₒ, jₒ, lₒ]), (-1, [bᵥ, aᵥ, cᵥ, dᵥ, iₒ, jₒ, kₒ, lₒ]), (1, [bᵥ, aᵥ, cᵥ, dᵥ, iₒ, kₒ, jₒ, lₒ])]⟩,
  -- line 1664: nmef,aekl,cbfdijnm->abcdijkl
  ⟨-9999999999999/20000000000000, [g_bbbb [nₒ, mₒ, eᵥ, fᵥ], t2_abab [aᵥ, eᵥ, kₒ, lₒ], t4_aabbaabb [cᵥ, bᵥ, fᵥ, dᵥ, iₒ, jₒ, nₒ, mₒ]], [(1, [aᵥ, bᵥ, cᵥ, dᵥ, iₒ, jₒ, kₒ, lₒ]), (-1, [aᵥ, bᵥ, cᵥ, dᵥ, iₒ, kₒ, jₒ, lₒ]), (-1, [bᵥ, aᵥ, cᵥ, dᵥ, iₒ, jₒ, kₒ, lₒ]), (1, [bᵥ, aᵥ, cᵥ, dᵥ, iₒ, kₒ, jₒ, lₒ])]⟩,
  -- line 1668: nmfe,aeil,fbcdjknm->abcdijkl
  ⟨-9999999999999/20000000000000, [g_abab [nₒ, mₒ, fᵥ, eᵥ], t2_abab [aᵥ, eᵥ, iₒ, lₒ], t4_aaabaaab [fᵥ, bᵥ, cᵥ, dᵥ, jₒ, kₒ, nₒ, mₒ]], [(1, [aᵥ, bᵥ, cᵥ, dᵥ, iₒ, jₒ, kₒ, lₒ]), (-1, [bᵥ, aᵥ, cᵥ, dᵥ, iₒ, jₒ, kₒ, lₒ])]⟩,
  -- line 1672: mnfe,aeil,fbcdjkmn->abcdijkl
  ⟨-9999999999999/20000000000000, [g_abab [mₒ, nₒ, fᵥ, eᵥ], t2_abab [aᵥ, eᵥ, iₒ, lₒ], t4_aaabaaab [fᵥ, bᵥ, cᵥ, dᵥ, jₒ, kₒ, mₒ, nₒ]], [(1, [aᵥ, bᵥ, cᵥ, dᵥ, iₒ, jₒ, kₒ, lₒ]), (-1, [bᵥ, aᵥ, cᵥ, dᵥ, iₒ, jₒ, kₒ, lₒ])]⟩,
  -- line 1676: nmef,aeil,cbfdjknm->abcdijkl
  ⟨-9999999999999/20000000000000, [g_bbbb [nₒ, mₒ, eᵥ, fᵥ], t2_abab [aᵥ, eᵥ, iₒ, lₒ], t4_aabbaabb [cᵥ, bᵥ, fᵥ, dᵥ, jₒ, kₒ, nₒ, mₒ]], [(1, [aᵥ, bᵥ, cᵥ, dᵥ, iₒ, jₒ, kₒ, lₒ]), (-1, [bᵥ, aᵥ, cᵥ, dᵥ, iₒ, jₒ, kₒ, lₒ])]⟩,
  -- line 1680: nmef,eaik,fbcdjmnl->abcdijkl
  ⟨-9999999999999/20000000000000, [g_aaaa [nₒ, mₒ, eᵥ, fᵥ], t2_aaaa [eᵥ, aᵥ, iₒ, kₒ], t4_aaabaaab [fᵥ, bᵥ, cᵥ, dᵥ, jₒ, mₒ, nₒ, lₒ]], [(1, [aᵥ, bᵥ, cᵥ, dᵥ, iₒ, jₒ, kₒ, lₒ]), (-1, [bᵥ, aᵥ, cᵥ, dᵥ, iₒ, jₒ, kₒ, lₒ])]⟩,
  -- line 1684: nmef,eaik,cbfdjnlm->abcdijkl
  ⟨9999999999999/20000000000000, [g_abab [nₒ, mₒ, eᵥ, fᵥ], t2_aaaa [eᵥ, aᵥ, iₒ, kₒ], t4_aabbaabb [cᵥ, bᵥ, fᵥ, dᵥ, jₒ, nₒ, lₒ, mₒ]], [(1, [aᵥ, bᵥ, cᵥ, dᵥ, iₒ, jₒ, kₒ, lₒ]), (-1, [bᵥ, aᵥ, cᵥ, dᵥ, iₒ, jₒ, kₒ, lₒ])]⟩,
  -- line 1688: mnef,eaik,cbfdjmnl->abcdijkl
  ⟨-9999999999999/20000000000000, [g_abab [mₒ, nₒ, eᵥ, fᵥ], t2_aaaa [eᵥ, aᵥ, iₒ, kₒ], t4_aabbaabb [cᵥ, bᵥ, fᵥ, dᵥ, jₒ, mₒ, nₒ, lₒ]], [(1, [aᵥ, bᵥ, cᵥ, dᵥ, iₒ, jₒ, kₒ, lₒ]), (-1, [bᵥ, aᵥ, cᵥ, dᵥ, iₒ, jₒ, kₒ, lₒ])]⟩,
  -- line 1692: nmef,eajk,fbcdimnl->abcdijkl
  ⟨9999999999999/20000000000000, [g_aaaa [nₒ, mₒ, eᵥ, fᵥ], t2_aaaa [eᵥ, aᵥ, jₒ, kₒ], t4_aaabaaab [fᵥ, bᵥ, cᵥ, dᵥ, iₒ, mₒ, nₒ, lₒ]], [(1, [aᵥ, bᵥ, cᵥ, dᵥ, iₒ, jₒ, kₒ, lₒ]), (-1, [aᵥ, bᵥ, cᵥ, dᵥ, kₒ, jₒ, iₒ, lₒ]), (-1, [bᵥ, aᵥ, cᵥ, dᵥ, iₒ, jₒ, kₒ, lₒ]), (1, [bᵥ, aᵥ, cᵥ, dᵥ, kₒ, jₒ, iₒ, lₒ])]⟩,
  -- line 1696: nmef,eajk,cbfdinlm->abcdijkl
  ⟨-9999999999999/20000000000000, [g_abab [nₒ, mₒ, eᵥ, fᵥ], t2_aaaa [eᵥ, aᵥ, jₒ, kₒ], t4_aabbaabb [cᵥ, bᵥ, fᵥ, dᵥ, iₒ, nₒ, lₒ, mₒ]], [(1, [aᵥ, bᵥ, cᵥ, dᵥ, iₒ, jₒ, kₒ, lₒ]), (-1, [aᵥ, bᵥ, cᵥ, dᵥ, kₒ, jₒ, iₒ, lₒ]), (-1, [bᵥ, aᵥ, cᵥ, dᵥ, iₒ, jₒ, kₒ, lₒ]), (1, [bᵥ, aᵥ, cᵥ, dᵥ, kₒ, jₒ, iₒ, lₒ])]⟩,
  -- line 1700: mnef,eajk,cbfdimnl->abcdijkl
  ⟨9999999999999/20000000000000, [g_abab [mₒ, nₒ, eᵥ, fᵥ], t2_aaaa [eᵥ, aᵥ, jₒ, kₒ], t4_aabbaabb [cᵥ, bᵥ, fᵥ, dᵥ, iₒ, mₒ, nₒ, lₒ]], [(1, [aᵥ, bᵥ, cᵥ, dᵥ, iₒ, jₒ, kₒ, lₒ]), (-1, [aᵥ, bᵥ, cᵥ, dᵥ, kₒ, jₒ, iₒ, lₒ]), (-1, [bᵥ, aᵥ, cᵥ, dᵥ, iₒ, jₒ, kₒ, lₒ]), (1, [bᵥ, aᵥ, cᵥ, dᵥ, kₒ, jₒ, iₒ, lₒ])]⟩,
  -- line 1704: nmef,ecnm,fabdijkl->abcdijkl
  ⟨-9999999999999/20000000000000, [g_aaaa [nₒ, mₒ, eᵥ, fᵥ], t2_aaaa [eᵥ, cᵥ, nₒ, mₒ], t4_aaabaaab [fᵥ, aᵥ, bᵥ, dᵥ, iₒ, jₒ, kₒ, lₒ]], [(1, [aᵥ, bᵥ, cᵥ, dᵥ, iₒ, jₒ, kₒ, lₒ])]⟩,
  -- line 1707: nmfe,cenm,fabdijkl->abcdijkl
  ⟨-9999999999999/20000000000000, [g_abab [nₒ, mₒ, fᵥ, eᵥ], t2_abab [cᵥ, eᵥ, nₒ, mₒ], t4_aaabaaab [fᵥ, aᵥ, bᵥ, dᵥ, iₒ, jₒ, kₒ, lₒ]], [(1, [aᵥ, bᵥ, cᵥ, dᵥ, iₒ, jₒ, kₒ, lₒ])]⟩,
  -- line 1710: mnfe,cemn,fabdijkl->abcdijkl
  ⟨-9999999999999/20000000000000, [g_abab [mₒ, nₒ, fᵥ, eᵥ], t2_abab [cᵥ, eᵥ, mₒ, nₒ], t4_aaabaaab [fᵥ, aᵥ, bᵥ, dᵥ, iₒ, jₒ, kₒ, lₒ]], [(1, [aᵥ, bᵥ, cᵥ, dᵥ, iₒ, jₒ, kₒ, lₒ])]⟩,
  -- line 1713: nmef,ednm,cabfijkl->abcdijkl
  ⟨-9999999999999/20000000000000, [g_abab [nₒ, mₒ, eᵥ, fᵥ], t2_abab [eᵥ, dᵥ, nₒ, mₒ], t4_aaabaaab [cᵥ, aᵥ, bᵥ, fᵥ, iₒ, jₒ, kₒ, lₒ]], [(1, [aᵥ, bᵥ, cᵥ, dᵥ, iₒ, jₒ, kₒ, lₒ])]⟩,
  -- line 1716: mnef,edmn,cabfijkl->abcdijkl
  ⟨-9999999999999/20000000000000, [g_abab [mₒ, nₒ, eᵥ, fᵥ], t2_abab [eᵥ, dᵥ, mₒ, nₒ], t4_aaabaaab [cᵥ, aᵥ, bᵥ, fᵥ, iₒ, jₒ, kₒ, lₒ]], [(1, [aᵥ, bᵥ, cᵥ, dᵥ, iₒ, jₒ, kₒ, lₒ])]⟩
  ]

/-- Part 2 of `ccdq_t4_aaabaaab`. -/
def ccdq_t4_aaabaaab_2 : Prog := [
  -- line 1719: nmef,ednm,cabfijkl->abcdijkl
  ⟨-9999999999999/20000000000000, [g_bbbb [nₒ, mₒ, eᵥ, fᵥ], t2_bbbb [eᵥ, dᵥ, nₒ, mₒ], t4_aaabaaab [cᵥ, aᵥ, bᵥ, fᵥ, iₒ, jₒ, kₒ, lₒ]], [(1, [aᵥ, bᵥ, cᵥ, dᵥ, iₒ, jₒ, kₒ, lₒ])]⟩,
  -- line 1722: mnfe,ceml,fabdijkn->abcdijkl
  ⟨6249999999999/6250000000000, [g_abab [mₒ, nₒ, fᵥ, eᵥ], t2_abab [cᵥ, eᵥ, mₒ, lₒ], t4_aaabaaab [fᵥ, aᵥ, bᵥ, dᵥ, iₒ, jₒ, kₒ, nₒ]], [(1, [aᵥ, bᵥ, cᵥ, dᵥ, iₒ, jₒ, kₒ, lₒ])]⟩,
  -- line 1725: nmef,edml,fabcijkn->abcdijkl
  ⟨6249999999999/6250000000000, [g_aaaa [nₒ, mₒ, eᵥ, fᵥ], t2_abab [eᵥ, dᵥ, mₒ, lₒ], t4_aaaaaaaa [fᵥ, aᵥ, bᵥ, cᵥ, iₒ, jₒ, kₒ, nₒ]], [(1, [aᵥ, bᵥ, cᵥ, dᵥ, iₒ, jₒ, kₒ, lₒ])]⟩,
  -- line 1728: mnef,edml,cabfijkn->abcdijkl
  ⟨6249999999999/6250000000000, [g_abab [mₒ, nₒ, eᵥ, fᵥ], t2_abab [eᵥ, dᵥ, mₒ, lₒ], t4_aaabaaab [cᵥ, aᵥ, bᵥ, fᵥ, iₒ, jₒ, kₒ, nₒ]], [(1, [aᵥ, bᵥ, cᵥ, dᵥ, iₒ, jₒ, kₒ, lₒ])]⟩,
  -- line 1731: nmfe,edlm,fabcijkn->abcdijkl
  ⟨6249999999999/6250000000000, [g_abab [nₒ, mₒ, fᵥ, eᵥ], t2_bbbb [eᵥ, dᵥ, lₒ, mₒ], t4_aaaaaaaa [fᵥ, aᵥ, bᵥ, cᵥ, iₒ, jₒ, kₒ, nₒ]], [(1, [aᵥ, bᵥ, cᵥ, dᵥ, iₒ, jₒ, kₒ, lₒ])]⟩,
  -- line 1734: nmef,edlm,cabfijkn->abcdijkl
  ⟨6249999999999/6250000000000, [g_bbbb [nₒ, mₒ, eᵥ, fᵥ], t2_bbbb [eᵥ, dᵥ, lₒ, mₒ], t4_aaabaaab [cᵥ, aᵥ, bᵥ, fᵥ, iₒ, jₒ, kₒ, nₒ]], [(1, [aᵥ, bᵥ, cᵥ, dᵥ, iₒ, jₒ, kₒ, lₒ])]⟩,
  -- line 1737: nmef,eckm,fabdijnl->abcdijkl
  ⟨6249999999999/6250000000000, [g_aaaa [nₒ, mₒ, eᵥ, fᵥ], t2_aaaa [eᵥ, cᵥ, kₒ, mₒ], t4_aaabaaab [fᵥ, aᵥ, bᵥ, dᵥ, iₒ, jₒ, nₒ, lₒ]], [(1, [aᵥ, bᵥ, cᵥ, dᵥ, iₒ, jₒ, kₒ, lₒ])]⟩,
  -- line 1740: mnef,eckm,bafdijln->abcdijkl
  ⟨-6249999999999/6250000000000, [g_abab [mₒ, nₒ, eᵥ, fᵥ], t2_aaaa [eᵥ, cᵥ, kₒ, mₒ], t4_aabbaabb [bᵥ, aᵥ, fᵥ, dᵥ, iₒ, jₒ, lₒ, nₒ]], [(1, [aᵥ, bᵥ, cᵥ, dᵥ, iₒ, jₒ, kₒ, lₒ])]⟩,
  -- line 1743: nmfe,cekm,fabdijnl->abcdijkl
  ⟨6249999999999/6250000000000, [g_abab [nₒ, mₒ, fᵥ, eᵥ], t2_abab [cᵥ, eᵥ, kₒ, mₒ], t4_aaabaaab [fᵥ, aᵥ, bᵥ, dᵥ, iₒ, jₒ, nₒ, lₒ]], [(1, [aᵥ, bᵥ, cᵥ, dᵥ, iₒ, jₒ, kₒ, lₒ])]⟩,
  -- line 1746: nmef,cekm,bafdijln->abcdijkl
  ⟨-6249999999999/6250000000000, [g_bbbb [nₒ, mₒ, eᵥ, fᵥ], t2_abab [cᵥ, eᵥ, kₒ, mₒ], t4_aabbaabb [bᵥ, aᵥ, fᵥ, dᵥ, iₒ, jₒ, lₒ, nₒ]], [(1, [aᵥ, bᵥ, cᵥ, dᵥ, iₒ, jₒ, kₒ, lₒ])]⟩,
  -- line 1749: nmef,edkm,cabfijnl->abcdijkl
  ⟨6249999999999/6250000000000, [g_abab [nₒ, mₒ, eᵥ, fᵥ], t2_abab [eᵥ, dᵥ, kₒ, mₒ], t4_aaabaaab [cᵥ, aᵥ, bᵥ, fᵥ, iₒ, jₒ, nₒ, lₒ]], [(1, [aᵥ, bᵥ, cᵥ, dᵥ, iₒ, jₒ, kₒ, lₒ])]⟩,
  -- line 1752: nmef,ecjm,fabdiknl->abcdijkl
  ⟨-6249999999999/6250000000000, [g_aaaa [nₒ, mₒ, eᵥ, fᵥ], t2_aaaa [eᵥ, cᵥ, jₒ, mₒ], t4_aaabaaab [fᵥ, aᵥ, bᵥ, dᵥ, iₒ, kₒ, nₒ, lₒ]], [(1, [aᵥ, bᵥ, cᵥ, dᵥ, iₒ, jₒ, kₒ, lₒ]), (-1, [aᵥ, bᵥ, cᵥ, dᵥ, jₒ, iₒ, kₒ, lₒ])]⟩,
  -- line 1756: mnef,ecjm,bafdikln->abcdijkl
  ⟨6249999999999/6250000000000, [g_abab [mₒ, nₒ, eᵥ, fᵥ], t2_aaaa [eᵥ, cᵥ, jₒ, mₒ], t4_aabbaabb [bᵥ, aᵥ, fᵥ, dᵥ, iₒ, kₒ, lₒ, nₒ]], [(1, [aᵥ, bᵥ, cᵥ, dᵥ, iₒ, jₒ, kₒ, lₒ]), (-1, [aᵥ, bᵥ, cᵥ, dᵥ, jₒ, iₒ, kₒ, lₒ])]⟩,
  -- line 1760: nmfe,cejm,fabdiknl->abcdijkl
  ⟨-6249999999999/6250000000000, [g_abab [nₒ, mₒ, fᵥ, eᵥ], t2_abab [cᵥ, eᵥ, jₒ, mₒ], t4_aaabaaab [fᵥ, aᵥ, bᵥ, dᵥ, iₒ, kₒ, nₒ, lₒ]], [(1, [aᵥ, bᵥ, cᵥ, dᵥ, iₒ, jₒ, kₒ, lₒ]), (-1, [aᵥ, bᵥ, cᵥ, dᵥ, jₒ, iₒ, kₒ, lₒ])]⟩,
  -- line 1764: nmef,cejm,bafdikln->abcdijkl
  ⟨6249999999999/6250000000000, [g_bbbb [nₒ, mₒ, eᵥ, fᵥ], t2_abab [cᵥ, eᵥ, jₒ, mₒ], t4_aabbaabb [bᵥ, aᵥ, fᵥ, dᵥ, iₒ, kₒ, lₒ, nₒ]], [(1, [aᵥ, bᵥ, cᵥ, dᵥ, iₒ, jₒ, kₒ, lₒ]), (-1, [aᵥ, bᵥ, cᵥ, dᵥ, jₒ, iₒ, kₒ, lₒ])]⟩,
  -- line 1768: nmef,edjm,cabfiknl->abcdijkl
  ⟨-6249999999999/6250000000000, [g_abab [nₒ, mₒ, eᵥ, fᵥ], t2_abab [eᵥ, dᵥ, jₒ, mₒ], t4_aaabaaab [cᵥ, aᵥ, bᵥ, fᵥ, iₒ, kₒ, nₒ, lₒ]], [(1, [aᵥ, bᵥ, cᵥ, dᵥ, iₒ, jₒ, kₒ, lₒ]), (-1, [aᵥ, bᵥ, cᵥ, dᵥ, jₒ, iₒ, kₒ, lₒ])]⟩,
  -- line 1772: nmfe,cekl,fabdijnm->abcdijkl
  ⟨-9999999999999/20000000000000, [g_abab [nₒ, mₒ, fᵥ, eᵥ], t2_abab [cᵥ, eᵥ, kₒ, lₒ], t4_aaabaaab [fᵥ, aᵥ, bᵥ, dᵥ, iₒ, jₒ, nₒ, mₒ]], [(1, [aᵥ, bᵥ, cᵥ, dᵥ, iₒ, jₒ, kₒ, lₒ]), (-1, [aᵥ, bᵥ, cᵥ, dᵥ, iₒ, kₒ, jₒ, lₒ])]⟩,
  -- line 1776: mnfe,cekl,fabdijmn->abcdijkl
  ⟨-9999999999999/20000000000000, [g_abab [mₒ, nₒ, fᵥ, eᵥ], t2_abab [cᵥ, eᵥ, kₒ, lₒ], t4_aaabaaab [fᵥ, aᵥ, bᵥ, dᵥ, iₒ, jₒ, mₒ, nₒ]], [(1, [aᵥ, bᵥ, cᵥ, dᵥ, iₒ, jₒ, kₒ, lₒ]), (-1, [aᵥ, bᵥ, cᵥ, dᵥ, iₒ, kₒ, jₒ, lₒ])]⟩,
  -- line 1780: nmef,cekl,bafdijnm->abcdijkl
  ⟨-9999999999999/20000000000000, [g_bbbb [nₒ, mₒ, eᵥ, fᵥ], t2_abab [cᵥ, eᵥ, kₒ, lₒ], t4_aabbaabb [bᵥ, aᵥ, fᵥ, dᵥ, iₒ, jₒ, nₒ, mₒ]], [(1, [aᵥ, bᵥ, cᵥ, dᵥ, iₒ, jₒ, kₒ, lₒ]), (-1, [aᵥ, bᵥ, cᵥ, dᵥ, iₒ, kₒ, jₒ, lₒ])]⟩,
  -- line 1784: nmef,edkl,fabcijnm->abcdijkl
  ⟨9999999999999/20000000000000, [g_aaaa [nₒ, mₒ, eᵥ, fᵥ], t2_abab [eᵥ, dᵥ, kₒ, lₒ], t4_aaaaaaaa [fᵥ, aᵥ, bᵥ, cᵥ, iₒ, jₒ, nₒ, mₒ]], [(1, [aᵥ, bᵥ, cᵥ, dᵥ, iₒ, jₒ, kₒ, lₒ]), (-1, [aᵥ, bᵥ, cᵥ, dᵥ, iₒ, kₒ, jₒ, lₒ])]⟩,
  -- line 1788: nmef,edkl,cabfijnm->abcdijkl
  ⟨-9999999999999/20000000000000, [g_abab [nₒ, mₒ, eᵥ, fᵥ], t2_abab [eᵥ, dᵥ, kₒ, lₒ], t4_aaabaaab [cᵥ, aᵥ, bᵥ, fᵥ, iₒ, jₒ, nₒ, mₒ]], [(1, [aᵥ, bᵥ, cᵥ, dᵥ, iₒ, jₒ, kₒ, lₒ]), (-1, [aᵥ, bᵥ, cᵥ, dᵥ, iₒ, kₒ, jₒ, lₒ])]⟩,
  -- line 1792: mnef,edkl,cabfijmn->abcdijkl
  ⟨-9999999999999/20000000000000, [g_abab [mₒ, nₒ, eᵥ, fᵥ], t2_abab [eᵥ, dᵥ, kₒ, lₒ], t4_aaabaaab [cᵥ, aᵥ, bᵥ, fᵥ, iₒ, jₒ, mₒ, nₒ]], [(1, [aᵥ, bᵥ, cᵥ, dᵥ, iₒ, jₒ, kₒ, lₒ]), (-1, [aᵥ, bᵥ, cᵥ, dᵥ, iₒ, kₒ, jₒ, lₒ])]⟩,
  -- line 1796: nmfe,ceil,fabdjknm->abcdijkl
  ⟨-9999999999999/20000000000000, [g_abab [nₒ, mₒ, fᵥ, eᵥ], t2_abab [cᵥ, eᵥ, iₒ, lₒ], t4_aaabaaab [fᵥ, aᵥ, bᵥ, dᵥ, jₒ, kₒ, nₒ, mₒ]], [(1, [aᵥ, bᵥ, cᵥ, dᵥ, iₒ, jₒ, kₒ, lₒ])]⟩,
  -- line 1799: mnfe,ceil,fabdjkmn->abcdijkl
  ⟨-9999999999999/20000000000000, [g_abab [mₒ, nₒ, fᵥ, eᵥ], t2_abab [cᵥ, eᵥ, iₒ, lₒ], t4_aaabaaab [fᵥ, aᵥ, bᵥ, dᵥ, jₒ, kₒ, mₒ, nₒ]], [(1, [aᵥ, bᵥ, cᵥ, dᵥ, iₒ, jₒ, kₒ, lₒ])]⟩,
  -- line 1802: nmef,ceil,bafdjknm->abcdijkl
  ⟨-9999999999999/20000000000000, [g_bbbb [nₒ, mₒ, eᵥ, fᵥ], t2_abab [cᵥ, eᵥ, iₒ, lₒ], t4_aabbaabb [bᵥ, aᵥ, fᵥ, dᵥ, jₒ, kₒ, nₒ, mₒ]], [(1, [aᵥ, bᵥ, cᵥ, dᵥ, iₒ, jₒ, kₒ, lₒ])]⟩,
  -- line 1805: nmef,edil,fabcjknm->abcdijkl
  ⟨9999999999999/20000000000000, [g_aaaa [nₒ, mₒ, eᵥ, fᵥ], t2_abab [eᵥ, dᵥ, iₒ, lₒ], t4_aaaaaaaa [fᵥ, aᵥ, bᵥ, cᵥ, jₒ, kₒ, nₒ, mₒ]], [(1, [aᵥ, bᵥ, cᵥ, dᵥ, iₒ, jₒ, kₒ, lₒ])]⟩,
  -- line 1808: nmef,edil,cabfjknm->abcdijkl
  ⟨-9999999999999/20000000000000, [g_abab [nₒ, mₒ, eᵥ, fᵥ], t2_abab [eᵥ, dᵥ, iₒ, lₒ], t4_aaabaaab [cᵥ, aᵥ, bᵥ, fᵥ, jₒ, kₒ, nₒ, mₒ]], [(1, [aᵥ, bᵥ, cᵥ, dᵥ, iₒ, jₒ, kₒ, lₒ])]⟩,
  -- line 1811: mnef,edil,cabfjkmn->abcdijkl
  ⟨-9999999999999/20000000000000, [g_abab [mₒ, nₒ, eᵥ, fᵥ], t2_abab [eᵥ, dᵥ, iₒ, lₒ], t4_aaabaaab [cᵥ, aᵥ, bᵥ, fᵥ, jₒ, kₒ, mₒ, nₒ]], [(1, [aᵥ, bᵥ, cᵥ, dᵥ, iₒ, jₒ, kₒ, lₒ])]⟩,
  -- line 1814: nmef,ecik,fabdjmnl->abcdijkl
  ⟨-9999999999999/20000000000000, [g_aaaa [nₒ, mₒ, eᵥ, fᵥ], t2_aaaa [eᵥ, cᵥ, iₒ, kₒ], t4_aaabaaab [fᵥ, aᵥ, bᵥ, dᵥ, jₒ, mₒ, nₒ, lₒ]], [(1, [aᵥ, bᵥ, cᵥ, dᵥ, iₒ, jₒ, kₒ, lₒ])]⟩,
  -- line 1817: nmef,ecik,bafdjnlm->abcdijkl
  ⟨9999999999999/20000000000000, [g_abab [nₒ, mₒ, eᵥ, fᵥ], t2_aaaa [eᵥ, cᵥ, iₒ, kₒ], t4_aabbaabb [bᵥ, aᵥ, fᵥ, dᵥ, jₒ, nₒ, lₒ, mₒ]], [(1, [aᵥ, bᵥ, cᵥ, dᵥ, iₒ, jₒ, kₒ, lₒ])]⟩,
  -- line 1820: mnef,ecik,bafdjmnl->abcdijkl
  ⟨-9999999999999/20000000000000, [g_abab [mₒ, nₒ, eᵥ, fᵥ], t2_aaaa [eᵥ, cᵥ, iₒ, kₒ], t4_aabbaabb [bᵥ, aᵥ, fᵥ, dᵥ, jₒ, mₒ, nₒ, lₒ]], [(1, [aᵥ, bᵥ, cᵥ, dᵥ, iₒ, jₒ, kₒ, lₒ])]⟩,
  -- line 1823: nmef,ecjk,fabdimnl->abcdijkl
  ⟨9999999999999/20000000000000, [g_aaaa [nₒ, mₒ, eᵥ, fᵥ], t2_aaaa [eᵥ, cᵥ, jₒ, kₒ], t4_aaabaaab [fᵥ, aᵥ, bᵥ, dᵥ, iₒ, mₒ, nₒ, lₒ]], [(1, [aᵥ, bᵥ, cᵥ, dᵥ, iₒ, jₒ, kₒ, lₒ]), (-1, [aᵥ, bᵥ, cᵥ, dᵥ, kₒ, jₒ, iₒ, lₒ])]⟩,
  -- line 1827: nmef,ecjk,bafdinlm->abcdijkl
  ⟨-9999999999999/20000000000000, [g_abab [nₒ, mₒ, eᵥ, fᵥ], t2_aaaa [eᵥ, cᵥ, jₒ, kₒ], t4_aabbaabb [bᵥ, aᵥ, fᵥ, dᵥ, iₒ, nₒ, lₒ, mₒ]], [(1, [aᵥ, bᵥ, cᵥ, dᵥ, iₒ, jₒ, kₒ, lₒ]), (-1, [aᵥ, bᵥ, cᵥ, dᵥ, kₒ, jₒ, iₒ, lₒ])]⟩,
  -- line 1831: mnef,ecjk,bafdimnl->abcdijkl
  ⟨9999999999999/20000000000000, [g_abab [mₒ, nₒ, eᵥ, fᵥ], t2_aaaa [eᵥ, cᵥ, jₒ, kₒ], t4_aabbaabb [bᵥ, aᵥ, fᵥ, dᵥ, iₒ, mₒ, nₒ, lₒ]], [(1, [aᵥ, bᵥ, cᵥ, dᵥ, iₒ, jₒ, kₒ, lₒ]), (-1, [aᵥ, bᵥ, cᵥ, dᵥ, kₒ, jₒ, iₒ, lₒ])]⟩,
  -- line 1835: nmef,abnm,efcdijkl->abcdijkl
  ⟨25000000000001/100000000000000, [g_aaaa [nₒ, mₒ, eᵥ, fᵥ], t2_aaaa [aᵥ, bᵥ, nₒ, mₒ], t4_aaabaaab [eᵥ, fᵥ, cᵥ, dᵥ, iₒ, jₒ, kₒ, lₒ]], [(1, [aᵥ, bᵥ, cᵥ, dᵥ, iₒ, jₒ, kₒ, lₒ]), (-1, [aᵥ, cᵥ, bᵥ, dᵥ, iₒ, jₒ, kₒ, lₒ])]⟩,
  -- line 1839: nmef,abkm,efcdijnl->abcdijkl
  ⟨-9999999999999/20000000000000, [g_aaaa [nₒ, mₒ, eᵥ, fᵥ], t2_aaaa [aᵥ, bᵥ, kₒ, mₒ], t4_aaabaaab [eᵥ, fᵥ, cᵥ, dᵥ, iₒ, jₒ, nₒ, lₒ]], [(1, [aᵥ, bᵥ, cᵥ, dᵥ, iₒ, jₒ, kₒ, lₒ]), (-1, [aᵥ, cᵥ, bᵥ, dᵥ, iₒ, jₒ, kₒ, lₒ])]⟩,
  -- line 1843: mnef,abkm,ecfdijln->abcdijkl
  ⟨9999999999999/20000000000000, [g_abab [mₒ, nₒ, eᵥ, fᵥ], t2_aaaa [aᵥ, bᵥ, kₒ, mₒ], t4_aabbaabb [eᵥ, cᵥ, fᵥ, dᵥ, iₒ, jₒ, lₒ, nₒ]], [(1, [aᵥ, bᵥ, cᵥ, dᵥ, iₒ, jₒ, kₒ, lₒ]), (-1, [aᵥ, cᵥ, bᵥ, dᵥ, iₒ, jₒ, kₒ, lₒ])]⟩,
  -- line 1847: mnfe,abkm,cfedijln->abcdijkl
  ⟨-9999999999999/20000000000000, [g_abab [mₒ, nₒ, fᵥ, eᵥ], t2_aaaa [aᵥ, bᵥ, kₒ, mₒ], t4_aabbaabb [cᵥ, fᵥ, eᵥ, dᵥ, iₒ, jₒ, lₒ, nₒ]], [(1, [aᵥ, bᵥ, cᵥ, dᵥ, iₒ, jₒ, kₒ, lₒ]), (-1, [aᵥ, cᵥ, bᵥ, dᵥ, iₒ, jₒ, kₒ, lₒ])]⟩,
  -- line 1851: nmef,abjm,efcdiknl->abcdijkl
  ⟨9999999999999/20000000000000, [g_aaaa [nₒ, mₒ, eᵥ, fᵥ], t2_aaaa [aᵥ, bᵥ, jₒ, mₒ], t4_aaabaaab [eᵥ, fᵥ, cᵥ, dᵥ, iₒ, kₒ, nₒ, lₒ]], [(1, [aᵥ, bᵥ, cᵥ, dᵥ, iₒ, jₒ, kₒ, lₒ]), (-1, [aᵥ, bᵥ, cᵥ, dᵥ, jₒ, iₒ, kₒ, lₒ]), (-1, [aᵥ, cᵥ, bᵥ, dᵥ, iₒ, jₒ, kₒ, lₒ]), (1, [aᵥ, cᵥ, bᵥ, dᵥ, jₒ, iₒ, kₒ, lₒ])]⟩,
  -- line 1855: mnef,abjm,ecfdikln->abcdijkl
  ⟨-9999999999999/20000000000000, [g_abab [mₒ, nₒ, eᵥ, fᵥ], t2_aaaa [aᵥ, bᵥ, jₒ, mₒ], t4_aabbaabb [eᵥ, cᵥ, fᵥ, dᵥ, iₒ, kₒ, lₒ, nₒ]], [(1, [aᵥ, bᵥ, cᵥ, dᵥ, iₒ, jₒ, kₒ, lₒ]), (-1, [aᵥ, bᵥ, cᵥ, dᵥ, jₒ, iₒ, kₒ, lₒ]), (-1, [aᵥ, cᵥ, bᵥ, dᵥ, iₒ, jₒ, kₒ, lₒ]), (1, [aᵥ, cᵥ, bᵥ, dᵥ, jₒ, iₒ, kₒ, lₒ])]⟩
  ]

/-- Part 3 of `ccdq_t4_aaabaaab`. -/
def ccdq_t4_aaabaaab_3 : Prog := [
  -- line 1859: mnfe,abjm,cfedikln->abcdijkl
  ⟨9999999999999/20000000000000, [g_abab [mₒ, nₒ, fᵥ, eᵥ], t2_aaaa [aᵥ, bᵥ, jₒ, mₒ], t4_aabbaabb [cᵥ, fᵥ, eᵥ, dᵥ, iₒ, kₒ, lₒ, nₒ]], [(1, [aᵥ, bᵥ, cᵥ, dᵥ, iₒ, jₒ, kₒ, lₒ]), (-1, [aᵥ, bᵥ, cᵥ, dᵥ, jₒ, iₒ, kₒ, lₒ]), (-1, [aᵥ, cᵥ, bᵥ, dᵥ, iₒ, jₒ, kₒ, lₒ]), (1, [aᵥ, cᵥ, bᵥ, dᵥ, jₒ, iₒ, kₒ, lₒ])]⟩,
  -- line 1863: nmef,adnm,ecbfijkl->abcdijkl
  ⟨-25000000000001/100000000000000, [g_abab [nₒ, mₒ, eᵥ, fᵥ], t2_abab [aᵥ, dᵥ, nₒ, mₒ], t4_aaabaaab [eᵥ, cᵥ, bᵥ, fᵥ, iₒ, jₒ, kₒ, lₒ]], [(1, [aᵥ, bᵥ, cᵥ, dᵥ, iₒ, jₒ, kₒ, lₒ]), (-1, [bᵥ, aᵥ, cᵥ, dᵥ, iₒ, jₒ, kₒ, lₒ])]⟩,
  -- line 1867: nmfe,adnm,cfbeijkl->abcdijkl
  ⟨25000000000001/100000000000000, [g_abab [nₒ, mₒ, fᵥ, eᵥ], t2_abab [aᵥ, dᵥ, nₒ, mₒ], t4_aaabaaab [cᵥ, fᵥ, bᵥ, eᵥ, iₒ, jₒ, kₒ, lₒ]], [(1, [aᵥ, bᵥ, cᵥ, dᵥ, iₒ, jₒ, kₒ, lₒ]), (-1, [bᵥ, aᵥ, cᵥ, dᵥ, iₒ, jₒ, kₒ, lₒ])]⟩,
  -- line 1871: mnef,admn,ecbfijkl->abcdijkl
  ⟨-25000000000001/100000000000000, [g_abab [mₒ, nₒ, eᵥ, fᵥ], t2_abab [aᵥ, dᵥ, mₒ, nₒ], t4_aaabaaab [eᵥ, cᵥ, bᵥ, fᵥ, iₒ, jₒ, kₒ, lₒ]], [(1, [aᵥ, bᵥ, cᵥ, dᵥ, iₒ, jₒ, kₒ, lₒ]), (-1, [bᵥ, aᵥ, cᵥ, dᵥ, iₒ, jₒ, kₒ, lₒ])]⟩,
  -- line 1875: mnfe,admn,cfbeijkl->abcdijkl
  ⟨25000000000001/100000000000000, [g_abab [mₒ, nₒ, fᵥ, eᵥ], t2_abab [aᵥ, dᵥ, mₒ, nₒ], t4_aaabaaab [cᵥ, fᵥ, bᵥ, eᵥ, iₒ, jₒ, kₒ, lₒ]], [(1, [aᵥ, bᵥ, cᵥ, dᵥ, iₒ, jₒ, kₒ, lₒ]), (-1, [bᵥ, aᵥ, cᵥ, dᵥ, iₒ, jₒ, kₒ, lₒ])]⟩,
  -- line 1879: nmef,adml,efbcijkn->abcdijkl
  ⟨9999999999999/20000000000000, [g_aaaa [nₒ, mₒ, eᵥ, fᵥ], t2_abab [aᵥ, dᵥ, mₒ, lₒ], t4_aaaaaaaa [eᵥ, fᵥ, bᵥ, cᵥ, iₒ, jₒ, kₒ, nₒ]], [(1, [aᵥ, bᵥ, cᵥ, dᵥ, iₒ, jₒ, kₒ, lₒ]), (-1, [bᵥ, aᵥ, cᵥ, dᵥ, iₒ, jₒ, kₒ, lₒ])]⟩,
  -- line 1883: mnef,adml,ecbfijkn->abcdijkl
  ⟨9999999999999/20000000000000, [g_abab [mₒ, nₒ, eᵥ, fᵥ], t2_abab [aᵥ, dᵥ, mₒ, lₒ], t4_aaabaaab [eᵥ, cᵥ, bᵥ, fᵥ, iₒ, jₒ, kₒ, nₒ]], [(1, [aᵥ, bᵥ, cᵥ, dᵥ, iₒ, jₒ, kₒ, lₒ]), (-1, [bᵥ, aᵥ, cᵥ, dᵥ, iₒ, jₒ, kₒ, lₒ])]⟩,
  -- line 1887: mnfe,adml,cfbeijkn->abcdijkl
  ⟨-9999999999999/20000000000000, [g_abab [mₒ, nₒ, fᵥ, eᵥ], t2_abab [aᵥ, dᵥ, mₒ, lₒ], t4_aaabaaab [cᵥ, fᵥ, bᵥ, eᵥ, iₒ, jₒ, kₒ, nₒ]], [(1, [aᵥ, bᵥ, cᵥ, dᵥ, iₒ, jₒ, kₒ, lₒ]), (-1, [bᵥ, aᵥ, cᵥ, dᵥ, iₒ, jₒ, kₒ, lₒ])]⟩,
  -- line 1891: nmef,adkm,ecbfijnl->abcdijkl
  ⟨9999999999999/20000000000000, [g_abab [nₒ, mₒ, eᵥ, fᵥ], t2_abab [aᵥ, dᵥ, kₒ, mₒ], t4_aaabaaab [eᵥ, cᵥ, bᵥ, fᵥ, iₒ, jₒ, nₒ, lₒ]], [(1, [aᵥ, bᵥ, cᵥ, dᵥ, iₒ, jₒ, kₒ, lₒ]), (-1, [bᵥ, aᵥ, cᵥ, dᵥ, iₒ, jₒ, kₒ, lₒ])]⟩,
  -- line 1895: nmfe,adkm,cfbeijnl->abcdijkl
  ⟨-9999999999999/20000000000000, [g_abab [nₒ, mₒ, fᵥ, eᵥ], t2_abab [aᵥ, dᵥ, kₒ, mₒ], t4_aaabaaab [cᵥ, fᵥ, bᵥ, eᵥ, iₒ, jₒ, nₒ, lₒ]], [(1, [aᵥ, bᵥ, cᵥ, dᵥ, iₒ, jₒ, kₒ, lₒ]), (-1, [bᵥ, aᵥ, cᵥ, dᵥ, iₒ, jₒ, kₒ, lₒ])]⟩,
  -- line 1899: nmef,adkm,bcefijln->abcdijkl
  ⟨9999999999999/20000000000000, [g_bbbb [nₒ, mₒ, eᵥ, fᵥ], t2_abab [aᵥ, dᵥ, kₒ, mₒ], t4_aabbaabb [bᵥ, cᵥ, eᵥ, fᵥ, iₒ, jₒ, lₒ, nₒ]], [(1, [aᵥ, bᵥ, cᵥ, dᵥ, iₒ, jₒ, kₒ, lₒ]), (-1, [bᵥ, aᵥ, cᵥ, dᵥ, iₒ, jₒ, kₒ, lₒ])]⟩,
  -- line 1903: nmef,adjm,ecbfiknl->abcdijkl
  ⟨-9999999999999/20000000000000, [g_abab [nₒ, mₒ, eᵥ, fᵥ], t2_abab [aᵥ, dᵥ, jₒ, mₒ], t4_aaabaaab [eᵥ, cᵥ, bᵥ, fᵥ, iₒ, kₒ, nₒ, lₒ]], [(1, [aᵥ, bᵥ, cᵥ, dᵥ, iₒ, jₒ, kₒ, lₒ]), (-1, [aᵥ, bᵥ, cᵥ, dᵥ, jₒ, iₒ, kₒ, lₒ]), (-1, [bᵥ, aᵥ, cᵥ, dᵥ, iₒ, jₒ, kₒ, lₒ]), (1, [bᵥ, aᵥ, cᵥ, dᵥ, jₒ, iₒ, kₒ, lₒ])]⟩,
  -- line 1907: nmfe,adjm,cfbeiknl->abcdijkl
  ⟨9999999999999/20000000000000, [g_abab [nₒ, mₒ, fᵥ, eᵥ], t2_abab [aᵥ, dᵥ, jₒ, mₒ], t4_aaabaaab [cᵥ, fᵥ, bᵥ, eᵥ, iₒ, kₒ, nₒ, lₒ]], [(1, [aᵥ, bᵥ, cᵥ, dᵥ, iₒ, jₒ, kₒ, lₒ]), (-1, [aᵥ, bᵥ, cᵥ, dᵥ, jₒ, iₒ, kₒ, lₒ]), (-1, [bᵥ, aᵥ, cᵥ, dᵥ, iₒ, jₒ, kₒ, lₒ]), (1, [bᵥ, aᵥ, cᵥ, dᵥ, jₒ, iₒ, kₒ, lₒ])]⟩,
  -- line 1911: nmef,adjm,bcefikln->abcdijkl
  ⟨-9999999999999/20000000000000, [g_bbbb [nₒ, mₒ, eᵥ, fᵥ], t2_abab [aᵥ, dᵥ, jₒ, mₒ], t4_aabbaabb [bᵥ, cᵥ, eᵥ, fᵥ, iₒ, kₒ, lₒ, nₒ]], [(1, [aᵥ, bᵥ, cᵥ, dᵥ, iₒ, jₒ, kₒ, lₒ]), (-1, [aᵥ, bᵥ, cᵥ, dᵥ, jₒ, iₒ, kₒ, lₒ]), (-1, [bᵥ, aᵥ, cᵥ, dᵥ, iₒ, jₒ, kₒ, lₒ]), (1, [bᵥ, aᵥ, cᵥ, dᵥ, jₒ, iₒ, kₒ, lₒ])]⟩,
  -- line 1915: nmef,bcnm,efadijkl->abcdijkl
  ⟨25000000000001/100000000000000, [g_aaaa [nₒ, mₒ, eᵥ, fᵥ], t2_aaaa [bᵥ, cᵥ, nₒ, mₒ], t4_aaabaaab [eᵥ, fᵥ, aᵥ, dᵥ, iₒ, jₒ, kₒ, lₒ]], [(1, [aᵥ, bᵥ, cᵥ, dᵥ, iₒ, jₒ, kₒ, lₒ])]⟩,
  -- line 1918: nmef,cdnm,ebafijkl->abcdijkl
  ⟨-25000000000001/100000000000000, [g_abab [nₒ, mₒ, eᵥ, fᵥ], t2_abab [cᵥ, dᵥ, nₒ, mₒ], t4_aaabaaab [eᵥ, bᵥ, aᵥ, fᵥ, iₒ, jₒ, kₒ, lₒ]], [(1, [aᵥ, bᵥ, cᵥ, dᵥ, iₒ, jₒ, kₒ, lₒ])]⟩,
  -- line 1921: nmfe,cdnm,bfaeijkl->abcdijkl
  ⟨25000000000001/100000000000000, [g_abab [nₒ, mₒ, fᵥ, eᵥ], t2_abab [cᵥ, dᵥ, nₒ, mₒ], t4_aaabaaab [bᵥ, fᵥ, aᵥ, eᵥ, iₒ, jₒ, kₒ, lₒ]], [(1, [aᵥ, bᵥ, cᵥ, dᵥ, iₒ, jₒ, kₒ, lₒ])]⟩,
  -- line 1924: mnef,cdmn,ebafijkl->abcdijkl
  ⟨-25000000000001/100000000000000, [g_abab [mₒ, nₒ, eᵥ, fᵥ], t2_abab [cᵥ, dᵥ, mₒ, nₒ], t4_aaabaaab [eᵥ, bᵥ, aᵥ, fᵥ, iₒ, jₒ, kₒ, lₒ]], [(1, [aᵥ, bᵥ, cᵥ, dᵥ, iₒ, jₒ, kₒ, lₒ])]⟩,
  -- line 1927: mnfe,cdmn,bfaeijkl->abcdijkl
  ⟨25000000000001/100000000000000, [g_abab [mₒ, nₒ, fᵥ, eᵥ], t2_abab [cᵥ, dᵥ, mₒ, nₒ], t4_aaabaaab [bᵥ, fᵥ, aᵥ, eᵥ, iₒ, jₒ, kₒ, lₒ]], [(1, [aᵥ, bᵥ, cᵥ, dᵥ, iₒ, jₒ, kₒ, lₒ])]⟩,
  -- line 1930: nmef,cdml,efabijkn->abcdijkl
  ⟨9999999999999/20000000000000, [g_aaaa [nₒ, mₒ, eᵥ, fᵥ], t2_abab [cᵥ, dᵥ, mₒ, lₒ], t4_aaaaaaaa [eᵥ, fᵥ, aᵥ, bᵥ, iₒ, jₒ, kₒ, nₒ]], [(1, [aᵥ, bᵥ, cᵥ, dᵥ, iₒ, jₒ, kₒ, lₒ])]⟩,
  -- line 1933: mnef,cdml,ebafijkn->abcdijkl
  ⟨9999999999999/20000000000000, [g_abab [mₒ, nₒ, eᵥ, fᵥ], t2_abab [cᵥ, dᵥ, mₒ, lₒ], t4_aaabaaab [eᵥ, bᵥ, aᵥ, fᵥ, iₒ, jₒ, kₒ, nₒ]], [(1, [aᵥ, bᵥ, cᵥ, dᵥ, iₒ, jₒ, kₒ, lₒ])]⟩,
  -- line 1936: mnfe,cdml,bfaeijkn->abcdijkl
  ⟨-9999999999999/20000000000000, [g_abab [mₒ, nₒ, fᵥ, eᵥ], t2_abab [cᵥ, dᵥ, mₒ, lₒ], t4_aaabaaab [bᵥ, fᵥ, aᵥ, eᵥ, iₒ, jₒ, kₒ, nₒ]], [(1, [aᵥ, bᵥ, cᵥ, dᵥ, iₒ, jₒ, kₒ, lₒ])]⟩,
  -- line 1939: nmef,bckm,efadijnl->abcdijkl
  ⟨-9999999999999/20000000000000, [g_aaaa [nₒ, mₒ, eᵥ, fᵥ], t2_aaaa [bᵥ, cᵥ, kₒ, mₒ], t4_aaabaaab [eᵥ, fᵥ, aᵥ, dᵥ, iₒ, jₒ, nₒ, lₒ]], [(1, [aᵥ, bᵥ, cᵥ, dᵥ, iₒ, jₒ, kₒ, lₒ])]⟩,
  -- line 1942: mnef,bckm,eafdijln->abcdijkl
  ⟨9999999999999/20000000000000, [g_abab [mₒ, nₒ, eᵥ, fᵥ], t2_aaaa [bᵥ, cᵥ, kₒ, mₒ], t4_aabbaabb [eᵥ, aᵥ, fᵥ, dᵥ, iₒ, jₒ, lₒ, nₒ]], [(1, [aᵥ, bᵥ, cᵥ, dᵥ, iₒ, jₒ, kₒ, lₒ])]⟩,
  -- line 1945: mnfe,bckm,afedijln->abcdijkl
  ⟨-9999999999999/20000000000000, [g_abab [mₒ, nₒ, fᵥ, eᵥ], t2_aaaa [bᵥ, cᵥ, kₒ, mₒ], t4_aabbaabb [aᵥ, fᵥ, eᵥ, dᵥ, iₒ, jₒ, lₒ, nₒ]], [(1, [aᵥ, bᵥ, cᵥ, dᵥ, iₒ, jₒ, kₒ, lₒ])]⟩,
  -- line 1948: nmef,cdkm,ebafijnl->abcdijkl
  ⟨9999999999999/20000000000000, [g_abab [nₒ, mₒ, eᵥ, fᵥ], t2_abab [cᵥ, dᵥ, kₒ, mₒ], t4_aaabaaab [eᵥ, bᵥ, aᵥ, fᵥ, iₒ, jₒ, nₒ, lₒ]], [(1, [aᵥ, bᵥ, cᵥ, dᵥ, iₒ, jₒ, kₒ, lₒ])]⟩,
  -- line 1951: nmfe,cdkm,bfaeijnl->abcdijkl
  ⟨-9999999999999/20000000000000, [g_abab [nₒ, mₒ, fᵥ, eᵥ], t2_abab [cᵥ, dᵥ, kₒ, mₒ], t4_aaabaaab [bᵥ, fᵥ, aᵥ, eᵥ, iₒ, jₒ, nₒ, lₒ]], [(1, [aᵥ, bᵥ, cᵥ, dᵥ, iₒ, jₒ, kₒ, lₒ])]⟩,
  -- line 1954: nmef,cdkm,abefijln->abcdijkl
  ⟨9999999999999/20000000000000, [g_bbbb [nₒ, mₒ, eᵥ, fᵥ], t2_abab [cᵥ, dᵥ, kₒ, mₒ], t4_aabbaabb [aᵥ, bᵥ, eᵥ, fᵥ, iₒ, jₒ, lₒ, nₒ]], [(1, [aᵥ, bᵥ, cᵥ, dᵥ, iₒ, jₒ, kₒ, lₒ])]⟩,
  -- line 1957: nmef,bcjm,efadiknl->abcdijkl
  ⟨9999999999999/20000000000000, [g_aaaa [nₒ, mₒ, eᵥ, fᵥ], t2_aaaa [bᵥ, cᵥ, jₒ, mₒ], t4_aaabaaab [eᵥ, fᵥ, aᵥ, dᵥ, iₒ, kₒ, nₒ, lₒ]], [(1, [aᵥ, bᵥ, cᵥ, dᵥ, iₒ, jₒ, kₒ, lₒ]), (-1, [aᵥ, bᵥ, cᵥ, dᵥ, jₒ, iₒ, kₒ, lₒ])]⟩,
  -- line 1961: mnef,bcjm,eafdikln->abcdijkl
  ⟨-9999999999999/20000000000000, [g_abab [mₒ, nₒ, eᵥ, fᵥ], t2_aaaa [bᵥ, cᵥ, jₒ, mₒ], t4_aabbaabb [eᵥ, aᵥ, fᵥ, dᵥ, iₒ, kₒ, lₒ, nₒ]], [(1, [aᵥ, bᵥ, cᵥ, dᵥ, iₒ, jₒ, kₒ, lₒ]), (-1, [aᵥ, bᵥ, cᵥ, dᵥ, jₒ, iₒ, kₒ, lₒ])]⟩,
  -- line 1965: mnfe,bcjm,afedikln->abcdijkl
  ⟨9999999999999/20000000000000, [g_abab [mₒ, nₒ, fᵥ, eᵥ], t2_aaaa [bᵥ, cᵥ, jₒ, mₒ], t4_aabbaabb [aᵥ, fᵥ, eᵥ, dᵥ, iₒ, kₒ, lₒ, nₒ]], [(1, [aᵥ, bᵥ, cᵥ, dᵥ, iₒ, jₒ, kₒ, lₒ]), (-1, [aᵥ, bᵥ, cᵥ, dᵥ, jₒ, iₒ, kₒ, lₒ])]⟩,
  -- line 1969: nmef,cdjm,ebafiknl->abcdijkl
  ⟨-9999999999999/20000000000000, [g_abab [nₒ, mₒ, eᵥ, fᵥ], t2_abab [cᵥ, dᵥ, jₒ, mₒ], t4_aaabaaab [eᵥ, bᵥ, aᵥ, fᵥ, iₒ, kₒ, nₒ, lₒ]], [(1, [aᵥ, bᵥ, cᵥ, dᵥ, iₒ, jₒ, kₒ, lₒ]), (-1, [aᵥ, bᵥ, cᵥ, dᵥ, jₒ, iₒ, kₒ, lₒ])]⟩,
  -- line 1973: nmfe,cdjm,bfaeiknl->abcdijkl
  ⟨9999999999999/20000000000000, [g_abab [nₒ, mₒ, fᵥ, eᵥ], t2_abab [cᵥ, dᵥ, jₒ, mₒ], t4_aaabaaab [bᵥ, fᵥ, aᵥ, eᵥ, iₒ, kₒ, nₒ, lₒ]], [(1, [aᵥ, bᵥ, cᵥ, dᵥ, iₒ, jₒ, kₒ, lₒ]), (-1, [aᵥ, bᵥ, cᵥ, dᵥ, jₒ, iₒ, kₒ, lₒ])]⟩,
  -- line 1977: nmef,cdjm,abefikln->abcdijkl
  ⟨-9999999999999/20000000000000, [g_bbbb [nₒ, mₒ, eᵥ, fᵥ], t2_abab [cᵥ, dᵥ, jₒ, mₒ], t4_aabbaabb [aᵥ, bᵥ, eᵥ, fᵥ, iₒ, kₒ, lₒ, nₒ]], [(1, [aᵥ, bᵥ, cᵥ, dᵥ, iₒ, jₒ, kₒ, lₒ]), (-1, [aᵥ, bᵥ, cᵥ, dᵥ, jₒ, iₒ, kₒ, lₒ])]⟩,
  -- line 1981: mnkl,abjm,cdin->abcdijkl
  ⟨1, [g_abab [mₒ, nₒ, kₒ, lₒ], t2_aaaa [aᵥ, bᵥ, jₒ, mₒ], t2_abab [cᵥ, dᵥ, iₒ, nₒ]], [(1, [aᵥ, bᵥ, cᵥ, dᵥ, iₒ, jₒ, kₒ, lₒ]), (-1, [aᵥ, bᵥ, cᵥ, dᵥ, jₒ, iₒ, kₒ, lₒ]), (-1, [aᵥ, cᵥ, bᵥ, dᵥ, iₒ, jₒ, kₒ, lₒ]), (1, [aᵥ, cᵥ, bᵥ, dᵥ, jₒ, iₒ, kₒ, lₒ])]⟩,
  -- line 1985: nmkl,adjm,bcin->abcdijkl
  ⟨-1, [g_abab [nₒ, mₒ, kₒ, lₒ], t2_abab [aᵥ, dᵥ, jₒ, mₒ], t2_aaaa [bᵥ, cᵥ, iₒ, nₒ]], [(1, [aᵥ, bᵥ, cᵥ, dᵥ, iₒ, jₒ, kₒ, lₒ]), (-1, [aᵥ, bᵥ, cᵥ, dᵥ, jₒ, iₒ, kₒ, lₒ])]⟩,
  -- line 1989: mnjl,abkm,cdin->abcdijkl
  ⟨-1, [g_abab [mₒ, nₒ, jₒ, lₒ], t2_aaaa [aᵥ, bᵥ, kₒ, mₒ], t2_abab [cᵥ, dᵥ, iₒ, nₒ]], [(1, [aᵥ, bᵥ, cᵥ, dᵥ, iₒ, jₒ, kₒ, lₒ]), (-1, [aᵥ, bᵥ, cᵥ, dᵥ, kₒ, jₒ, iₒ, lₒ]), (-1, [aᵥ, cᵥ, bᵥ, dᵥ, iₒ, jₒ, kₒ, lₒ]), (1, [aᵥ, cᵥ, bᵥ, dᵥ, kₒ, jₒ, iₒ, lₒ])]⟩,
  -- line 1993: nmjl,adkm,bcin->abcdijkl
  ⟨1, [g_abab [nₒ, mₒ, jₒ, lₒ], t2_abab [aᵥ, dᵥ, kₒ, mₒ], t2_aaaa [bᵥ, cᵥ, iₒ, nₒ]], [(1, [aᵥ, bᵥ, cᵥ, dᵥ, iₒ, jₒ, kₒ, lₒ]), (-1, [aᵥ, bᵥ, cᵥ, dᵥ, kₒ, jₒ, iₒ, lₒ])]⟩,
  -- line 1997: mnil,abkm,cdjn->abcdijkl
  ⟨1, [g_abab [mₒ, nₒ, iₒ, lₒ], t2_aaaa [aᵥ, bᵥ, kₒ, mₒ], t2_abab [cᵥ, dᵥ, jₒ, nₒ]], [(1, [aᵥ, bᵥ, cᵥ, dᵥ, iₒ, jₒ, kₒ, lₒ]), (-1, [aᵥ, bᵥ, cᵥ, dᵥ, iₒ, kₒ, jₒ, lₒ]), (-1, [aᵥ, cᵥ, bᵥ, dᵥ, iₒ, jₒ, kₒ, lₒ]), (1, [aᵥ, cᵥ, bᵥ, dᵥ, iₒ, kₒ, jₒ, lₒ])]⟩,
  -- line 2001: nmil,adkm,bcjn->abcdijkl
  ⟨-1, [g_abab [nₒ, mₒ, iₒ, lₒ], t2_abab [aᵥ, dᵥ, kₒ, mₒ], t2_aaaa [bᵥ, cᵥ, jₒ, nₒ]], [(1, [aᵥ, bᵥ, cᵥ, dᵥ, iₒ, jₒ, kₒ, lₒ]), (-1, [aᵥ, bᵥ, cᵥ, dᵥ, iₒ, kₒ, jₒ, lₒ])]⟩
  ]

/-- Part 4 of `ccdq_t4_aaabaaab`. -/
def ccdq_t4_aaabaaab_4 : Prog := [
  -- line 2005: nmjk,abim,cdnl->abcdijkl
  ⟨-1, [g_aaaa [nₒ, mₒ, jₒ, kₒ], t2_aaaa [aᵥ, bᵥ, iₒ, mₒ], t2_abab [cᵥ, dᵥ, nₒ, lₒ]], [(1, [aᵥ, bᵥ, cᵥ, dᵥ, iₒ, jₒ, kₒ, lₒ]), (-1, [aᵥ, cᵥ, bᵥ, dᵥ, iₒ, jₒ, kₒ, lₒ])]⟩,
  -- line 2009: nmjk,adml,bcin->abcdijkl
  ⟨1, [g_aaaa [nₒ, mₒ, jₒ, kₒ], t2_abab [aᵥ, dᵥ, mₒ, lₒ], t2_aaaa [bᵥ, cᵥ, iₒ, nₒ]], [(1, [aᵥ, bᵥ, cᵥ, dᵥ, iₒ, jₒ, kₒ, lₒ])]⟩,
  -- line 2012: nmik,abjm,cdnl->abcdijkl
  ⟨1, [g_aaaa [nₒ, mₒ, iₒ, kₒ], t2_aaaa [aᵥ, bᵥ, jₒ, mₒ], t2_abab [cᵥ, dᵥ, nₒ, lₒ]], [(1, [aᵥ, bᵥ, cᵥ, dᵥ, iₒ, jₒ, kₒ, lₒ]), (-1, [aᵥ, cᵥ, bᵥ, dᵥ, iₒ, jₒ, kₒ, lₒ])]⟩,
  -- line 2016: nmik,adml,bcjn->abcdijkl
  ⟨-1, [g_aaaa [nₒ, mₒ, iₒ, kₒ], t2_abab [aᵥ, dᵥ, mₒ, lₒ], t2_aaaa [bᵥ, cᵥ, jₒ, nₒ]], [(1, [aᵥ, bᵥ, cᵥ, dᵥ, iₒ, jₒ, kₒ, lₒ])]⟩,
  -- line 2019: nmij,abkm,cdnl->abcdijkl
  ⟨-1, [g_aaaa [nₒ, mₒ, iₒ, jₒ], t2_aaaa [aᵥ, bᵥ, kₒ, mₒ], t2_abab [cᵥ, dᵥ, nₒ, lₒ]], [(1, [aᵥ, bᵥ, cᵥ, dᵥ, iₒ, jₒ, kₒ, lₒ]), (-1, [aᵥ, cᵥ, bᵥ, dᵥ, iₒ, jₒ, kₒ, lₒ])]⟩,
  -- line 2023: nmij,adml,bckn->abcdijkl
  ⟨1, [g_aaaa [nₒ, mₒ, iₒ, jₒ], t2_abab [aᵥ, dᵥ, mₒ, lₒ], t2_aaaa [bᵥ, cᵥ, kₒ, nₒ]], [(1, [aᵥ, bᵥ, cᵥ, dᵥ, iₒ, jₒ, kₒ, lₒ])]⟩,
  -- line 2026: amel,ebjk,cdim->abcdijkl
  ⟨-1, [g_abab [aᵥ, mₒ, eᵥ, lₒ], t2_aaaa [eᵥ, bᵥ, jₒ, kₒ], t2_abab [cᵥ, dᵥ, iₒ, mₒ]], [(1, [aᵥ, bᵥ, cᵥ, dᵥ, iₒ, jₒ, kₒ, lₒ]), (-1, [aᵥ, bᵥ, cᵥ, dᵥ, jₒ, iₒ, kₒ, lₒ]), (-1, [aᵥ, cᵥ, bᵥ, dᵥ, iₒ, jₒ, kₒ, lₒ]), (1, [aᵥ, cᵥ, bᵥ, dᵥ, jₒ, iₒ, kₒ, lₒ])]⟩,
  -- line 2030: amel,ebij,cdkm->abcdijkl
  ⟨-1, [g_abab [aᵥ, mₒ, eᵥ, lₒ], t2_aaaa [eᵥ, bᵥ, iₒ, jₒ], t2_abab [cᵥ, dᵥ, kₒ, mₒ]], [(1, [aᵥ, bᵥ, cᵥ, dᵥ, iₒ, jₒ, kₒ, lₒ]), (-1, [aᵥ, cᵥ, bᵥ, dᵥ, iₒ, jₒ, kₒ, lₒ])]⟩,
  -- line 2034: maek,ebij,cdml->abcdijkl
  ⟨1, [g_aaaa [mₒ, aᵥ, eᵥ, kₒ], t2_aaaa [eᵥ, bᵥ, iₒ, jₒ], t2_abab [cᵥ, dᵥ, mₒ, lₒ]], [(1, [aᵥ, bᵥ, cᵥ, dᵥ, iₒ, jₒ, kₒ, lₒ]), (-1, [aᵥ, cᵥ, bᵥ, dᵥ, iₒ, jₒ, kₒ, lₒ])]⟩,
  -- line 2038: amke,bejl,cdim->abcdijkl
  ⟨1, [g_abab [aᵥ, mₒ, kₒ, eᵥ], t2_abab [bᵥ, eᵥ, jₒ, lₒ], t2_abab [cᵥ, dᵥ, iₒ, mₒ]], [(1, [aᵥ, bᵥ, cᵥ, dᵥ, iₒ, jₒ, kₒ, lₒ]), (-1, [aᵥ, bᵥ, cᵥ, dᵥ, jₒ, iₒ, kₒ, lₒ]), (-1, [aᵥ, cᵥ, bᵥ, dᵥ, iₒ, jₒ, kₒ, lₒ]), (1, [aᵥ, cᵥ, bᵥ, dᵥ, jₒ, iₒ, kₒ, lₒ])]⟩,
  -- line 2042: maek,edjl,bcim->abcdijkl
  ⟨-1, [g_aaaa [mₒ, aᵥ, eᵥ, kₒ], t2_abab [eᵥ, dᵥ, jₒ, lₒ], t2_aaaa [bᵥ, cᵥ, iₒ, mₒ]], [(1, [aᵥ, bᵥ, cᵥ, dᵥ, iₒ, jₒ, kₒ, lₒ]), (-1, [aᵥ, bᵥ, cᵥ, dᵥ, jₒ, iₒ, kₒ, lₒ]), (-1, [bᵥ, aᵥ, cᵥ, dᵥ, iₒ, jₒ, kₒ, lₒ]), (1, [bᵥ, aᵥ, cᵥ, dᵥ, jₒ, iₒ, kₒ, lₒ])]⟩,
  -- line 2046: amje,bekl,cdim->abcdijkl
  ⟨-1, [g_abab [aᵥ, mₒ, jₒ, eᵥ], t2_abab [bᵥ, eᵥ, kₒ, lₒ], t2_abab [cᵥ, dᵥ, iₒ, mₒ]], [(1, [aᵥ, bᵥ, cᵥ, dᵥ, iₒ, jₒ, kₒ, lₒ]), (-1, [aᵥ, bᵥ, cᵥ, dᵥ, kₒ, jₒ, iₒ, lₒ]), (-1, [aᵥ, cᵥ, bᵥ, dᵥ, iₒ, jₒ, kₒ, lₒ]), (1, [aᵥ, cᵥ, bᵥ, dᵥ, kₒ, jₒ, iₒ, lₒ])]⟩,
  -- line 2050: maej,ebik,cdml->abcdijkl
  ⟨-1, [g_aaaa [mₒ, aᵥ, eᵥ, jₒ], t2_aaaa [eᵥ, bᵥ, iₒ, kₒ], t2_abab [cᵥ, dᵥ, mₒ, lₒ]], [(1, [aᵥ, bᵥ, cᵥ, dᵥ, iₒ, jₒ, kₒ, lₒ]), (-1, [aᵥ, bᵥ, cᵥ, dᵥ, jₒ, iₒ, kₒ, lₒ]), (-1, [aᵥ, cᵥ, bᵥ, dᵥ, iₒ, jₒ, kₒ, lₒ]), (1, [aᵥ, cᵥ, bᵥ, dᵥ, jₒ, iₒ, kₒ, lₒ])]⟩,
  -- line 2054: maej,edkl,bcim->abcdijkl
  ⟨1, [g_aaaa [mₒ, aᵥ, eᵥ, jₒ], t2_abab [eᵥ, dᵥ, kₒ, lₒ], t2_aaaa [bᵥ, cᵥ, iₒ, mₒ]], [(1, [aᵥ, bᵥ, cᵥ, dᵥ, iₒ, jₒ, kₒ, lₒ]), (-1, [aᵥ, bᵥ, cᵥ, dᵥ, kₒ, jₒ, iₒ, lₒ]), (-1, [bᵥ, aᵥ, cᵥ, dᵥ, iₒ, jₒ, kₒ, lₒ]), (1, [bᵥ, aᵥ, cᵥ, dᵥ, kₒ, jₒ, iₒ, lₒ])]⟩,
  -- line 2058: amie,bekl,cdjm->abcdijkl
  ⟨1, [g_abab [aᵥ, mₒ, iₒ, eᵥ], t2_abab [bᵥ, eᵥ, kₒ, lₒ], t2_abab [cᵥ, dᵥ, jₒ, mₒ]], [(1, [aᵥ, bᵥ, cᵥ, dᵥ, iₒ, jₒ, kₒ, lₒ]), (-1, [aᵥ, bᵥ, cᵥ, dᵥ, iₒ, kₒ, jₒ, lₒ]), (-1, [aᵥ, cᵥ, bᵥ, dᵥ, iₒ, jₒ, kₒ, lₒ]), (1, [aᵥ, cᵥ, bᵥ, dᵥ, iₒ, kₒ, jₒ, lₒ])]⟩,
  -- line 2062: maei,edkl,bcjm->abcdijkl
  ⟨-1, [g_aaaa [mₒ, aᵥ, eᵥ, iₒ], t2_abab [eᵥ, dᵥ, kₒ, lₒ], t2_aaaa [bᵥ, cᵥ, jₒ, mₒ]], [(1, [aᵥ, bᵥ, cᵥ, dᵥ, iₒ, jₒ, kₒ, lₒ]), (-1, [aᵥ, bᵥ, cᵥ, dᵥ, iₒ, kₒ, jₒ, lₒ]), (-1, [bᵥ, aᵥ, cᵥ, dᵥ, iₒ, jₒ, kₒ, lₒ]), (1, [bᵥ, aᵥ, cᵥ, dᵥ, iₒ, kₒ, jₒ, lₒ])]⟩,
  -- line 2066: bmel,eajk,cdim->abcdijkl
  ⟨1, [g_abab [bᵥ, mₒ, eᵥ, lₒ], t2_aaaa [eᵥ, aᵥ, jₒ, kₒ], t2_abab [cᵥ, dᵥ, iₒ, mₒ]], [(1, [aᵥ, bᵥ, cᵥ, dᵥ, iₒ, jₒ, kₒ, lₒ]), (-1, [aᵥ, bᵥ, cᵥ, dᵥ, jₒ, iₒ, kₒ, lₒ]), (-1, [cᵥ, bᵥ, aᵥ, dᵥ, iₒ, jₒ, kₒ, lₒ]), (1, [cᵥ, bᵥ, aᵥ, dᵥ, jₒ, iₒ, kₒ, lₒ])]⟩,
  -- line 2070: bmel,eaij,cdkm->abcdijkl
  ⟨1, [g_abab [bᵥ, mₒ, eᵥ, lₒ], t2_aaaa [eᵥ, aᵥ, iₒ, jₒ], t2_abab [cᵥ, dᵥ, kₒ, mₒ]], [(1, [aᵥ, bᵥ, cᵥ, dᵥ, iₒ, jₒ, kₒ, lₒ]), (-1, [cᵥ, bᵥ, aᵥ, dᵥ, iₒ, jₒ, kₒ, lₒ])]⟩,
  -- line 2074: mbek,eaij,cdml->abcdijkl
  ⟨-1, [g_aaaa [mₒ, bᵥ, eᵥ, kₒ], t2_aaaa [eᵥ, aᵥ, iₒ, jₒ], t2_abab [cᵥ, dᵥ, mₒ, lₒ]], [(1, [aᵥ, bᵥ, cᵥ, dᵥ, iₒ, jₒ, kₒ, lₒ]), (-1, [cᵥ, bᵥ, aᵥ, dᵥ, iₒ, jₒ, kₒ, lₒ])]⟩,
  -- line 2078: bmke,aejl,cdim->abcdijkl
  ⟨-1, [g_abab [bᵥ, mₒ, kₒ, eᵥ], t2_abab [aᵥ, eᵥ, jₒ, lₒ], t2_abab [cᵥ, dᵥ, iₒ, mₒ]], [(1, [aᵥ, bᵥ, cᵥ, dᵥ, iₒ, jₒ, kₒ, lₒ]), (-1, [aᵥ, bᵥ, cᵥ, dᵥ, jₒ, iₒ, kₒ, lₒ]), (-1, [cᵥ, bᵥ, aᵥ, dᵥ, iₒ, jₒ, kₒ, lₒ]), (1, [cᵥ, bᵥ, aᵥ, dᵥ, jₒ, iₒ, kₒ, lₒ])]⟩,
  -- line 2082: bmje,aekl,cdim->abcdijkl
  ⟨1, [g_abab [bᵥ, mₒ, jₒ, eᵥ], t2_abab [aᵥ, eᵥ, kₒ, lₒ], t2_abab [cᵥ, dᵥ, iₒ, mₒ]], [(1, [aᵥ, bᵥ, cᵥ, dᵥ, iₒ, jₒ, kₒ, lₒ]), (-1, [aᵥ, bᵥ, cᵥ, dᵥ, kₒ, jₒ, iₒ, lₒ]), (-1, [cᵥ, bᵥ, aᵥ, dᵥ, iₒ, jₒ, kₒ, lₒ]), (1, [cᵥ, bᵥ, aᵥ, dᵥ, kₒ, jₒ, iₒ, lₒ])]⟩,
  -- line 2086: mbej,eaik,cdml->abcdijkl
  ⟨1, [g_aaaa [mₒ, bᵥ, eᵥ, jₒ], t2_aaaa [eᵥ, aᵥ, iₒ, kₒ], t2_abab [cᵥ, dᵥ, mₒ, lₒ]], [(1, [aᵥ, bᵥ, cᵥ, dᵥ, iₒ, jₒ, kₒ, lₒ]), (-1, [aᵥ, bᵥ, cᵥ, dᵥ, jₒ, iₒ, kₒ, lₒ]), (-1, [cᵥ, bᵥ, aᵥ, dᵥ, iₒ, jₒ, kₒ, lₒ]), (1, [cᵥ, bᵥ, aᵥ, dᵥ, jₒ, iₒ, kₒ, lₒ])]⟩,
  -- line 2090: bmie,aekl,cdjm->abcdijkl
  ⟨-1, [g_abab [bᵥ, mₒ, iₒ, eᵥ], t2_abab [aᵥ, eᵥ, kₒ, lₒ], t2_abab [cᵥ, dᵥ, jₒ, mₒ]], [(1, [aᵥ, bᵥ, cᵥ, dᵥ, iₒ, jₒ, kₒ, lₒ]), (-1, [aᵥ, bᵥ, cᵥ, dᵥ, iₒ, kₒ, jₒ, lₒ]), (-1, [cᵥ, bᵥ, aᵥ, dᵥ, iₒ, jₒ, kₒ, lₒ]), (1, [cᵥ, bᵥ, aᵥ, dᵥ, iₒ, kₒ, jₒ, lₒ])]⟩,
  -- line 2094: cmel,eajk,bdim->abcdijkl
  ⟨-1, [g_abab [cᵥ, mₒ, eᵥ, lₒ], t2_aaaa [eᵥ, aᵥ, jₒ, kₒ], t2_abab [bᵥ, dᵥ, iₒ, mₒ]], [(1, [aᵥ, bᵥ, cᵥ, dᵥ, iₒ, jₒ, kₒ, lₒ]), (-1, [aᵥ, bᵥ, cᵥ, dᵥ, jₒ, iₒ, kₒ, lₒ]), (-1, [bᵥ, aᵥ, cᵥ, dᵥ, iₒ, jₒ, kₒ, lₒ]), (1, [bᵥ, aᵥ, cᵥ, dᵥ, jₒ, iₒ, kₒ, lₒ])]⟩,
  -- line 2098: cmel,eaij,bdkm->abcdijkl
  ⟨-1, [g_abab [cᵥ, mₒ, eᵥ, lₒ], t2_aaaa [eᵥ, aᵥ, iₒ, jₒ], t2_abab [bᵥ, dᵥ, kₒ, mₒ]], [(1, [aᵥ, bᵥ, cᵥ, dᵥ, iₒ, jₒ, kₒ, lₒ]), (-1, [bᵥ, aᵥ, cᵥ, dᵥ, iₒ, jₒ, kₒ, lₒ])]⟩,
  -- line 2102: mcek,eaij,bdml->abcdijkl
  ⟨1, [g_aaaa [mₒ, cᵥ, eᵥ, kₒ], t2_aaaa [eᵥ, aᵥ, iₒ, jₒ], t2_abab [bᵥ, dᵥ, mₒ, lₒ]], [(1, [aᵥ, bᵥ, cᵥ, dᵥ, iₒ, jₒ, kₒ, lₒ]), (-1, [bᵥ, aᵥ, cᵥ, dᵥ, iₒ, jₒ, kₒ, lₒ])]⟩,
  -- line 2106: mdel,ecjk,abim->abcdijkl
  ⟨-1, [g_abab [mₒ, dᵥ, eᵥ, lₒ], t2_aaaa [eᵥ, cᵥ, jₒ, kₒ], t2_aaaa [aᵥ, bᵥ, iₒ, mₒ]], [(1, [aᵥ, bᵥ, cᵥ, dᵥ, iₒ, jₒ, kₒ, lₒ]), (-1, [aᵥ, bᵥ, cᵥ, dᵥ, jₒ, iₒ, kₒ, lₒ])]⟩,
  -- line 2110: mdel,ecij,abkm->abcdijkl
  ⟨-1, [g_abab [mₒ, dᵥ, eᵥ, lₒ], t2_aaaa [eᵥ, cᵥ, iₒ, jₒ], t2_aaaa [aᵥ, bᵥ, kₒ, mₒ]], [(1, [aᵥ, bᵥ, cᵥ, dᵥ, iₒ, jₒ, kₒ, lₒ])]⟩,
  -- line 2113: cmke,aejl,bdim->abcdijkl
  ⟨1, [g_abab [cᵥ, mₒ, kₒ, eᵥ], t2_abab [aᵥ, eᵥ, jₒ, lₒ], t2_abab [bᵥ, dᵥ, iₒ, mₒ]], [(1, [aᵥ, bᵥ, cᵥ, dᵥ, iₒ, jₒ, kₒ, lₒ]), (-1, [aᵥ, bᵥ, cᵥ, dᵥ, jₒ, iₒ, kₒ, lₒ]), (-1, [bᵥ, aᵥ, cᵥ, dᵥ, iₒ, jₒ, kₒ, lₒ]), (1, [bᵥ, aᵥ, cᵥ, dᵥ, jₒ, iₒ, kₒ, lₒ])]⟩,
  -- line 2117: mcek,edjl,abim->abcdijkl
  ⟨-1, [g_aaaa [mₒ, cᵥ, eᵥ, kₒ], t2_abab [eᵥ, dᵥ, jₒ, lₒ], t2_aaaa [aᵥ, bᵥ, iₒ, mₒ]], [(1, [aᵥ, bᵥ, cᵥ, dᵥ, iₒ, jₒ, kₒ, lₒ]), (-1, [aᵥ, bᵥ, cᵥ, dᵥ, jₒ, iₒ, kₒ, lₒ])]⟩,
  -- line 2121: mdke,cejl,abim->abcdijkl
  ⟨1, [g_abab [mₒ, dᵥ, kₒ, eᵥ], t2_abab [cᵥ, eᵥ, jₒ, lₒ], t2_aaaa [aᵥ, bᵥ, iₒ, mₒ]], [(1, [aᵥ, bᵥ, cᵥ, dᵥ, iₒ, jₒ, kₒ, lₒ]), (-1, [aᵥ, bᵥ, cᵥ, dᵥ, jₒ, iₒ, kₒ, lₒ])]⟩,
  -- line 2125: cmje,aekl,bdim->abcdijkl
  ⟨-1, [g_abab [cᵥ, mₒ, jₒ, eᵥ], t2_abab [aᵥ, eᵥ, kₒ, lₒ], t2_abab [bᵥ, dᵥ, iₒ, mₒ]], [(1, [aᵥ, bᵥ, cᵥ, dᵥ, iₒ, jₒ, kₒ, lₒ]), (-1, [aᵥ, bᵥ, cᵥ, dᵥ, kₒ, jₒ, iₒ, lₒ]), (-1, [bᵥ, aᵥ, cᵥ, dᵥ, iₒ, jₒ, kₒ, lₒ]), (1, [bᵥ, aᵥ, cᵥ, dᵥ, kₒ, jₒ, iₒ, lₒ])]⟩,
  -- line 2129: mcej,eaik,bdml->abcdijkl
  ⟨-1, [g_aaaa [mₒ, cᵥ, eᵥ, jₒ], t2_aaaa [eᵥ, aᵥ, iₒ, kₒ], t2_abab [bᵥ, dᵥ, mₒ, lₒ]], [(1, [aᵥ, bᵥ, cᵥ, dᵥ, iₒ, jₒ, kₒ, lₒ]), (-1, [aᵥ, bᵥ, cᵥ, dᵥ, jₒ, iₒ, kₒ, lₒ]), (-1, [bᵥ, aᵥ, cᵥ, dᵥ, iₒ, jₒ, kₒ, lₒ]), (1, [bᵥ, aᵥ, cᵥ, dᵥ, jₒ, iₒ, kₒ, lₒ])]⟩,
  -- line 2133: mcej,edkl,abim->abcdijkl
  ⟨1, [g_aaaa [mₒ, cᵥ, eᵥ, jₒ], t2_abab [eᵥ, dᵥ, kₒ, lₒ], t2_aaaa [aᵥ, bᵥ, iₒ, mₒ]], [(1, [aᵥ, bᵥ, cᵥ, dᵥ, iₒ, jₒ, kₒ, lₒ]), (-1, [aᵥ, bᵥ, cᵥ, dᵥ, kₒ, jₒ, iₒ, lₒ])]⟩,
  -- line 2137: mdje,cekl,abim->abcdijkl
  ⟨-1, [g_abab [mₒ, dᵥ, jₒ, eᵥ], t2_abab [cᵥ, eᵥ, kₒ, lₒ], t2_aaaa [aᵥ, bᵥ, iₒ, mₒ]], [(1, [aᵥ, bᵥ, cᵥ, dᵥ, iₒ, jₒ, kₒ, lₒ]), (-1, [aᵥ, bᵥ, cᵥ, dᵥ, kₒ, jₒ, iₒ, lₒ])]⟩,
  -- line 2141: cmie,aekl,bdjm->abcdijkl
  ⟨1, [g_abab [cᵥ, mₒ, iₒ, eᵥ], t2_abab [aᵥ, eᵥ, kₒ, lₒ], t2_abab [bᵥ, dᵥ, jₒ, mₒ]], [(1, [aᵥ, bᵥ, cᵥ, dᵥ, iₒ, jₒ, kₒ, lₒ]), (-1, [aᵥ, bᵥ, cᵥ, dᵥ, iₒ, kₒ, jₒ, lₒ]), (-1, [bᵥ, aᵥ, cᵥ, dᵥ, iₒ, jₒ, kₒ, lₒ]), (1, [bᵥ, aᵥ, cᵥ, dᵥ, iₒ, kₒ, jₒ, lₒ])]⟩,
  -- line 2145: mcei,edkl,abjm->abcdijkl
  ⟨-1, [g_aaaa [mₒ, cᵥ, eᵥ, iₒ], t2_abab [eᵥ, dᵥ, kₒ, lₒ], t2_aaaa [aᵥ, bᵥ, jₒ, mₒ]], [(1, [aᵥ, bᵥ, cᵥ, dᵥ, iₒ, jₒ, kₒ, lₒ]), (-1, [aᵥ, bᵥ, cᵥ, dᵥ, iₒ, kₒ, jₒ, lₒ])]⟩,
  -- line 2149: mdie,cekl,abjm->abcdijkl
  ⟨1, [g_abab [mₒ, dᵥ, iₒ, eᵥ], t2_abab [cᵥ, eᵥ, kₒ, lₒ], t2_aaaa [aᵥ, bᵥ, jₒ, mₒ]], [(1, [aᵥ, bᵥ, cᵥ, dᵥ, iₒ, jₒ, kₒ, lₒ]), (-1, [aᵥ, bᵥ, cᵥ, dᵥ, iₒ, kₒ, jₒ, lₒ])]⟩,
  -- line 2153: mdel,eajk,bcim->abcdijkl
  ⟨-1, [g_abab [mₒ, dᵥ, eᵥ, lₒ], t2_aaaa [eᵥ, aᵥ, jₒ, kₒ], t2_aaaa [bᵥ, cᵥ, iₒ, mₒ]], [(1, [aᵥ, bᵥ, cᵥ, dᵥ, iₒ, jₒ, kₒ, lₒ]), (-1, [aᵥ, bᵥ, cᵥ, dᵥ, jₒ, iₒ, kₒ, lₒ]), (-1, [bᵥ, aᵥ, cᵥ, dᵥ, iₒ, jₒ, kₒ, lₒ]), (1, [bᵥ, aᵥ, cᵥ, dᵥ, jₒ, iₒ, kₒ, lₒ])]⟩,
  -- line 2157: mdel,eaij,bckm->abcdijkl
  ⟨-1, [g_abab [mₒ, dᵥ, eᵥ, lₒ], t2_aaaa [eᵥ, aᵥ, iₒ, jₒ], t2_aaaa [bᵥ, cᵥ, kₒ, mₒ]], [(1, [aᵥ, bᵥ, cᵥ, dᵥ, iₒ, jₒ, kₒ, lₒ]), (-1, [bᵥ, aᵥ, cᵥ, dᵥ, iₒ, jₒ, kₒ, lₒ])]⟩
  ]

/-- Part 5 of `ccdq_t4_aaabaaab`. -/
def ccdq_t4_aaabaaab_5 : Prog := [
  -- line 2161: mdke,aejl,bcim->abcdijkl
  ⟨1, [g_abab [mₒ, dᵥ, kₒ, eᵥ], t2_abab [aᵥ, eᵥ, jₒ, lₒ], t2_aaaa [bᵥ, cᵥ, iₒ, mₒ]], [(1, [aᵥ, bᵥ, cᵥ, dᵥ, iₒ, jₒ, kₒ, lₒ]), (-1, [aᵥ, bᵥ, cᵥ, dᵥ, jₒ, iₒ, kₒ, lₒ]), (-1, [bᵥ, aᵥ, cᵥ, dᵥ, iₒ, jₒ, kₒ, lₒ]), (1, [bᵥ, aᵥ, cᵥ, dᵥ, jₒ, iₒ, kₒ, lₒ])]⟩,
  -- line 2165: mdje,aekl,bcim->abcdijkl
  ⟨-1, [g_abab [mₒ, dᵥ, jₒ, eᵥ], t2_abab [aᵥ, eᵥ, kₒ, lₒ], t2_aaaa [bᵥ, cᵥ, iₒ, mₒ]], [(1, [aᵥ, bᵥ, cᵥ, dᵥ, iₒ, jₒ, kₒ, lₒ]), (-1, [aᵥ, bᵥ, cᵥ, dᵥ, kₒ, jₒ, iₒ, lₒ]), (-1, [bᵥ, aᵥ, cᵥ, dᵥ, iₒ, jₒ, kₒ, lₒ]), (1, [bᵥ, aᵥ, cᵥ, dᵥ, kₒ, jₒ, iₒ, lₒ])]⟩,
  -- line 2169: mdie,aekl,bcjm->abcdijkl
  ⟨1, [g_abab [mₒ, dᵥ, iₒ, eᵥ], t2_abab [aᵥ, eᵥ, kₒ, lₒ], t2_aaaa [bᵥ, cᵥ, jₒ, mₒ]], [(1, [aᵥ, bᵥ, cᵥ, dᵥ, iₒ, jₒ, kₒ, lₒ]), (-1, [aᵥ, bᵥ, cᵥ, dᵥ, iₒ, kₒ, jₒ, lₒ]), (-1, [bᵥ, aᵥ, cᵥ, dᵥ, iₒ, jₒ, kₒ, lₒ]), (1, [bᵥ, aᵥ, cᵥ, dᵥ, iₒ, kₒ, jₒ, lₒ])]⟩,
  -- line 2173: abef,ecik,fdjl->abcdijkl
  ⟨1, [g_aaaa [aᵥ, bᵥ, eᵥ, fᵥ], t2_aaaa [eᵥ, cᵥ, iₒ, kₒ], t2_abab [fᵥ, dᵥ, jₒ, lₒ]], [(1, [aᵥ, bᵥ, cᵥ, dᵥ, iₒ, jₒ, kₒ, lₒ]), (-1, [aᵥ, cᵥ, bᵥ, dᵥ, iₒ, jₒ, kₒ, lₒ])]⟩,
  -- line 2177: abef,ecjk,fdil->abcdijkl
  ⟨-1, [g_aaaa [aᵥ, bᵥ, eᵥ, fᵥ], t2_aaaa [eᵥ, cᵥ, jₒ, kₒ], t2_abab [fᵥ, dᵥ, iₒ, lₒ]], [(1, [aᵥ, bᵥ, cᵥ, dᵥ, iₒ, jₒ, kₒ, lₒ]), (-1, [aᵥ, bᵥ, cᵥ, dᵥ, kₒ, jₒ, iₒ, lₒ]), (-1, [aᵥ, cᵥ, bᵥ, dᵥ, iₒ, jₒ, kₒ, lₒ]), (1, [aᵥ, cᵥ, bᵥ, dᵥ, kₒ, jₒ, iₒ, lₒ])]⟩,
  -- line 2181: adfe,bekl,fcij->abcdijkl
  ⟨-1, [g_abab [aᵥ, dᵥ, fᵥ, eᵥ], t2_abab [bᵥ, eᵥ, kₒ, lₒ], t2_aaaa [fᵥ, cᵥ, iₒ, jₒ]], [(1, [aᵥ, bᵥ, cᵥ, dᵥ, iₒ, jₒ, kₒ, lₒ]), (-1, [aᵥ, bᵥ, cᵥ, dᵥ, iₒ, kₒ, jₒ, lₒ]), (-1, [bᵥ, aᵥ, cᵥ, dᵥ, iₒ, jₒ, kₒ, lₒ]), (1, [bᵥ, aᵥ, cᵥ, dᵥ, iₒ, kₒ, jₒ, lₒ])]⟩,
  -- line 2185: adfe,beil,fcjk->abcdijkl
  ⟨-1, [g_abab [aᵥ, dᵥ, fᵥ, eᵥ], t2_abab [bᵥ, eᵥ, iₒ, lₒ], t2_aaaa [fᵥ, cᵥ, jₒ, kₒ]], [(1, [aᵥ, bᵥ, cᵥ, dᵥ, iₒ, jₒ, kₒ, lₒ]), (-1, [bᵥ, aᵥ, cᵥ, dᵥ, iₒ, jₒ, kₒ, lₒ])]⟩,
  -- line 2189: adef,ebik,cfjl->abcdijkl
  ⟨-1, [g_abab [aᵥ, dᵥ, eᵥ, fᵥ], t2_aaaa [eᵥ, bᵥ, iₒ, kₒ], t2_abab [cᵥ, fᵥ, jₒ, lₒ]], [(1, [aᵥ, bᵥ, cᵥ, dᵥ, iₒ, jₒ, kₒ, lₒ]), (-1, [bᵥ, aᵥ, cᵥ, dᵥ, iₒ, jₒ, kₒ, lₒ])]⟩,
  -- line 2193: adef,ebjk,cfil->abcdijkl
  ⟨1, [g_abab [aᵥ, dᵥ, eᵥ, fᵥ], t2_aaaa [eᵥ, bᵥ, jₒ, kₒ], t2_abab [cᵥ, fᵥ, iₒ, lₒ]], [(1, [aᵥ, bᵥ, cᵥ, dᵥ, iₒ, jₒ, kₒ, lₒ]), (-1, [aᵥ, bᵥ, cᵥ, dᵥ, kₒ, jₒ, iₒ, lₒ]), (-1, [bᵥ, aᵥ, cᵥ, dᵥ, iₒ, jₒ, kₒ, lₒ]), (1, [bᵥ, aᵥ, cᵥ, dᵥ, kₒ, jₒ, iₒ, lₒ])]⟩,
  -- line 2197: cdfe,aekl,fbij->abcdijkl
  ⟨-1, [g_abab [cᵥ, dᵥ, fᵥ, eᵥ], t2_abab [aᵥ, eᵥ, kₒ, lₒ], t2_aaaa [fᵥ, bᵥ, iₒ, jₒ]], [(1, [aᵥ, bᵥ, cᵥ, dᵥ, iₒ, jₒ, kₒ, lₒ]), (-1, [aᵥ, bᵥ, cᵥ, dᵥ, iₒ, kₒ, jₒ, lₒ])]⟩,
  -- line 2201: cdfe,aeil,fbjk->abcdijkl
  ⟨-1, [g_abab [cᵥ, dᵥ, fᵥ, eᵥ], t2_abab [aᵥ, eᵥ, iₒ, lₒ], t2_aaaa [fᵥ, bᵥ, jₒ, kₒ]], [(1, [aᵥ, bᵥ, cᵥ, dᵥ, iₒ, jₒ, kₒ, lₒ])]⟩,
  -- line 2204: bcef,eaik,fdjl->abcdijkl
  ⟨1, [g_aaaa [bᵥ, cᵥ, eᵥ, fᵥ], t2_aaaa [eᵥ, aᵥ, iₒ, kₒ], t2_abab [fᵥ, dᵥ, jₒ, lₒ]], [(1, [aᵥ, bᵥ, cᵥ, dᵥ, iₒ, jₒ, kₒ, lₒ])]⟩,
  -- line 2207: cdef,eaik,bfjl->abcdijkl
  ⟨-1, [g_abab [cᵥ, dᵥ, eᵥ, fᵥ], t2_aaaa [eᵥ, aᵥ, iₒ, kₒ], t2_abab [bᵥ, fᵥ, jₒ, lₒ]], [(1, [aᵥ, bᵥ, cᵥ, dᵥ, iₒ, jₒ, kₒ, lₒ])]⟩,
  -- line 2210: bcef,eajk,fdil->abcdijkl
  ⟨-1, [g_aaaa [bᵥ, cᵥ, eᵥ, fᵥ], t2_aaaa [eᵥ, aᵥ, jₒ, kₒ], t2_abab [fᵥ, dᵥ, iₒ, lₒ]], [(1, [aᵥ, bᵥ, cᵥ, dᵥ, iₒ, jₒ, kₒ, lₒ]), (-1, [aᵥ, bᵥ, cᵥ, dᵥ, kₒ, jₒ, iₒ, lₒ])]⟩,
  -- line 2214: cdef,eajk,bfil->abcdijkl
  ⟨1, [g_abab [cᵥ, dᵥ, eᵥ, fᵥ], t2_aaaa [eᵥ, aᵥ, jₒ, kₒ], t2_abab [bᵥ, fᵥ, iₒ, lₒ]], [(1, [aᵥ, bᵥ, cᵥ, dᵥ, iₒ, jₒ, kₒ, lₒ]), (-1, [aᵥ, bᵥ, cᵥ, dᵥ, kₒ, jₒ, iₒ, lₒ])]⟩,
  -- line 2218: mnef,efkl,abjm,cdin->abcdijkl
  ⟨1/2, [g_abab [mₒ, nₒ, eᵥ, fᵥ], t2_abab [eᵥ, fᵥ, kₒ, lₒ], t2_aaaa [aᵥ, bᵥ, jₒ, mₒ], t2_abab [cᵥ, dᵥ, iₒ, nₒ]], [(1, [aᵥ, bᵥ, cᵥ, dᵥ, iₒ, jₒ, kₒ, lₒ]), (-1, [aᵥ, bᵥ, cᵥ, dᵥ, jₒ, iₒ, kₒ, lₒ]), (-1, [aᵥ, cᵥ, bᵥ, dᵥ, iₒ, jₒ, kₒ, lₒ]), (1, [aᵥ, cᵥ, bᵥ, dᵥ, jₒ, iₒ, kₒ, lₒ])]⟩,
  -- line 2222: mnfe,fekl,abjm,cdin->abcdijkl
  ⟨1/2, [g_abab [mₒ, nₒ, fᵥ, eᵥ], t2_abab [fᵥ, eᵥ, kₒ, lₒ], t2_aaaa [aᵥ, bᵥ, jₒ, mₒ], t2_abab [cᵥ, dᵥ, iₒ, nₒ]], [(1, [aᵥ, bᵥ, cᵥ, dᵥ, iₒ, jₒ, kₒ, lₒ]), (-1, [aᵥ, bᵥ, cᵥ, dᵥ, jₒ, iₒ, kₒ, lₒ]), (-1, [aᵥ, cᵥ, bᵥ, dᵥ, iₒ, jₒ, kₒ, lₒ]), (1, [aᵥ, cᵥ, bᵥ, dᵥ, jₒ, iₒ, kₒ, lₒ])]⟩,
  -- line 2226: nmef,efkl,adjm,bcin->abcdijkl
  ⟨-1/2, [g_abab [nₒ, mₒ, eᵥ, fᵥ], t2_abab [eᵥ, fᵥ, kₒ, lₒ], t2_abab [aᵥ, dᵥ, jₒ, mₒ], t2_aaaa [bᵥ, cᵥ, iₒ, nₒ]], [(1, [aᵥ, bᵥ, cᵥ, dᵥ, iₒ, jₒ, kₒ, lₒ]), (-1, [aᵥ, bᵥ, cᵥ, dᵥ, jₒ, iₒ, kₒ, lₒ])]⟩,
  -- line 2230: nmfe,fekl,adjm,bcin->abcdijkl
  ⟨-1/2, [g_abab [nₒ, mₒ, fᵥ, eᵥ], t2_abab [fᵥ, eᵥ, kₒ, lₒ], t2_abab [aᵥ, dᵥ, jₒ, mₒ], t2_aaaa [bᵥ, cᵥ, iₒ, nₒ]], [(1, [aᵥ, bᵥ, cᵥ, dᵥ, iₒ, jₒ, kₒ, lₒ]), (-1, [aᵥ, bᵥ, cᵥ, dᵥ, jₒ, iₒ, kₒ, lₒ])]⟩,
  -- line 2234: mnef,efjl,abkm,cdin->abcdijkl
  ⟨-1/2, [g_abab [mₒ, nₒ, eᵥ, fᵥ], t2_abab [eᵥ, fᵥ, jₒ, lₒ], t2_aaaa [aᵥ, bᵥ, kₒ, mₒ], t2_abab [cᵥ, dᵥ, iₒ, nₒ]], [(1, [aᵥ, bᵥ, cᵥ, dᵥ, iₒ, jₒ, kₒ, lₒ]), (-1, [aᵥ, bᵥ, cᵥ, dᵥ, kₒ, jₒ, iₒ, lₒ]), (-1, [aᵥ, cᵥ, bᵥ, dᵥ, iₒ, jₒ, kₒ, lₒ]), (1, [aᵥ, cᵥ, bᵥ, dᵥ, kₒ, jₒ, iₒ, lₒ])]⟩,
  -- line 2238: mnfe,fejl,abkm,cdin->abcdijkl
  ⟨-1/2, [g_abab [mₒ, nₒ, fᵥ, eᵥ], t2_abab [fᵥ, eᵥ, jₒ, lₒ], t2_aaaa [aᵥ, bᵥ, kₒ, mₒ], t2_abab [cᵥ, dᵥ, iₒ, nₒ]], [(1, [aᵥ, bᵥ, cᵥ, dᵥ, iₒ, jₒ, kₒ, lₒ]), (-1, [aᵥ, bᵥ, cᵥ, dᵥ, kₒ, jₒ, iₒ, lₒ]), (-1, [aᵥ, cᵥ, bᵥ, dᵥ, iₒ, jₒ, kₒ, lₒ]), (1, [aᵥ, cᵥ, bᵥ, dᵥ, kₒ, jₒ, iₒ, lₒ])]⟩,
  -- line 2242: nmef,efjl,adkm,bcin->abcdijkl
  ⟨1/2, [g_abab [nₒ, mₒ, eᵥ, fᵥ], t2_abab [eᵥ, fᵥ, jₒ, lₒ], t2_abab [aᵥ, dᵥ, kₒ, mₒ], t2_aaaa [bᵥ, cᵥ, iₒ, nₒ]], [(1, [aᵥ, bᵥ, cᵥ, dᵥ, iₒ, jₒ, kₒ, lₒ]), (-1, [aᵥ, bᵥ, cᵥ, dᵥ, kₒ, jₒ, iₒ, lₒ])]⟩,
  -- line 2246: nmfe,fejl,adkm,bcin->abcdijkl
  ⟨1/2, [g_abab [nₒ, mₒ, fᵥ, eᵥ], t2_abab [fᵥ, eᵥ, jₒ, lₒ], t2_abab [aᵥ, dᵥ, kₒ, mₒ], t2_aaaa [bᵥ, cᵥ, iₒ, nₒ]], [(1, [aᵥ, bᵥ, cᵥ, dᵥ, iₒ, jₒ, kₒ, lₒ]), (-1, [aᵥ, bᵥ, cᵥ, dᵥ, kₒ, jₒ, iₒ, lₒ])]⟩,
  -- line 2250: mnef,efil,abkm,cdjn->abcdijkl
  ⟨1/2, [g_abab [mₒ, nₒ, eᵥ, fᵥ], t2_abab [eᵥ, fᵥ, iₒ, lₒ], t2_aaaa [aᵥ, bᵥ, kₒ, mₒ], t2_abab [cᵥ, dᵥ, jₒ, nₒ]], [(1, [aᵥ, bᵥ, cᵥ, dᵥ, iₒ, jₒ, kₒ, lₒ]), (-1, [aᵥ, bᵥ, cᵥ, dᵥ, iₒ, kₒ, jₒ, lₒ]), (-1, [aᵥ, cᵥ, bᵥ, dᵥ, iₒ, jₒ, kₒ, lₒ]), (1, [aᵥ, cᵥ, bᵥ, dᵥ, iₒ, kₒ, jₒ, lₒ])]⟩,
  -- line 2254: mnfe,feil,abkm,cdjn->abcdijkl
  ⟨1/2, [g_abab [mₒ, nₒ, fᵥ, eᵥ], t2_abab [fᵥ, eᵥ, iₒ, lₒ], t2_aaaa [aᵥ, bᵥ, kₒ, mₒ], t2_abab [cᵥ, dᵥ, jₒ, nₒ]], [(1, [aᵥ, bᵥ, cᵥ, dᵥ, iₒ, jₒ, kₒ, lₒ]), (-1, [aᵥ, bᵥ, cᵥ, dᵥ, iₒ, kₒ, jₒ, lₒ]), (-1, [aᵥ, cᵥ, bᵥ, dᵥ, iₒ, jₒ, kₒ, lₒ]), (1, [aᵥ, cᵥ, bᵥ, dᵥ, iₒ, kₒ, jₒ, lₒ])]⟩,
  -- line 2258: nmef,efil,adkm,bcjn->abcdijkl
  ⟨-1/2, [g_abab [nₒ, mₒ, eᵥ, fᵥ], t2_abab [eᵥ, fᵥ, iₒ, lₒ], t2_abab [aᵥ, dᵥ, kₒ, mₒ], t2_aaaa [bᵥ, cᵥ, jₒ, nₒ]], [(1, [aᵥ, bᵥ, cᵥ, dᵥ, iₒ, jₒ, kₒ, lₒ]), (-1, [aᵥ, bᵥ, cᵥ, dᵥ, iₒ, kₒ, jₒ, lₒ])]⟩,
  -- line 2262: nmfe,feil,adkm,bcjn->abcdijkl
  ⟨-1/2, [g_abab [nₒ, mₒ, fᵥ, eᵥ], t2_abab [fᵥ, eᵥ, iₒ, lₒ], t2_abab [aᵥ, dᵥ, kₒ, mₒ], t2_aaaa [bᵥ, cᵥ, jₒ, nₒ]], [(1, [aᵥ, bᵥ, cᵥ, dᵥ, iₒ, jₒ, kₒ, lₒ]), (-1, [aᵥ, bᵥ, cᵥ, dᵥ, iₒ, kₒ, jₒ, lₒ])]⟩,
  -- line 2266: nmef,efjk,abim,cdnl->abcdijkl
  ⟨-1/2, [g_aaaa [nₒ, mₒ, eᵥ, fᵥ], t2_aaaa [eᵥ, fᵥ, jₒ, kₒ], t2_aaaa [aᵥ, bᵥ, iₒ, mₒ], t2_abab [cᵥ, dᵥ, nₒ, lₒ]], [(1, [aᵥ, bᵥ, cᵥ, dᵥ, iₒ, jₒ, kₒ, lₒ]), (-1, [aᵥ, cᵥ, bᵥ, dᵥ, iₒ, jₒ, kₒ, lₒ])]⟩,
  -- line 2270: nmef,efjk,adml,bcin->abcdijkl
  ⟨1/2, [g_aaaa [nₒ, mₒ, eᵥ, fᵥ], t2_aaaa [eᵥ, fᵥ, jₒ, kₒ], t2_abab [aᵥ, dᵥ, mₒ, lₒ], t2_aaaa [bᵥ, cᵥ, iₒ, nₒ]], [(1, [aᵥ, bᵥ, cᵥ, dᵥ, iₒ, jₒ, kₒ, lₒ])]⟩,
  -- line 2273: nmef,efik,abjm,cdnl->abcdijkl
  ⟨1/2, [g_aaaa [nₒ, mₒ, eᵥ, fᵥ], t2_aaaa [eᵥ, fᵥ, iₒ, kₒ], t2_aaaa [aᵥ, bᵥ, jₒ, mₒ], t2_abab [cᵥ, dᵥ, nₒ, lₒ]], [(1, [aᵥ, bᵥ, cᵥ, dᵥ, iₒ, jₒ, kₒ, lₒ]), (-1, [aᵥ, cᵥ, bᵥ, dᵥ, iₒ, jₒ, kₒ, lₒ])]⟩,
  -- line 2277: nmef,efik,adml,bcjn->abcdijkl
  ⟨-1/2, [g_aaaa [nₒ, mₒ, eᵥ, fᵥ], t2_aaaa [eᵥ, fᵥ, iₒ, kₒ], t2_abab [aᵥ, dᵥ, mₒ, lₒ], t2_aaaa [bᵥ, cᵥ, jₒ, nₒ]], [(1, [aᵥ, bᵥ, cᵥ, dᵥ, iₒ, jₒ, kₒ, lₒ])]⟩,
  -- line 2280: nmef,efij,abkm,cdnl->abcdijkl
  ⟨-1/2, [g_aaaa [nₒ, mₒ, eᵥ, fᵥ], t2_aaaa [eᵥ, fᵥ, iₒ, jₒ], t2_aaaa [aᵥ, bᵥ, kₒ, mₒ], t2_abab [cᵥ, dᵥ, nₒ, lₒ]], [(1, [aᵥ, bᵥ, cᵥ, dᵥ, iₒ, jₒ, kₒ, lₒ]), (-1, [aᵥ, cᵥ, bᵥ, dᵥ, iₒ, jₒ, kₒ, lₒ])]⟩,
  -- line 2284: nmef,efij,adml,bckn->abcdijkl
  ⟨1/2, [g_aaaa [nₒ, mₒ, eᵥ, fᵥ], t2_aaaa [eᵥ, fᵥ, iₒ, jₒ], t2_abab [aᵥ, dᵥ, mₒ, lₒ], t2_aaaa [bᵥ, cᵥ, kₒ, nₒ]], [(1, [aᵥ, bᵥ, cᵥ, dᵥ, iₒ, jₒ, kₒ, lₒ])]⟩,
  -- line 2287: mnfe,aeml,fbjk,cdin->abcdijkl
  ⟨1, [g_abab [mₒ, nₒ, fᵥ, eᵥ], t2_abab [aᵥ, eᵥ, mₒ, lₒ], t2_aaaa [fᵥ, bᵥ, jₒ, kₒ], t2_abab [cᵥ, dᵥ, iₒ, nₒ]], [(1, [aᵥ, bᵥ, cᵥ, dᵥ, iₒ, jₒ, kₒ, lₒ]), (-1, [aᵥ, bᵥ, cᵥ, dᵥ, jₒ, iₒ, kₒ, lₒ]), (-1, [aᵥ, cᵥ, bᵥ, dᵥ, iₒ, jₒ, kₒ, lₒ]), (1, [aᵥ, cᵥ, bᵥ, dᵥ, jₒ, iₒ, kₒ, lₒ])]⟩,
  -- line 2291: mnfe,aeml,fbij,cdkn->abcdijkl
  ⟨1, [g_abab [mₒ, nₒ, fᵥ, eᵥ], t2_abab [aᵥ, eᵥ, mₒ, lₒ], t2_aaaa [fᵥ, bᵥ, iₒ, jₒ], t2_abab [cᵥ, dᵥ, kₒ, nₒ]], [(1, [aᵥ, bᵥ, cᵥ, dᵥ, iₒ, jₒ, kₒ, lₒ]), (-1, [aᵥ, cᵥ, bᵥ, dᵥ, iₒ, jₒ, kₒ, lₒ])]⟩,
  -- line 2295: nmef,eakm,fbij,cdnl->abcdijkl
  ⟨1, [g_aaaa [nₒ, mₒ, eᵥ, fᵥ], t2_aaaa [eᵥ, aᵥ, kₒ, mₒ], t2_aaaa [fᵥ, bᵥ, iₒ, jₒ], t2_abab [cᵥ, dᵥ, nₒ, lₒ]], [(1, [aᵥ, bᵥ, cᵥ, dᵥ, iₒ, jₒ, kₒ, lₒ]), (-1, [aᵥ, cᵥ, bᵥ, dᵥ, iₒ, jₒ, kₒ, lₒ])]⟩,
  -- line 2299: nmfe,aekm,fbij,cdnl->abcdijkl
  ⟨1, [g_abab [nₒ, mₒ, fᵥ, eᵥ], t2_abab [aᵥ, eᵥ, kₒ, mₒ], t2_aaaa [fᵥ, bᵥ, iₒ, jₒ], t2_abab [cᵥ, dᵥ, nₒ, lₒ]], [(1, [aᵥ, bᵥ, cᵥ, dᵥ, iₒ, jₒ, kₒ, lₒ]), (-1, [aᵥ, cᵥ, bᵥ, dᵥ, iₒ, jₒ, kₒ, lₒ])]⟩,
  -- line 2303: mnef,eakm,bfjl,cdin->abcdijkl
  ⟨-1, [g_abab [mₒ, nₒ, eᵥ, fᵥ], t2_aaaa [eᵥ, aᵥ, kₒ, mₒ], t2_abab [bᵥ, fᵥ, jₒ, lₒ], t2_abab [cᵥ, dᵥ, iₒ, nₒ]], [(1, [aᵥ, bᵥ, cᵥ, dᵥ, iₒ, jₒ, kₒ, lₒ]), (-1, [aᵥ, bᵥ, cᵥ, dᵥ, jₒ, iₒ, kₒ, lₒ]), (-1, [aᵥ, cᵥ, bᵥ, dᵥ, iₒ, jₒ, kₒ, lₒ]), (1, [aᵥ, cᵥ, bᵥ, dᵥ, jₒ, iₒ, kₒ, lₒ])]⟩,
  -- line 2307: nmef,aekm,bfjl,cdin->abcdijkl
  ⟨-1, [g_bbbb [nₒ, mₒ, eᵥ, fᵥ], t2_abab [aᵥ, eᵥ, kₒ, mₒ], t2_abab [bᵥ, fᵥ, jₒ, lₒ], t2_abab [cᵥ, dᵥ, iₒ, nₒ]], [(1, [aᵥ, bᵥ, cᵥ, dᵥ, iₒ, jₒ, kₒ, lₒ]), (-1, [aᵥ, bᵥ, cᵥ, dᵥ, jₒ, iₒ, kₒ, lₒ]), (-1, [aᵥ, cᵥ, bᵥ, dᵥ, iₒ, jₒ, kₒ, lₒ]), (1, [aᵥ, cᵥ, bᵥ, dᵥ, jₒ, iₒ, kₒ, lₒ])]⟩,
  -- line 2311: nmef,eakm,fdjl,bcin->abcdijkl
  ⟨-1, [g_aaaa [nₒ, mₒ, eᵥ, fᵥ], t2_aaaa [eᵥ, aᵥ, kₒ, mₒ], t2_abab [fᵥ, dᵥ, jₒ, lₒ], t2_aaaa [bᵥ, cᵥ, iₒ, nₒ]], [(1, [aᵥ, bᵥ, cᵥ, dᵥ, iₒ, jₒ, kₒ, lₒ]), (-1, [aᵥ, bᵥ, cᵥ, dᵥ, jₒ, iₒ, kₒ, lₒ]), (-1, [bᵥ, aᵥ, cᵥ, dᵥ, iₒ, jₒ, kₒ, lₒ]), (1, [bᵥ, aᵥ, cᵥ, dᵥ, jₒ, iₒ, kₒ, lₒ])]⟩
  ]

/-- Part 6 of `ccdq_t4_aaabaaab`. -/
def ccdq_t4_aaabaaab_6 : Prog := [
  -- line 2315: nmfe,aekm,fdjl,bcin->abcdijkl
  ⟨-1, [g_abab [nₒ, mₒ, fᵥ, eᵥ], t2_abab [aᵥ, eᵥ, kₒ, mₒ], t2_abab [fᵥ, dᵥ, jₒ, lₒ], t2_aaaa [bᵥ, cᵥ, iₒ, nₒ]], [(1, [aᵥ, bᵥ, cᵥ, dᵥ, iₒ, jₒ, kₒ, lₒ]), (-1, [aᵥ, bᵥ, cᵥ, dᵥ, jₒ, iₒ, kₒ, lₒ]), (-1, [bᵥ, aᵥ, cᵥ, dᵥ, iₒ, jₒ, kₒ, lₒ]), (1, [bᵥ, aᵥ, cᵥ, dᵥ, jₒ, iₒ, kₒ, lₒ])]⟩,
  -- line 2319: mnef,eajm,bfkl,cdin->abcdijkl
  ⟨1, [g_abab [mₒ, nₒ, eᵥ, fᵥ], t2_aaaa [eᵥ, aᵥ, jₒ, mₒ], t2_abab [bᵥ, fᵥ, kₒ, lₒ], t2_abab [cᵥ, dᵥ, iₒ, nₒ]], [(1, [aᵥ, bᵥ, cᵥ, dᵥ, iₒ, jₒ, kₒ, lₒ]), (-1, [aᵥ, bᵥ, cᵥ, dᵥ, kₒ, jₒ, iₒ, lₒ]), (-1, [aᵥ, cᵥ, bᵥ, dᵥ, iₒ, jₒ, kₒ, lₒ]), (1, [aᵥ, cᵥ, bᵥ, dᵥ, kₒ, jₒ, iₒ, lₒ])]⟩,
  -- line 2323: nmef,aejm,bfkl,cdin->abcdijkl
  ⟨1, [g_bbbb [nₒ, mₒ, eᵥ, fᵥ], t2_abab [aᵥ, eᵥ, jₒ, mₒ], t2_abab [bᵥ, fᵥ, kₒ, lₒ], t2_abab [cᵥ, dᵥ, iₒ, nₒ]], [(1, [aᵥ, bᵥ, cᵥ, dᵥ, iₒ, jₒ, kₒ, lₒ]), (-1, [aᵥ, bᵥ, cᵥ, dᵥ, kₒ, jₒ, iₒ, lₒ]), (-1, [aᵥ, cᵥ, bᵥ, dᵥ, iₒ, jₒ, kₒ, lₒ]), (1, [aᵥ, cᵥ, bᵥ, dᵥ, kₒ, jₒ, iₒ, lₒ])]⟩,
  -- line 2327: nmef,eajm,fbik,cdnl->abcdijkl
  ⟨-1, [g_aaaa [nₒ, mₒ, eᵥ, fᵥ], t2_aaaa [eᵥ, aᵥ, jₒ, mₒ], t2_aaaa [fᵥ, bᵥ, iₒ, kₒ], t2_abab [cᵥ, dᵥ, nₒ, lₒ]], [(1, [aᵥ, bᵥ, cᵥ, dᵥ, iₒ, jₒ, kₒ, lₒ]), (-1, [aᵥ, bᵥ, cᵥ, dᵥ, jₒ, iₒ, kₒ, lₒ]), (-1, [aᵥ, cᵥ, bᵥ, dᵥ, iₒ, jₒ, kₒ, lₒ]), (1, [aᵥ, cᵥ, bᵥ, dᵥ, jₒ, iₒ, kₒ, lₒ])]⟩,
  -- line 2331: nmfe,aejm,fbik,cdnl->abcdijkl
  ⟨-1, [g_abab [nₒ, mₒ, fᵥ, eᵥ], t2_abab [aᵥ, eᵥ, jₒ, mₒ], t2_aaaa [fᵥ, bᵥ, iₒ, kₒ], t2_abab [cᵥ, dᵥ, nₒ, lₒ]], [(1, [aᵥ, bᵥ, cᵥ, dᵥ, iₒ, jₒ, kₒ, lₒ]), (-1, [aᵥ, bᵥ, cᵥ, dᵥ, jₒ, iₒ, kₒ, lₒ]), (-1, [aᵥ, cᵥ, bᵥ, dᵥ, iₒ, jₒ, kₒ, lₒ]), (1, [aᵥ, cᵥ, bᵥ, dᵥ, jₒ, iₒ, kₒ, lₒ])]⟩,
  -- line 2335: nmef,eajm,fdkl,bcin->abcdijkl
  ⟨1, [g_aaaa [nₒ, mₒ, eᵥ, fᵥ], t2_aaaa [eᵥ, aᵥ, jₒ, mₒ], t2_abab [fᵥ, dᵥ, kₒ, lₒ], t2_aaaa [bᵥ, cᵥ, iₒ, nₒ]], [(1, [aᵥ, bᵥ, cᵥ, dᵥ, iₒ, jₒ, kₒ, lₒ]), (-1, [aᵥ, bᵥ, cᵥ, dᵥ, kₒ, jₒ, iₒ, lₒ]), (-1, [bᵥ, aᵥ, cᵥ, dᵥ, iₒ, jₒ, kₒ, lₒ]), (1, [bᵥ, aᵥ, cᵥ, dᵥ, kₒ, jₒ, iₒ, lₒ])]⟩,
  -- line 2339: nmfe,aejm,fdkl,bcin->abcdijkl
  ⟨1, [g_abab [nₒ, mₒ, fᵥ, eᵥ], t2_abab [aᵥ, eᵥ, jₒ, mₒ], t2_abab [fᵥ, dᵥ, kₒ, lₒ], t2_aaaa [bᵥ, cᵥ, iₒ, nₒ]], [(1, [aᵥ, bᵥ, cᵥ, dᵥ, iₒ, jₒ, kₒ, lₒ]), (-1, [aᵥ, bᵥ, cᵥ, dᵥ, kₒ, jₒ, iₒ, lₒ]), (-1, [bᵥ, aᵥ, cᵥ, dᵥ, iₒ, jₒ, kₒ, lₒ]), (1, [bᵥ, aᵥ, cᵥ, dᵥ, kₒ, jₒ, iₒ, lₒ])]⟩,
  -- line 2343: mnef,eaim,bfkl,cdjn->abcdijkl
  ⟨-1, [g_abab [mₒ, nₒ, eᵥ, fᵥ], t2_aaaa [eᵥ, aᵥ, iₒ, mₒ], t2_abab [bᵥ, fᵥ, kₒ, lₒ], t2_abab [cᵥ, dᵥ, jₒ, nₒ]], [(1, [aᵥ, bᵥ, cᵥ, dᵥ, iₒ, jₒ, kₒ, lₒ]), (-1, [aᵥ, bᵥ, cᵥ, dᵥ, iₒ, kₒ, jₒ, lₒ]), (-1, [aᵥ, cᵥ, bᵥ, dᵥ, iₒ, jₒ, kₒ, lₒ]), (1, [aᵥ, cᵥ, bᵥ, dᵥ, iₒ, kₒ, jₒ, lₒ])]⟩,
  -- line 2347: nmef,aeim,bfkl,cdjn->abcdijkl
  ⟨-1, [g_bbbb [nₒ, mₒ, eᵥ, fᵥ], t2_abab [aᵥ, eᵥ, iₒ, mₒ], t2_abab [bᵥ, fᵥ, kₒ, lₒ], t2_abab [cᵥ, dᵥ, jₒ, nₒ]], [(1, [aᵥ, bᵥ, cᵥ, dᵥ, iₒ, jₒ, kₒ, lₒ]), (-1, [aᵥ, bᵥ, cᵥ, dᵥ, iₒ, kₒ, jₒ, lₒ]), (-1, [aᵥ, cᵥ, bᵥ, dᵥ, iₒ, jₒ, kₒ, lₒ]), (1, [aᵥ, cᵥ, bᵥ, dᵥ, iₒ, kₒ, jₒ, lₒ])]⟩,
  -- line 2351: nmef,eaim,fdkl,bcjn->abcdijkl
  ⟨-1, [g_aaaa [nₒ, mₒ, eᵥ, fᵥ], t2_aaaa [eᵥ, aᵥ, iₒ, mₒ], t2_abab [fᵥ, dᵥ, kₒ, lₒ], t2_aaaa [bᵥ, cᵥ, jₒ, nₒ]], [(1, [aᵥ, bᵥ, cᵥ, dᵥ, iₒ, jₒ, kₒ, lₒ]), (-1, [aᵥ, bᵥ, cᵥ, dᵥ, iₒ, kₒ, jₒ, lₒ]), (-1, [bᵥ, aᵥ, cᵥ, dᵥ, iₒ, jₒ, kₒ, lₒ]), (1, [bᵥ, aᵥ, cᵥ, dᵥ, iₒ, kₒ, jₒ, lₒ])]⟩,
  -- line 2355: nmfe,aeim,fdkl,bcjn->abcdijkl
  ⟨-1, [g_abab [nₒ, mₒ, fᵥ, eᵥ], t2_abab [aᵥ, eᵥ, iₒ, mₒ], t2_abab [fᵥ, dᵥ, kₒ, lₒ], t2_aaaa [bᵥ, cᵥ, jₒ, nₒ]], [(1, [aᵥ, bᵥ, cᵥ, dᵥ, iₒ, jₒ, kₒ, lₒ]), (-1, [aᵥ, bᵥ, cᵥ, dᵥ, iₒ, kₒ, jₒ, lₒ]), (-1, [bᵥ, aᵥ, cᵥ, dᵥ, iₒ, jₒ, kₒ, lₒ]), (1, [bᵥ, aᵥ, cᵥ, dᵥ, iₒ, kₒ, jₒ, lₒ])]⟩,
  -- line 2359: mnfe,aekl,fbjm,cdin->abcdijkl
  ⟨-1, [g_abab [mₒ, nₒ, fᵥ, eᵥ], t2_abab [aᵥ, eᵥ, kₒ, lₒ], t2_aaaa [fᵥ, bᵥ, jₒ, mₒ], t2_abab [cᵥ, dᵥ, iₒ, nₒ]], [(1, [aᵥ, bᵥ, cᵥ, dᵥ, iₒ, jₒ, kₒ, lₒ]), (-1, [aᵥ, bᵥ, cᵥ, dᵥ, jₒ, iₒ, kₒ, lₒ]), (-1, [aᵥ, cᵥ, bᵥ, dᵥ, iₒ, jₒ, kₒ, lₒ]), (1, [aᵥ, cᵥ, bᵥ, dᵥ, jₒ, iₒ, kₒ, lₒ])]⟩,
  -- line 2363: nmef,aekl,bfjm,cdin->abcdijkl
  ⟨1, [g_bbbb [nₒ, mₒ, eᵥ, fᵥ], t2_abab [aᵥ, eᵥ, kₒ, lₒ], t2_abab [bᵥ, fᵥ, jₒ, mₒ], t2_abab [cᵥ, dᵥ, iₒ, nₒ]], [(1, [aᵥ, bᵥ, cᵥ, dᵥ, iₒ, jₒ, kₒ, lₒ]), (-1, [aᵥ, bᵥ, cᵥ, dᵥ, jₒ, iₒ, kₒ, lₒ]), (-1, [aᵥ, cᵥ, bᵥ, dᵥ, iₒ, jₒ, kₒ, lₒ]), (1, [aᵥ, cᵥ, bᵥ, dᵥ, jₒ, iₒ, kₒ, lₒ])]⟩,
  -- line 2367: nmfe,aekl,fbij,cdnm->abcdijkl
  ⟨-1/2, [g_abab [nₒ, mₒ, fᵥ, eᵥ], t2_abab [aᵥ, eᵥ, kₒ, lₒ], t2_aaaa [fᵥ, bᵥ, iₒ, jₒ], t2_abab [cᵥ, dᵥ, nₒ, mₒ]], [(1, [aᵥ, bᵥ, cᵥ, dᵥ, iₒ, jₒ, kₒ, lₒ]), (-1, [aᵥ, bᵥ, cᵥ, dᵥ, iₒ, kₒ, jₒ, lₒ]), (-1, [aᵥ, cᵥ, bᵥ, dᵥ, iₒ, jₒ, kₒ, lₒ]), (1, [aᵥ, cᵥ, bᵥ, dᵥ, iₒ, kₒ, jₒ, lₒ])]⟩,
  -- line 2371: mnfe,aekl,fbij,cdmn->abcdijkl
  ⟨-1/2, [g_abab [mₒ, nₒ, fᵥ, eᵥ], t2_abab [aᵥ, eᵥ, kₒ, lₒ], t2_aaaa [fᵥ, bᵥ, iₒ, jₒ], t2_abab [cᵥ, dᵥ, mₒ, nₒ]], [(1, [aᵥ, bᵥ, cᵥ, dᵥ, iₒ, jₒ, kₒ, lₒ]), (-1, [aᵥ, bᵥ, cᵥ, dᵥ, iₒ, kₒ, jₒ, lₒ]), (-1, [aᵥ, cᵥ, bᵥ, dᵥ, iₒ, jₒ, kₒ, lₒ]), (1, [aᵥ, cᵥ, bᵥ, dᵥ, iₒ, kₒ, jₒ, lₒ])]⟩,
  -- line 2375: nmfe,aekl,fdjm,bcin->abcdijkl
  ⟨1, [g_abab [nₒ, mₒ, fᵥ, eᵥ], t2_abab [aᵥ, eᵥ, kₒ, lₒ], t2_abab [fᵥ, dᵥ, jₒ, mₒ], t2_aaaa [bᵥ, cᵥ, iₒ, nₒ]], [(1, [aᵥ, bᵥ, cᵥ, dᵥ, iₒ, jₒ, kₒ, lₒ]), (-1, [aᵥ, bᵥ, cᵥ, dᵥ, jₒ, iₒ, kₒ, lₒ]), (-1, [bᵥ, aᵥ, cᵥ, dᵥ, iₒ, jₒ, kₒ, lₒ]), (1, [bᵥ, aᵥ, cᵥ, dᵥ, jₒ, iₒ, kₒ, lₒ])]⟩,
  -- line 2379: mnfe,aejl,fbkm,cdin->abcdijkl
  ⟨1, [g_abab [mₒ, nₒ, fᵥ, eᵥ], t2_abab [aᵥ, eᵥ, jₒ, lₒ], t2_aaaa [fᵥ, bᵥ, kₒ, mₒ], t2_abab [cᵥ, dᵥ, iₒ, nₒ]], [(1, [aᵥ, bᵥ, cᵥ, dᵥ, iₒ, jₒ, kₒ, lₒ]), (-1, [aᵥ, bᵥ, cᵥ, dᵥ, kₒ, jₒ, iₒ, lₒ]), (-1, [aᵥ, cᵥ, bᵥ, dᵥ, iₒ, jₒ, kₒ, lₒ]), (1, [aᵥ, cᵥ, bᵥ, dᵥ, kₒ, jₒ, iₒ, lₒ])]⟩,
  -- line 2383: nmef,aejl,bfkm,cdin->abcdijkl
  ⟨-1, [g_bbbb [nₒ, mₒ, eᵥ, fᵥ], t2_abab [aᵥ, eᵥ, jₒ, lₒ], t2_abab [bᵥ, fᵥ, kₒ, mₒ], t2_abab [cᵥ, dᵥ, iₒ, nₒ]], [(1, [aᵥ, bᵥ, cᵥ, dᵥ, iₒ, jₒ, kₒ, lₒ]), (-1, [aᵥ, bᵥ, cᵥ, dᵥ, kₒ, jₒ, iₒ, lₒ]), (-1, [aᵥ, cᵥ, bᵥ, dᵥ, iₒ, jₒ, kₒ, lₒ]), (1, [aᵥ, cᵥ, bᵥ, dᵥ, kₒ, jₒ, iₒ, lₒ])]⟩,
  -- line 2387: nmfe,aejl,fdkm,bcin->abcdijkl
  ⟨-1, [g_abab [nₒ, mₒ, fᵥ, eᵥ], t2_abab [aᵥ, eᵥ, jₒ, lₒ], t2_abab [fᵥ, dᵥ, kₒ, mₒ], t2_aaaa [bᵥ, cᵥ, iₒ, nₒ]], [(1, [aᵥ, bᵥ, cᵥ, dᵥ, iₒ, jₒ, kₒ, lₒ]), (-1, [aᵥ, bᵥ, cᵥ, dᵥ, kₒ, jₒ, iₒ, lₒ]), (-1, [bᵥ, aᵥ, cᵥ, dᵥ, iₒ, jₒ, kₒ, lₒ]), (1, [bᵥ, aᵥ, cᵥ, dᵥ, kₒ, jₒ, iₒ, lₒ])]⟩,
  -- line 2391: mnfe,aeil,fbkm,cdjn->abcdijkl
  ⟨-1, [g_abab [mₒ, nₒ, fᵥ, eᵥ], t2_abab [aᵥ, eᵥ, iₒ, lₒ], t2_aaaa [fᵥ, bᵥ, kₒ, mₒ], t2_abab [cᵥ, dᵥ, jₒ, nₒ]], [(1, [aᵥ, bᵥ, cᵥ, dᵥ, iₒ, jₒ, kₒ, lₒ]), (-1, [aᵥ, bᵥ, cᵥ, dᵥ, iₒ, kₒ, jₒ, lₒ]), (-1, [aᵥ, cᵥ, bᵥ, dᵥ, iₒ, jₒ, kₒ, lₒ]), (1, [aᵥ, cᵥ, bᵥ, dᵥ, iₒ, kₒ, jₒ, lₒ])]⟩,
  -- line 2395: nmef,aeil,bfkm,cdjn->abcdijkl
  ⟨1, [g_bbbb [nₒ, mₒ, eᵥ, fᵥ], t2_abab [aᵥ, eᵥ, iₒ, lₒ], t2_abab [bᵥ, fᵥ, kₒ, mₒ], t2_abab [cᵥ, dᵥ, jₒ, nₒ]], [(1, [aᵥ, bᵥ, cᵥ, dᵥ, iₒ, jₒ, kₒ, lₒ]), (-1, [aᵥ, bᵥ, cᵥ, dᵥ, iₒ, kₒ, jₒ, lₒ]), (-1, [aᵥ, cᵥ, bᵥ, dᵥ, iₒ, jₒ, kₒ, lₒ]), (1, [aᵥ, cᵥ, bᵥ, dᵥ, iₒ, kₒ, jₒ, lₒ])]⟩,
  -- line 2399: nmfe,aeil,fbjk,cdnm->abcdijkl
  ⟨-1/2, [g_abab [nₒ, mₒ, fᵥ, eᵥ], t2_abab [aᵥ, eᵥ, iₒ, lₒ], t2_aaaa [fᵥ, bᵥ, jₒ, kₒ], t2_abab [cᵥ, dᵥ, nₒ, mₒ]], [(1, [aᵥ, bᵥ, cᵥ, dᵥ, iₒ, jₒ, kₒ, lₒ]), (-1, [aᵥ, cᵥ, bᵥ, dᵥ, iₒ, jₒ, kₒ, lₒ])]⟩,
  -- line 2403: mnfe,aeil,fbjk,cdmn->abcdijkl
  ⟨-1/2, [g_abab [mₒ, nₒ, fᵥ, eᵥ], t2_abab [aᵥ, eᵥ, iₒ, lₒ], t2_aaaa [fᵥ, bᵥ, jₒ, kₒ], t2_abab [cᵥ, dᵥ, mₒ, nₒ]], [(1, [aᵥ, bᵥ, cᵥ, dᵥ, iₒ, jₒ, kₒ, lₒ]), (-1, [aᵥ, cᵥ, bᵥ, dᵥ, iₒ, jₒ, kₒ, lₒ])]⟩,
  -- line 2407: nmef,eaik,bfjl,cdnm->abcdijkl
  ⟨-1/2, [g_abab [nₒ, mₒ, eᵥ, fᵥ], t2_aaaa [eᵥ, aᵥ, iₒ, kₒ], t2_abab [bᵥ, fᵥ, jₒ, lₒ], t2_abab [cᵥ, dᵥ, nₒ, mₒ]], [(1, [aᵥ, bᵥ, cᵥ, dᵥ, iₒ, jₒ, kₒ, lₒ]), (-1, [aᵥ, cᵥ, bᵥ, dᵥ, iₒ, jₒ, kₒ, lₒ])]⟩,
  -- line 2411: mnef,eaik,bfjl,cdmn->abcdijkl
  ⟨-1/2, [g_abab [mₒ, nₒ, eᵥ, fᵥ], t2_aaaa [eᵥ, aᵥ, iₒ, kₒ], t2_abab [bᵥ, fᵥ, jₒ, lₒ], t2_abab [cᵥ, dᵥ, mₒ, nₒ]], [(1, [aᵥ, bᵥ, cᵥ, dᵥ, iₒ, jₒ, kₒ, lₒ]), (-1, [aᵥ, cᵥ, bᵥ, dᵥ, iₒ, jₒ, kₒ, lₒ])]⟩,
  -- line 2415: nmfe,aeil,fdkm,bcjn->abcdijkl
  ⟨1, [g_abab [nₒ, mₒ, fᵥ, eᵥ], t2_abab [aᵥ, eᵥ, iₒ, lₒ], t2_abab [fᵥ, dᵥ, kₒ, mₒ], t2_aaaa [bᵥ, cᵥ, jₒ, nₒ]], [(1, [aᵥ, bᵥ, cᵥ, dᵥ, iₒ, jₒ, kₒ, lₒ]), (-1, [aᵥ, bᵥ, cᵥ, dᵥ, iₒ, kₒ, jₒ, lₒ]), (-1, [bᵥ, aᵥ, cᵥ, dᵥ, iₒ, jₒ, kₒ, lₒ]), (1, [bᵥ, aᵥ, cᵥ, dᵥ, iₒ, kₒ, jₒ, lₒ])]⟩,
  -- line 2419: nmef,eaik,fdjl,bcnm->abcdijkl
  ⟨1/2, [g_aaaa [nₒ, mₒ, eᵥ, fᵥ], t2_aaaa [eᵥ, aᵥ, iₒ, kₒ], t2_abab [fᵥ, dᵥ, jₒ, lₒ], t2_aaaa [bᵥ, cᵥ, nₒ, mₒ]], [(1, [aᵥ, bᵥ, cᵥ, dᵥ, iₒ, jₒ, kₒ, lₒ]), (-1, [bᵥ, aᵥ, cᵥ, dᵥ, iₒ, jₒ, kₒ, lₒ])]⟩,
  -- line 2423: mnef,eajk,bfml,cdin->abcdijkl
  ⟨-1, [g_abab [mₒ, nₒ, eᵥ, fᵥ], t2_aaaa [eᵥ, aᵥ, jₒ, kₒ], t2_abab [bᵥ, fᵥ, mₒ, lₒ], t2_abab [cᵥ, dᵥ, iₒ, nₒ]], [(1, [aᵥ, bᵥ, cᵥ, dᵥ, iₒ, jₒ, kₒ, lₒ]), (-1, [aᵥ, cᵥ, bᵥ, dᵥ, iₒ, jₒ, kₒ, lₒ])]⟩,
  -- line 2427: nmef,eajk,fbim,cdnl->abcdijkl
  ⟨1, [g_aaaa [nₒ, mₒ, eᵥ, fᵥ], t2_aaaa [eᵥ, aᵥ, jₒ, kₒ], t2_aaaa [fᵥ, bᵥ, iₒ, mₒ], t2_abab [cᵥ, dᵥ, nₒ, lₒ]], [(1, [aᵥ, bᵥ, cᵥ, dᵥ, iₒ, jₒ, kₒ, lₒ]), (-1, [aᵥ, cᵥ, bᵥ, dᵥ, iₒ, jₒ, kₒ, lₒ])]⟩,
  -- line 2431: nmef,eajk,bfim,cdnl->abcdijkl
  ⟨-1, [g_abab [nₒ, mₒ, eᵥ, fᵥ], t2_aaaa [eᵥ, aᵥ, jₒ, kₒ], t2_abab [bᵥ, fᵥ, iₒ, mₒ], t2_abab [cᵥ, dᵥ, nₒ, lₒ]], [(1, [aᵥ, bᵥ, cᵥ, dᵥ, iₒ, jₒ, kₒ, lₒ]), (-1, [aᵥ, cᵥ, bᵥ, dᵥ, iₒ, jₒ, kₒ, lₒ])]⟩,
  -- line 2435: nmef,eajk,bfil,cdnm->abcdijkl
  ⟨1/2, [g_abab [nₒ, mₒ, eᵥ, fᵥ], t2_aaaa [eᵥ, aᵥ, jₒ, kₒ], t2_abab [bᵥ, fᵥ, iₒ, lₒ], t2_abab [cᵥ, dᵥ, nₒ, mₒ]], [(1, [aᵥ, bᵥ, cᵥ, dᵥ, iₒ, jₒ, kₒ, lₒ]), (-1, [aᵥ, bᵥ, cᵥ, dᵥ, kₒ, jₒ, iₒ, lₒ]), (-1, [aᵥ, cᵥ, bᵥ, dᵥ, iₒ, jₒ, kₒ, lₒ]), (1, [aᵥ, cᵥ, bᵥ, dᵥ, kₒ, jₒ, iₒ, lₒ])]⟩,
  -- line 2439: mnef,eajk,bfil,cdmn->abcdijkl
  ⟨1/2, [g_abab [mₒ, nₒ, eᵥ, fᵥ], t2_aaaa [eᵥ, aᵥ, jₒ, kₒ], t2_abab [bᵥ, fᵥ, iₒ, lₒ], t2_abab [cᵥ, dᵥ, mₒ, nₒ]], [(1, [aᵥ, bᵥ, cᵥ, dᵥ, iₒ, jₒ, kₒ, lₒ]), (-1, [aᵥ, bᵥ, cᵥ, dᵥ, kₒ, jₒ, iₒ, lₒ]), (-1, [aᵥ, cᵥ, bᵥ, dᵥ, iₒ, jₒ, kₒ, lₒ]), (1, [aᵥ, cᵥ, bᵥ, dᵥ, kₒ, jₒ, iₒ, lₒ])]⟩,
  -- line 2443: nmef,eajk,fdml,bcin->abcdijkl
  ⟨-1, [g_aaaa [nₒ, mₒ, eᵥ, fᵥ], t2_aaaa [eᵥ, aᵥ, jₒ, kₒ], t2_abab [fᵥ, dᵥ, mₒ, lₒ], t2_aaaa [bᵥ, cᵥ, iₒ, nₒ]], [(1, [aᵥ, bᵥ, cᵥ, dᵥ, iₒ, jₒ, kₒ, lₒ]), (-1, [bᵥ, aᵥ, cᵥ, dᵥ, iₒ, jₒ, kₒ, lₒ])]⟩,
  -- line 2447: nmef,eajk,fdlm,bcin->abcdijkl
  ⟨1, [g_abab [nₒ, mₒ, eᵥ, fᵥ], t2_aaaa [eᵥ, aᵥ, jₒ, kₒ], t2_bbbb [fᵥ, dᵥ, lₒ, mₒ], t2_aaaa [bᵥ, cᵥ, iₒ, nₒ]], [(1, [aᵥ, bᵥ, cᵥ, dᵥ, iₒ, jₒ, kₒ, lₒ]), (-1, [bᵥ, aᵥ, cᵥ, dᵥ, iₒ, jₒ, kₒ, lₒ])]⟩,
  -- line 2451: nmef,eajk,fdil,bcnm->abcdijkl
  ⟨-1/2, [g_aaaa [nₒ, mₒ, eᵥ, fᵥ], t2_aaaa [eᵥ, aᵥ, jₒ, kₒ], t2_abab [fᵥ, dᵥ, iₒ, lₒ], t2_aaaa [bᵥ, cᵥ, nₒ, mₒ]], [(1, [aᵥ, bᵥ, cᵥ, dᵥ, iₒ, jₒ, kₒ, lₒ]), (-1, [aᵥ, bᵥ, cᵥ, dᵥ, kₒ, jₒ, iₒ, lₒ]), (-1, [bᵥ, aᵥ, cᵥ, dᵥ, iₒ, jₒ, kₒ, lₒ]), (1, [bᵥ, aᵥ, cᵥ, dᵥ, kₒ, jₒ, iₒ, lₒ])]⟩,
  -- line 2455: mnef,eaik,bfml,cdjn->abcdijkl
  ⟨1, [g_abab [mₒ, nₒ, eᵥ, fᵥ], t2_aaaa [eᵥ, aᵥ, iₒ, kₒ], t2_abab [bᵥ, fᵥ, mₒ, lₒ], t2_abab [cᵥ, dᵥ, jₒ, nₒ]], [(1, [aᵥ, bᵥ, cᵥ, dᵥ, iₒ, jₒ, kₒ, lₒ]), (-1, [aᵥ, cᵥ, bᵥ, dᵥ, iₒ, jₒ, kₒ, lₒ])]⟩,
  -- line 2459: nmef,eaik,fbjm,cdnl->abcdijkl
  ⟨-1, [g_aaaa [nₒ, mₒ, eᵥ, fᵥ], t2_aaaa [eᵥ, aᵥ, iₒ, kₒ], t2_aaaa [fᵥ, bᵥ, jₒ, mₒ], t2_abab [cᵥ, dᵥ, nₒ, lₒ]], [(1, [aᵥ, bᵥ, cᵥ, dᵥ, iₒ, jₒ, kₒ, lₒ]), (-1, [aᵥ, cᵥ, bᵥ, dᵥ, iₒ, jₒ, kₒ, lₒ])]⟩,
  -- line 2463: nmef,eaik,bfjm,cdnl->abcdijkl
  ⟨1, [g_abab [nₒ, mₒ, eᵥ, fᵥ], t2_aaaa [eᵥ, aᵥ, iₒ, kₒ], t2_abab [bᵥ, fᵥ, jₒ, mₒ], t2_abab [cᵥ, dᵥ, nₒ, lₒ]], [(1, [aᵥ, bᵥ, cᵥ, dᵥ, iₒ, jₒ, kₒ, lₒ]), (-1, [aᵥ, cᵥ, bᵥ, dᵥ, iₒ, jₒ, kₒ, lₒ])]⟩,
  -- line 2467: nmef,eaik,fdml,bcjn->abcdijkl
  ⟨1, [g_aaaa [nₒ, mₒ, eᵥ, fᵥ], t2_aaaa [eᵥ, aᵥ, iₒ, kₒ], t2_abab [fᵥ, dᵥ, mₒ, lₒ], t2_aaaa [bᵥ, cᵥ, jₒ, nₒ]], [(1, [aᵥ, bᵥ, cᵥ, dᵥ, iₒ, jₒ, kₒ, lₒ]), (-1, [bᵥ, aᵥ, cᵥ, dᵥ, iₒ, jₒ, kₒ, lₒ])]⟩,
  -- line 2471: nmef,eaik,fdlm,bcjn->abcdijkl
  ⟨-1, [g_abab [nₒ, mₒ, eᵥ, fᵥ], t2_aaaa [eᵥ, aᵥ, iₒ, kₒ], t2_bbbb [fᵥ, dᵥ, lₒ, mₒ], t2_aaaa [bᵥ, cᵥ, jₒ, nₒ]], [(1, [aᵥ, bᵥ, cᵥ, dᵥ, iₒ, jₒ, kₒ, lₒ]), (-1, [bᵥ, aᵥ, cᵥ, dᵥ, iₒ, jₒ, kₒ, lₒ])]⟩
  ]

/-- Part 7 of `ccdq_t4_aaabaaab`. -/
def ccdq_t4_aaabaaab_7 : Prog := [
  -- line 2475: mnef,eaij,bfml,cdkn->abcdijkl
  ⟨-1, [g_abab [mₒ, nₒ, eᵥ, fᵥ], t2_aaaa [eᵥ, aᵥ, iₒ, jₒ], t2_abab [bᵥ, fᵥ, mₒ, lₒ], t2_abab [cᵥ, dᵥ, kₒ, nₒ]], [(1, [aᵥ, bᵥ, cᵥ, dᵥ, iₒ, jₒ, kₒ, lₒ]), (-1, [aᵥ, cᵥ, bᵥ, dᵥ, iₒ, jₒ, kₒ, lₒ])]⟩,
  -- line 2479: nmef,eaij,fbkm,cdnl->abcdijkl
  ⟨1, [g_aaaa [nₒ, mₒ, eᵥ, fᵥ], t2_aaaa [eᵥ, aᵥ, iₒ, jₒ], t2_aaaa [fᵥ, bᵥ, kₒ, mₒ], t2_abab [cᵥ, dᵥ, nₒ, lₒ]], [(1, [aᵥ, bᵥ, cᵥ, dᵥ, iₒ, jₒ, kₒ, lₒ]), (-1, [aᵥ, cᵥ, bᵥ, dᵥ, iₒ, jₒ, kₒ, lₒ])]⟩,
  -- line 2483: nmef,eaij,bfkm,cdnl->abcdijkl
  ⟨-1, [g_abab [nₒ, mₒ, eᵥ, fᵥ], t2_aaaa [eᵥ, aᵥ, iₒ, jₒ], t2_abab [bᵥ, fᵥ, kₒ, mₒ], t2_abab [cᵥ, dᵥ, nₒ, lₒ]], [(1, [aᵥ, bᵥ, cᵥ, dᵥ, iₒ, jₒ, kₒ, lₒ]), (-1, [aᵥ, cᵥ, bᵥ, dᵥ, iₒ, jₒ, kₒ, lₒ])]⟩,
  -- line 2487: nmef,eaij,fdml,bckn->abcdijkl
  ⟨-1, [g_aaaa [nₒ, mₒ, eᵥ, fᵥ], t2_aaaa [eᵥ, aᵥ, iₒ, jₒ], t2_abab [fᵥ, dᵥ, mₒ, lₒ], t2_aaaa [bᵥ, cᵥ, kₒ, nₒ]], [(1, [aᵥ, bᵥ, cᵥ, dᵥ, iₒ, jₒ, kₒ, lₒ]), (-1, [bᵥ, aᵥ, cᵥ, dᵥ, iₒ, jₒ, kₒ, lₒ])]⟩,
  -- line 2491: nmef,eaij,fdlm,bckn->abcdijkl
  ⟨1, [g_abab [nₒ, mₒ, eᵥ, fᵥ], t2_aaaa [eᵥ, aᵥ, iₒ, jₒ], t2_bbbb [fᵥ, dᵥ, lₒ, mₒ], t2_aaaa [bᵥ, cᵥ, kₒ, nₒ]], [(1, [aᵥ, bᵥ, cᵥ, dᵥ, iₒ, jₒ, kₒ, lₒ]), (-1, [bᵥ, aᵥ, cᵥ, dᵥ, iₒ, jₒ, kₒ, lₒ])]⟩,
  -- line 2495: mnfe,beml,fcjk,adin->abcdijkl
  ⟨1, [g_abab [mₒ, nₒ, fᵥ, eᵥ], t2_abab [bᵥ, eᵥ, mₒ, lₒ], t2_aaaa [fᵥ, cᵥ, jₒ, kₒ], t2_abab [aᵥ, dᵥ, iₒ, nₒ]], [(1, [aᵥ, bᵥ, cᵥ, dᵥ, iₒ, jₒ, kₒ, lₒ]), (-1, [aᵥ, bᵥ, cᵥ, dᵥ, jₒ, iₒ, kₒ, lₒ])]⟩,
  -- line 2499: mnfe,beml,fcij,adkn->abcdijkl
  ⟨1, [g_abab [mₒ, nₒ, fᵥ, eᵥ], t2_abab [bᵥ, eᵥ, mₒ, lₒ], t2_aaaa [fᵥ, cᵥ, iₒ, jₒ], t2_abab [aᵥ, dᵥ, kₒ, nₒ]], [(1, [aᵥ, bᵥ, cᵥ, dᵥ, iₒ, jₒ, kₒ, lₒ])]⟩,
  -- line 2502: nmef,ebkm,fcij,adnl->abcdijkl
  ⟨1, [g_aaaa [nₒ, mₒ, eᵥ, fᵥ], t2_aaaa [eᵥ, bᵥ, kₒ, mₒ], t2_aaaa [fᵥ, cᵥ, iₒ, jₒ], t2_abab [aᵥ, dᵥ, nₒ, lₒ]], [(1, [aᵥ, bᵥ, cᵥ, dᵥ, iₒ, jₒ, kₒ, lₒ])]⟩,
  -- line 2505: nmfe,bekm,fcij,adnl->abcdijkl
  ⟨1, [g_abab [nₒ, mₒ, fᵥ, eᵥ], t2_abab [bᵥ, eᵥ, kₒ, mₒ], t2_aaaa [fᵥ, cᵥ, iₒ, jₒ], t2_abab [aᵥ, dᵥ, nₒ, lₒ]], [(1, [aᵥ, bᵥ, cᵥ, dᵥ, iₒ, jₒ, kₒ, lₒ])]⟩,
  -- line 2508: mnef,ebkm,cfjl,adin->abcdijkl
  ⟨-1, [g_abab [mₒ, nₒ, eᵥ, fᵥ], t2_aaaa [eᵥ, bᵥ, kₒ, mₒ], t2_abab [cᵥ, fᵥ, jₒ, lₒ], t2_abab [aᵥ, dᵥ, iₒ, nₒ]], [(1, [aᵥ, bᵥ, cᵥ, dᵥ, iₒ, jₒ, kₒ, lₒ]), (-1, [aᵥ, bᵥ, cᵥ, dᵥ, jₒ, iₒ, kₒ, lₒ])]⟩,
  -- line 2512: nmef,bekm,cfjl,adin->abcdijkl
  ⟨-1, [g_bbbb [nₒ, mₒ, eᵥ, fᵥ], t2_abab [bᵥ, eᵥ, kₒ, mₒ], t2_abab [cᵥ, fᵥ, jₒ, lₒ], t2_abab [aᵥ, dᵥ, iₒ, nₒ]], [(1, [aᵥ, bᵥ, cᵥ, dᵥ, iₒ, jₒ, kₒ, lₒ]), (-1, [aᵥ, bᵥ, cᵥ, dᵥ, jₒ, iₒ, kₒ, lₒ])]⟩,
  -- line 2516: mnef,ebjm,cfkl,adin->abcdijkl
  ⟨1, [g_abab [mₒ, nₒ, eᵥ, fᵥ], t2_aaaa [eᵥ, bᵥ, jₒ, mₒ], t2_abab [cᵥ, fᵥ, kₒ, lₒ], t2_abab [aᵥ, dᵥ, iₒ, nₒ]], [(1, [aᵥ, bᵥ, cᵥ, dᵥ, iₒ, jₒ, kₒ, lₒ]), (-1, [aᵥ, bᵥ, cᵥ, dᵥ, kₒ, jₒ, iₒ, lₒ])]⟩,
  -- line 2520: nmef,bejm,cfkl,adin->abcdijkl
  ⟨1, [g_bbbb [nₒ, mₒ, eᵥ, fᵥ], t2_abab [bᵥ, eᵥ, jₒ, mₒ], t2_abab [cᵥ, fᵥ, kₒ, lₒ], t2_abab [aᵥ, dᵥ, iₒ, nₒ]], [(1, [aᵥ, bᵥ, cᵥ, dᵥ, iₒ, jₒ, kₒ, lₒ]), (-1, [aᵥ, bᵥ, cᵥ, dᵥ, kₒ, jₒ, iₒ, lₒ])]⟩,
  -- line 2524: nmef,ebjm,fcik,adnl->abcdijkl
  ⟨-1, [g_aaaa [nₒ, mₒ, eᵥ, fᵥ], t2_aaaa [eᵥ, bᵥ, jₒ, mₒ], t2_aaaa [fᵥ, cᵥ, iₒ, kₒ], t2_abab [aᵥ, dᵥ, nₒ, lₒ]], [(1, [aᵥ, bᵥ, cᵥ, dᵥ, iₒ, jₒ, kₒ, lₒ]), (-1, [aᵥ, bᵥ, cᵥ, dᵥ, jₒ, iₒ, kₒ, lₒ])]⟩,
  -- line 2528: nmfe,bejm,fcik,adnl->abcdijkl
  ⟨-1, [g_abab [nₒ, mₒ, fᵥ, eᵥ], t2_abab [bᵥ, eᵥ, jₒ, mₒ], t2_aaaa [fᵥ, cᵥ, iₒ, kₒ], t2_abab [aᵥ, dᵥ, nₒ, lₒ]], [(1, [aᵥ, bᵥ, cᵥ, dᵥ, iₒ, jₒ, kₒ, lₒ]), (-1, [aᵥ, bᵥ, cᵥ, dᵥ, jₒ, iₒ, kₒ, lₒ])]⟩,
  -- line 2532: mnef,ebim,cfkl,adjn->abcdijkl
  ⟨-1, [g_abab [mₒ, nₒ, eᵥ, fᵥ], t2_aaaa [eᵥ, bᵥ, iₒ, mₒ], t2_abab [cᵥ, fᵥ, kₒ, lₒ], t2_abab [aᵥ, dᵥ, jₒ, nₒ]], [(1, [aᵥ, bᵥ, cᵥ, dᵥ, iₒ, jₒ, kₒ, lₒ]), (-1, [aᵥ, bᵥ, cᵥ, dᵥ, iₒ, kₒ, jₒ, lₒ])]⟩,
  -- line 2536: nmef,beim,cfkl,adjn->abcdijkl
  ⟨-1, [g_bbbb [nₒ, mₒ, eᵥ, fᵥ], t2_abab [bᵥ, eᵥ, iₒ, mₒ], t2_abab [cᵥ, fᵥ, kₒ, lₒ], t2_abab [aᵥ, dᵥ, jₒ, nₒ]], [(1, [aᵥ, bᵥ, cᵥ, dᵥ, iₒ, jₒ, kₒ, lₒ]), (-1, [aᵥ, bᵥ, cᵥ, dᵥ, iₒ, kₒ, jₒ, lₒ])]⟩,
  -- line 2540: mnfe,bekl,fcjm,adin->abcdijkl
  ⟨-1, [g_abab [mₒ, nₒ, fᵥ, eᵥ], t2_abab [bᵥ, eᵥ, kₒ, lₒ], t2_aaaa [fᵥ, cᵥ, jₒ, mₒ], t2_abab [aᵥ, dᵥ, iₒ, nₒ]], [(1, [aᵥ, bᵥ, cᵥ, dᵥ, iₒ, jₒ, kₒ, lₒ]), (-1, [aᵥ, bᵥ, cᵥ, dᵥ, jₒ, iₒ, kₒ, lₒ])]⟩,
  -- line 2544: nmef,bekl,cfjm,adin->abcdijkl
  ⟨1, [g_bbbb [nₒ, mₒ, eᵥ, fᵥ], t2_abab [bᵥ, eᵥ, kₒ, lₒ], t2_abab [cᵥ, fᵥ, jₒ, mₒ], t2_abab [aᵥ, dᵥ, iₒ, nₒ]], [(1, [aᵥ, bᵥ, cᵥ, dᵥ, iₒ, jₒ, kₒ, lₒ]), (-1, [aᵥ, bᵥ, cᵥ, dᵥ, jₒ, iₒ, kₒ, lₒ])]⟩,
  -- line 2548: nmfe,bekl,fcij,adnm->abcdijkl
  ⟨-1/2, [g_abab [nₒ, mₒ, fᵥ, eᵥ], t2_abab [bᵥ, eᵥ, kₒ, lₒ], t2_aaaa [fᵥ, cᵥ, iₒ, jₒ], t2_abab [aᵥ, dᵥ, nₒ, mₒ]], [(1, [aᵥ, bᵥ, cᵥ, dᵥ, iₒ, jₒ, kₒ, lₒ]), (-1, [aᵥ, bᵥ, cᵥ, dᵥ, iₒ, kₒ, jₒ, lₒ])]⟩,
  -- line 2552: mnfe,bekl,fcij,admn->abcdijkl
  ⟨-1/2, [g_abab [mₒ, nₒ, fᵥ, eᵥ], t2_abab [bᵥ, eᵥ, kₒ, lₒ], t2_aaaa [fᵥ, cᵥ, iₒ, jₒ], t2_abab [aᵥ, dᵥ, mₒ, nₒ]], [(1, [aᵥ, bᵥ, cᵥ, dᵥ, iₒ, jₒ, kₒ, lₒ]), (-1, [aᵥ, bᵥ, cᵥ, dᵥ, iₒ, kₒ, jₒ, lₒ])]⟩,
  -- line 2556: mnfe,bejl,fckm,adin->abcdijkl
  ⟨1, [g_abab [mₒ, nₒ, fᵥ, eᵥ], t2_abab [bᵥ, eᵥ, jₒ, lₒ], t2_aaaa [fᵥ, cᵥ, kₒ, mₒ], t2_abab [aᵥ, dᵥ, iₒ, nₒ]], [(1, [aᵥ, bᵥ, cᵥ, dᵥ, iₒ, jₒ, kₒ, lₒ]), (-1, [aᵥ, bᵥ, cᵥ, dᵥ, kₒ, jₒ, iₒ, lₒ])]⟩,
  -- line 2560: nmef,bejl,cfkm,adin->abcdijkl
  ⟨-1, [g_bbbb [nₒ, mₒ, eᵥ, fᵥ], t2_abab [bᵥ, eᵥ, jₒ, lₒ], t2_abab [cᵥ, fᵥ, kₒ, mₒ], t2_abab [aᵥ, dᵥ, iₒ, nₒ]], [(1, [aᵥ, bᵥ, cᵥ, dᵥ, iₒ, jₒ, kₒ, lₒ]), (-1, [aᵥ, bᵥ, cᵥ, dᵥ, kₒ, jₒ, iₒ, lₒ])]⟩,
  -- line 2564: mnfe,beil,fckm,adjn->abcdijkl
  ⟨-1, [g_abab [mₒ, nₒ, fᵥ, eᵥ], t2_abab [bᵥ, eᵥ, iₒ, lₒ], t2_aaaa [fᵥ, cᵥ, kₒ, mₒ], t2_abab [aᵥ, dᵥ, jₒ, nₒ]], [(1, [aᵥ, bᵥ, cᵥ, dᵥ, iₒ, jₒ, kₒ, lₒ]), (-1, [aᵥ, bᵥ, cᵥ, dᵥ, iₒ, kₒ, jₒ, lₒ])]⟩,
  -- line 2568: nmef,beil,cfkm,adjn->abcdijkl
  ⟨1, [g_bbbb [nₒ, mₒ, eᵥ, fᵥ], t2_abab [bᵥ, eᵥ, iₒ, lₒ], t2_abab [cᵥ, fᵥ, kₒ, mₒ], t2_abab [aᵥ, dᵥ, jₒ, nₒ]], [(1, [aᵥ, bᵥ, cᵥ, dᵥ, iₒ, jₒ, kₒ, lₒ]), (-1, [aᵥ, bᵥ, cᵥ, dᵥ, iₒ, kₒ, jₒ, lₒ])]⟩,
  -- line 2572: nmfe,beil,fcjk,adnm->abcdijkl
  ⟨-1/2, [g_abab [nₒ, mₒ, fᵥ, eᵥ], t2_abab [bᵥ, eᵥ, iₒ, lₒ], t2_aaaa [fᵥ, cᵥ, jₒ, kₒ], t2_abab [aᵥ, dᵥ, nₒ, mₒ]], [(1, [aᵥ, bᵥ, cᵥ, dᵥ, iₒ, jₒ, kₒ, lₒ])]⟩,
  -- line 2575: mnfe,beil,fcjk,admn->abcdijkl
  ⟨-1/2, [g_abab [mₒ, nₒ, fᵥ, eᵥ], t2_abab [bᵥ, eᵥ, iₒ, lₒ], t2_aaaa [fᵥ, cᵥ, jₒ, kₒ], t2_abab [aᵥ, dᵥ, mₒ, nₒ]], [(1, [aᵥ, bᵥ, cᵥ, dᵥ, iₒ, jₒ, kₒ, lₒ])]⟩,
  -- line 2578: nmef,ebik,cfjl,adnm->abcdijkl
  ⟨-1/2, [g_abab [nₒ, mₒ, eᵥ, fᵥ], t2_aaaa [eᵥ, bᵥ, iₒ, kₒ], t2_abab [cᵥ, fᵥ, jₒ, lₒ], t2_abab [aᵥ, dᵥ, nₒ, mₒ]], [(1, [aᵥ, bᵥ, cᵥ, dᵥ, iₒ, jₒ, kₒ, lₒ])]⟩,
  -- line 2581: mnef,ebik,cfjl,admn->abcdijkl
  ⟨-1/2, [g_abab [mₒ, nₒ, eᵥ, fᵥ], t2_aaaa [eᵥ, bᵥ, iₒ, kₒ], t2_abab [cᵥ, fᵥ, jₒ, lₒ], t2_abab [aᵥ, dᵥ, mₒ, nₒ]], [(1, [aᵥ, bᵥ, cᵥ, dᵥ, iₒ, jₒ, kₒ, lₒ])]⟩,
  -- line 2584: mnef,ebjk,cfml,adin->abcdijkl
  ⟨-1, [g_abab [mₒ, nₒ, eᵥ, fᵥ], t2_aaaa [eᵥ, bᵥ, jₒ, kₒ], t2_abab [cᵥ, fᵥ, mₒ, lₒ], t2_abab [aᵥ, dᵥ, iₒ, nₒ]], [(1, [aᵥ, bᵥ, cᵥ, dᵥ, iₒ, jₒ, kₒ, lₒ])]⟩,
  -- line 2587: nmef,ebjk,fcim,adnl->abcdijkl
  ⟨1, [g_aaaa [nₒ, mₒ, eᵥ, fᵥ], t2_aaaa [eᵥ, bᵥ, jₒ, kₒ], t2_aaaa [fᵥ, cᵥ, iₒ, mₒ], t2_abab [aᵥ, dᵥ, nₒ, lₒ]], [(1, [aᵥ, bᵥ, cᵥ, dᵥ, iₒ, jₒ, kₒ, lₒ])]⟩,
  -- line 2590: nmef,ebjk,cfim,adnl->abcdijkl
  ⟨-1, [g_abab [nₒ, mₒ, eᵥ, fᵥ], t2_aaaa [eᵥ, bᵥ, jₒ, kₒ], t2_abab [cᵥ, fᵥ, iₒ, mₒ], t2_abab [aᵥ, dᵥ, nₒ, lₒ]], [(1, [aᵥ, bᵥ, cᵥ, dᵥ, iₒ, jₒ, kₒ, lₒ])]⟩,
  -- line 2593: nmef,ebjk,cfil,adnm->abcdijkl
  ⟨1/2, [g_abab [nₒ, mₒ, eᵥ, fᵥ], t2_aaaa [eᵥ, bᵥ, jₒ, kₒ], t2_abab [cᵥ, fᵥ, iₒ, lₒ], t2_abab [aᵥ, dᵥ, nₒ, mₒ]], [(1, [aᵥ, bᵥ, cᵥ, dᵥ, iₒ, jₒ, kₒ, lₒ]), (-1, [aᵥ, bᵥ, cᵥ, dᵥ, kₒ, jₒ, iₒ, lₒ])]⟩,
  -- line 2597: mnef,ebjk,cfil,admn->abcdijkl
  ⟨1/2, [g_abab [mₒ, nₒ, eᵥ, fᵥ], t2_aaaa [eᵥ, bᵥ, jₒ, kₒ], t2_abab [cᵥ, fᵥ, iₒ, lₒ], t2_abab [aᵥ, dᵥ, mₒ, nₒ]], [(1, [aᵥ, bᵥ, cᵥ, dᵥ, iₒ, jₒ, kₒ, lₒ]), (-1, [aᵥ, bᵥ, cᵥ, dᵥ, kₒ, jₒ, iₒ, lₒ])]⟩,
  -- line 2601: mnef,ebik,cfml,adjn->abcdijkl
  ⟨1, [g_abab [mₒ, nₒ, eᵥ, fᵥ], t2_aaaa [eᵥ, bᵥ, iₒ, kₒ], t2_abab [cᵥ, fᵥ, mₒ, lₒ], t2_abab [aᵥ, dᵥ, jₒ, nₒ]], [(1, [aᵥ, bᵥ, cᵥ, dᵥ, iₒ, jₒ, kₒ, lₒ])]⟩,
  -- line 2604: nmef,ebik,fcjm,adnl->abcdijkl
  ⟨-1, [g_aaaa [nₒ, mₒ, eᵥ, fᵥ], t2_aaaa [eᵥ, bᵥ, iₒ, kₒ], t2_aaaa [fᵥ, cᵥ, jₒ, mₒ], t2_abab [aᵥ, dᵥ, nₒ, lₒ]], [(1, [aᵥ, bᵥ, cᵥ, dᵥ, iₒ, jₒ, kₒ, lₒ])]⟩,
  -- line 2607: nmef,ebik,cfjm,adnl->abcdijkl
  ⟨1, [g_abab [nₒ, mₒ, eᵥ, fᵥ], t2_aaaa [eᵥ, bᵥ, iₒ, kₒ], t2_abab [cᵥ, fᵥ, jₒ, mₒ], t2_abab [aᵥ, dᵥ, nₒ, lₒ]], [(1, [aᵥ, bᵥ, cᵥ, dᵥ, iₒ, jₒ, kₒ, lₒ])]⟩,
  -- line 2610: mnef,ebij,cfml,adkn->abcdijkl
  ⟨-1, [g_abab [mₒ, nₒ, eᵥ, fᵥ], t2_aaaa [eᵥ, bᵥ, iₒ, jₒ], t2_abab [cᵥ, fᵥ, mₒ, lₒ], t2_abab [aᵥ, dᵥ, kₒ, nₒ]], [(1, [aᵥ, bᵥ, cᵥ, dᵥ, iₒ, jₒ, kₒ, lₒ])]⟩,
  -- line 2613: nmef,ebij,fckm,adnl->abcdijkl
  ⟨1, [g_aaaa [nₒ, mₒ, eᵥ, fᵥ], t2_aaaa [eᵥ, bᵥ, iₒ, jₒ], t2_aaaa [fᵥ, cᵥ, kₒ, mₒ], t2_abab [aᵥ, dᵥ, nₒ, lₒ]], [(1, [aᵥ, bᵥ, cᵥ, dᵥ, iₒ, jₒ, kₒ, lₒ])]⟩,
  -- line 2616: nmef,ebij,cfkm,adnl->abcdijkl
  ⟨-1, [g_abab [nₒ, mₒ, eᵥ, fᵥ], t2_aaaa [eᵥ, bᵥ, iₒ, jₒ], t2_abab [cᵥ, fᵥ, kₒ, mₒ], t2_abab [aᵥ, dᵥ, nₒ, lₒ]], [(1, [aᵥ, bᵥ, cᵥ, dᵥ, iₒ, jₒ, kₒ, lₒ])]⟩
  ]

/-- Part 8 of `ccdq_t4_aaabaaab`. -/
def ccdq_t4_aaabaaab_8 : Prog := [
  -- line 2619: nmef,eckm,fdjl,abin->abcdijkl
  ⟨-1, [g_aaaa [nₒ, mₒ, eᵥ, fᵥ], t2_aaaa [eᵥ, cᵥ, kₒ, mₒ], t2_abab [fᵥ, dᵥ, jₒ, lₒ], t2_aaaa [aᵥ, bᵥ, iₒ, nₒ]], [(1, [aᵥ, bᵥ, cᵥ, dᵥ, iₒ, jₒ, kₒ, lₒ]), (-1, [aᵥ, bᵥ, cᵥ, dᵥ, jₒ, iₒ, kₒ, lₒ])]⟩,
  -- line 2623: nmfe,cekm,fdjl,abin->abcdijkl
  ⟨-1, [g_abab [nₒ, mₒ, fᵥ, eᵥ], t2_abab [cᵥ, eᵥ, kₒ, mₒ], t2_abab [fᵥ, dᵥ, jₒ, lₒ], t2_aaaa [aᵥ, bᵥ, iₒ, nₒ]], [(1, [aᵥ, bᵥ, cᵥ, dᵥ, iₒ, jₒ, kₒ, lₒ]), (-1, [aᵥ, bᵥ, cᵥ, dᵥ, jₒ, iₒ, kₒ, lₒ])]⟩,
  -- line 2627: nmef,ecjm,fdkl,abin->abcdijkl
  ⟨1, [g_aaaa [nₒ, mₒ, eᵥ, fᵥ], t2_aaaa [eᵥ, cᵥ, jₒ, mₒ], t2_abab [fᵥ, dᵥ, kₒ, lₒ], t2_aaaa [aᵥ, bᵥ, iₒ, nₒ]], [(1, [aᵥ, bᵥ, cᵥ, dᵥ, iₒ, jₒ, kₒ, lₒ]), (-1, [aᵥ, bᵥ, cᵥ, dᵥ, kₒ, jₒ, iₒ, lₒ])]⟩,
  -- line 2631: nmfe,cejm,fdkl,abin->abcdijkl
  ⟨1, [g_abab [nₒ, mₒ, fᵥ, eᵥ], t2_abab [cᵥ, eᵥ, jₒ, mₒ], t2_abab [fᵥ, dᵥ, kₒ, lₒ], t2_aaaa [aᵥ, bᵥ, iₒ, nₒ]], [(1, [aᵥ, bᵥ, cᵥ, dᵥ, iₒ, jₒ, kₒ, lₒ]), (-1, [aᵥ, bᵥ, cᵥ, dᵥ, kₒ, jₒ, iₒ, lₒ])]⟩,
  -- line 2635: nmef,ecim,fdkl,abjn->abcdijkl
  ⟨-1, [g_aaaa [nₒ, mₒ, eᵥ, fᵥ], t2_aaaa [eᵥ, cᵥ, iₒ, mₒ], t2_abab [fᵥ, dᵥ, kₒ, lₒ], t2_aaaa [aᵥ, bᵥ, jₒ, nₒ]], [(1, [aᵥ, bᵥ, cᵥ, dᵥ, iₒ, jₒ, kₒ, lₒ]), (-1, [aᵥ, bᵥ, cᵥ, dᵥ, iₒ, kₒ, jₒ, lₒ])]⟩,
  -- line 2639: nmfe,ceim,fdkl,abjn->abcdijkl
  ⟨-1, [g_abab [nₒ, mₒ, fᵥ, eᵥ], t2_abab [cᵥ, eᵥ, iₒ, mₒ], t2_abab [fᵥ, dᵥ, kₒ, lₒ], t2_aaaa [aᵥ, bᵥ, jₒ, nₒ]], [(1, [aᵥ, bᵥ, cᵥ, dᵥ, iₒ, jₒ, kₒ, lₒ]), (-1, [aᵥ, bᵥ, cᵥ, dᵥ, iₒ, kₒ, jₒ, lₒ])]⟩,
  -- line 2643: nmfe,cekl,fdjm,abin->abcdijkl
  ⟨1, [g_abab [nₒ, mₒ, fᵥ, eᵥ], t2_abab [cᵥ, eᵥ, kₒ, lₒ], t2_abab [fᵥ, dᵥ, jₒ, mₒ], t2_aaaa [aᵥ, bᵥ, iₒ, nₒ]], [(1, [aᵥ, bᵥ, cᵥ, dᵥ, iₒ, jₒ, kₒ, lₒ]), (-1, [aᵥ, bᵥ, cᵥ, dᵥ, jₒ, iₒ, kₒ, lₒ])]⟩,
  -- line 2647: nmfe,cejl,fdkm,abin->abcdijkl
  ⟨-1, [g_abab [nₒ, mₒ, fᵥ, eᵥ], t2_abab [cᵥ, eᵥ, jₒ, lₒ], t2_abab [fᵥ, dᵥ, kₒ, mₒ], t2_aaaa [aᵥ, bᵥ, iₒ, nₒ]], [(1, [aᵥ, bᵥ, cᵥ, dᵥ, iₒ, jₒ, kₒ, lₒ]), (-1, [aᵥ, bᵥ, cᵥ, dᵥ, kₒ, jₒ, iₒ, lₒ])]⟩,
  -- line 2651: nmfe,ceil,fdkm,abjn->abcdijkl
  ⟨1, [g_abab [nₒ, mₒ, fᵥ, eᵥ], t2_abab [cᵥ, eᵥ, iₒ, lₒ], t2_abab [fᵥ, dᵥ, kₒ, mₒ], t2_aaaa [aᵥ, bᵥ, jₒ, nₒ]], [(1, [aᵥ, bᵥ, cᵥ, dᵥ, iₒ, jₒ, kₒ, lₒ]), (-1, [aᵥ, bᵥ, cᵥ, dᵥ, iₒ, kₒ, jₒ, lₒ])]⟩,
  -- line 2655: nmef,ecik,fdjl,abnm->abcdijkl
  ⟨1/2, [g_aaaa [nₒ, mₒ, eᵥ, fᵥ], t2_aaaa [eᵥ, cᵥ, iₒ, kₒ], t2_abab [fᵥ, dᵥ, jₒ, lₒ], t2_aaaa [aᵥ, bᵥ, nₒ, mₒ]], [(1, [aᵥ, bᵥ, cᵥ, dᵥ, iₒ, jₒ, kₒ, lₒ])]⟩,
  -- line 2658: nmef,ecjk,fdml,abin->abcdijkl
  ⟨-1, [g_aaaa [nₒ, mₒ, eᵥ, fᵥ], t2_aaaa [eᵥ, cᵥ, jₒ, kₒ], t2_abab [fᵥ, dᵥ, mₒ, lₒ], t2_aaaa [aᵥ, bᵥ, iₒ, nₒ]], [(1, [aᵥ, bᵥ, cᵥ, dᵥ, iₒ, jₒ, kₒ, lₒ])]⟩,
  -- line 2661: nmef,ecjk,fdlm,abin->abcdijkl
  ⟨1, [g_abab [nₒ, mₒ, eᵥ, fᵥ], t2_aaaa [eᵥ, cᵥ, jₒ, kₒ], t2_bbbb [fᵥ, dᵥ, lₒ, mₒ], t2_aaaa [aᵥ, bᵥ, iₒ, nₒ]], [(1, [aᵥ, bᵥ, cᵥ, dᵥ, iₒ, jₒ, kₒ, lₒ])]⟩,
  -- line 2664: nmef,ecjk,fdil,abnm->abcdijkl
  ⟨-1/2, [g_aaaa [nₒ, mₒ, eᵥ, fᵥ], t2_aaaa [eᵥ, cᵥ, jₒ, kₒ], t2_abab [fᵥ, dᵥ, iₒ, lₒ], t2_aaaa [aᵥ, bᵥ, nₒ, mₒ]], [(1, [aᵥ, bᵥ, cᵥ, dᵥ, iₒ, jₒ, kₒ, lₒ]), (-1, [aᵥ, bᵥ, cᵥ, dᵥ, kₒ, jₒ, iₒ, lₒ])]⟩,
  -- line 2668: nmef,ecik,fdml,abjn->abcdijkl
  ⟨1, [g_aaaa [nₒ, mₒ, eᵥ, fᵥ], t2_aaaa [eᵥ, cᵥ, iₒ, kₒ], t2_abab [fᵥ, dᵥ, mₒ, lₒ], t2_aaaa [aᵥ, bᵥ, jₒ, nₒ]], [(1, [aᵥ, bᵥ, cᵥ, dᵥ, iₒ, jₒ, kₒ, lₒ])]⟩,
  -- line 2671: nmef,ecik,fdlm,abjn->abcdijkl
  ⟨-1, [g_abab [nₒ, mₒ, eᵥ, fᵥ], t2_aaaa [eᵥ, cᵥ, iₒ, kₒ], t2_bbbb [fᵥ, dᵥ, lₒ, mₒ], t2_aaaa [aᵥ, bᵥ, jₒ, nₒ]], [(1, [aᵥ, bᵥ, cᵥ, dᵥ, iₒ, jₒ, kₒ, lₒ])]⟩,
  -- line 2674: nmef,ecij,fdml,abkn->abcdijkl
  ⟨-1, [g_aaaa [nₒ, mₒ, eᵥ, fᵥ], t2_aaaa [eᵥ, cᵥ, iₒ, jₒ], t2_abab [fᵥ, dᵥ, mₒ, lₒ], t2_aaaa [aᵥ, bᵥ, kₒ, nₒ]], [(1, [aᵥ, bᵥ, cᵥ, dᵥ, iₒ, jₒ, kₒ, lₒ])]⟩,
  -- line 2677: nmef,ecij,fdlm,abkn->abcdijkl
  ⟨1, [g_abab [nₒ, mₒ, eᵥ, fᵥ], t2_aaaa [eᵥ, cᵥ, iₒ, jₒ], t2_bbbb [fᵥ, dᵥ, lₒ, mₒ], t2_aaaa [aᵥ, bᵥ, kₒ, nₒ]], [(1, [aᵥ, bᵥ, cᵥ, dᵥ, iₒ, jₒ, kₒ, lₒ])]⟩
  ]

/-- `UT2/ccdq_resids.py` 1421-2679, `ccdq_t4_aaabaaab_residual`. -/
def ccdq_t4_aaabaaab : Prog := ccdq_t4_aaabaaab_0 ++ (ccdq_t4_aaabaaab_1 ++ (ccdq_t4_aaabaaab_2 ++ (ccdq_t4_aaabaaab_3 ++ (ccdq_t4_aaabaaab_4 ++ (ccdq_t4_aaabaaab_5 ++ (ccdq_t4_aaabaaab_6 ++ (ccdq_t4_aaabaaab_7 ++ (ccdq_t4_aaabaaab_8))))))))

end Verif.Gen
