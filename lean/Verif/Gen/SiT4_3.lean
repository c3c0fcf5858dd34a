import Verif.Ein.Names
import Verif.Gen.Antisym

/-! Written by `/verif/tools/gen.py`. Programs read from `/repo/UT2`. -/

set_option maxRecDepth 100000

namespace Verif.Gen

open Verif.Ein Verif.Ein.N


/-- Part 0 of `ccsdtq_t4_abbbabbb`. -/
def ccsdtq_t4_abbbabbb_0 : Prog := [
  -- line 1355: nmkl,abim,cdjn->abcdijkl
  ⟨1, [g_bbbb [nₒ, mₒ, kₒ, lₒ], t2_abab [aᵥ, bᵥ, iₒ, mₒ], t2_bbbb [cᵥ, dᵥ, jₒ, nₒ]], [(1, [aᵥ, bᵥ, cᵥ, dᵥ, iₒ, jₒ, kₒ, lₒ]), (-1, [aᵥ, cᵥ, bᵥ, dᵥ, iₒ, jₒ, kₒ, lₒ])]⟩,
  -- line 1359: nmkl,adim,bcjn->abcdijkl
  ⟨1, [g_bbbb [nₒ, mₒ, kₒ, lₒ], t2_abab [aᵥ, dᵥ, iₒ, mₒ], t2_bbbb [bᵥ, cᵥ, jₒ, nₒ]], [(1, [aᵥ, bᵥ, cᵥ, dᵥ, iₒ, jₒ, kₒ, lₒ])]⟩,
  -- line 1362: nmjl,abim,cdkn->abcdijkl
  ⟨-1, [g_bbbb [nₒ, mₒ, jₒ, lₒ], t2_abab [aᵥ, bᵥ, iₒ, mₒ], t2_bbbb [cᵥ, dᵥ, kₒ, nₒ]], [(1, [aᵥ, bᵥ, cᵥ, dᵥ, iₒ, jₒ, kₒ, lₒ]), (-1, [aᵥ, cᵥ, bᵥ, dᵥ, iₒ, jₒ, kₒ, lₒ])]⟩,
  -- line 1366: nmjl,adim,bckn->abcdijkl
  ⟨-1, [g_bbbb [nₒ, mₒ, jₒ, lₒ], t2_abab [aᵥ, dᵥ, iₒ, mₒ], t2_bbbb [bᵥ, cᵥ, kₒ, nₒ]], [(1, [aᵥ, bᵥ, cᵥ, dᵥ, iₒ, jₒ, kₒ, lₒ])]⟩,
  -- line 1369: mnil,abmk,cdjn->abcdijkl
  ⟨-1, [g_abab [mₒ, nₒ, iₒ, lₒ], t2_abab [aᵥ, bᵥ, mₒ, kₒ], t2_bbbb [cᵥ, dᵥ, jₒ, nₒ]], [(1, [aᵥ, bᵥ, cᵥ, dᵥ, iₒ, jₒ, kₒ, lₒ]), (-1, [aᵥ, bᵥ, cᵥ, dᵥ, iₒ, kₒ, jₒ, lₒ]), (-1, [aᵥ, cᵥ, bᵥ, dᵥ, iₒ, jₒ, kₒ, lₒ]), (1, [aᵥ, cᵥ, bᵥ, dᵥ, iₒ, kₒ, jₒ, lₒ])]⟩,
  -- line 1373: mnil,admk,bcjn->abcdijkl
  ⟨-1, [g_abab [mₒ, nₒ, iₒ, lₒ], t2_abab [aᵥ, dᵥ, mₒ, kₒ], t2_bbbb [bᵥ, cᵥ, jₒ, nₒ]], [(1, [aᵥ, bᵥ, cᵥ, dᵥ, iₒ, jₒ, kₒ, lₒ]), (-1, [aᵥ, bᵥ, cᵥ, dᵥ, iₒ, kₒ, jₒ, lₒ])]⟩,
  -- line 1377: nmjk,abim,cdln->abcdijkl
  ⟨1, [g_bbbb [nₒ, mₒ, jₒ, kₒ], t2_abab [aᵥ, bᵥ, iₒ, mₒ], t2_bbbb [cᵥ, dᵥ, lₒ, nₒ]], [(1, [aᵥ, bᵥ, cᵥ, dᵥ, iₒ, jₒ, kₒ, lₒ]), (-1, [aᵥ, cᵥ, bᵥ, dᵥ, iₒ, jₒ, kₒ, lₒ])]⟩,
  -- line 1381: nmjk,adim,bcln->abcdijkl
  ⟨1, [g_bbbb [nₒ, mₒ, jₒ, kₒ], t2_abab [aᵥ, dᵥ, iₒ, mₒ], t2_bbbb [bᵥ, cᵥ, lₒ, nₒ]], [(1, [aᵥ, bᵥ, cᵥ, dᵥ, iₒ, jₒ, kₒ, lₒ])]⟩,
  -- line 1384: mnik,abml,cdjn->abcdijkl
  ⟨1, [g_abab [mₒ, nₒ, iₒ, kₒ], t2_abab [aᵥ, bᵥ, mₒ, lₒ], t2_bbbb [cᵥ, dᵥ, jₒ, nₒ]], [(1, [aᵥ, bᵥ, cᵥ, dᵥ, iₒ, jₒ, kₒ, lₒ]), (-1, [aᵥ, bᵥ, cᵥ, dᵥ, iₒ, lₒ, kₒ, jₒ]), (-1, [aᵥ, cᵥ, bᵥ, dᵥ, iₒ, jₒ, kₒ, lₒ]), (1, [aᵥ, cᵥ, bᵥ, dᵥ, iₒ, lₒ, kₒ, jₒ])]⟩,
  -- line 1388: mnik,adml,bcjn->abcdijkl
  ⟨1, [g_abab [mₒ, nₒ, iₒ, kₒ], t2_abab [aᵥ, dᵥ, mₒ, lₒ], t2_bbbb [bᵥ, cᵥ, jₒ, nₒ]], [(1, [aᵥ, bᵥ, cᵥ, dᵥ, iₒ, jₒ, kₒ, lₒ]), (-1, [aᵥ, bᵥ, cᵥ, dᵥ, iₒ, lₒ, kₒ, jₒ])]⟩,
  -- line 1392: mnij,abml,cdkn->abcdijkl
  ⟨-1, [g_abab [mₒ, nₒ, iₒ, jₒ], t2_abab [aᵥ, bᵥ, mₒ, lₒ], t2_bbbb [cᵥ, dᵥ, kₒ, nₒ]], [(1, [aᵥ, bᵥ, cᵥ, dᵥ, iₒ, jₒ, kₒ, lₒ]), (-1, [aᵥ, bᵥ, cᵥ, dᵥ, iₒ, jₒ, lₒ, kₒ]), (-1, [aᵥ, cᵥ, bᵥ, dᵥ, iₒ, jₒ, kₒ, lₒ]), (1, [aᵥ, cᵥ, bᵥ, dᵥ, iₒ, jₒ, lₒ, kₒ])]⟩,
  -- line 1396: mnij,adml,bckn->abcdijkl
  ⟨-1, [g_abab [mₒ, nₒ, iₒ, jₒ], t2_abab [aᵥ, dᵥ, mₒ, lₒ], t2_bbbb [bᵥ, cᵥ, kₒ, nₒ]], [(1, [aᵥ, bᵥ, cᵥ, dᵥ, iₒ, jₒ, kₒ, lₒ]), (-1, [aᵥ, bᵥ, cᵥ, dᵥ, iₒ, jₒ, lₒ, kₒ])]⟩,
  -- line 1400: amel,ebik,cdjm->abcdijkl
  ⟨1, [g_abab [aᵥ, mₒ, eᵥ, lₒ], t2_abab [eᵥ, bᵥ, iₒ, kₒ], t2_bbbb [cᵥ, dᵥ, jₒ, mₒ]], [(1, [aᵥ, bᵥ, cᵥ, dᵥ, iₒ, jₒ, kₒ, lₒ]), (-1, [aᵥ, cᵥ, bᵥ, dᵥ, iₒ, jₒ, kₒ, lₒ])]⟩,
  -- line 1404: amel,ebij,cdkm->abcdijkl
  ⟨-1, [g_abab [aᵥ, mₒ, eᵥ, lₒ], t2_abab [eᵥ, bᵥ, iₒ, jₒ], t2_bbbb [cᵥ, dᵥ, kₒ, mₒ]], [(1, [aᵥ, bᵥ, cᵥ, dᵥ, iₒ, jₒ, kₒ, lₒ]), (-1, [aᵥ, bᵥ, cᵥ, dᵥ, iₒ, jₒ, lₒ, kₒ]), (-1, [aᵥ, cᵥ, bᵥ, dᵥ, iₒ, jₒ, kₒ, lₒ]), (1, [aᵥ, cᵥ, bᵥ, dᵥ, iₒ, jₒ, lₒ, kₒ])]⟩,
  -- line 1408: mbel,edjk,acim->abcdijkl
  ⟨-1, [g_bbbb [mₒ, bᵥ, eᵥ, lₒ], t2_bbbb [eᵥ, dᵥ, jₒ, kₒ], t2_abab [aᵥ, cᵥ, iₒ, mₒ]], [(1, [aᵥ, bᵥ, cᵥ, dᵥ, iₒ, jₒ, kₒ, lₒ])]⟩,
  -- line 1411: amel,edik,bcjm->abcdijkl
  ⟨1, [g_abab [aᵥ, mₒ, eᵥ, lₒ], t2_abab [eᵥ, dᵥ, iₒ, kₒ], t2_bbbb [bᵥ, cᵥ, jₒ, mₒ]], [(1, [aᵥ, bᵥ, cᵥ, dᵥ, iₒ, jₒ, kₒ, lₒ])]⟩,
  -- line 1414: mbel,edik,acmj->abcdijkl
  ⟨-1, [g_abab [mₒ, bᵥ, eᵥ, lₒ], t2_abab [eᵥ, dᵥ, iₒ, kₒ], t2_abab [aᵥ, cᵥ, mₒ, jₒ]], [(1, [aᵥ, bᵥ, cᵥ, dᵥ, iₒ, jₒ, kₒ, lₒ])]⟩,
  -- line 1417: amel,edij,bckm->abcdijkl
  ⟨-1, [g_abab [aᵥ, mₒ, eᵥ, lₒ], t2_abab [eᵥ, dᵥ, iₒ, jₒ], t2_bbbb [bᵥ, cᵥ, kₒ, mₒ]], [(1, [aᵥ, bᵥ, cᵥ, dᵥ, iₒ, jₒ, kₒ, lₒ]), (-1, [aᵥ, bᵥ, cᵥ, dᵥ, iₒ, jₒ, lₒ, kₒ])]⟩,
  -- line 1421: mbel,edij,acmk->abcdijkl
  ⟨1, [g_abab [mₒ, bᵥ, eᵥ, lₒ], t2_abab [eᵥ, dᵥ, iₒ, jₒ], t2_abab [aᵥ, cᵥ, mₒ, kₒ]], [(1, [aᵥ, bᵥ, cᵥ, dᵥ, iₒ, jₒ, kₒ, lₒ]), (-1, [aᵥ, bᵥ, cᵥ, dᵥ, iₒ, jₒ, lₒ, kₒ])]⟩,
  -- line 1425: amek,ebil,cdjm->abcdijkl
  ⟨-1, [g_abab [aᵥ, mₒ, eᵥ, kₒ], t2_abab [eᵥ, bᵥ, iₒ, lₒ], t2_bbbb [cᵥ, dᵥ, jₒ, mₒ]], [(1, [aᵥ, bᵥ, cᵥ, dᵥ, iₒ, jₒ, kₒ, lₒ]), (-1, [aᵥ, cᵥ, bᵥ, dᵥ, iₒ, jₒ, kₒ, lₒ])]⟩,
  -- line 1429: mbek,edjl,acim->abcdijkl
  ⟨1, [g_bbbb [mₒ, bᵥ, eᵥ, kₒ], t2_bbbb [eᵥ, dᵥ, jₒ, lₒ], t2_abab [aᵥ, cᵥ, iₒ, mₒ]], [(1, [aᵥ, bᵥ, cᵥ, dᵥ, iₒ, jₒ, kₒ, lₒ])]⟩,
  -- line 1432: amek,edil,bcjm->abcdijkl
  ⟨-1, [g_abab [aᵥ, mₒ, eᵥ, kₒ], t2_abab [eᵥ, dᵥ, iₒ, lₒ], t2_bbbb [bᵥ, cᵥ, jₒ, mₒ]], [(1, [aᵥ, bᵥ, cᵥ, dᵥ, iₒ, jₒ, kₒ, lₒ])]⟩,
  -- line 1435: mbek,edil,acmj->abcdijkl
  ⟨1, [g_abab [mₒ, bᵥ, eᵥ, kₒ], t2_abab [eᵥ, dᵥ, iₒ, lₒ], t2_abab [aᵥ, cᵥ, mₒ, jₒ]], [(1, [aᵥ, bᵥ, cᵥ, dᵥ, iₒ, jₒ, kₒ, lₒ])]⟩,
  -- line 1438: amej,ebil,cdkm->abcdijkl
  ⟨1, [g_abab [aᵥ, mₒ, eᵥ, jₒ], t2_abab [eᵥ, bᵥ, iₒ, lₒ], t2_bbbb [cᵥ, dᵥ, kₒ, mₒ]], [(1, [aᵥ, bᵥ, cᵥ, dᵥ, iₒ, jₒ, kₒ, lₒ]), (-1, [aᵥ, cᵥ, bᵥ, dᵥ, iₒ, jₒ, kₒ, lₒ])]⟩,
  -- line 1442: amej,ebik,cdlm->abcdijkl
  ⟨-1, [g_abab [aᵥ, mₒ, eᵥ, jₒ], t2_abab [eᵥ, bᵥ, iₒ, kₒ], t2_bbbb [cᵥ, dᵥ, lₒ, mₒ]], [(1, [aᵥ, bᵥ, cᵥ, dᵥ, iₒ, jₒ, kₒ, lₒ]), (-1, [aᵥ, cᵥ, bᵥ, dᵥ, iₒ, jₒ, kₒ, lₒ])]⟩,
  -- line 1446: amie,ebjk,cdlm->abcdijkl
  ⟨-1, [g_abab [aᵥ, mₒ, iₒ, eᵥ], t2_bbbb [eᵥ, bᵥ, jₒ, kₒ], t2_bbbb [cᵥ, dᵥ, lₒ, mₒ]], [(1, [aᵥ, bᵥ, cᵥ, dᵥ, iₒ, jₒ, kₒ, lₒ]), (-1, [aᵥ, cᵥ, bᵥ, dᵥ, iₒ, jₒ, kₒ, lₒ])]⟩,
  -- line 1450: mbej,edkl,acim->abcdijkl
  ⟨-1, [g_bbbb [mₒ, bᵥ, eᵥ, jₒ], t2_bbbb [eᵥ, dᵥ, kₒ, lₒ], t2_abab [aᵥ, cᵥ, iₒ, mₒ]], [(1, [aᵥ, bᵥ, cᵥ, dᵥ, iₒ, jₒ, kₒ, lₒ])]⟩,
  -- line 1453: amej,edil,bckm->abcdijkl
  ⟨1, [g_abab [aᵥ, mₒ, eᵥ, jₒ], t2_abab [eᵥ, dᵥ, iₒ, lₒ], t2_bbbb [bᵥ, cᵥ, kₒ, mₒ]], [(1, [aᵥ, bᵥ, cᵥ, dᵥ, iₒ, jₒ, kₒ, lₒ])]⟩,
  -- line 1456: mbej,edil,acmk->abcdijkl
  ⟨-1, [g_abab [mₒ, bᵥ, eᵥ, jₒ], t2_abab [eᵥ, dᵥ, iₒ, lₒ], t2_abab [aᵥ, cᵥ, mₒ, kₒ]], [(1, [aᵥ, bᵥ, cᵥ, dᵥ, iₒ, jₒ, kₒ, lₒ])]⟩,
  -- line 1459: amej,edik,bclm->abcdijkl
  ⟨-1, [g_abab [aᵥ, mₒ, eᵥ, jₒ], t2_abab [eᵥ, dᵥ, iₒ, kₒ], t2_bbbb [bᵥ, cᵥ, lₒ, mₒ]], [(1, [aᵥ, bᵥ, cᵥ, dᵥ, iₒ, jₒ, kₒ, lₒ])]⟩,
  -- line 1462: mbej,edik,acml->abcdijkl
  ⟨1, [g_abab [mₒ, bᵥ, eᵥ, jₒ], t2_abab [eᵥ, dᵥ, iₒ, kₒ], t2_abab [aᵥ, cᵥ, mₒ, lₒ]], [(1, [aᵥ, bᵥ, cᵥ, dᵥ, iₒ, jₒ, kₒ, lₒ])]⟩,
  -- line 1465: amie,edjk,bclm->abcdijkl
  ⟨-1, [g_abab [aᵥ, mₒ, iₒ, eᵥ], t2_bbbb [eᵥ, dᵥ, jₒ, kₒ], t2_bbbb [bᵥ, cᵥ, lₒ, mₒ]], [(1, [aᵥ, bᵥ, cᵥ, dᵥ, iₒ, jₒ, kₒ, lₒ])]⟩,
  -- line 1468: mbie,edjk,acml->abcdijkl
  ⟨1, [g_abab [mₒ, bᵥ, iₒ, eᵥ], t2_bbbb [eᵥ, dᵥ, jₒ, kₒ], t2_abab [aᵥ, cᵥ, mₒ, lₒ]], [(1, [aᵥ, bᵥ, cᵥ, dᵥ, iₒ, jₒ, kₒ, lₒ])]⟩,
  -- line 1471: amie,ebkl,cdjm->abcdijkl
  ⟨-1, [g_abab [aᵥ, mₒ, iₒ, eᵥ], t2_bbbb [eᵥ, bᵥ, kₒ, lₒ], t2_bbbb [cᵥ, dᵥ, jₒ, mₒ]], [(1, [aᵥ, bᵥ, cᵥ, dᵥ, iₒ, jₒ, kₒ, lₒ]), (-1, [aᵥ, bᵥ, cᵥ, dᵥ, iₒ, kₒ, jₒ, lₒ]), (-1, [aᵥ, cᵥ, bᵥ, dᵥ, iₒ, jₒ, kₒ, lₒ]), (1, [aᵥ, cᵥ, bᵥ, dᵥ, iₒ, kₒ, jₒ, lₒ])]⟩,
  -- line 1475: amie,edkl,bcjm->abcdijkl
  ⟨-1, [g_abab [aᵥ, mₒ, iₒ, eᵥ], t2_bbbb [eᵥ, dᵥ, kₒ, lₒ], t2_bbbb [bᵥ, cᵥ, jₒ, mₒ]], [(1, [aᵥ, bᵥ, cᵥ, dᵥ, iₒ, jₒ, kₒ, lₒ]), (-1, [aᵥ, bᵥ, cᵥ, dᵥ, iₒ, kₒ, jₒ, lₒ])]⟩,
  -- line 1479: mbie,edkl,acmj->abcdijkl
  ⟨1, [g_abab [mₒ, bᵥ, iₒ, eᵥ], t2_bbbb [eᵥ, dᵥ, kₒ, lₒ], t2_abab [aᵥ, cᵥ, mₒ, jₒ]], [(1, [aᵥ, bᵥ, cᵥ, dᵥ, iₒ, jₒ, kₒ, lₒ]), (-1, [aᵥ, bᵥ, cᵥ, dᵥ, iₒ, kₒ, jₒ, lₒ])]⟩,
  -- line 1483: mbel,ecjk,adim->abcdijkl
  ⟨1, [g_bbbb [mₒ, bᵥ, eᵥ, lₒ], t2_bbbb [eᵥ, cᵥ, jₒ, kₒ], t2_abab [aᵥ, dᵥ, iₒ, mₒ]], [(1, [aᵥ, bᵥ, cᵥ, dᵥ, iₒ, jₒ, kₒ, lₒ])]⟩,
  -- line 1486: mbel,aeik,cdjm->abcdijkl
  ⟨-1, [g_bbbb [mₒ, bᵥ, eᵥ, lₒ], t2_abab [aᵥ, eᵥ, iₒ, kₒ], t2_bbbb [cᵥ, dᵥ, jₒ, mₒ]], [(1, [aᵥ, bᵥ, cᵥ, dᵥ, iₒ, jₒ, kₒ, lₒ])]⟩,
  -- line 1489: mbel,ecik,admj->abcdijkl
  ⟨1, [g_abab [mₒ, bᵥ, eᵥ, lₒ], t2_abab [eᵥ, cᵥ, iₒ, kₒ], t2_abab [aᵥ, dᵥ, mₒ, jₒ]], [(1, [aᵥ, bᵥ, cᵥ, dᵥ, iₒ, jₒ, kₒ, lₒ])]⟩,
  -- line 1492: mbel,aeij,cdkm->abcdijkl
  ⟨1, [g_bbbb [mₒ, bᵥ, eᵥ, lₒ], t2_abab [aᵥ, eᵥ, iₒ, jₒ], t2_bbbb [cᵥ, dᵥ, kₒ, mₒ]], [(1, [aᵥ, bᵥ, cᵥ, dᵥ, iₒ, jₒ, kₒ, lₒ]), (-1, [aᵥ, bᵥ, cᵥ, dᵥ, iₒ, jₒ, lₒ, kₒ])]⟩
  ]

/-- Part 1 of `ccsdtq_t4_abbbabbb`. -/
def ccsdtq_t4_abbbabbb_1 : Prog := [
  -- line 1496: mbel,ecij,admk->abcdijkl
  ⟨-1, [g_abab [mₒ, bᵥ, eᵥ, lₒ], t2_abab [eᵥ, cᵥ, iₒ, jₒ], t2_abab [aᵥ, dᵥ, mₒ, kₒ]], [(1, [aᵥ, bᵥ, cᵥ, dᵥ, iₒ, jₒ, kₒ, lₒ]), (-1, [aᵥ, bᵥ, cᵥ, dᵥ, iₒ, jₒ, lₒ, kₒ])]⟩,
  -- line 1500: mbek,ecjl,adim->abcdijkl
  ⟨-1, [g_bbbb [mₒ, bᵥ, eᵥ, kₒ], t2_bbbb [eᵥ, cᵥ, jₒ, lₒ], t2_abab [aᵥ, dᵥ, iₒ, mₒ]], [(1, [aᵥ, bᵥ, cᵥ, dᵥ, iₒ, jₒ, kₒ, lₒ])]⟩,
  -- line 1503: mbek,aeil,cdjm->abcdijkl
  ⟨1, [g_bbbb [mₒ, bᵥ, eᵥ, kₒ], t2_abab [aᵥ, eᵥ, iₒ, lₒ], t2_bbbb [cᵥ, dᵥ, jₒ, mₒ]], [(1, [aᵥ, bᵥ, cᵥ, dᵥ, iₒ, jₒ, kₒ, lₒ])]⟩,
  -- line 1506: mbek,ecil,admj->abcdijkl
  ⟨-1, [g_abab [mₒ, bᵥ, eᵥ, kₒ], t2_abab [eᵥ, cᵥ, iₒ, lₒ], t2_abab [aᵥ, dᵥ, mₒ, jₒ]], [(1, [aᵥ, bᵥ, cᵥ, dᵥ, iₒ, jₒ, kₒ, lₒ])]⟩,
  -- line 1509: mbej,eckl,adim->abcdijkl
  ⟨1, [g_bbbb [mₒ, bᵥ, eᵥ, jₒ], t2_bbbb [eᵥ, cᵥ, kₒ, lₒ], t2_abab [aᵥ, dᵥ, iₒ, mₒ]], [(1, [aᵥ, bᵥ, cᵥ, dᵥ, iₒ, jₒ, kₒ, lₒ])]⟩,
  -- line 1512: mbej,aeil,cdkm->abcdijkl
  ⟨-1, [g_bbbb [mₒ, bᵥ, eᵥ, jₒ], t2_abab [aᵥ, eᵥ, iₒ, lₒ], t2_bbbb [cᵥ, dᵥ, kₒ, mₒ]], [(1, [aᵥ, bᵥ, cᵥ, dᵥ, iₒ, jₒ, kₒ, lₒ])]⟩,
  -- line 1515: mbej,ecil,admk->abcdijkl
  ⟨1, [g_abab [mₒ, bᵥ, eᵥ, jₒ], t2_abab [eᵥ, cᵥ, iₒ, lₒ], t2_abab [aᵥ, dᵥ, mₒ, kₒ]], [(1, [aᵥ, bᵥ, cᵥ, dᵥ, iₒ, jₒ, kₒ, lₒ])]⟩,
  -- line 1518: mbej,aeik,cdlm->abcdijkl
  ⟨1, [g_bbbb [mₒ, bᵥ, eᵥ, jₒ], t2_abab [aᵥ, eᵥ, iₒ, kₒ], t2_bbbb [cᵥ, dᵥ, lₒ, mₒ]], [(1, [aᵥ, bᵥ, cᵥ, dᵥ, iₒ, jₒ, kₒ, lₒ])]⟩,
  -- line 1521: mbej,ecik,adml->abcdijkl
  ⟨-1, [g_abab [mₒ, bᵥ, eᵥ, jₒ], t2_abab [eᵥ, cᵥ, iₒ, kₒ], t2_abab [aᵥ, dᵥ, mₒ, lₒ]], [(1, [aᵥ, bᵥ, cᵥ, dᵥ, iₒ, jₒ, kₒ, lₒ])]⟩,
  -- line 1524: mbie,ecjk,adml->abcdijkl
  ⟨-1, [g_abab [mₒ, bᵥ, iₒ, eᵥ], t2_bbbb [eᵥ, cᵥ, jₒ, kₒ], t2_abab [aᵥ, dᵥ, mₒ, lₒ]], [(1, [aᵥ, bᵥ, cᵥ, dᵥ, iₒ, jₒ, kₒ, lₒ])]⟩,
  -- line 1527: mbie,eckl,admj->abcdijkl
  ⟨-1, [g_abab [mₒ, bᵥ, iₒ, eᵥ], t2_bbbb [eᵥ, cᵥ, kₒ, lₒ], t2_abab [aᵥ, dᵥ, mₒ, jₒ]], [(1, [aᵥ, bᵥ, cᵥ, dᵥ, iₒ, jₒ, kₒ, lₒ]), (-1, [aᵥ, bᵥ, cᵥ, dᵥ, iₒ, kₒ, jₒ, lₒ])]⟩,
  -- line 1531: mcel,ebjk,adim->abcdijkl
  ⟨-1, [g_bbbb [mₒ, cᵥ, eᵥ, lₒ], t2_bbbb [eᵥ, bᵥ, jₒ, kₒ], t2_abab [aᵥ, dᵥ, iₒ, mₒ]], [(1, [aᵥ, bᵥ, cᵥ, dᵥ, iₒ, jₒ, kₒ, lₒ])]⟩,
  -- line 1534: mcel,aeik,bdjm->abcdijkl
  ⟨1, [g_bbbb [mₒ, cᵥ, eᵥ, lₒ], t2_abab [aᵥ, eᵥ, iₒ, kₒ], t2_bbbb [bᵥ, dᵥ, jₒ, mₒ]], [(1, [aᵥ, bᵥ, cᵥ, dᵥ, iₒ, jₒ, kₒ, lₒ])]⟩,
  -- line 1537: mcel,ebik,admj->abcdijkl
  ⟨-1, [g_abab [mₒ, cᵥ, eᵥ, lₒ], t2_abab [eᵥ, bᵥ, iₒ, kₒ], t2_abab [aᵥ, dᵥ, mₒ, jₒ]], [(1, [aᵥ, bᵥ, cᵥ, dᵥ, iₒ, jₒ, kₒ, lₒ])]⟩,
  -- line 1540: mcel,aeij,bdkm->abcdijkl
  ⟨-1, [g_bbbb [mₒ, cᵥ, eᵥ, lₒ], t2_abab [aᵥ, eᵥ, iₒ, jₒ], t2_bbbb [bᵥ, dᵥ, kₒ, mₒ]], [(1, [aᵥ, bᵥ, cᵥ, dᵥ, iₒ, jₒ, kₒ, lₒ]), (-1, [aᵥ, bᵥ, cᵥ, dᵥ, iₒ, jₒ, lₒ, kₒ])]⟩,
  -- line 1544: mcel,ebij,admk->abcdijkl
  ⟨1, [g_abab [mₒ, cᵥ, eᵥ, lₒ], t2_abab [eᵥ, bᵥ, iₒ, jₒ], t2_abab [aᵥ, dᵥ, mₒ, kₒ]], [(1, [aᵥ, bᵥ, cᵥ, dᵥ, iₒ, jₒ, kₒ, lₒ]), (-1, [aᵥ, bᵥ, cᵥ, dᵥ, iₒ, jₒ, lₒ, kₒ])]⟩,
  -- line 1548: mcel,edjk,abim->abcdijkl
  ⟨1, [g_bbbb [mₒ, cᵥ, eᵥ, lₒ], t2_bbbb [eᵥ, dᵥ, jₒ, kₒ], t2_abab [aᵥ, bᵥ, iₒ, mₒ]], [(1, [aᵥ, bᵥ, cᵥ, dᵥ, iₒ, jₒ, kₒ, lₒ]), (-1, [aᵥ, bᵥ, dᵥ, cᵥ, iₒ, jₒ, kₒ, lₒ])]⟩,
  -- line 1552: mcel,edik,abmj->abcdijkl
  ⟨1, [g_abab [mₒ, cᵥ, eᵥ, lₒ], t2_abab [eᵥ, dᵥ, iₒ, kₒ], t2_abab [aᵥ, bᵥ, mₒ, jₒ]], [(1, [aᵥ, bᵥ, cᵥ, dᵥ, iₒ, jₒ, kₒ, lₒ]), (-1, [aᵥ, bᵥ, dᵥ, cᵥ, iₒ, jₒ, kₒ, lₒ])]⟩,
  -- line 1556: mcel,edij,abmk->abcdijkl
  ⟨-1, [g_abab [mₒ, cᵥ, eᵥ, lₒ], t2_abab [eᵥ, dᵥ, iₒ, jₒ], t2_abab [aᵥ, bᵥ, mₒ, kₒ]], [(1, [aᵥ, bᵥ, cᵥ, dᵥ, iₒ, jₒ, kₒ, lₒ]), (-1, [aᵥ, bᵥ, cᵥ, dᵥ, iₒ, jₒ, lₒ, kₒ]), (-1, [aᵥ, bᵥ, dᵥ, cᵥ, iₒ, jₒ, kₒ, lₒ]), (1, [aᵥ, bᵥ, dᵥ, cᵥ, iₒ, jₒ, lₒ, kₒ])]⟩,
  -- line 1560: mcek,ebjl,adim->abcdijkl
  ⟨1, [g_bbbb [mₒ, cᵥ, eᵥ, kₒ], t2_bbbb [eᵥ, bᵥ, jₒ, lₒ], t2_abab [aᵥ, dᵥ, iₒ, mₒ]], [(1, [aᵥ, bᵥ, cᵥ, dᵥ, iₒ, jₒ, kₒ, lₒ])]⟩,
  -- line 1563: mcek,aeil,bdjm->abcdijkl
  ⟨-1, [g_bbbb [mₒ, cᵥ, eᵥ, kₒ], t2_abab [aᵥ, eᵥ, iₒ, lₒ], t2_bbbb [bᵥ, dᵥ, jₒ, mₒ]], [(1, [aᵥ, bᵥ, cᵥ, dᵥ, iₒ, jₒ, kₒ, lₒ])]⟩,
  -- line 1566: mcek,ebil,admj->abcdijkl
  ⟨1, [g_abab [mₒ, cᵥ, eᵥ, kₒ], t2_abab [eᵥ, bᵥ, iₒ, lₒ], t2_abab [aᵥ, dᵥ, mₒ, jₒ]], [(1, [aᵥ, bᵥ, cᵥ, dᵥ, iₒ, jₒ, kₒ, lₒ])]⟩,
  -- line 1569: mcek,edjl,abim->abcdijkl
  ⟨-1, [g_bbbb [mₒ, cᵥ, eᵥ, kₒ], t2_bbbb [eᵥ, dᵥ, jₒ, lₒ], t2_abab [aᵥ, bᵥ, iₒ, mₒ]], [(1, [aᵥ, bᵥ, cᵥ, dᵥ, iₒ, jₒ, kₒ, lₒ]), (-1, [aᵥ, bᵥ, dᵥ, cᵥ, iₒ, jₒ, kₒ, lₒ])]⟩,
  -- line 1573: mcek,edil,abmj->abcdijkl
  ⟨-1, [g_abab [mₒ, cᵥ, eᵥ, kₒ], t2_abab [eᵥ, dᵥ, iₒ, lₒ], t2_abab [aᵥ, bᵥ, mₒ, jₒ]], [(1, [aᵥ, bᵥ, cᵥ, dᵥ, iₒ, jₒ, kₒ, lₒ]), (-1, [aᵥ, bᵥ, dᵥ, cᵥ, iₒ, jₒ, kₒ, lₒ])]⟩,
  -- line 1577: mcej,ebkl,adim->abcdijkl
  ⟨-1, [g_bbbb [mₒ, cᵥ, eᵥ, jₒ], t2_bbbb [eᵥ, bᵥ, kₒ, lₒ], t2_abab [aᵥ, dᵥ, iₒ, mₒ]], [(1, [aᵥ, bᵥ, cᵥ, dᵥ, iₒ, jₒ, kₒ, lₒ])]⟩,
  -- line 1580: mcej,aeil,bdkm->abcdijkl
  ⟨1, [g_bbbb [mₒ, cᵥ, eᵥ, jₒ], t2_abab [aᵥ, eᵥ, iₒ, lₒ], t2_bbbb [bᵥ, dᵥ, kₒ, mₒ]], [(1, [aᵥ, bᵥ, cᵥ, dᵥ, iₒ, jₒ, kₒ, lₒ])]⟩,
  -- line 1583: mcej,ebil,admk->abcdijkl
  ⟨-1, [g_abab [mₒ, cᵥ, eᵥ, jₒ], t2_abab [eᵥ, bᵥ, iₒ, lₒ], t2_abab [aᵥ, dᵥ, mₒ, kₒ]], [(1, [aᵥ, bᵥ, cᵥ, dᵥ, iₒ, jₒ, kₒ, lₒ])]⟩,
  -- line 1586: mcej,aeik,bdlm->abcdijkl
  ⟨-1, [g_bbbb [mₒ, cᵥ, eᵥ, jₒ], t2_abab [aᵥ, eᵥ, iₒ, kₒ], t2_bbbb [bᵥ, dᵥ, lₒ, mₒ]], [(1, [aᵥ, bᵥ, cᵥ, dᵥ, iₒ, jₒ, kₒ, lₒ])]⟩,
  -- line 1589: mcej,ebik,adml->abcdijkl
  ⟨1, [g_abab [mₒ, cᵥ, eᵥ, jₒ], t2_abab [eᵥ, bᵥ, iₒ, kₒ], t2_abab [aᵥ, dᵥ, mₒ, lₒ]], [(1, [aᵥ, bᵥ, cᵥ, dᵥ, iₒ, jₒ, kₒ, lₒ])]⟩,
  -- line 1592: mcie,ebjk,adml->abcdijkl
  ⟨1, [g_abab [mₒ, cᵥ, iₒ, eᵥ], t2_bbbb [eᵥ, bᵥ, jₒ, kₒ], t2_abab [aᵥ, dᵥ, mₒ, lₒ]], [(1, [aᵥ, bᵥ, cᵥ, dᵥ, iₒ, jₒ, kₒ, lₒ])]⟩,
  -- line 1595: mcej,edkl,abim->abcdijkl
  ⟨1, [g_bbbb [mₒ, cᵥ, eᵥ, jₒ], t2_bbbb [eᵥ, dᵥ, kₒ, lₒ], t2_abab [aᵥ, bᵥ, iₒ, mₒ]], [(1, [aᵥ, bᵥ, cᵥ, dᵥ, iₒ, jₒ, kₒ, lₒ]), (-1, [aᵥ, bᵥ, dᵥ, cᵥ, iₒ, jₒ, kₒ, lₒ])]⟩,
  -- line 1599: mcej,edil,abmk->abcdijkl
  ⟨1, [g_abab [mₒ, cᵥ, eᵥ, jₒ], t2_abab [eᵥ, dᵥ, iₒ, lₒ], t2_abab [aᵥ, bᵥ, mₒ, kₒ]], [(1, [aᵥ, bᵥ, cᵥ, dᵥ, iₒ, jₒ, kₒ, lₒ]), (-1, [aᵥ, bᵥ, dᵥ, cᵥ, iₒ, jₒ, kₒ, lₒ])]⟩,
  -- line 1603: mcej,edik,abml->abcdijkl
  ⟨-1, [g_abab [mₒ, cᵥ, eᵥ, jₒ], t2_abab [eᵥ, dᵥ, iₒ, kₒ], t2_abab [aᵥ, bᵥ, mₒ, lₒ]], [(1, [aᵥ, bᵥ, cᵥ, dᵥ, iₒ, jₒ, kₒ, lₒ]), (-1, [aᵥ, bᵥ, dᵥ, cᵥ, iₒ, jₒ, kₒ, lₒ])]⟩,
  -- line 1607: mcie,edjk,abml->abcdijkl
  ⟨-1, [g_abab [mₒ, cᵥ, iₒ, eᵥ], t2_bbbb [eᵥ, dᵥ, jₒ, kₒ], t2_abab [aᵥ, bᵥ, mₒ, lₒ]], [(1, [aᵥ, bᵥ, cᵥ, dᵥ, iₒ, jₒ, kₒ, lₒ]), (-1, [aᵥ, bᵥ, dᵥ, cᵥ, iₒ, jₒ, kₒ, lₒ])]⟩,
  -- line 1611: mcie,ebkl,admj->abcdijkl
  ⟨1, [g_abab [mₒ, cᵥ, iₒ, eᵥ], t2_bbbb [eᵥ, bᵥ, kₒ, lₒ], t2_abab [aᵥ, dᵥ, mₒ, jₒ]], [(1, [aᵥ, bᵥ, cᵥ, dᵥ, iₒ, jₒ, kₒ, lₒ]), (-1, [aᵥ, bᵥ, cᵥ, dᵥ, iₒ, kₒ, jₒ, lₒ])]⟩,
  -- line 1615: mcie,edkl,abmj->abcdijkl
  ⟨-1, [g_abab [mₒ, cᵥ, iₒ, eᵥ], t2_bbbb [eᵥ, dᵥ, kₒ, lₒ], t2_abab [aᵥ, bᵥ, mₒ, jₒ]], [(1, [aᵥ, bᵥ, cᵥ, dᵥ, iₒ, jₒ, kₒ, lₒ]), (-1, [aᵥ, bᵥ, cᵥ, dᵥ, iₒ, kₒ, jₒ, lₒ]), (-1, [aᵥ, bᵥ, dᵥ, cᵥ, iₒ, jₒ, kₒ, lₒ]), (1, [aᵥ, bᵥ, dᵥ, cᵥ, iₒ, kₒ, jₒ, lₒ])]⟩,
  -- line 1619: mdel,ebjk,acim->abcdijkl
  ⟨1, [g_bbbb [mₒ, dᵥ, eᵥ, lₒ], t2_bbbb [eᵥ, bᵥ, jₒ, kₒ], t2_abab [aᵥ, cᵥ, iₒ, mₒ]], [(1, [aᵥ, bᵥ, cᵥ, dᵥ, iₒ, jₒ, kₒ, lₒ])]⟩,
  -- line 1622: mdel,aeik,bcjm->abcdijkl
  ⟨-1, [g_bbbb [mₒ, dᵥ, eᵥ, lₒ], t2_abab [aᵥ, eᵥ, iₒ, kₒ], t2_bbbb [bᵥ, cᵥ, jₒ, mₒ]], [(1, [aᵥ, bᵥ, cᵥ, dᵥ, iₒ, jₒ, kₒ, lₒ])]⟩,
  -- line 1625: mdel,ebik,acmj->abcdijkl
  ⟨1, [g_abab [mₒ, dᵥ, eᵥ, lₒ], t2_abab [eᵥ, bᵥ, iₒ, kₒ], t2_abab [aᵥ, cᵥ, mₒ, jₒ]], [(1, [aᵥ, bᵥ, cᵥ, dᵥ, iₒ, jₒ, kₒ, lₒ])]⟩,
  -- line 1628: mdel,aeij,bckm->abcdijkl
  ⟨1, [g_bbbb [mₒ, dᵥ, eᵥ, lₒ], t2_abab [aᵥ, eᵥ, iₒ, jₒ], t2_bbbb [bᵥ, cᵥ, kₒ, mₒ]], [(1, [aᵥ, bᵥ, cᵥ, dᵥ, iₒ, jₒ, kₒ, lₒ]), (-1, [aᵥ, bᵥ, cᵥ, dᵥ, iₒ, jₒ, lₒ, kₒ])]⟩
  ]

/-- Part 2 of `ccsdtq_t4_abbbabbb`. -/
def ccsdtq_t4_abbbabbb_2 : Prog := [
  -- line 1632: mdel,ebij,acmk->abcdijkl
  ⟨-1, [g_abab [mₒ, dᵥ, eᵥ, lₒ], t2_abab [eᵥ, bᵥ, iₒ, jₒ], t2_abab [aᵥ, cᵥ, mₒ, kₒ]], [(1, [aᵥ, bᵥ, cᵥ, dᵥ, iₒ, jₒ, kₒ, lₒ]), (-1, [aᵥ, bᵥ, cᵥ, dᵥ, iₒ, jₒ, lₒ, kₒ])]⟩,
  -- line 1636: mdek,ebjl,acim->abcdijkl
  ⟨-1, [g_bbbb [mₒ, dᵥ, eᵥ, kₒ], t2_bbbb [eᵥ, bᵥ, jₒ, lₒ], t2_abab [aᵥ, cᵥ, iₒ, mₒ]], [(1, [aᵥ, bᵥ, cᵥ, dᵥ, iₒ, jₒ, kₒ, lₒ])]⟩,
  -- line 1639: mdek,aeil,bcjm->abcdijkl
  ⟨1, [g_bbbb [mₒ, dᵥ, eᵥ, kₒ], t2_abab [aᵥ, eᵥ, iₒ, lₒ], t2_bbbb [bᵥ, cᵥ, jₒ, mₒ]], [(1, [aᵥ, bᵥ, cᵥ, dᵥ, iₒ, jₒ, kₒ, lₒ])]⟩,
  -- line 1642: mdek,ebil,acmj->abcdijkl
  ⟨-1, [g_abab [mₒ, dᵥ, eᵥ, kₒ], t2_abab [eᵥ, bᵥ, iₒ, lₒ], t2_abab [aᵥ, cᵥ, mₒ, jₒ]], [(1, [aᵥ, bᵥ, cᵥ, dᵥ, iₒ, jₒ, kₒ, lₒ])]⟩,
  -- line 1645: mdej,ebkl,acim->abcdijkl
  ⟨1, [g_bbbb [mₒ, dᵥ, eᵥ, jₒ], t2_bbbb [eᵥ, bᵥ, kₒ, lₒ], t2_abab [aᵥ, cᵥ, iₒ, mₒ]], [(1, [aᵥ, bᵥ, cᵥ, dᵥ, iₒ, jₒ, kₒ, lₒ])]⟩,
  -- line 1648: mdej,aeil,bckm->abcdijkl
  ⟨-1, [g_bbbb [mₒ, dᵥ, eᵥ, jₒ], t2_abab [aᵥ, eᵥ, iₒ, lₒ], t2_bbbb [bᵥ, cᵥ, kₒ, mₒ]], [(1, [aᵥ, bᵥ, cᵥ, dᵥ, iₒ, jₒ, kₒ, lₒ])]⟩,
  -- line 1651: mdej,ebil,acmk->abcdijkl
  ⟨1, [g_abab [mₒ, dᵥ, eᵥ, jₒ], t2_abab [eᵥ, bᵥ, iₒ, lₒ], t2_abab [aᵥ, cᵥ, mₒ, kₒ]], [(1, [aᵥ, bᵥ, cᵥ, dᵥ, iₒ, jₒ, kₒ, lₒ])]⟩,
  -- line 1654: mdej,aeik,bclm->abcdijkl
  ⟨1, [g_bbbb [mₒ, dᵥ, eᵥ, jₒ], t2_abab [aᵥ, eᵥ, iₒ, kₒ], t2_bbbb [bᵥ, cᵥ, lₒ, mₒ]], [(1, [aᵥ, bᵥ, cᵥ, dᵥ, iₒ, jₒ, kₒ, lₒ])]⟩,
  -- line 1657: mdej,ebik,acml->abcdijkl
  ⟨-1, [g_abab [mₒ, dᵥ, eᵥ, jₒ], t2_abab [eᵥ, bᵥ, iₒ, kₒ], t2_abab [aᵥ, cᵥ, mₒ, lₒ]], [(1, [aᵥ, bᵥ, cᵥ, dᵥ, iₒ, jₒ, kₒ, lₒ])]⟩,
  -- line 1660: mdie,ebjk,acml->abcdijkl
  ⟨-1, [g_abab [mₒ, dᵥ, iₒ, eᵥ], t2_bbbb [eᵥ, bᵥ, jₒ, kₒ], t2_abab [aᵥ, cᵥ, mₒ, lₒ]], [(1, [aᵥ, bᵥ, cᵥ, dᵥ, iₒ, jₒ, kₒ, lₒ])]⟩,
  -- line 1663: mdie,ebkl,acmj->abcdijkl
  ⟨-1, [g_abab [mₒ, dᵥ, iₒ, eᵥ], t2_bbbb [eᵥ, bᵥ, kₒ, lₒ], t2_abab [aᵥ, cᵥ, mₒ, jₒ]], [(1, [aᵥ, bᵥ, cᵥ, dᵥ, iₒ, jₒ, kₒ, lₒ]), (-1, [aᵥ, bᵥ, cᵥ, dᵥ, iₒ, kₒ, jₒ, lₒ])]⟩,
  -- line 1667: abfe,eckl,fdij->abcdijkl
  ⟨1, [g_abab [aᵥ, bᵥ, fᵥ, eᵥ], t2_bbbb [eᵥ, cᵥ, kₒ, lₒ], t2_abab [fᵥ, dᵥ, iₒ, jₒ]], [(1, [aᵥ, bᵥ, cᵥ, dᵥ, iₒ, jₒ, kₒ, lₒ]), (-1, [aᵥ, bᵥ, cᵥ, dᵥ, iₒ, kₒ, jₒ, lₒ]), (-1, [aᵥ, cᵥ, bᵥ, dᵥ, iₒ, jₒ, kₒ, lₒ]), (1, [aᵥ, cᵥ, bᵥ, dᵥ, iₒ, kₒ, jₒ, lₒ])]⟩,
  -- line 1671: abef,ecil,fdjk->abcdijkl
  ⟨-1, [g_abab [aᵥ, bᵥ, eᵥ, fᵥ], t2_abab [eᵥ, cᵥ, iₒ, lₒ], t2_bbbb [fᵥ, dᵥ, jₒ, kₒ]], [(1, [aᵥ, bᵥ, cᵥ, dᵥ, iₒ, jₒ, kₒ, lₒ]), (-1, [aᵥ, bᵥ, cᵥ, dᵥ, iₒ, jₒ, lₒ, kₒ]), (-1, [aᵥ, cᵥ, bᵥ, dᵥ, iₒ, jₒ, kₒ, lₒ]), (1, [aᵥ, cᵥ, bᵥ, dᵥ, iₒ, jₒ, lₒ, kₒ])]⟩,
  -- line 1675: abfe,ecjk,fdil->abcdijkl
  ⟨1, [g_abab [aᵥ, bᵥ, fᵥ, eᵥ], t2_bbbb [eᵥ, cᵥ, jₒ, kₒ], t2_abab [fᵥ, dᵥ, iₒ, lₒ]], [(1, [aᵥ, bᵥ, cᵥ, dᵥ, iₒ, jₒ, kₒ, lₒ]), (-1, [aᵥ, cᵥ, bᵥ, dᵥ, iₒ, jₒ, kₒ, lₒ])]⟩,
  -- line 1679: abef,ecij,fdkl->abcdijkl
  ⟨-1, [g_abab [aᵥ, bᵥ, eᵥ, fᵥ], t2_abab [eᵥ, cᵥ, iₒ, jₒ], t2_bbbb [fᵥ, dᵥ, kₒ, lₒ]], [(1, [aᵥ, bᵥ, cᵥ, dᵥ, iₒ, jₒ, kₒ, lₒ]), (-1, [aᵥ, cᵥ, bᵥ, dᵥ, iₒ, jₒ, kₒ, lₒ])]⟩,
  -- line 1683: adfe,ebkl,fcij->abcdijkl
  ⟨1, [g_abab [aᵥ, dᵥ, fᵥ, eᵥ], t2_bbbb [eᵥ, bᵥ, kₒ, lₒ], t2_abab [fᵥ, cᵥ, iₒ, jₒ]], [(1, [aᵥ, bᵥ, cᵥ, dᵥ, iₒ, jₒ, kₒ, lₒ]), (-1, [aᵥ, bᵥ, cᵥ, dᵥ, iₒ, kₒ, jₒ, lₒ])]⟩,
  -- line 1687: adef,ebil,fcjk->abcdijkl
  ⟨-1, [g_abab [aᵥ, dᵥ, eᵥ, fᵥ], t2_abab [eᵥ, bᵥ, iₒ, lₒ], t2_bbbb [fᵥ, cᵥ, jₒ, kₒ]], [(1, [aᵥ, bᵥ, cᵥ, dᵥ, iₒ, jₒ, kₒ, lₒ]), (-1, [aᵥ, bᵥ, cᵥ, dᵥ, iₒ, jₒ, lₒ, kₒ])]⟩,
  -- line 1691: bdef,aeil,fcjk->abcdijkl
  ⟨-1, [g_bbbb [bᵥ, dᵥ, eᵥ, fᵥ], t2_abab [aᵥ, eᵥ, iₒ, lₒ], t2_bbbb [fᵥ, cᵥ, jₒ, kₒ]], [(1, [aᵥ, bᵥ, cᵥ, dᵥ, iₒ, jₒ, kₒ, lₒ]), (-1, [aᵥ, bᵥ, cᵥ, dᵥ, iₒ, jₒ, lₒ, kₒ])]⟩,
  -- line 1695: adfe,ebjk,fcil->abcdijkl
  ⟨1, [g_abab [aᵥ, dᵥ, fᵥ, eᵥ], t2_bbbb [eᵥ, bᵥ, jₒ, kₒ], t2_abab [fᵥ, cᵥ, iₒ, lₒ]], [(1, [aᵥ, bᵥ, cᵥ, dᵥ, iₒ, jₒ, kₒ, lₒ])]⟩,
  -- line 1698: adef,ebij,fckl->abcdijkl
  ⟨-1, [g_abab [aᵥ, dᵥ, eᵥ, fᵥ], t2_abab [eᵥ, bᵥ, iₒ, jₒ], t2_bbbb [fᵥ, cᵥ, kₒ, lₒ]], [(1, [aᵥ, bᵥ, cᵥ, dᵥ, iₒ, jₒ, kₒ, lₒ])]⟩,
  -- line 1701: bdef,aeij,fckl->abcdijkl
  ⟨-1, [g_bbbb [bᵥ, dᵥ, eᵥ, fᵥ], t2_abab [aᵥ, eᵥ, iₒ, jₒ], t2_bbbb [fᵥ, cᵥ, kₒ, lₒ]], [(1, [aᵥ, bᵥ, cᵥ, dᵥ, iₒ, jₒ, kₒ, lₒ])]⟩,
  -- line 1704: bcef,aeil,fdjk->abcdijkl
  ⟨1, [g_bbbb [bᵥ, cᵥ, eᵥ, fᵥ], t2_abab [aᵥ, eᵥ, iₒ, lₒ], t2_bbbb [fᵥ, dᵥ, jₒ, kₒ]], [(1, [aᵥ, bᵥ, cᵥ, dᵥ, iₒ, jₒ, kₒ, lₒ]), (-1, [aᵥ, bᵥ, cᵥ, dᵥ, iₒ, jₒ, lₒ, kₒ]), (-1, [aᵥ, dᵥ, cᵥ, bᵥ, iₒ, jₒ, kₒ, lₒ]), (1, [aᵥ, dᵥ, cᵥ, bᵥ, iₒ, jₒ, lₒ, kₒ])]⟩,
  -- line 1708: bcef,aeij,fdkl->abcdijkl
  ⟨1, [g_bbbb [bᵥ, cᵥ, eᵥ, fᵥ], t2_abab [aᵥ, eᵥ, iₒ, jₒ], t2_bbbb [fᵥ, dᵥ, kₒ, lₒ]], [(1, [aᵥ, bᵥ, cᵥ, dᵥ, iₒ, jₒ, kₒ, lₒ]), (-1, [aᵥ, dᵥ, cᵥ, bᵥ, iₒ, jₒ, kₒ, lₒ])]⟩,
  -- line 1712: mbkl,acdijm->abcdijkl
  ⟨-1, [g_bbbb [mₒ, bᵥ, kₒ, lₒ], t3_abbabb [aᵥ, cᵥ, dᵥ, iₒ, jₒ, mₒ]], [(1, [aᵥ, bᵥ, cᵥ, dᵥ, iₒ, jₒ, kₒ, lₒ]), (-1, [aᵥ, bᵥ, cᵥ, dᵥ, iₒ, kₒ, jₒ, lₒ])]⟩,
  -- line 1716: amil,bcdjkm->abcdijkl
  ⟨-1, [g_abab [aᵥ, mₒ, iₒ, lₒ], t3_bbbbbb [bᵥ, cᵥ, dᵥ, jₒ, kₒ, mₒ]], [(1, [aᵥ, bᵥ, cᵥ, dᵥ, iₒ, jₒ, kₒ, lₒ]), (-1, [aᵥ, bᵥ, cᵥ, dᵥ, iₒ, jₒ, lₒ, kₒ])]⟩,
  -- line 1720: mbil,acdmkj->abcdijkl
  ⟨1, [g_abab [mₒ, bᵥ, iₒ, lₒ], t3_abbabb [aᵥ, cᵥ, dᵥ, mₒ, kₒ, jₒ]], [(1, [aᵥ, bᵥ, cᵥ, dᵥ, iₒ, jₒ, kₒ, lₒ]), (-1, [aᵥ, bᵥ, cᵥ, dᵥ, iₒ, jₒ, lₒ, kₒ])]⟩,
  -- line 1724: mbjk,acdilm->abcdijkl
  ⟨-1, [g_bbbb [mₒ, bᵥ, jₒ, kₒ], t3_abbabb [aᵥ, cᵥ, dᵥ, iₒ, lₒ, mₒ]], [(1, [aᵥ, bᵥ, cᵥ, dᵥ, iₒ, jₒ, kₒ, lₒ])]⟩,
  -- line 1727: amij,bcdklm->abcdijkl
  ⟨-1, [g_abab [aᵥ, mₒ, iₒ, jₒ], t3_bbbbbb [bᵥ, cᵥ, dᵥ, kₒ, lₒ, mₒ]], [(1, [aᵥ, bᵥ, cᵥ, dᵥ, iₒ, jₒ, kₒ, lₒ])]⟩,
  -- line 1730: mbij,acdmlk->abcdijkl
  ⟨1, [g_abab [mₒ, bᵥ, iₒ, jₒ], t3_abbabb [aᵥ, cᵥ, dᵥ, mₒ, lₒ, kₒ]], [(1, [aᵥ, bᵥ, cᵥ, dᵥ, iₒ, jₒ, kₒ, lₒ])]⟩,
  -- line 1733: mckl,abdijm->abcdijkl
  ⟨1, [g_bbbb [mₒ, cᵥ, kₒ, lₒ], t3_abbabb [aᵥ, bᵥ, dᵥ, iₒ, jₒ, mₒ]], [(1, [aᵥ, bᵥ, cᵥ, dᵥ, iₒ, jₒ, kₒ, lₒ]), (-1, [aᵥ, bᵥ, cᵥ, dᵥ, iₒ, kₒ, jₒ, lₒ]), (-1, [aᵥ, bᵥ, dᵥ, cᵥ, iₒ, jₒ, kₒ, lₒ]), (1, [aᵥ, bᵥ, dᵥ, cᵥ, iₒ, kₒ, jₒ, lₒ])]⟩,
  -- line 1737: mcil,abdmkj->abcdijkl
  ⟨-1, [g_abab [mₒ, cᵥ, iₒ, lₒ], t3_abbabb [aᵥ, bᵥ, dᵥ, mₒ, kₒ, jₒ]], [(1, [aᵥ, bᵥ, cᵥ, dᵥ, iₒ, jₒ, kₒ, lₒ]), (-1, [aᵥ, bᵥ, cᵥ, dᵥ, iₒ, jₒ, lₒ, kₒ]), (-1, [aᵥ, bᵥ, dᵥ, cᵥ, iₒ, jₒ, kₒ, lₒ]), (1, [aᵥ, bᵥ, dᵥ, cᵥ, iₒ, jₒ, lₒ, kₒ])]⟩,
  -- line 1741: mcjk,abdilm->abcdijkl
  ⟨1, [g_bbbb [mₒ, cᵥ, jₒ, kₒ], t3_abbabb [aᵥ, bᵥ, dᵥ, iₒ, lₒ, mₒ]], [(1, [aᵥ, bᵥ, cᵥ, dᵥ, iₒ, jₒ, kₒ, lₒ]), (-1, [aᵥ, bᵥ, dᵥ, cᵥ, iₒ, jₒ, kₒ, lₒ])]⟩,
  -- line 1745: mcij,abdmlk->abcdijkl
  ⟨-1, [g_abab [mₒ, cᵥ, iₒ, jₒ], t3_abbabb [aᵥ, bᵥ, dᵥ, mₒ, lₒ, kₒ]], [(1, [aᵥ, bᵥ, cᵥ, dᵥ, iₒ, jₒ, kₒ, lₒ]), (-1, [aᵥ, bᵥ, dᵥ, cᵥ, iₒ, jₒ, kₒ, lₒ])]⟩,
  -- line 1749: abel,ecdijk->abcdijkl
  ⟨1, [g_abab [aᵥ, bᵥ, eᵥ, lₒ], t3_abbabb [eᵥ, cᵥ, dᵥ, iₒ, jₒ, kₒ]], [(1, [aᵥ, bᵥ, cᵥ, dᵥ, iₒ, jₒ, kₒ, lₒ]), (-1, [aᵥ, bᵥ, cᵥ, dᵥ, iₒ, jₒ, lₒ, kₒ]), (-1, [aᵥ, cᵥ, bᵥ, dᵥ, iₒ, jₒ, kₒ, lₒ]), (1, [aᵥ, cᵥ, bᵥ, dᵥ, iₒ, jₒ, lₒ, kₒ])]⟩,
  -- line 1753: abej,ecdikl->abcdijkl
  ⟨1, [g_abab [aᵥ, bᵥ, eᵥ, jₒ], t3_abbabb [eᵥ, cᵥ, dᵥ, iₒ, kₒ, lₒ]], [(1, [aᵥ, bᵥ, cᵥ, dᵥ, iₒ, jₒ, kₒ, lₒ]), (-1, [aᵥ, cᵥ, bᵥ, dᵥ, iₒ, jₒ, kₒ, lₒ])]⟩,
  -- line 1757: abie,ecdjkl->abcdijkl
  ⟨1, [g_abab [aᵥ, bᵥ, iₒ, eᵥ], t3_bbbbbb [eᵥ, cᵥ, dᵥ, jₒ, kₒ, lₒ]], [(1, [aᵥ, bᵥ, cᵥ, dᵥ, iₒ, jₒ, kₒ, lₒ]), (-1, [aᵥ, cᵥ, bᵥ, dᵥ, iₒ, jₒ, kₒ, lₒ])]⟩,
  -- line 1761: adel,ebcijk->abcdijkl
  ⟨1, [g_abab [aᵥ, dᵥ, eᵥ, lₒ], t3_abbabb [eᵥ, bᵥ, cᵥ, iₒ, jₒ, kₒ]], [(1, [aᵥ, bᵥ, cᵥ, dᵥ, iₒ, jₒ, kₒ, lₒ]), (-1, [aᵥ, bᵥ, cᵥ, dᵥ, iₒ, jₒ, lₒ, kₒ])]⟩,
  -- line 1765: bdel,aecijk->abcdijkl
  ⟨1, [g_bbbb [bᵥ, dᵥ, eᵥ, lₒ], t3_abbabb [aᵥ, eᵥ, cᵥ, iₒ, jₒ, kₒ]], [(1, [aᵥ, bᵥ, cᵥ, dᵥ, iₒ, jₒ, kₒ, lₒ]), (-1, [aᵥ, bᵥ, cᵥ, dᵥ, iₒ, jₒ, lₒ, kₒ])]⟩,
  -- line 1769: adej,ebcikl->abcdijkl
  ⟨1, [g_abab [aᵥ, dᵥ, eᵥ, jₒ], t3_abbabb [eᵥ, bᵥ, cᵥ, iₒ, kₒ, lₒ]], [(1, [aᵥ, bᵥ, cᵥ, dᵥ, iₒ, jₒ, kₒ, lₒ])]⟩,
  -- line 1772: bdej,aecikl->abcdijkl
  ⟨1, [g_bbbb [bᵥ, dᵥ, eᵥ, jₒ], t3_abbabb [aᵥ, eᵥ, cᵥ, iₒ, kₒ, lₒ]], [(1, [aᵥ, bᵥ, cᵥ, dᵥ, iₒ, jₒ, kₒ, lₒ])]⟩
  ]

/-- Part 3 of `ccsdtq_t4_abbbabbb`. -/
def ccsdtq_t4_abbbabbb_3 : Prog := [
  -- line 1775: adie,ebcjkl->abcdijkl
  ⟨1, [g_abab [aᵥ, dᵥ, iₒ, eᵥ], t3_bbbbbb [eᵥ, bᵥ, cᵥ, jₒ, kₒ, lₒ]], [(1, [aᵥ, bᵥ, cᵥ, dᵥ, iₒ, jₒ, kₒ, lₒ])]⟩,
  -- line 1778: bcel,aedijk->abcdijkl
  ⟨-1, [g_bbbb [bᵥ, cᵥ, eᵥ, lₒ], t3_abbabb [aᵥ, eᵥ, dᵥ, iₒ, jₒ, kₒ]], [(1, [aᵥ, bᵥ, cᵥ, dᵥ, iₒ, jₒ, kₒ, lₒ]), (-1, [aᵥ, bᵥ, cᵥ, dᵥ, iₒ, jₒ, lₒ, kₒ]), (-1, [aᵥ, dᵥ, cᵥ, bᵥ, iₒ, jₒ, kₒ, lₒ]), (1, [aᵥ, dᵥ, cᵥ, bᵥ, iₒ, jₒ, lₒ, kₒ])]⟩,
  -- line 1782: bcej,aedikl->abcdijkl
  ⟨-1, [g_bbbb [bᵥ, cᵥ, eᵥ, jₒ], t3_abbabb [aᵥ, eᵥ, dᵥ, iₒ, kₒ, lₒ]], [(1, [aᵥ, bᵥ, cᵥ, dᵥ, iₒ, jₒ, kₒ, lₒ]), (-1, [aᵥ, dᵥ, cᵥ, bᵥ, iₒ, jₒ, kₒ, lₒ])]⟩
  ]

/-- `UT2/fullCCenergy.py` 1343-1785, `ccsdtq_t4_abbbabbb_residual`. -/
def ccsdtq_t4_abbbabbb : Prog := ccsdtq_t4_abbbabbb_0 ++ (ccsdtq_t4_abbbabbb_1 ++ (ccsdtq_t4_abbbabbb_2 ++ (ccsdtq_t4_abbbabbb_3)))

end Verif.Gen
