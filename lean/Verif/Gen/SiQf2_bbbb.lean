import Verif.Ein.Names
import Verif.Gen.Antisym

/-! Written by `/verif/tools/gen.py`. Programs read from `/repo/UT2`. -/

set_option maxRecDepth 100000

namespace Verif.Gen

open Verif.Ein Verif.Ein.N


/-- Part 0 of `residQf2_bbbb`. -/
def residQf2_bbbb_0 : Prog := [
  -- line 1326: mnef,kldc,efkl,dcmj,abin->abij
  ⟨-1/8, [g_abab [mₒ, nₒ, eᵥ, fᵥ], l2_abab [kₒ, lₒ, dᵥ, cᵥ], t2_abab [eᵥ, fᵥ, kₒ, lₒ], t2_abab [dᵥ, cᵥ, mₒ, jₒ], t2_bbbb [aᵥ, bᵥ, iₒ, nₒ]], [(1, [aᵥ, bᵥ, iₒ, jₒ]), (-1, [aᵥ, bᵥ, jₒ, iₒ])]⟩,
  -- line 1330: mnfe,kldc,fekl,dcmj,abin->abij
  ⟨-1/8, [g_abab [mₒ, nₒ, fᵥ, eᵥ], l2_abab [kₒ, lₒ, dᵥ, cᵥ], t2_abab [fᵥ, eᵥ, kₒ, lₒ], t2_abab [dᵥ, cᵥ, mₒ, jₒ], t2_bbbb [aᵥ, bᵥ, iₒ, nₒ]], [(1, [aᵥ, bᵥ, iₒ, jₒ]), (-1, [aᵥ, bᵥ, jₒ, iₒ])]⟩,
  -- line 1334: mnef,klcd,efkl,cdmj,abin->abij
  ⟨-1/8, [g_abab [mₒ, nₒ, eᵥ, fᵥ], l2_abab [kₒ, lₒ, cᵥ, dᵥ], t2_abab [eᵥ, fᵥ, kₒ, lₒ], t2_abab [cᵥ, dᵥ, mₒ, jₒ], t2_bbbb [aᵥ, bᵥ, iₒ, nₒ]], [(1, [aᵥ, bᵥ, iₒ, jₒ]), (-1, [aᵥ, bᵥ, jₒ, iₒ])]⟩,
  -- line 1338: mnfe,klcd,fekl,cdmj,abin->abij
  ⟨-1/8, [g_abab [mₒ, nₒ, fᵥ, eᵥ], l2_abab [kₒ, lₒ, cᵥ, dᵥ], t2_abab [fᵥ, eᵥ, kₒ, lₒ], t2_abab [cᵥ, dᵥ, mₒ, jₒ], t2_bbbb [aᵥ, bᵥ, iₒ, nₒ]], [(1, [aᵥ, bᵥ, iₒ, jₒ]), (-1, [aᵥ, bᵥ, jₒ, iₒ])]⟩,
  -- line 1342: mnef,lkdc,eflk,dcmj,abin->abij
  ⟨-1/8, [g_abab [mₒ, nₒ, eᵥ, fᵥ], l2_abab [lₒ, kₒ, dᵥ, cᵥ], t2_abab [eᵥ, fᵥ, lₒ, kₒ], t2_abab [dᵥ, cᵥ, mₒ, jₒ], t2_bbbb [aᵥ, bᵥ, iₒ, nₒ]], [(1, [aᵥ, bᵥ, iₒ, jₒ]), (-1, [aᵥ, bᵥ, jₒ, iₒ])]⟩,
  -- line 1346: mnfe,lkdc,felk,dcmj,abin->abij
  ⟨-1/8, [g_abab [mₒ, nₒ, fᵥ, eᵥ], l2_abab [lₒ, kₒ, dᵥ, cᵥ], t2_abab [fᵥ, eᵥ, lₒ, kₒ], t2_abab [dᵥ, cᵥ, mₒ, jₒ], t2_bbbb [aᵥ, bᵥ, iₒ, nₒ]], [(1, [aᵥ, bᵥ, iₒ, jₒ]), (-1, [aᵥ, bᵥ, jₒ, iₒ])]⟩,
  -- line 1350: mnef,lkcd,eflk,cdmj,abin->abij
  ⟨-1/8, [g_abab [mₒ, nₒ, eᵥ, fᵥ], l2_abab [lₒ, kₒ, cᵥ, dᵥ], t2_abab [eᵥ, fᵥ, lₒ, kₒ], t2_abab [cᵥ, dᵥ, mₒ, jₒ], t2_bbbb [aᵥ, bᵥ, iₒ, nₒ]], [(1, [aᵥ, bᵥ, iₒ, jₒ]), (-1, [aᵥ, bᵥ, jₒ, iₒ])]⟩,
  -- line 1354: mnfe,lkcd,felk,cdmj,abin->abij
  ⟨-1/8, [g_abab [mₒ, nₒ, fᵥ, eᵥ], l2_abab [lₒ, kₒ, cᵥ, dᵥ], t2_abab [fᵥ, eᵥ, lₒ, kₒ], t2_abab [cᵥ, dᵥ, mₒ, jₒ], t2_bbbb [aᵥ, bᵥ, iₒ, nₒ]], [(1, [aᵥ, bᵥ, iₒ, jₒ]), (-1, [aᵥ, bᵥ, jₒ, iₒ])]⟩,
  -- line 1358: nmef,kldc,efkl,dcjm,abin->abij
  ⟨-1/8, [g_bbbb [nₒ, mₒ, eᵥ, fᵥ], l2_bbbb [kₒ, lₒ, dᵥ, cᵥ], t2_bbbb [eᵥ, fᵥ, kₒ, lₒ], t2_bbbb [dᵥ, cᵥ, jₒ, mₒ], t2_bbbb [aᵥ, bᵥ, iₒ, nₒ]], [(1, [aᵥ, bᵥ, iₒ, jₒ]), (-1, [aᵥ, bᵥ, jₒ, iₒ])]⟩,
  -- line 1362: nmef,kldc,efkl,damj,cbni->abij
  ⟨1/4, [g_aaaa [nₒ, mₒ, eᵥ, fᵥ], l2_aaaa [kₒ, lₒ, dᵥ, cᵥ], t2_aaaa [eᵥ, fᵥ, kₒ, lₒ], t2_abab [dᵥ, aᵥ, mₒ, jₒ], t2_abab [cᵥ, bᵥ, nₒ, iₒ]], [(1, [aᵥ, bᵥ, iₒ, jₒ]), (-1, [aᵥ, bᵥ, jₒ, iₒ])]⟩,
  -- line 1366: mnef,kldc,efkl,damj,cbin->abij
  ⟨1/4, [g_abab [mₒ, nₒ, eᵥ, fᵥ], l2_abab [kₒ, lₒ, dᵥ, cᵥ], t2_abab [eᵥ, fᵥ, kₒ, lₒ], t2_abab [dᵥ, aᵥ, mₒ, jₒ], t2_bbbb [cᵥ, bᵥ, iₒ, nₒ]], [(1, [aᵥ, bᵥ, iₒ, jₒ]), (-1, [aᵥ, bᵥ, jₒ, iₒ])]⟩,
  -- line 1370: mnfe,kldc,fekl,damj,cbin->abij
  ⟨1/4, [g_abab [mₒ, nₒ, fᵥ, eᵥ], l2_abab [kₒ, lₒ, dᵥ, cᵥ], t2_abab [fᵥ, eᵥ, kₒ, lₒ], t2_abab [dᵥ, aᵥ, mₒ, jₒ], t2_bbbb [cᵥ, bᵥ, iₒ, nₒ]], [(1, [aᵥ, bᵥ, iₒ, jₒ]), (-1, [aᵥ, bᵥ, jₒ, iₒ])]⟩,
  -- line 1374: nmef,klcd,efkl,dajm,cbni->abij
  ⟨1/4, [g_abab [nₒ, mₒ, eᵥ, fᵥ], l2_abab [kₒ, lₒ, cᵥ, dᵥ], t2_abab [eᵥ, fᵥ, kₒ, lₒ], t2_bbbb [dᵥ, aᵥ, jₒ, mₒ], t2_abab [cᵥ, bᵥ, nₒ, iₒ]], [(1, [aᵥ, bᵥ, iₒ, jₒ]), (-1, [aᵥ, bᵥ, jₒ, iₒ])]⟩,
  -- line 1378: nmfe,klcd,fekl,dajm,cbni->abij
  ⟨1/4, [g_abab [nₒ, mₒ, fᵥ, eᵥ], l2_abab [kₒ, lₒ, cᵥ, dᵥ], t2_abab [fᵥ, eᵥ, kₒ, lₒ], t2_bbbb [dᵥ, aᵥ, jₒ, mₒ], t2_abab [cᵥ, bᵥ, nₒ, iₒ]], [(1, [aᵥ, bᵥ, iₒ, jₒ]), (-1, [aᵥ, bᵥ, jₒ, iₒ])]⟩,
  -- line 1382: mnef,lkdc,eflk,damj,cbin->abij
  ⟨1/4, [g_abab [mₒ, nₒ, eᵥ, fᵥ], l2_abab [lₒ, kₒ, dᵥ, cᵥ], t2_abab [eᵥ, fᵥ, lₒ, kₒ], t2_abab [dᵥ, aᵥ, mₒ, jₒ], t2_bbbb [cᵥ, bᵥ, iₒ, nₒ]], [(1, [aᵥ, bᵥ, iₒ, jₒ]), (-1, [aᵥ, bᵥ, jₒ, iₒ])]⟩,
  -- line 1386: mnfe,lkdc,felk,damj,cbin->abij
  ⟨1/4, [g_abab [mₒ, nₒ, fᵥ, eᵥ], l2_abab [lₒ, kₒ, dᵥ, cᵥ], t2_abab [fᵥ, eᵥ, lₒ, kₒ], t2_abab [dᵥ, aᵥ, mₒ, jₒ], t2_bbbb [cᵥ, bᵥ, iₒ, nₒ]], [(1, [aᵥ, bᵥ, iₒ, jₒ]), (-1, [aᵥ, bᵥ, jₒ, iₒ])]⟩,
  -- line 1390: nmef,lkcd,eflk,dajm,cbni->abij
  ⟨1/4, [g_abab [nₒ, mₒ, eᵥ, fᵥ], l2_abab [lₒ, kₒ, cᵥ, dᵥ], t2_abab [eᵥ, fᵥ, lₒ, kₒ], t2_bbbb [dᵥ, aᵥ, jₒ, mₒ], t2_abab [cᵥ, bᵥ, nₒ, iₒ]], [(1, [aᵥ, bᵥ, iₒ, jₒ]), (-1, [aᵥ, bᵥ, jₒ, iₒ])]⟩,
  -- line 1394: nmfe,lkcd,felk,dajm,cbni->abij
  ⟨1/4, [g_abab [nₒ, mₒ, fᵥ, eᵥ], l2_abab [lₒ, kₒ, cᵥ, dᵥ], t2_abab [fᵥ, eᵥ, lₒ, kₒ], t2_bbbb [dᵥ, aᵥ, jₒ, mₒ], t2_abab [cᵥ, bᵥ, nₒ, iₒ]], [(1, [aᵥ, bᵥ, iₒ, jₒ]), (-1, [aᵥ, bᵥ, jₒ, iₒ])]⟩,
  -- line 1398: nmef,kldc,efkl,dajm,cbin->abij
  ⟨1/4, [g_bbbb [nₒ, mₒ, eᵥ, fᵥ], l2_bbbb [kₒ, lₒ, dᵥ, cᵥ], t2_bbbb [eᵥ, fᵥ, kₒ, lₒ], t2_bbbb [dᵥ, aᵥ, jₒ, mₒ], t2_bbbb [cᵥ, bᵥ, iₒ, nₒ]], [(1, [aᵥ, bᵥ, iₒ, jₒ]), (-1, [aᵥ, bᵥ, jₒ, iₒ])]⟩,
  -- line 1402: mnef,kldc,eflj,dckm,abin->abij
  ⟨1/4, [g_abab [mₒ, nₒ, eᵥ, fᵥ], l2_aaaa [kₒ, lₒ, dᵥ, cᵥ], t2_abab [eᵥ, fᵥ, lₒ, jₒ], t2_aaaa [dᵥ, cᵥ, kₒ, mₒ], t2_bbbb [aᵥ, bᵥ, iₒ, nₒ]], [(1, [aᵥ, bᵥ, iₒ, jₒ]), (-1, [aᵥ, bᵥ, jₒ, iₒ])]⟩,
  -- line 1406: mnfe,kldc,felj,dckm,abin->abij
  ⟨1/4, [g_abab [mₒ, nₒ, fᵥ, eᵥ], l2_aaaa [kₒ, lₒ, dᵥ, cᵥ], t2_abab [fᵥ, eᵥ, lₒ, jₒ], t2_aaaa [dᵥ, cᵥ, kₒ, mₒ], t2_bbbb [aᵥ, bᵥ, iₒ, nₒ]], [(1, [aᵥ, bᵥ, iₒ, jₒ]), (-1, [aᵥ, bᵥ, jₒ, iₒ])]⟩,
  -- line 1410: nmef,kldc,efjl,dckm,abin->abij
  ⟨1/4, [g_bbbb [nₒ, mₒ, eᵥ, fᵥ], l2_abab [kₒ, lₒ, dᵥ, cᵥ], t2_bbbb [eᵥ, fᵥ, jₒ, lₒ], t2_abab [dᵥ, cᵥ, kₒ, mₒ], t2_bbbb [aᵥ, bᵥ, iₒ, nₒ]], [(1, [aᵥ, bᵥ, iₒ, jₒ]), (-1, [aᵥ, bᵥ, jₒ, iₒ])]⟩,
  -- line 1414: nmef,klcd,efjl,cdkm,abin->abij
  ⟨1/4, [g_bbbb [nₒ, mₒ, eᵥ, fᵥ], l2_abab [kₒ, lₒ, cᵥ, dᵥ], t2_bbbb [eᵥ, fᵥ, jₒ, lₒ], t2_abab [cᵥ, dᵥ, kₒ, mₒ], t2_bbbb [aᵥ, bᵥ, iₒ, nₒ]], [(1, [aᵥ, bᵥ, iₒ, jₒ]), (-1, [aᵥ, bᵥ, jₒ, iₒ])]⟩,
  -- line 1418: mnef,lkdc,eflj,dcmk,abin->abij
  ⟨1/4, [g_abab [mₒ, nₒ, eᵥ, fᵥ], l2_abab [lₒ, kₒ, dᵥ, cᵥ], t2_abab [eᵥ, fᵥ, lₒ, jₒ], t2_abab [dᵥ, cᵥ, mₒ, kₒ], t2_bbbb [aᵥ, bᵥ, iₒ, nₒ]], [(1, [aᵥ, bᵥ, iₒ, jₒ]), (-1, [aᵥ, bᵥ, jₒ, iₒ])]⟩,
  -- line 1422: mnfe,lkdc,felj,dcmk,abin->abij
  ⟨1/4, [g_abab [mₒ, nₒ, fᵥ, eᵥ], l2_abab [lₒ, kₒ, dᵥ, cᵥ], t2_abab [fᵥ, eᵥ, lₒ, jₒ], t2_abab [dᵥ, cᵥ, mₒ, kₒ], t2_bbbb [aᵥ, bᵥ, iₒ, nₒ]], [(1, [aᵥ, bᵥ, iₒ, jₒ]), (-1, [aᵥ, bᵥ, jₒ, iₒ])]⟩,
  -- line 1426: mnef,lkcd,eflj,cdmk,abin->abij
  ⟨1/4, [g_abab [mₒ, nₒ, eᵥ, fᵥ], l2_abab [lₒ, kₒ, cᵥ, dᵥ], t2_abab [eᵥ, fᵥ, lₒ, jₒ], t2_abab [cᵥ, dᵥ, mₒ, kₒ], t2_bbbb [aᵥ, bᵥ, iₒ, nₒ]], [(1, [aᵥ, bᵥ, iₒ, jₒ]), (-1, [aᵥ, bᵥ, jₒ, iₒ])]⟩,
  -- line 1430: mnfe,lkcd,felj,cdmk,abin->abij
  ⟨1/4, [g_abab [mₒ, nₒ, fᵥ, eᵥ], l2_abab [lₒ, kₒ, cᵥ, dᵥ], t2_abab [fᵥ, eᵥ, lₒ, jₒ], t2_abab [cᵥ, dᵥ, mₒ, kₒ], t2_bbbb [aᵥ, bᵥ, iₒ, nₒ]], [(1, [aᵥ, bᵥ, iₒ, jₒ]), (-1, [aᵥ, bᵥ, jₒ, iₒ])]⟩,
  -- line 1434: nmef,kldc,efjl,dckm,abin->abij
  ⟨1/4, [g_bbbb [nₒ, mₒ, eᵥ, fᵥ], l2_bbbb [kₒ, lₒ, dᵥ, cᵥ], t2_bbbb [eᵥ, fᵥ, jₒ, lₒ], t2_bbbb [dᵥ, cᵥ, kₒ, mₒ], t2_bbbb [aᵥ, bᵥ, iₒ, nₒ]], [(1, [aᵥ, bᵥ, iₒ, jₒ]), (-1, [aᵥ, bᵥ, jₒ, iₒ])]⟩,
  -- line 1438: mnef,lkdc,eflj,dcmi,abkn->abij
  ⟨-1/4, [g_abab [mₒ, nₒ, eᵥ, fᵥ], l2_abab [lₒ, kₒ, dᵥ, cᵥ], t2_abab [eᵥ, fᵥ, lₒ, jₒ], t2_abab [dᵥ, cᵥ, mₒ, iₒ], t2_bbbb [aᵥ, bᵥ, kₒ, nₒ]], [(1, [aᵥ, bᵥ, iₒ, jₒ]), (-1, [aᵥ, bᵥ, jₒ, iₒ])]⟩,
  -- line 1442: mnfe,lkdc,felj,dcmi,abkn->abij
  ⟨-1/4, [g_abab [mₒ, nₒ, fᵥ, eᵥ], l2_abab [lₒ, kₒ, dᵥ, cᵥ], t2_abab [fᵥ, eᵥ, lₒ, jₒ], t2_abab [dᵥ, cᵥ, mₒ, iₒ], t2_bbbb [aᵥ, bᵥ, kₒ, nₒ]], [(1, [aᵥ, bᵥ, iₒ, jₒ]), (-1, [aᵥ, bᵥ, jₒ, iₒ])]⟩,
  -- line 1446: mnef,lkcd,eflj,cdmi,abkn->abij
  ⟨-1/4, [g_abab [mₒ, nₒ, eᵥ, fᵥ], l2_abab [lₒ, kₒ, cᵥ, dᵥ], t2_abab [eᵥ, fᵥ, lₒ, jₒ], t2_abab [cᵥ, dᵥ, mₒ, iₒ], t2_bbbb [aᵥ, bᵥ, kₒ, nₒ]], [(1, [aᵥ, bᵥ, iₒ, jₒ]), (-1, [aᵥ, bᵥ, jₒ, iₒ])]⟩,
  -- line 1450: mnfe,lkcd,felj,cdmi,abkn->abij
  ⟨-1/4, [g_abab [mₒ, nₒ, fᵥ, eᵥ], l2_abab [lₒ, kₒ, cᵥ, dᵥ], t2_abab [fᵥ, eᵥ, lₒ, jₒ], t2_abab [cᵥ, dᵥ, mₒ, iₒ], t2_bbbb [aᵥ, bᵥ, kₒ, nₒ]], [(1, [aᵥ, bᵥ, iₒ, jₒ]), (-1, [aᵥ, bᵥ, jₒ, iₒ])]⟩,
  -- line 1454: nmef,kldc,efjl,dcim,abkn->abij
  ⟨-1/4, [g_bbbb [nₒ, mₒ, eᵥ, fᵥ], l2_bbbb [kₒ, lₒ, dᵥ, cᵥ], t2_bbbb [eᵥ, fᵥ, jₒ, lₒ], t2_bbbb [dᵥ, cᵥ, iₒ, mₒ], t2_bbbb [aᵥ, bᵥ, kₒ, nₒ]], [(1, [aᵥ, bᵥ, iₒ, jₒ]), (-1, [aᵥ, bᵥ, jₒ, iₒ])]⟩,
  -- line 1458: nmef,kldc,eflj,dakm,cbni->abij
  ⟨-1/2, [g_abab [nₒ, mₒ, eᵥ, fᵥ], l2_aaaa [kₒ, lₒ, dᵥ, cᵥ], t2_abab [eᵥ, fᵥ, lₒ, jₒ], t2_abab [dᵥ, aᵥ, kₒ, mₒ], t2_abab [cᵥ, bᵥ, nₒ, iₒ]], [(1, [aᵥ, bᵥ, iₒ, jₒ]), (-1, [aᵥ, bᵥ, jₒ, iₒ])]⟩,
  -- line 1462: nmfe,kldc,felj,dakm,cbni->abij
  ⟨-1/2, [g_abab [nₒ, mₒ, fᵥ, eᵥ], l2_aaaa [kₒ, lₒ, dᵥ, cᵥ], t2_abab [fᵥ, eᵥ, lₒ, jₒ], t2_abab [dᵥ, aᵥ, kₒ, mₒ], t2_abab [cᵥ, bᵥ, nₒ, iₒ]], [(1, [aᵥ, bᵥ, iₒ, jₒ]), (-1, [aᵥ, bᵥ, jₒ, iₒ])]⟩,
  -- line 1466: nmef,kldc,efjl,dakm,cbin->abij
  ⟨-1/2, [g_bbbb [nₒ, mₒ, eᵥ, fᵥ], l2_abab [kₒ, lₒ, dᵥ, cᵥ], t2_bbbb [eᵥ, fᵥ, jₒ, lₒ], t2_abab [dᵥ, aᵥ, kₒ, mₒ], t2_bbbb [cᵥ, bᵥ, iₒ, nₒ]], [(1, [aᵥ, bᵥ, iₒ, jₒ]), (-1, [aᵥ, bᵥ, jₒ, iₒ])]⟩,
  -- line 1470: mnef,lkdc,eflj,damk,cbin->abij
  ⟨-1/2, [g_abab [mₒ, nₒ, eᵥ, fᵥ], l2_abab [lₒ, kₒ, dᵥ, cᵥ], t2_abab [eᵥ, fᵥ, lₒ, jₒ], t2_abab [dᵥ, aᵥ, mₒ, kₒ], t2_bbbb [cᵥ, bᵥ, iₒ, nₒ]], [(1, [aᵥ, bᵥ, iₒ, jₒ]), (-1, [aᵥ, bᵥ, jₒ, iₒ])]⟩,
  -- line 1474: mnfe,lkdc,felj,damk,cbin->abij
  ⟨-1/2, [g_abab [mₒ, nₒ, fᵥ, eᵥ], l2_abab [lₒ, kₒ, dᵥ, cᵥ], t2_abab [fᵥ, eᵥ, lₒ, jₒ], t2_abab [dᵥ, aᵥ, mₒ, kₒ], t2_bbbb [cᵥ, bᵥ, iₒ, nₒ]], [(1, [aᵥ, bᵥ, iₒ, jₒ]), (-1, [aᵥ, bᵥ, jₒ, iₒ])]⟩,
  -- line 1478: nmef,lkcd,eflj,dakm,cbni->abij
  ⟨-1/2, [g_abab [nₒ, mₒ, eᵥ, fᵥ], l2_abab [lₒ, kₒ, cᵥ, dᵥ], t2_abab [eᵥ, fᵥ, lₒ, jₒ], t2_bbbb [dᵥ, aᵥ, kₒ, mₒ], t2_abab [cᵥ, bᵥ, nₒ, iₒ]], [(1, [aᵥ, bᵥ, iₒ, jₒ]), (-1, [aᵥ, bᵥ, jₒ, iₒ])]⟩,
  -- line 1482: nmfe,lkcd,felj,dakm,cbni->abij
  ⟨-1/2, [g_abab [nₒ, mₒ, fᵥ, eᵥ], l2_abab [lₒ, kₒ, cᵥ, dᵥ], t2_abab [fᵥ, eᵥ, lₒ, jₒ], t2_bbbb [dᵥ, aᵥ, kₒ, mₒ], t2_abab [cᵥ, bᵥ, nₒ, iₒ]], [(1, [aᵥ, bᵥ, iₒ, jₒ]), (-1, [aᵥ, bᵥ, jₒ, iₒ])]⟩
  ]

/-- Part 1 of `residQf2_bbbb`. -/
def residQf2_bbbb_1 : Prog := [
  -- line 1486: nmef,kldc,efjl,dakm,cbin->abij
  ⟨-1/2, [g_bbbb [nₒ, mₒ, eᵥ, fᵥ], l2_bbbb [kₒ, lₒ, dᵥ, cᵥ], t2_bbbb [eᵥ, fᵥ, jₒ, lₒ], t2_bbbb [dᵥ, aᵥ, kₒ, mₒ], t2_bbbb [cᵥ, bᵥ, iₒ, nₒ]], [(1, [aᵥ, bᵥ, iₒ, jₒ]), (-1, [aᵥ, bᵥ, jₒ, iₒ])]⟩,
  -- line 1490: mnef,kldc,eflj,dami,cbkn->abij
  ⟨-1/2, [g_abab [mₒ, nₒ, eᵥ, fᵥ], l2_aaaa [kₒ, lₒ, dᵥ, cᵥ], t2_abab [eᵥ, fᵥ, lₒ, jₒ], t2_abab [dᵥ, aᵥ, mₒ, iₒ], t2_abab [cᵥ, bᵥ, kₒ, nₒ]], [(1, [aᵥ, bᵥ, iₒ, jₒ]), (-1, [aᵥ, bᵥ, jₒ, iₒ])]⟩,
  -- line 1494: mnfe,kldc,felj,dami,cbkn->abij
  ⟨-1/2, [g_abab [mₒ, nₒ, fᵥ, eᵥ], l2_aaaa [kₒ, lₒ, dᵥ, cᵥ], t2_abab [fᵥ, eᵥ, lₒ, jₒ], t2_abab [dᵥ, aᵥ, mₒ, iₒ], t2_abab [cᵥ, bᵥ, kₒ, nₒ]], [(1, [aᵥ, bᵥ, iₒ, jₒ]), (-1, [aᵥ, bᵥ, jₒ, iₒ])]⟩,
  -- line 1498: nmef,klcd,efjl,daim,cbkn->abij
  ⟨-1/2, [g_bbbb [nₒ, mₒ, eᵥ, fᵥ], l2_abab [kₒ, lₒ, cᵥ, dᵥ], t2_bbbb [eᵥ, fᵥ, jₒ, lₒ], t2_bbbb [dᵥ, aᵥ, iₒ, mₒ], t2_abab [cᵥ, bᵥ, kₒ, nₒ]], [(1, [aᵥ, bᵥ, iₒ, jₒ]), (-1, [aᵥ, bᵥ, jₒ, iₒ])]⟩,
  -- line 1502: mnef,lkdc,eflj,dami,cbkn->abij
  ⟨1/2, [g_abab [mₒ, nₒ, eᵥ, fᵥ], l2_abab [lₒ, kₒ, dᵥ, cᵥ], t2_abab [eᵥ, fᵥ, lₒ, jₒ], t2_abab [dᵥ, aᵥ, mₒ, iₒ], t2_bbbb [cᵥ, bᵥ, kₒ, nₒ]], [(1, [aᵥ, bᵥ, iₒ, jₒ]), (-1, [aᵥ, bᵥ, jₒ, iₒ])]⟩,
  -- line 1506: mnfe,lkdc,felj,dami,cbkn->abij
  ⟨1/2, [g_abab [mₒ, nₒ, fᵥ, eᵥ], l2_abab [lₒ, kₒ, dᵥ, cᵥ], t2_abab [fᵥ, eᵥ, lₒ, jₒ], t2_abab [dᵥ, aᵥ, mₒ, iₒ], t2_bbbb [cᵥ, bᵥ, kₒ, nₒ]], [(1, [aᵥ, bᵥ, iₒ, jₒ]), (-1, [aᵥ, bᵥ, jₒ, iₒ])]⟩,
  -- line 1510: nmef,lkcd,eflj,daim,cbnk->abij
  ⟨1/2, [g_abab [nₒ, mₒ, eᵥ, fᵥ], l2_abab [lₒ, kₒ, cᵥ, dᵥ], t2_abab [eᵥ, fᵥ, lₒ, jₒ], t2_bbbb [dᵥ, aᵥ, iₒ, mₒ], t2_abab [cᵥ, bᵥ, nₒ, kₒ]], [(1, [aᵥ, bᵥ, iₒ, jₒ]), (-1, [aᵥ, bᵥ, jₒ, iₒ])]⟩,
  -- line 1514: nmfe,lkcd,felj,daim,cbnk->abij
  ⟨1/2, [g_abab [nₒ, mₒ, fᵥ, eᵥ], l2_abab [lₒ, kₒ, cᵥ, dᵥ], t2_abab [fᵥ, eᵥ, lₒ, jₒ], t2_bbbb [dᵥ, aᵥ, iₒ, mₒ], t2_abab [cᵥ, bᵥ, nₒ, kₒ]], [(1, [aᵥ, bᵥ, iₒ, jₒ]), (-1, [aᵥ, bᵥ, jₒ, iₒ])]⟩,
  -- line 1518: nmef,kldc,efjl,daim,cbkn->abij
  ⟨1/2, [g_bbbb [nₒ, mₒ, eᵥ, fᵥ], l2_bbbb [kₒ, lₒ, dᵥ, cᵥ], t2_bbbb [eᵥ, fᵥ, jₒ, lₒ], t2_bbbb [dᵥ, aᵥ, iₒ, mₒ], t2_bbbb [cᵥ, bᵥ, kₒ, nₒ]], [(1, [aᵥ, bᵥ, iₒ, jₒ]), (-1, [aᵥ, bᵥ, jₒ, iₒ])]⟩,
  -- line 1522: nmef,lkdc,efij,dclm,abkn->abij
  ⟨1/4, [g_bbbb [nₒ, mₒ, eᵥ, fᵥ], l2_abab [lₒ, kₒ, dᵥ, cᵥ], t2_bbbb [eᵥ, fᵥ, iₒ, jₒ], t2_abab [dᵥ, cᵥ, lₒ, mₒ], t2_bbbb [aᵥ, bᵥ, kₒ, nₒ]], [(1, [aᵥ, bᵥ, iₒ, jₒ])]⟩,
  -- line 1525: nmef,lkcd,efij,cdlm,abkn->abij
  ⟨1/4, [g_bbbb [nₒ, mₒ, eᵥ, fᵥ], l2_abab [lₒ, kₒ, cᵥ, dᵥ], t2_bbbb [eᵥ, fᵥ, iₒ, jₒ], t2_abab [cᵥ, dᵥ, lₒ, mₒ], t2_bbbb [aᵥ, bᵥ, kₒ, nₒ]], [(1, [aᵥ, bᵥ, iₒ, jₒ])]⟩,
  -- line 1528: nmef,kldc,efij,dclm,abkn->abij
  ⟨-1/4, [g_bbbb [nₒ, mₒ, eᵥ, fᵥ], l2_bbbb [kₒ, lₒ, dᵥ, cᵥ], t2_bbbb [eᵥ, fᵥ, iₒ, jₒ], t2_bbbb [dᵥ, cᵥ, lₒ, mₒ], t2_bbbb [aᵥ, bᵥ, kₒ, nₒ]], [(1, [aᵥ, bᵥ, iₒ, jₒ])]⟩,
  -- line 1531: nmef,kldc,efij,dalm,cbkn->abij
  ⟨1/4, [g_bbbb [nₒ, mₒ, eᵥ, fᵥ], l2_aaaa [kₒ, lₒ, dᵥ, cᵥ], t2_bbbb [eᵥ, fᵥ, iₒ, jₒ], t2_abab [dᵥ, aᵥ, lₒ, mₒ], t2_abab [cᵥ, bᵥ, kₒ, nₒ]], [(1, [aᵥ, bᵥ, iₒ, jₒ]), (-1, [bᵥ, aᵥ, iₒ, jₒ])]⟩,
  -- line 1535: nmef,klcd,efij,dalm,cbkn->abij
  ⟨-1/4, [g_bbbb [nₒ, mₒ, eᵥ, fᵥ], l2_abab [kₒ, lₒ, cᵥ, dᵥ], t2_bbbb [eᵥ, fᵥ, iₒ, jₒ], t2_bbbb [dᵥ, aᵥ, lₒ, mₒ], t2_abab [cᵥ, bᵥ, kₒ, nₒ]], [(1, [aᵥ, bᵥ, iₒ, jₒ]), (-1, [bᵥ, aᵥ, iₒ, jₒ])]⟩,
  -- line 1539: nmef,lkdc,efij,dalm,cbkn->abij
  ⟨-1/4, [g_bbbb [nₒ, mₒ, eᵥ, fᵥ], l2_abab [lₒ, kₒ, dᵥ, cᵥ], t2_bbbb [eᵥ, fᵥ, iₒ, jₒ], t2_abab [dᵥ, aᵥ, lₒ, mₒ], t2_bbbb [cᵥ, bᵥ, kₒ, nₒ]], [(1, [aᵥ, bᵥ, iₒ, jₒ]), (-1, [bᵥ, aᵥ, iₒ, jₒ])]⟩,
  -- line 1543: nmef,kldc,efij,dalm,cbkn->abij
  ⟨1/4, [g_bbbb [nₒ, mₒ, eᵥ, fᵥ], l2_bbbb [kₒ, lₒ, dᵥ, cᵥ], t2_bbbb [eᵥ, fᵥ, iₒ, jₒ], t2_bbbb [dᵥ, aᵥ, lₒ, mₒ], t2_bbbb [cᵥ, bᵥ, kₒ, nₒ]], [(1, [aᵥ, bᵥ, iₒ, jₒ]), (-1, [bᵥ, aᵥ, iₒ, jₒ])]⟩,
  -- line 1547: mnef,kldc,edlm,cfkj,abin->abij
  ⟨-1/2, [g_abab [mₒ, nₒ, eᵥ, fᵥ], l2_aaaa [kₒ, lₒ, dᵥ, cᵥ], t2_aaaa [eᵥ, dᵥ, lₒ, mₒ], t2_abab [cᵥ, fᵥ, kₒ, jₒ], t2_bbbb [aᵥ, bᵥ, iₒ, nₒ]], [(1, [aᵥ, bᵥ, iₒ, jₒ]), (-1, [aᵥ, bᵥ, jₒ, iₒ])]⟩,
  -- line 1551: nmef,kldc,delm,cfkj,abin->abij
  ⟨-1/2, [g_bbbb [nₒ, mₒ, eᵥ, fᵥ], l2_aaaa [kₒ, lₒ, dᵥ, cᵥ], t2_abab [dᵥ, eᵥ, lₒ, mₒ], t2_abab [cᵥ, fᵥ, kₒ, jₒ], t2_bbbb [aᵥ, bᵥ, iₒ, nₒ]], [(1, [aᵥ, bᵥ, iₒ, jₒ]), (-1, [aᵥ, bᵥ, jₒ, iₒ])]⟩,
  -- line 1555: mnfe,kldc,deml,fckj,abin->abij
  ⟨-1/2, [g_abab [mₒ, nₒ, fᵥ, eᵥ], l2_abab [kₒ, lₒ, dᵥ, cᵥ], t2_abab [dᵥ, eᵥ, mₒ, lₒ], t2_abab [fᵥ, cᵥ, kₒ, jₒ], t2_bbbb [aᵥ, bᵥ, iₒ, nₒ]], [(1, [aᵥ, bᵥ, iₒ, jₒ]), (-1, [aᵥ, bᵥ, jₒ, iₒ])]⟩,
  -- line 1559: mnef,klcd,edml,cfkj,abin->abij
  ⟨-1/2, [g_abab [mₒ, nₒ, eᵥ, fᵥ], l2_abab [kₒ, lₒ, cᵥ, dᵥ], t2_abab [eᵥ, dᵥ, mₒ, lₒ], t2_abab [cᵥ, fᵥ, kₒ, jₒ], t2_bbbb [aᵥ, bᵥ, iₒ, nₒ]], [(1, [aᵥ, bᵥ, iₒ, jₒ]), (-1, [aᵥ, bᵥ, jₒ, iₒ])]⟩,
  -- line 1563: nmef,klcd,edlm,cfkj,abin->abij
  ⟨-1/2, [g_bbbb [nₒ, mₒ, eᵥ, fᵥ], l2_abab [kₒ, lₒ, cᵥ, dᵥ], t2_bbbb [eᵥ, dᵥ, lₒ, mₒ], t2_abab [cᵥ, fᵥ, kₒ, jₒ], t2_bbbb [aᵥ, bᵥ, iₒ, nₒ]], [(1, [aᵥ, bᵥ, iₒ, jₒ]), (-1, [aᵥ, bᵥ, jₒ, iₒ])]⟩,
  -- line 1567: mnef,lkdc,edlm,fcjk,abin->abij
  ⟨1/2, [g_abab [mₒ, nₒ, eᵥ, fᵥ], l2_abab [lₒ, kₒ, dᵥ, cᵥ], t2_aaaa [eᵥ, dᵥ, lₒ, mₒ], t2_bbbb [fᵥ, cᵥ, jₒ, kₒ], t2_bbbb [aᵥ, bᵥ, iₒ, nₒ]], [(1, [aᵥ, bᵥ, iₒ, jₒ]), (-1, [aᵥ, bᵥ, jₒ, iₒ])]⟩,
  -- line 1571: nmef,lkdc,delm,fcjk,abin->abij
  ⟨1/2, [g_bbbb [nₒ, mₒ, eᵥ, fᵥ], l2_abab [lₒ, kₒ, dᵥ, cᵥ], t2_abab [dᵥ, eᵥ, lₒ, mₒ], t2_bbbb [fᵥ, cᵥ, jₒ, kₒ], t2_bbbb [aᵥ, bᵥ, iₒ, nₒ]], [(1, [aᵥ, bᵥ, iₒ, jₒ]), (-1, [aᵥ, bᵥ, jₒ, iₒ])]⟩,
  -- line 1575: mnef,kldc,edml,fcjk,abin->abij
  ⟨1/2, [g_abab [mₒ, nₒ, eᵥ, fᵥ], l2_bbbb [kₒ, lₒ, dᵥ, cᵥ], t2_abab [eᵥ, dᵥ, mₒ, lₒ], t2_bbbb [fᵥ, cᵥ, jₒ, kₒ], t2_bbbb [aᵥ, bᵥ, iₒ, nₒ]], [(1, [aᵥ, bᵥ, iₒ, jₒ]), (-1, [aᵥ, bᵥ, jₒ, iₒ])]⟩,
  -- line 1579: nmef,kldc,edlm,fcjk,abin->abij
  ⟨1/2, [g_bbbb [nₒ, mₒ, eᵥ, fᵥ], l2_bbbb [kₒ, lₒ, dᵥ, cᵥ], t2_bbbb [eᵥ, dᵥ, lₒ, mₒ], t2_bbbb [fᵥ, cᵥ, jₒ, kₒ], t2_bbbb [aᵥ, bᵥ, iₒ, nₒ]], [(1, [aᵥ, bᵥ, iₒ, jₒ]), (-1, [aᵥ, bᵥ, jₒ, iₒ])]⟩,
  -- line 1583: mnef,lkdc,edlm,fcij,abkn->abij
  ⟨1, [g_abab [mₒ, nₒ, eᵥ, fᵥ], l2_abab [lₒ, kₒ, dᵥ, cᵥ], t2_aaaa [eᵥ, dᵥ, lₒ, mₒ], t2_bbbb [fᵥ, cᵥ, iₒ, jₒ], t2_bbbb [aᵥ, bᵥ, kₒ, nₒ]], [(1, [aᵥ, bᵥ, iₒ, jₒ])]⟩,
  -- line 1586: nmef,lkdc,delm,fcij,abkn->abij
  ⟨1, [g_bbbb [nₒ, mₒ, eᵥ, fᵥ], l2_abab [lₒ, kₒ, dᵥ, cᵥ], t2_abab [dᵥ, eᵥ, lₒ, mₒ], t2_bbbb [fᵥ, cᵥ, iₒ, jₒ], t2_bbbb [aᵥ, bᵥ, kₒ, nₒ]], [(1, [aᵥ, bᵥ, iₒ, jₒ])]⟩,
  -- line 1589: mnef,kldc,edml,fcij,abkn->abij
  ⟨1, [g_abab [mₒ, nₒ, eᵥ, fᵥ], l2_bbbb [kₒ, lₒ, dᵥ, cᵥ], t2_abab [eᵥ, dᵥ, mₒ, lₒ], t2_bbbb [fᵥ, cᵥ, iₒ, jₒ], t2_bbbb [aᵥ, bᵥ, kₒ, nₒ]], [(1, [aᵥ, bᵥ, iₒ, jₒ])]⟩,
  -- line 1592: nmef,kldc,edlm,fcij,abkn->abij
  ⟨1, [g_bbbb [nₒ, mₒ, eᵥ, fᵥ], l2_bbbb [kₒ, lₒ, dᵥ, cᵥ], t2_bbbb [eᵥ, dᵥ, lₒ, mₒ], t2_bbbb [fᵥ, cᵥ, iₒ, jₒ], t2_bbbb [aᵥ, bᵥ, kₒ, nₒ]], [(1, [aᵥ, bᵥ, iₒ, jₒ])]⟩,
  -- line 1595: nmef,kldc,edlm,fakj,cbni->abij
  ⟨-3/4, [g_aaaa [nₒ, mₒ, eᵥ, fᵥ], l2_aaaa [kₒ, lₒ, dᵥ, cᵥ], t2_aaaa [eᵥ, dᵥ, lₒ, mₒ], t2_abab [fᵥ, aᵥ, kₒ, jₒ], t2_abab [cᵥ, bᵥ, nₒ, iₒ]], [(1, [aᵥ, bᵥ, iₒ, jₒ]), (-1, [aᵥ, bᵥ, jₒ, iₒ]), (-1, [bᵥ, aᵥ, iₒ, jₒ]), (1, [bᵥ, aᵥ, jₒ, iₒ])]⟩,
  -- line 1599: nmfe,kldc,delm,fakj,cbni->abij
  ⟨-3/4, [g_abab [nₒ, mₒ, fᵥ, eᵥ], l2_aaaa [kₒ, lₒ, dᵥ, cᵥ], t2_abab [dᵥ, eᵥ, lₒ, mₒ], t2_abab [fᵥ, aᵥ, kₒ, jₒ], t2_abab [cᵥ, bᵥ, nₒ, iₒ]], [(1, [aᵥ, bᵥ, iₒ, jₒ]), (-1, [aᵥ, bᵥ, jₒ, iₒ]), (-1, [bᵥ, aᵥ, iₒ, jₒ]), (1, [bᵥ, aᵥ, jₒ, iₒ])]⟩,
  -- line 1603: mnfe,kldc,deml,fakj,cbin->abij
  ⟨3/4, [g_abab [mₒ, nₒ, fᵥ, eᵥ], l2_abab [kₒ, lₒ, dᵥ, cᵥ], t2_abab [dᵥ, eᵥ, mₒ, lₒ], t2_abab [fᵥ, aᵥ, kₒ, jₒ], t2_bbbb [cᵥ, bᵥ, iₒ, nₒ]], [(1, [aᵥ, bᵥ, iₒ, jₒ]), (-1, [aᵥ, bᵥ, jₒ, iₒ]), (-1, [bᵥ, aᵥ, iₒ, jₒ]), (1, [bᵥ, aᵥ, jₒ, iₒ])]⟩,
  -- line 1607: nmef,klcd,edml,fakj,cbni->abij
  ⟨-3/4, [g_aaaa [nₒ, mₒ, eᵥ, fᵥ], l2_abab [kₒ, lₒ, cᵥ, dᵥ], t2_abab [eᵥ, dᵥ, mₒ, lₒ], t2_abab [fᵥ, aᵥ, kₒ, jₒ], t2_abab [cᵥ, bᵥ, nₒ, iₒ]], [(1, [aᵥ, bᵥ, iₒ, jₒ]), (-1, [aᵥ, bᵥ, jₒ, iₒ]), (-1, [bᵥ, aᵥ, iₒ, jₒ]), (1, [bᵥ, aᵥ, jₒ, iₒ])]⟩,
  -- line 1611: nmfe,klcd,edlm,fakj,cbni->abij
  ⟨-3/4, [g_abab [nₒ, mₒ, fᵥ, eᵥ], l2_abab [kₒ, lₒ, cᵥ, dᵥ], t2_bbbb [eᵥ, dᵥ, lₒ, mₒ], t2_abab [fᵥ, aᵥ, kₒ, jₒ], t2_abab [cᵥ, bᵥ, nₒ, iₒ]], [(1, [aᵥ, bᵥ, iₒ, jₒ]), (-1, [aᵥ, bᵥ, jₒ, iₒ]), (-1, [bᵥ, aᵥ, iₒ, jₒ]), (1, [bᵥ, aᵥ, jₒ, iₒ])]⟩,
  -- line 1615: mnef,lkdc,edlm,fajk,cbin->abij
  ⟨-3/4, [g_abab [mₒ, nₒ, eᵥ, fᵥ], l2_abab [lₒ, kₒ, dᵥ, cᵥ], t2_aaaa [eᵥ, dᵥ, lₒ, mₒ], t2_bbbb [fᵥ, aᵥ, jₒ, kₒ], t2_bbbb [cᵥ, bᵥ, iₒ, nₒ]], [(1, [aᵥ, bᵥ, iₒ, jₒ]), (-1, [aᵥ, bᵥ, jₒ, iₒ]), (-1, [bᵥ, aᵥ, iₒ, jₒ]), (1, [bᵥ, aᵥ, jₒ, iₒ])]⟩,
  -- line 1619: nmef,lkdc,delm,fajk,cbin->abij
  ⟨-3/4, [g_bbbb [nₒ, mₒ, eᵥ, fᵥ], l2_abab [lₒ, kₒ, dᵥ, cᵥ], t2_abab [dᵥ, eᵥ, lₒ, mₒ], t2_bbbb [fᵥ, aᵥ, jₒ, kₒ], t2_bbbb [cᵥ, bᵥ, iₒ, nₒ]], [(1, [aᵥ, bᵥ, iₒ, jₒ]), (-1, [aᵥ, bᵥ, jₒ, iₒ]), (-1, [bᵥ, aᵥ, iₒ, jₒ]), (1, [bᵥ, aᵥ, jₒ, iₒ])]⟩,
  -- line 1623: nmef,lkcd,edlm,fajk,cbni->abij
  ⟨3/4, [g_abab [nₒ, mₒ, eᵥ, fᵥ], l2_abab [lₒ, kₒ, cᵥ, dᵥ], t2_abab [eᵥ, dᵥ, lₒ, mₒ], t2_bbbb [fᵥ, aᵥ, jₒ, kₒ], t2_abab [cᵥ, bᵥ, nₒ, iₒ]], [(1, [aᵥ, bᵥ, iₒ, jₒ]), (-1, [aᵥ, bᵥ, jₒ, iₒ]), (-1, [bᵥ, aᵥ, iₒ, jₒ]), (1, [bᵥ, aᵥ, jₒ, iₒ])]⟩,
  -- line 1627: mnef,kldc,edml,fajk,cbin->abij
  ⟨-3/4, [g_abab [mₒ, nₒ, eᵥ, fᵥ], l2_bbbb [kₒ, lₒ, dᵥ, cᵥ], t2_abab [eᵥ, dᵥ, mₒ, lₒ], t2_bbbb [fᵥ, aᵥ, jₒ, kₒ], t2_bbbb [cᵥ, bᵥ, iₒ, nₒ]], [(1, [aᵥ, bᵥ, iₒ, jₒ]), (-1, [aᵥ, bᵥ, jₒ, iₒ]), (-1, [bᵥ, aᵥ, iₒ, jₒ]), (1, [bᵥ, aᵥ, jₒ, iₒ])]⟩,
  -- line 1631: nmef,kldc,edlm,fajk,cbin->abij
  ⟨-3/4, [g_bbbb [nₒ, mₒ, eᵥ, fᵥ], l2_bbbb [kₒ, lₒ, dᵥ, cᵥ], t2_bbbb [eᵥ, dᵥ, lₒ, mₒ], t2_bbbb [fᵥ, aᵥ, jₒ, kₒ], t2_bbbb [cᵥ, bᵥ, iₒ, nₒ]], [(1, [aᵥ, bᵥ, iₒ, jₒ]), (-1, [aᵥ, bᵥ, jₒ, iₒ]), (-1, [bᵥ, aᵥ, iₒ, jₒ]), (1, [bᵥ, aᵥ, jₒ, iₒ])]⟩,
  -- line 1635: mnef,kldc,edlm,faij,cbkn->abij
  ⟨1, [g_abab [mₒ, nₒ, eᵥ, fᵥ], l2_aaaa [kₒ, lₒ, dᵥ, cᵥ], t2_aaaa [eᵥ, dᵥ, lₒ, mₒ], t2_bbbb [fᵥ, aᵥ, iₒ, jₒ], t2_abab [cᵥ, bᵥ, kₒ, nₒ]], [(1, [aᵥ, bᵥ, iₒ, jₒ]), (-1, [bᵥ, aᵥ, iₒ, jₒ])]⟩
  ]

/-- Part 2 of `residQf2_bbbb`. -/
def residQf2_bbbb_2 : Prog := [
  -- line 1639: nmef,kldc,delm,faij,cbkn->abij
  ⟨1, [g_bbbb [nₒ, mₒ, eᵥ, fᵥ], l2_aaaa [kₒ, lₒ, dᵥ, cᵥ], t2_abab [dᵥ, eᵥ, lₒ, mₒ], t2_bbbb [fᵥ, aᵥ, iₒ, jₒ], t2_abab [cᵥ, bᵥ, kₒ, nₒ]], [(1, [aᵥ, bᵥ, iₒ, jₒ]), (-1, [bᵥ, aᵥ, iₒ, jₒ])]⟩,
  -- line 1643: mnef,klcd,edml,faij,cbkn->abij
  ⟨1, [g_abab [mₒ, nₒ, eᵥ, fᵥ], l2_abab [kₒ, lₒ, cᵥ, dᵥ], t2_abab [eᵥ, dᵥ, mₒ, lₒ], t2_bbbb [fᵥ, aᵥ, iₒ, jₒ], t2_abab [cᵥ, bᵥ, kₒ, nₒ]], [(1, [aᵥ, bᵥ, iₒ, jₒ]), (-1, [bᵥ, aᵥ, iₒ, jₒ])]⟩,
  -- line 1647: nmef,klcd,edlm,faij,cbkn->abij
  ⟨1, [g_bbbb [nₒ, mₒ, eᵥ, fᵥ], l2_abab [kₒ, lₒ, cᵥ, dᵥ], t2_bbbb [eᵥ, dᵥ, lₒ, mₒ], t2_bbbb [fᵥ, aᵥ, iₒ, jₒ], t2_abab [cᵥ, bᵥ, kₒ, nₒ]], [(1, [aᵥ, bᵥ, iₒ, jₒ]), (-1, [bᵥ, aᵥ, iₒ, jₒ])]⟩,
  -- line 1651: mnef,lkdc,edlm,faij,cbkn->abij
  ⟨-1, [g_abab [mₒ, nₒ, eᵥ, fᵥ], l2_abab [lₒ, kₒ, dᵥ, cᵥ], t2_aaaa [eᵥ, dᵥ, lₒ, mₒ], t2_bbbb [fᵥ, aᵥ, iₒ, jₒ], t2_bbbb [cᵥ, bᵥ, kₒ, nₒ]], [(1, [aᵥ, bᵥ, iₒ, jₒ]), (-1, [bᵥ, aᵥ, iₒ, jₒ])]⟩,
  -- line 1655: nmef,lkdc,delm,faij,cbkn->abij
  ⟨-1, [g_bbbb [nₒ, mₒ, eᵥ, fᵥ], l2_abab [lₒ, kₒ, dᵥ, cᵥ], t2_abab [dᵥ, eᵥ, lₒ, mₒ], t2_bbbb [fᵥ, aᵥ, iₒ, jₒ], t2_bbbb [cᵥ, bᵥ, kₒ, nₒ]], [(1, [aᵥ, bᵥ, iₒ, jₒ]), (-1, [bᵥ, aᵥ, iₒ, jₒ])]⟩,
  -- line 1659: nmef,lkcd,edlm,faij,cbnk->abij
  ⟨1, [g_abab [nₒ, mₒ, eᵥ, fᵥ], l2_abab [lₒ, kₒ, cᵥ, dᵥ], t2_abab [eᵥ, dᵥ, lₒ, mₒ], t2_bbbb [fᵥ, aᵥ, iₒ, jₒ], t2_abab [cᵥ, bᵥ, nₒ, kₒ]], [(1, [aᵥ, bᵥ, iₒ, jₒ]), (-1, [bᵥ, aᵥ, iₒ, jₒ])]⟩,
  -- line 1663: mnef,kldc,edml,faij,cbkn->abij
  ⟨-1, [g_abab [mₒ, nₒ, eᵥ, fᵥ], l2_bbbb [kₒ, lₒ, dᵥ, cᵥ], t2_abab [eᵥ, dᵥ, mₒ, lₒ], t2_bbbb [fᵥ, aᵥ, iₒ, jₒ], t2_bbbb [cᵥ, bᵥ, kₒ, nₒ]], [(1, [aᵥ, bᵥ, iₒ, jₒ]), (-1, [bᵥ, aᵥ, iₒ, jₒ])]⟩,
  -- line 1667: nmef,kldc,edlm,faij,cbkn->abij
  ⟨-1, [g_bbbb [nₒ, mₒ, eᵥ, fᵥ], l2_bbbb [kₒ, lₒ, dᵥ, cᵥ], t2_bbbb [eᵥ, dᵥ, lₒ, mₒ], t2_bbbb [fᵥ, aᵥ, iₒ, jₒ], t2_bbbb [cᵥ, bᵥ, kₒ, nₒ]], [(1, [aᵥ, bᵥ, iₒ, jₒ]), (-1, [bᵥ, aᵥ, iₒ, jₒ])]⟩,
  -- line 1671: mnfe,kldc,demj,fckl,abin->abij
  ⟨1/2, [g_abab [mₒ, nₒ, fᵥ, eᵥ], l2_aaaa [kₒ, lₒ, dᵥ, cᵥ], t2_abab [dᵥ, eᵥ, mₒ, jₒ], t2_aaaa [fᵥ, cᵥ, kₒ, lₒ], t2_bbbb [aᵥ, bᵥ, iₒ, nₒ]], [(1, [aᵥ, bᵥ, iₒ, jₒ]), (-1, [aᵥ, bᵥ, jₒ, iₒ])]⟩,
  -- line 1675: mnfe,kldc,demj,fckl,abin->abij
  ⟨1/2, [g_abab [mₒ, nₒ, fᵥ, eᵥ], l2_abab [kₒ, lₒ, dᵥ, cᵥ], t2_abab [dᵥ, eᵥ, mₒ, jₒ], t2_abab [fᵥ, cᵥ, kₒ, lₒ], t2_bbbb [aᵥ, bᵥ, iₒ, nₒ]], [(1, [aᵥ, bᵥ, iₒ, jₒ]), (-1, [aᵥ, bᵥ, jₒ, iₒ])]⟩,
  -- line 1679: mnef,klcd,edmj,cfkl,abin->abij
  ⟨1/2, [g_abab [mₒ, nₒ, eᵥ, fᵥ], l2_abab [kₒ, lₒ, cᵥ, dᵥ], t2_abab [eᵥ, dᵥ, mₒ, jₒ], t2_abab [cᵥ, fᵥ, kₒ, lₒ], t2_bbbb [aᵥ, bᵥ, iₒ, nₒ]], [(1, [aᵥ, bᵥ, iₒ, jₒ]), (-1, [aᵥ, bᵥ, jₒ, iₒ])]⟩,
  -- line 1683: nmef,klcd,edjm,cfkl,abin->abij
  ⟨1/2, [g_bbbb [nₒ, mₒ, eᵥ, fᵥ], l2_abab [kₒ, lₒ, cᵥ, dᵥ], t2_bbbb [eᵥ, dᵥ, jₒ, mₒ], t2_abab [cᵥ, fᵥ, kₒ, lₒ], t2_bbbb [aᵥ, bᵥ, iₒ, nₒ]], [(1, [aᵥ, bᵥ, iₒ, jₒ]), (-1, [aᵥ, bᵥ, jₒ, iₒ])]⟩,
  -- line 1687: mnfe,lkdc,demj,fclk,abin->abij
  ⟨1/2, [g_abab [mₒ, nₒ, fᵥ, eᵥ], l2_abab [lₒ, kₒ, dᵥ, cᵥ], t2_abab [dᵥ, eᵥ, mₒ, jₒ], t2_abab [fᵥ, cᵥ, lₒ, kₒ], t2_bbbb [aᵥ, bᵥ, iₒ, nₒ]], [(1, [aᵥ, bᵥ, iₒ, jₒ]), (-1, [aᵥ, bᵥ, jₒ, iₒ])]⟩,
  -- line 1691: mnef,lkcd,edmj,cflk,abin->abij
  ⟨1/2, [g_abab [mₒ, nₒ, eᵥ, fᵥ], l2_abab [lₒ, kₒ, cᵥ, dᵥ], t2_abab [eᵥ, dᵥ, mₒ, jₒ], t2_abab [cᵥ, fᵥ, lₒ, kₒ], t2_bbbb [aᵥ, bᵥ, iₒ, nₒ]], [(1, [aᵥ, bᵥ, iₒ, jₒ]), (-1, [aᵥ, bᵥ, jₒ, iₒ])]⟩,
  -- line 1695: nmef,lkcd,edjm,cflk,abin->abij
  ⟨1/2, [g_bbbb [nₒ, mₒ, eᵥ, fᵥ], l2_abab [lₒ, kₒ, cᵥ, dᵥ], t2_bbbb [eᵥ, dᵥ, jₒ, mₒ], t2_abab [cᵥ, fᵥ, lₒ, kₒ], t2_bbbb [aᵥ, bᵥ, iₒ, nₒ]], [(1, [aᵥ, bᵥ, iₒ, jₒ]), (-1, [aᵥ, bᵥ, jₒ, iₒ])]⟩,
  -- line 1699: mnef,kldc,edmj,fckl,abin->abij
  ⟨1/2, [g_abab [mₒ, nₒ, eᵥ, fᵥ], l2_bbbb [kₒ, lₒ, dᵥ, cᵥ], t2_abab [eᵥ, dᵥ, mₒ, jₒ], t2_bbbb [fᵥ, cᵥ, kₒ, lₒ], t2_bbbb [aᵥ, bᵥ, iₒ, nₒ]], [(1, [aᵥ, bᵥ, iₒ, jₒ]), (-1, [aᵥ, bᵥ, jₒ, iₒ])]⟩,
  -- line 1703: nmef,kldc,edjm,fckl,abin->abij
  ⟨1/2, [g_bbbb [nₒ, mₒ, eᵥ, fᵥ], l2_bbbb [kₒ, lₒ, dᵥ, cᵥ], t2_bbbb [eᵥ, dᵥ, jₒ, mₒ], t2_bbbb [fᵥ, cᵥ, kₒ, lₒ], t2_bbbb [aᵥ, bᵥ, iₒ, nₒ]], [(1, [aᵥ, bᵥ, iₒ, jₒ]), (-1, [aᵥ, bᵥ, jₒ, iₒ])]⟩,
  -- line 1707: mnfe,lkdc,demj,fcli,abkn->abij
  ⟨-1, [g_abab [mₒ, nₒ, fᵥ, eᵥ], l2_abab [lₒ, kₒ, dᵥ, cᵥ], t2_abab [dᵥ, eᵥ, mₒ, jₒ], t2_abab [fᵥ, cᵥ, lₒ, iₒ], t2_bbbb [aᵥ, bᵥ, kₒ, nₒ]], [(1, [aᵥ, bᵥ, iₒ, jₒ]), (-1, [aᵥ, bᵥ, jₒ, iₒ])]⟩,
  -- line 1711: mnef,lkcd,edmj,cfli,abkn->abij
  ⟨-1, [g_abab [mₒ, nₒ, eᵥ, fᵥ], l2_abab [lₒ, kₒ, cᵥ, dᵥ], t2_abab [eᵥ, dᵥ, mₒ, jₒ], t2_abab [cᵥ, fᵥ, lₒ, iₒ], t2_bbbb [aᵥ, bᵥ, kₒ, nₒ]], [(1, [aᵥ, bᵥ, iₒ, jₒ]), (-1, [aᵥ, bᵥ, jₒ, iₒ])]⟩,
  -- line 1715: nmef,lkcd,edjm,cfli,abkn->abij
  ⟨-1, [g_bbbb [nₒ, mₒ, eᵥ, fᵥ], l2_abab [lₒ, kₒ, cᵥ, dᵥ], t2_bbbb [eᵥ, dᵥ, jₒ, mₒ], t2_abab [cᵥ, fᵥ, lₒ, iₒ], t2_bbbb [aᵥ, bᵥ, kₒ, nₒ]], [(1, [aᵥ, bᵥ, iₒ, jₒ]), (-1, [aᵥ, bᵥ, jₒ, iₒ])]⟩,
  -- line 1719: mnef,kldc,edmj,fcil,abkn->abij
  ⟨-1, [g_abab [mₒ, nₒ, eᵥ, fᵥ], l2_bbbb [kₒ, lₒ, dᵥ, cᵥ], t2_abab [eᵥ, dᵥ, mₒ, jₒ], t2_bbbb [fᵥ, cᵥ, iₒ, lₒ], t2_bbbb [aᵥ, bᵥ, kₒ, nₒ]], [(1, [aᵥ, bᵥ, iₒ, jₒ]), (-1, [aᵥ, bᵥ, jₒ, iₒ])]⟩,
  -- line 1723: nmef,kldc,edjm,fcil,abkn->abij
  ⟨-1, [g_bbbb [nₒ, mₒ, eᵥ, fᵥ], l2_bbbb [kₒ, lₒ, dᵥ, cᵥ], t2_bbbb [eᵥ, dᵥ, jₒ, mₒ], t2_bbbb [fᵥ, cᵥ, iₒ, lₒ], t2_bbbb [aᵥ, bᵥ, kₒ, nₒ]], [(1, [aᵥ, bᵥ, iₒ, jₒ]), (-1, [aᵥ, bᵥ, jₒ, iₒ])]⟩,
  -- line 1727: mnfe,kldc,demj,fakl,cbin->abij
  ⟨-1/2, [g_abab [mₒ, nₒ, fᵥ, eᵥ], l2_abab [kₒ, lₒ, dᵥ, cᵥ], t2_abab [dᵥ, eᵥ, mₒ, jₒ], t2_abab [fᵥ, aᵥ, kₒ, lₒ], t2_bbbb [cᵥ, bᵥ, iₒ, nₒ]], [(1, [aᵥ, bᵥ, iₒ, jₒ]), (-1, [aᵥ, bᵥ, jₒ, iₒ]), (-1, [bᵥ, aᵥ, iₒ, jₒ]), (1, [bᵥ, aᵥ, jₒ, iₒ])]⟩,
  -- line 1731: nmef,klcd,edmj,fakl,cbni->abij
  ⟨1/2, [g_aaaa [nₒ, mₒ, eᵥ, fᵥ], l2_abab [kₒ, lₒ, cᵥ, dᵥ], t2_abab [eᵥ, dᵥ, mₒ, jₒ], t2_abab [fᵥ, aᵥ, kₒ, lₒ], t2_abab [cᵥ, bᵥ, nₒ, iₒ]], [(1, [aᵥ, bᵥ, iₒ, jₒ]), (-1, [aᵥ, bᵥ, jₒ, iₒ]), (-1, [bᵥ, aᵥ, iₒ, jₒ]), (1, [bᵥ, aᵥ, jₒ, iₒ])]⟩,
  -- line 1735: nmfe,klcd,edjm,fakl,cbni->abij
  ⟨1/2, [g_abab [nₒ, mₒ, fᵥ, eᵥ], l2_abab [kₒ, lₒ, cᵥ, dᵥ], t2_bbbb [eᵥ, dᵥ, jₒ, mₒ], t2_abab [fᵥ, aᵥ, kₒ, lₒ], t2_abab [cᵥ, bᵥ, nₒ, iₒ]], [(1, [aᵥ, bᵥ, iₒ, jₒ]), (-1, [aᵥ, bᵥ, jₒ, iₒ]), (-1, [bᵥ, aᵥ, iₒ, jₒ]), (1, [bᵥ, aᵥ, jₒ, iₒ])]⟩,
  -- line 1739: mnfe,lkdc,demj,falk,cbin->abij
  ⟨-1/2, [g_abab [mₒ, nₒ, fᵥ, eᵥ], l2_abab [lₒ, kₒ, dᵥ, cᵥ], t2_abab [dᵥ, eᵥ, mₒ, jₒ], t2_abab [fᵥ, aᵥ, lₒ, kₒ], t2_bbbb [cᵥ, bᵥ, iₒ, nₒ]], [(1, [aᵥ, bᵥ, iₒ, jₒ]), (-1, [aᵥ, bᵥ, jₒ, iₒ]), (-1, [bᵥ, aᵥ, iₒ, jₒ]), (1, [bᵥ, aᵥ, jₒ, iₒ])]⟩,
  -- line 1743: nmef,lkcd,edmj,falk,cbni->abij
  ⟨1/2, [g_aaaa [nₒ, mₒ, eᵥ, fᵥ], l2_abab [lₒ, kₒ, cᵥ, dᵥ], t2_abab [eᵥ, dᵥ, mₒ, jₒ], t2_abab [fᵥ, aᵥ, lₒ, kₒ], t2_abab [cᵥ, bᵥ, nₒ, iₒ]], [(1, [aᵥ, bᵥ, iₒ, jₒ]), (-1, [aᵥ, bᵥ, jₒ, iₒ]), (-1, [bᵥ, aᵥ, iₒ, jₒ]), (1, [bᵥ, aᵥ, jₒ, iₒ])]⟩,
  -- line 1747: nmfe,lkcd,edjm,falk,cbni->abij
  ⟨1/2, [g_abab [nₒ, mₒ, fᵥ, eᵥ], l2_abab [lₒ, kₒ, cᵥ, dᵥ], t2_bbbb [eᵥ, dᵥ, jₒ, mₒ], t2_abab [fᵥ, aᵥ, lₒ, kₒ], t2_abab [cᵥ, bᵥ, nₒ, iₒ]], [(1, [aᵥ, bᵥ, iₒ, jₒ]), (-1, [aᵥ, bᵥ, jₒ, iₒ]), (-1, [bᵥ, aᵥ, iₒ, jₒ]), (1, [bᵥ, aᵥ, jₒ, iₒ])]⟩,
  -- line 1751: mnef,kldc,edmj,fakl,cbin->abij
  ⟨-1/2, [g_abab [mₒ, nₒ, eᵥ, fᵥ], l2_bbbb [kₒ, lₒ, dᵥ, cᵥ], t2_abab [eᵥ, dᵥ, mₒ, jₒ], t2_bbbb [fᵥ, aᵥ, kₒ, lₒ], t2_bbbb [cᵥ, bᵥ, iₒ, nₒ]], [(1, [aᵥ, bᵥ, iₒ, jₒ]), (-1, [aᵥ, bᵥ, jₒ, iₒ]), (-1, [bᵥ, aᵥ, iₒ, jₒ]), (1, [bᵥ, aᵥ, jₒ, iₒ])]⟩,
  -- line 1755: nmef,kldc,edjm,fakl,cbin->abij
  ⟨-1/2, [g_bbbb [nₒ, mₒ, eᵥ, fᵥ], l2_bbbb [kₒ, lₒ, dᵥ, cᵥ], t2_bbbb [eᵥ, dᵥ, jₒ, mₒ], t2_bbbb [fᵥ, aᵥ, kₒ, lₒ], t2_bbbb [cᵥ, bᵥ, iₒ, nₒ]], [(1, [aᵥ, bᵥ, iₒ, jₒ]), (-1, [aᵥ, bᵥ, jₒ, iₒ]), (-1, [bᵥ, aᵥ, iₒ, jₒ]), (1, [bᵥ, aᵥ, jₒ, iₒ])]⟩,
  -- line 1759: mnfe,kldc,demj,fali,cbkn->abij
  ⟨-1, [g_abab [mₒ, nₒ, fᵥ, eᵥ], l2_aaaa [kₒ, lₒ, dᵥ, cᵥ], t2_abab [dᵥ, eᵥ, mₒ, jₒ], t2_abab [fᵥ, aᵥ, lₒ, iₒ], t2_abab [cᵥ, bᵥ, kₒ, nₒ]], [(1, [aᵥ, bᵥ, iₒ, jₒ]), (-1, [aᵥ, bᵥ, jₒ, iₒ]), (-1, [bᵥ, aᵥ, iₒ, jₒ]), (1, [bᵥ, aᵥ, jₒ, iₒ])]⟩,
  -- line 1763: mnef,klcd,edmj,fail,cbkn->abij
  ⟨-1, [g_abab [mₒ, nₒ, eᵥ, fᵥ], l2_abab [kₒ, lₒ, cᵥ, dᵥ], t2_abab [eᵥ, dᵥ, mₒ, jₒ], t2_bbbb [fᵥ, aᵥ, iₒ, lₒ], t2_abab [cᵥ, bᵥ, kₒ, nₒ]], [(1, [aᵥ, bᵥ, iₒ, jₒ]), (-1, [aᵥ, bᵥ, jₒ, iₒ]), (-1, [bᵥ, aᵥ, iₒ, jₒ]), (1, [bᵥ, aᵥ, jₒ, iₒ])]⟩,
  -- line 1767: nmef,klcd,edjm,fail,cbkn->abij
  ⟨-1, [g_bbbb [nₒ, mₒ, eᵥ, fᵥ], l2_abab [kₒ, lₒ, cᵥ, dᵥ], t2_bbbb [eᵥ, dᵥ, jₒ, mₒ], t2_bbbb [fᵥ, aᵥ, iₒ, lₒ], t2_abab [cᵥ, bᵥ, kₒ, nₒ]], [(1, [aᵥ, bᵥ, iₒ, jₒ]), (-1, [aᵥ, bᵥ, jₒ, iₒ]), (-1, [bᵥ, aᵥ, iₒ, jₒ]), (1, [bᵥ, aᵥ, jₒ, iₒ])]⟩,
  -- line 1771: mnfe,lkdc,demj,fali,cbkn->abij
  ⟨1, [g_abab [mₒ, nₒ, fᵥ, eᵥ], l2_abab [lₒ, kₒ, dᵥ, cᵥ], t2_abab [dᵥ, eᵥ, mₒ, jₒ], t2_abab [fᵥ, aᵥ, lₒ, iₒ], t2_bbbb [cᵥ, bᵥ, kₒ, nₒ]], [(1, [aᵥ, bᵥ, iₒ, jₒ]), (-1, [aᵥ, bᵥ, jₒ, iₒ]), (-1, [bᵥ, aᵥ, iₒ, jₒ]), (1, [bᵥ, aᵥ, jₒ, iₒ])]⟩,
  -- line 1775: nmef,lkcd,edmj,fali,cbnk->abij
  ⟨-1, [g_aaaa [nₒ, mₒ, eᵥ, fᵥ], l2_abab [lₒ, kₒ, cᵥ, dᵥ], t2_abab [eᵥ, dᵥ, mₒ, jₒ], t2_abab [fᵥ, aᵥ, lₒ, iₒ], t2_abab [cᵥ, bᵥ, nₒ, kₒ]], [(1, [aᵥ, bᵥ, iₒ, jₒ]), (-1, [aᵥ, bᵥ, jₒ, iₒ]), (-1, [bᵥ, aᵥ, iₒ, jₒ]), (1, [bᵥ, aᵥ, jₒ, iₒ])]⟩,
  -- line 1779: nmfe,lkcd,edjm,fali,cbnk->abij
  ⟨-1, [g_abab [nₒ, mₒ, fᵥ, eᵥ], l2_abab [lₒ, kₒ, cᵥ, dᵥ], t2_bbbb [eᵥ, dᵥ, jₒ, mₒ], t2_abab [fᵥ, aᵥ, lₒ, iₒ], t2_abab [cᵥ, bᵥ, nₒ, kₒ]], [(1, [aᵥ, bᵥ, iₒ, jₒ]), (-1, [aᵥ, bᵥ, jₒ, iₒ]), (-1, [bᵥ, aᵥ, iₒ, jₒ]), (1, [bᵥ, aᵥ, jₒ, iₒ])]⟩,
  -- line 1783: mnef,kldc,edmj,fail,cbkn->abij
  ⟨1, [g_abab [mₒ, nₒ, eᵥ, fᵥ], l2_bbbb [kₒ, lₒ, dᵥ, cᵥ], t2_abab [eᵥ, dᵥ, mₒ, jₒ], t2_bbbb [fᵥ, aᵥ, iₒ, lₒ], t2_bbbb [cᵥ, bᵥ, kₒ, nₒ]], [(1, [aᵥ, bᵥ, iₒ, jₒ]), (-1, [aᵥ, bᵥ, jₒ, iₒ]), (-1, [bᵥ, aᵥ, iₒ, jₒ]), (1, [bᵥ, aᵥ, jₒ, iₒ])]⟩,
  -- line 1787: nmef,kldc,edjm,fail,cbkn->abij
  ⟨1, [g_bbbb [nₒ, mₒ, eᵥ, fᵥ], l2_bbbb [kₒ, lₒ, dᵥ, cᵥ], t2_bbbb [eᵥ, dᵥ, jₒ, mₒ], t2_bbbb [fᵥ, aᵥ, iₒ, lₒ], t2_bbbb [cᵥ, bᵥ, kₒ, nₒ]], [(1, [aᵥ, bᵥ, iₒ, jₒ]), (-1, [aᵥ, bᵥ, jₒ, iₒ]), (-1, [bᵥ, aᵥ, iₒ, jₒ]), (1, [bᵥ, aᵥ, jₒ, iₒ])]⟩,
  -- line 1791: nmef,kldc,dekl,fcij,abnm->abij
  ⟨1/4, [g_bbbb [nₒ, mₒ, eᵥ, fᵥ], l2_abab [kₒ, lₒ, dᵥ, cᵥ], t2_abab [dᵥ, eᵥ, kₒ, lₒ], t2_bbbb [fᵥ, cᵥ, iₒ, jₒ], t2_bbbb [aᵥ, bᵥ, nₒ, mₒ]], [(1, [aᵥ, bᵥ, iₒ, jₒ])]⟩,
  -- line 1794: nmef,lkdc,delk,fcij,abnm->abij
  ⟨1/4, [g_bbbb [nₒ, mₒ, eᵥ, fᵥ], l2_abab [lₒ, kₒ, dᵥ, cᵥ], t2_abab [dᵥ, eᵥ, lₒ, kₒ], t2_bbbb [fᵥ, cᵥ, iₒ, jₒ], t2_bbbb [aᵥ, bᵥ, nₒ, mₒ]], [(1, [aᵥ, bᵥ, iₒ, jₒ])]⟩
  ]

/-- Part 3 of `residQf2_bbbb`. -/
def residQf2_bbbb_3 : Prog := [
  -- line 1797: nmef,kldc,edkl,fcij,abnm->abij
  ⟨-1/4, [g_bbbb [nₒ, mₒ, eᵥ, fᵥ], l2_bbbb [kₒ, lₒ, dᵥ, cᵥ], t2_bbbb [eᵥ, dᵥ, kₒ, lₒ], t2_bbbb [fᵥ, cᵥ, iₒ, jₒ], t2_bbbb [aᵥ, bᵥ, nₒ, mₒ]], [(1, [aᵥ, bᵥ, iₒ, jₒ])]⟩,
  -- line 1800: nmef,kldc,edkl,famj,cbni->abij
  ⟨-1/2, [g_aaaa [nₒ, mₒ, eᵥ, fᵥ], l2_aaaa [kₒ, lₒ, dᵥ, cᵥ], t2_aaaa [eᵥ, dᵥ, kₒ, lₒ], t2_abab [fᵥ, aᵥ, mₒ, jₒ], t2_abab [cᵥ, bᵥ, nₒ, iₒ]], [(1, [aᵥ, bᵥ, iₒ, jₒ]), (-1, [aᵥ, bᵥ, jₒ, iₒ]), (-1, [bᵥ, aᵥ, iₒ, jₒ]), (1, [bᵥ, aᵥ, jₒ, iₒ])]⟩,
  -- line 1804: nmef,kldc,edkl,fajm,cbni->abij
  ⟨1/2, [g_abab [nₒ, mₒ, eᵥ, fᵥ], l2_aaaa [kₒ, lₒ, dᵥ, cᵥ], t2_aaaa [eᵥ, dᵥ, kₒ, lₒ], t2_bbbb [fᵥ, aᵥ, jₒ, mₒ], t2_abab [cᵥ, bᵥ, nₒ, iₒ]], [(1, [aᵥ, bᵥ, iₒ, jₒ]), (-1, [aᵥ, bᵥ, jₒ, iₒ]), (-1, [bᵥ, aᵥ, iₒ, jₒ]), (1, [bᵥ, aᵥ, jₒ, iₒ])]⟩,
  -- line 1808: mnfe,kldc,dekl,famj,cbin->abij
  ⟨-1/2, [g_abab [mₒ, nₒ, fᵥ, eᵥ], l2_abab [kₒ, lₒ, dᵥ, cᵥ], t2_abab [dᵥ, eᵥ, kₒ, lₒ], t2_abab [fᵥ, aᵥ, mₒ, jₒ], t2_bbbb [cᵥ, bᵥ, iₒ, nₒ]], [(1, [aᵥ, bᵥ, iₒ, jₒ]), (-1, [aᵥ, bᵥ, jₒ, iₒ]), (-1, [bᵥ, aᵥ, iₒ, jₒ]), (1, [bᵥ, aᵥ, jₒ, iₒ])]⟩,
  -- line 1812: nmef,kldc,dekl,fajm,cbin->abij
  ⟨1/2, [g_bbbb [nₒ, mₒ, eᵥ, fᵥ], l2_abab [kₒ, lₒ, dᵥ, cᵥ], t2_abab [dᵥ, eᵥ, kₒ, lₒ], t2_bbbb [fᵥ, aᵥ, jₒ, mₒ], t2_bbbb [cᵥ, bᵥ, iₒ, nₒ]], [(1, [aᵥ, bᵥ, iₒ, jₒ]), (-1, [aᵥ, bᵥ, jₒ, iₒ]), (-1, [bᵥ, aᵥ, iₒ, jₒ]), (1, [bᵥ, aᵥ, jₒ, iₒ])]⟩,
  -- line 1816: nmef,klcd,edkl,famj,cbni->abij
  ⟨1/2, [g_aaaa [nₒ, mₒ, eᵥ, fᵥ], l2_abab [kₒ, lₒ, cᵥ, dᵥ], t2_abab [eᵥ, dᵥ, kₒ, lₒ], t2_abab [fᵥ, aᵥ, mₒ, jₒ], t2_abab [cᵥ, bᵥ, nₒ, iₒ]], [(1, [aᵥ, bᵥ, iₒ, jₒ]), (-1, [aᵥ, bᵥ, jₒ, iₒ]), (-1, [bᵥ, aᵥ, iₒ, jₒ]), (1, [bᵥ, aᵥ, jₒ, iₒ])]⟩,
  -- line 1820: nmef,klcd,edkl,fajm,cbni->abij
  ⟨-1/2, [g_abab [nₒ, mₒ, eᵥ, fᵥ], l2_abab [kₒ, lₒ, cᵥ, dᵥ], t2_abab [eᵥ, dᵥ, kₒ, lₒ], t2_bbbb [fᵥ, aᵥ, jₒ, mₒ], t2_abab [cᵥ, bᵥ, nₒ, iₒ]], [(1, [aᵥ, bᵥ, iₒ, jₒ]), (-1, [aᵥ, bᵥ, jₒ, iₒ]), (-1, [bᵥ, aᵥ, iₒ, jₒ]), (1, [bᵥ, aᵥ, jₒ, iₒ])]⟩,
  -- line 1824: mnfe,lkdc,delk,famj,cbin->abij
  ⟨-1/2, [g_abab [mₒ, nₒ, fᵥ, eᵥ], l2_abab [lₒ, kₒ, dᵥ, cᵥ], t2_abab [dᵥ, eᵥ, lₒ, kₒ], t2_abab [fᵥ, aᵥ, mₒ, jₒ], t2_bbbb [cᵥ, bᵥ, iₒ, nₒ]], [(1, [aᵥ, bᵥ, iₒ, jₒ]), (-1, [aᵥ, bᵥ, jₒ, iₒ]), (-1, [bᵥ, aᵥ, iₒ, jₒ]), (1, [bᵥ, aᵥ, jₒ, iₒ])]⟩,
  -- line 1828: nmef,lkdc,delk,fajm,cbin->abij
  ⟨1/2, [g_bbbb [nₒ, mₒ, eᵥ, fᵥ], l2_abab [lₒ, kₒ, dᵥ, cᵥ], t2_abab [dᵥ, eᵥ, lₒ, kₒ], t2_bbbb [fᵥ, aᵥ, jₒ, mₒ], t2_bbbb [cᵥ, bᵥ, iₒ, nₒ]], [(1, [aᵥ, bᵥ, iₒ, jₒ]), (-1, [aᵥ, bᵥ, jₒ, iₒ]), (-1, [bᵥ, aᵥ, iₒ, jₒ]), (1, [bᵥ, aᵥ, jₒ, iₒ])]⟩,
  -- line 1832: nmef,lkcd,edlk,famj,cbni->abij
  ⟨1/2, [g_aaaa [nₒ, mₒ, eᵥ, fᵥ], l2_abab [lₒ, kₒ, cᵥ, dᵥ], t2_abab [eᵥ, dᵥ, lₒ, kₒ], t2_abab [fᵥ, aᵥ, mₒ, jₒ], t2_abab [cᵥ, bᵥ, nₒ, iₒ]], [(1, [aᵥ, bᵥ, iₒ, jₒ]), (-1, [aᵥ, bᵥ, jₒ, iₒ]), (-1, [bᵥ, aᵥ, iₒ, jₒ]), (1, [bᵥ, aᵥ, jₒ, iₒ])]⟩,
  -- line 1836: nmef,lkcd,edlk,fajm,cbni->abij
  ⟨-1/2, [g_abab [nₒ, mₒ, eᵥ, fᵥ], l2_abab [lₒ, kₒ, cᵥ, dᵥ], t2_abab [eᵥ, dᵥ, lₒ, kₒ], t2_bbbb [fᵥ, aᵥ, jₒ, mₒ], t2_abab [cᵥ, bᵥ, nₒ, iₒ]], [(1, [aᵥ, bᵥ, iₒ, jₒ]), (-1, [aᵥ, bᵥ, jₒ, iₒ]), (-1, [bᵥ, aᵥ, iₒ, jₒ]), (1, [bᵥ, aᵥ, jₒ, iₒ])]⟩,
  -- line 1840: mnfe,kldc,edkl,famj,cbin->abij
  ⟨1/2, [g_abab [mₒ, nₒ, fᵥ, eᵥ], l2_bbbb [kₒ, lₒ, dᵥ, cᵥ], t2_bbbb [eᵥ, dᵥ, kₒ, lₒ], t2_abab [fᵥ, aᵥ, mₒ, jₒ], t2_bbbb [cᵥ, bᵥ, iₒ, nₒ]], [(1, [aᵥ, bᵥ, iₒ, jₒ]), (-1, [aᵥ, bᵥ, jₒ, iₒ]), (-1, [bᵥ, aᵥ, iₒ, jₒ]), (1, [bᵥ, aᵥ, jₒ, iₒ])]⟩,
  -- line 1844: nmef,kldc,edkl,fajm,cbin->abij
  ⟨-1/2, [g_bbbb [nₒ, mₒ, eᵥ, fᵥ], l2_bbbb [kₒ, lₒ, dᵥ, cᵥ], t2_bbbb [eᵥ, dᵥ, kₒ, lₒ], t2_bbbb [fᵥ, aᵥ, jₒ, mₒ], t2_bbbb [cᵥ, bᵥ, iₒ, nₒ]], [(1, [aᵥ, bᵥ, iₒ, jₒ]), (-1, [aᵥ, bᵥ, jₒ, iₒ]), (-1, [bᵥ, aᵥ, iₒ, jₒ]), (1, [bᵥ, aᵥ, jₒ, iₒ])]⟩,
  -- line 1848: nmef,kldc,edkl,faij,cbnm->abij
  ⟨1/4, [g_abab [nₒ, mₒ, eᵥ, fᵥ], l2_aaaa [kₒ, lₒ, dᵥ, cᵥ], t2_aaaa [eᵥ, dᵥ, kₒ, lₒ], t2_bbbb [fᵥ, aᵥ, iₒ, jₒ], t2_abab [cᵥ, bᵥ, nₒ, mₒ]], [(1, [aᵥ, bᵥ, iₒ, jₒ]), (-1, [bᵥ, aᵥ, iₒ, jₒ])]⟩,
  -- line 1852: mnef,kldc,edkl,faij,cbmn->abij
  ⟨1/4, [g_abab [mₒ, nₒ, eᵥ, fᵥ], l2_aaaa [kₒ, lₒ, dᵥ, cᵥ], t2_aaaa [eᵥ, dᵥ, kₒ, lₒ], t2_bbbb [fᵥ, aᵥ, iₒ, jₒ], t2_abab [cᵥ, bᵥ, mₒ, nₒ]], [(1, [aᵥ, bᵥ, iₒ, jₒ]), (-1, [bᵥ, aᵥ, iₒ, jₒ])]⟩,
  -- line 1856: nmef,kldc,dekl,faij,cbnm->abij
  ⟨-1/4, [g_bbbb [nₒ, mₒ, eᵥ, fᵥ], l2_abab [kₒ, lₒ, dᵥ, cᵥ], t2_abab [dᵥ, eᵥ, kₒ, lₒ], t2_bbbb [fᵥ, aᵥ, iₒ, jₒ], t2_bbbb [cᵥ, bᵥ, nₒ, mₒ]], [(1, [aᵥ, bᵥ, iₒ, jₒ]), (-1, [bᵥ, aᵥ, iₒ, jₒ])]⟩,
  -- line 1860: nmef,klcd,edkl,faij,cbnm->abij
  ⟨-1/4, [g_abab [nₒ, mₒ, eᵥ, fᵥ], l2_abab [kₒ, lₒ, cᵥ, dᵥ], t2_abab [eᵥ, dᵥ, kₒ, lₒ], t2_bbbb [fᵥ, aᵥ, iₒ, jₒ], t2_abab [cᵥ, bᵥ, nₒ, mₒ]], [(1, [aᵥ, bᵥ, iₒ, jₒ]), (-1, [bᵥ, aᵥ, iₒ, jₒ])]⟩,
  -- line 1864: mnef,klcd,edkl,faij,cbmn->abij
  ⟨-1/4, [g_abab [mₒ, nₒ, eᵥ, fᵥ], l2_abab [kₒ, lₒ, cᵥ, dᵥ], t2_abab [eᵥ, dᵥ, kₒ, lₒ], t2_bbbb [fᵥ, aᵥ, iₒ, jₒ], t2_abab [cᵥ, bᵥ, mₒ, nₒ]], [(1, [aᵥ, bᵥ, iₒ, jₒ]), (-1, [bᵥ, aᵥ, iₒ, jₒ])]⟩,
  -- line 1868: nmef,lkdc,delk,faij,cbnm->abij
  ⟨-1/4, [g_bbbb [nₒ, mₒ, eᵥ, fᵥ], l2_abab [lₒ, kₒ, dᵥ, cᵥ], t2_abab [dᵥ, eᵥ, lₒ, kₒ], t2_bbbb [fᵥ, aᵥ, iₒ, jₒ], t2_bbbb [cᵥ, bᵥ, nₒ, mₒ]], [(1, [aᵥ, bᵥ, iₒ, jₒ]), (-1, [bᵥ, aᵥ, iₒ, jₒ])]⟩,
  -- line 1872: nmef,lkcd,edlk,faij,cbnm->abij
  ⟨-1/4, [g_abab [nₒ, mₒ, eᵥ, fᵥ], l2_abab [lₒ, kₒ, cᵥ, dᵥ], t2_abab [eᵥ, dᵥ, lₒ, kₒ], t2_bbbb [fᵥ, aᵥ, iₒ, jₒ], t2_abab [cᵥ, bᵥ, nₒ, mₒ]], [(1, [aᵥ, bᵥ, iₒ, jₒ]), (-1, [bᵥ, aᵥ, iₒ, jₒ])]⟩,
  -- line 1876: mnef,lkcd,edlk,faij,cbmn->abij
  ⟨-1/4, [g_abab [mₒ, nₒ, eᵥ, fᵥ], l2_abab [lₒ, kₒ, cᵥ, dᵥ], t2_abab [eᵥ, dᵥ, lₒ, kₒ], t2_bbbb [fᵥ, aᵥ, iₒ, jₒ], t2_abab [cᵥ, bᵥ, mₒ, nₒ]], [(1, [aᵥ, bᵥ, iₒ, jₒ]), (-1, [bᵥ, aᵥ, iₒ, jₒ])]⟩,
  -- line 1880: nmef,kldc,edkl,faij,cbnm->abij
  ⟨1/4, [g_bbbb [nₒ, mₒ, eᵥ, fᵥ], l2_bbbb [kₒ, lₒ, dᵥ, cᵥ], t2_bbbb [eᵥ, dᵥ, kₒ, lₒ], t2_bbbb [fᵥ, aᵥ, iₒ, jₒ], t2_bbbb [cᵥ, bᵥ, nₒ, mₒ]], [(1, [aᵥ, bᵥ, iₒ, jₒ]), (-1, [bᵥ, aᵥ, iₒ, jₒ])]⟩,
  -- line 1884: mnfe,kldc,delj,fckm,abin->abij
  ⟨-1/2, [g_abab [mₒ, nₒ, fᵥ, eᵥ], l2_aaaa [kₒ, lₒ, dᵥ, cᵥ], t2_abab [dᵥ, eᵥ, lₒ, jₒ], t2_aaaa [fᵥ, cᵥ, kₒ, mₒ], t2_bbbb [aᵥ, bᵥ, iₒ, nₒ]], [(1, [aᵥ, bᵥ, iₒ, jₒ]), (-1, [aᵥ, bᵥ, jₒ, iₒ])]⟩,
  -- line 1888: nmef,kldc,delj,cfkm,abin->abij
  ⟨1/2, [g_bbbb [nₒ, mₒ, eᵥ, fᵥ], l2_aaaa [kₒ, lₒ, dᵥ, cᵥ], t2_abab [dᵥ, eᵥ, lₒ, jₒ], t2_abab [cᵥ, fᵥ, kₒ, mₒ], t2_bbbb [aᵥ, bᵥ, iₒ, nₒ]], [(1, [aᵥ, bᵥ, iₒ, jₒ]), (-1, [aᵥ, bᵥ, jₒ, iₒ])]⟩,
  -- line 1892: mnfe,klcd,edjl,fckm,abin->abij
  ⟨1/2, [g_abab [mₒ, nₒ, fᵥ, eᵥ], l2_abab [kₒ, lₒ, cᵥ, dᵥ], t2_bbbb [eᵥ, dᵥ, jₒ, lₒ], t2_aaaa [fᵥ, cᵥ, kₒ, mₒ], t2_bbbb [aᵥ, bᵥ, iₒ, nₒ]], [(1, [aᵥ, bᵥ, iₒ, jₒ]), (-1, [aᵥ, bᵥ, jₒ, iₒ])]⟩,
  -- line 1896: nmef,klcd,edjl,cfkm,abin->abij
  ⟨-1/2, [g_bbbb [nₒ, mₒ, eᵥ, fᵥ], l2_abab [kₒ, lₒ, cᵥ, dᵥ], t2_bbbb [eᵥ, dᵥ, jₒ, lₒ], t2_abab [cᵥ, fᵥ, kₒ, mₒ], t2_bbbb [aᵥ, bᵥ, iₒ, nₒ]], [(1, [aᵥ, bᵥ, iₒ, jₒ]), (-1, [aᵥ, bᵥ, jₒ, iₒ])]⟩,
  -- line 1900: mnfe,lkdc,delj,fcmk,abin->abij
  ⟨-1/2, [g_abab [mₒ, nₒ, fᵥ, eᵥ], l2_abab [lₒ, kₒ, dᵥ, cᵥ], t2_abab [dᵥ, eᵥ, lₒ, jₒ], t2_abab [fᵥ, cᵥ, mₒ, kₒ], t2_bbbb [aᵥ, bᵥ, iₒ, nₒ]], [(1, [aᵥ, bᵥ, iₒ, jₒ]), (-1, [aᵥ, bᵥ, jₒ, iₒ])]⟩,
  -- line 1904: nmef,lkdc,delj,fckm,abin->abij
  ⟨1/2, [g_bbbb [nₒ, mₒ, eᵥ, fᵥ], l2_abab [lₒ, kₒ, dᵥ, cᵥ], t2_abab [dᵥ, eᵥ, lₒ, jₒ], t2_bbbb [fᵥ, cᵥ, kₒ, mₒ], t2_bbbb [aᵥ, bᵥ, iₒ, nₒ]], [(1, [aᵥ, bᵥ, iₒ, jₒ]), (-1, [aᵥ, bᵥ, jₒ, iₒ])]⟩,
  -- line 1908: mnef,lkcd,edlj,cfmk,abin->abij
  ⟨-1/2, [g_abab [mₒ, nₒ, eᵥ, fᵥ], l2_abab [lₒ, kₒ, cᵥ, dᵥ], t2_abab [eᵥ, dᵥ, lₒ, jₒ], t2_abab [cᵥ, fᵥ, mₒ, kₒ], t2_bbbb [aᵥ, bᵥ, iₒ, nₒ]], [(1, [aᵥ, bᵥ, iₒ, jₒ]), (-1, [aᵥ, bᵥ, jₒ, iₒ])]⟩,
  -- line 1912: mnfe,kldc,edjl,fcmk,abin->abij
  ⟨1/2, [g_abab [mₒ, nₒ, fᵥ, eᵥ], l2_bbbb [kₒ, lₒ, dᵥ, cᵥ], t2_bbbb [eᵥ, dᵥ, jₒ, lₒ], t2_abab [fᵥ, cᵥ, mₒ, kₒ], t2_bbbb [aᵥ, bᵥ, iₒ, nₒ]], [(1, [aᵥ, bᵥ, iₒ, jₒ]), (-1, [aᵥ, bᵥ, jₒ, iₒ])]⟩,
  -- line 1916: nmef,kldc,edjl,fckm,abin->abij
  ⟨-1/2, [g_bbbb [nₒ, mₒ, eᵥ, fᵥ], l2_bbbb [kₒ, lₒ, dᵥ, cᵥ], t2_bbbb [eᵥ, dᵥ, jₒ, lₒ], t2_bbbb [fᵥ, cᵥ, kₒ, mₒ], t2_bbbb [aᵥ, bᵥ, iₒ, nₒ]], [(1, [aᵥ, bᵥ, iₒ, jₒ]), (-1, [aᵥ, bᵥ, jₒ, iₒ])]⟩,
  -- line 1920: nmef,kldc,delj,cfki,abnm->abij
  ⟨1/4, [g_bbbb [nₒ, mₒ, eᵥ, fᵥ], l2_aaaa [kₒ, lₒ, dᵥ, cᵥ], t2_abab [dᵥ, eᵥ, lₒ, jₒ], t2_abab [cᵥ, fᵥ, kₒ, iₒ], t2_bbbb [aᵥ, bᵥ, nₒ, mₒ]], [(1, [aᵥ, bᵥ, iₒ, jₒ]), (-1, [aᵥ, bᵥ, jₒ, iₒ])]⟩,
  -- line 1924: nmef,klcd,edjl,cfki,abnm->abij
  ⟨-1/4, [g_bbbb [nₒ, mₒ, eᵥ, fᵥ], l2_abab [kₒ, lₒ, cᵥ, dᵥ], t2_bbbb [eᵥ, dᵥ, jₒ, lₒ], t2_abab [cᵥ, fᵥ, kₒ, iₒ], t2_bbbb [aᵥ, bᵥ, nₒ, mₒ]], [(1, [aᵥ, bᵥ, iₒ, jₒ]), (-1, [aᵥ, bᵥ, jₒ, iₒ])]⟩,
  -- line 1928: nmef,lkdc,delj,fcik,abnm->abij
  ⟨-1/4, [g_bbbb [nₒ, mₒ, eᵥ, fᵥ], l2_abab [lₒ, kₒ, dᵥ, cᵥ], t2_abab [dᵥ, eᵥ, lₒ, jₒ], t2_bbbb [fᵥ, cᵥ, iₒ, kₒ], t2_bbbb [aᵥ, bᵥ, nₒ, mₒ]], [(1, [aᵥ, bᵥ, iₒ, jₒ]), (-1, [aᵥ, bᵥ, jₒ, iₒ])]⟩,
  -- line 1932: nmef,kldc,edjl,fcik,abnm->abij
  ⟨1/4, [g_bbbb [nₒ, mₒ, eᵥ, fᵥ], l2_bbbb [kₒ, lₒ, dᵥ, cᵥ], t2_bbbb [eᵥ, dᵥ, jₒ, lₒ], t2_bbbb [fᵥ, cᵥ, iₒ, kₒ], t2_bbbb [aᵥ, bᵥ, nₒ, mₒ]], [(1, [aᵥ, bᵥ, iₒ, jₒ]), (-1, [aᵥ, bᵥ, jₒ, iₒ])]⟩,
  -- line 1936: nmfe,kldc,delj,fakm,cbni->abij
  ⟨91666666666667/100000000000000, [g_abab [nₒ, mₒ, fᵥ, eᵥ], l2_aaaa [kₒ, lₒ, dᵥ, cᵥ], t2_abab [dᵥ, eᵥ, lₒ, jₒ], t2_abab [fᵥ, aᵥ, kₒ, mₒ], t2_abab [cᵥ, bᵥ, nₒ, iₒ]], [(1, [aᵥ, bᵥ, iₒ, jₒ]), (-1, [aᵥ, bᵥ, jₒ, iₒ]), (-1, [bᵥ, aᵥ, iₒ, jₒ]), (1, [bᵥ, aᵥ, jₒ, iₒ])]⟩,
  -- line 1940: nmfe,klcd,edjl,fakm,cbni->abij
  ⟨-91666666666667/100000000000000, [g_abab [nₒ, mₒ, fᵥ, eᵥ], l2_abab [kₒ, lₒ, cᵥ, dᵥ], t2_bbbb [eᵥ, dᵥ, jₒ, lₒ], t2_abab [fᵥ, aᵥ, kₒ, mₒ], t2_abab [cᵥ, bᵥ, nₒ, iₒ]], [(1, [aᵥ, bᵥ, iₒ, jₒ]), (-1, [aᵥ, bᵥ, jₒ, iₒ]), (-1, [bᵥ, aᵥ, iₒ, jₒ]), (1, [bᵥ, aᵥ, jₒ, iₒ])]⟩,
  -- line 1944: mnfe,lkdc,delj,famk,cbin->abij
  ⟨91666666666667/100000000000000, [g_abab [mₒ, nₒ, fᵥ, eᵥ], l2_abab [lₒ, kₒ, dᵥ, cᵥ], t2_abab [dᵥ, eᵥ, lₒ, jₒ], t2_abab [fᵥ, aᵥ, mₒ, kₒ], t2_bbbb [cᵥ, bᵥ, iₒ, nₒ]], [(1, [aᵥ, bᵥ, iₒ, jₒ]), (-1, [aᵥ, bᵥ, jₒ, iₒ]), (-1, [bᵥ, aᵥ, iₒ, jₒ]), (1, [bᵥ, aᵥ, jₒ, iₒ])]⟩,
  -- line 1948: nmef,lkdc,delj,fakm,cbin->abij
  ⟨-91666666666667/100000000000000, [g_bbbb [nₒ, mₒ, eᵥ, fᵥ], l2_abab [lₒ, kₒ, dᵥ, cᵥ], t2_abab [dᵥ, eᵥ, lₒ, jₒ], t2_bbbb [fᵥ, aᵥ, kₒ, mₒ], t2_bbbb [cᵥ, bᵥ, iₒ, nₒ]], [(1, [aᵥ, bᵥ, iₒ, jₒ]), (-1, [aᵥ, bᵥ, jₒ, iₒ]), (-1, [bᵥ, aᵥ, iₒ, jₒ]), (1, [bᵥ, aᵥ, jₒ, iₒ])]⟩,
  -- line 1952: nmef,lkcd,edlj,famk,cbni->abij
  ⟨-91666666666667/100000000000000, [g_aaaa [nₒ, mₒ, eᵥ, fᵥ], l2_abab [lₒ, kₒ, cᵥ, dᵥ], t2_abab [eᵥ, dᵥ, lₒ, jₒ], t2_abab [fᵥ, aᵥ, mₒ, kₒ], t2_abab [cᵥ, bᵥ, nₒ, iₒ]], [(1, [aᵥ, bᵥ, iₒ, jₒ]), (-1, [aᵥ, bᵥ, jₒ, iₒ]), (-1, [bᵥ, aᵥ, iₒ, jₒ]), (1, [bᵥ, aᵥ, jₒ, iₒ])]⟩
  ]

/-- Part 4 of `residQf2_bbbb`. -/
def residQf2_bbbb_4 : Prog := [
  -- line 1956: nmef,lkcd,edlj,fakm,cbni->abij
  ⟨91666666666667/100000000000000, [g_abab [nₒ, mₒ, eᵥ, fᵥ], l2_abab [lₒ, kₒ, cᵥ, dᵥ], t2_abab [eᵥ, dᵥ, lₒ, jₒ], t2_bbbb [fᵥ, aᵥ, kₒ, mₒ], t2_abab [cᵥ, bᵥ, nₒ, iₒ]], [(1, [aᵥ, bᵥ, iₒ, jₒ]), (-1, [aᵥ, bᵥ, jₒ, iₒ]), (-1, [bᵥ, aᵥ, iₒ, jₒ]), (1, [bᵥ, aᵥ, jₒ, iₒ])]⟩,
  -- line 1960: mnfe,kldc,edjl,famk,cbin->abij
  ⟨-91666666666667/100000000000000, [g_abab [mₒ, nₒ, fᵥ, eᵥ], l2_bbbb [kₒ, lₒ, dᵥ, cᵥ], t2_bbbb [eᵥ, dᵥ, jₒ, lₒ], t2_abab [fᵥ, aᵥ, mₒ, kₒ], t2_bbbb [cᵥ, bᵥ, iₒ, nₒ]], [(1, [aᵥ, bᵥ, iₒ, jₒ]), (-1, [aᵥ, bᵥ, jₒ, iₒ]), (-1, [bᵥ, aᵥ, iₒ, jₒ]), (1, [bᵥ, aᵥ, jₒ, iₒ])]⟩,
  -- line 1964: nmef,kldc,edjl,fakm,cbin->abij
  ⟨91666666666667/100000000000000, [g_bbbb [nₒ, mₒ, eᵥ, fᵥ], l2_bbbb [kₒ, lₒ, dᵥ, cᵥ], t2_bbbb [eᵥ, dᵥ, jₒ, lₒ], t2_bbbb [fᵥ, aᵥ, kₒ, mₒ], t2_bbbb [cᵥ, bᵥ, iₒ, nₒ]], [(1, [aᵥ, bᵥ, iₒ, jₒ]), (-1, [aᵥ, bᵥ, jₒ, iₒ]), (-1, [bᵥ, aᵥ, iₒ, jₒ]), (1, [bᵥ, aᵥ, jₒ, iₒ])]⟩,
  -- line 1968: mnfe,kldc,delj,fami,cbkn->abij
  ⟨1, [g_abab [mₒ, nₒ, fᵥ, eᵥ], l2_aaaa [kₒ, lₒ, dᵥ, cᵥ], t2_abab [dᵥ, eᵥ, lₒ, jₒ], t2_abab [fᵥ, aᵥ, mₒ, iₒ], t2_abab [cᵥ, bᵥ, kₒ, nₒ]], [(1, [aᵥ, bᵥ, iₒ, jₒ]), (-1, [aᵥ, bᵥ, jₒ, iₒ]), (-1, [bᵥ, aᵥ, iₒ, jₒ]), (1, [bᵥ, aᵥ, jₒ, iₒ])]⟩,
  -- line 1972: nmef,kldc,delj,faim,cbkn->abij
  ⟨-1, [g_bbbb [nₒ, mₒ, eᵥ, fᵥ], l2_aaaa [kₒ, lₒ, dᵥ, cᵥ], t2_abab [dᵥ, eᵥ, lₒ, jₒ], t2_bbbb [fᵥ, aᵥ, iₒ, mₒ], t2_abab [cᵥ, bᵥ, kₒ, nₒ]], [(1, [aᵥ, bᵥ, iₒ, jₒ]), (-1, [aᵥ, bᵥ, jₒ, iₒ]), (-1, [bᵥ, aᵥ, iₒ, jₒ]), (1, [bᵥ, aᵥ, jₒ, iₒ])]⟩,
  -- line 1976: mnfe,klcd,edjl,fami,cbkn->abij
  ⟨-1, [g_abab [mₒ, nₒ, fᵥ, eᵥ], l2_abab [kₒ, lₒ, cᵥ, dᵥ], t2_bbbb [eᵥ, dᵥ, jₒ, lₒ], t2_abab [fᵥ, aᵥ, mₒ, iₒ], t2_abab [cᵥ, bᵥ, kₒ, nₒ]], [(1, [aᵥ, bᵥ, iₒ, jₒ]), (-1, [aᵥ, bᵥ, jₒ, iₒ]), (-1, [bᵥ, aᵥ, iₒ, jₒ]), (1, [bᵥ, aᵥ, jₒ, iₒ])]⟩,
  -- line 1980: nmef,klcd,edjl,faim,cbkn->abij
  ⟨1, [g_bbbb [nₒ, mₒ, eᵥ, fᵥ], l2_abab [kₒ, lₒ, cᵥ, dᵥ], t2_bbbb [eᵥ, dᵥ, jₒ, lₒ], t2_bbbb [fᵥ, aᵥ, iₒ, mₒ], t2_abab [cᵥ, bᵥ, kₒ, nₒ]], [(1, [aᵥ, bᵥ, iₒ, jₒ]), (-1, [aᵥ, bᵥ, jₒ, iₒ]), (-1, [bᵥ, aᵥ, iₒ, jₒ]), (1, [bᵥ, aᵥ, jₒ, iₒ])]⟩,
  -- line 1984: mnfe,lkdc,delj,fami,cbkn->abij
  ⟨-1, [g_abab [mₒ, nₒ, fᵥ, eᵥ], l2_abab [lₒ, kₒ, dᵥ, cᵥ], t2_abab [dᵥ, eᵥ, lₒ, jₒ], t2_abab [fᵥ, aᵥ, mₒ, iₒ], t2_bbbb [cᵥ, bᵥ, kₒ, nₒ]], [(1, [aᵥ, bᵥ, iₒ, jₒ]), (-1, [aᵥ, bᵥ, jₒ, iₒ]), (-1, [bᵥ, aᵥ, iₒ, jₒ]), (1, [bᵥ, aᵥ, jₒ, iₒ])]⟩,
  -- line 1988: nmef,lkdc,delj,faim,cbkn->abij
  ⟨1, [g_bbbb [nₒ, mₒ, eᵥ, fᵥ], l2_abab [lₒ, kₒ, dᵥ, cᵥ], t2_abab [dᵥ, eᵥ, lₒ, jₒ], t2_bbbb [fᵥ, aᵥ, iₒ, mₒ], t2_bbbb [cᵥ, bᵥ, kₒ, nₒ]], [(1, [aᵥ, bᵥ, iₒ, jₒ]), (-1, [aᵥ, bᵥ, jₒ, iₒ]), (-1, [bᵥ, aᵥ, iₒ, jₒ]), (1, [bᵥ, aᵥ, jₒ, iₒ])]⟩,
  -- line 1992: nmef,lkcd,edlj,fami,cbnk->abij
  ⟨1, [g_aaaa [nₒ, mₒ, eᵥ, fᵥ], l2_abab [lₒ, kₒ, cᵥ, dᵥ], t2_abab [eᵥ, dᵥ, lₒ, jₒ], t2_abab [fᵥ, aᵥ, mₒ, iₒ], t2_abab [cᵥ, bᵥ, nₒ, kₒ]], [(1, [aᵥ, bᵥ, iₒ, jₒ]), (-1, [aᵥ, bᵥ, jₒ, iₒ]), (-1, [bᵥ, aᵥ, iₒ, jₒ]), (1, [bᵥ, aᵥ, jₒ, iₒ])]⟩,
  -- line 1996: nmef,lkcd,edlj,faim,cbnk->abij
  ⟨-1, [g_abab [nₒ, mₒ, eᵥ, fᵥ], l2_abab [lₒ, kₒ, cᵥ, dᵥ], t2_abab [eᵥ, dᵥ, lₒ, jₒ], t2_bbbb [fᵥ, aᵥ, iₒ, mₒ], t2_abab [cᵥ, bᵥ, nₒ, kₒ]], [(1, [aᵥ, bᵥ, iₒ, jₒ]), (-1, [aᵥ, bᵥ, jₒ, iₒ]), (-1, [bᵥ, aᵥ, iₒ, jₒ]), (1, [bᵥ, aᵥ, jₒ, iₒ])]⟩,
  -- line 2000: mnfe,kldc,edjl,fami,cbkn->abij
  ⟨1, [g_abab [mₒ, nₒ, fᵥ, eᵥ], l2_bbbb [kₒ, lₒ, dᵥ, cᵥ], t2_bbbb [eᵥ, dᵥ, jₒ, lₒ], t2_abab [fᵥ, aᵥ, mₒ, iₒ], t2_bbbb [cᵥ, bᵥ, kₒ, nₒ]], [(1, [aᵥ, bᵥ, iₒ, jₒ]), (-1, [aᵥ, bᵥ, jₒ, iₒ]), (-1, [bᵥ, aᵥ, iₒ, jₒ]), (1, [bᵥ, aᵥ, jₒ, iₒ])]⟩,
  -- line 2004: nmef,kldc,edjl,faim,cbkn->abij
  ⟨-1, [g_bbbb [nₒ, mₒ, eᵥ, fᵥ], l2_bbbb [kₒ, lₒ, dᵥ, cᵥ], t2_bbbb [eᵥ, dᵥ, jₒ, lₒ], t2_bbbb [fᵥ, aᵥ, iₒ, mₒ], t2_bbbb [cᵥ, bᵥ, kₒ, nₒ]], [(1, [aᵥ, bᵥ, iₒ, jₒ]), (-1, [aᵥ, bᵥ, jₒ, iₒ]), (-1, [bᵥ, aᵥ, iₒ, jₒ]), (1, [bᵥ, aᵥ, jₒ, iₒ])]⟩,
  -- line 2008: nmfe,kldc,delj,faki,cbnm->abij
  ⟨-1/2, [g_abab [nₒ, mₒ, fᵥ, eᵥ], l2_aaaa [kₒ, lₒ, dᵥ, cᵥ], t2_abab [dᵥ, eᵥ, lₒ, jₒ], t2_abab [fᵥ, aᵥ, kₒ, iₒ], t2_abab [cᵥ, bᵥ, nₒ, mₒ]], [(1, [aᵥ, bᵥ, iₒ, jₒ]), (-1, [aᵥ, bᵥ, jₒ, iₒ]), (-1, [bᵥ, aᵥ, iₒ, jₒ]), (1, [bᵥ, aᵥ, jₒ, iₒ])]⟩,
  -- line 2012: mnfe,kldc,delj,faki,cbmn->abij
  ⟨-1/2, [g_abab [mₒ, nₒ, fᵥ, eᵥ], l2_aaaa [kₒ, lₒ, dᵥ, cᵥ], t2_abab [dᵥ, eᵥ, lₒ, jₒ], t2_abab [fᵥ, aᵥ, kₒ, iₒ], t2_abab [cᵥ, bᵥ, mₒ, nₒ]], [(1, [aᵥ, bᵥ, iₒ, jₒ]), (-1, [aᵥ, bᵥ, jₒ, iₒ]), (-1, [bᵥ, aᵥ, iₒ, jₒ]), (1, [bᵥ, aᵥ, jₒ, iₒ])]⟩,
  -- line 2016: nmfe,klcd,edjl,faki,cbnm->abij
  ⟨1/2, [g_abab [nₒ, mₒ, fᵥ, eᵥ], l2_abab [kₒ, lₒ, cᵥ, dᵥ], t2_bbbb [eᵥ, dᵥ, jₒ, lₒ], t2_abab [fᵥ, aᵥ, kₒ, iₒ], t2_abab [cᵥ, bᵥ, nₒ, mₒ]], [(1, [aᵥ, bᵥ, iₒ, jₒ]), (-1, [aᵥ, bᵥ, jₒ, iₒ]), (-1, [bᵥ, aᵥ, iₒ, jₒ]), (1, [bᵥ, aᵥ, jₒ, iₒ])]⟩,
  -- line 2020: mnfe,klcd,edjl,faki,cbmn->abij
  ⟨1/2, [g_abab [mₒ, nₒ, fᵥ, eᵥ], l2_abab [kₒ, lₒ, cᵥ, dᵥ], t2_bbbb [eᵥ, dᵥ, jₒ, lₒ], t2_abab [fᵥ, aᵥ, kₒ, iₒ], t2_abab [cᵥ, bᵥ, mₒ, nₒ]], [(1, [aᵥ, bᵥ, iₒ, jₒ]), (-1, [aᵥ, bᵥ, jₒ, iₒ]), (-1, [bᵥ, aᵥ, iₒ, jₒ]), (1, [bᵥ, aᵥ, jₒ, iₒ])]⟩,
  -- line 2024: nmef,lkdc,delj,faik,cbnm->abij
  ⟨1/2, [g_bbbb [nₒ, mₒ, eᵥ, fᵥ], l2_abab [lₒ, kₒ, dᵥ, cᵥ], t2_abab [dᵥ, eᵥ, lₒ, jₒ], t2_bbbb [fᵥ, aᵥ, iₒ, kₒ], t2_bbbb [cᵥ, bᵥ, nₒ, mₒ]], [(1, [aᵥ, bᵥ, iₒ, jₒ]), (-1, [aᵥ, bᵥ, jₒ, iₒ]), (-1, [bᵥ, aᵥ, iₒ, jₒ]), (1, [bᵥ, aᵥ, jₒ, iₒ])]⟩,
  -- line 2028: nmef,lkcd,edlj,faik,cbnm->abij
  ⟨1/2, [g_abab [nₒ, mₒ, eᵥ, fᵥ], l2_abab [lₒ, kₒ, cᵥ, dᵥ], t2_abab [eᵥ, dᵥ, lₒ, jₒ], t2_bbbb [fᵥ, aᵥ, iₒ, kₒ], t2_abab [cᵥ, bᵥ, nₒ, mₒ]], [(1, [aᵥ, bᵥ, iₒ, jₒ]), (-1, [aᵥ, bᵥ, jₒ, iₒ]), (-1, [bᵥ, aᵥ, iₒ, jₒ]), (1, [bᵥ, aᵥ, jₒ, iₒ])]⟩,
  -- line 2032: mnef,lkcd,edlj,faik,cbmn->abij
  ⟨1/2, [g_abab [mₒ, nₒ, eᵥ, fᵥ], l2_abab [lₒ, kₒ, cᵥ, dᵥ], t2_abab [eᵥ, dᵥ, lₒ, jₒ], t2_bbbb [fᵥ, aᵥ, iₒ, kₒ], t2_abab [cᵥ, bᵥ, mₒ, nₒ]], [(1, [aᵥ, bᵥ, iₒ, jₒ]), (-1, [aᵥ, bᵥ, jₒ, iₒ]), (-1, [bᵥ, aᵥ, iₒ, jₒ]), (1, [bᵥ, aᵥ, jₒ, iₒ])]⟩,
  -- line 2036: nmef,kldc,edjl,faik,cbnm->abij
  ⟨-1/2, [g_bbbb [nₒ, mₒ, eᵥ, fᵥ], l2_bbbb [kₒ, lₒ, dᵥ, cᵥ], t2_bbbb [eᵥ, dᵥ, jₒ, lₒ], t2_bbbb [fᵥ, aᵥ, iₒ, kₒ], t2_bbbb [cᵥ, bᵥ, nₒ, mₒ]], [(1, [aᵥ, bᵥ, iₒ, jₒ]), (-1, [aᵥ, bᵥ, jₒ, iₒ]), (-1, [bᵥ, aᵥ, iₒ, jₒ]), (1, [bᵥ, aᵥ, jₒ, iₒ])]⟩,
  -- line 2040: mnfe,klcd,edij,faml,cbkn->abij
  ⟨-1, [g_abab [mₒ, nₒ, fᵥ, eᵥ], l2_abab [kₒ, lₒ, cᵥ, dᵥ], t2_bbbb [eᵥ, dᵥ, iₒ, jₒ], t2_abab [fᵥ, aᵥ, mₒ, lₒ], t2_abab [cᵥ, bᵥ, kₒ, nₒ]], [(1, [aᵥ, bᵥ, iₒ, jₒ]), (-1, [bᵥ, aᵥ, iₒ, jₒ])]⟩,
  -- line 2044: nmef,klcd,edij,falm,cbkn->abij
  ⟨1, [g_bbbb [nₒ, mₒ, eᵥ, fᵥ], l2_abab [kₒ, lₒ, cᵥ, dᵥ], t2_bbbb [eᵥ, dᵥ, iₒ, jₒ], t2_bbbb [fᵥ, aᵥ, lₒ, mₒ], t2_abab [cᵥ, bᵥ, kₒ, nₒ]], [(1, [aᵥ, bᵥ, iₒ, jₒ]), (-1, [bᵥ, aᵥ, iₒ, jₒ])]⟩,
  -- line 2048: nmfe,lkcd,edij,falm,cbnk->abij
  ⟨-1, [g_abab [nₒ, mₒ, fᵥ, eᵥ], l2_abab [lₒ, kₒ, cᵥ, dᵥ], t2_bbbb [eᵥ, dᵥ, iₒ, jₒ], t2_abab [fᵥ, aᵥ, lₒ, mₒ], t2_abab [cᵥ, bᵥ, nₒ, kₒ]], [(1, [aᵥ, bᵥ, iₒ, jₒ]), (-1, [bᵥ, aᵥ, iₒ, jₒ])]⟩,
  -- line 2052: mnfe,kldc,edij,faml,cbkn->abij
  ⟨1, [g_abab [mₒ, nₒ, fᵥ, eᵥ], l2_bbbb [kₒ, lₒ, dᵥ, cᵥ], t2_bbbb [eᵥ, dᵥ, iₒ, jₒ], t2_abab [fᵥ, aᵥ, mₒ, lₒ], t2_bbbb [cᵥ, bᵥ, kₒ, nₒ]], [(1, [aᵥ, bᵥ, iₒ, jₒ]), (-1, [bᵥ, aᵥ, iₒ, jₒ])]⟩,
  -- line 2056: nmef,kldc,edij,falm,cbkn->abij
  ⟨-1, [g_bbbb [nₒ, mₒ, eᵥ, fᵥ], l2_bbbb [kₒ, lₒ, dᵥ, cᵥ], t2_bbbb [eᵥ, dᵥ, iₒ, jₒ], t2_bbbb [fᵥ, aᵥ, lₒ, mₒ], t2_bbbb [cᵥ, bᵥ, kₒ, nₒ]], [(1, [aᵥ, bᵥ, iₒ, jₒ]), (-1, [bᵥ, aᵥ, iₒ, jₒ])]⟩,
  -- line 2060: nmfe,klcd,edij,fakl,cbnm->abij
  ⟨1/4, [g_abab [nₒ, mₒ, fᵥ, eᵥ], l2_abab [kₒ, lₒ, cᵥ, dᵥ], t2_bbbb [eᵥ, dᵥ, iₒ, jₒ], t2_abab [fᵥ, aᵥ, kₒ, lₒ], t2_abab [cᵥ, bᵥ, nₒ, mₒ]], [(1, [aᵥ, bᵥ, iₒ, jₒ]), (-1, [bᵥ, aᵥ, iₒ, jₒ])]⟩,
  -- line 2064: mnfe,klcd,edij,fakl,cbmn->abij
  ⟨1/4, [g_abab [mₒ, nₒ, fᵥ, eᵥ], l2_abab [kₒ, lₒ, cᵥ, dᵥ], t2_bbbb [eᵥ, dᵥ, iₒ, jₒ], t2_abab [fᵥ, aᵥ, kₒ, lₒ], t2_abab [cᵥ, bᵥ, mₒ, nₒ]], [(1, [aᵥ, bᵥ, iₒ, jₒ]), (-1, [bᵥ, aᵥ, iₒ, jₒ])]⟩,
  -- line 2068: nmfe,lkcd,edij,falk,cbnm->abij
  ⟨1/4, [g_abab [nₒ, mₒ, fᵥ, eᵥ], l2_abab [lₒ, kₒ, cᵥ, dᵥ], t2_bbbb [eᵥ, dᵥ, iₒ, jₒ], t2_abab [fᵥ, aᵥ, lₒ, kₒ], t2_abab [cᵥ, bᵥ, nₒ, mₒ]], [(1, [aᵥ, bᵥ, iₒ, jₒ]), (-1, [bᵥ, aᵥ, iₒ, jₒ])]⟩,
  -- line 2072: mnfe,lkcd,edij,falk,cbmn->abij
  ⟨1/4, [g_abab [mₒ, nₒ, fᵥ, eᵥ], l2_abab [lₒ, kₒ, cᵥ, dᵥ], t2_bbbb [eᵥ, dᵥ, iₒ, jₒ], t2_abab [fᵥ, aᵥ, lₒ, kₒ], t2_abab [cᵥ, bᵥ, mₒ, nₒ]], [(1, [aᵥ, bᵥ, iₒ, jₒ]), (-1, [bᵥ, aᵥ, iₒ, jₒ])]⟩,
  -- line 2076: nmef,kldc,edij,fakl,cbnm->abij
  ⟨1/4, [g_bbbb [nₒ, mₒ, eᵥ, fᵥ], l2_bbbb [kₒ, lₒ, dᵥ, cᵥ], t2_bbbb [eᵥ, dᵥ, iₒ, jₒ], t2_bbbb [fᵥ, aᵥ, kₒ, lₒ], t2_bbbb [cᵥ, bᵥ, nₒ, mₒ]], [(1, [aᵥ, bᵥ, iₒ, jₒ]), (-1, [bᵥ, aᵥ, iₒ, jₒ])]⟩,
  -- line 2080: nmef,kldc,eaml,fbkj,dcni->abij
  ⟨-1/2, [g_aaaa [nₒ, mₒ, eᵥ, fᵥ], l2_abab [kₒ, lₒ, dᵥ, cᵥ], t2_abab [eᵥ, aᵥ, mₒ, lₒ], t2_abab [fᵥ, bᵥ, kₒ, jₒ], t2_abab [dᵥ, cᵥ, nₒ, iₒ]], [(1, [aᵥ, bᵥ, iₒ, jₒ]), (-1, [aᵥ, bᵥ, jₒ, iₒ])]⟩,
  -- line 2084: nmfe,kldc,ealm,fbkj,dcni->abij
  ⟨-1/2, [g_abab [nₒ, mₒ, fᵥ, eᵥ], l2_abab [kₒ, lₒ, dᵥ, cᵥ], t2_bbbb [eᵥ, aᵥ, lₒ, mₒ], t2_abab [fᵥ, bᵥ, kₒ, jₒ], t2_abab [dᵥ, cᵥ, nₒ, iₒ]], [(1, [aᵥ, bᵥ, iₒ, jₒ]), (-1, [aᵥ, bᵥ, jₒ, iₒ])]⟩,
  -- line 2088: nmef,klcd,eaml,fbkj,cdni->abij
  ⟨-1/2, [g_aaaa [nₒ, mₒ, eᵥ, fᵥ], l2_abab [kₒ, lₒ, cᵥ, dᵥ], t2_abab [eᵥ, aᵥ, mₒ, lₒ], t2_abab [fᵥ, bᵥ, kₒ, jₒ], t2_abab [cᵥ, dᵥ, nₒ, iₒ]], [(1, [aᵥ, bᵥ, iₒ, jₒ]), (-1, [aᵥ, bᵥ, jₒ, iₒ])]⟩,
  -- line 2092: nmfe,klcd,ealm,fbkj,cdni->abij
  ⟨-1/2, [g_abab [nₒ, mₒ, fᵥ, eᵥ], l2_abab [kₒ, lₒ, cᵥ, dᵥ], t2_bbbb [eᵥ, aᵥ, lₒ, mₒ], t2_abab [fᵥ, bᵥ, kₒ, jₒ], t2_abab [cᵥ, dᵥ, nₒ, iₒ]], [(1, [aᵥ, bᵥ, iₒ, jₒ]), (-1, [aᵥ, bᵥ, jₒ, iₒ])]⟩,
  -- line 2096: nmef,lkdc,ealm,fbjk,dcni->abij
  ⟨1/2, [g_abab [nₒ, mₒ, eᵥ, fᵥ], l2_abab [lₒ, kₒ, dᵥ, cᵥ], t2_abab [eᵥ, aᵥ, lₒ, mₒ], t2_bbbb [fᵥ, bᵥ, jₒ, kₒ], t2_abab [dᵥ, cᵥ, nₒ, iₒ]], [(1, [aᵥ, bᵥ, iₒ, jₒ]), (-1, [aᵥ, bᵥ, jₒ, iₒ])]⟩,
  -- line 2100: nmef,lkcd,ealm,fbjk,cdni->abij
  ⟨1/2, [g_abab [nₒ, mₒ, eᵥ, fᵥ], l2_abab [lₒ, kₒ, cᵥ, dᵥ], t2_abab [eᵥ, aᵥ, lₒ, mₒ], t2_bbbb [fᵥ, bᵥ, jₒ, kₒ], t2_abab [cᵥ, dᵥ, nₒ, iₒ]], [(1, [aᵥ, bᵥ, iₒ, jₒ]), (-1, [aᵥ, bᵥ, jₒ, iₒ])]⟩,
  -- line 2104: mnef,kldc,eaml,fbjk,dcin->abij
  ⟨1/2, [g_abab [mₒ, nₒ, eᵥ, fᵥ], l2_bbbb [kₒ, lₒ, dᵥ, cᵥ], t2_abab [eᵥ, aᵥ, mₒ, lₒ], t2_bbbb [fᵥ, bᵥ, jₒ, kₒ], t2_bbbb [dᵥ, cᵥ, iₒ, nₒ]], [(1, [aᵥ, bᵥ, iₒ, jₒ]), (-1, [aᵥ, bᵥ, jₒ, iₒ])]⟩,
  -- line 2108: nmef,kldc,ealm,fbjk,dcin->abij
  ⟨1/2, [g_bbbb [nₒ, mₒ, eᵥ, fᵥ], l2_bbbb [kₒ, lₒ, dᵥ, cᵥ], t2_bbbb [eᵥ, aᵥ, lₒ, mₒ], t2_bbbb [fᵥ, bᵥ, jₒ, kₒ], t2_bbbb [dᵥ, cᵥ, iₒ, nₒ]], [(1, [aᵥ, bᵥ, iₒ, jₒ]), (-1, [aᵥ, bᵥ, jₒ, iₒ])]⟩,
  -- line 2112: nmef,kldc,ealm,fbij,dckn->abij
  ⟨3/8, [g_abab [nₒ, mₒ, eᵥ, fᵥ], l2_aaaa [kₒ, lₒ, dᵥ, cᵥ], t2_abab [eᵥ, aᵥ, lₒ, mₒ], t2_bbbb [fᵥ, bᵥ, iₒ, jₒ], t2_aaaa [dᵥ, cᵥ, kₒ, nₒ]], [(1, [aᵥ, bᵥ, iₒ, jₒ])]⟩
  ]

/-- Part 5 of `residQf2_bbbb`. -/
def residQf2_bbbb_5 : Prog := [
  -- line 2115: mnef,kldc,eaml,fbij,dckn->abij
  ⟨3/8, [g_abab [mₒ, nₒ, eᵥ, fᵥ], l2_abab [kₒ, lₒ, dᵥ, cᵥ], t2_abab [eᵥ, aᵥ, mₒ, lₒ], t2_bbbb [fᵥ, bᵥ, iₒ, jₒ], t2_abab [dᵥ, cᵥ, kₒ, nₒ]], [(1, [aᵥ, bᵥ, iₒ, jₒ])]⟩,
  -- line 2118: nmef,kldc,ealm,fbij,dckn->abij
  ⟨3/8, [g_bbbb [nₒ, mₒ, eᵥ, fᵥ], l2_abab [kₒ, lₒ, dᵥ, cᵥ], t2_bbbb [eᵥ, aᵥ, lₒ, mₒ], t2_bbbb [fᵥ, bᵥ, iₒ, jₒ], t2_abab [dᵥ, cᵥ, kₒ, nₒ]], [(1, [aᵥ, bᵥ, iₒ, jₒ])]⟩,
  -- line 2121: mnef,klcd,eaml,fbij,cdkn->abij
  ⟨3/8, [g_abab [mₒ, nₒ, eᵥ, fᵥ], l2_abab [kₒ, lₒ, cᵥ, dᵥ], t2_abab [eᵥ, aᵥ, mₒ, lₒ], t2_bbbb [fᵥ, bᵥ, iₒ, jₒ], t2_abab [cᵥ, dᵥ, kₒ, nₒ]], [(1, [aᵥ, bᵥ, iₒ, jₒ])]⟩,
  -- line 2124: nmef,klcd,ealm,fbij,cdkn->abij
  ⟨3/8, [g_bbbb [nₒ, mₒ, eᵥ, fᵥ], l2_abab [kₒ, lₒ, cᵥ, dᵥ], t2_bbbb [eᵥ, aᵥ, lₒ, mₒ], t2_bbbb [fᵥ, bᵥ, iₒ, jₒ], t2_abab [cᵥ, dᵥ, kₒ, nₒ]], [(1, [aᵥ, bᵥ, iₒ, jₒ])]⟩,
  -- line 2127: nmef,lkdc,ealm,fbij,dcnk->abij
  ⟨3/8, [g_abab [nₒ, mₒ, eᵥ, fᵥ], l2_abab [lₒ, kₒ, dᵥ, cᵥ], t2_abab [eᵥ, aᵥ, lₒ, mₒ], t2_bbbb [fᵥ, bᵥ, iₒ, jₒ], t2_abab [dᵥ, cᵥ, nₒ, kₒ]], [(1, [aᵥ, bᵥ, iₒ, jₒ])]⟩,
  -- line 2130: nmef,lkcd,ealm,fbij,cdnk->abij
  ⟨3/8, [g_abab [nₒ, mₒ, eᵥ, fᵥ], l2_abab [lₒ, kₒ, cᵥ, dᵥ], t2_abab [eᵥ, aᵥ, lₒ, mₒ], t2_bbbb [fᵥ, bᵥ, iₒ, jₒ], t2_abab [cᵥ, dᵥ, nₒ, kₒ]], [(1, [aᵥ, bᵥ, iₒ, jₒ])]⟩,
  -- line 2133: mnef,kldc,eaml,fbij,dckn->abij
  ⟨3/8, [g_abab [mₒ, nₒ, eᵥ, fᵥ], l2_bbbb [kₒ, lₒ, dᵥ, cᵥ], t2_abab [eᵥ, aᵥ, mₒ, lₒ], t2_bbbb [fᵥ, bᵥ, iₒ, jₒ], t2_bbbb [dᵥ, cᵥ, kₒ, nₒ]], [(1, [aᵥ, bᵥ, iₒ, jₒ])]⟩,
  -- line 2136: nmef,kldc,ealm,fbij,dckn->abij
  ⟨3/8, [g_bbbb [nₒ, mₒ, eᵥ, fᵥ], l2_bbbb [kₒ, lₒ, dᵥ, cᵥ], t2_bbbb [eᵥ, aᵥ, lₒ, mₒ], t2_bbbb [fᵥ, bᵥ, iₒ, jₒ], t2_bbbb [dᵥ, cᵥ, kₒ, nₒ]], [(1, [aᵥ, bᵥ, iₒ, jₒ])]⟩,
  -- line 2139: nmef,kldc,eamj,fbkl,dcni->abij
  ⟨1/4, [g_aaaa [nₒ, mₒ, eᵥ, fᵥ], l2_abab [kₒ, lₒ, dᵥ, cᵥ], t2_abab [eᵥ, aᵥ, mₒ, jₒ], t2_abab [fᵥ, bᵥ, kₒ, lₒ], t2_abab [dᵥ, cᵥ, nₒ, iₒ]], [(1, [aᵥ, bᵥ, iₒ, jₒ]), (-1, [aᵥ, bᵥ, jₒ, iₒ])]⟩,
  -- line 2143: nmfe,kldc,eajm,fbkl,dcni->abij
  ⟨1/4, [g_abab [nₒ, mₒ, fᵥ, eᵥ], l2_abab [kₒ, lₒ, dᵥ, cᵥ], t2_bbbb [eᵥ, aᵥ, jₒ, mₒ], t2_abab [fᵥ, bᵥ, kₒ, lₒ], t2_abab [dᵥ, cᵥ, nₒ, iₒ]], [(1, [aᵥ, bᵥ, iₒ, jₒ]), (-1, [aᵥ, bᵥ, jₒ, iₒ])]⟩,
  -- line 2147: nmef,klcd,eamj,fbkl,cdni->abij
  ⟨1/4, [g_aaaa [nₒ, mₒ, eᵥ, fᵥ], l2_abab [kₒ, lₒ, cᵥ, dᵥ], t2_abab [eᵥ, aᵥ, mₒ, jₒ], t2_abab [fᵥ, bᵥ, kₒ, lₒ], t2_abab [cᵥ, dᵥ, nₒ, iₒ]], [(1, [aᵥ, bᵥ, iₒ, jₒ]), (-1, [aᵥ, bᵥ, jₒ, iₒ])]⟩,
  -- line 2151: nmfe,klcd,eajm,fbkl,cdni->abij
  ⟨1/4, [g_abab [nₒ, mₒ, fᵥ, eᵥ], l2_abab [kₒ, lₒ, cᵥ, dᵥ], t2_bbbb [eᵥ, aᵥ, jₒ, mₒ], t2_abab [fᵥ, bᵥ, kₒ, lₒ], t2_abab [cᵥ, dᵥ, nₒ, iₒ]], [(1, [aᵥ, bᵥ, iₒ, jₒ]), (-1, [aᵥ, bᵥ, jₒ, iₒ])]⟩,
  -- line 2155: nmef,lkdc,eamj,fblk,dcni->abij
  ⟨1/4, [g_aaaa [nₒ, mₒ, eᵥ, fᵥ], l2_abab [lₒ, kₒ, dᵥ, cᵥ], t2_abab [eᵥ, aᵥ, mₒ, jₒ], t2_abab [fᵥ, bᵥ, lₒ, kₒ], t2_abab [dᵥ, cᵥ, nₒ, iₒ]], [(1, [aᵥ, bᵥ, iₒ, jₒ]), (-1, [aᵥ, bᵥ, jₒ, iₒ])]⟩,
  -- line 2159: nmfe,lkdc,eajm,fblk,dcni->abij
  ⟨1/4, [g_abab [nₒ, mₒ, fᵥ, eᵥ], l2_abab [lₒ, kₒ, dᵥ, cᵥ], t2_bbbb [eᵥ, aᵥ, jₒ, mₒ], t2_abab [fᵥ, bᵥ, lₒ, kₒ], t2_abab [dᵥ, cᵥ, nₒ, iₒ]], [(1, [aᵥ, bᵥ, iₒ, jₒ]), (-1, [aᵥ, bᵥ, jₒ, iₒ])]⟩,
  -- line 2163: nmef,lkcd,eamj,fblk,cdni->abij
  ⟨1/4, [g_aaaa [nₒ, mₒ, eᵥ, fᵥ], l2_abab [lₒ, kₒ, cᵥ, dᵥ], t2_abab [eᵥ, aᵥ, mₒ, jₒ], t2_abab [fᵥ, bᵥ, lₒ, kₒ], t2_abab [cᵥ, dᵥ, nₒ, iₒ]], [(1, [aᵥ, bᵥ, iₒ, jₒ]), (-1, [aᵥ, bᵥ, jₒ, iₒ])]⟩,
  -- line 2167: nmfe,lkcd,eajm,fblk,cdni->abij
  ⟨1/4, [g_abab [nₒ, mₒ, fᵥ, eᵥ], l2_abab [lₒ, kₒ, cᵥ, dᵥ], t2_bbbb [eᵥ, aᵥ, jₒ, mₒ], t2_abab [fᵥ, bᵥ, lₒ, kₒ], t2_abab [cᵥ, dᵥ, nₒ, iₒ]], [(1, [aᵥ, bᵥ, iₒ, jₒ]), (-1, [aᵥ, bᵥ, jₒ, iₒ])]⟩,
  -- line 2171: mnef,kldc,eamj,fbkl,dcin->abij
  ⟨1/4, [g_abab [mₒ, nₒ, eᵥ, fᵥ], l2_bbbb [kₒ, lₒ, dᵥ, cᵥ], t2_abab [eᵥ, aᵥ, mₒ, jₒ], t2_bbbb [fᵥ, bᵥ, kₒ, lₒ], t2_bbbb [dᵥ, cᵥ, iₒ, nₒ]], [(1, [aᵥ, bᵥ, iₒ, jₒ]), (-1, [aᵥ, bᵥ, jₒ, iₒ])]⟩,
  -- line 2175: nmef,kldc,eajm,fbkl,dcin->abij
  ⟨1/4, [g_bbbb [nₒ, mₒ, eᵥ, fᵥ], l2_bbbb [kₒ, lₒ, dᵥ, cᵥ], t2_bbbb [eᵥ, aᵥ, jₒ, mₒ], t2_bbbb [fᵥ, bᵥ, kₒ, lₒ], t2_bbbb [dᵥ, cᵥ, iₒ, nₒ]], [(1, [aᵥ, bᵥ, iₒ, jₒ]), (-1, [aᵥ, bᵥ, jₒ, iₒ])]⟩,
  -- line 2179: nmef,kldc,eamj,fbli,dckn->abij
  ⟨-3/8, [g_aaaa [nₒ, mₒ, eᵥ, fᵥ], l2_aaaa [kₒ, lₒ, dᵥ, cᵥ], t2_abab [eᵥ, aᵥ, mₒ, jₒ], t2_abab [fᵥ, bᵥ, lₒ, iₒ], t2_aaaa [dᵥ, cᵥ, kₒ, nₒ]], [(1, [aᵥ, bᵥ, iₒ, jₒ]), (-1, [aᵥ, bᵥ, jₒ, iₒ])]⟩,
  -- line 2183: nmfe,kldc,eajm,fbli,dckn->abij
  ⟨-3/8, [g_abab [nₒ, mₒ, fᵥ, eᵥ], l2_aaaa [kₒ, lₒ, dᵥ, cᵥ], t2_bbbb [eᵥ, aᵥ, jₒ, mₒ], t2_abab [fᵥ, bᵥ, lₒ, iₒ], t2_aaaa [dᵥ, cᵥ, kₒ, nₒ]], [(1, [aᵥ, bᵥ, iₒ, jₒ]), (-1, [aᵥ, bᵥ, jₒ, iₒ])]⟩,
  -- line 2187: mnef,kldc,eamj,fbil,dckn->abij
  ⟨-3/8, [g_abab [mₒ, nₒ, eᵥ, fᵥ], l2_abab [kₒ, lₒ, dᵥ, cᵥ], t2_abab [eᵥ, aᵥ, mₒ, jₒ], t2_bbbb [fᵥ, bᵥ, iₒ, lₒ], t2_abab [dᵥ, cᵥ, kₒ, nₒ]], [(1, [aᵥ, bᵥ, iₒ, jₒ]), (-1, [aᵥ, bᵥ, jₒ, iₒ])]⟩,
  -- line 2191: nmef,kldc,eajm,fbil,dckn->abij
  ⟨-3/8, [g_bbbb [nₒ, mₒ, eᵥ, fᵥ], l2_abab [kₒ, lₒ, dᵥ, cᵥ], t2_bbbb [eᵥ, aᵥ, jₒ, mₒ], t2_bbbb [fᵥ, bᵥ, iₒ, lₒ], t2_abab [dᵥ, cᵥ, kₒ, nₒ]], [(1, [aᵥ, bᵥ, iₒ, jₒ]), (-1, [aᵥ, bᵥ, jₒ, iₒ])]⟩,
  -- line 2195: mnef,klcd,eamj,fbil,cdkn->abij
  ⟨-3/8, [g_abab [mₒ, nₒ, eᵥ, fᵥ], l2_abab [kₒ, lₒ, cᵥ, dᵥ], t2_abab [eᵥ, aᵥ, mₒ, jₒ], t2_bbbb [fᵥ, bᵥ, iₒ, lₒ], t2_abab [cᵥ, dᵥ, kₒ, nₒ]], [(1, [aᵥ, bᵥ, iₒ, jₒ]), (-1, [aᵥ, bᵥ, jₒ, iₒ])]⟩,
  -- line 2199: nmef,klcd,eajm,fbil,cdkn->abij
  ⟨-3/8, [g_bbbb [nₒ, mₒ, eᵥ, fᵥ], l2_abab [kₒ, lₒ, cᵥ, dᵥ], t2_bbbb [eᵥ, aᵥ, jₒ, mₒ], t2_bbbb [fᵥ, bᵥ, iₒ, lₒ], t2_abab [cᵥ, dᵥ, kₒ, nₒ]], [(1, [aᵥ, bᵥ, iₒ, jₒ]), (-1, [aᵥ, bᵥ, jₒ, iₒ])]⟩,
  -- line 2203: nmef,lkdc,eamj,fbli,dcnk->abij
  ⟨-3/8, [g_aaaa [nₒ, mₒ, eᵥ, fᵥ], l2_abab [lₒ, kₒ, dᵥ, cᵥ], t2_abab [eᵥ, aᵥ, mₒ, jₒ], t2_abab [fᵥ, bᵥ, lₒ, iₒ], t2_abab [dᵥ, cᵥ, nₒ, kₒ]], [(1, [aᵥ, bᵥ, iₒ, jₒ]), (-1, [aᵥ, bᵥ, jₒ, iₒ])]⟩,
  -- line 2207: nmfe,lkdc,eajm,fbli,dcnk->abij
  ⟨-3/8, [g_abab [nₒ, mₒ, fᵥ, eᵥ], l2_abab [lₒ, kₒ, dᵥ, cᵥ], t2_bbbb [eᵥ, aᵥ, jₒ, mₒ], t2_abab [fᵥ, bᵥ, lₒ, iₒ], t2_abab [dᵥ, cᵥ, nₒ, kₒ]], [(1, [aᵥ, bᵥ, iₒ, jₒ]), (-1, [aᵥ, bᵥ, jₒ, iₒ])]⟩,
  -- line 2211: nmef,lkcd,eamj,fbli,cdnk->abij
  ⟨-3/8, [g_aaaa [nₒ, mₒ, eᵥ, fᵥ], l2_abab [lₒ, kₒ, cᵥ, dᵥ], t2_abab [eᵥ, aᵥ, mₒ, jₒ], t2_abab [fᵥ, bᵥ, lₒ, iₒ], t2_abab [cᵥ, dᵥ, nₒ, kₒ]], [(1, [aᵥ, bᵥ, iₒ, jₒ]), (-1, [aᵥ, bᵥ, jₒ, iₒ])]⟩,
  -- line 2215: nmfe,lkcd,eajm,fbli,cdnk->abij
  ⟨-3/8, [g_abab [nₒ, mₒ, fᵥ, eᵥ], l2_abab [lₒ, kₒ, cᵥ, dᵥ], t2_bbbb [eᵥ, aᵥ, jₒ, mₒ], t2_abab [fᵥ, bᵥ, lₒ, iₒ], t2_abab [cᵥ, dᵥ, nₒ, kₒ]], [(1, [aᵥ, bᵥ, iₒ, jₒ]), (-1, [aᵥ, bᵥ, jₒ, iₒ])]⟩,
  -- line 2219: mnef,kldc,eamj,fbil,dckn->abij
  ⟨-3/8, [g_abab [mₒ, nₒ, eᵥ, fᵥ], l2_bbbb [kₒ, lₒ, dᵥ, cᵥ], t2_abab [eᵥ, aᵥ, mₒ, jₒ], t2_bbbb [fᵥ, bᵥ, iₒ, lₒ], t2_bbbb [dᵥ, cᵥ, kₒ, nₒ]], [(1, [aᵥ, bᵥ, iₒ, jₒ]), (-1, [aᵥ, bᵥ, jₒ, iₒ])]⟩,
  -- line 2223: nmef,kldc,eajm,fbil,dckn->abij
  ⟨-3/8, [g_bbbb [nₒ, mₒ, eᵥ, fᵥ], l2_bbbb [kₒ, lₒ, dᵥ, cᵥ], t2_bbbb [eᵥ, aᵥ, jₒ, mₒ], t2_bbbb [fᵥ, bᵥ, iₒ, lₒ], t2_bbbb [dᵥ, cᵥ, kₒ, nₒ]], [(1, [aᵥ, bᵥ, iₒ, jₒ]), (-1, [aᵥ, bᵥ, jₒ, iₒ])]⟩,
  -- line 2227: nmef,kldc,eakl,fbmj,dcni->abij
  ⟨1/4, [g_aaaa [nₒ, mₒ, eᵥ, fᵥ], l2_abab [kₒ, lₒ, dᵥ, cᵥ], t2_abab [eᵥ, aᵥ, kₒ, lₒ], t2_abab [fᵥ, bᵥ, mₒ, jₒ], t2_abab [dᵥ, cᵥ, nₒ, iₒ]], [(1, [aᵥ, bᵥ, iₒ, jₒ]), (-1, [aᵥ, bᵥ, jₒ, iₒ])]⟩,
  -- line 2231: nmef,kldc,eakl,fbjm,dcni->abij
  ⟨-1/4, [g_abab [nₒ, mₒ, eᵥ, fᵥ], l2_abab [kₒ, lₒ, dᵥ, cᵥ], t2_abab [eᵥ, aᵥ, kₒ, lₒ], t2_bbbb [fᵥ, bᵥ, jₒ, mₒ], t2_abab [dᵥ, cᵥ, nₒ, iₒ]], [(1, [aᵥ, bᵥ, iₒ, jₒ]), (-1, [aᵥ, bᵥ, jₒ, iₒ])]⟩,
  -- line 2235: nmef,klcd,eakl,fbmj,cdni->abij
  ⟨1/4, [g_aaaa [nₒ, mₒ, eᵥ, fᵥ], l2_abab [kₒ, lₒ, cᵥ, dᵥ], t2_abab [eᵥ, aᵥ, kₒ, lₒ], t2_abab [fᵥ, bᵥ, mₒ, jₒ], t2_abab [cᵥ, dᵥ, nₒ, iₒ]], [(1, [aᵥ, bᵥ, iₒ, jₒ]), (-1, [aᵥ, bᵥ, jₒ, iₒ])]⟩,
  -- line 2239: nmef,klcd,eakl,fbjm,cdni->abij
  ⟨-1/4, [g_abab [nₒ, mₒ, eᵥ, fᵥ], l2_abab [kₒ, lₒ, cᵥ, dᵥ], t2_abab [eᵥ, aᵥ, kₒ, lₒ], t2_bbbb [fᵥ, bᵥ, jₒ, mₒ], t2_abab [cᵥ, dᵥ, nₒ, iₒ]], [(1, [aᵥ, bᵥ, iₒ, jₒ]), (-1, [aᵥ, bᵥ, jₒ, iₒ])]⟩,
  -- line 2243: nmef,lkdc,ealk,fbmj,dcni->abij
  ⟨1/4, [g_aaaa [nₒ, mₒ, eᵥ, fᵥ], l2_abab [lₒ, kₒ, dᵥ, cᵥ], t2_abab [eᵥ, aᵥ, lₒ, kₒ], t2_abab [fᵥ, bᵥ, mₒ, jₒ], t2_abab [dᵥ, cᵥ, nₒ, iₒ]], [(1, [aᵥ, bᵥ, iₒ, jₒ]), (-1, [aᵥ, bᵥ, jₒ, iₒ])]⟩,
  -- line 2247: nmef,lkdc,ealk,fbjm,dcni->abij
  ⟨-1/4, [g_abab [nₒ, mₒ, eᵥ, fᵥ], l2_abab [lₒ, kₒ, dᵥ, cᵥ], t2_abab [eᵥ, aᵥ, lₒ, kₒ], t2_bbbb [fᵥ, bᵥ, jₒ, mₒ], t2_abab [dᵥ, cᵥ, nₒ, iₒ]], [(1, [aᵥ, bᵥ, iₒ, jₒ]), (-1, [aᵥ, bᵥ, jₒ, iₒ])]⟩,
  -- line 2251: nmef,lkcd,ealk,fbmj,cdni->abij
  ⟨1/4, [g_aaaa [nₒ, mₒ, eᵥ, fᵥ], l2_abab [lₒ, kₒ, cᵥ, dᵥ], t2_abab [eᵥ, aᵥ, lₒ, kₒ], t2_abab [fᵥ, bᵥ, mₒ, jₒ], t2_abab [cᵥ, dᵥ, nₒ, iₒ]], [(1, [aᵥ, bᵥ, iₒ, jₒ]), (-1, [aᵥ, bᵥ, jₒ, iₒ])]⟩,
  -- line 2255: nmef,lkcd,ealk,fbjm,cdni->abij
  ⟨-1/4, [g_abab [nₒ, mₒ, eᵥ, fᵥ], l2_abab [lₒ, kₒ, cᵥ, dᵥ], t2_abab [eᵥ, aᵥ, lₒ, kₒ], t2_bbbb [fᵥ, bᵥ, jₒ, mₒ], t2_abab [cᵥ, dᵥ, nₒ, iₒ]], [(1, [aᵥ, bᵥ, iₒ, jₒ]), (-1, [aᵥ, bᵥ, jₒ, iₒ])]⟩,
  -- line 2259: mnfe,kldc,eakl,fbmj,dcin->abij
  ⟨-1/4, [g_abab [mₒ, nₒ, fᵥ, eᵥ], l2_bbbb [kₒ, lₒ, dᵥ, cᵥ], t2_bbbb [eᵥ, aᵥ, kₒ, lₒ], t2_abab [fᵥ, bᵥ, mₒ, jₒ], t2_bbbb [dᵥ, cᵥ, iₒ, nₒ]], [(1, [aᵥ, bᵥ, iₒ, jₒ]), (-1, [aᵥ, bᵥ, jₒ, iₒ])]⟩,
  -- line 2263: nmef,kldc,eakl,fbjm,dcin->abij
  ⟨1/4, [g_bbbb [nₒ, mₒ, eᵥ, fᵥ], l2_bbbb [kₒ, lₒ, dᵥ, cᵥ], t2_bbbb [eᵥ, aᵥ, kₒ, lₒ], t2_bbbb [fᵥ, bᵥ, jₒ, mₒ], t2_bbbb [dᵥ, cᵥ, iₒ, nₒ]], [(1, [aᵥ, bᵥ, iₒ, jₒ]), (-1, [aᵥ, bᵥ, jₒ, iₒ])]⟩
  ]

/-- Part 6 of `residQf2_bbbb`. -/
def residQf2_bbbb_6 : Prog := [
  -- line 2267: nmef,kldc,eakl,fbij,dcnm->abij
  ⟨-1/8, [g_abab [nₒ, mₒ, eᵥ, fᵥ], l2_abab [kₒ, lₒ, dᵥ, cᵥ], t2_abab [eᵥ, aᵥ, kₒ, lₒ], t2_bbbb [fᵥ, bᵥ, iₒ, jₒ], t2_abab [dᵥ, cᵥ, nₒ, mₒ]], [(1, [aᵥ, bᵥ, iₒ, jₒ])]⟩,
  -- line 2270: mnef,kldc,eakl,fbij,dcmn->abij
  ⟨-1/8, [g_abab [mₒ, nₒ, eᵥ, fᵥ], l2_abab [kₒ, lₒ, dᵥ, cᵥ], t2_abab [eᵥ, aᵥ, kₒ, lₒ], t2_bbbb [fᵥ, bᵥ, iₒ, jₒ], t2_abab [dᵥ, cᵥ, mₒ, nₒ]], [(1, [aᵥ, bᵥ, iₒ, jₒ])]⟩,
  -- line 2273: nmef,klcd,eakl,fbij,cdnm->abij
  ⟨-1/8, [g_abab [nₒ, mₒ, eᵥ, fᵥ], l2_abab [kₒ, lₒ, cᵥ, dᵥ], t2_abab [eᵥ, aᵥ, kₒ, lₒ], t2_bbbb [fᵥ, bᵥ, iₒ, jₒ], t2_abab [cᵥ, dᵥ, nₒ, mₒ]], [(1, [aᵥ, bᵥ, iₒ, jₒ])]⟩,
  -- line 2276: mnef,klcd,eakl,fbij,cdmn->abij
  ⟨-1/8, [g_abab [mₒ, nₒ, eᵥ, fᵥ], l2_abab [kₒ, lₒ, cᵥ, dᵥ], t2_abab [eᵥ, aᵥ, kₒ, lₒ], t2_bbbb [fᵥ, bᵥ, iₒ, jₒ], t2_abab [cᵥ, dᵥ, mₒ, nₒ]], [(1, [aᵥ, bᵥ, iₒ, jₒ])]⟩,
  -- line 2279: nmef,lkdc,ealk,fbij,dcnm->abij
  ⟨-1/8, [g_abab [nₒ, mₒ, eᵥ, fᵥ], l2_abab [lₒ, kₒ, dᵥ, cᵥ], t2_abab [eᵥ, aᵥ, lₒ, kₒ], t2_bbbb [fᵥ, bᵥ, iₒ, jₒ], t2_abab [dᵥ, cᵥ, nₒ, mₒ]], [(1, [aᵥ, bᵥ, iₒ, jₒ])]⟩,
  -- line 2282: mnef,lkdc,ealk,fbij,dcmn->abij
  ⟨-1/8, [g_abab [mₒ, nₒ, eᵥ, fᵥ], l2_abab [lₒ, kₒ, dᵥ, cᵥ], t2_abab [eᵥ, aᵥ, lₒ, kₒ], t2_bbbb [fᵥ, bᵥ, iₒ, jₒ], t2_abab [dᵥ, cᵥ, mₒ, nₒ]], [(1, [aᵥ, bᵥ, iₒ, jₒ])]⟩,
  -- line 2285: nmef,lkcd,ealk,fbij,cdnm->abij
  ⟨-1/8, [g_abab [nₒ, mₒ, eᵥ, fᵥ], l2_abab [lₒ, kₒ, cᵥ, dᵥ], t2_abab [eᵥ, aᵥ, lₒ, kₒ], t2_bbbb [fᵥ, bᵥ, iₒ, jₒ], t2_abab [cᵥ, dᵥ, nₒ, mₒ]], [(1, [aᵥ, bᵥ, iₒ, jₒ])]⟩,
  -- line 2288: mnef,lkcd,ealk,fbij,cdmn->abij
  ⟨-1/8, [g_abab [mₒ, nₒ, eᵥ, fᵥ], l2_abab [lₒ, kₒ, cᵥ, dᵥ], t2_abab [eᵥ, aᵥ, lₒ, kₒ], t2_bbbb [fᵥ, bᵥ, iₒ, jₒ], t2_abab [cᵥ, dᵥ, mₒ, nₒ]], [(1, [aᵥ, bᵥ, iₒ, jₒ])]⟩,
  -- line 2291: nmef,kldc,eakl,fbij,dcnm->abij
  ⟨-1/8, [g_bbbb [nₒ, mₒ, eᵥ, fᵥ], l2_bbbb [kₒ, lₒ, dᵥ, cᵥ], t2_bbbb [eᵥ, aᵥ, kₒ, lₒ], t2_bbbb [fᵥ, bᵥ, iₒ, jₒ], t2_bbbb [dᵥ, cᵥ, nₒ, mₒ]], [(1, [aᵥ, bᵥ, iₒ, jₒ])]⟩,
  -- line 2294: nmfe,kldc,eajl,fbkm,dcni->abij
  ⟨-1/2, [g_abab [nₒ, mₒ, fᵥ, eᵥ], l2_abab [kₒ, lₒ, dᵥ, cᵥ], t2_bbbb [eᵥ, aᵥ, jₒ, lₒ], t2_abab [fᵥ, bᵥ, kₒ, mₒ], t2_abab [dᵥ, cᵥ, nₒ, iₒ]], [(1, [aᵥ, bᵥ, iₒ, jₒ]), (-1, [aᵥ, bᵥ, jₒ, iₒ])]⟩,
  -- line 2298: nmfe,klcd,eajl,fbkm,cdni->abij
  ⟨-1/2, [g_abab [nₒ, mₒ, fᵥ, eᵥ], l2_abab [kₒ, lₒ, cᵥ, dᵥ], t2_bbbb [eᵥ, aᵥ, jₒ, lₒ], t2_abab [fᵥ, bᵥ, kₒ, mₒ], t2_abab [cᵥ, dᵥ, nₒ, iₒ]], [(1, [aᵥ, bᵥ, iₒ, jₒ]), (-1, [aᵥ, bᵥ, jₒ, iₒ])]⟩,
  -- line 2302: nmef,lkdc,ealj,fbmk,dcni->abij
  ⟨-1/2, [g_aaaa [nₒ, mₒ, eᵥ, fᵥ], l2_abab [lₒ, kₒ, dᵥ, cᵥ], t2_abab [eᵥ, aᵥ, lₒ, jₒ], t2_abab [fᵥ, bᵥ, mₒ, kₒ], t2_abab [dᵥ, cᵥ, nₒ, iₒ]], [(1, [aᵥ, bᵥ, iₒ, jₒ]), (-1, [aᵥ, bᵥ, jₒ, iₒ])]⟩,
  -- line 2306: nmef,lkdc,ealj,fbkm,dcni->abij
  ⟨1/2, [g_abab [nₒ, mₒ, eᵥ, fᵥ], l2_abab [lₒ, kₒ, dᵥ, cᵥ], t2_abab [eᵥ, aᵥ, lₒ, jₒ], t2_bbbb [fᵥ, bᵥ, kₒ, mₒ], t2_abab [dᵥ, cᵥ, nₒ, iₒ]], [(1, [aᵥ, bᵥ, iₒ, jₒ]), (-1, [aᵥ, bᵥ, jₒ, iₒ])]⟩,
  -- line 2310: nmef,lkcd,ealj,fbmk,cdni->abij
  ⟨-1/2, [g_aaaa [nₒ, mₒ, eᵥ, fᵥ], l2_abab [lₒ, kₒ, cᵥ, dᵥ], t2_abab [eᵥ, aᵥ, lₒ, jₒ], t2_abab [fᵥ, bᵥ, mₒ, kₒ], t2_abab [cᵥ, dᵥ, nₒ, iₒ]], [(1, [aᵥ, bᵥ, iₒ, jₒ]), (-1, [aᵥ, bᵥ, jₒ, iₒ])]⟩,
  -- line 2314: nmef,lkcd,ealj,fbkm,cdni->abij
  ⟨1/2, [g_abab [nₒ, mₒ, eᵥ, fᵥ], l2_abab [lₒ, kₒ, cᵥ, dᵥ], t2_abab [eᵥ, aᵥ, lₒ, jₒ], t2_bbbb [fᵥ, bᵥ, kₒ, mₒ], t2_abab [cᵥ, dᵥ, nₒ, iₒ]], [(1, [aᵥ, bᵥ, iₒ, jₒ]), (-1, [aᵥ, bᵥ, jₒ, iₒ])]⟩,
  -- line 2318: mnfe,kldc,eajl,fbmk,dcin->abij
  ⟨1/2, [g_abab [mₒ, nₒ, fᵥ, eᵥ], l2_bbbb [kₒ, lₒ, dᵥ, cᵥ], t2_bbbb [eᵥ, aᵥ, jₒ, lₒ], t2_abab [fᵥ, bᵥ, mₒ, kₒ], t2_bbbb [dᵥ, cᵥ, iₒ, nₒ]], [(1, [aᵥ, bᵥ, iₒ, jₒ]), (-1, [aᵥ, bᵥ, jₒ, iₒ])]⟩,
  -- line 2322: nmef,kldc,eajl,fbkm,dcin->abij
  ⟨-1/2, [g_bbbb [nₒ, mₒ, eᵥ, fᵥ], l2_bbbb [kₒ, lₒ, dᵥ, cᵥ], t2_bbbb [eᵥ, aᵥ, jₒ, lₒ], t2_bbbb [fᵥ, bᵥ, kₒ, mₒ], t2_bbbb [dᵥ, cᵥ, iₒ, nₒ]], [(1, [aᵥ, bᵥ, iₒ, jₒ]), (-1, [aᵥ, bᵥ, jₒ, iₒ])]⟩,
  -- line 2326: nmef,kldc,ealj,fbmi,dckn->abij
  ⟨1/2, [g_aaaa [nₒ, mₒ, eᵥ, fᵥ], l2_aaaa [kₒ, lₒ, dᵥ, cᵥ], t2_abab [eᵥ, aᵥ, lₒ, jₒ], t2_abab [fᵥ, bᵥ, mₒ, iₒ], t2_aaaa [dᵥ, cᵥ, kₒ, nₒ]], [(1, [aᵥ, bᵥ, iₒ, jₒ]), (-1, [aᵥ, bᵥ, jₒ, iₒ])]⟩,
  -- line 2330: nmef,kldc,ealj,fbim,dckn->abij
  ⟨-1/2, [g_abab [nₒ, mₒ, eᵥ, fᵥ], l2_aaaa [kₒ, lₒ, dᵥ, cᵥ], t2_abab [eᵥ, aᵥ, lₒ, jₒ], t2_bbbb [fᵥ, bᵥ, iₒ, mₒ], t2_aaaa [dᵥ, cᵥ, kₒ, nₒ]], [(1, [aᵥ, bᵥ, iₒ, jₒ]), (-1, [aᵥ, bᵥ, jₒ, iₒ])]⟩,
  -- line 2334: mnfe,kldc,eajl,fbmi,dckn->abij
  ⟨-1/2, [g_abab [mₒ, nₒ, fᵥ, eᵥ], l2_abab [kₒ, lₒ, dᵥ, cᵥ], t2_bbbb [eᵥ, aᵥ, jₒ, lₒ], t2_abab [fᵥ, bᵥ, mₒ, iₒ], t2_abab [dᵥ, cᵥ, kₒ, nₒ]], [(1, [aᵥ, bᵥ, iₒ, jₒ]), (-1, [aᵥ, bᵥ, jₒ, iₒ])]⟩,
  -- line 2338: nmef,kldc,eajl,fbim,dckn->abij
  ⟨1/2, [g_bbbb [nₒ, mₒ, eᵥ, fᵥ], l2_abab [kₒ, lₒ, dᵥ, cᵥ], t2_bbbb [eᵥ, aᵥ, jₒ, lₒ], t2_bbbb [fᵥ, bᵥ, iₒ, mₒ], t2_abab [dᵥ, cᵥ, kₒ, nₒ]], [(1, [aᵥ, bᵥ, iₒ, jₒ]), (-1, [aᵥ, bᵥ, jₒ, iₒ])]⟩,
  -- line 2342: mnfe,klcd,eajl,fbmi,cdkn->abij
  ⟨-1/2, [g_abab [mₒ, nₒ, fᵥ, eᵥ], l2_abab [kₒ, lₒ, cᵥ, dᵥ], t2_bbbb [eᵥ, aᵥ, jₒ, lₒ], t2_abab [fᵥ, bᵥ, mₒ, iₒ], t2_abab [cᵥ, dᵥ, kₒ, nₒ]], [(1, [aᵥ, bᵥ, iₒ, jₒ]), (-1, [aᵥ, bᵥ, jₒ, iₒ])]⟩,
  -- line 2346: nmef,klcd,eajl,fbim,cdkn->abij
  ⟨1/2, [g_bbbb [nₒ, mₒ, eᵥ, fᵥ], l2_abab [kₒ, lₒ, cᵥ, dᵥ], t2_bbbb [eᵥ, aᵥ, jₒ, lₒ], t2_bbbb [fᵥ, bᵥ, iₒ, mₒ], t2_abab [cᵥ, dᵥ, kₒ, nₒ]], [(1, [aᵥ, bᵥ, iₒ, jₒ]), (-1, [aᵥ, bᵥ, jₒ, iₒ])]⟩,
  -- line 2350: nmef,lkdc,ealj,fbmi,dcnk->abij
  ⟨1/2, [g_aaaa [nₒ, mₒ, eᵥ, fᵥ], l2_abab [lₒ, kₒ, dᵥ, cᵥ], t2_abab [eᵥ, aᵥ, lₒ, jₒ], t2_abab [fᵥ, bᵥ, mₒ, iₒ], t2_abab [dᵥ, cᵥ, nₒ, kₒ]], [(1, [aᵥ, bᵥ, iₒ, jₒ]), (-1, [aᵥ, bᵥ, jₒ, iₒ])]⟩,
  -- line 2354: nmef,lkdc,ealj,fbim,dcnk->abij
  ⟨-1/2, [g_abab [nₒ, mₒ, eᵥ, fᵥ], l2_abab [lₒ, kₒ, dᵥ, cᵥ], t2_abab [eᵥ, aᵥ, lₒ, jₒ], t2_bbbb [fᵥ, bᵥ, iₒ, mₒ], t2_abab [dᵥ, cᵥ, nₒ, kₒ]], [(1, [aᵥ, bᵥ, iₒ, jₒ]), (-1, [aᵥ, bᵥ, jₒ, iₒ])]⟩,
  -- line 2358: nmef,lkcd,ealj,fbmi,cdnk->abij
  ⟨1/2, [g_aaaa [nₒ, mₒ, eᵥ, fᵥ], l2_abab [lₒ, kₒ, cᵥ, dᵥ], t2_abab [eᵥ, aᵥ, lₒ, jₒ], t2_abab [fᵥ, bᵥ, mₒ, iₒ], t2_abab [cᵥ, dᵥ, nₒ, kₒ]], [(1, [aᵥ, bᵥ, iₒ, jₒ]), (-1, [aᵥ, bᵥ, jₒ, iₒ])]⟩,
  -- line 2362: nmef,lkcd,ealj,fbim,cdnk->abij
  ⟨-1/2, [g_abab [nₒ, mₒ, eᵥ, fᵥ], l2_abab [lₒ, kₒ, cᵥ, dᵥ], t2_abab [eᵥ, aᵥ, lₒ, jₒ], t2_bbbb [fᵥ, bᵥ, iₒ, mₒ], t2_abab [cᵥ, dᵥ, nₒ, kₒ]], [(1, [aᵥ, bᵥ, iₒ, jₒ]), (-1, [aᵥ, bᵥ, jₒ, iₒ])]⟩,
  -- line 2366: mnfe,kldc,eajl,fbmi,dckn->abij
  ⟨-1/2, [g_abab [mₒ, nₒ, fᵥ, eᵥ], l2_bbbb [kₒ, lₒ, dᵥ, cᵥ], t2_bbbb [eᵥ, aᵥ, jₒ, lₒ], t2_abab [fᵥ, bᵥ, mₒ, iₒ], t2_bbbb [dᵥ, cᵥ, kₒ, nₒ]], [(1, [aᵥ, bᵥ, iₒ, jₒ]), (-1, [aᵥ, bᵥ, jₒ, iₒ])]⟩,
  -- line 2370: nmef,kldc,eajl,fbim,dckn->abij
  ⟨1/2, [g_bbbb [nₒ, mₒ, eᵥ, fᵥ], l2_bbbb [kₒ, lₒ, dᵥ, cᵥ], t2_bbbb [eᵥ, aᵥ, jₒ, lₒ], t2_bbbb [fᵥ, bᵥ, iₒ, mₒ], t2_bbbb [dᵥ, cᵥ, kₒ, nₒ]], [(1, [aᵥ, bᵥ, iₒ, jₒ]), (-1, [aᵥ, bᵥ, jₒ, iₒ])]⟩,
  -- line 2374: nmef,kldc,ealj,fbki,dcnm->abij
  ⟨1/4, [g_aaaa [nₒ, mₒ, eᵥ, fᵥ], l2_aaaa [kₒ, lₒ, dᵥ, cᵥ], t2_abab [eᵥ, aᵥ, lₒ, jₒ], t2_abab [fᵥ, bᵥ, kₒ, iₒ], t2_aaaa [dᵥ, cᵥ, nₒ, mₒ]], [(1, [aᵥ, bᵥ, iₒ, jₒ]), (-1, [aᵥ, bᵥ, jₒ, iₒ])]⟩,
  -- line 2378: nmfe,kldc,eajl,fbki,dcnm->abij
  ⟨1/4, [g_abab [nₒ, mₒ, fᵥ, eᵥ], l2_abab [kₒ, lₒ, dᵥ, cᵥ], t2_bbbb [eᵥ, aᵥ, jₒ, lₒ], t2_abab [fᵥ, bᵥ, kₒ, iₒ], t2_abab [dᵥ, cᵥ, nₒ, mₒ]], [(1, [aᵥ, bᵥ, iₒ, jₒ]), (-1, [aᵥ, bᵥ, jₒ, iₒ])]⟩,
  -- line 2382: mnfe,kldc,eajl,fbki,dcmn->abij
  ⟨1/4, [g_abab [mₒ, nₒ, fᵥ, eᵥ], l2_abab [kₒ, lₒ, dᵥ, cᵥ], t2_bbbb [eᵥ, aᵥ, jₒ, lₒ], t2_abab [fᵥ, bᵥ, kₒ, iₒ], t2_abab [dᵥ, cᵥ, mₒ, nₒ]], [(1, [aᵥ, bᵥ, iₒ, jₒ]), (-1, [aᵥ, bᵥ, jₒ, iₒ])]⟩,
  -- line 2386: nmfe,klcd,eajl,fbki,cdnm->abij
  ⟨1/4, [g_abab [nₒ, mₒ, fᵥ, eᵥ], l2_abab [kₒ, lₒ, cᵥ, dᵥ], t2_bbbb [eᵥ, aᵥ, jₒ, lₒ], t2_abab [fᵥ, bᵥ, kₒ, iₒ], t2_abab [cᵥ, dᵥ, nₒ, mₒ]], [(1, [aᵥ, bᵥ, iₒ, jₒ]), (-1, [aᵥ, bᵥ, jₒ, iₒ])]⟩,
  -- line 2390: mnfe,klcd,eajl,fbki,cdmn->abij
  ⟨1/4, [g_abab [mₒ, nₒ, fᵥ, eᵥ], l2_abab [kₒ, lₒ, cᵥ, dᵥ], t2_bbbb [eᵥ, aᵥ, jₒ, lₒ], t2_abab [fᵥ, bᵥ, kₒ, iₒ], t2_abab [cᵥ, dᵥ, mₒ, nₒ]], [(1, [aᵥ, bᵥ, iₒ, jₒ]), (-1, [aᵥ, bᵥ, jₒ, iₒ])]⟩,
  -- line 2394: nmef,lkdc,ealj,fbik,dcnm->abij
  ⟨1/4, [g_abab [nₒ, mₒ, eᵥ, fᵥ], l2_abab [lₒ, kₒ, dᵥ, cᵥ], t2_abab [eᵥ, aᵥ, lₒ, jₒ], t2_bbbb [fᵥ, bᵥ, iₒ, kₒ], t2_abab [dᵥ, cᵥ, nₒ, mₒ]], [(1, [aᵥ, bᵥ, iₒ, jₒ]), (-1, [aᵥ, bᵥ, jₒ, iₒ])]⟩,
  -- line 2398: mnef,lkdc,ealj,fbik,dcmn->abij
  ⟨1/4, [g_abab [mₒ, nₒ, eᵥ, fᵥ], l2_abab [lₒ, kₒ, dᵥ, cᵥ], t2_abab [eᵥ, aᵥ, lₒ, jₒ], t2_bbbb [fᵥ, bᵥ, iₒ, kₒ], t2_abab [dᵥ, cᵥ, mₒ, nₒ]], [(1, [aᵥ, bᵥ, iₒ, jₒ]), (-1, [aᵥ, bᵥ, jₒ, iₒ])]⟩,
  -- line 2402: nmef,lkcd,ealj,fbik,cdnm->abij
  ⟨1/4, [g_abab [nₒ, mₒ, eᵥ, fᵥ], l2_abab [lₒ, kₒ, cᵥ, dᵥ], t2_abab [eᵥ, aᵥ, lₒ, jₒ], t2_bbbb [fᵥ, bᵥ, iₒ, kₒ], t2_abab [cᵥ, dᵥ, nₒ, mₒ]], [(1, [aᵥ, bᵥ, iₒ, jₒ]), (-1, [aᵥ, bᵥ, jₒ, iₒ])]⟩,
  -- line 2406: mnef,lkcd,ealj,fbik,cdmn->abij
  ⟨1/4, [g_abab [mₒ, nₒ, eᵥ, fᵥ], l2_abab [lₒ, kₒ, cᵥ, dᵥ], t2_abab [eᵥ, aᵥ, lₒ, jₒ], t2_bbbb [fᵥ, bᵥ, iₒ, kₒ], t2_abab [cᵥ, dᵥ, mₒ, nₒ]], [(1, [aᵥ, bᵥ, iₒ, jₒ]), (-1, [aᵥ, bᵥ, jₒ, iₒ])]⟩,
  -- line 2410: nmef,kldc,eajl,fbik,dcnm->abij
  ⟨1/4, [g_bbbb [nₒ, mₒ, eᵥ, fᵥ], l2_bbbb [kₒ, lₒ, dᵥ, cᵥ], t2_bbbb [eᵥ, aᵥ, jₒ, lₒ], t2_bbbb [fᵥ, bᵥ, iₒ, kₒ], t2_bbbb [dᵥ, cᵥ, nₒ, mₒ]], [(1, [aᵥ, bᵥ, iₒ, jₒ]), (-1, [aᵥ, bᵥ, jₒ, iₒ])]⟩,
  -- line 2414: nmef,kldc,eakj,dbmi,fcln->abij
  ⟨1/4, [g_aaaa [nₒ, mₒ, eᵥ, fᵥ], l2_aaaa [kₒ, lₒ, dᵥ, cᵥ], t2_abab [eᵥ, aᵥ, kₒ, jₒ], t2_abab [dᵥ, bᵥ, mₒ, iₒ], t2_aaaa [fᵥ, cᵥ, lₒ, nₒ]], [(1, [aᵥ, bᵥ, iₒ, jₒ]), (-1, [aᵥ, bᵥ, jₒ, iₒ]), (-1, [bᵥ, aᵥ, iₒ, jₒ]), (1, [bᵥ, aᵥ, jₒ, iₒ])]⟩
  ]

/-- Part 7 of `residQf2_bbbb`. -/
def residQf2_bbbb_7 : Prog := [
  -- line 2418: mnef,kldc,eakj,dbmi,cfln->abij
  ⟨1/4, [g_abab [mₒ, nₒ, eᵥ, fᵥ], l2_aaaa [kₒ, lₒ, dᵥ, cᵥ], t2_abab [eᵥ, aᵥ, kₒ, jₒ], t2_abab [dᵥ, bᵥ, mₒ, iₒ], t2_abab [cᵥ, fᵥ, lₒ, nₒ]], [(1, [aᵥ, bᵥ, iₒ, jₒ]), (-1, [aᵥ, bᵥ, jₒ, iₒ]), (-1, [bᵥ, aᵥ, iₒ, jₒ]), (1, [bᵥ, aᵥ, jₒ, iₒ])]⟩,
  -- line 2422: nmef,kldc,eakj,dbmi,fcnl->abij
  ⟨-1/4, [g_aaaa [nₒ, mₒ, eᵥ, fᵥ], l2_abab [kₒ, lₒ, dᵥ, cᵥ], t2_abab [eᵥ, aᵥ, kₒ, jₒ], t2_abab [dᵥ, bᵥ, mₒ, iₒ], t2_abab [fᵥ, cᵥ, nₒ, lₒ]], [(1, [aᵥ, bᵥ, iₒ, jₒ]), (-1, [aᵥ, bᵥ, jₒ, iₒ]), (-1, [bᵥ, aᵥ, iₒ, jₒ]), (1, [bᵥ, aᵥ, jₒ, iₒ])]⟩,
  -- line 2426: mnef,kldc,eakj,dbmi,fcln->abij
  ⟨-1/4, [g_abab [mₒ, nₒ, eᵥ, fᵥ], l2_abab [kₒ, lₒ, dᵥ, cᵥ], t2_abab [eᵥ, aᵥ, kₒ, jₒ], t2_abab [dᵥ, bᵥ, mₒ, iₒ], t2_bbbb [fᵥ, cᵥ, lₒ, nₒ]], [(1, [aᵥ, bᵥ, iₒ, jₒ]), (-1, [aᵥ, bᵥ, jₒ, iₒ]), (-1, [bᵥ, aᵥ, iₒ, jₒ]), (1, [bᵥ, aᵥ, jₒ, iₒ])]⟩,
  -- line 2430: nmef,klcd,eakj,dbim,cfnl->abij
  ⟨1/4, [g_abab [nₒ, mₒ, eᵥ, fᵥ], l2_abab [kₒ, lₒ, cᵥ, dᵥ], t2_abab [eᵥ, aᵥ, kₒ, jₒ], t2_bbbb [dᵥ, bᵥ, iₒ, mₒ], t2_abab [cᵥ, fᵥ, nₒ, lₒ]], [(1, [aᵥ, bᵥ, iₒ, jₒ]), (-1, [aᵥ, bᵥ, jₒ, iₒ]), (-1, [bᵥ, aᵥ, iₒ, jₒ]), (1, [bᵥ, aᵥ, jₒ, iₒ])]⟩,
  -- line 2434: mnfe,lkdc,eajk,dbmi,fcln->abij
  ⟨1/4, [g_abab [mₒ, nₒ, fᵥ, eᵥ], l2_abab [lₒ, kₒ, dᵥ, cᵥ], t2_bbbb [eᵥ, aᵥ, jₒ, kₒ], t2_abab [dᵥ, bᵥ, mₒ, iₒ], t2_abab [fᵥ, cᵥ, lₒ, nₒ]], [(1, [aᵥ, bᵥ, iₒ, jₒ]), (-1, [aᵥ, bᵥ, jₒ, iₒ]), (-1, [bᵥ, aᵥ, iₒ, jₒ]), (1, [bᵥ, aᵥ, jₒ, iₒ])]⟩,
  -- line 2438: nmfe,lkcd,eajk,dbim,fcln->abij
  ⟨-1/4, [g_abab [nₒ, mₒ, fᵥ, eᵥ], l2_abab [lₒ, kₒ, cᵥ, dᵥ], t2_bbbb [eᵥ, aᵥ, jₒ, kₒ], t2_bbbb [dᵥ, bᵥ, iₒ, mₒ], t2_aaaa [fᵥ, cᵥ, lₒ, nₒ]], [(1, [aᵥ, bᵥ, iₒ, jₒ]), (-1, [aᵥ, bᵥ, jₒ, iₒ]), (-1, [bᵥ, aᵥ, iₒ, jₒ]), (1, [bᵥ, aᵥ, jₒ, iₒ])]⟩,
  -- line 2442: nmef,lkcd,eajk,dbim,cfln->abij
  ⟨-1/4, [g_bbbb [nₒ, mₒ, eᵥ, fᵥ], l2_abab [lₒ, kₒ, cᵥ, dᵥ], t2_bbbb [eᵥ, aᵥ, jₒ, kₒ], t2_bbbb [dᵥ, bᵥ, iₒ, mₒ], t2_abab [cᵥ, fᵥ, lₒ, nₒ]], [(1, [aᵥ, bᵥ, iₒ, jₒ]), (-1, [aᵥ, bᵥ, jₒ, iₒ]), (-1, [bᵥ, aᵥ, iₒ, jₒ]), (1, [bᵥ, aᵥ, jₒ, iₒ])]⟩,
  -- line 2446: nmfe,kldc,eajk,dbim,fcnl->abij
  ⟨1/4, [g_abab [nₒ, mₒ, fᵥ, eᵥ], l2_bbbb [kₒ, lₒ, dᵥ, cᵥ], t2_bbbb [eᵥ, aᵥ, jₒ, kₒ], t2_bbbb [dᵥ, bᵥ, iₒ, mₒ], t2_abab [fᵥ, cᵥ, nₒ, lₒ]], [(1, [aᵥ, bᵥ, iₒ, jₒ]), (-1, [aᵥ, bᵥ, jₒ, iₒ]), (-1, [bᵥ, aᵥ, iₒ, jₒ]), (1, [bᵥ, aᵥ, jₒ, iₒ])]⟩,
  -- line 2450: nmef,kldc,eajk,dbim,fcln->abij
  ⟨1/4, [g_bbbb [nₒ, mₒ, eᵥ, fᵥ], l2_bbbb [kₒ, lₒ, dᵥ, cᵥ], t2_bbbb [eᵥ, aᵥ, jₒ, kₒ], t2_bbbb [dᵥ, bᵥ, iₒ, mₒ], t2_bbbb [fᵥ, cᵥ, lₒ, nₒ]], [(1, [aᵥ, bᵥ, iₒ, jₒ]), (-1, [aᵥ, bᵥ, jₒ, iₒ]), (-1, [bᵥ, aᵥ, iₒ, jₒ]), (1, [bᵥ, aᵥ, jₒ, iₒ])]⟩,
  -- line 2454: nmfe,kldc,eaij,fblm,dckn->abij
  ⟨-1/2, [g_abab [nₒ, mₒ, fᵥ, eᵥ], l2_aaaa [kₒ, lₒ, dᵥ, cᵥ], t2_bbbb [eᵥ, aᵥ, iₒ, jₒ], t2_abab [fᵥ, bᵥ, lₒ, mₒ], t2_aaaa [dᵥ, cᵥ, kₒ, nₒ]], [(1, [aᵥ, bᵥ, iₒ, jₒ])]⟩,
  -- line 2457: mnfe,kldc,eaij,fbml,dckn->abij
  ⟨-1/2, [g_abab [mₒ, nₒ, fᵥ, eᵥ], l2_abab [kₒ, lₒ, dᵥ, cᵥ], t2_bbbb [eᵥ, aᵥ, iₒ, jₒ], t2_abab [fᵥ, bᵥ, mₒ, lₒ], t2_abab [dᵥ, cᵥ, kₒ, nₒ]], [(1, [aᵥ, bᵥ, iₒ, jₒ])]⟩,
  -- line 2460: nmef,kldc,eaij,fblm,dckn->abij
  ⟨1/2, [g_bbbb [nₒ, mₒ, eᵥ, fᵥ], l2_abab [kₒ, lₒ, dᵥ, cᵥ], t2_bbbb [eᵥ, aᵥ, iₒ, jₒ], t2_bbbb [fᵥ, bᵥ, lₒ, mₒ], t2_abab [dᵥ, cᵥ, kₒ, nₒ]], [(1, [aᵥ, bᵥ, iₒ, jₒ])]⟩,
  -- line 2463: mnfe,klcd,eaij,fbml,cdkn->abij
  ⟨-1/2, [g_abab [mₒ, nₒ, fᵥ, eᵥ], l2_abab [kₒ, lₒ, cᵥ, dᵥ], t2_bbbb [eᵥ, aᵥ, iₒ, jₒ], t2_abab [fᵥ, bᵥ, mₒ, lₒ], t2_abab [cᵥ, dᵥ, kₒ, nₒ]], [(1, [aᵥ, bᵥ, iₒ, jₒ])]⟩,
  -- line 2466: nmef,klcd,eaij,fblm,cdkn->abij
  ⟨1/2, [g_bbbb [nₒ, mₒ, eᵥ, fᵥ], l2_abab [kₒ, lₒ, cᵥ, dᵥ], t2_bbbb [eᵥ, aᵥ, iₒ, jₒ], t2_bbbb [fᵥ, bᵥ, lₒ, mₒ], t2_abab [cᵥ, dᵥ, kₒ, nₒ]], [(1, [aᵥ, bᵥ, iₒ, jₒ])]⟩,
  -- line 2469: nmfe,lkdc,eaij,fblm,dcnk->abij
  ⟨-1/2, [g_abab [nₒ, mₒ, fᵥ, eᵥ], l2_abab [lₒ, kₒ, dᵥ, cᵥ], t2_bbbb [eᵥ, aᵥ, iₒ, jₒ], t2_abab [fᵥ, bᵥ, lₒ, mₒ], t2_abab [dᵥ, cᵥ, nₒ, kₒ]], [(1, [aᵥ, bᵥ, iₒ, jₒ])]⟩,
  -- line 2472: nmfe,lkcd,eaij,fblm,cdnk->abij
  ⟨-1/2, [g_abab [nₒ, mₒ, fᵥ, eᵥ], l2_abab [lₒ, kₒ, cᵥ, dᵥ], t2_bbbb [eᵥ, aᵥ, iₒ, jₒ], t2_abab [fᵥ, bᵥ, lₒ, mₒ], t2_abab [cᵥ, dᵥ, nₒ, kₒ]], [(1, [aᵥ, bᵥ, iₒ, jₒ])]⟩,
  -- line 2475: mnfe,kldc,eaij,fbml,dckn->abij
  ⟨-1/2, [g_abab [mₒ, nₒ, fᵥ, eᵥ], l2_bbbb [kₒ, lₒ, dᵥ, cᵥ], t2_bbbb [eᵥ, aᵥ, iₒ, jₒ], t2_abab [fᵥ, bᵥ, mₒ, lₒ], t2_bbbb [dᵥ, cᵥ, kₒ, nₒ]], [(1, [aᵥ, bᵥ, iₒ, jₒ])]⟩,
  -- line 2478: nmef,kldc,eaij,fblm,dckn->abij
  ⟨1/2, [g_bbbb [nₒ, mₒ, eᵥ, fᵥ], l2_bbbb [kₒ, lₒ, dᵥ, cᵥ], t2_bbbb [eᵥ, aᵥ, iₒ, jₒ], t2_bbbb [fᵥ, bᵥ, lₒ, mₒ], t2_bbbb [dᵥ, cᵥ, kₒ, nₒ]], [(1, [aᵥ, bᵥ, iₒ, jₒ])]⟩,
  -- line 2481: nmfe,kldc,eaij,fbkl,dcnm->abij
  ⟨1/8, [g_abab [nₒ, mₒ, fᵥ, eᵥ], l2_abab [kₒ, lₒ, dᵥ, cᵥ], t2_bbbb [eᵥ, aᵥ, iₒ, jₒ], t2_abab [fᵥ, bᵥ, kₒ, lₒ], t2_abab [dᵥ, cᵥ, nₒ, mₒ]], [(1, [aᵥ, bᵥ, iₒ, jₒ])]⟩,
  -- line 2484: mnfe,kldc,eaij,fbkl,dcmn->abij
  ⟨1/8, [g_abab [mₒ, nₒ, fᵥ, eᵥ], l2_abab [kₒ, lₒ, dᵥ, cᵥ], t2_bbbb [eᵥ, aᵥ, iₒ, jₒ], t2_abab [fᵥ, bᵥ, kₒ, lₒ], t2_abab [dᵥ, cᵥ, mₒ, nₒ]], [(1, [aᵥ, bᵥ, iₒ, jₒ])]⟩,
  -- line 2487: nmfe,klcd,eaij,fbkl,cdnm->abij
  ⟨1/8, [g_abab [nₒ, mₒ, fᵥ, eᵥ], l2_abab [kₒ, lₒ, cᵥ, dᵥ], t2_bbbb [eᵥ, aᵥ, iₒ, jₒ], t2_abab [fᵥ, bᵥ, kₒ, lₒ], t2_abab [cᵥ, dᵥ, nₒ, mₒ]], [(1, [aᵥ, bᵥ, iₒ, jₒ])]⟩,
  -- line 2490: mnfe,klcd,eaij,fbkl,cdmn->abij
  ⟨1/8, [g_abab [mₒ, nₒ, fᵥ, eᵥ], l2_abab [kₒ, lₒ, cᵥ, dᵥ], t2_bbbb [eᵥ, aᵥ, iₒ, jₒ], t2_abab [fᵥ, bᵥ, kₒ, lₒ], t2_abab [cᵥ, dᵥ, mₒ, nₒ]], [(1, [aᵥ, bᵥ, iₒ, jₒ])]⟩,
  -- line 2493: nmfe,lkdc,eaij,fblk,dcnm->abij
  ⟨1/8, [g_abab [nₒ, mₒ, fᵥ, eᵥ], l2_abab [lₒ, kₒ, dᵥ, cᵥ], t2_bbbb [eᵥ, aᵥ, iₒ, jₒ], t2_abab [fᵥ, bᵥ, lₒ, kₒ], t2_abab [dᵥ, cᵥ, nₒ, mₒ]], [(1, [aᵥ, bᵥ, iₒ, jₒ])]⟩,
  -- line 2496: mnfe,lkdc,eaij,fblk,dcmn->abij
  ⟨1/8, [g_abab [mₒ, nₒ, fᵥ, eᵥ], l2_abab [lₒ, kₒ, dᵥ, cᵥ], t2_bbbb [eᵥ, aᵥ, iₒ, jₒ], t2_abab [fᵥ, bᵥ, lₒ, kₒ], t2_abab [dᵥ, cᵥ, mₒ, nₒ]], [(1, [aᵥ, bᵥ, iₒ, jₒ])]⟩,
  -- line 2499: nmfe,lkcd,eaij,fblk,cdnm->abij
  ⟨1/8, [g_abab [nₒ, mₒ, fᵥ, eᵥ], l2_abab [lₒ, kₒ, cᵥ, dᵥ], t2_bbbb [eᵥ, aᵥ, iₒ, jₒ], t2_abab [fᵥ, bᵥ, lₒ, kₒ], t2_abab [cᵥ, dᵥ, nₒ, mₒ]], [(1, [aᵥ, bᵥ, iₒ, jₒ])]⟩,
  -- line 2502: mnfe,lkcd,eaij,fblk,cdmn->abij
  ⟨1/8, [g_abab [mₒ, nₒ, fᵥ, eᵥ], l2_abab [lₒ, kₒ, cᵥ, dᵥ], t2_bbbb [eᵥ, aᵥ, iₒ, jₒ], t2_abab [fᵥ, bᵥ, lₒ, kₒ], t2_abab [cᵥ, dᵥ, mₒ, nₒ]], [(1, [aᵥ, bᵥ, iₒ, jₒ])]⟩,
  -- line 2505: nmef,kldc,eaij,fbkl,dcnm->abij
  ⟨-1/8, [g_bbbb [nₒ, mₒ, eᵥ, fᵥ], l2_bbbb [kₒ, lₒ, dᵥ, cᵥ], t2_bbbb [eᵥ, aᵥ, iₒ, jₒ], t2_bbbb [fᵥ, bᵥ, kₒ, lₒ], t2_bbbb [dᵥ, cᵥ, nₒ, mₒ]], [(1, [aᵥ, bᵥ, iₒ, jₒ])]⟩,
  -- line 2508: nmef,kldc,ebkj,dclm,fani->abij
  ⟨-1/8, [g_aaaa [nₒ, mₒ, eᵥ, fᵥ], l2_aaaa [kₒ, lₒ, dᵥ, cᵥ], t2_abab [eᵥ, bᵥ, kₒ, jₒ], t2_aaaa [dᵥ, cᵥ, lₒ, mₒ], t2_abab [fᵥ, aᵥ, nₒ, iₒ]], [(1, [aᵥ, bᵥ, iₒ, jₒ]), (-1, [aᵥ, bᵥ, jₒ, iₒ])]⟩,
  -- line 2512: mnef,kldc,ebkj,dclm,fain->abij
  ⟨-1/8, [g_abab [mₒ, nₒ, eᵥ, fᵥ], l2_aaaa [kₒ, lₒ, dᵥ, cᵥ], t2_abab [eᵥ, bᵥ, kₒ, jₒ], t2_aaaa [dᵥ, cᵥ, lₒ, mₒ], t2_bbbb [fᵥ, aᵥ, iₒ, nₒ]], [(1, [aᵥ, bᵥ, iₒ, jₒ]), (-1, [aᵥ, bᵥ, jₒ, iₒ])]⟩,
  -- line 2516: nmef,kldc,ebkj,dcml,fani->abij
  ⟨1/8, [g_aaaa [nₒ, mₒ, eᵥ, fᵥ], l2_abab [kₒ, lₒ, dᵥ, cᵥ], t2_abab [eᵥ, bᵥ, kₒ, jₒ], t2_abab [dᵥ, cᵥ, mₒ, lₒ], t2_abab [fᵥ, aᵥ, nₒ, iₒ]], [(1, [aᵥ, bᵥ, iₒ, jₒ]), (-1, [aᵥ, bᵥ, jₒ, iₒ])]⟩,
  -- line 2520: mnef,kldc,ebkj,dcml,fain->abij
  ⟨1/8, [g_abab [mₒ, nₒ, eᵥ, fᵥ], l2_abab [kₒ, lₒ, dᵥ, cᵥ], t2_abab [eᵥ, bᵥ, kₒ, jₒ], t2_abab [dᵥ, cᵥ, mₒ, lₒ], t2_bbbb [fᵥ, aᵥ, iₒ, nₒ]], [(1, [aᵥ, bᵥ, iₒ, jₒ]), (-1, [aᵥ, bᵥ, jₒ, iₒ])]⟩,
  -- line 2524: nmef,klcd,ebkj,cdml,fani->abij
  ⟨1/8, [g_aaaa [nₒ, mₒ, eᵥ, fᵥ], l2_abab [kₒ, lₒ, cᵥ, dᵥ], t2_abab [eᵥ, bᵥ, kₒ, jₒ], t2_abab [cᵥ, dᵥ, mₒ, lₒ], t2_abab [fᵥ, aᵥ, nₒ, iₒ]], [(1, [aᵥ, bᵥ, iₒ, jₒ]), (-1, [aᵥ, bᵥ, jₒ, iₒ])]⟩,
  -- line 2528: mnef,klcd,ebkj,cdml,fain->abij
  ⟨1/8, [g_abab [mₒ, nₒ, eᵥ, fᵥ], l2_abab [kₒ, lₒ, cᵥ, dᵥ], t2_abab [eᵥ, bᵥ, kₒ, jₒ], t2_abab [cᵥ, dᵥ, mₒ, lₒ], t2_bbbb [fᵥ, aᵥ, iₒ, nₒ]], [(1, [aᵥ, bᵥ, iₒ, jₒ]), (-1, [aᵥ, bᵥ, jₒ, iₒ])]⟩,
  -- line 2532: nmfe,lkdc,ebjk,dclm,fani->abij
  ⟨1/8, [g_abab [nₒ, mₒ, fᵥ, eᵥ], l2_abab [lₒ, kₒ, dᵥ, cᵥ], t2_bbbb [eᵥ, bᵥ, jₒ, kₒ], t2_abab [dᵥ, cᵥ, lₒ, mₒ], t2_abab [fᵥ, aᵥ, nₒ, iₒ]], [(1, [aᵥ, bᵥ, iₒ, jₒ]), (-1, [aᵥ, bᵥ, jₒ, iₒ])]⟩,
  -- line 2536: nmef,lkdc,ebjk,dclm,fain->abij
  ⟨1/8, [g_bbbb [nₒ, mₒ, eᵥ, fᵥ], l2_abab [lₒ, kₒ, dᵥ, cᵥ], t2_bbbb [eᵥ, bᵥ, jₒ, kₒ], t2_abab [dᵥ, cᵥ, lₒ, mₒ], t2_bbbb [fᵥ, aᵥ, iₒ, nₒ]], [(1, [aᵥ, bᵥ, iₒ, jₒ]), (-1, [aᵥ, bᵥ, jₒ, iₒ])]⟩,
  -- line 2540: nmfe,lkcd,ebjk,cdlm,fani->abij
  ⟨1/8, [g_abab [nₒ, mₒ, fᵥ, eᵥ], l2_abab [lₒ, kₒ, cᵥ, dᵥ], t2_bbbb [eᵥ, bᵥ, jₒ, kₒ], t2_abab [cᵥ, dᵥ, lₒ, mₒ], t2_abab [fᵥ, aᵥ, nₒ, iₒ]], [(1, [aᵥ, bᵥ, iₒ, jₒ]), (-1, [aᵥ, bᵥ, jₒ, iₒ])]⟩,
  -- line 2544: nmef,lkcd,ebjk,cdlm,fain->abij
  ⟨1/8, [g_bbbb [nₒ, mₒ, eᵥ, fᵥ], l2_abab [lₒ, kₒ, cᵥ, dᵥ], t2_bbbb [eᵥ, bᵥ, jₒ, kₒ], t2_abab [cᵥ, dᵥ, lₒ, mₒ], t2_bbbb [fᵥ, aᵥ, iₒ, nₒ]], [(1, [aᵥ, bᵥ, iₒ, jₒ]), (-1, [aᵥ, bᵥ, jₒ, iₒ])]⟩,
  -- line 2548: nmfe,kldc,ebjk,dclm,fani->abij
  ⟨-1/8, [g_abab [nₒ, mₒ, fᵥ, eᵥ], l2_bbbb [kₒ, lₒ, dᵥ, cᵥ], t2_bbbb [eᵥ, bᵥ, jₒ, kₒ], t2_bbbb [dᵥ, cᵥ, lₒ, mₒ], t2_abab [fᵥ, aᵥ, nₒ, iₒ]], [(1, [aᵥ, bᵥ, iₒ, jₒ]), (-1, [aᵥ, bᵥ, jₒ, iₒ])]⟩,
  -- line 2552: nmef,kldc,ebjk,dclm,fain->abij
  ⟨-1/8, [g_bbbb [nₒ, mₒ, eᵥ, fᵥ], l2_bbbb [kₒ, lₒ, dᵥ, cᵥ], t2_bbbb [eᵥ, bᵥ, jₒ, kₒ], t2_bbbb [dᵥ, cᵥ, lₒ, mₒ], t2_bbbb [fᵥ, aᵥ, iₒ, nₒ]], [(1, [aᵥ, bᵥ, iₒ, jₒ]), (-1, [aᵥ, bᵥ, jₒ, iₒ])]⟩,
  -- line 2556: mnfe,kldc,ebij,dclm,fakn->abij
  ⟨-1/8, [g_abab [mₒ, nₒ, fᵥ, eᵥ], l2_aaaa [kₒ, lₒ, dᵥ, cᵥ], t2_bbbb [eᵥ, bᵥ, iₒ, jₒ], t2_aaaa [dᵥ, cᵥ, lₒ, mₒ], t2_abab [fᵥ, aᵥ, kₒ, nₒ]], [(1, [aᵥ, bᵥ, iₒ, jₒ])]⟩
  ]

/-- Part 8 of `residQf2_bbbb`. -/
def residQf2_bbbb_8 : Prog := [
  -- line 2559: mnfe,kldc,ebij,dcml,fakn->abij
  ⟨1/8, [g_abab [mₒ, nₒ, fᵥ, eᵥ], l2_abab [kₒ, lₒ, dᵥ, cᵥ], t2_bbbb [eᵥ, bᵥ, iₒ, jₒ], t2_abab [dᵥ, cᵥ, mₒ, lₒ], t2_abab [fᵥ, aᵥ, kₒ, nₒ]], [(1, [aᵥ, bᵥ, iₒ, jₒ])]⟩,
  -- line 2562: mnfe,klcd,ebij,cdml,fakn->abij
  ⟨1/8, [g_abab [mₒ, nₒ, fᵥ, eᵥ], l2_abab [kₒ, lₒ, cᵥ, dᵥ], t2_bbbb [eᵥ, bᵥ, iₒ, jₒ], t2_abab [cᵥ, dᵥ, mₒ, lₒ], t2_abab [fᵥ, aᵥ, kₒ, nₒ]], [(1, [aᵥ, bᵥ, iₒ, jₒ])]⟩,
  -- line 2565: nmfe,lkdc,ebij,dclm,fank->abij
  ⟨1/8, [g_abab [nₒ, mₒ, fᵥ, eᵥ], l2_abab [lₒ, kₒ, dᵥ, cᵥ], t2_bbbb [eᵥ, bᵥ, iₒ, jₒ], t2_abab [dᵥ, cᵥ, lₒ, mₒ], t2_abab [fᵥ, aᵥ, nₒ, kₒ]], [(1, [aᵥ, bᵥ, iₒ, jₒ])]⟩,
  -- line 2568: nmef,lkdc,ebij,dclm,fakn->abij
  ⟨1/8, [g_bbbb [nₒ, mₒ, eᵥ, fᵥ], l2_abab [lₒ, kₒ, dᵥ, cᵥ], t2_bbbb [eᵥ, bᵥ, iₒ, jₒ], t2_abab [dᵥ, cᵥ, lₒ, mₒ], t2_bbbb [fᵥ, aᵥ, kₒ, nₒ]], [(1, [aᵥ, bᵥ, iₒ, jₒ])]⟩,
  -- line 2571: nmfe,lkcd,ebij,cdlm,fank->abij
  ⟨1/8, [g_abab [nₒ, mₒ, fᵥ, eᵥ], l2_abab [lₒ, kₒ, cᵥ, dᵥ], t2_bbbb [eᵥ, bᵥ, iₒ, jₒ], t2_abab [cᵥ, dᵥ, lₒ, mₒ], t2_abab [fᵥ, aᵥ, nₒ, kₒ]], [(1, [aᵥ, bᵥ, iₒ, jₒ])]⟩,
  -- line 2574: nmef,lkcd,ebij,cdlm,fakn->abij
  ⟨1/8, [g_bbbb [nₒ, mₒ, eᵥ, fᵥ], l2_abab [lₒ, kₒ, cᵥ, dᵥ], t2_bbbb [eᵥ, bᵥ, iₒ, jₒ], t2_abab [cᵥ, dᵥ, lₒ, mₒ], t2_bbbb [fᵥ, aᵥ, kₒ, nₒ]], [(1, [aᵥ, bᵥ, iₒ, jₒ])]⟩,
  -- line 2577: nmfe,kldc,ebij,dclm,fank->abij
  ⟨-1/8, [g_abab [nₒ, mₒ, fᵥ, eᵥ], l2_bbbb [kₒ, lₒ, dᵥ, cᵥ], t2_bbbb [eᵥ, bᵥ, iₒ, jₒ], t2_bbbb [dᵥ, cᵥ, lₒ, mₒ], t2_abab [fᵥ, aᵥ, nₒ, kₒ]], [(1, [aᵥ, bᵥ, iₒ, jₒ])]⟩,
  -- line 2580: nmef,kldc,ebij,dclm,fakn->abij
  ⟨-1/8, [g_bbbb [nₒ, mₒ, eᵥ, fᵥ], l2_bbbb [kₒ, lₒ, dᵥ, cᵥ], t2_bbbb [eᵥ, bᵥ, iₒ, jₒ], t2_bbbb [dᵥ, cᵥ, lₒ, mₒ], t2_bbbb [fᵥ, aᵥ, kₒ, nₒ]], [(1, [aᵥ, bᵥ, iₒ, jₒ])]⟩,
  -- line 2583: mnef,kldc,damj,ebkn,cfli->abij
  ⟨-8333333333333/100000000000000, [g_abab [mₒ, nₒ, eᵥ, fᵥ], l2_aaaa [kₒ, lₒ, dᵥ, cᵥ], t2_abab [dᵥ, aᵥ, mₒ, jₒ], t2_abab [eᵥ, bᵥ, kₒ, nₒ], t2_abab [cᵥ, fᵥ, lₒ, iₒ]], [(1, [aᵥ, bᵥ, iₒ, jₒ]), (-1, [aᵥ, bᵥ, jₒ, iₒ]), (-1, [bᵥ, aᵥ, iₒ, jₒ]), (1, [bᵥ, aᵥ, jₒ, iₒ])]⟩,
  -- line 2587: mnef,kldc,damj,ebkn,fcil->abij
  ⟨-8333333333333/100000000000000, [g_abab [mₒ, nₒ, eᵥ, fᵥ], l2_abab [kₒ, lₒ, dᵥ, cᵥ], t2_abab [dᵥ, aᵥ, mₒ, jₒ], t2_abab [eᵥ, bᵥ, kₒ, nₒ], t2_bbbb [fᵥ, cᵥ, iₒ, lₒ]], [(1, [aᵥ, bᵥ, iₒ, jₒ]), (-1, [aᵥ, bᵥ, jₒ, iₒ]), (-1, [bᵥ, aᵥ, iₒ, jₒ]), (1, [bᵥ, aᵥ, jₒ, iₒ])]⟩,
  -- line 2591: nmef,lkdc,damj,ebnk,fcli->abij
  ⟨-8333333333333/100000000000000, [g_aaaa [nₒ, mₒ, eᵥ, fᵥ], l2_abab [lₒ, kₒ, dᵥ, cᵥ], t2_abab [dᵥ, aᵥ, mₒ, jₒ], t2_abab [eᵥ, bᵥ, nₒ, kₒ], t2_abab [fᵥ, cᵥ, lₒ, iₒ]], [(1, [aᵥ, bᵥ, iₒ, jₒ]), (-1, [aᵥ, bᵥ, jₒ, iₒ]), (-1, [bᵥ, aᵥ, iₒ, jₒ]), (1, [bᵥ, aᵥ, jₒ, iₒ])]⟩,
  -- line 2595: mnfe,lkdc,damj,ebkn,fcli->abij
  ⟨8333333333333/100000000000000, [g_abab [mₒ, nₒ, fᵥ, eᵥ], l2_abab [lₒ, kₒ, dᵥ, cᵥ], t2_abab [dᵥ, aᵥ, mₒ, jₒ], t2_bbbb [eᵥ, bᵥ, kₒ, nₒ], t2_abab [fᵥ, cᵥ, lₒ, iₒ]], [(1, [aᵥ, bᵥ, iₒ, jₒ]), (-1, [aᵥ, bᵥ, jₒ, iₒ]), (-1, [bᵥ, aᵥ, iₒ, jₒ]), (1, [bᵥ, aᵥ, jₒ, iₒ])]⟩,
  -- line 2599: nmef,lkcd,dajm,ebnk,cfli->abij
  ⟨8333333333333/100000000000000, [g_abab [nₒ, mₒ, eᵥ, fᵥ], l2_abab [lₒ, kₒ, cᵥ, dᵥ], t2_bbbb [dᵥ, aᵥ, jₒ, mₒ], t2_abab [eᵥ, bᵥ, nₒ, kₒ], t2_abab [cᵥ, fᵥ, lₒ, iₒ]], [(1, [aᵥ, bᵥ, iₒ, jₒ]), (-1, [aᵥ, bᵥ, jₒ, iₒ]), (-1, [bᵥ, aᵥ, iₒ, jₒ]), (1, [bᵥ, aᵥ, jₒ, iₒ])]⟩,
  -- line 2603: nmef,lkcd,dajm,ebkn,cfli->abij
  ⟨-8333333333333/100000000000000, [g_bbbb [nₒ, mₒ, eᵥ, fᵥ], l2_abab [lₒ, kₒ, cᵥ, dᵥ], t2_bbbb [dᵥ, aᵥ, jₒ, mₒ], t2_bbbb [eᵥ, bᵥ, kₒ, nₒ], t2_abab [cᵥ, fᵥ, lₒ, iₒ]], [(1, [aᵥ, bᵥ, iₒ, jₒ]), (-1, [aᵥ, bᵥ, jₒ, iₒ]), (-1, [bᵥ, aᵥ, iₒ, jₒ]), (1, [bᵥ, aᵥ, jₒ, iₒ])]⟩,
  -- line 2607: nmef,kldc,dajm,ebnk,fcil->abij
  ⟨8333333333333/100000000000000, [g_abab [nₒ, mₒ, eᵥ, fᵥ], l2_bbbb [kₒ, lₒ, dᵥ, cᵥ], t2_bbbb [dᵥ, aᵥ, jₒ, mₒ], t2_abab [eᵥ, bᵥ, nₒ, kₒ], t2_bbbb [fᵥ, cᵥ, iₒ, lₒ]], [(1, [aᵥ, bᵥ, iₒ, jₒ]), (-1, [aᵥ, bᵥ, jₒ, iₒ]), (-1, [bᵥ, aᵥ, iₒ, jₒ]), (1, [bᵥ, aᵥ, jₒ, iₒ])]⟩,
  -- line 2611: nmef,kldc,dajm,ebkn,fcil->abij
  ⟨-8333333333333/100000000000000, [g_bbbb [nₒ, mₒ, eᵥ, fᵥ], l2_bbbb [kₒ, lₒ, dᵥ, cᵥ], t2_bbbb [dᵥ, aᵥ, jₒ, mₒ], t2_bbbb [eᵥ, bᵥ, kₒ, nₒ], t2_bbbb [fᵥ, cᵥ, iₒ, lₒ]], [(1, [aᵥ, bᵥ, iₒ, jₒ]), (-1, [aᵥ, bᵥ, jₒ, iₒ]), (-1, [bᵥ, aᵥ, iₒ, jₒ]), (1, [bᵥ, aᵥ, jₒ, iₒ])]⟩
  ]

/-- `UT2/modify_T2resid_T4Qf2.py` 1311-2614, `residQf2_bbbb`. -/
def residQf2_bbbb : Prog := residQf2_bbbb_0 ++ (residQf2_bbbb_1 ++ (residQf2_bbbb_2 ++ (residQf2_bbbb_3 ++ (residQf2_bbbb_4 ++ (residQf2_bbbb_5 ++ (residQf2_bbbb_6 ++ (residQf2_bbbb_7 ++ (residQf2_bbbb_8))))))))

end Verif.Gen
