import Verif.Ein.Names
import Verif.Gen.Antisym

/-! Written by `/verif/tools/gen.py`. Programs read from `/repo/UT2`. -/

set_option maxRecDepth 100000

namespace Verif.Gen

open Verif.Ein Verif.Ein.N


/-- Part 0 of `residQf1_abab`. -/
def residQf1_abab_0 : Prog := [
  -- line 1237: mnkl,kldc,dcmj,abin->abij
  ⟨-1/4, [g_abab [mₒ, nₒ, kₒ, lₒ], l2_abab [kₒ, lₒ, dᵥ, cᵥ], t2_abab [dᵥ, cᵥ, mₒ, jₒ], t2_abab [aᵥ, bᵥ, iₒ, nₒ]], [(1, [aᵥ, bᵥ, iₒ, jₒ])]⟩,
  -- line 1240: mnkl,klcd,cdmj,abin->abij
  ⟨-1/4, [g_abab [mₒ, nₒ, kₒ, lₒ], l2_abab [kₒ, lₒ, cᵥ, dᵥ], t2_abab [cᵥ, dᵥ, mₒ, jₒ], t2_abab [aᵥ, bᵥ, iₒ, nₒ]], [(1, [aᵥ, bᵥ, iₒ, jₒ])]⟩,
  -- line 1243: mnlk,lkdc,dcmj,abin->abij
  ⟨-1/4, [g_abab [mₒ, nₒ, lₒ, kₒ], l2_abab [lₒ, kₒ, dᵥ, cᵥ], t2_abab [dᵥ, cᵥ, mₒ, jₒ], t2_abab [aᵥ, bᵥ, iₒ, nₒ]], [(1, [aᵥ, bᵥ, iₒ, jₒ])]⟩,
  -- line 1246: mnlk,lkcd,cdmj,abin->abij
  ⟨-1/4, [g_abab [mₒ, nₒ, lₒ, kₒ], l2_abab [lₒ, kₒ, cᵥ, dᵥ], t2_abab [cᵥ, dᵥ, mₒ, jₒ], t2_abab [aᵥ, bᵥ, iₒ, nₒ]], [(1, [aᵥ, bᵥ, iₒ, jₒ])]⟩,
  -- line 1249: nmkl,kldc,dcjm,abin->abij
  ⟨-1/4, [g_bbbb [nₒ, mₒ, kₒ, lₒ], l2_bbbb [kₒ, lₒ, dᵥ, cᵥ], t2_bbbb [dᵥ, cᵥ, jₒ, mₒ], t2_abab [aᵥ, bᵥ, iₒ, nₒ]], [(1, [aᵥ, bᵥ, iₒ, jₒ])]⟩,
  -- line 1252: nmkl,kldc,dcim,abnj->abij
  ⟨-1/4, [g_aaaa [nₒ, mₒ, kₒ, lₒ], l2_aaaa [kₒ, lₒ, dᵥ, cᵥ], t2_aaaa [dᵥ, cᵥ, iₒ, mₒ], t2_abab [aᵥ, bᵥ, nₒ, jₒ]], [(1, [aᵥ, bᵥ, iₒ, jₒ])]⟩,
  -- line 1255: nmkl,kldc,dcim,abnj->abij
  ⟨-1/4, [g_abab [nₒ, mₒ, kₒ, lₒ], l2_abab [kₒ, lₒ, dᵥ, cᵥ], t2_abab [dᵥ, cᵥ, iₒ, mₒ], t2_abab [aᵥ, bᵥ, nₒ, jₒ]], [(1, [aᵥ, bᵥ, iₒ, jₒ])]⟩,
  -- line 1258: nmkl,klcd,cdim,abnj->abij
  ⟨-1/4, [g_abab [nₒ, mₒ, kₒ, lₒ], l2_abab [kₒ, lₒ, cᵥ, dᵥ], t2_abab [cᵥ, dᵥ, iₒ, mₒ], t2_abab [aᵥ, bᵥ, nₒ, jₒ]], [(1, [aᵥ, bᵥ, iₒ, jₒ])]⟩,
  -- line 1261: nmlk,lkdc,dcim,abnj->abij
  ⟨-1/4, [g_abab [nₒ, mₒ, lₒ, kₒ], l2_abab [lₒ, kₒ, dᵥ, cᵥ], t2_abab [dᵥ, cᵥ, iₒ, mₒ], t2_abab [aᵥ, bᵥ, nₒ, jₒ]], [(1, [aᵥ, bᵥ, iₒ, jₒ])]⟩,
  -- line 1264: nmlk,lkcd,cdim,abnj->abij
  ⟨-1/4, [g_abab [nₒ, mₒ, lₒ, kₒ], l2_abab [lₒ, kₒ, cᵥ, dᵥ], t2_abab [cᵥ, dᵥ, iₒ, mₒ], t2_abab [aᵥ, bᵥ, nₒ, jₒ]], [(1, [aᵥ, bᵥ, iₒ, jₒ])]⟩,
  -- line 1267: mnkl,klcd,admj,cbin->abij
  ⟨1/2, [g_abab [mₒ, nₒ, kₒ, lₒ], l2_abab [kₒ, lₒ, cᵥ, dᵥ], t2_abab [aᵥ, dᵥ, mₒ, jₒ], t2_abab [cᵥ, bᵥ, iₒ, nₒ]], [(1, [aᵥ, bᵥ, iₒ, jₒ])]⟩,
  -- line 1270: mnlk,lkcd,admj,cbin->abij
  ⟨1/2, [g_abab [mₒ, nₒ, lₒ, kₒ], l2_abab [lₒ, kₒ, cᵥ, dᵥ], t2_abab [aᵥ, dᵥ, mₒ, jₒ], t2_abab [cᵥ, bᵥ, iₒ, nₒ]], [(1, [aᵥ, bᵥ, iₒ, jₒ])]⟩,
  -- line 1273: nmkl,kldc,daim,cbnj->abij
  ⟨1/2, [g_aaaa [nₒ, mₒ, kₒ, lₒ], l2_aaaa [kₒ, lₒ, dᵥ, cᵥ], t2_aaaa [dᵥ, aᵥ, iₒ, mₒ], t2_abab [cᵥ, bᵥ, nₒ, jₒ]], [(1, [aᵥ, bᵥ, iₒ, jₒ])]⟩,
  -- line 1276: mnkl,kldc,daim,cbjn->abij
  ⟨1/2, [g_abab [mₒ, nₒ, kₒ, lₒ], l2_abab [kₒ, lₒ, dᵥ, cᵥ], t2_aaaa [dᵥ, aᵥ, iₒ, mₒ], t2_bbbb [cᵥ, bᵥ, jₒ, nₒ]], [(1, [aᵥ, bᵥ, iₒ, jₒ])]⟩,
  -- line 1279: nmkl,klcd,adim,cbnj->abij
  ⟨1/2, [g_abab [nₒ, mₒ, kₒ, lₒ], l2_abab [kₒ, lₒ, cᵥ, dᵥ], t2_abab [aᵥ, dᵥ, iₒ, mₒ], t2_abab [cᵥ, bᵥ, nₒ, jₒ]], [(1, [aᵥ, bᵥ, iₒ, jₒ])]⟩,
  -- line 1282: mnlk,lkdc,daim,cbjn->abij
  ⟨1/2, [g_abab [mₒ, nₒ, lₒ, kₒ], l2_abab [lₒ, kₒ, dᵥ, cᵥ], t2_aaaa [dᵥ, aᵥ, iₒ, mₒ], t2_bbbb [cᵥ, bᵥ, jₒ, nₒ]], [(1, [aᵥ, bᵥ, iₒ, jₒ])]⟩,
  -- line 1285: nmlk,lkcd,adim,cbnj->abij
  ⟨1/2, [g_abab [nₒ, mₒ, lₒ, kₒ], l2_abab [lₒ, kₒ, cᵥ, dᵥ], t2_abab [aᵥ, dᵥ, iₒ, mₒ], t2_abab [cᵥ, bᵥ, nₒ, jₒ]], [(1, [aᵥ, bᵥ, iₒ, jₒ])]⟩,
  -- line 1288: nmkl,kldc,adim,cbjn->abij
  ⟨1/2, [g_bbbb [nₒ, mₒ, kₒ, lₒ], l2_bbbb [kₒ, lₒ, dᵥ, cᵥ], t2_abab [aᵥ, dᵥ, iₒ, mₒ], t2_bbbb [cᵥ, bᵥ, jₒ, nₒ]], [(1, [aᵥ, bᵥ, iₒ, jₒ])]⟩,
  -- line 1291: mnlj,kldc,dckm,abin->abij
  ⟨1/2, [g_abab [mₒ, nₒ, lₒ, jₒ], l2_aaaa [kₒ, lₒ, dᵥ, cᵥ], t2_aaaa [dᵥ, cᵥ, kₒ, mₒ], t2_abab [aᵥ, bᵥ, iₒ, nₒ]], [(1, [aᵥ, bᵥ, iₒ, jₒ])]⟩,
  -- line 1294: nmjl,kldc,dckm,abin->abij
  ⟨1/2, [g_bbbb [nₒ, mₒ, jₒ, lₒ], l2_abab [kₒ, lₒ, dᵥ, cᵥ], t2_abab [dᵥ, cᵥ, kₒ, mₒ], t2_abab [aᵥ, bᵥ, iₒ, nₒ]], [(1, [aᵥ, bᵥ, iₒ, jₒ])]⟩,
  -- line 1297: nmjl,klcd,cdkm,abin->abij
  ⟨1/2, [g_bbbb [nₒ, mₒ, jₒ, lₒ], l2_abab [kₒ, lₒ, cᵥ, dᵥ], t2_abab [cᵥ, dᵥ, kₒ, mₒ], t2_abab [aᵥ, bᵥ, iₒ, nₒ]], [(1, [aᵥ, bᵥ, iₒ, jₒ])]⟩,
  -- line 1300: mnlj,lkdc,dcmk,abin->abij
  ⟨1/2, [g_abab [mₒ, nₒ, lₒ, jₒ], l2_abab [lₒ, kₒ, dᵥ, cᵥ], t2_abab [dᵥ, cᵥ, mₒ, kₒ], t2_abab [aᵥ, bᵥ, iₒ, nₒ]], [(1, [aᵥ, bᵥ, iₒ, jₒ])]⟩,
  -- line 1303: mnlj,lkcd,cdmk,abin->abij
  ⟨1/2, [g_abab [mₒ, nₒ, lₒ, jₒ], l2_abab [lₒ, kₒ, cᵥ, dᵥ], t2_abab [cᵥ, dᵥ, mₒ, kₒ], t2_abab [aᵥ, bᵥ, iₒ, nₒ]], [(1, [aᵥ, bᵥ, iₒ, jₒ])]⟩,
  -- line 1306: nmjl,kldc,dckm,abin->abij
  ⟨1/2, [g_bbbb [nₒ, mₒ, jₒ, lₒ], l2_bbbb [kₒ, lₒ, dᵥ, cᵥ], t2_bbbb [dᵥ, cᵥ, kₒ, mₒ], t2_abab [aᵥ, bᵥ, iₒ, nₒ]], [(1, [aᵥ, bᵥ, iₒ, jₒ])]⟩,
  -- line 1309: nmil,kldc,dckm,abnj->abij
  ⟨1/2, [g_aaaa [nₒ, mₒ, iₒ, lₒ], l2_aaaa [kₒ, lₒ, dᵥ, cᵥ], t2_aaaa [dᵥ, cᵥ, kₒ, mₒ], t2_abab [aᵥ, bᵥ, nₒ, jₒ]], [(1, [aᵥ, bᵥ, iₒ, jₒ])]⟩,
  -- line 1312: nmil,kldc,dckm,abnj->abij
  ⟨1/2, [g_abab [nₒ, mₒ, iₒ, lₒ], l2_abab [kₒ, lₒ, dᵥ, cᵥ], t2_abab [dᵥ, cᵥ, kₒ, mₒ], t2_abab [aᵥ, bᵥ, nₒ, jₒ]], [(1, [aᵥ, bᵥ, iₒ, jₒ])]⟩,
  -- line 1315: nmil,klcd,cdkm,abnj->abij
  ⟨1/2, [g_abab [nₒ, mₒ, iₒ, lₒ], l2_abab [kₒ, lₒ, cᵥ, dᵥ], t2_abab [cᵥ, dᵥ, kₒ, mₒ], t2_abab [aᵥ, bᵥ, nₒ, jₒ]], [(1, [aᵥ, bᵥ, iₒ, jₒ])]⟩,
  -- line 1318: nmil,lkdc,dcmk,abnj->abij
  ⟨1/2, [g_aaaa [nₒ, mₒ, iₒ, lₒ], l2_abab [lₒ, kₒ, dᵥ, cᵥ], t2_abab [dᵥ, cᵥ, mₒ, kₒ], t2_abab [aᵥ, bᵥ, nₒ, jₒ]], [(1, [aᵥ, bᵥ, iₒ, jₒ])]⟩,
  -- line 1321: nmil,lkcd,cdmk,abnj->abij
  ⟨1/2, [g_aaaa [nₒ, mₒ, iₒ, lₒ], l2_abab [lₒ, kₒ, cᵥ, dᵥ], t2_abab [cᵥ, dᵥ, mₒ, kₒ], t2_abab [aᵥ, bᵥ, nₒ, jₒ]], [(1, [aᵥ, bᵥ, iₒ, jₒ])]⟩,
  -- line 1324: nmil,kldc,dckm,abnj->abij
  ⟨1/2, [g_abab [nₒ, mₒ, iₒ, lₒ], l2_bbbb [kₒ, lₒ, dᵥ, cᵥ], t2_bbbb [dᵥ, cᵥ, kₒ, mₒ], t2_abab [aᵥ, bᵥ, nₒ, jₒ]], [(1, [aᵥ, bᵥ, iₒ, jₒ])]⟩,
  -- line 1327: mnlj,kldc,dcim,abkn->abij
  ⟨-1/2, [g_abab [mₒ, nₒ, lₒ, jₒ], l2_aaaa [kₒ, lₒ, dᵥ, cᵥ], t2_aaaa [dᵥ, cᵥ, iₒ, mₒ], t2_abab [aᵥ, bᵥ, kₒ, nₒ]], [(1, [aᵥ, bᵥ, iₒ, jₒ])]⟩,
  -- line 1330: nmjl,kldc,dcim,abkn->abij
  ⟨-1/2, [g_bbbb [nₒ, mₒ, jₒ, lₒ], l2_abab [kₒ, lₒ, dᵥ, cᵥ], t2_abab [dᵥ, cᵥ, iₒ, mₒ], t2_abab [aᵥ, bᵥ, kₒ, nₒ]], [(1, [aᵥ, bᵥ, iₒ, jₒ])]⟩,
  -- line 1333: nmjl,klcd,cdim,abkn->abij
  ⟨-1/2, [g_bbbb [nₒ, mₒ, jₒ, lₒ], l2_abab [kₒ, lₒ, cᵥ, dᵥ], t2_abab [cᵥ, dᵥ, iₒ, mₒ], t2_abab [aᵥ, bᵥ, kₒ, nₒ]], [(1, [aᵥ, bᵥ, iₒ, jₒ])]⟩,
  -- line 1336: nmlj,lkdc,dcim,abnk->abij
  ⟨1/2, [g_abab [nₒ, mₒ, lₒ, jₒ], l2_abab [lₒ, kₒ, dᵥ, cᵥ], t2_abab [dᵥ, cᵥ, iₒ, mₒ], t2_abab [aᵥ, bᵥ, nₒ, kₒ]], [(1, [aᵥ, bᵥ, iₒ, jₒ])]⟩,
  -- line 1339: nmlj,lkcd,cdim,abnk->abij
  ⟨1/2, [g_abab [nₒ, mₒ, lₒ, jₒ], l2_abab [lₒ, kₒ, cᵥ, dᵥ], t2_abab [cᵥ, dᵥ, iₒ, mₒ], t2_abab [aᵥ, bᵥ, nₒ, kₒ]], [(1, [aᵥ, bᵥ, iₒ, jₒ])]⟩,
  -- line 1342: mnil,kldc,dcmj,abkn->abij
  ⟨1/2, [g_abab [mₒ, nₒ, iₒ, lₒ], l2_abab [kₒ, lₒ, dᵥ, cᵥ], t2_abab [dᵥ, cᵥ, mₒ, jₒ], t2_abab [aᵥ, bᵥ, kₒ, nₒ]], [(1, [aᵥ, bᵥ, iₒ, jₒ])]⟩,
  -- line 1345: mnil,klcd,cdmj,abkn->abij
  ⟨1/2, [g_abab [mₒ, nₒ, iₒ, lₒ], l2_abab [kₒ, lₒ, cᵥ, dᵥ], t2_abab [cᵥ, dᵥ, mₒ, jₒ], t2_abab [aᵥ, bᵥ, kₒ, nₒ]], [(1, [aᵥ, bᵥ, iₒ, jₒ])]⟩,
  -- line 1348: nmil,lkdc,dcmj,abnk->abij
  ⟨-1/2, [g_aaaa [nₒ, mₒ, iₒ, lₒ], l2_abab [lₒ, kₒ, dᵥ, cᵥ], t2_abab [dᵥ, cᵥ, mₒ, jₒ], t2_abab [aᵥ, bᵥ, nₒ, kₒ]], [(1, [aᵥ, bᵥ, iₒ, jₒ])]⟩,
  -- line 1351: nmil,lkcd,cdmj,abnk->abij
  ⟨-1/2, [g_aaaa [nₒ, mₒ, iₒ, lₒ], l2_abab [lₒ, kₒ, cᵥ, dᵥ], t2_abab [cᵥ, dᵥ, mₒ, jₒ], t2_abab [aᵥ, bᵥ, nₒ, kₒ]], [(1, [aᵥ, bᵥ, iₒ, jₒ])]⟩,
  -- line 1354: nmil,kldc,dcjm,abnk->abij
  ⟨-1/2, [g_abab [nₒ, mₒ, iₒ, lₒ], l2_bbbb [kₒ, lₒ, dᵥ, cᵥ], t2_bbbb [dᵥ, cᵥ, jₒ, mₒ], t2_abab [aᵥ, bᵥ, nₒ, kₒ]], [(1, [aᵥ, bᵥ, iₒ, jₒ])]⟩
  ]

/-- Part 1 of `residQf1_abab`. -/
def residQf1_abab_1 : Prog := [
  -- line 1357: mnlj,kldc,dakm,cbin->abij
  ⟨-1, [g_abab [mₒ, nₒ, lₒ, jₒ], l2_aaaa [kₒ, lₒ, dᵥ, cᵥ], t2_aaaa [dᵥ, aᵥ, kₒ, mₒ], t2_abab [cᵥ, bᵥ, iₒ, nₒ]], [(1, [aᵥ, bᵥ, iₒ, jₒ])]⟩,
  -- line 1360: nmjl,klcd,adkm,cbin->abij
  ⟨-1, [g_bbbb [nₒ, mₒ, jₒ, lₒ], l2_abab [kₒ, lₒ, cᵥ, dᵥ], t2_abab [aᵥ, dᵥ, kₒ, mₒ], t2_abab [cᵥ, bᵥ, iₒ, nₒ]], [(1, [aᵥ, bᵥ, iₒ, jₒ])]⟩,
  -- line 1363: mnlj,lkcd,admk,cbin->abij
  ⟨-1, [g_abab [mₒ, nₒ, lₒ, jₒ], l2_abab [lₒ, kₒ, cᵥ, dᵥ], t2_abab [aᵥ, dᵥ, mₒ, kₒ], t2_abab [cᵥ, bᵥ, iₒ, nₒ]], [(1, [aᵥ, bᵥ, iₒ, jₒ])]⟩,
  -- line 1366: nmil,kldc,dakm,cbnj->abij
  ⟨-1, [g_aaaa [nₒ, mₒ, iₒ, lₒ], l2_aaaa [kₒ, lₒ, dᵥ, cᵥ], t2_aaaa [dᵥ, aᵥ, kₒ, mₒ], t2_abab [cᵥ, bᵥ, nₒ, jₒ]], [(1, [aᵥ, bᵥ, iₒ, jₒ])]⟩,
  -- line 1369: mnil,kldc,dakm,cbjn->abij
  ⟨-1, [g_abab [mₒ, nₒ, iₒ, lₒ], l2_abab [kₒ, lₒ, dᵥ, cᵥ], t2_aaaa [dᵥ, aᵥ, kₒ, mₒ], t2_bbbb [cᵥ, bᵥ, jₒ, nₒ]], [(1, [aᵥ, bᵥ, iₒ, jₒ])]⟩,
  -- line 1372: nmil,klcd,adkm,cbnj->abij
  ⟨-1, [g_abab [nₒ, mₒ, iₒ, lₒ], l2_abab [kₒ, lₒ, cᵥ, dᵥ], t2_abab [aᵥ, dᵥ, kₒ, mₒ], t2_abab [cᵥ, bᵥ, nₒ, jₒ]], [(1, [aᵥ, bᵥ, iₒ, jₒ])]⟩,
  -- line 1375: nmil,lkcd,admk,cbnj->abij
  ⟨-1, [g_aaaa [nₒ, mₒ, iₒ, lₒ], l2_abab [lₒ, kₒ, cᵥ, dᵥ], t2_abab [aᵥ, dᵥ, mₒ, kₒ], t2_abab [cᵥ, bᵥ, nₒ, jₒ]], [(1, [aᵥ, bᵥ, iₒ, jₒ])]⟩,
  -- line 1378: mnil,kldc,admk,cbjn->abij
  ⟨-1, [g_abab [mₒ, nₒ, iₒ, lₒ], l2_bbbb [kₒ, lₒ, dᵥ, cᵥ], t2_abab [aᵥ, dᵥ, mₒ, kₒ], t2_bbbb [cᵥ, bᵥ, jₒ, nₒ]], [(1, [aᵥ, bᵥ, iₒ, jₒ])]⟩,
  -- line 1381: mnlj,kldc,daim,cbkn->abij
  ⟨1, [g_abab [mₒ, nₒ, lₒ, jₒ], l2_aaaa [kₒ, lₒ, dᵥ, cᵥ], t2_aaaa [dᵥ, aᵥ, iₒ, mₒ], t2_abab [cᵥ, bᵥ, kₒ, nₒ]], [(1, [aᵥ, bᵥ, iₒ, jₒ])]⟩,
  -- line 1384: nmjl,klcd,adim,cbkn->abij
  ⟨1, [g_bbbb [nₒ, mₒ, jₒ, lₒ], l2_abab [kₒ, lₒ, cᵥ, dᵥ], t2_abab [aᵥ, dᵥ, iₒ, mₒ], t2_abab [cᵥ, bᵥ, kₒ, nₒ]], [(1, [aᵥ, bᵥ, iₒ, jₒ])]⟩,
  -- line 1387: mnlj,lkdc,daim,cbkn->abij
  ⟨-1, [g_abab [mₒ, nₒ, lₒ, jₒ], l2_abab [lₒ, kₒ, dᵥ, cᵥ], t2_aaaa [dᵥ, aᵥ, iₒ, mₒ], t2_bbbb [cᵥ, bᵥ, kₒ, nₒ]], [(1, [aᵥ, bᵥ, iₒ, jₒ])]⟩,
  -- line 1390: nmlj,lkcd,adim,cbnk->abij
  ⟨-1, [g_abab [nₒ, mₒ, lₒ, jₒ], l2_abab [lₒ, kₒ, cᵥ, dᵥ], t2_abab [aᵥ, dᵥ, iₒ, mₒ], t2_abab [cᵥ, bᵥ, nₒ, kₒ]], [(1, [aᵥ, bᵥ, iₒ, jₒ])]⟩,
  -- line 1393: nmjl,kldc,adim,cbkn->abij
  ⟨-1, [g_bbbb [nₒ, mₒ, jₒ, lₒ], l2_bbbb [kₒ, lₒ, dᵥ, cᵥ], t2_abab [aᵥ, dᵥ, iₒ, mₒ], t2_bbbb [cᵥ, bᵥ, kₒ, nₒ]], [(1, [aᵥ, bᵥ, iₒ, jₒ])]⟩,
  -- line 1396: mnil,klcd,admj,cbkn->abij
  ⟨-1, [g_abab [mₒ, nₒ, iₒ, lₒ], l2_abab [kₒ, lₒ, cᵥ, dᵥ], t2_abab [aᵥ, dᵥ, mₒ, jₒ], t2_abab [cᵥ, bᵥ, kₒ, nₒ]], [(1, [aᵥ, bᵥ, iₒ, jₒ])]⟩,
  -- line 1399: nmil,lkcd,admj,cbnk->abij
  ⟨1, [g_aaaa [nₒ, mₒ, iₒ, lₒ], l2_abab [lₒ, kₒ, cᵥ, dᵥ], t2_abab [aᵥ, dᵥ, mₒ, jₒ], t2_abab [cᵥ, bᵥ, nₒ, kₒ]], [(1, [aᵥ, bᵥ, iₒ, jₒ])]⟩,
  -- line 1402: mnil,kldc,admj,cbkn->abij
  ⟨1, [g_abab [mₒ, nₒ, iₒ, lₒ], l2_bbbb [kₒ, lₒ, dᵥ, cᵥ], t2_abab [aᵥ, dᵥ, mₒ, jₒ], t2_bbbb [cᵥ, bᵥ, kₒ, nₒ]], [(1, [aᵥ, bᵥ, iₒ, jₒ])]⟩,
  -- line 1405: mnij,kldc,dclm,abkn->abij
  ⟨1/2, [g_abab [mₒ, nₒ, iₒ, jₒ], l2_aaaa [kₒ, lₒ, dᵥ, cᵥ], t2_aaaa [dᵥ, cᵥ, lₒ, mₒ], t2_abab [aᵥ, bᵥ, kₒ, nₒ]], [(1, [aᵥ, bᵥ, iₒ, jₒ])]⟩,
  -- line 1408: mnij,kldc,dcml,abkn->abij
  ⟨-1/2, [g_abab [mₒ, nₒ, iₒ, jₒ], l2_abab [kₒ, lₒ, dᵥ, cᵥ], t2_abab [dᵥ, cᵥ, mₒ, lₒ], t2_abab [aᵥ, bᵥ, kₒ, nₒ]], [(1, [aᵥ, bᵥ, iₒ, jₒ])]⟩,
  -- line 1411: mnij,klcd,cdml,abkn->abij
  ⟨-1/2, [g_abab [mₒ, nₒ, iₒ, jₒ], l2_abab [kₒ, lₒ, cᵥ, dᵥ], t2_abab [cᵥ, dᵥ, mₒ, lₒ], t2_abab [aᵥ, bᵥ, kₒ, nₒ]], [(1, [aᵥ, bᵥ, iₒ, jₒ])]⟩,
  -- line 1414: nmij,lkdc,dclm,abnk->abij
  ⟨-1/2, [g_abab [nₒ, mₒ, iₒ, jₒ], l2_abab [lₒ, kₒ, dᵥ, cᵥ], t2_abab [dᵥ, cᵥ, lₒ, mₒ], t2_abab [aᵥ, bᵥ, nₒ, kₒ]], [(1, [aᵥ, bᵥ, iₒ, jₒ])]⟩,
  -- line 1417: nmij,lkcd,cdlm,abnk->abij
  ⟨-1/2, [g_abab [nₒ, mₒ, iₒ, jₒ], l2_abab [lₒ, kₒ, cᵥ, dᵥ], t2_abab [cᵥ, dᵥ, lₒ, mₒ], t2_abab [aᵥ, bᵥ, nₒ, kₒ]], [(1, [aᵥ, bᵥ, iₒ, jₒ])]⟩,
  -- line 1420: nmij,kldc,dclm,abnk->abij
  ⟨1/2, [g_abab [nₒ, mₒ, iₒ, jₒ], l2_bbbb [kₒ, lₒ, dᵥ, cᵥ], t2_bbbb [dᵥ, cᵥ, lₒ, mₒ], t2_abab [aᵥ, bᵥ, nₒ, kₒ]], [(1, [aᵥ, bᵥ, iₒ, jₒ])]⟩,
  -- line 1423: mnij,kldc,dalm,cbkn->abij
  ⟨-1/2, [g_abab [mₒ, nₒ, iₒ, jₒ], l2_aaaa [kₒ, lₒ, dᵥ, cᵥ], t2_aaaa [dᵥ, aᵥ, lₒ, mₒ], t2_abab [cᵥ, bᵥ, kₒ, nₒ]], [(1, [aᵥ, bᵥ, iₒ, jₒ])]⟩,
  -- line 1426: mnij,klcd,adml,cbkn->abij
  ⟨1/2, [g_abab [mₒ, nₒ, iₒ, jₒ], l2_abab [kₒ, lₒ, cᵥ, dᵥ], t2_abab [aᵥ, dᵥ, mₒ, lₒ], t2_abab [cᵥ, bᵥ, kₒ, nₒ]], [(1, [aᵥ, bᵥ, iₒ, jₒ])]⟩,
  -- line 1429: mnij,lkdc,dalm,cbkn->abij
  ⟨1/2, [g_abab [mₒ, nₒ, iₒ, jₒ], l2_abab [lₒ, kₒ, dᵥ, cᵥ], t2_aaaa [dᵥ, aᵥ, lₒ, mₒ], t2_bbbb [cᵥ, bᵥ, kₒ, nₒ]], [(1, [aᵥ, bᵥ, iₒ, jₒ])]⟩,
  -- line 1432: nmij,lkcd,adlm,cbnk->abij
  ⟨1/2, [g_abab [nₒ, mₒ, iₒ, jₒ], l2_abab [lₒ, kₒ, cᵥ, dᵥ], t2_abab [aᵥ, dᵥ, lₒ, mₒ], t2_abab [cᵥ, bᵥ, nₒ, kₒ]], [(1, [aᵥ, bᵥ, iₒ, jₒ])]⟩,
  -- line 1435: mnij,kldc,adml,cbkn->abij
  ⟨-1/2, [g_abab [mₒ, nₒ, iₒ, jₒ], l2_bbbb [kₒ, lₒ, dᵥ, cᵥ], t2_abab [aᵥ, dᵥ, mₒ, lₒ], t2_bbbb [cᵥ, bᵥ, kₒ, nₒ]], [(1, [aᵥ, bᵥ, iₒ, jₒ])]⟩,
  -- line 1438: nmij,kldc,dblm,cakn->abij
  ⟨-1/2, [g_abab [nₒ, mₒ, iₒ, jₒ], l2_aaaa [kₒ, lₒ, dᵥ, cᵥ], t2_abab [dᵥ, bᵥ, lₒ, mₒ], t2_aaaa [cᵥ, aᵥ, kₒ, nₒ]], [(1, [aᵥ, bᵥ, iₒ, jₒ])]⟩,
  -- line 1441: mnij,kldc,dbml,ackn->abij
  ⟨1/2, [g_abab [mₒ, nₒ, iₒ, jₒ], l2_abab [kₒ, lₒ, dᵥ, cᵥ], t2_abab [dᵥ, bᵥ, mₒ, lₒ], t2_abab [aᵥ, cᵥ, kₒ, nₒ]], [(1, [aᵥ, bᵥ, iₒ, jₒ])]⟩,
  -- line 1444: nmij,klcd,dblm,cakn->abij
  ⟨1/2, [g_abab [nₒ, mₒ, iₒ, jₒ], l2_abab [kₒ, lₒ, cᵥ, dᵥ], t2_bbbb [dᵥ, bᵥ, lₒ, mₒ], t2_aaaa [cᵥ, aᵥ, kₒ, nₒ]], [(1, [aᵥ, bᵥ, iₒ, jₒ])]⟩,
  -- line 1447: nmij,lkdc,dblm,acnk->abij
  ⟨1/2, [g_abab [nₒ, mₒ, iₒ, jₒ], l2_abab [lₒ, kₒ, dᵥ, cᵥ], t2_abab [dᵥ, bᵥ, lₒ, mₒ], t2_abab [aᵥ, cᵥ, nₒ, kₒ]], [(1, [aᵥ, bᵥ, iₒ, jₒ])]⟩,
  -- line 1450: nmij,kldc,dblm,acnk->abij
  ⟨-1/2, [g_abab [nₒ, mₒ, iₒ, jₒ], l2_bbbb [kₒ, lₒ, dᵥ, cᵥ], t2_bbbb [dᵥ, bᵥ, lₒ, mₒ], t2_abab [aᵥ, cᵥ, nₒ, kₒ]], [(1, [aᵥ, bᵥ, iₒ, jₒ])]⟩,
  -- line 1453: dmle,kldc,cekj,abim->abij
  ⟨1, [g_abab [dᵥ, mₒ, lₒ, eᵥ], l2_aaaa [kₒ, lₒ, dᵥ, cᵥ], t2_abab [cᵥ, eᵥ, kₒ, jₒ], t2_abab [aᵥ, bᵥ, iₒ, mₒ]], [(1, [aᵥ, bᵥ, iₒ, jₒ])]⟩,
  -- line 1456: dmel,kldc,eckj,abim->abij
  ⟨1, [g_abab [dᵥ, mₒ, eᵥ, lₒ], l2_abab [kₒ, lₒ, dᵥ, cᵥ], t2_abab [eᵥ, cᵥ, kₒ, jₒ], t2_abab [aᵥ, bᵥ, iₒ, mₒ]], [(1, [aᵥ, bᵥ, iₒ, jₒ])]⟩,
  -- line 1459: mdel,klcd,cekj,abim->abij
  ⟨-1, [g_bbbb [mₒ, dᵥ, eᵥ, lₒ], l2_abab [kₒ, lₒ, cᵥ, dᵥ], t2_abab [cᵥ, eᵥ, kₒ, jₒ], t2_abab [aᵥ, bᵥ, iₒ, mₒ]], [(1, [aᵥ, bᵥ, iₒ, jₒ])]⟩,
  -- line 1462: dmle,lkdc,ecjk,abim->abij
  ⟨-1, [g_abab [dᵥ, mₒ, lₒ, eᵥ], l2_abab [lₒ, kₒ, dᵥ, cᵥ], t2_bbbb [eᵥ, cᵥ, jₒ, kₒ], t2_abab [aᵥ, bᵥ, iₒ, mₒ]], [(1, [aᵥ, bᵥ, iₒ, jₒ])]⟩,
  -- line 1465: mdel,kldc,ecjk,abim->abij
  ⟨1, [g_bbbb [mₒ, dᵥ, eᵥ, lₒ], l2_bbbb [kₒ, lₒ, dᵥ, cᵥ], t2_bbbb [eᵥ, cᵥ, jₒ, kₒ], t2_abab [aᵥ, bᵥ, iₒ, mₒ]], [(1, [aᵥ, bᵥ, iₒ, jₒ])]⟩,
  -- line 1468: mdel,kldc,ecik,abmj->abij
  ⟨1, [g_aaaa [mₒ, dᵥ, eᵥ, lₒ], l2_aaaa [kₒ, lₒ, dᵥ, cᵥ], t2_aaaa [eᵥ, cᵥ, iₒ, kₒ], t2_abab [aᵥ, bᵥ, mₒ, jₒ]], [(1, [aᵥ, bᵥ, iₒ, jₒ])]⟩,
  -- line 1471: mdel,klcd,ecik,abmj->abij
  ⟨-1, [g_abab [mₒ, dᵥ, eᵥ, lₒ], l2_abab [kₒ, lₒ, cᵥ, dᵥ], t2_aaaa [eᵥ, cᵥ, iₒ, kₒ], t2_abab [aᵥ, bᵥ, mₒ, jₒ]], [(1, [aᵥ, bᵥ, iₒ, jₒ])]⟩,
  -- line 1474: mdel,lkdc,ecik,abmj->abij
  ⟨-1, [g_aaaa [mₒ, dᵥ, eᵥ, lₒ], l2_abab [lₒ, kₒ, dᵥ, cᵥ], t2_abab [eᵥ, cᵥ, iₒ, kₒ], t2_abab [aᵥ, bᵥ, mₒ, jₒ]], [(1, [aᵥ, bᵥ, iₒ, jₒ])]⟩
  ]

/-- Part 2 of `residQf1_abab`. -/
def residQf1_abab_2 : Prog := [
  -- line 1477: mdle,lkcd,ceik,abmj->abij
  ⟨1, [g_abab [mₒ, dᵥ, lₒ, eᵥ], l2_abab [lₒ, kₒ, cᵥ, dᵥ], t2_abab [cᵥ, eᵥ, iₒ, kₒ], t2_abab [aᵥ, bᵥ, mₒ, jₒ]], [(1, [aᵥ, bᵥ, iₒ, jₒ])]⟩,
  -- line 1480: mdel,kldc,ecik,abmj->abij
  ⟨1, [g_abab [mₒ, dᵥ, eᵥ, lₒ], l2_bbbb [kₒ, lₒ, dᵥ, cᵥ], t2_abab [eᵥ, cᵥ, iₒ, kₒ], t2_abab [aᵥ, bᵥ, mₒ, jₒ]], [(1, [aᵥ, bᵥ, iₒ, jₒ])]⟩,
  -- line 1483: dmle,kldc,ceij,abkm->abij
  ⟨-1, [g_abab [dᵥ, mₒ, lₒ, eᵥ], l2_aaaa [kₒ, lₒ, dᵥ, cᵥ], t2_abab [cᵥ, eᵥ, iₒ, jₒ], t2_abab [aᵥ, bᵥ, kₒ, mₒ]], [(1, [aᵥ, bᵥ, iₒ, jₒ])]⟩,
  -- line 1486: dmel,kldc,ecij,abkm->abij
  ⟨-1, [g_abab [dᵥ, mₒ, eᵥ, lₒ], l2_abab [kₒ, lₒ, dᵥ, cᵥ], t2_abab [eᵥ, cᵥ, iₒ, jₒ], t2_abab [aᵥ, bᵥ, kₒ, mₒ]], [(1, [aᵥ, bᵥ, iₒ, jₒ])]⟩,
  -- line 1489: mdel,klcd,ceij,abkm->abij
  ⟨1, [g_bbbb [mₒ, dᵥ, eᵥ, lₒ], l2_abab [kₒ, lₒ, cᵥ, dᵥ], t2_abab [cᵥ, eᵥ, iₒ, jₒ], t2_abab [aᵥ, bᵥ, kₒ, mₒ]], [(1, [aᵥ, bᵥ, iₒ, jₒ])]⟩,
  -- line 1492: mdel,lkdc,ecij,abmk->abij
  ⟨1, [g_aaaa [mₒ, dᵥ, eᵥ, lₒ], l2_abab [lₒ, kₒ, dᵥ, cᵥ], t2_abab [eᵥ, cᵥ, iₒ, jₒ], t2_abab [aᵥ, bᵥ, mₒ, kₒ]], [(1, [aᵥ, bᵥ, iₒ, jₒ])]⟩,
  -- line 1495: mdle,lkcd,ceij,abmk->abij
  ⟨-1, [g_abab [mₒ, dᵥ, lₒ, eᵥ], l2_abab [lₒ, kₒ, cᵥ, dᵥ], t2_abab [cᵥ, eᵥ, iₒ, jₒ], t2_abab [aᵥ, bᵥ, mₒ, kₒ]], [(1, [aᵥ, bᵥ, iₒ, jₒ])]⟩,
  -- line 1498: mdel,kldc,ecij,abmk->abij
  ⟨-1, [g_abab [mₒ, dᵥ, eᵥ, lₒ], l2_bbbb [kₒ, lₒ, dᵥ, cᵥ], t2_abab [eᵥ, cᵥ, iₒ, jₒ], t2_abab [aᵥ, bᵥ, mₒ, kₒ]], [(1, [aᵥ, bᵥ, iₒ, jₒ])]⟩,
  -- line 1501: dmle,kldc,aekj,cbim->abij
  ⟨-1, [g_abab [dᵥ, mₒ, lₒ, eᵥ], l2_aaaa [kₒ, lₒ, dᵥ, cᵥ], t2_abab [aᵥ, eᵥ, kₒ, jₒ], t2_abab [cᵥ, bᵥ, iₒ, mₒ]], [(1, [aᵥ, bᵥ, iₒ, jₒ])]⟩,
  -- line 1504: mdel,klcd,aekj,cbim->abij
  ⟨1, [g_bbbb [mₒ, dᵥ, eᵥ, lₒ], l2_abab [kₒ, lₒ, cᵥ, dᵥ], t2_abab [aᵥ, eᵥ, kₒ, jₒ], t2_abab [cᵥ, bᵥ, iₒ, mₒ]], [(1, [aᵥ, bᵥ, iₒ, jₒ])]⟩,
  -- line 1507: mdel,kldc,ebkj,caim->abij
  ⟨-1, [g_aaaa [mₒ, dᵥ, eᵥ, lₒ], l2_aaaa [kₒ, lₒ, dᵥ, cᵥ], t2_abab [eᵥ, bᵥ, kₒ, jₒ], t2_aaaa [cᵥ, aᵥ, iₒ, mₒ]], [(1, [aᵥ, bᵥ, iₒ, jₒ])]⟩,
  -- line 1510: dmel,kldc,ebkj,acim->abij
  ⟨-1, [g_abab [dᵥ, mₒ, eᵥ, lₒ], l2_abab [kₒ, lₒ, dᵥ, cᵥ], t2_abab [eᵥ, bᵥ, kₒ, jₒ], t2_abab [aᵥ, cᵥ, iₒ, mₒ]], [(1, [aᵥ, bᵥ, iₒ, jₒ])]⟩,
  -- line 1513: mdel,klcd,ebkj,caim->abij
  ⟨1, [g_abab [mₒ, dᵥ, eᵥ, lₒ], l2_abab [kₒ, lₒ, cᵥ, dᵥ], t2_abab [eᵥ, bᵥ, kₒ, jₒ], t2_aaaa [cᵥ, aᵥ, iₒ, mₒ]], [(1, [aᵥ, bᵥ, iₒ, jₒ])]⟩,
  -- line 1516: dmle,lkdc,ebjk,acim->abij
  ⟨1, [g_abab [dᵥ, mₒ, lₒ, eᵥ], l2_abab [lₒ, kₒ, dᵥ, cᵥ], t2_bbbb [eᵥ, bᵥ, jₒ, kₒ], t2_abab [aᵥ, cᵥ, iₒ, mₒ]], [(1, [aᵥ, bᵥ, iₒ, jₒ])]⟩,
  -- line 1519: mdle,lkcd,ebjk,caim->abij
  ⟨-1, [g_abab [mₒ, dᵥ, lₒ, eᵥ], l2_abab [lₒ, kₒ, cᵥ, dᵥ], t2_bbbb [eᵥ, bᵥ, jₒ, kₒ], t2_aaaa [cᵥ, aᵥ, iₒ, mₒ]], [(1, [aᵥ, bᵥ, iₒ, jₒ])]⟩,
  -- line 1522: mdel,kldc,ebjk,acim->abij
  ⟨-1, [g_bbbb [mₒ, dᵥ, eᵥ, lₒ], l2_bbbb [kₒ, lₒ, dᵥ, cᵥ], t2_bbbb [eᵥ, bᵥ, jₒ, kₒ], t2_abab [aᵥ, cᵥ, iₒ, mₒ]], [(1, [aᵥ, bᵥ, iₒ, jₒ])]⟩,
  -- line 1525: mdel,kldc,eaik,cbmj->abij
  ⟨-1, [g_aaaa [mₒ, dᵥ, eᵥ, lₒ], l2_aaaa [kₒ, lₒ, dᵥ, cᵥ], t2_aaaa [eᵥ, aᵥ, iₒ, kₒ], t2_abab [cᵥ, bᵥ, mₒ, jₒ]], [(1, [aᵥ, bᵥ, iₒ, jₒ])]⟩,
  -- line 1528: dmel,kldc,eaik,cbjm->abij
  ⟨-1, [g_abab [dᵥ, mₒ, eᵥ, lₒ], l2_abab [kₒ, lₒ, dᵥ, cᵥ], t2_aaaa [eᵥ, aᵥ, iₒ, kₒ], t2_bbbb [cᵥ, bᵥ, jₒ, mₒ]], [(1, [aᵥ, bᵥ, iₒ, jₒ])]⟩,
  -- line 1531: mdel,klcd,eaik,cbmj->abij
  ⟨1, [g_abab [mₒ, dᵥ, eᵥ, lₒ], l2_abab [kₒ, lₒ, cᵥ, dᵥ], t2_aaaa [eᵥ, aᵥ, iₒ, kₒ], t2_abab [cᵥ, bᵥ, mₒ, jₒ]], [(1, [aᵥ, bᵥ, iₒ, jₒ])]⟩,
  -- line 1534: dmle,lkdc,aeik,cbjm->abij
  ⟨1, [g_abab [dᵥ, mₒ, lₒ, eᵥ], l2_abab [lₒ, kₒ, dᵥ, cᵥ], t2_abab [aᵥ, eᵥ, iₒ, kₒ], t2_bbbb [cᵥ, bᵥ, jₒ, mₒ]], [(1, [aᵥ, bᵥ, iₒ, jₒ])]⟩,
  -- line 1537: mdle,lkcd,aeik,cbmj->abij
  ⟨-1, [g_abab [mₒ, dᵥ, lₒ, eᵥ], l2_abab [lₒ, kₒ, cᵥ, dᵥ], t2_abab [aᵥ, eᵥ, iₒ, kₒ], t2_abab [cᵥ, bᵥ, mₒ, jₒ]], [(1, [aᵥ, bᵥ, iₒ, jₒ])]⟩,
  -- line 1540: mdel,kldc,aeik,cbjm->abij
  ⟨-1, [g_bbbb [mₒ, dᵥ, eᵥ, lₒ], l2_bbbb [kₒ, lₒ, dᵥ, cᵥ], t2_abab [aᵥ, eᵥ, iₒ, kₒ], t2_bbbb [cᵥ, bᵥ, jₒ, mₒ]], [(1, [aᵥ, bᵥ, iₒ, jₒ])]⟩,
  -- line 1543: mdel,lkdc,ebik,acmj->abij
  ⟨1, [g_aaaa [mₒ, dᵥ, eᵥ, lₒ], l2_abab [lₒ, kₒ, dᵥ, cᵥ], t2_abab [eᵥ, bᵥ, iₒ, kₒ], t2_abab [aᵥ, cᵥ, mₒ, jₒ]], [(1, [aᵥ, bᵥ, iₒ, jₒ])]⟩,
  -- line 1546: mdel,kldc,ebik,acmj->abij
  ⟨-1, [g_abab [mₒ, dᵥ, eᵥ, lₒ], l2_bbbb [kₒ, lₒ, dᵥ, cᵥ], t2_abab [eᵥ, bᵥ, iₒ, kₒ], t2_abab [aᵥ, cᵥ, mₒ, jₒ]], [(1, [aᵥ, bᵥ, iₒ, jₒ])]⟩,
  -- line 1549: dmle,kldc,aeij,cbkm->abij
  ⟨1, [g_abab [dᵥ, mₒ, lₒ, eᵥ], l2_aaaa [kₒ, lₒ, dᵥ, cᵥ], t2_abab [aᵥ, eᵥ, iₒ, jₒ], t2_abab [cᵥ, bᵥ, kₒ, mₒ]], [(1, [aᵥ, bᵥ, iₒ, jₒ])]⟩,
  -- line 1552: mdel,klcd,aeij,cbkm->abij
  ⟨-1, [g_bbbb [mₒ, dᵥ, eᵥ, lₒ], l2_abab [kₒ, lₒ, cᵥ, dᵥ], t2_abab [aᵥ, eᵥ, iₒ, jₒ], t2_abab [cᵥ, bᵥ, kₒ, mₒ]], [(1, [aᵥ, bᵥ, iₒ, jₒ])]⟩,
  -- line 1555: dmle,lkdc,aeij,cbkm->abij
  ⟨-1, [g_abab [dᵥ, mₒ, lₒ, eᵥ], l2_abab [lₒ, kₒ, dᵥ, cᵥ], t2_abab [aᵥ, eᵥ, iₒ, jₒ], t2_bbbb [cᵥ, bᵥ, kₒ, mₒ]], [(1, [aᵥ, bᵥ, iₒ, jₒ])]⟩,
  -- line 1558: mdle,lkcd,aeij,cbmk->abij
  ⟨1, [g_abab [mₒ, dᵥ, lₒ, eᵥ], l2_abab [lₒ, kₒ, cᵥ, dᵥ], t2_abab [aᵥ, eᵥ, iₒ, jₒ], t2_abab [cᵥ, bᵥ, mₒ, kₒ]], [(1, [aᵥ, bᵥ, iₒ, jₒ])]⟩,
  -- line 1561: mdel,kldc,aeij,cbkm->abij
  ⟨1, [g_bbbb [mₒ, dᵥ, eᵥ, lₒ], l2_bbbb [kₒ, lₒ, dᵥ, cᵥ], t2_abab [aᵥ, eᵥ, iₒ, jₒ], t2_bbbb [cᵥ, bᵥ, kₒ, mₒ]], [(1, [aᵥ, bᵥ, iₒ, jₒ])]⟩,
  -- line 1564: mdel,kldc,ebij,cakm->abij
  ⟨1, [g_aaaa [mₒ, dᵥ, eᵥ, lₒ], l2_aaaa [kₒ, lₒ, dᵥ, cᵥ], t2_abab [eᵥ, bᵥ, iₒ, jₒ], t2_aaaa [cᵥ, aᵥ, kₒ, mₒ]], [(1, [aᵥ, bᵥ, iₒ, jₒ])]⟩,
  -- line 1567: dmel,kldc,ebij,ackm->abij
  ⟨1, [g_abab [dᵥ, mₒ, eᵥ, lₒ], l2_abab [kₒ, lₒ, dᵥ, cᵥ], t2_abab [eᵥ, bᵥ, iₒ, jₒ], t2_abab [aᵥ, cᵥ, kₒ, mₒ]], [(1, [aᵥ, bᵥ, iₒ, jₒ])]⟩,
  -- line 1570: mdel,klcd,ebij,cakm->abij
  ⟨-1, [g_abab [mₒ, dᵥ, eᵥ, lₒ], l2_abab [kₒ, lₒ, cᵥ, dᵥ], t2_abab [eᵥ, bᵥ, iₒ, jₒ], t2_aaaa [cᵥ, aᵥ, kₒ, mₒ]], [(1, [aᵥ, bᵥ, iₒ, jₒ])]⟩,
  -- line 1573: mdel,lkdc,ebij,acmk->abij
  ⟨-1, [g_aaaa [mₒ, dᵥ, eᵥ, lₒ], l2_abab [lₒ, kₒ, dᵥ, cᵥ], t2_abab [eᵥ, bᵥ, iₒ, jₒ], t2_abab [aᵥ, cᵥ, mₒ, kₒ]], [(1, [aᵥ, bᵥ, iₒ, jₒ])]⟩,
  -- line 1576: mdel,kldc,ebij,acmk->abij
  ⟨1, [g_abab [mₒ, dᵥ, eᵥ, lₒ], l2_bbbb [kₒ, lₒ, dᵥ, cᵥ], t2_abab [eᵥ, bᵥ, iₒ, jₒ], t2_abab [aᵥ, cᵥ, mₒ, kₒ]], [(1, [aᵥ, bᵥ, iₒ, jₒ])]⟩,
  -- line 1579: dmej,kldc,eckl,abim->abij
  ⟨-1/2, [g_abab [dᵥ, mₒ, eᵥ, jₒ], l2_aaaa [kₒ, lₒ, dᵥ, cᵥ], t2_aaaa [eᵥ, cᵥ, kₒ, lₒ], t2_abab [aᵥ, bᵥ, iₒ, mₒ]], [(1, [aᵥ, bᵥ, iₒ, jₒ])]⟩,
  -- line 1582: dmej,kldc,eckl,abim->abij
  ⟨-1/2, [g_abab [dᵥ, mₒ, eᵥ, jₒ], l2_abab [kₒ, lₒ, dᵥ, cᵥ], t2_abab [eᵥ, cᵥ, kₒ, lₒ], t2_abab [aᵥ, bᵥ, iₒ, mₒ]], [(1, [aᵥ, bᵥ, iₒ, jₒ])]⟩,
  -- line 1585: mdej,klcd,cekl,abim->abij
  ⟨1/2, [g_bbbb [mₒ, dᵥ, eᵥ, jₒ], l2_abab [kₒ, lₒ, cᵥ, dᵥ], t2_abab [cᵥ, eᵥ, kₒ, lₒ], t2_abab [aᵥ, bᵥ, iₒ, mₒ]], [(1, [aᵥ, bᵥ, iₒ, jₒ])]⟩,
  -- line 1588: dmej,lkdc,eclk,abim->abij
  ⟨-1/2, [g_abab [dᵥ, mₒ, eᵥ, jₒ], l2_abab [lₒ, kₒ, dᵥ, cᵥ], t2_abab [eᵥ, cᵥ, lₒ, kₒ], t2_abab [aᵥ, bᵥ, iₒ, mₒ]], [(1, [aᵥ, bᵥ, iₒ, jₒ])]⟩,
  -- line 1591: mdej,lkcd,celk,abim->abij
  ⟨1/2, [g_bbbb [mₒ, dᵥ, eᵥ, jₒ], l2_abab [lₒ, kₒ, cᵥ, dᵥ], t2_abab [cᵥ, eᵥ, lₒ, kₒ], t2_abab [aᵥ, bᵥ, iₒ, mₒ]], [(1, [aᵥ, bᵥ, iₒ, jₒ])]⟩,
  -- line 1594: mdej,kldc,eckl,abim->abij
  ⟨1/2, [g_bbbb [mₒ, dᵥ, eᵥ, jₒ], l2_bbbb [kₒ, lₒ, dᵥ, cᵥ], t2_bbbb [eᵥ, cᵥ, kₒ, lₒ], t2_abab [aᵥ, bᵥ, iₒ, mₒ]], [(1, [aᵥ, bᵥ, iₒ, jₒ])]⟩
  ]

/-- Part 3 of `residQf1_abab`. -/
def residQf1_abab_3 : Prog := [
  -- line 1597: mdei,kldc,eckl,abmj->abij
  ⟨1/2, [g_aaaa [mₒ, dᵥ, eᵥ, iₒ], l2_aaaa [kₒ, lₒ, dᵥ, cᵥ], t2_aaaa [eᵥ, cᵥ, kₒ, lₒ], t2_abab [aᵥ, bᵥ, mₒ, jₒ]], [(1, [aᵥ, bᵥ, iₒ, jₒ])]⟩,
  -- line 1600: mdei,kldc,eckl,abmj->abij
  ⟨1/2, [g_aaaa [mₒ, dᵥ, eᵥ, iₒ], l2_abab [kₒ, lₒ, dᵥ, cᵥ], t2_abab [eᵥ, cᵥ, kₒ, lₒ], t2_abab [aᵥ, bᵥ, mₒ, jₒ]], [(1, [aᵥ, bᵥ, iₒ, jₒ])]⟩,
  -- line 1603: mdie,klcd,cekl,abmj->abij
  ⟨-1/2, [g_abab [mₒ, dᵥ, iₒ, eᵥ], l2_abab [kₒ, lₒ, cᵥ, dᵥ], t2_abab [cᵥ, eᵥ, kₒ, lₒ], t2_abab [aᵥ, bᵥ, mₒ, jₒ]], [(1, [aᵥ, bᵥ, iₒ, jₒ])]⟩,
  -- line 1606: mdei,lkdc,eclk,abmj->abij
  ⟨1/2, [g_aaaa [mₒ, dᵥ, eᵥ, iₒ], l2_abab [lₒ, kₒ, dᵥ, cᵥ], t2_abab [eᵥ, cᵥ, lₒ, kₒ], t2_abab [aᵥ, bᵥ, mₒ, jₒ]], [(1, [aᵥ, bᵥ, iₒ, jₒ])]⟩,
  -- line 1609: mdie,lkcd,celk,abmj->abij
  ⟨-1/2, [g_abab [mₒ, dᵥ, iₒ, eᵥ], l2_abab [lₒ, kₒ, cᵥ, dᵥ], t2_abab [cᵥ, eᵥ, lₒ, kₒ], t2_abab [aᵥ, bᵥ, mₒ, jₒ]], [(1, [aᵥ, bᵥ, iₒ, jₒ])]⟩,
  -- line 1612: mdie,kldc,eckl,abmj->abij
  ⟨-1/2, [g_abab [mₒ, dᵥ, iₒ, eᵥ], l2_bbbb [kₒ, lₒ, dᵥ, cᵥ], t2_bbbb [eᵥ, cᵥ, kₒ, lₒ], t2_abab [aᵥ, bᵥ, mₒ, jₒ]], [(1, [aᵥ, bᵥ, iₒ, jₒ])]⟩,
  -- line 1615: dmej,kldc,ecil,abkm->abij
  ⟨1, [g_abab [dᵥ, mₒ, eᵥ, jₒ], l2_aaaa [kₒ, lₒ, dᵥ, cᵥ], t2_aaaa [eᵥ, cᵥ, iₒ, lₒ], t2_abab [aᵥ, bᵥ, kₒ, mₒ]], [(1, [aᵥ, bᵥ, iₒ, jₒ])]⟩,
  -- line 1618: dmej,kldc,ecil,abkm->abij
  ⟨1, [g_abab [dᵥ, mₒ, eᵥ, jₒ], l2_abab [kₒ, lₒ, dᵥ, cᵥ], t2_abab [eᵥ, cᵥ, iₒ, lₒ], t2_abab [aᵥ, bᵥ, kₒ, mₒ]], [(1, [aᵥ, bᵥ, iₒ, jₒ])]⟩,
  -- line 1621: mdej,klcd,ceil,abkm->abij
  ⟨-1, [g_bbbb [mₒ, dᵥ, eᵥ, jₒ], l2_abab [kₒ, lₒ, cᵥ, dᵥ], t2_abab [cᵥ, eᵥ, iₒ, lₒ], t2_abab [aᵥ, bᵥ, kₒ, mₒ]], [(1, [aᵥ, bᵥ, iₒ, jₒ])]⟩,
  -- line 1624: mdej,lkcd,ecil,abmk->abij
  ⟨1, [g_abab [mₒ, dᵥ, eᵥ, jₒ], l2_abab [lₒ, kₒ, cᵥ, dᵥ], t2_aaaa [eᵥ, cᵥ, iₒ, lₒ], t2_abab [aᵥ, bᵥ, mₒ, kₒ]], [(1, [aᵥ, bᵥ, iₒ, jₒ])]⟩,
  -- line 1627: mdej,kldc,ecil,abmk->abij
  ⟨1, [g_abab [mₒ, dᵥ, eᵥ, jₒ], l2_bbbb [kₒ, lₒ, dᵥ, cᵥ], t2_abab [eᵥ, cᵥ, iₒ, lₒ], t2_abab [aᵥ, bᵥ, mₒ, kₒ]], [(1, [aᵥ, bᵥ, iₒ, jₒ])]⟩,
  -- line 1630: dmie,kldc,celj,abkm->abij
  ⟨1, [g_abab [dᵥ, mₒ, iₒ, eᵥ], l2_aaaa [kₒ, lₒ, dᵥ, cᵥ], t2_abab [cᵥ, eᵥ, lₒ, jₒ], t2_abab [aᵥ, bᵥ, kₒ, mₒ]], [(1, [aᵥ, bᵥ, iₒ, jₒ])]⟩,
  -- line 1633: dmie,kldc,ecjl,abkm->abij
  ⟨1, [g_abab [dᵥ, mₒ, iₒ, eᵥ], l2_abab [kₒ, lₒ, dᵥ, cᵥ], t2_bbbb [eᵥ, cᵥ, jₒ, lₒ], t2_abab [aᵥ, bᵥ, kₒ, mₒ]], [(1, [aᵥ, bᵥ, iₒ, jₒ])]⟩,
  -- line 1636: mdei,lkdc,eclj,abmk->abij
  ⟨-1, [g_aaaa [mₒ, dᵥ, eᵥ, iₒ], l2_abab [lₒ, kₒ, dᵥ, cᵥ], t2_abab [eᵥ, cᵥ, lₒ, jₒ], t2_abab [aᵥ, bᵥ, mₒ, kₒ]], [(1, [aᵥ, bᵥ, iₒ, jₒ])]⟩,
  -- line 1639: mdie,lkcd,celj,abmk->abij
  ⟨1, [g_abab [mₒ, dᵥ, iₒ, eᵥ], l2_abab [lₒ, kₒ, cᵥ, dᵥ], t2_abab [cᵥ, eᵥ, lₒ, jₒ], t2_abab [aᵥ, bᵥ, mₒ, kₒ]], [(1, [aᵥ, bᵥ, iₒ, jₒ])]⟩,
  -- line 1642: mdie,kldc,ecjl,abmk->abij
  ⟨1, [g_abab [mₒ, dᵥ, iₒ, eᵥ], l2_bbbb [kₒ, lₒ, dᵥ, cᵥ], t2_bbbb [eᵥ, cᵥ, jₒ, lₒ], t2_abab [aᵥ, bᵥ, mₒ, kₒ]], [(1, [aᵥ, bᵥ, iₒ, jₒ])]⟩,
  -- line 1645: dmej,kldc,eakl,cbim->abij
  ⟨1/2, [g_abab [dᵥ, mₒ, eᵥ, jₒ], l2_aaaa [kₒ, lₒ, dᵥ, cᵥ], t2_aaaa [eᵥ, aᵥ, kₒ, lₒ], t2_abab [cᵥ, bᵥ, iₒ, mₒ]], [(1, [aᵥ, bᵥ, iₒ, jₒ])]⟩,
  -- line 1648: mdej,klcd,aekl,cbim->abij
  ⟨-1/2, [g_bbbb [mₒ, dᵥ, eᵥ, jₒ], l2_abab [kₒ, lₒ, cᵥ, dᵥ], t2_abab [aᵥ, eᵥ, kₒ, lₒ], t2_abab [cᵥ, bᵥ, iₒ, mₒ]], [(1, [aᵥ, bᵥ, iₒ, jₒ])]⟩,
  -- line 1651: mdej,lkcd,aelk,cbim->abij
  ⟨-1/2, [g_bbbb [mₒ, dᵥ, eᵥ, jₒ], l2_abab [lₒ, kₒ, cᵥ, dᵥ], t2_abab [aᵥ, eᵥ, lₒ, kₒ], t2_abab [cᵥ, bᵥ, iₒ, mₒ]], [(1, [aᵥ, bᵥ, iₒ, jₒ])]⟩,
  -- line 1654: dmej,kldc,ebkl,acim->abij
  ⟨1/2, [g_abab [dᵥ, mₒ, eᵥ, jₒ], l2_abab [kₒ, lₒ, dᵥ, cᵥ], t2_abab [eᵥ, bᵥ, kₒ, lₒ], t2_abab [aᵥ, cᵥ, iₒ, mₒ]], [(1, [aᵥ, bᵥ, iₒ, jₒ])]⟩,
  -- line 1657: mdej,klcd,ebkl,caim->abij
  ⟨-1/2, [g_abab [mₒ, dᵥ, eᵥ, jₒ], l2_abab [kₒ, lₒ, cᵥ, dᵥ], t2_abab [eᵥ, bᵥ, kₒ, lₒ], t2_aaaa [cᵥ, aᵥ, iₒ, mₒ]], [(1, [aᵥ, bᵥ, iₒ, jₒ])]⟩,
  -- line 1660: dmej,lkdc,eblk,acim->abij
  ⟨1/2, [g_abab [dᵥ, mₒ, eᵥ, jₒ], l2_abab [lₒ, kₒ, dᵥ, cᵥ], t2_abab [eᵥ, bᵥ, lₒ, kₒ], t2_abab [aᵥ, cᵥ, iₒ, mₒ]], [(1, [aᵥ, bᵥ, iₒ, jₒ])]⟩,
  -- line 1663: mdej,lkcd,eblk,caim->abij
  ⟨-1/2, [g_abab [mₒ, dᵥ, eᵥ, jₒ], l2_abab [lₒ, kₒ, cᵥ, dᵥ], t2_abab [eᵥ, bᵥ, lₒ, kₒ], t2_aaaa [cᵥ, aᵥ, iₒ, mₒ]], [(1, [aᵥ, bᵥ, iₒ, jₒ])]⟩,
  -- line 1666: mdej,kldc,ebkl,acim->abij
  ⟨-1/2, [g_bbbb [mₒ, dᵥ, eᵥ, jₒ], l2_bbbb [kₒ, lₒ, dᵥ, cᵥ], t2_bbbb [eᵥ, bᵥ, kₒ, lₒ], t2_abab [aᵥ, cᵥ, iₒ, mₒ]], [(1, [aᵥ, bᵥ, iₒ, jₒ])]⟩,
  -- line 1669: mdei,kldc,eakl,cbmj->abij
  ⟨-1/2, [g_aaaa [mₒ, dᵥ, eᵥ, iₒ], l2_aaaa [kₒ, lₒ, dᵥ, cᵥ], t2_aaaa [eᵥ, aᵥ, kₒ, lₒ], t2_abab [cᵥ, bᵥ, mₒ, jₒ]], [(1, [aᵥ, bᵥ, iₒ, jₒ])]⟩,
  -- line 1672: dmie,kldc,aekl,cbjm->abij
  ⟨-1/2, [g_abab [dᵥ, mₒ, iₒ, eᵥ], l2_abab [kₒ, lₒ, dᵥ, cᵥ], t2_abab [aᵥ, eᵥ, kₒ, lₒ], t2_bbbb [cᵥ, bᵥ, jₒ, mₒ]], [(1, [aᵥ, bᵥ, iₒ, jₒ])]⟩,
  -- line 1675: mdie,klcd,aekl,cbmj->abij
  ⟨1/2, [g_abab [mₒ, dᵥ, iₒ, eᵥ], l2_abab [kₒ, lₒ, cᵥ, dᵥ], t2_abab [aᵥ, eᵥ, kₒ, lₒ], t2_abab [cᵥ, bᵥ, mₒ, jₒ]], [(1, [aᵥ, bᵥ, iₒ, jₒ])]⟩,
  -- line 1678: dmie,lkdc,aelk,cbjm->abij
  ⟨-1/2, [g_abab [dᵥ, mₒ, iₒ, eᵥ], l2_abab [lₒ, kₒ, dᵥ, cᵥ], t2_abab [aᵥ, eᵥ, lₒ, kₒ], t2_bbbb [cᵥ, bᵥ, jₒ, mₒ]], [(1, [aᵥ, bᵥ, iₒ, jₒ])]⟩,
  -- line 1681: mdie,lkcd,aelk,cbmj->abij
  ⟨1/2, [g_abab [mₒ, dᵥ, iₒ, eᵥ], l2_abab [lₒ, kₒ, cᵥ, dᵥ], t2_abab [aᵥ, eᵥ, lₒ, kₒ], t2_abab [cᵥ, bᵥ, mₒ, jₒ]], [(1, [aᵥ, bᵥ, iₒ, jₒ])]⟩,
  -- line 1684: mdei,kldc,ebkl,acmj->abij
  ⟨-1/2, [g_aaaa [mₒ, dᵥ, eᵥ, iₒ], l2_abab [kₒ, lₒ, dᵥ, cᵥ], t2_abab [eᵥ, bᵥ, kₒ, lₒ], t2_abab [aᵥ, cᵥ, mₒ, jₒ]], [(1, [aᵥ, bᵥ, iₒ, jₒ])]⟩,
  -- line 1687: mdei,lkdc,eblk,acmj->abij
  ⟨-1/2, [g_aaaa [mₒ, dᵥ, eᵥ, iₒ], l2_abab [lₒ, kₒ, dᵥ, cᵥ], t2_abab [eᵥ, bᵥ, lₒ, kₒ], t2_abab [aᵥ, cᵥ, mₒ, jₒ]], [(1, [aᵥ, bᵥ, iₒ, jₒ])]⟩,
  -- line 1690: mdie,kldc,ebkl,acmj->abij
  ⟨1/2, [g_abab [mₒ, dᵥ, iₒ, eᵥ], l2_bbbb [kₒ, lₒ, dᵥ, cᵥ], t2_bbbb [eᵥ, bᵥ, kₒ, lₒ], t2_abab [aᵥ, cᵥ, mₒ, jₒ]], [(1, [aᵥ, bᵥ, iₒ, jₒ])]⟩,
  -- line 1693: dmej,kldc,eail,cbkm->abij
  ⟨-1, [g_abab [dᵥ, mₒ, eᵥ, jₒ], l2_aaaa [kₒ, lₒ, dᵥ, cᵥ], t2_aaaa [eᵥ, aᵥ, iₒ, lₒ], t2_abab [cᵥ, bᵥ, kₒ, mₒ]], [(1, [aᵥ, bᵥ, iₒ, jₒ])]⟩,
  -- line 1696: mdej,klcd,aeil,cbkm->abij
  ⟨1, [g_bbbb [mₒ, dᵥ, eᵥ, jₒ], l2_abab [kₒ, lₒ, cᵥ, dᵥ], t2_abab [aᵥ, eᵥ, iₒ, lₒ], t2_abab [cᵥ, bᵥ, kₒ, mₒ]], [(1, [aᵥ, bᵥ, iₒ, jₒ])]⟩,
  -- line 1699: dmej,lkdc,eail,cbkm->abij
  ⟨1, [g_abab [dᵥ, mₒ, eᵥ, jₒ], l2_abab [lₒ, kₒ, dᵥ, cᵥ], t2_aaaa [eᵥ, aᵥ, iₒ, lₒ], t2_bbbb [cᵥ, bᵥ, kₒ, mₒ]], [(1, [aᵥ, bᵥ, iₒ, jₒ])]⟩,
  -- line 1702: mdej,lkcd,eail,cbmk->abij
  ⟨-1, [g_abab [mₒ, dᵥ, eᵥ, jₒ], l2_abab [lₒ, kₒ, cᵥ, dᵥ], t2_aaaa [eᵥ, aᵥ, iₒ, lₒ], t2_abab [cᵥ, bᵥ, mₒ, kₒ]], [(1, [aᵥ, bᵥ, iₒ, jₒ])]⟩,
  -- line 1705: mdej,kldc,aeil,cbkm->abij
  ⟨-1, [g_bbbb [mₒ, dᵥ, eᵥ, jₒ], l2_bbbb [kₒ, lₒ, dᵥ, cᵥ], t2_abab [aᵥ, eᵥ, iₒ, lₒ], t2_bbbb [cᵥ, bᵥ, kₒ, mₒ]], [(1, [aᵥ, bᵥ, iₒ, jₒ])]⟩,
  -- line 1708: dmej,kldc,ebil,ackm->abij
  ⟨-1, [g_abab [dᵥ, mₒ, eᵥ, jₒ], l2_abab [kₒ, lₒ, dᵥ, cᵥ], t2_abab [eᵥ, bᵥ, iₒ, lₒ], t2_abab [aᵥ, cᵥ, kₒ, mₒ]], [(1, [aᵥ, bᵥ, iₒ, jₒ])]⟩,
  -- line 1711: mdej,klcd,ebil,cakm->abij
  ⟨1, [g_abab [mₒ, dᵥ, eᵥ, jₒ], l2_abab [kₒ, lₒ, cᵥ, dᵥ], t2_abab [eᵥ, bᵥ, iₒ, lₒ], t2_aaaa [cᵥ, aᵥ, kₒ, mₒ]], [(1, [aᵥ, bᵥ, iₒ, jₒ])]⟩,
  -- line 1714: mdej,kldc,ebil,acmk->abij
  ⟨-1, [g_abab [mₒ, dᵥ, eᵥ, jₒ], l2_bbbb [kₒ, lₒ, dᵥ, cᵥ], t2_abab [eᵥ, bᵥ, iₒ, lₒ], t2_abab [aᵥ, cᵥ, mₒ, kₒ]], [(1, [aᵥ, bᵥ, iₒ, jₒ])]⟩
  ]

/-- Part 4 of `residQf1_abab`. -/
def residQf1_abab_4 : Prog := [
  -- line 1717: dmie,kldc,aelj,cbkm->abij
  ⟨-1, [g_abab [dᵥ, mₒ, iₒ, eᵥ], l2_aaaa [kₒ, lₒ, dᵥ, cᵥ], t2_abab [aᵥ, eᵥ, lₒ, jₒ], t2_abab [cᵥ, bᵥ, kₒ, mₒ]], [(1, [aᵥ, bᵥ, iₒ, jₒ])]⟩,
  -- line 1720: dmie,lkdc,aelj,cbkm->abij
  ⟨1, [g_abab [dᵥ, mₒ, iₒ, eᵥ], l2_abab [lₒ, kₒ, dᵥ, cᵥ], t2_abab [aᵥ, eᵥ, lₒ, jₒ], t2_bbbb [cᵥ, bᵥ, kₒ, mₒ]], [(1, [aᵥ, bᵥ, iₒ, jₒ])]⟩,
  -- line 1723: mdie,lkcd,aelj,cbmk->abij
  ⟨-1, [g_abab [mₒ, dᵥ, iₒ, eᵥ], l2_abab [lₒ, kₒ, cᵥ, dᵥ], t2_abab [aᵥ, eᵥ, lₒ, jₒ], t2_abab [cᵥ, bᵥ, mₒ, kₒ]], [(1, [aᵥ, bᵥ, iₒ, jₒ])]⟩,
  -- line 1726: mdei,kldc,eblj,cakm->abij
  ⟨-1, [g_aaaa [mₒ, dᵥ, eᵥ, iₒ], l2_aaaa [kₒ, lₒ, dᵥ, cᵥ], t2_abab [eᵥ, bᵥ, lₒ, jₒ], t2_aaaa [cᵥ, aᵥ, kₒ, mₒ]], [(1, [aᵥ, bᵥ, iₒ, jₒ])]⟩,
  -- line 1729: dmie,kldc,ebjl,ackm->abij
  ⟨-1, [g_abab [dᵥ, mₒ, iₒ, eᵥ], l2_abab [kₒ, lₒ, dᵥ, cᵥ], t2_bbbb [eᵥ, bᵥ, jₒ, lₒ], t2_abab [aᵥ, cᵥ, kₒ, mₒ]], [(1, [aᵥ, bᵥ, iₒ, jₒ])]⟩,
  -- line 1732: mdie,klcd,ebjl,cakm->abij
  ⟨1, [g_abab [mₒ, dᵥ, iₒ, eᵥ], l2_abab [kₒ, lₒ, cᵥ, dᵥ], t2_bbbb [eᵥ, bᵥ, jₒ, lₒ], t2_aaaa [cᵥ, aᵥ, kₒ, mₒ]], [(1, [aᵥ, bᵥ, iₒ, jₒ])]⟩,
  -- line 1735: mdei,lkdc,eblj,acmk->abij
  ⟨1, [g_aaaa [mₒ, dᵥ, eᵥ, iₒ], l2_abab [lₒ, kₒ, dᵥ, cᵥ], t2_abab [eᵥ, bᵥ, lₒ, jₒ], t2_abab [aᵥ, cᵥ, mₒ, kₒ]], [(1, [aᵥ, bᵥ, iₒ, jₒ])]⟩,
  -- line 1738: mdie,kldc,ebjl,acmk->abij
  ⟨-1, [g_abab [mₒ, dᵥ, iₒ, eᵥ], l2_bbbb [kₒ, lₒ, dᵥ, cᵥ], t2_bbbb [eᵥ, bᵥ, jₒ, lₒ], t2_abab [aᵥ, cᵥ, mₒ, kₒ]], [(1, [aᵥ, bᵥ, iₒ, jₒ])]⟩,
  -- line 1741: amle,kldc,dekj,cbim->abij
  ⟨1, [g_abab [aᵥ, mₒ, lₒ, eᵥ], l2_aaaa [kₒ, lₒ, dᵥ, cᵥ], t2_abab [dᵥ, eᵥ, kₒ, jₒ], t2_abab [cᵥ, bᵥ, iₒ, mₒ]], [(1, [aᵥ, bᵥ, iₒ, jₒ])]⟩,
  -- line 1744: amel,klcd,edkj,cbim->abij
  ⟨-1, [g_abab [aᵥ, mₒ, eᵥ, lₒ], l2_abab [kₒ, lₒ, cᵥ, dᵥ], t2_abab [eᵥ, dᵥ, kₒ, jₒ], t2_abab [cᵥ, bᵥ, iₒ, mₒ]], [(1, [aᵥ, bᵥ, iₒ, jₒ])]⟩,
  -- line 1747: amle,lkcd,edjk,cbim->abij
  ⟨1, [g_abab [aᵥ, mₒ, lₒ, eᵥ], l2_abab [lₒ, kₒ, cᵥ, dᵥ], t2_bbbb [eᵥ, dᵥ, jₒ, kₒ], t2_abab [cᵥ, bᵥ, iₒ, mₒ]], [(1, [aᵥ, bᵥ, iₒ, jₒ])]⟩,
  -- line 1750: mble,kldc,dekj,caim->abij
  ⟨1, [g_abab [mₒ, bᵥ, lₒ, eᵥ], l2_aaaa [kₒ, lₒ, dᵥ, cᵥ], t2_abab [dᵥ, eᵥ, kₒ, jₒ], t2_aaaa [cᵥ, aᵥ, iₒ, mₒ]], [(1, [aᵥ, bᵥ, iₒ, jₒ])]⟩,
  -- line 1753: mbel,kldc,dekj,acim->abij
  ⟨1, [g_bbbb [mₒ, bᵥ, eᵥ, lₒ], l2_abab [kₒ, lₒ, dᵥ, cᵥ], t2_abab [dᵥ, eᵥ, kₒ, jₒ], t2_abab [aᵥ, cᵥ, iₒ, mₒ]], [(1, [aᵥ, bᵥ, iₒ, jₒ])]⟩,
  -- line 1756: mbel,klcd,edkj,caim->abij
  ⟨-1, [g_abab [mₒ, bᵥ, eᵥ, lₒ], l2_abab [kₒ, lₒ, cᵥ, dᵥ], t2_abab [eᵥ, dᵥ, kₒ, jₒ], t2_aaaa [cᵥ, aᵥ, iₒ, mₒ]], [(1, [aᵥ, bᵥ, iₒ, jₒ])]⟩,
  -- line 1759: mble,lkcd,edjk,caim->abij
  ⟨1, [g_abab [mₒ, bᵥ, lₒ, eᵥ], l2_abab [lₒ, kₒ, cᵥ, dᵥ], t2_bbbb [eᵥ, dᵥ, jₒ, kₒ], t2_aaaa [cᵥ, aᵥ, iₒ, mₒ]], [(1, [aᵥ, bᵥ, iₒ, jₒ])]⟩,
  -- line 1762: mbel,kldc,edjk,acim->abij
  ⟨1, [g_bbbb [mₒ, bᵥ, eᵥ, lₒ], l2_bbbb [kₒ, lₒ, dᵥ, cᵥ], t2_bbbb [eᵥ, dᵥ, jₒ, kₒ], t2_abab [aᵥ, cᵥ, iₒ, mₒ]], [(1, [aᵥ, bᵥ, iₒ, jₒ])]⟩,
  -- line 1765: mael,kldc,edik,cbmj->abij
  ⟨1, [g_aaaa [mₒ, aᵥ, eᵥ, lₒ], l2_aaaa [kₒ, lₒ, dᵥ, cᵥ], t2_aaaa [eᵥ, dᵥ, iₒ, kₒ], t2_abab [cᵥ, bᵥ, mₒ, jₒ]], [(1, [aᵥ, bᵥ, iₒ, jₒ])]⟩,
  -- line 1768: amel,kldc,edik,cbjm->abij
  ⟨1, [g_abab [aᵥ, mₒ, eᵥ, lₒ], l2_abab [kₒ, lₒ, dᵥ, cᵥ], t2_aaaa [eᵥ, dᵥ, iₒ, kₒ], t2_bbbb [cᵥ, bᵥ, jₒ, mₒ]], [(1, [aᵥ, bᵥ, iₒ, jₒ])]⟩,
  -- line 1771: amle,lkdc,deik,cbjm->abij
  ⟨-1, [g_abab [aᵥ, mₒ, lₒ, eᵥ], l2_abab [lₒ, kₒ, dᵥ, cᵥ], t2_abab [dᵥ, eᵥ, iₒ, kₒ], t2_bbbb [cᵥ, bᵥ, jₒ, mₒ]], [(1, [aᵥ, bᵥ, iₒ, jₒ])]⟩,
  -- line 1774: mael,lkcd,edik,cbmj->abij
  ⟨1, [g_aaaa [mₒ, aᵥ, eᵥ, lₒ], l2_abab [lₒ, kₒ, cᵥ, dᵥ], t2_abab [eᵥ, dᵥ, iₒ, kₒ], t2_abab [cᵥ, bᵥ, mₒ, jₒ]], [(1, [aᵥ, bᵥ, iₒ, jₒ])]⟩,
  -- line 1777: amel,kldc,edik,cbjm->abij
  ⟨1, [g_abab [aᵥ, mₒ, eᵥ, lₒ], l2_bbbb [kₒ, lₒ, dᵥ, cᵥ], t2_abab [eᵥ, dᵥ, iₒ, kₒ], t2_bbbb [cᵥ, bᵥ, jₒ, mₒ]], [(1, [aᵥ, bᵥ, iₒ, jₒ])]⟩,
  -- line 1780: mbel,kldc,edik,acmj->abij
  ⟨1, [g_abab [mₒ, bᵥ, eᵥ, lₒ], l2_abab [kₒ, lₒ, dᵥ, cᵥ], t2_aaaa [eᵥ, dᵥ, iₒ, kₒ], t2_abab [aᵥ, cᵥ, mₒ, jₒ]], [(1, [aᵥ, bᵥ, iₒ, jₒ])]⟩,
  -- line 1783: mble,lkdc,deik,acmj->abij
  ⟨-1, [g_abab [mₒ, bᵥ, lₒ, eᵥ], l2_abab [lₒ, kₒ, dᵥ, cᵥ], t2_abab [dᵥ, eᵥ, iₒ, kₒ], t2_abab [aᵥ, cᵥ, mₒ, jₒ]], [(1, [aᵥ, bᵥ, iₒ, jₒ])]⟩,
  -- line 1786: mbel,kldc,edik,acmj->abij
  ⟨1, [g_abab [mₒ, bᵥ, eᵥ, lₒ], l2_bbbb [kₒ, lₒ, dᵥ, cᵥ], t2_abab [eᵥ, dᵥ, iₒ, kₒ], t2_abab [aᵥ, cᵥ, mₒ, jₒ]], [(1, [aᵥ, bᵥ, iₒ, jₒ])]⟩,
  -- line 1789: amle,kldc,deij,cbkm->abij
  ⟨-1, [g_abab [aᵥ, mₒ, lₒ, eᵥ], l2_aaaa [kₒ, lₒ, dᵥ, cᵥ], t2_abab [dᵥ, eᵥ, iₒ, jₒ], t2_abab [cᵥ, bᵥ, kₒ, mₒ]], [(1, [aᵥ, bᵥ, iₒ, jₒ])]⟩,
  -- line 1792: amel,klcd,edij,cbkm->abij
  ⟨1, [g_abab [aᵥ, mₒ, eᵥ, lₒ], l2_abab [kₒ, lₒ, cᵥ, dᵥ], t2_abab [eᵥ, dᵥ, iₒ, jₒ], t2_abab [cᵥ, bᵥ, kₒ, mₒ]], [(1, [aᵥ, bᵥ, iₒ, jₒ])]⟩,
  -- line 1795: amle,lkdc,deij,cbkm->abij
  ⟨1, [g_abab [aᵥ, mₒ, lₒ, eᵥ], l2_abab [lₒ, kₒ, dᵥ, cᵥ], t2_abab [dᵥ, eᵥ, iₒ, jₒ], t2_bbbb [cᵥ, bᵥ, kₒ, mₒ]], [(1, [aᵥ, bᵥ, iₒ, jₒ])]⟩,
  -- line 1798: mael,lkcd,edij,cbmk->abij
  ⟨-1, [g_aaaa [mₒ, aᵥ, eᵥ, lₒ], l2_abab [lₒ, kₒ, cᵥ, dᵥ], t2_abab [eᵥ, dᵥ, iₒ, jₒ], t2_abab [cᵥ, bᵥ, mₒ, kₒ]], [(1, [aᵥ, bᵥ, iₒ, jₒ])]⟩,
  -- line 1801: amel,kldc,edij,cbkm->abij
  ⟨-1, [g_abab [aᵥ, mₒ, eᵥ, lₒ], l2_bbbb [kₒ, lₒ, dᵥ, cᵥ], t2_abab [eᵥ, dᵥ, iₒ, jₒ], t2_bbbb [cᵥ, bᵥ, kₒ, mₒ]], [(1, [aᵥ, bᵥ, iₒ, jₒ])]⟩,
  -- line 1804: mble,kldc,deij,cakm->abij
  ⟨-1, [g_abab [mₒ, bᵥ, lₒ, eᵥ], l2_aaaa [kₒ, lₒ, dᵥ, cᵥ], t2_abab [dᵥ, eᵥ, iₒ, jₒ], t2_aaaa [cᵥ, aᵥ, kₒ, mₒ]], [(1, [aᵥ, bᵥ, iₒ, jₒ])]⟩,
  -- line 1807: mbel,kldc,deij,ackm->abij
  ⟨-1, [g_bbbb [mₒ, bᵥ, eᵥ, lₒ], l2_abab [kₒ, lₒ, dᵥ, cᵥ], t2_abab [dᵥ, eᵥ, iₒ, jₒ], t2_abab [aᵥ, cᵥ, kₒ, mₒ]], [(1, [aᵥ, bᵥ, iₒ, jₒ])]⟩,
  -- line 1810: mbel,klcd,edij,cakm->abij
  ⟨1, [g_abab [mₒ, bᵥ, eᵥ, lₒ], l2_abab [kₒ, lₒ, cᵥ, dᵥ], t2_abab [eᵥ, dᵥ, iₒ, jₒ], t2_aaaa [cᵥ, aᵥ, kₒ, mₒ]], [(1, [aᵥ, bᵥ, iₒ, jₒ])]⟩,
  -- line 1813: mble,lkdc,deij,acmk->abij
  ⟨1, [g_abab [mₒ, bᵥ, lₒ, eᵥ], l2_abab [lₒ, kₒ, dᵥ, cᵥ], t2_abab [dᵥ, eᵥ, iₒ, jₒ], t2_abab [aᵥ, cᵥ, mₒ, kₒ]], [(1, [aᵥ, bᵥ, iₒ, jₒ])]⟩,
  -- line 1816: mbel,kldc,edij,acmk->abij
  ⟨-1, [g_abab [mₒ, bᵥ, eᵥ, lₒ], l2_bbbb [kₒ, lₒ, dᵥ, cᵥ], t2_abab [eᵥ, dᵥ, iₒ, jₒ], t2_abab [aᵥ, cᵥ, mₒ, kₒ]], [(1, [aᵥ, bᵥ, iₒ, jₒ])]⟩,
  -- line 1819: mael,kldc,ebkj,dcim->abij
  ⟨-1/2, [g_aaaa [mₒ, aᵥ, eᵥ, lₒ], l2_aaaa [kₒ, lₒ, dᵥ, cᵥ], t2_abab [eᵥ, bᵥ, kₒ, jₒ], t2_aaaa [dᵥ, cᵥ, iₒ, mₒ]], [(1, [aᵥ, bᵥ, iₒ, jₒ])]⟩,
  -- line 1822: amel,kldc,ebkj,dcim->abij
  ⟨1/2, [g_abab [aᵥ, mₒ, eᵥ, lₒ], l2_abab [kₒ, lₒ, dᵥ, cᵥ], t2_abab [eᵥ, bᵥ, kₒ, jₒ], t2_abab [dᵥ, cᵥ, iₒ, mₒ]], [(1, [aᵥ, bᵥ, iₒ, jₒ])]⟩,
  -- line 1825: amel,klcd,ebkj,cdim->abij
  ⟨1/2, [g_abab [aᵥ, mₒ, eᵥ, lₒ], l2_abab [kₒ, lₒ, cᵥ, dᵥ], t2_abab [eᵥ, bᵥ, kₒ, jₒ], t2_abab [cᵥ, dᵥ, iₒ, mₒ]], [(1, [aᵥ, bᵥ, iₒ, jₒ])]⟩,
  -- line 1828: amle,lkdc,ebjk,dcim->abij
  ⟨-1/2, [g_abab [aᵥ, mₒ, lₒ, eᵥ], l2_abab [lₒ, kₒ, dᵥ, cᵥ], t2_bbbb [eᵥ, bᵥ, jₒ, kₒ], t2_abab [dᵥ, cᵥ, iₒ, mₒ]], [(1, [aᵥ, bᵥ, iₒ, jₒ])]⟩,
  -- line 1831: amle,lkcd,ebjk,cdim->abij
  ⟨-1/2, [g_abab [aᵥ, mₒ, lₒ, eᵥ], l2_abab [lₒ, kₒ, cᵥ, dᵥ], t2_bbbb [eᵥ, bᵥ, jₒ, kₒ], t2_abab [cᵥ, dᵥ, iₒ, mₒ]], [(1, [aᵥ, bᵥ, iₒ, jₒ])]⟩,
  -- line 1834: mble,kldc,aekj,dcim->abij
  ⟨1/2, [g_abab [mₒ, bᵥ, lₒ, eᵥ], l2_aaaa [kₒ, lₒ, dᵥ, cᵥ], t2_abab [aᵥ, eᵥ, kₒ, jₒ], t2_aaaa [dᵥ, cᵥ, iₒ, mₒ]], [(1, [aᵥ, bᵥ, iₒ, jₒ])]⟩
  ]

/-- Part 5 of `residQf1_abab`. -/
def residQf1_abab_5 : Prog := [
  -- line 1837: mbel,kldc,aekj,dcim->abij
  ⟨-1/2, [g_bbbb [mₒ, bᵥ, eᵥ, lₒ], l2_abab [kₒ, lₒ, dᵥ, cᵥ], t2_abab [aᵥ, eᵥ, kₒ, jₒ], t2_abab [dᵥ, cᵥ, iₒ, mₒ]], [(1, [aᵥ, bᵥ, iₒ, jₒ])]⟩,
  -- line 1840: mbel,klcd,aekj,cdim->abij
  ⟨-1/2, [g_bbbb [mₒ, bᵥ, eᵥ, lₒ], l2_abab [kₒ, lₒ, cᵥ, dᵥ], t2_abab [aᵥ, eᵥ, kₒ, jₒ], t2_abab [cᵥ, dᵥ, iₒ, mₒ]], [(1, [aᵥ, bᵥ, iₒ, jₒ])]⟩,
  -- line 1843: mael,lkdc,ebik,dcmj->abij
  ⟨-1/2, [g_aaaa [mₒ, aᵥ, eᵥ, lₒ], l2_abab [lₒ, kₒ, dᵥ, cᵥ], t2_abab [eᵥ, bᵥ, iₒ, kₒ], t2_abab [dᵥ, cᵥ, mₒ, jₒ]], [(1, [aᵥ, bᵥ, iₒ, jₒ])]⟩,
  -- line 1846: mael,lkcd,ebik,cdmj->abij
  ⟨-1/2, [g_aaaa [mₒ, aᵥ, eᵥ, lₒ], l2_abab [lₒ, kₒ, cᵥ, dᵥ], t2_abab [eᵥ, bᵥ, iₒ, kₒ], t2_abab [cᵥ, dᵥ, mₒ, jₒ]], [(1, [aᵥ, bᵥ, iₒ, jₒ])]⟩,
  -- line 1849: amel,kldc,ebik,dcjm->abij
  ⟨1/2, [g_abab [aᵥ, mₒ, eᵥ, lₒ], l2_bbbb [kₒ, lₒ, dᵥ, cᵥ], t2_abab [eᵥ, bᵥ, iₒ, kₒ], t2_bbbb [dᵥ, cᵥ, jₒ, mₒ]], [(1, [aᵥ, bᵥ, iₒ, jₒ])]⟩,
  -- line 1852: mbel,kldc,eaik,dcmj->abij
  ⟨-1/2, [g_abab [mₒ, bᵥ, eᵥ, lₒ], l2_abab [kₒ, lₒ, dᵥ, cᵥ], t2_aaaa [eᵥ, aᵥ, iₒ, kₒ], t2_abab [dᵥ, cᵥ, mₒ, jₒ]], [(1, [aᵥ, bᵥ, iₒ, jₒ])]⟩,
  -- line 1855: mbel,klcd,eaik,cdmj->abij
  ⟨-1/2, [g_abab [mₒ, bᵥ, eᵥ, lₒ], l2_abab [kₒ, lₒ, cᵥ, dᵥ], t2_aaaa [eᵥ, aᵥ, iₒ, kₒ], t2_abab [cᵥ, dᵥ, mₒ, jₒ]], [(1, [aᵥ, bᵥ, iₒ, jₒ])]⟩,
  -- line 1858: mble,lkdc,aeik,dcmj->abij
  ⟨1/2, [g_abab [mₒ, bᵥ, lₒ, eᵥ], l2_abab [lₒ, kₒ, dᵥ, cᵥ], t2_abab [aᵥ, eᵥ, iₒ, kₒ], t2_abab [dᵥ, cᵥ, mₒ, jₒ]], [(1, [aᵥ, bᵥ, iₒ, jₒ])]⟩,
  -- line 1861: mble,lkcd,aeik,cdmj->abij
  ⟨1/2, [g_abab [mₒ, bᵥ, lₒ, eᵥ], l2_abab [lₒ, kₒ, cᵥ, dᵥ], t2_abab [aᵥ, eᵥ, iₒ, kₒ], t2_abab [cᵥ, dᵥ, mₒ, jₒ]], [(1, [aᵥ, bᵥ, iₒ, jₒ])]⟩,
  -- line 1864: mbel,kldc,aeik,dcjm->abij
  ⟨-1/2, [g_bbbb [mₒ, bᵥ, eᵥ, lₒ], l2_bbbb [kₒ, lₒ, dᵥ, cᵥ], t2_abab [aᵥ, eᵥ, iₒ, kₒ], t2_bbbb [dᵥ, cᵥ, jₒ, mₒ]], [(1, [aᵥ, bᵥ, iₒ, jₒ])]⟩,
  -- line 1867: mael,kldc,ebij,dckm->abij
  ⟨1/2, [g_aaaa [mₒ, aᵥ, eᵥ, lₒ], l2_aaaa [kₒ, lₒ, dᵥ, cᵥ], t2_abab [eᵥ, bᵥ, iₒ, jₒ], t2_aaaa [dᵥ, cᵥ, kₒ, mₒ]], [(1, [aᵥ, bᵥ, iₒ, jₒ])]⟩,
  -- line 1870: amel,kldc,ebij,dckm->abij
  ⟨-1/2, [g_abab [aᵥ, mₒ, eᵥ, lₒ], l2_abab [kₒ, lₒ, dᵥ, cᵥ], t2_abab [eᵥ, bᵥ, iₒ, jₒ], t2_abab [dᵥ, cᵥ, kₒ, mₒ]], [(1, [aᵥ, bᵥ, iₒ, jₒ])]⟩,
  -- line 1873: amel,klcd,ebij,cdkm->abij
  ⟨-1/2, [g_abab [aᵥ, mₒ, eᵥ, lₒ], l2_abab [kₒ, lₒ, cᵥ, dᵥ], t2_abab [eᵥ, bᵥ, iₒ, jₒ], t2_abab [cᵥ, dᵥ, kₒ, mₒ]], [(1, [aᵥ, bᵥ, iₒ, jₒ])]⟩,
  -- line 1876: mael,lkdc,ebij,dcmk->abij
  ⟨1/2, [g_aaaa [mₒ, aᵥ, eᵥ, lₒ], l2_abab [lₒ, kₒ, dᵥ, cᵥ], t2_abab [eᵥ, bᵥ, iₒ, jₒ], t2_abab [dᵥ, cᵥ, mₒ, kₒ]], [(1, [aᵥ, bᵥ, iₒ, jₒ])]⟩,
  -- line 1879: mael,lkcd,ebij,cdmk->abij
  ⟨1/2, [g_aaaa [mₒ, aᵥ, eᵥ, lₒ], l2_abab [lₒ, kₒ, cᵥ, dᵥ], t2_abab [eᵥ, bᵥ, iₒ, jₒ], t2_abab [cᵥ, dᵥ, mₒ, kₒ]], [(1, [aᵥ, bᵥ, iₒ, jₒ])]⟩,
  -- line 1882: amel,kldc,ebij,dckm->abij
  ⟨-1/2, [g_abab [aᵥ, mₒ, eᵥ, lₒ], l2_bbbb [kₒ, lₒ, dᵥ, cᵥ], t2_abab [eᵥ, bᵥ, iₒ, jₒ], t2_bbbb [dᵥ, cᵥ, kₒ, mₒ]], [(1, [aᵥ, bᵥ, iₒ, jₒ])]⟩,
  -- line 1885: mble,kldc,aeij,dckm->abij
  ⟨-1/2, [g_abab [mₒ, bᵥ, lₒ, eᵥ], l2_aaaa [kₒ, lₒ, dᵥ, cᵥ], t2_abab [aᵥ, eᵥ, iₒ, jₒ], t2_aaaa [dᵥ, cᵥ, kₒ, mₒ]], [(1, [aᵥ, bᵥ, iₒ, jₒ])]⟩,
  -- line 1888: mbel,kldc,aeij,dckm->abij
  ⟨1/2, [g_bbbb [mₒ, bᵥ, eᵥ, lₒ], l2_abab [kₒ, lₒ, dᵥ, cᵥ], t2_abab [aᵥ, eᵥ, iₒ, jₒ], t2_abab [dᵥ, cᵥ, kₒ, mₒ]], [(1, [aᵥ, bᵥ, iₒ, jₒ])]⟩,
  -- line 1891: mbel,klcd,aeij,cdkm->abij
  ⟨1/2, [g_bbbb [mₒ, bᵥ, eᵥ, lₒ], l2_abab [kₒ, lₒ, cᵥ, dᵥ], t2_abab [aᵥ, eᵥ, iₒ, jₒ], t2_abab [cᵥ, dᵥ, kₒ, mₒ]], [(1, [aᵥ, bᵥ, iₒ, jₒ])]⟩,
  -- line 1894: mble,lkdc,aeij,dcmk->abij
  ⟨-1/2, [g_abab [mₒ, bᵥ, lₒ, eᵥ], l2_abab [lₒ, kₒ, dᵥ, cᵥ], t2_abab [aᵥ, eᵥ, iₒ, jₒ], t2_abab [dᵥ, cᵥ, mₒ, kₒ]], [(1, [aᵥ, bᵥ, iₒ, jₒ])]⟩,
  -- line 1897: mble,lkcd,aeij,cdmk->abij
  ⟨-1/2, [g_abab [mₒ, bᵥ, lₒ, eᵥ], l2_abab [lₒ, kₒ, cᵥ, dᵥ], t2_abab [aᵥ, eᵥ, iₒ, jₒ], t2_abab [cᵥ, dᵥ, mₒ, kₒ]], [(1, [aᵥ, bᵥ, iₒ, jₒ])]⟩,
  -- line 1900: mbel,kldc,aeij,dckm->abij
  ⟨1/2, [g_bbbb [mₒ, bᵥ, eᵥ, lₒ], l2_bbbb [kₒ, lₒ, dᵥ, cᵥ], t2_abab [aᵥ, eᵥ, iₒ, jₒ], t2_bbbb [dᵥ, cᵥ, kₒ, mₒ]], [(1, [aᵥ, bᵥ, iₒ, jₒ])]⟩,
  -- line 1903: amej,kldc,edkl,cbim->abij
  ⟨-1/2, [g_abab [aᵥ, mₒ, eᵥ, jₒ], l2_aaaa [kₒ, lₒ, dᵥ, cᵥ], t2_aaaa [eᵥ, dᵥ, kₒ, lₒ], t2_abab [cᵥ, bᵥ, iₒ, mₒ]], [(1, [aᵥ, bᵥ, iₒ, jₒ])]⟩,
  -- line 1906: amej,klcd,edkl,cbim->abij
  ⟨1/2, [g_abab [aᵥ, mₒ, eᵥ, jₒ], l2_abab [kₒ, lₒ, cᵥ, dᵥ], t2_abab [eᵥ, dᵥ, kₒ, lₒ], t2_abab [cᵥ, bᵥ, iₒ, mₒ]], [(1, [aᵥ, bᵥ, iₒ, jₒ])]⟩,
  -- line 1909: amej,lkcd,edlk,cbim->abij
  ⟨1/2, [g_abab [aᵥ, mₒ, eᵥ, jₒ], l2_abab [lₒ, kₒ, cᵥ, dᵥ], t2_abab [eᵥ, dᵥ, lₒ, kₒ], t2_abab [cᵥ, bᵥ, iₒ, mₒ]], [(1, [aᵥ, bᵥ, iₒ, jₒ])]⟩,
  -- line 1912: mbej,kldc,edkl,caim->abij
  ⟨-1/2, [g_abab [mₒ, bᵥ, eᵥ, jₒ], l2_aaaa [kₒ, lₒ, dᵥ, cᵥ], t2_aaaa [eᵥ, dᵥ, kₒ, lₒ], t2_aaaa [cᵥ, aᵥ, iₒ, mₒ]], [(1, [aᵥ, bᵥ, iₒ, jₒ])]⟩,
  -- line 1915: mbej,kldc,dekl,acim->abij
  ⟨-1/2, [g_bbbb [mₒ, bᵥ, eᵥ, jₒ], l2_abab [kₒ, lₒ, dᵥ, cᵥ], t2_abab [dᵥ, eᵥ, kₒ, lₒ], t2_abab [aᵥ, cᵥ, iₒ, mₒ]], [(1, [aᵥ, bᵥ, iₒ, jₒ])]⟩,
  -- line 1918: mbej,klcd,edkl,caim->abij
  ⟨1/2, [g_abab [mₒ, bᵥ, eᵥ, jₒ], l2_abab [kₒ, lₒ, cᵥ, dᵥ], t2_abab [eᵥ, dᵥ, kₒ, lₒ], t2_aaaa [cᵥ, aᵥ, iₒ, mₒ]], [(1, [aᵥ, bᵥ, iₒ, jₒ])]⟩,
  -- line 1921: mbej,lkdc,delk,acim->abij
  ⟨-1/2, [g_bbbb [mₒ, bᵥ, eᵥ, jₒ], l2_abab [lₒ, kₒ, dᵥ, cᵥ], t2_abab [dᵥ, eᵥ, lₒ, kₒ], t2_abab [aᵥ, cᵥ, iₒ, mₒ]], [(1, [aᵥ, bᵥ, iₒ, jₒ])]⟩,
  -- line 1924: mbej,lkcd,edlk,caim->abij
  ⟨1/2, [g_abab [mₒ, bᵥ, eᵥ, jₒ], l2_abab [lₒ, kₒ, cᵥ, dᵥ], t2_abab [eᵥ, dᵥ, lₒ, kₒ], t2_aaaa [cᵥ, aᵥ, iₒ, mₒ]], [(1, [aᵥ, bᵥ, iₒ, jₒ])]⟩,
  -- line 1927: mbej,kldc,edkl,acim->abij
  ⟨1/2, [g_bbbb [mₒ, bᵥ, eᵥ, jₒ], l2_bbbb [kₒ, lₒ, dᵥ, cᵥ], t2_bbbb [eᵥ, dᵥ, kₒ, lₒ], t2_abab [aᵥ, cᵥ, iₒ, mₒ]], [(1, [aᵥ, bᵥ, iₒ, jₒ])]⟩,
  -- line 1930: maei,kldc,edkl,cbmj->abij
  ⟨1/2, [g_aaaa [mₒ, aᵥ, eᵥ, iₒ], l2_aaaa [kₒ, lₒ, dᵥ, cᵥ], t2_aaaa [eᵥ, dᵥ, kₒ, lₒ], t2_abab [cᵥ, bᵥ, mₒ, jₒ]], [(1, [aᵥ, bᵥ, iₒ, jₒ])]⟩,
  -- line 1933: amie,kldc,dekl,cbjm->abij
  ⟨1/2, [g_abab [aᵥ, mₒ, iₒ, eᵥ], l2_abab [kₒ, lₒ, dᵥ, cᵥ], t2_abab [dᵥ, eᵥ, kₒ, lₒ], t2_bbbb [cᵥ, bᵥ, jₒ, mₒ]], [(1, [aᵥ, bᵥ, iₒ, jₒ])]⟩,
  -- line 1936: maei,klcd,edkl,cbmj->abij
  ⟨-1/2, [g_aaaa [mₒ, aᵥ, eᵥ, iₒ], l2_abab [kₒ, lₒ, cᵥ, dᵥ], t2_abab [eᵥ, dᵥ, kₒ, lₒ], t2_abab [cᵥ, bᵥ, mₒ, jₒ]], [(1, [aᵥ, bᵥ, iₒ, jₒ])]⟩,
  -- line 1939: amie,lkdc,delk,cbjm->abij
  ⟨1/2, [g_abab [aᵥ, mₒ, iₒ, eᵥ], l2_abab [lₒ, kₒ, dᵥ, cᵥ], t2_abab [dᵥ, eᵥ, lₒ, kₒ], t2_bbbb [cᵥ, bᵥ, jₒ, mₒ]], [(1, [aᵥ, bᵥ, iₒ, jₒ])]⟩,
  -- line 1942: maei,lkcd,edlk,cbmj->abij
  ⟨-1/2, [g_aaaa [mₒ, aᵥ, eᵥ, iₒ], l2_abab [lₒ, kₒ, cᵥ, dᵥ], t2_abab [eᵥ, dᵥ, lₒ, kₒ], t2_abab [cᵥ, bᵥ, mₒ, jₒ]], [(1, [aᵥ, bᵥ, iₒ, jₒ])]⟩,
  -- line 1945: amie,kldc,edkl,cbjm->abij
  ⟨-1/2, [g_abab [aᵥ, mₒ, iₒ, eᵥ], l2_bbbb [kₒ, lₒ, dᵥ, cᵥ], t2_bbbb [eᵥ, dᵥ, kₒ, lₒ], t2_bbbb [cᵥ, bᵥ, jₒ, mₒ]], [(1, [aᵥ, bᵥ, iₒ, jₒ])]⟩,
  -- line 1948: mbie,kldc,dekl,acmj->abij
  ⟨1/2, [g_abab [mₒ, bᵥ, iₒ, eᵥ], l2_abab [kₒ, lₒ, dᵥ, cᵥ], t2_abab [dᵥ, eᵥ, kₒ, lₒ], t2_abab [aᵥ, cᵥ, mₒ, jₒ]], [(1, [aᵥ, bᵥ, iₒ, jₒ])]⟩,
  -- line 1951: mbie,lkdc,delk,acmj->abij
  ⟨1/2, [g_abab [mₒ, bᵥ, iₒ, eᵥ], l2_abab [lₒ, kₒ, dᵥ, cᵥ], t2_abab [dᵥ, eᵥ, lₒ, kₒ], t2_abab [aᵥ, cᵥ, mₒ, jₒ]], [(1, [aᵥ, bᵥ, iₒ, jₒ])]⟩,
  -- line 1954: mbie,kldc,edkl,acmj->abij
  ⟨-1/2, [g_abab [mₒ, bᵥ, iₒ, eᵥ], l2_bbbb [kₒ, lₒ, dᵥ, cᵥ], t2_bbbb [eᵥ, dᵥ, kₒ, lₒ], t2_abab [aᵥ, cᵥ, mₒ, jₒ]], [(1, [aᵥ, bᵥ, iₒ, jₒ])]⟩
  ]

/-- Part 6 of `residQf1_abab`. -/
def residQf1_abab_6 : Prog := [
  -- line 1957: amej,kldc,edil,cbkm->abij
  ⟨1, [g_abab [aᵥ, mₒ, eᵥ, jₒ], l2_aaaa [kₒ, lₒ, dᵥ, cᵥ], t2_aaaa [eᵥ, dᵥ, iₒ, lₒ], t2_abab [cᵥ, bᵥ, kₒ, mₒ]], [(1, [aᵥ, bᵥ, iₒ, jₒ])]⟩,
  -- line 1960: amej,klcd,edil,cbkm->abij
  ⟨-1, [g_abab [aᵥ, mₒ, eᵥ, jₒ], l2_abab [kₒ, lₒ, cᵥ, dᵥ], t2_abab [eᵥ, dᵥ, iₒ, lₒ], t2_abab [cᵥ, bᵥ, kₒ, mₒ]], [(1, [aᵥ, bᵥ, iₒ, jₒ])]⟩,
  -- line 1963: amej,lkdc,edil,cbkm->abij
  ⟨-1, [g_abab [aᵥ, mₒ, eᵥ, jₒ], l2_abab [lₒ, kₒ, dᵥ, cᵥ], t2_aaaa [eᵥ, dᵥ, iₒ, lₒ], t2_bbbb [cᵥ, bᵥ, kₒ, mₒ]], [(1, [aᵥ, bᵥ, iₒ, jₒ])]⟩,
  -- line 1966: amej,kldc,edil,cbkm->abij
  ⟨1, [g_abab [aᵥ, mₒ, eᵥ, jₒ], l2_bbbb [kₒ, lₒ, dᵥ, cᵥ], t2_abab [eᵥ, dᵥ, iₒ, lₒ], t2_bbbb [cᵥ, bᵥ, kₒ, mₒ]], [(1, [aᵥ, bᵥ, iₒ, jₒ])]⟩,
  -- line 1969: mbej,kldc,edil,cakm->abij
  ⟨1, [g_abab [mₒ, bᵥ, eᵥ, jₒ], l2_aaaa [kₒ, lₒ, dᵥ, cᵥ], t2_aaaa [eᵥ, dᵥ, iₒ, lₒ], t2_aaaa [cᵥ, aᵥ, kₒ, mₒ]], [(1, [aᵥ, bᵥ, iₒ, jₒ])]⟩,
  -- line 1972: mbej,kldc,deil,ackm->abij
  ⟨1, [g_bbbb [mₒ, bᵥ, eᵥ, jₒ], l2_abab [kₒ, lₒ, dᵥ, cᵥ], t2_abab [dᵥ, eᵥ, iₒ, lₒ], t2_abab [aᵥ, cᵥ, kₒ, mₒ]], [(1, [aᵥ, bᵥ, iₒ, jₒ])]⟩,
  -- line 1975: mbej,klcd,edil,cakm->abij
  ⟨-1, [g_abab [mₒ, bᵥ, eᵥ, jₒ], l2_abab [kₒ, lₒ, cᵥ, dᵥ], t2_abab [eᵥ, dᵥ, iₒ, lₒ], t2_aaaa [cᵥ, aᵥ, kₒ, mₒ]], [(1, [aᵥ, bᵥ, iₒ, jₒ])]⟩,
  -- line 1978: mbej,lkdc,edil,acmk->abij
  ⟨-1, [g_abab [mₒ, bᵥ, eᵥ, jₒ], l2_abab [lₒ, kₒ, dᵥ, cᵥ], t2_aaaa [eᵥ, dᵥ, iₒ, lₒ], t2_abab [aᵥ, cᵥ, mₒ, kₒ]], [(1, [aᵥ, bᵥ, iₒ, jₒ])]⟩,
  -- line 1981: mbej,kldc,edil,acmk->abij
  ⟨1, [g_abab [mₒ, bᵥ, eᵥ, jₒ], l2_bbbb [kₒ, lₒ, dᵥ, cᵥ], t2_abab [eᵥ, dᵥ, iₒ, lₒ], t2_abab [aᵥ, cᵥ, mₒ, kₒ]], [(1, [aᵥ, bᵥ, iₒ, jₒ])]⟩,
  -- line 1984: amie,kldc,delj,cbkm->abij
  ⟨1, [g_abab [aᵥ, mₒ, iₒ, eᵥ], l2_aaaa [kₒ, lₒ, dᵥ, cᵥ], t2_abab [dᵥ, eᵥ, lₒ, jₒ], t2_abab [cᵥ, bᵥ, kₒ, mₒ]], [(1, [aᵥ, bᵥ, iₒ, jₒ])]⟩,
  -- line 1987: amie,klcd,edjl,cbkm->abij
  ⟨-1, [g_abab [aᵥ, mₒ, iₒ, eᵥ], l2_abab [kₒ, lₒ, cᵥ, dᵥ], t2_bbbb [eᵥ, dᵥ, jₒ, lₒ], t2_abab [cᵥ, bᵥ, kₒ, mₒ]], [(1, [aᵥ, bᵥ, iₒ, jₒ])]⟩,
  -- line 1990: amie,lkdc,delj,cbkm->abij
  ⟨-1, [g_abab [aᵥ, mₒ, iₒ, eᵥ], l2_abab [lₒ, kₒ, dᵥ, cᵥ], t2_abab [dᵥ, eᵥ, lₒ, jₒ], t2_bbbb [cᵥ, bᵥ, kₒ, mₒ]], [(1, [aᵥ, bᵥ, iₒ, jₒ])]⟩,
  -- line 1993: maei,lkcd,edlj,cbmk->abij
  ⟨1, [g_aaaa [mₒ, aᵥ, eᵥ, iₒ], l2_abab [lₒ, kₒ, cᵥ, dᵥ], t2_abab [eᵥ, dᵥ, lₒ, jₒ], t2_abab [cᵥ, bᵥ, mₒ, kₒ]], [(1, [aᵥ, bᵥ, iₒ, jₒ])]⟩,
  -- line 1996: amie,kldc,edjl,cbkm->abij
  ⟨1, [g_abab [aᵥ, mₒ, iₒ, eᵥ], l2_bbbb [kₒ, lₒ, dᵥ, cᵥ], t2_bbbb [eᵥ, dᵥ, jₒ, lₒ], t2_bbbb [cᵥ, bᵥ, kₒ, mₒ]], [(1, [aᵥ, bᵥ, iₒ, jₒ])]⟩,
  -- line 1999: mbie,kldc,delj,cakm->abij
  ⟨1, [g_abab [mₒ, bᵥ, iₒ, eᵥ], l2_aaaa [kₒ, lₒ, dᵥ, cᵥ], t2_abab [dᵥ, eᵥ, lₒ, jₒ], t2_aaaa [cᵥ, aᵥ, kₒ, mₒ]], [(1, [aᵥ, bᵥ, iₒ, jₒ])]⟩,
  -- line 2002: mbie,klcd,edjl,cakm->abij
  ⟨-1, [g_abab [mₒ, bᵥ, iₒ, eᵥ], l2_abab [kₒ, lₒ, cᵥ, dᵥ], t2_bbbb [eᵥ, dᵥ, jₒ, lₒ], t2_aaaa [cᵥ, aᵥ, kₒ, mₒ]], [(1, [aᵥ, bᵥ, iₒ, jₒ])]⟩,
  -- line 2005: mbie,lkdc,delj,acmk->abij
  ⟨-1, [g_abab [mₒ, bᵥ, iₒ, eᵥ], l2_abab [lₒ, kₒ, dᵥ, cᵥ], t2_abab [dᵥ, eᵥ, lₒ, jₒ], t2_abab [aᵥ, cᵥ, mₒ, kₒ]], [(1, [aᵥ, bᵥ, iₒ, jₒ])]⟩,
  -- line 2008: mbie,kldc,edjl,acmk->abij
  ⟨1, [g_abab [mₒ, bᵥ, iₒ, eᵥ], l2_bbbb [kₒ, lₒ, dᵥ, cᵥ], t2_bbbb [eᵥ, dᵥ, jₒ, lₒ], t2_abab [aᵥ, cᵥ, mₒ, kₒ]], [(1, [aᵥ, bᵥ, iₒ, jₒ])]⟩,
  -- line 2011: amej,kldc,ebkl,dcim->abij
  ⟨-1/4, [g_abab [aᵥ, mₒ, eᵥ, jₒ], l2_abab [kₒ, lₒ, dᵥ, cᵥ], t2_abab [eᵥ, bᵥ, kₒ, lₒ], t2_abab [dᵥ, cᵥ, iₒ, mₒ]], [(1, [aᵥ, bᵥ, iₒ, jₒ])]⟩,
  -- line 2014: amej,klcd,ebkl,cdim->abij
  ⟨-1/4, [g_abab [aᵥ, mₒ, eᵥ, jₒ], l2_abab [kₒ, lₒ, cᵥ, dᵥ], t2_abab [eᵥ, bᵥ, kₒ, lₒ], t2_abab [cᵥ, dᵥ, iₒ, mₒ]], [(1, [aᵥ, bᵥ, iₒ, jₒ])]⟩,
  -- line 2017: amej,lkdc,eblk,dcim->abij
  ⟨-1/4, [g_abab [aᵥ, mₒ, eᵥ, jₒ], l2_abab [lₒ, kₒ, dᵥ, cᵥ], t2_abab [eᵥ, bᵥ, lₒ, kₒ], t2_abab [dᵥ, cᵥ, iₒ, mₒ]], [(1, [aᵥ, bᵥ, iₒ, jₒ])]⟩,
  -- line 2020: amej,lkcd,eblk,cdim->abij
  ⟨-1/4, [g_abab [aᵥ, mₒ, eᵥ, jₒ], l2_abab [lₒ, kₒ, cᵥ, dᵥ], t2_abab [eᵥ, bᵥ, lₒ, kₒ], t2_abab [cᵥ, dᵥ, iₒ, mₒ]], [(1, [aᵥ, bᵥ, iₒ, jₒ])]⟩,
  -- line 2023: mbej,kldc,eakl,dcim->abij
  ⟨-1/4, [g_abab [mₒ, bᵥ, eᵥ, jₒ], l2_aaaa [kₒ, lₒ, dᵥ, cᵥ], t2_aaaa [eᵥ, aᵥ, kₒ, lₒ], t2_aaaa [dᵥ, cᵥ, iₒ, mₒ]], [(1, [aᵥ, bᵥ, iₒ, jₒ])]⟩,
  -- line 2026: mbej,kldc,aekl,dcim->abij
  ⟨1/4, [g_bbbb [mₒ, bᵥ, eᵥ, jₒ], l2_abab [kₒ, lₒ, dᵥ, cᵥ], t2_abab [aᵥ, eᵥ, kₒ, lₒ], t2_abab [dᵥ, cᵥ, iₒ, mₒ]], [(1, [aᵥ, bᵥ, iₒ, jₒ])]⟩,
  -- line 2029: mbej,klcd,aekl,cdim->abij
  ⟨1/4, [g_bbbb [mₒ, bᵥ, eᵥ, jₒ], l2_abab [kₒ, lₒ, cᵥ, dᵥ], t2_abab [aᵥ, eᵥ, kₒ, lₒ], t2_abab [cᵥ, dᵥ, iₒ, mₒ]], [(1, [aᵥ, bᵥ, iₒ, jₒ])]⟩,
  -- line 2032: mbej,lkdc,aelk,dcim->abij
  ⟨1/4, [g_bbbb [mₒ, bᵥ, eᵥ, jₒ], l2_abab [lₒ, kₒ, dᵥ, cᵥ], t2_abab [aᵥ, eᵥ, lₒ, kₒ], t2_abab [dᵥ, cᵥ, iₒ, mₒ]], [(1, [aᵥ, bᵥ, iₒ, jₒ])]⟩,
  -- line 2035: mbej,lkcd,aelk,cdim->abij
  ⟨1/4, [g_bbbb [mₒ, bᵥ, eᵥ, jₒ], l2_abab [lₒ, kₒ, cᵥ, dᵥ], t2_abab [aᵥ, eᵥ, lₒ, kₒ], t2_abab [cᵥ, dᵥ, iₒ, mₒ]], [(1, [aᵥ, bᵥ, iₒ, jₒ])]⟩,
  -- line 2038: maei,kldc,ebkl,dcmj->abij
  ⟨1/4, [g_aaaa [mₒ, aᵥ, eᵥ, iₒ], l2_abab [kₒ, lₒ, dᵥ, cᵥ], t2_abab [eᵥ, bᵥ, kₒ, lₒ], t2_abab [dᵥ, cᵥ, mₒ, jₒ]], [(1, [aᵥ, bᵥ, iₒ, jₒ])]⟩,
  -- line 2041: maei,klcd,ebkl,cdmj->abij
  ⟨1/4, [g_aaaa [mₒ, aᵥ, eᵥ, iₒ], l2_abab [kₒ, lₒ, cᵥ, dᵥ], t2_abab [eᵥ, bᵥ, kₒ, lₒ], t2_abab [cᵥ, dᵥ, mₒ, jₒ]], [(1, [aᵥ, bᵥ, iₒ, jₒ])]⟩,
  -- line 2044: maei,lkdc,eblk,dcmj->abij
  ⟨1/4, [g_aaaa [mₒ, aᵥ, eᵥ, iₒ], l2_abab [lₒ, kₒ, dᵥ, cᵥ], t2_abab [eᵥ, bᵥ, lₒ, kₒ], t2_abab [dᵥ, cᵥ, mₒ, jₒ]], [(1, [aᵥ, bᵥ, iₒ, jₒ])]⟩,
  -- line 2047: maei,lkcd,eblk,cdmj->abij
  ⟨1/4, [g_aaaa [mₒ, aᵥ, eᵥ, iₒ], l2_abab [lₒ, kₒ, cᵥ, dᵥ], t2_abab [eᵥ, bᵥ, lₒ, kₒ], t2_abab [cᵥ, dᵥ, mₒ, jₒ]], [(1, [aᵥ, bᵥ, iₒ, jₒ])]⟩,
  -- line 2050: amie,kldc,ebkl,dcjm->abij
  ⟨-1/4, [g_abab [aᵥ, mₒ, iₒ, eᵥ], l2_bbbb [kₒ, lₒ, dᵥ, cᵥ], t2_bbbb [eᵥ, bᵥ, kₒ, lₒ], t2_bbbb [dᵥ, cᵥ, jₒ, mₒ]], [(1, [aᵥ, bᵥ, iₒ, jₒ])]⟩,
  -- line 2053: mbie,kldc,aekl,dcmj->abij
  ⟨-1/4, [g_abab [mₒ, bᵥ, iₒ, eᵥ], l2_abab [kₒ, lₒ, dᵥ, cᵥ], t2_abab [aᵥ, eᵥ, kₒ, lₒ], t2_abab [dᵥ, cᵥ, mₒ, jₒ]], [(1, [aᵥ, bᵥ, iₒ, jₒ])]⟩,
  -- line 2056: mbie,klcd,aekl,cdmj->abij
  ⟨-1/4, [g_abab [mₒ, bᵥ, iₒ, eᵥ], l2_abab [kₒ, lₒ, cᵥ, dᵥ], t2_abab [aᵥ, eᵥ, kₒ, lₒ], t2_abab [cᵥ, dᵥ, mₒ, jₒ]], [(1, [aᵥ, bᵥ, iₒ, jₒ])]⟩,
  -- line 2059: mbie,lkdc,aelk,dcmj->abij
  ⟨-1/4, [g_abab [mₒ, bᵥ, iₒ, eᵥ], l2_abab [lₒ, kₒ, dᵥ, cᵥ], t2_abab [aᵥ, eᵥ, lₒ, kₒ], t2_abab [dᵥ, cᵥ, mₒ, jₒ]], [(1, [aᵥ, bᵥ, iₒ, jₒ])]⟩,
  -- line 2062: mbie,lkcd,aelk,cdmj->abij
  ⟨-1/4, [g_abab [mₒ, bᵥ, iₒ, eᵥ], l2_abab [lₒ, kₒ, cᵥ, dᵥ], t2_abab [aᵥ, eᵥ, lₒ, kₒ], t2_abab [cᵥ, dᵥ, mₒ, jₒ]], [(1, [aᵥ, bᵥ, iₒ, jₒ])]⟩,
  -- line 2065: amej,kldc,ebil,dckm->abij
  ⟨1/2, [g_abab [aᵥ, mₒ, eᵥ, jₒ], l2_abab [kₒ, lₒ, dᵥ, cᵥ], t2_abab [eᵥ, bᵥ, iₒ, lₒ], t2_abab [dᵥ, cᵥ, kₒ, mₒ]], [(1, [aᵥ, bᵥ, iₒ, jₒ])]⟩,
  -- line 2068: amej,klcd,ebil,cdkm->abij
  ⟨1/2, [g_abab [aᵥ, mₒ, eᵥ, jₒ], l2_abab [kₒ, lₒ, cᵥ, dᵥ], t2_abab [eᵥ, bᵥ, iₒ, lₒ], t2_abab [cᵥ, dᵥ, kₒ, mₒ]], [(1, [aᵥ, bᵥ, iₒ, jₒ])]⟩,
  -- line 2071: amej,kldc,ebil,dckm->abij
  ⟨1/2, [g_abab [aᵥ, mₒ, eᵥ, jₒ], l2_bbbb [kₒ, lₒ, dᵥ, cᵥ], t2_abab [eᵥ, bᵥ, iₒ, lₒ], t2_bbbb [dᵥ, cᵥ, kₒ, mₒ]], [(1, [aᵥ, bᵥ, iₒ, jₒ])]⟩,
  -- line 2074: mbej,kldc,eail,dckm->abij
  ⟨1/2, [g_abab [mₒ, bᵥ, eᵥ, jₒ], l2_aaaa [kₒ, lₒ, dᵥ, cᵥ], t2_aaaa [eᵥ, aᵥ, iₒ, lₒ], t2_aaaa [dᵥ, cᵥ, kₒ, mₒ]], [(1, [aᵥ, bᵥ, iₒ, jₒ])]⟩
  ]

/-- Part 7 of `residQf1_abab`. -/
def residQf1_abab_7 : Prog := [
  -- line 2077: mbej,kldc,aeil,dckm->abij
  ⟨-1/2, [g_bbbb [mₒ, bᵥ, eᵥ, jₒ], l2_abab [kₒ, lₒ, dᵥ, cᵥ], t2_abab [aᵥ, eᵥ, iₒ, lₒ], t2_abab [dᵥ, cᵥ, kₒ, mₒ]], [(1, [aᵥ, bᵥ, iₒ, jₒ])]⟩,
  -- line 2080: mbej,klcd,aeil,cdkm->abij
  ⟨-1/2, [g_bbbb [mₒ, bᵥ, eᵥ, jₒ], l2_abab [kₒ, lₒ, cᵥ, dᵥ], t2_abab [aᵥ, eᵥ, iₒ, lₒ], t2_abab [cᵥ, dᵥ, kₒ, mₒ]], [(1, [aᵥ, bᵥ, iₒ, jₒ])]⟩,
  -- line 2083: mbej,lkdc,eail,dcmk->abij
  ⟨1/2, [g_abab [mₒ, bᵥ, eᵥ, jₒ], l2_abab [lₒ, kₒ, dᵥ, cᵥ], t2_aaaa [eᵥ, aᵥ, iₒ, lₒ], t2_abab [dᵥ, cᵥ, mₒ, kₒ]], [(1, [aᵥ, bᵥ, iₒ, jₒ])]⟩,
  -- line 2086: mbej,lkcd,eail,cdmk->abij
  ⟨1/2, [g_abab [mₒ, bᵥ, eᵥ, jₒ], l2_abab [lₒ, kₒ, cᵥ, dᵥ], t2_aaaa [eᵥ, aᵥ, iₒ, lₒ], t2_abab [cᵥ, dᵥ, mₒ, kₒ]], [(1, [aᵥ, bᵥ, iₒ, jₒ])]⟩,
  -- line 2089: mbej,kldc,aeil,dckm->abij
  ⟨-1/2, [g_bbbb [mₒ, bᵥ, eᵥ, jₒ], l2_bbbb [kₒ, lₒ, dᵥ, cᵥ], t2_abab [aᵥ, eᵥ, iₒ, lₒ], t2_bbbb [dᵥ, cᵥ, kₒ, mₒ]], [(1, [aᵥ, bᵥ, iₒ, jₒ])]⟩,
  -- line 2092: maei,kldc,eblj,dckm->abij
  ⟨-1/2, [g_aaaa [mₒ, aᵥ, eᵥ, iₒ], l2_aaaa [kₒ, lₒ, dᵥ, cᵥ], t2_abab [eᵥ, bᵥ, lₒ, jₒ], t2_aaaa [dᵥ, cᵥ, kₒ, mₒ]], [(1, [aᵥ, bᵥ, iₒ, jₒ])]⟩,
  -- line 2095: amie,kldc,ebjl,dckm->abij
  ⟨1/2, [g_abab [aᵥ, mₒ, iₒ, eᵥ], l2_abab [kₒ, lₒ, dᵥ, cᵥ], t2_bbbb [eᵥ, bᵥ, jₒ, lₒ], t2_abab [dᵥ, cᵥ, kₒ, mₒ]], [(1, [aᵥ, bᵥ, iₒ, jₒ])]⟩,
  -- line 2098: amie,klcd,ebjl,cdkm->abij
  ⟨1/2, [g_abab [aᵥ, mₒ, iₒ, eᵥ], l2_abab [kₒ, lₒ, cᵥ, dᵥ], t2_bbbb [eᵥ, bᵥ, jₒ, lₒ], t2_abab [cᵥ, dᵥ, kₒ, mₒ]], [(1, [aᵥ, bᵥ, iₒ, jₒ])]⟩,
  -- line 2101: maei,lkdc,eblj,dcmk->abij
  ⟨-1/2, [g_aaaa [mₒ, aᵥ, eᵥ, iₒ], l2_abab [lₒ, kₒ, dᵥ, cᵥ], t2_abab [eᵥ, bᵥ, lₒ, jₒ], t2_abab [dᵥ, cᵥ, mₒ, kₒ]], [(1, [aᵥ, bᵥ, iₒ, jₒ])]⟩,
  -- line 2104: maei,lkcd,eblj,cdmk->abij
  ⟨-1/2, [g_aaaa [mₒ, aᵥ, eᵥ, iₒ], l2_abab [lₒ, kₒ, cᵥ, dᵥ], t2_abab [eᵥ, bᵥ, lₒ, jₒ], t2_abab [cᵥ, dᵥ, mₒ, kₒ]], [(1, [aᵥ, bᵥ, iₒ, jₒ])]⟩,
  -- line 2107: amie,kldc,ebjl,dckm->abij
  ⟨1/2, [g_abab [aᵥ, mₒ, iₒ, eᵥ], l2_bbbb [kₒ, lₒ, dᵥ, cᵥ], t2_bbbb [eᵥ, bᵥ, jₒ, lₒ], t2_bbbb [dᵥ, cᵥ, kₒ, mₒ]], [(1, [aᵥ, bᵥ, iₒ, jₒ])]⟩,
  -- line 2110: mbie,kldc,aelj,dckm->abij
  ⟨1/2, [g_abab [mₒ, bᵥ, iₒ, eᵥ], l2_aaaa [kₒ, lₒ, dᵥ, cᵥ], t2_abab [aᵥ, eᵥ, lₒ, jₒ], t2_aaaa [dᵥ, cᵥ, kₒ, mₒ]], [(1, [aᵥ, bᵥ, iₒ, jₒ])]⟩,
  -- line 2113: mbie,lkdc,aelj,dcmk->abij
  ⟨1/2, [g_abab [mₒ, bᵥ, iₒ, eᵥ], l2_abab [lₒ, kₒ, dᵥ, cᵥ], t2_abab [aᵥ, eᵥ, lₒ, jₒ], t2_abab [dᵥ, cᵥ, mₒ, kₒ]], [(1, [aᵥ, bᵥ, iₒ, jₒ])]⟩,
  -- line 2116: mbie,lkcd,aelj,cdmk->abij
  ⟨1/2, [g_abab [mₒ, bᵥ, iₒ, eᵥ], l2_abab [lₒ, kₒ, cᵥ, dᵥ], t2_abab [aᵥ, eᵥ, lₒ, jₒ], t2_abab [cᵥ, dᵥ, mₒ, kₒ]], [(1, [aᵥ, bᵥ, iₒ, jₒ])]⟩,
  -- line 2119: dcef,kldc,eakl,fbij->abij
  ⟨-1/4, [g_aaaa [dᵥ, cᵥ, eᵥ, fᵥ], l2_aaaa [kₒ, lₒ, dᵥ, cᵥ], t2_aaaa [eᵥ, aᵥ, kₒ, lₒ], t2_abab [fᵥ, bᵥ, iₒ, jₒ]], [(1, [aᵥ, bᵥ, iₒ, jₒ])]⟩,
  -- line 2122: dcfe,kldc,aekl,fbij->abij
  ⟨-1/4, [g_abab [dᵥ, cᵥ, fᵥ, eᵥ], l2_abab [kₒ, lₒ, dᵥ, cᵥ], t2_abab [aᵥ, eᵥ, kₒ, lₒ], t2_abab [fᵥ, bᵥ, iₒ, jₒ]], [(1, [aᵥ, bᵥ, iₒ, jₒ])]⟩,
  -- line 2125: cdfe,klcd,aekl,fbij->abij
  ⟨-1/4, [g_abab [cᵥ, dᵥ, fᵥ, eᵥ], l2_abab [kₒ, lₒ, cᵥ, dᵥ], t2_abab [aᵥ, eᵥ, kₒ, lₒ], t2_abab [fᵥ, bᵥ, iₒ, jₒ]], [(1, [aᵥ, bᵥ, iₒ, jₒ])]⟩,
  -- line 2128: dcfe,lkdc,aelk,fbij->abij
  ⟨-1/4, [g_abab [dᵥ, cᵥ, fᵥ, eᵥ], l2_abab [lₒ, kₒ, dᵥ, cᵥ], t2_abab [aᵥ, eᵥ, lₒ, kₒ], t2_abab [fᵥ, bᵥ, iₒ, jₒ]], [(1, [aᵥ, bᵥ, iₒ, jₒ])]⟩,
  -- line 2131: cdfe,lkcd,aelk,fbij->abij
  ⟨-1/4, [g_abab [cᵥ, dᵥ, fᵥ, eᵥ], l2_abab [lₒ, kₒ, cᵥ, dᵥ], t2_abab [aᵥ, eᵥ, lₒ, kₒ], t2_abab [fᵥ, bᵥ, iₒ, jₒ]], [(1, [aᵥ, bᵥ, iₒ, jₒ])]⟩,
  -- line 2134: dcfe,lkdc,aelj,fbik->abij
  ⟨1/2, [g_abab [dᵥ, cᵥ, fᵥ, eᵥ], l2_abab [lₒ, kₒ, dᵥ, cᵥ], t2_abab [aᵥ, eᵥ, lₒ, jₒ], t2_abab [fᵥ, bᵥ, iₒ, kₒ]], [(1, [aᵥ, bᵥ, iₒ, jₒ])]⟩,
  -- line 2137: cdfe,lkcd,aelj,fbik->abij
  ⟨1/2, [g_abab [cᵥ, dᵥ, fᵥ, eᵥ], l2_abab [lₒ, kₒ, cᵥ, dᵥ], t2_abab [aᵥ, eᵥ, lₒ, jₒ], t2_abab [fᵥ, bᵥ, iₒ, kₒ]], [(1, [aᵥ, bᵥ, iₒ, jₒ])]⟩,
  -- line 2140: dcef,kldc,eail,fbkj->abij
  ⟨1/2, [g_aaaa [dᵥ, cᵥ, eᵥ, fᵥ], l2_aaaa [kₒ, lₒ, dᵥ, cᵥ], t2_aaaa [eᵥ, aᵥ, iₒ, lₒ], t2_abab [fᵥ, bᵥ, kₒ, jₒ]], [(1, [aᵥ, bᵥ, iₒ, jₒ])]⟩,
  -- line 2143: dcfe,kldc,aeil,fbkj->abij
  ⟨1/2, [g_abab [dᵥ, cᵥ, fᵥ, eᵥ], l2_abab [kₒ, lₒ, dᵥ, cᵥ], t2_abab [aᵥ, eᵥ, iₒ, lₒ], t2_abab [fᵥ, bᵥ, kₒ, jₒ]], [(1, [aᵥ, bᵥ, iₒ, jₒ])]⟩,
  -- line 2146: cdfe,klcd,aeil,fbkj->abij
  ⟨1/2, [g_abab [cᵥ, dᵥ, fᵥ, eᵥ], l2_abab [kₒ, lₒ, cᵥ, dᵥ], t2_abab [aᵥ, eᵥ, iₒ, lₒ], t2_abab [fᵥ, bᵥ, kₒ, jₒ]], [(1, [aᵥ, bᵥ, iₒ, jₒ])]⟩,
  -- line 2149: dcef,lkdc,eail,fbjk->abij
  ⟨1/2, [g_abab [dᵥ, cᵥ, eᵥ, fᵥ], l2_abab [lₒ, kₒ, dᵥ, cᵥ], t2_aaaa [eᵥ, aᵥ, iₒ, lₒ], t2_bbbb [fᵥ, bᵥ, jₒ, kₒ]], [(1, [aᵥ, bᵥ, iₒ, jₒ])]⟩,
  -- line 2152: cdef,lkcd,eail,fbjk->abij
  ⟨1/2, [g_abab [cᵥ, dᵥ, eᵥ, fᵥ], l2_abab [lₒ, kₒ, cᵥ, dᵥ], t2_aaaa [eᵥ, aᵥ, iₒ, lₒ], t2_bbbb [fᵥ, bᵥ, jₒ, kₒ]], [(1, [aᵥ, bᵥ, iₒ, jₒ])]⟩,
  -- line 2155: dcef,kldc,aeil,fbjk->abij
  ⟨1/2, [g_bbbb [dᵥ, cᵥ, eᵥ, fᵥ], l2_bbbb [kₒ, lₒ, dᵥ, cᵥ], t2_abab [aᵥ, eᵥ, iₒ, lₒ], t2_bbbb [fᵥ, bᵥ, jₒ, kₒ]], [(1, [aᵥ, bᵥ, iₒ, jₒ])]⟩,
  -- line 2158: dcfe,kldc,aeij,fbkl->abij
  ⟨-1/4, [g_abab [dᵥ, cᵥ, fᵥ, eᵥ], l2_abab [kₒ, lₒ, dᵥ, cᵥ], t2_abab [aᵥ, eᵥ, iₒ, jₒ], t2_abab [fᵥ, bᵥ, kₒ, lₒ]], [(1, [aᵥ, bᵥ, iₒ, jₒ])]⟩,
  -- line 2161: cdfe,klcd,aeij,fbkl->abij
  ⟨-1/4, [g_abab [cᵥ, dᵥ, fᵥ, eᵥ], l2_abab [kₒ, lₒ, cᵥ, dᵥ], t2_abab [aᵥ, eᵥ, iₒ, jₒ], t2_abab [fᵥ, bᵥ, kₒ, lₒ]], [(1, [aᵥ, bᵥ, iₒ, jₒ])]⟩,
  -- line 2164: dcfe,lkdc,aeij,fblk->abij
  ⟨-1/4, [g_abab [dᵥ, cᵥ, fᵥ, eᵥ], l2_abab [lₒ, kₒ, dᵥ, cᵥ], t2_abab [aᵥ, eᵥ, iₒ, jₒ], t2_abab [fᵥ, bᵥ, lₒ, kₒ]], [(1, [aᵥ, bᵥ, iₒ, jₒ])]⟩,
  -- line 2167: cdfe,lkcd,aeij,fblk->abij
  ⟨-1/4, [g_abab [cᵥ, dᵥ, fᵥ, eᵥ], l2_abab [lₒ, kₒ, cᵥ, dᵥ], t2_abab [aᵥ, eᵥ, iₒ, jₒ], t2_abab [fᵥ, bᵥ, lₒ, kₒ]], [(1, [aᵥ, bᵥ, iₒ, jₒ])]⟩,
  -- line 2170: dcef,kldc,aeij,fbkl->abij
  ⟨1/4, [g_bbbb [dᵥ, cᵥ, eᵥ, fᵥ], l2_bbbb [kₒ, lₒ, dᵥ, cᵥ], t2_abab [aᵥ, eᵥ, iₒ, jₒ], t2_bbbb [fᵥ, bᵥ, kₒ, lₒ]], [(1, [aᵥ, bᵥ, iₒ, jₒ])]⟩,
  -- line 2173: daef,kldc,eckl,fbij->abij
  ⟨1/2, [g_aaaa [dᵥ, aᵥ, eᵥ, fᵥ], l2_aaaa [kₒ, lₒ, dᵥ, cᵥ], t2_aaaa [eᵥ, cᵥ, kₒ, lₒ], t2_abab [fᵥ, bᵥ, iₒ, jₒ]], [(1, [aᵥ, bᵥ, iₒ, jₒ])]⟩,
  -- line 2176: daef,kldc,eckl,fbij->abij
  ⟨1/2, [g_aaaa [dᵥ, aᵥ, eᵥ, fᵥ], l2_abab [kₒ, lₒ, dᵥ, cᵥ], t2_abab [eᵥ, cᵥ, kₒ, lₒ], t2_abab [fᵥ, bᵥ, iₒ, jₒ]], [(1, [aᵥ, bᵥ, iₒ, jₒ])]⟩,
  -- line 2179: adfe,klcd,cekl,fbij->abij
  ⟨1/2, [g_abab [aᵥ, dᵥ, fᵥ, eᵥ], l2_abab [kₒ, lₒ, cᵥ, dᵥ], t2_abab [cᵥ, eᵥ, kₒ, lₒ], t2_abab [fᵥ, bᵥ, iₒ, jₒ]], [(1, [aᵥ, bᵥ, iₒ, jₒ])]⟩,
  -- line 2182: daef,lkdc,eclk,fbij->abij
  ⟨1/2, [g_aaaa [dᵥ, aᵥ, eᵥ, fᵥ], l2_abab [lₒ, kₒ, dᵥ, cᵥ], t2_abab [eᵥ, cᵥ, lₒ, kₒ], t2_abab [fᵥ, bᵥ, iₒ, jₒ]], [(1, [aᵥ, bᵥ, iₒ, jₒ])]⟩,
  -- line 2185: adfe,lkcd,celk,fbij->abij
  ⟨1/2, [g_abab [aᵥ, dᵥ, fᵥ, eᵥ], l2_abab [lₒ, kₒ, cᵥ, dᵥ], t2_abab [cᵥ, eᵥ, lₒ, kₒ], t2_abab [fᵥ, bᵥ, iₒ, jₒ]], [(1, [aᵥ, bᵥ, iₒ, jₒ])]⟩,
  -- line 2188: adfe,kldc,eckl,fbij->abij
  ⟨1/2, [g_abab [aᵥ, dᵥ, fᵥ, eᵥ], l2_bbbb [kₒ, lₒ, dᵥ, cᵥ], t2_bbbb [eᵥ, cᵥ, kₒ, lₒ], t2_abab [fᵥ, bᵥ, iₒ, jₒ]], [(1, [aᵥ, bᵥ, iₒ, jₒ])]⟩,
  -- line 2191: dbef,kldc,eckl,afij->abij
  ⟨1/2, [g_abab [dᵥ, bᵥ, eᵥ, fᵥ], l2_aaaa [kₒ, lₒ, dᵥ, cᵥ], t2_aaaa [eᵥ, cᵥ, kₒ, lₒ], t2_abab [aᵥ, fᵥ, iₒ, jₒ]], [(1, [aᵥ, bᵥ, iₒ, jₒ])]⟩,
  -- line 2194: dbef,kldc,eckl,afij->abij
  ⟨1/2, [g_abab [dᵥ, bᵥ, eᵥ, fᵥ], l2_abab [kₒ, lₒ, dᵥ, cᵥ], t2_abab [eᵥ, cᵥ, kₒ, lₒ], t2_abab [aᵥ, fᵥ, iₒ, jₒ]], [(1, [aᵥ, bᵥ, iₒ, jₒ])]⟩
  ]

/-- Part 8 of `residQf1_abab`. -/
def residQf1_abab_8 : Prog := [
  -- line 2197: dbef,klcd,cekl,afij->abij
  ⟨1/2, [g_bbbb [dᵥ, bᵥ, eᵥ, fᵥ], l2_abab [kₒ, lₒ, cᵥ, dᵥ], t2_abab [cᵥ, eᵥ, kₒ, lₒ], t2_abab [aᵥ, fᵥ, iₒ, jₒ]], [(1, [aᵥ, bᵥ, iₒ, jₒ])]⟩,
  -- line 2200: dbef,lkdc,eclk,afij->abij
  ⟨1/2, [g_abab [dᵥ, bᵥ, eᵥ, fᵥ], l2_abab [lₒ, kₒ, dᵥ, cᵥ], t2_abab [eᵥ, cᵥ, lₒ, kₒ], t2_abab [aᵥ, fᵥ, iₒ, jₒ]], [(1, [aᵥ, bᵥ, iₒ, jₒ])]⟩,
  -- line 2203: dbef,lkcd,celk,afij->abij
  ⟨1/2, [g_bbbb [dᵥ, bᵥ, eᵥ, fᵥ], l2_abab [lₒ, kₒ, cᵥ, dᵥ], t2_abab [cᵥ, eᵥ, lₒ, kₒ], t2_abab [aᵥ, fᵥ, iₒ, jₒ]], [(1, [aᵥ, bᵥ, iₒ, jₒ])]⟩,
  -- line 2206: dbef,kldc,eckl,afij->abij
  ⟨1/2, [g_bbbb [dᵥ, bᵥ, eᵥ, fᵥ], l2_bbbb [kₒ, lₒ, dᵥ, cᵥ], t2_bbbb [eᵥ, cᵥ, kₒ, lₒ], t2_abab [aᵥ, fᵥ, iₒ, jₒ]], [(1, [aᵥ, bᵥ, iₒ, jₒ])]⟩,
  -- line 2209: daef,lkdc,eclj,fbik->abij
  ⟨-1, [g_aaaa [dᵥ, aᵥ, eᵥ, fᵥ], l2_abab [lₒ, kₒ, dᵥ, cᵥ], t2_abab [eᵥ, cᵥ, lₒ, jₒ], t2_abab [fᵥ, bᵥ, iₒ, kₒ]], [(1, [aᵥ, bᵥ, iₒ, jₒ])]⟩,
  -- line 2212: adfe,lkcd,celj,fbik->abij
  ⟨-1, [g_abab [aᵥ, dᵥ, fᵥ, eᵥ], l2_abab [lₒ, kₒ, cᵥ, dᵥ], t2_abab [cᵥ, eᵥ, lₒ, jₒ], t2_abab [fᵥ, bᵥ, iₒ, kₒ]], [(1, [aᵥ, bᵥ, iₒ, jₒ])]⟩,
  -- line 2215: adfe,kldc,ecjl,fbik->abij
  ⟨-1, [g_abab [aᵥ, dᵥ, fᵥ, eᵥ], l2_bbbb [kₒ, lₒ, dᵥ, cᵥ], t2_bbbb [eᵥ, cᵥ, jₒ, lₒ], t2_abab [fᵥ, bᵥ, iₒ, kₒ]], [(1, [aᵥ, bᵥ, iₒ, jₒ])]⟩,
  -- line 2218: dbfe,kldc,celj,faik->abij
  ⟨-1, [g_abab [dᵥ, bᵥ, fᵥ, eᵥ], l2_aaaa [kₒ, lₒ, dᵥ, cᵥ], t2_abab [cᵥ, eᵥ, lₒ, jₒ], t2_aaaa [fᵥ, aᵥ, iₒ, kₒ]], [(1, [aᵥ, bᵥ, iₒ, jₒ])]⟩,
  -- line 2221: dbfe,kldc,ecjl,faik->abij
  ⟨-1, [g_abab [dᵥ, bᵥ, fᵥ, eᵥ], l2_abab [kₒ, lₒ, dᵥ, cᵥ], t2_bbbb [eᵥ, cᵥ, jₒ, lₒ], t2_aaaa [fᵥ, aᵥ, iₒ, kₒ]], [(1, [aᵥ, bᵥ, iₒ, jₒ])]⟩,
  -- line 2224: dbef,lkdc,eclj,afik->abij
  ⟨-1, [g_abab [dᵥ, bᵥ, eᵥ, fᵥ], l2_abab [lₒ, kₒ, dᵥ, cᵥ], t2_abab [eᵥ, cᵥ, lₒ, jₒ], t2_abab [aᵥ, fᵥ, iₒ, kₒ]], [(1, [aᵥ, bᵥ, iₒ, jₒ])]⟩,
  -- line 2227: dbef,lkcd,celj,afik->abij
  ⟨-1, [g_bbbb [dᵥ, bᵥ, eᵥ, fᵥ], l2_abab [lₒ, kₒ, cᵥ, dᵥ], t2_abab [cᵥ, eᵥ, lₒ, jₒ], t2_abab [aᵥ, fᵥ, iₒ, kₒ]], [(1, [aᵥ, bᵥ, iₒ, jₒ])]⟩,
  -- line 2230: dbef,kldc,ecjl,afik->abij
  ⟨-1, [g_bbbb [dᵥ, bᵥ, eᵥ, fᵥ], l2_bbbb [kₒ, lₒ, dᵥ, cᵥ], t2_bbbb [eᵥ, cᵥ, jₒ, lₒ], t2_abab [aᵥ, fᵥ, iₒ, kₒ]], [(1, [aᵥ, bᵥ, iₒ, jₒ])]⟩,
  -- line 2233: daef,kldc,ecil,fbkj->abij
  ⟨-1, [g_aaaa [dᵥ, aᵥ, eᵥ, fᵥ], l2_aaaa [kₒ, lₒ, dᵥ, cᵥ], t2_aaaa [eᵥ, cᵥ, iₒ, lₒ], t2_abab [fᵥ, bᵥ, kₒ, jₒ]], [(1, [aᵥ, bᵥ, iₒ, jₒ])]⟩,
  -- line 2236: daef,kldc,ecil,fbkj->abij
  ⟨-1, [g_aaaa [dᵥ, aᵥ, eᵥ, fᵥ], l2_abab [kₒ, lₒ, dᵥ, cᵥ], t2_abab [eᵥ, cᵥ, iₒ, lₒ], t2_abab [fᵥ, bᵥ, kₒ, jₒ]], [(1, [aᵥ, bᵥ, iₒ, jₒ])]⟩,
  -- line 2239: adfe,klcd,ceil,fbkj->abij
  ⟨-1, [g_abab [aᵥ, dᵥ, fᵥ, eᵥ], l2_abab [kₒ, lₒ, cᵥ, dᵥ], t2_abab [cᵥ, eᵥ, iₒ, lₒ], t2_abab [fᵥ, bᵥ, kₒ, jₒ]], [(1, [aᵥ, bᵥ, iₒ, jₒ])]⟩,
  -- line 2242: adef,lkcd,ecil,fbjk->abij
  ⟨-1, [g_abab [aᵥ, dᵥ, eᵥ, fᵥ], l2_abab [lₒ, kₒ, cᵥ, dᵥ], t2_aaaa [eᵥ, cᵥ, iₒ, lₒ], t2_bbbb [fᵥ, bᵥ, jₒ, kₒ]], [(1, [aᵥ, bᵥ, iₒ, jₒ])]⟩,
  -- line 2245: adef,kldc,ecil,fbjk->abij
  ⟨-1, [g_abab [aᵥ, dᵥ, eᵥ, fᵥ], l2_bbbb [kₒ, lₒ, dᵥ, cᵥ], t2_abab [eᵥ, cᵥ, iₒ, lₒ], t2_bbbb [fᵥ, bᵥ, jₒ, kₒ]], [(1, [aᵥ, bᵥ, iₒ, jₒ])]⟩,
  -- line 2248: dbef,kldc,ecil,afkj->abij
  ⟨-1, [g_abab [dᵥ, bᵥ, eᵥ, fᵥ], l2_aaaa [kₒ, lₒ, dᵥ, cᵥ], t2_aaaa [eᵥ, cᵥ, iₒ, lₒ], t2_abab [aᵥ, fᵥ, kₒ, jₒ]], [(1, [aᵥ, bᵥ, iₒ, jₒ])]⟩,
  -- line 2251: dbef,kldc,ecil,afkj->abij
  ⟨-1, [g_abab [dᵥ, bᵥ, eᵥ, fᵥ], l2_abab [kₒ, lₒ, dᵥ, cᵥ], t2_abab [eᵥ, cᵥ, iₒ, lₒ], t2_abab [aᵥ, fᵥ, kₒ, jₒ]], [(1, [aᵥ, bᵥ, iₒ, jₒ])]⟩,
  -- line 2254: dbef,klcd,ceil,afkj->abij
  ⟨-1, [g_bbbb [dᵥ, bᵥ, eᵥ, fᵥ], l2_abab [kₒ, lₒ, cᵥ, dᵥ], t2_abab [cᵥ, eᵥ, iₒ, lₒ], t2_abab [aᵥ, fᵥ, kₒ, jₒ]], [(1, [aᵥ, bᵥ, iₒ, jₒ])]⟩,
  -- line 2257: daef,kldc,ecij,fbkl->abij
  ⟨1/2, [g_aaaa [dᵥ, aᵥ, eᵥ, fᵥ], l2_abab [kₒ, lₒ, dᵥ, cᵥ], t2_abab [eᵥ, cᵥ, iₒ, jₒ], t2_abab [fᵥ, bᵥ, kₒ, lₒ]], [(1, [aᵥ, bᵥ, iₒ, jₒ])]⟩,
  -- line 2260: adfe,klcd,ceij,fbkl->abij
  ⟨1/2, [g_abab [aᵥ, dᵥ, fᵥ, eᵥ], l2_abab [kₒ, lₒ, cᵥ, dᵥ], t2_abab [cᵥ, eᵥ, iₒ, jₒ], t2_abab [fᵥ, bᵥ, kₒ, lₒ]], [(1, [aᵥ, bᵥ, iₒ, jₒ])]⟩,
  -- line 2263: daef,lkdc,ecij,fblk->abij
  ⟨1/2, [g_aaaa [dᵥ, aᵥ, eᵥ, fᵥ], l2_abab [lₒ, kₒ, dᵥ, cᵥ], t2_abab [eᵥ, cᵥ, iₒ, jₒ], t2_abab [fᵥ, bᵥ, lₒ, kₒ]], [(1, [aᵥ, bᵥ, iₒ, jₒ])]⟩,
  -- line 2266: adfe,lkcd,ceij,fblk->abij
  ⟨1/2, [g_abab [aᵥ, dᵥ, fᵥ, eᵥ], l2_abab [lₒ, kₒ, cᵥ, dᵥ], t2_abab [cᵥ, eᵥ, iₒ, jₒ], t2_abab [fᵥ, bᵥ, lₒ, kₒ]], [(1, [aᵥ, bᵥ, iₒ, jₒ])]⟩,
  -- line 2269: adef,kldc,ecij,fbkl->abij
  ⟨-1/2, [g_abab [aᵥ, dᵥ, eᵥ, fᵥ], l2_bbbb [kₒ, lₒ, dᵥ, cᵥ], t2_abab [eᵥ, cᵥ, iₒ, jₒ], t2_bbbb [fᵥ, bᵥ, kₒ, lₒ]], [(1, [aᵥ, bᵥ, iₒ, jₒ])]⟩,
  -- line 2272: dbfe,kldc,ceij,fakl->abij
  ⟨-1/2, [g_abab [dᵥ, bᵥ, fᵥ, eᵥ], l2_aaaa [kₒ, lₒ, dᵥ, cᵥ], t2_abab [cᵥ, eᵥ, iₒ, jₒ], t2_aaaa [fᵥ, aᵥ, kₒ, lₒ]], [(1, [aᵥ, bᵥ, iₒ, jₒ])]⟩,
  -- line 2275: dbef,kldc,ecij,afkl->abij
  ⟨1/2, [g_abab [dᵥ, bᵥ, eᵥ, fᵥ], l2_abab [kₒ, lₒ, dᵥ, cᵥ], t2_abab [eᵥ, cᵥ, iₒ, jₒ], t2_abab [aᵥ, fᵥ, kₒ, lₒ]], [(1, [aᵥ, bᵥ, iₒ, jₒ])]⟩,
  -- line 2278: dbef,klcd,ceij,afkl->abij
  ⟨1/2, [g_bbbb [dᵥ, bᵥ, eᵥ, fᵥ], l2_abab [kₒ, lₒ, cᵥ, dᵥ], t2_abab [cᵥ, eᵥ, iₒ, jₒ], t2_abab [aᵥ, fᵥ, kₒ, lₒ]], [(1, [aᵥ, bᵥ, iₒ, jₒ])]⟩,
  -- line 2281: dbef,lkdc,ecij,aflk->abij
  ⟨1/2, [g_abab [dᵥ, bᵥ, eᵥ, fᵥ], l2_abab [lₒ, kₒ, dᵥ, cᵥ], t2_abab [eᵥ, cᵥ, iₒ, jₒ], t2_abab [aᵥ, fᵥ, lₒ, kₒ]], [(1, [aᵥ, bᵥ, iₒ, jₒ])]⟩,
  -- line 2284: dbef,lkcd,ceij,aflk->abij
  ⟨1/2, [g_bbbb [dᵥ, bᵥ, eᵥ, fᵥ], l2_abab [lₒ, kₒ, cᵥ, dᵥ], t2_abab [cᵥ, eᵥ, iₒ, jₒ], t2_abab [aᵥ, fᵥ, lₒ, kₒ]], [(1, [aᵥ, bᵥ, iₒ, jₒ])]⟩,
  -- line 2287: abef,kldc,edkl,cfij->abij
  ⟨1/2, [g_abab [aᵥ, bᵥ, eᵥ, fᵥ], l2_aaaa [kₒ, lₒ, dᵥ, cᵥ], t2_aaaa [eᵥ, dᵥ, kₒ, lₒ], t2_abab [cᵥ, fᵥ, iₒ, jₒ]], [(1, [aᵥ, bᵥ, iₒ, jₒ])]⟩,
  -- line 2290: abfe,kldc,dekl,fcij->abij
  ⟨-1/2, [g_abab [aᵥ, bᵥ, fᵥ, eᵥ], l2_abab [kₒ, lₒ, dᵥ, cᵥ], t2_abab [dᵥ, eᵥ, kₒ, lₒ], t2_abab [fᵥ, cᵥ, iₒ, jₒ]], [(1, [aᵥ, bᵥ, iₒ, jₒ])]⟩,
  -- line 2293: abef,klcd,edkl,cfij->abij
  ⟨-1/2, [g_abab [aᵥ, bᵥ, eᵥ, fᵥ], l2_abab [kₒ, lₒ, cᵥ, dᵥ], t2_abab [eᵥ, dᵥ, kₒ, lₒ], t2_abab [cᵥ, fᵥ, iₒ, jₒ]], [(1, [aᵥ, bᵥ, iₒ, jₒ])]⟩,
  -- line 2296: abfe,lkdc,delk,fcij->abij
  ⟨-1/2, [g_abab [aᵥ, bᵥ, fᵥ, eᵥ], l2_abab [lₒ, kₒ, dᵥ, cᵥ], t2_abab [dᵥ, eᵥ, lₒ, kₒ], t2_abab [fᵥ, cᵥ, iₒ, jₒ]], [(1, [aᵥ, bᵥ, iₒ, jₒ])]⟩,
  -- line 2299: abef,lkcd,edlk,cfij->abij
  ⟨-1/2, [g_abab [aᵥ, bᵥ, eᵥ, fᵥ], l2_abab [lₒ, kₒ, cᵥ, dᵥ], t2_abab [eᵥ, dᵥ, lₒ, kₒ], t2_abab [cᵥ, fᵥ, iₒ, jₒ]], [(1, [aᵥ, bᵥ, iₒ, jₒ])]⟩,
  -- line 2302: abfe,kldc,edkl,fcij->abij
  ⟨1/2, [g_abab [aᵥ, bᵥ, fᵥ, eᵥ], l2_bbbb [kₒ, lₒ, dᵥ, cᵥ], t2_bbbb [eᵥ, dᵥ, kₒ, lₒ], t2_abab [fᵥ, cᵥ, iₒ, jₒ]], [(1, [aᵥ, bᵥ, iₒ, jₒ])]⟩,
  -- line 2305: abfe,kldc,delj,fcik->abij
  ⟨-1/2, [g_abab [aᵥ, bᵥ, fᵥ, eᵥ], l2_aaaa [kₒ, lₒ, dᵥ, cᵥ], t2_abab [dᵥ, eᵥ, lₒ, jₒ], t2_aaaa [fᵥ, cᵥ, iₒ, kₒ]], [(1, [aᵥ, bᵥ, iₒ, jₒ])]⟩,
  -- line 2308: abfe,klcd,edjl,fcik->abij
  ⟨1/2, [g_abab [aᵥ, bᵥ, fᵥ, eᵥ], l2_abab [kₒ, lₒ, cᵥ, dᵥ], t2_bbbb [eᵥ, dᵥ, jₒ, lₒ], t2_aaaa [fᵥ, cᵥ, iₒ, kₒ]], [(1, [aᵥ, bᵥ, iₒ, jₒ])]⟩,
  -- line 2311: abfe,lkdc,delj,fcik->abij
  ⟨1/2, [g_abab [aᵥ, bᵥ, fᵥ, eᵥ], l2_abab [lₒ, kₒ, dᵥ, cᵥ], t2_abab [dᵥ, eᵥ, lₒ, jₒ], t2_abab [fᵥ, cᵥ, iₒ, kₒ]], [(1, [aᵥ, bᵥ, iₒ, jₒ])]⟩,
  -- line 2314: abef,lkcd,edlj,cfik->abij
  ⟨1/2, [g_abab [aᵥ, bᵥ, eᵥ, fᵥ], l2_abab [lₒ, kₒ, cᵥ, dᵥ], t2_abab [eᵥ, dᵥ, lₒ, jₒ], t2_abab [cᵥ, fᵥ, iₒ, kₒ]], [(1, [aᵥ, bᵥ, iₒ, jₒ])]⟩
  ]

/-- Part 9 of `residQf1_abab`. -/
def residQf1_abab_9 : Prog := [
  -- line 2317: abfe,kldc,edjl,fcik->abij
  ⟨-1/2, [g_abab [aᵥ, bᵥ, fᵥ, eᵥ], l2_bbbb [kₒ, lₒ, dᵥ, cᵥ], t2_bbbb [eᵥ, dᵥ, jₒ, lₒ], t2_abab [fᵥ, cᵥ, iₒ, kₒ]], [(1, [aᵥ, bᵥ, iₒ, jₒ])]⟩,
  -- line 2320: abef,kldc,edil,cfkj->abij
  ⟨-1/2, [g_abab [aᵥ, bᵥ, eᵥ, fᵥ], l2_aaaa [kₒ, lₒ, dᵥ, cᵥ], t2_aaaa [eᵥ, dᵥ, iₒ, lₒ], t2_abab [cᵥ, fᵥ, kₒ, jₒ]], [(1, [aᵥ, bᵥ, iₒ, jₒ])]⟩,
  -- line 2323: abfe,kldc,deil,fckj->abij
  ⟨1/2, [g_abab [aᵥ, bᵥ, fᵥ, eᵥ], l2_abab [kₒ, lₒ, dᵥ, cᵥ], t2_abab [dᵥ, eᵥ, iₒ, lₒ], t2_abab [fᵥ, cᵥ, kₒ, jₒ]], [(1, [aᵥ, bᵥ, iₒ, jₒ])]⟩,
  -- line 2326: abef,klcd,edil,cfkj->abij
  ⟨1/2, [g_abab [aᵥ, bᵥ, eᵥ, fᵥ], l2_abab [kₒ, lₒ, cᵥ, dᵥ], t2_abab [eᵥ, dᵥ, iₒ, lₒ], t2_abab [cᵥ, fᵥ, kₒ, jₒ]], [(1, [aᵥ, bᵥ, iₒ, jₒ])]⟩,
  -- line 2329: abef,lkdc,edil,fcjk->abij
  ⟨1/2, [g_abab [aᵥ, bᵥ, eᵥ, fᵥ], l2_abab [lₒ, kₒ, dᵥ, cᵥ], t2_aaaa [eᵥ, dᵥ, iₒ, lₒ], t2_bbbb [fᵥ, cᵥ, jₒ, kₒ]], [(1, [aᵥ, bᵥ, iₒ, jₒ])]⟩,
  -- line 2332: abef,kldc,edil,fcjk->abij
  ⟨-1/2, [g_abab [aᵥ, bᵥ, eᵥ, fᵥ], l2_bbbb [kₒ, lₒ, dᵥ, cᵥ], t2_abab [eᵥ, dᵥ, iₒ, lₒ], t2_bbbb [fᵥ, cᵥ, jₒ, kₒ]], [(1, [aᵥ, bᵥ, iₒ, jₒ])]⟩
  ]

/-- `UT2/modify_T2resid_T4Qf1.py` 1222-2335, `residQf1_abab`. -/
def residQf1_abab : Prog := residQf1_abab_0 ++ (residQf1_abab_1 ++ (residQf1_abab_2 ++ (residQf1_abab_3 ++ (residQf1_abab_4 ++ (residQf1_abab_5 ++ (residQf1_abab_6 ++ (residQf1_abab_7 ++ (residQf1_abab_8 ++ (residQf1_abab_9)))))))))

end Verif.Gen
