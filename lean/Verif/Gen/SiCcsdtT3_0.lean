import Verif.Ein.Names
import Verif.Gen.Antisym

/-! Written by `/verif/tools/gen.py`. Programs read from `/repo/UT2`. -/

set_option maxRecDepth 100000

namespace Verif.Gen

open Verif.Ein Verif.Ein.N


/-- Part 0 of `ccsdt_t3_aaaaaa`. -/
def ccsdt_t3_aaaaaa_0 : Prog := [
  -- line 1348: lk,abcijl->abcijk
  ⟨-1, [f_aa [lₒ, kₒ], t3_aaaaaa [aᵥ, bᵥ, cᵥ, iₒ, jₒ, lₒ]], [(1, [aᵥ, bᵥ, cᵥ, iₒ, jₒ, kₒ]), (-1, [aᵥ, bᵥ, cᵥ, iₒ, kₒ, jₒ])]⟩,
  -- line 1352: li,abcjkl->abcijk
  ⟨-1, [f_aa [lₒ, iₒ], t3_aaaaaa [aᵥ, bᵥ, cᵥ, jₒ, kₒ, lₒ]], [(1, [aᵥ, bᵥ, cᵥ, iₒ, jₒ, kₒ])]⟩,
  -- line 1355: ad,dbcijk->abcijk
  ⟨1, [f_aa [aᵥ, dᵥ], t3_aaaaaa [dᵥ, bᵥ, cᵥ, iₒ, jₒ, kₒ]], [(1, [aᵥ, bᵥ, cᵥ, iₒ, jₒ, kₒ]), (-1, [bᵥ, aᵥ, cᵥ, iₒ, jₒ, kₒ])]⟩,
  -- line 1359: cd,dabijk->abcijk
  ⟨1, [f_aa [cᵥ, dᵥ], t3_aaaaaa [dᵥ, aᵥ, bᵥ, iₒ, jₒ, kₒ]], [(1, [aᵥ, bᵥ, cᵥ, iₒ, jₒ, kₒ])]⟩,
  -- line 1362: ld,dk,abcijl->abcijk
  ⟨-1, [f_aa [lₒ, dᵥ], t1_aa [dᵥ, kₒ], t3_aaaaaa [aᵥ, bᵥ, cᵥ, iₒ, jₒ, lₒ]], [(1, [aᵥ, bᵥ, cᵥ, iₒ, jₒ, kₒ]), (-1, [aᵥ, bᵥ, cᵥ, iₒ, kₒ, jₒ])]⟩,
  -- line 1366: ld,di,abcjkl->abcijk
  ⟨-1, [f_aa [lₒ, dᵥ], t1_aa [dᵥ, iₒ], t3_aaaaaa [aᵥ, bᵥ, cᵥ, jₒ, kₒ, lₒ]], [(1, [aᵥ, bᵥ, cᵥ, iₒ, jₒ, kₒ])]⟩,
  -- line 1369: ld,al,dbcijk->abcijk
  ⟨-1, [f_aa [lₒ, dᵥ], t1_aa [aᵥ, lₒ], t3_aaaaaa [dᵥ, bᵥ, cᵥ, iₒ, jₒ, kₒ]], [(1, [aᵥ, bᵥ, cᵥ, iₒ, jₒ, kₒ]), (-1, [bᵥ, aᵥ, cᵥ, iₒ, jₒ, kₒ])]⟩,
  -- line 1373: ld,cl,dabijk->abcijk
  ⟨-1, [f_aa [lₒ, dᵥ], t1_aa [cᵥ, lₒ], t3_aaaaaa [dᵥ, aᵥ, bᵥ, iₒ, jₒ, kₒ]], [(1, [aᵥ, bᵥ, cᵥ, iₒ, jₒ, kₒ])]⟩,
  -- line 1376: ld,dajk,bcil->abcijk
  ⟨-1, [f_aa [lₒ, dᵥ], t2_aaaa [dᵥ, aᵥ, jₒ, kₒ], t2_aaaa [bᵥ, cᵥ, iₒ, lₒ]], [(1, [aᵥ, bᵥ, cᵥ, iₒ, jₒ, kₒ]), (-1, [aᵥ, bᵥ, cᵥ, jₒ, iₒ, kₒ]), (-1, [bᵥ, aᵥ, cᵥ, iₒ, jₒ, kₒ]), (1, [bᵥ, aᵥ, cᵥ, jₒ, iₒ, kₒ])]⟩,
  -- line 1380: ld,daij,bckl->abcijk
  ⟨-1, [f_aa [lₒ, dᵥ], t2_aaaa [dᵥ, aᵥ, iₒ, jₒ], t2_aaaa [bᵥ, cᵥ, kₒ, lₒ]], [(1, [aᵥ, bᵥ, cᵥ, iₒ, jₒ, kₒ]), (-1, [bᵥ, aᵥ, cᵥ, iₒ, jₒ, kₒ])]⟩,
  -- line 1384: ld,dcjk,abil->abcijk
  ⟨-1, [f_aa [lₒ, dᵥ], t2_aaaa [dᵥ, cᵥ, jₒ, kₒ], t2_aaaa [aᵥ, bᵥ, iₒ, lₒ]], [(1, [aᵥ, bᵥ, cᵥ, iₒ, jₒ, kₒ]), (-1, [aᵥ, bᵥ, cᵥ, jₒ, iₒ, kₒ])]⟩,
  -- line 1388: ld,dcij,abkl->abcijk
  ⟨-1, [f_aa [lₒ, dᵥ], t2_aaaa [dᵥ, cᵥ, iₒ, jₒ], t2_aaaa [aᵥ, bᵥ, kₒ, lₒ]], [(1, [aᵥ, bᵥ, cᵥ, iₒ, jₒ, kₒ])]⟩,
  -- line 1391: lajk,bcil->abcijk
  ⟨-1, [g_aaaa [lₒ, aᵥ, jₒ, kₒ], t2_aaaa [bᵥ, cᵥ, iₒ, lₒ]], [(1, [aᵥ, bᵥ, cᵥ, iₒ, jₒ, kₒ]), (-1, [aᵥ, bᵥ, cᵥ, jₒ, iₒ, kₒ]), (-1, [bᵥ, aᵥ, cᵥ, iₒ, jₒ, kₒ]), (1, [bᵥ, aᵥ, cᵥ, jₒ, iₒ, kₒ])]⟩,
  -- line 1395: laij,bckl->abcijk
  ⟨-1, [g_aaaa [lₒ, aᵥ, iₒ, jₒ], t2_aaaa [bᵥ, cᵥ, kₒ, lₒ]], [(1, [aᵥ, bᵥ, cᵥ, iₒ, jₒ, kₒ]), (-1, [bᵥ, aᵥ, cᵥ, iₒ, jₒ, kₒ])]⟩,
  -- line 1399: lcjk,abil->abcijk
  ⟨-1, [g_aaaa [lₒ, cᵥ, jₒ, kₒ], t2_aaaa [aᵥ, bᵥ, iₒ, lₒ]], [(1, [aᵥ, bᵥ, cᵥ, iₒ, jₒ, kₒ]), (-1, [aᵥ, bᵥ, cᵥ, jₒ, iₒ, kₒ])]⟩,
  -- line 1403: lcij,abkl->abcijk
  ⟨-1, [g_aaaa [lₒ, cᵥ, iₒ, jₒ], t2_aaaa [aᵥ, bᵥ, kₒ, lₒ]], [(1, [aᵥ, bᵥ, cᵥ, iₒ, jₒ, kₒ])]⟩,
  -- line 1406: abdk,dcij->abcijk
  ⟨-1, [g_aaaa [aᵥ, bᵥ, dᵥ, kₒ], t2_aaaa [dᵥ, cᵥ, iₒ, jₒ]], [(1, [aᵥ, bᵥ, cᵥ, iₒ, jₒ, kₒ]), (-1, [aᵥ, bᵥ, cᵥ, iₒ, kₒ, jₒ]), (-1, [aᵥ, cᵥ, bᵥ, iₒ, jₒ, kₒ]), (1, [aᵥ, cᵥ, bᵥ, iₒ, kₒ, jₒ])]⟩,
  -- line 1410: abdi,dcjk->abcijk
  ⟨-1, [g_aaaa [aᵥ, bᵥ, dᵥ, iₒ], t2_aaaa [dᵥ, cᵥ, jₒ, kₒ]], [(1, [aᵥ, bᵥ, cᵥ, iₒ, jₒ, kₒ]), (-1, [aᵥ, cᵥ, bᵥ, iₒ, jₒ, kₒ])]⟩,
  -- line 1414: bcdk,daij->abcijk
  ⟨-1, [g_aaaa [bᵥ, cᵥ, dᵥ, kₒ], t2_aaaa [dᵥ, aᵥ, iₒ, jₒ]], [(1, [aᵥ, bᵥ, cᵥ, iₒ, jₒ, kₒ]), (-1, [aᵥ, bᵥ, cᵥ, iₒ, kₒ, jₒ])]⟩,
  -- line 1418: bcdi,dajk->abcijk
  ⟨-1, [g_aaaa [bᵥ, cᵥ, dᵥ, iₒ], t2_aaaa [dᵥ, aᵥ, jₒ, kₒ]], [(1, [aᵥ, bᵥ, cᵥ, iₒ, jₒ, kₒ])]⟩,
  -- line 1421: mljk,abciml->abcijk
  ⟨1/2, [g_aaaa [mₒ, lₒ, jₒ, kₒ], t3_aaaaaa [aᵥ, bᵥ, cᵥ, iₒ, mₒ, lₒ]], [(1, [aᵥ, bᵥ, cᵥ, iₒ, jₒ, kₒ]), (-1, [aᵥ, bᵥ, cᵥ, jₒ, iₒ, kₒ])]⟩,
  -- line 1425: mlij,abckml->abcijk
  ⟨1/2, [g_aaaa [mₒ, lₒ, iₒ, jₒ], t3_aaaaaa [aᵥ, bᵥ, cᵥ, kₒ, mₒ, lₒ]], [(1, [aᵥ, bᵥ, cᵥ, iₒ, jₒ, kₒ])]⟩,
  -- line 1428: ladk,dbcijl->abcijk
  ⟨1, [g_aaaa [lₒ, aᵥ, dᵥ, kₒ], t3_aaaaaa [dᵥ, bᵥ, cᵥ, iₒ, jₒ, lₒ]], [(1, [aᵥ, bᵥ, cᵥ, iₒ, jₒ, kₒ]), (-1, [aᵥ, bᵥ, cᵥ, iₒ, kₒ, jₒ]), (-1, [bᵥ, aᵥ, cᵥ, iₒ, jₒ, kₒ]), (1, [bᵥ, aᵥ, cᵥ, iₒ, kₒ, jₒ])]⟩,
  -- line 1432: alkd,cbdijl->abcijk
  ⟨-1, [g_abab [aᵥ, lₒ, kₒ, dᵥ], t3_aabaab [cᵥ, bᵥ, dᵥ, iₒ, jₒ, lₒ]], [(1, [aᵥ, bᵥ, cᵥ, iₒ, jₒ, kₒ]), (-1, [aᵥ, bᵥ, cᵥ, iₒ, kₒ, jₒ]), (-1, [bᵥ, aᵥ, cᵥ, iₒ, jₒ, kₒ]), (1, [bᵥ, aᵥ, cᵥ, iₒ, kₒ, jₒ])]⟩,
  -- line 1436: ladi,dbcjkl->abcijk
  ⟨1, [g_aaaa [lₒ, aᵥ, dᵥ, iₒ], t3_aaaaaa [dᵥ, bᵥ, cᵥ, jₒ, kₒ, lₒ]], [(1, [aᵥ, bᵥ, cᵥ, iₒ, jₒ, kₒ]), (-1, [bᵥ, aᵥ, cᵥ, iₒ, jₒ, kₒ])]⟩,
  -- line 1440: alid,cbdjkl->abcijk
  ⟨-1, [g_abab [aᵥ, lₒ, iₒ, dᵥ], t3_aabaab [cᵥ, bᵥ, dᵥ, jₒ, kₒ, lₒ]], [(1, [aᵥ, bᵥ, cᵥ, iₒ, jₒ, kₒ]), (-1, [bᵥ, aᵥ, cᵥ, iₒ, jₒ, kₒ])]⟩,
  -- line 1444: lcdk,dabijl->abcijk
  ⟨1, [g_aaaa [lₒ, cᵥ, dᵥ, kₒ], t3_aaaaaa [dᵥ, aᵥ, bᵥ, iₒ, jₒ, lₒ]], [(1, [aᵥ, bᵥ, cᵥ, iₒ, jₒ, kₒ]), (-1, [aᵥ, bᵥ, cᵥ, iₒ, kₒ, jₒ])]⟩,
  -- line 1448: clkd,badijl->abcijk
  ⟨-1, [g_abab [cᵥ, lₒ, kₒ, dᵥ], t3_aabaab [bᵥ, aᵥ, dᵥ, iₒ, jₒ, lₒ]], [(1, [aᵥ, bᵥ, cᵥ, iₒ, jₒ, kₒ]), (-1, [aᵥ, bᵥ, cᵥ, iₒ, kₒ, jₒ])]⟩,
  -- line 1452: lcdi,dabjkl->abcijk
  ⟨1, [g_aaaa [lₒ, cᵥ, dᵥ, iₒ], t3_aaaaaa [dᵥ, aᵥ, bᵥ, jₒ, kₒ, lₒ]], [(1, [aᵥ, bᵥ, cᵥ, iₒ, jₒ, kₒ])]⟩,
  -- line 1455: clid,badjkl->abcijk
  ⟨-1, [g_abab [cᵥ, lₒ, iₒ, dᵥ], t3_aabaab [bᵥ, aᵥ, dᵥ, jₒ, kₒ, lₒ]], [(1, [aᵥ, bᵥ, cᵥ, iₒ, jₒ, kₒ])]⟩,
  -- line 1458: abde,decijk->abcijk
  ⟨1/2, [g_aaaa [aᵥ, bᵥ, dᵥ, eᵥ], t3_aaaaaa [dᵥ, eᵥ, cᵥ, iₒ, jₒ, kₒ]], [(1, [aᵥ, bᵥ, cᵥ, iₒ, jₒ, kₒ]), (-1, [aᵥ, cᵥ, bᵥ, iₒ, jₒ, kₒ])]⟩,
  -- line 1462: bcde,deaijk->abcijk
  ⟨1/2, [g_aaaa [bᵥ, cᵥ, dᵥ, eᵥ], t3_aaaaaa [dᵥ, eᵥ, aᵥ, iₒ, jₒ, kₒ]], [(1, [aᵥ, bᵥ, cᵥ, iₒ, jₒ, kₒ])]⟩,
  -- line 1465: mljk,al,bcim->abcijk
  ⟨1, [g_aaaa [mₒ, lₒ, jₒ, kₒ], t1_aa [aᵥ, lₒ], t2_aaaa [bᵥ, cᵥ, iₒ, mₒ]], [(1, [aᵥ, bᵥ, cᵥ, iₒ, jₒ, kₒ]), (-1, [aᵥ, bᵥ, cᵥ, jₒ, iₒ, kₒ]), (-1, [bᵥ, aᵥ, cᵥ, iₒ, jₒ, kₒ]), (1, [bᵥ, aᵥ, cᵥ, jₒ, iₒ, kₒ])]⟩,
  -- line 1469: mljk,cl,abim->abcijk
  ⟨1, [g_aaaa [mₒ, lₒ, jₒ, kₒ], t1_aa [cᵥ, lₒ], t2_aaaa [aᵥ, bᵥ, iₒ, mₒ]], [(1, [aᵥ, bᵥ, cᵥ, iₒ, jₒ, kₒ]), (-1, [aᵥ, bᵥ, cᵥ, jₒ, iₒ, kₒ])]⟩,
  -- line 1473: mlij,al,bckm->abcijk
  ⟨1, [g_aaaa [mₒ, lₒ, iₒ, jₒ], t1_aa [aᵥ, lₒ], t2_aaaa [bᵥ, cᵥ, kₒ, mₒ]], [(1, [aᵥ, bᵥ, cᵥ, iₒ, jₒ, kₒ]), (-1, [bᵥ, aᵥ, cᵥ, iₒ, jₒ, kₒ])]⟩,
  -- line 1477: mlij,cl,abkm->abcijk
  ⟨1, [g_aaaa [mₒ, lₒ, iₒ, jₒ], t1_aa [cᵥ, lₒ], t2_aaaa [aᵥ, bᵥ, kₒ, mₒ]], [(1, [aᵥ, bᵥ, cᵥ, iₒ, jₒ, kₒ])]⟩,
  -- line 1480: ladk,dj,bcil->abcijk
  ⟨-1, [g_aaaa [lₒ, aᵥ, dᵥ, kₒ], t1_aa [dᵥ, jₒ], t2_aaaa [bᵥ, cᵥ, iₒ, lₒ]], [(1, [aᵥ, bᵥ, cᵥ, iₒ, jₒ, kₒ]), (-1, [aᵥ, bᵥ, cᵥ, jₒ, iₒ, kₒ]), (-1, [bᵥ, aᵥ, cᵥ, iₒ, jₒ, kₒ]), (1, [bᵥ, aᵥ, cᵥ, jₒ, iₒ, kₒ])]⟩,
  -- line 1484: ladk,bl,dcij->abcijk
  ⟨-1, [g_aaaa [lₒ, aᵥ, dᵥ, kₒ], t1_aa [bᵥ, lₒ], t2_aaaa [dᵥ, cᵥ, iₒ, jₒ]], [(1, [aᵥ, bᵥ, cᵥ, iₒ, jₒ, kₒ]), (-1, [aᵥ, bᵥ, cᵥ, iₒ, kₒ, jₒ]), (-1, [aᵥ, cᵥ, bᵥ, iₒ, jₒ, kₒ]), (1, [aᵥ, cᵥ, bᵥ, iₒ, kₒ, jₒ])]⟩,
  -- line 1488: ladj,dk,bcil->abcijk
  ⟨1, [g_aaaa [lₒ, aᵥ, dᵥ, jₒ], t1_aa [dᵥ, kₒ], t2_aaaa [bᵥ, cᵥ, iₒ, lₒ]], [(1, [aᵥ, bᵥ, cᵥ, iₒ, jₒ, kₒ]), (-1, [aᵥ, bᵥ, cᵥ, kₒ, jₒ, iₒ]), (-1, [bᵥ, aᵥ, cᵥ, iₒ, jₒ, kₒ]), (1, [bᵥ, aᵥ, cᵥ, kₒ, jₒ, iₒ])]⟩,
  -- line 1492: ladi,dk,bcjl->abcijk
  ⟨-1, [g_aaaa [lₒ, aᵥ, dᵥ, iₒ], t1_aa [dᵥ, kₒ], t2_aaaa [bᵥ, cᵥ, jₒ, lₒ]], [(1, [aᵥ, bᵥ, cᵥ, iₒ, jₒ, kₒ]), (-1, [aᵥ, bᵥ, cᵥ, iₒ, kₒ, jₒ]), (-1, [bᵥ, aᵥ, cᵥ, iₒ, jₒ, kₒ]), (1, [bᵥ, aᵥ, cᵥ, iₒ, kₒ, jₒ])]⟩
  ]

/-- Part 1 of `ccsdt_t3_aaaaaa`. -/
def ccsdt_t3_aaaaaa_1 : Prog := [
  -- line 1496: ladi,bl,dcjk->abcijk
  ⟨-1, [g_aaaa [lₒ, aᵥ, dᵥ, iₒ], t1_aa [bᵥ, lₒ], t2_aaaa [dᵥ, cᵥ, jₒ, kₒ]], [(1, [aᵥ, bᵥ, cᵥ, iₒ, jₒ, kₒ]), (-1, [aᵥ, cᵥ, bᵥ, iₒ, jₒ, kₒ])]⟩,
  -- line 1500: lbdk,al,dcij->abcijk
  ⟨1, [g_aaaa [lₒ, bᵥ, dᵥ, kₒ], t1_aa [aᵥ, lₒ], t2_aaaa [dᵥ, cᵥ, iₒ, jₒ]], [(1, [aᵥ, bᵥ, cᵥ, iₒ, jₒ, kₒ]), (-1, [aᵥ, bᵥ, cᵥ, iₒ, kₒ, jₒ]), (-1, [cᵥ, bᵥ, aᵥ, iₒ, jₒ, kₒ]), (1, [cᵥ, bᵥ, aᵥ, iₒ, kₒ, jₒ])]⟩,
  -- line 1504: lbdi,al,dcjk->abcijk
  ⟨1, [g_aaaa [lₒ, bᵥ, dᵥ, iₒ], t1_aa [aᵥ, lₒ], t2_aaaa [dᵥ, cᵥ, jₒ, kₒ]], [(1, [aᵥ, bᵥ, cᵥ, iₒ, jₒ, kₒ]), (-1, [cᵥ, bᵥ, aᵥ, iₒ, jₒ, kₒ])]⟩,
  -- line 1508: lcdk,dj,abil->abcijk
  ⟨-1, [g_aaaa [lₒ, cᵥ, dᵥ, kₒ], t1_aa [dᵥ, jₒ], t2_aaaa [aᵥ, bᵥ, iₒ, lₒ]], [(1, [aᵥ, bᵥ, cᵥ, iₒ, jₒ, kₒ]), (-1, [aᵥ, bᵥ, cᵥ, jₒ, iₒ, kₒ])]⟩,
  -- line 1512: lcdk,al,dbij->abcijk
  ⟨-1, [g_aaaa [lₒ, cᵥ, dᵥ, kₒ], t1_aa [aᵥ, lₒ], t2_aaaa [dᵥ, bᵥ, iₒ, jₒ]], [(1, [aᵥ, bᵥ, cᵥ, iₒ, jₒ, kₒ]), (-1, [aᵥ, bᵥ, cᵥ, iₒ, kₒ, jₒ]), (-1, [bᵥ, aᵥ, cᵥ, iₒ, jₒ, kₒ]), (1, [bᵥ, aᵥ, cᵥ, iₒ, kₒ, jₒ])]⟩,
  -- line 1516: lcdj,dk,abil->abcijk
  ⟨1, [g_aaaa [lₒ, cᵥ, dᵥ, jₒ], t1_aa [dᵥ, kₒ], t2_aaaa [aᵥ, bᵥ, iₒ, lₒ]], [(1, [aᵥ, bᵥ, cᵥ, iₒ, jₒ, kₒ]), (-1, [aᵥ, bᵥ, cᵥ, kₒ, jₒ, iₒ])]⟩,
  -- line 1520: lcdi,dk,abjl->abcijk
  ⟨-1, [g_aaaa [lₒ, cᵥ, dᵥ, iₒ], t1_aa [dᵥ, kₒ], t2_aaaa [aᵥ, bᵥ, jₒ, lₒ]], [(1, [aᵥ, bᵥ, cᵥ, iₒ, jₒ, kₒ]), (-1, [aᵥ, bᵥ, cᵥ, iₒ, kₒ, jₒ])]⟩,
  -- line 1524: lcdi,al,dbjk->abcijk
  ⟨-1, [g_aaaa [lₒ, cᵥ, dᵥ, iₒ], t1_aa [aᵥ, lₒ], t2_aaaa [dᵥ, bᵥ, jₒ, kₒ]], [(1, [aᵥ, bᵥ, cᵥ, iₒ, jₒ, kₒ]), (-1, [bᵥ, aᵥ, cᵥ, iₒ, jₒ, kₒ])]⟩,
  -- line 1528: abde,dk,ecij->abcijk
  ⟨1, [g_aaaa [aᵥ, bᵥ, dᵥ, eᵥ], t1_aa [dᵥ, kₒ], t2_aaaa [eᵥ, cᵥ, iₒ, jₒ]], [(1, [aᵥ, bᵥ, cᵥ, iₒ, jₒ, kₒ]), (-1, [aᵥ, bᵥ, cᵥ, iₒ, kₒ, jₒ]), (-1, [aᵥ, cᵥ, bᵥ, iₒ, jₒ, kₒ]), (1, [aᵥ, cᵥ, bᵥ, iₒ, kₒ, jₒ])]⟩,
  -- line 1532: abde,di,ecjk->abcijk
  ⟨1, [g_aaaa [aᵥ, bᵥ, dᵥ, eᵥ], t1_aa [dᵥ, iₒ], t2_aaaa [eᵥ, cᵥ, jₒ, kₒ]], [(1, [aᵥ, bᵥ, cᵥ, iₒ, jₒ, kₒ]), (-1, [aᵥ, cᵥ, bᵥ, iₒ, jₒ, kₒ])]⟩,
  -- line 1536: bcde,dk,eaij->abcijk
  ⟨1, [g_aaaa [bᵥ, cᵥ, dᵥ, eᵥ], t1_aa [dᵥ, kₒ], t2_aaaa [eᵥ, aᵥ, iₒ, jₒ]], [(1, [aᵥ, bᵥ, cᵥ, iₒ, jₒ, kₒ]), (-1, [aᵥ, bᵥ, cᵥ, iₒ, kₒ, jₒ])]⟩,
  -- line 1540: bcde,di,eajk->abcijk
  ⟨1, [g_aaaa [bᵥ, cᵥ, dᵥ, eᵥ], t1_aa [dᵥ, iₒ], t2_aaaa [eᵥ, aᵥ, jₒ, kₒ]], [(1, [aᵥ, bᵥ, cᵥ, iₒ, jₒ, kₒ])]⟩,
  -- line 1543: mldk,dl,abcijm->abcijk
  ⟨1, [g_aaaa [mₒ, lₒ, dᵥ, kₒ], t1_aa [dᵥ, lₒ], t3_aaaaaa [aᵥ, bᵥ, cᵥ, iₒ, jₒ, mₒ]], [(1, [aᵥ, bᵥ, cᵥ, iₒ, jₒ, kₒ]), (-1, [aᵥ, bᵥ, cᵥ, iₒ, kₒ, jₒ])]⟩,
  -- line 1547: mlkd,dl,abcijm->abcijk
  ⟨-1, [g_abab [mₒ, lₒ, kₒ, dᵥ], t1_bb [dᵥ, lₒ], t3_aaaaaa [aᵥ, bᵥ, cᵥ, iₒ, jₒ, mₒ]], [(1, [aᵥ, bᵥ, cᵥ, iₒ, jₒ, kₒ]), (-1, [aᵥ, bᵥ, cᵥ, iₒ, kₒ, jₒ])]⟩,
  -- line 1551: mldk,dj,abciml->abcijk
  ⟨1/2, [g_aaaa [mₒ, lₒ, dᵥ, kₒ], t1_aa [dᵥ, jₒ], t3_aaaaaa [aᵥ, bᵥ, cᵥ, iₒ, mₒ, lₒ]], [(1, [aᵥ, bᵥ, cᵥ, iₒ, jₒ, kₒ]), (-1, [aᵥ, bᵥ, cᵥ, jₒ, iₒ, kₒ])]⟩,
  -- line 1555: mldk,al,dbcijm->abcijk
  ⟨-1, [g_aaaa [mₒ, lₒ, dᵥ, kₒ], t1_aa [aᵥ, lₒ], t3_aaaaaa [dᵥ, bᵥ, cᵥ, iₒ, jₒ, mₒ]], [(1, [aᵥ, bᵥ, cᵥ, iₒ, jₒ, kₒ]), (-1, [aᵥ, bᵥ, cᵥ, iₒ, kₒ, jₒ]), (-1, [bᵥ, aᵥ, cᵥ, iₒ, jₒ, kₒ]), (1, [bᵥ, aᵥ, cᵥ, iₒ, kₒ, jₒ])]⟩,
  -- line 1559: lmkd,al,cbdijm->abcijk
  ⟨1, [g_abab [lₒ, mₒ, kₒ, dᵥ], t1_aa [aᵥ, lₒ], t3_aabaab [cᵥ, bᵥ, dᵥ, iₒ, jₒ, mₒ]], [(1, [aᵥ, bᵥ, cᵥ, iₒ, jₒ, kₒ]), (-1, [aᵥ, bᵥ, cᵥ, iₒ, kₒ, jₒ]), (-1, [bᵥ, aᵥ, cᵥ, iₒ, jₒ, kₒ]), (1, [bᵥ, aᵥ, cᵥ, iₒ, kₒ, jₒ])]⟩,
  -- line 1563: mldk,cl,dabijm->abcijk
  ⟨-1, [g_aaaa [mₒ, lₒ, dᵥ, kₒ], t1_aa [cᵥ, lₒ], t3_aaaaaa [dᵥ, aᵥ, bᵥ, iₒ, jₒ, mₒ]], [(1, [aᵥ, bᵥ, cᵥ, iₒ, jₒ, kₒ]), (-1, [aᵥ, bᵥ, cᵥ, iₒ, kₒ, jₒ])]⟩,
  -- line 1567: lmkd,cl,badijm->abcijk
  ⟨1, [g_abab [lₒ, mₒ, kₒ, dᵥ], t1_aa [cᵥ, lₒ], t3_aabaab [bᵥ, aᵥ, dᵥ, iₒ, jₒ, mₒ]], [(1, [aᵥ, bᵥ, cᵥ, iₒ, jₒ, kₒ]), (-1, [aᵥ, bᵥ, cᵥ, iₒ, kₒ, jₒ])]⟩,
  -- line 1571: mldj,dk,abciml->abcijk
  ⟨-1/2, [g_aaaa [mₒ, lₒ, dᵥ, jₒ], t1_aa [dᵥ, kₒ], t3_aaaaaa [aᵥ, bᵥ, cᵥ, iₒ, mₒ, lₒ]], [(1, [aᵥ, bᵥ, cᵥ, iₒ, jₒ, kₒ]), (-1, [aᵥ, bᵥ, cᵥ, kₒ, jₒ, iₒ])]⟩,
  -- line 1575: mldi,dl,abcjkm->abcijk
  ⟨1, [g_aaaa [mₒ, lₒ, dᵥ, iₒ], t1_aa [dᵥ, lₒ], t3_aaaaaa [aᵥ, bᵥ, cᵥ, jₒ, kₒ, mₒ]], [(1, [aᵥ, bᵥ, cᵥ, iₒ, jₒ, kₒ])]⟩,
  -- line 1578: mlid,dl,abcjkm->abcijk
  ⟨-1, [g_abab [mₒ, lₒ, iₒ, dᵥ], t1_bb [dᵥ, lₒ], t3_aaaaaa [aᵥ, bᵥ, cᵥ, jₒ, kₒ, mₒ]], [(1, [aᵥ, bᵥ, cᵥ, iₒ, jₒ, kₒ])]⟩,
  -- line 1581: mldi,dk,abcjml->abcijk
  ⟨1/2, [g_aaaa [mₒ, lₒ, dᵥ, iₒ], t1_aa [dᵥ, kₒ], t3_aaaaaa [aᵥ, bᵥ, cᵥ, jₒ, mₒ, lₒ]], [(1, [aᵥ, bᵥ, cᵥ, iₒ, jₒ, kₒ]), (-1, [aᵥ, bᵥ, cᵥ, iₒ, kₒ, jₒ])]⟩,
  -- line 1585: mldi,al,dbcjkm->abcijk
  ⟨-1, [g_aaaa [mₒ, lₒ, dᵥ, iₒ], t1_aa [aᵥ, lₒ], t3_aaaaaa [dᵥ, bᵥ, cᵥ, jₒ, kₒ, mₒ]], [(1, [aᵥ, bᵥ, cᵥ, iₒ, jₒ, kₒ]), (-1, [bᵥ, aᵥ, cᵥ, iₒ, jₒ, kₒ])]⟩,
  -- line 1589: lmid,al,cbdjkm->abcijk
  ⟨1, [g_abab [lₒ, mₒ, iₒ, dᵥ], t1_aa [aᵥ, lₒ], t3_aabaab [cᵥ, bᵥ, dᵥ, jₒ, kₒ, mₒ]], [(1, [aᵥ, bᵥ, cᵥ, iₒ, jₒ, kₒ]), (-1, [bᵥ, aᵥ, cᵥ, iₒ, jₒ, kₒ])]⟩,
  -- line 1593: mldi,cl,dabjkm->abcijk
  ⟨-1, [g_aaaa [mₒ, lₒ, dᵥ, iₒ], t1_aa [cᵥ, lₒ], t3_aaaaaa [dᵥ, aᵥ, bᵥ, jₒ, kₒ, mₒ]], [(1, [aᵥ, bᵥ, cᵥ, iₒ, jₒ, kₒ])]⟩,
  -- line 1596: lmid,cl,badjkm->abcijk
  ⟨1, [g_abab [lₒ, mₒ, iₒ, dᵥ], t1_aa [cᵥ, lₒ], t3_aabaab [bᵥ, aᵥ, dᵥ, jₒ, kₒ, mₒ]], [(1, [aᵥ, bᵥ, cᵥ, iₒ, jₒ, kₒ])]⟩,
  -- line 1599: lade,dl,ebcijk->abcijk
  ⟨1, [g_aaaa [lₒ, aᵥ, dᵥ, eᵥ], t1_aa [dᵥ, lₒ], t3_aaaaaa [eᵥ, bᵥ, cᵥ, iₒ, jₒ, kₒ]], [(1, [aᵥ, bᵥ, cᵥ, iₒ, jₒ, kₒ]), (-1, [bᵥ, aᵥ, cᵥ, iₒ, jₒ, kₒ])]⟩,
  -- line 1603: aled,dl,ebcijk->abcijk
  ⟨1, [g_abab [aᵥ, lₒ, eᵥ, dᵥ], t1_bb [dᵥ, lₒ], t3_aaaaaa [eᵥ, bᵥ, cᵥ, iₒ, jₒ, kₒ]], [(1, [aᵥ, bᵥ, cᵥ, iₒ, jₒ, kₒ]), (-1, [bᵥ, aᵥ, cᵥ, iₒ, jₒ, kₒ])]⟩,
  -- line 1607: lade,dk,ebcijl->abcijk
  ⟨-1, [g_aaaa [lₒ, aᵥ, dᵥ, eᵥ], t1_aa [dᵥ, kₒ], t3_aaaaaa [eᵥ, bᵥ, cᵥ, iₒ, jₒ, lₒ]], [(1, [aᵥ, bᵥ, cᵥ, iₒ, jₒ, kₒ]), (-1, [aᵥ, bᵥ, cᵥ, iₒ, kₒ, jₒ]), (-1, [bᵥ, aᵥ, cᵥ, iₒ, jₒ, kₒ]), (1, [bᵥ, aᵥ, cᵥ, iₒ, kₒ, jₒ])]⟩,
  -- line 1611: alde,dk,cbeijl->abcijk
  ⟨-1, [g_abab [aᵥ, lₒ, dᵥ, eᵥ], t1_aa [dᵥ, kₒ], t3_aabaab [cᵥ, bᵥ, eᵥ, iₒ, jₒ, lₒ]], [(1, [aᵥ, bᵥ, cᵥ, iₒ, jₒ, kₒ]), (-1, [aᵥ, bᵥ, cᵥ, iₒ, kₒ, jₒ]), (-1, [bᵥ, aᵥ, cᵥ, iₒ, jₒ, kₒ]), (1, [bᵥ, aᵥ, cᵥ, iₒ, kₒ, jₒ])]⟩,
  -- line 1615: lade,di,ebcjkl->abcijk
  ⟨-1, [g_aaaa [lₒ, aᵥ, dᵥ, eᵥ], t1_aa [dᵥ, iₒ], t3_aaaaaa [eᵥ, bᵥ, cᵥ, jₒ, kₒ, lₒ]], [(1, [aᵥ, bᵥ, cᵥ, iₒ, jₒ, kₒ]), (-1, [bᵥ, aᵥ, cᵥ, iₒ, jₒ, kₒ])]⟩,
  -- line 1619: alde,di,cbejkl->abcijk
  ⟨-1, [g_abab [aᵥ, lₒ, dᵥ, eᵥ], t1_aa [dᵥ, iₒ], t3_aabaab [cᵥ, bᵥ, eᵥ, jₒ, kₒ, lₒ]], [(1, [aᵥ, bᵥ, cᵥ, iₒ, jₒ, kₒ]), (-1, [bᵥ, aᵥ, cᵥ, iₒ, jₒ, kₒ])]⟩,
  -- line 1623: lade,bl,decijk->abcijk
  ⟨1/2, [g_aaaa [lₒ, aᵥ, dᵥ, eᵥ], t1_aa [bᵥ, lₒ], t3_aaaaaa [dᵥ, eᵥ, cᵥ, iₒ, jₒ, kₒ]], [(1, [aᵥ, bᵥ, cᵥ, iₒ, jₒ, kₒ]), (-1, [aᵥ, cᵥ, bᵥ, iₒ, jₒ, kₒ])]⟩,
  -- line 1627: lbde,al,decijk->abcijk
  ⟨-1/2, [g_aaaa [lₒ, bᵥ, dᵥ, eᵥ], t1_aa [aᵥ, lₒ], t3_aaaaaa [dᵥ, eᵥ, cᵥ, iₒ, jₒ, kₒ]], [(1, [aᵥ, bᵥ, cᵥ, iₒ, jₒ, kₒ]), (-1, [cᵥ, bᵥ, aᵥ, iₒ, jₒ, kₒ])]⟩,
  -- line 1631: lcde,dl,eabijk->abcijk
  ⟨1, [g_aaaa [lₒ, cᵥ, dᵥ, eᵥ], t1_aa [dᵥ, lₒ], t3_aaaaaa [eᵥ, aᵥ, bᵥ, iₒ, jₒ, kₒ]], [(1, [aᵥ, bᵥ, cᵥ, iₒ, jₒ, kₒ])]⟩,
  -- line 1634: cled,dl,eabijk->abcijk
  ⟨1, [g_abab [cᵥ, lₒ, eᵥ, dᵥ], t1_bb [dᵥ, lₒ], t3_aaaaaa [eᵥ, aᵥ, bᵥ, iₒ, jₒ, kₒ]], [(1, [aᵥ, bᵥ, cᵥ, iₒ, jₒ, kₒ])]⟩,
  -- line 1637: lcde,dk,eabijl->abcijk
  ⟨-1, [g_aaaa [lₒ, cᵥ, dᵥ, eᵥ], t1_aa [dᵥ, kₒ], t3_aaaaaa [eᵥ, aᵥ, bᵥ, iₒ, jₒ, lₒ]], [(1, [aᵥ, bᵥ, cᵥ, iₒ, jₒ, kₒ]), (-1, [aᵥ, bᵥ, cᵥ, iₒ, kₒ, jₒ])]⟩,
  -- line 1641: clde,dk,baeijl->abcijk
  ⟨-1, [g_abab [cᵥ, lₒ, dᵥ, eᵥ], t1_aa [dᵥ, kₒ], t3_aabaab [bᵥ, aᵥ, eᵥ, iₒ, jₒ, lₒ]], [(1, [aᵥ, bᵥ, cᵥ, iₒ, jₒ, kₒ]), (-1, [aᵥ, bᵥ, cᵥ, iₒ, kₒ, jₒ])]⟩,
  -- line 1645: lcde,di,eabjkl->abcijk
  ⟨-1, [g_aaaa [lₒ, cᵥ, dᵥ, eᵥ], t1_aa [dᵥ, iₒ], t3_aaaaaa [eᵥ, aᵥ, bᵥ, jₒ, kₒ, lₒ]], [(1, [aᵥ, bᵥ, cᵥ, iₒ, jₒ, kₒ])]⟩
  ]

/-- Part 2 of `ccsdt_t3_aaaaaa`. -/
def ccsdt_t3_aaaaaa_2 : Prog := [
  -- line 1648: clde,di,baejkl->abcijk
  ⟨-1, [g_abab [cᵥ, lₒ, dᵥ, eᵥ], t1_aa [dᵥ, iₒ], t3_aabaab [bᵥ, aᵥ, eᵥ, jₒ, kₒ, lₒ]], [(1, [aᵥ, bᵥ, cᵥ, iₒ, jₒ, kₒ])]⟩,
  -- line 1651: lcde,al,debijk->abcijk
  ⟨1/2, [g_aaaa [lₒ, cᵥ, dᵥ, eᵥ], t1_aa [aᵥ, lₒ], t3_aaaaaa [dᵥ, eᵥ, bᵥ, iₒ, jₒ, kₒ]], [(1, [aᵥ, bᵥ, cᵥ, iₒ, jₒ, kₒ]), (-1, [bᵥ, aᵥ, cᵥ, iₒ, jₒ, kₒ])]⟩,
  -- line 1655: mlde,dekl,abcijm->abcijk
  ⟨-1/2, [g_aaaa [mₒ, lₒ, dᵥ, eᵥ], t2_aaaa [dᵥ, eᵥ, kₒ, lₒ], t3_aaaaaa [aᵥ, bᵥ, cᵥ, iₒ, jₒ, mₒ]], [(1, [aᵥ, bᵥ, cᵥ, iₒ, jₒ, kₒ]), (-1, [aᵥ, bᵥ, cᵥ, iₒ, kₒ, jₒ])]⟩,
  -- line 1659: mlde,dekl,abcijm->abcijk
  ⟨-1/2, [g_abab [mₒ, lₒ, dᵥ, eᵥ], t2_abab [dᵥ, eᵥ, kₒ, lₒ], t3_aaaaaa [aᵥ, bᵥ, cᵥ, iₒ, jₒ, mₒ]], [(1, [aᵥ, bᵥ, cᵥ, iₒ, jₒ, kₒ]), (-1, [aᵥ, bᵥ, cᵥ, iₒ, kₒ, jₒ])]⟩,
  -- line 1663: mled,edkl,abcijm->abcijk
  ⟨-1/2, [g_abab [mₒ, lₒ, eᵥ, dᵥ], t2_abab [eᵥ, dᵥ, kₒ, lₒ], t3_aaaaaa [aᵥ, bᵥ, cᵥ, iₒ, jₒ, mₒ]], [(1, [aᵥ, bᵥ, cᵥ, iₒ, jₒ, kₒ]), (-1, [aᵥ, bᵥ, cᵥ, iₒ, kₒ, jₒ])]⟩,
  -- line 1667: mlde,deil,abcjkm->abcijk
  ⟨-1/2, [g_aaaa [mₒ, lₒ, dᵥ, eᵥ], t2_aaaa [dᵥ, eᵥ, iₒ, lₒ], t3_aaaaaa [aᵥ, bᵥ, cᵥ, jₒ, kₒ, mₒ]], [(1, [aᵥ, bᵥ, cᵥ, iₒ, jₒ, kₒ])]⟩,
  -- line 1670: mlde,deil,abcjkm->abcijk
  ⟨-1/2, [g_abab [mₒ, lₒ, dᵥ, eᵥ], t2_abab [dᵥ, eᵥ, iₒ, lₒ], t3_aaaaaa [aᵥ, bᵥ, cᵥ, jₒ, kₒ, mₒ]], [(1, [aᵥ, bᵥ, cᵥ, iₒ, jₒ, kₒ])]⟩,
  -- line 1673: mled,edil,abcjkm->abcijk
  ⟨-1/2, [g_abab [mₒ, lₒ, eᵥ, dᵥ], t2_abab [eᵥ, dᵥ, iₒ, lₒ], t3_aaaaaa [aᵥ, bᵥ, cᵥ, jₒ, kₒ, mₒ]], [(1, [aᵥ, bᵥ, cᵥ, iₒ, jₒ, kₒ])]⟩,
  -- line 1676: mlde,dejk,abciml->abcijk
  ⟨1/4, [g_aaaa [mₒ, lₒ, dᵥ, eᵥ], t2_aaaa [dᵥ, eᵥ, jₒ, kₒ], t3_aaaaaa [aᵥ, bᵥ, cᵥ, iₒ, mₒ, lₒ]], [(1, [aᵥ, bᵥ, cᵥ, iₒ, jₒ, kₒ]), (-1, [aᵥ, bᵥ, cᵥ, jₒ, iₒ, kₒ])]⟩,
  -- line 1680: mlde,deij,abckml->abcijk
  ⟨1/4, [g_aaaa [mₒ, lₒ, dᵥ, eᵥ], t2_aaaa [dᵥ, eᵥ, iₒ, jₒ], t3_aaaaaa [aᵥ, bᵥ, cᵥ, kₒ, mₒ, lₒ]], [(1, [aᵥ, bᵥ, cᵥ, iₒ, jₒ, kₒ])]⟩,
  -- line 1683: mlde,daml,ebcijk->abcijk
  ⟨-1/2, [g_aaaa [mₒ, lₒ, dᵥ, eᵥ], t2_aaaa [dᵥ, aᵥ, mₒ, lₒ], t3_aaaaaa [eᵥ, bᵥ, cᵥ, iₒ, jₒ, kₒ]], [(1, [aᵥ, bᵥ, cᵥ, iₒ, jₒ, kₒ]), (-1, [bᵥ, aᵥ, cᵥ, iₒ, jₒ, kₒ])]⟩,
  -- line 1687: mled,adml,ebcijk->abcijk
  ⟨-1/2, [g_abab [mₒ, lₒ, eᵥ, dᵥ], t2_abab [aᵥ, dᵥ, mₒ, lₒ], t3_aaaaaa [eᵥ, bᵥ, cᵥ, iₒ, jₒ, kₒ]], [(1, [aᵥ, bᵥ, cᵥ, iₒ, jₒ, kₒ]), (-1, [bᵥ, aᵥ, cᵥ, iₒ, jₒ, kₒ])]⟩,
  -- line 1691: lmed,adlm,ebcijk->abcijk
  ⟨-1/2, [g_abab [lₒ, mₒ, eᵥ, dᵥ], t2_abab [aᵥ, dᵥ, lₒ, mₒ], t3_aaaaaa [eᵥ, bᵥ, cᵥ, iₒ, jₒ, kₒ]], [(1, [aᵥ, bᵥ, cᵥ, iₒ, jₒ, kₒ]), (-1, [bᵥ, aᵥ, cᵥ, iₒ, jₒ, kₒ])]⟩,
  -- line 1695: mlde,dakl,ebcijm->abcijk
  ⟨100000000000001/100000000000000, [g_aaaa [mₒ, lₒ, dᵥ, eᵥ], t2_aaaa [dᵥ, aᵥ, kₒ, lₒ], t3_aaaaaa [eᵥ, bᵥ, cᵥ, iₒ, jₒ, mₒ]], [(1, [aᵥ, bᵥ, cᵥ, iₒ, jₒ, kₒ]), (-1, [aᵥ, bᵥ, cᵥ, iₒ, kₒ, jₒ]), (-1, [bᵥ, aᵥ, cᵥ, iₒ, jₒ, kₒ]), (1, [bᵥ, aᵥ, cᵥ, iₒ, kₒ, jₒ])]⟩,
  -- line 1699: lmde,dakl,cbeijm->abcijk
  ⟨100000000000001/100000000000000, [g_abab [lₒ, mₒ, dᵥ, eᵥ], t2_aaaa [dᵥ, aᵥ, kₒ, lₒ], t3_aabaab [cᵥ, bᵥ, eᵥ, iₒ, jₒ, mₒ]], [(1, [aᵥ, bᵥ, cᵥ, iₒ, jₒ, kₒ]), (-1, [aᵥ, bᵥ, cᵥ, iₒ, kₒ, jₒ]), (-1, [bᵥ, aᵥ, cᵥ, iₒ, jₒ, kₒ]), (1, [bᵥ, aᵥ, cᵥ, iₒ, kₒ, jₒ])]⟩,
  -- line 1703: mled,adkl,ebcijm->abcijk
  ⟨100000000000001/100000000000000, [g_abab [mₒ, lₒ, eᵥ, dᵥ], t2_abab [aᵥ, dᵥ, kₒ, lₒ], t3_aaaaaa [eᵥ, bᵥ, cᵥ, iₒ, jₒ, mₒ]], [(1, [aᵥ, bᵥ, cᵥ, iₒ, jₒ, kₒ]), (-1, [aᵥ, bᵥ, cᵥ, iₒ, kₒ, jₒ]), (-1, [bᵥ, aᵥ, cᵥ, iₒ, jₒ, kₒ]), (1, [bᵥ, aᵥ, cᵥ, iₒ, kₒ, jₒ])]⟩,
  -- line 1707: mlde,adkl,cbeijm->abcijk
  ⟨100000000000001/100000000000000, [g_bbbb [mₒ, lₒ, dᵥ, eᵥ], t2_abab [aᵥ, dᵥ, kₒ, lₒ], t3_aabaab [cᵥ, bᵥ, eᵥ, iₒ, jₒ, mₒ]], [(1, [aᵥ, bᵥ, cᵥ, iₒ, jₒ, kₒ]), (-1, [aᵥ, bᵥ, cᵥ, iₒ, kₒ, jₒ]), (-1, [bᵥ, aᵥ, cᵥ, iₒ, jₒ, kₒ]), (1, [bᵥ, aᵥ, cᵥ, iₒ, kₒ, jₒ])]⟩,
  -- line 1711: mlde,dail,ebcjkm->abcijk
  ⟨100000000000001/100000000000000, [g_aaaa [mₒ, lₒ, dᵥ, eᵥ], t2_aaaa [dᵥ, aᵥ, iₒ, lₒ], t3_aaaaaa [eᵥ, bᵥ, cᵥ, jₒ, kₒ, mₒ]], [(1, [aᵥ, bᵥ, cᵥ, iₒ, jₒ, kₒ]), (-1, [bᵥ, aᵥ, cᵥ, iₒ, jₒ, kₒ])]⟩,
  -- line 1715: lmde,dail,cbejkm->abcijk
  ⟨100000000000001/100000000000000, [g_abab [lₒ, mₒ, dᵥ, eᵥ], t2_aaaa [dᵥ, aᵥ, iₒ, lₒ], t3_aabaab [cᵥ, bᵥ, eᵥ, jₒ, kₒ, mₒ]], [(1, [aᵥ, bᵥ, cᵥ, iₒ, jₒ, kₒ]), (-1, [bᵥ, aᵥ, cᵥ, iₒ, jₒ, kₒ])]⟩,
  -- line 1719: mled,adil,ebcjkm->abcijk
  ⟨100000000000001/100000000000000, [g_abab [mₒ, lₒ, eᵥ, dᵥ], t2_abab [aᵥ, dᵥ, iₒ, lₒ], t3_aaaaaa [eᵥ, bᵥ, cᵥ, jₒ, kₒ, mₒ]], [(1, [aᵥ, bᵥ, cᵥ, iₒ, jₒ, kₒ]), (-1, [bᵥ, aᵥ, cᵥ, iₒ, jₒ, kₒ])]⟩,
  -- line 1723: mlde,adil,cbejkm->abcijk
  ⟨100000000000001/100000000000000, [g_bbbb [mₒ, lₒ, dᵥ, eᵥ], t2_abab [aᵥ, dᵥ, iₒ, lₒ], t3_aabaab [cᵥ, bᵥ, eᵥ, jₒ, kₒ, mₒ]], [(1, [aᵥ, bᵥ, cᵥ, iₒ, jₒ, kₒ]), (-1, [bᵥ, aᵥ, cᵥ, iₒ, jₒ, kₒ])]⟩,
  -- line 1727: mlde,dajk,ebciml->abcijk
  ⟨-1/2, [g_aaaa [mₒ, lₒ, dᵥ, eᵥ], t2_aaaa [dᵥ, aᵥ, jₒ, kₒ], t3_aaaaaa [eᵥ, bᵥ, cᵥ, iₒ, mₒ, lₒ]], [(1, [aᵥ, bᵥ, cᵥ, iₒ, jₒ, kₒ]), (-1, [aᵥ, bᵥ, cᵥ, jₒ, iₒ, kₒ]), (-1, [bᵥ, aᵥ, cᵥ, iₒ, jₒ, kₒ]), (1, [bᵥ, aᵥ, cᵥ, jₒ, iₒ, kₒ])]⟩,
  -- line 1731: mlde,dajk,cbeiml->abcijk
  ⟨1/2, [g_abab [mₒ, lₒ, dᵥ, eᵥ], t2_aaaa [dᵥ, aᵥ, jₒ, kₒ], t3_aabaab [cᵥ, bᵥ, eᵥ, iₒ, mₒ, lₒ]], [(1, [aᵥ, bᵥ, cᵥ, iₒ, jₒ, kₒ]), (-1, [aᵥ, bᵥ, cᵥ, jₒ, iₒ, kₒ]), (-1, [bᵥ, aᵥ, cᵥ, iₒ, jₒ, kₒ]), (1, [bᵥ, aᵥ, cᵥ, jₒ, iₒ, kₒ])]⟩,
  -- line 1735: lmde,dajk,cbeilm->abcijk
  ⟨1/2, [g_abab [lₒ, mₒ, dᵥ, eᵥ], t2_aaaa [dᵥ, aᵥ, jₒ, kₒ], t3_aabaab [cᵥ, bᵥ, eᵥ, iₒ, lₒ, mₒ]], [(1, [aᵥ, bᵥ, cᵥ, iₒ, jₒ, kₒ]), (-1, [aᵥ, bᵥ, cᵥ, jₒ, iₒ, kₒ]), (-1, [bᵥ, aᵥ, cᵥ, iₒ, jₒ, kₒ]), (1, [bᵥ, aᵥ, cᵥ, jₒ, iₒ, kₒ])]⟩,
  -- line 1739: mlde,daij,ebckml->abcijk
  ⟨-1/2, [g_aaaa [mₒ, lₒ, dᵥ, eᵥ], t2_aaaa [dᵥ, aᵥ, iₒ, jₒ], t3_aaaaaa [eᵥ, bᵥ, cᵥ, kₒ, mₒ, lₒ]], [(1, [aᵥ, bᵥ, cᵥ, iₒ, jₒ, kₒ]), (-1, [bᵥ, aᵥ, cᵥ, iₒ, jₒ, kₒ])]⟩,
  -- line 1743: mlde,daij,cbekml->abcijk
  ⟨1/2, [g_abab [mₒ, lₒ, dᵥ, eᵥ], t2_aaaa [dᵥ, aᵥ, iₒ, jₒ], t3_aabaab [cᵥ, bᵥ, eᵥ, kₒ, mₒ, lₒ]], [(1, [aᵥ, bᵥ, cᵥ, iₒ, jₒ, kₒ]), (-1, [bᵥ, aᵥ, cᵥ, iₒ, jₒ, kₒ])]⟩,
  -- line 1747: lmde,daij,cbeklm->abcijk
  ⟨1/2, [g_abab [lₒ, mₒ, dᵥ, eᵥ], t2_aaaa [dᵥ, aᵥ, iₒ, jₒ], t3_aabaab [cᵥ, bᵥ, eᵥ, kₒ, lₒ, mₒ]], [(1, [aᵥ, bᵥ, cᵥ, iₒ, jₒ, kₒ]), (-1, [bᵥ, aᵥ, cᵥ, iₒ, jₒ, kₒ])]⟩,
  -- line 1751: mlde,dcml,eabijk->abcijk
  ⟨-1/2, [g_aaaa [mₒ, lₒ, dᵥ, eᵥ], t2_aaaa [dᵥ, cᵥ, mₒ, lₒ], t3_aaaaaa [eᵥ, aᵥ, bᵥ, iₒ, jₒ, kₒ]], [(1, [aᵥ, bᵥ, cᵥ, iₒ, jₒ, kₒ])]⟩,
  -- line 1754: mled,cdml,eabijk->abcijk
  ⟨-1/2, [g_abab [mₒ, lₒ, eᵥ, dᵥ], t2_abab [cᵥ, dᵥ, mₒ, lₒ], t3_aaaaaa [eᵥ, aᵥ, bᵥ, iₒ, jₒ, kₒ]], [(1, [aᵥ, bᵥ, cᵥ, iₒ, jₒ, kₒ])]⟩,
  -- line 1757: lmed,cdlm,eabijk->abcijk
  ⟨-1/2, [g_abab [lₒ, mₒ, eᵥ, dᵥ], t2_abab [cᵥ, dᵥ, lₒ, mₒ], t3_aaaaaa [eᵥ, aᵥ, bᵥ, iₒ, jₒ, kₒ]], [(1, [aᵥ, bᵥ, cᵥ, iₒ, jₒ, kₒ])]⟩,
  -- line 1760: mlde,dckl,eabijm->abcijk
  ⟨100000000000001/100000000000000, [g_aaaa [mₒ, lₒ, dᵥ, eᵥ], t2_aaaa [dᵥ, cᵥ, kₒ, lₒ], t3_aaaaaa [eᵥ, aᵥ, bᵥ, iₒ, jₒ, mₒ]], [(1, [aᵥ, bᵥ, cᵥ, iₒ, jₒ, kₒ]), (-1, [aᵥ, bᵥ, cᵥ, iₒ, kₒ, jₒ])]⟩,
  -- line 1764: lmde,dckl,baeijm->abcijk
  ⟨100000000000001/100000000000000, [g_abab [lₒ, mₒ, dᵥ, eᵥ], t2_aaaa [dᵥ, cᵥ, kₒ, lₒ], t3_aabaab [bᵥ, aᵥ, eᵥ, iₒ, jₒ, mₒ]], [(1, [aᵥ, bᵥ, cᵥ, iₒ, jₒ, kₒ]), (-1, [aᵥ, bᵥ, cᵥ, iₒ, kₒ, jₒ])]⟩,
  -- line 1768: mled,cdkl,eabijm->abcijk
  ⟨100000000000001/100000000000000, [g_abab [mₒ, lₒ, eᵥ, dᵥ], t2_abab [cᵥ, dᵥ, kₒ, lₒ], t3_aaaaaa [eᵥ, aᵥ, bᵥ, iₒ, jₒ, mₒ]], [(1, [aᵥ, bᵥ, cᵥ, iₒ, jₒ, kₒ]), (-1, [aᵥ, bᵥ, cᵥ, iₒ, kₒ, jₒ])]⟩,
  -- line 1772: mlde,cdkl,baeijm->abcijk
  ⟨100000000000001/100000000000000, [g_bbbb [mₒ, lₒ, dᵥ, eᵥ], t2_abab [cᵥ, dᵥ, kₒ, lₒ], t3_aabaab [bᵥ, aᵥ, eᵥ, iₒ, jₒ, mₒ]], [(1, [aᵥ, bᵥ, cᵥ, iₒ, jₒ, kₒ]), (-1, [aᵥ, bᵥ, cᵥ, iₒ, kₒ, jₒ])]⟩,
  -- line 1776: mlde,dcil,eabjkm->abcijk
  ⟨100000000000001/100000000000000, [g_aaaa [mₒ, lₒ, dᵥ, eᵥ], t2_aaaa [dᵥ, cᵥ, iₒ, lₒ], t3_aaaaaa [eᵥ, aᵥ, bᵥ, jₒ, kₒ, mₒ]], [(1, [aᵥ, bᵥ, cᵥ, iₒ, jₒ, kₒ])]⟩,
  -- line 1779: lmde,dcil,baejkm->abcijk
  ⟨100000000000001/100000000000000, [g_abab [lₒ, mₒ, dᵥ, eᵥ], t2_aaaa [dᵥ, cᵥ, iₒ, lₒ], t3_aabaab [bᵥ, aᵥ, eᵥ, jₒ, kₒ, mₒ]], [(1, [aᵥ, bᵥ, cᵥ, iₒ, jₒ, kₒ])]⟩,
  -- line 1782: mled,cdil,eabjkm->abcijk
  ⟨100000000000001/100000000000000, [g_abab [mₒ, lₒ, eᵥ, dᵥ], t2_abab [cᵥ, dᵥ, iₒ, lₒ], t3_aaaaaa [eᵥ, aᵥ, bᵥ, jₒ, kₒ, mₒ]], [(1, [aᵥ, bᵥ, cᵥ, iₒ, jₒ, kₒ])]⟩,
  -- line 1785: mlde,cdil,baejkm->abcijk
  ⟨100000000000001/100000000000000, [g_bbbb [mₒ, lₒ, dᵥ, eᵥ], t2_abab [cᵥ, dᵥ, iₒ, lₒ], t3_aabaab [bᵥ, aᵥ, eᵥ, jₒ, kₒ, mₒ]], [(1, [aᵥ, bᵥ, cᵥ, iₒ, jₒ, kₒ])]⟩,
  -- line 1788: mlde,dcjk,eabiml->abcijk
  ⟨-1/2, [g_aaaa [mₒ, lₒ, dᵥ, eᵥ], t2_aaaa [dᵥ, cᵥ, jₒ, kₒ], t3_aaaaaa [eᵥ, aᵥ, bᵥ, iₒ, mₒ, lₒ]], [(1, [aᵥ, bᵥ, cᵥ, iₒ, jₒ, kₒ]), (-1, [aᵥ, bᵥ, cᵥ, jₒ, iₒ, kₒ])]⟩,
  -- line 1792: mlde,dcjk,baeiml->abcijk
  ⟨1/2, [g_abab [mₒ, lₒ, dᵥ, eᵥ], t2_aaaa [dᵥ, cᵥ, jₒ, kₒ], t3_aabaab [bᵥ, aᵥ, eᵥ, iₒ, mₒ, lₒ]], [(1, [aᵥ, bᵥ, cᵥ, iₒ, jₒ, kₒ]), (-1, [aᵥ, bᵥ, cᵥ, jₒ, iₒ, kₒ])]⟩
  ]

/-- Part 3 of `ccsdt_t3_aaaaaa`. -/
def ccsdt_t3_aaaaaa_3 : Prog := [
  -- line 1796: lmde,dcjk,baeilm->abcijk
  ⟨1/2, [g_abab [lₒ, mₒ, dᵥ, eᵥ], t2_aaaa [dᵥ, cᵥ, jₒ, kₒ], t3_aabaab [bᵥ, aᵥ, eᵥ, iₒ, lₒ, mₒ]], [(1, [aᵥ, bᵥ, cᵥ, iₒ, jₒ, kₒ]), (-1, [aᵥ, bᵥ, cᵥ, jₒ, iₒ, kₒ])]⟩,
  -- line 1800: mlde,dcij,eabkml->abcijk
  ⟨-1/2, [g_aaaa [mₒ, lₒ, dᵥ, eᵥ], t2_aaaa [dᵥ, cᵥ, iₒ, jₒ], t3_aaaaaa [eᵥ, aᵥ, bᵥ, kₒ, mₒ, lₒ]], [(1, [aᵥ, bᵥ, cᵥ, iₒ, jₒ, kₒ])]⟩,
  -- line 1803: mlde,dcij,baekml->abcijk
  ⟨1/2, [g_abab [mₒ, lₒ, dᵥ, eᵥ], t2_aaaa [dᵥ, cᵥ, iₒ, jₒ], t3_aabaab [bᵥ, aᵥ, eᵥ, kₒ, mₒ, lₒ]], [(1, [aᵥ, bᵥ, cᵥ, iₒ, jₒ, kₒ])]⟩,
  -- line 1806: lmde,dcij,baeklm->abcijk
  ⟨1/2, [g_abab [lₒ, mₒ, dᵥ, eᵥ], t2_aaaa [dᵥ, cᵥ, iₒ, jₒ], t3_aabaab [bᵥ, aᵥ, eᵥ, kₒ, lₒ, mₒ]], [(1, [aᵥ, bᵥ, cᵥ, iₒ, jₒ, kₒ])]⟩,
  -- line 1809: mlde,abml,decijk->abcijk
  ⟨1/4, [g_aaaa [mₒ, lₒ, dᵥ, eᵥ], t2_aaaa [aᵥ, bᵥ, mₒ, lₒ], t3_aaaaaa [dᵥ, eᵥ, cᵥ, iₒ, jₒ, kₒ]], [(1, [aᵥ, bᵥ, cᵥ, iₒ, jₒ, kₒ]), (-1, [aᵥ, cᵥ, bᵥ, iₒ, jₒ, kₒ])]⟩,
  -- line 1813: mlde,abkl,decijm->abcijk
  ⟨-1/2, [g_aaaa [mₒ, lₒ, dᵥ, eᵥ], t2_aaaa [aᵥ, bᵥ, kₒ, lₒ], t3_aaaaaa [dᵥ, eᵥ, cᵥ, iₒ, jₒ, mₒ]], [(1, [aᵥ, bᵥ, cᵥ, iₒ, jₒ, kₒ]), (-1, [aᵥ, bᵥ, cᵥ, iₒ, kₒ, jₒ]), (-1, [aᵥ, cᵥ, bᵥ, iₒ, jₒ, kₒ]), (1, [aᵥ, cᵥ, bᵥ, iₒ, kₒ, jₒ])]⟩,
  -- line 1817: lmde,abkl,dceijm->abcijk
  ⟨-1/2, [g_abab [lₒ, mₒ, dᵥ, eᵥ], t2_aaaa [aᵥ, bᵥ, kₒ, lₒ], t3_aabaab [dᵥ, cᵥ, eᵥ, iₒ, jₒ, mₒ]], [(1, [aᵥ, bᵥ, cᵥ, iₒ, jₒ, kₒ]), (-1, [aᵥ, bᵥ, cᵥ, iₒ, kₒ, jₒ]), (-1, [aᵥ, cᵥ, bᵥ, iₒ, jₒ, kₒ]), (1, [aᵥ, cᵥ, bᵥ, iₒ, kₒ, jₒ])]⟩,
  -- line 1821: lmed,abkl,cedijm->abcijk
  ⟨1/2, [g_abab [lₒ, mₒ, eᵥ, dᵥ], t2_aaaa [aᵥ, bᵥ, kₒ, lₒ], t3_aabaab [cᵥ, eᵥ, dᵥ, iₒ, jₒ, mₒ]], [(1, [aᵥ, bᵥ, cᵥ, iₒ, jₒ, kₒ]), (-1, [aᵥ, bᵥ, cᵥ, iₒ, kₒ, jₒ]), (-1, [aᵥ, cᵥ, bᵥ, iₒ, jₒ, kₒ]), (1, [aᵥ, cᵥ, bᵥ, iₒ, kₒ, jₒ])]⟩,
  -- line 1825: mlde,abil,decjkm->abcijk
  ⟨-1/2, [g_aaaa [mₒ, lₒ, dᵥ, eᵥ], t2_aaaa [aᵥ, bᵥ, iₒ, lₒ], t3_aaaaaa [dᵥ, eᵥ, cᵥ, jₒ, kₒ, mₒ]], [(1, [aᵥ, bᵥ, cᵥ, iₒ, jₒ, kₒ]), (-1, [aᵥ, cᵥ, bᵥ, iₒ, jₒ, kₒ])]⟩,
  -- line 1829: lmde,abil,dcejkm->abcijk
  ⟨-1/2, [g_abab [lₒ, mₒ, dᵥ, eᵥ], t2_aaaa [aᵥ, bᵥ, iₒ, lₒ], t3_aabaab [dᵥ, cᵥ, eᵥ, jₒ, kₒ, mₒ]], [(1, [aᵥ, bᵥ, cᵥ, iₒ, jₒ, kₒ]), (-1, [aᵥ, cᵥ, bᵥ, iₒ, jₒ, kₒ])]⟩,
  -- line 1833: lmed,abil,cedjkm->abcijk
  ⟨1/2, [g_abab [lₒ, mₒ, eᵥ, dᵥ], t2_aaaa [aᵥ, bᵥ, iₒ, lₒ], t3_aabaab [cᵥ, eᵥ, dᵥ, jₒ, kₒ, mₒ]], [(1, [aᵥ, bᵥ, cᵥ, iₒ, jₒ, kₒ]), (-1, [aᵥ, cᵥ, bᵥ, iₒ, jₒ, kₒ])]⟩,
  -- line 1837: mlde,bcml,deaijk->abcijk
  ⟨1/4, [g_aaaa [mₒ, lₒ, dᵥ, eᵥ], t2_aaaa [bᵥ, cᵥ, mₒ, lₒ], t3_aaaaaa [dᵥ, eᵥ, aᵥ, iₒ, jₒ, kₒ]], [(1, [aᵥ, bᵥ, cᵥ, iₒ, jₒ, kₒ])]⟩,
  -- line 1840: mlde,bckl,deaijm->abcijk
  ⟨-1/2, [g_aaaa [mₒ, lₒ, dᵥ, eᵥ], t2_aaaa [bᵥ, cᵥ, kₒ, lₒ], t3_aaaaaa [dᵥ, eᵥ, aᵥ, iₒ, jₒ, mₒ]], [(1, [aᵥ, bᵥ, cᵥ, iₒ, jₒ, kₒ]), (-1, [aᵥ, bᵥ, cᵥ, iₒ, kₒ, jₒ])]⟩,
  -- line 1844: lmde,bckl,daeijm->abcijk
  ⟨-1/2, [g_abab [lₒ, mₒ, dᵥ, eᵥ], t2_aaaa [bᵥ, cᵥ, kₒ, lₒ], t3_aabaab [dᵥ, aᵥ, eᵥ, iₒ, jₒ, mₒ]], [(1, [aᵥ, bᵥ, cᵥ, iₒ, jₒ, kₒ]), (-1, [aᵥ, bᵥ, cᵥ, iₒ, kₒ, jₒ])]⟩,
  -- line 1848: lmed,bckl,aedijm->abcijk
  ⟨1/2, [g_abab [lₒ, mₒ, eᵥ, dᵥ], t2_aaaa [bᵥ, cᵥ, kₒ, lₒ], t3_aabaab [aᵥ, eᵥ, dᵥ, iₒ, jₒ, mₒ]], [(1, [aᵥ, bᵥ, cᵥ, iₒ, jₒ, kₒ]), (-1, [aᵥ, bᵥ, cᵥ, iₒ, kₒ, jₒ])]⟩,
  -- line 1852: mlde,bcil,deajkm->abcijk
  ⟨-1/2, [g_aaaa [mₒ, lₒ, dᵥ, eᵥ], t2_aaaa [bᵥ, cᵥ, iₒ, lₒ], t3_aaaaaa [dᵥ, eᵥ, aᵥ, jₒ, kₒ, mₒ]], [(1, [aᵥ, bᵥ, cᵥ, iₒ, jₒ, kₒ])]⟩,
  -- line 1855: lmde,bcil,daejkm->abcijk
  ⟨-1/2, [g_abab [lₒ, mₒ, dᵥ, eᵥ], t2_aaaa [bᵥ, cᵥ, iₒ, lₒ], t3_aabaab [dᵥ, aᵥ, eᵥ, jₒ, kₒ, mₒ]], [(1, [aᵥ, bᵥ, cᵥ, iₒ, jₒ, kₒ])]⟩,
  -- line 1858: lmed,bcil,aedjkm->abcijk
  ⟨1/2, [g_abab [lₒ, mₒ, eᵥ, dᵥ], t2_aaaa [bᵥ, cᵥ, iₒ, lₒ], t3_aabaab [aᵥ, eᵥ, dᵥ, jₒ, kₒ, mₒ]], [(1, [aᵥ, bᵥ, cᵥ, iₒ, jₒ, kₒ])]⟩,
  -- line 1861: mldk,dajl,bcim->abcijk
  ⟨1, [g_aaaa [mₒ, lₒ, dᵥ, kₒ], t2_aaaa [dᵥ, aᵥ, jₒ, lₒ], t2_aaaa [bᵥ, cᵥ, iₒ, mₒ]], [(1, [aᵥ, bᵥ, cᵥ, iₒ, jₒ, kₒ]), (-1, [aᵥ, bᵥ, cᵥ, jₒ, iₒ, kₒ]), (-1, [bᵥ, aᵥ, cᵥ, iₒ, jₒ, kₒ]), (1, [bᵥ, aᵥ, cᵥ, jₒ, iₒ, kₒ])]⟩,
  -- line 1865: mlkd,adjl,bcim->abcijk
  ⟨1, [g_abab [mₒ, lₒ, kₒ, dᵥ], t2_abab [aᵥ, dᵥ, jₒ, lₒ], t2_aaaa [bᵥ, cᵥ, iₒ, mₒ]], [(1, [aᵥ, bᵥ, cᵥ, iₒ, jₒ, kₒ]), (-1, [aᵥ, bᵥ, cᵥ, jₒ, iₒ, kₒ]), (-1, [bᵥ, aᵥ, cᵥ, iₒ, jₒ, kₒ]), (1, [bᵥ, aᵥ, cᵥ, jₒ, iₒ, kₒ])]⟩,
  -- line 1869: mldk,daij,bcml->abcijk
  ⟨-1/2, [g_aaaa [mₒ, lₒ, dᵥ, kₒ], t2_aaaa [dᵥ, aᵥ, iₒ, jₒ], t2_aaaa [bᵥ, cᵥ, mₒ, lₒ]], [(1, [aᵥ, bᵥ, cᵥ, iₒ, jₒ, kₒ]), (-1, [aᵥ, bᵥ, cᵥ, iₒ, kₒ, jₒ]), (-1, [bᵥ, aᵥ, cᵥ, iₒ, jₒ, kₒ]), (1, [bᵥ, aᵥ, cᵥ, iₒ, kₒ, jₒ])]⟩,
  -- line 1873: mldk,dcjl,abim->abcijk
  ⟨1, [g_aaaa [mₒ, lₒ, dᵥ, kₒ], t2_aaaa [dᵥ, cᵥ, jₒ, lₒ], t2_aaaa [aᵥ, bᵥ, iₒ, mₒ]], [(1, [aᵥ, bᵥ, cᵥ, iₒ, jₒ, kₒ]), (-1, [aᵥ, bᵥ, cᵥ, jₒ, iₒ, kₒ])]⟩,
  -- line 1877: mlkd,cdjl,abim->abcijk
  ⟨1, [g_abab [mₒ, lₒ, kₒ, dᵥ], t2_abab [cᵥ, dᵥ, jₒ, lₒ], t2_aaaa [aᵥ, bᵥ, iₒ, mₒ]], [(1, [aᵥ, bᵥ, cᵥ, iₒ, jₒ, kₒ]), (-1, [aᵥ, bᵥ, cᵥ, jₒ, iₒ, kₒ])]⟩,
  -- line 1881: mldk,dcij,abml->abcijk
  ⟨-1/2, [g_aaaa [mₒ, lₒ, dᵥ, kₒ], t2_aaaa [dᵥ, cᵥ, iₒ, jₒ], t2_aaaa [aᵥ, bᵥ, mₒ, lₒ]], [(1, [aᵥ, bᵥ, cᵥ, iₒ, jₒ, kₒ]), (-1, [aᵥ, bᵥ, cᵥ, iₒ, kₒ, jₒ])]⟩,
  -- line 1885: mldj,dakl,bcim->abcijk
  ⟨-1, [g_aaaa [mₒ, lₒ, dᵥ, jₒ], t2_aaaa [dᵥ, aᵥ, kₒ, lₒ], t2_aaaa [bᵥ, cᵥ, iₒ, mₒ]], [(1, [aᵥ, bᵥ, cᵥ, iₒ, jₒ, kₒ]), (-1, [aᵥ, bᵥ, cᵥ, kₒ, jₒ, iₒ]), (-1, [bᵥ, aᵥ, cᵥ, iₒ, jₒ, kₒ]), (1, [bᵥ, aᵥ, cᵥ, kₒ, jₒ, iₒ])]⟩,
  -- line 1889: mljd,adkl,bcim->abcijk
  ⟨-1, [g_abab [mₒ, lₒ, jₒ, dᵥ], t2_abab [aᵥ, dᵥ, kₒ, lₒ], t2_aaaa [bᵥ, cᵥ, iₒ, mₒ]], [(1, [aᵥ, bᵥ, cᵥ, iₒ, jₒ, kₒ]), (-1, [aᵥ, bᵥ, cᵥ, kₒ, jₒ, iₒ]), (-1, [bᵥ, aᵥ, cᵥ, iₒ, jₒ, kₒ]), (1, [bᵥ, aᵥ, cᵥ, kₒ, jₒ, iₒ])]⟩,
  -- line 1893: mldj,dckl,abim->abcijk
  ⟨-1, [g_aaaa [mₒ, lₒ, dᵥ, jₒ], t2_aaaa [dᵥ, cᵥ, kₒ, lₒ], t2_aaaa [aᵥ, bᵥ, iₒ, mₒ]], [(1, [aᵥ, bᵥ, cᵥ, iₒ, jₒ, kₒ]), (-1, [aᵥ, bᵥ, cᵥ, kₒ, jₒ, iₒ])]⟩,
  -- line 1897: mljd,cdkl,abim->abcijk
  ⟨-1, [g_abab [mₒ, lₒ, jₒ, dᵥ], t2_abab [cᵥ, dᵥ, kₒ, lₒ], t2_aaaa [aᵥ, bᵥ, iₒ, mₒ]], [(1, [aᵥ, bᵥ, cᵥ, iₒ, jₒ, kₒ]), (-1, [aᵥ, bᵥ, cᵥ, kₒ, jₒ, iₒ])]⟩,
  -- line 1901: mldi,dakl,bcjm->abcijk
  ⟨1, [g_aaaa [mₒ, lₒ, dᵥ, iₒ], t2_aaaa [dᵥ, aᵥ, kₒ, lₒ], t2_aaaa [bᵥ, cᵥ, jₒ, mₒ]], [(1, [aᵥ, bᵥ, cᵥ, iₒ, jₒ, kₒ]), (-1, [aᵥ, bᵥ, cᵥ, iₒ, kₒ, jₒ]), (-1, [bᵥ, aᵥ, cᵥ, iₒ, jₒ, kₒ]), (1, [bᵥ, aᵥ, cᵥ, iₒ, kₒ, jₒ])]⟩,
  -- line 1905: mlid,adkl,bcjm->abcijk
  ⟨1, [g_abab [mₒ, lₒ, iₒ, dᵥ], t2_abab [aᵥ, dᵥ, kₒ, lₒ], t2_aaaa [bᵥ, cᵥ, jₒ, mₒ]], [(1, [aᵥ, bᵥ, cᵥ, iₒ, jₒ, kₒ]), (-1, [aᵥ, bᵥ, cᵥ, iₒ, kₒ, jₒ]), (-1, [bᵥ, aᵥ, cᵥ, iₒ, jₒ, kₒ]), (1, [bᵥ, aᵥ, cᵥ, iₒ, kₒ, jₒ])]⟩,
  -- line 1909: mldi,dajk,bcml->abcijk
  ⟨-1/2, [g_aaaa [mₒ, lₒ, dᵥ, iₒ], t2_aaaa [dᵥ, aᵥ, jₒ, kₒ], t2_aaaa [bᵥ, cᵥ, mₒ, lₒ]], [(1, [aᵥ, bᵥ, cᵥ, iₒ, jₒ, kₒ]), (-1, [bᵥ, aᵥ, cᵥ, iₒ, jₒ, kₒ])]⟩,
  -- line 1913: mldi,dckl,abjm->abcijk
  ⟨1, [g_aaaa [mₒ, lₒ, dᵥ, iₒ], t2_aaaa [dᵥ, cᵥ, kₒ, lₒ], t2_aaaa [aᵥ, bᵥ, jₒ, mₒ]], [(1, [aᵥ, bᵥ, cᵥ, iₒ, jₒ, kₒ]), (-1, [aᵥ, bᵥ, cᵥ, iₒ, kₒ, jₒ])]⟩,
  -- line 1917: mlid,cdkl,abjm->abcijk
  ⟨1, [g_abab [mₒ, lₒ, iₒ, dᵥ], t2_abab [cᵥ, dᵥ, kₒ, lₒ], t2_aaaa [aᵥ, bᵥ, jₒ, mₒ]], [(1, [aᵥ, bᵥ, cᵥ, iₒ, jₒ, kₒ]), (-1, [aᵥ, bᵥ, cᵥ, iₒ, kₒ, jₒ])]⟩,
  -- line 1921: mldi,dcjk,abml->abcijk
  ⟨-1/2, [g_aaaa [mₒ, lₒ, dᵥ, iₒ], t2_aaaa [dᵥ, cᵥ, jₒ, kₒ], t2_aaaa [aᵥ, bᵥ, mₒ, lₒ]], [(1, [aᵥ, bᵥ, cᵥ, iₒ, jₒ, kₒ])]⟩,
  -- line 1924: lade,dejk,bcil->abcijk
  ⟨-1/2, [g_aaaa [lₒ, aᵥ, dᵥ, eᵥ], t2_aaaa [dᵥ, eᵥ, jₒ, kₒ], t2_aaaa [bᵥ, cᵥ, iₒ, lₒ]], [(1, [aᵥ, bᵥ, cᵥ, iₒ, jₒ, kₒ]), (-1, [aᵥ, bᵥ, cᵥ, jₒ, iₒ, kₒ]), (-1, [bᵥ, aᵥ, cᵥ, iₒ, jₒ, kₒ]), (1, [bᵥ, aᵥ, cᵥ, jₒ, iₒ, kₒ])]⟩,
  -- line 1928: lade,deij,bckl->abcijk
  ⟨-1/2, [g_aaaa [lₒ, aᵥ, dᵥ, eᵥ], t2_aaaa [dᵥ, eᵥ, iₒ, jₒ], t2_aaaa [bᵥ, cᵥ, kₒ, lₒ]], [(1, [aᵥ, bᵥ, cᵥ, iₒ, jₒ, kₒ]), (-1, [bᵥ, aᵥ, cᵥ, iₒ, jₒ, kₒ])]⟩,
  -- line 1932: lade,dbkl,ecij->abcijk
  ⟨1, [g_aaaa [lₒ, aᵥ, dᵥ, eᵥ], t2_aaaa [dᵥ, bᵥ, kₒ, lₒ], t2_aaaa [eᵥ, cᵥ, iₒ, jₒ]], [(1, [aᵥ, bᵥ, cᵥ, iₒ, jₒ, kₒ]), (-1, [aᵥ, bᵥ, cᵥ, iₒ, kₒ, jₒ]), (-1, [bᵥ, aᵥ, cᵥ, iₒ, jₒ, kₒ]), (1, [bᵥ, aᵥ, cᵥ, iₒ, kₒ, jₒ])]⟩,
  -- line 1936: aled,bdkl,ecij->abcijk
  ⟨-1, [g_abab [aᵥ, lₒ, eᵥ, dᵥ], t2_abab [bᵥ, dᵥ, kₒ, lₒ], t2_aaaa [eᵥ, cᵥ, iₒ, jₒ]], [(1, [aᵥ, bᵥ, cᵥ, iₒ, jₒ, kₒ]), (-1, [aᵥ, bᵥ, cᵥ, iₒ, kₒ, jₒ]), (-1, [bᵥ, aᵥ, cᵥ, iₒ, jₒ, kₒ]), (1, [bᵥ, aᵥ, cᵥ, iₒ, kₒ, jₒ])]⟩,
  -- line 1940: lade,dbil,ecjk->abcijk
  ⟨1, [g_aaaa [lₒ, aᵥ, dᵥ, eᵥ], t2_aaaa [dᵥ, bᵥ, iₒ, lₒ], t2_aaaa [eᵥ, cᵥ, jₒ, kₒ]], [(1, [aᵥ, bᵥ, cᵥ, iₒ, jₒ, kₒ]), (-1, [bᵥ, aᵥ, cᵥ, iₒ, jₒ, kₒ])]⟩,
  -- line 1944: aled,bdil,ecjk->abcijk
  ⟨-1, [g_abab [aᵥ, lₒ, eᵥ, dᵥ], t2_abab [bᵥ, dᵥ, iₒ, lₒ], t2_aaaa [eᵥ, cᵥ, jₒ, kₒ]], [(1, [aᵥ, bᵥ, cᵥ, iₒ, jₒ, kₒ]), (-1, [bᵥ, aᵥ, cᵥ, iₒ, jₒ, kₒ])]⟩
  ]

/-- Part 4 of `ccsdt_t3_aaaaaa`. -/
def ccsdt_t3_aaaaaa_4 : Prog := [
  -- line 1948: lade,dbjk,ecil->abcijk
  ⟨1, [g_aaaa [lₒ, aᵥ, dᵥ, eᵥ], t2_aaaa [dᵥ, bᵥ, jₒ, kₒ], t2_aaaa [eᵥ, cᵥ, iₒ, lₒ]], [(1, [aᵥ, bᵥ, cᵥ, iₒ, jₒ, kₒ]), (-1, [aᵥ, bᵥ, cᵥ, jₒ, iₒ, kₒ]), (-1, [bᵥ, aᵥ, cᵥ, iₒ, jₒ, kₒ]), (1, [bᵥ, aᵥ, cᵥ, jₒ, iₒ, kₒ])]⟩,
  -- line 1952: alde,dbjk,ceil->abcijk
  ⟨1, [g_abab [aᵥ, lₒ, dᵥ, eᵥ], t2_aaaa [dᵥ, bᵥ, jₒ, kₒ], t2_abab [cᵥ, eᵥ, iₒ, lₒ]], [(1, [aᵥ, bᵥ, cᵥ, iₒ, jₒ, kₒ]), (-1, [aᵥ, bᵥ, cᵥ, jₒ, iₒ, kₒ]), (-1, [bᵥ, aᵥ, cᵥ, iₒ, jₒ, kₒ]), (1, [bᵥ, aᵥ, cᵥ, jₒ, iₒ, kₒ])]⟩,
  -- line 1956: lade,dbij,eckl->abcijk
  ⟨1, [g_aaaa [lₒ, aᵥ, dᵥ, eᵥ], t2_aaaa [dᵥ, bᵥ, iₒ, jₒ], t2_aaaa [eᵥ, cᵥ, kₒ, lₒ]], [(1, [aᵥ, bᵥ, cᵥ, iₒ, jₒ, kₒ]), (-1, [bᵥ, aᵥ, cᵥ, iₒ, jₒ, kₒ])]⟩,
  -- line 1960: alde,dbij,cekl->abcijk
  ⟨1, [g_abab [aᵥ, lₒ, dᵥ, eᵥ], t2_aaaa [dᵥ, bᵥ, iₒ, jₒ], t2_abab [cᵥ, eᵥ, kₒ, lₒ]], [(1, [aᵥ, bᵥ, cᵥ, iₒ, jₒ, kₒ]), (-1, [bᵥ, aᵥ, cᵥ, iₒ, jₒ, kₒ])]⟩,
  -- line 1964: lcde,dejk,abil->abcijk
  ⟨-1/2, [g_aaaa [lₒ, cᵥ, dᵥ, eᵥ], t2_aaaa [dᵥ, eᵥ, jₒ, kₒ], t2_aaaa [aᵥ, bᵥ, iₒ, lₒ]], [(1, [aᵥ, bᵥ, cᵥ, iₒ, jₒ, kₒ]), (-1, [aᵥ, bᵥ, cᵥ, jₒ, iₒ, kₒ])]⟩,
  -- line 1968: lcde,deij,abkl->abcijk
  ⟨-1/2, [g_aaaa [lₒ, cᵥ, dᵥ, eᵥ], t2_aaaa [dᵥ, eᵥ, iₒ, jₒ], t2_aaaa [aᵥ, bᵥ, kₒ, lₒ]], [(1, [aᵥ, bᵥ, cᵥ, iₒ, jₒ, kₒ])]⟩,
  -- line 1971: lcde,dakl,ebij->abcijk
  ⟨1, [g_aaaa [lₒ, cᵥ, dᵥ, eᵥ], t2_aaaa [dᵥ, aᵥ, kₒ, lₒ], t2_aaaa [eᵥ, bᵥ, iₒ, jₒ]], [(1, [aᵥ, bᵥ, cᵥ, iₒ, jₒ, kₒ]), (-1, [aᵥ, bᵥ, cᵥ, iₒ, kₒ, jₒ])]⟩,
  -- line 1975: cled,adkl,ebij->abcijk
  ⟨-1, [g_abab [cᵥ, lₒ, eᵥ, dᵥ], t2_abab [aᵥ, dᵥ, kₒ, lₒ], t2_aaaa [eᵥ, bᵥ, iₒ, jₒ]], [(1, [aᵥ, bᵥ, cᵥ, iₒ, jₒ, kₒ]), (-1, [aᵥ, bᵥ, cᵥ, iₒ, kₒ, jₒ])]⟩,
  -- line 1979: lcde,dail,ebjk->abcijk
  ⟨1, [g_aaaa [lₒ, cᵥ, dᵥ, eᵥ], t2_aaaa [dᵥ, aᵥ, iₒ, lₒ], t2_aaaa [eᵥ, bᵥ, jₒ, kₒ]], [(1, [aᵥ, bᵥ, cᵥ, iₒ, jₒ, kₒ])]⟩,
  -- line 1982: cled,adil,ebjk->abcijk
  ⟨-1, [g_abab [cᵥ, lₒ, eᵥ, dᵥ], t2_abab [aᵥ, dᵥ, iₒ, lₒ], t2_aaaa [eᵥ, bᵥ, jₒ, kₒ]], [(1, [aᵥ, bᵥ, cᵥ, iₒ, jₒ, kₒ])]⟩,
  -- line 1985: lcde,dajk,ebil->abcijk
  ⟨1, [g_aaaa [lₒ, cᵥ, dᵥ, eᵥ], t2_aaaa [dᵥ, aᵥ, jₒ, kₒ], t2_aaaa [eᵥ, bᵥ, iₒ, lₒ]], [(1, [aᵥ, bᵥ, cᵥ, iₒ, jₒ, kₒ]), (-1, [aᵥ, bᵥ, cᵥ, jₒ, iₒ, kₒ])]⟩,
  -- line 1989: clde,dajk,beil->abcijk
  ⟨1, [g_abab [cᵥ, lₒ, dᵥ, eᵥ], t2_aaaa [dᵥ, aᵥ, jₒ, kₒ], t2_abab [bᵥ, eᵥ, iₒ, lₒ]], [(1, [aᵥ, bᵥ, cᵥ, iₒ, jₒ, kₒ]), (-1, [aᵥ, bᵥ, cᵥ, jₒ, iₒ, kₒ])]⟩,
  -- line 1993: lcde,daij,ebkl->abcijk
  ⟨1, [g_aaaa [lₒ, cᵥ, dᵥ, eᵥ], t2_aaaa [dᵥ, aᵥ, iₒ, jₒ], t2_aaaa [eᵥ, bᵥ, kₒ, lₒ]], [(1, [aᵥ, bᵥ, cᵥ, iₒ, jₒ, kₒ])]⟩,
  -- line 1996: clde,daij,bekl->abcijk
  ⟨1, [g_abab [cᵥ, lₒ, dᵥ, eᵥ], t2_aaaa [dᵥ, aᵥ, iₒ, jₒ], t2_abab [bᵥ, eᵥ, kₒ, lₒ]], [(1, [aᵥ, bᵥ, cᵥ, iₒ, jₒ, kₒ])]⟩,
  -- line 1999: mlde,dl,eajk,bcim->abcijk
  ⟨1, [g_aaaa [mₒ, lₒ, dᵥ, eᵥ], t1_aa [dᵥ, lₒ], t2_aaaa [eᵥ, aᵥ, jₒ, kₒ], t2_aaaa [bᵥ, cᵥ, iₒ, mₒ]], [(1, [aᵥ, bᵥ, cᵥ, iₒ, jₒ, kₒ]), (-1, [aᵥ, bᵥ, cᵥ, jₒ, iₒ, kₒ]), (-1, [bᵥ, aᵥ, cᵥ, iₒ, jₒ, kₒ]), (1, [bᵥ, aᵥ, cᵥ, jₒ, iₒ, kₒ])]⟩,
  -- line 2003: mled,dl,eajk,bcim->abcijk
  ⟨-1, [g_abab [mₒ, lₒ, eᵥ, dᵥ], t1_bb [dᵥ, lₒ], t2_aaaa [eᵥ, aᵥ, jₒ, kₒ], t2_aaaa [bᵥ, cᵥ, iₒ, mₒ]], [(1, [aᵥ, bᵥ, cᵥ, iₒ, jₒ, kₒ]), (-1, [aᵥ, bᵥ, cᵥ, jₒ, iₒ, kₒ]), (-1, [bᵥ, aᵥ, cᵥ, iₒ, jₒ, kₒ]), (1, [bᵥ, aᵥ, cᵥ, jₒ, iₒ, kₒ])]⟩,
  -- line 2007: mlde,dl,eaij,bckm->abcijk
  ⟨1, [g_aaaa [mₒ, lₒ, dᵥ, eᵥ], t1_aa [dᵥ, lₒ], t2_aaaa [eᵥ, aᵥ, iₒ, jₒ], t2_aaaa [bᵥ, cᵥ, kₒ, mₒ]], [(1, [aᵥ, bᵥ, cᵥ, iₒ, jₒ, kₒ]), (-1, [bᵥ, aᵥ, cᵥ, iₒ, jₒ, kₒ])]⟩,
  -- line 2011: mled,dl,eaij,bckm->abcijk
  ⟨-1, [g_abab [mₒ, lₒ, eᵥ, dᵥ], t1_bb [dᵥ, lₒ], t2_aaaa [eᵥ, aᵥ, iₒ, jₒ], t2_aaaa [bᵥ, cᵥ, kₒ, mₒ]], [(1, [aᵥ, bᵥ, cᵥ, iₒ, jₒ, kₒ]), (-1, [bᵥ, aᵥ, cᵥ, iₒ, jₒ, kₒ])]⟩,
  -- line 2015: mlde,dl,ecjk,abim->abcijk
  ⟨1, [g_aaaa [mₒ, lₒ, dᵥ, eᵥ], t1_aa [dᵥ, lₒ], t2_aaaa [eᵥ, cᵥ, jₒ, kₒ], t2_aaaa [aᵥ, bᵥ, iₒ, mₒ]], [(1, [aᵥ, bᵥ, cᵥ, iₒ, jₒ, kₒ]), (-1, [aᵥ, bᵥ, cᵥ, jₒ, iₒ, kₒ])]⟩,
  -- line 2019: mled,dl,ecjk,abim->abcijk
  ⟨-1, [g_abab [mₒ, lₒ, eᵥ, dᵥ], t1_bb [dᵥ, lₒ], t2_aaaa [eᵥ, cᵥ, jₒ, kₒ], t2_aaaa [aᵥ, bᵥ, iₒ, mₒ]], [(1, [aᵥ, bᵥ, cᵥ, iₒ, jₒ, kₒ]), (-1, [aᵥ, bᵥ, cᵥ, jₒ, iₒ, kₒ])]⟩,
  -- line 2023: mlde,dl,ecij,abkm->abcijk
  ⟨1, [g_aaaa [mₒ, lₒ, dᵥ, eᵥ], t1_aa [dᵥ, lₒ], t2_aaaa [eᵥ, cᵥ, iₒ, jₒ], t2_aaaa [aᵥ, bᵥ, kₒ, mₒ]], [(1, [aᵥ, bᵥ, cᵥ, iₒ, jₒ, kₒ])]⟩,
  -- line 2026: mled,dl,ecij,abkm->abcijk
  ⟨-1, [g_abab [mₒ, lₒ, eᵥ, dᵥ], t1_bb [dᵥ, lₒ], t2_aaaa [eᵥ, cᵥ, iₒ, jₒ], t2_aaaa [aᵥ, bᵥ, kₒ, mₒ]], [(1, [aᵥ, bᵥ, cᵥ, iₒ, jₒ, kₒ])]⟩,
  -- line 2029: mlde,dk,eajl,bcim->abcijk
  ⟨-1, [g_aaaa [mₒ, lₒ, dᵥ, eᵥ], t1_aa [dᵥ, kₒ], t2_aaaa [eᵥ, aᵥ, jₒ, lₒ], t2_aaaa [bᵥ, cᵥ, iₒ, mₒ]], [(1, [aᵥ, bᵥ, cᵥ, iₒ, jₒ, kₒ]), (-1, [aᵥ, bᵥ, cᵥ, jₒ, iₒ, kₒ]), (-1, [bᵥ, aᵥ, cᵥ, iₒ, jₒ, kₒ]), (1, [bᵥ, aᵥ, cᵥ, jₒ, iₒ, kₒ])]⟩,
  -- line 2033: mlde,dk,aejl,bcim->abcijk
  ⟨1, [g_abab [mₒ, lₒ, dᵥ, eᵥ], t1_aa [dᵥ, kₒ], t2_abab [aᵥ, eᵥ, jₒ, lₒ], t2_aaaa [bᵥ, cᵥ, iₒ, mₒ]], [(1, [aᵥ, bᵥ, cᵥ, iₒ, jₒ, kₒ]), (-1, [aᵥ, bᵥ, cᵥ, jₒ, iₒ, kₒ]), (-1, [bᵥ, aᵥ, cᵥ, iₒ, jₒ, kₒ]), (1, [bᵥ, aᵥ, cᵥ, jₒ, iₒ, kₒ])]⟩,
  -- line 2037: mlde,dk,eaij,bcml->abcijk
  ⟨1/2, [g_aaaa [mₒ, lₒ, dᵥ, eᵥ], t1_aa [dᵥ, kₒ], t2_aaaa [eᵥ, aᵥ, iₒ, jₒ], t2_aaaa [bᵥ, cᵥ, mₒ, lₒ]], [(1, [aᵥ, bᵥ, cᵥ, iₒ, jₒ, kₒ]), (-1, [aᵥ, bᵥ, cᵥ, iₒ, kₒ, jₒ]), (-1, [bᵥ, aᵥ, cᵥ, iₒ, jₒ, kₒ]), (1, [bᵥ, aᵥ, cᵥ, iₒ, kₒ, jₒ])]⟩,
  -- line 2041: mlde,dk,ecjl,abim->abcijk
  ⟨-1, [g_aaaa [mₒ, lₒ, dᵥ, eᵥ], t1_aa [dᵥ, kₒ], t2_aaaa [eᵥ, cᵥ, jₒ, lₒ], t2_aaaa [aᵥ, bᵥ, iₒ, mₒ]], [(1, [aᵥ, bᵥ, cᵥ, iₒ, jₒ, kₒ]), (-1, [aᵥ, bᵥ, cᵥ, jₒ, iₒ, kₒ])]⟩,
  -- line 2045: mlde,dk,cejl,abim->abcijk
  ⟨1, [g_abab [mₒ, lₒ, dᵥ, eᵥ], t1_aa [dᵥ, kₒ], t2_abab [cᵥ, eᵥ, jₒ, lₒ], t2_aaaa [aᵥ, bᵥ, iₒ, mₒ]], [(1, [aᵥ, bᵥ, cᵥ, iₒ, jₒ, kₒ]), (-1, [aᵥ, bᵥ, cᵥ, jₒ, iₒ, kₒ])]⟩,
  -- line 2049: mlde,dk,ecij,abml->abcijk
  ⟨1/2, [g_aaaa [mₒ, lₒ, dᵥ, eᵥ], t1_aa [dᵥ, kₒ], t2_aaaa [eᵥ, cᵥ, iₒ, jₒ], t2_aaaa [aᵥ, bᵥ, mₒ, lₒ]], [(1, [aᵥ, bᵥ, cᵥ, iₒ, jₒ, kₒ]), (-1, [aᵥ, bᵥ, cᵥ, iₒ, kₒ, jₒ])]⟩,
  -- line 2053: mlde,dj,eakl,bcim->abcijk
  ⟨1, [g_aaaa [mₒ, lₒ, dᵥ, eᵥ], t1_aa [dᵥ, jₒ], t2_aaaa [eᵥ, aᵥ, kₒ, lₒ], t2_aaaa [bᵥ, cᵥ, iₒ, mₒ]], [(1, [aᵥ, bᵥ, cᵥ, iₒ, jₒ, kₒ]), (-1, [aᵥ, bᵥ, cᵥ, kₒ, jₒ, iₒ]), (-1, [bᵥ, aᵥ, cᵥ, iₒ, jₒ, kₒ]), (1, [bᵥ, aᵥ, cᵥ, kₒ, jₒ, iₒ])]⟩,
  -- line 2057: mlde,dj,aekl,bcim->abcijk
  ⟨-1, [g_abab [mₒ, lₒ, dᵥ, eᵥ], t1_aa [dᵥ, jₒ], t2_abab [aᵥ, eᵥ, kₒ, lₒ], t2_aaaa [bᵥ, cᵥ, iₒ, mₒ]], [(1, [aᵥ, bᵥ, cᵥ, iₒ, jₒ, kₒ]), (-1, [aᵥ, bᵥ, cᵥ, kₒ, jₒ, iₒ]), (-1, [bᵥ, aᵥ, cᵥ, iₒ, jₒ, kₒ]), (1, [bᵥ, aᵥ, cᵥ, kₒ, jₒ, iₒ])]⟩,
  -- line 2061: mlde,dj,eckl,abim->abcijk
  ⟨1, [g_aaaa [mₒ, lₒ, dᵥ, eᵥ], t1_aa [dᵥ, jₒ], t2_aaaa [eᵥ, cᵥ, kₒ, lₒ], t2_aaaa [aᵥ, bᵥ, iₒ, mₒ]], [(1, [aᵥ, bᵥ, cᵥ, iₒ, jₒ, kₒ]), (-1, [aᵥ, bᵥ, cᵥ, kₒ, jₒ, iₒ])]⟩,
  -- line 2065: mlde,dj,cekl,abim->abcijk
  ⟨-1, [g_abab [mₒ, lₒ, dᵥ, eᵥ], t1_aa [dᵥ, jₒ], t2_abab [cᵥ, eᵥ, kₒ, lₒ], t2_aaaa [aᵥ, bᵥ, iₒ, mₒ]], [(1, [aᵥ, bᵥ, cᵥ, iₒ, jₒ, kₒ]), (-1, [aᵥ, bᵥ, cᵥ, kₒ, jₒ, iₒ])]⟩,
  -- line 2069: mlde,di,eakl,bcjm->abcijk
  ⟨-1, [g_aaaa [mₒ, lₒ, dᵥ, eᵥ], t1_aa [dᵥ, iₒ], t2_aaaa [eᵥ, aᵥ, kₒ, lₒ], t2_aaaa [bᵥ, cᵥ, jₒ, mₒ]], [(1, [aᵥ, bᵥ, cᵥ, iₒ, jₒ, kₒ]), (-1, [aᵥ, bᵥ, cᵥ, iₒ, kₒ, jₒ]), (-1, [bᵥ, aᵥ, cᵥ, iₒ, jₒ, kₒ]), (1, [bᵥ, aᵥ, cᵥ, iₒ, kₒ, jₒ])]⟩,
  -- line 2073: mlde,di,aekl,bcjm->abcijk
  ⟨1, [g_abab [mₒ, lₒ, dᵥ, eᵥ], t1_aa [dᵥ, iₒ], t2_abab [aᵥ, eᵥ, kₒ, lₒ], t2_aaaa [bᵥ, cᵥ, jₒ, mₒ]], [(1, [aᵥ, bᵥ, cᵥ, iₒ, jₒ, kₒ]), (-1, [aᵥ, bᵥ, cᵥ, iₒ, kₒ, jₒ]), (-1, [bᵥ, aᵥ, cᵥ, iₒ, jₒ, kₒ]), (1, [bᵥ, aᵥ, cᵥ, iₒ, kₒ, jₒ])]⟩,
  -- line 2077: mlde,di,eajk,bcml->abcijk
  ⟨1/2, [g_aaaa [mₒ, lₒ, dᵥ, eᵥ], t1_aa [dᵥ, iₒ], t2_aaaa [eᵥ, aᵥ, jₒ, kₒ], t2_aaaa [bᵥ, cᵥ, mₒ, lₒ]], [(1, [aᵥ, bᵥ, cᵥ, iₒ, jₒ, kₒ]), (-1, [bᵥ, aᵥ, cᵥ, iₒ, jₒ, kₒ])]⟩,
  -- line 2081: mlde,di,eckl,abjm->abcijk
  ⟨-1, [g_aaaa [mₒ, lₒ, dᵥ, eᵥ], t1_aa [dᵥ, iₒ], t2_aaaa [eᵥ, cᵥ, kₒ, lₒ], t2_aaaa [aᵥ, bᵥ, jₒ, mₒ]], [(1, [aᵥ, bᵥ, cᵥ, iₒ, jₒ, kₒ]), (-1, [aᵥ, bᵥ, cᵥ, iₒ, kₒ, jₒ])]⟩,
  -- line 2085: mlde,di,cekl,abjm->abcijk
  ⟨1, [g_abab [mₒ, lₒ, dᵥ, eᵥ], t1_aa [dᵥ, iₒ], t2_abab [cᵥ, eᵥ, kₒ, lₒ], t2_aaaa [aᵥ, bᵥ, jₒ, mₒ]], [(1, [aᵥ, bᵥ, cᵥ, iₒ, jₒ, kₒ]), (-1, [aᵥ, bᵥ, cᵥ, iₒ, kₒ, jₒ])]⟩,
  -- line 2089: mlde,di,ecjk,abml->abcijk
  ⟨1/2, [g_aaaa [mₒ, lₒ, dᵥ, eᵥ], t1_aa [dᵥ, iₒ], t2_aaaa [eᵥ, cᵥ, jₒ, kₒ], t2_aaaa [aᵥ, bᵥ, mₒ, lₒ]], [(1, [aᵥ, bᵥ, cᵥ, iₒ, jₒ, kₒ])]⟩,
  -- line 2092: mlde,al,dejk,bcim->abcijk
  ⟨1/2, [g_aaaa [mₒ, lₒ, dᵥ, eᵥ], t1_aa [aᵥ, lₒ], t2_aaaa [dᵥ, eᵥ, jₒ, kₒ], t2_aaaa [bᵥ, cᵥ, iₒ, mₒ]], [(1, [aᵥ, bᵥ, cᵥ, iₒ, jₒ, kₒ]), (-1, [aᵥ, bᵥ, cᵥ, jₒ, iₒ, kₒ]), (-1, [bᵥ, aᵥ, cᵥ, iₒ, jₒ, kₒ]), (1, [bᵥ, aᵥ, cᵥ, jₒ, iₒ, kₒ])]⟩,
  -- line 2096: mlde,al,deij,bckm->abcijk
  ⟨1/2, [g_aaaa [mₒ, lₒ, dᵥ, eᵥ], t1_aa [aᵥ, lₒ], t2_aaaa [dᵥ, eᵥ, iₒ, jₒ], t2_aaaa [bᵥ, cᵥ, kₒ, mₒ]], [(1, [aᵥ, bᵥ, cᵥ, iₒ, jₒ, kₒ]), (-1, [bᵥ, aᵥ, cᵥ, iₒ, jₒ, kₒ])]⟩
  ]

/-- Part 5 of `ccsdt_t3_aaaaaa`. -/
def ccsdt_t3_aaaaaa_5 : Prog := [
  -- line 2100: mlde,al,dbkm,ecij->abcijk
  ⟨-1, [g_aaaa [mₒ, lₒ, dᵥ, eᵥ], t1_aa [aᵥ, lₒ], t2_aaaa [dᵥ, bᵥ, kₒ, mₒ], t2_aaaa [eᵥ, cᵥ, iₒ, jₒ]], [(1, [aᵥ, bᵥ, cᵥ, iₒ, jₒ, kₒ]), (-1, [aᵥ, bᵥ, cᵥ, iₒ, kₒ, jₒ]), (-1, [bᵥ, aᵥ, cᵥ, iₒ, jₒ, kₒ]), (1, [bᵥ, aᵥ, cᵥ, iₒ, kₒ, jₒ])]⟩,
  -- line 2104: lmed,al,bdkm,ecij->abcijk
  ⟨1, [g_abab [lₒ, mₒ, eᵥ, dᵥ], t1_aa [aᵥ, lₒ], t2_abab [bᵥ, dᵥ, kₒ, mₒ], t2_aaaa [eᵥ, cᵥ, iₒ, jₒ]], [(1, [aᵥ, bᵥ, cᵥ, iₒ, jₒ, kₒ]), (-1, [aᵥ, bᵥ, cᵥ, iₒ, kₒ, jₒ]), (-1, [bᵥ, aᵥ, cᵥ, iₒ, jₒ, kₒ]), (1, [bᵥ, aᵥ, cᵥ, iₒ, kₒ, jₒ])]⟩,
  -- line 2108: mlde,al,dbim,ecjk->abcijk
  ⟨-1, [g_aaaa [mₒ, lₒ, dᵥ, eᵥ], t1_aa [aᵥ, lₒ], t2_aaaa [dᵥ, bᵥ, iₒ, mₒ], t2_aaaa [eᵥ, cᵥ, jₒ, kₒ]], [(1, [aᵥ, bᵥ, cᵥ, iₒ, jₒ, kₒ]), (-1, [bᵥ, aᵥ, cᵥ, iₒ, jₒ, kₒ])]⟩,
  -- line 2112: lmed,al,bdim,ecjk->abcijk
  ⟨1, [g_abab [lₒ, mₒ, eᵥ, dᵥ], t1_aa [aᵥ, lₒ], t2_abab [bᵥ, dᵥ, iₒ, mₒ], t2_aaaa [eᵥ, cᵥ, jₒ, kₒ]], [(1, [aᵥ, bᵥ, cᵥ, iₒ, jₒ, kₒ]), (-1, [bᵥ, aᵥ, cᵥ, iₒ, jₒ, kₒ])]⟩,
  -- line 2116: mlde,al,dbjk,ecim->abcijk
  ⟨-1, [g_aaaa [mₒ, lₒ, dᵥ, eᵥ], t1_aa [aᵥ, lₒ], t2_aaaa [dᵥ, bᵥ, jₒ, kₒ], t2_aaaa [eᵥ, cᵥ, iₒ, mₒ]], [(1, [aᵥ, bᵥ, cᵥ, iₒ, jₒ, kₒ]), (-1, [aᵥ, bᵥ, cᵥ, jₒ, iₒ, kₒ]), (-1, [bᵥ, aᵥ, cᵥ, iₒ, jₒ, kₒ]), (1, [bᵥ, aᵥ, cᵥ, jₒ, iₒ, kₒ])]⟩,
  -- line 2120: lmde,al,dbjk,ceim->abcijk
  ⟨-1, [g_abab [lₒ, mₒ, dᵥ, eᵥ], t1_aa [aᵥ, lₒ], t2_aaaa [dᵥ, bᵥ, jₒ, kₒ], t2_abab [cᵥ, eᵥ, iₒ, mₒ]], [(1, [aᵥ, bᵥ, cᵥ, iₒ, jₒ, kₒ]), (-1, [aᵥ, bᵥ, cᵥ, jₒ, iₒ, kₒ]), (-1, [bᵥ, aᵥ, cᵥ, iₒ, jₒ, kₒ]), (1, [bᵥ, aᵥ, cᵥ, jₒ, iₒ, kₒ])]⟩,
  -- line 2124: mlde,al,dbij,eckm->abcijk
  ⟨-1, [g_aaaa [mₒ, lₒ, dᵥ, eᵥ], t1_aa [aᵥ, lₒ], t2_aaaa [dᵥ, bᵥ, iₒ, jₒ], t2_aaaa [eᵥ, cᵥ, kₒ, mₒ]], [(1, [aᵥ, bᵥ, cᵥ, iₒ, jₒ, kₒ]), (-1, [bᵥ, aᵥ, cᵥ, iₒ, jₒ, kₒ])]⟩,
  -- line 2128: lmde,al,dbij,cekm->abcijk
  ⟨-1, [g_abab [lₒ, mₒ, dᵥ, eᵥ], t1_aa [aᵥ, lₒ], t2_aaaa [dᵥ, bᵥ, iₒ, jₒ], t2_abab [cᵥ, eᵥ, kₒ, mₒ]], [(1, [aᵥ, bᵥ, cᵥ, iₒ, jₒ, kₒ]), (-1, [bᵥ, aᵥ, cᵥ, iₒ, jₒ, kₒ])]⟩,
  -- line 2132: mlde,cl,dejk,abim->abcijk
  ⟨1/2, [g_aaaa [mₒ, lₒ, dᵥ, eᵥ], t1_aa [cᵥ, lₒ], t2_aaaa [dᵥ, eᵥ, jₒ, kₒ], t2_aaaa [aᵥ, bᵥ, iₒ, mₒ]], [(1, [aᵥ, bᵥ, cᵥ, iₒ, jₒ, kₒ]), (-1, [aᵥ, bᵥ, cᵥ, jₒ, iₒ, kₒ])]⟩,
  -- line 2136: mlde,cl,deij,abkm->abcijk
  ⟨1/2, [g_aaaa [mₒ, lₒ, dᵥ, eᵥ], t1_aa [cᵥ, lₒ], t2_aaaa [dᵥ, eᵥ, iₒ, jₒ], t2_aaaa [aᵥ, bᵥ, kₒ, mₒ]], [(1, [aᵥ, bᵥ, cᵥ, iₒ, jₒ, kₒ])]⟩,
  -- line 2139: mlde,cl,dakm,ebij->abcijk
  ⟨-1, [g_aaaa [mₒ, lₒ, dᵥ, eᵥ], t1_aa [cᵥ, lₒ], t2_aaaa [dᵥ, aᵥ, kₒ, mₒ], t2_aaaa [eᵥ, bᵥ, iₒ, jₒ]], [(1, [aᵥ, bᵥ, cᵥ, iₒ, jₒ, kₒ]), (-1, [aᵥ, bᵥ, cᵥ, iₒ, kₒ, jₒ])]⟩,
  -- line 2143: lmed,cl,adkm,ebij->abcijk
  ⟨1, [g_abab [lₒ, mₒ, eᵥ, dᵥ], t1_aa [cᵥ, lₒ], t2_abab [aᵥ, dᵥ, kₒ, mₒ], t2_aaaa [eᵥ, bᵥ, iₒ, jₒ]], [(1, [aᵥ, bᵥ, cᵥ, iₒ, jₒ, kₒ]), (-1, [aᵥ, bᵥ, cᵥ, iₒ, kₒ, jₒ])]⟩,
  -- line 2147: mlde,cl,daim,ebjk->abcijk
  ⟨-1, [g_aaaa [mₒ, lₒ, dᵥ, eᵥ], t1_aa [cᵥ, lₒ], t2_aaaa [dᵥ, aᵥ, iₒ, mₒ], t2_aaaa [eᵥ, bᵥ, jₒ, kₒ]], [(1, [aᵥ, bᵥ, cᵥ, iₒ, jₒ, kₒ])]⟩,
  -- line 2150: lmed,cl,adim,ebjk->abcijk
  ⟨1, [g_abab [lₒ, mₒ, eᵥ, dᵥ], t1_aa [cᵥ, lₒ], t2_abab [aᵥ, dᵥ, iₒ, mₒ], t2_aaaa [eᵥ, bᵥ, jₒ, kₒ]], [(1, [aᵥ, bᵥ, cᵥ, iₒ, jₒ, kₒ])]⟩,
  -- line 2153: mlde,cl,dajk,ebim->abcijk
  ⟨-1, [g_aaaa [mₒ, lₒ, dᵥ, eᵥ], t1_aa [cᵥ, lₒ], t2_aaaa [dᵥ, aᵥ, jₒ, kₒ], t2_aaaa [eᵥ, bᵥ, iₒ, mₒ]], [(1, [aᵥ, bᵥ, cᵥ, iₒ, jₒ, kₒ]), (-1, [aᵥ, bᵥ, cᵥ, jₒ, iₒ, kₒ])]⟩,
  -- line 2157: lmde,cl,dajk,beim->abcijk
  ⟨-1, [g_abab [lₒ, mₒ, dᵥ, eᵥ], t1_aa [cᵥ, lₒ], t2_aaaa [dᵥ, aᵥ, jₒ, kₒ], t2_abab [bᵥ, eᵥ, iₒ, mₒ]], [(1, [aᵥ, bᵥ, cᵥ, iₒ, jₒ, kₒ]), (-1, [aᵥ, bᵥ, cᵥ, jₒ, iₒ, kₒ])]⟩,
  -- line 2161: mlde,cl,daij,ebkm->abcijk
  ⟨-1, [g_aaaa [mₒ, lₒ, dᵥ, eᵥ], t1_aa [cᵥ, lₒ], t2_aaaa [dᵥ, aᵥ, iₒ, jₒ], t2_aaaa [eᵥ, bᵥ, kₒ, mₒ]], [(1, [aᵥ, bᵥ, cᵥ, iₒ, jₒ, kₒ])]⟩,
  -- line 2164: lmde,cl,daij,bekm->abcijk
  ⟨-1, [g_abab [lₒ, mₒ, dᵥ, eᵥ], t1_aa [cᵥ, lₒ], t2_aaaa [dᵥ, aᵥ, iₒ, jₒ], t2_abab [bᵥ, eᵥ, kₒ, mₒ]], [(1, [aᵥ, bᵥ, cᵥ, iₒ, jₒ, kₒ])]⟩,
  -- line 2167: mldk,dj,al,bcim->abcijk
  ⟨1, [g_aaaa [mₒ, lₒ, dᵥ, kₒ], t1_aa [dᵥ, jₒ], t1_aa [aᵥ, lₒ], t2_aaaa [bᵥ, cᵥ, iₒ, mₒ]], [(1, [aᵥ, bᵥ, cᵥ, iₒ, jₒ, kₒ]), (-1, [aᵥ, bᵥ, cᵥ, jₒ, iₒ, kₒ]), (-1, [bᵥ, aᵥ, cᵥ, iₒ, jₒ, kₒ]), (1, [bᵥ, aᵥ, cᵥ, jₒ, iₒ, kₒ])]⟩,
  -- line 2171: mldk,dj,cl,abim->abcijk
  ⟨1, [g_aaaa [mₒ, lₒ, dᵥ, kₒ], t1_aa [dᵥ, jₒ], t1_aa [cᵥ, lₒ], t2_aaaa [aᵥ, bᵥ, iₒ, mₒ]], [(1, [aᵥ, bᵥ, cᵥ, iₒ, jₒ, kₒ]), (-1, [aᵥ, bᵥ, cᵥ, jₒ, iₒ, kₒ])]⟩,
  -- line 2175: mldk,al,bm,dcij->abcijk
  ⟨1, [g_aaaa [mₒ, lₒ, dᵥ, kₒ], t1_aa [aᵥ, lₒ], t1_aa [bᵥ, mₒ], t2_aaaa [dᵥ, cᵥ, iₒ, jₒ]], [(1, [aᵥ, bᵥ, cᵥ, iₒ, jₒ, kₒ]), (-1, [aᵥ, bᵥ, cᵥ, iₒ, kₒ, jₒ]), (-1, [aᵥ, cᵥ, bᵥ, iₒ, jₒ, kₒ]), (1, [aᵥ, cᵥ, bᵥ, iₒ, kₒ, jₒ])]⟩,
  -- line 2179: mldk,bl,cm,daij->abcijk
  ⟨1, [g_aaaa [mₒ, lₒ, dᵥ, kₒ], t1_aa [bᵥ, lₒ], t1_aa [cᵥ, mₒ], t2_aaaa [dᵥ, aᵥ, iₒ, jₒ]], [(1, [aᵥ, bᵥ, cᵥ, iₒ, jₒ, kₒ]), (-1, [aᵥ, bᵥ, cᵥ, iₒ, kₒ, jₒ])]⟩,
  -- line 2183: mldj,dk,al,bcim->abcijk
  ⟨-1, [g_aaaa [mₒ, lₒ, dᵥ, jₒ], t1_aa [dᵥ, kₒ], t1_aa [aᵥ, lₒ], t2_aaaa [bᵥ, cᵥ, iₒ, mₒ]], [(1, [aᵥ, bᵥ, cᵥ, iₒ, jₒ, kₒ]), (-1, [aᵥ, bᵥ, cᵥ, kₒ, jₒ, iₒ]), (-1, [bᵥ, aᵥ, cᵥ, iₒ, jₒ, kₒ]), (1, [bᵥ, aᵥ, cᵥ, kₒ, jₒ, iₒ])]⟩,
  -- line 2187: mldj,dk,cl,abim->abcijk
  ⟨-1, [g_aaaa [mₒ, lₒ, dᵥ, jₒ], t1_aa [dᵥ, kₒ], t1_aa [cᵥ, lₒ], t2_aaaa [aᵥ, bᵥ, iₒ, mₒ]], [(1, [aᵥ, bᵥ, cᵥ, iₒ, jₒ, kₒ]), (-1, [aᵥ, bᵥ, cᵥ, kₒ, jₒ, iₒ])]⟩,
  -- line 2191: mldi,dk,al,bcjm->abcijk
  ⟨1, [g_aaaa [mₒ, lₒ, dᵥ, iₒ], t1_aa [dᵥ, kₒ], t1_aa [aᵥ, lₒ], t2_aaaa [bᵥ, cᵥ, jₒ, mₒ]], [(1, [aᵥ, bᵥ, cᵥ, iₒ, jₒ, kₒ]), (-1, [aᵥ, bᵥ, cᵥ, iₒ, kₒ, jₒ]), (-1, [bᵥ, aᵥ, cᵥ, iₒ, jₒ, kₒ]), (1, [bᵥ, aᵥ, cᵥ, iₒ, kₒ, jₒ])]⟩,
  -- line 2195: mldi,dk,cl,abjm->abcijk
  ⟨1, [g_aaaa [mₒ, lₒ, dᵥ, iₒ], t1_aa [dᵥ, kₒ], t1_aa [cᵥ, lₒ], t2_aaaa [aᵥ, bᵥ, jₒ, mₒ]], [(1, [aᵥ, bᵥ, cᵥ, iₒ, jₒ, kₒ]), (-1, [aᵥ, bᵥ, cᵥ, iₒ, kₒ, jₒ])]⟩,
  -- line 2199: mldi,al,bm,dcjk->abcijk
  ⟨1, [g_aaaa [mₒ, lₒ, dᵥ, iₒ], t1_aa [aᵥ, lₒ], t1_aa [bᵥ, mₒ], t2_aaaa [dᵥ, cᵥ, jₒ, kₒ]], [(1, [aᵥ, bᵥ, cᵥ, iₒ, jₒ, kₒ]), (-1, [aᵥ, cᵥ, bᵥ, iₒ, jₒ, kₒ])]⟩,
  -- line 2203: mldi,bl,cm,dajk->abcijk
  ⟨1, [g_aaaa [mₒ, lₒ, dᵥ, iₒ], t1_aa [bᵥ, lₒ], t1_aa [cᵥ, mₒ], t2_aaaa [dᵥ, aᵥ, jₒ, kₒ]], [(1, [aᵥ, bᵥ, cᵥ, iₒ, jₒ, kₒ])]⟩,
  -- line 2206: lade,dk,ej,bcil->abcijk
  ⟨1, [g_aaaa [lₒ, aᵥ, dᵥ, eᵥ], t1_aa [dᵥ, kₒ], t1_aa [eᵥ, jₒ], t2_aaaa [bᵥ, cᵥ, iₒ, lₒ]], [(1, [aᵥ, bᵥ, cᵥ, iₒ, jₒ, kₒ]), (-1, [aᵥ, bᵥ, cᵥ, jₒ, iₒ, kₒ]), (-1, [bᵥ, aᵥ, cᵥ, iₒ, jₒ, kₒ]), (1, [bᵥ, aᵥ, cᵥ, jₒ, iₒ, kₒ])]⟩,
  -- line 2210: lade,dk,bl,ecij->abcijk
  ⟨1, [g_aaaa [lₒ, aᵥ, dᵥ, eᵥ], t1_aa [dᵥ, kₒ], t1_aa [bᵥ, lₒ], t2_aaaa [eᵥ, cᵥ, iₒ, jₒ]], [(1, [aᵥ, bᵥ, cᵥ, iₒ, jₒ, kₒ]), (-1, [aᵥ, bᵥ, cᵥ, iₒ, kₒ, jₒ]), (-1, [aᵥ, cᵥ, bᵥ, iₒ, jₒ, kₒ]), (1, [aᵥ, cᵥ, bᵥ, iₒ, kₒ, jₒ])]⟩,
  -- line 2214: lade,dj,ei,bckl->abcijk
  ⟨1, [g_aaaa [lₒ, aᵥ, dᵥ, eᵥ], t1_aa [dᵥ, jₒ], t1_aa [eᵥ, iₒ], t2_aaaa [bᵥ, cᵥ, kₒ, lₒ]], [(1, [aᵥ, bᵥ, cᵥ, iₒ, jₒ, kₒ]), (-1, [bᵥ, aᵥ, cᵥ, iₒ, jₒ, kₒ])]⟩,
  -- line 2218: lade,di,bl,ecjk->abcijk
  ⟨1, [g_aaaa [lₒ, aᵥ, dᵥ, eᵥ], t1_aa [dᵥ, iₒ], t1_aa [bᵥ, lₒ], t2_aaaa [eᵥ, cᵥ, jₒ, kₒ]], [(1, [aᵥ, bᵥ, cᵥ, iₒ, jₒ, kₒ]), (-1, [aᵥ, cᵥ, bᵥ, iₒ, jₒ, kₒ])]⟩,
  -- line 2222: lbde,dk,al,ecij->abcijk
  ⟨-1, [g_aaaa [lₒ, bᵥ, dᵥ, eᵥ], t1_aa [dᵥ, kₒ], t1_aa [aᵥ, lₒ], t2_aaaa [eᵥ, cᵥ, iₒ, jₒ]], [(1, [aᵥ, bᵥ, cᵥ, iₒ, jₒ, kₒ]), (-1, [aᵥ, bᵥ, cᵥ, iₒ, kₒ, jₒ]), (-1, [cᵥ, bᵥ, aᵥ, iₒ, jₒ, kₒ]), (1, [cᵥ, bᵥ, aᵥ, iₒ, kₒ, jₒ])]⟩,
  -- line 2226: lbde,di,al,ecjk->abcijk
  ⟨-1, [g_aaaa [lₒ, bᵥ, dᵥ, eᵥ], t1_aa [dᵥ, iₒ], t1_aa [aᵥ, lₒ], t2_aaaa [eᵥ, cᵥ, jₒ, kₒ]], [(1, [aᵥ, bᵥ, cᵥ, iₒ, jₒ, kₒ]), (-1, [cᵥ, bᵥ, aᵥ, iₒ, jₒ, kₒ])]⟩,
  -- line 2230: lcde,dk,ej,abil->abcijk
  ⟨1, [g_aaaa [lₒ, cᵥ, dᵥ, eᵥ], t1_aa [dᵥ, kₒ], t1_aa [eᵥ, jₒ], t2_aaaa [aᵥ, bᵥ, iₒ, lₒ]], [(1, [aᵥ, bᵥ, cᵥ, iₒ, jₒ, kₒ]), (-1, [aᵥ, bᵥ, cᵥ, jₒ, iₒ, kₒ])]⟩,
  -- line 2234: lcde,dk,al,ebij->abcijk
  ⟨1, [g_aaaa [lₒ, cᵥ, dᵥ, eᵥ], t1_aa [dᵥ, kₒ], t1_aa [aᵥ, lₒ], t2_aaaa [eᵥ, bᵥ, iₒ, jₒ]], [(1, [aᵥ, bᵥ, cᵥ, iₒ, jₒ, kₒ]), (-1, [aᵥ, bᵥ, cᵥ, iₒ, kₒ, jₒ]), (-1, [bᵥ, aᵥ, cᵥ, iₒ, jₒ, kₒ]), (1, [bᵥ, aᵥ, cᵥ, iₒ, kₒ, jₒ])]⟩,
  -- line 2238: lcde,dj,ei,abkl->abcijk
  ⟨1, [g_aaaa [lₒ, cᵥ, dᵥ, eᵥ], t1_aa [dᵥ, jₒ], t1_aa [eᵥ, iₒ], t2_aaaa [aᵥ, bᵥ, kₒ, lₒ]], [(1, [aᵥ, bᵥ, cᵥ, iₒ, jₒ, kₒ])]⟩,
  -- line 2241: lcde,di,al,ebjk->abcijk
  ⟨1, [g_aaaa [lₒ, cᵥ, dᵥ, eᵥ], t1_aa [dᵥ, iₒ], t1_aa [aᵥ, lₒ], t2_aaaa [eᵥ, bᵥ, jₒ, kₒ]], [(1, [aᵥ, bᵥ, cᵥ, iₒ, jₒ, kₒ]), (-1, [bᵥ, aᵥ, cᵥ, iₒ, jₒ, kₒ])]⟩,
  -- line 2245: mlde,dl,ek,abcijm->abcijk
  ⟨1, [g_aaaa [mₒ, lₒ, dᵥ, eᵥ], t1_aa [dᵥ, lₒ], t1_aa [eᵥ, kₒ], t3_aaaaaa [aᵥ, bᵥ, cᵥ, iₒ, jₒ, mₒ]], [(1, [aᵥ, bᵥ, cᵥ, iₒ, jₒ, kₒ]), (-1, [aᵥ, bᵥ, cᵥ, iₒ, kₒ, jₒ])]⟩,
  -- line 2249: mled,dl,ek,abcijm->abcijk
  ⟨-1, [g_abab [mₒ, lₒ, eᵥ, dᵥ], t1_bb [dᵥ, lₒ], t1_aa [eᵥ, kₒ], t3_aaaaaa [aᵥ, bᵥ, cᵥ, iₒ, jₒ, mₒ]], [(1, [aᵥ, bᵥ, cᵥ, iₒ, jₒ, kₒ]), (-1, [aᵥ, bᵥ, cᵥ, iₒ, kₒ, jₒ])]⟩
  ]

/-- Part 6 of `ccsdt_t3_aaaaaa`. -/
def ccsdt_t3_aaaaaa_6 : Prog := [
  -- line 2253: mlde,dl,ei,abcjkm->abcijk
  ⟨1, [g_aaaa [mₒ, lₒ, dᵥ, eᵥ], t1_aa [dᵥ, lₒ], t1_aa [eᵥ, iₒ], t3_aaaaaa [aᵥ, bᵥ, cᵥ, jₒ, kₒ, mₒ]], [(1, [aᵥ, bᵥ, cᵥ, iₒ, jₒ, kₒ])]⟩,
  -- line 2256: mled,dl,ei,abcjkm->abcijk
  ⟨-1, [g_abab [mₒ, lₒ, eᵥ, dᵥ], t1_bb [dᵥ, lₒ], t1_aa [eᵥ, iₒ], t3_aaaaaa [aᵥ, bᵥ, cᵥ, jₒ, kₒ, mₒ]], [(1, [aᵥ, bᵥ, cᵥ, iₒ, jₒ, kₒ])]⟩,
  -- line 2259: mlde,dl,am,ebcijk->abcijk
  ⟨1, [g_aaaa [mₒ, lₒ, dᵥ, eᵥ], t1_aa [dᵥ, lₒ], t1_aa [aᵥ, mₒ], t3_aaaaaa [eᵥ, bᵥ, cᵥ, iₒ, jₒ, kₒ]], [(1, [aᵥ, bᵥ, cᵥ, iₒ, jₒ, kₒ]), (-1, [bᵥ, aᵥ, cᵥ, iₒ, jₒ, kₒ])]⟩,
  -- line 2263: mled,dl,am,ebcijk->abcijk
  ⟨-1, [g_abab [mₒ, lₒ, eᵥ, dᵥ], t1_bb [dᵥ, lₒ], t1_aa [aᵥ, mₒ], t3_aaaaaa [eᵥ, bᵥ, cᵥ, iₒ, jₒ, kₒ]], [(1, [aᵥ, bᵥ, cᵥ, iₒ, jₒ, kₒ]), (-1, [bᵥ, aᵥ, cᵥ, iₒ, jₒ, kₒ])]⟩,
  -- line 2267: mlde,dl,cm,eabijk->abcijk
  ⟨1, [g_aaaa [mₒ, lₒ, dᵥ, eᵥ], t1_aa [dᵥ, lₒ], t1_aa [cᵥ, mₒ], t3_aaaaaa [eᵥ, aᵥ, bᵥ, iₒ, jₒ, kₒ]], [(1, [aᵥ, bᵥ, cᵥ, iₒ, jₒ, kₒ])]⟩,
  -- line 2270: mled,dl,cm,eabijk->abcijk
  ⟨-1, [g_abab [mₒ, lₒ, eᵥ, dᵥ], t1_bb [dᵥ, lₒ], t1_aa [cᵥ, mₒ], t3_aaaaaa [eᵥ, aᵥ, bᵥ, iₒ, jₒ, kₒ]], [(1, [aᵥ, bᵥ, cᵥ, iₒ, jₒ, kₒ])]⟩,
  -- line 2273: mlde,dk,ej,abciml->abcijk
  ⟨-1/2, [g_aaaa [mₒ, lₒ, dᵥ, eᵥ], t1_aa [dᵥ, kₒ], t1_aa [eᵥ, jₒ], t3_aaaaaa [aᵥ, bᵥ, cᵥ, iₒ, mₒ, lₒ]], [(1, [aᵥ, bᵥ, cᵥ, iₒ, jₒ, kₒ]), (-1, [aᵥ, bᵥ, cᵥ, jₒ, iₒ, kₒ])]⟩,
  -- line 2277: mlde,dk,al,ebcijm->abcijk
  ⟨1, [g_aaaa [mₒ, lₒ, dᵥ, eᵥ], t1_aa [dᵥ, kₒ], t1_aa [aᵥ, lₒ], t3_aaaaaa [eᵥ, bᵥ, cᵥ, iₒ, jₒ, mₒ]], [(1, [aᵥ, bᵥ, cᵥ, iₒ, jₒ, kₒ]), (-1, [aᵥ, bᵥ, cᵥ, iₒ, kₒ, jₒ]), (-1, [bᵥ, aᵥ, cᵥ, iₒ, jₒ, kₒ]), (1, [bᵥ, aᵥ, cᵥ, iₒ, kₒ, jₒ])]⟩,
  -- line 2281: lmde,dk,al,cbeijm->abcijk
  ⟨1, [g_abab [lₒ, mₒ, dᵥ, eᵥ], t1_aa [dᵥ, kₒ], t1_aa [aᵥ, lₒ], t3_aabaab [cᵥ, bᵥ, eᵥ, iₒ, jₒ, mₒ]], [(1, [aᵥ, bᵥ, cᵥ, iₒ, jₒ, kₒ]), (-1, [aᵥ, bᵥ, cᵥ, iₒ, kₒ, jₒ]), (-1, [bᵥ, aᵥ, cᵥ, iₒ, jₒ, kₒ]), (1, [bᵥ, aᵥ, cᵥ, iₒ, kₒ, jₒ])]⟩,
  -- line 2285: mlde,dk,cl,eabijm->abcijk
  ⟨1, [g_aaaa [mₒ, lₒ, dᵥ, eᵥ], t1_aa [dᵥ, kₒ], t1_aa [cᵥ, lₒ], t3_aaaaaa [eᵥ, aᵥ, bᵥ, iₒ, jₒ, mₒ]], [(1, [aᵥ, bᵥ, cᵥ, iₒ, jₒ, kₒ]), (-1, [aᵥ, bᵥ, cᵥ, iₒ, kₒ, jₒ])]⟩,
  -- line 2289: lmde,dk,cl,baeijm->abcijk
  ⟨1, [g_abab [lₒ, mₒ, dᵥ, eᵥ], t1_aa [dᵥ, kₒ], t1_aa [cᵥ, lₒ], t3_aabaab [bᵥ, aᵥ, eᵥ, iₒ, jₒ, mₒ]], [(1, [aᵥ, bᵥ, cᵥ, iₒ, jₒ, kₒ]), (-1, [aᵥ, bᵥ, cᵥ, iₒ, kₒ, jₒ])]⟩,
  -- line 2293: mlde,dj,ei,abckml->abcijk
  ⟨-1/2, [g_aaaa [mₒ, lₒ, dᵥ, eᵥ], t1_aa [dᵥ, jₒ], t1_aa [eᵥ, iₒ], t3_aaaaaa [aᵥ, bᵥ, cᵥ, kₒ, mₒ, lₒ]], [(1, [aᵥ, bᵥ, cᵥ, iₒ, jₒ, kₒ])]⟩,
  -- line 2296: mlde,di,al,ebcjkm->abcijk
  ⟨1, [g_aaaa [mₒ, lₒ, dᵥ, eᵥ], t1_aa [dᵥ, iₒ], t1_aa [aᵥ, lₒ], t3_aaaaaa [eᵥ, bᵥ, cᵥ, jₒ, kₒ, mₒ]], [(1, [aᵥ, bᵥ, cᵥ, iₒ, jₒ, kₒ]), (-1, [bᵥ, aᵥ, cᵥ, iₒ, jₒ, kₒ])]⟩,
  -- line 2300: lmde,di,al,cbejkm->abcijk
  ⟨1, [g_abab [lₒ, mₒ, dᵥ, eᵥ], t1_aa [dᵥ, iₒ], t1_aa [aᵥ, lₒ], t3_aabaab [cᵥ, bᵥ, eᵥ, jₒ, kₒ, mₒ]], [(1, [aᵥ, bᵥ, cᵥ, iₒ, jₒ, kₒ]), (-1, [bᵥ, aᵥ, cᵥ, iₒ, jₒ, kₒ])]⟩,
  -- line 2304: mlde,di,cl,eabjkm->abcijk
  ⟨1, [g_aaaa [mₒ, lₒ, dᵥ, eᵥ], t1_aa [dᵥ, iₒ], t1_aa [cᵥ, lₒ], t3_aaaaaa [eᵥ, aᵥ, bᵥ, jₒ, kₒ, mₒ]], [(1, [aᵥ, bᵥ, cᵥ, iₒ, jₒ, kₒ])]⟩,
  -- line 2307: lmde,di,cl,baejkm->abcijk
  ⟨1, [g_abab [lₒ, mₒ, dᵥ, eᵥ], t1_aa [dᵥ, iₒ], t1_aa [cᵥ, lₒ], t3_aabaab [bᵥ, aᵥ, eᵥ, jₒ, kₒ, mₒ]], [(1, [aᵥ, bᵥ, cᵥ, iₒ, jₒ, kₒ])]⟩,
  -- line 2310: mlde,al,bm,decijk->abcijk
  ⟨-1/2, [g_aaaa [mₒ, lₒ, dᵥ, eᵥ], t1_aa [aᵥ, lₒ], t1_aa [bᵥ, mₒ], t3_aaaaaa [dᵥ, eᵥ, cᵥ, iₒ, jₒ, kₒ]], [(1, [aᵥ, bᵥ, cᵥ, iₒ, jₒ, kₒ]), (-1, [aᵥ, cᵥ, bᵥ, iₒ, jₒ, kₒ])]⟩,
  -- line 2314: mlde,bl,cm,deaijk->abcijk
  ⟨-1/2, [g_aaaa [mₒ, lₒ, dᵥ, eᵥ], t1_aa [bᵥ, lₒ], t1_aa [cᵥ, mₒ], t3_aaaaaa [dᵥ, eᵥ, aᵥ, iₒ, jₒ, kₒ]], [(1, [aᵥ, bᵥ, cᵥ, iₒ, jₒ, kₒ])]⟩,
  -- line 2317: mlde,dk,ej,al,bcim->abcijk
  ⟨-1, [g_aaaa [mₒ, lₒ, dᵥ, eᵥ], t1_aa [dᵥ, kₒ], t1_aa [eᵥ, jₒ], t1_aa [aᵥ, lₒ], t2_aaaa [bᵥ, cᵥ, iₒ, mₒ]], [(1, [aᵥ, bᵥ, cᵥ, iₒ, jₒ, kₒ]), (-1, [aᵥ, bᵥ, cᵥ, jₒ, iₒ, kₒ]), (-1, [bᵥ, aᵥ, cᵥ, iₒ, jₒ, kₒ]), (1, [bᵥ, aᵥ, cᵥ, jₒ, iₒ, kₒ])]⟩,
  -- line 2321: mlde,dk,ej,cl,abim->abcijk
  ⟨-1, [g_aaaa [mₒ, lₒ, dᵥ, eᵥ], t1_aa [dᵥ, kₒ], t1_aa [eᵥ, jₒ], t1_aa [cᵥ, lₒ], t2_aaaa [aᵥ, bᵥ, iₒ, mₒ]], [(1, [aᵥ, bᵥ, cᵥ, iₒ, jₒ, kₒ]), (-1, [aᵥ, bᵥ, cᵥ, jₒ, iₒ, kₒ])]⟩,
  -- line 2325: mlde,dk,al,bm,ecij->abcijk
  ⟨-1, [g_aaaa [mₒ, lₒ, dᵥ, eᵥ], t1_aa [dᵥ, kₒ], t1_aa [aᵥ, lₒ], t1_aa [bᵥ, mₒ], t2_aaaa [eᵥ, cᵥ, iₒ, jₒ]], [(1, [aᵥ, bᵥ, cᵥ, iₒ, jₒ, kₒ]), (-1, [aᵥ, bᵥ, cᵥ, iₒ, kₒ, jₒ]), (-1, [aᵥ, cᵥ, bᵥ, iₒ, jₒ, kₒ]), (1, [aᵥ, cᵥ, bᵥ, iₒ, kₒ, jₒ])]⟩,
  -- line 2329: mlde,dk,bl,cm,eaij->abcijk
  ⟨-1, [g_aaaa [mₒ, lₒ, dᵥ, eᵥ], t1_aa [dᵥ, kₒ], t1_aa [bᵥ, lₒ], t1_aa [cᵥ, mₒ], t2_aaaa [eᵥ, aᵥ, iₒ, jₒ]], [(1, [aᵥ, bᵥ, cᵥ, iₒ, jₒ, kₒ]), (-1, [aᵥ, bᵥ, cᵥ, iₒ, kₒ, jₒ])]⟩,
  -- line 2333: mlde,dj,ei,al,bckm->abcijk
  ⟨-1, [g_aaaa [mₒ, lₒ, dᵥ, eᵥ], t1_aa [dᵥ, jₒ], t1_aa [eᵥ, iₒ], t1_aa [aᵥ, lₒ], t2_aaaa [bᵥ, cᵥ, kₒ, mₒ]], [(1, [aᵥ, bᵥ, cᵥ, iₒ, jₒ, kₒ]), (-1, [bᵥ, aᵥ, cᵥ, iₒ, jₒ, kₒ])]⟩,
  -- line 2337: mlde,dj,ei,cl,abkm->abcijk
  ⟨-1, [g_aaaa [mₒ, lₒ, dᵥ, eᵥ], t1_aa [dᵥ, jₒ], t1_aa [eᵥ, iₒ], t1_aa [cᵥ, lₒ], t2_aaaa [aᵥ, bᵥ, kₒ, mₒ]], [(1, [aᵥ, bᵥ, cᵥ, iₒ, jₒ, kₒ])]⟩,
  -- line 2340: mlde,di,al,bm,ecjk->abcijk
  ⟨-1, [g_aaaa [mₒ, lₒ, dᵥ, eᵥ], t1_aa [dᵥ, iₒ], t1_aa [aᵥ, lₒ], t1_aa [bᵥ, mₒ], t2_aaaa [eᵥ, cᵥ, jₒ, kₒ]], [(1, [aᵥ, bᵥ, cᵥ, iₒ, jₒ, kₒ]), (-1, [aᵥ, cᵥ, bᵥ, iₒ, jₒ, kₒ])]⟩,
  -- line 2344: mlde,di,bl,cm,eajk->abcijk
  ⟨-1, [g_aaaa [mₒ, lₒ, dᵥ, eᵥ], t1_aa [dᵥ, iₒ], t1_aa [bᵥ, lₒ], t1_aa [cᵥ, mₒ], t2_aaaa [eᵥ, aᵥ, jₒ, kₒ]], [(1, [aᵥ, bᵥ, cᵥ, iₒ, jₒ, kₒ])]⟩
  ]

/-- `UT2/fullCCresidEqns.py` 1340-2346, `ccsdt_t3_aaaaaa_residual`. -/
def ccsdt_t3_aaaaaa : Prog := ccsdt_t3_aaaaaa_0 ++ (ccsdt_t3_aaaaaa_1 ++ (ccsdt_t3_aaaaaa_2 ++ (ccsdt_t3_aaaaaa_3 ++ (ccsdt_t3_aaaaaa_4 ++ (ccsdt_t3_aaaaaa_5 ++ (ccsdt_t3_aaaaaa_6))))))

end Verif.Gen
