import Verif.Ein.Names
import Verif.Gen.Antisym

/-! Written by `/verif/tools/gen.py`. Programs read from `/repo/UT2`. -/

set_option maxRecDepth 100000

namespace Verif.Gen

open Verif.Ein Verif.Ein.N


/-- Part 0 of `ccsdt_t3_aabaab`. -/
def ccsdt_t3_aabaab_0 : Prog := [
  -- line 2357: lk,abcijl->abcijk
  ⟨-1, [f_bb [lₒ, kₒ], t3_aabaab [aᵥ, bᵥ, cᵥ, iₒ, jₒ, lₒ]], [(1, [aᵥ, bᵥ, cᵥ, iₒ, jₒ, kₒ])]⟩,
  -- line 2360: lj,abcilk->abcijk
  ⟨-1, [f_aa [lₒ, jₒ], t3_aabaab [aᵥ, bᵥ, cᵥ, iₒ, lₒ, kₒ]], [(1, [aᵥ, bᵥ, cᵥ, iₒ, jₒ, kₒ])]⟩,
  -- line 2363: li,abcjlk->abcijk
  ⟨1, [f_aa [lₒ, iₒ], t3_aabaab [aᵥ, bᵥ, cᵥ, jₒ, lₒ, kₒ]], [(1, [aᵥ, bᵥ, cᵥ, iₒ, jₒ, kₒ])]⟩,
  -- line 2366: ad,dbcijk->abcijk
  ⟨1, [f_aa [aᵥ, dᵥ], t3_aabaab [dᵥ, bᵥ, cᵥ, iₒ, jₒ, kₒ]], [(1, [aᵥ, bᵥ, cᵥ, iₒ, jₒ, kₒ]), (-1, [bᵥ, aᵥ, cᵥ, iₒ, jₒ, kₒ])]⟩,
  -- line 2370: cd,badijk->abcijk
  ⟨-1, [f_bb [cᵥ, dᵥ], t3_aabaab [bᵥ, aᵥ, dᵥ, iₒ, jₒ, kₒ]], [(1, [aᵥ, bᵥ, cᵥ, iₒ, jₒ, kₒ])]⟩,
  -- line 2373: ld,dk,abcijl->abcijk
  ⟨-1, [f_bb [lₒ, dᵥ], t1_bb [dᵥ, kₒ], t3_aabaab [aᵥ, bᵥ, cᵥ, iₒ, jₒ, lₒ]], [(1, [aᵥ, bᵥ, cᵥ, iₒ, jₒ, kₒ])]⟩,
  -- line 2376: ld,dj,abcilk->abcijk
  ⟨-1, [f_aa [lₒ, dᵥ], t1_aa [dᵥ, jₒ], t3_aabaab [aᵥ, bᵥ, cᵥ, iₒ, lₒ, kₒ]], [(1, [aᵥ, bᵥ, cᵥ, iₒ, jₒ, kₒ])]⟩,
  -- line 2379: ld,di,abcjlk->abcijk
  ⟨1, [f_aa [lₒ, dᵥ], t1_aa [dᵥ, iₒ], t3_aabaab [aᵥ, bᵥ, cᵥ, jₒ, lₒ, kₒ]], [(1, [aᵥ, bᵥ, cᵥ, iₒ, jₒ, kₒ])]⟩,
  -- line 2382: ld,al,dbcijk->abcijk
  ⟨-1, [f_aa [lₒ, dᵥ], t1_aa [aᵥ, lₒ], t3_aabaab [dᵥ, bᵥ, cᵥ, iₒ, jₒ, kₒ]], [(1, [aᵥ, bᵥ, cᵥ, iₒ, jₒ, kₒ]), (-1, [bᵥ, aᵥ, cᵥ, iₒ, jₒ, kₒ])]⟩,
  -- line 2386: ld,cl,badijk->abcijk
  ⟨1, [f_bb [lₒ, dᵥ], t1_bb [cᵥ, lₒ], t3_aabaab [bᵥ, aᵥ, dᵥ, iₒ, jₒ, kₒ]], [(1, [aᵥ, bᵥ, cᵥ, iₒ, jₒ, kₒ])]⟩,
  -- line 2389: ld,adjk,bcil->abcijk
  ⟨1, [f_bb [lₒ, dᵥ], t2_abab [aᵥ, dᵥ, jₒ, kₒ], t2_abab [bᵥ, cᵥ, iₒ, lₒ]], [(1, [aᵥ, bᵥ, cᵥ, iₒ, jₒ, kₒ]), (-1, [aᵥ, bᵥ, cᵥ, jₒ, iₒ, kₒ]), (-1, [bᵥ, aᵥ, cᵥ, iₒ, jₒ, kₒ]), (1, [bᵥ, aᵥ, cᵥ, jₒ, iₒ, kₒ])]⟩,
  -- line 2393: ld,daij,bclk->abcijk
  ⟨1, [f_aa [lₒ, dᵥ], t2_aaaa [dᵥ, aᵥ, iₒ, jₒ], t2_abab [bᵥ, cᵥ, lₒ, kₒ]], [(1, [aᵥ, bᵥ, cᵥ, iₒ, jₒ, kₒ]), (-1, [bᵥ, aᵥ, cᵥ, iₒ, jₒ, kₒ])]⟩,
  -- line 2397: ld,dcjk,abil->abcijk
  ⟨-1, [f_aa [lₒ, dᵥ], t2_abab [dᵥ, cᵥ, jₒ, kₒ], t2_aaaa [aᵥ, bᵥ, iₒ, lₒ]], [(1, [aᵥ, bᵥ, cᵥ, iₒ, jₒ, kₒ]), (-1, [aᵥ, bᵥ, cᵥ, jₒ, iₒ, kₒ])]⟩,
  -- line 2401: aljk,bcil->abcijk
  ⟨1, [g_abab [aᵥ, lₒ, jₒ, kₒ], t2_abab [bᵥ, cᵥ, iₒ, lₒ]], [(1, [aᵥ, bᵥ, cᵥ, iₒ, jₒ, kₒ]), (-1, [aᵥ, bᵥ, cᵥ, jₒ, iₒ, kₒ]), (-1, [bᵥ, aᵥ, cᵥ, iₒ, jₒ, kₒ]), (1, [bᵥ, aᵥ, cᵥ, jₒ, iₒ, kₒ])]⟩,
  -- line 2405: laij,bclk->abcijk
  ⟨1, [g_aaaa [lₒ, aᵥ, iₒ, jₒ], t2_abab [bᵥ, cᵥ, lₒ, kₒ]], [(1, [aᵥ, bᵥ, cᵥ, iₒ, jₒ, kₒ]), (-1, [bᵥ, aᵥ, cᵥ, iₒ, jₒ, kₒ])]⟩,
  -- line 2409: lcjk,abil->abcijk
  ⟨-1, [g_abab [lₒ, cᵥ, jₒ, kₒ], t2_aaaa [aᵥ, bᵥ, iₒ, lₒ]], [(1, [aᵥ, bᵥ, cᵥ, iₒ, jₒ, kₒ]), (-1, [aᵥ, bᵥ, cᵥ, jₒ, iₒ, kₒ])]⟩,
  -- line 2413: acdk,dbij->abcijk
  ⟨1, [g_abab [aᵥ, cᵥ, dᵥ, kₒ], t2_aaaa [dᵥ, bᵥ, iₒ, jₒ]], [(1, [aᵥ, bᵥ, cᵥ, iₒ, jₒ, kₒ])]⟩,
  -- line 2416: abdj,dcik->abcijk
  ⟨1, [g_aaaa [aᵥ, bᵥ, dᵥ, jₒ], t2_abab [dᵥ, cᵥ, iₒ, kₒ]], [(1, [aᵥ, bᵥ, cᵥ, iₒ, jₒ, kₒ])]⟩,
  -- line 2419: acjd,bdik->abcijk
  ⟨-1, [g_abab [aᵥ, cᵥ, jₒ, dᵥ], t2_abab [bᵥ, dᵥ, iₒ, kₒ]], [(1, [aᵥ, bᵥ, cᵥ, iₒ, jₒ, kₒ])]⟩,
  -- line 2422: abdi,dcjk->abcijk
  ⟨-1, [g_aaaa [aᵥ, bᵥ, dᵥ, iₒ], t2_abab [dᵥ, cᵥ, jₒ, kₒ]], [(1, [aᵥ, bᵥ, cᵥ, iₒ, jₒ, kₒ])]⟩,
  -- line 2425: acid,bdjk->abcijk
  ⟨1, [g_abab [aᵥ, cᵥ, iₒ, dᵥ], t2_abab [bᵥ, dᵥ, jₒ, kₒ]], [(1, [aᵥ, bᵥ, cᵥ, iₒ, jₒ, kₒ])]⟩,
  -- line 2428: bcdk,daij->abcijk
  ⟨-1, [g_abab [bᵥ, cᵥ, dᵥ, kₒ], t2_aaaa [dᵥ, aᵥ, iₒ, jₒ]], [(1, [aᵥ, bᵥ, cᵥ, iₒ, jₒ, kₒ])]⟩,
  -- line 2431: bcjd,adik->abcijk
  ⟨1, [g_abab [bᵥ, cᵥ, jₒ, dᵥ], t2_abab [aᵥ, dᵥ, iₒ, kₒ]], [(1, [aᵥ, bᵥ, cᵥ, iₒ, jₒ, kₒ])]⟩,
  -- line 2434: bcid,adjk->abcijk
  ⟨-1, [g_abab [bᵥ, cᵥ, iₒ, dᵥ], t2_abab [aᵥ, dᵥ, jₒ, kₒ]], [(1, [aᵥ, bᵥ, cᵥ, iₒ, jₒ, kₒ])]⟩,
  -- line 2437: mljk,abciml->abcijk
  ⟨1/2, [g_abab [mₒ, lₒ, jₒ, kₒ], t3_aabaab [aᵥ, bᵥ, cᵥ, iₒ, mₒ, lₒ]], [(1, [aᵥ, bᵥ, cᵥ, iₒ, jₒ, kₒ]), (-1, [aᵥ, bᵥ, cᵥ, jₒ, iₒ, kₒ])]⟩,
  -- line 2441: lmjk,abcilm->abcijk
  ⟨1/2, [g_abab [lₒ, mₒ, jₒ, kₒ], t3_aabaab [aᵥ, bᵥ, cᵥ, iₒ, lₒ, mₒ]], [(1, [aᵥ, bᵥ, cᵥ, iₒ, jₒ, kₒ]), (-1, [aᵥ, bᵥ, cᵥ, jₒ, iₒ, kₒ])]⟩,
  -- line 2445: mlij,abclmk->abcijk
  ⟨-1/2, [g_aaaa [mₒ, lₒ, iₒ, jₒ], t3_aabaab [aᵥ, bᵥ, cᵥ, lₒ, mₒ, kₒ]], [(1, [aᵥ, bᵥ, cᵥ, iₒ, jₒ, kₒ])]⟩,
  -- line 2448: aldk,dbcijl->abcijk
  ⟨-1, [g_abab [aᵥ, lₒ, dᵥ, kₒ], t3_aabaab [dᵥ, bᵥ, cᵥ, iₒ, jₒ, lₒ]], [(1, [aᵥ, bᵥ, cᵥ, iₒ, jₒ, kₒ]), (-1, [bᵥ, aᵥ, cᵥ, iₒ, jₒ, kₒ])]⟩,
  -- line 2452: ladj,dbcilk->abcijk
  ⟨1, [g_aaaa [lₒ, aᵥ, dᵥ, jₒ], t3_aabaab [dᵥ, bᵥ, cᵥ, iₒ, lₒ, kₒ]], [(1, [aᵥ, bᵥ, cᵥ, iₒ, jₒ, kₒ]), (-1, [bᵥ, aᵥ, cᵥ, iₒ, jₒ, kₒ])]⟩,
  -- line 2456: aljd,bdcikl->abcijk
  ⟨1, [g_abab [aᵥ, lₒ, jₒ, dᵥ], t3_abbabb [bᵥ, dᵥ, cᵥ, iₒ, kₒ, lₒ]], [(1, [aᵥ, bᵥ, cᵥ, iₒ, jₒ, kₒ]), (-1, [bᵥ, aᵥ, cᵥ, iₒ, jₒ, kₒ])]⟩,
  -- line 2460: ladi,dbcjlk->abcijk
  ⟨-1, [g_aaaa [lₒ, aᵥ, dᵥ, iₒ], t3_aabaab [dᵥ, bᵥ, cᵥ, jₒ, lₒ, kₒ]], [(1, [aᵥ, bᵥ, cᵥ, iₒ, jₒ, kₒ]), (-1, [bᵥ, aᵥ, cᵥ, iₒ, jₒ, kₒ])]⟩,
  -- line 2464: alid,bdcjkl->abcijk
  ⟨-1, [g_abab [aᵥ, lₒ, iₒ, dᵥ], t3_abbabb [bᵥ, dᵥ, cᵥ, jₒ, kₒ, lₒ]], [(1, [aᵥ, bᵥ, cᵥ, iₒ, jₒ, kₒ]), (-1, [bᵥ, aᵥ, cᵥ, iₒ, jₒ, kₒ])]⟩,
  -- line 2468: lcdk,dabijl->abcijk
  ⟨1, [g_abab [lₒ, cᵥ, dᵥ, kₒ], t3_aaaaaa [dᵥ, aᵥ, bᵥ, iₒ, jₒ, lₒ]], [(1, [aᵥ, bᵥ, cᵥ, iₒ, jₒ, kₒ])]⟩,
  -- line 2471: lcdk,badijl->abcijk
  ⟨-1, [g_bbbb [lₒ, cᵥ, dᵥ, kₒ], t3_aabaab [bᵥ, aᵥ, dᵥ, iₒ, jₒ, lₒ]], [(1, [aᵥ, bᵥ, cᵥ, iₒ, jₒ, kₒ])]⟩,
  -- line 2474: lcjd,badilk->abcijk
  ⟨1, [g_abab [lₒ, cᵥ, jₒ, dᵥ], t3_aabaab [bᵥ, aᵥ, dᵥ, iₒ, lₒ, kₒ]], [(1, [aᵥ, bᵥ, cᵥ, iₒ, jₒ, kₒ])]⟩,
  -- line 2477: lcid,badjlk->abcijk
  ⟨-1, [g_abab [lₒ, cᵥ, iₒ, dᵥ], t3_aabaab [bᵥ, aᵥ, dᵥ, jₒ, lₒ, kₒ]], [(1, [aᵥ, bᵥ, cᵥ, iₒ, jₒ, kₒ])]⟩,
  -- line 2480: abde,decijk->abcijk
  ⟨1/2, [g_aaaa [aᵥ, bᵥ, dᵥ, eᵥ], t3_aabaab [dᵥ, eᵥ, cᵥ, iₒ, jₒ, kₒ]], [(1, [aᵥ, bᵥ, cᵥ, iₒ, jₒ, kₒ])]⟩,
  -- line 2483: acde,dbeijk->abcijk
  ⟨1/2, [g_abab [aᵥ, cᵥ, dᵥ, eᵥ], t3_aabaab [dᵥ, bᵥ, eᵥ, iₒ, jₒ, kₒ]], [(1, [aᵥ, bᵥ, cᵥ, iₒ, jₒ, kₒ])]⟩,
  -- line 2486: aced,bedijk->abcijk
  ⟨-1/2, [g_abab [aᵥ, cᵥ, eᵥ, dᵥ], t3_aabaab [bᵥ, eᵥ, dᵥ, iₒ, jₒ, kₒ]], [(1, [aᵥ, bᵥ, cᵥ, iₒ, jₒ, kₒ])]⟩,
  -- line 2489: bcde,daeijk->abcijk
  ⟨-1/2, [g_abab [bᵥ, cᵥ, dᵥ, eᵥ], t3_aabaab [dᵥ, aᵥ, eᵥ, iₒ, jₒ, kₒ]], [(1, [aᵥ, bᵥ, cᵥ, iₒ, jₒ, kₒ])]⟩
  ]

/-- Part 1 of `ccsdt_t3_aabaab`. -/
def ccsdt_t3_aabaab_1 : Prog := [
  -- line 2492: bced,aedijk->abcijk
  ⟨1/2, [g_abab [bᵥ, cᵥ, eᵥ, dᵥ], t3_aabaab [aᵥ, eᵥ, dᵥ, iₒ, jₒ, kₒ]], [(1, [aᵥ, bᵥ, cᵥ, iₒ, jₒ, kₒ])]⟩,
  -- line 2495: lmjk,al,bcim->abcijk
  ⟨-1, [g_abab [lₒ, mₒ, jₒ, kₒ], t1_aa [aᵥ, lₒ], t2_abab [bᵥ, cᵥ, iₒ, mₒ]], [(1, [aᵥ, bᵥ, cᵥ, iₒ, jₒ, kₒ]), (-1, [aᵥ, bᵥ, cᵥ, jₒ, iₒ, kₒ]), (-1, [bᵥ, aᵥ, cᵥ, iₒ, jₒ, kₒ]), (1, [bᵥ, aᵥ, cᵥ, jₒ, iₒ, kₒ])]⟩,
  -- line 2499: mljk,cl,abim->abcijk
  ⟨1, [g_abab [mₒ, lₒ, jₒ, kₒ], t1_bb [cᵥ, lₒ], t2_aaaa [aᵥ, bᵥ, iₒ, mₒ]], [(1, [aᵥ, bᵥ, cᵥ, iₒ, jₒ, kₒ]), (-1, [aᵥ, bᵥ, cᵥ, jₒ, iₒ, kₒ])]⟩,
  -- line 2503: mlij,al,bcmk->abcijk
  ⟨-1, [g_aaaa [mₒ, lₒ, iₒ, jₒ], t1_aa [aᵥ, lₒ], t2_abab [bᵥ, cᵥ, mₒ, kₒ]], [(1, [aᵥ, bᵥ, cᵥ, iₒ, jₒ, kₒ]), (-1, [bᵥ, aᵥ, cᵥ, iₒ, jₒ, kₒ])]⟩,
  -- line 2507: aldk,dj,bcil->abcijk
  ⟨1, [g_abab [aᵥ, lₒ, dᵥ, kₒ], t1_aa [dᵥ, jₒ], t2_abab [bᵥ, cᵥ, iₒ, lₒ]], [(1, [aᵥ, bᵥ, cᵥ, iₒ, jₒ, kₒ]), (-1, [aᵥ, bᵥ, cᵥ, jₒ, iₒ, kₒ]), (-1, [bᵥ, aᵥ, cᵥ, iₒ, jₒ, kₒ]), (1, [bᵥ, aᵥ, cᵥ, jₒ, iₒ, kₒ])]⟩,
  -- line 2511: aldk,cl,dbij->abcijk
  ⟨-1, [g_abab [aᵥ, lₒ, dᵥ, kₒ], t1_bb [cᵥ, lₒ], t2_aaaa [dᵥ, bᵥ, iₒ, jₒ]], [(1, [aᵥ, bᵥ, cᵥ, iₒ, jₒ, kₒ])]⟩,
  -- line 2514: ladj,bl,dcik->abcijk
  ⟨1, [g_aaaa [lₒ, aᵥ, dᵥ, jₒ], t1_aa [bᵥ, lₒ], t2_abab [dᵥ, cᵥ, iₒ, kₒ]], [(1, [aᵥ, bᵥ, cᵥ, iₒ, jₒ, kₒ])]⟩,
  -- line 2517: aljd,cl,bdik->abcijk
  ⟨1, [g_abab [aᵥ, lₒ, jₒ, dᵥ], t1_bb [cᵥ, lₒ], t2_abab [bᵥ, dᵥ, iₒ, kₒ]], [(1, [aᵥ, bᵥ, cᵥ, iₒ, jₒ, kₒ])]⟩,
  -- line 2520: aljd,dk,bcil->abcijk
  ⟨1, [g_abab [aᵥ, lₒ, jₒ, dᵥ], t1_bb [dᵥ, kₒ], t2_abab [bᵥ, cᵥ, iₒ, lₒ]], [(1, [aᵥ, bᵥ, cᵥ, iₒ, jₒ, kₒ]), (-1, [bᵥ, aᵥ, cᵥ, iₒ, jₒ, kₒ])]⟩,
  -- line 2524: ladj,di,bclk->abcijk
  ⟨1, [g_aaaa [lₒ, aᵥ, dᵥ, jₒ], t1_aa [dᵥ, iₒ], t2_abab [bᵥ, cᵥ, lₒ, kₒ]], [(1, [aᵥ, bᵥ, cᵥ, iₒ, jₒ, kₒ]), (-1, [bᵥ, aᵥ, cᵥ, iₒ, jₒ, kₒ])]⟩,
  -- line 2528: alid,dk,bcjl->abcijk
  ⟨-1, [g_abab [aᵥ, lₒ, iₒ, dᵥ], t1_bb [dᵥ, kₒ], t2_abab [bᵥ, cᵥ, jₒ, lₒ]], [(1, [aᵥ, bᵥ, cᵥ, iₒ, jₒ, kₒ]), (-1, [bᵥ, aᵥ, cᵥ, iₒ, jₒ, kₒ])]⟩,
  -- line 2532: ladi,dj,bclk->abcijk
  ⟨-1, [g_aaaa [lₒ, aᵥ, dᵥ, iₒ], t1_aa [dᵥ, jₒ], t2_abab [bᵥ, cᵥ, lₒ, kₒ]], [(1, [aᵥ, bᵥ, cᵥ, iₒ, jₒ, kₒ]), (-1, [bᵥ, aᵥ, cᵥ, iₒ, jₒ, kₒ])]⟩,
  -- line 2536: ladi,bl,dcjk->abcijk
  ⟨-1, [g_aaaa [lₒ, aᵥ, dᵥ, iₒ], t1_aa [bᵥ, lₒ], t2_abab [dᵥ, cᵥ, jₒ, kₒ]], [(1, [aᵥ, bᵥ, cᵥ, iₒ, jₒ, kₒ])]⟩,
  -- line 2539: alid,cl,bdjk->abcijk
  ⟨-1, [g_abab [aᵥ, lₒ, iₒ, dᵥ], t1_bb [cᵥ, lₒ], t2_abab [bᵥ, dᵥ, jₒ, kₒ]], [(1, [aᵥ, bᵥ, cᵥ, iₒ, jₒ, kₒ])]⟩,
  -- line 2542: bldk,cl,daij->abcijk
  ⟨1, [g_abab [bᵥ, lₒ, dᵥ, kₒ], t1_bb [cᵥ, lₒ], t2_aaaa [dᵥ, aᵥ, iₒ, jₒ]], [(1, [aᵥ, bᵥ, cᵥ, iₒ, jₒ, kₒ])]⟩,
  -- line 2545: lbdj,al,dcik->abcijk
  ⟨-1, [g_aaaa [lₒ, bᵥ, dᵥ, jₒ], t1_aa [aᵥ, lₒ], t2_abab [dᵥ, cᵥ, iₒ, kₒ]], [(1, [aᵥ, bᵥ, cᵥ, iₒ, jₒ, kₒ])]⟩,
  -- line 2548: bljd,cl,adik->abcijk
  ⟨-1, [g_abab [bᵥ, lₒ, jₒ, dᵥ], t1_bb [cᵥ, lₒ], t2_abab [aᵥ, dᵥ, iₒ, kₒ]], [(1, [aᵥ, bᵥ, cᵥ, iₒ, jₒ, kₒ])]⟩,
  -- line 2551: lbdi,al,dcjk->abcijk
  ⟨1, [g_aaaa [lₒ, bᵥ, dᵥ, iₒ], t1_aa [aᵥ, lₒ], t2_abab [dᵥ, cᵥ, jₒ, kₒ]], [(1, [aᵥ, bᵥ, cᵥ, iₒ, jₒ, kₒ])]⟩,
  -- line 2554: blid,cl,adjk->abcijk
  ⟨1, [g_abab [bᵥ, lₒ, iₒ, dᵥ], t1_bb [cᵥ, lₒ], t2_abab [aᵥ, dᵥ, jₒ, kₒ]], [(1, [aᵥ, bᵥ, cᵥ, iₒ, jₒ, kₒ])]⟩,
  -- line 2557: lcdk,dj,abil->abcijk
  ⟨-1, [g_abab [lₒ, cᵥ, dᵥ, kₒ], t1_aa [dᵥ, jₒ], t2_aaaa [aᵥ, bᵥ, iₒ, lₒ]], [(1, [aᵥ, bᵥ, cᵥ, iₒ, jₒ, kₒ]), (-1, [aᵥ, bᵥ, cᵥ, jₒ, iₒ, kₒ])]⟩,
  -- line 2561: lcdk,al,dbij->abcijk
  ⟨-1, [g_abab [lₒ, cᵥ, dᵥ, kₒ], t1_aa [aᵥ, lₒ], t2_aaaa [dᵥ, bᵥ, iₒ, jₒ]], [(1, [aᵥ, bᵥ, cᵥ, iₒ, jₒ, kₒ]), (-1, [bᵥ, aᵥ, cᵥ, iₒ, jₒ, kₒ])]⟩,
  -- line 2565: lcjd,al,bdik->abcijk
  ⟨1, [g_abab [lₒ, cᵥ, jₒ, dᵥ], t1_aa [aᵥ, lₒ], t2_abab [bᵥ, dᵥ, iₒ, kₒ]], [(1, [aᵥ, bᵥ, cᵥ, iₒ, jₒ, kₒ]), (-1, [bᵥ, aᵥ, cᵥ, iₒ, jₒ, kₒ])]⟩,
  -- line 2569: lcjd,dk,abil->abcijk
  ⟨-1, [g_abab [lₒ, cᵥ, jₒ, dᵥ], t1_bb [dᵥ, kₒ], t2_aaaa [aᵥ, bᵥ, iₒ, lₒ]], [(1, [aᵥ, bᵥ, cᵥ, iₒ, jₒ, kₒ])]⟩,
  -- line 2572: lcid,dk,abjl->abcijk
  ⟨1, [g_abab [lₒ, cᵥ, iₒ, dᵥ], t1_bb [dᵥ, kₒ], t2_aaaa [aᵥ, bᵥ, jₒ, lₒ]], [(1, [aᵥ, bᵥ, cᵥ, iₒ, jₒ, kₒ])]⟩,
  -- line 2575: lcid,al,bdjk->abcijk
  ⟨-1, [g_abab [lₒ, cᵥ, iₒ, dᵥ], t1_aa [aᵥ, lₒ], t2_abab [bᵥ, dᵥ, jₒ, kₒ]], [(1, [aᵥ, bᵥ, cᵥ, iₒ, jₒ, kₒ]), (-1, [bᵥ, aᵥ, cᵥ, iₒ, jₒ, kₒ])]⟩,
  -- line 2579: aced,dk,ebij->abcijk
  ⟨1, [g_abab [aᵥ, cᵥ, eᵥ, dᵥ], t1_bb [dᵥ, kₒ], t2_aaaa [eᵥ, bᵥ, iₒ, jₒ]], [(1, [aᵥ, bᵥ, cᵥ, iₒ, jₒ, kₒ])]⟩,
  -- line 2582: abde,dj,ecik->abcijk
  ⟨-1, [g_aaaa [aᵥ, bᵥ, dᵥ, eᵥ], t1_aa [dᵥ, jₒ], t2_abab [eᵥ, cᵥ, iₒ, kₒ]], [(1, [aᵥ, bᵥ, cᵥ, iₒ, jₒ, kₒ])]⟩,
  -- line 2585: acde,dj,beik->abcijk
  ⟨-1, [g_abab [aᵥ, cᵥ, dᵥ, eᵥ], t1_aa [dᵥ, jₒ], t2_abab [bᵥ, eᵥ, iₒ, kₒ]], [(1, [aᵥ, bᵥ, cᵥ, iₒ, jₒ, kₒ])]⟩,
  -- line 2588: abde,di,ecjk->abcijk
  ⟨1, [g_aaaa [aᵥ, bᵥ, dᵥ, eᵥ], t1_aa [dᵥ, iₒ], t2_abab [eᵥ, cᵥ, jₒ, kₒ]], [(1, [aᵥ, bᵥ, cᵥ, iₒ, jₒ, kₒ])]⟩,
  -- line 2591: acde,di,bejk->abcijk
  ⟨1, [g_abab [aᵥ, cᵥ, dᵥ, eᵥ], t1_aa [dᵥ, iₒ], t2_abab [bᵥ, eᵥ, jₒ, kₒ]], [(1, [aᵥ, bᵥ, cᵥ, iₒ, jₒ, kₒ])]⟩,
  -- line 2594: bced,dk,eaij->abcijk
  ⟨-1, [g_abab [bᵥ, cᵥ, eᵥ, dᵥ], t1_bb [dᵥ, kₒ], t2_aaaa [eᵥ, aᵥ, iₒ, jₒ]], [(1, [aᵥ, bᵥ, cᵥ, iₒ, jₒ, kₒ])]⟩,
  -- line 2597: bcde,dj,aeik->abcijk
  ⟨1, [g_abab [bᵥ, cᵥ, dᵥ, eᵥ], t1_aa [dᵥ, jₒ], t2_abab [aᵥ, eᵥ, iₒ, kₒ]], [(1, [aᵥ, bᵥ, cᵥ, iₒ, jₒ, kₒ])]⟩,
  -- line 2600: bcde,di,aejk->abcijk
  ⟨-1, [g_abab [bᵥ, cᵥ, dᵥ, eᵥ], t1_aa [dᵥ, iₒ], t2_abab [aᵥ, eᵥ, jₒ, kₒ]], [(1, [aᵥ, bᵥ, cᵥ, iₒ, jₒ, kₒ])]⟩,
  -- line 2603: lmdk,dl,abcijm->abcijk
  ⟨-1, [g_abab [lₒ, mₒ, dᵥ, kₒ], t1_aa [dᵥ, lₒ], t3_aabaab [aᵥ, bᵥ, cᵥ, iₒ, jₒ, mₒ]], [(1, [aᵥ, bᵥ, cᵥ, iₒ, jₒ, kₒ])]⟩,
  -- line 2606: mldk,dl,abcijm->abcijk
  ⟨1, [g_bbbb [mₒ, lₒ, dᵥ, kₒ], t1_bb [dᵥ, lₒ], t3_aabaab [aᵥ, bᵥ, cᵥ, iₒ, jₒ, mₒ]], [(1, [aᵥ, bᵥ, cᵥ, iₒ, jₒ, kₒ])]⟩,
  -- line 2609: mldj,dl,abcimk->abcijk
  ⟨1, [g_aaaa [mₒ, lₒ, dᵥ, jₒ], t1_aa [dᵥ, lₒ], t3_aabaab [aᵥ, bᵥ, cᵥ, iₒ, mₒ, kₒ]], [(1, [aᵥ, bᵥ, cᵥ, iₒ, jₒ, kₒ])]⟩,
  -- line 2612: mljd,dl,abcimk->abcijk
  ⟨-1, [g_abab [mₒ, lₒ, jₒ, dᵥ], t1_bb [dᵥ, lₒ], t3_aabaab [aᵥ, bᵥ, cᵥ, iₒ, mₒ, kₒ]], [(1, [aᵥ, bᵥ, cᵥ, iₒ, jₒ, kₒ])]⟩,
  -- line 2615: mldk,dj,abciml->abcijk
  ⟨1/2, [g_abab [mₒ, lₒ, dᵥ, kₒ], t1_aa [dᵥ, jₒ], t3_aabaab [aᵥ, bᵥ, cᵥ, iₒ, mₒ, lₒ]], [(1, [aᵥ, bᵥ, cᵥ, iₒ, jₒ, kₒ]), (-1, [aᵥ, bᵥ, cᵥ, jₒ, iₒ, kₒ])]⟩,
  -- line 2619: lmdk,dj,abcilm->abcijk
  ⟨1/2, [g_abab [lₒ, mₒ, dᵥ, kₒ], t1_aa [dᵥ, jₒ], t3_aabaab [aᵥ, bᵥ, cᵥ, iₒ, lₒ, mₒ]], [(1, [aᵥ, bᵥ, cᵥ, iₒ, jₒ, kₒ]), (-1, [aᵥ, bᵥ, cᵥ, jₒ, iₒ, kₒ])]⟩,
  -- line 2623: lmdk,al,dbcijm->abcijk
  ⟨1, [g_abab [lₒ, mₒ, dᵥ, kₒ], t1_aa [aᵥ, lₒ], t3_aabaab [dᵥ, bᵥ, cᵥ, iₒ, jₒ, mₒ]], [(1, [aᵥ, bᵥ, cᵥ, iₒ, jₒ, kₒ]), (-1, [bᵥ, aᵥ, cᵥ, iₒ, jₒ, kₒ])]⟩
  ]

/-- Part 2 of `ccsdt_t3_aabaab`. -/
def ccsdt_t3_aabaab_2 : Prog := [
  -- line 2627: mldj,al,dbcimk->abcijk
  ⟨-1, [g_aaaa [mₒ, lₒ, dᵥ, jₒ], t1_aa [aᵥ, lₒ], t3_aabaab [dᵥ, bᵥ, cᵥ, iₒ, mₒ, kₒ]], [(1, [aᵥ, bᵥ, cᵥ, iₒ, jₒ, kₒ]), (-1, [bᵥ, aᵥ, cᵥ, iₒ, jₒ, kₒ])]⟩,
  -- line 2631: lmjd,al,bdcikm->abcijk
  ⟨-1, [g_abab [lₒ, mₒ, jₒ, dᵥ], t1_aa [aᵥ, lₒ], t3_abbabb [bᵥ, dᵥ, cᵥ, iₒ, kₒ, mₒ]], [(1, [aᵥ, bᵥ, cᵥ, iₒ, jₒ, kₒ]), (-1, [bᵥ, aᵥ, cᵥ, iₒ, jₒ, kₒ])]⟩,
  -- line 2635: mldk,cl,dabijm->abcijk
  ⟨-1, [g_abab [mₒ, lₒ, dᵥ, kₒ], t1_bb [cᵥ, lₒ], t3_aaaaaa [dᵥ, aᵥ, bᵥ, iₒ, jₒ, mₒ]], [(1, [aᵥ, bᵥ, cᵥ, iₒ, jₒ, kₒ])]⟩,
  -- line 2638: mldk,cl,badijm->abcijk
  ⟨1, [g_bbbb [mₒ, lₒ, dᵥ, kₒ], t1_bb [cᵥ, lₒ], t3_aabaab [bᵥ, aᵥ, dᵥ, iₒ, jₒ, mₒ]], [(1, [aᵥ, bᵥ, cᵥ, iₒ, jₒ, kₒ])]⟩,
  -- line 2641: mljd,cl,badimk->abcijk
  ⟨-1, [g_abab [mₒ, lₒ, jₒ, dᵥ], t1_bb [cᵥ, lₒ], t3_aabaab [bᵥ, aᵥ, dᵥ, iₒ, mₒ, kₒ]], [(1, [aᵥ, bᵥ, cᵥ, iₒ, jₒ, kₒ])]⟩,
  -- line 2644: mljd,dk,abciml->abcijk
  ⟨1/2, [g_abab [mₒ, lₒ, jₒ, dᵥ], t1_bb [dᵥ, kₒ], t3_aabaab [aᵥ, bᵥ, cᵥ, iₒ, mₒ, lₒ]], [(1, [aᵥ, bᵥ, cᵥ, iₒ, jₒ, kₒ])]⟩,
  -- line 2647: lmjd,dk,abcilm->abcijk
  ⟨1/2, [g_abab [lₒ, mₒ, jₒ, dᵥ], t1_bb [dᵥ, kₒ], t3_aabaab [aᵥ, bᵥ, cᵥ, iₒ, lₒ, mₒ]], [(1, [aᵥ, bᵥ, cᵥ, iₒ, jₒ, kₒ])]⟩,
  -- line 2650: mldj,di,abclmk->abcijk
  ⟨-1/2, [g_aaaa [mₒ, lₒ, dᵥ, jₒ], t1_aa [dᵥ, iₒ], t3_aabaab [aᵥ, bᵥ, cᵥ, lₒ, mₒ, kₒ]], [(1, [aᵥ, bᵥ, cᵥ, iₒ, jₒ, kₒ])]⟩,
  -- line 2653: mldi,dl,abcjmk->abcijk
  ⟨-1, [g_aaaa [mₒ, lₒ, dᵥ, iₒ], t1_aa [dᵥ, lₒ], t3_aabaab [aᵥ, bᵥ, cᵥ, jₒ, mₒ, kₒ]], [(1, [aᵥ, bᵥ, cᵥ, iₒ, jₒ, kₒ])]⟩,
  -- line 2656: mlid,dl,abcjmk->abcijk
  ⟨1, [g_abab [mₒ, lₒ, iₒ, dᵥ], t1_bb [dᵥ, lₒ], t3_aabaab [aᵥ, bᵥ, cᵥ, jₒ, mₒ, kₒ]], [(1, [aᵥ, bᵥ, cᵥ, iₒ, jₒ, kₒ])]⟩,
  -- line 2659: mlid,dk,abcjml->abcijk
  ⟨-1/2, [g_abab [mₒ, lₒ, iₒ, dᵥ], t1_bb [dᵥ, kₒ], t3_aabaab [aᵥ, bᵥ, cᵥ, jₒ, mₒ, lₒ]], [(1, [aᵥ, bᵥ, cᵥ, iₒ, jₒ, kₒ])]⟩,
  -- line 2662: lmid,dk,abcjlm->abcijk
  ⟨-1/2, [g_abab [lₒ, mₒ, iₒ, dᵥ], t1_bb [dᵥ, kₒ], t3_aabaab [aᵥ, bᵥ, cᵥ, jₒ, lₒ, mₒ]], [(1, [aᵥ, bᵥ, cᵥ, iₒ, jₒ, kₒ])]⟩,
  -- line 2665: mldi,dj,abclmk->abcijk
  ⟨1/2, [g_aaaa [mₒ, lₒ, dᵥ, iₒ], t1_aa [dᵥ, jₒ], t3_aabaab [aᵥ, bᵥ, cᵥ, lₒ, mₒ, kₒ]], [(1, [aᵥ, bᵥ, cᵥ, iₒ, jₒ, kₒ])]⟩,
  -- line 2668: mldi,al,dbcjmk->abcijk
  ⟨1, [g_aaaa [mₒ, lₒ, dᵥ, iₒ], t1_aa [aᵥ, lₒ], t3_aabaab [dᵥ, bᵥ, cᵥ, jₒ, mₒ, kₒ]], [(1, [aᵥ, bᵥ, cᵥ, iₒ, jₒ, kₒ]), (-1, [bᵥ, aᵥ, cᵥ, iₒ, jₒ, kₒ])]⟩,
  -- line 2672: lmid,al,bdcjkm->abcijk
  ⟨1, [g_abab [lₒ, mₒ, iₒ, dᵥ], t1_aa [aᵥ, lₒ], t3_abbabb [bᵥ, dᵥ, cᵥ, jₒ, kₒ, mₒ]], [(1, [aᵥ, bᵥ, cᵥ, iₒ, jₒ, kₒ]), (-1, [bᵥ, aᵥ, cᵥ, iₒ, jₒ, kₒ])]⟩,
  -- line 2676: mlid,cl,badjmk->abcijk
  ⟨1, [g_abab [mₒ, lₒ, iₒ, dᵥ], t1_bb [cᵥ, lₒ], t3_aabaab [bᵥ, aᵥ, dᵥ, jₒ, mₒ, kₒ]], [(1, [aᵥ, bᵥ, cᵥ, iₒ, jₒ, kₒ])]⟩,
  -- line 2679: lade,dl,ebcijk->abcijk
  ⟨1, [g_aaaa [lₒ, aᵥ, dᵥ, eᵥ], t1_aa [dᵥ, lₒ], t3_aabaab [eᵥ, bᵥ, cᵥ, iₒ, jₒ, kₒ]], [(1, [aᵥ, bᵥ, cᵥ, iₒ, jₒ, kₒ]), (-1, [bᵥ, aᵥ, cᵥ, iₒ, jₒ, kₒ])]⟩,
  -- line 2683: aled,dl,ebcijk->abcijk
  ⟨1, [g_abab [aᵥ, lₒ, eᵥ, dᵥ], t1_bb [dᵥ, lₒ], t3_aabaab [eᵥ, bᵥ, cᵥ, iₒ, jₒ, kₒ]], [(1, [aᵥ, bᵥ, cᵥ, iₒ, jₒ, kₒ]), (-1, [bᵥ, aᵥ, cᵥ, iₒ, jₒ, kₒ])]⟩,
  -- line 2687: aled,dk,ebcijl->abcijk
  ⟨-1, [g_abab [aᵥ, lₒ, eᵥ, dᵥ], t1_bb [dᵥ, kₒ], t3_aabaab [eᵥ, bᵥ, cᵥ, iₒ, jₒ, lₒ]], [(1, [aᵥ, bᵥ, cᵥ, iₒ, jₒ, kₒ]), (-1, [bᵥ, aᵥ, cᵥ, iₒ, jₒ, kₒ])]⟩,
  -- line 2691: lade,dj,ebcilk->abcijk
  ⟨-1, [g_aaaa [lₒ, aᵥ, dᵥ, eᵥ], t1_aa [dᵥ, jₒ], t3_aabaab [eᵥ, bᵥ, cᵥ, iₒ, lₒ, kₒ]], [(1, [aᵥ, bᵥ, cᵥ, iₒ, jₒ, kₒ]), (-1, [bᵥ, aᵥ, cᵥ, iₒ, jₒ, kₒ])]⟩,
  -- line 2695: alde,dj,becikl->abcijk
  ⟨1, [g_abab [aᵥ, lₒ, dᵥ, eᵥ], t1_aa [dᵥ, jₒ], t3_abbabb [bᵥ, eᵥ, cᵥ, iₒ, kₒ, lₒ]], [(1, [aᵥ, bᵥ, cᵥ, iₒ, jₒ, kₒ]), (-1, [bᵥ, aᵥ, cᵥ, iₒ, jₒ, kₒ])]⟩,
  -- line 2699: lade,di,ebcjlk->abcijk
  ⟨1, [g_aaaa [lₒ, aᵥ, dᵥ, eᵥ], t1_aa [dᵥ, iₒ], t3_aabaab [eᵥ, bᵥ, cᵥ, jₒ, lₒ, kₒ]], [(1, [aᵥ, bᵥ, cᵥ, iₒ, jₒ, kₒ]), (-1, [bᵥ, aᵥ, cᵥ, iₒ, jₒ, kₒ])]⟩,
  -- line 2703: alde,di,becjkl->abcijk
  ⟨-1, [g_abab [aᵥ, lₒ, dᵥ, eᵥ], t1_aa [dᵥ, iₒ], t3_abbabb [bᵥ, eᵥ, cᵥ, jₒ, kₒ, lₒ]], [(1, [aᵥ, bᵥ, cᵥ, iₒ, jₒ, kₒ]), (-1, [bᵥ, aᵥ, cᵥ, iₒ, jₒ, kₒ])]⟩,
  -- line 2707: lade,bl,decijk->abcijk
  ⟨1/2, [g_aaaa [lₒ, aᵥ, dᵥ, eᵥ], t1_aa [bᵥ, lₒ], t3_aabaab [dᵥ, eᵥ, cᵥ, iₒ, jₒ, kₒ]], [(1, [aᵥ, bᵥ, cᵥ, iₒ, jₒ, kₒ])]⟩,
  -- line 2710: alde,cl,dbeijk->abcijk
  ⟨-1/2, [g_abab [aᵥ, lₒ, dᵥ, eᵥ], t1_bb [cᵥ, lₒ], t3_aabaab [dᵥ, bᵥ, eᵥ, iₒ, jₒ, kₒ]], [(1, [aᵥ, bᵥ, cᵥ, iₒ, jₒ, kₒ])]⟩,
  -- line 2713: aled,cl,bedijk->abcijk
  ⟨1/2, [g_abab [aᵥ, lₒ, eᵥ, dᵥ], t1_bb [cᵥ, lₒ], t3_aabaab [bᵥ, eᵥ, dᵥ, iₒ, jₒ, kₒ]], [(1, [aᵥ, bᵥ, cᵥ, iₒ, jₒ, kₒ])]⟩,
  -- line 2716: lbde,al,decijk->abcijk
  ⟨-1/2, [g_aaaa [lₒ, bᵥ, dᵥ, eᵥ], t1_aa [aᵥ, lₒ], t3_aabaab [dᵥ, eᵥ, cᵥ, iₒ, jₒ, kₒ]], [(1, [aᵥ, bᵥ, cᵥ, iₒ, jₒ, kₒ])]⟩,
  -- line 2719: blde,cl,daeijk->abcijk
  ⟨1/2, [g_abab [bᵥ, lₒ, dᵥ, eᵥ], t1_bb [cᵥ, lₒ], t3_aabaab [dᵥ, aᵥ, eᵥ, iₒ, jₒ, kₒ]], [(1, [aᵥ, bᵥ, cᵥ, iₒ, jₒ, kₒ])]⟩,
  -- line 2722: bled,cl,aedijk->abcijk
  ⟨-1/2, [g_abab [bᵥ, lₒ, eᵥ, dᵥ], t1_bb [cᵥ, lₒ], t3_aabaab [aᵥ, eᵥ, dᵥ, iₒ, jₒ, kₒ]], [(1, [aᵥ, bᵥ, cᵥ, iₒ, jₒ, kₒ])]⟩,
  -- line 2725: lcde,dl,baeijk->abcijk
  ⟨-1, [g_abab [lₒ, cᵥ, dᵥ, eᵥ], t1_aa [dᵥ, lₒ], t3_aabaab [bᵥ, aᵥ, eᵥ, iₒ, jₒ, kₒ]], [(1, [aᵥ, bᵥ, cᵥ, iₒ, jₒ, kₒ])]⟩,
  -- line 2728: lcde,dl,baeijk->abcijk
  ⟨-1, [g_bbbb [lₒ, cᵥ, dᵥ, eᵥ], t1_bb [dᵥ, lₒ], t3_aabaab [bᵥ, aᵥ, eᵥ, iₒ, jₒ, kₒ]], [(1, [aᵥ, bᵥ, cᵥ, iₒ, jₒ, kₒ])]⟩,
  -- line 2731: lced,dk,eabijl->abcijk
  ⟨1, [g_abab [lₒ, cᵥ, eᵥ, dᵥ], t1_bb [dᵥ, kₒ], t3_aaaaaa [eᵥ, aᵥ, bᵥ, iₒ, jₒ, lₒ]], [(1, [aᵥ, bᵥ, cᵥ, iₒ, jₒ, kₒ])]⟩,
  -- line 2734: lcde,dk,baeijl->abcijk
  ⟨1, [g_bbbb [lₒ, cᵥ, dᵥ, eᵥ], t1_bb [dᵥ, kₒ], t3_aabaab [bᵥ, aᵥ, eᵥ, iₒ, jₒ, lₒ]], [(1, [aᵥ, bᵥ, cᵥ, iₒ, jₒ, kₒ])]⟩,
  -- line 2737: lcde,dj,baeilk->abcijk
  ⟨1, [g_abab [lₒ, cᵥ, dᵥ, eᵥ], t1_aa [dᵥ, jₒ], t3_aabaab [bᵥ, aᵥ, eᵥ, iₒ, lₒ, kₒ]], [(1, [aᵥ, bᵥ, cᵥ, iₒ, jₒ, kₒ])]⟩,
  -- line 2740: lcde,di,baejlk->abcijk
  ⟨-1, [g_abab [lₒ, cᵥ, dᵥ, eᵥ], t1_aa [dᵥ, iₒ], t3_aabaab [bᵥ, aᵥ, eᵥ, jₒ, lₒ, kₒ]], [(1, [aᵥ, bᵥ, cᵥ, iₒ, jₒ, kₒ])]⟩,
  -- line 2743: lcde,al,dbeijk->abcijk
  ⟨-1/2, [g_abab [lₒ, cᵥ, dᵥ, eᵥ], t1_aa [aᵥ, lₒ], t3_aabaab [dᵥ, bᵥ, eᵥ, iₒ, jₒ, kₒ]], [(1, [aᵥ, bᵥ, cᵥ, iₒ, jₒ, kₒ]), (-1, [bᵥ, aᵥ, cᵥ, iₒ, jₒ, kₒ])]⟩,
  -- line 2747: lced,al,bedijk->abcijk
  ⟨1/2, [g_abab [lₒ, cᵥ, eᵥ, dᵥ], t1_aa [aᵥ, lₒ], t3_aabaab [bᵥ, eᵥ, dᵥ, iₒ, jₒ, kₒ]], [(1, [aᵥ, bᵥ, cᵥ, iₒ, jₒ, kₒ]), (-1, [bᵥ, aᵥ, cᵥ, iₒ, jₒ, kₒ])]⟩,
  -- line 2751: lmde,delk,abcijm->abcijk
  ⟨-1/2, [g_abab [lₒ, mₒ, dᵥ, eᵥ], t2_abab [dᵥ, eᵥ, lₒ, kₒ], t3_aabaab [aᵥ, bᵥ, cᵥ, iₒ, jₒ, mₒ]], [(1, [aᵥ, bᵥ, cᵥ, iₒ, jₒ, kₒ])]⟩,
  -- line 2754: lmed,edlk,abcijm->abcijk
  ⟨-1/2, [g_abab [lₒ, mₒ, eᵥ, dᵥ], t2_abab [eᵥ, dᵥ, lₒ, kₒ], t3_aabaab [aᵥ, bᵥ, cᵥ, iₒ, jₒ, mₒ]], [(1, [aᵥ, bᵥ, cᵥ, iₒ, jₒ, kₒ])]⟩,
  -- line 2757: mlde,dekl,abcijm->abcijk
  ⟨-1/2, [g_bbbb [mₒ, lₒ, dᵥ, eᵥ], t2_bbbb [dᵥ, eᵥ, kₒ, lₒ], t3_aabaab [aᵥ, bᵥ, cᵥ, iₒ, jₒ, mₒ]], [(1, [aᵥ, bᵥ, cᵥ, iₒ, jₒ, kₒ])]⟩
  ]

/-- Part 3 of `ccsdt_t3_aabaab`. -/
def ccsdt_t3_aabaab_3 : Prog := [
  -- line 2760: mlde,dejl,abcimk->abcijk
  ⟨-1/2, [g_aaaa [mₒ, lₒ, dᵥ, eᵥ], t2_aaaa [dᵥ, eᵥ, jₒ, lₒ], t3_aabaab [aᵥ, bᵥ, cᵥ, iₒ, mₒ, kₒ]], [(1, [aᵥ, bᵥ, cᵥ, iₒ, jₒ, kₒ])]⟩,
  -- line 2763: mlde,dejl,abcimk->abcijk
  ⟨-1/2, [g_abab [mₒ, lₒ, dᵥ, eᵥ], t2_abab [dᵥ, eᵥ, jₒ, lₒ], t3_aabaab [aᵥ, bᵥ, cᵥ, iₒ, mₒ, kₒ]], [(1, [aᵥ, bᵥ, cᵥ, iₒ, jₒ, kₒ])]⟩,
  -- line 2766: mled,edjl,abcimk->abcijk
  ⟨-1/2, [g_abab [mₒ, lₒ, eᵥ, dᵥ], t2_abab [eᵥ, dᵥ, jₒ, lₒ], t3_aabaab [aᵥ, bᵥ, cᵥ, iₒ, mₒ, kₒ]], [(1, [aᵥ, bᵥ, cᵥ, iₒ, jₒ, kₒ])]⟩,
  -- line 2769: mlde,deil,abcjmk->abcijk
  ⟨1/2, [g_aaaa [mₒ, lₒ, dᵥ, eᵥ], t2_aaaa [dᵥ, eᵥ, iₒ, lₒ], t3_aabaab [aᵥ, bᵥ, cᵥ, jₒ, mₒ, kₒ]], [(1, [aᵥ, bᵥ, cᵥ, iₒ, jₒ, kₒ])]⟩,
  -- line 2772: mlde,deil,abcjmk->abcijk
  ⟨1/2, [g_abab [mₒ, lₒ, dᵥ, eᵥ], t2_abab [dᵥ, eᵥ, iₒ, lₒ], t3_aabaab [aᵥ, bᵥ, cᵥ, jₒ, mₒ, kₒ]], [(1, [aᵥ, bᵥ, cᵥ, iₒ, jₒ, kₒ])]⟩,
  -- line 2775: mled,edil,abcjmk->abcijk
  ⟨1/2, [g_abab [mₒ, lₒ, eᵥ, dᵥ], t2_abab [eᵥ, dᵥ, iₒ, lₒ], t3_aabaab [aᵥ, bᵥ, cᵥ, jₒ, mₒ, kₒ]], [(1, [aᵥ, bᵥ, cᵥ, iₒ, jₒ, kₒ])]⟩,
  -- line 2778: mlde,dejk,abciml->abcijk
  ⟨1/4, [g_abab [mₒ, lₒ, dᵥ, eᵥ], t2_abab [dᵥ, eᵥ, jₒ, kₒ], t3_aabaab [aᵥ, bᵥ, cᵥ, iₒ, mₒ, lₒ]], [(1, [aᵥ, bᵥ, cᵥ, iₒ, jₒ, kₒ]), (-1, [aᵥ, bᵥ, cᵥ, jₒ, iₒ, kₒ])]⟩,
  -- line 2782: lmde,dejk,abcilm->abcijk
  ⟨1/4, [g_abab [lₒ, mₒ, dᵥ, eᵥ], t2_abab [dᵥ, eᵥ, jₒ, kₒ], t3_aabaab [aᵥ, bᵥ, cᵥ, iₒ, lₒ, mₒ]], [(1, [aᵥ, bᵥ, cᵥ, iₒ, jₒ, kₒ]), (-1, [aᵥ, bᵥ, cᵥ, jₒ, iₒ, kₒ])]⟩,
  -- line 2786: mled,edjk,abciml->abcijk
  ⟨1/4, [g_abab [mₒ, lₒ, eᵥ, dᵥ], t2_abab [eᵥ, dᵥ, jₒ, kₒ], t3_aabaab [aᵥ, bᵥ, cᵥ, iₒ, mₒ, lₒ]], [(1, [aᵥ, bᵥ, cᵥ, iₒ, jₒ, kₒ]), (-1, [aᵥ, bᵥ, cᵥ, jₒ, iₒ, kₒ])]⟩,
  -- line 2790: lmed,edjk,abcilm->abcijk
  ⟨1/4, [g_abab [lₒ, mₒ, eᵥ, dᵥ], t2_abab [eᵥ, dᵥ, jₒ, kₒ], t3_aabaab [aᵥ, bᵥ, cᵥ, iₒ, lₒ, mₒ]], [(1, [aᵥ, bᵥ, cᵥ, iₒ, jₒ, kₒ]), (-1, [aᵥ, bᵥ, cᵥ, jₒ, iₒ, kₒ])]⟩,
  -- line 2794: mlde,deij,abclmk->abcijk
  ⟨-1/4, [g_aaaa [mₒ, lₒ, dᵥ, eᵥ], t2_aaaa [dᵥ, eᵥ, iₒ, jₒ], t3_aabaab [aᵥ, bᵥ, cᵥ, lₒ, mₒ, kₒ]], [(1, [aᵥ, bᵥ, cᵥ, iₒ, jₒ, kₒ])]⟩,
  -- line 2797: mlde,daml,ebcijk->abcijk
  ⟨-1/2, [g_aaaa [mₒ, lₒ, dᵥ, eᵥ], t2_aaaa [dᵥ, aᵥ, mₒ, lₒ], t3_aabaab [eᵥ, bᵥ, cᵥ, iₒ, jₒ, kₒ]], [(1, [aᵥ, bᵥ, cᵥ, iₒ, jₒ, kₒ]), (-1, [bᵥ, aᵥ, cᵥ, iₒ, jₒ, kₒ])]⟩,
  -- line 2801: mled,adml,ebcijk->abcijk
  ⟨-1/2, [g_abab [mₒ, lₒ, eᵥ, dᵥ], t2_abab [aᵥ, dᵥ, mₒ, lₒ], t3_aabaab [eᵥ, bᵥ, cᵥ, iₒ, jₒ, kₒ]], [(1, [aᵥ, bᵥ, cᵥ, iₒ, jₒ, kₒ]), (-1, [bᵥ, aᵥ, cᵥ, iₒ, jₒ, kₒ])]⟩,
  -- line 2805: lmed,adlm,ebcijk->abcijk
  ⟨-1/2, [g_abab [lₒ, mₒ, eᵥ, dᵥ], t2_abab [aᵥ, dᵥ, lₒ, mₒ], t3_aabaab [eᵥ, bᵥ, cᵥ, iₒ, jₒ, kₒ]], [(1, [aᵥ, bᵥ, cᵥ, iₒ, jₒ, kₒ]), (-1, [bᵥ, aᵥ, cᵥ, iₒ, jₒ, kₒ])]⟩,
  -- line 2809: lmed,adlk,ebcijm->abcijk
  ⟨100000000000001/100000000000000, [g_abab [lₒ, mₒ, eᵥ, dᵥ], t2_abab [aᵥ, dᵥ, lₒ, kₒ], t3_aabaab [eᵥ, bᵥ, cᵥ, iₒ, jₒ, mₒ]], [(1, [aᵥ, bᵥ, cᵥ, iₒ, jₒ, kₒ]), (-1, [bᵥ, aᵥ, cᵥ, iₒ, jₒ, kₒ])]⟩,
  -- line 2813: mlde,dajl,ebcimk->abcijk
  ⟨100000000000001/100000000000000, [g_aaaa [mₒ, lₒ, dᵥ, eᵥ], t2_aaaa [dᵥ, aᵥ, jₒ, lₒ], t3_aabaab [eᵥ, bᵥ, cᵥ, iₒ, mₒ, kₒ]], [(1, [aᵥ, bᵥ, cᵥ, iₒ, jₒ, kₒ]), (-1, [bᵥ, aᵥ, cᵥ, iₒ, jₒ, kₒ])]⟩,
  -- line 2817: lmde,dajl,becikm->abcijk
  ⟨-100000000000001/100000000000000, [g_abab [lₒ, mₒ, dᵥ, eᵥ], t2_aaaa [dᵥ, aᵥ, jₒ, lₒ], t3_abbabb [bᵥ, eᵥ, cᵥ, iₒ, kₒ, mₒ]], [(1, [aᵥ, bᵥ, cᵥ, iₒ, jₒ, kₒ]), (-1, [bᵥ, aᵥ, cᵥ, iₒ, jₒ, kₒ])]⟩,
  -- line 2821: mled,adjl,ebcimk->abcijk
  ⟨100000000000001/100000000000000, [g_abab [mₒ, lₒ, eᵥ, dᵥ], t2_abab [aᵥ, dᵥ, jₒ, lₒ], t3_aabaab [eᵥ, bᵥ, cᵥ, iₒ, mₒ, kₒ]], [(1, [aᵥ, bᵥ, cᵥ, iₒ, jₒ, kₒ]), (-1, [bᵥ, aᵥ, cᵥ, iₒ, jₒ, kₒ])]⟩,
  -- line 2825: mlde,adjl,becikm->abcijk
  ⟨-100000000000001/100000000000000, [g_bbbb [mₒ, lₒ, dᵥ, eᵥ], t2_abab [aᵥ, dᵥ, jₒ, lₒ], t3_abbabb [bᵥ, eᵥ, cᵥ, iₒ, kₒ, mₒ]], [(1, [aᵥ, bᵥ, cᵥ, iₒ, jₒ, kₒ]), (-1, [bᵥ, aᵥ, cᵥ, iₒ, jₒ, kₒ])]⟩,
  -- line 2829: mlde,dail,ebcjmk->abcijk
  ⟨-100000000000001/100000000000000, [g_aaaa [mₒ, lₒ, dᵥ, eᵥ], t2_aaaa [dᵥ, aᵥ, iₒ, lₒ], t3_aabaab [eᵥ, bᵥ, cᵥ, jₒ, mₒ, kₒ]], [(1, [aᵥ, bᵥ, cᵥ, iₒ, jₒ, kₒ]), (-1, [bᵥ, aᵥ, cᵥ, iₒ, jₒ, kₒ])]⟩,
  -- line 2833: lmde,dail,becjkm->abcijk
  ⟨100000000000001/100000000000000, [g_abab [lₒ, mₒ, dᵥ, eᵥ], t2_aaaa [dᵥ, aᵥ, iₒ, lₒ], t3_abbabb [bᵥ, eᵥ, cᵥ, jₒ, kₒ, mₒ]], [(1, [aᵥ, bᵥ, cᵥ, iₒ, jₒ, kₒ]), (-1, [bᵥ, aᵥ, cᵥ, iₒ, jₒ, kₒ])]⟩,
  -- line 2837: mled,adil,ebcjmk->abcijk
  ⟨-100000000000001/100000000000000, [g_abab [mₒ, lₒ, eᵥ, dᵥ], t2_abab [aᵥ, dᵥ, iₒ, lₒ], t3_aabaab [eᵥ, bᵥ, cᵥ, jₒ, mₒ, kₒ]], [(1, [aᵥ, bᵥ, cᵥ, iₒ, jₒ, kₒ]), (-1, [bᵥ, aᵥ, cᵥ, iₒ, jₒ, kₒ])]⟩,
  -- line 2841: mlde,adil,becjkm->abcijk
  ⟨100000000000001/100000000000000, [g_bbbb [mₒ, lₒ, dᵥ, eᵥ], t2_abab [aᵥ, dᵥ, iₒ, lₒ], t3_abbabb [bᵥ, eᵥ, cᵥ, jₒ, kₒ, mₒ]], [(1, [aᵥ, bᵥ, cᵥ, iₒ, jₒ, kₒ]), (-1, [bᵥ, aᵥ, cᵥ, iₒ, jₒ, kₒ])]⟩,
  -- line 2845: mled,adjk,ebciml->abcijk
  ⟨-1/2, [g_abab [mₒ, lₒ, eᵥ, dᵥ], t2_abab [aᵥ, dᵥ, jₒ, kₒ], t3_aabaab [eᵥ, bᵥ, cᵥ, iₒ, mₒ, lₒ]], [(1, [aᵥ, bᵥ, cᵥ, iₒ, jₒ, kₒ]), (-1, [aᵥ, bᵥ, cᵥ, jₒ, iₒ, kₒ]), (-1, [bᵥ, aᵥ, cᵥ, iₒ, jₒ, kₒ]), (1, [bᵥ, aᵥ, cᵥ, jₒ, iₒ, kₒ])]⟩,
  -- line 2849: lmed,adjk,ebcilm->abcijk
  ⟨-1/2, [g_abab [lₒ, mₒ, eᵥ, dᵥ], t2_abab [aᵥ, dᵥ, jₒ, kₒ], t3_aabaab [eᵥ, bᵥ, cᵥ, iₒ, lₒ, mₒ]], [(1, [aᵥ, bᵥ, cᵥ, iₒ, jₒ, kₒ]), (-1, [aᵥ, bᵥ, cᵥ, jₒ, iₒ, kₒ]), (-1, [bᵥ, aᵥ, cᵥ, iₒ, jₒ, kₒ]), (1, [bᵥ, aᵥ, cᵥ, jₒ, iₒ, kₒ])]⟩,
  -- line 2853: mlde,adjk,beciml->abcijk
  ⟨-1/2, [g_bbbb [mₒ, lₒ, dᵥ, eᵥ], t2_abab [aᵥ, dᵥ, jₒ, kₒ], t3_abbabb [bᵥ, eᵥ, cᵥ, iₒ, mₒ, lₒ]], [(1, [aᵥ, bᵥ, cᵥ, iₒ, jₒ, kₒ]), (-1, [aᵥ, bᵥ, cᵥ, jₒ, iₒ, kₒ]), (-1, [bᵥ, aᵥ, cᵥ, iₒ, jₒ, kₒ]), (1, [bᵥ, aᵥ, cᵥ, jₒ, iₒ, kₒ])]⟩,
  -- line 2857: mlde,daij,ebclmk->abcijk
  ⟨1/2, [g_aaaa [mₒ, lₒ, dᵥ, eᵥ], t2_aaaa [dᵥ, aᵥ, iₒ, jₒ], t3_aabaab [eᵥ, bᵥ, cᵥ, lₒ, mₒ, kₒ]], [(1, [aᵥ, bᵥ, cᵥ, iₒ, jₒ, kₒ]), (-1, [bᵥ, aᵥ, cᵥ, iₒ, jₒ, kₒ])]⟩,
  -- line 2861: mlde,daij,becmkl->abcijk
  ⟨-1/2, [g_abab [mₒ, lₒ, dᵥ, eᵥ], t2_aaaa [dᵥ, aᵥ, iₒ, jₒ], t3_abbabb [bᵥ, eᵥ, cᵥ, mₒ, kₒ, lₒ]], [(1, [aᵥ, bᵥ, cᵥ, iₒ, jₒ, kₒ]), (-1, [bᵥ, aᵥ, cᵥ, iₒ, jₒ, kₒ])]⟩,
  -- line 2865: lmde,daij,beclmk->abcijk
  ⟨1/2, [g_abab [lₒ, mₒ, dᵥ, eᵥ], t2_aaaa [dᵥ, aᵥ, iₒ, jₒ], t3_abbabb [bᵥ, eᵥ, cᵥ, lₒ, mₒ, kₒ]], [(1, [aᵥ, bᵥ, cᵥ, iₒ, jₒ, kₒ]), (-1, [bᵥ, aᵥ, cᵥ, iₒ, jₒ, kₒ])]⟩,
  -- line 2869: mlde,dcml,baeijk->abcijk
  ⟨1/2, [g_abab [mₒ, lₒ, dᵥ, eᵥ], t2_abab [dᵥ, cᵥ, mₒ, lₒ], t3_aabaab [bᵥ, aᵥ, eᵥ, iₒ, jₒ, kₒ]], [(1, [aᵥ, bᵥ, cᵥ, iₒ, jₒ, kₒ])]⟩,
  -- line 2872: lmde,dclm,baeijk->abcijk
  ⟨1/2, [g_abab [lₒ, mₒ, dᵥ, eᵥ], t2_abab [dᵥ, cᵥ, lₒ, mₒ], t3_aabaab [bᵥ, aᵥ, eᵥ, iₒ, jₒ, kₒ]], [(1, [aᵥ, bᵥ, cᵥ, iₒ, jₒ, kₒ])]⟩,
  -- line 2875: mlde,dcml,baeijk->abcijk
  ⟨1/2, [g_bbbb [mₒ, lₒ, dᵥ, eᵥ], t2_bbbb [dᵥ, cᵥ, mₒ, lₒ], t3_aabaab [bᵥ, aᵥ, eᵥ, iₒ, jₒ, kₒ]], [(1, [aᵥ, bᵥ, cᵥ, iₒ, jₒ, kₒ])]⟩,
  -- line 2878: mlde,dclk,eabijm->abcijk
  ⟨-100000000000001/100000000000000, [g_aaaa [mₒ, lₒ, dᵥ, eᵥ], t2_abab [dᵥ, cᵥ, lₒ, kₒ], t3_aaaaaa [eᵥ, aᵥ, bᵥ, iₒ, jₒ, mₒ]], [(1, [aᵥ, bᵥ, cᵥ, iₒ, jₒ, kₒ])]⟩,
  -- line 2881: lmde,dclk,baeijm->abcijk
  ⟨-100000000000001/100000000000000, [g_abab [lₒ, mₒ, dᵥ, eᵥ], t2_abab [dᵥ, cᵥ, lₒ, kₒ], t3_aabaab [bᵥ, aᵥ, eᵥ, iₒ, jₒ, mₒ]], [(1, [aᵥ, bᵥ, cᵥ, iₒ, jₒ, kₒ])]⟩,
  -- line 2884: mled,dckl,eabijm->abcijk
  ⟨-100000000000001/100000000000000, [g_abab [mₒ, lₒ, eᵥ, dᵥ], t2_bbbb [dᵥ, cᵥ, kₒ, lₒ], t3_aaaaaa [eᵥ, aᵥ, bᵥ, iₒ, jₒ, mₒ]], [(1, [aᵥ, bᵥ, cᵥ, iₒ, jₒ, kₒ])]⟩,
  -- line 2887: mlde,dckl,baeijm->abcijk
  ⟨-100000000000001/100000000000000, [g_bbbb [mₒ, lₒ, dᵥ, eᵥ], t2_bbbb [dᵥ, cᵥ, kₒ, lₒ], t3_aabaab [bᵥ, aᵥ, eᵥ, iₒ, jₒ, mₒ]], [(1, [aᵥ, bᵥ, cᵥ, iₒ, jₒ, kₒ])]⟩,
  -- line 2890: mlde,dcjl,baeimk->abcijk
  ⟨-100000000000001/100000000000000, [g_abab [mₒ, lₒ, dᵥ, eᵥ], t2_abab [dᵥ, cᵥ, jₒ, lₒ], t3_aabaab [bᵥ, aᵥ, eᵥ, iₒ, mₒ, kₒ]], [(1, [aᵥ, bᵥ, cᵥ, iₒ, jₒ, kₒ])]⟩,
  -- line 2893: mlde,dcil,baejmk->abcijk
  ⟨100000000000001/100000000000000, [g_abab [mₒ, lₒ, dᵥ, eᵥ], t2_abab [dᵥ, cᵥ, iₒ, lₒ], t3_aabaab [bᵥ, aᵥ, eᵥ, jₒ, mₒ, kₒ]], [(1, [aᵥ, bᵥ, cᵥ, iₒ, jₒ, kₒ])]⟩,
  -- line 2896: mlde,dcjk,eabiml->abcijk
  ⟨-1/2, [g_aaaa [mₒ, lₒ, dᵥ, eᵥ], t2_abab [dᵥ, cᵥ, jₒ, kₒ], t3_aaaaaa [eᵥ, aᵥ, bᵥ, iₒ, mₒ, lₒ]], [(1, [aᵥ, bᵥ, cᵥ, iₒ, jₒ, kₒ]), (-1, [aᵥ, bᵥ, cᵥ, jₒ, iₒ, kₒ])]⟩,
  -- line 2900: mlde,dcjk,baeiml->abcijk
  ⟨1/2, [g_abab [mₒ, lₒ, dᵥ, eᵥ], t2_abab [dᵥ, cᵥ, jₒ, kₒ], t3_aabaab [bᵥ, aᵥ, eᵥ, iₒ, mₒ, lₒ]], [(1, [aᵥ, bᵥ, cᵥ, iₒ, jₒ, kₒ]), (-1, [aᵥ, bᵥ, cᵥ, jₒ, iₒ, kₒ])]⟩
  ]

/-- Part 4 of `ccsdt_t3_aabaab`. -/
def ccsdt_t3_aabaab_4 : Prog := [
  -- line 2904: lmde,dcjk,baeilm->abcijk
  ⟨1/2, [g_abab [lₒ, mₒ, dᵥ, eᵥ], t2_abab [dᵥ, cᵥ, jₒ, kₒ], t3_aabaab [bᵥ, aᵥ, eᵥ, iₒ, lₒ, mₒ]], [(1, [aᵥ, bᵥ, cᵥ, iₒ, jₒ, kₒ]), (-1, [aᵥ, bᵥ, cᵥ, jₒ, iₒ, kₒ])]⟩,
  -- line 2908: mlde,abml,decijk->abcijk
  ⟨1/4, [g_aaaa [mₒ, lₒ, dᵥ, eᵥ], t2_aaaa [aᵥ, bᵥ, mₒ, lₒ], t3_aabaab [dᵥ, eᵥ, cᵥ, iₒ, jₒ, kₒ]], [(1, [aᵥ, bᵥ, cᵥ, iₒ, jₒ, kₒ])]⟩,
  -- line 2911: mlde,acml,dbeijk->abcijk
  ⟨1/4, [g_abab [mₒ, lₒ, dᵥ, eᵥ], t2_abab [aᵥ, cᵥ, mₒ, lₒ], t3_aabaab [dᵥ, bᵥ, eᵥ, iₒ, jₒ, kₒ]], [(1, [aᵥ, bᵥ, cᵥ, iₒ, jₒ, kₒ])]⟩,
  -- line 2914: mled,acml,bedijk->abcijk
  ⟨-1/4, [g_abab [mₒ, lₒ, eᵥ, dᵥ], t2_abab [aᵥ, cᵥ, mₒ, lₒ], t3_aabaab [bᵥ, eᵥ, dᵥ, iₒ, jₒ, kₒ]], [(1, [aᵥ, bᵥ, cᵥ, iₒ, jₒ, kₒ])]⟩,
  -- line 2917: lmde,aclm,dbeijk->abcijk
  ⟨1/4, [g_abab [lₒ, mₒ, dᵥ, eᵥ], t2_abab [aᵥ, cᵥ, lₒ, mₒ], t3_aabaab [dᵥ, bᵥ, eᵥ, iₒ, jₒ, kₒ]], [(1, [aᵥ, bᵥ, cᵥ, iₒ, jₒ, kₒ])]⟩,
  -- line 2920: lmed,aclm,bedijk->abcijk
  ⟨-1/4, [g_abab [lₒ, mₒ, eᵥ, dᵥ], t2_abab [aᵥ, cᵥ, lₒ, mₒ], t3_aabaab [bᵥ, eᵥ, dᵥ, iₒ, jₒ, kₒ]], [(1, [aᵥ, bᵥ, cᵥ, iₒ, jₒ, kₒ])]⟩,
  -- line 2923: mlde,aclk,debijm->abcijk
  ⟨-1/2, [g_aaaa [mₒ, lₒ, dᵥ, eᵥ], t2_abab [aᵥ, cᵥ, lₒ, kₒ], t3_aaaaaa [dᵥ, eᵥ, bᵥ, iₒ, jₒ, mₒ]], [(1, [aᵥ, bᵥ, cᵥ, iₒ, jₒ, kₒ])]⟩,
  -- line 2926: lmde,aclk,dbeijm->abcijk
  ⟨-1/2, [g_abab [lₒ, mₒ, dᵥ, eᵥ], t2_abab [aᵥ, cᵥ, lₒ, kₒ], t3_aabaab [dᵥ, bᵥ, eᵥ, iₒ, jₒ, mₒ]], [(1, [aᵥ, bᵥ, cᵥ, iₒ, jₒ, kₒ])]⟩,
  -- line 2929: lmed,aclk,bedijm->abcijk
  ⟨1/2, [g_abab [lₒ, mₒ, eᵥ, dᵥ], t2_abab [aᵥ, cᵥ, lₒ, kₒ], t3_aabaab [bᵥ, eᵥ, dᵥ, iₒ, jₒ, mₒ]], [(1, [aᵥ, bᵥ, cᵥ, iₒ, jₒ, kₒ])]⟩,
  -- line 2932: mlde,abjl,decimk->abcijk
  ⟨-1/2, [g_aaaa [mₒ, lₒ, dᵥ, eᵥ], t2_aaaa [aᵥ, bᵥ, jₒ, lₒ], t3_aabaab [dᵥ, eᵥ, cᵥ, iₒ, mₒ, kₒ]], [(1, [aᵥ, bᵥ, cᵥ, iₒ, jₒ, kₒ])]⟩,
  -- line 2935: lmde,abjl,decikm->abcijk
  ⟨-1/2, [g_abab [lₒ, mₒ, dᵥ, eᵥ], t2_aaaa [aᵥ, bᵥ, jₒ, lₒ], t3_abbabb [dᵥ, eᵥ, cᵥ, iₒ, kₒ, mₒ]], [(1, [aᵥ, bᵥ, cᵥ, iₒ, jₒ, kₒ])]⟩,
  -- line 2938: lmed,abjl,edcikm->abcijk
  ⟨-1/2, [g_abab [lₒ, mₒ, eᵥ, dᵥ], t2_aaaa [aᵥ, bᵥ, jₒ, lₒ], t3_abbabb [eᵥ, dᵥ, cᵥ, iₒ, kₒ, mₒ]], [(1, [aᵥ, bᵥ, cᵥ, iₒ, jₒ, kₒ])]⟩,
  -- line 2941: mlde,acjl,dbeimk->abcijk
  ⟨-1/2, [g_abab [mₒ, lₒ, dᵥ, eᵥ], t2_abab [aᵥ, cᵥ, jₒ, lₒ], t3_aabaab [dᵥ, bᵥ, eᵥ, iₒ, mₒ, kₒ]], [(1, [aᵥ, bᵥ, cᵥ, iₒ, jₒ, kₒ])]⟩,
  -- line 2944: mled,acjl,bedimk->abcijk
  ⟨1/2, [g_abab [mₒ, lₒ, eᵥ, dᵥ], t2_abab [aᵥ, cᵥ, jₒ, lₒ], t3_aabaab [bᵥ, eᵥ, dᵥ, iₒ, mₒ, kₒ]], [(1, [aᵥ, bᵥ, cᵥ, iₒ, jₒ, kₒ])]⟩,
  -- line 2947: mlde,acjl,bedikm->abcijk
  ⟨1/2, [g_bbbb [mₒ, lₒ, dᵥ, eᵥ], t2_abab [aᵥ, cᵥ, jₒ, lₒ], t3_abbabb [bᵥ, eᵥ, dᵥ, iₒ, kₒ, mₒ]], [(1, [aᵥ, bᵥ, cᵥ, iₒ, jₒ, kₒ])]⟩,
  -- line 2950: mlde,abil,decjmk->abcijk
  ⟨1/2, [g_aaaa [mₒ, lₒ, dᵥ, eᵥ], t2_aaaa [aᵥ, bᵥ, iₒ, lₒ], t3_aabaab [dᵥ, eᵥ, cᵥ, jₒ, mₒ, kₒ]], [(1, [aᵥ, bᵥ, cᵥ, iₒ, jₒ, kₒ])]⟩,
  -- line 2953: lmde,abil,decjkm->abcijk
  ⟨1/2, [g_abab [lₒ, mₒ, dᵥ, eᵥ], t2_aaaa [aᵥ, bᵥ, iₒ, lₒ], t3_abbabb [dᵥ, eᵥ, cᵥ, jₒ, kₒ, mₒ]], [(1, [aᵥ, bᵥ, cᵥ, iₒ, jₒ, kₒ])]⟩,
  -- line 2956: lmed,abil,edcjkm->abcijk
  ⟨1/2, [g_abab [lₒ, mₒ, eᵥ, dᵥ], t2_aaaa [aᵥ, bᵥ, iₒ, lₒ], t3_abbabb [eᵥ, dᵥ, cᵥ, jₒ, kₒ, mₒ]], [(1, [aᵥ, bᵥ, cᵥ, iₒ, jₒ, kₒ])]⟩,
  -- line 2959: mlde,acil,dbejmk->abcijk
  ⟨1/2, [g_abab [mₒ, lₒ, dᵥ, eᵥ], t2_abab [aᵥ, cᵥ, iₒ, lₒ], t3_aabaab [dᵥ, bᵥ, eᵥ, jₒ, mₒ, kₒ]], [(1, [aᵥ, bᵥ, cᵥ, iₒ, jₒ, kₒ])]⟩,
  -- line 2962: mled,acil,bedjmk->abcijk
  ⟨-1/2, [g_abab [mₒ, lₒ, eᵥ, dᵥ], t2_abab [aᵥ, cᵥ, iₒ, lₒ], t3_aabaab [bᵥ, eᵥ, dᵥ, jₒ, mₒ, kₒ]], [(1, [aᵥ, bᵥ, cᵥ, iₒ, jₒ, kₒ])]⟩,
  -- line 2965: mlde,acil,bedjkm->abcijk
  ⟨-1/2, [g_bbbb [mₒ, lₒ, dᵥ, eᵥ], t2_abab [aᵥ, cᵥ, iₒ, lₒ], t3_abbabb [bᵥ, eᵥ, dᵥ, jₒ, kₒ, mₒ]], [(1, [aᵥ, bᵥ, cᵥ, iₒ, jₒ, kₒ])]⟩,
  -- line 2968: mlde,bcml,daeijk->abcijk
  ⟨-1/4, [g_abab [mₒ, lₒ, dᵥ, eᵥ], t2_abab [bᵥ, cᵥ, mₒ, lₒ], t3_aabaab [dᵥ, aᵥ, eᵥ, iₒ, jₒ, kₒ]], [(1, [aᵥ, bᵥ, cᵥ, iₒ, jₒ, kₒ])]⟩,
  -- line 2971: mled,bcml,aedijk->abcijk
  ⟨1/4, [g_abab [mₒ, lₒ, eᵥ, dᵥ], t2_abab [bᵥ, cᵥ, mₒ, lₒ], t3_aabaab [aᵥ, eᵥ, dᵥ, iₒ, jₒ, kₒ]], [(1, [aᵥ, bᵥ, cᵥ, iₒ, jₒ, kₒ])]⟩,
  -- line 2974: lmde,bclm,daeijk->abcijk
  ⟨-1/4, [g_abab [lₒ, mₒ, dᵥ, eᵥ], t2_abab [bᵥ, cᵥ, lₒ, mₒ], t3_aabaab [dᵥ, aᵥ, eᵥ, iₒ, jₒ, kₒ]], [(1, [aᵥ, bᵥ, cᵥ, iₒ, jₒ, kₒ])]⟩,
  -- line 2977: lmed,bclm,aedijk->abcijk
  ⟨1/4, [g_abab [lₒ, mₒ, eᵥ, dᵥ], t2_abab [bᵥ, cᵥ, lₒ, mₒ], t3_aabaab [aᵥ, eᵥ, dᵥ, iₒ, jₒ, kₒ]], [(1, [aᵥ, bᵥ, cᵥ, iₒ, jₒ, kₒ])]⟩,
  -- line 2980: mlde,bclk,deaijm->abcijk
  ⟨1/2, [g_aaaa [mₒ, lₒ, dᵥ, eᵥ], t2_abab [bᵥ, cᵥ, lₒ, kₒ], t3_aaaaaa [dᵥ, eᵥ, aᵥ, iₒ, jₒ, mₒ]], [(1, [aᵥ, bᵥ, cᵥ, iₒ, jₒ, kₒ])]⟩,
  -- line 2983: lmde,bclk,daeijm->abcijk
  ⟨1/2, [g_abab [lₒ, mₒ, dᵥ, eᵥ], t2_abab [bᵥ, cᵥ, lₒ, kₒ], t3_aabaab [dᵥ, aᵥ, eᵥ, iₒ, jₒ, mₒ]], [(1, [aᵥ, bᵥ, cᵥ, iₒ, jₒ, kₒ])]⟩,
  -- line 2986: lmed,bclk,aedijm->abcijk
  ⟨-1/2, [g_abab [lₒ, mₒ, eᵥ, dᵥ], t2_abab [bᵥ, cᵥ, lₒ, kₒ], t3_aabaab [aᵥ, eᵥ, dᵥ, iₒ, jₒ, mₒ]], [(1, [aᵥ, bᵥ, cᵥ, iₒ, jₒ, kₒ])]⟩,
  -- line 2989: mlde,bcjl,daeimk->abcijk
  ⟨1/2, [g_abab [mₒ, lₒ, dᵥ, eᵥ], t2_abab [bᵥ, cᵥ, jₒ, lₒ], t3_aabaab [dᵥ, aᵥ, eᵥ, iₒ, mₒ, kₒ]], [(1, [aᵥ, bᵥ, cᵥ, iₒ, jₒ, kₒ])]⟩,
  -- line 2992: mled,bcjl,aedimk->abcijk
  ⟨-1/2, [g_abab [mₒ, lₒ, eᵥ, dᵥ], t2_abab [bᵥ, cᵥ, jₒ, lₒ], t3_aabaab [aᵥ, eᵥ, dᵥ, iₒ, mₒ, kₒ]], [(1, [aᵥ, bᵥ, cᵥ, iₒ, jₒ, kₒ])]⟩,
  -- line 2995: mlde,bcjl,aedikm->abcijk
  ⟨-1/2, [g_bbbb [mₒ, lₒ, dᵥ, eᵥ], t2_abab [bᵥ, cᵥ, jₒ, lₒ], t3_abbabb [aᵥ, eᵥ, dᵥ, iₒ, kₒ, mₒ]], [(1, [aᵥ, bᵥ, cᵥ, iₒ, jₒ, kₒ])]⟩,
  -- line 2998: mlde,bcil,daejmk->abcijk
  ⟨-1/2, [g_abab [mₒ, lₒ, dᵥ, eᵥ], t2_abab [bᵥ, cᵥ, iₒ, lₒ], t3_aabaab [dᵥ, aᵥ, eᵥ, jₒ, mₒ, kₒ]], [(1, [aᵥ, bᵥ, cᵥ, iₒ, jₒ, kₒ])]⟩,
  -- line 3001: mled,bcil,aedjmk->abcijk
  ⟨1/2, [g_abab [mₒ, lₒ, eᵥ, dᵥ], t2_abab [bᵥ, cᵥ, iₒ, lₒ], t3_aabaab [aᵥ, eᵥ, dᵥ, jₒ, mₒ, kₒ]], [(1, [aᵥ, bᵥ, cᵥ, iₒ, jₒ, kₒ])]⟩,
  -- line 3004: mlde,bcil,aedjkm->abcijk
  ⟨1/2, [g_bbbb [mₒ, lₒ, dᵥ, eᵥ], t2_abab [bᵥ, cᵥ, iₒ, lₒ], t3_abbabb [aᵥ, eᵥ, dᵥ, jₒ, kₒ, mₒ]], [(1, [aᵥ, bᵥ, cᵥ, iₒ, jₒ, kₒ])]⟩,
  -- line 3007: lmdk,dajl,bcim->abcijk
  ⟨-1, [g_abab [lₒ, mₒ, dᵥ, kₒ], t2_aaaa [dᵥ, aᵥ, jₒ, lₒ], t2_abab [bᵥ, cᵥ, iₒ, mₒ]], [(1, [aᵥ, bᵥ, cᵥ, iₒ, jₒ, kₒ]), (-1, [aᵥ, bᵥ, cᵥ, jₒ, iₒ, kₒ]), (-1, [bᵥ, aᵥ, cᵥ, iₒ, jₒ, kₒ]), (1, [bᵥ, aᵥ, cᵥ, jₒ, iₒ, kₒ])]⟩,
  -- line 3011: mldk,adjl,bcim->abcijk
  ⟨-1, [g_bbbb [mₒ, lₒ, dᵥ, kₒ], t2_abab [aᵥ, dᵥ, jₒ, lₒ], t2_abab [bᵥ, cᵥ, iₒ, mₒ]], [(1, [aᵥ, bᵥ, cᵥ, iₒ, jₒ, kₒ]), (-1, [aᵥ, bᵥ, cᵥ, jₒ, iₒ, kₒ]), (-1, [bᵥ, aᵥ, cᵥ, iₒ, jₒ, kₒ]), (1, [bᵥ, aᵥ, cᵥ, jₒ, iₒ, kₒ])]⟩,
  -- line 3015: mldk,daij,bcml->abcijk
  ⟨-1/2, [g_abab [mₒ, lₒ, dᵥ, kₒ], t2_aaaa [dᵥ, aᵥ, iₒ, jₒ], t2_abab [bᵥ, cᵥ, mₒ, lₒ]], [(1, [aᵥ, bᵥ, cᵥ, iₒ, jₒ, kₒ]), (-1, [bᵥ, aᵥ, cᵥ, iₒ, jₒ, kₒ])]⟩,
  -- line 3019: lmdk,daij,bclm->abcijk
  ⟨-1/2, [g_abab [lₒ, mₒ, dᵥ, kₒ], t2_aaaa [dᵥ, aᵥ, iₒ, jₒ], t2_abab [bᵥ, cᵥ, lₒ, mₒ]], [(1, [aᵥ, bᵥ, cᵥ, iₒ, jₒ, kₒ]), (-1, [bᵥ, aᵥ, cᵥ, iₒ, jₒ, kₒ])]⟩,
  -- line 3023: mljd,adik,bcml->abcijk
  ⟨1/2, [g_abab [mₒ, lₒ, jₒ, dᵥ], t2_abab [aᵥ, dᵥ, iₒ, kₒ], t2_abab [bᵥ, cᵥ, mₒ, lₒ]], [(1, [aᵥ, bᵥ, cᵥ, iₒ, jₒ, kₒ]), (-1, [bᵥ, aᵥ, cᵥ, iₒ, jₒ, kₒ])]⟩,
  -- line 3027: lmjd,adik,bclm->abcijk
  ⟨1/2, [g_abab [lₒ, mₒ, jₒ, dᵥ], t2_abab [aᵥ, dᵥ, iₒ, kₒ], t2_abab [bᵥ, cᵥ, lₒ, mₒ]], [(1, [aᵥ, bᵥ, cᵥ, iₒ, jₒ, kₒ]), (-1, [bᵥ, aᵥ, cᵥ, iₒ, jₒ, kₒ])]⟩
  ]

/-- Part 5 of `ccsdt_t3_aabaab`. -/
def ccsdt_t3_aabaab_5 : Prog := [
  -- line 3031: mldk,dcjl,abim->abcijk
  ⟨1, [g_abab [mₒ, lₒ, dᵥ, kₒ], t2_abab [dᵥ, cᵥ, jₒ, lₒ], t2_aaaa [aᵥ, bᵥ, iₒ, mₒ]], [(1, [aᵥ, bᵥ, cᵥ, iₒ, jₒ, kₒ]), (-1, [aᵥ, bᵥ, cᵥ, jₒ, iₒ, kₒ])]⟩,
  -- line 3035: mldj,dcik,abml->abcijk
  ⟨1/2, [g_aaaa [mₒ, lₒ, dᵥ, jₒ], t2_abab [dᵥ, cᵥ, iₒ, kₒ], t2_aaaa [aᵥ, bᵥ, mₒ, lₒ]], [(1, [aᵥ, bᵥ, cᵥ, iₒ, jₒ, kₒ])]⟩,
  -- line 3038: lmjd,adlk,bcim->abcijk
  ⟨-1, [g_abab [lₒ, mₒ, jₒ, dᵥ], t2_abab [aᵥ, dᵥ, lₒ, kₒ], t2_abab [bᵥ, cᵥ, iₒ, mₒ]], [(1, [aᵥ, bᵥ, cᵥ, iₒ, jₒ, kₒ]), (-1, [bᵥ, aᵥ, cᵥ, iₒ, jₒ, kₒ])]⟩,
  -- line 3042: mldj,dail,bcmk->abcijk
  ⟨-1, [g_aaaa [mₒ, lₒ, dᵥ, jₒ], t2_aaaa [dᵥ, aᵥ, iₒ, lₒ], t2_abab [bᵥ, cᵥ, mₒ, kₒ]], [(1, [aᵥ, bᵥ, cᵥ, iₒ, jₒ, kₒ]), (-1, [bᵥ, aᵥ, cᵥ, iₒ, jₒ, kₒ])]⟩,
  -- line 3046: mljd,adil,bcmk->abcijk
  ⟨-1, [g_abab [mₒ, lₒ, jₒ, dᵥ], t2_abab [aᵥ, dᵥ, iₒ, lₒ], t2_abab [bᵥ, cᵥ, mₒ, kₒ]], [(1, [aᵥ, bᵥ, cᵥ, iₒ, jₒ, kₒ]), (-1, [bᵥ, aᵥ, cᵥ, iₒ, jₒ, kₒ])]⟩,
  -- line 3050: mldj,dclk,abim->abcijk
  ⟨1, [g_aaaa [mₒ, lₒ, dᵥ, jₒ], t2_abab [dᵥ, cᵥ, lₒ, kₒ], t2_aaaa [aᵥ, bᵥ, iₒ, mₒ]], [(1, [aᵥ, bᵥ, cᵥ, iₒ, jₒ, kₒ])]⟩,
  -- line 3053: mljd,dckl,abim->abcijk
  ⟨1, [g_abab [mₒ, lₒ, jₒ, dᵥ], t2_bbbb [dᵥ, cᵥ, kₒ, lₒ], t2_aaaa [aᵥ, bᵥ, iₒ, mₒ]], [(1, [aᵥ, bᵥ, cᵥ, iₒ, jₒ, kₒ])]⟩,
  -- line 3056: lmid,adlk,bcjm->abcijk
  ⟨1, [g_abab [lₒ, mₒ, iₒ, dᵥ], t2_abab [aᵥ, dᵥ, lₒ, kₒ], t2_abab [bᵥ, cᵥ, jₒ, mₒ]], [(1, [aᵥ, bᵥ, cᵥ, iₒ, jₒ, kₒ]), (-1, [bᵥ, aᵥ, cᵥ, iₒ, jₒ, kₒ])]⟩,
  -- line 3060: mldi,dajl,bcmk->abcijk
  ⟨1, [g_aaaa [mₒ, lₒ, dᵥ, iₒ], t2_aaaa [dᵥ, aᵥ, jₒ, lₒ], t2_abab [bᵥ, cᵥ, mₒ, kₒ]], [(1, [aᵥ, bᵥ, cᵥ, iₒ, jₒ, kₒ]), (-1, [bᵥ, aᵥ, cᵥ, iₒ, jₒ, kₒ])]⟩,
  -- line 3064: mlid,adjl,bcmk->abcijk
  ⟨1, [g_abab [mₒ, lₒ, iₒ, dᵥ], t2_abab [aᵥ, dᵥ, jₒ, lₒ], t2_abab [bᵥ, cᵥ, mₒ, kₒ]], [(1, [aᵥ, bᵥ, cᵥ, iₒ, jₒ, kₒ]), (-1, [bᵥ, aᵥ, cᵥ, iₒ, jₒ, kₒ])]⟩,
  -- line 3068: mlid,adjk,bcml->abcijk
  ⟨-1/2, [g_abab [mₒ, lₒ, iₒ, dᵥ], t2_abab [aᵥ, dᵥ, jₒ, kₒ], t2_abab [bᵥ, cᵥ, mₒ, lₒ]], [(1, [aᵥ, bᵥ, cᵥ, iₒ, jₒ, kₒ]), (-1, [bᵥ, aᵥ, cᵥ, iₒ, jₒ, kₒ])]⟩,
  -- line 3072: lmid,adjk,bclm->abcijk
  ⟨-1/2, [g_abab [lₒ, mₒ, iₒ, dᵥ], t2_abab [aᵥ, dᵥ, jₒ, kₒ], t2_abab [bᵥ, cᵥ, lₒ, mₒ]], [(1, [aᵥ, bᵥ, cᵥ, iₒ, jₒ, kₒ]), (-1, [bᵥ, aᵥ, cᵥ, iₒ, jₒ, kₒ])]⟩,
  -- line 3076: mldi,dclk,abjm->abcijk
  ⟨-1, [g_aaaa [mₒ, lₒ, dᵥ, iₒ], t2_abab [dᵥ, cᵥ, lₒ, kₒ], t2_aaaa [aᵥ, bᵥ, jₒ, mₒ]], [(1, [aᵥ, bᵥ, cᵥ, iₒ, jₒ, kₒ])]⟩,
  -- line 3079: mlid,dckl,abjm->abcijk
  ⟨-1, [g_abab [mₒ, lₒ, iₒ, dᵥ], t2_bbbb [dᵥ, cᵥ, kₒ, lₒ], t2_aaaa [aᵥ, bᵥ, jₒ, mₒ]], [(1, [aᵥ, bᵥ, cᵥ, iₒ, jₒ, kₒ])]⟩,
  -- line 3082: mldi,dcjk,abml->abcijk
  ⟨-1/2, [g_aaaa [mₒ, lₒ, dᵥ, iₒ], t2_abab [dᵥ, cᵥ, jₒ, kₒ], t2_aaaa [aᵥ, bᵥ, mₒ, lₒ]], [(1, [aᵥ, bᵥ, cᵥ, iₒ, jₒ, kₒ])]⟩,
  -- line 3085: alde,dejk,bcil->abcijk
  ⟨1/2, [g_abab [aᵥ, lₒ, dᵥ, eᵥ], t2_abab [dᵥ, eᵥ, jₒ, kₒ], t2_abab [bᵥ, cᵥ, iₒ, lₒ]], [(1, [aᵥ, bᵥ, cᵥ, iₒ, jₒ, kₒ]), (-1, [aᵥ, bᵥ, cᵥ, jₒ, iₒ, kₒ]), (-1, [bᵥ, aᵥ, cᵥ, iₒ, jₒ, kₒ]), (1, [bᵥ, aᵥ, cᵥ, jₒ, iₒ, kₒ])]⟩,
  -- line 3089: aled,edjk,bcil->abcijk
  ⟨1/2, [g_abab [aᵥ, lₒ, eᵥ, dᵥ], t2_abab [eᵥ, dᵥ, jₒ, kₒ], t2_abab [bᵥ, cᵥ, iₒ, lₒ]], [(1, [aᵥ, bᵥ, cᵥ, iₒ, jₒ, kₒ]), (-1, [aᵥ, bᵥ, cᵥ, jₒ, iₒ, kₒ]), (-1, [bᵥ, aᵥ, cᵥ, iₒ, jₒ, kₒ]), (1, [bᵥ, aᵥ, cᵥ, jₒ, iₒ, kₒ])]⟩,
  -- line 3093: lade,deij,bclk->abcijk
  ⟨1/2, [g_aaaa [lₒ, aᵥ, dᵥ, eᵥ], t2_aaaa [dᵥ, eᵥ, iₒ, jₒ], t2_abab [bᵥ, cᵥ, lₒ, kₒ]], [(1, [aᵥ, bᵥ, cᵥ, iₒ, jₒ, kₒ]), (-1, [bᵥ, aᵥ, cᵥ, iₒ, jₒ, kₒ])]⟩,
  -- line 3097: lade,dbjl,ecik->abcijk
  ⟨-1, [g_aaaa [lₒ, aᵥ, dᵥ, eᵥ], t2_aaaa [dᵥ, bᵥ, jₒ, lₒ], t2_abab [eᵥ, cᵥ, iₒ, kₒ]], [(1, [aᵥ, bᵥ, cᵥ, iₒ, jₒ, kₒ]), (-1, [bᵥ, aᵥ, cᵥ, iₒ, jₒ, kₒ])]⟩,
  -- line 3101: aled,bdjl,ecik->abcijk
  ⟨1, [g_abab [aᵥ, lₒ, eᵥ, dᵥ], t2_abab [bᵥ, dᵥ, jₒ, lₒ], t2_abab [eᵥ, cᵥ, iₒ, kₒ]], [(1, [aᵥ, bᵥ, cᵥ, iₒ, jₒ, kₒ]), (-1, [bᵥ, aᵥ, cᵥ, iₒ, jₒ, kₒ])]⟩,
  -- line 3105: lade,dbil,ecjk->abcijk
  ⟨1, [g_aaaa [lₒ, aᵥ, dᵥ, eᵥ], t2_aaaa [dᵥ, bᵥ, iₒ, lₒ], t2_abab [eᵥ, cᵥ, jₒ, kₒ]], [(1, [aᵥ, bᵥ, cᵥ, iₒ, jₒ, kₒ]), (-1, [bᵥ, aᵥ, cᵥ, iₒ, jₒ, kₒ])]⟩,
  -- line 3109: aled,bdil,ecjk->abcijk
  ⟨-1, [g_abab [aᵥ, lₒ, eᵥ, dᵥ], t2_abab [bᵥ, dᵥ, iₒ, lₒ], t2_abab [eᵥ, cᵥ, jₒ, kₒ]], [(1, [aᵥ, bᵥ, cᵥ, iₒ, jₒ, kₒ]), (-1, [bᵥ, aᵥ, cᵥ, iₒ, jₒ, kₒ])]⟩,
  -- line 3113: aled,bdjk,ecil->abcijk
  ⟨-1, [g_abab [aᵥ, lₒ, eᵥ, dᵥ], t2_abab [bᵥ, dᵥ, jₒ, kₒ], t2_abab [eᵥ, cᵥ, iₒ, lₒ]], [(1, [aᵥ, bᵥ, cᵥ, iₒ, jₒ, kₒ]), (-1, [aᵥ, bᵥ, cᵥ, jₒ, iₒ, kₒ]), (-1, [bᵥ, aᵥ, cᵥ, iₒ, jₒ, kₒ]), (1, [bᵥ, aᵥ, cᵥ, jₒ, iₒ, kₒ])]⟩,
  -- line 3117: lade,dbij,eclk->abcijk
  ⟨-1, [g_aaaa [lₒ, aᵥ, dᵥ, eᵥ], t2_aaaa [dᵥ, bᵥ, iₒ, jₒ], t2_abab [eᵥ, cᵥ, lₒ, kₒ]], [(1, [aᵥ, bᵥ, cᵥ, iₒ, jₒ, kₒ]), (-1, [bᵥ, aᵥ, cᵥ, iₒ, jₒ, kₒ])]⟩,
  -- line 3121: alde,dbij,eckl->abcijk
  ⟨-1, [g_abab [aᵥ, lₒ, dᵥ, eᵥ], t2_aaaa [dᵥ, bᵥ, iₒ, jₒ], t2_bbbb [eᵥ, cᵥ, kₒ, lₒ]], [(1, [aᵥ, bᵥ, cᵥ, iₒ, jₒ, kₒ]), (-1, [bᵥ, aᵥ, cᵥ, iₒ, jₒ, kₒ])]⟩,
  -- line 3125: lcde,dejk,abil->abcijk
  ⟨-1/2, [g_abab [lₒ, cᵥ, dᵥ, eᵥ], t2_abab [dᵥ, eᵥ, jₒ, kₒ], t2_aaaa [aᵥ, bᵥ, iₒ, lₒ]], [(1, [aᵥ, bᵥ, cᵥ, iₒ, jₒ, kₒ]), (-1, [aᵥ, bᵥ, cᵥ, jₒ, iₒ, kₒ])]⟩,
  -- line 3129: lced,edjk,abil->abcijk
  ⟨-1/2, [g_abab [lₒ, cᵥ, eᵥ, dᵥ], t2_abab [eᵥ, dᵥ, jₒ, kₒ], t2_aaaa [aᵥ, bᵥ, iₒ, lₒ]], [(1, [aᵥ, bᵥ, cᵥ, iₒ, jₒ, kₒ]), (-1, [aᵥ, bᵥ, cᵥ, jₒ, iₒ, kₒ])]⟩,
  -- line 3133: lced,adlk,ebij->abcijk
  ⟨-1, [g_abab [lₒ, cᵥ, eᵥ, dᵥ], t2_abab [aᵥ, dᵥ, lₒ, kₒ], t2_aaaa [eᵥ, bᵥ, iₒ, jₒ]], [(1, [aᵥ, bᵥ, cᵥ, iₒ, jₒ, kₒ])]⟩,
  -- line 3136: lcde,dajl,beik->abcijk
  ⟨1, [g_abab [lₒ, cᵥ, dᵥ, eᵥ], t2_aaaa [dᵥ, aᵥ, jₒ, lₒ], t2_abab [bᵥ, eᵥ, iₒ, kₒ]], [(1, [aᵥ, bᵥ, cᵥ, iₒ, jₒ, kₒ])]⟩,
  -- line 3139: lcde,adjl,beik->abcijk
  ⟨-1, [g_bbbb [lₒ, cᵥ, dᵥ, eᵥ], t2_abab [aᵥ, dᵥ, jₒ, lₒ], t2_abab [bᵥ, eᵥ, iₒ, kₒ]], [(1, [aᵥ, bᵥ, cᵥ, iₒ, jₒ, kₒ])]⟩,
  -- line 3142: lcde,dail,bejk->abcijk
  ⟨-1, [g_abab [lₒ, cᵥ, dᵥ, eᵥ], t2_aaaa [dᵥ, aᵥ, iₒ, lₒ], t2_abab [bᵥ, eᵥ, jₒ, kₒ]], [(1, [aᵥ, bᵥ, cᵥ, iₒ, jₒ, kₒ])]⟩,
  -- line 3145: lcde,adil,bejk->abcijk
  ⟨1, [g_bbbb [lₒ, cᵥ, dᵥ, eᵥ], t2_abab [aᵥ, dᵥ, iₒ, lₒ], t2_abab [bᵥ, eᵥ, jₒ, kₒ]], [(1, [aᵥ, bᵥ, cᵥ, iₒ, jₒ, kₒ])]⟩,
  -- line 3148: lced,adjk,ebil->abcijk
  ⟨1, [g_abab [lₒ, cᵥ, eᵥ, dᵥ], t2_abab [aᵥ, dᵥ, jₒ, kₒ], t2_aaaa [eᵥ, bᵥ, iₒ, lₒ]], [(1, [aᵥ, bᵥ, cᵥ, iₒ, jₒ, kₒ]), (-1, [aᵥ, bᵥ, cᵥ, jₒ, iₒ, kₒ])]⟩,
  -- line 3152: lcde,adjk,beil->abcijk
  ⟨1, [g_bbbb [lₒ, cᵥ, dᵥ, eᵥ], t2_abab [aᵥ, dᵥ, jₒ, kₒ], t2_abab [bᵥ, eᵥ, iₒ, lₒ]], [(1, [aᵥ, bᵥ, cᵥ, iₒ, jₒ, kₒ]), (-1, [aᵥ, bᵥ, cᵥ, jₒ, iₒ, kₒ])]⟩,
  -- line 3156: lcde,daij,belk->abcijk
  ⟨1, [g_abab [lₒ, cᵥ, dᵥ, eᵥ], t2_aaaa [dᵥ, aᵥ, iₒ, jₒ], t2_abab [bᵥ, eᵥ, lₒ, kₒ]], [(1, [aᵥ, bᵥ, cᵥ, iₒ, jₒ, kₒ])]⟩,
  -- line 3159: lmde,dl,aejk,bcim->abcijk
  ⟨1, [g_abab [lₒ, mₒ, dᵥ, eᵥ], t1_aa [dᵥ, lₒ], t2_abab [aᵥ, eᵥ, jₒ, kₒ], t2_abab [bᵥ, cᵥ, iₒ, mₒ]], [(1, [aᵥ, bᵥ, cᵥ, iₒ, jₒ, kₒ]), (-1, [aᵥ, bᵥ, cᵥ, jₒ, iₒ, kₒ]), (-1, [bᵥ, aᵥ, cᵥ, iₒ, jₒ, kₒ]), (1, [bᵥ, aᵥ, cᵥ, jₒ, iₒ, kₒ])]⟩,
  -- line 3163: mlde,dl,aejk,bcim->abcijk
  ⟨-1, [g_bbbb [mₒ, lₒ, dᵥ, eᵥ], t1_bb [dᵥ, lₒ], t2_abab [aᵥ, eᵥ, jₒ, kₒ], t2_abab [bᵥ, cᵥ, iₒ, mₒ]], [(1, [aᵥ, bᵥ, cᵥ, iₒ, jₒ, kₒ]), (-1, [aᵥ, bᵥ, cᵥ, jₒ, iₒ, kₒ]), (-1, [bᵥ, aᵥ, cᵥ, iₒ, jₒ, kₒ]), (1, [bᵥ, aᵥ, cᵥ, jₒ, iₒ, kₒ])]⟩,
  -- line 3167: mlde,dl,eaij,bcmk->abcijk
  ⟨-1, [g_aaaa [mₒ, lₒ, dᵥ, eᵥ], t1_aa [dᵥ, lₒ], t2_aaaa [eᵥ, aᵥ, iₒ, jₒ], t2_abab [bᵥ, cᵥ, mₒ, kₒ]], [(1, [aᵥ, bᵥ, cᵥ, iₒ, jₒ, kₒ]), (-1, [bᵥ, aᵥ, cᵥ, iₒ, jₒ, kₒ])]⟩,
  -- line 3171: mled,dl,eaij,bcmk->abcijk
  ⟨1, [g_abab [mₒ, lₒ, eᵥ, dᵥ], t1_bb [dᵥ, lₒ], t2_aaaa [eᵥ, aᵥ, iₒ, jₒ], t2_abab [bᵥ, cᵥ, mₒ, kₒ]], [(1, [aᵥ, bᵥ, cᵥ, iₒ, jₒ, kₒ]), (-1, [bᵥ, aᵥ, cᵥ, iₒ, jₒ, kₒ])]⟩,
  -- line 3175: mlde,dl,ecjk,abim->abcijk
  ⟨1, [g_aaaa [mₒ, lₒ, dᵥ, eᵥ], t1_aa [dᵥ, lₒ], t2_abab [eᵥ, cᵥ, jₒ, kₒ], t2_aaaa [aᵥ, bᵥ, iₒ, mₒ]], [(1, [aᵥ, bᵥ, cᵥ, iₒ, jₒ, kₒ]), (-1, [aᵥ, bᵥ, cᵥ, jₒ, iₒ, kₒ])]⟩
  ]

/-- Part 6 of `ccsdt_t3_aabaab`. -/
def ccsdt_t3_aabaab_6 : Prog := [
  -- line 3179: mled,dl,ecjk,abim->abcijk
  ⟨-1, [g_abab [mₒ, lₒ, eᵥ, dᵥ], t1_bb [dᵥ, lₒ], t2_abab [eᵥ, cᵥ, jₒ, kₒ], t2_aaaa [aᵥ, bᵥ, iₒ, mₒ]], [(1, [aᵥ, bᵥ, cᵥ, iₒ, jₒ, kₒ]), (-1, [aᵥ, bᵥ, cᵥ, jₒ, iₒ, kₒ])]⟩,
  -- line 3183: lmed,dk,eajl,bcim->abcijk
  ⟨-1, [g_abab [lₒ, mₒ, eᵥ, dᵥ], t1_bb [dᵥ, kₒ], t2_aaaa [eᵥ, aᵥ, jₒ, lₒ], t2_abab [bᵥ, cᵥ, iₒ, mₒ]], [(1, [aᵥ, bᵥ, cᵥ, iₒ, jₒ, kₒ]), (-1, [aᵥ, bᵥ, cᵥ, jₒ, iₒ, kₒ]), (-1, [bᵥ, aᵥ, cᵥ, iₒ, jₒ, kₒ]), (1, [bᵥ, aᵥ, cᵥ, jₒ, iₒ, kₒ])]⟩,
  -- line 3187: mlde,dk,aejl,bcim->abcijk
  ⟨1, [g_bbbb [mₒ, lₒ, dᵥ, eᵥ], t1_bb [dᵥ, kₒ], t2_abab [aᵥ, eᵥ, jₒ, lₒ], t2_abab [bᵥ, cᵥ, iₒ, mₒ]], [(1, [aᵥ, bᵥ, cᵥ, iₒ, jₒ, kₒ]), (-1, [aᵥ, bᵥ, cᵥ, jₒ, iₒ, kₒ]), (-1, [bᵥ, aᵥ, cᵥ, iₒ, jₒ, kₒ]), (1, [bᵥ, aᵥ, cᵥ, jₒ, iₒ, kₒ])]⟩,
  -- line 3191: mled,dk,eaij,bcml->abcijk
  ⟨-1/2, [g_abab [mₒ, lₒ, eᵥ, dᵥ], t1_bb [dᵥ, kₒ], t2_aaaa [eᵥ, aᵥ, iₒ, jₒ], t2_abab [bᵥ, cᵥ, mₒ, lₒ]], [(1, [aᵥ, bᵥ, cᵥ, iₒ, jₒ, kₒ]), (-1, [bᵥ, aᵥ, cᵥ, iₒ, jₒ, kₒ])]⟩,
  -- line 3195: lmed,dk,eaij,bclm->abcijk
  ⟨-1/2, [g_abab [lₒ, mₒ, eᵥ, dᵥ], t1_bb [dᵥ, kₒ], t2_aaaa [eᵥ, aᵥ, iₒ, jₒ], t2_abab [bᵥ, cᵥ, lₒ, mₒ]], [(1, [aᵥ, bᵥ, cᵥ, iₒ, jₒ, kₒ]), (-1, [bᵥ, aᵥ, cᵥ, iₒ, jₒ, kₒ])]⟩,
  -- line 3199: mlde,dj,aeik,bcml->abcijk
  ⟨1/2, [g_abab [mₒ, lₒ, dᵥ, eᵥ], t1_aa [dᵥ, jₒ], t2_abab [aᵥ, eᵥ, iₒ, kₒ], t2_abab [bᵥ, cᵥ, mₒ, lₒ]], [(1, [aᵥ, bᵥ, cᵥ, iₒ, jₒ, kₒ]), (-1, [bᵥ, aᵥ, cᵥ, iₒ, jₒ, kₒ])]⟩,
  -- line 3203: lmde,dj,aeik,bclm->abcijk
  ⟨1/2, [g_abab [lₒ, mₒ, dᵥ, eᵥ], t1_aa [dᵥ, jₒ], t2_abab [aᵥ, eᵥ, iₒ, kₒ], t2_abab [bᵥ, cᵥ, lₒ, mₒ]], [(1, [aᵥ, bᵥ, cᵥ, iₒ, jₒ, kₒ]), (-1, [bᵥ, aᵥ, cᵥ, iₒ, jₒ, kₒ])]⟩,
  -- line 3207: mled,dk,ecjl,abim->abcijk
  ⟨1, [g_abab [mₒ, lₒ, eᵥ, dᵥ], t1_bb [dᵥ, kₒ], t2_abab [eᵥ, cᵥ, jₒ, lₒ], t2_aaaa [aᵥ, bᵥ, iₒ, mₒ]], [(1, [aᵥ, bᵥ, cᵥ, iₒ, jₒ, kₒ]), (-1, [aᵥ, bᵥ, cᵥ, jₒ, iₒ, kₒ])]⟩,
  -- line 3211: mlde,dj,ecik,abml->abcijk
  ⟨-1/2, [g_aaaa [mₒ, lₒ, dᵥ, eᵥ], t1_aa [dᵥ, jₒ], t2_abab [eᵥ, cᵥ, iₒ, kₒ], t2_aaaa [aᵥ, bᵥ, mₒ, lₒ]], [(1, [aᵥ, bᵥ, cᵥ, iₒ, jₒ, kₒ])]⟩,
  -- line 3214: lmde,dj,aelk,bcim->abcijk
  ⟨-1, [g_abab [lₒ, mₒ, dᵥ, eᵥ], t1_aa [dᵥ, jₒ], t2_abab [aᵥ, eᵥ, lₒ, kₒ], t2_abab [bᵥ, cᵥ, iₒ, mₒ]], [(1, [aᵥ, bᵥ, cᵥ, iₒ, jₒ, kₒ]), (-1, [bᵥ, aᵥ, cᵥ, iₒ, jₒ, kₒ])]⟩,
  -- line 3218: mlde,dj,eail,bcmk->abcijk
  ⟨1, [g_aaaa [mₒ, lₒ, dᵥ, eᵥ], t1_aa [dᵥ, jₒ], t2_aaaa [eᵥ, aᵥ, iₒ, lₒ], t2_abab [bᵥ, cᵥ, mₒ, kₒ]], [(1, [aᵥ, bᵥ, cᵥ, iₒ, jₒ, kₒ]), (-1, [bᵥ, aᵥ, cᵥ, iₒ, jₒ, kₒ])]⟩,
  -- line 3222: mlde,dj,aeil,bcmk->abcijk
  ⟨-1, [g_abab [mₒ, lₒ, dᵥ, eᵥ], t1_aa [dᵥ, jₒ], t2_abab [aᵥ, eᵥ, iₒ, lₒ], t2_abab [bᵥ, cᵥ, mₒ, kₒ]], [(1, [aᵥ, bᵥ, cᵥ, iₒ, jₒ, kₒ]), (-1, [bᵥ, aᵥ, cᵥ, iₒ, jₒ, kₒ])]⟩,
  -- line 3226: mlde,dj,eclk,abim->abcijk
  ⟨-1, [g_aaaa [mₒ, lₒ, dᵥ, eᵥ], t1_aa [dᵥ, jₒ], t2_abab [eᵥ, cᵥ, lₒ, kₒ], t2_aaaa [aᵥ, bᵥ, iₒ, mₒ]], [(1, [aᵥ, bᵥ, cᵥ, iₒ, jₒ, kₒ])]⟩,
  -- line 3229: mlde,dj,eckl,abim->abcijk
  ⟨1, [g_abab [mₒ, lₒ, dᵥ, eᵥ], t1_aa [dᵥ, jₒ], t2_bbbb [eᵥ, cᵥ, kₒ, lₒ], t2_aaaa [aᵥ, bᵥ, iₒ, mₒ]], [(1, [aᵥ, bᵥ, cᵥ, iₒ, jₒ, kₒ])]⟩,
  -- line 3232: lmde,di,aelk,bcjm->abcijk
  ⟨1, [g_abab [lₒ, mₒ, dᵥ, eᵥ], t1_aa [dᵥ, iₒ], t2_abab [aᵥ, eᵥ, lₒ, kₒ], t2_abab [bᵥ, cᵥ, jₒ, mₒ]], [(1, [aᵥ, bᵥ, cᵥ, iₒ, jₒ, kₒ]), (-1, [bᵥ, aᵥ, cᵥ, iₒ, jₒ, kₒ])]⟩,
  -- line 3236: mlde,di,eajl,bcmk->abcijk
  ⟨-1, [g_aaaa [mₒ, lₒ, dᵥ, eᵥ], t1_aa [dᵥ, iₒ], t2_aaaa [eᵥ, aᵥ, jₒ, lₒ], t2_abab [bᵥ, cᵥ, mₒ, kₒ]], [(1, [aᵥ, bᵥ, cᵥ, iₒ, jₒ, kₒ]), (-1, [bᵥ, aᵥ, cᵥ, iₒ, jₒ, kₒ])]⟩,
  -- line 3240: mlde,di,aejl,bcmk->abcijk
  ⟨1, [g_abab [mₒ, lₒ, dᵥ, eᵥ], t1_aa [dᵥ, iₒ], t2_abab [aᵥ, eᵥ, jₒ, lₒ], t2_abab [bᵥ, cᵥ, mₒ, kₒ]], [(1, [aᵥ, bᵥ, cᵥ, iₒ, jₒ, kₒ]), (-1, [bᵥ, aᵥ, cᵥ, iₒ, jₒ, kₒ])]⟩,
  -- line 3244: mlde,di,aejk,bcml->abcijk
  ⟨-1/2, [g_abab [mₒ, lₒ, dᵥ, eᵥ], t1_aa [dᵥ, iₒ], t2_abab [aᵥ, eᵥ, jₒ, kₒ], t2_abab [bᵥ, cᵥ, mₒ, lₒ]], [(1, [aᵥ, bᵥ, cᵥ, iₒ, jₒ, kₒ]), (-1, [bᵥ, aᵥ, cᵥ, iₒ, jₒ, kₒ])]⟩,
  -- line 3248: lmde,di,aejk,bclm->abcijk
  ⟨-1/2, [g_abab [lₒ, mₒ, dᵥ, eᵥ], t1_aa [dᵥ, iₒ], t2_abab [aᵥ, eᵥ, jₒ, kₒ], t2_abab [bᵥ, cᵥ, lₒ, mₒ]], [(1, [aᵥ, bᵥ, cᵥ, iₒ, jₒ, kₒ]), (-1, [bᵥ, aᵥ, cᵥ, iₒ, jₒ, kₒ])]⟩,
  -- line 3252: mlde,di,eclk,abjm->abcijk
  ⟨1, [g_aaaa [mₒ, lₒ, dᵥ, eᵥ], t1_aa [dᵥ, iₒ], t2_abab [eᵥ, cᵥ, lₒ, kₒ], t2_aaaa [aᵥ, bᵥ, jₒ, mₒ]], [(1, [aᵥ, bᵥ, cᵥ, iₒ, jₒ, kₒ])]⟩,
  -- line 3255: mlde,di,eckl,abjm->abcijk
  ⟨-1, [g_abab [mₒ, lₒ, dᵥ, eᵥ], t1_aa [dᵥ, iₒ], t2_bbbb [eᵥ, cᵥ, kₒ, lₒ], t2_aaaa [aᵥ, bᵥ, jₒ, mₒ]], [(1, [aᵥ, bᵥ, cᵥ, iₒ, jₒ, kₒ])]⟩,
  -- line 3258: mlde,di,ecjk,abml->abcijk
  ⟨1/2, [g_aaaa [mₒ, lₒ, dᵥ, eᵥ], t1_aa [dᵥ, iₒ], t2_abab [eᵥ, cᵥ, jₒ, kₒ], t2_aaaa [aᵥ, bᵥ, mₒ, lₒ]], [(1, [aᵥ, bᵥ, cᵥ, iₒ, jₒ, kₒ])]⟩,
  -- line 3261: lmde,al,dejk,bcim->abcijk
  ⟨-1/2, [g_abab [lₒ, mₒ, dᵥ, eᵥ], t1_aa [aᵥ, lₒ], t2_abab [dᵥ, eᵥ, jₒ, kₒ], t2_abab [bᵥ, cᵥ, iₒ, mₒ]], [(1, [aᵥ, bᵥ, cᵥ, iₒ, jₒ, kₒ]), (-1, [aᵥ, bᵥ, cᵥ, jₒ, iₒ, kₒ]), (-1, [bᵥ, aᵥ, cᵥ, iₒ, jₒ, kₒ]), (1, [bᵥ, aᵥ, cᵥ, jₒ, iₒ, kₒ])]⟩,
  -- line 3265: lmed,al,edjk,bcim->abcijk
  ⟨-1/2, [g_abab [lₒ, mₒ, eᵥ, dᵥ], t1_aa [aᵥ, lₒ], t2_abab [eᵥ, dᵥ, jₒ, kₒ], t2_abab [bᵥ, cᵥ, iₒ, mₒ]], [(1, [aᵥ, bᵥ, cᵥ, iₒ, jₒ, kₒ]), (-1, [aᵥ, bᵥ, cᵥ, jₒ, iₒ, kₒ]), (-1, [bᵥ, aᵥ, cᵥ, iₒ, jₒ, kₒ]), (1, [bᵥ, aᵥ, cᵥ, jₒ, iₒ, kₒ])]⟩,
  -- line 3269: mlde,al,deij,bcmk->abcijk
  ⟨-1/2, [g_aaaa [mₒ, lₒ, dᵥ, eᵥ], t1_aa [aᵥ, lₒ], t2_aaaa [dᵥ, eᵥ, iₒ, jₒ], t2_abab [bᵥ, cᵥ, mₒ, kₒ]], [(1, [aᵥ, bᵥ, cᵥ, iₒ, jₒ, kₒ]), (-1, [bᵥ, aᵥ, cᵥ, iₒ, jₒ, kₒ])]⟩,
  -- line 3273: mlde,al,dbjm,ecik->abcijk
  ⟨1, [g_aaaa [mₒ, lₒ, dᵥ, eᵥ], t1_aa [aᵥ, lₒ], t2_aaaa [dᵥ, bᵥ, jₒ, mₒ], t2_abab [eᵥ, cᵥ, iₒ, kₒ]], [(1, [aᵥ, bᵥ, cᵥ, iₒ, jₒ, kₒ]), (-1, [bᵥ, aᵥ, cᵥ, iₒ, jₒ, kₒ])]⟩,
  -- line 3277: lmed,al,bdjm,ecik->abcijk
  ⟨-1, [g_abab [lₒ, mₒ, eᵥ, dᵥ], t1_aa [aᵥ, lₒ], t2_abab [bᵥ, dᵥ, jₒ, mₒ], t2_abab [eᵥ, cᵥ, iₒ, kₒ]], [(1, [aᵥ, bᵥ, cᵥ, iₒ, jₒ, kₒ]), (-1, [bᵥ, aᵥ, cᵥ, iₒ, jₒ, kₒ])]⟩,
  -- line 3281: mlde,al,dbim,ecjk->abcijk
  ⟨-1, [g_aaaa [mₒ, lₒ, dᵥ, eᵥ], t1_aa [aᵥ, lₒ], t2_aaaa [dᵥ, bᵥ, iₒ, mₒ], t2_abab [eᵥ, cᵥ, jₒ, kₒ]], [(1, [aᵥ, bᵥ, cᵥ, iₒ, jₒ, kₒ]), (-1, [bᵥ, aᵥ, cᵥ, iₒ, jₒ, kₒ])]⟩,
  -- line 3285: lmed,al,bdim,ecjk->abcijk
  ⟨1, [g_abab [lₒ, mₒ, eᵥ, dᵥ], t1_aa [aᵥ, lₒ], t2_abab [bᵥ, dᵥ, iₒ, mₒ], t2_abab [eᵥ, cᵥ, jₒ, kₒ]], [(1, [aᵥ, bᵥ, cᵥ, iₒ, jₒ, kₒ]), (-1, [bᵥ, aᵥ, cᵥ, iₒ, jₒ, kₒ])]⟩,
  -- line 3289: lmed,al,bdjk,ecim->abcijk
  ⟨1, [g_abab [lₒ, mₒ, eᵥ, dᵥ], t1_aa [aᵥ, lₒ], t2_abab [bᵥ, dᵥ, jₒ, kₒ], t2_abab [eᵥ, cᵥ, iₒ, mₒ]], [(1, [aᵥ, bᵥ, cᵥ, iₒ, jₒ, kₒ]), (-1, [aᵥ, bᵥ, cᵥ, jₒ, iₒ, kₒ]), (-1, [bᵥ, aᵥ, cᵥ, iₒ, jₒ, kₒ]), (1, [bᵥ, aᵥ, cᵥ, jₒ, iₒ, kₒ])]⟩,
  -- line 3293: mlde,al,dbij,ecmk->abcijk
  ⟨1, [g_aaaa [mₒ, lₒ, dᵥ, eᵥ], t1_aa [aᵥ, lₒ], t2_aaaa [dᵥ, bᵥ, iₒ, jₒ], t2_abab [eᵥ, cᵥ, mₒ, kₒ]], [(1, [aᵥ, bᵥ, cᵥ, iₒ, jₒ, kₒ]), (-1, [bᵥ, aᵥ, cᵥ, iₒ, jₒ, kₒ])]⟩,
  -- line 3297: lmde,al,dbij,eckm->abcijk
  ⟨1, [g_abab [lₒ, mₒ, dᵥ, eᵥ], t1_aa [aᵥ, lₒ], t2_aaaa [dᵥ, bᵥ, iₒ, jₒ], t2_bbbb [eᵥ, cᵥ, kₒ, mₒ]], [(1, [aᵥ, bᵥ, cᵥ, iₒ, jₒ, kₒ]), (-1, [bᵥ, aᵥ, cᵥ, iₒ, jₒ, kₒ])]⟩,
  -- line 3301: mlde,cl,dejk,abim->abcijk
  ⟨1/2, [g_abab [mₒ, lₒ, dᵥ, eᵥ], t1_bb [cᵥ, lₒ], t2_abab [dᵥ, eᵥ, jₒ, kₒ], t2_aaaa [aᵥ, bᵥ, iₒ, mₒ]], [(1, [aᵥ, bᵥ, cᵥ, iₒ, jₒ, kₒ]), (-1, [aᵥ, bᵥ, cᵥ, jₒ, iₒ, kₒ])]⟩,
  -- line 3305: mled,cl,edjk,abim->abcijk
  ⟨1/2, [g_abab [mₒ, lₒ, eᵥ, dᵥ], t1_bb [cᵥ, lₒ], t2_abab [eᵥ, dᵥ, jₒ, kₒ], t2_aaaa [aᵥ, bᵥ, iₒ, mₒ]], [(1, [aᵥ, bᵥ, cᵥ, iₒ, jₒ, kₒ]), (-1, [aᵥ, bᵥ, cᵥ, jₒ, iₒ, kₒ])]⟩,
  -- line 3309: mled,cl,admk,ebij->abcijk
  ⟨1, [g_abab [mₒ, lₒ, eᵥ, dᵥ], t1_bb [cᵥ, lₒ], t2_abab [aᵥ, dᵥ, mₒ, kₒ], t2_aaaa [eᵥ, bᵥ, iₒ, jₒ]], [(1, [aᵥ, bᵥ, cᵥ, iₒ, jₒ, kₒ])]⟩,
  -- line 3312: mlde,cl,dajm,beik->abcijk
  ⟨-1, [g_abab [mₒ, lₒ, dᵥ, eᵥ], t1_bb [cᵥ, lₒ], t2_aaaa [dᵥ, aᵥ, jₒ, mₒ], t2_abab [bᵥ, eᵥ, iₒ, kₒ]], [(1, [aᵥ, bᵥ, cᵥ, iₒ, jₒ, kₒ])]⟩,
  -- line 3315: mlde,cl,adjm,beik->abcijk
  ⟨1, [g_bbbb [mₒ, lₒ, dᵥ, eᵥ], t1_bb [cᵥ, lₒ], t2_abab [aᵥ, dᵥ, jₒ, mₒ], t2_abab [bᵥ, eᵥ, iₒ, kₒ]], [(1, [aᵥ, bᵥ, cᵥ, iₒ, jₒ, kₒ])]⟩,
  -- line 3318: mlde,cl,daim,bejk->abcijk
  ⟨1, [g_abab [mₒ, lₒ, dᵥ, eᵥ], t1_bb [cᵥ, lₒ], t2_aaaa [dᵥ, aᵥ, iₒ, mₒ], t2_abab [bᵥ, eᵥ, jₒ, kₒ]], [(1, [aᵥ, bᵥ, cᵥ, iₒ, jₒ, kₒ])]⟩,
  -- line 3321: mlde,cl,adim,bejk->abcijk
  ⟨-1, [g_bbbb [mₒ, lₒ, dᵥ, eᵥ], t1_bb [cᵥ, lₒ], t2_abab [aᵥ, dᵥ, iₒ, mₒ], t2_abab [bᵥ, eᵥ, jₒ, kₒ]], [(1, [aᵥ, bᵥ, cᵥ, iₒ, jₒ, kₒ])]⟩,
  -- line 3324: mled,cl,adjk,ebim->abcijk
  ⟨-1, [g_abab [mₒ, lₒ, eᵥ, dᵥ], t1_bb [cᵥ, lₒ], t2_abab [aᵥ, dᵥ, jₒ, kₒ], t2_aaaa [eᵥ, bᵥ, iₒ, mₒ]], [(1, [aᵥ, bᵥ, cᵥ, iₒ, jₒ, kₒ]), (-1, [aᵥ, bᵥ, cᵥ, jₒ, iₒ, kₒ])]⟩
  ]

/-- Part 7 of `ccsdt_t3_aabaab`. -/
def ccsdt_t3_aabaab_7 : Prog := [
  -- line 3328: mlde,cl,adjk,beim->abcijk
  ⟨-1, [g_bbbb [mₒ, lₒ, dᵥ, eᵥ], t1_bb [cᵥ, lₒ], t2_abab [aᵥ, dᵥ, jₒ, kₒ], t2_abab [bᵥ, eᵥ, iₒ, mₒ]], [(1, [aᵥ, bᵥ, cᵥ, iₒ, jₒ, kₒ]), (-1, [aᵥ, bᵥ, cᵥ, jₒ, iₒ, kₒ])]⟩,
  -- line 3332: mlde,cl,daij,bemk->abcijk
  ⟨-1, [g_abab [mₒ, lₒ, dᵥ, eᵥ], t1_bb [cᵥ, lₒ], t2_aaaa [dᵥ, aᵥ, iₒ, jₒ], t2_abab [bᵥ, eᵥ, mₒ, kₒ]], [(1, [aᵥ, bᵥ, cᵥ, iₒ, jₒ, kₒ])]⟩,
  -- line 3335: lmdk,dj,al,bcim->abcijk
  ⟨-1, [g_abab [lₒ, mₒ, dᵥ, kₒ], t1_aa [dᵥ, jₒ], t1_aa [aᵥ, lₒ], t2_abab [bᵥ, cᵥ, iₒ, mₒ]], [(1, [aᵥ, bᵥ, cᵥ, iₒ, jₒ, kₒ]), (-1, [aᵥ, bᵥ, cᵥ, jₒ, iₒ, kₒ]), (-1, [bᵥ, aᵥ, cᵥ, iₒ, jₒ, kₒ]), (1, [bᵥ, aᵥ, cᵥ, jₒ, iₒ, kₒ])]⟩,
  -- line 3339: mldk,dj,cl,abim->abcijk
  ⟨1, [g_abab [mₒ, lₒ, dᵥ, kₒ], t1_aa [dᵥ, jₒ], t1_bb [cᵥ, lₒ], t2_aaaa [aᵥ, bᵥ, iₒ, mₒ]], [(1, [aᵥ, bᵥ, cᵥ, iₒ, jₒ, kₒ]), (-1, [aᵥ, bᵥ, cᵥ, jₒ, iₒ, kₒ])]⟩,
  -- line 3343: lmdk,al,cm,dbij->abcijk
  ⟨1, [g_abab [lₒ, mₒ, dᵥ, kₒ], t1_aa [aᵥ, lₒ], t1_bb [cᵥ, mₒ], t2_aaaa [dᵥ, bᵥ, iₒ, jₒ]], [(1, [aᵥ, bᵥ, cᵥ, iₒ, jₒ, kₒ])]⟩,
  -- line 3346: mldj,al,bm,dcik->abcijk
  ⟨-1, [g_aaaa [mₒ, lₒ, dᵥ, jₒ], t1_aa [aᵥ, lₒ], t1_aa [bᵥ, mₒ], t2_abab [dᵥ, cᵥ, iₒ, kₒ]], [(1, [aᵥ, bᵥ, cᵥ, iₒ, jₒ, kₒ])]⟩,
  -- line 3349: lmjd,al,cm,bdik->abcijk
  ⟨-1, [g_abab [lₒ, mₒ, jₒ, dᵥ], t1_aa [aᵥ, lₒ], t1_bb [cᵥ, mₒ], t2_abab [bᵥ, dᵥ, iₒ, kₒ]], [(1, [aᵥ, bᵥ, cᵥ, iₒ, jₒ, kₒ])]⟩,
  -- line 3352: lmdk,bl,cm,daij->abcijk
  ⟨-1, [g_abab [lₒ, mₒ, dᵥ, kₒ], t1_aa [bᵥ, lₒ], t1_bb [cᵥ, mₒ], t2_aaaa [dᵥ, aᵥ, iₒ, jₒ]], [(1, [aᵥ, bᵥ, cᵥ, iₒ, jₒ, kₒ])]⟩,
  -- line 3355: lmjd,bl,cm,adik->abcijk
  ⟨1, [g_abab [lₒ, mₒ, jₒ, dᵥ], t1_aa [bᵥ, lₒ], t1_bb [cᵥ, mₒ], t2_abab [aᵥ, dᵥ, iₒ, kₒ]], [(1, [aᵥ, bᵥ, cᵥ, iₒ, jₒ, kₒ])]⟩,
  -- line 3358: lmjd,dk,al,bcim->abcijk
  ⟨-1, [g_abab [lₒ, mₒ, jₒ, dᵥ], t1_bb [dᵥ, kₒ], t1_aa [aᵥ, lₒ], t2_abab [bᵥ, cᵥ, iₒ, mₒ]], [(1, [aᵥ, bᵥ, cᵥ, iₒ, jₒ, kₒ]), (-1, [bᵥ, aᵥ, cᵥ, iₒ, jₒ, kₒ])]⟩,
  -- line 3362: mldj,di,al,bcmk->abcijk
  ⟨-1, [g_aaaa [mₒ, lₒ, dᵥ, jₒ], t1_aa [dᵥ, iₒ], t1_aa [aᵥ, lₒ], t2_abab [bᵥ, cᵥ, mₒ, kₒ]], [(1, [aᵥ, bᵥ, cᵥ, iₒ, jₒ, kₒ]), (-1, [bᵥ, aᵥ, cᵥ, iₒ, jₒ, kₒ])]⟩,
  -- line 3366: mljd,dk,cl,abim->abcijk
  ⟨1, [g_abab [mₒ, lₒ, jₒ, dᵥ], t1_bb [dᵥ, kₒ], t1_bb [cᵥ, lₒ], t2_aaaa [aᵥ, bᵥ, iₒ, mₒ]], [(1, [aᵥ, bᵥ, cᵥ, iₒ, jₒ, kₒ])]⟩,
  -- line 3369: lmid,dk,al,bcjm->abcijk
  ⟨1, [g_abab [lₒ, mₒ, iₒ, dᵥ], t1_bb [dᵥ, kₒ], t1_aa [aᵥ, lₒ], t2_abab [bᵥ, cᵥ, jₒ, mₒ]], [(1, [aᵥ, bᵥ, cᵥ, iₒ, jₒ, kₒ]), (-1, [bᵥ, aᵥ, cᵥ, iₒ, jₒ, kₒ])]⟩,
  -- line 3373: mldi,dj,al,bcmk->abcijk
  ⟨1, [g_aaaa [mₒ, lₒ, dᵥ, iₒ], t1_aa [dᵥ, jₒ], t1_aa [aᵥ, lₒ], t2_abab [bᵥ, cᵥ, mₒ, kₒ]], [(1, [aᵥ, bᵥ, cᵥ, iₒ, jₒ, kₒ]), (-1, [bᵥ, aᵥ, cᵥ, iₒ, jₒ, kₒ])]⟩,
  -- line 3377: mlid,dk,cl,abjm->abcijk
  ⟨-1, [g_abab [mₒ, lₒ, iₒ, dᵥ], t1_bb [dᵥ, kₒ], t1_bb [cᵥ, lₒ], t2_aaaa [aᵥ, bᵥ, jₒ, mₒ]], [(1, [aᵥ, bᵥ, cᵥ, iₒ, jₒ, kₒ])]⟩,
  -- line 3380: mldi,al,bm,dcjk->abcijk
  ⟨1, [g_aaaa [mₒ, lₒ, dᵥ, iₒ], t1_aa [aᵥ, lₒ], t1_aa [bᵥ, mₒ], t2_abab [dᵥ, cᵥ, jₒ, kₒ]], [(1, [aᵥ, bᵥ, cᵥ, iₒ, jₒ, kₒ])]⟩,
  -- line 3383: lmid,al,cm,bdjk->abcijk
  ⟨1, [g_abab [lₒ, mₒ, iₒ, dᵥ], t1_aa [aᵥ, lₒ], t1_bb [cᵥ, mₒ], t2_abab [bᵥ, dᵥ, jₒ, kₒ]], [(1, [aᵥ, bᵥ, cᵥ, iₒ, jₒ, kₒ])]⟩,
  -- line 3386: lmid,bl,cm,adjk->abcijk
  ⟨-1, [g_abab [lₒ, mₒ, iₒ, dᵥ], t1_aa [bᵥ, lₒ], t1_bb [cᵥ, mₒ], t2_abab [aᵥ, dᵥ, jₒ, kₒ]], [(1, [aᵥ, bᵥ, cᵥ, iₒ, jₒ, kₒ])]⟩,
  -- line 3389: aled,dk,ej,bcil->abcijk
  ⟨1, [g_abab [aᵥ, lₒ, eᵥ, dᵥ], t1_bb [dᵥ, kₒ], t1_aa [eᵥ, jₒ], t2_abab [bᵥ, cᵥ, iₒ, lₒ]], [(1, [aᵥ, bᵥ, cᵥ, iₒ, jₒ, kₒ]), (-1, [aᵥ, bᵥ, cᵥ, jₒ, iₒ, kₒ]), (-1, [bᵥ, aᵥ, cᵥ, iₒ, jₒ, kₒ]), (1, [bᵥ, aᵥ, cᵥ, jₒ, iₒ, kₒ])]⟩,
  -- line 3393: aled,dk,cl,ebij->abcijk
  ⟨-1, [g_abab [aᵥ, lₒ, eᵥ, dᵥ], t1_bb [dᵥ, kₒ], t1_bb [cᵥ, lₒ], t2_aaaa [eᵥ, bᵥ, iₒ, jₒ]], [(1, [aᵥ, bᵥ, cᵥ, iₒ, jₒ, kₒ])]⟩,
  -- line 3396: lade,dj,bl,ecik->abcijk
  ⟨-1, [g_aaaa [lₒ, aᵥ, dᵥ, eᵥ], t1_aa [dᵥ, jₒ], t1_aa [bᵥ, lₒ], t2_abab [eᵥ, cᵥ, iₒ, kₒ]], [(1, [aᵥ, bᵥ, cᵥ, iₒ, jₒ, kₒ])]⟩,
  -- line 3399: alde,dj,cl,beik->abcijk
  ⟨1, [g_abab [aᵥ, lₒ, dᵥ, eᵥ], t1_aa [dᵥ, jₒ], t1_bb [cᵥ, lₒ], t2_abab [bᵥ, eᵥ, iₒ, kₒ]], [(1, [aᵥ, bᵥ, cᵥ, iₒ, jₒ, kₒ])]⟩,
  -- line 3402: lade,dj,ei,bclk->abcijk
  ⟨-1, [g_aaaa [lₒ, aᵥ, dᵥ, eᵥ], t1_aa [dᵥ, jₒ], t1_aa [eᵥ, iₒ], t2_abab [bᵥ, cᵥ, lₒ, kₒ]], [(1, [aᵥ, bᵥ, cᵥ, iₒ, jₒ, kₒ]), (-1, [bᵥ, aᵥ, cᵥ, iₒ, jₒ, kₒ])]⟩,
  -- line 3406: lade,di,bl,ecjk->abcijk
  ⟨1, [g_aaaa [lₒ, aᵥ, dᵥ, eᵥ], t1_aa [dᵥ, iₒ], t1_aa [bᵥ, lₒ], t2_abab [eᵥ, cᵥ, jₒ, kₒ]], [(1, [aᵥ, bᵥ, cᵥ, iₒ, jₒ, kₒ])]⟩,
  -- line 3409: alde,di,cl,bejk->abcijk
  ⟨-1, [g_abab [aᵥ, lₒ, dᵥ, eᵥ], t1_aa [dᵥ, iₒ], t1_bb [cᵥ, lₒ], t2_abab [bᵥ, eᵥ, jₒ, kₒ]], [(1, [aᵥ, bᵥ, cᵥ, iₒ, jₒ, kₒ])]⟩,
  -- line 3412: bled,dk,cl,eaij->abcijk
  ⟨1, [g_abab [bᵥ, lₒ, eᵥ, dᵥ], t1_bb [dᵥ, kₒ], t1_bb [cᵥ, lₒ], t2_aaaa [eᵥ, aᵥ, iₒ, jₒ]], [(1, [aᵥ, bᵥ, cᵥ, iₒ, jₒ, kₒ])]⟩,
  -- line 3415: lbde,dj,al,ecik->abcijk
  ⟨1, [g_aaaa [lₒ, bᵥ, dᵥ, eᵥ], t1_aa [dᵥ, jₒ], t1_aa [aᵥ, lₒ], t2_abab [eᵥ, cᵥ, iₒ, kₒ]], [(1, [aᵥ, bᵥ, cᵥ, iₒ, jₒ, kₒ])]⟩,
  -- line 3418: blde,dj,cl,aeik->abcijk
  ⟨-1, [g_abab [bᵥ, lₒ, dᵥ, eᵥ], t1_aa [dᵥ, jₒ], t1_bb [cᵥ, lₒ], t2_abab [aᵥ, eᵥ, iₒ, kₒ]], [(1, [aᵥ, bᵥ, cᵥ, iₒ, jₒ, kₒ])]⟩,
  -- line 3421: lbde,di,al,ecjk->abcijk
  ⟨-1, [g_aaaa [lₒ, bᵥ, dᵥ, eᵥ], t1_aa [dᵥ, iₒ], t1_aa [aᵥ, lₒ], t2_abab [eᵥ, cᵥ, jₒ, kₒ]], [(1, [aᵥ, bᵥ, cᵥ, iₒ, jₒ, kₒ])]⟩,
  -- line 3424: blde,di,cl,aejk->abcijk
  ⟨1, [g_abab [bᵥ, lₒ, dᵥ, eᵥ], t1_aa [dᵥ, iₒ], t1_bb [cᵥ, lₒ], t2_abab [aᵥ, eᵥ, jₒ, kₒ]], [(1, [aᵥ, bᵥ, cᵥ, iₒ, jₒ, kₒ])]⟩,
  -- line 3427: lced,dk,ej,abil->abcijk
  ⟨-1, [g_abab [lₒ, cᵥ, eᵥ, dᵥ], t1_bb [dᵥ, kₒ], t1_aa [eᵥ, jₒ], t2_aaaa [aᵥ, bᵥ, iₒ, lₒ]], [(1, [aᵥ, bᵥ, cᵥ, iₒ, jₒ, kₒ]), (-1, [aᵥ, bᵥ, cᵥ, jₒ, iₒ, kₒ])]⟩,
  -- line 3431: lced,dk,al,ebij->abcijk
  ⟨-1, [g_abab [lₒ, cᵥ, eᵥ, dᵥ], t1_bb [dᵥ, kₒ], t1_aa [aᵥ, lₒ], t2_aaaa [eᵥ, bᵥ, iₒ, jₒ]], [(1, [aᵥ, bᵥ, cᵥ, iₒ, jₒ, kₒ]), (-1, [bᵥ, aᵥ, cᵥ, iₒ, jₒ, kₒ])]⟩,
  -- line 3435: lcde,dj,al,beik->abcijk
  ⟨1, [g_abab [lₒ, cᵥ, dᵥ, eᵥ], t1_aa [dᵥ, jₒ], t1_aa [aᵥ, lₒ], t2_abab [bᵥ, eᵥ, iₒ, kₒ]], [(1, [aᵥ, bᵥ, cᵥ, iₒ, jₒ, kₒ]), (-1, [bᵥ, aᵥ, cᵥ, iₒ, jₒ, kₒ])]⟩,
  -- line 3439: lcde,di,al,bejk->abcijk
  ⟨-1, [g_abab [lₒ, cᵥ, dᵥ, eᵥ], t1_aa [dᵥ, iₒ], t1_aa [aᵥ, lₒ], t2_abab [bᵥ, eᵥ, jₒ, kₒ]], [(1, [aᵥ, bᵥ, cᵥ, iₒ, jₒ, kₒ]), (-1, [bᵥ, aᵥ, cᵥ, iₒ, jₒ, kₒ])]⟩,
  -- line 3443: lmde,dl,ek,abcijm->abcijk
  ⟨-1, [g_abab [lₒ, mₒ, dᵥ, eᵥ], t1_aa [dᵥ, lₒ], t1_bb [eᵥ, kₒ], t3_aabaab [aᵥ, bᵥ, cᵥ, iₒ, jₒ, mₒ]], [(1, [aᵥ, bᵥ, cᵥ, iₒ, jₒ, kₒ])]⟩,
  -- line 3446: mlde,dl,ek,abcijm->abcijk
  ⟨1, [g_bbbb [mₒ, lₒ, dᵥ, eᵥ], t1_bb [dᵥ, lₒ], t1_bb [eᵥ, kₒ], t3_aabaab [aᵥ, bᵥ, cᵥ, iₒ, jₒ, mₒ]], [(1, [aᵥ, bᵥ, cᵥ, iₒ, jₒ, kₒ])]⟩,
  -- line 3449: mlde,dl,ej,abcimk->abcijk
  ⟨1, [g_aaaa [mₒ, lₒ, dᵥ, eᵥ], t1_aa [dᵥ, lₒ], t1_aa [eᵥ, jₒ], t3_aabaab [aᵥ, bᵥ, cᵥ, iₒ, mₒ, kₒ]], [(1, [aᵥ, bᵥ, cᵥ, iₒ, jₒ, kₒ])]⟩,
  -- line 3452: mled,dl,ej,abcimk->abcijk
  ⟨-1, [g_abab [mₒ, lₒ, eᵥ, dᵥ], t1_bb [dᵥ, lₒ], t1_aa [eᵥ, jₒ], t3_aabaab [aᵥ, bᵥ, cᵥ, iₒ, mₒ, kₒ]], [(1, [aᵥ, bᵥ, cᵥ, iₒ, jₒ, kₒ])]⟩,
  -- line 3455: mlde,dl,ei,abcjmk->abcijk
  ⟨-1, [g_aaaa [mₒ, lₒ, dᵥ, eᵥ], t1_aa [dᵥ, lₒ], t1_aa [eᵥ, iₒ], t3_aabaab [aᵥ, bᵥ, cᵥ, jₒ, mₒ, kₒ]], [(1, [aᵥ, bᵥ, cᵥ, iₒ, jₒ, kₒ])]⟩,
  -- line 3458: mled,dl,ei,abcjmk->abcijk
  ⟨1, [g_abab [mₒ, lₒ, eᵥ, dᵥ], t1_bb [dᵥ, lₒ], t1_aa [eᵥ, iₒ], t3_aabaab [aᵥ, bᵥ, cᵥ, jₒ, mₒ, kₒ]], [(1, [aᵥ, bᵥ, cᵥ, iₒ, jₒ, kₒ])]⟩
  ]

/-- Part 8 of `ccsdt_t3_aabaab`. -/
def ccsdt_t3_aabaab_8 : Prog := [
  -- line 3461: mlde,dl,am,ebcijk->abcijk
  ⟨1, [g_aaaa [mₒ, lₒ, dᵥ, eᵥ], t1_aa [dᵥ, lₒ], t1_aa [aᵥ, mₒ], t3_aabaab [eᵥ, bᵥ, cᵥ, iₒ, jₒ, kₒ]], [(1, [aᵥ, bᵥ, cᵥ, iₒ, jₒ, kₒ]), (-1, [bᵥ, aᵥ, cᵥ, iₒ, jₒ, kₒ])]⟩,
  -- line 3465: mled,dl,am,ebcijk->abcijk
  ⟨-1, [g_abab [mₒ, lₒ, eᵥ, dᵥ], t1_bb [dᵥ, lₒ], t1_aa [aᵥ, mₒ], t3_aabaab [eᵥ, bᵥ, cᵥ, iₒ, jₒ, kₒ]], [(1, [aᵥ, bᵥ, cᵥ, iₒ, jₒ, kₒ]), (-1, [bᵥ, aᵥ, cᵥ, iₒ, jₒ, kₒ])]⟩,
  -- line 3469: lmde,dl,cm,baeijk->abcijk
  ⟨1, [g_abab [lₒ, mₒ, dᵥ, eᵥ], t1_aa [dᵥ, lₒ], t1_bb [cᵥ, mₒ], t3_aabaab [bᵥ, aᵥ, eᵥ, iₒ, jₒ, kₒ]], [(1, [aᵥ, bᵥ, cᵥ, iₒ, jₒ, kₒ])]⟩,
  -- line 3472: mlde,dl,cm,baeijk->abcijk
  ⟨-1, [g_bbbb [mₒ, lₒ, dᵥ, eᵥ], t1_bb [dᵥ, lₒ], t1_bb [cᵥ, mₒ], t3_aabaab [bᵥ, aᵥ, eᵥ, iₒ, jₒ, kₒ]], [(1, [aᵥ, bᵥ, cᵥ, iₒ, jₒ, kₒ])]⟩,
  -- line 3475: mled,dk,ej,abciml->abcijk
  ⟨1/2, [g_abab [mₒ, lₒ, eᵥ, dᵥ], t1_bb [dᵥ, kₒ], t1_aa [eᵥ, jₒ], t3_aabaab [aᵥ, bᵥ, cᵥ, iₒ, mₒ, lₒ]], [(1, [aᵥ, bᵥ, cᵥ, iₒ, jₒ, kₒ]), (-1, [aᵥ, bᵥ, cᵥ, jₒ, iₒ, kₒ])]⟩,
  -- line 3479: lmed,dk,ej,abcilm->abcijk
  ⟨1/2, [g_abab [lₒ, mₒ, eᵥ, dᵥ], t1_bb [dᵥ, kₒ], t1_aa [eᵥ, jₒ], t3_aabaab [aᵥ, bᵥ, cᵥ, iₒ, lₒ, mₒ]], [(1, [aᵥ, bᵥ, cᵥ, iₒ, jₒ, kₒ]), (-1, [aᵥ, bᵥ, cᵥ, jₒ, iₒ, kₒ])]⟩,
  -- line 3483: lmed,dk,al,ebcijm->abcijk
  ⟨1, [g_abab [lₒ, mₒ, eᵥ, dᵥ], t1_bb [dᵥ, kₒ], t1_aa [aᵥ, lₒ], t3_aabaab [eᵥ, bᵥ, cᵥ, iₒ, jₒ, mₒ]], [(1, [aᵥ, bᵥ, cᵥ, iₒ, jₒ, kₒ]), (-1, [bᵥ, aᵥ, cᵥ, iₒ, jₒ, kₒ])]⟩,
  -- line 3487: mlde,dj,al,ebcimk->abcijk
  ⟨1, [g_aaaa [mₒ, lₒ, dᵥ, eᵥ], t1_aa [dᵥ, jₒ], t1_aa [aᵥ, lₒ], t3_aabaab [eᵥ, bᵥ, cᵥ, iₒ, mₒ, kₒ]], [(1, [aᵥ, bᵥ, cᵥ, iₒ, jₒ, kₒ]), (-1, [bᵥ, aᵥ, cᵥ, iₒ, jₒ, kₒ])]⟩,
  -- line 3491: lmde,dj,al,becikm->abcijk
  ⟨-1, [g_abab [lₒ, mₒ, dᵥ, eᵥ], t1_aa [dᵥ, jₒ], t1_aa [aᵥ, lₒ], t3_abbabb [bᵥ, eᵥ, cᵥ, iₒ, kₒ, mₒ]], [(1, [aᵥ, bᵥ, cᵥ, iₒ, jₒ, kₒ]), (-1, [bᵥ, aᵥ, cᵥ, iₒ, jₒ, kₒ])]⟩,
  -- line 3495: mled,dk,cl,eabijm->abcijk
  ⟨-1, [g_abab [mₒ, lₒ, eᵥ, dᵥ], t1_bb [dᵥ, kₒ], t1_bb [cᵥ, lₒ], t3_aaaaaa [eᵥ, aᵥ, bᵥ, iₒ, jₒ, mₒ]], [(1, [aᵥ, bᵥ, cᵥ, iₒ, jₒ, kₒ])]⟩,
  -- line 3498: mlde,dk,cl,baeijm->abcijk
  ⟨-1, [g_bbbb [mₒ, lₒ, dᵥ, eᵥ], t1_bb [dᵥ, kₒ], t1_bb [cᵥ, lₒ], t3_aabaab [bᵥ, aᵥ, eᵥ, iₒ, jₒ, mₒ]], [(1, [aᵥ, bᵥ, cᵥ, iₒ, jₒ, kₒ])]⟩,
  -- line 3501: mlde,dj,cl,baeimk->abcijk
  ⟨-1, [g_abab [mₒ, lₒ, dᵥ, eᵥ], t1_aa [dᵥ, jₒ], t1_bb [cᵥ, lₒ], t3_aabaab [bᵥ, aᵥ, eᵥ, iₒ, mₒ, kₒ]], [(1, [aᵥ, bᵥ, cᵥ, iₒ, jₒ, kₒ])]⟩,
  -- line 3504: mlde,dj,ei,abclmk->abcijk
  ⟨1/2, [g_aaaa [mₒ, lₒ, dᵥ, eᵥ], t1_aa [dᵥ, jₒ], t1_aa [eᵥ, iₒ], t3_aabaab [aᵥ, bᵥ, cᵥ, lₒ, mₒ, kₒ]], [(1, [aᵥ, bᵥ, cᵥ, iₒ, jₒ, kₒ])]⟩,
  -- line 3507: mlde,di,al,ebcjmk->abcijk
  ⟨-1, [g_aaaa [mₒ, lₒ, dᵥ, eᵥ], t1_aa [dᵥ, iₒ], t1_aa [aᵥ, lₒ], t3_aabaab [eᵥ, bᵥ, cᵥ, jₒ, mₒ, kₒ]], [(1, [aᵥ, bᵥ, cᵥ, iₒ, jₒ, kₒ]), (-1, [bᵥ, aᵥ, cᵥ, iₒ, jₒ, kₒ])]⟩,
  -- line 3511: lmde,di,al,becjkm->abcijk
  ⟨1, [g_abab [lₒ, mₒ, dᵥ, eᵥ], t1_aa [dᵥ, iₒ], t1_aa [aᵥ, lₒ], t3_abbabb [bᵥ, eᵥ, cᵥ, jₒ, kₒ, mₒ]], [(1, [aᵥ, bᵥ, cᵥ, iₒ, jₒ, kₒ]), (-1, [bᵥ, aᵥ, cᵥ, iₒ, jₒ, kₒ])]⟩,
  -- line 3515: mlde,di,cl,baejmk->abcijk
  ⟨1, [g_abab [mₒ, lₒ, dᵥ, eᵥ], t1_aa [dᵥ, iₒ], t1_bb [cᵥ, lₒ], t3_aabaab [bᵥ, aᵥ, eᵥ, jₒ, mₒ, kₒ]], [(1, [aᵥ, bᵥ, cᵥ, iₒ, jₒ, kₒ])]⟩,
  -- line 3518: mlde,al,bm,decijk->abcijk
  ⟨-1/2, [g_aaaa [mₒ, lₒ, dᵥ, eᵥ], t1_aa [aᵥ, lₒ], t1_aa [bᵥ, mₒ], t3_aabaab [dᵥ, eᵥ, cᵥ, iₒ, jₒ, kₒ]], [(1, [aᵥ, bᵥ, cᵥ, iₒ, jₒ, kₒ])]⟩,
  -- line 3521: lmde,al,cm,dbeijk->abcijk
  ⟨1/2, [g_abab [lₒ, mₒ, dᵥ, eᵥ], t1_aa [aᵥ, lₒ], t1_bb [cᵥ, mₒ], t3_aabaab [dᵥ, bᵥ, eᵥ, iₒ, jₒ, kₒ]], [(1, [aᵥ, bᵥ, cᵥ, iₒ, jₒ, kₒ])]⟩,
  -- line 3524: lmed,al,cm,bedijk->abcijk
  ⟨-1/2, [g_abab [lₒ, mₒ, eᵥ, dᵥ], t1_aa [aᵥ, lₒ], t1_bb [cᵥ, mₒ], t3_aabaab [bᵥ, eᵥ, dᵥ, iₒ, jₒ, kₒ]], [(1, [aᵥ, bᵥ, cᵥ, iₒ, jₒ, kₒ])]⟩,
  -- line 3527: lmde,bl,cm,daeijk->abcijk
  ⟨-1/2, [g_abab [lₒ, mₒ, dᵥ, eᵥ], t1_aa [bᵥ, lₒ], t1_bb [cᵥ, mₒ], t3_aabaab [dᵥ, aᵥ, eᵥ, iₒ, jₒ, kₒ]], [(1, [aᵥ, bᵥ, cᵥ, iₒ, jₒ, kₒ])]⟩,
  -- line 3530: lmed,bl,cm,aedijk->abcijk
  ⟨1/2, [g_abab [lₒ, mₒ, eᵥ, dᵥ], t1_aa [bᵥ, lₒ], t1_bb [cᵥ, mₒ], t3_aabaab [aᵥ, eᵥ, dᵥ, iₒ, jₒ, kₒ]], [(1, [aᵥ, bᵥ, cᵥ, iₒ, jₒ, kₒ])]⟩,
  -- line 3533: lmed,dk,ej,al,bcim->abcijk
  ⟨-1, [g_abab [lₒ, mₒ, eᵥ, dᵥ], t1_bb [dᵥ, kₒ], t1_aa [eᵥ, jₒ], t1_aa [aᵥ, lₒ], t2_abab [bᵥ, cᵥ, iₒ, mₒ]], [(1, [aᵥ, bᵥ, cᵥ, iₒ, jₒ, kₒ]), (-1, [aᵥ, bᵥ, cᵥ, jₒ, iₒ, kₒ]), (-1, [bᵥ, aᵥ, cᵥ, iₒ, jₒ, kₒ]), (1, [bᵥ, aᵥ, cᵥ, jₒ, iₒ, kₒ])]⟩,
  -- line 3537: mled,dk,ej,cl,abim->abcijk
  ⟨1, [g_abab [mₒ, lₒ, eᵥ, dᵥ], t1_bb [dᵥ, kₒ], t1_aa [eᵥ, jₒ], t1_bb [cᵥ, lₒ], t2_aaaa [aᵥ, bᵥ, iₒ, mₒ]], [(1, [aᵥ, bᵥ, cᵥ, iₒ, jₒ, kₒ]), (-1, [aᵥ, bᵥ, cᵥ, jₒ, iₒ, kₒ])]⟩,
  -- line 3541: lmed,dk,al,cm,ebij->abcijk
  ⟨1, [g_abab [lₒ, mₒ, eᵥ, dᵥ], t1_bb [dᵥ, kₒ], t1_aa [aᵥ, lₒ], t1_bb [cᵥ, mₒ], t2_aaaa [eᵥ, bᵥ, iₒ, jₒ]], [(1, [aᵥ, bᵥ, cᵥ, iₒ, jₒ, kₒ])]⟩,
  -- line 3544: mlde,dj,al,bm,ecik->abcijk
  ⟨1, [g_aaaa [mₒ, lₒ, dᵥ, eᵥ], t1_aa [dᵥ, jₒ], t1_aa [aᵥ, lₒ], t1_aa [bᵥ, mₒ], t2_abab [eᵥ, cᵥ, iₒ, kₒ]], [(1, [aᵥ, bᵥ, cᵥ, iₒ, jₒ, kₒ])]⟩,
  -- line 3547: lmde,dj,al,cm,beik->abcijk
  ⟨-1, [g_abab [lₒ, mₒ, dᵥ, eᵥ], t1_aa [dᵥ, jₒ], t1_aa [aᵥ, lₒ], t1_bb [cᵥ, mₒ], t2_abab [bᵥ, eᵥ, iₒ, kₒ]], [(1, [aᵥ, bᵥ, cᵥ, iₒ, jₒ, kₒ])]⟩,
  -- line 3550: lmed,dk,bl,cm,eaij->abcijk
  ⟨-1, [g_abab [lₒ, mₒ, eᵥ, dᵥ], t1_bb [dᵥ, kₒ], t1_aa [bᵥ, lₒ], t1_bb [cᵥ, mₒ], t2_aaaa [eᵥ, aᵥ, iₒ, jₒ]], [(1, [aᵥ, bᵥ, cᵥ, iₒ, jₒ, kₒ])]⟩,
  -- line 3553: lmde,dj,bl,cm,aeik->abcijk
  ⟨1, [g_abab [lₒ, mₒ, dᵥ, eᵥ], t1_aa [dᵥ, jₒ], t1_aa [bᵥ, lₒ], t1_bb [cᵥ, mₒ], t2_abab [aᵥ, eᵥ, iₒ, kₒ]], [(1, [aᵥ, bᵥ, cᵥ, iₒ, jₒ, kₒ])]⟩,
  -- line 3556: mlde,dj,ei,al,bcmk->abcijk
  ⟨1, [g_aaaa [mₒ, lₒ, dᵥ, eᵥ], t1_aa [dᵥ, jₒ], t1_aa [eᵥ, iₒ], t1_aa [aᵥ, lₒ], t2_abab [bᵥ, cᵥ, mₒ, kₒ]], [(1, [aᵥ, bᵥ, cᵥ, iₒ, jₒ, kₒ]), (-1, [bᵥ, aᵥ, cᵥ, iₒ, jₒ, kₒ])]⟩,
  -- line 3560: mlde,di,al,bm,ecjk->abcijk
  ⟨-1, [g_aaaa [mₒ, lₒ, dᵥ, eᵥ], t1_aa [dᵥ, iₒ], t1_aa [aᵥ, lₒ], t1_aa [bᵥ, mₒ], t2_abab [eᵥ, cᵥ, jₒ, kₒ]], [(1, [aᵥ, bᵥ, cᵥ, iₒ, jₒ, kₒ])]⟩,
  -- line 3563: lmde,di,al,cm,bejk->abcijk
  ⟨1, [g_abab [lₒ, mₒ, dᵥ, eᵥ], t1_aa [dᵥ, iₒ], t1_aa [aᵥ, lₒ], t1_bb [cᵥ, mₒ], t2_abab [bᵥ, eᵥ, jₒ, kₒ]], [(1, [aᵥ, bᵥ, cᵥ, iₒ, jₒ, kₒ])]⟩,
  -- line 3566: lmde,di,bl,cm,aejk->abcijk
  ⟨-1, [g_abab [lₒ, mₒ, dᵥ, eᵥ], t1_aa [dᵥ, iₒ], t1_aa [bᵥ, lₒ], t1_bb [cᵥ, mₒ], t2_abab [aᵥ, eᵥ, jₒ, kₒ]], [(1, [aᵥ, bᵥ, cᵥ, iₒ, jₒ, kₒ])]⟩
  ]

/-- `UT2/fullCCresidEqns.py` 2349-3568, `ccsdt_t3_aabaab_residual`. -/
def ccsdt_t3_aabaab : Prog := ccsdt_t3_aabaab_0 ++ (ccsdt_t3_aabaab_1 ++ (ccsdt_t3_aabaab_2 ++ (ccsdt_t3_aabaab_3 ++ (ccsdt_t3_aabaab_4 ++ (ccsdt_t3_aabaab_5 ++ (ccsdt_t3_aabaab_6 ++ (ccsdt_t3_aabaab_7 ++ (ccsdt_t3_aabaab_8))))))))

end Verif.Gen
