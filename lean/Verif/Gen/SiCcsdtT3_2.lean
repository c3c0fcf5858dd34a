import Verif.Ein.Names
import Verif.Gen.Antisym

/-! Written by `/verif/tools/gen.py`. Programs read from `/repo/UT2`. -/

set_option maxRecDepth 100000

namespace Verif.Gen

open Verif.Ein Verif.Ein.N


/-- Part 0 of `ccsdt_t3_abbabb`. -/
def ccsdt_t3_abbabb_0 : Prog := [
  -- line 3579: lk,abcijl->abcijk
  ⟨-1, [f_bb [lₒ, kₒ], t3_abbabb [aᵥ, bᵥ, cᵥ, iₒ, jₒ, lₒ]], [(1, [aᵥ, bᵥ, cᵥ, iₒ, jₒ, kₒ]), (-1, [aᵥ, bᵥ, cᵥ, iₒ, kₒ, jₒ])]⟩,
  -- line 3583: li,abclkj->abcijk
  ⟨1, [f_aa [lₒ, iₒ], t3_abbabb [aᵥ, bᵥ, cᵥ, lₒ, kₒ, jₒ]], [(1, [aᵥ, bᵥ, cᵥ, iₒ, jₒ, kₒ])]⟩,
  -- line 3586: ad,dbcijk->abcijk
  ⟨1, [f_aa [aᵥ, dᵥ], t3_abbabb [dᵥ, bᵥ, cᵥ, iₒ, jₒ, kₒ]], [(1, [aᵥ, bᵥ, cᵥ, iₒ, jₒ, kₒ])]⟩,
  -- line 3589: bd,adcijk->abcijk
  ⟨1, [f_bb [bᵥ, dᵥ], t3_abbabb [aᵥ, dᵥ, cᵥ, iₒ, jₒ, kₒ]], [(1, [aᵥ, bᵥ, cᵥ, iₒ, jₒ, kₒ])]⟩,
  -- line 3592: cd,adbijk->abcijk
  ⟨-1, [f_bb [cᵥ, dᵥ], t3_abbabb [aᵥ, dᵥ, bᵥ, iₒ, jₒ, kₒ]], [(1, [aᵥ, bᵥ, cᵥ, iₒ, jₒ, kₒ])]⟩,
  -- line 3595: ld,dk,abcijl->abcijk
  ⟨-1, [f_bb [lₒ, dᵥ], t1_bb [dᵥ, kₒ], t3_abbabb [aᵥ, bᵥ, cᵥ, iₒ, jₒ, lₒ]], [(1, [aᵥ, bᵥ, cᵥ, iₒ, jₒ, kₒ]), (-1, [aᵥ, bᵥ, cᵥ, iₒ, kₒ, jₒ])]⟩,
  -- line 3599: ld,di,abclkj->abcijk
  ⟨1, [f_aa [lₒ, dᵥ], t1_aa [dᵥ, iₒ], t3_abbabb [aᵥ, bᵥ, cᵥ, lₒ, kₒ, jₒ]], [(1, [aᵥ, bᵥ, cᵥ, iₒ, jₒ, kₒ])]⟩,
  -- line 3602: ld,al,dbcijk->abcijk
  ⟨-1, [f_aa [lₒ, dᵥ], t1_aa [aᵥ, lₒ], t3_abbabb [dᵥ, bᵥ, cᵥ, iₒ, jₒ, kₒ]], [(1, [aᵥ, bᵥ, cᵥ, iₒ, jₒ, kₒ])]⟩,
  -- line 3605: ld,bl,adcijk->abcijk
  ⟨-1, [f_bb [lₒ, dᵥ], t1_bb [bᵥ, lₒ], t3_abbabb [aᵥ, dᵥ, cᵥ, iₒ, jₒ, kₒ]], [(1, [aᵥ, bᵥ, cᵥ, iₒ, jₒ, kₒ])]⟩,
  -- line 3608: ld,cl,adbijk->abcijk
  ⟨1, [f_bb [lₒ, dᵥ], t1_bb [cᵥ, lₒ], t3_abbabb [aᵥ, dᵥ, bᵥ, iₒ, jₒ, kₒ]], [(1, [aᵥ, bᵥ, cᵥ, iₒ, jₒ, kₒ])]⟩,
  -- line 3611: ld,dbjk,acil->abcijk
  ⟨1, [f_bb [lₒ, dᵥ], t2_bbbb [dᵥ, bᵥ, jₒ, kₒ], t2_abab [aᵥ, cᵥ, iₒ, lₒ]], [(1, [aᵥ, bᵥ, cᵥ, iₒ, jₒ, kₒ])]⟩,
  -- line 3614: ld,adik,bcjl->abcijk
  ⟨-1, [f_bb [lₒ, dᵥ], t2_abab [aᵥ, dᵥ, iₒ, kₒ], t2_bbbb [bᵥ, cᵥ, jₒ, lₒ]], [(1, [aᵥ, bᵥ, cᵥ, iₒ, jₒ, kₒ])]⟩,
  -- line 3617: ld,dbik,aclj->abcijk
  ⟨1, [f_aa [lₒ, dᵥ], t2_abab [dᵥ, bᵥ, iₒ, kₒ], t2_abab [aᵥ, cᵥ, lₒ, jₒ]], [(1, [aᵥ, bᵥ, cᵥ, iₒ, jₒ, kₒ])]⟩,
  -- line 3620: ld,adij,bckl->abcijk
  ⟨1, [f_bb [lₒ, dᵥ], t2_abab [aᵥ, dᵥ, iₒ, jₒ], t2_bbbb [bᵥ, cᵥ, kₒ, lₒ]], [(1, [aᵥ, bᵥ, cᵥ, iₒ, jₒ, kₒ])]⟩,
  -- line 3623: ld,dbij,aclk->abcijk
  ⟨-1, [f_aa [lₒ, dᵥ], t2_abab [dᵥ, bᵥ, iₒ, jₒ], t2_abab [aᵥ, cᵥ, lₒ, kₒ]], [(1, [aᵥ, bᵥ, cᵥ, iₒ, jₒ, kₒ])]⟩,
  -- line 3626: ld,dcjk,abil->abcijk
  ⟨-1, [f_bb [lₒ, dᵥ], t2_bbbb [dᵥ, cᵥ, jₒ, kₒ], t2_abab [aᵥ, bᵥ, iₒ, lₒ]], [(1, [aᵥ, bᵥ, cᵥ, iₒ, jₒ, kₒ])]⟩,
  -- line 3629: ld,dcik,ablj->abcijk
  ⟨-1, [f_aa [lₒ, dᵥ], t2_abab [dᵥ, cᵥ, iₒ, kₒ], t2_abab [aᵥ, bᵥ, lₒ, jₒ]], [(1, [aᵥ, bᵥ, cᵥ, iₒ, jₒ, kₒ])]⟩,
  -- line 3632: ld,dcij,ablk->abcijk
  ⟨1, [f_aa [lₒ, dᵥ], t2_abab [dᵥ, cᵥ, iₒ, jₒ], t2_abab [aᵥ, bᵥ, lₒ, kₒ]], [(1, [aᵥ, bᵥ, cᵥ, iₒ, jₒ, kₒ])]⟩,
  -- line 3635: lbjk,acil->abcijk
  ⟨1, [g_bbbb [lₒ, bᵥ, jₒ, kₒ], t2_abab [aᵥ, cᵥ, iₒ, lₒ]], [(1, [aᵥ, bᵥ, cᵥ, iₒ, jₒ, kₒ])]⟩,
  -- line 3638: alik,bcjl->abcijk
  ⟨-1, [g_abab [aᵥ, lₒ, iₒ, kₒ], t2_bbbb [bᵥ, cᵥ, jₒ, lₒ]], [(1, [aᵥ, bᵥ, cᵥ, iₒ, jₒ, kₒ])]⟩,
  -- line 3641: lbik,aclj->abcijk
  ⟨1, [g_abab [lₒ, bᵥ, iₒ, kₒ], t2_abab [aᵥ, cᵥ, lₒ, jₒ]], [(1, [aᵥ, bᵥ, cᵥ, iₒ, jₒ, kₒ])]⟩,
  -- line 3644: alij,bckl->abcijk
  ⟨1, [g_abab [aᵥ, lₒ, iₒ, jₒ], t2_bbbb [bᵥ, cᵥ, kₒ, lₒ]], [(1, [aᵥ, bᵥ, cᵥ, iₒ, jₒ, kₒ])]⟩,
  -- line 3647: lbij,aclk->abcijk
  ⟨-1, [g_abab [lₒ, bᵥ, iₒ, jₒ], t2_abab [aᵥ, cᵥ, lₒ, kₒ]], [(1, [aᵥ, bᵥ, cᵥ, iₒ, jₒ, kₒ])]⟩,
  -- line 3650: lcjk,abil->abcijk
  ⟨-1, [g_bbbb [lₒ, cᵥ, jₒ, kₒ], t2_abab [aᵥ, bᵥ, iₒ, lₒ]], [(1, [aᵥ, bᵥ, cᵥ, iₒ, jₒ, kₒ])]⟩,
  -- line 3653: lcik,ablj->abcijk
  ⟨-1, [g_abab [lₒ, cᵥ, iₒ, kₒ], t2_abab [aᵥ, bᵥ, lₒ, jₒ]], [(1, [aᵥ, bᵥ, cᵥ, iₒ, jₒ, kₒ])]⟩,
  -- line 3656: lcij,ablk->abcijk
  ⟨1, [g_abab [lₒ, cᵥ, iₒ, jₒ], t2_abab [aᵥ, bᵥ, lₒ, kₒ]], [(1, [aᵥ, bᵥ, cᵥ, iₒ, jₒ, kₒ])]⟩,
  -- line 3659: abdk,dcij->abcijk
  ⟨-1, [g_abab [aᵥ, bᵥ, dᵥ, kₒ], t2_abab [dᵥ, cᵥ, iₒ, jₒ]], [(1, [aᵥ, bᵥ, cᵥ, iₒ, jₒ, kₒ]), (-1, [aᵥ, bᵥ, cᵥ, iₒ, kₒ, jₒ]), (-1, [aᵥ, cᵥ, bᵥ, iₒ, jₒ, kₒ]), (1, [aᵥ, cᵥ, bᵥ, iₒ, kₒ, jₒ])]⟩,
  -- line 3663: abid,dcjk->abcijk
  ⟨1, [g_abab [aᵥ, bᵥ, iₒ, dᵥ], t2_bbbb [dᵥ, cᵥ, jₒ, kₒ]], [(1, [aᵥ, bᵥ, cᵥ, iₒ, jₒ, kₒ]), (-1, [aᵥ, cᵥ, bᵥ, iₒ, jₒ, kₒ])]⟩,
  -- line 3667: bcdk,adij->abcijk
  ⟨1, [g_bbbb [bᵥ, cᵥ, dᵥ, kₒ], t2_abab [aᵥ, dᵥ, iₒ, jₒ]], [(1, [aᵥ, bᵥ, cᵥ, iₒ, jₒ, kₒ]), (-1, [aᵥ, bᵥ, cᵥ, iₒ, kₒ, jₒ])]⟩,
  -- line 3671: mljk,abciml->abcijk
  ⟨1/2, [g_bbbb [mₒ, lₒ, jₒ, kₒ], t3_abbabb [aᵥ, bᵥ, cᵥ, iₒ, mₒ, lₒ]], [(1, [aᵥ, bᵥ, cᵥ, iₒ, jₒ, kₒ])]⟩,
  -- line 3674: mlik,abcmjl->abcijk
  ⟨1/2, [g_abab [mₒ, lₒ, iₒ, kₒ], t3_abbabb [aᵥ, bᵥ, cᵥ, mₒ, jₒ, lₒ]], [(1, [aᵥ, bᵥ, cᵥ, iₒ, jₒ, kₒ])]⟩,
  -- line 3677: lmik,abclmj->abcijk
  ⟨-1/2, [g_abab [lₒ, mₒ, iₒ, kₒ], t3_abbabb [aᵥ, bᵥ, cᵥ, lₒ, mₒ, jₒ]], [(1, [aᵥ, bᵥ, cᵥ, iₒ, jₒ, kₒ])]⟩,
  -- line 3680: mlij,abcmkl->abcijk
  ⟨-1/2, [g_abab [mₒ, lₒ, iₒ, jₒ], t3_abbabb [aᵥ, bᵥ, cᵥ, mₒ, kₒ, lₒ]], [(1, [aᵥ, bᵥ, cᵥ, iₒ, jₒ, kₒ])]⟩,
  -- line 3683: lmij,abclmk->abcijk
  ⟨1/2, [g_abab [lₒ, mₒ, iₒ, jₒ], t3_abbabb [aᵥ, bᵥ, cᵥ, lₒ, mₒ, kₒ]], [(1, [aᵥ, bᵥ, cᵥ, iₒ, jₒ, kₒ])]⟩,
  -- line 3686: aldk,dbcijl->abcijk
  ⟨-1, [g_abab [aᵥ, lₒ, dᵥ, kₒ], t3_abbabb [dᵥ, bᵥ, cᵥ, iₒ, jₒ, lₒ]], [(1, [aᵥ, bᵥ, cᵥ, iₒ, jₒ, kₒ]), (-1, [aᵥ, bᵥ, cᵥ, iₒ, kₒ, jₒ])]⟩,
  -- line 3690: lbdk,dacilj->abcijk
  ⟨1, [g_abab [lₒ, bᵥ, dᵥ, kₒ], t3_aabaab [dᵥ, aᵥ, cᵥ, iₒ, lₒ, jₒ]], [(1, [aᵥ, bᵥ, cᵥ, iₒ, jₒ, kₒ]), (-1, [aᵥ, bᵥ, cᵥ, iₒ, kₒ, jₒ])]⟩,
  -- line 3694: lbdk,adcijl->abcijk
  ⟨1, [g_bbbb [lₒ, bᵥ, dᵥ, kₒ], t3_abbabb [aᵥ, dᵥ, cᵥ, iₒ, jₒ, lₒ]], [(1, [aᵥ, bᵥ, cᵥ, iₒ, jₒ, kₒ]), (-1, [aᵥ, bᵥ, cᵥ, iₒ, kₒ, jₒ])]⟩,
  -- line 3698: ladi,dbclkj->abcijk
  ⟨-1, [g_aaaa [lₒ, aᵥ, dᵥ, iₒ], t3_abbabb [dᵥ, bᵥ, cᵥ, lₒ, kₒ, jₒ]], [(1, [aᵥ, bᵥ, cᵥ, iₒ, jₒ, kₒ])]⟩,
  -- line 3701: alid,dbcjkl->abcijk
  ⟨1, [g_abab [aᵥ, lₒ, iₒ, dᵥ], t3_bbbbbb [dᵥ, bᵥ, cᵥ, jₒ, kₒ, lₒ]], [(1, [aᵥ, bᵥ, cᵥ, iₒ, jₒ, kₒ])]⟩,
  -- line 3704: lbid,adclkj->abcijk
  ⟨1, [g_abab [lₒ, bᵥ, iₒ, dᵥ], t3_abbabb [aᵥ, dᵥ, cᵥ, lₒ, kₒ, jₒ]], [(1, [aᵥ, bᵥ, cᵥ, iₒ, jₒ, kₒ])]⟩
  ]

/-- Part 1 of `ccsdt_t3_abbabb`. -/
def ccsdt_t3_abbabb_1 : Prog := [
  -- line 3707: lcdk,dabilj->abcijk
  ⟨-1, [g_abab [lₒ, cᵥ, dᵥ, kₒ], t3_aabaab [dᵥ, aᵥ, bᵥ, iₒ, lₒ, jₒ]], [(1, [aᵥ, bᵥ, cᵥ, iₒ, jₒ, kₒ]), (-1, [aᵥ, bᵥ, cᵥ, iₒ, kₒ, jₒ])]⟩,
  -- line 3711: lcdk,adbijl->abcijk
  ⟨-1, [g_bbbb [lₒ, cᵥ, dᵥ, kₒ], t3_abbabb [aᵥ, dᵥ, bᵥ, iₒ, jₒ, lₒ]], [(1, [aᵥ, bᵥ, cᵥ, iₒ, jₒ, kₒ]), (-1, [aᵥ, bᵥ, cᵥ, iₒ, kₒ, jₒ])]⟩,
  -- line 3715: lcid,adblkj->abcijk
  ⟨-1, [g_abab [lₒ, cᵥ, iₒ, dᵥ], t3_abbabb [aᵥ, dᵥ, bᵥ, lₒ, kₒ, jₒ]], [(1, [aᵥ, bᵥ, cᵥ, iₒ, jₒ, kₒ])]⟩,
  -- line 3718: abde,decijk->abcijk
  ⟨1/2, [g_abab [aᵥ, bᵥ, dᵥ, eᵥ], t3_abbabb [dᵥ, eᵥ, cᵥ, iₒ, jₒ, kₒ]], [(1, [aᵥ, bᵥ, cᵥ, iₒ, jₒ, kₒ]), (-1, [aᵥ, cᵥ, bᵥ, iₒ, jₒ, kₒ])]⟩,
  -- line 3722: abed,edcijk->abcijk
  ⟨1/2, [g_abab [aᵥ, bᵥ, eᵥ, dᵥ], t3_abbabb [eᵥ, dᵥ, cᵥ, iₒ, jₒ, kₒ]], [(1, [aᵥ, bᵥ, cᵥ, iₒ, jₒ, kₒ]), (-1, [aᵥ, cᵥ, bᵥ, iₒ, jₒ, kₒ])]⟩,
  -- line 3726: bcde,aedijk->abcijk
  ⟨-1/2, [g_bbbb [bᵥ, cᵥ, dᵥ, eᵥ], t3_abbabb [aᵥ, eᵥ, dᵥ, iₒ, jₒ, kₒ]], [(1, [aᵥ, bᵥ, cᵥ, iₒ, jₒ, kₒ])]⟩,
  -- line 3729: mljk,bl,acim->abcijk
  ⟨-1, [g_bbbb [mₒ, lₒ, jₒ, kₒ], t1_bb [bᵥ, lₒ], t2_abab [aᵥ, cᵥ, iₒ, mₒ]], [(1, [aᵥ, bᵥ, cᵥ, iₒ, jₒ, kₒ])]⟩,
  -- line 3732: lmik,al,bcjm->abcijk
  ⟨1, [g_abab [lₒ, mₒ, iₒ, kₒ], t1_aa [aᵥ, lₒ], t2_bbbb [bᵥ, cᵥ, jₒ, mₒ]], [(1, [aᵥ, bᵥ, cᵥ, iₒ, jₒ, kₒ])]⟩,
  -- line 3735: mlik,bl,acmj->abcijk
  ⟨-1, [g_abab [mₒ, lₒ, iₒ, kₒ], t1_bb [bᵥ, lₒ], t2_abab [aᵥ, cᵥ, mₒ, jₒ]], [(1, [aᵥ, bᵥ, cᵥ, iₒ, jₒ, kₒ])]⟩,
  -- line 3738: mljk,cl,abim->abcijk
  ⟨1, [g_bbbb [mₒ, lₒ, jₒ, kₒ], t1_bb [cᵥ, lₒ], t2_abab [aᵥ, bᵥ, iₒ, mₒ]], [(1, [aᵥ, bᵥ, cᵥ, iₒ, jₒ, kₒ])]⟩,
  -- line 3741: mlik,cl,abmj->abcijk
  ⟨1, [g_abab [mₒ, lₒ, iₒ, kₒ], t1_bb [cᵥ, lₒ], t2_abab [aᵥ, bᵥ, mₒ, jₒ]], [(1, [aᵥ, bᵥ, cᵥ, iₒ, jₒ, kₒ])]⟩,
  -- line 3744: lmij,al,bckm->abcijk
  ⟨-1, [g_abab [lₒ, mₒ, iₒ, jₒ], t1_aa [aᵥ, lₒ], t2_bbbb [bᵥ, cᵥ, kₒ, mₒ]], [(1, [aᵥ, bᵥ, cᵥ, iₒ, jₒ, kₒ])]⟩,
  -- line 3747: mlij,bl,acmk->abcijk
  ⟨1, [g_abab [mₒ, lₒ, iₒ, jₒ], t1_bb [bᵥ, lₒ], t2_abab [aᵥ, cᵥ, mₒ, kₒ]], [(1, [aᵥ, bᵥ, cᵥ, iₒ, jₒ, kₒ])]⟩,
  -- line 3750: mlij,cl,abmk->abcijk
  ⟨-1, [g_abab [mₒ, lₒ, iₒ, jₒ], t1_bb [cᵥ, lₒ], t2_abab [aᵥ, bᵥ, mₒ, kₒ]], [(1, [aᵥ, bᵥ, cᵥ, iₒ, jₒ, kₒ])]⟩,
  -- line 3753: lbdk,dj,acil->abcijk
  ⟨1, [g_bbbb [lₒ, bᵥ, dᵥ, kₒ], t1_bb [dᵥ, jₒ], t2_abab [aᵥ, cᵥ, iₒ, lₒ]], [(1, [aᵥ, bᵥ, cᵥ, iₒ, jₒ, kₒ])]⟩,
  -- line 3756: aldk,di,bcjl->abcijk
  ⟨-1, [g_abab [aᵥ, lₒ, dᵥ, kₒ], t1_aa [dᵥ, iₒ], t2_bbbb [bᵥ, cᵥ, jₒ, lₒ]], [(1, [aᵥ, bᵥ, cᵥ, iₒ, jₒ, kₒ])]⟩,
  -- line 3759: lbdk,di,aclj->abcijk
  ⟨1, [g_abab [lₒ, bᵥ, dᵥ, kₒ], t1_aa [dᵥ, iₒ], t2_abab [aᵥ, cᵥ, lₒ, jₒ]], [(1, [aᵥ, bᵥ, cᵥ, iₒ, jₒ, kₒ])]⟩,
  -- line 3762: aldk,bl,dcij->abcijk
  ⟨1, [g_abab [aᵥ, lₒ, dᵥ, kₒ], t1_bb [bᵥ, lₒ], t2_abab [dᵥ, cᵥ, iₒ, jₒ]], [(1, [aᵥ, bᵥ, cᵥ, iₒ, jₒ, kₒ]), (-1, [aᵥ, bᵥ, cᵥ, iₒ, kₒ, jₒ]), (-1, [aᵥ, cᵥ, bᵥ, iₒ, jₒ, kₒ]), (1, [aᵥ, cᵥ, bᵥ, iₒ, kₒ, jₒ])]⟩,
  -- line 3766: lbdj,dk,acil->abcijk
  ⟨-1, [g_bbbb [lₒ, bᵥ, dᵥ, jₒ], t1_bb [dᵥ, kₒ], t2_abab [aᵥ, cᵥ, iₒ, lₒ]], [(1, [aᵥ, bᵥ, cᵥ, iₒ, jₒ, kₒ])]⟩,
  -- line 3769: aldj,di,bckl->abcijk
  ⟨1, [g_abab [aᵥ, lₒ, dᵥ, jₒ], t1_aa [dᵥ, iₒ], t2_bbbb [bᵥ, cᵥ, kₒ, lₒ]], [(1, [aᵥ, bᵥ, cᵥ, iₒ, jₒ, kₒ])]⟩,
  -- line 3772: lbdj,di,aclk->abcijk
  ⟨-1, [g_abab [lₒ, bᵥ, dᵥ, jₒ], t1_aa [dᵥ, iₒ], t2_abab [aᵥ, cᵥ, lₒ, kₒ]], [(1, [aᵥ, bᵥ, cᵥ, iₒ, jₒ, kₒ])]⟩,
  -- line 3775: alid,dk,bcjl->abcijk
  ⟨-1, [g_abab [aᵥ, lₒ, iₒ, dᵥ], t1_bb [dᵥ, kₒ], t2_bbbb [bᵥ, cᵥ, jₒ, lₒ]], [(1, [aᵥ, bᵥ, cᵥ, iₒ, jₒ, kₒ]), (-1, [aᵥ, bᵥ, cᵥ, iₒ, kₒ, jₒ])]⟩,
  -- line 3779: lbid,dk,aclj->abcijk
  ⟨1, [g_abab [lₒ, bᵥ, iₒ, dᵥ], t1_bb [dᵥ, kₒ], t2_abab [aᵥ, cᵥ, lₒ, jₒ]], [(1, [aᵥ, bᵥ, cᵥ, iₒ, jₒ, kₒ]), (-1, [aᵥ, bᵥ, cᵥ, iₒ, kₒ, jₒ])]⟩,
  -- line 3783: alid,bl,dcjk->abcijk
  ⟨-1, [g_abab [aᵥ, lₒ, iₒ, dᵥ], t1_bb [bᵥ, lₒ], t2_bbbb [dᵥ, cᵥ, jₒ, kₒ]], [(1, [aᵥ, bᵥ, cᵥ, iₒ, jₒ, kₒ]), (-1, [aᵥ, cᵥ, bᵥ, iₒ, jₒ, kₒ])]⟩,
  -- line 3787: lbdk,al,dcij->abcijk
  ⟨1, [g_abab [lₒ, bᵥ, dᵥ, kₒ], t1_aa [aᵥ, lₒ], t2_abab [dᵥ, cᵥ, iₒ, jₒ]], [(1, [aᵥ, bᵥ, cᵥ, iₒ, jₒ, kₒ]), (-1, [aᵥ, bᵥ, cᵥ, iₒ, kₒ, jₒ])]⟩,
  -- line 3791: lbdk,cl,adij->abcijk
  ⟨1, [g_bbbb [lₒ, bᵥ, dᵥ, kₒ], t1_bb [cᵥ, lₒ], t2_abab [aᵥ, dᵥ, iₒ, jₒ]], [(1, [aᵥ, bᵥ, cᵥ, iₒ, jₒ, kₒ]), (-1, [aᵥ, bᵥ, cᵥ, iₒ, kₒ, jₒ])]⟩,
  -- line 3795: lbid,al,dcjk->abcijk
  ⟨-1, [g_abab [lₒ, bᵥ, iₒ, dᵥ], t1_aa [aᵥ, lₒ], t2_bbbb [dᵥ, cᵥ, jₒ, kₒ]], [(1, [aᵥ, bᵥ, cᵥ, iₒ, jₒ, kₒ])]⟩,
  -- line 3798: lcdk,dj,abil->abcijk
  ⟨-1, [g_bbbb [lₒ, cᵥ, dᵥ, kₒ], t1_bb [dᵥ, jₒ], t2_abab [aᵥ, bᵥ, iₒ, lₒ]], [(1, [aᵥ, bᵥ, cᵥ, iₒ, jₒ, kₒ])]⟩,
  -- line 3801: lcdk,di,ablj->abcijk
  ⟨-1, [g_abab [lₒ, cᵥ, dᵥ, kₒ], t1_aa [dᵥ, iₒ], t2_abab [aᵥ, bᵥ, lₒ, jₒ]], [(1, [aᵥ, bᵥ, cᵥ, iₒ, jₒ, kₒ])]⟩,
  -- line 3804: lcdk,al,dbij->abcijk
  ⟨-1, [g_abab [lₒ, cᵥ, dᵥ, kₒ], t1_aa [aᵥ, lₒ], t2_abab [dᵥ, bᵥ, iₒ, jₒ]], [(1, [aᵥ, bᵥ, cᵥ, iₒ, jₒ, kₒ]), (-1, [aᵥ, bᵥ, cᵥ, iₒ, kₒ, jₒ])]⟩,
  -- line 3808: lcdk,bl,adij->abcijk
  ⟨-1, [g_bbbb [lₒ, cᵥ, dᵥ, kₒ], t1_bb [bᵥ, lₒ], t2_abab [aᵥ, dᵥ, iₒ, jₒ]], [(1, [aᵥ, bᵥ, cᵥ, iₒ, jₒ, kₒ]), (-1, [aᵥ, bᵥ, cᵥ, iₒ, kₒ, jₒ])]⟩,
  -- line 3812: lcdj,dk,abil->abcijk
  ⟨1, [g_bbbb [lₒ, cᵥ, dᵥ, jₒ], t1_bb [dᵥ, kₒ], t2_abab [aᵥ, bᵥ, iₒ, lₒ]], [(1, [aᵥ, bᵥ, cᵥ, iₒ, jₒ, kₒ])]⟩,
  -- line 3815: lcdj,di,ablk->abcijk
  ⟨1, [g_abab [lₒ, cᵥ, dᵥ, jₒ], t1_aa [dᵥ, iₒ], t2_abab [aᵥ, bᵥ, lₒ, kₒ]], [(1, [aᵥ, bᵥ, cᵥ, iₒ, jₒ, kₒ])]⟩,
  -- line 3818: lcid,dk,ablj->abcijk
  ⟨-1, [g_abab [lₒ, cᵥ, iₒ, dᵥ], t1_bb [dᵥ, kₒ], t2_abab [aᵥ, bᵥ, lₒ, jₒ]], [(1, [aᵥ, bᵥ, cᵥ, iₒ, jₒ, kₒ]), (-1, [aᵥ, bᵥ, cᵥ, iₒ, kₒ, jₒ])]⟩,
  -- line 3822: lcid,al,dbjk->abcijk
  ⟨1, [g_abab [lₒ, cᵥ, iₒ, dᵥ], t1_aa [aᵥ, lₒ], t2_bbbb [dᵥ, bᵥ, jₒ, kₒ]], [(1, [aᵥ, bᵥ, cᵥ, iₒ, jₒ, kₒ])]⟩,
  -- line 3825: abed,dk,ecij->abcijk
  ⟨-1, [g_abab [aᵥ, bᵥ, eᵥ, dᵥ], t1_bb [dᵥ, kₒ], t2_abab [eᵥ, cᵥ, iₒ, jₒ]], [(1, [aᵥ, bᵥ, cᵥ, iₒ, jₒ, kₒ]), (-1, [aᵥ, bᵥ, cᵥ, iₒ, kₒ, jₒ]), (-1, [aᵥ, cᵥ, bᵥ, iₒ, jₒ, kₒ]), (1, [aᵥ, cᵥ, bᵥ, iₒ, kₒ, jₒ])]⟩,
  -- line 3829: abde,di,ecjk->abcijk
  ⟨1, [g_abab [aᵥ, bᵥ, dᵥ, eᵥ], t1_aa [dᵥ, iₒ], t2_bbbb [eᵥ, cᵥ, jₒ, kₒ]], [(1, [aᵥ, bᵥ, cᵥ, iₒ, jₒ, kₒ]), (-1, [aᵥ, cᵥ, bᵥ, iₒ, jₒ, kₒ])]⟩,
  -- line 3833: bcde,dk,aeij->abcijk
  ⟨-1, [g_bbbb [bᵥ, cᵥ, dᵥ, eᵥ], t1_bb [dᵥ, kₒ], t2_abab [aᵥ, eᵥ, iₒ, jₒ]], [(1, [aᵥ, bᵥ, cᵥ, iₒ, jₒ, kₒ]), (-1, [aᵥ, bᵥ, cᵥ, iₒ, kₒ, jₒ])]⟩,
  -- line 3837: lmdk,dl,abcijm->abcijk
  ⟨-1, [g_abab [lₒ, mₒ, dᵥ, kₒ], t1_aa [dᵥ, lₒ], t3_abbabb [aᵥ, bᵥ, cᵥ, iₒ, jₒ, mₒ]], [(1, [aᵥ, bᵥ, cᵥ, iₒ, jₒ, kₒ]), (-1, [aᵥ, bᵥ, cᵥ, iₒ, kₒ, jₒ])]⟩,
  -- line 3841: mldk,dl,abcijm->abcijk
  ⟨1, [g_bbbb [mₒ, lₒ, dᵥ, kₒ], t1_bb [dᵥ, lₒ], t3_abbabb [aᵥ, bᵥ, cᵥ, iₒ, jₒ, mₒ]], [(1, [aᵥ, bᵥ, cᵥ, iₒ, jₒ, kₒ]), (-1, [aᵥ, bᵥ, cᵥ, iₒ, kₒ, jₒ])]⟩
  ]

/-- Part 2 of `ccsdt_t3_abbabb`. -/
def ccsdt_t3_abbabb_2 : Prog := [
  -- line 3845: mldk,dj,abciml->abcijk
  ⟨1/2, [g_bbbb [mₒ, lₒ, dᵥ, kₒ], t1_bb [dᵥ, jₒ], t3_abbabb [aᵥ, bᵥ, cᵥ, iₒ, mₒ, lₒ]], [(1, [aᵥ, bᵥ, cᵥ, iₒ, jₒ, kₒ])]⟩,
  -- line 3848: mldk,di,abcmjl->abcijk
  ⟨1/2, [g_abab [mₒ, lₒ, dᵥ, kₒ], t1_aa [dᵥ, iₒ], t3_abbabb [aᵥ, bᵥ, cᵥ, mₒ, jₒ, lₒ]], [(1, [aᵥ, bᵥ, cᵥ, iₒ, jₒ, kₒ])]⟩,
  -- line 3851: lmdk,di,abclmj->abcijk
  ⟨-1/2, [g_abab [lₒ, mₒ, dᵥ, kₒ], t1_aa [dᵥ, iₒ], t3_abbabb [aᵥ, bᵥ, cᵥ, lₒ, mₒ, jₒ]], [(1, [aᵥ, bᵥ, cᵥ, iₒ, jₒ, kₒ])]⟩,
  -- line 3854: lmdk,al,dbcijm->abcijk
  ⟨1, [g_abab [lₒ, mₒ, dᵥ, kₒ], t1_aa [aᵥ, lₒ], t3_abbabb [dᵥ, bᵥ, cᵥ, iₒ, jₒ, mₒ]], [(1, [aᵥ, bᵥ, cᵥ, iₒ, jₒ, kₒ]), (-1, [aᵥ, bᵥ, cᵥ, iₒ, kₒ, jₒ])]⟩,
  -- line 3858: mldk,bl,dacimj->abcijk
  ⟨-1, [g_abab [mₒ, lₒ, dᵥ, kₒ], t1_bb [bᵥ, lₒ], t3_aabaab [dᵥ, aᵥ, cᵥ, iₒ, mₒ, jₒ]], [(1, [aᵥ, bᵥ, cᵥ, iₒ, jₒ, kₒ]), (-1, [aᵥ, bᵥ, cᵥ, iₒ, kₒ, jₒ])]⟩,
  -- line 3862: mldk,bl,adcijm->abcijk
  ⟨-1, [g_bbbb [mₒ, lₒ, dᵥ, kₒ], t1_bb [bᵥ, lₒ], t3_abbabb [aᵥ, dᵥ, cᵥ, iₒ, jₒ, mₒ]], [(1, [aᵥ, bᵥ, cᵥ, iₒ, jₒ, kₒ]), (-1, [aᵥ, bᵥ, cᵥ, iₒ, kₒ, jₒ])]⟩,
  -- line 3866: mldk,cl,dabimj->abcijk
  ⟨1, [g_abab [mₒ, lₒ, dᵥ, kₒ], t1_bb [cᵥ, lₒ], t3_aabaab [dᵥ, aᵥ, bᵥ, iₒ, mₒ, jₒ]], [(1, [aᵥ, bᵥ, cᵥ, iₒ, jₒ, kₒ]), (-1, [aᵥ, bᵥ, cᵥ, iₒ, kₒ, jₒ])]⟩,
  -- line 3870: mldk,cl,adbijm->abcijk
  ⟨1, [g_bbbb [mₒ, lₒ, dᵥ, kₒ], t1_bb [cᵥ, lₒ], t3_abbabb [aᵥ, dᵥ, bᵥ, iₒ, jₒ, mₒ]], [(1, [aᵥ, bᵥ, cᵥ, iₒ, jₒ, kₒ]), (-1, [aᵥ, bᵥ, cᵥ, iₒ, kₒ, jₒ])]⟩,
  -- line 3874: mldj,dk,abciml->abcijk
  ⟨-1/2, [g_bbbb [mₒ, lₒ, dᵥ, jₒ], t1_bb [dᵥ, kₒ], t3_abbabb [aᵥ, bᵥ, cᵥ, iₒ, mₒ, lₒ]], [(1, [aᵥ, bᵥ, cᵥ, iₒ, jₒ, kₒ])]⟩,
  -- line 3877: mldj,di,abcmkl->abcijk
  ⟨-1/2, [g_abab [mₒ, lₒ, dᵥ, jₒ], t1_aa [dᵥ, iₒ], t3_abbabb [aᵥ, bᵥ, cᵥ, mₒ, kₒ, lₒ]], [(1, [aᵥ, bᵥ, cᵥ, iₒ, jₒ, kₒ])]⟩,
  -- line 3880: lmdj,di,abclmk->abcijk
  ⟨1/2, [g_abab [lₒ, mₒ, dᵥ, jₒ], t1_aa [dᵥ, iₒ], t3_abbabb [aᵥ, bᵥ, cᵥ, lₒ, mₒ, kₒ]], [(1, [aᵥ, bᵥ, cᵥ, iₒ, jₒ, kₒ])]⟩,
  -- line 3883: mldi,dl,abcmkj->abcijk
  ⟨-1, [g_aaaa [mₒ, lₒ, dᵥ, iₒ], t1_aa [dᵥ, lₒ], t3_abbabb [aᵥ, bᵥ, cᵥ, mₒ, kₒ, jₒ]], [(1, [aᵥ, bᵥ, cᵥ, iₒ, jₒ, kₒ])]⟩,
  -- line 3886: mlid,dl,abcmkj->abcijk
  ⟨1, [g_abab [mₒ, lₒ, iₒ, dᵥ], t1_bb [dᵥ, lₒ], t3_abbabb [aᵥ, bᵥ, cᵥ, mₒ, kₒ, jₒ]], [(1, [aᵥ, bᵥ, cᵥ, iₒ, jₒ, kₒ])]⟩,
  -- line 3889: mlid,dk,abcmjl->abcijk
  ⟨1/2, [g_abab [mₒ, lₒ, iₒ, dᵥ], t1_bb [dᵥ, kₒ], t3_abbabb [aᵥ, bᵥ, cᵥ, mₒ, jₒ, lₒ]], [(1, [aᵥ, bᵥ, cᵥ, iₒ, jₒ, kₒ]), (-1, [aᵥ, bᵥ, cᵥ, iₒ, kₒ, jₒ])]⟩,
  -- line 3893: lmid,dk,abclmj->abcijk
  ⟨-1/2, [g_abab [lₒ, mₒ, iₒ, dᵥ], t1_bb [dᵥ, kₒ], t3_abbabb [aᵥ, bᵥ, cᵥ, lₒ, mₒ, jₒ]], [(1, [aᵥ, bᵥ, cᵥ, iₒ, jₒ, kₒ]), (-1, [aᵥ, bᵥ, cᵥ, iₒ, kₒ, jₒ])]⟩,
  -- line 3897: mldi,al,dbcmkj->abcijk
  ⟨1, [g_aaaa [mₒ, lₒ, dᵥ, iₒ], t1_aa [aᵥ, lₒ], t3_abbabb [dᵥ, bᵥ, cᵥ, mₒ, kₒ, jₒ]], [(1, [aᵥ, bᵥ, cᵥ, iₒ, jₒ, kₒ])]⟩,
  -- line 3900: lmid,al,dbcjkm->abcijk
  ⟨-1, [g_abab [lₒ, mₒ, iₒ, dᵥ], t1_aa [aᵥ, lₒ], t3_bbbbbb [dᵥ, bᵥ, cᵥ, jₒ, kₒ, mₒ]], [(1, [aᵥ, bᵥ, cᵥ, iₒ, jₒ, kₒ])]⟩,
  -- line 3903: mlid,bl,adcmkj->abcijk
  ⟨-1, [g_abab [mₒ, lₒ, iₒ, dᵥ], t1_bb [bᵥ, lₒ], t3_abbabb [aᵥ, dᵥ, cᵥ, mₒ, kₒ, jₒ]], [(1, [aᵥ, bᵥ, cᵥ, iₒ, jₒ, kₒ])]⟩,
  -- line 3906: mlid,cl,adbmkj->abcijk
  ⟨1, [g_abab [mₒ, lₒ, iₒ, dᵥ], t1_bb [cᵥ, lₒ], t3_abbabb [aᵥ, dᵥ, bᵥ, mₒ, kₒ, jₒ]], [(1, [aᵥ, bᵥ, cᵥ, iₒ, jₒ, kₒ])]⟩,
  -- line 3909: lade,dl,ebcijk->abcijk
  ⟨1, [g_aaaa [lₒ, aᵥ, dᵥ, eᵥ], t1_aa [dᵥ, lₒ], t3_abbabb [eᵥ, bᵥ, cᵥ, iₒ, jₒ, kₒ]], [(1, [aᵥ, bᵥ, cᵥ, iₒ, jₒ, kₒ])]⟩,
  -- line 3912: aled,dl,ebcijk->abcijk
  ⟨1, [g_abab [aᵥ, lₒ, eᵥ, dᵥ], t1_bb [dᵥ, lₒ], t3_abbabb [eᵥ, bᵥ, cᵥ, iₒ, jₒ, kₒ]], [(1, [aᵥ, bᵥ, cᵥ, iₒ, jₒ, kₒ])]⟩,
  -- line 3915: lbde,dl,aecijk->abcijk
  ⟨1, [g_abab [lₒ, bᵥ, dᵥ, eᵥ], t1_aa [dᵥ, lₒ], t3_abbabb [aᵥ, eᵥ, cᵥ, iₒ, jₒ, kₒ]], [(1, [aᵥ, bᵥ, cᵥ, iₒ, jₒ, kₒ])]⟩,
  -- line 3918: lbde,dl,aecijk->abcijk
  ⟨1, [g_bbbb [lₒ, bᵥ, dᵥ, eᵥ], t1_bb [dᵥ, lₒ], t3_abbabb [aᵥ, eᵥ, cᵥ, iₒ, jₒ, kₒ]], [(1, [aᵥ, bᵥ, cᵥ, iₒ, jₒ, kₒ])]⟩,
  -- line 3921: aled,dk,ebcijl->abcijk
  ⟨-1, [g_abab [aᵥ, lₒ, eᵥ, dᵥ], t1_bb [dᵥ, kₒ], t3_abbabb [eᵥ, bᵥ, cᵥ, iₒ, jₒ, lₒ]], [(1, [aᵥ, bᵥ, cᵥ, iₒ, jₒ, kₒ]), (-1, [aᵥ, bᵥ, cᵥ, iₒ, kₒ, jₒ])]⟩,
  -- line 3925: lbed,dk,eacilj->abcijk
  ⟨1, [g_abab [lₒ, bᵥ, eᵥ, dᵥ], t1_bb [dᵥ, kₒ], t3_aabaab [eᵥ, aᵥ, cᵥ, iₒ, lₒ, jₒ]], [(1, [aᵥ, bᵥ, cᵥ, iₒ, jₒ, kₒ]), (-1, [aᵥ, bᵥ, cᵥ, iₒ, kₒ, jₒ])]⟩,
  -- line 3929: lbde,dk,aecijl->abcijk
  ⟨-1, [g_bbbb [lₒ, bᵥ, dᵥ, eᵥ], t1_bb [dᵥ, kₒ], t3_abbabb [aᵥ, eᵥ, cᵥ, iₒ, jₒ, lₒ]], [(1, [aᵥ, bᵥ, cᵥ, iₒ, jₒ, kₒ]), (-1, [aᵥ, bᵥ, cᵥ, iₒ, kₒ, jₒ])]⟩,
  -- line 3933: lade,di,ebclkj->abcijk
  ⟨1, [g_aaaa [lₒ, aᵥ, dᵥ, eᵥ], t1_aa [dᵥ, iₒ], t3_abbabb [eᵥ, bᵥ, cᵥ, lₒ, kₒ, jₒ]], [(1, [aᵥ, bᵥ, cᵥ, iₒ, jₒ, kₒ])]⟩,
  -- line 3936: alde,di,ebcjkl->abcijk
  ⟨1, [g_abab [aᵥ, lₒ, dᵥ, eᵥ], t1_aa [dᵥ, iₒ], t3_bbbbbb [eᵥ, bᵥ, cᵥ, jₒ, kₒ, lₒ]], [(1, [aᵥ, bᵥ, cᵥ, iₒ, jₒ, kₒ])]⟩,
  -- line 3939: lbde,di,aeclkj->abcijk
  ⟨1, [g_abab [lₒ, bᵥ, dᵥ, eᵥ], t1_aa [dᵥ, iₒ], t3_abbabb [aᵥ, eᵥ, cᵥ, lₒ, kₒ, jₒ]], [(1, [aᵥ, bᵥ, cᵥ, iₒ, jₒ, kₒ])]⟩,
  -- line 3942: alde,bl,decijk->abcijk
  ⟨-1/2, [g_abab [aᵥ, lₒ, dᵥ, eᵥ], t1_bb [bᵥ, lₒ], t3_abbabb [dᵥ, eᵥ, cᵥ, iₒ, jₒ, kₒ]], [(1, [aᵥ, bᵥ, cᵥ, iₒ, jₒ, kₒ]), (-1, [aᵥ, cᵥ, bᵥ, iₒ, jₒ, kₒ])]⟩,
  -- line 3946: aled,bl,edcijk->abcijk
  ⟨-1/2, [g_abab [aᵥ, lₒ, eᵥ, dᵥ], t1_bb [bᵥ, lₒ], t3_abbabb [eᵥ, dᵥ, cᵥ, iₒ, jₒ, kₒ]], [(1, [aᵥ, bᵥ, cᵥ, iₒ, jₒ, kₒ]), (-1, [aᵥ, cᵥ, bᵥ, iₒ, jₒ, kₒ])]⟩,
  -- line 3950: lbde,al,decijk->abcijk
  ⟨-1/2, [g_abab [lₒ, bᵥ, dᵥ, eᵥ], t1_aa [aᵥ, lₒ], t3_abbabb [dᵥ, eᵥ, cᵥ, iₒ, jₒ, kₒ]], [(1, [aᵥ, bᵥ, cᵥ, iₒ, jₒ, kₒ])]⟩,
  -- line 3953: lbed,al,edcijk->abcijk
  ⟨-1/2, [g_abab [lₒ, bᵥ, eᵥ, dᵥ], t1_aa [aᵥ, lₒ], t3_abbabb [eᵥ, dᵥ, cᵥ, iₒ, jₒ, kₒ]], [(1, [aᵥ, bᵥ, cᵥ, iₒ, jₒ, kₒ])]⟩,
  -- line 3956: lbde,cl,aedijk->abcijk
  ⟨-1/2, [g_bbbb [lₒ, bᵥ, dᵥ, eᵥ], t1_bb [cᵥ, lₒ], t3_abbabb [aᵥ, eᵥ, dᵥ, iₒ, jₒ, kₒ]], [(1, [aᵥ, bᵥ, cᵥ, iₒ, jₒ, kₒ])]⟩,
  -- line 3959: lcde,dl,aebijk->abcijk
  ⟨-1, [g_abab [lₒ, cᵥ, dᵥ, eᵥ], t1_aa [dᵥ, lₒ], t3_abbabb [aᵥ, eᵥ, bᵥ, iₒ, jₒ, kₒ]], [(1, [aᵥ, bᵥ, cᵥ, iₒ, jₒ, kₒ])]⟩,
  -- line 3962: lcde,dl,aebijk->abcijk
  ⟨-1, [g_bbbb [lₒ, cᵥ, dᵥ, eᵥ], t1_bb [dᵥ, lₒ], t3_abbabb [aᵥ, eᵥ, bᵥ, iₒ, jₒ, kₒ]], [(1, [aᵥ, bᵥ, cᵥ, iₒ, jₒ, kₒ])]⟩,
  -- line 3965: lced,dk,eabilj->abcijk
  ⟨-1, [g_abab [lₒ, cᵥ, eᵥ, dᵥ], t1_bb [dᵥ, kₒ], t3_aabaab [eᵥ, aᵥ, bᵥ, iₒ, lₒ, jₒ]], [(1, [aᵥ, bᵥ, cᵥ, iₒ, jₒ, kₒ]), (-1, [aᵥ, bᵥ, cᵥ, iₒ, kₒ, jₒ])]⟩,
  -- line 3969: lcde,dk,aebijl->abcijk
  ⟨1, [g_bbbb [lₒ, cᵥ, dᵥ, eᵥ], t1_bb [dᵥ, kₒ], t3_abbabb [aᵥ, eᵥ, bᵥ, iₒ, jₒ, lₒ]], [(1, [aᵥ, bᵥ, cᵥ, iₒ, jₒ, kₒ]), (-1, [aᵥ, bᵥ, cᵥ, iₒ, kₒ, jₒ])]⟩,
  -- line 3973: lcde,di,aeblkj->abcijk
  ⟨-1, [g_abab [lₒ, cᵥ, dᵥ, eᵥ], t1_aa [dᵥ, iₒ], t3_abbabb [aᵥ, eᵥ, bᵥ, lₒ, kₒ, jₒ]], [(1, [aᵥ, bᵥ, cᵥ, iₒ, jₒ, kₒ])]⟩,
  -- line 3976: lcde,al,debijk->abcijk
  ⟨1/2, [g_abab [lₒ, cᵥ, dᵥ, eᵥ], t1_aa [aᵥ, lₒ], t3_abbabb [dᵥ, eᵥ, bᵥ, iₒ, jₒ, kₒ]], [(1, [aᵥ, bᵥ, cᵥ, iₒ, jₒ, kₒ])]⟩
  ]

/-- Part 3 of `ccsdt_t3_abbabb`. -/
def ccsdt_t3_abbabb_3 : Prog := [
  -- line 3979: lced,al,edbijk->abcijk
  ⟨1/2, [g_abab [lₒ, cᵥ, eᵥ, dᵥ], t1_aa [aᵥ, lₒ], t3_abbabb [eᵥ, dᵥ, bᵥ, iₒ, jₒ, kₒ]], [(1, [aᵥ, bᵥ, cᵥ, iₒ, jₒ, kₒ])]⟩,
  -- line 3982: lcde,bl,aedijk->abcijk
  ⟨1/2, [g_bbbb [lₒ, cᵥ, dᵥ, eᵥ], t1_bb [bᵥ, lₒ], t3_abbabb [aᵥ, eᵥ, dᵥ, iₒ, jₒ, kₒ]], [(1, [aᵥ, bᵥ, cᵥ, iₒ, jₒ, kₒ])]⟩,
  -- line 3985: lmde,delk,abcijm->abcijk
  ⟨-1/2, [g_abab [lₒ, mₒ, dᵥ, eᵥ], t2_abab [dᵥ, eᵥ, lₒ, kₒ], t3_abbabb [aᵥ, bᵥ, cᵥ, iₒ, jₒ, mₒ]], [(1, [aᵥ, bᵥ, cᵥ, iₒ, jₒ, kₒ]), (-1, [aᵥ, bᵥ, cᵥ, iₒ, kₒ, jₒ])]⟩,
  -- line 3989: lmed,edlk,abcijm->abcijk
  ⟨-1/2, [g_abab [lₒ, mₒ, eᵥ, dᵥ], t2_abab [eᵥ, dᵥ, lₒ, kₒ], t3_abbabb [aᵥ, bᵥ, cᵥ, iₒ, jₒ, mₒ]], [(1, [aᵥ, bᵥ, cᵥ, iₒ, jₒ, kₒ]), (-1, [aᵥ, bᵥ, cᵥ, iₒ, kₒ, jₒ])]⟩,
  -- line 3993: mlde,dekl,abcijm->abcijk
  ⟨-1/2, [g_bbbb [mₒ, lₒ, dᵥ, eᵥ], t2_bbbb [dᵥ, eᵥ, kₒ, lₒ], t3_abbabb [aᵥ, bᵥ, cᵥ, iₒ, jₒ, mₒ]], [(1, [aᵥ, bᵥ, cᵥ, iₒ, jₒ, kₒ]), (-1, [aᵥ, bᵥ, cᵥ, iₒ, kₒ, jₒ])]⟩,
  -- line 3997: mlde,deil,abcmkj->abcijk
  ⟨1/2, [g_aaaa [mₒ, lₒ, dᵥ, eᵥ], t2_aaaa [dᵥ, eᵥ, iₒ, lₒ], t3_abbabb [aᵥ, bᵥ, cᵥ, mₒ, kₒ, jₒ]], [(1, [aᵥ, bᵥ, cᵥ, iₒ, jₒ, kₒ])]⟩,
  -- line 4000: mlde,deil,abcmkj->abcijk
  ⟨1/2, [g_abab [mₒ, lₒ, dᵥ, eᵥ], t2_abab [dᵥ, eᵥ, iₒ, lₒ], t3_abbabb [aᵥ, bᵥ, cᵥ, mₒ, kₒ, jₒ]], [(1, [aᵥ, bᵥ, cᵥ, iₒ, jₒ, kₒ])]⟩,
  -- line 4003: mled,edil,abcmkj->abcijk
  ⟨1/2, [g_abab [mₒ, lₒ, eᵥ, dᵥ], t2_abab [eᵥ, dᵥ, iₒ, lₒ], t3_abbabb [aᵥ, bᵥ, cᵥ, mₒ, kₒ, jₒ]], [(1, [aᵥ, bᵥ, cᵥ, iₒ, jₒ, kₒ])]⟩,
  -- line 4006: mlde,dejk,abciml->abcijk
  ⟨1/4, [g_bbbb [mₒ, lₒ, dᵥ, eᵥ], t2_bbbb [dᵥ, eᵥ, jₒ, kₒ], t3_abbabb [aᵥ, bᵥ, cᵥ, iₒ, mₒ, lₒ]], [(1, [aᵥ, bᵥ, cᵥ, iₒ, jₒ, kₒ])]⟩,
  -- line 4009: mlde,deik,abcmjl->abcijk
  ⟨1/4, [g_abab [mₒ, lₒ, dᵥ, eᵥ], t2_abab [dᵥ, eᵥ, iₒ, kₒ], t3_abbabb [aᵥ, bᵥ, cᵥ, mₒ, jₒ, lₒ]], [(1, [aᵥ, bᵥ, cᵥ, iₒ, jₒ, kₒ])]⟩,
  -- line 4012: lmde,deik,abclmj->abcijk
  ⟨-1/4, [g_abab [lₒ, mₒ, dᵥ, eᵥ], t2_abab [dᵥ, eᵥ, iₒ, kₒ], t3_abbabb [aᵥ, bᵥ, cᵥ, lₒ, mₒ, jₒ]], [(1, [aᵥ, bᵥ, cᵥ, iₒ, jₒ, kₒ])]⟩,
  -- line 4015: mled,edik,abcmjl->abcijk
  ⟨1/4, [g_abab [mₒ, lₒ, eᵥ, dᵥ], t2_abab [eᵥ, dᵥ, iₒ, kₒ], t3_abbabb [aᵥ, bᵥ, cᵥ, mₒ, jₒ, lₒ]], [(1, [aᵥ, bᵥ, cᵥ, iₒ, jₒ, kₒ])]⟩,
  -- line 4018: lmed,edik,abclmj->abcijk
  ⟨-1/4, [g_abab [lₒ, mₒ, eᵥ, dᵥ], t2_abab [eᵥ, dᵥ, iₒ, kₒ], t3_abbabb [aᵥ, bᵥ, cᵥ, lₒ, mₒ, jₒ]], [(1, [aᵥ, bᵥ, cᵥ, iₒ, jₒ, kₒ])]⟩,
  -- line 4021: mlde,deij,abcmkl->abcijk
  ⟨-1/4, [g_abab [mₒ, lₒ, dᵥ, eᵥ], t2_abab [dᵥ, eᵥ, iₒ, jₒ], t3_abbabb [aᵥ, bᵥ, cᵥ, mₒ, kₒ, lₒ]], [(1, [aᵥ, bᵥ, cᵥ, iₒ, jₒ, kₒ])]⟩,
  -- line 4024: lmde,deij,abclmk->abcijk
  ⟨1/4, [g_abab [lₒ, mₒ, dᵥ, eᵥ], t2_abab [dᵥ, eᵥ, iₒ, jₒ], t3_abbabb [aᵥ, bᵥ, cᵥ, lₒ, mₒ, kₒ]], [(1, [aᵥ, bᵥ, cᵥ, iₒ, jₒ, kₒ])]⟩,
  -- line 4027: mled,edij,abcmkl->abcijk
  ⟨-1/4, [g_abab [mₒ, lₒ, eᵥ, dᵥ], t2_abab [eᵥ, dᵥ, iₒ, jₒ], t3_abbabb [aᵥ, bᵥ, cᵥ, mₒ, kₒ, lₒ]], [(1, [aᵥ, bᵥ, cᵥ, iₒ, jₒ, kₒ])]⟩,
  -- line 4030: lmed,edij,abclmk->abcijk
  ⟨1/4, [g_abab [lₒ, mₒ, eᵥ, dᵥ], t2_abab [eᵥ, dᵥ, iₒ, jₒ], t3_abbabb [aᵥ, bᵥ, cᵥ, lₒ, mₒ, kₒ]], [(1, [aᵥ, bᵥ, cᵥ, iₒ, jₒ, kₒ])]⟩,
  -- line 4033: mlde,daml,ebcijk->abcijk
  ⟨-1/2, [g_aaaa [mₒ, lₒ, dᵥ, eᵥ], t2_aaaa [dᵥ, aᵥ, mₒ, lₒ], t3_abbabb [eᵥ, bᵥ, cᵥ, iₒ, jₒ, kₒ]], [(1, [aᵥ, bᵥ, cᵥ, iₒ, jₒ, kₒ])]⟩,
  -- line 4036: mled,adml,ebcijk->abcijk
  ⟨-1/2, [g_abab [mₒ, lₒ, eᵥ, dᵥ], t2_abab [aᵥ, dᵥ, mₒ, lₒ], t3_abbabb [eᵥ, bᵥ, cᵥ, iₒ, jₒ, kₒ]], [(1, [aᵥ, bᵥ, cᵥ, iₒ, jₒ, kₒ])]⟩,
  -- line 4039: lmed,adlm,ebcijk->abcijk
  ⟨-1/2, [g_abab [lₒ, mₒ, eᵥ, dᵥ], t2_abab [aᵥ, dᵥ, lₒ, mₒ], t3_abbabb [eᵥ, bᵥ, cᵥ, iₒ, jₒ, kₒ]], [(1, [aᵥ, bᵥ, cᵥ, iₒ, jₒ, kₒ])]⟩,
  -- line 4042: mlde,dbml,aecijk->abcijk
  ⟨-1/2, [g_abab [mₒ, lₒ, dᵥ, eᵥ], t2_abab [dᵥ, bᵥ, mₒ, lₒ], t3_abbabb [aᵥ, eᵥ, cᵥ, iₒ, jₒ, kₒ]], [(1, [aᵥ, bᵥ, cᵥ, iₒ, jₒ, kₒ])]⟩,
  -- line 4045: lmde,dblm,aecijk->abcijk
  ⟨-1/2, [g_abab [lₒ, mₒ, dᵥ, eᵥ], t2_abab [dᵥ, bᵥ, lₒ, mₒ], t3_abbabb [aᵥ, eᵥ, cᵥ, iₒ, jₒ, kₒ]], [(1, [aᵥ, bᵥ, cᵥ, iₒ, jₒ, kₒ])]⟩,
  -- line 4048: mlde,dbml,aecijk->abcijk
  ⟨-1/2, [g_bbbb [mₒ, lₒ, dᵥ, eᵥ], t2_bbbb [dᵥ, bᵥ, mₒ, lₒ], t3_abbabb [aᵥ, eᵥ, cᵥ, iₒ, jₒ, kₒ]], [(1, [aᵥ, bᵥ, cᵥ, iₒ, jₒ, kₒ])]⟩,
  -- line 4051: lmed,adlk,ebcijm->abcijk
  ⟨100000000000001/100000000000000, [g_abab [lₒ, mₒ, eᵥ, dᵥ], t2_abab [aᵥ, dᵥ, lₒ, kₒ], t3_abbabb [eᵥ, bᵥ, cᵥ, iₒ, jₒ, mₒ]], [(1, [aᵥ, bᵥ, cᵥ, iₒ, jₒ, kₒ]), (-1, [aᵥ, bᵥ, cᵥ, iₒ, kₒ, jₒ])]⟩,
  -- line 4055: mlde,dblk,eacimj->abcijk
  ⟨-100000000000001/100000000000000, [g_aaaa [mₒ, lₒ, dᵥ, eᵥ], t2_abab [dᵥ, bᵥ, lₒ, kₒ], t3_aabaab [eᵥ, aᵥ, cᵥ, iₒ, mₒ, jₒ]], [(1, [aᵥ, bᵥ, cᵥ, iₒ, jₒ, kₒ]), (-1, [aᵥ, bᵥ, cᵥ, iₒ, kₒ, jₒ])]⟩,
  -- line 4059: lmde,dblk,aecijm->abcijk
  ⟨100000000000001/100000000000000, [g_abab [lₒ, mₒ, dᵥ, eᵥ], t2_abab [dᵥ, bᵥ, lₒ, kₒ], t3_abbabb [aᵥ, eᵥ, cᵥ, iₒ, jₒ, mₒ]], [(1, [aᵥ, bᵥ, cᵥ, iₒ, jₒ, kₒ]), (-1, [aᵥ, bᵥ, cᵥ, iₒ, kₒ, jₒ])]⟩,
  -- line 4063: mled,dbkl,eacimj->abcijk
  ⟨-100000000000001/100000000000000, [g_abab [mₒ, lₒ, eᵥ, dᵥ], t2_bbbb [dᵥ, bᵥ, kₒ, lₒ], t3_aabaab [eᵥ, aᵥ, cᵥ, iₒ, mₒ, jₒ]], [(1, [aᵥ, bᵥ, cᵥ, iₒ, jₒ, kₒ]), (-1, [aᵥ, bᵥ, cᵥ, iₒ, kₒ, jₒ])]⟩,
  -- line 4067: mlde,dbkl,aecijm->abcijk
  ⟨100000000000001/100000000000000, [g_bbbb [mₒ, lₒ, dᵥ, eᵥ], t2_bbbb [dᵥ, bᵥ, kₒ, lₒ], t3_abbabb [aᵥ, eᵥ, cᵥ, iₒ, jₒ, mₒ]], [(1, [aᵥ, bᵥ, cᵥ, iₒ, jₒ, kₒ]), (-1, [aᵥ, bᵥ, cᵥ, iₒ, kₒ, jₒ])]⟩,
  -- line 4071: mlde,dail,ebcmkj->abcijk
  ⟨-100000000000001/100000000000000, [g_aaaa [mₒ, lₒ, dᵥ, eᵥ], t2_aaaa [dᵥ, aᵥ, iₒ, lₒ], t3_abbabb [eᵥ, bᵥ, cᵥ, mₒ, kₒ, jₒ]], [(1, [aᵥ, bᵥ, cᵥ, iₒ, jₒ, kₒ])]⟩,
  -- line 4074: lmde,dail,ebcjkm->abcijk
  ⟨-100000000000001/100000000000000, [g_abab [lₒ, mₒ, dᵥ, eᵥ], t2_aaaa [dᵥ, aᵥ, iₒ, lₒ], t3_bbbbbb [eᵥ, bᵥ, cᵥ, jₒ, kₒ, mₒ]], [(1, [aᵥ, bᵥ, cᵥ, iₒ, jₒ, kₒ])]⟩,
  -- line 4077: mled,adil,ebcmkj->abcijk
  ⟨-100000000000001/100000000000000, [g_abab [mₒ, lₒ, eᵥ, dᵥ], t2_abab [aᵥ, dᵥ, iₒ, lₒ], t3_abbabb [eᵥ, bᵥ, cᵥ, mₒ, kₒ, jₒ]], [(1, [aᵥ, bᵥ, cᵥ, iₒ, jₒ, kₒ])]⟩,
  -- line 4080: mlde,adil,ebcjkm->abcijk
  ⟨-100000000000001/100000000000000, [g_bbbb [mₒ, lₒ, dᵥ, eᵥ], t2_abab [aᵥ, dᵥ, iₒ, lₒ], t3_bbbbbb [eᵥ, bᵥ, cᵥ, jₒ, kₒ, mₒ]], [(1, [aᵥ, bᵥ, cᵥ, iₒ, jₒ, kₒ])]⟩,
  -- line 4083: mlde,dbil,aecmkj->abcijk
  ⟨-100000000000001/100000000000000, [g_abab [mₒ, lₒ, dᵥ, eᵥ], t2_abab [dᵥ, bᵥ, iₒ, lₒ], t3_abbabb [aᵥ, eᵥ, cᵥ, mₒ, kₒ, jₒ]], [(1, [aᵥ, bᵥ, cᵥ, iₒ, jₒ, kₒ])]⟩,
  -- line 4086: mled,dbjk,eaciml->abcijk
  ⟨-1/2, [g_abab [mₒ, lₒ, eᵥ, dᵥ], t2_bbbb [dᵥ, bᵥ, jₒ, kₒ], t3_aabaab [eᵥ, aᵥ, cᵥ, iₒ, mₒ, lₒ]], [(1, [aᵥ, bᵥ, cᵥ, iₒ, jₒ, kₒ])]⟩,
  -- line 4089: lmed,dbjk,eacilm->abcijk
  ⟨-1/2, [g_abab [lₒ, mₒ, eᵥ, dᵥ], t2_bbbb [dᵥ, bᵥ, jₒ, kₒ], t3_aabaab [eᵥ, aᵥ, cᵥ, iₒ, lₒ, mₒ]], [(1, [aᵥ, bᵥ, cᵥ, iₒ, jₒ, kₒ])]⟩,
  -- line 4092: mlde,dbjk,aeciml->abcijk
  ⟨-1/2, [g_bbbb [mₒ, lₒ, dᵥ, eᵥ], t2_bbbb [dᵥ, bᵥ, jₒ, kₒ], t3_abbabb [aᵥ, eᵥ, cᵥ, iₒ, mₒ, lₒ]], [(1, [aᵥ, bᵥ, cᵥ, iₒ, jₒ, kₒ])]⟩,
  -- line 4095: mled,adik,ebcmjl->abcijk
  ⟨-1/2, [g_abab [mₒ, lₒ, eᵥ, dᵥ], t2_abab [aᵥ, dᵥ, iₒ, kₒ], t3_abbabb [eᵥ, bᵥ, cᵥ, mₒ, jₒ, lₒ]], [(1, [aᵥ, bᵥ, cᵥ, iₒ, jₒ, kₒ])]⟩,
  -- line 4098: lmed,adik,ebclmj->abcijk
  ⟨1/2, [g_abab [lₒ, mₒ, eᵥ, dᵥ], t2_abab [aᵥ, dᵥ, iₒ, kₒ], t3_abbabb [eᵥ, bᵥ, cᵥ, lₒ, mₒ, jₒ]], [(1, [aᵥ, bᵥ, cᵥ, iₒ, jₒ, kₒ])]⟩,
  -- line 4101: mlde,adik,ebcjml->abcijk
  ⟨-1/2, [g_bbbb [mₒ, lₒ, dᵥ, eᵥ], t2_abab [aᵥ, dᵥ, iₒ, kₒ], t3_bbbbbb [eᵥ, bᵥ, cᵥ, jₒ, mₒ, lₒ]], [(1, [aᵥ, bᵥ, cᵥ, iₒ, jₒ, kₒ])]⟩,
  -- line 4104: mlde,dbik,eaclmj->abcijk
  ⟨1/2, [g_aaaa [mₒ, lₒ, dᵥ, eᵥ], t2_abab [dᵥ, bᵥ, iₒ, kₒ], t3_aabaab [eᵥ, aᵥ, cᵥ, lₒ, mₒ, jₒ]], [(1, [aᵥ, bᵥ, cᵥ, iₒ, jₒ, kₒ])]⟩
  ]

/-- Part 4 of `ccsdt_t3_abbabb`. -/
def ccsdt_t3_abbabb_4 : Prog := [
  -- line 4107: mlde,dbik,aecmjl->abcijk
  ⟨-1/2, [g_abab [mₒ, lₒ, dᵥ, eᵥ], t2_abab [dᵥ, bᵥ, iₒ, kₒ], t3_abbabb [aᵥ, eᵥ, cᵥ, mₒ, jₒ, lₒ]], [(1, [aᵥ, bᵥ, cᵥ, iₒ, jₒ, kₒ])]⟩,
  -- line 4110: lmde,dbik,aeclmj->abcijk
  ⟨1/2, [g_abab [lₒ, mₒ, dᵥ, eᵥ], t2_abab [dᵥ, bᵥ, iₒ, kₒ], t3_abbabb [aᵥ, eᵥ, cᵥ, lₒ, mₒ, jₒ]], [(1, [aᵥ, bᵥ, cᵥ, iₒ, jₒ, kₒ])]⟩,
  -- line 4113: mled,adij,ebcmkl->abcijk
  ⟨1/2, [g_abab [mₒ, lₒ, eᵥ, dᵥ], t2_abab [aᵥ, dᵥ, iₒ, jₒ], t3_abbabb [eᵥ, bᵥ, cᵥ, mₒ, kₒ, lₒ]], [(1, [aᵥ, bᵥ, cᵥ, iₒ, jₒ, kₒ])]⟩,
  -- line 4116: lmed,adij,ebclmk->abcijk
  ⟨-1/2, [g_abab [lₒ, mₒ, eᵥ, dᵥ], t2_abab [aᵥ, dᵥ, iₒ, jₒ], t3_abbabb [eᵥ, bᵥ, cᵥ, lₒ, mₒ, kₒ]], [(1, [aᵥ, bᵥ, cᵥ, iₒ, jₒ, kₒ])]⟩,
  -- line 4119: mlde,adij,ebckml->abcijk
  ⟨1/2, [g_bbbb [mₒ, lₒ, dᵥ, eᵥ], t2_abab [aᵥ, dᵥ, iₒ, jₒ], t3_bbbbbb [eᵥ, bᵥ, cᵥ, kₒ, mₒ, lₒ]], [(1, [aᵥ, bᵥ, cᵥ, iₒ, jₒ, kₒ])]⟩,
  -- line 4122: mlde,dbij,eaclmk->abcijk
  ⟨-1/2, [g_aaaa [mₒ, lₒ, dᵥ, eᵥ], t2_abab [dᵥ, bᵥ, iₒ, jₒ], t3_aabaab [eᵥ, aᵥ, cᵥ, lₒ, mₒ, kₒ]], [(1, [aᵥ, bᵥ, cᵥ, iₒ, jₒ, kₒ])]⟩,
  -- line 4125: mlde,dbij,aecmkl->abcijk
  ⟨1/2, [g_abab [mₒ, lₒ, dᵥ, eᵥ], t2_abab [dᵥ, bᵥ, iₒ, jₒ], t3_abbabb [aᵥ, eᵥ, cᵥ, mₒ, kₒ, lₒ]], [(1, [aᵥ, bᵥ, cᵥ, iₒ, jₒ, kₒ])]⟩,
  -- line 4128: lmde,dbij,aeclmk->abcijk
  ⟨-1/2, [g_abab [lₒ, mₒ, dᵥ, eᵥ], t2_abab [dᵥ, bᵥ, iₒ, jₒ], t3_abbabb [aᵥ, eᵥ, cᵥ, lₒ, mₒ, kₒ]], [(1, [aᵥ, bᵥ, cᵥ, iₒ, jₒ, kₒ])]⟩,
  -- line 4131: mlde,dcml,aebijk->abcijk
  ⟨1/2, [g_abab [mₒ, lₒ, dᵥ, eᵥ], t2_abab [dᵥ, cᵥ, mₒ, lₒ], t3_abbabb [aᵥ, eᵥ, bᵥ, iₒ, jₒ, kₒ]], [(1, [aᵥ, bᵥ, cᵥ, iₒ, jₒ, kₒ])]⟩,
  -- line 4134: lmde,dclm,aebijk->abcijk
  ⟨1/2, [g_abab [lₒ, mₒ, dᵥ, eᵥ], t2_abab [dᵥ, cᵥ, lₒ, mₒ], t3_abbabb [aᵥ, eᵥ, bᵥ, iₒ, jₒ, kₒ]], [(1, [aᵥ, bᵥ, cᵥ, iₒ, jₒ, kₒ])]⟩,
  -- line 4137: mlde,dcml,aebijk->abcijk
  ⟨1/2, [g_bbbb [mₒ, lₒ, dᵥ, eᵥ], t2_bbbb [dᵥ, cᵥ, mₒ, lₒ], t3_abbabb [aᵥ, eᵥ, bᵥ, iₒ, jₒ, kₒ]], [(1, [aᵥ, bᵥ, cᵥ, iₒ, jₒ, kₒ])]⟩,
  -- line 4140: mlde,dclk,eabimj->abcijk
  ⟨100000000000001/100000000000000, [g_aaaa [mₒ, lₒ, dᵥ, eᵥ], t2_abab [dᵥ, cᵥ, lₒ, kₒ], t3_aabaab [eᵥ, aᵥ, bᵥ, iₒ, mₒ, jₒ]], [(1, [aᵥ, bᵥ, cᵥ, iₒ, jₒ, kₒ]), (-1, [aᵥ, bᵥ, cᵥ, iₒ, kₒ, jₒ])]⟩,
  -- line 4144: lmde,dclk,aebijm->abcijk
  ⟨-100000000000001/100000000000000, [g_abab [lₒ, mₒ, dᵥ, eᵥ], t2_abab [dᵥ, cᵥ, lₒ, kₒ], t3_abbabb [aᵥ, eᵥ, bᵥ, iₒ, jₒ, mₒ]], [(1, [aᵥ, bᵥ, cᵥ, iₒ, jₒ, kₒ]), (-1, [aᵥ, bᵥ, cᵥ, iₒ, kₒ, jₒ])]⟩,
  -- line 4148: mled,dckl,eabimj->abcijk
  ⟨100000000000001/100000000000000, [g_abab [mₒ, lₒ, eᵥ, dᵥ], t2_bbbb [dᵥ, cᵥ, kₒ, lₒ], t3_aabaab [eᵥ, aᵥ, bᵥ, iₒ, mₒ, jₒ]], [(1, [aᵥ, bᵥ, cᵥ, iₒ, jₒ, kₒ]), (-1, [aᵥ, bᵥ, cᵥ, iₒ, kₒ, jₒ])]⟩,
  -- line 4152: mlde,dckl,aebijm->abcijk
  ⟨-100000000000001/100000000000000, [g_bbbb [mₒ, lₒ, dᵥ, eᵥ], t2_bbbb [dᵥ, cᵥ, kₒ, lₒ], t3_abbabb [aᵥ, eᵥ, bᵥ, iₒ, jₒ, mₒ]], [(1, [aᵥ, bᵥ, cᵥ, iₒ, jₒ, kₒ]), (-1, [aᵥ, bᵥ, cᵥ, iₒ, kₒ, jₒ])]⟩,
  -- line 4156: mlde,dcil,aebmkj->abcijk
  ⟨100000000000001/100000000000000, [g_abab [mₒ, lₒ, dᵥ, eᵥ], t2_abab [dᵥ, cᵥ, iₒ, lₒ], t3_abbabb [aᵥ, eᵥ, bᵥ, mₒ, kₒ, jₒ]], [(1, [aᵥ, bᵥ, cᵥ, iₒ, jₒ, kₒ])]⟩,
  -- line 4159: mled,dcjk,eabiml->abcijk
  ⟨1/2, [g_abab [mₒ, lₒ, eᵥ, dᵥ], t2_bbbb [dᵥ, cᵥ, jₒ, kₒ], t3_aabaab [eᵥ, aᵥ, bᵥ, iₒ, mₒ, lₒ]], [(1, [aᵥ, bᵥ, cᵥ, iₒ, jₒ, kₒ])]⟩,
  -- line 4162: lmed,dcjk,eabilm->abcijk
  ⟨1/2, [g_abab [lₒ, mₒ, eᵥ, dᵥ], t2_bbbb [dᵥ, cᵥ, jₒ, kₒ], t3_aabaab [eᵥ, aᵥ, bᵥ, iₒ, lₒ, mₒ]], [(1, [aᵥ, bᵥ, cᵥ, iₒ, jₒ, kₒ])]⟩,
  -- line 4165: mlde,dcjk,aebiml->abcijk
  ⟨1/2, [g_bbbb [mₒ, lₒ, dᵥ, eᵥ], t2_bbbb [dᵥ, cᵥ, jₒ, kₒ], t3_abbabb [aᵥ, eᵥ, bᵥ, iₒ, mₒ, lₒ]], [(1, [aᵥ, bᵥ, cᵥ, iₒ, jₒ, kₒ])]⟩,
  -- line 4168: mlde,dcik,eablmj->abcijk
  ⟨-1/2, [g_aaaa [mₒ, lₒ, dᵥ, eᵥ], t2_abab [dᵥ, cᵥ, iₒ, kₒ], t3_aabaab [eᵥ, aᵥ, bᵥ, lₒ, mₒ, jₒ]], [(1, [aᵥ, bᵥ, cᵥ, iₒ, jₒ, kₒ])]⟩,
  -- line 4171: mlde,dcik,aebmjl->abcijk
  ⟨1/2, [g_abab [mₒ, lₒ, dᵥ, eᵥ], t2_abab [dᵥ, cᵥ, iₒ, kₒ], t3_abbabb [aᵥ, eᵥ, bᵥ, mₒ, jₒ, lₒ]], [(1, [aᵥ, bᵥ, cᵥ, iₒ, jₒ, kₒ])]⟩,
  -- line 4174: lmde,dcik,aeblmj->abcijk
  ⟨-1/2, [g_abab [lₒ, mₒ, dᵥ, eᵥ], t2_abab [dᵥ, cᵥ, iₒ, kₒ], t3_abbabb [aᵥ, eᵥ, bᵥ, lₒ, mₒ, jₒ]], [(1, [aᵥ, bᵥ, cᵥ, iₒ, jₒ, kₒ])]⟩,
  -- line 4177: mlde,dcij,eablmk->abcijk
  ⟨1/2, [g_aaaa [mₒ, lₒ, dᵥ, eᵥ], t2_abab [dᵥ, cᵥ, iₒ, jₒ], t3_aabaab [eᵥ, aᵥ, bᵥ, lₒ, mₒ, kₒ]], [(1, [aᵥ, bᵥ, cᵥ, iₒ, jₒ, kₒ])]⟩,
  -- line 4180: mlde,dcij,aebmkl->abcijk
  ⟨-1/2, [g_abab [mₒ, lₒ, dᵥ, eᵥ], t2_abab [dᵥ, cᵥ, iₒ, jₒ], t3_abbabb [aᵥ, eᵥ, bᵥ, mₒ, kₒ, lₒ]], [(1, [aᵥ, bᵥ, cᵥ, iₒ, jₒ, kₒ])]⟩,
  -- line 4183: lmde,dcij,aeblmk->abcijk
  ⟨1/2, [g_abab [lₒ, mₒ, dᵥ, eᵥ], t2_abab [dᵥ, cᵥ, iₒ, jₒ], t3_abbabb [aᵥ, eᵥ, bᵥ, lₒ, mₒ, kₒ]], [(1, [aᵥ, bᵥ, cᵥ, iₒ, jₒ, kₒ])]⟩,
  -- line 4186: mlde,abml,decijk->abcijk
  ⟨1/4, [g_abab [mₒ, lₒ, dᵥ, eᵥ], t2_abab [aᵥ, bᵥ, mₒ, lₒ], t3_abbabb [dᵥ, eᵥ, cᵥ, iₒ, jₒ, kₒ]], [(1, [aᵥ, bᵥ, cᵥ, iₒ, jₒ, kₒ]), (-1, [aᵥ, cᵥ, bᵥ, iₒ, jₒ, kₒ])]⟩,
  -- line 4190: mled,abml,edcijk->abcijk
  ⟨1/4, [g_abab [mₒ, lₒ, eᵥ, dᵥ], t2_abab [aᵥ, bᵥ, mₒ, lₒ], t3_abbabb [eᵥ, dᵥ, cᵥ, iₒ, jₒ, kₒ]], [(1, [aᵥ, bᵥ, cᵥ, iₒ, jₒ, kₒ]), (-1, [aᵥ, cᵥ, bᵥ, iₒ, jₒ, kₒ])]⟩,
  -- line 4194: lmde,ablm,decijk->abcijk
  ⟨1/4, [g_abab [lₒ, mₒ, dᵥ, eᵥ], t2_abab [aᵥ, bᵥ, lₒ, mₒ], t3_abbabb [dᵥ, eᵥ, cᵥ, iₒ, jₒ, kₒ]], [(1, [aᵥ, bᵥ, cᵥ, iₒ, jₒ, kₒ]), (-1, [aᵥ, cᵥ, bᵥ, iₒ, jₒ, kₒ])]⟩,
  -- line 4198: lmed,ablm,edcijk->abcijk
  ⟨1/4, [g_abab [lₒ, mₒ, eᵥ, dᵥ], t2_abab [aᵥ, bᵥ, lₒ, mₒ], t3_abbabb [eᵥ, dᵥ, cᵥ, iₒ, jₒ, kₒ]], [(1, [aᵥ, bᵥ, cᵥ, iₒ, jₒ, kₒ]), (-1, [aᵥ, cᵥ, bᵥ, iₒ, jₒ, kₒ])]⟩,
  -- line 4202: mlde,ablk,decimj->abcijk
  ⟨-1/2, [g_aaaa [mₒ, lₒ, dᵥ, eᵥ], t2_abab [aᵥ, bᵥ, lₒ, kₒ], t3_aabaab [dᵥ, eᵥ, cᵥ, iₒ, mₒ, jₒ]], [(1, [aᵥ, bᵥ, cᵥ, iₒ, jₒ, kₒ]), (-1, [aᵥ, bᵥ, cᵥ, iₒ, kₒ, jₒ]), (-1, [aᵥ, cᵥ, bᵥ, iₒ, jₒ, kₒ]), (1, [aᵥ, cᵥ, bᵥ, iₒ, kₒ, jₒ])]⟩,
  -- line 4206: lmde,ablk,decijm->abcijk
  ⟨-1/2, [g_abab [lₒ, mₒ, dᵥ, eᵥ], t2_abab [aᵥ, bᵥ, lₒ, kₒ], t3_abbabb [dᵥ, eᵥ, cᵥ, iₒ, jₒ, mₒ]], [(1, [aᵥ, bᵥ, cᵥ, iₒ, jₒ, kₒ]), (-1, [aᵥ, bᵥ, cᵥ, iₒ, kₒ, jₒ]), (-1, [aᵥ, cᵥ, bᵥ, iₒ, jₒ, kₒ]), (1, [aᵥ, cᵥ, bᵥ, iₒ, kₒ, jₒ])]⟩,
  -- line 4210: lmed,ablk,edcijm->abcijk
  ⟨-1/2, [g_abab [lₒ, mₒ, eᵥ, dᵥ], t2_abab [aᵥ, bᵥ, lₒ, kₒ], t3_abbabb [eᵥ, dᵥ, cᵥ, iₒ, jₒ, mₒ]], [(1, [aᵥ, bᵥ, cᵥ, iₒ, jₒ, kₒ]), (-1, [aᵥ, bᵥ, cᵥ, iₒ, kₒ, jₒ]), (-1, [aᵥ, cᵥ, bᵥ, iₒ, jₒ, kₒ]), (1, [aᵥ, cᵥ, bᵥ, iₒ, kₒ, jₒ])]⟩,
  -- line 4214: mlde,abil,decmkj->abcijk
  ⟨1/2, [g_abab [mₒ, lₒ, dᵥ, eᵥ], t2_abab [aᵥ, bᵥ, iₒ, lₒ], t3_abbabb [dᵥ, eᵥ, cᵥ, mₒ, kₒ, jₒ]], [(1, [aᵥ, bᵥ, cᵥ, iₒ, jₒ, kₒ]), (-1, [aᵥ, cᵥ, bᵥ, iₒ, jₒ, kₒ])]⟩,
  -- line 4218: mled,abil,edcmkj->abcijk
  ⟨1/2, [g_abab [mₒ, lₒ, eᵥ, dᵥ], t2_abab [aᵥ, bᵥ, iₒ, lₒ], t3_abbabb [eᵥ, dᵥ, cᵥ, mₒ, kₒ, jₒ]], [(1, [aᵥ, bᵥ, cᵥ, iₒ, jₒ, kₒ]), (-1, [aᵥ, cᵥ, bᵥ, iₒ, jₒ, kₒ])]⟩,
  -- line 4222: mlde,abil,decjkm->abcijk
  ⟨-1/2, [g_bbbb [mₒ, lₒ, dᵥ, eᵥ], t2_abab [aᵥ, bᵥ, iₒ, lₒ], t3_bbbbbb [dᵥ, eᵥ, cᵥ, jₒ, kₒ, mₒ]], [(1, [aᵥ, bᵥ, cᵥ, iₒ, jₒ, kₒ]), (-1, [aᵥ, cᵥ, bᵥ, iₒ, jₒ, kₒ])]⟩,
  -- line 4226: mlde,bcml,aedijk->abcijk
  ⟨-1/4, [g_bbbb [mₒ, lₒ, dᵥ, eᵥ], t2_bbbb [bᵥ, cᵥ, mₒ, lₒ], t3_abbabb [aᵥ, eᵥ, dᵥ, iₒ, jₒ, kₒ]], [(1, [aᵥ, bᵥ, cᵥ, iₒ, jₒ, kₒ])]⟩,
  -- line 4229: mlde,bckl,daeimj->abcijk
  ⟨-1/2, [g_abab [mₒ, lₒ, dᵥ, eᵥ], t2_bbbb [bᵥ, cᵥ, kₒ, lₒ], t3_aabaab [dᵥ, aᵥ, eᵥ, iₒ, mₒ, jₒ]], [(1, [aᵥ, bᵥ, cᵥ, iₒ, jₒ, kₒ]), (-1, [aᵥ, bᵥ, cᵥ, iₒ, kₒ, jₒ])]⟩,
  -- line 4233: mled,bckl,aedimj->abcijk
  ⟨1/2, [g_abab [mₒ, lₒ, eᵥ, dᵥ], t2_bbbb [bᵥ, cᵥ, kₒ, lₒ], t3_aabaab [aᵥ, eᵥ, dᵥ, iₒ, mₒ, jₒ]], [(1, [aᵥ, bᵥ, cᵥ, iₒ, jₒ, kₒ]), (-1, [aᵥ, bᵥ, cᵥ, iₒ, kₒ, jₒ])]⟩,
  -- line 4237: mlde,bckl,aedijm->abcijk
  ⟨1/2, [g_bbbb [mₒ, lₒ, dᵥ, eᵥ], t2_bbbb [bᵥ, cᵥ, kₒ, lₒ], t3_abbabb [aᵥ, eᵥ, dᵥ, iₒ, jₒ, mₒ]], [(1, [aᵥ, bᵥ, cᵥ, iₒ, jₒ, kₒ]), (-1, [aᵥ, bᵥ, cᵥ, iₒ, kₒ, jₒ])]⟩,
  -- line 4241: lmdk,dblj,acim->abcijk
  ⟨-1, [g_abab [lₒ, mₒ, dᵥ, kₒ], t2_abab [dᵥ, bᵥ, lₒ, jₒ], t2_abab [aᵥ, cᵥ, iₒ, mₒ]], [(1, [aᵥ, bᵥ, cᵥ, iₒ, jₒ, kₒ])]⟩
  ]

/-- Part 5 of `ccsdt_t3_abbabb`. -/
def ccsdt_t3_abbabb_5 : Prog := [
  -- line 4244: mldk,dbjl,acim->abcijk
  ⟨-1, [g_bbbb [mₒ, lₒ, dᵥ, kₒ], t2_bbbb [dᵥ, bᵥ, jₒ, lₒ], t2_abab [aᵥ, cᵥ, iₒ, mₒ]], [(1, [aᵥ, bᵥ, cᵥ, iₒ, jₒ, kₒ])]⟩,
  -- line 4247: lmdk,dail,bcjm->abcijk
  ⟨1, [g_abab [lₒ, mₒ, dᵥ, kₒ], t2_aaaa [dᵥ, aᵥ, iₒ, lₒ], t2_bbbb [bᵥ, cᵥ, jₒ, mₒ]], [(1, [aᵥ, bᵥ, cᵥ, iₒ, jₒ, kₒ])]⟩,
  -- line 4250: mldk,adil,bcjm->abcijk
  ⟨1, [g_bbbb [mₒ, lₒ, dᵥ, kₒ], t2_abab [aᵥ, dᵥ, iₒ, lₒ], t2_bbbb [bᵥ, cᵥ, jₒ, mₒ]], [(1, [aᵥ, bᵥ, cᵥ, iₒ, jₒ, kₒ])]⟩,
  -- line 4253: mldk,dbil,acmj->abcijk
  ⟨-1, [g_abab [mₒ, lₒ, dᵥ, kₒ], t2_abab [dᵥ, bᵥ, iₒ, lₒ], t2_abab [aᵥ, cᵥ, mₒ, jₒ]], [(1, [aᵥ, bᵥ, cᵥ, iₒ, jₒ, kₒ])]⟩,
  -- line 4256: mldk,adij,bcml->abcijk
  ⟨1/2, [g_bbbb [mₒ, lₒ, dᵥ, kₒ], t2_abab [aᵥ, dᵥ, iₒ, jₒ], t2_bbbb [bᵥ, cᵥ, mₒ, lₒ]], [(1, [aᵥ, bᵥ, cᵥ, iₒ, jₒ, kₒ]), (-1, [aᵥ, bᵥ, cᵥ, iₒ, kₒ, jₒ])]⟩,
  -- line 4260: mldk,dbij,acml->abcijk
  ⟨1/2, [g_abab [mₒ, lₒ, dᵥ, kₒ], t2_abab [dᵥ, bᵥ, iₒ, jₒ], t2_abab [aᵥ, cᵥ, mₒ, lₒ]], [(1, [aᵥ, bᵥ, cᵥ, iₒ, jₒ, kₒ]), (-1, [aᵥ, bᵥ, cᵥ, iₒ, kₒ, jₒ])]⟩,
  -- line 4264: lmdk,dbij,aclm->abcijk
  ⟨1/2, [g_abab [lₒ, mₒ, dᵥ, kₒ], t2_abab [dᵥ, bᵥ, iₒ, jₒ], t2_abab [aᵥ, cᵥ, lₒ, mₒ]], [(1, [aᵥ, bᵥ, cᵥ, iₒ, jₒ, kₒ]), (-1, [aᵥ, bᵥ, cᵥ, iₒ, kₒ, jₒ])]⟩,
  -- line 4268: lmdk,dclj,abim->abcijk
  ⟨1, [g_abab [lₒ, mₒ, dᵥ, kₒ], t2_abab [dᵥ, cᵥ, lₒ, jₒ], t2_abab [aᵥ, bᵥ, iₒ, mₒ]], [(1, [aᵥ, bᵥ, cᵥ, iₒ, jₒ, kₒ])]⟩,
  -- line 4271: mldk,dcjl,abim->abcijk
  ⟨1, [g_bbbb [mₒ, lₒ, dᵥ, kₒ], t2_bbbb [dᵥ, cᵥ, jₒ, lₒ], t2_abab [aᵥ, bᵥ, iₒ, mₒ]], [(1, [aᵥ, bᵥ, cᵥ, iₒ, jₒ, kₒ])]⟩,
  -- line 4274: mldk,dcil,abmj->abcijk
  ⟨1, [g_abab [mₒ, lₒ, dᵥ, kₒ], t2_abab [dᵥ, cᵥ, iₒ, lₒ], t2_abab [aᵥ, bᵥ, mₒ, jₒ]], [(1, [aᵥ, bᵥ, cᵥ, iₒ, jₒ, kₒ])]⟩,
  -- line 4277: mldk,dcij,abml->abcijk
  ⟨-1/2, [g_abab [mₒ, lₒ, dᵥ, kₒ], t2_abab [dᵥ, cᵥ, iₒ, jₒ], t2_abab [aᵥ, bᵥ, mₒ, lₒ]], [(1, [aᵥ, bᵥ, cᵥ, iₒ, jₒ, kₒ]), (-1, [aᵥ, bᵥ, cᵥ, iₒ, kₒ, jₒ])]⟩,
  -- line 4281: lmdk,dcij,ablm->abcijk
  ⟨-1/2, [g_abab [lₒ, mₒ, dᵥ, kₒ], t2_abab [dᵥ, cᵥ, iₒ, jₒ], t2_abab [aᵥ, bᵥ, lₒ, mₒ]], [(1, [aᵥ, bᵥ, cᵥ, iₒ, jₒ, kₒ]), (-1, [aᵥ, bᵥ, cᵥ, iₒ, kₒ, jₒ])]⟩,
  -- line 4285: lmdj,dblk,acim->abcijk
  ⟨1, [g_abab [lₒ, mₒ, dᵥ, jₒ], t2_abab [dᵥ, bᵥ, lₒ, kₒ], t2_abab [aᵥ, cᵥ, iₒ, mₒ]], [(1, [aᵥ, bᵥ, cᵥ, iₒ, jₒ, kₒ])]⟩,
  -- line 4288: mldj,dbkl,acim->abcijk
  ⟨1, [g_bbbb [mₒ, lₒ, dᵥ, jₒ], t2_bbbb [dᵥ, bᵥ, kₒ, lₒ], t2_abab [aᵥ, cᵥ, iₒ, mₒ]], [(1, [aᵥ, bᵥ, cᵥ, iₒ, jₒ, kₒ])]⟩,
  -- line 4291: lmdj,dail,bckm->abcijk
  ⟨-1, [g_abab [lₒ, mₒ, dᵥ, jₒ], t2_aaaa [dᵥ, aᵥ, iₒ, lₒ], t2_bbbb [bᵥ, cᵥ, kₒ, mₒ]], [(1, [aᵥ, bᵥ, cᵥ, iₒ, jₒ, kₒ])]⟩,
  -- line 4294: mldj,adil,bckm->abcijk
  ⟨-1, [g_bbbb [mₒ, lₒ, dᵥ, jₒ], t2_abab [aᵥ, dᵥ, iₒ, lₒ], t2_bbbb [bᵥ, cᵥ, kₒ, mₒ]], [(1, [aᵥ, bᵥ, cᵥ, iₒ, jₒ, kₒ])]⟩,
  -- line 4297: mldj,dbil,acmk->abcijk
  ⟨1, [g_abab [mₒ, lₒ, dᵥ, jₒ], t2_abab [dᵥ, bᵥ, iₒ, lₒ], t2_abab [aᵥ, cᵥ, mₒ, kₒ]], [(1, [aᵥ, bᵥ, cᵥ, iₒ, jₒ, kₒ])]⟩,
  -- line 4300: lmdj,dclk,abim->abcijk
  ⟨-1, [g_abab [lₒ, mₒ, dᵥ, jₒ], t2_abab [dᵥ, cᵥ, lₒ, kₒ], t2_abab [aᵥ, bᵥ, iₒ, mₒ]], [(1, [aᵥ, bᵥ, cᵥ, iₒ, jₒ, kₒ])]⟩,
  -- line 4303: mldj,dckl,abim->abcijk
  ⟨-1, [g_bbbb [mₒ, lₒ, dᵥ, jₒ], t2_bbbb [dᵥ, cᵥ, kₒ, lₒ], t2_abab [aᵥ, bᵥ, iₒ, mₒ]], [(1, [aᵥ, bᵥ, cᵥ, iₒ, jₒ, kₒ])]⟩,
  -- line 4306: mldj,dcil,abmk->abcijk
  ⟨-1, [g_abab [mₒ, lₒ, dᵥ, jₒ], t2_abab [dᵥ, cᵥ, iₒ, lₒ], t2_abab [aᵥ, bᵥ, mₒ, kₒ]], [(1, [aᵥ, bᵥ, cᵥ, iₒ, jₒ, kₒ])]⟩,
  -- line 4309: lmid,adlk,bcjm->abcijk
  ⟨1, [g_abab [lₒ, mₒ, iₒ, dᵥ], t2_abab [aᵥ, dᵥ, lₒ, kₒ], t2_bbbb [bᵥ, cᵥ, jₒ, mₒ]], [(1, [aᵥ, bᵥ, cᵥ, iₒ, jₒ, kₒ]), (-1, [aᵥ, bᵥ, cᵥ, iₒ, kₒ, jₒ])]⟩,
  -- line 4313: mldi,dblk,acmj->abcijk
  ⟨-1, [g_aaaa [mₒ, lₒ, dᵥ, iₒ], t2_abab [dᵥ, bᵥ, lₒ, kₒ], t2_abab [aᵥ, cᵥ, mₒ, jₒ]], [(1, [aᵥ, bᵥ, cᵥ, iₒ, jₒ, kₒ]), (-1, [aᵥ, bᵥ, cᵥ, iₒ, kₒ, jₒ])]⟩,
  -- line 4317: mlid,dbkl,acmj->abcijk
  ⟨-1, [g_abab [mₒ, lₒ, iₒ, dᵥ], t2_bbbb [dᵥ, bᵥ, kₒ, lₒ], t2_abab [aᵥ, cᵥ, mₒ, jₒ]], [(1, [aᵥ, bᵥ, cᵥ, iₒ, jₒ, kₒ]), (-1, [aᵥ, bᵥ, cᵥ, iₒ, kₒ, jₒ])]⟩,
  -- line 4321: mlid,dbjk,acml->abcijk
  ⟨-1/2, [g_abab [mₒ, lₒ, iₒ, dᵥ], t2_bbbb [dᵥ, bᵥ, jₒ, kₒ], t2_abab [aᵥ, cᵥ, mₒ, lₒ]], [(1, [aᵥ, bᵥ, cᵥ, iₒ, jₒ, kₒ])]⟩,
  -- line 4324: lmid,dbjk,aclm->abcijk
  ⟨-1/2, [g_abab [lₒ, mₒ, iₒ, dᵥ], t2_bbbb [dᵥ, bᵥ, jₒ, kₒ], t2_abab [aᵥ, cᵥ, lₒ, mₒ]], [(1, [aᵥ, bᵥ, cᵥ, iₒ, jₒ, kₒ])]⟩,
  -- line 4327: mldi,dclk,abmj->abcijk
  ⟨1, [g_aaaa [mₒ, lₒ, dᵥ, iₒ], t2_abab [dᵥ, cᵥ, lₒ, kₒ], t2_abab [aᵥ, bᵥ, mₒ, jₒ]], [(1, [aᵥ, bᵥ, cᵥ, iₒ, jₒ, kₒ]), (-1, [aᵥ, bᵥ, cᵥ, iₒ, kₒ, jₒ])]⟩,
  -- line 4331: mlid,dckl,abmj->abcijk
  ⟨1, [g_abab [mₒ, lₒ, iₒ, dᵥ], t2_bbbb [dᵥ, cᵥ, kₒ, lₒ], t2_abab [aᵥ, bᵥ, mₒ, jₒ]], [(1, [aᵥ, bᵥ, cᵥ, iₒ, jₒ, kₒ]), (-1, [aᵥ, bᵥ, cᵥ, iₒ, kₒ, jₒ])]⟩,
  -- line 4335: mlid,dcjk,abml->abcijk
  ⟨1/2, [g_abab [mₒ, lₒ, iₒ, dᵥ], t2_bbbb [dᵥ, cᵥ, jₒ, kₒ], t2_abab [aᵥ, bᵥ, mₒ, lₒ]], [(1, [aᵥ, bᵥ, cᵥ, iₒ, jₒ, kₒ])]⟩,
  -- line 4338: lmid,dcjk,ablm->abcijk
  ⟨1/2, [g_abab [lₒ, mₒ, iₒ, dᵥ], t2_bbbb [dᵥ, cᵥ, jₒ, kₒ], t2_abab [aᵥ, bᵥ, lₒ, mₒ]], [(1, [aᵥ, bᵥ, cᵥ, iₒ, jₒ, kₒ])]⟩,
  -- line 4341: lbde,dejk,acil->abcijk
  ⟨1/2, [g_bbbb [lₒ, bᵥ, dᵥ, eᵥ], t2_bbbb [dᵥ, eᵥ, jₒ, kₒ], t2_abab [aᵥ, cᵥ, iₒ, lₒ]], [(1, [aᵥ, bᵥ, cᵥ, iₒ, jₒ, kₒ])]⟩,
  -- line 4344: alde,deik,bcjl->abcijk
  ⟨-1/2, [g_abab [aᵥ, lₒ, dᵥ, eᵥ], t2_abab [dᵥ, eᵥ, iₒ, kₒ], t2_bbbb [bᵥ, cᵥ, jₒ, lₒ]], [(1, [aᵥ, bᵥ, cᵥ, iₒ, jₒ, kₒ])]⟩,
  -- line 4347: aled,edik,bcjl->abcijk
  ⟨-1/2, [g_abab [aᵥ, lₒ, eᵥ, dᵥ], t2_abab [eᵥ, dᵥ, iₒ, kₒ], t2_bbbb [bᵥ, cᵥ, jₒ, lₒ]], [(1, [aᵥ, bᵥ, cᵥ, iₒ, jₒ, kₒ])]⟩,
  -- line 4350: lbde,deik,aclj->abcijk
  ⟨1/2, [g_abab [lₒ, bᵥ, dᵥ, eᵥ], t2_abab [dᵥ, eᵥ, iₒ, kₒ], t2_abab [aᵥ, cᵥ, lₒ, jₒ]], [(1, [aᵥ, bᵥ, cᵥ, iₒ, jₒ, kₒ])]⟩,
  -- line 4353: lbed,edik,aclj->abcijk
  ⟨1/2, [g_abab [lₒ, bᵥ, eᵥ, dᵥ], t2_abab [eᵥ, dᵥ, iₒ, kₒ], t2_abab [aᵥ, cᵥ, lₒ, jₒ]], [(1, [aᵥ, bᵥ, cᵥ, iₒ, jₒ, kₒ])]⟩,
  -- line 4356: alde,deij,bckl->abcijk
  ⟨1/2, [g_abab [aᵥ, lₒ, dᵥ, eᵥ], t2_abab [dᵥ, eᵥ, iₒ, jₒ], t2_bbbb [bᵥ, cᵥ, kₒ, lₒ]], [(1, [aᵥ, bᵥ, cᵥ, iₒ, jₒ, kₒ])]⟩,
  -- line 4359: aled,edij,bckl->abcijk
  ⟨1/2, [g_abab [aᵥ, lₒ, eᵥ, dᵥ], t2_abab [eᵥ, dᵥ, iₒ, jₒ], t2_bbbb [bᵥ, cᵥ, kₒ, lₒ]], [(1, [aᵥ, bᵥ, cᵥ, iₒ, jₒ, kₒ])]⟩,
  -- line 4362: lbde,deij,aclk->abcijk
  ⟨-1/2, [g_abab [lₒ, bᵥ, dᵥ, eᵥ], t2_abab [dᵥ, eᵥ, iₒ, jₒ], t2_abab [aᵥ, cᵥ, lₒ, kₒ]], [(1, [aᵥ, bᵥ, cᵥ, iₒ, jₒ, kₒ])]⟩,
  -- line 4365: lbed,edij,aclk->abcijk
  ⟨-1/2, [g_abab [lₒ, bᵥ, eᵥ, dᵥ], t2_abab [eᵥ, dᵥ, iₒ, jₒ], t2_abab [aᵥ, cᵥ, lₒ, kₒ]], [(1, [aᵥ, bᵥ, cᵥ, iₒ, jₒ, kₒ])]⟩,
  -- line 4368: lade,dblk,ecij->abcijk
  ⟨-1, [g_aaaa [lₒ, aᵥ, dᵥ, eᵥ], t2_abab [dᵥ, bᵥ, lₒ, kₒ], t2_abab [eᵥ, cᵥ, iₒ, jₒ]], [(1, [aᵥ, bᵥ, cᵥ, iₒ, jₒ, kₒ]), (-1, [aᵥ, bᵥ, cᵥ, iₒ, kₒ, jₒ])]⟩,
  -- line 4372: aled,dbkl,ecij->abcijk
  ⟨1, [g_abab [aᵥ, lₒ, eᵥ, dᵥ], t2_bbbb [dᵥ, bᵥ, kₒ, lₒ], t2_abab [eᵥ, cᵥ, iₒ, jₒ]], [(1, [aᵥ, bᵥ, cᵥ, iₒ, jₒ, kₒ]), (-1, [aᵥ, bᵥ, cᵥ, iₒ, kₒ, jₒ])]⟩
  ]

/-- Part 6 of `ccsdt_t3_abbabb`. -/
def ccsdt_t3_abbabb_6 : Prog := [
  -- line 4376: lbed,adlk,ecij->abcijk
  ⟨1, [g_abab [lₒ, bᵥ, eᵥ, dᵥ], t2_abab [aᵥ, dᵥ, lₒ, kₒ], t2_abab [eᵥ, cᵥ, iₒ, jₒ]], [(1, [aᵥ, bᵥ, cᵥ, iₒ, jₒ, kₒ]), (-1, [aᵥ, bᵥ, cᵥ, iₒ, kₒ, jₒ])]⟩,
  -- line 4380: alde,dbil,ecjk->abcijk
  ⟨-1, [g_abab [aᵥ, lₒ, dᵥ, eᵥ], t2_abab [dᵥ, bᵥ, iₒ, lₒ], t2_bbbb [eᵥ, cᵥ, jₒ, kₒ]], [(1, [aᵥ, bᵥ, cᵥ, iₒ, jₒ, kₒ])]⟩,
  -- line 4383: lbde,dail,ecjk->abcijk
  ⟨-1, [g_abab [lₒ, bᵥ, dᵥ, eᵥ], t2_aaaa [dᵥ, aᵥ, iₒ, lₒ], t2_bbbb [eᵥ, cᵥ, jₒ, kₒ]], [(1, [aᵥ, bᵥ, cᵥ, iₒ, jₒ, kₒ])]⟩,
  -- line 4386: lbde,adil,ecjk->abcijk
  ⟨1, [g_bbbb [lₒ, bᵥ, dᵥ, eᵥ], t2_abab [aᵥ, dᵥ, iₒ, lₒ], t2_bbbb [eᵥ, cᵥ, jₒ, kₒ]], [(1, [aᵥ, bᵥ, cᵥ, iₒ, jₒ, kₒ])]⟩,
  -- line 4389: aled,dbjk,ecil->abcijk
  ⟨1, [g_abab [aᵥ, lₒ, eᵥ, dᵥ], t2_bbbb [dᵥ, bᵥ, jₒ, kₒ], t2_abab [eᵥ, cᵥ, iₒ, lₒ]], [(1, [aᵥ, bᵥ, cᵥ, iₒ, jₒ, kₒ])]⟩,
  -- line 4392: lade,dbik,eclj->abcijk
  ⟨1, [g_aaaa [lₒ, aᵥ, dᵥ, eᵥ], t2_abab [dᵥ, bᵥ, iₒ, kₒ], t2_abab [eᵥ, cᵥ, lₒ, jₒ]], [(1, [aᵥ, bᵥ, cᵥ, iₒ, jₒ, kₒ])]⟩,
  -- line 4395: alde,dbik,ecjl->abcijk
  ⟨1, [g_abab [aᵥ, lₒ, dᵥ, eᵥ], t2_abab [dᵥ, bᵥ, iₒ, kₒ], t2_bbbb [eᵥ, cᵥ, jₒ, lₒ]], [(1, [aᵥ, bᵥ, cᵥ, iₒ, jₒ, kₒ])]⟩,
  -- line 4398: lbed,adik,eclj->abcijk
  ⟨-1, [g_abab [lₒ, bᵥ, eᵥ, dᵥ], t2_abab [aᵥ, dᵥ, iₒ, kₒ], t2_abab [eᵥ, cᵥ, lₒ, jₒ]], [(1, [aᵥ, bᵥ, cᵥ, iₒ, jₒ, kₒ])]⟩,
  -- line 4401: lbde,adik,ecjl->abcijk
  ⟨-1, [g_bbbb [lₒ, bᵥ, dᵥ, eᵥ], t2_abab [aᵥ, dᵥ, iₒ, kₒ], t2_bbbb [eᵥ, cᵥ, jₒ, lₒ]], [(1, [aᵥ, bᵥ, cᵥ, iₒ, jₒ, kₒ])]⟩,
  -- line 4404: lade,dbij,eclk->abcijk
  ⟨-1, [g_aaaa [lₒ, aᵥ, dᵥ, eᵥ], t2_abab [dᵥ, bᵥ, iₒ, jₒ], t2_abab [eᵥ, cᵥ, lₒ, kₒ]], [(1, [aᵥ, bᵥ, cᵥ, iₒ, jₒ, kₒ])]⟩,
  -- line 4407: alde,dbij,eckl->abcijk
  ⟨-1, [g_abab [aᵥ, lₒ, dᵥ, eᵥ], t2_abab [dᵥ, bᵥ, iₒ, jₒ], t2_bbbb [eᵥ, cᵥ, kₒ, lₒ]], [(1, [aᵥ, bᵥ, cᵥ, iₒ, jₒ, kₒ])]⟩,
  -- line 4410: lbed,adij,eclk->abcijk
  ⟨1, [g_abab [lₒ, bᵥ, eᵥ, dᵥ], t2_abab [aᵥ, dᵥ, iₒ, jₒ], t2_abab [eᵥ, cᵥ, lₒ, kₒ]], [(1, [aᵥ, bᵥ, cᵥ, iₒ, jₒ, kₒ])]⟩,
  -- line 4413: lbde,adij,eckl->abcijk
  ⟨1, [g_bbbb [lₒ, bᵥ, dᵥ, eᵥ], t2_abab [aᵥ, dᵥ, iₒ, jₒ], t2_bbbb [eᵥ, cᵥ, kₒ, lₒ]], [(1, [aᵥ, bᵥ, cᵥ, iₒ, jₒ, kₒ])]⟩,
  -- line 4416: lcde,dejk,abil->abcijk
  ⟨-1/2, [g_bbbb [lₒ, cᵥ, dᵥ, eᵥ], t2_bbbb [dᵥ, eᵥ, jₒ, kₒ], t2_abab [aᵥ, bᵥ, iₒ, lₒ]], [(1, [aᵥ, bᵥ, cᵥ, iₒ, jₒ, kₒ])]⟩,
  -- line 4419: lcde,deik,ablj->abcijk
  ⟨-1/2, [g_abab [lₒ, cᵥ, dᵥ, eᵥ], t2_abab [dᵥ, eᵥ, iₒ, kₒ], t2_abab [aᵥ, bᵥ, lₒ, jₒ]], [(1, [aᵥ, bᵥ, cᵥ, iₒ, jₒ, kₒ])]⟩,
  -- line 4422: lced,edik,ablj->abcijk
  ⟨-1/2, [g_abab [lₒ, cᵥ, eᵥ, dᵥ], t2_abab [eᵥ, dᵥ, iₒ, kₒ], t2_abab [aᵥ, bᵥ, lₒ, jₒ]], [(1, [aᵥ, bᵥ, cᵥ, iₒ, jₒ, kₒ])]⟩,
  -- line 4425: lcde,deij,ablk->abcijk
  ⟨1/2, [g_abab [lₒ, cᵥ, dᵥ, eᵥ], t2_abab [dᵥ, eᵥ, iₒ, jₒ], t2_abab [aᵥ, bᵥ, lₒ, kₒ]], [(1, [aᵥ, bᵥ, cᵥ, iₒ, jₒ, kₒ])]⟩,
  -- line 4428: lced,edij,ablk->abcijk
  ⟨1/2, [g_abab [lₒ, cᵥ, eᵥ, dᵥ], t2_abab [eᵥ, dᵥ, iₒ, jₒ], t2_abab [aᵥ, bᵥ, lₒ, kₒ]], [(1, [aᵥ, bᵥ, cᵥ, iₒ, jₒ, kₒ])]⟩,
  -- line 4431: lced,adlk,ebij->abcijk
  ⟨-1, [g_abab [lₒ, cᵥ, eᵥ, dᵥ], t2_abab [aᵥ, dᵥ, lₒ, kₒ], t2_abab [eᵥ, bᵥ, iₒ, jₒ]], [(1, [aᵥ, bᵥ, cᵥ, iₒ, jₒ, kₒ]), (-1, [aᵥ, bᵥ, cᵥ, iₒ, kₒ, jₒ])]⟩,
  -- line 4435: lcde,dail,ebjk->abcijk
  ⟨1, [g_abab [lₒ, cᵥ, dᵥ, eᵥ], t2_aaaa [dᵥ, aᵥ, iₒ, lₒ], t2_bbbb [eᵥ, bᵥ, jₒ, kₒ]], [(1, [aᵥ, bᵥ, cᵥ, iₒ, jₒ, kₒ])]⟩,
  -- line 4438: lcde,adil,ebjk->abcijk
  ⟨-1, [g_bbbb [lₒ, cᵥ, dᵥ, eᵥ], t2_abab [aᵥ, dᵥ, iₒ, lₒ], t2_bbbb [eᵥ, bᵥ, jₒ, kₒ]], [(1, [aᵥ, bᵥ, cᵥ, iₒ, jₒ, kₒ])]⟩,
  -- line 4441: lced,adik,eblj->abcijk
  ⟨1, [g_abab [lₒ, cᵥ, eᵥ, dᵥ], t2_abab [aᵥ, dᵥ, iₒ, kₒ], t2_abab [eᵥ, bᵥ, lₒ, jₒ]], [(1, [aᵥ, bᵥ, cᵥ, iₒ, jₒ, kₒ])]⟩,
  -- line 4444: lcde,adik,ebjl->abcijk
  ⟨1, [g_bbbb [lₒ, cᵥ, dᵥ, eᵥ], t2_abab [aᵥ, dᵥ, iₒ, kₒ], t2_bbbb [eᵥ, bᵥ, jₒ, lₒ]], [(1, [aᵥ, bᵥ, cᵥ, iₒ, jₒ, kₒ])]⟩,
  -- line 4447: lced,adij,eblk->abcijk
  ⟨-1, [g_abab [lₒ, cᵥ, eᵥ, dᵥ], t2_abab [aᵥ, dᵥ, iₒ, jₒ], t2_abab [eᵥ, bᵥ, lₒ, kₒ]], [(1, [aᵥ, bᵥ, cᵥ, iₒ, jₒ, kₒ])]⟩,
  -- line 4450: lcde,adij,ebkl->abcijk
  ⟨-1, [g_bbbb [lₒ, cᵥ, dᵥ, eᵥ], t2_abab [aᵥ, dᵥ, iₒ, jₒ], t2_bbbb [eᵥ, bᵥ, kₒ, lₒ]], [(1, [aᵥ, bᵥ, cᵥ, iₒ, jₒ, kₒ])]⟩,
  -- line 4453: lmde,dl,ebjk,acim->abcijk
  ⟨1, [g_abab [lₒ, mₒ, dᵥ, eᵥ], t1_aa [dᵥ, lₒ], t2_bbbb [eᵥ, bᵥ, jₒ, kₒ], t2_abab [aᵥ, cᵥ, iₒ, mₒ]], [(1, [aᵥ, bᵥ, cᵥ, iₒ, jₒ, kₒ])]⟩,
  -- line 4456: mlde,dl,ebjk,acim->abcijk
  ⟨-1, [g_bbbb [mₒ, lₒ, dᵥ, eᵥ], t1_bb [dᵥ, lₒ], t2_bbbb [eᵥ, bᵥ, jₒ, kₒ], t2_abab [aᵥ, cᵥ, iₒ, mₒ]], [(1, [aᵥ, bᵥ, cᵥ, iₒ, jₒ, kₒ])]⟩,
  -- line 4459: lmde,dl,aeik,bcjm->abcijk
  ⟨-1, [g_abab [lₒ, mₒ, dᵥ, eᵥ], t1_aa [dᵥ, lₒ], t2_abab [aᵥ, eᵥ, iₒ, kₒ], t2_bbbb [bᵥ, cᵥ, jₒ, mₒ]], [(1, [aᵥ, bᵥ, cᵥ, iₒ, jₒ, kₒ])]⟩,
  -- line 4462: mlde,dl,aeik,bcjm->abcijk
  ⟨1, [g_bbbb [mₒ, lₒ, dᵥ, eᵥ], t1_bb [dᵥ, lₒ], t2_abab [aᵥ, eᵥ, iₒ, kₒ], t2_bbbb [bᵥ, cᵥ, jₒ, mₒ]], [(1, [aᵥ, bᵥ, cᵥ, iₒ, jₒ, kₒ])]⟩,
  -- line 4465: mlde,dl,ebik,acmj->abcijk
  ⟨-1, [g_aaaa [mₒ, lₒ, dᵥ, eᵥ], t1_aa [dᵥ, lₒ], t2_abab [eᵥ, bᵥ, iₒ, kₒ], t2_abab [aᵥ, cᵥ, mₒ, jₒ]], [(1, [aᵥ, bᵥ, cᵥ, iₒ, jₒ, kₒ])]⟩,
  -- line 4468: mled,dl,ebik,acmj->abcijk
  ⟨1, [g_abab [mₒ, lₒ, eᵥ, dᵥ], t1_bb [dᵥ, lₒ], t2_abab [eᵥ, bᵥ, iₒ, kₒ], t2_abab [aᵥ, cᵥ, mₒ, jₒ]], [(1, [aᵥ, bᵥ, cᵥ, iₒ, jₒ, kₒ])]⟩,
  -- line 4471: lmde,dl,aeij,bckm->abcijk
  ⟨1, [g_abab [lₒ, mₒ, dᵥ, eᵥ], t1_aa [dᵥ, lₒ], t2_abab [aᵥ, eᵥ, iₒ, jₒ], t2_bbbb [bᵥ, cᵥ, kₒ, mₒ]], [(1, [aᵥ, bᵥ, cᵥ, iₒ, jₒ, kₒ])]⟩,
  -- line 4474: mlde,dl,aeij,bckm->abcijk
  ⟨-1, [g_bbbb [mₒ, lₒ, dᵥ, eᵥ], t1_bb [dᵥ, lₒ], t2_abab [aᵥ, eᵥ, iₒ, jₒ], t2_bbbb [bᵥ, cᵥ, kₒ, mₒ]], [(1, [aᵥ, bᵥ, cᵥ, iₒ, jₒ, kₒ])]⟩,
  -- line 4477: mlde,dl,ebij,acmk->abcijk
  ⟨1, [g_aaaa [mₒ, lₒ, dᵥ, eᵥ], t1_aa [dᵥ, lₒ], t2_abab [eᵥ, bᵥ, iₒ, jₒ], t2_abab [aᵥ, cᵥ, mₒ, kₒ]], [(1, [aᵥ, bᵥ, cᵥ, iₒ, jₒ, kₒ])]⟩,
  -- line 4480: mled,dl,ebij,acmk->abcijk
  ⟨-1, [g_abab [mₒ, lₒ, eᵥ, dᵥ], t1_bb [dᵥ, lₒ], t2_abab [eᵥ, bᵥ, iₒ, jₒ], t2_abab [aᵥ, cᵥ, mₒ, kₒ]], [(1, [aᵥ, bᵥ, cᵥ, iₒ, jₒ, kₒ])]⟩,
  -- line 4483: lmde,dl,ecjk,abim->abcijk
  ⟨-1, [g_abab [lₒ, mₒ, dᵥ, eᵥ], t1_aa [dᵥ, lₒ], t2_bbbb [eᵥ, cᵥ, jₒ, kₒ], t2_abab [aᵥ, bᵥ, iₒ, mₒ]], [(1, [aᵥ, bᵥ, cᵥ, iₒ, jₒ, kₒ])]⟩,
  -- line 4486: mlde,dl,ecjk,abim->abcijk
  ⟨1, [g_bbbb [mₒ, lₒ, dᵥ, eᵥ], t1_bb [dᵥ, lₒ], t2_bbbb [eᵥ, cᵥ, jₒ, kₒ], t2_abab [aᵥ, bᵥ, iₒ, mₒ]], [(1, [aᵥ, bᵥ, cᵥ, iₒ, jₒ, kₒ])]⟩,
  -- line 4489: mlde,dl,ecik,abmj->abcijk
  ⟨1, [g_aaaa [mₒ, lₒ, dᵥ, eᵥ], t1_aa [dᵥ, lₒ], t2_abab [eᵥ, cᵥ, iₒ, kₒ], t2_abab [aᵥ, bᵥ, mₒ, jₒ]], [(1, [aᵥ, bᵥ, cᵥ, iₒ, jₒ, kₒ])]⟩,
  -- line 4492: mled,dl,ecik,abmj->abcijk
  ⟨-1, [g_abab [mₒ, lₒ, eᵥ, dᵥ], t1_bb [dᵥ, lₒ], t2_abab [eᵥ, cᵥ, iₒ, kₒ], t2_abab [aᵥ, bᵥ, mₒ, jₒ]], [(1, [aᵥ, bᵥ, cᵥ, iₒ, jₒ, kₒ])]⟩,
  -- line 4495: mlde,dl,ecij,abmk->abcijk
  ⟨-1, [g_aaaa [mₒ, lₒ, dᵥ, eᵥ], t1_aa [dᵥ, lₒ], t2_abab [eᵥ, cᵥ, iₒ, jₒ], t2_abab [aᵥ, bᵥ, mₒ, kₒ]], [(1, [aᵥ, bᵥ, cᵥ, iₒ, jₒ, kₒ])]⟩
  ]

/-- Part 7 of `ccsdt_t3_abbabb`. -/
def ccsdt_t3_abbabb_7 : Prog := [
  -- line 4498: mled,dl,ecij,abmk->abcijk
  ⟨1, [g_abab [mₒ, lₒ, eᵥ, dᵥ], t1_bb [dᵥ, lₒ], t2_abab [eᵥ, cᵥ, iₒ, jₒ], t2_abab [aᵥ, bᵥ, mₒ, kₒ]], [(1, [aᵥ, bᵥ, cᵥ, iₒ, jₒ, kₒ])]⟩,
  -- line 4501: lmed,dk,eblj,acim->abcijk
  ⟨-1, [g_abab [lₒ, mₒ, eᵥ, dᵥ], t1_bb [dᵥ, kₒ], t2_abab [eᵥ, bᵥ, lₒ, jₒ], t2_abab [aᵥ, cᵥ, iₒ, mₒ]], [(1, [aᵥ, bᵥ, cᵥ, iₒ, jₒ, kₒ])]⟩,
  -- line 4504: mlde,dk,ebjl,acim->abcijk
  ⟨1, [g_bbbb [mₒ, lₒ, dᵥ, eᵥ], t1_bb [dᵥ, kₒ], t2_bbbb [eᵥ, bᵥ, jₒ, lₒ], t2_abab [aᵥ, cᵥ, iₒ, mₒ]], [(1, [aᵥ, bᵥ, cᵥ, iₒ, jₒ, kₒ])]⟩,
  -- line 4507: lmed,dk,eail,bcjm->abcijk
  ⟨1, [g_abab [lₒ, mₒ, eᵥ, dᵥ], t1_bb [dᵥ, kₒ], t2_aaaa [eᵥ, aᵥ, iₒ, lₒ], t2_bbbb [bᵥ, cᵥ, jₒ, mₒ]], [(1, [aᵥ, bᵥ, cᵥ, iₒ, jₒ, kₒ])]⟩,
  -- line 4510: mlde,dk,aeil,bcjm->abcijk
  ⟨-1, [g_bbbb [mₒ, lₒ, dᵥ, eᵥ], t1_bb [dᵥ, kₒ], t2_abab [aᵥ, eᵥ, iₒ, lₒ], t2_bbbb [bᵥ, cᵥ, jₒ, mₒ]], [(1, [aᵥ, bᵥ, cᵥ, iₒ, jₒ, kₒ])]⟩,
  -- line 4513: mled,dk,ebil,acmj->abcijk
  ⟨-1, [g_abab [mₒ, lₒ, eᵥ, dᵥ], t1_bb [dᵥ, kₒ], t2_abab [eᵥ, bᵥ, iₒ, lₒ], t2_abab [aᵥ, cᵥ, mₒ, jₒ]], [(1, [aᵥ, bᵥ, cᵥ, iₒ, jₒ, kₒ])]⟩,
  -- line 4516: mlde,dk,aeij,bcml->abcijk
  ⟨-1/2, [g_bbbb [mₒ, lₒ, dᵥ, eᵥ], t1_bb [dᵥ, kₒ], t2_abab [aᵥ, eᵥ, iₒ, jₒ], t2_bbbb [bᵥ, cᵥ, mₒ, lₒ]], [(1, [aᵥ, bᵥ, cᵥ, iₒ, jₒ, kₒ]), (-1, [aᵥ, bᵥ, cᵥ, iₒ, kₒ, jₒ])]⟩,
  -- line 4520: mled,dk,ebij,acml->abcijk
  ⟨1/2, [g_abab [mₒ, lₒ, eᵥ, dᵥ], t1_bb [dᵥ, kₒ], t2_abab [eᵥ, bᵥ, iₒ, jₒ], t2_abab [aᵥ, cᵥ, mₒ, lₒ]], [(1, [aᵥ, bᵥ, cᵥ, iₒ, jₒ, kₒ]), (-1, [aᵥ, bᵥ, cᵥ, iₒ, kₒ, jₒ])]⟩,
  -- line 4524: lmed,dk,ebij,aclm->abcijk
  ⟨1/2, [g_abab [lₒ, mₒ, eᵥ, dᵥ], t1_bb [dᵥ, kₒ], t2_abab [eᵥ, bᵥ, iₒ, jₒ], t2_abab [aᵥ, cᵥ, lₒ, mₒ]], [(1, [aᵥ, bᵥ, cᵥ, iₒ, jₒ, kₒ]), (-1, [aᵥ, bᵥ, cᵥ, iₒ, kₒ, jₒ])]⟩,
  -- line 4528: lmed,dk,eclj,abim->abcijk
  ⟨1, [g_abab [lₒ, mₒ, eᵥ, dᵥ], t1_bb [dᵥ, kₒ], t2_abab [eᵥ, cᵥ, lₒ, jₒ], t2_abab [aᵥ, bᵥ, iₒ, mₒ]], [(1, [aᵥ, bᵥ, cᵥ, iₒ, jₒ, kₒ])]⟩,
  -- line 4531: mlde,dk,ecjl,abim->abcijk
  ⟨-1, [g_bbbb [mₒ, lₒ, dᵥ, eᵥ], t1_bb [dᵥ, kₒ], t2_bbbb [eᵥ, cᵥ, jₒ, lₒ], t2_abab [aᵥ, bᵥ, iₒ, mₒ]], [(1, [aᵥ, bᵥ, cᵥ, iₒ, jₒ, kₒ])]⟩,
  -- line 4534: mled,dk,ecil,abmj->abcijk
  ⟨1, [g_abab [mₒ, lₒ, eᵥ, dᵥ], t1_bb [dᵥ, kₒ], t2_abab [eᵥ, cᵥ, iₒ, lₒ], t2_abab [aᵥ, bᵥ, mₒ, jₒ]], [(1, [aᵥ, bᵥ, cᵥ, iₒ, jₒ, kₒ])]⟩,
  -- line 4537: mled,dk,ecij,abml->abcijk
  ⟨-1/2, [g_abab [mₒ, lₒ, eᵥ, dᵥ], t1_bb [dᵥ, kₒ], t2_abab [eᵥ, cᵥ, iₒ, jₒ], t2_abab [aᵥ, bᵥ, mₒ, lₒ]], [(1, [aᵥ, bᵥ, cᵥ, iₒ, jₒ, kₒ]), (-1, [aᵥ, bᵥ, cᵥ, iₒ, kₒ, jₒ])]⟩,
  -- line 4541: lmed,dk,ecij,ablm->abcijk
  ⟨-1/2, [g_abab [lₒ, mₒ, eᵥ, dᵥ], t1_bb [dᵥ, kₒ], t2_abab [eᵥ, cᵥ, iₒ, jₒ], t2_abab [aᵥ, bᵥ, lₒ, mₒ]], [(1, [aᵥ, bᵥ, cᵥ, iₒ, jₒ, kₒ]), (-1, [aᵥ, bᵥ, cᵥ, iₒ, kₒ, jₒ])]⟩,
  -- line 4545: lmed,dj,eblk,acim->abcijk
  ⟨1, [g_abab [lₒ, mₒ, eᵥ, dᵥ], t1_bb [dᵥ, jₒ], t2_abab [eᵥ, bᵥ, lₒ, kₒ], t2_abab [aᵥ, cᵥ, iₒ, mₒ]], [(1, [aᵥ, bᵥ, cᵥ, iₒ, jₒ, kₒ])]⟩,
  -- line 4548: mlde,dj,ebkl,acim->abcijk
  ⟨-1, [g_bbbb [mₒ, lₒ, dᵥ, eᵥ], t1_bb [dᵥ, jₒ], t2_bbbb [eᵥ, bᵥ, kₒ, lₒ], t2_abab [aᵥ, cᵥ, iₒ, mₒ]], [(1, [aᵥ, bᵥ, cᵥ, iₒ, jₒ, kₒ])]⟩,
  -- line 4551: lmed,dj,eail,bckm->abcijk
  ⟨-1, [g_abab [lₒ, mₒ, eᵥ, dᵥ], t1_bb [dᵥ, jₒ], t2_aaaa [eᵥ, aᵥ, iₒ, lₒ], t2_bbbb [bᵥ, cᵥ, kₒ, mₒ]], [(1, [aᵥ, bᵥ, cᵥ, iₒ, jₒ, kₒ])]⟩,
  -- line 4554: mlde,dj,aeil,bckm->abcijk
  ⟨1, [g_bbbb [mₒ, lₒ, dᵥ, eᵥ], t1_bb [dᵥ, jₒ], t2_abab [aᵥ, eᵥ, iₒ, lₒ], t2_bbbb [bᵥ, cᵥ, kₒ, mₒ]], [(1, [aᵥ, bᵥ, cᵥ, iₒ, jₒ, kₒ])]⟩,
  -- line 4557: mled,dj,ebil,acmk->abcijk
  ⟨1, [g_abab [mₒ, lₒ, eᵥ, dᵥ], t1_bb [dᵥ, jₒ], t2_abab [eᵥ, bᵥ, iₒ, lₒ], t2_abab [aᵥ, cᵥ, mₒ, kₒ]], [(1, [aᵥ, bᵥ, cᵥ, iₒ, jₒ, kₒ])]⟩,
  -- line 4560: lmed,dj,eclk,abim->abcijk
  ⟨-1, [g_abab [lₒ, mₒ, eᵥ, dᵥ], t1_bb [dᵥ, jₒ], t2_abab [eᵥ, cᵥ, lₒ, kₒ], t2_abab [aᵥ, bᵥ, iₒ, mₒ]], [(1, [aᵥ, bᵥ, cᵥ, iₒ, jₒ, kₒ])]⟩,
  -- line 4563: mlde,dj,eckl,abim->abcijk
  ⟨1, [g_bbbb [mₒ, lₒ, dᵥ, eᵥ], t1_bb [dᵥ, jₒ], t2_bbbb [eᵥ, cᵥ, kₒ, lₒ], t2_abab [aᵥ, bᵥ, iₒ, mₒ]], [(1, [aᵥ, bᵥ, cᵥ, iₒ, jₒ, kₒ])]⟩,
  -- line 4566: mled,dj,ecil,abmk->abcijk
  ⟨-1, [g_abab [mₒ, lₒ, eᵥ, dᵥ], t1_bb [dᵥ, jₒ], t2_abab [eᵥ, cᵥ, iₒ, lₒ], t2_abab [aᵥ, bᵥ, mₒ, kₒ]], [(1, [aᵥ, bᵥ, cᵥ, iₒ, jₒ, kₒ])]⟩,
  -- line 4569: lmde,di,aelk,bcjm->abcijk
  ⟨1, [g_abab [lₒ, mₒ, dᵥ, eᵥ], t1_aa [dᵥ, iₒ], t2_abab [aᵥ, eᵥ, lₒ, kₒ], t2_bbbb [bᵥ, cᵥ, jₒ, mₒ]], [(1, [aᵥ, bᵥ, cᵥ, iₒ, jₒ, kₒ]), (-1, [aᵥ, bᵥ, cᵥ, iₒ, kₒ, jₒ])]⟩,
  -- line 4573: mlde,di,eblk,acmj->abcijk
  ⟨1, [g_aaaa [mₒ, lₒ, dᵥ, eᵥ], t1_aa [dᵥ, iₒ], t2_abab [eᵥ, bᵥ, lₒ, kₒ], t2_abab [aᵥ, cᵥ, mₒ, jₒ]], [(1, [aᵥ, bᵥ, cᵥ, iₒ, jₒ, kₒ]), (-1, [aᵥ, bᵥ, cᵥ, iₒ, kₒ, jₒ])]⟩,
  -- line 4577: mlde,di,ebkl,acmj->abcijk
  ⟨-1, [g_abab [mₒ, lₒ, dᵥ, eᵥ], t1_aa [dᵥ, iₒ], t2_bbbb [eᵥ, bᵥ, kₒ, lₒ], t2_abab [aᵥ, cᵥ, mₒ, jₒ]], [(1, [aᵥ, bᵥ, cᵥ, iₒ, jₒ, kₒ]), (-1, [aᵥ, bᵥ, cᵥ, iₒ, kₒ, jₒ])]⟩,
  -- line 4581: mlde,di,ebjk,acml->abcijk
  ⟨-1/2, [g_abab [mₒ, lₒ, dᵥ, eᵥ], t1_aa [dᵥ, iₒ], t2_bbbb [eᵥ, bᵥ, jₒ, kₒ], t2_abab [aᵥ, cᵥ, mₒ, lₒ]], [(1, [aᵥ, bᵥ, cᵥ, iₒ, jₒ, kₒ])]⟩,
  -- line 4584: lmde,di,ebjk,aclm->abcijk
  ⟨-1/2, [g_abab [lₒ, mₒ, dᵥ, eᵥ], t1_aa [dᵥ, iₒ], t2_bbbb [eᵥ, bᵥ, jₒ, kₒ], t2_abab [aᵥ, cᵥ, lₒ, mₒ]], [(1, [aᵥ, bᵥ, cᵥ, iₒ, jₒ, kₒ])]⟩,
  -- line 4587: mlde,di,eclk,abmj->abcijk
  ⟨-1, [g_aaaa [mₒ, lₒ, dᵥ, eᵥ], t1_aa [dᵥ, iₒ], t2_abab [eᵥ, cᵥ, lₒ, kₒ], t2_abab [aᵥ, bᵥ, mₒ, jₒ]], [(1, [aᵥ, bᵥ, cᵥ, iₒ, jₒ, kₒ]), (-1, [aᵥ, bᵥ, cᵥ, iₒ, kₒ, jₒ])]⟩,
  -- line 4591: mlde,di,eckl,abmj->abcijk
  ⟨1, [g_abab [mₒ, lₒ, dᵥ, eᵥ], t1_aa [dᵥ, iₒ], t2_bbbb [eᵥ, cᵥ, kₒ, lₒ], t2_abab [aᵥ, bᵥ, mₒ, jₒ]], [(1, [aᵥ, bᵥ, cᵥ, iₒ, jₒ, kₒ]), (-1, [aᵥ, bᵥ, cᵥ, iₒ, kₒ, jₒ])]⟩,
  -- line 4595: mlde,di,ecjk,abml->abcijk
  ⟨1/2, [g_abab [mₒ, lₒ, dᵥ, eᵥ], t1_aa [dᵥ, iₒ], t2_bbbb [eᵥ, cᵥ, jₒ, kₒ], t2_abab [aᵥ, bᵥ, mₒ, lₒ]], [(1, [aᵥ, bᵥ, cᵥ, iₒ, jₒ, kₒ])]⟩,
  -- line 4598: lmde,di,ecjk,ablm->abcijk
  ⟨1/2, [g_abab [lₒ, mₒ, dᵥ, eᵥ], t1_aa [dᵥ, iₒ], t2_bbbb [eᵥ, cᵥ, jₒ, kₒ], t2_abab [aᵥ, bᵥ, lₒ, mₒ]], [(1, [aᵥ, bᵥ, cᵥ, iₒ, jₒ, kₒ])]⟩,
  -- line 4601: mlde,bl,dejk,acim->abcijk
  ⟨-1/2, [g_bbbb [mₒ, lₒ, dᵥ, eᵥ], t1_bb [bᵥ, lₒ], t2_bbbb [dᵥ, eᵥ, jₒ, kₒ], t2_abab [aᵥ, cᵥ, iₒ, mₒ]], [(1, [aᵥ, bᵥ, cᵥ, iₒ, jₒ, kₒ])]⟩,
  -- line 4604: lmde,al,deik,bcjm->abcijk
  ⟨1/2, [g_abab [lₒ, mₒ, dᵥ, eᵥ], t1_aa [aᵥ, lₒ], t2_abab [dᵥ, eᵥ, iₒ, kₒ], t2_bbbb [bᵥ, cᵥ, jₒ, mₒ]], [(1, [aᵥ, bᵥ, cᵥ, iₒ, jₒ, kₒ])]⟩,
  -- line 4607: lmed,al,edik,bcjm->abcijk
  ⟨1/2, [g_abab [lₒ, mₒ, eᵥ, dᵥ], t1_aa [aᵥ, lₒ], t2_abab [eᵥ, dᵥ, iₒ, kₒ], t2_bbbb [bᵥ, cᵥ, jₒ, mₒ]], [(1, [aᵥ, bᵥ, cᵥ, iₒ, jₒ, kₒ])]⟩,
  -- line 4610: mlde,bl,deik,acmj->abcijk
  ⟨-1/2, [g_abab [mₒ, lₒ, dᵥ, eᵥ], t1_bb [bᵥ, lₒ], t2_abab [dᵥ, eᵥ, iₒ, kₒ], t2_abab [aᵥ, cᵥ, mₒ, jₒ]], [(1, [aᵥ, bᵥ, cᵥ, iₒ, jₒ, kₒ])]⟩,
  -- line 4613: mled,bl,edik,acmj->abcijk
  ⟨-1/2, [g_abab [mₒ, lₒ, eᵥ, dᵥ], t1_bb [bᵥ, lₒ], t2_abab [eᵥ, dᵥ, iₒ, kₒ], t2_abab [aᵥ, cᵥ, mₒ, jₒ]], [(1, [aᵥ, bᵥ, cᵥ, iₒ, jₒ, kₒ])]⟩,
  -- line 4616: lmde,al,deij,bckm->abcijk
  ⟨-1/2, [g_abab [lₒ, mₒ, dᵥ, eᵥ], t1_aa [aᵥ, lₒ], t2_abab [dᵥ, eᵥ, iₒ, jₒ], t2_bbbb [bᵥ, cᵥ, kₒ, mₒ]], [(1, [aᵥ, bᵥ, cᵥ, iₒ, jₒ, kₒ])]⟩,
  -- line 4619: lmed,al,edij,bckm->abcijk
  ⟨-1/2, [g_abab [lₒ, mₒ, eᵥ, dᵥ], t1_aa [aᵥ, lₒ], t2_abab [eᵥ, dᵥ, iₒ, jₒ], t2_bbbb [bᵥ, cᵥ, kₒ, mₒ]], [(1, [aᵥ, bᵥ, cᵥ, iₒ, jₒ, kₒ])]⟩,
  -- line 4622: mlde,bl,deij,acmk->abcijk
  ⟨1/2, [g_abab [mₒ, lₒ, dᵥ, eᵥ], t1_bb [bᵥ, lₒ], t2_abab [dᵥ, eᵥ, iₒ, jₒ], t2_abab [aᵥ, cᵥ, mₒ, kₒ]], [(1, [aᵥ, bᵥ, cᵥ, iₒ, jₒ, kₒ])]⟩,
  -- line 4625: mled,bl,edij,acmk->abcijk
  ⟨1/2, [g_abab [mₒ, lₒ, eᵥ, dᵥ], t1_bb [bᵥ, lₒ], t2_abab [eᵥ, dᵥ, iₒ, jₒ], t2_abab [aᵥ, cᵥ, mₒ, kₒ]], [(1, [aᵥ, bᵥ, cᵥ, iₒ, jₒ, kₒ])]⟩
  ]

/-- Part 8 of `ccsdt_t3_abbabb`. -/
def ccsdt_t3_abbabb_8 : Prog := [
  -- line 4628: mlde,al,dbmk,ecij->abcijk
  ⟨1, [g_aaaa [mₒ, lₒ, dᵥ, eᵥ], t1_aa [aᵥ, lₒ], t2_abab [dᵥ, bᵥ, mₒ, kₒ], t2_abab [eᵥ, cᵥ, iₒ, jₒ]], [(1, [aᵥ, bᵥ, cᵥ, iₒ, jₒ, kₒ]), (-1, [aᵥ, bᵥ, cᵥ, iₒ, kₒ, jₒ])]⟩,
  -- line 4632: lmed,al,dbkm,ecij->abcijk
  ⟨-1, [g_abab [lₒ, mₒ, eᵥ, dᵥ], t1_aa [aᵥ, lₒ], t2_bbbb [dᵥ, bᵥ, kₒ, mₒ], t2_abab [eᵥ, cᵥ, iₒ, jₒ]], [(1, [aᵥ, bᵥ, cᵥ, iₒ, jₒ, kₒ]), (-1, [aᵥ, bᵥ, cᵥ, iₒ, kₒ, jₒ])]⟩,
  -- line 4636: mled,bl,admk,ecij->abcijk
  ⟨-1, [g_abab [mₒ, lₒ, eᵥ, dᵥ], t1_bb [bᵥ, lₒ], t2_abab [aᵥ, dᵥ, mₒ, kₒ], t2_abab [eᵥ, cᵥ, iₒ, jₒ]], [(1, [aᵥ, bᵥ, cᵥ, iₒ, jₒ, kₒ]), (-1, [aᵥ, bᵥ, cᵥ, iₒ, kₒ, jₒ])]⟩,
  -- line 4640: lmde,al,dbim,ecjk->abcijk
  ⟨1, [g_abab [lₒ, mₒ, dᵥ, eᵥ], t1_aa [aᵥ, lₒ], t2_abab [dᵥ, bᵥ, iₒ, mₒ], t2_bbbb [eᵥ, cᵥ, jₒ, kₒ]], [(1, [aᵥ, bᵥ, cᵥ, iₒ, jₒ, kₒ])]⟩,
  -- line 4643: mlde,bl,daim,ecjk->abcijk
  ⟨1, [g_abab [mₒ, lₒ, dᵥ, eᵥ], t1_bb [bᵥ, lₒ], t2_aaaa [dᵥ, aᵥ, iₒ, mₒ], t2_bbbb [eᵥ, cᵥ, jₒ, kₒ]], [(1, [aᵥ, bᵥ, cᵥ, iₒ, jₒ, kₒ])]⟩,
  -- line 4646: mlde,bl,adim,ecjk->abcijk
  ⟨-1, [g_bbbb [mₒ, lₒ, dᵥ, eᵥ], t1_bb [bᵥ, lₒ], t2_abab [aᵥ, dᵥ, iₒ, mₒ], t2_bbbb [eᵥ, cᵥ, jₒ, kₒ]], [(1, [aᵥ, bᵥ, cᵥ, iₒ, jₒ, kₒ])]⟩,
  -- line 4649: lmed,al,dbjk,ecim->abcijk
  ⟨-1, [g_abab [lₒ, mₒ, eᵥ, dᵥ], t1_aa [aᵥ, lₒ], t2_bbbb [dᵥ, bᵥ, jₒ, kₒ], t2_abab [eᵥ, cᵥ, iₒ, mₒ]], [(1, [aᵥ, bᵥ, cᵥ, iₒ, jₒ, kₒ])]⟩,
  -- line 4652: mlde,al,dbik,ecmj->abcijk
  ⟨-1, [g_aaaa [mₒ, lₒ, dᵥ, eᵥ], t1_aa [aᵥ, lₒ], t2_abab [dᵥ, bᵥ, iₒ, kₒ], t2_abab [eᵥ, cᵥ, mₒ, jₒ]], [(1, [aᵥ, bᵥ, cᵥ, iₒ, jₒ, kₒ])]⟩,
  -- line 4655: lmde,al,dbik,ecjm->abcijk
  ⟨-1, [g_abab [lₒ, mₒ, dᵥ, eᵥ], t1_aa [aᵥ, lₒ], t2_abab [dᵥ, bᵥ, iₒ, kₒ], t2_bbbb [eᵥ, cᵥ, jₒ, mₒ]], [(1, [aᵥ, bᵥ, cᵥ, iₒ, jₒ, kₒ])]⟩,
  -- line 4658: mled,bl,adik,ecmj->abcijk
  ⟨1, [g_abab [mₒ, lₒ, eᵥ, dᵥ], t1_bb [bᵥ, lₒ], t2_abab [aᵥ, dᵥ, iₒ, kₒ], t2_abab [eᵥ, cᵥ, mₒ, jₒ]], [(1, [aᵥ, bᵥ, cᵥ, iₒ, jₒ, kₒ])]⟩,
  -- line 4661: mlde,bl,adik,ecjm->abcijk
  ⟨1, [g_bbbb [mₒ, lₒ, dᵥ, eᵥ], t1_bb [bᵥ, lₒ], t2_abab [aᵥ, dᵥ, iₒ, kₒ], t2_bbbb [eᵥ, cᵥ, jₒ, mₒ]], [(1, [aᵥ, bᵥ, cᵥ, iₒ, jₒ, kₒ])]⟩,
  -- line 4664: mlde,al,dbij,ecmk->abcijk
  ⟨1, [g_aaaa [mₒ, lₒ, dᵥ, eᵥ], t1_aa [aᵥ, lₒ], t2_abab [dᵥ, bᵥ, iₒ, jₒ], t2_abab [eᵥ, cᵥ, mₒ, kₒ]], [(1, [aᵥ, bᵥ, cᵥ, iₒ, jₒ, kₒ])]⟩,
  -- line 4667: lmde,al,dbij,eckm->abcijk
  ⟨1, [g_abab [lₒ, mₒ, dᵥ, eᵥ], t1_aa [aᵥ, lₒ], t2_abab [dᵥ, bᵥ, iₒ, jₒ], t2_bbbb [eᵥ, cᵥ, kₒ, mₒ]], [(1, [aᵥ, bᵥ, cᵥ, iₒ, jₒ, kₒ])]⟩,
  -- line 4670: mled,bl,adij,ecmk->abcijk
  ⟨-1, [g_abab [mₒ, lₒ, eᵥ, dᵥ], t1_bb [bᵥ, lₒ], t2_abab [aᵥ, dᵥ, iₒ, jₒ], t2_abab [eᵥ, cᵥ, mₒ, kₒ]], [(1, [aᵥ, bᵥ, cᵥ, iₒ, jₒ, kₒ])]⟩,
  -- line 4673: mlde,bl,adij,eckm->abcijk
  ⟨-1, [g_bbbb [mₒ, lₒ, dᵥ, eᵥ], t1_bb [bᵥ, lₒ], t2_abab [aᵥ, dᵥ, iₒ, jₒ], t2_bbbb [eᵥ, cᵥ, kₒ, mₒ]], [(1, [aᵥ, bᵥ, cᵥ, iₒ, jₒ, kₒ])]⟩,
  -- line 4676: mlde,cl,dejk,abim->abcijk
  ⟨1/2, [g_bbbb [mₒ, lₒ, dᵥ, eᵥ], t1_bb [cᵥ, lₒ], t2_bbbb [dᵥ, eᵥ, jₒ, kₒ], t2_abab [aᵥ, bᵥ, iₒ, mₒ]], [(1, [aᵥ, bᵥ, cᵥ, iₒ, jₒ, kₒ])]⟩,
  -- line 4679: mlde,cl,deik,abmj->abcijk
  ⟨1/2, [g_abab [mₒ, lₒ, dᵥ, eᵥ], t1_bb [cᵥ, lₒ], t2_abab [dᵥ, eᵥ, iₒ, kₒ], t2_abab [aᵥ, bᵥ, mₒ, jₒ]], [(1, [aᵥ, bᵥ, cᵥ, iₒ, jₒ, kₒ])]⟩,
  -- line 4682: mled,cl,edik,abmj->abcijk
  ⟨1/2, [g_abab [mₒ, lₒ, eᵥ, dᵥ], t1_bb [cᵥ, lₒ], t2_abab [eᵥ, dᵥ, iₒ, kₒ], t2_abab [aᵥ, bᵥ, mₒ, jₒ]], [(1, [aᵥ, bᵥ, cᵥ, iₒ, jₒ, kₒ])]⟩,
  -- line 4685: mlde,cl,deij,abmk->abcijk
  ⟨-1/2, [g_abab [mₒ, lₒ, dᵥ, eᵥ], t1_bb [cᵥ, lₒ], t2_abab [dᵥ, eᵥ, iₒ, jₒ], t2_abab [aᵥ, bᵥ, mₒ, kₒ]], [(1, [aᵥ, bᵥ, cᵥ, iₒ, jₒ, kₒ])]⟩,
  -- line 4688: mled,cl,edij,abmk->abcijk
  ⟨-1/2, [g_abab [mₒ, lₒ, eᵥ, dᵥ], t1_bb [cᵥ, lₒ], t2_abab [eᵥ, dᵥ, iₒ, jₒ], t2_abab [aᵥ, bᵥ, mₒ, kₒ]], [(1, [aᵥ, bᵥ, cᵥ, iₒ, jₒ, kₒ])]⟩,
  -- line 4691: mled,cl,admk,ebij->abcijk
  ⟨1, [g_abab [mₒ, lₒ, eᵥ, dᵥ], t1_bb [cᵥ, lₒ], t2_abab [aᵥ, dᵥ, mₒ, kₒ], t2_abab [eᵥ, bᵥ, iₒ, jₒ]], [(1, [aᵥ, bᵥ, cᵥ, iₒ, jₒ, kₒ]), (-1, [aᵥ, bᵥ, cᵥ, iₒ, kₒ, jₒ])]⟩,
  -- line 4695: mlde,cl,daim,ebjk->abcijk
  ⟨-1, [g_abab [mₒ, lₒ, dᵥ, eᵥ], t1_bb [cᵥ, lₒ], t2_aaaa [dᵥ, aᵥ, iₒ, mₒ], t2_bbbb [eᵥ, bᵥ, jₒ, kₒ]], [(1, [aᵥ, bᵥ, cᵥ, iₒ, jₒ, kₒ])]⟩,
  -- line 4698: mlde,cl,adim,ebjk->abcijk
  ⟨1, [g_bbbb [mₒ, lₒ, dᵥ, eᵥ], t1_bb [cᵥ, lₒ], t2_abab [aᵥ, dᵥ, iₒ, mₒ], t2_bbbb [eᵥ, bᵥ, jₒ, kₒ]], [(1, [aᵥ, bᵥ, cᵥ, iₒ, jₒ, kₒ])]⟩,
  -- line 4701: mled,cl,adik,ebmj->abcijk
  ⟨-1, [g_abab [mₒ, lₒ, eᵥ, dᵥ], t1_bb [cᵥ, lₒ], t2_abab [aᵥ, dᵥ, iₒ, kₒ], t2_abab [eᵥ, bᵥ, mₒ, jₒ]], [(1, [aᵥ, bᵥ, cᵥ, iₒ, jₒ, kₒ])]⟩,
  -- line 4704: mlde,cl,adik,ebjm->abcijk
  ⟨-1, [g_bbbb [mₒ, lₒ, dᵥ, eᵥ], t1_bb [cᵥ, lₒ], t2_abab [aᵥ, dᵥ, iₒ, kₒ], t2_bbbb [eᵥ, bᵥ, jₒ, mₒ]], [(1, [aᵥ, bᵥ, cᵥ, iₒ, jₒ, kₒ])]⟩,
  -- line 4707: mled,cl,adij,ebmk->abcijk
  ⟨1, [g_abab [mₒ, lₒ, eᵥ, dᵥ], t1_bb [cᵥ, lₒ], t2_abab [aᵥ, dᵥ, iₒ, jₒ], t2_abab [eᵥ, bᵥ, mₒ, kₒ]], [(1, [aᵥ, bᵥ, cᵥ, iₒ, jₒ, kₒ])]⟩,
  -- line 4710: mlde,cl,adij,ebkm->abcijk
  ⟨1, [g_bbbb [mₒ, lₒ, dᵥ, eᵥ], t1_bb [cᵥ, lₒ], t2_abab [aᵥ, dᵥ, iₒ, jₒ], t2_bbbb [eᵥ, bᵥ, kₒ, mₒ]], [(1, [aᵥ, bᵥ, cᵥ, iₒ, jₒ, kₒ])]⟩,
  -- line 4713: mldk,dj,bl,acim->abcijk
  ⟨-1, [g_bbbb [mₒ, lₒ, dᵥ, kₒ], t1_bb [dᵥ, jₒ], t1_bb [bᵥ, lₒ], t2_abab [aᵥ, cᵥ, iₒ, mₒ]], [(1, [aᵥ, bᵥ, cᵥ, iₒ, jₒ, kₒ])]⟩,
  -- line 4716: lmdk,di,al,bcjm->abcijk
  ⟨1, [g_abab [lₒ, mₒ, dᵥ, kₒ], t1_aa [dᵥ, iₒ], t1_aa [aᵥ, lₒ], t2_bbbb [bᵥ, cᵥ, jₒ, mₒ]], [(1, [aᵥ, bᵥ, cᵥ, iₒ, jₒ, kₒ])]⟩,
  -- line 4719: mldk,di,bl,acmj->abcijk
  ⟨-1, [g_abab [mₒ, lₒ, dᵥ, kₒ], t1_aa [dᵥ, iₒ], t1_bb [bᵥ, lₒ], t2_abab [aᵥ, cᵥ, mₒ, jₒ]], [(1, [aᵥ, bᵥ, cᵥ, iₒ, jₒ, kₒ])]⟩,
  -- line 4722: mldk,dj,cl,abim->abcijk
  ⟨1, [g_bbbb [mₒ, lₒ, dᵥ, kₒ], t1_bb [dᵥ, jₒ], t1_bb [cᵥ, lₒ], t2_abab [aᵥ, bᵥ, iₒ, mₒ]], [(1, [aᵥ, bᵥ, cᵥ, iₒ, jₒ, kₒ])]⟩,
  -- line 4725: mldk,di,cl,abmj->abcijk
  ⟨1, [g_abab [mₒ, lₒ, dᵥ, kₒ], t1_aa [dᵥ, iₒ], t1_bb [cᵥ, lₒ], t2_abab [aᵥ, bᵥ, mₒ, jₒ]], [(1, [aᵥ, bᵥ, cᵥ, iₒ, jₒ, kₒ])]⟩,
  -- line 4728: lmdk,al,bm,dcij->abcijk
  ⟨-1, [g_abab [lₒ, mₒ, dᵥ, kₒ], t1_aa [aᵥ, lₒ], t1_bb [bᵥ, mₒ], t2_abab [dᵥ, cᵥ, iₒ, jₒ]], [(1, [aᵥ, bᵥ, cᵥ, iₒ, jₒ, kₒ]), (-1, [aᵥ, bᵥ, cᵥ, iₒ, kₒ, jₒ]), (-1, [aᵥ, cᵥ, bᵥ, iₒ, jₒ, kₒ]), (1, [aᵥ, cᵥ, bᵥ, iₒ, kₒ, jₒ])]⟩,
  -- line 4732: mldk,bl,cm,adij->abcijk
  ⟨-1, [g_bbbb [mₒ, lₒ, dᵥ, kₒ], t1_bb [bᵥ, lₒ], t1_bb [cᵥ, mₒ], t2_abab [aᵥ, dᵥ, iₒ, jₒ]], [(1, [aᵥ, bᵥ, cᵥ, iₒ, jₒ, kₒ]), (-1, [aᵥ, bᵥ, cᵥ, iₒ, kₒ, jₒ])]⟩,
  -- line 4736: mldj,dk,bl,acim->abcijk
  ⟨1, [g_bbbb [mₒ, lₒ, dᵥ, jₒ], t1_bb [dᵥ, kₒ], t1_bb [bᵥ, lₒ], t2_abab [aᵥ, cᵥ, iₒ, mₒ]], [(1, [aᵥ, bᵥ, cᵥ, iₒ, jₒ, kₒ])]⟩,
  -- line 4739: lmdj,di,al,bckm->abcijk
  ⟨-1, [g_abab [lₒ, mₒ, dᵥ, jₒ], t1_aa [dᵥ, iₒ], t1_aa [aᵥ, lₒ], t2_bbbb [bᵥ, cᵥ, kₒ, mₒ]], [(1, [aᵥ, bᵥ, cᵥ, iₒ, jₒ, kₒ])]⟩,
  -- line 4742: mldj,di,bl,acmk->abcijk
  ⟨1, [g_abab [mₒ, lₒ, dᵥ, jₒ], t1_aa [dᵥ, iₒ], t1_bb [bᵥ, lₒ], t2_abab [aᵥ, cᵥ, mₒ, kₒ]], [(1, [aᵥ, bᵥ, cᵥ, iₒ, jₒ, kₒ])]⟩,
  -- line 4745: mldj,dk,cl,abim->abcijk
  ⟨-1, [g_bbbb [mₒ, lₒ, dᵥ, jₒ], t1_bb [dᵥ, kₒ], t1_bb [cᵥ, lₒ], t2_abab [aᵥ, bᵥ, iₒ, mₒ]], [(1, [aᵥ, bᵥ, cᵥ, iₒ, jₒ, kₒ])]⟩,
  -- line 4748: mldj,di,cl,abmk->abcijk
  ⟨-1, [g_abab [mₒ, lₒ, dᵥ, jₒ], t1_aa [dᵥ, iₒ], t1_bb [cᵥ, lₒ], t2_abab [aᵥ, bᵥ, mₒ, kₒ]], [(1, [aᵥ, bᵥ, cᵥ, iₒ, jₒ, kₒ])]⟩,
  -- line 4751: lmid,dk,al,bcjm->abcijk
  ⟨1, [g_abab [lₒ, mₒ, iₒ, dᵥ], t1_bb [dᵥ, kₒ], t1_aa [aᵥ, lₒ], t2_bbbb [bᵥ, cᵥ, jₒ, mₒ]], [(1, [aᵥ, bᵥ, cᵥ, iₒ, jₒ, kₒ]), (-1, [aᵥ, bᵥ, cᵥ, iₒ, kₒ, jₒ])]⟩
  ]

/-- Part 9 of `ccsdt_t3_abbabb`. -/
def ccsdt_t3_abbabb_9 : Prog := [
  -- line 4755: mlid,dk,bl,acmj->abcijk
  ⟨-1, [g_abab [mₒ, lₒ, iₒ, dᵥ], t1_bb [dᵥ, kₒ], t1_bb [bᵥ, lₒ], t2_abab [aᵥ, cᵥ, mₒ, jₒ]], [(1, [aᵥ, bᵥ, cᵥ, iₒ, jₒ, kₒ]), (-1, [aᵥ, bᵥ, cᵥ, iₒ, kₒ, jₒ])]⟩,
  -- line 4759: mlid,dk,cl,abmj->abcijk
  ⟨1, [g_abab [mₒ, lₒ, iₒ, dᵥ], t1_bb [dᵥ, kₒ], t1_bb [cᵥ, lₒ], t2_abab [aᵥ, bᵥ, mₒ, jₒ]], [(1, [aᵥ, bᵥ, cᵥ, iₒ, jₒ, kₒ]), (-1, [aᵥ, bᵥ, cᵥ, iₒ, kₒ, jₒ])]⟩,
  -- line 4763: lmid,al,bm,dcjk->abcijk
  ⟨1, [g_abab [lₒ, mₒ, iₒ, dᵥ], t1_aa [aᵥ, lₒ], t1_bb [bᵥ, mₒ], t2_bbbb [dᵥ, cᵥ, jₒ, kₒ]], [(1, [aᵥ, bᵥ, cᵥ, iₒ, jₒ, kₒ]), (-1, [aᵥ, cᵥ, bᵥ, iₒ, jₒ, kₒ])]⟩,
  -- line 4767: lbde,dk,ej,acil->abcijk
  ⟨-1, [g_bbbb [lₒ, bᵥ, dᵥ, eᵥ], t1_bb [dᵥ, kₒ], t1_bb [eᵥ, jₒ], t2_abab [aᵥ, cᵥ, iₒ, lₒ]], [(1, [aᵥ, bᵥ, cᵥ, iₒ, jₒ, kₒ])]⟩,
  -- line 4770: aled,dk,ei,bcjl->abcijk
  ⟨-1, [g_abab [aᵥ, lₒ, eᵥ, dᵥ], t1_bb [dᵥ, kₒ], t1_aa [eᵥ, iₒ], t2_bbbb [bᵥ, cᵥ, jₒ, lₒ]], [(1, [aᵥ, bᵥ, cᵥ, iₒ, jₒ, kₒ])]⟩,
  -- line 4773: lbed,dk,ei,aclj->abcijk
  ⟨1, [g_abab [lₒ, bᵥ, eᵥ, dᵥ], t1_bb [dᵥ, kₒ], t1_aa [eᵥ, iₒ], t2_abab [aᵥ, cᵥ, lₒ, jₒ]], [(1, [aᵥ, bᵥ, cᵥ, iₒ, jₒ, kₒ])]⟩,
  -- line 4776: aled,dk,bl,ecij->abcijk
  ⟨1, [g_abab [aᵥ, lₒ, eᵥ, dᵥ], t1_bb [dᵥ, kₒ], t1_bb [bᵥ, lₒ], t2_abab [eᵥ, cᵥ, iₒ, jₒ]], [(1, [aᵥ, bᵥ, cᵥ, iₒ, jₒ, kₒ]), (-1, [aᵥ, bᵥ, cᵥ, iₒ, kₒ, jₒ]), (-1, [aᵥ, cᵥ, bᵥ, iₒ, jₒ, kₒ]), (1, [aᵥ, cᵥ, bᵥ, iₒ, kₒ, jₒ])]⟩,
  -- line 4780: aled,dj,ei,bckl->abcijk
  ⟨1, [g_abab [aᵥ, lₒ, eᵥ, dᵥ], t1_bb [dᵥ, jₒ], t1_aa [eᵥ, iₒ], t2_bbbb [bᵥ, cᵥ, kₒ, lₒ]], [(1, [aᵥ, bᵥ, cᵥ, iₒ, jₒ, kₒ])]⟩,
  -- line 4783: lbed,dj,ei,aclk->abcijk
  ⟨-1, [g_abab [lₒ, bᵥ, eᵥ, dᵥ], t1_bb [dᵥ, jₒ], t1_aa [eᵥ, iₒ], t2_abab [aᵥ, cᵥ, lₒ, kₒ]], [(1, [aᵥ, bᵥ, cᵥ, iₒ, jₒ, kₒ])]⟩,
  -- line 4786: alde,di,bl,ecjk->abcijk
  ⟨-1, [g_abab [aᵥ, lₒ, dᵥ, eᵥ], t1_aa [dᵥ, iₒ], t1_bb [bᵥ, lₒ], t2_bbbb [eᵥ, cᵥ, jₒ, kₒ]], [(1, [aᵥ, bᵥ, cᵥ, iₒ, jₒ, kₒ]), (-1, [aᵥ, cᵥ, bᵥ, iₒ, jₒ, kₒ])]⟩,
  -- line 4790: lbed,dk,al,ecij->abcijk
  ⟨1, [g_abab [lₒ, bᵥ, eᵥ, dᵥ], t1_bb [dᵥ, kₒ], t1_aa [aᵥ, lₒ], t2_abab [eᵥ, cᵥ, iₒ, jₒ]], [(1, [aᵥ, bᵥ, cᵥ, iₒ, jₒ, kₒ]), (-1, [aᵥ, bᵥ, cᵥ, iₒ, kₒ, jₒ])]⟩,
  -- line 4794: lbde,dk,cl,aeij->abcijk
  ⟨-1, [g_bbbb [lₒ, bᵥ, dᵥ, eᵥ], t1_bb [dᵥ, kₒ], t1_bb [cᵥ, lₒ], t2_abab [aᵥ, eᵥ, iₒ, jₒ]], [(1, [aᵥ, bᵥ, cᵥ, iₒ, jₒ, kₒ]), (-1, [aᵥ, bᵥ, cᵥ, iₒ, kₒ, jₒ])]⟩,
  -- line 4798: lbde,di,al,ecjk->abcijk
  ⟨-1, [g_abab [lₒ, bᵥ, dᵥ, eᵥ], t1_aa [dᵥ, iₒ], t1_aa [aᵥ, lₒ], t2_bbbb [eᵥ, cᵥ, jₒ, kₒ]], [(1, [aᵥ, bᵥ, cᵥ, iₒ, jₒ, kₒ])]⟩,
  -- line 4801: lcde,dk,ej,abil->abcijk
  ⟨1, [g_bbbb [lₒ, cᵥ, dᵥ, eᵥ], t1_bb [dᵥ, kₒ], t1_bb [eᵥ, jₒ], t2_abab [aᵥ, bᵥ, iₒ, lₒ]], [(1, [aᵥ, bᵥ, cᵥ, iₒ, jₒ, kₒ])]⟩,
  -- line 4804: lced,dk,ei,ablj->abcijk
  ⟨-1, [g_abab [lₒ, cᵥ, eᵥ, dᵥ], t1_bb [dᵥ, kₒ], t1_aa [eᵥ, iₒ], t2_abab [aᵥ, bᵥ, lₒ, jₒ]], [(1, [aᵥ, bᵥ, cᵥ, iₒ, jₒ, kₒ])]⟩,
  -- line 4807: lced,dk,al,ebij->abcijk
  ⟨-1, [g_abab [lₒ, cᵥ, eᵥ, dᵥ], t1_bb [dᵥ, kₒ], t1_aa [aᵥ, lₒ], t2_abab [eᵥ, bᵥ, iₒ, jₒ]], [(1, [aᵥ, bᵥ, cᵥ, iₒ, jₒ, kₒ]), (-1, [aᵥ, bᵥ, cᵥ, iₒ, kₒ, jₒ])]⟩,
  -- line 4811: lcde,dk,bl,aeij->abcijk
  ⟨1, [g_bbbb [lₒ, cᵥ, dᵥ, eᵥ], t1_bb [dᵥ, kₒ], t1_bb [bᵥ, lₒ], t2_abab [aᵥ, eᵥ, iₒ, jₒ]], [(1, [aᵥ, bᵥ, cᵥ, iₒ, jₒ, kₒ]), (-1, [aᵥ, bᵥ, cᵥ, iₒ, kₒ, jₒ])]⟩,
  -- line 4815: lced,dj,ei,ablk->abcijk
  ⟨1, [g_abab [lₒ, cᵥ, eᵥ, dᵥ], t1_bb [dᵥ, jₒ], t1_aa [eᵥ, iₒ], t2_abab [aᵥ, bᵥ, lₒ, kₒ]], [(1, [aᵥ, bᵥ, cᵥ, iₒ, jₒ, kₒ])]⟩,
  -- line 4818: lcde,di,al,ebjk->abcijk
  ⟨1, [g_abab [lₒ, cᵥ, dᵥ, eᵥ], t1_aa [dᵥ, iₒ], t1_aa [aᵥ, lₒ], t2_bbbb [eᵥ, bᵥ, jₒ, kₒ]], [(1, [aᵥ, bᵥ, cᵥ, iₒ, jₒ, kₒ])]⟩,
  -- line 4821: lmde,dl,ek,abcijm->abcijk
  ⟨-1, [g_abab [lₒ, mₒ, dᵥ, eᵥ], t1_aa [dᵥ, lₒ], t1_bb [eᵥ, kₒ], t3_abbabb [aᵥ, bᵥ, cᵥ, iₒ, jₒ, mₒ]], [(1, [aᵥ, bᵥ, cᵥ, iₒ, jₒ, kₒ]), (-1, [aᵥ, bᵥ, cᵥ, iₒ, kₒ, jₒ])]⟩,
  -- line 4825: mlde,dl,ek,abcijm->abcijk
  ⟨1, [g_bbbb [mₒ, lₒ, dᵥ, eᵥ], t1_bb [dᵥ, lₒ], t1_bb [eᵥ, kₒ], t3_abbabb [aᵥ, bᵥ, cᵥ, iₒ, jₒ, mₒ]], [(1, [aᵥ, bᵥ, cᵥ, iₒ, jₒ, kₒ]), (-1, [aᵥ, bᵥ, cᵥ, iₒ, kₒ, jₒ])]⟩,
  -- line 4829: mlde,dl,ei,abcmkj->abcijk
  ⟨-1, [g_aaaa [mₒ, lₒ, dᵥ, eᵥ], t1_aa [dᵥ, lₒ], t1_aa [eᵥ, iₒ], t3_abbabb [aᵥ, bᵥ, cᵥ, mₒ, kₒ, jₒ]], [(1, [aᵥ, bᵥ, cᵥ, iₒ, jₒ, kₒ])]⟩,
  -- line 4832: mled,dl,ei,abcmkj->abcijk
  ⟨1, [g_abab [mₒ, lₒ, eᵥ, dᵥ], t1_bb [dᵥ, lₒ], t1_aa [eᵥ, iₒ], t3_abbabb [aᵥ, bᵥ, cᵥ, mₒ, kₒ, jₒ]], [(1, [aᵥ, bᵥ, cᵥ, iₒ, jₒ, kₒ])]⟩,
  -- line 4835: mlde,dl,am,ebcijk->abcijk
  ⟨1, [g_aaaa [mₒ, lₒ, dᵥ, eᵥ], t1_aa [dᵥ, lₒ], t1_aa [aᵥ, mₒ], t3_abbabb [eᵥ, bᵥ, cᵥ, iₒ, jₒ, kₒ]], [(1, [aᵥ, bᵥ, cᵥ, iₒ, jₒ, kₒ])]⟩,
  -- line 4838: mled,dl,am,ebcijk->abcijk
  ⟨-1, [g_abab [mₒ, lₒ, eᵥ, dᵥ], t1_bb [dᵥ, lₒ], t1_aa [aᵥ, mₒ], t3_abbabb [eᵥ, bᵥ, cᵥ, iₒ, jₒ, kₒ]], [(1, [aᵥ, bᵥ, cᵥ, iₒ, jₒ, kₒ])]⟩,
  -- line 4841: lmde,dl,bm,aecijk->abcijk
  ⟨-1, [g_abab [lₒ, mₒ, dᵥ, eᵥ], t1_aa [dᵥ, lₒ], t1_bb [bᵥ, mₒ], t3_abbabb [aᵥ, eᵥ, cᵥ, iₒ, jₒ, kₒ]], [(1, [aᵥ, bᵥ, cᵥ, iₒ, jₒ, kₒ])]⟩,
  -- line 4844: mlde,dl,bm,aecijk->abcijk
  ⟨1, [g_bbbb [mₒ, lₒ, dᵥ, eᵥ], t1_bb [dᵥ, lₒ], t1_bb [bᵥ, mₒ], t3_abbabb [aᵥ, eᵥ, cᵥ, iₒ, jₒ, kₒ]], [(1, [aᵥ, bᵥ, cᵥ, iₒ, jₒ, kₒ])]⟩,
  -- line 4847: lmde,dl,cm,aebijk->abcijk
  ⟨1, [g_abab [lₒ, mₒ, dᵥ, eᵥ], t1_aa [dᵥ, lₒ], t1_bb [cᵥ, mₒ], t3_abbabb [aᵥ, eᵥ, bᵥ, iₒ, jₒ, kₒ]], [(1, [aᵥ, bᵥ, cᵥ, iₒ, jₒ, kₒ])]⟩,
  -- line 4850: mlde,dl,cm,aebijk->abcijk
  ⟨-1, [g_bbbb [mₒ, lₒ, dᵥ, eᵥ], t1_bb [dᵥ, lₒ], t1_bb [cᵥ, mₒ], t3_abbabb [aᵥ, eᵥ, bᵥ, iₒ, jₒ, kₒ]], [(1, [aᵥ, bᵥ, cᵥ, iₒ, jₒ, kₒ])]⟩,
  -- line 4853: mlde,dk,ej,abciml->abcijk
  ⟨-1/2, [g_bbbb [mₒ, lₒ, dᵥ, eᵥ], t1_bb [dᵥ, kₒ], t1_bb [eᵥ, jₒ], t3_abbabb [aᵥ, bᵥ, cᵥ, iₒ, mₒ, lₒ]], [(1, [aᵥ, bᵥ, cᵥ, iₒ, jₒ, kₒ])]⟩,
  -- line 4856: mled,dk,ei,abcmjl->abcijk
  ⟨1/2, [g_abab [mₒ, lₒ, eᵥ, dᵥ], t1_bb [dᵥ, kₒ], t1_aa [eᵥ, iₒ], t3_abbabb [aᵥ, bᵥ, cᵥ, mₒ, jₒ, lₒ]], [(1, [aᵥ, bᵥ, cᵥ, iₒ, jₒ, kₒ])]⟩,
  -- line 4859: lmed,dk,ei,abclmj->abcijk
  ⟨-1/2, [g_abab [lₒ, mₒ, eᵥ, dᵥ], t1_bb [dᵥ, kₒ], t1_aa [eᵥ, iₒ], t3_abbabb [aᵥ, bᵥ, cᵥ, lₒ, mₒ, jₒ]], [(1, [aᵥ, bᵥ, cᵥ, iₒ, jₒ, kₒ])]⟩,
  -- line 4862: lmed,dk,al,ebcijm->abcijk
  ⟨1, [g_abab [lₒ, mₒ, eᵥ, dᵥ], t1_bb [dᵥ, kₒ], t1_aa [aᵥ, lₒ], t3_abbabb [eᵥ, bᵥ, cᵥ, iₒ, jₒ, mₒ]], [(1, [aᵥ, bᵥ, cᵥ, iₒ, jₒ, kₒ]), (-1, [aᵥ, bᵥ, cᵥ, iₒ, kₒ, jₒ])]⟩,
  -- line 4866: mled,dk,bl,eacimj->abcijk
  ⟨-1, [g_abab [mₒ, lₒ, eᵥ, dᵥ], t1_bb [dᵥ, kₒ], t1_bb [bᵥ, lₒ], t3_aabaab [eᵥ, aᵥ, cᵥ, iₒ, mₒ, jₒ]], [(1, [aᵥ, bᵥ, cᵥ, iₒ, jₒ, kₒ]), (-1, [aᵥ, bᵥ, cᵥ, iₒ, kₒ, jₒ])]⟩,
  -- line 4870: mlde,dk,bl,aecijm->abcijk
  ⟨1, [g_bbbb [mₒ, lₒ, dᵥ, eᵥ], t1_bb [dᵥ, kₒ], t1_bb [bᵥ, lₒ], t3_abbabb [aᵥ, eᵥ, cᵥ, iₒ, jₒ, mₒ]], [(1, [aᵥ, bᵥ, cᵥ, iₒ, jₒ, kₒ]), (-1, [aᵥ, bᵥ, cᵥ, iₒ, kₒ, jₒ])]⟩,
  -- line 4874: mled,dk,cl,eabimj->abcijk
  ⟨1, [g_abab [mₒ, lₒ, eᵥ, dᵥ], t1_bb [dᵥ, kₒ], t1_bb [cᵥ, lₒ], t3_aabaab [eᵥ, aᵥ, bᵥ, iₒ, mₒ, jₒ]], [(1, [aᵥ, bᵥ, cᵥ, iₒ, jₒ, kₒ]), (-1, [aᵥ, bᵥ, cᵥ, iₒ, kₒ, jₒ])]⟩,
  -- line 4878: mlde,dk,cl,aebijm->abcijk
  ⟨-1, [g_bbbb [mₒ, lₒ, dᵥ, eᵥ], t1_bb [dᵥ, kₒ], t1_bb [cᵥ, lₒ], t3_abbabb [aᵥ, eᵥ, bᵥ, iₒ, jₒ, mₒ]], [(1, [aᵥ, bᵥ, cᵥ, iₒ, jₒ, kₒ]), (-1, [aᵥ, bᵥ, cᵥ, iₒ, kₒ, jₒ])]⟩,
  -- line 4882: mled,dj,ei,abcmkl->abcijk
  ⟨-1/2, [g_abab [mₒ, lₒ, eᵥ, dᵥ], t1_bb [dᵥ, jₒ], t1_aa [eᵥ, iₒ], t3_abbabb [aᵥ, bᵥ, cᵥ, mₒ, kₒ, lₒ]], [(1, [aᵥ, bᵥ, cᵥ, iₒ, jₒ, kₒ])]⟩,
  -- line 4885: lmed,dj,ei,abclmk->abcijk
  ⟨1/2, [g_abab [lₒ, mₒ, eᵥ, dᵥ], t1_bb [dᵥ, jₒ], t1_aa [eᵥ, iₒ], t3_abbabb [aᵥ, bᵥ, cᵥ, lₒ, mₒ, kₒ]], [(1, [aᵥ, bᵥ, cᵥ, iₒ, jₒ, kₒ])]⟩,
  -- line 4888: mlde,di,al,ebcmkj->abcijk
  ⟨-1, [g_aaaa [mₒ, lₒ, dᵥ, eᵥ], t1_aa [dᵥ, iₒ], t1_aa [aᵥ, lₒ], t3_abbabb [eᵥ, bᵥ, cᵥ, mₒ, kₒ, jₒ]], [(1, [aᵥ, bᵥ, cᵥ, iₒ, jₒ, kₒ])]⟩
  ]

/-- Part 10 of `ccsdt_t3_abbabb`. -/
def ccsdt_t3_abbabb_10 : Prog := [
  -- line 4891: lmde,di,al,ebcjkm->abcijk
  ⟨-1, [g_abab [lₒ, mₒ, dᵥ, eᵥ], t1_aa [dᵥ, iₒ], t1_aa [aᵥ, lₒ], t3_bbbbbb [eᵥ, bᵥ, cᵥ, jₒ, kₒ, mₒ]], [(1, [aᵥ, bᵥ, cᵥ, iₒ, jₒ, kₒ])]⟩,
  -- line 4894: mlde,di,bl,aecmkj->abcijk
  ⟨-1, [g_abab [mₒ, lₒ, dᵥ, eᵥ], t1_aa [dᵥ, iₒ], t1_bb [bᵥ, lₒ], t3_abbabb [aᵥ, eᵥ, cᵥ, mₒ, kₒ, jₒ]], [(1, [aᵥ, bᵥ, cᵥ, iₒ, jₒ, kₒ])]⟩,
  -- line 4897: mlde,di,cl,aebmkj->abcijk
  ⟨1, [g_abab [mₒ, lₒ, dᵥ, eᵥ], t1_aa [dᵥ, iₒ], t1_bb [cᵥ, lₒ], t3_abbabb [aᵥ, eᵥ, bᵥ, mₒ, kₒ, jₒ]], [(1, [aᵥ, bᵥ, cᵥ, iₒ, jₒ, kₒ])]⟩,
  -- line 4900: lmde,al,bm,decijk->abcijk
  ⟨1/2, [g_abab [lₒ, mₒ, dᵥ, eᵥ], t1_aa [aᵥ, lₒ], t1_bb [bᵥ, mₒ], t3_abbabb [dᵥ, eᵥ, cᵥ, iₒ, jₒ, kₒ]], [(1, [aᵥ, bᵥ, cᵥ, iₒ, jₒ, kₒ]), (-1, [aᵥ, cᵥ, bᵥ, iₒ, jₒ, kₒ])]⟩,
  -- line 4904: lmed,al,bm,edcijk->abcijk
  ⟨1/2, [g_abab [lₒ, mₒ, eᵥ, dᵥ], t1_aa [aᵥ, lₒ], t1_bb [bᵥ, mₒ], t3_abbabb [eᵥ, dᵥ, cᵥ, iₒ, jₒ, kₒ]], [(1, [aᵥ, bᵥ, cᵥ, iₒ, jₒ, kₒ]), (-1, [aᵥ, cᵥ, bᵥ, iₒ, jₒ, kₒ])]⟩,
  -- line 4908: mlde,bl,cm,aedijk->abcijk
  ⟨1/2, [g_bbbb [mₒ, lₒ, dᵥ, eᵥ], t1_bb [bᵥ, lₒ], t1_bb [cᵥ, mₒ], t3_abbabb [aᵥ, eᵥ, dᵥ, iₒ, jₒ, kₒ]], [(1, [aᵥ, bᵥ, cᵥ, iₒ, jₒ, kₒ])]⟩,
  -- line 4911: mlde,dk,ej,bl,acim->abcijk
  ⟨1, [g_bbbb [mₒ, lₒ, dᵥ, eᵥ], t1_bb [dᵥ, kₒ], t1_bb [eᵥ, jₒ], t1_bb [bᵥ, lₒ], t2_abab [aᵥ, cᵥ, iₒ, mₒ]], [(1, [aᵥ, bᵥ, cᵥ, iₒ, jₒ, kₒ])]⟩,
  -- line 4914: lmed,dk,ei,al,bcjm->abcijk
  ⟨1, [g_abab [lₒ, mₒ, eᵥ, dᵥ], t1_bb [dᵥ, kₒ], t1_aa [eᵥ, iₒ], t1_aa [aᵥ, lₒ], t2_bbbb [bᵥ, cᵥ, jₒ, mₒ]], [(1, [aᵥ, bᵥ, cᵥ, iₒ, jₒ, kₒ])]⟩,
  -- line 4917: mled,dk,ei,bl,acmj->abcijk
  ⟨-1, [g_abab [mₒ, lₒ, eᵥ, dᵥ], t1_bb [dᵥ, kₒ], t1_aa [eᵥ, iₒ], t1_bb [bᵥ, lₒ], t2_abab [aᵥ, cᵥ, mₒ, jₒ]], [(1, [aᵥ, bᵥ, cᵥ, iₒ, jₒ, kₒ])]⟩,
  -- line 4920: mlde,dk,ej,cl,abim->abcijk
  ⟨-1, [g_bbbb [mₒ, lₒ, dᵥ, eᵥ], t1_bb [dᵥ, kₒ], t1_bb [eᵥ, jₒ], t1_bb [cᵥ, lₒ], t2_abab [aᵥ, bᵥ, iₒ, mₒ]], [(1, [aᵥ, bᵥ, cᵥ, iₒ, jₒ, kₒ])]⟩,
  -- line 4923: mled,dk,ei,cl,abmj->abcijk
  ⟨1, [g_abab [mₒ, lₒ, eᵥ, dᵥ], t1_bb [dᵥ, kₒ], t1_aa [eᵥ, iₒ], t1_bb [cᵥ, lₒ], t2_abab [aᵥ, bᵥ, mₒ, jₒ]], [(1, [aᵥ, bᵥ, cᵥ, iₒ, jₒ, kₒ])]⟩,
  -- line 4926: lmed,dk,al,bm,ecij->abcijk
  ⟨-1, [g_abab [lₒ, mₒ, eᵥ, dᵥ], t1_bb [dᵥ, kₒ], t1_aa [aᵥ, lₒ], t1_bb [bᵥ, mₒ], t2_abab [eᵥ, cᵥ, iₒ, jₒ]], [(1, [aᵥ, bᵥ, cᵥ, iₒ, jₒ, kₒ]), (-1, [aᵥ, bᵥ, cᵥ, iₒ, kₒ, jₒ]), (-1, [aᵥ, cᵥ, bᵥ, iₒ, jₒ, kₒ]), (1, [aᵥ, cᵥ, bᵥ, iₒ, kₒ, jₒ])]⟩,
  -- line 4930: mlde,dk,bl,cm,aeij->abcijk
  ⟨1, [g_bbbb [mₒ, lₒ, dᵥ, eᵥ], t1_bb [dᵥ, kₒ], t1_bb [bᵥ, lₒ], t1_bb [cᵥ, mₒ], t2_abab [aᵥ, eᵥ, iₒ, jₒ]], [(1, [aᵥ, bᵥ, cᵥ, iₒ, jₒ, kₒ]), (-1, [aᵥ, bᵥ, cᵥ, iₒ, kₒ, jₒ])]⟩,
  -- line 4934: lmed,dj,ei,al,bckm->abcijk
  ⟨-1, [g_abab [lₒ, mₒ, eᵥ, dᵥ], t1_bb [dᵥ, jₒ], t1_aa [eᵥ, iₒ], t1_aa [aᵥ, lₒ], t2_bbbb [bᵥ, cᵥ, kₒ, mₒ]], [(1, [aᵥ, bᵥ, cᵥ, iₒ, jₒ, kₒ])]⟩,
  -- line 4937: mled,dj,ei,bl,acmk->abcijk
  ⟨1, [g_abab [mₒ, lₒ, eᵥ, dᵥ], t1_bb [dᵥ, jₒ], t1_aa [eᵥ, iₒ], t1_bb [bᵥ, lₒ], t2_abab [aᵥ, cᵥ, mₒ, kₒ]], [(1, [aᵥ, bᵥ, cᵥ, iₒ, jₒ, kₒ])]⟩,
  -- line 4940: mled,dj,ei,cl,abmk->abcijk
  ⟨-1, [g_abab [mₒ, lₒ, eᵥ, dᵥ], t1_bb [dᵥ, jₒ], t1_aa [eᵥ, iₒ], t1_bb [cᵥ, lₒ], t2_abab [aᵥ, bᵥ, mₒ, kₒ]], [(1, [aᵥ, bᵥ, cᵥ, iₒ, jₒ, kₒ])]⟩,
  -- line 4943: lmde,di,al,bm,ecjk->abcijk
  ⟨1, [g_abab [lₒ, mₒ, dᵥ, eᵥ], t1_aa [dᵥ, iₒ], t1_aa [aᵥ, lₒ], t1_bb [bᵥ, mₒ], t2_bbbb [eᵥ, cᵥ, jₒ, kₒ]], [(1, [aᵥ, bᵥ, cᵥ, iₒ, jₒ, kₒ]), (-1, [aᵥ, cᵥ, bᵥ, iₒ, jₒ, kₒ])]⟩
  ]

/-- `UT2/fullCCresidEqns.py` 3571-4946, `ccsdt_t3_abbabb_residual`. -/
def ccsdt_t3_abbabb : Prog := ccsdt_t3_abbabb_0 ++ (ccsdt_t3_abbabb_1 ++ (ccsdt_t3_abbabb_2 ++ (ccsdt_t3_abbabb_3 ++ (ccsdt_t3_abbabb_4 ++ (ccsdt_t3_abbabb_5 ++ (ccsdt_t3_abbabb_6 ++ (ccsdt_t3_abbabb_7 ++ (ccsdt_t3_abbabb_8 ++ (ccsdt_t3_abbabb_9 ++ (ccsdt_t3_abbabb_10))))))))))

end Verif.Gen
