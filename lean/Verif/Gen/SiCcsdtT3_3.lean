import Verif.Ein.Names
import Verif.Gen.Antisym

/-! Written by `/verif/tools/gen.py`. Programs read from `/repo/UT2`. -/

set_option maxRecDepth 100000

namespace Verif.Gen

open Verif.Ein Verif.Ein.N


/-- Part 0 of `ccsdt_t3_bbbbbb`. -/
def ccsdt_t3_bbbbbb_0 : Prog := [
  -- line 4957: lk,abcijl->abcijk
  ⟨-1, [f_bb [lₒ, kₒ], t3_bbbbbb [aᵥ, bᵥ, cᵥ, iₒ, jₒ, lₒ]], [(1, [aᵥ, bᵥ, cᵥ, iₒ, jₒ, kₒ]), (-1, [aᵥ, bᵥ, cᵥ, iₒ, kₒ, jₒ])]⟩,
  -- line 4961: li,abcjkl->abcijk
  ⟨-1, [f_bb [lₒ, iₒ], t3_bbbbbb [aᵥ, bᵥ, cᵥ, jₒ, kₒ, lₒ]], [(1, [aᵥ, bᵥ, cᵥ, iₒ, jₒ, kₒ])]⟩,
  -- line 4964: ad,dbcijk->abcijk
  ⟨1, [f_bb [aᵥ, dᵥ], t3_bbbbbb [dᵥ, bᵥ, cᵥ, iₒ, jₒ, kₒ]], [(1, [aᵥ, bᵥ, cᵥ, iₒ, jₒ, kₒ]), (-1, [bᵥ, aᵥ, cᵥ, iₒ, jₒ, kₒ])]⟩,
  -- line 4968: cd,dabijk->abcijk
  ⟨1, [f_bb [cᵥ, dᵥ], t3_bbbbbb [dᵥ, aᵥ, bᵥ, iₒ, jₒ, kₒ]], [(1, [aᵥ, bᵥ, cᵥ, iₒ, jₒ, kₒ])]⟩,
  -- line 4971: ld,dk,abcijl->abcijk
  ⟨-1, [f_bb [lₒ, dᵥ], t1_bb [dᵥ, kₒ], t3_bbbbbb [aᵥ, bᵥ, cᵥ, iₒ, jₒ, lₒ]], [(1, [aᵥ, bᵥ, cᵥ, iₒ, jₒ, kₒ]), (-1, [aᵥ, bᵥ, cᵥ, iₒ, kₒ, jₒ])]⟩,
  -- line 4975: ld,di,abcjkl->abcijk
  ⟨-1, [f_bb [lₒ, dᵥ], t1_bb [dᵥ, iₒ], t3_bbbbbb [aᵥ, bᵥ, cᵥ, jₒ, kₒ, lₒ]], [(1, [aᵥ, bᵥ, cᵥ, iₒ, jₒ, kₒ])]⟩,
  -- line 4978: ld,al,dbcijk->abcijk
  ⟨-1, [f_bb [lₒ, dᵥ], t1_bb [aᵥ, lₒ], t3_bbbbbb [dᵥ, bᵥ, cᵥ, iₒ, jₒ, kₒ]], [(1, [aᵥ, bᵥ, cᵥ, iₒ, jₒ, kₒ]), (-1, [bᵥ, aᵥ, cᵥ, iₒ, jₒ, kₒ])]⟩,
  -- line 4982: ld,cl,dabijk->abcijk
  ⟨-1, [f_bb [lₒ, dᵥ], t1_bb [cᵥ, lₒ], t3_bbbbbb [dᵥ, aᵥ, bᵥ, iₒ, jₒ, kₒ]], [(1, [aᵥ, bᵥ, cᵥ, iₒ, jₒ, kₒ])]⟩,
  -- line 4985: ld,dajk,bcil->abcijk
  ⟨-1, [f_bb [lₒ, dᵥ], t2_bbbb [dᵥ, aᵥ, jₒ, kₒ], t2_bbbb [bᵥ, cᵥ, iₒ, lₒ]], [(1, [aᵥ, bᵥ, cᵥ, iₒ, jₒ, kₒ]), (-1, [aᵥ, bᵥ, cᵥ, jₒ, iₒ, kₒ]), (-1, [bᵥ, aᵥ, cᵥ, iₒ, jₒ, kₒ]), (1, [bᵥ, aᵥ, cᵥ, jₒ, iₒ, kₒ])]⟩,
  -- line 4989: ld,daij,bckl->abcijk
  ⟨-1, [f_bb [lₒ, dᵥ], t2_bbbb [dᵥ, aᵥ, iₒ, jₒ], t2_bbbb [bᵥ, cᵥ, kₒ, lₒ]], [(1, [aᵥ, bᵥ, cᵥ, iₒ, jₒ, kₒ]), (-1, [bᵥ, aᵥ, cᵥ, iₒ, jₒ, kₒ])]⟩,
  -- line 4993: ld,dcjk,abil->abcijk
  ⟨-1, [f_bb [lₒ, dᵥ], t2_bbbb [dᵥ, cᵥ, jₒ, kₒ], t2_bbbb [aᵥ, bᵥ, iₒ, lₒ]], [(1, [aᵥ, bᵥ, cᵥ, iₒ, jₒ, kₒ]), (-1, [aᵥ, bᵥ, cᵥ, jₒ, iₒ, kₒ])]⟩,
  -- line 4997: ld,dcij,abkl->abcijk
  ⟨-1, [f_bb [lₒ, dᵥ], t2_bbbb [dᵥ, cᵥ, iₒ, jₒ], t2_bbbb [aᵥ, bᵥ, kₒ, lₒ]], [(1, [aᵥ, bᵥ, cᵥ, iₒ, jₒ, kₒ])]⟩,
  -- line 5000: lajk,bcil->abcijk
  ⟨-1, [g_bbbb [lₒ, aᵥ, jₒ, kₒ], t2_bbbb [bᵥ, cᵥ, iₒ, lₒ]], [(1, [aᵥ, bᵥ, cᵥ, iₒ, jₒ, kₒ]), (-1, [aᵥ, bᵥ, cᵥ, jₒ, iₒ, kₒ]), (-1, [bᵥ, aᵥ, cᵥ, iₒ, jₒ, kₒ]), (1, [bᵥ, aᵥ, cᵥ, jₒ, iₒ, kₒ])]⟩,
  -- line 5004: laij,bckl->abcijk
  ⟨-1, [g_bbbb [lₒ, aᵥ, iₒ, jₒ], t2_bbbb [bᵥ, cᵥ, kₒ, lₒ]], [(1, [aᵥ, bᵥ, cᵥ, iₒ, jₒ, kₒ]), (-1, [bᵥ, aᵥ, cᵥ, iₒ, jₒ, kₒ])]⟩,
  -- line 5008: lcjk,abil->abcijk
  ⟨-1, [g_bbbb [lₒ, cᵥ, jₒ, kₒ], t2_bbbb [aᵥ, bᵥ, iₒ, lₒ]], [(1, [aᵥ, bᵥ, cᵥ, iₒ, jₒ, kₒ]), (-1, [aᵥ, bᵥ, cᵥ, jₒ, iₒ, kₒ])]⟩,
  -- line 5012: lcij,abkl->abcijk
  ⟨-1, [g_bbbb [lₒ, cᵥ, iₒ, jₒ], t2_bbbb [aᵥ, bᵥ, kₒ, lₒ]], [(1, [aᵥ, bᵥ, cᵥ, iₒ, jₒ, kₒ])]⟩,
  -- line 5015: abdk,dcij->abcijk
  ⟨-1, [g_bbbb [aᵥ, bᵥ, dᵥ, kₒ], t2_bbbb [dᵥ, cᵥ, iₒ, jₒ]], [(1, [aᵥ, bᵥ, cᵥ, iₒ, jₒ, kₒ]), (-1, [aᵥ, bᵥ, cᵥ, iₒ, kₒ, jₒ]), (-1, [aᵥ, cᵥ, bᵥ, iₒ, jₒ, kₒ]), (1, [aᵥ, cᵥ, bᵥ, iₒ, kₒ, jₒ])]⟩,
  -- line 5019: abdi,dcjk->abcijk
  ⟨-1, [g_bbbb [aᵥ, bᵥ, dᵥ, iₒ], t2_bbbb [dᵥ, cᵥ, jₒ, kₒ]], [(1, [aᵥ, bᵥ, cᵥ, iₒ, jₒ, kₒ]), (-1, [aᵥ, cᵥ, bᵥ, iₒ, jₒ, kₒ])]⟩,
  -- line 5023: bcdk,daij->abcijk
  ⟨-1, [g_bbbb [bᵥ, cᵥ, dᵥ, kₒ], t2_bbbb [dᵥ, aᵥ, iₒ, jₒ]], [(1, [aᵥ, bᵥ, cᵥ, iₒ, jₒ, kₒ]), (-1, [aᵥ, bᵥ, cᵥ, iₒ, kₒ, jₒ])]⟩,
  -- line 5027: bcdi,dajk->abcijk
  ⟨-1, [g_bbbb [bᵥ, cᵥ, dᵥ, iₒ], t2_bbbb [dᵥ, aᵥ, jₒ, kₒ]], [(1, [aᵥ, bᵥ, cᵥ, iₒ, jₒ, kₒ])]⟩,
  -- line 5030: mljk,abciml->abcijk
  ⟨1/2, [g_bbbb [mₒ, lₒ, jₒ, kₒ], t3_bbbbbb [aᵥ, bᵥ, cᵥ, iₒ, mₒ, lₒ]], [(1, [aᵥ, bᵥ, cᵥ, iₒ, jₒ, kₒ]), (-1, [aᵥ, bᵥ, cᵥ, jₒ, iₒ, kₒ])]⟩,
  -- line 5034: mlij,abckml->abcijk
  ⟨1/2, [g_bbbb [mₒ, lₒ, iₒ, jₒ], t3_bbbbbb [aᵥ, bᵥ, cᵥ, kₒ, mₒ, lₒ]], [(1, [aᵥ, bᵥ, cᵥ, iₒ, jₒ, kₒ])]⟩,
  -- line 5037: ladk,dbclji->abcijk
  ⟨-1, [g_abab [lₒ, aᵥ, dᵥ, kₒ], t3_abbabb [dᵥ, bᵥ, cᵥ, lₒ, jₒ, iₒ]], [(1, [aᵥ, bᵥ, cᵥ, iₒ, jₒ, kₒ]), (-1, [aᵥ, bᵥ, cᵥ, iₒ, kₒ, jₒ]), (-1, [bᵥ, aᵥ, cᵥ, iₒ, jₒ, kₒ]), (1, [bᵥ, aᵥ, cᵥ, iₒ, kₒ, jₒ])]⟩,
  -- line 5041: ladk,dbcijl->abcijk
  ⟨1, [g_bbbb [lₒ, aᵥ, dᵥ, kₒ], t3_bbbbbb [dᵥ, bᵥ, cᵥ, iₒ, jₒ, lₒ]], [(1, [aᵥ, bᵥ, cᵥ, iₒ, jₒ, kₒ]), (-1, [aᵥ, bᵥ, cᵥ, iₒ, kₒ, jₒ]), (-1, [bᵥ, aᵥ, cᵥ, iₒ, jₒ, kₒ]), (1, [bᵥ, aᵥ, cᵥ, iₒ, kₒ, jₒ])]⟩,
  -- line 5045: ladi,dbclkj->abcijk
  ⟨-1, [g_abab [lₒ, aᵥ, dᵥ, iₒ], t3_abbabb [dᵥ, bᵥ, cᵥ, lₒ, kₒ, jₒ]], [(1, [aᵥ, bᵥ, cᵥ, iₒ, jₒ, kₒ]), (-1, [bᵥ, aᵥ, cᵥ, iₒ, jₒ, kₒ])]⟩,
  -- line 5049: ladi,dbcjkl->abcijk
  ⟨1, [g_bbbb [lₒ, aᵥ, dᵥ, iₒ], t3_bbbbbb [dᵥ, bᵥ, cᵥ, jₒ, kₒ, lₒ]], [(1, [aᵥ, bᵥ, cᵥ, iₒ, jₒ, kₒ]), (-1, [bᵥ, aᵥ, cᵥ, iₒ, jₒ, kₒ])]⟩,
  -- line 5053: lcdk,dablji->abcijk
  ⟨-1, [g_abab [lₒ, cᵥ, dᵥ, kₒ], t3_abbabb [dᵥ, aᵥ, bᵥ, lₒ, jₒ, iₒ]], [(1, [aᵥ, bᵥ, cᵥ, iₒ, jₒ, kₒ]), (-1, [aᵥ, bᵥ, cᵥ, iₒ, kₒ, jₒ])]⟩,
  -- line 5057: lcdk,dabijl->abcijk
  ⟨1, [g_bbbb [lₒ, cᵥ, dᵥ, kₒ], t3_bbbbbb [dᵥ, aᵥ, bᵥ, iₒ, jₒ, lₒ]], [(1, [aᵥ, bᵥ, cᵥ, iₒ, jₒ, kₒ]), (-1, [aᵥ, bᵥ, cᵥ, iₒ, kₒ, jₒ])]⟩,
  -- line 5061: lcdi,dablkj->abcijk
  ⟨-1, [g_abab [lₒ, cᵥ, dᵥ, iₒ], t3_abbabb [dᵥ, aᵥ, bᵥ, lₒ, kₒ, jₒ]], [(1, [aᵥ, bᵥ, cᵥ, iₒ, jₒ, kₒ])]⟩,
  -- line 5064: lcdi,dabjkl->abcijk
  ⟨1, [g_bbbb [lₒ, cᵥ, dᵥ, iₒ], t3_bbbbbb [dᵥ, aᵥ, bᵥ, jₒ, kₒ, lₒ]], [(1, [aᵥ, bᵥ, cᵥ, iₒ, jₒ, kₒ])]⟩,
  -- line 5067: abde,decijk->abcijk
  ⟨1/2, [g_bbbb [aᵥ, bᵥ, dᵥ, eᵥ], t3_bbbbbb [dᵥ, eᵥ, cᵥ, iₒ, jₒ, kₒ]], [(1, [aᵥ, bᵥ, cᵥ, iₒ, jₒ, kₒ]), (-1, [aᵥ, cᵥ, bᵥ, iₒ, jₒ, kₒ])]⟩,
  -- line 5071: bcde,deaijk->abcijk
  ⟨1/2, [g_bbbb [bᵥ, cᵥ, dᵥ, eᵥ], t3_bbbbbb [dᵥ, eᵥ, aᵥ, iₒ, jₒ, kₒ]], [(1, [aᵥ, bᵥ, cᵥ, iₒ, jₒ, kₒ])]⟩,
  -- line 5074: mljk,al,bcim->abcijk
  ⟨1, [g_bbbb [mₒ, lₒ, jₒ, kₒ], t1_bb [aᵥ, lₒ], t2_bbbb [bᵥ, cᵥ, iₒ, mₒ]], [(1, [aᵥ, bᵥ, cᵥ, iₒ, jₒ, kₒ]), (-1, [aᵥ, bᵥ, cᵥ, jₒ, iₒ, kₒ]), (-1, [bᵥ, aᵥ, cᵥ, iₒ, jₒ, kₒ]), (1, [bᵥ, aᵥ, cᵥ, jₒ, iₒ, kₒ])]⟩,
  -- line 5078: mljk,cl,abim->abcijk
  ⟨1, [g_bbbb [mₒ, lₒ, jₒ, kₒ], t1_bb [cᵥ, lₒ], t2_bbbb [aᵥ, bᵥ, iₒ, mₒ]], [(1, [aᵥ, bᵥ, cᵥ, iₒ, jₒ, kₒ]), (-1, [aᵥ, bᵥ, cᵥ, jₒ, iₒ, kₒ])]⟩,
  -- line 5082: mlij,al,bckm->abcijk
  ⟨1, [g_bbbb [mₒ, lₒ, iₒ, jₒ], t1_bb [aᵥ, lₒ], t2_bbbb [bᵥ, cᵥ, kₒ, mₒ]], [(1, [aᵥ, bᵥ, cᵥ, iₒ, jₒ, kₒ]), (-1, [bᵥ, aᵥ, cᵥ, iₒ, jₒ, kₒ])]⟩,
  -- line 5086: mlij,cl,abkm->abcijk
  ⟨1, [g_bbbb [mₒ, lₒ, iₒ, jₒ], t1_bb [cᵥ, lₒ], t2_bbbb [aᵥ, bᵥ, kₒ, mₒ]], [(1, [aᵥ, bᵥ, cᵥ, iₒ, jₒ, kₒ])]⟩,
  -- line 5089: ladk,dj,bcil->abcijk
  ⟨-1, [g_bbbb [lₒ, aᵥ, dᵥ, kₒ], t1_bb [dᵥ, jₒ], t2_bbbb [bᵥ, cᵥ, iₒ, lₒ]], [(1, [aᵥ, bᵥ, cᵥ, iₒ, jₒ, kₒ]), (-1, [aᵥ, bᵥ, cᵥ, jₒ, iₒ, kₒ]), (-1, [bᵥ, aᵥ, cᵥ, iₒ, jₒ, kₒ]), (1, [bᵥ, aᵥ, cᵥ, jₒ, iₒ, kₒ])]⟩,
  -- line 5093: ladk,bl,dcij->abcijk
  ⟨-1, [g_bbbb [lₒ, aᵥ, dᵥ, kₒ], t1_bb [bᵥ, lₒ], t2_bbbb [dᵥ, cᵥ, iₒ, jₒ]], [(1, [aᵥ, bᵥ, cᵥ, iₒ, jₒ, kₒ]), (-1, [aᵥ, bᵥ, cᵥ, iₒ, kₒ, jₒ]), (-1, [aᵥ, cᵥ, bᵥ, iₒ, jₒ, kₒ]), (1, [aᵥ, cᵥ, bᵥ, iₒ, kₒ, jₒ])]⟩,
  -- line 5097: ladj,dk,bcil->abcijk
  ⟨1, [g_bbbb [lₒ, aᵥ, dᵥ, jₒ], t1_bb [dᵥ, kₒ], t2_bbbb [bᵥ, cᵥ, iₒ, lₒ]], [(1, [aᵥ, bᵥ, cᵥ, iₒ, jₒ, kₒ]), (-1, [aᵥ, bᵥ, cᵥ, kₒ, jₒ, iₒ]), (-1, [bᵥ, aᵥ, cᵥ, iₒ, jₒ, kₒ]), (1, [bᵥ, aᵥ, cᵥ, kₒ, jₒ, iₒ])]⟩,
  -- line 5101: ladi,dk,bcjl->abcijk
  ⟨-1, [g_bbbb [lₒ, aᵥ, dᵥ, iₒ], t1_bb [dᵥ, kₒ], t2_bbbb [bᵥ, cᵥ, jₒ, lₒ]], [(1, [aᵥ, bᵥ, cᵥ, iₒ, jₒ, kₒ]), (-1, [aᵥ, bᵥ, cᵥ, iₒ, kₒ, jₒ]), (-1, [bᵥ, aᵥ, cᵥ, iₒ, jₒ, kₒ]), (1, [bᵥ, aᵥ, cᵥ, iₒ, kₒ, jₒ])]⟩
  ]

/-- Part 1 of `ccsdt_t3_bbbbbb`. -/
def ccsdt_t3_bbbbbb_1 : Prog := [
  -- line 5105: ladi,bl,dcjk->abcijk
  ⟨-1, [g_bbbb [lₒ, aᵥ, dᵥ, iₒ], t1_bb [bᵥ, lₒ], t2_bbbb [dᵥ, cᵥ, jₒ, kₒ]], [(1, [aᵥ, bᵥ, cᵥ, iₒ, jₒ, kₒ]), (-1, [aᵥ, cᵥ, bᵥ, iₒ, jₒ, kₒ])]⟩,
  -- line 5109: lbdk,al,dcij->abcijk
  ⟨1, [g_bbbb [lₒ, bᵥ, dᵥ, kₒ], t1_bb [aᵥ, lₒ], t2_bbbb [dᵥ, cᵥ, iₒ, jₒ]], [(1, [aᵥ, bᵥ, cᵥ, iₒ, jₒ, kₒ]), (-1, [aᵥ, bᵥ, cᵥ, iₒ, kₒ, jₒ]), (-1, [cᵥ, bᵥ, aᵥ, iₒ, jₒ, kₒ]), (1, [cᵥ, bᵥ, aᵥ, iₒ, kₒ, jₒ])]⟩,
  -- line 5113: lbdi,al,dcjk->abcijk
  ⟨1, [g_bbbb [lₒ, bᵥ, dᵥ, iₒ], t1_bb [aᵥ, lₒ], t2_bbbb [dᵥ, cᵥ, jₒ, kₒ]], [(1, [aᵥ, bᵥ, cᵥ, iₒ, jₒ, kₒ]), (-1, [cᵥ, bᵥ, aᵥ, iₒ, jₒ, kₒ])]⟩,
  -- line 5117: lcdk,dj,abil->abcijk
  ⟨-1, [g_bbbb [lₒ, cᵥ, dᵥ, kₒ], t1_bb [dᵥ, jₒ], t2_bbbb [aᵥ, bᵥ, iₒ, lₒ]], [(1, [aᵥ, bᵥ, cᵥ, iₒ, jₒ, kₒ]), (-1, [aᵥ, bᵥ, cᵥ, jₒ, iₒ, kₒ])]⟩,
  -- line 5121: lcdk,al,dbij->abcijk
  ⟨-1, [g_bbbb [lₒ, cᵥ, dᵥ, kₒ], t1_bb [aᵥ, lₒ], t2_bbbb [dᵥ, bᵥ, iₒ, jₒ]], [(1, [aᵥ, bᵥ, cᵥ, iₒ, jₒ, kₒ]), (-1, [aᵥ, bᵥ, cᵥ, iₒ, kₒ, jₒ]), (-1, [bᵥ, aᵥ, cᵥ, iₒ, jₒ, kₒ]), (1, [bᵥ, aᵥ, cᵥ, iₒ, kₒ, jₒ])]⟩,
  -- line 5125: lcdj,dk,abil->abcijk
  ⟨1, [g_bbbb [lₒ, cᵥ, dᵥ, jₒ], t1_bb [dᵥ, kₒ], t2_bbbb [aᵥ, bᵥ, iₒ, lₒ]], [(1, [aᵥ, bᵥ, cᵥ, iₒ, jₒ, kₒ]), (-1, [aᵥ, bᵥ, cᵥ, kₒ, jₒ, iₒ])]⟩,
  -- line 5129: lcdi,dk,abjl->abcijk
  ⟨-1, [g_bbbb [lₒ, cᵥ, dᵥ, iₒ], t1_bb [dᵥ, kₒ], t2_bbbb [aᵥ, bᵥ, jₒ, lₒ]], [(1, [aᵥ, bᵥ, cᵥ, iₒ, jₒ, kₒ]), (-1, [aᵥ, bᵥ, cᵥ, iₒ, kₒ, jₒ])]⟩,
  -- line 5133: lcdi,al,dbjk->abcijk
  ⟨-1, [g_bbbb [lₒ, cᵥ, dᵥ, iₒ], t1_bb [aᵥ, lₒ], t2_bbbb [dᵥ, bᵥ, jₒ, kₒ]], [(1, [aᵥ, bᵥ, cᵥ, iₒ, jₒ, kₒ]), (-1, [bᵥ, aᵥ, cᵥ, iₒ, jₒ, kₒ])]⟩,
  -- line 5137: abde,dk,ecij->abcijk
  ⟨1, [g_bbbb [aᵥ, bᵥ, dᵥ, eᵥ], t1_bb [dᵥ, kₒ], t2_bbbb [eᵥ, cᵥ, iₒ, jₒ]], [(1, [aᵥ, bᵥ, cᵥ, iₒ, jₒ, kₒ]), (-1, [aᵥ, bᵥ, cᵥ, iₒ, kₒ, jₒ]), (-1, [aᵥ, cᵥ, bᵥ, iₒ, jₒ, kₒ]), (1, [aᵥ, cᵥ, bᵥ, iₒ, kₒ, jₒ])]⟩,
  -- line 5141: abde,di,ecjk->abcijk
  ⟨1, [g_bbbb [aᵥ, bᵥ, dᵥ, eᵥ], t1_bb [dᵥ, iₒ], t2_bbbb [eᵥ, cᵥ, jₒ, kₒ]], [(1, [aᵥ, bᵥ, cᵥ, iₒ, jₒ, kₒ]), (-1, [aᵥ, cᵥ, bᵥ, iₒ, jₒ, kₒ])]⟩,
  -- line 5145: bcde,dk,eaij->abcijk
  ⟨1, [g_bbbb [bᵥ, cᵥ, dᵥ, eᵥ], t1_bb [dᵥ, kₒ], t2_bbbb [eᵥ, aᵥ, iₒ, jₒ]], [(1, [aᵥ, bᵥ, cᵥ, iₒ, jₒ, kₒ]), (-1, [aᵥ, bᵥ, cᵥ, iₒ, kₒ, jₒ])]⟩,
  -- line 5149: bcde,di,eajk->abcijk
  ⟨1, [g_bbbb [bᵥ, cᵥ, dᵥ, eᵥ], t1_bb [dᵥ, iₒ], t2_bbbb [eᵥ, aᵥ, jₒ, kₒ]], [(1, [aᵥ, bᵥ, cᵥ, iₒ, jₒ, kₒ])]⟩,
  -- line 5152: lmdk,dl,abcijm->abcijk
  ⟨-1, [g_abab [lₒ, mₒ, dᵥ, kₒ], t1_aa [dᵥ, lₒ], t3_bbbbbb [aᵥ, bᵥ, cᵥ, iₒ, jₒ, mₒ]], [(1, [aᵥ, bᵥ, cᵥ, iₒ, jₒ, kₒ]), (-1, [aᵥ, bᵥ, cᵥ, iₒ, kₒ, jₒ])]⟩,
  -- line 5156: mldk,dl,abcijm->abcijk
  ⟨1, [g_bbbb [mₒ, lₒ, dᵥ, kₒ], t1_bb [dᵥ, lₒ], t3_bbbbbb [aᵥ, bᵥ, cᵥ, iₒ, jₒ, mₒ]], [(1, [aᵥ, bᵥ, cᵥ, iₒ, jₒ, kₒ]), (-1, [aᵥ, bᵥ, cᵥ, iₒ, kₒ, jₒ])]⟩,
  -- line 5160: mldk,dj,abciml->abcijk
  ⟨1/2, [g_bbbb [mₒ, lₒ, dᵥ, kₒ], t1_bb [dᵥ, jₒ], t3_bbbbbb [aᵥ, bᵥ, cᵥ, iₒ, mₒ, lₒ]], [(1, [aᵥ, bᵥ, cᵥ, iₒ, jₒ, kₒ]), (-1, [aᵥ, bᵥ, cᵥ, jₒ, iₒ, kₒ])]⟩,
  -- line 5164: mldk,al,dbcmji->abcijk
  ⟨1, [g_abab [mₒ, lₒ, dᵥ, kₒ], t1_bb [aᵥ, lₒ], t3_abbabb [dᵥ, bᵥ, cᵥ, mₒ, jₒ, iₒ]], [(1, [aᵥ, bᵥ, cᵥ, iₒ, jₒ, kₒ]), (-1, [aᵥ, bᵥ, cᵥ, iₒ, kₒ, jₒ]), (-1, [bᵥ, aᵥ, cᵥ, iₒ, jₒ, kₒ]), (1, [bᵥ, aᵥ, cᵥ, iₒ, kₒ, jₒ])]⟩,
  -- line 5168: mldk,al,dbcijm->abcijk
  ⟨-1, [g_bbbb [mₒ, lₒ, dᵥ, kₒ], t1_bb [aᵥ, lₒ], t3_bbbbbb [dᵥ, bᵥ, cᵥ, iₒ, jₒ, mₒ]], [(1, [aᵥ, bᵥ, cᵥ, iₒ, jₒ, kₒ]), (-1, [aᵥ, bᵥ, cᵥ, iₒ, kₒ, jₒ]), (-1, [bᵥ, aᵥ, cᵥ, iₒ, jₒ, kₒ]), (1, [bᵥ, aᵥ, cᵥ, iₒ, kₒ, jₒ])]⟩,
  -- line 5172: mldk,cl,dabmji->abcijk
  ⟨1, [g_abab [mₒ, lₒ, dᵥ, kₒ], t1_bb [cᵥ, lₒ], t3_abbabb [dᵥ, aᵥ, bᵥ, mₒ, jₒ, iₒ]], [(1, [aᵥ, bᵥ, cᵥ, iₒ, jₒ, kₒ]), (-1, [aᵥ, bᵥ, cᵥ, iₒ, kₒ, jₒ])]⟩,
  -- line 5176: mldk,cl,dabijm->abcijk
  ⟨-1, [g_bbbb [mₒ, lₒ, dᵥ, kₒ], t1_bb [cᵥ, lₒ], t3_bbbbbb [dᵥ, aᵥ, bᵥ, iₒ, jₒ, mₒ]], [(1, [aᵥ, bᵥ, cᵥ, iₒ, jₒ, kₒ]), (-1, [aᵥ, bᵥ, cᵥ, iₒ, kₒ, jₒ])]⟩,
  -- line 5180: mldj,dk,abciml->abcijk
  ⟨-1/2, [g_bbbb [mₒ, lₒ, dᵥ, jₒ], t1_bb [dᵥ, kₒ], t3_bbbbbb [aᵥ, bᵥ, cᵥ, iₒ, mₒ, lₒ]], [(1, [aᵥ, bᵥ, cᵥ, iₒ, jₒ, kₒ]), (-1, [aᵥ, bᵥ, cᵥ, kₒ, jₒ, iₒ])]⟩,
  -- line 5184: lmdi,dl,abcjkm->abcijk
  ⟨-1, [g_abab [lₒ, mₒ, dᵥ, iₒ], t1_aa [dᵥ, lₒ], t3_bbbbbb [aᵥ, bᵥ, cᵥ, jₒ, kₒ, mₒ]], [(1, [aᵥ, bᵥ, cᵥ, iₒ, jₒ, kₒ])]⟩,
  -- line 5187: mldi,dl,abcjkm->abcijk
  ⟨1, [g_bbbb [mₒ, lₒ, dᵥ, iₒ], t1_bb [dᵥ, lₒ], t3_bbbbbb [aᵥ, bᵥ, cᵥ, jₒ, kₒ, mₒ]], [(1, [aᵥ, bᵥ, cᵥ, iₒ, jₒ, kₒ])]⟩,
  -- line 5190: mldi,dk,abcjml->abcijk
  ⟨1/2, [g_bbbb [mₒ, lₒ, dᵥ, iₒ], t1_bb [dᵥ, kₒ], t3_bbbbbb [aᵥ, bᵥ, cᵥ, jₒ, mₒ, lₒ]], [(1, [aᵥ, bᵥ, cᵥ, iₒ, jₒ, kₒ]), (-1, [aᵥ, bᵥ, cᵥ, iₒ, kₒ, jₒ])]⟩,
  -- line 5194: mldi,al,dbcmkj->abcijk
  ⟨1, [g_abab [mₒ, lₒ, dᵥ, iₒ], t1_bb [aᵥ, lₒ], t3_abbabb [dᵥ, bᵥ, cᵥ, mₒ, kₒ, jₒ]], [(1, [aᵥ, bᵥ, cᵥ, iₒ, jₒ, kₒ]), (-1, [bᵥ, aᵥ, cᵥ, iₒ, jₒ, kₒ])]⟩,
  -- line 5198: mldi,al,dbcjkm->abcijk
  ⟨-1, [g_bbbb [mₒ, lₒ, dᵥ, iₒ], t1_bb [aᵥ, lₒ], t3_bbbbbb [dᵥ, bᵥ, cᵥ, jₒ, kₒ, mₒ]], [(1, [aᵥ, bᵥ, cᵥ, iₒ, jₒ, kₒ]), (-1, [bᵥ, aᵥ, cᵥ, iₒ, jₒ, kₒ])]⟩,
  -- line 5202: mldi,cl,dabmkj->abcijk
  ⟨1, [g_abab [mₒ, lₒ, dᵥ, iₒ], t1_bb [cᵥ, lₒ], t3_abbabb [dᵥ, aᵥ, bᵥ, mₒ, kₒ, jₒ]], [(1, [aᵥ, bᵥ, cᵥ, iₒ, jₒ, kₒ])]⟩,
  -- line 5205: mldi,cl,dabjkm->abcijk
  ⟨-1, [g_bbbb [mₒ, lₒ, dᵥ, iₒ], t1_bb [cᵥ, lₒ], t3_bbbbbb [dᵥ, aᵥ, bᵥ, jₒ, kₒ, mₒ]], [(1, [aᵥ, bᵥ, cᵥ, iₒ, jₒ, kₒ])]⟩,
  -- line 5208: lade,dl,ebcijk->abcijk
  ⟨1, [g_abab [lₒ, aᵥ, dᵥ, eᵥ], t1_aa [dᵥ, lₒ], t3_bbbbbb [eᵥ, bᵥ, cᵥ, iₒ, jₒ, kₒ]], [(1, [aᵥ, bᵥ, cᵥ, iₒ, jₒ, kₒ]), (-1, [bᵥ, aᵥ, cᵥ, iₒ, jₒ, kₒ])]⟩,
  -- line 5212: lade,dl,ebcijk->abcijk
  ⟨1, [g_bbbb [lₒ, aᵥ, dᵥ, eᵥ], t1_bb [dᵥ, lₒ], t3_bbbbbb [eᵥ, bᵥ, cᵥ, iₒ, jₒ, kₒ]], [(1, [aᵥ, bᵥ, cᵥ, iₒ, jₒ, kₒ]), (-1, [bᵥ, aᵥ, cᵥ, iₒ, jₒ, kₒ])]⟩,
  -- line 5216: laed,dk,ebclji->abcijk
  ⟨-1, [g_abab [lₒ, aᵥ, eᵥ, dᵥ], t1_bb [dᵥ, kₒ], t3_abbabb [eᵥ, bᵥ, cᵥ, lₒ, jₒ, iₒ]], [(1, [aᵥ, bᵥ, cᵥ, iₒ, jₒ, kₒ]), (-1, [aᵥ, bᵥ, cᵥ, iₒ, kₒ, jₒ]), (-1, [bᵥ, aᵥ, cᵥ, iₒ, jₒ, kₒ]), (1, [bᵥ, aᵥ, cᵥ, iₒ, kₒ, jₒ])]⟩,
  -- line 5220: lade,dk,ebcijl->abcijk
  ⟨-1, [g_bbbb [lₒ, aᵥ, dᵥ, eᵥ], t1_bb [dᵥ, kₒ], t3_bbbbbb [eᵥ, bᵥ, cᵥ, iₒ, jₒ, lₒ]], [(1, [aᵥ, bᵥ, cᵥ, iₒ, jₒ, kₒ]), (-1, [aᵥ, bᵥ, cᵥ, iₒ, kₒ, jₒ]), (-1, [bᵥ, aᵥ, cᵥ, iₒ, jₒ, kₒ]), (1, [bᵥ, aᵥ, cᵥ, iₒ, kₒ, jₒ])]⟩,
  -- line 5224: laed,di,ebclkj->abcijk
  ⟨-1, [g_abab [lₒ, aᵥ, eᵥ, dᵥ], t1_bb [dᵥ, iₒ], t3_abbabb [eᵥ, bᵥ, cᵥ, lₒ, kₒ, jₒ]], [(1, [aᵥ, bᵥ, cᵥ, iₒ, jₒ, kₒ]), (-1, [bᵥ, aᵥ, cᵥ, iₒ, jₒ, kₒ])]⟩,
  -- line 5228: lade,di,ebcjkl->abcijk
  ⟨-1, [g_bbbb [lₒ, aᵥ, dᵥ, eᵥ], t1_bb [dᵥ, iₒ], t3_bbbbbb [eᵥ, bᵥ, cᵥ, jₒ, kₒ, lₒ]], [(1, [aᵥ, bᵥ, cᵥ, iₒ, jₒ, kₒ]), (-1, [bᵥ, aᵥ, cᵥ, iₒ, jₒ, kₒ])]⟩,
  -- line 5232: lade,bl,decijk->abcijk
  ⟨1/2, [g_bbbb [lₒ, aᵥ, dᵥ, eᵥ], t1_bb [bᵥ, lₒ], t3_bbbbbb [dᵥ, eᵥ, cᵥ, iₒ, jₒ, kₒ]], [(1, [aᵥ, bᵥ, cᵥ, iₒ, jₒ, kₒ]), (-1, [aᵥ, cᵥ, bᵥ, iₒ, jₒ, kₒ])]⟩,
  -- line 5236: lbde,al,decijk->abcijk
  ⟨-1/2, [g_bbbb [lₒ, bᵥ, dᵥ, eᵥ], t1_bb [aᵥ, lₒ], t3_bbbbbb [dᵥ, eᵥ, cᵥ, iₒ, jₒ, kₒ]], [(1, [aᵥ, bᵥ, cᵥ, iₒ, jₒ, kₒ]), (-1, [cᵥ, bᵥ, aᵥ, iₒ, jₒ, kₒ])]⟩,
  -- line 5240: lcde,dl,eabijk->abcijk
  ⟨1, [g_abab [lₒ, cᵥ, dᵥ, eᵥ], t1_aa [dᵥ, lₒ], t3_bbbbbb [eᵥ, aᵥ, bᵥ, iₒ, jₒ, kₒ]], [(1, [aᵥ, bᵥ, cᵥ, iₒ, jₒ, kₒ])]⟩,
  -- line 5243: lcde,dl,eabijk->abcijk
  ⟨1, [g_bbbb [lₒ, cᵥ, dᵥ, eᵥ], t1_bb [dᵥ, lₒ], t3_bbbbbb [eᵥ, aᵥ, bᵥ, iₒ, jₒ, kₒ]], [(1, [aᵥ, bᵥ, cᵥ, iₒ, jₒ, kₒ])]⟩,
  -- line 5246: lced,dk,eablji->abcijk
  ⟨-1, [g_abab [lₒ, cᵥ, eᵥ, dᵥ], t1_bb [dᵥ, kₒ], t3_abbabb [eᵥ, aᵥ, bᵥ, lₒ, jₒ, iₒ]], [(1, [aᵥ, bᵥ, cᵥ, iₒ, jₒ, kₒ]), (-1, [aᵥ, bᵥ, cᵥ, iₒ, kₒ, jₒ])]⟩,
  -- line 5250: lcde,dk,eabijl->abcijk
  ⟨-1, [g_bbbb [lₒ, cᵥ, dᵥ, eᵥ], t1_bb [dᵥ, kₒ], t3_bbbbbb [eᵥ, aᵥ, bᵥ, iₒ, jₒ, lₒ]], [(1, [aᵥ, bᵥ, cᵥ, iₒ, jₒ, kₒ]), (-1, [aᵥ, bᵥ, cᵥ, iₒ, kₒ, jₒ])]⟩,
  -- line 5254: lced,di,eablkj->abcijk
  ⟨-1, [g_abab [lₒ, cᵥ, eᵥ, dᵥ], t1_bb [dᵥ, iₒ], t3_abbabb [eᵥ, aᵥ, bᵥ, lₒ, kₒ, jₒ]], [(1, [aᵥ, bᵥ, cᵥ, iₒ, jₒ, kₒ])]⟩
  ]

/-- Part 2 of `ccsdt_t3_bbbbbb`. -/
def ccsdt_t3_bbbbbb_2 : Prog := [
  -- line 5257: lcde,di,eabjkl->abcijk
  ⟨-1, [g_bbbb [lₒ, cᵥ, dᵥ, eᵥ], t1_bb [dᵥ, iₒ], t3_bbbbbb [eᵥ, aᵥ, bᵥ, jₒ, kₒ, lₒ]], [(1, [aᵥ, bᵥ, cᵥ, iₒ, jₒ, kₒ])]⟩,
  -- line 5260: lcde,al,debijk->abcijk
  ⟨1/2, [g_bbbb [lₒ, cᵥ, dᵥ, eᵥ], t1_bb [aᵥ, lₒ], t3_bbbbbb [dᵥ, eᵥ, bᵥ, iₒ, jₒ, kₒ]], [(1, [aᵥ, bᵥ, cᵥ, iₒ, jₒ, kₒ]), (-1, [bᵥ, aᵥ, cᵥ, iₒ, jₒ, kₒ])]⟩,
  -- line 5264: lmde,delk,abcijm->abcijk
  ⟨-1/2, [g_abab [lₒ, mₒ, dᵥ, eᵥ], t2_abab [dᵥ, eᵥ, lₒ, kₒ], t3_bbbbbb [aᵥ, bᵥ, cᵥ, iₒ, jₒ, mₒ]], [(1, [aᵥ, bᵥ, cᵥ, iₒ, jₒ, kₒ]), (-1, [aᵥ, bᵥ, cᵥ, iₒ, kₒ, jₒ])]⟩,
  -- line 5268: lmed,edlk,abcijm->abcijk
  ⟨-1/2, [g_abab [lₒ, mₒ, eᵥ, dᵥ], t2_abab [eᵥ, dᵥ, lₒ, kₒ], t3_bbbbbb [aᵥ, bᵥ, cᵥ, iₒ, jₒ, mₒ]], [(1, [aᵥ, bᵥ, cᵥ, iₒ, jₒ, kₒ]), (-1, [aᵥ, bᵥ, cᵥ, iₒ, kₒ, jₒ])]⟩,
  -- line 5272: mlde,dekl,abcijm->abcijk
  ⟨-1/2, [g_bbbb [mₒ, lₒ, dᵥ, eᵥ], t2_bbbb [dᵥ, eᵥ, kₒ, lₒ], t3_bbbbbb [aᵥ, bᵥ, cᵥ, iₒ, jₒ, mₒ]], [(1, [aᵥ, bᵥ, cᵥ, iₒ, jₒ, kₒ]), (-1, [aᵥ, bᵥ, cᵥ, iₒ, kₒ, jₒ])]⟩,
  -- line 5276: lmde,deli,abcjkm->abcijk
  ⟨-1/2, [g_abab [lₒ, mₒ, dᵥ, eᵥ], t2_abab [dᵥ, eᵥ, lₒ, iₒ], t3_bbbbbb [aᵥ, bᵥ, cᵥ, jₒ, kₒ, mₒ]], [(1, [aᵥ, bᵥ, cᵥ, iₒ, jₒ, kₒ])]⟩,
  -- line 5279: lmed,edli,abcjkm->abcijk
  ⟨-1/2, [g_abab [lₒ, mₒ, eᵥ, dᵥ], t2_abab [eᵥ, dᵥ, lₒ, iₒ], t3_bbbbbb [aᵥ, bᵥ, cᵥ, jₒ, kₒ, mₒ]], [(1, [aᵥ, bᵥ, cᵥ, iₒ, jₒ, kₒ])]⟩,
  -- line 5282: mlde,deil,abcjkm->abcijk
  ⟨-1/2, [g_bbbb [mₒ, lₒ, dᵥ, eᵥ], t2_bbbb [dᵥ, eᵥ, iₒ, lₒ], t3_bbbbbb [aᵥ, bᵥ, cᵥ, jₒ, kₒ, mₒ]], [(1, [aᵥ, bᵥ, cᵥ, iₒ, jₒ, kₒ])]⟩,
  -- line 5285: mlde,dejk,abciml->abcijk
  ⟨1/4, [g_bbbb [mₒ, lₒ, dᵥ, eᵥ], t2_bbbb [dᵥ, eᵥ, jₒ, kₒ], t3_bbbbbb [aᵥ, bᵥ, cᵥ, iₒ, mₒ, lₒ]], [(1, [aᵥ, bᵥ, cᵥ, iₒ, jₒ, kₒ]), (-1, [aᵥ, bᵥ, cᵥ, jₒ, iₒ, kₒ])]⟩,
  -- line 5289: mlde,deij,abckml->abcijk
  ⟨1/4, [g_bbbb [mₒ, lₒ, dᵥ, eᵥ], t2_bbbb [dᵥ, eᵥ, iₒ, jₒ], t3_bbbbbb [aᵥ, bᵥ, cᵥ, kₒ, mₒ, lₒ]], [(1, [aᵥ, bᵥ, cᵥ, iₒ, jₒ, kₒ])]⟩,
  -- line 5292: mlde,daml,ebcijk->abcijk
  ⟨-1/2, [g_abab [mₒ, lₒ, dᵥ, eᵥ], t2_abab [dᵥ, aᵥ, mₒ, lₒ], t3_bbbbbb [eᵥ, bᵥ, cᵥ, iₒ, jₒ, kₒ]], [(1, [aᵥ, bᵥ, cᵥ, iₒ, jₒ, kₒ]), (-1, [bᵥ, aᵥ, cᵥ, iₒ, jₒ, kₒ])]⟩,
  -- line 5296: lmde,dalm,ebcijk->abcijk
  ⟨-1/2, [g_abab [lₒ, mₒ, dᵥ, eᵥ], t2_abab [dᵥ, aᵥ, lₒ, mₒ], t3_bbbbbb [eᵥ, bᵥ, cᵥ, iₒ, jₒ, kₒ]], [(1, [aᵥ, bᵥ, cᵥ, iₒ, jₒ, kₒ]), (-1, [bᵥ, aᵥ, cᵥ, iₒ, jₒ, kₒ])]⟩,
  -- line 5300: mlde,daml,ebcijk->abcijk
  ⟨-1/2, [g_bbbb [mₒ, lₒ, dᵥ, eᵥ], t2_bbbb [dᵥ, aᵥ, mₒ, lₒ], t3_bbbbbb [eᵥ, bᵥ, cᵥ, iₒ, jₒ, kₒ]], [(1, [aᵥ, bᵥ, cᵥ, iₒ, jₒ, kₒ]), (-1, [bᵥ, aᵥ, cᵥ, iₒ, jₒ, kₒ])]⟩,
  -- line 5304: mlde,dalk,ebcmji->abcijk
  ⟨100000000000001/100000000000000, [g_aaaa [mₒ, lₒ, dᵥ, eᵥ], t2_abab [dᵥ, aᵥ, lₒ, kₒ], t3_abbabb [eᵥ, bᵥ, cᵥ, mₒ, jₒ, iₒ]], [(1, [aᵥ, bᵥ, cᵥ, iₒ, jₒ, kₒ]), (-1, [aᵥ, bᵥ, cᵥ, iₒ, kₒ, jₒ]), (-1, [bᵥ, aᵥ, cᵥ, iₒ, jₒ, kₒ]), (1, [bᵥ, aᵥ, cᵥ, iₒ, kₒ, jₒ])]⟩,
  -- line 5308: lmde,dalk,ebcijm->abcijk
  ⟨100000000000001/100000000000000, [g_abab [lₒ, mₒ, dᵥ, eᵥ], t2_abab [dᵥ, aᵥ, lₒ, kₒ], t3_bbbbbb [eᵥ, bᵥ, cᵥ, iₒ, jₒ, mₒ]], [(1, [aᵥ, bᵥ, cᵥ, iₒ, jₒ, kₒ]), (-1, [aᵥ, bᵥ, cᵥ, iₒ, kₒ, jₒ]), (-1, [bᵥ, aᵥ, cᵥ, iₒ, jₒ, kₒ]), (1, [bᵥ, aᵥ, cᵥ, iₒ, kₒ, jₒ])]⟩,
  -- line 5312: mled,dakl,ebcmji->abcijk
  ⟨100000000000001/100000000000000, [g_abab [mₒ, lₒ, eᵥ, dᵥ], t2_bbbb [dᵥ, aᵥ, kₒ, lₒ], t3_abbabb [eᵥ, bᵥ, cᵥ, mₒ, jₒ, iₒ]], [(1, [aᵥ, bᵥ, cᵥ, iₒ, jₒ, kₒ]), (-1, [aᵥ, bᵥ, cᵥ, iₒ, kₒ, jₒ]), (-1, [bᵥ, aᵥ, cᵥ, iₒ, jₒ, kₒ]), (1, [bᵥ, aᵥ, cᵥ, iₒ, kₒ, jₒ])]⟩,
  -- line 5316: mlde,dakl,ebcijm->abcijk
  ⟨100000000000001/100000000000000, [g_bbbb [mₒ, lₒ, dᵥ, eᵥ], t2_bbbb [dᵥ, aᵥ, kₒ, lₒ], t3_bbbbbb [eᵥ, bᵥ, cᵥ, iₒ, jₒ, mₒ]], [(1, [aᵥ, bᵥ, cᵥ, iₒ, jₒ, kₒ]), (-1, [aᵥ, bᵥ, cᵥ, iₒ, kₒ, jₒ]), (-1, [bᵥ, aᵥ, cᵥ, iₒ, jₒ, kₒ]), (1, [bᵥ, aᵥ, cᵥ, iₒ, kₒ, jₒ])]⟩,
  -- line 5320: mlde,dali,ebcmkj->abcijk
  ⟨100000000000001/100000000000000, [g_aaaa [mₒ, lₒ, dᵥ, eᵥ], t2_abab [dᵥ, aᵥ, lₒ, iₒ], t3_abbabb [eᵥ, bᵥ, cᵥ, mₒ, kₒ, jₒ]], [(1, [aᵥ, bᵥ, cᵥ, iₒ, jₒ, kₒ]), (-1, [bᵥ, aᵥ, cᵥ, iₒ, jₒ, kₒ])]⟩,
  -- line 5324: lmde,dali,ebcjkm->abcijk
  ⟨100000000000001/100000000000000, [g_abab [lₒ, mₒ, dᵥ, eᵥ], t2_abab [dᵥ, aᵥ, lₒ, iₒ], t3_bbbbbb [eᵥ, bᵥ, cᵥ, jₒ, kₒ, mₒ]], [(1, [aᵥ, bᵥ, cᵥ, iₒ, jₒ, kₒ]), (-1, [bᵥ, aᵥ, cᵥ, iₒ, jₒ, kₒ])]⟩,
  -- line 5328: mled,dail,ebcmkj->abcijk
  ⟨100000000000001/100000000000000, [g_abab [mₒ, lₒ, eᵥ, dᵥ], t2_bbbb [dᵥ, aᵥ, iₒ, lₒ], t3_abbabb [eᵥ, bᵥ, cᵥ, mₒ, kₒ, jₒ]], [(1, [aᵥ, bᵥ, cᵥ, iₒ, jₒ, kₒ]), (-1, [bᵥ, aᵥ, cᵥ, iₒ, jₒ, kₒ])]⟩,
  -- line 5332: mlde,dail,ebcjkm->abcijk
  ⟨100000000000001/100000000000000, [g_bbbb [mₒ, lₒ, dᵥ, eᵥ], t2_bbbb [dᵥ, aᵥ, iₒ, lₒ], t3_bbbbbb [eᵥ, bᵥ, cᵥ, jₒ, kₒ, mₒ]], [(1, [aᵥ, bᵥ, cᵥ, iₒ, jₒ, kₒ]), (-1, [bᵥ, aᵥ, cᵥ, iₒ, jₒ, kₒ])]⟩,
  -- line 5336: mled,dajk,ebcmil->abcijk
  ⟨-1/2, [g_abab [mₒ, lₒ, eᵥ, dᵥ], t2_bbbb [dᵥ, aᵥ, jₒ, kₒ], t3_abbabb [eᵥ, bᵥ, cᵥ, mₒ, iₒ, lₒ]], [(1, [aᵥ, bᵥ, cᵥ, iₒ, jₒ, kₒ]), (-1, [aᵥ, bᵥ, cᵥ, jₒ, iₒ, kₒ]), (-1, [bᵥ, aᵥ, cᵥ, iₒ, jₒ, kₒ]), (1, [bᵥ, aᵥ, cᵥ, jₒ, iₒ, kₒ])]⟩,
  -- line 5340: lmed,dajk,ebclmi->abcijk
  ⟨1/2, [g_abab [lₒ, mₒ, eᵥ, dᵥ], t2_bbbb [dᵥ, aᵥ, jₒ, kₒ], t3_abbabb [eᵥ, bᵥ, cᵥ, lₒ, mₒ, iₒ]], [(1, [aᵥ, bᵥ, cᵥ, iₒ, jₒ, kₒ]), (-1, [aᵥ, bᵥ, cᵥ, jₒ, iₒ, kₒ]), (-1, [bᵥ, aᵥ, cᵥ, iₒ, jₒ, kₒ]), (1, [bᵥ, aᵥ, cᵥ, jₒ, iₒ, kₒ])]⟩,
  -- line 5344: mlde,dajk,ebciml->abcijk
  ⟨-1/2, [g_bbbb [mₒ, lₒ, dᵥ, eᵥ], t2_bbbb [dᵥ, aᵥ, jₒ, kₒ], t3_bbbbbb [eᵥ, bᵥ, cᵥ, iₒ, mₒ, lₒ]], [(1, [aᵥ, bᵥ, cᵥ, iₒ, jₒ, kₒ]), (-1, [aᵥ, bᵥ, cᵥ, jₒ, iₒ, kₒ]), (-1, [bᵥ, aᵥ, cᵥ, iₒ, jₒ, kₒ]), (1, [bᵥ, aᵥ, cᵥ, jₒ, iₒ, kₒ])]⟩,
  -- line 5348: mled,daij,ebcmkl->abcijk
  ⟨-1/2, [g_abab [mₒ, lₒ, eᵥ, dᵥ], t2_bbbb [dᵥ, aᵥ, iₒ, jₒ], t3_abbabb [eᵥ, bᵥ, cᵥ, mₒ, kₒ, lₒ]], [(1, [aᵥ, bᵥ, cᵥ, iₒ, jₒ, kₒ]), (-1, [bᵥ, aᵥ, cᵥ, iₒ, jₒ, kₒ])]⟩,
  -- line 5352: lmed,daij,ebclmk->abcijk
  ⟨1/2, [g_abab [lₒ, mₒ, eᵥ, dᵥ], t2_bbbb [dᵥ, aᵥ, iₒ, jₒ], t3_abbabb [eᵥ, bᵥ, cᵥ, lₒ, mₒ, kₒ]], [(1, [aᵥ, bᵥ, cᵥ, iₒ, jₒ, kₒ]), (-1, [bᵥ, aᵥ, cᵥ, iₒ, jₒ, kₒ])]⟩,
  -- line 5356: mlde,daij,ebckml->abcijk
  ⟨-1/2, [g_bbbb [mₒ, lₒ, dᵥ, eᵥ], t2_bbbb [dᵥ, aᵥ, iₒ, jₒ], t3_bbbbbb [eᵥ, bᵥ, cᵥ, kₒ, mₒ, lₒ]], [(1, [aᵥ, bᵥ, cᵥ, iₒ, jₒ, kₒ]), (-1, [bᵥ, aᵥ, cᵥ, iₒ, jₒ, kₒ])]⟩,
  -- line 5360: mlde,dcml,eabijk->abcijk
  ⟨-1/2, [g_abab [mₒ, lₒ, dᵥ, eᵥ], t2_abab [dᵥ, cᵥ, mₒ, lₒ], t3_bbbbbb [eᵥ, aᵥ, bᵥ, iₒ, jₒ, kₒ]], [(1, [aᵥ, bᵥ, cᵥ, iₒ, jₒ, kₒ])]⟩,
  -- line 5363: lmde,dclm,eabijk->abcijk
  ⟨-1/2, [g_abab [lₒ, mₒ, dᵥ, eᵥ], t2_abab [dᵥ, cᵥ, lₒ, mₒ], t3_bbbbbb [eᵥ, aᵥ, bᵥ, iₒ, jₒ, kₒ]], [(1, [aᵥ, bᵥ, cᵥ, iₒ, jₒ, kₒ])]⟩,
  -- line 5366: mlde,dcml,eabijk->abcijk
  ⟨-1/2, [g_bbbb [mₒ, lₒ, dᵥ, eᵥ], t2_bbbb [dᵥ, cᵥ, mₒ, lₒ], t3_bbbbbb [eᵥ, aᵥ, bᵥ, iₒ, jₒ, kₒ]], [(1, [aᵥ, bᵥ, cᵥ, iₒ, jₒ, kₒ])]⟩,
  -- line 5369: mlde,dclk,eabmji->abcijk
  ⟨100000000000001/100000000000000, [g_aaaa [mₒ, lₒ, dᵥ, eᵥ], t2_abab [dᵥ, cᵥ, lₒ, kₒ], t3_abbabb [eᵥ, aᵥ, bᵥ, mₒ, jₒ, iₒ]], [(1, [aᵥ, bᵥ, cᵥ, iₒ, jₒ, kₒ]), (-1, [aᵥ, bᵥ, cᵥ, iₒ, kₒ, jₒ])]⟩,
  -- line 5373: lmde,dclk,eabijm->abcijk
  ⟨100000000000001/100000000000000, [g_abab [lₒ, mₒ, dᵥ, eᵥ], t2_abab [dᵥ, cᵥ, lₒ, kₒ], t3_bbbbbb [eᵥ, aᵥ, bᵥ, iₒ, jₒ, mₒ]], [(1, [aᵥ, bᵥ, cᵥ, iₒ, jₒ, kₒ]), (-1, [aᵥ, bᵥ, cᵥ, iₒ, kₒ, jₒ])]⟩,
  -- line 5377: mled,dckl,eabmji->abcijk
  ⟨100000000000001/100000000000000, [g_abab [mₒ, lₒ, eᵥ, dᵥ], t2_bbbb [dᵥ, cᵥ, kₒ, lₒ], t3_abbabb [eᵥ, aᵥ, bᵥ, mₒ, jₒ, iₒ]], [(1, [aᵥ, bᵥ, cᵥ, iₒ, jₒ, kₒ]), (-1, [aᵥ, bᵥ, cᵥ, iₒ, kₒ, jₒ])]⟩,
  -- line 5381: mlde,dckl,eabijm->abcijk
  ⟨100000000000001/100000000000000, [g_bbbb [mₒ, lₒ, dᵥ, eᵥ], t2_bbbb [dᵥ, cᵥ, kₒ, lₒ], t3_bbbbbb [eᵥ, aᵥ, bᵥ, iₒ, jₒ, mₒ]], [(1, [aᵥ, bᵥ, cᵥ, iₒ, jₒ, kₒ]), (-1, [aᵥ, bᵥ, cᵥ, iₒ, kₒ, jₒ])]⟩,
  -- line 5385: mlde,dcli,eabmkj->abcijk
  ⟨100000000000001/100000000000000, [g_aaaa [mₒ, lₒ, dᵥ, eᵥ], t2_abab [dᵥ, cᵥ, lₒ, iₒ], t3_abbabb [eᵥ, aᵥ, bᵥ, mₒ, kₒ, jₒ]], [(1, [aᵥ, bᵥ, cᵥ, iₒ, jₒ, kₒ])]⟩,
  -- line 5388: lmde,dcli,eabjkm->abcijk
  ⟨100000000000001/100000000000000, [g_abab [lₒ, mₒ, dᵥ, eᵥ], t2_abab [dᵥ, cᵥ, lₒ, iₒ], t3_bbbbbb [eᵥ, aᵥ, bᵥ, jₒ, kₒ, mₒ]], [(1, [aᵥ, bᵥ, cᵥ, iₒ, jₒ, kₒ])]⟩,
  -- line 5391: mled,dcil,eabmkj->abcijk
  ⟨100000000000001/100000000000000, [g_abab [mₒ, lₒ, eᵥ, dᵥ], t2_bbbb [dᵥ, cᵥ, iₒ, lₒ], t3_abbabb [eᵥ, aᵥ, bᵥ, mₒ, kₒ, jₒ]], [(1, [aᵥ, bᵥ, cᵥ, iₒ, jₒ, kₒ])]⟩,
  -- line 5394: mlde,dcil,eabjkm->abcijk
  ⟨100000000000001/100000000000000, [g_bbbb [mₒ, lₒ, dᵥ, eᵥ], t2_bbbb [dᵥ, cᵥ, iₒ, lₒ], t3_bbbbbb [eᵥ, aᵥ, bᵥ, jₒ, kₒ, mₒ]], [(1, [aᵥ, bᵥ, cᵥ, iₒ, jₒ, kₒ])]⟩,
  -- line 5397: mled,dcjk,eabmil->abcijk
  ⟨-1/2, [g_abab [mₒ, lₒ, eᵥ, dᵥ], t2_bbbb [dᵥ, cᵥ, jₒ, kₒ], t3_abbabb [eᵥ, aᵥ, bᵥ, mₒ, iₒ, lₒ]], [(1, [aᵥ, bᵥ, cᵥ, iₒ, jₒ, kₒ]), (-1, [aᵥ, bᵥ, cᵥ, jₒ, iₒ, kₒ])]⟩,
  -- line 5401: lmed,dcjk,eablmi->abcijk
  ⟨1/2, [g_abab [lₒ, mₒ, eᵥ, dᵥ], t2_bbbb [dᵥ, cᵥ, jₒ, kₒ], t3_abbabb [eᵥ, aᵥ, bᵥ, lₒ, mₒ, iₒ]], [(1, [aᵥ, bᵥ, cᵥ, iₒ, jₒ, kₒ]), (-1, [aᵥ, bᵥ, cᵥ, jₒ, iₒ, kₒ])]⟩
  ]

/-- Part 3 of `ccsdt_t3_bbbbbb`. -/
def ccsdt_t3_bbbbbb_3 : Prog := [
  -- line 5405: mlde,dcjk,eabiml->abcijk
  ⟨-1/2, [g_bbbb [mₒ, lₒ, dᵥ, eᵥ], t2_bbbb [dᵥ, cᵥ, jₒ, kₒ], t3_bbbbbb [eᵥ, aᵥ, bᵥ, iₒ, mₒ, lₒ]], [(1, [aᵥ, bᵥ, cᵥ, iₒ, jₒ, kₒ]), (-1, [aᵥ, bᵥ, cᵥ, jₒ, iₒ, kₒ])]⟩,
  -- line 5409: mled,dcij,eabmkl->abcijk
  ⟨-1/2, [g_abab [mₒ, lₒ, eᵥ, dᵥ], t2_bbbb [dᵥ, cᵥ, iₒ, jₒ], t3_abbabb [eᵥ, aᵥ, bᵥ, mₒ, kₒ, lₒ]], [(1, [aᵥ, bᵥ, cᵥ, iₒ, jₒ, kₒ])]⟩,
  -- line 5412: lmed,dcij,eablmk->abcijk
  ⟨1/2, [g_abab [lₒ, mₒ, eᵥ, dᵥ], t2_bbbb [dᵥ, cᵥ, iₒ, jₒ], t3_abbabb [eᵥ, aᵥ, bᵥ, lₒ, mₒ, kₒ]], [(1, [aᵥ, bᵥ, cᵥ, iₒ, jₒ, kₒ])]⟩,
  -- line 5415: mlde,dcij,eabkml->abcijk
  ⟨-1/2, [g_bbbb [mₒ, lₒ, dᵥ, eᵥ], t2_bbbb [dᵥ, cᵥ, iₒ, jₒ], t3_bbbbbb [eᵥ, aᵥ, bᵥ, kₒ, mₒ, lₒ]], [(1, [aᵥ, bᵥ, cᵥ, iₒ, jₒ, kₒ])]⟩,
  -- line 5418: mlde,abml,decijk->abcijk
  ⟨1/4, [g_bbbb [mₒ, lₒ, dᵥ, eᵥ], t2_bbbb [aᵥ, bᵥ, mₒ, lₒ], t3_bbbbbb [dᵥ, eᵥ, cᵥ, iₒ, jₒ, kₒ]], [(1, [aᵥ, bᵥ, cᵥ, iₒ, jₒ, kₒ]), (-1, [aᵥ, cᵥ, bᵥ, iₒ, jₒ, kₒ])]⟩,
  -- line 5422: mlde,abkl,decmji->abcijk
  ⟨1/2, [g_abab [mₒ, lₒ, dᵥ, eᵥ], t2_bbbb [aᵥ, bᵥ, kₒ, lₒ], t3_abbabb [dᵥ, eᵥ, cᵥ, mₒ, jₒ, iₒ]], [(1, [aᵥ, bᵥ, cᵥ, iₒ, jₒ, kₒ]), (-1, [aᵥ, bᵥ, cᵥ, iₒ, kₒ, jₒ]), (-1, [aᵥ, cᵥ, bᵥ, iₒ, jₒ, kₒ]), (1, [aᵥ, cᵥ, bᵥ, iₒ, kₒ, jₒ])]⟩,
  -- line 5426: mled,abkl,edcmji->abcijk
  ⟨1/2, [g_abab [mₒ, lₒ, eᵥ, dᵥ], t2_bbbb [aᵥ, bᵥ, kₒ, lₒ], t3_abbabb [eᵥ, dᵥ, cᵥ, mₒ, jₒ, iₒ]], [(1, [aᵥ, bᵥ, cᵥ, iₒ, jₒ, kₒ]), (-1, [aᵥ, bᵥ, cᵥ, iₒ, kₒ, jₒ]), (-1, [aᵥ, cᵥ, bᵥ, iₒ, jₒ, kₒ]), (1, [aᵥ, cᵥ, bᵥ, iₒ, kₒ, jₒ])]⟩,
  -- line 5430: mlde,abkl,decijm->abcijk
  ⟨-1/2, [g_bbbb [mₒ, lₒ, dᵥ, eᵥ], t2_bbbb [aᵥ, bᵥ, kₒ, lₒ], t3_bbbbbb [dᵥ, eᵥ, cᵥ, iₒ, jₒ, mₒ]], [(1, [aᵥ, bᵥ, cᵥ, iₒ, jₒ, kₒ]), (-1, [aᵥ, bᵥ, cᵥ, iₒ, kₒ, jₒ]), (-1, [aᵥ, cᵥ, bᵥ, iₒ, jₒ, kₒ]), (1, [aᵥ, cᵥ, bᵥ, iₒ, kₒ, jₒ])]⟩,
  -- line 5434: mlde,abil,decmkj->abcijk
  ⟨1/2, [g_abab [mₒ, lₒ, dᵥ, eᵥ], t2_bbbb [aᵥ, bᵥ, iₒ, lₒ], t3_abbabb [dᵥ, eᵥ, cᵥ, mₒ, kₒ, jₒ]], [(1, [aᵥ, bᵥ, cᵥ, iₒ, jₒ, kₒ]), (-1, [aᵥ, cᵥ, bᵥ, iₒ, jₒ, kₒ])]⟩,
  -- line 5438: mled,abil,edcmkj->abcijk
  ⟨1/2, [g_abab [mₒ, lₒ, eᵥ, dᵥ], t2_bbbb [aᵥ, bᵥ, iₒ, lₒ], t3_abbabb [eᵥ, dᵥ, cᵥ, mₒ, kₒ, jₒ]], [(1, [aᵥ, bᵥ, cᵥ, iₒ, jₒ, kₒ]), (-1, [aᵥ, cᵥ, bᵥ, iₒ, jₒ, kₒ])]⟩,
  -- line 5442: mlde,abil,decjkm->abcijk
  ⟨-1/2, [g_bbbb [mₒ, lₒ, dᵥ, eᵥ], t2_bbbb [aᵥ, bᵥ, iₒ, lₒ], t3_bbbbbb [dᵥ, eᵥ, cᵥ, jₒ, kₒ, mₒ]], [(1, [aᵥ, bᵥ, cᵥ, iₒ, jₒ, kₒ]), (-1, [aᵥ, cᵥ, bᵥ, iₒ, jₒ, kₒ])]⟩,
  -- line 5446: mlde,bcml,deaijk->abcijk
  ⟨1/4, [g_bbbb [mₒ, lₒ, dᵥ, eᵥ], t2_bbbb [bᵥ, cᵥ, mₒ, lₒ], t3_bbbbbb [dᵥ, eᵥ, aᵥ, iₒ, jₒ, kₒ]], [(1, [aᵥ, bᵥ, cᵥ, iₒ, jₒ, kₒ])]⟩,
  -- line 5449: mlde,bckl,deamji->abcijk
  ⟨1/2, [g_abab [mₒ, lₒ, dᵥ, eᵥ], t2_bbbb [bᵥ, cᵥ, kₒ, lₒ], t3_abbabb [dᵥ, eᵥ, aᵥ, mₒ, jₒ, iₒ]], [(1, [aᵥ, bᵥ, cᵥ, iₒ, jₒ, kₒ]), (-1, [aᵥ, bᵥ, cᵥ, iₒ, kₒ, jₒ])]⟩,
  -- line 5453: mled,bckl,edamji->abcijk
  ⟨1/2, [g_abab [mₒ, lₒ, eᵥ, dᵥ], t2_bbbb [bᵥ, cᵥ, kₒ, lₒ], t3_abbabb [eᵥ, dᵥ, aᵥ, mₒ, jₒ, iₒ]], [(1, [aᵥ, bᵥ, cᵥ, iₒ, jₒ, kₒ]), (-1, [aᵥ, bᵥ, cᵥ, iₒ, kₒ, jₒ])]⟩,
  -- line 5457: mlde,bckl,deaijm->abcijk
  ⟨-1/2, [g_bbbb [mₒ, lₒ, dᵥ, eᵥ], t2_bbbb [bᵥ, cᵥ, kₒ, lₒ], t3_bbbbbb [dᵥ, eᵥ, aᵥ, iₒ, jₒ, mₒ]], [(1, [aᵥ, bᵥ, cᵥ, iₒ, jₒ, kₒ]), (-1, [aᵥ, bᵥ, cᵥ, iₒ, kₒ, jₒ])]⟩,
  -- line 5461: mlde,bcil,deamkj->abcijk
  ⟨1/2, [g_abab [mₒ, lₒ, dᵥ, eᵥ], t2_bbbb [bᵥ, cᵥ, iₒ, lₒ], t3_abbabb [dᵥ, eᵥ, aᵥ, mₒ, kₒ, jₒ]], [(1, [aᵥ, bᵥ, cᵥ, iₒ, jₒ, kₒ])]⟩,
  -- line 5464: mled,bcil,edamkj->abcijk
  ⟨1/2, [g_abab [mₒ, lₒ, eᵥ, dᵥ], t2_bbbb [bᵥ, cᵥ, iₒ, lₒ], t3_abbabb [eᵥ, dᵥ, aᵥ, mₒ, kₒ, jₒ]], [(1, [aᵥ, bᵥ, cᵥ, iₒ, jₒ, kₒ])]⟩,
  -- line 5467: mlde,bcil,deajkm->abcijk
  ⟨-1/2, [g_bbbb [mₒ, lₒ, dᵥ, eᵥ], t2_bbbb [bᵥ, cᵥ, iₒ, lₒ], t3_bbbbbb [dᵥ, eᵥ, aᵥ, jₒ, kₒ, mₒ]], [(1, [aᵥ, bᵥ, cᵥ, iₒ, jₒ, kₒ])]⟩,
  -- line 5470: lmdk,dalj,bcim->abcijk
  ⟨1, [g_abab [lₒ, mₒ, dᵥ, kₒ], t2_abab [dᵥ, aᵥ, lₒ, jₒ], t2_bbbb [bᵥ, cᵥ, iₒ, mₒ]], [(1, [aᵥ, bᵥ, cᵥ, iₒ, jₒ, kₒ]), (-1, [aᵥ, bᵥ, cᵥ, jₒ, iₒ, kₒ]), (-1, [bᵥ, aᵥ, cᵥ, iₒ, jₒ, kₒ]), (1, [bᵥ, aᵥ, cᵥ, jₒ, iₒ, kₒ])]⟩,
  -- line 5474: mldk,dajl,bcim->abcijk
  ⟨1, [g_bbbb [mₒ, lₒ, dᵥ, kₒ], t2_bbbb [dᵥ, aᵥ, jₒ, lₒ], t2_bbbb [bᵥ, cᵥ, iₒ, mₒ]], [(1, [aᵥ, bᵥ, cᵥ, iₒ, jₒ, kₒ]), (-1, [aᵥ, bᵥ, cᵥ, jₒ, iₒ, kₒ]), (-1, [bᵥ, aᵥ, cᵥ, iₒ, jₒ, kₒ]), (1, [bᵥ, aᵥ, cᵥ, jₒ, iₒ, kₒ])]⟩,
  -- line 5478: mldk,daij,bcml->abcijk
  ⟨-1/2, [g_bbbb [mₒ, lₒ, dᵥ, kₒ], t2_bbbb [dᵥ, aᵥ, iₒ, jₒ], t2_bbbb [bᵥ, cᵥ, mₒ, lₒ]], [(1, [aᵥ, bᵥ, cᵥ, iₒ, jₒ, kₒ]), (-1, [aᵥ, bᵥ, cᵥ, iₒ, kₒ, jₒ]), (-1, [bᵥ, aᵥ, cᵥ, iₒ, jₒ, kₒ]), (1, [bᵥ, aᵥ, cᵥ, iₒ, kₒ, jₒ])]⟩,
  -- line 5482: lmdk,dclj,abim->abcijk
  ⟨1, [g_abab [lₒ, mₒ, dᵥ, kₒ], t2_abab [dᵥ, cᵥ, lₒ, jₒ], t2_bbbb [aᵥ, bᵥ, iₒ, mₒ]], [(1, [aᵥ, bᵥ, cᵥ, iₒ, jₒ, kₒ]), (-1, [aᵥ, bᵥ, cᵥ, jₒ, iₒ, kₒ])]⟩,
  -- line 5486: mldk,dcjl,abim->abcijk
  ⟨1, [g_bbbb [mₒ, lₒ, dᵥ, kₒ], t2_bbbb [dᵥ, cᵥ, jₒ, lₒ], t2_bbbb [aᵥ, bᵥ, iₒ, mₒ]], [(1, [aᵥ, bᵥ, cᵥ, iₒ, jₒ, kₒ]), (-1, [aᵥ, bᵥ, cᵥ, jₒ, iₒ, kₒ])]⟩,
  -- line 5490: mldk,dcij,abml->abcijk
  ⟨-1/2, [g_bbbb [mₒ, lₒ, dᵥ, kₒ], t2_bbbb [dᵥ, cᵥ, iₒ, jₒ], t2_bbbb [aᵥ, bᵥ, mₒ, lₒ]], [(1, [aᵥ, bᵥ, cᵥ, iₒ, jₒ, kₒ]), (-1, [aᵥ, bᵥ, cᵥ, iₒ, kₒ, jₒ])]⟩,
  -- line 5494: lmdj,dalk,bcim->abcijk
  ⟨-1, [g_abab [lₒ, mₒ, dᵥ, jₒ], t2_abab [dᵥ, aᵥ, lₒ, kₒ], t2_bbbb [bᵥ, cᵥ, iₒ, mₒ]], [(1, [aᵥ, bᵥ, cᵥ, iₒ, jₒ, kₒ]), (-1, [aᵥ, bᵥ, cᵥ, kₒ, jₒ, iₒ]), (-1, [bᵥ, aᵥ, cᵥ, iₒ, jₒ, kₒ]), (1, [bᵥ, aᵥ, cᵥ, kₒ, jₒ, iₒ])]⟩,
  -- line 5498: mldj,dakl,bcim->abcijk
  ⟨-1, [g_bbbb [mₒ, lₒ, dᵥ, jₒ], t2_bbbb [dᵥ, aᵥ, kₒ, lₒ], t2_bbbb [bᵥ, cᵥ, iₒ, mₒ]], [(1, [aᵥ, bᵥ, cᵥ, iₒ, jₒ, kₒ]), (-1, [aᵥ, bᵥ, cᵥ, kₒ, jₒ, iₒ]), (-1, [bᵥ, aᵥ, cᵥ, iₒ, jₒ, kₒ]), (1, [bᵥ, aᵥ, cᵥ, kₒ, jₒ, iₒ])]⟩,
  -- line 5502: lmdj,dclk,abim->abcijk
  ⟨-1, [g_abab [lₒ, mₒ, dᵥ, jₒ], t2_abab [dᵥ, cᵥ, lₒ, kₒ], t2_bbbb [aᵥ, bᵥ, iₒ, mₒ]], [(1, [aᵥ, bᵥ, cᵥ, iₒ, jₒ, kₒ]), (-1, [aᵥ, bᵥ, cᵥ, kₒ, jₒ, iₒ])]⟩,
  -- line 5506: mldj,dckl,abim->abcijk
  ⟨-1, [g_bbbb [mₒ, lₒ, dᵥ, jₒ], t2_bbbb [dᵥ, cᵥ, kₒ, lₒ], t2_bbbb [aᵥ, bᵥ, iₒ, mₒ]], [(1, [aᵥ, bᵥ, cᵥ, iₒ, jₒ, kₒ]), (-1, [aᵥ, bᵥ, cᵥ, kₒ, jₒ, iₒ])]⟩,
  -- line 5510: lmdi,dalk,bcjm->abcijk
  ⟨1, [g_abab [lₒ, mₒ, dᵥ, iₒ], t2_abab [dᵥ, aᵥ, lₒ, kₒ], t2_bbbb [bᵥ, cᵥ, jₒ, mₒ]], [(1, [aᵥ, bᵥ, cᵥ, iₒ, jₒ, kₒ]), (-1, [aᵥ, bᵥ, cᵥ, iₒ, kₒ, jₒ]), (-1, [bᵥ, aᵥ, cᵥ, iₒ, jₒ, kₒ]), (1, [bᵥ, aᵥ, cᵥ, iₒ, kₒ, jₒ])]⟩,
  -- line 5514: mldi,dakl,bcjm->abcijk
  ⟨1, [g_bbbb [mₒ, lₒ, dᵥ, iₒ], t2_bbbb [dᵥ, aᵥ, kₒ, lₒ], t2_bbbb [bᵥ, cᵥ, jₒ, mₒ]], [(1, [aᵥ, bᵥ, cᵥ, iₒ, jₒ, kₒ]), (-1, [aᵥ, bᵥ, cᵥ, iₒ, kₒ, jₒ]), (-1, [bᵥ, aᵥ, cᵥ, iₒ, jₒ, kₒ]), (1, [bᵥ, aᵥ, cᵥ, iₒ, kₒ, jₒ])]⟩,
  -- line 5518: mldi,dajk,bcml->abcijk
  ⟨-1/2, [g_bbbb [mₒ, lₒ, dᵥ, iₒ], t2_bbbb [dᵥ, aᵥ, jₒ, kₒ], t2_bbbb [bᵥ, cᵥ, mₒ, lₒ]], [(1, [aᵥ, bᵥ, cᵥ, iₒ, jₒ, kₒ]), (-1, [bᵥ, aᵥ, cᵥ, iₒ, jₒ, kₒ])]⟩,
  -- line 5522: lmdi,dclk,abjm->abcijk
  ⟨1, [g_abab [lₒ, mₒ, dᵥ, iₒ], t2_abab [dᵥ, cᵥ, lₒ, kₒ], t2_bbbb [aᵥ, bᵥ, jₒ, mₒ]], [(1, [aᵥ, bᵥ, cᵥ, iₒ, jₒ, kₒ]), (-1, [aᵥ, bᵥ, cᵥ, iₒ, kₒ, jₒ])]⟩,
  -- line 5526: mldi,dckl,abjm->abcijk
  ⟨1, [g_bbbb [mₒ, lₒ, dᵥ, iₒ], t2_bbbb [dᵥ, cᵥ, kₒ, lₒ], t2_bbbb [aᵥ, bᵥ, jₒ, mₒ]], [(1, [aᵥ, bᵥ, cᵥ, iₒ, jₒ, kₒ]), (-1, [aᵥ, bᵥ, cᵥ, iₒ, kₒ, jₒ])]⟩,
  -- line 5530: mldi,dcjk,abml->abcijk
  ⟨-1/2, [g_bbbb [mₒ, lₒ, dᵥ, iₒ], t2_bbbb [dᵥ, cᵥ, jₒ, kₒ], t2_bbbb [aᵥ, bᵥ, mₒ, lₒ]], [(1, [aᵥ, bᵥ, cᵥ, iₒ, jₒ, kₒ])]⟩,
  -- line 5533: lade,dejk,bcil->abcijk
  ⟨-1/2, [g_bbbb [lₒ, aᵥ, dᵥ, eᵥ], t2_bbbb [dᵥ, eᵥ, jₒ, kₒ], t2_bbbb [bᵥ, cᵥ, iₒ, lₒ]], [(1, [aᵥ, bᵥ, cᵥ, iₒ, jₒ, kₒ]), (-1, [aᵥ, bᵥ, cᵥ, jₒ, iₒ, kₒ]), (-1, [bᵥ, aᵥ, cᵥ, iₒ, jₒ, kₒ]), (1, [bᵥ, aᵥ, cᵥ, jₒ, iₒ, kₒ])]⟩,
  -- line 5537: lade,deij,bckl->abcijk
  ⟨-1/2, [g_bbbb [lₒ, aᵥ, dᵥ, eᵥ], t2_bbbb [dᵥ, eᵥ, iₒ, jₒ], t2_bbbb [bᵥ, cᵥ, kₒ, lₒ]], [(1, [aᵥ, bᵥ, cᵥ, iₒ, jₒ, kₒ]), (-1, [bᵥ, aᵥ, cᵥ, iₒ, jₒ, kₒ])]⟩,
  -- line 5541: lade,dblk,ecij->abcijk
  ⟨-1, [g_abab [lₒ, aᵥ, dᵥ, eᵥ], t2_abab [dᵥ, bᵥ, lₒ, kₒ], t2_bbbb [eᵥ, cᵥ, iₒ, jₒ]], [(1, [aᵥ, bᵥ, cᵥ, iₒ, jₒ, kₒ]), (-1, [aᵥ, bᵥ, cᵥ, iₒ, kₒ, jₒ]), (-1, [bᵥ, aᵥ, cᵥ, iₒ, jₒ, kₒ]), (1, [bᵥ, aᵥ, cᵥ, iₒ, kₒ, jₒ])]⟩,
  -- line 5545: lade,dbkl,ecij->abcijk
  ⟨1, [g_bbbb [lₒ, aᵥ, dᵥ, eᵥ], t2_bbbb [dᵥ, bᵥ, kₒ, lₒ], t2_bbbb [eᵥ, cᵥ, iₒ, jₒ]], [(1, [aᵥ, bᵥ, cᵥ, iₒ, jₒ, kₒ]), (-1, [aᵥ, bᵥ, cᵥ, iₒ, kₒ, jₒ]), (-1, [bᵥ, aᵥ, cᵥ, iₒ, jₒ, kₒ]), (1, [bᵥ, aᵥ, cᵥ, iₒ, kₒ, jₒ])]⟩,
  -- line 5549: lade,dbli,ecjk->abcijk
  ⟨-1, [g_abab [lₒ, aᵥ, dᵥ, eᵥ], t2_abab [dᵥ, bᵥ, lₒ, iₒ], t2_bbbb [eᵥ, cᵥ, jₒ, kₒ]], [(1, [aᵥ, bᵥ, cᵥ, iₒ, jₒ, kₒ]), (-1, [bᵥ, aᵥ, cᵥ, iₒ, jₒ, kₒ])]⟩,
  -- line 5553: lade,dbil,ecjk->abcijk
  ⟨1, [g_bbbb [lₒ, aᵥ, dᵥ, eᵥ], t2_bbbb [dᵥ, bᵥ, iₒ, lₒ], t2_bbbb [eᵥ, cᵥ, jₒ, kₒ]], [(1, [aᵥ, bᵥ, cᵥ, iₒ, jₒ, kₒ]), (-1, [bᵥ, aᵥ, cᵥ, iₒ, jₒ, kₒ])]⟩
  ]

/-- Part 4 of `ccsdt_t3_bbbbbb`. -/
def ccsdt_t3_bbbbbb_4 : Prog := [
  -- line 5557: laed,dbjk,ecli->abcijk
  ⟨1, [g_abab [lₒ, aᵥ, eᵥ, dᵥ], t2_bbbb [dᵥ, bᵥ, jₒ, kₒ], t2_abab [eᵥ, cᵥ, lₒ, iₒ]], [(1, [aᵥ, bᵥ, cᵥ, iₒ, jₒ, kₒ]), (-1, [aᵥ, bᵥ, cᵥ, jₒ, iₒ, kₒ]), (-1, [bᵥ, aᵥ, cᵥ, iₒ, jₒ, kₒ]), (1, [bᵥ, aᵥ, cᵥ, jₒ, iₒ, kₒ])]⟩,
  -- line 5561: lade,dbjk,ecil->abcijk
  ⟨1, [g_bbbb [lₒ, aᵥ, dᵥ, eᵥ], t2_bbbb [dᵥ, bᵥ, jₒ, kₒ], t2_bbbb [eᵥ, cᵥ, iₒ, lₒ]], [(1, [aᵥ, bᵥ, cᵥ, iₒ, jₒ, kₒ]), (-1, [aᵥ, bᵥ, cᵥ, jₒ, iₒ, kₒ]), (-1, [bᵥ, aᵥ, cᵥ, iₒ, jₒ, kₒ]), (1, [bᵥ, aᵥ, cᵥ, jₒ, iₒ, kₒ])]⟩,
  -- line 5565: laed,dbij,eclk->abcijk
  ⟨1, [g_abab [lₒ, aᵥ, eᵥ, dᵥ], t2_bbbb [dᵥ, bᵥ, iₒ, jₒ], t2_abab [eᵥ, cᵥ, lₒ, kₒ]], [(1, [aᵥ, bᵥ, cᵥ, iₒ, jₒ, kₒ]), (-1, [bᵥ, aᵥ, cᵥ, iₒ, jₒ, kₒ])]⟩,
  -- line 5569: lade,dbij,eckl->abcijk
  ⟨1, [g_bbbb [lₒ, aᵥ, dᵥ, eᵥ], t2_bbbb [dᵥ, bᵥ, iₒ, jₒ], t2_bbbb [eᵥ, cᵥ, kₒ, lₒ]], [(1, [aᵥ, bᵥ, cᵥ, iₒ, jₒ, kₒ]), (-1, [bᵥ, aᵥ, cᵥ, iₒ, jₒ, kₒ])]⟩,
  -- line 5573: lcde,dejk,abil->abcijk
  ⟨-1/2, [g_bbbb [lₒ, cᵥ, dᵥ, eᵥ], t2_bbbb [dᵥ, eᵥ, jₒ, kₒ], t2_bbbb [aᵥ, bᵥ, iₒ, lₒ]], [(1, [aᵥ, bᵥ, cᵥ, iₒ, jₒ, kₒ]), (-1, [aᵥ, bᵥ, cᵥ, jₒ, iₒ, kₒ])]⟩,
  -- line 5577: lcde,deij,abkl->abcijk
  ⟨-1/2, [g_bbbb [lₒ, cᵥ, dᵥ, eᵥ], t2_bbbb [dᵥ, eᵥ, iₒ, jₒ], t2_bbbb [aᵥ, bᵥ, kₒ, lₒ]], [(1, [aᵥ, bᵥ, cᵥ, iₒ, jₒ, kₒ])]⟩,
  -- line 5580: lcde,dalk,ebij->abcijk
  ⟨-1, [g_abab [lₒ, cᵥ, dᵥ, eᵥ], t2_abab [dᵥ, aᵥ, lₒ, kₒ], t2_bbbb [eᵥ, bᵥ, iₒ, jₒ]], [(1, [aᵥ, bᵥ, cᵥ, iₒ, jₒ, kₒ]), (-1, [aᵥ, bᵥ, cᵥ, iₒ, kₒ, jₒ])]⟩,
  -- line 5584: lcde,dakl,ebij->abcijk
  ⟨1, [g_bbbb [lₒ, cᵥ, dᵥ, eᵥ], t2_bbbb [dᵥ, aᵥ, kₒ, lₒ], t2_bbbb [eᵥ, bᵥ, iₒ, jₒ]], [(1, [aᵥ, bᵥ, cᵥ, iₒ, jₒ, kₒ]), (-1, [aᵥ, bᵥ, cᵥ, iₒ, kₒ, jₒ])]⟩,
  -- line 5588: lcde,dali,ebjk->abcijk
  ⟨-1, [g_abab [lₒ, cᵥ, dᵥ, eᵥ], t2_abab [dᵥ, aᵥ, lₒ, iₒ], t2_bbbb [eᵥ, bᵥ, jₒ, kₒ]], [(1, [aᵥ, bᵥ, cᵥ, iₒ, jₒ, kₒ])]⟩,
  -- line 5591: lcde,dail,ebjk->abcijk
  ⟨1, [g_bbbb [lₒ, cᵥ, dᵥ, eᵥ], t2_bbbb [dᵥ, aᵥ, iₒ, lₒ], t2_bbbb [eᵥ, bᵥ, jₒ, kₒ]], [(1, [aᵥ, bᵥ, cᵥ, iₒ, jₒ, kₒ])]⟩,
  -- line 5594: lced,dajk,ebli->abcijk
  ⟨1, [g_abab [lₒ, cᵥ, eᵥ, dᵥ], t2_bbbb [dᵥ, aᵥ, jₒ, kₒ], t2_abab [eᵥ, bᵥ, lₒ, iₒ]], [(1, [aᵥ, bᵥ, cᵥ, iₒ, jₒ, kₒ]), (-1, [aᵥ, bᵥ, cᵥ, jₒ, iₒ, kₒ])]⟩,
  -- line 5598: lcde,dajk,ebil->abcijk
  ⟨1, [g_bbbb [lₒ, cᵥ, dᵥ, eᵥ], t2_bbbb [dᵥ, aᵥ, jₒ, kₒ], t2_bbbb [eᵥ, bᵥ, iₒ, lₒ]], [(1, [aᵥ, bᵥ, cᵥ, iₒ, jₒ, kₒ]), (-1, [aᵥ, bᵥ, cᵥ, jₒ, iₒ, kₒ])]⟩,
  -- line 5602: lced,daij,eblk->abcijk
  ⟨1, [g_abab [lₒ, cᵥ, eᵥ, dᵥ], t2_bbbb [dᵥ, aᵥ, iₒ, jₒ], t2_abab [eᵥ, bᵥ, lₒ, kₒ]], [(1, [aᵥ, bᵥ, cᵥ, iₒ, jₒ, kₒ])]⟩,
  -- line 5605: lcde,daij,ebkl->abcijk
  ⟨1, [g_bbbb [lₒ, cᵥ, dᵥ, eᵥ], t2_bbbb [dᵥ, aᵥ, iₒ, jₒ], t2_bbbb [eᵥ, bᵥ, kₒ, lₒ]], [(1, [aᵥ, bᵥ, cᵥ, iₒ, jₒ, kₒ])]⟩,
  -- line 5608: lmde,dl,eajk,bcim->abcijk
  ⟨-1, [g_abab [lₒ, mₒ, dᵥ, eᵥ], t1_aa [dᵥ, lₒ], t2_bbbb [eᵥ, aᵥ, jₒ, kₒ], t2_bbbb [bᵥ, cᵥ, iₒ, mₒ]], [(1, [aᵥ, bᵥ, cᵥ, iₒ, jₒ, kₒ]), (-1, [aᵥ, bᵥ, cᵥ, jₒ, iₒ, kₒ]), (-1, [bᵥ, aᵥ, cᵥ, iₒ, jₒ, kₒ]), (1, [bᵥ, aᵥ, cᵥ, jₒ, iₒ, kₒ])]⟩,
  -- line 5612: mlde,dl,eajk,bcim->abcijk
  ⟨1, [g_bbbb [mₒ, lₒ, dᵥ, eᵥ], t1_bb [dᵥ, lₒ], t2_bbbb [eᵥ, aᵥ, jₒ, kₒ], t2_bbbb [bᵥ, cᵥ, iₒ, mₒ]], [(1, [aᵥ, bᵥ, cᵥ, iₒ, jₒ, kₒ]), (-1, [aᵥ, bᵥ, cᵥ, jₒ, iₒ, kₒ]), (-1, [bᵥ, aᵥ, cᵥ, iₒ, jₒ, kₒ]), (1, [bᵥ, aᵥ, cᵥ, jₒ, iₒ, kₒ])]⟩,
  -- line 5616: lmde,dl,eaij,bckm->abcijk
  ⟨-1, [g_abab [lₒ, mₒ, dᵥ, eᵥ], t1_aa [dᵥ, lₒ], t2_bbbb [eᵥ, aᵥ, iₒ, jₒ], t2_bbbb [bᵥ, cᵥ, kₒ, mₒ]], [(1, [aᵥ, bᵥ, cᵥ, iₒ, jₒ, kₒ]), (-1, [bᵥ, aᵥ, cᵥ, iₒ, jₒ, kₒ])]⟩,
  -- line 5620: mlde,dl,eaij,bckm->abcijk
  ⟨1, [g_bbbb [mₒ, lₒ, dᵥ, eᵥ], t1_bb [dᵥ, lₒ], t2_bbbb [eᵥ, aᵥ, iₒ, jₒ], t2_bbbb [bᵥ, cᵥ, kₒ, mₒ]], [(1, [aᵥ, bᵥ, cᵥ, iₒ, jₒ, kₒ]), (-1, [bᵥ, aᵥ, cᵥ, iₒ, jₒ, kₒ])]⟩,
  -- line 5624: lmde,dl,ecjk,abim->abcijk
  ⟨-1, [g_abab [lₒ, mₒ, dᵥ, eᵥ], t1_aa [dᵥ, lₒ], t2_bbbb [eᵥ, cᵥ, jₒ, kₒ], t2_bbbb [aᵥ, bᵥ, iₒ, mₒ]], [(1, [aᵥ, bᵥ, cᵥ, iₒ, jₒ, kₒ]), (-1, [aᵥ, bᵥ, cᵥ, jₒ, iₒ, kₒ])]⟩,
  -- line 5628: mlde,dl,ecjk,abim->abcijk
  ⟨1, [g_bbbb [mₒ, lₒ, dᵥ, eᵥ], t1_bb [dᵥ, lₒ], t2_bbbb [eᵥ, cᵥ, jₒ, kₒ], t2_bbbb [aᵥ, bᵥ, iₒ, mₒ]], [(1, [aᵥ, bᵥ, cᵥ, iₒ, jₒ, kₒ]), (-1, [aᵥ, bᵥ, cᵥ, jₒ, iₒ, kₒ])]⟩,
  -- line 5632: lmde,dl,ecij,abkm->abcijk
  ⟨-1, [g_abab [lₒ, mₒ, dᵥ, eᵥ], t1_aa [dᵥ, lₒ], t2_bbbb [eᵥ, cᵥ, iₒ, jₒ], t2_bbbb [aᵥ, bᵥ, kₒ, mₒ]], [(1, [aᵥ, bᵥ, cᵥ, iₒ, jₒ, kₒ])]⟩,
  -- line 5635: mlde,dl,ecij,abkm->abcijk
  ⟨1, [g_bbbb [mₒ, lₒ, dᵥ, eᵥ], t1_bb [dᵥ, lₒ], t2_bbbb [eᵥ, cᵥ, iₒ, jₒ], t2_bbbb [aᵥ, bᵥ, kₒ, mₒ]], [(1, [aᵥ, bᵥ, cᵥ, iₒ, jₒ, kₒ])]⟩,
  -- line 5638: lmed,dk,ealj,bcim->abcijk
  ⟨1, [g_abab [lₒ, mₒ, eᵥ, dᵥ], t1_bb [dᵥ, kₒ], t2_abab [eᵥ, aᵥ, lₒ, jₒ], t2_bbbb [bᵥ, cᵥ, iₒ, mₒ]], [(1, [aᵥ, bᵥ, cᵥ, iₒ, jₒ, kₒ]), (-1, [aᵥ, bᵥ, cᵥ, jₒ, iₒ, kₒ]), (-1, [bᵥ, aᵥ, cᵥ, iₒ, jₒ, kₒ]), (1, [bᵥ, aᵥ, cᵥ, jₒ, iₒ, kₒ])]⟩,
  -- line 5642: mlde,dk,eajl,bcim->abcijk
  ⟨-1, [g_bbbb [mₒ, lₒ, dᵥ, eᵥ], t1_bb [dᵥ, kₒ], t2_bbbb [eᵥ, aᵥ, jₒ, lₒ], t2_bbbb [bᵥ, cᵥ, iₒ, mₒ]], [(1, [aᵥ, bᵥ, cᵥ, iₒ, jₒ, kₒ]), (-1, [aᵥ, bᵥ, cᵥ, jₒ, iₒ, kₒ]), (-1, [bᵥ, aᵥ, cᵥ, iₒ, jₒ, kₒ]), (1, [bᵥ, aᵥ, cᵥ, jₒ, iₒ, kₒ])]⟩,
  -- line 5646: mlde,dk,eaij,bcml->abcijk
  ⟨1/2, [g_bbbb [mₒ, lₒ, dᵥ, eᵥ], t1_bb [dᵥ, kₒ], t2_bbbb [eᵥ, aᵥ, iₒ, jₒ], t2_bbbb [bᵥ, cᵥ, mₒ, lₒ]], [(1, [aᵥ, bᵥ, cᵥ, iₒ, jₒ, kₒ]), (-1, [aᵥ, bᵥ, cᵥ, iₒ, kₒ, jₒ]), (-1, [bᵥ, aᵥ, cᵥ, iₒ, jₒ, kₒ]), (1, [bᵥ, aᵥ, cᵥ, iₒ, kₒ, jₒ])]⟩,
  -- line 5650: lmed,dk,eclj,abim->abcijk
  ⟨1, [g_abab [lₒ, mₒ, eᵥ, dᵥ], t1_bb [dᵥ, kₒ], t2_abab [eᵥ, cᵥ, lₒ, jₒ], t2_bbbb [aᵥ, bᵥ, iₒ, mₒ]], [(1, [aᵥ, bᵥ, cᵥ, iₒ, jₒ, kₒ]), (-1, [aᵥ, bᵥ, cᵥ, jₒ, iₒ, kₒ])]⟩,
  -- line 5654: mlde,dk,ecjl,abim->abcijk
  ⟨-1, [g_bbbb [mₒ, lₒ, dᵥ, eᵥ], t1_bb [dᵥ, kₒ], t2_bbbb [eᵥ, cᵥ, jₒ, lₒ], t2_bbbb [aᵥ, bᵥ, iₒ, mₒ]], [(1, [aᵥ, bᵥ, cᵥ, iₒ, jₒ, kₒ]), (-1, [aᵥ, bᵥ, cᵥ, jₒ, iₒ, kₒ])]⟩,
  -- line 5658: mlde,dk,ecij,abml->abcijk
  ⟨1/2, [g_bbbb [mₒ, lₒ, dᵥ, eᵥ], t1_bb [dᵥ, kₒ], t2_bbbb [eᵥ, cᵥ, iₒ, jₒ], t2_bbbb [aᵥ, bᵥ, mₒ, lₒ]], [(1, [aᵥ, bᵥ, cᵥ, iₒ, jₒ, kₒ]), (-1, [aᵥ, bᵥ, cᵥ, iₒ, kₒ, jₒ])]⟩,
  -- line 5662: lmed,dj,ealk,bcim->abcijk
  ⟨-1, [g_abab [lₒ, mₒ, eᵥ, dᵥ], t1_bb [dᵥ, jₒ], t2_abab [eᵥ, aᵥ, lₒ, kₒ], t2_bbbb [bᵥ, cᵥ, iₒ, mₒ]], [(1, [aᵥ, bᵥ, cᵥ, iₒ, jₒ, kₒ]), (-1, [aᵥ, bᵥ, cᵥ, kₒ, jₒ, iₒ]), (-1, [bᵥ, aᵥ, cᵥ, iₒ, jₒ, kₒ]), (1, [bᵥ, aᵥ, cᵥ, kₒ, jₒ, iₒ])]⟩,
  -- line 5666: mlde,dj,eakl,bcim->abcijk
  ⟨1, [g_bbbb [mₒ, lₒ, dᵥ, eᵥ], t1_bb [dᵥ, jₒ], t2_bbbb [eᵥ, aᵥ, kₒ, lₒ], t2_bbbb [bᵥ, cᵥ, iₒ, mₒ]], [(1, [aᵥ, bᵥ, cᵥ, iₒ, jₒ, kₒ]), (-1, [aᵥ, bᵥ, cᵥ, kₒ, jₒ, iₒ]), (-1, [bᵥ, aᵥ, cᵥ, iₒ, jₒ, kₒ]), (1, [bᵥ, aᵥ, cᵥ, kₒ, jₒ, iₒ])]⟩,
  -- line 5670: lmed,dj,eclk,abim->abcijk
  ⟨-1, [g_abab [lₒ, mₒ, eᵥ, dᵥ], t1_bb [dᵥ, jₒ], t2_abab [eᵥ, cᵥ, lₒ, kₒ], t2_bbbb [aᵥ, bᵥ, iₒ, mₒ]], [(1, [aᵥ, bᵥ, cᵥ, iₒ, jₒ, kₒ]), (-1, [aᵥ, bᵥ, cᵥ, kₒ, jₒ, iₒ])]⟩,
  -- line 5674: mlde,dj,eckl,abim->abcijk
  ⟨1, [g_bbbb [mₒ, lₒ, dᵥ, eᵥ], t1_bb [dᵥ, jₒ], t2_bbbb [eᵥ, cᵥ, kₒ, lₒ], t2_bbbb [aᵥ, bᵥ, iₒ, mₒ]], [(1, [aᵥ, bᵥ, cᵥ, iₒ, jₒ, kₒ]), (-1, [aᵥ, bᵥ, cᵥ, kₒ, jₒ, iₒ])]⟩,
  -- line 5678: lmed,di,ealk,bcjm->abcijk
  ⟨1, [g_abab [lₒ, mₒ, eᵥ, dᵥ], t1_bb [dᵥ, iₒ], t2_abab [eᵥ, aᵥ, lₒ, kₒ], t2_bbbb [bᵥ, cᵥ, jₒ, mₒ]], [(1, [aᵥ, bᵥ, cᵥ, iₒ, jₒ, kₒ]), (-1, [aᵥ, bᵥ, cᵥ, iₒ, kₒ, jₒ]), (-1, [bᵥ, aᵥ, cᵥ, iₒ, jₒ, kₒ]), (1, [bᵥ, aᵥ, cᵥ, iₒ, kₒ, jₒ])]⟩,
  -- line 5682: mlde,di,eakl,bcjm->abcijk
  ⟨-1, [g_bbbb [mₒ, lₒ, dᵥ, eᵥ], t1_bb [dᵥ, iₒ], t2_bbbb [eᵥ, aᵥ, kₒ, lₒ], t2_bbbb [bᵥ, cᵥ, jₒ, mₒ]], [(1, [aᵥ, bᵥ, cᵥ, iₒ, jₒ, kₒ]), (-1, [aᵥ, bᵥ, cᵥ, iₒ, kₒ, jₒ]), (-1, [bᵥ, aᵥ, cᵥ, iₒ, jₒ, kₒ]), (1, [bᵥ, aᵥ, cᵥ, iₒ, kₒ, jₒ])]⟩,
  -- line 5686: mlde,di,eajk,bcml->abcijk
  ⟨1/2, [g_bbbb [mₒ, lₒ, dᵥ, eᵥ], t1_bb [dᵥ, iₒ], t2_bbbb [eᵥ, aᵥ, jₒ, kₒ], t2_bbbb [bᵥ, cᵥ, mₒ, lₒ]], [(1, [aᵥ, bᵥ, cᵥ, iₒ, jₒ, kₒ]), (-1, [bᵥ, aᵥ, cᵥ, iₒ, jₒ, kₒ])]⟩,
  -- line 5690: lmed,di,eclk,abjm->abcijk
  ⟨1, [g_abab [lₒ, mₒ, eᵥ, dᵥ], t1_bb [dᵥ, iₒ], t2_abab [eᵥ, cᵥ, lₒ, kₒ], t2_bbbb [aᵥ, bᵥ, jₒ, mₒ]], [(1, [aᵥ, bᵥ, cᵥ, iₒ, jₒ, kₒ]), (-1, [aᵥ, bᵥ, cᵥ, iₒ, kₒ, jₒ])]⟩,
  -- line 5694: mlde,di,eckl,abjm->abcijk
  ⟨-1, [g_bbbb [mₒ, lₒ, dᵥ, eᵥ], t1_bb [dᵥ, iₒ], t2_bbbb [eᵥ, cᵥ, kₒ, lₒ], t2_bbbb [aᵥ, bᵥ, jₒ, mₒ]], [(1, [aᵥ, bᵥ, cᵥ, iₒ, jₒ, kₒ]), (-1, [aᵥ, bᵥ, cᵥ, iₒ, kₒ, jₒ])]⟩,
  -- line 5698: mlde,di,ecjk,abml->abcijk
  ⟨1/2, [g_bbbb [mₒ, lₒ, dᵥ, eᵥ], t1_bb [dᵥ, iₒ], t2_bbbb [eᵥ, cᵥ, jₒ, kₒ], t2_bbbb [aᵥ, bᵥ, mₒ, lₒ]], [(1, [aᵥ, bᵥ, cᵥ, iₒ, jₒ, kₒ])]⟩,
  -- line 5701: mlde,al,dejk,bcim->abcijk
  ⟨1/2, [g_bbbb [mₒ, lₒ, dᵥ, eᵥ], t1_bb [aᵥ, lₒ], t2_bbbb [dᵥ, eᵥ, jₒ, kₒ], t2_bbbb [bᵥ, cᵥ, iₒ, mₒ]], [(1, [aᵥ, bᵥ, cᵥ, iₒ, jₒ, kₒ]), (-1, [aᵥ, bᵥ, cᵥ, jₒ, iₒ, kₒ]), (-1, [bᵥ, aᵥ, cᵥ, iₒ, jₒ, kₒ]), (1, [bᵥ, aᵥ, cᵥ, jₒ, iₒ, kₒ])]⟩,
  -- line 5705: mlde,al,deij,bckm->abcijk
  ⟨1/2, [g_bbbb [mₒ, lₒ, dᵥ, eᵥ], t1_bb [aᵥ, lₒ], t2_bbbb [dᵥ, eᵥ, iₒ, jₒ], t2_bbbb [bᵥ, cᵥ, kₒ, mₒ]], [(1, [aᵥ, bᵥ, cᵥ, iₒ, jₒ, kₒ]), (-1, [bᵥ, aᵥ, cᵥ, iₒ, jₒ, kₒ])]⟩
  ]

/-- Part 5 of `ccsdt_t3_bbbbbb`. -/
def ccsdt_t3_bbbbbb_5 : Prog := [
  -- line 5709: mlde,al,dbmk,ecij->abcijk
  ⟨1, [g_abab [mₒ, lₒ, dᵥ, eᵥ], t1_bb [aᵥ, lₒ], t2_abab [dᵥ, bᵥ, mₒ, kₒ], t2_bbbb [eᵥ, cᵥ, iₒ, jₒ]], [(1, [aᵥ, bᵥ, cᵥ, iₒ, jₒ, kₒ]), (-1, [aᵥ, bᵥ, cᵥ, iₒ, kₒ, jₒ]), (-1, [bᵥ, aᵥ, cᵥ, iₒ, jₒ, kₒ]), (1, [bᵥ, aᵥ, cᵥ, iₒ, kₒ, jₒ])]⟩,
  -- line 5713: mlde,al,dbkm,ecij->abcijk
  ⟨-1, [g_bbbb [mₒ, lₒ, dᵥ, eᵥ], t1_bb [aᵥ, lₒ], t2_bbbb [dᵥ, bᵥ, kₒ, mₒ], t2_bbbb [eᵥ, cᵥ, iₒ, jₒ]], [(1, [aᵥ, bᵥ, cᵥ, iₒ, jₒ, kₒ]), (-1, [aᵥ, bᵥ, cᵥ, iₒ, kₒ, jₒ]), (-1, [bᵥ, aᵥ, cᵥ, iₒ, jₒ, kₒ]), (1, [bᵥ, aᵥ, cᵥ, iₒ, kₒ, jₒ])]⟩,
  -- line 5717: mlde,al,dbmi,ecjk->abcijk
  ⟨1, [g_abab [mₒ, lₒ, dᵥ, eᵥ], t1_bb [aᵥ, lₒ], t2_abab [dᵥ, bᵥ, mₒ, iₒ], t2_bbbb [eᵥ, cᵥ, jₒ, kₒ]], [(1, [aᵥ, bᵥ, cᵥ, iₒ, jₒ, kₒ]), (-1, [bᵥ, aᵥ, cᵥ, iₒ, jₒ, kₒ])]⟩,
  -- line 5721: mlde,al,dbim,ecjk->abcijk
  ⟨-1, [g_bbbb [mₒ, lₒ, dᵥ, eᵥ], t1_bb [aᵥ, lₒ], t2_bbbb [dᵥ, bᵥ, iₒ, mₒ], t2_bbbb [eᵥ, cᵥ, jₒ, kₒ]], [(1, [aᵥ, bᵥ, cᵥ, iₒ, jₒ, kₒ]), (-1, [bᵥ, aᵥ, cᵥ, iₒ, jₒ, kₒ])]⟩,
  -- line 5725: mled,al,dbjk,ecmi->abcijk
  ⟨-1, [g_abab [mₒ, lₒ, eᵥ, dᵥ], t1_bb [aᵥ, lₒ], t2_bbbb [dᵥ, bᵥ, jₒ, kₒ], t2_abab [eᵥ, cᵥ, mₒ, iₒ]], [(1, [aᵥ, bᵥ, cᵥ, iₒ, jₒ, kₒ]), (-1, [aᵥ, bᵥ, cᵥ, jₒ, iₒ, kₒ]), (-1, [bᵥ, aᵥ, cᵥ, iₒ, jₒ, kₒ]), (1, [bᵥ, aᵥ, cᵥ, jₒ, iₒ, kₒ])]⟩,
  -- line 5729: mlde,al,dbjk,ecim->abcijk
  ⟨-1, [g_bbbb [mₒ, lₒ, dᵥ, eᵥ], t1_bb [aᵥ, lₒ], t2_bbbb [dᵥ, bᵥ, jₒ, kₒ], t2_bbbb [eᵥ, cᵥ, iₒ, mₒ]], [(1, [aᵥ, bᵥ, cᵥ, iₒ, jₒ, kₒ]), (-1, [aᵥ, bᵥ, cᵥ, jₒ, iₒ, kₒ]), (-1, [bᵥ, aᵥ, cᵥ, iₒ, jₒ, kₒ]), (1, [bᵥ, aᵥ, cᵥ, jₒ, iₒ, kₒ])]⟩,
  -- line 5733: mled,al,dbij,ecmk->abcijk
  ⟨-1, [g_abab [mₒ, lₒ, eᵥ, dᵥ], t1_bb [aᵥ, lₒ], t2_bbbb [dᵥ, bᵥ, iₒ, jₒ], t2_abab [eᵥ, cᵥ, mₒ, kₒ]], [(1, [aᵥ, bᵥ, cᵥ, iₒ, jₒ, kₒ]), (-1, [bᵥ, aᵥ, cᵥ, iₒ, jₒ, kₒ])]⟩,
  -- line 5737: mlde,al,dbij,eckm->abcijk
  ⟨-1, [g_bbbb [mₒ, lₒ, dᵥ, eᵥ], t1_bb [aᵥ, lₒ], t2_bbbb [dᵥ, bᵥ, iₒ, jₒ], t2_bbbb [eᵥ, cᵥ, kₒ, mₒ]], [(1, [aᵥ, bᵥ, cᵥ, iₒ, jₒ, kₒ]), (-1, [bᵥ, aᵥ, cᵥ, iₒ, jₒ, kₒ])]⟩,
  -- line 5741: mlde,cl,dejk,abim->abcijk
  ⟨1/2, [g_bbbb [mₒ, lₒ, dᵥ, eᵥ], t1_bb [cᵥ, lₒ], t2_bbbb [dᵥ, eᵥ, jₒ, kₒ], t2_bbbb [aᵥ, bᵥ, iₒ, mₒ]], [(1, [aᵥ, bᵥ, cᵥ, iₒ, jₒ, kₒ]), (-1, [aᵥ, bᵥ, cᵥ, jₒ, iₒ, kₒ])]⟩,
  -- line 5745: mlde,cl,deij,abkm->abcijk
  ⟨1/2, [g_bbbb [mₒ, lₒ, dᵥ, eᵥ], t1_bb [cᵥ, lₒ], t2_bbbb [dᵥ, eᵥ, iₒ, jₒ], t2_bbbb [aᵥ, bᵥ, kₒ, mₒ]], [(1, [aᵥ, bᵥ, cᵥ, iₒ, jₒ, kₒ])]⟩,
  -- line 5748: mlde,cl,damk,ebij->abcijk
  ⟨1, [g_abab [mₒ, lₒ, dᵥ, eᵥ], t1_bb [cᵥ, lₒ], t2_abab [dᵥ, aᵥ, mₒ, kₒ], t2_bbbb [eᵥ, bᵥ, iₒ, jₒ]], [(1, [aᵥ, bᵥ, cᵥ, iₒ, jₒ, kₒ]), (-1, [aᵥ, bᵥ, cᵥ, iₒ, kₒ, jₒ])]⟩,
  -- line 5752: mlde,cl,dakm,ebij->abcijk
  ⟨-1, [g_bbbb [mₒ, lₒ, dᵥ, eᵥ], t1_bb [cᵥ, lₒ], t2_bbbb [dᵥ, aᵥ, kₒ, mₒ], t2_bbbb [eᵥ, bᵥ, iₒ, jₒ]], [(1, [aᵥ, bᵥ, cᵥ, iₒ, jₒ, kₒ]), (-1, [aᵥ, bᵥ, cᵥ, iₒ, kₒ, jₒ])]⟩,
  -- line 5756: mlde,cl,dami,ebjk->abcijk
  ⟨1, [g_abab [mₒ, lₒ, dᵥ, eᵥ], t1_bb [cᵥ, lₒ], t2_abab [dᵥ, aᵥ, mₒ, iₒ], t2_bbbb [eᵥ, bᵥ, jₒ, kₒ]], [(1, [aᵥ, bᵥ, cᵥ, iₒ, jₒ, kₒ])]⟩,
  -- line 5759: mlde,cl,daim,ebjk->abcijk
  ⟨-1, [g_bbbb [mₒ, lₒ, dᵥ, eᵥ], t1_bb [cᵥ, lₒ], t2_bbbb [dᵥ, aᵥ, iₒ, mₒ], t2_bbbb [eᵥ, bᵥ, jₒ, kₒ]], [(1, [aᵥ, bᵥ, cᵥ, iₒ, jₒ, kₒ])]⟩,
  -- line 5762: mled,cl,dajk,ebmi->abcijk
  ⟨-1, [g_abab [mₒ, lₒ, eᵥ, dᵥ], t1_bb [cᵥ, lₒ], t2_bbbb [dᵥ, aᵥ, jₒ, kₒ], t2_abab [eᵥ, bᵥ, mₒ, iₒ]], [(1, [aᵥ, bᵥ, cᵥ, iₒ, jₒ, kₒ]), (-1, [aᵥ, bᵥ, cᵥ, jₒ, iₒ, kₒ])]⟩,
  -- line 5766: mlde,cl,dajk,ebim->abcijk
  ⟨-1, [g_bbbb [mₒ, lₒ, dᵥ, eᵥ], t1_bb [cᵥ, lₒ], t2_bbbb [dᵥ, aᵥ, jₒ, kₒ], t2_bbbb [eᵥ, bᵥ, iₒ, mₒ]], [(1, [aᵥ, bᵥ, cᵥ, iₒ, jₒ, kₒ]), (-1, [aᵥ, bᵥ, cᵥ, jₒ, iₒ, kₒ])]⟩,
  -- line 5770: mled,cl,daij,ebmk->abcijk
  ⟨-1, [g_abab [mₒ, lₒ, eᵥ, dᵥ], t1_bb [cᵥ, lₒ], t2_bbbb [dᵥ, aᵥ, iₒ, jₒ], t2_abab [eᵥ, bᵥ, mₒ, kₒ]], [(1, [aᵥ, bᵥ, cᵥ, iₒ, jₒ, kₒ])]⟩,
  -- line 5773: mlde,cl,daij,ebkm->abcijk
  ⟨-1, [g_bbbb [mₒ, lₒ, dᵥ, eᵥ], t1_bb [cᵥ, lₒ], t2_bbbb [dᵥ, aᵥ, iₒ, jₒ], t2_bbbb [eᵥ, bᵥ, kₒ, mₒ]], [(1, [aᵥ, bᵥ, cᵥ, iₒ, jₒ, kₒ])]⟩,
  -- line 5776: mldk,dj,al,bcim->abcijk
  ⟨1, [g_bbbb [mₒ, lₒ, dᵥ, kₒ], t1_bb [dᵥ, jₒ], t1_bb [aᵥ, lₒ], t2_bbbb [bᵥ, cᵥ, iₒ, mₒ]], [(1, [aᵥ, bᵥ, cᵥ, iₒ, jₒ, kₒ]), (-1, [aᵥ, bᵥ, cᵥ, jₒ, iₒ, kₒ]), (-1, [bᵥ, aᵥ, cᵥ, iₒ, jₒ, kₒ]), (1, [bᵥ, aᵥ, cᵥ, jₒ, iₒ, kₒ])]⟩,
  -- line 5780: mldk,dj,cl,abim->abcijk
  ⟨1, [g_bbbb [mₒ, lₒ, dᵥ, kₒ], t1_bb [dᵥ, jₒ], t1_bb [cᵥ, lₒ], t2_bbbb [aᵥ, bᵥ, iₒ, mₒ]], [(1, [aᵥ, bᵥ, cᵥ, iₒ, jₒ, kₒ]), (-1, [aᵥ, bᵥ, cᵥ, jₒ, iₒ, kₒ])]⟩,
  -- line 5784: mldk,al,bm,dcij->abcijk
  ⟨1, [g_bbbb [mₒ, lₒ, dᵥ, kₒ], t1_bb [aᵥ, lₒ], t1_bb [bᵥ, mₒ], t2_bbbb [dᵥ, cᵥ, iₒ, jₒ]], [(1, [aᵥ, bᵥ, cᵥ, iₒ, jₒ, kₒ]), (-1, [aᵥ, bᵥ, cᵥ, iₒ, kₒ, jₒ]), (-1, [aᵥ, cᵥ, bᵥ, iₒ, jₒ, kₒ]), (1, [aᵥ, cᵥ, bᵥ, iₒ, kₒ, jₒ])]⟩,
  -- line 5788: mldk,bl,cm,daij->abcijk
  ⟨1, [g_bbbb [mₒ, lₒ, dᵥ, kₒ], t1_bb [bᵥ, lₒ], t1_bb [cᵥ, mₒ], t2_bbbb [dᵥ, aᵥ, iₒ, jₒ]], [(1, [aᵥ, bᵥ, cᵥ, iₒ, jₒ, kₒ]), (-1, [aᵥ, bᵥ, cᵥ, iₒ, kₒ, jₒ])]⟩,
  -- line 5792: mldj,dk,al,bcim->abcijk
  ⟨-1, [g_bbbb [mₒ, lₒ, dᵥ, jₒ], t1_bb [dᵥ, kₒ], t1_bb [aᵥ, lₒ], t2_bbbb [bᵥ, cᵥ, iₒ, mₒ]], [(1, [aᵥ, bᵥ, cᵥ, iₒ, jₒ, kₒ]), (-1, [aᵥ, bᵥ, cᵥ, kₒ, jₒ, iₒ]), (-1, [bᵥ, aᵥ, cᵥ, iₒ, jₒ, kₒ]), (1, [bᵥ, aᵥ, cᵥ, kₒ, jₒ, iₒ])]⟩,
  -- line 5796: mldj,dk,cl,abim->abcijk
  ⟨-1, [g_bbbb [mₒ, lₒ, dᵥ, jₒ], t1_bb [dᵥ, kₒ], t1_bb [cᵥ, lₒ], t2_bbbb [aᵥ, bᵥ, iₒ, mₒ]], [(1, [aᵥ, bᵥ, cᵥ, iₒ, jₒ, kₒ]), (-1, [aᵥ, bᵥ, cᵥ, kₒ, jₒ, iₒ])]⟩,
  -- line 5800: mldi,dk,al,bcjm->abcijk
  ⟨1, [g_bbbb [mₒ, lₒ, dᵥ, iₒ], t1_bb [dᵥ, kₒ], t1_bb [aᵥ, lₒ], t2_bbbb [bᵥ, cᵥ, jₒ, mₒ]], [(1, [aᵥ, bᵥ, cᵥ, iₒ, jₒ, kₒ]), (-1, [aᵥ, bᵥ, cᵥ, iₒ, kₒ, jₒ]), (-1, [bᵥ, aᵥ, cᵥ, iₒ, jₒ, kₒ]), (1, [bᵥ, aᵥ, cᵥ, iₒ, kₒ, jₒ])]⟩,
  -- line 5804: mldi,dk,cl,abjm->abcijk
  ⟨1, [g_bbbb [mₒ, lₒ, dᵥ, iₒ], t1_bb [dᵥ, kₒ], t1_bb [cᵥ, lₒ], t2_bbbb [aᵥ, bᵥ, jₒ, mₒ]], [(1, [aᵥ, bᵥ, cᵥ, iₒ, jₒ, kₒ]), (-1, [aᵥ, bᵥ, cᵥ, iₒ, kₒ, jₒ])]⟩,
  -- line 5808: mldi,al,bm,dcjk->abcijk
  ⟨1, [g_bbbb [mₒ, lₒ, dᵥ, iₒ], t1_bb [aᵥ, lₒ], t1_bb [bᵥ, mₒ], t2_bbbb [dᵥ, cᵥ, jₒ, kₒ]], [(1, [aᵥ, bᵥ, cᵥ, iₒ, jₒ, kₒ]), (-1, [aᵥ, cᵥ, bᵥ, iₒ, jₒ, kₒ])]⟩,
  -- line 5812: mldi,bl,cm,dajk->abcijk
  ⟨1, [g_bbbb [mₒ, lₒ, dᵥ, iₒ], t1_bb [bᵥ, lₒ], t1_bb [cᵥ, mₒ], t2_bbbb [dᵥ, aᵥ, jₒ, kₒ]], [(1, [aᵥ, bᵥ, cᵥ, iₒ, jₒ, kₒ])]⟩,
  -- line 5815: lade,dk,ej,bcil->abcijk
  ⟨1, [g_bbbb [lₒ, aᵥ, dᵥ, eᵥ], t1_bb [dᵥ, kₒ], t1_bb [eᵥ, jₒ], t2_bbbb [bᵥ, cᵥ, iₒ, lₒ]], [(1, [aᵥ, bᵥ, cᵥ, iₒ, jₒ, kₒ]), (-1, [aᵥ, bᵥ, cᵥ, jₒ, iₒ, kₒ]), (-1, [bᵥ, aᵥ, cᵥ, iₒ, jₒ, kₒ]), (1, [bᵥ, aᵥ, cᵥ, jₒ, iₒ, kₒ])]⟩,
  -- line 5819: lade,dk,bl,ecij->abcijk
  ⟨1, [g_bbbb [lₒ, aᵥ, dᵥ, eᵥ], t1_bb [dᵥ, kₒ], t1_bb [bᵥ, lₒ], t2_bbbb [eᵥ, cᵥ, iₒ, jₒ]], [(1, [aᵥ, bᵥ, cᵥ, iₒ, jₒ, kₒ]), (-1, [aᵥ, bᵥ, cᵥ, iₒ, kₒ, jₒ]), (-1, [aᵥ, cᵥ, bᵥ, iₒ, jₒ, kₒ]), (1, [aᵥ, cᵥ, bᵥ, iₒ, kₒ, jₒ])]⟩,
  -- line 5823: lade,dj,ei,bckl->abcijk
  ⟨1, [g_bbbb [lₒ, aᵥ, dᵥ, eᵥ], t1_bb [dᵥ, jₒ], t1_bb [eᵥ, iₒ], t2_bbbb [bᵥ, cᵥ, kₒ, lₒ]], [(1, [aᵥ, bᵥ, cᵥ, iₒ, jₒ, kₒ]), (-1, [bᵥ, aᵥ, cᵥ, iₒ, jₒ, kₒ])]⟩,
  -- line 5827: lade,di,bl,ecjk->abcijk
  ⟨1, [g_bbbb [lₒ, aᵥ, dᵥ, eᵥ], t1_bb [dᵥ, iₒ], t1_bb [bᵥ, lₒ], t2_bbbb [eᵥ, cᵥ, jₒ, kₒ]], [(1, [aᵥ, bᵥ, cᵥ, iₒ, jₒ, kₒ]), (-1, [aᵥ, cᵥ, bᵥ, iₒ, jₒ, kₒ])]⟩,
  -- line 5831: lbde,dk,al,ecij->abcijk
  ⟨-1, [g_bbbb [lₒ, bᵥ, dᵥ, eᵥ], t1_bb [dᵥ, kₒ], t1_bb [aᵥ, lₒ], t2_bbbb [eᵥ, cᵥ, iₒ, jₒ]], [(1, [aᵥ, bᵥ, cᵥ, iₒ, jₒ, kₒ]), (-1, [aᵥ, bᵥ, cᵥ, iₒ, kₒ, jₒ]), (-1, [cᵥ, bᵥ, aᵥ, iₒ, jₒ, kₒ]), (1, [cᵥ, bᵥ, aᵥ, iₒ, kₒ, jₒ])]⟩,
  -- line 5835: lbde,di,al,ecjk->abcijk
  ⟨-1, [g_bbbb [lₒ, bᵥ, dᵥ, eᵥ], t1_bb [dᵥ, iₒ], t1_bb [aᵥ, lₒ], t2_bbbb [eᵥ, cᵥ, jₒ, kₒ]], [(1, [aᵥ, bᵥ, cᵥ, iₒ, jₒ, kₒ]), (-1, [cᵥ, bᵥ, aᵥ, iₒ, jₒ, kₒ])]⟩,
  -- line 5839: lcde,dk,ej,abil->abcijk
  ⟨1, [g_bbbb [lₒ, cᵥ, dᵥ, eᵥ], t1_bb [dᵥ, kₒ], t1_bb [eᵥ, jₒ], t2_bbbb [aᵥ, bᵥ, iₒ, lₒ]], [(1, [aᵥ, bᵥ, cᵥ, iₒ, jₒ, kₒ]), (-1, [aᵥ, bᵥ, cᵥ, jₒ, iₒ, kₒ])]⟩,
  -- line 5843: lcde,dk,al,ebij->abcijk
  ⟨1, [g_bbbb [lₒ, cᵥ, dᵥ, eᵥ], t1_bb [dᵥ, kₒ], t1_bb [aᵥ, lₒ], t2_bbbb [eᵥ, bᵥ, iₒ, jₒ]], [(1, [aᵥ, bᵥ, cᵥ, iₒ, jₒ, kₒ]), (-1, [aᵥ, bᵥ, cᵥ, iₒ, kₒ, jₒ]), (-1, [bᵥ, aᵥ, cᵥ, iₒ, jₒ, kₒ]), (1, [bᵥ, aᵥ, cᵥ, iₒ, kₒ, jₒ])]⟩,
  -- line 5847: lcde,dj,ei,abkl->abcijk
  ⟨1, [g_bbbb [lₒ, cᵥ, dᵥ, eᵥ], t1_bb [dᵥ, jₒ], t1_bb [eᵥ, iₒ], t2_bbbb [aᵥ, bᵥ, kₒ, lₒ]], [(1, [aᵥ, bᵥ, cᵥ, iₒ, jₒ, kₒ])]⟩,
  -- line 5850: lcde,di,al,ebjk->abcijk
  ⟨1, [g_bbbb [lₒ, cᵥ, dᵥ, eᵥ], t1_bb [dᵥ, iₒ], t1_bb [aᵥ, lₒ], t2_bbbb [eᵥ, bᵥ, jₒ, kₒ]], [(1, [aᵥ, bᵥ, cᵥ, iₒ, jₒ, kₒ]), (-1, [bᵥ, aᵥ, cᵥ, iₒ, jₒ, kₒ])]⟩,
  -- line 5854: lmde,dl,ek,abcijm->abcijk
  ⟨-1, [g_abab [lₒ, mₒ, dᵥ, eᵥ], t1_aa [dᵥ, lₒ], t1_bb [eᵥ, kₒ], t3_bbbbbb [aᵥ, bᵥ, cᵥ, iₒ, jₒ, mₒ]], [(1, [aᵥ, bᵥ, cᵥ, iₒ, jₒ, kₒ]), (-1, [aᵥ, bᵥ, cᵥ, iₒ, kₒ, jₒ])]⟩,
  -- line 5858: mlde,dl,ek,abcijm->abcijk
  ⟨1, [g_bbbb [mₒ, lₒ, dᵥ, eᵥ], t1_bb [dᵥ, lₒ], t1_bb [eᵥ, kₒ], t3_bbbbbb [aᵥ, bᵥ, cᵥ, iₒ, jₒ, mₒ]], [(1, [aᵥ, bᵥ, cᵥ, iₒ, jₒ, kₒ]), (-1, [aᵥ, bᵥ, cᵥ, iₒ, kₒ, jₒ])]⟩
  ]

/-- Part 6 of `ccsdt_t3_bbbbbb`. -/
def ccsdt_t3_bbbbbb_6 : Prog := [
  -- line 5862: lmde,dl,ei,abcjkm->abcijk
  ⟨-1, [g_abab [lₒ, mₒ, dᵥ, eᵥ], t1_aa [dᵥ, lₒ], t1_bb [eᵥ, iₒ], t3_bbbbbb [aᵥ, bᵥ, cᵥ, jₒ, kₒ, mₒ]], [(1, [aᵥ, bᵥ, cᵥ, iₒ, jₒ, kₒ])]⟩,
  -- line 5865: mlde,dl,ei,abcjkm->abcijk
  ⟨1, [g_bbbb [mₒ, lₒ, dᵥ, eᵥ], t1_bb [dᵥ, lₒ], t1_bb [eᵥ, iₒ], t3_bbbbbb [aᵥ, bᵥ, cᵥ, jₒ, kₒ, mₒ]], [(1, [aᵥ, bᵥ, cᵥ, iₒ, jₒ, kₒ])]⟩,
  -- line 5868: lmde,dl,am,ebcijk->abcijk
  ⟨-1, [g_abab [lₒ, mₒ, dᵥ, eᵥ], t1_aa [dᵥ, lₒ], t1_bb [aᵥ, mₒ], t3_bbbbbb [eᵥ, bᵥ, cᵥ, iₒ, jₒ, kₒ]], [(1, [aᵥ, bᵥ, cᵥ, iₒ, jₒ, kₒ]), (-1, [bᵥ, aᵥ, cᵥ, iₒ, jₒ, kₒ])]⟩,
  -- line 5872: mlde,dl,am,ebcijk->abcijk
  ⟨1, [g_bbbb [mₒ, lₒ, dᵥ, eᵥ], t1_bb [dᵥ, lₒ], t1_bb [aᵥ, mₒ], t3_bbbbbb [eᵥ, bᵥ, cᵥ, iₒ, jₒ, kₒ]], [(1, [aᵥ, bᵥ, cᵥ, iₒ, jₒ, kₒ]), (-1, [bᵥ, aᵥ, cᵥ, iₒ, jₒ, kₒ])]⟩,
  -- line 5876: lmde,dl,cm,eabijk->abcijk
  ⟨-1, [g_abab [lₒ, mₒ, dᵥ, eᵥ], t1_aa [dᵥ, lₒ], t1_bb [cᵥ, mₒ], t3_bbbbbb [eᵥ, aᵥ, bᵥ, iₒ, jₒ, kₒ]], [(1, [aᵥ, bᵥ, cᵥ, iₒ, jₒ, kₒ])]⟩,
  -- line 5879: mlde,dl,cm,eabijk->abcijk
  ⟨1, [g_bbbb [mₒ, lₒ, dᵥ, eᵥ], t1_bb [dᵥ, lₒ], t1_bb [cᵥ, mₒ], t3_bbbbbb [eᵥ, aᵥ, bᵥ, iₒ, jₒ, kₒ]], [(1, [aᵥ, bᵥ, cᵥ, iₒ, jₒ, kₒ])]⟩,
  -- line 5882: mlde,dk,ej,abciml->abcijk
  ⟨-1/2, [g_bbbb [mₒ, lₒ, dᵥ, eᵥ], t1_bb [dᵥ, kₒ], t1_bb [eᵥ, jₒ], t3_bbbbbb [aᵥ, bᵥ, cᵥ, iₒ, mₒ, lₒ]], [(1, [aᵥ, bᵥ, cᵥ, iₒ, jₒ, kₒ]), (-1, [aᵥ, bᵥ, cᵥ, jₒ, iₒ, kₒ])]⟩,
  -- line 5886: mled,dk,al,ebcmji->abcijk
  ⟨1, [g_abab [mₒ, lₒ, eᵥ, dᵥ], t1_bb [dᵥ, kₒ], t1_bb [aᵥ, lₒ], t3_abbabb [eᵥ, bᵥ, cᵥ, mₒ, jₒ, iₒ]], [(1, [aᵥ, bᵥ, cᵥ, iₒ, jₒ, kₒ]), (-1, [aᵥ, bᵥ, cᵥ, iₒ, kₒ, jₒ]), (-1, [bᵥ, aᵥ, cᵥ, iₒ, jₒ, kₒ]), (1, [bᵥ, aᵥ, cᵥ, iₒ, kₒ, jₒ])]⟩,
  -- line 5890: mlde,dk,al,ebcijm->abcijk
  ⟨1, [g_bbbb [mₒ, lₒ, dᵥ, eᵥ], t1_bb [dᵥ, kₒ], t1_bb [aᵥ, lₒ], t3_bbbbbb [eᵥ, bᵥ, cᵥ, iₒ, jₒ, mₒ]], [(1, [aᵥ, bᵥ, cᵥ, iₒ, jₒ, kₒ]), (-1, [aᵥ, bᵥ, cᵥ, iₒ, kₒ, jₒ]), (-1, [bᵥ, aᵥ, cᵥ, iₒ, jₒ, kₒ]), (1, [bᵥ, aᵥ, cᵥ, iₒ, kₒ, jₒ])]⟩,
  -- line 5894: mled,dk,cl,eabmji->abcijk
  ⟨1, [g_abab [mₒ, lₒ, eᵥ, dᵥ], t1_bb [dᵥ, kₒ], t1_bb [cᵥ, lₒ], t3_abbabb [eᵥ, aᵥ, bᵥ, mₒ, jₒ, iₒ]], [(1, [aᵥ, bᵥ, cᵥ, iₒ, jₒ, kₒ]), (-1, [aᵥ, bᵥ, cᵥ, iₒ, kₒ, jₒ])]⟩,
  -- line 5898: mlde,dk,cl,eabijm->abcijk
  ⟨1, [g_bbbb [mₒ, lₒ, dᵥ, eᵥ], t1_bb [dᵥ, kₒ], t1_bb [cᵥ, lₒ], t3_bbbbbb [eᵥ, aᵥ, bᵥ, iₒ, jₒ, mₒ]], [(1, [aᵥ, bᵥ, cᵥ, iₒ, jₒ, kₒ]), (-1, [aᵥ, bᵥ, cᵥ, iₒ, kₒ, jₒ])]⟩,
  -- line 5902: mlde,dj,ei,abckml->abcijk
  ⟨-1/2, [g_bbbb [mₒ, lₒ, dᵥ, eᵥ], t1_bb [dᵥ, jₒ], t1_bb [eᵥ, iₒ], t3_bbbbbb [aᵥ, bᵥ, cᵥ, kₒ, mₒ, lₒ]], [(1, [aᵥ, bᵥ, cᵥ, iₒ, jₒ, kₒ])]⟩,
  -- line 5905: mled,di,al,ebcmkj->abcijk
  ⟨1, [g_abab [mₒ, lₒ, eᵥ, dᵥ], t1_bb [dᵥ, iₒ], t1_bb [aᵥ, lₒ], t3_abbabb [eᵥ, bᵥ, cᵥ, mₒ, kₒ, jₒ]], [(1, [aᵥ, bᵥ, cᵥ, iₒ, jₒ, kₒ]), (-1, [bᵥ, aᵥ, cᵥ, iₒ, jₒ, kₒ])]⟩,
  -- line 5909: mlde,di,al,ebcjkm->abcijk
  ⟨1, [g_bbbb [mₒ, lₒ, dᵥ, eᵥ], t1_bb [dᵥ, iₒ], t1_bb [aᵥ, lₒ], t3_bbbbbb [eᵥ, bᵥ, cᵥ, jₒ, kₒ, mₒ]], [(1, [aᵥ, bᵥ, cᵥ, iₒ, jₒ, kₒ]), (-1, [bᵥ, aᵥ, cᵥ, iₒ, jₒ, kₒ])]⟩,
  -- line 5913: mled,di,cl,eabmkj->abcijk
  ⟨1, [g_abab [mₒ, lₒ, eᵥ, dᵥ], t1_bb [dᵥ, iₒ], t1_bb [cᵥ, lₒ], t3_abbabb [eᵥ, aᵥ, bᵥ, mₒ, kₒ, jₒ]], [(1, [aᵥ, bᵥ, cᵥ, iₒ, jₒ, kₒ])]⟩,
  -- line 5916: mlde,di,cl,eabjkm->abcijk
  ⟨1, [g_bbbb [mₒ, lₒ, dᵥ, eᵥ], t1_bb [dᵥ, iₒ], t1_bb [cᵥ, lₒ], t3_bbbbbb [eᵥ, aᵥ, bᵥ, jₒ, kₒ, mₒ]], [(1, [aᵥ, bᵥ, cᵥ, iₒ, jₒ, kₒ])]⟩,
  -- line 5919: mlde,al,bm,decijk->abcijk
  ⟨-1/2, [g_bbbb [mₒ, lₒ, dᵥ, eᵥ], t1_bb [aᵥ, lₒ], t1_bb [bᵥ, mₒ], t3_bbbbbb [dᵥ, eᵥ, cᵥ, iₒ, jₒ, kₒ]], [(1, [aᵥ, bᵥ, cᵥ, iₒ, jₒ, kₒ]), (-1, [aᵥ, cᵥ, bᵥ, iₒ, jₒ, kₒ])]⟩,
  -- line 5923: mlde,bl,cm,deaijk->abcijk
  ⟨-1/2, [g_bbbb [mₒ, lₒ, dᵥ, eᵥ], t1_bb [bᵥ, lₒ], t1_bb [cᵥ, mₒ], t3_bbbbbb [dᵥ, eᵥ, aᵥ, iₒ, jₒ, kₒ]], [(1, [aᵥ, bᵥ, cᵥ, iₒ, jₒ, kₒ])]⟩,
  -- line 5926: mlde,dk,ej,al,bcim->abcijk
  ⟨-1, [g_bbbb [mₒ, lₒ, dᵥ, eᵥ], t1_bb [dᵥ, kₒ], t1_bb [eᵥ, jₒ], t1_bb [aᵥ, lₒ], t2_bbbb [bᵥ, cᵥ, iₒ, mₒ]], [(1, [aᵥ, bᵥ, cᵥ, iₒ, jₒ, kₒ]), (-1, [aᵥ, bᵥ, cᵥ, jₒ, iₒ, kₒ]), (-1, [bᵥ, aᵥ, cᵥ, iₒ, jₒ, kₒ]), (1, [bᵥ, aᵥ, cᵥ, jₒ, iₒ, kₒ])]⟩,
  -- line 5930: mlde,dk,ej,cl,abim->abcijk
  ⟨-1, [g_bbbb [mₒ, lₒ, dᵥ, eᵥ], t1_bb [dᵥ, kₒ], t1_bb [eᵥ, jₒ], t1_bb [cᵥ, lₒ], t2_bbbb [aᵥ, bᵥ, iₒ, mₒ]], [(1, [aᵥ, bᵥ, cᵥ, iₒ, jₒ, kₒ]), (-1, [aᵥ, bᵥ, cᵥ, jₒ, iₒ, kₒ])]⟩,
  -- line 5934: mlde,dk,al,bm,ecij->abcijk
  ⟨-1, [g_bbbb [mₒ, lₒ, dᵥ, eᵥ], t1_bb [dᵥ, kₒ], t1_bb [aᵥ, lₒ], t1_bb [bᵥ, mₒ], t2_bbbb [eᵥ, cᵥ, iₒ, jₒ]], [(1, [aᵥ, bᵥ, cᵥ, iₒ, jₒ, kₒ]), (-1, [aᵥ, bᵥ, cᵥ, iₒ, kₒ, jₒ]), (-1, [aᵥ, cᵥ, bᵥ, iₒ, jₒ, kₒ]), (1, [aᵥ, cᵥ, bᵥ, iₒ, kₒ, jₒ])]⟩,
  -- line 5938: mlde,dk,bl,cm,eaij->abcijk
  ⟨-1, [g_bbbb [mₒ, lₒ, dᵥ, eᵥ], t1_bb [dᵥ, kₒ], t1_bb [bᵥ, lₒ], t1_bb [cᵥ, mₒ], t2_bbbb [eᵥ, aᵥ, iₒ, jₒ]], [(1, [aᵥ, bᵥ, cᵥ, iₒ, jₒ, kₒ]), (-1, [aᵥ, bᵥ, cᵥ, iₒ, kₒ, jₒ])]⟩,
  -- line 5942: mlde,dj,ei,al,bckm->abcijk
  ⟨-1, [g_bbbb [mₒ, lₒ, dᵥ, eᵥ], t1_bb [dᵥ, jₒ], t1_bb [eᵥ, iₒ], t1_bb [aᵥ, lₒ], t2_bbbb [bᵥ, cᵥ, kₒ, mₒ]], [(1, [aᵥ, bᵥ, cᵥ, iₒ, jₒ, kₒ]), (-1, [bᵥ, aᵥ, cᵥ, iₒ, jₒ, kₒ])]⟩,
  -- line 5946: mlde,dj,ei,cl,abkm->abcijk
  ⟨-1, [g_bbbb [mₒ, lₒ, dᵥ, eᵥ], t1_bb [dᵥ, jₒ], t1_bb [eᵥ, iₒ], t1_bb [cᵥ, lₒ], t2_bbbb [aᵥ, bᵥ, kₒ, mₒ]], [(1, [aᵥ, bᵥ, cᵥ, iₒ, jₒ, kₒ])]⟩,
  -- line 5949: mlde,di,al,bm,ecjk->abcijk
  ⟨-1, [g_bbbb [mₒ, lₒ, dᵥ, eᵥ], t1_bb [dᵥ, iₒ], t1_bb [aᵥ, lₒ], t1_bb [bᵥ, mₒ], t2_bbbb [eᵥ, cᵥ, jₒ, kₒ]], [(1, [aᵥ, bᵥ, cᵥ, iₒ, jₒ, kₒ]), (-1, [aᵥ, cᵥ, bᵥ, iₒ, jₒ, kₒ])]⟩,
  -- line 5953: mlde,di,bl,cm,eajk->abcijk
  ⟨-1, [g_bbbb [mₒ, lₒ, dᵥ, eᵥ], t1_bb [dᵥ, iₒ], t1_bb [bᵥ, lₒ], t1_bb [cᵥ, mₒ], t2_bbbb [eᵥ, aᵥ, jₒ, kₒ]], [(1, [aᵥ, bᵥ, cᵥ, iₒ, jₒ, kₒ])]⟩
  ]

/-- `UT2/fullCCresidEqns.py` 4949-5955, `ccsdt_t3_bbbbbb_residual`. -/
def ccsdt_t3_bbbbbb : Prog := ccsdt_t3_bbbbbb_0 ++ (ccsdt_t3_bbbbbb_1 ++ (ccsdt_t3_bbbbbb_2 ++ (ccsdt_t3_bbbbbb_3 ++ (ccsdt_t3_bbbbbb_4 ++ (ccsdt_t3_bbbbbb_5 ++ (ccsdt_t3_bbbbbb_6))))))

end Verif.Gen
