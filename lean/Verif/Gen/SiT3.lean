import Verif.Ein.Names
import Verif.Gen.Antisym

/-! Written by `/verif/tools/gen.py`. Programs read from `/repo/UT2`. -/

set_option maxRecDepth 100000

namespace Verif.Gen

open Verif.Ein Verif.Ein.N


/-- `UT2/build_approxT3full.py` 5-43, `ccsdtq_t3_aaaaaa_residual`. -/
def approxT3_aaaaaa : Prog := [
  -- line 14: lajk,bcil->abcijk
  ⟨-1, [g_aaaa [lₒ, aᵥ, jₒ, kₒ], t2_aaaa [bᵥ, cᵥ, iₒ, lₒ]], [(1, [aᵥ, bᵥ, cᵥ, iₒ, jₒ, kₒ]), (-1, [aᵥ, bᵥ, cᵥ, jₒ, iₒ, kₒ]), (-1, [bᵥ, aᵥ, cᵥ, iₒ, jₒ, kₒ]), (1, [bᵥ, aᵥ, cᵥ, jₒ, iₒ, kₒ])]⟩,
  -- line 18: laij,bckl->abcijk
  ⟨-1, [g_aaaa [lₒ, aᵥ, iₒ, jₒ], t2_aaaa [bᵥ, cᵥ, kₒ, lₒ]], [(1, [aᵥ, bᵥ, cᵥ, iₒ, jₒ, kₒ]), (-1, [bᵥ, aᵥ, cᵥ, iₒ, jₒ, kₒ])]⟩,
  -- line 22: lcjk,abil->abcijk
  ⟨-1, [g_aaaa [lₒ, cᵥ, jₒ, kₒ], t2_aaaa [aᵥ, bᵥ, iₒ, lₒ]], [(1, [aᵥ, bᵥ, cᵥ, iₒ, jₒ, kₒ]), (-1, [aᵥ, bᵥ, cᵥ, jₒ, iₒ, kₒ])]⟩,
  -- line 26: lcij,abkl->abcijk
  ⟨-1, [g_aaaa [lₒ, cᵥ, iₒ, jₒ], t2_aaaa [aᵥ, bᵥ, kₒ, lₒ]], [(1, [aᵥ, bᵥ, cᵥ, iₒ, jₒ, kₒ])]⟩,
  -- line 29: abdk,dcij->abcijk
  ⟨-1, [g_aaaa [aᵥ, bᵥ, dᵥ, kₒ], t2_aaaa [dᵥ, cᵥ, iₒ, jₒ]], [(1, [aᵥ, bᵥ, cᵥ, iₒ, jₒ, kₒ]), (-1, [aᵥ, bᵥ, cᵥ, iₒ, kₒ, jₒ]), (-1, [aᵥ, cᵥ, bᵥ, iₒ, jₒ, kₒ]), (1, [aᵥ, cᵥ, bᵥ, iₒ, kₒ, jₒ])]⟩,
  -- line 33: abdi,dcjk->abcijk
  ⟨-1, [g_aaaa [aᵥ, bᵥ, dᵥ, iₒ], t2_aaaa [dᵥ, cᵥ, jₒ, kₒ]], [(1, [aᵥ, bᵥ, cᵥ, iₒ, jₒ, kₒ]), (-1, [aᵥ, cᵥ, bᵥ, iₒ, jₒ, kₒ])]⟩,
  -- line 37: bcdk,daij->abcijk
  ⟨-1, [g_aaaa [bᵥ, cᵥ, dᵥ, kₒ], t2_aaaa [dᵥ, aᵥ, iₒ, jₒ]], [(1, [aᵥ, bᵥ, cᵥ, iₒ, jₒ, kₒ]), (-1, [aᵥ, bᵥ, cᵥ, iₒ, kₒ, jₒ])]⟩,
  -- line 41: bcdi,dajk->abcijk
  ⟨-1, [g_aaaa [bᵥ, cᵥ, dᵥ, iₒ], t2_aaaa [dᵥ, aᵥ, jₒ, kₒ]], [(1, [aᵥ, bᵥ, cᵥ, iₒ, jₒ, kₒ])]⟩
  ]

/-- `UT2/build_approxT3full.py` 46-91, `ccsdtq_t3_aabaab_residual`. -/
def approxT3_aabaab : Prog := [
  -- line 55: aljk,bcil->abcijk
  ⟨1, [g_abab [aᵥ, lₒ, jₒ, kₒ], t2_abab [bᵥ, cᵥ, iₒ, lₒ]], [(1, [aᵥ, bᵥ, cᵥ, iₒ, jₒ, kₒ]), (-1, [aᵥ, bᵥ, cᵥ, jₒ, iₒ, kₒ]), (-1, [bᵥ, aᵥ, cᵥ, iₒ, jₒ, kₒ]), (1, [bᵥ, aᵥ, cᵥ, jₒ, iₒ, kₒ])]⟩,
  -- line 59: laij,bclk->abcijk
  ⟨1, [g_aaaa [lₒ, aᵥ, iₒ, jₒ], t2_abab [bᵥ, cᵥ, lₒ, kₒ]], [(1, [aᵥ, bᵥ, cᵥ, iₒ, jₒ, kₒ]), (-1, [bᵥ, aᵥ, cᵥ, iₒ, jₒ, kₒ])]⟩,
  -- line 63: lcjk,abil->abcijk
  ⟨-1, [g_abab [lₒ, cᵥ, jₒ, kₒ], t2_aaaa [aᵥ, bᵥ, iₒ, lₒ]], [(1, [aᵥ, bᵥ, cᵥ, iₒ, jₒ, kₒ]), (-1, [aᵥ, bᵥ, cᵥ, jₒ, iₒ, kₒ])]⟩,
  -- line 67: acdk,dbij->abcijk
  ⟨1, [g_abab [aᵥ, cᵥ, dᵥ, kₒ], t2_aaaa [dᵥ, bᵥ, iₒ, jₒ]], [(1, [aᵥ, bᵥ, cᵥ, iₒ, jₒ, kₒ])]⟩,
  -- line 70: abdj,dcik->abcijk
  ⟨1, [g_aaaa [aᵥ, bᵥ, dᵥ, jₒ], t2_abab [dᵥ, cᵥ, iₒ, kₒ]], [(1, [aᵥ, bᵥ, cᵥ, iₒ, jₒ, kₒ])]⟩,
  -- line 73: acjd,bdik->abcijk
  ⟨-1, [g_abab [aᵥ, cᵥ, jₒ, dᵥ], t2_abab [bᵥ, dᵥ, iₒ, kₒ]], [(1, [aᵥ, bᵥ, cᵥ, iₒ, jₒ, kₒ])]⟩,
  -- line 76: abdi,dcjk->abcijk
  ⟨-1, [g_aaaa [aᵥ, bᵥ, dᵥ, iₒ], t2_abab [dᵥ, cᵥ, jₒ, kₒ]], [(1, [aᵥ, bᵥ, cᵥ, iₒ, jₒ, kₒ])]⟩,
  -- line 79: acid,bdjk->abcijk
  ⟨1, [g_abab [aᵥ, cᵥ, iₒ, dᵥ], t2_abab [bᵥ, dᵥ, jₒ, kₒ]], [(1, [aᵥ, bᵥ, cᵥ, iₒ, jₒ, kₒ])]⟩,
  -- line 82: bcdk,daij->abcijk
  ⟨-1, [g_abab [bᵥ, cᵥ, dᵥ, kₒ], t2_aaaa [dᵥ, aᵥ, iₒ, jₒ]], [(1, [aᵥ, bᵥ, cᵥ, iₒ, jₒ, kₒ])]⟩,
  -- line 85: bcjd,adik->abcijk
  ⟨1, [g_abab [bᵥ, cᵥ, jₒ, dᵥ], t2_abab [aᵥ, dᵥ, iₒ, kₒ]], [(1, [aᵥ, bᵥ, cᵥ, iₒ, jₒ, kₒ])]⟩,
  -- line 88: bcid,adjk->abcijk
  ⟨-1, [g_abab [bᵥ, cᵥ, iₒ, dᵥ], t2_abab [aᵥ, dᵥ, jₒ, kₒ]], [(1, [aᵥ, bᵥ, cᵥ, iₒ, jₒ, kₒ])]⟩
  ]

/-- `UT2/build_approxT3full.py` 94-139, `ccsdtq_t3_abbabb_residual`. -/
def approxT3_abbabb : Prog := [
  -- line 103: lbjk,acil->abcijk
  ⟨1, [g_bbbb [lₒ, bᵥ, jₒ, kₒ], t2_abab [aᵥ, cᵥ, iₒ, lₒ]], [(1, [aᵥ, bᵥ, cᵥ, iₒ, jₒ, kₒ])]⟩,
  -- line 106: alik,bcjl->abcijk
  ⟨-1, [g_abab [aᵥ, lₒ, iₒ, kₒ], t2_bbbb [bᵥ, cᵥ, jₒ, lₒ]], [(1, [aᵥ, bᵥ, cᵥ, iₒ, jₒ, kₒ])]⟩,
  -- line 109: lbik,aclj->abcijk
  ⟨1, [g_abab [lₒ, bᵥ, iₒ, kₒ], t2_abab [aᵥ, cᵥ, lₒ, jₒ]], [(1, [aᵥ, bᵥ, cᵥ, iₒ, jₒ, kₒ])]⟩,
  -- line 112: alij,bckl->abcijk
  ⟨1, [g_abab [aᵥ, lₒ, iₒ, jₒ], t2_bbbb [bᵥ, cᵥ, kₒ, lₒ]], [(1, [aᵥ, bᵥ, cᵥ, iₒ, jₒ, kₒ])]⟩,
  -- line 115: lbij,aclk->abcijk
  ⟨-1, [g_abab [lₒ, bᵥ, iₒ, jₒ], t2_abab [aᵥ, cᵥ, lₒ, kₒ]], [(1, [aᵥ, bᵥ, cᵥ, iₒ, jₒ, kₒ])]⟩,
  -- line 118: lcjk,abil->abcijk
  ⟨-1, [g_bbbb [lₒ, cᵥ, jₒ, kₒ], t2_abab [aᵥ, bᵥ, iₒ, lₒ]], [(1, [aᵥ, bᵥ, cᵥ, iₒ, jₒ, kₒ])]⟩,
  -- line 121: lcik,ablj->abcijk
  ⟨-1, [g_abab [lₒ, cᵥ, iₒ, kₒ], t2_abab [aᵥ, bᵥ, lₒ, jₒ]], [(1, [aᵥ, bᵥ, cᵥ, iₒ, jₒ, kₒ])]⟩,
  -- line 124: lcij,ablk->abcijk
  ⟨1, [g_abab [lₒ, cᵥ, iₒ, jₒ], t2_abab [aᵥ, bᵥ, lₒ, kₒ]], [(1, [aᵥ, bᵥ, cᵥ, iₒ, jₒ, kₒ])]⟩,
  -- line 127: abdk,dcij->abcijk
  ⟨-1, [g_abab [aᵥ, bᵥ, dᵥ, kₒ], t2_abab [dᵥ, cᵥ, iₒ, jₒ]], [(1, [aᵥ, bᵥ, cᵥ, iₒ, jₒ, kₒ]), (-1, [aᵥ, bᵥ, cᵥ, iₒ, kₒ, jₒ]), (-1, [aᵥ, cᵥ, bᵥ, iₒ, jₒ, kₒ]), (1, [aᵥ, cᵥ, bᵥ, iₒ, kₒ, jₒ])]⟩,
  -- line 131: abid,dcjk->abcijk
  ⟨1, [g_abab [aᵥ, bᵥ, iₒ, dᵥ], t2_bbbb [dᵥ, cᵥ, jₒ, kₒ]], [(1, [aᵥ, bᵥ, cᵥ, iₒ, jₒ, kₒ]), (-1, [aᵥ, cᵥ, bᵥ, iₒ, jₒ, kₒ])]⟩,
  -- line 135: bcdk,adij->abcijk
  ⟨1, [g_bbbb [bᵥ, cᵥ, dᵥ, kₒ], t2_abab [aᵥ, dᵥ, iₒ, jₒ]], [(1, [aᵥ, bᵥ, cᵥ, iₒ, jₒ, kₒ]), (-1, [aᵥ, bᵥ, cᵥ, iₒ, kₒ, jₒ])]⟩
  ]

/-- `UT2/build_approxT3full.py` 142-181, `ccsdtq_t3_bbbbbb_residual`. -/
def approxT3_bbbbbb : Prog := [
  -- line 151: lajk,bcil->abcijk
  ⟨-1, [g_bbbb [lₒ, aᵥ, jₒ, kₒ], t2_bbbb [bᵥ, cᵥ, iₒ, lₒ]], [(1, [aᵥ, bᵥ, cᵥ, iₒ, jₒ, kₒ]), (-1, [aᵥ, bᵥ, cᵥ, jₒ, iₒ, kₒ]), (-1, [bᵥ, aᵥ, cᵥ, iₒ, jₒ, kₒ]), (1, [bᵥ, aᵥ, cᵥ, jₒ, iₒ, kₒ])]⟩,
  -- line 155: laij,bckl->abcijk
  ⟨-1, [g_bbbb [lₒ, aᵥ, iₒ, jₒ], t2_bbbb [bᵥ, cᵥ, kₒ, lₒ]], [(1, [aᵥ, bᵥ, cᵥ, iₒ, jₒ, kₒ]), (-1, [bᵥ, aᵥ, cᵥ, iₒ, jₒ, kₒ])]⟩,
  -- line 159: lcjk,abil->abcijk
  ⟨-1, [g_bbbb [lₒ, cᵥ, jₒ, kₒ], t2_bbbb [aᵥ, bᵥ, iₒ, lₒ]], [(1, [aᵥ, bᵥ, cᵥ, iₒ, jₒ, kₒ]), (-1, [aᵥ, bᵥ, cᵥ, jₒ, iₒ, kₒ])]⟩,
  -- line 163: lcij,abkl->abcijk
  ⟨-1, [g_bbbb [lₒ, cᵥ, iₒ, jₒ], t2_bbbb [aᵥ, bᵥ, kₒ, lₒ]], [(1, [aᵥ, bᵥ, cᵥ, iₒ, jₒ, kₒ])]⟩,
  -- line 166: abdk,dcij->abcijk
  ⟨-1, [g_bbbb [aᵥ, bᵥ, dᵥ, kₒ], t2_bbbb [dᵥ, cᵥ, iₒ, jₒ]], [(1, [aᵥ, bᵥ, cᵥ, iₒ, jₒ, kₒ]), (-1, [aᵥ, bᵥ, cᵥ, iₒ, kₒ, jₒ]), (-1, [aᵥ, cᵥ, bᵥ, iₒ, jₒ, kₒ]), (1, [aᵥ, cᵥ, bᵥ, iₒ, kₒ, jₒ])]⟩,
  -- line 170: abdi,dcjk->abcijk
  ⟨-1, [g_bbbb [aᵥ, bᵥ, dᵥ, iₒ], t2_bbbb [dᵥ, cᵥ, jₒ, kₒ]], [(1, [aᵥ, bᵥ, cᵥ, iₒ, jₒ, kₒ]), (-1, [aᵥ, cᵥ, bᵥ, iₒ, jₒ, kₒ])]⟩,
  -- line 174: bcdk,daij->abcijk
  ⟨-1, [g_bbbb [bᵥ, cᵥ, dᵥ, kₒ], t2_bbbb [dᵥ, aᵥ, iₒ, jₒ]], [(1, [aᵥ, bᵥ, cᵥ, iₒ, jₒ, kₒ]), (-1, [aᵥ, bᵥ, cᵥ, iₒ, kₒ, jₒ])]⟩,
  -- line 178: bcdi,dajk->abcijk
  ⟨-1, [g_bbbb [bᵥ, cᵥ, dᵥ, iₒ], t2_bbbb [dᵥ, aᵥ, jₒ, kₒ]], [(1, [aᵥ, bᵥ, cᵥ, iₒ, jₒ, kₒ])]⟩
  ]

/-- `UT2/square_brakT_corr.py` 4-114, `square_brakT`. -/
def square_brakT : Prog := [
  -- line 7: lkcj,ijba,cbailk
  ⟨1/4, [g_aaaa [lₒ, kₒ, cᵥ, jₒ], l2_aaaa [iₒ, jₒ, bᵥ, aᵥ], t3_aaaaaa [cᵥ, bᵥ, aᵥ, iₒ, lₒ, kₒ]], [(1, [])]⟩,
  -- line 10: lkjc,ijba,abcilk
  ⟨1/4, [g_abab [lₒ, kₒ, jₒ, cᵥ], l2_aaaa [iₒ, jₒ, bᵥ, aᵥ], t3_aabaab [aᵥ, bᵥ, cᵥ, iₒ, lₒ, kₒ]], [(1, [])]⟩,
  -- line 13: kljc,ijba,abcikl
  ⟨1/4, [g_abab [kₒ, lₒ, jₒ, cᵥ], l2_aaaa [iₒ, jₒ, bᵥ, aᵥ], t3_aabaab [aᵥ, bᵥ, cᵥ, iₒ, kₒ, lₒ]], [(1, [])]⟩,
  -- line 16: lkcj,ijba,cbailk
  ⟨1/4, [g_abab [lₒ, kₒ, cᵥ, jₒ], l2_abab [iₒ, jₒ, bᵥ, aᵥ], t3_aabaab [cᵥ, bᵥ, aᵥ, iₒ, lₒ, kₒ]], [(1, [])]⟩,
  -- line 19: klcj,ijba,cbaikl
  ⟨1/4, [g_abab [kₒ, lₒ, cᵥ, jₒ], l2_abab [iₒ, jₒ, bᵥ, aᵥ], t3_aabaab [cᵥ, bᵥ, aᵥ, iₒ, kₒ, lₒ]], [(1, [])]⟩,
  -- line 22: lkcj,ijba,bcailk
  ⟨-1/4, [g_bbbb [lₒ, kₒ, cᵥ, jₒ], l2_abab [iₒ, jₒ, bᵥ, aᵥ], t3_abbabb [bᵥ, cᵥ, aᵥ, iₒ, lₒ, kₒ]], [(1, [])]⟩,
  -- line 25: lkcj,ijab,cabilk
  ⟨1/4, [g_abab [lₒ, kₒ, cᵥ, jₒ], l2_abab [iₒ, jₒ, aᵥ, bᵥ], t3_aabaab [cᵥ, aᵥ, bᵥ, iₒ, lₒ, kₒ]], [(1, [])]⟩,
  -- line 28: klcj,ijab,cabikl
  ⟨1/4, [g_abab [kₒ, lₒ, cᵥ, jₒ], l2_abab [iₒ, jₒ, aᵥ, bᵥ], t3_aabaab [cᵥ, aᵥ, bᵥ, iₒ, kₒ, lₒ]], [(1, [])]⟩,
  -- line 31: lkcj,ijab,abcilk
  ⟨1/4, [g_bbbb [lₒ, kₒ, cᵥ, jₒ], l2_abab [iₒ, jₒ, aᵥ, bᵥ], t3_abbabb [aᵥ, bᵥ, cᵥ, iₒ, lₒ, kₒ]], [(1, [])]⟩,
  -- line 34: lkcj,jiba,cbakli
  ⟨1/4, [g_aaaa [lₒ, kₒ, cᵥ, jₒ], l2_abab [jₒ, iₒ, bᵥ, aᵥ], t3_aabaab [cᵥ, bᵥ, aᵥ, kₒ, lₒ, iₒ]], [(1, [])]⟩,
  -- line 37: lkjc,jiba,bcalik
  ⟨1/4, [g_abab [lₒ, kₒ, jₒ, cᵥ], l2_abab [jₒ, iₒ, bᵥ, aᵥ], t3_abbabb [bᵥ, cᵥ, aᵥ, lₒ, iₒ, kₒ]], [(1, [])]⟩,
  -- line 40: kljc,jiba,bcakli
  ⟨-1/4, [g_abab [kₒ, lₒ, jₒ, cᵥ], l2_abab [jₒ, iₒ, bᵥ, aᵥ], t3_abbabb [bᵥ, cᵥ, aᵥ, kₒ, lₒ, iₒ]], [(1, [])]⟩,
  -- line 43: lkcj,jiab,cabkli
  ⟨1/4, [g_aaaa [lₒ, kₒ, cᵥ, jₒ], l2_abab [jₒ, iₒ, aᵥ, bᵥ], t3_aabaab [cᵥ, aᵥ, bᵥ, kₒ, lₒ, iₒ]], [(1, [])]⟩,
  -- line 46: lkjc,jiab,abclik
  ⟨-1/4, [g_abab [lₒ, kₒ, jₒ, cᵥ], l2_abab [jₒ, iₒ, aᵥ, bᵥ], t3_abbabb [aᵥ, bᵥ, cᵥ, lₒ, iₒ, kₒ]], [(1, [])]⟩,
  -- line 49: kljc,jiab,abckli
  ⟨1/4, [g_abab [kₒ, lₒ, jₒ, cᵥ], l2_abab [jₒ, iₒ, aᵥ, bᵥ], t3_abbabb [aᵥ, bᵥ, cᵥ, kₒ, lₒ, iₒ]], [(1, [])]⟩,
  -- line 52: lkcj,ijba,cbalik
  ⟨-1/4, [g_abab [lₒ, kₒ, cᵥ, jₒ], l2_bbbb [iₒ, jₒ, bᵥ, aᵥ], t3_abbabb [cᵥ, bᵥ, aᵥ, lₒ, iₒ, kₒ]], [(1, [])]⟩,
  -- line 55: klcj,ijba,cbakli
  ⟨1/4, [g_abab [kₒ, lₒ, cᵥ, jₒ], l2_bbbb [iₒ, jₒ, bᵥ, aᵥ], t3_abbabb [cᵥ, bᵥ, aᵥ, kₒ, lₒ, iₒ]], [(1, [])]⟩,
  -- line 58: lkcj,ijba,cbailk
  ⟨1/4, [g_bbbb [lₒ, kₒ, cᵥ, jₒ], l2_bbbb [iₒ, jₒ, bᵥ, aᵥ], t3_bbbbbb [cᵥ, bᵥ, aᵥ, iₒ, lₒ, kₒ]], [(1, [])]⟩,
  -- line 61: kbcd,ijba,cdaijk
  ⟨1/4, [g_aaaa [kₒ, bᵥ, cᵥ, dᵥ], l2_aaaa [iₒ, jₒ, bᵥ, aᵥ], t3_aaaaaa [cᵥ, dᵥ, aᵥ, iₒ, jₒ, kₒ]], [(1, [])]⟩,
  -- line 64: bkcd,ijba,cadijk
  ⟨1/4, [g_abab [bᵥ, kₒ, cᵥ, dᵥ], l2_aaaa [iₒ, jₒ, bᵥ, aᵥ], t3_aabaab [cᵥ, aᵥ, dᵥ, iₒ, jₒ, kₒ]], [(1, [])]⟩,
  -- line 67: bkdc,ijba,adcijk
  ⟨-1/4, [g_abab [bᵥ, kₒ, dᵥ, cᵥ], l2_aaaa [iₒ, jₒ, bᵥ, aᵥ], t3_aabaab [aᵥ, dᵥ, cᵥ, iₒ, jₒ, kₒ]], [(1, [])]⟩,
  -- line 70: kbcd,ijba,cdaikj
  ⟨-1/4, [g_aaaa [kₒ, bᵥ, cᵥ, dᵥ], l2_abab [iₒ, jₒ, bᵥ, aᵥ], t3_aabaab [cᵥ, dᵥ, aᵥ, iₒ, kₒ, jₒ]], [(1, [])]⟩,
  -- line 73: bkcd,ijba,cdaijk
  ⟨-1/4, [g_abab [bᵥ, kₒ, cᵥ, dᵥ], l2_abab [iₒ, jₒ, bᵥ, aᵥ], t3_abbabb [cᵥ, dᵥ, aᵥ, iₒ, jₒ, kₒ]], [(1, [])]⟩,
  -- line 76: bkdc,ijba,dcaijk
  ⟨-1/4, [g_abab [bᵥ, kₒ, dᵥ, cᵥ], l2_abab [iₒ, jₒ, bᵥ, aᵥ], t3_abbabb [dᵥ, cᵥ, aᵥ, iₒ, jₒ, kₒ]], [(1, [])]⟩,
  -- line 79: kbcd,ijab,cadikj
  ⟨-1/4, [g_abab [kₒ, bᵥ, cᵥ, dᵥ], l2_abab [iₒ, jₒ, aᵥ, bᵥ], t3_aabaab [cᵥ, aᵥ, dᵥ, iₒ, kₒ, jₒ]], [(1, [])]⟩,
  -- line 82: kbdc,ijab,adcikj
  ⟨1/4, [g_abab [kₒ, bᵥ, dᵥ, cᵥ], l2_abab [iₒ, jₒ, aᵥ, bᵥ], t3_aabaab [aᵥ, dᵥ, cᵥ, iₒ, kₒ, jₒ]], [(1, [])]⟩,
  -- line 85: kbcd,ijab,adcijk
  ⟨1/4, [g_bbbb [kₒ, bᵥ, cᵥ, dᵥ], l2_abab [iₒ, jₒ, aᵥ, bᵥ], t3_abbabb [aᵥ, dᵥ, cᵥ, iₒ, jₒ, kₒ]], [(1, [])]⟩,
  -- line 88: kbcd,jiba,cdakji
  ⟨1/4, [g_aaaa [kₒ, bᵥ, cᵥ, dᵥ], l2_abab [jₒ, iₒ, bᵥ, aᵥ], t3_aabaab [cᵥ, dᵥ, aᵥ, kₒ, jₒ, iₒ]], [(1, [])]⟩,
  -- line 91: bkcd,jiba,cdajik
  ⟨-1/4, [g_abab [bᵥ, kₒ, cᵥ, dᵥ], l2_abab [jₒ, iₒ, bᵥ, aᵥ], t3_abbabb [cᵥ, dᵥ, aᵥ, jₒ, iₒ, kₒ]], [(1, [])]⟩,
  -- line 94: bkdc,jiba,dcajik
  ⟨-1/4, [g_abab [bᵥ, kₒ, dᵥ, cᵥ], l2_abab [jₒ, iₒ, bᵥ, aᵥ], t3_abbabb [dᵥ, cᵥ, aᵥ, jₒ, iₒ, kₒ]], [(1, [])]⟩,
  -- line 97: kbcd,jiab,cadkji
  ⟨1/4, [g_abab [kₒ, bᵥ, cᵥ, dᵥ], l2_abab [jₒ, iₒ, aᵥ, bᵥ], t3_aabaab [cᵥ, aᵥ, dᵥ, kₒ, jₒ, iₒ]], [(1, [])]⟩,
  -- line 100: kbdc,jiab,adckji
  ⟨-1/4, [g_abab [kₒ, bᵥ, dᵥ, cᵥ], l2_abab [jₒ, iₒ, aᵥ, bᵥ], t3_aabaab [aᵥ, dᵥ, cᵥ, kₒ, jₒ, iₒ]], [(1, [])]⟩,
  -- line 103: kbcd,jiab,adcjik
  ⟨1/4, [g_bbbb [kₒ, bᵥ, cᵥ, dᵥ], l2_abab [jₒ, iₒ, aᵥ, bᵥ], t3_abbabb [aᵥ, dᵥ, cᵥ, jₒ, iₒ, kₒ]], [(1, [])]⟩,
  -- line 106: kbcd,ijba,cdakji
  ⟨-1/4, [g_abab [kₒ, bᵥ, cᵥ, dᵥ], l2_bbbb [iₒ, jₒ, bᵥ, aᵥ], t3_abbabb [cᵥ, dᵥ, aᵥ, kₒ, jₒ, iₒ]], [(1, [])]⟩,
  -- line 109: kbdc,ijba,dcakji
  ⟨-1/4, [g_abab [kₒ, bᵥ, dᵥ, cᵥ], l2_bbbb [iₒ, jₒ, bᵥ, aᵥ], t3_abbabb [dᵥ, cᵥ, aᵥ, kₒ, jₒ, iₒ]], [(1, [])]⟩,
  -- line 112: kbcd,ijba,cdaijk
  ⟨1/4, [g_bbbb [kₒ, bᵥ, cᵥ, dᵥ], l2_bbbb [iₒ, jₒ, bᵥ, aᵥ], t3_bbbbbb [cᵥ, dᵥ, aᵥ, iₒ, jₒ, kₒ]], [(1, [])]⟩
  ]

end Verif.Gen
