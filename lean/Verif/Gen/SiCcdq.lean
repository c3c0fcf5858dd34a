import Verif.Ein.Names
import Verif.Gen.Antisym

/-! Written by `/verif/tools/gen.py`. Programs read from `/repo/UT2`. -/

set_option maxRecDepth 100000

namespace Verif.Gen

open Verif.Ein Verif.Ein.N


/-- `UT2/ccdq_resids.py` 3-104, `ccdq_t2_aaaa_residual`. -/
def ccdq_t2_aaaa : Prog := [
  -- line 13: kj,abik->abij
  ⟨-1, [f_aa [kₒ, jₒ], t2_aaaa [aᵥ, bᵥ, iₒ, kₒ]], [(1, [aᵥ, bᵥ, iₒ, jₒ]), (-1, [aᵥ, bᵥ, jₒ, iₒ])]⟩,
  -- line 17: ac,cbij->abij
  ⟨1, [f_aa [aᵥ, cᵥ], t2_aaaa [cᵥ, bᵥ, iₒ, jₒ]], [(1, [aᵥ, bᵥ, iₒ, jₒ]), (-1, [bᵥ, aᵥ, iₒ, jₒ])]⟩,
  -- line 21: abij->abij
  ⟨1, [g_aaaa [aᵥ, bᵥ, iₒ, jₒ]], [(1, [aᵥ, bᵥ, iₒ, jₒ])]⟩,
  -- line 24: lkij,ablk->abij
  ⟨1/2, [g_aaaa [lₒ, kₒ, iₒ, jₒ], t2_aaaa [aᵥ, bᵥ, lₒ, kₒ]], [(1, [aᵥ, bᵥ, iₒ, jₒ])]⟩,
  -- line 27: kacj,cbik->abij
  ⟨1, [g_aaaa [kₒ, aᵥ, cᵥ, jₒ], t2_aaaa [cᵥ, bᵥ, iₒ, kₒ]], [(1, [aᵥ, bᵥ, iₒ, jₒ]), (-1, [aᵥ, bᵥ, jₒ, iₒ]), (-1, [bᵥ, aᵥ, iₒ, jₒ]), (1, [bᵥ, aᵥ, jₒ, iₒ])]⟩,
  -- line 31: akjc,bcik->abij
  ⟨-1, [g_abab [aᵥ, kₒ, jₒ, cᵥ], t2_abab [bᵥ, cᵥ, iₒ, kₒ]], [(1, [aᵥ, bᵥ, iₒ, jₒ]), (-1, [aᵥ, bᵥ, jₒ, iₒ]), (-1, [bᵥ, aᵥ, iₒ, jₒ]), (1, [bᵥ, aᵥ, jₒ, iₒ])]⟩,
  -- line 35: abcd,cdij->abij
  ⟨1/2, [g_aaaa [aᵥ, bᵥ, cᵥ, dᵥ], t2_aaaa [cᵥ, dᵥ, iₒ, jₒ]], [(1, [aᵥ, bᵥ, iₒ, jₒ])]⟩,
  -- line 38: lkcd,cdabijlk->abij
  ⟨1/4, [g_aaaa [lₒ, kₒ, cᵥ, dᵥ], t4_aaaaaaaa [cᵥ, dᵥ, aᵥ, bᵥ, iₒ, jₒ, lₒ, kₒ]], [(1, [aᵥ, bᵥ, iₒ, jₒ])]⟩,
  -- line 41: lkcd,cbadijlk->abij
  ⟨-1/4, [g_abab [lₒ, kₒ, cᵥ, dᵥ], t4_aaabaaab [cᵥ, bᵥ, aᵥ, dᵥ, iₒ, jₒ, lₒ, kₒ]], [(1, [aᵥ, bᵥ, iₒ, jₒ])]⟩,
  -- line 44: klcd,cbadijkl->abij
  ⟨-1/4, [g_abab [kₒ, lₒ, cᵥ, dᵥ], t4_aaabaaab [cᵥ, bᵥ, aᵥ, dᵥ, iₒ, jₒ, kₒ, lₒ]], [(1, [aᵥ, bᵥ, iₒ, jₒ])]⟩,
  -- line 47: lkdc,bdacijlk->abij
  ⟨1/4, [g_abab [lₒ, kₒ, dᵥ, cᵥ], t4_aaabaaab [bᵥ, dᵥ, aᵥ, cᵥ, iₒ, jₒ, lₒ, kₒ]], [(1, [aᵥ, bᵥ, iₒ, jₒ])]⟩,
  -- line 50: kldc,bdacijkl->abij
  ⟨1/4, [g_abab [kₒ, lₒ, dᵥ, cᵥ], t4_aaabaaab [bᵥ, dᵥ, aᵥ, cᵥ, iₒ, jₒ, kₒ, lₒ]], [(1, [aᵥ, bᵥ, iₒ, jₒ])]⟩,
  -- line 53: lkcd,abcdijlk->abij
  ⟨1/4, [g_bbbb [lₒ, kₒ, cᵥ, dᵥ], t4_aabbaabb [aᵥ, bᵥ, cᵥ, dᵥ, iₒ, jₒ, lₒ, kₒ]], [(1, [aᵥ, bᵥ, iₒ, jₒ])]⟩,
  -- line 56: lkcd,cdjk,abil->abij
  ⟨-1/2, [g_aaaa [lₒ, kₒ, cᵥ, dᵥ], t2_aaaa [cᵥ, dᵥ, jₒ, kₒ], t2_aaaa [aᵥ, bᵥ, iₒ, lₒ]], [(1, [aᵥ, bᵥ, iₒ, jₒ]), (-1, [aᵥ, bᵥ, jₒ, iₒ])]⟩,
  -- line 60: lkcd,cdjk,abil->abij
  ⟨-1/2, [g_abab [lₒ, kₒ, cᵥ, dᵥ], t2_abab [cᵥ, dᵥ, jₒ, kₒ], t2_aaaa [aᵥ, bᵥ, iₒ, lₒ]], [(1, [aᵥ, bᵥ, iₒ, jₒ]), (-1, [aᵥ, bᵥ, jₒ, iₒ])]⟩,
  -- line 64: lkdc,dcjk,abil->abij
  ⟨-1/2, [g_abab [lₒ, kₒ, dᵥ, cᵥ], t2_abab [dᵥ, cᵥ, jₒ, kₒ], t2_aaaa [aᵥ, bᵥ, iₒ, lₒ]], [(1, [aᵥ, bᵥ, iₒ, jₒ]), (-1, [aᵥ, bᵥ, jₒ, iₒ])]⟩,
  -- line 68: lkcd,cdij,ablk->abij
  ⟨1/4, [g_aaaa [lₒ, kₒ, cᵥ, dᵥ], t2_aaaa [cᵥ, dᵥ, iₒ, jₒ], t2_aaaa [aᵥ, bᵥ, lₒ, kₒ]], [(1, [aᵥ, bᵥ, iₒ, jₒ])]⟩,
  -- line 71: lkcd,calk,dbij->abij
  ⟨-1/2, [g_aaaa [lₒ, kₒ, cᵥ, dᵥ], t2_aaaa [cᵥ, aᵥ, lₒ, kₒ], t2_aaaa [dᵥ, bᵥ, iₒ, jₒ]], [(1, [aᵥ, bᵥ, iₒ, jₒ])]⟩,
  -- line 74: lkdc,aclk,dbij->abij
  ⟨-1/2, [g_abab [lₒ, kₒ, dᵥ, cᵥ], t2_abab [aᵥ, cᵥ, lₒ, kₒ], t2_aaaa [dᵥ, bᵥ, iₒ, jₒ]], [(1, [aᵥ, bᵥ, iₒ, jₒ])]⟩,
  -- line 77: kldc,ackl,dbij->abij
  ⟨-1/2, [g_abab [kₒ, lₒ, dᵥ, cᵥ], t2_abab [aᵥ, cᵥ, kₒ, lₒ], t2_aaaa [dᵥ, bᵥ, iₒ, jₒ]], [(1, [aᵥ, bᵥ, iₒ, jₒ])]⟩,
  -- line 80: lkcd,cajk,dbil->abij
  ⟨1, [g_aaaa [lₒ, kₒ, cᵥ, dᵥ], t2_aaaa [cᵥ, aᵥ, jₒ, kₒ], t2_aaaa [dᵥ, bᵥ, iₒ, lₒ]], [(1, [aᵥ, bᵥ, iₒ, jₒ]), (-1, [aᵥ, bᵥ, jₒ, iₒ])]⟩,
  -- line 84: klcd,cajk,bdil->abij
  ⟨1, [g_abab [kₒ, lₒ, cᵥ, dᵥ], t2_aaaa [cᵥ, aᵥ, jₒ, kₒ], t2_abab [bᵥ, dᵥ, iₒ, lₒ]], [(1, [aᵥ, bᵥ, iₒ, jₒ]), (-1, [aᵥ, bᵥ, jₒ, iₒ])]⟩,
  -- line 88: lkdc,acjk,dbil->abij
  ⟨1, [g_abab [lₒ, kₒ, dᵥ, cᵥ], t2_abab [aᵥ, cᵥ, jₒ, kₒ], t2_aaaa [dᵥ, bᵥ, iₒ, lₒ]], [(1, [aᵥ, bᵥ, iₒ, jₒ]), (-1, [aᵥ, bᵥ, jₒ, iₒ])]⟩,
  -- line 92: lkcd,acjk,bdil->abij
  ⟨1, [g_bbbb [lₒ, kₒ, cᵥ, dᵥ], t2_abab [aᵥ, cᵥ, jₒ, kₒ], t2_abab [bᵥ, dᵥ, iₒ, lₒ]], [(1, [aᵥ, bᵥ, iₒ, jₒ]), (-1, [aᵥ, bᵥ, jₒ, iₒ])]⟩,
  -- line 96: lkcd,caij,dblk->abij
  ⟨-1/2, [g_aaaa [lₒ, kₒ, cᵥ, dᵥ], t2_aaaa [cᵥ, aᵥ, iₒ, jₒ], t2_aaaa [dᵥ, bᵥ, lₒ, kₒ]], [(1, [aᵥ, bᵥ, iₒ, jₒ])]⟩,
  -- line 99: lkcd,caij,bdlk->abij
  ⟨1/2, [g_abab [lₒ, kₒ, cᵥ, dᵥ], t2_aaaa [cᵥ, aᵥ, iₒ, jₒ], t2_abab [bᵥ, dᵥ, lₒ, kₒ]], [(1, [aᵥ, bᵥ, iₒ, jₒ])]⟩,
  -- line 102: klcd,caij,bdkl->abij
  ⟨1/2, [g_abab [kₒ, lₒ, cᵥ, dᵥ], t2_aaaa [cᵥ, aᵥ, iₒ, jₒ], t2_abab [bᵥ, dᵥ, kₒ, lₒ]], [(1, [aᵥ, bᵥ, iₒ, jₒ])]⟩
  ]

/-- `UT2/ccdq_resids.py` 245-346, `ccdq_t2_bbbb_residual`. -/
def ccdq_t2_bbbb : Prog := [
  -- line 255: kj,abik->abij
  ⟨-1, [f_bb [kₒ, jₒ], t2_bbbb [aᵥ, bᵥ, iₒ, kₒ]], [(1, [aᵥ, bᵥ, iₒ, jₒ]), (-1, [aᵥ, bᵥ, jₒ, iₒ])]⟩,
  -- line 259: ac,cbij->abij
  ⟨1, [f_bb [aᵥ, cᵥ], t2_bbbb [cᵥ, bᵥ, iₒ, jₒ]], [(1, [aᵥ, bᵥ, iₒ, jₒ]), (-1, [bᵥ, aᵥ, iₒ, jₒ])]⟩,
  -- line 263: abij->abij
  ⟨1, [g_bbbb [aᵥ, bᵥ, iₒ, jₒ]], [(1, [aᵥ, bᵥ, iₒ, jₒ])]⟩,
  -- line 266: lkij,ablk->abij
  ⟨1/2, [g_bbbb [lₒ, kₒ, iₒ, jₒ], t2_bbbb [aᵥ, bᵥ, lₒ, kₒ]], [(1, [aᵥ, bᵥ, iₒ, jₒ])]⟩,
  -- line 269: kacj,cbki->abij
  ⟨-1, [g_abab [kₒ, aᵥ, cᵥ, jₒ], t2_abab [cᵥ, bᵥ, kₒ, iₒ]], [(1, [aᵥ, bᵥ, iₒ, jₒ]), (-1, [aᵥ, bᵥ, jₒ, iₒ]), (-1, [bᵥ, aᵥ, iₒ, jₒ]), (1, [bᵥ, aᵥ, jₒ, iₒ])]⟩,
  -- line 273: kacj,cbik->abij
  ⟨1, [g_bbbb [kₒ, aᵥ, cᵥ, jₒ], t2_bbbb [cᵥ, bᵥ, iₒ, kₒ]], [(1, [aᵥ, bᵥ, iₒ, jₒ]), (-1, [aᵥ, bᵥ, jₒ, iₒ]), (-1, [bᵥ, aᵥ, iₒ, jₒ]), (1, [bᵥ, aᵥ, jₒ, iₒ])]⟩,
  -- line 277: abcd,cdij->abij
  ⟨1/2, [g_bbbb [aᵥ, bᵥ, cᵥ, dᵥ], t2_bbbb [cᵥ, dᵥ, iₒ, jₒ]], [(1, [aᵥ, bᵥ, iₒ, jₒ])]⟩,
  -- line 280: lkcd,cdablkij->abij
  ⟨1/4, [g_aaaa [lₒ, kₒ, cᵥ, dᵥ], t4_aabbaabb [cᵥ, dᵥ, aᵥ, bᵥ, lₒ, kₒ, iₒ, jₒ]], [(1, [aᵥ, bᵥ, iₒ, jₒ])]⟩,
  -- line 283: lkcd,cdabljik->abij
  ⟨-1/4, [g_abab [lₒ, kₒ, cᵥ, dᵥ], t4_abbbabbb [cᵥ, dᵥ, aᵥ, bᵥ, lₒ, jₒ, iₒ, kₒ]], [(1, [aᵥ, bᵥ, iₒ, jₒ])]⟩,
  -- line 286: klcd,cdabkjli->abij
  ⟨1/4, [g_abab [kₒ, lₒ, cᵥ, dᵥ], t4_abbbabbb [cᵥ, dᵥ, aᵥ, bᵥ, kₒ, jₒ, lₒ, iₒ]], [(1, [aᵥ, bᵥ, iₒ, jₒ])]⟩,
  -- line 289: lkdc,dcabljik->abij
  ⟨-1/4, [g_abab [lₒ, kₒ, dᵥ, cᵥ], t4_abbbabbb [dᵥ, cᵥ, aᵥ, bᵥ, lₒ, jₒ, iₒ, kₒ]], [(1, [aᵥ, bᵥ, iₒ, jₒ])]⟩,
  -- line 292: kldc,dcabkjli->abij
  ⟨1/4, [g_abab [kₒ, lₒ, dᵥ, cᵥ], t4_abbbabbb [dᵥ, cᵥ, aᵥ, bᵥ, kₒ, jₒ, lₒ, iₒ]], [(1, [aᵥ, bᵥ, iₒ, jₒ])]⟩,
  -- line 295: lkcd,cdabijlk->abij
  ⟨1/4, [g_bbbb [lₒ, kₒ, cᵥ, dᵥ], t4_bbbbbbbb [cᵥ, dᵥ, aᵥ, bᵥ, iₒ, jₒ, lₒ, kₒ]], [(1, [aᵥ, bᵥ, iₒ, jₒ])]⟩,
  -- line 298: klcd,cdkj,abil->abij
  ⟨-1/2, [g_abab [kₒ, lₒ, cᵥ, dᵥ], t2_abab [cᵥ, dᵥ, kₒ, jₒ], t2_bbbb [aᵥ, bᵥ, iₒ, lₒ]], [(1, [aᵥ, bᵥ, iₒ, jₒ]), (-1, [aᵥ, bᵥ, jₒ, iₒ])]⟩,
  -- line 302: kldc,dckj,abil->abij
  ⟨-1/2, [g_abab [kₒ, lₒ, dᵥ, cᵥ], t2_abab [dᵥ, cᵥ, kₒ, jₒ], t2_bbbb [aᵥ, bᵥ, iₒ, lₒ]], [(1, [aᵥ, bᵥ, iₒ, jₒ]), (-1, [aᵥ, bᵥ, jₒ, iₒ])]⟩,
  -- line 306: lkcd,cdjk,abil->abij
  ⟨-1/2, [g_bbbb [lₒ, kₒ, cᵥ, dᵥ], t2_bbbb [cᵥ, dᵥ, jₒ, kₒ], t2_bbbb [aᵥ, bᵥ, iₒ, lₒ]], [(1, [aᵥ, bᵥ, iₒ, jₒ]), (-1, [aᵥ, bᵥ, jₒ, iₒ])]⟩,
  -- line 310: lkcd,cdij,ablk->abij
  ⟨1/4, [g_bbbb [lₒ, kₒ, cᵥ, dᵥ], t2_bbbb [cᵥ, dᵥ, iₒ, jₒ], t2_bbbb [aᵥ, bᵥ, lₒ, kₒ]], [(1, [aᵥ, bᵥ, iₒ, jₒ])]⟩,
  -- line 313: lkcd,calk,dbij->abij
  ⟨-1/2, [g_abab [lₒ, kₒ, cᵥ, dᵥ], t2_abab [cᵥ, aᵥ, lₒ, kₒ], t2_bbbb [dᵥ, bᵥ, iₒ, jₒ]], [(1, [aᵥ, bᵥ, iₒ, jₒ])]⟩,
  -- line 316: klcd,cakl,dbij->abij
  ⟨-1/2, [g_abab [kₒ, lₒ, cᵥ, dᵥ], t2_abab [cᵥ, aᵥ, kₒ, lₒ], t2_bbbb [dᵥ, bᵥ, iₒ, jₒ]], [(1, [aᵥ, bᵥ, iₒ, jₒ])]⟩,
  -- line 319: lkcd,calk,dbij->abij
  ⟨-1/2, [g_bbbb [lₒ, kₒ, cᵥ, dᵥ], t2_bbbb [cᵥ, aᵥ, lₒ, kₒ], t2_bbbb [dᵥ, bᵥ, iₒ, jₒ]], [(1, [aᵥ, bᵥ, iₒ, jₒ])]⟩,
  -- line 322: lkcd,cakj,dbli->abij
  ⟨1, [g_aaaa [lₒ, kₒ, cᵥ, dᵥ], t2_abab [cᵥ, aᵥ, kₒ, jₒ], t2_abab [dᵥ, bᵥ, lₒ, iₒ]], [(1, [aᵥ, bᵥ, iₒ, jₒ]), (-1, [aᵥ, bᵥ, jₒ, iₒ])]⟩,
  -- line 326: klcd,cakj,dbil->abij
  ⟨1, [g_abab [kₒ, lₒ, cᵥ, dᵥ], t2_abab [cᵥ, aᵥ, kₒ, jₒ], t2_bbbb [dᵥ, bᵥ, iₒ, lₒ]], [(1, [aᵥ, bᵥ, iₒ, jₒ]), (-1, [aᵥ, bᵥ, jₒ, iₒ])]⟩,
  -- line 330: lkdc,cajk,dbli->abij
  ⟨1, [g_abab [lₒ, kₒ, dᵥ, cᵥ], t2_bbbb [cᵥ, aᵥ, jₒ, kₒ], t2_abab [dᵥ, bᵥ, lₒ, iₒ]], [(1, [aᵥ, bᵥ, iₒ, jₒ]), (-1, [aᵥ, bᵥ, jₒ, iₒ])]⟩,
  -- line 334: lkcd,cajk,dbil->abij
  ⟨1, [g_bbbb [lₒ, kₒ, cᵥ, dᵥ], t2_bbbb [cᵥ, aᵥ, jₒ, kₒ], t2_bbbb [dᵥ, bᵥ, iₒ, lₒ]], [(1, [aᵥ, bᵥ, iₒ, jₒ]), (-1, [aᵥ, bᵥ, jₒ, iₒ])]⟩,
  -- line 338: lkdc,caij,dblk->abij
  ⟨1/2, [g_abab [lₒ, kₒ, dᵥ, cᵥ], t2_bbbb [cᵥ, aᵥ, iₒ, jₒ], t2_abab [dᵥ, bᵥ, lₒ, kₒ]], [(1, [aᵥ, bᵥ, iₒ, jₒ])]⟩,
  -- line 341: kldc,caij,dbkl->abij
  ⟨1/2, [g_abab [kₒ, lₒ, dᵥ, cᵥ], t2_bbbb [cᵥ, aᵥ, iₒ, jₒ], t2_abab [dᵥ, bᵥ, kₒ, lₒ]], [(1, [aᵥ, bᵥ, iₒ, jₒ])]⟩,
  -- line 344: lkcd,caij,dblk->abij
  ⟨-1/2, [g_bbbb [lₒ, kₒ, cᵥ, dᵥ], t2_bbbb [cᵥ, aᵥ, iₒ, jₒ], t2_bbbb [dᵥ, bᵥ, lₒ, kₒ]], [(1, [aᵥ, bᵥ, iₒ, jₒ])]⟩
  ]

/-- Part 0 of `ccdq_t2_abab`. -/
def ccdq_t2_abab_0 : Prog := [
  -- line 117: kj,abik->abij
  ⟨-1, [f_bb [kₒ, jₒ], t2_abab [aᵥ, bᵥ, iₒ, kₒ]], [(1, [aᵥ, bᵥ, iₒ, jₒ])]⟩,
  -- line 120: ki,abkj->abij
  ⟨-1, [f_aa [kₒ, iₒ], t2_abab [aᵥ, bᵥ, kₒ, jₒ]], [(1, [aᵥ, bᵥ, iₒ, jₒ])]⟩,
  -- line 123: ac,cbij->abij
  ⟨1, [f_aa [aᵥ, cᵥ], t2_abab [cᵥ, bᵥ, iₒ, jₒ]], [(1, [aᵥ, bᵥ, iₒ, jₒ])]⟩,
  -- line 126: bc,acij->abij
  ⟨1, [f_bb [bᵥ, cᵥ], t2_abab [aᵥ, cᵥ, iₒ, jₒ]], [(1, [aᵥ, bᵥ, iₒ, jₒ])]⟩,
  -- line 129: abij->abij
  ⟨1, [g_abab [aᵥ, bᵥ, iₒ, jₒ]], [(1, [aᵥ, bᵥ, iₒ, jₒ])]⟩,
  -- line 132: lkij,ablk->abij
  ⟨1/2, [g_abab [lₒ, kₒ, iₒ, jₒ], t2_abab [aᵥ, bᵥ, lₒ, kₒ]], [(1, [aᵥ, bᵥ, iₒ, jₒ])]⟩,
  -- line 135: klij,abkl->abij
  ⟨1/2, [g_abab [kₒ, lₒ, iₒ, jₒ], t2_abab [aᵥ, bᵥ, kₒ, lₒ]], [(1, [aᵥ, bᵥ, iₒ, jₒ])]⟩,
  -- line 138: akcj,cbik->abij
  ⟨-1, [g_abab [aᵥ, kₒ, cᵥ, jₒ], t2_abab [cᵥ, bᵥ, iₒ, kₒ]], [(1, [aᵥ, bᵥ, iₒ, jₒ])]⟩,
  -- line 141: kbcj,caik->abij
  ⟨-1, [g_abab [kₒ, bᵥ, cᵥ, jₒ], t2_aaaa [cᵥ, aᵥ, iₒ, kₒ]], [(1, [aᵥ, bᵥ, iₒ, jₒ])]⟩,
  -- line 144: kbcj,acik->abij
  ⟨1, [g_bbbb [kₒ, bᵥ, cᵥ, jₒ], t2_abab [aᵥ, cᵥ, iₒ, kₒ]], [(1, [aᵥ, bᵥ, iₒ, jₒ])]⟩,
  -- line 147: kaci,cbkj->abij
  ⟨1, [g_aaaa [kₒ, aᵥ, cᵥ, iₒ], t2_abab [cᵥ, bᵥ, kₒ, jₒ]], [(1, [aᵥ, bᵥ, iₒ, jₒ])]⟩,
  -- line 150: akic,cbjk->abij
  ⟨-1, [g_abab [aᵥ, kₒ, iₒ, cᵥ], t2_bbbb [cᵥ, bᵥ, jₒ, kₒ]], [(1, [aᵥ, bᵥ, iₒ, jₒ])]⟩,
  -- line 153: kbic,ackj->abij
  ⟨-1, [g_abab [kₒ, bᵥ, iₒ, cᵥ], t2_abab [aᵥ, cᵥ, kₒ, jₒ]], [(1, [aᵥ, bᵥ, iₒ, jₒ])]⟩,
  -- line 156: abcd,cdij->abij
  ⟨1/2, [g_abab [aᵥ, bᵥ, cᵥ, dᵥ], t2_abab [cᵥ, dᵥ, iₒ, jₒ]], [(1, [aᵥ, bᵥ, iₒ, jₒ])]⟩,
  -- line 159: abdc,dcij->abij
  ⟨1/2, [g_abab [aᵥ, bᵥ, dᵥ, cᵥ], t2_abab [dᵥ, cᵥ, iₒ, jₒ]], [(1, [aᵥ, bᵥ, iₒ, jₒ])]⟩,
  -- line 162: lkcd,cdabiklj->abij
  ⟨-1/4, [g_aaaa [lₒ, kₒ, cᵥ, dᵥ], t4_aaabaaab [cᵥ, dᵥ, aᵥ, bᵥ, iₒ, kₒ, lₒ, jₒ]], [(1, [aᵥ, bᵥ, iₒ, jₒ])]⟩,
  -- line 165: lkcd,cadbiljk->abij
  ⟨1/4, [g_abab [lₒ, kₒ, cᵥ, dᵥ], t4_aabbaabb [cᵥ, aᵥ, dᵥ, bᵥ, iₒ, lₒ, jₒ, kₒ]], [(1, [aᵥ, bᵥ, iₒ, jₒ])]⟩,
  -- line 168: klcd,cadbiklj->abij
  ⟨-1/4, [g_abab [kₒ, lₒ, cᵥ, dᵥ], t4_aabbaabb [cᵥ, aᵥ, dᵥ, bᵥ, iₒ, kₒ, lₒ, jₒ]], [(1, [aᵥ, bᵥ, iₒ, jₒ])]⟩,
  -- line 171: lkdc,adcbiljk->abij
  ⟨-1/4, [g_abab [lₒ, kₒ, dᵥ, cᵥ], t4_aabbaabb [aᵥ, dᵥ, cᵥ, bᵥ, iₒ, lₒ, jₒ, kₒ]], [(1, [aᵥ, bᵥ, iₒ, jₒ])]⟩,
  -- line 174: kldc,adcbiklj->abij
  ⟨1/4, [g_abab [kₒ, lₒ, dᵥ, cᵥ], t4_aabbaabb [aᵥ, dᵥ, cᵥ, bᵥ, iₒ, kₒ, lₒ, jₒ]], [(1, [aᵥ, bᵥ, iₒ, jₒ])]⟩,
  -- line 177: lkcd,adcbijlk->abij
  ⟨-1/4, [g_bbbb [lₒ, kₒ, cᵥ, dᵥ], t4_abbbabbb [aᵥ, dᵥ, cᵥ, bᵥ, iₒ, jₒ, lₒ, kₒ]], [(1, [aᵥ, bᵥ, iₒ, jₒ])]⟩,
  -- line 180: klcd,cdkj,abil->abij
  ⟨-1/2, [g_abab [kₒ, lₒ, cᵥ, dᵥ], t2_abab [cᵥ, dᵥ, kₒ, jₒ], t2_abab [aᵥ, bᵥ, iₒ, lₒ]], [(1, [aᵥ, bᵥ, iₒ, jₒ])]⟩,
  -- line 183: kldc,dckj,abil->abij
  ⟨-1/2, [g_abab [kₒ, lₒ, dᵥ, cᵥ], t2_abab [dᵥ, cᵥ, kₒ, jₒ], t2_abab [aᵥ, bᵥ, iₒ, lₒ]], [(1, [aᵥ, bᵥ, iₒ, jₒ])]⟩,
  -- line 186: lkcd,cdjk,abil->abij
  ⟨-1/2, [g_bbbb [lₒ, kₒ, cᵥ, dᵥ], t2_bbbb [cᵥ, dᵥ, jₒ, kₒ], t2_abab [aᵥ, bᵥ, iₒ, lₒ]], [(1, [aᵥ, bᵥ, iₒ, jₒ])]⟩,
  -- line 189: lkcd,cdik,ablj->abij
  ⟨-1/2, [g_aaaa [lₒ, kₒ, cᵥ, dᵥ], t2_aaaa [cᵥ, dᵥ, iₒ, kₒ], t2_abab [aᵥ, bᵥ, lₒ, jₒ]], [(1, [aᵥ, bᵥ, iₒ, jₒ])]⟩,
  -- line 192: lkcd,cdik,ablj->abij
  ⟨-1/2, [g_abab [lₒ, kₒ, cᵥ, dᵥ], t2_abab [cᵥ, dᵥ, iₒ, kₒ], t2_abab [aᵥ, bᵥ, lₒ, jₒ]], [(1, [aᵥ, bᵥ, iₒ, jₒ])]⟩,
  -- line 195: lkdc,dcik,ablj->abij
  ⟨-1/2, [g_abab [lₒ, kₒ, dᵥ, cᵥ], t2_abab [dᵥ, cᵥ, iₒ, kₒ], t2_abab [aᵥ, bᵥ, lₒ, jₒ]], [(1, [aᵥ, bᵥ, iₒ, jₒ])]⟩,
  -- line 198: lkcd,cdij,ablk->abij
  ⟨1/4, [g_abab [lₒ, kₒ, cᵥ, dᵥ], t2_abab [cᵥ, dᵥ, iₒ, jₒ], t2_abab [aᵥ, bᵥ, lₒ, kₒ]], [(1, [aᵥ, bᵥ, iₒ, jₒ])]⟩,
  -- line 201: klcd,cdij,abkl->abij
  ⟨1/4, [g_abab [kₒ, lₒ, cᵥ, dᵥ], t2_abab [cᵥ, dᵥ, iₒ, jₒ], t2_abab [aᵥ, bᵥ, kₒ, lₒ]], [(1, [aᵥ, bᵥ, iₒ, jₒ])]⟩,
  -- line 204: lkdc,dcij,ablk->abij
  ⟨1/4, [g_abab [lₒ, kₒ, dᵥ, cᵥ], t2_abab [dᵥ, cᵥ, iₒ, jₒ], t2_abab [aᵥ, bᵥ, lₒ, kₒ]], [(1, [aᵥ, bᵥ, iₒ, jₒ])]⟩,
  -- line 207: kldc,dcij,abkl->abij
  ⟨1/4, [g_abab [kₒ, lₒ, dᵥ, cᵥ], t2_abab [dᵥ, cᵥ, iₒ, jₒ], t2_abab [aᵥ, bᵥ, kₒ, lₒ]], [(1, [aᵥ, bᵥ, iₒ, jₒ])]⟩,
  -- line 210: lkcd,calk,dbij->abij
  ⟨-1/2, [g_aaaa [lₒ, kₒ, cᵥ, dᵥ], t2_aaaa [cᵥ, aᵥ, lₒ, kₒ], t2_abab [dᵥ, bᵥ, iₒ, jₒ]], [(1, [aᵥ, bᵥ, iₒ, jₒ])]⟩,
  -- line 213: lkdc,aclk,dbij->abij
  ⟨-1/2, [g_abab [lₒ, kₒ, dᵥ, cᵥ], t2_abab [aᵥ, cᵥ, lₒ, kₒ], t2_abab [dᵥ, bᵥ, iₒ, jₒ]], [(1, [aᵥ, bᵥ, iₒ, jₒ])]⟩,
  -- line 216: kldc,ackl,dbij->abij
  ⟨-1/2, [g_abab [kₒ, lₒ, dᵥ, cᵥ], t2_abab [aᵥ, cᵥ, kₒ, lₒ], t2_abab [dᵥ, bᵥ, iₒ, jₒ]], [(1, [aᵥ, bᵥ, iₒ, jₒ])]⟩,
  -- line 219: kldc,ackj,dbil->abij
  ⟨1, [g_abab [kₒ, lₒ, dᵥ, cᵥ], t2_abab [aᵥ, cᵥ, kₒ, jₒ], t2_abab [dᵥ, bᵥ, iₒ, lₒ]], [(1, [aᵥ, bᵥ, iₒ, jₒ])]⟩,
  -- line 222: lkcd,caik,dblj->abij
  ⟨1, [g_aaaa [lₒ, kₒ, cᵥ, dᵥ], t2_aaaa [cᵥ, aᵥ, iₒ, kₒ], t2_abab [dᵥ, bᵥ, lₒ, jₒ]], [(1, [aᵥ, bᵥ, iₒ, jₒ])]⟩,
  -- line 225: klcd,caik,dbjl->abij
  ⟨1, [g_abab [kₒ, lₒ, cᵥ, dᵥ], t2_aaaa [cᵥ, aᵥ, iₒ, kₒ], t2_bbbb [dᵥ, bᵥ, jₒ, lₒ]], [(1, [aᵥ, bᵥ, iₒ, jₒ])]⟩,
  -- line 228: lkdc,acik,dblj->abij
  ⟨1, [g_abab [lₒ, kₒ, dᵥ, cᵥ], t2_abab [aᵥ, cᵥ, iₒ, kₒ], t2_abab [dᵥ, bᵥ, lₒ, jₒ]], [(1, [aᵥ, bᵥ, iₒ, jₒ])]⟩,
  -- line 231: lkcd,acik,dbjl->abij
  ⟨1, [g_bbbb [lₒ, kₒ, cᵥ, dᵥ], t2_abab [aᵥ, cᵥ, iₒ, kₒ], t2_bbbb [dᵥ, bᵥ, jₒ, lₒ]], [(1, [aᵥ, bᵥ, iₒ, jₒ])]⟩,
  -- line 234: lkdc,acij,dblk->abij
  ⟨-1/2, [g_abab [lₒ, kₒ, dᵥ, cᵥ], t2_abab [aᵥ, cᵥ, iₒ, jₒ], t2_abab [dᵥ, bᵥ, lₒ, kₒ]], [(1, [aᵥ, bᵥ, iₒ, jₒ])]⟩
  ]

/-- Part 1 of `ccdq_t2_abab`. -/
def ccdq_t2_abab_1 : Prog := [
  -- line 237: kldc,acij,dbkl->abij
  ⟨-1/2, [g_abab [kₒ, lₒ, dᵥ, cᵥ], t2_abab [aᵥ, cᵥ, iₒ, jₒ], t2_abab [dᵥ, bᵥ, kₒ, lₒ]], [(1, [aᵥ, bᵥ, iₒ, jₒ])]⟩,
  -- line 240: lkcd,acij,dblk->abij
  ⟨1/2, [g_bbbb [lₒ, kₒ, cᵥ, dᵥ], t2_abab [aᵥ, cᵥ, iₒ, jₒ], t2_bbbb [dᵥ, bᵥ, lₒ, kₒ]], [(1, [aᵥ, bᵥ, iₒ, jₒ])]⟩
  ]

/-- `UT2/ccdq_resids.py` 107-242, `ccdq_t2_abab_residual`. -/
def ccdq_t2_abab : Prog := ccdq_t2_abab_0 ++ (ccdq_t2_abab_1)

end Verif.Gen
