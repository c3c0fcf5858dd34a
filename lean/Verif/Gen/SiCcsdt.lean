import Verif.Ein.Names
import Verif.Gen.Antisym

/-! Written by `/verif/tools/gen.py`. Programs read from `/repo/UT2`. -/

set_option maxRecDepth 100000

namespace Verif.Gen

open Verif.Ein Verif.Ein.N


/-- `UT2/fullCCenergy.py` 165-226, `ccsd_energy_with_spin`. -/
def ccsd_energy_with_spin : Prog := [
  -- line 173: ii
  ⟨1, [f_aa [iₒ, iₒ]], [(1, [])]⟩,
  -- line 176: ii
  ⟨1, [f_bb [iₒ, iₒ]], [(1, [])]⟩,
  -- line 179: ia,ai
  ⟨1, [f_aa [iₒ, aᵥ], t1_aa [aᵥ, iₒ]], [(1, [])]⟩,
  -- line 182: ia,ai
  ⟨1, [f_bb [iₒ, aᵥ], t1_bb [aᵥ, iₒ]], [(1, [])]⟩,
  -- line 185: jiji
  ⟨-1/2, [g_aaaa [jₒ, iₒ, jₒ, iₒ]], [(1, [])]⟩,
  -- line 188: jiji
  ⟨-1/2, [g_abab [jₒ, iₒ, jₒ, iₒ]], [(1, [])]⟩,
  -- line 191: ijij
  ⟨-1/2, [g_abab [iₒ, jₒ, iₒ, jₒ]], [(1, [])]⟩,
  -- line 194: jiji
  ⟨-1/2, [g_bbbb [jₒ, iₒ, jₒ, iₒ]], [(1, [])]⟩,
  -- line 197: jiab,abji
  ⟨1/4, [g_aaaa [jₒ, iₒ, aᵥ, bᵥ], t2_aaaa [aᵥ, bᵥ, jₒ, iₒ]], [(1, [])]⟩,
  -- line 200: jiab,abji
  ⟨1/4, [g_abab [jₒ, iₒ, aᵥ, bᵥ], t2_abab [aᵥ, bᵥ, jₒ, iₒ]], [(1, [])]⟩,
  -- line 203: ijab,abij
  ⟨1/4, [g_abab [iₒ, jₒ, aᵥ, bᵥ], t2_abab [aᵥ, bᵥ, iₒ, jₒ]], [(1, [])]⟩,
  -- line 206: jiba,baji
  ⟨1/4, [g_abab [jₒ, iₒ, bᵥ, aᵥ], t2_abab [bᵥ, aᵥ, jₒ, iₒ]], [(1, [])]⟩,
  -- line 209: ijba,baij
  ⟨1/4, [g_abab [iₒ, jₒ, bᵥ, aᵥ], t2_abab [bᵥ, aᵥ, iₒ, jₒ]], [(1, [])]⟩,
  -- line 212: jiab,abji
  ⟨1/4, [g_bbbb [jₒ, iₒ, aᵥ, bᵥ], t2_bbbb [aᵥ, bᵥ, jₒ, iₒ]], [(1, [])]⟩,
  -- line 215: jiab,ai,bj
  ⟨-1/2, [g_aaaa [jₒ, iₒ, aᵥ, bᵥ], t1_aa [aᵥ, iₒ], t1_aa [bᵥ, jₒ]], [(1, [])]⟩,
  -- line 218: ijab,ai,bj
  ⟨1/2, [g_abab [iₒ, jₒ, aᵥ, bᵥ], t1_aa [aᵥ, iₒ], t1_bb [bᵥ, jₒ]], [(1, [])]⟩,
  -- line 221: jiba,ai,bj
  ⟨1/2, [g_abab [jₒ, iₒ, bᵥ, aᵥ], t1_bb [aᵥ, iₒ], t1_aa [bᵥ, jₒ]], [(1, [])]⟩,
  -- line 224: jiab,ai,bj
  ⟨-1/2, [g_bbbb [jₒ, iₒ, aᵥ, bᵥ], t1_bb [aᵥ, iₒ], t1_bb [bᵥ, jₒ]], [(1, [])]⟩
  ]

/-- `UT2/fullCCresidEqns.py` 184-299, `ccsdt_t1_aa_residual`. -/
def ccsdt_t1_aa : Prog := [
  -- line 192: ai->ai
  ⟨1, [f_aa [aᵥ, iₒ]], [(1, [aᵥ, iₒ])]⟩,
  -- line 195: ji,aj->ai
  ⟨-1, [f_aa [jₒ, iₒ], t1_aa [aᵥ, jₒ]], [(1, [aᵥ, iₒ])]⟩,
  -- line 198: ab,bi->ai
  ⟨1, [f_aa [aᵥ, bᵥ], t1_aa [bᵥ, iₒ]], [(1, [aᵥ, iₒ])]⟩,
  -- line 201: jb,baij->ai
  ⟨-1, [f_aa [jₒ, bᵥ], t2_aaaa [bᵥ, aᵥ, iₒ, jₒ]], [(1, [aᵥ, iₒ])]⟩,
  -- line 204: jb,abij->ai
  ⟨1, [f_bb [jₒ, bᵥ], t2_abab [aᵥ, bᵥ, iₒ, jₒ]], [(1, [aᵥ, iₒ])]⟩,
  -- line 207: jb,bi,aj->ai
  ⟨-1, [f_aa [jₒ, bᵥ], t1_aa [bᵥ, iₒ], t1_aa [aᵥ, jₒ]], [(1, [aᵥ, iₒ])]⟩,
  -- line 210: jabi,bj->ai
  ⟨1, [g_aaaa [jₒ, aᵥ, bᵥ, iₒ], t1_aa [bᵥ, jₒ]], [(1, [aᵥ, iₒ])]⟩,
  -- line 213: ajib,bj->ai
  ⟨1, [g_abab [aᵥ, jₒ, iₒ, bᵥ], t1_bb [bᵥ, jₒ]], [(1, [aᵥ, iₒ])]⟩,
  -- line 216: kjbi,bakj->ai
  ⟨-1/2, [g_aaaa [kₒ, jₒ, bᵥ, iₒ], t2_aaaa [bᵥ, aᵥ, kₒ, jₒ]], [(1, [aᵥ, iₒ])]⟩,
  -- line 219: kjib,abkj->ai
  ⟨-1/2, [g_abab [kₒ, jₒ, iₒ, bᵥ], t2_abab [aᵥ, bᵥ, kₒ, jₒ]], [(1, [aᵥ, iₒ])]⟩,
  -- line 222: jkib,abjk->ai
  ⟨-1/2, [g_abab [jₒ, kₒ, iₒ, bᵥ], t2_abab [aᵥ, bᵥ, jₒ, kₒ]], [(1, [aᵥ, iₒ])]⟩,
  -- line 225: jabc,bcij->ai
  ⟨-1/2, [g_aaaa [jₒ, aᵥ, bᵥ, cᵥ], t2_aaaa [bᵥ, cᵥ, iₒ, jₒ]], [(1, [aᵥ, iₒ])]⟩,
  -- line 228: ajbc,bcij->ai
  ⟨1/2, [g_abab [aᵥ, jₒ, bᵥ, cᵥ], t2_abab [bᵥ, cᵥ, iₒ, jₒ]], [(1, [aᵥ, iₒ])]⟩,
  -- line 231: ajcb,cbij->ai
  ⟨1/2, [g_abab [aᵥ, jₒ, cᵥ, bᵥ], t2_abab [cᵥ, bᵥ, iₒ, jₒ]], [(1, [aᵥ, iₒ])]⟩,
  -- line 234: kjbc,bcaikj->ai
  ⟨1/4, [g_aaaa [kₒ, jₒ, bᵥ, cᵥ], t3_aaaaaa [bᵥ, cᵥ, aᵥ, iₒ, kₒ, jₒ]], [(1, [aᵥ, iₒ])]⟩,
  -- line 237: kjbc,bacikj->ai
  ⟨-1/4, [g_abab [kₒ, jₒ, bᵥ, cᵥ], t3_aabaab [bᵥ, aᵥ, cᵥ, iₒ, kₒ, jₒ]], [(1, [aᵥ, iₒ])]⟩,
  -- line 240: jkbc,bacijk->ai
  ⟨-1/4, [g_abab [jₒ, kₒ, bᵥ, cᵥ], t3_aabaab [bᵥ, aᵥ, cᵥ, iₒ, jₒ, kₒ]], [(1, [aᵥ, iₒ])]⟩,
  -- line 243: kjcb,acbikj->ai
  ⟨1/4, [g_abab [kₒ, jₒ, cᵥ, bᵥ], t3_aabaab [aᵥ, cᵥ, bᵥ, iₒ, kₒ, jₒ]], [(1, [aᵥ, iₒ])]⟩,
  -- line 246: jkcb,acbijk->ai
  ⟨1/4, [g_abab [jₒ, kₒ, cᵥ, bᵥ], t3_aabaab [aᵥ, cᵥ, bᵥ, iₒ, jₒ, kₒ]], [(1, [aᵥ, iₒ])]⟩,
  -- line 249: kjbc,acbikj->ai
  ⟨-1/4, [g_bbbb [kₒ, jₒ, bᵥ, cᵥ], t3_abbabb [aᵥ, cᵥ, bᵥ, iₒ, kₒ, jₒ]], [(1, [aᵥ, iₒ])]⟩,
  -- line 252: kjbc,bj,caik->ai
  ⟨1, [g_aaaa [kₒ, jₒ, bᵥ, cᵥ], t1_aa [bᵥ, jₒ], t2_aaaa [cᵥ, aᵥ, iₒ, kₒ]], [(1, [aᵥ, iₒ])]⟩,
  -- line 255: jkbc,bj,acik->ai
  ⟨1, [g_abab [jₒ, kₒ, bᵥ, cᵥ], t1_aa [bᵥ, jₒ], t2_abab [aᵥ, cᵥ, iₒ, kₒ]], [(1, [aᵥ, iₒ])]⟩,
  -- line 258: kjcb,bj,caik->ai
  ⟨-1, [g_abab [kₒ, jₒ, cᵥ, bᵥ], t1_bb [bᵥ, jₒ], t2_aaaa [cᵥ, aᵥ, iₒ, kₒ]], [(1, [aᵥ, iₒ])]⟩,
  -- line 261: kjbc,bj,acik->ai
  ⟨-1, [g_bbbb [kₒ, jₒ, bᵥ, cᵥ], t1_bb [bᵥ, jₒ], t2_abab [aᵥ, cᵥ, iₒ, kₒ]], [(1, [aᵥ, iₒ])]⟩,
  -- line 264: kjbc,bi,cakj->ai
  ⟨1/2, [g_aaaa [kₒ, jₒ, bᵥ, cᵥ], t1_aa [bᵥ, iₒ], t2_aaaa [cᵥ, aᵥ, kₒ, jₒ]], [(1, [aᵥ, iₒ])]⟩,
  -- line 267: kjbc,bi,ackj->ai
  ⟨-1/2, [g_abab [kₒ, jₒ, bᵥ, cᵥ], t1_aa [bᵥ, iₒ], t2_abab [aᵥ, cᵥ, kₒ, jₒ]], [(1, [aᵥ, iₒ])]⟩,
  -- line 270: jkbc,bi,acjk->ai
  ⟨-1/2, [g_abab [jₒ, kₒ, bᵥ, cᵥ], t1_aa [bᵥ, iₒ], t2_abab [aᵥ, cᵥ, jₒ, kₒ]], [(1, [aᵥ, iₒ])]⟩,
  -- line 273: kjbc,aj,bcik->ai
  ⟨1/2, [g_aaaa [kₒ, jₒ, bᵥ, cᵥ], t1_aa [aᵥ, jₒ], t2_aaaa [bᵥ, cᵥ, iₒ, kₒ]], [(1, [aᵥ, iₒ])]⟩,
  -- line 276: jkbc,aj,bcik->ai
  ⟨-1/2, [g_abab [jₒ, kₒ, bᵥ, cᵥ], t1_aa [aᵥ, jₒ], t2_abab [bᵥ, cᵥ, iₒ, kₒ]], [(1, [aᵥ, iₒ])]⟩,
  -- line 279: jkcb,aj,cbik->ai
  ⟨-1/2, [g_abab [jₒ, kₒ, cᵥ, bᵥ], t1_aa [aᵥ, jₒ], t2_abab [cᵥ, bᵥ, iₒ, kₒ]], [(1, [aᵥ, iₒ])]⟩,
  -- line 282: kjbi,bj,ak->ai
  ⟨1, [g_aaaa [kₒ, jₒ, bᵥ, iₒ], t1_aa [bᵥ, jₒ], t1_aa [aᵥ, kₒ]], [(1, [aᵥ, iₒ])]⟩,
  -- line 285: kjib,bj,ak->ai
  ⟨-1, [g_abab [kₒ, jₒ, iₒ, bᵥ], t1_bb [bᵥ, jₒ], t1_aa [aᵥ, kₒ]], [(1, [aᵥ, iₒ])]⟩,
  -- line 288: jabc,bj,ci->ai
  ⟨1, [g_aaaa [jₒ, aᵥ, bᵥ, cᵥ], t1_aa [bᵥ, jₒ], t1_aa [cᵥ, iₒ]], [(1, [aᵥ, iₒ])]⟩,
  -- line 291: ajcb,bj,ci->ai
  ⟨1, [g_abab [aᵥ, jₒ, cᵥ, bᵥ], t1_bb [bᵥ, jₒ], t1_aa [cᵥ, iₒ]], [(1, [aᵥ, iₒ])]⟩,
  -- line 294: kjbc,bj,ci,ak->ai
  ⟨1, [g_aaaa [kₒ, jₒ, bᵥ, cᵥ], t1_aa [bᵥ, jₒ], t1_aa [cᵥ, iₒ], t1_aa [aᵥ, kₒ]], [(1, [aᵥ, iₒ])]⟩,
  -- line 297: kjcb,bj,ci,ak->ai
  ⟨-1, [g_abab [kₒ, jₒ, cᵥ, bᵥ], t1_bb [bᵥ, jₒ], t1_aa [cᵥ, iₒ], t1_aa [aᵥ, kₒ]], [(1, [aᵥ, iₒ])]⟩
  ]

/-- `UT2/fullCCresidEqns.py` 302-417, `ccsdt_t1_bb_residual`. -/
def ccsdt_t1_bb : Prog := [
  -- line 310: ai->ai
  ⟨1, [f_bb [aᵥ, iₒ]], [(1, [aᵥ, iₒ])]⟩,
  -- line 313: ji,aj->ai
  ⟨-1, [f_bb [jₒ, iₒ], t1_bb [aᵥ, jₒ]], [(1, [aᵥ, iₒ])]⟩,
  -- line 316: ab,bi->ai
  ⟨1, [f_bb [aᵥ, bᵥ], t1_bb [bᵥ, iₒ]], [(1, [aᵥ, iₒ])]⟩,
  -- line 319: jb,baji->ai
  ⟨1, [f_aa [jₒ, bᵥ], t2_abab [bᵥ, aᵥ, jₒ, iₒ]], [(1, [aᵥ, iₒ])]⟩,
  -- line 322: jb,baij->ai
  ⟨-1, [f_bb [jₒ, bᵥ], t2_bbbb [bᵥ, aᵥ, iₒ, jₒ]], [(1, [aᵥ, iₒ])]⟩,
  -- line 325: jb,bi,aj->ai
  ⟨-1, [f_bb [jₒ, bᵥ], t1_bb [bᵥ, iₒ], t1_bb [aᵥ, jₒ]], [(1, [aᵥ, iₒ])]⟩,
  -- line 328: jabi,bj->ai
  ⟨1, [g_abab [jₒ, aᵥ, bᵥ, iₒ], t1_aa [bᵥ, jₒ]], [(1, [aᵥ, iₒ])]⟩,
  -- line 331: jabi,bj->ai
  ⟨1, [g_bbbb [jₒ, aᵥ, bᵥ, iₒ], t1_bb [bᵥ, jₒ]], [(1, [aᵥ, iₒ])]⟩,
  -- line 334: kjbi,bakj->ai
  ⟨-1/2, [g_abab [kₒ, jₒ, bᵥ, iₒ], t2_abab [bᵥ, aᵥ, kₒ, jₒ]], [(1, [aᵥ, iₒ])]⟩,
  -- line 337: jkbi,bajk->ai
  ⟨-1/2, [g_abab [jₒ, kₒ, bᵥ, iₒ], t2_abab [bᵥ, aᵥ, jₒ, kₒ]], [(1, [aᵥ, iₒ])]⟩,
  -- line 340: kjbi,bakj->ai
  ⟨-1/2, [g_bbbb [kₒ, jₒ, bᵥ, iₒ], t2_bbbb [bᵥ, aᵥ, kₒ, jₒ]], [(1, [aᵥ, iₒ])]⟩,
  -- line 343: jabc,bcji->ai
  ⟨1/2, [g_abab [jₒ, aᵥ, bᵥ, cᵥ], t2_abab [bᵥ, cᵥ, jₒ, iₒ]], [(1, [aᵥ, iₒ])]⟩,
  -- line 346: jacb,cbji->ai
  ⟨1/2, [g_abab [jₒ, aᵥ, cᵥ, bᵥ], t2_abab [cᵥ, bᵥ, jₒ, iₒ]], [(1, [aᵥ, iₒ])]⟩,
  -- line 349: jabc,bcij->ai
  ⟨-1/2, [g_bbbb [jₒ, aᵥ, bᵥ, cᵥ], t2_bbbb [bᵥ, cᵥ, iₒ, jₒ]], [(1, [aᵥ, iₒ])]⟩,
  -- line 352: kjbc,bcajki->ai
  ⟨-1/4, [g_aaaa [kₒ, jₒ, bᵥ, cᵥ], t3_aabaab [bᵥ, cᵥ, aᵥ, jₒ, kₒ, iₒ]], [(1, [aᵥ, iₒ])]⟩,
  -- line 355: kjbc,bcakij->ai
  ⟨-1/4, [g_abab [kₒ, jₒ, bᵥ, cᵥ], t3_abbabb [bᵥ, cᵥ, aᵥ, kₒ, iₒ, jₒ]], [(1, [aᵥ, iₒ])]⟩,
  -- line 358: jkbc,bcajki->ai
  ⟨1/4, [g_abab [jₒ, kₒ, bᵥ, cᵥ], t3_abbabb [bᵥ, cᵥ, aᵥ, jₒ, kₒ, iₒ]], [(1, [aᵥ, iₒ])]⟩,
  -- line 361: kjcb,cbakij->ai
  ⟨-1/4, [g_abab [kₒ, jₒ, cᵥ, bᵥ], t3_abbabb [cᵥ, bᵥ, aᵥ, kₒ, iₒ, jₒ]], [(1, [aᵥ, iₒ])]⟩,
  -- line 364: jkcb,cbajki->ai
  ⟨1/4, [g_abab [jₒ, kₒ, cᵥ, bᵥ], t3_abbabb [cᵥ, bᵥ, aᵥ, jₒ, kₒ, iₒ]], [(1, [aᵥ, iₒ])]⟩,
  -- line 367: kjbc,bcaikj->ai
  ⟨1/4, [g_bbbb [kₒ, jₒ, bᵥ, cᵥ], t3_bbbbbb [bᵥ, cᵥ, aᵥ, iₒ, kₒ, jₒ]], [(1, [aᵥ, iₒ])]⟩,
  -- line 370: kjbc,bj,caki->ai
  ⟨-1, [g_aaaa [kₒ, jₒ, bᵥ, cᵥ], t1_aa [bᵥ, jₒ], t2_abab [cᵥ, aᵥ, kₒ, iₒ]], [(1, [aᵥ, iₒ])]⟩,
  -- line 373: jkbc,bj,caik->ai
  ⟨-1, [g_abab [jₒ, kₒ, bᵥ, cᵥ], t1_aa [bᵥ, jₒ], t2_bbbb [cᵥ, aᵥ, iₒ, kₒ]], [(1, [aᵥ, iₒ])]⟩,
  -- line 376: kjcb,bj,caki->ai
  ⟨1, [g_abab [kₒ, jₒ, cᵥ, bᵥ], t1_bb [bᵥ, jₒ], t2_abab [cᵥ, aᵥ, kₒ, iₒ]], [(1, [aᵥ, iₒ])]⟩,
  -- line 379: kjbc,bj,caik->ai
  ⟨1, [g_bbbb [kₒ, jₒ, bᵥ, cᵥ], t1_bb [bᵥ, jₒ], t2_bbbb [cᵥ, aᵥ, iₒ, kₒ]], [(1, [aᵥ, iₒ])]⟩,
  -- line 382: kjcb,bi,cakj->ai
  ⟨-1/2, [g_abab [kₒ, jₒ, cᵥ, bᵥ], t1_bb [bᵥ, iₒ], t2_abab [cᵥ, aᵥ, kₒ, jₒ]], [(1, [aᵥ, iₒ])]⟩,
  -- line 385: jkcb,bi,cajk->ai
  ⟨-1/2, [g_abab [jₒ, kₒ, cᵥ, bᵥ], t1_bb [bᵥ, iₒ], t2_abab [cᵥ, aᵥ, jₒ, kₒ]], [(1, [aᵥ, iₒ])]⟩,
  -- line 388: kjbc,bi,cakj->ai
  ⟨1/2, [g_bbbb [kₒ, jₒ, bᵥ, cᵥ], t1_bb [bᵥ, iₒ], t2_bbbb [cᵥ, aᵥ, kₒ, jₒ]], [(1, [aᵥ, iₒ])]⟩,
  -- line 391: kjbc,aj,bcki->ai
  ⟨-1/2, [g_abab [kₒ, jₒ, bᵥ, cᵥ], t1_bb [aᵥ, jₒ], t2_abab [bᵥ, cᵥ, kₒ, iₒ]], [(1, [aᵥ, iₒ])]⟩,
  -- line 394: kjcb,aj,cbki->ai
  ⟨-1/2, [g_abab [kₒ, jₒ, cᵥ, bᵥ], t1_bb [aᵥ, jₒ], t2_abab [cᵥ, bᵥ, kₒ, iₒ]], [(1, [aᵥ, iₒ])]⟩,
  -- line 397: kjbc,aj,bcik->ai
  ⟨1/2, [g_bbbb [kₒ, jₒ, bᵥ, cᵥ], t1_bb [aᵥ, jₒ], t2_bbbb [bᵥ, cᵥ, iₒ, kₒ]], [(1, [aᵥ, iₒ])]⟩,
  -- line 400: jkbi,bj,ak->ai
  ⟨-1, [g_abab [jₒ, kₒ, bᵥ, iₒ], t1_aa [bᵥ, jₒ], t1_bb [aᵥ, kₒ]], [(1, [aᵥ, iₒ])]⟩,
  -- line 403: kjbi,bj,ak->ai
  ⟨1, [g_bbbb [kₒ, jₒ, bᵥ, iₒ], t1_bb [bᵥ, jₒ], t1_bb [aᵥ, kₒ]], [(1, [aᵥ, iₒ])]⟩,
  -- line 406: jabc,bj,ci->ai
  ⟨1, [g_abab [jₒ, aᵥ, bᵥ, cᵥ], t1_aa [bᵥ, jₒ], t1_bb [cᵥ, iₒ]], [(1, [aᵥ, iₒ])]⟩,
  -- line 409: jabc,bj,ci->ai
  ⟨1, [g_bbbb [jₒ, aᵥ, bᵥ, cᵥ], t1_bb [bᵥ, jₒ], t1_bb [cᵥ, iₒ]], [(1, [aᵥ, iₒ])]⟩,
  -- line 412: jkbc,bj,ci,ak->ai
  ⟨-1, [g_abab [jₒ, kₒ, bᵥ, cᵥ], t1_aa [bᵥ, jₒ], t1_bb [cᵥ, iₒ], t1_bb [aᵥ, kₒ]], [(1, [aᵥ, iₒ])]⟩,
  -- line 415: kjbc,bj,ci,ak->ai
  ⟨1, [g_bbbb [kₒ, jₒ, bᵥ, cᵥ], t1_bb [bᵥ, jₒ], t1_bb [cᵥ, iₒ], t1_bb [aᵥ, kₒ]], [(1, [aᵥ, iₒ])]⟩
  ]

/-- Part 0 of `ccsdt_t2_aaaa`. -/
def ccsdt_t2_aaaa_0 : Prog := [
  -- line 428: kj,abik->abij
  ⟨-1, [f_aa [kₒ, jₒ], t2_aaaa [aᵥ, bᵥ, iₒ, kₒ]], [(1, [aᵥ, bᵥ, iₒ, jₒ]), (-1, [aᵥ, bᵥ, jₒ, iₒ])]⟩,
  -- line 432: ac,cbij->abij
  ⟨1, [f_aa [aᵥ, cᵥ], t2_aaaa [cᵥ, bᵥ, iₒ, jₒ]], [(1, [aᵥ, bᵥ, iₒ, jₒ]), (-1, [bᵥ, aᵥ, iₒ, jₒ])]⟩,
  -- line 436: kc,cabijk->abij
  ⟨1, [f_aa [kₒ, cᵥ], t3_aaaaaa [cᵥ, aᵥ, bᵥ, iₒ, jₒ, kₒ]], [(1, [aᵥ, bᵥ, iₒ, jₒ])]⟩,
  -- line 439: kc,bacijk->abij
  ⟨-1, [f_bb [kₒ, cᵥ], t3_aabaab [bᵥ, aᵥ, cᵥ, iₒ, jₒ, kₒ]], [(1, [aᵥ, bᵥ, iₒ, jₒ])]⟩,
  -- line 442: kc,cj,abik->abij
  ⟨-1, [f_aa [kₒ, cᵥ], t1_aa [cᵥ, jₒ], t2_aaaa [aᵥ, bᵥ, iₒ, kₒ]], [(1, [aᵥ, bᵥ, iₒ, jₒ]), (-1, [aᵥ, bᵥ, jₒ, iₒ])]⟩,
  -- line 446: kc,ak,cbij->abij
  ⟨-1, [f_aa [kₒ, cᵥ], t1_aa [aᵥ, kₒ], t2_aaaa [cᵥ, bᵥ, iₒ, jₒ]], [(1, [aᵥ, bᵥ, iₒ, jₒ]), (-1, [bᵥ, aᵥ, iₒ, jₒ])]⟩,
  -- line 450: abij->abij
  ⟨1, [g_aaaa [aᵥ, bᵥ, iₒ, jₒ]], [(1, [aᵥ, bᵥ, iₒ, jₒ])]⟩,
  -- line 453: kaij,bk->abij
  ⟨1, [g_aaaa [kₒ, aᵥ, iₒ, jₒ], t1_aa [bᵥ, kₒ]], [(1, [aᵥ, bᵥ, iₒ, jₒ]), (-1, [bᵥ, aᵥ, iₒ, jₒ])]⟩,
  -- line 457: abcj,ci->abij
  ⟨1, [g_aaaa [aᵥ, bᵥ, cᵥ, jₒ], t1_aa [cᵥ, iₒ]], [(1, [aᵥ, bᵥ, iₒ, jₒ]), (-1, [aᵥ, bᵥ, jₒ, iₒ])]⟩,
  -- line 461: lkij,ablk->abij
  ⟨1/2, [g_aaaa [lₒ, kₒ, iₒ, jₒ], t2_aaaa [aᵥ, bᵥ, lₒ, kₒ]], [(1, [aᵥ, bᵥ, iₒ, jₒ])]⟩,
  -- line 464: kacj,cbik->abij
  ⟨1, [g_aaaa [kₒ, aᵥ, cᵥ, jₒ], t2_aaaa [cᵥ, bᵥ, iₒ, kₒ]], [(1, [aᵥ, bᵥ, iₒ, jₒ]), (-1, [aᵥ, bᵥ, jₒ, iₒ]), (-1, [bᵥ, aᵥ, iₒ, jₒ]), (1, [bᵥ, aᵥ, jₒ, iₒ])]⟩,
  -- line 468: akjc,bcik->abij
  ⟨-1, [g_abab [aᵥ, kₒ, jₒ, cᵥ], t2_abab [bᵥ, cᵥ, iₒ, kₒ]], [(1, [aᵥ, bᵥ, iₒ, jₒ]), (-1, [aᵥ, bᵥ, jₒ, iₒ]), (-1, [bᵥ, aᵥ, iₒ, jₒ]), (1, [bᵥ, aᵥ, jₒ, iₒ])]⟩,
  -- line 472: abcd,cdij->abij
  ⟨1/2, [g_aaaa [aᵥ, bᵥ, cᵥ, dᵥ], t2_aaaa [cᵥ, dᵥ, iₒ, jₒ]], [(1, [aᵥ, bᵥ, iₒ, jₒ])]⟩,
  -- line 475: lkcj,cabilk->abij
  ⟨1/2, [g_aaaa [lₒ, kₒ, cᵥ, jₒ], t3_aaaaaa [cᵥ, aᵥ, bᵥ, iₒ, lₒ, kₒ]], [(1, [aᵥ, bᵥ, iₒ, jₒ]), (-1, [aᵥ, bᵥ, jₒ, iₒ])]⟩,
  -- line 479: lkjc,bacilk->abij
  ⟨1/2, [g_abab [lₒ, kₒ, jₒ, cᵥ], t3_aabaab [bᵥ, aᵥ, cᵥ, iₒ, lₒ, kₒ]], [(1, [aᵥ, bᵥ, iₒ, jₒ]), (-1, [aᵥ, bᵥ, jₒ, iₒ])]⟩,
  -- line 483: kljc,bacikl->abij
  ⟨1/2, [g_abab [kₒ, lₒ, jₒ, cᵥ], t3_aabaab [bᵥ, aᵥ, cᵥ, iₒ, kₒ, lₒ]], [(1, [aᵥ, bᵥ, iₒ, jₒ]), (-1, [aᵥ, bᵥ, jₒ, iₒ])]⟩,
  -- line 487: kacd,cdbijk->abij
  ⟨1/2, [g_aaaa [kₒ, aᵥ, cᵥ, dᵥ], t3_aaaaaa [cᵥ, dᵥ, bᵥ, iₒ, jₒ, kₒ]], [(1, [aᵥ, bᵥ, iₒ, jₒ]), (-1, [bᵥ, aᵥ, iₒ, jₒ])]⟩,
  -- line 491: akcd,cbdijk->abij
  ⟨1/2, [g_abab [aᵥ, kₒ, cᵥ, dᵥ], t3_aabaab [cᵥ, bᵥ, dᵥ, iₒ, jₒ, kₒ]], [(1, [aᵥ, bᵥ, iₒ, jₒ]), (-1, [bᵥ, aᵥ, iₒ, jₒ])]⟩,
  -- line 495: akdc,bdcijk->abij
  ⟨-1/2, [g_abab [aᵥ, kₒ, dᵥ, cᵥ], t3_aabaab [bᵥ, dᵥ, cᵥ, iₒ, jₒ, kₒ]], [(1, [aᵥ, bᵥ, iₒ, jₒ]), (-1, [bᵥ, aᵥ, iₒ, jₒ])]⟩,
  -- line 499: lkcj,ck,abil->abij
  ⟨1, [g_aaaa [lₒ, kₒ, cᵥ, jₒ], t1_aa [cᵥ, kₒ], t2_aaaa [aᵥ, bᵥ, iₒ, lₒ]], [(1, [aᵥ, bᵥ, iₒ, jₒ]), (-1, [aᵥ, bᵥ, jₒ, iₒ])]⟩,
  -- line 503: lkjc,ck,abil->abij
  ⟨-1, [g_abab [lₒ, kₒ, jₒ, cᵥ], t1_bb [cᵥ, kₒ], t2_aaaa [aᵥ, bᵥ, iₒ, lₒ]], [(1, [aᵥ, bᵥ, iₒ, jₒ]), (-1, [aᵥ, bᵥ, jₒ, iₒ])]⟩,
  -- line 507: lkcj,ci,ablk->abij
  ⟨1/2, [g_aaaa [lₒ, kₒ, cᵥ, jₒ], t1_aa [cᵥ, iₒ], t2_aaaa [aᵥ, bᵥ, lₒ, kₒ]], [(1, [aᵥ, bᵥ, iₒ, jₒ]), (-1, [aᵥ, bᵥ, jₒ, iₒ])]⟩,
  -- line 511: lkcj,ak,cbil->abij
  ⟨-1, [g_aaaa [lₒ, kₒ, cᵥ, jₒ], t1_aa [aᵥ, kₒ], t2_aaaa [cᵥ, bᵥ, iₒ, lₒ]], [(1, [aᵥ, bᵥ, iₒ, jₒ]), (-1, [aᵥ, bᵥ, jₒ, iₒ]), (-1, [bᵥ, aᵥ, iₒ, jₒ]), (1, [bᵥ, aᵥ, jₒ, iₒ])]⟩,
  -- line 515: kljc,ak,bcil->abij
  ⟨1, [g_abab [kₒ, lₒ, jₒ, cᵥ], t1_aa [aᵥ, kₒ], t2_abab [bᵥ, cᵥ, iₒ, lₒ]], [(1, [aᵥ, bᵥ, iₒ, jₒ]), (-1, [aᵥ, bᵥ, jₒ, iₒ]), (-1, [bᵥ, aᵥ, iₒ, jₒ]), (1, [bᵥ, aᵥ, jₒ, iₒ])]⟩,
  -- line 519: kacd,ck,dbij->abij
  ⟨1, [g_aaaa [kₒ, aᵥ, cᵥ, dᵥ], t1_aa [cᵥ, kₒ], t2_aaaa [dᵥ, bᵥ, iₒ, jₒ]], [(1, [aᵥ, bᵥ, iₒ, jₒ]), (-1, [bᵥ, aᵥ, iₒ, jₒ])]⟩,
  -- line 523: akdc,ck,dbij->abij
  ⟨1, [g_abab [aᵥ, kₒ, dᵥ, cᵥ], t1_bb [cᵥ, kₒ], t2_aaaa [dᵥ, bᵥ, iₒ, jₒ]], [(1, [aᵥ, bᵥ, iₒ, jₒ]), (-1, [bᵥ, aᵥ, iₒ, jₒ])]⟩,
  -- line 527: kacd,cj,dbik->abij
  ⟨-1, [g_aaaa [kₒ, aᵥ, cᵥ, dᵥ], t1_aa [cᵥ, jₒ], t2_aaaa [dᵥ, bᵥ, iₒ, kₒ]], [(1, [aᵥ, bᵥ, iₒ, jₒ]), (-1, [aᵥ, bᵥ, jₒ, iₒ]), (-1, [bᵥ, aᵥ, iₒ, jₒ]), (1, [bᵥ, aᵥ, jₒ, iₒ])]⟩,
  -- line 531: akcd,cj,bdik->abij
  ⟨-1, [g_abab [aᵥ, kₒ, cᵥ, dᵥ], t1_aa [cᵥ, jₒ], t2_abab [bᵥ, dᵥ, iₒ, kₒ]], [(1, [aᵥ, bᵥ, iₒ, jₒ]), (-1, [aᵥ, bᵥ, jₒ, iₒ]), (-1, [bᵥ, aᵥ, iₒ, jₒ]), (1, [bᵥ, aᵥ, jₒ, iₒ])]⟩,
  -- line 535: kacd,bk,cdij->abij
  ⟨1/2, [g_aaaa [kₒ, aᵥ, cᵥ, dᵥ], t1_aa [bᵥ, kₒ], t2_aaaa [cᵥ, dᵥ, iₒ, jₒ]], [(1, [aᵥ, bᵥ, iₒ, jₒ]), (-1, [bᵥ, aᵥ, iₒ, jₒ])]⟩,
  -- line 539: lkcd,ck,dabijl->abij
  ⟨-1, [g_aaaa [lₒ, kₒ, cᵥ, dᵥ], t1_aa [cᵥ, kₒ], t3_aaaaaa [dᵥ, aᵥ, bᵥ, iₒ, jₒ, lₒ]], [(1, [aᵥ, bᵥ, iₒ, jₒ])]⟩,
  -- line 542: klcd,ck,badijl->abij
  ⟨-1, [g_abab [kₒ, lₒ, cᵥ, dᵥ], t1_aa [cᵥ, kₒ], t3_aabaab [bᵥ, aᵥ, dᵥ, iₒ, jₒ, lₒ]], [(1, [aᵥ, bᵥ, iₒ, jₒ])]⟩,
  -- line 545: lkdc,ck,dabijl->abij
  ⟨1, [g_abab [lₒ, kₒ, dᵥ, cᵥ], t1_bb [cᵥ, kₒ], t3_aaaaaa [dᵥ, aᵥ, bᵥ, iₒ, jₒ, lₒ]], [(1, [aᵥ, bᵥ, iₒ, jₒ])]⟩,
  -- line 548: lkcd,ck,badijl->abij
  ⟨1, [g_bbbb [lₒ, kₒ, cᵥ, dᵥ], t1_bb [cᵥ, kₒ], t3_aabaab [bᵥ, aᵥ, dᵥ, iₒ, jₒ, lₒ]], [(1, [aᵥ, bᵥ, iₒ, jₒ])]⟩,
  -- line 551: lkcd,cj,dabilk->abij
  ⟨-1/2, [g_aaaa [lₒ, kₒ, cᵥ, dᵥ], t1_aa [cᵥ, jₒ], t3_aaaaaa [dᵥ, aᵥ, bᵥ, iₒ, lₒ, kₒ]], [(1, [aᵥ, bᵥ, iₒ, jₒ]), (-1, [aᵥ, bᵥ, jₒ, iₒ])]⟩,
  -- line 555: lkcd,cj,badilk->abij
  ⟨1/2, [g_abab [lₒ, kₒ, cᵥ, dᵥ], t1_aa [cᵥ, jₒ], t3_aabaab [bᵥ, aᵥ, dᵥ, iₒ, lₒ, kₒ]], [(1, [aᵥ, bᵥ, iₒ, jₒ]), (-1, [aᵥ, bᵥ, jₒ, iₒ])]⟩,
  -- line 559: klcd,cj,badikl->abij
  ⟨1/2, [g_abab [kₒ, lₒ, cᵥ, dᵥ], t1_aa [cᵥ, jₒ], t3_aabaab [bᵥ, aᵥ, dᵥ, iₒ, kₒ, lₒ]], [(1, [aᵥ, bᵥ, iₒ, jₒ]), (-1, [aᵥ, bᵥ, jₒ, iₒ])]⟩,
  -- line 563: lkcd,ak,cdbijl->abij
  ⟨-1/2, [g_aaaa [lₒ, kₒ, cᵥ, dᵥ], t1_aa [aᵥ, kₒ], t3_aaaaaa [cᵥ, dᵥ, bᵥ, iₒ, jₒ, lₒ]], [(1, [aᵥ, bᵥ, iₒ, jₒ]), (-1, [bᵥ, aᵥ, iₒ, jₒ])]⟩,
  -- line 567: klcd,ak,cbdijl->abij
  ⟨-1/2, [g_abab [kₒ, lₒ, cᵥ, dᵥ], t1_aa [aᵥ, kₒ], t3_aabaab [cᵥ, bᵥ, dᵥ, iₒ, jₒ, lₒ]], [(1, [aᵥ, bᵥ, iₒ, jₒ]), (-1, [bᵥ, aᵥ, iₒ, jₒ])]⟩,
  -- line 571: kldc,ak,bdcijl->abij
  ⟨1/2, [g_abab [kₒ, lₒ, dᵥ, cᵥ], t1_aa [aᵥ, kₒ], t3_aabaab [bᵥ, dᵥ, cᵥ, iₒ, jₒ, lₒ]], [(1, [aᵥ, bᵥ, iₒ, jₒ]), (-1, [bᵥ, aᵥ, iₒ, jₒ])]⟩,
  -- line 575: lkij,ak,bl->abij
  ⟨-1, [g_aaaa [lₒ, kₒ, iₒ, jₒ], t1_aa [aᵥ, kₒ], t1_aa [bᵥ, lₒ]], [(1, [aᵥ, bᵥ, iₒ, jₒ])]⟩
  ]

/-- Part 1 of `ccsdt_t2_aaaa`. -/
def ccsdt_t2_aaaa_1 : Prog := [
  -- line 578: kacj,ci,bk->abij
  ⟨1, [g_aaaa [kₒ, aᵥ, cᵥ, jₒ], t1_aa [cᵥ, iₒ], t1_aa [bᵥ, kₒ]], [(1, [aᵥ, bᵥ, iₒ, jₒ]), (-1, [aᵥ, bᵥ, jₒ, iₒ]), (-1, [bᵥ, aᵥ, iₒ, jₒ]), (1, [bᵥ, aᵥ, jₒ, iₒ])]⟩,
  -- line 582: abcd,cj,di->abij
  ⟨-1, [g_aaaa [aᵥ, bᵥ, cᵥ, dᵥ], t1_aa [cᵥ, jₒ], t1_aa [dᵥ, iₒ]], [(1, [aᵥ, bᵥ, iₒ, jₒ])]⟩,
  -- line 585: lkcd,cdjk,abil->abij
  ⟨-1/2, [g_aaaa [lₒ, kₒ, cᵥ, dᵥ], t2_aaaa [cᵥ, dᵥ, jₒ, kₒ], t2_aaaa [aᵥ, bᵥ, iₒ, lₒ]], [(1, [aᵥ, bᵥ, iₒ, jₒ]), (-1, [aᵥ, bᵥ, jₒ, iₒ])]⟩,
  -- line 589: lkcd,cdjk,abil->abij
  ⟨-1/2, [g_abab [lₒ, kₒ, cᵥ, dᵥ], t2_abab [cᵥ, dᵥ, jₒ, kₒ], t2_aaaa [aᵥ, bᵥ, iₒ, lₒ]], [(1, [aᵥ, bᵥ, iₒ, jₒ]), (-1, [aᵥ, bᵥ, jₒ, iₒ])]⟩,
  -- line 593: lkdc,dcjk,abil->abij
  ⟨-1/2, [g_abab [lₒ, kₒ, dᵥ, cᵥ], t2_abab [dᵥ, cᵥ, jₒ, kₒ], t2_aaaa [aᵥ, bᵥ, iₒ, lₒ]], [(1, [aᵥ, bᵥ, iₒ, jₒ]), (-1, [aᵥ, bᵥ, jₒ, iₒ])]⟩,
  -- line 597: lkcd,cdij,ablk->abij
  ⟨1/4, [g_aaaa [lₒ, kₒ, cᵥ, dᵥ], t2_aaaa [cᵥ, dᵥ, iₒ, jₒ], t2_aaaa [aᵥ, bᵥ, lₒ, kₒ]], [(1, [aᵥ, bᵥ, iₒ, jₒ])]⟩,
  -- line 600: lkcd,calk,dbij->abij
  ⟨-1/2, [g_aaaa [lₒ, kₒ, cᵥ, dᵥ], t2_aaaa [cᵥ, aᵥ, lₒ, kₒ], t2_aaaa [dᵥ, bᵥ, iₒ, jₒ]], [(1, [aᵥ, bᵥ, iₒ, jₒ])]⟩,
  -- line 603: lkdc,aclk,dbij->abij
  ⟨-1/2, [g_abab [lₒ, kₒ, dᵥ, cᵥ], t2_abab [aᵥ, cᵥ, lₒ, kₒ], t2_aaaa [dᵥ, bᵥ, iₒ, jₒ]], [(1, [aᵥ, bᵥ, iₒ, jₒ])]⟩,
  -- line 606: kldc,ackl,dbij->abij
  ⟨-1/2, [g_abab [kₒ, lₒ, dᵥ, cᵥ], t2_abab [aᵥ, cᵥ, kₒ, lₒ], t2_aaaa [dᵥ, bᵥ, iₒ, jₒ]], [(1, [aᵥ, bᵥ, iₒ, jₒ])]⟩,
  -- line 609: lkcd,cajk,dbil->abij
  ⟨1, [g_aaaa [lₒ, kₒ, cᵥ, dᵥ], t2_aaaa [cᵥ, aᵥ, jₒ, kₒ], t2_aaaa [dᵥ, bᵥ, iₒ, lₒ]], [(1, [aᵥ, bᵥ, iₒ, jₒ]), (-1, [aᵥ, bᵥ, jₒ, iₒ])]⟩,
  -- line 613: klcd,cajk,bdil->abij
  ⟨1, [g_abab [kₒ, lₒ, cᵥ, dᵥ], t2_aaaa [cᵥ, aᵥ, jₒ, kₒ], t2_abab [bᵥ, dᵥ, iₒ, lₒ]], [(1, [aᵥ, bᵥ, iₒ, jₒ]), (-1, [aᵥ, bᵥ, jₒ, iₒ])]⟩,
  -- line 617: lkdc,acjk,dbil->abij
  ⟨1, [g_abab [lₒ, kₒ, dᵥ, cᵥ], t2_abab [aᵥ, cᵥ, jₒ, kₒ], t2_aaaa [dᵥ, bᵥ, iₒ, lₒ]], [(1, [aᵥ, bᵥ, iₒ, jₒ]), (-1, [aᵥ, bᵥ, jₒ, iₒ])]⟩,
  -- line 621: lkcd,acjk,bdil->abij
  ⟨1, [g_bbbb [lₒ, kₒ, cᵥ, dᵥ], t2_abab [aᵥ, cᵥ, jₒ, kₒ], t2_abab [bᵥ, dᵥ, iₒ, lₒ]], [(1, [aᵥ, bᵥ, iₒ, jₒ]), (-1, [aᵥ, bᵥ, jₒ, iₒ])]⟩,
  -- line 625: lkcd,caij,dblk->abij
  ⟨-1/2, [g_aaaa [lₒ, kₒ, cᵥ, dᵥ], t2_aaaa [cᵥ, aᵥ, iₒ, jₒ], t2_aaaa [dᵥ, bᵥ, lₒ, kₒ]], [(1, [aᵥ, bᵥ, iₒ, jₒ])]⟩,
  -- line 628: lkcd,caij,bdlk->abij
  ⟨1/2, [g_abab [lₒ, kₒ, cᵥ, dᵥ], t2_aaaa [cᵥ, aᵥ, iₒ, jₒ], t2_abab [bᵥ, dᵥ, lₒ, kₒ]], [(1, [aᵥ, bᵥ, iₒ, jₒ])]⟩,
  -- line 631: klcd,caij,bdkl->abij
  ⟨1/2, [g_abab [kₒ, lₒ, cᵥ, dᵥ], t2_aaaa [cᵥ, aᵥ, iₒ, jₒ], t2_abab [bᵥ, dᵥ, kₒ, lₒ]], [(1, [aᵥ, bᵥ, iₒ, jₒ])]⟩,
  -- line 634: lkcd,ck,dj,abil->abij
  ⟨1, [g_aaaa [lₒ, kₒ, cᵥ, dᵥ], t1_aa [cᵥ, kₒ], t1_aa [dᵥ, jₒ], t2_aaaa [aᵥ, bᵥ, iₒ, lₒ]], [(1, [aᵥ, bᵥ, iₒ, jₒ]), (-1, [aᵥ, bᵥ, jₒ, iₒ])]⟩,
  -- line 638: lkdc,ck,dj,abil->abij
  ⟨-1, [g_abab [lₒ, kₒ, dᵥ, cᵥ], t1_bb [cᵥ, kₒ], t1_aa [dᵥ, jₒ], t2_aaaa [aᵥ, bᵥ, iₒ, lₒ]], [(1, [aᵥ, bᵥ, iₒ, jₒ]), (-1, [aᵥ, bᵥ, jₒ, iₒ])]⟩,
  -- line 642: lkcd,ck,al,dbij->abij
  ⟨1, [g_aaaa [lₒ, kₒ, cᵥ, dᵥ], t1_aa [cᵥ, kₒ], t1_aa [aᵥ, lₒ], t2_aaaa [dᵥ, bᵥ, iₒ, jₒ]], [(1, [aᵥ, bᵥ, iₒ, jₒ]), (-1, [bᵥ, aᵥ, iₒ, jₒ])]⟩,
  -- line 646: lkdc,ck,al,dbij->abij
  ⟨-1, [g_abab [lₒ, kₒ, dᵥ, cᵥ], t1_bb [cᵥ, kₒ], t1_aa [aᵥ, lₒ], t2_aaaa [dᵥ, bᵥ, iₒ, jₒ]], [(1, [aᵥ, bᵥ, iₒ, jₒ]), (-1, [bᵥ, aᵥ, iₒ, jₒ])]⟩,
  -- line 650: lkcd,cj,di,ablk->abij
  ⟨-1/2, [g_aaaa [lₒ, kₒ, cᵥ, dᵥ], t1_aa [cᵥ, jₒ], t1_aa [dᵥ, iₒ], t2_aaaa [aᵥ, bᵥ, lₒ, kₒ]], [(1, [aᵥ, bᵥ, iₒ, jₒ])]⟩,
  -- line 653: lkcd,cj,ak,dbil->abij
  ⟨1, [g_aaaa [lₒ, kₒ, cᵥ, dᵥ], t1_aa [cᵥ, jₒ], t1_aa [aᵥ, kₒ], t2_aaaa [dᵥ, bᵥ, iₒ, lₒ]], [(1, [aᵥ, bᵥ, iₒ, jₒ]), (-1, [aᵥ, bᵥ, jₒ, iₒ]), (-1, [bᵥ, aᵥ, iₒ, jₒ]), (1, [bᵥ, aᵥ, jₒ, iₒ])]⟩,
  -- line 657: klcd,cj,ak,bdil->abij
  ⟨1, [g_abab [kₒ, lₒ, cᵥ, dᵥ], t1_aa [cᵥ, jₒ], t1_aa [aᵥ, kₒ], t2_abab [bᵥ, dᵥ, iₒ, lₒ]], [(1, [aᵥ, bᵥ, iₒ, jₒ]), (-1, [aᵥ, bᵥ, jₒ, iₒ]), (-1, [bᵥ, aᵥ, iₒ, jₒ]), (1, [bᵥ, aᵥ, jₒ, iₒ])]⟩,
  -- line 661: lkcd,ak,bl,cdij->abij
  ⟨-1/2, [g_aaaa [lₒ, kₒ, cᵥ, dᵥ], t1_aa [aᵥ, kₒ], t1_aa [bᵥ, lₒ], t2_aaaa [cᵥ, dᵥ, iₒ, jₒ]], [(1, [aᵥ, bᵥ, iₒ, jₒ])]⟩,
  -- line 664: lkcj,ci,ak,bl->abij
  ⟨-1, [g_aaaa [lₒ, kₒ, cᵥ, jₒ], t1_aa [cᵥ, iₒ], t1_aa [aᵥ, kₒ], t1_aa [bᵥ, lₒ]], [(1, [aᵥ, bᵥ, iₒ, jₒ]), (-1, [aᵥ, bᵥ, jₒ, iₒ])]⟩,
  -- line 668: kacd,cj,di,bk->abij
  ⟨-1, [g_aaaa [kₒ, aᵥ, cᵥ, dᵥ], t1_aa [cᵥ, jₒ], t1_aa [dᵥ, iₒ], t1_aa [bᵥ, kₒ]], [(1, [aᵥ, bᵥ, iₒ, jₒ]), (-1, [bᵥ, aᵥ, iₒ, jₒ])]⟩,
  -- line 672: lkcd,cj,di,ak,bl->abij
  ⟨1, [g_aaaa [lₒ, kₒ, cᵥ, dᵥ], t1_aa [cᵥ, jₒ], t1_aa [dᵥ, iₒ], t1_aa [aᵥ, kₒ], t1_aa [bᵥ, lₒ]], [(1, [aᵥ, bᵥ, iₒ, jₒ])]⟩
  ]

/-- `UT2/fullCCresidEqns.py` 420-674, `ccsdt_t2_aaaa_residual`. -/
def ccsdt_t2_aaaa : Prog := ccsdt_t2_aaaa_0 ++ (ccsdt_t2_aaaa_1)

/-- Part 0 of `ccsdt_t2_bbbb`. -/
def ccsdt_t2_bbbb_0 : Prog := [
  -- line 685: kj,abik->abij
  ⟨-1, [f_bb [kₒ, jₒ], t2_bbbb [aᵥ, bᵥ, iₒ, kₒ]], [(1, [aᵥ, bᵥ, iₒ, jₒ]), (-1, [aᵥ, bᵥ, jₒ, iₒ])]⟩,
  -- line 689: ac,cbij->abij
  ⟨1, [f_bb [aᵥ, cᵥ], t2_bbbb [cᵥ, bᵥ, iₒ, jₒ]], [(1, [aᵥ, bᵥ, iₒ, jₒ]), (-1, [bᵥ, aᵥ, iₒ, jₒ])]⟩,
  -- line 693: kc,cabkji->abij
  ⟨-1, [f_aa [kₒ, cᵥ], t3_abbabb [cᵥ, aᵥ, bᵥ, kₒ, jₒ, iₒ]], [(1, [aᵥ, bᵥ, iₒ, jₒ])]⟩,
  -- line 696: kc,cabijk->abij
  ⟨1, [f_bb [kₒ, cᵥ], t3_bbbbbb [cᵥ, aᵥ, bᵥ, iₒ, jₒ, kₒ]], [(1, [aᵥ, bᵥ, iₒ, jₒ])]⟩,
  -- line 699: kc,cj,abik->abij
  ⟨-1, [f_bb [kₒ, cᵥ], t1_bb [cᵥ, jₒ], t2_bbbb [aᵥ, bᵥ, iₒ, kₒ]], [(1, [aᵥ, bᵥ, iₒ, jₒ]), (-1, [aᵥ, bᵥ, jₒ, iₒ])]⟩,
  -- line 703: kc,ak,cbij->abij
  ⟨-1, [f_bb [kₒ, cᵥ], t1_bb [aᵥ, kₒ], t2_bbbb [cᵥ, bᵥ, iₒ, jₒ]], [(1, [aᵥ, bᵥ, iₒ, jₒ]), (-1, [bᵥ, aᵥ, iₒ, jₒ])]⟩,
  -- line 707: abij->abij
  ⟨1, [g_bbbb [aᵥ, bᵥ, iₒ, jₒ]], [(1, [aᵥ, bᵥ, iₒ, jₒ])]⟩,
  -- line 710: kaij,bk->abij
  ⟨1, [g_bbbb [kₒ, aᵥ, iₒ, jₒ], t1_bb [bᵥ, kₒ]], [(1, [aᵥ, bᵥ, iₒ, jₒ]), (-1, [bᵥ, aᵥ, iₒ, jₒ])]⟩,
  -- line 714: abcj,ci->abij
  ⟨1, [g_bbbb [aᵥ, bᵥ, cᵥ, jₒ], t1_bb [cᵥ, iₒ]], [(1, [aᵥ, bᵥ, iₒ, jₒ]), (-1, [aᵥ, bᵥ, jₒ, iₒ])]⟩,
  -- line 718: lkij,ablk->abij
  ⟨1/2, [g_bbbb [lₒ, kₒ, iₒ, jₒ], t2_bbbb [aᵥ, bᵥ, lₒ, kₒ]], [(1, [aᵥ, bᵥ, iₒ, jₒ])]⟩,
  -- line 721: kacj,cbki->abij
  ⟨-1, [g_abab [kₒ, aᵥ, cᵥ, jₒ], t2_abab [cᵥ, bᵥ, kₒ, iₒ]], [(1, [aᵥ, bᵥ, iₒ, jₒ]), (-1, [aᵥ, bᵥ, jₒ, iₒ]), (-1, [bᵥ, aᵥ, iₒ, jₒ]), (1, [bᵥ, aᵥ, jₒ, iₒ])]⟩,
  -- line 725: kacj,cbik->abij
  ⟨1, [g_bbbb [kₒ, aᵥ, cᵥ, jₒ], t2_bbbb [cᵥ, bᵥ, iₒ, kₒ]], [(1, [aᵥ, bᵥ, iₒ, jₒ]), (-1, [aᵥ, bᵥ, jₒ, iₒ]), (-1, [bᵥ, aᵥ, iₒ, jₒ]), (1, [bᵥ, aᵥ, jₒ, iₒ])]⟩,
  -- line 729: abcd,cdij->abij
  ⟨1/2, [g_bbbb [aᵥ, bᵥ, cᵥ, dᵥ], t2_bbbb [cᵥ, dᵥ, iₒ, jₒ]], [(1, [aᵥ, bᵥ, iₒ, jₒ])]⟩,
  -- line 732: lkcj,cablik->abij
  ⟨-1/2, [g_abab [lₒ, kₒ, cᵥ, jₒ], t3_abbabb [cᵥ, aᵥ, bᵥ, lₒ, iₒ, kₒ]], [(1, [aᵥ, bᵥ, iₒ, jₒ]), (-1, [aᵥ, bᵥ, jₒ, iₒ])]⟩,
  -- line 736: klcj,cabkli->abij
  ⟨1/2, [g_abab [kₒ, lₒ, cᵥ, jₒ], t3_abbabb [cᵥ, aᵥ, bᵥ, kₒ, lₒ, iₒ]], [(1, [aᵥ, bᵥ, iₒ, jₒ]), (-1, [aᵥ, bᵥ, jₒ, iₒ])]⟩,
  -- line 740: lkcj,cabilk->abij
  ⟨1/2, [g_bbbb [lₒ, kₒ, cᵥ, jₒ], t3_bbbbbb [cᵥ, aᵥ, bᵥ, iₒ, lₒ, kₒ]], [(1, [aᵥ, bᵥ, iₒ, jₒ]), (-1, [aᵥ, bᵥ, jₒ, iₒ])]⟩,
  -- line 744: kacd,cdbkji->abij
  ⟨-1/2, [g_abab [kₒ, aᵥ, cᵥ, dᵥ], t3_abbabb [cᵥ, dᵥ, bᵥ, kₒ, jₒ, iₒ]], [(1, [aᵥ, bᵥ, iₒ, jₒ]), (-1, [bᵥ, aᵥ, iₒ, jₒ])]⟩,
  -- line 748: kadc,dcbkji->abij
  ⟨-1/2, [g_abab [kₒ, aᵥ, dᵥ, cᵥ], t3_abbabb [dᵥ, cᵥ, bᵥ, kₒ, jₒ, iₒ]], [(1, [aᵥ, bᵥ, iₒ, jₒ]), (-1, [bᵥ, aᵥ, iₒ, jₒ])]⟩,
  -- line 752: kacd,cdbijk->abij
  ⟨1/2, [g_bbbb [kₒ, aᵥ, cᵥ, dᵥ], t3_bbbbbb [cᵥ, dᵥ, bᵥ, iₒ, jₒ, kₒ]], [(1, [aᵥ, bᵥ, iₒ, jₒ]), (-1, [bᵥ, aᵥ, iₒ, jₒ])]⟩,
  -- line 756: klcj,ck,abil->abij
  ⟨-1, [g_abab [kₒ, lₒ, cᵥ, jₒ], t1_aa [cᵥ, kₒ], t2_bbbb [aᵥ, bᵥ, iₒ, lₒ]], [(1, [aᵥ, bᵥ, iₒ, jₒ]), (-1, [aᵥ, bᵥ, jₒ, iₒ])]⟩,
  -- line 760: lkcj,ck,abil->abij
  ⟨1, [g_bbbb [lₒ, kₒ, cᵥ, jₒ], t1_bb [cᵥ, kₒ], t2_bbbb [aᵥ, bᵥ, iₒ, lₒ]], [(1, [aᵥ, bᵥ, iₒ, jₒ]), (-1, [aᵥ, bᵥ, jₒ, iₒ])]⟩,
  -- line 764: lkcj,ci,ablk->abij
  ⟨1/2, [g_bbbb [lₒ, kₒ, cᵥ, jₒ], t1_bb [cᵥ, iₒ], t2_bbbb [aᵥ, bᵥ, lₒ, kₒ]], [(1, [aᵥ, bᵥ, iₒ, jₒ]), (-1, [aᵥ, bᵥ, jₒ, iₒ])]⟩,
  -- line 768: lkcj,ak,cbli->abij
  ⟨1, [g_abab [lₒ, kₒ, cᵥ, jₒ], t1_bb [aᵥ, kₒ], t2_abab [cᵥ, bᵥ, lₒ, iₒ]], [(1, [aᵥ, bᵥ, iₒ, jₒ]), (-1, [aᵥ, bᵥ, jₒ, iₒ]), (-1, [bᵥ, aᵥ, iₒ, jₒ]), (1, [bᵥ, aᵥ, jₒ, iₒ])]⟩,
  -- line 772: lkcj,ak,cbil->abij
  ⟨-1, [g_bbbb [lₒ, kₒ, cᵥ, jₒ], t1_bb [aᵥ, kₒ], t2_bbbb [cᵥ, bᵥ, iₒ, lₒ]], [(1, [aᵥ, bᵥ, iₒ, jₒ]), (-1, [aᵥ, bᵥ, jₒ, iₒ]), (-1, [bᵥ, aᵥ, iₒ, jₒ]), (1, [bᵥ, aᵥ, jₒ, iₒ])]⟩,
  -- line 776: kacd,ck,dbij->abij
  ⟨1, [g_abab [kₒ, aᵥ, cᵥ, dᵥ], t1_aa [cᵥ, kₒ], t2_bbbb [dᵥ, bᵥ, iₒ, jₒ]], [(1, [aᵥ, bᵥ, iₒ, jₒ]), (-1, [bᵥ, aᵥ, iₒ, jₒ])]⟩,
  -- line 780: kacd,ck,dbij->abij
  ⟨1, [g_bbbb [kₒ, aᵥ, cᵥ, dᵥ], t1_bb [cᵥ, kₒ], t2_bbbb [dᵥ, bᵥ, iₒ, jₒ]], [(1, [aᵥ, bᵥ, iₒ, jₒ]), (-1, [bᵥ, aᵥ, iₒ, jₒ])]⟩,
  -- line 784: kadc,cj,dbki->abij
  ⟨-1, [g_abab [kₒ, aᵥ, dᵥ, cᵥ], t1_bb [cᵥ, jₒ], t2_abab [dᵥ, bᵥ, kₒ, iₒ]], [(1, [aᵥ, bᵥ, iₒ, jₒ]), (-1, [aᵥ, bᵥ, jₒ, iₒ]), (-1, [bᵥ, aᵥ, iₒ, jₒ]), (1, [bᵥ, aᵥ, jₒ, iₒ])]⟩,
  -- line 788: kacd,cj,dbik->abij
  ⟨-1, [g_bbbb [kₒ, aᵥ, cᵥ, dᵥ], t1_bb [cᵥ, jₒ], t2_bbbb [dᵥ, bᵥ, iₒ, kₒ]], [(1, [aᵥ, bᵥ, iₒ, jₒ]), (-1, [aᵥ, bᵥ, jₒ, iₒ]), (-1, [bᵥ, aᵥ, iₒ, jₒ]), (1, [bᵥ, aᵥ, jₒ, iₒ])]⟩,
  -- line 792: kacd,bk,cdij->abij
  ⟨1/2, [g_bbbb [kₒ, aᵥ, cᵥ, dᵥ], t1_bb [bᵥ, kₒ], t2_bbbb [cᵥ, dᵥ, iₒ, jₒ]], [(1, [aᵥ, bᵥ, iₒ, jₒ]), (-1, [bᵥ, aᵥ, iₒ, jₒ])]⟩,
  -- line 796: lkcd,ck,dablji->abij
  ⟨1, [g_aaaa [lₒ, kₒ, cᵥ, dᵥ], t1_aa [cᵥ, kₒ], t3_abbabb [dᵥ, aᵥ, bᵥ, lₒ, jₒ, iₒ]], [(1, [aᵥ, bᵥ, iₒ, jₒ])]⟩,
  -- line 799: klcd,ck,dabijl->abij
  ⟨1, [g_abab [kₒ, lₒ, cᵥ, dᵥ], t1_aa [cᵥ, kₒ], t3_bbbbbb [dᵥ, aᵥ, bᵥ, iₒ, jₒ, lₒ]], [(1, [aᵥ, bᵥ, iₒ, jₒ])]⟩,
  -- line 802: lkdc,ck,dablji->abij
  ⟨-1, [g_abab [lₒ, kₒ, dᵥ, cᵥ], t1_bb [cᵥ, kₒ], t3_abbabb [dᵥ, aᵥ, bᵥ, lₒ, jₒ, iₒ]], [(1, [aᵥ, bᵥ, iₒ, jₒ])]⟩,
  -- line 805: lkcd,ck,dabijl->abij
  ⟨-1, [g_bbbb [lₒ, kₒ, cᵥ, dᵥ], t1_bb [cᵥ, kₒ], t3_bbbbbb [dᵥ, aᵥ, bᵥ, iₒ, jₒ, lₒ]], [(1, [aᵥ, bᵥ, iₒ, jₒ])]⟩,
  -- line 808: lkdc,cj,dablik->abij
  ⟨-1/2, [g_abab [lₒ, kₒ, dᵥ, cᵥ], t1_bb [cᵥ, jₒ], t3_abbabb [dᵥ, aᵥ, bᵥ, lₒ, iₒ, kₒ]], [(1, [aᵥ, bᵥ, iₒ, jₒ]), (-1, [aᵥ, bᵥ, jₒ, iₒ])]⟩,
  -- line 812: kldc,cj,dabkli->abij
  ⟨1/2, [g_abab [kₒ, lₒ, dᵥ, cᵥ], t1_bb [cᵥ, jₒ], t3_abbabb [dᵥ, aᵥ, bᵥ, kₒ, lₒ, iₒ]], [(1, [aᵥ, bᵥ, iₒ, jₒ]), (-1, [aᵥ, bᵥ, jₒ, iₒ])]⟩,
  -- line 816: lkcd,cj,dabilk->abij
  ⟨-1/2, [g_bbbb [lₒ, kₒ, cᵥ, dᵥ], t1_bb [cᵥ, jₒ], t3_bbbbbb [dᵥ, aᵥ, bᵥ, iₒ, lₒ, kₒ]], [(1, [aᵥ, bᵥ, iₒ, jₒ]), (-1, [aᵥ, bᵥ, jₒ, iₒ])]⟩,
  -- line 820: lkcd,ak,cdblji->abij
  ⟨1/2, [g_abab [lₒ, kₒ, cᵥ, dᵥ], t1_bb [aᵥ, kₒ], t3_abbabb [cᵥ, dᵥ, bᵥ, lₒ, jₒ, iₒ]], [(1, [aᵥ, bᵥ, iₒ, jₒ]), (-1, [bᵥ, aᵥ, iₒ, jₒ])]⟩,
  -- line 824: lkdc,ak,dcblji->abij
  ⟨1/2, [g_abab [lₒ, kₒ, dᵥ, cᵥ], t1_bb [aᵥ, kₒ], t3_abbabb [dᵥ, cᵥ, bᵥ, lₒ, jₒ, iₒ]], [(1, [aᵥ, bᵥ, iₒ, jₒ]), (-1, [bᵥ, aᵥ, iₒ, jₒ])]⟩,
  -- line 828: lkcd,ak,cdbijl->abij
  ⟨-1/2, [g_bbbb [lₒ, kₒ, cᵥ, dᵥ], t1_bb [aᵥ, kₒ], t3_bbbbbb [cᵥ, dᵥ, bᵥ, iₒ, jₒ, lₒ]], [(1, [aᵥ, bᵥ, iₒ, jₒ]), (-1, [bᵥ, aᵥ, iₒ, jₒ])]⟩,
  -- line 832: lkij,ak,bl->abij
  ⟨-1, [g_bbbb [lₒ, kₒ, iₒ, jₒ], t1_bb [aᵥ, kₒ], t1_bb [bᵥ, lₒ]], [(1, [aᵥ, bᵥ, iₒ, jₒ])]⟩
  ]

/-- Part 1 of `ccsdt_t2_bbbb`. -/
def ccsdt_t2_bbbb_1 : Prog := [
  -- line 835: kacj,ci,bk->abij
  ⟨1, [g_bbbb [kₒ, aᵥ, cᵥ, jₒ], t1_bb [cᵥ, iₒ], t1_bb [bᵥ, kₒ]], [(1, [aᵥ, bᵥ, iₒ, jₒ]), (-1, [aᵥ, bᵥ, jₒ, iₒ]), (-1, [bᵥ, aᵥ, iₒ, jₒ]), (1, [bᵥ, aᵥ, jₒ, iₒ])]⟩,
  -- line 839: abcd,cj,di->abij
  ⟨-1, [g_bbbb [aᵥ, bᵥ, cᵥ, dᵥ], t1_bb [cᵥ, jₒ], t1_bb [dᵥ, iₒ]], [(1, [aᵥ, bᵥ, iₒ, jₒ])]⟩,
  -- line 842: klcd,cdkj,abil->abij
  ⟨-1/2, [g_abab [kₒ, lₒ, cᵥ, dᵥ], t2_abab [cᵥ, dᵥ, kₒ, jₒ], t2_bbbb [aᵥ, bᵥ, iₒ, lₒ]], [(1, [aᵥ, bᵥ, iₒ, jₒ]), (-1, [aᵥ, bᵥ, jₒ, iₒ])]⟩,
  -- line 846: kldc,dckj,abil->abij
  ⟨-1/2, [g_abab [kₒ, lₒ, dᵥ, cᵥ], t2_abab [dᵥ, cᵥ, kₒ, jₒ], t2_bbbb [aᵥ, bᵥ, iₒ, lₒ]], [(1, [aᵥ, bᵥ, iₒ, jₒ]), (-1, [aᵥ, bᵥ, jₒ, iₒ])]⟩,
  -- line 850: lkcd,cdjk,abil->abij
  ⟨-1/2, [g_bbbb [lₒ, kₒ, cᵥ, dᵥ], t2_bbbb [cᵥ, dᵥ, jₒ, kₒ], t2_bbbb [aᵥ, bᵥ, iₒ, lₒ]], [(1, [aᵥ, bᵥ, iₒ, jₒ]), (-1, [aᵥ, bᵥ, jₒ, iₒ])]⟩,
  -- line 854: lkcd,cdij,ablk->abij
  ⟨1/4, [g_bbbb [lₒ, kₒ, cᵥ, dᵥ], t2_bbbb [cᵥ, dᵥ, iₒ, jₒ], t2_bbbb [aᵥ, bᵥ, lₒ, kₒ]], [(1, [aᵥ, bᵥ, iₒ, jₒ])]⟩,
  -- line 857: lkcd,calk,dbij->abij
  ⟨-1/2, [g_abab [lₒ, kₒ, cᵥ, dᵥ], t2_abab [cᵥ, aᵥ, lₒ, kₒ], t2_bbbb [dᵥ, bᵥ, iₒ, jₒ]], [(1, [aᵥ, bᵥ, iₒ, jₒ])]⟩,
  -- line 860: klcd,cakl,dbij->abij
  ⟨-1/2, [g_abab [kₒ, lₒ, cᵥ, dᵥ], t2_abab [cᵥ, aᵥ, kₒ, lₒ], t2_bbbb [dᵥ, bᵥ, iₒ, jₒ]], [(1, [aᵥ, bᵥ, iₒ, jₒ])]⟩,
  -- line 863: lkcd,calk,dbij->abij
  ⟨-1/2, [g_bbbb [lₒ, kₒ, cᵥ, dᵥ], t2_bbbb [cᵥ, aᵥ, lₒ, kₒ], t2_bbbb [dᵥ, bᵥ, iₒ, jₒ]], [(1, [aᵥ, bᵥ, iₒ, jₒ])]⟩,
  -- line 866: lkcd,cakj,dbli->abij
  ⟨1, [g_aaaa [lₒ, kₒ, cᵥ, dᵥ], t2_abab [cᵥ, aᵥ, kₒ, jₒ], t2_abab [dᵥ, bᵥ, lₒ, iₒ]], [(1, [aᵥ, bᵥ, iₒ, jₒ]), (-1, [aᵥ, bᵥ, jₒ, iₒ])]⟩,
  -- line 870: klcd,cakj,dbil->abij
  ⟨1, [g_abab [kₒ, lₒ, cᵥ, dᵥ], t2_abab [cᵥ, aᵥ, kₒ, jₒ], t2_bbbb [dᵥ, bᵥ, iₒ, lₒ]], [(1, [aᵥ, bᵥ, iₒ, jₒ]), (-1, [aᵥ, bᵥ, jₒ, iₒ])]⟩,
  -- line 874: lkdc,cajk,dbli->abij
  ⟨1, [g_abab [lₒ, kₒ, dᵥ, cᵥ], t2_bbbb [cᵥ, aᵥ, jₒ, kₒ], t2_abab [dᵥ, bᵥ, lₒ, iₒ]], [(1, [aᵥ, bᵥ, iₒ, jₒ]), (-1, [aᵥ, bᵥ, jₒ, iₒ])]⟩,
  -- line 878: lkcd,cajk,dbil->abij
  ⟨1, [g_bbbb [lₒ, kₒ, cᵥ, dᵥ], t2_bbbb [cᵥ, aᵥ, jₒ, kₒ], t2_bbbb [dᵥ, bᵥ, iₒ, lₒ]], [(1, [aᵥ, bᵥ, iₒ, jₒ]), (-1, [aᵥ, bᵥ, jₒ, iₒ])]⟩,
  -- line 882: lkdc,caij,dblk->abij
  ⟨1/2, [g_abab [lₒ, kₒ, dᵥ, cᵥ], t2_bbbb [cᵥ, aᵥ, iₒ, jₒ], t2_abab [dᵥ, bᵥ, lₒ, kₒ]], [(1, [aᵥ, bᵥ, iₒ, jₒ])]⟩,
  -- line 885: kldc,caij,dbkl->abij
  ⟨1/2, [g_abab [kₒ, lₒ, dᵥ, cᵥ], t2_bbbb [cᵥ, aᵥ, iₒ, jₒ], t2_abab [dᵥ, bᵥ, kₒ, lₒ]], [(1, [aᵥ, bᵥ, iₒ, jₒ])]⟩,
  -- line 888: lkcd,caij,dblk->abij
  ⟨-1/2, [g_bbbb [lₒ, kₒ, cᵥ, dᵥ], t2_bbbb [cᵥ, aᵥ, iₒ, jₒ], t2_bbbb [dᵥ, bᵥ, lₒ, kₒ]], [(1, [aᵥ, bᵥ, iₒ, jₒ])]⟩,
  -- line 891: klcd,ck,dj,abil->abij
  ⟨-1, [g_abab [kₒ, lₒ, cᵥ, dᵥ], t1_aa [cᵥ, kₒ], t1_bb [dᵥ, jₒ], t2_bbbb [aᵥ, bᵥ, iₒ, lₒ]], [(1, [aᵥ, bᵥ, iₒ, jₒ]), (-1, [aᵥ, bᵥ, jₒ, iₒ])]⟩,
  -- line 895: lkcd,ck,dj,abil->abij
  ⟨1, [g_bbbb [lₒ, kₒ, cᵥ, dᵥ], t1_bb [cᵥ, kₒ], t1_bb [dᵥ, jₒ], t2_bbbb [aᵥ, bᵥ, iₒ, lₒ]], [(1, [aᵥ, bᵥ, iₒ, jₒ]), (-1, [aᵥ, bᵥ, jₒ, iₒ])]⟩,
  -- line 899: klcd,ck,al,dbij->abij
  ⟨-1, [g_abab [kₒ, lₒ, cᵥ, dᵥ], t1_aa [cᵥ, kₒ], t1_bb [aᵥ, lₒ], t2_bbbb [dᵥ, bᵥ, iₒ, jₒ]], [(1, [aᵥ, bᵥ, iₒ, jₒ]), (-1, [bᵥ, aᵥ, iₒ, jₒ])]⟩,
  -- line 903: lkcd,ck,al,dbij->abij
  ⟨1, [g_bbbb [lₒ, kₒ, cᵥ, dᵥ], t1_bb [cᵥ, kₒ], t1_bb [aᵥ, lₒ], t2_bbbb [dᵥ, bᵥ, iₒ, jₒ]], [(1, [aᵥ, bᵥ, iₒ, jₒ]), (-1, [bᵥ, aᵥ, iₒ, jₒ])]⟩,
  -- line 907: lkcd,cj,di,ablk->abij
  ⟨-1/2, [g_bbbb [lₒ, kₒ, cᵥ, dᵥ], t1_bb [cᵥ, jₒ], t1_bb [dᵥ, iₒ], t2_bbbb [aᵥ, bᵥ, lₒ, kₒ]], [(1, [aᵥ, bᵥ, iₒ, jₒ])]⟩,
  -- line 910: lkdc,cj,ak,dbli->abij
  ⟨1, [g_abab [lₒ, kₒ, dᵥ, cᵥ], t1_bb [cᵥ, jₒ], t1_bb [aᵥ, kₒ], t2_abab [dᵥ, bᵥ, lₒ, iₒ]], [(1, [aᵥ, bᵥ, iₒ, jₒ]), (-1, [aᵥ, bᵥ, jₒ, iₒ]), (-1, [bᵥ, aᵥ, iₒ, jₒ]), (1, [bᵥ, aᵥ, jₒ, iₒ])]⟩,
  -- line 914: lkcd,cj,ak,dbil->abij
  ⟨1, [g_bbbb [lₒ, kₒ, cᵥ, dᵥ], t1_bb [cᵥ, jₒ], t1_bb [aᵥ, kₒ], t2_bbbb [dᵥ, bᵥ, iₒ, lₒ]], [(1, [aᵥ, bᵥ, iₒ, jₒ]), (-1, [aᵥ, bᵥ, jₒ, iₒ]), (-1, [bᵥ, aᵥ, iₒ, jₒ]), (1, [bᵥ, aᵥ, jₒ, iₒ])]⟩,
  -- line 918: lkcd,ak,bl,cdij->abij
  ⟨-1/2, [g_bbbb [lₒ, kₒ, cᵥ, dᵥ], t1_bb [aᵥ, kₒ], t1_bb [bᵥ, lₒ], t2_bbbb [cᵥ, dᵥ, iₒ, jₒ]], [(1, [aᵥ, bᵥ, iₒ, jₒ])]⟩,
  -- line 921: lkcj,ci,ak,bl->abij
  ⟨-1, [g_bbbb [lₒ, kₒ, cᵥ, jₒ], t1_bb [cᵥ, iₒ], t1_bb [aᵥ, kₒ], t1_bb [bᵥ, lₒ]], [(1, [aᵥ, bᵥ, iₒ, jₒ]), (-1, [aᵥ, bᵥ, jₒ, iₒ])]⟩,
  -- line 925: kacd,cj,di,bk->abij
  ⟨-1, [g_bbbb [kₒ, aᵥ, cᵥ, dᵥ], t1_bb [cᵥ, jₒ], t1_bb [dᵥ, iₒ], t1_bb [bᵥ, kₒ]], [(1, [aᵥ, bᵥ, iₒ, jₒ]), (-1, [bᵥ, aᵥ, iₒ, jₒ])]⟩,
  -- line 929: lkcd,cj,di,ak,bl->abij
  ⟨1, [g_bbbb [lₒ, kₒ, cᵥ, dᵥ], t1_bb [cᵥ, jₒ], t1_bb [dᵥ, iₒ], t1_bb [aᵥ, kₒ], t1_bb [bᵥ, lₒ]], [(1, [aᵥ, bᵥ, iₒ, jₒ])]⟩
  ]

/-- `UT2/fullCCresidEqns.py` 677-931, `ccsdt_t2_bbbb_residual`. -/
def ccsdt_t2_bbbb : Prog := ccsdt_t2_bbbb_0 ++ (ccsdt_t2_bbbb_1)

/-- Part 0 of `ccsdt_t2_abab`. -/
def ccsdt_t2_abab_0 : Prog := [
  -- line 942: kj,abik->abij
  ⟨-1, [f_bb [kₒ, jₒ], t2_abab [aᵥ, bᵥ, iₒ, kₒ]], [(1, [aᵥ, bᵥ, iₒ, jₒ])]⟩,
  -- line 945: ki,abkj->abij
  ⟨-1, [f_aa [kₒ, iₒ], t2_abab [aᵥ, bᵥ, kₒ, jₒ]], [(1, [aᵥ, bᵥ, iₒ, jₒ])]⟩,
  -- line 948: ac,cbij->abij
  ⟨1, [f_aa [aᵥ, cᵥ], t2_abab [cᵥ, bᵥ, iₒ, jₒ]], [(1, [aᵥ, bᵥ, iₒ, jₒ])]⟩,
  -- line 951: bc,acij->abij
  ⟨1, [f_bb [bᵥ, cᵥ], t2_abab [aᵥ, cᵥ, iₒ, jₒ]], [(1, [aᵥ, bᵥ, iₒ, jₒ])]⟩,
  -- line 954: kc,cabikj->abij
  ⟨-1, [f_aa [kₒ, cᵥ], t3_aabaab [cᵥ, aᵥ, bᵥ, iₒ, kₒ, jₒ]], [(1, [aᵥ, bᵥ, iₒ, jₒ])]⟩,
  -- line 957: kc,acbijk->abij
  ⟨-1, [f_bb [kₒ, cᵥ], t3_abbabb [aᵥ, cᵥ, bᵥ, iₒ, jₒ, kₒ]], [(1, [aᵥ, bᵥ, iₒ, jₒ])]⟩,
  -- line 960: kc,cj,abik->abij
  ⟨-1, [f_bb [kₒ, cᵥ], t1_bb [cᵥ, jₒ], t2_abab [aᵥ, bᵥ, iₒ, kₒ]], [(1, [aᵥ, bᵥ, iₒ, jₒ])]⟩,
  -- line 963: kc,ci,abkj->abij
  ⟨-1, [f_aa [kₒ, cᵥ], t1_aa [cᵥ, iₒ], t2_abab [aᵥ, bᵥ, kₒ, jₒ]], [(1, [aᵥ, bᵥ, iₒ, jₒ])]⟩,
  -- line 966: kc,ak,cbij->abij
  ⟨-1, [f_aa [kₒ, cᵥ], t1_aa [aᵥ, kₒ], t2_abab [cᵥ, bᵥ, iₒ, jₒ]], [(1, [aᵥ, bᵥ, iₒ, jₒ])]⟩,
  -- line 969: kc,bk,acij->abij
  ⟨-1, [f_bb [kₒ, cᵥ], t1_bb [bᵥ, kₒ], t2_abab [aᵥ, cᵥ, iₒ, jₒ]], [(1, [aᵥ, bᵥ, iₒ, jₒ])]⟩,
  -- line 972: abij->abij
  ⟨1, [g_abab [aᵥ, bᵥ, iₒ, jₒ]], [(1, [aᵥ, bᵥ, iₒ, jₒ])]⟩,
  -- line 975: akij,bk->abij
  ⟨-1, [g_abab [aᵥ, kₒ, iₒ, jₒ], t1_bb [bᵥ, kₒ]], [(1, [aᵥ, bᵥ, iₒ, jₒ])]⟩,
  -- line 978: kbij,ak->abij
  ⟨-1, [g_abab [kₒ, bᵥ, iₒ, jₒ], t1_aa [aᵥ, kₒ]], [(1, [aᵥ, bᵥ, iₒ, jₒ])]⟩,
  -- line 981: abcj,ci->abij
  ⟨1, [g_abab [aᵥ, bᵥ, cᵥ, jₒ], t1_aa [cᵥ, iₒ]], [(1, [aᵥ, bᵥ, iₒ, jₒ])]⟩,
  -- line 984: abic,cj->abij
  ⟨1, [g_abab [aᵥ, bᵥ, iₒ, cᵥ], t1_bb [cᵥ, jₒ]], [(1, [aᵥ, bᵥ, iₒ, jₒ])]⟩,
  -- line 987: lkij,ablk->abij
  ⟨1/2, [g_abab [lₒ, kₒ, iₒ, jₒ], t2_abab [aᵥ, bᵥ, lₒ, kₒ]], [(1, [aᵥ, bᵥ, iₒ, jₒ])]⟩,
  -- line 990: klij,abkl->abij
  ⟨1/2, [g_abab [kₒ, lₒ, iₒ, jₒ], t2_abab [aᵥ, bᵥ, kₒ, lₒ]], [(1, [aᵥ, bᵥ, iₒ, jₒ])]⟩,
  -- line 993: akcj,cbik->abij
  ⟨-1, [g_abab [aᵥ, kₒ, cᵥ, jₒ], t2_abab [cᵥ, bᵥ, iₒ, kₒ]], [(1, [aᵥ, bᵥ, iₒ, jₒ])]⟩,
  -- line 996: kbcj,caik->abij
  ⟨-1, [g_abab [kₒ, bᵥ, cᵥ, jₒ], t2_aaaa [cᵥ, aᵥ, iₒ, kₒ]], [(1, [aᵥ, bᵥ, iₒ, jₒ])]⟩,
  -- line 999: kbcj,acik->abij
  ⟨1, [g_bbbb [kₒ, bᵥ, cᵥ, jₒ], t2_abab [aᵥ, cᵥ, iₒ, kₒ]], [(1, [aᵥ, bᵥ, iₒ, jₒ])]⟩,
  -- line 1002: kaci,cbkj->abij
  ⟨1, [g_aaaa [kₒ, aᵥ, cᵥ, iₒ], t2_abab [cᵥ, bᵥ, kₒ, jₒ]], [(1, [aᵥ, bᵥ, iₒ, jₒ])]⟩,
  -- line 1005: akic,cbjk->abij
  ⟨-1, [g_abab [aᵥ, kₒ, iₒ, cᵥ], t2_bbbb [cᵥ, bᵥ, jₒ, kₒ]], [(1, [aᵥ, bᵥ, iₒ, jₒ])]⟩,
  -- line 1008: kbic,ackj->abij
  ⟨-1, [g_abab [kₒ, bᵥ, iₒ, cᵥ], t2_abab [aᵥ, cᵥ, kₒ, jₒ]], [(1, [aᵥ, bᵥ, iₒ, jₒ])]⟩,
  -- line 1011: abcd,cdij->abij
  ⟨1/2, [g_abab [aᵥ, bᵥ, cᵥ, dᵥ], t2_abab [cᵥ, dᵥ, iₒ, jₒ]], [(1, [aᵥ, bᵥ, iₒ, jₒ])]⟩,
  -- line 1014: abdc,dcij->abij
  ⟨1/2, [g_abab [aᵥ, bᵥ, dᵥ, cᵥ], t2_abab [dᵥ, cᵥ, iₒ, jₒ]], [(1, [aᵥ, bᵥ, iₒ, jₒ])]⟩,
  -- line 1017: lkcj,cabilk->abij
  ⟨1/2, [g_abab [lₒ, kₒ, cᵥ, jₒ], t3_aabaab [cᵥ, aᵥ, bᵥ, iₒ, lₒ, kₒ]], [(1, [aᵥ, bᵥ, iₒ, jₒ])]⟩,
  -- line 1020: klcj,cabikl->abij
  ⟨1/2, [g_abab [kₒ, lₒ, cᵥ, jₒ], t3_aabaab [cᵥ, aᵥ, bᵥ, iₒ, kₒ, lₒ]], [(1, [aᵥ, bᵥ, iₒ, jₒ])]⟩,
  -- line 1023: lkcj,acbilk->abij
  ⟨-1/2, [g_bbbb [lₒ, kₒ, cᵥ, jₒ], t3_abbabb [aᵥ, cᵥ, bᵥ, iₒ, lₒ, kₒ]], [(1, [aᵥ, bᵥ, iₒ, jₒ])]⟩,
  -- line 1026: lkci,cabklj->abij
  ⟨1/2, [g_aaaa [lₒ, kₒ, cᵥ, iₒ], t3_aabaab [cᵥ, aᵥ, bᵥ, kₒ, lₒ, jₒ]], [(1, [aᵥ, bᵥ, iₒ, jₒ])]⟩,
  -- line 1029: lkic,acbljk->abij
  ⟨1/2, [g_abab [lₒ, kₒ, iₒ, cᵥ], t3_abbabb [aᵥ, cᵥ, bᵥ, lₒ, jₒ, kₒ]], [(1, [aᵥ, bᵥ, iₒ, jₒ])]⟩,
  -- line 1032: klic,acbklj->abij
  ⟨-1/2, [g_abab [kₒ, lₒ, iₒ, cᵥ], t3_abbabb [aᵥ, cᵥ, bᵥ, kₒ, lₒ, jₒ]], [(1, [aᵥ, bᵥ, iₒ, jₒ])]⟩,
  -- line 1035: kacd,cdbikj->abij
  ⟨-1/2, [g_aaaa [kₒ, aᵥ, cᵥ, dᵥ], t3_aabaab [cᵥ, dᵥ, bᵥ, iₒ, kₒ, jₒ]], [(1, [aᵥ, bᵥ, iₒ, jₒ])]⟩,
  -- line 1038: akcd,cdbijk->abij
  ⟨-1/2, [g_abab [aᵥ, kₒ, cᵥ, dᵥ], t3_abbabb [cᵥ, dᵥ, bᵥ, iₒ, jₒ, kₒ]], [(1, [aᵥ, bᵥ, iₒ, jₒ])]⟩,
  -- line 1041: akdc,dcbijk->abij
  ⟨-1/2, [g_abab [aᵥ, kₒ, dᵥ, cᵥ], t3_abbabb [dᵥ, cᵥ, bᵥ, iₒ, jₒ, kₒ]], [(1, [aᵥ, bᵥ, iₒ, jₒ])]⟩,
  -- line 1044: kbcd,cadikj->abij
  ⟨-1/2, [g_abab [kₒ, bᵥ, cᵥ, dᵥ], t3_aabaab [cᵥ, aᵥ, dᵥ, iₒ, kₒ, jₒ]], [(1, [aᵥ, bᵥ, iₒ, jₒ])]⟩,
  -- line 1047: kbdc,adcikj->abij
  ⟨1/2, [g_abab [kₒ, bᵥ, dᵥ, cᵥ], t3_aabaab [aᵥ, dᵥ, cᵥ, iₒ, kₒ, jₒ]], [(1, [aᵥ, bᵥ, iₒ, jₒ])]⟩,
  -- line 1050: kbcd,adcijk->abij
  ⟨1/2, [g_bbbb [kₒ, bᵥ, cᵥ, dᵥ], t3_abbabb [aᵥ, dᵥ, cᵥ, iₒ, jₒ, kₒ]], [(1, [aᵥ, bᵥ, iₒ, jₒ])]⟩,
  -- line 1053: klcj,ck,abil->abij
  ⟨-1, [g_abab [kₒ, lₒ, cᵥ, jₒ], t1_aa [cᵥ, kₒ], t2_abab [aᵥ, bᵥ, iₒ, lₒ]], [(1, [aᵥ, bᵥ, iₒ, jₒ])]⟩,
  -- line 1056: lkcj,ck,abil->abij
  ⟨1, [g_bbbb [lₒ, kₒ, cᵥ, jₒ], t1_bb [cᵥ, kₒ], t2_abab [aᵥ, bᵥ, iₒ, lₒ]], [(1, [aᵥ, bᵥ, iₒ, jₒ])]⟩,
  -- line 1059: lkci,ck,ablj->abij
  ⟨1, [g_aaaa [lₒ, kₒ, cᵥ, iₒ], t1_aa [cᵥ, kₒ], t2_abab [aᵥ, bᵥ, lₒ, jₒ]], [(1, [aᵥ, bᵥ, iₒ, jₒ])]⟩
  ]

/-- Part 1 of `ccsdt_t2_abab`. -/
def ccsdt_t2_abab_1 : Prog := [
  -- line 1062: lkic,ck,ablj->abij
  ⟨-1, [g_abab [lₒ, kₒ, iₒ, cᵥ], t1_bb [cᵥ, kₒ], t2_abab [aᵥ, bᵥ, lₒ, jₒ]], [(1, [aᵥ, bᵥ, iₒ, jₒ])]⟩,
  -- line 1065: lkcj,ci,ablk->abij
  ⟨1/2, [g_abab [lₒ, kₒ, cᵥ, jₒ], t1_aa [cᵥ, iₒ], t2_abab [aᵥ, bᵥ, lₒ, kₒ]], [(1, [aᵥ, bᵥ, iₒ, jₒ])]⟩,
  -- line 1068: klcj,ci,abkl->abij
  ⟨1/2, [g_abab [kₒ, lₒ, cᵥ, jₒ], t1_aa [cᵥ, iₒ], t2_abab [aᵥ, bᵥ, kₒ, lₒ]], [(1, [aᵥ, bᵥ, iₒ, jₒ])]⟩,
  -- line 1071: lkic,cj,ablk->abij
  ⟨1/2, [g_abab [lₒ, kₒ, iₒ, cᵥ], t1_bb [cᵥ, jₒ], t2_abab [aᵥ, bᵥ, lₒ, kₒ]], [(1, [aᵥ, bᵥ, iₒ, jₒ])]⟩,
  -- line 1074: klic,cj,abkl->abij
  ⟨1/2, [g_abab [kₒ, lₒ, iₒ, cᵥ], t1_bb [cᵥ, jₒ], t2_abab [aᵥ, bᵥ, kₒ, lₒ]], [(1, [aᵥ, bᵥ, iₒ, jₒ])]⟩,
  -- line 1077: klcj,ak,cbil->abij
  ⟨1, [g_abab [kₒ, lₒ, cᵥ, jₒ], t1_aa [aᵥ, kₒ], t2_abab [cᵥ, bᵥ, iₒ, lₒ]], [(1, [aᵥ, bᵥ, iₒ, jₒ])]⟩,
  -- line 1080: lkcj,bk,cail->abij
  ⟨1, [g_abab [lₒ, kₒ, cᵥ, jₒ], t1_bb [bᵥ, kₒ], t2_aaaa [cᵥ, aᵥ, iₒ, lₒ]], [(1, [aᵥ, bᵥ, iₒ, jₒ])]⟩,
  -- line 1083: lkcj,bk,acil->abij
  ⟨-1, [g_bbbb [lₒ, kₒ, cᵥ, jₒ], t1_bb [bᵥ, kₒ], t2_abab [aᵥ, cᵥ, iₒ, lₒ]], [(1, [aᵥ, bᵥ, iₒ, jₒ])]⟩,
  -- line 1086: lkci,ak,cblj->abij
  ⟨-1, [g_aaaa [lₒ, kₒ, cᵥ, iₒ], t1_aa [aᵥ, kₒ], t2_abab [cᵥ, bᵥ, lₒ, jₒ]], [(1, [aᵥ, bᵥ, iₒ, jₒ])]⟩,
  -- line 1089: klic,ak,cbjl->abij
  ⟨1, [g_abab [kₒ, lₒ, iₒ, cᵥ], t1_aa [aᵥ, kₒ], t2_bbbb [cᵥ, bᵥ, jₒ, lₒ]], [(1, [aᵥ, bᵥ, iₒ, jₒ])]⟩,
  -- line 1092: lkic,bk,aclj->abij
  ⟨1, [g_abab [lₒ, kₒ, iₒ, cᵥ], t1_bb [bᵥ, kₒ], t2_abab [aᵥ, cᵥ, lₒ, jₒ]], [(1, [aᵥ, bᵥ, iₒ, jₒ])]⟩,
  -- line 1095: kacd,ck,dbij->abij
  ⟨1, [g_aaaa [kₒ, aᵥ, cᵥ, dᵥ], t1_aa [cᵥ, kₒ], t2_abab [dᵥ, bᵥ, iₒ, jₒ]], [(1, [aᵥ, bᵥ, iₒ, jₒ])]⟩,
  -- line 1098: akdc,ck,dbij->abij
  ⟨1, [g_abab [aᵥ, kₒ, dᵥ, cᵥ], t1_bb [cᵥ, kₒ], t2_abab [dᵥ, bᵥ, iₒ, jₒ]], [(1, [aᵥ, bᵥ, iₒ, jₒ])]⟩,
  -- line 1101: kbcd,ck,adij->abij
  ⟨1, [g_abab [kₒ, bᵥ, cᵥ, dᵥ], t1_aa [cᵥ, kₒ], t2_abab [aᵥ, dᵥ, iₒ, jₒ]], [(1, [aᵥ, bᵥ, iₒ, jₒ])]⟩,
  -- line 1104: kbcd,ck,adij->abij
  ⟨1, [g_bbbb [kₒ, bᵥ, cᵥ, dᵥ], t1_bb [cᵥ, kₒ], t2_abab [aᵥ, dᵥ, iₒ, jₒ]], [(1, [aᵥ, bᵥ, iₒ, jₒ])]⟩,
  -- line 1107: akdc,cj,dbik->abij
  ⟨-1, [g_abab [aᵥ, kₒ, dᵥ, cᵥ], t1_bb [cᵥ, jₒ], t2_abab [dᵥ, bᵥ, iₒ, kₒ]], [(1, [aᵥ, bᵥ, iₒ, jₒ])]⟩,
  -- line 1110: kbdc,cj,daik->abij
  ⟨-1, [g_abab [kₒ, bᵥ, dᵥ, cᵥ], t1_bb [cᵥ, jₒ], t2_aaaa [dᵥ, aᵥ, iₒ, kₒ]], [(1, [aᵥ, bᵥ, iₒ, jₒ])]⟩,
  -- line 1113: kbcd,cj,adik->abij
  ⟨-1, [g_bbbb [kₒ, bᵥ, cᵥ, dᵥ], t1_bb [cᵥ, jₒ], t2_abab [aᵥ, dᵥ, iₒ, kₒ]], [(1, [aᵥ, bᵥ, iₒ, jₒ])]⟩,
  -- line 1116: kacd,ci,dbkj->abij
  ⟨-1, [g_aaaa [kₒ, aᵥ, cᵥ, dᵥ], t1_aa [cᵥ, iₒ], t2_abab [dᵥ, bᵥ, kₒ, jₒ]], [(1, [aᵥ, bᵥ, iₒ, jₒ])]⟩,
  -- line 1119: akcd,ci,dbjk->abij
  ⟨-1, [g_abab [aᵥ, kₒ, cᵥ, dᵥ], t1_aa [cᵥ, iₒ], t2_bbbb [dᵥ, bᵥ, jₒ, kₒ]], [(1, [aᵥ, bᵥ, iₒ, jₒ])]⟩,
  -- line 1122: kbcd,ci,adkj->abij
  ⟨-1, [g_abab [kₒ, bᵥ, cᵥ, dᵥ], t1_aa [cᵥ, iₒ], t2_abab [aᵥ, dᵥ, kₒ, jₒ]], [(1, [aᵥ, bᵥ, iₒ, jₒ])]⟩,
  -- line 1125: akcd,bk,cdij->abij
  ⟨-1/2, [g_abab [aᵥ, kₒ, cᵥ, dᵥ], t1_bb [bᵥ, kₒ], t2_abab [cᵥ, dᵥ, iₒ, jₒ]], [(1, [aᵥ, bᵥ, iₒ, jₒ])]⟩,
  -- line 1128: akdc,bk,dcij->abij
  ⟨-1/2, [g_abab [aᵥ, kₒ, dᵥ, cᵥ], t1_bb [bᵥ, kₒ], t2_abab [dᵥ, cᵥ, iₒ, jₒ]], [(1, [aᵥ, bᵥ, iₒ, jₒ])]⟩,
  -- line 1131: kbcd,ak,cdij->abij
  ⟨-1/2, [g_abab [kₒ, bᵥ, cᵥ, dᵥ], t1_aa [aᵥ, kₒ], t2_abab [cᵥ, dᵥ, iₒ, jₒ]], [(1, [aᵥ, bᵥ, iₒ, jₒ])]⟩,
  -- line 1134: kbdc,ak,dcij->abij
  ⟨-1/2, [g_abab [kₒ, bᵥ, dᵥ, cᵥ], t1_aa [aᵥ, kₒ], t2_abab [dᵥ, cᵥ, iₒ, jₒ]], [(1, [aᵥ, bᵥ, iₒ, jₒ])]⟩,
  -- line 1137: lkcd,ck,dabilj->abij
  ⟨1, [g_aaaa [lₒ, kₒ, cᵥ, dᵥ], t1_aa [cᵥ, kₒ], t3_aabaab [dᵥ, aᵥ, bᵥ, iₒ, lₒ, jₒ]], [(1, [aᵥ, bᵥ, iₒ, jₒ])]⟩,
  -- line 1140: klcd,ck,adbijl->abij
  ⟨-1, [g_abab [kₒ, lₒ, cᵥ, dᵥ], t1_aa [cᵥ, kₒ], t3_abbabb [aᵥ, dᵥ, bᵥ, iₒ, jₒ, lₒ]], [(1, [aᵥ, bᵥ, iₒ, jₒ])]⟩,
  -- line 1143: lkdc,ck,dabilj->abij
  ⟨-1, [g_abab [lₒ, kₒ, dᵥ, cᵥ], t1_bb [cᵥ, kₒ], t3_aabaab [dᵥ, aᵥ, bᵥ, iₒ, lₒ, jₒ]], [(1, [aᵥ, bᵥ, iₒ, jₒ])]⟩,
  -- line 1146: lkcd,ck,adbijl->abij
  ⟨1, [g_bbbb [lₒ, kₒ, cᵥ, dᵥ], t1_bb [cᵥ, kₒ], t3_abbabb [aᵥ, dᵥ, bᵥ, iₒ, jₒ, lₒ]], [(1, [aᵥ, bᵥ, iₒ, jₒ])]⟩,
  -- line 1149: lkdc,cj,dabilk->abij
  ⟨1/2, [g_abab [lₒ, kₒ, dᵥ, cᵥ], t1_bb [cᵥ, jₒ], t3_aabaab [dᵥ, aᵥ, bᵥ, iₒ, lₒ, kₒ]], [(1, [aᵥ, bᵥ, iₒ, jₒ])]⟩,
  -- line 1152: kldc,cj,dabikl->abij
  ⟨1/2, [g_abab [kₒ, lₒ, dᵥ, cᵥ], t1_bb [cᵥ, jₒ], t3_aabaab [dᵥ, aᵥ, bᵥ, iₒ, kₒ, lₒ]], [(1, [aᵥ, bᵥ, iₒ, jₒ])]⟩,
  -- line 1155: lkcd,cj,adbilk->abij
  ⟨1/2, [g_bbbb [lₒ, kₒ, cᵥ, dᵥ], t1_bb [cᵥ, jₒ], t3_abbabb [aᵥ, dᵥ, bᵥ, iₒ, lₒ, kₒ]], [(1, [aᵥ, bᵥ, iₒ, jₒ])]⟩,
  -- line 1158: lkcd,ci,dabklj->abij
  ⟨-1/2, [g_aaaa [lₒ, kₒ, cᵥ, dᵥ], t1_aa [cᵥ, iₒ], t3_aabaab [dᵥ, aᵥ, bᵥ, kₒ, lₒ, jₒ]], [(1, [aᵥ, bᵥ, iₒ, jₒ])]⟩,
  -- line 1161: lkcd,ci,adbljk->abij
  ⟨1/2, [g_abab [lₒ, kₒ, cᵥ, dᵥ], t1_aa [cᵥ, iₒ], t3_abbabb [aᵥ, dᵥ, bᵥ, lₒ, jₒ, kₒ]], [(1, [aᵥ, bᵥ, iₒ, jₒ])]⟩,
  -- line 1164: klcd,ci,adbklj->abij
  ⟨-1/2, [g_abab [kₒ, lₒ, cᵥ, dᵥ], t1_aa [cᵥ, iₒ], t3_abbabb [aᵥ, dᵥ, bᵥ, kₒ, lₒ, jₒ]], [(1, [aᵥ, bᵥ, iₒ, jₒ])]⟩,
  -- line 1167: lkcd,ak,cdbilj->abij
  ⟨1/2, [g_aaaa [lₒ, kₒ, cᵥ, dᵥ], t1_aa [aᵥ, kₒ], t3_aabaab [cᵥ, dᵥ, bᵥ, iₒ, lₒ, jₒ]], [(1, [aᵥ, bᵥ, iₒ, jₒ])]⟩,
  -- line 1170: klcd,ak,cdbijl->abij
  ⟨1/2, [g_abab [kₒ, lₒ, cᵥ, dᵥ], t1_aa [aᵥ, kₒ], t3_abbabb [cᵥ, dᵥ, bᵥ, iₒ, jₒ, lₒ]], [(1, [aᵥ, bᵥ, iₒ, jₒ])]⟩,
  -- line 1173: kldc,ak,dcbijl->abij
  ⟨1/2, [g_abab [kₒ, lₒ, dᵥ, cᵥ], t1_aa [aᵥ, kₒ], t3_abbabb [dᵥ, cᵥ, bᵥ, iₒ, jₒ, lₒ]], [(1, [aᵥ, bᵥ, iₒ, jₒ])]⟩,
  -- line 1176: lkcd,bk,cadilj->abij
  ⟨1/2, [g_abab [lₒ, kₒ, cᵥ, dᵥ], t1_bb [bᵥ, kₒ], t3_aabaab [cᵥ, aᵥ, dᵥ, iₒ, lₒ, jₒ]], [(1, [aᵥ, bᵥ, iₒ, jₒ])]⟩,
  -- line 1179: lkdc,bk,adcilj->abij
  ⟨-1/2, [g_abab [lₒ, kₒ, dᵥ, cᵥ], t1_bb [bᵥ, kₒ], t3_aabaab [aᵥ, dᵥ, cᵥ, iₒ, lₒ, jₒ]], [(1, [aᵥ, bᵥ, iₒ, jₒ])]⟩
  ]

/-- Part 2 of `ccsdt_t2_abab`. -/
def ccsdt_t2_abab_2 : Prog := [
  -- line 1182: lkcd,bk,adcijl->abij
  ⟨-1/2, [g_bbbb [lₒ, kₒ, cᵥ, dᵥ], t1_bb [bᵥ, kₒ], t3_abbabb [aᵥ, dᵥ, cᵥ, iₒ, jₒ, lₒ]], [(1, [aᵥ, bᵥ, iₒ, jₒ])]⟩,
  -- line 1185: klij,ak,bl->abij
  ⟨1, [g_abab [kₒ, lₒ, iₒ, jₒ], t1_aa [aᵥ, kₒ], t1_bb [bᵥ, lₒ]], [(1, [aᵥ, bᵥ, iₒ, jₒ])]⟩,
  -- line 1188: akcj,ci,bk->abij
  ⟨-1, [g_abab [aᵥ, kₒ, cᵥ, jₒ], t1_aa [cᵥ, iₒ], t1_bb [bᵥ, kₒ]], [(1, [aᵥ, bᵥ, iₒ, jₒ])]⟩,
  -- line 1191: kbcj,ci,ak->abij
  ⟨-1, [g_abab [kₒ, bᵥ, cᵥ, jₒ], t1_aa [cᵥ, iₒ], t1_aa [aᵥ, kₒ]], [(1, [aᵥ, bᵥ, iₒ, jₒ])]⟩,
  -- line 1194: akic,cj,bk->abij
  ⟨-1, [g_abab [aᵥ, kₒ, iₒ, cᵥ], t1_bb [cᵥ, jₒ], t1_bb [bᵥ, kₒ]], [(1, [aᵥ, bᵥ, iₒ, jₒ])]⟩,
  -- line 1197: kbic,cj,ak->abij
  ⟨-1, [g_abab [kₒ, bᵥ, iₒ, cᵥ], t1_bb [cᵥ, jₒ], t1_aa [aᵥ, kₒ]], [(1, [aᵥ, bᵥ, iₒ, jₒ])]⟩,
  -- line 1200: abdc,cj,di->abij
  ⟨1, [g_abab [aᵥ, bᵥ, dᵥ, cᵥ], t1_bb [cᵥ, jₒ], t1_aa [dᵥ, iₒ]], [(1, [aᵥ, bᵥ, iₒ, jₒ])]⟩,
  -- line 1203: klcd,cdkj,abil->abij
  ⟨-1/2, [g_abab [kₒ, lₒ, cᵥ, dᵥ], t2_abab [cᵥ, dᵥ, kₒ, jₒ], t2_abab [aᵥ, bᵥ, iₒ, lₒ]], [(1, [aᵥ, bᵥ, iₒ, jₒ])]⟩,
  -- line 1206: kldc,dckj,abil->abij
  ⟨-1/2, [g_abab [kₒ, lₒ, dᵥ, cᵥ], t2_abab [dᵥ, cᵥ, kₒ, jₒ], t2_abab [aᵥ, bᵥ, iₒ, lₒ]], [(1, [aᵥ, bᵥ, iₒ, jₒ])]⟩,
  -- line 1209: lkcd,cdjk,abil->abij
  ⟨-1/2, [g_bbbb [lₒ, kₒ, cᵥ, dᵥ], t2_bbbb [cᵥ, dᵥ, jₒ, kₒ], t2_abab [aᵥ, bᵥ, iₒ, lₒ]], [(1, [aᵥ, bᵥ, iₒ, jₒ])]⟩,
  -- line 1212: lkcd,cdik,ablj->abij
  ⟨-1/2, [g_aaaa [lₒ, kₒ, cᵥ, dᵥ], t2_aaaa [cᵥ, dᵥ, iₒ, kₒ], t2_abab [aᵥ, bᵥ, lₒ, jₒ]], [(1, [aᵥ, bᵥ, iₒ, jₒ])]⟩,
  -- line 1215: lkcd,cdik,ablj->abij
  ⟨-1/2, [g_abab [lₒ, kₒ, cᵥ, dᵥ], t2_abab [cᵥ, dᵥ, iₒ, kₒ], t2_abab [aᵥ, bᵥ, lₒ, jₒ]], [(1, [aᵥ, bᵥ, iₒ, jₒ])]⟩,
  -- line 1218: lkdc,dcik,ablj->abij
  ⟨-1/2, [g_abab [lₒ, kₒ, dᵥ, cᵥ], t2_abab [dᵥ, cᵥ, iₒ, kₒ], t2_abab [aᵥ, bᵥ, lₒ, jₒ]], [(1, [aᵥ, bᵥ, iₒ, jₒ])]⟩,
  -- line 1221: lkcd,cdij,ablk->abij
  ⟨1/4, [g_abab [lₒ, kₒ, cᵥ, dᵥ], t2_abab [cᵥ, dᵥ, iₒ, jₒ], t2_abab [aᵥ, bᵥ, lₒ, kₒ]], [(1, [aᵥ, bᵥ, iₒ, jₒ])]⟩,
  -- line 1224: klcd,cdij,abkl->abij
  ⟨1/4, [g_abab [kₒ, lₒ, cᵥ, dᵥ], t2_abab [cᵥ, dᵥ, iₒ, jₒ], t2_abab [aᵥ, bᵥ, kₒ, lₒ]], [(1, [aᵥ, bᵥ, iₒ, jₒ])]⟩,
  -- line 1227: lkdc,dcij,ablk->abij
  ⟨1/4, [g_abab [lₒ, kₒ, dᵥ, cᵥ], t2_abab [dᵥ, cᵥ, iₒ, jₒ], t2_abab [aᵥ, bᵥ, lₒ, kₒ]], [(1, [aᵥ, bᵥ, iₒ, jₒ])]⟩,
  -- line 1230: kldc,dcij,abkl->abij
  ⟨1/4, [g_abab [kₒ, lₒ, dᵥ, cᵥ], t2_abab [dᵥ, cᵥ, iₒ, jₒ], t2_abab [aᵥ, bᵥ, kₒ, lₒ]], [(1, [aᵥ, bᵥ, iₒ, jₒ])]⟩,
  -- line 1233: lkcd,calk,dbij->abij
  ⟨-1/2, [g_aaaa [lₒ, kₒ, cᵥ, dᵥ], t2_aaaa [cᵥ, aᵥ, lₒ, kₒ], t2_abab [dᵥ, bᵥ, iₒ, jₒ]], [(1, [aᵥ, bᵥ, iₒ, jₒ])]⟩,
  -- line 1236: lkdc,aclk,dbij->abij
  ⟨-1/2, [g_abab [lₒ, kₒ, dᵥ, cᵥ], t2_abab [aᵥ, cᵥ, lₒ, kₒ], t2_abab [dᵥ, bᵥ, iₒ, jₒ]], [(1, [aᵥ, bᵥ, iₒ, jₒ])]⟩,
  -- line 1239: kldc,ackl,dbij->abij
  ⟨-1/2, [g_abab [kₒ, lₒ, dᵥ, cᵥ], t2_abab [aᵥ, cᵥ, kₒ, lₒ], t2_abab [dᵥ, bᵥ, iₒ, jₒ]], [(1, [aᵥ, bᵥ, iₒ, jₒ])]⟩,
  -- line 1242: kldc,ackj,dbil->abij
  ⟨1, [g_abab [kₒ, lₒ, dᵥ, cᵥ], t2_abab [aᵥ, cᵥ, kₒ, jₒ], t2_abab [dᵥ, bᵥ, iₒ, lₒ]], [(1, [aᵥ, bᵥ, iₒ, jₒ])]⟩,
  -- line 1245: lkcd,caik,dblj->abij
  ⟨1, [g_aaaa [lₒ, kₒ, cᵥ, dᵥ], t2_aaaa [cᵥ, aᵥ, iₒ, kₒ], t2_abab [dᵥ, bᵥ, lₒ, jₒ]], [(1, [aᵥ, bᵥ, iₒ, jₒ])]⟩,
  -- line 1248: klcd,caik,dbjl->abij
  ⟨1, [g_abab [kₒ, lₒ, cᵥ, dᵥ], t2_aaaa [cᵥ, aᵥ, iₒ, kₒ], t2_bbbb [dᵥ, bᵥ, jₒ, lₒ]], [(1, [aᵥ, bᵥ, iₒ, jₒ])]⟩,
  -- line 1251: lkdc,acik,dblj->abij
  ⟨1, [g_abab [lₒ, kₒ, dᵥ, cᵥ], t2_abab [aᵥ, cᵥ, iₒ, kₒ], t2_abab [dᵥ, bᵥ, lₒ, jₒ]], [(1, [aᵥ, bᵥ, iₒ, jₒ])]⟩,
  -- line 1254: lkcd,acik,dbjl->abij
  ⟨1, [g_bbbb [lₒ, kₒ, cᵥ, dᵥ], t2_abab [aᵥ, cᵥ, iₒ, kₒ], t2_bbbb [dᵥ, bᵥ, jₒ, lₒ]], [(1, [aᵥ, bᵥ, iₒ, jₒ])]⟩,
  -- line 1257: lkdc,acij,dblk->abij
  ⟨-1/2, [g_abab [lₒ, kₒ, dᵥ, cᵥ], t2_abab [aᵥ, cᵥ, iₒ, jₒ], t2_abab [dᵥ, bᵥ, lₒ, kₒ]], [(1, [aᵥ, bᵥ, iₒ, jₒ])]⟩,
  -- line 1260: kldc,acij,dbkl->abij
  ⟨-1/2, [g_abab [kₒ, lₒ, dᵥ, cᵥ], t2_abab [aᵥ, cᵥ, iₒ, jₒ], t2_abab [dᵥ, bᵥ, kₒ, lₒ]], [(1, [aᵥ, bᵥ, iₒ, jₒ])]⟩,
  -- line 1263: lkcd,acij,dblk->abij
  ⟨1/2, [g_bbbb [lₒ, kₒ, cᵥ, dᵥ], t2_abab [aᵥ, cᵥ, iₒ, jₒ], t2_bbbb [dᵥ, bᵥ, lₒ, kₒ]], [(1, [aᵥ, bᵥ, iₒ, jₒ])]⟩,
  -- line 1266: klcd,ck,dj,abil->abij
  ⟨-1, [g_abab [kₒ, lₒ, cᵥ, dᵥ], t1_aa [cᵥ, kₒ], t1_bb [dᵥ, jₒ], t2_abab [aᵥ, bᵥ, iₒ, lₒ]], [(1, [aᵥ, bᵥ, iₒ, jₒ])]⟩,
  -- line 1269: lkcd,ck,dj,abil->abij
  ⟨1, [g_bbbb [lₒ, kₒ, cᵥ, dᵥ], t1_bb [cᵥ, kₒ], t1_bb [dᵥ, jₒ], t2_abab [aᵥ, bᵥ, iₒ, lₒ]], [(1, [aᵥ, bᵥ, iₒ, jₒ])]⟩,
  -- line 1272: lkcd,ck,di,ablj->abij
  ⟨1, [g_aaaa [lₒ, kₒ, cᵥ, dᵥ], t1_aa [cᵥ, kₒ], t1_aa [dᵥ, iₒ], t2_abab [aᵥ, bᵥ, lₒ, jₒ]], [(1, [aᵥ, bᵥ, iₒ, jₒ])]⟩,
  -- line 1275: lkdc,ck,di,ablj->abij
  ⟨-1, [g_abab [lₒ, kₒ, dᵥ, cᵥ], t1_bb [cᵥ, kₒ], t1_aa [dᵥ, iₒ], t2_abab [aᵥ, bᵥ, lₒ, jₒ]], [(1, [aᵥ, bᵥ, iₒ, jₒ])]⟩,
  -- line 1278: lkcd,ck,al,dbij->abij
  ⟨1, [g_aaaa [lₒ, kₒ, cᵥ, dᵥ], t1_aa [cᵥ, kₒ], t1_aa [aᵥ, lₒ], t2_abab [dᵥ, bᵥ, iₒ, jₒ]], [(1, [aᵥ, bᵥ, iₒ, jₒ])]⟩,
  -- line 1281: lkdc,ck,al,dbij->abij
  ⟨-1, [g_abab [lₒ, kₒ, dᵥ, cᵥ], t1_bb [cᵥ, kₒ], t1_aa [aᵥ, lₒ], t2_abab [dᵥ, bᵥ, iₒ, jₒ]], [(1, [aᵥ, bᵥ, iₒ, jₒ])]⟩,
  -- line 1284: klcd,ck,bl,adij->abij
  ⟨-1, [g_abab [kₒ, lₒ, cᵥ, dᵥ], t1_aa [cᵥ, kₒ], t1_bb [bᵥ, lₒ], t2_abab [aᵥ, dᵥ, iₒ, jₒ]], [(1, [aᵥ, bᵥ, iₒ, jₒ])]⟩,
  -- line 1287: lkcd,ck,bl,adij->abij
  ⟨1, [g_bbbb [lₒ, kₒ, cᵥ, dᵥ], t1_bb [cᵥ, kₒ], t1_bb [bᵥ, lₒ], t2_abab [aᵥ, dᵥ, iₒ, jₒ]], [(1, [aᵥ, bᵥ, iₒ, jₒ])]⟩,
  -- line 1290: lkdc,cj,di,ablk->abij
  ⟨1/2, [g_abab [lₒ, kₒ, dᵥ, cᵥ], t1_bb [cᵥ, jₒ], t1_aa [dᵥ, iₒ], t2_abab [aᵥ, bᵥ, lₒ, kₒ]], [(1, [aᵥ, bᵥ, iₒ, jₒ])]⟩,
  -- line 1293: kldc,cj,di,abkl->abij
  ⟨1/2, [g_abab [kₒ, lₒ, dᵥ, cᵥ], t1_bb [cᵥ, jₒ], t1_aa [dᵥ, iₒ], t2_abab [aᵥ, bᵥ, kₒ, lₒ]], [(1, [aᵥ, bᵥ, iₒ, jₒ])]⟩,
  -- line 1296: kldc,cj,ak,dbil->abij
  ⟨1, [g_abab [kₒ, lₒ, dᵥ, cᵥ], t1_bb [cᵥ, jₒ], t1_aa [aᵥ, kₒ], t2_abab [dᵥ, bᵥ, iₒ, lₒ]], [(1, [aᵥ, bᵥ, iₒ, jₒ])]⟩,
  -- line 1299: lkdc,cj,bk,dail->abij
  ⟨1, [g_abab [lₒ, kₒ, dᵥ, cᵥ], t1_bb [cᵥ, jₒ], t1_bb [bᵥ, kₒ], t2_aaaa [dᵥ, aᵥ, iₒ, lₒ]], [(1, [aᵥ, bᵥ, iₒ, jₒ])]⟩
  ]

/-- Part 3 of `ccsdt_t2_abab`. -/
def ccsdt_t2_abab_3 : Prog := [
  -- line 1302: lkcd,cj,bk,adil->abij
  ⟨1, [g_bbbb [lₒ, kₒ, cᵥ, dᵥ], t1_bb [cᵥ, jₒ], t1_bb [bᵥ, kₒ], t2_abab [aᵥ, dᵥ, iₒ, lₒ]], [(1, [aᵥ, bᵥ, iₒ, jₒ])]⟩,
  -- line 1305: lkcd,ci,ak,dblj->abij
  ⟨1, [g_aaaa [lₒ, kₒ, cᵥ, dᵥ], t1_aa [cᵥ, iₒ], t1_aa [aᵥ, kₒ], t2_abab [dᵥ, bᵥ, lₒ, jₒ]], [(1, [aᵥ, bᵥ, iₒ, jₒ])]⟩,
  -- line 1308: klcd,ci,ak,dbjl->abij
  ⟨1, [g_abab [kₒ, lₒ, cᵥ, dᵥ], t1_aa [cᵥ, iₒ], t1_aa [aᵥ, kₒ], t2_bbbb [dᵥ, bᵥ, jₒ, lₒ]], [(1, [aᵥ, bᵥ, iₒ, jₒ])]⟩,
  -- line 1311: lkcd,ci,bk,adlj->abij
  ⟨1, [g_abab [lₒ, kₒ, cᵥ, dᵥ], t1_aa [cᵥ, iₒ], t1_bb [bᵥ, kₒ], t2_abab [aᵥ, dᵥ, lₒ, jₒ]], [(1, [aᵥ, bᵥ, iₒ, jₒ])]⟩,
  -- line 1314: klcd,ak,bl,cdij->abij
  ⟨1/2, [g_abab [kₒ, lₒ, cᵥ, dᵥ], t1_aa [aᵥ, kₒ], t1_bb [bᵥ, lₒ], t2_abab [cᵥ, dᵥ, iₒ, jₒ]], [(1, [aᵥ, bᵥ, iₒ, jₒ])]⟩,
  -- line 1317: kldc,ak,bl,dcij->abij
  ⟨1/2, [g_abab [kₒ, lₒ, dᵥ, cᵥ], t1_aa [aᵥ, kₒ], t1_bb [bᵥ, lₒ], t2_abab [dᵥ, cᵥ, iₒ, jₒ]], [(1, [aᵥ, bᵥ, iₒ, jₒ])]⟩,
  -- line 1320: klcj,ci,ak,bl->abij
  ⟨1, [g_abab [kₒ, lₒ, cᵥ, jₒ], t1_aa [cᵥ, iₒ], t1_aa [aᵥ, kₒ], t1_bb [bᵥ, lₒ]], [(1, [aᵥ, bᵥ, iₒ, jₒ])]⟩,
  -- line 1323: klic,cj,ak,bl->abij
  ⟨1, [g_abab [kₒ, lₒ, iₒ, cᵥ], t1_bb [cᵥ, jₒ], t1_aa [aᵥ, kₒ], t1_bb [bᵥ, lₒ]], [(1, [aᵥ, bᵥ, iₒ, jₒ])]⟩,
  -- line 1326: akdc,cj,di,bk->abij
  ⟨-1, [g_abab [aᵥ, kₒ, dᵥ, cᵥ], t1_bb [cᵥ, jₒ], t1_aa [dᵥ, iₒ], t1_bb [bᵥ, kₒ]], [(1, [aᵥ, bᵥ, iₒ, jₒ])]⟩,
  -- line 1329: kbdc,cj,di,ak->abij
  ⟨-1, [g_abab [kₒ, bᵥ, dᵥ, cᵥ], t1_bb [cᵥ, jₒ], t1_aa [dᵥ, iₒ], t1_aa [aᵥ, kₒ]], [(1, [aᵥ, bᵥ, iₒ, jₒ])]⟩,
  -- line 1332: kldc,cj,di,ak,bl->abij
  ⟨1, [g_abab [kₒ, lₒ, dᵥ, cᵥ], t1_bb [cᵥ, jₒ], t1_aa [dᵥ, iₒ], t1_aa [aᵥ, kₒ], t1_bb [bᵥ, lₒ]], [(1, [aᵥ, bᵥ, iₒ, jₒ])]⟩
  ]

/-- `UT2/fullCCresidEqns.py` 934-1334, `ccsdt_t2_abab_residual`. -/
def ccsdt_t2_abab : Prog := ccsdt_t2_abab_0 ++ (ccsdt_t2_abab_1 ++ (ccsdt_t2_abab_2 ++ (ccsdt_t2_abab_3)))

end Verif.Gen
