import Verif.Ein.Names
import Verif.Gen.Antisym

/-! Written by `/verif/tools/gen.py`. Programs read from `/repo/UT2`. -/

set_option maxRecDepth 100000

namespace Verif.Gen

open Verif.Ein Verif.Ein.N


/-- Part 0 of `ccdq_t4_abbbabbb`. -/
def ccdq_t4_abbbabbb_0 : Prog := [
  -- line 4088: ml,abcdijkm->abcdijkl
  ⟨-100000000000001/100000000000000, [f_bb [mₒ, lₒ], t4_abbbabbb [aᵥ, bᵥ, cᵥ, dᵥ, iₒ, jₒ, kₒ, mₒ]], [(1, [aᵥ, bᵥ, cᵥ, dᵥ, iₒ, jₒ, kₒ, lₒ]), (-1, [aᵥ, bᵥ, cᵥ, dᵥ, iₒ, jₒ, lₒ, kₒ])]⟩,
  -- line 4092: mj,abcdiklm->abcdijkl
  ⟨-100000000000001/100000000000000, [f_bb [mₒ, jₒ], t4_abbbabbb [aᵥ, bᵥ, cᵥ, dᵥ, iₒ, kₒ, lₒ, mₒ]], [(1, [aᵥ, bᵥ, cᵥ, dᵥ, iₒ, jₒ, kₒ, lₒ])]⟩,
  -- line 4095: mi,abcdmklj->abcdijkl
  ⟨-100000000000001/100000000000000, [f_aa [mₒ, iₒ], t4_abbbabbb [aᵥ, bᵥ, cᵥ, dᵥ, mₒ, kₒ, lₒ, jₒ]], [(1, [aᵥ, bᵥ, cᵥ, dᵥ, iₒ, jₒ, kₒ, lₒ])]⟩,
  -- line 4098: ae,ebcdijkl->abcdijkl
  ⟨100000000000001/100000000000000, [f_aa [aᵥ, eᵥ], t4_abbbabbb [eᵥ, bᵥ, cᵥ, dᵥ, iₒ, jₒ, kₒ, lₒ]], [(1, [aᵥ, bᵥ, cᵥ, dᵥ, iₒ, jₒ, kₒ, lₒ])]⟩,
  -- line 4101: be,aecdijkl->abcdijkl
  ⟨100000000000001/100000000000000, [f_bb [bᵥ, eᵥ], t4_abbbabbb [aᵥ, eᵥ, cᵥ, dᵥ, iₒ, jₒ, kₒ, lₒ]], [(1, [aᵥ, bᵥ, cᵥ, dᵥ, iₒ, jₒ, kₒ, lₒ])]⟩,
  -- line 4104: ce,aebdijkl->abcdijkl
  ⟨-100000000000001/100000000000000, [f_bb [cᵥ, eᵥ], t4_abbbabbb [aᵥ, eᵥ, bᵥ, dᵥ, iₒ, jₒ, kₒ, lₒ]], [(1, [aᵥ, bᵥ, cᵥ, dᵥ, iₒ, jₒ, kₒ, lₒ]), (-1, [aᵥ, bᵥ, dᵥ, cᵥ, iₒ, jₒ, kₒ, lₒ])]⟩,
  -- line 4108: nmkl,abcdijnm->abcdijkl
  ⟨50000000000001/100000000000000, [g_bbbb [nₒ, mₒ, kₒ, lₒ], t4_abbbabbb [aᵥ, bᵥ, cᵥ, dᵥ, iₒ, jₒ, nₒ, mₒ]], [(1, [aᵥ, bᵥ, cᵥ, dᵥ, iₒ, jₒ, kₒ, lₒ]), (-1, [aᵥ, bᵥ, cᵥ, dᵥ, iₒ, kₒ, jₒ, lₒ])]⟩,
  -- line 4112: nmil,abcdnkjm->abcdijkl
  ⟨-50000000000001/100000000000000, [g_abab [nₒ, mₒ, iₒ, lₒ], t4_abbbabbb [aᵥ, bᵥ, cᵥ, dᵥ, nₒ, kₒ, jₒ, mₒ]], [(1, [aᵥ, bᵥ, cᵥ, dᵥ, iₒ, jₒ, kₒ, lₒ]), (-1, [aᵥ, bᵥ, cᵥ, dᵥ, iₒ, jₒ, lₒ, kₒ])]⟩,
  -- line 4116: mnil,abcdmknj->abcdijkl
  ⟨50000000000001/100000000000000, [g_abab [mₒ, nₒ, iₒ, lₒ], t4_abbbabbb [aᵥ, bᵥ, cᵥ, dᵥ, mₒ, kₒ, nₒ, jₒ]], [(1, [aᵥ, bᵥ, cᵥ, dᵥ, iₒ, jₒ, kₒ, lₒ]), (-1, [aᵥ, bᵥ, cᵥ, dᵥ, iₒ, jₒ, lₒ, kₒ])]⟩,
  -- line 4120: nmjk,abcdilnm->abcdijkl
  ⟨50000000000001/100000000000000, [g_bbbb [nₒ, mₒ, jₒ, kₒ], t4_abbbabbb [aᵥ, bᵥ, cᵥ, dᵥ, iₒ, lₒ, nₒ, mₒ]], [(1, [aᵥ, bᵥ, cᵥ, dᵥ, iₒ, jₒ, kₒ, lₒ])]⟩,
  -- line 4123: nmij,abcdnlkm->abcdijkl
  ⟨-50000000000001/100000000000000, [g_abab [nₒ, mₒ, iₒ, jₒ], t4_abbbabbb [aᵥ, bᵥ, cᵥ, dᵥ, nₒ, lₒ, kₒ, mₒ]], [(1, [aᵥ, bᵥ, cᵥ, dᵥ, iₒ, jₒ, kₒ, lₒ])]⟩,
  -- line 4126: mnij,abcdmlnk->abcdijkl
  ⟨50000000000001/100000000000000, [g_abab [mₒ, nₒ, iₒ, jₒ], t4_abbbabbb [aᵥ, bᵥ, cᵥ, dᵥ, mₒ, lₒ, nₒ, kₒ]], [(1, [aᵥ, bᵥ, cᵥ, dᵥ, iₒ, jₒ, kₒ, lₒ])]⟩,
  -- line 4129: amel,ebcdijkm->abcdijkl
  ⟨-50000000000001/50000000000000, [g_abab [aᵥ, mₒ, eᵥ, lₒ], t4_abbbabbb [eᵥ, bᵥ, cᵥ, dᵥ, iₒ, jₒ, kₒ, mₒ]], [(1, [aᵥ, bᵥ, cᵥ, dᵥ, iₒ, jₒ, kₒ, lₒ]), (-1, [aᵥ, bᵥ, cᵥ, dᵥ, iₒ, jₒ, lₒ, kₒ])]⟩,
  -- line 4133: mbel,eacdimkj->abcdijkl
  ⟨50000000000001/50000000000000, [g_abab [mₒ, bᵥ, eᵥ, lₒ], t4_aabbaabb [eᵥ, aᵥ, cᵥ, dᵥ, iₒ, mₒ, kₒ, jₒ]], [(1, [aᵥ, bᵥ, cᵥ, dᵥ, iₒ, jₒ, kₒ, lₒ]), (-1, [aᵥ, bᵥ, cᵥ, dᵥ, iₒ, jₒ, lₒ, kₒ])]⟩,
  -- line 4137: mbel,aecdijkm->abcdijkl
  ⟨50000000000001/50000000000000, [g_bbbb [mₒ, bᵥ, eᵥ, lₒ], t4_abbbabbb [aᵥ, eᵥ, cᵥ, dᵥ, iₒ, jₒ, kₒ, mₒ]], [(1, [aᵥ, bᵥ, cᵥ, dᵥ, iₒ, jₒ, kₒ, lₒ]), (-1, [aᵥ, bᵥ, cᵥ, dᵥ, iₒ, jₒ, lₒ, kₒ])]⟩,
  -- line 4141: amej,ebcdiklm->abcdijkl
  ⟨-50000000000001/50000000000000, [g_abab [aᵥ, mₒ, eᵥ, jₒ], t4_abbbabbb [eᵥ, bᵥ, cᵥ, dᵥ, iₒ, kₒ, lₒ, mₒ]], [(1, [aᵥ, bᵥ, cᵥ, dᵥ, iₒ, jₒ, kₒ, lₒ])]⟩,
  -- line 4144: mbej,eacdimlk->abcdijkl
  ⟨50000000000001/50000000000000, [g_abab [mₒ, bᵥ, eᵥ, jₒ], t4_aabbaabb [eᵥ, aᵥ, cᵥ, dᵥ, iₒ, mₒ, lₒ, kₒ]], [(1, [aᵥ, bᵥ, cᵥ, dᵥ, iₒ, jₒ, kₒ, lₒ])]⟩,
  -- line 4147: mbej,aecdiklm->abcdijkl
  ⟨50000000000001/50000000000000, [g_bbbb [mₒ, bᵥ, eᵥ, jₒ], t4_abbbabbb [aᵥ, eᵥ, cᵥ, dᵥ, iₒ, kₒ, lₒ, mₒ]], [(1, [aᵥ, bᵥ, cᵥ, dᵥ, iₒ, jₒ, kₒ, lₒ])]⟩,
  -- line 4150: maei,ebcdmklj->abcdijkl
  ⟨50000000000001/50000000000000, [g_aaaa [mₒ, aᵥ, eᵥ, iₒ], t4_abbbabbb [eᵥ, bᵥ, cᵥ, dᵥ, mₒ, kₒ, lₒ, jₒ]], [(1, [aᵥ, bᵥ, cᵥ, dᵥ, iₒ, jₒ, kₒ, lₒ])]⟩,
  -- line 4153: amie,ebcdjklm->abcdijkl
  ⟨-50000000000001/50000000000000, [g_abab [aᵥ, mₒ, iₒ, eᵥ], t4_bbbbbbbb [eᵥ, bᵥ, cᵥ, dᵥ, jₒ, kₒ, lₒ, mₒ]], [(1, [aᵥ, bᵥ, cᵥ, dᵥ, iₒ, jₒ, kₒ, lₒ])]⟩,
  -- line 4156: mbie,aecdmklj->abcdijkl
  ⟨-50000000000001/50000000000000, [g_abab [mₒ, bᵥ, iₒ, eᵥ], t4_abbbabbb [aᵥ, eᵥ, cᵥ, dᵥ, mₒ, kₒ, lₒ, jₒ]], [(1, [aᵥ, bᵥ, cᵥ, dᵥ, iₒ, jₒ, kₒ, lₒ])]⟩,
  -- line 4159: mcel,eabdimkj->abcdijkl
  ⟨-50000000000001/50000000000000, [g_abab [mₒ, cᵥ, eᵥ, lₒ], t4_aabbaabb [eᵥ, aᵥ, bᵥ, dᵥ, iₒ, mₒ, kₒ, jₒ]], [(1, [aᵥ, bᵥ, cᵥ, dᵥ, iₒ, jₒ, kₒ, lₒ]), (-1, [aᵥ, bᵥ, cᵥ, dᵥ, iₒ, jₒ, lₒ, kₒ]), (-1, [aᵥ, bᵥ, dᵥ, cᵥ, iₒ, jₒ, kₒ, lₒ]), (1, [aᵥ, bᵥ, dᵥ, cᵥ, iₒ, jₒ, lₒ, kₒ])]⟩,
  -- line 4163: mcel,aebdijkm->abcdijkl
  ⟨-50000000000001/50000000000000, [g_bbbb [mₒ, cᵥ, eᵥ, lₒ], t4_abbbabbb [aᵥ, eᵥ, bᵥ, dᵥ, iₒ, jₒ, kₒ, mₒ]], [(1, [aᵥ, bᵥ, cᵥ, dᵥ, iₒ, jₒ, kₒ, lₒ]), (-1, [aᵥ, bᵥ, cᵥ, dᵥ, iₒ, jₒ, lₒ, kₒ]), (-1, [aᵥ, bᵥ, dᵥ, cᵥ, iₒ, jₒ, kₒ, lₒ]), (1, [aᵥ, bᵥ, dᵥ, cᵥ, iₒ, jₒ, lₒ, kₒ])]⟩,
  -- line 4167: mcej,eabdimlk->abcdijkl
  ⟨-50000000000001/50000000000000, [g_abab [mₒ, cᵥ, eᵥ, jₒ], t4_aabbaabb [eᵥ, aᵥ, bᵥ, dᵥ, iₒ, mₒ, lₒ, kₒ]], [(1, [aᵥ, bᵥ, cᵥ, dᵥ, iₒ, jₒ, kₒ, lₒ]), (-1, [aᵥ, bᵥ, dᵥ, cᵥ, iₒ, jₒ, kₒ, lₒ])]⟩,
  -- line 4171: mcej,aebdiklm->abcdijkl
  ⟨-50000000000001/50000000000000, [g_bbbb [mₒ, cᵥ, eᵥ, jₒ], t4_abbbabbb [aᵥ, eᵥ, bᵥ, dᵥ, iₒ, kₒ, lₒ, mₒ]], [(1, [aᵥ, bᵥ, cᵥ, dᵥ, iₒ, jₒ, kₒ, lₒ]), (-1, [aᵥ, bᵥ, dᵥ, cᵥ, iₒ, jₒ, kₒ, lₒ])]⟩,
  -- line 4175: mcie,aebdmklj->abcdijkl
  ⟨50000000000001/50000000000000, [g_abab [mₒ, cᵥ, iₒ, eᵥ], t4_abbbabbb [aᵥ, eᵥ, bᵥ, dᵥ, mₒ, kₒ, lₒ, jₒ]], [(1, [aᵥ, bᵥ, cᵥ, dᵥ, iₒ, jₒ, kₒ, lₒ]), (-1, [aᵥ, bᵥ, dᵥ, cᵥ, iₒ, jₒ, kₒ, lₒ])]⟩,
  -- line 4179: abef,efcdijkl->abcdijkl
  ⟨50000000000001/100000000000000, [g_abab [aᵥ, bᵥ, eᵥ, fᵥ], t4_abbbabbb [eᵥ, fᵥ, cᵥ, dᵥ, iₒ, jₒ, kₒ, lₒ]], [(1, [aᵥ, bᵥ, cᵥ, dᵥ, iₒ, jₒ, kₒ, lₒ]), (-1, [aᵥ, cᵥ, bᵥ, dᵥ, iₒ, jₒ, kₒ, lₒ])]⟩,
  -- line 4183: abfe,fecdijkl->abcdijkl
  ⟨50000000000001/100000000000000, [g_abab [aᵥ, bᵥ, fᵥ, eᵥ], t4_abbbabbb [fᵥ, eᵥ, cᵥ, dᵥ, iₒ, jₒ, kₒ, lₒ]], [(1, [aᵥ, bᵥ, cᵥ, dᵥ, iₒ, jₒ, kₒ, lₒ]), (-1, [aᵥ, cᵥ, bᵥ, dᵥ, iₒ, jₒ, kₒ, lₒ])]⟩,
  -- line 4187: adef,efbcijkl->abcdijkl
  ⟨50000000000001/100000000000000, [g_abab [aᵥ, dᵥ, eᵥ, fᵥ], t4_abbbabbb [eᵥ, fᵥ, bᵥ, cᵥ, iₒ, jₒ, kₒ, lₒ]], [(1, [aᵥ, bᵥ, cᵥ, dᵥ, iₒ, jₒ, kₒ, lₒ])]⟩,
  -- line 4190: adfe,febcijkl->abcdijkl
  ⟨50000000000001/100000000000000, [g_abab [aᵥ, dᵥ, fᵥ, eᵥ], t4_abbbabbb [fᵥ, eᵥ, bᵥ, cᵥ, iₒ, jₒ, kₒ, lₒ]], [(1, [aᵥ, bᵥ, cᵥ, dᵥ, iₒ, jₒ, kₒ, lₒ])]⟩,
  -- line 4193: bdef,afecijkl->abcdijkl
  ⟨50000000000001/100000000000000, [g_bbbb [bᵥ, dᵥ, eᵥ, fᵥ], t4_abbbabbb [aᵥ, fᵥ, eᵥ, cᵥ, iₒ, jₒ, kₒ, lₒ]], [(1, [aᵥ, bᵥ, cᵥ, dᵥ, iₒ, jₒ, kₒ, lₒ])]⟩,
  -- line 4196: bcef,afedijkl->abcdijkl
  ⟨-50000000000001/100000000000000, [g_bbbb [bᵥ, cᵥ, eᵥ, fᵥ], t4_abbbabbb [aᵥ, fᵥ, eᵥ, dᵥ, iₒ, jₒ, kₒ, lₒ]], [(1, [aᵥ, bᵥ, cᵥ, dᵥ, iₒ, jₒ, kₒ, lₒ]), (-1, [aᵥ, dᵥ, cᵥ, bᵥ, iₒ, jₒ, kₒ, lₒ])]⟩,
  -- line 4200: mnef,efml,abcdijkn->abcdijkl
  ⟨-9999999999999/20000000000000, [g_abab [mₒ, nₒ, eᵥ, fᵥ], t2_abab [eᵥ, fᵥ, mₒ, lₒ], t4_abbbabbb [aᵥ, bᵥ, cᵥ, dᵥ, iₒ, jₒ, kₒ, nₒ]], [(1, [aᵥ, bᵥ, cᵥ, dᵥ, iₒ, jₒ, kₒ, lₒ]), (-1, [aᵥ, bᵥ, cᵥ, dᵥ, iₒ, jₒ, lₒ, kₒ])]⟩,
  -- line 4204: mnfe,feml,abcdijkn->abcdijkl
  ⟨-9999999999999/20000000000000, [g_abab [mₒ, nₒ, fᵥ, eᵥ], t2_abab [fᵥ, eᵥ, mₒ, lₒ], t4_abbbabbb [aᵥ, bᵥ, cᵥ, dᵥ, iₒ, jₒ, kₒ, nₒ]], [(1, [aᵥ, bᵥ, cᵥ, dᵥ, iₒ, jₒ, kₒ, lₒ]), (-1, [aᵥ, bᵥ, cᵥ, dᵥ, iₒ, jₒ, lₒ, kₒ])]⟩,
  -- line 4208: nmef,eflm,abcdijkn->abcdijkl
  ⟨-9999999999999/20000000000000, [g_bbbb [nₒ, mₒ, eᵥ, fᵥ], t2_bbbb [eᵥ, fᵥ, lₒ, mₒ], t4_abbbabbb [aᵥ, bᵥ, cᵥ, dᵥ, iₒ, jₒ, kₒ, nₒ]], [(1, [aᵥ, bᵥ, cᵥ, dᵥ, iₒ, jₒ, kₒ, lₒ]), (-1, [aᵥ, bᵥ, cᵥ, dᵥ, iₒ, jₒ, lₒ, kₒ])]⟩,
  -- line 4212: mnef,efmj,abcdikln->abcdijkl
  ⟨-9999999999999/20000000000000, [g_abab [mₒ, nₒ, eᵥ, fᵥ], t2_abab [eᵥ, fᵥ, mₒ, jₒ], t4_abbbabbb [aᵥ, bᵥ, cᵥ, dᵥ, iₒ, kₒ, lₒ, nₒ]], [(1, [aᵥ, bᵥ, cᵥ, dᵥ, iₒ, jₒ, kₒ, lₒ])]⟩,
  -- line 4215: mnfe,femj,abcdikln->abcdijkl
  ⟨-9999999999999/20000000000000, [g_abab [mₒ, nₒ, fᵥ, eᵥ], t2_abab [fᵥ, eᵥ, mₒ, jₒ], t4_abbbabbb [aᵥ, bᵥ, cᵥ, dᵥ, iₒ, kₒ, lₒ, nₒ]], [(1, [aᵥ, bᵥ, cᵥ, dᵥ, iₒ, jₒ, kₒ, lₒ])]⟩,
  -- line 4218: nmef,efjm,abcdikln->abcdijkl
  ⟨-9999999999999/20000000000000, [g_bbbb [nₒ, mₒ, eᵥ, fᵥ], t2_bbbb [eᵥ, fᵥ, jₒ, mₒ], t4_abbbabbb [aᵥ, bᵥ, cᵥ, dᵥ, iₒ, kₒ, lₒ, nₒ]], [(1, [aᵥ, bᵥ, cᵥ, dᵥ, iₒ, jₒ, kₒ, lₒ])]⟩,
  -- line 4221: nmef,efim,abcdnklj->abcdijkl
  ⟨-9999999999999/20000000000000, [g_aaaa [nₒ, mₒ, eᵥ, fᵥ], t2_aaaa [eᵥ, fᵥ, iₒ, mₒ], t4_abbbabbb [aᵥ, bᵥ, cᵥ, dᵥ, nₒ, kₒ, lₒ, jₒ]], [(1, [aᵥ, bᵥ, cᵥ, dᵥ, iₒ, jₒ, kₒ, lₒ])]⟩,
  -- line 4224: nmef,efim,abcdnklj->abcdijkl
  ⟨-9999999999999/20000000000000, [g_abab [nₒ, mₒ, eᵥ, fᵥ], t2_abab [eᵥ, fᵥ, iₒ, mₒ], t4_abbbabbb [aᵥ, bᵥ, cᵥ, dᵥ, nₒ, kₒ, lₒ, jₒ]], [(1, [aᵥ, bᵥ, cᵥ, dᵥ, iₒ, jₒ, kₒ, lₒ])]⟩
  ]

/-- Part 1 of `ccdq_t4_abbbabbb`. -/
def ccdq_t4_abbbabbb_1 : Prog := [
  -- line 4227: nmfe,feim,abcdnklj->abcdijkl
  ⟨-9999999999999/20000000000000, [g_abab [nₒ, mₒ, fᵥ, eᵥ], t2_abab [fᵥ, eᵥ, iₒ, mₒ], t4_abbbabbb [aᵥ, bᵥ, cᵥ, dᵥ, nₒ, kₒ, lₒ, jₒ]], [(1, [aᵥ, bᵥ, cᵥ, dᵥ, iₒ, jₒ, kₒ, lₒ])]⟩,
  -- line 4230: nmef,efkl,abcdijnm->abcdijkl
  ⟨25000000000001/100000000000000, [g_bbbb [nₒ, mₒ, eᵥ, fᵥ], t2_bbbb [eᵥ, fᵥ, kₒ, lₒ], t4_abbbabbb [aᵥ, bᵥ, cᵥ, dᵥ, iₒ, jₒ, nₒ, mₒ]], [(1, [aᵥ, bᵥ, cᵥ, dᵥ, iₒ, jₒ, kₒ, lₒ]), (-1, [aᵥ, bᵥ, cᵥ, dᵥ, iₒ, kₒ, jₒ, lₒ])]⟩,
  -- line 4234: nmef,efil,abcdnkjm->abcdijkl
  ⟨-25000000000001/100000000000000, [g_abab [nₒ, mₒ, eᵥ, fᵥ], t2_abab [eᵥ, fᵥ, iₒ, lₒ], t4_abbbabbb [aᵥ, bᵥ, cᵥ, dᵥ, nₒ, kₒ, jₒ, mₒ]], [(1, [aᵥ, bᵥ, cᵥ, dᵥ, iₒ, jₒ, kₒ, lₒ]), (-1, [aᵥ, bᵥ, cᵥ, dᵥ, iₒ, jₒ, lₒ, kₒ])]⟩,
  -- line 4238: mnef,efil,abcdmknj->abcdijkl
  ⟨25000000000001/100000000000000, [g_abab [mₒ, nₒ, eᵥ, fᵥ], t2_abab [eᵥ, fᵥ, iₒ, lₒ], t4_abbbabbb [aᵥ, bᵥ, cᵥ, dᵥ, mₒ, kₒ, nₒ, jₒ]], [(1, [aᵥ, bᵥ, cᵥ, dᵥ, iₒ, jₒ, kₒ, lₒ]), (-1, [aᵥ, bᵥ, cᵥ, dᵥ, iₒ, jₒ, lₒ, kₒ])]⟩,
  -- line 4242: nmfe,feil,abcdnkjm->abcdijkl
  ⟨-25000000000001/100000000000000, [g_abab [nₒ, mₒ, fᵥ, eᵥ], t2_abab [fᵥ, eᵥ, iₒ, lₒ], t4_abbbabbb [aᵥ, bᵥ, cᵥ, dᵥ, nₒ, kₒ, jₒ, mₒ]], [(1, [aᵥ, bᵥ, cᵥ, dᵥ, iₒ, jₒ, kₒ, lₒ]), (-1, [aᵥ, bᵥ, cᵥ, dᵥ, iₒ, jₒ, lₒ, kₒ])]⟩,
  -- line 4246: mnfe,feil,abcdmknj->abcdijkl
  ⟨25000000000001/100000000000000, [g_abab [mₒ, nₒ, fᵥ, eᵥ], t2_abab [fᵥ, eᵥ, iₒ, lₒ], t4_abbbabbb [aᵥ, bᵥ, cᵥ, dᵥ, mₒ, kₒ, nₒ, jₒ]], [(1, [aᵥ, bᵥ, cᵥ, dᵥ, iₒ, jₒ, kₒ, lₒ]), (-1, [aᵥ, bᵥ, cᵥ, dᵥ, iₒ, jₒ, lₒ, kₒ])]⟩,
  -- line 4250: nmef,efjk,abcdilnm->abcdijkl
  ⟨25000000000001/100000000000000, [g_bbbb [nₒ, mₒ, eᵥ, fᵥ], t2_bbbb [eᵥ, fᵥ, jₒ, kₒ], t4_abbbabbb [aᵥ, bᵥ, cᵥ, dᵥ, iₒ, lₒ, nₒ, mₒ]], [(1, [aᵥ, bᵥ, cᵥ, dᵥ, iₒ, jₒ, kₒ, lₒ])]⟩,
  -- line 4253: nmef,efij,abcdnlkm->abcdijkl
  ⟨-25000000000001/100000000000000, [g_abab [nₒ, mₒ, eᵥ, fᵥ], t2_abab [eᵥ, fᵥ, iₒ, jₒ], t4_abbbabbb [aᵥ, bᵥ, cᵥ, dᵥ, nₒ, lₒ, kₒ, mₒ]], [(1, [aᵥ, bᵥ, cᵥ, dᵥ, iₒ, jₒ, kₒ, lₒ])]⟩,
  -- line 4256: mnef,efij,abcdmlnk->abcdijkl
  ⟨25000000000001/100000000000000, [g_abab [mₒ, nₒ, eᵥ, fᵥ], t2_abab [eᵥ, fᵥ, iₒ, jₒ], t4_abbbabbb [aᵥ, bᵥ, cᵥ, dᵥ, mₒ, lₒ, nₒ, kₒ]], [(1, [aᵥ, bᵥ, cᵥ, dᵥ, iₒ, jₒ, kₒ, lₒ])]⟩,
  -- line 4259: nmfe,feij,abcdnlkm->abcdijkl
  ⟨-25000000000001/100000000000000, [g_abab [nₒ, mₒ, fᵥ, eᵥ], t2_abab [fᵥ, eᵥ, iₒ, jₒ], t4_abbbabbb [aᵥ, bᵥ, cᵥ, dᵥ, nₒ, lₒ, kₒ, mₒ]], [(1, [aᵥ, bᵥ, cᵥ, dᵥ, iₒ, jₒ, kₒ, lₒ])]⟩,
  -- line 4262: mnfe,feij,abcdmlnk->abcdijkl
  ⟨25000000000001/100000000000000, [g_abab [mₒ, nₒ, fᵥ, eᵥ], t2_abab [fᵥ, eᵥ, iₒ, jₒ], t4_abbbabbb [aᵥ, bᵥ, cᵥ, dᵥ, mₒ, lₒ, nₒ, kₒ]], [(1, [aᵥ, bᵥ, cᵥ, dᵥ, iₒ, jₒ, kₒ, lₒ])]⟩,
  -- line 4265: nmef,eanm,fbcdijkl->abcdijkl
  ⟨-9999999999999/20000000000000, [g_aaaa [nₒ, mₒ, eᵥ, fᵥ], t2_aaaa [eᵥ, aᵥ, nₒ, mₒ], t4_abbbabbb [fᵥ, bᵥ, cᵥ, dᵥ, iₒ, jₒ, kₒ, lₒ]], [(1, [aᵥ, bᵥ, cᵥ, dᵥ, iₒ, jₒ, kₒ, lₒ])]⟩,
  -- line 4268: nmfe,aenm,fbcdijkl->abcdijkl
  ⟨-9999999999999/20000000000000, [g_abab [nₒ, mₒ, fᵥ, eᵥ], t2_abab [aᵥ, eᵥ, nₒ, mₒ], t4_abbbabbb [fᵥ, bᵥ, cᵥ, dᵥ, iₒ, jₒ, kₒ, lₒ]], [(1, [aᵥ, bᵥ, cᵥ, dᵥ, iₒ, jₒ, kₒ, lₒ])]⟩,
  -- line 4271: mnfe,aemn,fbcdijkl->abcdijkl
  ⟨-9999999999999/20000000000000, [g_abab [mₒ, nₒ, fᵥ, eᵥ], t2_abab [aᵥ, eᵥ, mₒ, nₒ], t4_abbbabbb [fᵥ, bᵥ, cᵥ, dᵥ, iₒ, jₒ, kₒ, lₒ]], [(1, [aᵥ, bᵥ, cᵥ, dᵥ, iₒ, jₒ, kₒ, lₒ])]⟩,
  -- line 4274: nmef,ebnm,afcdijkl->abcdijkl
  ⟨-9999999999999/20000000000000, [g_abab [nₒ, mₒ, eᵥ, fᵥ], t2_abab [eᵥ, bᵥ, nₒ, mₒ], t4_abbbabbb [aᵥ, fᵥ, cᵥ, dᵥ, iₒ, jₒ, kₒ, lₒ]], [(1, [aᵥ, bᵥ, cᵥ, dᵥ, iₒ, jₒ, kₒ, lₒ])]⟩,
  -- line 4277: mnef,ebmn,afcdijkl->abcdijkl
  ⟨-9999999999999/20000000000000, [g_abab [mₒ, nₒ, eᵥ, fᵥ], t2_abab [eᵥ, bᵥ, mₒ, nₒ], t4_abbbabbb [aᵥ, fᵥ, cᵥ, dᵥ, iₒ, jₒ, kₒ, lₒ]], [(1, [aᵥ, bᵥ, cᵥ, dᵥ, iₒ, jₒ, kₒ, lₒ])]⟩,
  -- line 4280: nmef,ebnm,afcdijkl->abcdijkl
  ⟨-9999999999999/20000000000000, [g_bbbb [nₒ, mₒ, eᵥ, fᵥ], t2_bbbb [eᵥ, bᵥ, nₒ, mₒ], t4_abbbabbb [aᵥ, fᵥ, cᵥ, dᵥ, iₒ, jₒ, kₒ, lₒ]], [(1, [aᵥ, bᵥ, cᵥ, dᵥ, iₒ, jₒ, kₒ, lₒ])]⟩,
  -- line 4283: mnfe,aeml,fbcdijkn->abcdijkl
  ⟨6249999999999/6250000000000, [g_abab [mₒ, nₒ, fᵥ, eᵥ], t2_abab [aᵥ, eᵥ, mₒ, lₒ], t4_abbbabbb [fᵥ, bᵥ, cᵥ, dᵥ, iₒ, jₒ, kₒ, nₒ]], [(1, [aᵥ, bᵥ, cᵥ, dᵥ, iₒ, jₒ, kₒ, lₒ]), (-1, [aᵥ, bᵥ, cᵥ, dᵥ, iₒ, jₒ, lₒ, kₒ])]⟩,
  -- line 4287: nmef,ebml,facdinkj->abcdijkl
  ⟨-6249999999999/6250000000000, [g_aaaa [nₒ, mₒ, eᵥ, fᵥ], t2_abab [eᵥ, bᵥ, mₒ, lₒ], t4_aabbaabb [fᵥ, aᵥ, cᵥ, dᵥ, iₒ, nₒ, kₒ, jₒ]], [(1, [aᵥ, bᵥ, cᵥ, dᵥ, iₒ, jₒ, kₒ, lₒ]), (-1, [aᵥ, bᵥ, cᵥ, dᵥ, iₒ, jₒ, lₒ, kₒ])]⟩,
  -- line 4291: mnef,ebml,afcdijkn->abcdijkl
  ⟨6249999999999/6250000000000, [g_abab [mₒ, nₒ, eᵥ, fᵥ], t2_abab [eᵥ, bᵥ, mₒ, lₒ], t4_abbbabbb [aᵥ, fᵥ, cᵥ, dᵥ, iₒ, jₒ, kₒ, nₒ]], [(1, [aᵥ, bᵥ, cᵥ, dᵥ, iₒ, jₒ, kₒ, lₒ]), (-1, [aᵥ, bᵥ, cᵥ, dᵥ, iₒ, jₒ, lₒ, kₒ])]⟩,
  -- line 4295: nmfe,eblm,facdinkj->abcdijkl
  ⟨-6249999999999/6250000000000, [g_abab [nₒ, mₒ, fᵥ, eᵥ], t2_bbbb [eᵥ, bᵥ, lₒ, mₒ], t4_aabbaabb [fᵥ, aᵥ, cᵥ, dᵥ, iₒ, nₒ, kₒ, jₒ]], [(1, [aᵥ, bᵥ, cᵥ, dᵥ, iₒ, jₒ, kₒ, lₒ]), (-1, [aᵥ, bᵥ, cᵥ, dᵥ, iₒ, jₒ, lₒ, kₒ])]⟩,
  -- line 4299: nmef,eblm,afcdijkn->abcdijkl
  ⟨6249999999999/6250000000000, [g_bbbb [nₒ, mₒ, eᵥ, fᵥ], t2_bbbb [eᵥ, bᵥ, lₒ, mₒ], t4_abbbabbb [aᵥ, fᵥ, cᵥ, dᵥ, iₒ, jₒ, kₒ, nₒ]], [(1, [aᵥ, bᵥ, cᵥ, dᵥ, iₒ, jₒ, kₒ, lₒ]), (-1, [aᵥ, bᵥ, cᵥ, dᵥ, iₒ, jₒ, lₒ, kₒ])]⟩,
  -- line 4303: mnfe,aemj,fbcdikln->abcdijkl
  ⟨6249999999999/6250000000000, [g_abab [mₒ, nₒ, fᵥ, eᵥ], t2_abab [aᵥ, eᵥ, mₒ, jₒ], t4_abbbabbb [fᵥ, bᵥ, cᵥ, dᵥ, iₒ, kₒ, lₒ, nₒ]], [(1, [aᵥ, bᵥ, cᵥ, dᵥ, iₒ, jₒ, kₒ, lₒ])]⟩,
  -- line 4306: nmef,ebmj,facdinlk->abcdijkl
  ⟨-6249999999999/6250000000000, [g_aaaa [nₒ, mₒ, eᵥ, fᵥ], t2_abab [eᵥ, bᵥ, mₒ, jₒ], t4_aabbaabb [fᵥ, aᵥ, cᵥ, dᵥ, iₒ, nₒ, lₒ, kₒ]], [(1, [aᵥ, bᵥ, cᵥ, dᵥ, iₒ, jₒ, kₒ, lₒ])]⟩,
  -- line 4309: mnef,ebmj,afcdikln->abcdijkl
  ⟨6249999999999/6250000000000, [g_abab [mₒ, nₒ, eᵥ, fᵥ], t2_abab [eᵥ, bᵥ, mₒ, jₒ], t4_abbbabbb [aᵥ, fᵥ, cᵥ, dᵥ, iₒ, kₒ, lₒ, nₒ]], [(1, [aᵥ, bᵥ, cᵥ, dᵥ, iₒ, jₒ, kₒ, lₒ])]⟩,
  -- line 4312: nmfe,ebjm,facdinlk->abcdijkl
  ⟨-6249999999999/6250000000000, [g_abab [nₒ, mₒ, fᵥ, eᵥ], t2_bbbb [eᵥ, bᵥ, jₒ, mₒ], t4_aabbaabb [fᵥ, aᵥ, cᵥ, dᵥ, iₒ, nₒ, lₒ, kₒ]], [(1, [aᵥ, bᵥ, cᵥ, dᵥ, iₒ, jₒ, kₒ, lₒ])]⟩,
  -- line 4315: nmef,ebjm,afcdikln->abcdijkl
  ⟨6249999999999/6250000000000, [g_bbbb [nₒ, mₒ, eᵥ, fᵥ], t2_bbbb [eᵥ, bᵥ, jₒ, mₒ], t4_abbbabbb [aᵥ, fᵥ, cᵥ, dᵥ, iₒ, kₒ, lₒ, nₒ]], [(1, [aᵥ, bᵥ, cᵥ, dᵥ, iₒ, jₒ, kₒ, lₒ])]⟩,
  -- line 4318: nmef,eaim,fbcdnklj->abcdijkl
  ⟨6249999999999/6250000000000, [g_aaaa [nₒ, mₒ, eᵥ, fᵥ], t2_aaaa [eᵥ, aᵥ, iₒ, mₒ], t4_abbbabbb [fᵥ, bᵥ, cᵥ, dᵥ, nₒ, kₒ, lₒ, jₒ]], [(1, [aᵥ, bᵥ, cᵥ, dᵥ, iₒ, jₒ, kₒ, lₒ])]⟩,
  -- line 4321: mnef,eaim,fbcdjkln->abcdijkl
  ⟨6249999999999/6250000000000, [g_abab [mₒ, nₒ, eᵥ, fᵥ], t2_aaaa [eᵥ, aᵥ, iₒ, mₒ], t4_bbbbbbbb [fᵥ, bᵥ, cᵥ, dᵥ, jₒ, kₒ, lₒ, nₒ]], [(1, [aᵥ, bᵥ, cᵥ, dᵥ, iₒ, jₒ, kₒ, lₒ])]⟩,
  -- line 4324: nmfe,aeim,fbcdnklj->abcdijkl
  ⟨6249999999999/6250000000000, [g_abab [nₒ, mₒ, fᵥ, eᵥ], t2_abab [aᵥ, eᵥ, iₒ, mₒ], t4_abbbabbb [fᵥ, bᵥ, cᵥ, dᵥ, nₒ, kₒ, lₒ, jₒ]], [(1, [aᵥ, bᵥ, cᵥ, dᵥ, iₒ, jₒ, kₒ, lₒ])]⟩,
  -- line 4327: nmef,aeim,fbcdjkln->abcdijkl
  ⟨6249999999999/6250000000000, [g_bbbb [nₒ, mₒ, eᵥ, fᵥ], t2_abab [aᵥ, eᵥ, iₒ, mₒ], t4_bbbbbbbb [fᵥ, bᵥ, cᵥ, dᵥ, jₒ, kₒ, lₒ, nₒ]], [(1, [aᵥ, bᵥ, cᵥ, dᵥ, iₒ, jₒ, kₒ, lₒ])]⟩,
  -- line 4330: nmef,ebim,afcdnklj->abcdijkl
  ⟨6249999999999/6250000000000, [g_abab [nₒ, mₒ, eᵥ, fᵥ], t2_abab [eᵥ, bᵥ, iₒ, mₒ], t4_abbbabbb [aᵥ, fᵥ, cᵥ, dᵥ, nₒ, kₒ, lₒ, jₒ]], [(1, [aᵥ, bᵥ, cᵥ, dᵥ, iₒ, jₒ, kₒ, lₒ])]⟩,
  -- line 4333: nmfe,ebkl,facdinjm->abcdijkl
  ⟨9999999999999/20000000000000, [g_abab [nₒ, mₒ, fᵥ, eᵥ], t2_bbbb [eᵥ, bᵥ, kₒ, lₒ], t4_aabbaabb [fᵥ, aᵥ, cᵥ, dᵥ, iₒ, nₒ, jₒ, mₒ]], [(1, [aᵥ, bᵥ, cᵥ, dᵥ, iₒ, jₒ, kₒ, lₒ]), (-1, [aᵥ, bᵥ, cᵥ, dᵥ, iₒ, kₒ, jₒ, lₒ])]⟩,
  -- line 4337: mnfe,ebkl,facdimnj->abcdijkl
  ⟨-9999999999999/20000000000000, [g_abab [mₒ, nₒ, fᵥ, eᵥ], t2_bbbb [eᵥ, bᵥ, kₒ, lₒ], t4_aabbaabb [fᵥ, aᵥ, cᵥ, dᵥ, iₒ, mₒ, nₒ, jₒ]], [(1, [aᵥ, bᵥ, cᵥ, dᵥ, iₒ, jₒ, kₒ, lₒ]), (-1, [aᵥ, bᵥ, cᵥ, dᵥ, iₒ, kₒ, jₒ, lₒ])]⟩,
  -- line 4341: nmef,ebkl,afcdijnm->abcdijkl
  ⟨-9999999999999/20000000000000, [g_bbbb [nₒ, mₒ, eᵥ, fᵥ], t2_bbbb [eᵥ, bᵥ, kₒ, lₒ], t4_abbbabbb [aᵥ, fᵥ, cᵥ, dᵥ, iₒ, jₒ, nₒ, mₒ]], [(1, [aᵥ, bᵥ, cᵥ, dᵥ, iₒ, jₒ, kₒ, lₒ]), (-1, [aᵥ, bᵥ, cᵥ, dᵥ, iₒ, kₒ, jₒ, lₒ])]⟩,
  -- line 4345: nmfe,aeil,fbcdnkjm->abcdijkl
  ⟨9999999999999/20000000000000, [g_abab [nₒ, mₒ, fᵥ, eᵥ], t2_abab [aᵥ, eᵥ, iₒ, lₒ], t4_abbbabbb [fᵥ, bᵥ, cᵥ, dᵥ, nₒ, kₒ, jₒ, mₒ]], [(1, [aᵥ, bᵥ, cᵥ, dᵥ, iₒ, jₒ, kₒ, lₒ]), (-1, [aᵥ, bᵥ, cᵥ, dᵥ, iₒ, jₒ, lₒ, kₒ])]⟩,
  -- line 4349: mnfe,aeil,fbcdmknj->abcdijkl
  ⟨-9999999999999/20000000000000, [g_abab [mₒ, nₒ, fᵥ, eᵥ], t2_abab [aᵥ, eᵥ, iₒ, lₒ], t4_abbbabbb [fᵥ, bᵥ, cᵥ, dᵥ, mₒ, kₒ, nₒ, jₒ]], [(1, [aᵥ, bᵥ, cᵥ, dᵥ, iₒ, jₒ, kₒ, lₒ]), (-1, [aᵥ, bᵥ, cᵥ, dᵥ, iₒ, jₒ, lₒ, kₒ])]⟩,
  -- line 4353: nmef,aeil,fbcdjknm->abcdijkl
  ⟨9999999999999/20000000000000, [g_bbbb [nₒ, mₒ, eᵥ, fᵥ], t2_abab [aᵥ, eᵥ, iₒ, lₒ], t4_bbbbbbbb [fᵥ, bᵥ, cᵥ, dᵥ, jₒ, kₒ, nₒ, mₒ]], [(1, [aᵥ, bᵥ, cᵥ, dᵥ, iₒ, jₒ, kₒ, lₒ]), (-1, [aᵥ, bᵥ, cᵥ, dᵥ, iₒ, jₒ, lₒ, kₒ])]⟩,
  -- line 4357: nmef,ebil,facdnmjk->abcdijkl
  ⟨9999999999999/20000000000000, [g_aaaa [nₒ, mₒ, eᵥ, fᵥ], t2_abab [eᵥ, bᵥ, iₒ, lₒ], t4_aabbaabb [fᵥ, aᵥ, cᵥ, dᵥ, nₒ, mₒ, jₒ, kₒ]], [(1, [aᵥ, bᵥ, cᵥ, dᵥ, iₒ, jₒ, kₒ, lₒ]), (-1, [aᵥ, bᵥ, cᵥ, dᵥ, iₒ, jₒ, lₒ, kₒ])]⟩,
  -- line 4361: nmef,ebil,afcdnkjm->abcdijkl
  ⟨9999999999999/20000000000000, [g_abab [nₒ, mₒ, eᵥ, fᵥ], t2_abab [eᵥ, bᵥ, iₒ, lₒ], t4_abbbabbb [aᵥ, fᵥ, cᵥ, dᵥ, nₒ, kₒ, jₒ, mₒ]], [(1, [aᵥ, bᵥ, cᵥ, dᵥ, iₒ, jₒ, kₒ, lₒ]), (-1, [aᵥ, bᵥ, cᵥ, dᵥ, iₒ, jₒ, lₒ, kₒ])]⟩
  ]

/-- Part 2 of `ccdq_t4_abbbabbb`. -/
def ccdq_t4_abbbabbb_2 : Prog := [
  -- line 4365: mnef,ebil,afcdmknj->abcdijkl
  ⟨-9999999999999/20000000000000, [g_abab [mₒ, nₒ, eᵥ, fᵥ], t2_abab [eᵥ, bᵥ, iₒ, lₒ], t4_abbbabbb [aᵥ, fᵥ, cᵥ, dᵥ, mₒ, kₒ, nₒ, jₒ]], [(1, [aᵥ, bᵥ, cᵥ, dᵥ, iₒ, jₒ, kₒ, lₒ]), (-1, [aᵥ, bᵥ, cᵥ, dᵥ, iₒ, jₒ, lₒ, kₒ])]⟩,
  -- line 4369: nmfe,ebjk,facdinlm->abcdijkl
  ⟨9999999999999/20000000000000, [g_abab [nₒ, mₒ, fᵥ, eᵥ], t2_bbbb [eᵥ, bᵥ, jₒ, kₒ], t4_aabbaabb [fᵥ, aᵥ, cᵥ, dᵥ, iₒ, nₒ, lₒ, mₒ]], [(1, [aᵥ, bᵥ, cᵥ, dᵥ, iₒ, jₒ, kₒ, lₒ])]⟩,
  -- line 4372: mnfe,ebjk,facdimnl->abcdijkl
  ⟨-9999999999999/20000000000000, [g_abab [mₒ, nₒ, fᵥ, eᵥ], t2_bbbb [eᵥ, bᵥ, jₒ, kₒ], t4_aabbaabb [fᵥ, aᵥ, cᵥ, dᵥ, iₒ, mₒ, nₒ, lₒ]], [(1, [aᵥ, bᵥ, cᵥ, dᵥ, iₒ, jₒ, kₒ, lₒ])]⟩,
  -- line 4375: nmef,ebjk,afcdilnm->abcdijkl
  ⟨-9999999999999/20000000000000, [g_bbbb [nₒ, mₒ, eᵥ, fᵥ], t2_bbbb [eᵥ, bᵥ, jₒ, kₒ], t4_abbbabbb [aᵥ, fᵥ, cᵥ, dᵥ, iₒ, lₒ, nₒ, mₒ]], [(1, [aᵥ, bᵥ, cᵥ, dᵥ, iₒ, jₒ, kₒ, lₒ])]⟩,
  -- line 4378: nmfe,aeij,fbcdnlkm->abcdijkl
  ⟨9999999999999/20000000000000, [g_abab [nₒ, mₒ, fᵥ, eᵥ], t2_abab [aᵥ, eᵥ, iₒ, jₒ], t4_abbbabbb [fᵥ, bᵥ, cᵥ, dᵥ, nₒ, lₒ, kₒ, mₒ]], [(1, [aᵥ, bᵥ, cᵥ, dᵥ, iₒ, jₒ, kₒ, lₒ])]⟩,
  -- line 4381: mnfe,aeij,fbcdmlnk->abcdijkl
  ⟨-9999999999999/20000000000000, [g_abab [mₒ, nₒ, fᵥ, eᵥ], t2_abab [aᵥ, eᵥ, iₒ, jₒ], t4_abbbabbb [fᵥ, bᵥ, cᵥ, dᵥ, mₒ, lₒ, nₒ, kₒ]], [(1, [aᵥ, bᵥ, cᵥ, dᵥ, iₒ, jₒ, kₒ, lₒ])]⟩,
  -- line 4384: nmef,aeij,fbcdklnm->abcdijkl
  ⟨9999999999999/20000000000000, [g_bbbb [nₒ, mₒ, eᵥ, fᵥ], t2_abab [aᵥ, eᵥ, iₒ, jₒ], t4_bbbbbbbb [fᵥ, bᵥ, cᵥ, dᵥ, kₒ, lₒ, nₒ, mₒ]], [(1, [aᵥ, bᵥ, cᵥ, dᵥ, iₒ, jₒ, kₒ, lₒ])]⟩,
  -- line 4387: nmef,ebij,facdnmkl->abcdijkl
  ⟨9999999999999/20000000000000, [g_aaaa [nₒ, mₒ, eᵥ, fᵥ], t2_abab [eᵥ, bᵥ, iₒ, jₒ], t4_aabbaabb [fᵥ, aᵥ, cᵥ, dᵥ, nₒ, mₒ, kₒ, lₒ]], [(1, [aᵥ, bᵥ, cᵥ, dᵥ, iₒ, jₒ, kₒ, lₒ])]⟩,
  -- line 4390: nmef,ebij,afcdnlkm->abcdijkl
  ⟨9999999999999/20000000000000, [g_abab [nₒ, mₒ, eᵥ, fᵥ], t2_abab [eᵥ, bᵥ, iₒ, jₒ], t4_abbbabbb [aᵥ, fᵥ, cᵥ, dᵥ, nₒ, lₒ, kₒ, mₒ]], [(1, [aᵥ, bᵥ, cᵥ, dᵥ, iₒ, jₒ, kₒ, lₒ])]⟩,
  -- line 4393: mnef,ebij,afcdmlnk->abcdijkl
  ⟨-9999999999999/20000000000000, [g_abab [mₒ, nₒ, eᵥ, fᵥ], t2_abab [eᵥ, bᵥ, iₒ, jₒ], t4_abbbabbb [aᵥ, fᵥ, cᵥ, dᵥ, mₒ, lₒ, nₒ, kₒ]], [(1, [aᵥ, bᵥ, cᵥ, dᵥ, iₒ, jₒ, kₒ, lₒ])]⟩,
  -- line 4396: nmef,ecnm,afbdijkl->abcdijkl
  ⟨9999999999999/20000000000000, [g_abab [nₒ, mₒ, eᵥ, fᵥ], t2_abab [eᵥ, cᵥ, nₒ, mₒ], t4_abbbabbb [aᵥ, fᵥ, bᵥ, dᵥ, iₒ, jₒ, kₒ, lₒ]], [(1, [aᵥ, bᵥ, cᵥ, dᵥ, iₒ, jₒ, kₒ, lₒ]), (-1, [aᵥ, bᵥ, dᵥ, cᵥ, iₒ, jₒ, kₒ, lₒ])]⟩,
  -- line 4400: mnef,ecmn,afbdijkl->abcdijkl
  ⟨9999999999999/20000000000000, [g_abab [mₒ, nₒ, eᵥ, fᵥ], t2_abab [eᵥ, cᵥ, mₒ, nₒ], t4_abbbabbb [aᵥ, fᵥ, bᵥ, dᵥ, iₒ, jₒ, kₒ, lₒ]], [(1, [aᵥ, bᵥ, cᵥ, dᵥ, iₒ, jₒ, kₒ, lₒ]), (-1, [aᵥ, bᵥ, dᵥ, cᵥ, iₒ, jₒ, kₒ, lₒ])]⟩,
  -- line 4404: nmef,ecnm,afbdijkl->abcdijkl
  ⟨9999999999999/20000000000000, [g_bbbb [nₒ, mₒ, eᵥ, fᵥ], t2_bbbb [eᵥ, cᵥ, nₒ, mₒ], t4_abbbabbb [aᵥ, fᵥ, bᵥ, dᵥ, iₒ, jₒ, kₒ, lₒ]], [(1, [aᵥ, bᵥ, cᵥ, dᵥ, iₒ, jₒ, kₒ, lₒ]), (-1, [aᵥ, bᵥ, dᵥ, cᵥ, iₒ, jₒ, kₒ, lₒ])]⟩,
  -- line 4408: nmef,ecml,fabdinkj->abcdijkl
  ⟨6249999999999/6250000000000, [g_aaaa [nₒ, mₒ, eᵥ, fᵥ], t2_abab [eᵥ, cᵥ, mₒ, lₒ], t4_aabbaabb [fᵥ, aᵥ, bᵥ, dᵥ, iₒ, nₒ, kₒ, jₒ]], [(1, [aᵥ, bᵥ, cᵥ, dᵥ, iₒ, jₒ, kₒ, lₒ]), (-1, [aᵥ, bᵥ, cᵥ, dᵥ, iₒ, jₒ, lₒ, kₒ]), (-1, [aᵥ, bᵥ, dᵥ, cᵥ, iₒ, jₒ, kₒ, lₒ]), (1, [aᵥ, bᵥ, dᵥ, cᵥ, iₒ, jₒ, lₒ, kₒ])]⟩,
  -- line 4412: mnef,ecml,afbdijkn->abcdijkl
  ⟨-6249999999999/6250000000000, [g_abab [mₒ, nₒ, eᵥ, fᵥ], t2_abab [eᵥ, cᵥ, mₒ, lₒ], t4_abbbabbb [aᵥ, fᵥ, bᵥ, dᵥ, iₒ, jₒ, kₒ, nₒ]], [(1, [aᵥ, bᵥ, cᵥ, dᵥ, iₒ, jₒ, kₒ, lₒ]), (-1, [aᵥ, bᵥ, cᵥ, dᵥ, iₒ, jₒ, lₒ, kₒ]), (-1, [aᵥ, bᵥ, dᵥ, cᵥ, iₒ, jₒ, kₒ, lₒ]), (1, [aᵥ, bᵥ, dᵥ, cᵥ, iₒ, jₒ, lₒ, kₒ])]⟩,
  -- line 4416: nmfe,eclm,fabdinkj->abcdijkl
  ⟨6249999999999/6250000000000, [g_abab [nₒ, mₒ, fᵥ, eᵥ], t2_bbbb [eᵥ, cᵥ, lₒ, mₒ], t4_aabbaabb [fᵥ, aᵥ, bᵥ, dᵥ, iₒ, nₒ, kₒ, jₒ]], [(1, [aᵥ, bᵥ, cᵥ, dᵥ, iₒ, jₒ, kₒ, lₒ]), (-1, [aᵥ, bᵥ, cᵥ, dᵥ, iₒ, jₒ, lₒ, kₒ]), (-1, [aᵥ, bᵥ, dᵥ, cᵥ, iₒ, jₒ, kₒ, lₒ]), (1, [aᵥ, bᵥ, dᵥ, cᵥ, iₒ, jₒ, lₒ, kₒ])]⟩,
  -- line 4420: nmef,eclm,afbdijkn->abcdijkl
  ⟨-6249999999999/6250000000000, [g_bbbb [nₒ, mₒ, eᵥ, fᵥ], t2_bbbb [eᵥ, cᵥ, lₒ, mₒ], t4_abbbabbb [aᵥ, fᵥ, bᵥ, dᵥ, iₒ, jₒ, kₒ, nₒ]], [(1, [aᵥ, bᵥ, cᵥ, dᵥ, iₒ, jₒ, kₒ, lₒ]), (-1, [aᵥ, bᵥ, cᵥ, dᵥ, iₒ, jₒ, lₒ, kₒ]), (-1, [aᵥ, bᵥ, dᵥ, cᵥ, iₒ, jₒ, kₒ, lₒ]), (1, [aᵥ, bᵥ, dᵥ, cᵥ, iₒ, jₒ, lₒ, kₒ])]⟩,
  -- line 4424: nmef,ecmj,fabdinlk->abcdijkl
  ⟨6249999999999/6250000000000, [g_aaaa [nₒ, mₒ, eᵥ, fᵥ], t2_abab [eᵥ, cᵥ, mₒ, jₒ], t4_aabbaabb [fᵥ, aᵥ, bᵥ, dᵥ, iₒ, nₒ, lₒ, kₒ]], [(1, [aᵥ, bᵥ, cᵥ, dᵥ, iₒ, jₒ, kₒ, lₒ]), (-1, [aᵥ, bᵥ, dᵥ, cᵥ, iₒ, jₒ, kₒ, lₒ])]⟩,
  -- line 4428: mnef,ecmj,afbdikln->abcdijkl
  ⟨-6249999999999/6250000000000, [g_abab [mₒ, nₒ, eᵥ, fᵥ], t2_abab [eᵥ, cᵥ, mₒ, jₒ], t4_abbbabbb [aᵥ, fᵥ, bᵥ, dᵥ, iₒ, kₒ, lₒ, nₒ]], [(1, [aᵥ, bᵥ, cᵥ, dᵥ, iₒ, jₒ, kₒ, lₒ]), (-1, [aᵥ, bᵥ, dᵥ, cᵥ, iₒ, jₒ, kₒ, lₒ])]⟩,
  -- line 4432: nmfe,ecjm,fabdinlk->abcdijkl
  ⟨6249999999999/6250000000000, [g_abab [nₒ, mₒ, fᵥ, eᵥ], t2_bbbb [eᵥ, cᵥ, jₒ, mₒ], t4_aabbaabb [fᵥ, aᵥ, bᵥ, dᵥ, iₒ, nₒ, lₒ, kₒ]], [(1, [aᵥ, bᵥ, cᵥ, dᵥ, iₒ, jₒ, kₒ, lₒ]), (-1, [aᵥ, bᵥ, dᵥ, cᵥ, iₒ, jₒ, kₒ, lₒ])]⟩,
  -- line 4436: nmef,ecjm,afbdikln->abcdijkl
  ⟨-6249999999999/6250000000000, [g_bbbb [nₒ, mₒ, eᵥ, fᵥ], t2_bbbb [eᵥ, cᵥ, jₒ, mₒ], t4_abbbabbb [aᵥ, fᵥ, bᵥ, dᵥ, iₒ, kₒ, lₒ, nₒ]], [(1, [aᵥ, bᵥ, cᵥ, dᵥ, iₒ, jₒ, kₒ, lₒ]), (-1, [aᵥ, bᵥ, dᵥ, cᵥ, iₒ, jₒ, kₒ, lₒ])]⟩,
  -- line 4440: nmef,ecim,afbdnklj->abcdijkl
  ⟨-6249999999999/6250000000000, [g_abab [nₒ, mₒ, eᵥ, fᵥ], t2_abab [eᵥ, cᵥ, iₒ, mₒ], t4_abbbabbb [aᵥ, fᵥ, bᵥ, dᵥ, nₒ, kₒ, lₒ, jₒ]], [(1, [aᵥ, bᵥ, cᵥ, dᵥ, iₒ, jₒ, kₒ, lₒ]), (-1, [aᵥ, bᵥ, dᵥ, cᵥ, iₒ, jₒ, kₒ, lₒ])]⟩,
  -- line 4444: nmfe,eckl,fabdinjm->abcdijkl
  ⟨-9999999999999/20000000000000, [g_abab [nₒ, mₒ, fᵥ, eᵥ], t2_bbbb [eᵥ, cᵥ, kₒ, lₒ], t4_aabbaabb [fᵥ, aᵥ, bᵥ, dᵥ, iₒ, nₒ, jₒ, mₒ]], [(1, [aᵥ, bᵥ, cᵥ, dᵥ, iₒ, jₒ, kₒ, lₒ]), (-1, [aᵥ, bᵥ, cᵥ, dᵥ, iₒ, kₒ, jₒ, lₒ]), (-1, [aᵥ, bᵥ, dᵥ, cᵥ, iₒ, jₒ, kₒ, lₒ]), (1, [aᵥ, bᵥ, dᵥ, cᵥ, iₒ, kₒ, jₒ, lₒ])]⟩,
  -- line 4448: mnfe,eckl,fabdimnj->abcdijkl
  ⟨9999999999999/20000000000000, [g_abab [mₒ, nₒ, fᵥ, eᵥ], t2_bbbb [eᵥ, cᵥ, kₒ, lₒ], t4_aabbaabb [fᵥ, aᵥ, bᵥ, dᵥ, iₒ, mₒ, nₒ, jₒ]], [(1, [aᵥ, bᵥ, cᵥ, dᵥ, iₒ, jₒ, kₒ, lₒ]), (-1, [aᵥ, bᵥ, cᵥ, dᵥ, iₒ, kₒ, jₒ, lₒ]), (-1, [aᵥ, bᵥ, dᵥ, cᵥ, iₒ, jₒ, kₒ, lₒ]), (1, [aᵥ, bᵥ, dᵥ, cᵥ, iₒ, kₒ, jₒ, lₒ])]⟩,
  -- line 4452: nmef,eckl,afbdijnm->abcdijkl
  ⟨9999999999999/20000000000000, [g_bbbb [nₒ, mₒ, eᵥ, fᵥ], t2_bbbb [eᵥ, cᵥ, kₒ, lₒ], t4_abbbabbb [aᵥ, fᵥ, bᵥ, dᵥ, iₒ, jₒ, nₒ, mₒ]], [(1, [aᵥ, bᵥ, cᵥ, dᵥ, iₒ, jₒ, kₒ, lₒ]), (-1, [aᵥ, bᵥ, cᵥ, dᵥ, iₒ, kₒ, jₒ, lₒ]), (-1, [aᵥ, bᵥ, dᵥ, cᵥ, iₒ, jₒ, kₒ, lₒ]), (1, [aᵥ, bᵥ, dᵥ, cᵥ, iₒ, kₒ, jₒ, lₒ])]⟩,
  -- line 4456: nmef,ecil,fabdnmjk->abcdijkl
  ⟨-9999999999999/20000000000000, [g_aaaa [nₒ, mₒ, eᵥ, fᵥ], t2_abab [eᵥ, cᵥ, iₒ, lₒ], t4_aabbaabb [fᵥ, aᵥ, bᵥ, dᵥ, nₒ, mₒ, jₒ, kₒ]], [(1, [aᵥ, bᵥ, cᵥ, dᵥ, iₒ, jₒ, kₒ, lₒ]), (-1, [aᵥ, bᵥ, cᵥ, dᵥ, iₒ, jₒ, lₒ, kₒ]), (-1, [aᵥ, bᵥ, dᵥ, cᵥ, iₒ, jₒ, kₒ, lₒ]), (1, [aᵥ, bᵥ, dᵥ, cᵥ, iₒ, jₒ, lₒ, kₒ])]⟩,
  -- line 4460: nmef,ecil,afbdnkjm->abcdijkl
  ⟨-9999999999999/20000000000000, [g_abab [nₒ, mₒ, eᵥ, fᵥ], t2_abab [eᵥ, cᵥ, iₒ, lₒ], t4_abbbabbb [aᵥ, fᵥ, bᵥ, dᵥ, nₒ, kₒ, jₒ, mₒ]], [(1, [aᵥ, bᵥ, cᵥ, dᵥ, iₒ, jₒ, kₒ, lₒ]), (-1, [aᵥ, bᵥ, cᵥ, dᵥ, iₒ, jₒ, lₒ, kₒ]), (-1, [aᵥ, bᵥ, dᵥ, cᵥ, iₒ, jₒ, kₒ, lₒ]), (1, [aᵥ, bᵥ, dᵥ, cᵥ, iₒ, jₒ, lₒ, kₒ])]⟩,
  -- line 4464: mnef,ecil,afbdmknj->abcdijkl
  ⟨9999999999999/20000000000000, [g_abab [mₒ, nₒ, eᵥ, fᵥ], t2_abab [eᵥ, cᵥ, iₒ, lₒ], t4_abbbabbb [aᵥ, fᵥ, bᵥ, dᵥ, mₒ, kₒ, nₒ, jₒ]], [(1, [aᵥ, bᵥ, cᵥ, dᵥ, iₒ, jₒ, kₒ, lₒ]), (-1, [aᵥ, bᵥ, cᵥ, dᵥ, iₒ, jₒ, lₒ, kₒ]), (-1, [aᵥ, bᵥ, dᵥ, cᵥ, iₒ, jₒ, kₒ, lₒ]), (1, [aᵥ, bᵥ, dᵥ, cᵥ, iₒ, jₒ, lₒ, kₒ])]⟩,
  -- line 4468: nmfe,ecjk,fabdinlm->abcdijkl
  ⟨-9999999999999/20000000000000, [g_abab [nₒ, mₒ, fᵥ, eᵥ], t2_bbbb [eᵥ, cᵥ, jₒ, kₒ], t4_aabbaabb [fᵥ, aᵥ, bᵥ, dᵥ, iₒ, nₒ, lₒ, mₒ]], [(1, [aᵥ, bᵥ, cᵥ, dᵥ, iₒ, jₒ, kₒ, lₒ]), (-1, [aᵥ, bᵥ, dᵥ, cᵥ, iₒ, jₒ, kₒ, lₒ])]⟩,
  -- line 4472: mnfe,ecjk,fabdimnl->abcdijkl
  ⟨9999999999999/20000000000000, [g_abab [mₒ, nₒ, fᵥ, eᵥ], t2_bbbb [eᵥ, cᵥ, jₒ, kₒ], t4_aabbaabb [fᵥ, aᵥ, bᵥ, dᵥ, iₒ, mₒ, nₒ, lₒ]], [(1, [aᵥ, bᵥ, cᵥ, dᵥ, iₒ, jₒ, kₒ, lₒ]), (-1, [aᵥ, bᵥ, dᵥ, cᵥ, iₒ, jₒ, kₒ, lₒ])]⟩,
  -- line 4476: nmef,ecjk,afbdilnm->abcdijkl
  ⟨9999999999999/20000000000000, [g_bbbb [nₒ, mₒ, eᵥ, fᵥ], t2_bbbb [eᵥ, cᵥ, jₒ, kₒ], t4_abbbabbb [aᵥ, fᵥ, bᵥ, dᵥ, iₒ, lₒ, nₒ, mₒ]], [(1, [aᵥ, bᵥ, cᵥ, dᵥ, iₒ, jₒ, kₒ, lₒ]), (-1, [aᵥ, bᵥ, dᵥ, cᵥ, iₒ, jₒ, kₒ, lₒ])]⟩,
  -- line 4480: nmef,ecij,fabdnmkl->abcdijkl
  ⟨-9999999999999/20000000000000, [g_aaaa [nₒ, mₒ, eᵥ, fᵥ], t2_abab [eᵥ, cᵥ, iₒ, jₒ], t4_aabbaabb [fᵥ, aᵥ, bᵥ, dᵥ, nₒ, mₒ, kₒ, lₒ]], [(1, [aᵥ, bᵥ, cᵥ, dᵥ, iₒ, jₒ, kₒ, lₒ]), (-1, [aᵥ, bᵥ, dᵥ, cᵥ, iₒ, jₒ, kₒ, lₒ])]⟩,
  -- line 4484: nmef,ecij,afbdnlkm->abcdijkl
  ⟨-9999999999999/20000000000000, [g_abab [nₒ, mₒ, eᵥ, fᵥ], t2_abab [eᵥ, cᵥ, iₒ, jₒ], t4_abbbabbb [aᵥ, fᵥ, bᵥ, dᵥ, nₒ, lₒ, kₒ, mₒ]], [(1, [aᵥ, bᵥ, cᵥ, dᵥ, iₒ, jₒ, kₒ, lₒ]), (-1, [aᵥ, bᵥ, dᵥ, cᵥ, iₒ, jₒ, kₒ, lₒ])]⟩,
  -- line 4488: mnef,ecij,afbdmlnk->abcdijkl
  ⟨9999999999999/20000000000000, [g_abab [mₒ, nₒ, eᵥ, fᵥ], t2_abab [eᵥ, cᵥ, iₒ, jₒ], t4_abbbabbb [aᵥ, fᵥ, bᵥ, dᵥ, mₒ, lₒ, nₒ, kₒ]], [(1, [aᵥ, bᵥ, cᵥ, dᵥ, iₒ, jₒ, kₒ, lₒ]), (-1, [aᵥ, bᵥ, dᵥ, cᵥ, iₒ, jₒ, kₒ, lₒ])]⟩,
  -- line 4492: nmef,abnm,efcdijkl->abcdijkl
  ⟨25000000000001/100000000000000, [g_abab [nₒ, mₒ, eᵥ, fᵥ], t2_abab [aᵥ, bᵥ, nₒ, mₒ], t4_abbbabbb [eᵥ, fᵥ, cᵥ, dᵥ, iₒ, jₒ, kₒ, lₒ]], [(1, [aᵥ, bᵥ, cᵥ, dᵥ, iₒ, jₒ, kₒ, lₒ]), (-1, [aᵥ, cᵥ, bᵥ, dᵥ, iₒ, jₒ, kₒ, lₒ])]⟩,
  -- line 4496: nmfe,abnm,fecdijkl->abcdijkl
  ⟨25000000000001/100000000000000, [g_abab [nₒ, mₒ, fᵥ, eᵥ], t2_abab [aᵥ, bᵥ, nₒ, mₒ], t4_abbbabbb [fᵥ, eᵥ, cᵥ, dᵥ, iₒ, jₒ, kₒ, lₒ]], [(1, [aᵥ, bᵥ, cᵥ, dᵥ, iₒ, jₒ, kₒ, lₒ]), (-1, [aᵥ, cᵥ, bᵥ, dᵥ, iₒ, jₒ, kₒ, lₒ])]⟩,
  -- line 4500: mnef,abmn,efcdijkl->abcdijkl
  ⟨25000000000001/100000000000000, [g_abab [mₒ, nₒ, eᵥ, fᵥ], t2_abab [aᵥ, bᵥ, mₒ, nₒ], t4_abbbabbb [eᵥ, fᵥ, cᵥ, dᵥ, iₒ, jₒ, kₒ, lₒ]], [(1, [aᵥ, bᵥ, cᵥ, dᵥ, iₒ, jₒ, kₒ, lₒ]), (-1, [aᵥ, cᵥ, bᵥ, dᵥ, iₒ, jₒ, kₒ, lₒ])]⟩,
  -- line 4504: mnfe,abmn,fecdijkl->abcdijkl
  ⟨25000000000001/100000000000000, [g_abab [mₒ, nₒ, fᵥ, eᵥ], t2_abab [aᵥ, bᵥ, mₒ, nₒ], t4_abbbabbb [fᵥ, eᵥ, cᵥ, dᵥ, iₒ, jₒ, kₒ, lₒ]], [(1, [aᵥ, bᵥ, cᵥ, dᵥ, iₒ, jₒ, kₒ, lₒ]), (-1, [aᵥ, cᵥ, bᵥ, dᵥ, iₒ, jₒ, kₒ, lₒ])]⟩,
  -- line 4508: nmef,abml,efcdinkj->abcdijkl
  ⟨-9999999999999/20000000000000, [g_aaaa [nₒ, mₒ, eᵥ, fᵥ], t2_abab [aᵥ, bᵥ, mₒ, lₒ], t4_aabbaabb [eᵥ, fᵥ, cᵥ, dᵥ, iₒ, nₒ, kₒ, jₒ]], [(1, [aᵥ, bᵥ, cᵥ, dᵥ, iₒ, jₒ, kₒ, lₒ]), (-1, [aᵥ, bᵥ, cᵥ, dᵥ, iₒ, jₒ, lₒ, kₒ]), (-1, [aᵥ, cᵥ, bᵥ, dᵥ, iₒ, jₒ, kₒ, lₒ]), (1, [aᵥ, cᵥ, bᵥ, dᵥ, iₒ, jₒ, lₒ, kₒ])]⟩,
  -- line 4512: mnef,abml,efcdijkn->abcdijkl
  ⟨-9999999999999/20000000000000, [g_abab [mₒ, nₒ, eᵥ, fᵥ], t2_abab [aᵥ, bᵥ, mₒ, lₒ], t4_abbbabbb [eᵥ, fᵥ, cᵥ, dᵥ, iₒ, jₒ, kₒ, nₒ]], [(1, [aᵥ, bᵥ, cᵥ, dᵥ, iₒ, jₒ, kₒ, lₒ]), (-1, [aᵥ, bᵥ, cᵥ, dᵥ, iₒ, jₒ, lₒ, kₒ]), (-1, [aᵥ, cᵥ, bᵥ, dᵥ, iₒ, jₒ, kₒ, lₒ]), (1, [aᵥ, cᵥ, bᵥ, dᵥ, iₒ, jₒ, lₒ, kₒ])]⟩
  ]

/-- Part 3 of `ccdq_t4_abbbabbb`. -/
def ccdq_t4_abbbabbb_3 : Prog := [
  -- line 4516: mnfe,abml,fecdijkn->abcdijkl
  ⟨-9999999999999/20000000000000, [g_abab [mₒ, nₒ, fᵥ, eᵥ], t2_abab [aᵥ, bᵥ, mₒ, lₒ], t4_abbbabbb [fᵥ, eᵥ, cᵥ, dᵥ, iₒ, jₒ, kₒ, nₒ]], [(1, [aᵥ, bᵥ, cᵥ, dᵥ, iₒ, jₒ, kₒ, lₒ]), (-1, [aᵥ, bᵥ, cᵥ, dᵥ, iₒ, jₒ, lₒ, kₒ]), (-1, [aᵥ, cᵥ, bᵥ, dᵥ, iₒ, jₒ, kₒ, lₒ]), (1, [aᵥ, cᵥ, bᵥ, dᵥ, iₒ, jₒ, lₒ, kₒ])]⟩,
  -- line 4520: nmef,abmj,efcdinlk->abcdijkl
  ⟨-9999999999999/20000000000000, [g_aaaa [nₒ, mₒ, eᵥ, fᵥ], t2_abab [aᵥ, bᵥ, mₒ, jₒ], t4_aabbaabb [eᵥ, fᵥ, cᵥ, dᵥ, iₒ, nₒ, lₒ, kₒ]], [(1, [aᵥ, bᵥ, cᵥ, dᵥ, iₒ, jₒ, kₒ, lₒ]), (-1, [aᵥ, cᵥ, bᵥ, dᵥ, iₒ, jₒ, kₒ, lₒ])]⟩,
  -- line 4524: mnef,abmj,efcdikln->abcdijkl
  ⟨-9999999999999/20000000000000, [g_abab [mₒ, nₒ, eᵥ, fᵥ], t2_abab [aᵥ, bᵥ, mₒ, jₒ], t4_abbbabbb [eᵥ, fᵥ, cᵥ, dᵥ, iₒ, kₒ, lₒ, nₒ]], [(1, [aᵥ, bᵥ, cᵥ, dᵥ, iₒ, jₒ, kₒ, lₒ]), (-1, [aᵥ, cᵥ, bᵥ, dᵥ, iₒ, jₒ, kₒ, lₒ])]⟩,
  -- line 4528: mnfe,abmj,fecdikln->abcdijkl
  ⟨-9999999999999/20000000000000, [g_abab [mₒ, nₒ, fᵥ, eᵥ], t2_abab [aᵥ, bᵥ, mₒ, jₒ], t4_abbbabbb [fᵥ, eᵥ, cᵥ, dᵥ, iₒ, kₒ, lₒ, nₒ]], [(1, [aᵥ, bᵥ, cᵥ, dᵥ, iₒ, jₒ, kₒ, lₒ]), (-1, [aᵥ, cᵥ, bᵥ, dᵥ, iₒ, jₒ, kₒ, lₒ])]⟩,
  -- line 4532: nmef,abim,efcdnklj->abcdijkl
  ⟨-9999999999999/20000000000000, [g_abab [nₒ, mₒ, eᵥ, fᵥ], t2_abab [aᵥ, bᵥ, iₒ, mₒ], t4_abbbabbb [eᵥ, fᵥ, cᵥ, dᵥ, nₒ, kₒ, lₒ, jₒ]], [(1, [aᵥ, bᵥ, cᵥ, dᵥ, iₒ, jₒ, kₒ, lₒ]), (-1, [aᵥ, cᵥ, bᵥ, dᵥ, iₒ, jₒ, kₒ, lₒ])]⟩,
  -- line 4536: nmfe,abim,fecdnklj->abcdijkl
  ⟨-9999999999999/20000000000000, [g_abab [nₒ, mₒ, fᵥ, eᵥ], t2_abab [aᵥ, bᵥ, iₒ, mₒ], t4_abbbabbb [fᵥ, eᵥ, cᵥ, dᵥ, nₒ, kₒ, lₒ, jₒ]], [(1, [aᵥ, bᵥ, cᵥ, dᵥ, iₒ, jₒ, kₒ, lₒ]), (-1, [aᵥ, cᵥ, bᵥ, dᵥ, iₒ, jₒ, kₒ, lₒ])]⟩,
  -- line 4540: nmef,abim,efcdjkln->abcdijkl
  ⟨9999999999999/20000000000000, [g_bbbb [nₒ, mₒ, eᵥ, fᵥ], t2_abab [aᵥ, bᵥ, iₒ, mₒ], t4_bbbbbbbb [eᵥ, fᵥ, cᵥ, dᵥ, jₒ, kₒ, lₒ, nₒ]], [(1, [aᵥ, bᵥ, cᵥ, dᵥ, iₒ, jₒ, kₒ, lₒ]), (-1, [aᵥ, cᵥ, bᵥ, dᵥ, iₒ, jₒ, kₒ, lₒ])]⟩,
  -- line 4544: nmef,adnm,efbcijkl->abcdijkl
  ⟨25000000000001/100000000000000, [g_abab [nₒ, mₒ, eᵥ, fᵥ], t2_abab [aᵥ, dᵥ, nₒ, mₒ], t4_abbbabbb [eᵥ, fᵥ, bᵥ, cᵥ, iₒ, jₒ, kₒ, lₒ]], [(1, [aᵥ, bᵥ, cᵥ, dᵥ, iₒ, jₒ, kₒ, lₒ])]⟩,
  -- line 4547: nmfe,adnm,febcijkl->abcdijkl
  ⟨25000000000001/100000000000000, [g_abab [nₒ, mₒ, fᵥ, eᵥ], t2_abab [aᵥ, dᵥ, nₒ, mₒ], t4_abbbabbb [fᵥ, eᵥ, bᵥ, cᵥ, iₒ, jₒ, kₒ, lₒ]], [(1, [aᵥ, bᵥ, cᵥ, dᵥ, iₒ, jₒ, kₒ, lₒ])]⟩,
  -- line 4550: mnef,admn,efbcijkl->abcdijkl
  ⟨25000000000001/100000000000000, [g_abab [mₒ, nₒ, eᵥ, fᵥ], t2_abab [aᵥ, dᵥ, mₒ, nₒ], t4_abbbabbb [eᵥ, fᵥ, bᵥ, cᵥ, iₒ, jₒ, kₒ, lₒ]], [(1, [aᵥ, bᵥ, cᵥ, dᵥ, iₒ, jₒ, kₒ, lₒ])]⟩,
  -- line 4553: mnfe,admn,febcijkl->abcdijkl
  ⟨25000000000001/100000000000000, [g_abab [mₒ, nₒ, fᵥ, eᵥ], t2_abab [aᵥ, dᵥ, mₒ, nₒ], t4_abbbabbb [fᵥ, eᵥ, bᵥ, cᵥ, iₒ, jₒ, kₒ, lₒ]], [(1, [aᵥ, bᵥ, cᵥ, dᵥ, iₒ, jₒ, kₒ, lₒ])]⟩,
  -- line 4556: nmef,bdnm,afecijkl->abcdijkl
  ⟨25000000000001/100000000000000, [g_bbbb [nₒ, mₒ, eᵥ, fᵥ], t2_bbbb [bᵥ, dᵥ, nₒ, mₒ], t4_abbbabbb [aᵥ, fᵥ, eᵥ, cᵥ, iₒ, jₒ, kₒ, lₒ]], [(1, [aᵥ, bᵥ, cᵥ, dᵥ, iₒ, jₒ, kₒ, lₒ])]⟩,
  -- line 4559: nmef,adml,efbcinkj->abcdijkl
  ⟨-9999999999999/20000000000000, [g_aaaa [nₒ, mₒ, eᵥ, fᵥ], t2_abab [aᵥ, dᵥ, mₒ, lₒ], t4_aabbaabb [eᵥ, fᵥ, bᵥ, cᵥ, iₒ, nₒ, kₒ, jₒ]], [(1, [aᵥ, bᵥ, cᵥ, dᵥ, iₒ, jₒ, kₒ, lₒ]), (-1, [aᵥ, bᵥ, cᵥ, dᵥ, iₒ, jₒ, lₒ, kₒ])]⟩,
  -- line 4563: mnef,adml,efbcijkn->abcdijkl
  ⟨-9999999999999/20000000000000, [g_abab [mₒ, nₒ, eᵥ, fᵥ], t2_abab [aᵥ, dᵥ, mₒ, lₒ], t4_abbbabbb [eᵥ, fᵥ, bᵥ, cᵥ, iₒ, jₒ, kₒ, nₒ]], [(1, [aᵥ, bᵥ, cᵥ, dᵥ, iₒ, jₒ, kₒ, lₒ]), (-1, [aᵥ, bᵥ, cᵥ, dᵥ, iₒ, jₒ, lₒ, kₒ])]⟩,
  -- line 4567: mnfe,adml,febcijkn->abcdijkl
  ⟨-9999999999999/20000000000000, [g_abab [mₒ, nₒ, fᵥ, eᵥ], t2_abab [aᵥ, dᵥ, mₒ, lₒ], t4_abbbabbb [fᵥ, eᵥ, bᵥ, cᵥ, iₒ, jₒ, kₒ, nₒ]], [(1, [aᵥ, bᵥ, cᵥ, dᵥ, iₒ, jₒ, kₒ, lₒ]), (-1, [aᵥ, bᵥ, cᵥ, dᵥ, iₒ, jₒ, lₒ, kₒ])]⟩,
  -- line 4571: nmef,bdlm,eafcinkj->abcdijkl
  ⟨9999999999999/20000000000000, [g_abab [nₒ, mₒ, eᵥ, fᵥ], t2_bbbb [bᵥ, dᵥ, lₒ, mₒ], t4_aabbaabb [eᵥ, aᵥ, fᵥ, cᵥ, iₒ, nₒ, kₒ, jₒ]], [(1, [aᵥ, bᵥ, cᵥ, dᵥ, iₒ, jₒ, kₒ, lₒ]), (-1, [aᵥ, bᵥ, cᵥ, dᵥ, iₒ, jₒ, lₒ, kₒ])]⟩,
  -- line 4575: nmfe,bdlm,afecinkj->abcdijkl
  ⟨-9999999999999/20000000000000, [g_abab [nₒ, mₒ, fᵥ, eᵥ], t2_bbbb [bᵥ, dᵥ, lₒ, mₒ], t4_aabbaabb [aᵥ, fᵥ, eᵥ, cᵥ, iₒ, nₒ, kₒ, jₒ]], [(1, [aᵥ, bᵥ, cᵥ, dᵥ, iₒ, jₒ, kₒ, lₒ]), (-1, [aᵥ, bᵥ, cᵥ, dᵥ, iₒ, jₒ, lₒ, kₒ])]⟩,
  -- line 4579: nmef,bdlm,afecijkn->abcdijkl
  ⟨-9999999999999/20000000000000, [g_bbbb [nₒ, mₒ, eᵥ, fᵥ], t2_bbbb [bᵥ, dᵥ, lₒ, mₒ], t4_abbbabbb [aᵥ, fᵥ, eᵥ, cᵥ, iₒ, jₒ, kₒ, nₒ]], [(1, [aᵥ, bᵥ, cᵥ, dᵥ, iₒ, jₒ, kₒ, lₒ]), (-1, [aᵥ, bᵥ, cᵥ, dᵥ, iₒ, jₒ, lₒ, kₒ])]⟩,
  -- line 4583: nmef,admj,efbcinlk->abcdijkl
  ⟨-9999999999999/20000000000000, [g_aaaa [nₒ, mₒ, eᵥ, fᵥ], t2_abab [aᵥ, dᵥ, mₒ, jₒ], t4_aabbaabb [eᵥ, fᵥ, bᵥ, cᵥ, iₒ, nₒ, lₒ, kₒ]], [(1, [aᵥ, bᵥ, cᵥ, dᵥ, iₒ, jₒ, kₒ, lₒ])]⟩,
  -- line 4586: mnef,admj,efbcikln->abcdijkl
  ⟨-9999999999999/20000000000000, [g_abab [mₒ, nₒ, eᵥ, fᵥ], t2_abab [aᵥ, dᵥ, mₒ, jₒ], t4_abbbabbb [eᵥ, fᵥ, bᵥ, cᵥ, iₒ, kₒ, lₒ, nₒ]], [(1, [aᵥ, bᵥ, cᵥ, dᵥ, iₒ, jₒ, kₒ, lₒ])]⟩,
  -- line 4589: mnfe,admj,febcikln->abcdijkl
  ⟨-9999999999999/20000000000000, [g_abab [mₒ, nₒ, fᵥ, eᵥ], t2_abab [aᵥ, dᵥ, mₒ, jₒ], t4_abbbabbb [fᵥ, eᵥ, bᵥ, cᵥ, iₒ, kₒ, lₒ, nₒ]], [(1, [aᵥ, bᵥ, cᵥ, dᵥ, iₒ, jₒ, kₒ, lₒ])]⟩,
  -- line 4592: nmef,bdjm,eafcinlk->abcdijkl
  ⟨9999999999999/20000000000000, [g_abab [nₒ, mₒ, eᵥ, fᵥ], t2_bbbb [bᵥ, dᵥ, jₒ, mₒ], t4_aabbaabb [eᵥ, aᵥ, fᵥ, cᵥ, iₒ, nₒ, lₒ, kₒ]], [(1, [aᵥ, bᵥ, cᵥ, dᵥ, iₒ, jₒ, kₒ, lₒ])]⟩,
  -- line 4595: nmfe,bdjm,afecinlk->abcdijkl
  ⟨-9999999999999/20000000000000, [g_abab [nₒ, mₒ, fᵥ, eᵥ], t2_bbbb [bᵥ, dᵥ, jₒ, mₒ], t4_aabbaabb [aᵥ, fᵥ, eᵥ, cᵥ, iₒ, nₒ, lₒ, kₒ]], [(1, [aᵥ, bᵥ, cᵥ, dᵥ, iₒ, jₒ, kₒ, lₒ])]⟩,
  -- line 4598: nmef,bdjm,afecikln->abcdijkl
  ⟨-9999999999999/20000000000000, [g_bbbb [nₒ, mₒ, eᵥ, fᵥ], t2_bbbb [bᵥ, dᵥ, jₒ, mₒ], t4_abbbabbb [aᵥ, fᵥ, eᵥ, cᵥ, iₒ, kₒ, lₒ, nₒ]], [(1, [aᵥ, bᵥ, cᵥ, dᵥ, iₒ, jₒ, kₒ, lₒ])]⟩,
  -- line 4601: nmef,adim,efbcnklj->abcdijkl
  ⟨-9999999999999/20000000000000, [g_abab [nₒ, mₒ, eᵥ, fᵥ], t2_abab [aᵥ, dᵥ, iₒ, mₒ], t4_abbbabbb [eᵥ, fᵥ, bᵥ, cᵥ, nₒ, kₒ, lₒ, jₒ]], [(1, [aᵥ, bᵥ, cᵥ, dᵥ, iₒ, jₒ, kₒ, lₒ])]⟩,
  -- line 4604: nmfe,adim,febcnklj->abcdijkl
  ⟨-9999999999999/20000000000000, [g_abab [nₒ, mₒ, fᵥ, eᵥ], t2_abab [aᵥ, dᵥ, iₒ, mₒ], t4_abbbabbb [fᵥ, eᵥ, bᵥ, cᵥ, nₒ, kₒ, lₒ, jₒ]], [(1, [aᵥ, bᵥ, cᵥ, dᵥ, iₒ, jₒ, kₒ, lₒ])]⟩,
  -- line 4607: nmef,adim,efbcjkln->abcdijkl
  ⟨9999999999999/20000000000000, [g_bbbb [nₒ, mₒ, eᵥ, fᵥ], t2_abab [aᵥ, dᵥ, iₒ, mₒ], t4_bbbbbbbb [eᵥ, fᵥ, bᵥ, cᵥ, jₒ, kₒ, lₒ, nₒ]], [(1, [aᵥ, bᵥ, cᵥ, dᵥ, iₒ, jₒ, kₒ, lₒ])]⟩,
  -- line 4610: nmef,bcnm,afedijkl->abcdijkl
  ⟨-25000000000001/100000000000000, [g_bbbb [nₒ, mₒ, eᵥ, fᵥ], t2_bbbb [bᵥ, cᵥ, nₒ, mₒ], t4_abbbabbb [aᵥ, fᵥ, eᵥ, dᵥ, iₒ, jₒ, kₒ, lₒ]], [(1, [aᵥ, bᵥ, cᵥ, dᵥ, iₒ, jₒ, kₒ, lₒ]), (-1, [aᵥ, dᵥ, cᵥ, bᵥ, iₒ, jₒ, kₒ, lₒ])]⟩,
  -- line 4614: nmef,bclm,eafdinkj->abcdijkl
  ⟨-9999999999999/20000000000000, [g_abab [nₒ, mₒ, eᵥ, fᵥ], t2_bbbb [bᵥ, cᵥ, lₒ, mₒ], t4_aabbaabb [eᵥ, aᵥ, fᵥ, dᵥ, iₒ, nₒ, kₒ, jₒ]], [(1, [aᵥ, bᵥ, cᵥ, dᵥ, iₒ, jₒ, kₒ, lₒ]), (-1, [aᵥ, bᵥ, cᵥ, dᵥ, iₒ, jₒ, lₒ, kₒ]), (-1, [aᵥ, dᵥ, cᵥ, bᵥ, iₒ, jₒ, kₒ, lₒ]), (1, [aᵥ, dᵥ, cᵥ, bᵥ, iₒ, jₒ, lₒ, kₒ])]⟩,
  -- line 4618: nmfe,bclm,afedinkj->abcdijkl
  ⟨9999999999999/20000000000000, [g_abab [nₒ, mₒ, fᵥ, eᵥ], t2_bbbb [bᵥ, cᵥ, lₒ, mₒ], t4_aabbaabb [aᵥ, fᵥ, eᵥ, dᵥ, iₒ, nₒ, kₒ, jₒ]], [(1, [aᵥ, bᵥ, cᵥ, dᵥ, iₒ, jₒ, kₒ, lₒ]), (-1, [aᵥ, bᵥ, cᵥ, dᵥ, iₒ, jₒ, lₒ, kₒ]), (-1, [aᵥ, dᵥ, cᵥ, bᵥ, iₒ, jₒ, kₒ, lₒ]), (1, [aᵥ, dᵥ, cᵥ, bᵥ, iₒ, jₒ, lₒ, kₒ])]⟩,
  -- line 4622: nmef,bclm,afedijkn->abcdijkl
  ⟨9999999999999/20000000000000, [g_bbbb [nₒ, mₒ, eᵥ, fᵥ], t2_bbbb [bᵥ, cᵥ, lₒ, mₒ], t4_abbbabbb [aᵥ, fᵥ, eᵥ, dᵥ, iₒ, jₒ, kₒ, nₒ]], [(1, [aᵥ, bᵥ, cᵥ, dᵥ, iₒ, jₒ, kₒ, lₒ]), (-1, [aᵥ, bᵥ, cᵥ, dᵥ, iₒ, jₒ, lₒ, kₒ]), (-1, [aᵥ, dᵥ, cᵥ, bᵥ, iₒ, jₒ, kₒ, lₒ]), (1, [aᵥ, dᵥ, cᵥ, bᵥ, iₒ, jₒ, lₒ, kₒ])]⟩,
  -- line 4626: nmef,bcjm,eafdinlk->abcdijkl
  ⟨-9999999999999/20000000000000, [g_abab [nₒ, mₒ, eᵥ, fᵥ], t2_bbbb [bᵥ, cᵥ, jₒ, mₒ], t4_aabbaabb [eᵥ, aᵥ, fᵥ, dᵥ, iₒ, nₒ, lₒ, kₒ]], [(1, [aᵥ, bᵥ, cᵥ, dᵥ, iₒ, jₒ, kₒ, lₒ]), (-1, [aᵥ, dᵥ, cᵥ, bᵥ, iₒ, jₒ, kₒ, lₒ])]⟩,
  -- line 4630: nmfe,bcjm,afedinlk->abcdijkl
  ⟨9999999999999/20000000000000, [g_abab [nₒ, mₒ, fᵥ, eᵥ], t2_bbbb [bᵥ, cᵥ, jₒ, mₒ], t4_aabbaabb [aᵥ, fᵥ, eᵥ, dᵥ, iₒ, nₒ, lₒ, kₒ]], [(1, [aᵥ, bᵥ, cᵥ, dᵥ, iₒ, jₒ, kₒ, lₒ]), (-1, [aᵥ, dᵥ, cᵥ, bᵥ, iₒ, jₒ, kₒ, lₒ])]⟩,
  -- line 4634: nmef,bcjm,afedikln->abcdijkl
  ⟨9999999999999/20000000000000, [g_bbbb [nₒ, mₒ, eᵥ, fᵥ], t2_bbbb [bᵥ, cᵥ, jₒ, mₒ], t4_abbbabbb [aᵥ, fᵥ, eᵥ, dᵥ, iₒ, kₒ, lₒ, nₒ]], [(1, [aᵥ, bᵥ, cᵥ, dᵥ, iₒ, jₒ, kₒ, lₒ]), (-1, [aᵥ, dᵥ, cᵥ, bᵥ, iₒ, jₒ, kₒ, lₒ])]⟩,
  -- line 4638: nmkl,abim,cdjn->abcdijkl
  ⟨1, [g_bbbb [nₒ, mₒ, kₒ, lₒ], t2_abab [aᵥ, bᵥ, iₒ, mₒ], t2_bbbb [cᵥ, dᵥ, jₒ, nₒ]], [(1, [aᵥ, bᵥ, cᵥ, dᵥ, iₒ, jₒ, kₒ, lₒ]), (-1, [aᵥ, cᵥ, bᵥ, dᵥ, iₒ, jₒ, kₒ, lₒ])]⟩,
  -- line 4642: nmkl,adim,bcjn->abcdijkl
  ⟨1, [g_bbbb [nₒ, mₒ, kₒ, lₒ], t2_abab [aᵥ, dᵥ, iₒ, mₒ], t2_bbbb [bᵥ, cᵥ, jₒ, nₒ]], [(1, [aᵥ, bᵥ, cᵥ, dᵥ, iₒ, jₒ, kₒ, lₒ])]⟩,
  -- line 4645: nmjl,abim,cdkn->abcdijkl
  ⟨-1, [g_bbbb [nₒ, mₒ, jₒ, lₒ], t2_abab [aᵥ, bᵥ, iₒ, mₒ], t2_bbbb [cᵥ, dᵥ, kₒ, nₒ]], [(1, [aᵥ, bᵥ, cᵥ, dᵥ, iₒ, jₒ, kₒ, lₒ]), (-1, [aᵥ, cᵥ, bᵥ, dᵥ, iₒ, jₒ, kₒ, lₒ])]⟩,
  -- line 4649: nmjl,adim,bckn->abcdijkl
  ⟨-1, [g_bbbb [nₒ, mₒ, jₒ, lₒ], t2_abab [aᵥ, dᵥ, iₒ, mₒ], t2_bbbb [bᵥ, cᵥ, kₒ, nₒ]], [(1, [aᵥ, bᵥ, cᵥ, dᵥ, iₒ, jₒ, kₒ, lₒ])]⟩,
  -- line 4652: mnil,abmk,cdjn->abcdijkl
  ⟨-1, [g_abab [mₒ, nₒ, iₒ, lₒ], t2_abab [aᵥ, bᵥ, mₒ, kₒ], t2_bbbb [cᵥ, dᵥ, jₒ, nₒ]], [(1, [aᵥ, bᵥ, cᵥ, dᵥ, iₒ, jₒ, kₒ, lₒ]), (-1, [aᵥ, bᵥ, cᵥ, dᵥ, iₒ, kₒ, jₒ, lₒ]), (-1, [aᵥ, cᵥ, bᵥ, dᵥ, iₒ, jₒ, kₒ, lₒ]), (1, [aᵥ, cᵥ, bᵥ, dᵥ, iₒ, kₒ, jₒ, lₒ])]⟩,
  -- line 4656: mnil,admk,bcjn->abcdijkl
  ⟨-1, [g_abab [mₒ, nₒ, iₒ, lₒ], t2_abab [aᵥ, dᵥ, mₒ, kₒ], t2_bbbb [bᵥ, cᵥ, jₒ, nₒ]], [(1, [aᵥ, bᵥ, cᵥ, dᵥ, iₒ, jₒ, kₒ, lₒ]), (-1, [aᵥ, bᵥ, cᵥ, dᵥ, iₒ, kₒ, jₒ, lₒ])]⟩
  ]

/-- Part 4 of `ccdq_t4_abbbabbb`. -/
def ccdq_t4_abbbabbb_4 : Prog := [
  -- line 4660: nmjk,abim,cdln->abcdijkl
  ⟨1, [g_bbbb [nₒ, mₒ, jₒ, kₒ], t2_abab [aᵥ, bᵥ, iₒ, mₒ], t2_bbbb [cᵥ, dᵥ, lₒ, nₒ]], [(1, [aᵥ, bᵥ, cᵥ, dᵥ, iₒ, jₒ, kₒ, lₒ]), (-1, [aᵥ, cᵥ, bᵥ, dᵥ, iₒ, jₒ, kₒ, lₒ])]⟩,
  -- line 4664: nmjk,adim,bcln->abcdijkl
  ⟨1, [g_bbbb [nₒ, mₒ, jₒ, kₒ], t2_abab [aᵥ, dᵥ, iₒ, mₒ], t2_bbbb [bᵥ, cᵥ, lₒ, nₒ]], [(1, [aᵥ, bᵥ, cᵥ, dᵥ, iₒ, jₒ, kₒ, lₒ])]⟩,
  -- line 4667: mnik,abml,cdjn->abcdijkl
  ⟨1, [g_abab [mₒ, nₒ, iₒ, kₒ], t2_abab [aᵥ, bᵥ, mₒ, lₒ], t2_bbbb [cᵥ, dᵥ, jₒ, nₒ]], [(1, [aᵥ, bᵥ, cᵥ, dᵥ, iₒ, jₒ, kₒ, lₒ]), (-1, [aᵥ, bᵥ, cᵥ, dᵥ, iₒ, lₒ, kₒ, jₒ]), (-1, [aᵥ, cᵥ, bᵥ, dᵥ, iₒ, jₒ, kₒ, lₒ]), (1, [aᵥ, cᵥ, bᵥ, dᵥ, iₒ, lₒ, kₒ, jₒ])]⟩,
  -- line 4671: mnik,adml,bcjn->abcdijkl
  ⟨1, [g_abab [mₒ, nₒ, iₒ, kₒ], t2_abab [aᵥ, dᵥ, mₒ, lₒ], t2_bbbb [bᵥ, cᵥ, jₒ, nₒ]], [(1, [aᵥ, bᵥ, cᵥ, dᵥ, iₒ, jₒ, kₒ, lₒ]), (-1, [aᵥ, bᵥ, cᵥ, dᵥ, iₒ, lₒ, kₒ, jₒ])]⟩,
  -- line 4675: mnij,abml,cdkn->abcdijkl
  ⟨-1, [g_abab [mₒ, nₒ, iₒ, jₒ], t2_abab [aᵥ, bᵥ, mₒ, lₒ], t2_bbbb [cᵥ, dᵥ, kₒ, nₒ]], [(1, [aᵥ, bᵥ, cᵥ, dᵥ, iₒ, jₒ, kₒ, lₒ]), (-1, [aᵥ, bᵥ, cᵥ, dᵥ, iₒ, jₒ, lₒ, kₒ]), (-1, [aᵥ, cᵥ, bᵥ, dᵥ, iₒ, jₒ, kₒ, lₒ]), (1, [aᵥ, cᵥ, bᵥ, dᵥ, iₒ, jₒ, lₒ, kₒ])]⟩,
  -- line 4679: mnij,adml,bckn->abcdijkl
  ⟨-1, [g_abab [mₒ, nₒ, iₒ, jₒ], t2_abab [aᵥ, dᵥ, mₒ, lₒ], t2_bbbb [bᵥ, cᵥ, kₒ, nₒ]], [(1, [aᵥ, bᵥ, cᵥ, dᵥ, iₒ, jₒ, kₒ, lₒ]), (-1, [aᵥ, bᵥ, cᵥ, dᵥ, iₒ, jₒ, lₒ, kₒ])]⟩,
  -- line 4683: amel,ebik,cdjm->abcdijkl
  ⟨1, [g_abab [aᵥ, mₒ, eᵥ, lₒ], t2_abab [eᵥ, bᵥ, iₒ, kₒ], t2_bbbb [cᵥ, dᵥ, jₒ, mₒ]], [(1, [aᵥ, bᵥ, cᵥ, dᵥ, iₒ, jₒ, kₒ, lₒ]), (-1, [aᵥ, cᵥ, bᵥ, dᵥ, iₒ, jₒ, kₒ, lₒ])]⟩,
  -- line 4687: amel,ebij,cdkm->abcdijkl
  ⟨-1, [g_abab [aᵥ, mₒ, eᵥ, lₒ], t2_abab [eᵥ, bᵥ, iₒ, jₒ], t2_bbbb [cᵥ, dᵥ, kₒ, mₒ]], [(1, [aᵥ, bᵥ, cᵥ, dᵥ, iₒ, jₒ, kₒ, lₒ]), (-1, [aᵥ, bᵥ, cᵥ, dᵥ, iₒ, jₒ, lₒ, kₒ]), (-1, [aᵥ, cᵥ, bᵥ, dᵥ, iₒ, jₒ, kₒ, lₒ]), (1, [aᵥ, cᵥ, bᵥ, dᵥ, iₒ, jₒ, lₒ, kₒ])]⟩,
  -- line 4691: mbel,edjk,acim->abcdijkl
  ⟨-1, [g_bbbb [mₒ, bᵥ, eᵥ, lₒ], t2_bbbb [eᵥ, dᵥ, jₒ, kₒ], t2_abab [aᵥ, cᵥ, iₒ, mₒ]], [(1, [aᵥ, bᵥ, cᵥ, dᵥ, iₒ, jₒ, kₒ, lₒ])]⟩,
  -- line 4694: amel,edik,bcjm->abcdijkl
  ⟨1, [g_abab [aᵥ, mₒ, eᵥ, lₒ], t2_abab [eᵥ, dᵥ, iₒ, kₒ], t2_bbbb [bᵥ, cᵥ, jₒ, mₒ]], [(1, [aᵥ, bᵥ, cᵥ, dᵥ, iₒ, jₒ, kₒ, lₒ])]⟩,
  -- line 4697: mbel,edik,acmj->abcdijkl
  ⟨-1, [g_abab [mₒ, bᵥ, eᵥ, lₒ], t2_abab [eᵥ, dᵥ, iₒ, kₒ], t2_abab [aᵥ, cᵥ, mₒ, jₒ]], [(1, [aᵥ, bᵥ, cᵥ, dᵥ, iₒ, jₒ, kₒ, lₒ])]⟩,
  -- line 4700: amel,edij,bckm->abcdijkl
  ⟨-1, [g_abab [aᵥ, mₒ, eᵥ, lₒ], t2_abab [eᵥ, dᵥ, iₒ, jₒ], t2_bbbb [bᵥ, cᵥ, kₒ, mₒ]], [(1, [aᵥ, bᵥ, cᵥ, dᵥ, iₒ, jₒ, kₒ, lₒ]), (-1, [aᵥ, bᵥ, cᵥ, dᵥ, iₒ, jₒ, lₒ, kₒ])]⟩,
  -- line 4704: mbel,edij,acmk->abcdijkl
  ⟨1, [g_abab [mₒ, bᵥ, eᵥ, lₒ], t2_abab [eᵥ, dᵥ, iₒ, jₒ], t2_abab [aᵥ, cᵥ, mₒ, kₒ]], [(1, [aᵥ, bᵥ, cᵥ, dᵥ, iₒ, jₒ, kₒ, lₒ]), (-1, [aᵥ, bᵥ, cᵥ, dᵥ, iₒ, jₒ, lₒ, kₒ])]⟩,
  -- line 4708: amek,ebil,cdjm->abcdijkl
  ⟨-1, [g_abab [aᵥ, mₒ, eᵥ, kₒ], t2_abab [eᵥ, bᵥ, iₒ, lₒ], t2_bbbb [cᵥ, dᵥ, jₒ, mₒ]], [(1, [aᵥ, bᵥ, cᵥ, dᵥ, iₒ, jₒ, kₒ, lₒ]), (-1, [aᵥ, cᵥ, bᵥ, dᵥ, iₒ, jₒ, kₒ, lₒ])]⟩,
  -- line 4712: mbek,edjl,acim->abcdijkl
  ⟨1, [g_bbbb [mₒ, bᵥ, eᵥ, kₒ], t2_bbbb [eᵥ, dᵥ, jₒ, lₒ], t2_abab [aᵥ, cᵥ, iₒ, mₒ]], [(1, [aᵥ, bᵥ, cᵥ, dᵥ, iₒ, jₒ, kₒ, lₒ])]⟩,
  -- line 4715: amek,edil,bcjm->abcdijkl
  ⟨-1, [g_abab [aᵥ, mₒ, eᵥ, kₒ], t2_abab [eᵥ, dᵥ, iₒ, lₒ], t2_bbbb [bᵥ, cᵥ, jₒ, mₒ]], [(1, [aᵥ, bᵥ, cᵥ, dᵥ, iₒ, jₒ, kₒ, lₒ])]⟩,
  -- line 4718: mbek,edil,acmj->abcdijkl
  ⟨1, [g_abab [mₒ, bᵥ, eᵥ, kₒ], t2_abab [eᵥ, dᵥ, iₒ, lₒ], t2_abab [aᵥ, cᵥ, mₒ, jₒ]], [(1, [aᵥ, bᵥ, cᵥ, dᵥ, iₒ, jₒ, kₒ, lₒ])]⟩,
  -- line 4721: amej,ebil,cdkm->abcdijkl
  ⟨1, [g_abab [aᵥ, mₒ, eᵥ, jₒ], t2_abab [eᵥ, bᵥ, iₒ, lₒ], t2_bbbb [cᵥ, dᵥ, kₒ, mₒ]], [(1, [aᵥ, bᵥ, cᵥ, dᵥ, iₒ, jₒ, kₒ, lₒ]), (-1, [aᵥ, cᵥ, bᵥ, dᵥ, iₒ, jₒ, kₒ, lₒ])]⟩,
  -- line 4725: amej,ebik,cdlm->abcdijkl
  ⟨-1, [g_abab [aᵥ, mₒ, eᵥ, jₒ], t2_abab [eᵥ, bᵥ, iₒ, kₒ], t2_bbbb [cᵥ, dᵥ, lₒ, mₒ]], [(1, [aᵥ, bᵥ, cᵥ, dᵥ, iₒ, jₒ, kₒ, lₒ]), (-1, [aᵥ, cᵥ, bᵥ, dᵥ, iₒ, jₒ, kₒ, lₒ])]⟩,
  -- line 4729: amie,ebjk,cdlm->abcdijkl
  ⟨-1, [g_abab [aᵥ, mₒ, iₒ, eᵥ], t2_bbbb [eᵥ, bᵥ, jₒ, kₒ], t2_bbbb [cᵥ, dᵥ, lₒ, mₒ]], [(1, [aᵥ, bᵥ, cᵥ, dᵥ, iₒ, jₒ, kₒ, lₒ]), (-1, [aᵥ, cᵥ, bᵥ, dᵥ, iₒ, jₒ, kₒ, lₒ])]⟩,
  -- line 4733: mbej,edkl,acim->abcdijkl
  ⟨-1, [g_bbbb [mₒ, bᵥ, eᵥ, jₒ], t2_bbbb [eᵥ, dᵥ, kₒ, lₒ], t2_abab [aᵥ, cᵥ, iₒ, mₒ]], [(1, [aᵥ, bᵥ, cᵥ, dᵥ, iₒ, jₒ, kₒ, lₒ])]⟩,
  -- line 4736: amej,edil,bckm->abcdijkl
  ⟨1, [g_abab [aᵥ, mₒ, eᵥ, jₒ], t2_abab [eᵥ, dᵥ, iₒ, lₒ], t2_bbbb [bᵥ, cᵥ, kₒ, mₒ]], [(1, [aᵥ, bᵥ, cᵥ, dᵥ, iₒ, jₒ, kₒ, lₒ])]⟩,
  -- line 4739: mbej,edil,acmk->abcdijkl
  ⟨-1, [g_abab [mₒ, bᵥ, eᵥ, jₒ], t2_abab [eᵥ, dᵥ, iₒ, lₒ], t2_abab [aᵥ, cᵥ, mₒ, kₒ]], [(1, [aᵥ, bᵥ, cᵥ, dᵥ, iₒ, jₒ, kₒ, lₒ])]⟩,
  -- line 4742: amej,edik,bclm->abcdijkl
  ⟨-1, [g_abab [aᵥ, mₒ, eᵥ, jₒ], t2_abab [eᵥ, dᵥ, iₒ, kₒ], t2_bbbb [bᵥ, cᵥ, lₒ, mₒ]], [(1, [aᵥ, bᵥ, cᵥ, dᵥ, iₒ, jₒ, kₒ, lₒ])]⟩,
  -- line 4745: mbej,edik,acml->abcdijkl
  ⟨1, [g_abab [mₒ, bᵥ, eᵥ, jₒ], t2_abab [eᵥ, dᵥ, iₒ, kₒ], t2_abab [aᵥ, cᵥ, mₒ, lₒ]], [(1, [aᵥ, bᵥ, cᵥ, dᵥ, iₒ, jₒ, kₒ, lₒ])]⟩,
  -- line 4748: amie,edjk,bclm->abcdijkl
  ⟨-1, [g_abab [aᵥ, mₒ, iₒ, eᵥ], t2_bbbb [eᵥ, dᵥ, jₒ, kₒ], t2_bbbb [bᵥ, cᵥ, lₒ, mₒ]], [(1, [aᵥ, bᵥ, cᵥ, dᵥ, iₒ, jₒ, kₒ, lₒ])]⟩,
  -- line 4751: mbie,edjk,acml->abcdijkl
  ⟨1, [g_abab [mₒ, bᵥ, iₒ, eᵥ], t2_bbbb [eᵥ, dᵥ, jₒ, kₒ], t2_abab [aᵥ, cᵥ, mₒ, lₒ]], [(1, [aᵥ, bᵥ, cᵥ, dᵥ, iₒ, jₒ, kₒ, lₒ])]⟩,
  -- line 4754: amie,ebkl,cdjm->abcdijkl
  ⟨-1, [g_abab [aᵥ, mₒ, iₒ, eᵥ], t2_bbbb [eᵥ, bᵥ, kₒ, lₒ], t2_bbbb [cᵥ, dᵥ, jₒ, mₒ]], [(1, [aᵥ, bᵥ, cᵥ, dᵥ, iₒ, jₒ, kₒ, lₒ]), (-1, [aᵥ, bᵥ, cᵥ, dᵥ, iₒ, kₒ, jₒ, lₒ]), (-1, [aᵥ, cᵥ, bᵥ, dᵥ, iₒ, jₒ, kₒ, lₒ]), (1, [aᵥ, cᵥ, bᵥ, dᵥ, iₒ, kₒ, jₒ, lₒ])]⟩,
  -- line 4758: amie,edkl,bcjm->abcdijkl
  ⟨-1, [g_abab [aᵥ, mₒ, iₒ, eᵥ], t2_bbbb [eᵥ, dᵥ, kₒ, lₒ], t2_bbbb [bᵥ, cᵥ, jₒ, mₒ]], [(1, [aᵥ, bᵥ, cᵥ, dᵥ, iₒ, jₒ, kₒ, lₒ]), (-1, [aᵥ, bᵥ, cᵥ, dᵥ, iₒ, kₒ, jₒ, lₒ])]⟩,
  -- line 4762: mbie,edkl,acmj->abcdijkl
  ⟨1, [g_abab [mₒ, bᵥ, iₒ, eᵥ], t2_bbbb [eᵥ, dᵥ, kₒ, lₒ], t2_abab [aᵥ, cᵥ, mₒ, jₒ]], [(1, [aᵥ, bᵥ, cᵥ, dᵥ, iₒ, jₒ, kₒ, lₒ]), (-1, [aᵥ, bᵥ, cᵥ, dᵥ, iₒ, kₒ, jₒ, lₒ])]⟩,
  -- line 4766: mbel,ecjk,adim->abcdijkl
  ⟨1, [g_bbbb [mₒ, bᵥ, eᵥ, lₒ], t2_bbbb [eᵥ, cᵥ, jₒ, kₒ], t2_abab [aᵥ, dᵥ, iₒ, mₒ]], [(1, [aᵥ, bᵥ, cᵥ, dᵥ, iₒ, jₒ, kₒ, lₒ])]⟩,
  -- line 4769: mbel,aeik,cdjm->abcdijkl
  ⟨-1, [g_bbbb [mₒ, bᵥ, eᵥ, lₒ], t2_abab [aᵥ, eᵥ, iₒ, kₒ], t2_bbbb [cᵥ, dᵥ, jₒ, mₒ]], [(1, [aᵥ, bᵥ, cᵥ, dᵥ, iₒ, jₒ, kₒ, lₒ])]⟩,
  -- line 4772: mbel,ecik,admj->abcdijkl
  ⟨1, [g_abab [mₒ, bᵥ, eᵥ, lₒ], t2_abab [eᵥ, cᵥ, iₒ, kₒ], t2_abab [aᵥ, dᵥ, mₒ, jₒ]], [(1, [aᵥ, bᵥ, cᵥ, dᵥ, iₒ, jₒ, kₒ, lₒ])]⟩,
  -- line 4775: mbel,aeij,cdkm->abcdijkl
  ⟨1, [g_bbbb [mₒ, bᵥ, eᵥ, lₒ], t2_abab [aᵥ, eᵥ, iₒ, jₒ], t2_bbbb [cᵥ, dᵥ, kₒ, mₒ]], [(1, [aᵥ, bᵥ, cᵥ, dᵥ, iₒ, jₒ, kₒ, lₒ]), (-1, [aᵥ, bᵥ, cᵥ, dᵥ, iₒ, jₒ, lₒ, kₒ])]⟩,
  -- line 4779: mbel,ecij,admk->abcdijkl
  ⟨-1, [g_abab [mₒ, bᵥ, eᵥ, lₒ], t2_abab [eᵥ, cᵥ, iₒ, jₒ], t2_abab [aᵥ, dᵥ, mₒ, kₒ]], [(1, [aᵥ, bᵥ, cᵥ, dᵥ, iₒ, jₒ, kₒ, lₒ]), (-1, [aᵥ, bᵥ, cᵥ, dᵥ, iₒ, jₒ, lₒ, kₒ])]⟩,
  -- line 4783: mbek,ecjl,adim->abcdijkl
  ⟨-1, [g_bbbb [mₒ, bᵥ, eᵥ, kₒ], t2_bbbb [eᵥ, cᵥ, jₒ, lₒ], t2_abab [aᵥ, dᵥ, iₒ, mₒ]], [(1, [aᵥ, bᵥ, cᵥ, dᵥ, iₒ, jₒ, kₒ, lₒ])]⟩,
  -- line 4786: mbek,aeil,cdjm->abcdijkl
  ⟨1, [g_bbbb [mₒ, bᵥ, eᵥ, kₒ], t2_abab [aᵥ, eᵥ, iₒ, lₒ], t2_bbbb [cᵥ, dᵥ, jₒ, mₒ]], [(1, [aᵥ, bᵥ, cᵥ, dᵥ, iₒ, jₒ, kₒ, lₒ])]⟩,
  -- line 4789: mbek,ecil,admj->abcdijkl
  ⟨-1, [g_abab [mₒ, bᵥ, eᵥ, kₒ], t2_abab [eᵥ, cᵥ, iₒ, lₒ], t2_abab [aᵥ, dᵥ, mₒ, jₒ]], [(1, [aᵥ, bᵥ, cᵥ, dᵥ, iₒ, jₒ, kₒ, lₒ])]⟩,
  -- line 4792: mbej,eckl,adim->abcdijkl
  ⟨1, [g_bbbb [mₒ, bᵥ, eᵥ, jₒ], t2_bbbb [eᵥ, cᵥ, kₒ, lₒ], t2_abab [aᵥ, dᵥ, iₒ, mₒ]], [(1, [aᵥ, bᵥ, cᵥ, dᵥ, iₒ, jₒ, kₒ, lₒ])]⟩,
  -- line 4795: mbej,aeil,cdkm->abcdijkl
  ⟨-1, [g_bbbb [mₒ, bᵥ, eᵥ, jₒ], t2_abab [aᵥ, eᵥ, iₒ, lₒ], t2_bbbb [cᵥ, dᵥ, kₒ, mₒ]], [(1, [aᵥ, bᵥ, cᵥ, dᵥ, iₒ, jₒ, kₒ, lₒ])]⟩
  ]

/-- Part 5 of `ccdq_t4_abbbabbb`. -/
def ccdq_t4_abbbabbb_5 : Prog := [
  -- line 4798: mbej,ecil,admk->abcdijkl
  ⟨1, [g_abab [mₒ, bᵥ, eᵥ, jₒ], t2_abab [eᵥ, cᵥ, iₒ, lₒ], t2_abab [aᵥ, dᵥ, mₒ, kₒ]], [(1, [aᵥ, bᵥ, cᵥ, dᵥ, iₒ, jₒ, kₒ, lₒ])]⟩,
  -- line 4801: mbej,aeik,cdlm->abcdijkl
  ⟨1, [g_bbbb [mₒ, bᵥ, eᵥ, jₒ], t2_abab [aᵥ, eᵥ, iₒ, kₒ], t2_bbbb [cᵥ, dᵥ, lₒ, mₒ]], [(1, [aᵥ, bᵥ, cᵥ, dᵥ, iₒ, jₒ, kₒ, lₒ])]⟩,
  -- line 4804: mbej,ecik,adml->abcdijkl
  ⟨-1, [g_abab [mₒ, bᵥ, eᵥ, jₒ], t2_abab [eᵥ, cᵥ, iₒ, kₒ], t2_abab [aᵥ, dᵥ, mₒ, lₒ]], [(1, [aᵥ, bᵥ, cᵥ, dᵥ, iₒ, jₒ, kₒ, lₒ])]⟩,
  -- line 4807: mbie,ecjk,adml->abcdijkl
  ⟨-1, [g_abab [mₒ, bᵥ, iₒ, eᵥ], t2_bbbb [eᵥ, cᵥ, jₒ, kₒ], t2_abab [aᵥ, dᵥ, mₒ, lₒ]], [(1, [aᵥ, bᵥ, cᵥ, dᵥ, iₒ, jₒ, kₒ, lₒ])]⟩,
  -- line 4810: mbie,eckl,admj->abcdijkl
  ⟨-1, [g_abab [mₒ, bᵥ, iₒ, eᵥ], t2_bbbb [eᵥ, cᵥ, kₒ, lₒ], t2_abab [aᵥ, dᵥ, mₒ, jₒ]], [(1, [aᵥ, bᵥ, cᵥ, dᵥ, iₒ, jₒ, kₒ, lₒ]), (-1, [aᵥ, bᵥ, cᵥ, dᵥ, iₒ, kₒ, jₒ, lₒ])]⟩,
  -- line 4814: mcel,ebjk,adim->abcdijkl
  ⟨-1, [g_bbbb [mₒ, cᵥ, eᵥ, lₒ], t2_bbbb [eᵥ, bᵥ, jₒ, kₒ], t2_abab [aᵥ, dᵥ, iₒ, mₒ]], [(1, [aᵥ, bᵥ, cᵥ, dᵥ, iₒ, jₒ, kₒ, lₒ])]⟩,
  -- line 4817: mcel,aeik,bdjm->abcdijkl
  ⟨1, [g_bbbb [mₒ, cᵥ, eᵥ, lₒ], t2_abab [aᵥ, eᵥ, iₒ, kₒ], t2_bbbb [bᵥ, dᵥ, jₒ, mₒ]], [(1, [aᵥ, bᵥ, cᵥ, dᵥ, iₒ, jₒ, kₒ, lₒ])]⟩,
  -- line 4820: mcel,ebik,admj->abcdijkl
  ⟨-1, [g_abab [mₒ, cᵥ, eᵥ, lₒ], t2_abab [eᵥ, bᵥ, iₒ, kₒ], t2_abab [aᵥ, dᵥ, mₒ, jₒ]], [(1, [aᵥ, bᵥ, cᵥ, dᵥ, iₒ, jₒ, kₒ, lₒ])]⟩,
  -- line 4823: mcel,aeij,bdkm->abcdijkl
  ⟨-1, [g_bbbb [mₒ, cᵥ, eᵥ, lₒ], t2_abab [aᵥ, eᵥ, iₒ, jₒ], t2_bbbb [bᵥ, dᵥ, kₒ, mₒ]], [(1, [aᵥ, bᵥ, cᵥ, dᵥ, iₒ, jₒ, kₒ, lₒ]), (-1, [aᵥ, bᵥ, cᵥ, dᵥ, iₒ, jₒ, lₒ, kₒ])]⟩,
  -- line 4827: mcel,ebij,admk->abcdijkl
  ⟨1, [g_abab [mₒ, cᵥ, eᵥ, lₒ], t2_abab [eᵥ, bᵥ, iₒ, jₒ], t2_abab [aᵥ, dᵥ, mₒ, kₒ]], [(1, [aᵥ, bᵥ, cᵥ, dᵥ, iₒ, jₒ, kₒ, lₒ]), (-1, [aᵥ, bᵥ, cᵥ, dᵥ, iₒ, jₒ, lₒ, kₒ])]⟩,
  -- line 4831: mcel,edjk,abim->abcdijkl
  ⟨1, [g_bbbb [mₒ, cᵥ, eᵥ, lₒ], t2_bbbb [eᵥ, dᵥ, jₒ, kₒ], t2_abab [aᵥ, bᵥ, iₒ, mₒ]], [(1, [aᵥ, bᵥ, cᵥ, dᵥ, iₒ, jₒ, kₒ, lₒ]), (-1, [aᵥ, bᵥ, dᵥ, cᵥ, iₒ, jₒ, kₒ, lₒ])]⟩,
  -- line 4835: mcel,edik,abmj->abcdijkl
  ⟨1, [g_abab [mₒ, cᵥ, eᵥ, lₒ], t2_abab [eᵥ, dᵥ, iₒ, kₒ], t2_abab [aᵥ, bᵥ, mₒ, jₒ]], [(1, [aᵥ, bᵥ, cᵥ, dᵥ, iₒ, jₒ, kₒ, lₒ]), (-1, [aᵥ, bᵥ, dᵥ, cᵥ, iₒ, jₒ, kₒ, lₒ])]⟩,
  -- line 4839: mcel,edij,abmk->abcdijkl
  ⟨-1, [g_abab [mₒ, cᵥ, eᵥ, lₒ], t2_abab [eᵥ, dᵥ, iₒ, jₒ], t2_abab [aᵥ, bᵥ, mₒ, kₒ]], [(1, [aᵥ, bᵥ, cᵥ, dᵥ, iₒ, jₒ, kₒ, lₒ]), (-1, [aᵥ, bᵥ, cᵥ, dᵥ, iₒ, jₒ, lₒ, kₒ]), (-1, [aᵥ, bᵥ, dᵥ, cᵥ, iₒ, jₒ, kₒ, lₒ]), (1, [aᵥ, bᵥ, dᵥ, cᵥ, iₒ, jₒ, lₒ, kₒ])]⟩,
  -- line 4843: mcek,ebjl,adim->abcdijkl
  ⟨1, [g_bbbb [mₒ, cᵥ, eᵥ, kₒ], t2_bbbb [eᵥ, bᵥ, jₒ, lₒ], t2_abab [aᵥ, dᵥ, iₒ, mₒ]], [(1, [aᵥ, bᵥ, cᵥ, dᵥ, iₒ, jₒ, kₒ, lₒ])]⟩,
  -- line 4846: mcek,aeil,bdjm->abcdijkl
  ⟨-1, [g_bbbb [mₒ, cᵥ, eᵥ, kₒ], t2_abab [aᵥ, eᵥ, iₒ, lₒ], t2_bbbb [bᵥ, dᵥ, jₒ, mₒ]], [(1, [aᵥ, bᵥ, cᵥ, dᵥ, iₒ, jₒ, kₒ, lₒ])]⟩,
  -- line 4849: mcek,ebil,admj->abcdijkl
  ⟨1, [g_abab [mₒ, cᵥ, eᵥ, kₒ], t2_abab [eᵥ, bᵥ, iₒ, lₒ], t2_abab [aᵥ, dᵥ, mₒ, jₒ]], [(1, [aᵥ, bᵥ, cᵥ, dᵥ, iₒ, jₒ, kₒ, lₒ])]⟩,
  -- line 4852: mcek,edjl,abim->abcdijkl
  ⟨-1, [g_bbbb [mₒ, cᵥ, eᵥ, kₒ], t2_bbbb [eᵥ, dᵥ, jₒ, lₒ], t2_abab [aᵥ, bᵥ, iₒ, mₒ]], [(1, [aᵥ, bᵥ, cᵥ, dᵥ, iₒ, jₒ, kₒ, lₒ]), (-1, [aᵥ, bᵥ, dᵥ, cᵥ, iₒ, jₒ, kₒ, lₒ])]⟩,
  -- line 4856: mcek,edil,abmj->abcdijkl
  ⟨-1, [g_abab [mₒ, cᵥ, eᵥ, kₒ], t2_abab [eᵥ, dᵥ, iₒ, lₒ], t2_abab [aᵥ, bᵥ, mₒ, jₒ]], [(1, [aᵥ, bᵥ, cᵥ, dᵥ, iₒ, jₒ, kₒ, lₒ]), (-1, [aᵥ, bᵥ, dᵥ, cᵥ, iₒ, jₒ, kₒ, lₒ])]⟩,
  -- line 4860: mcej,ebkl,adim->abcdijkl
  ⟨-1, [g_bbbb [mₒ, cᵥ, eᵥ, jₒ], t2_bbbb [eᵥ, bᵥ, kₒ, lₒ], t2_abab [aᵥ, dᵥ, iₒ, mₒ]], [(1, [aᵥ, bᵥ, cᵥ, dᵥ, iₒ, jₒ, kₒ, lₒ])]⟩,
  -- line 4863: mcej,aeil,bdkm->abcdijkl
  ⟨1, [g_bbbb [mₒ, cᵥ, eᵥ, jₒ], t2_abab [aᵥ, eᵥ, iₒ, lₒ], t2_bbbb [bᵥ, dᵥ, kₒ, mₒ]], [(1, [aᵥ, bᵥ, cᵥ, dᵥ, iₒ, jₒ, kₒ, lₒ])]⟩,
  -- line 4866: mcej,ebil,admk->abcdijkl
  ⟨-1, [g_abab [mₒ, cᵥ, eᵥ, jₒ], t2_abab [eᵥ, bᵥ, iₒ, lₒ], t2_abab [aᵥ, dᵥ, mₒ, kₒ]], [(1, [aᵥ, bᵥ, cᵥ, dᵥ, iₒ, jₒ, kₒ, lₒ])]⟩,
  -- line 4869: mcej,aeik,bdlm->abcdijkl
  ⟨-1, [g_bbbb [mₒ, cᵥ, eᵥ, jₒ], t2_abab [aᵥ, eᵥ, iₒ, kₒ], t2_bbbb [bᵥ, dᵥ, lₒ, mₒ]], [(1, [aᵥ, bᵥ, cᵥ, dᵥ, iₒ, jₒ, kₒ, lₒ])]⟩,
  -- line 4872: mcej,ebik,adml->abcdijkl
  ⟨1, [g_abab [mₒ, cᵥ, eᵥ, jₒ], t2_abab [eᵥ, bᵥ, iₒ, kₒ], t2_abab [aᵥ, dᵥ, mₒ, lₒ]], [(1, [aᵥ, bᵥ, cᵥ, dᵥ, iₒ, jₒ, kₒ, lₒ])]⟩,
  -- line 4875: mcie,ebjk,adml->abcdijkl
  ⟨1, [g_abab [mₒ, cᵥ, iₒ, eᵥ], t2_bbbb [eᵥ, bᵥ, jₒ, kₒ], t2_abab [aᵥ, dᵥ, mₒ, lₒ]], [(1, [aᵥ, bᵥ, cᵥ, dᵥ, iₒ, jₒ, kₒ, lₒ])]⟩,
  -- line 4878: mcej,edkl,abim->abcdijkl
  ⟨1, [g_bbbb [mₒ, cᵥ, eᵥ, jₒ], t2_bbbb [eᵥ, dᵥ, kₒ, lₒ], t2_abab [aᵥ, bᵥ, iₒ, mₒ]], [(1, [aᵥ, bᵥ, cᵥ, dᵥ, iₒ, jₒ, kₒ, lₒ]), (-1, [aᵥ, bᵥ, dᵥ, cᵥ, iₒ, jₒ, kₒ, lₒ])]⟩,
  -- line 4882: mcej,edil,abmk->abcdijkl
  ⟨1, [g_abab [mₒ, cᵥ, eᵥ, jₒ], t2_abab [eᵥ, dᵥ, iₒ, lₒ], t2_abab [aᵥ, bᵥ, mₒ, kₒ]], [(1, [aᵥ, bᵥ, cᵥ, dᵥ, iₒ, jₒ, kₒ, lₒ]), (-1, [aᵥ, bᵥ, dᵥ, cᵥ, iₒ, jₒ, kₒ, lₒ])]⟩,
  -- line 4886: mcej,edik,abml->abcdijkl
  ⟨-1, [g_abab [mₒ, cᵥ, eᵥ, jₒ], t2_abab [eᵥ, dᵥ, iₒ, kₒ], t2_abab [aᵥ, bᵥ, mₒ, lₒ]], [(1, [aᵥ, bᵥ, cᵥ, dᵥ, iₒ, jₒ, kₒ, lₒ]), (-1, [aᵥ, bᵥ, dᵥ, cᵥ, iₒ, jₒ, kₒ, lₒ])]⟩,
  -- line 4890: mcie,edjk,abml->abcdijkl
  ⟨-1, [g_abab [mₒ, cᵥ, iₒ, eᵥ], t2_bbbb [eᵥ, dᵥ, jₒ, kₒ], t2_abab [aᵥ, bᵥ, mₒ, lₒ]], [(1, [aᵥ, bᵥ, cᵥ, dᵥ, iₒ, jₒ, kₒ, lₒ]), (-1, [aᵥ, bᵥ, dᵥ, cᵥ, iₒ, jₒ, kₒ, lₒ])]⟩,
  -- line 4894: mcie,ebkl,admj->abcdijkl
  ⟨1, [g_abab [mₒ, cᵥ, iₒ, eᵥ], t2_bbbb [eᵥ, bᵥ, kₒ, lₒ], t2_abab [aᵥ, dᵥ, mₒ, jₒ]], [(1, [aᵥ, bᵥ, cᵥ, dᵥ, iₒ, jₒ, kₒ, lₒ]), (-1, [aᵥ, bᵥ, cᵥ, dᵥ, iₒ, kₒ, jₒ, lₒ])]⟩,
  -- line 4898: mcie,edkl,abmj->abcdijkl
  ⟨-1, [g_abab [mₒ, cᵥ, iₒ, eᵥ], t2_bbbb [eᵥ, dᵥ, kₒ, lₒ], t2_abab [aᵥ, bᵥ, mₒ, jₒ]], [(1, [aᵥ, bᵥ, cᵥ, dᵥ, iₒ, jₒ, kₒ, lₒ]), (-1, [aᵥ, bᵥ, cᵥ, dᵥ, iₒ, kₒ, jₒ, lₒ]), (-1, [aᵥ, bᵥ, dᵥ, cᵥ, iₒ, jₒ, kₒ, lₒ]), (1, [aᵥ, bᵥ, dᵥ, cᵥ, iₒ, kₒ, jₒ, lₒ])]⟩,
  -- line 4902: mdel,ebjk,acim->abcdijkl
  ⟨1, [g_bbbb [mₒ, dᵥ, eᵥ, lₒ], t2_bbbb [eᵥ, bᵥ, jₒ, kₒ], t2_abab [aᵥ, cᵥ, iₒ, mₒ]], [(1, [aᵥ, bᵥ, cᵥ, dᵥ, iₒ, jₒ, kₒ, lₒ])]⟩,
  -- line 4905: mdel,aeik,bcjm->abcdijkl
  ⟨-1, [g_bbbb [mₒ, dᵥ, eᵥ, lₒ], t2_abab [aᵥ, eᵥ, iₒ, kₒ], t2_bbbb [bᵥ, cᵥ, jₒ, mₒ]], [(1, [aᵥ, bᵥ, cᵥ, dᵥ, iₒ, jₒ, kₒ, lₒ])]⟩,
  -- line 4908: mdel,ebik,acmj->abcdijkl
  ⟨1, [g_abab [mₒ, dᵥ, eᵥ, lₒ], t2_abab [eᵥ, bᵥ, iₒ, kₒ], t2_abab [aᵥ, cᵥ, mₒ, jₒ]], [(1, [aᵥ, bᵥ, cᵥ, dᵥ, iₒ, jₒ, kₒ, lₒ])]⟩,
  -- line 4911: mdel,aeij,bckm->abcdijkl
  ⟨1, [g_bbbb [mₒ, dᵥ, eᵥ, lₒ], t2_abab [aᵥ, eᵥ, iₒ, jₒ], t2_bbbb [bᵥ, cᵥ, kₒ, mₒ]], [(1, [aᵥ, bᵥ, cᵥ, dᵥ, iₒ, jₒ, kₒ, lₒ]), (-1, [aᵥ, bᵥ, cᵥ, dᵥ, iₒ, jₒ, lₒ, kₒ])]⟩,
  -- line 4915: mdel,ebij,acmk->abcdijkl
  ⟨-1, [g_abab [mₒ, dᵥ, eᵥ, lₒ], t2_abab [eᵥ, bᵥ, iₒ, jₒ], t2_abab [aᵥ, cᵥ, mₒ, kₒ]], [(1, [aᵥ, bᵥ, cᵥ, dᵥ, iₒ, jₒ, kₒ, lₒ]), (-1, [aᵥ, bᵥ, cᵥ, dᵥ, iₒ, jₒ, lₒ, kₒ])]⟩,
  -- line 4919: mdek,ebjl,acim->abcdijkl
  ⟨-1, [g_bbbb [mₒ, dᵥ, eᵥ, kₒ], t2_bbbb [eᵥ, bᵥ, jₒ, lₒ], t2_abab [aᵥ, cᵥ, iₒ, mₒ]], [(1, [aᵥ, bᵥ, cᵥ, dᵥ, iₒ, jₒ, kₒ, lₒ])]⟩,
  -- line 4922: mdek,aeil,bcjm->abcdijkl
  ⟨1, [g_bbbb [mₒ, dᵥ, eᵥ, kₒ], t2_abab [aᵥ, eᵥ, iₒ, lₒ], t2_bbbb [bᵥ, cᵥ, jₒ, mₒ]], [(1, [aᵥ, bᵥ, cᵥ, dᵥ, iₒ, jₒ, kₒ, lₒ])]⟩,
  -- line 4925: mdek,ebil,acmj->abcdijkl
  ⟨-1, [g_abab [mₒ, dᵥ, eᵥ, kₒ], t2_abab [eᵥ, bᵥ, iₒ, lₒ], t2_abab [aᵥ, cᵥ, mₒ, jₒ]], [(1, [aᵥ, bᵥ, cᵥ, dᵥ, iₒ, jₒ, kₒ, lₒ])]⟩,
  -- line 4928: mdej,ebkl,acim->abcdijkl
  ⟨1, [g_bbbb [mₒ, dᵥ, eᵥ, jₒ], t2_bbbb [eᵥ, bᵥ, kₒ, lₒ], t2_abab [aᵥ, cᵥ, iₒ, mₒ]], [(1, [aᵥ, bᵥ, cᵥ, dᵥ, iₒ, jₒ, kₒ, lₒ])]⟩,
  -- line 4931: mdej,aeil,bckm->abcdijkl
  ⟨-1, [g_bbbb [mₒ, dᵥ, eᵥ, jₒ], t2_abab [aᵥ, eᵥ, iₒ, lₒ], t2_bbbb [bᵥ, cᵥ, kₒ, mₒ]], [(1, [aᵥ, bᵥ, cᵥ, dᵥ, iₒ, jₒ, kₒ, lₒ])]⟩
  ]

/-- Part 6 of `ccdq_t4_abbbabbb`. -/
def ccdq_t4_abbbabbb_6 : Prog := [
  -- line 4934: mdej,ebil,acmk->abcdijkl
  ⟨1, [g_abab [mₒ, dᵥ, eᵥ, jₒ], t2_abab [eᵥ, bᵥ, iₒ, lₒ], t2_abab [aᵥ, cᵥ, mₒ, kₒ]], [(1, [aᵥ, bᵥ, cᵥ, dᵥ, iₒ, jₒ, kₒ, lₒ])]⟩,
  -- line 4937: mdej,aeik,bclm->abcdijkl
  ⟨1, [g_bbbb [mₒ, dᵥ, eᵥ, jₒ], t2_abab [aᵥ, eᵥ, iₒ, kₒ], t2_bbbb [bᵥ, cᵥ, lₒ, mₒ]], [(1, [aᵥ, bᵥ, cᵥ, dᵥ, iₒ, jₒ, kₒ, lₒ])]⟩,
  -- line 4940: mdej,ebik,acml->abcdijkl
  ⟨-1, [g_abab [mₒ, dᵥ, eᵥ, jₒ], t2_abab [eᵥ, bᵥ, iₒ, kₒ], t2_abab [aᵥ, cᵥ, mₒ, lₒ]], [(1, [aᵥ, bᵥ, cᵥ, dᵥ, iₒ, jₒ, kₒ, lₒ])]⟩,
  -- line 4943: mdie,ebjk,acml->abcdijkl
  ⟨-1, [g_abab [mₒ, dᵥ, iₒ, eᵥ], t2_bbbb [eᵥ, bᵥ, jₒ, kₒ], t2_abab [aᵥ, cᵥ, mₒ, lₒ]], [(1, [aᵥ, bᵥ, cᵥ, dᵥ, iₒ, jₒ, kₒ, lₒ])]⟩,
  -- line 4946: mdie,ebkl,acmj->abcdijkl
  ⟨-1, [g_abab [mₒ, dᵥ, iₒ, eᵥ], t2_bbbb [eᵥ, bᵥ, kₒ, lₒ], t2_abab [aᵥ, cᵥ, mₒ, jₒ]], [(1, [aᵥ, bᵥ, cᵥ, dᵥ, iₒ, jₒ, kₒ, lₒ]), (-1, [aᵥ, bᵥ, cᵥ, dᵥ, iₒ, kₒ, jₒ, lₒ])]⟩,
  -- line 4950: abfe,eckl,fdij->abcdijkl
  ⟨1, [g_abab [aᵥ, bᵥ, fᵥ, eᵥ], t2_bbbb [eᵥ, cᵥ, kₒ, lₒ], t2_abab [fᵥ, dᵥ, iₒ, jₒ]], [(1, [aᵥ, bᵥ, cᵥ, dᵥ, iₒ, jₒ, kₒ, lₒ]), (-1, [aᵥ, bᵥ, cᵥ, dᵥ, iₒ, kₒ, jₒ, lₒ]), (-1, [aᵥ, cᵥ, bᵥ, dᵥ, iₒ, jₒ, kₒ, lₒ]), (1, [aᵥ, cᵥ, bᵥ, dᵥ, iₒ, kₒ, jₒ, lₒ])]⟩,
  -- line 4954: abef,ecil,fdjk->abcdijkl
  ⟨-1, [g_abab [aᵥ, bᵥ, eᵥ, fᵥ], t2_abab [eᵥ, cᵥ, iₒ, lₒ], t2_bbbb [fᵥ, dᵥ, jₒ, kₒ]], [(1, [aᵥ, bᵥ, cᵥ, dᵥ, iₒ, jₒ, kₒ, lₒ]), (-1, [aᵥ, bᵥ, cᵥ, dᵥ, iₒ, jₒ, lₒ, kₒ]), (-1, [aᵥ, cᵥ, bᵥ, dᵥ, iₒ, jₒ, kₒ, lₒ]), (1, [aᵥ, cᵥ, bᵥ, dᵥ, iₒ, jₒ, lₒ, kₒ])]⟩,
  -- line 4958: abfe,ecjk,fdil->abcdijkl
  ⟨1, [g_abab [aᵥ, bᵥ, fᵥ, eᵥ], t2_bbbb [eᵥ, cᵥ, jₒ, kₒ], t2_abab [fᵥ, dᵥ, iₒ, lₒ]], [(1, [aᵥ, bᵥ, cᵥ, dᵥ, iₒ, jₒ, kₒ, lₒ]), (-1, [aᵥ, cᵥ, bᵥ, dᵥ, iₒ, jₒ, kₒ, lₒ])]⟩,
  -- line 4962: abef,ecij,fdkl->abcdijkl
  ⟨-1, [g_abab [aᵥ, bᵥ, eᵥ, fᵥ], t2_abab [eᵥ, cᵥ, iₒ, jₒ], t2_bbbb [fᵥ, dᵥ, kₒ, lₒ]], [(1, [aᵥ, bᵥ, cᵥ, dᵥ, iₒ, jₒ, kₒ, lₒ]), (-1, [aᵥ, cᵥ, bᵥ, dᵥ, iₒ, jₒ, kₒ, lₒ])]⟩,
  -- line 4966: adfe,ebkl,fcij->abcdijkl
  ⟨1, [g_abab [aᵥ, dᵥ, fᵥ, eᵥ], t2_bbbb [eᵥ, bᵥ, kₒ, lₒ], t2_abab [fᵥ, cᵥ, iₒ, jₒ]], [(1, [aᵥ, bᵥ, cᵥ, dᵥ, iₒ, jₒ, kₒ, lₒ]), (-1, [aᵥ, bᵥ, cᵥ, dᵥ, iₒ, kₒ, jₒ, lₒ])]⟩,
  -- line 4970: adef,ebil,fcjk->abcdijkl
  ⟨-1, [g_abab [aᵥ, dᵥ, eᵥ, fᵥ], t2_abab [eᵥ, bᵥ, iₒ, lₒ], t2_bbbb [fᵥ, cᵥ, jₒ, kₒ]], [(1, [aᵥ, bᵥ, cᵥ, dᵥ, iₒ, jₒ, kₒ, lₒ]), (-1, [aᵥ, bᵥ, cᵥ, dᵥ, iₒ, jₒ, lₒ, kₒ])]⟩,
  -- line 4974: bdef,aeil,fcjk->abcdijkl
  ⟨-1, [g_bbbb [bᵥ, dᵥ, eᵥ, fᵥ], t2_abab [aᵥ, eᵥ, iₒ, lₒ], t2_bbbb [fᵥ, cᵥ, jₒ, kₒ]], [(1, [aᵥ, bᵥ, cᵥ, dᵥ, iₒ, jₒ, kₒ, lₒ]), (-1, [aᵥ, bᵥ, cᵥ, dᵥ, iₒ, jₒ, lₒ, kₒ])]⟩,
  -- line 4978: adfe,ebjk,fcil->abcdijkl
  ⟨1, [g_abab [aᵥ, dᵥ, fᵥ, eᵥ], t2_bbbb [eᵥ, bᵥ, jₒ, kₒ], t2_abab [fᵥ, cᵥ, iₒ, lₒ]], [(1, [aᵥ, bᵥ, cᵥ, dᵥ, iₒ, jₒ, kₒ, lₒ])]⟩,
  -- line 4981: adef,ebij,fckl->abcdijkl
  ⟨-1, [g_abab [aᵥ, dᵥ, eᵥ, fᵥ], t2_abab [eᵥ, bᵥ, iₒ, jₒ], t2_bbbb [fᵥ, cᵥ, kₒ, lₒ]], [(1, [aᵥ, bᵥ, cᵥ, dᵥ, iₒ, jₒ, kₒ, lₒ])]⟩,
  -- line 4984: bdef,aeij,fckl->abcdijkl
  ⟨-1, [g_bbbb [bᵥ, dᵥ, eᵥ, fᵥ], t2_abab [aᵥ, eᵥ, iₒ, jₒ], t2_bbbb [fᵥ, cᵥ, kₒ, lₒ]], [(1, [aᵥ, bᵥ, cᵥ, dᵥ, iₒ, jₒ, kₒ, lₒ])]⟩,
  -- line 4987: bcef,aeil,fdjk->abcdijkl
  ⟨1, [g_bbbb [bᵥ, cᵥ, eᵥ, fᵥ], t2_abab [aᵥ, eᵥ, iₒ, lₒ], t2_bbbb [fᵥ, dᵥ, jₒ, kₒ]], [(1, [aᵥ, bᵥ, cᵥ, dᵥ, iₒ, jₒ, kₒ, lₒ]), (-1, [aᵥ, bᵥ, cᵥ, dᵥ, iₒ, jₒ, lₒ, kₒ]), (-1, [aᵥ, dᵥ, cᵥ, bᵥ, iₒ, jₒ, kₒ, lₒ]), (1, [aᵥ, dᵥ, cᵥ, bᵥ, iₒ, jₒ, lₒ, kₒ])]⟩,
  -- line 4991: bcef,aeij,fdkl->abcdijkl
  ⟨1, [g_bbbb [bᵥ, cᵥ, eᵥ, fᵥ], t2_abab [aᵥ, eᵥ, iₒ, jₒ], t2_bbbb [fᵥ, dᵥ, kₒ, lₒ]], [(1, [aᵥ, bᵥ, cᵥ, dᵥ, iₒ, jₒ, kₒ, lₒ]), (-1, [aᵥ, dᵥ, cᵥ, bᵥ, iₒ, jₒ, kₒ, lₒ])]⟩,
  -- line 4995: nmef,efkl,abim,cdjn->abcdijkl
  ⟨1/2, [g_bbbb [nₒ, mₒ, eᵥ, fᵥ], t2_bbbb [eᵥ, fᵥ, kₒ, lₒ], t2_abab [aᵥ, bᵥ, iₒ, mₒ], t2_bbbb [cᵥ, dᵥ, jₒ, nₒ]], [(1, [aᵥ, bᵥ, cᵥ, dᵥ, iₒ, jₒ, kₒ, lₒ]), (-1, [aᵥ, cᵥ, bᵥ, dᵥ, iₒ, jₒ, kₒ, lₒ])]⟩,
  -- line 4999: nmef,efkl,adim,bcjn->abcdijkl
  ⟨1/2, [g_bbbb [nₒ, mₒ, eᵥ, fᵥ], t2_bbbb [eᵥ, fᵥ, kₒ, lₒ], t2_abab [aᵥ, dᵥ, iₒ, mₒ], t2_bbbb [bᵥ, cᵥ, jₒ, nₒ]], [(1, [aᵥ, bᵥ, cᵥ, dᵥ, iₒ, jₒ, kₒ, lₒ])]⟩,
  -- line 5002: nmef,efjl,abim,cdkn->abcdijkl
  ⟨-1/2, [g_bbbb [nₒ, mₒ, eᵥ, fᵥ], t2_bbbb [eᵥ, fᵥ, jₒ, lₒ], t2_abab [aᵥ, bᵥ, iₒ, mₒ], t2_bbbb [cᵥ, dᵥ, kₒ, nₒ]], [(1, [aᵥ, bᵥ, cᵥ, dᵥ, iₒ, jₒ, kₒ, lₒ]), (-1, [aᵥ, cᵥ, bᵥ, dᵥ, iₒ, jₒ, kₒ, lₒ])]⟩,
  -- line 5006: nmef,efjl,adim,bckn->abcdijkl
  ⟨-1/2, [g_bbbb [nₒ, mₒ, eᵥ, fᵥ], t2_bbbb [eᵥ, fᵥ, jₒ, lₒ], t2_abab [aᵥ, dᵥ, iₒ, mₒ], t2_bbbb [bᵥ, cᵥ, kₒ, nₒ]], [(1, [aᵥ, bᵥ, cᵥ, dᵥ, iₒ, jₒ, kₒ, lₒ])]⟩,
  -- line 5009: mnef,efil,abmk,cdjn->abcdijkl
  ⟨-1/2, [g_abab [mₒ, nₒ, eᵥ, fᵥ], t2_abab [eᵥ, fᵥ, iₒ, lₒ], t2_abab [aᵥ, bᵥ, mₒ, kₒ], t2_bbbb [cᵥ, dᵥ, jₒ, nₒ]], [(1, [aᵥ, bᵥ, cᵥ, dᵥ, iₒ, jₒ, kₒ, lₒ]), (-1, [aᵥ, bᵥ, cᵥ, dᵥ, iₒ, kₒ, jₒ, lₒ]), (-1, [aᵥ, cᵥ, bᵥ, dᵥ, iₒ, jₒ, kₒ, lₒ]), (1, [aᵥ, cᵥ, bᵥ, dᵥ, iₒ, kₒ, jₒ, lₒ])]⟩,
  -- line 5013: mnfe,feil,abmk,cdjn->abcdijkl
  ⟨-1/2, [g_abab [mₒ, nₒ, fᵥ, eᵥ], t2_abab [fᵥ, eᵥ, iₒ, lₒ], t2_abab [aᵥ, bᵥ, mₒ, kₒ], t2_bbbb [cᵥ, dᵥ, jₒ, nₒ]], [(1, [aᵥ, bᵥ, cᵥ, dᵥ, iₒ, jₒ, kₒ, lₒ]), (-1, [aᵥ, bᵥ, cᵥ, dᵥ, iₒ, kₒ, jₒ, lₒ]), (-1, [aᵥ, cᵥ, bᵥ, dᵥ, iₒ, jₒ, kₒ, lₒ]), (1, [aᵥ, cᵥ, bᵥ, dᵥ, iₒ, kₒ, jₒ, lₒ])]⟩,
  -- line 5017: mnef,efil,admk,bcjn->abcdijkl
  ⟨-1/2, [g_abab [mₒ, nₒ, eᵥ, fᵥ], t2_abab [eᵥ, fᵥ, iₒ, lₒ], t2_abab [aᵥ, dᵥ, mₒ, kₒ], t2_bbbb [bᵥ, cᵥ, jₒ, nₒ]], [(1, [aᵥ, bᵥ, cᵥ, dᵥ, iₒ, jₒ, kₒ, lₒ]), (-1, [aᵥ, bᵥ, cᵥ, dᵥ, iₒ, kₒ, jₒ, lₒ])]⟩,
  -- line 5021: mnfe,feil,admk,bcjn->abcdijkl
  ⟨-1/2, [g_abab [mₒ, nₒ, fᵥ, eᵥ], t2_abab [fᵥ, eᵥ, iₒ, lₒ], t2_abab [aᵥ, dᵥ, mₒ, kₒ], t2_bbbb [bᵥ, cᵥ, jₒ, nₒ]], [(1, [aᵥ, bᵥ, cᵥ, dᵥ, iₒ, jₒ, kₒ, lₒ]), (-1, [aᵥ, bᵥ, cᵥ, dᵥ, iₒ, kₒ, jₒ, lₒ])]⟩,
  -- line 5025: nmef,efjk,abim,cdln->abcdijkl
  ⟨1/2, [g_bbbb [nₒ, mₒ, eᵥ, fᵥ], t2_bbbb [eᵥ, fᵥ, jₒ, kₒ], t2_abab [aᵥ, bᵥ, iₒ, mₒ], t2_bbbb [cᵥ, dᵥ, lₒ, nₒ]], [(1, [aᵥ, bᵥ, cᵥ, dᵥ, iₒ, jₒ, kₒ, lₒ]), (-1, [aᵥ, cᵥ, bᵥ, dᵥ, iₒ, jₒ, kₒ, lₒ])]⟩,
  -- line 5029: nmef,efjk,adim,bcln->abcdijkl
  ⟨1/2, [g_bbbb [nₒ, mₒ, eᵥ, fᵥ], t2_bbbb [eᵥ, fᵥ, jₒ, kₒ], t2_abab [aᵥ, dᵥ, iₒ, mₒ], t2_bbbb [bᵥ, cᵥ, lₒ, nₒ]], [(1, [aᵥ, bᵥ, cᵥ, dᵥ, iₒ, jₒ, kₒ, lₒ])]⟩,
  -- line 5032: mnef,efik,abml,cdjn->abcdijkl
  ⟨1/2, [g_abab [mₒ, nₒ, eᵥ, fᵥ], t2_abab [eᵥ, fᵥ, iₒ, kₒ], t2_abab [aᵥ, bᵥ, mₒ, lₒ], t2_bbbb [cᵥ, dᵥ, jₒ, nₒ]], [(1, [aᵥ, bᵥ, cᵥ, dᵥ, iₒ, jₒ, kₒ, lₒ]), (-1, [aᵥ, bᵥ, cᵥ, dᵥ, iₒ, lₒ, kₒ, jₒ]), (-1, [aᵥ, cᵥ, bᵥ, dᵥ, iₒ, jₒ, kₒ, lₒ]), (1, [aᵥ, cᵥ, bᵥ, dᵥ, iₒ, lₒ, kₒ, jₒ])]⟩,
  -- line 5036: mnfe,feik,abml,cdjn->abcdijkl
  ⟨1/2, [g_abab [mₒ, nₒ, fᵥ, eᵥ], t2_abab [fᵥ, eᵥ, iₒ, kₒ], t2_abab [aᵥ, bᵥ, mₒ, lₒ], t2_bbbb [cᵥ, dᵥ, jₒ, nₒ]], [(1, [aᵥ, bᵥ, cᵥ, dᵥ, iₒ, jₒ, kₒ, lₒ]), (-1, [aᵥ, bᵥ, cᵥ, dᵥ, iₒ, lₒ, kₒ, jₒ]), (-1, [aᵥ, cᵥ, bᵥ, dᵥ, iₒ, jₒ, kₒ, lₒ]), (1, [aᵥ, cᵥ, bᵥ, dᵥ, iₒ, lₒ, kₒ, jₒ])]⟩,
  -- line 5040: mnef,efik,adml,bcjn->abcdijkl
  ⟨1/2, [g_abab [mₒ, nₒ, eᵥ, fᵥ], t2_abab [eᵥ, fᵥ, iₒ, kₒ], t2_abab [aᵥ, dᵥ, mₒ, lₒ], t2_bbbb [bᵥ, cᵥ, jₒ, nₒ]], [(1, [aᵥ, bᵥ, cᵥ, dᵥ, iₒ, jₒ, kₒ, lₒ]), (-1, [aᵥ, bᵥ, cᵥ, dᵥ, iₒ, lₒ, kₒ, jₒ])]⟩,
  -- line 5044: mnfe,feik,adml,bcjn->abcdijkl
  ⟨1/2, [g_abab [mₒ, nₒ, fᵥ, eᵥ], t2_abab [fᵥ, eᵥ, iₒ, kₒ], t2_abab [aᵥ, dᵥ, mₒ, lₒ], t2_bbbb [bᵥ, cᵥ, jₒ, nₒ]], [(1, [aᵥ, bᵥ, cᵥ, dᵥ, iₒ, jₒ, kₒ, lₒ]), (-1, [aᵥ, bᵥ, cᵥ, dᵥ, iₒ, lₒ, kₒ, jₒ])]⟩,
  -- line 5048: mnef,efij,abml,cdkn->abcdijkl
  ⟨-1/2, [g_abab [mₒ, nₒ, eᵥ, fᵥ], t2_abab [eᵥ, fᵥ, iₒ, jₒ], t2_abab [aᵥ, bᵥ, mₒ, lₒ], t2_bbbb [cᵥ, dᵥ, kₒ, nₒ]], [(1, [aᵥ, bᵥ, cᵥ, dᵥ, iₒ, jₒ, kₒ, lₒ]), (-1, [aᵥ, bᵥ, cᵥ, dᵥ, iₒ, jₒ, lₒ, kₒ]), (-1, [aᵥ, cᵥ, bᵥ, dᵥ, iₒ, jₒ, kₒ, lₒ]), (1, [aᵥ, cᵥ, bᵥ, dᵥ, iₒ, jₒ, lₒ, kₒ])]⟩,
  -- line 5052: mnfe,feij,abml,cdkn->abcdijkl
  ⟨-1/2, [g_abab [mₒ, nₒ, fᵥ, eᵥ], t2_abab [fᵥ, eᵥ, iₒ, jₒ], t2_abab [aᵥ, bᵥ, mₒ, lₒ], t2_bbbb [cᵥ, dᵥ, kₒ, nₒ]], [(1, [aᵥ, bᵥ, cᵥ, dᵥ, iₒ, jₒ, kₒ, lₒ]), (-1, [aᵥ, bᵥ, cᵥ, dᵥ, iₒ, jₒ, lₒ, kₒ]), (-1, [aᵥ, cᵥ, bᵥ, dᵥ, iₒ, jₒ, kₒ, lₒ]), (1, [aᵥ, cᵥ, bᵥ, dᵥ, iₒ, jₒ, lₒ, kₒ])]⟩,
  -- line 5056: mnef,efij,adml,bckn->abcdijkl
  ⟨-1/2, [g_abab [mₒ, nₒ, eᵥ, fᵥ], t2_abab [eᵥ, fᵥ, iₒ, jₒ], t2_abab [aᵥ, dᵥ, mₒ, lₒ], t2_bbbb [bᵥ, cᵥ, kₒ, nₒ]], [(1, [aᵥ, bᵥ, cᵥ, dᵥ, iₒ, jₒ, kₒ, lₒ]), (-1, [aᵥ, bᵥ, cᵥ, dᵥ, iₒ, jₒ, lₒ, kₒ])]⟩,
  -- line 5060: mnfe,feij,adml,bckn->abcdijkl
  ⟨-1/2, [g_abab [mₒ, nₒ, fᵥ, eᵥ], t2_abab [fᵥ, eᵥ, iₒ, jₒ], t2_abab [aᵥ, dᵥ, mₒ, lₒ], t2_bbbb [bᵥ, cᵥ, kₒ, nₒ]], [(1, [aᵥ, bᵥ, cᵥ, dᵥ, iₒ, jₒ, kₒ, lₒ]), (-1, [aᵥ, bᵥ, cᵥ, dᵥ, iₒ, jₒ, lₒ, kₒ])]⟩,
  -- line 5064: mnfe,aeml,fbik,cdjn->abcdijkl
  ⟨-1, [g_abab [mₒ, nₒ, fᵥ, eᵥ], t2_abab [aᵥ, eᵥ, mₒ, lₒ], t2_abab [fᵥ, bᵥ, iₒ, kₒ], t2_bbbb [cᵥ, dᵥ, jₒ, nₒ]], [(1, [aᵥ, bᵥ, cᵥ, dᵥ, iₒ, jₒ, kₒ, lₒ]), (-1, [aᵥ, cᵥ, bᵥ, dᵥ, iₒ, jₒ, kₒ, lₒ])]⟩,
  -- line 5068: mnfe,aeml,fbij,cdkn->abcdijkl
  ⟨1, [g_abab [mₒ, nₒ, fᵥ, eᵥ], t2_abab [aᵥ, eᵥ, mₒ, lₒ], t2_abab [fᵥ, bᵥ, iₒ, jₒ], t2_bbbb [cᵥ, dᵥ, kₒ, nₒ]], [(1, [aᵥ, bᵥ, cᵥ, dᵥ, iₒ, jₒ, kₒ, lₒ]), (-1, [aᵥ, bᵥ, cᵥ, dᵥ, iₒ, jₒ, lₒ, kₒ]), (-1, [aᵥ, cᵥ, bᵥ, dᵥ, iₒ, jₒ, kₒ, lₒ]), (1, [aᵥ, cᵥ, bᵥ, dᵥ, iₒ, jₒ, lₒ, kₒ])]⟩,
  -- line 5072: mnef,ebml,fdjk,acin->abcdijkl
  ⟨-1, [g_abab [mₒ, nₒ, eᵥ, fᵥ], t2_abab [eᵥ, bᵥ, mₒ, lₒ], t2_bbbb [fᵥ, dᵥ, jₒ, kₒ], t2_abab [aᵥ, cᵥ, iₒ, nₒ]], [(1, [aᵥ, bᵥ, cᵥ, dᵥ, iₒ, jₒ, kₒ, lₒ])]⟩,
  -- line 5075: nmef,eblm,fdjk,acin->abcdijkl
  ⟨-1, [g_bbbb [nₒ, mₒ, eᵥ, fᵥ], t2_bbbb [eᵥ, bᵥ, lₒ, mₒ], t2_bbbb [fᵥ, dᵥ, jₒ, kₒ], t2_abab [aᵥ, cᵥ, iₒ, nₒ]], [(1, [aᵥ, bᵥ, cᵥ, dᵥ, iₒ, jₒ, kₒ, lₒ])]⟩,
  -- line 5078: mnfe,aeml,fdik,bcjn->abcdijkl
  ⟨-1, [g_abab [mₒ, nₒ, fᵥ, eᵥ], t2_abab [aᵥ, eᵥ, mₒ, lₒ], t2_abab [fᵥ, dᵥ, iₒ, kₒ], t2_bbbb [bᵥ, cᵥ, jₒ, nₒ]], [(1, [aᵥ, bᵥ, cᵥ, dᵥ, iₒ, jₒ, kₒ, lₒ])]⟩
  ]

/-- Part 7 of `ccdq_t4_abbbabbb`. -/
def ccdq_t4_abbbabbb_7 : Prog := [
  -- line 5081: nmef,ebml,fdik,acnj->abcdijkl
  ⟨1, [g_aaaa [nₒ, mₒ, eᵥ, fᵥ], t2_abab [eᵥ, bᵥ, mₒ, lₒ], t2_abab [fᵥ, dᵥ, iₒ, kₒ], t2_abab [aᵥ, cᵥ, nₒ, jₒ]], [(1, [aᵥ, bᵥ, cᵥ, dᵥ, iₒ, jₒ, kₒ, lₒ])]⟩,
  -- line 5084: nmfe,eblm,fdik,acnj->abcdijkl
  ⟨1, [g_abab [nₒ, mₒ, fᵥ, eᵥ], t2_bbbb [eᵥ, bᵥ, lₒ, mₒ], t2_abab [fᵥ, dᵥ, iₒ, kₒ], t2_abab [aᵥ, cᵥ, nₒ, jₒ]], [(1, [aᵥ, bᵥ, cᵥ, dᵥ, iₒ, jₒ, kₒ, lₒ])]⟩,
  -- line 5087: mnfe,aeml,fdij,bckn->abcdijkl
  ⟨1, [g_abab [mₒ, nₒ, fᵥ, eᵥ], t2_abab [aᵥ, eᵥ, mₒ, lₒ], t2_abab [fᵥ, dᵥ, iₒ, jₒ], t2_bbbb [bᵥ, cᵥ, kₒ, nₒ]], [(1, [aᵥ, bᵥ, cᵥ, dᵥ, iₒ, jₒ, kₒ, lₒ]), (-1, [aᵥ, bᵥ, cᵥ, dᵥ, iₒ, jₒ, lₒ, kₒ])]⟩,
  -- line 5091: nmef,ebml,fdij,acnk->abcdijkl
  ⟨-1, [g_aaaa [nₒ, mₒ, eᵥ, fᵥ], t2_abab [eᵥ, bᵥ, mₒ, lₒ], t2_abab [fᵥ, dᵥ, iₒ, jₒ], t2_abab [aᵥ, cᵥ, nₒ, kₒ]], [(1, [aᵥ, bᵥ, cᵥ, dᵥ, iₒ, jₒ, kₒ, lₒ]), (-1, [aᵥ, bᵥ, cᵥ, dᵥ, iₒ, jₒ, lₒ, kₒ])]⟩,
  -- line 5095: nmfe,eblm,fdij,acnk->abcdijkl
  ⟨-1, [g_abab [nₒ, mₒ, fᵥ, eᵥ], t2_bbbb [eᵥ, bᵥ, lₒ, mₒ], t2_abab [fᵥ, dᵥ, iₒ, jₒ], t2_abab [aᵥ, cᵥ, nₒ, kₒ]], [(1, [aᵥ, bᵥ, cᵥ, dᵥ, iₒ, jₒ, kₒ, lₒ]), (-1, [aᵥ, bᵥ, cᵥ, dᵥ, iₒ, jₒ, lₒ, kₒ])]⟩,
  -- line 5099: mnfe,aemk,fbil,cdjn->abcdijkl
  ⟨1, [g_abab [mₒ, nₒ, fᵥ, eᵥ], t2_abab [aᵥ, eᵥ, mₒ, kₒ], t2_abab [fᵥ, bᵥ, iₒ, lₒ], t2_bbbb [cᵥ, dᵥ, jₒ, nₒ]], [(1, [aᵥ, bᵥ, cᵥ, dᵥ, iₒ, jₒ, kₒ, lₒ]), (-1, [aᵥ, cᵥ, bᵥ, dᵥ, iₒ, jₒ, kₒ, lₒ])]⟩,
  -- line 5103: mnef,ebmk,fdjl,acin->abcdijkl
  ⟨1, [g_abab [mₒ, nₒ, eᵥ, fᵥ], t2_abab [eᵥ, bᵥ, mₒ, kₒ], t2_bbbb [fᵥ, dᵥ, jₒ, lₒ], t2_abab [aᵥ, cᵥ, iₒ, nₒ]], [(1, [aᵥ, bᵥ, cᵥ, dᵥ, iₒ, jₒ, kₒ, lₒ])]⟩,
  -- line 5106: nmef,ebkm,fdjl,acin->abcdijkl
  ⟨1, [g_bbbb [nₒ, mₒ, eᵥ, fᵥ], t2_bbbb [eᵥ, bᵥ, kₒ, mₒ], t2_bbbb [fᵥ, dᵥ, jₒ, lₒ], t2_abab [aᵥ, cᵥ, iₒ, nₒ]], [(1, [aᵥ, bᵥ, cᵥ, dᵥ, iₒ, jₒ, kₒ, lₒ])]⟩,
  -- line 5109: mnfe,aemk,fdil,bcjn->abcdijkl
  ⟨1, [g_abab [mₒ, nₒ, fᵥ, eᵥ], t2_abab [aᵥ, eᵥ, mₒ, kₒ], t2_abab [fᵥ, dᵥ, iₒ, lₒ], t2_bbbb [bᵥ, cᵥ, jₒ, nₒ]], [(1, [aᵥ, bᵥ, cᵥ, dᵥ, iₒ, jₒ, kₒ, lₒ])]⟩,
  -- line 5112: nmef,ebmk,fdil,acnj->abcdijkl
  ⟨-1, [g_aaaa [nₒ, mₒ, eᵥ, fᵥ], t2_abab [eᵥ, bᵥ, mₒ, kₒ], t2_abab [fᵥ, dᵥ, iₒ, lₒ], t2_abab [aᵥ, cᵥ, nₒ, jₒ]], [(1, [aᵥ, bᵥ, cᵥ, dᵥ, iₒ, jₒ, kₒ, lₒ])]⟩,
  -- line 5115: nmfe,ebkm,fdil,acnj->abcdijkl
  ⟨-1, [g_abab [nₒ, mₒ, fᵥ, eᵥ], t2_bbbb [eᵥ, bᵥ, kₒ, mₒ], t2_abab [fᵥ, dᵥ, iₒ, lₒ], t2_abab [aᵥ, cᵥ, nₒ, jₒ]], [(1, [aᵥ, bᵥ, cᵥ, dᵥ, iₒ, jₒ, kₒ, lₒ])]⟩,
  -- line 5118: mnfe,aemj,fbil,cdkn->abcdijkl
  ⟨-1, [g_abab [mₒ, nₒ, fᵥ, eᵥ], t2_abab [aᵥ, eᵥ, mₒ, jₒ], t2_abab [fᵥ, bᵥ, iₒ, lₒ], t2_bbbb [cᵥ, dᵥ, kₒ, nₒ]], [(1, [aᵥ, bᵥ, cᵥ, dᵥ, iₒ, jₒ, kₒ, lₒ]), (-1, [aᵥ, cᵥ, bᵥ, dᵥ, iₒ, jₒ, kₒ, lₒ])]⟩,
  -- line 5122: mnfe,aemj,fbik,cdln->abcdijkl
  ⟨1, [g_abab [mₒ, nₒ, fᵥ, eᵥ], t2_abab [aᵥ, eᵥ, mₒ, jₒ], t2_abab [fᵥ, bᵥ, iₒ, kₒ], t2_bbbb [cᵥ, dᵥ, lₒ, nₒ]], [(1, [aᵥ, bᵥ, cᵥ, dᵥ, iₒ, jₒ, kₒ, lₒ]), (-1, [aᵥ, cᵥ, bᵥ, dᵥ, iₒ, jₒ, kₒ, lₒ])]⟩,
  -- line 5126: mnef,eaim,fbjk,cdln->abcdijkl
  ⟨1, [g_abab [mₒ, nₒ, eᵥ, fᵥ], t2_aaaa [eᵥ, aᵥ, iₒ, mₒ], t2_bbbb [fᵥ, bᵥ, jₒ, kₒ], t2_bbbb [cᵥ, dᵥ, lₒ, nₒ]], [(1, [aᵥ, bᵥ, cᵥ, dᵥ, iₒ, jₒ, kₒ, lₒ]), (-1, [aᵥ, cᵥ, bᵥ, dᵥ, iₒ, jₒ, kₒ, lₒ])]⟩,
  -- line 5130: nmef,aeim,fbjk,cdln->abcdijkl
  ⟨1, [g_bbbb [nₒ, mₒ, eᵥ, fᵥ], t2_abab [aᵥ, eᵥ, iₒ, mₒ], t2_bbbb [fᵥ, bᵥ, jₒ, kₒ], t2_bbbb [cᵥ, dᵥ, lₒ, nₒ]], [(1, [aᵥ, bᵥ, cᵥ, dᵥ, iₒ, jₒ, kₒ, lₒ]), (-1, [aᵥ, cᵥ, bᵥ, dᵥ, iₒ, jₒ, kₒ, lₒ])]⟩,
  -- line 5134: mnef,ebmj,fdkl,acin->abcdijkl
  ⟨-1, [g_abab [mₒ, nₒ, eᵥ, fᵥ], t2_abab [eᵥ, bᵥ, mₒ, jₒ], t2_bbbb [fᵥ, dᵥ, kₒ, lₒ], t2_abab [aᵥ, cᵥ, iₒ, nₒ]], [(1, [aᵥ, bᵥ, cᵥ, dᵥ, iₒ, jₒ, kₒ, lₒ])]⟩,
  -- line 5137: nmef,ebjm,fdkl,acin->abcdijkl
  ⟨-1, [g_bbbb [nₒ, mₒ, eᵥ, fᵥ], t2_bbbb [eᵥ, bᵥ, jₒ, mₒ], t2_bbbb [fᵥ, dᵥ, kₒ, lₒ], t2_abab [aᵥ, cᵥ, iₒ, nₒ]], [(1, [aᵥ, bᵥ, cᵥ, dᵥ, iₒ, jₒ, kₒ, lₒ])]⟩,
  -- line 5140: mnfe,aemj,fdil,bckn->abcdijkl
  ⟨-1, [g_abab [mₒ, nₒ, fᵥ, eᵥ], t2_abab [aᵥ, eᵥ, mₒ, jₒ], t2_abab [fᵥ, dᵥ, iₒ, lₒ], t2_bbbb [bᵥ, cᵥ, kₒ, nₒ]], [(1, [aᵥ, bᵥ, cᵥ, dᵥ, iₒ, jₒ, kₒ, lₒ])]⟩,
  -- line 5143: nmef,ebmj,fdil,acnk->abcdijkl
  ⟨1, [g_aaaa [nₒ, mₒ, eᵥ, fᵥ], t2_abab [eᵥ, bᵥ, mₒ, jₒ], t2_abab [fᵥ, dᵥ, iₒ, lₒ], t2_abab [aᵥ, cᵥ, nₒ, kₒ]], [(1, [aᵥ, bᵥ, cᵥ, dᵥ, iₒ, jₒ, kₒ, lₒ])]⟩,
  -- line 5146: nmfe,ebjm,fdil,acnk->abcdijkl
  ⟨1, [g_abab [nₒ, mₒ, fᵥ, eᵥ], t2_bbbb [eᵥ, bᵥ, jₒ, mₒ], t2_abab [fᵥ, dᵥ, iₒ, lₒ], t2_abab [aᵥ, cᵥ, nₒ, kₒ]], [(1, [aᵥ, bᵥ, cᵥ, dᵥ, iₒ, jₒ, kₒ, lₒ])]⟩,
  -- line 5149: mnfe,aemj,fdik,bcln->abcdijkl
  ⟨1, [g_abab [mₒ, nₒ, fᵥ, eᵥ], t2_abab [aᵥ, eᵥ, mₒ, jₒ], t2_abab [fᵥ, dᵥ, iₒ, kₒ], t2_bbbb [bᵥ, cᵥ, lₒ, nₒ]], [(1, [aᵥ, bᵥ, cᵥ, dᵥ, iₒ, jₒ, kₒ, lₒ])]⟩,
  -- line 5152: nmef,ebmj,fdik,acnl->abcdijkl
  ⟨-1, [g_aaaa [nₒ, mₒ, eᵥ, fᵥ], t2_abab [eᵥ, bᵥ, mₒ, jₒ], t2_abab [fᵥ, dᵥ, iₒ, kₒ], t2_abab [aᵥ, cᵥ, nₒ, lₒ]], [(1, [aᵥ, bᵥ, cᵥ, dᵥ, iₒ, jₒ, kₒ, lₒ])]⟩,
  -- line 5155: nmfe,ebjm,fdik,acnl->abcdijkl
  ⟨-1, [g_abab [nₒ, mₒ, fᵥ, eᵥ], t2_bbbb [eᵥ, bᵥ, jₒ, mₒ], t2_abab [fᵥ, dᵥ, iₒ, kₒ], t2_abab [aᵥ, cᵥ, nₒ, lₒ]], [(1, [aᵥ, bᵥ, cᵥ, dᵥ, iₒ, jₒ, kₒ, lₒ])]⟩,
  -- line 5158: mnef,eaim,fdjk,bcln->abcdijkl
  ⟨1, [g_abab [mₒ, nₒ, eᵥ, fᵥ], t2_aaaa [eᵥ, aᵥ, iₒ, mₒ], t2_bbbb [fᵥ, dᵥ, jₒ, kₒ], t2_bbbb [bᵥ, cᵥ, lₒ, nₒ]], [(1, [aᵥ, bᵥ, cᵥ, dᵥ, iₒ, jₒ, kₒ, lₒ])]⟩,
  -- line 5161: nmef,aeim,fdjk,bcln->abcdijkl
  ⟨1, [g_bbbb [nₒ, mₒ, eᵥ, fᵥ], t2_abab [aᵥ, eᵥ, iₒ, mₒ], t2_bbbb [fᵥ, dᵥ, jₒ, kₒ], t2_bbbb [bᵥ, cᵥ, lₒ, nₒ]], [(1, [aᵥ, bᵥ, cᵥ, dᵥ, iₒ, jₒ, kₒ, lₒ])]⟩,
  -- line 5164: nmef,ebim,fdjk,acnl->abcdijkl
  ⟨-1, [g_abab [nₒ, mₒ, eᵥ, fᵥ], t2_abab [eᵥ, bᵥ, iₒ, mₒ], t2_bbbb [fᵥ, dᵥ, jₒ, kₒ], t2_abab [aᵥ, cᵥ, nₒ, lₒ]], [(1, [aᵥ, bᵥ, cᵥ, dᵥ, iₒ, jₒ, kₒ, lₒ])]⟩,
  -- line 5167: mnef,eaim,fbkl,cdjn->abcdijkl
  ⟨1, [g_abab [mₒ, nₒ, eᵥ, fᵥ], t2_aaaa [eᵥ, aᵥ, iₒ, mₒ], t2_bbbb [fᵥ, bᵥ, kₒ, lₒ], t2_bbbb [cᵥ, dᵥ, jₒ, nₒ]], [(1, [aᵥ, bᵥ, cᵥ, dᵥ, iₒ, jₒ, kₒ, lₒ]), (-1, [aᵥ, bᵥ, cᵥ, dᵥ, iₒ, kₒ, jₒ, lₒ]), (-1, [aᵥ, cᵥ, bᵥ, dᵥ, iₒ, jₒ, kₒ, lₒ]), (1, [aᵥ, cᵥ, bᵥ, dᵥ, iₒ, kₒ, jₒ, lₒ])]⟩,
  -- line 5171: nmef,aeim,fbkl,cdjn->abcdijkl
  ⟨1, [g_bbbb [nₒ, mₒ, eᵥ, fᵥ], t2_abab [aᵥ, eᵥ, iₒ, mₒ], t2_bbbb [fᵥ, bᵥ, kₒ, lₒ], t2_bbbb [cᵥ, dᵥ, jₒ, nₒ]], [(1, [aᵥ, bᵥ, cᵥ, dᵥ, iₒ, jₒ, kₒ, lₒ]), (-1, [aᵥ, bᵥ, cᵥ, dᵥ, iₒ, kₒ, jₒ, lₒ]), (-1, [aᵥ, cᵥ, bᵥ, dᵥ, iₒ, jₒ, kₒ, lₒ]), (1, [aᵥ, cᵥ, bᵥ, dᵥ, iₒ, kₒ, jₒ, lₒ])]⟩,
  -- line 5175: mnef,eaim,fdkl,bcjn->abcdijkl
  ⟨1, [g_abab [mₒ, nₒ, eᵥ, fᵥ], t2_aaaa [eᵥ, aᵥ, iₒ, mₒ], t2_bbbb [fᵥ, dᵥ, kₒ, lₒ], t2_bbbb [bᵥ, cᵥ, jₒ, nₒ]], [(1, [aᵥ, bᵥ, cᵥ, dᵥ, iₒ, jₒ, kₒ, lₒ]), (-1, [aᵥ, bᵥ, cᵥ, dᵥ, iₒ, kₒ, jₒ, lₒ])]⟩,
  -- line 5179: nmef,aeim,fdkl,bcjn->abcdijkl
  ⟨1, [g_bbbb [nₒ, mₒ, eᵥ, fᵥ], t2_abab [aᵥ, eᵥ, iₒ, mₒ], t2_bbbb [fᵥ, dᵥ, kₒ, lₒ], t2_bbbb [bᵥ, cᵥ, jₒ, nₒ]], [(1, [aᵥ, bᵥ, cᵥ, dᵥ, iₒ, jₒ, kₒ, lₒ]), (-1, [aᵥ, bᵥ, cᵥ, dᵥ, iₒ, kₒ, jₒ, lₒ])]⟩,
  -- line 5183: nmef,ebim,fdkl,acnj->abcdijkl
  ⟨-1, [g_abab [nₒ, mₒ, eᵥ, fᵥ], t2_abab [eᵥ, bᵥ, iₒ, mₒ], t2_bbbb [fᵥ, dᵥ, kₒ, lₒ], t2_abab [aᵥ, cᵥ, nₒ, jₒ]], [(1, [aᵥ, bᵥ, cᵥ, dᵥ, iₒ, jₒ, kₒ, lₒ]), (-1, [aᵥ, bᵥ, cᵥ, dᵥ, iₒ, kₒ, jₒ, lₒ])]⟩,
  -- line 5187: mnfe,ebkl,fdmj,acin->abcdijkl
  ⟨1, [g_abab [mₒ, nₒ, fᵥ, eᵥ], t2_bbbb [eᵥ, bᵥ, kₒ, lₒ], t2_abab [fᵥ, dᵥ, mₒ, jₒ], t2_abab [aᵥ, cᵥ, iₒ, nₒ]], [(1, [aᵥ, bᵥ, cᵥ, dᵥ, iₒ, jₒ, kₒ, lₒ])]⟩,
  -- line 5190: nmef,ebkl,fdjm,acin->abcdijkl
  ⟨-1, [g_bbbb [nₒ, mₒ, eᵥ, fᵥ], t2_bbbb [eᵥ, bᵥ, kₒ, lₒ], t2_bbbb [fᵥ, dᵥ, jₒ, mₒ], t2_abab [aᵥ, cᵥ, iₒ, nₒ]], [(1, [aᵥ, bᵥ, cᵥ, dᵥ, iₒ, jₒ, kₒ, lₒ])]⟩,
  -- line 5193: nmfe,ebkl,fdim,acnj->abcdijkl
  ⟨1, [g_abab [nₒ, mₒ, fᵥ, eᵥ], t2_bbbb [eᵥ, bᵥ, kₒ, lₒ], t2_abab [fᵥ, dᵥ, iₒ, mₒ], t2_abab [aᵥ, cᵥ, nₒ, jₒ]], [(1, [aᵥ, bᵥ, cᵥ, dᵥ, iₒ, jₒ, kₒ, lₒ])]⟩,
  -- line 5196: nmfe,ebkl,fdij,acnm->abcdijkl
  ⟨-1/2, [g_abab [nₒ, mₒ, fᵥ, eᵥ], t2_bbbb [eᵥ, bᵥ, kₒ, lₒ], t2_abab [fᵥ, dᵥ, iₒ, jₒ], t2_abab [aᵥ, cᵥ, nₒ, mₒ]], [(1, [aᵥ, bᵥ, cᵥ, dᵥ, iₒ, jₒ, kₒ, lₒ]), (-1, [aᵥ, bᵥ, cᵥ, dᵥ, iₒ, kₒ, jₒ, lₒ])]⟩,
  -- line 5200: mnfe,ebkl,fdij,acmn->abcdijkl
  ⟨-1/2, [g_abab [mₒ, nₒ, fᵥ, eᵥ], t2_bbbb [eᵥ, bᵥ, kₒ, lₒ], t2_abab [fᵥ, dᵥ, iₒ, jₒ], t2_abab [aᵥ, cᵥ, mₒ, nₒ]], [(1, [aᵥ, bᵥ, cᵥ, dᵥ, iₒ, jₒ, kₒ, lₒ]), (-1, [aᵥ, bᵥ, cᵥ, dᵥ, iₒ, kₒ, jₒ, lₒ])]⟩,
  -- line 5204: mnfe,ebjl,fdmk,acin->abcdijkl
  ⟨-1, [g_abab [mₒ, nₒ, fᵥ, eᵥ], t2_bbbb [eᵥ, bᵥ, jₒ, lₒ], t2_abab [fᵥ, dᵥ, mₒ, kₒ], t2_abab [aᵥ, cᵥ, iₒ, nₒ]], [(1, [aᵥ, bᵥ, cᵥ, dᵥ, iₒ, jₒ, kₒ, lₒ])]⟩,
  -- line 5207: nmef,ebjl,fdkm,acin->abcdijkl
  ⟨1, [g_bbbb [nₒ, mₒ, eᵥ, fᵥ], t2_bbbb [eᵥ, bᵥ, jₒ, lₒ], t2_bbbb [fᵥ, dᵥ, kₒ, mₒ], t2_abab [aᵥ, cᵥ, iₒ, nₒ]], [(1, [aᵥ, bᵥ, cᵥ, dᵥ, iₒ, jₒ, kₒ, lₒ])]⟩,
  -- line 5210: nmfe,ebjl,fdim,acnk->abcdijkl
  ⟨-1, [g_abab [nₒ, mₒ, fᵥ, eᵥ], t2_bbbb [eᵥ, bᵥ, jₒ, lₒ], t2_abab [fᵥ, dᵥ, iₒ, mₒ], t2_abab [aᵥ, cᵥ, nₒ, kₒ]], [(1, [aᵥ, bᵥ, cᵥ, dᵥ, iₒ, jₒ, kₒ, lₒ])]⟩,
  -- line 5213: mnfe,aeil,fbmk,cdjn->abcdijkl
  ⟨1, [g_abab [mₒ, nₒ, fᵥ, eᵥ], t2_abab [aᵥ, eᵥ, iₒ, lₒ], t2_abab [fᵥ, bᵥ, mₒ, kₒ], t2_bbbb [cᵥ, dᵥ, jₒ, nₒ]], [(1, [aᵥ, bᵥ, cᵥ, dᵥ, iₒ, jₒ, kₒ, lₒ]), (-1, [aᵥ, bᵥ, cᵥ, dᵥ, iₒ, kₒ, jₒ, lₒ]), (-1, [aᵥ, cᵥ, bᵥ, dᵥ, iₒ, jₒ, kₒ, lₒ]), (1, [aᵥ, cᵥ, bᵥ, dᵥ, iₒ, kₒ, jₒ, lₒ])]⟩
  ]

/-- Part 8 of `ccdq_t4_abbbabbb`. -/
def ccdq_t4_abbbabbb_8 : Prog := [
  -- line 5217: nmef,aeil,fbkm,cdjn->abcdijkl
  ⟨-1, [g_bbbb [nₒ, mₒ, eᵥ, fᵥ], t2_abab [aᵥ, eᵥ, iₒ, lₒ], t2_bbbb [fᵥ, bᵥ, kₒ, mₒ], t2_bbbb [cᵥ, dᵥ, jₒ, nₒ]], [(1, [aᵥ, bᵥ, cᵥ, dᵥ, iₒ, jₒ, kₒ, lₒ]), (-1, [aᵥ, bᵥ, cᵥ, dᵥ, iₒ, kₒ, jₒ, lₒ]), (-1, [aᵥ, cᵥ, bᵥ, dᵥ, iₒ, jₒ, kₒ, lₒ]), (1, [aᵥ, cᵥ, bᵥ, dᵥ, iₒ, kₒ, jₒ, lₒ])]⟩,
  -- line 5221: nmef,aeil,fbjk,cdnm->abcdijkl
  ⟨1/2, [g_bbbb [nₒ, mₒ, eᵥ, fᵥ], t2_abab [aᵥ, eᵥ, iₒ, lₒ], t2_bbbb [fᵥ, bᵥ, jₒ, kₒ], t2_bbbb [cᵥ, dᵥ, nₒ, mₒ]], [(1, [aᵥ, bᵥ, cᵥ, dᵥ, iₒ, jₒ, kₒ, lₒ]), (-1, [aᵥ, bᵥ, cᵥ, dᵥ, iₒ, jₒ, lₒ, kₒ]), (-1, [aᵥ, cᵥ, bᵥ, dᵥ, iₒ, jₒ, kₒ, lₒ]), (1, [aᵥ, cᵥ, bᵥ, dᵥ, iₒ, jₒ, lₒ, kₒ])]⟩,
  -- line 5225: mnfe,aeil,fdmk,bcjn->abcdijkl
  ⟨1, [g_abab [mₒ, nₒ, fᵥ, eᵥ], t2_abab [aᵥ, eᵥ, iₒ, lₒ], t2_abab [fᵥ, dᵥ, mₒ, kₒ], t2_bbbb [bᵥ, cᵥ, jₒ, nₒ]], [(1, [aᵥ, bᵥ, cᵥ, dᵥ, iₒ, jₒ, kₒ, lₒ]), (-1, [aᵥ, bᵥ, cᵥ, dᵥ, iₒ, kₒ, jₒ, lₒ])]⟩,
  -- line 5229: nmef,aeil,fdkm,bcjn->abcdijkl
  ⟨-1, [g_bbbb [nₒ, mₒ, eᵥ, fᵥ], t2_abab [aᵥ, eᵥ, iₒ, lₒ], t2_bbbb [fᵥ, dᵥ, kₒ, mₒ], t2_bbbb [bᵥ, cᵥ, jₒ, nₒ]], [(1, [aᵥ, bᵥ, cᵥ, dᵥ, iₒ, jₒ, kₒ, lₒ]), (-1, [aᵥ, bᵥ, cᵥ, dᵥ, iₒ, kₒ, jₒ, lₒ])]⟩,
  -- line 5233: nmef,ebil,fdmk,acnj->abcdijkl
  ⟨-1, [g_aaaa [nₒ, mₒ, eᵥ, fᵥ], t2_abab [eᵥ, bᵥ, iₒ, lₒ], t2_abab [fᵥ, dᵥ, mₒ, kₒ], t2_abab [aᵥ, cᵥ, nₒ, jₒ]], [(1, [aᵥ, bᵥ, cᵥ, dᵥ, iₒ, jₒ, kₒ, lₒ]), (-1, [aᵥ, bᵥ, cᵥ, dᵥ, iₒ, kₒ, jₒ, lₒ])]⟩,
  -- line 5237: nmef,ebil,fdkm,acnj->abcdijkl
  ⟨1, [g_abab [nₒ, mₒ, eᵥ, fᵥ], t2_abab [eᵥ, bᵥ, iₒ, lₒ], t2_bbbb [fᵥ, dᵥ, kₒ, mₒ], t2_abab [aᵥ, cᵥ, nₒ, jₒ]], [(1, [aᵥ, bᵥ, cᵥ, dᵥ, iₒ, jₒ, kₒ, lₒ]), (-1, [aᵥ, bᵥ, cᵥ, dᵥ, iₒ, kₒ, jₒ, lₒ])]⟩,
  -- line 5241: nmef,aeil,fdjk,bcnm->abcdijkl
  ⟨1/2, [g_bbbb [nₒ, mₒ, eᵥ, fᵥ], t2_abab [aᵥ, eᵥ, iₒ, lₒ], t2_bbbb [fᵥ, dᵥ, jₒ, kₒ], t2_bbbb [bᵥ, cᵥ, nₒ, mₒ]], [(1, [aᵥ, bᵥ, cᵥ, dᵥ, iₒ, jₒ, kₒ, lₒ]), (-1, [aᵥ, bᵥ, cᵥ, dᵥ, iₒ, jₒ, lₒ, kₒ])]⟩,
  -- line 5245: nmef,ebil,fdjk,acnm->abcdijkl
  ⟨1/2, [g_abab [nₒ, mₒ, eᵥ, fᵥ], t2_abab [eᵥ, bᵥ, iₒ, lₒ], t2_bbbb [fᵥ, dᵥ, jₒ, kₒ], t2_abab [aᵥ, cᵥ, nₒ, mₒ]], [(1, [aᵥ, bᵥ, cᵥ, dᵥ, iₒ, jₒ, kₒ, lₒ]), (-1, [aᵥ, bᵥ, cᵥ, dᵥ, iₒ, jₒ, lₒ, kₒ])]⟩,
  -- line 5249: mnef,ebil,fdjk,acmn->abcdijkl
  ⟨1/2, [g_abab [mₒ, nₒ, eᵥ, fᵥ], t2_abab [eᵥ, bᵥ, iₒ, lₒ], t2_bbbb [fᵥ, dᵥ, jₒ, kₒ], t2_abab [aᵥ, cᵥ, mₒ, nₒ]], [(1, [aᵥ, bᵥ, cᵥ, dᵥ, iₒ, jₒ, kₒ, lₒ]), (-1, [aᵥ, bᵥ, cᵥ, dᵥ, iₒ, jₒ, lₒ, kₒ])]⟩,
  -- line 5253: nmef,aeij,fbkl,cdnm->abcdijkl
  ⟨1/2, [g_bbbb [nₒ, mₒ, eᵥ, fᵥ], t2_abab [aᵥ, eᵥ, iₒ, jₒ], t2_bbbb [fᵥ, bᵥ, kₒ, lₒ], t2_bbbb [cᵥ, dᵥ, nₒ, mₒ]], [(1, [aᵥ, bᵥ, cᵥ, dᵥ, iₒ, jₒ, kₒ, lₒ]), (-1, [aᵥ, cᵥ, bᵥ, dᵥ, iₒ, jₒ, kₒ, lₒ])]⟩,
  -- line 5257: mnfe,ebjk,fdml,acin->abcdijkl
  ⟨1, [g_abab [mₒ, nₒ, fᵥ, eᵥ], t2_bbbb [eᵥ, bᵥ, jₒ, kₒ], t2_abab [fᵥ, dᵥ, mₒ, lₒ], t2_abab [aᵥ, cᵥ, iₒ, nₒ]], [(1, [aᵥ, bᵥ, cᵥ, dᵥ, iₒ, jₒ, kₒ, lₒ])]⟩,
  -- line 5260: nmef,ebjk,fdlm,acin->abcdijkl
  ⟨-1, [g_bbbb [nₒ, mₒ, eᵥ, fᵥ], t2_bbbb [eᵥ, bᵥ, jₒ, kₒ], t2_bbbb [fᵥ, dᵥ, lₒ, mₒ], t2_abab [aᵥ, cᵥ, iₒ, nₒ]], [(1, [aᵥ, bᵥ, cᵥ, dᵥ, iₒ, jₒ, kₒ, lₒ])]⟩,
  -- line 5263: nmfe,ebjk,fdim,acnl->abcdijkl
  ⟨1, [g_abab [nₒ, mₒ, fᵥ, eᵥ], t2_bbbb [eᵥ, bᵥ, jₒ, kₒ], t2_abab [fᵥ, dᵥ, iₒ, mₒ], t2_abab [aᵥ, cᵥ, nₒ, lₒ]], [(1, [aᵥ, bᵥ, cᵥ, dᵥ, iₒ, jₒ, kₒ, lₒ])]⟩,
  -- line 5266: nmfe,ebjk,fdil,acnm->abcdijkl
  ⟨-1/2, [g_abab [nₒ, mₒ, fᵥ, eᵥ], t2_bbbb [eᵥ, bᵥ, jₒ, kₒ], t2_abab [fᵥ, dᵥ, iₒ, lₒ], t2_abab [aᵥ, cᵥ, nₒ, mₒ]], [(1, [aᵥ, bᵥ, cᵥ, dᵥ, iₒ, jₒ, kₒ, lₒ])]⟩,
  -- line 5269: mnfe,ebjk,fdil,acmn->abcdijkl
  ⟨-1/2, [g_abab [mₒ, nₒ, fᵥ, eᵥ], t2_bbbb [eᵥ, bᵥ, jₒ, kₒ], t2_abab [fᵥ, dᵥ, iₒ, lₒ], t2_abab [aᵥ, cᵥ, mₒ, nₒ]], [(1, [aᵥ, bᵥ, cᵥ, dᵥ, iₒ, jₒ, kₒ, lₒ])]⟩,
  -- line 5272: nmef,aeij,fdkl,bcnm->abcdijkl
  ⟨1/2, [g_bbbb [nₒ, mₒ, eᵥ, fᵥ], t2_abab [aᵥ, eᵥ, iₒ, jₒ], t2_bbbb [fᵥ, dᵥ, kₒ, lₒ], t2_bbbb [bᵥ, cᵥ, nₒ, mₒ]], [(1, [aᵥ, bᵥ, cᵥ, dᵥ, iₒ, jₒ, kₒ, lₒ])]⟩,
  -- line 5275: nmef,ebij,fdkl,acnm->abcdijkl
  ⟨1/2, [g_abab [nₒ, mₒ, eᵥ, fᵥ], t2_abab [eᵥ, bᵥ, iₒ, jₒ], t2_bbbb [fᵥ, dᵥ, kₒ, lₒ], t2_abab [aᵥ, cᵥ, nₒ, mₒ]], [(1, [aᵥ, bᵥ, cᵥ, dᵥ, iₒ, jₒ, kₒ, lₒ])]⟩,
  -- line 5278: mnef,ebij,fdkl,acmn->abcdijkl
  ⟨1/2, [g_abab [mₒ, nₒ, eᵥ, fᵥ], t2_abab [eᵥ, bᵥ, iₒ, jₒ], t2_bbbb [fᵥ, dᵥ, kₒ, lₒ], t2_abab [aᵥ, cᵥ, mₒ, nₒ]], [(1, [aᵥ, bᵥ, cᵥ, dᵥ, iₒ, jₒ, kₒ, lₒ])]⟩,
  -- line 5281: mnfe,aeik,fbml,cdjn->abcdijkl
  ⟨-1, [g_abab [mₒ, nₒ, fᵥ, eᵥ], t2_abab [aᵥ, eᵥ, iₒ, kₒ], t2_abab [fᵥ, bᵥ, mₒ, lₒ], t2_bbbb [cᵥ, dᵥ, jₒ, nₒ]], [(1, [aᵥ, bᵥ, cᵥ, dᵥ, iₒ, jₒ, kₒ, lₒ]), (-1, [aᵥ, bᵥ, cᵥ, dᵥ, iₒ, lₒ, kₒ, jₒ]), (-1, [aᵥ, cᵥ, bᵥ, dᵥ, iₒ, jₒ, kₒ, lₒ]), (1, [aᵥ, cᵥ, bᵥ, dᵥ, iₒ, lₒ, kₒ, jₒ])]⟩,
  -- line 5285: nmef,aeik,fblm,cdjn->abcdijkl
  ⟨1, [g_bbbb [nₒ, mₒ, eᵥ, fᵥ], t2_abab [aᵥ, eᵥ, iₒ, kₒ], t2_bbbb [fᵥ, bᵥ, lₒ, mₒ], t2_bbbb [cᵥ, dᵥ, jₒ, nₒ]], [(1, [aᵥ, bᵥ, cᵥ, dᵥ, iₒ, jₒ, kₒ, lₒ]), (-1, [aᵥ, bᵥ, cᵥ, dᵥ, iₒ, lₒ, kₒ, jₒ]), (-1, [aᵥ, cᵥ, bᵥ, dᵥ, iₒ, jₒ, kₒ, lₒ]), (1, [aᵥ, cᵥ, bᵥ, dᵥ, iₒ, lₒ, kₒ, jₒ])]⟩,
  -- line 5289: mnfe,aeik,fdml,bcjn->abcdijkl
  ⟨-1, [g_abab [mₒ, nₒ, fᵥ, eᵥ], t2_abab [aᵥ, eᵥ, iₒ, kₒ], t2_abab [fᵥ, dᵥ, mₒ, lₒ], t2_bbbb [bᵥ, cᵥ, jₒ, nₒ]], [(1, [aᵥ, bᵥ, cᵥ, dᵥ, iₒ, jₒ, kₒ, lₒ]), (-1, [aᵥ, bᵥ, cᵥ, dᵥ, iₒ, lₒ, kₒ, jₒ])]⟩,
  -- line 5293: nmef,aeik,fdlm,bcjn->abcdijkl
  ⟨1, [g_bbbb [nₒ, mₒ, eᵥ, fᵥ], t2_abab [aᵥ, eᵥ, iₒ, kₒ], t2_bbbb [fᵥ, dᵥ, lₒ, mₒ], t2_bbbb [bᵥ, cᵥ, jₒ, nₒ]], [(1, [aᵥ, bᵥ, cᵥ, dᵥ, iₒ, jₒ, kₒ, lₒ]), (-1, [aᵥ, bᵥ, cᵥ, dᵥ, iₒ, lₒ, kₒ, jₒ])]⟩,
  -- line 5297: nmef,ebik,fdml,acnj->abcdijkl
  ⟨1, [g_aaaa [nₒ, mₒ, eᵥ, fᵥ], t2_abab [eᵥ, bᵥ, iₒ, kₒ], t2_abab [fᵥ, dᵥ, mₒ, lₒ], t2_abab [aᵥ, cᵥ, nₒ, jₒ]], [(1, [aᵥ, bᵥ, cᵥ, dᵥ, iₒ, jₒ, kₒ, lₒ]), (-1, [aᵥ, bᵥ, cᵥ, dᵥ, iₒ, lₒ, kₒ, jₒ])]⟩,
  -- line 5301: nmef,ebik,fdlm,acnj->abcdijkl
  ⟨-1, [g_abab [nₒ, mₒ, eᵥ, fᵥ], t2_abab [eᵥ, bᵥ, iₒ, kₒ], t2_bbbb [fᵥ, dᵥ, lₒ, mₒ], t2_abab [aᵥ, cᵥ, nₒ, jₒ]], [(1, [aᵥ, bᵥ, cᵥ, dᵥ, iₒ, jₒ, kₒ, lₒ]), (-1, [aᵥ, bᵥ, cᵥ, dᵥ, iₒ, lₒ, kₒ, jₒ])]⟩,
  -- line 5305: mnfe,aeij,fbml,cdkn->abcdijkl
  ⟨1, [g_abab [mₒ, nₒ, fᵥ, eᵥ], t2_abab [aᵥ, eᵥ, iₒ, jₒ], t2_abab [fᵥ, bᵥ, mₒ, lₒ], t2_bbbb [cᵥ, dᵥ, kₒ, nₒ]], [(1, [aᵥ, bᵥ, cᵥ, dᵥ, iₒ, jₒ, kₒ, lₒ]), (-1, [aᵥ, bᵥ, cᵥ, dᵥ, iₒ, jₒ, lₒ, kₒ]), (-1, [aᵥ, cᵥ, bᵥ, dᵥ, iₒ, jₒ, kₒ, lₒ]), (1, [aᵥ, cᵥ, bᵥ, dᵥ, iₒ, jₒ, lₒ, kₒ])]⟩,
  -- line 5309: nmef,aeij,fblm,cdkn->abcdijkl
  ⟨-1, [g_bbbb [nₒ, mₒ, eᵥ, fᵥ], t2_abab [aᵥ, eᵥ, iₒ, jₒ], t2_bbbb [fᵥ, bᵥ, lₒ, mₒ], t2_bbbb [cᵥ, dᵥ, kₒ, nₒ]], [(1, [aᵥ, bᵥ, cᵥ, dᵥ, iₒ, jₒ, kₒ, lₒ]), (-1, [aᵥ, bᵥ, cᵥ, dᵥ, iₒ, jₒ, lₒ, kₒ]), (-1, [aᵥ, cᵥ, bᵥ, dᵥ, iₒ, jₒ, kₒ, lₒ]), (1, [aᵥ, cᵥ, bᵥ, dᵥ, iₒ, jₒ, lₒ, kₒ])]⟩,
  -- line 5313: mnfe,aeij,fdml,bckn->abcdijkl
  ⟨1, [g_abab [mₒ, nₒ, fᵥ, eᵥ], t2_abab [aᵥ, eᵥ, iₒ, jₒ], t2_abab [fᵥ, dᵥ, mₒ, lₒ], t2_bbbb [bᵥ, cᵥ, kₒ, nₒ]], [(1, [aᵥ, bᵥ, cᵥ, dᵥ, iₒ, jₒ, kₒ, lₒ]), (-1, [aᵥ, bᵥ, cᵥ, dᵥ, iₒ, jₒ, lₒ, kₒ])]⟩,
  -- line 5317: nmef,aeij,fdlm,bckn->abcdijkl
  ⟨-1, [g_bbbb [nₒ, mₒ, eᵥ, fᵥ], t2_abab [aᵥ, eᵥ, iₒ, jₒ], t2_bbbb [fᵥ, dᵥ, lₒ, mₒ], t2_bbbb [bᵥ, cᵥ, kₒ, nₒ]], [(1, [aᵥ, bᵥ, cᵥ, dᵥ, iₒ, jₒ, kₒ, lₒ]), (-1, [aᵥ, bᵥ, cᵥ, dᵥ, iₒ, jₒ, lₒ, kₒ])]⟩,
  -- line 5321: nmef,ebij,fdml,acnk->abcdijkl
  ⟨-1, [g_aaaa [nₒ, mₒ, eᵥ, fᵥ], t2_abab [eᵥ, bᵥ, iₒ, jₒ], t2_abab [fᵥ, dᵥ, mₒ, lₒ], t2_abab [aᵥ, cᵥ, nₒ, kₒ]], [(1, [aᵥ, bᵥ, cᵥ, dᵥ, iₒ, jₒ, kₒ, lₒ]), (-1, [aᵥ, bᵥ, cᵥ, dᵥ, iₒ, jₒ, lₒ, kₒ])]⟩,
  -- line 5325: nmef,ebij,fdlm,acnk->abcdijkl
  ⟨1, [g_abab [nₒ, mₒ, eᵥ, fᵥ], t2_abab [eᵥ, bᵥ, iₒ, jₒ], t2_bbbb [fᵥ, dᵥ, lₒ, mₒ], t2_abab [aᵥ, cᵥ, nₒ, kₒ]], [(1, [aᵥ, bᵥ, cᵥ, dᵥ, iₒ, jₒ, kₒ, lₒ]), (-1, [aᵥ, bᵥ, cᵥ, dᵥ, iₒ, jₒ, lₒ, kₒ])]⟩,
  -- line 5329: mnef,ebml,fcjk,adin->abcdijkl
  ⟨1, [g_abab [mₒ, nₒ, eᵥ, fᵥ], t2_abab [eᵥ, bᵥ, mₒ, lₒ], t2_bbbb [fᵥ, cᵥ, jₒ, kₒ], t2_abab [aᵥ, dᵥ, iₒ, nₒ]], [(1, [aᵥ, bᵥ, cᵥ, dᵥ, iₒ, jₒ, kₒ, lₒ])]⟩,
  -- line 5332: nmef,eblm,fcjk,adin->abcdijkl
  ⟨1, [g_bbbb [nₒ, mₒ, eᵥ, fᵥ], t2_bbbb [eᵥ, bᵥ, lₒ, mₒ], t2_bbbb [fᵥ, cᵥ, jₒ, kₒ], t2_abab [aᵥ, dᵥ, iₒ, nₒ]], [(1, [aᵥ, bᵥ, cᵥ, dᵥ, iₒ, jₒ, kₒ, lₒ])]⟩,
  -- line 5335: nmef,ebml,fcik,adnj->abcdijkl
  ⟨-1, [g_aaaa [nₒ, mₒ, eᵥ, fᵥ], t2_abab [eᵥ, bᵥ, mₒ, lₒ], t2_abab [fᵥ, cᵥ, iₒ, kₒ], t2_abab [aᵥ, dᵥ, nₒ, jₒ]], [(1, [aᵥ, bᵥ, cᵥ, dᵥ, iₒ, jₒ, kₒ, lₒ])]⟩,
  -- line 5338: nmfe,eblm,fcik,adnj->abcdijkl
  ⟨-1, [g_abab [nₒ, mₒ, fᵥ, eᵥ], t2_bbbb [eᵥ, bᵥ, lₒ, mₒ], t2_abab [fᵥ, cᵥ, iₒ, kₒ], t2_abab [aᵥ, dᵥ, nₒ, jₒ]], [(1, [aᵥ, bᵥ, cᵥ, dᵥ, iₒ, jₒ, kₒ, lₒ])]⟩,
  -- line 5341: nmef,ebml,fcij,adnk->abcdijkl
  ⟨1, [g_aaaa [nₒ, mₒ, eᵥ, fᵥ], t2_abab [eᵥ, bᵥ, mₒ, lₒ], t2_abab [fᵥ, cᵥ, iₒ, jₒ], t2_abab [aᵥ, dᵥ, nₒ, kₒ]], [(1, [aᵥ, bᵥ, cᵥ, dᵥ, iₒ, jₒ, kₒ, lₒ]), (-1, [aᵥ, bᵥ, cᵥ, dᵥ, iₒ, jₒ, lₒ, kₒ])]⟩,
  -- line 5345: nmfe,eblm,fcij,adnk->abcdijkl
  ⟨1, [g_abab [nₒ, mₒ, fᵥ, eᵥ], t2_bbbb [eᵥ, bᵥ, lₒ, mₒ], t2_abab [fᵥ, cᵥ, iₒ, jₒ], t2_abab [aᵥ, dᵥ, nₒ, kₒ]], [(1, [aᵥ, bᵥ, cᵥ, dᵥ, iₒ, jₒ, kₒ, lₒ]), (-1, [aᵥ, bᵥ, cᵥ, dᵥ, iₒ, jₒ, lₒ, kₒ])]⟩,
  -- line 5349: mnef,ebmk,fcjl,adin->abcdijkl
  ⟨-1, [g_abab [mₒ, nₒ, eᵥ, fᵥ], t2_abab [eᵥ, bᵥ, mₒ, kₒ], t2_bbbb [fᵥ, cᵥ, jₒ, lₒ], t2_abab [aᵥ, dᵥ, iₒ, nₒ]], [(1, [aᵥ, bᵥ, cᵥ, dᵥ, iₒ, jₒ, kₒ, lₒ])]⟩,
  -- line 5352: nmef,ebkm,fcjl,adin->abcdijkl
  ⟨-1, [g_bbbb [nₒ, mₒ, eᵥ, fᵥ], t2_bbbb [eᵥ, bᵥ, kₒ, mₒ], t2_bbbb [fᵥ, cᵥ, jₒ, lₒ], t2_abab [aᵥ, dᵥ, iₒ, nₒ]], [(1, [aᵥ, bᵥ, cᵥ, dᵥ, iₒ, jₒ, kₒ, lₒ])]⟩,
  -- line 5355: nmef,ebmk,fcil,adnj->abcdijkl
  ⟨1, [g_aaaa [nₒ, mₒ, eᵥ, fᵥ], t2_abab [eᵥ, bᵥ, mₒ, kₒ], t2_abab [fᵥ, cᵥ, iₒ, lₒ], t2_abab [aᵥ, dᵥ, nₒ, jₒ]], [(1, [aᵥ, bᵥ, cᵥ, dᵥ, iₒ, jₒ, kₒ, lₒ])]⟩,
  -- line 5358: nmfe,ebkm,fcil,adnj->abcdijkl
  ⟨1, [g_abab [nₒ, mₒ, fᵥ, eᵥ], t2_bbbb [eᵥ, bᵥ, kₒ, mₒ], t2_abab [fᵥ, cᵥ, iₒ, lₒ], t2_abab [aᵥ, dᵥ, nₒ, jₒ]], [(1, [aᵥ, bᵥ, cᵥ, dᵥ, iₒ, jₒ, kₒ, lₒ])]⟩
  ]

/-- Part 9 of `ccdq_t4_abbbabbb`. -/
def ccdq_t4_abbbabbb_9 : Prog := [
  -- line 5361: mnef,ebmj,fckl,adin->abcdijkl
  ⟨1, [g_abab [mₒ, nₒ, eᵥ, fᵥ], t2_abab [eᵥ, bᵥ, mₒ, jₒ], t2_bbbb [fᵥ, cᵥ, kₒ, lₒ], t2_abab [aᵥ, dᵥ, iₒ, nₒ]], [(1, [aᵥ, bᵥ, cᵥ, dᵥ, iₒ, jₒ, kₒ, lₒ])]⟩,
  -- line 5364: nmef,ebjm,fckl,adin->abcdijkl
  ⟨1, [g_bbbb [nₒ, mₒ, eᵥ, fᵥ], t2_bbbb [eᵥ, bᵥ, jₒ, mₒ], t2_bbbb [fᵥ, cᵥ, kₒ, lₒ], t2_abab [aᵥ, dᵥ, iₒ, nₒ]], [(1, [aᵥ, bᵥ, cᵥ, dᵥ, iₒ, jₒ, kₒ, lₒ])]⟩,
  -- line 5367: nmef,ebmj,fcil,adnk->abcdijkl
  ⟨-1, [g_aaaa [nₒ, mₒ, eᵥ, fᵥ], t2_abab [eᵥ, bᵥ, mₒ, jₒ], t2_abab [fᵥ, cᵥ, iₒ, lₒ], t2_abab [aᵥ, dᵥ, nₒ, kₒ]], [(1, [aᵥ, bᵥ, cᵥ, dᵥ, iₒ, jₒ, kₒ, lₒ])]⟩,
  -- line 5370: nmfe,ebjm,fcil,adnk->abcdijkl
  ⟨-1, [g_abab [nₒ, mₒ, fᵥ, eᵥ], t2_bbbb [eᵥ, bᵥ, jₒ, mₒ], t2_abab [fᵥ, cᵥ, iₒ, lₒ], t2_abab [aᵥ, dᵥ, nₒ, kₒ]], [(1, [aᵥ, bᵥ, cᵥ, dᵥ, iₒ, jₒ, kₒ, lₒ])]⟩,
  -- line 5373: nmef,ebmj,fcik,adnl->abcdijkl
  ⟨1, [g_aaaa [nₒ, mₒ, eᵥ, fᵥ], t2_abab [eᵥ, bᵥ, mₒ, jₒ], t2_abab [fᵥ, cᵥ, iₒ, kₒ], t2_abab [aᵥ, dᵥ, nₒ, lₒ]], [(1, [aᵥ, bᵥ, cᵥ, dᵥ, iₒ, jₒ, kₒ, lₒ])]⟩,
  -- line 5376: nmfe,ebjm,fcik,adnl->abcdijkl
  ⟨1, [g_abab [nₒ, mₒ, fᵥ, eᵥ], t2_bbbb [eᵥ, bᵥ, jₒ, mₒ], t2_abab [fᵥ, cᵥ, iₒ, kₒ], t2_abab [aᵥ, dᵥ, nₒ, lₒ]], [(1, [aᵥ, bᵥ, cᵥ, dᵥ, iₒ, jₒ, kₒ, lₒ])]⟩,
  -- line 5379: nmef,ebim,fcjk,adnl->abcdijkl
  ⟨1, [g_abab [nₒ, mₒ, eᵥ, fᵥ], t2_abab [eᵥ, bᵥ, iₒ, mₒ], t2_bbbb [fᵥ, cᵥ, jₒ, kₒ], t2_abab [aᵥ, dᵥ, nₒ, lₒ]], [(1, [aᵥ, bᵥ, cᵥ, dᵥ, iₒ, jₒ, kₒ, lₒ])]⟩,
  -- line 5382: nmef,ebim,fckl,adnj->abcdijkl
  ⟨1, [g_abab [nₒ, mₒ, eᵥ, fᵥ], t2_abab [eᵥ, bᵥ, iₒ, mₒ], t2_bbbb [fᵥ, cᵥ, kₒ, lₒ], t2_abab [aᵥ, dᵥ, nₒ, jₒ]], [(1, [aᵥ, bᵥ, cᵥ, dᵥ, iₒ, jₒ, kₒ, lₒ]), (-1, [aᵥ, bᵥ, cᵥ, dᵥ, iₒ, kₒ, jₒ, lₒ])]⟩,
  -- line 5386: mnfe,ebkl,fcmj,adin->abcdijkl
  ⟨-1, [g_abab [mₒ, nₒ, fᵥ, eᵥ], t2_bbbb [eᵥ, bᵥ, kₒ, lₒ], t2_abab [fᵥ, cᵥ, mₒ, jₒ], t2_abab [aᵥ, dᵥ, iₒ, nₒ]], [(1, [aᵥ, bᵥ, cᵥ, dᵥ, iₒ, jₒ, kₒ, lₒ])]⟩,
  -- line 5389: nmef,ebkl,fcjm,adin->abcdijkl
  ⟨1, [g_bbbb [nₒ, mₒ, eᵥ, fᵥ], t2_bbbb [eᵥ, bᵥ, kₒ, lₒ], t2_bbbb [fᵥ, cᵥ, jₒ, mₒ], t2_abab [aᵥ, dᵥ, iₒ, nₒ]], [(1, [aᵥ, bᵥ, cᵥ, dᵥ, iₒ, jₒ, kₒ, lₒ])]⟩,
  -- line 5392: nmfe,ebkl,fcim,adnj->abcdijkl
  ⟨-1, [g_abab [nₒ, mₒ, fᵥ, eᵥ], t2_bbbb [eᵥ, bᵥ, kₒ, lₒ], t2_abab [fᵥ, cᵥ, iₒ, mₒ], t2_abab [aᵥ, dᵥ, nₒ, jₒ]], [(1, [aᵥ, bᵥ, cᵥ, dᵥ, iₒ, jₒ, kₒ, lₒ])]⟩,
  -- line 5395: nmfe,ebkl,fcij,adnm->abcdijkl
  ⟨1/2, [g_abab [nₒ, mₒ, fᵥ, eᵥ], t2_bbbb [eᵥ, bᵥ, kₒ, lₒ], t2_abab [fᵥ, cᵥ, iₒ, jₒ], t2_abab [aᵥ, dᵥ, nₒ, mₒ]], [(1, [aᵥ, bᵥ, cᵥ, dᵥ, iₒ, jₒ, kₒ, lₒ]), (-1, [aᵥ, bᵥ, cᵥ, dᵥ, iₒ, kₒ, jₒ, lₒ])]⟩,
  -- line 5399: mnfe,ebkl,fcij,admn->abcdijkl
  ⟨1/2, [g_abab [mₒ, nₒ, fᵥ, eᵥ], t2_bbbb [eᵥ, bᵥ, kₒ, lₒ], t2_abab [fᵥ, cᵥ, iₒ, jₒ], t2_abab [aᵥ, dᵥ, mₒ, nₒ]], [(1, [aᵥ, bᵥ, cᵥ, dᵥ, iₒ, jₒ, kₒ, lₒ]), (-1, [aᵥ, bᵥ, cᵥ, dᵥ, iₒ, kₒ, jₒ, lₒ])]⟩,
  -- line 5403: mnfe,ebjl,fcmk,adin->abcdijkl
  ⟨1, [g_abab [mₒ, nₒ, fᵥ, eᵥ], t2_bbbb [eᵥ, bᵥ, jₒ, lₒ], t2_abab [fᵥ, cᵥ, mₒ, kₒ], t2_abab [aᵥ, dᵥ, iₒ, nₒ]], [(1, [aᵥ, bᵥ, cᵥ, dᵥ, iₒ, jₒ, kₒ, lₒ])]⟩,
  -- line 5406: nmef,ebjl,fckm,adin->abcdijkl
  ⟨-1, [g_bbbb [nₒ, mₒ, eᵥ, fᵥ], t2_bbbb [eᵥ, bᵥ, jₒ, lₒ], t2_bbbb [fᵥ, cᵥ, kₒ, mₒ], t2_abab [aᵥ, dᵥ, iₒ, nₒ]], [(1, [aᵥ, bᵥ, cᵥ, dᵥ, iₒ, jₒ, kₒ, lₒ])]⟩,
  -- line 5409: nmfe,ebjl,fcim,adnk->abcdijkl
  ⟨1, [g_abab [nₒ, mₒ, fᵥ, eᵥ], t2_bbbb [eᵥ, bᵥ, jₒ, lₒ], t2_abab [fᵥ, cᵥ, iₒ, mₒ], t2_abab [aᵥ, dᵥ, nₒ, kₒ]], [(1, [aᵥ, bᵥ, cᵥ, dᵥ, iₒ, jₒ, kₒ, lₒ])]⟩,
  -- line 5412: nmef,ebil,fcmk,adnj->abcdijkl
  ⟨1, [g_aaaa [nₒ, mₒ, eᵥ, fᵥ], t2_abab [eᵥ, bᵥ, iₒ, lₒ], t2_abab [fᵥ, cᵥ, mₒ, kₒ], t2_abab [aᵥ, dᵥ, nₒ, jₒ]], [(1, [aᵥ, bᵥ, cᵥ, dᵥ, iₒ, jₒ, kₒ, lₒ]), (-1, [aᵥ, bᵥ, cᵥ, dᵥ, iₒ, kₒ, jₒ, lₒ])]⟩,
  -- line 5416: nmef,ebil,fckm,adnj->abcdijkl
  ⟨-1, [g_abab [nₒ, mₒ, eᵥ, fᵥ], t2_abab [eᵥ, bᵥ, iₒ, lₒ], t2_bbbb [fᵥ, cᵥ, kₒ, mₒ], t2_abab [aᵥ, dᵥ, nₒ, jₒ]], [(1, [aᵥ, bᵥ, cᵥ, dᵥ, iₒ, jₒ, kₒ, lₒ]), (-1, [aᵥ, bᵥ, cᵥ, dᵥ, iₒ, kₒ, jₒ, lₒ])]⟩,
  -- line 5420: nmef,ebil,fcjk,adnm->abcdijkl
  ⟨-1/2, [g_abab [nₒ, mₒ, eᵥ, fᵥ], t2_abab [eᵥ, bᵥ, iₒ, lₒ], t2_bbbb [fᵥ, cᵥ, jₒ, kₒ], t2_abab [aᵥ, dᵥ, nₒ, mₒ]], [(1, [aᵥ, bᵥ, cᵥ, dᵥ, iₒ, jₒ, kₒ, lₒ]), (-1, [aᵥ, bᵥ, cᵥ, dᵥ, iₒ, jₒ, lₒ, kₒ])]⟩,
  -- line 5424: mnef,ebil,fcjk,admn->abcdijkl
  ⟨-1/2, [g_abab [mₒ, nₒ, eᵥ, fᵥ], t2_abab [eᵥ, bᵥ, iₒ, lₒ], t2_bbbb [fᵥ, cᵥ, jₒ, kₒ], t2_abab [aᵥ, dᵥ, mₒ, nₒ]], [(1, [aᵥ, bᵥ, cᵥ, dᵥ, iₒ, jₒ, kₒ, lₒ]), (-1, [aᵥ, bᵥ, cᵥ, dᵥ, iₒ, jₒ, lₒ, kₒ])]⟩,
  -- line 5428: mnfe,ebjk,fcml,adin->abcdijkl
  ⟨-1, [g_abab [mₒ, nₒ, fᵥ, eᵥ], t2_bbbb [eᵥ, bᵥ, jₒ, kₒ], t2_abab [fᵥ, cᵥ, mₒ, lₒ], t2_abab [aᵥ, dᵥ, iₒ, nₒ]], [(1, [aᵥ, bᵥ, cᵥ, dᵥ, iₒ, jₒ, kₒ, lₒ])]⟩,
  -- line 5431: nmef,ebjk,fclm,adin->abcdijkl
  ⟨1, [g_bbbb [nₒ, mₒ, eᵥ, fᵥ], t2_bbbb [eᵥ, bᵥ, jₒ, kₒ], t2_bbbb [fᵥ, cᵥ, lₒ, mₒ], t2_abab [aᵥ, dᵥ, iₒ, nₒ]], [(1, [aᵥ, bᵥ, cᵥ, dᵥ, iₒ, jₒ, kₒ, lₒ])]⟩,
  -- line 5434: nmfe,ebjk,fcim,adnl->abcdijkl
  ⟨-1, [g_abab [nₒ, mₒ, fᵥ, eᵥ], t2_bbbb [eᵥ, bᵥ, jₒ, kₒ], t2_abab [fᵥ, cᵥ, iₒ, mₒ], t2_abab [aᵥ, dᵥ, nₒ, lₒ]], [(1, [aᵥ, bᵥ, cᵥ, dᵥ, iₒ, jₒ, kₒ, lₒ])]⟩,
  -- line 5437: nmfe,ebjk,fcil,adnm->abcdijkl
  ⟨1/2, [g_abab [nₒ, mₒ, fᵥ, eᵥ], t2_bbbb [eᵥ, bᵥ, jₒ, kₒ], t2_abab [fᵥ, cᵥ, iₒ, lₒ], t2_abab [aᵥ, dᵥ, nₒ, mₒ]], [(1, [aᵥ, bᵥ, cᵥ, dᵥ, iₒ, jₒ, kₒ, lₒ])]⟩,
  -- line 5440: mnfe,ebjk,fcil,admn->abcdijkl
  ⟨1/2, [g_abab [mₒ, nₒ, fᵥ, eᵥ], t2_bbbb [eᵥ, bᵥ, jₒ, kₒ], t2_abab [fᵥ, cᵥ, iₒ, lₒ], t2_abab [aᵥ, dᵥ, mₒ, nₒ]], [(1, [aᵥ, bᵥ, cᵥ, dᵥ, iₒ, jₒ, kₒ, lₒ])]⟩,
  -- line 5443: nmef,ebij,fckl,adnm->abcdijkl
  ⟨-1/2, [g_abab [nₒ, mₒ, eᵥ, fᵥ], t2_abab [eᵥ, bᵥ, iₒ, jₒ], t2_bbbb [fᵥ, cᵥ, kₒ, lₒ], t2_abab [aᵥ, dᵥ, nₒ, mₒ]], [(1, [aᵥ, bᵥ, cᵥ, dᵥ, iₒ, jₒ, kₒ, lₒ])]⟩,
  -- line 5446: mnef,ebij,fckl,admn->abcdijkl
  ⟨-1/2, [g_abab [mₒ, nₒ, eᵥ, fᵥ], t2_abab [eᵥ, bᵥ, iₒ, jₒ], t2_bbbb [fᵥ, cᵥ, kₒ, lₒ], t2_abab [aᵥ, dᵥ, mₒ, nₒ]], [(1, [aᵥ, bᵥ, cᵥ, dᵥ, iₒ, jₒ, kₒ, lₒ])]⟩,
  -- line 5449: nmef,ebik,fcml,adnj->abcdijkl
  ⟨-1, [g_aaaa [nₒ, mₒ, eᵥ, fᵥ], t2_abab [eᵥ, bᵥ, iₒ, kₒ], t2_abab [fᵥ, cᵥ, mₒ, lₒ], t2_abab [aᵥ, dᵥ, nₒ, jₒ]], [(1, [aᵥ, bᵥ, cᵥ, dᵥ, iₒ, jₒ, kₒ, lₒ]), (-1, [aᵥ, bᵥ, cᵥ, dᵥ, iₒ, lₒ, kₒ, jₒ])]⟩,
  -- line 5453: nmef,ebik,fclm,adnj->abcdijkl
  ⟨1, [g_abab [nₒ, mₒ, eᵥ, fᵥ], t2_abab [eᵥ, bᵥ, iₒ, kₒ], t2_bbbb [fᵥ, cᵥ, lₒ, mₒ], t2_abab [aᵥ, dᵥ, nₒ, jₒ]], [(1, [aᵥ, bᵥ, cᵥ, dᵥ, iₒ, jₒ, kₒ, lₒ]), (-1, [aᵥ, bᵥ, cᵥ, dᵥ, iₒ, lₒ, kₒ, jₒ])]⟩,
  -- line 5457: nmef,ebij,fcml,adnk->abcdijkl
  ⟨1, [g_aaaa [nₒ, mₒ, eᵥ, fᵥ], t2_abab [eᵥ, bᵥ, iₒ, jₒ], t2_abab [fᵥ, cᵥ, mₒ, lₒ], t2_abab [aᵥ, dᵥ, nₒ, kₒ]], [(1, [aᵥ, bᵥ, cᵥ, dᵥ, iₒ, jₒ, kₒ, lₒ]), (-1, [aᵥ, bᵥ, cᵥ, dᵥ, iₒ, jₒ, lₒ, kₒ])]⟩,
  -- line 5461: nmef,ebij,fclm,adnk->abcdijkl
  ⟨-1, [g_abab [nₒ, mₒ, eᵥ, fᵥ], t2_abab [eᵥ, bᵥ, iₒ, jₒ], t2_bbbb [fᵥ, cᵥ, lₒ, mₒ], t2_abab [aᵥ, dᵥ, nₒ, kₒ]], [(1, [aᵥ, bᵥ, cᵥ, dᵥ, iₒ, jₒ, kₒ, lₒ]), (-1, [aᵥ, bᵥ, cᵥ, dᵥ, iₒ, jₒ, lₒ, kₒ])]⟩,
  -- line 5465: mnef,ecml,fdjk,abin->abcdijkl
  ⟨1, [g_abab [mₒ, nₒ, eᵥ, fᵥ], t2_abab [eᵥ, cᵥ, mₒ, lₒ], t2_bbbb [fᵥ, dᵥ, jₒ, kₒ], t2_abab [aᵥ, bᵥ, iₒ, nₒ]], [(1, [aᵥ, bᵥ, cᵥ, dᵥ, iₒ, jₒ, kₒ, lₒ])]⟩,
  -- line 5468: nmef,eclm,fdjk,abin->abcdijkl
  ⟨1, [g_bbbb [nₒ, mₒ, eᵥ, fᵥ], t2_bbbb [eᵥ, cᵥ, lₒ, mₒ], t2_bbbb [fᵥ, dᵥ, jₒ, kₒ], t2_abab [aᵥ, bᵥ, iₒ, nₒ]], [(1, [aᵥ, bᵥ, cᵥ, dᵥ, iₒ, jₒ, kₒ, lₒ])]⟩,
  -- line 5471: nmef,ecml,fdik,abnj->abcdijkl
  ⟨-1, [g_aaaa [nₒ, mₒ, eᵥ, fᵥ], t2_abab [eᵥ, cᵥ, mₒ, lₒ], t2_abab [fᵥ, dᵥ, iₒ, kₒ], t2_abab [aᵥ, bᵥ, nₒ, jₒ]], [(1, [aᵥ, bᵥ, cᵥ, dᵥ, iₒ, jₒ, kₒ, lₒ])]⟩,
  -- line 5474: nmfe,eclm,fdik,abnj->abcdijkl
  ⟨-1, [g_abab [nₒ, mₒ, fᵥ, eᵥ], t2_bbbb [eᵥ, cᵥ, lₒ, mₒ], t2_abab [fᵥ, dᵥ, iₒ, kₒ], t2_abab [aᵥ, bᵥ, nₒ, jₒ]], [(1, [aᵥ, bᵥ, cᵥ, dᵥ, iₒ, jₒ, kₒ, lₒ])]⟩,
  -- line 5477: nmef,ecml,fdij,abnk->abcdijkl
  ⟨1, [g_aaaa [nₒ, mₒ, eᵥ, fᵥ], t2_abab [eᵥ, cᵥ, mₒ, lₒ], t2_abab [fᵥ, dᵥ, iₒ, jₒ], t2_abab [aᵥ, bᵥ, nₒ, kₒ]], [(1, [aᵥ, bᵥ, cᵥ, dᵥ, iₒ, jₒ, kₒ, lₒ]), (-1, [aᵥ, bᵥ, cᵥ, dᵥ, iₒ, jₒ, lₒ, kₒ])]⟩,
  -- line 5481: nmfe,eclm,fdij,abnk->abcdijkl
  ⟨1, [g_abab [nₒ, mₒ, fᵥ, eᵥ], t2_bbbb [eᵥ, cᵥ, lₒ, mₒ], t2_abab [fᵥ, dᵥ, iₒ, jₒ], t2_abab [aᵥ, bᵥ, nₒ, kₒ]], [(1, [aᵥ, bᵥ, cᵥ, dᵥ, iₒ, jₒ, kₒ, lₒ]), (-1, [aᵥ, bᵥ, cᵥ, dᵥ, iₒ, jₒ, lₒ, kₒ])]⟩,
  -- line 5485: mnef,ecmk,fdjl,abin->abcdijkl
  ⟨-1, [g_abab [mₒ, nₒ, eᵥ, fᵥ], t2_abab [eᵥ, cᵥ, mₒ, kₒ], t2_bbbb [fᵥ, dᵥ, jₒ, lₒ], t2_abab [aᵥ, bᵥ, iₒ, nₒ]], [(1, [aᵥ, bᵥ, cᵥ, dᵥ, iₒ, jₒ, kₒ, lₒ])]⟩,
  -- line 5488: nmef,eckm,fdjl,abin->abcdijkl
  ⟨-1, [g_bbbb [nₒ, mₒ, eᵥ, fᵥ], t2_bbbb [eᵥ, cᵥ, kₒ, mₒ], t2_bbbb [fᵥ, dᵥ, jₒ, lₒ], t2_abab [aᵥ, bᵥ, iₒ, nₒ]], [(1, [aᵥ, bᵥ, cᵥ, dᵥ, iₒ, jₒ, kₒ, lₒ])]⟩,
  -- line 5491: nmef,ecmk,fdil,abnj->abcdijkl
  ⟨1, [g_aaaa [nₒ, mₒ, eᵥ, fᵥ], t2_abab [eᵥ, cᵥ, mₒ, kₒ], t2_abab [fᵥ, dᵥ, iₒ, lₒ], t2_abab [aᵥ, bᵥ, nₒ, jₒ]], [(1, [aᵥ, bᵥ, cᵥ, dᵥ, iₒ, jₒ, kₒ, lₒ])]⟩
  ]

/-- Part 10 of `ccdq_t4_abbbabbb`. -/
def ccdq_t4_abbbabbb_10 : Prog := [
  -- line 5494: nmfe,eckm,fdil,abnj->abcdijkl
  ⟨1, [g_abab [nₒ, mₒ, fᵥ, eᵥ], t2_bbbb [eᵥ, cᵥ, kₒ, mₒ], t2_abab [fᵥ, dᵥ, iₒ, lₒ], t2_abab [aᵥ, bᵥ, nₒ, jₒ]], [(1, [aᵥ, bᵥ, cᵥ, dᵥ, iₒ, jₒ, kₒ, lₒ])]⟩,
  -- line 5497: mnef,ecmj,fdkl,abin->abcdijkl
  ⟨1, [g_abab [mₒ, nₒ, eᵥ, fᵥ], t2_abab [eᵥ, cᵥ, mₒ, jₒ], t2_bbbb [fᵥ, dᵥ, kₒ, lₒ], t2_abab [aᵥ, bᵥ, iₒ, nₒ]], [(1, [aᵥ, bᵥ, cᵥ, dᵥ, iₒ, jₒ, kₒ, lₒ])]⟩,
  -- line 5500: nmef,ecjm,fdkl,abin->abcdijkl
  ⟨1, [g_bbbb [nₒ, mₒ, eᵥ, fᵥ], t2_bbbb [eᵥ, cᵥ, jₒ, mₒ], t2_bbbb [fᵥ, dᵥ, kₒ, lₒ], t2_abab [aᵥ, bᵥ, iₒ, nₒ]], [(1, [aᵥ, bᵥ, cᵥ, dᵥ, iₒ, jₒ, kₒ, lₒ])]⟩,
  -- line 5503: nmef,ecmj,fdil,abnk->abcdijkl
  ⟨-1, [g_aaaa [nₒ, mₒ, eᵥ, fᵥ], t2_abab [eᵥ, cᵥ, mₒ, jₒ], t2_abab [fᵥ, dᵥ, iₒ, lₒ], t2_abab [aᵥ, bᵥ, nₒ, kₒ]], [(1, [aᵥ, bᵥ, cᵥ, dᵥ, iₒ, jₒ, kₒ, lₒ])]⟩,
  -- line 5506: nmfe,ecjm,fdil,abnk->abcdijkl
  ⟨-1, [g_abab [nₒ, mₒ, fᵥ, eᵥ], t2_bbbb [eᵥ, cᵥ, jₒ, mₒ], t2_abab [fᵥ, dᵥ, iₒ, lₒ], t2_abab [aᵥ, bᵥ, nₒ, kₒ]], [(1, [aᵥ, bᵥ, cᵥ, dᵥ, iₒ, jₒ, kₒ, lₒ])]⟩,
  -- line 5509: nmef,ecmj,fdik,abnl->abcdijkl
  ⟨1, [g_aaaa [nₒ, mₒ, eᵥ, fᵥ], t2_abab [eᵥ, cᵥ, mₒ, jₒ], t2_abab [fᵥ, dᵥ, iₒ, kₒ], t2_abab [aᵥ, bᵥ, nₒ, lₒ]], [(1, [aᵥ, bᵥ, cᵥ, dᵥ, iₒ, jₒ, kₒ, lₒ])]⟩,
  -- line 5512: nmfe,ecjm,fdik,abnl->abcdijkl
  ⟨1, [g_abab [nₒ, mₒ, fᵥ, eᵥ], t2_bbbb [eᵥ, cᵥ, jₒ, mₒ], t2_abab [fᵥ, dᵥ, iₒ, kₒ], t2_abab [aᵥ, bᵥ, nₒ, lₒ]], [(1, [aᵥ, bᵥ, cᵥ, dᵥ, iₒ, jₒ, kₒ, lₒ])]⟩,
  -- line 5515: nmef,ecim,fdjk,abnl->abcdijkl
  ⟨1, [g_abab [nₒ, mₒ, eᵥ, fᵥ], t2_abab [eᵥ, cᵥ, iₒ, mₒ], t2_bbbb [fᵥ, dᵥ, jₒ, kₒ], t2_abab [aᵥ, bᵥ, nₒ, lₒ]], [(1, [aᵥ, bᵥ, cᵥ, dᵥ, iₒ, jₒ, kₒ, lₒ])]⟩,
  -- line 5518: nmef,ecim,fdkl,abnj->abcdijkl
  ⟨1, [g_abab [nₒ, mₒ, eᵥ, fᵥ], t2_abab [eᵥ, cᵥ, iₒ, mₒ], t2_bbbb [fᵥ, dᵥ, kₒ, lₒ], t2_abab [aᵥ, bᵥ, nₒ, jₒ]], [(1, [aᵥ, bᵥ, cᵥ, dᵥ, iₒ, jₒ, kₒ, lₒ]), (-1, [aᵥ, bᵥ, cᵥ, dᵥ, iₒ, kₒ, jₒ, lₒ])]⟩,
  -- line 5522: mnfe,eckl,fdmj,abin->abcdijkl
  ⟨-1, [g_abab [mₒ, nₒ, fᵥ, eᵥ], t2_bbbb [eᵥ, cᵥ, kₒ, lₒ], t2_abab [fᵥ, dᵥ, mₒ, jₒ], t2_abab [aᵥ, bᵥ, iₒ, nₒ]], [(1, [aᵥ, bᵥ, cᵥ, dᵥ, iₒ, jₒ, kₒ, lₒ])]⟩,
  -- line 5525: nmef,eckl,fdjm,abin->abcdijkl
  ⟨1, [g_bbbb [nₒ, mₒ, eᵥ, fᵥ], t2_bbbb [eᵥ, cᵥ, kₒ, lₒ], t2_bbbb [fᵥ, dᵥ, jₒ, mₒ], t2_abab [aᵥ, bᵥ, iₒ, nₒ]], [(1, [aᵥ, bᵥ, cᵥ, dᵥ, iₒ, jₒ, kₒ, lₒ])]⟩,
  -- line 5528: nmfe,eckl,fdim,abnj->abcdijkl
  ⟨-1, [g_abab [nₒ, mₒ, fᵥ, eᵥ], t2_bbbb [eᵥ, cᵥ, kₒ, lₒ], t2_abab [fᵥ, dᵥ, iₒ, mₒ], t2_abab [aᵥ, bᵥ, nₒ, jₒ]], [(1, [aᵥ, bᵥ, cᵥ, dᵥ, iₒ, jₒ, kₒ, lₒ])]⟩,
  -- line 5531: nmfe,eckl,fdij,abnm->abcdijkl
  ⟨1/2, [g_abab [nₒ, mₒ, fᵥ, eᵥ], t2_bbbb [eᵥ, cᵥ, kₒ, lₒ], t2_abab [fᵥ, dᵥ, iₒ, jₒ], t2_abab [aᵥ, bᵥ, nₒ, mₒ]], [(1, [aᵥ, bᵥ, cᵥ, dᵥ, iₒ, jₒ, kₒ, lₒ]), (-1, [aᵥ, bᵥ, cᵥ, dᵥ, iₒ, kₒ, jₒ, lₒ])]⟩,
  -- line 5535: mnfe,eckl,fdij,abmn->abcdijkl
  ⟨1/2, [g_abab [mₒ, nₒ, fᵥ, eᵥ], t2_bbbb [eᵥ, cᵥ, kₒ, lₒ], t2_abab [fᵥ, dᵥ, iₒ, jₒ], t2_abab [aᵥ, bᵥ, mₒ, nₒ]], [(1, [aᵥ, bᵥ, cᵥ, dᵥ, iₒ, jₒ, kₒ, lₒ]), (-1, [aᵥ, bᵥ, cᵥ, dᵥ, iₒ, kₒ, jₒ, lₒ])]⟩,
  -- line 5539: mnfe,ecjl,fdmk,abin->abcdijkl
  ⟨1, [g_abab [mₒ, nₒ, fᵥ, eᵥ], t2_bbbb [eᵥ, cᵥ, jₒ, lₒ], t2_abab [fᵥ, dᵥ, mₒ, kₒ], t2_abab [aᵥ, bᵥ, iₒ, nₒ]], [(1, [aᵥ, bᵥ, cᵥ, dᵥ, iₒ, jₒ, kₒ, lₒ])]⟩,
  -- line 5542: nmef,ecjl,fdkm,abin->abcdijkl
  ⟨-1, [g_bbbb [nₒ, mₒ, eᵥ, fᵥ], t2_bbbb [eᵥ, cᵥ, jₒ, lₒ], t2_bbbb [fᵥ, dᵥ, kₒ, mₒ], t2_abab [aᵥ, bᵥ, iₒ, nₒ]], [(1, [aᵥ, bᵥ, cᵥ, dᵥ, iₒ, jₒ, kₒ, lₒ])]⟩,
  -- line 5545: nmfe,ecjl,fdim,abnk->abcdijkl
  ⟨1, [g_abab [nₒ, mₒ, fᵥ, eᵥ], t2_bbbb [eᵥ, cᵥ, jₒ, lₒ], t2_abab [fᵥ, dᵥ, iₒ, mₒ], t2_abab [aᵥ, bᵥ, nₒ, kₒ]], [(1, [aᵥ, bᵥ, cᵥ, dᵥ, iₒ, jₒ, kₒ, lₒ])]⟩,
  -- line 5548: nmef,ecil,fdmk,abnj->abcdijkl
  ⟨1, [g_aaaa [nₒ, mₒ, eᵥ, fᵥ], t2_abab [eᵥ, cᵥ, iₒ, lₒ], t2_abab [fᵥ, dᵥ, mₒ, kₒ], t2_abab [aᵥ, bᵥ, nₒ, jₒ]], [(1, [aᵥ, bᵥ, cᵥ, dᵥ, iₒ, jₒ, kₒ, lₒ]), (-1, [aᵥ, bᵥ, cᵥ, dᵥ, iₒ, kₒ, jₒ, lₒ])]⟩,
  -- line 5552: nmef,ecil,fdkm,abnj->abcdijkl
  ⟨-1, [g_abab [nₒ, mₒ, eᵥ, fᵥ], t2_abab [eᵥ, cᵥ, iₒ, lₒ], t2_bbbb [fᵥ, dᵥ, kₒ, mₒ], t2_abab [aᵥ, bᵥ, nₒ, jₒ]], [(1, [aᵥ, bᵥ, cᵥ, dᵥ, iₒ, jₒ, kₒ, lₒ]), (-1, [aᵥ, bᵥ, cᵥ, dᵥ, iₒ, kₒ, jₒ, lₒ])]⟩,
  -- line 5556: nmef,ecil,fdjk,abnm->abcdijkl
  ⟨-1/2, [g_abab [nₒ, mₒ, eᵥ, fᵥ], t2_abab [eᵥ, cᵥ, iₒ, lₒ], t2_bbbb [fᵥ, dᵥ, jₒ, kₒ], t2_abab [aᵥ, bᵥ, nₒ, mₒ]], [(1, [aᵥ, bᵥ, cᵥ, dᵥ, iₒ, jₒ, kₒ, lₒ]), (-1, [aᵥ, bᵥ, cᵥ, dᵥ, iₒ, jₒ, lₒ, kₒ])]⟩,
  -- line 5560: mnef,ecil,fdjk,abmn->abcdijkl
  ⟨-1/2, [g_abab [mₒ, nₒ, eᵥ, fᵥ], t2_abab [eᵥ, cᵥ, iₒ, lₒ], t2_bbbb [fᵥ, dᵥ, jₒ, kₒ], t2_abab [aᵥ, bᵥ, mₒ, nₒ]], [(1, [aᵥ, bᵥ, cᵥ, dᵥ, iₒ, jₒ, kₒ, lₒ]), (-1, [aᵥ, bᵥ, cᵥ, dᵥ, iₒ, jₒ, lₒ, kₒ])]⟩,
  -- line 5564: mnfe,ecjk,fdml,abin->abcdijkl
  ⟨-1, [g_abab [mₒ, nₒ, fᵥ, eᵥ], t2_bbbb [eᵥ, cᵥ, jₒ, kₒ], t2_abab [fᵥ, dᵥ, mₒ, lₒ], t2_abab [aᵥ, bᵥ, iₒ, nₒ]], [(1, [aᵥ, bᵥ, cᵥ, dᵥ, iₒ, jₒ, kₒ, lₒ])]⟩,
  -- line 5567: nmef,ecjk,fdlm,abin->abcdijkl
  ⟨1, [g_bbbb [nₒ, mₒ, eᵥ, fᵥ], t2_bbbb [eᵥ, cᵥ, jₒ, kₒ], t2_bbbb [fᵥ, dᵥ, lₒ, mₒ], t2_abab [aᵥ, bᵥ, iₒ, nₒ]], [(1, [aᵥ, bᵥ, cᵥ, dᵥ, iₒ, jₒ, kₒ, lₒ])]⟩,
  -- line 5570: nmfe,ecjk,fdim,abnl->abcdijkl
  ⟨-1, [g_abab [nₒ, mₒ, fᵥ, eᵥ], t2_bbbb [eᵥ, cᵥ, jₒ, kₒ], t2_abab [fᵥ, dᵥ, iₒ, mₒ], t2_abab [aᵥ, bᵥ, nₒ, lₒ]], [(1, [aᵥ, bᵥ, cᵥ, dᵥ, iₒ, jₒ, kₒ, lₒ])]⟩,
  -- line 5573: nmfe,ecjk,fdil,abnm->abcdijkl
  ⟨1/2, [g_abab [nₒ, mₒ, fᵥ, eᵥ], t2_bbbb [eᵥ, cᵥ, jₒ, kₒ], t2_abab [fᵥ, dᵥ, iₒ, lₒ], t2_abab [aᵥ, bᵥ, nₒ, mₒ]], [(1, [aᵥ, bᵥ, cᵥ, dᵥ, iₒ, jₒ, kₒ, lₒ])]⟩,
  -- line 5576: mnfe,ecjk,fdil,abmn->abcdijkl
  ⟨1/2, [g_abab [mₒ, nₒ, fᵥ, eᵥ], t2_bbbb [eᵥ, cᵥ, jₒ, kₒ], t2_abab [fᵥ, dᵥ, iₒ, lₒ], t2_abab [aᵥ, bᵥ, mₒ, nₒ]], [(1, [aᵥ, bᵥ, cᵥ, dᵥ, iₒ, jₒ, kₒ, lₒ])]⟩,
  -- line 5579: nmef,ecij,fdkl,abnm->abcdijkl
  ⟨-1/2, [g_abab [nₒ, mₒ, eᵥ, fᵥ], t2_abab [eᵥ, cᵥ, iₒ, jₒ], t2_bbbb [fᵥ, dᵥ, kₒ, lₒ], t2_abab [aᵥ, bᵥ, nₒ, mₒ]], [(1, [aᵥ, bᵥ, cᵥ, dᵥ, iₒ, jₒ, kₒ, lₒ])]⟩,
  -- line 5582: mnef,ecij,fdkl,abmn->abcdijkl
  ⟨-1/2, [g_abab [mₒ, nₒ, eᵥ, fᵥ], t2_abab [eᵥ, cᵥ, iₒ, jₒ], t2_bbbb [fᵥ, dᵥ, kₒ, lₒ], t2_abab [aᵥ, bᵥ, mₒ, nₒ]], [(1, [aᵥ, bᵥ, cᵥ, dᵥ, iₒ, jₒ, kₒ, lₒ])]⟩,
  -- line 5585: nmef,ecik,fdml,abnj->abcdijkl
  ⟨-1, [g_aaaa [nₒ, mₒ, eᵥ, fᵥ], t2_abab [eᵥ, cᵥ, iₒ, kₒ], t2_abab [fᵥ, dᵥ, mₒ, lₒ], t2_abab [aᵥ, bᵥ, nₒ, jₒ]], [(1, [aᵥ, bᵥ, cᵥ, dᵥ, iₒ, jₒ, kₒ, lₒ]), (-1, [aᵥ, bᵥ, cᵥ, dᵥ, iₒ, lₒ, kₒ, jₒ])]⟩,
  -- line 5589: nmef,ecik,fdlm,abnj->abcdijkl
  ⟨1, [g_abab [nₒ, mₒ, eᵥ, fᵥ], t2_abab [eᵥ, cᵥ, iₒ, kₒ], t2_bbbb [fᵥ, dᵥ, lₒ, mₒ], t2_abab [aᵥ, bᵥ, nₒ, jₒ]], [(1, [aᵥ, bᵥ, cᵥ, dᵥ, iₒ, jₒ, kₒ, lₒ]), (-1, [aᵥ, bᵥ, cᵥ, dᵥ, iₒ, lₒ, kₒ, jₒ])]⟩,
  -- line 5593: nmef,ecij,fdml,abnk->abcdijkl
  ⟨1, [g_aaaa [nₒ, mₒ, eᵥ, fᵥ], t2_abab [eᵥ, cᵥ, iₒ, jₒ], t2_abab [fᵥ, dᵥ, mₒ, lₒ], t2_abab [aᵥ, bᵥ, nₒ, kₒ]], [(1, [aᵥ, bᵥ, cᵥ, dᵥ, iₒ, jₒ, kₒ, lₒ]), (-1, [aᵥ, bᵥ, cᵥ, dᵥ, iₒ, jₒ, lₒ, kₒ])]⟩,
  -- line 5597: nmef,ecij,fdlm,abnk->abcdijkl
  ⟨-1, [g_abab [nₒ, mₒ, eᵥ, fᵥ], t2_abab [eᵥ, cᵥ, iₒ, jₒ], t2_bbbb [fᵥ, dᵥ, lₒ, mₒ], t2_abab [aᵥ, bᵥ, nₒ, kₒ]], [(1, [aᵥ, bᵥ, cᵥ, dᵥ, iₒ, jₒ, kₒ, lₒ]), (-1, [aᵥ, bᵥ, cᵥ, dᵥ, iₒ, jₒ, lₒ, kₒ])]⟩
  ]

/-- `UT2/ccdq_resids.py` 4078-5600, `ccdq_t4_abbbabbb_residual`. -/
def ccdq_t4_abbbabbb : Prog := ccdq_t4_abbbabbb_0 ++ (ccdq_t4_abbbabbb_1 ++ (ccdq_t4_abbbabbb_2 ++ (ccdq_t4_abbbabbb_3 ++ (ccdq_t4_abbbabbb_4 ++ (ccdq_t4_abbbabbb_5 ++ (ccdq_t4_abbbabbb_6 ++ (ccdq_t4_abbbabbb_7 ++ (ccdq_t4_abbbabbb_8 ++ (ccdq_t4_abbbabbb_9 ++ (ccdq_t4_abbbabbb_10))))))))))

end Verif.Gen
