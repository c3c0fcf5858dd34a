import Verif.Ein.Names
import Verif.Gen.Antisym

/-! Written by `/verif/tools/gen.py`. Programs read from `/repo/UT2`. -/

set_option maxRecDepth 100000

namespace Verif.Gen

open Verif.Ein Verif.Ein.N


/-- `UT2/t2residEqns.py` 92-174, `ccd_t2_aaaa_residual`. -/
def ccd_t2_aaaa : Prog := [
  -- line 100: in,efmi->efmn
  ⟨-1, [f_aa [iₒ, nₒ], t2_aaaa [eᵥ, fᵥ, mₒ, iₒ]], [(1, [eᵥ, fᵥ, mₒ, nₒ]), (-1, [eᵥ, fᵥ, nₒ, mₒ])]⟩,
  -- line 104: ea,afmn->efmn
  ⟨1, [f_aa [eᵥ, aᵥ], t2_aaaa [aᵥ, fᵥ, mₒ, nₒ]], [(1, [eᵥ, fᵥ, mₒ, nₒ]), (-1, [fᵥ, eᵥ, mₒ, nₒ])]⟩,
  -- line 108: efmn->efmn
  ⟨1, [g_aaaa [eᵥ, fᵥ, mₒ, nₒ]], [(1, [eᵥ, fᵥ, mₒ, nₒ])]⟩,
  -- line 111: jimn,efji->efmn
  ⟨1/2, [g_aaaa [jₒ, iₒ, mₒ, nₒ], t2_aaaa [eᵥ, fᵥ, jₒ, iₒ]], [(1, [eᵥ, fᵥ, mₒ, nₒ])]⟩,
  -- line 114: iean,afmi->efmn
  ⟨1, [g_aaaa [iₒ, eᵥ, aᵥ, nₒ], t2_aaaa [aᵥ, fᵥ, mₒ, iₒ]], [(1, [eᵥ, fᵥ, mₒ, nₒ]), (-1, [eᵥ, fᵥ, nₒ, mₒ]), (-1, [fᵥ, eᵥ, mₒ, nₒ]), (1, [fᵥ, eᵥ, nₒ, mₒ])]⟩,
  -- line 118: eina,fami->efmn
  ⟨-1, [g_abab [eᵥ, iₒ, nₒ, aᵥ], t2_abab [fᵥ, aᵥ, mₒ, iₒ]], [(1, [eᵥ, fᵥ, mₒ, nₒ]), (-1, [eᵥ, fᵥ, nₒ, mₒ]), (-1, [fᵥ, eᵥ, mₒ, nₒ]), (1, [fᵥ, eᵥ, nₒ, mₒ])]⟩,
  -- line 122: efab,abmn->efmn
  ⟨1/2, [g_aaaa [eᵥ, fᵥ, aᵥ, bᵥ], t2_aaaa [aᵥ, bᵥ, mₒ, nₒ]], [(1, [eᵥ, fᵥ, mₒ, nₒ])]⟩,
  -- line 125: jiab,abni,efmj->efmn
  ⟨-1/2, [g_aaaa [jₒ, iₒ, aᵥ, bᵥ], t2_aaaa [aᵥ, bᵥ, nₒ, iₒ], t2_aaaa [eᵥ, fᵥ, mₒ, jₒ]], [(1, [eᵥ, fᵥ, mₒ, nₒ]), (-1, [eᵥ, fᵥ, nₒ, mₒ])]⟩,
  -- line 129: jiab,abni,efmj->efmn
  ⟨-1/2, [g_abab [jₒ, iₒ, aᵥ, bᵥ], t2_abab [aᵥ, bᵥ, nₒ, iₒ], t2_aaaa [eᵥ, fᵥ, mₒ, jₒ]], [(1, [eᵥ, fᵥ, mₒ, nₒ]), (-1, [eᵥ, fᵥ, nₒ, mₒ])]⟩,
  -- line 133: jiba,bani,efmj->efmn
  ⟨-1/2, [g_abab [jₒ, iₒ, bᵥ, aᵥ], t2_abab [bᵥ, aᵥ, nₒ, iₒ], t2_aaaa [eᵥ, fᵥ, mₒ, jₒ]], [(1, [eᵥ, fᵥ, mₒ, nₒ]), (-1, [eᵥ, fᵥ, nₒ, mₒ])]⟩,
  -- line 137: jiab,abmn,efji->efmn
  ⟨1/4, [g_aaaa [jₒ, iₒ, aᵥ, bᵥ], t2_aaaa [aᵥ, bᵥ, mₒ, nₒ], t2_aaaa [eᵥ, fᵥ, jₒ, iₒ]], [(1, [eᵥ, fᵥ, mₒ, nₒ])]⟩,
  -- line 140: jiab,aeji,bfmn->efmn
  ⟨-1/2, [g_aaaa [jₒ, iₒ, aᵥ, bᵥ], t2_aaaa [aᵥ, eᵥ, jₒ, iₒ], t2_aaaa [bᵥ, fᵥ, mₒ, nₒ]], [(1, [eᵥ, fᵥ, mₒ, nₒ])]⟩,
  -- line 143: jiba,eaji,bfmn->efmn
  ⟨-1/2, [g_abab [jₒ, iₒ, bᵥ, aᵥ], t2_abab [eᵥ, aᵥ, jₒ, iₒ], t2_aaaa [bᵥ, fᵥ, mₒ, nₒ]], [(1, [eᵥ, fᵥ, mₒ, nₒ])]⟩,
  -- line 146: ijba,eaij,bfmn->efmn
  ⟨-1/2, [g_abab [iₒ, jₒ, bᵥ, aᵥ], t2_abab [eᵥ, aᵥ, iₒ, jₒ], t2_aaaa [bᵥ, fᵥ, mₒ, nₒ]], [(1, [eᵥ, fᵥ, mₒ, nₒ])]⟩,
  -- line 149: jiab,aeni,bfmj->efmn
  ⟨1, [g_aaaa [jₒ, iₒ, aᵥ, bᵥ], t2_aaaa [aᵥ, eᵥ, nₒ, iₒ], t2_aaaa [bᵥ, fᵥ, mₒ, jₒ]], [(1, [eᵥ, fᵥ, mₒ, nₒ]), (-1, [eᵥ, fᵥ, nₒ, mₒ])]⟩,
  -- line 153: ijab,aeni,fbmj->efmn
  ⟨1, [g_abab [iₒ, jₒ, aᵥ, bᵥ], t2_aaaa [aᵥ, eᵥ, nₒ, iₒ], t2_abab [fᵥ, bᵥ, mₒ, jₒ]], [(1, [eᵥ, fᵥ, mₒ, nₒ]), (-1, [eᵥ, fᵥ, nₒ, mₒ])]⟩,
  -- line 157: jiba,eani,bfmj->efmn
  ⟨1, [g_abab [jₒ, iₒ, bᵥ, aᵥ], t2_abab [eᵥ, aᵥ, nₒ, iₒ], t2_aaaa [bᵥ, fᵥ, mₒ, jₒ]], [(1, [eᵥ, fᵥ, mₒ, nₒ]), (-1, [eᵥ, fᵥ, nₒ, mₒ])]⟩,
  -- line 161: jiab,eani,fbmj->efmn
  ⟨1, [g_bbbb [jₒ, iₒ, aᵥ, bᵥ], t2_abab [eᵥ, aᵥ, nₒ, iₒ], t2_abab [fᵥ, bᵥ, mₒ, jₒ]], [(1, [eᵥ, fᵥ, mₒ, nₒ]), (-1, [eᵥ, fᵥ, nₒ, mₒ])]⟩,
  -- line 165: jiab,aemn,bfji->efmn
  ⟨-1/2, [g_aaaa [jₒ, iₒ, aᵥ, bᵥ], t2_aaaa [aᵥ, eᵥ, mₒ, nₒ], t2_aaaa [bᵥ, fᵥ, jₒ, iₒ]], [(1, [eᵥ, fᵥ, mₒ, nₒ])]⟩,
  -- line 168: jiab,aemn,fbji->efmn
  ⟨1/2, [g_abab [jₒ, iₒ, aᵥ, bᵥ], t2_aaaa [aᵥ, eᵥ, mₒ, nₒ], t2_abab [fᵥ, bᵥ, jₒ, iₒ]], [(1, [eᵥ, fᵥ, mₒ, nₒ])]⟩,
  -- line 171: ijab,aemn,fbij->efmn
  ⟨1/2, [g_abab [iₒ, jₒ, aᵥ, bᵥ], t2_aaaa [aᵥ, eᵥ, mₒ, nₒ], t2_abab [fᵥ, bᵥ, iₒ, jₒ]], [(1, [eᵥ, fᵥ, mₒ, nₒ])]⟩
  ]

/-- `UT2/t2residEqns.py` 177-258, `ccd_t2_bbbb_residual`. -/
def ccd_t2_bbbb : Prog := [
  -- line 185: in,efmi->efmn
  ⟨-1, [f_bb [iₒ, nₒ], t2_bbbb [eᵥ, fᵥ, mₒ, iₒ]], [(1, [eᵥ, fᵥ, mₒ, nₒ]), (-1, [eᵥ, fᵥ, nₒ, mₒ])]⟩,
  -- line 189: ea,afmn->efmn
  ⟨1, [f_bb [eᵥ, aᵥ], t2_bbbb [aᵥ, fᵥ, mₒ, nₒ]], [(1, [eᵥ, fᵥ, mₒ, nₒ]), (-1, [fᵥ, eᵥ, mₒ, nₒ])]⟩,
  -- line 193: efmn->efmn
  ⟨1, [g_bbbb [eᵥ, fᵥ, mₒ, nₒ]], [(1, [eᵥ, fᵥ, mₒ, nₒ])]⟩,
  -- line 196: jimn,efji->efmn
  ⟨1/2, [g_bbbb [jₒ, iₒ, mₒ, nₒ], t2_bbbb [eᵥ, fᵥ, jₒ, iₒ]], [(1, [eᵥ, fᵥ, mₒ, nₒ])]⟩,
  -- line 199: iean,afim->efmn
  ⟨-1, [g_abab [iₒ, eᵥ, aᵥ, nₒ], t2_abab [aᵥ, fᵥ, iₒ, mₒ]], [(1, [eᵥ, fᵥ, mₒ, nₒ]), (-1, [eᵥ, fᵥ, nₒ, mₒ]), (-1, [fᵥ, eᵥ, mₒ, nₒ]), (1, [fᵥ, eᵥ, nₒ, mₒ])]⟩,
  -- line 203: iean,afmi->efmn
  ⟨1, [g_bbbb [iₒ, eᵥ, aᵥ, nₒ], t2_bbbb [aᵥ, fᵥ, mₒ, iₒ]], [(1, [eᵥ, fᵥ, mₒ, nₒ]), (-1, [eᵥ, fᵥ, nₒ, mₒ]), (-1, [fᵥ, eᵥ, mₒ, nₒ]), (1, [fᵥ, eᵥ, nₒ, mₒ])]⟩,
  -- line 207: efab,abmn->efmn
  ⟨1/2, [g_bbbb [eᵥ, fᵥ, aᵥ, bᵥ], t2_bbbb [aᵥ, bᵥ, mₒ, nₒ]], [(1, [eᵥ, fᵥ, mₒ, nₒ])]⟩,
  -- line 210: ijab,abin,efmj->efmn
  ⟨-1/2, [g_abab [iₒ, jₒ, aᵥ, bᵥ], t2_abab [aᵥ, bᵥ, iₒ, nₒ], t2_bbbb [eᵥ, fᵥ, mₒ, jₒ]], [(1, [eᵥ, fᵥ, mₒ, nₒ]), (-1, [eᵥ, fᵥ, nₒ, mₒ])]⟩,
  -- line 214: ijba,bain,efmj->efmn
  ⟨-1/2, [g_abab [iₒ, jₒ, bᵥ, aᵥ], t2_abab [bᵥ, aᵥ, iₒ, nₒ], t2_bbbb [eᵥ, fᵥ, mₒ, jₒ]], [(1, [eᵥ, fᵥ, mₒ, nₒ]), (-1, [eᵥ, fᵥ, nₒ, mₒ])]⟩,
  -- line 218: jiab,abni,efmj->efmn
  ⟨-1/2, [g_bbbb [jₒ, iₒ, aᵥ, bᵥ], t2_bbbb [aᵥ, bᵥ, nₒ, iₒ], t2_bbbb [eᵥ, fᵥ, mₒ, jₒ]], [(1, [eᵥ, fᵥ, mₒ, nₒ]), (-1, [eᵥ, fᵥ, nₒ, mₒ])]⟩,
  -- line 222: jiab,abmn,efji->efmn
  ⟨1/4, [g_bbbb [jₒ, iₒ, aᵥ, bᵥ], t2_bbbb [aᵥ, bᵥ, mₒ, nₒ], t2_bbbb [eᵥ, fᵥ, jₒ, iₒ]], [(1, [eᵥ, fᵥ, mₒ, nₒ])]⟩,
  -- line 225: jiab,aeji,bfmn->efmn
  ⟨-1/2, [g_abab [jₒ, iₒ, aᵥ, bᵥ], t2_abab [aᵥ, eᵥ, jₒ, iₒ], t2_bbbb [bᵥ, fᵥ, mₒ, nₒ]], [(1, [eᵥ, fᵥ, mₒ, nₒ])]⟩,
  -- line 228: ijab,aeij,bfmn->efmn
  ⟨-1/2, [g_abab [iₒ, jₒ, aᵥ, bᵥ], t2_abab [aᵥ, eᵥ, iₒ, jₒ], t2_bbbb [bᵥ, fᵥ, mₒ, nₒ]], [(1, [eᵥ, fᵥ, mₒ, nₒ])]⟩,
  -- line 231: jiab,aeji,bfmn->efmn
  ⟨-1/2, [g_bbbb [jₒ, iₒ, aᵥ, bᵥ], t2_bbbb [aᵥ, eᵥ, jₒ, iₒ], t2_bbbb [bᵥ, fᵥ, mₒ, nₒ]], [(1, [eᵥ, fᵥ, mₒ, nₒ])]⟩,
  -- line 234: jiab,aein,bfjm->efmn
  ⟨1, [g_aaaa [jₒ, iₒ, aᵥ, bᵥ], t2_abab [aᵥ, eᵥ, iₒ, nₒ], t2_abab [bᵥ, fᵥ, jₒ, mₒ]], [(1, [eᵥ, fᵥ, mₒ, nₒ]), (-1, [eᵥ, fᵥ, nₒ, mₒ])]⟩,
  -- line 238: ijab,aein,bfmj->efmn
  ⟨1, [g_abab [iₒ, jₒ, aᵥ, bᵥ], t2_abab [aᵥ, eᵥ, iₒ, nₒ], t2_bbbb [bᵥ, fᵥ, mₒ, jₒ]], [(1, [eᵥ, fᵥ, mₒ, nₒ]), (-1, [eᵥ, fᵥ, nₒ, mₒ])]⟩,
  -- line 242: jiba,aeni,bfjm->efmn
  ⟨1, [g_abab [jₒ, iₒ, bᵥ, aᵥ], t2_bbbb [aᵥ, eᵥ, nₒ, iₒ], t2_abab [bᵥ, fᵥ, jₒ, mₒ]], [(1, [eᵥ, fᵥ, mₒ, nₒ]), (-1, [eᵥ, fᵥ, nₒ, mₒ])]⟩,
  -- line 246: jiab,aeni,bfmj->efmn
  ⟨1, [g_bbbb [jₒ, iₒ, aᵥ, bᵥ], t2_bbbb [aᵥ, eᵥ, nₒ, iₒ], t2_bbbb [bᵥ, fᵥ, mₒ, jₒ]], [(1, [eᵥ, fᵥ, mₒ, nₒ]), (-1, [eᵥ, fᵥ, nₒ, mₒ])]⟩,
  -- line 250: jiba,aemn,bfji->efmn
  ⟨1/2, [g_abab [jₒ, iₒ, bᵥ, aᵥ], t2_bbbb [aᵥ, eᵥ, mₒ, nₒ], t2_abab [bᵥ, fᵥ, jₒ, iₒ]], [(1, [eᵥ, fᵥ, mₒ, nₒ])]⟩,
  -- line 253: ijba,aemn,bfij->efmn
  ⟨1/2, [g_abab [iₒ, jₒ, bᵥ, aᵥ], t2_bbbb [aᵥ, eᵥ, mₒ, nₒ], t2_abab [bᵥ, fᵥ, iₒ, jₒ]], [(1, [eᵥ, fᵥ, mₒ, nₒ])]⟩,
  -- line 256: jiab,aemn,bfji->efmn
  ⟨-1/2, [g_bbbb [jₒ, iₒ, aᵥ, bᵥ], t2_bbbb [aᵥ, eᵥ, mₒ, nₒ], t2_bbbb [bᵥ, fᵥ, jₒ, iₒ]], [(1, [eᵥ, fᵥ, mₒ, nₒ])]⟩
  ]

/-- `UT2/t2residEqns.py` 261-376, `ccd_t2_abab_residual`. -/
def ccd_t2_abab : Prog := [
  -- line 269: in,efmi->efmn
  ⟨-1, [f_bb [iₒ, nₒ], t2_abab [eᵥ, fᵥ, mₒ, iₒ]], [(1, [eᵥ, fᵥ, mₒ, nₒ])]⟩,
  -- line 272: im,efin->efmn
  ⟨-1, [f_aa [iₒ, mₒ], t2_abab [eᵥ, fᵥ, iₒ, nₒ]], [(1, [eᵥ, fᵥ, mₒ, nₒ])]⟩,
  -- line 275: ea,afmn->efmn
  ⟨1, [f_aa [eᵥ, aᵥ], t2_abab [aᵥ, fᵥ, mₒ, nₒ]], [(1, [eᵥ, fᵥ, mₒ, nₒ])]⟩,
  -- line 278: fa,eamn->efmn
  ⟨1, [f_bb [fᵥ, aᵥ], t2_abab [eᵥ, aᵥ, mₒ, nₒ]], [(1, [eᵥ, fᵥ, mₒ, nₒ])]⟩,
  -- line 281: efmn->efmn
  ⟨1, [g_abab [eᵥ, fᵥ, mₒ, nₒ]], [(1, [eᵥ, fᵥ, mₒ, nₒ])]⟩,
  -- line 284: jimn,efji->efmn
  ⟨1/2, [g_abab [jₒ, iₒ, mₒ, nₒ], t2_abab [eᵥ, fᵥ, jₒ, iₒ]], [(1, [eᵥ, fᵥ, mₒ, nₒ])]⟩,
  -- line 287: ijmn,efij->efmn
  ⟨1/2, [g_abab [iₒ, jₒ, mₒ, nₒ], t2_abab [eᵥ, fᵥ, iₒ, jₒ]], [(1, [eᵥ, fᵥ, mₒ, nₒ])]⟩,
  -- line 290: eian,afmi->efmn
  ⟨-1, [g_abab [eᵥ, iₒ, aᵥ, nₒ], t2_abab [aᵥ, fᵥ, mₒ, iₒ]], [(1, [eᵥ, fᵥ, mₒ, nₒ])]⟩,
  -- line 293: ifan,aemi->efmn
  ⟨-1, [g_abab [iₒ, fᵥ, aᵥ, nₒ], t2_aaaa [aᵥ, eᵥ, mₒ, iₒ]], [(1, [eᵥ, fᵥ, mₒ, nₒ])]⟩,
  -- line 296: ifan,eami->efmn
  ⟨1, [g_bbbb [iₒ, fᵥ, aᵥ, nₒ], t2_abab [eᵥ, aᵥ, mₒ, iₒ]], [(1, [eᵥ, fᵥ, mₒ, nₒ])]⟩,
  -- line 299: ieam,afin->efmn
  ⟨1, [g_aaaa [iₒ, eᵥ, aᵥ, mₒ], t2_abab [aᵥ, fᵥ, iₒ, nₒ]], [(1, [eᵥ, fᵥ, mₒ, nₒ])]⟩,
  -- line 302: eima,afni->efmn
  ⟨-1, [g_abab [eᵥ, iₒ, mₒ, aᵥ], t2_bbbb [aᵥ, fᵥ, nₒ, iₒ]], [(1, [eᵥ, fᵥ, mₒ, nₒ])]⟩,
  -- line 305: ifma,eain->efmn
  ⟨-1, [g_abab [iₒ, fᵥ, mₒ, aᵥ], t2_abab [eᵥ, aᵥ, iₒ, nₒ]], [(1, [eᵥ, fᵥ, mₒ, nₒ])]⟩,
  -- line 308: efab,abmn->efmn
  ⟨1/2, [g_abab [eᵥ, fᵥ, aᵥ, bᵥ], t2_abab [aᵥ, bᵥ, mₒ, nₒ]], [(1, [eᵥ, fᵥ, mₒ, nₒ])]⟩,
  -- line 311: efba,bamn->efmn
  ⟨1/2, [g_abab [eᵥ, fᵥ, bᵥ, aᵥ], t2_abab [bᵥ, aᵥ, mₒ, nₒ]], [(1, [eᵥ, fᵥ, mₒ, nₒ])]⟩,
  -- line 314: ijab,abin,efmj->efmn
  ⟨-1/2, [g_abab [iₒ, jₒ, aᵥ, bᵥ], t2_abab [aᵥ, bᵥ, iₒ, nₒ], t2_abab [eᵥ, fᵥ, mₒ, jₒ]], [(1, [eᵥ, fᵥ, mₒ, nₒ])]⟩,
  -- line 317: ijba,bain,efmj->efmn
  ⟨-1/2, [g_abab [iₒ, jₒ, bᵥ, aᵥ], t2_abab [bᵥ, aᵥ, iₒ, nₒ], t2_abab [eᵥ, fᵥ, mₒ, jₒ]], [(1, [eᵥ, fᵥ, mₒ, nₒ])]⟩,
  -- line 320: jiab,abni,efmj->efmn
  ⟨-1/2, [g_bbbb [jₒ, iₒ, aᵥ, bᵥ], t2_bbbb [aᵥ, bᵥ, nₒ, iₒ], t2_abab [eᵥ, fᵥ, mₒ, jₒ]], [(1, [eᵥ, fᵥ, mₒ, nₒ])]⟩,
  -- line 323: jiab,abmi,efjn->efmn
  ⟨-1/2, [g_aaaa [jₒ, iₒ, aᵥ, bᵥ], t2_aaaa [aᵥ, bᵥ, mₒ, iₒ], t2_abab [eᵥ, fᵥ, jₒ, nₒ]], [(1, [eᵥ, fᵥ, mₒ, nₒ])]⟩,
  -- line 326: jiab,abmi,efjn->efmn
  ⟨-1/2, [g_abab [jₒ, iₒ, aᵥ, bᵥ], t2_abab [aᵥ, bᵥ, mₒ, iₒ], t2_abab [eᵥ, fᵥ, jₒ, nₒ]], [(1, [eᵥ, fᵥ, mₒ, nₒ])]⟩,
  -- line 329: jiba,bami,efjn->efmn
  ⟨-1/2, [g_abab [jₒ, iₒ, bᵥ, aᵥ], t2_abab [bᵥ, aᵥ, mₒ, iₒ], t2_abab [eᵥ, fᵥ, jₒ, nₒ]], [(1, [eᵥ, fᵥ, mₒ, nₒ])]⟩,
  -- line 332: jiab,abmn,efji->efmn
  ⟨1/4, [g_abab [jₒ, iₒ, aᵥ, bᵥ], t2_abab [aᵥ, bᵥ, mₒ, nₒ], t2_abab [eᵥ, fᵥ, jₒ, iₒ]], [(1, [eᵥ, fᵥ, mₒ, nₒ])]⟩,
  -- line 335: ijab,abmn,efij->efmn
  ⟨1/4, [g_abab [iₒ, jₒ, aᵥ, bᵥ], t2_abab [aᵥ, bᵥ, mₒ, nₒ], t2_abab [eᵥ, fᵥ, iₒ, jₒ]], [(1, [eᵥ, fᵥ, mₒ, nₒ])]⟩,
  -- line 338: jiba,bamn,efji->efmn
  ⟨1/4, [g_abab [jₒ, iₒ, bᵥ, aᵥ], t2_abab [bᵥ, aᵥ, mₒ, nₒ], t2_abab [eᵥ, fᵥ, jₒ, iₒ]], [(1, [eᵥ, fᵥ, mₒ, nₒ])]⟩,
  -- line 341: ijba,bamn,efij->efmn
  ⟨1/4, [g_abab [iₒ, jₒ, bᵥ, aᵥ], t2_abab [bᵥ, aᵥ, mₒ, nₒ], t2_abab [eᵥ, fᵥ, iₒ, jₒ]], [(1, [eᵥ, fᵥ, mₒ, nₒ])]⟩,
  -- line 344: jiab,aeji,bfmn->efmn
  ⟨-1/2, [g_aaaa [jₒ, iₒ, aᵥ, bᵥ], t2_aaaa [aᵥ, eᵥ, jₒ, iₒ], t2_abab [bᵥ, fᵥ, mₒ, nₒ]], [(1, [eᵥ, fᵥ, mₒ, nₒ])]⟩,
  -- line 347: jiba,eaji,bfmn->efmn
  ⟨-1/2, [g_abab [jₒ, iₒ, bᵥ, aᵥ], t2_abab [eᵥ, aᵥ, jₒ, iₒ], t2_abab [bᵥ, fᵥ, mₒ, nₒ]], [(1, [eᵥ, fᵥ, mₒ, nₒ])]⟩,
  -- line 350: ijba,eaij,bfmn->efmn
  ⟨-1/2, [g_abab [iₒ, jₒ, bᵥ, aᵥ], t2_abab [eᵥ, aᵥ, iₒ, jₒ], t2_abab [bᵥ, fᵥ, mₒ, nₒ]], [(1, [eᵥ, fᵥ, mₒ, nₒ])]⟩,
  -- line 353: ijba,eain,bfmj->efmn
  ⟨1, [g_abab [iₒ, jₒ, bᵥ, aᵥ], t2_abab [eᵥ, aᵥ, iₒ, nₒ], t2_abab [bᵥ, fᵥ, mₒ, jₒ]], [(1, [eᵥ, fᵥ, mₒ, nₒ])]⟩,
  -- line 356: jiab,aemi,bfjn->efmn
  ⟨1, [g_aaaa [jₒ, iₒ, aᵥ, bᵥ], t2_aaaa [aᵥ, eᵥ, mₒ, iₒ], t2_abab [bᵥ, fᵥ, jₒ, nₒ]], [(1, [eᵥ, fᵥ, mₒ, nₒ])]⟩,
  -- line 359: ijab,aemi,bfnj->efmn
  ⟨1, [g_abab [iₒ, jₒ, aᵥ, bᵥ], t2_aaaa [aᵥ, eᵥ, mₒ, iₒ], t2_bbbb [bᵥ, fᵥ, nₒ, jₒ]], [(1, [eᵥ, fᵥ, mₒ, nₒ])]⟩,
  -- line 362: jiba,eami,bfjn->efmn
  ⟨1, [g_abab [jₒ, iₒ, bᵥ, aᵥ], t2_abab [eᵥ, aᵥ, mₒ, iₒ], t2_abab [bᵥ, fᵥ, jₒ, nₒ]], [(1, [eᵥ, fᵥ, mₒ, nₒ])]⟩,
  -- line 365: jiab,eami,bfnj->efmn
  ⟨1, [g_bbbb [jₒ, iₒ, aᵥ, bᵥ], t2_abab [eᵥ, aᵥ, mₒ, iₒ], t2_bbbb [bᵥ, fᵥ, nₒ, jₒ]], [(1, [eᵥ, fᵥ, mₒ, nₒ])]⟩,
  -- line 368: jiba,eamn,bfji->efmn
  ⟨-1/2, [g_abab [jₒ, iₒ, bᵥ, aᵥ], t2_abab [eᵥ, aᵥ, mₒ, nₒ], t2_abab [bᵥ, fᵥ, jₒ, iₒ]], [(1, [eᵥ, fᵥ, mₒ, nₒ])]⟩,
  -- line 371: ijba,eamn,bfij->efmn
  ⟨-1/2, [g_abab [iₒ, jₒ, bᵥ, aᵥ], t2_abab [eᵥ, aᵥ, mₒ, nₒ], t2_abab [bᵥ, fᵥ, iₒ, jₒ]], [(1, [eᵥ, fᵥ, mₒ, nₒ])]⟩,
  -- line 374: jiab,eamn,bfji->efmn
  ⟨1/2, [g_bbbb [jₒ, iₒ, aᵥ, bᵥ], t2_abab [eᵥ, aᵥ, mₒ, nₒ], t2_bbbb [bᵥ, fᵥ, jₒ, iₒ]], [(1, [eᵥ, fᵥ, mₒ, nₒ])]⟩
  ]

/-- `UT2/t2energy.py` 58-103, `ccd_energy_with_spin`. -/
def ccd_energy_with_spin : Prog := [
  -- line 68: ii
  ⟨1, [f_aa [iₒ, iₒ]], [(1, [])]⟩,
  -- line 71: ii
  ⟨1, [f_bb [iₒ, iₒ]], [(1, [])]⟩,
  -- line 74: jiji
  ⟨-1/2, [g_aaaa [jₒ, iₒ, jₒ, iₒ]], [(1, [])]⟩,
  -- line 77: jiji
  ⟨-1/2, [g_abab [jₒ, iₒ, jₒ, iₒ]], [(1, [])]⟩,
  -- line 80: ijij
  ⟨-1/2, [g_abab [iₒ, jₒ, iₒ, jₒ]], [(1, [])]⟩,
  -- line 83: jiji
  ⟨-1/2, [g_bbbb [jₒ, iₒ, jₒ, iₒ]], [(1, [])]⟩,
  -- line 85: jiab,abji
  ⟨1/4, [g_aaaa [jₒ, iₒ, aᵥ, bᵥ], t2_aaaa [aᵥ, bᵥ, jₒ, iₒ]], [(1, [])]⟩,
  -- line 89: jiab,abji
  ⟨1/4, [g_abab [jₒ, iₒ, aᵥ, bᵥ], t2_abab [aᵥ, bᵥ, jₒ, iₒ]], [(1, [])]⟩,
  -- line 92: ijab,abij
  ⟨1/4, [g_abab [iₒ, jₒ, aᵥ, bᵥ], t2_abab [aᵥ, bᵥ, iₒ, jₒ]], [(1, [])]⟩,
  -- line 95: jiba,baji
  ⟨1/4, [g_abab [jₒ, iₒ, bᵥ, aᵥ], t2_abab [bᵥ, aᵥ, jₒ, iₒ]], [(1, [])]⟩,
  -- line 98: ijba,baij
  ⟨1/4, [g_abab [iₒ, jₒ, bᵥ, aᵥ], t2_abab [bᵥ, aᵥ, iₒ, jₒ]], [(1, [])]⟩,
  -- line 101: jiab,abji
  ⟨1/4, [g_bbbb [jₒ, iₒ, aᵥ, bᵥ], t2_bbbb [aᵥ, bᵥ, jₒ, iₒ]], [(1, [])]⟩
  ]

end Verif.Gen
