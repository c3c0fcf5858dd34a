import Verif.Ein.Names
import Verif.Gen.Antisym

/-! Written by `/verif/tools/gen.py`. Programs read from `/repo/UT2`. -/

set_option maxRecDepth 100000

namespace Verif.Gen

open Verif.Ein Verif.Ein.N


/-- Part 0 of `ccdq_t2eqns`. -/
def ccdq_t2eqns_0 : Prog := [
  -- line 6: ik,jkab->ijab
  ⟨1/2, [f [iₒ, kₒ], t2 [aᵥ, bᵥ, jₒ, kₒ]], [(1, [iₒ, jₒ, aᵥ, bᵥ])]⟩,
  -- line 7: ca,ijbc->ijab
  ⟨-1/2, [f [cᵥ, aᵥ], t2 [bᵥ, cᵥ, iₒ, jₒ]], [(1, [iₒ, jₒ, aᵥ, bᵥ])]⟩,
  -- line 8: ikab,jlcd,cdkl->ijab
  ⟨-1/4, [t2 [aᵥ, bᵥ, iₒ, kₒ], t2 [cᵥ, dᵥ, jₒ, lₒ], g [cᵥ, dᵥ, kₒ, lₒ]], [(1, [iₒ, jₒ, aᵥ, bᵥ])]⟩,
  -- line 9: klab,ijcd,cdkl->ijab
  ⟨1/16, [t2 [aᵥ, bᵥ, kₒ, lₒ], t2 [cᵥ, dᵥ, iₒ, jₒ], g [cᵥ, dᵥ, kₒ, lₒ]], [(1, [iₒ, jₒ, aᵥ, bᵥ])]⟩,
  -- line 10: klab,ijkl->ijab
  ⟨1/8, [t2 [aᵥ, bᵥ, kₒ, lₒ], g [iₒ, jₒ, kₒ, lₒ]], [(1, [iₒ, jₒ, aᵥ, bᵥ])]⟩,
  -- line 11: ijac,klbd,cdkl->ijab
  ⟨-1/4, [t2 [aᵥ, cᵥ, iₒ, jₒ], t2 [bᵥ, dᵥ, kₒ, lₒ], g [cᵥ, dᵥ, kₒ, lₒ]], [(1, [iₒ, jₒ, aᵥ, bᵥ])]⟩,
  -- line 12: ikac,jlbd,cdkl->ijab
  ⟨1/2, [t2 [aᵥ, cᵥ, iₒ, kₒ], t2 [bᵥ, dᵥ, jₒ, lₒ], g [cᵥ, dᵥ, kₒ, lₒ]], [(1, [iₒ, jₒ, aᵥ, bᵥ])]⟩,
  -- line 13: ikac,jckb->ijab
  ⟨-1, [t2 [aᵥ, cᵥ, iₒ, kₒ], g [jₒ, cᵥ, kₒ, bᵥ]], [(1, [iₒ, jₒ, aᵥ, bᵥ])]⟩,
  -- line 14: ijcd,cdab->ijab
  ⟨1/8, [t2 [cᵥ, dᵥ, iₒ, jₒ], g [cᵥ, dᵥ, aᵥ, bᵥ]], [(1, [iₒ, jₒ, aᵥ, bᵥ])]⟩,
  -- line 15: ijklabcd,cdkl->ijab
  ⟨1/16, [t4 [aᵥ, bᵥ, cᵥ, dᵥ, iₒ, jₒ, kₒ, lₒ], g [cᵥ, dᵥ, kₒ, lₒ]], [(1, [iₒ, jₒ, aᵥ, bᵥ])]⟩,
  -- line 16: ijab->ijab
  ⟨1/4, [g [iₒ, jₒ, aᵥ, bᵥ]], [(1, [iₒ, jₒ, aᵥ, bᵥ])]⟩
  ]

/-- `UT2/ccdq_eqns.py` 5-19, `ccdq_t2eqns`. -/
def ccdq_t2eqns : Prog := Prog.through tamps_antisym_T2 (ccdq_t2eqns_0)

/-- Part 0 of `ccdq_t4eqns`. -/
def ccdq_t4eqns_0 : Prog := [
  -- line 24: im,jklmabcd->ijklabcd
  ⟨1736111/250000000, [f [iₒ, mₒ], t4 [aᵥ, bᵥ, cᵥ, dᵥ, jₒ, kₒ, lₒ, mₒ]], [(1, [iₒ, jₒ, kₒ, lₒ, aᵥ, bᵥ, cᵥ, dᵥ])]⟩,
  -- line 25: ea,ijklbcde->ijklabcd
  ⟨-1736111/250000000, [f [eᵥ, aᵥ], t4 [bᵥ, cᵥ, dᵥ, eᵥ, iₒ, jₒ, kₒ, lₒ]], [(1, [iₒ, jₒ, kₒ, lₒ, aᵥ, bᵥ, cᵥ, dᵥ])]⟩,
  -- line 26: imab,jncd,klef,efmn->ijklabcd
  ⟨-1/32, [t2 [aᵥ, bᵥ, iₒ, mₒ], t2 [cᵥ, dᵥ, jₒ, nₒ], t2 [eᵥ, fᵥ, kₒ, lₒ], g [eᵥ, fᵥ, mₒ, nₒ]], [(1, [iₒ, jₒ, kₒ, lₒ, aᵥ, bᵥ, cᵥ, dᵥ])]⟩,
  -- line 27: imab,jncd,klmn->ijklabcd
  ⟨-1/16, [t2 [aᵥ, bᵥ, iₒ, mₒ], t2 [cᵥ, dᵥ, jₒ, nₒ], g [kₒ, lₒ, mₒ, nₒ]], [(1, [iₒ, jₒ, kₒ, lₒ, aᵥ, bᵥ, cᵥ, dᵥ])]⟩,
  -- line 28: imab,jkce,lndf,efmn->ijklabcd
  ⟨1/4, [t2 [aᵥ, bᵥ, iₒ, mₒ], t2 [cᵥ, eᵥ, jₒ, kₒ], t2 [dᵥ, fᵥ, lₒ, nₒ], g [eᵥ, fᵥ, mₒ, nₒ]], [(1, [iₒ, jₒ, kₒ, lₒ, aᵥ, bᵥ, cᵥ, dᵥ])]⟩,
  -- line 29: imab,jkce,lemd->ijklabcd
  ⟨-1/4, [t2 [aᵥ, bᵥ, iₒ, mₒ], t2 [cᵥ, eᵥ, jₒ, kₒ], g [lₒ, eᵥ, mₒ, dᵥ]], [(1, [iₒ, jₒ, kₒ, lₒ, aᵥ, bᵥ, cᵥ, dᵥ])]⟩,
  -- line 30: imab,jklncdef,efmn->ijklabcd
  ⟨-20833333/1000000000, [t2 [aᵥ, bᵥ, iₒ, mₒ], t4 [cᵥ, dᵥ, eᵥ, fᵥ, jₒ, kₒ, lₒ, nₒ], g [eᵥ, fᵥ, mₒ, nₒ]], [(1, [iₒ, jₒ, kₒ, lₒ, aᵥ, bᵥ, cᵥ, dᵥ])]⟩,
  -- line 31: mnab,ijce,kldf,efmn->ijklabcd
  ⟨-1/32, [t2 [aᵥ, bᵥ, mₒ, nₒ], t2 [cᵥ, eᵥ, iₒ, jₒ], t2 [dᵥ, fᵥ, kₒ, lₒ], g [eᵥ, fᵥ, mₒ, nₒ]], [(1, [iₒ, jₒ, kₒ, lₒ, aᵥ, bᵥ, cᵥ, dᵥ])]⟩,
  -- line 32: mnab,ijklcdef,efmn->ijklabcd
  ⟨2604167/1000000000, [t2 [aᵥ, bᵥ, mₒ, nₒ], t4 [cᵥ, dᵥ, eᵥ, fᵥ, iₒ, jₒ, kₒ, lₒ], g [eᵥ, fᵥ, mₒ, nₒ]], [(1, [iₒ, jₒ, kₒ, lₒ, aᵥ, bᵥ, cᵥ, dᵥ])]⟩,
  -- line 33: ijae,klbf,efcd->ijklabcd
  ⟨-1/16, [t2 [aᵥ, eᵥ, iₒ, jₒ], t2 [bᵥ, fᵥ, kₒ, lₒ], g [eᵥ, fᵥ, cᵥ, dᵥ]], [(1, [iₒ, jₒ, kₒ, lₒ, aᵥ, bᵥ, cᵥ, dᵥ])]⟩,
  -- line 34: ijae,klmnbcdf,efmn->ijklabcd
  ⟨-20833333/1000000000, [t2 [aᵥ, eᵥ, iₒ, jₒ], t4 [bᵥ, cᵥ, dᵥ, fᵥ, kₒ, lₒ, mₒ, nₒ], g [eᵥ, fᵥ, mₒ, nₒ]], [(1, [iₒ, jₒ, kₒ, lₒ, aᵥ, bᵥ, cᵥ, dᵥ])]⟩,
  -- line 35: imae,jklnbcdf,efmn->ijklabcd
  ⟨13888889/500000000, [t2 [aᵥ, eᵥ, iₒ, mₒ], t4 [bᵥ, cᵥ, dᵥ, fᵥ, jₒ, kₒ, lₒ, nₒ], g [eᵥ, fᵥ, mₒ, nₒ]], [(1, [iₒ, jₒ, kₒ, lₒ, aᵥ, bᵥ, cᵥ, dᵥ])]⟩,
  -- line 36: mnae,ijklbcdf,efmn->ijklabcd
  ⟨-1736111/500000000, [t2 [aᵥ, eᵥ, mₒ, nₒ], t4 [bᵥ, cᵥ, dᵥ, fᵥ, iₒ, jₒ, kₒ, lₒ], g [eᵥ, fᵥ, mₒ, nₒ]], [(1, [iₒ, jₒ, kₒ, lₒ, aᵥ, bᵥ, cᵥ, dᵥ])]⟩,
  -- line 37: ijef,klmnabcd,efmn->ijklabcd
  ⟨2604167/1000000000, [t2 [eᵥ, fᵥ, iₒ, jₒ], t4 [aᵥ, bᵥ, cᵥ, dᵥ, kₒ, lₒ, mₒ, nₒ], g [eᵥ, fᵥ, mₒ, nₒ]], [(1, [iₒ, jₒ, kₒ, lₒ, aᵥ, bᵥ, cᵥ, dᵥ])]⟩,
  -- line 38: imef,jklnabcd,efmn->ijklabcd
  ⟨-1736111/500000000, [t2 [eᵥ, fᵥ, iₒ, mₒ], t4 [aᵥ, bᵥ, cᵥ, dᵥ, jₒ, kₒ, lₒ, nₒ], g [eᵥ, fᵥ, mₒ, nₒ]], [(1, [iₒ, jₒ, kₒ, lₒ, aᵥ, bᵥ, cᵥ, dᵥ])]⟩,
  -- line 39: ijmnabcd,klmn->ijklabcd
  ⟨5208333/1000000000, [t4 [aᵥ, bᵥ, cᵥ, dᵥ, iₒ, jₒ, mₒ, nₒ], g [kₒ, lₒ, mₒ, nₒ]], [(1, [iₒ, jₒ, kₒ, lₒ, aᵥ, bᵥ, cᵥ, dᵥ])]⟩,
  -- line 40: ijkmabce,lemd->ijklabcd
  ⟨-13888889/500000000, [t4 [aᵥ, bᵥ, cᵥ, eᵥ, iₒ, jₒ, kₒ, mₒ], g [lₒ, eᵥ, mₒ, dᵥ]], [(1, [iₒ, jₒ, kₒ, lₒ, aᵥ, bᵥ, cᵥ, dᵥ])]⟩,
  -- line 41: ijklabef,efcd->ijklabcd
  ⟨5208333/1000000000, [t4 [aᵥ, bᵥ, eᵥ, fᵥ, iₒ, jₒ, kₒ, lₒ], g [eᵥ, fᵥ, cᵥ, dᵥ]], [(1, [iₒ, jₒ, kₒ, lₒ, aᵥ, bᵥ, cᵥ, dᵥ])]⟩
  ]

/-- `UT2/ccdq_eqns.py` 22-44, `ccdq_t4eqns`. -/
def ccdq_t4eqns : Prog := Prog.through tamps_antisym_T4 (ccdq_t4eqns_0)

end Verif.Gen
