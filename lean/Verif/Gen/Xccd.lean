import Verif.Ein.Names
import Verif.Gen.Antisym

/-! Written by `/verif/tools/gen.py`. Programs read from `/repo/UT2`. -/

set_option maxRecDepth 100000

namespace Verif.Gen

open Verif.Ein Verif.Ein.N


/-- `UT2/XCCDbasebuilder.py` 6-87, `build_XCCDbase`. -/
def xccd5_quad : Prog := [
  -- line 32: imab,jncd,klmn->ijklabcd
  ⟨-1/16, [t2 [aᵥ, bᵥ, iₒ, mₒ], t2 [cᵥ, dᵥ, jₒ, nₒ], g [kₒ, lₒ, mₒ, nₒ]], [(1, [iₒ, jₒ, kₒ, lₒ, aᵥ, bᵥ, cᵥ, dᵥ])]⟩,
  -- line 33: imab,jkce,lemd->ijklabcd
  ⟨-1/4, [t2 [aᵥ, bᵥ, iₒ, mₒ], t2 [cᵥ, eᵥ, jₒ, kₒ], g [lₒ, eᵥ, mₒ, dᵥ]], [(1, [iₒ, jₒ, kₒ, lₒ, aᵥ, bᵥ, cᵥ, dᵥ])]⟩,
  -- line 34: ijae,klbf,efcd->ijklabcd
  ⟨-1/16, [t2 [aᵥ, eᵥ, iₒ, jₒ], t2 [bᵥ, fᵥ, kₒ, lₒ], g [eᵥ, fᵥ, cᵥ, dᵥ]], [(1, [iₒ, jₒ, kₒ, lₒ, aᵥ, bᵥ, cᵥ, dᵥ])]⟩
  ]

/-- `UT2/XCCDbasebuilder.py` 6-87, `build_XCCDbase`. -/
def xccd6_quad : Prog := [
  -- line 44: imab,jncd,klef,efmn->ijklabcd
  ⟨-1/32, [t2 [aᵥ, bᵥ, iₒ, mₒ], t2 [cᵥ, dᵥ, jₒ, nₒ], t2 [eᵥ, fᵥ, kₒ, lₒ], g [eᵥ, fᵥ, mₒ, nₒ]], [(1, [iₒ, jₒ, kₒ, lₒ, aᵥ, bᵥ, cᵥ, dᵥ])]⟩,
  -- line 45: imab,jkce,lndf,efmn->ijklabcd
  ⟨1/4, [t2 [aᵥ, bᵥ, iₒ, mₒ], t2 [cᵥ, eᵥ, jₒ, kₒ], t2 [dᵥ, fᵥ, lₒ, nₒ], g [eᵥ, fᵥ, mₒ, nₒ]], [(1, [iₒ, jₒ, kₒ, lₒ, aᵥ, bᵥ, cᵥ, dᵥ])]⟩,
  -- line 46: mnab,ijce,kldf,efmn->ijklabcd
  ⟨-1/32, [t2 [aᵥ, bᵥ, mₒ, nₒ], t2 [cᵥ, eᵥ, iₒ, jₒ], t2 [dᵥ, fᵥ, kₒ, lₒ], g [eᵥ, fᵥ, mₒ, nₒ]], [(1, [iₒ, jₒ, kₒ, lₒ, aᵥ, bᵥ, cᵥ, dᵥ])]⟩
  ]

/-- `UT2/XCCDbasebuilder.py` 90-110, `get_xcc7residual`. -/
def get_xcc7residual : Prog := [
  -- line 103: imab,jklncdef,efmn->ijklabcd
  ⟨-20833333/1000000000, [t2 [aᵥ, bᵥ, iₒ, mₒ], t4 [cᵥ, dᵥ, eᵥ, fᵥ, jₒ, kₒ, lₒ, nₒ], l2 [mₒ, nₒ, eᵥ, fᵥ]], [(1, [iₒ, jₒ, kₒ, lₒ, aᵥ, bᵥ, cᵥ, dᵥ])]⟩,
  -- line 104: mnab,ijklcdef,efmn->ijklabcd
  ⟨2604167/1000000000, [t2 [aᵥ, bᵥ, mₒ, nₒ], t4 [cᵥ, dᵥ, eᵥ, fᵥ, iₒ, jₒ, kₒ, lₒ], l2 [mₒ, nₒ, eᵥ, fᵥ]], [(1, [iₒ, jₒ, kₒ, lₒ, aᵥ, bᵥ, cᵥ, dᵥ])]⟩,
  -- line 105: ijae,klmnbcdf,efmn->ijklabcd
  ⟨-20833333/1000000000, [t2 [aᵥ, eᵥ, iₒ, jₒ], t4 [bᵥ, cᵥ, dᵥ, fᵥ, kₒ, lₒ, mₒ, nₒ], l2 [mₒ, nₒ, eᵥ, fᵥ]], [(1, [iₒ, jₒ, kₒ, lₒ, aᵥ, bᵥ, cᵥ, dᵥ])]⟩,
  -- line 106: imae,jklnbcdf,efmn->ijklabcd
  ⟨13888889/500000000, [t2 [aᵥ, eᵥ, iₒ, mₒ], t4 [bᵥ, cᵥ, dᵥ, fᵥ, jₒ, kₒ, lₒ, nₒ], l2 [mₒ, nₒ, eᵥ, fᵥ]], [(1, [iₒ, jₒ, kₒ, lₒ, aᵥ, bᵥ, cᵥ, dᵥ])]⟩,
  -- line 107: mnae,ijklbcdf,efmn->ijklabcd
  ⟨-1736111/500000000, [t2 [aᵥ, eᵥ, mₒ, nₒ], t4 [bᵥ, cᵥ, dᵥ, fᵥ, iₒ, jₒ, kₒ, lₒ], l2 [mₒ, nₒ, eᵥ, fᵥ]], [(1, [iₒ, jₒ, kₒ, lₒ, aᵥ, bᵥ, cᵥ, dᵥ])]⟩,
  -- line 108: ijef,klmnabcd,efmn->ijklabcd
  ⟨2604167/1000000000, [t2 [eᵥ, fᵥ, iₒ, jₒ], t4 [aᵥ, bᵥ, cᵥ, dᵥ, kₒ, lₒ, mₒ, nₒ], l2 [mₒ, nₒ, eᵥ, fᵥ]], [(1, [iₒ, jₒ, kₒ, lₒ, aᵥ, bᵥ, cᵥ, dᵥ])]⟩,
  -- line 109: imef,jklnabcd,efmn->ijklabcd
  ⟨-1736111/500000000, [t2 [eᵥ, fᵥ, iₒ, mₒ], t4 [aᵥ, bᵥ, cᵥ, dᵥ, jₒ, kₒ, lₒ, nₒ], l2 [mₒ, nₒ, eᵥ, fᵥ]], [(1, [iₒ, jₒ, kₒ, lₒ, aᵥ, bᵥ, cᵥ, dᵥ])]⟩
  ]

/-- `UT2/XCCDbasebuilder.py` 114-149, `get_xcc8residual`. -/
def get_xcc8residual : Prog := [
  -- line 128: imab,jncd,klef,ghop,eogh,fpmn->ijklabcd
  ⟨1/32, [t2 [aᵥ, bᵥ, iₒ, mₒ], t2 [cᵥ, dᵥ, jₒ, nₒ], t2 [eᵥ, fᵥ, kₒ, lₒ], t2 [oᵥ, pᵥ, gₒ, hₒ], l2 [gₒ, hₒ, eᵥ, oᵥ], g [fᵥ, pᵥ, mₒ, nₒ]], [(1, [iₒ, jₒ, kₒ, lₒ, aᵥ, bᵥ, cᵥ, dᵥ])]⟩,
  -- line 129: imab,jncd,kefg,lhop,foeh,gpmn->ijklabcd
  ⟨-1/16, [t2 [aᵥ, bᵥ, iₒ, mₒ], t2 [cᵥ, dᵥ, jₒ, nₒ], t2 [fᵥ, gᵥ, kₒ, eₒ], t2 [oᵥ, pᵥ, lₒ, hₒ], l2 [eₒ, hₒ, fᵥ, oᵥ], g [gᵥ, pᵥ, mₒ, nₒ]], [(1, [iₒ, jₒ, kₒ, lₒ, aᵥ, bᵥ, cᵥ, dᵥ])]⟩,
  -- line 130: imab,ncde,jkfg,lhop,fonh,gpmc->ijklabde
  ⟨-1/8, [t2 [aᵥ, bᵥ, iₒ, mₒ], t2 [dᵥ, eᵥ, nₒ, cₒ], t2 [fᵥ, gᵥ, jₒ, kₒ], t2 [oᵥ, pᵥ, lₒ, hₒ], l2 [nₒ, hₒ, fᵥ, oᵥ], g [gᵥ, pᵥ, mₒ, cₒ]], [(1, [iₒ, jₒ, kₒ, lₒ, aᵥ, bᵥ, dᵥ, eᵥ])]⟩,
  -- line 131: imab,jkce,lndf,ghop,opng,efmh->ijklabcd
  ⟨1/8, [t2 [aᵥ, bᵥ, iₒ, mₒ], t2 [cᵥ, eᵥ, jₒ, kₒ], t2 [dᵥ, fᵥ, lₒ, nₒ], t2 [oᵥ, pᵥ, gₒ, hₒ], l2 [nₒ, gₒ, oᵥ, pᵥ], g [eᵥ, fᵥ, mₒ, hₒ]], [(1, [iₒ, jₒ, kₒ, lₒ, aᵥ, bᵥ, cᵥ, dᵥ])]⟩,
  -- line 132: imab,jkce,lndf,ghop,fogh,epmn->ijklabcd
  ⟨1/8, [t2 [aᵥ, bᵥ, iₒ, mₒ], t2 [cᵥ, eᵥ, jₒ, kₒ], t2 [dᵥ, fᵥ, lₒ, nₒ], t2 [oᵥ, pᵥ, gₒ, hₒ], l2 [gₒ, hₒ, fᵥ, oᵥ], g [eᵥ, pᵥ, mₒ, nₒ]], [(1, [iₒ, jₒ, kₒ, lₒ, aᵥ, bᵥ, cᵥ, dᵥ])]⟩,
  -- line 133: imab,jkce,ndfg,lhop,opnd,egmh->ijklabcf
  ⟨1/16, [t2 [aᵥ, bᵥ, iₒ, mₒ], t2 [cᵥ, eᵥ, jₒ, kₒ], t2 [fᵥ, gᵥ, nₒ, dₒ], t2 [oᵥ, pᵥ, lₒ, hₒ], l2 [nₒ, dₒ, oᵥ, pᵥ], g [eᵥ, gᵥ, mₒ, hₒ]], [(1, [iₒ, jₒ, kₒ, lₒ, aᵥ, bᵥ, cᵥ, fᵥ])]⟩,
  -- line 134: imab,jkce,ndfg,lhop,gonh,epmd->ijklabcf
  ⟨-1/4, [t2 [aᵥ, bᵥ, iₒ, mₒ], t2 [cᵥ, eᵥ, jₒ, kₒ], t2 [fᵥ, gᵥ, nₒ, dₒ], t2 [oᵥ, pᵥ, lₒ, hₒ], l2 [nₒ, hₒ, gᵥ, oᵥ], g [eᵥ, pᵥ, mₒ, dₒ]], [(1, [iₒ, jₒ, kₒ, lₒ, aᵥ, bᵥ, cᵥ, fᵥ])]⟩,
  -- line 135: imab,jnce,kdfg,lhop,opnd,egmh->ijklabcf
  ⟨-1/8, [t2 [aᵥ, bᵥ, iₒ, mₒ], t2 [cᵥ, eᵥ, jₒ, nₒ], t2 [fᵥ, gᵥ, kₒ, dₒ], t2 [oᵥ, pᵥ, lₒ, hₒ], l2 [nₒ, dₒ, oᵥ, pᵥ], g [eᵥ, gᵥ, mₒ, hₒ]], [(1, [iₒ, jₒ, kₒ, lₒ, aᵥ, bᵥ, cᵥ, fᵥ])]⟩,
  -- line 136: imab,jnce,kdfg,lhop,gonh,epmd->ijklabcf
  ⟨1/2, [t2 [aᵥ, bᵥ, iₒ, mₒ], t2 [cᵥ, eᵥ, jₒ, nₒ], t2 [fᵥ, gᵥ, kₒ, dₒ], t2 [oᵥ, pᵥ, lₒ, hₒ], l2 [nₒ, hₒ, gᵥ, oᵥ], g [eᵥ, pᵥ, mₒ, dₒ]], [(1, [iₒ, jₒ, kₒ, lₒ, aᵥ, bᵥ, cᵥ, fᵥ])]⟩,
  -- line 137: imab,jnce,dfgh,klop,hond,epmf->ijklabcg
  ⟨1/4, [t2 [aᵥ, bᵥ, iₒ, mₒ], t2 [cᵥ, eᵥ, jₒ, nₒ], t2 [gᵥ, hᵥ, dₒ, fₒ], t2 [oᵥ, pᵥ, kₒ, lₒ], l2 [nₒ, dₒ, hᵥ, oᵥ], g [eᵥ, pᵥ, mₒ, fₒ]], [(1, [iₒ, jₒ, kₒ, lₒ, aᵥ, bᵥ, cᵥ, gᵥ])]⟩,
  -- line 138: imab,ncde,jfgh,klop,honc,epmf->ijklabdg
  ⟨1/8, [t2 [aᵥ, bᵥ, iₒ, mₒ], t2 [dᵥ, eᵥ, nₒ, cₒ], t2 [gᵥ, hᵥ, jₒ, fₒ], t2 [oᵥ, pᵥ, kₒ, lₒ], l2 [nₒ, cₒ, hᵥ, oᵥ], g [eᵥ, pᵥ, mₒ, fₒ]], [(1, [iₒ, jₒ, kₒ, lₒ, aᵥ, bᵥ, dᵥ, gᵥ])]⟩,
  -- line 139: mnab,cdef,ijgh,klop,gomc,hpnd->ijklabef
  ⟨1/64, [t2 [aᵥ, bᵥ, mₒ, nₒ], t2 [eᵥ, fᵥ, cₒ, dₒ], t2 [gᵥ, hᵥ, iₒ, jₒ], t2 [oᵥ, pᵥ, kₒ, lₒ], l2 [mₒ, cₒ, gᵥ, oᵥ], g [hᵥ, pᵥ, nₒ, dₒ]], [(1, [iₒ, jₒ, kₒ, lₒ, aᵥ, bᵥ, eᵥ, fᵥ])]⟩,
  -- line 140: mnab,ijce,kldf,ghop,opmg,efnh->ijklabcd
  ⟨1/32, [t2 [aᵥ, bᵥ, mₒ, nₒ], t2 [cᵥ, eᵥ, iₒ, jₒ], t2 [dᵥ, fᵥ, kₒ, lₒ], t2 [oᵥ, pᵥ, gₒ, hₒ], l2 [mₒ, gₒ, oᵥ, pᵥ], g [eᵥ, fᵥ, nₒ, hₒ]], [(1, [iₒ, jₒ, kₒ, lₒ, aᵥ, bᵥ, cᵥ, dᵥ])]⟩,
  -- line 141: mnab,ijce,kdfg,lhop,opmd,egnh->ijklabcf
  ⟨-1/8, [t2 [aᵥ, bᵥ, mₒ, nₒ], t2 [cᵥ, eᵥ, iₒ, jₒ], t2 [fᵥ, gᵥ, kₒ, dₒ], t2 [oᵥ, pᵥ, lₒ, hₒ], l2 [mₒ, dₒ, oᵥ, pᵥ], g [eᵥ, gᵥ, nₒ, hₒ]], [(1, [iₒ, jₒ, kₒ, lₒ, aᵥ, bᵥ, cᵥ, fᵥ])]⟩,
  -- line 142: mnab,ijce,kdfg,lhop,gomh,epnd->ijklabcf
  ⟨1/4, [t2 [aᵥ, bᵥ, mₒ, nₒ], t2 [cᵥ, eᵥ, iₒ, jₒ], t2 [fᵥ, gᵥ, kₒ, dₒ], t2 [oᵥ, pᵥ, lₒ, hₒ], l2 [mₒ, hₒ, gᵥ, oᵥ], g [eᵥ, pᵥ, nₒ, dₒ]], [(1, [iₒ, jₒ, kₒ, lₒ, aᵥ, bᵥ, cᵥ, fᵥ])]⟩,
  -- line 143: mnab,ijce,dfgh,klop,homd,epnf->ijklabcg
  ⟨1/8, [t2 [aᵥ, bᵥ, mₒ, nₒ], t2 [cᵥ, eᵥ, iₒ, jₒ], t2 [gᵥ, hᵥ, dₒ, fₒ], t2 [oᵥ, pᵥ, kₒ, lₒ], l2 [mₒ, dₒ, hᵥ, oᵥ], g [eᵥ, pᵥ, nₒ, fₒ]], [(1, [iₒ, jₒ, kₒ, lₒ, aᵥ, bᵥ, cᵥ, gᵥ])]⟩,
  -- line 144: mnab,icde,jfgh,klop,homc,epnf->ijklabdg
  ⟨-1/4, [t2 [aᵥ, bᵥ, mₒ, nₒ], t2 [dᵥ, eᵥ, iₒ, cₒ], t2 [gᵥ, hᵥ, jₒ, fₒ], t2 [oᵥ, pᵥ, kₒ, lₒ], l2 [mₒ, cₒ, hᵥ, oᵥ], g [eᵥ, pᵥ, nₒ, fₒ]], [(1, [iₒ, jₒ, kₒ, lₒ, aᵥ, bᵥ, dᵥ, gᵥ])]⟩,
  -- line 145: ijae,klbf,mncd,ghop,dpmg,efnh->ijklabco
  ⟨-1/16, [t2 [aᵥ, eᵥ, iₒ, jₒ], t2 [bᵥ, fᵥ, kₒ, lₒ], t2 [cᵥ, dᵥ, mₒ, nₒ], t2 [oᵥ, pᵥ, gₒ, hₒ], l2 [mₒ, gₒ, dᵥ, pᵥ], g [eᵥ, fᵥ, nₒ, hₒ]], [(1, [iₒ, jₒ, kₒ, lₒ, aᵥ, bᵥ, cᵥ, oᵥ])]⟩,
  -- line 146: ijae,kmbf,lncd,ghop,dpmg,efnh->ijklabco
  ⟨1/2, [t2 [aᵥ, eᵥ, iₒ, jₒ], t2 [bᵥ, fᵥ, kₒ, mₒ], t2 [cᵥ, dᵥ, lₒ, nₒ], t2 [oᵥ, pᵥ, gₒ, hₒ], l2 [mₒ, gₒ, dᵥ, pᵥ], g [eᵥ, fᵥ, nₒ, hₒ]], [(1, [iₒ, jₒ, kₒ, lₒ, aᵥ, bᵥ, cᵥ, oᵥ])]⟩,
  -- line 147: ijae,mnbf,kcdg,lhop,gpmn,efch->ijklabdo
  ⟨-1/8, [t2 [aᵥ, eᵥ, iₒ, jₒ], t2 [bᵥ, fᵥ, mₒ, nₒ], t2 [dᵥ, gᵥ, kₒ, cₒ], t2 [oᵥ, pᵥ, lₒ, hₒ], l2 [mₒ, nₒ, gᵥ, pᵥ], g [eᵥ, fᵥ, cₒ, hₒ]], [(1, [iₒ, jₒ, kₒ, lₒ, aᵥ, bᵥ, dᵥ, oᵥ])]⟩,
  -- line 148: imae,jnbf,kcdg,lhop,gpmn,efch->ijklabdo
  ⟨1/4, [t2 [aᵥ, eᵥ, iₒ, mₒ], t2 [bᵥ, fᵥ, jₒ, nₒ], t2 [dᵥ, gᵥ, kₒ, cₒ], t2 [oᵥ, pᵥ, lₒ, hₒ], l2 [mₒ, nₒ, gᵥ, pᵥ], g [eᵥ, fᵥ, cₒ, hₒ]], [(1, [iₒ, jₒ, kₒ, lₒ, aᵥ, bᵥ, dᵥ, oᵥ])]⟩
  ]

/-- Part 0 of `get_xcc9residual`. -/
def get_xcc9residual_0 : Prog := [
  -- line 164: imab,jncd,klefghop,opef,ghmn->ijklabcd
  ⟨-1/128, [t2 [aᵥ, bᵥ, iₒ, mₒ], t2 [cᵥ, dᵥ, jₒ, nₒ], t4 [gᵥ, hᵥ, oᵥ, pᵥ, kₒ, lₒ, eₒ, fₒ], l2 [eₒ, fₒ, oᵥ, pᵥ], l2 [mₒ, nₒ, gᵥ, hᵥ]], [(1, [iₒ, jₒ, kₒ, lₒ, aᵥ, bᵥ, cᵥ, dᵥ])]⟩,
  -- line 165: imab,ncde,jklfghop,ghmn,opcf->ijklabde
  ⟨-10416667/1000000000, [t2 [aᵥ, bᵥ, iₒ, mₒ], t2 [dᵥ, eᵥ, nₒ, cₒ], t4 [gᵥ, hᵥ, oᵥ, pᵥ, jₒ, kₒ, lₒ, fₒ], l2 [mₒ, nₒ, gᵥ, hᵥ], l2 [cₒ, fₒ, oᵥ, pᵥ]], [(1, [iₒ, jₒ, kₒ, lₒ, aᵥ, bᵥ, dᵥ, eᵥ])]⟩,
  -- line 166: imab,jkce,lndfghop,opdf,ehmn->ijklabcg
  ⟨1/16, [t2 [aᵥ, bᵥ, iₒ, mₒ], t2 [cᵥ, eᵥ, jₒ, kₒ], t4 [gᵥ, hᵥ, oᵥ, pᵥ, lₒ, nₒ, dₒ, fₒ], l2 [dₒ, fₒ, oᵥ, pᵥ], l2 [mₒ, nₒ, eᵥ, hᵥ]], [(1, [iₒ, jₒ, kₒ, lₒ, aᵥ, bᵥ, cᵥ, gᵥ])]⟩,
  -- line 167: imab,jnce,kldfghop,opnf,ehmd->ijklabcg
  ⟨-1/8, [t2 [aᵥ, bᵥ, iₒ, mₒ], t2 [cᵥ, eᵥ, jₒ, nₒ], t4 [gᵥ, hᵥ, oᵥ, pᵥ, kₒ, lₒ, dₒ, fₒ], l2 [nₒ, fₒ, oᵥ, pᵥ], l2 [mₒ, dₒ, eᵥ, hᵥ]], [(1, [iₒ, jₒ, kₒ, lₒ, aᵥ, bᵥ, cᵥ, gᵥ])]⟩,
  -- line 168: imab,jnce,kldfghop,epdf,homn->ijklabcg
  ⟨1/16, [t2 [aᵥ, bᵥ, iₒ, mₒ], t2 [cᵥ, eᵥ, jₒ, nₒ], t4 [gᵥ, hᵥ, oᵥ, pᵥ, kₒ, lₒ, dₒ, fₒ], l2 [dₒ, fₒ, eᵥ, pᵥ], l2 [mₒ, nₒ, hᵥ, oᵥ]], [(1, [iₒ, jₒ, kₒ, lₒ, aᵥ, bᵥ, cᵥ, gᵥ])]⟩,
  -- line 169: imab,jnce,kldfghop,opdf,ehmn->ijklabcg
  ⟨1/16, [t2 [aᵥ, bᵥ, iₒ, mₒ], t2 [cᵥ, eᵥ, jₒ, nₒ], t4 [gᵥ, hᵥ, oᵥ, pᵥ, kₒ, lₒ, dₒ, fₒ], l2 [dₒ, fₒ, oᵥ, pᵥ], l2 [mₒ, nₒ, eᵥ, hᵥ]], [(1, [iₒ, jₒ, kₒ, lₒ, aᵥ, bᵥ, cᵥ, gᵥ])]⟩,
  -- line 170: imab,ncde,jklfghop,homn,epcf->ijklabdg
  ⟨41666667/1000000000, [t2 [aᵥ, bᵥ, iₒ, mₒ], t2 [dᵥ, eᵥ, nₒ, cₒ], t4 [gᵥ, hᵥ, oᵥ, pᵥ, jₒ, kₒ, lₒ, fₒ], l2 [mₒ, nₒ, hᵥ, oᵥ], l2 [cₒ, fₒ, eᵥ, pᵥ]], [(1, [iₒ, jₒ, kₒ, lₒ, aᵥ, bᵥ, dᵥ, gᵥ])]⟩,
  -- line 171: imab,ncde,jklfghop,opnc,ehmf->ijklabdg
  ⟨20833333/1000000000, [t2 [aᵥ, bᵥ, iₒ, mₒ], t2 [dᵥ, eᵥ, nₒ, cₒ], t4 [gᵥ, hᵥ, oᵥ, pᵥ, jₒ, kₒ, lₒ, fₒ], l2 [nₒ, cₒ, oᵥ, pᵥ], l2 [mₒ, fₒ, eᵥ, hᵥ]], [(1, [iₒ, jₒ, kₒ, lₒ, aᵥ, bᵥ, dᵥ, gᵥ])]⟩,
  -- line 172: imab,ncde,jklfghop,opcf,ehmn->ijklabdg
  ⟨41666667/1000000000, [t2 [aᵥ, bᵥ, iₒ, mₒ], t2 [dᵥ, eᵥ, nₒ, cₒ], t4 [gᵥ, hᵥ, oᵥ, pᵥ, jₒ, kₒ, lₒ, fₒ], l2 [cₒ, fₒ, oᵥ, pᵥ], l2 [mₒ, nₒ, eᵥ, hᵥ]], [(1, [iₒ, jₒ, kₒ, lₒ, aᵥ, bᵥ, dᵥ, gᵥ])]⟩,
  -- line 173: imab,jkef,lncdghop,fpcd,eomn->ijklabgh
  ⟨1/16, [t2 [aᵥ, bᵥ, iₒ, mₒ], t2 [eᵥ, fᵥ, jₒ, kₒ], t4 [gᵥ, hᵥ, oᵥ, pᵥ, lₒ, nₒ, cₒ, dₒ], l2 [cₒ, dₒ, fᵥ, pᵥ], l2 [mₒ, nₒ, eᵥ, oᵥ]], [(1, [iₒ, jₒ, kₒ, lₒ, aᵥ, bᵥ, gᵥ, hᵥ])]⟩,
  -- line 174: imab,jkef,lncdghop,opcd,efmn->ijklabgh
  ⟨-1/64, [t2 [aᵥ, bᵥ, iₒ, mₒ], t2 [eᵥ, fᵥ, jₒ, kₒ], t4 [gᵥ, hᵥ, oᵥ, pᵥ, lₒ, nₒ, cₒ, dₒ], l2 [cₒ, dₒ, oᵥ, pᵥ], l2 [mₒ, nₒ, eᵥ, fᵥ]], [(1, [iₒ, jₒ, kₒ, lₒ, aᵥ, bᵥ, gᵥ, hᵥ])]⟩,
  -- line 175: imab,jnef,klcdghop,efmc,opnd->ijklabgh
  ⟨1/32, [t2 [aᵥ, bᵥ, iₒ, mₒ], t2 [eᵥ, fᵥ, jₒ, nₒ], t4 [gᵥ, hᵥ, oᵥ, pᵥ, kₒ, lₒ, cₒ, dₒ], l2 [mₒ, cₒ, eᵥ, fᵥ], l2 [nₒ, dₒ, oᵥ, pᵥ]], [(1, [iₒ, jₒ, kₒ, lₒ, aᵥ, bᵥ, gᵥ, hᵥ])]⟩,
  -- line 176: imab,jnef,klcdghop,eomc,fpnd->ijklabgh
  ⟨-1/8, [t2 [aᵥ, bᵥ, iₒ, mₒ], t2 [eᵥ, fᵥ, jₒ, nₒ], t4 [gᵥ, hᵥ, oᵥ, pᵥ, kₒ, lₒ, cₒ, dₒ], l2 [mₒ, cₒ, eᵥ, oᵥ], l2 [nₒ, dₒ, fᵥ, pᵥ]], [(1, [iₒ, jₒ, kₒ, lₒ, aᵥ, bᵥ, gᵥ, hᵥ])]⟩,
  -- line 177: imab,jnef,klcdghop,efcd,opmn->ijklabgh
  ⟨-1/64, [t2 [aᵥ, bᵥ, iₒ, mₒ], t2 [eᵥ, fᵥ, jₒ, nₒ], t4 [gᵥ, hᵥ, oᵥ, pᵥ, kₒ, lₒ, cₒ, dₒ], l2 [cₒ, dₒ, eᵥ, fᵥ], l2 [mₒ, nₒ, oᵥ, pᵥ]], [(1, [iₒ, jₒ, kₒ, lₒ, aᵥ, bᵥ, gᵥ, hᵥ])]⟩,
  -- line 178: imab,jnef,klcdghop,fpcd,eomn->ijklabgh
  ⟨1/16, [t2 [aᵥ, bᵥ, iₒ, mₒ], t2 [eᵥ, fᵥ, jₒ, nₒ], t4 [gᵥ, hᵥ, oᵥ, pᵥ, kₒ, lₒ, cₒ, dₒ], l2 [cₒ, dₒ, fᵥ, pᵥ], l2 [mₒ, nₒ, eᵥ, oᵥ]], [(1, [iₒ, jₒ, kₒ, lₒ, aᵥ, bᵥ, gᵥ, hᵥ])]⟩,
  -- line 179: imab,ncef,jkldghop,eomn,fpcd->ijklabgh
  ⟨41666667/1000000000, [t2 [aᵥ, bᵥ, iₒ, mₒ], t2 [eᵥ, fᵥ, nₒ, cₒ], t4 [gᵥ, hᵥ, oᵥ, pᵥ, jₒ, kₒ, lₒ, dₒ], l2 [mₒ, nₒ, eᵥ, oᵥ], l2 [cₒ, dₒ, fᵥ, pᵥ]], [(1, [iₒ, jₒ, kₒ, lₒ, aᵥ, bᵥ, gᵥ, hᵥ])]⟩,
  -- line 180: imab,ncef,jkldghop,opmn,efcd->ijklabgh
  ⟨-10416667/1000000000, [t2 [aᵥ, bᵥ, iₒ, mₒ], t2 [eᵥ, fᵥ, nₒ, cₒ], t4 [gᵥ, hᵥ, oᵥ, pᵥ, jₒ, kₒ, lₒ, dₒ], l2 [mₒ, nₒ, oᵥ, pᵥ], l2 [cₒ, dₒ, eᵥ, fᵥ]], [(1, [iₒ, jₒ, kₒ, lₒ, aᵥ, bᵥ, gᵥ, hᵥ])]⟩,
  -- line 181: imab,ncef,jkldghop,fpnc,eomd->ijklabgh
  ⟨20833333/1000000000, [t2 [aᵥ, bᵥ, iₒ, mₒ], t2 [eᵥ, fᵥ, nₒ, cₒ], t4 [gᵥ, hᵥ, oᵥ, pᵥ, jₒ, kₒ, lₒ, dₒ], l2 [nₒ, cₒ, fᵥ, pᵥ], l2 [mₒ, dₒ, eᵥ, oᵥ]], [(1, [iₒ, jₒ, kₒ, lₒ, aᵥ, bᵥ, gᵥ, hᵥ])]⟩,
  -- line 182: imab,ncef,jkldghop,opnc,efmd->ijklabgh
  ⟨-5208333/1000000000, [t2 [aᵥ, bᵥ, iₒ, mₒ], t2 [eᵥ, fᵥ, nₒ, cₒ], t4 [gᵥ, hᵥ, oᵥ, pᵥ, jₒ, kₒ, lₒ, dₒ], l2 [nₒ, cₒ, oᵥ, pᵥ], l2 [mₒ, dₒ, eᵥ, fᵥ]], [(1, [iₒ, jₒ, kₒ, lₒ, aᵥ, bᵥ, gᵥ, hᵥ])]⟩,
  -- line 183: mnab,cdef,ijklghop,ghmc,opnd->ijklabef
  ⟨-1302083/1000000000, [t2 [aᵥ, bᵥ, mₒ, nₒ], t2 [eᵥ, fᵥ, cₒ, dₒ], t4 [gᵥ, hᵥ, oᵥ, pᵥ, iₒ, jₒ, kₒ, lₒ], l2 [mₒ, cₒ, gᵥ, hᵥ], l2 [nₒ, dₒ, oᵥ, pᵥ]], [(1, [iₒ, jₒ, kₒ, lₒ, aᵥ, bᵥ, eᵥ, fᵥ])]⟩,
  -- line 184: mnab,ijce,kldfghop,opnf,ehmd->ijklabcg
  ⟨1/16, [t2 [aᵥ, bᵥ, mₒ, nₒ], t2 [cᵥ, eᵥ, iₒ, jₒ], t4 [gᵥ, hᵥ, oᵥ, pᵥ, kₒ, lₒ, dₒ, fₒ], l2 [nₒ, fₒ, oᵥ, pᵥ], l2 [mₒ, dₒ, eᵥ, hᵥ]], [(1, [iₒ, jₒ, kₒ, lₒ, aᵥ, bᵥ, cᵥ, gᵥ])]⟩,
  -- line 185: mnab,ijce,kldfghop,opdf,ehmn->ijklabcg
  ⟨-1/64, [t2 [aᵥ, bᵥ, mₒ, nₒ], t2 [cᵥ, eᵥ, iₒ, jₒ], t4 [gᵥ, hᵥ, oᵥ, pᵥ, kₒ, lₒ, dₒ, fₒ], l2 [dₒ, fₒ, oᵥ, pᵥ], l2 [mₒ, nₒ, eᵥ, hᵥ]], [(1, [iₒ, jₒ, kₒ, lₒ, aᵥ, bᵥ, cᵥ, gᵥ])]⟩,
  -- line 186: mnab,icde,jklfghop,ehmn,opcf->ijklabdg
  ⟨20833333/1000000000, [t2 [aᵥ, bᵥ, mₒ, nₒ], t2 [dᵥ, eᵥ, iₒ, cₒ], t4 [gᵥ, hᵥ, oᵥ, pᵥ, jₒ, kₒ, lₒ, fₒ], l2 [mₒ, nₒ, eᵥ, hᵥ], l2 [cₒ, fₒ, oᵥ, pᵥ]], [(1, [iₒ, jₒ, kₒ, lₒ, aᵥ, bᵥ, dᵥ, gᵥ])]⟩,
  -- line 187: mnab,icde,jklfghop,homc,epnf->ijklabdg
  ⟨-83333333/1000000000, [t2 [aᵥ, bᵥ, mₒ, nₒ], t2 [dᵥ, eᵥ, iₒ, cₒ], t4 [gᵥ, hᵥ, oᵥ, pᵥ, jₒ, kₒ, lₒ, fₒ], l2 [mₒ, cₒ, hᵥ, oᵥ], l2 [nₒ, fₒ, eᵥ, pᵥ]], [(1, [iₒ, jₒ, kₒ, lₒ, aᵥ, bᵥ, dᵥ, gᵥ])]⟩,
  -- line 188: mnab,icde,jklfghop,opnf,ehmc->ijklabdg
  ⟨-41666667/1000000000, [t2 [aᵥ, bᵥ, mₒ, nₒ], t2 [dᵥ, eᵥ, iₒ, cₒ], t4 [gᵥ, hᵥ, oᵥ, pᵥ, jₒ, kₒ, lₒ, fₒ], l2 [nₒ, fₒ, oᵥ, pᵥ], l2 [mₒ, cₒ, eᵥ, hᵥ]], [(1, [iₒ, jₒ, kₒ, lₒ, aᵥ, bᵥ, dᵥ, gᵥ])]⟩,
  -- line 189: mnab,cdef,ijklghop,opnd,fhmc->ijklabeg
  ⟨20833333/1000000000, [t2 [aᵥ, bᵥ, mₒ, nₒ], t2 [eᵥ, fᵥ, cₒ, dₒ], t4 [gᵥ, hᵥ, oᵥ, pᵥ, iₒ, jₒ, kₒ, lₒ], l2 [nₒ, dₒ, oᵥ, pᵥ], l2 [mₒ, cₒ, fᵥ, hᵥ]], [(1, [iₒ, jₒ, kₒ, lₒ, aᵥ, bᵥ, eᵥ, gᵥ])]⟩,
  -- line 190: mnab,cdef,ijklghop,opcd,fhmn->ijklabeg
  ⟨-2604167/1000000000, [t2 [aᵥ, bᵥ, mₒ, nₒ], t2 [eᵥ, fᵥ, cₒ, dₒ], t4 [gᵥ, hᵥ, oᵥ, pᵥ, iₒ, jₒ, kₒ, lₒ], l2 [cₒ, dₒ, oᵥ, pᵥ], l2 [mₒ, nₒ, fᵥ, hᵥ]], [(1, [iₒ, jₒ, kₒ, lₒ, aᵥ, bᵥ, eᵥ, gᵥ])]⟩,
  -- line 191: mnab,ijef,klcdghop,eomn,fpcd->ijklabgh
  ⟨-1/64, [t2 [aᵥ, bᵥ, mₒ, nₒ], t2 [eᵥ, fᵥ, iₒ, jₒ], t4 [gᵥ, hᵥ, oᵥ, pᵥ, kₒ, lₒ, cₒ, dₒ], l2 [mₒ, nₒ, eᵥ, oᵥ], l2 [cₒ, dₒ, fᵥ, pᵥ]], [(1, [iₒ, jₒ, kₒ, lₒ, aᵥ, bᵥ, gᵥ, hᵥ])]⟩,
  -- line 192: mnab,ijef,klcdghop,efmc,opnd->ijklabgh
  ⟨-1/64, [t2 [aᵥ, bᵥ, mₒ, nₒ], t2 [eᵥ, fᵥ, iₒ, jₒ], t4 [gᵥ, hᵥ, oᵥ, pᵥ, kₒ, lₒ, cₒ, dₒ], l2 [mₒ, cₒ, eᵥ, fᵥ], l2 [nₒ, dₒ, oᵥ, pᵥ]], [(1, [iₒ, jₒ, kₒ, lₒ, aᵥ, bᵥ, gᵥ, hᵥ])]⟩,
  -- line 193: mnab,ijef,klcdghop,eomc,fpnd->ijklabgh
  ⟨1/16, [t2 [aᵥ, bᵥ, mₒ, nₒ], t2 [eᵥ, fᵥ, iₒ, jₒ], t4 [gᵥ, hᵥ, oᵥ, pᵥ, kₒ, lₒ, cₒ, dₒ], l2 [mₒ, cₒ, eᵥ, oᵥ], l2 [nₒ, dₒ, fᵥ, pᵥ]], [(1, [iₒ, jₒ, kₒ, lₒ, aᵥ, bᵥ, gᵥ, hᵥ])]⟩,
  -- line 194: mnab,icef,jkldghop,eomn,fpcd->ijklabgh
  ⟨20833333/1000000000, [t2 [aᵥ, bᵥ, mₒ, nₒ], t2 [eᵥ, fᵥ, iₒ, cₒ], t4 [gᵥ, hᵥ, oᵥ, pᵥ, jₒ, kₒ, lₒ, dₒ], l2 [mₒ, nₒ, eᵥ, oᵥ], l2 [cₒ, dₒ, fᵥ, pᵥ]], [(1, [iₒ, jₒ, kₒ, lₒ, aᵥ, bᵥ, gᵥ, hᵥ])]⟩,
  -- line 195: mnab,icef,jkldghop,eomc,fpnd->ijklabgh
  ⟨-83333333/1000000000, [t2 [aᵥ, bᵥ, mₒ, nₒ], t2 [eᵥ, fᵥ, iₒ, cₒ], t4 [gᵥ, hᵥ, oᵥ, pᵥ, jₒ, kₒ, lₒ, dₒ], l2 [mₒ, cₒ, eᵥ, oᵥ], l2 [nₒ, dₒ, fᵥ, pᵥ]], [(1, [iₒ, jₒ, kₒ, lₒ, aᵥ, bᵥ, gᵥ, hᵥ])]⟩,
  -- line 196: mnab,icef,jkldghop,opmc,efnd->ijklabgh
  ⟨20833333/1000000000, [t2 [aᵥ, bᵥ, mₒ, nₒ], t2 [eᵥ, fᵥ, iₒ, cₒ], t4 [gᵥ, hᵥ, oᵥ, pᵥ, jₒ, kₒ, lₒ, dₒ], l2 [mₒ, cₒ, oᵥ, pᵥ], l2 [nₒ, dₒ, eᵥ, fᵥ]], [(1, [iₒ, jₒ, kₒ, lₒ, aᵥ, bᵥ, gᵥ, hᵥ])]⟩,
  -- line 197: mnab,cdef,ijklghop,eomn,fpcd->ijklabgh
  ⟨-2604167/1000000000, [t2 [aᵥ, bᵥ, mₒ, nₒ], t2 [eᵥ, fᵥ, cₒ, dₒ], t4 [gᵥ, hᵥ, oᵥ, pᵥ, iₒ, jₒ, kₒ, lₒ], l2 [mₒ, nₒ, eᵥ, oᵥ], l2 [cₒ, dₒ, fᵥ, pᵥ]], [(1, [iₒ, jₒ, kₒ, lₒ, aᵥ, bᵥ, gᵥ, hᵥ])]⟩,
  -- line 198: mnab,cdef,ijklghop,eomc,fpnd->ijklabgh
  ⟨10416667/1000000000, [t2 [aᵥ, bᵥ, mₒ, nₒ], t2 [eᵥ, fᵥ, cₒ, dₒ], t4 [gᵥ, hᵥ, oᵥ, pᵥ, iₒ, jₒ, kₒ, lₒ], l2 [mₒ, cₒ, eᵥ, oᵥ], l2 [nₒ, dₒ, fᵥ, pᵥ]], [(1, [iₒ, jₒ, kₒ, lₒ, aᵥ, bᵥ, gᵥ, hᵥ])]⟩,
  -- line 199: mnab,cdef,ijklghop,opmc,efnd->ijklabgh
  ⟨-2604167/1000000000, [t2 [aᵥ, bᵥ, mₒ, nₒ], t2 [eᵥ, fᵥ, cₒ, dₒ], t4 [gᵥ, hᵥ, oᵥ, pᵥ, iₒ, jₒ, kₒ, lₒ], l2 [mₒ, cₒ, oᵥ, pᵥ], l2 [nₒ, dₒ, eᵥ, fᵥ]], [(1, [iₒ, jₒ, kₒ, lₒ, aᵥ, bᵥ, gᵥ, hᵥ])]⟩,
  -- line 200: ijkmabcd,lnefghop,opef,ghmn->ijklabcd
  ⟨-108507/125000000, [t4 [aᵥ, bᵥ, cᵥ, dᵥ, iₒ, jₒ, kₒ, mₒ], t4 [gᵥ, hᵥ, oᵥ, pᵥ, lₒ, nₒ, eₒ, fₒ], l2 [eₒ, fₒ, oᵥ, pᵥ], l2 [mₒ, nₒ, gᵥ, hᵥ]], [(1, [iₒ, jₒ, kₒ, lₒ, aᵥ, bᵥ, cᵥ, dᵥ])]⟩,
  -- line 201: ijmnabcd,klefghop,ghmn,opef->ijklabcd
  ⟨325521/500000000, [t4 [aᵥ, bᵥ, cᵥ, dᵥ, iₒ, jₒ, mₒ, nₒ], t4 [gᵥ, hᵥ, oᵥ, pᵥ, kₒ, lₒ, eₒ, fₒ], l2 [mₒ, nₒ, gᵥ, hᵥ], l2 [eₒ, fₒ, oᵥ, pᵥ]], [(1, [iₒ, jₒ, kₒ, lₒ, aᵥ, bᵥ, cᵥ, dᵥ])]⟩,
  -- line 202: ijmnabcd,klefghop,ghme,opnf->ijklabcd
  ⟨-2604167/1000000000, [t4 [aᵥ, bᵥ, cᵥ, dᵥ, iₒ, jₒ, mₒ, nₒ], t4 [gᵥ, hᵥ, oᵥ, pᵥ, kₒ, lₒ, eₒ, fₒ], l2 [mₒ, eₒ, gᵥ, hᵥ], l2 [nₒ, fₒ, oᵥ, pᵥ]], [(1, [iₒ, jₒ, kₒ, lₒ, aᵥ, bᵥ, cᵥ, dᵥ])]⟩,
  -- line 203: imnabcde,jklfghop,ghmn,opaf->ijklbcde
  ⟨-1736111/1000000000, [t4 [bᵥ, cᵥ, dᵥ, eᵥ, iₒ, mₒ, nₒ, aₒ], t4 [gᵥ, hᵥ, oᵥ, pᵥ, jₒ, kₒ, lₒ, fₒ], l2 [mₒ, nₒ, gᵥ, hᵥ], l2 [aₒ, fₒ, oᵥ, pᵥ]], [(1, [iₒ, jₒ, kₒ, lₒ, bᵥ, cᵥ, dᵥ, eᵥ])]⟩
  ]

/-- Part 1 of `get_xcc9residual`. -/
def get_xcc9residual_1 : Prog := [
  -- line 204: mnabcdef,ijklghop,ghmn,opab->ijklcdef
  ⟨108507/1000000000, [t4 [cᵥ, dᵥ, eᵥ, fᵥ, mₒ, nₒ, aₒ, bₒ], t4 [gᵥ, hᵥ, oᵥ, pᵥ, iₒ, jₒ, kₒ, lₒ], l2 [mₒ, nₒ, gᵥ, hᵥ], l2 [aₒ, bₒ, oᵥ, pᵥ]], [(1, [iₒ, jₒ, kₒ, lₒ, cᵥ, dᵥ, eᵥ, fᵥ])]⟩,
  -- line 205: ijklabce,mndfghop,opdf,ehmn->ijklabcg
  ⟨-108507/125000000, [t4 [aᵥ, bᵥ, cᵥ, eᵥ, iₒ, jₒ, kₒ, lₒ], t4 [gᵥ, hᵥ, oᵥ, pᵥ, mₒ, nₒ, dₒ, fₒ], l2 [dₒ, fₒ, oᵥ, pᵥ], l2 [mₒ, nₒ, eᵥ, hᵥ]], [(1, [iₒ, jₒ, kₒ, lₒ, aᵥ, bᵥ, cᵥ, gᵥ])]⟩,
  -- line 206: ijkmabce,lndfghop,ehnd,opmf->ijklabcg
  ⟨13888889/1000000000, [t4 [aᵥ, bᵥ, cᵥ, eᵥ, iₒ, jₒ, kₒ, mₒ], t4 [gᵥ, hᵥ, oᵥ, pᵥ, lₒ, nₒ, dₒ, fₒ], l2 [nₒ, dₒ, eᵥ, hᵥ], l2 [mₒ, fₒ, oᵥ, pᵥ]], [(1, [iₒ, jₒ, kₒ, lₒ, aᵥ, bᵥ, cᵥ, gᵥ])]⟩,
  -- line 207: ijkmabce,lndfghop,opdf,ehmn->ijklabcg
  ⟨1736111/250000000, [t4 [aᵥ, bᵥ, cᵥ, eᵥ, iₒ, jₒ, kₒ, mₒ], t4 [gᵥ, hᵥ, oᵥ, pᵥ, lₒ, nₒ, dₒ, fₒ], l2 [dₒ, fₒ, oᵥ, pᵥ], l2 [mₒ, nₒ, eᵥ, hᵥ]], [(1, [iₒ, jₒ, kₒ, lₒ, aᵥ, bᵥ, cᵥ, gᵥ])]⟩,
  -- line 208: ijmnabce,kldfghop,opmn,ehdf->ijklabcg
  ⟨-10416667/1000000000, [t4 [aᵥ, bᵥ, cᵥ, eᵥ, iₒ, jₒ, mₒ, nₒ], t4 [gᵥ, hᵥ, oᵥ, pᵥ, kₒ, lₒ, dₒ, fₒ], l2 [mₒ, nₒ, oᵥ, pᵥ], l2 [dₒ, fₒ, eᵥ, hᵥ]], [(1, [iₒ, jₒ, kₒ, lₒ, aᵥ, bᵥ, cᵥ, gᵥ])]⟩,
  -- line 209: ijmnabce,kldfghop,homd,epnf->ijklabcg
  ⟨41666667/1000000000, [t4 [aᵥ, bᵥ, cᵥ, eᵥ, iₒ, jₒ, mₒ, nₒ], t4 [gᵥ, hᵥ, oᵥ, pᵥ, kₒ, lₒ, dₒ, fₒ], l2 [mₒ, dₒ, hᵥ, oᵥ], l2 [nₒ, fₒ, eᵥ, pᵥ]], [(1, [iₒ, jₒ, kₒ, lₒ, aᵥ, bᵥ, cᵥ, gᵥ])]⟩,
  -- line 210: ijmnabce,kldfghop,opdf,ehmn->ijklabcg
  ⟨-5208333/1000000000, [t4 [aᵥ, bᵥ, cᵥ, eᵥ, iₒ, jₒ, mₒ, nₒ], t4 [gᵥ, hᵥ, oᵥ, pᵥ, kₒ, lₒ, dₒ, fₒ], l2 [dₒ, fₒ, oᵥ, pᵥ], l2 [mₒ, nₒ, eᵥ, hᵥ]], [(1, [iₒ, jₒ, kₒ, lₒ, aᵥ, bᵥ, cᵥ, gᵥ])]⟩,
  -- line 211: imnabcde,jklfghop,ehmn,opaf->ijklbcdg
  ⟨13888889/1000000000, [t4 [bᵥ, cᵥ, dᵥ, eᵥ, iₒ, mₒ, nₒ, aₒ], t4 [gᵥ, hᵥ, oᵥ, pᵥ, jₒ, kₒ, lₒ, fₒ], l2 [mₒ, nₒ, eᵥ, hᵥ], l2 [aₒ, fₒ, oᵥ, pᵥ]], [(1, [iₒ, jₒ, kₒ, lₒ, bᵥ, cᵥ, dᵥ, gᵥ])]⟩,
  -- line 212: imnabcde,jklfghop,homn,epaf->ijklbcdg
  ⟨13888889/1000000000, [t4 [bᵥ, cᵥ, dᵥ, eᵥ, iₒ, mₒ, nₒ, aₒ], t4 [gᵥ, hᵥ, oᵥ, pᵥ, jₒ, kₒ, lₒ, fₒ], l2 [mₒ, nₒ, hᵥ, oᵥ], l2 [aₒ, fₒ, eᵥ, pᵥ]], [(1, [iₒ, jₒ, kₒ, lₒ, bᵥ, cᵥ, dᵥ, gᵥ])]⟩,
  -- line 213: mnabcdef,ijklghop,opab,fhmn->ijklcdeg
  ⟨-1736111/1000000000, [t4 [cᵥ, dᵥ, eᵥ, fᵥ, mₒ, nₒ, aₒ, bₒ], t4 [gᵥ, hᵥ, oᵥ, pᵥ, iₒ, jₒ, kₒ, lₒ], l2 [aₒ, bₒ, oᵥ, pᵥ], l2 [mₒ, nₒ, fᵥ, hᵥ]], [(1, [iₒ, jₒ, kₒ, lₒ, cᵥ, dᵥ, eᵥ, gᵥ])]⟩,
  -- line 214: ijklabef,mncdghop,efmn,opcd->ijklabgh
  ⟨325521/500000000, [t4 [aᵥ, bᵥ, eᵥ, fᵥ, iₒ, jₒ, kₒ, lₒ], t4 [gᵥ, hᵥ, oᵥ, pᵥ, mₒ, nₒ, cₒ, dₒ], l2 [mₒ, nₒ, eᵥ, fᵥ], l2 [cₒ, dₒ, oᵥ, pᵥ]], [(1, [iₒ, jₒ, kₒ, lₒ, aᵥ, bᵥ, gᵥ, hᵥ])]⟩,
  -- line 215: ijklabef,mncdghop,eomn,fpcd->ijklabgh
  ⟨-2604167/1000000000, [t4 [aᵥ, bᵥ, eᵥ, fᵥ, iₒ, jₒ, kₒ, lₒ], t4 [gᵥ, hᵥ, oᵥ, pᵥ, mₒ, nₒ, cₒ, dₒ], l2 [mₒ, nₒ, eᵥ, oᵥ], l2 [cₒ, dₒ, fᵥ, pᵥ]], [(1, [iₒ, jₒ, kₒ, lₒ, aᵥ, bᵥ, gᵥ, hᵥ])]⟩,
  -- line 216: ijkmabef,lncdghop,efnc,opmd->ijklabgh
  ⟨-10416667/1000000000, [t4 [aᵥ, bᵥ, eᵥ, fᵥ, iₒ, jₒ, kₒ, mₒ], t4 [gᵥ, hᵥ, oᵥ, pᵥ, lₒ, nₒ, cₒ, dₒ], l2 [nₒ, cₒ, eᵥ, fᵥ], l2 [mₒ, dₒ, oᵥ, pᵥ]], [(1, [iₒ, jₒ, kₒ, lₒ, aᵥ, bᵥ, gᵥ, hᵥ])]⟩,
  -- line 217: ijkmabef,lncdghop,eonc,fpmd->ijklabgh
  ⟨41666667/1000000000, [t4 [aᵥ, bᵥ, eᵥ, fᵥ, iₒ, jₒ, kₒ, mₒ], t4 [gᵥ, hᵥ, oᵥ, pᵥ, lₒ, nₒ, cₒ, dₒ], l2 [nₒ, cₒ, eᵥ, oᵥ], l2 [mₒ, dₒ, fᵥ, pᵥ]], [(1, [iₒ, jₒ, kₒ, lₒ, aᵥ, bᵥ, gᵥ, hᵥ])]⟩,
  -- line 218: ijkmabef,lncdghop,opcd,efmn->ijklabgh
  ⟨-5208333/1000000000, [t4 [aᵥ, bᵥ, eᵥ, fᵥ, iₒ, jₒ, kₒ, mₒ], t4 [gᵥ, hᵥ, oᵥ, pᵥ, lₒ, nₒ, cₒ, dₒ], l2 [cₒ, dₒ, oᵥ, pᵥ], l2 [mₒ, nₒ, eᵥ, fᵥ]], [(1, [iₒ, jₒ, kₒ, lₒ, aᵥ, bᵥ, gᵥ, hᵥ])]⟩,
  -- line 219: ijmnabef,klcdghop,efmc,opnd->ijklabgh
  ⟨-1/64, [t4 [aᵥ, bᵥ, eᵥ, fᵥ, iₒ, jₒ, mₒ, nₒ], t4 [gᵥ, hᵥ, oᵥ, pᵥ, kₒ, lₒ, cₒ, dₒ], l2 [mₒ, cₒ, eᵥ, fᵥ], l2 [nₒ, dₒ, oᵥ, pᵥ]], [(1, [iₒ, jₒ, kₒ, lₒ, aᵥ, bᵥ, gᵥ, hᵥ])]⟩,
  -- line 220: ijmnabef,klcdghop,eomc,fpnd->ijklabgh
  ⟨1/32, [t4 [aᵥ, bᵥ, eᵥ, fᵥ, iₒ, jₒ, mₒ, nₒ], t4 [gᵥ, hᵥ, oᵥ, pᵥ, kₒ, lₒ, cₒ, dₒ], l2 [mₒ, cₒ, eᵥ, oᵥ], l2 [nₒ, dₒ, fᵥ, pᵥ]], [(1, [iₒ, jₒ, kₒ, lₒ, aᵥ, bᵥ, gᵥ, hᵥ])]⟩,
  -- line 221: ijmnabef,klcdghop,efcd,opmn->ijklabgh
  ⟨1/256, [t4 [aᵥ, bᵥ, eᵥ, fᵥ, iₒ, jₒ, mₒ, nₒ], t4 [gᵥ, hᵥ, oᵥ, pᵥ, kₒ, lₒ, cₒ, dₒ], l2 [cₒ, dₒ, eᵥ, fᵥ], l2 [mₒ, nₒ, oᵥ, pᵥ]], [(1, [iₒ, jₒ, kₒ, lₒ, aᵥ, bᵥ, gᵥ, hᵥ])]⟩,
  -- line 222: ijmnabef,klcdghop,eocd,fpmn->ijklabgh
  ⟨-1/64, [t4 [aᵥ, bᵥ, eᵥ, fᵥ, iₒ, jₒ, mₒ, nₒ], t4 [gᵥ, hᵥ, oᵥ, pᵥ, kₒ, lₒ, cₒ, dₒ], l2 [cₒ, dₒ, eᵥ, oᵥ], l2 [mₒ, nₒ, fᵥ, pᵥ]], [(1, [iₒ, jₒ, kₒ, lₒ, aᵥ, bᵥ, gᵥ, hᵥ])]⟩,
  -- line 223: ijae,klbf,mncdghop,opcd,efmn->ijklabgh
  ⟨-1/128, [t2 [aᵥ, eᵥ, iₒ, jₒ], t2 [bᵥ, fᵥ, kₒ, lₒ], t4 [gᵥ, hᵥ, oᵥ, pᵥ, mₒ, nₒ, cₒ, dₒ], l2 [cₒ, dₒ, oᵥ, pᵥ], l2 [mₒ, nₒ, eᵥ, fᵥ]], [(1, [iₒ, jₒ, kₒ, lₒ, aᵥ, bᵥ, gᵥ, hᵥ])]⟩,
  -- line 224: ijae,kmbf,lncdghop,efnc,opmd->ijklabgh
  ⟨1/16, [t2 [aᵥ, eᵥ, iₒ, jₒ], t2 [bᵥ, fᵥ, kₒ, mₒ], t4 [gᵥ, hᵥ, oᵥ, pᵥ, lₒ, nₒ, cₒ, dₒ], l2 [nₒ, cₒ, eᵥ, fᵥ], l2 [mₒ, dₒ, oᵥ, pᵥ]], [(1, [iₒ, jₒ, kₒ, lₒ, aᵥ, bᵥ, gᵥ, hᵥ])]⟩,
  -- line 225: ijae,kmbf,lncdghop,fpcd,eomn->ijklabgh
  ⟨-1/8, [t2 [aᵥ, eᵥ, iₒ, jₒ], t2 [bᵥ, fᵥ, kₒ, mₒ], t4 [gᵥ, hᵥ, oᵥ, pᵥ, lₒ, nₒ, cₒ, dₒ], l2 [cₒ, dₒ, fᵥ, pᵥ], l2 [mₒ, nₒ, eᵥ, oᵥ]], [(1, [iₒ, jₒ, kₒ, lₒ, aᵥ, bᵥ, gᵥ, hᵥ])]⟩,
  -- line 226: ijae,kmbf,lncdghop,opcd,efmn->ijklabgh
  ⟨1/16, [t2 [aᵥ, eᵥ, iₒ, jₒ], t2 [bᵥ, fᵥ, kₒ, mₒ], t4 [gᵥ, hᵥ, oᵥ, pᵥ, lₒ, nₒ, cₒ, dₒ], l2 [cₒ, dₒ, oᵥ, pᵥ], l2 [mₒ, nₒ, eᵥ, fᵥ]], [(1, [iₒ, jₒ, kₒ, lₒ, aᵥ, bᵥ, gᵥ, hᵥ])]⟩,
  -- line 227: ijae,mnbf,klcdghop,eomn,fpcd->ijklabgh
  ⟨1/32, [t2 [aᵥ, eᵥ, iₒ, jₒ], t2 [bᵥ, fᵥ, mₒ, nₒ], t4 [gᵥ, hᵥ, oᵥ, pᵥ, kₒ, lₒ, cₒ, dₒ], l2 [mₒ, nₒ, eᵥ, oᵥ], l2 [cₒ, dₒ, fᵥ, pᵥ]], [(1, [iₒ, jₒ, kₒ, lₒ, aᵥ, bᵥ, gᵥ, hᵥ])]⟩,
  -- line 228: ijae,mnbf,klcdghop,opmn,efcd->ijklabgh
  ⟨-1/64, [t2 [aᵥ, eᵥ, iₒ, jₒ], t2 [bᵥ, fᵥ, mₒ, nₒ], t4 [gᵥ, hᵥ, oᵥ, pᵥ, kₒ, lₒ, cₒ, dₒ], l2 [mₒ, nₒ, oᵥ, pᵥ], l2 [cₒ, dₒ, eᵥ, fᵥ]], [(1, [iₒ, jₒ, kₒ, lₒ, aᵥ, bᵥ, gᵥ, hᵥ])]⟩,
  -- line 229: ijae,mnbf,klcdghop,eomc,fpnd->ijklabgh
  ⟨-1/8, [t2 [aᵥ, eᵥ, iₒ, jₒ], t2 [bᵥ, fᵥ, mₒ, nₒ], t4 [gᵥ, hᵥ, oᵥ, pᵥ, kₒ, lₒ, cₒ, dₒ], l2 [mₒ, cₒ, eᵥ, oᵥ], l2 [nₒ, dₒ, fᵥ, pᵥ]], [(1, [iₒ, jₒ, kₒ, lₒ, aᵥ, bᵥ, gᵥ, hᵥ])]⟩,
  -- line 230: ijae,mnbf,klcdghop,opnd,efmc->ijklabgh
  ⟨1/16, [t2 [aᵥ, eᵥ, iₒ, jₒ], t2 [bᵥ, fᵥ, mₒ, nₒ], t4 [gᵥ, hᵥ, oᵥ, pᵥ, kₒ, lₒ, cₒ, dₒ], l2 [nₒ, dₒ, oᵥ, pᵥ], l2 [mₒ, cₒ, eᵥ, fᵥ]], [(1, [iₒ, jₒ, kₒ, lₒ, aᵥ, bᵥ, gᵥ, hᵥ])]⟩,
  -- line 231: ijae,klfb,mncdghop,efmn,bpcd->ijklagho
  ⟨-10416667/1000000000, [t2 [aᵥ, eᵥ, iₒ, jₒ], t2 [fᵥ, bᵥ, kₒ, lₒ], t4 [gᵥ, hᵥ, oᵥ, pᵥ, mₒ, nₒ, cₒ, dₒ], l2 [mₒ, nₒ, eᵥ, fᵥ], l2 [cₒ, dₒ, bᵥ, pᵥ]], [(1, [iₒ, jₒ, kₒ, lₒ, aᵥ, gᵥ, hᵥ, oᵥ])]⟩,
  -- line 232: ijae,kmfb,lncdghop,efnc,bpmd->ijklagho
  ⟨41666667/1000000000, [t2 [aᵥ, eᵥ, iₒ, jₒ], t2 [fᵥ, bᵥ, kₒ, mₒ], t4 [gᵥ, hᵥ, oᵥ, pᵥ, lₒ, nₒ, cₒ, dₒ], l2 [nₒ, cₒ, eᵥ, fᵥ], l2 [mₒ, dₒ, bᵥ, pᵥ]], [(1, [iₒ, jₒ, kₒ, lₒ, aᵥ, gᵥ, hᵥ, oᵥ])]⟩,
  -- line 233: ijae,kmfb,lncdghop,fbcd,epmn->ijklagho
  ⟨20833333/1000000000, [t2 [aᵥ, eᵥ, iₒ, jₒ], t2 [fᵥ, bᵥ, kₒ, mₒ], t4 [gᵥ, hᵥ, oᵥ, pᵥ, lₒ, nₒ, cₒ, dₒ], l2 [cₒ, dₒ, fᵥ, bᵥ], l2 [mₒ, nₒ, eᵥ, pᵥ]], [(1, [iₒ, jₒ, kₒ, lₒ, aᵥ, gᵥ, hᵥ, oᵥ])]⟩,
  -- line 234: ijae,kmfb,lncdghop,bpcd,efmn->ijklagho
  ⟨41666667/1000000000, [t2 [aᵥ, eᵥ, iₒ, jₒ], t2 [fᵥ, bᵥ, kₒ, mₒ], t4 [gᵥ, hᵥ, oᵥ, pᵥ, lₒ, nₒ, cₒ, dₒ], l2 [cₒ, dₒ, bᵥ, pᵥ], l2 [mₒ, nₒ, eᵥ, fᵥ]], [(1, [iₒ, jₒ, kₒ, lₒ, aᵥ, gᵥ, hᵥ, oᵥ])]⟩,
  -- line 235: ijae,mnfb,klcdghop,efmc,bpnd->ijklagho
  ⟨41666667/1000000000, [t2 [aᵥ, eᵥ, iₒ, jₒ], t2 [fᵥ, bᵥ, mₒ, nₒ], t4 [gᵥ, hᵥ, oᵥ, pᵥ, kₒ, lₒ, cₒ, dₒ], l2 [mₒ, cₒ, eᵥ, fᵥ], l2 [nₒ, dₒ, bᵥ, pᵥ]], [(1, [iₒ, jₒ, kₒ, lₒ, aᵥ, gᵥ, hᵥ, oᵥ])]⟩,
  -- line 236: ijae,mnfb,klcdghop,fbnd,epmc->ijklagho
  ⟨20833333/1000000000, [t2 [aᵥ, eᵥ, iₒ, jₒ], t2 [fᵥ, bᵥ, mₒ, nₒ], t4 [gᵥ, hᵥ, oᵥ, pᵥ, kₒ, lₒ, cₒ, dₒ], l2 [nₒ, dₒ, fᵥ, bᵥ], l2 [mₒ, cₒ, eᵥ, pᵥ]], [(1, [iₒ, jₒ, kₒ, lₒ, aᵥ, gᵥ, hᵥ, oᵥ])]⟩,
  -- line 237: ijae,mnfb,klcdghop,efcd,bpmn->ijklagho
  ⟨-10416667/1000000000, [t2 [aᵥ, eᵥ, iₒ, jₒ], t2 [fᵥ, bᵥ, mₒ, nₒ], t4 [gᵥ, hᵥ, oᵥ, pᵥ, kₒ, lₒ, cₒ, dₒ], l2 [cₒ, dₒ, eᵥ, fᵥ], l2 [mₒ, nₒ, bᵥ, pᵥ]], [(1, [iₒ, jₒ, kₒ, lₒ, aᵥ, gᵥ, hᵥ, oᵥ])]⟩,
  -- line 238: ijae,mnfb,klcdghop,fbcd,epmn->ijklagho
  ⟨-5208333/1000000000, [t2 [aᵥ, eᵥ, iₒ, jₒ], t2 [fᵥ, bᵥ, mₒ, nₒ], t4 [gᵥ, hᵥ, oᵥ, pᵥ, kₒ, lₒ, cₒ, dₒ], l2 [cₒ, dₒ, fᵥ, bᵥ], l2 [mₒ, nₒ, eᵥ, pᵥ]], [(1, [iₒ, jₒ, kₒ, lₒ, aᵥ, gᵥ, hᵥ, oᵥ])]⟩,
  -- line 239: imae,jnbf,klcdghop,opmd,efnc->ijklabgh
  ⟨1/8, [t2 [aᵥ, eᵥ, iₒ, mₒ], t2 [bᵥ, fᵥ, jₒ, nₒ], t4 [gᵥ, hᵥ, oᵥ, pᵥ, kₒ, lₒ, cₒ, dₒ], l2 [mₒ, dₒ, oᵥ, pᵥ], l2 [nₒ, cₒ, eᵥ, fᵥ]], [(1, [iₒ, jₒ, kₒ, lₒ, aᵥ, bᵥ, gᵥ, hᵥ])]⟩,
  -- line 240: imae,jnbf,klcdghop,eonc,fpmd->ijklabgh
  ⟨-1/4, [t2 [aᵥ, eᵥ, iₒ, mₒ], t2 [bᵥ, fᵥ, jₒ, nₒ], t4 [gᵥ, hᵥ, oᵥ, pᵥ, kₒ, lₒ, cₒ, dₒ], l2 [nₒ, cₒ, eᵥ, oᵥ], l2 [mₒ, dₒ, fᵥ, pᵥ]], [(1, [iₒ, jₒ, kₒ, lₒ, aᵥ, bᵥ, gᵥ, hᵥ])]⟩,
  -- line 241: imae,jnbf,klcdghop,efcd,opmn->ijklabgh
  ⟨1/16, [t2 [aᵥ, eᵥ, iₒ, mₒ], t2 [bᵥ, fᵥ, jₒ, nₒ], t4 [gᵥ, hᵥ, oᵥ, pᵥ, kₒ, lₒ, cₒ, dₒ], l2 [cₒ, dₒ, eᵥ, fᵥ], l2 [mₒ, nₒ, oᵥ, pᵥ]], [(1, [iₒ, jₒ, kₒ, lₒ, aᵥ, bᵥ, gᵥ, hᵥ])]⟩,
  -- line 242: imae,jnbf,klcdghop,fpcd,eomn->ijklabgh
  ⟨-1/8, [t2 [aᵥ, eᵥ, iₒ, mₒ], t2 [bᵥ, fᵥ, jₒ, nₒ], t4 [gᵥ, hᵥ, oᵥ, pᵥ, kₒ, lₒ, cₒ, dₒ], l2 [cₒ, dₒ, fᵥ, pᵥ], l2 [mₒ, nₒ, eᵥ, oᵥ]], [(1, [iₒ, jₒ, kₒ, lₒ, aᵥ, bᵥ, gᵥ, hᵥ])]⟩,
  -- line 243: imae,nbcf,jkldghop,eomn,fpbd->ijklacgh
  ⟨-83333333/1000000000, [t2 [aᵥ, eᵥ, iₒ, mₒ], t2 [cᵥ, fᵥ, nₒ, bₒ], t4 [gᵥ, hᵥ, oᵥ, pᵥ, jₒ, kₒ, lₒ, dₒ], l2 [mₒ, nₒ, eᵥ, oᵥ], l2 [bₒ, dₒ, fᵥ, pᵥ]], [(1, [iₒ, jₒ, kₒ, lₒ, aᵥ, cᵥ, gᵥ, hᵥ])]⟩
  ]

/-- Part 2 of `get_xcc9residual`. -/
def get_xcc9residual_2 : Prog := [
  -- line 244: imae,nbcf,jkldghop,fomn,epbd->ijklacgh
  ⟨166666667/1000000000, [t2 [aᵥ, eᵥ, iₒ, mₒ], t2 [cᵥ, fᵥ, nₒ, bₒ], t4 [gᵥ, hᵥ, oᵥ, pᵥ, jₒ, kₒ, lₒ, dₒ], l2 [mₒ, nₒ, fᵥ, oᵥ], l2 [bₒ, dₒ, eᵥ, pᵥ]], [(1, [iₒ, jₒ, kₒ, lₒ, aᵥ, cᵥ, gᵥ, hᵥ])]⟩,
  -- line 245: imae,nbcf,jkldghop,opmn,efbd->ijklacgh
  ⟨83333333/1000000000, [t2 [aᵥ, eᵥ, iₒ, mₒ], t2 [cᵥ, fᵥ, nₒ, bₒ], t4 [gᵥ, hᵥ, oᵥ, pᵥ, jₒ, kₒ, lₒ, dₒ], l2 [mₒ, nₒ, oᵥ, pᵥ], l2 [bₒ, dₒ, eᵥ, fᵥ]], [(1, [iₒ, jₒ, kₒ, lₒ, aᵥ, cᵥ, gᵥ, hᵥ])]⟩,
  -- line 246: imae,nbcf,jkldghop,eonb,fpmd->ijklacgh
  ⟨-83333333/1000000000, [t2 [aᵥ, eᵥ, iₒ, mₒ], t2 [cᵥ, fᵥ, nₒ, bₒ], t4 [gᵥ, hᵥ, oᵥ, pᵥ, jₒ, kₒ, lₒ, dₒ], l2 [nₒ, bₒ, eᵥ, oᵥ], l2 [mₒ, dₒ, fᵥ, pᵥ]], [(1, [iₒ, jₒ, kₒ, lₒ, aᵥ, cᵥ, gᵥ, hᵥ])]⟩,
  -- line 247: imae,nbcf,jkldghop,opnb,efmd->ijklacgh
  ⟨20833333/1000000000, [t2 [aᵥ, eᵥ, iₒ, mₒ], t2 [cᵥ, fᵥ, nₒ, bₒ], t4 [gᵥ, hᵥ, oᵥ, pᵥ, jₒ, kₒ, lₒ, dₒ], l2 [nₒ, bₒ, oᵥ, pᵥ], l2 [mₒ, dₒ, eᵥ, fᵥ]], [(1, [iₒ, jₒ, kₒ, lₒ, aᵥ, cᵥ, gᵥ, hᵥ])]⟩,
  -- line 248: imae,jkfb,lncdghop,ebcd,fpmn->ijklagho
  ⟨-83333333/1000000000, [t2 [aᵥ, eᵥ, iₒ, mₒ], t2 [fᵥ, bᵥ, jₒ, kₒ], t4 [gᵥ, hᵥ, oᵥ, pᵥ, lₒ, nₒ, cₒ, dₒ], l2 [cₒ, dₒ, eᵥ, bᵥ], l2 [mₒ, nₒ, fᵥ, pᵥ]], [(1, [iₒ, jₒ, kₒ, lₒ, aᵥ, gᵥ, hᵥ, oᵥ])]⟩,
  -- line 249: imae,jkfb,lncdghop,epcd,fbmn->ijklagho
  ⟨20833333/1000000000, [t2 [aᵥ, eᵥ, iₒ, mₒ], t2 [fᵥ, bᵥ, jₒ, kₒ], t4 [gᵥ, hᵥ, oᵥ, pᵥ, lₒ, nₒ, cₒ, dₒ], l2 [cₒ, dₒ, eᵥ, pᵥ], l2 [mₒ, nₒ, fᵥ, bᵥ]], [(1, [iₒ, jₒ, kₒ, lₒ, aᵥ, gᵥ, hᵥ, oᵥ])]⟩,
  -- line 250: imae,jkfb,lncdghop,bpcd,efmn->ijklagho
  ⟨41666667/1000000000, [t2 [aᵥ, eᵥ, iₒ, mₒ], t2 [fᵥ, bᵥ, jₒ, kₒ], t4 [gᵥ, hᵥ, oᵥ, pᵥ, lₒ, nₒ, cₒ, dₒ], l2 [cₒ, dₒ, bᵥ, pᵥ], l2 [mₒ, nₒ, eᵥ, fᵥ]], [(1, [iₒ, jₒ, kₒ, lₒ, aᵥ, gᵥ, hᵥ, oᵥ])]⟩,
  -- line 251: imae,jnfb,klcdghop,efmc,bpnd->ijklagho
  ⟨-83333333/1000000000, [t2 [aᵥ, eᵥ, iₒ, mₒ], t2 [fᵥ, bᵥ, jₒ, nₒ], t4 [gᵥ, hᵥ, oᵥ, pᵥ, kₒ, lₒ, cₒ, dₒ], l2 [mₒ, cₒ, eᵥ, fᵥ], l2 [nₒ, dₒ, bᵥ, pᵥ]], [(1, [iₒ, jₒ, kₒ, lₒ, aᵥ, gᵥ, hᵥ, oᵥ])]⟩,
  -- line 252: imae,jnfb,klcdghop,fbmc,epnd->ijklagho
  ⟨-83333333/1000000000, [t2 [aᵥ, eᵥ, iₒ, mₒ], t2 [fᵥ, bᵥ, jₒ, nₒ], t4 [gᵥ, hᵥ, oᵥ, pᵥ, kₒ, lₒ, cₒ, dₒ], l2 [mₒ, cₒ, fᵥ, bᵥ], l2 [nₒ, dₒ, eᵥ, pᵥ]], [(1, [iₒ, jₒ, kₒ, lₒ, aᵥ, gᵥ, hᵥ, oᵥ])]⟩,
  -- line 253: imae,jnfb,klcdghop,efnc,bpmd->ijklagho
  ⟨166666667/1000000000, [t2 [aᵥ, eᵥ, iₒ, mₒ], t2 [fᵥ, bᵥ, jₒ, nₒ], t4 [gᵥ, hᵥ, oᵥ, pᵥ, kₒ, lₒ, cₒ, dₒ], l2 [nₒ, cₒ, eᵥ, fᵥ], l2 [mₒ, dₒ, bᵥ, pᵥ]], [(1, [iₒ, jₒ, kₒ, lₒ, aᵥ, gᵥ, hᵥ, oᵥ])]⟩,
  -- line 254: imae,jnfb,klcdghop,ebcd,fpmn->ijklagho
  ⟨-83333333/1000000000, [t2 [aᵥ, eᵥ, iₒ, mₒ], t2 [fᵥ, bᵥ, jₒ, nₒ], t4 [gᵥ, hᵥ, oᵥ, pᵥ, kₒ, lₒ, cₒ, dₒ], l2 [cₒ, dₒ, eᵥ, bᵥ], l2 [mₒ, nₒ, fᵥ, pᵥ]], [(1, [iₒ, jₒ, kₒ, lₒ, aᵥ, gᵥ, hᵥ, oᵥ])]⟩,
  -- line 255: imae,jnfb,klcdghop,fbcd,epmn->ijklagho
  ⟨20833333/1000000000, [t2 [aᵥ, eᵥ, iₒ, mₒ], t2 [fᵥ, bᵥ, jₒ, nₒ], t4 [gᵥ, hᵥ, oᵥ, pᵥ, kₒ, lₒ, cₒ, dₒ], l2 [cₒ, dₒ, fᵥ, bᵥ], l2 [mₒ, nₒ, eᵥ, pᵥ]], [(1, [iₒ, jₒ, kₒ, lₒ, aᵥ, gᵥ, hᵥ, oᵥ])]⟩,
  -- line 256: imae,nbfc,jkldghop,fpmn,ecbd->ijklagho
  ⟨-13888889/250000000, [t2 [aᵥ, eᵥ, iₒ, mₒ], t2 [fᵥ, cᵥ, nₒ, bₒ], t4 [gᵥ, hᵥ, oᵥ, pᵥ, jₒ, kₒ, lₒ, dₒ], l2 [mₒ, nₒ, fᵥ, pᵥ], l2 [bₒ, dₒ, eᵥ, cᵥ]], [(1, [iₒ, jₒ, kₒ, lₒ, aᵥ, gᵥ, hᵥ, oᵥ])]⟩,
  -- line 257: imae,nbfc,jkldghop,fcmb,epnd->ijklagho
  ⟨-13888889/1000000000, [t2 [aᵥ, eᵥ, iₒ, mₒ], t2 [fᵥ, cᵥ, nₒ, bₒ], t4 [gᵥ, hᵥ, oᵥ, pᵥ, jₒ, kₒ, lₒ, dₒ], l2 [mₒ, bₒ, fᵥ, cᵥ], l2 [nₒ, dₒ, eᵥ, pᵥ]], [(1, [iₒ, jₒ, kₒ, lₒ, aᵥ, gᵥ, hᵥ, oᵥ])]⟩,
  -- line 258: imae,nbfc,jkldghop,ecnb,fpmd->ijklagho
  ⟨-13888889/1000000000, [t2 [aᵥ, eᵥ, iₒ, mₒ], t2 [fᵥ, cᵥ, nₒ, bₒ], t4 [gᵥ, hᵥ, oᵥ, pᵥ, jₒ, kₒ, lₒ, dₒ], l2 [nₒ, bₒ, eᵥ, cᵥ], l2 [mₒ, dₒ, fᵥ, pᵥ]], [(1, [iₒ, jₒ, kₒ, lₒ, aᵥ, gᵥ, hᵥ, oᵥ])]⟩,
  -- line 259: imae,nbfc,jkldghop,epnb,fcmd->ijklagho
  ⟨13888889/1000000000, [t2 [aᵥ, eᵥ, iₒ, mₒ], t2 [fᵥ, cᵥ, nₒ, bₒ], t4 [gᵥ, hᵥ, oᵥ, pᵥ, jₒ, kₒ, lₒ, dₒ], l2 [nₒ, bₒ, eᵥ, pᵥ], l2 [mₒ, dₒ, fᵥ, cᵥ]], [(1, [iₒ, jₒ, kₒ, lₒ, aᵥ, gᵥ, hᵥ, oᵥ])]⟩,
  -- line 260: imae,nbfc,jkldghop,cpnb,efmd->ijklagho
  ⟨13888889/1000000000, [t2 [aᵥ, eᵥ, iₒ, mₒ], t2 [fᵥ, cᵥ, nₒ, bₒ], t4 [gᵥ, hᵥ, oᵥ, pᵥ, jₒ, kₒ, lₒ, dₒ], l2 [nₒ, bₒ, cᵥ, pᵥ], l2 [mₒ, dₒ, eᵥ, fᵥ]], [(1, [iₒ, jₒ, kₒ, lₒ, aᵥ, gᵥ, hᵥ, oᵥ])]⟩,
  -- line 261: imae,nbfc,jkldghop,fcbd,epmn->ijklagho
  ⟨13888889/1000000000, [t2 [aᵥ, eᵥ, iₒ, mₒ], t2 [fᵥ, cᵥ, nₒ, bₒ], t4 [gᵥ, hᵥ, oᵥ, pᵥ, jₒ, kₒ, lₒ, dₒ], l2 [bₒ, dₒ, fᵥ, cᵥ], l2 [mₒ, nₒ, eᵥ, pᵥ]], [(1, [iₒ, jₒ, kₒ, lₒ, aᵥ, gᵥ, hᵥ, oᵥ])]⟩,
  -- line 262: mnae,bcdf,ijklghop,eomb,fpnc->ijkladgh
  ⟨-20833333/1000000000, [t2 [aᵥ, eᵥ, mₒ, nₒ], t2 [dᵥ, fᵥ, bₒ, cₒ], t4 [gᵥ, hᵥ, oᵥ, pᵥ, iₒ, jₒ, kₒ, lₒ], l2 [mₒ, bₒ, eᵥ, oᵥ], l2 [nₒ, cₒ, fᵥ, pᵥ]], [(1, [iₒ, jₒ, kₒ, lₒ, aᵥ, dᵥ, gᵥ, hᵥ])]⟩,
  -- line 263: mnae,bcdf,ijklghop,opmb,efnc->ijkladgh
  ⟨5208333/1000000000, [t2 [aᵥ, eᵥ, mₒ, nₒ], t2 [dᵥ, fᵥ, bₒ, cₒ], t4 [gᵥ, hᵥ, oᵥ, pᵥ, iₒ, jₒ, kₒ, lₒ], l2 [mₒ, bₒ, oᵥ, pᵥ], l2 [nₒ, cₒ, eᵥ, fᵥ]], [(1, [iₒ, jₒ, kₒ, lₒ, aᵥ, dᵥ, gᵥ, hᵥ])]⟩,
  -- line 264: mnae,bcdf,ijklghop,eobc,fpmn->ijkladgh
  ⟨5208333/1000000000, [t2 [aᵥ, eᵥ, mₒ, nₒ], t2 [dᵥ, fᵥ, bₒ, cₒ], t4 [gᵥ, hᵥ, oᵥ, pᵥ, iₒ, jₒ, kₒ, lₒ], l2 [bₒ, cₒ, eᵥ, oᵥ], l2 [mₒ, nₒ, fᵥ, pᵥ]], [(1, [iₒ, jₒ, kₒ, lₒ, aᵥ, dᵥ, gᵥ, hᵥ])]⟩,
  -- line 265: mnae,ijfb,klcdghop,fpmn,ebcd->ijklagho
  ⟨20833333/1000000000, [t2 [aᵥ, eᵥ, mₒ, nₒ], t2 [fᵥ, bᵥ, iₒ, jₒ], t4 [gᵥ, hᵥ, oᵥ, pᵥ, kₒ, lₒ, cₒ, dₒ], l2 [mₒ, nₒ, fᵥ, pᵥ], l2 [cₒ, dₒ, eᵥ, bᵥ]], [(1, [iₒ, jₒ, kₒ, lₒ, aᵥ, gᵥ, hᵥ, oᵥ])]⟩,
  -- line 266: mnae,ijfb,klcdghop,efmc,bpnd->ijklagho
  ⟨83333333/1000000000, [t2 [aᵥ, eᵥ, mₒ, nₒ], t2 [fᵥ, bᵥ, iₒ, jₒ], t4 [gᵥ, hᵥ, oᵥ, pᵥ, kₒ, lₒ, cₒ, dₒ], l2 [mₒ, cₒ, eᵥ, fᵥ], l2 [nₒ, dₒ, bᵥ, pᵥ]], [(1, [iₒ, jₒ, kₒ, lₒ, aᵥ, gᵥ, hᵥ, oᵥ])]⟩,
  -- line 267: mnae,ijfb,klcdghop,fbmc,epnd->ijklagho
  ⟨20833333/1000000000, [t2 [aᵥ, eᵥ, mₒ, nₒ], t2 [fᵥ, bᵥ, iₒ, jₒ], t4 [gᵥ, hᵥ, oᵥ, pᵥ, kₒ, lₒ, cₒ, dₒ], l2 [mₒ, cₒ, fᵥ, bᵥ], l2 [nₒ, dₒ, eᵥ, pᵥ]], [(1, [iₒ, jₒ, kₒ, lₒ, aᵥ, gᵥ, hᵥ, oᵥ])]⟩,
  -- line 268: mnae,ibfc,jkldghop,fcmn,epbd->ijklagho
  ⟨1736111/250000000, [t2 [aᵥ, eᵥ, mₒ, nₒ], t2 [fᵥ, cᵥ, iₒ, bₒ], t4 [gᵥ, hᵥ, oᵥ, pᵥ, jₒ, kₒ, lₒ, dₒ], l2 [mₒ, nₒ, fᵥ, cᵥ], l2 [bₒ, dₒ, eᵥ, pᵥ]], [(1, [iₒ, jₒ, kₒ, lₒ, aᵥ, gᵥ, hᵥ, oᵥ])]⟩,
  -- line 269: mnae,ibfc,jkldghop,fpmn,ecbd->ijklagho
  ⟨-13888889/500000000, [t2 [aᵥ, eᵥ, mₒ, nₒ], t2 [fᵥ, cᵥ, iₒ, bₒ], t4 [gᵥ, hᵥ, oᵥ, pᵥ, jₒ, kₒ, lₒ, dₒ], l2 [mₒ, nₒ, fᵥ, pᵥ], l2 [bₒ, dₒ, eᵥ, cᵥ]], [(1, [iₒ, jₒ, kₒ, lₒ, aᵥ, gᵥ, hᵥ, oᵥ])]⟩,
  -- line 270: mnae,ibfc,jkldghop,fpmb,ecnd->ijklagho
  ⟨13888889/250000000, [t2 [aᵥ, eᵥ, mₒ, nₒ], t2 [fᵥ, cᵥ, iₒ, bₒ], t4 [gᵥ, hᵥ, oᵥ, pᵥ, jₒ, kₒ, lₒ, dₒ], l2 [mₒ, bₒ, fᵥ, pᵥ], l2 [nₒ, dₒ, eᵥ, cᵥ]], [(1, [iₒ, jₒ, kₒ, lₒ, aᵥ, gᵥ, hᵥ, oᵥ])]⟩,
  -- line 271: mnae,ibfc,jkldghop,fpmd,ecnb->ijklagho
  ⟨-13888889/500000000, [t2 [aᵥ, eᵥ, mₒ, nₒ], t2 [fᵥ, cᵥ, iₒ, bₒ], t4 [gᵥ, hᵥ, oᵥ, pᵥ, jₒ, kₒ, lₒ, dₒ], l2 [mₒ, dₒ, fᵥ, pᵥ], l2 [nₒ, bₒ, eᵥ, cᵥ]], [(1, [iₒ, jₒ, kₒ, lₒ, aᵥ, gᵥ, hᵥ, oᵥ])]⟩,
  -- line 272: mnae,ibfc,jkldghop,fcnd,epmb->ijklagho
  ⟨-13888889/500000000, [t2 [aᵥ, eᵥ, mₒ, nₒ], t2 [fᵥ, cᵥ, iₒ, bₒ], t4 [gᵥ, hᵥ, oᵥ, pᵥ, jₒ, kₒ, lₒ, dₒ], l2 [nₒ, dₒ, fᵥ, cᵥ], l2 [mₒ, bₒ, eᵥ, pᵥ]], [(1, [iₒ, jₒ, kₒ, lₒ, aᵥ, gᵥ, hᵥ, oᵥ])]⟩,
  -- line 273: mnae,bcfd,ijklghop,fdmn,epbc->ijklagho
  ⟨-108507/125000000, [t2 [aᵥ, eᵥ, mₒ, nₒ], t2 [fᵥ, dᵥ, bₒ, cₒ], t4 [gᵥ, hᵥ, oᵥ, pᵥ, iₒ, jₒ, kₒ, lₒ], l2 [mₒ, nₒ, fᵥ, dᵥ], l2 [bₒ, cₒ, eᵥ, pᵥ]], [(1, [iₒ, jₒ, kₒ, lₒ, aᵥ, gᵥ, hᵥ, oᵥ])]⟩,
  -- line 274: mnae,bcfd,ijklghop,fpmn,edbc->ijklagho
  ⟨1736111/1000000000, [t2 [aᵥ, eᵥ, mₒ, nₒ], t2 [fᵥ, dᵥ, bₒ, cₒ], t4 [gᵥ, hᵥ, oᵥ, pᵥ, iₒ, jₒ, kₒ, lₒ], l2 [mₒ, nₒ, fᵥ, pᵥ], l2 [bₒ, cₒ, eᵥ, dᵥ]], [(1, [iₒ, jₒ, kₒ, lₒ, aᵥ, gᵥ, hᵥ, oᵥ])]⟩,
  -- line 275: mnae,bcfd,ijklghop,fpmb,ednc->ijklagho
  ⟨-1736111/250000000, [t2 [aᵥ, eᵥ, mₒ, nₒ], t2 [fᵥ, dᵥ, bₒ, cₒ], t4 [gᵥ, hᵥ, oᵥ, pᵥ, iₒ, jₒ, kₒ, lₒ], l2 [mₒ, bₒ, fᵥ, pᵥ], l2 [nₒ, cₒ, eᵥ, dᵥ]], [(1, [iₒ, jₒ, kₒ, lₒ, aᵥ, gᵥ, hᵥ, oᵥ])]⟩,
  -- line 276: mnae,bcfd,ijklghop,fdnc,epmb->ijklagho
  ⟨1736111/500000000, [t2 [aᵥ, eᵥ, mₒ, nₒ], t2 [fᵥ, dᵥ, bₒ, cₒ], t4 [gᵥ, hᵥ, oᵥ, pᵥ, iₒ, jₒ, kₒ, lₒ], l2 [nₒ, cₒ, fᵥ, dᵥ], l2 [mₒ, bₒ, eᵥ, pᵥ]], [(1, [iₒ, jₒ, kₒ, lₒ, aᵥ, gᵥ, hᵥ, oᵥ])]⟩,
  -- line 277: ijef,klab,mncdghop,eamn,fbcd->ijklghop
  ⟨-1302083/1000000000, [t2 [eᵥ, fᵥ, iₒ, jₒ], t2 [aᵥ, bᵥ, kₒ, lₒ], t4 [gᵥ, hᵥ, oᵥ, pᵥ, mₒ, nₒ, cₒ, dₒ], l2 [mₒ, nₒ, eᵥ, aᵥ], l2 [cₒ, dₒ, fᵥ, bᵥ]], [(1, [iₒ, jₒ, kₒ, lₒ, gᵥ, hᵥ, oᵥ, pᵥ])]⟩,
  -- line 278: ijef,kmab,lncdghop,fbcd,eamn->ijklghop
  ⟨20833333/1000000000, [t2 [eᵥ, fᵥ, iₒ, jₒ], t2 [aᵥ, bᵥ, kₒ, mₒ], t4 [gᵥ, hᵥ, oᵥ, pᵥ, lₒ, nₒ, cₒ, dₒ], l2 [cₒ, dₒ, fᵥ, bᵥ], l2 [mₒ, nₒ, eᵥ, aᵥ]], [(1, [iₒ, jₒ, kₒ, lₒ, gᵥ, hᵥ, oᵥ, pᵥ])]⟩,
  -- line 279: ijef,kmab,lncdghop,abcd,efmn->ijklghop
  ⟨-2604167/1000000000, [t2 [eᵥ, fᵥ, iₒ, jₒ], t2 [aᵥ, bᵥ, kₒ, mₒ], t4 [gᵥ, hᵥ, oᵥ, pᵥ, lₒ, nₒ, cₒ, dₒ], l2 [cₒ, dₒ, aᵥ, bᵥ], l2 [mₒ, nₒ, eᵥ, fᵥ]], [(1, [iₒ, jₒ, kₒ, lₒ, gᵥ, hᵥ, oᵥ, pᵥ])]⟩,
  -- line 280: ijef,mnab,klcdghop,efmc,abnd->ijklghop
  ⟨-2604167/1000000000, [t2 [eᵥ, fᵥ, iₒ, jₒ], t2 [aᵥ, bᵥ, mₒ, nₒ], t4 [gᵥ, hᵥ, oᵥ, pᵥ, kₒ, lₒ, cₒ, dₒ], l2 [mₒ, cₒ, eᵥ, fᵥ], l2 [nₒ, dₒ, aᵥ, bᵥ]], [(1, [iₒ, jₒ, kₒ, lₒ, gᵥ, hᵥ, oᵥ, pᵥ])]⟩,
  -- line 281: ijef,mnab,klcdghop,eamc,fbnd->ijklghop
  ⟨10416667/1000000000, [t2 [eᵥ, fᵥ, iₒ, jₒ], t2 [aᵥ, bᵥ, mₒ, nₒ], t4 [gᵥ, hᵥ, oᵥ, pᵥ, kₒ, lₒ, cₒ, dₒ], l2 [mₒ, cₒ, eᵥ, aᵥ], l2 [nₒ, dₒ, fᵥ, bᵥ]], [(1, [iₒ, jₒ, kₒ, lₒ, gᵥ, hᵥ, oᵥ, pᵥ])]⟩,
  -- line 282: ijef,mnab,klcdghop,eacd,fbmn->ijklghop
  ⟨-2604167/1000000000, [t2 [eᵥ, fᵥ, iₒ, jₒ], t2 [aᵥ, bᵥ, mₒ, nₒ], t4 [gᵥ, hᵥ, oᵥ, pᵥ, kₒ, lₒ, cₒ, dₒ], l2 [cₒ, dₒ, eᵥ, aᵥ], l2 [mₒ, nₒ, fᵥ, bᵥ]], [(1, [iₒ, jₒ, kₒ, lₒ, gᵥ, hᵥ, oᵥ, pᵥ])]⟩,
  -- line 283: imef,jnab,klcdghop,efnc,abmd->ijklghop
  ⟨-5208333/1000000000, [t2 [eᵥ, fᵥ, iₒ, mₒ], t2 [aᵥ, bᵥ, jₒ, nₒ], t4 [gᵥ, hᵥ, oᵥ, pᵥ, kₒ, lₒ, cₒ, dₒ], l2 [nₒ, cₒ, eᵥ, fᵥ], l2 [mₒ, dₒ, aᵥ, bᵥ]], [(1, [iₒ, jₒ, kₒ, lₒ, gᵥ, hᵥ, oᵥ, pᵥ])]⟩
  ]

/-- Part 3 of `get_xcc9residual`. -/
def get_xcc9residual_3 : Prog := [
  -- line 284: imef,jnab,klcdghop,eanc,fbmd->ijklghop
  ⟨20833333/1000000000, [t2 [eᵥ, fᵥ, iₒ, mₒ], t2 [aᵥ, bᵥ, jₒ, nₒ], t4 [gᵥ, hᵥ, oᵥ, pᵥ, kₒ, lₒ, cₒ, dₒ], l2 [nₒ, cₒ, eᵥ, aᵥ], l2 [mₒ, dₒ, fᵥ, bᵥ]], [(1, [iₒ, jₒ, kₒ, lₒ, gᵥ, hᵥ, oᵥ, pᵥ])]⟩,
  -- line 285: imef,jnab,klcdghop,eacd,fbmn->ijklghop
  ⟨5208333/1000000000, [t2 [eᵥ, fᵥ, iₒ, mₒ], t2 [aᵥ, bᵥ, jₒ, nₒ], t4 [gᵥ, hᵥ, oᵥ, pᵥ, kₒ, lₒ, cₒ, dₒ], l2 [cₒ, dₒ, eᵥ, aᵥ], l2 [mₒ, nₒ, fᵥ, bᵥ]], [(1, [iₒ, jₒ, kₒ, lₒ, gᵥ, hᵥ, oᵥ, pᵥ])]⟩,
  -- line 286: imef,nabc,jkldghop,efna,bcmd->ijklghop
  ⟨-108507/125000000, [t2 [eᵥ, fᵥ, iₒ, mₒ], t2 [bᵥ, cᵥ, nₒ, aₒ], t4 [gᵥ, hᵥ, oᵥ, pᵥ, jₒ, kₒ, lₒ, dₒ], l2 [nₒ, aₒ, eᵥ, fᵥ], l2 [mₒ, dₒ, bᵥ, cᵥ]], [(1, [iₒ, jₒ, kₒ, lₒ, gᵥ, hᵥ, oᵥ, pᵥ])]⟩,
  -- line 287: imef,nabc,jkldghop,fcna,ebmd->ijklghop
  ⟨1736111/500000000, [t2 [eᵥ, fᵥ, iₒ, mₒ], t2 [bᵥ, cᵥ, nₒ, aₒ], t4 [gᵥ, hᵥ, oᵥ, pᵥ, jₒ, kₒ, lₒ, dₒ], l2 [nₒ, aₒ, fᵥ, cᵥ], l2 [mₒ, dₒ, eᵥ, bᵥ]], [(1, [iₒ, jₒ, kₒ, lₒ, gᵥ, hᵥ, oᵥ, pᵥ])]⟩,
  -- line 288: imef,nabc,jkldghop,efnd,bcma->ijklghop
  ⟨1736111/1000000000, [t2 [eᵥ, fᵥ, iₒ, mₒ], t2 [bᵥ, cᵥ, nₒ, aₒ], t4 [gᵥ, hᵥ, oᵥ, pᵥ, jₒ, kₒ, lₒ, dₒ], l2 [nₒ, dₒ, eᵥ, fᵥ], l2 [mₒ, aₒ, bᵥ, cᵥ]], [(1, [iₒ, jₒ, kₒ, lₒ, gᵥ, hᵥ, oᵥ, pᵥ])]⟩,
  -- line 289: imef,nabc,jkldghop,ebnd,fcma->ijklghop
  ⟨-1736111/250000000, [t2 [eᵥ, fᵥ, iₒ, mₒ], t2 [bᵥ, cᵥ, nₒ, aₒ], t4 [gᵥ, hᵥ, oᵥ, pᵥ, jₒ, kₒ, lₒ, dₒ], l2 [nₒ, dₒ, eᵥ, bᵥ], l2 [mₒ, aₒ, fᵥ, cᵥ]], [(1, [iₒ, jₒ, kₒ, lₒ, gᵥ, hᵥ, oᵥ, pᵥ])]⟩
  ]

/-- `UT2/XCCDbasebuilder.py` 151-290, `get_xcc9residual`. -/
def get_xcc9residual : Prog := get_xcc9residual_0 ++ (get_xcc9residual_1 ++ (get_xcc9residual_2 ++ (get_xcc9residual_3)))

end Verif.Gen
