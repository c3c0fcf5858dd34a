import Verif.Ein.Names
import Verif.Gen.Antisym

/-! Written by `/verif/tools/gen.py`. Programs read from `/repo/UT2`. -/

set_option maxRecDepth 100000

namespace Verif.Gen

open Verif.Ein Verif.Ein.N


/-- Part 0 of `si_energy_pertQf`. -/
def si_energy_pertQf_0 : Prog := [
  -- line 18: nmkl,ijba,kldc,dcjm,bain
  ⟨-1/8, [g_aaaa [nₒ, mₒ, kₒ, lₒ], l2_aaaa [iₒ, jₒ, bᵥ, aᵥ], l2_aaaa [kₒ, lₒ, dᵥ, cᵥ], t2_aaaa [dᵥ, cᵥ, jₒ, mₒ], t2_aaaa [bᵥ, aᵥ, iₒ, nₒ]], [(1, [])]⟩,
  -- line 21: nmkl,ijba,kldc,dcjm,bain
  ⟨-1/8, [g_abab [nₒ, mₒ, kₒ, lₒ], l2_aaaa [iₒ, jₒ, bᵥ, aᵥ], l2_abab [kₒ, lₒ, dᵥ, cᵥ], t2_abab [dᵥ, cᵥ, jₒ, mₒ], t2_aaaa [bᵥ, aᵥ, iₒ, nₒ]], [(1, [])]⟩,
  -- line 24: nmkl,ijba,klcd,cdjm,bain
  ⟨-1/8, [g_abab [nₒ, mₒ, kₒ, lₒ], l2_aaaa [iₒ, jₒ, bᵥ, aᵥ], l2_abab [kₒ, lₒ, cᵥ, dᵥ], t2_abab [cᵥ, dᵥ, jₒ, mₒ], t2_aaaa [bᵥ, aᵥ, iₒ, nₒ]], [(1, [])]⟩,
  -- line 27: nmlk,ijba,lkdc,dcjm,bain
  ⟨-1/8, [g_abab [nₒ, mₒ, lₒ, kₒ], l2_aaaa [iₒ, jₒ, bᵥ, aᵥ], l2_abab [lₒ, kₒ, dᵥ, cᵥ], t2_abab [dᵥ, cᵥ, jₒ, mₒ], t2_aaaa [bᵥ, aᵥ, iₒ, nₒ]], [(1, [])]⟩,
  -- line 30: nmlk,ijba,lkcd,cdjm,bain
  ⟨-1/8, [g_abab [nₒ, mₒ, lₒ, kₒ], l2_aaaa [iₒ, jₒ, bᵥ, aᵥ], l2_abab [lₒ, kₒ, cᵥ, dᵥ], t2_abab [cᵥ, dᵥ, jₒ, mₒ], t2_aaaa [bᵥ, aᵥ, iₒ, nₒ]], [(1, [])]⟩,
  -- line 33: mnkl,ijba,kldc,dcmj,bain
  ⟨-1/8, [g_abab [mₒ, nₒ, kₒ, lₒ], l2_abab [iₒ, jₒ, bᵥ, aᵥ], l2_abab [kₒ, lₒ, dᵥ, cᵥ], t2_abab [dᵥ, cᵥ, mₒ, jₒ], t2_abab [bᵥ, aᵥ, iₒ, nₒ]], [(1, [])]⟩,
  -- line 36: mnkl,ijba,klcd,cdmj,bain
  ⟨-1/8, [g_abab [mₒ, nₒ, kₒ, lₒ], l2_abab [iₒ, jₒ, bᵥ, aᵥ], l2_abab [kₒ, lₒ, cᵥ, dᵥ], t2_abab [cᵥ, dᵥ, mₒ, jₒ], t2_abab [bᵥ, aᵥ, iₒ, nₒ]], [(1, [])]⟩,
  -- line 39: mnlk,ijba,lkdc,dcmj,bain
  ⟨-1/8, [g_abab [mₒ, nₒ, lₒ, kₒ], l2_abab [iₒ, jₒ, bᵥ, aᵥ], l2_abab [lₒ, kₒ, dᵥ, cᵥ], t2_abab [dᵥ, cᵥ, mₒ, jₒ], t2_abab [bᵥ, aᵥ, iₒ, nₒ]], [(1, [])]⟩,
  -- line 42: mnlk,ijba,lkcd,cdmj,bain
  ⟨-1/8, [g_abab [mₒ, nₒ, lₒ, kₒ], l2_abab [iₒ, jₒ, bᵥ, aᵥ], l2_abab [lₒ, kₒ, cᵥ, dᵥ], t2_abab [cᵥ, dᵥ, mₒ, jₒ], t2_abab [bᵥ, aᵥ, iₒ, nₒ]], [(1, [])]⟩,
  -- line 45: nmkl,ijba,kldc,dcjm,bain
  ⟨-1/8, [g_bbbb [nₒ, mₒ, kₒ, lₒ], l2_abab [iₒ, jₒ, bᵥ, aᵥ], l2_bbbb [kₒ, lₒ, dᵥ, cᵥ], t2_bbbb [dᵥ, cᵥ, jₒ, mₒ], t2_abab [bᵥ, aᵥ, iₒ, nₒ]], [(1, [])]⟩,
  -- line 48: mnkl,ijab,kldc,dcmj,abin
  ⟨-1/8, [g_abab [mₒ, nₒ, kₒ, lₒ], l2_abab [iₒ, jₒ, aᵥ, bᵥ], l2_abab [kₒ, lₒ, dᵥ, cᵥ], t2_abab [dᵥ, cᵥ, mₒ, jₒ], t2_abab [aᵥ, bᵥ, iₒ, nₒ]], [(1, [])]⟩,
  -- line 51: mnkl,ijab,klcd,cdmj,abin
  ⟨-1/8, [g_abab [mₒ, nₒ, kₒ, lₒ], l2_abab [iₒ, jₒ, aᵥ, bᵥ], l2_abab [kₒ, lₒ, cᵥ, dᵥ], t2_abab [cᵥ, dᵥ, mₒ, jₒ], t2_abab [aᵥ, bᵥ, iₒ, nₒ]], [(1, [])]⟩,
  -- line 54: mnlk,ijab,lkdc,dcmj,abin
  ⟨-1/8, [g_abab [mₒ, nₒ, lₒ, kₒ], l2_abab [iₒ, jₒ, aᵥ, bᵥ], l2_abab [lₒ, kₒ, dᵥ, cᵥ], t2_abab [dᵥ, cᵥ, mₒ, jₒ], t2_abab [aᵥ, bᵥ, iₒ, nₒ]], [(1, [])]⟩,
  -- line 57: mnlk,ijab,lkcd,cdmj,abin
  ⟨-1/8, [g_abab [mₒ, nₒ, lₒ, kₒ], l2_abab [iₒ, jₒ, aᵥ, bᵥ], l2_abab [lₒ, kₒ, cᵥ, dᵥ], t2_abab [cᵥ, dᵥ, mₒ, jₒ], t2_abab [aᵥ, bᵥ, iₒ, nₒ]], [(1, [])]⟩,
  -- line 60: nmkl,ijab,kldc,dcjm,abin
  ⟨-1/8, [g_bbbb [nₒ, mₒ, kₒ, lₒ], l2_abab [iₒ, jₒ, aᵥ, bᵥ], l2_bbbb [kₒ, lₒ, dᵥ, cᵥ], t2_bbbb [dᵥ, cᵥ, jₒ, mₒ], t2_abab [aᵥ, bᵥ, iₒ, nₒ]], [(1, [])]⟩,
  -- line 63: nmkl,jiba,kldc,dcjm,bani
  ⟨-1/8, [g_aaaa [nₒ, mₒ, kₒ, lₒ], l2_abab [jₒ, iₒ, bᵥ, aᵥ], l2_aaaa [kₒ, lₒ, dᵥ, cᵥ], t2_aaaa [dᵥ, cᵥ, jₒ, mₒ], t2_abab [bᵥ, aᵥ, nₒ, iₒ]], [(1, [])]⟩,
  -- line 66: nmkl,jiba,kldc,dcjm,bani
  ⟨-1/8, [g_abab [nₒ, mₒ, kₒ, lₒ], l2_abab [jₒ, iₒ, bᵥ, aᵥ], l2_abab [kₒ, lₒ, dᵥ, cᵥ], t2_abab [dᵥ, cᵥ, jₒ, mₒ], t2_abab [bᵥ, aᵥ, nₒ, iₒ]], [(1, [])]⟩,
  -- line 69: nmkl,jiba,klcd,cdjm,bani
  ⟨-1/8, [g_abab [nₒ, mₒ, kₒ, lₒ], l2_abab [jₒ, iₒ, bᵥ, aᵥ], l2_abab [kₒ, lₒ, cᵥ, dᵥ], t2_abab [cᵥ, dᵥ, jₒ, mₒ], t2_abab [bᵥ, aᵥ, nₒ, iₒ]], [(1, [])]⟩,
  -- line 72: nmlk,jiba,lkdc,dcjm,bani
  ⟨-1/8, [g_abab [nₒ, mₒ, lₒ, kₒ], l2_abab [jₒ, iₒ, bᵥ, aᵥ], l2_abab [lₒ, kₒ, dᵥ, cᵥ], t2_abab [dᵥ, cᵥ, jₒ, mₒ], t2_abab [bᵥ, aᵥ, nₒ, iₒ]], [(1, [])]⟩,
  -- line 75: nmlk,jiba,lkcd,cdjm,bani
  ⟨-1/8, [g_abab [nₒ, mₒ, lₒ, kₒ], l2_abab [jₒ, iₒ, bᵥ, aᵥ], l2_abab [lₒ, kₒ, cᵥ, dᵥ], t2_abab [cᵥ, dᵥ, jₒ, mₒ], t2_abab [bᵥ, aᵥ, nₒ, iₒ]], [(1, [])]⟩,
  -- line 78: nmkl,jiab,kldc,dcjm,abni
  ⟨-1/8, [g_aaaa [nₒ, mₒ, kₒ, lₒ], l2_abab [jₒ, iₒ, aᵥ, bᵥ], l2_aaaa [kₒ, lₒ, dᵥ, cᵥ], t2_aaaa [dᵥ, cᵥ, jₒ, mₒ], t2_abab [aᵥ, bᵥ, nₒ, iₒ]], [(1, [])]⟩,
  -- line 81: nmkl,jiab,kldc,dcjm,abni
  ⟨-1/8, [g_abab [nₒ, mₒ, kₒ, lₒ], l2_abab [jₒ, iₒ, aᵥ, bᵥ], l2_abab [kₒ, lₒ, dᵥ, cᵥ], t2_abab [dᵥ, cᵥ, jₒ, mₒ], t2_abab [aᵥ, bᵥ, nₒ, iₒ]], [(1, [])]⟩,
  -- line 84: nmkl,jiab,klcd,cdjm,abni
  ⟨-1/8, [g_abab [nₒ, mₒ, kₒ, lₒ], l2_abab [jₒ, iₒ, aᵥ, bᵥ], l2_abab [kₒ, lₒ, cᵥ, dᵥ], t2_abab [cᵥ, dᵥ, jₒ, mₒ], t2_abab [aᵥ, bᵥ, nₒ, iₒ]], [(1, [])]⟩,
  -- line 87: nmlk,jiab,lkdc,dcjm,abni
  ⟨-1/8, [g_abab [nₒ, mₒ, lₒ, kₒ], l2_abab [jₒ, iₒ, aᵥ, bᵥ], l2_abab [lₒ, kₒ, dᵥ, cᵥ], t2_abab [dᵥ, cᵥ, jₒ, mₒ], t2_abab [aᵥ, bᵥ, nₒ, iₒ]], [(1, [])]⟩,
  -- line 90: nmlk,jiab,lkcd,cdjm,abni
  ⟨-1/8, [g_abab [nₒ, mₒ, lₒ, kₒ], l2_abab [jₒ, iₒ, aᵥ, bᵥ], l2_abab [lₒ, kₒ, cᵥ, dᵥ], t2_abab [cᵥ, dᵥ, jₒ, mₒ], t2_abab [aᵥ, bᵥ, nₒ, iₒ]], [(1, [])]⟩,
  -- line 93: mnkl,ijba,kldc,dcmj,bain
  ⟨-1/8, [g_abab [mₒ, nₒ, kₒ, lₒ], l2_bbbb [iₒ, jₒ, bᵥ, aᵥ], l2_abab [kₒ, lₒ, dᵥ, cᵥ], t2_abab [dᵥ, cᵥ, mₒ, jₒ], t2_bbbb [bᵥ, aᵥ, iₒ, nₒ]], [(1, [])]⟩,
  -- line 96: mnkl,ijba,klcd,cdmj,bain
  ⟨-1/8, [g_abab [mₒ, nₒ, kₒ, lₒ], l2_bbbb [iₒ, jₒ, bᵥ, aᵥ], l2_abab [kₒ, lₒ, cᵥ, dᵥ], t2_abab [cᵥ, dᵥ, mₒ, jₒ], t2_bbbb [bᵥ, aᵥ, iₒ, nₒ]], [(1, [])]⟩,
  -- line 99: mnlk,ijba,lkdc,dcmj,bain
  ⟨-1/8, [g_abab [mₒ, nₒ, lₒ, kₒ], l2_bbbb [iₒ, jₒ, bᵥ, aᵥ], l2_abab [lₒ, kₒ, dᵥ, cᵥ], t2_abab [dᵥ, cᵥ, mₒ, jₒ], t2_bbbb [bᵥ, aᵥ, iₒ, nₒ]], [(1, [])]⟩,
  -- line 102: mnlk,ijba,lkcd,cdmj,bain
  ⟨-1/8, [g_abab [mₒ, nₒ, lₒ, kₒ], l2_bbbb [iₒ, jₒ, bᵥ, aᵥ], l2_abab [lₒ, kₒ, cᵥ, dᵥ], t2_abab [cᵥ, dᵥ, mₒ, jₒ], t2_bbbb [bᵥ, aᵥ, iₒ, nₒ]], [(1, [])]⟩,
  -- line 105: nmkl,ijba,kldc,dcjm,bain
  ⟨-1/8, [g_bbbb [nₒ, mₒ, kₒ, lₒ], l2_bbbb [iₒ, jₒ, bᵥ, aᵥ], l2_bbbb [kₒ, lₒ, dᵥ, cᵥ], t2_bbbb [dᵥ, cᵥ, jₒ, mₒ], t2_bbbb [bᵥ, aᵥ, iₒ, nₒ]], [(1, [])]⟩,
  -- line 108: nmkl,ijba,kldc,dbjm,cain
  ⟨1/4, [g_aaaa [nₒ, mₒ, kₒ, lₒ], l2_aaaa [iₒ, jₒ, bᵥ, aᵥ], l2_aaaa [kₒ, lₒ, dᵥ, cᵥ], t2_aaaa [dᵥ, bᵥ, jₒ, mₒ], t2_aaaa [cᵥ, aᵥ, iₒ, nₒ]], [(1, [])]⟩,
  -- line 111: mnkl,ijba,kldc,dbjm,acin
  ⟨1/4, [g_abab [mₒ, nₒ, kₒ, lₒ], l2_aaaa [iₒ, jₒ, bᵥ, aᵥ], l2_abab [kₒ, lₒ, dᵥ, cᵥ], t2_aaaa [dᵥ, bᵥ, jₒ, mₒ], t2_abab [aᵥ, cᵥ, iₒ, nₒ]], [(1, [])]⟩,
  -- line 114: nmkl,ijba,klcd,bdjm,cain
  ⟨1/4, [g_abab [nₒ, mₒ, kₒ, lₒ], l2_aaaa [iₒ, jₒ, bᵥ, aᵥ], l2_abab [kₒ, lₒ, cᵥ, dᵥ], t2_abab [bᵥ, dᵥ, jₒ, mₒ], t2_aaaa [cᵥ, aᵥ, iₒ, nₒ]], [(1, [])]⟩,
  -- line 117: mnlk,ijba,lkdc,dbjm,acin
  ⟨1/4, [g_abab [mₒ, nₒ, lₒ, kₒ], l2_aaaa [iₒ, jₒ, bᵥ, aᵥ], l2_abab [lₒ, kₒ, dᵥ, cᵥ], t2_aaaa [dᵥ, bᵥ, jₒ, mₒ], t2_abab [aᵥ, cᵥ, iₒ, nₒ]], [(1, [])]⟩,
  -- line 120: nmlk,ijba,lkcd,bdjm,cain
  ⟨1/4, [g_abab [nₒ, mₒ, lₒ, kₒ], l2_aaaa [iₒ, jₒ, bᵥ, aᵥ], l2_abab [lₒ, kₒ, cᵥ, dᵥ], t2_abab [bᵥ, dᵥ, jₒ, mₒ], t2_aaaa [cᵥ, aᵥ, iₒ, nₒ]], [(1, [])]⟩,
  -- line 123: nmkl,ijba,kldc,bdjm,acin
  ⟨1/4, [g_bbbb [nₒ, mₒ, kₒ, lₒ], l2_aaaa [iₒ, jₒ, bᵥ, aᵥ], l2_bbbb [kₒ, lₒ, dᵥ, cᵥ], t2_abab [bᵥ, dᵥ, jₒ, mₒ], t2_abab [aᵥ, cᵥ, iₒ, nₒ]], [(1, [])]⟩,
  -- line 126: mnkl,ijba,klcd,bdmj,cain
  ⟨1/4, [g_abab [mₒ, nₒ, kₒ, lₒ], l2_abab [iₒ, jₒ, bᵥ, aᵥ], l2_abab [kₒ, lₒ, cᵥ, dᵥ], t2_abab [bᵥ, dᵥ, mₒ, jₒ], t2_abab [cᵥ, aᵥ, iₒ, nₒ]], [(1, [])]⟩,
  -- line 129: mnlk,ijba,lkcd,bdmj,cain
  ⟨1/4, [g_abab [mₒ, nₒ, lₒ, kₒ], l2_abab [iₒ, jₒ, bᵥ, aᵥ], l2_abab [lₒ, kₒ, cᵥ, dᵥ], t2_abab [bᵥ, dᵥ, mₒ, jₒ], t2_abab [cᵥ, aᵥ, iₒ, nₒ]], [(1, [])]⟩,
  -- line 132: nmkl,ijab,kldc,dbmj,cain
  ⟨1/4, [g_aaaa [nₒ, mₒ, kₒ, lₒ], l2_abab [iₒ, jₒ, aᵥ, bᵥ], l2_aaaa [kₒ, lₒ, dᵥ, cᵥ], t2_abab [dᵥ, bᵥ, mₒ, jₒ], t2_aaaa [cᵥ, aᵥ, iₒ, nₒ]], [(1, [])]⟩,
  -- line 135: mnkl,ijab,kldc,dbmj,acin
  ⟨1/4, [g_abab [mₒ, nₒ, kₒ, lₒ], l2_abab [iₒ, jₒ, aᵥ, bᵥ], l2_abab [kₒ, lₒ, dᵥ, cᵥ], t2_abab [dᵥ, bᵥ, mₒ, jₒ], t2_abab [aᵥ, cᵥ, iₒ, nₒ]], [(1, [])]⟩
  ]

/-- Part 1 of `si_energy_pertQf`. -/
def si_energy_pertQf_1 : Prog := [
  -- line 138: nmkl,ijab,klcd,dbjm,cain
  ⟨1/4, [g_abab [nₒ, mₒ, kₒ, lₒ], l2_abab [iₒ, jₒ, aᵥ, bᵥ], l2_abab [kₒ, lₒ, cᵥ, dᵥ], t2_bbbb [dᵥ, bᵥ, jₒ, mₒ], t2_aaaa [cᵥ, aᵥ, iₒ, nₒ]], [(1, [])]⟩,
  -- line 141: mnlk,ijab,lkdc,dbmj,acin
  ⟨1/4, [g_abab [mₒ, nₒ, lₒ, kₒ], l2_abab [iₒ, jₒ, aᵥ, bᵥ], l2_abab [lₒ, kₒ, dᵥ, cᵥ], t2_abab [dᵥ, bᵥ, mₒ, jₒ], t2_abab [aᵥ, cᵥ, iₒ, nₒ]], [(1, [])]⟩,
  -- line 144: nmlk,ijab,lkcd,dbjm,cain
  ⟨1/4, [g_abab [nₒ, mₒ, lₒ, kₒ], l2_abab [iₒ, jₒ, aᵥ, bᵥ], l2_abab [lₒ, kₒ, cᵥ, dᵥ], t2_bbbb [dᵥ, bᵥ, jₒ, mₒ], t2_aaaa [cᵥ, aᵥ, iₒ, nₒ]], [(1, [])]⟩,
  -- line 147: nmkl,ijab,kldc,dbjm,acin
  ⟨1/4, [g_bbbb [nₒ, mₒ, kₒ, lₒ], l2_abab [iₒ, jₒ, aᵥ, bᵥ], l2_bbbb [kₒ, lₒ, dᵥ, cᵥ], t2_bbbb [dᵥ, bᵥ, jₒ, mₒ], t2_abab [aᵥ, cᵥ, iₒ, nₒ]], [(1, [])]⟩,
  -- line 150: nmkl,jiba,kldc,dbjm,cani
  ⟨1/4, [g_aaaa [nₒ, mₒ, kₒ, lₒ], l2_abab [jₒ, iₒ, bᵥ, aᵥ], l2_aaaa [kₒ, lₒ, dᵥ, cᵥ], t2_aaaa [dᵥ, bᵥ, jₒ, mₒ], t2_abab [cᵥ, aᵥ, nₒ, iₒ]], [(1, [])]⟩,
  -- line 153: mnkl,jiba,kldc,dbjm,cain
  ⟨1/4, [g_abab [mₒ, nₒ, kₒ, lₒ], l2_abab [jₒ, iₒ, bᵥ, aᵥ], l2_abab [kₒ, lₒ, dᵥ, cᵥ], t2_aaaa [dᵥ, bᵥ, jₒ, mₒ], t2_bbbb [cᵥ, aᵥ, iₒ, nₒ]], [(1, [])]⟩,
  -- line 156: nmkl,jiba,klcd,bdjm,cani
  ⟨1/4, [g_abab [nₒ, mₒ, kₒ, lₒ], l2_abab [jₒ, iₒ, bᵥ, aᵥ], l2_abab [kₒ, lₒ, cᵥ, dᵥ], t2_abab [bᵥ, dᵥ, jₒ, mₒ], t2_abab [cᵥ, aᵥ, nₒ, iₒ]], [(1, [])]⟩,
  -- line 159: mnlk,jiba,lkdc,dbjm,cain
  ⟨1/4, [g_abab [mₒ, nₒ, lₒ, kₒ], l2_abab [jₒ, iₒ, bᵥ, aᵥ], l2_abab [lₒ, kₒ, dᵥ, cᵥ], t2_aaaa [dᵥ, bᵥ, jₒ, mₒ], t2_bbbb [cᵥ, aᵥ, iₒ, nₒ]], [(1, [])]⟩,
  -- line 162: nmlk,jiba,lkcd,bdjm,cani
  ⟨1/4, [g_abab [nₒ, mₒ, lₒ, kₒ], l2_abab [jₒ, iₒ, bᵥ, aᵥ], l2_abab [lₒ, kₒ, cᵥ, dᵥ], t2_abab [bᵥ, dᵥ, jₒ, mₒ], t2_abab [cᵥ, aᵥ, nₒ, iₒ]], [(1, [])]⟩,
  -- line 165: nmkl,jiba,kldc,bdjm,cain
  ⟨1/4, [g_bbbb [nₒ, mₒ, kₒ, lₒ], l2_abab [jₒ, iₒ, bᵥ, aᵥ], l2_bbbb [kₒ, lₒ, dᵥ, cᵥ], t2_abab [bᵥ, dᵥ, jₒ, mₒ], t2_bbbb [cᵥ, aᵥ, iₒ, nₒ]], [(1, [])]⟩,
  -- line 168: nmkl,jiab,kldc,dbjm,acni
  ⟨1/4, [g_abab [nₒ, mₒ, kₒ, lₒ], l2_abab [jₒ, iₒ, aᵥ, bᵥ], l2_abab [kₒ, lₒ, dᵥ, cᵥ], t2_abab [dᵥ, bᵥ, jₒ, mₒ], t2_abab [aᵥ, cᵥ, nₒ, iₒ]], [(1, [])]⟩,
  -- line 171: nmlk,jiab,lkdc,dbjm,acni
  ⟨1/4, [g_abab [nₒ, mₒ, lₒ, kₒ], l2_abab [jₒ, iₒ, aᵥ, bᵥ], l2_abab [lₒ, kₒ, dᵥ, cᵥ], t2_abab [dᵥ, bᵥ, jₒ, mₒ], t2_abab [aᵥ, cᵥ, nₒ, iₒ]], [(1, [])]⟩,
  -- line 174: nmkl,ijba,kldc,dbmj,cani
  ⟨1/4, [g_aaaa [nₒ, mₒ, kₒ, lₒ], l2_bbbb [iₒ, jₒ, bᵥ, aᵥ], l2_aaaa [kₒ, lₒ, dᵥ, cᵥ], t2_abab [dᵥ, bᵥ, mₒ, jₒ], t2_abab [cᵥ, aᵥ, nₒ, iₒ]], [(1, [])]⟩,
  -- line 177: mnkl,ijba,kldc,dbmj,cain
  ⟨1/4, [g_abab [mₒ, nₒ, kₒ, lₒ], l2_bbbb [iₒ, jₒ, bᵥ, aᵥ], l2_abab [kₒ, lₒ, dᵥ, cᵥ], t2_abab [dᵥ, bᵥ, mₒ, jₒ], t2_bbbb [cᵥ, aᵥ, iₒ, nₒ]], [(1, [])]⟩,
  -- line 180: nmkl,ijba,klcd,dbjm,cani
  ⟨1/4, [g_abab [nₒ, mₒ, kₒ, lₒ], l2_bbbb [iₒ, jₒ, bᵥ, aᵥ], l2_abab [kₒ, lₒ, cᵥ, dᵥ], t2_bbbb [dᵥ, bᵥ, jₒ, mₒ], t2_abab [cᵥ, aᵥ, nₒ, iₒ]], [(1, [])]⟩,
  -- line 183: mnlk,ijba,lkdc,dbmj,cain
  ⟨1/4, [g_abab [mₒ, nₒ, lₒ, kₒ], l2_bbbb [iₒ, jₒ, bᵥ, aᵥ], l2_abab [lₒ, kₒ, dᵥ, cᵥ], t2_abab [dᵥ, bᵥ, mₒ, jₒ], t2_bbbb [cᵥ, aᵥ, iₒ, nₒ]], [(1, [])]⟩,
  -- line 186: nmlk,ijba,lkcd,dbjm,cani
  ⟨1/4, [g_abab [nₒ, mₒ, lₒ, kₒ], l2_bbbb [iₒ, jₒ, bᵥ, aᵥ], l2_abab [lₒ, kₒ, cᵥ, dᵥ], t2_bbbb [dᵥ, bᵥ, jₒ, mₒ], t2_abab [cᵥ, aᵥ, nₒ, iₒ]], [(1, [])]⟩,
  -- line 189: nmkl,ijba,kldc,dbjm,cain
  ⟨1/4, [g_bbbb [nₒ, mₒ, kₒ, lₒ], l2_bbbb [iₒ, jₒ, bᵥ, aᵥ], l2_bbbb [kₒ, lₒ, dᵥ, cᵥ], t2_bbbb [dᵥ, bᵥ, jₒ, mₒ], t2_bbbb [cᵥ, aᵥ, iₒ, nₒ]], [(1, [])]⟩,
  -- line 192: nmjl,ijba,kldc,dckm,bain
  ⟨1/4, [g_aaaa [nₒ, mₒ, jₒ, lₒ], l2_aaaa [iₒ, jₒ, bᵥ, aᵥ], l2_aaaa [kₒ, lₒ, dᵥ, cᵥ], t2_aaaa [dᵥ, cᵥ, kₒ, mₒ], t2_aaaa [bᵥ, aᵥ, iₒ, nₒ]], [(1, [])]⟩,
  -- line 195: nmjl,ijba,kldc,dckm,bain
  ⟨1/4, [g_abab [nₒ, mₒ, jₒ, lₒ], l2_aaaa [iₒ, jₒ, bᵥ, aᵥ], l2_abab [kₒ, lₒ, dᵥ, cᵥ], t2_abab [dᵥ, cᵥ, kₒ, mₒ], t2_aaaa [bᵥ, aᵥ, iₒ, nₒ]], [(1, [])]⟩,
  -- line 198: nmjl,ijba,klcd,cdkm,bain
  ⟨1/4, [g_abab [nₒ, mₒ, jₒ, lₒ], l2_aaaa [iₒ, jₒ, bᵥ, aᵥ], l2_abab [kₒ, lₒ, cᵥ, dᵥ], t2_abab [cᵥ, dᵥ, kₒ, mₒ], t2_aaaa [bᵥ, aᵥ, iₒ, nₒ]], [(1, [])]⟩,
  -- line 201: nmjl,ijba,lkdc,dcmk,bain
  ⟨1/4, [g_aaaa [nₒ, mₒ, jₒ, lₒ], l2_aaaa [iₒ, jₒ, bᵥ, aᵥ], l2_abab [lₒ, kₒ, dᵥ, cᵥ], t2_abab [dᵥ, cᵥ, mₒ, kₒ], t2_aaaa [bᵥ, aᵥ, iₒ, nₒ]], [(1, [])]⟩,
  -- line 204: nmjl,ijba,lkcd,cdmk,bain
  ⟨1/4, [g_aaaa [nₒ, mₒ, jₒ, lₒ], l2_aaaa [iₒ, jₒ, bᵥ, aᵥ], l2_abab [lₒ, kₒ, cᵥ, dᵥ], t2_abab [cᵥ, dᵥ, mₒ, kₒ], t2_aaaa [bᵥ, aᵥ, iₒ, nₒ]], [(1, [])]⟩,
  -- line 207: nmjl,ijba,kldc,dckm,bain
  ⟨1/4, [g_abab [nₒ, mₒ, jₒ, lₒ], l2_aaaa [iₒ, jₒ, bᵥ, aᵥ], l2_bbbb [kₒ, lₒ, dᵥ, cᵥ], t2_bbbb [dᵥ, cᵥ, kₒ, mₒ], t2_aaaa [bᵥ, aᵥ, iₒ, nₒ]], [(1, [])]⟩,
  -- line 210: mnlj,ijba,kldc,dckm,bain
  ⟨1/4, [g_abab [mₒ, nₒ, lₒ, jₒ], l2_abab [iₒ, jₒ, bᵥ, aᵥ], l2_aaaa [kₒ, lₒ, dᵥ, cᵥ], t2_aaaa [dᵥ, cᵥ, kₒ, mₒ], t2_abab [bᵥ, aᵥ, iₒ, nₒ]], [(1, [])]⟩,
  -- line 213: nmjl,ijba,kldc,dckm,bain
  ⟨1/4, [g_bbbb [nₒ, mₒ, jₒ, lₒ], l2_abab [iₒ, jₒ, bᵥ, aᵥ], l2_abab [kₒ, lₒ, dᵥ, cᵥ], t2_abab [dᵥ, cᵥ, kₒ, mₒ], t2_abab [bᵥ, aᵥ, iₒ, nₒ]], [(1, [])]⟩,
  -- line 216: nmjl,ijba,klcd,cdkm,bain
  ⟨1/4, [g_bbbb [nₒ, mₒ, jₒ, lₒ], l2_abab [iₒ, jₒ, bᵥ, aᵥ], l2_abab [kₒ, lₒ, cᵥ, dᵥ], t2_abab [cᵥ, dᵥ, kₒ, mₒ], t2_abab [bᵥ, aᵥ, iₒ, nₒ]], [(1, [])]⟩,
  -- line 219: mnlj,ijba,lkdc,dcmk,bain
  ⟨1/4, [g_abab [mₒ, nₒ, lₒ, jₒ], l2_abab [iₒ, jₒ, bᵥ, aᵥ], l2_abab [lₒ, kₒ, dᵥ, cᵥ], t2_abab [dᵥ, cᵥ, mₒ, kₒ], t2_abab [bᵥ, aᵥ, iₒ, nₒ]], [(1, [])]⟩,
  -- line 222: mnlj,ijba,lkcd,cdmk,bain
  ⟨1/4, [g_abab [mₒ, nₒ, lₒ, jₒ], l2_abab [iₒ, jₒ, bᵥ, aᵥ], l2_abab [lₒ, kₒ, cᵥ, dᵥ], t2_abab [cᵥ, dᵥ, mₒ, kₒ], t2_abab [bᵥ, aᵥ, iₒ, nₒ]], [(1, [])]⟩,
  -- line 225: nmjl,ijba,kldc,dckm,bain
  ⟨1/4, [g_bbbb [nₒ, mₒ, jₒ, lₒ], l2_abab [iₒ, jₒ, bᵥ, aᵥ], l2_bbbb [kₒ, lₒ, dᵥ, cᵥ], t2_bbbb [dᵥ, cᵥ, kₒ, mₒ], t2_abab [bᵥ, aᵥ, iₒ, nₒ]], [(1, [])]⟩,
  -- line 228: mnlj,ijab,kldc,dckm,abin
  ⟨1/4, [g_abab [mₒ, nₒ, lₒ, jₒ], l2_abab [iₒ, jₒ, aᵥ, bᵥ], l2_aaaa [kₒ, lₒ, dᵥ, cᵥ], t2_aaaa [dᵥ, cᵥ, kₒ, mₒ], t2_abab [aᵥ, bᵥ, iₒ, nₒ]], [(1, [])]⟩,
  -- line 231: nmjl,ijab,kldc,dckm,abin
  ⟨1/4, [g_bbbb [nₒ, mₒ, jₒ, lₒ], l2_abab [iₒ, jₒ, aᵥ, bᵥ], l2_abab [kₒ, lₒ, dᵥ, cᵥ], t2_abab [dᵥ, cᵥ, kₒ, mₒ], t2_abab [aᵥ, bᵥ, iₒ, nₒ]], [(1, [])]⟩,
  -- line 234: nmjl,ijab,klcd,cdkm,abin
  ⟨1/4, [g_bbbb [nₒ, mₒ, jₒ, lₒ], l2_abab [iₒ, jₒ, aᵥ, bᵥ], l2_abab [kₒ, lₒ, cᵥ, dᵥ], t2_abab [cᵥ, dᵥ, kₒ, mₒ], t2_abab [aᵥ, bᵥ, iₒ, nₒ]], [(1, [])]⟩,
  -- line 237: mnlj,ijab,lkdc,dcmk,abin
  ⟨1/4, [g_abab [mₒ, nₒ, lₒ, jₒ], l2_abab [iₒ, jₒ, aᵥ, bᵥ], l2_abab [lₒ, kₒ, dᵥ, cᵥ], t2_abab [dᵥ, cᵥ, mₒ, kₒ], t2_abab [aᵥ, bᵥ, iₒ, nₒ]], [(1, [])]⟩,
  -- line 240: mnlj,ijab,lkcd,cdmk,abin
  ⟨1/4, [g_abab [mₒ, nₒ, lₒ, jₒ], l2_abab [iₒ, jₒ, aᵥ, bᵥ], l2_abab [lₒ, kₒ, cᵥ, dᵥ], t2_abab [cᵥ, dᵥ, mₒ, kₒ], t2_abab [aᵥ, bᵥ, iₒ, nₒ]], [(1, [])]⟩,
  -- line 243: nmjl,ijab,kldc,dckm,abin
  ⟨1/4, [g_bbbb [nₒ, mₒ, jₒ, lₒ], l2_abab [iₒ, jₒ, aᵥ, bᵥ], l2_bbbb [kₒ, lₒ, dᵥ, cᵥ], t2_bbbb [dᵥ, cᵥ, kₒ, mₒ], t2_abab [aᵥ, bᵥ, iₒ, nₒ]], [(1, [])]⟩,
  -- line 246: nmjl,jiba,kldc,dckm,bani
  ⟨1/4, [g_aaaa [nₒ, mₒ, jₒ, lₒ], l2_abab [jₒ, iₒ, bᵥ, aᵥ], l2_aaaa [kₒ, lₒ, dᵥ, cᵥ], t2_aaaa [dᵥ, cᵥ, kₒ, mₒ], t2_abab [bᵥ, aᵥ, nₒ, iₒ]], [(1, [])]⟩,
  -- line 249: nmjl,jiba,kldc,dckm,bani
  ⟨1/4, [g_abab [nₒ, mₒ, jₒ, lₒ], l2_abab [jₒ, iₒ, bᵥ, aᵥ], l2_abab [kₒ, lₒ, dᵥ, cᵥ], t2_abab [dᵥ, cᵥ, kₒ, mₒ], t2_abab [bᵥ, aᵥ, nₒ, iₒ]], [(1, [])]⟩,
  -- line 252: nmjl,jiba,klcd,cdkm,bani
  ⟨1/4, [g_abab [nₒ, mₒ, jₒ, lₒ], l2_abab [jₒ, iₒ, bᵥ, aᵥ], l2_abab [kₒ, lₒ, cᵥ, dᵥ], t2_abab [cᵥ, dᵥ, kₒ, mₒ], t2_abab [bᵥ, aᵥ, nₒ, iₒ]], [(1, [])]⟩,
  -- line 255: nmjl,jiba,lkdc,dcmk,bani
  ⟨1/4, [g_aaaa [nₒ, mₒ, jₒ, lₒ], l2_abab [jₒ, iₒ, bᵥ, aᵥ], l2_abab [lₒ, kₒ, dᵥ, cᵥ], t2_abab [dᵥ, cᵥ, mₒ, kₒ], t2_abab [bᵥ, aᵥ, nₒ, iₒ]], [(1, [])]⟩
  ]

/-- Part 2 of `si_energy_pertQf`. -/
def si_energy_pertQf_2 : Prog := [
  -- line 258: nmjl,jiba,lkcd,cdmk,bani
  ⟨1/4, [g_aaaa [nₒ, mₒ, jₒ, lₒ], l2_abab [jₒ, iₒ, bᵥ, aᵥ], l2_abab [lₒ, kₒ, cᵥ, dᵥ], t2_abab [cᵥ, dᵥ, mₒ, kₒ], t2_abab [bᵥ, aᵥ, nₒ, iₒ]], [(1, [])]⟩,
  -- line 261: nmjl,jiba,kldc,dckm,bani
  ⟨1/4, [g_abab [nₒ, mₒ, jₒ, lₒ], l2_abab [jₒ, iₒ, bᵥ, aᵥ], l2_bbbb [kₒ, lₒ, dᵥ, cᵥ], t2_bbbb [dᵥ, cᵥ, kₒ, mₒ], t2_abab [bᵥ, aᵥ, nₒ, iₒ]], [(1, [])]⟩,
  -- line 264: nmjl,jiab,kldc,dckm,abni
  ⟨1/4, [g_aaaa [nₒ, mₒ, jₒ, lₒ], l2_abab [jₒ, iₒ, aᵥ, bᵥ], l2_aaaa [kₒ, lₒ, dᵥ, cᵥ], t2_aaaa [dᵥ, cᵥ, kₒ, mₒ], t2_abab [aᵥ, bᵥ, nₒ, iₒ]], [(1, [])]⟩,
  -- line 267: nmjl,jiab,kldc,dckm,abni
  ⟨1/4, [g_abab [nₒ, mₒ, jₒ, lₒ], l2_abab [jₒ, iₒ, aᵥ, bᵥ], l2_abab [kₒ, lₒ, dᵥ, cᵥ], t2_abab [dᵥ, cᵥ, kₒ, mₒ], t2_abab [aᵥ, bᵥ, nₒ, iₒ]], [(1, [])]⟩,
  -- line 270: nmjl,jiab,klcd,cdkm,abni
  ⟨1/4, [g_abab [nₒ, mₒ, jₒ, lₒ], l2_abab [jₒ, iₒ, aᵥ, bᵥ], l2_abab [kₒ, lₒ, cᵥ, dᵥ], t2_abab [cᵥ, dᵥ, kₒ, mₒ], t2_abab [aᵥ, bᵥ, nₒ, iₒ]], [(1, [])]⟩,
  -- line 273: nmjl,jiab,lkdc,dcmk,abni
  ⟨1/4, [g_aaaa [nₒ, mₒ, jₒ, lₒ], l2_abab [jₒ, iₒ, aᵥ, bᵥ], l2_abab [lₒ, kₒ, dᵥ, cᵥ], t2_abab [dᵥ, cᵥ, mₒ, kₒ], t2_abab [aᵥ, bᵥ, nₒ, iₒ]], [(1, [])]⟩,
  -- line 276: nmjl,jiab,lkcd,cdmk,abni
  ⟨1/4, [g_aaaa [nₒ, mₒ, jₒ, lₒ], l2_abab [jₒ, iₒ, aᵥ, bᵥ], l2_abab [lₒ, kₒ, cᵥ, dᵥ], t2_abab [cᵥ, dᵥ, mₒ, kₒ], t2_abab [aᵥ, bᵥ, nₒ, iₒ]], [(1, [])]⟩,
  -- line 279: nmjl,jiab,kldc,dckm,abni
  ⟨1/4, [g_abab [nₒ, mₒ, jₒ, lₒ], l2_abab [jₒ, iₒ, aᵥ, bᵥ], l2_bbbb [kₒ, lₒ, dᵥ, cᵥ], t2_bbbb [dᵥ, cᵥ, kₒ, mₒ], t2_abab [aᵥ, bᵥ, nₒ, iₒ]], [(1, [])]⟩,
  -- line 282: mnlj,ijba,kldc,dckm,bain
  ⟨1/4, [g_abab [mₒ, nₒ, lₒ, jₒ], l2_bbbb [iₒ, jₒ, bᵥ, aᵥ], l2_aaaa [kₒ, lₒ, dᵥ, cᵥ], t2_aaaa [dᵥ, cᵥ, kₒ, mₒ], t2_bbbb [bᵥ, aᵥ, iₒ, nₒ]], [(1, [])]⟩,
  -- line 285: nmjl,ijba,kldc,dckm,bain
  ⟨1/4, [g_bbbb [nₒ, mₒ, jₒ, lₒ], l2_bbbb [iₒ, jₒ, bᵥ, aᵥ], l2_abab [kₒ, lₒ, dᵥ, cᵥ], t2_abab [dᵥ, cᵥ, kₒ, mₒ], t2_bbbb [bᵥ, aᵥ, iₒ, nₒ]], [(1, [])]⟩,
  -- line 288: nmjl,ijba,klcd,cdkm,bain
  ⟨1/4, [g_bbbb [nₒ, mₒ, jₒ, lₒ], l2_bbbb [iₒ, jₒ, bᵥ, aᵥ], l2_abab [kₒ, lₒ, cᵥ, dᵥ], t2_abab [cᵥ, dᵥ, kₒ, mₒ], t2_bbbb [bᵥ, aᵥ, iₒ, nₒ]], [(1, [])]⟩,
  -- line 291: mnlj,ijba,lkdc,dcmk,bain
  ⟨1/4, [g_abab [mₒ, nₒ, lₒ, jₒ], l2_bbbb [iₒ, jₒ, bᵥ, aᵥ], l2_abab [lₒ, kₒ, dᵥ, cᵥ], t2_abab [dᵥ, cᵥ, mₒ, kₒ], t2_bbbb [bᵥ, aᵥ, iₒ, nₒ]], [(1, [])]⟩,
  -- line 294: mnlj,ijba,lkcd,cdmk,bain
  ⟨1/4, [g_abab [mₒ, nₒ, lₒ, jₒ], l2_bbbb [iₒ, jₒ, bᵥ, aᵥ], l2_abab [lₒ, kₒ, cᵥ, dᵥ], t2_abab [cᵥ, dᵥ, mₒ, kₒ], t2_bbbb [bᵥ, aᵥ, iₒ, nₒ]], [(1, [])]⟩,
  -- line 297: nmjl,ijba,kldc,dckm,bain
  ⟨1/4, [g_bbbb [nₒ, mₒ, jₒ, lₒ], l2_bbbb [iₒ, jₒ, bᵥ, aᵥ], l2_bbbb [kₒ, lₒ, dᵥ, cᵥ], t2_bbbb [dᵥ, cᵥ, kₒ, mₒ], t2_bbbb [bᵥ, aᵥ, iₒ, nₒ]], [(1, [])]⟩,
  -- line 300: nmjl,ijba,kldc,dcim,bakn
  ⟨-1/4, [g_aaaa [nₒ, mₒ, jₒ, lₒ], l2_aaaa [iₒ, jₒ, bᵥ, aᵥ], l2_aaaa [kₒ, lₒ, dᵥ, cᵥ], t2_aaaa [dᵥ, cᵥ, iₒ, mₒ], t2_aaaa [bᵥ, aᵥ, kₒ, nₒ]], [(1, [])]⟩,
  -- line 303: nmjl,ijba,kldc,dcim,bakn
  ⟨-1/4, [g_abab [nₒ, mₒ, jₒ, lₒ], l2_aaaa [iₒ, jₒ, bᵥ, aᵥ], l2_abab [kₒ, lₒ, dᵥ, cᵥ], t2_abab [dᵥ, cᵥ, iₒ, mₒ], t2_aaaa [bᵥ, aᵥ, kₒ, nₒ]], [(1, [])]⟩,
  -- line 306: nmjl,ijba,klcd,cdim,bakn
  ⟨-1/4, [g_abab [nₒ, mₒ, jₒ, lₒ], l2_aaaa [iₒ, jₒ, bᵥ, aᵥ], l2_abab [kₒ, lₒ, cᵥ, dᵥ], t2_abab [cᵥ, dᵥ, iₒ, mₒ], t2_aaaa [bᵥ, aᵥ, kₒ, nₒ]], [(1, [])]⟩,
  -- line 309: mnlj,ijba,kldc,dcim,bakn
  ⟨-1/4, [g_abab [mₒ, nₒ, lₒ, jₒ], l2_abab [iₒ, jₒ, bᵥ, aᵥ], l2_aaaa [kₒ, lₒ, dᵥ, cᵥ], t2_aaaa [dᵥ, cᵥ, iₒ, mₒ], t2_abab [bᵥ, aᵥ, kₒ, nₒ]], [(1, [])]⟩,
  -- line 312: nmjl,ijba,kldc,dcim,bakn
  ⟨-1/4, [g_bbbb [nₒ, mₒ, jₒ, lₒ], l2_abab [iₒ, jₒ, bᵥ, aᵥ], l2_abab [kₒ, lₒ, dᵥ, cᵥ], t2_abab [dᵥ, cᵥ, iₒ, mₒ], t2_abab [bᵥ, aᵥ, kₒ, nₒ]], [(1, [])]⟩,
  -- line 315: nmjl,ijba,klcd,cdim,bakn
  ⟨-1/4, [g_bbbb [nₒ, mₒ, jₒ, lₒ], l2_abab [iₒ, jₒ, bᵥ, aᵥ], l2_abab [kₒ, lₒ, cᵥ, dᵥ], t2_abab [cᵥ, dᵥ, iₒ, mₒ], t2_abab [bᵥ, aᵥ, kₒ, nₒ]], [(1, [])]⟩,
  -- line 318: nmlj,ijba,lkdc,dcim,bank
  ⟨1/4, [g_abab [nₒ, mₒ, lₒ, jₒ], l2_abab [iₒ, jₒ, bᵥ, aᵥ], l2_abab [lₒ, kₒ, dᵥ, cᵥ], t2_abab [dᵥ, cᵥ, iₒ, mₒ], t2_abab [bᵥ, aᵥ, nₒ, kₒ]], [(1, [])]⟩,
  -- line 321: nmlj,ijba,lkcd,cdim,bank
  ⟨1/4, [g_abab [nₒ, mₒ, lₒ, jₒ], l2_abab [iₒ, jₒ, bᵥ, aᵥ], l2_abab [lₒ, kₒ, cᵥ, dᵥ], t2_abab [cᵥ, dᵥ, iₒ, mₒ], t2_abab [bᵥ, aᵥ, nₒ, kₒ]], [(1, [])]⟩,
  -- line 324: mnlj,ijab,kldc,dcim,abkn
  ⟨-1/4, [g_abab [mₒ, nₒ, lₒ, jₒ], l2_abab [iₒ, jₒ, aᵥ, bᵥ], l2_aaaa [kₒ, lₒ, dᵥ, cᵥ], t2_aaaa [dᵥ, cᵥ, iₒ, mₒ], t2_abab [aᵥ, bᵥ, kₒ, nₒ]], [(1, [])]⟩,
  -- line 327: nmjl,ijab,kldc,dcim,abkn
  ⟨-1/4, [g_bbbb [nₒ, mₒ, jₒ, lₒ], l2_abab [iₒ, jₒ, aᵥ, bᵥ], l2_abab [kₒ, lₒ, dᵥ, cᵥ], t2_abab [dᵥ, cᵥ, iₒ, mₒ], t2_abab [aᵥ, bᵥ, kₒ, nₒ]], [(1, [])]⟩,
  -- line 330: nmjl,ijab,klcd,cdim,abkn
  ⟨-1/4, [g_bbbb [nₒ, mₒ, jₒ, lₒ], l2_abab [iₒ, jₒ, aᵥ, bᵥ], l2_abab [kₒ, lₒ, cᵥ, dᵥ], t2_abab [cᵥ, dᵥ, iₒ, mₒ], t2_abab [aᵥ, bᵥ, kₒ, nₒ]], [(1, [])]⟩,
  -- line 333: nmlj,ijab,lkdc,dcim,abnk
  ⟨1/4, [g_abab [nₒ, mₒ, lₒ, jₒ], l2_abab [iₒ, jₒ, aᵥ, bᵥ], l2_abab [lₒ, kₒ, dᵥ, cᵥ], t2_abab [dᵥ, cᵥ, iₒ, mₒ], t2_abab [aᵥ, bᵥ, nₒ, kₒ]], [(1, [])]⟩,
  -- line 336: nmlj,ijab,lkcd,cdim,abnk
  ⟨1/4, [g_abab [nₒ, mₒ, lₒ, jₒ], l2_abab [iₒ, jₒ, aᵥ, bᵥ], l2_abab [lₒ, kₒ, cᵥ, dᵥ], t2_abab [cᵥ, dᵥ, iₒ, mₒ], t2_abab [aᵥ, bᵥ, nₒ, kₒ]], [(1, [])]⟩,
  -- line 339: mnjl,jiba,kldc,dcmi,bakn
  ⟨1/4, [g_abab [mₒ, nₒ, jₒ, lₒ], l2_abab [jₒ, iₒ, bᵥ, aᵥ], l2_abab [kₒ, lₒ, dᵥ, cᵥ], t2_abab [dᵥ, cᵥ, mₒ, iₒ], t2_abab [bᵥ, aᵥ, kₒ, nₒ]], [(1, [])]⟩,
  -- line 342: mnjl,jiba,klcd,cdmi,bakn
  ⟨1/4, [g_abab [mₒ, nₒ, jₒ, lₒ], l2_abab [jₒ, iₒ, bᵥ, aᵥ], l2_abab [kₒ, lₒ, cᵥ, dᵥ], t2_abab [cᵥ, dᵥ, mₒ, iₒ], t2_abab [bᵥ, aᵥ, kₒ, nₒ]], [(1, [])]⟩,
  -- line 345: nmjl,jiba,lkdc,dcmi,bank
  ⟨-1/4, [g_aaaa [nₒ, mₒ, jₒ, lₒ], l2_abab [jₒ, iₒ, bᵥ, aᵥ], l2_abab [lₒ, kₒ, dᵥ, cᵥ], t2_abab [dᵥ, cᵥ, mₒ, iₒ], t2_abab [bᵥ, aᵥ, nₒ, kₒ]], [(1, [])]⟩,
  -- line 348: nmjl,jiba,lkcd,cdmi,bank
  ⟨-1/4, [g_aaaa [nₒ, mₒ, jₒ, lₒ], l2_abab [jₒ, iₒ, bᵥ, aᵥ], l2_abab [lₒ, kₒ, cᵥ, dᵥ], t2_abab [cᵥ, dᵥ, mₒ, iₒ], t2_abab [bᵥ, aᵥ, nₒ, kₒ]], [(1, [])]⟩,
  -- line 351: nmjl,jiba,kldc,dcim,bank
  ⟨-1/4, [g_abab [nₒ, mₒ, jₒ, lₒ], l2_abab [jₒ, iₒ, bᵥ, aᵥ], l2_bbbb [kₒ, lₒ, dᵥ, cᵥ], t2_bbbb [dᵥ, cᵥ, iₒ, mₒ], t2_abab [bᵥ, aᵥ, nₒ, kₒ]], [(1, [])]⟩,
  -- line 354: mnjl,jiab,kldc,dcmi,abkn
  ⟨1/4, [g_abab [mₒ, nₒ, jₒ, lₒ], l2_abab [jₒ, iₒ, aᵥ, bᵥ], l2_abab [kₒ, lₒ, dᵥ, cᵥ], t2_abab [dᵥ, cᵥ, mₒ, iₒ], t2_abab [aᵥ, bᵥ, kₒ, nₒ]], [(1, [])]⟩,
  -- line 357: mnjl,jiab,klcd,cdmi,abkn
  ⟨1/4, [g_abab [mₒ, nₒ, jₒ, lₒ], l2_abab [jₒ, iₒ, aᵥ, bᵥ], l2_abab [kₒ, lₒ, cᵥ, dᵥ], t2_abab [cᵥ, dᵥ, mₒ, iₒ], t2_abab [aᵥ, bᵥ, kₒ, nₒ]], [(1, [])]⟩,
  -- line 360: nmjl,jiab,lkdc,dcmi,abnk
  ⟨-1/4, [g_aaaa [nₒ, mₒ, jₒ, lₒ], l2_abab [jₒ, iₒ, aᵥ, bᵥ], l2_abab [lₒ, kₒ, dᵥ, cᵥ], t2_abab [dᵥ, cᵥ, mₒ, iₒ], t2_abab [aᵥ, bᵥ, nₒ, kₒ]], [(1, [])]⟩,
  -- line 363: nmjl,jiab,lkcd,cdmi,abnk
  ⟨-1/4, [g_aaaa [nₒ, mₒ, jₒ, lₒ], l2_abab [jₒ, iₒ, aᵥ, bᵥ], l2_abab [lₒ, kₒ, cᵥ, dᵥ], t2_abab [cᵥ, dᵥ, mₒ, iₒ], t2_abab [aᵥ, bᵥ, nₒ, kₒ]], [(1, [])]⟩,
  -- line 366: nmjl,jiab,kldc,dcim,abnk
  ⟨-1/4, [g_abab [nₒ, mₒ, jₒ, lₒ], l2_abab [jₒ, iₒ, aᵥ, bᵥ], l2_bbbb [kₒ, lₒ, dᵥ, cᵥ], t2_bbbb [dᵥ, cᵥ, iₒ, mₒ], t2_abab [aᵥ, bᵥ, nₒ, kₒ]], [(1, [])]⟩,
  -- line 369: mnlj,ijba,lkdc,dcmi,bakn
  ⟨-1/4, [g_abab [mₒ, nₒ, lₒ, jₒ], l2_bbbb [iₒ, jₒ, bᵥ, aᵥ], l2_abab [lₒ, kₒ, dᵥ, cᵥ], t2_abab [dᵥ, cᵥ, mₒ, iₒ], t2_bbbb [bᵥ, aᵥ, kₒ, nₒ]], [(1, [])]⟩,
  -- line 372: mnlj,ijba,lkcd,cdmi,bakn
  ⟨-1/4, [g_abab [mₒ, nₒ, lₒ, jₒ], l2_bbbb [iₒ, jₒ, bᵥ, aᵥ], l2_abab [lₒ, kₒ, cᵥ, dᵥ], t2_abab [cᵥ, dᵥ, mₒ, iₒ], t2_bbbb [bᵥ, aᵥ, kₒ, nₒ]], [(1, [])]⟩,
  -- line 375: nmjl,ijba,kldc,dcim,bakn
  ⟨-1/4, [g_bbbb [nₒ, mₒ, jₒ, lₒ], l2_bbbb [iₒ, jₒ, bᵥ, aᵥ], l2_bbbb [kₒ, lₒ, dᵥ, cᵥ], t2_bbbb [dᵥ, cᵥ, iₒ, mₒ], t2_bbbb [bᵥ, aᵥ, kₒ, nₒ]], [(1, [])]⟩
  ]

/-- Part 3 of `si_energy_pertQf`. -/
def si_energy_pertQf_3 : Prog := [
  -- line 378: nmjl,ijba,kldc,dbkm,cain
  ⟨-1/2, [g_aaaa [nₒ, mₒ, jₒ, lₒ], l2_aaaa [iₒ, jₒ, bᵥ, aᵥ], l2_aaaa [kₒ, lₒ, dᵥ, cᵥ], t2_aaaa [dᵥ, bᵥ, kₒ, mₒ], t2_aaaa [cᵥ, aᵥ, iₒ, nₒ]], [(1, [])]⟩,
  -- line 381: mnjl,ijba,kldc,dbkm,acin
  ⟨-1/2, [g_abab [mₒ, nₒ, jₒ, lₒ], l2_aaaa [iₒ, jₒ, bᵥ, aᵥ], l2_abab [kₒ, lₒ, dᵥ, cᵥ], t2_aaaa [dᵥ, bᵥ, kₒ, mₒ], t2_abab [aᵥ, cᵥ, iₒ, nₒ]], [(1, [])]⟩,
  -- line 384: nmjl,ijba,klcd,bdkm,cain
  ⟨-1/2, [g_abab [nₒ, mₒ, jₒ, lₒ], l2_aaaa [iₒ, jₒ, bᵥ, aᵥ], l2_abab [kₒ, lₒ, cᵥ, dᵥ], t2_abab [bᵥ, dᵥ, kₒ, mₒ], t2_aaaa [cᵥ, aᵥ, iₒ, nₒ]], [(1, [])]⟩,
  -- line 387: nmjl,ijba,lkcd,bdmk,cain
  ⟨-1/2, [g_aaaa [nₒ, mₒ, jₒ, lₒ], l2_aaaa [iₒ, jₒ, bᵥ, aᵥ], l2_abab [lₒ, kₒ, cᵥ, dᵥ], t2_abab [bᵥ, dᵥ, mₒ, kₒ], t2_aaaa [cᵥ, aᵥ, iₒ, nₒ]], [(1, [])]⟩,
  -- line 390: mnjl,ijba,kldc,bdmk,acin
  ⟨-1/2, [g_abab [mₒ, nₒ, jₒ, lₒ], l2_aaaa [iₒ, jₒ, bᵥ, aᵥ], l2_bbbb [kₒ, lₒ, dᵥ, cᵥ], t2_abab [bᵥ, dᵥ, mₒ, kₒ], t2_abab [aᵥ, cᵥ, iₒ, nₒ]], [(1, [])]⟩,
  -- line 393: mnlj,ijba,kldc,dbkm,cain
  ⟨-1/2, [g_abab [mₒ, nₒ, lₒ, jₒ], l2_abab [iₒ, jₒ, bᵥ, aᵥ], l2_aaaa [kₒ, lₒ, dᵥ, cᵥ], t2_aaaa [dᵥ, bᵥ, kₒ, mₒ], t2_abab [cᵥ, aᵥ, iₒ, nₒ]], [(1, [])]⟩,
  -- line 396: nmjl,ijba,klcd,bdkm,cain
  ⟨-1/2, [g_bbbb [nₒ, mₒ, jₒ, lₒ], l2_abab [iₒ, jₒ, bᵥ, aᵥ], l2_abab [kₒ, lₒ, cᵥ, dᵥ], t2_abab [bᵥ, dᵥ, kₒ, mₒ], t2_abab [cᵥ, aᵥ, iₒ, nₒ]], [(1, [])]⟩,
  -- line 399: mnlj,ijba,lkcd,bdmk,cain
  ⟨-1/2, [g_abab [mₒ, nₒ, lₒ, jₒ], l2_abab [iₒ, jₒ, bᵥ, aᵥ], l2_abab [lₒ, kₒ, cᵥ, dᵥ], t2_abab [bᵥ, dᵥ, mₒ, kₒ], t2_abab [cᵥ, aᵥ, iₒ, nₒ]], [(1, [])]⟩,
  -- line 402: nmlj,ijab,kldc,dbkm,cain
  ⟨-1/2, [g_abab [nₒ, mₒ, lₒ, jₒ], l2_abab [iₒ, jₒ, aᵥ, bᵥ], l2_aaaa [kₒ, lₒ, dᵥ, cᵥ], t2_abab [dᵥ, bᵥ, kₒ, mₒ], t2_aaaa [cᵥ, aᵥ, iₒ, nₒ]], [(1, [])]⟩,
  -- line 405: nmjl,ijab,kldc,dbkm,acin
  ⟨-1/2, [g_bbbb [nₒ, mₒ, jₒ, lₒ], l2_abab [iₒ, jₒ, aᵥ, bᵥ], l2_abab [kₒ, lₒ, dᵥ, cᵥ], t2_abab [dᵥ, bᵥ, kₒ, mₒ], t2_abab [aᵥ, cᵥ, iₒ, nₒ]], [(1, [])]⟩,
  -- line 408: mnlj,ijab,lkdc,dbmk,acin
  ⟨-1/2, [g_abab [mₒ, nₒ, lₒ, jₒ], l2_abab [iₒ, jₒ, aᵥ, bᵥ], l2_abab [lₒ, kₒ, dᵥ, cᵥ], t2_abab [dᵥ, bᵥ, mₒ, kₒ], t2_abab [aᵥ, cᵥ, iₒ, nₒ]], [(1, [])]⟩,
  -- line 411: nmlj,ijab,lkcd,dbkm,cain
  ⟨-1/2, [g_abab [nₒ, mₒ, lₒ, jₒ], l2_abab [iₒ, jₒ, aᵥ, bᵥ], l2_abab [lₒ, kₒ, cᵥ, dᵥ], t2_bbbb [dᵥ, bᵥ, kₒ, mₒ], t2_aaaa [cᵥ, aᵥ, iₒ, nₒ]], [(1, [])]⟩,
  -- line 414: nmjl,ijab,kldc,dbkm,acin
  ⟨-1/2, [g_bbbb [nₒ, mₒ, jₒ, lₒ], l2_abab [iₒ, jₒ, aᵥ, bᵥ], l2_bbbb [kₒ, lₒ, dᵥ, cᵥ], t2_bbbb [dᵥ, bᵥ, kₒ, mₒ], t2_abab [aᵥ, cᵥ, iₒ, nₒ]], [(1, [])]⟩,
  -- line 417: nmjl,jiba,kldc,dbkm,cani
  ⟨-1/2, [g_aaaa [nₒ, mₒ, jₒ, lₒ], l2_abab [jₒ, iₒ, bᵥ, aᵥ], l2_aaaa [kₒ, lₒ, dᵥ, cᵥ], t2_aaaa [dᵥ, bᵥ, kₒ, mₒ], t2_abab [cᵥ, aᵥ, nₒ, iₒ]], [(1, [])]⟩,
  -- line 420: mnjl,jiba,kldc,dbkm,cain
  ⟨-1/2, [g_abab [mₒ, nₒ, jₒ, lₒ], l2_abab [jₒ, iₒ, bᵥ, aᵥ], l2_abab [kₒ, lₒ, dᵥ, cᵥ], t2_aaaa [dᵥ, bᵥ, kₒ, mₒ], t2_bbbb [cᵥ, aᵥ, iₒ, nₒ]], [(1, [])]⟩,
  -- line 423: nmjl,jiba,klcd,bdkm,cani
  ⟨-1/2, [g_abab [nₒ, mₒ, jₒ, lₒ], l2_abab [jₒ, iₒ, bᵥ, aᵥ], l2_abab [kₒ, lₒ, cᵥ, dᵥ], t2_abab [bᵥ, dᵥ, kₒ, mₒ], t2_abab [cᵥ, aᵥ, nₒ, iₒ]], [(1, [])]⟩,
  -- line 426: nmjl,jiba,lkcd,bdmk,cani
  ⟨-1/2, [g_aaaa [nₒ, mₒ, jₒ, lₒ], l2_abab [jₒ, iₒ, bᵥ, aᵥ], l2_abab [lₒ, kₒ, cᵥ, dᵥ], t2_abab [bᵥ, dᵥ, mₒ, kₒ], t2_abab [cᵥ, aᵥ, nₒ, iₒ]], [(1, [])]⟩,
  -- line 429: mnjl,jiba,kldc,bdmk,cain
  ⟨-1/2, [g_abab [mₒ, nₒ, jₒ, lₒ], l2_abab [jₒ, iₒ, bᵥ, aᵥ], l2_bbbb [kₒ, lₒ, dᵥ, cᵥ], t2_abab [bᵥ, dᵥ, mₒ, kₒ], t2_bbbb [cᵥ, aᵥ, iₒ, nₒ]], [(1, [])]⟩,
  -- line 432: nmjl,jiab,kldc,dbkm,acni
  ⟨-1/2, [g_abab [nₒ, mₒ, jₒ, lₒ], l2_abab [jₒ, iₒ, aᵥ, bᵥ], l2_abab [kₒ, lₒ, dᵥ, cᵥ], t2_abab [dᵥ, bᵥ, kₒ, mₒ], t2_abab [aᵥ, cᵥ, nₒ, iₒ]], [(1, [])]⟩,
  -- line 435: nmjl,jiab,lkdc,dbmk,acni
  ⟨-1/2, [g_aaaa [nₒ, mₒ, jₒ, lₒ], l2_abab [jₒ, iₒ, aᵥ, bᵥ], l2_abab [lₒ, kₒ, dᵥ, cᵥ], t2_abab [dᵥ, bᵥ, mₒ, kₒ], t2_abab [aᵥ, cᵥ, nₒ, iₒ]], [(1, [])]⟩,
  -- line 438: nmjl,jiab,kldc,dbkm,acni
  ⟨-1/2, [g_abab [nₒ, mₒ, jₒ, lₒ], l2_abab [jₒ, iₒ, aᵥ, bᵥ], l2_bbbb [kₒ, lₒ, dᵥ, cᵥ], t2_bbbb [dᵥ, bᵥ, kₒ, mₒ], t2_abab [aᵥ, cᵥ, nₒ, iₒ]], [(1, [])]⟩,
  -- line 441: nmlj,ijba,kldc,dbkm,cani
  ⟨-1/2, [g_abab [nₒ, mₒ, lₒ, jₒ], l2_bbbb [iₒ, jₒ, bᵥ, aᵥ], l2_aaaa [kₒ, lₒ, dᵥ, cᵥ], t2_abab [dᵥ, bᵥ, kₒ, mₒ], t2_abab [cᵥ, aᵥ, nₒ, iₒ]], [(1, [])]⟩,
  -- line 444: nmjl,ijba,kldc,dbkm,cain
  ⟨-1/2, [g_bbbb [nₒ, mₒ, jₒ, lₒ], l2_bbbb [iₒ, jₒ, bᵥ, aᵥ], l2_abab [kₒ, lₒ, dᵥ, cᵥ], t2_abab [dᵥ, bᵥ, kₒ, mₒ], t2_bbbb [cᵥ, aᵥ, iₒ, nₒ]], [(1, [])]⟩,
  -- line 447: mnlj,ijba,lkdc,dbmk,cain
  ⟨-1/2, [g_abab [mₒ, nₒ, lₒ, jₒ], l2_bbbb [iₒ, jₒ, bᵥ, aᵥ], l2_abab [lₒ, kₒ, dᵥ, cᵥ], t2_abab [dᵥ, bᵥ, mₒ, kₒ], t2_bbbb [cᵥ, aᵥ, iₒ, nₒ]], [(1, [])]⟩,
  -- line 450: nmlj,ijba,lkcd,dbkm,cani
  ⟨-1/2, [g_abab [nₒ, mₒ, lₒ, jₒ], l2_bbbb [iₒ, jₒ, bᵥ, aᵥ], l2_abab [lₒ, kₒ, cᵥ, dᵥ], t2_bbbb [dᵥ, bᵥ, kₒ, mₒ], t2_abab [cᵥ, aᵥ, nₒ, iₒ]], [(1, [])]⟩,
  -- line 453: nmjl,ijba,kldc,dbkm,cain
  ⟨-1/2, [g_bbbb [nₒ, mₒ, jₒ, lₒ], l2_bbbb [iₒ, jₒ, bᵥ, aᵥ], l2_bbbb [kₒ, lₒ, dᵥ, cᵥ], t2_bbbb [dᵥ, bᵥ, kₒ, mₒ], t2_bbbb [cᵥ, aᵥ, iₒ, nₒ]], [(1, [])]⟩,
  -- line 456: nmjl,ijba,kldc,dbim,cakn
  ⟨1/2, [g_aaaa [nₒ, mₒ, jₒ, lₒ], l2_aaaa [iₒ, jₒ, bᵥ, aᵥ], l2_aaaa [kₒ, lₒ, dᵥ, cᵥ], t2_aaaa [dᵥ, bᵥ, iₒ, mₒ], t2_aaaa [cᵥ, aᵥ, kₒ, nₒ]], [(1, [])]⟩,
  -- line 459: mnjl,ijba,kldc,dbim,ackn
  ⟨1/2, [g_abab [mₒ, nₒ, jₒ, lₒ], l2_aaaa [iₒ, jₒ, bᵥ, aᵥ], l2_abab [kₒ, lₒ, dᵥ, cᵥ], t2_aaaa [dᵥ, bᵥ, iₒ, mₒ], t2_abab [aᵥ, cᵥ, kₒ, nₒ]], [(1, [])]⟩,
  -- line 462: nmjl,ijba,klcd,bdim,cakn
  ⟨1/2, [g_abab [nₒ, mₒ, jₒ, lₒ], l2_aaaa [iₒ, jₒ, bᵥ, aᵥ], l2_abab [kₒ, lₒ, cᵥ, dᵥ], t2_abab [bᵥ, dᵥ, iₒ, mₒ], t2_aaaa [cᵥ, aᵥ, kₒ, nₒ]], [(1, [])]⟩,
  -- line 465: nmjl,ijba,lkdc,dbim,acnk
  ⟨-1/2, [g_aaaa [nₒ, mₒ, jₒ, lₒ], l2_aaaa [iₒ, jₒ, bᵥ, aᵥ], l2_abab [lₒ, kₒ, dᵥ, cᵥ], t2_aaaa [dᵥ, bᵥ, iₒ, mₒ], t2_abab [aᵥ, cᵥ, nₒ, kₒ]], [(1, [])]⟩,
  -- line 468: nmjl,ijba,kldc,bdim,acnk
  ⟨-1/2, [g_abab [nₒ, mₒ, jₒ, lₒ], l2_aaaa [iₒ, jₒ, bᵥ, aᵥ], l2_bbbb [kₒ, lₒ, dᵥ, cᵥ], t2_abab [bᵥ, dᵥ, iₒ, mₒ], t2_abab [aᵥ, cᵥ, nₒ, kₒ]], [(1, [])]⟩,
  -- line 471: mnlj,ijba,kldc,dbim,cakn
  ⟨1/2, [g_abab [mₒ, nₒ, lₒ, jₒ], l2_abab [iₒ, jₒ, bᵥ, aᵥ], l2_aaaa [kₒ, lₒ, dᵥ, cᵥ], t2_aaaa [dᵥ, bᵥ, iₒ, mₒ], t2_abab [cᵥ, aᵥ, kₒ, nₒ]], [(1, [])]⟩,
  -- line 474: nmjl,ijba,klcd,bdim,cakn
  ⟨1/2, [g_bbbb [nₒ, mₒ, jₒ, lₒ], l2_abab [iₒ, jₒ, bᵥ, aᵥ], l2_abab [kₒ, lₒ, cᵥ, dᵥ], t2_abab [bᵥ, dᵥ, iₒ, mₒ], t2_abab [cᵥ, aᵥ, kₒ, nₒ]], [(1, [])]⟩,
  -- line 477: mnlj,ijba,lkdc,dbim,cakn
  ⟨-1/2, [g_abab [mₒ, nₒ, lₒ, jₒ], l2_abab [iₒ, jₒ, bᵥ, aᵥ], l2_abab [lₒ, kₒ, dᵥ, cᵥ], t2_aaaa [dᵥ, bᵥ, iₒ, mₒ], t2_bbbb [cᵥ, aᵥ, kₒ, nₒ]], [(1, [])]⟩,
  -- line 480: nmlj,ijba,lkcd,bdim,cank
  ⟨-1/2, [g_abab [nₒ, mₒ, lₒ, jₒ], l2_abab [iₒ, jₒ, bᵥ, aᵥ], l2_abab [lₒ, kₒ, cᵥ, dᵥ], t2_abab [bᵥ, dᵥ, iₒ, mₒ], t2_abab [cᵥ, aᵥ, nₒ, kₒ]], [(1, [])]⟩,
  -- line 483: nmjl,ijba,kldc,bdim,cakn
  ⟨-1/2, [g_bbbb [nₒ, mₒ, jₒ, lₒ], l2_abab [iₒ, jₒ, bᵥ, aᵥ], l2_bbbb [kₒ, lₒ, dᵥ, cᵥ], t2_abab [bᵥ, dᵥ, iₒ, mₒ], t2_bbbb [cᵥ, aᵥ, kₒ, nₒ]], [(1, [])]⟩,
  -- line 486: nmlj,ijab,kldc,dbim,cakn
  ⟨1/2, [g_abab [nₒ, mₒ, lₒ, jₒ], l2_abab [iₒ, jₒ, aᵥ, bᵥ], l2_aaaa [kₒ, lₒ, dᵥ, cᵥ], t2_abab [dᵥ, bᵥ, iₒ, mₒ], t2_aaaa [cᵥ, aᵥ, kₒ, nₒ]], [(1, [])]⟩,
  -- line 489: nmjl,ijab,kldc,dbim,ackn
  ⟨1/2, [g_bbbb [nₒ, mₒ, jₒ, lₒ], l2_abab [iₒ, jₒ, aᵥ, bᵥ], l2_abab [kₒ, lₒ, dᵥ, cᵥ], t2_abab [dᵥ, bᵥ, iₒ, mₒ], t2_abab [aᵥ, cᵥ, kₒ, nₒ]], [(1, [])]⟩,
  -- line 492: nmlj,ijab,lkdc,dbim,acnk
  ⟨-1/2, [g_abab [nₒ, mₒ, lₒ, jₒ], l2_abab [iₒ, jₒ, aᵥ, bᵥ], l2_abab [lₒ, kₒ, dᵥ, cᵥ], t2_abab [dᵥ, bᵥ, iₒ, mₒ], t2_abab [aᵥ, cᵥ, nₒ, kₒ]], [(1, [])]⟩,
  -- line 495: mnjl,jiba,klcd,bdmi,cakn
  ⟨-1/2, [g_abab [mₒ, nₒ, jₒ, lₒ], l2_abab [jₒ, iₒ, bᵥ, aᵥ], l2_abab [kₒ, lₒ, cᵥ, dᵥ], t2_abab [bᵥ, dᵥ, mₒ, iₒ], t2_abab [cᵥ, aᵥ, kₒ, nₒ]], [(1, [])]⟩
  ]

/-- Part 4 of `si_energy_pertQf`. -/
def si_energy_pertQf_4 : Prog := [
  -- line 498: nmjl,jiba,lkcd,bdmi,cank
  ⟨1/2, [g_aaaa [nₒ, mₒ, jₒ, lₒ], l2_abab [jₒ, iₒ, bᵥ, aᵥ], l2_abab [lₒ, kₒ, cᵥ, dᵥ], t2_abab [bᵥ, dᵥ, mₒ, iₒ], t2_abab [cᵥ, aᵥ, nₒ, kₒ]], [(1, [])]⟩,
  -- line 501: mnjl,jiba,kldc,bdmi,cakn
  ⟨1/2, [g_abab [mₒ, nₒ, jₒ, lₒ], l2_abab [jₒ, iₒ, bᵥ, aᵥ], l2_bbbb [kₒ, lₒ, dᵥ, cᵥ], t2_abab [bᵥ, dᵥ, mₒ, iₒ], t2_bbbb [cᵥ, aᵥ, kₒ, nₒ]], [(1, [])]⟩,
  -- line 504: nmjl,jiab,kldc,dbmi,cakn
  ⟨-1/2, [g_aaaa [nₒ, mₒ, jₒ, lₒ], l2_abab [jₒ, iₒ, aᵥ, bᵥ], l2_aaaa [kₒ, lₒ, dᵥ, cᵥ], t2_abab [dᵥ, bᵥ, mₒ, iₒ], t2_aaaa [cᵥ, aᵥ, kₒ, nₒ]], [(1, [])]⟩,
  -- line 507: mnjl,jiab,kldc,dbmi,ackn
  ⟨-1/2, [g_abab [mₒ, nₒ, jₒ, lₒ], l2_abab [jₒ, iₒ, aᵥ, bᵥ], l2_abab [kₒ, lₒ, dᵥ, cᵥ], t2_abab [dᵥ, bᵥ, mₒ, iₒ], t2_abab [aᵥ, cᵥ, kₒ, nₒ]], [(1, [])]⟩,
  -- line 510: nmjl,jiab,klcd,dbim,cakn
  ⟨-1/2, [g_abab [nₒ, mₒ, jₒ, lₒ], l2_abab [jₒ, iₒ, aᵥ, bᵥ], l2_abab [kₒ, lₒ, cᵥ, dᵥ], t2_bbbb [dᵥ, bᵥ, iₒ, mₒ], t2_aaaa [cᵥ, aᵥ, kₒ, nₒ]], [(1, [])]⟩,
  -- line 513: nmjl,jiab,lkdc,dbmi,acnk
  ⟨1/2, [g_aaaa [nₒ, mₒ, jₒ, lₒ], l2_abab [jₒ, iₒ, aᵥ, bᵥ], l2_abab [lₒ, kₒ, dᵥ, cᵥ], t2_abab [dᵥ, bᵥ, mₒ, iₒ], t2_abab [aᵥ, cᵥ, nₒ, kₒ]], [(1, [])]⟩,
  -- line 516: nmjl,jiab,kldc,dbim,acnk
  ⟨1/2, [g_abab [nₒ, mₒ, jₒ, lₒ], l2_abab [jₒ, iₒ, aᵥ, bᵥ], l2_bbbb [kₒ, lₒ, dᵥ, cᵥ], t2_bbbb [dᵥ, bᵥ, iₒ, mₒ], t2_abab [aᵥ, cᵥ, nₒ, kₒ]], [(1, [])]⟩,
  -- line 519: mnlj,ijba,kldc,dbmi,cakn
  ⟨-1/2, [g_abab [mₒ, nₒ, lₒ, jₒ], l2_bbbb [iₒ, jₒ, bᵥ, aᵥ], l2_aaaa [kₒ, lₒ, dᵥ, cᵥ], t2_abab [dᵥ, bᵥ, mₒ, iₒ], t2_abab [cᵥ, aᵥ, kₒ, nₒ]], [(1, [])]⟩,
  -- line 522: nmjl,ijba,klcd,dbim,cakn
  ⟨-1/2, [g_bbbb [nₒ, mₒ, jₒ, lₒ], l2_bbbb [iₒ, jₒ, bᵥ, aᵥ], l2_abab [kₒ, lₒ, cᵥ, dᵥ], t2_bbbb [dᵥ, bᵥ, iₒ, mₒ], t2_abab [cᵥ, aᵥ, kₒ, nₒ]], [(1, [])]⟩,
  -- line 525: mnlj,ijba,lkdc,dbmi,cakn
  ⟨1/2, [g_abab [mₒ, nₒ, lₒ, jₒ], l2_bbbb [iₒ, jₒ, bᵥ, aᵥ], l2_abab [lₒ, kₒ, dᵥ, cᵥ], t2_abab [dᵥ, bᵥ, mₒ, iₒ], t2_bbbb [cᵥ, aᵥ, kₒ, nₒ]], [(1, [])]⟩,
  -- line 528: nmlj,ijba,lkcd,dbim,cank
  ⟨1/2, [g_abab [nₒ, mₒ, lₒ, jₒ], l2_bbbb [iₒ, jₒ, bᵥ, aᵥ], l2_abab [lₒ, kₒ, cᵥ, dᵥ], t2_bbbb [dᵥ, bᵥ, iₒ, mₒ], t2_abab [cᵥ, aᵥ, nₒ, kₒ]], [(1, [])]⟩,
  -- line 531: nmjl,ijba,kldc,dbim,cakn
  ⟨1/2, [g_bbbb [nₒ, mₒ, jₒ, lₒ], l2_bbbb [iₒ, jₒ, bᵥ, aᵥ], l2_bbbb [kₒ, lₒ, dᵥ, cᵥ], t2_bbbb [dᵥ, bᵥ, iₒ, mₒ], t2_bbbb [cᵥ, aᵥ, kₒ, nₒ]], [(1, [])]⟩,
  -- line 534: nmij,ijba,kldc,dclm,bakn
  ⟨-1/8, [g_aaaa [nₒ, mₒ, iₒ, jₒ], l2_aaaa [iₒ, jₒ, bᵥ, aᵥ], l2_aaaa [kₒ, lₒ, dᵥ, cᵥ], t2_aaaa [dᵥ, cᵥ, lₒ, mₒ], t2_aaaa [bᵥ, aᵥ, kₒ, nₒ]], [(1, [])]⟩,
  -- line 537: nmij,ijba,kldc,dcml,bakn
  ⟨1/8, [g_aaaa [nₒ, mₒ, iₒ, jₒ], l2_aaaa [iₒ, jₒ, bᵥ, aᵥ], l2_abab [kₒ, lₒ, dᵥ, cᵥ], t2_abab [dᵥ, cᵥ, mₒ, lₒ], t2_aaaa [bᵥ, aᵥ, kₒ, nₒ]], [(1, [])]⟩,
  -- line 540: nmij,ijba,klcd,cdml,bakn
  ⟨1/8, [g_aaaa [nₒ, mₒ, iₒ, jₒ], l2_aaaa [iₒ, jₒ, bᵥ, aᵥ], l2_abab [kₒ, lₒ, cᵥ, dᵥ], t2_abab [cᵥ, dᵥ, mₒ, lₒ], t2_aaaa [bᵥ, aᵥ, kₒ, nₒ]], [(1, [])]⟩,
  -- line 543: mnij,ijba,kldc,dclm,bakn
  ⟨1/8, [g_abab [mₒ, nₒ, iₒ, jₒ], l2_abab [iₒ, jₒ, bᵥ, aᵥ], l2_aaaa [kₒ, lₒ, dᵥ, cᵥ], t2_aaaa [dᵥ, cᵥ, lₒ, mₒ], t2_abab [bᵥ, aᵥ, kₒ, nₒ]], [(1, [])]⟩,
  -- line 546: mnij,ijba,kldc,dcml,bakn
  ⟨-1/8, [g_abab [mₒ, nₒ, iₒ, jₒ], l2_abab [iₒ, jₒ, bᵥ, aᵥ], l2_abab [kₒ, lₒ, dᵥ, cᵥ], t2_abab [dᵥ, cᵥ, mₒ, lₒ], t2_abab [bᵥ, aᵥ, kₒ, nₒ]], [(1, [])]⟩,
  -- line 549: mnij,ijba,klcd,cdml,bakn
  ⟨-1/8, [g_abab [mₒ, nₒ, iₒ, jₒ], l2_abab [iₒ, jₒ, bᵥ, aᵥ], l2_abab [kₒ, lₒ, cᵥ, dᵥ], t2_abab [cᵥ, dᵥ, mₒ, lₒ], t2_abab [bᵥ, aᵥ, kₒ, nₒ]], [(1, [])]⟩,
  -- line 552: nmij,ijba,lkdc,dclm,bank
  ⟨-1/8, [g_abab [nₒ, mₒ, iₒ, jₒ], l2_abab [iₒ, jₒ, bᵥ, aᵥ], l2_abab [lₒ, kₒ, dᵥ, cᵥ], t2_abab [dᵥ, cᵥ, lₒ, mₒ], t2_abab [bᵥ, aᵥ, nₒ, kₒ]], [(1, [])]⟩,
  -- line 555: nmij,ijba,lkcd,cdlm,bank
  ⟨-1/8, [g_abab [nₒ, mₒ, iₒ, jₒ], l2_abab [iₒ, jₒ, bᵥ, aᵥ], l2_abab [lₒ, kₒ, cᵥ, dᵥ], t2_abab [cᵥ, dᵥ, lₒ, mₒ], t2_abab [bᵥ, aᵥ, nₒ, kₒ]], [(1, [])]⟩,
  -- line 558: nmij,ijba,kldc,dclm,bank
  ⟨1/8, [g_abab [nₒ, mₒ, iₒ, jₒ], l2_abab [iₒ, jₒ, bᵥ, aᵥ], l2_bbbb [kₒ, lₒ, dᵥ, cᵥ], t2_bbbb [dᵥ, cᵥ, lₒ, mₒ], t2_abab [bᵥ, aᵥ, nₒ, kₒ]], [(1, [])]⟩,
  -- line 561: mnij,ijab,kldc,dclm,abkn
  ⟨1/8, [g_abab [mₒ, nₒ, iₒ, jₒ], l2_abab [iₒ, jₒ, aᵥ, bᵥ], l2_aaaa [kₒ, lₒ, dᵥ, cᵥ], t2_aaaa [dᵥ, cᵥ, lₒ, mₒ], t2_abab [aᵥ, bᵥ, kₒ, nₒ]], [(1, [])]⟩,
  -- line 564: mnij,ijab,kldc,dcml,abkn
  ⟨-1/8, [g_abab [mₒ, nₒ, iₒ, jₒ], l2_abab [iₒ, jₒ, aᵥ, bᵥ], l2_abab [kₒ, lₒ, dᵥ, cᵥ], t2_abab [dᵥ, cᵥ, mₒ, lₒ], t2_abab [aᵥ, bᵥ, kₒ, nₒ]], [(1, [])]⟩,
  -- line 567: mnij,ijab,klcd,cdml,abkn
  ⟨-1/8, [g_abab [mₒ, nₒ, iₒ, jₒ], l2_abab [iₒ, jₒ, aᵥ, bᵥ], l2_abab [kₒ, lₒ, cᵥ, dᵥ], t2_abab [cᵥ, dᵥ, mₒ, lₒ], t2_abab [aᵥ, bᵥ, kₒ, nₒ]], [(1, [])]⟩,
  -- line 570: nmij,ijab,lkdc,dclm,abnk
  ⟨-1/8, [g_abab [nₒ, mₒ, iₒ, jₒ], l2_abab [iₒ, jₒ, aᵥ, bᵥ], l2_abab [lₒ, kₒ, dᵥ, cᵥ], t2_abab [dᵥ, cᵥ, lₒ, mₒ], t2_abab [aᵥ, bᵥ, nₒ, kₒ]], [(1, [])]⟩,
  -- line 573: nmij,ijab,lkcd,cdlm,abnk
  ⟨-1/8, [g_abab [nₒ, mₒ, iₒ, jₒ], l2_abab [iₒ, jₒ, aᵥ, bᵥ], l2_abab [lₒ, kₒ, cᵥ, dᵥ], t2_abab [cᵥ, dᵥ, lₒ, mₒ], t2_abab [aᵥ, bᵥ, nₒ, kₒ]], [(1, [])]⟩,
  -- line 576: nmij,ijab,kldc,dclm,abnk
  ⟨1/8, [g_abab [nₒ, mₒ, iₒ, jₒ], l2_abab [iₒ, jₒ, aᵥ, bᵥ], l2_bbbb [kₒ, lₒ, dᵥ, cᵥ], t2_bbbb [dᵥ, cᵥ, lₒ, mₒ], t2_abab [aᵥ, bᵥ, nₒ, kₒ]], [(1, [])]⟩,
  -- line 579: mnji,jiba,kldc,dclm,bakn
  ⟨1/8, [g_abab [mₒ, nₒ, jₒ, iₒ], l2_abab [jₒ, iₒ, bᵥ, aᵥ], l2_aaaa [kₒ, lₒ, dᵥ, cᵥ], t2_aaaa [dᵥ, cᵥ, lₒ, mₒ], t2_abab [bᵥ, aᵥ, kₒ, nₒ]], [(1, [])]⟩,
  -- line 582: mnji,jiba,kldc,dcml,bakn
  ⟨-1/8, [g_abab [mₒ, nₒ, jₒ, iₒ], l2_abab [jₒ, iₒ, bᵥ, aᵥ], l2_abab [kₒ, lₒ, dᵥ, cᵥ], t2_abab [dᵥ, cᵥ, mₒ, lₒ], t2_abab [bᵥ, aᵥ, kₒ, nₒ]], [(1, [])]⟩,
  -- line 585: mnji,jiba,klcd,cdml,bakn
  ⟨-1/8, [g_abab [mₒ, nₒ, jₒ, iₒ], l2_abab [jₒ, iₒ, bᵥ, aᵥ], l2_abab [kₒ, lₒ, cᵥ, dᵥ], t2_abab [cᵥ, dᵥ, mₒ, lₒ], t2_abab [bᵥ, aᵥ, kₒ, nₒ]], [(1, [])]⟩,
  -- line 588: nmji,jiba,lkdc,dclm,bank
  ⟨-1/8, [g_abab [nₒ, mₒ, jₒ, iₒ], l2_abab [jₒ, iₒ, bᵥ, aᵥ], l2_abab [lₒ, kₒ, dᵥ, cᵥ], t2_abab [dᵥ, cᵥ, lₒ, mₒ], t2_abab [bᵥ, aᵥ, nₒ, kₒ]], [(1, [])]⟩,
  -- line 591: nmji,jiba,lkcd,cdlm,bank
  ⟨-1/8, [g_abab [nₒ, mₒ, jₒ, iₒ], l2_abab [jₒ, iₒ, bᵥ, aᵥ], l2_abab [lₒ, kₒ, cᵥ, dᵥ], t2_abab [cᵥ, dᵥ, lₒ, mₒ], t2_abab [bᵥ, aᵥ, nₒ, kₒ]], [(1, [])]⟩,
  -- line 594: nmji,jiba,kldc,dclm,bank
  ⟨1/8, [g_abab [nₒ, mₒ, jₒ, iₒ], l2_abab [jₒ, iₒ, bᵥ, aᵥ], l2_bbbb [kₒ, lₒ, dᵥ, cᵥ], t2_bbbb [dᵥ, cᵥ, lₒ, mₒ], t2_abab [bᵥ, aᵥ, nₒ, kₒ]], [(1, [])]⟩,
  -- line 597: mnji,jiab,kldc,dclm,abkn
  ⟨1/8, [g_abab [mₒ, nₒ, jₒ, iₒ], l2_abab [jₒ, iₒ, aᵥ, bᵥ], l2_aaaa [kₒ, lₒ, dᵥ, cᵥ], t2_aaaa [dᵥ, cᵥ, lₒ, mₒ], t2_abab [aᵥ, bᵥ, kₒ, nₒ]], [(1, [])]⟩,
  -- line 600: mnji,jiab,kldc,dcml,abkn
  ⟨-1/8, [g_abab [mₒ, nₒ, jₒ, iₒ], l2_abab [jₒ, iₒ, aᵥ, bᵥ], l2_abab [kₒ, lₒ, dᵥ, cᵥ], t2_abab [dᵥ, cᵥ, mₒ, lₒ], t2_abab [aᵥ, bᵥ, kₒ, nₒ]], [(1, [])]⟩,
  -- line 603: mnji,jiab,klcd,cdml,abkn
  ⟨-1/8, [g_abab [mₒ, nₒ, jₒ, iₒ], l2_abab [jₒ, iₒ, aᵥ, bᵥ], l2_abab [kₒ, lₒ, cᵥ, dᵥ], t2_abab [cᵥ, dᵥ, mₒ, lₒ], t2_abab [aᵥ, bᵥ, kₒ, nₒ]], [(1, [])]⟩,
  -- line 606: nmji,jiab,lkdc,dclm,abnk
  ⟨-1/8, [g_abab [nₒ, mₒ, jₒ, iₒ], l2_abab [jₒ, iₒ, aᵥ, bᵥ], l2_abab [lₒ, kₒ, dᵥ, cᵥ], t2_abab [dᵥ, cᵥ, lₒ, mₒ], t2_abab [aᵥ, bᵥ, nₒ, kₒ]], [(1, [])]⟩,
  -- line 609: nmji,jiab,lkcd,cdlm,abnk
  ⟨-1/8, [g_abab [nₒ, mₒ, jₒ, iₒ], l2_abab [jₒ, iₒ, aᵥ, bᵥ], l2_abab [lₒ, kₒ, cᵥ, dᵥ], t2_abab [cᵥ, dᵥ, lₒ, mₒ], t2_abab [aᵥ, bᵥ, nₒ, kₒ]], [(1, [])]⟩,
  -- line 612: nmji,jiab,kldc,dclm,abnk
  ⟨1/8, [g_abab [nₒ, mₒ, jₒ, iₒ], l2_abab [jₒ, iₒ, aᵥ, bᵥ], l2_bbbb [kₒ, lₒ, dᵥ, cᵥ], t2_bbbb [dᵥ, cᵥ, lₒ, mₒ], t2_abab [aᵥ, bᵥ, nₒ, kₒ]], [(1, [])]⟩,
  -- line 615: nmij,ijba,lkdc,dclm,bakn
  ⟨1/8, [g_bbbb [nₒ, mₒ, iₒ, jₒ], l2_bbbb [iₒ, jₒ, bᵥ, aᵥ], l2_abab [lₒ, kₒ, dᵥ, cᵥ], t2_abab [dᵥ, cᵥ, lₒ, mₒ], t2_bbbb [bᵥ, aᵥ, kₒ, nₒ]], [(1, [])]⟩
  ]

/-- Part 5 of `si_energy_pertQf`. -/
def si_energy_pertQf_5 : Prog := [
  -- line 618: nmij,ijba,lkcd,cdlm,bakn
  ⟨1/8, [g_bbbb [nₒ, mₒ, iₒ, jₒ], l2_bbbb [iₒ, jₒ, bᵥ, aᵥ], l2_abab [lₒ, kₒ, cᵥ, dᵥ], t2_abab [cᵥ, dᵥ, lₒ, mₒ], t2_bbbb [bᵥ, aᵥ, kₒ, nₒ]], [(1, [])]⟩,
  -- line 621: nmij,ijba,kldc,dclm,bakn
  ⟨-1/8, [g_bbbb [nₒ, mₒ, iₒ, jₒ], l2_bbbb [iₒ, jₒ, bᵥ, aᵥ], l2_bbbb [kₒ, lₒ, dᵥ, cᵥ], t2_bbbb [dᵥ, cᵥ, lₒ, mₒ], t2_bbbb [bᵥ, aᵥ, kₒ, nₒ]], [(1, [])]⟩,
  -- line 624: nmij,ijba,kldc,dblm,cakn
  ⟨1/4, [g_aaaa [nₒ, mₒ, iₒ, jₒ], l2_aaaa [iₒ, jₒ, bᵥ, aᵥ], l2_aaaa [kₒ, lₒ, dᵥ, cᵥ], t2_aaaa [dᵥ, bᵥ, lₒ, mₒ], t2_aaaa [cᵥ, aᵥ, kₒ, nₒ]], [(1, [])]⟩,
  -- line 627: nmij,ijba,klcd,bdml,cakn
  ⟨-1/4, [g_aaaa [nₒ, mₒ, iₒ, jₒ], l2_aaaa [iₒ, jₒ, bᵥ, aᵥ], l2_abab [kₒ, lₒ, cᵥ, dᵥ], t2_abab [bᵥ, dᵥ, mₒ, lₒ], t2_aaaa [cᵥ, aᵥ, kₒ, nₒ]], [(1, [])]⟩,
  -- line 630: nmij,ijba,lkdc,dblm,acnk
  ⟨-1/4, [g_aaaa [nₒ, mₒ, iₒ, jₒ], l2_aaaa [iₒ, jₒ, bᵥ, aᵥ], l2_abab [lₒ, kₒ, dᵥ, cᵥ], t2_aaaa [dᵥ, bᵥ, lₒ, mₒ], t2_abab [aᵥ, cᵥ, nₒ, kₒ]], [(1, [])]⟩,
  -- line 633: nmij,ijba,kldc,bdml,acnk
  ⟨1/4, [g_aaaa [nₒ, mₒ, iₒ, jₒ], l2_aaaa [iₒ, jₒ, bᵥ, aᵥ], l2_bbbb [kₒ, lₒ, dᵥ, cᵥ], t2_abab [bᵥ, dᵥ, mₒ, lₒ], t2_abab [aᵥ, cᵥ, nₒ, kₒ]], [(1, [])]⟩,
  -- line 636: mnij,ijba,kldc,dblm,cakn
  ⟨-1/4, [g_abab [mₒ, nₒ, iₒ, jₒ], l2_abab [iₒ, jₒ, bᵥ, aᵥ], l2_aaaa [kₒ, lₒ, dᵥ, cᵥ], t2_aaaa [dᵥ, bᵥ, lₒ, mₒ], t2_abab [cᵥ, aᵥ, kₒ, nₒ]], [(1, [])]⟩,
  -- line 639: mnij,ijba,klcd,bdml,cakn
  ⟨1/4, [g_abab [mₒ, nₒ, iₒ, jₒ], l2_abab [iₒ, jₒ, bᵥ, aᵥ], l2_abab [kₒ, lₒ, cᵥ, dᵥ], t2_abab [bᵥ, dᵥ, mₒ, lₒ], t2_abab [cᵥ, aᵥ, kₒ, nₒ]], [(1, [])]⟩,
  -- line 642: mnij,ijba,lkdc,dblm,cakn
  ⟨1/4, [g_abab [mₒ, nₒ, iₒ, jₒ], l2_abab [iₒ, jₒ, bᵥ, aᵥ], l2_abab [lₒ, kₒ, dᵥ, cᵥ], t2_aaaa [dᵥ, bᵥ, lₒ, mₒ], t2_bbbb [cᵥ, aᵥ, kₒ, nₒ]], [(1, [])]⟩,
  -- line 645: nmij,ijba,lkcd,bdlm,cank
  ⟨1/4, [g_abab [nₒ, mₒ, iₒ, jₒ], l2_abab [iₒ, jₒ, bᵥ, aᵥ], l2_abab [lₒ, kₒ, cᵥ, dᵥ], t2_abab [bᵥ, dᵥ, lₒ, mₒ], t2_abab [cᵥ, aᵥ, nₒ, kₒ]], [(1, [])]⟩,
  -- line 648: mnij,ijba,kldc,bdml,cakn
  ⟨-1/4, [g_abab [mₒ, nₒ, iₒ, jₒ], l2_abab [iₒ, jₒ, bᵥ, aᵥ], l2_bbbb [kₒ, lₒ, dᵥ, cᵥ], t2_abab [bᵥ, dᵥ, mₒ, lₒ], t2_bbbb [cᵥ, aᵥ, kₒ, nₒ]], [(1, [])]⟩,
  -- line 651: nmij,ijab,kldc,dblm,cakn
  ⟨-1/4, [g_abab [nₒ, mₒ, iₒ, jₒ], l2_abab [iₒ, jₒ, aᵥ, bᵥ], l2_aaaa [kₒ, lₒ, dᵥ, cᵥ], t2_abab [dᵥ, bᵥ, lₒ, mₒ], t2_aaaa [cᵥ, aᵥ, kₒ, nₒ]], [(1, [])]⟩,
  -- line 654: mnij,ijab,kldc,dbml,ackn
  ⟨1/4, [g_abab [mₒ, nₒ, iₒ, jₒ], l2_abab [iₒ, jₒ, aᵥ, bᵥ], l2_abab [kₒ, lₒ, dᵥ, cᵥ], t2_abab [dᵥ, bᵥ, mₒ, lₒ], t2_abab [aᵥ, cᵥ, kₒ, nₒ]], [(1, [])]⟩,
  -- line 657: nmij,ijab,klcd,dblm,cakn
  ⟨1/4, [g_abab [nₒ, mₒ, iₒ, jₒ], l2_abab [iₒ, jₒ, aᵥ, bᵥ], l2_abab [kₒ, lₒ, cᵥ, dᵥ], t2_bbbb [dᵥ, bᵥ, lₒ, mₒ], t2_aaaa [cᵥ, aᵥ, kₒ, nₒ]], [(1, [])]⟩,
  -- line 660: nmij,ijab,lkdc,dblm,acnk
  ⟨1/4, [g_abab [nₒ, mₒ, iₒ, jₒ], l2_abab [iₒ, jₒ, aᵥ, bᵥ], l2_abab [lₒ, kₒ, dᵥ, cᵥ], t2_abab [dᵥ, bᵥ, lₒ, mₒ], t2_abab [aᵥ, cᵥ, nₒ, kₒ]], [(1, [])]⟩,
  -- line 663: nmij,ijab,kldc,dblm,acnk
  ⟨-1/4, [g_abab [nₒ, mₒ, iₒ, jₒ], l2_abab [iₒ, jₒ, aᵥ, bᵥ], l2_bbbb [kₒ, lₒ, dᵥ, cᵥ], t2_bbbb [dᵥ, bᵥ, lₒ, mₒ], t2_abab [aᵥ, cᵥ, nₒ, kₒ]], [(1, [])]⟩,
  -- line 666: mnji,jiba,kldc,dblm,cakn
  ⟨-1/4, [g_abab [mₒ, nₒ, jₒ, iₒ], l2_abab [jₒ, iₒ, bᵥ, aᵥ], l2_aaaa [kₒ, lₒ, dᵥ, cᵥ], t2_aaaa [dᵥ, bᵥ, lₒ, mₒ], t2_abab [cᵥ, aᵥ, kₒ, nₒ]], [(1, [])]⟩,
  -- line 669: mnji,jiba,klcd,bdml,cakn
  ⟨1/4, [g_abab [mₒ, nₒ, jₒ, iₒ], l2_abab [jₒ, iₒ, bᵥ, aᵥ], l2_abab [kₒ, lₒ, cᵥ, dᵥ], t2_abab [bᵥ, dᵥ, mₒ, lₒ], t2_abab [cᵥ, aᵥ, kₒ, nₒ]], [(1, [])]⟩,
  -- line 672: mnji,jiba,lkdc,dblm,cakn
  ⟨1/4, [g_abab [mₒ, nₒ, jₒ, iₒ], l2_abab [jₒ, iₒ, bᵥ, aᵥ], l2_abab [lₒ, kₒ, dᵥ, cᵥ], t2_aaaa [dᵥ, bᵥ, lₒ, mₒ], t2_bbbb [cᵥ, aᵥ, kₒ, nₒ]], [(1, [])]⟩,
  -- line 675: nmji,jiba,lkcd,bdlm,cank
  ⟨1/4, [g_abab [nₒ, mₒ, jₒ, iₒ], l2_abab [jₒ, iₒ, bᵥ, aᵥ], l2_abab [lₒ, kₒ, cᵥ, dᵥ], t2_abab [bᵥ, dᵥ, lₒ, mₒ], t2_abab [cᵥ, aᵥ, nₒ, kₒ]], [(1, [])]⟩,
  -- line 678: mnji,jiba,kldc,bdml,cakn
  ⟨-1/4, [g_abab [mₒ, nₒ, jₒ, iₒ], l2_abab [jₒ, iₒ, bᵥ, aᵥ], l2_bbbb [kₒ, lₒ, dᵥ, cᵥ], t2_abab [bᵥ, dᵥ, mₒ, lₒ], t2_bbbb [cᵥ, aᵥ, kₒ, nₒ]], [(1, [])]⟩,
  -- line 681: nmji,jiab,kldc,dblm,cakn
  ⟨-1/4, [g_abab [nₒ, mₒ, jₒ, iₒ], l2_abab [jₒ, iₒ, aᵥ, bᵥ], l2_aaaa [kₒ, lₒ, dᵥ, cᵥ], t2_abab [dᵥ, bᵥ, lₒ, mₒ], t2_aaaa [cᵥ, aᵥ, kₒ, nₒ]], [(1, [])]⟩,
  -- line 684: mnji,jiab,kldc,dbml,ackn
  ⟨1/4, [g_abab [mₒ, nₒ, jₒ, iₒ], l2_abab [jₒ, iₒ, aᵥ, bᵥ], l2_abab [kₒ, lₒ, dᵥ, cᵥ], t2_abab [dᵥ, bᵥ, mₒ, lₒ], t2_abab [aᵥ, cᵥ, kₒ, nₒ]], [(1, [])]⟩,
  -- line 687: nmji,jiab,klcd,dblm,cakn
  ⟨1/4, [g_abab [nₒ, mₒ, jₒ, iₒ], l2_abab [jₒ, iₒ, aᵥ, bᵥ], l2_abab [kₒ, lₒ, cᵥ, dᵥ], t2_bbbb [dᵥ, bᵥ, lₒ, mₒ], t2_aaaa [cᵥ, aᵥ, kₒ, nₒ]], [(1, [])]⟩,
  -- line 690: nmji,jiab,lkdc,dblm,acnk
  ⟨1/4, [g_abab [nₒ, mₒ, jₒ, iₒ], l2_abab [jₒ, iₒ, aᵥ, bᵥ], l2_abab [lₒ, kₒ, dᵥ, cᵥ], t2_abab [dᵥ, bᵥ, lₒ, mₒ], t2_abab [aᵥ, cᵥ, nₒ, kₒ]], [(1, [])]⟩,
  -- line 693: nmji,jiab,kldc,dblm,acnk
  ⟨-1/4, [g_abab [nₒ, mₒ, jₒ, iₒ], l2_abab [jₒ, iₒ, aᵥ, bᵥ], l2_bbbb [kₒ, lₒ, dᵥ, cᵥ], t2_bbbb [dᵥ, bᵥ, lₒ, mₒ], t2_abab [aᵥ, cᵥ, nₒ, kₒ]], [(1, [])]⟩,
  -- line 696: nmij,ijba,kldc,dblm,cakn
  ⟨1/4, [g_bbbb [nₒ, mₒ, iₒ, jₒ], l2_bbbb [iₒ, jₒ, bᵥ, aᵥ], l2_aaaa [kₒ, lₒ, dᵥ, cᵥ], t2_abab [dᵥ, bᵥ, lₒ, mₒ], t2_abab [cᵥ, aᵥ, kₒ, nₒ]], [(1, [])]⟩,
  -- line 699: nmij,ijba,klcd,dblm,cakn
  ⟨-1/4, [g_bbbb [nₒ, mₒ, iₒ, jₒ], l2_bbbb [iₒ, jₒ, bᵥ, aᵥ], l2_abab [kₒ, lₒ, cᵥ, dᵥ], t2_bbbb [dᵥ, bᵥ, lₒ, mₒ], t2_abab [cᵥ, aᵥ, kₒ, nₒ]], [(1, [])]⟩,
  -- line 702: nmij,ijba,lkdc,dblm,cakn
  ⟨-1/4, [g_bbbb [nₒ, mₒ, iₒ, jₒ], l2_bbbb [iₒ, jₒ, bᵥ, aᵥ], l2_abab [lₒ, kₒ, dᵥ, cᵥ], t2_abab [dᵥ, bᵥ, lₒ, mₒ], t2_bbbb [cᵥ, aᵥ, kₒ, nₒ]], [(1, [])]⟩,
  -- line 705: nmij,ijba,kldc,dblm,cakn
  ⟨1/4, [g_bbbb [nₒ, mₒ, iₒ, jₒ], l2_bbbb [iₒ, jₒ, bᵥ, aᵥ], l2_bbbb [kₒ, lₒ, dᵥ, cᵥ], t2_bbbb [dᵥ, bᵥ, lₒ, mₒ], t2_bbbb [cᵥ, aᵥ, kₒ, nₒ]], [(1, [])]⟩,
  -- line 708: mdel,ijba,kldc,ecjk,baim
  ⟨1/2, [g_aaaa [mₒ, dᵥ, eᵥ, lₒ], l2_aaaa [iₒ, jₒ, bᵥ, aᵥ], l2_aaaa [kₒ, lₒ, dᵥ, cᵥ], t2_aaaa [eᵥ, cᵥ, jₒ, kₒ], t2_aaaa [bᵥ, aᵥ, iₒ, mₒ]], [(1, [])]⟩,
  -- line 711: mdel,ijba,klcd,ecjk,baim
  ⟨-1/2, [g_abab [mₒ, dᵥ, eᵥ, lₒ], l2_aaaa [iₒ, jₒ, bᵥ, aᵥ], l2_abab [kₒ, lₒ, cᵥ, dᵥ], t2_aaaa [eᵥ, cᵥ, jₒ, kₒ], t2_aaaa [bᵥ, aᵥ, iₒ, mₒ]], [(1, [])]⟩,
  -- line 714: mdel,ijba,lkdc,ecjk,baim
  ⟨-1/2, [g_aaaa [mₒ, dᵥ, eᵥ, lₒ], l2_aaaa [iₒ, jₒ, bᵥ, aᵥ], l2_abab [lₒ, kₒ, dᵥ, cᵥ], t2_abab [eᵥ, cᵥ, jₒ, kₒ], t2_aaaa [bᵥ, aᵥ, iₒ, mₒ]], [(1, [])]⟩,
  -- line 717: mdle,ijba,lkcd,cejk,baim
  ⟨1/2, [g_abab [mₒ, dᵥ, lₒ, eᵥ], l2_aaaa [iₒ, jₒ, bᵥ, aᵥ], l2_abab [lₒ, kₒ, cᵥ, dᵥ], t2_abab [cᵥ, eᵥ, jₒ, kₒ], t2_aaaa [bᵥ, aᵥ, iₒ, mₒ]], [(1, [])]⟩,
  -- line 720: mdel,ijba,kldc,ecjk,baim
  ⟨1/2, [g_abab [mₒ, dᵥ, eᵥ, lₒ], l2_aaaa [iₒ, jₒ, bᵥ, aᵥ], l2_bbbb [kₒ, lₒ, dᵥ, cᵥ], t2_abab [eᵥ, cᵥ, jₒ, kₒ], t2_aaaa [bᵥ, aᵥ, iₒ, mₒ]], [(1, [])]⟩,
  -- line 723: dmle,ijba,kldc,cekj,baim
  ⟨1/2, [g_abab [dᵥ, mₒ, lₒ, eᵥ], l2_abab [iₒ, jₒ, bᵥ, aᵥ], l2_aaaa [kₒ, lₒ, dᵥ, cᵥ], t2_abab [cᵥ, eᵥ, kₒ, jₒ], t2_abab [bᵥ, aᵥ, iₒ, mₒ]], [(1, [])]⟩,
  -- line 726: dmel,ijba,kldc,eckj,baim
  ⟨1/2, [g_abab [dᵥ, mₒ, eᵥ, lₒ], l2_abab [iₒ, jₒ, bᵥ, aᵥ], l2_abab [kₒ, lₒ, dᵥ, cᵥ], t2_abab [eᵥ, cᵥ, kₒ, jₒ], t2_abab [bᵥ, aᵥ, iₒ, mₒ]], [(1, [])]⟩,
  -- line 729: mdel,ijba,klcd,cekj,baim
  ⟨-1/2, [g_bbbb [mₒ, dᵥ, eᵥ, lₒ], l2_abab [iₒ, jₒ, bᵥ, aᵥ], l2_abab [kₒ, lₒ, cᵥ, dᵥ], t2_abab [cᵥ, eᵥ, kₒ, jₒ], t2_abab [bᵥ, aᵥ, iₒ, mₒ]], [(1, [])]⟩,
  -- line 732: dmle,ijba,lkdc,ecjk,baim
  ⟨-1/2, [g_abab [dᵥ, mₒ, lₒ, eᵥ], l2_abab [iₒ, jₒ, bᵥ, aᵥ], l2_abab [lₒ, kₒ, dᵥ, cᵥ], t2_bbbb [eᵥ, cᵥ, jₒ, kₒ], t2_abab [bᵥ, aᵥ, iₒ, mₒ]], [(1, [])]⟩,
  -- line 735: mdel,ijba,kldc,ecjk,baim
  ⟨1/2, [g_bbbb [mₒ, dᵥ, eᵥ, lₒ], l2_abab [iₒ, jₒ, bᵥ, aᵥ], l2_bbbb [kₒ, lₒ, dᵥ, cᵥ], t2_bbbb [eᵥ, cᵥ, jₒ, kₒ], t2_abab [bᵥ, aᵥ, iₒ, mₒ]], [(1, [])]⟩
  ]

/-- Part 6 of `si_energy_pertQf`. -/
def si_energy_pertQf_6 : Prog := [
  -- line 738: dmle,ijab,kldc,cekj,abim
  ⟨1/2, [g_abab [dᵥ, mₒ, lₒ, eᵥ], l2_abab [iₒ, jₒ, aᵥ, bᵥ], l2_aaaa [kₒ, lₒ, dᵥ, cᵥ], t2_abab [cᵥ, eᵥ, kₒ, jₒ], t2_abab [aᵥ, bᵥ, iₒ, mₒ]], [(1, [])]⟩,
  -- line 741: dmel,ijab,kldc,eckj,abim
  ⟨1/2, [g_abab [dᵥ, mₒ, eᵥ, lₒ], l2_abab [iₒ, jₒ, aᵥ, bᵥ], l2_abab [kₒ, lₒ, dᵥ, cᵥ], t2_abab [eᵥ, cᵥ, kₒ, jₒ], t2_abab [aᵥ, bᵥ, iₒ, mₒ]], [(1, [])]⟩,
  -- line 744: mdel,ijab,klcd,cekj,abim
  ⟨-1/2, [g_bbbb [mₒ, dᵥ, eᵥ, lₒ], l2_abab [iₒ, jₒ, aᵥ, bᵥ], l2_abab [kₒ, lₒ, cᵥ, dᵥ], t2_abab [cᵥ, eᵥ, kₒ, jₒ], t2_abab [aᵥ, bᵥ, iₒ, mₒ]], [(1, [])]⟩,
  -- line 747: dmle,ijab,lkdc,ecjk,abim
  ⟨-1/2, [g_abab [dᵥ, mₒ, lₒ, eᵥ], l2_abab [iₒ, jₒ, aᵥ, bᵥ], l2_abab [lₒ, kₒ, dᵥ, cᵥ], t2_bbbb [eᵥ, cᵥ, jₒ, kₒ], t2_abab [aᵥ, bᵥ, iₒ, mₒ]], [(1, [])]⟩,
  -- line 750: mdel,ijab,kldc,ecjk,abim
  ⟨1/2, [g_bbbb [mₒ, dᵥ, eᵥ, lₒ], l2_abab [iₒ, jₒ, aᵥ, bᵥ], l2_bbbb [kₒ, lₒ, dᵥ, cᵥ], t2_bbbb [eᵥ, cᵥ, jₒ, kₒ], t2_abab [aᵥ, bᵥ, iₒ, mₒ]], [(1, [])]⟩,
  -- line 753: mdel,jiba,kldc,ecjk,bami
  ⟨1/2, [g_aaaa [mₒ, dᵥ, eᵥ, lₒ], l2_abab [jₒ, iₒ, bᵥ, aᵥ], l2_aaaa [kₒ, lₒ, dᵥ, cᵥ], t2_aaaa [eᵥ, cᵥ, jₒ, kₒ], t2_abab [bᵥ, aᵥ, mₒ, iₒ]], [(1, [])]⟩,
  -- line 756: mdel,jiba,klcd,ecjk,bami
  ⟨-1/2, [g_abab [mₒ, dᵥ, eᵥ, lₒ], l2_abab [jₒ, iₒ, bᵥ, aᵥ], l2_abab [kₒ, lₒ, cᵥ, dᵥ], t2_aaaa [eᵥ, cᵥ, jₒ, kₒ], t2_abab [bᵥ, aᵥ, mₒ, iₒ]], [(1, [])]⟩,
  -- line 759: mdel,jiba,lkdc,ecjk,bami
  ⟨-1/2, [g_aaaa [mₒ, dᵥ, eᵥ, lₒ], l2_abab [jₒ, iₒ, bᵥ, aᵥ], l2_abab [lₒ, kₒ, dᵥ, cᵥ], t2_abab [eᵥ, cᵥ, jₒ, kₒ], t2_abab [bᵥ, aᵥ, mₒ, iₒ]], [(1, [])]⟩,
  -- line 762: mdle,jiba,lkcd,cejk,bami
  ⟨1/2, [g_abab [mₒ, dᵥ, lₒ, eᵥ], l2_abab [jₒ, iₒ, bᵥ, aᵥ], l2_abab [lₒ, kₒ, cᵥ, dᵥ], t2_abab [cᵥ, eᵥ, jₒ, kₒ], t2_abab [bᵥ, aᵥ, mₒ, iₒ]], [(1, [])]⟩,
  -- line 765: mdel,jiba,kldc,ecjk,bami
  ⟨1/2, [g_abab [mₒ, dᵥ, eᵥ, lₒ], l2_abab [jₒ, iₒ, bᵥ, aᵥ], l2_bbbb [kₒ, lₒ, dᵥ, cᵥ], t2_abab [eᵥ, cᵥ, jₒ, kₒ], t2_abab [bᵥ, aᵥ, mₒ, iₒ]], [(1, [])]⟩,
  -- line 768: mdel,jiab,kldc,ecjk,abmi
  ⟨1/2, [g_aaaa [mₒ, dᵥ, eᵥ, lₒ], l2_abab [jₒ, iₒ, aᵥ, bᵥ], l2_aaaa [kₒ, lₒ, dᵥ, cᵥ], t2_aaaa [eᵥ, cᵥ, jₒ, kₒ], t2_abab [aᵥ, bᵥ, mₒ, iₒ]], [(1, [])]⟩,
  -- line 771: mdel,jiab,klcd,ecjk,abmi
  ⟨-1/2, [g_abab [mₒ, dᵥ, eᵥ, lₒ], l2_abab [jₒ, iₒ, aᵥ, bᵥ], l2_abab [kₒ, lₒ, cᵥ, dᵥ], t2_aaaa [eᵥ, cᵥ, jₒ, kₒ], t2_abab [aᵥ, bᵥ, mₒ, iₒ]], [(1, [])]⟩,
  -- line 774: mdel,jiab,lkdc,ecjk,abmi
  ⟨-1/2, [g_aaaa [mₒ, dᵥ, eᵥ, lₒ], l2_abab [jₒ, iₒ, aᵥ, bᵥ], l2_abab [lₒ, kₒ, dᵥ, cᵥ], t2_abab [eᵥ, cᵥ, jₒ, kₒ], t2_abab [aᵥ, bᵥ, mₒ, iₒ]], [(1, [])]⟩,
  -- line 777: mdle,jiab,lkcd,cejk,abmi
  ⟨1/2, [g_abab [mₒ, dᵥ, lₒ, eᵥ], l2_abab [jₒ, iₒ, aᵥ, bᵥ], l2_abab [lₒ, kₒ, cᵥ, dᵥ], t2_abab [cᵥ, eᵥ, jₒ, kₒ], t2_abab [aᵥ, bᵥ, mₒ, iₒ]], [(1, [])]⟩,
  -- line 780: mdel,jiab,kldc,ecjk,abmi
  ⟨1/2, [g_abab [mₒ, dᵥ, eᵥ, lₒ], l2_abab [jₒ, iₒ, aᵥ, bᵥ], l2_bbbb [kₒ, lₒ, dᵥ, cᵥ], t2_abab [eᵥ, cᵥ, jₒ, kₒ], t2_abab [aᵥ, bᵥ, mₒ, iₒ]], [(1, [])]⟩,
  -- line 783: dmle,ijba,kldc,cekj,baim
  ⟨1/2, [g_abab [dᵥ, mₒ, lₒ, eᵥ], l2_bbbb [iₒ, jₒ, bᵥ, aᵥ], l2_aaaa [kₒ, lₒ, dᵥ, cᵥ], t2_abab [cᵥ, eᵥ, kₒ, jₒ], t2_bbbb [bᵥ, aᵥ, iₒ, mₒ]], [(1, [])]⟩,
  -- line 786: dmel,ijba,kldc,eckj,baim
  ⟨1/2, [g_abab [dᵥ, mₒ, eᵥ, lₒ], l2_bbbb [iₒ, jₒ, bᵥ, aᵥ], l2_abab [kₒ, lₒ, dᵥ, cᵥ], t2_abab [eᵥ, cᵥ, kₒ, jₒ], t2_bbbb [bᵥ, aᵥ, iₒ, mₒ]], [(1, [])]⟩,
  -- line 789: mdel,ijba,klcd,cekj,baim
  ⟨-1/2, [g_bbbb [mₒ, dᵥ, eᵥ, lₒ], l2_bbbb [iₒ, jₒ, bᵥ, aᵥ], l2_abab [kₒ, lₒ, cᵥ, dᵥ], t2_abab [cᵥ, eᵥ, kₒ, jₒ], t2_bbbb [bᵥ, aᵥ, iₒ, mₒ]], [(1, [])]⟩,
  -- line 792: dmle,ijba,lkdc,ecjk,baim
  ⟨-1/2, [g_abab [dᵥ, mₒ, lₒ, eᵥ], l2_bbbb [iₒ, jₒ, bᵥ, aᵥ], l2_abab [lₒ, kₒ, dᵥ, cᵥ], t2_bbbb [eᵥ, cᵥ, jₒ, kₒ], t2_bbbb [bᵥ, aᵥ, iₒ, mₒ]], [(1, [])]⟩,
  -- line 795: mdel,ijba,kldc,ecjk,baim
  ⟨1/2, [g_bbbb [mₒ, dᵥ, eᵥ, lₒ], l2_bbbb [iₒ, jₒ, bᵥ, aᵥ], l2_bbbb [kₒ, lₒ, dᵥ, cᵥ], t2_bbbb [eᵥ, cᵥ, jₒ, kₒ], t2_bbbb [bᵥ, aᵥ, iₒ, mₒ]], [(1, [])]⟩,
  -- line 798: mdel,ijba,kldc,ecij,bakm
  ⟨1/4, [g_aaaa [mₒ, dᵥ, eᵥ, lₒ], l2_aaaa [iₒ, jₒ, bᵥ, aᵥ], l2_aaaa [kₒ, lₒ, dᵥ, cᵥ], t2_aaaa [eᵥ, cᵥ, iₒ, jₒ], t2_aaaa [bᵥ, aᵥ, kₒ, mₒ]], [(1, [])]⟩,
  -- line 801: mdel,ijba,klcd,ecij,bakm
  ⟨-1/4, [g_abab [mₒ, dᵥ, eᵥ, lₒ], l2_aaaa [iₒ, jₒ, bᵥ, aᵥ], l2_abab [kₒ, lₒ, cᵥ, dᵥ], t2_aaaa [eᵥ, cᵥ, iₒ, jₒ], t2_aaaa [bᵥ, aᵥ, kₒ, mₒ]], [(1, [])]⟩,
  -- line 804: dmle,ijba,kldc,ceij,bakm
  ⟨-1/4, [g_abab [dᵥ, mₒ, lₒ, eᵥ], l2_abab [iₒ, jₒ, bᵥ, aᵥ], l2_aaaa [kₒ, lₒ, dᵥ, cᵥ], t2_abab [cᵥ, eᵥ, iₒ, jₒ], t2_abab [bᵥ, aᵥ, kₒ, mₒ]], [(1, [])]⟩,
  -- line 807: dmel,ijba,kldc,ecij,bakm
  ⟨-1/4, [g_abab [dᵥ, mₒ, eᵥ, lₒ], l2_abab [iₒ, jₒ, bᵥ, aᵥ], l2_abab [kₒ, lₒ, dᵥ, cᵥ], t2_abab [eᵥ, cᵥ, iₒ, jₒ], t2_abab [bᵥ, aᵥ, kₒ, mₒ]], [(1, [])]⟩,
  -- line 810: mdel,ijba,klcd,ceij,bakm
  ⟨1/4, [g_bbbb [mₒ, dᵥ, eᵥ, lₒ], l2_abab [iₒ, jₒ, bᵥ, aᵥ], l2_abab [kₒ, lₒ, cᵥ, dᵥ], t2_abab [cᵥ, eᵥ, iₒ, jₒ], t2_abab [bᵥ, aᵥ, kₒ, mₒ]], [(1, [])]⟩,
  -- line 813: mdel,ijba,lkdc,ecij,bamk
  ⟨1/4, [g_aaaa [mₒ, dᵥ, eᵥ, lₒ], l2_abab [iₒ, jₒ, bᵥ, aᵥ], l2_abab [lₒ, kₒ, dᵥ, cᵥ], t2_abab [eᵥ, cᵥ, iₒ, jₒ], t2_abab [bᵥ, aᵥ, mₒ, kₒ]], [(1, [])]⟩,
  -- line 816: mdle,ijba,lkcd,ceij,bamk
  ⟨-1/4, [g_abab [mₒ, dᵥ, lₒ, eᵥ], l2_abab [iₒ, jₒ, bᵥ, aᵥ], l2_abab [lₒ, kₒ, cᵥ, dᵥ], t2_abab [cᵥ, eᵥ, iₒ, jₒ], t2_abab [bᵥ, aᵥ, mₒ, kₒ]], [(1, [])]⟩,
  -- line 819: mdel,ijba,kldc,ecij,bamk
  ⟨-1/4, [g_abab [mₒ, dᵥ, eᵥ, lₒ], l2_abab [iₒ, jₒ, bᵥ, aᵥ], l2_bbbb [kₒ, lₒ, dᵥ, cᵥ], t2_abab [eᵥ, cᵥ, iₒ, jₒ], t2_abab [bᵥ, aᵥ, mₒ, kₒ]], [(1, [])]⟩,
  -- line 822: dmle,ijab,kldc,ceij,abkm
  ⟨-1/4, [g_abab [dᵥ, mₒ, lₒ, eᵥ], l2_abab [iₒ, jₒ, aᵥ, bᵥ], l2_aaaa [kₒ, lₒ, dᵥ, cᵥ], t2_abab [cᵥ, eᵥ, iₒ, jₒ], t2_abab [aᵥ, bᵥ, kₒ, mₒ]], [(1, [])]⟩,
  -- line 825: dmel,ijab,kldc,ecij,abkm
  ⟨-1/4, [g_abab [dᵥ, mₒ, eᵥ, lₒ], l2_abab [iₒ, jₒ, aᵥ, bᵥ], l2_abab [kₒ, lₒ, dᵥ, cᵥ], t2_abab [eᵥ, cᵥ, iₒ, jₒ], t2_abab [aᵥ, bᵥ, kₒ, mₒ]], [(1, [])]⟩,
  -- line 828: mdel,ijab,klcd,ceij,abkm
  ⟨1/4, [g_bbbb [mₒ, dᵥ, eᵥ, lₒ], l2_abab [iₒ, jₒ, aᵥ, bᵥ], l2_abab [kₒ, lₒ, cᵥ, dᵥ], t2_abab [cᵥ, eᵥ, iₒ, jₒ], t2_abab [aᵥ, bᵥ, kₒ, mₒ]], [(1, [])]⟩,
  -- line 831: mdel,ijab,lkdc,ecij,abmk
  ⟨1/4, [g_aaaa [mₒ, dᵥ, eᵥ, lₒ], l2_abab [iₒ, jₒ, aᵥ, bᵥ], l2_abab [lₒ, kₒ, dᵥ, cᵥ], t2_abab [eᵥ, cᵥ, iₒ, jₒ], t2_abab [aᵥ, bᵥ, mₒ, kₒ]], [(1, [])]⟩,
  -- line 834: mdle,ijab,lkcd,ceij,abmk
  ⟨-1/4, [g_abab [mₒ, dᵥ, lₒ, eᵥ], l2_abab [iₒ, jₒ, aᵥ, bᵥ], l2_abab [lₒ, kₒ, cᵥ, dᵥ], t2_abab [cᵥ, eᵥ, iₒ, jₒ], t2_abab [aᵥ, bᵥ, mₒ, kₒ]], [(1, [])]⟩,
  -- line 837: mdel,ijab,kldc,ecij,abmk
  ⟨-1/4, [g_abab [mₒ, dᵥ, eᵥ, lₒ], l2_abab [iₒ, jₒ, aᵥ, bᵥ], l2_bbbb [kₒ, lₒ, dᵥ, cᵥ], t2_abab [eᵥ, cᵥ, iₒ, jₒ], t2_abab [aᵥ, bᵥ, mₒ, kₒ]], [(1, [])]⟩,
  -- line 840: dmle,jiba,kldc,ceji,bakm
  ⟨-1/4, [g_abab [dᵥ, mₒ, lₒ, eᵥ], l2_abab [jₒ, iₒ, bᵥ, aᵥ], l2_aaaa [kₒ, lₒ, dᵥ, cᵥ], t2_abab [cᵥ, eᵥ, jₒ, iₒ], t2_abab [bᵥ, aᵥ, kₒ, mₒ]], [(1, [])]⟩,
  -- line 843: dmel,jiba,kldc,ecji,bakm
  ⟨-1/4, [g_abab [dᵥ, mₒ, eᵥ, lₒ], l2_abab [jₒ, iₒ, bᵥ, aᵥ], l2_abab [kₒ, lₒ, dᵥ, cᵥ], t2_abab [eᵥ, cᵥ, jₒ, iₒ], t2_abab [bᵥ, aᵥ, kₒ, mₒ]], [(1, [])]⟩,
  -- line 846: mdel,jiba,klcd,ceji,bakm
  ⟨1/4, [g_bbbb [mₒ, dᵥ, eᵥ, lₒ], l2_abab [jₒ, iₒ, bᵥ, aᵥ], l2_abab [kₒ, lₒ, cᵥ, dᵥ], t2_abab [cᵥ, eᵥ, jₒ, iₒ], t2_abab [bᵥ, aᵥ, kₒ, mₒ]], [(1, [])]⟩,
  -- line 849: mdel,jiba,lkdc,ecji,bamk
  ⟨1/4, [g_aaaa [mₒ, dᵥ, eᵥ, lₒ], l2_abab [jₒ, iₒ, bᵥ, aᵥ], l2_abab [lₒ, kₒ, dᵥ, cᵥ], t2_abab [eᵥ, cᵥ, jₒ, iₒ], t2_abab [bᵥ, aᵥ, mₒ, kₒ]], [(1, [])]⟩,
  -- line 852: mdle,jiba,lkcd,ceji,bamk
  ⟨-1/4, [g_abab [mₒ, dᵥ, lₒ, eᵥ], l2_abab [jₒ, iₒ, bᵥ, aᵥ], l2_abab [lₒ, kₒ, cᵥ, dᵥ], t2_abab [cᵥ, eᵥ, jₒ, iₒ], t2_abab [bᵥ, aᵥ, mₒ, kₒ]], [(1, [])]⟩,
  -- line 855: mdel,jiba,kldc,ecji,bamk
  ⟨-1/4, [g_abab [mₒ, dᵥ, eᵥ, lₒ], l2_abab [jₒ, iₒ, bᵥ, aᵥ], l2_bbbb [kₒ, lₒ, dᵥ, cᵥ], t2_abab [eᵥ, cᵥ, jₒ, iₒ], t2_abab [bᵥ, aᵥ, mₒ, kₒ]], [(1, [])]⟩
  ]

/-- Part 7 of `si_energy_pertQf`. -/
def si_energy_pertQf_7 : Prog := [
  -- line 858: dmle,jiab,kldc,ceji,abkm
  ⟨-1/4, [g_abab [dᵥ, mₒ, lₒ, eᵥ], l2_abab [jₒ, iₒ, aᵥ, bᵥ], l2_aaaa [kₒ, lₒ, dᵥ, cᵥ], t2_abab [cᵥ, eᵥ, jₒ, iₒ], t2_abab [aᵥ, bᵥ, kₒ, mₒ]], [(1, [])]⟩,
  -- line 861: dmel,jiab,kldc,ecji,abkm
  ⟨-1/4, [g_abab [dᵥ, mₒ, eᵥ, lₒ], l2_abab [jₒ, iₒ, aᵥ, bᵥ], l2_abab [kₒ, lₒ, dᵥ, cᵥ], t2_abab [eᵥ, cᵥ, jₒ, iₒ], t2_abab [aᵥ, bᵥ, kₒ, mₒ]], [(1, [])]⟩,
  -- line 864: mdel,jiab,klcd,ceji,abkm
  ⟨1/4, [g_bbbb [mₒ, dᵥ, eᵥ, lₒ], l2_abab [jₒ, iₒ, aᵥ, bᵥ], l2_abab [kₒ, lₒ, cᵥ, dᵥ], t2_abab [cᵥ, eᵥ, jₒ, iₒ], t2_abab [aᵥ, bᵥ, kₒ, mₒ]], [(1, [])]⟩,
  -- line 867: mdel,jiab,lkdc,ecji,abmk
  ⟨1/4, [g_aaaa [mₒ, dᵥ, eᵥ, lₒ], l2_abab [jₒ, iₒ, aᵥ, bᵥ], l2_abab [lₒ, kₒ, dᵥ, cᵥ], t2_abab [eᵥ, cᵥ, jₒ, iₒ], t2_abab [aᵥ, bᵥ, mₒ, kₒ]], [(1, [])]⟩,
  -- line 870: mdle,jiab,lkcd,ceji,abmk
  ⟨-1/4, [g_abab [mₒ, dᵥ, lₒ, eᵥ], l2_abab [jₒ, iₒ, aᵥ, bᵥ], l2_abab [lₒ, kₒ, cᵥ, dᵥ], t2_abab [cᵥ, eᵥ, jₒ, iₒ], t2_abab [aᵥ, bᵥ, mₒ, kₒ]], [(1, [])]⟩,
  -- line 873: mdel,jiab,kldc,ecji,abmk
  ⟨-1/4, [g_abab [mₒ, dᵥ, eᵥ, lₒ], l2_abab [jₒ, iₒ, aᵥ, bᵥ], l2_bbbb [kₒ, lₒ, dᵥ, cᵥ], t2_abab [eᵥ, cᵥ, jₒ, iₒ], t2_abab [aᵥ, bᵥ, mₒ, kₒ]], [(1, [])]⟩,
  -- line 876: dmle,ijba,lkdc,ecij,bakm
  ⟨-1/4, [g_abab [dᵥ, mₒ, lₒ, eᵥ], l2_bbbb [iₒ, jₒ, bᵥ, aᵥ], l2_abab [lₒ, kₒ, dᵥ, cᵥ], t2_bbbb [eᵥ, cᵥ, iₒ, jₒ], t2_bbbb [bᵥ, aᵥ, kₒ, mₒ]], [(1, [])]⟩,
  -- line 879: mdel,ijba,kldc,ecij,bakm
  ⟨1/4, [g_bbbb [mₒ, dᵥ, eᵥ, lₒ], l2_bbbb [iₒ, jₒ, bᵥ, aᵥ], l2_bbbb [kₒ, lₒ, dᵥ, cᵥ], t2_bbbb [eᵥ, cᵥ, iₒ, jₒ], t2_bbbb [bᵥ, aᵥ, kₒ, mₒ]], [(1, [])]⟩,
  -- line 882: mdel,ijba,kldc,ebjk,caim
  ⟨-1, [g_aaaa [mₒ, dᵥ, eᵥ, lₒ], l2_aaaa [iₒ, jₒ, bᵥ, aᵥ], l2_aaaa [kₒ, lₒ, dᵥ, cᵥ], t2_aaaa [eᵥ, bᵥ, jₒ, kₒ], t2_aaaa [cᵥ, aᵥ, iₒ, mₒ]], [(1, [])]⟩,
  -- line 885: dmel,ijba,kldc,ebjk,acim
  ⟨-1, [g_abab [dᵥ, mₒ, eᵥ, lₒ], l2_aaaa [iₒ, jₒ, bᵥ, aᵥ], l2_abab [kₒ, lₒ, dᵥ, cᵥ], t2_aaaa [eᵥ, bᵥ, jₒ, kₒ], t2_abab [aᵥ, cᵥ, iₒ, mₒ]], [(1, [])]⟩,
  -- line 888: mdel,ijba,klcd,ebjk,caim
  ⟨1, [g_abab [mₒ, dᵥ, eᵥ, lₒ], l2_aaaa [iₒ, jₒ, bᵥ, aᵥ], l2_abab [kₒ, lₒ, cᵥ, dᵥ], t2_aaaa [eᵥ, bᵥ, jₒ, kₒ], t2_aaaa [cᵥ, aᵥ, iₒ, mₒ]], [(1, [])]⟩,
  -- line 891: dmle,ijba,lkdc,bejk,acim
  ⟨1, [g_abab [dᵥ, mₒ, lₒ, eᵥ], l2_aaaa [iₒ, jₒ, bᵥ, aᵥ], l2_abab [lₒ, kₒ, dᵥ, cᵥ], t2_abab [bᵥ, eᵥ, jₒ, kₒ], t2_abab [aᵥ, cᵥ, iₒ, mₒ]], [(1, [])]⟩,
  -- line 894: mdle,ijba,lkcd,bejk,caim
  ⟨-1, [g_abab [mₒ, dᵥ, lₒ, eᵥ], l2_aaaa [iₒ, jₒ, bᵥ, aᵥ], l2_abab [lₒ, kₒ, cᵥ, dᵥ], t2_abab [bᵥ, eᵥ, jₒ, kₒ], t2_aaaa [cᵥ, aᵥ, iₒ, mₒ]], [(1, [])]⟩,
  -- line 897: mdel,ijba,kldc,bejk,acim
  ⟨-1, [g_bbbb [mₒ, dᵥ, eᵥ, lₒ], l2_aaaa [iₒ, jₒ, bᵥ, aᵥ], l2_bbbb [kₒ, lₒ, dᵥ, cᵥ], t2_abab [bᵥ, eᵥ, jₒ, kₒ], t2_abab [aᵥ, cᵥ, iₒ, mₒ]], [(1, [])]⟩,
  -- line 900: dmle,ijba,kldc,bekj,caim
  ⟨-1, [g_abab [dᵥ, mₒ, lₒ, eᵥ], l2_abab [iₒ, jₒ, bᵥ, aᵥ], l2_aaaa [kₒ, lₒ, dᵥ, cᵥ], t2_abab [bᵥ, eᵥ, kₒ, jₒ], t2_abab [cᵥ, aᵥ, iₒ, mₒ]], [(1, [])]⟩,
  -- line 903: mdel,ijba,klcd,bekj,caim
  ⟨1, [g_bbbb [mₒ, dᵥ, eᵥ, lₒ], l2_abab [iₒ, jₒ, bᵥ, aᵥ], l2_abab [kₒ, lₒ, cᵥ, dᵥ], t2_abab [bᵥ, eᵥ, kₒ, jₒ], t2_abab [cᵥ, aᵥ, iₒ, mₒ]], [(1, [])]⟩,
  -- line 906: mdel,ijab,kldc,ebkj,caim
  ⟨-1, [g_aaaa [mₒ, dᵥ, eᵥ, lₒ], l2_abab [iₒ, jₒ, aᵥ, bᵥ], l2_aaaa [kₒ, lₒ, dᵥ, cᵥ], t2_abab [eᵥ, bᵥ, kₒ, jₒ], t2_aaaa [cᵥ, aᵥ, iₒ, mₒ]], [(1, [])]⟩,
  -- line 909: dmel,ijab,kldc,ebkj,acim
  ⟨-1, [g_abab [dᵥ, mₒ, eᵥ, lₒ], l2_abab [iₒ, jₒ, aᵥ, bᵥ], l2_abab [kₒ, lₒ, dᵥ, cᵥ], t2_abab [eᵥ, bᵥ, kₒ, jₒ], t2_abab [aᵥ, cᵥ, iₒ, mₒ]], [(1, [])]⟩,
  -- line 912: mdel,ijab,klcd,ebkj,caim
  ⟨1, [g_abab [mₒ, dᵥ, eᵥ, lₒ], l2_abab [iₒ, jₒ, aᵥ, bᵥ], l2_abab [kₒ, lₒ, cᵥ, dᵥ], t2_abab [eᵥ, bᵥ, kₒ, jₒ], t2_aaaa [cᵥ, aᵥ, iₒ, mₒ]], [(1, [])]⟩,
  -- line 915: dmle,ijab,lkdc,ebjk,acim
  ⟨1, [g_abab [dᵥ, mₒ, lₒ, eᵥ], l2_abab [iₒ, jₒ, aᵥ, bᵥ], l2_abab [lₒ, kₒ, dᵥ, cᵥ], t2_bbbb [eᵥ, bᵥ, jₒ, kₒ], t2_abab [aᵥ, cᵥ, iₒ, mₒ]], [(1, [])]⟩,
  -- line 918: mdle,ijab,lkcd,ebjk,caim
  ⟨-1, [g_abab [mₒ, dᵥ, lₒ, eᵥ], l2_abab [iₒ, jₒ, aᵥ, bᵥ], l2_abab [lₒ, kₒ, cᵥ, dᵥ], t2_bbbb [eᵥ, bᵥ, jₒ, kₒ], t2_aaaa [cᵥ, aᵥ, iₒ, mₒ]], [(1, [])]⟩,
  -- line 921: mdel,ijab,kldc,ebjk,acim
  ⟨-1, [g_bbbb [mₒ, dᵥ, eᵥ, lₒ], l2_abab [iₒ, jₒ, aᵥ, bᵥ], l2_bbbb [kₒ, lₒ, dᵥ, cᵥ], t2_bbbb [eᵥ, bᵥ, jₒ, kₒ], t2_abab [aᵥ, cᵥ, iₒ, mₒ]], [(1, [])]⟩,
  -- line 924: mdel,jiba,kldc,ebjk,cami
  ⟨-1, [g_aaaa [mₒ, dᵥ, eᵥ, lₒ], l2_abab [jₒ, iₒ, bᵥ, aᵥ], l2_aaaa [kₒ, lₒ, dᵥ, cᵥ], t2_aaaa [eᵥ, bᵥ, jₒ, kₒ], t2_abab [cᵥ, aᵥ, mₒ, iₒ]], [(1, [])]⟩,
  -- line 927: dmel,jiba,kldc,ebjk,caim
  ⟨-1, [g_abab [dᵥ, mₒ, eᵥ, lₒ], l2_abab [jₒ, iₒ, bᵥ, aᵥ], l2_abab [kₒ, lₒ, dᵥ, cᵥ], t2_aaaa [eᵥ, bᵥ, jₒ, kₒ], t2_bbbb [cᵥ, aᵥ, iₒ, mₒ]], [(1, [])]⟩,
  -- line 930: mdel,jiba,klcd,ebjk,cami
  ⟨1, [g_abab [mₒ, dᵥ, eᵥ, lₒ], l2_abab [jₒ, iₒ, bᵥ, aᵥ], l2_abab [kₒ, lₒ, cᵥ, dᵥ], t2_aaaa [eᵥ, bᵥ, jₒ, kₒ], t2_abab [cᵥ, aᵥ, mₒ, iₒ]], [(1, [])]⟩,
  -- line 933: dmle,jiba,lkdc,bejk,caim
  ⟨1, [g_abab [dᵥ, mₒ, lₒ, eᵥ], l2_abab [jₒ, iₒ, bᵥ, aᵥ], l2_abab [lₒ, kₒ, dᵥ, cᵥ], t2_abab [bᵥ, eᵥ, jₒ, kₒ], t2_bbbb [cᵥ, aᵥ, iₒ, mₒ]], [(1, [])]⟩,
  -- line 936: mdle,jiba,lkcd,bejk,cami
  ⟨-1, [g_abab [mₒ, dᵥ, lₒ, eᵥ], l2_abab [jₒ, iₒ, bᵥ, aᵥ], l2_abab [lₒ, kₒ, cᵥ, dᵥ], t2_abab [bᵥ, eᵥ, jₒ, kₒ], t2_abab [cᵥ, aᵥ, mₒ, iₒ]], [(1, [])]⟩,
  -- line 939: mdel,jiba,kldc,bejk,caim
  ⟨-1, [g_bbbb [mₒ, dᵥ, eᵥ, lₒ], l2_abab [jₒ, iₒ, bᵥ, aᵥ], l2_bbbb [kₒ, lₒ, dᵥ, cᵥ], t2_abab [bᵥ, eᵥ, jₒ, kₒ], t2_bbbb [cᵥ, aᵥ, iₒ, mₒ]], [(1, [])]⟩,
  -- line 942: mdel,jiab,lkdc,ebjk,acmi
  ⟨1, [g_aaaa [mₒ, dᵥ, eᵥ, lₒ], l2_abab [jₒ, iₒ, aᵥ, bᵥ], l2_abab [lₒ, kₒ, dᵥ, cᵥ], t2_abab [eᵥ, bᵥ, jₒ, kₒ], t2_abab [aᵥ, cᵥ, mₒ, iₒ]], [(1, [])]⟩,
  -- line 945: mdel,jiab,kldc,ebjk,acmi
  ⟨-1, [g_abab [mₒ, dᵥ, eᵥ, lₒ], l2_abab [jₒ, iₒ, aᵥ, bᵥ], l2_bbbb [kₒ, lₒ, dᵥ, cᵥ], t2_abab [eᵥ, bᵥ, jₒ, kₒ], t2_abab [aᵥ, cᵥ, mₒ, iₒ]], [(1, [])]⟩,
  -- line 948: mdel,ijba,kldc,ebkj,cami
  ⟨-1, [g_aaaa [mₒ, dᵥ, eᵥ, lₒ], l2_bbbb [iₒ, jₒ, bᵥ, aᵥ], l2_aaaa [kₒ, lₒ, dᵥ, cᵥ], t2_abab [eᵥ, bᵥ, kₒ, jₒ], t2_abab [cᵥ, aᵥ, mₒ, iₒ]], [(1, [])]⟩,
  -- line 951: dmel,ijba,kldc,ebkj,caim
  ⟨-1, [g_abab [dᵥ, mₒ, eᵥ, lₒ], l2_bbbb [iₒ, jₒ, bᵥ, aᵥ], l2_abab [kₒ, lₒ, dᵥ, cᵥ], t2_abab [eᵥ, bᵥ, kₒ, jₒ], t2_bbbb [cᵥ, aᵥ, iₒ, mₒ]], [(1, [])]⟩,
  -- line 954: mdel,ijba,klcd,ebkj,cami
  ⟨1, [g_abab [mₒ, dᵥ, eᵥ, lₒ], l2_bbbb [iₒ, jₒ, bᵥ, aᵥ], l2_abab [kₒ, lₒ, cᵥ, dᵥ], t2_abab [eᵥ, bᵥ, kₒ, jₒ], t2_abab [cᵥ, aᵥ, mₒ, iₒ]], [(1, [])]⟩,
  -- line 957: dmle,ijba,lkdc,ebjk,caim
  ⟨1, [g_abab [dᵥ, mₒ, lₒ, eᵥ], l2_bbbb [iₒ, jₒ, bᵥ, aᵥ], l2_abab [lₒ, kₒ, dᵥ, cᵥ], t2_bbbb [eᵥ, bᵥ, jₒ, kₒ], t2_bbbb [cᵥ, aᵥ, iₒ, mₒ]], [(1, [])]⟩,
  -- line 960: mdle,ijba,lkcd,ebjk,cami
  ⟨-1, [g_abab [mₒ, dᵥ, lₒ, eᵥ], l2_bbbb [iₒ, jₒ, bᵥ, aᵥ], l2_abab [lₒ, kₒ, cᵥ, dᵥ], t2_bbbb [eᵥ, bᵥ, jₒ, kₒ], t2_abab [cᵥ, aᵥ, mₒ, iₒ]], [(1, [])]⟩,
  -- line 963: mdel,ijba,kldc,ebjk,caim
  ⟨-1, [g_bbbb [mₒ, dᵥ, eᵥ, lₒ], l2_bbbb [iₒ, jₒ, bᵥ, aᵥ], l2_bbbb [kₒ, lₒ, dᵥ, cᵥ], t2_bbbb [eᵥ, bᵥ, jₒ, kₒ], t2_bbbb [cᵥ, aᵥ, iₒ, mₒ]], [(1, [])]⟩,
  -- line 966: mdel,ijba,kldc,ebij,cakm
  ⟨-1/2, [g_aaaa [mₒ, dᵥ, eᵥ, lₒ], l2_aaaa [iₒ, jₒ, bᵥ, aᵥ], l2_aaaa [kₒ, lₒ, dᵥ, cᵥ], t2_aaaa [eᵥ, bᵥ, iₒ, jₒ], t2_aaaa [cᵥ, aᵥ, kₒ, mₒ]], [(1, [])]⟩,
  -- line 969: dmel,ijba,kldc,ebij,ackm
  ⟨-1/2, [g_abab [dᵥ, mₒ, eᵥ, lₒ], l2_aaaa [iₒ, jₒ, bᵥ, aᵥ], l2_abab [kₒ, lₒ, dᵥ, cᵥ], t2_aaaa [eᵥ, bᵥ, iₒ, jₒ], t2_abab [aᵥ, cᵥ, kₒ, mₒ]], [(1, [])]⟩,
  -- line 972: mdel,ijba,klcd,ebij,cakm
  ⟨1/2, [g_abab [mₒ, dᵥ, eᵥ, lₒ], l2_aaaa [iₒ, jₒ, bᵥ, aᵥ], l2_abab [kₒ, lₒ, cᵥ, dᵥ], t2_aaaa [eᵥ, bᵥ, iₒ, jₒ], t2_aaaa [cᵥ, aᵥ, kₒ, mₒ]], [(1, [])]⟩,
  -- line 975: mdel,ijba,lkdc,ebij,acmk
  ⟨1/2, [g_aaaa [mₒ, dᵥ, eᵥ, lₒ], l2_aaaa [iₒ, jₒ, bᵥ, aᵥ], l2_abab [lₒ, kₒ, dᵥ, cᵥ], t2_aaaa [eᵥ, bᵥ, iₒ, jₒ], t2_abab [aᵥ, cᵥ, mₒ, kₒ]], [(1, [])]⟩
  ]

/-- Part 8 of `si_energy_pertQf`. -/
def si_energy_pertQf_8 : Prog := [
  -- line 978: mdel,ijba,kldc,ebij,acmk
  ⟨-1/2, [g_abab [mₒ, dᵥ, eᵥ, lₒ], l2_aaaa [iₒ, jₒ, bᵥ, aᵥ], l2_bbbb [kₒ, lₒ, dᵥ, cᵥ], t2_aaaa [eᵥ, bᵥ, iₒ, jₒ], t2_abab [aᵥ, cᵥ, mₒ, kₒ]], [(1, [])]⟩,
  -- line 981: dmle,ijba,kldc,beij,cakm
  ⟨1/2, [g_abab [dᵥ, mₒ, lₒ, eᵥ], l2_abab [iₒ, jₒ, bᵥ, aᵥ], l2_aaaa [kₒ, lₒ, dᵥ, cᵥ], t2_abab [bᵥ, eᵥ, iₒ, jₒ], t2_abab [cᵥ, aᵥ, kₒ, mₒ]], [(1, [])]⟩,
  -- line 984: mdel,ijba,klcd,beij,cakm
  ⟨-1/2, [g_bbbb [mₒ, dᵥ, eᵥ, lₒ], l2_abab [iₒ, jₒ, bᵥ, aᵥ], l2_abab [kₒ, lₒ, cᵥ, dᵥ], t2_abab [bᵥ, eᵥ, iₒ, jₒ], t2_abab [cᵥ, aᵥ, kₒ, mₒ]], [(1, [])]⟩,
  -- line 987: dmle,ijba,lkdc,beij,cakm
  ⟨-1/2, [g_abab [dᵥ, mₒ, lₒ, eᵥ], l2_abab [iₒ, jₒ, bᵥ, aᵥ], l2_abab [lₒ, kₒ, dᵥ, cᵥ], t2_abab [bᵥ, eᵥ, iₒ, jₒ], t2_bbbb [cᵥ, aᵥ, kₒ, mₒ]], [(1, [])]⟩,
  -- line 990: mdle,ijba,lkcd,beij,camk
  ⟨1/2, [g_abab [mₒ, dᵥ, lₒ, eᵥ], l2_abab [iₒ, jₒ, bᵥ, aᵥ], l2_abab [lₒ, kₒ, cᵥ, dᵥ], t2_abab [bᵥ, eᵥ, iₒ, jₒ], t2_abab [cᵥ, aᵥ, mₒ, kₒ]], [(1, [])]⟩,
  -- line 993: mdel,ijba,kldc,beij,cakm
  ⟨1/2, [g_bbbb [mₒ, dᵥ, eᵥ, lₒ], l2_abab [iₒ, jₒ, bᵥ, aᵥ], l2_bbbb [kₒ, lₒ, dᵥ, cᵥ], t2_abab [bᵥ, eᵥ, iₒ, jₒ], t2_bbbb [cᵥ, aᵥ, kₒ, mₒ]], [(1, [])]⟩,
  -- line 996: mdel,ijab,kldc,ebij,cakm
  ⟨1/2, [g_aaaa [mₒ, dᵥ, eᵥ, lₒ], l2_abab [iₒ, jₒ, aᵥ, bᵥ], l2_aaaa [kₒ, lₒ, dᵥ, cᵥ], t2_abab [eᵥ, bᵥ, iₒ, jₒ], t2_aaaa [cᵥ, aᵥ, kₒ, mₒ]], [(1, [])]⟩,
  -- line 999: dmel,ijab,kldc,ebij,ackm
  ⟨1/2, [g_abab [dᵥ, mₒ, eᵥ, lₒ], l2_abab [iₒ, jₒ, aᵥ, bᵥ], l2_abab [kₒ, lₒ, dᵥ, cᵥ], t2_abab [eᵥ, bᵥ, iₒ, jₒ], t2_abab [aᵥ, cᵥ, kₒ, mₒ]], [(1, [])]⟩,
  -- line 1002: mdel,ijab,klcd,ebij,cakm
  ⟨-1/2, [g_abab [mₒ, dᵥ, eᵥ, lₒ], l2_abab [iₒ, jₒ, aᵥ, bᵥ], l2_abab [kₒ, lₒ, cᵥ, dᵥ], t2_abab [eᵥ, bᵥ, iₒ, jₒ], t2_aaaa [cᵥ, aᵥ, kₒ, mₒ]], [(1, [])]⟩,
  -- line 1005: mdel,ijab,lkdc,ebij,acmk
  ⟨-1/2, [g_aaaa [mₒ, dᵥ, eᵥ, lₒ], l2_abab [iₒ, jₒ, aᵥ, bᵥ], l2_abab [lₒ, kₒ, dᵥ, cᵥ], t2_abab [eᵥ, bᵥ, iₒ, jₒ], t2_abab [aᵥ, cᵥ, mₒ, kₒ]], [(1, [])]⟩,
  -- line 1008: mdel,ijab,kldc,ebij,acmk
  ⟨1/2, [g_abab [mₒ, dᵥ, eᵥ, lₒ], l2_abab [iₒ, jₒ, aᵥ, bᵥ], l2_bbbb [kₒ, lₒ, dᵥ, cᵥ], t2_abab [eᵥ, bᵥ, iₒ, jₒ], t2_abab [aᵥ, cᵥ, mₒ, kₒ]], [(1, [])]⟩,
  -- line 1011: dmle,jiba,kldc,beji,cakm
  ⟨1/2, [g_abab [dᵥ, mₒ, lₒ, eᵥ], l2_abab [jₒ, iₒ, bᵥ, aᵥ], l2_aaaa [kₒ, lₒ, dᵥ, cᵥ], t2_abab [bᵥ, eᵥ, jₒ, iₒ], t2_abab [cᵥ, aᵥ, kₒ, mₒ]], [(1, [])]⟩,
  -- line 1014: mdel,jiba,klcd,beji,cakm
  ⟨-1/2, [g_bbbb [mₒ, dᵥ, eᵥ, lₒ], l2_abab [jₒ, iₒ, bᵥ, aᵥ], l2_abab [kₒ, lₒ, cᵥ, dᵥ], t2_abab [bᵥ, eᵥ, jₒ, iₒ], t2_abab [cᵥ, aᵥ, kₒ, mₒ]], [(1, [])]⟩,
  -- line 1017: dmle,jiba,lkdc,beji,cakm
  ⟨-1/2, [g_abab [dᵥ, mₒ, lₒ, eᵥ], l2_abab [jₒ, iₒ, bᵥ, aᵥ], l2_abab [lₒ, kₒ, dᵥ, cᵥ], t2_abab [bᵥ, eᵥ, jₒ, iₒ], t2_bbbb [cᵥ, aᵥ, kₒ, mₒ]], [(1, [])]⟩,
  -- line 1020: mdle,jiba,lkcd,beji,camk
  ⟨1/2, [g_abab [mₒ, dᵥ, lₒ, eᵥ], l2_abab [jₒ, iₒ, bᵥ, aᵥ], l2_abab [lₒ, kₒ, cᵥ, dᵥ], t2_abab [bᵥ, eᵥ, jₒ, iₒ], t2_abab [cᵥ, aᵥ, mₒ, kₒ]], [(1, [])]⟩,
  -- line 1023: mdel,jiba,kldc,beji,cakm
  ⟨1/2, [g_bbbb [mₒ, dᵥ, eᵥ, lₒ], l2_abab [jₒ, iₒ, bᵥ, aᵥ], l2_bbbb [kₒ, lₒ, dᵥ, cᵥ], t2_abab [bᵥ, eᵥ, jₒ, iₒ], t2_bbbb [cᵥ, aᵥ, kₒ, mₒ]], [(1, [])]⟩,
  -- line 1026: mdel,jiab,kldc,ebji,cakm
  ⟨1/2, [g_aaaa [mₒ, dᵥ, eᵥ, lₒ], l2_abab [jₒ, iₒ, aᵥ, bᵥ], l2_aaaa [kₒ, lₒ, dᵥ, cᵥ], t2_abab [eᵥ, bᵥ, jₒ, iₒ], t2_aaaa [cᵥ, aᵥ, kₒ, mₒ]], [(1, [])]⟩,
  -- line 1029: dmel,jiab,kldc,ebji,ackm
  ⟨1/2, [g_abab [dᵥ, mₒ, eᵥ, lₒ], l2_abab [jₒ, iₒ, aᵥ, bᵥ], l2_abab [kₒ, lₒ, dᵥ, cᵥ], t2_abab [eᵥ, bᵥ, jₒ, iₒ], t2_abab [aᵥ, cᵥ, kₒ, mₒ]], [(1, [])]⟩,
  -- line 1032: mdel,jiab,klcd,ebji,cakm
  ⟨-1/2, [g_abab [mₒ, dᵥ, eᵥ, lₒ], l2_abab [jₒ, iₒ, aᵥ, bᵥ], l2_abab [kₒ, lₒ, cᵥ, dᵥ], t2_abab [eᵥ, bᵥ, jₒ, iₒ], t2_aaaa [cᵥ, aᵥ, kₒ, mₒ]], [(1, [])]⟩,
  -- line 1035: mdel,jiab,lkdc,ebji,acmk
  ⟨-1/2, [g_aaaa [mₒ, dᵥ, eᵥ, lₒ], l2_abab [jₒ, iₒ, aᵥ, bᵥ], l2_abab [lₒ, kₒ, dᵥ, cᵥ], t2_abab [eᵥ, bᵥ, jₒ, iₒ], t2_abab [aᵥ, cᵥ, mₒ, kₒ]], [(1, [])]⟩,
  -- line 1038: mdel,jiab,kldc,ebji,acmk
  ⟨1/2, [g_abab [mₒ, dᵥ, eᵥ, lₒ], l2_abab [jₒ, iₒ, aᵥ, bᵥ], l2_bbbb [kₒ, lₒ, dᵥ, cᵥ], t2_abab [eᵥ, bᵥ, jₒ, iₒ], t2_abab [aᵥ, cᵥ, mₒ, kₒ]], [(1, [])]⟩,
  -- line 1041: dmle,ijba,kldc,ebij,cakm
  ⟨-1/2, [g_abab [dᵥ, mₒ, lₒ, eᵥ], l2_bbbb [iₒ, jₒ, bᵥ, aᵥ], l2_aaaa [kₒ, lₒ, dᵥ, cᵥ], t2_bbbb [eᵥ, bᵥ, iₒ, jₒ], t2_abab [cᵥ, aᵥ, kₒ, mₒ]], [(1, [])]⟩,
  -- line 1044: mdel,ijba,klcd,ebij,cakm
  ⟨1/2, [g_bbbb [mₒ, dᵥ, eᵥ, lₒ], l2_bbbb [iₒ, jₒ, bᵥ, aᵥ], l2_abab [kₒ, lₒ, cᵥ, dᵥ], t2_bbbb [eᵥ, bᵥ, iₒ, jₒ], t2_abab [cᵥ, aᵥ, kₒ, mₒ]], [(1, [])]⟩,
  -- line 1047: dmle,ijba,lkdc,ebij,cakm
  ⟨1/2, [g_abab [dᵥ, mₒ, lₒ, eᵥ], l2_bbbb [iₒ, jₒ, bᵥ, aᵥ], l2_abab [lₒ, kₒ, dᵥ, cᵥ], t2_bbbb [eᵥ, bᵥ, iₒ, jₒ], t2_bbbb [cᵥ, aᵥ, kₒ, mₒ]], [(1, [])]⟩,
  -- line 1050: mdle,ijba,lkcd,ebij,camk
  ⟨-1/2, [g_abab [mₒ, dᵥ, lₒ, eᵥ], l2_bbbb [iₒ, jₒ, bᵥ, aᵥ], l2_abab [lₒ, kₒ, cᵥ, dᵥ], t2_bbbb [eᵥ, bᵥ, iₒ, jₒ], t2_abab [cᵥ, aᵥ, mₒ, kₒ]], [(1, [])]⟩,
  -- line 1053: mdel,ijba,kldc,ebij,cakm
  ⟨-1/2, [g_bbbb [mₒ, dᵥ, eᵥ, lₒ], l2_bbbb [iₒ, jₒ, bᵥ, aᵥ], l2_bbbb [kₒ, lₒ, dᵥ, cᵥ], t2_bbbb [eᵥ, bᵥ, iₒ, jₒ], t2_bbbb [cᵥ, aᵥ, kₒ, mₒ]], [(1, [])]⟩,
  -- line 1056: mdej,ijba,kldc,eckl,baim
  ⟨1/4, [g_aaaa [mₒ, dᵥ, eᵥ, jₒ], l2_aaaa [iₒ, jₒ, bᵥ, aᵥ], l2_aaaa [kₒ, lₒ, dᵥ, cᵥ], t2_aaaa [eᵥ, cᵥ, kₒ, lₒ], t2_aaaa [bᵥ, aᵥ, iₒ, mₒ]], [(1, [])]⟩,
  -- line 1059: mdej,ijba,kldc,eckl,baim
  ⟨1/4, [g_aaaa [mₒ, dᵥ, eᵥ, jₒ], l2_aaaa [iₒ, jₒ, bᵥ, aᵥ], l2_abab [kₒ, lₒ, dᵥ, cᵥ], t2_abab [eᵥ, cᵥ, kₒ, lₒ], t2_aaaa [bᵥ, aᵥ, iₒ, mₒ]], [(1, [])]⟩,
  -- line 1062: mdje,ijba,klcd,cekl,baim
  ⟨-1/4, [g_abab [mₒ, dᵥ, jₒ, eᵥ], l2_aaaa [iₒ, jₒ, bᵥ, aᵥ], l2_abab [kₒ, lₒ, cᵥ, dᵥ], t2_abab [cᵥ, eᵥ, kₒ, lₒ], t2_aaaa [bᵥ, aᵥ, iₒ, mₒ]], [(1, [])]⟩,
  -- line 1065: mdej,ijba,lkdc,eclk,baim
  ⟨1/4, [g_aaaa [mₒ, dᵥ, eᵥ, jₒ], l2_aaaa [iₒ, jₒ, bᵥ, aᵥ], l2_abab [lₒ, kₒ, dᵥ, cᵥ], t2_abab [eᵥ, cᵥ, lₒ, kₒ], t2_aaaa [bᵥ, aᵥ, iₒ, mₒ]], [(1, [])]⟩,
  -- line 1068: mdje,ijba,lkcd,celk,baim
  ⟨-1/4, [g_abab [mₒ, dᵥ, jₒ, eᵥ], l2_aaaa [iₒ, jₒ, bᵥ, aᵥ], l2_abab [lₒ, kₒ, cᵥ, dᵥ], t2_abab [cᵥ, eᵥ, lₒ, kₒ], t2_aaaa [bᵥ, aᵥ, iₒ, mₒ]], [(1, [])]⟩,
  -- line 1071: mdje,ijba,kldc,eckl,baim
  ⟨-1/4, [g_abab [mₒ, dᵥ, jₒ, eᵥ], l2_aaaa [iₒ, jₒ, bᵥ, aᵥ], l2_bbbb [kₒ, lₒ, dᵥ, cᵥ], t2_bbbb [eᵥ, cᵥ, kₒ, lₒ], t2_aaaa [bᵥ, aᵥ, iₒ, mₒ]], [(1, [])]⟩,
  -- line 1074: dmej,ijba,kldc,eckl,baim
  ⟨-1/4, [g_abab [dᵥ, mₒ, eᵥ, jₒ], l2_abab [iₒ, jₒ, bᵥ, aᵥ], l2_aaaa [kₒ, lₒ, dᵥ, cᵥ], t2_aaaa [eᵥ, cᵥ, kₒ, lₒ], t2_abab [bᵥ, aᵥ, iₒ, mₒ]], [(1, [])]⟩,
  -- line 1077: dmej,ijba,kldc,eckl,baim
  ⟨-1/4, [g_abab [dᵥ, mₒ, eᵥ, jₒ], l2_abab [iₒ, jₒ, bᵥ, aᵥ], l2_abab [kₒ, lₒ, dᵥ, cᵥ], t2_abab [eᵥ, cᵥ, kₒ, lₒ], t2_abab [bᵥ, aᵥ, iₒ, mₒ]], [(1, [])]⟩,
  -- line 1080: mdej,ijba,klcd,cekl,baim
  ⟨1/4, [g_bbbb [mₒ, dᵥ, eᵥ, jₒ], l2_abab [iₒ, jₒ, bᵥ, aᵥ], l2_abab [kₒ, lₒ, cᵥ, dᵥ], t2_abab [cᵥ, eᵥ, kₒ, lₒ], t2_abab [bᵥ, aᵥ, iₒ, mₒ]], [(1, [])]⟩,
  -- line 1083: dmej,ijba,lkdc,eclk,baim
  ⟨-1/4, [g_abab [dᵥ, mₒ, eᵥ, jₒ], l2_abab [iₒ, jₒ, bᵥ, aᵥ], l2_abab [lₒ, kₒ, dᵥ, cᵥ], t2_abab [eᵥ, cᵥ, lₒ, kₒ], t2_abab [bᵥ, aᵥ, iₒ, mₒ]], [(1, [])]⟩,
  -- line 1086: mdej,ijba,lkcd,celk,baim
  ⟨1/4, [g_bbbb [mₒ, dᵥ, eᵥ, jₒ], l2_abab [iₒ, jₒ, bᵥ, aᵥ], l2_abab [lₒ, kₒ, cᵥ, dᵥ], t2_abab [cᵥ, eᵥ, lₒ, kₒ], t2_abab [bᵥ, aᵥ, iₒ, mₒ]], [(1, [])]⟩,
  -- line 1089: mdej,ijba,kldc,eckl,baim
  ⟨1/4, [g_bbbb [mₒ, dᵥ, eᵥ, jₒ], l2_abab [iₒ, jₒ, bᵥ, aᵥ], l2_bbbb [kₒ, lₒ, dᵥ, cᵥ], t2_bbbb [eᵥ, cᵥ, kₒ, lₒ], t2_abab [bᵥ, aᵥ, iₒ, mₒ]], [(1, [])]⟩,
  -- line 1092: dmej,ijab,kldc,eckl,abim
  ⟨-1/4, [g_abab [dᵥ, mₒ, eᵥ, jₒ], l2_abab [iₒ, jₒ, aᵥ, bᵥ], l2_aaaa [kₒ, lₒ, dᵥ, cᵥ], t2_aaaa [eᵥ, cᵥ, kₒ, lₒ], t2_abab [aᵥ, bᵥ, iₒ, mₒ]], [(1, [])]⟩,
  -- line 1095: dmej,ijab,kldc,eckl,abim
  ⟨-1/4, [g_abab [dᵥ, mₒ, eᵥ, jₒ], l2_abab [iₒ, jₒ, aᵥ, bᵥ], l2_abab [kₒ, lₒ, dᵥ, cᵥ], t2_abab [eᵥ, cᵥ, kₒ, lₒ], t2_abab [aᵥ, bᵥ, iₒ, mₒ]], [(1, [])]⟩
  ]

/-- Part 9 of `si_energy_pertQf`. -/
def si_energy_pertQf_9 : Prog := [
  -- line 1098: mdej,ijab,klcd,cekl,abim
  ⟨1/4, [g_bbbb [mₒ, dᵥ, eᵥ, jₒ], l2_abab [iₒ, jₒ, aᵥ, bᵥ], l2_abab [kₒ, lₒ, cᵥ, dᵥ], t2_abab [cᵥ, eᵥ, kₒ, lₒ], t2_abab [aᵥ, bᵥ, iₒ, mₒ]], [(1, [])]⟩,
  -- line 1101: dmej,ijab,lkdc,eclk,abim
  ⟨-1/4, [g_abab [dᵥ, mₒ, eᵥ, jₒ], l2_abab [iₒ, jₒ, aᵥ, bᵥ], l2_abab [lₒ, kₒ, dᵥ, cᵥ], t2_abab [eᵥ, cᵥ, lₒ, kₒ], t2_abab [aᵥ, bᵥ, iₒ, mₒ]], [(1, [])]⟩,
  -- line 1104: mdej,ijab,lkcd,celk,abim
  ⟨1/4, [g_bbbb [mₒ, dᵥ, eᵥ, jₒ], l2_abab [iₒ, jₒ, aᵥ, bᵥ], l2_abab [lₒ, kₒ, cᵥ, dᵥ], t2_abab [cᵥ, eᵥ, lₒ, kₒ], t2_abab [aᵥ, bᵥ, iₒ, mₒ]], [(1, [])]⟩,
  -- line 1107: mdej,ijab,kldc,eckl,abim
  ⟨1/4, [g_bbbb [mₒ, dᵥ, eᵥ, jₒ], l2_abab [iₒ, jₒ, aᵥ, bᵥ], l2_bbbb [kₒ, lₒ, dᵥ, cᵥ], t2_bbbb [eᵥ, cᵥ, kₒ, lₒ], t2_abab [aᵥ, bᵥ, iₒ, mₒ]], [(1, [])]⟩,
  -- line 1110: mdej,jiba,kldc,eckl,bami
  ⟨1/4, [g_aaaa [mₒ, dᵥ, eᵥ, jₒ], l2_abab [jₒ, iₒ, bᵥ, aᵥ], l2_aaaa [kₒ, lₒ, dᵥ, cᵥ], t2_aaaa [eᵥ, cᵥ, kₒ, lₒ], t2_abab [bᵥ, aᵥ, mₒ, iₒ]], [(1, [])]⟩,
  -- line 1113: mdej,jiba,kldc,eckl,bami
  ⟨1/4, [g_aaaa [mₒ, dᵥ, eᵥ, jₒ], l2_abab [jₒ, iₒ, bᵥ, aᵥ], l2_abab [kₒ, lₒ, dᵥ, cᵥ], t2_abab [eᵥ, cᵥ, kₒ, lₒ], t2_abab [bᵥ, aᵥ, mₒ, iₒ]], [(1, [])]⟩,
  -- line 1116: mdje,jiba,klcd,cekl,bami
  ⟨-1/4, [g_abab [mₒ, dᵥ, jₒ, eᵥ], l2_abab [jₒ, iₒ, bᵥ, aᵥ], l2_abab [kₒ, lₒ, cᵥ, dᵥ], t2_abab [cᵥ, eᵥ, kₒ, lₒ], t2_abab [bᵥ, aᵥ, mₒ, iₒ]], [(1, [])]⟩,
  -- line 1119: mdej,jiba,lkdc,eclk,bami
  ⟨1/4, [g_aaaa [mₒ, dᵥ, eᵥ, jₒ], l2_abab [jₒ, iₒ, bᵥ, aᵥ], l2_abab [lₒ, kₒ, dᵥ, cᵥ], t2_abab [eᵥ, cᵥ, lₒ, kₒ], t2_abab [bᵥ, aᵥ, mₒ, iₒ]], [(1, [])]⟩,
  -- line 1122: mdje,jiba,lkcd,celk,bami
  ⟨-1/4, [g_abab [mₒ, dᵥ, jₒ, eᵥ], l2_abab [jₒ, iₒ, bᵥ, aᵥ], l2_abab [lₒ, kₒ, cᵥ, dᵥ], t2_abab [cᵥ, eᵥ, lₒ, kₒ], t2_abab [bᵥ, aᵥ, mₒ, iₒ]], [(1, [])]⟩,
  -- line 1125: mdje,jiba,kldc,eckl,bami
  ⟨-1/4, [g_abab [mₒ, dᵥ, jₒ, eᵥ], l2_abab [jₒ, iₒ, bᵥ, aᵥ], l2_bbbb [kₒ, lₒ, dᵥ, cᵥ], t2_bbbb [eᵥ, cᵥ, kₒ, lₒ], t2_abab [bᵥ, aᵥ, mₒ, iₒ]], [(1, [])]⟩,
  -- line 1128: mdej,jiab,kldc,eckl,abmi
  ⟨1/4, [g_aaaa [mₒ, dᵥ, eᵥ, jₒ], l2_abab [jₒ, iₒ, aᵥ, bᵥ], l2_aaaa [kₒ, lₒ, dᵥ, cᵥ], t2_aaaa [eᵥ, cᵥ, kₒ, lₒ], t2_abab [aᵥ, bᵥ, mₒ, iₒ]], [(1, [])]⟩,
  -- line 1131: mdej,jiab,kldc,eckl,abmi
  ⟨1/4, [g_aaaa [mₒ, dᵥ, eᵥ, jₒ], l2_abab [jₒ, iₒ, aᵥ, bᵥ], l2_abab [kₒ, lₒ, dᵥ, cᵥ], t2_abab [eᵥ, cᵥ, kₒ, lₒ], t2_abab [aᵥ, bᵥ, mₒ, iₒ]], [(1, [])]⟩,
  -- line 1134: mdje,jiab,klcd,cekl,abmi
  ⟨-1/4, [g_abab [mₒ, dᵥ, jₒ, eᵥ], l2_abab [jₒ, iₒ, aᵥ, bᵥ], l2_abab [kₒ, lₒ, cᵥ, dᵥ], t2_abab [cᵥ, eᵥ, kₒ, lₒ], t2_abab [aᵥ, bᵥ, mₒ, iₒ]], [(1, [])]⟩,
  -- line 1137: mdej,jiab,lkdc,eclk,abmi
  ⟨1/4, [g_aaaa [mₒ, dᵥ, eᵥ, jₒ], l2_abab [jₒ, iₒ, aᵥ, bᵥ], l2_abab [lₒ, kₒ, dᵥ, cᵥ], t2_abab [eᵥ, cᵥ, lₒ, kₒ], t2_abab [aᵥ, bᵥ, mₒ, iₒ]], [(1, [])]⟩,
  -- line 1140: mdje,jiab,lkcd,celk,abmi
  ⟨-1/4, [g_abab [mₒ, dᵥ, jₒ, eᵥ], l2_abab [jₒ, iₒ, aᵥ, bᵥ], l2_abab [lₒ, kₒ, cᵥ, dᵥ], t2_abab [cᵥ, eᵥ, lₒ, kₒ], t2_abab [aᵥ, bᵥ, mₒ, iₒ]], [(1, [])]⟩,
  -- line 1143: mdje,jiab,kldc,eckl,abmi
  ⟨-1/4, [g_abab [mₒ, dᵥ, jₒ, eᵥ], l2_abab [jₒ, iₒ, aᵥ, bᵥ], l2_bbbb [kₒ, lₒ, dᵥ, cᵥ], t2_bbbb [eᵥ, cᵥ, kₒ, lₒ], t2_abab [aᵥ, bᵥ, mₒ, iₒ]], [(1, [])]⟩,
  -- line 1146: dmej,ijba,kldc,eckl,baim
  ⟨-1/4, [g_abab [dᵥ, mₒ, eᵥ, jₒ], l2_bbbb [iₒ, jₒ, bᵥ, aᵥ], l2_aaaa [kₒ, lₒ, dᵥ, cᵥ], t2_aaaa [eᵥ, cᵥ, kₒ, lₒ], t2_bbbb [bᵥ, aᵥ, iₒ, mₒ]], [(1, [])]⟩,
  -- line 1149: dmej,ijba,kldc,eckl,baim
  ⟨-1/4, [g_abab [dᵥ, mₒ, eᵥ, jₒ], l2_bbbb [iₒ, jₒ, bᵥ, aᵥ], l2_abab [kₒ, lₒ, dᵥ, cᵥ], t2_abab [eᵥ, cᵥ, kₒ, lₒ], t2_bbbb [bᵥ, aᵥ, iₒ, mₒ]], [(1, [])]⟩,
  -- line 1152: mdej,ijba,klcd,cekl,baim
  ⟨1/4, [g_bbbb [mₒ, dᵥ, eᵥ, jₒ], l2_bbbb [iₒ, jₒ, bᵥ, aᵥ], l2_abab [kₒ, lₒ, cᵥ, dᵥ], t2_abab [cᵥ, eᵥ, kₒ, lₒ], t2_bbbb [bᵥ, aᵥ, iₒ, mₒ]], [(1, [])]⟩,
  -- line 1155: dmej,ijba,lkdc,eclk,baim
  ⟨-1/4, [g_abab [dᵥ, mₒ, eᵥ, jₒ], l2_bbbb [iₒ, jₒ, bᵥ, aᵥ], l2_abab [lₒ, kₒ, dᵥ, cᵥ], t2_abab [eᵥ, cᵥ, lₒ, kₒ], t2_bbbb [bᵥ, aᵥ, iₒ, mₒ]], [(1, [])]⟩,
  -- line 1158: mdej,ijba,lkcd,celk,baim
  ⟨1/4, [g_bbbb [mₒ, dᵥ, eᵥ, jₒ], l2_bbbb [iₒ, jₒ, bᵥ, aᵥ], l2_abab [lₒ, kₒ, cᵥ, dᵥ], t2_abab [cᵥ, eᵥ, lₒ, kₒ], t2_bbbb [bᵥ, aᵥ, iₒ, mₒ]], [(1, [])]⟩,
  -- line 1161: mdej,ijba,kldc,eckl,baim
  ⟨1/4, [g_bbbb [mₒ, dᵥ, eᵥ, jₒ], l2_bbbb [iₒ, jₒ, bᵥ, aᵥ], l2_bbbb [kₒ, lₒ, dᵥ, cᵥ], t2_bbbb [eᵥ, cᵥ, kₒ, lₒ], t2_bbbb [bᵥ, aᵥ, iₒ, mₒ]], [(1, [])]⟩,
  -- line 1164: mdej,ijba,kldc,ecil,bakm
  ⟨-1/2, [g_aaaa [mₒ, dᵥ, eᵥ, jₒ], l2_aaaa [iₒ, jₒ, bᵥ, aᵥ], l2_aaaa [kₒ, lₒ, dᵥ, cᵥ], t2_aaaa [eᵥ, cᵥ, iₒ, lₒ], t2_aaaa [bᵥ, aᵥ, kₒ, mₒ]], [(1, [])]⟩,
  -- line 1167: mdej,ijba,kldc,ecil,bakm
  ⟨-1/2, [g_aaaa [mₒ, dᵥ, eᵥ, jₒ], l2_aaaa [iₒ, jₒ, bᵥ, aᵥ], l2_abab [kₒ, lₒ, dᵥ, cᵥ], t2_abab [eᵥ, cᵥ, iₒ, lₒ], t2_aaaa [bᵥ, aᵥ, kₒ, mₒ]], [(1, [])]⟩,
  -- line 1170: mdje,ijba,klcd,ceil,bakm
  ⟨1/2, [g_abab [mₒ, dᵥ, jₒ, eᵥ], l2_aaaa [iₒ, jₒ, bᵥ, aᵥ], l2_abab [kₒ, lₒ, cᵥ, dᵥ], t2_abab [cᵥ, eᵥ, iₒ, lₒ], t2_aaaa [bᵥ, aᵥ, kₒ, mₒ]], [(1, [])]⟩,
  -- line 1173: dmej,ijba,kldc,ecil,bakm
  ⟨1/2, [g_abab [dᵥ, mₒ, eᵥ, jₒ], l2_abab [iₒ, jₒ, bᵥ, aᵥ], l2_aaaa [kₒ, lₒ, dᵥ, cᵥ], t2_aaaa [eᵥ, cᵥ, iₒ, lₒ], t2_abab [bᵥ, aᵥ, kₒ, mₒ]], [(1, [])]⟩,
  -- line 1176: dmej,ijba,kldc,ecil,bakm
  ⟨1/2, [g_abab [dᵥ, mₒ, eᵥ, jₒ], l2_abab [iₒ, jₒ, bᵥ, aᵥ], l2_abab [kₒ, lₒ, dᵥ, cᵥ], t2_abab [eᵥ, cᵥ, iₒ, lₒ], t2_abab [bᵥ, aᵥ, kₒ, mₒ]], [(1, [])]⟩,
  -- line 1179: mdej,ijba,klcd,ceil,bakm
  ⟨-1/2, [g_bbbb [mₒ, dᵥ, eᵥ, jₒ], l2_abab [iₒ, jₒ, bᵥ, aᵥ], l2_abab [kₒ, lₒ, cᵥ, dᵥ], t2_abab [cᵥ, eᵥ, iₒ, lₒ], t2_abab [bᵥ, aᵥ, kₒ, mₒ]], [(1, [])]⟩,
  -- line 1182: mdej,ijba,lkcd,ecil,bamk
  ⟨1/2, [g_abab [mₒ, dᵥ, eᵥ, jₒ], l2_abab [iₒ, jₒ, bᵥ, aᵥ], l2_abab [lₒ, kₒ, cᵥ, dᵥ], t2_aaaa [eᵥ, cᵥ, iₒ, lₒ], t2_abab [bᵥ, aᵥ, mₒ, kₒ]], [(1, [])]⟩,
  -- line 1185: mdej,ijba,kldc,ecil,bamk
  ⟨1/2, [g_abab [mₒ, dᵥ, eᵥ, jₒ], l2_abab [iₒ, jₒ, bᵥ, aᵥ], l2_bbbb [kₒ, lₒ, dᵥ, cᵥ], t2_abab [eᵥ, cᵥ, iₒ, lₒ], t2_abab [bᵥ, aᵥ, mₒ, kₒ]], [(1, [])]⟩,
  -- line 1188: dmej,ijab,kldc,ecil,abkm
  ⟨1/2, [g_abab [dᵥ, mₒ, eᵥ, jₒ], l2_abab [iₒ, jₒ, aᵥ, bᵥ], l2_aaaa [kₒ, lₒ, dᵥ, cᵥ], t2_aaaa [eᵥ, cᵥ, iₒ, lₒ], t2_abab [aᵥ, bᵥ, kₒ, mₒ]], [(1, [])]⟩,
  -- line 1191: dmej,ijab,kldc,ecil,abkm
  ⟨1/2, [g_abab [dᵥ, mₒ, eᵥ, jₒ], l2_abab [iₒ, jₒ, aᵥ, bᵥ], l2_abab [kₒ, lₒ, dᵥ, cᵥ], t2_abab [eᵥ, cᵥ, iₒ, lₒ], t2_abab [aᵥ, bᵥ, kₒ, mₒ]], [(1, [])]⟩,
  -- line 1194: mdej,ijab,klcd,ceil,abkm
  ⟨-1/2, [g_bbbb [mₒ, dᵥ, eᵥ, jₒ], l2_abab [iₒ, jₒ, aᵥ, bᵥ], l2_abab [kₒ, lₒ, cᵥ, dᵥ], t2_abab [cᵥ, eᵥ, iₒ, lₒ], t2_abab [aᵥ, bᵥ, kₒ, mₒ]], [(1, [])]⟩,
  -- line 1197: mdej,ijab,lkcd,ecil,abmk
  ⟨1/2, [g_abab [mₒ, dᵥ, eᵥ, jₒ], l2_abab [iₒ, jₒ, aᵥ, bᵥ], l2_abab [lₒ, kₒ, cᵥ, dᵥ], t2_aaaa [eᵥ, cᵥ, iₒ, lₒ], t2_abab [aᵥ, bᵥ, mₒ, kₒ]], [(1, [])]⟩,
  -- line 1200: mdej,ijab,kldc,ecil,abmk
  ⟨1/2, [g_abab [mₒ, dᵥ, eᵥ, jₒ], l2_abab [iₒ, jₒ, aᵥ, bᵥ], l2_bbbb [kₒ, lₒ, dᵥ, cᵥ], t2_abab [eᵥ, cᵥ, iₒ, lₒ], t2_abab [aᵥ, bᵥ, mₒ, kₒ]], [(1, [])]⟩,
  -- line 1203: dmje,jiba,kldc,celi,bakm
  ⟨1/2, [g_abab [dᵥ, mₒ, jₒ, eᵥ], l2_abab [jₒ, iₒ, bᵥ, aᵥ], l2_aaaa [kₒ, lₒ, dᵥ, cᵥ], t2_abab [cᵥ, eᵥ, lₒ, iₒ], t2_abab [bᵥ, aᵥ, kₒ, mₒ]], [(1, [])]⟩,
  -- line 1206: dmje,jiba,kldc,ecil,bakm
  ⟨1/2, [g_abab [dᵥ, mₒ, jₒ, eᵥ], l2_abab [jₒ, iₒ, bᵥ, aᵥ], l2_abab [kₒ, lₒ, dᵥ, cᵥ], t2_bbbb [eᵥ, cᵥ, iₒ, lₒ], t2_abab [bᵥ, aᵥ, kₒ, mₒ]], [(1, [])]⟩,
  -- line 1209: mdej,jiba,lkdc,ecli,bamk
  ⟨-1/2, [g_aaaa [mₒ, dᵥ, eᵥ, jₒ], l2_abab [jₒ, iₒ, bᵥ, aᵥ], l2_abab [lₒ, kₒ, dᵥ, cᵥ], t2_abab [eᵥ, cᵥ, lₒ, iₒ], t2_abab [bᵥ, aᵥ, mₒ, kₒ]], [(1, [])]⟩,
  -- line 1212: mdje,jiba,lkcd,celi,bamk
  ⟨1/2, [g_abab [mₒ, dᵥ, jₒ, eᵥ], l2_abab [jₒ, iₒ, bᵥ, aᵥ], l2_abab [lₒ, kₒ, cᵥ, dᵥ], t2_abab [cᵥ, eᵥ, lₒ, iₒ], t2_abab [bᵥ, aᵥ, mₒ, kₒ]], [(1, [])]⟩,
  -- line 1215: mdje,jiba,kldc,ecil,bamk
  ⟨1/2, [g_abab [mₒ, dᵥ, jₒ, eᵥ], l2_abab [jₒ, iₒ, bᵥ, aᵥ], l2_bbbb [kₒ, lₒ, dᵥ, cᵥ], t2_bbbb [eᵥ, cᵥ, iₒ, lₒ], t2_abab [bᵥ, aᵥ, mₒ, kₒ]], [(1, [])]⟩
  ]

/-- Part 10 of `si_energy_pertQf`. -/
def si_energy_pertQf_10 : Prog := [
  -- line 1218: dmje,jiab,kldc,celi,abkm
  ⟨1/2, [g_abab [dᵥ, mₒ, jₒ, eᵥ], l2_abab [jₒ, iₒ, aᵥ, bᵥ], l2_aaaa [kₒ, lₒ, dᵥ, cᵥ], t2_abab [cᵥ, eᵥ, lₒ, iₒ], t2_abab [aᵥ, bᵥ, kₒ, mₒ]], [(1, [])]⟩,
  -- line 1221: dmje,jiab,kldc,ecil,abkm
  ⟨1/2, [g_abab [dᵥ, mₒ, jₒ, eᵥ], l2_abab [jₒ, iₒ, aᵥ, bᵥ], l2_abab [kₒ, lₒ, dᵥ, cᵥ], t2_bbbb [eᵥ, cᵥ, iₒ, lₒ], t2_abab [aᵥ, bᵥ, kₒ, mₒ]], [(1, [])]⟩,
  -- line 1224: mdej,jiab,lkdc,ecli,abmk
  ⟨-1/2, [g_aaaa [mₒ, dᵥ, eᵥ, jₒ], l2_abab [jₒ, iₒ, aᵥ, bᵥ], l2_abab [lₒ, kₒ, dᵥ, cᵥ], t2_abab [eᵥ, cᵥ, lₒ, iₒ], t2_abab [aᵥ, bᵥ, mₒ, kₒ]], [(1, [])]⟩,
  -- line 1227: mdje,jiab,lkcd,celi,abmk
  ⟨1/2, [g_abab [mₒ, dᵥ, jₒ, eᵥ], l2_abab [jₒ, iₒ, aᵥ, bᵥ], l2_abab [lₒ, kₒ, cᵥ, dᵥ], t2_abab [cᵥ, eᵥ, lₒ, iₒ], t2_abab [aᵥ, bᵥ, mₒ, kₒ]], [(1, [])]⟩,
  -- line 1230: mdje,jiab,kldc,ecil,abmk
  ⟨1/2, [g_abab [mₒ, dᵥ, jₒ, eᵥ], l2_abab [jₒ, iₒ, aᵥ, bᵥ], l2_bbbb [kₒ, lₒ, dᵥ, cᵥ], t2_bbbb [eᵥ, cᵥ, iₒ, lₒ], t2_abab [aᵥ, bᵥ, mₒ, kₒ]], [(1, [])]⟩,
  -- line 1233: dmej,ijba,lkdc,ecli,bakm
  ⟨1/2, [g_abab [dᵥ, mₒ, eᵥ, jₒ], l2_bbbb [iₒ, jₒ, bᵥ, aᵥ], l2_abab [lₒ, kₒ, dᵥ, cᵥ], t2_abab [eᵥ, cᵥ, lₒ, iₒ], t2_bbbb [bᵥ, aᵥ, kₒ, mₒ]], [(1, [])]⟩,
  -- line 1236: mdej,ijba,lkcd,celi,bakm
  ⟨-1/2, [g_bbbb [mₒ, dᵥ, eᵥ, jₒ], l2_bbbb [iₒ, jₒ, bᵥ, aᵥ], l2_abab [lₒ, kₒ, cᵥ, dᵥ], t2_abab [cᵥ, eᵥ, lₒ, iₒ], t2_bbbb [bᵥ, aᵥ, kₒ, mₒ]], [(1, [])]⟩,
  -- line 1239: mdej,ijba,kldc,ecil,bakm
  ⟨-1/2, [g_bbbb [mₒ, dᵥ, eᵥ, jₒ], l2_bbbb [iₒ, jₒ, bᵥ, aᵥ], l2_bbbb [kₒ, lₒ, dᵥ, cᵥ], t2_bbbb [eᵥ, cᵥ, iₒ, lₒ], t2_bbbb [bᵥ, aᵥ, kₒ, mₒ]], [(1, [])]⟩,
  -- line 1242: mdej,ijba,kldc,ebkl,caim
  ⟨-1/2, [g_aaaa [mₒ, dᵥ, eᵥ, jₒ], l2_aaaa [iₒ, jₒ, bᵥ, aᵥ], l2_aaaa [kₒ, lₒ, dᵥ, cᵥ], t2_aaaa [eᵥ, bᵥ, kₒ, lₒ], t2_aaaa [cᵥ, aᵥ, iₒ, mₒ]], [(1, [])]⟩,
  -- line 1245: dmje,ijba,kldc,bekl,acim
  ⟨-1/2, [g_abab [dᵥ, mₒ, jₒ, eᵥ], l2_aaaa [iₒ, jₒ, bᵥ, aᵥ], l2_abab [kₒ, lₒ, dᵥ, cᵥ], t2_abab [bᵥ, eᵥ, kₒ, lₒ], t2_abab [aᵥ, cᵥ, iₒ, mₒ]], [(1, [])]⟩,
  -- line 1248: mdje,ijba,klcd,bekl,caim
  ⟨1/2, [g_abab [mₒ, dᵥ, jₒ, eᵥ], l2_aaaa [iₒ, jₒ, bᵥ, aᵥ], l2_abab [kₒ, lₒ, cᵥ, dᵥ], t2_abab [bᵥ, eᵥ, kₒ, lₒ], t2_aaaa [cᵥ, aᵥ, iₒ, mₒ]], [(1, [])]⟩,
  -- line 1251: dmje,ijba,lkdc,belk,acim
  ⟨-1/2, [g_abab [dᵥ, mₒ, jₒ, eᵥ], l2_aaaa [iₒ, jₒ, bᵥ, aᵥ], l2_abab [lₒ, kₒ, dᵥ, cᵥ], t2_abab [bᵥ, eᵥ, lₒ, kₒ], t2_abab [aᵥ, cᵥ, iₒ, mₒ]], [(1, [])]⟩,
  -- line 1254: mdje,ijba,lkcd,belk,caim
  ⟨1/2, [g_abab [mₒ, dᵥ, jₒ, eᵥ], l2_aaaa [iₒ, jₒ, bᵥ, aᵥ], l2_abab [lₒ, kₒ, cᵥ, dᵥ], t2_abab [bᵥ, eᵥ, lₒ, kₒ], t2_aaaa [cᵥ, aᵥ, iₒ, mₒ]], [(1, [])]⟩,
  -- line 1257: dmej,ijba,kldc,ebkl,caim
  ⟨1/2, [g_abab [dᵥ, mₒ, eᵥ, jₒ], l2_abab [iₒ, jₒ, bᵥ, aᵥ], l2_aaaa [kₒ, lₒ, dᵥ, cᵥ], t2_aaaa [eᵥ, bᵥ, kₒ, lₒ], t2_abab [cᵥ, aᵥ, iₒ, mₒ]], [(1, [])]⟩,
  -- line 1260: mdej,ijba,klcd,bekl,caim
  ⟨-1/2, [g_bbbb [mₒ, dᵥ, eᵥ, jₒ], l2_abab [iₒ, jₒ, bᵥ, aᵥ], l2_abab [kₒ, lₒ, cᵥ, dᵥ], t2_abab [bᵥ, eᵥ, kₒ, lₒ], t2_abab [cᵥ, aᵥ, iₒ, mₒ]], [(1, [])]⟩,
  -- line 1263: mdej,ijba,lkcd,belk,caim
  ⟨-1/2, [g_bbbb [mₒ, dᵥ, eᵥ, jₒ], l2_abab [iₒ, jₒ, bᵥ, aᵥ], l2_abab [lₒ, kₒ, cᵥ, dᵥ], t2_abab [bᵥ, eᵥ, lₒ, kₒ], t2_abab [cᵥ, aᵥ, iₒ, mₒ]], [(1, [])]⟩,
  -- line 1266: dmej,ijab,kldc,ebkl,acim
  ⟨1/2, [g_abab [dᵥ, mₒ, eᵥ, jₒ], l2_abab [iₒ, jₒ, aᵥ, bᵥ], l2_abab [kₒ, lₒ, dᵥ, cᵥ], t2_abab [eᵥ, bᵥ, kₒ, lₒ], t2_abab [aᵥ, cᵥ, iₒ, mₒ]], [(1, [])]⟩,
  -- line 1269: mdej,ijab,klcd,ebkl,caim
  ⟨-1/2, [g_abab [mₒ, dᵥ, eᵥ, jₒ], l2_abab [iₒ, jₒ, aᵥ, bᵥ], l2_abab [kₒ, lₒ, cᵥ, dᵥ], t2_abab [eᵥ, bᵥ, kₒ, lₒ], t2_aaaa [cᵥ, aᵥ, iₒ, mₒ]], [(1, [])]⟩,
  -- line 1272: dmej,ijab,lkdc,eblk,acim
  ⟨1/2, [g_abab [dᵥ, mₒ, eᵥ, jₒ], l2_abab [iₒ, jₒ, aᵥ, bᵥ], l2_abab [lₒ, kₒ, dᵥ, cᵥ], t2_abab [eᵥ, bᵥ, lₒ, kₒ], t2_abab [aᵥ, cᵥ, iₒ, mₒ]], [(1, [])]⟩,
  -- line 1275: mdej,ijab,lkcd,eblk,caim
  ⟨-1/2, [g_abab [mₒ, dᵥ, eᵥ, jₒ], l2_abab [iₒ, jₒ, aᵥ, bᵥ], l2_abab [lₒ, kₒ, cᵥ, dᵥ], t2_abab [eᵥ, bᵥ, lₒ, kₒ], t2_aaaa [cᵥ, aᵥ, iₒ, mₒ]], [(1, [])]⟩,
  -- line 1278: mdej,ijab,kldc,ebkl,acim
  ⟨-1/2, [g_bbbb [mₒ, dᵥ, eᵥ, jₒ], l2_abab [iₒ, jₒ, aᵥ, bᵥ], l2_bbbb [kₒ, lₒ, dᵥ, cᵥ], t2_bbbb [eᵥ, bᵥ, kₒ, lₒ], t2_abab [aᵥ, cᵥ, iₒ, mₒ]], [(1, [])]⟩,
  -- line 1281: mdej,jiba,kldc,ebkl,cami
  ⟨-1/2, [g_aaaa [mₒ, dᵥ, eᵥ, jₒ], l2_abab [jₒ, iₒ, bᵥ, aᵥ], l2_aaaa [kₒ, lₒ, dᵥ, cᵥ], t2_aaaa [eᵥ, bᵥ, kₒ, lₒ], t2_abab [cᵥ, aᵥ, mₒ, iₒ]], [(1, [])]⟩,
  -- line 1284: dmje,jiba,kldc,bekl,caim
  ⟨-1/2, [g_abab [dᵥ, mₒ, jₒ, eᵥ], l2_abab [jₒ, iₒ, bᵥ, aᵥ], l2_abab [kₒ, lₒ, dᵥ, cᵥ], t2_abab [bᵥ, eᵥ, kₒ, lₒ], t2_bbbb [cᵥ, aᵥ, iₒ, mₒ]], [(1, [])]⟩,
  -- line 1287: mdje,jiba,klcd,bekl,cami
  ⟨1/2, [g_abab [mₒ, dᵥ, jₒ, eᵥ], l2_abab [jₒ, iₒ, bᵥ, aᵥ], l2_abab [kₒ, lₒ, cᵥ, dᵥ], t2_abab [bᵥ, eᵥ, kₒ, lₒ], t2_abab [cᵥ, aᵥ, mₒ, iₒ]], [(1, [])]⟩,
  -- line 1290: dmje,jiba,lkdc,belk,caim
  ⟨-1/2, [g_abab [dᵥ, mₒ, jₒ, eᵥ], l2_abab [jₒ, iₒ, bᵥ, aᵥ], l2_abab [lₒ, kₒ, dᵥ, cᵥ], t2_abab [bᵥ, eᵥ, lₒ, kₒ], t2_bbbb [cᵥ, aᵥ, iₒ, mₒ]], [(1, [])]⟩,
  -- line 1293: mdje,jiba,lkcd,belk,cami
  ⟨1/2, [g_abab [mₒ, dᵥ, jₒ, eᵥ], l2_abab [jₒ, iₒ, bᵥ, aᵥ], l2_abab [lₒ, kₒ, cᵥ, dᵥ], t2_abab [bᵥ, eᵥ, lₒ, kₒ], t2_abab [cᵥ, aᵥ, mₒ, iₒ]], [(1, [])]⟩,
  -- line 1296: mdej,jiab,kldc,ebkl,acmi
  ⟨-1/2, [g_aaaa [mₒ, dᵥ, eᵥ, jₒ], l2_abab [jₒ, iₒ, aᵥ, bᵥ], l2_abab [kₒ, lₒ, dᵥ, cᵥ], t2_abab [eᵥ, bᵥ, kₒ, lₒ], t2_abab [aᵥ, cᵥ, mₒ, iₒ]], [(1, [])]⟩,
  -- line 1299: mdej,jiab,lkdc,eblk,acmi
  ⟨-1/2, [g_aaaa [mₒ, dᵥ, eᵥ, jₒ], l2_abab [jₒ, iₒ, aᵥ, bᵥ], l2_abab [lₒ, kₒ, dᵥ, cᵥ], t2_abab [eᵥ, bᵥ, lₒ, kₒ], t2_abab [aᵥ, cᵥ, mₒ, iₒ]], [(1, [])]⟩,
  -- line 1302: mdje,jiab,kldc,ebkl,acmi
  ⟨1/2, [g_abab [mₒ, dᵥ, jₒ, eᵥ], l2_abab [jₒ, iₒ, aᵥ, bᵥ], l2_bbbb [kₒ, lₒ, dᵥ, cᵥ], t2_bbbb [eᵥ, bᵥ, kₒ, lₒ], t2_abab [aᵥ, cᵥ, mₒ, iₒ]], [(1, [])]⟩,
  -- line 1305: dmej,ijba,kldc,ebkl,caim
  ⟨1/2, [g_abab [dᵥ, mₒ, eᵥ, jₒ], l2_bbbb [iₒ, jₒ, bᵥ, aᵥ], l2_abab [kₒ, lₒ, dᵥ, cᵥ], t2_abab [eᵥ, bᵥ, kₒ, lₒ], t2_bbbb [cᵥ, aᵥ, iₒ, mₒ]], [(1, [])]⟩,
  -- line 1308: mdej,ijba,klcd,ebkl,cami
  ⟨-1/2, [g_abab [mₒ, dᵥ, eᵥ, jₒ], l2_bbbb [iₒ, jₒ, bᵥ, aᵥ], l2_abab [kₒ, lₒ, cᵥ, dᵥ], t2_abab [eᵥ, bᵥ, kₒ, lₒ], t2_abab [cᵥ, aᵥ, mₒ, iₒ]], [(1, [])]⟩,
  -- line 1311: dmej,ijba,lkdc,eblk,caim
  ⟨1/2, [g_abab [dᵥ, mₒ, eᵥ, jₒ], l2_bbbb [iₒ, jₒ, bᵥ, aᵥ], l2_abab [lₒ, kₒ, dᵥ, cᵥ], t2_abab [eᵥ, bᵥ, lₒ, kₒ], t2_bbbb [cᵥ, aᵥ, iₒ, mₒ]], [(1, [])]⟩,
  -- line 1314: mdej,ijba,lkcd,eblk,cami
  ⟨-1/2, [g_abab [mₒ, dᵥ, eᵥ, jₒ], l2_bbbb [iₒ, jₒ, bᵥ, aᵥ], l2_abab [lₒ, kₒ, cᵥ, dᵥ], t2_abab [eᵥ, bᵥ, lₒ, kₒ], t2_abab [cᵥ, aᵥ, mₒ, iₒ]], [(1, [])]⟩,
  -- line 1317: mdej,ijba,kldc,ebkl,caim
  ⟨-1/2, [g_bbbb [mₒ, dᵥ, eᵥ, jₒ], l2_bbbb [iₒ, jₒ, bᵥ, aᵥ], l2_bbbb [kₒ, lₒ, dᵥ, cᵥ], t2_bbbb [eᵥ, bᵥ, kₒ, lₒ], t2_bbbb [cᵥ, aᵥ, iₒ, mₒ]], [(1, [])]⟩,
  -- line 1320: mdej,ijba,kldc,ebil,cakm
  ⟨1, [g_aaaa [mₒ, dᵥ, eᵥ, jₒ], l2_aaaa [iₒ, jₒ, bᵥ, aᵥ], l2_aaaa [kₒ, lₒ, dᵥ, cᵥ], t2_aaaa [eᵥ, bᵥ, iₒ, lₒ], t2_aaaa [cᵥ, aᵥ, kₒ, mₒ]], [(1, [])]⟩,
  -- line 1323: dmje,ijba,kldc,beil,ackm
  ⟨1, [g_abab [dᵥ, mₒ, jₒ, eᵥ], l2_aaaa [iₒ, jₒ, bᵥ, aᵥ], l2_abab [kₒ, lₒ, dᵥ, cᵥ], t2_abab [bᵥ, eᵥ, iₒ, lₒ], t2_abab [aᵥ, cᵥ, kₒ, mₒ]], [(1, [])]⟩,
  -- line 1326: mdje,ijba,klcd,beil,cakm
  ⟨-1, [g_abab [mₒ, dᵥ, jₒ, eᵥ], l2_aaaa [iₒ, jₒ, bᵥ, aᵥ], l2_abab [kₒ, lₒ, cᵥ, dᵥ], t2_abab [bᵥ, eᵥ, iₒ, lₒ], t2_aaaa [cᵥ, aᵥ, kₒ, mₒ]], [(1, [])]⟩,
  -- line 1329: mdej,ijba,lkdc,ebil,acmk
  ⟨-1, [g_aaaa [mₒ, dᵥ, eᵥ, jₒ], l2_aaaa [iₒ, jₒ, bᵥ, aᵥ], l2_abab [lₒ, kₒ, dᵥ, cᵥ], t2_aaaa [eᵥ, bᵥ, iₒ, lₒ], t2_abab [aᵥ, cᵥ, mₒ, kₒ]], [(1, [])]⟩,
  -- line 1332: mdje,ijba,kldc,beil,acmk
  ⟨1, [g_abab [mₒ, dᵥ, jₒ, eᵥ], l2_aaaa [iₒ, jₒ, bᵥ, aᵥ], l2_bbbb [kₒ, lₒ, dᵥ, cᵥ], t2_abab [bᵥ, eᵥ, iₒ, lₒ], t2_abab [aᵥ, cᵥ, mₒ, kₒ]], [(1, [])]⟩,
  -- line 1335: dmej,ijba,kldc,ebil,cakm
  ⟨-1, [g_abab [dᵥ, mₒ, eᵥ, jₒ], l2_abab [iₒ, jₒ, bᵥ, aᵥ], l2_aaaa [kₒ, lₒ, dᵥ, cᵥ], t2_aaaa [eᵥ, bᵥ, iₒ, lₒ], t2_abab [cᵥ, aᵥ, kₒ, mₒ]], [(1, [])]⟩
  ]

/-- Part 11 of `si_energy_pertQf`. -/
def si_energy_pertQf_11 : Prog := [
  -- line 1338: mdej,ijba,klcd,beil,cakm
  ⟨1, [g_bbbb [mₒ, dᵥ, eᵥ, jₒ], l2_abab [iₒ, jₒ, bᵥ, aᵥ], l2_abab [kₒ, lₒ, cᵥ, dᵥ], t2_abab [bᵥ, eᵥ, iₒ, lₒ], t2_abab [cᵥ, aᵥ, kₒ, mₒ]], [(1, [])]⟩,
  -- line 1341: dmej,ijba,lkdc,ebil,cakm
  ⟨1, [g_abab [dᵥ, mₒ, eᵥ, jₒ], l2_abab [iₒ, jₒ, bᵥ, aᵥ], l2_abab [lₒ, kₒ, dᵥ, cᵥ], t2_aaaa [eᵥ, bᵥ, iₒ, lₒ], t2_bbbb [cᵥ, aᵥ, kₒ, mₒ]], [(1, [])]⟩,
  -- line 1344: mdej,ijba,lkcd,ebil,camk
  ⟨-1, [g_abab [mₒ, dᵥ, eᵥ, jₒ], l2_abab [iₒ, jₒ, bᵥ, aᵥ], l2_abab [lₒ, kₒ, cᵥ, dᵥ], t2_aaaa [eᵥ, bᵥ, iₒ, lₒ], t2_abab [cᵥ, aᵥ, mₒ, kₒ]], [(1, [])]⟩,
  -- line 1347: mdej,ijba,kldc,beil,cakm
  ⟨-1, [g_bbbb [mₒ, dᵥ, eᵥ, jₒ], l2_abab [iₒ, jₒ, bᵥ, aᵥ], l2_bbbb [kₒ, lₒ, dᵥ, cᵥ], t2_abab [bᵥ, eᵥ, iₒ, lₒ], t2_bbbb [cᵥ, aᵥ, kₒ, mₒ]], [(1, [])]⟩,
  -- line 1350: dmej,ijab,kldc,ebil,ackm
  ⟨-1, [g_abab [dᵥ, mₒ, eᵥ, jₒ], l2_abab [iₒ, jₒ, aᵥ, bᵥ], l2_abab [kₒ, lₒ, dᵥ, cᵥ], t2_abab [eᵥ, bᵥ, iₒ, lₒ], t2_abab [aᵥ, cᵥ, kₒ, mₒ]], [(1, [])]⟩,
  -- line 1353: mdej,ijab,klcd,ebil,cakm
  ⟨1, [g_abab [mₒ, dᵥ, eᵥ, jₒ], l2_abab [iₒ, jₒ, aᵥ, bᵥ], l2_abab [kₒ, lₒ, cᵥ, dᵥ], t2_abab [eᵥ, bᵥ, iₒ, lₒ], t2_aaaa [cᵥ, aᵥ, kₒ, mₒ]], [(1, [])]⟩,
  -- line 1356: mdej,ijab,kldc,ebil,acmk
  ⟨-1, [g_abab [mₒ, dᵥ, eᵥ, jₒ], l2_abab [iₒ, jₒ, aᵥ, bᵥ], l2_bbbb [kₒ, lₒ, dᵥ, cᵥ], t2_abab [eᵥ, bᵥ, iₒ, lₒ], t2_abab [aᵥ, cᵥ, mₒ, kₒ]], [(1, [])]⟩,
  -- line 1359: dmje,jiba,kldc,beli,cakm
  ⟨-1, [g_abab [dᵥ, mₒ, jₒ, eᵥ], l2_abab [jₒ, iₒ, bᵥ, aᵥ], l2_aaaa [kₒ, lₒ, dᵥ, cᵥ], t2_abab [bᵥ, eᵥ, lₒ, iₒ], t2_abab [cᵥ, aᵥ, kₒ, mₒ]], [(1, [])]⟩,
  -- line 1362: dmje,jiba,lkdc,beli,cakm
  ⟨1, [g_abab [dᵥ, mₒ, jₒ, eᵥ], l2_abab [jₒ, iₒ, bᵥ, aᵥ], l2_abab [lₒ, kₒ, dᵥ, cᵥ], t2_abab [bᵥ, eᵥ, lₒ, iₒ], t2_bbbb [cᵥ, aᵥ, kₒ, mₒ]], [(1, [])]⟩,
  -- line 1365: mdje,jiba,lkcd,beli,camk
  ⟨-1, [g_abab [mₒ, dᵥ, jₒ, eᵥ], l2_abab [jₒ, iₒ, bᵥ, aᵥ], l2_abab [lₒ, kₒ, cᵥ, dᵥ], t2_abab [bᵥ, eᵥ, lₒ, iₒ], t2_abab [cᵥ, aᵥ, mₒ, kₒ]], [(1, [])]⟩,
  -- line 1368: mdej,jiab,kldc,ebli,cakm
  ⟨-1, [g_aaaa [mₒ, dᵥ, eᵥ, jₒ], l2_abab [jₒ, iₒ, aᵥ, bᵥ], l2_aaaa [kₒ, lₒ, dᵥ, cᵥ], t2_abab [eᵥ, bᵥ, lₒ, iₒ], t2_aaaa [cᵥ, aᵥ, kₒ, mₒ]], [(1, [])]⟩,
  -- line 1371: dmje,jiab,kldc,ebil,ackm
  ⟨-1, [g_abab [dᵥ, mₒ, jₒ, eᵥ], l2_abab [jₒ, iₒ, aᵥ, bᵥ], l2_abab [kₒ, lₒ, dᵥ, cᵥ], t2_bbbb [eᵥ, bᵥ, iₒ, lₒ], t2_abab [aᵥ, cᵥ, kₒ, mₒ]], [(1, [])]⟩,
  -- line 1374: mdje,jiab,klcd,ebil,cakm
  ⟨1, [g_abab [mₒ, dᵥ, jₒ, eᵥ], l2_abab [jₒ, iₒ, aᵥ, bᵥ], l2_abab [kₒ, lₒ, cᵥ, dᵥ], t2_bbbb [eᵥ, bᵥ, iₒ, lₒ], t2_aaaa [cᵥ, aᵥ, kₒ, mₒ]], [(1, [])]⟩,
  -- line 1377: mdej,jiab,lkdc,ebli,acmk
  ⟨1, [g_aaaa [mₒ, dᵥ, eᵥ, jₒ], l2_abab [jₒ, iₒ, aᵥ, bᵥ], l2_abab [lₒ, kₒ, dᵥ, cᵥ], t2_abab [eᵥ, bᵥ, lₒ, iₒ], t2_abab [aᵥ, cᵥ, mₒ, kₒ]], [(1, [])]⟩,
  -- line 1380: mdje,jiab,kldc,ebil,acmk
  ⟨-1, [g_abab [mₒ, dᵥ, jₒ, eᵥ], l2_abab [jₒ, iₒ, aᵥ, bᵥ], l2_bbbb [kₒ, lₒ, dᵥ, cᵥ], t2_bbbb [eᵥ, bᵥ, iₒ, lₒ], t2_abab [aᵥ, cᵥ, mₒ, kₒ]], [(1, [])]⟩,
  -- line 1383: dmej,ijba,kldc,ebli,cakm
  ⟨1, [g_abab [dᵥ, mₒ, eᵥ, jₒ], l2_bbbb [iₒ, jₒ, bᵥ, aᵥ], l2_aaaa [kₒ, lₒ, dᵥ, cᵥ], t2_abab [eᵥ, bᵥ, lₒ, iₒ], t2_abab [cᵥ, aᵥ, kₒ, mₒ]], [(1, [])]⟩,
  -- line 1386: mdej,ijba,klcd,ebil,cakm
  ⟨-1, [g_bbbb [mₒ, dᵥ, eᵥ, jₒ], l2_bbbb [iₒ, jₒ, bᵥ, aᵥ], l2_abab [kₒ, lₒ, cᵥ, dᵥ], t2_bbbb [eᵥ, bᵥ, iₒ, lₒ], t2_abab [cᵥ, aᵥ, kₒ, mₒ]], [(1, [])]⟩,
  -- line 1389: dmej,ijba,lkdc,ebli,cakm
  ⟨-1, [g_abab [dᵥ, mₒ, eᵥ, jₒ], l2_bbbb [iₒ, jₒ, bᵥ, aᵥ], l2_abab [lₒ, kₒ, dᵥ, cᵥ], t2_abab [eᵥ, bᵥ, lₒ, iₒ], t2_bbbb [cᵥ, aᵥ, kₒ, mₒ]], [(1, [])]⟩,
  -- line 1392: mdej,ijba,lkcd,ebli,camk
  ⟨1, [g_abab [mₒ, dᵥ, eᵥ, jₒ], l2_bbbb [iₒ, jₒ, bᵥ, aᵥ], l2_abab [lₒ, kₒ, cᵥ, dᵥ], t2_abab [eᵥ, bᵥ, lₒ, iₒ], t2_abab [cᵥ, aᵥ, mₒ, kₒ]], [(1, [])]⟩,
  -- line 1395: mdej,ijba,kldc,ebil,cakm
  ⟨1, [g_bbbb [mₒ, dᵥ, eᵥ, jₒ], l2_bbbb [iₒ, jₒ, bᵥ, aᵥ], l2_bbbb [kₒ, lₒ, dᵥ, cᵥ], t2_bbbb [eᵥ, bᵥ, iₒ, lₒ], t2_bbbb [cᵥ, aᵥ, kₒ, mₒ]], [(1, [])]⟩,
  -- line 1398: mbel,ijba,kldc,edjk,caim
  ⟨1, [g_aaaa [mₒ, bᵥ, eᵥ, lₒ], l2_aaaa [iₒ, jₒ, bᵥ, aᵥ], l2_aaaa [kₒ, lₒ, dᵥ, cᵥ], t2_aaaa [eᵥ, dᵥ, jₒ, kₒ], t2_aaaa [cᵥ, aᵥ, iₒ, mₒ]], [(1, [])]⟩,
  -- line 1401: bmel,ijba,kldc,edjk,acim
  ⟨1, [g_abab [bᵥ, mₒ, eᵥ, lₒ], l2_aaaa [iₒ, jₒ, bᵥ, aᵥ], l2_abab [kₒ, lₒ, dᵥ, cᵥ], t2_aaaa [eᵥ, dᵥ, jₒ, kₒ], t2_abab [aᵥ, cᵥ, iₒ, mₒ]], [(1, [])]⟩,
  -- line 1404: bmle,ijba,lkdc,dejk,acim
  ⟨-1, [g_abab [bᵥ, mₒ, lₒ, eᵥ], l2_aaaa [iₒ, jₒ, bᵥ, aᵥ], l2_abab [lₒ, kₒ, dᵥ, cᵥ], t2_abab [dᵥ, eᵥ, jₒ, kₒ], t2_abab [aᵥ, cᵥ, iₒ, mₒ]], [(1, [])]⟩,
  -- line 1407: mbel,ijba,lkcd,edjk,caim
  ⟨1, [g_aaaa [mₒ, bᵥ, eᵥ, lₒ], l2_aaaa [iₒ, jₒ, bᵥ, aᵥ], l2_abab [lₒ, kₒ, cᵥ, dᵥ], t2_abab [eᵥ, dᵥ, jₒ, kₒ], t2_aaaa [cᵥ, aᵥ, iₒ, mₒ]], [(1, [])]⟩,
  -- line 1410: bmel,ijba,kldc,edjk,acim
  ⟨1, [g_abab [bᵥ, mₒ, eᵥ, lₒ], l2_aaaa [iₒ, jₒ, bᵥ, aᵥ], l2_bbbb [kₒ, lₒ, dᵥ, cᵥ], t2_abab [eᵥ, dᵥ, jₒ, kₒ], t2_abab [aᵥ, cᵥ, iₒ, mₒ]], [(1, [])]⟩,
  -- line 1413: bmle,ijba,kldc,dekj,caim
  ⟨1, [g_abab [bᵥ, mₒ, lₒ, eᵥ], l2_abab [iₒ, jₒ, bᵥ, aᵥ], l2_aaaa [kₒ, lₒ, dᵥ, cᵥ], t2_abab [dᵥ, eᵥ, kₒ, jₒ], t2_abab [cᵥ, aᵥ, iₒ, mₒ]], [(1, [])]⟩,
  -- line 1416: bmel,ijba,klcd,edkj,caim
  ⟨-1, [g_abab [bᵥ, mₒ, eᵥ, lₒ], l2_abab [iₒ, jₒ, bᵥ, aᵥ], l2_abab [kₒ, lₒ, cᵥ, dᵥ], t2_abab [eᵥ, dᵥ, kₒ, jₒ], t2_abab [cᵥ, aᵥ, iₒ, mₒ]], [(1, [])]⟩,
  -- line 1419: bmle,ijba,lkcd,edjk,caim
  ⟨1, [g_abab [bᵥ, mₒ, lₒ, eᵥ], l2_abab [iₒ, jₒ, bᵥ, aᵥ], l2_abab [lₒ, kₒ, cᵥ, dᵥ], t2_bbbb [eᵥ, dᵥ, jₒ, kₒ], t2_abab [cᵥ, aᵥ, iₒ, mₒ]], [(1, [])]⟩,
  -- line 1422: mble,ijab,kldc,dekj,caim
  ⟨1, [g_abab [mₒ, bᵥ, lₒ, eᵥ], l2_abab [iₒ, jₒ, aᵥ, bᵥ], l2_aaaa [kₒ, lₒ, dᵥ, cᵥ], t2_abab [dᵥ, eᵥ, kₒ, jₒ], t2_aaaa [cᵥ, aᵥ, iₒ, mₒ]], [(1, [])]⟩,
  -- line 1425: mbel,ijab,kldc,dekj,acim
  ⟨1, [g_bbbb [mₒ, bᵥ, eᵥ, lₒ], l2_abab [iₒ, jₒ, aᵥ, bᵥ], l2_abab [kₒ, lₒ, dᵥ, cᵥ], t2_abab [dᵥ, eᵥ, kₒ, jₒ], t2_abab [aᵥ, cᵥ, iₒ, mₒ]], [(1, [])]⟩,
  -- line 1428: mbel,ijab,klcd,edkj,caim
  ⟨-1, [g_abab [mₒ, bᵥ, eᵥ, lₒ], l2_abab [iₒ, jₒ, aᵥ, bᵥ], l2_abab [kₒ, lₒ, cᵥ, dᵥ], t2_abab [eᵥ, dᵥ, kₒ, jₒ], t2_aaaa [cᵥ, aᵥ, iₒ, mₒ]], [(1, [])]⟩,
  -- line 1431: mble,ijab,lkcd,edjk,caim
  ⟨1, [g_abab [mₒ, bᵥ, lₒ, eᵥ], l2_abab [iₒ, jₒ, aᵥ, bᵥ], l2_abab [lₒ, kₒ, cᵥ, dᵥ], t2_bbbb [eᵥ, dᵥ, jₒ, kₒ], t2_aaaa [cᵥ, aᵥ, iₒ, mₒ]], [(1, [])]⟩,
  -- line 1434: mbel,ijab,kldc,edjk,acim
  ⟨1, [g_bbbb [mₒ, bᵥ, eᵥ, lₒ], l2_abab [iₒ, jₒ, aᵥ, bᵥ], l2_bbbb [kₒ, lₒ, dᵥ, cᵥ], t2_bbbb [eᵥ, dᵥ, jₒ, kₒ], t2_abab [aᵥ, cᵥ, iₒ, mₒ]], [(1, [])]⟩,
  -- line 1437: mbel,jiba,kldc,edjk,cami
  ⟨1, [g_aaaa [mₒ, bᵥ, eᵥ, lₒ], l2_abab [jₒ, iₒ, bᵥ, aᵥ], l2_aaaa [kₒ, lₒ, dᵥ, cᵥ], t2_aaaa [eᵥ, dᵥ, jₒ, kₒ], t2_abab [cᵥ, aᵥ, mₒ, iₒ]], [(1, [])]⟩,
  -- line 1440: bmel,jiba,kldc,edjk,caim
  ⟨1, [g_abab [bᵥ, mₒ, eᵥ, lₒ], l2_abab [jₒ, iₒ, bᵥ, aᵥ], l2_abab [kₒ, lₒ, dᵥ, cᵥ], t2_aaaa [eᵥ, dᵥ, jₒ, kₒ], t2_bbbb [cᵥ, aᵥ, iₒ, mₒ]], [(1, [])]⟩,
  -- line 1443: bmle,jiba,lkdc,dejk,caim
  ⟨-1, [g_abab [bᵥ, mₒ, lₒ, eᵥ], l2_abab [jₒ, iₒ, bᵥ, aᵥ], l2_abab [lₒ, kₒ, dᵥ, cᵥ], t2_abab [dᵥ, eᵥ, jₒ, kₒ], t2_bbbb [cᵥ, aᵥ, iₒ, mₒ]], [(1, [])]⟩,
  -- line 1446: mbel,jiba,lkcd,edjk,cami
  ⟨1, [g_aaaa [mₒ, bᵥ, eᵥ, lₒ], l2_abab [jₒ, iₒ, bᵥ, aᵥ], l2_abab [lₒ, kₒ, cᵥ, dᵥ], t2_abab [eᵥ, dᵥ, jₒ, kₒ], t2_abab [cᵥ, aᵥ, mₒ, iₒ]], [(1, [])]⟩,
  -- line 1449: bmel,jiba,kldc,edjk,caim
  ⟨1, [g_abab [bᵥ, mₒ, eᵥ, lₒ], l2_abab [jₒ, iₒ, bᵥ, aᵥ], l2_bbbb [kₒ, lₒ, dᵥ, cᵥ], t2_abab [eᵥ, dᵥ, jₒ, kₒ], t2_bbbb [cᵥ, aᵥ, iₒ, mₒ]], [(1, [])]⟩,
  -- line 1452: mbel,jiab,kldc,edjk,acmi
  ⟨1, [g_abab [mₒ, bᵥ, eᵥ, lₒ], l2_abab [jₒ, iₒ, aᵥ, bᵥ], l2_abab [kₒ, lₒ, dᵥ, cᵥ], t2_aaaa [eᵥ, dᵥ, jₒ, kₒ], t2_abab [aᵥ, cᵥ, mₒ, iₒ]], [(1, [])]⟩,
  -- line 1455: mble,jiab,lkdc,dejk,acmi
  ⟨-1, [g_abab [mₒ, bᵥ, lₒ, eᵥ], l2_abab [jₒ, iₒ, aᵥ, bᵥ], l2_abab [lₒ, kₒ, dᵥ, cᵥ], t2_abab [dᵥ, eᵥ, jₒ, kₒ], t2_abab [aᵥ, cᵥ, mₒ, iₒ]], [(1, [])]⟩
  ]

/-- Part 12 of `si_energy_pertQf`. -/
def si_energy_pertQf_12 : Prog := [
  -- line 1458: mbel,jiab,kldc,edjk,acmi
  ⟨1, [g_abab [mₒ, bᵥ, eᵥ, lₒ], l2_abab [jₒ, iₒ, aᵥ, bᵥ], l2_bbbb [kₒ, lₒ, dᵥ, cᵥ], t2_abab [eᵥ, dᵥ, jₒ, kₒ], t2_abab [aᵥ, cᵥ, mₒ, iₒ]], [(1, [])]⟩,
  -- line 1461: mble,ijba,kldc,dekj,cami
  ⟨1, [g_abab [mₒ, bᵥ, lₒ, eᵥ], l2_bbbb [iₒ, jₒ, bᵥ, aᵥ], l2_aaaa [kₒ, lₒ, dᵥ, cᵥ], t2_abab [dᵥ, eᵥ, kₒ, jₒ], t2_abab [cᵥ, aᵥ, mₒ, iₒ]], [(1, [])]⟩,
  -- line 1464: mbel,ijba,kldc,dekj,caim
  ⟨1, [g_bbbb [mₒ, bᵥ, eᵥ, lₒ], l2_bbbb [iₒ, jₒ, bᵥ, aᵥ], l2_abab [kₒ, lₒ, dᵥ, cᵥ], t2_abab [dᵥ, eᵥ, kₒ, jₒ], t2_bbbb [cᵥ, aᵥ, iₒ, mₒ]], [(1, [])]⟩,
  -- line 1467: mbel,ijba,klcd,edkj,cami
  ⟨-1, [g_abab [mₒ, bᵥ, eᵥ, lₒ], l2_bbbb [iₒ, jₒ, bᵥ, aᵥ], l2_abab [kₒ, lₒ, cᵥ, dᵥ], t2_abab [eᵥ, dᵥ, kₒ, jₒ], t2_abab [cᵥ, aᵥ, mₒ, iₒ]], [(1, [])]⟩,
  -- line 1470: mble,ijba,lkcd,edjk,cami
  ⟨1, [g_abab [mₒ, bᵥ, lₒ, eᵥ], l2_bbbb [iₒ, jₒ, bᵥ, aᵥ], l2_abab [lₒ, kₒ, cᵥ, dᵥ], t2_bbbb [eᵥ, dᵥ, jₒ, kₒ], t2_abab [cᵥ, aᵥ, mₒ, iₒ]], [(1, [])]⟩,
  -- line 1473: mbel,ijba,kldc,edjk,caim
  ⟨1, [g_bbbb [mₒ, bᵥ, eᵥ, lₒ], l2_bbbb [iₒ, jₒ, bᵥ, aᵥ], l2_bbbb [kₒ, lₒ, dᵥ, cᵥ], t2_bbbb [eᵥ, dᵥ, jₒ, kₒ], t2_bbbb [cᵥ, aᵥ, iₒ, mₒ]], [(1, [])]⟩,
  -- line 1476: mbel,ijba,kldc,edij,cakm
  ⟨1/2, [g_aaaa [mₒ, bᵥ, eᵥ, lₒ], l2_aaaa [iₒ, jₒ, bᵥ, aᵥ], l2_aaaa [kₒ, lₒ, dᵥ, cᵥ], t2_aaaa [eᵥ, dᵥ, iₒ, jₒ], t2_aaaa [cᵥ, aᵥ, kₒ, mₒ]], [(1, [])]⟩,
  -- line 1479: bmel,ijba,kldc,edij,ackm
  ⟨1/2, [g_abab [bᵥ, mₒ, eᵥ, lₒ], l2_aaaa [iₒ, jₒ, bᵥ, aᵥ], l2_abab [kₒ, lₒ, dᵥ, cᵥ], t2_aaaa [eᵥ, dᵥ, iₒ, jₒ], t2_abab [aᵥ, cᵥ, kₒ, mₒ]], [(1, [])]⟩,
  -- line 1482: mbel,ijba,lkdc,edij,acmk
  ⟨-1/2, [g_aaaa [mₒ, bᵥ, eᵥ, lₒ], l2_aaaa [iₒ, jₒ, bᵥ, aᵥ], l2_abab [lₒ, kₒ, dᵥ, cᵥ], t2_aaaa [eᵥ, dᵥ, iₒ, jₒ], t2_abab [aᵥ, cᵥ, mₒ, kₒ]], [(1, [])]⟩,
  -- line 1485: bmle,ijba,kldc,deij,cakm
  ⟨-1/2, [g_abab [bᵥ, mₒ, lₒ, eᵥ], l2_abab [iₒ, jₒ, bᵥ, aᵥ], l2_aaaa [kₒ, lₒ, dᵥ, cᵥ], t2_abab [dᵥ, eᵥ, iₒ, jₒ], t2_abab [cᵥ, aᵥ, kₒ, mₒ]], [(1, [])]⟩,
  -- line 1488: bmel,ijba,klcd,edij,cakm
  ⟨1/2, [g_abab [bᵥ, mₒ, eᵥ, lₒ], l2_abab [iₒ, jₒ, bᵥ, aᵥ], l2_abab [kₒ, lₒ, cᵥ, dᵥ], t2_abab [eᵥ, dᵥ, iₒ, jₒ], t2_abab [cᵥ, aᵥ, kₒ, mₒ]], [(1, [])]⟩,
  -- line 1491: bmle,ijba,lkdc,deij,cakm
  ⟨1/2, [g_abab [bᵥ, mₒ, lₒ, eᵥ], l2_abab [iₒ, jₒ, bᵥ, aᵥ], l2_abab [lₒ, kₒ, dᵥ, cᵥ], t2_abab [dᵥ, eᵥ, iₒ, jₒ], t2_bbbb [cᵥ, aᵥ, kₒ, mₒ]], [(1, [])]⟩,
  -- line 1494: mbel,ijba,lkcd,edij,camk
  ⟨-1/2, [g_aaaa [mₒ, bᵥ, eᵥ, lₒ], l2_abab [iₒ, jₒ, bᵥ, aᵥ], l2_abab [lₒ, kₒ, cᵥ, dᵥ], t2_abab [eᵥ, dᵥ, iₒ, jₒ], t2_abab [cᵥ, aᵥ, mₒ, kₒ]], [(1, [])]⟩,
  -- line 1497: bmel,ijba,kldc,edij,cakm
  ⟨-1/2, [g_abab [bᵥ, mₒ, eᵥ, lₒ], l2_abab [iₒ, jₒ, bᵥ, aᵥ], l2_bbbb [kₒ, lₒ, dᵥ, cᵥ], t2_abab [eᵥ, dᵥ, iₒ, jₒ], t2_bbbb [cᵥ, aᵥ, kₒ, mₒ]], [(1, [])]⟩,
  -- line 1500: mble,ijab,kldc,deij,cakm
  ⟨-1/2, [g_abab [mₒ, bᵥ, lₒ, eᵥ], l2_abab [iₒ, jₒ, aᵥ, bᵥ], l2_aaaa [kₒ, lₒ, dᵥ, cᵥ], t2_abab [dᵥ, eᵥ, iₒ, jₒ], t2_aaaa [cᵥ, aᵥ, kₒ, mₒ]], [(1, [])]⟩,
  -- line 1503: mbel,ijab,kldc,deij,ackm
  ⟨-1/2, [g_bbbb [mₒ, bᵥ, eᵥ, lₒ], l2_abab [iₒ, jₒ, aᵥ, bᵥ], l2_abab [kₒ, lₒ, dᵥ, cᵥ], t2_abab [dᵥ, eᵥ, iₒ, jₒ], t2_abab [aᵥ, cᵥ, kₒ, mₒ]], [(1, [])]⟩,
  -- line 1506: mbel,ijab,klcd,edij,cakm
  ⟨1/2, [g_abab [mₒ, bᵥ, eᵥ, lₒ], l2_abab [iₒ, jₒ, aᵥ, bᵥ], l2_abab [kₒ, lₒ, cᵥ, dᵥ], t2_abab [eᵥ, dᵥ, iₒ, jₒ], t2_aaaa [cᵥ, aᵥ, kₒ, mₒ]], [(1, [])]⟩,
  -- line 1509: mble,ijab,lkdc,deij,acmk
  ⟨1/2, [g_abab [mₒ, bᵥ, lₒ, eᵥ], l2_abab [iₒ, jₒ, aᵥ, bᵥ], l2_abab [lₒ, kₒ, dᵥ, cᵥ], t2_abab [dᵥ, eᵥ, iₒ, jₒ], t2_abab [aᵥ, cᵥ, mₒ, kₒ]], [(1, [])]⟩,
  -- line 1512: mbel,ijab,kldc,edij,acmk
  ⟨-1/2, [g_abab [mₒ, bᵥ, eᵥ, lₒ], l2_abab [iₒ, jₒ, aᵥ, bᵥ], l2_bbbb [kₒ, lₒ, dᵥ, cᵥ], t2_abab [eᵥ, dᵥ, iₒ, jₒ], t2_abab [aᵥ, cᵥ, mₒ, kₒ]], [(1, [])]⟩,
  -- line 1515: bmle,jiba,kldc,deji,cakm
  ⟨-1/2, [g_abab [bᵥ, mₒ, lₒ, eᵥ], l2_abab [jₒ, iₒ, bᵥ, aᵥ], l2_aaaa [kₒ, lₒ, dᵥ, cᵥ], t2_abab [dᵥ, eᵥ, jₒ, iₒ], t2_abab [cᵥ, aᵥ, kₒ, mₒ]], [(1, [])]⟩,
  -- line 1518: bmel,jiba,klcd,edji,cakm
  ⟨1/2, [g_abab [bᵥ, mₒ, eᵥ, lₒ], l2_abab [jₒ, iₒ, bᵥ, aᵥ], l2_abab [kₒ, lₒ, cᵥ, dᵥ], t2_abab [eᵥ, dᵥ, jₒ, iₒ], t2_abab [cᵥ, aᵥ, kₒ, mₒ]], [(1, [])]⟩,
  -- line 1521: bmle,jiba,lkdc,deji,cakm
  ⟨1/2, [g_abab [bᵥ, mₒ, lₒ, eᵥ], l2_abab [jₒ, iₒ, bᵥ, aᵥ], l2_abab [lₒ, kₒ, dᵥ, cᵥ], t2_abab [dᵥ, eᵥ, jₒ, iₒ], t2_bbbb [cᵥ, aᵥ, kₒ, mₒ]], [(1, [])]⟩,
  -- line 1524: mbel,jiba,lkcd,edji,camk
  ⟨-1/2, [g_aaaa [mₒ, bᵥ, eᵥ, lₒ], l2_abab [jₒ, iₒ, bᵥ, aᵥ], l2_abab [lₒ, kₒ, cᵥ, dᵥ], t2_abab [eᵥ, dᵥ, jₒ, iₒ], t2_abab [cᵥ, aᵥ, mₒ, kₒ]], [(1, [])]⟩,
  -- line 1527: bmel,jiba,kldc,edji,cakm
  ⟨-1/2, [g_abab [bᵥ, mₒ, eᵥ, lₒ], l2_abab [jₒ, iₒ, bᵥ, aᵥ], l2_bbbb [kₒ, lₒ, dᵥ, cᵥ], t2_abab [eᵥ, dᵥ, jₒ, iₒ], t2_bbbb [cᵥ, aᵥ, kₒ, mₒ]], [(1, [])]⟩,
  -- line 1530: mble,jiab,kldc,deji,cakm
  ⟨-1/2, [g_abab [mₒ, bᵥ, lₒ, eᵥ], l2_abab [jₒ, iₒ, aᵥ, bᵥ], l2_aaaa [kₒ, lₒ, dᵥ, cᵥ], t2_abab [dᵥ, eᵥ, jₒ, iₒ], t2_aaaa [cᵥ, aᵥ, kₒ, mₒ]], [(1, [])]⟩,
  -- line 1533: mbel,jiab,kldc,deji,ackm
  ⟨-1/2, [g_bbbb [mₒ, bᵥ, eᵥ, lₒ], l2_abab [jₒ, iₒ, aᵥ, bᵥ], l2_abab [kₒ, lₒ, dᵥ, cᵥ], t2_abab [dᵥ, eᵥ, jₒ, iₒ], t2_abab [aᵥ, cᵥ, kₒ, mₒ]], [(1, [])]⟩,
  -- line 1536: mbel,jiab,klcd,edji,cakm
  ⟨1/2, [g_abab [mₒ, bᵥ, eᵥ, lₒ], l2_abab [jₒ, iₒ, aᵥ, bᵥ], l2_abab [kₒ, lₒ, cᵥ, dᵥ], t2_abab [eᵥ, dᵥ, jₒ, iₒ], t2_aaaa [cᵥ, aᵥ, kₒ, mₒ]], [(1, [])]⟩,
  -- line 1539: mble,jiab,lkdc,deji,acmk
  ⟨1/2, [g_abab [mₒ, bᵥ, lₒ, eᵥ], l2_abab [jₒ, iₒ, aᵥ, bᵥ], l2_abab [lₒ, kₒ, dᵥ, cᵥ], t2_abab [dᵥ, eᵥ, jₒ, iₒ], t2_abab [aᵥ, cᵥ, mₒ, kₒ]], [(1, [])]⟩,
  -- line 1542: mbel,jiab,kldc,edji,acmk
  ⟨-1/2, [g_abab [mₒ, bᵥ, eᵥ, lₒ], l2_abab [jₒ, iₒ, aᵥ, bᵥ], l2_bbbb [kₒ, lₒ, dᵥ, cᵥ], t2_abab [eᵥ, dᵥ, jₒ, iₒ], t2_abab [aᵥ, cᵥ, mₒ, kₒ]], [(1, [])]⟩,
  -- line 1545: mbel,ijba,klcd,edij,cakm
  ⟨-1/2, [g_bbbb [mₒ, bᵥ, eᵥ, lₒ], l2_bbbb [iₒ, jₒ, bᵥ, aᵥ], l2_abab [kₒ, lₒ, cᵥ, dᵥ], t2_bbbb [eᵥ, dᵥ, iₒ, jₒ], t2_abab [cᵥ, aᵥ, kₒ, mₒ]], [(1, [])]⟩,
  -- line 1548: mble,ijba,lkcd,edij,camk
  ⟨1/2, [g_abab [mₒ, bᵥ, lₒ, eᵥ], l2_bbbb [iₒ, jₒ, bᵥ, aᵥ], l2_abab [lₒ, kₒ, cᵥ, dᵥ], t2_bbbb [eᵥ, dᵥ, iₒ, jₒ], t2_abab [cᵥ, aᵥ, mₒ, kₒ]], [(1, [])]⟩,
  -- line 1551: mbel,ijba,kldc,edij,cakm
  ⟨1/2, [g_bbbb [mₒ, bᵥ, eᵥ, lₒ], l2_bbbb [iₒ, jₒ, bᵥ, aᵥ], l2_bbbb [kₒ, lₒ, dᵥ, cᵥ], t2_bbbb [eᵥ, dᵥ, iₒ, jₒ], t2_bbbb [cᵥ, aᵥ, kₒ, mₒ]], [(1, [])]⟩,
  -- line 1554: mbel,ijba,kldc,eajk,dcim
  ⟨1/2, [g_aaaa [mₒ, bᵥ, eᵥ, lₒ], l2_aaaa [iₒ, jₒ, bᵥ, aᵥ], l2_aaaa [kₒ, lₒ, dᵥ, cᵥ], t2_aaaa [eᵥ, aᵥ, jₒ, kₒ], t2_aaaa [dᵥ, cᵥ, iₒ, mₒ]], [(1, [])]⟩,
  -- line 1557: bmel,ijba,kldc,eajk,dcim
  ⟨-1/2, [g_abab [bᵥ, mₒ, eᵥ, lₒ], l2_aaaa [iₒ, jₒ, bᵥ, aᵥ], l2_abab [kₒ, lₒ, dᵥ, cᵥ], t2_aaaa [eᵥ, aᵥ, jₒ, kₒ], t2_abab [dᵥ, cᵥ, iₒ, mₒ]], [(1, [])]⟩,
  -- line 1560: bmel,ijba,klcd,eajk,cdim
  ⟨-1/2, [g_abab [bᵥ, mₒ, eᵥ, lₒ], l2_aaaa [iₒ, jₒ, bᵥ, aᵥ], l2_abab [kₒ, lₒ, cᵥ, dᵥ], t2_aaaa [eᵥ, aᵥ, jₒ, kₒ], t2_abab [cᵥ, dᵥ, iₒ, mₒ]], [(1, [])]⟩,
  -- line 1563: bmle,ijba,lkdc,aejk,dcim
  ⟨1/2, [g_abab [bᵥ, mₒ, lₒ, eᵥ], l2_aaaa [iₒ, jₒ, bᵥ, aᵥ], l2_abab [lₒ, kₒ, dᵥ, cᵥ], t2_abab [aᵥ, eᵥ, jₒ, kₒ], t2_abab [dᵥ, cᵥ, iₒ, mₒ]], [(1, [])]⟩,
  -- line 1566: bmle,ijba,lkcd,aejk,cdim
  ⟨1/2, [g_abab [bᵥ, mₒ, lₒ, eᵥ], l2_aaaa [iₒ, jₒ, bᵥ, aᵥ], l2_abab [lₒ, kₒ, cᵥ, dᵥ], t2_abab [aᵥ, eᵥ, jₒ, kₒ], t2_abab [cᵥ, dᵥ, iₒ, mₒ]], [(1, [])]⟩,
  -- line 1569: mbel,ijba,kldc,eakj,dcim
  ⟨-1/2, [g_aaaa [mₒ, bᵥ, eᵥ, lₒ], l2_abab [iₒ, jₒ, bᵥ, aᵥ], l2_aaaa [kₒ, lₒ, dᵥ, cᵥ], t2_abab [eᵥ, aᵥ, kₒ, jₒ], t2_aaaa [dᵥ, cᵥ, iₒ, mₒ]], [(1, [])]⟩,
  -- line 1572: bmel,ijba,kldc,eakj,dcim
  ⟨1/2, [g_abab [bᵥ, mₒ, eᵥ, lₒ], l2_abab [iₒ, jₒ, bᵥ, aᵥ], l2_abab [kₒ, lₒ, dᵥ, cᵥ], t2_abab [eᵥ, aᵥ, kₒ, jₒ], t2_abab [dᵥ, cᵥ, iₒ, mₒ]], [(1, [])]⟩,
  -- line 1575: bmel,ijba,klcd,eakj,cdim
  ⟨1/2, [g_abab [bᵥ, mₒ, eᵥ, lₒ], l2_abab [iₒ, jₒ, bᵥ, aᵥ], l2_abab [kₒ, lₒ, cᵥ, dᵥ], t2_abab [eᵥ, aᵥ, kₒ, jₒ], t2_abab [cᵥ, dᵥ, iₒ, mₒ]], [(1, [])]⟩
  ]

/-- Part 13 of `si_energy_pertQf`. -/
def si_energy_pertQf_13 : Prog := [
  -- line 1578: bmle,ijba,lkdc,eajk,dcim
  ⟨-1/2, [g_abab [bᵥ, mₒ, lₒ, eᵥ], l2_abab [iₒ, jₒ, bᵥ, aᵥ], l2_abab [lₒ, kₒ, dᵥ, cᵥ], t2_bbbb [eᵥ, aᵥ, jₒ, kₒ], t2_abab [dᵥ, cᵥ, iₒ, mₒ]], [(1, [])]⟩,
  -- line 1581: bmle,ijba,lkcd,eajk,cdim
  ⟨-1/2, [g_abab [bᵥ, mₒ, lₒ, eᵥ], l2_abab [iₒ, jₒ, bᵥ, aᵥ], l2_abab [lₒ, kₒ, cᵥ, dᵥ], t2_bbbb [eᵥ, aᵥ, jₒ, kₒ], t2_abab [cᵥ, dᵥ, iₒ, mₒ]], [(1, [])]⟩,
  -- line 1584: mble,ijab,kldc,aekj,dcim
  ⟨1/2, [g_abab [mₒ, bᵥ, lₒ, eᵥ], l2_abab [iₒ, jₒ, aᵥ, bᵥ], l2_aaaa [kₒ, lₒ, dᵥ, cᵥ], t2_abab [aᵥ, eᵥ, kₒ, jₒ], t2_aaaa [dᵥ, cᵥ, iₒ, mₒ]], [(1, [])]⟩,
  -- line 1587: mbel,ijab,kldc,aekj,dcim
  ⟨-1/2, [g_bbbb [mₒ, bᵥ, eᵥ, lₒ], l2_abab [iₒ, jₒ, aᵥ, bᵥ], l2_abab [kₒ, lₒ, dᵥ, cᵥ], t2_abab [aᵥ, eᵥ, kₒ, jₒ], t2_abab [dᵥ, cᵥ, iₒ, mₒ]], [(1, [])]⟩,
  -- line 1590: mbel,ijab,klcd,aekj,cdim
  ⟨-1/2, [g_bbbb [mₒ, bᵥ, eᵥ, lₒ], l2_abab [iₒ, jₒ, aᵥ, bᵥ], l2_abab [kₒ, lₒ, cᵥ, dᵥ], t2_abab [aᵥ, eᵥ, kₒ, jₒ], t2_abab [cᵥ, dᵥ, iₒ, mₒ]], [(1, [])]⟩,
  -- line 1593: mbel,jiba,lkdc,eajk,dcmi
  ⟨-1/2, [g_aaaa [mₒ, bᵥ, eᵥ, lₒ], l2_abab [jₒ, iₒ, bᵥ, aᵥ], l2_abab [lₒ, kₒ, dᵥ, cᵥ], t2_abab [eᵥ, aᵥ, jₒ, kₒ], t2_abab [dᵥ, cᵥ, mₒ, iₒ]], [(1, [])]⟩,
  -- line 1596: mbel,jiba,lkcd,eajk,cdmi
  ⟨-1/2, [g_aaaa [mₒ, bᵥ, eᵥ, lₒ], l2_abab [jₒ, iₒ, bᵥ, aᵥ], l2_abab [lₒ, kₒ, cᵥ, dᵥ], t2_abab [eᵥ, aᵥ, jₒ, kₒ], t2_abab [cᵥ, dᵥ, mₒ, iₒ]], [(1, [])]⟩,
  -- line 1599: bmel,jiba,kldc,eajk,dcim
  ⟨1/2, [g_abab [bᵥ, mₒ, eᵥ, lₒ], l2_abab [jₒ, iₒ, bᵥ, aᵥ], l2_bbbb [kₒ, lₒ, dᵥ, cᵥ], t2_abab [eᵥ, aᵥ, jₒ, kₒ], t2_bbbb [dᵥ, cᵥ, iₒ, mₒ]], [(1, [])]⟩,
  -- line 1602: mbel,jiab,kldc,eajk,dcmi
  ⟨-1/2, [g_abab [mₒ, bᵥ, eᵥ, lₒ], l2_abab [jₒ, iₒ, aᵥ, bᵥ], l2_abab [kₒ, lₒ, dᵥ, cᵥ], t2_aaaa [eᵥ, aᵥ, jₒ, kₒ], t2_abab [dᵥ, cᵥ, mₒ, iₒ]], [(1, [])]⟩,
  -- line 1605: mbel,jiab,klcd,eajk,cdmi
  ⟨-1/2, [g_abab [mₒ, bᵥ, eᵥ, lₒ], l2_abab [jₒ, iₒ, aᵥ, bᵥ], l2_abab [kₒ, lₒ, cᵥ, dᵥ], t2_aaaa [eᵥ, aᵥ, jₒ, kₒ], t2_abab [cᵥ, dᵥ, mₒ, iₒ]], [(1, [])]⟩,
  -- line 1608: mble,jiab,lkdc,aejk,dcmi
  ⟨1/2, [g_abab [mₒ, bᵥ, lₒ, eᵥ], l2_abab [jₒ, iₒ, aᵥ, bᵥ], l2_abab [lₒ, kₒ, dᵥ, cᵥ], t2_abab [aᵥ, eᵥ, jₒ, kₒ], t2_abab [dᵥ, cᵥ, mₒ, iₒ]], [(1, [])]⟩,
  -- line 1611: mble,jiab,lkcd,aejk,cdmi
  ⟨1/2, [g_abab [mₒ, bᵥ, lₒ, eᵥ], l2_abab [jₒ, iₒ, aᵥ, bᵥ], l2_abab [lₒ, kₒ, cᵥ, dᵥ], t2_abab [aᵥ, eᵥ, jₒ, kₒ], t2_abab [cᵥ, dᵥ, mₒ, iₒ]], [(1, [])]⟩,
  -- line 1614: mbel,jiab,kldc,aejk,dcim
  ⟨-1/2, [g_bbbb [mₒ, bᵥ, eᵥ, lₒ], l2_abab [jₒ, iₒ, aᵥ, bᵥ], l2_bbbb [kₒ, lₒ, dᵥ, cᵥ], t2_abab [aᵥ, eᵥ, jₒ, kₒ], t2_bbbb [dᵥ, cᵥ, iₒ, mₒ]], [(1, [])]⟩,
  -- line 1617: mbel,ijba,kldc,eakj,dcmi
  ⟨1/2, [g_abab [mₒ, bᵥ, eᵥ, lₒ], l2_bbbb [iₒ, jₒ, bᵥ, aᵥ], l2_abab [kₒ, lₒ, dᵥ, cᵥ], t2_abab [eᵥ, aᵥ, kₒ, jₒ], t2_abab [dᵥ, cᵥ, mₒ, iₒ]], [(1, [])]⟩,
  -- line 1620: mbel,ijba,klcd,eakj,cdmi
  ⟨1/2, [g_abab [mₒ, bᵥ, eᵥ, lₒ], l2_bbbb [iₒ, jₒ, bᵥ, aᵥ], l2_abab [kₒ, lₒ, cᵥ, dᵥ], t2_abab [eᵥ, aᵥ, kₒ, jₒ], t2_abab [cᵥ, dᵥ, mₒ, iₒ]], [(1, [])]⟩,
  -- line 1623: mble,ijba,lkdc,eajk,dcmi
  ⟨-1/2, [g_abab [mₒ, bᵥ, lₒ, eᵥ], l2_bbbb [iₒ, jₒ, bᵥ, aᵥ], l2_abab [lₒ, kₒ, dᵥ, cᵥ], t2_bbbb [eᵥ, aᵥ, jₒ, kₒ], t2_abab [dᵥ, cᵥ, mₒ, iₒ]], [(1, [])]⟩,
  -- line 1626: mble,ijba,lkcd,eajk,cdmi
  ⟨-1/2, [g_abab [mₒ, bᵥ, lₒ, eᵥ], l2_bbbb [iₒ, jₒ, bᵥ, aᵥ], l2_abab [lₒ, kₒ, cᵥ, dᵥ], t2_bbbb [eᵥ, aᵥ, jₒ, kₒ], t2_abab [cᵥ, dᵥ, mₒ, iₒ]], [(1, [])]⟩,
  -- line 1629: mbel,ijba,kldc,eajk,dcim
  ⟨1/2, [g_bbbb [mₒ, bᵥ, eᵥ, lₒ], l2_bbbb [iₒ, jₒ, bᵥ, aᵥ], l2_bbbb [kₒ, lₒ, dᵥ, cᵥ], t2_bbbb [eᵥ, aᵥ, jₒ, kₒ], t2_bbbb [dᵥ, cᵥ, iₒ, mₒ]], [(1, [])]⟩,
  -- line 1632: mbel,ijba,kldc,eaij,dckm
  ⟨1/4, [g_aaaa [mₒ, bᵥ, eᵥ, lₒ], l2_aaaa [iₒ, jₒ, bᵥ, aᵥ], l2_aaaa [kₒ, lₒ, dᵥ, cᵥ], t2_aaaa [eᵥ, aᵥ, iₒ, jₒ], t2_aaaa [dᵥ, cᵥ, kₒ, mₒ]], [(1, [])]⟩,
  -- line 1635: bmel,ijba,kldc,eaij,dckm
  ⟨-1/4, [g_abab [bᵥ, mₒ, eᵥ, lₒ], l2_aaaa [iₒ, jₒ, bᵥ, aᵥ], l2_abab [kₒ, lₒ, dᵥ, cᵥ], t2_aaaa [eᵥ, aᵥ, iₒ, jₒ], t2_abab [dᵥ, cᵥ, kₒ, mₒ]], [(1, [])]⟩,
  -- line 1638: bmel,ijba,klcd,eaij,cdkm
  ⟨-1/4, [g_abab [bᵥ, mₒ, eᵥ, lₒ], l2_aaaa [iₒ, jₒ, bᵥ, aᵥ], l2_abab [kₒ, lₒ, cᵥ, dᵥ], t2_aaaa [eᵥ, aᵥ, iₒ, jₒ], t2_abab [cᵥ, dᵥ, kₒ, mₒ]], [(1, [])]⟩,
  -- line 1641: mbel,ijba,lkdc,eaij,dcmk
  ⟨1/4, [g_aaaa [mₒ, bᵥ, eᵥ, lₒ], l2_aaaa [iₒ, jₒ, bᵥ, aᵥ], l2_abab [lₒ, kₒ, dᵥ, cᵥ], t2_aaaa [eᵥ, aᵥ, iₒ, jₒ], t2_abab [dᵥ, cᵥ, mₒ, kₒ]], [(1, [])]⟩,
  -- line 1644: mbel,ijba,lkcd,eaij,cdmk
  ⟨1/4, [g_aaaa [mₒ, bᵥ, eᵥ, lₒ], l2_aaaa [iₒ, jₒ, bᵥ, aᵥ], l2_abab [lₒ, kₒ, cᵥ, dᵥ], t2_aaaa [eᵥ, aᵥ, iₒ, jₒ], t2_abab [cᵥ, dᵥ, mₒ, kₒ]], [(1, [])]⟩,
  -- line 1647: bmel,ijba,kldc,eaij,dckm
  ⟨-1/4, [g_abab [bᵥ, mₒ, eᵥ, lₒ], l2_aaaa [iₒ, jₒ, bᵥ, aᵥ], l2_bbbb [kₒ, lₒ, dᵥ, cᵥ], t2_aaaa [eᵥ, aᵥ, iₒ, jₒ], t2_bbbb [dᵥ, cᵥ, kₒ, mₒ]], [(1, [])]⟩,
  -- line 1650: mbel,ijba,kldc,eaij,dckm
  ⟨1/4, [g_aaaa [mₒ, bᵥ, eᵥ, lₒ], l2_abab [iₒ, jₒ, bᵥ, aᵥ], l2_aaaa [kₒ, lₒ, dᵥ, cᵥ], t2_abab [eᵥ, aᵥ, iₒ, jₒ], t2_aaaa [dᵥ, cᵥ, kₒ, mₒ]], [(1, [])]⟩,
  -- line 1653: bmel,ijba,kldc,eaij,dckm
  ⟨-1/4, [g_abab [bᵥ, mₒ, eᵥ, lₒ], l2_abab [iₒ, jₒ, bᵥ, aᵥ], l2_abab [kₒ, lₒ, dᵥ, cᵥ], t2_abab [eᵥ, aᵥ, iₒ, jₒ], t2_abab [dᵥ, cᵥ, kₒ, mₒ]], [(1, [])]⟩,
  -- line 1656: bmel,ijba,klcd,eaij,cdkm
  ⟨-1/4, [g_abab [bᵥ, mₒ, eᵥ, lₒ], l2_abab [iₒ, jₒ, bᵥ, aᵥ], l2_abab [kₒ, lₒ, cᵥ, dᵥ], t2_abab [eᵥ, aᵥ, iₒ, jₒ], t2_abab [cᵥ, dᵥ, kₒ, mₒ]], [(1, [])]⟩,
  -- line 1659: mbel,ijba,lkdc,eaij,dcmk
  ⟨1/4, [g_aaaa [mₒ, bᵥ, eᵥ, lₒ], l2_abab [iₒ, jₒ, bᵥ, aᵥ], l2_abab [lₒ, kₒ, dᵥ, cᵥ], t2_abab [eᵥ, aᵥ, iₒ, jₒ], t2_abab [dᵥ, cᵥ, mₒ, kₒ]], [(1, [])]⟩,
  -- line 1662: mbel,ijba,lkcd,eaij,cdmk
  ⟨1/4, [g_aaaa [mₒ, bᵥ, eᵥ, lₒ], l2_abab [iₒ, jₒ, bᵥ, aᵥ], l2_abab [lₒ, kₒ, cᵥ, dᵥ], t2_abab [eᵥ, aᵥ, iₒ, jₒ], t2_abab [cᵥ, dᵥ, mₒ, kₒ]], [(1, [])]⟩,
  -- line 1665: bmel,ijba,kldc,eaij,dckm
  ⟨-1/4, [g_abab [bᵥ, mₒ, eᵥ, lₒ], l2_abab [iₒ, jₒ, bᵥ, aᵥ], l2_bbbb [kₒ, lₒ, dᵥ, cᵥ], t2_abab [eᵥ, aᵥ, iₒ, jₒ], t2_bbbb [dᵥ, cᵥ, kₒ, mₒ]], [(1, [])]⟩,
  -- line 1668: mble,ijab,kldc,aeij,dckm
  ⟨-1/4, [g_abab [mₒ, bᵥ, lₒ, eᵥ], l2_abab [iₒ, jₒ, aᵥ, bᵥ], l2_aaaa [kₒ, lₒ, dᵥ, cᵥ], t2_abab [aᵥ, eᵥ, iₒ, jₒ], t2_aaaa [dᵥ, cᵥ, kₒ, mₒ]], [(1, [])]⟩,
  -- line 1671: mbel,ijab,kldc,aeij,dckm
  ⟨1/4, [g_bbbb [mₒ, bᵥ, eᵥ, lₒ], l2_abab [iₒ, jₒ, aᵥ, bᵥ], l2_abab [kₒ, lₒ, dᵥ, cᵥ], t2_abab [aᵥ, eᵥ, iₒ, jₒ], t2_abab [dᵥ, cᵥ, kₒ, mₒ]], [(1, [])]⟩,
  -- line 1674: mbel,ijab,klcd,aeij,cdkm
  ⟨1/4, [g_bbbb [mₒ, bᵥ, eᵥ, lₒ], l2_abab [iₒ, jₒ, aᵥ, bᵥ], l2_abab [kₒ, lₒ, cᵥ, dᵥ], t2_abab [aᵥ, eᵥ, iₒ, jₒ], t2_abab [cᵥ, dᵥ, kₒ, mₒ]], [(1, [])]⟩,
  -- line 1677: mble,ijab,lkdc,aeij,dcmk
  ⟨-1/4, [g_abab [mₒ, bᵥ, lₒ, eᵥ], l2_abab [iₒ, jₒ, aᵥ, bᵥ], l2_abab [lₒ, kₒ, dᵥ, cᵥ], t2_abab [aᵥ, eᵥ, iₒ, jₒ], t2_abab [dᵥ, cᵥ, mₒ, kₒ]], [(1, [])]⟩,
  -- line 1680: mble,ijab,lkcd,aeij,cdmk
  ⟨-1/4, [g_abab [mₒ, bᵥ, lₒ, eᵥ], l2_abab [iₒ, jₒ, aᵥ, bᵥ], l2_abab [lₒ, kₒ, cᵥ, dᵥ], t2_abab [aᵥ, eᵥ, iₒ, jₒ], t2_abab [cᵥ, dᵥ, mₒ, kₒ]], [(1, [])]⟩,
  -- line 1683: mbel,ijab,kldc,aeij,dckm
  ⟨1/4, [g_bbbb [mₒ, bᵥ, eᵥ, lₒ], l2_abab [iₒ, jₒ, aᵥ, bᵥ], l2_bbbb [kₒ, lₒ, dᵥ, cᵥ], t2_abab [aᵥ, eᵥ, iₒ, jₒ], t2_bbbb [dᵥ, cᵥ, kₒ, mₒ]], [(1, [])]⟩,
  -- line 1686: mbel,jiba,kldc,eaji,dckm
  ⟨1/4, [g_aaaa [mₒ, bᵥ, eᵥ, lₒ], l2_abab [jₒ, iₒ, bᵥ, aᵥ], l2_aaaa [kₒ, lₒ, dᵥ, cᵥ], t2_abab [eᵥ, aᵥ, jₒ, iₒ], t2_aaaa [dᵥ, cᵥ, kₒ, mₒ]], [(1, [])]⟩,
  -- line 1689: bmel,jiba,kldc,eaji,dckm
  ⟨-1/4, [g_abab [bᵥ, mₒ, eᵥ, lₒ], l2_abab [jₒ, iₒ, bᵥ, aᵥ], l2_abab [kₒ, lₒ, dᵥ, cᵥ], t2_abab [eᵥ, aᵥ, jₒ, iₒ], t2_abab [dᵥ, cᵥ, kₒ, mₒ]], [(1, [])]⟩,
  -- line 1692: bmel,jiba,klcd,eaji,cdkm
  ⟨-1/4, [g_abab [bᵥ, mₒ, eᵥ, lₒ], l2_abab [jₒ, iₒ, bᵥ, aᵥ], l2_abab [kₒ, lₒ, cᵥ, dᵥ], t2_abab [eᵥ, aᵥ, jₒ, iₒ], t2_abab [cᵥ, dᵥ, kₒ, mₒ]], [(1, [])]⟩,
  -- line 1695: mbel,jiba,lkdc,eaji,dcmk
  ⟨1/4, [g_aaaa [mₒ, bᵥ, eᵥ, lₒ], l2_abab [jₒ, iₒ, bᵥ, aᵥ], l2_abab [lₒ, kₒ, dᵥ, cᵥ], t2_abab [eᵥ, aᵥ, jₒ, iₒ], t2_abab [dᵥ, cᵥ, mₒ, kₒ]], [(1, [])]⟩
  ]

/-- Part 14 of `si_energy_pertQf`. -/
def si_energy_pertQf_14 : Prog := [
  -- line 1698: mbel,jiba,lkcd,eaji,cdmk
  ⟨1/4, [g_aaaa [mₒ, bᵥ, eᵥ, lₒ], l2_abab [jₒ, iₒ, bᵥ, aᵥ], l2_abab [lₒ, kₒ, cᵥ, dᵥ], t2_abab [eᵥ, aᵥ, jₒ, iₒ], t2_abab [cᵥ, dᵥ, mₒ, kₒ]], [(1, [])]⟩,
  -- line 1701: bmel,jiba,kldc,eaji,dckm
  ⟨-1/4, [g_abab [bᵥ, mₒ, eᵥ, lₒ], l2_abab [jₒ, iₒ, bᵥ, aᵥ], l2_bbbb [kₒ, lₒ, dᵥ, cᵥ], t2_abab [eᵥ, aᵥ, jₒ, iₒ], t2_bbbb [dᵥ, cᵥ, kₒ, mₒ]], [(1, [])]⟩,
  -- line 1704: mble,jiab,kldc,aeji,dckm
  ⟨-1/4, [g_abab [mₒ, bᵥ, lₒ, eᵥ], l2_abab [jₒ, iₒ, aᵥ, bᵥ], l2_aaaa [kₒ, lₒ, dᵥ, cᵥ], t2_abab [aᵥ, eᵥ, jₒ, iₒ], t2_aaaa [dᵥ, cᵥ, kₒ, mₒ]], [(1, [])]⟩,
  -- line 1707: mbel,jiab,kldc,aeji,dckm
  ⟨1/4, [g_bbbb [mₒ, bᵥ, eᵥ, lₒ], l2_abab [jₒ, iₒ, aᵥ, bᵥ], l2_abab [kₒ, lₒ, dᵥ, cᵥ], t2_abab [aᵥ, eᵥ, jₒ, iₒ], t2_abab [dᵥ, cᵥ, kₒ, mₒ]], [(1, [])]⟩,
  -- line 1710: mbel,jiab,klcd,aeji,cdkm
  ⟨1/4, [g_bbbb [mₒ, bᵥ, eᵥ, lₒ], l2_abab [jₒ, iₒ, aᵥ, bᵥ], l2_abab [kₒ, lₒ, cᵥ, dᵥ], t2_abab [aᵥ, eᵥ, jₒ, iₒ], t2_abab [cᵥ, dᵥ, kₒ, mₒ]], [(1, [])]⟩,
  -- line 1713: mble,jiab,lkdc,aeji,dcmk
  ⟨-1/4, [g_abab [mₒ, bᵥ, lₒ, eᵥ], l2_abab [jₒ, iₒ, aᵥ, bᵥ], l2_abab [lₒ, kₒ, dᵥ, cᵥ], t2_abab [aᵥ, eᵥ, jₒ, iₒ], t2_abab [dᵥ, cᵥ, mₒ, kₒ]], [(1, [])]⟩,
  -- line 1716: mble,jiab,lkcd,aeji,cdmk
  ⟨-1/4, [g_abab [mₒ, bᵥ, lₒ, eᵥ], l2_abab [jₒ, iₒ, aᵥ, bᵥ], l2_abab [lₒ, kₒ, cᵥ, dᵥ], t2_abab [aᵥ, eᵥ, jₒ, iₒ], t2_abab [cᵥ, dᵥ, mₒ, kₒ]], [(1, [])]⟩,
  -- line 1719: mbel,jiab,kldc,aeji,dckm
  ⟨1/4, [g_bbbb [mₒ, bᵥ, eᵥ, lₒ], l2_abab [jₒ, iₒ, aᵥ, bᵥ], l2_bbbb [kₒ, lₒ, dᵥ, cᵥ], t2_abab [aᵥ, eᵥ, jₒ, iₒ], t2_bbbb [dᵥ, cᵥ, kₒ, mₒ]], [(1, [])]⟩,
  -- line 1722: mble,ijba,kldc,eaij,dckm
  ⟨-1/4, [g_abab [mₒ, bᵥ, lₒ, eᵥ], l2_bbbb [iₒ, jₒ, bᵥ, aᵥ], l2_aaaa [kₒ, lₒ, dᵥ, cᵥ], t2_bbbb [eᵥ, aᵥ, iₒ, jₒ], t2_aaaa [dᵥ, cᵥ, kₒ, mₒ]], [(1, [])]⟩,
  -- line 1725: mbel,ijba,kldc,eaij,dckm
  ⟨1/4, [g_bbbb [mₒ, bᵥ, eᵥ, lₒ], l2_bbbb [iₒ, jₒ, bᵥ, aᵥ], l2_abab [kₒ, lₒ, dᵥ, cᵥ], t2_bbbb [eᵥ, aᵥ, iₒ, jₒ], t2_abab [dᵥ, cᵥ, kₒ, mₒ]], [(1, [])]⟩,
  -- line 1728: mbel,ijba,klcd,eaij,cdkm
  ⟨1/4, [g_bbbb [mₒ, bᵥ, eᵥ, lₒ], l2_bbbb [iₒ, jₒ, bᵥ, aᵥ], l2_abab [kₒ, lₒ, cᵥ, dᵥ], t2_bbbb [eᵥ, aᵥ, iₒ, jₒ], t2_abab [cᵥ, dᵥ, kₒ, mₒ]], [(1, [])]⟩,
  -- line 1731: mble,ijba,lkdc,eaij,dcmk
  ⟨-1/4, [g_abab [mₒ, bᵥ, lₒ, eᵥ], l2_bbbb [iₒ, jₒ, bᵥ, aᵥ], l2_abab [lₒ, kₒ, dᵥ, cᵥ], t2_bbbb [eᵥ, aᵥ, iₒ, jₒ], t2_abab [dᵥ, cᵥ, mₒ, kₒ]], [(1, [])]⟩,
  -- line 1734: mble,ijba,lkcd,eaij,cdmk
  ⟨-1/4, [g_abab [mₒ, bᵥ, lₒ, eᵥ], l2_bbbb [iₒ, jₒ, bᵥ, aᵥ], l2_abab [lₒ, kₒ, cᵥ, dᵥ], t2_bbbb [eᵥ, aᵥ, iₒ, jₒ], t2_abab [cᵥ, dᵥ, mₒ, kₒ]], [(1, [])]⟩,
  -- line 1737: mbel,ijba,kldc,eaij,dckm
  ⟨1/4, [g_bbbb [mₒ, bᵥ, eᵥ, lₒ], l2_bbbb [iₒ, jₒ, bᵥ, aᵥ], l2_bbbb [kₒ, lₒ, dᵥ, cᵥ], t2_bbbb [eᵥ, aᵥ, iₒ, jₒ], t2_bbbb [dᵥ, cᵥ, kₒ, mₒ]], [(1, [])]⟩,
  -- line 1740: mbej,ijba,kldc,edkl,caim
  ⟨1/2, [g_aaaa [mₒ, bᵥ, eᵥ, jₒ], l2_aaaa [iₒ, jₒ, bᵥ, aᵥ], l2_aaaa [kₒ, lₒ, dᵥ, cᵥ], t2_aaaa [eᵥ, dᵥ, kₒ, lₒ], t2_aaaa [cᵥ, aᵥ, iₒ, mₒ]], [(1, [])]⟩,
  -- line 1743: bmje,ijba,kldc,dekl,acim
  ⟨1/2, [g_abab [bᵥ, mₒ, jₒ, eᵥ], l2_aaaa [iₒ, jₒ, bᵥ, aᵥ], l2_abab [kₒ, lₒ, dᵥ, cᵥ], t2_abab [dᵥ, eᵥ, kₒ, lₒ], t2_abab [aᵥ, cᵥ, iₒ, mₒ]], [(1, [])]⟩,
  -- line 1746: mbej,ijba,klcd,edkl,caim
  ⟨-1/2, [g_aaaa [mₒ, bᵥ, eᵥ, jₒ], l2_aaaa [iₒ, jₒ, bᵥ, aᵥ], l2_abab [kₒ, lₒ, cᵥ, dᵥ], t2_abab [eᵥ, dᵥ, kₒ, lₒ], t2_aaaa [cᵥ, aᵥ, iₒ, mₒ]], [(1, [])]⟩,
  -- line 1749: bmje,ijba,lkdc,delk,acim
  ⟨1/2, [g_abab [bᵥ, mₒ, jₒ, eᵥ], l2_aaaa [iₒ, jₒ, bᵥ, aᵥ], l2_abab [lₒ, kₒ, dᵥ, cᵥ], t2_abab [dᵥ, eᵥ, lₒ, kₒ], t2_abab [aᵥ, cᵥ, iₒ, mₒ]], [(1, [])]⟩,
  -- line 1752: mbej,ijba,lkcd,edlk,caim
  ⟨-1/2, [g_aaaa [mₒ, bᵥ, eᵥ, jₒ], l2_aaaa [iₒ, jₒ, bᵥ, aᵥ], l2_abab [lₒ, kₒ, cᵥ, dᵥ], t2_abab [eᵥ, dᵥ, lₒ, kₒ], t2_aaaa [cᵥ, aᵥ, iₒ, mₒ]], [(1, [])]⟩,
  -- line 1755: bmje,ijba,kldc,edkl,acim
  ⟨-1/2, [g_abab [bᵥ, mₒ, jₒ, eᵥ], l2_aaaa [iₒ, jₒ, bᵥ, aᵥ], l2_bbbb [kₒ, lₒ, dᵥ, cᵥ], t2_bbbb [eᵥ, dᵥ, kₒ, lₒ], t2_abab [aᵥ, cᵥ, iₒ, mₒ]], [(1, [])]⟩,
  -- line 1758: bmej,ijba,kldc,edkl,caim
  ⟨-1/2, [g_abab [bᵥ, mₒ, eᵥ, jₒ], l2_abab [iₒ, jₒ, bᵥ, aᵥ], l2_aaaa [kₒ, lₒ, dᵥ, cᵥ], t2_aaaa [eᵥ, dᵥ, kₒ, lₒ], t2_abab [cᵥ, aᵥ, iₒ, mₒ]], [(1, [])]⟩,
  -- line 1761: bmej,ijba,klcd,edkl,caim
  ⟨1/2, [g_abab [bᵥ, mₒ, eᵥ, jₒ], l2_abab [iₒ, jₒ, bᵥ, aᵥ], l2_abab [kₒ, lₒ, cᵥ, dᵥ], t2_abab [eᵥ, dᵥ, kₒ, lₒ], t2_abab [cᵥ, aᵥ, iₒ, mₒ]], [(1, [])]⟩,
  -- line 1764: bmej,ijba,lkcd,edlk,caim
  ⟨1/2, [g_abab [bᵥ, mₒ, eᵥ, jₒ], l2_abab [iₒ, jₒ, bᵥ, aᵥ], l2_abab [lₒ, kₒ, cᵥ, dᵥ], t2_abab [eᵥ, dᵥ, lₒ, kₒ], t2_abab [cᵥ, aᵥ, iₒ, mₒ]], [(1, [])]⟩,
  -- line 1767: mbej,ijab,kldc,edkl,caim
  ⟨-1/2, [g_abab [mₒ, bᵥ, eᵥ, jₒ], l2_abab [iₒ, jₒ, aᵥ, bᵥ], l2_aaaa [kₒ, lₒ, dᵥ, cᵥ], t2_aaaa [eᵥ, dᵥ, kₒ, lₒ], t2_aaaa [cᵥ, aᵥ, iₒ, mₒ]], [(1, [])]⟩,
  -- line 1770: mbej,ijab,kldc,dekl,acim
  ⟨-1/2, [g_bbbb [mₒ, bᵥ, eᵥ, jₒ], l2_abab [iₒ, jₒ, aᵥ, bᵥ], l2_abab [kₒ, lₒ, dᵥ, cᵥ], t2_abab [dᵥ, eᵥ, kₒ, lₒ], t2_abab [aᵥ, cᵥ, iₒ, mₒ]], [(1, [])]⟩,
  -- line 1773: mbej,ijab,klcd,edkl,caim
  ⟨1/2, [g_abab [mₒ, bᵥ, eᵥ, jₒ], l2_abab [iₒ, jₒ, aᵥ, bᵥ], l2_abab [kₒ, lₒ, cᵥ, dᵥ], t2_abab [eᵥ, dᵥ, kₒ, lₒ], t2_aaaa [cᵥ, aᵥ, iₒ, mₒ]], [(1, [])]⟩,
  -- line 1776: mbej,ijab,lkdc,delk,acim
  ⟨-1/2, [g_bbbb [mₒ, bᵥ, eᵥ, jₒ], l2_abab [iₒ, jₒ, aᵥ, bᵥ], l2_abab [lₒ, kₒ, dᵥ, cᵥ], t2_abab [dᵥ, eᵥ, lₒ, kₒ], t2_abab [aᵥ, cᵥ, iₒ, mₒ]], [(1, [])]⟩,
  -- line 1779: mbej,ijab,lkcd,edlk,caim
  ⟨1/2, [g_abab [mₒ, bᵥ, eᵥ, jₒ], l2_abab [iₒ, jₒ, aᵥ, bᵥ], l2_abab [lₒ, kₒ, cᵥ, dᵥ], t2_abab [eᵥ, dᵥ, lₒ, kₒ], t2_aaaa [cᵥ, aᵥ, iₒ, mₒ]], [(1, [])]⟩,
  -- line 1782: mbej,ijab,kldc,edkl,acim
  ⟨1/2, [g_bbbb [mₒ, bᵥ, eᵥ, jₒ], l2_abab [iₒ, jₒ, aᵥ, bᵥ], l2_bbbb [kₒ, lₒ, dᵥ, cᵥ], t2_bbbb [eᵥ, dᵥ, kₒ, lₒ], t2_abab [aᵥ, cᵥ, iₒ, mₒ]], [(1, [])]⟩,
  -- line 1785: mbej,jiba,kldc,edkl,cami
  ⟨1/2, [g_aaaa [mₒ, bᵥ, eᵥ, jₒ], l2_abab [jₒ, iₒ, bᵥ, aᵥ], l2_aaaa [kₒ, lₒ, dᵥ, cᵥ], t2_aaaa [eᵥ, dᵥ, kₒ, lₒ], t2_abab [cᵥ, aᵥ, mₒ, iₒ]], [(1, [])]⟩,
  -- line 1788: bmje,jiba,kldc,dekl,caim
  ⟨1/2, [g_abab [bᵥ, mₒ, jₒ, eᵥ], l2_abab [jₒ, iₒ, bᵥ, aᵥ], l2_abab [kₒ, lₒ, dᵥ, cᵥ], t2_abab [dᵥ, eᵥ, kₒ, lₒ], t2_bbbb [cᵥ, aᵥ, iₒ, mₒ]], [(1, [])]⟩,
  -- line 1791: mbej,jiba,klcd,edkl,cami
  ⟨-1/2, [g_aaaa [mₒ, bᵥ, eᵥ, jₒ], l2_abab [jₒ, iₒ, bᵥ, aᵥ], l2_abab [kₒ, lₒ, cᵥ, dᵥ], t2_abab [eᵥ, dᵥ, kₒ, lₒ], t2_abab [cᵥ, aᵥ, mₒ, iₒ]], [(1, [])]⟩,
  -- line 1794: bmje,jiba,lkdc,delk,caim
  ⟨1/2, [g_abab [bᵥ, mₒ, jₒ, eᵥ], l2_abab [jₒ, iₒ, bᵥ, aᵥ], l2_abab [lₒ, kₒ, dᵥ, cᵥ], t2_abab [dᵥ, eᵥ, lₒ, kₒ], t2_bbbb [cᵥ, aᵥ, iₒ, mₒ]], [(1, [])]⟩,
  -- line 1797: mbej,jiba,lkcd,edlk,cami
  ⟨-1/2, [g_aaaa [mₒ, bᵥ, eᵥ, jₒ], l2_abab [jₒ, iₒ, bᵥ, aᵥ], l2_abab [lₒ, kₒ, cᵥ, dᵥ], t2_abab [eᵥ, dᵥ, lₒ, kₒ], t2_abab [cᵥ, aᵥ, mₒ, iₒ]], [(1, [])]⟩,
  -- line 1800: bmje,jiba,kldc,edkl,caim
  ⟨-1/2, [g_abab [bᵥ, mₒ, jₒ, eᵥ], l2_abab [jₒ, iₒ, bᵥ, aᵥ], l2_bbbb [kₒ, lₒ, dᵥ, cᵥ], t2_bbbb [eᵥ, dᵥ, kₒ, lₒ], t2_bbbb [cᵥ, aᵥ, iₒ, mₒ]], [(1, [])]⟩,
  -- line 1803: mbje,jiab,kldc,dekl,acmi
  ⟨1/2, [g_abab [mₒ, bᵥ, jₒ, eᵥ], l2_abab [jₒ, iₒ, aᵥ, bᵥ], l2_abab [kₒ, lₒ, dᵥ, cᵥ], t2_abab [dᵥ, eᵥ, kₒ, lₒ], t2_abab [aᵥ, cᵥ, mₒ, iₒ]], [(1, [])]⟩,
  -- line 1806: mbje,jiab,lkdc,delk,acmi
  ⟨1/2, [g_abab [mₒ, bᵥ, jₒ, eᵥ], l2_abab [jₒ, iₒ, aᵥ, bᵥ], l2_abab [lₒ, kₒ, dᵥ, cᵥ], t2_abab [dᵥ, eᵥ, lₒ, kₒ], t2_abab [aᵥ, cᵥ, mₒ, iₒ]], [(1, [])]⟩,
  -- line 1809: mbje,jiab,kldc,edkl,acmi
  ⟨-1/2, [g_abab [mₒ, bᵥ, jₒ, eᵥ], l2_abab [jₒ, iₒ, aᵥ, bᵥ], l2_bbbb [kₒ, lₒ, dᵥ, cᵥ], t2_bbbb [eᵥ, dᵥ, kₒ, lₒ], t2_abab [aᵥ, cᵥ, mₒ, iₒ]], [(1, [])]⟩,
  -- line 1812: mbej,ijba,kldc,edkl,cami
  ⟨-1/2, [g_abab [mₒ, bᵥ, eᵥ, jₒ], l2_bbbb [iₒ, jₒ, bᵥ, aᵥ], l2_aaaa [kₒ, lₒ, dᵥ, cᵥ], t2_aaaa [eᵥ, dᵥ, kₒ, lₒ], t2_abab [cᵥ, aᵥ, mₒ, iₒ]], [(1, [])]⟩,
  -- line 1815: mbej,ijba,kldc,dekl,caim
  ⟨-1/2, [g_bbbb [mₒ, bᵥ, eᵥ, jₒ], l2_bbbb [iₒ, jₒ, bᵥ, aᵥ], l2_abab [kₒ, lₒ, dᵥ, cᵥ], t2_abab [dᵥ, eᵥ, kₒ, lₒ], t2_bbbb [cᵥ, aᵥ, iₒ, mₒ]], [(1, [])]⟩
  ]

/-- Part 15 of `si_energy_pertQf`. -/
def si_energy_pertQf_15 : Prog := [
  -- line 1818: mbej,ijba,klcd,edkl,cami
  ⟨1/2, [g_abab [mₒ, bᵥ, eᵥ, jₒ], l2_bbbb [iₒ, jₒ, bᵥ, aᵥ], l2_abab [kₒ, lₒ, cᵥ, dᵥ], t2_abab [eᵥ, dᵥ, kₒ, lₒ], t2_abab [cᵥ, aᵥ, mₒ, iₒ]], [(1, [])]⟩,
  -- line 1821: mbej,ijba,lkdc,delk,caim
  ⟨-1/2, [g_bbbb [mₒ, bᵥ, eᵥ, jₒ], l2_bbbb [iₒ, jₒ, bᵥ, aᵥ], l2_abab [lₒ, kₒ, dᵥ, cᵥ], t2_abab [dᵥ, eᵥ, lₒ, kₒ], t2_bbbb [cᵥ, aᵥ, iₒ, mₒ]], [(1, [])]⟩,
  -- line 1824: mbej,ijba,lkcd,edlk,cami
  ⟨1/2, [g_abab [mₒ, bᵥ, eᵥ, jₒ], l2_bbbb [iₒ, jₒ, bᵥ, aᵥ], l2_abab [lₒ, kₒ, cᵥ, dᵥ], t2_abab [eᵥ, dᵥ, lₒ, kₒ], t2_abab [cᵥ, aᵥ, mₒ, iₒ]], [(1, [])]⟩,
  -- line 1827: mbej,ijba,kldc,edkl,caim
  ⟨1/2, [g_bbbb [mₒ, bᵥ, eᵥ, jₒ], l2_bbbb [iₒ, jₒ, bᵥ, aᵥ], l2_bbbb [kₒ, lₒ, dᵥ, cᵥ], t2_bbbb [eᵥ, dᵥ, kₒ, lₒ], t2_bbbb [cᵥ, aᵥ, iₒ, mₒ]], [(1, [])]⟩,
  -- line 1830: mbej,ijba,kldc,edil,cakm
  ⟨-1, [g_aaaa [mₒ, bᵥ, eᵥ, jₒ], l2_aaaa [iₒ, jₒ, bᵥ, aᵥ], l2_aaaa [kₒ, lₒ, dᵥ, cᵥ], t2_aaaa [eᵥ, dᵥ, iₒ, lₒ], t2_aaaa [cᵥ, aᵥ, kₒ, mₒ]], [(1, [])]⟩,
  -- line 1833: bmje,ijba,kldc,deil,ackm
  ⟨-1, [g_abab [bᵥ, mₒ, jₒ, eᵥ], l2_aaaa [iₒ, jₒ, bᵥ, aᵥ], l2_abab [kₒ, lₒ, dᵥ, cᵥ], t2_abab [dᵥ, eᵥ, iₒ, lₒ], t2_abab [aᵥ, cᵥ, kₒ, mₒ]], [(1, [])]⟩,
  -- line 1836: mbej,ijba,klcd,edil,cakm
  ⟨1, [g_aaaa [mₒ, bᵥ, eᵥ, jₒ], l2_aaaa [iₒ, jₒ, bᵥ, aᵥ], l2_abab [kₒ, lₒ, cᵥ, dᵥ], t2_abab [eᵥ, dᵥ, iₒ, lₒ], t2_aaaa [cᵥ, aᵥ, kₒ, mₒ]], [(1, [])]⟩,
  -- line 1839: mbej,ijba,lkdc,edil,acmk
  ⟨1, [g_aaaa [mₒ, bᵥ, eᵥ, jₒ], l2_aaaa [iₒ, jₒ, bᵥ, aᵥ], l2_abab [lₒ, kₒ, dᵥ, cᵥ], t2_aaaa [eᵥ, dᵥ, iₒ, lₒ], t2_abab [aᵥ, cᵥ, mₒ, kₒ]], [(1, [])]⟩,
  -- line 1842: mbej,ijba,kldc,edil,acmk
  ⟨-1, [g_aaaa [mₒ, bᵥ, eᵥ, jₒ], l2_aaaa [iₒ, jₒ, bᵥ, aᵥ], l2_bbbb [kₒ, lₒ, dᵥ, cᵥ], t2_abab [eᵥ, dᵥ, iₒ, lₒ], t2_abab [aᵥ, cᵥ, mₒ, kₒ]], [(1, [])]⟩,
  -- line 1845: bmej,ijba,kldc,edil,cakm
  ⟨1, [g_abab [bᵥ, mₒ, eᵥ, jₒ], l2_abab [iₒ, jₒ, bᵥ, aᵥ], l2_aaaa [kₒ, lₒ, dᵥ, cᵥ], t2_aaaa [eᵥ, dᵥ, iₒ, lₒ], t2_abab [cᵥ, aᵥ, kₒ, mₒ]], [(1, [])]⟩,
  -- line 1848: bmej,ijba,klcd,edil,cakm
  ⟨-1, [g_abab [bᵥ, mₒ, eᵥ, jₒ], l2_abab [iₒ, jₒ, bᵥ, aᵥ], l2_abab [kₒ, lₒ, cᵥ, dᵥ], t2_abab [eᵥ, dᵥ, iₒ, lₒ], t2_abab [cᵥ, aᵥ, kₒ, mₒ]], [(1, [])]⟩,
  -- line 1851: bmej,ijba,lkdc,edil,cakm
  ⟨-1, [g_abab [bᵥ, mₒ, eᵥ, jₒ], l2_abab [iₒ, jₒ, bᵥ, aᵥ], l2_abab [lₒ, kₒ, dᵥ, cᵥ], t2_aaaa [eᵥ, dᵥ, iₒ, lₒ], t2_bbbb [cᵥ, aᵥ, kₒ, mₒ]], [(1, [])]⟩,
  -- line 1854: bmej,ijba,kldc,edil,cakm
  ⟨1, [g_abab [bᵥ, mₒ, eᵥ, jₒ], l2_abab [iₒ, jₒ, bᵥ, aᵥ], l2_bbbb [kₒ, lₒ, dᵥ, cᵥ], t2_abab [eᵥ, dᵥ, iₒ, lₒ], t2_bbbb [cᵥ, aᵥ, kₒ, mₒ]], [(1, [])]⟩,
  -- line 1857: mbej,ijab,kldc,edil,cakm
  ⟨1, [g_abab [mₒ, bᵥ, eᵥ, jₒ], l2_abab [iₒ, jₒ, aᵥ, bᵥ], l2_aaaa [kₒ, lₒ, dᵥ, cᵥ], t2_aaaa [eᵥ, dᵥ, iₒ, lₒ], t2_aaaa [cᵥ, aᵥ, kₒ, mₒ]], [(1, [])]⟩,
  -- line 1860: mbej,ijab,kldc,deil,ackm
  ⟨1, [g_bbbb [mₒ, bᵥ, eᵥ, jₒ], l2_abab [iₒ, jₒ, aᵥ, bᵥ], l2_abab [kₒ, lₒ, dᵥ, cᵥ], t2_abab [dᵥ, eᵥ, iₒ, lₒ], t2_abab [aᵥ, cᵥ, kₒ, mₒ]], [(1, [])]⟩,
  -- line 1863: mbej,ijab,klcd,edil,cakm
  ⟨-1, [g_abab [mₒ, bᵥ, eᵥ, jₒ], l2_abab [iₒ, jₒ, aᵥ, bᵥ], l2_abab [kₒ, lₒ, cᵥ, dᵥ], t2_abab [eᵥ, dᵥ, iₒ, lₒ], t2_aaaa [cᵥ, aᵥ, kₒ, mₒ]], [(1, [])]⟩,
  -- line 1866: mbej,ijab,lkdc,edil,acmk
  ⟨-1, [g_abab [mₒ, bᵥ, eᵥ, jₒ], l2_abab [iₒ, jₒ, aᵥ, bᵥ], l2_abab [lₒ, kₒ, dᵥ, cᵥ], t2_aaaa [eᵥ, dᵥ, iₒ, lₒ], t2_abab [aᵥ, cᵥ, mₒ, kₒ]], [(1, [])]⟩,
  -- line 1869: mbej,ijab,kldc,edil,acmk
  ⟨1, [g_abab [mₒ, bᵥ, eᵥ, jₒ], l2_abab [iₒ, jₒ, aᵥ, bᵥ], l2_bbbb [kₒ, lₒ, dᵥ, cᵥ], t2_abab [eᵥ, dᵥ, iₒ, lₒ], t2_abab [aᵥ, cᵥ, mₒ, kₒ]], [(1, [])]⟩,
  -- line 1872: bmje,jiba,kldc,deli,cakm
  ⟨1, [g_abab [bᵥ, mₒ, jₒ, eᵥ], l2_abab [jₒ, iₒ, bᵥ, aᵥ], l2_aaaa [kₒ, lₒ, dᵥ, cᵥ], t2_abab [dᵥ, eᵥ, lₒ, iₒ], t2_abab [cᵥ, aᵥ, kₒ, mₒ]], [(1, [])]⟩,
  -- line 1875: bmje,jiba,klcd,edil,cakm
  ⟨-1, [g_abab [bᵥ, mₒ, jₒ, eᵥ], l2_abab [jₒ, iₒ, bᵥ, aᵥ], l2_abab [kₒ, lₒ, cᵥ, dᵥ], t2_bbbb [eᵥ, dᵥ, iₒ, lₒ], t2_abab [cᵥ, aᵥ, kₒ, mₒ]], [(1, [])]⟩,
  -- line 1878: bmje,jiba,lkdc,deli,cakm
  ⟨-1, [g_abab [bᵥ, mₒ, jₒ, eᵥ], l2_abab [jₒ, iₒ, bᵥ, aᵥ], l2_abab [lₒ, kₒ, dᵥ, cᵥ], t2_abab [dᵥ, eᵥ, lₒ, iₒ], t2_bbbb [cᵥ, aᵥ, kₒ, mₒ]], [(1, [])]⟩,
  -- line 1881: mbej,jiba,lkcd,edli,camk
  ⟨1, [g_aaaa [mₒ, bᵥ, eᵥ, jₒ], l2_abab [jₒ, iₒ, bᵥ, aᵥ], l2_abab [lₒ, kₒ, cᵥ, dᵥ], t2_abab [eᵥ, dᵥ, lₒ, iₒ], t2_abab [cᵥ, aᵥ, mₒ, kₒ]], [(1, [])]⟩,
  -- line 1884: bmje,jiba,kldc,edil,cakm
  ⟨1, [g_abab [bᵥ, mₒ, jₒ, eᵥ], l2_abab [jₒ, iₒ, bᵥ, aᵥ], l2_bbbb [kₒ, lₒ, dᵥ, cᵥ], t2_bbbb [eᵥ, dᵥ, iₒ, lₒ], t2_bbbb [cᵥ, aᵥ, kₒ, mₒ]], [(1, [])]⟩,
  -- line 1887: mbje,jiab,kldc,deli,cakm
  ⟨1, [g_abab [mₒ, bᵥ, jₒ, eᵥ], l2_abab [jₒ, iₒ, aᵥ, bᵥ], l2_aaaa [kₒ, lₒ, dᵥ, cᵥ], t2_abab [dᵥ, eᵥ, lₒ, iₒ], t2_aaaa [cᵥ, aᵥ, kₒ, mₒ]], [(1, [])]⟩,
  -- line 1890: mbje,jiab,klcd,edil,cakm
  ⟨-1, [g_abab [mₒ, bᵥ, jₒ, eᵥ], l2_abab [jₒ, iₒ, aᵥ, bᵥ], l2_abab [kₒ, lₒ, cᵥ, dᵥ], t2_bbbb [eᵥ, dᵥ, iₒ, lₒ], t2_aaaa [cᵥ, aᵥ, kₒ, mₒ]], [(1, [])]⟩,
  -- line 1893: mbje,jiab,lkdc,deli,acmk
  ⟨-1, [g_abab [mₒ, bᵥ, jₒ, eᵥ], l2_abab [jₒ, iₒ, aᵥ, bᵥ], l2_abab [lₒ, kₒ, dᵥ, cᵥ], t2_abab [dᵥ, eᵥ, lₒ, iₒ], t2_abab [aᵥ, cᵥ, mₒ, kₒ]], [(1, [])]⟩,
  -- line 1896: mbje,jiab,kldc,edil,acmk
  ⟨1, [g_abab [mₒ, bᵥ, jₒ, eᵥ], l2_abab [jₒ, iₒ, aᵥ, bᵥ], l2_bbbb [kₒ, lₒ, dᵥ, cᵥ], t2_bbbb [eᵥ, dᵥ, iₒ, lₒ], t2_abab [aᵥ, cᵥ, mₒ, kₒ]], [(1, [])]⟩,
  -- line 1899: mbej,ijba,kldc,deli,cakm
  ⟨-1, [g_bbbb [mₒ, bᵥ, eᵥ, jₒ], l2_bbbb [iₒ, jₒ, bᵥ, aᵥ], l2_aaaa [kₒ, lₒ, dᵥ, cᵥ], t2_abab [dᵥ, eᵥ, lₒ, iₒ], t2_abab [cᵥ, aᵥ, kₒ, mₒ]], [(1, [])]⟩,
  -- line 1902: mbej,ijba,klcd,edil,cakm
  ⟨1, [g_bbbb [mₒ, bᵥ, eᵥ, jₒ], l2_bbbb [iₒ, jₒ, bᵥ, aᵥ], l2_abab [kₒ, lₒ, cᵥ, dᵥ], t2_bbbb [eᵥ, dᵥ, iₒ, lₒ], t2_abab [cᵥ, aᵥ, kₒ, mₒ]], [(1, [])]⟩,
  -- line 1905: mbej,ijba,lkdc,deli,cakm
  ⟨1, [g_bbbb [mₒ, bᵥ, eᵥ, jₒ], l2_bbbb [iₒ, jₒ, bᵥ, aᵥ], l2_abab [lₒ, kₒ, dᵥ, cᵥ], t2_abab [dᵥ, eᵥ, lₒ, iₒ], t2_bbbb [cᵥ, aᵥ, kₒ, mₒ]], [(1, [])]⟩,
  -- line 1908: mbej,ijba,lkcd,edli,camk
  ⟨-1, [g_abab [mₒ, bᵥ, eᵥ, jₒ], l2_bbbb [iₒ, jₒ, bᵥ, aᵥ], l2_abab [lₒ, kₒ, cᵥ, dᵥ], t2_abab [eᵥ, dᵥ, lₒ, iₒ], t2_abab [cᵥ, aᵥ, mₒ, kₒ]], [(1, [])]⟩,
  -- line 1911: mbej,ijba,kldc,edil,cakm
  ⟨-1, [g_bbbb [mₒ, bᵥ, eᵥ, jₒ], l2_bbbb [iₒ, jₒ, bᵥ, aᵥ], l2_bbbb [kₒ, lₒ, dᵥ, cᵥ], t2_bbbb [eᵥ, dᵥ, iₒ, lₒ], t2_bbbb [cᵥ, aᵥ, kₒ, mₒ]], [(1, [])]⟩,
  -- line 1914: mbej,ijba,kldc,eakl,dcim
  ⟨1/4, [g_aaaa [mₒ, bᵥ, eᵥ, jₒ], l2_aaaa [iₒ, jₒ, bᵥ, aᵥ], l2_aaaa [kₒ, lₒ, dᵥ, cᵥ], t2_aaaa [eᵥ, aᵥ, kₒ, lₒ], t2_aaaa [dᵥ, cᵥ, iₒ, mₒ]], [(1, [])]⟩,
  -- line 1917: bmje,ijba,kldc,aekl,dcim
  ⟨-1/4, [g_abab [bᵥ, mₒ, jₒ, eᵥ], l2_aaaa [iₒ, jₒ, bᵥ, aᵥ], l2_abab [kₒ, lₒ, dᵥ, cᵥ], t2_abab [aᵥ, eᵥ, kₒ, lₒ], t2_abab [dᵥ, cᵥ, iₒ, mₒ]], [(1, [])]⟩,
  -- line 1920: bmje,ijba,klcd,aekl,cdim
  ⟨-1/4, [g_abab [bᵥ, mₒ, jₒ, eᵥ], l2_aaaa [iₒ, jₒ, bᵥ, aᵥ], l2_abab [kₒ, lₒ, cᵥ, dᵥ], t2_abab [aᵥ, eᵥ, kₒ, lₒ], t2_abab [cᵥ, dᵥ, iₒ, mₒ]], [(1, [])]⟩,
  -- line 1923: bmje,ijba,lkdc,aelk,dcim
  ⟨-1/4, [g_abab [bᵥ, mₒ, jₒ, eᵥ], l2_aaaa [iₒ, jₒ, bᵥ, aᵥ], l2_abab [lₒ, kₒ, dᵥ, cᵥ], t2_abab [aᵥ, eᵥ, lₒ, kₒ], t2_abab [dᵥ, cᵥ, iₒ, mₒ]], [(1, [])]⟩,
  -- line 1926: bmje,ijba,lkcd,aelk,cdim
  ⟨-1/4, [g_abab [bᵥ, mₒ, jₒ, eᵥ], l2_aaaa [iₒ, jₒ, bᵥ, aᵥ], l2_abab [lₒ, kₒ, cᵥ, dᵥ], t2_abab [aᵥ, eᵥ, lₒ, kₒ], t2_abab [cᵥ, dᵥ, iₒ, mₒ]], [(1, [])]⟩,
  -- line 1929: bmej,ijba,kldc,eakl,dcim
  ⟨-1/4, [g_abab [bᵥ, mₒ, eᵥ, jₒ], l2_abab [iₒ, jₒ, bᵥ, aᵥ], l2_abab [kₒ, lₒ, dᵥ, cᵥ], t2_abab [eᵥ, aᵥ, kₒ, lₒ], t2_abab [dᵥ, cᵥ, iₒ, mₒ]], [(1, [])]⟩,
  -- line 1932: bmej,ijba,klcd,eakl,cdim
  ⟨-1/4, [g_abab [bᵥ, mₒ, eᵥ, jₒ], l2_abab [iₒ, jₒ, bᵥ, aᵥ], l2_abab [kₒ, lₒ, cᵥ, dᵥ], t2_abab [eᵥ, aᵥ, kₒ, lₒ], t2_abab [cᵥ, dᵥ, iₒ, mₒ]], [(1, [])]⟩,
  -- line 1935: bmej,ijba,lkdc,ealk,dcim
  ⟨-1/4, [g_abab [bᵥ, mₒ, eᵥ, jₒ], l2_abab [iₒ, jₒ, bᵥ, aᵥ], l2_abab [lₒ, kₒ, dᵥ, cᵥ], t2_abab [eᵥ, aᵥ, lₒ, kₒ], t2_abab [dᵥ, cᵥ, iₒ, mₒ]], [(1, [])]⟩
  ]

/-- Part 16 of `si_energy_pertQf`. -/
def si_energy_pertQf_16 : Prog := [
  -- line 1938: bmej,ijba,lkcd,ealk,cdim
  ⟨-1/4, [g_abab [bᵥ, mₒ, eᵥ, jₒ], l2_abab [iₒ, jₒ, bᵥ, aᵥ], l2_abab [lₒ, kₒ, cᵥ, dᵥ], t2_abab [eᵥ, aᵥ, lₒ, kₒ], t2_abab [cᵥ, dᵥ, iₒ, mₒ]], [(1, [])]⟩,
  -- line 1941: mbej,ijab,kldc,eakl,dcim
  ⟨-1/4, [g_abab [mₒ, bᵥ, eᵥ, jₒ], l2_abab [iₒ, jₒ, aᵥ, bᵥ], l2_aaaa [kₒ, lₒ, dᵥ, cᵥ], t2_aaaa [eᵥ, aᵥ, kₒ, lₒ], t2_aaaa [dᵥ, cᵥ, iₒ, mₒ]], [(1, [])]⟩,
  -- line 1944: mbej,ijab,kldc,aekl,dcim
  ⟨1/4, [g_bbbb [mₒ, bᵥ, eᵥ, jₒ], l2_abab [iₒ, jₒ, aᵥ, bᵥ], l2_abab [kₒ, lₒ, dᵥ, cᵥ], t2_abab [aᵥ, eᵥ, kₒ, lₒ], t2_abab [dᵥ, cᵥ, iₒ, mₒ]], [(1, [])]⟩,
  -- line 1947: mbej,ijab,klcd,aekl,cdim
  ⟨1/4, [g_bbbb [mₒ, bᵥ, eᵥ, jₒ], l2_abab [iₒ, jₒ, aᵥ, bᵥ], l2_abab [kₒ, lₒ, cᵥ, dᵥ], t2_abab [aᵥ, eᵥ, kₒ, lₒ], t2_abab [cᵥ, dᵥ, iₒ, mₒ]], [(1, [])]⟩,
  -- line 1950: mbej,ijab,lkdc,aelk,dcim
  ⟨1/4, [g_bbbb [mₒ, bᵥ, eᵥ, jₒ], l2_abab [iₒ, jₒ, aᵥ, bᵥ], l2_abab [lₒ, kₒ, dᵥ, cᵥ], t2_abab [aᵥ, eᵥ, lₒ, kₒ], t2_abab [dᵥ, cᵥ, iₒ, mₒ]], [(1, [])]⟩,
  -- line 1953: mbej,ijab,lkcd,aelk,cdim
  ⟨1/4, [g_bbbb [mₒ, bᵥ, eᵥ, jₒ], l2_abab [iₒ, jₒ, aᵥ, bᵥ], l2_abab [lₒ, kₒ, cᵥ, dᵥ], t2_abab [aᵥ, eᵥ, lₒ, kₒ], t2_abab [cᵥ, dᵥ, iₒ, mₒ]], [(1, [])]⟩,
  -- line 1956: mbej,jiba,kldc,eakl,dcmi
  ⟨1/4, [g_aaaa [mₒ, bᵥ, eᵥ, jₒ], l2_abab [jₒ, iₒ, bᵥ, aᵥ], l2_abab [kₒ, lₒ, dᵥ, cᵥ], t2_abab [eᵥ, aᵥ, kₒ, lₒ], t2_abab [dᵥ, cᵥ, mₒ, iₒ]], [(1, [])]⟩,
  -- line 1959: mbej,jiba,klcd,eakl,cdmi
  ⟨1/4, [g_aaaa [mₒ, bᵥ, eᵥ, jₒ], l2_abab [jₒ, iₒ, bᵥ, aᵥ], l2_abab [kₒ, lₒ, cᵥ, dᵥ], t2_abab [eᵥ, aᵥ, kₒ, lₒ], t2_abab [cᵥ, dᵥ, mₒ, iₒ]], [(1, [])]⟩,
  -- line 1962: mbej,jiba,lkdc,ealk,dcmi
  ⟨1/4, [g_aaaa [mₒ, bᵥ, eᵥ, jₒ], l2_abab [jₒ, iₒ, bᵥ, aᵥ], l2_abab [lₒ, kₒ, dᵥ, cᵥ], t2_abab [eᵥ, aᵥ, lₒ, kₒ], t2_abab [dᵥ, cᵥ, mₒ, iₒ]], [(1, [])]⟩,
  -- line 1965: mbej,jiba,lkcd,ealk,cdmi
  ⟨1/4, [g_aaaa [mₒ, bᵥ, eᵥ, jₒ], l2_abab [jₒ, iₒ, bᵥ, aᵥ], l2_abab [lₒ, kₒ, cᵥ, dᵥ], t2_abab [eᵥ, aᵥ, lₒ, kₒ], t2_abab [cᵥ, dᵥ, mₒ, iₒ]], [(1, [])]⟩,
  -- line 1968: bmje,jiba,kldc,eakl,dcim
  ⟨-1/4, [g_abab [bᵥ, mₒ, jₒ, eᵥ], l2_abab [jₒ, iₒ, bᵥ, aᵥ], l2_bbbb [kₒ, lₒ, dᵥ, cᵥ], t2_bbbb [eᵥ, aᵥ, kₒ, lₒ], t2_bbbb [dᵥ, cᵥ, iₒ, mₒ]], [(1, [])]⟩,
  -- line 1971: mbje,jiab,kldc,aekl,dcmi
  ⟨-1/4, [g_abab [mₒ, bᵥ, jₒ, eᵥ], l2_abab [jₒ, iₒ, aᵥ, bᵥ], l2_abab [kₒ, lₒ, dᵥ, cᵥ], t2_abab [aᵥ, eᵥ, kₒ, lₒ], t2_abab [dᵥ, cᵥ, mₒ, iₒ]], [(1, [])]⟩,
  -- line 1974: mbje,jiab,klcd,aekl,cdmi
  ⟨-1/4, [g_abab [mₒ, bᵥ, jₒ, eᵥ], l2_abab [jₒ, iₒ, aᵥ, bᵥ], l2_abab [kₒ, lₒ, cᵥ, dᵥ], t2_abab [aᵥ, eᵥ, kₒ, lₒ], t2_abab [cᵥ, dᵥ, mₒ, iₒ]], [(1, [])]⟩,
  -- line 1977: mbje,jiab,lkdc,aelk,dcmi
  ⟨-1/4, [g_abab [mₒ, bᵥ, jₒ, eᵥ], l2_abab [jₒ, iₒ, aᵥ, bᵥ], l2_abab [lₒ, kₒ, dᵥ, cᵥ], t2_abab [aᵥ, eᵥ, lₒ, kₒ], t2_abab [dᵥ, cᵥ, mₒ, iₒ]], [(1, [])]⟩,
  -- line 1980: mbje,jiab,lkcd,aelk,cdmi
  ⟨-1/4, [g_abab [mₒ, bᵥ, jₒ, eᵥ], l2_abab [jₒ, iₒ, aᵥ, bᵥ], l2_abab [lₒ, kₒ, cᵥ, dᵥ], t2_abab [aᵥ, eᵥ, lₒ, kₒ], t2_abab [cᵥ, dᵥ, mₒ, iₒ]], [(1, [])]⟩,
  -- line 1983: mbej,ijba,kldc,eakl,dcmi
  ⟨-1/4, [g_abab [mₒ, bᵥ, eᵥ, jₒ], l2_bbbb [iₒ, jₒ, bᵥ, aᵥ], l2_abab [kₒ, lₒ, dᵥ, cᵥ], t2_abab [eᵥ, aᵥ, kₒ, lₒ], t2_abab [dᵥ, cᵥ, mₒ, iₒ]], [(1, [])]⟩,
  -- line 1986: mbej,ijba,klcd,eakl,cdmi
  ⟨-1/4, [g_abab [mₒ, bᵥ, eᵥ, jₒ], l2_bbbb [iₒ, jₒ, bᵥ, aᵥ], l2_abab [kₒ, lₒ, cᵥ, dᵥ], t2_abab [eᵥ, aᵥ, kₒ, lₒ], t2_abab [cᵥ, dᵥ, mₒ, iₒ]], [(1, [])]⟩,
  -- line 1989: mbej,ijba,lkdc,ealk,dcmi
  ⟨-1/4, [g_abab [mₒ, bᵥ, eᵥ, jₒ], l2_bbbb [iₒ, jₒ, bᵥ, aᵥ], l2_abab [lₒ, kₒ, dᵥ, cᵥ], t2_abab [eᵥ, aᵥ, lₒ, kₒ], t2_abab [dᵥ, cᵥ, mₒ, iₒ]], [(1, [])]⟩,
  -- line 1992: mbej,ijba,lkcd,ealk,cdmi
  ⟨-1/4, [g_abab [mₒ, bᵥ, eᵥ, jₒ], l2_bbbb [iₒ, jₒ, bᵥ, aᵥ], l2_abab [lₒ, kₒ, cᵥ, dᵥ], t2_abab [eᵥ, aᵥ, lₒ, kₒ], t2_abab [cᵥ, dᵥ, mₒ, iₒ]], [(1, [])]⟩,
  -- line 1995: mbej,ijba,kldc,eakl,dcim
  ⟨1/4, [g_bbbb [mₒ, bᵥ, eᵥ, jₒ], l2_bbbb [iₒ, jₒ, bᵥ, aᵥ], l2_bbbb [kₒ, lₒ, dᵥ, cᵥ], t2_bbbb [eᵥ, aᵥ, kₒ, lₒ], t2_bbbb [dᵥ, cᵥ, iₒ, mₒ]], [(1, [])]⟩,
  -- line 1998: mbej,ijba,kldc,eail,dckm
  ⟨-1/2, [g_aaaa [mₒ, bᵥ, eᵥ, jₒ], l2_aaaa [iₒ, jₒ, bᵥ, aᵥ], l2_aaaa [kₒ, lₒ, dᵥ, cᵥ], t2_aaaa [eᵥ, aᵥ, iₒ, lₒ], t2_aaaa [dᵥ, cᵥ, kₒ, mₒ]], [(1, [])]⟩,
  -- line 2001: bmje,ijba,kldc,aeil,dckm
  ⟨1/2, [g_abab [bᵥ, mₒ, jₒ, eᵥ], l2_aaaa [iₒ, jₒ, bᵥ, aᵥ], l2_abab [kₒ, lₒ, dᵥ, cᵥ], t2_abab [aᵥ, eᵥ, iₒ, lₒ], t2_abab [dᵥ, cᵥ, kₒ, mₒ]], [(1, [])]⟩,
  -- line 2004: bmje,ijba,klcd,aeil,cdkm
  ⟨1/2, [g_abab [bᵥ, mₒ, jₒ, eᵥ], l2_aaaa [iₒ, jₒ, bᵥ, aᵥ], l2_abab [kₒ, lₒ, cᵥ, dᵥ], t2_abab [aᵥ, eᵥ, iₒ, lₒ], t2_abab [cᵥ, dᵥ, kₒ, mₒ]], [(1, [])]⟩,
  -- line 2007: mbej,ijba,lkdc,eail,dcmk
  ⟨-1/2, [g_aaaa [mₒ, bᵥ, eᵥ, jₒ], l2_aaaa [iₒ, jₒ, bᵥ, aᵥ], l2_abab [lₒ, kₒ, dᵥ, cᵥ], t2_aaaa [eᵥ, aᵥ, iₒ, lₒ], t2_abab [dᵥ, cᵥ, mₒ, kₒ]], [(1, [])]⟩,
  -- line 2010: mbej,ijba,lkcd,eail,cdmk
  ⟨-1/2, [g_aaaa [mₒ, bᵥ, eᵥ, jₒ], l2_aaaa [iₒ, jₒ, bᵥ, aᵥ], l2_abab [lₒ, kₒ, cᵥ, dᵥ], t2_aaaa [eᵥ, aᵥ, iₒ, lₒ], t2_abab [cᵥ, dᵥ, mₒ, kₒ]], [(1, [])]⟩,
  -- line 2013: bmje,ijba,kldc,aeil,dckm
  ⟨1/2, [g_abab [bᵥ, mₒ, jₒ, eᵥ], l2_aaaa [iₒ, jₒ, bᵥ, aᵥ], l2_bbbb [kₒ, lₒ, dᵥ, cᵥ], t2_abab [aᵥ, eᵥ, iₒ, lₒ], t2_bbbb [dᵥ, cᵥ, kₒ, mₒ]], [(1, [])]⟩,
  -- line 2016: bmej,ijba,kldc,eail,dckm
  ⟨1/2, [g_abab [bᵥ, mₒ, eᵥ, jₒ], l2_abab [iₒ, jₒ, bᵥ, aᵥ], l2_abab [kₒ, lₒ, dᵥ, cᵥ], t2_abab [eᵥ, aᵥ, iₒ, lₒ], t2_abab [dᵥ, cᵥ, kₒ, mₒ]], [(1, [])]⟩,
  -- line 2019: bmej,ijba,klcd,eail,cdkm
  ⟨1/2, [g_abab [bᵥ, mₒ, eᵥ, jₒ], l2_abab [iₒ, jₒ, bᵥ, aᵥ], l2_abab [kₒ, lₒ, cᵥ, dᵥ], t2_abab [eᵥ, aᵥ, iₒ, lₒ], t2_abab [cᵥ, dᵥ, kₒ, mₒ]], [(1, [])]⟩,
  -- line 2022: bmej,ijba,kldc,eail,dckm
  ⟨1/2, [g_abab [bᵥ, mₒ, eᵥ, jₒ], l2_abab [iₒ, jₒ, bᵥ, aᵥ], l2_bbbb [kₒ, lₒ, dᵥ, cᵥ], t2_abab [eᵥ, aᵥ, iₒ, lₒ], t2_bbbb [dᵥ, cᵥ, kₒ, mₒ]], [(1, [])]⟩,
  -- line 2025: mbej,ijab,kldc,eail,dckm
  ⟨1/2, [g_abab [mₒ, bᵥ, eᵥ, jₒ], l2_abab [iₒ, jₒ, aᵥ, bᵥ], l2_aaaa [kₒ, lₒ, dᵥ, cᵥ], t2_aaaa [eᵥ, aᵥ, iₒ, lₒ], t2_aaaa [dᵥ, cᵥ, kₒ, mₒ]], [(1, [])]⟩,
  -- line 2028: mbej,ijab,kldc,aeil,dckm
  ⟨-1/2, [g_bbbb [mₒ, bᵥ, eᵥ, jₒ], l2_abab [iₒ, jₒ, aᵥ, bᵥ], l2_abab [kₒ, lₒ, dᵥ, cᵥ], t2_abab [aᵥ, eᵥ, iₒ, lₒ], t2_abab [dᵥ, cᵥ, kₒ, mₒ]], [(1, [])]⟩,
  -- line 2031: mbej,ijab,klcd,aeil,cdkm
  ⟨-1/2, [g_bbbb [mₒ, bᵥ, eᵥ, jₒ], l2_abab [iₒ, jₒ, aᵥ, bᵥ], l2_abab [kₒ, lₒ, cᵥ, dᵥ], t2_abab [aᵥ, eᵥ, iₒ, lₒ], t2_abab [cᵥ, dᵥ, kₒ, mₒ]], [(1, [])]⟩,
  -- line 2034: mbej,ijab,lkdc,eail,dcmk
  ⟨1/2, [g_abab [mₒ, bᵥ, eᵥ, jₒ], l2_abab [iₒ, jₒ, aᵥ, bᵥ], l2_abab [lₒ, kₒ, dᵥ, cᵥ], t2_aaaa [eᵥ, aᵥ, iₒ, lₒ], t2_abab [dᵥ, cᵥ, mₒ, kₒ]], [(1, [])]⟩,
  -- line 2037: mbej,ijab,lkcd,eail,cdmk
  ⟨1/2, [g_abab [mₒ, bᵥ, eᵥ, jₒ], l2_abab [iₒ, jₒ, aᵥ, bᵥ], l2_abab [lₒ, kₒ, cᵥ, dᵥ], t2_aaaa [eᵥ, aᵥ, iₒ, lₒ], t2_abab [cᵥ, dᵥ, mₒ, kₒ]], [(1, [])]⟩,
  -- line 2040: mbej,ijab,kldc,aeil,dckm
  ⟨-1/2, [g_bbbb [mₒ, bᵥ, eᵥ, jₒ], l2_abab [iₒ, jₒ, aᵥ, bᵥ], l2_bbbb [kₒ, lₒ, dᵥ, cᵥ], t2_abab [aᵥ, eᵥ, iₒ, lₒ], t2_bbbb [dᵥ, cᵥ, kₒ, mₒ]], [(1, [])]⟩,
  -- line 2043: mbej,jiba,kldc,eali,dckm
  ⟨-1/2, [g_aaaa [mₒ, bᵥ, eᵥ, jₒ], l2_abab [jₒ, iₒ, bᵥ, aᵥ], l2_aaaa [kₒ, lₒ, dᵥ, cᵥ], t2_abab [eᵥ, aᵥ, lₒ, iₒ], t2_aaaa [dᵥ, cᵥ, kₒ, mₒ]], [(1, [])]⟩,
  -- line 2046: bmje,jiba,kldc,eail,dckm
  ⟨1/2, [g_abab [bᵥ, mₒ, jₒ, eᵥ], l2_abab [jₒ, iₒ, bᵥ, aᵥ], l2_abab [kₒ, lₒ, dᵥ, cᵥ], t2_bbbb [eᵥ, aᵥ, iₒ, lₒ], t2_abab [dᵥ, cᵥ, kₒ, mₒ]], [(1, [])]⟩,
  -- line 2049: bmje,jiba,klcd,eail,cdkm
  ⟨1/2, [g_abab [bᵥ, mₒ, jₒ, eᵥ], l2_abab [jₒ, iₒ, bᵥ, aᵥ], l2_abab [kₒ, lₒ, cᵥ, dᵥ], t2_bbbb [eᵥ, aᵥ, iₒ, lₒ], t2_abab [cᵥ, dᵥ, kₒ, mₒ]], [(1, [])]⟩,
  -- line 2052: mbej,jiba,lkdc,eali,dcmk
  ⟨-1/2, [g_aaaa [mₒ, bᵥ, eᵥ, jₒ], l2_abab [jₒ, iₒ, bᵥ, aᵥ], l2_abab [lₒ, kₒ, dᵥ, cᵥ], t2_abab [eᵥ, aᵥ, lₒ, iₒ], t2_abab [dᵥ, cᵥ, mₒ, kₒ]], [(1, [])]⟩,
  -- line 2055: mbej,jiba,lkcd,eali,cdmk
  ⟨-1/2, [g_aaaa [mₒ, bᵥ, eᵥ, jₒ], l2_abab [jₒ, iₒ, bᵥ, aᵥ], l2_abab [lₒ, kₒ, cᵥ, dᵥ], t2_abab [eᵥ, aᵥ, lₒ, iₒ], t2_abab [cᵥ, dᵥ, mₒ, kₒ]], [(1, [])]⟩
  ]

/-- Part 17 of `si_energy_pertQf`. -/
def si_energy_pertQf_17 : Prog := [
  -- line 2058: bmje,jiba,kldc,eail,dckm
  ⟨1/2, [g_abab [bᵥ, mₒ, jₒ, eᵥ], l2_abab [jₒ, iₒ, bᵥ, aᵥ], l2_bbbb [kₒ, lₒ, dᵥ, cᵥ], t2_bbbb [eᵥ, aᵥ, iₒ, lₒ], t2_bbbb [dᵥ, cᵥ, kₒ, mₒ]], [(1, [])]⟩,
  -- line 2061: mbje,jiab,kldc,aeli,dckm
  ⟨1/2, [g_abab [mₒ, bᵥ, jₒ, eᵥ], l2_abab [jₒ, iₒ, aᵥ, bᵥ], l2_aaaa [kₒ, lₒ, dᵥ, cᵥ], t2_abab [aᵥ, eᵥ, lₒ, iₒ], t2_aaaa [dᵥ, cᵥ, kₒ, mₒ]], [(1, [])]⟩,
  -- line 2064: mbje,jiab,lkdc,aeli,dcmk
  ⟨1/2, [g_abab [mₒ, bᵥ, jₒ, eᵥ], l2_abab [jₒ, iₒ, aᵥ, bᵥ], l2_abab [lₒ, kₒ, dᵥ, cᵥ], t2_abab [aᵥ, eᵥ, lₒ, iₒ], t2_abab [dᵥ, cᵥ, mₒ, kₒ]], [(1, [])]⟩,
  -- line 2067: mbje,jiab,lkcd,aeli,cdmk
  ⟨1/2, [g_abab [mₒ, bᵥ, jₒ, eᵥ], l2_abab [jₒ, iₒ, aᵥ, bᵥ], l2_abab [lₒ, kₒ, cᵥ, dᵥ], t2_abab [aᵥ, eᵥ, lₒ, iₒ], t2_abab [cᵥ, dᵥ, mₒ, kₒ]], [(1, [])]⟩,
  -- line 2070: mbej,ijba,kldc,eali,dckm
  ⟨1/2, [g_abab [mₒ, bᵥ, eᵥ, jₒ], l2_bbbb [iₒ, jₒ, bᵥ, aᵥ], l2_aaaa [kₒ, lₒ, dᵥ, cᵥ], t2_abab [eᵥ, aᵥ, lₒ, iₒ], t2_aaaa [dᵥ, cᵥ, kₒ, mₒ]], [(1, [])]⟩,
  -- line 2073: mbej,ijba,kldc,eail,dckm
  ⟨-1/2, [g_bbbb [mₒ, bᵥ, eᵥ, jₒ], l2_bbbb [iₒ, jₒ, bᵥ, aᵥ], l2_abab [kₒ, lₒ, dᵥ, cᵥ], t2_bbbb [eᵥ, aᵥ, iₒ, lₒ], t2_abab [dᵥ, cᵥ, kₒ, mₒ]], [(1, [])]⟩,
  -- line 2076: mbej,ijba,klcd,eail,cdkm
  ⟨-1/2, [g_bbbb [mₒ, bᵥ, eᵥ, jₒ], l2_bbbb [iₒ, jₒ, bᵥ, aᵥ], l2_abab [kₒ, lₒ, cᵥ, dᵥ], t2_bbbb [eᵥ, aᵥ, iₒ, lₒ], t2_abab [cᵥ, dᵥ, kₒ, mₒ]], [(1, [])]⟩,
  -- line 2079: mbej,ijba,lkdc,eali,dcmk
  ⟨1/2, [g_abab [mₒ, bᵥ, eᵥ, jₒ], l2_bbbb [iₒ, jₒ, bᵥ, aᵥ], l2_abab [lₒ, kₒ, dᵥ, cᵥ], t2_abab [eᵥ, aᵥ, lₒ, iₒ], t2_abab [dᵥ, cᵥ, mₒ, kₒ]], [(1, [])]⟩,
  -- line 2082: mbej,ijba,lkcd,eali,cdmk
  ⟨1/2, [g_abab [mₒ, bᵥ, eᵥ, jₒ], l2_bbbb [iₒ, jₒ, bᵥ, aᵥ], l2_abab [lₒ, kₒ, cᵥ, dᵥ], t2_abab [eᵥ, aᵥ, lₒ, iₒ], t2_abab [cᵥ, dᵥ, mₒ, kₒ]], [(1, [])]⟩,
  -- line 2085: mbej,ijba,kldc,eail,dckm
  ⟨-1/2, [g_bbbb [mₒ, bᵥ, eᵥ, jₒ], l2_bbbb [iₒ, jₒ, bᵥ, aᵥ], l2_bbbb [kₒ, lₒ, dᵥ, cᵥ], t2_bbbb [eᵥ, aᵥ, iₒ, lₒ], t2_bbbb [dᵥ, cᵥ, kₒ, mₒ]], [(1, [])]⟩,
  -- line 2088: dcef,ijba,kldc,ebkl,faij
  ⟨-1/8, [g_aaaa [dᵥ, cᵥ, eᵥ, fᵥ], l2_aaaa [iₒ, jₒ, bᵥ, aᵥ], l2_aaaa [kₒ, lₒ, dᵥ, cᵥ], t2_aaaa [eᵥ, bᵥ, kₒ, lₒ], t2_aaaa [fᵥ, aᵥ, iₒ, jₒ]], [(1, [])]⟩,
  -- line 2091: dcfe,ijba,kldc,bekl,faij
  ⟨-1/8, [g_abab [dᵥ, cᵥ, fᵥ, eᵥ], l2_aaaa [iₒ, jₒ, bᵥ, aᵥ], l2_abab [kₒ, lₒ, dᵥ, cᵥ], t2_abab [bᵥ, eᵥ, kₒ, lₒ], t2_aaaa [fᵥ, aᵥ, iₒ, jₒ]], [(1, [])]⟩,
  -- line 2094: cdfe,ijba,klcd,bekl,faij
  ⟨-1/8, [g_abab [cᵥ, dᵥ, fᵥ, eᵥ], l2_aaaa [iₒ, jₒ, bᵥ, aᵥ], l2_abab [kₒ, lₒ, cᵥ, dᵥ], t2_abab [bᵥ, eᵥ, kₒ, lₒ], t2_aaaa [fᵥ, aᵥ, iₒ, jₒ]], [(1, [])]⟩,
  -- line 2097: dcfe,ijba,lkdc,belk,faij
  ⟨-1/8, [g_abab [dᵥ, cᵥ, fᵥ, eᵥ], l2_aaaa [iₒ, jₒ, bᵥ, aᵥ], l2_abab [lₒ, kₒ, dᵥ, cᵥ], t2_abab [bᵥ, eᵥ, lₒ, kₒ], t2_aaaa [fᵥ, aᵥ, iₒ, jₒ]], [(1, [])]⟩,
  -- line 2100: cdfe,ijba,lkcd,belk,faij
  ⟨-1/8, [g_abab [cᵥ, dᵥ, fᵥ, eᵥ], l2_aaaa [iₒ, jₒ, bᵥ, aᵥ], l2_abab [lₒ, kₒ, cᵥ, dᵥ], t2_abab [bᵥ, eᵥ, lₒ, kₒ], t2_aaaa [fᵥ, aᵥ, iₒ, jₒ]], [(1, [])]⟩,
  -- line 2103: dcef,ijba,kldc,ebkl,faij
  ⟨-1/8, [g_aaaa [dᵥ, cᵥ, eᵥ, fᵥ], l2_abab [iₒ, jₒ, bᵥ, aᵥ], l2_aaaa [kₒ, lₒ, dᵥ, cᵥ], t2_aaaa [eᵥ, bᵥ, kₒ, lₒ], t2_abab [fᵥ, aᵥ, iₒ, jₒ]], [(1, [])]⟩,
  -- line 2106: dcfe,ijba,kldc,bekl,faij
  ⟨-1/8, [g_abab [dᵥ, cᵥ, fᵥ, eᵥ], l2_abab [iₒ, jₒ, bᵥ, aᵥ], l2_abab [kₒ, lₒ, dᵥ, cᵥ], t2_abab [bᵥ, eᵥ, kₒ, lₒ], t2_abab [fᵥ, aᵥ, iₒ, jₒ]], [(1, [])]⟩,
  -- line 2109: cdfe,ijba,klcd,bekl,faij
  ⟨-1/8, [g_abab [cᵥ, dᵥ, fᵥ, eᵥ], l2_abab [iₒ, jₒ, bᵥ, aᵥ], l2_abab [kₒ, lₒ, cᵥ, dᵥ], t2_abab [bᵥ, eᵥ, kₒ, lₒ], t2_abab [fᵥ, aᵥ, iₒ, jₒ]], [(1, [])]⟩,
  -- line 2112: dcfe,ijba,lkdc,belk,faij
  ⟨-1/8, [g_abab [dᵥ, cᵥ, fᵥ, eᵥ], l2_abab [iₒ, jₒ, bᵥ, aᵥ], l2_abab [lₒ, kₒ, dᵥ, cᵥ], t2_abab [bᵥ, eᵥ, lₒ, kₒ], t2_abab [fᵥ, aᵥ, iₒ, jₒ]], [(1, [])]⟩,
  -- line 2115: cdfe,ijba,lkcd,belk,faij
  ⟨-1/8, [g_abab [cᵥ, dᵥ, fᵥ, eᵥ], l2_abab [iₒ, jₒ, bᵥ, aᵥ], l2_abab [lₒ, kₒ, cᵥ, dᵥ], t2_abab [bᵥ, eᵥ, lₒ, kₒ], t2_abab [fᵥ, aᵥ, iₒ, jₒ]], [(1, [])]⟩,
  -- line 2118: dcef,ijab,kldc,ebkl,afij
  ⟨-1/8, [g_abab [dᵥ, cᵥ, eᵥ, fᵥ], l2_abab [iₒ, jₒ, aᵥ, bᵥ], l2_abab [kₒ, lₒ, dᵥ, cᵥ], t2_abab [eᵥ, bᵥ, kₒ, lₒ], t2_abab [aᵥ, fᵥ, iₒ, jₒ]], [(1, [])]⟩,
  -- line 2121: cdef,ijab,klcd,ebkl,afij
  ⟨-1/8, [g_abab [cᵥ, dᵥ, eᵥ, fᵥ], l2_abab [iₒ, jₒ, aᵥ, bᵥ], l2_abab [kₒ, lₒ, cᵥ, dᵥ], t2_abab [eᵥ, bᵥ, kₒ, lₒ], t2_abab [aᵥ, fᵥ, iₒ, jₒ]], [(1, [])]⟩,
  -- line 2124: dcef,ijab,lkdc,eblk,afij
  ⟨-1/8, [g_abab [dᵥ, cᵥ, eᵥ, fᵥ], l2_abab [iₒ, jₒ, aᵥ, bᵥ], l2_abab [lₒ, kₒ, dᵥ, cᵥ], t2_abab [eᵥ, bᵥ, lₒ, kₒ], t2_abab [aᵥ, fᵥ, iₒ, jₒ]], [(1, [])]⟩,
  -- line 2127: cdef,ijab,lkcd,eblk,afij
  ⟨-1/8, [g_abab [cᵥ, dᵥ, eᵥ, fᵥ], l2_abab [iₒ, jₒ, aᵥ, bᵥ], l2_abab [lₒ, kₒ, cᵥ, dᵥ], t2_abab [eᵥ, bᵥ, lₒ, kₒ], t2_abab [aᵥ, fᵥ, iₒ, jₒ]], [(1, [])]⟩,
  -- line 2130: dcef,ijab,kldc,ebkl,afij
  ⟨-1/8, [g_bbbb [dᵥ, cᵥ, eᵥ, fᵥ], l2_abab [iₒ, jₒ, aᵥ, bᵥ], l2_bbbb [kₒ, lₒ, dᵥ, cᵥ], t2_bbbb [eᵥ, bᵥ, kₒ, lₒ], t2_abab [aᵥ, fᵥ, iₒ, jₒ]], [(1, [])]⟩,
  -- line 2133: dcef,jiba,kldc,ebkl,faji
  ⟨-1/8, [g_aaaa [dᵥ, cᵥ, eᵥ, fᵥ], l2_abab [jₒ, iₒ, bᵥ, aᵥ], l2_aaaa [kₒ, lₒ, dᵥ, cᵥ], t2_aaaa [eᵥ, bᵥ, kₒ, lₒ], t2_abab [fᵥ, aᵥ, jₒ, iₒ]], [(1, [])]⟩,
  -- line 2136: dcfe,jiba,kldc,bekl,faji
  ⟨-1/8, [g_abab [dᵥ, cᵥ, fᵥ, eᵥ], l2_abab [jₒ, iₒ, bᵥ, aᵥ], l2_abab [kₒ, lₒ, dᵥ, cᵥ], t2_abab [bᵥ, eᵥ, kₒ, lₒ], t2_abab [fᵥ, aᵥ, jₒ, iₒ]], [(1, [])]⟩,
  -- line 2139: cdfe,jiba,klcd,bekl,faji
  ⟨-1/8, [g_abab [cᵥ, dᵥ, fᵥ, eᵥ], l2_abab [jₒ, iₒ, bᵥ, aᵥ], l2_abab [kₒ, lₒ, cᵥ, dᵥ], t2_abab [bᵥ, eᵥ, kₒ, lₒ], t2_abab [fᵥ, aᵥ, jₒ, iₒ]], [(1, [])]⟩,
  -- line 2142: dcfe,jiba,lkdc,belk,faji
  ⟨-1/8, [g_abab [dᵥ, cᵥ, fᵥ, eᵥ], l2_abab [jₒ, iₒ, bᵥ, aᵥ], l2_abab [lₒ, kₒ, dᵥ, cᵥ], t2_abab [bᵥ, eᵥ, lₒ, kₒ], t2_abab [fᵥ, aᵥ, jₒ, iₒ]], [(1, [])]⟩,
  -- line 2145: cdfe,jiba,lkcd,belk,faji
  ⟨-1/8, [g_abab [cᵥ, dᵥ, fᵥ, eᵥ], l2_abab [jₒ, iₒ, bᵥ, aᵥ], l2_abab [lₒ, kₒ, cᵥ, dᵥ], t2_abab [bᵥ, eᵥ, lₒ, kₒ], t2_abab [fᵥ, aᵥ, jₒ, iₒ]], [(1, [])]⟩,
  -- line 2148: dcef,jiab,kldc,ebkl,afji
  ⟨-1/8, [g_abab [dᵥ, cᵥ, eᵥ, fᵥ], l2_abab [jₒ, iₒ, aᵥ, bᵥ], l2_abab [kₒ, lₒ, dᵥ, cᵥ], t2_abab [eᵥ, bᵥ, kₒ, lₒ], t2_abab [aᵥ, fᵥ, jₒ, iₒ]], [(1, [])]⟩,
  -- line 2151: cdef,jiab,klcd,ebkl,afji
  ⟨-1/8, [g_abab [cᵥ, dᵥ, eᵥ, fᵥ], l2_abab [jₒ, iₒ, aᵥ, bᵥ], l2_abab [kₒ, lₒ, cᵥ, dᵥ], t2_abab [eᵥ, bᵥ, kₒ, lₒ], t2_abab [aᵥ, fᵥ, jₒ, iₒ]], [(1, [])]⟩,
  -- line 2154: dcef,jiab,lkdc,eblk,afji
  ⟨-1/8, [g_abab [dᵥ, cᵥ, eᵥ, fᵥ], l2_abab [jₒ, iₒ, aᵥ, bᵥ], l2_abab [lₒ, kₒ, dᵥ, cᵥ], t2_abab [eᵥ, bᵥ, lₒ, kₒ], t2_abab [aᵥ, fᵥ, jₒ, iₒ]], [(1, [])]⟩,
  -- line 2157: cdef,jiab,lkcd,eblk,afji
  ⟨-1/8, [g_abab [cᵥ, dᵥ, eᵥ, fᵥ], l2_abab [jₒ, iₒ, aᵥ, bᵥ], l2_abab [lₒ, kₒ, cᵥ, dᵥ], t2_abab [eᵥ, bᵥ, lₒ, kₒ], t2_abab [aᵥ, fᵥ, jₒ, iₒ]], [(1, [])]⟩,
  -- line 2160: dcef,jiab,kldc,ebkl,afji
  ⟨-1/8, [g_bbbb [dᵥ, cᵥ, eᵥ, fᵥ], l2_abab [jₒ, iₒ, aᵥ, bᵥ], l2_bbbb [kₒ, lₒ, dᵥ, cᵥ], t2_bbbb [eᵥ, bᵥ, kₒ, lₒ], t2_abab [aᵥ, fᵥ, jₒ, iₒ]], [(1, [])]⟩,
  -- line 2163: dcef,ijba,kldc,ebkl,faij
  ⟨-1/8, [g_abab [dᵥ, cᵥ, eᵥ, fᵥ], l2_bbbb [iₒ, jₒ, bᵥ, aᵥ], l2_abab [kₒ, lₒ, dᵥ, cᵥ], t2_abab [eᵥ, bᵥ, kₒ, lₒ], t2_bbbb [fᵥ, aᵥ, iₒ, jₒ]], [(1, [])]⟩,
  -- line 2166: cdef,ijba,klcd,ebkl,faij
  ⟨-1/8, [g_abab [cᵥ, dᵥ, eᵥ, fᵥ], l2_bbbb [iₒ, jₒ, bᵥ, aᵥ], l2_abab [kₒ, lₒ, cᵥ, dᵥ], t2_abab [eᵥ, bᵥ, kₒ, lₒ], t2_bbbb [fᵥ, aᵥ, iₒ, jₒ]], [(1, [])]⟩,
  -- line 2169: dcef,ijba,lkdc,eblk,faij
  ⟨-1/8, [g_abab [dᵥ, cᵥ, eᵥ, fᵥ], l2_bbbb [iₒ, jₒ, bᵥ, aᵥ], l2_abab [lₒ, kₒ, dᵥ, cᵥ], t2_abab [eᵥ, bᵥ, lₒ, kₒ], t2_bbbb [fᵥ, aᵥ, iₒ, jₒ]], [(1, [])]⟩,
  -- line 2172: cdef,ijba,lkcd,eblk,faij
  ⟨-1/8, [g_abab [cᵥ, dᵥ, eᵥ, fᵥ], l2_bbbb [iₒ, jₒ, bᵥ, aᵥ], l2_abab [lₒ, kₒ, cᵥ, dᵥ], t2_abab [eᵥ, bᵥ, lₒ, kₒ], t2_bbbb [fᵥ, aᵥ, iₒ, jₒ]], [(1, [])]⟩,
  -- line 2175: dcef,ijba,kldc,ebkl,faij
  ⟨-1/8, [g_bbbb [dᵥ, cᵥ, eᵥ, fᵥ], l2_bbbb [iₒ, jₒ, bᵥ, aᵥ], l2_bbbb [kₒ, lₒ, dᵥ, cᵥ], t2_bbbb [eᵥ, bᵥ, kₒ, lₒ], t2_bbbb [fᵥ, aᵥ, iₒ, jₒ]], [(1, [])]⟩
  ]

/-- Part 18 of `si_energy_pertQf`. -/
def si_energy_pertQf_18 : Prog := [
  -- line 2178: dcef,ijba,kldc,ebjl,faik
  ⟨1/4, [g_aaaa [dᵥ, cᵥ, eᵥ, fᵥ], l2_aaaa [iₒ, jₒ, bᵥ, aᵥ], l2_aaaa [kₒ, lₒ, dᵥ, cᵥ], t2_aaaa [eᵥ, bᵥ, jₒ, lₒ], t2_aaaa [fᵥ, aᵥ, iₒ, kₒ]], [(1, [])]⟩,
  -- line 2181: dcfe,ijba,kldc,bejl,faik
  ⟨1/4, [g_abab [dᵥ, cᵥ, fᵥ, eᵥ], l2_aaaa [iₒ, jₒ, bᵥ, aᵥ], l2_abab [kₒ, lₒ, dᵥ, cᵥ], t2_abab [bᵥ, eᵥ, jₒ, lₒ], t2_aaaa [fᵥ, aᵥ, iₒ, kₒ]], [(1, [])]⟩,
  -- line 2184: cdfe,ijba,klcd,bejl,faik
  ⟨1/4, [g_abab [cᵥ, dᵥ, fᵥ, eᵥ], l2_aaaa [iₒ, jₒ, bᵥ, aᵥ], l2_abab [kₒ, lₒ, cᵥ, dᵥ], t2_abab [bᵥ, eᵥ, jₒ, lₒ], t2_aaaa [fᵥ, aᵥ, iₒ, kₒ]], [(1, [])]⟩,
  -- line 2187: dcef,ijba,lkdc,ebjl,afik
  ⟨1/4, [g_abab [dᵥ, cᵥ, eᵥ, fᵥ], l2_aaaa [iₒ, jₒ, bᵥ, aᵥ], l2_abab [lₒ, kₒ, dᵥ, cᵥ], t2_aaaa [eᵥ, bᵥ, jₒ, lₒ], t2_abab [aᵥ, fᵥ, iₒ, kₒ]], [(1, [])]⟩,
  -- line 2190: cdef,ijba,lkcd,ebjl,afik
  ⟨1/4, [g_abab [cᵥ, dᵥ, eᵥ, fᵥ], l2_aaaa [iₒ, jₒ, bᵥ, aᵥ], l2_abab [lₒ, kₒ, cᵥ, dᵥ], t2_aaaa [eᵥ, bᵥ, jₒ, lₒ], t2_abab [aᵥ, fᵥ, iₒ, kₒ]], [(1, [])]⟩,
  -- line 2193: dcef,ijba,kldc,bejl,afik
  ⟨1/4, [g_bbbb [dᵥ, cᵥ, eᵥ, fᵥ], l2_aaaa [iₒ, jₒ, bᵥ, aᵥ], l2_bbbb [kₒ, lₒ, dᵥ, cᵥ], t2_abab [bᵥ, eᵥ, jₒ, lₒ], t2_abab [aᵥ, fᵥ, iₒ, kₒ]], [(1, [])]⟩,
  -- line 2196: dcfe,ijba,lkdc,belj,faik
  ⟨1/4, [g_abab [dᵥ, cᵥ, fᵥ, eᵥ], l2_abab [iₒ, jₒ, bᵥ, aᵥ], l2_abab [lₒ, kₒ, dᵥ, cᵥ], t2_abab [bᵥ, eᵥ, lₒ, jₒ], t2_abab [fᵥ, aᵥ, iₒ, kₒ]], [(1, [])]⟩,
  -- line 2199: cdfe,ijba,lkcd,belj,faik
  ⟨1/4, [g_abab [cᵥ, dᵥ, fᵥ, eᵥ], l2_abab [iₒ, jₒ, bᵥ, aᵥ], l2_abab [lₒ, kₒ, cᵥ, dᵥ], t2_abab [bᵥ, eᵥ, lₒ, jₒ], t2_abab [fᵥ, aᵥ, iₒ, kₒ]], [(1, [])]⟩,
  -- line 2202: dcef,ijab,kldc,eblj,faik
  ⟨1/4, [g_aaaa [dᵥ, cᵥ, eᵥ, fᵥ], l2_abab [iₒ, jₒ, aᵥ, bᵥ], l2_aaaa [kₒ, lₒ, dᵥ, cᵥ], t2_abab [eᵥ, bᵥ, lₒ, jₒ], t2_aaaa [fᵥ, aᵥ, iₒ, kₒ]], [(1, [])]⟩,
  -- line 2205: dcfe,ijab,kldc,ebjl,faik
  ⟨1/4, [g_abab [dᵥ, cᵥ, fᵥ, eᵥ], l2_abab [iₒ, jₒ, aᵥ, bᵥ], l2_abab [kₒ, lₒ, dᵥ, cᵥ], t2_bbbb [eᵥ, bᵥ, jₒ, lₒ], t2_aaaa [fᵥ, aᵥ, iₒ, kₒ]], [(1, [])]⟩,
  -- line 2208: cdfe,ijab,klcd,ebjl,faik
  ⟨1/4, [g_abab [cᵥ, dᵥ, fᵥ, eᵥ], l2_abab [iₒ, jₒ, aᵥ, bᵥ], l2_abab [kₒ, lₒ, cᵥ, dᵥ], t2_bbbb [eᵥ, bᵥ, jₒ, lₒ], t2_aaaa [fᵥ, aᵥ, iₒ, kₒ]], [(1, [])]⟩,
  -- line 2211: dcef,ijab,lkdc,eblj,afik
  ⟨1/4, [g_abab [dᵥ, cᵥ, eᵥ, fᵥ], l2_abab [iₒ, jₒ, aᵥ, bᵥ], l2_abab [lₒ, kₒ, dᵥ, cᵥ], t2_abab [eᵥ, bᵥ, lₒ, jₒ], t2_abab [aᵥ, fᵥ, iₒ, kₒ]], [(1, [])]⟩,
  -- line 2214: cdef,ijab,lkcd,eblj,afik
  ⟨1/4, [g_abab [cᵥ, dᵥ, eᵥ, fᵥ], l2_abab [iₒ, jₒ, aᵥ, bᵥ], l2_abab [lₒ, kₒ, cᵥ, dᵥ], t2_abab [eᵥ, bᵥ, lₒ, jₒ], t2_abab [aᵥ, fᵥ, iₒ, kₒ]], [(1, [])]⟩,
  -- line 2217: dcef,ijab,kldc,ebjl,afik
  ⟨1/4, [g_bbbb [dᵥ, cᵥ, eᵥ, fᵥ], l2_abab [iₒ, jₒ, aᵥ, bᵥ], l2_bbbb [kₒ, lₒ, dᵥ, cᵥ], t2_bbbb [eᵥ, bᵥ, jₒ, lₒ], t2_abab [aᵥ, fᵥ, iₒ, kₒ]], [(1, [])]⟩,
  -- line 2220: dcef,jiba,kldc,ebjl,faki
  ⟨1/4, [g_aaaa [dᵥ, cᵥ, eᵥ, fᵥ], l2_abab [jₒ, iₒ, bᵥ, aᵥ], l2_aaaa [kₒ, lₒ, dᵥ, cᵥ], t2_aaaa [eᵥ, bᵥ, jₒ, lₒ], t2_abab [fᵥ, aᵥ, kₒ, iₒ]], [(1, [])]⟩,
  -- line 2223: dcfe,jiba,kldc,bejl,faki
  ⟨1/4, [g_abab [dᵥ, cᵥ, fᵥ, eᵥ], l2_abab [jₒ, iₒ, bᵥ, aᵥ], l2_abab [kₒ, lₒ, dᵥ, cᵥ], t2_abab [bᵥ, eᵥ, jₒ, lₒ], t2_abab [fᵥ, aᵥ, kₒ, iₒ]], [(1, [])]⟩,
  -- line 2226: cdfe,jiba,klcd,bejl,faki
  ⟨1/4, [g_abab [cᵥ, dᵥ, fᵥ, eᵥ], l2_abab [jₒ, iₒ, bᵥ, aᵥ], l2_abab [kₒ, lₒ, cᵥ, dᵥ], t2_abab [bᵥ, eᵥ, jₒ, lₒ], t2_abab [fᵥ, aᵥ, kₒ, iₒ]], [(1, [])]⟩,
  -- line 2229: dcef,jiba,lkdc,ebjl,faik
  ⟨1/4, [g_abab [dᵥ, cᵥ, eᵥ, fᵥ], l2_abab [jₒ, iₒ, bᵥ, aᵥ], l2_abab [lₒ, kₒ, dᵥ, cᵥ], t2_aaaa [eᵥ, bᵥ, jₒ, lₒ], t2_bbbb [fᵥ, aᵥ, iₒ, kₒ]], [(1, [])]⟩,
  -- line 2232: cdef,jiba,lkcd,ebjl,faik
  ⟨1/4, [g_abab [cᵥ, dᵥ, eᵥ, fᵥ], l2_abab [jₒ, iₒ, bᵥ, aᵥ], l2_abab [lₒ, kₒ, cᵥ, dᵥ], t2_aaaa [eᵥ, bᵥ, jₒ, lₒ], t2_bbbb [fᵥ, aᵥ, iₒ, kₒ]], [(1, [])]⟩,
  -- line 2235: dcef,jiba,kldc,bejl,faik
  ⟨1/4, [g_bbbb [dᵥ, cᵥ, eᵥ, fᵥ], l2_abab [jₒ, iₒ, bᵥ, aᵥ], l2_bbbb [kₒ, lₒ, dᵥ, cᵥ], t2_abab [bᵥ, eᵥ, jₒ, lₒ], t2_bbbb [fᵥ, aᵥ, iₒ, kₒ]], [(1, [])]⟩,
  -- line 2238: dcef,jiab,kldc,ebjl,afki
  ⟨1/4, [g_abab [dᵥ, cᵥ, eᵥ, fᵥ], l2_abab [jₒ, iₒ, aᵥ, bᵥ], l2_abab [kₒ, lₒ, dᵥ, cᵥ], t2_abab [eᵥ, bᵥ, jₒ, lₒ], t2_abab [aᵥ, fᵥ, kₒ, iₒ]], [(1, [])]⟩,
  -- line 2241: cdef,jiab,klcd,ebjl,afki
  ⟨1/4, [g_abab [cᵥ, dᵥ, eᵥ, fᵥ], l2_abab [jₒ, iₒ, aᵥ, bᵥ], l2_abab [kₒ, lₒ, cᵥ, dᵥ], t2_abab [eᵥ, bᵥ, jₒ, lₒ], t2_abab [aᵥ, fᵥ, kₒ, iₒ]], [(1, [])]⟩,
  -- line 2244: dcef,ijba,kldc,eblj,faki
  ⟨1/4, [g_aaaa [dᵥ, cᵥ, eᵥ, fᵥ], l2_bbbb [iₒ, jₒ, bᵥ, aᵥ], l2_aaaa [kₒ, lₒ, dᵥ, cᵥ], t2_abab [eᵥ, bᵥ, lₒ, jₒ], t2_abab [fᵥ, aᵥ, kₒ, iₒ]], [(1, [])]⟩,
  -- line 2247: dcfe,ijba,kldc,ebjl,faki
  ⟨1/4, [g_abab [dᵥ, cᵥ, fᵥ, eᵥ], l2_bbbb [iₒ, jₒ, bᵥ, aᵥ], l2_abab [kₒ, lₒ, dᵥ, cᵥ], t2_bbbb [eᵥ, bᵥ, jₒ, lₒ], t2_abab [fᵥ, aᵥ, kₒ, iₒ]], [(1, [])]⟩,
  -- line 2250: cdfe,ijba,klcd,ebjl,faki
  ⟨1/4, [g_abab [cᵥ, dᵥ, fᵥ, eᵥ], l2_bbbb [iₒ, jₒ, bᵥ, aᵥ], l2_abab [kₒ, lₒ, cᵥ, dᵥ], t2_bbbb [eᵥ, bᵥ, jₒ, lₒ], t2_abab [fᵥ, aᵥ, kₒ, iₒ]], [(1, [])]⟩,
  -- line 2253: dcef,ijba,lkdc,eblj,faik
  ⟨1/4, [g_abab [dᵥ, cᵥ, eᵥ, fᵥ], l2_bbbb [iₒ, jₒ, bᵥ, aᵥ], l2_abab [lₒ, kₒ, dᵥ, cᵥ], t2_abab [eᵥ, bᵥ, lₒ, jₒ], t2_bbbb [fᵥ, aᵥ, iₒ, kₒ]], [(1, [])]⟩,
  -- line 2256: cdef,ijba,lkcd,eblj,faik
  ⟨1/4, [g_abab [cᵥ, dᵥ, eᵥ, fᵥ], l2_bbbb [iₒ, jₒ, bᵥ, aᵥ], l2_abab [lₒ, kₒ, cᵥ, dᵥ], t2_abab [eᵥ, bᵥ, lₒ, jₒ], t2_bbbb [fᵥ, aᵥ, iₒ, kₒ]], [(1, [])]⟩,
  -- line 2259: dcef,ijba,kldc,ebjl,faik
  ⟨1/4, [g_bbbb [dᵥ, cᵥ, eᵥ, fᵥ], l2_bbbb [iₒ, jₒ, bᵥ, aᵥ], l2_bbbb [kₒ, lₒ, dᵥ, cᵥ], t2_bbbb [eᵥ, bᵥ, jₒ, lₒ], t2_bbbb [fᵥ, aᵥ, iₒ, kₒ]], [(1, [])]⟩,
  -- line 2262: dbef,ijba,kldc,eckl,faij
  ⟨1/4, [g_aaaa [dᵥ, bᵥ, eᵥ, fᵥ], l2_aaaa [iₒ, jₒ, bᵥ, aᵥ], l2_aaaa [kₒ, lₒ, dᵥ, cᵥ], t2_aaaa [eᵥ, cᵥ, kₒ, lₒ], t2_aaaa [fᵥ, aᵥ, iₒ, jₒ]], [(1, [])]⟩,
  -- line 2265: dbef,ijba,kldc,eckl,faij
  ⟨1/4, [g_aaaa [dᵥ, bᵥ, eᵥ, fᵥ], l2_aaaa [iₒ, jₒ, bᵥ, aᵥ], l2_abab [kₒ, lₒ, dᵥ, cᵥ], t2_abab [eᵥ, cᵥ, kₒ, lₒ], t2_aaaa [fᵥ, aᵥ, iₒ, jₒ]], [(1, [])]⟩,
  -- line 2268: bdfe,ijba,klcd,cekl,faij
  ⟨1/4, [g_abab [bᵥ, dᵥ, fᵥ, eᵥ], l2_aaaa [iₒ, jₒ, bᵥ, aᵥ], l2_abab [kₒ, lₒ, cᵥ, dᵥ], t2_abab [cᵥ, eᵥ, kₒ, lₒ], t2_aaaa [fᵥ, aᵥ, iₒ, jₒ]], [(1, [])]⟩,
  -- line 2271: dbef,ijba,lkdc,eclk,faij
  ⟨1/4, [g_aaaa [dᵥ, bᵥ, eᵥ, fᵥ], l2_aaaa [iₒ, jₒ, bᵥ, aᵥ], l2_abab [lₒ, kₒ, dᵥ, cᵥ], t2_abab [eᵥ, cᵥ, lₒ, kₒ], t2_aaaa [fᵥ, aᵥ, iₒ, jₒ]], [(1, [])]⟩,
  -- line 2274: bdfe,ijba,lkcd,celk,faij
  ⟨1/4, [g_abab [bᵥ, dᵥ, fᵥ, eᵥ], l2_aaaa [iₒ, jₒ, bᵥ, aᵥ], l2_abab [lₒ, kₒ, cᵥ, dᵥ], t2_abab [cᵥ, eᵥ, lₒ, kₒ], t2_aaaa [fᵥ, aᵥ, iₒ, jₒ]], [(1, [])]⟩,
  -- line 2277: bdfe,ijba,kldc,eckl,faij
  ⟨1/4, [g_abab [bᵥ, dᵥ, fᵥ, eᵥ], l2_aaaa [iₒ, jₒ, bᵥ, aᵥ], l2_bbbb [kₒ, lₒ, dᵥ, cᵥ], t2_bbbb [eᵥ, cᵥ, kₒ, lₒ], t2_aaaa [fᵥ, aᵥ, iₒ, jₒ]], [(1, [])]⟩,
  -- line 2280: dbef,ijba,kldc,eckl,faij
  ⟨1/4, [g_aaaa [dᵥ, bᵥ, eᵥ, fᵥ], l2_abab [iₒ, jₒ, bᵥ, aᵥ], l2_aaaa [kₒ, lₒ, dᵥ, cᵥ], t2_aaaa [eᵥ, cᵥ, kₒ, lₒ], t2_abab [fᵥ, aᵥ, iₒ, jₒ]], [(1, [])]⟩,
  -- line 2283: dbef,ijba,kldc,eckl,faij
  ⟨1/4, [g_aaaa [dᵥ, bᵥ, eᵥ, fᵥ], l2_abab [iₒ, jₒ, bᵥ, aᵥ], l2_abab [kₒ, lₒ, dᵥ, cᵥ], t2_abab [eᵥ, cᵥ, kₒ, lₒ], t2_abab [fᵥ, aᵥ, iₒ, jₒ]], [(1, [])]⟩,
  -- line 2286: bdfe,ijba,klcd,cekl,faij
  ⟨1/4, [g_abab [bᵥ, dᵥ, fᵥ, eᵥ], l2_abab [iₒ, jₒ, bᵥ, aᵥ], l2_abab [kₒ, lₒ, cᵥ, dᵥ], t2_abab [cᵥ, eᵥ, kₒ, lₒ], t2_abab [fᵥ, aᵥ, iₒ, jₒ]], [(1, [])]⟩,
  -- line 2289: dbef,ijba,lkdc,eclk,faij
  ⟨1/4, [g_aaaa [dᵥ, bᵥ, eᵥ, fᵥ], l2_abab [iₒ, jₒ, bᵥ, aᵥ], l2_abab [lₒ, kₒ, dᵥ, cᵥ], t2_abab [eᵥ, cᵥ, lₒ, kₒ], t2_abab [fᵥ, aᵥ, iₒ, jₒ]], [(1, [])]⟩,
  -- line 2292: bdfe,ijba,lkcd,celk,faij
  ⟨1/4, [g_abab [bᵥ, dᵥ, fᵥ, eᵥ], l2_abab [iₒ, jₒ, bᵥ, aᵥ], l2_abab [lₒ, kₒ, cᵥ, dᵥ], t2_abab [cᵥ, eᵥ, lₒ, kₒ], t2_abab [fᵥ, aᵥ, iₒ, jₒ]], [(1, [])]⟩,
  -- line 2295: bdfe,ijba,kldc,eckl,faij
  ⟨1/4, [g_abab [bᵥ, dᵥ, fᵥ, eᵥ], l2_abab [iₒ, jₒ, bᵥ, aᵥ], l2_bbbb [kₒ, lₒ, dᵥ, cᵥ], t2_bbbb [eᵥ, cᵥ, kₒ, lₒ], t2_abab [fᵥ, aᵥ, iₒ, jₒ]], [(1, [])]⟩
  ]

/-- Part 19 of `si_energy_pertQf`. -/
def si_energy_pertQf_19 : Prog := [
  -- line 2298: dbef,ijab,kldc,eckl,afij
  ⟨1/4, [g_abab [dᵥ, bᵥ, eᵥ, fᵥ], l2_abab [iₒ, jₒ, aᵥ, bᵥ], l2_aaaa [kₒ, lₒ, dᵥ, cᵥ], t2_aaaa [eᵥ, cᵥ, kₒ, lₒ], t2_abab [aᵥ, fᵥ, iₒ, jₒ]], [(1, [])]⟩,
  -- line 2301: dbef,ijab,kldc,eckl,afij
  ⟨1/4, [g_abab [dᵥ, bᵥ, eᵥ, fᵥ], l2_abab [iₒ, jₒ, aᵥ, bᵥ], l2_abab [kₒ, lₒ, dᵥ, cᵥ], t2_abab [eᵥ, cᵥ, kₒ, lₒ], t2_abab [aᵥ, fᵥ, iₒ, jₒ]], [(1, [])]⟩,
  -- line 2304: dbef,ijab,klcd,cekl,afij
  ⟨1/4, [g_bbbb [dᵥ, bᵥ, eᵥ, fᵥ], l2_abab [iₒ, jₒ, aᵥ, bᵥ], l2_abab [kₒ, lₒ, cᵥ, dᵥ], t2_abab [cᵥ, eᵥ, kₒ, lₒ], t2_abab [aᵥ, fᵥ, iₒ, jₒ]], [(1, [])]⟩,
  -- line 2307: dbef,ijab,lkdc,eclk,afij
  ⟨1/4, [g_abab [dᵥ, bᵥ, eᵥ, fᵥ], l2_abab [iₒ, jₒ, aᵥ, bᵥ], l2_abab [lₒ, kₒ, dᵥ, cᵥ], t2_abab [eᵥ, cᵥ, lₒ, kₒ], t2_abab [aᵥ, fᵥ, iₒ, jₒ]], [(1, [])]⟩,
  -- line 2310: dbef,ijab,lkcd,celk,afij
  ⟨1/4, [g_bbbb [dᵥ, bᵥ, eᵥ, fᵥ], l2_abab [iₒ, jₒ, aᵥ, bᵥ], l2_abab [lₒ, kₒ, cᵥ, dᵥ], t2_abab [cᵥ, eᵥ, lₒ, kₒ], t2_abab [aᵥ, fᵥ, iₒ, jₒ]], [(1, [])]⟩,
  -- line 2313: dbef,ijab,kldc,eckl,afij
  ⟨1/4, [g_bbbb [dᵥ, bᵥ, eᵥ, fᵥ], l2_abab [iₒ, jₒ, aᵥ, bᵥ], l2_bbbb [kₒ, lₒ, dᵥ, cᵥ], t2_bbbb [eᵥ, cᵥ, kₒ, lₒ], t2_abab [aᵥ, fᵥ, iₒ, jₒ]], [(1, [])]⟩,
  -- line 2316: dbef,jiba,kldc,eckl,faji
  ⟨1/4, [g_aaaa [dᵥ, bᵥ, eᵥ, fᵥ], l2_abab [jₒ, iₒ, bᵥ, aᵥ], l2_aaaa [kₒ, lₒ, dᵥ, cᵥ], t2_aaaa [eᵥ, cᵥ, kₒ, lₒ], t2_abab [fᵥ, aᵥ, jₒ, iₒ]], [(1, [])]⟩,
  -- line 2319: dbef,jiba,kldc,eckl,faji
  ⟨1/4, [g_aaaa [dᵥ, bᵥ, eᵥ, fᵥ], l2_abab [jₒ, iₒ, bᵥ, aᵥ], l2_abab [kₒ, lₒ, dᵥ, cᵥ], t2_abab [eᵥ, cᵥ, kₒ, lₒ], t2_abab [fᵥ, aᵥ, jₒ, iₒ]], [(1, [])]⟩,
  -- line 2322: bdfe,jiba,klcd,cekl,faji
  ⟨1/4, [g_abab [bᵥ, dᵥ, fᵥ, eᵥ], l2_abab [jₒ, iₒ, bᵥ, aᵥ], l2_abab [kₒ, lₒ, cᵥ, dᵥ], t2_abab [cᵥ, eᵥ, kₒ, lₒ], t2_abab [fᵥ, aᵥ, jₒ, iₒ]], [(1, [])]⟩,
  -- line 2325: dbef,jiba,lkdc,eclk,faji
  ⟨1/4, [g_aaaa [dᵥ, bᵥ, eᵥ, fᵥ], l2_abab [jₒ, iₒ, bᵥ, aᵥ], l2_abab [lₒ, kₒ, dᵥ, cᵥ], t2_abab [eᵥ, cᵥ, lₒ, kₒ], t2_abab [fᵥ, aᵥ, jₒ, iₒ]], [(1, [])]⟩,
  -- line 2328: bdfe,jiba,lkcd,celk,faji
  ⟨1/4, [g_abab [bᵥ, dᵥ, fᵥ, eᵥ], l2_abab [jₒ, iₒ, bᵥ, aᵥ], l2_abab [lₒ, kₒ, cᵥ, dᵥ], t2_abab [cᵥ, eᵥ, lₒ, kₒ], t2_abab [fᵥ, aᵥ, jₒ, iₒ]], [(1, [])]⟩,
  -- line 2331: bdfe,jiba,kldc,eckl,faji
  ⟨1/4, [g_abab [bᵥ, dᵥ, fᵥ, eᵥ], l2_abab [jₒ, iₒ, bᵥ, aᵥ], l2_bbbb [kₒ, lₒ, dᵥ, cᵥ], t2_bbbb [eᵥ, cᵥ, kₒ, lₒ], t2_abab [fᵥ, aᵥ, jₒ, iₒ]], [(1, [])]⟩,
  -- line 2334: dbef,jiab,kldc,eckl,afji
  ⟨1/4, [g_abab [dᵥ, bᵥ, eᵥ, fᵥ], l2_abab [jₒ, iₒ, aᵥ, bᵥ], l2_aaaa [kₒ, lₒ, dᵥ, cᵥ], t2_aaaa [eᵥ, cᵥ, kₒ, lₒ], t2_abab [aᵥ, fᵥ, jₒ, iₒ]], [(1, [])]⟩,
  -- line 2337: dbef,jiab,kldc,eckl,afji
  ⟨1/4, [g_abab [dᵥ, bᵥ, eᵥ, fᵥ], l2_abab [jₒ, iₒ, aᵥ, bᵥ], l2_abab [kₒ, lₒ, dᵥ, cᵥ], t2_abab [eᵥ, cᵥ, kₒ, lₒ], t2_abab [aᵥ, fᵥ, jₒ, iₒ]], [(1, [])]⟩,
  -- line 2340: dbef,jiab,klcd,cekl,afji
  ⟨1/4, [g_bbbb [dᵥ, bᵥ, eᵥ, fᵥ], l2_abab [jₒ, iₒ, aᵥ, bᵥ], l2_abab [kₒ, lₒ, cᵥ, dᵥ], t2_abab [cᵥ, eᵥ, kₒ, lₒ], t2_abab [aᵥ, fᵥ, jₒ, iₒ]], [(1, [])]⟩,
  -- line 2343: dbef,jiab,lkdc,eclk,afji
  ⟨1/4, [g_abab [dᵥ, bᵥ, eᵥ, fᵥ], l2_abab [jₒ, iₒ, aᵥ, bᵥ], l2_abab [lₒ, kₒ, dᵥ, cᵥ], t2_abab [eᵥ, cᵥ, lₒ, kₒ], t2_abab [aᵥ, fᵥ, jₒ, iₒ]], [(1, [])]⟩,
  -- line 2346: dbef,jiab,lkcd,celk,afji
  ⟨1/4, [g_bbbb [dᵥ, bᵥ, eᵥ, fᵥ], l2_abab [jₒ, iₒ, aᵥ, bᵥ], l2_abab [lₒ, kₒ, cᵥ, dᵥ], t2_abab [cᵥ, eᵥ, lₒ, kₒ], t2_abab [aᵥ, fᵥ, jₒ, iₒ]], [(1, [])]⟩,
  -- line 2349: dbef,jiab,kldc,eckl,afji
  ⟨1/4, [g_bbbb [dᵥ, bᵥ, eᵥ, fᵥ], l2_abab [jₒ, iₒ, aᵥ, bᵥ], l2_bbbb [kₒ, lₒ, dᵥ, cᵥ], t2_bbbb [eᵥ, cᵥ, kₒ, lₒ], t2_abab [aᵥ, fᵥ, jₒ, iₒ]], [(1, [])]⟩,
  -- line 2352: dbef,ijba,kldc,eckl,faij
  ⟨1/4, [g_abab [dᵥ, bᵥ, eᵥ, fᵥ], l2_bbbb [iₒ, jₒ, bᵥ, aᵥ], l2_aaaa [kₒ, lₒ, dᵥ, cᵥ], t2_aaaa [eᵥ, cᵥ, kₒ, lₒ], t2_bbbb [fᵥ, aᵥ, iₒ, jₒ]], [(1, [])]⟩,
  -- line 2355: dbef,ijba,kldc,eckl,faij
  ⟨1/4, [g_abab [dᵥ, bᵥ, eᵥ, fᵥ], l2_bbbb [iₒ, jₒ, bᵥ, aᵥ], l2_abab [kₒ, lₒ, dᵥ, cᵥ], t2_abab [eᵥ, cᵥ, kₒ, lₒ], t2_bbbb [fᵥ, aᵥ, iₒ, jₒ]], [(1, [])]⟩,
  -- line 2358: dbef,ijba,klcd,cekl,faij
  ⟨1/4, [g_bbbb [dᵥ, bᵥ, eᵥ, fᵥ], l2_bbbb [iₒ, jₒ, bᵥ, aᵥ], l2_abab [kₒ, lₒ, cᵥ, dᵥ], t2_abab [cᵥ, eᵥ, kₒ, lₒ], t2_bbbb [fᵥ, aᵥ, iₒ, jₒ]], [(1, [])]⟩,
  -- line 2361: dbef,ijba,lkdc,eclk,faij
  ⟨1/4, [g_abab [dᵥ, bᵥ, eᵥ, fᵥ], l2_bbbb [iₒ, jₒ, bᵥ, aᵥ], l2_abab [lₒ, kₒ, dᵥ, cᵥ], t2_abab [eᵥ, cᵥ, lₒ, kₒ], t2_bbbb [fᵥ, aᵥ, iₒ, jₒ]], [(1, [])]⟩,
  -- line 2364: dbef,ijba,lkcd,celk,faij
  ⟨1/4, [g_bbbb [dᵥ, bᵥ, eᵥ, fᵥ], l2_bbbb [iₒ, jₒ, bᵥ, aᵥ], l2_abab [lₒ, kₒ, cᵥ, dᵥ], t2_abab [cᵥ, eᵥ, lₒ, kₒ], t2_bbbb [fᵥ, aᵥ, iₒ, jₒ]], [(1, [])]⟩,
  -- line 2367: dbef,ijba,kldc,eckl,faij
  ⟨1/4, [g_bbbb [dᵥ, bᵥ, eᵥ, fᵥ], l2_bbbb [iₒ, jₒ, bᵥ, aᵥ], l2_bbbb [kₒ, lₒ, dᵥ, cᵥ], t2_bbbb [eᵥ, cᵥ, kₒ, lₒ], t2_bbbb [fᵥ, aᵥ, iₒ, jₒ]], [(1, [])]⟩,
  -- line 2370: dbef,ijba,kldc,ecjl,faik
  ⟨-5/8, [g_aaaa [dᵥ, bᵥ, eᵥ, fᵥ], l2_aaaa [iₒ, jₒ, bᵥ, aᵥ], l2_aaaa [kₒ, lₒ, dᵥ, cᵥ], t2_aaaa [eᵥ, cᵥ, jₒ, lₒ], t2_aaaa [fᵥ, aᵥ, iₒ, kₒ]], [(1, [])]⟩,
  -- line 2373: dbef,ijba,kldc,ecjl,faik
  ⟨-5/8, [g_aaaa [dᵥ, bᵥ, eᵥ, fᵥ], l2_aaaa [iₒ, jₒ, bᵥ, aᵥ], l2_abab [kₒ, lₒ, dᵥ, cᵥ], t2_abab [eᵥ, cᵥ, jₒ, lₒ], t2_aaaa [fᵥ, aᵥ, iₒ, kₒ]], [(1, [])]⟩,
  -- line 2376: bdfe,ijba,klcd,cejl,faik
  ⟨-5/8, [g_abab [bᵥ, dᵥ, fᵥ, eᵥ], l2_aaaa [iₒ, jₒ, bᵥ, aᵥ], l2_abab [kₒ, lₒ, cᵥ, dᵥ], t2_abab [cᵥ, eᵥ, jₒ, lₒ], t2_aaaa [fᵥ, aᵥ, iₒ, kₒ]], [(1, [])]⟩,
  -- line 2379: bdef,ijba,lkcd,ecjl,afik
  ⟨-5/8, [g_abab [bᵥ, dᵥ, eᵥ, fᵥ], l2_aaaa [iₒ, jₒ, bᵥ, aᵥ], l2_abab [lₒ, kₒ, cᵥ, dᵥ], t2_aaaa [eᵥ, cᵥ, jₒ, lₒ], t2_abab [aᵥ, fᵥ, iₒ, kₒ]], [(1, [])]⟩,
  -- line 2382: bdef,ijba,kldc,ecjl,afik
  ⟨-5/8, [g_abab [bᵥ, dᵥ, eᵥ, fᵥ], l2_aaaa [iₒ, jₒ, bᵥ, aᵥ], l2_bbbb [kₒ, lₒ, dᵥ, cᵥ], t2_abab [eᵥ, cᵥ, jₒ, lₒ], t2_abab [aᵥ, fᵥ, iₒ, kₒ]], [(1, [])]⟩,
  -- line 2385: dbef,ijba,lkdc,eclj,faik
  ⟨-5/8, [g_aaaa [dᵥ, bᵥ, eᵥ, fᵥ], l2_abab [iₒ, jₒ, bᵥ, aᵥ], l2_abab [lₒ, kₒ, dᵥ, cᵥ], t2_abab [eᵥ, cᵥ, lₒ, jₒ], t2_abab [fᵥ, aᵥ, iₒ, kₒ]], [(1, [])]⟩,
  -- line 2388: bdfe,ijba,lkcd,celj,faik
  ⟨-5/8, [g_abab [bᵥ, dᵥ, fᵥ, eᵥ], l2_abab [iₒ, jₒ, bᵥ, aᵥ], l2_abab [lₒ, kₒ, cᵥ, dᵥ], t2_abab [cᵥ, eᵥ, lₒ, jₒ], t2_abab [fᵥ, aᵥ, iₒ, kₒ]], [(1, [])]⟩,
  -- line 2391: bdfe,ijba,kldc,ecjl,faik
  ⟨-5/8, [g_abab [bᵥ, dᵥ, fᵥ, eᵥ], l2_abab [iₒ, jₒ, bᵥ, aᵥ], l2_bbbb [kₒ, lₒ, dᵥ, cᵥ], t2_bbbb [eᵥ, cᵥ, jₒ, lₒ], t2_abab [fᵥ, aᵥ, iₒ, kₒ]], [(1, [])]⟩,
  -- line 2394: dbfe,ijab,kldc,celj,faik
  ⟨-5/8, [g_abab [dᵥ, bᵥ, fᵥ, eᵥ], l2_abab [iₒ, jₒ, aᵥ, bᵥ], l2_aaaa [kₒ, lₒ, dᵥ, cᵥ], t2_abab [cᵥ, eᵥ, lₒ, jₒ], t2_aaaa [fᵥ, aᵥ, iₒ, kₒ]], [(1, [])]⟩,
  -- line 2397: dbfe,ijab,kldc,ecjl,faik
  ⟨-5/8, [g_abab [dᵥ, bᵥ, fᵥ, eᵥ], l2_abab [iₒ, jₒ, aᵥ, bᵥ], l2_abab [kₒ, lₒ, dᵥ, cᵥ], t2_bbbb [eᵥ, cᵥ, jₒ, lₒ], t2_aaaa [fᵥ, aᵥ, iₒ, kₒ]], [(1, [])]⟩,
  -- line 2400: dbef,ijab,lkdc,eclj,afik
  ⟨-5/8, [g_abab [dᵥ, bᵥ, eᵥ, fᵥ], l2_abab [iₒ, jₒ, aᵥ, bᵥ], l2_abab [lₒ, kₒ, dᵥ, cᵥ], t2_abab [eᵥ, cᵥ, lₒ, jₒ], t2_abab [aᵥ, fᵥ, iₒ, kₒ]], [(1, [])]⟩,
  -- line 2403: dbef,ijab,lkcd,celj,afik
  ⟨-5/8, [g_bbbb [dᵥ, bᵥ, eᵥ, fᵥ], l2_abab [iₒ, jₒ, aᵥ, bᵥ], l2_abab [lₒ, kₒ, cᵥ, dᵥ], t2_abab [cᵥ, eᵥ, lₒ, jₒ], t2_abab [aᵥ, fᵥ, iₒ, kₒ]], [(1, [])]⟩,
  -- line 2406: dbef,ijab,kldc,ecjl,afik
  ⟨-5/8, [g_bbbb [dᵥ, bᵥ, eᵥ, fᵥ], l2_abab [iₒ, jₒ, aᵥ, bᵥ], l2_bbbb [kₒ, lₒ, dᵥ, cᵥ], t2_bbbb [eᵥ, cᵥ, jₒ, lₒ], t2_abab [aᵥ, fᵥ, iₒ, kₒ]], [(1, [])]⟩,
  -- line 2409: dbef,jiba,kldc,ecjl,faki
  ⟨-5/8, [g_aaaa [dᵥ, bᵥ, eᵥ, fᵥ], l2_abab [jₒ, iₒ, bᵥ, aᵥ], l2_aaaa [kₒ, lₒ, dᵥ, cᵥ], t2_aaaa [eᵥ, cᵥ, jₒ, lₒ], t2_abab [fᵥ, aᵥ, kₒ, iₒ]], [(1, [])]⟩,
  -- line 2412: dbef,jiba,kldc,ecjl,faki
  ⟨-5/8, [g_aaaa [dᵥ, bᵥ, eᵥ, fᵥ], l2_abab [jₒ, iₒ, bᵥ, aᵥ], l2_abab [kₒ, lₒ, dᵥ, cᵥ], t2_abab [eᵥ, cᵥ, jₒ, lₒ], t2_abab [fᵥ, aᵥ, kₒ, iₒ]], [(1, [])]⟩,
  -- line 2415: bdfe,jiba,klcd,cejl,faki
  ⟨-5/8, [g_abab [bᵥ, dᵥ, fᵥ, eᵥ], l2_abab [jₒ, iₒ, bᵥ, aᵥ], l2_abab [kₒ, lₒ, cᵥ, dᵥ], t2_abab [cᵥ, eᵥ, jₒ, lₒ], t2_abab [fᵥ, aᵥ, kₒ, iₒ]], [(1, [])]⟩
  ]

/-- Part 20 of `si_energy_pertQf`. -/
def si_energy_pertQf_20 : Prog := [
  -- line 2418: bdef,jiba,lkcd,ecjl,faik
  ⟨-5/8, [g_abab [bᵥ, dᵥ, eᵥ, fᵥ], l2_abab [jₒ, iₒ, bᵥ, aᵥ], l2_abab [lₒ, kₒ, cᵥ, dᵥ], t2_aaaa [eᵥ, cᵥ, jₒ, lₒ], t2_bbbb [fᵥ, aᵥ, iₒ, kₒ]], [(1, [])]⟩,
  -- line 2421: bdef,jiba,kldc,ecjl,faik
  ⟨-5/8, [g_abab [bᵥ, dᵥ, eᵥ, fᵥ], l2_abab [jₒ, iₒ, bᵥ, aᵥ], l2_bbbb [kₒ, lₒ, dᵥ, cᵥ], t2_abab [eᵥ, cᵥ, jₒ, lₒ], t2_bbbb [fᵥ, aᵥ, iₒ, kₒ]], [(1, [])]⟩,
  -- line 2424: dbef,jiab,kldc,ecjl,afki
  ⟨-5/8, [g_abab [dᵥ, bᵥ, eᵥ, fᵥ], l2_abab [jₒ, iₒ, aᵥ, bᵥ], l2_aaaa [kₒ, lₒ, dᵥ, cᵥ], t2_aaaa [eᵥ, cᵥ, jₒ, lₒ], t2_abab [aᵥ, fᵥ, kₒ, iₒ]], [(1, [])]⟩,
  -- line 2427: dbef,jiab,kldc,ecjl,afki
  ⟨-5/8, [g_abab [dᵥ, bᵥ, eᵥ, fᵥ], l2_abab [jₒ, iₒ, aᵥ, bᵥ], l2_abab [kₒ, lₒ, dᵥ, cᵥ], t2_abab [eᵥ, cᵥ, jₒ, lₒ], t2_abab [aᵥ, fᵥ, kₒ, iₒ]], [(1, [])]⟩,
  -- line 2430: dbef,jiab,klcd,cejl,afki
  ⟨-5/8, [g_bbbb [dᵥ, bᵥ, eᵥ, fᵥ], l2_abab [jₒ, iₒ, aᵥ, bᵥ], l2_abab [kₒ, lₒ, cᵥ, dᵥ], t2_abab [cᵥ, eᵥ, jₒ, lₒ], t2_abab [aᵥ, fᵥ, kₒ, iₒ]], [(1, [])]⟩,
  -- line 2433: dbfe,ijba,kldc,celj,faki
  ⟨-5/8, [g_abab [dᵥ, bᵥ, fᵥ, eᵥ], l2_bbbb [iₒ, jₒ, bᵥ, aᵥ], l2_aaaa [kₒ, lₒ, dᵥ, cᵥ], t2_abab [cᵥ, eᵥ, lₒ, jₒ], t2_abab [fᵥ, aᵥ, kₒ, iₒ]], [(1, [])]⟩,
  -- line 2436: dbfe,ijba,kldc,ecjl,faki
  ⟨-5/8, [g_abab [dᵥ, bᵥ, fᵥ, eᵥ], l2_bbbb [iₒ, jₒ, bᵥ, aᵥ], l2_abab [kₒ, lₒ, dᵥ, cᵥ], t2_bbbb [eᵥ, cᵥ, jₒ, lₒ], t2_abab [fᵥ, aᵥ, kₒ, iₒ]], [(1, [])]⟩,
  -- line 2439: dbef,ijba,lkdc,eclj,faik
  ⟨-5/8, [g_abab [dᵥ, bᵥ, eᵥ, fᵥ], l2_bbbb [iₒ, jₒ, bᵥ, aᵥ], l2_abab [lₒ, kₒ, dᵥ, cᵥ], t2_abab [eᵥ, cᵥ, lₒ, jₒ], t2_bbbb [fᵥ, aᵥ, iₒ, kₒ]], [(1, [])]⟩,
  -- line 2442: dbef,ijba,lkcd,celj,faik
  ⟨-5/8, [g_bbbb [dᵥ, bᵥ, eᵥ, fᵥ], l2_bbbb [iₒ, jₒ, bᵥ, aᵥ], l2_abab [lₒ, kₒ, cᵥ, dᵥ], t2_abab [cᵥ, eᵥ, lₒ, jₒ], t2_bbbb [fᵥ, aᵥ, iₒ, kₒ]], [(1, [])]⟩,
  -- line 2445: dbef,ijba,kldc,ecjl,faik
  ⟨-5/8, [g_bbbb [dᵥ, bᵥ, eᵥ, fᵥ], l2_bbbb [iₒ, jₒ, bᵥ, aᵥ], l2_bbbb [kₒ, lₒ, dᵥ, cᵥ], t2_bbbb [eᵥ, cᵥ, jₒ, lₒ], t2_bbbb [fᵥ, aᵥ, iₒ, kₒ]], [(1, [])]⟩,
  -- line 2448: dbef,ijba,kldc,ecij,fakl
  ⟨1/4, [g_aaaa [dᵥ, bᵥ, eᵥ, fᵥ], l2_aaaa [iₒ, jₒ, bᵥ, aᵥ], l2_aaaa [kₒ, lₒ, dᵥ, cᵥ], t2_aaaa [eᵥ, cᵥ, iₒ, jₒ], t2_aaaa [fᵥ, aᵥ, kₒ, lₒ]], [(1, [])]⟩,
  -- line 2451: bdef,ijba,klcd,ecij,afkl
  ⟨-1/4, [g_abab [bᵥ, dᵥ, eᵥ, fᵥ], l2_aaaa [iₒ, jₒ, bᵥ, aᵥ], l2_abab [kₒ, lₒ, cᵥ, dᵥ], t2_aaaa [eᵥ, cᵥ, iₒ, jₒ], t2_abab [aᵥ, fᵥ, kₒ, lₒ]], [(1, [])]⟩,
  -- line 2454: bdef,ijba,lkcd,ecij,aflk
  ⟨-1/4, [g_abab [bᵥ, dᵥ, eᵥ, fᵥ], l2_aaaa [iₒ, jₒ, bᵥ, aᵥ], l2_abab [lₒ, kₒ, cᵥ, dᵥ], t2_aaaa [eᵥ, cᵥ, iₒ, jₒ], t2_abab [aᵥ, fᵥ, lₒ, kₒ]], [(1, [])]⟩,
  -- line 2457: dbef,ijba,kldc,ecij,fakl
  ⟨1/4, [g_aaaa [dᵥ, bᵥ, eᵥ, fᵥ], l2_abab [iₒ, jₒ, bᵥ, aᵥ], l2_abab [kₒ, lₒ, dᵥ, cᵥ], t2_abab [eᵥ, cᵥ, iₒ, jₒ], t2_abab [fᵥ, aᵥ, kₒ, lₒ]], [(1, [])]⟩,
  -- line 2460: bdfe,ijba,klcd,ceij,fakl
  ⟨1/4, [g_abab [bᵥ, dᵥ, fᵥ, eᵥ], l2_abab [iₒ, jₒ, bᵥ, aᵥ], l2_abab [kₒ, lₒ, cᵥ, dᵥ], t2_abab [cᵥ, eᵥ, iₒ, jₒ], t2_abab [fᵥ, aᵥ, kₒ, lₒ]], [(1, [])]⟩,
  -- line 2463: dbef,ijba,lkdc,ecij,falk
  ⟨1/4, [g_aaaa [dᵥ, bᵥ, eᵥ, fᵥ], l2_abab [iₒ, jₒ, bᵥ, aᵥ], l2_abab [lₒ, kₒ, dᵥ, cᵥ], t2_abab [eᵥ, cᵥ, iₒ, jₒ], t2_abab [fᵥ, aᵥ, lₒ, kₒ]], [(1, [])]⟩,
  -- line 2466: bdfe,ijba,lkcd,ceij,falk
  ⟨1/4, [g_abab [bᵥ, dᵥ, fᵥ, eᵥ], l2_abab [iₒ, jₒ, bᵥ, aᵥ], l2_abab [lₒ, kₒ, cᵥ, dᵥ], t2_abab [cᵥ, eᵥ, iₒ, jₒ], t2_abab [fᵥ, aᵥ, lₒ, kₒ]], [(1, [])]⟩,
  -- line 2469: bdef,ijba,kldc,ecij,fakl
  ⟨-1/4, [g_abab [bᵥ, dᵥ, eᵥ, fᵥ], l2_abab [iₒ, jₒ, bᵥ, aᵥ], l2_bbbb [kₒ, lₒ, dᵥ, cᵥ], t2_abab [eᵥ, cᵥ, iₒ, jₒ], t2_bbbb [fᵥ, aᵥ, kₒ, lₒ]], [(1, [])]⟩,
  -- line 2472: dbfe,ijab,kldc,ceij,fakl
  ⟨-1/4, [g_abab [dᵥ, bᵥ, fᵥ, eᵥ], l2_abab [iₒ, jₒ, aᵥ, bᵥ], l2_aaaa [kₒ, lₒ, dᵥ, cᵥ], t2_abab [cᵥ, eᵥ, iₒ, jₒ], t2_aaaa [fᵥ, aᵥ, kₒ, lₒ]], [(1, [])]⟩,
  -- line 2475: dbef,ijab,kldc,ecij,afkl
  ⟨1/4, [g_abab [dᵥ, bᵥ, eᵥ, fᵥ], l2_abab [iₒ, jₒ, aᵥ, bᵥ], l2_abab [kₒ, lₒ, dᵥ, cᵥ], t2_abab [eᵥ, cᵥ, iₒ, jₒ], t2_abab [aᵥ, fᵥ, kₒ, lₒ]], [(1, [])]⟩,
  -- line 2478: dbef,ijab,klcd,ceij,afkl
  ⟨1/4, [g_bbbb [dᵥ, bᵥ, eᵥ, fᵥ], l2_abab [iₒ, jₒ, aᵥ, bᵥ], l2_abab [kₒ, lₒ, cᵥ, dᵥ], t2_abab [cᵥ, eᵥ, iₒ, jₒ], t2_abab [aᵥ, fᵥ, kₒ, lₒ]], [(1, [])]⟩,
  -- line 2481: dbef,ijab,lkdc,ecij,aflk
  ⟨1/4, [g_abab [dᵥ, bᵥ, eᵥ, fᵥ], l2_abab [iₒ, jₒ, aᵥ, bᵥ], l2_abab [lₒ, kₒ, dᵥ, cᵥ], t2_abab [eᵥ, cᵥ, iₒ, jₒ], t2_abab [aᵥ, fᵥ, lₒ, kₒ]], [(1, [])]⟩,
  -- line 2484: dbef,ijab,lkcd,ceij,aflk
  ⟨1/4, [g_bbbb [dᵥ, bᵥ, eᵥ, fᵥ], l2_abab [iₒ, jₒ, aᵥ, bᵥ], l2_abab [lₒ, kₒ, cᵥ, dᵥ], t2_abab [cᵥ, eᵥ, iₒ, jₒ], t2_abab [aᵥ, fᵥ, lₒ, kₒ]], [(1, [])]⟩,
  -- line 2487: dbef,jiba,kldc,ecji,fakl
  ⟨1/4, [g_aaaa [dᵥ, bᵥ, eᵥ, fᵥ], l2_abab [jₒ, iₒ, bᵥ, aᵥ], l2_abab [kₒ, lₒ, dᵥ, cᵥ], t2_abab [eᵥ, cᵥ, jₒ, iₒ], t2_abab [fᵥ, aᵥ, kₒ, lₒ]], [(1, [])]⟩,
  -- line 2490: bdfe,jiba,klcd,ceji,fakl
  ⟨1/4, [g_abab [bᵥ, dᵥ, fᵥ, eᵥ], l2_abab [jₒ, iₒ, bᵥ, aᵥ], l2_abab [kₒ, lₒ, cᵥ, dᵥ], t2_abab [cᵥ, eᵥ, jₒ, iₒ], t2_abab [fᵥ, aᵥ, kₒ, lₒ]], [(1, [])]⟩,
  -- line 2493: dbef,jiba,lkdc,ecji,falk
  ⟨1/4, [g_aaaa [dᵥ, bᵥ, eᵥ, fᵥ], l2_abab [jₒ, iₒ, bᵥ, aᵥ], l2_abab [lₒ, kₒ, dᵥ, cᵥ], t2_abab [eᵥ, cᵥ, jₒ, iₒ], t2_abab [fᵥ, aᵥ, lₒ, kₒ]], [(1, [])]⟩,
  -- line 2496: bdfe,jiba,lkcd,ceji,falk
  ⟨1/4, [g_abab [bᵥ, dᵥ, fᵥ, eᵥ], l2_abab [jₒ, iₒ, bᵥ, aᵥ], l2_abab [lₒ, kₒ, cᵥ, dᵥ], t2_abab [cᵥ, eᵥ, jₒ, iₒ], t2_abab [fᵥ, aᵥ, lₒ, kₒ]], [(1, [])]⟩,
  -- line 2499: bdef,jiba,kldc,ecji,fakl
  ⟨-1/4, [g_abab [bᵥ, dᵥ, eᵥ, fᵥ], l2_abab [jₒ, iₒ, bᵥ, aᵥ], l2_bbbb [kₒ, lₒ, dᵥ, cᵥ], t2_abab [eᵥ, cᵥ, jₒ, iₒ], t2_bbbb [fᵥ, aᵥ, kₒ, lₒ]], [(1, [])]⟩,
  -- line 2502: dbfe,jiab,kldc,ceji,fakl
  ⟨-1/4, [g_abab [dᵥ, bᵥ, fᵥ, eᵥ], l2_abab [jₒ, iₒ, aᵥ, bᵥ], l2_aaaa [kₒ, lₒ, dᵥ, cᵥ], t2_abab [cᵥ, eᵥ, jₒ, iₒ], t2_aaaa [fᵥ, aᵥ, kₒ, lₒ]], [(1, [])]⟩,
  -- line 2505: dbef,jiab,kldc,ecji,afkl
  ⟨1/4, [g_abab [dᵥ, bᵥ, eᵥ, fᵥ], l2_abab [jₒ, iₒ, aᵥ, bᵥ], l2_abab [kₒ, lₒ, dᵥ, cᵥ], t2_abab [eᵥ, cᵥ, jₒ, iₒ], t2_abab [aᵥ, fᵥ, kₒ, lₒ]], [(1, [])]⟩,
  -- line 2508: dbef,jiab,klcd,ceji,afkl
  ⟨1/4, [g_bbbb [dᵥ, bᵥ, eᵥ, fᵥ], l2_abab [jₒ, iₒ, aᵥ, bᵥ], l2_abab [kₒ, lₒ, cᵥ, dᵥ], t2_abab [cᵥ, eᵥ, jₒ, iₒ], t2_abab [aᵥ, fᵥ, kₒ, lₒ]], [(1, [])]⟩,
  -- line 2511: dbef,jiab,lkdc,ecji,aflk
  ⟨1/4, [g_abab [dᵥ, bᵥ, eᵥ, fᵥ], l2_abab [jₒ, iₒ, aᵥ, bᵥ], l2_abab [lₒ, kₒ, dᵥ, cᵥ], t2_abab [eᵥ, cᵥ, jₒ, iₒ], t2_abab [aᵥ, fᵥ, lₒ, kₒ]], [(1, [])]⟩,
  -- line 2514: dbef,jiab,lkcd,ceji,aflk
  ⟨1/4, [g_bbbb [dᵥ, bᵥ, eᵥ, fᵥ], l2_abab [jₒ, iₒ, aᵥ, bᵥ], l2_abab [lₒ, kₒ, cᵥ, dᵥ], t2_abab [cᵥ, eᵥ, jₒ, iₒ], t2_abab [aᵥ, fᵥ, lₒ, kₒ]], [(1, [])]⟩,
  -- line 2517: dbfe,ijba,kldc,ecij,fakl
  ⟨-1/4, [g_abab [dᵥ, bᵥ, fᵥ, eᵥ], l2_bbbb [iₒ, jₒ, bᵥ, aᵥ], l2_abab [kₒ, lₒ, dᵥ, cᵥ], t2_bbbb [eᵥ, cᵥ, iₒ, jₒ], t2_abab [fᵥ, aᵥ, kₒ, lₒ]], [(1, [])]⟩,
  -- line 2520: dbfe,ijba,lkdc,ecij,falk
  ⟨-1/4, [g_abab [dᵥ, bᵥ, fᵥ, eᵥ], l2_bbbb [iₒ, jₒ, bᵥ, aᵥ], l2_abab [lₒ, kₒ, dᵥ, cᵥ], t2_bbbb [eᵥ, cᵥ, iₒ, jₒ], t2_abab [fᵥ, aᵥ, lₒ, kₒ]], [(1, [])]⟩,
  -- line 2523: dbef,ijba,kldc,ecij,fakl
  ⟨1/4, [g_bbbb [dᵥ, bᵥ, eᵥ, fᵥ], l2_bbbb [iₒ, jₒ, bᵥ, aᵥ], l2_bbbb [kₒ, lₒ, dᵥ, cᵥ], t2_bbbb [eᵥ, cᵥ, iₒ, jₒ], t2_bbbb [fᵥ, aᵥ, kₒ, lₒ]], [(1, [])]⟩,
  -- line 2526: daef,ijba,kldc,ebjl,fcik
  ⟨-3/8, [g_aaaa [dᵥ, aᵥ, eᵥ, fᵥ], l2_aaaa [iₒ, jₒ, bᵥ, aᵥ], l2_aaaa [kₒ, lₒ, dᵥ, cᵥ], t2_aaaa [eᵥ, bᵥ, jₒ, lₒ], t2_aaaa [fᵥ, cᵥ, iₒ, kₒ]], [(1, [])]⟩,
  -- line 2529: adfe,ijba,klcd,bejl,fcik
  ⟨-3/8, [g_abab [aᵥ, dᵥ, fᵥ, eᵥ], l2_aaaa [iₒ, jₒ, bᵥ, aᵥ], l2_abab [kₒ, lₒ, cᵥ, dᵥ], t2_abab [bᵥ, eᵥ, jₒ, lₒ], t2_aaaa [fᵥ, cᵥ, iₒ, kₒ]], [(1, [])]⟩,
  -- line 2532: daef,ijba,lkdc,ebjl,fcik
  ⟨3/8, [g_aaaa [dᵥ, aᵥ, eᵥ, fᵥ], l2_aaaa [iₒ, jₒ, bᵥ, aᵥ], l2_abab [lₒ, kₒ, dᵥ, cᵥ], t2_aaaa [eᵥ, bᵥ, jₒ, lₒ], t2_abab [fᵥ, cᵥ, iₒ, kₒ]], [(1, [])]⟩,
  -- line 2535: adef,ijba,lkcd,ebjl,cfik
  ⟨-3/8, [g_abab [aᵥ, dᵥ, eᵥ, fᵥ], l2_aaaa [iₒ, jₒ, bᵥ, aᵥ], l2_abab [lₒ, kₒ, cᵥ, dᵥ], t2_aaaa [eᵥ, bᵥ, jₒ, lₒ], t2_abab [cᵥ, fᵥ, iₒ, kₒ]], [(1, [])]⟩
  ]

/-- Part 21 of `si_energy_pertQf`. -/
def si_energy_pertQf_21 : Prog := [
  -- line 2538: adfe,ijba,kldc,bejl,fcik
  ⟨3/8, [g_abab [aᵥ, dᵥ, fᵥ, eᵥ], l2_aaaa [iₒ, jₒ, bᵥ, aᵥ], l2_bbbb [kₒ, lₒ, dᵥ, cᵥ], t2_abab [bᵥ, eᵥ, jₒ, lₒ], t2_abab [fᵥ, cᵥ, iₒ, kₒ]], [(1, [])]⟩,
  -- line 2541: dafe,ijba,kldc,belj,fcik
  ⟨3/8, [g_abab [dᵥ, aᵥ, fᵥ, eᵥ], l2_abab [iₒ, jₒ, bᵥ, aᵥ], l2_aaaa [kₒ, lₒ, dᵥ, cᵥ], t2_abab [bᵥ, eᵥ, lₒ, jₒ], t2_aaaa [fᵥ, cᵥ, iₒ, kₒ]], [(1, [])]⟩,
  -- line 2544: dafe,ijba,lkdc,belj,fcik
  ⟨-3/8, [g_abab [dᵥ, aᵥ, fᵥ, eᵥ], l2_abab [iₒ, jₒ, bᵥ, aᵥ], l2_abab [lₒ, kₒ, dᵥ, cᵥ], t2_abab [bᵥ, eᵥ, lₒ, jₒ], t2_abab [fᵥ, cᵥ, iₒ, kₒ]], [(1, [])]⟩,
  -- line 2547: daef,ijba,lkcd,belj,cfik
  ⟨3/8, [g_bbbb [dᵥ, aᵥ, eᵥ, fᵥ], l2_abab [iₒ, jₒ, bᵥ, aᵥ], l2_abab [lₒ, kₒ, cᵥ, dᵥ], t2_abab [bᵥ, eᵥ, lₒ, jₒ], t2_abab [cᵥ, fᵥ, iₒ, kₒ]], [(1, [])]⟩,
  -- line 2550: daef,ijab,kldc,eblj,fcik
  ⟨-3/8, [g_aaaa [dᵥ, aᵥ, eᵥ, fᵥ], l2_abab [iₒ, jₒ, aᵥ, bᵥ], l2_aaaa [kₒ, lₒ, dᵥ, cᵥ], t2_abab [eᵥ, bᵥ, lₒ, jₒ], t2_aaaa [fᵥ, cᵥ, iₒ, kₒ]], [(1, [])]⟩,
  -- line 2553: adfe,ijab,klcd,ebjl,fcik
  ⟨-3/8, [g_abab [aᵥ, dᵥ, fᵥ, eᵥ], l2_abab [iₒ, jₒ, aᵥ, bᵥ], l2_abab [kₒ, lₒ, cᵥ, dᵥ], t2_bbbb [eᵥ, bᵥ, jₒ, lₒ], t2_aaaa [fᵥ, cᵥ, iₒ, kₒ]], [(1, [])]⟩,
  -- line 2556: daef,ijab,lkdc,eblj,fcik
  ⟨3/8, [g_aaaa [dᵥ, aᵥ, eᵥ, fᵥ], l2_abab [iₒ, jₒ, aᵥ, bᵥ], l2_abab [lₒ, kₒ, dᵥ, cᵥ], t2_abab [eᵥ, bᵥ, lₒ, jₒ], t2_abab [fᵥ, cᵥ, iₒ, kₒ]], [(1, [])]⟩,
  -- line 2559: adef,ijab,lkcd,eblj,cfik
  ⟨-3/8, [g_abab [aᵥ, dᵥ, eᵥ, fᵥ], l2_abab [iₒ, jₒ, aᵥ, bᵥ], l2_abab [lₒ, kₒ, cᵥ, dᵥ], t2_abab [eᵥ, bᵥ, lₒ, jₒ], t2_abab [cᵥ, fᵥ, iₒ, kₒ]], [(1, [])]⟩,
  -- line 2562: adfe,ijab,kldc,ebjl,fcik
  ⟨3/8, [g_abab [aᵥ, dᵥ, fᵥ, eᵥ], l2_abab [iₒ, jₒ, aᵥ, bᵥ], l2_bbbb [kₒ, lₒ, dᵥ, cᵥ], t2_bbbb [eᵥ, bᵥ, jₒ, lₒ], t2_abab [fᵥ, cᵥ, iₒ, kₒ]], [(1, [])]⟩,
  -- line 2565: daef,jiba,kldc,ebjl,cfki
  ⟨3/8, [g_abab [dᵥ, aᵥ, eᵥ, fᵥ], l2_abab [jₒ, iₒ, bᵥ, aᵥ], l2_aaaa [kₒ, lₒ, dᵥ, cᵥ], t2_aaaa [eᵥ, bᵥ, jₒ, lₒ], t2_abab [cᵥ, fᵥ, kₒ, iₒ]], [(1, [])]⟩,
  -- line 2568: dafe,jiba,kldc,bejl,fcki
  ⟨-3/8, [g_abab [dᵥ, aᵥ, fᵥ, eᵥ], l2_abab [jₒ, iₒ, bᵥ, aᵥ], l2_abab [kₒ, lₒ, dᵥ, cᵥ], t2_abab [bᵥ, eᵥ, jₒ, lₒ], t2_abab [fᵥ, cᵥ, kₒ, iₒ]], [(1, [])]⟩,
  -- line 2571: daef,jiba,klcd,bejl,cfki
  ⟨3/8, [g_bbbb [dᵥ, aᵥ, eᵥ, fᵥ], l2_abab [jₒ, iₒ, bᵥ, aᵥ], l2_abab [kₒ, lₒ, cᵥ, dᵥ], t2_abab [bᵥ, eᵥ, jₒ, lₒ], t2_abab [cᵥ, fᵥ, kₒ, iₒ]], [(1, [])]⟩,
  -- line 2574: daef,jiba,lkdc,ebjl,fcik
  ⟨-3/8, [g_abab [dᵥ, aᵥ, eᵥ, fᵥ], l2_abab [jₒ, iₒ, bᵥ, aᵥ], l2_abab [lₒ, kₒ, dᵥ, cᵥ], t2_aaaa [eᵥ, bᵥ, jₒ, lₒ], t2_bbbb [fᵥ, cᵥ, iₒ, kₒ]], [(1, [])]⟩,
  -- line 2577: daef,jiba,kldc,bejl,fcik
  ⟨-3/8, [g_bbbb [dᵥ, aᵥ, eᵥ, fᵥ], l2_abab [jₒ, iₒ, bᵥ, aᵥ], l2_bbbb [kₒ, lₒ, dᵥ, cᵥ], t2_abab [bᵥ, eᵥ, jₒ, lₒ], t2_bbbb [fᵥ, cᵥ, iₒ, kₒ]], [(1, [])]⟩,
  -- line 2580: daef,jiab,kldc,ebjl,fcki
  ⟨3/8, [g_aaaa [dᵥ, aᵥ, eᵥ, fᵥ], l2_abab [jₒ, iₒ, aᵥ, bᵥ], l2_abab [kₒ, lₒ, dᵥ, cᵥ], t2_abab [eᵥ, bᵥ, jₒ, lₒ], t2_abab [fᵥ, cᵥ, kₒ, iₒ]], [(1, [])]⟩,
  -- line 2583: adef,jiab,klcd,ebjl,cfki
  ⟨-3/8, [g_abab [aᵥ, dᵥ, eᵥ, fᵥ], l2_abab [jₒ, iₒ, aᵥ, bᵥ], l2_abab [kₒ, lₒ, cᵥ, dᵥ], t2_abab [eᵥ, bᵥ, jₒ, lₒ], t2_abab [cᵥ, fᵥ, kₒ, iₒ]], [(1, [])]⟩,
  -- line 2586: adef,jiab,kldc,ebjl,fcik
  ⟨3/8, [g_abab [aᵥ, dᵥ, eᵥ, fᵥ], l2_abab [jₒ, iₒ, aᵥ, bᵥ], l2_bbbb [kₒ, lₒ, dᵥ, cᵥ], t2_abab [eᵥ, bᵥ, jₒ, lₒ], t2_bbbb [fᵥ, cᵥ, iₒ, kₒ]], [(1, [])]⟩,
  -- line 2589: daef,ijba,kldc,eblj,cfki
  ⟨3/8, [g_abab [dᵥ, aᵥ, eᵥ, fᵥ], l2_bbbb [iₒ, jₒ, bᵥ, aᵥ], l2_aaaa [kₒ, lₒ, dᵥ, cᵥ], t2_abab [eᵥ, bᵥ, lₒ, jₒ], t2_abab [cᵥ, fᵥ, kₒ, iₒ]], [(1, [])]⟩,
  -- line 2592: dafe,ijba,kldc,ebjl,fcki
  ⟨-3/8, [g_abab [dᵥ, aᵥ, fᵥ, eᵥ], l2_bbbb [iₒ, jₒ, bᵥ, aᵥ], l2_abab [kₒ, lₒ, dᵥ, cᵥ], t2_bbbb [eᵥ, bᵥ, jₒ, lₒ], t2_abab [fᵥ, cᵥ, kₒ, iₒ]], [(1, [])]⟩,
  -- line 2595: daef,ijba,klcd,ebjl,cfki
  ⟨3/8, [g_bbbb [dᵥ, aᵥ, eᵥ, fᵥ], l2_bbbb [iₒ, jₒ, bᵥ, aᵥ], l2_abab [kₒ, lₒ, cᵥ, dᵥ], t2_bbbb [eᵥ, bᵥ, jₒ, lₒ], t2_abab [cᵥ, fᵥ, kₒ, iₒ]], [(1, [])]⟩,
  -- line 2598: daef,ijba,lkdc,eblj,fcik
  ⟨-3/8, [g_abab [dᵥ, aᵥ, eᵥ, fᵥ], l2_bbbb [iₒ, jₒ, bᵥ, aᵥ], l2_abab [lₒ, kₒ, dᵥ, cᵥ], t2_abab [eᵥ, bᵥ, lₒ, jₒ], t2_bbbb [fᵥ, cᵥ, iₒ, kₒ]], [(1, [])]⟩,
  -- line 2601: daef,ijba,kldc,ebjl,fcik
  ⟨-3/8, [g_bbbb [dᵥ, aᵥ, eᵥ, fᵥ], l2_bbbb [iₒ, jₒ, bᵥ, aᵥ], l2_bbbb [kₒ, lₒ, dᵥ, cᵥ], t2_bbbb [eᵥ, bᵥ, jₒ, lₒ], t2_bbbb [fᵥ, cᵥ, iₒ, kₒ]], [(1, [])]⟩,
  -- line 2604: baef,ijba,kldc,edkl,fcij
  ⟨-1/8, [g_aaaa [bᵥ, aᵥ, eᵥ, fᵥ], l2_aaaa [iₒ, jₒ, bᵥ, aᵥ], l2_aaaa [kₒ, lₒ, dᵥ, cᵥ], t2_aaaa [eᵥ, dᵥ, kₒ, lₒ], t2_aaaa [fᵥ, cᵥ, iₒ, jₒ]], [(1, [])]⟩,
  -- line 2607: baef,ijba,klcd,edkl,fcij
  ⟨1/8, [g_aaaa [bᵥ, aᵥ, eᵥ, fᵥ], l2_aaaa [iₒ, jₒ, bᵥ, aᵥ], l2_abab [kₒ, lₒ, cᵥ, dᵥ], t2_abab [eᵥ, dᵥ, kₒ, lₒ], t2_aaaa [fᵥ, cᵥ, iₒ, jₒ]], [(1, [])]⟩,
  -- line 2610: baef,ijba,lkcd,edlk,fcij
  ⟨1/8, [g_aaaa [bᵥ, aᵥ, eᵥ, fᵥ], l2_aaaa [iₒ, jₒ, bᵥ, aᵥ], l2_abab [lₒ, kₒ, cᵥ, dᵥ], t2_abab [eᵥ, dᵥ, lₒ, kₒ], t2_aaaa [fᵥ, cᵥ, iₒ, jₒ]], [(1, [])]⟩,
  -- line 2613: baef,ijba,kldc,edkl,cfij
  ⟨1/8, [g_abab [bᵥ, aᵥ, eᵥ, fᵥ], l2_abab [iₒ, jₒ, bᵥ, aᵥ], l2_aaaa [kₒ, lₒ, dᵥ, cᵥ], t2_aaaa [eᵥ, dᵥ, kₒ, lₒ], t2_abab [cᵥ, fᵥ, iₒ, jₒ]], [(1, [])]⟩,
  -- line 2616: bafe,ijba,kldc,dekl,fcij
  ⟨-1/8, [g_abab [bᵥ, aᵥ, fᵥ, eᵥ], l2_abab [iₒ, jₒ, bᵥ, aᵥ], l2_abab [kₒ, lₒ, dᵥ, cᵥ], t2_abab [dᵥ, eᵥ, kₒ, lₒ], t2_abab [fᵥ, cᵥ, iₒ, jₒ]], [(1, [])]⟩,
  -- line 2619: baef,ijba,klcd,edkl,cfij
  ⟨-1/8, [g_abab [bᵥ, aᵥ, eᵥ, fᵥ], l2_abab [iₒ, jₒ, bᵥ, aᵥ], l2_abab [kₒ, lₒ, cᵥ, dᵥ], t2_abab [eᵥ, dᵥ, kₒ, lₒ], t2_abab [cᵥ, fᵥ, iₒ, jₒ]], [(1, [])]⟩,
  -- line 2622: bafe,ijba,lkdc,delk,fcij
  ⟨-1/8, [g_abab [bᵥ, aᵥ, fᵥ, eᵥ], l2_abab [iₒ, jₒ, bᵥ, aᵥ], l2_abab [lₒ, kₒ, dᵥ, cᵥ], t2_abab [dᵥ, eᵥ, lₒ, kₒ], t2_abab [fᵥ, cᵥ, iₒ, jₒ]], [(1, [])]⟩,
  -- line 2625: baef,ijba,lkcd,edlk,cfij
  ⟨-1/8, [g_abab [bᵥ, aᵥ, eᵥ, fᵥ], l2_abab [iₒ, jₒ, bᵥ, aᵥ], l2_abab [lₒ, kₒ, cᵥ, dᵥ], t2_abab [eᵥ, dᵥ, lₒ, kₒ], t2_abab [cᵥ, fᵥ, iₒ, jₒ]], [(1, [])]⟩,
  -- line 2628: bafe,ijba,kldc,edkl,fcij
  ⟨1/8, [g_abab [bᵥ, aᵥ, fᵥ, eᵥ], l2_abab [iₒ, jₒ, bᵥ, aᵥ], l2_bbbb [kₒ, lₒ, dᵥ, cᵥ], t2_bbbb [eᵥ, dᵥ, kₒ, lₒ], t2_abab [fᵥ, cᵥ, iₒ, jₒ]], [(1, [])]⟩,
  -- line 2631: abef,ijab,kldc,edkl,cfij
  ⟨1/8, [g_abab [aᵥ, bᵥ, eᵥ, fᵥ], l2_abab [iₒ, jₒ, aᵥ, bᵥ], l2_aaaa [kₒ, lₒ, dᵥ, cᵥ], t2_aaaa [eᵥ, dᵥ, kₒ, lₒ], t2_abab [cᵥ, fᵥ, iₒ, jₒ]], [(1, [])]⟩,
  -- line 2634: abfe,ijab,kldc,dekl,fcij
  ⟨-1/8, [g_abab [aᵥ, bᵥ, fᵥ, eᵥ], l2_abab [iₒ, jₒ, aᵥ, bᵥ], l2_abab [kₒ, lₒ, dᵥ, cᵥ], t2_abab [dᵥ, eᵥ, kₒ, lₒ], t2_abab [fᵥ, cᵥ, iₒ, jₒ]], [(1, [])]⟩,
  -- line 2637: abef,ijab,klcd,edkl,cfij
  ⟨-1/8, [g_abab [aᵥ, bᵥ, eᵥ, fᵥ], l2_abab [iₒ, jₒ, aᵥ, bᵥ], l2_abab [kₒ, lₒ, cᵥ, dᵥ], t2_abab [eᵥ, dᵥ, kₒ, lₒ], t2_abab [cᵥ, fᵥ, iₒ, jₒ]], [(1, [])]⟩,
  -- line 2640: abfe,ijab,lkdc,delk,fcij
  ⟨-1/8, [g_abab [aᵥ, bᵥ, fᵥ, eᵥ], l2_abab [iₒ, jₒ, aᵥ, bᵥ], l2_abab [lₒ, kₒ, dᵥ, cᵥ], t2_abab [dᵥ, eᵥ, lₒ, kₒ], t2_abab [fᵥ, cᵥ, iₒ, jₒ]], [(1, [])]⟩,
  -- line 2643: abef,ijab,lkcd,edlk,cfij
  ⟨-1/8, [g_abab [aᵥ, bᵥ, eᵥ, fᵥ], l2_abab [iₒ, jₒ, aᵥ, bᵥ], l2_abab [lₒ, kₒ, cᵥ, dᵥ], t2_abab [eᵥ, dᵥ, lₒ, kₒ], t2_abab [cᵥ, fᵥ, iₒ, jₒ]], [(1, [])]⟩,
  -- line 2646: abfe,ijab,kldc,edkl,fcij
  ⟨1/8, [g_abab [aᵥ, bᵥ, fᵥ, eᵥ], l2_abab [iₒ, jₒ, aᵥ, bᵥ], l2_bbbb [kₒ, lₒ, dᵥ, cᵥ], t2_bbbb [eᵥ, dᵥ, kₒ, lₒ], t2_abab [fᵥ, cᵥ, iₒ, jₒ]], [(1, [])]⟩,
  -- line 2649: baef,jiba,kldc,edkl,cfji
  ⟨1/8, [g_abab [bᵥ, aᵥ, eᵥ, fᵥ], l2_abab [jₒ, iₒ, bᵥ, aᵥ], l2_aaaa [kₒ, lₒ, dᵥ, cᵥ], t2_aaaa [eᵥ, dᵥ, kₒ, lₒ], t2_abab [cᵥ, fᵥ, jₒ, iₒ]], [(1, [])]⟩,
  -- line 2652: bafe,jiba,kldc,dekl,fcji
  ⟨-1/8, [g_abab [bᵥ, aᵥ, fᵥ, eᵥ], l2_abab [jₒ, iₒ, bᵥ, aᵥ], l2_abab [kₒ, lₒ, dᵥ, cᵥ], t2_abab [dᵥ, eᵥ, kₒ, lₒ], t2_abab [fᵥ, cᵥ, jₒ, iₒ]], [(1, [])]⟩,
  -- line 2655: baef,jiba,klcd,edkl,cfji
  ⟨-1/8, [g_abab [bᵥ, aᵥ, eᵥ, fᵥ], l2_abab [jₒ, iₒ, bᵥ, aᵥ], l2_abab [kₒ, lₒ, cᵥ, dᵥ], t2_abab [eᵥ, dᵥ, kₒ, lₒ], t2_abab [cᵥ, fᵥ, jₒ, iₒ]], [(1, [])]⟩
  ]

/-- Part 22 of `si_energy_pertQf`. -/
def si_energy_pertQf_22 : Prog := [
  -- line 2658: bafe,jiba,lkdc,delk,fcji
  ⟨-1/8, [g_abab [bᵥ, aᵥ, fᵥ, eᵥ], l2_abab [jₒ, iₒ, bᵥ, aᵥ], l2_abab [lₒ, kₒ, dᵥ, cᵥ], t2_abab [dᵥ, eᵥ, lₒ, kₒ], t2_abab [fᵥ, cᵥ, jₒ, iₒ]], [(1, [])]⟩,
  -- line 2661: baef,jiba,lkcd,edlk,cfji
  ⟨-1/8, [g_abab [bᵥ, aᵥ, eᵥ, fᵥ], l2_abab [jₒ, iₒ, bᵥ, aᵥ], l2_abab [lₒ, kₒ, cᵥ, dᵥ], t2_abab [eᵥ, dᵥ, lₒ, kₒ], t2_abab [cᵥ, fᵥ, jₒ, iₒ]], [(1, [])]⟩,
  -- line 2664: bafe,jiba,kldc,edkl,fcji
  ⟨1/8, [g_abab [bᵥ, aᵥ, fᵥ, eᵥ], l2_abab [jₒ, iₒ, bᵥ, aᵥ], l2_bbbb [kₒ, lₒ, dᵥ, cᵥ], t2_bbbb [eᵥ, dᵥ, kₒ, lₒ], t2_abab [fᵥ, cᵥ, jₒ, iₒ]], [(1, [])]⟩,
  -- line 2667: abef,jiab,kldc,edkl,cfji
  ⟨1/8, [g_abab [aᵥ, bᵥ, eᵥ, fᵥ], l2_abab [jₒ, iₒ, aᵥ, bᵥ], l2_aaaa [kₒ, lₒ, dᵥ, cᵥ], t2_aaaa [eᵥ, dᵥ, kₒ, lₒ], t2_abab [cᵥ, fᵥ, jₒ, iₒ]], [(1, [])]⟩,
  -- line 2670: abfe,jiab,kldc,dekl,fcji
  ⟨-1/8, [g_abab [aᵥ, bᵥ, fᵥ, eᵥ], l2_abab [jₒ, iₒ, aᵥ, bᵥ], l2_abab [kₒ, lₒ, dᵥ, cᵥ], t2_abab [dᵥ, eᵥ, kₒ, lₒ], t2_abab [fᵥ, cᵥ, jₒ, iₒ]], [(1, [])]⟩,
  -- line 2673: abef,jiab,klcd,edkl,cfji
  ⟨-1/8, [g_abab [aᵥ, bᵥ, eᵥ, fᵥ], l2_abab [jₒ, iₒ, aᵥ, bᵥ], l2_abab [kₒ, lₒ, cᵥ, dᵥ], t2_abab [eᵥ, dᵥ, kₒ, lₒ], t2_abab [cᵥ, fᵥ, jₒ, iₒ]], [(1, [])]⟩,
  -- line 2676: abfe,jiab,lkdc,delk,fcji
  ⟨-1/8, [g_abab [aᵥ, bᵥ, fᵥ, eᵥ], l2_abab [jₒ, iₒ, aᵥ, bᵥ], l2_abab [lₒ, kₒ, dᵥ, cᵥ], t2_abab [dᵥ, eᵥ, lₒ, kₒ], t2_abab [fᵥ, cᵥ, jₒ, iₒ]], [(1, [])]⟩,
  -- line 2679: abef,jiab,lkcd,edlk,cfji
  ⟨-1/8, [g_abab [aᵥ, bᵥ, eᵥ, fᵥ], l2_abab [jₒ, iₒ, aᵥ, bᵥ], l2_abab [lₒ, kₒ, cᵥ, dᵥ], t2_abab [eᵥ, dᵥ, lₒ, kₒ], t2_abab [cᵥ, fᵥ, jₒ, iₒ]], [(1, [])]⟩,
  -- line 2682: abfe,jiab,kldc,edkl,fcji
  ⟨1/8, [g_abab [aᵥ, bᵥ, fᵥ, eᵥ], l2_abab [jₒ, iₒ, aᵥ, bᵥ], l2_bbbb [kₒ, lₒ, dᵥ, cᵥ], t2_bbbb [eᵥ, dᵥ, kₒ, lₒ], t2_abab [fᵥ, cᵥ, jₒ, iₒ]], [(1, [])]⟩,
  -- line 2685: baef,ijba,kldc,dekl,fcij
  ⟨1/8, [g_bbbb [bᵥ, aᵥ, eᵥ, fᵥ], l2_bbbb [iₒ, jₒ, bᵥ, aᵥ], l2_abab [kₒ, lₒ, dᵥ, cᵥ], t2_abab [dᵥ, eᵥ, kₒ, lₒ], t2_bbbb [fᵥ, cᵥ, iₒ, jₒ]], [(1, [])]⟩,
  -- line 2688: baef,ijba,lkdc,delk,fcij
  ⟨1/8, [g_bbbb [bᵥ, aᵥ, eᵥ, fᵥ], l2_bbbb [iₒ, jₒ, bᵥ, aᵥ], l2_abab [lₒ, kₒ, dᵥ, cᵥ], t2_abab [dᵥ, eᵥ, lₒ, kₒ], t2_bbbb [fᵥ, cᵥ, iₒ, jₒ]], [(1, [])]⟩,
  -- line 2691: baef,ijba,kldc,edkl,fcij
  ⟨-1/8, [g_bbbb [bᵥ, aᵥ, eᵥ, fᵥ], l2_bbbb [iₒ, jₒ, bᵥ, aᵥ], l2_bbbb [kₒ, lₒ, dᵥ, cᵥ], t2_bbbb [eᵥ, dᵥ, kₒ, lₒ], t2_bbbb [fᵥ, cᵥ, iₒ, jₒ]], [(1, [])]⟩,
  -- line 2694: baef,ijba,kldc,edjl,fcik
  ⟨1/4, [g_aaaa [bᵥ, aᵥ, eᵥ, fᵥ], l2_aaaa [iₒ, jₒ, bᵥ, aᵥ], l2_aaaa [kₒ, lₒ, dᵥ, cᵥ], t2_aaaa [eᵥ, dᵥ, jₒ, lₒ], t2_aaaa [fᵥ, cᵥ, iₒ, kₒ]], [(1, [])]⟩,
  -- line 2697: baef,ijba,klcd,edjl,fcik
  ⟨-1/4, [g_aaaa [bᵥ, aᵥ, eᵥ, fᵥ], l2_aaaa [iₒ, jₒ, bᵥ, aᵥ], l2_abab [kₒ, lₒ, cᵥ, dᵥ], t2_abab [eᵥ, dᵥ, jₒ, lₒ], t2_aaaa [fᵥ, cᵥ, iₒ, kₒ]], [(1, [])]⟩,
  -- line 2700: baef,ijba,lkdc,edjl,fcik
  ⟨-1/4, [g_aaaa [bᵥ, aᵥ, eᵥ, fᵥ], l2_aaaa [iₒ, jₒ, bᵥ, aᵥ], l2_abab [lₒ, kₒ, dᵥ, cᵥ], t2_aaaa [eᵥ, dᵥ, jₒ, lₒ], t2_abab [fᵥ, cᵥ, iₒ, kₒ]], [(1, [])]⟩,
  -- line 2703: baef,ijba,kldc,edjl,fcik
  ⟨1/4, [g_aaaa [bᵥ, aᵥ, eᵥ, fᵥ], l2_aaaa [iₒ, jₒ, bᵥ, aᵥ], l2_bbbb [kₒ, lₒ, dᵥ, cᵥ], t2_abab [eᵥ, dᵥ, jₒ, lₒ], t2_abab [fᵥ, cᵥ, iₒ, kₒ]], [(1, [])]⟩,
  -- line 2706: bafe,ijba,kldc,delj,fcik
  ⟨-1/4, [g_abab [bᵥ, aᵥ, fᵥ, eᵥ], l2_abab [iₒ, jₒ, bᵥ, aᵥ], l2_aaaa [kₒ, lₒ, dᵥ, cᵥ], t2_abab [dᵥ, eᵥ, lₒ, jₒ], t2_aaaa [fᵥ, cᵥ, iₒ, kₒ]], [(1, [])]⟩,
  -- line 2709: bafe,ijba,klcd,edjl,fcik
  ⟨1/4, [g_abab [bᵥ, aᵥ, fᵥ, eᵥ], l2_abab [iₒ, jₒ, bᵥ, aᵥ], l2_abab [kₒ, lₒ, cᵥ, dᵥ], t2_bbbb [eᵥ, dᵥ, jₒ, lₒ], t2_aaaa [fᵥ, cᵥ, iₒ, kₒ]], [(1, [])]⟩,
  -- line 2712: bafe,ijba,lkdc,delj,fcik
  ⟨1/4, [g_abab [bᵥ, aᵥ, fᵥ, eᵥ], l2_abab [iₒ, jₒ, bᵥ, aᵥ], l2_abab [lₒ, kₒ, dᵥ, cᵥ], t2_abab [dᵥ, eᵥ, lₒ, jₒ], t2_abab [fᵥ, cᵥ, iₒ, kₒ]], [(1, [])]⟩,
  -- line 2715: baef,ijba,lkcd,edlj,cfik
  ⟨1/4, [g_abab [bᵥ, aᵥ, eᵥ, fᵥ], l2_abab [iₒ, jₒ, bᵥ, aᵥ], l2_abab [lₒ, kₒ, cᵥ, dᵥ], t2_abab [eᵥ, dᵥ, lₒ, jₒ], t2_abab [cᵥ, fᵥ, iₒ, kₒ]], [(1, [])]⟩,
  -- line 2718: bafe,ijba,kldc,edjl,fcik
  ⟨-1/4, [g_abab [bᵥ, aᵥ, fᵥ, eᵥ], l2_abab [iₒ, jₒ, bᵥ, aᵥ], l2_bbbb [kₒ, lₒ, dᵥ, cᵥ], t2_bbbb [eᵥ, dᵥ, jₒ, lₒ], t2_abab [fᵥ, cᵥ, iₒ, kₒ]], [(1, [])]⟩,
  -- line 2721: abfe,ijab,kldc,delj,fcik
  ⟨-1/4, [g_abab [aᵥ, bᵥ, fᵥ, eᵥ], l2_abab [iₒ, jₒ, aᵥ, bᵥ], l2_aaaa [kₒ, lₒ, dᵥ, cᵥ], t2_abab [dᵥ, eᵥ, lₒ, jₒ], t2_aaaa [fᵥ, cᵥ, iₒ, kₒ]], [(1, [])]⟩,
  -- line 2724: abfe,ijab,klcd,edjl,fcik
  ⟨1/4, [g_abab [aᵥ, bᵥ, fᵥ, eᵥ], l2_abab [iₒ, jₒ, aᵥ, bᵥ], l2_abab [kₒ, lₒ, cᵥ, dᵥ], t2_bbbb [eᵥ, dᵥ, jₒ, lₒ], t2_aaaa [fᵥ, cᵥ, iₒ, kₒ]], [(1, [])]⟩,
  -- line 2727: abfe,ijab,lkdc,delj,fcik
  ⟨1/4, [g_abab [aᵥ, bᵥ, fᵥ, eᵥ], l2_abab [iₒ, jₒ, aᵥ, bᵥ], l2_abab [lₒ, kₒ, dᵥ, cᵥ], t2_abab [dᵥ, eᵥ, lₒ, jₒ], t2_abab [fᵥ, cᵥ, iₒ, kₒ]], [(1, [])]⟩,
  -- line 2730: abef,ijab,lkcd,edlj,cfik
  ⟨1/4, [g_abab [aᵥ, bᵥ, eᵥ, fᵥ], l2_abab [iₒ, jₒ, aᵥ, bᵥ], l2_abab [lₒ, kₒ, cᵥ, dᵥ], t2_abab [eᵥ, dᵥ, lₒ, jₒ], t2_abab [cᵥ, fᵥ, iₒ, kₒ]], [(1, [])]⟩,
  -- line 2733: abfe,ijab,kldc,edjl,fcik
  ⟨-1/4, [g_abab [aᵥ, bᵥ, fᵥ, eᵥ], l2_abab [iₒ, jₒ, aᵥ, bᵥ], l2_bbbb [kₒ, lₒ, dᵥ, cᵥ], t2_bbbb [eᵥ, dᵥ, jₒ, lₒ], t2_abab [fᵥ, cᵥ, iₒ, kₒ]], [(1, [])]⟩,
  -- line 2736: baef,jiba,kldc,edjl,cfki
  ⟨-1/4, [g_abab [bᵥ, aᵥ, eᵥ, fᵥ], l2_abab [jₒ, iₒ, bᵥ, aᵥ], l2_aaaa [kₒ, lₒ, dᵥ, cᵥ], t2_aaaa [eᵥ, dᵥ, jₒ, lₒ], t2_abab [cᵥ, fᵥ, kₒ, iₒ]], [(1, [])]⟩,
  -- line 2739: bafe,jiba,kldc,dejl,fcki
  ⟨1/4, [g_abab [bᵥ, aᵥ, fᵥ, eᵥ], l2_abab [jₒ, iₒ, bᵥ, aᵥ], l2_abab [kₒ, lₒ, dᵥ, cᵥ], t2_abab [dᵥ, eᵥ, jₒ, lₒ], t2_abab [fᵥ, cᵥ, kₒ, iₒ]], [(1, [])]⟩,
  -- line 2742: baef,jiba,klcd,edjl,cfki
  ⟨1/4, [g_abab [bᵥ, aᵥ, eᵥ, fᵥ], l2_abab [jₒ, iₒ, bᵥ, aᵥ], l2_abab [kₒ, lₒ, cᵥ, dᵥ], t2_abab [eᵥ, dᵥ, jₒ, lₒ], t2_abab [cᵥ, fᵥ, kₒ, iₒ]], [(1, [])]⟩,
  -- line 2745: baef,jiba,lkdc,edjl,fcik
  ⟨1/4, [g_abab [bᵥ, aᵥ, eᵥ, fᵥ], l2_abab [jₒ, iₒ, bᵥ, aᵥ], l2_abab [lₒ, kₒ, dᵥ, cᵥ], t2_aaaa [eᵥ, dᵥ, jₒ, lₒ], t2_bbbb [fᵥ, cᵥ, iₒ, kₒ]], [(1, [])]⟩,
  -- line 2748: baef,jiba,kldc,edjl,fcik
  ⟨-1/4, [g_abab [bᵥ, aᵥ, eᵥ, fᵥ], l2_abab [jₒ, iₒ, bᵥ, aᵥ], l2_bbbb [kₒ, lₒ, dᵥ, cᵥ], t2_abab [eᵥ, dᵥ, jₒ, lₒ], t2_bbbb [fᵥ, cᵥ, iₒ, kₒ]], [(1, [])]⟩,
  -- line 2751: abef,jiab,kldc,edjl,cfki
  ⟨-1/4, [g_abab [aᵥ, bᵥ, eᵥ, fᵥ], l2_abab [jₒ, iₒ, aᵥ, bᵥ], l2_aaaa [kₒ, lₒ, dᵥ, cᵥ], t2_aaaa [eᵥ, dᵥ, jₒ, lₒ], t2_abab [cᵥ, fᵥ, kₒ, iₒ]], [(1, [])]⟩,
  -- line 2754: abfe,jiab,kldc,dejl,fcki
  ⟨1/4, [g_abab [aᵥ, bᵥ, fᵥ, eᵥ], l2_abab [jₒ, iₒ, aᵥ, bᵥ], l2_abab [kₒ, lₒ, dᵥ, cᵥ], t2_abab [dᵥ, eᵥ, jₒ, lₒ], t2_abab [fᵥ, cᵥ, kₒ, iₒ]], [(1, [])]⟩,
  -- line 2757: abef,jiab,klcd,edjl,cfki
  ⟨1/4, [g_abab [aᵥ, bᵥ, eᵥ, fᵥ], l2_abab [jₒ, iₒ, aᵥ, bᵥ], l2_abab [kₒ, lₒ, cᵥ, dᵥ], t2_abab [eᵥ, dᵥ, jₒ, lₒ], t2_abab [cᵥ, fᵥ, kₒ, iₒ]], [(1, [])]⟩,
  -- line 2760: abef,jiab,lkdc,edjl,fcik
  ⟨1/4, [g_abab [aᵥ, bᵥ, eᵥ, fᵥ], l2_abab [jₒ, iₒ, aᵥ, bᵥ], l2_abab [lₒ, kₒ, dᵥ, cᵥ], t2_aaaa [eᵥ, dᵥ, jₒ, lₒ], t2_bbbb [fᵥ, cᵥ, iₒ, kₒ]], [(1, [])]⟩,
  -- line 2763: abef,jiab,kldc,edjl,fcik
  ⟨-1/4, [g_abab [aᵥ, bᵥ, eᵥ, fᵥ], l2_abab [jₒ, iₒ, aᵥ, bᵥ], l2_bbbb [kₒ, lₒ, dᵥ, cᵥ], t2_abab [eᵥ, dᵥ, jₒ, lₒ], t2_bbbb [fᵥ, cᵥ, iₒ, kₒ]], [(1, [])]⟩,
  -- line 2766: baef,ijba,kldc,delj,cfki
  ⟨1/4, [g_bbbb [bᵥ, aᵥ, eᵥ, fᵥ], l2_bbbb [iₒ, jₒ, bᵥ, aᵥ], l2_aaaa [kₒ, lₒ, dᵥ, cᵥ], t2_abab [dᵥ, eᵥ, lₒ, jₒ], t2_abab [cᵥ, fᵥ, kₒ, iₒ]], [(1, [])]⟩,
  -- line 2769: baef,ijba,klcd,edjl,cfki
  ⟨-1/4, [g_bbbb [bᵥ, aᵥ, eᵥ, fᵥ], l2_bbbb [iₒ, jₒ, bᵥ, aᵥ], l2_abab [kₒ, lₒ, cᵥ, dᵥ], t2_bbbb [eᵥ, dᵥ, jₒ, lₒ], t2_abab [cᵥ, fᵥ, kₒ, iₒ]], [(1, [])]⟩,
  -- line 2772: baef,ijba,lkdc,delj,fcik
  ⟨-1/4, [g_bbbb [bᵥ, aᵥ, eᵥ, fᵥ], l2_bbbb [iₒ, jₒ, bᵥ, aᵥ], l2_abab [lₒ, kₒ, dᵥ, cᵥ], t2_abab [dᵥ, eᵥ, lₒ, jₒ], t2_bbbb [fᵥ, cᵥ, iₒ, kₒ]], [(1, [])]⟩,
  -- line 2775: baef,ijba,kldc,edjl,fcik
  ⟨1/4, [g_bbbb [bᵥ, aᵥ, eᵥ, fᵥ], l2_bbbb [iₒ, jₒ, bᵥ, aᵥ], l2_bbbb [kₒ, lₒ, dᵥ, cᵥ], t2_bbbb [eᵥ, dᵥ, jₒ, lₒ], t2_bbbb [fᵥ, cᵥ, iₒ, kₒ]], [(1, [])]⟩
  ]

/-- `UT2/modify_T2energy_pertQf.py` 4-2778, `energy_pertQf`. -/
def si_energy_pertQf : Prog := si_energy_pertQf_0 ++ (si_energy_pertQf_1 ++ (si_energy_pertQf_2 ++ (si_energy_pertQf_3 ++ (si_energy_pertQf_4 ++ (si_energy_pertQf_5 ++ (si_energy_pertQf_6 ++ (si_energy_pertQf_7 ++ (si_energy_pertQf_8 ++ (si_energy_pertQf_9 ++ (si_energy_pertQf_10 ++ (si_energy_pertQf_11 ++ (si_energy_pertQf_12 ++ (si_energy_pertQf_13 ++ (si_energy_pertQf_14 ++ (si_energy_pertQf_15 ++ (si_energy_pertQf_16 ++ (si_energy_pertQf_17 ++ (si_energy_pertQf_18 ++ (si_energy_pertQf_19 ++ (si_energy_pertQf_20 ++ (si_energy_pertQf_21 ++ (si_energy_pertQf_22))))))))))))))))))))))

end Verif.Gen
