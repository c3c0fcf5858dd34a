import Verif.Ein.Names
import Verif.Gen.Antisym

/-! Written by `/verif/tools/gen.py`. Programs read from `/repo/UT2`. -/

set_option maxRecDepth 100000

namespace Verif.Gen

open Verif.Ein Verif.Ein.N


/-- Part 0 of `ccsdtq_t4_aaabaaab`. -/
def ccsdtq_t4_aaabaaab_0 : Prog := [
  -- line 646: mnkl,abjm,cdin->abcdijkl
  ⟨1, [g_abab [mₒ, nₒ, kₒ, lₒ], t2_aaaa [aᵥ, bᵥ, jₒ, mₒ], t2_abab [cᵥ, dᵥ, iₒ, nₒ]], [(1, [aᵥ, bᵥ, cᵥ, dᵥ, iₒ, jₒ, kₒ, lₒ]), (-1, [aᵥ, bᵥ, cᵥ, dᵥ, jₒ, iₒ, kₒ, lₒ]), (-1, [aᵥ, cᵥ, bᵥ, dᵥ, iₒ, jₒ, kₒ, lₒ]), (1, [aᵥ, cᵥ, bᵥ, dᵥ, jₒ, iₒ, kₒ, lₒ])]⟩,
  -- line 650: nmkl,adjm,bcin->abcdijkl
  ⟨-1, [g_abab [nₒ, mₒ, kₒ, lₒ], t2_abab [aᵥ, dᵥ, jₒ, mₒ], t2_aaaa [bᵥ, cᵥ, iₒ, nₒ]], [(1, [aᵥ, bᵥ, cᵥ, dᵥ, iₒ, jₒ, kₒ, lₒ]), (-1, [aᵥ, bᵥ, cᵥ, dᵥ, jₒ, iₒ, kₒ, lₒ])]⟩,
  -- line 654: mnjl,abkm,cdin->abcdijkl
  ⟨-1, [g_abab [mₒ, nₒ, jₒ, lₒ], t2_aaaa [aᵥ, bᵥ, kₒ, mₒ], t2_abab [cᵥ, dᵥ, iₒ, nₒ]], [(1, [aᵥ, bᵥ, cᵥ, dᵥ, iₒ, jₒ, kₒ, lₒ]), (-1, [aᵥ, bᵥ, cᵥ, dᵥ, kₒ, jₒ, iₒ, lₒ]), (-1, [aᵥ, cᵥ, bᵥ, dᵥ, iₒ, jₒ, kₒ, lₒ]), (1, [aᵥ, cᵥ, bᵥ, dᵥ, kₒ, jₒ, iₒ, lₒ])]⟩,
  -- line 658: nmjl,adkm,bcin->abcdijkl
  ⟨1, [g_abab [nₒ, mₒ, jₒ, lₒ], t2_abab [aᵥ, dᵥ, kₒ, mₒ], t2_aaaa [bᵥ, cᵥ, iₒ, nₒ]], [(1, [aᵥ, bᵥ, cᵥ, dᵥ, iₒ, jₒ, kₒ, lₒ]), (-1, [aᵥ, bᵥ, cᵥ, dᵥ, kₒ, jₒ, iₒ, lₒ])]⟩,
  -- line 662: mnil,abkm,cdjn->abcdijkl
  ⟨1, [g_abab [mₒ, nₒ, iₒ, lₒ], t2_aaaa [aᵥ, bᵥ, kₒ, mₒ], t2_abab [cᵥ, dᵥ, jₒ, nₒ]], [(1, [aᵥ, bᵥ, cᵥ, dᵥ, iₒ, jₒ, kₒ, lₒ]), (-1, [aᵥ, bᵥ, cᵥ, dᵥ, iₒ, kₒ, jₒ, lₒ]), (-1, [aᵥ, cᵥ, bᵥ, dᵥ, iₒ, jₒ, kₒ, lₒ]), (1, [aᵥ, cᵥ, bᵥ, dᵥ, iₒ, kₒ, jₒ, lₒ])]⟩,
  -- line 666: nmil,adkm,bcjn->abcdijkl
  ⟨-1, [g_abab [nₒ, mₒ, iₒ, lₒ], t2_abab [aᵥ, dᵥ, kₒ, mₒ], t2_aaaa [bᵥ, cᵥ, jₒ, nₒ]], [(1, [aᵥ, bᵥ, cᵥ, dᵥ, iₒ, jₒ, kₒ, lₒ]), (-1, [aᵥ, bᵥ, cᵥ, dᵥ, iₒ, kₒ, jₒ, lₒ])]⟩,
  -- line 670: nmjk,abim,cdnl->abcdijkl
  ⟨-1, [g_aaaa [nₒ, mₒ, jₒ, kₒ], t2_aaaa [aᵥ, bᵥ, iₒ, mₒ], t2_abab [cᵥ, dᵥ, nₒ, lₒ]], [(1, [aᵥ, bᵥ, cᵥ, dᵥ, iₒ, jₒ, kₒ, lₒ]), (-1, [aᵥ, cᵥ, bᵥ, dᵥ, iₒ, jₒ, kₒ, lₒ])]⟩,
  -- line 674: nmjk,adml,bcin->abcdijkl
  ⟨1, [g_aaaa [nₒ, mₒ, jₒ, kₒ], t2_abab [aᵥ, dᵥ, mₒ, lₒ], t2_aaaa [bᵥ, cᵥ, iₒ, nₒ]], [(1, [aᵥ, bᵥ, cᵥ, dᵥ, iₒ, jₒ, kₒ, lₒ])]⟩,
  -- line 677: nmik,abjm,cdnl->abcdijkl
  ⟨1, [g_aaaa [nₒ, mₒ, iₒ, kₒ], t2_aaaa [aᵥ, bᵥ, jₒ, mₒ], t2_abab [cᵥ, dᵥ, nₒ, lₒ]], [(1, [aᵥ, bᵥ, cᵥ, dᵥ, iₒ, jₒ, kₒ, lₒ]), (-1, [aᵥ, cᵥ, bᵥ, dᵥ, iₒ, jₒ, kₒ, lₒ])]⟩,
  -- line 681: nmik,adml,bcjn->abcdijkl
  ⟨-1, [g_aaaa [nₒ, mₒ, iₒ, kₒ], t2_abab [aᵥ, dᵥ, mₒ, lₒ], t2_aaaa [bᵥ, cᵥ, jₒ, nₒ]], [(1, [aᵥ, bᵥ, cᵥ, dᵥ, iₒ, jₒ, kₒ, lₒ])]⟩,
  -- line 684: nmij,abkm,cdnl->abcdijkl
  ⟨-1, [g_aaaa [nₒ, mₒ, iₒ, jₒ], t2_aaaa [aᵥ, bᵥ, kₒ, mₒ], t2_abab [cᵥ, dᵥ, nₒ, lₒ]], [(1, [aᵥ, bᵥ, cᵥ, dᵥ, iₒ, jₒ, kₒ, lₒ]), (-1, [aᵥ, cᵥ, bᵥ, dᵥ, iₒ, jₒ, kₒ, lₒ])]⟩,
  -- line 688: nmij,adml,bckn->abcdijkl
  ⟨1, [g_aaaa [nₒ, mₒ, iₒ, jₒ], t2_abab [aᵥ, dᵥ, mₒ, lₒ], t2_aaaa [bᵥ, cᵥ, kₒ, nₒ]], [(1, [aᵥ, bᵥ, cᵥ, dᵥ, iₒ, jₒ, kₒ, lₒ])]⟩,
  -- line 691: amel,ebjk,cdim->abcdijkl
  ⟨-1, [g_abab [aᵥ, mₒ, eᵥ, lₒ], t2_aaaa [eᵥ, bᵥ, jₒ, kₒ], t2_abab [cᵥ, dᵥ, iₒ, mₒ]], [(1, [aᵥ, bᵥ, cᵥ, dᵥ, iₒ, jₒ, kₒ, lₒ]), (-1, [aᵥ, bᵥ, cᵥ, dᵥ, jₒ, iₒ, kₒ, lₒ]), (-1, [aᵥ, cᵥ, bᵥ, dᵥ, iₒ, jₒ, kₒ, lₒ]), (1, [aᵥ, cᵥ, bᵥ, dᵥ, jₒ, iₒ, kₒ, lₒ])]⟩,
  -- line 695: amel,ebij,cdkm->abcdijkl
  ⟨-1, [g_abab [aᵥ, mₒ, eᵥ, lₒ], t2_aaaa [eᵥ, bᵥ, iₒ, jₒ], t2_abab [cᵥ, dᵥ, kₒ, mₒ]], [(1, [aᵥ, bᵥ, cᵥ, dᵥ, iₒ, jₒ, kₒ, lₒ]), (-1, [aᵥ, cᵥ, bᵥ, dᵥ, iₒ, jₒ, kₒ, lₒ])]⟩,
  -- line 699: maek,ebij,cdml->abcdijkl
  ⟨1, [g_aaaa [mₒ, aᵥ, eᵥ, kₒ], t2_aaaa [eᵥ, bᵥ, iₒ, jₒ], t2_abab [cᵥ, dᵥ, mₒ, lₒ]], [(1, [aᵥ, bᵥ, cᵥ, dᵥ, iₒ, jₒ, kₒ, lₒ]), (-1, [aᵥ, cᵥ, bᵥ, dᵥ, iₒ, jₒ, kₒ, lₒ])]⟩,
  -- line 703: amke,bejl,cdim->abcdijkl
  ⟨1, [g_abab [aᵥ, mₒ, kₒ, eᵥ], t2_abab [bᵥ, eᵥ, jₒ, lₒ], t2_abab [cᵥ, dᵥ, iₒ, mₒ]], [(1, [aᵥ, bᵥ, cᵥ, dᵥ, iₒ, jₒ, kₒ, lₒ]), (-1, [aᵥ, bᵥ, cᵥ, dᵥ, jₒ, iₒ, kₒ, lₒ]), (-1, [aᵥ, cᵥ, bᵥ, dᵥ, iₒ, jₒ, kₒ, lₒ]), (1, [aᵥ, cᵥ, bᵥ, dᵥ, jₒ, iₒ, kₒ, lₒ])]⟩,
  -- line 707: maek,edjl,bcim->abcdijkl
  ⟨-1, [g_aaaa [mₒ, aᵥ, eᵥ, kₒ], t2_abab [eᵥ, dᵥ, jₒ, lₒ], t2_aaaa [bᵥ, cᵥ, iₒ, mₒ]], [(1, [aᵥ, bᵥ, cᵥ, dᵥ, iₒ, jₒ, kₒ, lₒ]), (-1, [aᵥ, bᵥ, cᵥ, dᵥ, jₒ, iₒ, kₒ, lₒ]), (-1, [bᵥ, aᵥ, cᵥ, dᵥ, iₒ, jₒ, kₒ, lₒ]), (1, [bᵥ, aᵥ, cᵥ, dᵥ, jₒ, iₒ, kₒ, lₒ])]⟩,
  -- line 711: amje,bekl,cdim->abcdijkl
  ⟨-1, [g_abab [aᵥ, mₒ, jₒ, eᵥ], t2_abab [bᵥ, eᵥ, kₒ, lₒ], t2_abab [cᵥ, dᵥ, iₒ, mₒ]], [(1, [aᵥ, bᵥ, cᵥ, dᵥ, iₒ, jₒ, kₒ, lₒ]), (-1, [aᵥ, bᵥ, cᵥ, dᵥ, kₒ, jₒ, iₒ, lₒ]), (-1, [aᵥ, cᵥ, bᵥ, dᵥ, iₒ, jₒ, kₒ, lₒ]), (1, [aᵥ, cᵥ, bᵥ, dᵥ, kₒ, jₒ, iₒ, lₒ])]⟩,
  -- line 715: maej,ebik,cdml->abcdijkl
  ⟨-1, [g_aaaa [mₒ, aᵥ, eᵥ, jₒ], t2_aaaa [eᵥ, bᵥ, iₒ, kₒ], t2_abab [cᵥ, dᵥ, mₒ, lₒ]], [(1, [aᵥ, bᵥ, cᵥ, dᵥ, iₒ, jₒ, kₒ, lₒ]), (-1, [aᵥ, bᵥ, cᵥ, dᵥ, jₒ, iₒ, kₒ, lₒ]), (-1, [aᵥ, cᵥ, bᵥ, dᵥ, iₒ, jₒ, kₒ, lₒ]), (1, [aᵥ, cᵥ, bᵥ, dᵥ, jₒ, iₒ, kₒ, lₒ])]⟩,
  -- line 719: maej,edkl,bcim->abcdijkl
  ⟨1, [g_aaaa [mₒ, aᵥ, eᵥ, jₒ], t2_abab [eᵥ, dᵥ, kₒ, lₒ], t2_aaaa [bᵥ, cᵥ, iₒ, mₒ]], [(1, [aᵥ, bᵥ, cᵥ, dᵥ, iₒ, jₒ, kₒ, lₒ]), (-1, [aᵥ, bᵥ, cᵥ, dᵥ, kₒ, jₒ, iₒ, lₒ]), (-1, [bᵥ, aᵥ, cᵥ, dᵥ, iₒ, jₒ, kₒ, lₒ]), (1, [bᵥ, aᵥ, cᵥ, dᵥ, kₒ, jₒ, iₒ, lₒ])]⟩,
  -- line 723: amie,bekl,cdjm->abcdijkl
  ⟨1, [g_abab [aᵥ, mₒ, iₒ, eᵥ], t2_abab [bᵥ, eᵥ, kₒ, lₒ], t2_abab [cᵥ, dᵥ, jₒ, mₒ]], [(1, [aᵥ, bᵥ, cᵥ, dᵥ, iₒ, jₒ, kₒ, lₒ]), (-1, [aᵥ, bᵥ, cᵥ, dᵥ, iₒ, kₒ, jₒ, lₒ]), (-1, [aᵥ, cᵥ, bᵥ, dᵥ, iₒ, jₒ, kₒ, lₒ]), (1, [aᵥ, cᵥ, bᵥ, dᵥ, iₒ, kₒ, jₒ, lₒ])]⟩,
  -- line 727: maei,edkl,bcjm->abcdijkl
  ⟨-1, [g_aaaa [mₒ, aᵥ, eᵥ, iₒ], t2_abab [eᵥ, dᵥ, kₒ, lₒ], t2_aaaa [bᵥ, cᵥ, jₒ, mₒ]], [(1, [aᵥ, bᵥ, cᵥ, dᵥ, iₒ, jₒ, kₒ, lₒ]), (-1, [aᵥ, bᵥ, cᵥ, dᵥ, iₒ, kₒ, jₒ, lₒ]), (-1, [bᵥ, aᵥ, cᵥ, dᵥ, iₒ, jₒ, kₒ, lₒ]), (1, [bᵥ, aᵥ, cᵥ, dᵥ, iₒ, kₒ, jₒ, lₒ])]⟩,
  -- line 731: bmel,eajk,cdim->abcdijkl
  ⟨1, [g_abab [bᵥ, mₒ, eᵥ, lₒ], t2_aaaa [eᵥ, aᵥ, jₒ, kₒ], t2_abab [cᵥ, dᵥ, iₒ, mₒ]], [(1, [aᵥ, bᵥ, cᵥ, dᵥ, iₒ, jₒ, kₒ, lₒ]), (-1, [aᵥ, bᵥ, cᵥ, dᵥ, jₒ, iₒ, kₒ, lₒ]), (-1, [cᵥ, bᵥ, aᵥ, dᵥ, iₒ, jₒ, kₒ, lₒ]), (1, [cᵥ, bᵥ, aᵥ, dᵥ, jₒ, iₒ, kₒ, lₒ])]⟩,
  -- line 735: bmel,eaij,cdkm->abcdijkl
  ⟨1, [g_abab [bᵥ, mₒ, eᵥ, lₒ], t2_aaaa [eᵥ, aᵥ, iₒ, jₒ], t2_abab [cᵥ, dᵥ, kₒ, mₒ]], [(1, [aᵥ, bᵥ, cᵥ, dᵥ, iₒ, jₒ, kₒ, lₒ]), (-1, [cᵥ, bᵥ, aᵥ, dᵥ, iₒ, jₒ, kₒ, lₒ])]⟩,
  -- line 739: mbek,eaij,cdml->abcdijkl
  ⟨-1, [g_aaaa [mₒ, bᵥ, eᵥ, kₒ], t2_aaaa [eᵥ, aᵥ, iₒ, jₒ], t2_abab [cᵥ, dᵥ, mₒ, lₒ]], [(1, [aᵥ, bᵥ, cᵥ, dᵥ, iₒ, jₒ, kₒ, lₒ]), (-1, [cᵥ, bᵥ, aᵥ, dᵥ, iₒ, jₒ, kₒ, lₒ])]⟩,
  -- line 743: bmke,aejl,cdim->abcdijkl
  ⟨-1, [g_abab [bᵥ, mₒ, kₒ, eᵥ], t2_abab [aᵥ, eᵥ, jₒ, lₒ], t2_abab [cᵥ, dᵥ, iₒ, mₒ]], [(1, [aᵥ, bᵥ, cᵥ, dᵥ, iₒ, jₒ, kₒ, lₒ]), (-1, [aᵥ, bᵥ, cᵥ, dᵥ, jₒ, iₒ, kₒ, lₒ]), (-1, [cᵥ, bᵥ, aᵥ, dᵥ, iₒ, jₒ, kₒ, lₒ]), (1, [cᵥ, bᵥ, aᵥ, dᵥ, jₒ, iₒ, kₒ, lₒ])]⟩,
  -- line 747: bmje,aekl,cdim->abcdijkl
  ⟨1, [g_abab [bᵥ, mₒ, jₒ, eᵥ], t2_abab [aᵥ, eᵥ, kₒ, lₒ], t2_abab [cᵥ, dᵥ, iₒ, mₒ]], [(1, [aᵥ, bᵥ, cᵥ, dᵥ, iₒ, jₒ, kₒ, lₒ]), (-1, [aᵥ, bᵥ, cᵥ, dᵥ, kₒ, jₒ, iₒ, lₒ]), (-1, [cᵥ, bᵥ, aᵥ, dᵥ, iₒ, jₒ, kₒ, lₒ]), (1, [cᵥ, bᵥ, aᵥ, dᵥ, kₒ, jₒ, iₒ, lₒ])]⟩,
  -- line 751: mbej,eaik,cdml->abcdijkl
  ⟨1, [g_aaaa [mₒ, bᵥ, eᵥ, jₒ], t2_aaaa [eᵥ, aᵥ, iₒ, kₒ], t2_abab [cᵥ, dᵥ, mₒ, lₒ]], [(1, [aᵥ, bᵥ, cᵥ, dᵥ, iₒ, jₒ, kₒ, lₒ]), (-1, [aᵥ, bᵥ, cᵥ, dᵥ, jₒ, iₒ, kₒ, lₒ]), (-1, [cᵥ, bᵥ, aᵥ, dᵥ, iₒ, jₒ, kₒ, lₒ]), (1, [cᵥ, bᵥ, aᵥ, dᵥ, jₒ, iₒ, kₒ, lₒ])]⟩,
  -- line 755: bmie,aekl,cdjm->abcdijkl
  ⟨-1, [g_abab [bᵥ, mₒ, iₒ, eᵥ], t2_abab [aᵥ, eᵥ, kₒ, lₒ], t2_abab [cᵥ, dᵥ, jₒ, mₒ]], [(1, [aᵥ, bᵥ, cᵥ, dᵥ, iₒ, jₒ, kₒ, lₒ]), (-1, [aᵥ, bᵥ, cᵥ, dᵥ, iₒ, kₒ, jₒ, lₒ]), (-1, [cᵥ, bᵥ, aᵥ, dᵥ, iₒ, jₒ, kₒ, lₒ]), (1, [cᵥ, bᵥ, aᵥ, dᵥ, iₒ, kₒ, jₒ, lₒ])]⟩,
  -- line 759: cmel,eajk,bdim->abcdijkl
  ⟨-1, [g_abab [cᵥ, mₒ, eᵥ, lₒ], t2_aaaa [eᵥ, aᵥ, jₒ, kₒ], t2_abab [bᵥ, dᵥ, iₒ, mₒ]], [(1, [aᵥ, bᵥ, cᵥ, dᵥ, iₒ, jₒ, kₒ, lₒ]), (-1, [aᵥ, bᵥ, cᵥ, dᵥ, jₒ, iₒ, kₒ, lₒ]), (-1, [bᵥ, aᵥ, cᵥ, dᵥ, iₒ, jₒ, kₒ, lₒ]), (1, [bᵥ, aᵥ, cᵥ, dᵥ, jₒ, iₒ, kₒ, lₒ])]⟩,
  -- line 763: cmel,eaij,bdkm->abcdijkl
  ⟨-1, [g_abab [cᵥ, mₒ, eᵥ, lₒ], t2_aaaa [eᵥ, aᵥ, iₒ, jₒ], t2_abab [bᵥ, dᵥ, kₒ, mₒ]], [(1, [aᵥ, bᵥ, cᵥ, dᵥ, iₒ, jₒ, kₒ, lₒ]), (-1, [bᵥ, aᵥ, cᵥ, dᵥ, iₒ, jₒ, kₒ, lₒ])]⟩,
  -- line 767: mcek,eaij,bdml->abcdijkl
  ⟨1, [g_aaaa [mₒ, cᵥ, eᵥ, kₒ], t2_aaaa [eᵥ, aᵥ, iₒ, jₒ], t2_abab [bᵥ, dᵥ, mₒ, lₒ]], [(1, [aᵥ, bᵥ, cᵥ, dᵥ, iₒ, jₒ, kₒ, lₒ]), (-1, [bᵥ, aᵥ, cᵥ, dᵥ, iₒ, jₒ, kₒ, lₒ])]⟩,
  -- line 771: mdel,ecjk,abim->abcdijkl
  ⟨-1, [g_abab [mₒ, dᵥ, eᵥ, lₒ], t2_aaaa [eᵥ, cᵥ, jₒ, kₒ], t2_aaaa [aᵥ, bᵥ, iₒ, mₒ]], [(1, [aᵥ, bᵥ, cᵥ, dᵥ, iₒ, jₒ, kₒ, lₒ]), (-1, [aᵥ, bᵥ, cᵥ, dᵥ, jₒ, iₒ, kₒ, lₒ])]⟩,
  -- line 775: mdel,ecij,abkm->abcdijkl
  ⟨-1, [g_abab [mₒ, dᵥ, eᵥ, lₒ], t2_aaaa [eᵥ, cᵥ, iₒ, jₒ], t2_aaaa [aᵥ, bᵥ, kₒ, mₒ]], [(1, [aᵥ, bᵥ, cᵥ, dᵥ, iₒ, jₒ, kₒ, lₒ])]⟩,
  -- line 778: cmke,aejl,bdim->abcdijkl
  ⟨1, [g_abab [cᵥ, mₒ, kₒ, eᵥ], t2_abab [aᵥ, eᵥ, jₒ, lₒ], t2_abab [bᵥ, dᵥ, iₒ, mₒ]], [(1, [aᵥ, bᵥ, cᵥ, dᵥ, iₒ, jₒ, kₒ, lₒ]), (-1, [aᵥ, bᵥ, cᵥ, dᵥ, jₒ, iₒ, kₒ, lₒ]), (-1, [bᵥ, aᵥ, cᵥ, dᵥ, iₒ, jₒ, kₒ, lₒ]), (1, [bᵥ, aᵥ, cᵥ, dᵥ, jₒ, iₒ, kₒ, lₒ])]⟩,
  -- line 782: mcek,edjl,abim->abcdijkl
  ⟨-1, [g_aaaa [mₒ, cᵥ, eᵥ, kₒ], t2_abab [eᵥ, dᵥ, jₒ, lₒ], t2_aaaa [aᵥ, bᵥ, iₒ, mₒ]], [(1, [aᵥ, bᵥ, cᵥ, dᵥ, iₒ, jₒ, kₒ, lₒ]), (-1, [aᵥ, bᵥ, cᵥ, dᵥ, jₒ, iₒ, kₒ, lₒ])]⟩,
  -- line 786: mdke,cejl,abim->abcdijkl
  ⟨1, [g_abab [mₒ, dᵥ, kₒ, eᵥ], t2_abab [cᵥ, eᵥ, jₒ, lₒ], t2_aaaa [aᵥ, bᵥ, iₒ, mₒ]], [(1, [aᵥ, bᵥ, cᵥ, dᵥ, iₒ, jₒ, kₒ, lₒ]), (-1, [aᵥ, bᵥ, cᵥ, dᵥ, jₒ, iₒ, kₒ, lₒ])]⟩,
  -- line 790: cmje,aekl,bdim->abcdijkl
  ⟨-1, [g_abab [cᵥ, mₒ, jₒ, eᵥ], t2_abab [aᵥ, eᵥ, kₒ, lₒ], t2_abab [bᵥ, dᵥ, iₒ, mₒ]], [(1, [aᵥ, bᵥ, cᵥ, dᵥ, iₒ, jₒ, kₒ, lₒ]), (-1, [aᵥ, bᵥ, cᵥ, dᵥ, kₒ, jₒ, iₒ, lₒ]), (-1, [bᵥ, aᵥ, cᵥ, dᵥ, iₒ, jₒ, kₒ, lₒ]), (1, [bᵥ, aᵥ, cᵥ, dᵥ, kₒ, jₒ, iₒ, lₒ])]⟩,
  -- line 794: mcej,eaik,bdml->abcdijkl
  ⟨-1, [g_aaaa [mₒ, cᵥ, eᵥ, jₒ], t2_aaaa [eᵥ, aᵥ, iₒ, kₒ], t2_abab [bᵥ, dᵥ, mₒ, lₒ]], [(1, [aᵥ, bᵥ, cᵥ, dᵥ, iₒ, jₒ, kₒ, lₒ]), (-1, [aᵥ, bᵥ, cᵥ, dᵥ, jₒ, iₒ, kₒ, lₒ]), (-1, [bᵥ, aᵥ, cᵥ, dᵥ, iₒ, jₒ, kₒ, lₒ]), (1, [bᵥ, aᵥ, cᵥ, dᵥ, jₒ, iₒ, kₒ, lₒ])]⟩,
  -- line 798: mcej,edkl,abim->abcdijkl
  ⟨1, [g_aaaa [mₒ, cᵥ, eᵥ, jₒ], t2_abab [eᵥ, dᵥ, kₒ, lₒ], t2_aaaa [aᵥ, bᵥ, iₒ, mₒ]], [(1, [aᵥ, bᵥ, cᵥ, dᵥ, iₒ, jₒ, kₒ, lₒ]), (-1, [aᵥ, bᵥ, cᵥ, dᵥ, kₒ, jₒ, iₒ, lₒ])]⟩
  ]

/-- Part 1 of `ccsdtq_t4_aaabaaab`. -/
def ccsdtq_t4_aaabaaab_1 : Prog := [
  -- line 802: mdje,cekl,abim->abcdijkl
  ⟨-1, [g_abab [mₒ, dᵥ, jₒ, eᵥ], t2_abab [cᵥ, eᵥ, kₒ, lₒ], t2_aaaa [aᵥ, bᵥ, iₒ, mₒ]], [(1, [aᵥ, bᵥ, cᵥ, dᵥ, iₒ, jₒ, kₒ, lₒ]), (-1, [aᵥ, bᵥ, cᵥ, dᵥ, kₒ, jₒ, iₒ, lₒ])]⟩,
  -- line 806: cmie,aekl,bdjm->abcdijkl
  ⟨1, [g_abab [cᵥ, mₒ, iₒ, eᵥ], t2_abab [aᵥ, eᵥ, kₒ, lₒ], t2_abab [bᵥ, dᵥ, jₒ, mₒ]], [(1, [aᵥ, bᵥ, cᵥ, dᵥ, iₒ, jₒ, kₒ, lₒ]), (-1, [aᵥ, bᵥ, cᵥ, dᵥ, iₒ, kₒ, jₒ, lₒ]), (-1, [bᵥ, aᵥ, cᵥ, dᵥ, iₒ, jₒ, kₒ, lₒ]), (1, [bᵥ, aᵥ, cᵥ, dᵥ, iₒ, kₒ, jₒ, lₒ])]⟩,
  -- line 810: mcei,edkl,abjm->abcdijkl
  ⟨-1, [g_aaaa [mₒ, cᵥ, eᵥ, iₒ], t2_abab [eᵥ, dᵥ, kₒ, lₒ], t2_aaaa [aᵥ, bᵥ, jₒ, mₒ]], [(1, [aᵥ, bᵥ, cᵥ, dᵥ, iₒ, jₒ, kₒ, lₒ]), (-1, [aᵥ, bᵥ, cᵥ, dᵥ, iₒ, kₒ, jₒ, lₒ])]⟩,
  -- line 814: mdie,cekl,abjm->abcdijkl
  ⟨1, [g_abab [mₒ, dᵥ, iₒ, eᵥ], t2_abab [cᵥ, eᵥ, kₒ, lₒ], t2_aaaa [aᵥ, bᵥ, jₒ, mₒ]], [(1, [aᵥ, bᵥ, cᵥ, dᵥ, iₒ, jₒ, kₒ, lₒ]), (-1, [aᵥ, bᵥ, cᵥ, dᵥ, iₒ, kₒ, jₒ, lₒ])]⟩,
  -- line 818: mdel,eajk,bcim->abcdijkl
  ⟨-1, [g_abab [mₒ, dᵥ, eᵥ, lₒ], t2_aaaa [eᵥ, aᵥ, jₒ, kₒ], t2_aaaa [bᵥ, cᵥ, iₒ, mₒ]], [(1, [aᵥ, bᵥ, cᵥ, dᵥ, iₒ, jₒ, kₒ, lₒ]), (-1, [aᵥ, bᵥ, cᵥ, dᵥ, jₒ, iₒ, kₒ, lₒ]), (-1, [bᵥ, aᵥ, cᵥ, dᵥ, iₒ, jₒ, kₒ, lₒ]), (1, [bᵥ, aᵥ, cᵥ, dᵥ, jₒ, iₒ, kₒ, lₒ])]⟩,
  -- line 822: mdel,eaij,bckm->abcdijkl
  ⟨-1, [g_abab [mₒ, dᵥ, eᵥ, lₒ], t2_aaaa [eᵥ, aᵥ, iₒ, jₒ], t2_aaaa [bᵥ, cᵥ, kₒ, mₒ]], [(1, [aᵥ, bᵥ, cᵥ, dᵥ, iₒ, jₒ, kₒ, lₒ]), (-1, [bᵥ, aᵥ, cᵥ, dᵥ, iₒ, jₒ, kₒ, lₒ])]⟩,
  -- line 826: mdke,aejl,bcim->abcdijkl
  ⟨1, [g_abab [mₒ, dᵥ, kₒ, eᵥ], t2_abab [aᵥ, eᵥ, jₒ, lₒ], t2_aaaa [bᵥ, cᵥ, iₒ, mₒ]], [(1, [aᵥ, bᵥ, cᵥ, dᵥ, iₒ, jₒ, kₒ, lₒ]), (-1, [aᵥ, bᵥ, cᵥ, dᵥ, jₒ, iₒ, kₒ, lₒ]), (-1, [bᵥ, aᵥ, cᵥ, dᵥ, iₒ, jₒ, kₒ, lₒ]), (1, [bᵥ, aᵥ, cᵥ, dᵥ, jₒ, iₒ, kₒ, lₒ])]⟩,
  -- line 830: mdje,aekl,bcim->abcdijkl
  ⟨-1, [g_abab [mₒ, dᵥ, jₒ, eᵥ], t2_abab [aᵥ, eᵥ, kₒ, lₒ], t2_aaaa [bᵥ, cᵥ, iₒ, mₒ]], [(1, [aᵥ, bᵥ, cᵥ, dᵥ, iₒ, jₒ, kₒ, lₒ]), (-1, [aᵥ, bᵥ, cᵥ, dᵥ, kₒ, jₒ, iₒ, lₒ]), (-1, [bᵥ, aᵥ, cᵥ, dᵥ, iₒ, jₒ, kₒ, lₒ]), (1, [bᵥ, aᵥ, cᵥ, dᵥ, kₒ, jₒ, iₒ, lₒ])]⟩,
  -- line 834: mdie,aekl,bcjm->abcdijkl
  ⟨1, [g_abab [mₒ, dᵥ, iₒ, eᵥ], t2_abab [aᵥ, eᵥ, kₒ, lₒ], t2_aaaa [bᵥ, cᵥ, jₒ, mₒ]], [(1, [aᵥ, bᵥ, cᵥ, dᵥ, iₒ, jₒ, kₒ, lₒ]), (-1, [aᵥ, bᵥ, cᵥ, dᵥ, iₒ, kₒ, jₒ, lₒ]), (-1, [bᵥ, aᵥ, cᵥ, dᵥ, iₒ, jₒ, kₒ, lₒ]), (1, [bᵥ, aᵥ, cᵥ, dᵥ, iₒ, kₒ, jₒ, lₒ])]⟩,
  -- line 838: abef,ecik,fdjl->abcdijkl
  ⟨1, [g_aaaa [aᵥ, bᵥ, eᵥ, fᵥ], t2_aaaa [eᵥ, cᵥ, iₒ, kₒ], t2_abab [fᵥ, dᵥ, jₒ, lₒ]], [(1, [aᵥ, bᵥ, cᵥ, dᵥ, iₒ, jₒ, kₒ, lₒ]), (-1, [aᵥ, cᵥ, bᵥ, dᵥ, iₒ, jₒ, kₒ, lₒ])]⟩,
  -- line 842: abef,ecjk,fdil->abcdijkl
  ⟨-1, [g_aaaa [aᵥ, bᵥ, eᵥ, fᵥ], t2_aaaa [eᵥ, cᵥ, jₒ, kₒ], t2_abab [fᵥ, dᵥ, iₒ, lₒ]], [(1, [aᵥ, bᵥ, cᵥ, dᵥ, iₒ, jₒ, kₒ, lₒ]), (-1, [aᵥ, bᵥ, cᵥ, dᵥ, kₒ, jₒ, iₒ, lₒ]), (-1, [aᵥ, cᵥ, bᵥ, dᵥ, iₒ, jₒ, kₒ, lₒ]), (1, [aᵥ, cᵥ, bᵥ, dᵥ, kₒ, jₒ, iₒ, lₒ])]⟩,
  -- line 846: adfe,bekl,fcij->abcdijkl
  ⟨-1, [g_abab [aᵥ, dᵥ, fᵥ, eᵥ], t2_abab [bᵥ, eᵥ, kₒ, lₒ], t2_aaaa [fᵥ, cᵥ, iₒ, jₒ]], [(1, [aᵥ, bᵥ, cᵥ, dᵥ, iₒ, jₒ, kₒ, lₒ]), (-1, [aᵥ, bᵥ, cᵥ, dᵥ, iₒ, kₒ, jₒ, lₒ]), (-1, [bᵥ, aᵥ, cᵥ, dᵥ, iₒ, jₒ, kₒ, lₒ]), (1, [bᵥ, aᵥ, cᵥ, dᵥ, iₒ, kₒ, jₒ, lₒ])]⟩,
  -- line 850: adfe,beil,fcjk->abcdijkl
  ⟨-1, [g_abab [aᵥ, dᵥ, fᵥ, eᵥ], t2_abab [bᵥ, eᵥ, iₒ, lₒ], t2_aaaa [fᵥ, cᵥ, jₒ, kₒ]], [(1, [aᵥ, bᵥ, cᵥ, dᵥ, iₒ, jₒ, kₒ, lₒ]), (-1, [bᵥ, aᵥ, cᵥ, dᵥ, iₒ, jₒ, kₒ, lₒ])]⟩,
  -- line 854: adef,ebik,cfjl->abcdijkl
  ⟨-1, [g_abab [aᵥ, dᵥ, eᵥ, fᵥ], t2_aaaa [eᵥ, bᵥ, iₒ, kₒ], t2_abab [cᵥ, fᵥ, jₒ, lₒ]], [(1, [aᵥ, bᵥ, cᵥ, dᵥ, iₒ, jₒ, kₒ, lₒ]), (-1, [bᵥ, aᵥ, cᵥ, dᵥ, iₒ, jₒ, kₒ, lₒ])]⟩,
  -- line 858: adef,ebjk,cfil->abcdijkl
  ⟨1, [g_abab [aᵥ, dᵥ, eᵥ, fᵥ], t2_aaaa [eᵥ, bᵥ, jₒ, kₒ], t2_abab [cᵥ, fᵥ, iₒ, lₒ]], [(1, [aᵥ, bᵥ, cᵥ, dᵥ, iₒ, jₒ, kₒ, lₒ]), (-1, [aᵥ, bᵥ, cᵥ, dᵥ, kₒ, jₒ, iₒ, lₒ]), (-1, [bᵥ, aᵥ, cᵥ, dᵥ, iₒ, jₒ, kₒ, lₒ]), (1, [bᵥ, aᵥ, cᵥ, dᵥ, kₒ, jₒ, iₒ, lₒ])]⟩,
  -- line 862: cdfe,aekl,fbij->abcdijkl
  ⟨-1, [g_abab [cᵥ, dᵥ, fᵥ, eᵥ], t2_abab [aᵥ, eᵥ, kₒ, lₒ], t2_aaaa [fᵥ, bᵥ, iₒ, jₒ]], [(1, [aᵥ, bᵥ, cᵥ, dᵥ, iₒ, jₒ, kₒ, lₒ]), (-1, [aᵥ, bᵥ, cᵥ, dᵥ, iₒ, kₒ, jₒ, lₒ])]⟩,
  -- line 866: cdfe,aeil,fbjk->abcdijkl
  ⟨-1, [g_abab [cᵥ, dᵥ, fᵥ, eᵥ], t2_abab [aᵥ, eᵥ, iₒ, lₒ], t2_aaaa [fᵥ, bᵥ, jₒ, kₒ]], [(1, [aᵥ, bᵥ, cᵥ, dᵥ, iₒ, jₒ, kₒ, lₒ])]⟩,
  -- line 869: bcef,eaik,fdjl->abcdijkl
  ⟨1, [g_aaaa [bᵥ, cᵥ, eᵥ, fᵥ], t2_aaaa [eᵥ, aᵥ, iₒ, kₒ], t2_abab [fᵥ, dᵥ, jₒ, lₒ]], [(1, [aᵥ, bᵥ, cᵥ, dᵥ, iₒ, jₒ, kₒ, lₒ])]⟩,
  -- line 872: cdef,eaik,bfjl->abcdijkl
  ⟨-1, [g_abab [cᵥ, dᵥ, eᵥ, fᵥ], t2_aaaa [eᵥ, aᵥ, iₒ, kₒ], t2_abab [bᵥ, fᵥ, jₒ, lₒ]], [(1, [aᵥ, bᵥ, cᵥ, dᵥ, iₒ, jₒ, kₒ, lₒ])]⟩,
  -- line 875: bcef,eajk,fdil->abcdijkl
  ⟨-1, [g_aaaa [bᵥ, cᵥ, eᵥ, fᵥ], t2_aaaa [eᵥ, aᵥ, jₒ, kₒ], t2_abab [fᵥ, dᵥ, iₒ, lₒ]], [(1, [aᵥ, bᵥ, cᵥ, dᵥ, iₒ, jₒ, kₒ, lₒ]), (-1, [aᵥ, bᵥ, cᵥ, dᵥ, kₒ, jₒ, iₒ, lₒ])]⟩,
  -- line 879: cdef,eajk,bfil->abcdijkl
  ⟨1, [g_abab [cᵥ, dᵥ, eᵥ, fᵥ], t2_aaaa [eᵥ, aᵥ, jₒ, kₒ], t2_abab [bᵥ, fᵥ, iₒ, lₒ]], [(1, [aᵥ, bᵥ, cᵥ, dᵥ, iₒ, jₒ, kₒ, lₒ]), (-1, [aᵥ, bᵥ, cᵥ, dᵥ, kₒ, jₒ, iₒ, lₒ])]⟩,
  -- line 883: amkl,bcdijm->abcdijkl
  ⟨-1, [g_abab [aᵥ, mₒ, kₒ, lₒ], t3_aabaab [bᵥ, cᵥ, dᵥ, iₒ, jₒ, mₒ]], [(1, [aᵥ, bᵥ, cᵥ, dᵥ, iₒ, jₒ, kₒ, lₒ]), (-1, [aᵥ, bᵥ, cᵥ, dᵥ, iₒ, kₒ, jₒ, lₒ]), (-1, [bᵥ, aᵥ, cᵥ, dᵥ, iₒ, jₒ, kₒ, lₒ]), (1, [bᵥ, aᵥ, cᵥ, dᵥ, iₒ, kₒ, jₒ, lₒ])]⟩,
  -- line 887: amil,bcdjkm->abcdijkl
  ⟨-1, [g_abab [aᵥ, mₒ, iₒ, lₒ], t3_aabaab [bᵥ, cᵥ, dᵥ, jₒ, kₒ, mₒ]], [(1, [aᵥ, bᵥ, cᵥ, dᵥ, iₒ, jₒ, kₒ, lₒ]), (-1, [bᵥ, aᵥ, cᵥ, dᵥ, iₒ, jₒ, kₒ, lₒ])]⟩,
  -- line 891: maik,bcdjml->abcdijkl
  ⟨1, [g_aaaa [mₒ, aᵥ, iₒ, kₒ], t3_aabaab [bᵥ, cᵥ, dᵥ, jₒ, mₒ, lₒ]], [(1, [aᵥ, bᵥ, cᵥ, dᵥ, iₒ, jₒ, kₒ, lₒ]), (-1, [bᵥ, aᵥ, cᵥ, dᵥ, iₒ, jₒ, kₒ, lₒ])]⟩,
  -- line 895: majk,bcdiml->abcdijkl
  ⟨-1, [g_aaaa [mₒ, aᵥ, jₒ, kₒ], t3_aabaab [bᵥ, cᵥ, dᵥ, iₒ, mₒ, lₒ]], [(1, [aᵥ, bᵥ, cᵥ, dᵥ, iₒ, jₒ, kₒ, lₒ]), (-1, [aᵥ, bᵥ, cᵥ, dᵥ, kₒ, jₒ, iₒ, lₒ]), (-1, [bᵥ, aᵥ, cᵥ, dᵥ, iₒ, jₒ, kₒ, lₒ]), (1, [bᵥ, aᵥ, cᵥ, dᵥ, kₒ, jₒ, iₒ, lₒ])]⟩,
  -- line 899: cmkl,abdijm->abcdijkl
  ⟨-1, [g_abab [cᵥ, mₒ, kₒ, lₒ], t3_aabaab [aᵥ, bᵥ, dᵥ, iₒ, jₒ, mₒ]], [(1, [aᵥ, bᵥ, cᵥ, dᵥ, iₒ, jₒ, kₒ, lₒ]), (-1, [aᵥ, bᵥ, cᵥ, dᵥ, iₒ, kₒ, jₒ, lₒ])]⟩,
  -- line 903: mdkl,abcijm->abcdijkl
  ⟨-1, [g_abab [mₒ, dᵥ, kₒ, lₒ], t3_aaaaaa [aᵥ, bᵥ, cᵥ, iₒ, jₒ, mₒ]], [(1, [aᵥ, bᵥ, cᵥ, dᵥ, iₒ, jₒ, kₒ, lₒ]), (-1, [aᵥ, bᵥ, cᵥ, dᵥ, iₒ, kₒ, jₒ, lₒ])]⟩,
  -- line 907: cmil,abdjkm->abcdijkl
  ⟨-1, [g_abab [cᵥ, mₒ, iₒ, lₒ], t3_aabaab [aᵥ, bᵥ, dᵥ, jₒ, kₒ, mₒ]], [(1, [aᵥ, bᵥ, cᵥ, dᵥ, iₒ, jₒ, kₒ, lₒ])]⟩,
  -- line 910: mdil,abcjkm->abcdijkl
  ⟨-1, [g_abab [mₒ, dᵥ, iₒ, lₒ], t3_aaaaaa [aᵥ, bᵥ, cᵥ, jₒ, kₒ, mₒ]], [(1, [aᵥ, bᵥ, cᵥ, dᵥ, iₒ, jₒ, kₒ, lₒ])]⟩,
  -- line 913: mcik,abdjml->abcdijkl
  ⟨1, [g_aaaa [mₒ, cᵥ, iₒ, kₒ], t3_aabaab [aᵥ, bᵥ, dᵥ, jₒ, mₒ, lₒ]], [(1, [aᵥ, bᵥ, cᵥ, dᵥ, iₒ, jₒ, kₒ, lₒ])]⟩,
  -- line 916: mcjk,abdiml->abcdijkl
  ⟨-1, [g_aaaa [mₒ, cᵥ, jₒ, kₒ], t3_aabaab [aᵥ, bᵥ, dᵥ, iₒ, mₒ, lₒ]], [(1, [aᵥ, bᵥ, cᵥ, dᵥ, iₒ, jₒ, kₒ, lₒ]), (-1, [aᵥ, bᵥ, cᵥ, dᵥ, kₒ, jₒ, iₒ, lₒ])]⟩,
  -- line 920: abek,ecdijl->abcdijkl
  ⟨-1, [g_aaaa [aᵥ, bᵥ, eᵥ, kₒ], t3_aabaab [eᵥ, cᵥ, dᵥ, iₒ, jₒ, lₒ]], [(1, [aᵥ, bᵥ, cᵥ, dᵥ, iₒ, jₒ, kₒ, lₒ]), (-1, [aᵥ, cᵥ, bᵥ, dᵥ, iₒ, jₒ, kₒ, lₒ])]⟩,
  -- line 924: abej,ecdikl->abcdijkl
  ⟨1, [g_aaaa [aᵥ, bᵥ, eᵥ, jₒ], t3_aabaab [eᵥ, cᵥ, dᵥ, iₒ, kₒ, lₒ]], [(1, [aᵥ, bᵥ, cᵥ, dᵥ, iₒ, jₒ, kₒ, lₒ]), (-1, [aᵥ, bᵥ, cᵥ, dᵥ, jₒ, iₒ, kₒ, lₒ]), (-1, [aᵥ, cᵥ, bᵥ, dᵥ, iₒ, jₒ, kₒ, lₒ]), (1, [aᵥ, cᵥ, bᵥ, dᵥ, jₒ, iₒ, kₒ, lₒ])]⟩,
  -- line 928: adel,ebcijk->abcdijkl
  ⟨1, [g_abab [aᵥ, dᵥ, eᵥ, lₒ], t3_aaaaaa [eᵥ, bᵥ, cᵥ, iₒ, jₒ, kₒ]], [(1, [aᵥ, bᵥ, cᵥ, dᵥ, iₒ, jₒ, kₒ, lₒ]), (-1, [bᵥ, aᵥ, cᵥ, dᵥ, iₒ, jₒ, kₒ, lₒ])]⟩,
  -- line 932: adke,cbeijl->abcdijkl
  ⟨-1, [g_abab [aᵥ, dᵥ, kₒ, eᵥ], t3_aabaab [cᵥ, bᵥ, eᵥ, iₒ, jₒ, lₒ]], [(1, [aᵥ, bᵥ, cᵥ, dᵥ, iₒ, jₒ, kₒ, lₒ]), (-1, [bᵥ, aᵥ, cᵥ, dᵥ, iₒ, jₒ, kₒ, lₒ])]⟩,
  -- line 936: adje,cbeikl->abcdijkl
  ⟨1, [g_abab [aᵥ, dᵥ, jₒ, eᵥ], t3_aabaab [cᵥ, bᵥ, eᵥ, iₒ, kₒ, lₒ]], [(1, [aᵥ, bᵥ, cᵥ, dᵥ, iₒ, jₒ, kₒ, lₒ]), (-1, [aᵥ, bᵥ, cᵥ, dᵥ, jₒ, iₒ, kₒ, lₒ]), (-1, [bᵥ, aᵥ, cᵥ, dᵥ, iₒ, jₒ, kₒ, lₒ]), (1, [bᵥ, aᵥ, cᵥ, dᵥ, jₒ, iₒ, kₒ, lₒ])]⟩,
  -- line 940: cdel,eabijk->abcdijkl
  ⟨1, [g_abab [cᵥ, dᵥ, eᵥ, lₒ], t3_aaaaaa [eᵥ, aᵥ, bᵥ, iₒ, jₒ, kₒ]], [(1, [aᵥ, bᵥ, cᵥ, dᵥ, iₒ, jₒ, kₒ, lₒ])]⟩,
  -- line 943: bcek,eadijl->abcdijkl
  ⟨-1, [g_aaaa [bᵥ, cᵥ, eᵥ, kₒ], t3_aabaab [eᵥ, aᵥ, dᵥ, iₒ, jₒ, lₒ]], [(1, [aᵥ, bᵥ, cᵥ, dᵥ, iₒ, jₒ, kₒ, lₒ])]⟩,
  -- line 946: cdke,baeijl->abcdijkl
  ⟨-1, [g_abab [cᵥ, dᵥ, kₒ, eᵥ], t3_aabaab [bᵥ, aᵥ, eᵥ, iₒ, jₒ, lₒ]], [(1, [aᵥ, bᵥ, cᵥ, dᵥ, iₒ, jₒ, kₒ, lₒ])]⟩,
  -- line 949: bcej,eadikl->abcdijkl
  ⟨1, [g_aaaa [bᵥ, cᵥ, eᵥ, jₒ], t3_aabaab [eᵥ, aᵥ, dᵥ, iₒ, kₒ, lₒ]], [(1, [aᵥ, bᵥ, cᵥ, dᵥ, iₒ, jₒ, kₒ, lₒ]), (-1, [aᵥ, bᵥ, cᵥ, dᵥ, jₒ, iₒ, kₒ, lₒ])]⟩
  ]

/-- Part 2 of `ccsdtq_t4_aaabaaab`. -/
def ccsdtq_t4_aaabaaab_2 : Prog := [
  -- line 953: cdje,baeikl->abcdijkl
  ⟨1, [g_abab [cᵥ, dᵥ, jₒ, eᵥ], t3_aabaab [bᵥ, aᵥ, eᵥ, iₒ, kₒ, lₒ]], [(1, [aᵥ, bᵥ, cᵥ, dᵥ, iₒ, jₒ, kₒ, lₒ]), (-1, [aᵥ, bᵥ, cᵥ, dᵥ, jₒ, iₒ, kₒ, lₒ])]⟩
  ]

/-- `UT2/fullCCenergy.py` 634-956, `ccsdtq_t4_aaabaaab_residual`. -/
def ccsdtq_t4_aaabaaab : Prog := ccsdtq_t4_aaabaaab_0 ++ (ccsdtq_t4_aaabaaab_1 ++ (ccsdtq_t4_aaabaaab_2))

end Verif.Gen
