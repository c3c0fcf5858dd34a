import Verif.Ein.Names
import Verif.Gen.Antisym

/-! Written by `/verif/tools/gen.py`. Programs read from `/repo/UT2`. -/

set_option maxRecDepth 100000

namespace Verif.Gen

open Verif.Ein Verif.Ein.N


/-- Part 0 of `ccsdtq_t4_aabbaabb`. -/
def ccsdtq_t4_aabbaabb_0 : Prog := [
  -- line 971: nmkl,acjm,bdin->abcdijkl
  ⟨1, [g_bbbb [nₒ, mₒ, kₒ, lₒ], t2_abab [aᵥ, cᵥ, jₒ, mₒ], t2_abab [bᵥ, dᵥ, iₒ, nₒ]], [(1, [aᵥ, bᵥ, cᵥ, dᵥ, iₒ, jₒ, kₒ, lₒ]), (-1, [aᵥ, bᵥ, cᵥ, dᵥ, jₒ, iₒ, kₒ, lₒ])]⟩,
  -- line 975: nmkl,adjm,bcin->abcdijkl
  ⟨-1, [g_bbbb [nₒ, mₒ, kₒ, lₒ], t2_abab [aᵥ, dᵥ, jₒ, mₒ], t2_abab [bᵥ, cᵥ, iₒ, nₒ]], [(1, [aᵥ, bᵥ, cᵥ, dᵥ, iₒ, jₒ, kₒ, lₒ]), (-1, [aᵥ, bᵥ, cᵥ, dᵥ, jₒ, iₒ, kₒ, lₒ])]⟩,
  -- line 979: mnjl,acmk,bdin->abcdijkl
  ⟨-1, [g_abab [mₒ, nₒ, jₒ, lₒ], t2_abab [aᵥ, cᵥ, mₒ, kₒ], t2_abab [bᵥ, dᵥ, iₒ, nₒ]], [(1, [aᵥ, bᵥ, cᵥ, dᵥ, iₒ, jₒ, kₒ, lₒ])]⟩,
  -- line 982: mnjl,abim,cdkn->abcdijkl
  ⟨1, [g_abab [mₒ, nₒ, jₒ, lₒ], t2_aaaa [aᵥ, bᵥ, iₒ, mₒ], t2_bbbb [cᵥ, dᵥ, kₒ, nₒ]], [(1, [aᵥ, bᵥ, cᵥ, dᵥ, iₒ, jₒ, kₒ, lₒ])]⟩,
  -- line 985: nmjl,acim,bdnk->abcdijkl
  ⟨-1, [g_abab [nₒ, mₒ, jₒ, lₒ], t2_abab [aᵥ, cᵥ, iₒ, mₒ], t2_abab [bᵥ, dᵥ, nₒ, kₒ]], [(1, [aᵥ, bᵥ, cᵥ, dᵥ, iₒ, jₒ, kₒ, lₒ])]⟩,
  -- line 988: mnjl,admk,bcin->abcdijkl
  ⟨1, [g_abab [mₒ, nₒ, jₒ, lₒ], t2_abab [aᵥ, dᵥ, mₒ, kₒ], t2_abab [bᵥ, cᵥ, iₒ, nₒ]], [(1, [aᵥ, bᵥ, cᵥ, dᵥ, iₒ, jₒ, kₒ, lₒ])]⟩,
  -- line 991: nmjl,adim,bcnk->abcdijkl
  ⟨1, [g_abab [nₒ, mₒ, jₒ, lₒ], t2_abab [aᵥ, dᵥ, iₒ, mₒ], t2_abab [bᵥ, cᵥ, nₒ, kₒ]], [(1, [aᵥ, bᵥ, cᵥ, dᵥ, iₒ, jₒ, kₒ, lₒ])]⟩,
  -- line 994: mnil,acmk,bdjn->abcdijkl
  ⟨1, [g_abab [mₒ, nₒ, iₒ, lₒ], t2_abab [aᵥ, cᵥ, mₒ, kₒ], t2_abab [bᵥ, dᵥ, jₒ, nₒ]], [(1, [aᵥ, bᵥ, cᵥ, dᵥ, iₒ, jₒ, kₒ, lₒ])]⟩,
  -- line 997: mnil,abjm,cdkn->abcdijkl
  ⟨-1, [g_abab [mₒ, nₒ, iₒ, lₒ], t2_aaaa [aᵥ, bᵥ, jₒ, mₒ], t2_bbbb [cᵥ, dᵥ, kₒ, nₒ]], [(1, [aᵥ, bᵥ, cᵥ, dᵥ, iₒ, jₒ, kₒ, lₒ])]⟩,
  -- line 1000: nmil,acjm,bdnk->abcdijkl
  ⟨1, [g_abab [nₒ, mₒ, iₒ, lₒ], t2_abab [aᵥ, cᵥ, jₒ, mₒ], t2_abab [bᵥ, dᵥ, nₒ, kₒ]], [(1, [aᵥ, bᵥ, cᵥ, dᵥ, iₒ, jₒ, kₒ, lₒ])]⟩,
  -- line 1003: mnil,admk,bcjn->abcdijkl
  ⟨-1, [g_abab [mₒ, nₒ, iₒ, lₒ], t2_abab [aᵥ, dᵥ, mₒ, kₒ], t2_abab [bᵥ, cᵥ, jₒ, nₒ]], [(1, [aᵥ, bᵥ, cᵥ, dᵥ, iₒ, jₒ, kₒ, lₒ])]⟩,
  -- line 1006: nmil,adjm,bcnk->abcdijkl
  ⟨-1, [g_abab [nₒ, mₒ, iₒ, lₒ], t2_abab [aᵥ, dᵥ, jₒ, mₒ], t2_abab [bᵥ, cᵥ, nₒ, kₒ]], [(1, [aᵥ, bᵥ, cᵥ, dᵥ, iₒ, jₒ, kₒ, lₒ])]⟩,
  -- line 1009: mnjk,acml,bdin->abcdijkl
  ⟨1, [g_abab [mₒ, nₒ, jₒ, kₒ], t2_abab [aᵥ, cᵥ, mₒ, lₒ], t2_abab [bᵥ, dᵥ, iₒ, nₒ]], [(1, [aᵥ, bᵥ, cᵥ, dᵥ, iₒ, jₒ, kₒ, lₒ])]⟩,
  -- line 1012: mnjk,abim,cdln->abcdijkl
  ⟨-1, [g_abab [mₒ, nₒ, jₒ, kₒ], t2_aaaa [aᵥ, bᵥ, iₒ, mₒ], t2_bbbb [cᵥ, dᵥ, lₒ, nₒ]], [(1, [aᵥ, bᵥ, cᵥ, dᵥ, iₒ, jₒ, kₒ, lₒ])]⟩,
  -- line 1015: nmjk,acim,bdnl->abcdijkl
  ⟨1, [g_abab [nₒ, mₒ, jₒ, kₒ], t2_abab [aᵥ, cᵥ, iₒ, mₒ], t2_abab [bᵥ, dᵥ, nₒ, lₒ]], [(1, [aᵥ, bᵥ, cᵥ, dᵥ, iₒ, jₒ, kₒ, lₒ])]⟩,
  -- line 1018: mnjk,adml,bcin->abcdijkl
  ⟨-1, [g_abab [mₒ, nₒ, jₒ, kₒ], t2_abab [aᵥ, dᵥ, mₒ, lₒ], t2_abab [bᵥ, cᵥ, iₒ, nₒ]], [(1, [aᵥ, bᵥ, cᵥ, dᵥ, iₒ, jₒ, kₒ, lₒ])]⟩,
  -- line 1021: nmjk,adim,bcnl->abcdijkl
  ⟨-1, [g_abab [nₒ, mₒ, jₒ, kₒ], t2_abab [aᵥ, dᵥ, iₒ, mₒ], t2_abab [bᵥ, cᵥ, nₒ, lₒ]], [(1, [aᵥ, bᵥ, cᵥ, dᵥ, iₒ, jₒ, kₒ, lₒ])]⟩,
  -- line 1024: mnik,acml,bdjn->abcdijkl
  ⟨-1, [g_abab [mₒ, nₒ, iₒ, kₒ], t2_abab [aᵥ, cᵥ, mₒ, lₒ], t2_abab [bᵥ, dᵥ, jₒ, nₒ]], [(1, [aᵥ, bᵥ, cᵥ, dᵥ, iₒ, jₒ, kₒ, lₒ])]⟩,
  -- line 1027: mnik,abjm,cdln->abcdijkl
  ⟨1, [g_abab [mₒ, nₒ, iₒ, kₒ], t2_aaaa [aᵥ, bᵥ, jₒ, mₒ], t2_bbbb [cᵥ, dᵥ, lₒ, nₒ]], [(1, [aᵥ, bᵥ, cᵥ, dᵥ, iₒ, jₒ, kₒ, lₒ])]⟩,
  -- line 1030: nmik,acjm,bdnl->abcdijkl
  ⟨-1, [g_abab [nₒ, mₒ, iₒ, kₒ], t2_abab [aᵥ, cᵥ, jₒ, mₒ], t2_abab [bᵥ, dᵥ, nₒ, lₒ]], [(1, [aᵥ, bᵥ, cᵥ, dᵥ, iₒ, jₒ, kₒ, lₒ])]⟩,
  -- line 1033: mnik,adml,bcjn->abcdijkl
  ⟨1, [g_abab [mₒ, nₒ, iₒ, kₒ], t2_abab [aᵥ, dᵥ, mₒ, lₒ], t2_abab [bᵥ, cᵥ, jₒ, nₒ]], [(1, [aᵥ, bᵥ, cᵥ, dᵥ, iₒ, jₒ, kₒ, lₒ])]⟩,
  -- line 1036: nmik,adjm,bcnl->abcdijkl
  ⟨1, [g_abab [nₒ, mₒ, iₒ, kₒ], t2_abab [aᵥ, dᵥ, jₒ, mₒ], t2_abab [bᵥ, cᵥ, nₒ, lₒ]], [(1, [aᵥ, bᵥ, cᵥ, dᵥ, iₒ, jₒ, kₒ, lₒ])]⟩,
  -- line 1039: nmij,acml,bdnk->abcdijkl
  ⟨1, [g_aaaa [nₒ, mₒ, iₒ, jₒ], t2_abab [aᵥ, cᵥ, mₒ, lₒ], t2_abab [bᵥ, dᵥ, nₒ, kₒ]], [(1, [aᵥ, bᵥ, cᵥ, dᵥ, iₒ, jₒ, kₒ, lₒ]), (-1, [aᵥ, bᵥ, cᵥ, dᵥ, iₒ, jₒ, lₒ, kₒ])]⟩,
  -- line 1043: nmij,adml,bcnk->abcdijkl
  ⟨-1, [g_aaaa [nₒ, mₒ, iₒ, jₒ], t2_abab [aᵥ, dᵥ, mₒ, lₒ], t2_abab [bᵥ, cᵥ, nₒ, kₒ]], [(1, [aᵥ, bᵥ, cᵥ, dᵥ, iₒ, jₒ, kₒ, lₒ]), (-1, [aᵥ, bᵥ, cᵥ, dᵥ, iₒ, jₒ, lₒ, kₒ])]⟩,
  -- line 1047: amel,ecjk,bdim->abcdijkl
  ⟨1, [g_abab [aᵥ, mₒ, eᵥ, lₒ], t2_abab [eᵥ, cᵥ, jₒ, kₒ], t2_abab [bᵥ, dᵥ, iₒ, mₒ]], [(1, [aᵥ, bᵥ, cᵥ, dᵥ, iₒ, jₒ, kₒ, lₒ]), (-1, [aᵥ, bᵥ, cᵥ, dᵥ, jₒ, iₒ, kₒ, lₒ])]⟩,
  -- line 1051: amel,ebij,cdkm->abcdijkl
  ⟨-1, [g_abab [aᵥ, mₒ, eᵥ, lₒ], t2_aaaa [eᵥ, bᵥ, iₒ, jₒ], t2_bbbb [cᵥ, dᵥ, kₒ, mₒ]], [(1, [aᵥ, bᵥ, cᵥ, dᵥ, iₒ, jₒ, kₒ, lₒ]), (-1, [aᵥ, bᵥ, cᵥ, dᵥ, iₒ, jₒ, lₒ, kₒ])]⟩,
  -- line 1055: amel,edjk,bcim->abcdijkl
  ⟨-1, [g_abab [aᵥ, mₒ, eᵥ, lₒ], t2_abab [eᵥ, dᵥ, jₒ, kₒ], t2_abab [bᵥ, cᵥ, iₒ, mₒ]], [(1, [aᵥ, bᵥ, cᵥ, dᵥ, iₒ, jₒ, kₒ, lₒ]), (-1, [aᵥ, bᵥ, cᵥ, dᵥ, jₒ, iₒ, kₒ, lₒ]), (-1, [bᵥ, aᵥ, cᵥ, dᵥ, iₒ, jₒ, kₒ, lₒ]), (1, [bᵥ, aᵥ, cᵥ, dᵥ, jₒ, iₒ, kₒ, lₒ])]⟩,
  -- line 1059: amek,ecjl,bdim->abcdijkl
  ⟨-1, [g_abab [aᵥ, mₒ, eᵥ, kₒ], t2_abab [eᵥ, cᵥ, jₒ, lₒ], t2_abab [bᵥ, dᵥ, iₒ, mₒ]], [(1, [aᵥ, bᵥ, cᵥ, dᵥ, iₒ, jₒ, kₒ, lₒ]), (-1, [aᵥ, bᵥ, cᵥ, dᵥ, jₒ, iₒ, kₒ, lₒ])]⟩,
  -- line 1063: amek,edjl,bcim->abcdijkl
  ⟨1, [g_abab [aᵥ, mₒ, eᵥ, kₒ], t2_abab [eᵥ, dᵥ, jₒ, lₒ], t2_abab [bᵥ, cᵥ, iₒ, mₒ]], [(1, [aᵥ, bᵥ, cᵥ, dᵥ, iₒ, jₒ, kₒ, lₒ]), (-1, [aᵥ, bᵥ, cᵥ, dᵥ, jₒ, iₒ, kₒ, lₒ]), (-1, [bᵥ, aᵥ, cᵥ, dᵥ, iₒ, jₒ, kₒ, lₒ]), (1, [bᵥ, aᵥ, cᵥ, dᵥ, jₒ, iₒ, kₒ, lₒ])]⟩,
  -- line 1067: amje,eckl,bdim->abcdijkl
  ⟨-1, [g_abab [aᵥ, mₒ, jₒ, eᵥ], t2_bbbb [eᵥ, cᵥ, kₒ, lₒ], t2_abab [bᵥ, dᵥ, iₒ, mₒ]], [(1, [aᵥ, bᵥ, cᵥ, dᵥ, iₒ, jₒ, kₒ, lₒ])]⟩,
  -- line 1070: amje,beil,cdkm->abcdijkl
  ⟨1, [g_abab [aᵥ, mₒ, jₒ, eᵥ], t2_abab [bᵥ, eᵥ, iₒ, lₒ], t2_bbbb [cᵥ, dᵥ, kₒ, mₒ]], [(1, [aᵥ, bᵥ, cᵥ, dᵥ, iₒ, jₒ, kₒ, lₒ])]⟩,
  -- line 1073: maej,ecil,bdmk->abcdijkl
  ⟨-1, [g_aaaa [mₒ, aᵥ, eᵥ, jₒ], t2_abab [eᵥ, cᵥ, iₒ, lₒ], t2_abab [bᵥ, dᵥ, mₒ, kₒ]], [(1, [aᵥ, bᵥ, cᵥ, dᵥ, iₒ, jₒ, kₒ, lₒ])]⟩,
  -- line 1076: amje,beik,cdlm->abcdijkl
  ⟨-1, [g_abab [aᵥ, mₒ, jₒ, eᵥ], t2_abab [bᵥ, eᵥ, iₒ, kₒ], t2_bbbb [cᵥ, dᵥ, lₒ, mₒ]], [(1, [aᵥ, bᵥ, cᵥ, dᵥ, iₒ, jₒ, kₒ, lₒ]), (-1, [aᵥ, bᵥ, cᵥ, dᵥ, jₒ, iₒ, kₒ, lₒ])]⟩,
  -- line 1080: maej,ecik,bdml->abcdijkl
  ⟨1, [g_aaaa [mₒ, aᵥ, eᵥ, jₒ], t2_abab [eᵥ, cᵥ, iₒ, kₒ], t2_abab [bᵥ, dᵥ, mₒ, lₒ]], [(1, [aᵥ, bᵥ, cᵥ, dᵥ, iₒ, jₒ, kₒ, lₒ]), (-1, [aᵥ, bᵥ, cᵥ, dᵥ, jₒ, iₒ, kₒ, lₒ])]⟩,
  -- line 1084: amje,edkl,bcim->abcdijkl
  ⟨1, [g_abab [aᵥ, mₒ, jₒ, eᵥ], t2_bbbb [eᵥ, dᵥ, kₒ, lₒ], t2_abab [bᵥ, cᵥ, iₒ, mₒ]], [(1, [aᵥ, bᵥ, cᵥ, dᵥ, iₒ, jₒ, kₒ, lₒ]), (-1, [bᵥ, aᵥ, cᵥ, dᵥ, iₒ, jₒ, kₒ, lₒ])]⟩,
  -- line 1088: maej,edil,bcmk->abcdijkl
  ⟨1, [g_aaaa [mₒ, aᵥ, eᵥ, jₒ], t2_abab [eᵥ, dᵥ, iₒ, lₒ], t2_abab [bᵥ, cᵥ, mₒ, kₒ]], [(1, [aᵥ, bᵥ, cᵥ, dᵥ, iₒ, jₒ, kₒ, lₒ]), (-1, [bᵥ, aᵥ, cᵥ, dᵥ, iₒ, jₒ, kₒ, lₒ])]⟩,
  -- line 1092: maej,edik,bcml->abcdijkl
  ⟨-1, [g_aaaa [mₒ, aᵥ, eᵥ, jₒ], t2_abab [eᵥ, dᵥ, iₒ, kₒ], t2_abab [bᵥ, cᵥ, mₒ, lₒ]], [(1, [aᵥ, bᵥ, cᵥ, dᵥ, iₒ, jₒ, kₒ, lₒ]), (-1, [aᵥ, bᵥ, cᵥ, dᵥ, jₒ, iₒ, kₒ, lₒ]), (-1, [bᵥ, aᵥ, cᵥ, dᵥ, iₒ, jₒ, kₒ, lₒ]), (1, [bᵥ, aᵥ, cᵥ, dᵥ, jₒ, iₒ, kₒ, lₒ])]⟩,
  -- line 1096: amie,eckl,bdjm->abcdijkl
  ⟨1, [g_abab [aᵥ, mₒ, iₒ, eᵥ], t2_bbbb [eᵥ, cᵥ, kₒ, lₒ], t2_abab [bᵥ, dᵥ, jₒ, mₒ]], [(1, [aᵥ, bᵥ, cᵥ, dᵥ, iₒ, jₒ, kₒ, lₒ])]⟩,
  -- line 1099: amie,bejl,cdkm->abcdijkl
  ⟨-1, [g_abab [aᵥ, mₒ, iₒ, eᵥ], t2_abab [bᵥ, eᵥ, jₒ, lₒ], t2_bbbb [cᵥ, dᵥ, kₒ, mₒ]], [(1, [aᵥ, bᵥ, cᵥ, dᵥ, iₒ, jₒ, kₒ, lₒ])]⟩,
  -- line 1102: maei,ecjl,bdmk->abcdijkl
  ⟨1, [g_aaaa [mₒ, aᵥ, eᵥ, iₒ], t2_abab [eᵥ, cᵥ, jₒ, lₒ], t2_abab [bᵥ, dᵥ, mₒ, kₒ]], [(1, [aᵥ, bᵥ, cᵥ, dᵥ, iₒ, jₒ, kₒ, lₒ])]⟩
  ]

/-- Part 1 of `ccsdtq_t4_aabbaabb`. -/
def ccsdtq_t4_aabbaabb_1 : Prog := [
  -- line 1105: amie,edkl,bcjm->abcdijkl
  ⟨-1, [g_abab [aᵥ, mₒ, iₒ, eᵥ], t2_bbbb [eᵥ, dᵥ, kₒ, lₒ], t2_abab [bᵥ, cᵥ, jₒ, mₒ]], [(1, [aᵥ, bᵥ, cᵥ, dᵥ, iₒ, jₒ, kₒ, lₒ]), (-1, [bᵥ, aᵥ, cᵥ, dᵥ, iₒ, jₒ, kₒ, lₒ])]⟩,
  -- line 1109: maei,edjl,bcmk->abcdijkl
  ⟨-1, [g_aaaa [mₒ, aᵥ, eᵥ, iₒ], t2_abab [eᵥ, dᵥ, jₒ, lₒ], t2_abab [bᵥ, cᵥ, mₒ, kₒ]], [(1, [aᵥ, bᵥ, cᵥ, dᵥ, iₒ, jₒ, kₒ, lₒ]), (-1, [bᵥ, aᵥ, cᵥ, dᵥ, iₒ, jₒ, kₒ, lₒ])]⟩,
  -- line 1113: bmel,ecjk,adim->abcdijkl
  ⟨-1, [g_abab [bᵥ, mₒ, eᵥ, lₒ], t2_abab [eᵥ, cᵥ, jₒ, kₒ], t2_abab [aᵥ, dᵥ, iₒ, mₒ]], [(1, [aᵥ, bᵥ, cᵥ, dᵥ, iₒ, jₒ, kₒ, lₒ]), (-1, [aᵥ, bᵥ, cᵥ, dᵥ, jₒ, iₒ, kₒ, lₒ])]⟩,
  -- line 1117: bmel,eaij,cdkm->abcdijkl
  ⟨1, [g_abab [bᵥ, mₒ, eᵥ, lₒ], t2_aaaa [eᵥ, aᵥ, iₒ, jₒ], t2_bbbb [cᵥ, dᵥ, kₒ, mₒ]], [(1, [aᵥ, bᵥ, cᵥ, dᵥ, iₒ, jₒ, kₒ, lₒ]), (-1, [aᵥ, bᵥ, cᵥ, dᵥ, iₒ, jₒ, lₒ, kₒ])]⟩,
  -- line 1121: bmek,ecjl,adim->abcdijkl
  ⟨1, [g_abab [bᵥ, mₒ, eᵥ, kₒ], t2_abab [eᵥ, cᵥ, jₒ, lₒ], t2_abab [aᵥ, dᵥ, iₒ, mₒ]], [(1, [aᵥ, bᵥ, cᵥ, dᵥ, iₒ, jₒ, kₒ, lₒ]), (-1, [aᵥ, bᵥ, cᵥ, dᵥ, jₒ, iₒ, kₒ, lₒ])]⟩,
  -- line 1125: bmje,eckl,adim->abcdijkl
  ⟨1, [g_abab [bᵥ, mₒ, jₒ, eᵥ], t2_bbbb [eᵥ, cᵥ, kₒ, lₒ], t2_abab [aᵥ, dᵥ, iₒ, mₒ]], [(1, [aᵥ, bᵥ, cᵥ, dᵥ, iₒ, jₒ, kₒ, lₒ])]⟩,
  -- line 1128: bmje,aeil,cdkm->abcdijkl
  ⟨-1, [g_abab [bᵥ, mₒ, jₒ, eᵥ], t2_abab [aᵥ, eᵥ, iₒ, lₒ], t2_bbbb [cᵥ, dᵥ, kₒ, mₒ]], [(1, [aᵥ, bᵥ, cᵥ, dᵥ, iₒ, jₒ, kₒ, lₒ])]⟩,
  -- line 1131: mbej,ecil,admk->abcdijkl
  ⟨1, [g_aaaa [mₒ, bᵥ, eᵥ, jₒ], t2_abab [eᵥ, cᵥ, iₒ, lₒ], t2_abab [aᵥ, dᵥ, mₒ, kₒ]], [(1, [aᵥ, bᵥ, cᵥ, dᵥ, iₒ, jₒ, kₒ, lₒ])]⟩,
  -- line 1134: bmje,aeik,cdlm->abcdijkl
  ⟨1, [g_abab [bᵥ, mₒ, jₒ, eᵥ], t2_abab [aᵥ, eᵥ, iₒ, kₒ], t2_bbbb [cᵥ, dᵥ, lₒ, mₒ]], [(1, [aᵥ, bᵥ, cᵥ, dᵥ, iₒ, jₒ, kₒ, lₒ]), (-1, [aᵥ, bᵥ, cᵥ, dᵥ, jₒ, iₒ, kₒ, lₒ])]⟩,
  -- line 1138: mbej,ecik,adml->abcdijkl
  ⟨-1, [g_aaaa [mₒ, bᵥ, eᵥ, jₒ], t2_abab [eᵥ, cᵥ, iₒ, kₒ], t2_abab [aᵥ, dᵥ, mₒ, lₒ]], [(1, [aᵥ, bᵥ, cᵥ, dᵥ, iₒ, jₒ, kₒ, lₒ]), (-1, [aᵥ, bᵥ, cᵥ, dᵥ, jₒ, iₒ, kₒ, lₒ])]⟩,
  -- line 1142: bmie,eckl,adjm->abcdijkl
  ⟨-1, [g_abab [bᵥ, mₒ, iₒ, eᵥ], t2_bbbb [eᵥ, cᵥ, kₒ, lₒ], t2_abab [aᵥ, dᵥ, jₒ, mₒ]], [(1, [aᵥ, bᵥ, cᵥ, dᵥ, iₒ, jₒ, kₒ, lₒ])]⟩,
  -- line 1145: bmie,aejl,cdkm->abcdijkl
  ⟨1, [g_abab [bᵥ, mₒ, iₒ, eᵥ], t2_abab [aᵥ, eᵥ, jₒ, lₒ], t2_bbbb [cᵥ, dᵥ, kₒ, mₒ]], [(1, [aᵥ, bᵥ, cᵥ, dᵥ, iₒ, jₒ, kₒ, lₒ])]⟩,
  -- line 1148: mbei,ecjl,admk->abcdijkl
  ⟨-1, [g_aaaa [mₒ, bᵥ, eᵥ, iₒ], t2_abab [eᵥ, cᵥ, jₒ, lₒ], t2_abab [aᵥ, dᵥ, mₒ, kₒ]], [(1, [aᵥ, bᵥ, cᵥ, dᵥ, iₒ, jₒ, kₒ, lₒ])]⟩,
  -- line 1151: mcel,aejk,bdim->abcdijkl
  ⟨-1, [g_bbbb [mₒ, cᵥ, eᵥ, lₒ], t2_abab [aᵥ, eᵥ, jₒ, kₒ], t2_abab [bᵥ, dᵥ, iₒ, mₒ]], [(1, [aᵥ, bᵥ, cᵥ, dᵥ, iₒ, jₒ, kₒ, lₒ]), (-1, [aᵥ, bᵥ, cᵥ, dᵥ, jₒ, iₒ, kₒ, lₒ]), (-1, [bᵥ, aᵥ, cᵥ, dᵥ, iₒ, jₒ, kₒ, lₒ]), (1, [bᵥ, aᵥ, cᵥ, dᵥ, jₒ, iₒ, kₒ, lₒ])]⟩,
  -- line 1155: mcel,eaij,bdmk->abcdijkl
  ⟨-1, [g_abab [mₒ, cᵥ, eᵥ, lₒ], t2_aaaa [eᵥ, aᵥ, iₒ, jₒ], t2_abab [bᵥ, dᵥ, mₒ, kₒ]], [(1, [aᵥ, bᵥ, cᵥ, dᵥ, iₒ, jₒ, kₒ, lₒ]), (-1, [aᵥ, bᵥ, cᵥ, dᵥ, iₒ, jₒ, lₒ, kₒ]), (-1, [bᵥ, aᵥ, cᵥ, dᵥ, iₒ, jₒ, kₒ, lₒ]), (1, [bᵥ, aᵥ, cᵥ, dᵥ, iₒ, jₒ, lₒ, kₒ])]⟩,
  -- line 1159: mcel,edjk,abim->abcdijkl
  ⟨1, [g_abab [mₒ, cᵥ, eᵥ, lₒ], t2_abab [eᵥ, dᵥ, jₒ, kₒ], t2_aaaa [aᵥ, bᵥ, iₒ, mₒ]], [(1, [aᵥ, bᵥ, cᵥ, dᵥ, iₒ, jₒ, kₒ, lₒ]), (-1, [aᵥ, bᵥ, cᵥ, dᵥ, jₒ, iₒ, kₒ, lₒ]), (-1, [aᵥ, bᵥ, dᵥ, cᵥ, iₒ, jₒ, kₒ, lₒ]), (1, [aᵥ, bᵥ, dᵥ, cᵥ, jₒ, iₒ, kₒ, lₒ])]⟩,
  -- line 1163: mcek,aejl,bdim->abcdijkl
  ⟨1, [g_bbbb [mₒ, cᵥ, eᵥ, kₒ], t2_abab [aᵥ, eᵥ, jₒ, lₒ], t2_abab [bᵥ, dᵥ, iₒ, mₒ]], [(1, [aᵥ, bᵥ, cᵥ, dᵥ, iₒ, jₒ, kₒ, lₒ]), (-1, [aᵥ, bᵥ, cᵥ, dᵥ, jₒ, iₒ, kₒ, lₒ]), (-1, [bᵥ, aᵥ, cᵥ, dᵥ, iₒ, jₒ, kₒ, lₒ]), (1, [bᵥ, aᵥ, cᵥ, dᵥ, jₒ, iₒ, kₒ, lₒ])]⟩,
  -- line 1167: mcek,edjl,abim->abcdijkl
  ⟨-1, [g_abab [mₒ, cᵥ, eᵥ, kₒ], t2_abab [eᵥ, dᵥ, jₒ, lₒ], t2_aaaa [aᵥ, bᵥ, iₒ, mₒ]], [(1, [aᵥ, bᵥ, cᵥ, dᵥ, iₒ, jₒ, kₒ, lₒ]), (-1, [aᵥ, bᵥ, cᵥ, dᵥ, jₒ, iₒ, kₒ, lₒ]), (-1, [aᵥ, bᵥ, dᵥ, cᵥ, iₒ, jₒ, kₒ, lₒ]), (1, [aᵥ, bᵥ, dᵥ, cᵥ, jₒ, iₒ, kₒ, lₒ])]⟩,
  -- line 1171: mcje,aeil,bdmk->abcdijkl
  ⟨1, [g_abab [mₒ, cᵥ, jₒ, eᵥ], t2_abab [aᵥ, eᵥ, iₒ, lₒ], t2_abab [bᵥ, dᵥ, mₒ, kₒ]], [(1, [aᵥ, bᵥ, cᵥ, dᵥ, iₒ, jₒ, kₒ, lₒ]), (-1, [bᵥ, aᵥ, cᵥ, dᵥ, iₒ, jₒ, kₒ, lₒ])]⟩,
  -- line 1175: mcje,aeik,bdml->abcdijkl
  ⟨-1, [g_abab [mₒ, cᵥ, jₒ, eᵥ], t2_abab [aᵥ, eᵥ, iₒ, kₒ], t2_abab [bᵥ, dᵥ, mₒ, lₒ]], [(1, [aᵥ, bᵥ, cᵥ, dᵥ, iₒ, jₒ, kₒ, lₒ]), (-1, [aᵥ, bᵥ, cᵥ, dᵥ, jₒ, iₒ, kₒ, lₒ]), (-1, [bᵥ, aᵥ, cᵥ, dᵥ, iₒ, jₒ, kₒ, lₒ]), (1, [bᵥ, aᵥ, cᵥ, dᵥ, jₒ, iₒ, kₒ, lₒ])]⟩,
  -- line 1179: mcje,edkl,abim->abcdijkl
  ⟨-1, [g_abab [mₒ, cᵥ, jₒ, eᵥ], t2_bbbb [eᵥ, dᵥ, kₒ, lₒ], t2_aaaa [aᵥ, bᵥ, iₒ, mₒ]], [(1, [aᵥ, bᵥ, cᵥ, dᵥ, iₒ, jₒ, kₒ, lₒ]), (-1, [aᵥ, bᵥ, dᵥ, cᵥ, iₒ, jₒ, kₒ, lₒ])]⟩,
  -- line 1183: mcie,aejl,bdmk->abcdijkl
  ⟨-1, [g_abab [mₒ, cᵥ, iₒ, eᵥ], t2_abab [aᵥ, eᵥ, jₒ, lₒ], t2_abab [bᵥ, dᵥ, mₒ, kₒ]], [(1, [aᵥ, bᵥ, cᵥ, dᵥ, iₒ, jₒ, kₒ, lₒ]), (-1, [bᵥ, aᵥ, cᵥ, dᵥ, iₒ, jₒ, kₒ, lₒ])]⟩,
  -- line 1187: mcie,edkl,abjm->abcdijkl
  ⟨1, [g_abab [mₒ, cᵥ, iₒ, eᵥ], t2_bbbb [eᵥ, dᵥ, kₒ, lₒ], t2_aaaa [aᵥ, bᵥ, jₒ, mₒ]], [(1, [aᵥ, bᵥ, cᵥ, dᵥ, iₒ, jₒ, kₒ, lₒ]), (-1, [aᵥ, bᵥ, dᵥ, cᵥ, iₒ, jₒ, kₒ, lₒ])]⟩,
  -- line 1191: mdel,aejk,bcim->abcdijkl
  ⟨1, [g_bbbb [mₒ, dᵥ, eᵥ, lₒ], t2_abab [aᵥ, eᵥ, jₒ, kₒ], t2_abab [bᵥ, cᵥ, iₒ, mₒ]], [(1, [aᵥ, bᵥ, cᵥ, dᵥ, iₒ, jₒ, kₒ, lₒ]), (-1, [aᵥ, bᵥ, cᵥ, dᵥ, jₒ, iₒ, kₒ, lₒ]), (-1, [bᵥ, aᵥ, cᵥ, dᵥ, iₒ, jₒ, kₒ, lₒ]), (1, [bᵥ, aᵥ, cᵥ, dᵥ, jₒ, iₒ, kₒ, lₒ])]⟩,
  -- line 1195: mdel,eaij,bcmk->abcdijkl
  ⟨1, [g_abab [mₒ, dᵥ, eᵥ, lₒ], t2_aaaa [eᵥ, aᵥ, iₒ, jₒ], t2_abab [bᵥ, cᵥ, mₒ, kₒ]], [(1, [aᵥ, bᵥ, cᵥ, dᵥ, iₒ, jₒ, kₒ, lₒ]), (-1, [aᵥ, bᵥ, cᵥ, dᵥ, iₒ, jₒ, lₒ, kₒ]), (-1, [bᵥ, aᵥ, cᵥ, dᵥ, iₒ, jₒ, kₒ, lₒ]), (1, [bᵥ, aᵥ, cᵥ, dᵥ, iₒ, jₒ, lₒ, kₒ])]⟩,
  -- line 1199: mdek,aejl,bcim->abcdijkl
  ⟨-1, [g_bbbb [mₒ, dᵥ, eᵥ, kₒ], t2_abab [aᵥ, eᵥ, jₒ, lₒ], t2_abab [bᵥ, cᵥ, iₒ, mₒ]], [(1, [aᵥ, bᵥ, cᵥ, dᵥ, iₒ, jₒ, kₒ, lₒ]), (-1, [aᵥ, bᵥ, cᵥ, dᵥ, jₒ, iₒ, kₒ, lₒ]), (-1, [bᵥ, aᵥ, cᵥ, dᵥ, iₒ, jₒ, kₒ, lₒ]), (1, [bᵥ, aᵥ, cᵥ, dᵥ, jₒ, iₒ, kₒ, lₒ])]⟩,
  -- line 1203: mdje,aeil,bcmk->abcdijkl
  ⟨-1, [g_abab [mₒ, dᵥ, jₒ, eᵥ], t2_abab [aᵥ, eᵥ, iₒ, lₒ], t2_abab [bᵥ, cᵥ, mₒ, kₒ]], [(1, [aᵥ, bᵥ, cᵥ, dᵥ, iₒ, jₒ, kₒ, lₒ]), (-1, [bᵥ, aᵥ, cᵥ, dᵥ, iₒ, jₒ, kₒ, lₒ])]⟩,
  -- line 1207: mdje,aeik,bcml->abcdijkl
  ⟨1, [g_abab [mₒ, dᵥ, jₒ, eᵥ], t2_abab [aᵥ, eᵥ, iₒ, kₒ], t2_abab [bᵥ, cᵥ, mₒ, lₒ]], [(1, [aᵥ, bᵥ, cᵥ, dᵥ, iₒ, jₒ, kₒ, lₒ]), (-1, [aᵥ, bᵥ, cᵥ, dᵥ, jₒ, iₒ, kₒ, lₒ]), (-1, [bᵥ, aᵥ, cᵥ, dᵥ, iₒ, jₒ, kₒ, lₒ]), (1, [bᵥ, aᵥ, cᵥ, dᵥ, jₒ, iₒ, kₒ, lₒ])]⟩,
  -- line 1211: mdie,aejl,bcmk->abcdijkl
  ⟨1, [g_abab [mₒ, dᵥ, iₒ, eᵥ], t2_abab [aᵥ, eᵥ, jₒ, lₒ], t2_abab [bᵥ, cᵥ, mₒ, kₒ]], [(1, [aᵥ, bᵥ, cᵥ, dᵥ, iₒ, jₒ, kₒ, lₒ]), (-1, [bᵥ, aᵥ, cᵥ, dᵥ, iₒ, jₒ, kₒ, lₒ])]⟩,
  -- line 1215: abef,ecjl,fdik->abcdijkl
  ⟨1, [g_aaaa [aᵥ, bᵥ, eᵥ, fᵥ], t2_abab [eᵥ, cᵥ, jₒ, lₒ], t2_abab [fᵥ, dᵥ, iₒ, kₒ]], [(1, [aᵥ, bᵥ, cᵥ, dᵥ, iₒ, jₒ, kₒ, lₒ])]⟩,
  -- line 1218: acfe,bejl,fdik->abcdijkl
  ⟨-1, [g_abab [aᵥ, cᵥ, fᵥ, eᵥ], t2_abab [bᵥ, eᵥ, jₒ, lₒ], t2_abab [fᵥ, dᵥ, iₒ, kₒ]], [(1, [aᵥ, bᵥ, cᵥ, dᵥ, iₒ, jₒ, kₒ, lₒ])]⟩,
  -- line 1221: abef,ecil,fdjk->abcdijkl
  ⟨-1, [g_aaaa [aᵥ, bᵥ, eᵥ, fᵥ], t2_abab [eᵥ, cᵥ, iₒ, lₒ], t2_abab [fᵥ, dᵥ, jₒ, kₒ]], [(1, [aᵥ, bᵥ, cᵥ, dᵥ, iₒ, jₒ, kₒ, lₒ]), (-1, [aᵥ, bᵥ, cᵥ, dᵥ, iₒ, jₒ, lₒ, kₒ])]⟩,
  -- line 1225: acfe,beil,fdjk->abcdijkl
  ⟨1, [g_abab [aᵥ, cᵥ, fᵥ, eᵥ], t2_abab [bᵥ, eᵥ, iₒ, lₒ], t2_abab [fᵥ, dᵥ, jₒ, kₒ]], [(1, [aᵥ, bᵥ, cᵥ, dᵥ, iₒ, jₒ, kₒ, lₒ]), (-1, [aᵥ, bᵥ, cᵥ, dᵥ, iₒ, jₒ, lₒ, kₒ])]⟩,
  -- line 1229: abef,ecjk,fdil->abcdijkl
  ⟨-1, [g_aaaa [aᵥ, bᵥ, eᵥ, fᵥ], t2_abab [eᵥ, cᵥ, jₒ, kₒ], t2_abab [fᵥ, dᵥ, iₒ, lₒ]], [(1, [aᵥ, bᵥ, cᵥ, dᵥ, iₒ, jₒ, kₒ, lₒ])]⟩,
  -- line 1232: acfe,bejk,fdil->abcdijkl
  ⟨1, [g_abab [aᵥ, cᵥ, fᵥ, eᵥ], t2_abab [bᵥ, eᵥ, jₒ, kₒ], t2_abab [fᵥ, dᵥ, iₒ, lₒ]], [(1, [aᵥ, bᵥ, cᵥ, dᵥ, iₒ, jₒ, kₒ, lₒ])]⟩,
  -- line 1235: acef,ebji,fdkl->abcdijkl
  ⟨-1, [g_abab [aᵥ, cᵥ, eᵥ, fᵥ], t2_aaaa [eᵥ, bᵥ, jₒ, iₒ], t2_bbbb [fᵥ, dᵥ, kₒ, lₒ]], [(1, [aᵥ, bᵥ, cᵥ, dᵥ, iₒ, jₒ, kₒ, lₒ])]⟩,
  -- line 1238: adfe,bejl,fcik->abcdijkl
  ⟨1, [g_abab [aᵥ, dᵥ, fᵥ, eᵥ], t2_abab [bᵥ, eᵥ, jₒ, lₒ], t2_abab [fᵥ, cᵥ, iₒ, kₒ]], [(1, [aᵥ, bᵥ, cᵥ, dᵥ, iₒ, jₒ, kₒ, lₒ]), (-1, [bᵥ, aᵥ, cᵥ, dᵥ, iₒ, jₒ, kₒ, lₒ])]⟩,
  -- line 1242: adfe,beil,fcjk->abcdijkl
  ⟨-1, [g_abab [aᵥ, dᵥ, fᵥ, eᵥ], t2_abab [bᵥ, eᵥ, iₒ, lₒ], t2_abab [fᵥ, cᵥ, jₒ, kₒ]], [(1, [aᵥ, bᵥ, cᵥ, dᵥ, iₒ, jₒ, kₒ, lₒ]), (-1, [aᵥ, bᵥ, cᵥ, dᵥ, iₒ, jₒ, lₒ, kₒ]), (-1, [bᵥ, aᵥ, cᵥ, dᵥ, iₒ, jₒ, kₒ, lₒ]), (1, [bᵥ, aᵥ, cᵥ, dᵥ, iₒ, jₒ, lₒ, kₒ])]⟩,
  -- line 1246: adfe,bejk,fcil->abcdijkl
  ⟨-1, [g_abab [aᵥ, dᵥ, fᵥ, eᵥ], t2_abab [bᵥ, eᵥ, jₒ, kₒ], t2_abab [fᵥ, cᵥ, iₒ, lₒ]], [(1, [aᵥ, bᵥ, cᵥ, dᵥ, iₒ, jₒ, kₒ, lₒ]), (-1, [bᵥ, aᵥ, cᵥ, dᵥ, iₒ, jₒ, kₒ, lₒ])]⟩,
  -- line 1250: adef,ebji,fckl->abcdijkl
  ⟨1, [g_abab [aᵥ, dᵥ, eᵥ, fᵥ], t2_aaaa [eᵥ, bᵥ, jₒ, iₒ], t2_bbbb [fᵥ, cᵥ, kₒ, lₒ]], [(1, [aᵥ, bᵥ, cᵥ, dᵥ, iₒ, jₒ, kₒ, lₒ]), (-1, [bᵥ, aᵥ, cᵥ, dᵥ, iₒ, jₒ, kₒ, lₒ])]⟩
  ]

/-- Part 2 of `ccsdtq_t4_aabbaabb`. -/
def ccsdtq_t4_aabbaabb_2 : Prog := [
  -- line 1254: bcfe,aejl,fdik->abcdijkl
  ⟨1, [g_abab [bᵥ, cᵥ, fᵥ, eᵥ], t2_abab [aᵥ, eᵥ, jₒ, lₒ], t2_abab [fᵥ, dᵥ, iₒ, kₒ]], [(1, [aᵥ, bᵥ, cᵥ, dᵥ, iₒ, jₒ, kₒ, lₒ])]⟩,
  -- line 1257: dcef,aejl,bfik->abcdijkl
  ⟨-1, [g_bbbb [dᵥ, cᵥ, eᵥ, fᵥ], t2_abab [aᵥ, eᵥ, jₒ, lₒ], t2_abab [bᵥ, fᵥ, iₒ, kₒ]], [(1, [aᵥ, bᵥ, cᵥ, dᵥ, iₒ, jₒ, kₒ, lₒ])]⟩,
  -- line 1260: bcfe,aeil,fdjk->abcdijkl
  ⟨-1, [g_abab [bᵥ, cᵥ, fᵥ, eᵥ], t2_abab [aᵥ, eᵥ, iₒ, lₒ], t2_abab [fᵥ, dᵥ, jₒ, kₒ]], [(1, [aᵥ, bᵥ, cᵥ, dᵥ, iₒ, jₒ, kₒ, lₒ]), (-1, [aᵥ, bᵥ, cᵥ, dᵥ, iₒ, jₒ, lₒ, kₒ])]⟩,
  -- line 1264: dcef,aeil,bfjk->abcdijkl
  ⟨1, [g_bbbb [dᵥ, cᵥ, eᵥ, fᵥ], t2_abab [aᵥ, eᵥ, iₒ, lₒ], t2_abab [bᵥ, fᵥ, jₒ, kₒ]], [(1, [aᵥ, bᵥ, cᵥ, dᵥ, iₒ, jₒ, kₒ, lₒ]), (-1, [aᵥ, bᵥ, cᵥ, dᵥ, iₒ, jₒ, lₒ, kₒ])]⟩,
  -- line 1268: bcfe,aejk,fdil->abcdijkl
  ⟨-1, [g_abab [bᵥ, cᵥ, fᵥ, eᵥ], t2_abab [aᵥ, eᵥ, jₒ, kₒ], t2_abab [fᵥ, dᵥ, iₒ, lₒ]], [(1, [aᵥ, bᵥ, cᵥ, dᵥ, iₒ, jₒ, kₒ, lₒ])]⟩,
  -- line 1271: dcef,aejk,bfil->abcdijkl
  ⟨1, [g_bbbb [dᵥ, cᵥ, eᵥ, fᵥ], t2_abab [aᵥ, eᵥ, jₒ, kₒ], t2_abab [bᵥ, fᵥ, iₒ, lₒ]], [(1, [aᵥ, bᵥ, cᵥ, dᵥ, iₒ, jₒ, kₒ, lₒ])]⟩,
  -- line 1274: bcef,eaji,fdkl->abcdijkl
  ⟨1, [g_abab [bᵥ, cᵥ, eᵥ, fᵥ], t2_aaaa [eᵥ, aᵥ, jₒ, iₒ], t2_bbbb [fᵥ, dᵥ, kₒ, lₒ]], [(1, [aᵥ, bᵥ, cᵥ, dᵥ, iₒ, jₒ, kₒ, lₒ])]⟩,
  -- line 1277: amjl,bcdikm->abcdijkl
  ⟨1, [g_abab [aᵥ, mₒ, jₒ, lₒ], t3_abbabb [bᵥ, cᵥ, dᵥ, iₒ, kₒ, mₒ]], [(1, [aᵥ, bᵥ, cᵥ, dᵥ, iₒ, jₒ, kₒ, lₒ]), (-1, [bᵥ, aᵥ, cᵥ, dᵥ, iₒ, jₒ, kₒ, lₒ])]⟩,
  -- line 1281: amil,bcdjkm->abcdijkl
  ⟨-1, [g_abab [aᵥ, mₒ, iₒ, lₒ], t3_abbabb [bᵥ, cᵥ, dᵥ, jₒ, kₒ, mₒ]], [(1, [aᵥ, bᵥ, cᵥ, dᵥ, iₒ, jₒ, kₒ, lₒ]), (-1, [aᵥ, bᵥ, cᵥ, dᵥ, iₒ, jₒ, lₒ, kₒ]), (-1, [bᵥ, aᵥ, cᵥ, dᵥ, iₒ, jₒ, kₒ, lₒ]), (1, [bᵥ, aᵥ, cᵥ, dᵥ, iₒ, jₒ, lₒ, kₒ])]⟩,
  -- line 1285: amjk,bcdilm->abcdijkl
  ⟨-1, [g_abab [aᵥ, mₒ, jₒ, kₒ], t3_abbabb [bᵥ, cᵥ, dᵥ, iₒ, lₒ, mₒ]], [(1, [aᵥ, bᵥ, cᵥ, dᵥ, iₒ, jₒ, kₒ, lₒ]), (-1, [bᵥ, aᵥ, cᵥ, dᵥ, iₒ, jₒ, kₒ, lₒ])]⟩,
  -- line 1289: maji,bcdmlk->abcdijkl
  ⟨1, [g_aaaa [mₒ, aᵥ, jₒ, iₒ], t3_abbabb [bᵥ, cᵥ, dᵥ, mₒ, lₒ, kₒ]], [(1, [aᵥ, bᵥ, cᵥ, dᵥ, iₒ, jₒ, kₒ, lₒ]), (-1, [bᵥ, aᵥ, cᵥ, dᵥ, iₒ, jₒ, kₒ, lₒ])]⟩,
  -- line 1293: mckl,abdijm->abcdijkl
  ⟨1, [g_bbbb [mₒ, cᵥ, kₒ, lₒ], t3_aabaab [aᵥ, bᵥ, dᵥ, iₒ, jₒ, mₒ]], [(1, [aᵥ, bᵥ, cᵥ, dᵥ, iₒ, jₒ, kₒ, lₒ]), (-1, [aᵥ, bᵥ, dᵥ, cᵥ, iₒ, jₒ, kₒ, lₒ])]⟩,
  -- line 1297: mcjl,abdimk->abcdijkl
  ⟨1, [g_abab [mₒ, cᵥ, jₒ, lₒ], t3_aabaab [aᵥ, bᵥ, dᵥ, iₒ, mₒ, kₒ]], [(1, [aᵥ, bᵥ, cᵥ, dᵥ, iₒ, jₒ, kₒ, lₒ]), (-1, [aᵥ, bᵥ, dᵥ, cᵥ, iₒ, jₒ, kₒ, lₒ])]⟩,
  -- line 1301: mcil,abdjmk->abcdijkl
  ⟨-1, [g_abab [mₒ, cᵥ, iₒ, lₒ], t3_aabaab [aᵥ, bᵥ, dᵥ, jₒ, mₒ, kₒ]], [(1, [aᵥ, bᵥ, cᵥ, dᵥ, iₒ, jₒ, kₒ, lₒ]), (-1, [aᵥ, bᵥ, cᵥ, dᵥ, iₒ, jₒ, lₒ, kₒ]), (-1, [aᵥ, bᵥ, dᵥ, cᵥ, iₒ, jₒ, kₒ, lₒ]), (1, [aᵥ, bᵥ, dᵥ, cᵥ, iₒ, jₒ, lₒ, kₒ])]⟩,
  -- line 1305: mcjk,abdiml->abcdijkl
  ⟨-1, [g_abab [mₒ, cᵥ, jₒ, kₒ], t3_aabaab [aᵥ, bᵥ, dᵥ, iₒ, mₒ, lₒ]], [(1, [aᵥ, bᵥ, cᵥ, dᵥ, iₒ, jₒ, kₒ, lₒ]), (-1, [aᵥ, bᵥ, dᵥ, cᵥ, iₒ, jₒ, kₒ, lₒ])]⟩,
  -- line 1309: acel,ebdijk->abcdijkl
  ⟨-1, [g_abab [aᵥ, cᵥ, eᵥ, lₒ], t3_aabaab [eᵥ, bᵥ, dᵥ, iₒ, jₒ, kₒ]], [(1, [aᵥ, bᵥ, cᵥ, dᵥ, iₒ, jₒ, kₒ, lₒ]), (-1, [aᵥ, bᵥ, cᵥ, dᵥ, iₒ, jₒ, lₒ, kₒ])]⟩,
  -- line 1313: abej,ecdikl->abcdijkl
  ⟨1, [g_aaaa [aᵥ, bᵥ, eᵥ, jₒ], t3_abbabb [eᵥ, cᵥ, dᵥ, iₒ, kₒ, lₒ]], [(1, [aᵥ, bᵥ, cᵥ, dᵥ, iₒ, jₒ, kₒ, lₒ]), (-1, [aᵥ, bᵥ, cᵥ, dᵥ, jₒ, iₒ, kₒ, lₒ])]⟩,
  -- line 1317: acje,bedikl->abcdijkl
  ⟨-1, [g_abab [aᵥ, cᵥ, jₒ, eᵥ], t3_abbabb [bᵥ, eᵥ, dᵥ, iₒ, kₒ, lₒ]], [(1, [aᵥ, bᵥ, cᵥ, dᵥ, iₒ, jₒ, kₒ, lₒ]), (-1, [aᵥ, bᵥ, cᵥ, dᵥ, jₒ, iₒ, kₒ, lₒ])]⟩,
  -- line 1321: adel,ebcijk->abcdijkl
  ⟨1, [g_abab [aᵥ, dᵥ, eᵥ, lₒ], t3_aabaab [eᵥ, bᵥ, cᵥ, iₒ, jₒ, kₒ]], [(1, [aᵥ, bᵥ, cᵥ, dᵥ, iₒ, jₒ, kₒ, lₒ]), (-1, [aᵥ, bᵥ, cᵥ, dᵥ, iₒ, jₒ, lₒ, kₒ]), (-1, [bᵥ, aᵥ, cᵥ, dᵥ, iₒ, jₒ, kₒ, lₒ]), (1, [bᵥ, aᵥ, cᵥ, dᵥ, iₒ, jₒ, lₒ, kₒ])]⟩,
  -- line 1325: adje,becikl->abcdijkl
  ⟨1, [g_abab [aᵥ, dᵥ, jₒ, eᵥ], t3_abbabb [bᵥ, eᵥ, cᵥ, iₒ, kₒ, lₒ]], [(1, [aᵥ, bᵥ, cᵥ, dᵥ, iₒ, jₒ, kₒ, lₒ]), (-1, [aᵥ, bᵥ, cᵥ, dᵥ, jₒ, iₒ, kₒ, lₒ]), (-1, [bᵥ, aᵥ, cᵥ, dᵥ, iₒ, jₒ, kₒ, lₒ]), (1, [bᵥ, aᵥ, cᵥ, dᵥ, jₒ, iₒ, kₒ, lₒ])]⟩,
  -- line 1329: bcel,eadijk->abcdijkl
  ⟨1, [g_abab [bᵥ, cᵥ, eᵥ, lₒ], t3_aabaab [eᵥ, aᵥ, dᵥ, iₒ, jₒ, kₒ]], [(1, [aᵥ, bᵥ, cᵥ, dᵥ, iₒ, jₒ, kₒ, lₒ]), (-1, [aᵥ, bᵥ, cᵥ, dᵥ, iₒ, jₒ, lₒ, kₒ])]⟩,
  -- line 1333: dcel,baeijk->abcdijkl
  ⟨1, [g_bbbb [dᵥ, cᵥ, eᵥ, lₒ], t3_aabaab [bᵥ, aᵥ, eᵥ, iₒ, jₒ, kₒ]], [(1, [aᵥ, bᵥ, cᵥ, dᵥ, iₒ, jₒ, kₒ, lₒ]), (-1, [aᵥ, bᵥ, cᵥ, dᵥ, iₒ, jₒ, lₒ, kₒ])]⟩,
  -- line 1337: bcje,aedikl->abcdijkl
  ⟨1, [g_abab [bᵥ, cᵥ, jₒ, eᵥ], t3_abbabb [aᵥ, eᵥ, dᵥ, iₒ, kₒ, lₒ]], [(1, [aᵥ, bᵥ, cᵥ, dᵥ, iₒ, jₒ, kₒ, lₒ]), (-1, [aᵥ, bᵥ, cᵥ, dᵥ, jₒ, iₒ, kₒ, lₒ])]⟩
  ]

/-- `UT2/fullCCenergy.py` 959-1340, `ccsdtq_t4_aabbaabb_residual`. -/
def ccsdtq_t4_aabbaabb : Prog := ccsdtq_t4_aabbaabb_0 ++ (ccsdtq_t4_aabbaabb_1 ++ (ccsdtq_t4_aabbaabb_2))

end Verif.Gen
