import Verif.Ein.Names
import Verif.Gen.Antisym

/-! Written by `/verif/tools/gen.py`. Programs read from `/repo/UT2`. -/

set_option maxRecDepth 100000

namespace Verif.Gen

open Verif.Ein Verif.Ein.N


/-- Part 0 of `ccsdtq_t4_bbbbbbbb`. -/
def ccsdtq_t4_bbbbbbbb_0 : Prog := [
  -- line 1800: nmkl,abjm,cdin->abcdijkl
  ⟨-1, [g_bbbb [nₒ, mₒ, kₒ, lₒ], t2_bbbb [aᵥ, bᵥ, jₒ, mₒ], t2_bbbb [cᵥ, dᵥ, iₒ, nₒ]], [(1, [aᵥ, bᵥ, cᵥ, dᵥ, iₒ, jₒ, kₒ, lₒ]), (-1, [aᵥ, bᵥ, cᵥ, dᵥ, jₒ, iₒ, kₒ, lₒ]), (-1, [aᵥ, cᵥ, bᵥ, dᵥ, iₒ, jₒ, kₒ, lₒ]), (1, [aᵥ, cᵥ, bᵥ, dᵥ, jₒ, iₒ, kₒ, lₒ])]⟩,
  -- line 1804: nmkl,adjm,bcin->abcdijkl
  ⟨-1, [g_bbbb [nₒ, mₒ, kₒ, lₒ], t2_bbbb [aᵥ, dᵥ, jₒ, mₒ], t2_bbbb [bᵥ, cᵥ, iₒ, nₒ]], [(1, [aᵥ, bᵥ, cᵥ, dᵥ, iₒ, jₒ, kₒ, lₒ]), (-1, [aᵥ, bᵥ, cᵥ, dᵥ, jₒ, iₒ, kₒ, lₒ])]⟩,
  -- line 1808: nmjl,abkm,cdin->abcdijkl
  ⟨1, [g_bbbb [nₒ, mₒ, jₒ, lₒ], t2_bbbb [aᵥ, bᵥ, kₒ, mₒ], t2_bbbb [cᵥ, dᵥ, iₒ, nₒ]], [(1, [aᵥ, bᵥ, cᵥ, dᵥ, iₒ, jₒ, kₒ, lₒ]), (-1, [aᵥ, bᵥ, cᵥ, dᵥ, kₒ, jₒ, iₒ, lₒ]), (-1, [aᵥ, cᵥ, bᵥ, dᵥ, iₒ, jₒ, kₒ, lₒ]), (1, [aᵥ, cᵥ, bᵥ, dᵥ, kₒ, jₒ, iₒ, lₒ])]⟩,
  -- line 1812: nmjl,adkm,bcin->abcdijkl
  ⟨1, [g_bbbb [nₒ, mₒ, jₒ, lₒ], t2_bbbb [aᵥ, dᵥ, kₒ, mₒ], t2_bbbb [bᵥ, cᵥ, iₒ, nₒ]], [(1, [aᵥ, bᵥ, cᵥ, dᵥ, iₒ, jₒ, kₒ, lₒ]), (-1, [aᵥ, bᵥ, cᵥ, dᵥ, kₒ, jₒ, iₒ, lₒ])]⟩,
  -- line 1816: nmil,abkm,cdjn->abcdijkl
  ⟨-1, [g_bbbb [nₒ, mₒ, iₒ, lₒ], t2_bbbb [aᵥ, bᵥ, kₒ, mₒ], t2_bbbb [cᵥ, dᵥ, jₒ, nₒ]], [(1, [aᵥ, bᵥ, cᵥ, dᵥ, iₒ, jₒ, kₒ, lₒ]), (-1, [aᵥ, bᵥ, cᵥ, dᵥ, iₒ, kₒ, jₒ, lₒ]), (-1, [aᵥ, cᵥ, bᵥ, dᵥ, iₒ, jₒ, kₒ, lₒ]), (1, [aᵥ, cᵥ, bᵥ, dᵥ, iₒ, kₒ, jₒ, lₒ])]⟩,
  -- line 1820: nmil,adkm,bcjn->abcdijkl
  ⟨-1, [g_bbbb [nₒ, mₒ, iₒ, lₒ], t2_bbbb [aᵥ, dᵥ, kₒ, mₒ], t2_bbbb [bᵥ, cᵥ, jₒ, nₒ]], [(1, [aᵥ, bᵥ, cᵥ, dᵥ, iₒ, jₒ, kₒ, lₒ]), (-1, [aᵥ, bᵥ, cᵥ, dᵥ, iₒ, kₒ, jₒ, lₒ])]⟩,
  -- line 1824: nmjk,ablm,cdin->abcdijkl
  ⟨-1, [g_bbbb [nₒ, mₒ, jₒ, kₒ], t2_bbbb [aᵥ, bᵥ, lₒ, mₒ], t2_bbbb [cᵥ, dᵥ, iₒ, nₒ]], [(1, [aᵥ, bᵥ, cᵥ, dᵥ, iₒ, jₒ, kₒ, lₒ]), (-1, [aᵥ, bᵥ, cᵥ, dᵥ, lₒ, jₒ, kₒ, iₒ]), (-1, [aᵥ, cᵥ, bᵥ, dᵥ, iₒ, jₒ, kₒ, lₒ]), (1, [aᵥ, cᵥ, bᵥ, dᵥ, lₒ, jₒ, kₒ, iₒ])]⟩,
  -- line 1828: nmjk,adlm,bcin->abcdijkl
  ⟨-1, [g_bbbb [nₒ, mₒ, jₒ, kₒ], t2_bbbb [aᵥ, dᵥ, lₒ, mₒ], t2_bbbb [bᵥ, cᵥ, iₒ, nₒ]], [(1, [aᵥ, bᵥ, cᵥ, dᵥ, iₒ, jₒ, kₒ, lₒ]), (-1, [aᵥ, bᵥ, cᵥ, dᵥ, lₒ, jₒ, kₒ, iₒ])]⟩,
  -- line 1832: nmik,ablm,cdjn->abcdijkl
  ⟨1, [g_bbbb [nₒ, mₒ, iₒ, kₒ], t2_bbbb [aᵥ, bᵥ, lₒ, mₒ], t2_bbbb [cᵥ, dᵥ, jₒ, nₒ]], [(1, [aᵥ, bᵥ, cᵥ, dᵥ, iₒ, jₒ, kₒ, lₒ]), (-1, [aᵥ, bᵥ, cᵥ, dᵥ, iₒ, lₒ, kₒ, jₒ]), (-1, [aᵥ, cᵥ, bᵥ, dᵥ, iₒ, jₒ, kₒ, lₒ]), (1, [aᵥ, cᵥ, bᵥ, dᵥ, iₒ, lₒ, kₒ, jₒ])]⟩,
  -- line 1836: nmik,adlm,bcjn->abcdijkl
  ⟨1, [g_bbbb [nₒ, mₒ, iₒ, kₒ], t2_bbbb [aᵥ, dᵥ, lₒ, mₒ], t2_bbbb [bᵥ, cᵥ, jₒ, nₒ]], [(1, [aᵥ, bᵥ, cᵥ, dᵥ, iₒ, jₒ, kₒ, lₒ]), (-1, [aᵥ, bᵥ, cᵥ, dᵥ, iₒ, lₒ, kₒ, jₒ])]⟩,
  -- line 1840: nmij,ablm,cdkn->abcdijkl
  ⟨-1, [g_bbbb [nₒ, mₒ, iₒ, jₒ], t2_bbbb [aᵥ, bᵥ, lₒ, mₒ], t2_bbbb [cᵥ, dᵥ, kₒ, nₒ]], [(1, [aᵥ, bᵥ, cᵥ, dᵥ, iₒ, jₒ, kₒ, lₒ]), (-1, [aᵥ, bᵥ, cᵥ, dᵥ, iₒ, jₒ, lₒ, kₒ]), (-1, [aᵥ, cᵥ, bᵥ, dᵥ, iₒ, jₒ, kₒ, lₒ]), (1, [aᵥ, cᵥ, bᵥ, dᵥ, iₒ, jₒ, lₒ, kₒ])]⟩,
  -- line 1844: nmij,adlm,bckn->abcdijkl
  ⟨-1, [g_bbbb [nₒ, mₒ, iₒ, jₒ], t2_bbbb [aᵥ, dᵥ, lₒ, mₒ], t2_bbbb [bᵥ, cᵥ, kₒ, nₒ]], [(1, [aᵥ, bᵥ, cᵥ, dᵥ, iₒ, jₒ, kₒ, lₒ]), (-1, [aᵥ, bᵥ, cᵥ, dᵥ, iₒ, jₒ, lₒ, kₒ])]⟩,
  -- line 1848: mael,ebjk,cdim->abcdijkl
  ⟨1, [g_bbbb [mₒ, aᵥ, eᵥ, lₒ], t2_bbbb [eᵥ, bᵥ, jₒ, kₒ], t2_bbbb [cᵥ, dᵥ, iₒ, mₒ]], [(1, [aᵥ, bᵥ, cᵥ, dᵥ, iₒ, jₒ, kₒ, lₒ]), (-1, [aᵥ, bᵥ, cᵥ, dᵥ, jₒ, iₒ, kₒ, lₒ]), (-1, [aᵥ, cᵥ, bᵥ, dᵥ, iₒ, jₒ, kₒ, lₒ]), (1, [aᵥ, cᵥ, bᵥ, dᵥ, jₒ, iₒ, kₒ, lₒ])]⟩,
  -- line 1852: mael,ebij,cdkm->abcdijkl
  ⟨1, [g_bbbb [mₒ, aᵥ, eᵥ, lₒ], t2_bbbb [eᵥ, bᵥ, iₒ, jₒ], t2_bbbb [cᵥ, dᵥ, kₒ, mₒ]], [(1, [aᵥ, bᵥ, cᵥ, dᵥ, iₒ, jₒ, kₒ, lₒ]), (-1, [aᵥ, bᵥ, cᵥ, dᵥ, iₒ, jₒ, lₒ, kₒ]), (-1, [aᵥ, cᵥ, bᵥ, dᵥ, iₒ, jₒ, kₒ, lₒ]), (1, [aᵥ, cᵥ, bᵥ, dᵥ, iₒ, jₒ, lₒ, kₒ])]⟩,
  -- line 1856: mael,edjk,bcim->abcdijkl
  ⟨1, [g_bbbb [mₒ, aᵥ, eᵥ, lₒ], t2_bbbb [eᵥ, dᵥ, jₒ, kₒ], t2_bbbb [bᵥ, cᵥ, iₒ, mₒ]], [(1, [aᵥ, bᵥ, cᵥ, dᵥ, iₒ, jₒ, kₒ, lₒ]), (-1, [aᵥ, bᵥ, cᵥ, dᵥ, jₒ, iₒ, kₒ, lₒ]), (-1, [bᵥ, aᵥ, cᵥ, dᵥ, iₒ, jₒ, kₒ, lₒ]), (1, [bᵥ, aᵥ, cᵥ, dᵥ, jₒ, iₒ, kₒ, lₒ])]⟩,
  -- line 1860: mael,edij,bckm->abcdijkl
  ⟨1, [g_bbbb [mₒ, aᵥ, eᵥ, lₒ], t2_bbbb [eᵥ, dᵥ, iₒ, jₒ], t2_bbbb [bᵥ, cᵥ, kₒ, mₒ]], [(1, [aᵥ, bᵥ, cᵥ, dᵥ, iₒ, jₒ, kₒ, lₒ]), (-1, [aᵥ, bᵥ, cᵥ, dᵥ, iₒ, jₒ, lₒ, kₒ]), (-1, [bᵥ, aᵥ, cᵥ, dᵥ, iₒ, jₒ, kₒ, lₒ]), (1, [bᵥ, aᵥ, cᵥ, dᵥ, iₒ, jₒ, lₒ, kₒ])]⟩,
  -- line 1864: maek,ebjl,cdim->abcdijkl
  ⟨-1, [g_bbbb [mₒ, aᵥ, eᵥ, kₒ], t2_bbbb [eᵥ, bᵥ, jₒ, lₒ], t2_bbbb [cᵥ, dᵥ, iₒ, mₒ]], [(1, [aᵥ, bᵥ, cᵥ, dᵥ, iₒ, jₒ, kₒ, lₒ]), (-1, [aᵥ, bᵥ, cᵥ, dᵥ, jₒ, iₒ, kₒ, lₒ]), (-1, [aᵥ, cᵥ, bᵥ, dᵥ, iₒ, jₒ, kₒ, lₒ]), (1, [aᵥ, cᵥ, bᵥ, dᵥ, jₒ, iₒ, kₒ, lₒ])]⟩,
  -- line 1868: maek,edjl,bcim->abcdijkl
  ⟨-1, [g_bbbb [mₒ, aᵥ, eᵥ, kₒ], t2_bbbb [eᵥ, dᵥ, jₒ, lₒ], t2_bbbb [bᵥ, cᵥ, iₒ, mₒ]], [(1, [aᵥ, bᵥ, cᵥ, dᵥ, iₒ, jₒ, kₒ, lₒ]), (-1, [aᵥ, bᵥ, cᵥ, dᵥ, jₒ, iₒ, kₒ, lₒ]), (-1, [bᵥ, aᵥ, cᵥ, dᵥ, iₒ, jₒ, kₒ, lₒ]), (1, [bᵥ, aᵥ, cᵥ, dᵥ, jₒ, iₒ, kₒ, lₒ])]⟩,
  -- line 1872: maej,ebkl,cdim->abcdijkl
  ⟨1, [g_bbbb [mₒ, aᵥ, eᵥ, jₒ], t2_bbbb [eᵥ, bᵥ, kₒ, lₒ], t2_bbbb [cᵥ, dᵥ, iₒ, mₒ]], [(1, [aᵥ, bᵥ, cᵥ, dᵥ, iₒ, jₒ, kₒ, lₒ]), (-1, [aᵥ, bᵥ, cᵥ, dᵥ, kₒ, jₒ, iₒ, lₒ]), (-1, [aᵥ, cᵥ, bᵥ, dᵥ, iₒ, jₒ, kₒ, lₒ]), (1, [aᵥ, cᵥ, bᵥ, dᵥ, kₒ, jₒ, iₒ, lₒ])]⟩,
  -- line 1876: maej,ebik,cdlm->abcdijkl
  ⟨1, [g_bbbb [mₒ, aᵥ, eᵥ, jₒ], t2_bbbb [eᵥ, bᵥ, iₒ, kₒ], t2_bbbb [cᵥ, dᵥ, lₒ, mₒ]], [(1, [aᵥ, bᵥ, cᵥ, dᵥ, iₒ, jₒ, kₒ, lₒ]), (-1, [aᵥ, bᵥ, cᵥ, dᵥ, jₒ, iₒ, kₒ, lₒ]), (-1, [aᵥ, cᵥ, bᵥ, dᵥ, iₒ, jₒ, kₒ, lₒ]), (1, [aᵥ, cᵥ, bᵥ, dᵥ, jₒ, iₒ, kₒ, lₒ])]⟩,
  -- line 1880: maej,edkl,bcim->abcdijkl
  ⟨1, [g_bbbb [mₒ, aᵥ, eᵥ, jₒ], t2_bbbb [eᵥ, dᵥ, kₒ, lₒ], t2_bbbb [bᵥ, cᵥ, iₒ, mₒ]], [(1, [aᵥ, bᵥ, cᵥ, dᵥ, iₒ, jₒ, kₒ, lₒ]), (-1, [aᵥ, bᵥ, cᵥ, dᵥ, kₒ, jₒ, iₒ, lₒ]), (-1, [bᵥ, aᵥ, cᵥ, dᵥ, iₒ, jₒ, kₒ, lₒ]), (1, [bᵥ, aᵥ, cᵥ, dᵥ, kₒ, jₒ, iₒ, lₒ])]⟩,
  -- line 1884: maej,edik,bclm->abcdijkl
  ⟨1, [g_bbbb [mₒ, aᵥ, eᵥ, jₒ], t2_bbbb [eᵥ, dᵥ, iₒ, kₒ], t2_bbbb [bᵥ, cᵥ, lₒ, mₒ]], [(1, [aᵥ, bᵥ, cᵥ, dᵥ, iₒ, jₒ, kₒ, lₒ]), (-1, [aᵥ, bᵥ, cᵥ, dᵥ, jₒ, iₒ, kₒ, lₒ]), (-1, [bᵥ, aᵥ, cᵥ, dᵥ, iₒ, jₒ, kₒ, lₒ]), (1, [bᵥ, aᵥ, cᵥ, dᵥ, jₒ, iₒ, kₒ, lₒ])]⟩,
  -- line 1888: maei,ebkl,cdjm->abcdijkl
  ⟨-1, [g_bbbb [mₒ, aᵥ, eᵥ, iₒ], t2_bbbb [eᵥ, bᵥ, kₒ, lₒ], t2_bbbb [cᵥ, dᵥ, jₒ, mₒ]], [(1, [aᵥ, bᵥ, cᵥ, dᵥ, iₒ, jₒ, kₒ, lₒ]), (-1, [aᵥ, bᵥ, cᵥ, dᵥ, iₒ, kₒ, jₒ, lₒ]), (-1, [aᵥ, cᵥ, bᵥ, dᵥ, iₒ, jₒ, kₒ, lₒ]), (1, [aᵥ, cᵥ, bᵥ, dᵥ, iₒ, kₒ, jₒ, lₒ])]⟩,
  -- line 1892: maei,edkl,bcjm->abcdijkl
  ⟨-1, [g_bbbb [mₒ, aᵥ, eᵥ, iₒ], t2_bbbb [eᵥ, dᵥ, kₒ, lₒ], t2_bbbb [bᵥ, cᵥ, jₒ, mₒ]], [(1, [aᵥ, bᵥ, cᵥ, dᵥ, iₒ, jₒ, kₒ, lₒ]), (-1, [aᵥ, bᵥ, cᵥ, dᵥ, iₒ, kₒ, jₒ, lₒ]), (-1, [bᵥ, aᵥ, cᵥ, dᵥ, iₒ, jₒ, kₒ, lₒ]), (1, [bᵥ, aᵥ, cᵥ, dᵥ, iₒ, kₒ, jₒ, lₒ])]⟩,
  -- line 1896: mbel,eajk,cdim->abcdijkl
  ⟨-1, [g_bbbb [mₒ, bᵥ, eᵥ, lₒ], t2_bbbb [eᵥ, aᵥ, jₒ, kₒ], t2_bbbb [cᵥ, dᵥ, iₒ, mₒ]], [(1, [aᵥ, bᵥ, cᵥ, dᵥ, iₒ, jₒ, kₒ, lₒ]), (-1, [aᵥ, bᵥ, cᵥ, dᵥ, jₒ, iₒ, kₒ, lₒ]), (-1, [cᵥ, bᵥ, aᵥ, dᵥ, iₒ, jₒ, kₒ, lₒ]), (1, [cᵥ, bᵥ, aᵥ, dᵥ, jₒ, iₒ, kₒ, lₒ])]⟩,
  -- line 1900: mbel,eaij,cdkm->abcdijkl
  ⟨-1, [g_bbbb [mₒ, bᵥ, eᵥ, lₒ], t2_bbbb [eᵥ, aᵥ, iₒ, jₒ], t2_bbbb [cᵥ, dᵥ, kₒ, mₒ]], [(1, [aᵥ, bᵥ, cᵥ, dᵥ, iₒ, jₒ, kₒ, lₒ]), (-1, [aᵥ, bᵥ, cᵥ, dᵥ, iₒ, jₒ, lₒ, kₒ]), (-1, [cᵥ, bᵥ, aᵥ, dᵥ, iₒ, jₒ, kₒ, lₒ]), (1, [cᵥ, bᵥ, aᵥ, dᵥ, iₒ, jₒ, lₒ, kₒ])]⟩,
  -- line 1904: mbek,eajl,cdim->abcdijkl
  ⟨1, [g_bbbb [mₒ, bᵥ, eᵥ, kₒ], t2_bbbb [eᵥ, aᵥ, jₒ, lₒ], t2_bbbb [cᵥ, dᵥ, iₒ, mₒ]], [(1, [aᵥ, bᵥ, cᵥ, dᵥ, iₒ, jₒ, kₒ, lₒ]), (-1, [aᵥ, bᵥ, cᵥ, dᵥ, jₒ, iₒ, kₒ, lₒ]), (-1, [cᵥ, bᵥ, aᵥ, dᵥ, iₒ, jₒ, kₒ, lₒ]), (1, [cᵥ, bᵥ, aᵥ, dᵥ, jₒ, iₒ, kₒ, lₒ])]⟩,
  -- line 1908: mbej,eakl,cdim->abcdijkl
  ⟨-1, [g_bbbb [mₒ, bᵥ, eᵥ, jₒ], t2_bbbb [eᵥ, aᵥ, kₒ, lₒ], t2_bbbb [cᵥ, dᵥ, iₒ, mₒ]], [(1, [aᵥ, bᵥ, cᵥ, dᵥ, iₒ, jₒ, kₒ, lₒ]), (-1, [aᵥ, bᵥ, cᵥ, dᵥ, kₒ, jₒ, iₒ, lₒ]), (-1, [cᵥ, bᵥ, aᵥ, dᵥ, iₒ, jₒ, kₒ, lₒ]), (1, [cᵥ, bᵥ, aᵥ, dᵥ, kₒ, jₒ, iₒ, lₒ])]⟩,
  -- line 1912: mbej,eaik,cdlm->abcdijkl
  ⟨-1, [g_bbbb [mₒ, bᵥ, eᵥ, jₒ], t2_bbbb [eᵥ, aᵥ, iₒ, kₒ], t2_bbbb [cᵥ, dᵥ, lₒ, mₒ]], [(1, [aᵥ, bᵥ, cᵥ, dᵥ, iₒ, jₒ, kₒ, lₒ]), (-1, [aᵥ, bᵥ, cᵥ, dᵥ, jₒ, iₒ, kₒ, lₒ]), (-1, [cᵥ, bᵥ, aᵥ, dᵥ, iₒ, jₒ, kₒ, lₒ]), (1, [cᵥ, bᵥ, aᵥ, dᵥ, jₒ, iₒ, kₒ, lₒ])]⟩,
  -- line 1916: mbei,eakl,cdjm->abcdijkl
  ⟨1, [g_bbbb [mₒ, bᵥ, eᵥ, iₒ], t2_bbbb [eᵥ, aᵥ, kₒ, lₒ], t2_bbbb [cᵥ, dᵥ, jₒ, mₒ]], [(1, [aᵥ, bᵥ, cᵥ, dᵥ, iₒ, jₒ, kₒ, lₒ]), (-1, [aᵥ, bᵥ, cᵥ, dᵥ, iₒ, kₒ, jₒ, lₒ]), (-1, [cᵥ, bᵥ, aᵥ, dᵥ, iₒ, jₒ, kₒ, lₒ]), (1, [cᵥ, bᵥ, aᵥ, dᵥ, iₒ, kₒ, jₒ, lₒ])]⟩,
  -- line 1920: mcel,eajk,bdim->abcdijkl
  ⟨1, [g_bbbb [mₒ, cᵥ, eᵥ, lₒ], t2_bbbb [eᵥ, aᵥ, jₒ, kₒ], t2_bbbb [bᵥ, dᵥ, iₒ, mₒ]], [(1, [aᵥ, bᵥ, cᵥ, dᵥ, iₒ, jₒ, kₒ, lₒ]), (-1, [aᵥ, bᵥ, cᵥ, dᵥ, jₒ, iₒ, kₒ, lₒ]), (-1, [bᵥ, aᵥ, cᵥ, dᵥ, iₒ, jₒ, kₒ, lₒ]), (1, [bᵥ, aᵥ, cᵥ, dᵥ, jₒ, iₒ, kₒ, lₒ])]⟩,
  -- line 1924: mcel,eaij,bdkm->abcdijkl
  ⟨1, [g_bbbb [mₒ, cᵥ, eᵥ, lₒ], t2_bbbb [eᵥ, aᵥ, iₒ, jₒ], t2_bbbb [bᵥ, dᵥ, kₒ, mₒ]], [(1, [aᵥ, bᵥ, cᵥ, dᵥ, iₒ, jₒ, kₒ, lₒ]), (-1, [aᵥ, bᵥ, cᵥ, dᵥ, iₒ, jₒ, lₒ, kₒ]), (-1, [bᵥ, aᵥ, cᵥ, dᵥ, iₒ, jₒ, kₒ, lₒ]), (1, [bᵥ, aᵥ, cᵥ, dᵥ, iₒ, jₒ, lₒ, kₒ])]⟩,
  -- line 1928: mcel,edjk,abim->abcdijkl
  ⟨1, [g_bbbb [mₒ, cᵥ, eᵥ, lₒ], t2_bbbb [eᵥ, dᵥ, jₒ, kₒ], t2_bbbb [aᵥ, bᵥ, iₒ, mₒ]], [(1, [aᵥ, bᵥ, cᵥ, dᵥ, iₒ, jₒ, kₒ, lₒ]), (-1, [aᵥ, bᵥ, cᵥ, dᵥ, jₒ, iₒ, kₒ, lₒ]), (-1, [aᵥ, bᵥ, dᵥ, cᵥ, iₒ, jₒ, kₒ, lₒ]), (1, [aᵥ, bᵥ, dᵥ, cᵥ, jₒ, iₒ, kₒ, lₒ])]⟩,
  -- line 1932: mcel,edij,abkm->abcdijkl
  ⟨1, [g_bbbb [mₒ, cᵥ, eᵥ, lₒ], t2_bbbb [eᵥ, dᵥ, iₒ, jₒ], t2_bbbb [aᵥ, bᵥ, kₒ, mₒ]], [(1, [aᵥ, bᵥ, cᵥ, dᵥ, iₒ, jₒ, kₒ, lₒ]), (-1, [aᵥ, bᵥ, cᵥ, dᵥ, iₒ, jₒ, lₒ, kₒ]), (-1, [aᵥ, bᵥ, dᵥ, cᵥ, iₒ, jₒ, kₒ, lₒ]), (1, [aᵥ, bᵥ, dᵥ, cᵥ, iₒ, jₒ, lₒ, kₒ])]⟩,
  -- line 1936: mcek,eajl,bdim->abcdijkl
  ⟨-1, [g_bbbb [mₒ, cᵥ, eᵥ, kₒ], t2_bbbb [eᵥ, aᵥ, jₒ, lₒ], t2_bbbb [bᵥ, dᵥ, iₒ, mₒ]], [(1, [aᵥ, bᵥ, cᵥ, dᵥ, iₒ, jₒ, kₒ, lₒ]), (-1, [aᵥ, bᵥ, cᵥ, dᵥ, jₒ, iₒ, kₒ, lₒ]), (-1, [bᵥ, aᵥ, cᵥ, dᵥ, iₒ, jₒ, kₒ, lₒ]), (1, [bᵥ, aᵥ, cᵥ, dᵥ, jₒ, iₒ, kₒ, lₒ])]⟩,
  -- line 1940: mcek,edjl,abim->abcdijkl
  ⟨-1, [g_bbbb [mₒ, cᵥ, eᵥ, kₒ], t2_bbbb [eᵥ, dᵥ, jₒ, lₒ], t2_bbbb [aᵥ, bᵥ, iₒ, mₒ]], [(1, [aᵥ, bᵥ, cᵥ, dᵥ, iₒ, jₒ, kₒ, lₒ]), (-1, [aᵥ, bᵥ, cᵥ, dᵥ, jₒ, iₒ, kₒ, lₒ]), (-1, [aᵥ, bᵥ, dᵥ, cᵥ, iₒ, jₒ, kₒ, lₒ]), (1, [aᵥ, bᵥ, dᵥ, cᵥ, jₒ, iₒ, kₒ, lₒ])]⟩,
  -- line 1944: mcej,eakl,bdim->abcdijkl
  ⟨1, [g_bbbb [mₒ, cᵥ, eᵥ, jₒ], t2_bbbb [eᵥ, aᵥ, kₒ, lₒ], t2_bbbb [bᵥ, dᵥ, iₒ, mₒ]], [(1, [aᵥ, bᵥ, cᵥ, dᵥ, iₒ, jₒ, kₒ, lₒ]), (-1, [aᵥ, bᵥ, cᵥ, dᵥ, kₒ, jₒ, iₒ, lₒ]), (-1, [bᵥ, aᵥ, cᵥ, dᵥ, iₒ, jₒ, kₒ, lₒ]), (1, [bᵥ, aᵥ, cᵥ, dᵥ, kₒ, jₒ, iₒ, lₒ])]⟩,
  -- line 1948: mcej,eaik,bdlm->abcdijkl
  ⟨1, [g_bbbb [mₒ, cᵥ, eᵥ, jₒ], t2_bbbb [eᵥ, aᵥ, iₒ, kₒ], t2_bbbb [bᵥ, dᵥ, lₒ, mₒ]], [(1, [aᵥ, bᵥ, cᵥ, dᵥ, iₒ, jₒ, kₒ, lₒ]), (-1, [aᵥ, bᵥ, cᵥ, dᵥ, jₒ, iₒ, kₒ, lₒ]), (-1, [bᵥ, aᵥ, cᵥ, dᵥ, iₒ, jₒ, kₒ, lₒ]), (1, [bᵥ, aᵥ, cᵥ, dᵥ, jₒ, iₒ, kₒ, lₒ])]⟩,
  -- line 1952: mcej,edkl,abim->abcdijkl
  ⟨1, [g_bbbb [mₒ, cᵥ, eᵥ, jₒ], t2_bbbb [eᵥ, dᵥ, kₒ, lₒ], t2_bbbb [aᵥ, bᵥ, iₒ, mₒ]], [(1, [aᵥ, bᵥ, cᵥ, dᵥ, iₒ, jₒ, kₒ, lₒ]), (-1, [aᵥ, bᵥ, cᵥ, dᵥ, kₒ, jₒ, iₒ, lₒ]), (-1, [aᵥ, bᵥ, dᵥ, cᵥ, iₒ, jₒ, kₒ, lₒ]), (1, [aᵥ, bᵥ, dᵥ, cᵥ, kₒ, jₒ, iₒ, lₒ])]⟩,
  -- line 1956: mcej,edik,ablm->abcdijkl
  ⟨1, [g_bbbb [mₒ, cᵥ, eᵥ, jₒ], t2_bbbb [eᵥ, dᵥ, iₒ, kₒ], t2_bbbb [aᵥ, bᵥ, lₒ, mₒ]], [(1, [aᵥ, bᵥ, cᵥ, dᵥ, iₒ, jₒ, kₒ, lₒ]), (-1, [aᵥ, bᵥ, cᵥ, dᵥ, jₒ, iₒ, kₒ, lₒ]), (-1, [aᵥ, bᵥ, dᵥ, cᵥ, iₒ, jₒ, kₒ, lₒ]), (1, [aᵥ, bᵥ, dᵥ, cᵥ, jₒ, iₒ, kₒ, lₒ])]⟩
  ]

/-- Part 1 of `ccsdtq_t4_bbbbbbbb`. -/
def ccsdtq_t4_bbbbbbbb_1 : Prog := [
  -- line 1960: mcei,eakl,bdjm->abcdijkl
  ⟨-1, [g_bbbb [mₒ, cᵥ, eᵥ, iₒ], t2_bbbb [eᵥ, aᵥ, kₒ, lₒ], t2_bbbb [bᵥ, dᵥ, jₒ, mₒ]], [(1, [aᵥ, bᵥ, cᵥ, dᵥ, iₒ, jₒ, kₒ, lₒ]), (-1, [aᵥ, bᵥ, cᵥ, dᵥ, iₒ, kₒ, jₒ, lₒ]), (-1, [bᵥ, aᵥ, cᵥ, dᵥ, iₒ, jₒ, kₒ, lₒ]), (1, [bᵥ, aᵥ, cᵥ, dᵥ, iₒ, kₒ, jₒ, lₒ])]⟩,
  -- line 1964: mcei,edkl,abjm->abcdijkl
  ⟨-1, [g_bbbb [mₒ, cᵥ, eᵥ, iₒ], t2_bbbb [eᵥ, dᵥ, kₒ, lₒ], t2_bbbb [aᵥ, bᵥ, jₒ, mₒ]], [(1, [aᵥ, bᵥ, cᵥ, dᵥ, iₒ, jₒ, kₒ, lₒ]), (-1, [aᵥ, bᵥ, cᵥ, dᵥ, iₒ, kₒ, jₒ, lₒ]), (-1, [aᵥ, bᵥ, dᵥ, cᵥ, iₒ, jₒ, kₒ, lₒ]), (1, [aᵥ, bᵥ, dᵥ, cᵥ, iₒ, kₒ, jₒ, lₒ])]⟩,
  -- line 1968: mdel,eajk,bcim->abcdijkl
  ⟨-1, [g_bbbb [mₒ, dᵥ, eᵥ, lₒ], t2_bbbb [eᵥ, aᵥ, jₒ, kₒ], t2_bbbb [bᵥ, cᵥ, iₒ, mₒ]], [(1, [aᵥ, bᵥ, cᵥ, dᵥ, iₒ, jₒ, kₒ, lₒ]), (-1, [aᵥ, bᵥ, cᵥ, dᵥ, jₒ, iₒ, kₒ, lₒ]), (-1, [bᵥ, aᵥ, cᵥ, dᵥ, iₒ, jₒ, kₒ, lₒ]), (1, [bᵥ, aᵥ, cᵥ, dᵥ, jₒ, iₒ, kₒ, lₒ])]⟩,
  -- line 1972: mdel,eaij,bckm->abcdijkl
  ⟨-1, [g_bbbb [mₒ, dᵥ, eᵥ, lₒ], t2_bbbb [eᵥ, aᵥ, iₒ, jₒ], t2_bbbb [bᵥ, cᵥ, kₒ, mₒ]], [(1, [aᵥ, bᵥ, cᵥ, dᵥ, iₒ, jₒ, kₒ, lₒ]), (-1, [aᵥ, bᵥ, cᵥ, dᵥ, iₒ, jₒ, lₒ, kₒ]), (-1, [bᵥ, aᵥ, cᵥ, dᵥ, iₒ, jₒ, kₒ, lₒ]), (1, [bᵥ, aᵥ, cᵥ, dᵥ, iₒ, jₒ, lₒ, kₒ])]⟩,
  -- line 1976: mdek,eajl,bcim->abcdijkl
  ⟨1, [g_bbbb [mₒ, dᵥ, eᵥ, kₒ], t2_bbbb [eᵥ, aᵥ, jₒ, lₒ], t2_bbbb [bᵥ, cᵥ, iₒ, mₒ]], [(1, [aᵥ, bᵥ, cᵥ, dᵥ, iₒ, jₒ, kₒ, lₒ]), (-1, [aᵥ, bᵥ, cᵥ, dᵥ, jₒ, iₒ, kₒ, lₒ]), (-1, [bᵥ, aᵥ, cᵥ, dᵥ, iₒ, jₒ, kₒ, lₒ]), (1, [bᵥ, aᵥ, cᵥ, dᵥ, jₒ, iₒ, kₒ, lₒ])]⟩,
  -- line 1980: mdej,eakl,bcim->abcdijkl
  ⟨-1, [g_bbbb [mₒ, dᵥ, eᵥ, jₒ], t2_bbbb [eᵥ, aᵥ, kₒ, lₒ], t2_bbbb [bᵥ, cᵥ, iₒ, mₒ]], [(1, [aᵥ, bᵥ, cᵥ, dᵥ, iₒ, jₒ, kₒ, lₒ]), (-1, [aᵥ, bᵥ, cᵥ, dᵥ, kₒ, jₒ, iₒ, lₒ]), (-1, [bᵥ, aᵥ, cᵥ, dᵥ, iₒ, jₒ, kₒ, lₒ]), (1, [bᵥ, aᵥ, cᵥ, dᵥ, kₒ, jₒ, iₒ, lₒ])]⟩,
  -- line 1984: mdej,eaik,bclm->abcdijkl
  ⟨-1, [g_bbbb [mₒ, dᵥ, eᵥ, jₒ], t2_bbbb [eᵥ, aᵥ, iₒ, kₒ], t2_bbbb [bᵥ, cᵥ, lₒ, mₒ]], [(1, [aᵥ, bᵥ, cᵥ, dᵥ, iₒ, jₒ, kₒ, lₒ]), (-1, [aᵥ, bᵥ, cᵥ, dᵥ, jₒ, iₒ, kₒ, lₒ]), (-1, [bᵥ, aᵥ, cᵥ, dᵥ, iₒ, jₒ, kₒ, lₒ]), (1, [bᵥ, aᵥ, cᵥ, dᵥ, jₒ, iₒ, kₒ, lₒ])]⟩,
  -- line 1988: mdei,eakl,bcjm->abcdijkl
  ⟨1, [g_bbbb [mₒ, dᵥ, eᵥ, iₒ], t2_bbbb [eᵥ, aᵥ, kₒ, lₒ], t2_bbbb [bᵥ, cᵥ, jₒ, mₒ]], [(1, [aᵥ, bᵥ, cᵥ, dᵥ, iₒ, jₒ, kₒ, lₒ]), (-1, [aᵥ, bᵥ, cᵥ, dᵥ, iₒ, kₒ, jₒ, lₒ]), (-1, [bᵥ, aᵥ, cᵥ, dᵥ, iₒ, jₒ, kₒ, lₒ]), (1, [bᵥ, aᵥ, cᵥ, dᵥ, iₒ, kₒ, jₒ, lₒ])]⟩,
  -- line 1992: abef,eckl,fdij->abcdijkl
  ⟨-1, [g_bbbb [aᵥ, bᵥ, eᵥ, fᵥ], t2_bbbb [eᵥ, cᵥ, kₒ, lₒ], t2_bbbb [fᵥ, dᵥ, iₒ, jₒ]], [(1, [aᵥ, bᵥ, cᵥ, dᵥ, iₒ, jₒ, kₒ, lₒ]), (-1, [aᵥ, bᵥ, cᵥ, dᵥ, iₒ, kₒ, jₒ, lₒ]), (-1, [aᵥ, cᵥ, bᵥ, dᵥ, iₒ, jₒ, kₒ, lₒ]), (1, [aᵥ, cᵥ, bᵥ, dᵥ, iₒ, kₒ, jₒ, lₒ])]⟩,
  -- line 1996: abef,ecil,fdjk->abcdijkl
  ⟨-1, [g_bbbb [aᵥ, bᵥ, eᵥ, fᵥ], t2_bbbb [eᵥ, cᵥ, iₒ, lₒ], t2_bbbb [fᵥ, dᵥ, jₒ, kₒ]], [(1, [aᵥ, bᵥ, cᵥ, dᵥ, iₒ, jₒ, kₒ, lₒ]), (-1, [aᵥ, bᵥ, cᵥ, dᵥ, iₒ, jₒ, lₒ, kₒ]), (-1, [aᵥ, cᵥ, bᵥ, dᵥ, iₒ, jₒ, kₒ, lₒ]), (1, [aᵥ, cᵥ, bᵥ, dᵥ, iₒ, jₒ, lₒ, kₒ])]⟩,
  -- line 2000: abef,ecjk,fdil->abcdijkl
  ⟨-1, [g_bbbb [aᵥ, bᵥ, eᵥ, fᵥ], t2_bbbb [eᵥ, cᵥ, jₒ, kₒ], t2_bbbb [fᵥ, dᵥ, iₒ, lₒ]], [(1, [aᵥ, bᵥ, cᵥ, dᵥ, iₒ, jₒ, kₒ, lₒ]), (-1, [aᵥ, bᵥ, cᵥ, dᵥ, kₒ, jₒ, iₒ, lₒ]), (-1, [aᵥ, cᵥ, bᵥ, dᵥ, iₒ, jₒ, kₒ, lₒ]), (1, [aᵥ, cᵥ, bᵥ, dᵥ, kₒ, jₒ, iₒ, lₒ])]⟩,
  -- line 2004: adef,ebkl,fcij->abcdijkl
  ⟨-1, [g_bbbb [aᵥ, dᵥ, eᵥ, fᵥ], t2_bbbb [eᵥ, bᵥ, kₒ, lₒ], t2_bbbb [fᵥ, cᵥ, iₒ, jₒ]], [(1, [aᵥ, bᵥ, cᵥ, dᵥ, iₒ, jₒ, kₒ, lₒ]), (-1, [aᵥ, bᵥ, cᵥ, dᵥ, iₒ, kₒ, jₒ, lₒ]), (-1, [bᵥ, aᵥ, cᵥ, dᵥ, iₒ, jₒ, kₒ, lₒ]), (1, [bᵥ, aᵥ, cᵥ, dᵥ, iₒ, kₒ, jₒ, lₒ])]⟩,
  -- line 2008: adef,ebil,fcjk->abcdijkl
  ⟨-1, [g_bbbb [aᵥ, dᵥ, eᵥ, fᵥ], t2_bbbb [eᵥ, bᵥ, iₒ, lₒ], t2_bbbb [fᵥ, cᵥ, jₒ, kₒ]], [(1, [aᵥ, bᵥ, cᵥ, dᵥ, iₒ, jₒ, kₒ, lₒ]), (-1, [aᵥ, bᵥ, cᵥ, dᵥ, iₒ, jₒ, lₒ, kₒ]), (-1, [bᵥ, aᵥ, cᵥ, dᵥ, iₒ, jₒ, kₒ, lₒ]), (1, [bᵥ, aᵥ, cᵥ, dᵥ, iₒ, jₒ, lₒ, kₒ])]⟩,
  -- line 2012: adef,ebjk,fcil->abcdijkl
  ⟨-1, [g_bbbb [aᵥ, dᵥ, eᵥ, fᵥ], t2_bbbb [eᵥ, bᵥ, jₒ, kₒ], t2_bbbb [fᵥ, cᵥ, iₒ, lₒ]], [(1, [aᵥ, bᵥ, cᵥ, dᵥ, iₒ, jₒ, kₒ, lₒ]), (-1, [aᵥ, bᵥ, cᵥ, dᵥ, kₒ, jₒ, iₒ, lₒ]), (-1, [bᵥ, aᵥ, cᵥ, dᵥ, iₒ, jₒ, kₒ, lₒ]), (1, [bᵥ, aᵥ, cᵥ, dᵥ, kₒ, jₒ, iₒ, lₒ])]⟩,
  -- line 2016: bcef,eakl,fdij->abcdijkl
  ⟨-1, [g_bbbb [bᵥ, cᵥ, eᵥ, fᵥ], t2_bbbb [eᵥ, aᵥ, kₒ, lₒ], t2_bbbb [fᵥ, dᵥ, iₒ, jₒ]], [(1, [aᵥ, bᵥ, cᵥ, dᵥ, iₒ, jₒ, kₒ, lₒ]), (-1, [aᵥ, bᵥ, cᵥ, dᵥ, iₒ, kₒ, jₒ, lₒ]), (-1, [aᵥ, dᵥ, cᵥ, bᵥ, iₒ, jₒ, kₒ, lₒ]), (1, [aᵥ, dᵥ, cᵥ, bᵥ, iₒ, kₒ, jₒ, lₒ])]⟩,
  -- line 2020: bcef,eail,fdjk->abcdijkl
  ⟨-1, [g_bbbb [bᵥ, cᵥ, eᵥ, fᵥ], t2_bbbb [eᵥ, aᵥ, iₒ, lₒ], t2_bbbb [fᵥ, dᵥ, jₒ, kₒ]], [(1, [aᵥ, bᵥ, cᵥ, dᵥ, iₒ, jₒ, kₒ, lₒ]), (-1, [aᵥ, bᵥ, cᵥ, dᵥ, iₒ, jₒ, lₒ, kₒ]), (-1, [aᵥ, dᵥ, cᵥ, bᵥ, iₒ, jₒ, kₒ, lₒ]), (1, [aᵥ, dᵥ, cᵥ, bᵥ, iₒ, jₒ, lₒ, kₒ])]⟩,
  -- line 2024: bcef,eajk,fdil->abcdijkl
  ⟨-1, [g_bbbb [bᵥ, cᵥ, eᵥ, fᵥ], t2_bbbb [eᵥ, aᵥ, jₒ, kₒ], t2_bbbb [fᵥ, dᵥ, iₒ, lₒ]], [(1, [aᵥ, bᵥ, cᵥ, dᵥ, iₒ, jₒ, kₒ, lₒ]), (-1, [aᵥ, bᵥ, cᵥ, dᵥ, kₒ, jₒ, iₒ, lₒ]), (-1, [aᵥ, dᵥ, cᵥ, bᵥ, iₒ, jₒ, kₒ, lₒ]), (1, [aᵥ, dᵥ, cᵥ, bᵥ, kₒ, jₒ, iₒ, lₒ])]⟩,
  -- line 2028: makl,bcdijm->abcdijkl
  ⟨1, [g_bbbb [mₒ, aᵥ, kₒ, lₒ], t3_bbbbbb [bᵥ, cᵥ, dᵥ, iₒ, jₒ, mₒ]], [(1, [aᵥ, bᵥ, cᵥ, dᵥ, iₒ, jₒ, kₒ, lₒ]), (-1, [aᵥ, bᵥ, cᵥ, dᵥ, iₒ, kₒ, jₒ, lₒ]), (-1, [bᵥ, aᵥ, cᵥ, dᵥ, iₒ, jₒ, kₒ, lₒ]), (1, [bᵥ, aᵥ, cᵥ, dᵥ, iₒ, kₒ, jₒ, lₒ])]⟩,
  -- line 2032: mail,bcdjkm->abcdijkl
  ⟨1, [g_bbbb [mₒ, aᵥ, iₒ, lₒ], t3_bbbbbb [bᵥ, cᵥ, dᵥ, jₒ, kₒ, mₒ]], [(1, [aᵥ, bᵥ, cᵥ, dᵥ, iₒ, jₒ, kₒ, lₒ]), (-1, [aᵥ, bᵥ, cᵥ, dᵥ, iₒ, jₒ, lₒ, kₒ]), (-1, [bᵥ, aᵥ, cᵥ, dᵥ, iₒ, jₒ, kₒ, lₒ]), (1, [bᵥ, aᵥ, cᵥ, dᵥ, iₒ, jₒ, lₒ, kₒ])]⟩,
  -- line 2036: majk,bcdilm->abcdijkl
  ⟨1, [g_bbbb [mₒ, aᵥ, jₒ, kₒ], t3_bbbbbb [bᵥ, cᵥ, dᵥ, iₒ, lₒ, mₒ]], [(1, [aᵥ, bᵥ, cᵥ, dᵥ, iₒ, jₒ, kₒ, lₒ]), (-1, [aᵥ, bᵥ, cᵥ, dᵥ, kₒ, jₒ, iₒ, lₒ]), (-1, [bᵥ, aᵥ, cᵥ, dᵥ, iₒ, jₒ, kₒ, lₒ]), (1, [bᵥ, aᵥ, cᵥ, dᵥ, kₒ, jₒ, iₒ, lₒ])]⟩,
  -- line 2040: mckl,abdijm->abcdijkl
  ⟨1, [g_bbbb [mₒ, cᵥ, kₒ, lₒ], t3_bbbbbb [aᵥ, bᵥ, dᵥ, iₒ, jₒ, mₒ]], [(1, [aᵥ, bᵥ, cᵥ, dᵥ, iₒ, jₒ, kₒ, lₒ]), (-1, [aᵥ, bᵥ, cᵥ, dᵥ, iₒ, kₒ, jₒ, lₒ]), (-1, [aᵥ, bᵥ, dᵥ, cᵥ, iₒ, jₒ, kₒ, lₒ]), (1, [aᵥ, bᵥ, dᵥ, cᵥ, iₒ, kₒ, jₒ, lₒ])]⟩,
  -- line 2044: mcil,abdjkm->abcdijkl
  ⟨1, [g_bbbb [mₒ, cᵥ, iₒ, lₒ], t3_bbbbbb [aᵥ, bᵥ, dᵥ, jₒ, kₒ, mₒ]], [(1, [aᵥ, bᵥ, cᵥ, dᵥ, iₒ, jₒ, kₒ, lₒ]), (-1, [aᵥ, bᵥ, cᵥ, dᵥ, iₒ, jₒ, lₒ, kₒ]), (-1, [aᵥ, bᵥ, dᵥ, cᵥ, iₒ, jₒ, kₒ, lₒ]), (1, [aᵥ, bᵥ, dᵥ, cᵥ, iₒ, jₒ, lₒ, kₒ])]⟩,
  -- line 2048: mcjk,abdilm->abcdijkl
  ⟨1, [g_bbbb [mₒ, cᵥ, jₒ, kₒ], t3_bbbbbb [aᵥ, bᵥ, dᵥ, iₒ, lₒ, mₒ]], [(1, [aᵥ, bᵥ, cᵥ, dᵥ, iₒ, jₒ, kₒ, lₒ]), (-1, [aᵥ, bᵥ, cᵥ, dᵥ, kₒ, jₒ, iₒ, lₒ]), (-1, [aᵥ, bᵥ, dᵥ, cᵥ, iₒ, jₒ, kₒ, lₒ]), (1, [aᵥ, bᵥ, dᵥ, cᵥ, kₒ, jₒ, iₒ, lₒ])]⟩,
  -- line 2052: abel,ecdijk->abcdijkl
  ⟨1, [g_bbbb [aᵥ, bᵥ, eᵥ, lₒ], t3_bbbbbb [eᵥ, cᵥ, dᵥ, iₒ, jₒ, kₒ]], [(1, [aᵥ, bᵥ, cᵥ, dᵥ, iₒ, jₒ, kₒ, lₒ]), (-1, [aᵥ, bᵥ, cᵥ, dᵥ, iₒ, jₒ, lₒ, kₒ]), (-1, [aᵥ, cᵥ, bᵥ, dᵥ, iₒ, jₒ, kₒ, lₒ]), (1, [aᵥ, cᵥ, bᵥ, dᵥ, iₒ, jₒ, lₒ, kₒ])]⟩,
  -- line 2056: abej,ecdikl->abcdijkl
  ⟨1, [g_bbbb [aᵥ, bᵥ, eᵥ, jₒ], t3_bbbbbb [eᵥ, cᵥ, dᵥ, iₒ, kₒ, lₒ]], [(1, [aᵥ, bᵥ, cᵥ, dᵥ, iₒ, jₒ, kₒ, lₒ]), (-1, [aᵥ, bᵥ, cᵥ, dᵥ, jₒ, iₒ, kₒ, lₒ]), (-1, [aᵥ, cᵥ, bᵥ, dᵥ, iₒ, jₒ, kₒ, lₒ]), (1, [aᵥ, cᵥ, bᵥ, dᵥ, jₒ, iₒ, kₒ, lₒ])]⟩,
  -- line 2060: adel,ebcijk->abcdijkl
  ⟨1, [g_bbbb [aᵥ, dᵥ, eᵥ, lₒ], t3_bbbbbb [eᵥ, bᵥ, cᵥ, iₒ, jₒ, kₒ]], [(1, [aᵥ, bᵥ, cᵥ, dᵥ, iₒ, jₒ, kₒ, lₒ]), (-1, [aᵥ, bᵥ, cᵥ, dᵥ, iₒ, jₒ, lₒ, kₒ]), (-1, [bᵥ, aᵥ, cᵥ, dᵥ, iₒ, jₒ, kₒ, lₒ]), (1, [bᵥ, aᵥ, cᵥ, dᵥ, iₒ, jₒ, lₒ, kₒ])]⟩,
  -- line 2064: adej,ebcikl->abcdijkl
  ⟨1, [g_bbbb [aᵥ, dᵥ, eᵥ, jₒ], t3_bbbbbb [eᵥ, bᵥ, cᵥ, iₒ, kₒ, lₒ]], [(1, [aᵥ, bᵥ, cᵥ, dᵥ, iₒ, jₒ, kₒ, lₒ]), (-1, [aᵥ, bᵥ, cᵥ, dᵥ, jₒ, iₒ, kₒ, lₒ]), (-1, [bᵥ, aᵥ, cᵥ, dᵥ, iₒ, jₒ, kₒ, lₒ]), (1, [bᵥ, aᵥ, cᵥ, dᵥ, jₒ, iₒ, kₒ, lₒ])]⟩,
  -- line 2068: bcel,eadijk->abcdijkl
  ⟨1, [g_bbbb [bᵥ, cᵥ, eᵥ, lₒ], t3_bbbbbb [eᵥ, aᵥ, dᵥ, iₒ, jₒ, kₒ]], [(1, [aᵥ, bᵥ, cᵥ, dᵥ, iₒ, jₒ, kₒ, lₒ]), (-1, [aᵥ, bᵥ, cᵥ, dᵥ, iₒ, jₒ, lₒ, kₒ]), (-1, [aᵥ, dᵥ, cᵥ, bᵥ, iₒ, jₒ, kₒ, lₒ]), (1, [aᵥ, dᵥ, cᵥ, bᵥ, iₒ, jₒ, lₒ, kₒ])]⟩,
  -- line 2072: bcej,eadikl->abcdijkl
  ⟨1, [g_bbbb [bᵥ, cᵥ, eᵥ, jₒ], t3_bbbbbb [eᵥ, aᵥ, dᵥ, iₒ, kₒ, lₒ]], [(1, [aᵥ, bᵥ, cᵥ, dᵥ, iₒ, jₒ, kₒ, lₒ]), (-1, [aᵥ, bᵥ, cᵥ, dᵥ, jₒ, iₒ, kₒ, lₒ]), (-1, [aᵥ, dᵥ, cᵥ, bᵥ, iₒ, jₒ, kₒ, lₒ]), (1, [aᵥ, dᵥ, cᵥ, bᵥ, jₒ, iₒ, kₒ, lₒ])]⟩
  ]

/-- `UT2/fullCCenergy.py` 1788-2075, `ccsdtq_t4_bbbbbbbb_residual`. -/
def ccsdtq_t4_bbbbbbbb : Prog := ccsdtq_t4_bbbbbbbb_0 ++ (ccsdtq_t4_bbbbbbbb_1)

end Verif.Gen
