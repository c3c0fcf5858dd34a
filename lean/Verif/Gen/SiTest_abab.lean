import Verif.Ein.Names
import Verif.Gen.Antisym

/-! Written by `/verif/tools/gen.py`. Programs read from `/repo/UT2`. -/

set_option maxRecDepth 100000

namespace Verif.Gen

open Verif.Ein Verif.Ein.N


/-- Part 0 of `test_t2_abab`. -/
def test_t2_abab_0 : Prog := [
  -- line 1674: mnkl,kldc,dcmj,abin->abij
  ⟨-1/4, [g_abab [mₒ, nₒ, kₒ, lₒ], l2_abab [kₒ, lₒ, dᵥ, cᵥ], t2_abab [dᵥ, cᵥ, mₒ, jₒ], t2_abab [aᵥ, bᵥ, iₒ, nₒ]], [(1, [aᵥ, bᵥ, iₒ, jₒ])]⟩,
  -- line 1677: mnkl,klcd,cdmj,abin->abij
  ⟨-1/4, [g_abab [mₒ, nₒ, kₒ, lₒ], l2_abab [kₒ, lₒ, cᵥ, dᵥ], t2_abab [cᵥ, dᵥ, mₒ, jₒ], t2_abab [aᵥ, bᵥ, iₒ, nₒ]], [(1, [aᵥ, bᵥ, iₒ, jₒ])]⟩,
  -- line 1680: mnlk,lkdc,dcmj,abin->abij
  ⟨-1/4, [g_abab [mₒ, nₒ, lₒ, kₒ], l2_abab [lₒ, kₒ, dᵥ, cᵥ], t2_abab [dᵥ, cᵥ, mₒ, jₒ], t2_abab [aᵥ, bᵥ, iₒ, nₒ]], [(1, [aᵥ, bᵥ, iₒ, jₒ])]⟩,
  -- line 1683: mnlk,lkcd,cdmj,abin->abij
  ⟨-1/4, [g_abab [mₒ, nₒ, lₒ, kₒ], l2_abab [lₒ, kₒ, cᵥ, dᵥ], t2_abab [cᵥ, dᵥ, mₒ, jₒ], t2_abab [aᵥ, bᵥ, iₒ, nₒ]], [(1, [aᵥ, bᵥ, iₒ, jₒ])]⟩,
  -- line 1686: nmkl,kldc,dcjm,abin->abij
  ⟨-1/4, [g_bbbb [nₒ, mₒ, kₒ, lₒ], l2_bbbb [kₒ, lₒ, dᵥ, cᵥ], t2_bbbb [dᵥ, cᵥ, jₒ, mₒ], t2_abab [aᵥ, bᵥ, iₒ, nₒ]], [(1, [aᵥ, bᵥ, iₒ, jₒ])]⟩,
  -- line 1689: nmkl,kldc,dcim,abnj->abij
  ⟨-1/4, [g_aaaa [nₒ, mₒ, kₒ, lₒ], l2_aaaa [kₒ, lₒ, dᵥ, cᵥ], t2_aaaa [dᵥ, cᵥ, iₒ, mₒ], t2_abab [aᵥ, bᵥ, nₒ, jₒ]], [(1, [aᵥ, bᵥ, iₒ, jₒ])]⟩,
  -- line 1692: nmkl,kldc,dcim,abnj->abij
  ⟨-1/4, [g_abab [nₒ, mₒ, kₒ, lₒ], l2_abab [kₒ, lₒ, dᵥ, cᵥ], t2_abab [dᵥ, cᵥ, iₒ, mₒ], t2_abab [aᵥ, bᵥ, nₒ, jₒ]], [(1, [aᵥ, bᵥ, iₒ, jₒ])]⟩,
  -- line 1695: nmkl,klcd,cdim,abnj->abij
  ⟨-1/4, [g_abab [nₒ, mₒ, kₒ, lₒ], l2_abab [kₒ, lₒ, cᵥ, dᵥ], t2_abab [cᵥ, dᵥ, iₒ, mₒ], t2_abab [aᵥ, bᵥ, nₒ, jₒ]], [(1, [aᵥ, bᵥ, iₒ, jₒ])]⟩,
  -- line 1698: nmlk,lkdc,dcim,abnj->abij
  ⟨-1/4, [g_abab [nₒ, mₒ, lₒ, kₒ], l2_abab [lₒ, kₒ, dᵥ, cᵥ], t2_abab [dᵥ, cᵥ, iₒ, mₒ], t2_abab [aᵥ, bᵥ, nₒ, jₒ]], [(1, [aᵥ, bᵥ, iₒ, jₒ])]⟩,
  -- line 1701: nmlk,lkcd,cdim,abnj->abij
  ⟨-1/4, [g_abab [nₒ, mₒ, lₒ, kₒ], l2_abab [lₒ, kₒ, cᵥ, dᵥ], t2_abab [cᵥ, dᵥ, iₒ, mₒ], t2_abab [aᵥ, bᵥ, nₒ, jₒ]], [(1, [aᵥ, bᵥ, iₒ, jₒ])]⟩,
  -- line 1704: mnkl,klcd,admj,cbin->abij
  ⟨1/2, [g_abab [mₒ, nₒ, kₒ, lₒ], l2_abab [kₒ, lₒ, cᵥ, dᵥ], t2_abab [aᵥ, dᵥ, mₒ, jₒ], t2_abab [cᵥ, bᵥ, iₒ, nₒ]], [(1, [aᵥ, bᵥ, iₒ, jₒ])]⟩,
  -- line 1707: mnlk,lkcd,admj,cbin->abij
  ⟨1/2, [g_abab [mₒ, nₒ, lₒ, kₒ], l2_abab [lₒ, kₒ, cᵥ, dᵥ], t2_abab [aᵥ, dᵥ, mₒ, jₒ], t2_abab [cᵥ, bᵥ, iₒ, nₒ]], [(1, [aᵥ, bᵥ, iₒ, jₒ])]⟩,
  -- line 1710: nmkl,kldc,daim,cbnj->abij
  ⟨1/2, [g_aaaa [nₒ, mₒ, kₒ, lₒ], l2_aaaa [kₒ, lₒ, dᵥ, cᵥ], t2_aaaa [dᵥ, aᵥ, iₒ, mₒ], t2_abab [cᵥ, bᵥ, nₒ, jₒ]], [(1, [aᵥ, bᵥ, iₒ, jₒ])]⟩,
  -- line 1713: mnkl,kldc,daim,cbjn->abij
  ⟨1/2, [g_abab [mₒ, nₒ, kₒ, lₒ], l2_abab [kₒ, lₒ, dᵥ, cᵥ], t2_aaaa [dᵥ, aᵥ, iₒ, mₒ], t2_bbbb [cᵥ, bᵥ, jₒ, nₒ]], [(1, [aᵥ, bᵥ, iₒ, jₒ])]⟩,
  -- line 1716: nmkl,klcd,adim,cbnj->abij
  ⟨1/2, [g_abab [nₒ, mₒ, kₒ, lₒ], l2_abab [kₒ, lₒ, cᵥ, dᵥ], t2_abab [aᵥ, dᵥ, iₒ, mₒ], t2_abab [cᵥ, bᵥ, nₒ, jₒ]], [(1, [aᵥ, bᵥ, iₒ, jₒ])]⟩,
  -- line 1719: mnlk,lkdc,daim,cbjn->abij
  ⟨1/2, [g_abab [mₒ, nₒ, lₒ, kₒ], l2_abab [lₒ, kₒ, dᵥ, cᵥ], t2_aaaa [dᵥ, aᵥ, iₒ, mₒ], t2_bbbb [cᵥ, bᵥ, jₒ, nₒ]], [(1, [aᵥ, bᵥ, iₒ, jₒ])]⟩,
  -- line 1722: nmlk,lkcd,adim,cbnj->abij
  ⟨1/2, [g_abab [nₒ, mₒ, lₒ, kₒ], l2_abab [lₒ, kₒ, cᵥ, dᵥ], t2_abab [aᵥ, dᵥ, iₒ, mₒ], t2_abab [cᵥ, bᵥ, nₒ, jₒ]], [(1, [aᵥ, bᵥ, iₒ, jₒ])]⟩,
  -- line 1725: nmkl,kldc,adim,cbjn->abij
  ⟨1/2, [g_bbbb [nₒ, mₒ, kₒ, lₒ], l2_bbbb [kₒ, lₒ, dᵥ, cᵥ], t2_abab [aᵥ, dᵥ, iₒ, mₒ], t2_bbbb [cᵥ, bᵥ, jₒ, nₒ]], [(1, [aᵥ, bᵥ, iₒ, jₒ])]⟩,
  -- line 1728: mnlj,kldc,dckm,abin->abij
  ⟨1/2, [g_abab [mₒ, nₒ, lₒ, jₒ], l2_aaaa [kₒ, lₒ, dᵥ, cᵥ], t2_aaaa [dᵥ, cᵥ, kₒ, mₒ], t2_abab [aᵥ, bᵥ, iₒ, nₒ]], [(1, [aᵥ, bᵥ, iₒ, jₒ])]⟩,
  -- line 1731: nmjl,kldc,dckm,abin->abij
  ⟨1/2, [g_bbbb [nₒ, mₒ, jₒ, lₒ], l2_abab [kₒ, lₒ, dᵥ, cᵥ], t2_abab [dᵥ, cᵥ, kₒ, mₒ], t2_abab [aᵥ, bᵥ, iₒ, nₒ]], [(1, [aᵥ, bᵥ, iₒ, jₒ])]⟩,
  -- line 1734: nmjl,klcd,cdkm,abin->abij
  ⟨1/2, [g_bbbb [nₒ, mₒ, jₒ, lₒ], l2_abab [kₒ, lₒ, cᵥ, dᵥ], t2_abab [cᵥ, dᵥ, kₒ, mₒ], t2_abab [aᵥ, bᵥ, iₒ, nₒ]], [(1, [aᵥ, bᵥ, iₒ, jₒ])]⟩,
  -- line 1737: mnlj,lkdc,dcmk,abin->abij
  ⟨1/2, [g_abab [mₒ, nₒ, lₒ, jₒ], l2_abab [lₒ, kₒ, dᵥ, cᵥ], t2_abab [dᵥ, cᵥ, mₒ, kₒ], t2_abab [aᵥ, bᵥ, iₒ, nₒ]], [(1, [aᵥ, bᵥ, iₒ, jₒ])]⟩,
  -- line 1740: mnlj,lkcd,cdmk,abin->abij
  ⟨1/2, [g_abab [mₒ, nₒ, lₒ, jₒ], l2_abab [lₒ, kₒ, cᵥ, dᵥ], t2_abab [cᵥ, dᵥ, mₒ, kₒ], t2_abab [aᵥ, bᵥ, iₒ, nₒ]], [(1, [aᵥ, bᵥ, iₒ, jₒ])]⟩,
  -- line 1743: nmjl,kldc,dckm,abin->abij
  ⟨1/2, [g_bbbb [nₒ, mₒ, jₒ, lₒ], l2_bbbb [kₒ, lₒ, dᵥ, cᵥ], t2_bbbb [dᵥ, cᵥ, kₒ, mₒ], t2_abab [aᵥ, bᵥ, iₒ, nₒ]], [(1, [aᵥ, bᵥ, iₒ, jₒ])]⟩,
  -- line 1746: nmil,kldc,dckm,abnj->abij
  ⟨1/2, [g_aaaa [nₒ, mₒ, iₒ, lₒ], l2_aaaa [kₒ, lₒ, dᵥ, cᵥ], t2_aaaa [dᵥ, cᵥ, kₒ, mₒ], t2_abab [aᵥ, bᵥ, nₒ, jₒ]], [(1, [aᵥ, bᵥ, iₒ, jₒ])]⟩,
  -- line 1749: nmil,kldc,dckm,abnj->abij
  ⟨1/2, [g_abab [nₒ, mₒ, iₒ, lₒ], l2_abab [kₒ, lₒ, dᵥ, cᵥ], t2_abab [dᵥ, cᵥ, kₒ, mₒ], t2_abab [aᵥ, bᵥ, nₒ, jₒ]], [(1, [aᵥ, bᵥ, iₒ, jₒ])]⟩,
  -- line 1752: nmil,klcd,cdkm,abnj->abij
  ⟨1/2, [g_abab [nₒ, mₒ, iₒ, lₒ], l2_abab [kₒ, lₒ, cᵥ, dᵥ], t2_abab [cᵥ, dᵥ, kₒ, mₒ], t2_abab [aᵥ, bᵥ, nₒ, jₒ]], [(1, [aᵥ, bᵥ, iₒ, jₒ])]⟩,
  -- line 1755: nmil,lkdc,dcmk,abnj->abij
  ⟨1/2, [g_aaaa [nₒ, mₒ, iₒ, lₒ], l2_abab [lₒ, kₒ, dᵥ, cᵥ], t2_abab [dᵥ, cᵥ, mₒ, kₒ], t2_abab [aᵥ, bᵥ, nₒ, jₒ]], [(1, [aᵥ, bᵥ, iₒ, jₒ])]⟩,
  -- line 1758: nmil,lkcd,cdmk,abnj->abij
  ⟨1/2, [g_aaaa [nₒ, mₒ, iₒ, lₒ], l2_abab [lₒ, kₒ, cᵥ, dᵥ], t2_abab [cᵥ, dᵥ, mₒ, kₒ], t2_abab [aᵥ, bᵥ, nₒ, jₒ]], [(1, [aᵥ, bᵥ, iₒ, jₒ])]⟩,
  -- line 1761: nmil,kldc,dckm,abnj->abij
  ⟨1/2, [g_abab [nₒ, mₒ, iₒ, lₒ], l2_bbbb [kₒ, lₒ, dᵥ, cᵥ], t2_bbbb [dᵥ, cᵥ, kₒ, mₒ], t2_abab [aᵥ, bᵥ, nₒ, jₒ]], [(1, [aᵥ, bᵥ, iₒ, jₒ])]⟩,
  -- line 1764: mnlj,kldc,dcim,abkn->abij
  ⟨-1/2, [g_abab [mₒ, nₒ, lₒ, jₒ], l2_aaaa [kₒ, lₒ, dᵥ, cᵥ], t2_aaaa [dᵥ, cᵥ, iₒ, mₒ], t2_abab [aᵥ, bᵥ, kₒ, nₒ]], [(1, [aᵥ, bᵥ, iₒ, jₒ])]⟩,
  -- line 1767: nmjl,kldc,dcim,abkn->abij
  ⟨-1/2, [g_bbbb [nₒ, mₒ, jₒ, lₒ], l2_abab [kₒ, lₒ, dᵥ, cᵥ], t2_abab [dᵥ, cᵥ, iₒ, mₒ], t2_abab [aᵥ, bᵥ, kₒ, nₒ]], [(1, [aᵥ, bᵥ, iₒ, jₒ])]⟩,
  -- line 1770: nmjl,klcd,cdim,abkn->abij
  ⟨-1/2, [g_bbbb [nₒ, mₒ, jₒ, lₒ], l2_abab [kₒ, lₒ, cᵥ, dᵥ], t2_abab [cᵥ, dᵥ, iₒ, mₒ], t2_abab [aᵥ, bᵥ, kₒ, nₒ]], [(1, [aᵥ, bᵥ, iₒ, jₒ])]⟩,
  -- line 1773: nmlj,lkdc,dcim,abnk->abij
  ⟨1/2, [g_abab [nₒ, mₒ, lₒ, jₒ], l2_abab [lₒ, kₒ, dᵥ, cᵥ], t2_abab [dᵥ, cᵥ, iₒ, mₒ], t2_abab [aᵥ, bᵥ, nₒ, kₒ]], [(1, [aᵥ, bᵥ, iₒ, jₒ])]⟩,
  -- line 1776: nmlj,lkcd,cdim,abnk->abij
  ⟨1/2, [g_abab [nₒ, mₒ, lₒ, jₒ], l2_abab [lₒ, kₒ, cᵥ, dᵥ], t2_abab [cᵥ, dᵥ, iₒ, mₒ], t2_abab [aᵥ, bᵥ, nₒ, kₒ]], [(1, [aᵥ, bᵥ, iₒ, jₒ])]⟩,
  -- line 1779: mnil,kldc,dcmj,abkn->abij
  ⟨1/2, [g_abab [mₒ, nₒ, iₒ, lₒ], l2_abab [kₒ, lₒ, dᵥ, cᵥ], t2_abab [dᵥ, cᵥ, mₒ, jₒ], t2_abab [aᵥ, bᵥ, kₒ, nₒ]], [(1, [aᵥ, bᵥ, iₒ, jₒ])]⟩,
  -- line 1782: mnil,klcd,cdmj,abkn->abij
  ⟨1/2, [g_abab [mₒ, nₒ, iₒ, lₒ], l2_abab [kₒ, lₒ, cᵥ, dᵥ], t2_abab [cᵥ, dᵥ, mₒ, jₒ], t2_abab [aᵥ, bᵥ, kₒ, nₒ]], [(1, [aᵥ, bᵥ, iₒ, jₒ])]⟩,
  -- line 1785: nmil,lkdc,dcmj,abnk->abij
  ⟨-1/2, [g_aaaa [nₒ, mₒ, iₒ, lₒ], l2_abab [lₒ, kₒ, dᵥ, cᵥ], t2_abab [dᵥ, cᵥ, mₒ, jₒ], t2_abab [aᵥ, bᵥ, nₒ, kₒ]], [(1, [aᵥ, bᵥ, iₒ, jₒ])]⟩,
  -- line 1788: nmil,lkcd,cdmj,abnk->abij
  ⟨-1/2, [g_aaaa [nₒ, mₒ, iₒ, lₒ], l2_abab [lₒ, kₒ, cᵥ, dᵥ], t2_abab [cᵥ, dᵥ, mₒ, jₒ], t2_abab [aᵥ, bᵥ, nₒ, kₒ]], [(1, [aᵥ, bᵥ, iₒ, jₒ])]⟩,
  -- line 1791: nmil,kldc,dcjm,abnk->abij
  ⟨-1/2, [g_abab [nₒ, mₒ, iₒ, lₒ], l2_bbbb [kₒ, lₒ, dᵥ, cᵥ], t2_bbbb [dᵥ, cᵥ, jₒ, mₒ], t2_abab [aᵥ, bᵥ, nₒ, kₒ]], [(1, [aᵥ, bᵥ, iₒ, jₒ])]⟩
  ]

/-- Part 1 of `test_t2_abab`. -/
def test_t2_abab_1 : Prog := [
  -- line 1794: mnlj,kldc,dakm,cbin->abij
  ⟨-1, [g_abab [mₒ, nₒ, lₒ, jₒ], l2_aaaa [kₒ, lₒ, dᵥ, cᵥ], t2_aaaa [dᵥ, aᵥ, kₒ, mₒ], t2_abab [cᵥ, bᵥ, iₒ, nₒ]], [(1, [aᵥ, bᵥ, iₒ, jₒ])]⟩,
  -- line 1797: nmjl,klcd,adkm,cbin->abij
  ⟨-1, [g_bbbb [nₒ, mₒ, jₒ, lₒ], l2_abab [kₒ, lₒ, cᵥ, dᵥ], t2_abab [aᵥ, dᵥ, kₒ, mₒ], t2_abab [cᵥ, bᵥ, iₒ, nₒ]], [(1, [aᵥ, bᵥ, iₒ, jₒ])]⟩,
  -- line 1800: mnlj,lkcd,admk,cbin->abij
  ⟨-1, [g_abab [mₒ, nₒ, lₒ, jₒ], l2_abab [lₒ, kₒ, cᵥ, dᵥ], t2_abab [aᵥ, dᵥ, mₒ, kₒ], t2_abab [cᵥ, bᵥ, iₒ, nₒ]], [(1, [aᵥ, bᵥ, iₒ, jₒ])]⟩,
  -- line 1803: nmil,kldc,dakm,cbnj->abij
  ⟨-1, [g_aaaa [nₒ, mₒ, iₒ, lₒ], l2_aaaa [kₒ, lₒ, dᵥ, cᵥ], t2_aaaa [dᵥ, aᵥ, kₒ, mₒ], t2_abab [cᵥ, bᵥ, nₒ, jₒ]], [(1, [aᵥ, bᵥ, iₒ, jₒ])]⟩,
  -- line 1806: mnil,kldc,dakm,cbjn->abij
  ⟨-1, [g_abab [mₒ, nₒ, iₒ, lₒ], l2_abab [kₒ, lₒ, dᵥ, cᵥ], t2_aaaa [dᵥ, aᵥ, kₒ, mₒ], t2_bbbb [cᵥ, bᵥ, jₒ, nₒ]], [(1, [aᵥ, bᵥ, iₒ, jₒ])]⟩,
  -- line 1809: nmil,klcd,adkm,cbnj->abij
  ⟨-1, [g_abab [nₒ, mₒ, iₒ, lₒ], l2_abab [kₒ, lₒ, cᵥ, dᵥ], t2_abab [aᵥ, dᵥ, kₒ, mₒ], t2_abab [cᵥ, bᵥ, nₒ, jₒ]], [(1, [aᵥ, bᵥ, iₒ, jₒ])]⟩,
  -- line 1812: nmil,lkcd,admk,cbnj->abij
  ⟨-1, [g_aaaa [nₒ, mₒ, iₒ, lₒ], l2_abab [lₒ, kₒ, cᵥ, dᵥ], t2_abab [aᵥ, dᵥ, mₒ, kₒ], t2_abab [cᵥ, bᵥ, nₒ, jₒ]], [(1, [aᵥ, bᵥ, iₒ, jₒ])]⟩,
  -- line 1815: mnil,kldc,admk,cbjn->abij
  ⟨-1, [g_abab [mₒ, nₒ, iₒ, lₒ], l2_bbbb [kₒ, lₒ, dᵥ, cᵥ], t2_abab [aᵥ, dᵥ, mₒ, kₒ], t2_bbbb [cᵥ, bᵥ, jₒ, nₒ]], [(1, [aᵥ, bᵥ, iₒ, jₒ])]⟩,
  -- line 1818: mnlj,kldc,daim,cbkn->abij
  ⟨1, [g_abab [mₒ, nₒ, lₒ, jₒ], l2_aaaa [kₒ, lₒ, dᵥ, cᵥ], t2_aaaa [dᵥ, aᵥ, iₒ, mₒ], t2_abab [cᵥ, bᵥ, kₒ, nₒ]], [(1, [aᵥ, bᵥ, iₒ, jₒ])]⟩,
  -- line 1821: nmjl,klcd,adim,cbkn->abij
  ⟨1, [g_bbbb [nₒ, mₒ, jₒ, lₒ], l2_abab [kₒ, lₒ, cᵥ, dᵥ], t2_abab [aᵥ, dᵥ, iₒ, mₒ], t2_abab [cᵥ, bᵥ, kₒ, nₒ]], [(1, [aᵥ, bᵥ, iₒ, jₒ])]⟩,
  -- line 1824: mnlj,lkdc,daim,cbkn->abij
  ⟨-1, [g_abab [mₒ, nₒ, lₒ, jₒ], l2_abab [lₒ, kₒ, dᵥ, cᵥ], t2_aaaa [dᵥ, aᵥ, iₒ, mₒ], t2_bbbb [cᵥ, bᵥ, kₒ, nₒ]], [(1, [aᵥ, bᵥ, iₒ, jₒ])]⟩,
  -- line 1827: nmlj,lkcd,adim,cbnk->abij
  ⟨-1, [g_abab [nₒ, mₒ, lₒ, jₒ], l2_abab [lₒ, kₒ, cᵥ, dᵥ], t2_abab [aᵥ, dᵥ, iₒ, mₒ], t2_abab [cᵥ, bᵥ, nₒ, kₒ]], [(1, [aᵥ, bᵥ, iₒ, jₒ])]⟩,
  -- line 1830: nmjl,kldc,adim,cbkn->abij
  ⟨-1, [g_bbbb [nₒ, mₒ, jₒ, lₒ], l2_bbbb [kₒ, lₒ, dᵥ, cᵥ], t2_abab [aᵥ, dᵥ, iₒ, mₒ], t2_bbbb [cᵥ, bᵥ, kₒ, nₒ]], [(1, [aᵥ, bᵥ, iₒ, jₒ])]⟩,
  -- line 1833: mnil,klcd,admj,cbkn->abij
  ⟨-1, [g_abab [mₒ, nₒ, iₒ, lₒ], l2_abab [kₒ, lₒ, cᵥ, dᵥ], t2_abab [aᵥ, dᵥ, mₒ, jₒ], t2_abab [cᵥ, bᵥ, kₒ, nₒ]], [(1, [aᵥ, bᵥ, iₒ, jₒ])]⟩,
  -- line 1836: nmil,lkcd,admj,cbnk->abij
  ⟨1, [g_aaaa [nₒ, mₒ, iₒ, lₒ], l2_abab [lₒ, kₒ, cᵥ, dᵥ], t2_abab [aᵥ, dᵥ, mₒ, jₒ], t2_abab [cᵥ, bᵥ, nₒ, kₒ]], [(1, [aᵥ, bᵥ, iₒ, jₒ])]⟩,
  -- line 1839: mnil,kldc,admj,cbkn->abij
  ⟨1, [g_abab [mₒ, nₒ, iₒ, lₒ], l2_bbbb [kₒ, lₒ, dᵥ, cᵥ], t2_abab [aᵥ, dᵥ, mₒ, jₒ], t2_bbbb [cᵥ, bᵥ, kₒ, nₒ]], [(1, [aᵥ, bᵥ, iₒ, jₒ])]⟩,
  -- line 1842: mnij,kldc,dclm,abkn->abij
  ⟨1/2, [g_abab [mₒ, nₒ, iₒ, jₒ], l2_aaaa [kₒ, lₒ, dᵥ, cᵥ], t2_aaaa [dᵥ, cᵥ, lₒ, mₒ], t2_abab [aᵥ, bᵥ, kₒ, nₒ]], [(1, [aᵥ, bᵥ, iₒ, jₒ])]⟩,
  -- line 1845: mnij,kldc,dcml,abkn->abij
  ⟨-1/2, [g_abab [mₒ, nₒ, iₒ, jₒ], l2_abab [kₒ, lₒ, dᵥ, cᵥ], t2_abab [dᵥ, cᵥ, mₒ, lₒ], t2_abab [aᵥ, bᵥ, kₒ, nₒ]], [(1, [aᵥ, bᵥ, iₒ, jₒ])]⟩,
  -- line 1848: mnij,klcd,cdml,abkn->abij
  ⟨-1/2, [g_abab [mₒ, nₒ, iₒ, jₒ], l2_abab [kₒ, lₒ, cᵥ, dᵥ], t2_abab [cᵥ, dᵥ, mₒ, lₒ], t2_abab [aᵥ, bᵥ, kₒ, nₒ]], [(1, [aᵥ, bᵥ, iₒ, jₒ])]⟩,
  -- line 1851: nmij,lkdc,dclm,abnk->abij
  ⟨-1/2, [g_abab [nₒ, mₒ, iₒ, jₒ], l2_abab [lₒ, kₒ, dᵥ, cᵥ], t2_abab [dᵥ, cᵥ, lₒ, mₒ], t2_abab [aᵥ, bᵥ, nₒ, kₒ]], [(1, [aᵥ, bᵥ, iₒ, jₒ])]⟩,
  -- line 1854: nmij,lkcd,cdlm,abnk->abij
  ⟨-1/2, [g_abab [nₒ, mₒ, iₒ, jₒ], l2_abab [lₒ, kₒ, cᵥ, dᵥ], t2_abab [cᵥ, dᵥ, lₒ, mₒ], t2_abab [aᵥ, bᵥ, nₒ, kₒ]], [(1, [aᵥ, bᵥ, iₒ, jₒ])]⟩,
  -- line 1857: nmij,kldc,dclm,abnk->abij
  ⟨1/2, [g_abab [nₒ, mₒ, iₒ, jₒ], l2_bbbb [kₒ, lₒ, dᵥ, cᵥ], t2_bbbb [dᵥ, cᵥ, lₒ, mₒ], t2_abab [aᵥ, bᵥ, nₒ, kₒ]], [(1, [aᵥ, bᵥ, iₒ, jₒ])]⟩,
  -- line 1860: mnij,kldc,dalm,cbkn->abij
  ⟨-1/2, [g_abab [mₒ, nₒ, iₒ, jₒ], l2_aaaa [kₒ, lₒ, dᵥ, cᵥ], t2_aaaa [dᵥ, aᵥ, lₒ, mₒ], t2_abab [cᵥ, bᵥ, kₒ, nₒ]], [(1, [aᵥ, bᵥ, iₒ, jₒ])]⟩,
  -- line 1863: mnij,klcd,adml,cbkn->abij
  ⟨1/2, [g_abab [mₒ, nₒ, iₒ, jₒ], l2_abab [kₒ, lₒ, cᵥ, dᵥ], t2_abab [aᵥ, dᵥ, mₒ, lₒ], t2_abab [cᵥ, bᵥ, kₒ, nₒ]], [(1, [aᵥ, bᵥ, iₒ, jₒ])]⟩,
  -- line 1866: mnij,lkdc,dalm,cbkn->abij
  ⟨1/2, [g_abab [mₒ, nₒ, iₒ, jₒ], l2_abab [lₒ, kₒ, dᵥ, cᵥ], t2_aaaa [dᵥ, aᵥ, lₒ, mₒ], t2_bbbb [cᵥ, bᵥ, kₒ, nₒ]], [(1, [aᵥ, bᵥ, iₒ, jₒ])]⟩,
  -- line 1869: nmij,lkcd,adlm,cbnk->abij
  ⟨1/2, [g_abab [nₒ, mₒ, iₒ, jₒ], l2_abab [lₒ, kₒ, cᵥ, dᵥ], t2_abab [aᵥ, dᵥ, lₒ, mₒ], t2_abab [cᵥ, bᵥ, nₒ, kₒ]], [(1, [aᵥ, bᵥ, iₒ, jₒ])]⟩,
  -- line 1872: mnij,kldc,adml,cbkn->abij
  ⟨-1/2, [g_abab [mₒ, nₒ, iₒ, jₒ], l2_bbbb [kₒ, lₒ, dᵥ, cᵥ], t2_abab [aᵥ, dᵥ, mₒ, lₒ], t2_bbbb [cᵥ, bᵥ, kₒ, nₒ]], [(1, [aᵥ, bᵥ, iₒ, jₒ])]⟩,
  -- line 1875: nmij,kldc,dblm,cakn->abij
  ⟨-1/2, [g_abab [nₒ, mₒ, iₒ, jₒ], l2_aaaa [kₒ, lₒ, dᵥ, cᵥ], t2_abab [dᵥ, bᵥ, lₒ, mₒ], t2_aaaa [cᵥ, aᵥ, kₒ, nₒ]], [(1, [aᵥ, bᵥ, iₒ, jₒ])]⟩,
  -- line 1878: mnij,kldc,dbml,ackn->abij
  ⟨1/2, [g_abab [mₒ, nₒ, iₒ, jₒ], l2_abab [kₒ, lₒ, dᵥ, cᵥ], t2_abab [dᵥ, bᵥ, mₒ, lₒ], t2_abab [aᵥ, cᵥ, kₒ, nₒ]], [(1, [aᵥ, bᵥ, iₒ, jₒ])]⟩,
  -- line 1881: nmij,klcd,dblm,cakn->abij
  ⟨1/2, [g_abab [nₒ, mₒ, iₒ, jₒ], l2_abab [kₒ, lₒ, cᵥ, dᵥ], t2_bbbb [dᵥ, bᵥ, lₒ, mₒ], t2_aaaa [cᵥ, aᵥ, kₒ, nₒ]], [(1, [aᵥ, bᵥ, iₒ, jₒ])]⟩,
  -- line 1884: nmij,lkdc,dblm,acnk->abij
  ⟨1/2, [g_abab [nₒ, mₒ, iₒ, jₒ], l2_abab [lₒ, kₒ, dᵥ, cᵥ], t2_abab [dᵥ, bᵥ, lₒ, mₒ], t2_abab [aᵥ, cᵥ, nₒ, kₒ]], [(1, [aᵥ, bᵥ, iₒ, jₒ])]⟩,
  -- line 1887: nmij,kldc,dblm,acnk->abij
  ⟨-1/2, [g_abab [nₒ, mₒ, iₒ, jₒ], l2_bbbb [kₒ, lₒ, dᵥ, cᵥ], t2_bbbb [dᵥ, bᵥ, lₒ, mₒ], t2_abab [aᵥ, cᵥ, nₒ, kₒ]], [(1, [aᵥ, bᵥ, iₒ, jₒ])]⟩,
  -- line 1890: dmle,kldc,cekj,abim->abij
  ⟨1, [g_abab [dᵥ, mₒ, lₒ, eᵥ], l2_aaaa [kₒ, lₒ, dᵥ, cᵥ], t2_abab [cᵥ, eᵥ, kₒ, jₒ], t2_abab [aᵥ, bᵥ, iₒ, mₒ]], [(1, [aᵥ, bᵥ, iₒ, jₒ])]⟩,
  -- line 1893: dmel,kldc,eckj,abim->abij
  ⟨1, [g_abab [dᵥ, mₒ, eᵥ, lₒ], l2_abab [kₒ, lₒ, dᵥ, cᵥ], t2_abab [eᵥ, cᵥ, kₒ, jₒ], t2_abab [aᵥ, bᵥ, iₒ, mₒ]], [(1, [aᵥ, bᵥ, iₒ, jₒ])]⟩,
  -- line 1896: mdel,klcd,cekj,abim->abij
  ⟨-1, [g_bbbb [mₒ, dᵥ, eᵥ, lₒ], l2_abab [kₒ, lₒ, cᵥ, dᵥ], t2_abab [cᵥ, eᵥ, kₒ, jₒ], t2_abab [aᵥ, bᵥ, iₒ, mₒ]], [(1, [aᵥ, bᵥ, iₒ, jₒ])]⟩,
  -- line 1899: dmle,lkdc,ecjk,abim->abij
  ⟨-1, [g_abab [dᵥ, mₒ, lₒ, eᵥ], l2_abab [lₒ, kₒ, dᵥ, cᵥ], t2_bbbb [eᵥ, cᵥ, jₒ, kₒ], t2_abab [aᵥ, bᵥ, iₒ, mₒ]], [(1, [aᵥ, bᵥ, iₒ, jₒ])]⟩,
  -- line 1902: mdel,kldc,ecjk,abim->abij
  ⟨1, [g_bbbb [mₒ, dᵥ, eᵥ, lₒ], l2_bbbb [kₒ, lₒ, dᵥ, cᵥ], t2_bbbb [eᵥ, cᵥ, jₒ, kₒ], t2_abab [aᵥ, bᵥ, iₒ, mₒ]], [(1, [aᵥ, bᵥ, iₒ, jₒ])]⟩,
  -- line 1905: mdel,kldc,ecik,abmj->abij
  ⟨1, [g_aaaa [mₒ, dᵥ, eᵥ, lₒ], l2_aaaa [kₒ, lₒ, dᵥ, cᵥ], t2_aaaa [eᵥ, cᵥ, iₒ, kₒ], t2_abab [aᵥ, bᵥ, mₒ, jₒ]], [(1, [aᵥ, bᵥ, iₒ, jₒ])]⟩,
  -- line 1908: mdel,klcd,ecik,abmj->abij
  ⟨-1, [g_abab [mₒ, dᵥ, eᵥ, lₒ], l2_abab [kₒ, lₒ, cᵥ, dᵥ], t2_aaaa [eᵥ, cᵥ, iₒ, kₒ], t2_abab [aᵥ, bᵥ, mₒ, jₒ]], [(1, [aᵥ, bᵥ, iₒ, jₒ])]⟩,
  -- line 1911: mdel,lkdc,ecik,abmj->abij
  ⟨-1, [g_aaaa [mₒ, dᵥ, eᵥ, lₒ], l2_abab [lₒ, kₒ, dᵥ, cᵥ], t2_abab [eᵥ, cᵥ, iₒ, kₒ], t2_abab [aᵥ, bᵥ, mₒ, jₒ]], [(1, [aᵥ, bᵥ, iₒ, jₒ])]⟩
  ]

/-- Part 2 of `test_t2_abab`. -/
def test_t2_abab_2 : Prog := [
  -- line 1914: mdle,lkcd,ceik,abmj->abij
  ⟨1, [g_abab [mₒ, dᵥ, lₒ, eᵥ], l2_abab [lₒ, kₒ, cᵥ, dᵥ], t2_abab [cᵥ, eᵥ, iₒ, kₒ], t2_abab [aᵥ, bᵥ, mₒ, jₒ]], [(1, [aᵥ, bᵥ, iₒ, jₒ])]⟩,
  -- line 1917: mdel,kldc,ecik,abmj->abij
  ⟨1, [g_abab [mₒ, dᵥ, eᵥ, lₒ], l2_bbbb [kₒ, lₒ, dᵥ, cᵥ], t2_abab [eᵥ, cᵥ, iₒ, kₒ], t2_abab [aᵥ, bᵥ, mₒ, jₒ]], [(1, [aᵥ, bᵥ, iₒ, jₒ])]⟩,
  -- line 1920: dmle,kldc,ceij,abkm->abij
  ⟨-1, [g_abab [dᵥ, mₒ, lₒ, eᵥ], l2_aaaa [kₒ, lₒ, dᵥ, cᵥ], t2_abab [cᵥ, eᵥ, iₒ, jₒ], t2_abab [aᵥ, bᵥ, kₒ, mₒ]], [(1, [aᵥ, bᵥ, iₒ, jₒ])]⟩,
  -- line 1923: dmel,kldc,ecij,abkm->abij
  ⟨-1, [g_abab [dᵥ, mₒ, eᵥ, lₒ], l2_abab [kₒ, lₒ, dᵥ, cᵥ], t2_abab [eᵥ, cᵥ, iₒ, jₒ], t2_abab [aᵥ, bᵥ, kₒ, mₒ]], [(1, [aᵥ, bᵥ, iₒ, jₒ])]⟩,
  -- line 1926: mdel,klcd,ceij,abkm->abij
  ⟨1, [g_bbbb [mₒ, dᵥ, eᵥ, lₒ], l2_abab [kₒ, lₒ, cᵥ, dᵥ], t2_abab [cᵥ, eᵥ, iₒ, jₒ], t2_abab [aᵥ, bᵥ, kₒ, mₒ]], [(1, [aᵥ, bᵥ, iₒ, jₒ])]⟩,
  -- line 1929: mdel,lkdc,ecij,abmk->abij
  ⟨1, [g_aaaa [mₒ, dᵥ, eᵥ, lₒ], l2_abab [lₒ, kₒ, dᵥ, cᵥ], t2_abab [eᵥ, cᵥ, iₒ, jₒ], t2_abab [aᵥ, bᵥ, mₒ, kₒ]], [(1, [aᵥ, bᵥ, iₒ, jₒ])]⟩,
  -- line 1932: mdle,lkcd,ceij,abmk->abij
  ⟨-1, [g_abab [mₒ, dᵥ, lₒ, eᵥ], l2_abab [lₒ, kₒ, cᵥ, dᵥ], t2_abab [cᵥ, eᵥ, iₒ, jₒ], t2_abab [aᵥ, bᵥ, mₒ, kₒ]], [(1, [aᵥ, bᵥ, iₒ, jₒ])]⟩,
  -- line 1935: mdel,kldc,ecij,abmk->abij
  ⟨-1, [g_abab [mₒ, dᵥ, eᵥ, lₒ], l2_bbbb [kₒ, lₒ, dᵥ, cᵥ], t2_abab [eᵥ, cᵥ, iₒ, jₒ], t2_abab [aᵥ, bᵥ, mₒ, kₒ]], [(1, [aᵥ, bᵥ, iₒ, jₒ])]⟩,
  -- line 1938: dmle,kldc,aekj,cbim->abij
  ⟨-1, [g_abab [dᵥ, mₒ, lₒ, eᵥ], l2_aaaa [kₒ, lₒ, dᵥ, cᵥ], t2_abab [aᵥ, eᵥ, kₒ, jₒ], t2_abab [cᵥ, bᵥ, iₒ, mₒ]], [(1, [aᵥ, bᵥ, iₒ, jₒ])]⟩,
  -- line 1941: mdel,klcd,aekj,cbim->abij
  ⟨1, [g_bbbb [mₒ, dᵥ, eᵥ, lₒ], l2_abab [kₒ, lₒ, cᵥ, dᵥ], t2_abab [aᵥ, eᵥ, kₒ, jₒ], t2_abab [cᵥ, bᵥ, iₒ, mₒ]], [(1, [aᵥ, bᵥ, iₒ, jₒ])]⟩,
  -- line 1944: mdel,kldc,ebkj,caim->abij
  ⟨-1, [g_aaaa [mₒ, dᵥ, eᵥ, lₒ], l2_aaaa [kₒ, lₒ, dᵥ, cᵥ], t2_abab [eᵥ, bᵥ, kₒ, jₒ], t2_aaaa [cᵥ, aᵥ, iₒ, mₒ]], [(1, [aᵥ, bᵥ, iₒ, jₒ])]⟩,
  -- line 1947: dmel,kldc,ebkj,acim->abij
  ⟨-1, [g_abab [dᵥ, mₒ, eᵥ, lₒ], l2_abab [kₒ, lₒ, dᵥ, cᵥ], t2_abab [eᵥ, bᵥ, kₒ, jₒ], t2_abab [aᵥ, cᵥ, iₒ, mₒ]], [(1, [aᵥ, bᵥ, iₒ, jₒ])]⟩,
  -- line 1950: mdel,klcd,ebkj,caim->abij
  ⟨1, [g_abab [mₒ, dᵥ, eᵥ, lₒ], l2_abab [kₒ, lₒ, cᵥ, dᵥ], t2_abab [eᵥ, bᵥ, kₒ, jₒ], t2_aaaa [cᵥ, aᵥ, iₒ, mₒ]], [(1, [aᵥ, bᵥ, iₒ, jₒ])]⟩,
  -- line 1953: dmle,lkdc,ebjk,acim->abij
  ⟨1, [g_abab [dᵥ, mₒ, lₒ, eᵥ], l2_abab [lₒ, kₒ, dᵥ, cᵥ], t2_bbbb [eᵥ, bᵥ, jₒ, kₒ], t2_abab [aᵥ, cᵥ, iₒ, mₒ]], [(1, [aᵥ, bᵥ, iₒ, jₒ])]⟩,
  -- line 1956: mdle,lkcd,ebjk,caim->abij
  ⟨-1, [g_abab [mₒ, dᵥ, lₒ, eᵥ], l2_abab [lₒ, kₒ, cᵥ, dᵥ], t2_bbbb [eᵥ, bᵥ, jₒ, kₒ], t2_aaaa [cᵥ, aᵥ, iₒ, mₒ]], [(1, [aᵥ, bᵥ, iₒ, jₒ])]⟩,
  -- line 1959: mdel,kldc,ebjk,acim->abij
  ⟨-1, [g_bbbb [mₒ, dᵥ, eᵥ, lₒ], l2_bbbb [kₒ, lₒ, dᵥ, cᵥ], t2_bbbb [eᵥ, bᵥ, jₒ, kₒ], t2_abab [aᵥ, cᵥ, iₒ, mₒ]], [(1, [aᵥ, bᵥ, iₒ, jₒ])]⟩,
  -- line 1962: mdel,kldc,eaik,cbmj->abij
  ⟨-1, [g_aaaa [mₒ, dᵥ, eᵥ, lₒ], l2_aaaa [kₒ, lₒ, dᵥ, cᵥ], t2_aaaa [eᵥ, aᵥ, iₒ, kₒ], t2_abab [cᵥ, bᵥ, mₒ, jₒ]], [(1, [aᵥ, bᵥ, iₒ, jₒ])]⟩,
  -- line 1965: dmel,kldc,eaik,cbjm->abij
  ⟨-1, [g_abab [dᵥ, mₒ, eᵥ, lₒ], l2_abab [kₒ, lₒ, dᵥ, cᵥ], t2_aaaa [eᵥ, aᵥ, iₒ, kₒ], t2_bbbb [cᵥ, bᵥ, jₒ, mₒ]], [(1, [aᵥ, bᵥ, iₒ, jₒ])]⟩,
  -- line 1968: mdel,klcd,eaik,cbmj->abij
  ⟨1, [g_abab [mₒ, dᵥ, eᵥ, lₒ], l2_abab [kₒ, lₒ, cᵥ, dᵥ], t2_aaaa [eᵥ, aᵥ, iₒ, kₒ], t2_abab [cᵥ, bᵥ, mₒ, jₒ]], [(1, [aᵥ, bᵥ, iₒ, jₒ])]⟩,
  -- line 1971: dmle,lkdc,aeik,cbjm->abij
  ⟨1, [g_abab [dᵥ, mₒ, lₒ, eᵥ], l2_abab [lₒ, kₒ, dᵥ, cᵥ], t2_abab [aᵥ, eᵥ, iₒ, kₒ], t2_bbbb [cᵥ, bᵥ, jₒ, mₒ]], [(1, [aᵥ, bᵥ, iₒ, jₒ])]⟩,
  -- line 1974: mdle,lkcd,aeik,cbmj->abij
  ⟨-1, [g_abab [mₒ, dᵥ, lₒ, eᵥ], l2_abab [lₒ, kₒ, cᵥ, dᵥ], t2_abab [aᵥ, eᵥ, iₒ, kₒ], t2_abab [cᵥ, bᵥ, mₒ, jₒ]], [(1, [aᵥ, bᵥ, iₒ, jₒ])]⟩,
  -- line 1977: mdel,kldc,aeik,cbjm->abij
  ⟨-1, [g_bbbb [mₒ, dᵥ, eᵥ, lₒ], l2_bbbb [kₒ, lₒ, dᵥ, cᵥ], t2_abab [aᵥ, eᵥ, iₒ, kₒ], t2_bbbb [cᵥ, bᵥ, jₒ, mₒ]], [(1, [aᵥ, bᵥ, iₒ, jₒ])]⟩,
  -- line 1980: mdel,lkdc,ebik,acmj->abij
  ⟨1, [g_aaaa [mₒ, dᵥ, eᵥ, lₒ], l2_abab [lₒ, kₒ, dᵥ, cᵥ], t2_abab [eᵥ, bᵥ, iₒ, kₒ], t2_abab [aᵥ, cᵥ, mₒ, jₒ]], [(1, [aᵥ, bᵥ, iₒ, jₒ])]⟩,
  -- line 1983: mdel,kldc,ebik,acmj->abij
  ⟨-1, [g_abab [mₒ, dᵥ, eᵥ, lₒ], l2_bbbb [kₒ, lₒ, dᵥ, cᵥ], t2_abab [eᵥ, bᵥ, iₒ, kₒ], t2_abab [aᵥ, cᵥ, mₒ, jₒ]], [(1, [aᵥ, bᵥ, iₒ, jₒ])]⟩,
  -- line 1986: dmle,kldc,aeij,cbkm->abij
  ⟨1, [g_abab [dᵥ, mₒ, lₒ, eᵥ], l2_aaaa [kₒ, lₒ, dᵥ, cᵥ], t2_abab [aᵥ, eᵥ, iₒ, jₒ], t2_abab [cᵥ, bᵥ, kₒ, mₒ]], [(1, [aᵥ, bᵥ, iₒ, jₒ])]⟩,
  -- line 1989: mdel,klcd,aeij,cbkm->abij
  ⟨-1, [g_bbbb [mₒ, dᵥ, eᵥ, lₒ], l2_abab [kₒ, lₒ, cᵥ, dᵥ], t2_abab [aᵥ, eᵥ, iₒ, jₒ], t2_abab [cᵥ, bᵥ, kₒ, mₒ]], [(1, [aᵥ, bᵥ, iₒ, jₒ])]⟩,
  -- line 1992: dmle,lkdc,aeij,cbkm->abij
  ⟨-1, [g_abab [dᵥ, mₒ, lₒ, eᵥ], l2_abab [lₒ, kₒ, dᵥ, cᵥ], t2_abab [aᵥ, eᵥ, iₒ, jₒ], t2_bbbb [cᵥ, bᵥ, kₒ, mₒ]], [(1, [aᵥ, bᵥ, iₒ, jₒ])]⟩,
  -- line 1995: mdle,lkcd,aeij,cbmk->abij
  ⟨1, [g_abab [mₒ, dᵥ, lₒ, eᵥ], l2_abab [lₒ, kₒ, cᵥ, dᵥ], t2_abab [aᵥ, eᵥ, iₒ, jₒ], t2_abab [cᵥ, bᵥ, mₒ, kₒ]], [(1, [aᵥ, bᵥ, iₒ, jₒ])]⟩,
  -- line 1998: mdel,kldc,aeij,cbkm->abij
  ⟨1, [g_bbbb [mₒ, dᵥ, eᵥ, lₒ], l2_bbbb [kₒ, lₒ, dᵥ, cᵥ], t2_abab [aᵥ, eᵥ, iₒ, jₒ], t2_bbbb [cᵥ, bᵥ, kₒ, mₒ]], [(1, [aᵥ, bᵥ, iₒ, jₒ])]⟩,
  -- line 2001: mdel,kldc,ebij,cakm->abij
  ⟨1, [g_aaaa [mₒ, dᵥ, eᵥ, lₒ], l2_aaaa [kₒ, lₒ, dᵥ, cᵥ], t2_abab [eᵥ, bᵥ, iₒ, jₒ], t2_aaaa [cᵥ, aᵥ, kₒ, mₒ]], [(1, [aᵥ, bᵥ, iₒ, jₒ])]⟩,
  -- line 2004: dmel,kldc,ebij,ackm->abij
  ⟨1, [g_abab [dᵥ, mₒ, eᵥ, lₒ], l2_abab [kₒ, lₒ, dᵥ, cᵥ], t2_abab [eᵥ, bᵥ, iₒ, jₒ], t2_abab [aᵥ, cᵥ, kₒ, mₒ]], [(1, [aᵥ, bᵥ, iₒ, jₒ])]⟩,
  -- line 2007: mdel,klcd,ebij,cakm->abij
  ⟨-1, [g_abab [mₒ, dᵥ, eᵥ, lₒ], l2_abab [kₒ, lₒ, cᵥ, dᵥ], t2_abab [eᵥ, bᵥ, iₒ, jₒ], t2_aaaa [cᵥ, aᵥ, kₒ, mₒ]], [(1, [aᵥ, bᵥ, iₒ, jₒ])]⟩,
  -- line 2010: mdel,lkdc,ebij,acmk->abij
  ⟨-1, [g_aaaa [mₒ, dᵥ, eᵥ, lₒ], l2_abab [lₒ, kₒ, dᵥ, cᵥ], t2_abab [eᵥ, bᵥ, iₒ, jₒ], t2_abab [aᵥ, cᵥ, mₒ, kₒ]], [(1, [aᵥ, bᵥ, iₒ, jₒ])]⟩,
  -- line 2013: mdel,kldc,ebij,acmk->abij
  ⟨1, [g_abab [mₒ, dᵥ, eᵥ, lₒ], l2_bbbb [kₒ, lₒ, dᵥ, cᵥ], t2_abab [eᵥ, bᵥ, iₒ, jₒ], t2_abab [aᵥ, cᵥ, mₒ, kₒ]], [(1, [aᵥ, bᵥ, iₒ, jₒ])]⟩,
  -- line 2016: dmej,kldc,eckl,abim->abij
  ⟨-1/2, [g_abab [dᵥ, mₒ, eᵥ, jₒ], l2_aaaa [kₒ, lₒ, dᵥ, cᵥ], t2_aaaa [eᵥ, cᵥ, kₒ, lₒ], t2_abab [aᵥ, bᵥ, iₒ, mₒ]], [(1, [aᵥ, bᵥ, iₒ, jₒ])]⟩,
  -- line 2019: dmej,kldc,eckl,abim->abij
  ⟨-1/2, [g_abab [dᵥ, mₒ, eᵥ, jₒ], l2_abab [kₒ, lₒ, dᵥ, cᵥ], t2_abab [eᵥ, cᵥ, kₒ, lₒ], t2_abab [aᵥ, bᵥ, iₒ, mₒ]], [(1, [aᵥ, bᵥ, iₒ, jₒ])]⟩,
  -- line 2022: mdej,klcd,cekl,abim->abij
  ⟨1/2, [g_bbbb [mₒ, dᵥ, eᵥ, jₒ], l2_abab [kₒ, lₒ, cᵥ, dᵥ], t2_abab [cᵥ, eᵥ, kₒ, lₒ], t2_abab [aᵥ, bᵥ, iₒ, mₒ]], [(1, [aᵥ, bᵥ, iₒ, jₒ])]⟩,
  -- line 2025: dmej,lkdc,eclk,abim->abij
  ⟨-1/2, [g_abab [dᵥ, mₒ, eᵥ, jₒ], l2_abab [lₒ, kₒ, dᵥ, cᵥ], t2_abab [eᵥ, cᵥ, lₒ, kₒ], t2_abab [aᵥ, bᵥ, iₒ, mₒ]], [(1, [aᵥ, bᵥ, iₒ, jₒ])]⟩,
  -- line 2028: mdej,lkcd,celk,abim->abij
  ⟨1/2, [g_bbbb [mₒ, dᵥ, eᵥ, jₒ], l2_abab [lₒ, kₒ, cᵥ, dᵥ], t2_abab [cᵥ, eᵥ, lₒ, kₒ], t2_abab [aᵥ, bᵥ, iₒ, mₒ]], [(1, [aᵥ, bᵥ, iₒ, jₒ])]⟩,
  -- line 2031: mdej,kldc,eckl,abim->abij
  ⟨1/2, [g_bbbb [mₒ, dᵥ, eᵥ, jₒ], l2_bbbb [kₒ, lₒ, dᵥ, cᵥ], t2_bbbb [eᵥ, cᵥ, kₒ, lₒ], t2_abab [aᵥ, bᵥ, iₒ, mₒ]], [(1, [aᵥ, bᵥ, iₒ, jₒ])]⟩
  ]

/-- Part 3 of `test_t2_abab`. -/
def test_t2_abab_3 : Prog := [
  -- line 2034: mdei,kldc,eckl,abmj->abij
  ⟨1/2, [g_aaaa [mₒ, dᵥ, eᵥ, iₒ], l2_aaaa [kₒ, lₒ, dᵥ, cᵥ], t2_aaaa [eᵥ, cᵥ, kₒ, lₒ], t2_abab [aᵥ, bᵥ, mₒ, jₒ]], [(1, [aᵥ, bᵥ, iₒ, jₒ])]⟩,
  -- line 2037: mdei,kldc,eckl,abmj->abij
  ⟨1/2, [g_aaaa [mₒ, dᵥ, eᵥ, iₒ], l2_abab [kₒ, lₒ, dᵥ, cᵥ], t2_abab [eᵥ, cᵥ, kₒ, lₒ], t2_abab [aᵥ, bᵥ, mₒ, jₒ]], [(1, [aᵥ, bᵥ, iₒ, jₒ])]⟩,
  -- line 2040: mdie,klcd,cekl,abmj->abij
  ⟨-1/2, [g_abab [mₒ, dᵥ, iₒ, eᵥ], l2_abab [kₒ, lₒ, cᵥ, dᵥ], t2_abab [cᵥ, eᵥ, kₒ, lₒ], t2_abab [aᵥ, bᵥ, mₒ, jₒ]], [(1, [aᵥ, bᵥ, iₒ, jₒ])]⟩,
  -- line 2043: mdei,lkdc,eclk,abmj->abij
  ⟨1/2, [g_aaaa [mₒ, dᵥ, eᵥ, iₒ], l2_abab [lₒ, kₒ, dᵥ, cᵥ], t2_abab [eᵥ, cᵥ, lₒ, kₒ], t2_abab [aᵥ, bᵥ, mₒ, jₒ]], [(1, [aᵥ, bᵥ, iₒ, jₒ])]⟩,
  -- line 2046: mdie,lkcd,celk,abmj->abij
  ⟨-1/2, [g_abab [mₒ, dᵥ, iₒ, eᵥ], l2_abab [lₒ, kₒ, cᵥ, dᵥ], t2_abab [cᵥ, eᵥ, lₒ, kₒ], t2_abab [aᵥ, bᵥ, mₒ, jₒ]], [(1, [aᵥ, bᵥ, iₒ, jₒ])]⟩,
  -- line 2049: mdie,kldc,eckl,abmj->abij
  ⟨-1/2, [g_abab [mₒ, dᵥ, iₒ, eᵥ], l2_bbbb [kₒ, lₒ, dᵥ, cᵥ], t2_bbbb [eᵥ, cᵥ, kₒ, lₒ], t2_abab [aᵥ, bᵥ, mₒ, jₒ]], [(1, [aᵥ, bᵥ, iₒ, jₒ])]⟩,
  -- line 2052: dmej,kldc,ecil,abkm->abij
  ⟨1, [g_abab [dᵥ, mₒ, eᵥ, jₒ], l2_aaaa [kₒ, lₒ, dᵥ, cᵥ], t2_aaaa [eᵥ, cᵥ, iₒ, lₒ], t2_abab [aᵥ, bᵥ, kₒ, mₒ]], [(1, [aᵥ, bᵥ, iₒ, jₒ])]⟩,
  -- line 2055: dmej,kldc,ecil,abkm->abij
  ⟨1, [g_abab [dᵥ, mₒ, eᵥ, jₒ], l2_abab [kₒ, lₒ, dᵥ, cᵥ], t2_abab [eᵥ, cᵥ, iₒ, lₒ], t2_abab [aᵥ, bᵥ, kₒ, mₒ]], [(1, [aᵥ, bᵥ, iₒ, jₒ])]⟩,
  -- line 2058: mdej,klcd,ceil,abkm->abij
  ⟨-1, [g_bbbb [mₒ, dᵥ, eᵥ, jₒ], l2_abab [kₒ, lₒ, cᵥ, dᵥ], t2_abab [cᵥ, eᵥ, iₒ, lₒ], t2_abab [aᵥ, bᵥ, kₒ, mₒ]], [(1, [aᵥ, bᵥ, iₒ, jₒ])]⟩,
  -- line 2061: mdej,lkcd,ecil,abmk->abij
  ⟨1, [g_abab [mₒ, dᵥ, eᵥ, jₒ], l2_abab [lₒ, kₒ, cᵥ, dᵥ], t2_aaaa [eᵥ, cᵥ, iₒ, lₒ], t2_abab [aᵥ, bᵥ, mₒ, kₒ]], [(1, [aᵥ, bᵥ, iₒ, jₒ])]⟩,
  -- line 2064: mdej,kldc,ecil,abmk->abij
  ⟨1, [g_abab [mₒ, dᵥ, eᵥ, jₒ], l2_bbbb [kₒ, lₒ, dᵥ, cᵥ], t2_abab [eᵥ, cᵥ, iₒ, lₒ], t2_abab [aᵥ, bᵥ, mₒ, kₒ]], [(1, [aᵥ, bᵥ, iₒ, jₒ])]⟩,
  -- line 2067: dmie,kldc,celj,abkm->abij
  ⟨1, [g_abab [dᵥ, mₒ, iₒ, eᵥ], l2_aaaa [kₒ, lₒ, dᵥ, cᵥ], t2_abab [cᵥ, eᵥ, lₒ, jₒ], t2_abab [aᵥ, bᵥ, kₒ, mₒ]], [(1, [aᵥ, bᵥ, iₒ, jₒ])]⟩,
  -- line 2070: dmie,kldc,ecjl,abkm->abij
  ⟨1, [g_abab [dᵥ, mₒ, iₒ, eᵥ], l2_abab [kₒ, lₒ, dᵥ, cᵥ], t2_bbbb [eᵥ, cᵥ, jₒ, lₒ], t2_abab [aᵥ, bᵥ, kₒ, mₒ]], [(1, [aᵥ, bᵥ, iₒ, jₒ])]⟩,
  -- line 2073: mdei,lkdc,eclj,abmk->abij
  ⟨-1, [g_aaaa [mₒ, dᵥ, eᵥ, iₒ], l2_abab [lₒ, kₒ, dᵥ, cᵥ], t2_abab [eᵥ, cᵥ, lₒ, jₒ], t2_abab [aᵥ, bᵥ, mₒ, kₒ]], [(1, [aᵥ, bᵥ, iₒ, jₒ])]⟩,
  -- line 2076: mdie,lkcd,celj,abmk->abij
  ⟨1, [g_abab [mₒ, dᵥ, iₒ, eᵥ], l2_abab [lₒ, kₒ, cᵥ, dᵥ], t2_abab [cᵥ, eᵥ, lₒ, jₒ], t2_abab [aᵥ, bᵥ, mₒ, kₒ]], [(1, [aᵥ, bᵥ, iₒ, jₒ])]⟩,
  -- line 2079: mdie,kldc,ecjl,abmk->abij
  ⟨1, [g_abab [mₒ, dᵥ, iₒ, eᵥ], l2_bbbb [kₒ, lₒ, dᵥ, cᵥ], t2_bbbb [eᵥ, cᵥ, jₒ, lₒ], t2_abab [aᵥ, bᵥ, mₒ, kₒ]], [(1, [aᵥ, bᵥ, iₒ, jₒ])]⟩,
  -- line 2082: dmej,kldc,eakl,cbim->abij
  ⟨1/2, [g_abab [dᵥ, mₒ, eᵥ, jₒ], l2_aaaa [kₒ, lₒ, dᵥ, cᵥ], t2_aaaa [eᵥ, aᵥ, kₒ, lₒ], t2_abab [cᵥ, bᵥ, iₒ, mₒ]], [(1, [aᵥ, bᵥ, iₒ, jₒ])]⟩,
  -- line 2085: mdej,klcd,aekl,cbim->abij
  ⟨-1/2, [g_bbbb [mₒ, dᵥ, eᵥ, jₒ], l2_abab [kₒ, lₒ, cᵥ, dᵥ], t2_abab [aᵥ, eᵥ, kₒ, lₒ], t2_abab [cᵥ, bᵥ, iₒ, mₒ]], [(1, [aᵥ, bᵥ, iₒ, jₒ])]⟩,
  -- line 2088: mdej,lkcd,aelk,cbim->abij
  ⟨-1/2, [g_bbbb [mₒ, dᵥ, eᵥ, jₒ], l2_abab [lₒ, kₒ, cᵥ, dᵥ], t2_abab [aᵥ, eᵥ, lₒ, kₒ], t2_abab [cᵥ, bᵥ, iₒ, mₒ]], [(1, [aᵥ, bᵥ, iₒ, jₒ])]⟩,
  -- line 2091: dmej,kldc,ebkl,acim->abij
  ⟨1/2, [g_abab [dᵥ, mₒ, eᵥ, jₒ], l2_abab [kₒ, lₒ, dᵥ, cᵥ], t2_abab [eᵥ, bᵥ, kₒ, lₒ], t2_abab [aᵥ, cᵥ, iₒ, mₒ]], [(1, [aᵥ, bᵥ, iₒ, jₒ])]⟩,
  -- line 2094: mdej,klcd,ebkl,caim->abij
  ⟨-1/2, [g_abab [mₒ, dᵥ, eᵥ, jₒ], l2_abab [kₒ, lₒ, cᵥ, dᵥ], t2_abab [eᵥ, bᵥ, kₒ, lₒ], t2_aaaa [cᵥ, aᵥ, iₒ, mₒ]], [(1, [aᵥ, bᵥ, iₒ, jₒ])]⟩,
  -- line 2097: dmej,lkdc,eblk,acim->abij
  ⟨1/2, [g_abab [dᵥ, mₒ, eᵥ, jₒ], l2_abab [lₒ, kₒ, dᵥ, cᵥ], t2_abab [eᵥ, bᵥ, lₒ, kₒ], t2_abab [aᵥ, cᵥ, iₒ, mₒ]], [(1, [aᵥ, bᵥ, iₒ, jₒ])]⟩,
  -- line 2100: mdej,lkcd,eblk,caim->abij
  ⟨-1/2, [g_abab [mₒ, dᵥ, eᵥ, jₒ], l2_abab [lₒ, kₒ, cᵥ, dᵥ], t2_abab [eᵥ, bᵥ, lₒ, kₒ], t2_aaaa [cᵥ, aᵥ, iₒ, mₒ]], [(1, [aᵥ, bᵥ, iₒ, jₒ])]⟩,
  -- line 2103: mdej,kldc,ebkl,acim->abij
  ⟨-1/2, [g_bbbb [mₒ, dᵥ, eᵥ, jₒ], l2_bbbb [kₒ, lₒ, dᵥ, cᵥ], t2_bbbb [eᵥ, bᵥ, kₒ, lₒ], t2_abab [aᵥ, cᵥ, iₒ, mₒ]], [(1, [aᵥ, bᵥ, iₒ, jₒ])]⟩,
  -- line 2106: mdei,kldc,eakl,cbmj->abij
  ⟨-1/2, [g_aaaa [mₒ, dᵥ, eᵥ, iₒ], l2_aaaa [kₒ, lₒ, dᵥ, cᵥ], t2_aaaa [eᵥ, aᵥ, kₒ, lₒ], t2_abab [cᵥ, bᵥ, mₒ, jₒ]], [(1, [aᵥ, bᵥ, iₒ, jₒ])]⟩,
  -- line 2109: dmie,kldc,aekl,cbjm->abij
  ⟨-1/2, [g_abab [dᵥ, mₒ, iₒ, eᵥ], l2_abab [kₒ, lₒ, dᵥ, cᵥ], t2_abab [aᵥ, eᵥ, kₒ, lₒ], t2_bbbb [cᵥ, bᵥ, jₒ, mₒ]], [(1, [aᵥ, bᵥ, iₒ, jₒ])]⟩,
  -- line 2112: mdie,klcd,aekl,cbmj->abij
  ⟨1/2, [g_abab [mₒ, dᵥ, iₒ, eᵥ], l2_abab [kₒ, lₒ, cᵥ, dᵥ], t2_abab [aᵥ, eᵥ, kₒ, lₒ], t2_abab [cᵥ, bᵥ, mₒ, jₒ]], [(1, [aᵥ, bᵥ, iₒ, jₒ])]⟩,
  -- line 2115: dmie,lkdc,aelk,cbjm->abij
  ⟨-1/2, [g_abab [dᵥ, mₒ, iₒ, eᵥ], l2_abab [lₒ, kₒ, dᵥ, cᵥ], t2_abab [aᵥ, eᵥ, lₒ, kₒ], t2_bbbb [cᵥ, bᵥ, jₒ, mₒ]], [(1, [aᵥ, bᵥ, iₒ, jₒ])]⟩,
  -- line 2118: mdie,lkcd,aelk,cbmj->abij
  ⟨1/2, [g_abab [mₒ, dᵥ, iₒ, eᵥ], l2_abab [lₒ, kₒ, cᵥ, dᵥ], t2_abab [aᵥ, eᵥ, lₒ, kₒ], t2_abab [cᵥ, bᵥ, mₒ, jₒ]], [(1, [aᵥ, bᵥ, iₒ, jₒ])]⟩,
  -- line 2121: mdei,kldc,ebkl,acmj->abij
  ⟨-1/2, [g_aaaa [mₒ, dᵥ, eᵥ, iₒ], l2_abab [kₒ, lₒ, dᵥ, cᵥ], t2_abab [eᵥ, bᵥ, kₒ, lₒ], t2_abab [aᵥ, cᵥ, mₒ, jₒ]], [(1, [aᵥ, bᵥ, iₒ, jₒ])]⟩,
  -- line 2124: mdei,lkdc,eblk,acmj->abij
  ⟨-1/2, [g_aaaa [mₒ, dᵥ, eᵥ, iₒ], l2_abab [lₒ, kₒ, dᵥ, cᵥ], t2_abab [eᵥ, bᵥ, lₒ, kₒ], t2_abab [aᵥ, cᵥ, mₒ, jₒ]], [(1, [aᵥ, bᵥ, iₒ, jₒ])]⟩,
  -- line 2127: mdie,kldc,ebkl,acmj->abij
  ⟨1/2, [g_abab [mₒ, dᵥ, iₒ, eᵥ], l2_bbbb [kₒ, lₒ, dᵥ, cᵥ], t2_bbbb [eᵥ, bᵥ, kₒ, lₒ], t2_abab [aᵥ, cᵥ, mₒ, jₒ]], [(1, [aᵥ, bᵥ, iₒ, jₒ])]⟩,
  -- line 2130: dmej,kldc,eail,cbkm->abij
  ⟨-1, [g_abab [dᵥ, mₒ, eᵥ, jₒ], l2_aaaa [kₒ, lₒ, dᵥ, cᵥ], t2_aaaa [eᵥ, aᵥ, iₒ, lₒ], t2_abab [cᵥ, bᵥ, kₒ, mₒ]], [(1, [aᵥ, bᵥ, iₒ, jₒ])]⟩,
  -- line 2133: mdej,klcd,aeil,cbkm->abij
  ⟨1, [g_bbbb [mₒ, dᵥ, eᵥ, jₒ], l2_abab [kₒ, lₒ, cᵥ, dᵥ], t2_abab [aᵥ, eᵥ, iₒ, lₒ], t2_abab [cᵥ, bᵥ, kₒ, mₒ]], [(1, [aᵥ, bᵥ, iₒ, jₒ])]⟩,
  -- line 2136: dmej,lkdc,eail,cbkm->abij
  ⟨1, [g_abab [dᵥ, mₒ, eᵥ, jₒ], l2_abab [lₒ, kₒ, dᵥ, cᵥ], t2_aaaa [eᵥ, aᵥ, iₒ, lₒ], t2_bbbb [cᵥ, bᵥ, kₒ, mₒ]], [(1, [aᵥ, bᵥ, iₒ, jₒ])]⟩,
  -- line 2139: mdej,lkcd,eail,cbmk->abij
  ⟨-1, [g_abab [mₒ, dᵥ, eᵥ, jₒ], l2_abab [lₒ, kₒ, cᵥ, dᵥ], t2_aaaa [eᵥ, aᵥ, iₒ, lₒ], t2_abab [cᵥ, bᵥ, mₒ, kₒ]], [(1, [aᵥ, bᵥ, iₒ, jₒ])]⟩,
  -- line 2142: mdej,kldc,aeil,cbkm->abij
  ⟨-1, [g_bbbb [mₒ, dᵥ, eᵥ, jₒ], l2_bbbb [kₒ, lₒ, dᵥ, cᵥ], t2_abab [aᵥ, eᵥ, iₒ, lₒ], t2_bbbb [cᵥ, bᵥ, kₒ, mₒ]], [(1, [aᵥ, bᵥ, iₒ, jₒ])]⟩,
  -- line 2145: dmej,kldc,ebil,ackm->abij
  ⟨-1, [g_abab [dᵥ, mₒ, eᵥ, jₒ], l2_abab [kₒ, lₒ, dᵥ, cᵥ], t2_abab [eᵥ, bᵥ, iₒ, lₒ], t2_abab [aᵥ, cᵥ, kₒ, mₒ]], [(1, [aᵥ, bᵥ, iₒ, jₒ])]⟩,
  -- line 2148: mdej,klcd,ebil,cakm->abij
  ⟨1, [g_abab [mₒ, dᵥ, eᵥ, jₒ], l2_abab [kₒ, lₒ, cᵥ, dᵥ], t2_abab [eᵥ, bᵥ, iₒ, lₒ], t2_aaaa [cᵥ, aᵥ, kₒ, mₒ]], [(1, [aᵥ, bᵥ, iₒ, jₒ])]⟩,
  -- line 2151: mdej,kldc,ebil,acmk->abij
  ⟨-1, [g_abab [mₒ, dᵥ, eᵥ, jₒ], l2_bbbb [kₒ, lₒ, dᵥ, cᵥ], t2_abab [eᵥ, bᵥ, iₒ, lₒ], t2_abab [aᵥ, cᵥ, mₒ, kₒ]], [(1, [aᵥ, bᵥ, iₒ, jₒ])]⟩
  ]

/-- Part 4 of `test_t2_abab`. -/
def test_t2_abab_4 : Prog := [
  -- line 2154: dmie,kldc,aelj,cbkm->abij
  ⟨-1, [g_abab [dᵥ, mₒ, iₒ, eᵥ], l2_aaaa [kₒ, lₒ, dᵥ, cᵥ], t2_abab [aᵥ, eᵥ, lₒ, jₒ], t2_abab [cᵥ, bᵥ, kₒ, mₒ]], [(1, [aᵥ, bᵥ, iₒ, jₒ])]⟩,
  -- line 2157: dmie,lkdc,aelj,cbkm->abij
  ⟨1, [g_abab [dᵥ, mₒ, iₒ, eᵥ], l2_abab [lₒ, kₒ, dᵥ, cᵥ], t2_abab [aᵥ, eᵥ, lₒ, jₒ], t2_bbbb [cᵥ, bᵥ, kₒ, mₒ]], [(1, [aᵥ, bᵥ, iₒ, jₒ])]⟩,
  -- line 2160: mdie,lkcd,aelj,cbmk->abij
  ⟨-1, [g_abab [mₒ, dᵥ, iₒ, eᵥ], l2_abab [lₒ, kₒ, cᵥ, dᵥ], t2_abab [aᵥ, eᵥ, lₒ, jₒ], t2_abab [cᵥ, bᵥ, mₒ, kₒ]], [(1, [aᵥ, bᵥ, iₒ, jₒ])]⟩,
  -- line 2163: mdei,kldc,eblj,cakm->abij
  ⟨-1, [g_aaaa [mₒ, dᵥ, eᵥ, iₒ], l2_aaaa [kₒ, lₒ, dᵥ, cᵥ], t2_abab [eᵥ, bᵥ, lₒ, jₒ], t2_aaaa [cᵥ, aᵥ, kₒ, mₒ]], [(1, [aᵥ, bᵥ, iₒ, jₒ])]⟩,
  -- line 2166: dmie,kldc,ebjl,ackm->abij
  ⟨-1, [g_abab [dᵥ, mₒ, iₒ, eᵥ], l2_abab [kₒ, lₒ, dᵥ, cᵥ], t2_bbbb [eᵥ, bᵥ, jₒ, lₒ], t2_abab [aᵥ, cᵥ, kₒ, mₒ]], [(1, [aᵥ, bᵥ, iₒ, jₒ])]⟩,
  -- line 2169: mdie,klcd,ebjl,cakm->abij
  ⟨1, [g_abab [mₒ, dᵥ, iₒ, eᵥ], l2_abab [kₒ, lₒ, cᵥ, dᵥ], t2_bbbb [eᵥ, bᵥ, jₒ, lₒ], t2_aaaa [cᵥ, aᵥ, kₒ, mₒ]], [(1, [aᵥ, bᵥ, iₒ, jₒ])]⟩,
  -- line 2172: mdei,lkdc,eblj,acmk->abij
  ⟨1, [g_aaaa [mₒ, dᵥ, eᵥ, iₒ], l2_abab [lₒ, kₒ, dᵥ, cᵥ], t2_abab [eᵥ, bᵥ, lₒ, jₒ], t2_abab [aᵥ, cᵥ, mₒ, kₒ]], [(1, [aᵥ, bᵥ, iₒ, jₒ])]⟩,
  -- line 2175: mdie,kldc,ebjl,acmk->abij
  ⟨-1, [g_abab [mₒ, dᵥ, iₒ, eᵥ], l2_bbbb [kₒ, lₒ, dᵥ, cᵥ], t2_bbbb [eᵥ, bᵥ, jₒ, lₒ], t2_abab [aᵥ, cᵥ, mₒ, kₒ]], [(1, [aᵥ, bᵥ, iₒ, jₒ])]⟩,
  -- line 2178: amle,kldc,dekj,cbim->abij
  ⟨1, [g_abab [aᵥ, mₒ, lₒ, eᵥ], l2_aaaa [kₒ, lₒ, dᵥ, cᵥ], t2_abab [dᵥ, eᵥ, kₒ, jₒ], t2_abab [cᵥ, bᵥ, iₒ, mₒ]], [(1, [aᵥ, bᵥ, iₒ, jₒ])]⟩,
  -- line 2181: amel,klcd,edkj,cbim->abij
  ⟨-1, [g_abab [aᵥ, mₒ, eᵥ, lₒ], l2_abab [kₒ, lₒ, cᵥ, dᵥ], t2_abab [eᵥ, dᵥ, kₒ, jₒ], t2_abab [cᵥ, bᵥ, iₒ, mₒ]], [(1, [aᵥ, bᵥ, iₒ, jₒ])]⟩,
  -- line 2184: amle,lkcd,edjk,cbim->abij
  ⟨1, [g_abab [aᵥ, mₒ, lₒ, eᵥ], l2_abab [lₒ, kₒ, cᵥ, dᵥ], t2_bbbb [eᵥ, dᵥ, jₒ, kₒ], t2_abab [cᵥ, bᵥ, iₒ, mₒ]], [(1, [aᵥ, bᵥ, iₒ, jₒ])]⟩,
  -- line 2187: mble,kldc,dekj,caim->abij
  ⟨1, [g_abab [mₒ, bᵥ, lₒ, eᵥ], l2_aaaa [kₒ, lₒ, dᵥ, cᵥ], t2_abab [dᵥ, eᵥ, kₒ, jₒ], t2_aaaa [cᵥ, aᵥ, iₒ, mₒ]], [(1, [aᵥ, bᵥ, iₒ, jₒ])]⟩,
  -- line 2190: mbel,kldc,dekj,acim->abij
  ⟨1, [g_bbbb [mₒ, bᵥ, eᵥ, lₒ], l2_abab [kₒ, lₒ, dᵥ, cᵥ], t2_abab [dᵥ, eᵥ, kₒ, jₒ], t2_abab [aᵥ, cᵥ, iₒ, mₒ]], [(1, [aᵥ, bᵥ, iₒ, jₒ])]⟩,
  -- line 2193: mbel,klcd,edkj,caim->abij
  ⟨-1, [g_abab [mₒ, bᵥ, eᵥ, lₒ], l2_abab [kₒ, lₒ, cᵥ, dᵥ], t2_abab [eᵥ, dᵥ, kₒ, jₒ], t2_aaaa [cᵥ, aᵥ, iₒ, mₒ]], [(1, [aᵥ, bᵥ, iₒ, jₒ])]⟩,
  -- line 2196: mble,lkcd,edjk,caim->abij
  ⟨1, [g_abab [mₒ, bᵥ, lₒ, eᵥ], l2_abab [lₒ, kₒ, cᵥ, dᵥ], t2_bbbb [eᵥ, dᵥ, jₒ, kₒ], t2_aaaa [cᵥ, aᵥ, iₒ, mₒ]], [(1, [aᵥ, bᵥ, iₒ, jₒ])]⟩,
  -- line 2199: mbel,kldc,edjk,acim->abij
  ⟨1, [g_bbbb [mₒ, bᵥ, eᵥ, lₒ], l2_bbbb [kₒ, lₒ, dᵥ, cᵥ], t2_bbbb [eᵥ, dᵥ, jₒ, kₒ], t2_abab [aᵥ, cᵥ, iₒ, mₒ]], [(1, [aᵥ, bᵥ, iₒ, jₒ])]⟩,
  -- line 2202: mael,kldc,edik,cbmj->abij
  ⟨1, [g_aaaa [mₒ, aᵥ, eᵥ, lₒ], l2_aaaa [kₒ, lₒ, dᵥ, cᵥ], t2_aaaa [eᵥ, dᵥ, iₒ, kₒ], t2_abab [cᵥ, bᵥ, mₒ, jₒ]], [(1, [aᵥ, bᵥ, iₒ, jₒ])]⟩,
  -- line 2205: amel,kldc,edik,cbjm->abij
  ⟨1, [g_abab [aᵥ, mₒ, eᵥ, lₒ], l2_abab [kₒ, lₒ, dᵥ, cᵥ], t2_aaaa [eᵥ, dᵥ, iₒ, kₒ], t2_bbbb [cᵥ, bᵥ, jₒ, mₒ]], [(1, [aᵥ, bᵥ, iₒ, jₒ])]⟩,
  -- line 2208: amle,lkdc,deik,cbjm->abij
  ⟨-1, [g_abab [aᵥ, mₒ, lₒ, eᵥ], l2_abab [lₒ, kₒ, dᵥ, cᵥ], t2_abab [dᵥ, eᵥ, iₒ, kₒ], t2_bbbb [cᵥ, bᵥ, jₒ, mₒ]], [(1, [aᵥ, bᵥ, iₒ, jₒ])]⟩,
  -- line 2211: mael,lkcd,edik,cbmj->abij
  ⟨1, [g_aaaa [mₒ, aᵥ, eᵥ, lₒ], l2_abab [lₒ, kₒ, cᵥ, dᵥ], t2_abab [eᵥ, dᵥ, iₒ, kₒ], t2_abab [cᵥ, bᵥ, mₒ, jₒ]], [(1, [aᵥ, bᵥ, iₒ, jₒ])]⟩,
  -- line 2214: amel,kldc,edik,cbjm->abij
  ⟨1, [g_abab [aᵥ, mₒ, eᵥ, lₒ], l2_bbbb [kₒ, lₒ, dᵥ, cᵥ], t2_abab [eᵥ, dᵥ, iₒ, kₒ], t2_bbbb [cᵥ, bᵥ, jₒ, mₒ]], [(1, [aᵥ, bᵥ, iₒ, jₒ])]⟩,
  -- line 2217: mbel,kldc,edik,acmj->abij
  ⟨1, [g_abab [mₒ, bᵥ, eᵥ, lₒ], l2_abab [kₒ, lₒ, dᵥ, cᵥ], t2_aaaa [eᵥ, dᵥ, iₒ, kₒ], t2_abab [aᵥ, cᵥ, mₒ, jₒ]], [(1, [aᵥ, bᵥ, iₒ, jₒ])]⟩,
  -- line 2220: mble,lkdc,deik,acmj->abij
  ⟨-1, [g_abab [mₒ, bᵥ, lₒ, eᵥ], l2_abab [lₒ, kₒ, dᵥ, cᵥ], t2_abab [dᵥ, eᵥ, iₒ, kₒ], t2_abab [aᵥ, cᵥ, mₒ, jₒ]], [(1, [aᵥ, bᵥ, iₒ, jₒ])]⟩,
  -- line 2223: mbel,kldc,edik,acmj->abij
  ⟨1, [g_abab [mₒ, bᵥ, eᵥ, lₒ], l2_bbbb [kₒ, lₒ, dᵥ, cᵥ], t2_abab [eᵥ, dᵥ, iₒ, kₒ], t2_abab [aᵥ, cᵥ, mₒ, jₒ]], [(1, [aᵥ, bᵥ, iₒ, jₒ])]⟩,
  -- line 2226: amle,kldc,deij,cbkm->abij
  ⟨-1, [g_abab [aᵥ, mₒ, lₒ, eᵥ], l2_aaaa [kₒ, lₒ, dᵥ, cᵥ], t2_abab [dᵥ, eᵥ, iₒ, jₒ], t2_abab [cᵥ, bᵥ, kₒ, mₒ]], [(1, [aᵥ, bᵥ, iₒ, jₒ])]⟩,
  -- line 2229: amel,klcd,edij,cbkm->abij
  ⟨1, [g_abab [aᵥ, mₒ, eᵥ, lₒ], l2_abab [kₒ, lₒ, cᵥ, dᵥ], t2_abab [eᵥ, dᵥ, iₒ, jₒ], t2_abab [cᵥ, bᵥ, kₒ, mₒ]], [(1, [aᵥ, bᵥ, iₒ, jₒ])]⟩,
  -- line 2232: amle,lkdc,deij,cbkm->abij
  ⟨1, [g_abab [aᵥ, mₒ, lₒ, eᵥ], l2_abab [lₒ, kₒ, dᵥ, cᵥ], t2_abab [dᵥ, eᵥ, iₒ, jₒ], t2_bbbb [cᵥ, bᵥ, kₒ, mₒ]], [(1, [aᵥ, bᵥ, iₒ, jₒ])]⟩,
  -- line 2235: mael,lkcd,edij,cbmk->abij
  ⟨-1, [g_aaaa [mₒ, aᵥ, eᵥ, lₒ], l2_abab [lₒ, kₒ, cᵥ, dᵥ], t2_abab [eᵥ, dᵥ, iₒ, jₒ], t2_abab [cᵥ, bᵥ, mₒ, kₒ]], [(1, [aᵥ, bᵥ, iₒ, jₒ])]⟩,
  -- line 2238: amel,kldc,edij,cbkm->abij
  ⟨-1, [g_abab [aᵥ, mₒ, eᵥ, lₒ], l2_bbbb [kₒ, lₒ, dᵥ, cᵥ], t2_abab [eᵥ, dᵥ, iₒ, jₒ], t2_bbbb [cᵥ, bᵥ, kₒ, mₒ]], [(1, [aᵥ, bᵥ, iₒ, jₒ])]⟩,
  -- line 2241: mble,kldc,deij,cakm->abij
  ⟨-1, [g_abab [mₒ, bᵥ, lₒ, eᵥ], l2_aaaa [kₒ, lₒ, dᵥ, cᵥ], t2_abab [dᵥ, eᵥ, iₒ, jₒ], t2_aaaa [cᵥ, aᵥ, kₒ, mₒ]], [(1, [aᵥ, bᵥ, iₒ, jₒ])]⟩,
  -- line 2244: mbel,kldc,deij,ackm->abij
  ⟨-1, [g_bbbb [mₒ, bᵥ, eᵥ, lₒ], l2_abab [kₒ, lₒ, dᵥ, cᵥ], t2_abab [dᵥ, eᵥ, iₒ, jₒ], t2_abab [aᵥ, cᵥ, kₒ, mₒ]], [(1, [aᵥ, bᵥ, iₒ, jₒ])]⟩,
  -- line 2247: mbel,klcd,edij,cakm->abij
  ⟨1, [g_abab [mₒ, bᵥ, eᵥ, lₒ], l2_abab [kₒ, lₒ, cᵥ, dᵥ], t2_abab [eᵥ, dᵥ, iₒ, jₒ], t2_aaaa [cᵥ, aᵥ, kₒ, mₒ]], [(1, [aᵥ, bᵥ, iₒ, jₒ])]⟩,
  -- line 2250: mble,lkdc,deij,acmk->abij
  ⟨1, [g_abab [mₒ, bᵥ, lₒ, eᵥ], l2_abab [lₒ, kₒ, dᵥ, cᵥ], t2_abab [dᵥ, eᵥ, iₒ, jₒ], t2_abab [aᵥ, cᵥ, mₒ, kₒ]], [(1, [aᵥ, bᵥ, iₒ, jₒ])]⟩,
  -- line 2253: mbel,kldc,edij,acmk->abij
  ⟨-1, [g_abab [mₒ, bᵥ, eᵥ, lₒ], l2_bbbb [kₒ, lₒ, dᵥ, cᵥ], t2_abab [eᵥ, dᵥ, iₒ, jₒ], t2_abab [aᵥ, cᵥ, mₒ, kₒ]], [(1, [aᵥ, bᵥ, iₒ, jₒ])]⟩,
  -- line 2256: mael,kldc,ebkj,dcim->abij
  ⟨-1/2, [g_aaaa [mₒ, aᵥ, eᵥ, lₒ], l2_aaaa [kₒ, lₒ, dᵥ, cᵥ], t2_abab [eᵥ, bᵥ, kₒ, jₒ], t2_aaaa [dᵥ, cᵥ, iₒ, mₒ]], [(1, [aᵥ, bᵥ, iₒ, jₒ])]⟩,
  -- line 2259: amel,kldc,ebkj,dcim->abij
  ⟨1/2, [g_abab [aᵥ, mₒ, eᵥ, lₒ], l2_abab [kₒ, lₒ, dᵥ, cᵥ], t2_abab [eᵥ, bᵥ, kₒ, jₒ], t2_abab [dᵥ, cᵥ, iₒ, mₒ]], [(1, [aᵥ, bᵥ, iₒ, jₒ])]⟩,
  -- line 2262: amel,klcd,ebkj,cdim->abij
  ⟨1/2, [g_abab [aᵥ, mₒ, eᵥ, lₒ], l2_abab [kₒ, lₒ, cᵥ, dᵥ], t2_abab [eᵥ, bᵥ, kₒ, jₒ], t2_abab [cᵥ, dᵥ, iₒ, mₒ]], [(1, [aᵥ, bᵥ, iₒ, jₒ])]⟩,
  -- line 2265: amle,lkdc,ebjk,dcim->abij
  ⟨-1/2, [g_abab [aᵥ, mₒ, lₒ, eᵥ], l2_abab [lₒ, kₒ, dᵥ, cᵥ], t2_bbbb [eᵥ, bᵥ, jₒ, kₒ], t2_abab [dᵥ, cᵥ, iₒ, mₒ]], [(1, [aᵥ, bᵥ, iₒ, jₒ])]⟩,
  -- line 2268: amle,lkcd,ebjk,cdim->abij
  ⟨-1/2, [g_abab [aᵥ, mₒ, lₒ, eᵥ], l2_abab [lₒ, kₒ, cᵥ, dᵥ], t2_bbbb [eᵥ, bᵥ, jₒ, kₒ], t2_abab [cᵥ, dᵥ, iₒ, mₒ]], [(1, [aᵥ, bᵥ, iₒ, jₒ])]⟩,
  -- line 2271: mble,kldc,aekj,dcim->abij
  ⟨1/2, [g_abab [mₒ, bᵥ, lₒ, eᵥ], l2_aaaa [kₒ, lₒ, dᵥ, cᵥ], t2_abab [aᵥ, eᵥ, kₒ, jₒ], t2_aaaa [dᵥ, cᵥ, iₒ, mₒ]], [(1, [aᵥ, bᵥ, iₒ, jₒ])]⟩
  ]

/-- Part 5 of `test_t2_abab`. -/
def test_t2_abab_5 : Prog := [
  -- line 2274: mbel,kldc,aekj,dcim->abij
  ⟨-1/2, [g_bbbb [mₒ, bᵥ, eᵥ, lₒ], l2_abab [kₒ, lₒ, dᵥ, cᵥ], t2_abab [aᵥ, eᵥ, kₒ, jₒ], t2_abab [dᵥ, cᵥ, iₒ, mₒ]], [(1, [aᵥ, bᵥ, iₒ, jₒ])]⟩,
  -- line 2277: mbel,klcd,aekj,cdim->abij
  ⟨-1/2, [g_bbbb [mₒ, bᵥ, eᵥ, lₒ], l2_abab [kₒ, lₒ, cᵥ, dᵥ], t2_abab [aᵥ, eᵥ, kₒ, jₒ], t2_abab [cᵥ, dᵥ, iₒ, mₒ]], [(1, [aᵥ, bᵥ, iₒ, jₒ])]⟩,
  -- line 2280: mael,lkdc,ebik,dcmj->abij
  ⟨-1/2, [g_aaaa [mₒ, aᵥ, eᵥ, lₒ], l2_abab [lₒ, kₒ, dᵥ, cᵥ], t2_abab [eᵥ, bᵥ, iₒ, kₒ], t2_abab [dᵥ, cᵥ, mₒ, jₒ]], [(1, [aᵥ, bᵥ, iₒ, jₒ])]⟩,
  -- line 2283: mael,lkcd,ebik,cdmj->abij
  ⟨-1/2, [g_aaaa [mₒ, aᵥ, eᵥ, lₒ], l2_abab [lₒ, kₒ, cᵥ, dᵥ], t2_abab [eᵥ, bᵥ, iₒ, kₒ], t2_abab [cᵥ, dᵥ, mₒ, jₒ]], [(1, [aᵥ, bᵥ, iₒ, jₒ])]⟩,
  -- line 2286: amel,kldc,ebik,dcjm->abij
  ⟨1/2, [g_abab [aᵥ, mₒ, eᵥ, lₒ], l2_bbbb [kₒ, lₒ, dᵥ, cᵥ], t2_abab [eᵥ, bᵥ, iₒ, kₒ], t2_bbbb [dᵥ, cᵥ, jₒ, mₒ]], [(1, [aᵥ, bᵥ, iₒ, jₒ])]⟩,
  -- line 2289: mbel,kldc,eaik,dcmj->abij
  ⟨-1/2, [g_abab [mₒ, bᵥ, eᵥ, lₒ], l2_abab [kₒ, lₒ, dᵥ, cᵥ], t2_aaaa [eᵥ, aᵥ, iₒ, kₒ], t2_abab [dᵥ, cᵥ, mₒ, jₒ]], [(1, [aᵥ, bᵥ, iₒ, jₒ])]⟩,
  -- line 2292: mbel,klcd,eaik,cdmj->abij
  ⟨-1/2, [g_abab [mₒ, bᵥ, eᵥ, lₒ], l2_abab [kₒ, lₒ, cᵥ, dᵥ], t2_aaaa [eᵥ, aᵥ, iₒ, kₒ], t2_abab [cᵥ, dᵥ, mₒ, jₒ]], [(1, [aᵥ, bᵥ, iₒ, jₒ])]⟩,
  -- line 2295: mble,lkdc,aeik,dcmj->abij
  ⟨1/2, [g_abab [mₒ, bᵥ, lₒ, eᵥ], l2_abab [lₒ, kₒ, dᵥ, cᵥ], t2_abab [aᵥ, eᵥ, iₒ, kₒ], t2_abab [dᵥ, cᵥ, mₒ, jₒ]], [(1, [aᵥ, bᵥ, iₒ, jₒ])]⟩,
  -- line 2298: mble,lkcd,aeik,cdmj->abij
  ⟨1/2, [g_abab [mₒ, bᵥ, lₒ, eᵥ], l2_abab [lₒ, kₒ, cᵥ, dᵥ], t2_abab [aᵥ, eᵥ, iₒ, kₒ], t2_abab [cᵥ, dᵥ, mₒ, jₒ]], [(1, [aᵥ, bᵥ, iₒ, jₒ])]⟩,
  -- line 2301: mbel,kldc,aeik,dcjm->abij
  ⟨-1/2, [g_bbbb [mₒ, bᵥ, eᵥ, lₒ], l2_bbbb [kₒ, lₒ, dᵥ, cᵥ], t2_abab [aᵥ, eᵥ, iₒ, kₒ], t2_bbbb [dᵥ, cᵥ, jₒ, mₒ]], [(1, [aᵥ, bᵥ, iₒ, jₒ])]⟩,
  -- line 2304: mael,kldc,ebij,dckm->abij
  ⟨1/2, [g_aaaa [mₒ, aᵥ, eᵥ, lₒ], l2_aaaa [kₒ, lₒ, dᵥ, cᵥ], t2_abab [eᵥ, bᵥ, iₒ, jₒ], t2_aaaa [dᵥ, cᵥ, kₒ, mₒ]], [(1, [aᵥ, bᵥ, iₒ, jₒ])]⟩,
  -- line 2307: amel,kldc,ebij,dckm->abij
  ⟨-1/2, [g_abab [aᵥ, mₒ, eᵥ, lₒ], l2_abab [kₒ, lₒ, dᵥ, cᵥ], t2_abab [eᵥ, bᵥ, iₒ, jₒ], t2_abab [dᵥ, cᵥ, kₒ, mₒ]], [(1, [aᵥ, bᵥ, iₒ, jₒ])]⟩,
  -- line 2310: amel,klcd,ebij,cdkm->abij
  ⟨-1/2, [g_abab [aᵥ, mₒ, eᵥ, lₒ], l2_abab [kₒ, lₒ, cᵥ, dᵥ], t2_abab [eᵥ, bᵥ, iₒ, jₒ], t2_abab [cᵥ, dᵥ, kₒ, mₒ]], [(1, [aᵥ, bᵥ, iₒ, jₒ])]⟩,
  -- line 2313: mael,lkdc,ebij,dcmk->abij
  ⟨1/2, [g_aaaa [mₒ, aᵥ, eᵥ, lₒ], l2_abab [lₒ, kₒ, dᵥ, cᵥ], t2_abab [eᵥ, bᵥ, iₒ, jₒ], t2_abab [dᵥ, cᵥ, mₒ, kₒ]], [(1, [aᵥ, bᵥ, iₒ, jₒ])]⟩,
  -- line 2316: mael,lkcd,ebij,cdmk->abij
  ⟨1/2, [g_aaaa [mₒ, aᵥ, eᵥ, lₒ], l2_abab [lₒ, kₒ, cᵥ, dᵥ], t2_abab [eᵥ, bᵥ, iₒ, jₒ], t2_abab [cᵥ, dᵥ, mₒ, kₒ]], [(1, [aᵥ, bᵥ, iₒ, jₒ])]⟩,
  -- line 2319: amel,kldc,ebij,dckm->abij
  ⟨-1/2, [g_abab [aᵥ, mₒ, eᵥ, lₒ], l2_bbbb [kₒ, lₒ, dᵥ, cᵥ], t2_abab [eᵥ, bᵥ, iₒ, jₒ], t2_bbbb [dᵥ, cᵥ, kₒ, mₒ]], [(1, [aᵥ, bᵥ, iₒ, jₒ])]⟩,
  -- line 2322: mble,kldc,aeij,dckm->abij
  ⟨-1/2, [g_abab [mₒ, bᵥ, lₒ, eᵥ], l2_aaaa [kₒ, lₒ, dᵥ, cᵥ], t2_abab [aᵥ, eᵥ, iₒ, jₒ], t2_aaaa [dᵥ, cᵥ, kₒ, mₒ]], [(1, [aᵥ, bᵥ, iₒ, jₒ])]⟩,
  -- line 2325: mbel,kldc,aeij,dckm->abij
  ⟨1/2, [g_bbbb [mₒ, bᵥ, eᵥ, lₒ], l2_abab [kₒ, lₒ, dᵥ, cᵥ], t2_abab [aᵥ, eᵥ, iₒ, jₒ], t2_abab [dᵥ, cᵥ, kₒ, mₒ]], [(1, [aᵥ, bᵥ, iₒ, jₒ])]⟩,
  -- line 2328: mbel,klcd,aeij,cdkm->abij
  ⟨1/2, [g_bbbb [mₒ, bᵥ, eᵥ, lₒ], l2_abab [kₒ, lₒ, cᵥ, dᵥ], t2_abab [aᵥ, eᵥ, iₒ, jₒ], t2_abab [cᵥ, dᵥ, kₒ, mₒ]], [(1, [aᵥ, bᵥ, iₒ, jₒ])]⟩,
  -- line 2331: mble,lkdc,aeij,dcmk->abij
  ⟨-1/2, [g_abab [mₒ, bᵥ, lₒ, eᵥ], l2_abab [lₒ, kₒ, dᵥ, cᵥ], t2_abab [aᵥ, eᵥ, iₒ, jₒ], t2_abab [dᵥ, cᵥ, mₒ, kₒ]], [(1, [aᵥ, bᵥ, iₒ, jₒ])]⟩,
  -- line 2334: mble,lkcd,aeij,cdmk->abij
  ⟨-1/2, [g_abab [mₒ, bᵥ, lₒ, eᵥ], l2_abab [lₒ, kₒ, cᵥ, dᵥ], t2_abab [aᵥ, eᵥ, iₒ, jₒ], t2_abab [cᵥ, dᵥ, mₒ, kₒ]], [(1, [aᵥ, bᵥ, iₒ, jₒ])]⟩,
  -- line 2337: mbel,kldc,aeij,dckm->abij
  ⟨1/2, [g_bbbb [mₒ, bᵥ, eᵥ, lₒ], l2_bbbb [kₒ, lₒ, dᵥ, cᵥ], t2_abab [aᵥ, eᵥ, iₒ, jₒ], t2_bbbb [dᵥ, cᵥ, kₒ, mₒ]], [(1, [aᵥ, bᵥ, iₒ, jₒ])]⟩,
  -- line 2340: amej,kldc,edkl,cbim->abij
  ⟨-1/2, [g_abab [aᵥ, mₒ, eᵥ, jₒ], l2_aaaa [kₒ, lₒ, dᵥ, cᵥ], t2_aaaa [eᵥ, dᵥ, kₒ, lₒ], t2_abab [cᵥ, bᵥ, iₒ, mₒ]], [(1, [aᵥ, bᵥ, iₒ, jₒ])]⟩,
  -- line 2343: amej,klcd,edkl,cbim->abij
  ⟨1/2, [g_abab [aᵥ, mₒ, eᵥ, jₒ], l2_abab [kₒ, lₒ, cᵥ, dᵥ], t2_abab [eᵥ, dᵥ, kₒ, lₒ], t2_abab [cᵥ, bᵥ, iₒ, mₒ]], [(1, [aᵥ, bᵥ, iₒ, jₒ])]⟩,
  -- line 2346: amej,lkcd,edlk,cbim->abij
  ⟨1/2, [g_abab [aᵥ, mₒ, eᵥ, jₒ], l2_abab [lₒ, kₒ, cᵥ, dᵥ], t2_abab [eᵥ, dᵥ, lₒ, kₒ], t2_abab [cᵥ, bᵥ, iₒ, mₒ]], [(1, [aᵥ, bᵥ, iₒ, jₒ])]⟩,
  -- line 2349: mbej,kldc,edkl,caim->abij
  ⟨-1/2, [g_abab [mₒ, bᵥ, eᵥ, jₒ], l2_aaaa [kₒ, lₒ, dᵥ, cᵥ], t2_aaaa [eᵥ, dᵥ, kₒ, lₒ], t2_aaaa [cᵥ, aᵥ, iₒ, mₒ]], [(1, [aᵥ, bᵥ, iₒ, jₒ])]⟩,
  -- line 2352: mbej,kldc,dekl,acim->abij
  ⟨-1/2, [g_bbbb [mₒ, bᵥ, eᵥ, jₒ], l2_abab [kₒ, lₒ, dᵥ, cᵥ], t2_abab [dᵥ, eᵥ, kₒ, lₒ], t2_abab [aᵥ, cᵥ, iₒ, mₒ]], [(1, [aᵥ, bᵥ, iₒ, jₒ])]⟩,
  -- line 2355: mbej,klcd,edkl,caim->abij
  ⟨1/2, [g_abab [mₒ, bᵥ, eᵥ, jₒ], l2_abab [kₒ, lₒ, cᵥ, dᵥ], t2_abab [eᵥ, dᵥ, kₒ, lₒ], t2_aaaa [cᵥ, aᵥ, iₒ, mₒ]], [(1, [aᵥ, bᵥ, iₒ, jₒ])]⟩,
  -- line 2358: mbej,lkdc,delk,acim->abij
  ⟨-1/2, [g_bbbb [mₒ, bᵥ, eᵥ, jₒ], l2_abab [lₒ, kₒ, dᵥ, cᵥ], t2_abab [dᵥ, eᵥ, lₒ, kₒ], t2_abab [aᵥ, cᵥ, iₒ, mₒ]], [(1, [aᵥ, bᵥ, iₒ, jₒ])]⟩,
  -- line 2361: mbej,lkcd,edlk,caim->abij
  ⟨1/2, [g_abab [mₒ, bᵥ, eᵥ, jₒ], l2_abab [lₒ, kₒ, cᵥ, dᵥ], t2_abab [eᵥ, dᵥ, lₒ, kₒ], t2_aaaa [cᵥ, aᵥ, iₒ, mₒ]], [(1, [aᵥ, bᵥ, iₒ, jₒ])]⟩,
  -- line 2364: mbej,kldc,edkl,acim->abij
  ⟨1/2, [g_bbbb [mₒ, bᵥ, eᵥ, jₒ], l2_bbbb [kₒ, lₒ, dᵥ, cᵥ], t2_bbbb [eᵥ, dᵥ, kₒ, lₒ], t2_abab [aᵥ, cᵥ, iₒ, mₒ]], [(1, [aᵥ, bᵥ, iₒ, jₒ])]⟩,
  -- line 2367: maei,kldc,edkl,cbmj->abij
  ⟨1/2, [g_aaaa [mₒ, aᵥ, eᵥ, iₒ], l2_aaaa [kₒ, lₒ, dᵥ, cᵥ], t2_aaaa [eᵥ, dᵥ, kₒ, lₒ], t2_abab [cᵥ, bᵥ, mₒ, jₒ]], [(1, [aᵥ, bᵥ, iₒ, jₒ])]⟩,
  -- line 2370: amie,kldc,dekl,cbjm->abij
  ⟨1/2, [g_abab [aᵥ, mₒ, iₒ, eᵥ], l2_abab [kₒ, lₒ, dᵥ, cᵥ], t2_abab [dᵥ, eᵥ, kₒ, lₒ], t2_bbbb [cᵥ, bᵥ, jₒ, mₒ]], [(1, [aᵥ, bᵥ, iₒ, jₒ])]⟩,
  -- line 2373: maei,klcd,edkl,cbmj->abij
  ⟨-1/2, [g_aaaa [mₒ, aᵥ, eᵥ, iₒ], l2_abab [kₒ, lₒ, cᵥ, dᵥ], t2_abab [eᵥ, dᵥ, kₒ, lₒ], t2_abab [cᵥ, bᵥ, mₒ, jₒ]], [(1, [aᵥ, bᵥ, iₒ, jₒ])]⟩,
  -- line 2376: amie,lkdc,delk,cbjm->abij
  ⟨1/2, [g_abab [aᵥ, mₒ, iₒ, eᵥ], l2_abab [lₒ, kₒ, dᵥ, cᵥ], t2_abab [dᵥ, eᵥ, lₒ, kₒ], t2_bbbb [cᵥ, bᵥ, jₒ, mₒ]], [(1, [aᵥ, bᵥ, iₒ, jₒ])]⟩,
  -- line 2379: maei,lkcd,edlk,cbmj->abij
  ⟨-1/2, [g_aaaa [mₒ, aᵥ, eᵥ, iₒ], l2_abab [lₒ, kₒ, cᵥ, dᵥ], t2_abab [eᵥ, dᵥ, lₒ, kₒ], t2_abab [cᵥ, bᵥ, mₒ, jₒ]], [(1, [aᵥ, bᵥ, iₒ, jₒ])]⟩,
  -- line 2382: amie,kldc,edkl,cbjm->abij
  ⟨-1/2, [g_abab [aᵥ, mₒ, iₒ, eᵥ], l2_bbbb [kₒ, lₒ, dᵥ, cᵥ], t2_bbbb [eᵥ, dᵥ, kₒ, lₒ], t2_bbbb [cᵥ, bᵥ, jₒ, mₒ]], [(1, [aᵥ, bᵥ, iₒ, jₒ])]⟩,
  -- line 2385: mbie,kldc,dekl,acmj->abij
  ⟨1/2, [g_abab [mₒ, bᵥ, iₒ, eᵥ], l2_abab [kₒ, lₒ, dᵥ, cᵥ], t2_abab [dᵥ, eᵥ, kₒ, lₒ], t2_abab [aᵥ, cᵥ, mₒ, jₒ]], [(1, [aᵥ, bᵥ, iₒ, jₒ])]⟩,
  -- line 2388: mbie,lkdc,delk,acmj->abij
  ⟨1/2, [g_abab [mₒ, bᵥ, iₒ, eᵥ], l2_abab [lₒ, kₒ, dᵥ, cᵥ], t2_abab [dᵥ, eᵥ, lₒ, kₒ], t2_abab [aᵥ, cᵥ, mₒ, jₒ]], [(1, [aᵥ, bᵥ, iₒ, jₒ])]⟩,
  -- line 2391: mbie,kldc,edkl,acmj->abij
  ⟨-1/2, [g_abab [mₒ, bᵥ, iₒ, eᵥ], l2_bbbb [kₒ, lₒ, dᵥ, cᵥ], t2_bbbb [eᵥ, dᵥ, kₒ, lₒ], t2_abab [aᵥ, cᵥ, mₒ, jₒ]], [(1, [aᵥ, bᵥ, iₒ, jₒ])]⟩
  ]

/-- Part 6 of `test_t2_abab`. -/
def test_t2_abab_6 : Prog := [
  -- line 2394: amej,kldc,edil,cbkm->abij
  ⟨1, [g_abab [aᵥ, mₒ, eᵥ, jₒ], l2_aaaa [kₒ, lₒ, dᵥ, cᵥ], t2_aaaa [eᵥ, dᵥ, iₒ, lₒ], t2_abab [cᵥ, bᵥ, kₒ, mₒ]], [(1, [aᵥ, bᵥ, iₒ, jₒ])]⟩,
  -- line 2397: amej,klcd,edil,cbkm->abij
  ⟨-1, [g_abab [aᵥ, mₒ, eᵥ, jₒ], l2_abab [kₒ, lₒ, cᵥ, dᵥ], t2_abab [eᵥ, dᵥ, iₒ, lₒ], t2_abab [cᵥ, bᵥ, kₒ, mₒ]], [(1, [aᵥ, bᵥ, iₒ, jₒ])]⟩,
  -- line 2400: amej,lkdc,edil,cbkm->abij
  ⟨-1, [g_abab [aᵥ, mₒ, eᵥ, jₒ], l2_abab [lₒ, kₒ, dᵥ, cᵥ], t2_aaaa [eᵥ, dᵥ, iₒ, lₒ], t2_bbbb [cᵥ, bᵥ, kₒ, mₒ]], [(1, [aᵥ, bᵥ, iₒ, jₒ])]⟩,
  -- line 2403: amej,kldc,edil,cbkm->abij
  ⟨1, [g_abab [aᵥ, mₒ, eᵥ, jₒ], l2_bbbb [kₒ, lₒ, dᵥ, cᵥ], t2_abab [eᵥ, dᵥ, iₒ, lₒ], t2_bbbb [cᵥ, bᵥ, kₒ, mₒ]], [(1, [aᵥ, bᵥ, iₒ, jₒ])]⟩,
  -- line 2406: mbej,kldc,edil,cakm->abij
  ⟨1, [g_abab [mₒ, bᵥ, eᵥ, jₒ], l2_aaaa [kₒ, lₒ, dᵥ, cᵥ], t2_aaaa [eᵥ, dᵥ, iₒ, lₒ], t2_aaaa [cᵥ, aᵥ, kₒ, mₒ]], [(1, [aᵥ, bᵥ, iₒ, jₒ])]⟩,
  -- line 2409: mbej,kldc,deil,ackm->abij
  ⟨1, [g_bbbb [mₒ, bᵥ, eᵥ, jₒ], l2_abab [kₒ, lₒ, dᵥ, cᵥ], t2_abab [dᵥ, eᵥ, iₒ, lₒ], t2_abab [aᵥ, cᵥ, kₒ, mₒ]], [(1, [aᵥ, bᵥ, iₒ, jₒ])]⟩,
  -- line 2412: mbej,klcd,edil,cakm->abij
  ⟨-1, [g_abab [mₒ, bᵥ, eᵥ, jₒ], l2_abab [kₒ, lₒ, cᵥ, dᵥ], t2_abab [eᵥ, dᵥ, iₒ, lₒ], t2_aaaa [cᵥ, aᵥ, kₒ, mₒ]], [(1, [aᵥ, bᵥ, iₒ, jₒ])]⟩,
  -- line 2415: mbej,lkdc,edil,acmk->abij
  ⟨-1, [g_abab [mₒ, bᵥ, eᵥ, jₒ], l2_abab [lₒ, kₒ, dᵥ, cᵥ], t2_aaaa [eᵥ, dᵥ, iₒ, lₒ], t2_abab [aᵥ, cᵥ, mₒ, kₒ]], [(1, [aᵥ, bᵥ, iₒ, jₒ])]⟩,
  -- line 2418: mbej,kldc,edil,acmk->abij
  ⟨1, [g_abab [mₒ, bᵥ, eᵥ, jₒ], l2_bbbb [kₒ, lₒ, dᵥ, cᵥ], t2_abab [eᵥ, dᵥ, iₒ, lₒ], t2_abab [aᵥ, cᵥ, mₒ, kₒ]], [(1, [aᵥ, bᵥ, iₒ, jₒ])]⟩,
  -- line 2421: amie,kldc,delj,cbkm->abij
  ⟨1, [g_abab [aᵥ, mₒ, iₒ, eᵥ], l2_aaaa [kₒ, lₒ, dᵥ, cᵥ], t2_abab [dᵥ, eᵥ, lₒ, jₒ], t2_abab [cᵥ, bᵥ, kₒ, mₒ]], [(1, [aᵥ, bᵥ, iₒ, jₒ])]⟩,
  -- line 2424: amie,klcd,edjl,cbkm->abij
  ⟨-1, [g_abab [aᵥ, mₒ, iₒ, eᵥ], l2_abab [kₒ, lₒ, cᵥ, dᵥ], t2_bbbb [eᵥ, dᵥ, jₒ, lₒ], t2_abab [cᵥ, bᵥ, kₒ, mₒ]], [(1, [aᵥ, bᵥ, iₒ, jₒ])]⟩,
  -- line 2427: amie,lkdc,delj,cbkm->abij
  ⟨-1, [g_abab [aᵥ, mₒ, iₒ, eᵥ], l2_abab [lₒ, kₒ, dᵥ, cᵥ], t2_abab [dᵥ, eᵥ, lₒ, jₒ], t2_bbbb [cᵥ, bᵥ, kₒ, mₒ]], [(1, [aᵥ, bᵥ, iₒ, jₒ])]⟩,
  -- line 2430: maei,lkcd,edlj,cbmk->abij
  ⟨1, [g_aaaa [mₒ, aᵥ, eᵥ, iₒ], l2_abab [lₒ, kₒ, cᵥ, dᵥ], t2_abab [eᵥ, dᵥ, lₒ, jₒ], t2_abab [cᵥ, bᵥ, mₒ, kₒ]], [(1, [aᵥ, bᵥ, iₒ, jₒ])]⟩,
  -- line 2433: amie,kldc,edjl,cbkm->abij
  ⟨1, [g_abab [aᵥ, mₒ, iₒ, eᵥ], l2_bbbb [kₒ, lₒ, dᵥ, cᵥ], t2_bbbb [eᵥ, dᵥ, jₒ, lₒ], t2_bbbb [cᵥ, bᵥ, kₒ, mₒ]], [(1, [aᵥ, bᵥ, iₒ, jₒ])]⟩,
  -- line 2436: mbie,kldc,delj,cakm->abij
  ⟨1, [g_abab [mₒ, bᵥ, iₒ, eᵥ], l2_aaaa [kₒ, lₒ, dᵥ, cᵥ], t2_abab [dᵥ, eᵥ, lₒ, jₒ], t2_aaaa [cᵥ, aᵥ, kₒ, mₒ]], [(1, [aᵥ, bᵥ, iₒ, jₒ])]⟩,
  -- line 2439: mbie,klcd,edjl,cakm->abij
  ⟨-1, [g_abab [mₒ, bᵥ, iₒ, eᵥ], l2_abab [kₒ, lₒ, cᵥ, dᵥ], t2_bbbb [eᵥ, dᵥ, jₒ, lₒ], t2_aaaa [cᵥ, aᵥ, kₒ, mₒ]], [(1, [aᵥ, bᵥ, iₒ, jₒ])]⟩,
  -- line 2442: mbie,lkdc,delj,acmk->abij
  ⟨-1, [g_abab [mₒ, bᵥ, iₒ, eᵥ], l2_abab [lₒ, kₒ, dᵥ, cᵥ], t2_abab [dᵥ, eᵥ, lₒ, jₒ], t2_abab [aᵥ, cᵥ, mₒ, kₒ]], [(1, [aᵥ, bᵥ, iₒ, jₒ])]⟩,
  -- line 2445: mbie,kldc,edjl,acmk->abij
  ⟨1, [g_abab [mₒ, bᵥ, iₒ, eᵥ], l2_bbbb [kₒ, lₒ, dᵥ, cᵥ], t2_bbbb [eᵥ, dᵥ, jₒ, lₒ], t2_abab [aᵥ, cᵥ, mₒ, kₒ]], [(1, [aᵥ, bᵥ, iₒ, jₒ])]⟩,
  -- line 2448: amej,kldc,ebkl,dcim->abij
  ⟨-1/4, [g_abab [aᵥ, mₒ, eᵥ, jₒ], l2_abab [kₒ, lₒ, dᵥ, cᵥ], t2_abab [eᵥ, bᵥ, kₒ, lₒ], t2_abab [dᵥ, cᵥ, iₒ, mₒ]], [(1, [aᵥ, bᵥ, iₒ, jₒ])]⟩,
  -- line 2451: amej,klcd,ebkl,cdim->abij
  ⟨-1/4, [g_abab [aᵥ, mₒ, eᵥ, jₒ], l2_abab [kₒ, lₒ, cᵥ, dᵥ], t2_abab [eᵥ, bᵥ, kₒ, lₒ], t2_abab [cᵥ, dᵥ, iₒ, mₒ]], [(1, [aᵥ, bᵥ, iₒ, jₒ])]⟩,
  -- line 2454: amej,lkdc,eblk,dcim->abij
  ⟨-1/4, [g_abab [aᵥ, mₒ, eᵥ, jₒ], l2_abab [lₒ, kₒ, dᵥ, cᵥ], t2_abab [eᵥ, bᵥ, lₒ, kₒ], t2_abab [dᵥ, cᵥ, iₒ, mₒ]], [(1, [aᵥ, bᵥ, iₒ, jₒ])]⟩,
  -- line 2457: amej,lkcd,eblk,cdim->abij
  ⟨-1/4, [g_abab [aᵥ, mₒ, eᵥ, jₒ], l2_abab [lₒ, kₒ, cᵥ, dᵥ], t2_abab [eᵥ, bᵥ, lₒ, kₒ], t2_abab [cᵥ, dᵥ, iₒ, mₒ]], [(1, [aᵥ, bᵥ, iₒ, jₒ])]⟩,
  -- line 2460: mbej,kldc,eakl,dcim->abij
  ⟨-1/4, [g_abab [mₒ, bᵥ, eᵥ, jₒ], l2_aaaa [kₒ, lₒ, dᵥ, cᵥ], t2_aaaa [eᵥ, aᵥ, kₒ, lₒ], t2_aaaa [dᵥ, cᵥ, iₒ, mₒ]], [(1, [aᵥ, bᵥ, iₒ, jₒ])]⟩,
  -- line 2463: mbej,kldc,aekl,dcim->abij
  ⟨1/4, [g_bbbb [mₒ, bᵥ, eᵥ, jₒ], l2_abab [kₒ, lₒ, dᵥ, cᵥ], t2_abab [aᵥ, eᵥ, kₒ, lₒ], t2_abab [dᵥ, cᵥ, iₒ, mₒ]], [(1, [aᵥ, bᵥ, iₒ, jₒ])]⟩,
  -- line 2466: mbej,klcd,aekl,cdim->abij
  ⟨1/4, [g_bbbb [mₒ, bᵥ, eᵥ, jₒ], l2_abab [kₒ, lₒ, cᵥ, dᵥ], t2_abab [aᵥ, eᵥ, kₒ, lₒ], t2_abab [cᵥ, dᵥ, iₒ, mₒ]], [(1, [aᵥ, bᵥ, iₒ, jₒ])]⟩,
  -- line 2469: mbej,lkdc,aelk,dcim->abij
  ⟨1/4, [g_bbbb [mₒ, bᵥ, eᵥ, jₒ], l2_abab [lₒ, kₒ, dᵥ, cᵥ], t2_abab [aᵥ, eᵥ, lₒ, kₒ], t2_abab [dᵥ, cᵥ, iₒ, mₒ]], [(1, [aᵥ, bᵥ, iₒ, jₒ])]⟩,
  -- line 2472: mbej,lkcd,aelk,cdim->abij
  ⟨1/4, [g_bbbb [mₒ, bᵥ, eᵥ, jₒ], l2_abab [lₒ, kₒ, cᵥ, dᵥ], t2_abab [aᵥ, eᵥ, lₒ, kₒ], t2_abab [cᵥ, dᵥ, iₒ, mₒ]], [(1, [aᵥ, bᵥ, iₒ, jₒ])]⟩,
  -- line 2475: maei,kldc,ebkl,dcmj->abij
  ⟨1/4, [g_aaaa [mₒ, aᵥ, eᵥ, iₒ], l2_abab [kₒ, lₒ, dᵥ, cᵥ], t2_abab [eᵥ, bᵥ, kₒ, lₒ], t2_abab [dᵥ, cᵥ, mₒ, jₒ]], [(1, [aᵥ, bᵥ, iₒ, jₒ])]⟩,
  -- line 2478: maei,klcd,ebkl,cdmj->abij
  ⟨1/4, [g_aaaa [mₒ, aᵥ, eᵥ, iₒ], l2_abab [kₒ, lₒ, cᵥ, dᵥ], t2_abab [eᵥ, bᵥ, kₒ, lₒ], t2_abab [cᵥ, dᵥ, mₒ, jₒ]], [(1, [aᵥ, bᵥ, iₒ, jₒ])]⟩,
  -- line 2481: maei,lkdc,eblk,dcmj->abij
  ⟨1/4, [g_aaaa [mₒ, aᵥ, eᵥ, iₒ], l2_abab [lₒ, kₒ, dᵥ, cᵥ], t2_abab [eᵥ, bᵥ, lₒ, kₒ], t2_abab [dᵥ, cᵥ, mₒ, jₒ]], [(1, [aᵥ, bᵥ, iₒ, jₒ])]⟩,
  -- line 2484: maei,lkcd,eblk,cdmj->abij
  ⟨1/4, [g_aaaa [mₒ, aᵥ, eᵥ, iₒ], l2_abab [lₒ, kₒ, cᵥ, dᵥ], t2_abab [eᵥ, bᵥ, lₒ, kₒ], t2_abab [cᵥ, dᵥ, mₒ, jₒ]], [(1, [aᵥ, bᵥ, iₒ, jₒ])]⟩,
  -- line 2487: amie,kldc,ebkl,dcjm->abij
  ⟨-1/4, [g_abab [aᵥ, mₒ, iₒ, eᵥ], l2_bbbb [kₒ, lₒ, dᵥ, cᵥ], t2_bbbb [eᵥ, bᵥ, kₒ, lₒ], t2_bbbb [dᵥ, cᵥ, jₒ, mₒ]], [(1, [aᵥ, bᵥ, iₒ, jₒ])]⟩,
  -- line 2490: mbie,kldc,aekl,dcmj->abij
  ⟨-1/4, [g_abab [mₒ, bᵥ, iₒ, eᵥ], l2_abab [kₒ, lₒ, dᵥ, cᵥ], t2_abab [aᵥ, eᵥ, kₒ, lₒ], t2_abab [dᵥ, cᵥ, mₒ, jₒ]], [(1, [aᵥ, bᵥ, iₒ, jₒ])]⟩,
  -- line 2493: mbie,klcd,aekl,cdmj->abij
  ⟨-1/4, [g_abab [mₒ, bᵥ, iₒ, eᵥ], l2_abab [kₒ, lₒ, cᵥ, dᵥ], t2_abab [aᵥ, eᵥ, kₒ, lₒ], t2_abab [cᵥ, dᵥ, mₒ, jₒ]], [(1, [aᵥ, bᵥ, iₒ, jₒ])]⟩,
  -- line 2496: mbie,lkdc,aelk,dcmj->abij
  ⟨-1/4, [g_abab [mₒ, bᵥ, iₒ, eᵥ], l2_abab [lₒ, kₒ, dᵥ, cᵥ], t2_abab [aᵥ, eᵥ, lₒ, kₒ], t2_abab [dᵥ, cᵥ, mₒ, jₒ]], [(1, [aᵥ, bᵥ, iₒ, jₒ])]⟩,
  -- line 2499: mbie,lkcd,aelk,cdmj->abij
  ⟨-1/4, [g_abab [mₒ, bᵥ, iₒ, eᵥ], l2_abab [lₒ, kₒ, cᵥ, dᵥ], t2_abab [aᵥ, eᵥ, lₒ, kₒ], t2_abab [cᵥ, dᵥ, mₒ, jₒ]], [(1, [aᵥ, bᵥ, iₒ, jₒ])]⟩,
  -- line 2502: amej,kldc,ebil,dckm->abij
  ⟨1/2, [g_abab [aᵥ, mₒ, eᵥ, jₒ], l2_abab [kₒ, lₒ, dᵥ, cᵥ], t2_abab [eᵥ, bᵥ, iₒ, lₒ], t2_abab [dᵥ, cᵥ, kₒ, mₒ]], [(1, [aᵥ, bᵥ, iₒ, jₒ])]⟩,
  -- line 2505: amej,klcd,ebil,cdkm->abij
  ⟨1/2, [g_abab [aᵥ, mₒ, eᵥ, jₒ], l2_abab [kₒ, lₒ, cᵥ, dᵥ], t2_abab [eᵥ, bᵥ, iₒ, lₒ], t2_abab [cᵥ, dᵥ, kₒ, mₒ]], [(1, [aᵥ, bᵥ, iₒ, jₒ])]⟩,
  -- line 2508: amej,kldc,ebil,dckm->abij
  ⟨1/2, [g_abab [aᵥ, mₒ, eᵥ, jₒ], l2_bbbb [kₒ, lₒ, dᵥ, cᵥ], t2_abab [eᵥ, bᵥ, iₒ, lₒ], t2_bbbb [dᵥ, cᵥ, kₒ, mₒ]], [(1, [aᵥ, bᵥ, iₒ, jₒ])]⟩,
  -- line 2511: mbej,kldc,eail,dckm->abij
  ⟨1/2, [g_abab [mₒ, bᵥ, eᵥ, jₒ], l2_aaaa [kₒ, lₒ, dᵥ, cᵥ], t2_aaaa [eᵥ, aᵥ, iₒ, lₒ], t2_aaaa [dᵥ, cᵥ, kₒ, mₒ]], [(1, [aᵥ, bᵥ, iₒ, jₒ])]⟩
  ]

/-- Part 7 of `test_t2_abab`. -/
def test_t2_abab_7 : Prog := [
  -- line 2514: mbej,kldc,aeil,dckm->abij
  ⟨-1/2, [g_bbbb [mₒ, bᵥ, eᵥ, jₒ], l2_abab [kₒ, lₒ, dᵥ, cᵥ], t2_abab [aᵥ, eᵥ, iₒ, lₒ], t2_abab [dᵥ, cᵥ, kₒ, mₒ]], [(1, [aᵥ, bᵥ, iₒ, jₒ])]⟩,
  -- line 2517: mbej,klcd,aeil,cdkm->abij
  ⟨-1/2, [g_bbbb [mₒ, bᵥ, eᵥ, jₒ], l2_abab [kₒ, lₒ, cᵥ, dᵥ], t2_abab [aᵥ, eᵥ, iₒ, lₒ], t2_abab [cᵥ, dᵥ, kₒ, mₒ]], [(1, [aᵥ, bᵥ, iₒ, jₒ])]⟩,
  -- line 2520: mbej,lkdc,eail,dcmk->abij
  ⟨1/2, [g_abab [mₒ, bᵥ, eᵥ, jₒ], l2_abab [lₒ, kₒ, dᵥ, cᵥ], t2_aaaa [eᵥ, aᵥ, iₒ, lₒ], t2_abab [dᵥ, cᵥ, mₒ, kₒ]], [(1, [aᵥ, bᵥ, iₒ, jₒ])]⟩,
  -- line 2523: mbej,lkcd,eail,cdmk->abij
  ⟨1/2, [g_abab [mₒ, bᵥ, eᵥ, jₒ], l2_abab [lₒ, kₒ, cᵥ, dᵥ], t2_aaaa [eᵥ, aᵥ, iₒ, lₒ], t2_abab [cᵥ, dᵥ, mₒ, kₒ]], [(1, [aᵥ, bᵥ, iₒ, jₒ])]⟩,
  -- line 2526: mbej,kldc,aeil,dckm->abij
  ⟨-1/2, [g_bbbb [mₒ, bᵥ, eᵥ, jₒ], l2_bbbb [kₒ, lₒ, dᵥ, cᵥ], t2_abab [aᵥ, eᵥ, iₒ, lₒ], t2_bbbb [dᵥ, cᵥ, kₒ, mₒ]], [(1, [aᵥ, bᵥ, iₒ, jₒ])]⟩,
  -- line 2529: maei,kldc,eblj,dckm->abij
  ⟨-1/2, [g_aaaa [mₒ, aᵥ, eᵥ, iₒ], l2_aaaa [kₒ, lₒ, dᵥ, cᵥ], t2_abab [eᵥ, bᵥ, lₒ, jₒ], t2_aaaa [dᵥ, cᵥ, kₒ, mₒ]], [(1, [aᵥ, bᵥ, iₒ, jₒ])]⟩,
  -- line 2532: amie,kldc,ebjl,dckm->abij
  ⟨1/2, [g_abab [aᵥ, mₒ, iₒ, eᵥ], l2_abab [kₒ, lₒ, dᵥ, cᵥ], t2_bbbb [eᵥ, bᵥ, jₒ, lₒ], t2_abab [dᵥ, cᵥ, kₒ, mₒ]], [(1, [aᵥ, bᵥ, iₒ, jₒ])]⟩,
  -- line 2535: amie,klcd,ebjl,cdkm->abij
  ⟨1/2, [g_abab [aᵥ, mₒ, iₒ, eᵥ], l2_abab [kₒ, lₒ, cᵥ, dᵥ], t2_bbbb [eᵥ, bᵥ, jₒ, lₒ], t2_abab [cᵥ, dᵥ, kₒ, mₒ]], [(1, [aᵥ, bᵥ, iₒ, jₒ])]⟩,
  -- line 2538: maei,lkdc,eblj,dcmk->abij
  ⟨-1/2, [g_aaaa [mₒ, aᵥ, eᵥ, iₒ], l2_abab [lₒ, kₒ, dᵥ, cᵥ], t2_abab [eᵥ, bᵥ, lₒ, jₒ], t2_abab [dᵥ, cᵥ, mₒ, kₒ]], [(1, [aᵥ, bᵥ, iₒ, jₒ])]⟩,
  -- line 2541: maei,lkcd,eblj,cdmk->abij
  ⟨-1/2, [g_aaaa [mₒ, aᵥ, eᵥ, iₒ], l2_abab [lₒ, kₒ, cᵥ, dᵥ], t2_abab [eᵥ, bᵥ, lₒ, jₒ], t2_abab [cᵥ, dᵥ, mₒ, kₒ]], [(1, [aᵥ, bᵥ, iₒ, jₒ])]⟩,
  -- line 2544: amie,kldc,ebjl,dckm->abij
  ⟨1/2, [g_abab [aᵥ, mₒ, iₒ, eᵥ], l2_bbbb [kₒ, lₒ, dᵥ, cᵥ], t2_bbbb [eᵥ, bᵥ, jₒ, lₒ], t2_bbbb [dᵥ, cᵥ, kₒ, mₒ]], [(1, [aᵥ, bᵥ, iₒ, jₒ])]⟩,
  -- line 2547: mbie,kldc,aelj,dckm->abij
  ⟨1/2, [g_abab [mₒ, bᵥ, iₒ, eᵥ], l2_aaaa [kₒ, lₒ, dᵥ, cᵥ], t2_abab [aᵥ, eᵥ, lₒ, jₒ], t2_aaaa [dᵥ, cᵥ, kₒ, mₒ]], [(1, [aᵥ, bᵥ, iₒ, jₒ])]⟩,
  -- line 2550: mbie,lkdc,aelj,dcmk->abij
  ⟨1/2, [g_abab [mₒ, bᵥ, iₒ, eᵥ], l2_abab [lₒ, kₒ, dᵥ, cᵥ], t2_abab [aᵥ, eᵥ, lₒ, jₒ], t2_abab [dᵥ, cᵥ, mₒ, kₒ]], [(1, [aᵥ, bᵥ, iₒ, jₒ])]⟩,
  -- line 2553: mbie,lkcd,aelj,cdmk->abij
  ⟨1/2, [g_abab [mₒ, bᵥ, iₒ, eᵥ], l2_abab [lₒ, kₒ, cᵥ, dᵥ], t2_abab [aᵥ, eᵥ, lₒ, jₒ], t2_abab [cᵥ, dᵥ, mₒ, kₒ]], [(1, [aᵥ, bᵥ, iₒ, jₒ])]⟩,
  -- line 2556: dcef,kldc,eakl,fbij->abij
  ⟨-1/4, [g_aaaa [dᵥ, cᵥ, eᵥ, fᵥ], l2_aaaa [kₒ, lₒ, dᵥ, cᵥ], t2_aaaa [eᵥ, aᵥ, kₒ, lₒ], t2_abab [fᵥ, bᵥ, iₒ, jₒ]], [(1, [aᵥ, bᵥ, iₒ, jₒ])]⟩,
  -- line 2559: dcfe,kldc,aekl,fbij->abij
  ⟨-1/4, [g_abab [dᵥ, cᵥ, fᵥ, eᵥ], l2_abab [kₒ, lₒ, dᵥ, cᵥ], t2_abab [aᵥ, eᵥ, kₒ, lₒ], t2_abab [fᵥ, bᵥ, iₒ, jₒ]], [(1, [aᵥ, bᵥ, iₒ, jₒ])]⟩,
  -- line 2562: cdfe,klcd,aekl,fbij->abij
  ⟨-1/4, [g_abab [cᵥ, dᵥ, fᵥ, eᵥ], l2_abab [kₒ, lₒ, cᵥ, dᵥ], t2_abab [aᵥ, eᵥ, kₒ, lₒ], t2_abab [fᵥ, bᵥ, iₒ, jₒ]], [(1, [aᵥ, bᵥ, iₒ, jₒ])]⟩,
  -- line 2565: dcfe,lkdc,aelk,fbij->abij
  ⟨-1/4, [g_abab [dᵥ, cᵥ, fᵥ, eᵥ], l2_abab [lₒ, kₒ, dᵥ, cᵥ], t2_abab [aᵥ, eᵥ, lₒ, kₒ], t2_abab [fᵥ, bᵥ, iₒ, jₒ]], [(1, [aᵥ, bᵥ, iₒ, jₒ])]⟩,
  -- line 2568: cdfe,lkcd,aelk,fbij->abij
  ⟨-1/4, [g_abab [cᵥ, dᵥ, fᵥ, eᵥ], l2_abab [lₒ, kₒ, cᵥ, dᵥ], t2_abab [aᵥ, eᵥ, lₒ, kₒ], t2_abab [fᵥ, bᵥ, iₒ, jₒ]], [(1, [aᵥ, bᵥ, iₒ, jₒ])]⟩,
  -- line 2571: dcfe,lkdc,aelj,fbik->abij
  ⟨1/2, [g_abab [dᵥ, cᵥ, fᵥ, eᵥ], l2_abab [lₒ, kₒ, dᵥ, cᵥ], t2_abab [aᵥ, eᵥ, lₒ, jₒ], t2_abab [fᵥ, bᵥ, iₒ, kₒ]], [(1, [aᵥ, bᵥ, iₒ, jₒ])]⟩,
  -- line 2574: cdfe,lkcd,aelj,fbik->abij
  ⟨1/2, [g_abab [cᵥ, dᵥ, fᵥ, eᵥ], l2_abab [lₒ, kₒ, cᵥ, dᵥ], t2_abab [aᵥ, eᵥ, lₒ, jₒ], t2_abab [fᵥ, bᵥ, iₒ, kₒ]], [(1, [aᵥ, bᵥ, iₒ, jₒ])]⟩,
  -- line 2577: dcef,kldc,eail,fbkj->abij
  ⟨1/2, [g_aaaa [dᵥ, cᵥ, eᵥ, fᵥ], l2_aaaa [kₒ, lₒ, dᵥ, cᵥ], t2_aaaa [eᵥ, aᵥ, iₒ, lₒ], t2_abab [fᵥ, bᵥ, kₒ, jₒ]], [(1, [aᵥ, bᵥ, iₒ, jₒ])]⟩,
  -- line 2580: dcfe,kldc,aeil,fbkj->abij
  ⟨1/2, [g_abab [dᵥ, cᵥ, fᵥ, eᵥ], l2_abab [kₒ, lₒ, dᵥ, cᵥ], t2_abab [aᵥ, eᵥ, iₒ, lₒ], t2_abab [fᵥ, bᵥ, kₒ, jₒ]], [(1, [aᵥ, bᵥ, iₒ, jₒ])]⟩,
  -- line 2583: cdfe,klcd,aeil,fbkj->abij
  ⟨1/2, [g_abab [cᵥ, dᵥ, fᵥ, eᵥ], l2_abab [kₒ, lₒ, cᵥ, dᵥ], t2_abab [aᵥ, eᵥ, iₒ, lₒ], t2_abab [fᵥ, bᵥ, kₒ, jₒ]], [(1, [aᵥ, bᵥ, iₒ, jₒ])]⟩,
  -- line 2586: dcef,lkdc,eail,fbjk->abij
  ⟨1/2, [g_abab [dᵥ, cᵥ, eᵥ, fᵥ], l2_abab [lₒ, kₒ, dᵥ, cᵥ], t2_aaaa [eᵥ, aᵥ, iₒ, lₒ], t2_bbbb [fᵥ, bᵥ, jₒ, kₒ]], [(1, [aᵥ, bᵥ, iₒ, jₒ])]⟩,
  -- line 2589: cdef,lkcd,eail,fbjk->abij
  ⟨1/2, [g_abab [cᵥ, dᵥ, eᵥ, fᵥ], l2_abab [lₒ, kₒ, cᵥ, dᵥ], t2_aaaa [eᵥ, aᵥ, iₒ, lₒ], t2_bbbb [fᵥ, bᵥ, jₒ, kₒ]], [(1, [aᵥ, bᵥ, iₒ, jₒ])]⟩,
  -- line 2592: dcef,kldc,aeil,fbjk->abij
  ⟨1/2, [g_bbbb [dᵥ, cᵥ, eᵥ, fᵥ], l2_bbbb [kₒ, lₒ, dᵥ, cᵥ], t2_abab [aᵥ, eᵥ, iₒ, lₒ], t2_bbbb [fᵥ, bᵥ, jₒ, kₒ]], [(1, [aᵥ, bᵥ, iₒ, jₒ])]⟩,
  -- line 2595: dcfe,kldc,aeij,fbkl->abij
  ⟨-1/4, [g_abab [dᵥ, cᵥ, fᵥ, eᵥ], l2_abab [kₒ, lₒ, dᵥ, cᵥ], t2_abab [aᵥ, eᵥ, iₒ, jₒ], t2_abab [fᵥ, bᵥ, kₒ, lₒ]], [(1, [aᵥ, bᵥ, iₒ, jₒ])]⟩,
  -- line 2598: cdfe,klcd,aeij,fbkl->abij
  ⟨-1/4, [g_abab [cᵥ, dᵥ, fᵥ, eᵥ], l2_abab [kₒ, lₒ, cᵥ, dᵥ], t2_abab [aᵥ, eᵥ, iₒ, jₒ], t2_abab [fᵥ, bᵥ, kₒ, lₒ]], [(1, [aᵥ, bᵥ, iₒ, jₒ])]⟩,
  -- line 2601: dcfe,lkdc,aeij,fblk->abij
  ⟨-1/4, [g_abab [dᵥ, cᵥ, fᵥ, eᵥ], l2_abab [lₒ, kₒ, dᵥ, cᵥ], t2_abab [aᵥ, eᵥ, iₒ, jₒ], t2_abab [fᵥ, bᵥ, lₒ, kₒ]], [(1, [aᵥ, bᵥ, iₒ, jₒ])]⟩,
  -- line 2604: cdfe,lkcd,aeij,fblk->abij
  ⟨-1/4, [g_abab [cᵥ, dᵥ, fᵥ, eᵥ], l2_abab [lₒ, kₒ, cᵥ, dᵥ], t2_abab [aᵥ, eᵥ, iₒ, jₒ], t2_abab [fᵥ, bᵥ, lₒ, kₒ]], [(1, [aᵥ, bᵥ, iₒ, jₒ])]⟩,
  -- line 2607: dcef,kldc,aeij,fbkl->abij
  ⟨1/4, [g_bbbb [dᵥ, cᵥ, eᵥ, fᵥ], l2_bbbb [kₒ, lₒ, dᵥ, cᵥ], t2_abab [aᵥ, eᵥ, iₒ, jₒ], t2_bbbb [fᵥ, bᵥ, kₒ, lₒ]], [(1, [aᵥ, bᵥ, iₒ, jₒ])]⟩,
  -- line 2610: daef,kldc,eckl,fbij->abij
  ⟨1/2, [g_aaaa [dᵥ, aᵥ, eᵥ, fᵥ], l2_aaaa [kₒ, lₒ, dᵥ, cᵥ], t2_aaaa [eᵥ, cᵥ, kₒ, lₒ], t2_abab [fᵥ, bᵥ, iₒ, jₒ]], [(1, [aᵥ, bᵥ, iₒ, jₒ])]⟩,
  -- line 2613: daef,kldc,eckl,fbij->abij
  ⟨1/2, [g_aaaa [dᵥ, aᵥ, eᵥ, fᵥ], l2_abab [kₒ, lₒ, dᵥ, cᵥ], t2_abab [eᵥ, cᵥ, kₒ, lₒ], t2_abab [fᵥ, bᵥ, iₒ, jₒ]], [(1, [aᵥ, bᵥ, iₒ, jₒ])]⟩,
  -- line 2616: adfe,klcd,cekl,fbij->abij
  ⟨1/2, [g_abab [aᵥ, dᵥ, fᵥ, eᵥ], l2_abab [kₒ, lₒ, cᵥ, dᵥ], t2_abab [cᵥ, eᵥ, kₒ, lₒ], t2_abab [fᵥ, bᵥ, iₒ, jₒ]], [(1, [aᵥ, bᵥ, iₒ, jₒ])]⟩,
  -- line 2619: daef,lkdc,eclk,fbij->abij
  ⟨1/2, [g_aaaa [dᵥ, aᵥ, eᵥ, fᵥ], l2_abab [lₒ, kₒ, dᵥ, cᵥ], t2_abab [eᵥ, cᵥ, lₒ, kₒ], t2_abab [fᵥ, bᵥ, iₒ, jₒ]], [(1, [aᵥ, bᵥ, iₒ, jₒ])]⟩,
  -- line 2622: adfe,lkcd,celk,fbij->abij
  ⟨1/2, [g_abab [aᵥ, dᵥ, fᵥ, eᵥ], l2_abab [lₒ, kₒ, cᵥ, dᵥ], t2_abab [cᵥ, eᵥ, lₒ, kₒ], t2_abab [fᵥ, bᵥ, iₒ, jₒ]], [(1, [aᵥ, bᵥ, iₒ, jₒ])]⟩,
  -- line 2625: adfe,kldc,eckl,fbij->abij
  ⟨1/2, [g_abab [aᵥ, dᵥ, fᵥ, eᵥ], l2_bbbb [kₒ, lₒ, dᵥ, cᵥ], t2_bbbb [eᵥ, cᵥ, kₒ, lₒ], t2_abab [fᵥ, bᵥ, iₒ, jₒ]], [(1, [aᵥ, bᵥ, iₒ, jₒ])]⟩,
  -- line 2628: dbef,kldc,eckl,afij->abij
  ⟨1/2, [g_abab [dᵥ, bᵥ, eᵥ, fᵥ], l2_aaaa [kₒ, lₒ, dᵥ, cᵥ], t2_aaaa [eᵥ, cᵥ, kₒ, lₒ], t2_abab [aᵥ, fᵥ, iₒ, jₒ]], [(1, [aᵥ, bᵥ, iₒ, jₒ])]⟩,
  -- line 2631: dbef,kldc,eckl,afij->abij
  ⟨1/2, [g_abab [dᵥ, bᵥ, eᵥ, fᵥ], l2_abab [kₒ, lₒ, dᵥ, cᵥ], t2_abab [eᵥ, cᵥ, kₒ, lₒ], t2_abab [aᵥ, fᵥ, iₒ, jₒ]], [(1, [aᵥ, bᵥ, iₒ, jₒ])]⟩
  ]

/-- Part 8 of `test_t2_abab`. -/
def test_t2_abab_8 : Prog := [
  -- line 2634: dbef,klcd,cekl,afij->abij
  ⟨1/2, [g_bbbb [dᵥ, bᵥ, eᵥ, fᵥ], l2_abab [kₒ, lₒ, cᵥ, dᵥ], t2_abab [cᵥ, eᵥ, kₒ, lₒ], t2_abab [aᵥ, fᵥ, iₒ, jₒ]], [(1, [aᵥ, bᵥ, iₒ, jₒ])]⟩,
  -- line 2637: dbef,lkdc,eclk,afij->abij
  ⟨1/2, [g_abab [dᵥ, bᵥ, eᵥ, fᵥ], l2_abab [lₒ, kₒ, dᵥ, cᵥ], t2_abab [eᵥ, cᵥ, lₒ, kₒ], t2_abab [aᵥ, fᵥ, iₒ, jₒ]], [(1, [aᵥ, bᵥ, iₒ, jₒ])]⟩,
  -- line 2640: dbef,lkcd,celk,afij->abij
  ⟨1/2, [g_bbbb [dᵥ, bᵥ, eᵥ, fᵥ], l2_abab [lₒ, kₒ, cᵥ, dᵥ], t2_abab [cᵥ, eᵥ, lₒ, kₒ], t2_abab [aᵥ, fᵥ, iₒ, jₒ]], [(1, [aᵥ, bᵥ, iₒ, jₒ])]⟩,
  -- line 2643: dbef,kldc,eckl,afij->abij
  ⟨1/2, [g_bbbb [dᵥ, bᵥ, eᵥ, fᵥ], l2_bbbb [kₒ, lₒ, dᵥ, cᵥ], t2_bbbb [eᵥ, cᵥ, kₒ, lₒ], t2_abab [aᵥ, fᵥ, iₒ, jₒ]], [(1, [aᵥ, bᵥ, iₒ, jₒ])]⟩,
  -- line 2646: daef,lkdc,eclj,fbik->abij
  ⟨-1, [g_aaaa [dᵥ, aᵥ, eᵥ, fᵥ], l2_abab [lₒ, kₒ, dᵥ, cᵥ], t2_abab [eᵥ, cᵥ, lₒ, jₒ], t2_abab [fᵥ, bᵥ, iₒ, kₒ]], [(1, [aᵥ, bᵥ, iₒ, jₒ])]⟩,
  -- line 2649: adfe,lkcd,celj,fbik->abij
  ⟨-1, [g_abab [aᵥ, dᵥ, fᵥ, eᵥ], l2_abab [lₒ, kₒ, cᵥ, dᵥ], t2_abab [cᵥ, eᵥ, lₒ, jₒ], t2_abab [fᵥ, bᵥ, iₒ, kₒ]], [(1, [aᵥ, bᵥ, iₒ, jₒ])]⟩,
  -- line 2652: adfe,kldc,ecjl,fbik->abij
  ⟨-1, [g_abab [aᵥ, dᵥ, fᵥ, eᵥ], l2_bbbb [kₒ, lₒ, dᵥ, cᵥ], t2_bbbb [eᵥ, cᵥ, jₒ, lₒ], t2_abab [fᵥ, bᵥ, iₒ, kₒ]], [(1, [aᵥ, bᵥ, iₒ, jₒ])]⟩,
  -- line 2655: dbfe,kldc,celj,faik->abij
  ⟨-1, [g_abab [dᵥ, bᵥ, fᵥ, eᵥ], l2_aaaa [kₒ, lₒ, dᵥ, cᵥ], t2_abab [cᵥ, eᵥ, lₒ, jₒ], t2_aaaa [fᵥ, aᵥ, iₒ, kₒ]], [(1, [aᵥ, bᵥ, iₒ, jₒ])]⟩,
  -- line 2658: dbfe,kldc,ecjl,faik->abij
  ⟨-1, [g_abab [dᵥ, bᵥ, fᵥ, eᵥ], l2_abab [kₒ, lₒ, dᵥ, cᵥ], t2_bbbb [eᵥ, cᵥ, jₒ, lₒ], t2_aaaa [fᵥ, aᵥ, iₒ, kₒ]], [(1, [aᵥ, bᵥ, iₒ, jₒ])]⟩,
  -- line 2661: dbef,lkdc,eclj,afik->abij
  ⟨-1, [g_abab [dᵥ, bᵥ, eᵥ, fᵥ], l2_abab [lₒ, kₒ, dᵥ, cᵥ], t2_abab [eᵥ, cᵥ, lₒ, jₒ], t2_abab [aᵥ, fᵥ, iₒ, kₒ]], [(1, [aᵥ, bᵥ, iₒ, jₒ])]⟩,
  -- line 2664: dbef,lkcd,celj,afik->abij
  ⟨-1, [g_bbbb [dᵥ, bᵥ, eᵥ, fᵥ], l2_abab [lₒ, kₒ, cᵥ, dᵥ], t2_abab [cᵥ, eᵥ, lₒ, jₒ], t2_abab [aᵥ, fᵥ, iₒ, kₒ]], [(1, [aᵥ, bᵥ, iₒ, jₒ])]⟩,
  -- line 2667: dbef,kldc,ecjl,afik->abij
  ⟨-1, [g_bbbb [dᵥ, bᵥ, eᵥ, fᵥ], l2_bbbb [kₒ, lₒ, dᵥ, cᵥ], t2_bbbb [eᵥ, cᵥ, jₒ, lₒ], t2_abab [aᵥ, fᵥ, iₒ, kₒ]], [(1, [aᵥ, bᵥ, iₒ, jₒ])]⟩,
  -- line 2670: daef,kldc,ecil,fbkj->abij
  ⟨-1, [g_aaaa [dᵥ, aᵥ, eᵥ, fᵥ], l2_aaaa [kₒ, lₒ, dᵥ, cᵥ], t2_aaaa [eᵥ, cᵥ, iₒ, lₒ], t2_abab [fᵥ, bᵥ, kₒ, jₒ]], [(1, [aᵥ, bᵥ, iₒ, jₒ])]⟩,
  -- line 2673: daef,kldc,ecil,fbkj->abij
  ⟨-1, [g_aaaa [dᵥ, aᵥ, eᵥ, fᵥ], l2_abab [kₒ, lₒ, dᵥ, cᵥ], t2_abab [eᵥ, cᵥ, iₒ, lₒ], t2_abab [fᵥ, bᵥ, kₒ, jₒ]], [(1, [aᵥ, bᵥ, iₒ, jₒ])]⟩,
  -- line 2676: adfe,klcd,ceil,fbkj->abij
  ⟨-1, [g_abab [aᵥ, dᵥ, fᵥ, eᵥ], l2_abab [kₒ, lₒ, cᵥ, dᵥ], t2_abab [cᵥ, eᵥ, iₒ, lₒ], t2_abab [fᵥ, bᵥ, kₒ, jₒ]], [(1, [aᵥ, bᵥ, iₒ, jₒ])]⟩,
  -- line 2679: adef,lkcd,ecil,fbjk->abij
  ⟨-1, [g_abab [aᵥ, dᵥ, eᵥ, fᵥ], l2_abab [lₒ, kₒ, cᵥ, dᵥ], t2_aaaa [eᵥ, cᵥ, iₒ, lₒ], t2_bbbb [fᵥ, bᵥ, jₒ, kₒ]], [(1, [aᵥ, bᵥ, iₒ, jₒ])]⟩,
  -- line 2682: adef,kldc,ecil,fbjk->abij
  ⟨-1, [g_abab [aᵥ, dᵥ, eᵥ, fᵥ], l2_bbbb [kₒ, lₒ, dᵥ, cᵥ], t2_abab [eᵥ, cᵥ, iₒ, lₒ], t2_bbbb [fᵥ, bᵥ, jₒ, kₒ]], [(1, [aᵥ, bᵥ, iₒ, jₒ])]⟩,
  -- line 2685: dbef,kldc,ecil,afkj->abij
  ⟨-1, [g_abab [dᵥ, bᵥ, eᵥ, fᵥ], l2_aaaa [kₒ, lₒ, dᵥ, cᵥ], t2_aaaa [eᵥ, cᵥ, iₒ, lₒ], t2_abab [aᵥ, fᵥ, kₒ, jₒ]], [(1, [aᵥ, bᵥ, iₒ, jₒ])]⟩,
  -- line 2688: dbef,kldc,ecil,afkj->abij
  ⟨-1, [g_abab [dᵥ, bᵥ, eᵥ, fᵥ], l2_abab [kₒ, lₒ, dᵥ, cᵥ], t2_abab [eᵥ, cᵥ, iₒ, lₒ], t2_abab [aᵥ, fᵥ, kₒ, jₒ]], [(1, [aᵥ, bᵥ, iₒ, jₒ])]⟩,
  -- line 2691: dbef,klcd,ceil,afkj->abij
  ⟨-1, [g_bbbb [dᵥ, bᵥ, eᵥ, fᵥ], l2_abab [kₒ, lₒ, cᵥ, dᵥ], t2_abab [cᵥ, eᵥ, iₒ, lₒ], t2_abab [aᵥ, fᵥ, kₒ, jₒ]], [(1, [aᵥ, bᵥ, iₒ, jₒ])]⟩,
  -- line 2694: daef,kldc,ecij,fbkl->abij
  ⟨1/2, [g_aaaa [dᵥ, aᵥ, eᵥ, fᵥ], l2_abab [kₒ, lₒ, dᵥ, cᵥ], t2_abab [eᵥ, cᵥ, iₒ, jₒ], t2_abab [fᵥ, bᵥ, kₒ, lₒ]], [(1, [aᵥ, bᵥ, iₒ, jₒ])]⟩,
  -- line 2697: adfe,klcd,ceij,fbkl->abij
  ⟨1/2, [g_abab [aᵥ, dᵥ, fᵥ, eᵥ], l2_abab [kₒ, lₒ, cᵥ, dᵥ], t2_abab [cᵥ, eᵥ, iₒ, jₒ], t2_abab [fᵥ, bᵥ, kₒ, lₒ]], [(1, [aᵥ, bᵥ, iₒ, jₒ])]⟩,
  -- line 2700: daef,lkdc,ecij,fblk->abij
  ⟨1/2, [g_aaaa [dᵥ, aᵥ, eᵥ, fᵥ], l2_abab [lₒ, kₒ, dᵥ, cᵥ], t2_abab [eᵥ, cᵥ, iₒ, jₒ], t2_abab [fᵥ, bᵥ, lₒ, kₒ]], [(1, [aᵥ, bᵥ, iₒ, jₒ])]⟩,
  -- line 2703: adfe,lkcd,ceij,fblk->abij
  ⟨1/2, [g_abab [aᵥ, dᵥ, fᵥ, eᵥ], l2_abab [lₒ, kₒ, cᵥ, dᵥ], t2_abab [cᵥ, eᵥ, iₒ, jₒ], t2_abab [fᵥ, bᵥ, lₒ, kₒ]], [(1, [aᵥ, bᵥ, iₒ, jₒ])]⟩,
  -- line 2706: adef,kldc,ecij,fbkl->abij
  ⟨-1/2, [g_abab [aᵥ, dᵥ, eᵥ, fᵥ], l2_bbbb [kₒ, lₒ, dᵥ, cᵥ], t2_abab [eᵥ, cᵥ, iₒ, jₒ], t2_bbbb [fᵥ, bᵥ, kₒ, lₒ]], [(1, [aᵥ, bᵥ, iₒ, jₒ])]⟩,
  -- line 2709: dbfe,kldc,ceij,fakl->abij
  ⟨-1/2, [g_abab [dᵥ, bᵥ, fᵥ, eᵥ], l2_aaaa [kₒ, lₒ, dᵥ, cᵥ], t2_abab [cᵥ, eᵥ, iₒ, jₒ], t2_aaaa [fᵥ, aᵥ, kₒ, lₒ]], [(1, [aᵥ, bᵥ, iₒ, jₒ])]⟩,
  -- line 2712: dbef,kldc,ecij,afkl->abij
  ⟨1/2, [g_abab [dᵥ, bᵥ, eᵥ, fᵥ], l2_abab [kₒ, lₒ, dᵥ, cᵥ], t2_abab [eᵥ, cᵥ, iₒ, jₒ], t2_abab [aᵥ, fᵥ, kₒ, lₒ]], [(1, [aᵥ, bᵥ, iₒ, jₒ])]⟩,
  -- line 2715: dbef,klcd,ceij,afkl->abij
  ⟨1/2, [g_bbbb [dᵥ, bᵥ, eᵥ, fᵥ], l2_abab [kₒ, lₒ, cᵥ, dᵥ], t2_abab [cᵥ, eᵥ, iₒ, jₒ], t2_abab [aᵥ, fᵥ, kₒ, lₒ]], [(1, [aᵥ, bᵥ, iₒ, jₒ])]⟩,
  -- line 2718: dbef,lkdc,ecij,aflk->abij
  ⟨1/2, [g_abab [dᵥ, bᵥ, eᵥ, fᵥ], l2_abab [lₒ, kₒ, dᵥ, cᵥ], t2_abab [eᵥ, cᵥ, iₒ, jₒ], t2_abab [aᵥ, fᵥ, lₒ, kₒ]], [(1, [aᵥ, bᵥ, iₒ, jₒ])]⟩,
  -- line 2721: dbef,lkcd,ceij,aflk->abij
  ⟨1/2, [g_bbbb [dᵥ, bᵥ, eᵥ, fᵥ], l2_abab [lₒ, kₒ, cᵥ, dᵥ], t2_abab [cᵥ, eᵥ, iₒ, jₒ], t2_abab [aᵥ, fᵥ, lₒ, kₒ]], [(1, [aᵥ, bᵥ, iₒ, jₒ])]⟩,
  -- line 2724: abef,kldc,edkl,cfij->abij
  ⟨1/2, [g_abab [aᵥ, bᵥ, eᵥ, fᵥ], l2_aaaa [kₒ, lₒ, dᵥ, cᵥ], t2_aaaa [eᵥ, dᵥ, kₒ, lₒ], t2_abab [cᵥ, fᵥ, iₒ, jₒ]], [(1, [aᵥ, bᵥ, iₒ, jₒ])]⟩,
  -- line 2727: abfe,kldc,dekl,fcij->abij
  ⟨-1/2, [g_abab [aᵥ, bᵥ, fᵥ, eᵥ], l2_abab [kₒ, lₒ, dᵥ, cᵥ], t2_abab [dᵥ, eᵥ, kₒ, lₒ], t2_abab [fᵥ, cᵥ, iₒ, jₒ]], [(1, [aᵥ, bᵥ, iₒ, jₒ])]⟩,
  -- line 2730: abef,klcd,edkl,cfij->abij
  ⟨-1/2, [g_abab [aᵥ, bᵥ, eᵥ, fᵥ], l2_abab [kₒ, lₒ, cᵥ, dᵥ], t2_abab [eᵥ, dᵥ, kₒ, lₒ], t2_abab [cᵥ, fᵥ, iₒ, jₒ]], [(1, [aᵥ, bᵥ, iₒ, jₒ])]⟩,
  -- line 2733: abfe,lkdc,delk,fcij->abij
  ⟨-1/2, [g_abab [aᵥ, bᵥ, fᵥ, eᵥ], l2_abab [lₒ, kₒ, dᵥ, cᵥ], t2_abab [dᵥ, eᵥ, lₒ, kₒ], t2_abab [fᵥ, cᵥ, iₒ, jₒ]], [(1, [aᵥ, bᵥ, iₒ, jₒ])]⟩,
  -- line 2736: abef,lkcd,edlk,cfij->abij
  ⟨-1/2, [g_abab [aᵥ, bᵥ, eᵥ, fᵥ], l2_abab [lₒ, kₒ, cᵥ, dᵥ], t2_abab [eᵥ, dᵥ, lₒ, kₒ], t2_abab [cᵥ, fᵥ, iₒ, jₒ]], [(1, [aᵥ, bᵥ, iₒ, jₒ])]⟩,
  -- line 2739: abfe,kldc,edkl,fcij->abij
  ⟨1/2, [g_abab [aᵥ, bᵥ, fᵥ, eᵥ], l2_bbbb [kₒ, lₒ, dᵥ, cᵥ], t2_bbbb [eᵥ, dᵥ, kₒ, lₒ], t2_abab [fᵥ, cᵥ, iₒ, jₒ]], [(1, [aᵥ, bᵥ, iₒ, jₒ])]⟩,
  -- line 2742: abfe,kldc,delj,fcik->abij
  ⟨-1/2, [g_abab [aᵥ, bᵥ, fᵥ, eᵥ], l2_aaaa [kₒ, lₒ, dᵥ, cᵥ], t2_abab [dᵥ, eᵥ, lₒ, jₒ], t2_aaaa [fᵥ, cᵥ, iₒ, kₒ]], [(1, [aᵥ, bᵥ, iₒ, jₒ])]⟩,
  -- line 2745: abfe,klcd,edjl,fcik->abij
  ⟨1/2, [g_abab [aᵥ, bᵥ, fᵥ, eᵥ], l2_abab [kₒ, lₒ, cᵥ, dᵥ], t2_bbbb [eᵥ, dᵥ, jₒ, lₒ], t2_aaaa [fᵥ, cᵥ, iₒ, kₒ]], [(1, [aᵥ, bᵥ, iₒ, jₒ])]⟩,
  -- line 2748: abfe,lkdc,delj,fcik->abij
  ⟨1/2, [g_abab [aᵥ, bᵥ, fᵥ, eᵥ], l2_abab [lₒ, kₒ, dᵥ, cᵥ], t2_abab [dᵥ, eᵥ, lₒ, jₒ], t2_abab [fᵥ, cᵥ, iₒ, kₒ]], [(1, [aᵥ, bᵥ, iₒ, jₒ])]⟩,
  -- line 2751: abef,lkcd,edlj,cfik->abij
  ⟨1/2, [g_abab [aᵥ, bᵥ, eᵥ, fᵥ], l2_abab [lₒ, kₒ, cᵥ, dᵥ], t2_abab [eᵥ, dᵥ, lₒ, jₒ], t2_abab [cᵥ, fᵥ, iₒ, kₒ]], [(1, [aᵥ, bᵥ, iₒ, jₒ])]⟩
  ]

/-- Part 9 of `test_t2_abab`. -/
def test_t2_abab_9 : Prog := [
  -- line 2754: abfe,kldc,edjl,fcik->abij
  ⟨-1/2, [g_abab [aᵥ, bᵥ, fᵥ, eᵥ], l2_bbbb [kₒ, lₒ, dᵥ, cᵥ], t2_bbbb [eᵥ, dᵥ, jₒ, lₒ], t2_abab [fᵥ, cᵥ, iₒ, kₒ]], [(1, [aᵥ, bᵥ, iₒ, jₒ])]⟩,
  -- line 2757: abef,kldc,edil,cfkj->abij
  ⟨-1/2, [g_abab [aᵥ, bᵥ, eᵥ, fᵥ], l2_aaaa [kₒ, lₒ, dᵥ, cᵥ], t2_aaaa [eᵥ, dᵥ, iₒ, lₒ], t2_abab [cᵥ, fᵥ, kₒ, jₒ]], [(1, [aᵥ, bᵥ, iₒ, jₒ])]⟩,
  -- line 2760: abfe,kldc,deil,fckj->abij
  ⟨1/2, [g_abab [aᵥ, bᵥ, fᵥ, eᵥ], l2_abab [kₒ, lₒ, dᵥ, cᵥ], t2_abab [dᵥ, eᵥ, iₒ, lₒ], t2_abab [fᵥ, cᵥ, kₒ, jₒ]], [(1, [aᵥ, bᵥ, iₒ, jₒ])]⟩,
  -- line 2763: abef,klcd,edil,cfkj->abij
  ⟨1/2, [g_abab [aᵥ, bᵥ, eᵥ, fᵥ], l2_abab [kₒ, lₒ, cᵥ, dᵥ], t2_abab [eᵥ, dᵥ, iₒ, lₒ], t2_abab [cᵥ, fᵥ, kₒ, jₒ]], [(1, [aᵥ, bᵥ, iₒ, jₒ])]⟩,
  -- line 2766: abef,lkdc,edil,fcjk->abij
  ⟨1/2, [g_abab [aᵥ, bᵥ, eᵥ, fᵥ], l2_abab [lₒ, kₒ, dᵥ, cᵥ], t2_aaaa [eᵥ, dᵥ, iₒ, lₒ], t2_bbbb [fᵥ, cᵥ, jₒ, kₒ]], [(1, [aᵥ, bᵥ, iₒ, jₒ])]⟩,
  -- line 2769: abef,kldc,edil,fcjk->abij
  ⟨-1/2, [g_abab [aᵥ, bᵥ, eᵥ, fᵥ], l2_bbbb [kₒ, lₒ, dᵥ, cᵥ], t2_abab [eᵥ, dᵥ, iₒ, lₒ], t2_bbbb [fᵥ, cᵥ, jₒ, kₒ]], [(1, [aᵥ, bᵥ, iₒ, jₒ])]⟩,
  -- line 2772: mdkl,kldc,cabimj->abij
  ⟨-1/2, [g_aaaa [mₒ, dᵥ, kₒ, lₒ], l2_aaaa [kₒ, lₒ, dᵥ, cᵥ], t3_aabaab [cᵥ, aᵥ, bᵥ, iₒ, mₒ, jₒ]], [(1, [aᵥ, bᵥ, iₒ, jₒ])]⟩,
  -- line 2775: dmkl,kldc,acbijm->abij
  ⟨1/2, [g_abab [dᵥ, mₒ, kₒ, lₒ], l2_abab [kₒ, lₒ, dᵥ, cᵥ], t3_abbabb [aᵥ, cᵥ, bᵥ, iₒ, jₒ, mₒ]], [(1, [aᵥ, bᵥ, iₒ, jₒ])]⟩,
  -- line 2778: mdkl,klcd,cabimj->abij
  ⟨1/2, [g_abab [mₒ, dᵥ, kₒ, lₒ], l2_abab [kₒ, lₒ, cᵥ, dᵥ], t3_aabaab [cᵥ, aᵥ, bᵥ, iₒ, mₒ, jₒ]], [(1, [aᵥ, bᵥ, iₒ, jₒ])]⟩,
  -- line 2781: dmlk,lkdc,acbijm->abij
  ⟨1/2, [g_abab [dᵥ, mₒ, lₒ, kₒ], l2_abab [lₒ, kₒ, dᵥ, cᵥ], t3_abbabb [aᵥ, cᵥ, bᵥ, iₒ, jₒ, mₒ]], [(1, [aᵥ, bᵥ, iₒ, jₒ])]⟩,
  -- line 2784: mdlk,lkcd,cabimj->abij
  ⟨1/2, [g_abab [mₒ, dᵥ, lₒ, kₒ], l2_abab [lₒ, kₒ, cᵥ, dᵥ], t3_aabaab [cᵥ, aᵥ, bᵥ, iₒ, mₒ, jₒ]], [(1, [aᵥ, bᵥ, iₒ, jₒ])]⟩,
  -- line 2787: mdkl,kldc,acbijm->abij
  ⟨-1/2, [g_bbbb [mₒ, dᵥ, kₒ, lₒ], l2_bbbb [kₒ, lₒ, dᵥ, cᵥ], t3_abbabb [aᵥ, cᵥ, bᵥ, iₒ, jₒ, mₒ]], [(1, [aᵥ, bᵥ, iₒ, jₒ])]⟩,
  -- line 2790: dmlj,kldc,cabikm->abij
  ⟨-1, [g_abab [dᵥ, mₒ, lₒ, jₒ], l2_aaaa [kₒ, lₒ, dᵥ, cᵥ], t3_aabaab [cᵥ, aᵥ, bᵥ, iₒ, kₒ, mₒ]], [(1, [aᵥ, bᵥ, iₒ, jₒ])]⟩,
  -- line 2793: mdjl,klcd,cabikm->abij
  ⟨1, [g_bbbb [mₒ, dᵥ, jₒ, lₒ], l2_abab [kₒ, lₒ, cᵥ, dᵥ], t3_aabaab [cᵥ, aᵥ, bᵥ, iₒ, kₒ, mₒ]], [(1, [aᵥ, bᵥ, iₒ, jₒ])]⟩,
  -- line 2796: dmlj,lkdc,acbikm->abij
  ⟨-1, [g_abab [dᵥ, mₒ, lₒ, jₒ], l2_abab [lₒ, kₒ, dᵥ, cᵥ], t3_abbabb [aᵥ, cᵥ, bᵥ, iₒ, kₒ, mₒ]], [(1, [aᵥ, bᵥ, iₒ, jₒ])]⟩,
  -- line 2799: mdlj,lkcd,cabimk->abij
  ⟨-1, [g_abab [mₒ, dᵥ, lₒ, jₒ], l2_abab [lₒ, kₒ, cᵥ, dᵥ], t3_aabaab [cᵥ, aᵥ, bᵥ, iₒ, mₒ, kₒ]], [(1, [aᵥ, bᵥ, iₒ, jₒ])]⟩,
  -- line 2802: mdjl,kldc,acbikm->abij
  ⟨1, [g_bbbb [mₒ, dᵥ, jₒ, lₒ], l2_bbbb [kₒ, lₒ, dᵥ, cᵥ], t3_abbabb [aᵥ, cᵥ, bᵥ, iₒ, kₒ, mₒ]], [(1, [aᵥ, bᵥ, iₒ, jₒ])]⟩,
  -- line 2805: mdil,kldc,cabmkj->abij
  ⟨-1, [g_aaaa [mₒ, dᵥ, iₒ, lₒ], l2_aaaa [kₒ, lₒ, dᵥ, cᵥ], t3_aabaab [cᵥ, aᵥ, bᵥ, mₒ, kₒ, jₒ]], [(1, [aᵥ, bᵥ, iₒ, jₒ])]⟩,
  -- line 2808: dmil,kldc,acbkjm->abij
  ⟨-1, [g_abab [dᵥ, mₒ, iₒ, lₒ], l2_abab [kₒ, lₒ, dᵥ, cᵥ], t3_abbabb [aᵥ, cᵥ, bᵥ, kₒ, jₒ, mₒ]], [(1, [aᵥ, bᵥ, iₒ, jₒ])]⟩,
  -- line 2811: mdil,klcd,cabmkj->abij
  ⟨1, [g_abab [mₒ, dᵥ, iₒ, lₒ], l2_abab [kₒ, lₒ, cᵥ, dᵥ], t3_aabaab [cᵥ, aᵥ, bᵥ, mₒ, kₒ, jₒ]], [(1, [aᵥ, bᵥ, iₒ, jₒ])]⟩,
  -- line 2814: mdil,lkdc,acbmkj->abij
  ⟨-1, [g_aaaa [mₒ, dᵥ, iₒ, lₒ], l2_abab [lₒ, kₒ, dᵥ, cᵥ], t3_abbabb [aᵥ, cᵥ, bᵥ, mₒ, kₒ, jₒ]], [(1, [aᵥ, bᵥ, iₒ, jₒ])]⟩,
  -- line 2817: mdil,kldc,acbmkj->abij
  ⟨1, [g_abab [mₒ, dᵥ, iₒ, lₒ], l2_bbbb [kₒ, lₒ, dᵥ, cᵥ], t3_abbabb [aᵥ, cᵥ, bᵥ, mₒ, kₒ, jₒ]], [(1, [aᵥ, bᵥ, iₒ, jₒ])]⟩,
  -- line 2820: dmij,kldc,cabklm->abij
  ⟨-1/2, [g_abab [dᵥ, mₒ, iₒ, jₒ], l2_aaaa [kₒ, lₒ, dᵥ, cᵥ], t3_aabaab [cᵥ, aᵥ, bᵥ, kₒ, lₒ, mₒ]], [(1, [aᵥ, bᵥ, iₒ, jₒ])]⟩,
  -- line 2823: dmij,kldc,acbklm->abij
  ⟨1/2, [g_abab [dᵥ, mₒ, iₒ, jₒ], l2_abab [kₒ, lₒ, dᵥ, cᵥ], t3_abbabb [aᵥ, cᵥ, bᵥ, kₒ, lₒ, mₒ]], [(1, [aᵥ, bᵥ, iₒ, jₒ])]⟩,
  -- line 2826: mdij,klcd,cabkml->abij
  ⟨1/2, [g_abab [mₒ, dᵥ, iₒ, jₒ], l2_abab [kₒ, lₒ, cᵥ, dᵥ], t3_aabaab [cᵥ, aᵥ, bᵥ, kₒ, mₒ, lₒ]], [(1, [aᵥ, bᵥ, iₒ, jₒ])]⟩,
  -- line 2829: dmij,lkdc,acblkm->abij
  ⟨1/2, [g_abab [dᵥ, mₒ, iₒ, jₒ], l2_abab [lₒ, kₒ, dᵥ, cᵥ], t3_abbabb [aᵥ, cᵥ, bᵥ, lₒ, kₒ, mₒ]], [(1, [aᵥ, bᵥ, iₒ, jₒ])]⟩,
  -- line 2832: mdij,lkcd,cabmlk->abij
  ⟨-1/2, [g_abab [mₒ, dᵥ, iₒ, jₒ], l2_abab [lₒ, kₒ, cᵥ, dᵥ], t3_aabaab [cᵥ, aᵥ, bᵥ, mₒ, lₒ, kₒ]], [(1, [aᵥ, bᵥ, iₒ, jₒ])]⟩,
  -- line 2835: mdij,kldc,acbmlk->abij
  ⟨1/2, [g_abab [mₒ, dᵥ, iₒ, jₒ], l2_bbbb [kₒ, lₒ, dᵥ, cᵥ], t3_abbabb [aᵥ, cᵥ, bᵥ, mₒ, lₒ, kₒ]], [(1, [aᵥ, bᵥ, iₒ, jₒ])]⟩,
  -- line 2838: makl,kldc,dcbimj->abij
  ⟨-1/4, [g_aaaa [mₒ, aᵥ, kₒ, lₒ], l2_aaaa [kₒ, lₒ, dᵥ, cᵥ], t3_aabaab [dᵥ, cᵥ, bᵥ, iₒ, mₒ, jₒ]], [(1, [aᵥ, bᵥ, iₒ, jₒ])]⟩,
  -- line 2841: amkl,kldc,dcbijm->abij
  ⟨-1/4, [g_abab [aᵥ, mₒ, kₒ, lₒ], l2_abab [kₒ, lₒ, dᵥ, cᵥ], t3_abbabb [dᵥ, cᵥ, bᵥ, iₒ, jₒ, mₒ]], [(1, [aᵥ, bᵥ, iₒ, jₒ])]⟩,
  -- line 2844: amkl,klcd,cdbijm->abij
  ⟨-1/4, [g_abab [aᵥ, mₒ, kₒ, lₒ], l2_abab [kₒ, lₒ, cᵥ, dᵥ], t3_abbabb [cᵥ, dᵥ, bᵥ, iₒ, jₒ, mₒ]], [(1, [aᵥ, bᵥ, iₒ, jₒ])]⟩,
  -- line 2847: amlk,lkdc,dcbijm->abij
  ⟨-1/4, [g_abab [aᵥ, mₒ, lₒ, kₒ], l2_abab [lₒ, kₒ, dᵥ, cᵥ], t3_abbabb [dᵥ, cᵥ, bᵥ, iₒ, jₒ, mₒ]], [(1, [aᵥ, bᵥ, iₒ, jₒ])]⟩,
  -- line 2850: amlk,lkcd,cdbijm->abij
  ⟨-1/4, [g_abab [aᵥ, mₒ, lₒ, kₒ], l2_abab [lₒ, kₒ, cᵥ, dᵥ], t3_abbabb [cᵥ, dᵥ, bᵥ, iₒ, jₒ, mₒ]], [(1, [aᵥ, bᵥ, iₒ, jₒ])]⟩,
  -- line 2853: mbkl,kldc,dacimj->abij
  ⟨-1/4, [g_abab [mₒ, bᵥ, kₒ, lₒ], l2_abab [kₒ, lₒ, dᵥ, cᵥ], t3_aabaab [dᵥ, aᵥ, cᵥ, iₒ, mₒ, jₒ]], [(1, [aᵥ, bᵥ, iₒ, jₒ])]⟩,
  -- line 2856: mbkl,klcd,acdimj->abij
  ⟨1/4, [g_abab [mₒ, bᵥ, kₒ, lₒ], l2_abab [kₒ, lₒ, cᵥ, dᵥ], t3_aabaab [aᵥ, cᵥ, dᵥ, iₒ, mₒ, jₒ]], [(1, [aᵥ, bᵥ, iₒ, jₒ])]⟩,
  -- line 2859: mblk,lkdc,dacimj->abij
  ⟨-1/4, [g_abab [mₒ, bᵥ, lₒ, kₒ], l2_abab [lₒ, kₒ, dᵥ, cᵥ], t3_aabaab [dᵥ, aᵥ, cᵥ, iₒ, mₒ, jₒ]], [(1, [aᵥ, bᵥ, iₒ, jₒ])]⟩,
  -- line 2862: mblk,lkcd,acdimj->abij
  ⟨1/4, [g_abab [mₒ, bᵥ, lₒ, kₒ], l2_abab [lₒ, kₒ, cᵥ, dᵥ], t3_aabaab [aᵥ, cᵥ, dᵥ, iₒ, mₒ, jₒ]], [(1, [aᵥ, bᵥ, iₒ, jₒ])]⟩,
  -- line 2865: mbkl,kldc,acdijm->abij
  ⟨1/4, [g_bbbb [mₒ, bᵥ, kₒ, lₒ], l2_bbbb [kₒ, lₒ, dᵥ, cᵥ], t3_abbabb [aᵥ, cᵥ, dᵥ, iₒ, jₒ, mₒ]], [(1, [aᵥ, bᵥ, iₒ, jₒ])]⟩,
  -- line 2868: amlj,kldc,dcbikm->abij
  ⟨-1/2, [g_abab [aᵥ, mₒ, lₒ, jₒ], l2_aaaa [kₒ, lₒ, dᵥ, cᵥ], t3_aabaab [dᵥ, cᵥ, bᵥ, iₒ, kₒ, mₒ]], [(1, [aᵥ, bᵥ, iₒ, jₒ])]⟩,
  -- line 2871: amlj,lkdc,dcbikm->abij
  ⟨1/2, [g_abab [aᵥ, mₒ, lₒ, jₒ], l2_abab [lₒ, kₒ, dᵥ, cᵥ], t3_abbabb [dᵥ, cᵥ, bᵥ, iₒ, kₒ, mₒ]], [(1, [aᵥ, bᵥ, iₒ, jₒ])]⟩
  ]

/-- Part 10 of `test_t2_abab`. -/
def test_t2_abab_10 : Prog := [
  -- line 2874: amlj,lkcd,cdbikm->abij
  ⟨1/2, [g_abab [aᵥ, mₒ, lₒ, jₒ], l2_abab [lₒ, kₒ, cᵥ, dᵥ], t3_abbabb [cᵥ, dᵥ, bᵥ, iₒ, kₒ, mₒ]], [(1, [aᵥ, bᵥ, iₒ, jₒ])]⟩,
  -- line 2877: mblj,kldc,dcaikm->abij
  ⟨-1/2, [g_abab [mₒ, bᵥ, lₒ, jₒ], l2_aaaa [kₒ, lₒ, dᵥ, cᵥ], t3_aaaaaa [dᵥ, cᵥ, aᵥ, iₒ, kₒ, mₒ]], [(1, [aᵥ, bᵥ, iₒ, jₒ])]⟩,
  -- line 2880: mbjl,kldc,dacikm->abij
  ⟨-1/2, [g_bbbb [mₒ, bᵥ, jₒ, lₒ], l2_abab [kₒ, lₒ, dᵥ, cᵥ], t3_aabaab [dᵥ, aᵥ, cᵥ, iₒ, kₒ, mₒ]], [(1, [aᵥ, bᵥ, iₒ, jₒ])]⟩,
  -- line 2883: mbjl,klcd,acdikm->abij
  ⟨1/2, [g_bbbb [mₒ, bᵥ, jₒ, lₒ], l2_abab [kₒ, lₒ, cᵥ, dᵥ], t3_aabaab [aᵥ, cᵥ, dᵥ, iₒ, kₒ, mₒ]], [(1, [aᵥ, bᵥ, iₒ, jₒ])]⟩,
  -- line 2886: mblj,lkdc,dacimk->abij
  ⟨1/2, [g_abab [mₒ, bᵥ, lₒ, jₒ], l2_abab [lₒ, kₒ, dᵥ, cᵥ], t3_aabaab [dᵥ, aᵥ, cᵥ, iₒ, mₒ, kₒ]], [(1, [aᵥ, bᵥ, iₒ, jₒ])]⟩,
  -- line 2889: mblj,lkcd,acdimk->abij
  ⟨-1/2, [g_abab [mₒ, bᵥ, lₒ, jₒ], l2_abab [lₒ, kₒ, cᵥ, dᵥ], t3_aabaab [aᵥ, cᵥ, dᵥ, iₒ, mₒ, kₒ]], [(1, [aᵥ, bᵥ, iₒ, jₒ])]⟩,
  -- line 2892: mbjl,kldc,acdikm->abij
  ⟨-1/2, [g_bbbb [mₒ, bᵥ, jₒ, lₒ], l2_bbbb [kₒ, lₒ, dᵥ, cᵥ], t3_abbabb [aᵥ, cᵥ, dᵥ, iₒ, kₒ, mₒ]], [(1, [aᵥ, bᵥ, iₒ, jₒ])]⟩,
  -- line 2895: mail,kldc,dcbmkj->abij
  ⟨-1/2, [g_aaaa [mₒ, aᵥ, iₒ, lₒ], l2_aaaa [kₒ, lₒ, dᵥ, cᵥ], t3_aabaab [dᵥ, cᵥ, bᵥ, mₒ, kₒ, jₒ]], [(1, [aᵥ, bᵥ, iₒ, jₒ])]⟩,
  -- line 2898: amil,kldc,dcbkjm->abij
  ⟨1/2, [g_abab [aᵥ, mₒ, iₒ, lₒ], l2_abab [kₒ, lₒ, dᵥ, cᵥ], t3_abbabb [dᵥ, cᵥ, bᵥ, kₒ, jₒ, mₒ]], [(1, [aᵥ, bᵥ, iₒ, jₒ])]⟩,
  -- line 2901: amil,klcd,cdbkjm->abij
  ⟨1/2, [g_abab [aᵥ, mₒ, iₒ, lₒ], l2_abab [kₒ, lₒ, cᵥ, dᵥ], t3_abbabb [cᵥ, dᵥ, bᵥ, kₒ, jₒ, mₒ]], [(1, [aᵥ, bᵥ, iₒ, jₒ])]⟩,
  -- line 2904: mail,lkdc,dcbmkj->abij
  ⟨1/2, [g_aaaa [mₒ, aᵥ, iₒ, lₒ], l2_abab [lₒ, kₒ, dᵥ, cᵥ], t3_abbabb [dᵥ, cᵥ, bᵥ, mₒ, kₒ, jₒ]], [(1, [aᵥ, bᵥ, iₒ, jₒ])]⟩,
  -- line 2907: mail,lkcd,cdbmkj->abij
  ⟨1/2, [g_aaaa [mₒ, aᵥ, iₒ, lₒ], l2_abab [lₒ, kₒ, cᵥ, dᵥ], t3_abbabb [cᵥ, dᵥ, bᵥ, mₒ, kₒ, jₒ]], [(1, [aᵥ, bᵥ, iₒ, jₒ])]⟩,
  -- line 2910: amil,kldc,dcbjkm->abij
  ⟨-1/2, [g_abab [aᵥ, mₒ, iₒ, lₒ], l2_bbbb [kₒ, lₒ, dᵥ, cᵥ], t3_bbbbbb [dᵥ, cᵥ, bᵥ, jₒ, kₒ, mₒ]], [(1, [aᵥ, bᵥ, iₒ, jₒ])]⟩,
  -- line 2913: mbil,kldc,dacmkj->abij
  ⟨-1/2, [g_abab [mₒ, bᵥ, iₒ, lₒ], l2_abab [kₒ, lₒ, dᵥ, cᵥ], t3_aabaab [dᵥ, aᵥ, cᵥ, mₒ, kₒ, jₒ]], [(1, [aᵥ, bᵥ, iₒ, jₒ])]⟩,
  -- line 2916: mbil,klcd,acdmkj->abij
  ⟨1/2, [g_abab [mₒ, bᵥ, iₒ, lₒ], l2_abab [kₒ, lₒ, cᵥ, dᵥ], t3_aabaab [aᵥ, cᵥ, dᵥ, mₒ, kₒ, jₒ]], [(1, [aᵥ, bᵥ, iₒ, jₒ])]⟩,
  -- line 2919: mbil,kldc,acdmkj->abij
  ⟨-1/2, [g_abab [mₒ, bᵥ, iₒ, lₒ], l2_bbbb [kₒ, lₒ, dᵥ, cᵥ], t3_abbabb [aᵥ, cᵥ, dᵥ, mₒ, kₒ, jₒ]], [(1, [aᵥ, bᵥ, iₒ, jₒ])]⟩,
  -- line 2922: amij,kldc,dcbklm->abij
  ⟨-1/4, [g_abab [aᵥ, mₒ, iₒ, jₒ], l2_aaaa [kₒ, lₒ, dᵥ, cᵥ], t3_aabaab [dᵥ, cᵥ, bᵥ, kₒ, lₒ, mₒ]], [(1, [aᵥ, bᵥ, iₒ, jₒ])]⟩,
  -- line 2925: amij,kldc,dcbklm->abij
  ⟨-1/4, [g_abab [aᵥ, mₒ, iₒ, jₒ], l2_abab [kₒ, lₒ, dᵥ, cᵥ], t3_abbabb [dᵥ, cᵥ, bᵥ, kₒ, lₒ, mₒ]], [(1, [aᵥ, bᵥ, iₒ, jₒ])]⟩,
  -- line 2928: amij,klcd,cdbklm->abij
  ⟨-1/4, [g_abab [aᵥ, mₒ, iₒ, jₒ], l2_abab [kₒ, lₒ, cᵥ, dᵥ], t3_abbabb [cᵥ, dᵥ, bᵥ, kₒ, lₒ, mₒ]], [(1, [aᵥ, bᵥ, iₒ, jₒ])]⟩,
  -- line 2931: amij,lkdc,dcblkm->abij
  ⟨-1/4, [g_abab [aᵥ, mₒ, iₒ, jₒ], l2_abab [lₒ, kₒ, dᵥ, cᵥ], t3_abbabb [dᵥ, cᵥ, bᵥ, lₒ, kₒ, mₒ]], [(1, [aᵥ, bᵥ, iₒ, jₒ])]⟩,
  -- line 2934: amij,lkcd,cdblkm->abij
  ⟨-1/4, [g_abab [aᵥ, mₒ, iₒ, jₒ], l2_abab [lₒ, kₒ, cᵥ, dᵥ], t3_abbabb [cᵥ, dᵥ, bᵥ, lₒ, kₒ, mₒ]], [(1, [aᵥ, bᵥ, iₒ, jₒ])]⟩,
  -- line 2937: amij,kldc,dcbklm->abij
  ⟨-1/4, [g_abab [aᵥ, mₒ, iₒ, jₒ], l2_bbbb [kₒ, lₒ, dᵥ, cᵥ], t3_bbbbbb [dᵥ, cᵥ, bᵥ, kₒ, lₒ, mₒ]], [(1, [aᵥ, bᵥ, iₒ, jₒ])]⟩,
  -- line 2940: mbij,kldc,dcaklm->abij
  ⟨-1/4, [g_abab [mₒ, bᵥ, iₒ, jₒ], l2_aaaa [kₒ, lₒ, dᵥ, cᵥ], t3_aaaaaa [dᵥ, cᵥ, aᵥ, kₒ, lₒ, mₒ]], [(1, [aᵥ, bᵥ, iₒ, jₒ])]⟩,
  -- line 2943: mbij,kldc,dackml->abij
  ⟨-1/4, [g_abab [mₒ, bᵥ, iₒ, jₒ], l2_abab [kₒ, lₒ, dᵥ, cᵥ], t3_aabaab [dᵥ, aᵥ, cᵥ, kₒ, mₒ, lₒ]], [(1, [aᵥ, bᵥ, iₒ, jₒ])]⟩,
  -- line 2946: mbij,klcd,acdkml->abij
  ⟨1/4, [g_abab [mₒ, bᵥ, iₒ, jₒ], l2_abab [kₒ, lₒ, cᵥ, dᵥ], t3_aabaab [aᵥ, cᵥ, dᵥ, kₒ, mₒ, lₒ]], [(1, [aᵥ, bᵥ, iₒ, jₒ])]⟩,
  -- line 2949: mbij,lkdc,dacmlk->abij
  ⟨1/4, [g_abab [mₒ, bᵥ, iₒ, jₒ], l2_abab [lₒ, kₒ, dᵥ, cᵥ], t3_aabaab [dᵥ, aᵥ, cᵥ, mₒ, lₒ, kₒ]], [(1, [aᵥ, bᵥ, iₒ, jₒ])]⟩,
  -- line 2952: mbij,lkcd,acdmlk->abij
  ⟨-1/4, [g_abab [mₒ, bᵥ, iₒ, jₒ], l2_abab [lₒ, kₒ, cᵥ, dᵥ], t3_aabaab [aᵥ, cᵥ, dᵥ, mₒ, lₒ, kₒ]], [(1, [aᵥ, bᵥ, iₒ, jₒ])]⟩,
  -- line 2955: mbij,kldc,acdmlk->abij
  ⟨-1/4, [g_abab [mₒ, bᵥ, iₒ, jₒ], l2_bbbb [kₒ, lₒ, dᵥ, cᵥ], t3_abbabb [aᵥ, cᵥ, dᵥ, mₒ, lₒ, kₒ]], [(1, [aᵥ, bᵥ, iₒ, jₒ])]⟩,
  -- line 2958: dcel,kldc,eabikj->abij
  ⟨-1/2, [g_aaaa [dᵥ, cᵥ, eᵥ, lₒ], l2_aaaa [kₒ, lₒ, dᵥ, cᵥ], t3_aabaab [eᵥ, aᵥ, bᵥ, iₒ, kₒ, jₒ]], [(1, [aᵥ, bᵥ, iₒ, jₒ])]⟩,
  -- line 2961: dcel,kldc,eabikj->abij
  ⟨-1/2, [g_abab [dᵥ, cᵥ, eᵥ, lₒ], l2_abab [kₒ, lₒ, dᵥ, cᵥ], t3_aabaab [eᵥ, aᵥ, bᵥ, iₒ, kₒ, jₒ]], [(1, [aᵥ, bᵥ, iₒ, jₒ])]⟩,
  -- line 2964: cdel,klcd,eabikj->abij
  ⟨-1/2, [g_abab [cᵥ, dᵥ, eᵥ, lₒ], l2_abab [kₒ, lₒ, cᵥ, dᵥ], t3_aabaab [eᵥ, aᵥ, bᵥ, iₒ, kₒ, jₒ]], [(1, [aᵥ, bᵥ, iₒ, jₒ])]⟩,
  -- line 2967: dcle,lkdc,aebijk->abij
  ⟨-1/2, [g_abab [dᵥ, cᵥ, lₒ, eᵥ], l2_abab [lₒ, kₒ, dᵥ, cᵥ], t3_abbabb [aᵥ, eᵥ, bᵥ, iₒ, jₒ, kₒ]], [(1, [aᵥ, bᵥ, iₒ, jₒ])]⟩,
  -- line 2970: cdle,lkcd,aebijk->abij
  ⟨-1/2, [g_abab [cᵥ, dᵥ, lₒ, eᵥ], l2_abab [lₒ, kₒ, cᵥ, dᵥ], t3_abbabb [aᵥ, eᵥ, bᵥ, iₒ, jₒ, kₒ]], [(1, [aᵥ, bᵥ, iₒ, jₒ])]⟩,
  -- line 2973: dcel,kldc,aebijk->abij
  ⟨-1/2, [g_bbbb [dᵥ, cᵥ, eᵥ, lₒ], l2_bbbb [kₒ, lₒ, dᵥ, cᵥ], t3_abbabb [aᵥ, eᵥ, bᵥ, iₒ, jₒ, kₒ]], [(1, [aᵥ, bᵥ, iₒ, jₒ])]⟩,
  -- line 2976: dcej,kldc,eabikl->abij
  ⟨1/4, [g_abab [dᵥ, cᵥ, eᵥ, jₒ], l2_abab [kₒ, lₒ, dᵥ, cᵥ], t3_aabaab [eᵥ, aᵥ, bᵥ, iₒ, kₒ, lₒ]], [(1, [aᵥ, bᵥ, iₒ, jₒ])]⟩,
  -- line 2979: cdej,klcd,eabikl->abij
  ⟨1/4, [g_abab [cᵥ, dᵥ, eᵥ, jₒ], l2_abab [kₒ, lₒ, cᵥ, dᵥ], t3_aabaab [eᵥ, aᵥ, bᵥ, iₒ, kₒ, lₒ]], [(1, [aᵥ, bᵥ, iₒ, jₒ])]⟩,
  -- line 2982: dcej,lkdc,eabilk->abij
  ⟨1/4, [g_abab [dᵥ, cᵥ, eᵥ, jₒ], l2_abab [lₒ, kₒ, dᵥ, cᵥ], t3_aabaab [eᵥ, aᵥ, bᵥ, iₒ, lₒ, kₒ]], [(1, [aᵥ, bᵥ, iₒ, jₒ])]⟩,
  -- line 2985: cdej,lkcd,eabilk->abij
  ⟨1/4, [g_abab [cᵥ, dᵥ, eᵥ, jₒ], l2_abab [lₒ, kₒ, cᵥ, dᵥ], t3_aabaab [eᵥ, aᵥ, bᵥ, iₒ, lₒ, kₒ]], [(1, [aᵥ, bᵥ, iₒ, jₒ])]⟩,
  -- line 2988: dcej,kldc,aebikl->abij
  ⟨-1/4, [g_bbbb [dᵥ, cᵥ, eᵥ, jₒ], l2_bbbb [kₒ, lₒ, dᵥ, cᵥ], t3_abbabb [aᵥ, eᵥ, bᵥ, iₒ, kₒ, lₒ]], [(1, [aᵥ, bᵥ, iₒ, jₒ])]⟩,
  -- line 2991: dcei,kldc,eablkj->abij
  ⟨1/4, [g_aaaa [dᵥ, cᵥ, eᵥ, iₒ], l2_aaaa [kₒ, lₒ, dᵥ, cᵥ], t3_aabaab [eᵥ, aᵥ, bᵥ, lₒ, kₒ, jₒ]], [(1, [aᵥ, bᵥ, iₒ, jₒ])]⟩
  ]

/-- Part 11 of `test_t2_abab`. -/
def test_t2_abab_11 : Prog := [
  -- line 2994: dcie,kldc,aebkjl->abij
  ⟨1/4, [g_abab [dᵥ, cᵥ, iₒ, eᵥ], l2_abab [kₒ, lₒ, dᵥ, cᵥ], t3_abbabb [aᵥ, eᵥ, bᵥ, kₒ, jₒ, lₒ]], [(1, [aᵥ, bᵥ, iₒ, jₒ])]⟩,
  -- line 2997: cdie,klcd,aebkjl->abij
  ⟨1/4, [g_abab [cᵥ, dᵥ, iₒ, eᵥ], l2_abab [kₒ, lₒ, cᵥ, dᵥ], t3_abbabb [aᵥ, eᵥ, bᵥ, kₒ, jₒ, lₒ]], [(1, [aᵥ, bᵥ, iₒ, jₒ])]⟩,
  -- line 3000: dcie,lkdc,aeblkj->abij
  ⟨-1/4, [g_abab [dᵥ, cᵥ, iₒ, eᵥ], l2_abab [lₒ, kₒ, dᵥ, cᵥ], t3_abbabb [aᵥ, eᵥ, bᵥ, lₒ, kₒ, jₒ]], [(1, [aᵥ, bᵥ, iₒ, jₒ])]⟩,
  -- line 3003: cdie,lkcd,aeblkj->abij
  ⟨-1/4, [g_abab [cᵥ, dᵥ, iₒ, eᵥ], l2_abab [lₒ, kₒ, cᵥ, dᵥ], t3_abbabb [aᵥ, eᵥ, bᵥ, lₒ, kₒ, jₒ]], [(1, [aᵥ, bᵥ, iₒ, jₒ])]⟩,
  -- line 3006: dael,kldc,ecbikj->abij
  ⟨1, [g_aaaa [dᵥ, aᵥ, eᵥ, lₒ], l2_aaaa [kₒ, lₒ, dᵥ, cᵥ], t3_aabaab [eᵥ, cᵥ, bᵥ, iₒ, kₒ, jₒ]], [(1, [aᵥ, bᵥ, iₒ, jₒ])]⟩,
  -- line 3009: adel,klcd,ecbikj->abij
  ⟨1, [g_abab [aᵥ, dᵥ, eᵥ, lₒ], l2_abab [kₒ, lₒ, cᵥ, dᵥ], t3_aabaab [eᵥ, cᵥ, bᵥ, iₒ, kₒ, jₒ]], [(1, [aᵥ, bᵥ, iₒ, jₒ])]⟩,
  -- line 3012: dael,lkdc,ecbijk->abij
  ⟨1, [g_aaaa [dᵥ, aᵥ, eᵥ, lₒ], l2_abab [lₒ, kₒ, dᵥ, cᵥ], t3_abbabb [eᵥ, cᵥ, bᵥ, iₒ, jₒ, kₒ]], [(1, [aᵥ, bᵥ, iₒ, jₒ])]⟩,
  -- line 3015: adle,lkcd,cebijk->abij
  ⟨1, [g_abab [aᵥ, dᵥ, lₒ, eᵥ], l2_abab [lₒ, kₒ, cᵥ, dᵥ], t3_abbabb [cᵥ, eᵥ, bᵥ, iₒ, jₒ, kₒ]], [(1, [aᵥ, bᵥ, iₒ, jₒ])]⟩,
  -- line 3018: adel,kldc,ecbijk->abij
  ⟨1, [g_abab [aᵥ, dᵥ, eᵥ, lₒ], l2_bbbb [kₒ, lₒ, dᵥ, cᵥ], t3_abbabb [eᵥ, cᵥ, bᵥ, iₒ, jₒ, kₒ]], [(1, [aᵥ, bᵥ, iₒ, jₒ])]⟩,
  -- line 3021: dble,kldc,aceikj->abij
  ⟨-1, [g_abab [dᵥ, bᵥ, lₒ, eᵥ], l2_aaaa [kₒ, lₒ, dᵥ, cᵥ], t3_aabaab [aᵥ, cᵥ, eᵥ, iₒ, kₒ, jₒ]], [(1, [aᵥ, bᵥ, iₒ, jₒ])]⟩,
  -- line 3024: dbel,kldc,eacikj->abij
  ⟨1, [g_abab [dᵥ, bᵥ, eᵥ, lₒ], l2_abab [kₒ, lₒ, dᵥ, cᵥ], t3_aabaab [eᵥ, aᵥ, cᵥ, iₒ, kₒ, jₒ]], [(1, [aᵥ, bᵥ, iₒ, jₒ])]⟩,
  -- line 3027: dbel,klcd,aceikj->abij
  ⟨-1, [g_bbbb [dᵥ, bᵥ, eᵥ, lₒ], l2_abab [kₒ, lₒ, cᵥ, dᵥ], t3_aabaab [aᵥ, cᵥ, eᵥ, iₒ, kₒ, jₒ]], [(1, [aᵥ, bᵥ, iₒ, jₒ])]⟩,
  -- line 3030: dble,lkdc,aceijk->abij
  ⟨-1, [g_abab [dᵥ, bᵥ, lₒ, eᵥ], l2_abab [lₒ, kₒ, dᵥ, cᵥ], t3_abbabb [aᵥ, cᵥ, eᵥ, iₒ, jₒ, kₒ]], [(1, [aᵥ, bᵥ, iₒ, jₒ])]⟩,
  -- line 3033: dbel,kldc,aceijk->abij
  ⟨-1, [g_bbbb [dᵥ, bᵥ, eᵥ, lₒ], l2_bbbb [kₒ, lₒ, dᵥ, cᵥ], t3_abbabb [aᵥ, cᵥ, eᵥ, iₒ, jₒ, kₒ]], [(1, [aᵥ, bᵥ, iₒ, jₒ])]⟩,
  -- line 3036: adej,klcd,ecbikl->abij
  ⟨-1/2, [g_abab [aᵥ, dᵥ, eᵥ, jₒ], l2_abab [kₒ, lₒ, cᵥ, dᵥ], t3_aabaab [eᵥ, cᵥ, bᵥ, iₒ, kₒ, lₒ]], [(1, [aᵥ, bᵥ, iₒ, jₒ])]⟩,
  -- line 3039: adej,lkcd,ecbilk->abij
  ⟨-1/2, [g_abab [aᵥ, dᵥ, eᵥ, jₒ], l2_abab [lₒ, kₒ, cᵥ, dᵥ], t3_aabaab [eᵥ, cᵥ, bᵥ, iₒ, lₒ, kₒ]], [(1, [aᵥ, bᵥ, iₒ, jₒ])]⟩,
  -- line 3042: adej,kldc,ecbikl->abij
  ⟨1/2, [g_abab [aᵥ, dᵥ, eᵥ, jₒ], l2_bbbb [kₒ, lₒ, dᵥ, cᵥ], t3_abbabb [eᵥ, cᵥ, bᵥ, iₒ, kₒ, lₒ]], [(1, [aᵥ, bᵥ, iₒ, jₒ])]⟩,
  -- line 3045: dbej,kldc,ecaikl->abij
  ⟨1/2, [g_abab [dᵥ, bᵥ, eᵥ, jₒ], l2_aaaa [kₒ, lₒ, dᵥ, cᵥ], t3_aaaaaa [eᵥ, cᵥ, aᵥ, iₒ, kₒ, lₒ]], [(1, [aᵥ, bᵥ, iₒ, jₒ])]⟩,
  -- line 3048: dbej,kldc,eacikl->abij
  ⟨-1/2, [g_abab [dᵥ, bᵥ, eᵥ, jₒ], l2_abab [kₒ, lₒ, dᵥ, cᵥ], t3_aabaab [eᵥ, aᵥ, cᵥ, iₒ, kₒ, lₒ]], [(1, [aᵥ, bᵥ, iₒ, jₒ])]⟩,
  -- line 3051: dbej,klcd,aceikl->abij
  ⟨1/2, [g_bbbb [dᵥ, bᵥ, eᵥ, jₒ], l2_abab [kₒ, lₒ, cᵥ, dᵥ], t3_aabaab [aᵥ, cᵥ, eᵥ, iₒ, kₒ, lₒ]], [(1, [aᵥ, bᵥ, iₒ, jₒ])]⟩,
  -- line 3054: dbej,lkdc,eacilk->abij
  ⟨-1/2, [g_abab [dᵥ, bᵥ, eᵥ, jₒ], l2_abab [lₒ, kₒ, dᵥ, cᵥ], t3_aabaab [eᵥ, aᵥ, cᵥ, iₒ, lₒ, kₒ]], [(1, [aᵥ, bᵥ, iₒ, jₒ])]⟩,
  -- line 3057: dbej,lkcd,aceilk->abij
  ⟨1/2, [g_bbbb [dᵥ, bᵥ, eᵥ, jₒ], l2_abab [lₒ, kₒ, cᵥ, dᵥ], t3_aabaab [aᵥ, cᵥ, eᵥ, iₒ, lₒ, kₒ]], [(1, [aᵥ, bᵥ, iₒ, jₒ])]⟩,
  -- line 3060: dbej,kldc,aceikl->abij
  ⟨-1/2, [g_bbbb [dᵥ, bᵥ, eᵥ, jₒ], l2_bbbb [kₒ, lₒ, dᵥ, cᵥ], t3_abbabb [aᵥ, cᵥ, eᵥ, iₒ, kₒ, lₒ]], [(1, [aᵥ, bᵥ, iₒ, jₒ])]⟩,
  -- line 3063: daei,kldc,ecblkj->abij
  ⟨-1/2, [g_aaaa [dᵥ, aᵥ, eᵥ, iₒ], l2_aaaa [kₒ, lₒ, dᵥ, cᵥ], t3_aabaab [eᵥ, cᵥ, bᵥ, lₒ, kₒ, jₒ]], [(1, [aᵥ, bᵥ, iₒ, jₒ])]⟩,
  -- line 3066: daei,kldc,ecbkjl->abij
  ⟨-1/2, [g_aaaa [dᵥ, aᵥ, eᵥ, iₒ], l2_abab [kₒ, lₒ, dᵥ, cᵥ], t3_abbabb [eᵥ, cᵥ, bᵥ, kₒ, jₒ, lₒ]], [(1, [aᵥ, bᵥ, iₒ, jₒ])]⟩,
  -- line 3069: adie,klcd,cebkjl->abij
  ⟨-1/2, [g_abab [aᵥ, dᵥ, iₒ, eᵥ], l2_abab [kₒ, lₒ, cᵥ, dᵥ], t3_abbabb [cᵥ, eᵥ, bᵥ, kₒ, jₒ, lₒ]], [(1, [aᵥ, bᵥ, iₒ, jₒ])]⟩,
  -- line 3072: daei,lkdc,ecblkj->abij
  ⟨1/2, [g_aaaa [dᵥ, aᵥ, eᵥ, iₒ], l2_abab [lₒ, kₒ, dᵥ, cᵥ], t3_abbabb [eᵥ, cᵥ, bᵥ, lₒ, kₒ, jₒ]], [(1, [aᵥ, bᵥ, iₒ, jₒ])]⟩,
  -- line 3075: adie,lkcd,ceblkj->abij
  ⟨1/2, [g_abab [aᵥ, dᵥ, iₒ, eᵥ], l2_abab [lₒ, kₒ, cᵥ, dᵥ], t3_abbabb [cᵥ, eᵥ, bᵥ, lₒ, kₒ, jₒ]], [(1, [aᵥ, bᵥ, iₒ, jₒ])]⟩,
  -- line 3078: adie,kldc,ecbjkl->abij
  ⟨1/2, [g_abab [aᵥ, dᵥ, iₒ, eᵥ], l2_bbbb [kₒ, lₒ, dᵥ, cᵥ], t3_bbbbbb [eᵥ, cᵥ, bᵥ, jₒ, kₒ, lₒ]], [(1, [aᵥ, bᵥ, iₒ, jₒ])]⟩,
  -- line 3081: dbie,kldc,acelkj->abij
  ⟨1/2, [g_abab [dᵥ, bᵥ, iₒ, eᵥ], l2_aaaa [kₒ, lₒ, dᵥ, cᵥ], t3_aabaab [aᵥ, cᵥ, eᵥ, lₒ, kₒ, jₒ]], [(1, [aᵥ, bᵥ, iₒ, jₒ])]⟩,
  -- line 3084: dbie,kldc,acekjl->abij
  ⟨1/2, [g_abab [dᵥ, bᵥ, iₒ, eᵥ], l2_abab [kₒ, lₒ, dᵥ, cᵥ], t3_abbabb [aᵥ, cᵥ, eᵥ, kₒ, jₒ, lₒ]], [(1, [aᵥ, bᵥ, iₒ, jₒ])]⟩,
  -- line 3087: dbie,lkdc,acelkj->abij
  ⟨-1/2, [g_abab [dᵥ, bᵥ, iₒ, eᵥ], l2_abab [lₒ, kₒ, dᵥ, cᵥ], t3_abbabb [aᵥ, cᵥ, eᵥ, lₒ, kₒ, jₒ]], [(1, [aᵥ, bᵥ, iₒ, jₒ])]⟩,
  -- line 3090: able,kldc,cdeikj->abij
  ⟨-1/2, [g_abab [aᵥ, bᵥ, lₒ, eᵥ], l2_aaaa [kₒ, lₒ, dᵥ, cᵥ], t3_aabaab [cᵥ, dᵥ, eᵥ, iₒ, kₒ, jₒ]], [(1, [aᵥ, bᵥ, iₒ, jₒ])]⟩,
  -- line 3093: abel,kldc,edcikj->abij
  ⟨-1/2, [g_abab [aᵥ, bᵥ, eᵥ, lₒ], l2_abab [kₒ, lₒ, dᵥ, cᵥ], t3_aabaab [eᵥ, dᵥ, cᵥ, iₒ, kₒ, jₒ]], [(1, [aᵥ, bᵥ, iₒ, jₒ])]⟩,
  -- line 3096: abel,klcd,ecdikj->abij
  ⟨-1/2, [g_abab [aᵥ, bᵥ, eᵥ, lₒ], l2_abab [kₒ, lₒ, cᵥ, dᵥ], t3_aabaab [eᵥ, cᵥ, dᵥ, iₒ, kₒ, jₒ]], [(1, [aᵥ, bᵥ, iₒ, jₒ])]⟩,
  -- line 3099: able,lkdc,decijk->abij
  ⟨-1/2, [g_abab [aᵥ, bᵥ, lₒ, eᵥ], l2_abab [lₒ, kₒ, dᵥ, cᵥ], t3_abbabb [dᵥ, eᵥ, cᵥ, iₒ, jₒ, kₒ]], [(1, [aᵥ, bᵥ, iₒ, jₒ])]⟩,
  -- line 3102: able,lkcd,cdeijk->abij
  ⟨1/2, [g_abab [aᵥ, bᵥ, lₒ, eᵥ], l2_abab [lₒ, kₒ, cᵥ, dᵥ], t3_abbabb [cᵥ, dᵥ, eᵥ, iₒ, jₒ, kₒ]], [(1, [aᵥ, bᵥ, iₒ, jₒ])]⟩,
  -- line 3105: abel,kldc,edcijk->abij
  ⟨1/2, [g_abab [aᵥ, bᵥ, eᵥ, lₒ], l2_bbbb [kₒ, lₒ, dᵥ, cᵥ], t3_abbabb [eᵥ, dᵥ, cᵥ, iₒ, jₒ, kₒ]], [(1, [aᵥ, bᵥ, iₒ, jₒ])]⟩,
  -- line 3108: abej,kldc,edcikl->abij
  ⟨1/4, [g_abab [aᵥ, bᵥ, eᵥ, jₒ], l2_aaaa [kₒ, lₒ, dᵥ, cᵥ], t3_aaaaaa [eᵥ, dᵥ, cᵥ, iₒ, kₒ, lₒ]], [(1, [aᵥ, bᵥ, iₒ, jₒ])]⟩,
  -- line 3111: abej,kldc,edcikl->abij
  ⟨1/4, [g_abab [aᵥ, bᵥ, eᵥ, jₒ], l2_abab [kₒ, lₒ, dᵥ, cᵥ], t3_aabaab [eᵥ, dᵥ, cᵥ, iₒ, kₒ, lₒ]], [(1, [aᵥ, bᵥ, iₒ, jₒ])]⟩
  ]

/-- Part 12 of `test_t2_abab`. -/
def test_t2_abab_12 : Prog := [
  -- line 3114: abej,klcd,ecdikl->abij
  ⟨1/4, [g_abab [aᵥ, bᵥ, eᵥ, jₒ], l2_abab [kₒ, lₒ, cᵥ, dᵥ], t3_aabaab [eᵥ, cᵥ, dᵥ, iₒ, kₒ, lₒ]], [(1, [aᵥ, bᵥ, iₒ, jₒ])]⟩,
  -- line 3117: abej,lkdc,edcilk->abij
  ⟨1/4, [g_abab [aᵥ, bᵥ, eᵥ, jₒ], l2_abab [lₒ, kₒ, dᵥ, cᵥ], t3_aabaab [eᵥ, dᵥ, cᵥ, iₒ, lₒ, kₒ]], [(1, [aᵥ, bᵥ, iₒ, jₒ])]⟩,
  -- line 3120: abej,lkcd,ecdilk->abij
  ⟨1/4, [g_abab [aᵥ, bᵥ, eᵥ, jₒ], l2_abab [lₒ, kₒ, cᵥ, dᵥ], t3_aabaab [eᵥ, cᵥ, dᵥ, iₒ, lₒ, kₒ]], [(1, [aᵥ, bᵥ, iₒ, jₒ])]⟩,
  -- line 3123: abej,kldc,edcikl->abij
  ⟨1/4, [g_abab [aᵥ, bᵥ, eᵥ, jₒ], l2_bbbb [kₒ, lₒ, dᵥ, cᵥ], t3_abbabb [eᵥ, dᵥ, cᵥ, iₒ, kₒ, lₒ]], [(1, [aᵥ, bᵥ, iₒ, jₒ])]⟩,
  -- line 3126: abie,kldc,cdelkj->abij
  ⟨1/4, [g_abab [aᵥ, bᵥ, iₒ, eᵥ], l2_aaaa [kₒ, lₒ, dᵥ, cᵥ], t3_aabaab [cᵥ, dᵥ, eᵥ, lₒ, kₒ, jₒ]], [(1, [aᵥ, bᵥ, iₒ, jₒ])]⟩,
  -- line 3129: abie,kldc,deckjl->abij
  ⟨1/4, [g_abab [aᵥ, bᵥ, iₒ, eᵥ], l2_abab [kₒ, lₒ, dᵥ, cᵥ], t3_abbabb [dᵥ, eᵥ, cᵥ, kₒ, jₒ, lₒ]], [(1, [aᵥ, bᵥ, iₒ, jₒ])]⟩,
  -- line 3132: abie,klcd,cdekjl->abij
  ⟨-1/4, [g_abab [aᵥ, bᵥ, iₒ, eᵥ], l2_abab [kₒ, lₒ, cᵥ, dᵥ], t3_abbabb [cᵥ, dᵥ, eᵥ, kₒ, jₒ, lₒ]], [(1, [aᵥ, bᵥ, iₒ, jₒ])]⟩,
  -- line 3135: abie,lkdc,declkj->abij
  ⟨-1/4, [g_abab [aᵥ, bᵥ, iₒ, eᵥ], l2_abab [lₒ, kₒ, dᵥ, cᵥ], t3_abbabb [dᵥ, eᵥ, cᵥ, lₒ, kₒ, jₒ]], [(1, [aᵥ, bᵥ, iₒ, jₒ])]⟩,
  -- line 3138: abie,lkcd,cdelkj->abij
  ⟨1/4, [g_abab [aᵥ, bᵥ, iₒ, eᵥ], l2_abab [lₒ, kₒ, cᵥ, dᵥ], t3_abbabb [cᵥ, dᵥ, eᵥ, lₒ, kₒ, jₒ]], [(1, [aᵥ, bᵥ, iₒ, jₒ])]⟩,
  -- line 3141: abie,kldc,edcjkl->abij
  ⟨1/4, [g_abab [aᵥ, bᵥ, iₒ, eᵥ], l2_bbbb [kₒ, lₒ, dᵥ, cᵥ], t3_bbbbbb [eᵥ, dᵥ, cᵥ, jₒ, kₒ, lₒ]], [(1, [aᵥ, bᵥ, iₒ, jₒ])]⟩
  ]

/-- `UT2/testing_modifyT2eqns_with_T4.py` 1665-3143, `ccsdt_t2_abab_residual_Qf`. -/
def test_t2_abab : Prog := test_t2_abab_0 ++ (test_t2_abab_1 ++ (test_t2_abab_2 ++ (test_t2_abab_3 ++ (test_t2_abab_4 ++ (test_t2_abab_5 ++ (test_t2_abab_6 ++ (test_t2_abab_7 ++ (test_t2_abab_8 ++ (test_t2_abab_9 ++ (test_t2_abab_10 ++ (test_t2_abab_11 ++ (test_t2_abab_12))))))))))))

end Verif.Gen
