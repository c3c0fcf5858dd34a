import Verif.Ein.Names
import Verif.Gen.Antisym

/-! Written by `/verif/tools/gen.py`. Programs read from `/repo/UT2`. -/

set_option maxRecDepth 100000

namespace Verif.Gen

open Verif.Ein Verif.Ein.N


/-- Part 0 of `residQf1_bbbb`. -/
def residQf1_bbbb_0 : Prog := [
  -- line 629: mnkl,kldc,dcmj,abin->abij
  ⟨-1/4, [g_abab [mₒ, nₒ, kₒ, lₒ], l2_abab [kₒ, lₒ, dᵥ, cᵥ], t2_abab [dᵥ, cᵥ, mₒ, jₒ], t2_bbbb [aᵥ, bᵥ, iₒ, nₒ]], [(1, [aᵥ, bᵥ, iₒ, jₒ]), (-1, [aᵥ, bᵥ, jₒ, iₒ])]⟩,
  -- line 633: mnkl,klcd,cdmj,abin->abij
  ⟨-1/4, [g_abab [mₒ, nₒ, kₒ, lₒ], l2_abab [kₒ, lₒ, cᵥ, dᵥ], t2_abab [cᵥ, dᵥ, mₒ, jₒ], t2_bbbb [aᵥ, bᵥ, iₒ, nₒ]], [(1, [aᵥ, bᵥ, iₒ, jₒ]), (-1, [aᵥ, bᵥ, jₒ, iₒ])]⟩,
  -- line 637: mnlk,lkdc,dcmj,abin->abij
  ⟨-1/4, [g_abab [mₒ, nₒ, lₒ, kₒ], l2_abab [lₒ, kₒ, dᵥ, cᵥ], t2_abab [dᵥ, cᵥ, mₒ, jₒ], t2_bbbb [aᵥ, bᵥ, iₒ, nₒ]], [(1, [aᵥ, bᵥ, iₒ, jₒ]), (-1, [aᵥ, bᵥ, jₒ, iₒ])]⟩,
  -- line 641: mnlk,lkcd,cdmj,abin->abij
  ⟨-1/4, [g_abab [mₒ, nₒ, lₒ, kₒ], l2_abab [lₒ, kₒ, cᵥ, dᵥ], t2_abab [cᵥ, dᵥ, mₒ, jₒ], t2_bbbb [aᵥ, bᵥ, iₒ, nₒ]], [(1, [aᵥ, bᵥ, iₒ, jₒ]), (-1, [aᵥ, bᵥ, jₒ, iₒ])]⟩,
  -- line 645: nmkl,kldc,dcjm,abin->abij
  ⟨-1/4, [g_bbbb [nₒ, mₒ, kₒ, lₒ], l2_bbbb [kₒ, lₒ, dᵥ, cᵥ], t2_bbbb [dᵥ, cᵥ, jₒ, mₒ], t2_bbbb [aᵥ, bᵥ, iₒ, nₒ]], [(1, [aᵥ, bᵥ, iₒ, jₒ]), (-1, [aᵥ, bᵥ, jₒ, iₒ])]⟩,
  -- line 649: nmkl,kldc,damj,cbni->abij
  ⟨1/2, [g_aaaa [nₒ, mₒ, kₒ, lₒ], l2_aaaa [kₒ, lₒ, dᵥ, cᵥ], t2_abab [dᵥ, aᵥ, mₒ, jₒ], t2_abab [cᵥ, bᵥ, nₒ, iₒ]], [(1, [aᵥ, bᵥ, iₒ, jₒ]), (-1, [aᵥ, bᵥ, jₒ, iₒ])]⟩,
  -- line 653: mnkl,kldc,damj,cbin->abij
  ⟨1/2, [g_abab [mₒ, nₒ, kₒ, lₒ], l2_abab [kₒ, lₒ, dᵥ, cᵥ], t2_abab [dᵥ, aᵥ, mₒ, jₒ], t2_bbbb [cᵥ, bᵥ, iₒ, nₒ]], [(1, [aᵥ, bᵥ, iₒ, jₒ]), (-1, [aᵥ, bᵥ, jₒ, iₒ])]⟩,
  -- line 657: nmkl,klcd,dajm,cbni->abij
  ⟨1/2, [g_abab [nₒ, mₒ, kₒ, lₒ], l2_abab [kₒ, lₒ, cᵥ, dᵥ], t2_bbbb [dᵥ, aᵥ, jₒ, mₒ], t2_abab [cᵥ, bᵥ, nₒ, iₒ]], [(1, [aᵥ, bᵥ, iₒ, jₒ]), (-1, [aᵥ, bᵥ, jₒ, iₒ])]⟩,
  -- line 661: mnlk,lkdc,damj,cbin->abij
  ⟨1/2, [g_abab [mₒ, nₒ, lₒ, kₒ], l2_abab [lₒ, kₒ, dᵥ, cᵥ], t2_abab [dᵥ, aᵥ, mₒ, jₒ], t2_bbbb [cᵥ, bᵥ, iₒ, nₒ]], [(1, [aᵥ, bᵥ, iₒ, jₒ]), (-1, [aᵥ, bᵥ, jₒ, iₒ])]⟩,
  -- line 665: nmlk,lkcd,dajm,cbni->abij
  ⟨1/2, [g_abab [nₒ, mₒ, lₒ, kₒ], l2_abab [lₒ, kₒ, cᵥ, dᵥ], t2_bbbb [dᵥ, aᵥ, jₒ, mₒ], t2_abab [cᵥ, bᵥ, nₒ, iₒ]], [(1, [aᵥ, bᵥ, iₒ, jₒ]), (-1, [aᵥ, bᵥ, jₒ, iₒ])]⟩,
  -- line 669: nmkl,kldc,dajm,cbin->abij
  ⟨1/2, [g_bbbb [nₒ, mₒ, kₒ, lₒ], l2_bbbb [kₒ, lₒ, dᵥ, cᵥ], t2_bbbb [dᵥ, aᵥ, jₒ, mₒ], t2_bbbb [cᵥ, bᵥ, iₒ, nₒ]], [(1, [aᵥ, bᵥ, iₒ, jₒ]), (-1, [aᵥ, bᵥ, jₒ, iₒ])]⟩,
  -- line 673: mnlj,kldc,dckm,abin->abij
  ⟨1/2, [g_abab [mₒ, nₒ, lₒ, jₒ], l2_aaaa [kₒ, lₒ, dᵥ, cᵥ], t2_aaaa [dᵥ, cᵥ, kₒ, mₒ], t2_bbbb [aᵥ, bᵥ, iₒ, nₒ]], [(1, [aᵥ, bᵥ, iₒ, jₒ]), (-1, [aᵥ, bᵥ, jₒ, iₒ])]⟩,
  -- line 677: nmjl,kldc,dckm,abin->abij
  ⟨1/2, [g_bbbb [nₒ, mₒ, jₒ, lₒ], l2_abab [kₒ, lₒ, dᵥ, cᵥ], t2_abab [dᵥ, cᵥ, kₒ, mₒ], t2_bbbb [aᵥ, bᵥ, iₒ, nₒ]], [(1, [aᵥ, bᵥ, iₒ, jₒ]), (-1, [aᵥ, bᵥ, jₒ, iₒ])]⟩,
  -- line 681: nmjl,klcd,cdkm,abin->abij
  ⟨1/2, [g_bbbb [nₒ, mₒ, jₒ, lₒ], l2_abab [kₒ, lₒ, cᵥ, dᵥ], t2_abab [cᵥ, dᵥ, kₒ, mₒ], t2_bbbb [aᵥ, bᵥ, iₒ, nₒ]], [(1, [aᵥ, bᵥ, iₒ, jₒ]), (-1, [aᵥ, bᵥ, jₒ, iₒ])]⟩,
  -- line 685: mnlj,lkdc,dcmk,abin->abij
  ⟨1/2, [g_abab [mₒ, nₒ, lₒ, jₒ], l2_abab [lₒ, kₒ, dᵥ, cᵥ], t2_abab [dᵥ, cᵥ, mₒ, kₒ], t2_bbbb [aᵥ, bᵥ, iₒ, nₒ]], [(1, [aᵥ, bᵥ, iₒ, jₒ]), (-1, [aᵥ, bᵥ, jₒ, iₒ])]⟩,
  -- line 689: mnlj,lkcd,cdmk,abin->abij
  ⟨1/2, [g_abab [mₒ, nₒ, lₒ, jₒ], l2_abab [lₒ, kₒ, cᵥ, dᵥ], t2_abab [cᵥ, dᵥ, mₒ, kₒ], t2_bbbb [aᵥ, bᵥ, iₒ, nₒ]], [(1, [aᵥ, bᵥ, iₒ, jₒ]), (-1, [aᵥ, bᵥ, jₒ, iₒ])]⟩,
  -- line 693: nmjl,kldc,dckm,abin->abij
  ⟨1/2, [g_bbbb [nₒ, mₒ, jₒ, lₒ], l2_bbbb [kₒ, lₒ, dᵥ, cᵥ], t2_bbbb [dᵥ, cᵥ, kₒ, mₒ], t2_bbbb [aᵥ, bᵥ, iₒ, nₒ]], [(1, [aᵥ, bᵥ, iₒ, jₒ]), (-1, [aᵥ, bᵥ, jₒ, iₒ])]⟩,
  -- line 697: mnlj,lkdc,dcmi,abkn->abij
  ⟨-1/2, [g_abab [mₒ, nₒ, lₒ, jₒ], l2_abab [lₒ, kₒ, dᵥ, cᵥ], t2_abab [dᵥ, cᵥ, mₒ, iₒ], t2_bbbb [aᵥ, bᵥ, kₒ, nₒ]], [(1, [aᵥ, bᵥ, iₒ, jₒ]), (-1, [aᵥ, bᵥ, jₒ, iₒ])]⟩,
  -- line 701: mnlj,lkcd,cdmi,abkn->abij
  ⟨-1/2, [g_abab [mₒ, nₒ, lₒ, jₒ], l2_abab [lₒ, kₒ, cᵥ, dᵥ], t2_abab [cᵥ, dᵥ, mₒ, iₒ], t2_bbbb [aᵥ, bᵥ, kₒ, nₒ]], [(1, [aᵥ, bᵥ, iₒ, jₒ]), (-1, [aᵥ, bᵥ, jₒ, iₒ])]⟩,
  -- line 705: nmjl,kldc,dcim,abkn->abij
  ⟨-1/2, [g_bbbb [nₒ, mₒ, jₒ, lₒ], l2_bbbb [kₒ, lₒ, dᵥ, cᵥ], t2_bbbb [dᵥ, cᵥ, iₒ, mₒ], t2_bbbb [aᵥ, bᵥ, kₒ, nₒ]], [(1, [aᵥ, bᵥ, iₒ, jₒ]), (-1, [aᵥ, bᵥ, jₒ, iₒ])]⟩,
  -- line 709: nmlj,kldc,dakm,cbni->abij
  ⟨-1, [g_abab [nₒ, mₒ, lₒ, jₒ], l2_aaaa [kₒ, lₒ, dᵥ, cᵥ], t2_abab [dᵥ, aᵥ, kₒ, mₒ], t2_abab [cᵥ, bᵥ, nₒ, iₒ]], [(1, [aᵥ, bᵥ, iₒ, jₒ]), (-1, [aᵥ, bᵥ, jₒ, iₒ])]⟩,
  -- line 713: nmjl,kldc,dakm,cbin->abij
  ⟨-1, [g_bbbb [nₒ, mₒ, jₒ, lₒ], l2_abab [kₒ, lₒ, dᵥ, cᵥ], t2_abab [dᵥ, aᵥ, kₒ, mₒ], t2_bbbb [cᵥ, bᵥ, iₒ, nₒ]], [(1, [aᵥ, bᵥ, iₒ, jₒ]), (-1, [aᵥ, bᵥ, jₒ, iₒ])]⟩,
  -- line 717: mnlj,lkdc,damk,cbin->abij
  ⟨-1, [g_abab [mₒ, nₒ, lₒ, jₒ], l2_abab [lₒ, kₒ, dᵥ, cᵥ], t2_abab [dᵥ, aᵥ, mₒ, kₒ], t2_bbbb [cᵥ, bᵥ, iₒ, nₒ]], [(1, [aᵥ, bᵥ, iₒ, jₒ]), (-1, [aᵥ, bᵥ, jₒ, iₒ])]⟩,
  -- line 721: nmlj,lkcd,dakm,cbni->abij
  ⟨-1, [g_abab [nₒ, mₒ, lₒ, jₒ], l2_abab [lₒ, kₒ, cᵥ, dᵥ], t2_bbbb [dᵥ, aᵥ, kₒ, mₒ], t2_abab [cᵥ, bᵥ, nₒ, iₒ]], [(1, [aᵥ, bᵥ, iₒ, jₒ]), (-1, [aᵥ, bᵥ, jₒ, iₒ])]⟩,
  -- line 725: nmjl,kldc,dakm,cbin->abij
  ⟨-1, [g_bbbb [nₒ, mₒ, jₒ, lₒ], l2_bbbb [kₒ, lₒ, dᵥ, cᵥ], t2_bbbb [dᵥ, aᵥ, kₒ, mₒ], t2_bbbb [cᵥ, bᵥ, iₒ, nₒ]], [(1, [aᵥ, bᵥ, iₒ, jₒ]), (-1, [aᵥ, bᵥ, jₒ, iₒ])]⟩,
  -- line 729: mnlj,kldc,dami,cbkn->abij
  ⟨-1, [g_abab [mₒ, nₒ, lₒ, jₒ], l2_aaaa [kₒ, lₒ, dᵥ, cᵥ], t2_abab [dᵥ, aᵥ, mₒ, iₒ], t2_abab [cᵥ, bᵥ, kₒ, nₒ]], [(1, [aᵥ, bᵥ, iₒ, jₒ]), (-1, [aᵥ, bᵥ, jₒ, iₒ])]⟩,
  -- line 733: nmjl,klcd,daim,cbkn->abij
  ⟨-1, [g_bbbb [nₒ, mₒ, jₒ, lₒ], l2_abab [kₒ, lₒ, cᵥ, dᵥ], t2_bbbb [dᵥ, aᵥ, iₒ, mₒ], t2_abab [cᵥ, bᵥ, kₒ, nₒ]], [(1, [aᵥ, bᵥ, iₒ, jₒ]), (-1, [aᵥ, bᵥ, jₒ, iₒ])]⟩,
  -- line 737: mnlj,lkdc,dami,cbkn->abij
  ⟨1, [g_abab [mₒ, nₒ, lₒ, jₒ], l2_abab [lₒ, kₒ, dᵥ, cᵥ], t2_abab [dᵥ, aᵥ, mₒ, iₒ], t2_bbbb [cᵥ, bᵥ, kₒ, nₒ]], [(1, [aᵥ, bᵥ, iₒ, jₒ]), (-1, [aᵥ, bᵥ, jₒ, iₒ])]⟩,
  -- line 741: nmlj,lkcd,daim,cbnk->abij
  ⟨1, [g_abab [nₒ, mₒ, lₒ, jₒ], l2_abab [lₒ, kₒ, cᵥ, dᵥ], t2_bbbb [dᵥ, aᵥ, iₒ, mₒ], t2_abab [cᵥ, bᵥ, nₒ, kₒ]], [(1, [aᵥ, bᵥ, iₒ, jₒ]), (-1, [aᵥ, bᵥ, jₒ, iₒ])]⟩,
  -- line 745: nmjl,kldc,daim,cbkn->abij
  ⟨1, [g_bbbb [nₒ, mₒ, jₒ, lₒ], l2_bbbb [kₒ, lₒ, dᵥ, cᵥ], t2_bbbb [dᵥ, aᵥ, iₒ, mₒ], t2_bbbb [cᵥ, bᵥ, kₒ, nₒ]], [(1, [aᵥ, bᵥ, iₒ, jₒ]), (-1, [aᵥ, bᵥ, jₒ, iₒ])]⟩,
  -- line 749: nmij,lkdc,dclm,abkn->abij
  ⟨1/2, [g_bbbb [nₒ, mₒ, iₒ, jₒ], l2_abab [lₒ, kₒ, dᵥ, cᵥ], t2_abab [dᵥ, cᵥ, lₒ, mₒ], t2_bbbb [aᵥ, bᵥ, kₒ, nₒ]], [(1, [aᵥ, bᵥ, iₒ, jₒ])]⟩,
  -- line 752: nmij,lkcd,cdlm,abkn->abij
  ⟨1/2, [g_bbbb [nₒ, mₒ, iₒ, jₒ], l2_abab [lₒ, kₒ, cᵥ, dᵥ], t2_abab [cᵥ, dᵥ, lₒ, mₒ], t2_bbbb [aᵥ, bᵥ, kₒ, nₒ]], [(1, [aᵥ, bᵥ, iₒ, jₒ])]⟩,
  -- line 755: nmij,kldc,dclm,abkn->abij
  ⟨-1/2, [g_bbbb [nₒ, mₒ, iₒ, jₒ], l2_bbbb [kₒ, lₒ, dᵥ, cᵥ], t2_bbbb [dᵥ, cᵥ, lₒ, mₒ], t2_bbbb [aᵥ, bᵥ, kₒ, nₒ]], [(1, [aᵥ, bᵥ, iₒ, jₒ])]⟩,
  -- line 758: nmij,kldc,dalm,cbkn->abij
  ⟨1/2, [g_bbbb [nₒ, mₒ, iₒ, jₒ], l2_aaaa [kₒ, lₒ, dᵥ, cᵥ], t2_abab [dᵥ, aᵥ, lₒ, mₒ], t2_abab [cᵥ, bᵥ, kₒ, nₒ]], [(1, [aᵥ, bᵥ, iₒ, jₒ]), (-1, [bᵥ, aᵥ, iₒ, jₒ])]⟩,
  -- line 762: nmij,klcd,dalm,cbkn->abij
  ⟨-1/2, [g_bbbb [nₒ, mₒ, iₒ, jₒ], l2_abab [kₒ, lₒ, cᵥ, dᵥ], t2_bbbb [dᵥ, aᵥ, lₒ, mₒ], t2_abab [cᵥ, bᵥ, kₒ, nₒ]], [(1, [aᵥ, bᵥ, iₒ, jₒ]), (-1, [bᵥ, aᵥ, iₒ, jₒ])]⟩,
  -- line 766: nmij,lkdc,dalm,cbkn->abij
  ⟨-1/2, [g_bbbb [nₒ, mₒ, iₒ, jₒ], l2_abab [lₒ, kₒ, dᵥ, cᵥ], t2_abab [dᵥ, aᵥ, lₒ, mₒ], t2_bbbb [cᵥ, bᵥ, kₒ, nₒ]], [(1, [aᵥ, bᵥ, iₒ, jₒ]), (-1, [bᵥ, aᵥ, iₒ, jₒ])]⟩,
  -- line 770: nmij,kldc,dalm,cbkn->abij
  ⟨1/2, [g_bbbb [nₒ, mₒ, iₒ, jₒ], l2_bbbb [kₒ, lₒ, dᵥ, cᵥ], t2_bbbb [dᵥ, aᵥ, lₒ, mₒ], t2_bbbb [cᵥ, bᵥ, kₒ, nₒ]], [(1, [aᵥ, bᵥ, iₒ, jₒ]), (-1, [bᵥ, aᵥ, iₒ, jₒ])]⟩,
  -- line 774: dmle,kldc,cekj,abim->abij
  ⟨1, [g_abab [dᵥ, mₒ, lₒ, eᵥ], l2_aaaa [kₒ, lₒ, dᵥ, cᵥ], t2_abab [cᵥ, eᵥ, kₒ, jₒ], t2_bbbb [aᵥ, bᵥ, iₒ, mₒ]], [(1, [aᵥ, bᵥ, iₒ, jₒ]), (-1, [aᵥ, bᵥ, jₒ, iₒ])]⟩,
  -- line 778: dmel,kldc,eckj,abim->abij
  ⟨1, [g_abab [dᵥ, mₒ, eᵥ, lₒ], l2_abab [kₒ, lₒ, dᵥ, cᵥ], t2_abab [eᵥ, cᵥ, kₒ, jₒ], t2_bbbb [aᵥ, bᵥ, iₒ, mₒ]], [(1, [aᵥ, bᵥ, iₒ, jₒ]), (-1, [aᵥ, bᵥ, jₒ, iₒ])]⟩,
  -- line 782: mdel,klcd,cekj,abim->abij
  ⟨-1, [g_bbbb [mₒ, dᵥ, eᵥ, lₒ], l2_abab [kₒ, lₒ, cᵥ, dᵥ], t2_abab [cᵥ, eᵥ, kₒ, jₒ], t2_bbbb [aᵥ, bᵥ, iₒ, mₒ]], [(1, [aᵥ, bᵥ, iₒ, jₒ]), (-1, [aᵥ, bᵥ, jₒ, iₒ])]⟩
  ]

/-- Part 1 of `residQf1_bbbb`. -/
def residQf1_bbbb_1 : Prog := [
  -- line 786: dmle,lkdc,ecjk,abim->abij
  ⟨-1, [g_abab [dᵥ, mₒ, lₒ, eᵥ], l2_abab [lₒ, kₒ, dᵥ, cᵥ], t2_bbbb [eᵥ, cᵥ, jₒ, kₒ], t2_bbbb [aᵥ, bᵥ, iₒ, mₒ]], [(1, [aᵥ, bᵥ, iₒ, jₒ]), (-1, [aᵥ, bᵥ, jₒ, iₒ])]⟩,
  -- line 790: mdel,kldc,ecjk,abim->abij
  ⟨1, [g_bbbb [mₒ, dᵥ, eᵥ, lₒ], l2_bbbb [kₒ, lₒ, dᵥ, cᵥ], t2_bbbb [eᵥ, cᵥ, jₒ, kₒ], t2_bbbb [aᵥ, bᵥ, iₒ, mₒ]], [(1, [aᵥ, bᵥ, iₒ, jₒ]), (-1, [aᵥ, bᵥ, jₒ, iₒ])]⟩,
  -- line 794: dmle,lkdc,ecij,abkm->abij
  ⟨-1, [g_abab [dᵥ, mₒ, lₒ, eᵥ], l2_abab [lₒ, kₒ, dᵥ, cᵥ], t2_bbbb [eᵥ, cᵥ, iₒ, jₒ], t2_bbbb [aᵥ, bᵥ, kₒ, mₒ]], [(1, [aᵥ, bᵥ, iₒ, jₒ])]⟩,
  -- line 797: mdel,kldc,ecij,abkm->abij
  ⟨1, [g_bbbb [mₒ, dᵥ, eᵥ, lₒ], l2_bbbb [kₒ, lₒ, dᵥ, cᵥ], t2_bbbb [eᵥ, cᵥ, iₒ, jₒ], t2_bbbb [aᵥ, bᵥ, kₒ, mₒ]], [(1, [aᵥ, bᵥ, iₒ, jₒ])]⟩,
  -- line 800: mdel,kldc,eakj,cbmi->abij
  ⟨-1, [g_aaaa [mₒ, dᵥ, eᵥ, lₒ], l2_aaaa [kₒ, lₒ, dᵥ, cᵥ], t2_abab [eᵥ, aᵥ, kₒ, jₒ], t2_abab [cᵥ, bᵥ, mₒ, iₒ]], [(1, [aᵥ, bᵥ, iₒ, jₒ]), (-1, [aᵥ, bᵥ, jₒ, iₒ]), (-1, [bᵥ, aᵥ, iₒ, jₒ]), (1, [bᵥ, aᵥ, jₒ, iₒ])]⟩,
  -- line 804: dmel,kldc,eakj,cbim->abij
  ⟨-1, [g_abab [dᵥ, mₒ, eᵥ, lₒ], l2_abab [kₒ, lₒ, dᵥ, cᵥ], t2_abab [eᵥ, aᵥ, kₒ, jₒ], t2_bbbb [cᵥ, bᵥ, iₒ, mₒ]], [(1, [aᵥ, bᵥ, iₒ, jₒ]), (-1, [aᵥ, bᵥ, jₒ, iₒ]), (-1, [bᵥ, aᵥ, iₒ, jₒ]), (1, [bᵥ, aᵥ, jₒ, iₒ])]⟩,
  -- line 808: mdel,klcd,eakj,cbmi->abij
  ⟨1, [g_abab [mₒ, dᵥ, eᵥ, lₒ], l2_abab [kₒ, lₒ, cᵥ, dᵥ], t2_abab [eᵥ, aᵥ, kₒ, jₒ], t2_abab [cᵥ, bᵥ, mₒ, iₒ]], [(1, [aᵥ, bᵥ, iₒ, jₒ]), (-1, [aᵥ, bᵥ, jₒ, iₒ]), (-1, [bᵥ, aᵥ, iₒ, jₒ]), (1, [bᵥ, aᵥ, jₒ, iₒ])]⟩,
  -- line 812: dmle,lkdc,eajk,cbim->abij
  ⟨1, [g_abab [dᵥ, mₒ, lₒ, eᵥ], l2_abab [lₒ, kₒ, dᵥ, cᵥ], t2_bbbb [eᵥ, aᵥ, jₒ, kₒ], t2_bbbb [cᵥ, bᵥ, iₒ, mₒ]], [(1, [aᵥ, bᵥ, iₒ, jₒ]), (-1, [aᵥ, bᵥ, jₒ, iₒ]), (-1, [bᵥ, aᵥ, iₒ, jₒ]), (1, [bᵥ, aᵥ, jₒ, iₒ])]⟩,
  -- line 816: mdle,lkcd,eajk,cbmi->abij
  ⟨-1, [g_abab [mₒ, dᵥ, lₒ, eᵥ], l2_abab [lₒ, kₒ, cᵥ, dᵥ], t2_bbbb [eᵥ, aᵥ, jₒ, kₒ], t2_abab [cᵥ, bᵥ, mₒ, iₒ]], [(1, [aᵥ, bᵥ, iₒ, jₒ]), (-1, [aᵥ, bᵥ, jₒ, iₒ]), (-1, [bᵥ, aᵥ, iₒ, jₒ]), (1, [bᵥ, aᵥ, jₒ, iₒ])]⟩,
  -- line 820: mdel,kldc,eajk,cbim->abij
  ⟨-1, [g_bbbb [mₒ, dᵥ, eᵥ, lₒ], l2_bbbb [kₒ, lₒ, dᵥ, cᵥ], t2_bbbb [eᵥ, aᵥ, jₒ, kₒ], t2_bbbb [cᵥ, bᵥ, iₒ, mₒ]], [(1, [aᵥ, bᵥ, iₒ, jₒ]), (-1, [aᵥ, bᵥ, jₒ, iₒ]), (-1, [bᵥ, aᵥ, iₒ, jₒ]), (1, [bᵥ, aᵥ, jₒ, iₒ])]⟩,
  -- line 824: dmle,kldc,eaij,cbkm->abij
  ⟨-1, [g_abab [dᵥ, mₒ, lₒ, eᵥ], l2_aaaa [kₒ, lₒ, dᵥ, cᵥ], t2_bbbb [eᵥ, aᵥ, iₒ, jₒ], t2_abab [cᵥ, bᵥ, kₒ, mₒ]], [(1, [aᵥ, bᵥ, iₒ, jₒ]), (-1, [bᵥ, aᵥ, iₒ, jₒ])]⟩,
  -- line 828: mdel,klcd,eaij,cbkm->abij
  ⟨1, [g_bbbb [mₒ, dᵥ, eᵥ, lₒ], l2_abab [kₒ, lₒ, cᵥ, dᵥ], t2_bbbb [eᵥ, aᵥ, iₒ, jₒ], t2_abab [cᵥ, bᵥ, kₒ, mₒ]], [(1, [aᵥ, bᵥ, iₒ, jₒ]), (-1, [bᵥ, aᵥ, iₒ, jₒ])]⟩,
  -- line 832: dmle,lkdc,eaij,cbkm->abij
  ⟨1, [g_abab [dᵥ, mₒ, lₒ, eᵥ], l2_abab [lₒ, kₒ, dᵥ, cᵥ], t2_bbbb [eᵥ, aᵥ, iₒ, jₒ], t2_bbbb [cᵥ, bᵥ, kₒ, mₒ]], [(1, [aᵥ, bᵥ, iₒ, jₒ]), (-1, [bᵥ, aᵥ, iₒ, jₒ])]⟩,
  -- line 836: mdle,lkcd,eaij,cbmk->abij
  ⟨-1, [g_abab [mₒ, dᵥ, lₒ, eᵥ], l2_abab [lₒ, kₒ, cᵥ, dᵥ], t2_bbbb [eᵥ, aᵥ, iₒ, jₒ], t2_abab [cᵥ, bᵥ, mₒ, kₒ]], [(1, [aᵥ, bᵥ, iₒ, jₒ]), (-1, [bᵥ, aᵥ, iₒ, jₒ])]⟩,
  -- line 840: mdel,kldc,eaij,cbkm->abij
  ⟨-1, [g_bbbb [mₒ, dᵥ, eᵥ, lₒ], l2_bbbb [kₒ, lₒ, dᵥ, cᵥ], t2_bbbb [eᵥ, aᵥ, iₒ, jₒ], t2_bbbb [cᵥ, bᵥ, kₒ, mₒ]], [(1, [aᵥ, bᵥ, iₒ, jₒ]), (-1, [bᵥ, aᵥ, iₒ, jₒ])]⟩,
  -- line 844: dmej,kldc,eckl,abim->abij
  ⟨-1/2, [g_abab [dᵥ, mₒ, eᵥ, jₒ], l2_aaaa [kₒ, lₒ, dᵥ, cᵥ], t2_aaaa [eᵥ, cᵥ, kₒ, lₒ], t2_bbbb [aᵥ, bᵥ, iₒ, mₒ]], [(1, [aᵥ, bᵥ, iₒ, jₒ]), (-1, [aᵥ, bᵥ, jₒ, iₒ])]⟩,
  -- line 848: dmej,kldc,eckl,abim->abij
  ⟨-1/2, [g_abab [dᵥ, mₒ, eᵥ, jₒ], l2_abab [kₒ, lₒ, dᵥ, cᵥ], t2_abab [eᵥ, cᵥ, kₒ, lₒ], t2_bbbb [aᵥ, bᵥ, iₒ, mₒ]], [(1, [aᵥ, bᵥ, iₒ, jₒ]), (-1, [aᵥ, bᵥ, jₒ, iₒ])]⟩,
  -- line 852: mdej,klcd,cekl,abim->abij
  ⟨1/2, [g_bbbb [mₒ, dᵥ, eᵥ, jₒ], l2_abab [kₒ, lₒ, cᵥ, dᵥ], t2_abab [cᵥ, eᵥ, kₒ, lₒ], t2_bbbb [aᵥ, bᵥ, iₒ, mₒ]], [(1, [aᵥ, bᵥ, iₒ, jₒ]), (-1, [aᵥ, bᵥ, jₒ, iₒ])]⟩,
  -- line 856: dmej,lkdc,eclk,abim->abij
  ⟨-1/2, [g_abab [dᵥ, mₒ, eᵥ, jₒ], l2_abab [lₒ, kₒ, dᵥ, cᵥ], t2_abab [eᵥ, cᵥ, lₒ, kₒ], t2_bbbb [aᵥ, bᵥ, iₒ, mₒ]], [(1, [aᵥ, bᵥ, iₒ, jₒ]), (-1, [aᵥ, bᵥ, jₒ, iₒ])]⟩,
  -- line 860: mdej,lkcd,celk,abim->abij
  ⟨1/2, [g_bbbb [mₒ, dᵥ, eᵥ, jₒ], l2_abab [lₒ, kₒ, cᵥ, dᵥ], t2_abab [cᵥ, eᵥ, lₒ, kₒ], t2_bbbb [aᵥ, bᵥ, iₒ, mₒ]], [(1, [aᵥ, bᵥ, iₒ, jₒ]), (-1, [aᵥ, bᵥ, jₒ, iₒ])]⟩,
  -- line 864: mdej,kldc,eckl,abim->abij
  ⟨1/2, [g_bbbb [mₒ, dᵥ, eᵥ, jₒ], l2_bbbb [kₒ, lₒ, dᵥ, cᵥ], t2_bbbb [eᵥ, cᵥ, kₒ, lₒ], t2_bbbb [aᵥ, bᵥ, iₒ, mₒ]], [(1, [aᵥ, bᵥ, iₒ, jₒ]), (-1, [aᵥ, bᵥ, jₒ, iₒ])]⟩,
  -- line 868: dmej,lkdc,ecli,abkm->abij
  ⟨1, [g_abab [dᵥ, mₒ, eᵥ, jₒ], l2_abab [lₒ, kₒ, dᵥ, cᵥ], t2_abab [eᵥ, cᵥ, lₒ, iₒ], t2_bbbb [aᵥ, bᵥ, kₒ, mₒ]], [(1, [aᵥ, bᵥ, iₒ, jₒ]), (-1, [aᵥ, bᵥ, jₒ, iₒ])]⟩,
  -- line 872: mdej,lkcd,celi,abkm->abij
  ⟨-1, [g_bbbb [mₒ, dᵥ, eᵥ, jₒ], l2_abab [lₒ, kₒ, cᵥ, dᵥ], t2_abab [cᵥ, eᵥ, lₒ, iₒ], t2_bbbb [aᵥ, bᵥ, kₒ, mₒ]], [(1, [aᵥ, bᵥ, iₒ, jₒ]), (-1, [aᵥ, bᵥ, jₒ, iₒ])]⟩,
  -- line 876: mdej,kldc,ecil,abkm->abij
  ⟨-1, [g_bbbb [mₒ, dᵥ, eᵥ, jₒ], l2_bbbb [kₒ, lₒ, dᵥ, cᵥ], t2_bbbb [eᵥ, cᵥ, iₒ, lₒ], t2_bbbb [aᵥ, bᵥ, kₒ, mₒ]], [(1, [aᵥ, bᵥ, iₒ, jₒ]), (-1, [aᵥ, bᵥ, jₒ, iₒ])]⟩,
  -- line 880: dmej,kldc,eakl,cbim->abij
  ⟨1/2, [g_abab [dᵥ, mₒ, eᵥ, jₒ], l2_abab [kₒ, lₒ, dᵥ, cᵥ], t2_abab [eᵥ, aᵥ, kₒ, lₒ], t2_bbbb [cᵥ, bᵥ, iₒ, mₒ]], [(1, [aᵥ, bᵥ, iₒ, jₒ]), (-1, [aᵥ, bᵥ, jₒ, iₒ]), (-1, [bᵥ, aᵥ, iₒ, jₒ]), (1, [bᵥ, aᵥ, jₒ, iₒ])]⟩,
  -- line 884: mdej,klcd,eakl,cbmi->abij
  ⟨-1/2, [g_abab [mₒ, dᵥ, eᵥ, jₒ], l2_abab [kₒ, lₒ, cᵥ, dᵥ], t2_abab [eᵥ, aᵥ, kₒ, lₒ], t2_abab [cᵥ, bᵥ, mₒ, iₒ]], [(1, [aᵥ, bᵥ, iₒ, jₒ]), (-1, [aᵥ, bᵥ, jₒ, iₒ]), (-1, [bᵥ, aᵥ, iₒ, jₒ]), (1, [bᵥ, aᵥ, jₒ, iₒ])]⟩,
  -- line 888: dmej,lkdc,ealk,cbim->abij
  ⟨1/2, [g_abab [dᵥ, mₒ, eᵥ, jₒ], l2_abab [lₒ, kₒ, dᵥ, cᵥ], t2_abab [eᵥ, aᵥ, lₒ, kₒ], t2_bbbb [cᵥ, bᵥ, iₒ, mₒ]], [(1, [aᵥ, bᵥ, iₒ, jₒ]), (-1, [aᵥ, bᵥ, jₒ, iₒ]), (-1, [bᵥ, aᵥ, iₒ, jₒ]), (1, [bᵥ, aᵥ, jₒ, iₒ])]⟩,
  -- line 892: mdej,lkcd,ealk,cbmi->abij
  ⟨-1/2, [g_abab [mₒ, dᵥ, eᵥ, jₒ], l2_abab [lₒ, kₒ, cᵥ, dᵥ], t2_abab [eᵥ, aᵥ, lₒ, kₒ], t2_abab [cᵥ, bᵥ, mₒ, iₒ]], [(1, [aᵥ, bᵥ, iₒ, jₒ]), (-1, [aᵥ, bᵥ, jₒ, iₒ]), (-1, [bᵥ, aᵥ, iₒ, jₒ]), (1, [bᵥ, aᵥ, jₒ, iₒ])]⟩,
  -- line 896: mdej,kldc,eakl,cbim->abij
  ⟨-1/2, [g_bbbb [mₒ, dᵥ, eᵥ, jₒ], l2_bbbb [kₒ, lₒ, dᵥ, cᵥ], t2_bbbb [eᵥ, aᵥ, kₒ, lₒ], t2_bbbb [cᵥ, bᵥ, iₒ, mₒ]], [(1, [aᵥ, bᵥ, iₒ, jₒ]), (-1, [aᵥ, bᵥ, jₒ, iₒ]), (-1, [bᵥ, aᵥ, iₒ, jₒ]), (1, [bᵥ, aᵥ, jₒ, iₒ])]⟩,
  -- line 900: dmej,kldc,eali,cbkm->abij
  ⟨1, [g_abab [dᵥ, mₒ, eᵥ, jₒ], l2_aaaa [kₒ, lₒ, dᵥ, cᵥ], t2_abab [eᵥ, aᵥ, lₒ, iₒ], t2_abab [cᵥ, bᵥ, kₒ, mₒ]], [(1, [aᵥ, bᵥ, iₒ, jₒ]), (-1, [aᵥ, bᵥ, jₒ, iₒ]), (-1, [bᵥ, aᵥ, iₒ, jₒ]), (1, [bᵥ, aᵥ, jₒ, iₒ])]⟩,
  -- line 904: mdej,klcd,eail,cbkm->abij
  ⟨-1, [g_bbbb [mₒ, dᵥ, eᵥ, jₒ], l2_abab [kₒ, lₒ, cᵥ, dᵥ], t2_bbbb [eᵥ, aᵥ, iₒ, lₒ], t2_abab [cᵥ, bᵥ, kₒ, mₒ]], [(1, [aᵥ, bᵥ, iₒ, jₒ]), (-1, [aᵥ, bᵥ, jₒ, iₒ]), (-1, [bᵥ, aᵥ, iₒ, jₒ]), (1, [bᵥ, aᵥ, jₒ, iₒ])]⟩,
  -- line 908: dmej,lkdc,eali,cbkm->abij
  ⟨-1, [g_abab [dᵥ, mₒ, eᵥ, jₒ], l2_abab [lₒ, kₒ, dᵥ, cᵥ], t2_abab [eᵥ, aᵥ, lₒ, iₒ], t2_bbbb [cᵥ, bᵥ, kₒ, mₒ]], [(1, [aᵥ, bᵥ, iₒ, jₒ]), (-1, [aᵥ, bᵥ, jₒ, iₒ]), (-1, [bᵥ, aᵥ, iₒ, jₒ]), (1, [bᵥ, aᵥ, jₒ, iₒ])]⟩,
  -- line 912: mdej,lkcd,eali,cbmk->abij
  ⟨1, [g_abab [mₒ, dᵥ, eᵥ, jₒ], l2_abab [lₒ, kₒ, cᵥ, dᵥ], t2_abab [eᵥ, aᵥ, lₒ, iₒ], t2_abab [cᵥ, bᵥ, mₒ, kₒ]], [(1, [aᵥ, bᵥ, iₒ, jₒ]), (-1, [aᵥ, bᵥ, jₒ, iₒ]), (-1, [bᵥ, aᵥ, iₒ, jₒ]), (1, [bᵥ, aᵥ, jₒ, iₒ])]⟩,
  -- line 916: mdej,kldc,eail,cbkm->abij
  ⟨1, [g_bbbb [mₒ, dᵥ, eᵥ, jₒ], l2_bbbb [kₒ, lₒ, dᵥ, cᵥ], t2_bbbb [eᵥ, aᵥ, iₒ, lₒ], t2_bbbb [cᵥ, bᵥ, kₒ, mₒ]], [(1, [aᵥ, bᵥ, iₒ, jₒ]), (-1, [aᵥ, bᵥ, jₒ, iₒ]), (-1, [bᵥ, aᵥ, iₒ, jₒ]), (1, [bᵥ, aᵥ, jₒ, iₒ])]⟩,
  -- line 920: male,kldc,dekj,cbmi->abij
  ⟨1, [g_abab [mₒ, aᵥ, lₒ, eᵥ], l2_aaaa [kₒ, lₒ, dᵥ, cᵥ], t2_abab [dᵥ, eᵥ, kₒ, jₒ], t2_abab [cᵥ, bᵥ, mₒ, iₒ]], [(1, [aᵥ, bᵥ, iₒ, jₒ]), (-1, [aᵥ, bᵥ, jₒ, iₒ]), (-1, [bᵥ, aᵥ, iₒ, jₒ]), (1, [bᵥ, aᵥ, jₒ, iₒ])]⟩,
  -- line 924: mael,kldc,dekj,cbim->abij
  ⟨1, [g_bbbb [mₒ, aᵥ, eᵥ, lₒ], l2_abab [kₒ, lₒ, dᵥ, cᵥ], t2_abab [dᵥ, eᵥ, kₒ, jₒ], t2_bbbb [cᵥ, bᵥ, iₒ, mₒ]], [(1, [aᵥ, bᵥ, iₒ, jₒ]), (-1, [aᵥ, bᵥ, jₒ, iₒ]), (-1, [bᵥ, aᵥ, iₒ, jₒ]), (1, [bᵥ, aᵥ, jₒ, iₒ])]⟩,
  -- line 928: mael,klcd,edkj,cbmi->abij
  ⟨-1, [g_abab [mₒ, aᵥ, eᵥ, lₒ], l2_abab [kₒ, lₒ, cᵥ, dᵥ], t2_abab [eᵥ, dᵥ, kₒ, jₒ], t2_abab [cᵥ, bᵥ, mₒ, iₒ]], [(1, [aᵥ, bᵥ, iₒ, jₒ]), (-1, [aᵥ, bᵥ, jₒ, iₒ]), (-1, [bᵥ, aᵥ, iₒ, jₒ]), (1, [bᵥ, aᵥ, jₒ, iₒ])]⟩,
  -- line 932: male,lkcd,edjk,cbmi->abij
  ⟨1, [g_abab [mₒ, aᵥ, lₒ, eᵥ], l2_abab [lₒ, kₒ, cᵥ, dᵥ], t2_bbbb [eᵥ, dᵥ, jₒ, kₒ], t2_abab [cᵥ, bᵥ, mₒ, iₒ]], [(1, [aᵥ, bᵥ, iₒ, jₒ]), (-1, [aᵥ, bᵥ, jₒ, iₒ]), (-1, [bᵥ, aᵥ, iₒ, jₒ]), (1, [bᵥ, aᵥ, jₒ, iₒ])]⟩,
  -- line 936: mael,kldc,edjk,cbim->abij
  ⟨1, [g_bbbb [mₒ, aᵥ, eᵥ, lₒ], l2_bbbb [kₒ, lₒ, dᵥ, cᵥ], t2_bbbb [eᵥ, dᵥ, jₒ, kₒ], t2_bbbb [cᵥ, bᵥ, iₒ, mₒ]], [(1, [aᵥ, bᵥ, iₒ, jₒ]), (-1, [aᵥ, bᵥ, jₒ, iₒ]), (-1, [bᵥ, aᵥ, iₒ, jₒ]), (1, [bᵥ, aᵥ, jₒ, iₒ])]⟩,
  -- line 940: mael,klcd,edij,cbkm->abij
  ⟨-1, [g_bbbb [mₒ, aᵥ, eᵥ, lₒ], l2_abab [kₒ, lₒ, cᵥ, dᵥ], t2_bbbb [eᵥ, dᵥ, iₒ, jₒ], t2_abab [cᵥ, bᵥ, kₒ, mₒ]], [(1, [aᵥ, bᵥ, iₒ, jₒ]), (-1, [bᵥ, aᵥ, iₒ, jₒ])]⟩
  ]

/-- Part 2 of `residQf1_bbbb`. -/
def residQf1_bbbb_2 : Prog := [
  -- line 944: male,lkcd,edij,cbmk->abij
  ⟨1, [g_abab [mₒ, aᵥ, lₒ, eᵥ], l2_abab [lₒ, kₒ, cᵥ, dᵥ], t2_bbbb [eᵥ, dᵥ, iₒ, jₒ], t2_abab [cᵥ, bᵥ, mₒ, kₒ]], [(1, [aᵥ, bᵥ, iₒ, jₒ]), (-1, [bᵥ, aᵥ, iₒ, jₒ])]⟩,
  -- line 948: mael,kldc,edij,cbkm->abij
  ⟨1, [g_bbbb [mₒ, aᵥ, eᵥ, lₒ], l2_bbbb [kₒ, lₒ, dᵥ, cᵥ], t2_bbbb [eᵥ, dᵥ, iₒ, jₒ], t2_bbbb [cᵥ, bᵥ, kₒ, mₒ]], [(1, [aᵥ, bᵥ, iₒ, jₒ]), (-1, [bᵥ, aᵥ, iₒ, jₒ])]⟩,
  -- line 952: mael,kldc,ebkj,dcmi->abij
  ⟨1/2, [g_abab [mₒ, aᵥ, eᵥ, lₒ], l2_abab [kₒ, lₒ, dᵥ, cᵥ], t2_abab [eᵥ, bᵥ, kₒ, jₒ], t2_abab [dᵥ, cᵥ, mₒ, iₒ]], [(1, [aᵥ, bᵥ, iₒ, jₒ]), (-1, [aᵥ, bᵥ, jₒ, iₒ]), (-1, [bᵥ, aᵥ, iₒ, jₒ]), (1, [bᵥ, aᵥ, jₒ, iₒ])]⟩,
  -- line 956: mael,klcd,ebkj,cdmi->abij
  ⟨1/2, [g_abab [mₒ, aᵥ, eᵥ, lₒ], l2_abab [kₒ, lₒ, cᵥ, dᵥ], t2_abab [eᵥ, bᵥ, kₒ, jₒ], t2_abab [cᵥ, dᵥ, mₒ, iₒ]], [(1, [aᵥ, bᵥ, iₒ, jₒ]), (-1, [aᵥ, bᵥ, jₒ, iₒ]), (-1, [bᵥ, aᵥ, iₒ, jₒ]), (1, [bᵥ, aᵥ, jₒ, iₒ])]⟩,
  -- line 960: male,lkdc,ebjk,dcmi->abij
  ⟨-1/2, [g_abab [mₒ, aᵥ, lₒ, eᵥ], l2_abab [lₒ, kₒ, dᵥ, cᵥ], t2_bbbb [eᵥ, bᵥ, jₒ, kₒ], t2_abab [dᵥ, cᵥ, mₒ, iₒ]], [(1, [aᵥ, bᵥ, iₒ, jₒ]), (-1, [aᵥ, bᵥ, jₒ, iₒ]), (-1, [bᵥ, aᵥ, iₒ, jₒ]), (1, [bᵥ, aᵥ, jₒ, iₒ])]⟩,
  -- line 964: male,lkcd,ebjk,cdmi->abij
  ⟨-1/2, [g_abab [mₒ, aᵥ, lₒ, eᵥ], l2_abab [lₒ, kₒ, cᵥ, dᵥ], t2_bbbb [eᵥ, bᵥ, jₒ, kₒ], t2_abab [cᵥ, dᵥ, mₒ, iₒ]], [(1, [aᵥ, bᵥ, iₒ, jₒ]), (-1, [aᵥ, bᵥ, jₒ, iₒ]), (-1, [bᵥ, aᵥ, iₒ, jₒ]), (1, [bᵥ, aᵥ, jₒ, iₒ])]⟩,
  -- line 968: mael,kldc,ebjk,dcim->abij
  ⟨1/2, [g_bbbb [mₒ, aᵥ, eᵥ, lₒ], l2_bbbb [kₒ, lₒ, dᵥ, cᵥ], t2_bbbb [eᵥ, bᵥ, jₒ, kₒ], t2_bbbb [dᵥ, cᵥ, iₒ, mₒ]], [(1, [aᵥ, bᵥ, iₒ, jₒ]), (-1, [aᵥ, bᵥ, jₒ, iₒ]), (-1, [bᵥ, aᵥ, iₒ, jₒ]), (1, [bᵥ, aᵥ, jₒ, iₒ])]⟩,
  -- line 972: male,kldc,ebij,dckm->abij
  ⟨-1/2, [g_abab [mₒ, aᵥ, lₒ, eᵥ], l2_aaaa [kₒ, lₒ, dᵥ, cᵥ], t2_bbbb [eᵥ, bᵥ, iₒ, jₒ], t2_aaaa [dᵥ, cᵥ, kₒ, mₒ]], [(1, [aᵥ, bᵥ, iₒ, jₒ]), (-1, [bᵥ, aᵥ, iₒ, jₒ])]⟩,
  -- line 976: mael,kldc,ebij,dckm->abij
  ⟨1/2, [g_bbbb [mₒ, aᵥ, eᵥ, lₒ], l2_abab [kₒ, lₒ, dᵥ, cᵥ], t2_bbbb [eᵥ, bᵥ, iₒ, jₒ], t2_abab [dᵥ, cᵥ, kₒ, mₒ]], [(1, [aᵥ, bᵥ, iₒ, jₒ]), (-1, [bᵥ, aᵥ, iₒ, jₒ])]⟩,
  -- line 980: mael,klcd,ebij,cdkm->abij
  ⟨1/2, [g_bbbb [mₒ, aᵥ, eᵥ, lₒ], l2_abab [kₒ, lₒ, cᵥ, dᵥ], t2_bbbb [eᵥ, bᵥ, iₒ, jₒ], t2_abab [cᵥ, dᵥ, kₒ, mₒ]], [(1, [aᵥ, bᵥ, iₒ, jₒ]), (-1, [bᵥ, aᵥ, iₒ, jₒ])]⟩,
  -- line 984: male,lkdc,ebij,dcmk->abij
  ⟨-1/2, [g_abab [mₒ, aᵥ, lₒ, eᵥ], l2_abab [lₒ, kₒ, dᵥ, cᵥ], t2_bbbb [eᵥ, bᵥ, iₒ, jₒ], t2_abab [dᵥ, cᵥ, mₒ, kₒ]], [(1, [aᵥ, bᵥ, iₒ, jₒ]), (-1, [bᵥ, aᵥ, iₒ, jₒ])]⟩,
  -- line 988: male,lkcd,ebij,cdmk->abij
  ⟨-1/2, [g_abab [mₒ, aᵥ, lₒ, eᵥ], l2_abab [lₒ, kₒ, cᵥ, dᵥ], t2_bbbb [eᵥ, bᵥ, iₒ, jₒ], t2_abab [cᵥ, dᵥ, mₒ, kₒ]], [(1, [aᵥ, bᵥ, iₒ, jₒ]), (-1, [bᵥ, aᵥ, iₒ, jₒ])]⟩,
  -- line 992: mael,kldc,ebij,dckm->abij
  ⟨1/2, [g_bbbb [mₒ, aᵥ, eᵥ, lₒ], l2_bbbb [kₒ, lₒ, dᵥ, cᵥ], t2_bbbb [eᵥ, bᵥ, iₒ, jₒ], t2_bbbb [dᵥ, cᵥ, kₒ, mₒ]], [(1, [aᵥ, bᵥ, iₒ, jₒ]), (-1, [bᵥ, aᵥ, iₒ, jₒ])]⟩,
  -- line 996: maej,kldc,edkl,cbmi->abij
  ⟨-1/2, [g_abab [mₒ, aᵥ, eᵥ, jₒ], l2_aaaa [kₒ, lₒ, dᵥ, cᵥ], t2_aaaa [eᵥ, dᵥ, kₒ, lₒ], t2_abab [cᵥ, bᵥ, mₒ, iₒ]], [(1, [aᵥ, bᵥ, iₒ, jₒ]), (-1, [aᵥ, bᵥ, jₒ, iₒ]), (-1, [bᵥ, aᵥ, iₒ, jₒ]), (1, [bᵥ, aᵥ, jₒ, iₒ])]⟩,
  -- line 1000: maej,kldc,dekl,cbim->abij
  ⟨-1/2, [g_bbbb [mₒ, aᵥ, eᵥ, jₒ], l2_abab [kₒ, lₒ, dᵥ, cᵥ], t2_abab [dᵥ, eᵥ, kₒ, lₒ], t2_bbbb [cᵥ, bᵥ, iₒ, mₒ]], [(1, [aᵥ, bᵥ, iₒ, jₒ]), (-1, [aᵥ, bᵥ, jₒ, iₒ]), (-1, [bᵥ, aᵥ, iₒ, jₒ]), (1, [bᵥ, aᵥ, jₒ, iₒ])]⟩,
  -- line 1004: maej,klcd,edkl,cbmi->abij
  ⟨1/2, [g_abab [mₒ, aᵥ, eᵥ, jₒ], l2_abab [kₒ, lₒ, cᵥ, dᵥ], t2_abab [eᵥ, dᵥ, kₒ, lₒ], t2_abab [cᵥ, bᵥ, mₒ, iₒ]], [(1, [aᵥ, bᵥ, iₒ, jₒ]), (-1, [aᵥ, bᵥ, jₒ, iₒ]), (-1, [bᵥ, aᵥ, iₒ, jₒ]), (1, [bᵥ, aᵥ, jₒ, iₒ])]⟩,
  -- line 1008: maej,lkdc,delk,cbim->abij
  ⟨-1/2, [g_bbbb [mₒ, aᵥ, eᵥ, jₒ], l2_abab [lₒ, kₒ, dᵥ, cᵥ], t2_abab [dᵥ, eᵥ, lₒ, kₒ], t2_bbbb [cᵥ, bᵥ, iₒ, mₒ]], [(1, [aᵥ, bᵥ, iₒ, jₒ]), (-1, [aᵥ, bᵥ, jₒ, iₒ]), (-1, [bᵥ, aᵥ, iₒ, jₒ]), (1, [bᵥ, aᵥ, jₒ, iₒ])]⟩,
  -- line 1012: maej,lkcd,edlk,cbmi->abij
  ⟨1/2, [g_abab [mₒ, aᵥ, eᵥ, jₒ], l2_abab [lₒ, kₒ, cᵥ, dᵥ], t2_abab [eᵥ, dᵥ, lₒ, kₒ], t2_abab [cᵥ, bᵥ, mₒ, iₒ]], [(1, [aᵥ, bᵥ, iₒ, jₒ]), (-1, [aᵥ, bᵥ, jₒ, iₒ]), (-1, [bᵥ, aᵥ, iₒ, jₒ]), (1, [bᵥ, aᵥ, jₒ, iₒ])]⟩,
  -- line 1016: maej,kldc,edkl,cbim->abij
  ⟨1/2, [g_bbbb [mₒ, aᵥ, eᵥ, jₒ], l2_bbbb [kₒ, lₒ, dᵥ, cᵥ], t2_bbbb [eᵥ, dᵥ, kₒ, lₒ], t2_bbbb [cᵥ, bᵥ, iₒ, mₒ]], [(1, [aᵥ, bᵥ, iₒ, jₒ]), (-1, [aᵥ, bᵥ, jₒ, iₒ]), (-1, [bᵥ, aᵥ, iₒ, jₒ]), (1, [bᵥ, aᵥ, jₒ, iₒ])]⟩,
  -- line 1020: maej,kldc,deli,cbkm->abij
  ⟨-1, [g_bbbb [mₒ, aᵥ, eᵥ, jₒ], l2_aaaa [kₒ, lₒ, dᵥ, cᵥ], t2_abab [dᵥ, eᵥ, lₒ, iₒ], t2_abab [cᵥ, bᵥ, kₒ, mₒ]], [(1, [aᵥ, bᵥ, iₒ, jₒ]), (-1, [aᵥ, bᵥ, jₒ, iₒ]), (-1, [bᵥ, aᵥ, iₒ, jₒ]), (1, [bᵥ, aᵥ, jₒ, iₒ])]⟩,
  -- line 1024: maej,klcd,edil,cbkm->abij
  ⟨1, [g_bbbb [mₒ, aᵥ, eᵥ, jₒ], l2_abab [kₒ, lₒ, cᵥ, dᵥ], t2_bbbb [eᵥ, dᵥ, iₒ, lₒ], t2_abab [cᵥ, bᵥ, kₒ, mₒ]], [(1, [aᵥ, bᵥ, iₒ, jₒ]), (-1, [aᵥ, bᵥ, jₒ, iₒ]), (-1, [bᵥ, aᵥ, iₒ, jₒ]), (1, [bᵥ, aᵥ, jₒ, iₒ])]⟩,
  -- line 1028: maej,lkdc,deli,cbkm->abij
  ⟨1, [g_bbbb [mₒ, aᵥ, eᵥ, jₒ], l2_abab [lₒ, kₒ, dᵥ, cᵥ], t2_abab [dᵥ, eᵥ, lₒ, iₒ], t2_bbbb [cᵥ, bᵥ, kₒ, mₒ]], [(1, [aᵥ, bᵥ, iₒ, jₒ]), (-1, [aᵥ, bᵥ, jₒ, iₒ]), (-1, [bᵥ, aᵥ, iₒ, jₒ]), (1, [bᵥ, aᵥ, jₒ, iₒ])]⟩,
  -- line 1032: maej,lkcd,edli,cbmk->abij
  ⟨-1, [g_abab [mₒ, aᵥ, eᵥ, jₒ], l2_abab [lₒ, kₒ, cᵥ, dᵥ], t2_abab [eᵥ, dᵥ, lₒ, iₒ], t2_abab [cᵥ, bᵥ, mₒ, kₒ]], [(1, [aᵥ, bᵥ, iₒ, jₒ]), (-1, [aᵥ, bᵥ, jₒ, iₒ]), (-1, [bᵥ, aᵥ, iₒ, jₒ]), (1, [bᵥ, aᵥ, jₒ, iₒ])]⟩,
  -- line 1036: maej,kldc,edil,cbkm->abij
  ⟨-1, [g_bbbb [mₒ, aᵥ, eᵥ, jₒ], l2_bbbb [kₒ, lₒ, dᵥ, cᵥ], t2_bbbb [eᵥ, dᵥ, iₒ, lₒ], t2_bbbb [cᵥ, bᵥ, kₒ, mₒ]], [(1, [aᵥ, bᵥ, iₒ, jₒ]), (-1, [aᵥ, bᵥ, jₒ, iₒ]), (-1, [bᵥ, aᵥ, iₒ, jₒ]), (1, [bᵥ, aᵥ, jₒ, iₒ])]⟩,
  -- line 1040: maej,kldc,ebkl,dcmi->abij
  ⟨-1/4, [g_abab [mₒ, aᵥ, eᵥ, jₒ], l2_abab [kₒ, lₒ, dᵥ, cᵥ], t2_abab [eᵥ, bᵥ, kₒ, lₒ], t2_abab [dᵥ, cᵥ, mₒ, iₒ]], [(1, [aᵥ, bᵥ, iₒ, jₒ]), (-1, [aᵥ, bᵥ, jₒ, iₒ]), (-1, [bᵥ, aᵥ, iₒ, jₒ]), (1, [bᵥ, aᵥ, jₒ, iₒ])]⟩,
  -- line 1044: maej,klcd,ebkl,cdmi->abij
  ⟨-1/4, [g_abab [mₒ, aᵥ, eᵥ, jₒ], l2_abab [kₒ, lₒ, cᵥ, dᵥ], t2_abab [eᵥ, bᵥ, kₒ, lₒ], t2_abab [cᵥ, dᵥ, mₒ, iₒ]], [(1, [aᵥ, bᵥ, iₒ, jₒ]), (-1, [aᵥ, bᵥ, jₒ, iₒ]), (-1, [bᵥ, aᵥ, iₒ, jₒ]), (1, [bᵥ, aᵥ, jₒ, iₒ])]⟩,
  -- line 1048: maej,lkdc,eblk,dcmi->abij
  ⟨-1/4, [g_abab [mₒ, aᵥ, eᵥ, jₒ], l2_abab [lₒ, kₒ, dᵥ, cᵥ], t2_abab [eᵥ, bᵥ, lₒ, kₒ], t2_abab [dᵥ, cᵥ, mₒ, iₒ]], [(1, [aᵥ, bᵥ, iₒ, jₒ]), (-1, [aᵥ, bᵥ, jₒ, iₒ]), (-1, [bᵥ, aᵥ, iₒ, jₒ]), (1, [bᵥ, aᵥ, jₒ, iₒ])]⟩,
  -- line 1052: maej,lkcd,eblk,cdmi->abij
  ⟨-1/4, [g_abab [mₒ, aᵥ, eᵥ, jₒ], l2_abab [lₒ, kₒ, cᵥ, dᵥ], t2_abab [eᵥ, bᵥ, lₒ, kₒ], t2_abab [cᵥ, dᵥ, mₒ, iₒ]], [(1, [aᵥ, bᵥ, iₒ, jₒ]), (-1, [aᵥ, bᵥ, jₒ, iₒ]), (-1, [bᵥ, aᵥ, iₒ, jₒ]), (1, [bᵥ, aᵥ, jₒ, iₒ])]⟩,
  -- line 1056: maej,kldc,ebkl,dcim->abij
  ⟨1/4, [g_bbbb [mₒ, aᵥ, eᵥ, jₒ], l2_bbbb [kₒ, lₒ, dᵥ, cᵥ], t2_bbbb [eᵥ, bᵥ, kₒ, lₒ], t2_bbbb [dᵥ, cᵥ, iₒ, mₒ]], [(1, [aᵥ, bᵥ, iₒ, jₒ]), (-1, [aᵥ, bᵥ, jₒ, iₒ]), (-1, [bᵥ, aᵥ, iₒ, jₒ]), (1, [bᵥ, aᵥ, jₒ, iₒ])]⟩,
  -- line 1060: maej,kldc,ebli,dckm->abij
  ⟨1/2, [g_abab [mₒ, aᵥ, eᵥ, jₒ], l2_aaaa [kₒ, lₒ, dᵥ, cᵥ], t2_abab [eᵥ, bᵥ, lₒ, iₒ], t2_aaaa [dᵥ, cᵥ, kₒ, mₒ]], [(1, [aᵥ, bᵥ, iₒ, jₒ]), (-1, [aᵥ, bᵥ, jₒ, iₒ]), (-1, [bᵥ, aᵥ, iₒ, jₒ]), (1, [bᵥ, aᵥ, jₒ, iₒ])]⟩,
  -- line 1064: maej,kldc,ebil,dckm->abij
  ⟨-1/2, [g_bbbb [mₒ, aᵥ, eᵥ, jₒ], l2_abab [kₒ, lₒ, dᵥ, cᵥ], t2_bbbb [eᵥ, bᵥ, iₒ, lₒ], t2_abab [dᵥ, cᵥ, kₒ, mₒ]], [(1, [aᵥ, bᵥ, iₒ, jₒ]), (-1, [aᵥ, bᵥ, jₒ, iₒ]), (-1, [bᵥ, aᵥ, iₒ, jₒ]), (1, [bᵥ, aᵥ, jₒ, iₒ])]⟩,
  -- line 1068: maej,klcd,ebil,cdkm->abij
  ⟨-1/2, [g_bbbb [mₒ, aᵥ, eᵥ, jₒ], l2_abab [kₒ, lₒ, cᵥ, dᵥ], t2_bbbb [eᵥ, bᵥ, iₒ, lₒ], t2_abab [cᵥ, dᵥ, kₒ, mₒ]], [(1, [aᵥ, bᵥ, iₒ, jₒ]), (-1, [aᵥ, bᵥ, jₒ, iₒ]), (-1, [bᵥ, aᵥ, iₒ, jₒ]), (1, [bᵥ, aᵥ, jₒ, iₒ])]⟩,
  -- line 1072: maej,lkdc,ebli,dcmk->abij
  ⟨1/2, [g_abab [mₒ, aᵥ, eᵥ, jₒ], l2_abab [lₒ, kₒ, dᵥ, cᵥ], t2_abab [eᵥ, bᵥ, lₒ, iₒ], t2_abab [dᵥ, cᵥ, mₒ, kₒ]], [(1, [aᵥ, bᵥ, iₒ, jₒ]), (-1, [aᵥ, bᵥ, jₒ, iₒ]), (-1, [bᵥ, aᵥ, iₒ, jₒ]), (1, [bᵥ, aᵥ, jₒ, iₒ])]⟩,
  -- line 1076: maej,lkcd,ebli,cdmk->abij
  ⟨1/2, [g_abab [mₒ, aᵥ, eᵥ, jₒ], l2_abab [lₒ, kₒ, cᵥ, dᵥ], t2_abab [eᵥ, bᵥ, lₒ, iₒ], t2_abab [cᵥ, dᵥ, mₒ, kₒ]], [(1, [aᵥ, bᵥ, iₒ, jₒ]), (-1, [aᵥ, bᵥ, jₒ, iₒ]), (-1, [bᵥ, aᵥ, iₒ, jₒ]), (1, [bᵥ, aᵥ, jₒ, iₒ])]⟩,
  -- line 1080: maej,kldc,ebil,dckm->abij
  ⟨-1/2, [g_bbbb [mₒ, aᵥ, eᵥ, jₒ], l2_bbbb [kₒ, lₒ, dᵥ, cᵥ], t2_bbbb [eᵥ, bᵥ, iₒ, lₒ], t2_bbbb [dᵥ, cᵥ, kₒ, mₒ]], [(1, [aᵥ, bᵥ, iₒ, jₒ]), (-1, [aᵥ, bᵥ, jₒ, iₒ]), (-1, [bᵥ, aᵥ, iₒ, jₒ]), (1, [bᵥ, aᵥ, jₒ, iₒ])]⟩,
  -- line 1084: dcef,kldc,eakl,fbij->abij
  ⟨-1/4, [g_abab [dᵥ, cᵥ, eᵥ, fᵥ], l2_abab [kₒ, lₒ, dᵥ, cᵥ], t2_abab [eᵥ, aᵥ, kₒ, lₒ], t2_bbbb [fᵥ, bᵥ, iₒ, jₒ]], [(1, [aᵥ, bᵥ, iₒ, jₒ])]⟩,
  -- line 1087: cdef,klcd,eakl,fbij->abij
  ⟨-1/4, [g_abab [cᵥ, dᵥ, eᵥ, fᵥ], l2_abab [kₒ, lₒ, cᵥ, dᵥ], t2_abab [eᵥ, aᵥ, kₒ, lₒ], t2_bbbb [fᵥ, bᵥ, iₒ, jₒ]], [(1, [aᵥ, bᵥ, iₒ, jₒ])]⟩,
  -- line 1090: dcef,lkdc,ealk,fbij->abij
  ⟨-1/4, [g_abab [dᵥ, cᵥ, eᵥ, fᵥ], l2_abab [lₒ, kₒ, dᵥ, cᵥ], t2_abab [eᵥ, aᵥ, lₒ, kₒ], t2_bbbb [fᵥ, bᵥ, iₒ, jₒ]], [(1, [aᵥ, bᵥ, iₒ, jₒ])]⟩,
  -- line 1093: cdef,lkcd,ealk,fbij->abij
  ⟨-1/4, [g_abab [cᵥ, dᵥ, eᵥ, fᵥ], l2_abab [lₒ, kₒ, cᵥ, dᵥ], t2_abab [eᵥ, aᵥ, lₒ, kₒ], t2_bbbb [fᵥ, bᵥ, iₒ, jₒ]], [(1, [aᵥ, bᵥ, iₒ, jₒ])]⟩,
  -- line 1096: dcef,kldc,eakl,fbij->abij
  ⟨-1/4, [g_bbbb [dᵥ, cᵥ, eᵥ, fᵥ], l2_bbbb [kₒ, lₒ, dᵥ, cᵥ], t2_bbbb [eᵥ, aᵥ, kₒ, lₒ], t2_bbbb [fᵥ, bᵥ, iₒ, jₒ]], [(1, [aᵥ, bᵥ, iₒ, jₒ])]⟩
  ]

/-- Part 3 of `residQf1_bbbb`. -/
def residQf1_bbbb_3 : Prog := [
  -- line 1099: dcef,kldc,ealj,fbki->abij
  ⟨1/2, [g_aaaa [dᵥ, cᵥ, eᵥ, fᵥ], l2_aaaa [kₒ, lₒ, dᵥ, cᵥ], t2_abab [eᵥ, aᵥ, lₒ, jₒ], t2_abab [fᵥ, bᵥ, kₒ, iₒ]], [(1, [aᵥ, bᵥ, iₒ, jₒ]), (-1, [aᵥ, bᵥ, jₒ, iₒ])]⟩,
  -- line 1103: dcfe,kldc,eajl,fbki->abij
  ⟨1/2, [g_abab [dᵥ, cᵥ, fᵥ, eᵥ], l2_abab [kₒ, lₒ, dᵥ, cᵥ], t2_bbbb [eᵥ, aᵥ, jₒ, lₒ], t2_abab [fᵥ, bᵥ, kₒ, iₒ]], [(1, [aᵥ, bᵥ, iₒ, jₒ]), (-1, [aᵥ, bᵥ, jₒ, iₒ])]⟩,
  -- line 1107: cdfe,klcd,eajl,fbki->abij
  ⟨1/2, [g_abab [cᵥ, dᵥ, fᵥ, eᵥ], l2_abab [kₒ, lₒ, cᵥ, dᵥ], t2_bbbb [eᵥ, aᵥ, jₒ, lₒ], t2_abab [fᵥ, bᵥ, kₒ, iₒ]], [(1, [aᵥ, bᵥ, iₒ, jₒ]), (-1, [aᵥ, bᵥ, jₒ, iₒ])]⟩,
  -- line 1111: dcef,lkdc,ealj,fbik->abij
  ⟨1/2, [g_abab [dᵥ, cᵥ, eᵥ, fᵥ], l2_abab [lₒ, kₒ, dᵥ, cᵥ], t2_abab [eᵥ, aᵥ, lₒ, jₒ], t2_bbbb [fᵥ, bᵥ, iₒ, kₒ]], [(1, [aᵥ, bᵥ, iₒ, jₒ]), (-1, [aᵥ, bᵥ, jₒ, iₒ])]⟩,
  -- line 1115: cdef,lkcd,ealj,fbik->abij
  ⟨1/2, [g_abab [cᵥ, dᵥ, eᵥ, fᵥ], l2_abab [lₒ, kₒ, cᵥ, dᵥ], t2_abab [eᵥ, aᵥ, lₒ, jₒ], t2_bbbb [fᵥ, bᵥ, iₒ, kₒ]], [(1, [aᵥ, bᵥ, iₒ, jₒ]), (-1, [aᵥ, bᵥ, jₒ, iₒ])]⟩,
  -- line 1119: dcef,kldc,eajl,fbik->abij
  ⟨1/2, [g_bbbb [dᵥ, cᵥ, eᵥ, fᵥ], l2_bbbb [kₒ, lₒ, dᵥ, cᵥ], t2_bbbb [eᵥ, aᵥ, jₒ, lₒ], t2_bbbb [fᵥ, bᵥ, iₒ, kₒ]], [(1, [aᵥ, bᵥ, iₒ, jₒ]), (-1, [aᵥ, bᵥ, jₒ, iₒ])]⟩,
  -- line 1123: dcfe,kldc,eaij,fbkl->abij
  ⟨1/4, [g_abab [dᵥ, cᵥ, fᵥ, eᵥ], l2_abab [kₒ, lₒ, dᵥ, cᵥ], t2_bbbb [eᵥ, aᵥ, iₒ, jₒ], t2_abab [fᵥ, bᵥ, kₒ, lₒ]], [(1, [aᵥ, bᵥ, iₒ, jₒ])]⟩,
  -- line 1126: cdfe,klcd,eaij,fbkl->abij
  ⟨1/4, [g_abab [cᵥ, dᵥ, fᵥ, eᵥ], l2_abab [kₒ, lₒ, cᵥ, dᵥ], t2_bbbb [eᵥ, aᵥ, iₒ, jₒ], t2_abab [fᵥ, bᵥ, kₒ, lₒ]], [(1, [aᵥ, bᵥ, iₒ, jₒ])]⟩,
  -- line 1129: dcfe,lkdc,eaij,fblk->abij
  ⟨1/4, [g_abab [dᵥ, cᵥ, fᵥ, eᵥ], l2_abab [lₒ, kₒ, dᵥ, cᵥ], t2_bbbb [eᵥ, aᵥ, iₒ, jₒ], t2_abab [fᵥ, bᵥ, lₒ, kₒ]], [(1, [aᵥ, bᵥ, iₒ, jₒ])]⟩,
  -- line 1132: cdfe,lkcd,eaij,fblk->abij
  ⟨1/4, [g_abab [cᵥ, dᵥ, fᵥ, eᵥ], l2_abab [lₒ, kₒ, cᵥ, dᵥ], t2_bbbb [eᵥ, aᵥ, iₒ, jₒ], t2_abab [fᵥ, bᵥ, lₒ, kₒ]], [(1, [aᵥ, bᵥ, iₒ, jₒ])]⟩,
  -- line 1135: dcef,kldc,eaij,fbkl->abij
  ⟨-1/4, [g_bbbb [dᵥ, cᵥ, eᵥ, fᵥ], l2_bbbb [kₒ, lₒ, dᵥ, cᵥ], t2_bbbb [eᵥ, aᵥ, iₒ, jₒ], t2_bbbb [fᵥ, bᵥ, kₒ, lₒ]], [(1, [aᵥ, bᵥ, iₒ, jₒ])]⟩,
  -- line 1138: daef,kldc,eckl,fbij->abij
  ⟨1/2, [g_abab [dᵥ, aᵥ, eᵥ, fᵥ], l2_aaaa [kₒ, lₒ, dᵥ, cᵥ], t2_aaaa [eᵥ, cᵥ, kₒ, lₒ], t2_bbbb [fᵥ, bᵥ, iₒ, jₒ]], [(1, [aᵥ, bᵥ, iₒ, jₒ]), (-1, [bᵥ, aᵥ, iₒ, jₒ])]⟩,
  -- line 1142: daef,kldc,eckl,fbij->abij
  ⟨1/2, [g_abab [dᵥ, aᵥ, eᵥ, fᵥ], l2_abab [kₒ, lₒ, dᵥ, cᵥ], t2_abab [eᵥ, cᵥ, kₒ, lₒ], t2_bbbb [fᵥ, bᵥ, iₒ, jₒ]], [(1, [aᵥ, bᵥ, iₒ, jₒ]), (-1, [bᵥ, aᵥ, iₒ, jₒ])]⟩,
  -- line 1146: daef,klcd,cekl,fbij->abij
  ⟨1/2, [g_bbbb [dᵥ, aᵥ, eᵥ, fᵥ], l2_abab [kₒ, lₒ, cᵥ, dᵥ], t2_abab [cᵥ, eᵥ, kₒ, lₒ], t2_bbbb [fᵥ, bᵥ, iₒ, jₒ]], [(1, [aᵥ, bᵥ, iₒ, jₒ]), (-1, [bᵥ, aᵥ, iₒ, jₒ])]⟩,
  -- line 1150: daef,lkdc,eclk,fbij->abij
  ⟨1/2, [g_abab [dᵥ, aᵥ, eᵥ, fᵥ], l2_abab [lₒ, kₒ, dᵥ, cᵥ], t2_abab [eᵥ, cᵥ, lₒ, kₒ], t2_bbbb [fᵥ, bᵥ, iₒ, jₒ]], [(1, [aᵥ, bᵥ, iₒ, jₒ]), (-1, [bᵥ, aᵥ, iₒ, jₒ])]⟩,
  -- line 1154: daef,lkcd,celk,fbij->abij
  ⟨1/2, [g_bbbb [dᵥ, aᵥ, eᵥ, fᵥ], l2_abab [lₒ, kₒ, cᵥ, dᵥ], t2_abab [cᵥ, eᵥ, lₒ, kₒ], t2_bbbb [fᵥ, bᵥ, iₒ, jₒ]], [(1, [aᵥ, bᵥ, iₒ, jₒ]), (-1, [bᵥ, aᵥ, iₒ, jₒ])]⟩,
  -- line 1158: daef,kldc,eckl,fbij->abij
  ⟨1/2, [g_bbbb [dᵥ, aᵥ, eᵥ, fᵥ], l2_bbbb [kₒ, lₒ, dᵥ, cᵥ], t2_bbbb [eᵥ, cᵥ, kₒ, lₒ], t2_bbbb [fᵥ, bᵥ, iₒ, jₒ]], [(1, [aᵥ, bᵥ, iₒ, jₒ]), (-1, [bᵥ, aᵥ, iₒ, jₒ])]⟩,
  -- line 1162: dafe,kldc,celj,fbki->abij
  ⟨-1, [g_abab [dᵥ, aᵥ, fᵥ, eᵥ], l2_aaaa [kₒ, lₒ, dᵥ, cᵥ], t2_abab [cᵥ, eᵥ, lₒ, jₒ], t2_abab [fᵥ, bᵥ, kₒ, iₒ]], [(1, [aᵥ, bᵥ, iₒ, jₒ]), (-1, [aᵥ, bᵥ, jₒ, iₒ]), (-1, [bᵥ, aᵥ, iₒ, jₒ]), (1, [bᵥ, aᵥ, jₒ, iₒ])]⟩,
  -- line 1166: dafe,kldc,ecjl,fbki->abij
  ⟨-1, [g_abab [dᵥ, aᵥ, fᵥ, eᵥ], l2_abab [kₒ, lₒ, dᵥ, cᵥ], t2_bbbb [eᵥ, cᵥ, jₒ, lₒ], t2_abab [fᵥ, bᵥ, kₒ, iₒ]], [(1, [aᵥ, bᵥ, iₒ, jₒ]), (-1, [aᵥ, bᵥ, jₒ, iₒ]), (-1, [bᵥ, aᵥ, iₒ, jₒ]), (1, [bᵥ, aᵥ, jₒ, iₒ])]⟩,
  -- line 1170: daef,lkdc,eclj,fbik->abij
  ⟨-1, [g_abab [dᵥ, aᵥ, eᵥ, fᵥ], l2_abab [lₒ, kₒ, dᵥ, cᵥ], t2_abab [eᵥ, cᵥ, lₒ, jₒ], t2_bbbb [fᵥ, bᵥ, iₒ, kₒ]], [(1, [aᵥ, bᵥ, iₒ, jₒ]), (-1, [aᵥ, bᵥ, jₒ, iₒ]), (-1, [bᵥ, aᵥ, iₒ, jₒ]), (1, [bᵥ, aᵥ, jₒ, iₒ])]⟩,
  -- line 1174: daef,lkcd,celj,fbik->abij
  ⟨-1, [g_bbbb [dᵥ, aᵥ, eᵥ, fᵥ], l2_abab [lₒ, kₒ, cᵥ, dᵥ], t2_abab [cᵥ, eᵥ, lₒ, jₒ], t2_bbbb [fᵥ, bᵥ, iₒ, kₒ]], [(1, [aᵥ, bᵥ, iₒ, jₒ]), (-1, [aᵥ, bᵥ, jₒ, iₒ]), (-1, [bᵥ, aᵥ, iₒ, jₒ]), (1, [bᵥ, aᵥ, jₒ, iₒ])]⟩,
  -- line 1178: daef,kldc,ecjl,fbik->abij
  ⟨-1, [g_bbbb [dᵥ, aᵥ, eᵥ, fᵥ], l2_bbbb [kₒ, lₒ, dᵥ, cᵥ], t2_bbbb [eᵥ, cᵥ, jₒ, lₒ], t2_bbbb [fᵥ, bᵥ, iₒ, kₒ]], [(1, [aᵥ, bᵥ, iₒ, jₒ]), (-1, [aᵥ, bᵥ, jₒ, iₒ]), (-1, [bᵥ, aᵥ, iₒ, jₒ]), (1, [bᵥ, aᵥ, jₒ, iₒ])]⟩,
  -- line 1182: dafe,kldc,ecij,fbkl->abij
  ⟨-1/2, [g_abab [dᵥ, aᵥ, fᵥ, eᵥ], l2_abab [kₒ, lₒ, dᵥ, cᵥ], t2_bbbb [eᵥ, cᵥ, iₒ, jₒ], t2_abab [fᵥ, bᵥ, kₒ, lₒ]], [(1, [aᵥ, bᵥ, iₒ, jₒ]), (-1, [bᵥ, aᵥ, iₒ, jₒ])]⟩,
  -- line 1186: dafe,lkdc,ecij,fblk->abij
  ⟨-1/2, [g_abab [dᵥ, aᵥ, fᵥ, eᵥ], l2_abab [lₒ, kₒ, dᵥ, cᵥ], t2_bbbb [eᵥ, cᵥ, iₒ, jₒ], t2_abab [fᵥ, bᵥ, lₒ, kₒ]], [(1, [aᵥ, bᵥ, iₒ, jₒ]), (-1, [bᵥ, aᵥ, iₒ, jₒ])]⟩,
  -- line 1190: daef,kldc,ecij,fbkl->abij
  ⟨1/2, [g_bbbb [dᵥ, aᵥ, eᵥ, fᵥ], l2_bbbb [kₒ, lₒ, dᵥ, cᵥ], t2_bbbb [eᵥ, cᵥ, iₒ, jₒ], t2_bbbb [fᵥ, bᵥ, kₒ, lₒ]], [(1, [aᵥ, bᵥ, iₒ, jₒ]), (-1, [bᵥ, aᵥ, iₒ, jₒ])]⟩,
  -- line 1194: abef,kldc,dekl,fcij->abij
  ⟨1/2, [g_bbbb [aᵥ, bᵥ, eᵥ, fᵥ], l2_abab [kₒ, lₒ, dᵥ, cᵥ], t2_abab [dᵥ, eᵥ, kₒ, lₒ], t2_bbbb [fᵥ, cᵥ, iₒ, jₒ]], [(1, [aᵥ, bᵥ, iₒ, jₒ])]⟩,
  -- line 1197: abef,lkdc,delk,fcij->abij
  ⟨1/2, [g_bbbb [aᵥ, bᵥ, eᵥ, fᵥ], l2_abab [lₒ, kₒ, dᵥ, cᵥ], t2_abab [dᵥ, eᵥ, lₒ, kₒ], t2_bbbb [fᵥ, cᵥ, iₒ, jₒ]], [(1, [aᵥ, bᵥ, iₒ, jₒ])]⟩,
  -- line 1200: abef,kldc,edkl,fcij->abij
  ⟨-1/2, [g_bbbb [aᵥ, bᵥ, eᵥ, fᵥ], l2_bbbb [kₒ, lₒ, dᵥ, cᵥ], t2_bbbb [eᵥ, dᵥ, kₒ, lₒ], t2_bbbb [fᵥ, cᵥ, iₒ, jₒ]], [(1, [aᵥ, bᵥ, iₒ, jₒ])]⟩,
  -- line 1203: abef,kldc,delj,cfki->abij
  ⟨1/2, [g_bbbb [aᵥ, bᵥ, eᵥ, fᵥ], l2_aaaa [kₒ, lₒ, dᵥ, cᵥ], t2_abab [dᵥ, eᵥ, lₒ, jₒ], t2_abab [cᵥ, fᵥ, kₒ, iₒ]], [(1, [aᵥ, bᵥ, iₒ, jₒ]), (-1, [aᵥ, bᵥ, jₒ, iₒ])]⟩,
  -- line 1207: abef,klcd,edjl,cfki->abij
  ⟨-1/2, [g_bbbb [aᵥ, bᵥ, eᵥ, fᵥ], l2_abab [kₒ, lₒ, cᵥ, dᵥ], t2_bbbb [eᵥ, dᵥ, jₒ, lₒ], t2_abab [cᵥ, fᵥ, kₒ, iₒ]], [(1, [aᵥ, bᵥ, iₒ, jₒ]), (-1, [aᵥ, bᵥ, jₒ, iₒ])]⟩,
  -- line 1211: abef,lkdc,delj,fcik->abij
  ⟨-1/2, [g_bbbb [aᵥ, bᵥ, eᵥ, fᵥ], l2_abab [lₒ, kₒ, dᵥ, cᵥ], t2_abab [dᵥ, eᵥ, lₒ, jₒ], t2_bbbb [fᵥ, cᵥ, iₒ, kₒ]], [(1, [aᵥ, bᵥ, iₒ, jₒ]), (-1, [aᵥ, bᵥ, jₒ, iₒ])]⟩,
  -- line 1215: abef,kldc,edjl,fcik->abij
  ⟨1/2, [g_bbbb [aᵥ, bᵥ, eᵥ, fᵥ], l2_bbbb [kₒ, lₒ, dᵥ, cᵥ], t2_bbbb [eᵥ, dᵥ, jₒ, lₒ], t2_bbbb [fᵥ, cᵥ, iₒ, kₒ]], [(1, [aᵥ, bᵥ, iₒ, jₒ]), (-1, [aᵥ, bᵥ, jₒ, iₒ])]⟩
  ]

/-- `UT2/modify_T2resid_T4Qf1.py` 615-1220, `residQf1_bbbb`. -/
def residQf1_bbbb : Prog := residQf1_bbbb_0 ++ (residQf1_bbbb_1 ++ (residQf1_bbbb_2 ++ (residQf1_bbbb_3)))

end Verif.Gen
