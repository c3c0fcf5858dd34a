import Verif.Ein.Names
import Verif.Gen.Antisym

/-! Written by `/verif/tools/gen.py`. Programs read from `/repo/UT2`. -/

set_option maxRecDepth 100000

namespace Verif.Gen

open Verif.Ein Verif.Ein.N


/-- Part 0 of `test_t2_bbbb`. -/
def test_t2_bbbb_0 : Prog := [
  -- line 842: mnkl,kldc,dcmj,abin->abij
  ⟨-1/4, [g_abab [mₒ, nₒ, kₒ, lₒ], l2_abab [kₒ, lₒ, dᵥ, cᵥ], t2_abab [dᵥ, cᵥ, mₒ, jₒ], t2_bbbb [aᵥ, bᵥ, iₒ, nₒ]], [(1, [aᵥ, bᵥ, iₒ, jₒ]), (-1, [aᵥ, bᵥ, jₒ, iₒ])]⟩,
  -- line 846: mnkl,klcd,cdmj,abin->abij
  ⟨-1/4, [g_abab [mₒ, nₒ, kₒ, lₒ], l2_abab [kₒ, lₒ, cᵥ, dᵥ], t2_abab [cᵥ, dᵥ, mₒ, jₒ], t2_bbbb [aᵥ, bᵥ, iₒ, nₒ]], [(1, [aᵥ, bᵥ, iₒ, jₒ]), (-1, [aᵥ, bᵥ, jₒ, iₒ])]⟩,
  -- line 850: mnlk,lkdc,dcmj,abin->abij
  ⟨-1/4, [g_abab [mₒ, nₒ, lₒ, kₒ], l2_abab [lₒ, kₒ, dᵥ, cᵥ], t2_abab [dᵥ, cᵥ, mₒ, jₒ], t2_bbbb [aᵥ, bᵥ, iₒ, nₒ]], [(1, [aᵥ, bᵥ, iₒ, jₒ]), (-1, [aᵥ, bᵥ, jₒ, iₒ])]⟩,
  -- line 854: mnlk,lkcd,cdmj,abin->abij
  ⟨-1/4, [g_abab [mₒ, nₒ, lₒ, kₒ], l2_abab [lₒ, kₒ, cᵥ, dᵥ], t2_abab [cᵥ, dᵥ, mₒ, jₒ], t2_bbbb [aᵥ, bᵥ, iₒ, nₒ]], [(1, [aᵥ, bᵥ, iₒ, jₒ]), (-1, [aᵥ, bᵥ, jₒ, iₒ])]⟩,
  -- line 858: nmkl,kldc,dcjm,abin->abij
  ⟨-1/4, [g_bbbb [nₒ, mₒ, kₒ, lₒ], l2_bbbb [kₒ, lₒ, dᵥ, cᵥ], t2_bbbb [dᵥ, cᵥ, jₒ, mₒ], t2_bbbb [aᵥ, bᵥ, iₒ, nₒ]], [(1, [aᵥ, bᵥ, iₒ, jₒ]), (-1, [aᵥ, bᵥ, jₒ, iₒ])]⟩,
  -- line 862: nmkl,kldc,damj,cbni->abij
  ⟨1/2, [g_aaaa [nₒ, mₒ, kₒ, lₒ], l2_aaaa [kₒ, lₒ, dᵥ, cᵥ], t2_abab [dᵥ, aᵥ, mₒ, jₒ], t2_abab [cᵥ, bᵥ, nₒ, iₒ]], [(1, [aᵥ, bᵥ, iₒ, jₒ]), (-1, [aᵥ, bᵥ, jₒ, iₒ])]⟩,
  -- line 866: mnkl,kldc,damj,cbin->abij
  ⟨1/2, [g_abab [mₒ, nₒ, kₒ, lₒ], l2_abab [kₒ, lₒ, dᵥ, cᵥ], t2_abab [dᵥ, aᵥ, mₒ, jₒ], t2_bbbb [cᵥ, bᵥ, iₒ, nₒ]], [(1, [aᵥ, bᵥ, iₒ, jₒ]), (-1, [aᵥ, bᵥ, jₒ, iₒ])]⟩,
  -- line 870: nmkl,klcd,dajm,cbni->abij
  ⟨1/2, [g_abab [nₒ, mₒ, kₒ, lₒ], l2_abab [kₒ, lₒ, cᵥ, dᵥ], t2_bbbb [dᵥ, aᵥ, jₒ, mₒ], t2_abab [cᵥ, bᵥ, nₒ, iₒ]], [(1, [aᵥ, bᵥ, iₒ, jₒ]), (-1, [aᵥ, bᵥ, jₒ, iₒ])]⟩,
  -- line 874: mnlk,lkdc,damj,cbin->abij
  ⟨1/2, [g_abab [mₒ, nₒ, lₒ, kₒ], l2_abab [lₒ, kₒ, dᵥ, cᵥ], t2_abab [dᵥ, aᵥ, mₒ, jₒ], t2_bbbb [cᵥ, bᵥ, iₒ, nₒ]], [(1, [aᵥ, bᵥ, iₒ, jₒ]), (-1, [aᵥ, bᵥ, jₒ, iₒ])]⟩,
  -- line 878: nmlk,lkcd,dajm,cbni->abij
  ⟨1/2, [g_abab [nₒ, mₒ, lₒ, kₒ], l2_abab [lₒ, kₒ, cᵥ, dᵥ], t2_bbbb [dᵥ, aᵥ, jₒ, mₒ], t2_abab [cᵥ, bᵥ, nₒ, iₒ]], [(1, [aᵥ, bᵥ, iₒ, jₒ]), (-1, [aᵥ, bᵥ, jₒ, iₒ])]⟩,
  -- line 882: nmkl,kldc,dajm,cbin->abij
  ⟨1/2, [g_bbbb [nₒ, mₒ, kₒ, lₒ], l2_bbbb [kₒ, lₒ, dᵥ, cᵥ], t2_bbbb [dᵥ, aᵥ, jₒ, mₒ], t2_bbbb [cᵥ, bᵥ, iₒ, nₒ]], [(1, [aᵥ, bᵥ, iₒ, jₒ]), (-1, [aᵥ, bᵥ, jₒ, iₒ])]⟩,
  -- line 886: mnlj,kldc,dckm,abin->abij
  ⟨1/2, [g_abab [mₒ, nₒ, lₒ, jₒ], l2_aaaa [kₒ, lₒ, dᵥ, cᵥ], t2_aaaa [dᵥ, cᵥ, kₒ, mₒ], t2_bbbb [aᵥ, bᵥ, iₒ, nₒ]], [(1, [aᵥ, bᵥ, iₒ, jₒ]), (-1, [aᵥ, bᵥ, jₒ, iₒ])]⟩,
  -- line 890: nmjl,kldc,dckm,abin->abij
  ⟨1/2, [g_bbbb [nₒ, mₒ, jₒ, lₒ], l2_abab [kₒ, lₒ, dᵥ, cᵥ], t2_abab [dᵥ, cᵥ, kₒ, mₒ], t2_bbbb [aᵥ, bᵥ, iₒ, nₒ]], [(1, [aᵥ, bᵥ, iₒ, jₒ]), (-1, [aᵥ, bᵥ, jₒ, iₒ])]⟩,
  -- line 894: nmjl,klcd,cdkm,abin->abij
  ⟨1/2, [g_bbbb [nₒ, mₒ, jₒ, lₒ], l2_abab [kₒ, lₒ, cᵥ, dᵥ], t2_abab [cᵥ, dᵥ, kₒ, mₒ], t2_bbbb [aᵥ, bᵥ, iₒ, nₒ]], [(1, [aᵥ, bᵥ, iₒ, jₒ]), (-1, [aᵥ, bᵥ, jₒ, iₒ])]⟩,
  -- line 898: mnlj,lkdc,dcmk,abin->abij
  ⟨1/2, [g_abab [mₒ, nₒ, lₒ, jₒ], l2_abab [lₒ, kₒ, dᵥ, cᵥ], t2_abab [dᵥ, cᵥ, mₒ, kₒ], t2_bbbb [aᵥ, bᵥ, iₒ, nₒ]], [(1, [aᵥ, bᵥ, iₒ, jₒ]), (-1, [aᵥ, bᵥ, jₒ, iₒ])]⟩,
  -- line 902: mnlj,lkcd,cdmk,abin->abij
  ⟨1/2, [g_abab [mₒ, nₒ, lₒ, jₒ], l2_abab [lₒ, kₒ, cᵥ, dᵥ], t2_abab [cᵥ, dᵥ, mₒ, kₒ], t2_bbbb [aᵥ, bᵥ, iₒ, nₒ]], [(1, [aᵥ, bᵥ, iₒ, jₒ]), (-1, [aᵥ, bᵥ, jₒ, iₒ])]⟩,
  -- line 906: nmjl,kldc,dckm,abin->abij
  ⟨1/2, [g_bbbb [nₒ, mₒ, jₒ, lₒ], l2_bbbb [kₒ, lₒ, dᵥ, cᵥ], t2_bbbb [dᵥ, cᵥ, kₒ, mₒ], t2_bbbb [aᵥ, bᵥ, iₒ, nₒ]], [(1, [aᵥ, bᵥ, iₒ, jₒ]), (-1, [aᵥ, bᵥ, jₒ, iₒ])]⟩,
  -- line 910: mnlj,lkdc,dcmi,abkn->abij
  ⟨-1/2, [g_abab [mₒ, nₒ, lₒ, jₒ], l2_abab [lₒ, kₒ, dᵥ, cᵥ], t2_abab [dᵥ, cᵥ, mₒ, iₒ], t2_bbbb [aᵥ, bᵥ, kₒ, nₒ]], [(1, [aᵥ, bᵥ, iₒ, jₒ]), (-1, [aᵥ, bᵥ, jₒ, iₒ])]⟩,
  -- line 914: mnlj,lkcd,cdmi,abkn->abij
  ⟨-1/2, [g_abab [mₒ, nₒ, lₒ, jₒ], l2_abab [lₒ, kₒ, cᵥ, dᵥ], t2_abab [cᵥ, dᵥ, mₒ, iₒ], t2_bbbb [aᵥ, bᵥ, kₒ, nₒ]], [(1, [aᵥ, bᵥ, iₒ, jₒ]), (-1, [aᵥ, bᵥ, jₒ, iₒ])]⟩,
  -- line 918: nmjl,kldc,dcim,abkn->abij
  ⟨-1/2, [g_bbbb [nₒ, mₒ, jₒ, lₒ], l2_bbbb [kₒ, lₒ, dᵥ, cᵥ], t2_bbbb [dᵥ, cᵥ, iₒ, mₒ], t2_bbbb [aᵥ, bᵥ, kₒ, nₒ]], [(1, [aᵥ, bᵥ, iₒ, jₒ]), (-1, [aᵥ, bᵥ, jₒ, iₒ])]⟩,
  -- line 922: nmlj,kldc,dakm,cbni->abij
  ⟨-1, [g_abab [nₒ, mₒ, lₒ, jₒ], l2_aaaa [kₒ, lₒ, dᵥ, cᵥ], t2_abab [dᵥ, aᵥ, kₒ, mₒ], t2_abab [cᵥ, bᵥ, nₒ, iₒ]], [(1, [aᵥ, bᵥ, iₒ, jₒ]), (-1, [aᵥ, bᵥ, jₒ, iₒ])]⟩,
  -- line 926: nmjl,kldc,dakm,cbin->abij
  ⟨-1, [g_bbbb [nₒ, mₒ, jₒ, lₒ], l2_abab [kₒ, lₒ, dᵥ, cᵥ], t2_abab [dᵥ, aᵥ, kₒ, mₒ], t2_bbbb [cᵥ, bᵥ, iₒ, nₒ]], [(1, [aᵥ, bᵥ, iₒ, jₒ]), (-1, [aᵥ, bᵥ, jₒ, iₒ])]⟩,
  -- line 930: mnlj,lkdc,damk,cbin->abij
  ⟨-1, [g_abab [mₒ, nₒ, lₒ, jₒ], l2_abab [lₒ, kₒ, dᵥ, cᵥ], t2_abab [dᵥ, aᵥ, mₒ, kₒ], t2_bbbb [cᵥ, bᵥ, iₒ, nₒ]], [(1, [aᵥ, bᵥ, iₒ, jₒ]), (-1, [aᵥ, bᵥ, jₒ, iₒ])]⟩,
  -- line 934: nmlj,lkcd,dakm,cbni->abij
  ⟨-1, [g_abab [nₒ, mₒ, lₒ, jₒ], l2_abab [lₒ, kₒ, cᵥ, dᵥ], t2_bbbb [dᵥ, aᵥ, kₒ, mₒ], t2_abab [cᵥ, bᵥ, nₒ, iₒ]], [(1, [aᵥ, bᵥ, iₒ, jₒ]), (-1, [aᵥ, bᵥ, jₒ, iₒ])]⟩,
  -- line 938: nmjl,kldc,dakm,cbin->abij
  ⟨-1, [g_bbbb [nₒ, mₒ, jₒ, lₒ], l2_bbbb [kₒ, lₒ, dᵥ, cᵥ], t2_bbbb [dᵥ, aᵥ, kₒ, mₒ], t2_bbbb [cᵥ, bᵥ, iₒ, nₒ]], [(1, [aᵥ, bᵥ, iₒ, jₒ]), (-1, [aᵥ, bᵥ, jₒ, iₒ])]⟩,
  -- line 942: mnlj,kldc,dami,cbkn->abij
  ⟨-1, [g_abab [mₒ, nₒ, lₒ, jₒ], l2_aaaa [kₒ, lₒ, dᵥ, cᵥ], t2_abab [dᵥ, aᵥ, mₒ, iₒ], t2_abab [cᵥ, bᵥ, kₒ, nₒ]], [(1, [aᵥ, bᵥ, iₒ, jₒ]), (-1, [aᵥ, bᵥ, jₒ, iₒ])]⟩,
  -- line 946: nmjl,klcd,daim,cbkn->abij
  ⟨-1, [g_bbbb [nₒ, mₒ, jₒ, lₒ], l2_abab [kₒ, lₒ, cᵥ, dᵥ], t2_bbbb [dᵥ, aᵥ, iₒ, mₒ], t2_abab [cᵥ, bᵥ, kₒ, nₒ]], [(1, [aᵥ, bᵥ, iₒ, jₒ]), (-1, [aᵥ, bᵥ, jₒ, iₒ])]⟩,
  -- line 950: mnlj,lkdc,dami,cbkn->abij
  ⟨1, [g_abab [mₒ, nₒ, lₒ, jₒ], l2_abab [lₒ, kₒ, dᵥ, cᵥ], t2_abab [dᵥ, aᵥ, mₒ, iₒ], t2_bbbb [cᵥ, bᵥ, kₒ, nₒ]], [(1, [aᵥ, bᵥ, iₒ, jₒ]), (-1, [aᵥ, bᵥ, jₒ, iₒ])]⟩,
  -- line 954: nmlj,lkcd,daim,cbnk->abij
  ⟨1, [g_abab [nₒ, mₒ, lₒ, jₒ], l2_abab [lₒ, kₒ, cᵥ, dᵥ], t2_bbbb [dᵥ, aᵥ, iₒ, mₒ], t2_abab [cᵥ, bᵥ, nₒ, kₒ]], [(1, [aᵥ, bᵥ, iₒ, jₒ]), (-1, [aᵥ, bᵥ, jₒ, iₒ])]⟩,
  -- line 958: nmjl,kldc,daim,cbkn->abij
  ⟨1, [g_bbbb [nₒ, mₒ, jₒ, lₒ], l2_bbbb [kₒ, lₒ, dᵥ, cᵥ], t2_bbbb [dᵥ, aᵥ, iₒ, mₒ], t2_bbbb [cᵥ, bᵥ, kₒ, nₒ]], [(1, [aᵥ, bᵥ, iₒ, jₒ]), (-1, [aᵥ, bᵥ, jₒ, iₒ])]⟩,
  -- line 962: nmij,lkdc,dclm,abkn->abij
  ⟨1/2, [g_bbbb [nₒ, mₒ, iₒ, jₒ], l2_abab [lₒ, kₒ, dᵥ, cᵥ], t2_abab [dᵥ, cᵥ, lₒ, mₒ], t2_bbbb [aᵥ, bᵥ, kₒ, nₒ]], [(1, [aᵥ, bᵥ, iₒ, jₒ])]⟩,
  -- line 965: nmij,lkcd,cdlm,abkn->abij
  ⟨1/2, [g_bbbb [nₒ, mₒ, iₒ, jₒ], l2_abab [lₒ, kₒ, cᵥ, dᵥ], t2_abab [cᵥ, dᵥ, lₒ, mₒ], t2_bbbb [aᵥ, bᵥ, kₒ, nₒ]], [(1, [aᵥ, bᵥ, iₒ, jₒ])]⟩,
  -- line 968: nmij,kldc,dclm,abkn->abij
  ⟨-1/2, [g_bbbb [nₒ, mₒ, iₒ, jₒ], l2_bbbb [kₒ, lₒ, dᵥ, cᵥ], t2_bbbb [dᵥ, cᵥ, lₒ, mₒ], t2_bbbb [aᵥ, bᵥ, kₒ, nₒ]], [(1, [aᵥ, bᵥ, iₒ, jₒ])]⟩,
  -- line 971: nmij,kldc,dalm,cbkn->abij
  ⟨1/2, [g_bbbb [nₒ, mₒ, iₒ, jₒ], l2_aaaa [kₒ, lₒ, dᵥ, cᵥ], t2_abab [dᵥ, aᵥ, lₒ, mₒ], t2_abab [cᵥ, bᵥ, kₒ, nₒ]], [(1, [aᵥ, bᵥ, iₒ, jₒ]), (-1, [bᵥ, aᵥ, iₒ, jₒ])]⟩,
  -- line 975: nmij,klcd,dalm,cbkn->abij
  ⟨-1/2, [g_bbbb [nₒ, mₒ, iₒ, jₒ], l2_abab [kₒ, lₒ, cᵥ, dᵥ], t2_bbbb [dᵥ, aᵥ, lₒ, mₒ], t2_abab [cᵥ, bᵥ, kₒ, nₒ]], [(1, [aᵥ, bᵥ, iₒ, jₒ]), (-1, [bᵥ, aᵥ, iₒ, jₒ])]⟩,
  -- line 979: nmij,lkdc,dalm,cbkn->abij
  ⟨-1/2, [g_bbbb [nₒ, mₒ, iₒ, jₒ], l2_abab [lₒ, kₒ, dᵥ, cᵥ], t2_abab [dᵥ, aᵥ, lₒ, mₒ], t2_bbbb [cᵥ, bᵥ, kₒ, nₒ]], [(1, [aᵥ, bᵥ, iₒ, jₒ]), (-1, [bᵥ, aᵥ, iₒ, jₒ])]⟩,
  -- line 983: nmij,kldc,dalm,cbkn->abij
  ⟨1/2, [g_bbbb [nₒ, mₒ, iₒ, jₒ], l2_bbbb [kₒ, lₒ, dᵥ, cᵥ], t2_bbbb [dᵥ, aᵥ, lₒ, mₒ], t2_bbbb [cᵥ, bᵥ, kₒ, nₒ]], [(1, [aᵥ, bᵥ, iₒ, jₒ]), (-1, [bᵥ, aᵥ, iₒ, jₒ])]⟩,
  -- line 987: dmle,kldc,cekj,abim->abij
  ⟨1, [g_abab [dᵥ, mₒ, lₒ, eᵥ], l2_aaaa [kₒ, lₒ, dᵥ, cᵥ], t2_abab [cᵥ, eᵥ, kₒ, jₒ], t2_bbbb [aᵥ, bᵥ, iₒ, mₒ]], [(1, [aᵥ, bᵥ, iₒ, jₒ]), (-1, [aᵥ, bᵥ, jₒ, iₒ])]⟩,
  -- line 991: dmel,kldc,eckj,abim->abij
  ⟨1, [g_abab [dᵥ, mₒ, eᵥ, lₒ], l2_abab [kₒ, lₒ, dᵥ, cᵥ], t2_abab [eᵥ, cᵥ, kₒ, jₒ], t2_bbbb [aᵥ, bᵥ, iₒ, mₒ]], [(1, [aᵥ, bᵥ, iₒ, jₒ]), (-1, [aᵥ, bᵥ, jₒ, iₒ])]⟩,
  -- line 995: mdel,klcd,cekj,abim->abij
  ⟨-1, [g_bbbb [mₒ, dᵥ, eᵥ, lₒ], l2_abab [kₒ, lₒ, cᵥ, dᵥ], t2_abab [cᵥ, eᵥ, kₒ, jₒ], t2_bbbb [aᵥ, bᵥ, iₒ, mₒ]], [(1, [aᵥ, bᵥ, iₒ, jₒ]), (-1, [aᵥ, bᵥ, jₒ, iₒ])]⟩
  ]

/-- Part 1 of `test_t2_bbbb`. -/
def test_t2_bbbb_1 : Prog := [
  -- line 999: dmle,lkdc,ecjk,abim->abij
  ⟨-1, [g_abab [dᵥ, mₒ, lₒ, eᵥ], l2_abab [lₒ, kₒ, dᵥ, cᵥ], t2_bbbb [eᵥ, cᵥ, jₒ, kₒ], t2_bbbb [aᵥ, bᵥ, iₒ, mₒ]], [(1, [aᵥ, bᵥ, iₒ, jₒ]), (-1, [aᵥ, bᵥ, jₒ, iₒ])]⟩,
  -- line 1003: mdel,kldc,ecjk,abim->abij
  ⟨1, [g_bbbb [mₒ, dᵥ, eᵥ, lₒ], l2_bbbb [kₒ, lₒ, dᵥ, cᵥ], t2_bbbb [eᵥ, cᵥ, jₒ, kₒ], t2_bbbb [aᵥ, bᵥ, iₒ, mₒ]], [(1, [aᵥ, bᵥ, iₒ, jₒ]), (-1, [aᵥ, bᵥ, jₒ, iₒ])]⟩,
  -- line 1007: dmle,lkdc,ecij,abkm->abij
  ⟨-1, [g_abab [dᵥ, mₒ, lₒ, eᵥ], l2_abab [lₒ, kₒ, dᵥ, cᵥ], t2_bbbb [eᵥ, cᵥ, iₒ, jₒ], t2_bbbb [aᵥ, bᵥ, kₒ, mₒ]], [(1, [aᵥ, bᵥ, iₒ, jₒ])]⟩,
  -- line 1010: mdel,kldc,ecij,abkm->abij
  ⟨1, [g_bbbb [mₒ, dᵥ, eᵥ, lₒ], l2_bbbb [kₒ, lₒ, dᵥ, cᵥ], t2_bbbb [eᵥ, cᵥ, iₒ, jₒ], t2_bbbb [aᵥ, bᵥ, kₒ, mₒ]], [(1, [aᵥ, bᵥ, iₒ, jₒ])]⟩,
  -- line 1013: mdel,kldc,eakj,cbmi->abij
  ⟨-1, [g_aaaa [mₒ, dᵥ, eᵥ, lₒ], l2_aaaa [kₒ, lₒ, dᵥ, cᵥ], t2_abab [eᵥ, aᵥ, kₒ, jₒ], t2_abab [cᵥ, bᵥ, mₒ, iₒ]], [(1, [aᵥ, bᵥ, iₒ, jₒ]), (-1, [aᵥ, bᵥ, jₒ, iₒ]), (-1, [bᵥ, aᵥ, iₒ, jₒ]), (1, [bᵥ, aᵥ, jₒ, iₒ])]⟩,
  -- line 1017: dmel,kldc,eakj,cbim->abij
  ⟨-1, [g_abab [dᵥ, mₒ, eᵥ, lₒ], l2_abab [kₒ, lₒ, dᵥ, cᵥ], t2_abab [eᵥ, aᵥ, kₒ, jₒ], t2_bbbb [cᵥ, bᵥ, iₒ, mₒ]], [(1, [aᵥ, bᵥ, iₒ, jₒ]), (-1, [aᵥ, bᵥ, jₒ, iₒ]), (-1, [bᵥ, aᵥ, iₒ, jₒ]), (1, [bᵥ, aᵥ, jₒ, iₒ])]⟩,
  -- line 1021: mdel,klcd,eakj,cbmi->abij
  ⟨1, [g_abab [mₒ, dᵥ, eᵥ, lₒ], l2_abab [kₒ, lₒ, cᵥ, dᵥ], t2_abab [eᵥ, aᵥ, kₒ, jₒ], t2_abab [cᵥ, bᵥ, mₒ, iₒ]], [(1, [aᵥ, bᵥ, iₒ, jₒ]), (-1, [aᵥ, bᵥ, jₒ, iₒ]), (-1, [bᵥ, aᵥ, iₒ, jₒ]), (1, [bᵥ, aᵥ, jₒ, iₒ])]⟩,
  -- line 1025: dmle,lkdc,eajk,cbim->abij
  ⟨1, [g_abab [dᵥ, mₒ, lₒ, eᵥ], l2_abab [lₒ, kₒ, dᵥ, cᵥ], t2_bbbb [eᵥ, aᵥ, jₒ, kₒ], t2_bbbb [cᵥ, bᵥ, iₒ, mₒ]], [(1, [aᵥ, bᵥ, iₒ, jₒ]), (-1, [aᵥ, bᵥ, jₒ, iₒ]), (-1, [bᵥ, aᵥ, iₒ, jₒ]), (1, [bᵥ, aᵥ, jₒ, iₒ])]⟩,
  -- line 1029: mdle,lkcd,eajk,cbmi->abij
  ⟨-1, [g_abab [mₒ, dᵥ, lₒ, eᵥ], l2_abab [lₒ, kₒ, cᵥ, dᵥ], t2_bbbb [eᵥ, aᵥ, jₒ, kₒ], t2_abab [cᵥ, bᵥ, mₒ, iₒ]], [(1, [aᵥ, bᵥ, iₒ, jₒ]), (-1, [aᵥ, bᵥ, jₒ, iₒ]), (-1, [bᵥ, aᵥ, iₒ, jₒ]), (1, [bᵥ, aᵥ, jₒ, iₒ])]⟩,
  -- line 1033: mdel,kldc,eajk,cbim->abij
  ⟨-1, [g_bbbb [mₒ, dᵥ, eᵥ, lₒ], l2_bbbb [kₒ, lₒ, dᵥ, cᵥ], t2_bbbb [eᵥ, aᵥ, jₒ, kₒ], t2_bbbb [cᵥ, bᵥ, iₒ, mₒ]], [(1, [aᵥ, bᵥ, iₒ, jₒ]), (-1, [aᵥ, bᵥ, jₒ, iₒ]), (-1, [bᵥ, aᵥ, iₒ, jₒ]), (1, [bᵥ, aᵥ, jₒ, iₒ])]⟩,
  -- line 1037: dmle,kldc,eaij,cbkm->abij
  ⟨-1, [g_abab [dᵥ, mₒ, lₒ, eᵥ], l2_aaaa [kₒ, lₒ, dᵥ, cᵥ], t2_bbbb [eᵥ, aᵥ, iₒ, jₒ], t2_abab [cᵥ, bᵥ, kₒ, mₒ]], [(1, [aᵥ, bᵥ, iₒ, jₒ]), (-1, [bᵥ, aᵥ, iₒ, jₒ])]⟩,
  -- line 1041: mdel,klcd,eaij,cbkm->abij
  ⟨1, [g_bbbb [mₒ, dᵥ, eᵥ, lₒ], l2_abab [kₒ, lₒ, cᵥ, dᵥ], t2_bbbb [eᵥ, aᵥ, iₒ, jₒ], t2_abab [cᵥ, bᵥ, kₒ, mₒ]], [(1, [aᵥ, bᵥ, iₒ, jₒ]), (-1, [bᵥ, aᵥ, iₒ, jₒ])]⟩,
  -- line 1045: dmle,lkdc,eaij,cbkm->abij
  ⟨1, [g_abab [dᵥ, mₒ, lₒ, eᵥ], l2_abab [lₒ, kₒ, dᵥ, cᵥ], t2_bbbb [eᵥ, aᵥ, iₒ, jₒ], t2_bbbb [cᵥ, bᵥ, kₒ, mₒ]], [(1, [aᵥ, bᵥ, iₒ, jₒ]), (-1, [bᵥ, aᵥ, iₒ, jₒ])]⟩,
  -- line 1049: mdle,lkcd,eaij,cbmk->abij
  ⟨-1, [g_abab [mₒ, dᵥ, lₒ, eᵥ], l2_abab [lₒ, kₒ, cᵥ, dᵥ], t2_bbbb [eᵥ, aᵥ, iₒ, jₒ], t2_abab [cᵥ, bᵥ, mₒ, kₒ]], [(1, [aᵥ, bᵥ, iₒ, jₒ]), (-1, [bᵥ, aᵥ, iₒ, jₒ])]⟩,
  -- line 1053: mdel,kldc,eaij,cbkm->abij
  ⟨-1, [g_bbbb [mₒ, dᵥ, eᵥ, lₒ], l2_bbbb [kₒ, lₒ, dᵥ, cᵥ], t2_bbbb [eᵥ, aᵥ, iₒ, jₒ], t2_bbbb [cᵥ, bᵥ, kₒ, mₒ]], [(1, [aᵥ, bᵥ, iₒ, jₒ]), (-1, [bᵥ, aᵥ, iₒ, jₒ])]⟩,
  -- line 1057: dmej,kldc,eckl,abim->abij
  ⟨-1/2, [g_abab [dᵥ, mₒ, eᵥ, jₒ], l2_aaaa [kₒ, lₒ, dᵥ, cᵥ], t2_aaaa [eᵥ, cᵥ, kₒ, lₒ], t2_bbbb [aᵥ, bᵥ, iₒ, mₒ]], [(1, [aᵥ, bᵥ, iₒ, jₒ]), (-1, [aᵥ, bᵥ, jₒ, iₒ])]⟩,
  -- line 1061: dmej,kldc,eckl,abim->abij
  ⟨-1/2, [g_abab [dᵥ, mₒ, eᵥ, jₒ], l2_abab [kₒ, lₒ, dᵥ, cᵥ], t2_abab [eᵥ, cᵥ, kₒ, lₒ], t2_bbbb [aᵥ, bᵥ, iₒ, mₒ]], [(1, [aᵥ, bᵥ, iₒ, jₒ]), (-1, [aᵥ, bᵥ, jₒ, iₒ])]⟩,
  -- line 1065: mdej,klcd,cekl,abim->abij
  ⟨1/2, [g_bbbb [mₒ, dᵥ, eᵥ, jₒ], l2_abab [kₒ, lₒ, cᵥ, dᵥ], t2_abab [cᵥ, eᵥ, kₒ, lₒ], t2_bbbb [aᵥ, bᵥ, iₒ, mₒ]], [(1, [aᵥ, bᵥ, iₒ, jₒ]), (-1, [aᵥ, bᵥ, jₒ, iₒ])]⟩,
  -- line 1069: dmej,lkdc,eclk,abim->abij
  ⟨-1/2, [g_abab [dᵥ, mₒ, eᵥ, jₒ], l2_abab [lₒ, kₒ, dᵥ, cᵥ], t2_abab [eᵥ, cᵥ, lₒ, kₒ], t2_bbbb [aᵥ, bᵥ, iₒ, mₒ]], [(1, [aᵥ, bᵥ, iₒ, jₒ]), (-1, [aᵥ, bᵥ, jₒ, iₒ])]⟩,
  -- line 1073: mdej,lkcd,celk,abim->abij
  ⟨1/2, [g_bbbb [mₒ, dᵥ, eᵥ, jₒ], l2_abab [lₒ, kₒ, cᵥ, dᵥ], t2_abab [cᵥ, eᵥ, lₒ, kₒ], t2_bbbb [aᵥ, bᵥ, iₒ, mₒ]], [(1, [aᵥ, bᵥ, iₒ, jₒ]), (-1, [aᵥ, bᵥ, jₒ, iₒ])]⟩,
  -- line 1077: mdej,kldc,eckl,abim->abij
  ⟨1/2, [g_bbbb [mₒ, dᵥ, eᵥ, jₒ], l2_bbbb [kₒ, lₒ, dᵥ, cᵥ], t2_bbbb [eᵥ, cᵥ, kₒ, lₒ], t2_bbbb [aᵥ, bᵥ, iₒ, mₒ]], [(1, [aᵥ, bᵥ, iₒ, jₒ]), (-1, [aᵥ, bᵥ, jₒ, iₒ])]⟩,
  -- line 1081: dmej,lkdc,ecli,abkm->abij
  ⟨1, [g_abab [dᵥ, mₒ, eᵥ, jₒ], l2_abab [lₒ, kₒ, dᵥ, cᵥ], t2_abab [eᵥ, cᵥ, lₒ, iₒ], t2_bbbb [aᵥ, bᵥ, kₒ, mₒ]], [(1, [aᵥ, bᵥ, iₒ, jₒ]), (-1, [aᵥ, bᵥ, jₒ, iₒ])]⟩,
  -- line 1085: mdej,lkcd,celi,abkm->abij
  ⟨-1, [g_bbbb [mₒ, dᵥ, eᵥ, jₒ], l2_abab [lₒ, kₒ, cᵥ, dᵥ], t2_abab [cᵥ, eᵥ, lₒ, iₒ], t2_bbbb [aᵥ, bᵥ, kₒ, mₒ]], [(1, [aᵥ, bᵥ, iₒ, jₒ]), (-1, [aᵥ, bᵥ, jₒ, iₒ])]⟩,
  -- line 1089: mdej,kldc,ecil,abkm->abij
  ⟨-1, [g_bbbb [mₒ, dᵥ, eᵥ, jₒ], l2_bbbb [kₒ, lₒ, dᵥ, cᵥ], t2_bbbb [eᵥ, cᵥ, iₒ, lₒ], t2_bbbb [aᵥ, bᵥ, kₒ, mₒ]], [(1, [aᵥ, bᵥ, iₒ, jₒ]), (-1, [aᵥ, bᵥ, jₒ, iₒ])]⟩,
  -- line 1093: dmej,kldc,eakl,cbim->abij
  ⟨1/2, [g_abab [dᵥ, mₒ, eᵥ, jₒ], l2_abab [kₒ, lₒ, dᵥ, cᵥ], t2_abab [eᵥ, aᵥ, kₒ, lₒ], t2_bbbb [cᵥ, bᵥ, iₒ, mₒ]], [(1, [aᵥ, bᵥ, iₒ, jₒ]), (-1, [aᵥ, bᵥ, jₒ, iₒ]), (-1, [bᵥ, aᵥ, iₒ, jₒ]), (1, [bᵥ, aᵥ, jₒ, iₒ])]⟩,
  -- line 1097: mdej,klcd,eakl,cbmi->abij
  ⟨-1/2, [g_abab [mₒ, dᵥ, eᵥ, jₒ], l2_abab [kₒ, lₒ, cᵥ, dᵥ], t2_abab [eᵥ, aᵥ, kₒ, lₒ], t2_abab [cᵥ, bᵥ, mₒ, iₒ]], [(1, [aᵥ, bᵥ, iₒ, jₒ]), (-1, [aᵥ, bᵥ, jₒ, iₒ]), (-1, [bᵥ, aᵥ, iₒ, jₒ]), (1, [bᵥ, aᵥ, jₒ, iₒ])]⟩,
  -- line 1101: dmej,lkdc,ealk,cbim->abij
  ⟨1/2, [g_abab [dᵥ, mₒ, eᵥ, jₒ], l2_abab [lₒ, kₒ, dᵥ, cᵥ], t2_abab [eᵥ, aᵥ, lₒ, kₒ], t2_bbbb [cᵥ, bᵥ, iₒ, mₒ]], [(1, [aᵥ, bᵥ, iₒ, jₒ]), (-1, [aᵥ, bᵥ, jₒ, iₒ]), (-1, [bᵥ, aᵥ, iₒ, jₒ]), (1, [bᵥ, aᵥ, jₒ, iₒ])]⟩,
  -- line 1105: mdej,lkcd,ealk,cbmi->abij
  ⟨-1/2, [g_abab [mₒ, dᵥ, eᵥ, jₒ], l2_abab [lₒ, kₒ, cᵥ, dᵥ], t2_abab [eᵥ, aᵥ, lₒ, kₒ], t2_abab [cᵥ, bᵥ, mₒ, iₒ]], [(1, [aᵥ, bᵥ, iₒ, jₒ]), (-1, [aᵥ, bᵥ, jₒ, iₒ]), (-1, [bᵥ, aᵥ, iₒ, jₒ]), (1, [bᵥ, aᵥ, jₒ, iₒ])]⟩,
  -- line 1109: mdej,kldc,eakl,cbim->abij
  ⟨-1/2, [g_bbbb [mₒ, dᵥ, eᵥ, jₒ], l2_bbbb [kₒ, lₒ, dᵥ, cᵥ], t2_bbbb [eᵥ, aᵥ, kₒ, lₒ], t2_bbbb [cᵥ, bᵥ, iₒ, mₒ]], [(1, [aᵥ, bᵥ, iₒ, jₒ]), (-1, [aᵥ, bᵥ, jₒ, iₒ]), (-1, [bᵥ, aᵥ, iₒ, jₒ]), (1, [bᵥ, aᵥ, jₒ, iₒ])]⟩,
  -- line 1113: dmej,kldc,eali,cbkm->abij
  ⟨1, [g_abab [dᵥ, mₒ, eᵥ, jₒ], l2_aaaa [kₒ, lₒ, dᵥ, cᵥ], t2_abab [eᵥ, aᵥ, lₒ, iₒ], t2_abab [cᵥ, bᵥ, kₒ, mₒ]], [(1, [aᵥ, bᵥ, iₒ, jₒ]), (-1, [aᵥ, bᵥ, jₒ, iₒ]), (-1, [bᵥ, aᵥ, iₒ, jₒ]), (1, [bᵥ, aᵥ, jₒ, iₒ])]⟩,
  -- line 1117: mdej,klcd,eail,cbkm->abij
  ⟨-1, [g_bbbb [mₒ, dᵥ, eᵥ, jₒ], l2_abab [kₒ, lₒ, cᵥ, dᵥ], t2_bbbb [eᵥ, aᵥ, iₒ, lₒ], t2_abab [cᵥ, bᵥ, kₒ, mₒ]], [(1, [aᵥ, bᵥ, iₒ, jₒ]), (-1, [aᵥ, bᵥ, jₒ, iₒ]), (-1, [bᵥ, aᵥ, iₒ, jₒ]), (1, [bᵥ, aᵥ, jₒ, iₒ])]⟩,
  -- line 1121: dmej,lkdc,eali,cbkm->abij
  ⟨-1, [g_abab [dᵥ, mₒ, eᵥ, jₒ], l2_abab [lₒ, kₒ, dᵥ, cᵥ], t2_abab [eᵥ, aᵥ, lₒ, iₒ], t2_bbbb [cᵥ, bᵥ, kₒ, mₒ]], [(1, [aᵥ, bᵥ, iₒ, jₒ]), (-1, [aᵥ, bᵥ, jₒ, iₒ]), (-1, [bᵥ, aᵥ, iₒ, jₒ]), (1, [bᵥ, aᵥ, jₒ, iₒ])]⟩,
  -- line 1125: mdej,lkcd,eali,cbmk->abij
  ⟨1, [g_abab [mₒ, dᵥ, eᵥ, jₒ], l2_abab [lₒ, kₒ, cᵥ, dᵥ], t2_abab [eᵥ, aᵥ, lₒ, iₒ], t2_abab [cᵥ, bᵥ, mₒ, kₒ]], [(1, [aᵥ, bᵥ, iₒ, jₒ]), (-1, [aᵥ, bᵥ, jₒ, iₒ]), (-1, [bᵥ, aᵥ, iₒ, jₒ]), (1, [bᵥ, aᵥ, jₒ, iₒ])]⟩,
  -- line 1129: mdej,kldc,eail,cbkm->abij
  ⟨1, [g_bbbb [mₒ, dᵥ, eᵥ, jₒ], l2_bbbb [kₒ, lₒ, dᵥ, cᵥ], t2_bbbb [eᵥ, aᵥ, iₒ, lₒ], t2_bbbb [cᵥ, bᵥ, kₒ, mₒ]], [(1, [aᵥ, bᵥ, iₒ, jₒ]), (-1, [aᵥ, bᵥ, jₒ, iₒ]), (-1, [bᵥ, aᵥ, iₒ, jₒ]), (1, [bᵥ, aᵥ, jₒ, iₒ])]⟩,
  -- line 1133: male,kldc,dekj,cbmi->abij
  ⟨1, [g_abab [mₒ, aᵥ, lₒ, eᵥ], l2_aaaa [kₒ, lₒ, dᵥ, cᵥ], t2_abab [dᵥ, eᵥ, kₒ, jₒ], t2_abab [cᵥ, bᵥ, mₒ, iₒ]], [(1, [aᵥ, bᵥ, iₒ, jₒ]), (-1, [aᵥ, bᵥ, jₒ, iₒ]), (-1, [bᵥ, aᵥ, iₒ, jₒ]), (1, [bᵥ, aᵥ, jₒ, iₒ])]⟩,
  -- line 1137: mael,kldc,dekj,cbim->abij
  ⟨1, [g_bbbb [mₒ, aᵥ, eᵥ, lₒ], l2_abab [kₒ, lₒ, dᵥ, cᵥ], t2_abab [dᵥ, eᵥ, kₒ, jₒ], t2_bbbb [cᵥ, bᵥ, iₒ, mₒ]], [(1, [aᵥ, bᵥ, iₒ, jₒ]), (-1, [aᵥ, bᵥ, jₒ, iₒ]), (-1, [bᵥ, aᵥ, iₒ, jₒ]), (1, [bᵥ, aᵥ, jₒ, iₒ])]⟩,
  -- line 1141: mael,klcd,edkj,cbmi->abij
  ⟨-1, [g_abab [mₒ, aᵥ, eᵥ, lₒ], l2_abab [kₒ, lₒ, cᵥ, dᵥ], t2_abab [eᵥ, dᵥ, kₒ, jₒ], t2_abab [cᵥ, bᵥ, mₒ, iₒ]], [(1, [aᵥ, bᵥ, iₒ, jₒ]), (-1, [aᵥ, bᵥ, jₒ, iₒ]), (-1, [bᵥ, aᵥ, iₒ, jₒ]), (1, [bᵥ, aᵥ, jₒ, iₒ])]⟩,
  -- line 1145: male,lkcd,edjk,cbmi->abij
  ⟨1, [g_abab [mₒ, aᵥ, lₒ, eᵥ], l2_abab [lₒ, kₒ, cᵥ, dᵥ], t2_bbbb [eᵥ, dᵥ, jₒ, kₒ], t2_abab [cᵥ, bᵥ, mₒ, iₒ]], [(1, [aᵥ, bᵥ, iₒ, jₒ]), (-1, [aᵥ, bᵥ, jₒ, iₒ]), (-1, [bᵥ, aᵥ, iₒ, jₒ]), (1, [bᵥ, aᵥ, jₒ, iₒ])]⟩,
  -- line 1149: mael,kldc,edjk,cbim->abij
  ⟨1, [g_bbbb [mₒ, aᵥ, eᵥ, lₒ], l2_bbbb [kₒ, lₒ, dᵥ, cᵥ], t2_bbbb [eᵥ, dᵥ, jₒ, kₒ], t2_bbbb [cᵥ, bᵥ, iₒ, mₒ]], [(1, [aᵥ, bᵥ, iₒ, jₒ]), (-1, [aᵥ, bᵥ, jₒ, iₒ]), (-1, [bᵥ, aᵥ, iₒ, jₒ]), (1, [bᵥ, aᵥ, jₒ, iₒ])]⟩,
  -- line 1153: mael,klcd,edij,cbkm->abij
  ⟨-1, [g_bbbb [mₒ, aᵥ, eᵥ, lₒ], l2_abab [kₒ, lₒ, cᵥ, dᵥ], t2_bbbb [eᵥ, dᵥ, iₒ, jₒ], t2_abab [cᵥ, bᵥ, kₒ, mₒ]], [(1, [aᵥ, bᵥ, iₒ, jₒ]), (-1, [bᵥ, aᵥ, iₒ, jₒ])]⟩
  ]

/-- Part 2 of `test_t2_bbbb`. -/
def test_t2_bbbb_2 : Prog := [
  -- line 1157: male,lkcd,edij,cbmk->abij
  ⟨1, [g_abab [mₒ, aᵥ, lₒ, eᵥ], l2_abab [lₒ, kₒ, cᵥ, dᵥ], t2_bbbb [eᵥ, dᵥ, iₒ, jₒ], t2_abab [cᵥ, bᵥ, mₒ, kₒ]], [(1, [aᵥ, bᵥ, iₒ, jₒ]), (-1, [bᵥ, aᵥ, iₒ, jₒ])]⟩,
  -- line 1161: mael,kldc,edij,cbkm->abij
  ⟨1, [g_bbbb [mₒ, aᵥ, eᵥ, lₒ], l2_bbbb [kₒ, lₒ, dᵥ, cᵥ], t2_bbbb [eᵥ, dᵥ, iₒ, jₒ], t2_bbbb [cᵥ, bᵥ, kₒ, mₒ]], [(1, [aᵥ, bᵥ, iₒ, jₒ]), (-1, [bᵥ, aᵥ, iₒ, jₒ])]⟩,
  -- line 1165: mael,kldc,ebkj,dcmi->abij
  ⟨1/2, [g_abab [mₒ, aᵥ, eᵥ, lₒ], l2_abab [kₒ, lₒ, dᵥ, cᵥ], t2_abab [eᵥ, bᵥ, kₒ, jₒ], t2_abab [dᵥ, cᵥ, mₒ, iₒ]], [(1, [aᵥ, bᵥ, iₒ, jₒ]), (-1, [aᵥ, bᵥ, jₒ, iₒ]), (-1, [bᵥ, aᵥ, iₒ, jₒ]), (1, [bᵥ, aᵥ, jₒ, iₒ])]⟩,
  -- line 1169: mael,klcd,ebkj,cdmi->abij
  ⟨1/2, [g_abab [mₒ, aᵥ, eᵥ, lₒ], l2_abab [kₒ, lₒ, cᵥ, dᵥ], t2_abab [eᵥ, bᵥ, kₒ, jₒ], t2_abab [cᵥ, dᵥ, mₒ, iₒ]], [(1, [aᵥ, bᵥ, iₒ, jₒ]), (-1, [aᵥ, bᵥ, jₒ, iₒ]), (-1, [bᵥ, aᵥ, iₒ, jₒ]), (1, [bᵥ, aᵥ, jₒ, iₒ])]⟩,
  -- line 1173: male,lkdc,ebjk,dcmi->abij
  ⟨-1/2, [g_abab [mₒ, aᵥ, lₒ, eᵥ], l2_abab [lₒ, kₒ, dᵥ, cᵥ], t2_bbbb [eᵥ, bᵥ, jₒ, kₒ], t2_abab [dᵥ, cᵥ, mₒ, iₒ]], [(1, [aᵥ, bᵥ, iₒ, jₒ]), (-1, [aᵥ, bᵥ, jₒ, iₒ]), (-1, [bᵥ, aᵥ, iₒ, jₒ]), (1, [bᵥ, aᵥ, jₒ, iₒ])]⟩,
  -- line 1177: male,lkcd,ebjk,cdmi->abij
  ⟨-1/2, [g_abab [mₒ, aᵥ, lₒ, eᵥ], l2_abab [lₒ, kₒ, cᵥ, dᵥ], t2_bbbb [eᵥ, bᵥ, jₒ, kₒ], t2_abab [cᵥ, dᵥ, mₒ, iₒ]], [(1, [aᵥ, bᵥ, iₒ, jₒ]), (-1, [aᵥ, bᵥ, jₒ, iₒ]), (-1, [bᵥ, aᵥ, iₒ, jₒ]), (1, [bᵥ, aᵥ, jₒ, iₒ])]⟩,
  -- line 1181: mael,kldc,ebjk,dcim->abij
  ⟨1/2, [g_bbbb [mₒ, aᵥ, eᵥ, lₒ], l2_bbbb [kₒ, lₒ, dᵥ, cᵥ], t2_bbbb [eᵥ, bᵥ, jₒ, kₒ], t2_bbbb [dᵥ, cᵥ, iₒ, mₒ]], [(1, [aᵥ, bᵥ, iₒ, jₒ]), (-1, [aᵥ, bᵥ, jₒ, iₒ]), (-1, [bᵥ, aᵥ, iₒ, jₒ]), (1, [bᵥ, aᵥ, jₒ, iₒ])]⟩,
  -- line 1185: male,kldc,ebij,dckm->abij
  ⟨-1/2, [g_abab [mₒ, aᵥ, lₒ, eᵥ], l2_aaaa [kₒ, lₒ, dᵥ, cᵥ], t2_bbbb [eᵥ, bᵥ, iₒ, jₒ], t2_aaaa [dᵥ, cᵥ, kₒ, mₒ]], [(1, [aᵥ, bᵥ, iₒ, jₒ]), (-1, [bᵥ, aᵥ, iₒ, jₒ])]⟩,
  -- line 1189: mael,kldc,ebij,dckm->abij
  ⟨1/2, [g_bbbb [mₒ, aᵥ, eᵥ, lₒ], l2_abab [kₒ, lₒ, dᵥ, cᵥ], t2_bbbb [eᵥ, bᵥ, iₒ, jₒ], t2_abab [dᵥ, cᵥ, kₒ, mₒ]], [(1, [aᵥ, bᵥ, iₒ, jₒ]), (-1, [bᵥ, aᵥ, iₒ, jₒ])]⟩,
  -- line 1193: mael,klcd,ebij,cdkm->abij
  ⟨1/2, [g_bbbb [mₒ, aᵥ, eᵥ, lₒ], l2_abab [kₒ, lₒ, cᵥ, dᵥ], t2_bbbb [eᵥ, bᵥ, iₒ, jₒ], t2_abab [cᵥ, dᵥ, kₒ, mₒ]], [(1, [aᵥ, bᵥ, iₒ, jₒ]), (-1, [bᵥ, aᵥ, iₒ, jₒ])]⟩,
  -- line 1197: male,lkdc,ebij,dcmk->abij
  ⟨-1/2, [g_abab [mₒ, aᵥ, lₒ, eᵥ], l2_abab [lₒ, kₒ, dᵥ, cᵥ], t2_bbbb [eᵥ, bᵥ, iₒ, jₒ], t2_abab [dᵥ, cᵥ, mₒ, kₒ]], [(1, [aᵥ, bᵥ, iₒ, jₒ]), (-1, [bᵥ, aᵥ, iₒ, jₒ])]⟩,
  -- line 1201: male,lkcd,ebij,cdmk->abij
  ⟨-1/2, [g_abab [mₒ, aᵥ, lₒ, eᵥ], l2_abab [lₒ, kₒ, cᵥ, dᵥ], t2_bbbb [eᵥ, bᵥ, iₒ, jₒ], t2_abab [cᵥ, dᵥ, mₒ, kₒ]], [(1, [aᵥ, bᵥ, iₒ, jₒ]), (-1, [bᵥ, aᵥ, iₒ, jₒ])]⟩,
  -- line 1205: mael,kldc,ebij,dckm->abij
  ⟨1/2, [g_bbbb [mₒ, aᵥ, eᵥ, lₒ], l2_bbbb [kₒ, lₒ, dᵥ, cᵥ], t2_bbbb [eᵥ, bᵥ, iₒ, jₒ], t2_bbbb [dᵥ, cᵥ, kₒ, mₒ]], [(1, [aᵥ, bᵥ, iₒ, jₒ]), (-1, [bᵥ, aᵥ, iₒ, jₒ])]⟩,
  -- line 1209: maej,kldc,edkl,cbmi->abij
  ⟨-1/2, [g_abab [mₒ, aᵥ, eᵥ, jₒ], l2_aaaa [kₒ, lₒ, dᵥ, cᵥ], t2_aaaa [eᵥ, dᵥ, kₒ, lₒ], t2_abab [cᵥ, bᵥ, mₒ, iₒ]], [(1, [aᵥ, bᵥ, iₒ, jₒ]), (-1, [aᵥ, bᵥ, jₒ, iₒ]), (-1, [bᵥ, aᵥ, iₒ, jₒ]), (1, [bᵥ, aᵥ, jₒ, iₒ])]⟩,
  -- line 1213: maej,kldc,dekl,cbim->abij
  ⟨-1/2, [g_bbbb [mₒ, aᵥ, eᵥ, jₒ], l2_abab [kₒ, lₒ, dᵥ, cᵥ], t2_abab [dᵥ, eᵥ, kₒ, lₒ], t2_bbbb [cᵥ, bᵥ, iₒ, mₒ]], [(1, [aᵥ, bᵥ, iₒ, jₒ]), (-1, [aᵥ, bᵥ, jₒ, iₒ]), (-1, [bᵥ, aᵥ, iₒ, jₒ]), (1, [bᵥ, aᵥ, jₒ, iₒ])]⟩,
  -- line 1217: maej,klcd,edkl,cbmi->abij
  ⟨1/2, [g_abab [mₒ, aᵥ, eᵥ, jₒ], l2_abab [kₒ, lₒ, cᵥ, dᵥ], t2_abab [eᵥ, dᵥ, kₒ, lₒ], t2_abab [cᵥ, bᵥ, mₒ, iₒ]], [(1, [aᵥ, bᵥ, iₒ, jₒ]), (-1, [aᵥ, bᵥ, jₒ, iₒ]), (-1, [bᵥ, aᵥ, iₒ, jₒ]), (1, [bᵥ, aᵥ, jₒ, iₒ])]⟩,
  -- line 1221: maej,lkdc,delk,cbim->abij
  ⟨-1/2, [g_bbbb [mₒ, aᵥ, eᵥ, jₒ], l2_abab [lₒ, kₒ, dᵥ, cᵥ], t2_abab [dᵥ, eᵥ, lₒ, kₒ], t2_bbbb [cᵥ, bᵥ, iₒ, mₒ]], [(1, [aᵥ, bᵥ, iₒ, jₒ]), (-1, [aᵥ, bᵥ, jₒ, iₒ]), (-1, [bᵥ, aᵥ, iₒ, jₒ]), (1, [bᵥ, aᵥ, jₒ, iₒ])]⟩,
  -- line 1225: maej,lkcd,edlk,cbmi->abij
  ⟨1/2, [g_abab [mₒ, aᵥ, eᵥ, jₒ], l2_abab [lₒ, kₒ, cᵥ, dᵥ], t2_abab [eᵥ, dᵥ, lₒ, kₒ], t2_abab [cᵥ, bᵥ, mₒ, iₒ]], [(1, [aᵥ, bᵥ, iₒ, jₒ]), (-1, [aᵥ, bᵥ, jₒ, iₒ]), (-1, [bᵥ, aᵥ, iₒ, jₒ]), (1, [bᵥ, aᵥ, jₒ, iₒ])]⟩,
  -- line 1229: maej,kldc,edkl,cbim->abij
  ⟨1/2, [g_bbbb [mₒ, aᵥ, eᵥ, jₒ], l2_bbbb [kₒ, lₒ, dᵥ, cᵥ], t2_bbbb [eᵥ, dᵥ, kₒ, lₒ], t2_bbbb [cᵥ, bᵥ, iₒ, mₒ]], [(1, [aᵥ, bᵥ, iₒ, jₒ]), (-1, [aᵥ, bᵥ, jₒ, iₒ]), (-1, [bᵥ, aᵥ, iₒ, jₒ]), (1, [bᵥ, aᵥ, jₒ, iₒ])]⟩,
  -- line 1233: maej,kldc,deli,cbkm->abij
  ⟨-1, [g_bbbb [mₒ, aᵥ, eᵥ, jₒ], l2_aaaa [kₒ, lₒ, dᵥ, cᵥ], t2_abab [dᵥ, eᵥ, lₒ, iₒ], t2_abab [cᵥ, bᵥ, kₒ, mₒ]], [(1, [aᵥ, bᵥ, iₒ, jₒ]), (-1, [aᵥ, bᵥ, jₒ, iₒ]), (-1, [bᵥ, aᵥ, iₒ, jₒ]), (1, [bᵥ, aᵥ, jₒ, iₒ])]⟩,
  -- line 1237: maej,klcd,edil,cbkm->abij
  ⟨1, [g_bbbb [mₒ, aᵥ, eᵥ, jₒ], l2_abab [kₒ, lₒ, cᵥ, dᵥ], t2_bbbb [eᵥ, dᵥ, iₒ, lₒ], t2_abab [cᵥ, bᵥ, kₒ, mₒ]], [(1, [aᵥ, bᵥ, iₒ, jₒ]), (-1, [aᵥ, bᵥ, jₒ, iₒ]), (-1, [bᵥ, aᵥ, iₒ, jₒ]), (1, [bᵥ, aᵥ, jₒ, iₒ])]⟩,
  -- line 1241: maej,lkdc,deli,cbkm->abij
  ⟨1, [g_bbbb [mₒ, aᵥ, eᵥ, jₒ], l2_abab [lₒ, kₒ, dᵥ, cᵥ], t2_abab [dᵥ, eᵥ, lₒ, iₒ], t2_bbbb [cᵥ, bᵥ, kₒ, mₒ]], [(1, [aᵥ, bᵥ, iₒ, jₒ]), (-1, [aᵥ, bᵥ, jₒ, iₒ]), (-1, [bᵥ, aᵥ, iₒ, jₒ]), (1, [bᵥ, aᵥ, jₒ, iₒ])]⟩,
  -- line 1245: maej,lkcd,edli,cbmk->abij
  ⟨-1, [g_abab [mₒ, aᵥ, eᵥ, jₒ], l2_abab [lₒ, kₒ, cᵥ, dᵥ], t2_abab [eᵥ, dᵥ, lₒ, iₒ], t2_abab [cᵥ, bᵥ, mₒ, kₒ]], [(1, [aᵥ, bᵥ, iₒ, jₒ]), (-1, [aᵥ, bᵥ, jₒ, iₒ]), (-1, [bᵥ, aᵥ, iₒ, jₒ]), (1, [bᵥ, aᵥ, jₒ, iₒ])]⟩,
  -- line 1249: maej,kldc,edil,cbkm->abij
  ⟨-1, [g_bbbb [mₒ, aᵥ, eᵥ, jₒ], l2_bbbb [kₒ, lₒ, dᵥ, cᵥ], t2_bbbb [eᵥ, dᵥ, iₒ, lₒ], t2_bbbb [cᵥ, bᵥ, kₒ, mₒ]], [(1, [aᵥ, bᵥ, iₒ, jₒ]), (-1, [aᵥ, bᵥ, jₒ, iₒ]), (-1, [bᵥ, aᵥ, iₒ, jₒ]), (1, [bᵥ, aᵥ, jₒ, iₒ])]⟩,
  -- line 1253: maej,kldc,ebkl,dcmi->abij
  ⟨-1/4, [g_abab [mₒ, aᵥ, eᵥ, jₒ], l2_abab [kₒ, lₒ, dᵥ, cᵥ], t2_abab [eᵥ, bᵥ, kₒ, lₒ], t2_abab [dᵥ, cᵥ, mₒ, iₒ]], [(1, [aᵥ, bᵥ, iₒ, jₒ]), (-1, [aᵥ, bᵥ, jₒ, iₒ]), (-1, [bᵥ, aᵥ, iₒ, jₒ]), (1, [bᵥ, aᵥ, jₒ, iₒ])]⟩,
  -- line 1257: maej,klcd,ebkl,cdmi->abij
  ⟨-1/4, [g_abab [mₒ, aᵥ, eᵥ, jₒ], l2_abab [kₒ, lₒ, cᵥ, dᵥ], t2_abab [eᵥ, bᵥ, kₒ, lₒ], t2_abab [cᵥ, dᵥ, mₒ, iₒ]], [(1, [aᵥ, bᵥ, iₒ, jₒ]), (-1, [aᵥ, bᵥ, jₒ, iₒ]), (-1, [bᵥ, aᵥ, iₒ, jₒ]), (1, [bᵥ, aᵥ, jₒ, iₒ])]⟩,
  -- line 1261: maej,lkdc,eblk,dcmi->abij
  ⟨-1/4, [g_abab [mₒ, aᵥ, eᵥ, jₒ], l2_abab [lₒ, kₒ, dᵥ, cᵥ], t2_abab [eᵥ, bᵥ, lₒ, kₒ], t2_abab [dᵥ, cᵥ, mₒ, iₒ]], [(1, [aᵥ, bᵥ, iₒ, jₒ]), (-1, [aᵥ, bᵥ, jₒ, iₒ]), (-1, [bᵥ, aᵥ, iₒ, jₒ]), (1, [bᵥ, aᵥ, jₒ, iₒ])]⟩,
  -- line 1265: maej,lkcd,eblk,cdmi->abij
  ⟨-1/4, [g_abab [mₒ, aᵥ, eᵥ, jₒ], l2_abab [lₒ, kₒ, cᵥ, dᵥ], t2_abab [eᵥ, bᵥ, lₒ, kₒ], t2_abab [cᵥ, dᵥ, mₒ, iₒ]], [(1, [aᵥ, bᵥ, iₒ, jₒ]), (-1, [aᵥ, bᵥ, jₒ, iₒ]), (-1, [bᵥ, aᵥ, iₒ, jₒ]), (1, [bᵥ, aᵥ, jₒ, iₒ])]⟩,
  -- line 1269: maej,kldc,ebkl,dcim->abij
  ⟨1/4, [g_bbbb [mₒ, aᵥ, eᵥ, jₒ], l2_bbbb [kₒ, lₒ, dᵥ, cᵥ], t2_bbbb [eᵥ, bᵥ, kₒ, lₒ], t2_bbbb [dᵥ, cᵥ, iₒ, mₒ]], [(1, [aᵥ, bᵥ, iₒ, jₒ]), (-1, [aᵥ, bᵥ, jₒ, iₒ]), (-1, [bᵥ, aᵥ, iₒ, jₒ]), (1, [bᵥ, aᵥ, jₒ, iₒ])]⟩,
  -- line 1273: maej,kldc,ebli,dckm->abij
  ⟨1/2, [g_abab [mₒ, aᵥ, eᵥ, jₒ], l2_aaaa [kₒ, lₒ, dᵥ, cᵥ], t2_abab [eᵥ, bᵥ, lₒ, iₒ], t2_aaaa [dᵥ, cᵥ, kₒ, mₒ]], [(1, [aᵥ, bᵥ, iₒ, jₒ]), (-1, [aᵥ, bᵥ, jₒ, iₒ]), (-1, [bᵥ, aᵥ, iₒ, jₒ]), (1, [bᵥ, aᵥ, jₒ, iₒ])]⟩,
  -- line 1277: maej,kldc,ebil,dckm->abij
  ⟨-1/2, [g_bbbb [mₒ, aᵥ, eᵥ, jₒ], l2_abab [kₒ, lₒ, dᵥ, cᵥ], t2_bbbb [eᵥ, bᵥ, iₒ, lₒ], t2_abab [dᵥ, cᵥ, kₒ, mₒ]], [(1, [aᵥ, bᵥ, iₒ, jₒ]), (-1, [aᵥ, bᵥ, jₒ, iₒ]), (-1, [bᵥ, aᵥ, iₒ, jₒ]), (1, [bᵥ, aᵥ, jₒ, iₒ])]⟩,
  -- line 1281: maej,klcd,ebil,cdkm->abij
  ⟨-1/2, [g_bbbb [mₒ, aᵥ, eᵥ, jₒ], l2_abab [kₒ, lₒ, cᵥ, dᵥ], t2_bbbb [eᵥ, bᵥ, iₒ, lₒ], t2_abab [cᵥ, dᵥ, kₒ, mₒ]], [(1, [aᵥ, bᵥ, iₒ, jₒ]), (-1, [aᵥ, bᵥ, jₒ, iₒ]), (-1, [bᵥ, aᵥ, iₒ, jₒ]), (1, [bᵥ, aᵥ, jₒ, iₒ])]⟩,
  -- line 1285: maej,lkdc,ebli,dcmk->abij
  ⟨1/2, [g_abab [mₒ, aᵥ, eᵥ, jₒ], l2_abab [lₒ, kₒ, dᵥ, cᵥ], t2_abab [eᵥ, bᵥ, lₒ, iₒ], t2_abab [dᵥ, cᵥ, mₒ, kₒ]], [(1, [aᵥ, bᵥ, iₒ, jₒ]), (-1, [aᵥ, bᵥ, jₒ, iₒ]), (-1, [bᵥ, aᵥ, iₒ, jₒ]), (1, [bᵥ, aᵥ, jₒ, iₒ])]⟩,
  -- line 1289: maej,lkcd,ebli,cdmk->abij
  ⟨1/2, [g_abab [mₒ, aᵥ, eᵥ, jₒ], l2_abab [lₒ, kₒ, cᵥ, dᵥ], t2_abab [eᵥ, bᵥ, lₒ, iₒ], t2_abab [cᵥ, dᵥ, mₒ, kₒ]], [(1, [aᵥ, bᵥ, iₒ, jₒ]), (-1, [aᵥ, bᵥ, jₒ, iₒ]), (-1, [bᵥ, aᵥ, iₒ, jₒ]), (1, [bᵥ, aᵥ, jₒ, iₒ])]⟩,
  -- line 1293: maej,kldc,ebil,dckm->abij
  ⟨-1/2, [g_bbbb [mₒ, aᵥ, eᵥ, jₒ], l2_bbbb [kₒ, lₒ, dᵥ, cᵥ], t2_bbbb [eᵥ, bᵥ, iₒ, lₒ], t2_bbbb [dᵥ, cᵥ, kₒ, mₒ]], [(1, [aᵥ, bᵥ, iₒ, jₒ]), (-1, [aᵥ, bᵥ, jₒ, iₒ]), (-1, [bᵥ, aᵥ, iₒ, jₒ]), (1, [bᵥ, aᵥ, jₒ, iₒ])]⟩,
  -- line 1297: dcef,kldc,eakl,fbij->abij
  ⟨-1/4, [g_abab [dᵥ, cᵥ, eᵥ, fᵥ], l2_abab [kₒ, lₒ, dᵥ, cᵥ], t2_abab [eᵥ, aᵥ, kₒ, lₒ], t2_bbbb [fᵥ, bᵥ, iₒ, jₒ]], [(1, [aᵥ, bᵥ, iₒ, jₒ])]⟩,
  -- line 1300: cdef,klcd,eakl,fbij->abij
  ⟨-1/4, [g_abab [cᵥ, dᵥ, eᵥ, fᵥ], l2_abab [kₒ, lₒ, cᵥ, dᵥ], t2_abab [eᵥ, aᵥ, kₒ, lₒ], t2_bbbb [fᵥ, bᵥ, iₒ, jₒ]], [(1, [aᵥ, bᵥ, iₒ, jₒ])]⟩,
  -- line 1303: dcef,lkdc,ealk,fbij->abij
  ⟨-1/4, [g_abab [dᵥ, cᵥ, eᵥ, fᵥ], l2_abab [lₒ, kₒ, dᵥ, cᵥ], t2_abab [eᵥ, aᵥ, lₒ, kₒ], t2_bbbb [fᵥ, bᵥ, iₒ, jₒ]], [(1, [aᵥ, bᵥ, iₒ, jₒ])]⟩,
  -- line 1306: cdef,lkcd,ealk,fbij->abij
  ⟨-1/4, [g_abab [cᵥ, dᵥ, eᵥ, fᵥ], l2_abab [lₒ, kₒ, cᵥ, dᵥ], t2_abab [eᵥ, aᵥ, lₒ, kₒ], t2_bbbb [fᵥ, bᵥ, iₒ, jₒ]], [(1, [aᵥ, bᵥ, iₒ, jₒ])]⟩,
  -- line 1309: dcef,kldc,eakl,fbij->abij
  ⟨-1/4, [g_bbbb [dᵥ, cᵥ, eᵥ, fᵥ], l2_bbbb [kₒ, lₒ, dᵥ, cᵥ], t2_bbbb [eᵥ, aᵥ, kₒ, lₒ], t2_bbbb [fᵥ, bᵥ, iₒ, jₒ]], [(1, [aᵥ, bᵥ, iₒ, jₒ])]⟩
  ]

/-- Part 3 of `test_t2_bbbb`. -/
def test_t2_bbbb_3 : Prog := [
  -- line 1312: dcef,kldc,ealj,fbki->abij
  ⟨1/2, [g_aaaa [dᵥ, cᵥ, eᵥ, fᵥ], l2_aaaa [kₒ, lₒ, dᵥ, cᵥ], t2_abab [eᵥ, aᵥ, lₒ, jₒ], t2_abab [fᵥ, bᵥ, kₒ, iₒ]], [(1, [aᵥ, bᵥ, iₒ, jₒ]), (-1, [aᵥ, bᵥ, jₒ, iₒ])]⟩,
  -- line 1316: dcfe,kldc,eajl,fbki->abij
  ⟨1/2, [g_abab [dᵥ, cᵥ, fᵥ, eᵥ], l2_abab [kₒ, lₒ, dᵥ, cᵥ], t2_bbbb [eᵥ, aᵥ, jₒ, lₒ], t2_abab [fᵥ, bᵥ, kₒ, iₒ]], [(1, [aᵥ, bᵥ, iₒ, jₒ]), (-1, [aᵥ, bᵥ, jₒ, iₒ])]⟩,
  -- line 1320: cdfe,klcd,eajl,fbki->abij
  ⟨1/2, [g_abab [cᵥ, dᵥ, fᵥ, eᵥ], l2_abab [kₒ, lₒ, cᵥ, dᵥ], t2_bbbb [eᵥ, aᵥ, jₒ, lₒ], t2_abab [fᵥ, bᵥ, kₒ, iₒ]], [(1, [aᵥ, bᵥ, iₒ, jₒ]), (-1, [aᵥ, bᵥ, jₒ, iₒ])]⟩,
  -- line 1324: dcef,lkdc,ealj,fbik->abij
  ⟨1/2, [g_abab [dᵥ, cᵥ, eᵥ, fᵥ], l2_abab [lₒ, kₒ, dᵥ, cᵥ], t2_abab [eᵥ, aᵥ, lₒ, jₒ], t2_bbbb [fᵥ, bᵥ, iₒ, kₒ]], [(1, [aᵥ, bᵥ, iₒ, jₒ]), (-1, [aᵥ, bᵥ, jₒ, iₒ])]⟩,
  -- line 1328: cdef,lkcd,ealj,fbik->abij
  ⟨1/2, [g_abab [cᵥ, dᵥ, eᵥ, fᵥ], l2_abab [lₒ, kₒ, cᵥ, dᵥ], t2_abab [eᵥ, aᵥ, lₒ, jₒ], t2_bbbb [fᵥ, bᵥ, iₒ, kₒ]], [(1, [aᵥ, bᵥ, iₒ, jₒ]), (-1, [aᵥ, bᵥ, jₒ, iₒ])]⟩,
  -- line 1332: dcef,kldc,eajl,fbik->abij
  ⟨1/2, [g_bbbb [dᵥ, cᵥ, eᵥ, fᵥ], l2_bbbb [kₒ, lₒ, dᵥ, cᵥ], t2_bbbb [eᵥ, aᵥ, jₒ, lₒ], t2_bbbb [fᵥ, bᵥ, iₒ, kₒ]], [(1, [aᵥ, bᵥ, iₒ, jₒ]), (-1, [aᵥ, bᵥ, jₒ, iₒ])]⟩,
  -- line 1336: dcfe,kldc,eaij,fbkl->abij
  ⟨1/4, [g_abab [dᵥ, cᵥ, fᵥ, eᵥ], l2_abab [kₒ, lₒ, dᵥ, cᵥ], t2_bbbb [eᵥ, aᵥ, iₒ, jₒ], t2_abab [fᵥ, bᵥ, kₒ, lₒ]], [(1, [aᵥ, bᵥ, iₒ, jₒ])]⟩,
  -- line 1339: cdfe,klcd,eaij,fbkl->abij
  ⟨1/4, [g_abab [cᵥ, dᵥ, fᵥ, eᵥ], l2_abab [kₒ, lₒ, cᵥ, dᵥ], t2_bbbb [eᵥ, aᵥ, iₒ, jₒ], t2_abab [fᵥ, bᵥ, kₒ, lₒ]], [(1, [aᵥ, bᵥ, iₒ, jₒ])]⟩,
  -- line 1342: dcfe,lkdc,eaij,fblk->abij
  ⟨1/4, [g_abab [dᵥ, cᵥ, fᵥ, eᵥ], l2_abab [lₒ, kₒ, dᵥ, cᵥ], t2_bbbb [eᵥ, aᵥ, iₒ, jₒ], t2_abab [fᵥ, bᵥ, lₒ, kₒ]], [(1, [aᵥ, bᵥ, iₒ, jₒ])]⟩,
  -- line 1345: cdfe,lkcd,eaij,fblk->abij
  ⟨1/4, [g_abab [cᵥ, dᵥ, fᵥ, eᵥ], l2_abab [lₒ, kₒ, cᵥ, dᵥ], t2_bbbb [eᵥ, aᵥ, iₒ, jₒ], t2_abab [fᵥ, bᵥ, lₒ, kₒ]], [(1, [aᵥ, bᵥ, iₒ, jₒ])]⟩,
  -- line 1348: dcef,kldc,eaij,fbkl->abij
  ⟨-1/4, [g_bbbb [dᵥ, cᵥ, eᵥ, fᵥ], l2_bbbb [kₒ, lₒ, dᵥ, cᵥ], t2_bbbb [eᵥ, aᵥ, iₒ, jₒ], t2_bbbb [fᵥ, bᵥ, kₒ, lₒ]], [(1, [aᵥ, bᵥ, iₒ, jₒ])]⟩,
  -- line 1351: daef,kldc,eckl,fbij->abij
  ⟨1/2, [g_abab [dᵥ, aᵥ, eᵥ, fᵥ], l2_aaaa [kₒ, lₒ, dᵥ, cᵥ], t2_aaaa [eᵥ, cᵥ, kₒ, lₒ], t2_bbbb [fᵥ, bᵥ, iₒ, jₒ]], [(1, [aᵥ, bᵥ, iₒ, jₒ]), (-1, [bᵥ, aᵥ, iₒ, jₒ])]⟩,
  -- line 1355: daef,kldc,eckl,fbij->abij
  ⟨1/2, [g_abab [dᵥ, aᵥ, eᵥ, fᵥ], l2_abab [kₒ, lₒ, dᵥ, cᵥ], t2_abab [eᵥ, cᵥ, kₒ, lₒ], t2_bbbb [fᵥ, bᵥ, iₒ, jₒ]], [(1, [aᵥ, bᵥ, iₒ, jₒ]), (-1, [bᵥ, aᵥ, iₒ, jₒ])]⟩,
  -- line 1359: daef,klcd,cekl,fbij->abij
  ⟨1/2, [g_bbbb [dᵥ, aᵥ, eᵥ, fᵥ], l2_abab [kₒ, lₒ, cᵥ, dᵥ], t2_abab [cᵥ, eᵥ, kₒ, lₒ], t2_bbbb [fᵥ, bᵥ, iₒ, jₒ]], [(1, [aᵥ, bᵥ, iₒ, jₒ]), (-1, [bᵥ, aᵥ, iₒ, jₒ])]⟩,
  -- line 1363: daef,lkdc,eclk,fbij->abij
  ⟨1/2, [g_abab [dᵥ, aᵥ, eᵥ, fᵥ], l2_abab [lₒ, kₒ, dᵥ, cᵥ], t2_abab [eᵥ, cᵥ, lₒ, kₒ], t2_bbbb [fᵥ, bᵥ, iₒ, jₒ]], [(1, [aᵥ, bᵥ, iₒ, jₒ]), (-1, [bᵥ, aᵥ, iₒ, jₒ])]⟩,
  -- line 1367: daef,lkcd,celk,fbij->abij
  ⟨1/2, [g_bbbb [dᵥ, aᵥ, eᵥ, fᵥ], l2_abab [lₒ, kₒ, cᵥ, dᵥ], t2_abab [cᵥ, eᵥ, lₒ, kₒ], t2_bbbb [fᵥ, bᵥ, iₒ, jₒ]], [(1, [aᵥ, bᵥ, iₒ, jₒ]), (-1, [bᵥ, aᵥ, iₒ, jₒ])]⟩,
  -- line 1371: daef,kldc,eckl,fbij->abij
  ⟨1/2, [g_bbbb [dᵥ, aᵥ, eᵥ, fᵥ], l2_bbbb [kₒ, lₒ, dᵥ, cᵥ], t2_bbbb [eᵥ, cᵥ, kₒ, lₒ], t2_bbbb [fᵥ, bᵥ, iₒ, jₒ]], [(1, [aᵥ, bᵥ, iₒ, jₒ]), (-1, [bᵥ, aᵥ, iₒ, jₒ])]⟩,
  -- line 1375: dafe,kldc,celj,fbki->abij
  ⟨-1, [g_abab [dᵥ, aᵥ, fᵥ, eᵥ], l2_aaaa [kₒ, lₒ, dᵥ, cᵥ], t2_abab [cᵥ, eᵥ, lₒ, jₒ], t2_abab [fᵥ, bᵥ, kₒ, iₒ]], [(1, [aᵥ, bᵥ, iₒ, jₒ]), (-1, [aᵥ, bᵥ, jₒ, iₒ]), (-1, [bᵥ, aᵥ, iₒ, jₒ]), (1, [bᵥ, aᵥ, jₒ, iₒ])]⟩,
  -- line 1379: dafe,kldc,ecjl,fbki->abij
  ⟨-1, [g_abab [dᵥ, aᵥ, fᵥ, eᵥ], l2_abab [kₒ, lₒ, dᵥ, cᵥ], t2_bbbb [eᵥ, cᵥ, jₒ, lₒ], t2_abab [fᵥ, bᵥ, kₒ, iₒ]], [(1, [aᵥ, bᵥ, iₒ, jₒ]), (-1, [aᵥ, bᵥ, jₒ, iₒ]), (-1, [bᵥ, aᵥ, iₒ, jₒ]), (1, [bᵥ, aᵥ, jₒ, iₒ])]⟩,
  -- line 1383: daef,lkdc,eclj,fbik->abij
  ⟨-1, [g_abab [dᵥ, aᵥ, eᵥ, fᵥ], l2_abab [lₒ, kₒ, dᵥ, cᵥ], t2_abab [eᵥ, cᵥ, lₒ, jₒ], t2_bbbb [fᵥ, bᵥ, iₒ, kₒ]], [(1, [aᵥ, bᵥ, iₒ, jₒ]), (-1, [aᵥ, bᵥ, jₒ, iₒ]), (-1, [bᵥ, aᵥ, iₒ, jₒ]), (1, [bᵥ, aᵥ, jₒ, iₒ])]⟩,
  -- line 1387: daef,lkcd,celj,fbik->abij
  ⟨-1, [g_bbbb [dᵥ, aᵥ, eᵥ, fᵥ], l2_abab [lₒ, kₒ, cᵥ, dᵥ], t2_abab [cᵥ, eᵥ, lₒ, jₒ], t2_bbbb [fᵥ, bᵥ, iₒ, kₒ]], [(1, [aᵥ, bᵥ, iₒ, jₒ]), (-1, [aᵥ, bᵥ, jₒ, iₒ]), (-1, [bᵥ, aᵥ, iₒ, jₒ]), (1, [bᵥ, aᵥ, jₒ, iₒ])]⟩,
  -- line 1391: daef,kldc,ecjl,fbik->abij
  ⟨-1, [g_bbbb [dᵥ, aᵥ, eᵥ, fᵥ], l2_bbbb [kₒ, lₒ, dᵥ, cᵥ], t2_bbbb [eᵥ, cᵥ, jₒ, lₒ], t2_bbbb [fᵥ, bᵥ, iₒ, kₒ]], [(1, [aᵥ, bᵥ, iₒ, jₒ]), (-1, [aᵥ, bᵥ, jₒ, iₒ]), (-1, [bᵥ, aᵥ, iₒ, jₒ]), (1, [bᵥ, aᵥ, jₒ, iₒ])]⟩,
  -- line 1395: dafe,kldc,ecij,fbkl->abij
  ⟨-1/2, [g_abab [dᵥ, aᵥ, fᵥ, eᵥ], l2_abab [kₒ, lₒ, dᵥ, cᵥ], t2_bbbb [eᵥ, cᵥ, iₒ, jₒ], t2_abab [fᵥ, bᵥ, kₒ, lₒ]], [(1, [aᵥ, bᵥ, iₒ, jₒ]), (-1, [bᵥ, aᵥ, iₒ, jₒ])]⟩,
  -- line 1399: dafe,lkdc,ecij,fblk->abij
  ⟨-1/2, [g_abab [dᵥ, aᵥ, fᵥ, eᵥ], l2_abab [lₒ, kₒ, dᵥ, cᵥ], t2_bbbb [eᵥ, cᵥ, iₒ, jₒ], t2_abab [fᵥ, bᵥ, lₒ, kₒ]], [(1, [aᵥ, bᵥ, iₒ, jₒ]), (-1, [bᵥ, aᵥ, iₒ, jₒ])]⟩,
  -- line 1403: daef,kldc,ecij,fbkl->abij
  ⟨1/2, [g_bbbb [dᵥ, aᵥ, eᵥ, fᵥ], l2_bbbb [kₒ, lₒ, dᵥ, cᵥ], t2_bbbb [eᵥ, cᵥ, iₒ, jₒ], t2_bbbb [fᵥ, bᵥ, kₒ, lₒ]], [(1, [aᵥ, bᵥ, iₒ, jₒ]), (-1, [bᵥ, aᵥ, iₒ, jₒ])]⟩,
  -- line 1407: abef,kldc,dekl,fcij->abij
  ⟨1/2, [g_bbbb [aᵥ, bᵥ, eᵥ, fᵥ], l2_abab [kₒ, lₒ, dᵥ, cᵥ], t2_abab [dᵥ, eᵥ, kₒ, lₒ], t2_bbbb [fᵥ, cᵥ, iₒ, jₒ]], [(1, [aᵥ, bᵥ, iₒ, jₒ])]⟩,
  -- line 1410: abef,lkdc,delk,fcij->abij
  ⟨1/2, [g_bbbb [aᵥ, bᵥ, eᵥ, fᵥ], l2_abab [lₒ, kₒ, dᵥ, cᵥ], t2_abab [dᵥ, eᵥ, lₒ, kₒ], t2_bbbb [fᵥ, cᵥ, iₒ, jₒ]], [(1, [aᵥ, bᵥ, iₒ, jₒ])]⟩,
  -- line 1413: abef,kldc,edkl,fcij->abij
  ⟨-1/2, [g_bbbb [aᵥ, bᵥ, eᵥ, fᵥ], l2_bbbb [kₒ, lₒ, dᵥ, cᵥ], t2_bbbb [eᵥ, dᵥ, kₒ, lₒ], t2_bbbb [fᵥ, cᵥ, iₒ, jₒ]], [(1, [aᵥ, bᵥ, iₒ, jₒ])]⟩,
  -- line 1416: abef,kldc,delj,cfki->abij
  ⟨1/2, [g_bbbb [aᵥ, bᵥ, eᵥ, fᵥ], l2_aaaa [kₒ, lₒ, dᵥ, cᵥ], t2_abab [dᵥ, eᵥ, lₒ, jₒ], t2_abab [cᵥ, fᵥ, kₒ, iₒ]], [(1, [aᵥ, bᵥ, iₒ, jₒ]), (-1, [aᵥ, bᵥ, jₒ, iₒ])]⟩,
  -- line 1420: abef,klcd,edjl,cfki->abij
  ⟨-1/2, [g_bbbb [aᵥ, bᵥ, eᵥ, fᵥ], l2_abab [kₒ, lₒ, cᵥ, dᵥ], t2_bbbb [eᵥ, dᵥ, jₒ, lₒ], t2_abab [cᵥ, fᵥ, kₒ, iₒ]], [(1, [aᵥ, bᵥ, iₒ, jₒ]), (-1, [aᵥ, bᵥ, jₒ, iₒ])]⟩,
  -- line 1424: abef,lkdc,delj,fcik->abij
  ⟨-1/2, [g_bbbb [aᵥ, bᵥ, eᵥ, fᵥ], l2_abab [lₒ, kₒ, dᵥ, cᵥ], t2_abab [dᵥ, eᵥ, lₒ, jₒ], t2_bbbb [fᵥ, cᵥ, iₒ, kₒ]], [(1, [aᵥ, bᵥ, iₒ, jₒ]), (-1, [aᵥ, bᵥ, jₒ, iₒ])]⟩,
  -- line 1428: abef,kldc,edjl,fcik->abij
  ⟨1/2, [g_bbbb [aᵥ, bᵥ, eᵥ, fᵥ], l2_bbbb [kₒ, lₒ, dᵥ, cᵥ], t2_bbbb [eᵥ, dᵥ, jₒ, lₒ], t2_bbbb [fᵥ, cᵥ, iₒ, kₒ]], [(1, [aᵥ, bᵥ, iₒ, jₒ]), (-1, [aᵥ, bᵥ, jₒ, iₒ])]⟩,
  -- line 1432: mdkl,kldc,cabmji->abij
  ⟨-1/2, [g_aaaa [mₒ, dᵥ, kₒ, lₒ], l2_aaaa [kₒ, lₒ, dᵥ, cᵥ], t3_abbabb [cᵥ, aᵥ, bᵥ, mₒ, jₒ, iₒ]], [(1, [aᵥ, bᵥ, iₒ, jₒ])]⟩,
  -- line 1435: dmkl,kldc,cabijm->abij
  ⟨-1/2, [g_abab [dᵥ, mₒ, kₒ, lₒ], l2_abab [kₒ, lₒ, dᵥ, cᵥ], t3_bbbbbb [cᵥ, aᵥ, bᵥ, iₒ, jₒ, mₒ]], [(1, [aᵥ, bᵥ, iₒ, jₒ])]⟩,
  -- line 1438: mdkl,klcd,cabmji->abij
  ⟨1/2, [g_abab [mₒ, dᵥ, kₒ, lₒ], l2_abab [kₒ, lₒ, cᵥ, dᵥ], t3_abbabb [cᵥ, aᵥ, bᵥ, mₒ, jₒ, iₒ]], [(1, [aᵥ, bᵥ, iₒ, jₒ])]⟩,
  -- line 1441: dmlk,lkdc,cabijm->abij
  ⟨-1/2, [g_abab [dᵥ, mₒ, lₒ, kₒ], l2_abab [lₒ, kₒ, dᵥ, cᵥ], t3_bbbbbb [cᵥ, aᵥ, bᵥ, iₒ, jₒ, mₒ]], [(1, [aᵥ, bᵥ, iₒ, jₒ])]⟩,
  -- line 1444: mdlk,lkcd,cabmji->abij
  ⟨1/2, [g_abab [mₒ, dᵥ, lₒ, kₒ], l2_abab [lₒ, kₒ, cᵥ, dᵥ], t3_abbabb [cᵥ, aᵥ, bᵥ, mₒ, jₒ, iₒ]], [(1, [aᵥ, bᵥ, iₒ, jₒ])]⟩,
  -- line 1447: mdkl,kldc,cabijm->abij
  ⟨1/2, [g_bbbb [mₒ, dᵥ, kₒ, lₒ], l2_bbbb [kₒ, lₒ, dᵥ, cᵥ], t3_bbbbbb [cᵥ, aᵥ, bᵥ, iₒ, jₒ, mₒ]], [(1, [aᵥ, bᵥ, iₒ, jₒ])]⟩,
  -- line 1450: dmlj,kldc,cabkim->abij
  ⟨1, [g_abab [dᵥ, mₒ, lₒ, jₒ], l2_aaaa [kₒ, lₒ, dᵥ, cᵥ], t3_abbabb [cᵥ, aᵥ, bᵥ, kₒ, iₒ, mₒ]], [(1, [aᵥ, bᵥ, iₒ, jₒ]), (-1, [aᵥ, bᵥ, jₒ, iₒ])]⟩,
  -- line 1454: mdjl,klcd,cabkim->abij
  ⟨-1, [g_bbbb [mₒ, dᵥ, jₒ, lₒ], l2_abab [kₒ, lₒ, cᵥ, dᵥ], t3_abbabb [cᵥ, aᵥ, bᵥ, kₒ, iₒ, mₒ]], [(1, [aᵥ, bᵥ, iₒ, jₒ]), (-1, [aᵥ, bᵥ, jₒ, iₒ])]⟩
  ]

/-- Part 4 of `test_t2_bbbb`. -/
def test_t2_bbbb_4 : Prog := [
  -- line 1458: dmlj,lkdc,cabikm->abij
  ⟨1, [g_abab [dᵥ, mₒ, lₒ, jₒ], l2_abab [lₒ, kₒ, dᵥ, cᵥ], t3_bbbbbb [cᵥ, aᵥ, bᵥ, iₒ, kₒ, mₒ]], [(1, [aᵥ, bᵥ, iₒ, jₒ]), (-1, [aᵥ, bᵥ, jₒ, iₒ])]⟩,
  -- line 1462: mdlj,lkcd,cabmki->abij
  ⟨-1, [g_abab [mₒ, dᵥ, lₒ, jₒ], l2_abab [lₒ, kₒ, cᵥ, dᵥ], t3_abbabb [cᵥ, aᵥ, bᵥ, mₒ, kₒ, iₒ]], [(1, [aᵥ, bᵥ, iₒ, jₒ]), (-1, [aᵥ, bᵥ, jₒ, iₒ])]⟩,
  -- line 1466: mdjl,kldc,cabikm->abij
  ⟨-1, [g_bbbb [mₒ, dᵥ, jₒ, lₒ], l2_bbbb [kₒ, lₒ, dᵥ, cᵥ], t3_bbbbbb [cᵥ, aᵥ, bᵥ, iₒ, kₒ, mₒ]], [(1, [aᵥ, bᵥ, iₒ, jₒ]), (-1, [aᵥ, bᵥ, jₒ, iₒ])]⟩,
  -- line 1470: mdij,klcd,cabklm->abij
  ⟨-1/2, [g_bbbb [mₒ, dᵥ, iₒ, jₒ], l2_abab [kₒ, lₒ, cᵥ, dᵥ], t3_abbabb [cᵥ, aᵥ, bᵥ, kₒ, lₒ, mₒ]], [(1, [aᵥ, bᵥ, iₒ, jₒ])]⟩,
  -- line 1473: mdij,lkcd,cablkm->abij
  ⟨-1/2, [g_bbbb [mₒ, dᵥ, iₒ, jₒ], l2_abab [lₒ, kₒ, cᵥ, dᵥ], t3_abbabb [cᵥ, aᵥ, bᵥ, lₒ, kₒ, mₒ]], [(1, [aᵥ, bᵥ, iₒ, jₒ])]⟩,
  -- line 1476: mdij,kldc,cabklm->abij
  ⟨1/2, [g_bbbb [mₒ, dᵥ, iₒ, jₒ], l2_bbbb [kₒ, lₒ, dᵥ, cᵥ], t3_bbbbbb [cᵥ, aᵥ, bᵥ, kₒ, lₒ, mₒ]], [(1, [aᵥ, bᵥ, iₒ, jₒ])]⟩,
  -- line 1479: makl,kldc,dcbmji->abij
  ⟨-1/4, [g_abab [mₒ, aᵥ, kₒ, lₒ], l2_abab [kₒ, lₒ, dᵥ, cᵥ], t3_abbabb [dᵥ, cᵥ, bᵥ, mₒ, jₒ, iₒ]], [(1, [aᵥ, bᵥ, iₒ, jₒ]), (-1, [bᵥ, aᵥ, iₒ, jₒ])]⟩,
  -- line 1483: makl,klcd,cdbmji->abij
  ⟨-1/4, [g_abab [mₒ, aᵥ, kₒ, lₒ], l2_abab [kₒ, lₒ, cᵥ, dᵥ], t3_abbabb [cᵥ, dᵥ, bᵥ, mₒ, jₒ, iₒ]], [(1, [aᵥ, bᵥ, iₒ, jₒ]), (-1, [bᵥ, aᵥ, iₒ, jₒ])]⟩,
  -- line 1487: malk,lkdc,dcbmji->abij
  ⟨-1/4, [g_abab [mₒ, aᵥ, lₒ, kₒ], l2_abab [lₒ, kₒ, dᵥ, cᵥ], t3_abbabb [dᵥ, cᵥ, bᵥ, mₒ, jₒ, iₒ]], [(1, [aᵥ, bᵥ, iₒ, jₒ]), (-1, [bᵥ, aᵥ, iₒ, jₒ])]⟩,
  -- line 1491: malk,lkcd,cdbmji->abij
  ⟨-1/4, [g_abab [mₒ, aᵥ, lₒ, kₒ], l2_abab [lₒ, kₒ, cᵥ, dᵥ], t3_abbabb [cᵥ, dᵥ, bᵥ, mₒ, jₒ, iₒ]], [(1, [aᵥ, bᵥ, iₒ, jₒ]), (-1, [bᵥ, aᵥ, iₒ, jₒ])]⟩,
  -- line 1495: makl,kldc,dcbijm->abij
  ⟨1/4, [g_bbbb [mₒ, aᵥ, kₒ, lₒ], l2_bbbb [kₒ, lₒ, dᵥ, cᵥ], t3_bbbbbb [dᵥ, cᵥ, bᵥ, iₒ, jₒ, mₒ]], [(1, [aᵥ, bᵥ, iₒ, jₒ]), (-1, [bᵥ, aᵥ, iₒ, jₒ])]⟩,
  -- line 1499: malj,kldc,dcbmki->abij
  ⟨-1/2, [g_abab [mₒ, aᵥ, lₒ, jₒ], l2_aaaa [kₒ, lₒ, dᵥ, cᵥ], t3_aabaab [dᵥ, cᵥ, bᵥ, mₒ, kₒ, iₒ]], [(1, [aᵥ, bᵥ, iₒ, jₒ]), (-1, [aᵥ, bᵥ, jₒ, iₒ]), (-1, [bᵥ, aᵥ, iₒ, jₒ]), (1, [bᵥ, aᵥ, jₒ, iₒ])]⟩,
  -- line 1503: majl,kldc,dcbkim->abij
  ⟨1/2, [g_bbbb [mₒ, aᵥ, jₒ, lₒ], l2_abab [kₒ, lₒ, dᵥ, cᵥ], t3_abbabb [dᵥ, cᵥ, bᵥ, kₒ, iₒ, mₒ]], [(1, [aᵥ, bᵥ, iₒ, jₒ]), (-1, [aᵥ, bᵥ, jₒ, iₒ]), (-1, [bᵥ, aᵥ, iₒ, jₒ]), (1, [bᵥ, aᵥ, jₒ, iₒ])]⟩,
  -- line 1507: majl,klcd,cdbkim->abij
  ⟨1/2, [g_bbbb [mₒ, aᵥ, jₒ, lₒ], l2_abab [kₒ, lₒ, cᵥ, dᵥ], t3_abbabb [cᵥ, dᵥ, bᵥ, kₒ, iₒ, mₒ]], [(1, [aᵥ, bᵥ, iₒ, jₒ]), (-1, [aᵥ, bᵥ, jₒ, iₒ]), (-1, [bᵥ, aᵥ, iₒ, jₒ]), (1, [bᵥ, aᵥ, jₒ, iₒ])]⟩,
  -- line 1511: malj,lkdc,dcbmki->abij
  ⟨1/2, [g_abab [mₒ, aᵥ, lₒ, jₒ], l2_abab [lₒ, kₒ, dᵥ, cᵥ], t3_abbabb [dᵥ, cᵥ, bᵥ, mₒ, kₒ, iₒ]], [(1, [aᵥ, bᵥ, iₒ, jₒ]), (-1, [aᵥ, bᵥ, jₒ, iₒ]), (-1, [bᵥ, aᵥ, iₒ, jₒ]), (1, [bᵥ, aᵥ, jₒ, iₒ])]⟩,
  -- line 1515: malj,lkcd,cdbmki->abij
  ⟨1/2, [g_abab [mₒ, aᵥ, lₒ, jₒ], l2_abab [lₒ, kₒ, cᵥ, dᵥ], t3_abbabb [cᵥ, dᵥ, bᵥ, mₒ, kₒ, iₒ]], [(1, [aᵥ, bᵥ, iₒ, jₒ]), (-1, [aᵥ, bᵥ, jₒ, iₒ]), (-1, [bᵥ, aᵥ, iₒ, jₒ]), (1, [bᵥ, aᵥ, jₒ, iₒ])]⟩,
  -- line 1519: majl,kldc,dcbikm->abij
  ⟨-1/2, [g_bbbb [mₒ, aᵥ, jₒ, lₒ], l2_bbbb [kₒ, lₒ, dᵥ, cᵥ], t3_bbbbbb [dᵥ, cᵥ, bᵥ, iₒ, kₒ, mₒ]], [(1, [aᵥ, bᵥ, iₒ, jₒ]), (-1, [aᵥ, bᵥ, jₒ, iₒ]), (-1, [bᵥ, aᵥ, iₒ, jₒ]), (1, [bᵥ, aᵥ, jₒ, iₒ])]⟩,
  -- line 1523: maij,kldc,dcbklm->abij
  ⟨1/4, [g_bbbb [mₒ, aᵥ, iₒ, jₒ], l2_aaaa [kₒ, lₒ, dᵥ, cᵥ], t3_aabaab [dᵥ, cᵥ, bᵥ, kₒ, lₒ, mₒ]], [(1, [aᵥ, bᵥ, iₒ, jₒ]), (-1, [bᵥ, aᵥ, iₒ, jₒ])]⟩,
  -- line 1527: maij,kldc,dcbklm->abij
  ⟨1/4, [g_bbbb [mₒ, aᵥ, iₒ, jₒ], l2_abab [kₒ, lₒ, dᵥ, cᵥ], t3_abbabb [dᵥ, cᵥ, bᵥ, kₒ, lₒ, mₒ]], [(1, [aᵥ, bᵥ, iₒ, jₒ]), (-1, [bᵥ, aᵥ, iₒ, jₒ])]⟩,
  -- line 1531: maij,klcd,cdbklm->abij
  ⟨1/4, [g_bbbb [mₒ, aᵥ, iₒ, jₒ], l2_abab [kₒ, lₒ, cᵥ, dᵥ], t3_abbabb [cᵥ, dᵥ, bᵥ, kₒ, lₒ, mₒ]], [(1, [aᵥ, bᵥ, iₒ, jₒ]), (-1, [bᵥ, aᵥ, iₒ, jₒ])]⟩,
  -- line 1535: maij,lkdc,dcblkm->abij
  ⟨1/4, [g_bbbb [mₒ, aᵥ, iₒ, jₒ], l2_abab [lₒ, kₒ, dᵥ, cᵥ], t3_abbabb [dᵥ, cᵥ, bᵥ, lₒ, kₒ, mₒ]], [(1, [aᵥ, bᵥ, iₒ, jₒ]), (-1, [bᵥ, aᵥ, iₒ, jₒ])]⟩,
  -- line 1539: maij,lkcd,cdblkm->abij
  ⟨1/4, [g_bbbb [mₒ, aᵥ, iₒ, jₒ], l2_abab [lₒ, kₒ, cᵥ, dᵥ], t3_abbabb [cᵥ, dᵥ, bᵥ, lₒ, kₒ, mₒ]], [(1, [aᵥ, bᵥ, iₒ, jₒ]), (-1, [bᵥ, aᵥ, iₒ, jₒ])]⟩,
  -- line 1543: maij,kldc,dcbklm->abij
  ⟨1/4, [g_bbbb [mₒ, aᵥ, iₒ, jₒ], l2_bbbb [kₒ, lₒ, dᵥ, cᵥ], t3_bbbbbb [dᵥ, cᵥ, bᵥ, kₒ, lₒ, mₒ]], [(1, [aᵥ, bᵥ, iₒ, jₒ]), (-1, [bᵥ, aᵥ, iₒ, jₒ])]⟩,
  -- line 1547: dcel,kldc,eabkji->abij
  ⟨-1/2, [g_aaaa [dᵥ, cᵥ, eᵥ, lₒ], l2_aaaa [kₒ, lₒ, dᵥ, cᵥ], t3_abbabb [eᵥ, aᵥ, bᵥ, kₒ, jₒ, iₒ]], [(1, [aᵥ, bᵥ, iₒ, jₒ])]⟩,
  -- line 1550: dcel,kldc,eabkji->abij
  ⟨-1/2, [g_abab [dᵥ, cᵥ, eᵥ, lₒ], l2_abab [kₒ, lₒ, dᵥ, cᵥ], t3_abbabb [eᵥ, aᵥ, bᵥ, kₒ, jₒ, iₒ]], [(1, [aᵥ, bᵥ, iₒ, jₒ])]⟩,
  -- line 1553: cdel,klcd,eabkji->abij
  ⟨-1/2, [g_abab [cᵥ, dᵥ, eᵥ, lₒ], l2_abab [kₒ, lₒ, cᵥ, dᵥ], t3_abbabb [eᵥ, aᵥ, bᵥ, kₒ, jₒ, iₒ]], [(1, [aᵥ, bᵥ, iₒ, jₒ])]⟩,
  -- line 1556: dcle,lkdc,eabijk->abij
  ⟨1/2, [g_abab [dᵥ, cᵥ, lₒ, eᵥ], l2_abab [lₒ, kₒ, dᵥ, cᵥ], t3_bbbbbb [eᵥ, aᵥ, bᵥ, iₒ, jₒ, kₒ]], [(1, [aᵥ, bᵥ, iₒ, jₒ])]⟩,
  -- line 1559: cdle,lkcd,eabijk->abij
  ⟨1/2, [g_abab [cᵥ, dᵥ, lₒ, eᵥ], l2_abab [lₒ, kₒ, cᵥ, dᵥ], t3_bbbbbb [eᵥ, aᵥ, bᵥ, iₒ, jₒ, kₒ]], [(1, [aᵥ, bᵥ, iₒ, jₒ])]⟩,
  -- line 1562: dcel,kldc,eabijk->abij
  ⟨1/2, [g_bbbb [dᵥ, cᵥ, eᵥ, lₒ], l2_bbbb [kₒ, lₒ, dᵥ, cᵥ], t3_bbbbbb [eᵥ, aᵥ, bᵥ, iₒ, jₒ, kₒ]], [(1, [aᵥ, bᵥ, iₒ, jₒ])]⟩,
  -- line 1565: dcej,kldc,eabkil->abij
  ⟨-1/4, [g_abab [dᵥ, cᵥ, eᵥ, jₒ], l2_abab [kₒ, lₒ, dᵥ, cᵥ], t3_abbabb [eᵥ, aᵥ, bᵥ, kₒ, iₒ, lₒ]], [(1, [aᵥ, bᵥ, iₒ, jₒ]), (-1, [aᵥ, bᵥ, jₒ, iₒ])]⟩,
  -- line 1569: cdej,klcd,eabkil->abij
  ⟨-1/4, [g_abab [cᵥ, dᵥ, eᵥ, jₒ], l2_abab [kₒ, lₒ, cᵥ, dᵥ], t3_abbabb [eᵥ, aᵥ, bᵥ, kₒ, iₒ, lₒ]], [(1, [aᵥ, bᵥ, iₒ, jₒ]), (-1, [aᵥ, bᵥ, jₒ, iₒ])]⟩,
  -- line 1573: dcej,lkdc,eablki->abij
  ⟨1/4, [g_abab [dᵥ, cᵥ, eᵥ, jₒ], l2_abab [lₒ, kₒ, dᵥ, cᵥ], t3_abbabb [eᵥ, aᵥ, bᵥ, lₒ, kₒ, iₒ]], [(1, [aᵥ, bᵥ, iₒ, jₒ]), (-1, [aᵥ, bᵥ, jₒ, iₒ])]⟩,
  -- line 1577: cdej,lkcd,eablki->abij
  ⟨1/4, [g_abab [cᵥ, dᵥ, eᵥ, jₒ], l2_abab [lₒ, kₒ, cᵥ, dᵥ], t3_abbabb [eᵥ, aᵥ, bᵥ, lₒ, kₒ, iₒ]], [(1, [aᵥ, bᵥ, iₒ, jₒ]), (-1, [aᵥ, bᵥ, jₒ, iₒ])]⟩,
  -- line 1581: dcej,kldc,eabikl->abij
  ⟨1/4, [g_bbbb [dᵥ, cᵥ, eᵥ, jₒ], l2_bbbb [kₒ, lₒ, dᵥ, cᵥ], t3_bbbbbb [eᵥ, aᵥ, bᵥ, iₒ, kₒ, lₒ]], [(1, [aᵥ, bᵥ, iₒ, jₒ]), (-1, [aᵥ, bᵥ, jₒ, iₒ])]⟩,
  -- line 1585: dale,kldc,cebkji->abij
  ⟨1, [g_abab [dᵥ, aᵥ, lₒ, eᵥ], l2_aaaa [kₒ, lₒ, dᵥ, cᵥ], t3_abbabb [cᵥ, eᵥ, bᵥ, kₒ, jₒ, iₒ]], [(1, [aᵥ, bᵥ, iₒ, jₒ]), (-1, [bᵥ, aᵥ, iₒ, jₒ])]⟩,
  -- line 1589: dael,kldc,ecbkji->abij
  ⟨1, [g_abab [dᵥ, aᵥ, eᵥ, lₒ], l2_abab [kₒ, lₒ, dᵥ, cᵥ], t3_abbabb [eᵥ, cᵥ, bᵥ, kₒ, jₒ, iₒ]], [(1, [aᵥ, bᵥ, iₒ, jₒ]), (-1, [bᵥ, aᵥ, iₒ, jₒ])]⟩,
  -- line 1593: dael,klcd,cebkji->abij
  ⟨1, [g_bbbb [dᵥ, aᵥ, eᵥ, lₒ], l2_abab [kₒ, lₒ, cᵥ, dᵥ], t3_abbabb [cᵥ, eᵥ, bᵥ, kₒ, jₒ, iₒ]], [(1, [aᵥ, bᵥ, iₒ, jₒ]), (-1, [bᵥ, aᵥ, iₒ, jₒ])]⟩,
  -- line 1597: dale,lkdc,ecbijk->abij
  ⟨-1, [g_abab [dᵥ, aᵥ, lₒ, eᵥ], l2_abab [lₒ, kₒ, dᵥ, cᵥ], t3_bbbbbb [eᵥ, cᵥ, bᵥ, iₒ, jₒ, kₒ]], [(1, [aᵥ, bᵥ, iₒ, jₒ]), (-1, [bᵥ, aᵥ, iₒ, jₒ])]⟩,
  -- line 1601: dael,kldc,ecbijk->abij
  ⟨-1, [g_bbbb [dᵥ, aᵥ, eᵥ, lₒ], l2_bbbb [kₒ, lₒ, dᵥ, cᵥ], t3_bbbbbb [eᵥ, cᵥ, bᵥ, iₒ, jₒ, kₒ]], [(1, [aᵥ, bᵥ, iₒ, jₒ]), (-1, [bᵥ, aᵥ, iₒ, jₒ])]⟩,
  -- line 1605: daej,kldc,ecblki->abij
  ⟨1/2, [g_abab [dᵥ, aᵥ, eᵥ, jₒ], l2_aaaa [kₒ, lₒ, dᵥ, cᵥ], t3_aabaab [eᵥ, cᵥ, bᵥ, lₒ, kₒ, iₒ]], [(1, [aᵥ, bᵥ, iₒ, jₒ]), (-1, [aᵥ, bᵥ, jₒ, iₒ]), (-1, [bᵥ, aᵥ, iₒ, jₒ]), (1, [bᵥ, aᵥ, jₒ, iₒ])]⟩
  ]

/-- Part 5 of `test_t2_bbbb`. -/
def test_t2_bbbb_5 : Prog := [
  -- line 1609: daej,kldc,ecbkil->abij
  ⟨1/2, [g_abab [dᵥ, aᵥ, eᵥ, jₒ], l2_abab [kₒ, lₒ, dᵥ, cᵥ], t3_abbabb [eᵥ, cᵥ, bᵥ, kₒ, iₒ, lₒ]], [(1, [aᵥ, bᵥ, iₒ, jₒ]), (-1, [aᵥ, bᵥ, jₒ, iₒ]), (-1, [bᵥ, aᵥ, iₒ, jₒ]), (1, [bᵥ, aᵥ, jₒ, iₒ])]⟩,
  -- line 1613: daej,klcd,cebkil->abij
  ⟨1/2, [g_bbbb [dᵥ, aᵥ, eᵥ, jₒ], l2_abab [kₒ, lₒ, cᵥ, dᵥ], t3_abbabb [cᵥ, eᵥ, bᵥ, kₒ, iₒ, lₒ]], [(1, [aᵥ, bᵥ, iₒ, jₒ]), (-1, [aᵥ, bᵥ, jₒ, iₒ]), (-1, [bᵥ, aᵥ, iₒ, jₒ]), (1, [bᵥ, aᵥ, jₒ, iₒ])]⟩,
  -- line 1617: daej,lkdc,ecblki->abij
  ⟨-1/2, [g_abab [dᵥ, aᵥ, eᵥ, jₒ], l2_abab [lₒ, kₒ, dᵥ, cᵥ], t3_abbabb [eᵥ, cᵥ, bᵥ, lₒ, kₒ, iₒ]], [(1, [aᵥ, bᵥ, iₒ, jₒ]), (-1, [aᵥ, bᵥ, jₒ, iₒ]), (-1, [bᵥ, aᵥ, iₒ, jₒ]), (1, [bᵥ, aᵥ, jₒ, iₒ])]⟩,
  -- line 1621: daej,lkcd,ceblki->abij
  ⟨-1/2, [g_bbbb [dᵥ, aᵥ, eᵥ, jₒ], l2_abab [lₒ, kₒ, cᵥ, dᵥ], t3_abbabb [cᵥ, eᵥ, bᵥ, lₒ, kₒ, iₒ]], [(1, [aᵥ, bᵥ, iₒ, jₒ]), (-1, [aᵥ, bᵥ, jₒ, iₒ]), (-1, [bᵥ, aᵥ, iₒ, jₒ]), (1, [bᵥ, aᵥ, jₒ, iₒ])]⟩,
  -- line 1625: daej,kldc,ecbikl->abij
  ⟨-1/2, [g_bbbb [dᵥ, aᵥ, eᵥ, jₒ], l2_bbbb [kₒ, lₒ, dᵥ, cᵥ], t3_bbbbbb [eᵥ, cᵥ, bᵥ, iₒ, kₒ, lₒ]], [(1, [aᵥ, bᵥ, iₒ, jₒ]), (-1, [aᵥ, bᵥ, jₒ, iₒ]), (-1, [bᵥ, aᵥ, iₒ, jₒ]), (1, [bᵥ, aᵥ, jₒ, iₒ])]⟩,
  -- line 1629: abel,kldc,deckji->abij
  ⟨1/2, [g_bbbb [aᵥ, bᵥ, eᵥ, lₒ], l2_abab [kₒ, lₒ, dᵥ, cᵥ], t3_abbabb [dᵥ, eᵥ, cᵥ, kₒ, jₒ, iₒ]], [(1, [aᵥ, bᵥ, iₒ, jₒ])]⟩,
  -- line 1632: abel,klcd,cdekji->abij
  ⟨-1/2, [g_bbbb [aᵥ, bᵥ, eᵥ, lₒ], l2_abab [kₒ, lₒ, cᵥ, dᵥ], t3_abbabb [cᵥ, dᵥ, eᵥ, kₒ, jₒ, iₒ]], [(1, [aᵥ, bᵥ, iₒ, jₒ])]⟩,
  -- line 1635: abel,kldc,edcijk->abij
  ⟨1/2, [g_bbbb [aᵥ, bᵥ, eᵥ, lₒ], l2_bbbb [kₒ, lₒ, dᵥ, cᵥ], t3_bbbbbb [eᵥ, dᵥ, cᵥ, iₒ, jₒ, kₒ]], [(1, [aᵥ, bᵥ, iₒ, jₒ])]⟩,
  -- line 1638: abej,kldc,cdelki->abij
  ⟨1/4, [g_bbbb [aᵥ, bᵥ, eᵥ, jₒ], l2_aaaa [kₒ, lₒ, dᵥ, cᵥ], t3_aabaab [cᵥ, dᵥ, eᵥ, lₒ, kₒ, iₒ]], [(1, [aᵥ, bᵥ, iₒ, jₒ]), (-1, [aᵥ, bᵥ, jₒ, iₒ])]⟩,
  -- line 1642: abej,kldc,deckil->abij
  ⟨1/4, [g_bbbb [aᵥ, bᵥ, eᵥ, jₒ], l2_abab [kₒ, lₒ, dᵥ, cᵥ], t3_abbabb [dᵥ, eᵥ, cᵥ, kₒ, iₒ, lₒ]], [(1, [aᵥ, bᵥ, iₒ, jₒ]), (-1, [aᵥ, bᵥ, jₒ, iₒ])]⟩,
  -- line 1646: abej,klcd,cdekil->abij
  ⟨-1/4, [g_bbbb [aᵥ, bᵥ, eᵥ, jₒ], l2_abab [kₒ, lₒ, cᵥ, dᵥ], t3_abbabb [cᵥ, dᵥ, eᵥ, kₒ, iₒ, lₒ]], [(1, [aᵥ, bᵥ, iₒ, jₒ]), (-1, [aᵥ, bᵥ, jₒ, iₒ])]⟩,
  -- line 1650: abej,lkdc,declki->abij
  ⟨-1/4, [g_bbbb [aᵥ, bᵥ, eᵥ, jₒ], l2_abab [lₒ, kₒ, dᵥ, cᵥ], t3_abbabb [dᵥ, eᵥ, cᵥ, lₒ, kₒ, iₒ]], [(1, [aᵥ, bᵥ, iₒ, jₒ]), (-1, [aᵥ, bᵥ, jₒ, iₒ])]⟩,
  -- line 1654: abej,lkcd,cdelki->abij
  ⟨1/4, [g_bbbb [aᵥ, bᵥ, eᵥ, jₒ], l2_abab [lₒ, kₒ, cᵥ, dᵥ], t3_abbabb [cᵥ, dᵥ, eᵥ, lₒ, kₒ, iₒ]], [(1, [aᵥ, bᵥ, iₒ, jₒ]), (-1, [aᵥ, bᵥ, jₒ, iₒ])]⟩,
  -- line 1658: abej,kldc,edcikl->abij
  ⟨1/4, [g_bbbb [aᵥ, bᵥ, eᵥ, jₒ], l2_bbbb [kₒ, lₒ, dᵥ, cᵥ], t3_bbbbbb [eᵥ, dᵥ, cᵥ, iₒ, kₒ, lₒ]], [(1, [aᵥ, bᵥ, iₒ, jₒ]), (-1, [aᵥ, bᵥ, jₒ, iₒ])]⟩
  ]

/-- `UT2/testing_modifyT2eqns_with_T4.py` 834-1661, `ccsdt_t2_bbbb_residual_Qf`. -/
def test_t2_bbbb : Prog := test_t2_bbbb_0 ++ (test_t2_bbbb_1 ++ (test_t2_bbbb_2 ++ (test_t2_bbbb_3 ++ (test_t2_bbbb_4 ++ (test_t2_bbbb_5)))))

end Verif.Gen
