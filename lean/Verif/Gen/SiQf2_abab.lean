import Verif.Ein.Names
import Verif.Gen.Antisym

/-! Written by `/verif/tools/gen.py`. Programs read from `/repo/UT2`. -/

set_option maxRecDepth 100000

namespace Verif.Gen

open Verif.Ein Verif.Ein.N


/-- Part 0 of `residQf2_abab`. -/
def residQf2_abab_0 : Prog := [
  -- line 2635: mnef,kldc,efkl,dcmj,abin->abij
  ⟨-1/8, [g_abab [mₒ, nₒ, eᵥ, fᵥ], l2_abab [kₒ, lₒ, dᵥ, cᵥ], t2_abab [eᵥ, fᵥ, kₒ, lₒ], t2_abab [dᵥ, cᵥ, mₒ, jₒ], t2_abab [aᵥ, bᵥ, iₒ, nₒ]], [(1, [aᵥ, bᵥ, iₒ, jₒ])]⟩,
  -- line 2638: mnfe,kldc,fekl,dcmj,abin->abij
  ⟨-1/8, [g_abab [mₒ, nₒ, fᵥ, eᵥ], l2_abab [kₒ, lₒ, dᵥ, cᵥ], t2_abab [fᵥ, eᵥ, kₒ, lₒ], t2_abab [dᵥ, cᵥ, mₒ, jₒ], t2_abab [aᵥ, bᵥ, iₒ, nₒ]], [(1, [aᵥ, bᵥ, iₒ, jₒ])]⟩,
  -- line 2641: mnef,klcd,efkl,cdmj,abin->abij
  ⟨-1/8, [g_abab [mₒ, nₒ, eᵥ, fᵥ], l2_abab [kₒ, lₒ, cᵥ, dᵥ], t2_abab [eᵥ, fᵥ, kₒ, lₒ], t2_abab [cᵥ, dᵥ, mₒ, jₒ], t2_abab [aᵥ, bᵥ, iₒ, nₒ]], [(1, [aᵥ, bᵥ, iₒ, jₒ])]⟩,
  -- line 2644: mnfe,klcd,fekl,cdmj,abin->abij
  ⟨-1/8, [g_abab [mₒ, nₒ, fᵥ, eᵥ], l2_abab [kₒ, lₒ, cᵥ, dᵥ], t2_abab [fᵥ, eᵥ, kₒ, lₒ], t2_abab [cᵥ, dᵥ, mₒ, jₒ], t2_abab [aᵥ, bᵥ, iₒ, nₒ]], [(1, [aᵥ, bᵥ, iₒ, jₒ])]⟩,
  -- line 2647: mnef,lkdc,eflk,dcmj,abin->abij
  ⟨-1/8, [g_abab [mₒ, nₒ, eᵥ, fᵥ], l2_abab [lₒ, kₒ, dᵥ, cᵥ], t2_abab [eᵥ, fᵥ, lₒ, kₒ], t2_abab [dᵥ, cᵥ, mₒ, jₒ], t2_abab [aᵥ, bᵥ, iₒ, nₒ]], [(1, [aᵥ, bᵥ, iₒ, jₒ])]⟩,
  -- line 2650: mnfe,lkdc,felk,dcmj,abin->abij
  ⟨-1/8, [g_abab [mₒ, nₒ, fᵥ, eᵥ], l2_abab [lₒ, kₒ, dᵥ, cᵥ], t2_abab [fᵥ, eᵥ, lₒ, kₒ], t2_abab [dᵥ, cᵥ, mₒ, jₒ], t2_abab [aᵥ, bᵥ, iₒ, nₒ]], [(1, [aᵥ, bᵥ, iₒ, jₒ])]⟩,
  -- line 2653: mnef,lkcd,eflk,cdmj,abin->abij
  ⟨-1/8, [g_abab [mₒ, nₒ, eᵥ, fᵥ], l2_abab [lₒ, kₒ, cᵥ, dᵥ], t2_abab [eᵥ, fᵥ, lₒ, kₒ], t2_abab [cᵥ, dᵥ, mₒ, jₒ], t2_abab [aᵥ, bᵥ, iₒ, nₒ]], [(1, [aᵥ, bᵥ, iₒ, jₒ])]⟩,
  -- line 2656: mnfe,lkcd,felk,cdmj,abin->abij
  ⟨-1/8, [g_abab [mₒ, nₒ, fᵥ, eᵥ], l2_abab [lₒ, kₒ, cᵥ, dᵥ], t2_abab [fᵥ, eᵥ, lₒ, kₒ], t2_abab [cᵥ, dᵥ, mₒ, jₒ], t2_abab [aᵥ, bᵥ, iₒ, nₒ]], [(1, [aᵥ, bᵥ, iₒ, jₒ])]⟩,
  -- line 2659: nmef,kldc,efkl,dcjm,abin->abij
  ⟨-1/8, [g_bbbb [nₒ, mₒ, eᵥ, fᵥ], l2_bbbb [kₒ, lₒ, dᵥ, cᵥ], t2_bbbb [eᵥ, fᵥ, kₒ, lₒ], t2_bbbb [dᵥ, cᵥ, jₒ, mₒ], t2_abab [aᵥ, bᵥ, iₒ, nₒ]], [(1, [aᵥ, bᵥ, iₒ, jₒ])]⟩,
  -- line 2662: nmef,kldc,efkl,dcim,abnj->abij
  ⟨-1/8, [g_aaaa [nₒ, mₒ, eᵥ, fᵥ], l2_aaaa [kₒ, lₒ, dᵥ, cᵥ], t2_aaaa [eᵥ, fᵥ, kₒ, lₒ], t2_aaaa [dᵥ, cᵥ, iₒ, mₒ], t2_abab [aᵥ, bᵥ, nₒ, jₒ]], [(1, [aᵥ, bᵥ, iₒ, jₒ])]⟩,
  -- line 2665: nmef,kldc,efkl,dcim,abnj->abij
  ⟨-1/8, [g_abab [nₒ, mₒ, eᵥ, fᵥ], l2_abab [kₒ, lₒ, dᵥ, cᵥ], t2_abab [eᵥ, fᵥ, kₒ, lₒ], t2_abab [dᵥ, cᵥ, iₒ, mₒ], t2_abab [aᵥ, bᵥ, nₒ, jₒ]], [(1, [aᵥ, bᵥ, iₒ, jₒ])]⟩,
  -- line 2668: nmfe,kldc,fekl,dcim,abnj->abij
  ⟨-1/8, [g_abab [nₒ, mₒ, fᵥ, eᵥ], l2_abab [kₒ, lₒ, dᵥ, cᵥ], t2_abab [fᵥ, eᵥ, kₒ, lₒ], t2_abab [dᵥ, cᵥ, iₒ, mₒ], t2_abab [aᵥ, bᵥ, nₒ, jₒ]], [(1, [aᵥ, bᵥ, iₒ, jₒ])]⟩,
  -- line 2671: nmef,klcd,efkl,cdim,abnj->abij
  ⟨-1/8, [g_abab [nₒ, mₒ, eᵥ, fᵥ], l2_abab [kₒ, lₒ, cᵥ, dᵥ], t2_abab [eᵥ, fᵥ, kₒ, lₒ], t2_abab [cᵥ, dᵥ, iₒ, mₒ], t2_abab [aᵥ, bᵥ, nₒ, jₒ]], [(1, [aᵥ, bᵥ, iₒ, jₒ])]⟩,
  -- line 2674: nmfe,klcd,fekl,cdim,abnj->abij
  ⟨-1/8, [g_abab [nₒ, mₒ, fᵥ, eᵥ], l2_abab [kₒ, lₒ, cᵥ, dᵥ], t2_abab [fᵥ, eᵥ, kₒ, lₒ], t2_abab [cᵥ, dᵥ, iₒ, mₒ], t2_abab [aᵥ, bᵥ, nₒ, jₒ]], [(1, [aᵥ, bᵥ, iₒ, jₒ])]⟩,
  -- line 2677: nmef,lkdc,eflk,dcim,abnj->abij
  ⟨-1/8, [g_abab [nₒ, mₒ, eᵥ, fᵥ], l2_abab [lₒ, kₒ, dᵥ, cᵥ], t2_abab [eᵥ, fᵥ, lₒ, kₒ], t2_abab [dᵥ, cᵥ, iₒ, mₒ], t2_abab [aᵥ, bᵥ, nₒ, jₒ]], [(1, [aᵥ, bᵥ, iₒ, jₒ])]⟩,
  -- line 2680: nmfe,lkdc,felk,dcim,abnj->abij
  ⟨-1/8, [g_abab [nₒ, mₒ, fᵥ, eᵥ], l2_abab [lₒ, kₒ, dᵥ, cᵥ], t2_abab [fᵥ, eᵥ, lₒ, kₒ], t2_abab [dᵥ, cᵥ, iₒ, mₒ], t2_abab [aᵥ, bᵥ, nₒ, jₒ]], [(1, [aᵥ, bᵥ, iₒ, jₒ])]⟩,
  -- line 2683: nmef,lkcd,eflk,cdim,abnj->abij
  ⟨-1/8, [g_abab [nₒ, mₒ, eᵥ, fᵥ], l2_abab [lₒ, kₒ, cᵥ, dᵥ], t2_abab [eᵥ, fᵥ, lₒ, kₒ], t2_abab [cᵥ, dᵥ, iₒ, mₒ], t2_abab [aᵥ, bᵥ, nₒ, jₒ]], [(1, [aᵥ, bᵥ, iₒ, jₒ])]⟩,
  -- line 2686: nmfe,lkcd,felk,cdim,abnj->abij
  ⟨-1/8, [g_abab [nₒ, mₒ, fᵥ, eᵥ], l2_abab [lₒ, kₒ, cᵥ, dᵥ], t2_abab [fᵥ, eᵥ, lₒ, kₒ], t2_abab [cᵥ, dᵥ, iₒ, mₒ], t2_abab [aᵥ, bᵥ, nₒ, jₒ]], [(1, [aᵥ, bᵥ, iₒ, jₒ])]⟩,
  -- line 2689: mnef,klcd,efkl,admj,cbin->abij
  ⟨1/4, [g_abab [mₒ, nₒ, eᵥ, fᵥ], l2_abab [kₒ, lₒ, cᵥ, dᵥ], t2_abab [eᵥ, fᵥ, kₒ, lₒ], t2_abab [aᵥ, dᵥ, mₒ, jₒ], t2_abab [cᵥ, bᵥ, iₒ, nₒ]], [(1, [aᵥ, bᵥ, iₒ, jₒ])]⟩,
  -- line 2692: mnfe,klcd,fekl,admj,cbin->abij
  ⟨1/4, [g_abab [mₒ, nₒ, fᵥ, eᵥ], l2_abab [kₒ, lₒ, cᵥ, dᵥ], t2_abab [fᵥ, eᵥ, kₒ, lₒ], t2_abab [aᵥ, dᵥ, mₒ, jₒ], t2_abab [cᵥ, bᵥ, iₒ, nₒ]], [(1, [aᵥ, bᵥ, iₒ, jₒ])]⟩,
  -- line 2695: mnef,lkcd,eflk,admj,cbin->abij
  ⟨1/4, [g_abab [mₒ, nₒ, eᵥ, fᵥ], l2_abab [lₒ, kₒ, cᵥ, dᵥ], t2_abab [eᵥ, fᵥ, lₒ, kₒ], t2_abab [aᵥ, dᵥ, mₒ, jₒ], t2_abab [cᵥ, bᵥ, iₒ, nₒ]], [(1, [aᵥ, bᵥ, iₒ, jₒ])]⟩,
  -- line 2698: mnfe,lkcd,felk,admj,cbin->abij
  ⟨1/4, [g_abab [mₒ, nₒ, fᵥ, eᵥ], l2_abab [lₒ, kₒ, cᵥ, dᵥ], t2_abab [fᵥ, eᵥ, lₒ, kₒ], t2_abab [aᵥ, dᵥ, mₒ, jₒ], t2_abab [cᵥ, bᵥ, iₒ, nₒ]], [(1, [aᵥ, bᵥ, iₒ, jₒ])]⟩,
  -- line 2701: nmef,kldc,efkl,daim,cbnj->abij
  ⟨1/4, [g_aaaa [nₒ, mₒ, eᵥ, fᵥ], l2_aaaa [kₒ, lₒ, dᵥ, cᵥ], t2_aaaa [eᵥ, fᵥ, kₒ, lₒ], t2_aaaa [dᵥ, aᵥ, iₒ, mₒ], t2_abab [cᵥ, bᵥ, nₒ, jₒ]], [(1, [aᵥ, bᵥ, iₒ, jₒ])]⟩,
  -- line 2704: mnef,kldc,efkl,daim,cbjn->abij
  ⟨1/4, [g_abab [mₒ, nₒ, eᵥ, fᵥ], l2_abab [kₒ, lₒ, dᵥ, cᵥ], t2_abab [eᵥ, fᵥ, kₒ, lₒ], t2_aaaa [dᵥ, aᵥ, iₒ, mₒ], t2_bbbb [cᵥ, bᵥ, jₒ, nₒ]], [(1, [aᵥ, bᵥ, iₒ, jₒ])]⟩,
  -- line 2707: mnfe,kldc,fekl,daim,cbjn->abij
  ⟨1/4, [g_abab [mₒ, nₒ, fᵥ, eᵥ], l2_abab [kₒ, lₒ, dᵥ, cᵥ], t2_abab [fᵥ, eᵥ, kₒ, lₒ], t2_aaaa [dᵥ, aᵥ, iₒ, mₒ], t2_bbbb [cᵥ, bᵥ, jₒ, nₒ]], [(1, [aᵥ, bᵥ, iₒ, jₒ])]⟩,
  -- line 2710: nmef,klcd,efkl,adim,cbnj->abij
  ⟨1/4, [g_abab [nₒ, mₒ, eᵥ, fᵥ], l2_abab [kₒ, lₒ, cᵥ, dᵥ], t2_abab [eᵥ, fᵥ, kₒ, lₒ], t2_abab [aᵥ, dᵥ, iₒ, mₒ], t2_abab [cᵥ, bᵥ, nₒ, jₒ]], [(1, [aᵥ, bᵥ, iₒ, jₒ])]⟩,
  -- line 2713: nmfe,klcd,fekl,adim,cbnj->abij
  ⟨1/4, [g_abab [nₒ, mₒ, fᵥ, eᵥ], l2_abab [kₒ, lₒ, cᵥ, dᵥ], t2_abab [fᵥ, eᵥ, kₒ, lₒ], t2_abab [aᵥ, dᵥ, iₒ, mₒ], t2_abab [cᵥ, bᵥ, nₒ, jₒ]], [(1, [aᵥ, bᵥ, iₒ, jₒ])]⟩,
  -- line 2716: mnef,lkdc,eflk,daim,cbjn->abij
  ⟨1/4, [g_abab [mₒ, nₒ, eᵥ, fᵥ], l2_abab [lₒ, kₒ, dᵥ, cᵥ], t2_abab [eᵥ, fᵥ, lₒ, kₒ], t2_aaaa [dᵥ, aᵥ, iₒ, mₒ], t2_bbbb [cᵥ, bᵥ, jₒ, nₒ]], [(1, [aᵥ, bᵥ, iₒ, jₒ])]⟩,
  -- line 2719: mnfe,lkdc,felk,daim,cbjn->abij
  ⟨1/4, [g_abab [mₒ, nₒ, fᵥ, eᵥ], l2_abab [lₒ, kₒ, dᵥ, cᵥ], t2_abab [fᵥ, eᵥ, lₒ, kₒ], t2_aaaa [dᵥ, aᵥ, iₒ, mₒ], t2_bbbb [cᵥ, bᵥ, jₒ, nₒ]], [(1, [aᵥ, bᵥ, iₒ, jₒ])]⟩,
  -- line 2722: nmef,lkcd,eflk,adim,cbnj->abij
  ⟨1/4, [g_abab [nₒ, mₒ, eᵥ, fᵥ], l2_abab [lₒ, kₒ, cᵥ, dᵥ], t2_abab [eᵥ, fᵥ, lₒ, kₒ], t2_abab [aᵥ, dᵥ, iₒ, mₒ], t2_abab [cᵥ, bᵥ, nₒ, jₒ]], [(1, [aᵥ, bᵥ, iₒ, jₒ])]⟩,
  -- line 2725: nmfe,lkcd,felk,adim,cbnj->abij
  ⟨1/4, [g_abab [nₒ, mₒ, fᵥ, eᵥ], l2_abab [lₒ, kₒ, cᵥ, dᵥ], t2_abab [fᵥ, eᵥ, lₒ, kₒ], t2_abab [aᵥ, dᵥ, iₒ, mₒ], t2_abab [cᵥ, bᵥ, nₒ, jₒ]], [(1, [aᵥ, bᵥ, iₒ, jₒ])]⟩,
  -- line 2728: nmef,kldc,efkl,adim,cbjn->abij
  ⟨1/4, [g_bbbb [nₒ, mₒ, eᵥ, fᵥ], l2_bbbb [kₒ, lₒ, dᵥ, cᵥ], t2_bbbb [eᵥ, fᵥ, kₒ, lₒ], t2_abab [aᵥ, dᵥ, iₒ, mₒ], t2_bbbb [cᵥ, bᵥ, jₒ, nₒ]], [(1, [aᵥ, bᵥ, iₒ, jₒ])]⟩,
  -- line 2731: mnef,kldc,eflj,dckm,abin->abij
  ⟨1/4, [g_abab [mₒ, nₒ, eᵥ, fᵥ], l2_aaaa [kₒ, lₒ, dᵥ, cᵥ], t2_abab [eᵥ, fᵥ, lₒ, jₒ], t2_aaaa [dᵥ, cᵥ, kₒ, mₒ], t2_abab [aᵥ, bᵥ, iₒ, nₒ]], [(1, [aᵥ, bᵥ, iₒ, jₒ])]⟩,
  -- line 2734: mnfe,kldc,felj,dckm,abin->abij
  ⟨1/4, [g_abab [mₒ, nₒ, fᵥ, eᵥ], l2_aaaa [kₒ, lₒ, dᵥ, cᵥ], t2_abab [fᵥ, eᵥ, lₒ, jₒ], t2_aaaa [dᵥ, cᵥ, kₒ, mₒ], t2_abab [aᵥ, bᵥ, iₒ, nₒ]], [(1, [aᵥ, bᵥ, iₒ, jₒ])]⟩,
  -- line 2737: nmef,kldc,efjl,dckm,abin->abij
  ⟨1/4, [g_bbbb [nₒ, mₒ, eᵥ, fᵥ], l2_abab [kₒ, lₒ, dᵥ, cᵥ], t2_bbbb [eᵥ, fᵥ, jₒ, lₒ], t2_abab [dᵥ, cᵥ, kₒ, mₒ], t2_abab [aᵥ, bᵥ, iₒ, nₒ]], [(1, [aᵥ, bᵥ, iₒ, jₒ])]⟩,
  -- line 2740: nmef,klcd,efjl,cdkm,abin->abij
  ⟨1/4, [g_bbbb [nₒ, mₒ, eᵥ, fᵥ], l2_abab [kₒ, lₒ, cᵥ, dᵥ], t2_bbbb [eᵥ, fᵥ, jₒ, lₒ], t2_abab [cᵥ, dᵥ, kₒ, mₒ], t2_abab [aᵥ, bᵥ, iₒ, nₒ]], [(1, [aᵥ, bᵥ, iₒ, jₒ])]⟩,
  -- line 2743: mnef,lkdc,eflj,dcmk,abin->abij
  ⟨1/4, [g_abab [mₒ, nₒ, eᵥ, fᵥ], l2_abab [lₒ, kₒ, dᵥ, cᵥ], t2_abab [eᵥ, fᵥ, lₒ, jₒ], t2_abab [dᵥ, cᵥ, mₒ, kₒ], t2_abab [aᵥ, bᵥ, iₒ, nₒ]], [(1, [aᵥ, bᵥ, iₒ, jₒ])]⟩,
  -- line 2746: mnfe,lkdc,felj,dcmk,abin->abij
  ⟨1/4, [g_abab [mₒ, nₒ, fᵥ, eᵥ], l2_abab [lₒ, kₒ, dᵥ, cᵥ], t2_abab [fᵥ, eᵥ, lₒ, jₒ], t2_abab [dᵥ, cᵥ, mₒ, kₒ], t2_abab [aᵥ, bᵥ, iₒ, nₒ]], [(1, [aᵥ, bᵥ, iₒ, jₒ])]⟩,
  -- line 2749: mnef,lkcd,eflj,cdmk,abin->abij
  ⟨1/4, [g_abab [mₒ, nₒ, eᵥ, fᵥ], l2_abab [lₒ, kₒ, cᵥ, dᵥ], t2_abab [eᵥ, fᵥ, lₒ, jₒ], t2_abab [cᵥ, dᵥ, mₒ, kₒ], t2_abab [aᵥ, bᵥ, iₒ, nₒ]], [(1, [aᵥ, bᵥ, iₒ, jₒ])]⟩,
  -- line 2752: mnfe,lkcd,felj,cdmk,abin->abij
  ⟨1/4, [g_abab [mₒ, nₒ, fᵥ, eᵥ], l2_abab [lₒ, kₒ, cᵥ, dᵥ], t2_abab [fᵥ, eᵥ, lₒ, jₒ], t2_abab [cᵥ, dᵥ, mₒ, kₒ], t2_abab [aᵥ, bᵥ, iₒ, nₒ]], [(1, [aᵥ, bᵥ, iₒ, jₒ])]⟩
  ]

/-- Part 1 of `residQf2_abab`. -/
def residQf2_abab_1 : Prog := [
  -- line 2755: nmef,kldc,efjl,dckm,abin->abij
  ⟨1/4, [g_bbbb [nₒ, mₒ, eᵥ, fᵥ], l2_bbbb [kₒ, lₒ, dᵥ, cᵥ], t2_bbbb [eᵥ, fᵥ, jₒ, lₒ], t2_bbbb [dᵥ, cᵥ, kₒ, mₒ], t2_abab [aᵥ, bᵥ, iₒ, nₒ]], [(1, [aᵥ, bᵥ, iₒ, jₒ])]⟩,
  -- line 2758: nmef,kldc,efil,dckm,abnj->abij
  ⟨1/4, [g_aaaa [nₒ, mₒ, eᵥ, fᵥ], l2_aaaa [kₒ, lₒ, dᵥ, cᵥ], t2_aaaa [eᵥ, fᵥ, iₒ, lₒ], t2_aaaa [dᵥ, cᵥ, kₒ, mₒ], t2_abab [aᵥ, bᵥ, nₒ, jₒ]], [(1, [aᵥ, bᵥ, iₒ, jₒ])]⟩,
  -- line 2761: nmef,kldc,efil,dckm,abnj->abij
  ⟨1/4, [g_abab [nₒ, mₒ, eᵥ, fᵥ], l2_abab [kₒ, lₒ, dᵥ, cᵥ], t2_abab [eᵥ, fᵥ, iₒ, lₒ], t2_abab [dᵥ, cᵥ, kₒ, mₒ], t2_abab [aᵥ, bᵥ, nₒ, jₒ]], [(1, [aᵥ, bᵥ, iₒ, jₒ])]⟩,
  -- line 2764: nmfe,kldc,feil,dckm,abnj->abij
  ⟨1/4, [g_abab [nₒ, mₒ, fᵥ, eᵥ], l2_abab [kₒ, lₒ, dᵥ, cᵥ], t2_abab [fᵥ, eᵥ, iₒ, lₒ], t2_abab [dᵥ, cᵥ, kₒ, mₒ], t2_abab [aᵥ, bᵥ, nₒ, jₒ]], [(1, [aᵥ, bᵥ, iₒ, jₒ])]⟩,
  -- line 2767: nmef,klcd,efil,cdkm,abnj->abij
  ⟨1/4, [g_abab [nₒ, mₒ, eᵥ, fᵥ], l2_abab [kₒ, lₒ, cᵥ, dᵥ], t2_abab [eᵥ, fᵥ, iₒ, lₒ], t2_abab [cᵥ, dᵥ, kₒ, mₒ], t2_abab [aᵥ, bᵥ, nₒ, jₒ]], [(1, [aᵥ, bᵥ, iₒ, jₒ])]⟩,
  -- line 2770: nmfe,klcd,feil,cdkm,abnj->abij
  ⟨1/4, [g_abab [nₒ, mₒ, fᵥ, eᵥ], l2_abab [kₒ, lₒ, cᵥ, dᵥ], t2_abab [fᵥ, eᵥ, iₒ, lₒ], t2_abab [cᵥ, dᵥ, kₒ, mₒ], t2_abab [aᵥ, bᵥ, nₒ, jₒ]], [(1, [aᵥ, bᵥ, iₒ, jₒ])]⟩,
  -- line 2773: nmef,lkdc,efil,dcmk,abnj->abij
  ⟨1/4, [g_aaaa [nₒ, mₒ, eᵥ, fᵥ], l2_abab [lₒ, kₒ, dᵥ, cᵥ], t2_aaaa [eᵥ, fᵥ, iₒ, lₒ], t2_abab [dᵥ, cᵥ, mₒ, kₒ], t2_abab [aᵥ, bᵥ, nₒ, jₒ]], [(1, [aᵥ, bᵥ, iₒ, jₒ])]⟩,
  -- line 2776: nmef,lkcd,efil,cdmk,abnj->abij
  ⟨1/4, [g_aaaa [nₒ, mₒ, eᵥ, fᵥ], l2_abab [lₒ, kₒ, cᵥ, dᵥ], t2_aaaa [eᵥ, fᵥ, iₒ, lₒ], t2_abab [cᵥ, dᵥ, mₒ, kₒ], t2_abab [aᵥ, bᵥ, nₒ, jₒ]], [(1, [aᵥ, bᵥ, iₒ, jₒ])]⟩,
  -- line 2779: nmef,kldc,efil,dckm,abnj->abij
  ⟨1/4, [g_abab [nₒ, mₒ, eᵥ, fᵥ], l2_bbbb [kₒ, lₒ, dᵥ, cᵥ], t2_abab [eᵥ, fᵥ, iₒ, lₒ], t2_bbbb [dᵥ, cᵥ, kₒ, mₒ], t2_abab [aᵥ, bᵥ, nₒ, jₒ]], [(1, [aᵥ, bᵥ, iₒ, jₒ])]⟩,
  -- line 2782: nmfe,kldc,feil,dckm,abnj->abij
  ⟨1/4, [g_abab [nₒ, mₒ, fᵥ, eᵥ], l2_bbbb [kₒ, lₒ, dᵥ, cᵥ], t2_abab [fᵥ, eᵥ, iₒ, lₒ], t2_bbbb [dᵥ, cᵥ, kₒ, mₒ], t2_abab [aᵥ, bᵥ, nₒ, jₒ]], [(1, [aᵥ, bᵥ, iₒ, jₒ])]⟩,
  -- line 2785: mnef,kldc,eflj,dcim,abkn->abij
  ⟨-1/4, [g_abab [mₒ, nₒ, eᵥ, fᵥ], l2_aaaa [kₒ, lₒ, dᵥ, cᵥ], t2_abab [eᵥ, fᵥ, lₒ, jₒ], t2_aaaa [dᵥ, cᵥ, iₒ, mₒ], t2_abab [aᵥ, bᵥ, kₒ, nₒ]], [(1, [aᵥ, bᵥ, iₒ, jₒ])]⟩,
  -- line 2788: mnfe,kldc,felj,dcim,abkn->abij
  ⟨-1/4, [g_abab [mₒ, nₒ, fᵥ, eᵥ], l2_aaaa [kₒ, lₒ, dᵥ, cᵥ], t2_abab [fᵥ, eᵥ, lₒ, jₒ], t2_aaaa [dᵥ, cᵥ, iₒ, mₒ], t2_abab [aᵥ, bᵥ, kₒ, nₒ]], [(1, [aᵥ, bᵥ, iₒ, jₒ])]⟩,
  -- line 2791: nmef,kldc,efjl,dcim,abkn->abij
  ⟨-1/4, [g_bbbb [nₒ, mₒ, eᵥ, fᵥ], l2_abab [kₒ, lₒ, dᵥ, cᵥ], t2_bbbb [eᵥ, fᵥ, jₒ, lₒ], t2_abab [dᵥ, cᵥ, iₒ, mₒ], t2_abab [aᵥ, bᵥ, kₒ, nₒ]], [(1, [aᵥ, bᵥ, iₒ, jₒ])]⟩,
  -- line 2794: nmef,klcd,efjl,cdim,abkn->abij
  ⟨-1/4, [g_bbbb [nₒ, mₒ, eᵥ, fᵥ], l2_abab [kₒ, lₒ, cᵥ, dᵥ], t2_bbbb [eᵥ, fᵥ, jₒ, lₒ], t2_abab [cᵥ, dᵥ, iₒ, mₒ], t2_abab [aᵥ, bᵥ, kₒ, nₒ]], [(1, [aᵥ, bᵥ, iₒ, jₒ])]⟩,
  -- line 2797: nmef,lkdc,eflj,dcim,abnk->abij
  ⟨1/4, [g_abab [nₒ, mₒ, eᵥ, fᵥ], l2_abab [lₒ, kₒ, dᵥ, cᵥ], t2_abab [eᵥ, fᵥ, lₒ, jₒ], t2_abab [dᵥ, cᵥ, iₒ, mₒ], t2_abab [aᵥ, bᵥ, nₒ, kₒ]], [(1, [aᵥ, bᵥ, iₒ, jₒ])]⟩,
  -- line 2800: nmfe,lkdc,felj,dcim,abnk->abij
  ⟨1/4, [g_abab [nₒ, mₒ, fᵥ, eᵥ], l2_abab [lₒ, kₒ, dᵥ, cᵥ], t2_abab [fᵥ, eᵥ, lₒ, jₒ], t2_abab [dᵥ, cᵥ, iₒ, mₒ], t2_abab [aᵥ, bᵥ, nₒ, kₒ]], [(1, [aᵥ, bᵥ, iₒ, jₒ])]⟩,
  -- line 2803: nmef,lkcd,eflj,cdim,abnk->abij
  ⟨1/4, [g_abab [nₒ, mₒ, eᵥ, fᵥ], l2_abab [lₒ, kₒ, cᵥ, dᵥ], t2_abab [eᵥ, fᵥ, lₒ, jₒ], t2_abab [cᵥ, dᵥ, iₒ, mₒ], t2_abab [aᵥ, bᵥ, nₒ, kₒ]], [(1, [aᵥ, bᵥ, iₒ, jₒ])]⟩,
  -- line 2806: nmfe,lkcd,felj,cdim,abnk->abij
  ⟨1/4, [g_abab [nₒ, mₒ, fᵥ, eᵥ], l2_abab [lₒ, kₒ, cᵥ, dᵥ], t2_abab [fᵥ, eᵥ, lₒ, jₒ], t2_abab [cᵥ, dᵥ, iₒ, mₒ], t2_abab [aᵥ, bᵥ, nₒ, kₒ]], [(1, [aᵥ, bᵥ, iₒ, jₒ])]⟩,
  -- line 2809: mnef,kldc,efil,dcmj,abkn->abij
  ⟨1/4, [g_abab [mₒ, nₒ, eᵥ, fᵥ], l2_abab [kₒ, lₒ, dᵥ, cᵥ], t2_abab [eᵥ, fᵥ, iₒ, lₒ], t2_abab [dᵥ, cᵥ, mₒ, jₒ], t2_abab [aᵥ, bᵥ, kₒ, nₒ]], [(1, [aᵥ, bᵥ, iₒ, jₒ])]⟩,
  -- line 2812: mnfe,kldc,feil,dcmj,abkn->abij
  ⟨1/4, [g_abab [mₒ, nₒ, fᵥ, eᵥ], l2_abab [kₒ, lₒ, dᵥ, cᵥ], t2_abab [fᵥ, eᵥ, iₒ, lₒ], t2_abab [dᵥ, cᵥ, mₒ, jₒ], t2_abab [aᵥ, bᵥ, kₒ, nₒ]], [(1, [aᵥ, bᵥ, iₒ, jₒ])]⟩,
  -- line 2815: mnef,klcd,efil,cdmj,abkn->abij
  ⟨1/4, [g_abab [mₒ, nₒ, eᵥ, fᵥ], l2_abab [kₒ, lₒ, cᵥ, dᵥ], t2_abab [eᵥ, fᵥ, iₒ, lₒ], t2_abab [cᵥ, dᵥ, mₒ, jₒ], t2_abab [aᵥ, bᵥ, kₒ, nₒ]], [(1, [aᵥ, bᵥ, iₒ, jₒ])]⟩,
  -- line 2818: mnfe,klcd,feil,cdmj,abkn->abij
  ⟨1/4, [g_abab [mₒ, nₒ, fᵥ, eᵥ], l2_abab [kₒ, lₒ, cᵥ, dᵥ], t2_abab [fᵥ, eᵥ, iₒ, lₒ], t2_abab [cᵥ, dᵥ, mₒ, jₒ], t2_abab [aᵥ, bᵥ, kₒ, nₒ]], [(1, [aᵥ, bᵥ, iₒ, jₒ])]⟩,
  -- line 2821: nmef,lkdc,efil,dcmj,abnk->abij
  ⟨-1/4, [g_aaaa [nₒ, mₒ, eᵥ, fᵥ], l2_abab [lₒ, kₒ, dᵥ, cᵥ], t2_aaaa [eᵥ, fᵥ, iₒ, lₒ], t2_abab [dᵥ, cᵥ, mₒ, jₒ], t2_abab [aᵥ, bᵥ, nₒ, kₒ]], [(1, [aᵥ, bᵥ, iₒ, jₒ])]⟩,
  -- line 2824: nmef,lkcd,efil,cdmj,abnk->abij
  ⟨-1/4, [g_aaaa [nₒ, mₒ, eᵥ, fᵥ], l2_abab [lₒ, kₒ, cᵥ, dᵥ], t2_aaaa [eᵥ, fᵥ, iₒ, lₒ], t2_abab [cᵥ, dᵥ, mₒ, jₒ], t2_abab [aᵥ, bᵥ, nₒ, kₒ]], [(1, [aᵥ, bᵥ, iₒ, jₒ])]⟩,
  -- line 2827: nmef,kldc,efil,dcjm,abnk->abij
  ⟨-1/4, [g_abab [nₒ, mₒ, eᵥ, fᵥ], l2_bbbb [kₒ, lₒ, dᵥ, cᵥ], t2_abab [eᵥ, fᵥ, iₒ, lₒ], t2_bbbb [dᵥ, cᵥ, jₒ, mₒ], t2_abab [aᵥ, bᵥ, nₒ, kₒ]], [(1, [aᵥ, bᵥ, iₒ, jₒ])]⟩,
  -- line 2830: nmfe,kldc,feil,dcjm,abnk->abij
  ⟨-1/4, [g_abab [nₒ, mₒ, fᵥ, eᵥ], l2_bbbb [kₒ, lₒ, dᵥ, cᵥ], t2_abab [fᵥ, eᵥ, iₒ, lₒ], t2_bbbb [dᵥ, cᵥ, jₒ, mₒ], t2_abab [aᵥ, bᵥ, nₒ, kₒ]], [(1, [aᵥ, bᵥ, iₒ, jₒ])]⟩,
  -- line 2833: mnef,kldc,eflj,dakm,cbin->abij
  ⟨-1/2, [g_abab [mₒ, nₒ, eᵥ, fᵥ], l2_aaaa [kₒ, lₒ, dᵥ, cᵥ], t2_abab [eᵥ, fᵥ, lₒ, jₒ], t2_aaaa [dᵥ, aᵥ, kₒ, mₒ], t2_abab [cᵥ, bᵥ, iₒ, nₒ]], [(1, [aᵥ, bᵥ, iₒ, jₒ])]⟩,
  -- line 2836: mnfe,kldc,felj,dakm,cbin->abij
  ⟨-1/2, [g_abab [mₒ, nₒ, fᵥ, eᵥ], l2_aaaa [kₒ, lₒ, dᵥ, cᵥ], t2_abab [fᵥ, eᵥ, lₒ, jₒ], t2_aaaa [dᵥ, aᵥ, kₒ, mₒ], t2_abab [cᵥ, bᵥ, iₒ, nₒ]], [(1, [aᵥ, bᵥ, iₒ, jₒ])]⟩,
  -- line 2839: nmef,klcd,efjl,adkm,cbin->abij
  ⟨-1/2, [g_bbbb [nₒ, mₒ, eᵥ, fᵥ], l2_abab [kₒ, lₒ, cᵥ, dᵥ], t2_bbbb [eᵥ, fᵥ, jₒ, lₒ], t2_abab [aᵥ, dᵥ, kₒ, mₒ], t2_abab [cᵥ, bᵥ, iₒ, nₒ]], [(1, [aᵥ, bᵥ, iₒ, jₒ])]⟩,
  -- line 2842: mnef,lkcd,eflj,admk,cbin->abij
  ⟨-1/2, [g_abab [mₒ, nₒ, eᵥ, fᵥ], l2_abab [lₒ, kₒ, cᵥ, dᵥ], t2_abab [eᵥ, fᵥ, lₒ, jₒ], t2_abab [aᵥ, dᵥ, mₒ, kₒ], t2_abab [cᵥ, bᵥ, iₒ, nₒ]], [(1, [aᵥ, bᵥ, iₒ, jₒ])]⟩,
  -- line 2845: mnfe,lkcd,felj,admk,cbin->abij
  ⟨-1/2, [g_abab [mₒ, nₒ, fᵥ, eᵥ], l2_abab [lₒ, kₒ, cᵥ, dᵥ], t2_abab [fᵥ, eᵥ, lₒ, jₒ], t2_abab [aᵥ, dᵥ, mₒ, kₒ], t2_abab [cᵥ, bᵥ, iₒ, nₒ]], [(1, [aᵥ, bᵥ, iₒ, jₒ])]⟩,
  -- line 2848: nmef,kldc,efil,dakm,cbnj->abij
  ⟨-1/2, [g_aaaa [nₒ, mₒ, eᵥ, fᵥ], l2_aaaa [kₒ, lₒ, dᵥ, cᵥ], t2_aaaa [eᵥ, fᵥ, iₒ, lₒ], t2_aaaa [dᵥ, aᵥ, kₒ, mₒ], t2_abab [cᵥ, bᵥ, nₒ, jₒ]], [(1, [aᵥ, bᵥ, iₒ, jₒ])]⟩,
  -- line 2851: mnef,kldc,efil,dakm,cbjn->abij
  ⟨-1/2, [g_abab [mₒ, nₒ, eᵥ, fᵥ], l2_abab [kₒ, lₒ, dᵥ, cᵥ], t2_abab [eᵥ, fᵥ, iₒ, lₒ], t2_aaaa [dᵥ, aᵥ, kₒ, mₒ], t2_bbbb [cᵥ, bᵥ, jₒ, nₒ]], [(1, [aᵥ, bᵥ, iₒ, jₒ])]⟩,
  -- line 2854: mnfe,kldc,feil,dakm,cbjn->abij
  ⟨-1/2, [g_abab [mₒ, nₒ, fᵥ, eᵥ], l2_abab [kₒ, lₒ, dᵥ, cᵥ], t2_abab [fᵥ, eᵥ, iₒ, lₒ], t2_aaaa [dᵥ, aᵥ, kₒ, mₒ], t2_bbbb [cᵥ, bᵥ, jₒ, nₒ]], [(1, [aᵥ, bᵥ, iₒ, jₒ])]⟩,
  -- line 2857: nmef,klcd,efil,adkm,cbnj->abij
  ⟨-1/2, [g_abab [nₒ, mₒ, eᵥ, fᵥ], l2_abab [kₒ, lₒ, cᵥ, dᵥ], t2_abab [eᵥ, fᵥ, iₒ, lₒ], t2_abab [aᵥ, dᵥ, kₒ, mₒ], t2_abab [cᵥ, bᵥ, nₒ, jₒ]], [(1, [aᵥ, bᵥ, iₒ, jₒ])]⟩,
  -- line 2860: nmfe,klcd,feil,adkm,cbnj->abij
  ⟨-1/2, [g_abab [nₒ, mₒ, fᵥ, eᵥ], l2_abab [kₒ, lₒ, cᵥ, dᵥ], t2_abab [fᵥ, eᵥ, iₒ, lₒ], t2_abab [aᵥ, dᵥ, kₒ, mₒ], t2_abab [cᵥ, bᵥ, nₒ, jₒ]], [(1, [aᵥ, bᵥ, iₒ, jₒ])]⟩,
  -- line 2863: nmef,lkcd,efil,admk,cbnj->abij
  ⟨-1/2, [g_aaaa [nₒ, mₒ, eᵥ, fᵥ], l2_abab [lₒ, kₒ, cᵥ, dᵥ], t2_aaaa [eᵥ, fᵥ, iₒ, lₒ], t2_abab [aᵥ, dᵥ, mₒ, kₒ], t2_abab [cᵥ, bᵥ, nₒ, jₒ]], [(1, [aᵥ, bᵥ, iₒ, jₒ])]⟩,
  -- line 2866: mnef,kldc,efil,admk,cbjn->abij
  ⟨-1/2, [g_abab [mₒ, nₒ, eᵥ, fᵥ], l2_bbbb [kₒ, lₒ, dᵥ, cᵥ], t2_abab [eᵥ, fᵥ, iₒ, lₒ], t2_abab [aᵥ, dᵥ, mₒ, kₒ], t2_bbbb [cᵥ, bᵥ, jₒ, nₒ]], [(1, [aᵥ, bᵥ, iₒ, jₒ])]⟩,
  -- line 2869: mnfe,kldc,feil,admk,cbjn->abij
  ⟨-1/2, [g_abab [mₒ, nₒ, fᵥ, eᵥ], l2_bbbb [kₒ, lₒ, dᵥ, cᵥ], t2_abab [fᵥ, eᵥ, iₒ, lₒ], t2_abab [aᵥ, dᵥ, mₒ, kₒ], t2_bbbb [cᵥ, bᵥ, jₒ, nₒ]], [(1, [aᵥ, bᵥ, iₒ, jₒ])]⟩,
  -- line 2872: mnef,kldc,eflj,daim,cbkn->abij
  ⟨1/2, [g_abab [mₒ, nₒ, eᵥ, fᵥ], l2_aaaa [kₒ, lₒ, dᵥ, cᵥ], t2_abab [eᵥ, fᵥ, lₒ, jₒ], t2_aaaa [dᵥ, aᵥ, iₒ, mₒ], t2_abab [cᵥ, bᵥ, kₒ, nₒ]], [(1, [aᵥ, bᵥ, iₒ, jₒ])]⟩
  ]

/-- Part 2 of `residQf2_abab`. -/
def residQf2_abab_2 : Prog := [
  -- line 2875: mnfe,kldc,felj,daim,cbkn->abij
  ⟨1/2, [g_abab [mₒ, nₒ, fᵥ, eᵥ], l2_aaaa [kₒ, lₒ, dᵥ, cᵥ], t2_abab [fᵥ, eᵥ, lₒ, jₒ], t2_aaaa [dᵥ, aᵥ, iₒ, mₒ], t2_abab [cᵥ, bᵥ, kₒ, nₒ]], [(1, [aᵥ, bᵥ, iₒ, jₒ])]⟩,
  -- line 2878: nmef,klcd,efjl,adim,cbkn->abij
  ⟨1/2, [g_bbbb [nₒ, mₒ, eᵥ, fᵥ], l2_abab [kₒ, lₒ, cᵥ, dᵥ], t2_bbbb [eᵥ, fᵥ, jₒ, lₒ], t2_abab [aᵥ, dᵥ, iₒ, mₒ], t2_abab [cᵥ, bᵥ, kₒ, nₒ]], [(1, [aᵥ, bᵥ, iₒ, jₒ])]⟩,
  -- line 2881: mnef,lkdc,eflj,daim,cbkn->abij
  ⟨-1/2, [g_abab [mₒ, nₒ, eᵥ, fᵥ], l2_abab [lₒ, kₒ, dᵥ, cᵥ], t2_abab [eᵥ, fᵥ, lₒ, jₒ], t2_aaaa [dᵥ, aᵥ, iₒ, mₒ], t2_bbbb [cᵥ, bᵥ, kₒ, nₒ]], [(1, [aᵥ, bᵥ, iₒ, jₒ])]⟩,
  -- line 2884: mnfe,lkdc,felj,daim,cbkn->abij
  ⟨-1/2, [g_abab [mₒ, nₒ, fᵥ, eᵥ], l2_abab [lₒ, kₒ, dᵥ, cᵥ], t2_abab [fᵥ, eᵥ, lₒ, jₒ], t2_aaaa [dᵥ, aᵥ, iₒ, mₒ], t2_bbbb [cᵥ, bᵥ, kₒ, nₒ]], [(1, [aᵥ, bᵥ, iₒ, jₒ])]⟩,
  -- line 2887: nmef,lkcd,eflj,adim,cbnk->abij
  ⟨-1/2, [g_abab [nₒ, mₒ, eᵥ, fᵥ], l2_abab [lₒ, kₒ, cᵥ, dᵥ], t2_abab [eᵥ, fᵥ, lₒ, jₒ], t2_abab [aᵥ, dᵥ, iₒ, mₒ], t2_abab [cᵥ, bᵥ, nₒ, kₒ]], [(1, [aᵥ, bᵥ, iₒ, jₒ])]⟩,
  -- line 2890: nmfe,lkcd,felj,adim,cbnk->abij
  ⟨-1/2, [g_abab [nₒ, mₒ, fᵥ, eᵥ], l2_abab [lₒ, kₒ, cᵥ, dᵥ], t2_abab [fᵥ, eᵥ, lₒ, jₒ], t2_abab [aᵥ, dᵥ, iₒ, mₒ], t2_abab [cᵥ, bᵥ, nₒ, kₒ]], [(1, [aᵥ, bᵥ, iₒ, jₒ])]⟩,
  -- line 2893: nmef,kldc,efjl,adim,cbkn->abij
  ⟨-1/2, [g_bbbb [nₒ, mₒ, eᵥ, fᵥ], l2_bbbb [kₒ, lₒ, dᵥ, cᵥ], t2_bbbb [eᵥ, fᵥ, jₒ, lₒ], t2_abab [aᵥ, dᵥ, iₒ, mₒ], t2_bbbb [cᵥ, bᵥ, kₒ, nₒ]], [(1, [aᵥ, bᵥ, iₒ, jₒ])]⟩,
  -- line 2896: mnef,klcd,efil,admj,cbkn->abij
  ⟨-1/2, [g_abab [mₒ, nₒ, eᵥ, fᵥ], l2_abab [kₒ, lₒ, cᵥ, dᵥ], t2_abab [eᵥ, fᵥ, iₒ, lₒ], t2_abab [aᵥ, dᵥ, mₒ, jₒ], t2_abab [cᵥ, bᵥ, kₒ, nₒ]], [(1, [aᵥ, bᵥ, iₒ, jₒ])]⟩,
  -- line 2899: mnfe,klcd,feil,admj,cbkn->abij
  ⟨-1/2, [g_abab [mₒ, nₒ, fᵥ, eᵥ], l2_abab [kₒ, lₒ, cᵥ, dᵥ], t2_abab [fᵥ, eᵥ, iₒ, lₒ], t2_abab [aᵥ, dᵥ, mₒ, jₒ], t2_abab [cᵥ, bᵥ, kₒ, nₒ]], [(1, [aᵥ, bᵥ, iₒ, jₒ])]⟩,
  -- line 2902: nmef,lkcd,efil,admj,cbnk->abij
  ⟨1/2, [g_aaaa [nₒ, mₒ, eᵥ, fᵥ], l2_abab [lₒ, kₒ, cᵥ, dᵥ], t2_aaaa [eᵥ, fᵥ, iₒ, lₒ], t2_abab [aᵥ, dᵥ, mₒ, jₒ], t2_abab [cᵥ, bᵥ, nₒ, kₒ]], [(1, [aᵥ, bᵥ, iₒ, jₒ])]⟩,
  -- line 2905: mnef,kldc,efil,admj,cbkn->abij
  ⟨1/2, [g_abab [mₒ, nₒ, eᵥ, fᵥ], l2_bbbb [kₒ, lₒ, dᵥ, cᵥ], t2_abab [eᵥ, fᵥ, iₒ, lₒ], t2_abab [aᵥ, dᵥ, mₒ, jₒ], t2_bbbb [cᵥ, bᵥ, kₒ, nₒ]], [(1, [aᵥ, bᵥ, iₒ, jₒ])]⟩,
  -- line 2908: mnfe,kldc,feil,admj,cbkn->abij
  ⟨1/2, [g_abab [mₒ, nₒ, fᵥ, eᵥ], l2_bbbb [kₒ, lₒ, dᵥ, cᵥ], t2_abab [fᵥ, eᵥ, iₒ, lₒ], t2_abab [aᵥ, dᵥ, mₒ, jₒ], t2_bbbb [cᵥ, bᵥ, kₒ, nₒ]], [(1, [aᵥ, bᵥ, iₒ, jₒ])]⟩,
  -- line 2911: mnef,kldc,efij,dclm,abkn->abij
  ⟨1/4, [g_abab [mₒ, nₒ, eᵥ, fᵥ], l2_aaaa [kₒ, lₒ, dᵥ, cᵥ], t2_abab [eᵥ, fᵥ, iₒ, jₒ], t2_aaaa [dᵥ, cᵥ, lₒ, mₒ], t2_abab [aᵥ, bᵥ, kₒ, nₒ]], [(1, [aᵥ, bᵥ, iₒ, jₒ])]⟩,
  -- line 2914: mnfe,kldc,feij,dclm,abkn->abij
  ⟨1/4, [g_abab [mₒ, nₒ, fᵥ, eᵥ], l2_aaaa [kₒ, lₒ, dᵥ, cᵥ], t2_abab [fᵥ, eᵥ, iₒ, jₒ], t2_aaaa [dᵥ, cᵥ, lₒ, mₒ], t2_abab [aᵥ, bᵥ, kₒ, nₒ]], [(1, [aᵥ, bᵥ, iₒ, jₒ])]⟩,
  -- line 2917: mnef,kldc,efij,dcml,abkn->abij
  ⟨-1/4, [g_abab [mₒ, nₒ, eᵥ, fᵥ], l2_abab [kₒ, lₒ, dᵥ, cᵥ], t2_abab [eᵥ, fᵥ, iₒ, jₒ], t2_abab [dᵥ, cᵥ, mₒ, lₒ], t2_abab [aᵥ, bᵥ, kₒ, nₒ]], [(1, [aᵥ, bᵥ, iₒ, jₒ])]⟩,
  -- line 2920: mnfe,kldc,feij,dcml,abkn->abij
  ⟨-1/4, [g_abab [mₒ, nₒ, fᵥ, eᵥ], l2_abab [kₒ, lₒ, dᵥ, cᵥ], t2_abab [fᵥ, eᵥ, iₒ, jₒ], t2_abab [dᵥ, cᵥ, mₒ, lₒ], t2_abab [aᵥ, bᵥ, kₒ, nₒ]], [(1, [aᵥ, bᵥ, iₒ, jₒ])]⟩,
  -- line 2923: mnef,klcd,efij,cdml,abkn->abij
  ⟨-1/4, [g_abab [mₒ, nₒ, eᵥ, fᵥ], l2_abab [kₒ, lₒ, cᵥ, dᵥ], t2_abab [eᵥ, fᵥ, iₒ, jₒ], t2_abab [cᵥ, dᵥ, mₒ, lₒ], t2_abab [aᵥ, bᵥ, kₒ, nₒ]], [(1, [aᵥ, bᵥ, iₒ, jₒ])]⟩,
  -- line 2926: mnfe,klcd,feij,cdml,abkn->abij
  ⟨-1/4, [g_abab [mₒ, nₒ, fᵥ, eᵥ], l2_abab [kₒ, lₒ, cᵥ, dᵥ], t2_abab [fᵥ, eᵥ, iₒ, jₒ], t2_abab [cᵥ, dᵥ, mₒ, lₒ], t2_abab [aᵥ, bᵥ, kₒ, nₒ]], [(1, [aᵥ, bᵥ, iₒ, jₒ])]⟩,
  -- line 2929: nmef,lkdc,efij,dclm,abnk->abij
  ⟨-1/4, [g_abab [nₒ, mₒ, eᵥ, fᵥ], l2_abab [lₒ, kₒ, dᵥ, cᵥ], t2_abab [eᵥ, fᵥ, iₒ, jₒ], t2_abab [dᵥ, cᵥ, lₒ, mₒ], t2_abab [aᵥ, bᵥ, nₒ, kₒ]], [(1, [aᵥ, bᵥ, iₒ, jₒ])]⟩,
  -- line 2932: nmfe,lkdc,feij,dclm,abnk->abij
  ⟨-1/4, [g_abab [nₒ, mₒ, fᵥ, eᵥ], l2_abab [lₒ, kₒ, dᵥ, cᵥ], t2_abab [fᵥ, eᵥ, iₒ, jₒ], t2_abab [dᵥ, cᵥ, lₒ, mₒ], t2_abab [aᵥ, bᵥ, nₒ, kₒ]], [(1, [aᵥ, bᵥ, iₒ, jₒ])]⟩,
  -- line 2935: nmef,lkcd,efij,cdlm,abnk->abij
  ⟨-1/4, [g_abab [nₒ, mₒ, eᵥ, fᵥ], l2_abab [lₒ, kₒ, cᵥ, dᵥ], t2_abab [eᵥ, fᵥ, iₒ, jₒ], t2_abab [cᵥ, dᵥ, lₒ, mₒ], t2_abab [aᵥ, bᵥ, nₒ, kₒ]], [(1, [aᵥ, bᵥ, iₒ, jₒ])]⟩,
  -- line 2938: nmfe,lkcd,feij,cdlm,abnk->abij
  ⟨-1/4, [g_abab [nₒ, mₒ, fᵥ, eᵥ], l2_abab [lₒ, kₒ, cᵥ, dᵥ], t2_abab [fᵥ, eᵥ, iₒ, jₒ], t2_abab [cᵥ, dᵥ, lₒ, mₒ], t2_abab [aᵥ, bᵥ, nₒ, kₒ]], [(1, [aᵥ, bᵥ, iₒ, jₒ])]⟩,
  -- line 2941: nmef,kldc,efij,dclm,abnk->abij
  ⟨1/4, [g_abab [nₒ, mₒ, eᵥ, fᵥ], l2_bbbb [kₒ, lₒ, dᵥ, cᵥ], t2_abab [eᵥ, fᵥ, iₒ, jₒ], t2_bbbb [dᵥ, cᵥ, lₒ, mₒ], t2_abab [aᵥ, bᵥ, nₒ, kₒ]], [(1, [aᵥ, bᵥ, iₒ, jₒ])]⟩,
  -- line 2944: nmfe,kldc,feij,dclm,abnk->abij
  ⟨1/4, [g_abab [nₒ, mₒ, fᵥ, eᵥ], l2_bbbb [kₒ, lₒ, dᵥ, cᵥ], t2_abab [fᵥ, eᵥ, iₒ, jₒ], t2_bbbb [dᵥ, cᵥ, lₒ, mₒ], t2_abab [aᵥ, bᵥ, nₒ, kₒ]], [(1, [aᵥ, bᵥ, iₒ, jₒ])]⟩,
  -- line 2947: mnef,kldc,efij,dalm,cbkn->abij
  ⟨-1/4, [g_abab [mₒ, nₒ, eᵥ, fᵥ], l2_aaaa [kₒ, lₒ, dᵥ, cᵥ], t2_abab [eᵥ, fᵥ, iₒ, jₒ], t2_aaaa [dᵥ, aᵥ, lₒ, mₒ], t2_abab [cᵥ, bᵥ, kₒ, nₒ]], [(1, [aᵥ, bᵥ, iₒ, jₒ])]⟩,
  -- line 2950: mnfe,kldc,feij,dalm,cbkn->abij
  ⟨-1/4, [g_abab [mₒ, nₒ, fᵥ, eᵥ], l2_aaaa [kₒ, lₒ, dᵥ, cᵥ], t2_abab [fᵥ, eᵥ, iₒ, jₒ], t2_aaaa [dᵥ, aᵥ, lₒ, mₒ], t2_abab [cᵥ, bᵥ, kₒ, nₒ]], [(1, [aᵥ, bᵥ, iₒ, jₒ])]⟩,
  -- line 2953: mnef,klcd,efij,adml,cbkn->abij
  ⟨1/4, [g_abab [mₒ, nₒ, eᵥ, fᵥ], l2_abab [kₒ, lₒ, cᵥ, dᵥ], t2_abab [eᵥ, fᵥ, iₒ, jₒ], t2_abab [aᵥ, dᵥ, mₒ, lₒ], t2_abab [cᵥ, bᵥ, kₒ, nₒ]], [(1, [aᵥ, bᵥ, iₒ, jₒ])]⟩,
  -- line 2956: mnfe,klcd,feij,adml,cbkn->abij
  ⟨1/4, [g_abab [mₒ, nₒ, fᵥ, eᵥ], l2_abab [kₒ, lₒ, cᵥ, dᵥ], t2_abab [fᵥ, eᵥ, iₒ, jₒ], t2_abab [aᵥ, dᵥ, mₒ, lₒ], t2_abab [cᵥ, bᵥ, kₒ, nₒ]], [(1, [aᵥ, bᵥ, iₒ, jₒ])]⟩,
  -- line 2959: mnef,lkdc,efij,dalm,cbkn->abij
  ⟨1/4, [g_abab [mₒ, nₒ, eᵥ, fᵥ], l2_abab [lₒ, kₒ, dᵥ, cᵥ], t2_abab [eᵥ, fᵥ, iₒ, jₒ], t2_aaaa [dᵥ, aᵥ, lₒ, mₒ], t2_bbbb [cᵥ, bᵥ, kₒ, nₒ]], [(1, [aᵥ, bᵥ, iₒ, jₒ])]⟩,
  -- line 2962: mnfe,lkdc,feij,dalm,cbkn->abij
  ⟨1/4, [g_abab [mₒ, nₒ, fᵥ, eᵥ], l2_abab [lₒ, kₒ, dᵥ, cᵥ], t2_abab [fᵥ, eᵥ, iₒ, jₒ], t2_aaaa [dᵥ, aᵥ, lₒ, mₒ], t2_bbbb [cᵥ, bᵥ, kₒ, nₒ]], [(1, [aᵥ, bᵥ, iₒ, jₒ])]⟩,
  -- line 2965: nmef,lkcd,efij,adlm,cbnk->abij
  ⟨1/4, [g_abab [nₒ, mₒ, eᵥ, fᵥ], l2_abab [lₒ, kₒ, cᵥ, dᵥ], t2_abab [eᵥ, fᵥ, iₒ, jₒ], t2_abab [aᵥ, dᵥ, lₒ, mₒ], t2_abab [cᵥ, bᵥ, nₒ, kₒ]], [(1, [aᵥ, bᵥ, iₒ, jₒ])]⟩,
  -- line 2968: nmfe,lkcd,feij,adlm,cbnk->abij
  ⟨1/4, [g_abab [nₒ, mₒ, fᵥ, eᵥ], l2_abab [lₒ, kₒ, cᵥ, dᵥ], t2_abab [fᵥ, eᵥ, iₒ, jₒ], t2_abab [aᵥ, dᵥ, lₒ, mₒ], t2_abab [cᵥ, bᵥ, nₒ, kₒ]], [(1, [aᵥ, bᵥ, iₒ, jₒ])]⟩,
  -- line 2971: mnef,kldc,efij,adml,cbkn->abij
  ⟨-1/4, [g_abab [mₒ, nₒ, eᵥ, fᵥ], l2_bbbb [kₒ, lₒ, dᵥ, cᵥ], t2_abab [eᵥ, fᵥ, iₒ, jₒ], t2_abab [aᵥ, dᵥ, mₒ, lₒ], t2_bbbb [cᵥ, bᵥ, kₒ, nₒ]], [(1, [aᵥ, bᵥ, iₒ, jₒ])]⟩,
  -- line 2974: mnfe,kldc,feij,adml,cbkn->abij
  ⟨-1/4, [g_abab [mₒ, nₒ, fᵥ, eᵥ], l2_bbbb [kₒ, lₒ, dᵥ, cᵥ], t2_abab [fᵥ, eᵥ, iₒ, jₒ], t2_abab [aᵥ, dᵥ, mₒ, lₒ], t2_bbbb [cᵥ, bᵥ, kₒ, nₒ]], [(1, [aᵥ, bᵥ, iₒ, jₒ])]⟩,
  -- line 2977: nmef,kldc,efij,dblm,cakn->abij
  ⟨-1/4, [g_abab [nₒ, mₒ, eᵥ, fᵥ], l2_aaaa [kₒ, lₒ, dᵥ, cᵥ], t2_abab [eᵥ, fᵥ, iₒ, jₒ], t2_abab [dᵥ, bᵥ, lₒ, mₒ], t2_aaaa [cᵥ, aᵥ, kₒ, nₒ]], [(1, [aᵥ, bᵥ, iₒ, jₒ])]⟩,
  -- line 2980: nmfe,kldc,feij,dblm,cakn->abij
  ⟨-1/4, [g_abab [nₒ, mₒ, fᵥ, eᵥ], l2_aaaa [kₒ, lₒ, dᵥ, cᵥ], t2_abab [fᵥ, eᵥ, iₒ, jₒ], t2_abab [dᵥ, bᵥ, lₒ, mₒ], t2_aaaa [cᵥ, aᵥ, kₒ, nₒ]], [(1, [aᵥ, bᵥ, iₒ, jₒ])]⟩,
  -- line 2983: mnef,kldc,efij,dbml,ackn->abij
  ⟨1/4, [g_abab [mₒ, nₒ, eᵥ, fᵥ], l2_abab [kₒ, lₒ, dᵥ, cᵥ], t2_abab [eᵥ, fᵥ, iₒ, jₒ], t2_abab [dᵥ, bᵥ, mₒ, lₒ], t2_abab [aᵥ, cᵥ, kₒ, nₒ]], [(1, [aᵥ, bᵥ, iₒ, jₒ])]⟩,
  -- line 2986: mnfe,kldc,feij,dbml,ackn->abij
  ⟨1/4, [g_abab [mₒ, nₒ, fᵥ, eᵥ], l2_abab [kₒ, lₒ, dᵥ, cᵥ], t2_abab [fᵥ, eᵥ, iₒ, jₒ], t2_abab [dᵥ, bᵥ, mₒ, lₒ], t2_abab [aᵥ, cᵥ, kₒ, nₒ]], [(1, [aᵥ, bᵥ, iₒ, jₒ])]⟩,
  -- line 2989: nmef,klcd,efij,dblm,cakn->abij
  ⟨1/4, [g_abab [nₒ, mₒ, eᵥ, fᵥ], l2_abab [kₒ, lₒ, cᵥ, dᵥ], t2_abab [eᵥ, fᵥ, iₒ, jₒ], t2_bbbb [dᵥ, bᵥ, lₒ, mₒ], t2_aaaa [cᵥ, aᵥ, kₒ, nₒ]], [(1, [aᵥ, bᵥ, iₒ, jₒ])]⟩,
  -- line 2992: nmfe,klcd,feij,dblm,cakn->abij
  ⟨1/4, [g_abab [nₒ, mₒ, fᵥ, eᵥ], l2_abab [kₒ, lₒ, cᵥ, dᵥ], t2_abab [fᵥ, eᵥ, iₒ, jₒ], t2_bbbb [dᵥ, bᵥ, lₒ, mₒ], t2_aaaa [cᵥ, aᵥ, kₒ, nₒ]], [(1, [aᵥ, bᵥ, iₒ, jₒ])]⟩
  ]

/-- Part 3 of `residQf2_abab`. -/
def residQf2_abab_3 : Prog := [
  -- line 2995: nmef,lkdc,efij,dblm,acnk->abij
  ⟨1/4, [g_abab [nₒ, mₒ, eᵥ, fᵥ], l2_abab [lₒ, kₒ, dᵥ, cᵥ], t2_abab [eᵥ, fᵥ, iₒ, jₒ], t2_abab [dᵥ, bᵥ, lₒ, mₒ], t2_abab [aᵥ, cᵥ, nₒ, kₒ]], [(1, [aᵥ, bᵥ, iₒ, jₒ])]⟩,
  -- line 2998: nmfe,lkdc,feij,dblm,acnk->abij
  ⟨1/4, [g_abab [nₒ, mₒ, fᵥ, eᵥ], l2_abab [lₒ, kₒ, dᵥ, cᵥ], t2_abab [fᵥ, eᵥ, iₒ, jₒ], t2_abab [dᵥ, bᵥ, lₒ, mₒ], t2_abab [aᵥ, cᵥ, nₒ, kₒ]], [(1, [aᵥ, bᵥ, iₒ, jₒ])]⟩,
  -- line 3001: nmef,kldc,efij,dblm,acnk->abij
  ⟨-1/4, [g_abab [nₒ, mₒ, eᵥ, fᵥ], l2_bbbb [kₒ, lₒ, dᵥ, cᵥ], t2_abab [eᵥ, fᵥ, iₒ, jₒ], t2_bbbb [dᵥ, bᵥ, lₒ, mₒ], t2_abab [aᵥ, cᵥ, nₒ, kₒ]], [(1, [aᵥ, bᵥ, iₒ, jₒ])]⟩,
  -- line 3004: nmfe,kldc,feij,dblm,acnk->abij
  ⟨-1/4, [g_abab [nₒ, mₒ, fᵥ, eᵥ], l2_bbbb [kₒ, lₒ, dᵥ, cᵥ], t2_abab [fᵥ, eᵥ, iₒ, jₒ], t2_bbbb [dᵥ, bᵥ, lₒ, mₒ], t2_abab [aᵥ, cᵥ, nₒ, kₒ]], [(1, [aᵥ, bᵥ, iₒ, jₒ])]⟩,
  -- line 3007: mnef,kldc,edlm,cfkj,abin->abij
  ⟨-1/2, [g_abab [mₒ, nₒ, eᵥ, fᵥ], l2_aaaa [kₒ, lₒ, dᵥ, cᵥ], t2_aaaa [eᵥ, dᵥ, lₒ, mₒ], t2_abab [cᵥ, fᵥ, kₒ, jₒ], t2_abab [aᵥ, bᵥ, iₒ, nₒ]], [(1, [aᵥ, bᵥ, iₒ, jₒ])]⟩,
  -- line 3010: nmef,kldc,delm,cfkj,abin->abij
  ⟨-1/2, [g_bbbb [nₒ, mₒ, eᵥ, fᵥ], l2_aaaa [kₒ, lₒ, dᵥ, cᵥ], t2_abab [dᵥ, eᵥ, lₒ, mₒ], t2_abab [cᵥ, fᵥ, kₒ, jₒ], t2_abab [aᵥ, bᵥ, iₒ, nₒ]], [(1, [aᵥ, bᵥ, iₒ, jₒ])]⟩,
  -- line 3013: mnfe,kldc,deml,fckj,abin->abij
  ⟨-1/2, [g_abab [mₒ, nₒ, fᵥ, eᵥ], l2_abab [kₒ, lₒ, dᵥ, cᵥ], t2_abab [dᵥ, eᵥ, mₒ, lₒ], t2_abab [fᵥ, cᵥ, kₒ, jₒ], t2_abab [aᵥ, bᵥ, iₒ, nₒ]], [(1, [aᵥ, bᵥ, iₒ, jₒ])]⟩,
  -- line 3016: mnef,klcd,edml,cfkj,abin->abij
  ⟨-1/2, [g_abab [mₒ, nₒ, eᵥ, fᵥ], l2_abab [kₒ, lₒ, cᵥ, dᵥ], t2_abab [eᵥ, dᵥ, mₒ, lₒ], t2_abab [cᵥ, fᵥ, kₒ, jₒ], t2_abab [aᵥ, bᵥ, iₒ, nₒ]], [(1, [aᵥ, bᵥ, iₒ, jₒ])]⟩,
  -- line 3019: nmef,klcd,edlm,cfkj,abin->abij
  ⟨-1/2, [g_bbbb [nₒ, mₒ, eᵥ, fᵥ], l2_abab [kₒ, lₒ, cᵥ, dᵥ], t2_bbbb [eᵥ, dᵥ, lₒ, mₒ], t2_abab [cᵥ, fᵥ, kₒ, jₒ], t2_abab [aᵥ, bᵥ, iₒ, nₒ]], [(1, [aᵥ, bᵥ, iₒ, jₒ])]⟩,
  -- line 3022: mnef,lkdc,edlm,fcjk,abin->abij
  ⟨1/2, [g_abab [mₒ, nₒ, eᵥ, fᵥ], l2_abab [lₒ, kₒ, dᵥ, cᵥ], t2_aaaa [eᵥ, dᵥ, lₒ, mₒ], t2_bbbb [fᵥ, cᵥ, jₒ, kₒ], t2_abab [aᵥ, bᵥ, iₒ, nₒ]], [(1, [aᵥ, bᵥ, iₒ, jₒ])]⟩,
  -- line 3025: nmef,lkdc,delm,fcjk,abin->abij
  ⟨1/2, [g_bbbb [nₒ, mₒ, eᵥ, fᵥ], l2_abab [lₒ, kₒ, dᵥ, cᵥ], t2_abab [dᵥ, eᵥ, lₒ, mₒ], t2_bbbb [fᵥ, cᵥ, jₒ, kₒ], t2_abab [aᵥ, bᵥ, iₒ, nₒ]], [(1, [aᵥ, bᵥ, iₒ, jₒ])]⟩,
  -- line 3028: mnef,kldc,edml,fcjk,abin->abij
  ⟨1/2, [g_abab [mₒ, nₒ, eᵥ, fᵥ], l2_bbbb [kₒ, lₒ, dᵥ, cᵥ], t2_abab [eᵥ, dᵥ, mₒ, lₒ], t2_bbbb [fᵥ, cᵥ, jₒ, kₒ], t2_abab [aᵥ, bᵥ, iₒ, nₒ]], [(1, [aᵥ, bᵥ, iₒ, jₒ])]⟩,
  -- line 3031: nmef,kldc,edlm,fcjk,abin->abij
  ⟨1/2, [g_bbbb [nₒ, mₒ, eᵥ, fᵥ], l2_bbbb [kₒ, lₒ, dᵥ, cᵥ], t2_bbbb [eᵥ, dᵥ, lₒ, mₒ], t2_bbbb [fᵥ, cᵥ, jₒ, kₒ], t2_abab [aᵥ, bᵥ, iₒ, nₒ]], [(1, [aᵥ, bᵥ, iₒ, jₒ])]⟩,
  -- line 3034: nmef,kldc,edlm,fcik,abnj->abij
  ⟨1/2, [g_aaaa [nₒ, mₒ, eᵥ, fᵥ], l2_aaaa [kₒ, lₒ, dᵥ, cᵥ], t2_aaaa [eᵥ, dᵥ, lₒ, mₒ], t2_aaaa [fᵥ, cᵥ, iₒ, kₒ], t2_abab [aᵥ, bᵥ, nₒ, jₒ]], [(1, [aᵥ, bᵥ, iₒ, jₒ])]⟩,
  -- line 3037: nmfe,kldc,delm,fcik,abnj->abij
  ⟨1/2, [g_abab [nₒ, mₒ, fᵥ, eᵥ], l2_aaaa [kₒ, lₒ, dᵥ, cᵥ], t2_abab [dᵥ, eᵥ, lₒ, mₒ], t2_aaaa [fᵥ, cᵥ, iₒ, kₒ], t2_abab [aᵥ, bᵥ, nₒ, jₒ]], [(1, [aᵥ, bᵥ, iₒ, jₒ])]⟩,
  -- line 3040: nmef,klcd,edml,fcik,abnj->abij
  ⟨1/2, [g_aaaa [nₒ, mₒ, eᵥ, fᵥ], l2_abab [kₒ, lₒ, cᵥ, dᵥ], t2_abab [eᵥ, dᵥ, mₒ, lₒ], t2_aaaa [fᵥ, cᵥ, iₒ, kₒ], t2_abab [aᵥ, bᵥ, nₒ, jₒ]], [(1, [aᵥ, bᵥ, iₒ, jₒ])]⟩,
  -- line 3043: nmfe,klcd,edlm,fcik,abnj->abij
  ⟨1/2, [g_abab [nₒ, mₒ, fᵥ, eᵥ], l2_abab [kₒ, lₒ, cᵥ, dᵥ], t2_bbbb [eᵥ, dᵥ, lₒ, mₒ], t2_aaaa [fᵥ, cᵥ, iₒ, kₒ], t2_abab [aᵥ, bᵥ, nₒ, jₒ]], [(1, [aᵥ, bᵥ, iₒ, jₒ])]⟩,
  -- line 3046: nmef,lkdc,edlm,fcik,abnj->abij
  ⟨-1/2, [g_aaaa [nₒ, mₒ, eᵥ, fᵥ], l2_abab [lₒ, kₒ, dᵥ, cᵥ], t2_aaaa [eᵥ, dᵥ, lₒ, mₒ], t2_abab [fᵥ, cᵥ, iₒ, kₒ], t2_abab [aᵥ, bᵥ, nₒ, jₒ]], [(1, [aᵥ, bᵥ, iₒ, jₒ])]⟩,
  -- line 3049: nmfe,lkdc,delm,fcik,abnj->abij
  ⟨-1/2, [g_abab [nₒ, mₒ, fᵥ, eᵥ], l2_abab [lₒ, kₒ, dᵥ, cᵥ], t2_abab [dᵥ, eᵥ, lₒ, mₒ], t2_abab [fᵥ, cᵥ, iₒ, kₒ], t2_abab [aᵥ, bᵥ, nₒ, jₒ]], [(1, [aᵥ, bᵥ, iₒ, jₒ])]⟩,
  -- line 3052: nmef,lkcd,edlm,cfik,abnj->abij
  ⟨-1/2, [g_abab [nₒ, mₒ, eᵥ, fᵥ], l2_abab [lₒ, kₒ, cᵥ, dᵥ], t2_abab [eᵥ, dᵥ, lₒ, mₒ], t2_abab [cᵥ, fᵥ, iₒ, kₒ], t2_abab [aᵥ, bᵥ, nₒ, jₒ]], [(1, [aᵥ, bᵥ, iₒ, jₒ])]⟩,
  -- line 3055: nmef,kldc,edml,fcik,abnj->abij
  ⟨-1/2, [g_aaaa [nₒ, mₒ, eᵥ, fᵥ], l2_bbbb [kₒ, lₒ, dᵥ, cᵥ], t2_abab [eᵥ, dᵥ, mₒ, lₒ], t2_abab [fᵥ, cᵥ, iₒ, kₒ], t2_abab [aᵥ, bᵥ, nₒ, jₒ]], [(1, [aᵥ, bᵥ, iₒ, jₒ])]⟩,
  -- line 3058: nmfe,kldc,edlm,fcik,abnj->abij
  ⟨-1/2, [g_abab [nₒ, mₒ, fᵥ, eᵥ], l2_bbbb [kₒ, lₒ, dᵥ, cᵥ], t2_bbbb [eᵥ, dᵥ, lₒ, mₒ], t2_abab [fᵥ, cᵥ, iₒ, kₒ], t2_abab [aᵥ, bᵥ, nₒ, jₒ]], [(1, [aᵥ, bᵥ, iₒ, jₒ])]⟩,
  -- line 3061: mnef,kldc,edlm,cfij,abkn->abij
  ⟨1, [g_abab [mₒ, nₒ, eᵥ, fᵥ], l2_aaaa [kₒ, lₒ, dᵥ, cᵥ], t2_aaaa [eᵥ, dᵥ, lₒ, mₒ], t2_abab [cᵥ, fᵥ, iₒ, jₒ], t2_abab [aᵥ, bᵥ, kₒ, nₒ]], [(1, [aᵥ, bᵥ, iₒ, jₒ])]⟩,
  -- line 3064: nmef,kldc,delm,cfij,abkn->abij
  ⟨1, [g_bbbb [nₒ, mₒ, eᵥ, fᵥ], l2_aaaa [kₒ, lₒ, dᵥ, cᵥ], t2_abab [dᵥ, eᵥ, lₒ, mₒ], t2_abab [cᵥ, fᵥ, iₒ, jₒ], t2_abab [aᵥ, bᵥ, kₒ, nₒ]], [(1, [aᵥ, bᵥ, iₒ, jₒ])]⟩,
  -- line 3067: mnfe,kldc,deml,fcij,abkn->abij
  ⟨1, [g_abab [mₒ, nₒ, fᵥ, eᵥ], l2_abab [kₒ, lₒ, dᵥ, cᵥ], t2_abab [dᵥ, eᵥ, mₒ, lₒ], t2_abab [fᵥ, cᵥ, iₒ, jₒ], t2_abab [aᵥ, bᵥ, kₒ, nₒ]], [(1, [aᵥ, bᵥ, iₒ, jₒ])]⟩,
  -- line 3070: mnef,klcd,edml,cfij,abkn->abij
  ⟨1, [g_abab [mₒ, nₒ, eᵥ, fᵥ], l2_abab [kₒ, lₒ, cᵥ, dᵥ], t2_abab [eᵥ, dᵥ, mₒ, lₒ], t2_abab [cᵥ, fᵥ, iₒ, jₒ], t2_abab [aᵥ, bᵥ, kₒ, nₒ]], [(1, [aᵥ, bᵥ, iₒ, jₒ])]⟩,
  -- line 3073: nmef,klcd,edlm,cfij,abkn->abij
  ⟨1, [g_bbbb [nₒ, mₒ, eᵥ, fᵥ], l2_abab [kₒ, lₒ, cᵥ, dᵥ], t2_bbbb [eᵥ, dᵥ, lₒ, mₒ], t2_abab [cᵥ, fᵥ, iₒ, jₒ], t2_abab [aᵥ, bᵥ, kₒ, nₒ]], [(1, [aᵥ, bᵥ, iₒ, jₒ])]⟩,
  -- line 3076: nmef,lkdc,edlm,fcij,abnk->abij
  ⟨1, [g_aaaa [nₒ, mₒ, eᵥ, fᵥ], l2_abab [lₒ, kₒ, dᵥ, cᵥ], t2_aaaa [eᵥ, dᵥ, lₒ, mₒ], t2_abab [fᵥ, cᵥ, iₒ, jₒ], t2_abab [aᵥ, bᵥ, nₒ, kₒ]], [(1, [aᵥ, bᵥ, iₒ, jₒ])]⟩,
  -- line 3079: nmfe,lkdc,delm,fcij,abnk->abij
  ⟨1, [g_abab [nₒ, mₒ, fᵥ, eᵥ], l2_abab [lₒ, kₒ, dᵥ, cᵥ], t2_abab [dᵥ, eᵥ, lₒ, mₒ], t2_abab [fᵥ, cᵥ, iₒ, jₒ], t2_abab [aᵥ, bᵥ, nₒ, kₒ]], [(1, [aᵥ, bᵥ, iₒ, jₒ])]⟩,
  -- line 3082: nmef,lkcd,edlm,cfij,abnk->abij
  ⟨1, [g_abab [nₒ, mₒ, eᵥ, fᵥ], l2_abab [lₒ, kₒ, cᵥ, dᵥ], t2_abab [eᵥ, dᵥ, lₒ, mₒ], t2_abab [cᵥ, fᵥ, iₒ, jₒ], t2_abab [aᵥ, bᵥ, nₒ, kₒ]], [(1, [aᵥ, bᵥ, iₒ, jₒ])]⟩,
  -- line 3085: nmef,kldc,edml,fcij,abnk->abij
  ⟨1, [g_aaaa [nₒ, mₒ, eᵥ, fᵥ], l2_bbbb [kₒ, lₒ, dᵥ, cᵥ], t2_abab [eᵥ, dᵥ, mₒ, lₒ], t2_abab [fᵥ, cᵥ, iₒ, jₒ], t2_abab [aᵥ, bᵥ, nₒ, kₒ]], [(1, [aᵥ, bᵥ, iₒ, jₒ])]⟩,
  -- line 3088: nmfe,kldc,edlm,fcij,abnk->abij
  ⟨1, [g_abab [nₒ, mₒ, fᵥ, eᵥ], l2_bbbb [kₒ, lₒ, dᵥ, cᵥ], t2_bbbb [eᵥ, dᵥ, lₒ, mₒ], t2_abab [fᵥ, cᵥ, iₒ, jₒ], t2_abab [aᵥ, bᵥ, nₒ, kₒ]], [(1, [aᵥ, bᵥ, iₒ, jₒ])]⟩,
  -- line 3091: mnef,kldc,edlm,afkj,cbin->abij
  ⟨3/4, [g_abab [mₒ, nₒ, eᵥ, fᵥ], l2_aaaa [kₒ, lₒ, dᵥ, cᵥ], t2_aaaa [eᵥ, dᵥ, lₒ, mₒ], t2_abab [aᵥ, fᵥ, kₒ, jₒ], t2_abab [cᵥ, bᵥ, iₒ, nₒ]], [(1, [aᵥ, bᵥ, iₒ, jₒ])]⟩,
  -- line 3094: nmef,kldc,delm,afkj,cbin->abij
  ⟨3/4, [g_bbbb [nₒ, mₒ, eᵥ, fᵥ], l2_aaaa [kₒ, lₒ, dᵥ, cᵥ], t2_abab [dᵥ, eᵥ, lₒ, mₒ], t2_abab [aᵥ, fᵥ, kₒ, jₒ], t2_abab [cᵥ, bᵥ, iₒ, nₒ]], [(1, [aᵥ, bᵥ, iₒ, jₒ])]⟩,
  -- line 3097: mnef,klcd,edml,afkj,cbin->abij
  ⟨3/4, [g_abab [mₒ, nₒ, eᵥ, fᵥ], l2_abab [kₒ, lₒ, cᵥ, dᵥ], t2_abab [eᵥ, dᵥ, mₒ, lₒ], t2_abab [aᵥ, fᵥ, kₒ, jₒ], t2_abab [cᵥ, bᵥ, iₒ, nₒ]], [(1, [aᵥ, bᵥ, iₒ, jₒ])]⟩,
  -- line 3100: nmef,klcd,edlm,afkj,cbin->abij
  ⟨3/4, [g_bbbb [nₒ, mₒ, eᵥ, fᵥ], l2_abab [kₒ, lₒ, cᵥ, dᵥ], t2_bbbb [eᵥ, dᵥ, lₒ, mₒ], t2_abab [aᵥ, fᵥ, kₒ, jₒ], t2_abab [cᵥ, bᵥ, iₒ, nₒ]], [(1, [aᵥ, bᵥ, iₒ, jₒ])]⟩,
  -- line 3103: nmef,kldc,edlm,fbkj,cain->abij
  ⟨-3/4, [g_aaaa [nₒ, mₒ, eᵥ, fᵥ], l2_aaaa [kₒ, lₒ, dᵥ, cᵥ], t2_aaaa [eᵥ, dᵥ, lₒ, mₒ], t2_abab [fᵥ, bᵥ, kₒ, jₒ], t2_aaaa [cᵥ, aᵥ, iₒ, nₒ]], [(1, [aᵥ, bᵥ, iₒ, jₒ])]⟩,
  -- line 3106: nmfe,kldc,delm,fbkj,cain->abij
  ⟨-3/4, [g_abab [nₒ, mₒ, fᵥ, eᵥ], l2_aaaa [kₒ, lₒ, dᵥ, cᵥ], t2_abab [dᵥ, eᵥ, lₒ, mₒ], t2_abab [fᵥ, bᵥ, kₒ, jₒ], t2_aaaa [cᵥ, aᵥ, iₒ, nₒ]], [(1, [aᵥ, bᵥ, iₒ, jₒ])]⟩,
  -- line 3109: mnfe,kldc,deml,fbkj,acin->abij
  ⟨3/4, [g_abab [mₒ, nₒ, fᵥ, eᵥ], l2_abab [kₒ, lₒ, dᵥ, cᵥ], t2_abab [dᵥ, eᵥ, mₒ, lₒ], t2_abab [fᵥ, bᵥ, kₒ, jₒ], t2_abab [aᵥ, cᵥ, iₒ, nₒ]], [(1, [aᵥ, bᵥ, iₒ, jₒ])]⟩,
  -- line 3112: nmef,klcd,edml,fbkj,cain->abij
  ⟨-3/4, [g_aaaa [nₒ, mₒ, eᵥ, fᵥ], l2_abab [kₒ, lₒ, cᵥ, dᵥ], t2_abab [eᵥ, dᵥ, mₒ, lₒ], t2_abab [fᵥ, bᵥ, kₒ, jₒ], t2_aaaa [cᵥ, aᵥ, iₒ, nₒ]], [(1, [aᵥ, bᵥ, iₒ, jₒ])]⟩
  ]

/-- Part 4 of `residQf2_abab`. -/
def residQf2_abab_4 : Prog := [
  -- line 3115: nmfe,klcd,edlm,fbkj,cain->abij
  ⟨-3/4, [g_abab [nₒ, mₒ, fᵥ, eᵥ], l2_abab [kₒ, lₒ, cᵥ, dᵥ], t2_bbbb [eᵥ, dᵥ, lₒ, mₒ], t2_abab [fᵥ, bᵥ, kₒ, jₒ], t2_aaaa [cᵥ, aᵥ, iₒ, nₒ]], [(1, [aᵥ, bᵥ, iₒ, jₒ])]⟩,
  -- line 3118: mnef,lkdc,edlm,fbjk,acin->abij
  ⟨-3/4, [g_abab [mₒ, nₒ, eᵥ, fᵥ], l2_abab [lₒ, kₒ, dᵥ, cᵥ], t2_aaaa [eᵥ, dᵥ, lₒ, mₒ], t2_bbbb [fᵥ, bᵥ, jₒ, kₒ], t2_abab [aᵥ, cᵥ, iₒ, nₒ]], [(1, [aᵥ, bᵥ, iₒ, jₒ])]⟩,
  -- line 3121: nmef,lkdc,delm,fbjk,acin->abij
  ⟨-3/4, [g_bbbb [nₒ, mₒ, eᵥ, fᵥ], l2_abab [lₒ, kₒ, dᵥ, cᵥ], t2_abab [dᵥ, eᵥ, lₒ, mₒ], t2_bbbb [fᵥ, bᵥ, jₒ, kₒ], t2_abab [aᵥ, cᵥ, iₒ, nₒ]], [(1, [aᵥ, bᵥ, iₒ, jₒ])]⟩,
  -- line 3124: nmef,lkcd,edlm,fbjk,cain->abij
  ⟨3/4, [g_abab [nₒ, mₒ, eᵥ, fᵥ], l2_abab [lₒ, kₒ, cᵥ, dᵥ], t2_abab [eᵥ, dᵥ, lₒ, mₒ], t2_bbbb [fᵥ, bᵥ, jₒ, kₒ], t2_aaaa [cᵥ, aᵥ, iₒ, nₒ]], [(1, [aᵥ, bᵥ, iₒ, jₒ])]⟩,
  -- line 3127: mnef,kldc,edml,fbjk,acin->abij
  ⟨-3/4, [g_abab [mₒ, nₒ, eᵥ, fᵥ], l2_bbbb [kₒ, lₒ, dᵥ, cᵥ], t2_abab [eᵥ, dᵥ, mₒ, lₒ], t2_bbbb [fᵥ, bᵥ, jₒ, kₒ], t2_abab [aᵥ, cᵥ, iₒ, nₒ]], [(1, [aᵥ, bᵥ, iₒ, jₒ])]⟩,
  -- line 3130: nmef,kldc,edlm,fbjk,acin->abij
  ⟨-3/4, [g_bbbb [nₒ, mₒ, eᵥ, fᵥ], l2_bbbb [kₒ, lₒ, dᵥ, cᵥ], t2_bbbb [eᵥ, dᵥ, lₒ, mₒ], t2_bbbb [fᵥ, bᵥ, jₒ, kₒ], t2_abab [aᵥ, cᵥ, iₒ, nₒ]], [(1, [aᵥ, bᵥ, iₒ, jₒ])]⟩,
  -- line 3133: nmef,kldc,edlm,faik,cbnj->abij
  ⟨-3/4, [g_aaaa [nₒ, mₒ, eᵥ, fᵥ], l2_aaaa [kₒ, lₒ, dᵥ, cᵥ], t2_aaaa [eᵥ, dᵥ, lₒ, mₒ], t2_aaaa [fᵥ, aᵥ, iₒ, kₒ], t2_abab [cᵥ, bᵥ, nₒ, jₒ]], [(1, [aᵥ, bᵥ, iₒ, jₒ])]⟩,
  -- line 3136: nmfe,kldc,delm,faik,cbnj->abij
  ⟨-3/4, [g_abab [nₒ, mₒ, fᵥ, eᵥ], l2_aaaa [kₒ, lₒ, dᵥ, cᵥ], t2_abab [dᵥ, eᵥ, lₒ, mₒ], t2_aaaa [fᵥ, aᵥ, iₒ, kₒ], t2_abab [cᵥ, bᵥ, nₒ, jₒ]], [(1, [aᵥ, bᵥ, iₒ, jₒ])]⟩,
  -- line 3139: mnfe,kldc,deml,faik,cbjn->abij
  ⟨3/4, [g_abab [mₒ, nₒ, fᵥ, eᵥ], l2_abab [kₒ, lₒ, dᵥ, cᵥ], t2_abab [dᵥ, eᵥ, mₒ, lₒ], t2_aaaa [fᵥ, aᵥ, iₒ, kₒ], t2_bbbb [cᵥ, bᵥ, jₒ, nₒ]], [(1, [aᵥ, bᵥ, iₒ, jₒ])]⟩,
  -- line 3142: nmef,klcd,edml,faik,cbnj->abij
  ⟨-3/4, [g_aaaa [nₒ, mₒ, eᵥ, fᵥ], l2_abab [kₒ, lₒ, cᵥ, dᵥ], t2_abab [eᵥ, dᵥ, mₒ, lₒ], t2_aaaa [fᵥ, aᵥ, iₒ, kₒ], t2_abab [cᵥ, bᵥ, nₒ, jₒ]], [(1, [aᵥ, bᵥ, iₒ, jₒ])]⟩,
  -- line 3145: nmfe,klcd,edlm,faik,cbnj->abij
  ⟨-3/4, [g_abab [nₒ, mₒ, fᵥ, eᵥ], l2_abab [kₒ, lₒ, cᵥ, dᵥ], t2_bbbb [eᵥ, dᵥ, lₒ, mₒ], t2_aaaa [fᵥ, aᵥ, iₒ, kₒ], t2_abab [cᵥ, bᵥ, nₒ, jₒ]], [(1, [aᵥ, bᵥ, iₒ, jₒ])]⟩,
  -- line 3148: mnef,lkdc,edlm,afik,cbjn->abij
  ⟨-3/4, [g_abab [mₒ, nₒ, eᵥ, fᵥ], l2_abab [lₒ, kₒ, dᵥ, cᵥ], t2_aaaa [eᵥ, dᵥ, lₒ, mₒ], t2_abab [aᵥ, fᵥ, iₒ, kₒ], t2_bbbb [cᵥ, bᵥ, jₒ, nₒ]], [(1, [aᵥ, bᵥ, iₒ, jₒ])]⟩,
  -- line 3151: nmef,lkdc,delm,afik,cbjn->abij
  ⟨-3/4, [g_bbbb [nₒ, mₒ, eᵥ, fᵥ], l2_abab [lₒ, kₒ, dᵥ, cᵥ], t2_abab [dᵥ, eᵥ, lₒ, mₒ], t2_abab [aᵥ, fᵥ, iₒ, kₒ], t2_bbbb [cᵥ, bᵥ, jₒ, nₒ]], [(1, [aᵥ, bᵥ, iₒ, jₒ])]⟩,
  -- line 3154: nmef,lkcd,edlm,afik,cbnj->abij
  ⟨3/4, [g_abab [nₒ, mₒ, eᵥ, fᵥ], l2_abab [lₒ, kₒ, cᵥ, dᵥ], t2_abab [eᵥ, dᵥ, lₒ, mₒ], t2_abab [aᵥ, fᵥ, iₒ, kₒ], t2_abab [cᵥ, bᵥ, nₒ, jₒ]], [(1, [aᵥ, bᵥ, iₒ, jₒ])]⟩,
  -- line 3157: mnef,kldc,edml,afik,cbjn->abij
  ⟨-3/4, [g_abab [mₒ, nₒ, eᵥ, fᵥ], l2_bbbb [kₒ, lₒ, dᵥ, cᵥ], t2_abab [eᵥ, dᵥ, mₒ, lₒ], t2_abab [aᵥ, fᵥ, iₒ, kₒ], t2_bbbb [cᵥ, bᵥ, jₒ, nₒ]], [(1, [aᵥ, bᵥ, iₒ, jₒ])]⟩,
  -- line 3160: nmef,kldc,edlm,afik,cbjn->abij
  ⟨-3/4, [g_bbbb [nₒ, mₒ, eᵥ, fᵥ], l2_bbbb [kₒ, lₒ, dᵥ, cᵥ], t2_bbbb [eᵥ, dᵥ, lₒ, mₒ], t2_abab [aᵥ, fᵥ, iₒ, kₒ], t2_bbbb [cᵥ, bᵥ, jₒ, nₒ]], [(1, [aᵥ, bᵥ, iₒ, jₒ])]⟩,
  -- line 3163: nmef,lkdc,edlm,fbik,acnj->abij
  ⟨3/4, [g_aaaa [nₒ, mₒ, eᵥ, fᵥ], l2_abab [lₒ, kₒ, dᵥ, cᵥ], t2_aaaa [eᵥ, dᵥ, lₒ, mₒ], t2_abab [fᵥ, bᵥ, iₒ, kₒ], t2_abab [aᵥ, cᵥ, nₒ, jₒ]], [(1, [aᵥ, bᵥ, iₒ, jₒ])]⟩,
  -- line 3166: nmfe,lkdc,delm,fbik,acnj->abij
  ⟨3/4, [g_abab [nₒ, mₒ, fᵥ, eᵥ], l2_abab [lₒ, kₒ, dᵥ, cᵥ], t2_abab [dᵥ, eᵥ, lₒ, mₒ], t2_abab [fᵥ, bᵥ, iₒ, kₒ], t2_abab [aᵥ, cᵥ, nₒ, jₒ]], [(1, [aᵥ, bᵥ, iₒ, jₒ])]⟩,
  -- line 3169: nmef,kldc,edml,fbik,acnj->abij
  ⟨3/4, [g_aaaa [nₒ, mₒ, eᵥ, fᵥ], l2_bbbb [kₒ, lₒ, dᵥ, cᵥ], t2_abab [eᵥ, dᵥ, mₒ, lₒ], t2_abab [fᵥ, bᵥ, iₒ, kₒ], t2_abab [aᵥ, cᵥ, nₒ, jₒ]], [(1, [aᵥ, bᵥ, iₒ, jₒ])]⟩,
  -- line 3172: nmfe,kldc,edlm,fbik,acnj->abij
  ⟨3/4, [g_abab [nₒ, mₒ, fᵥ, eᵥ], l2_bbbb [kₒ, lₒ, dᵥ, cᵥ], t2_bbbb [eᵥ, dᵥ, lₒ, mₒ], t2_abab [fᵥ, bᵥ, iₒ, kₒ], t2_abab [aᵥ, cᵥ, nₒ, jₒ]], [(1, [aᵥ, bᵥ, iₒ, jₒ])]⟩,
  -- line 3175: mnef,kldc,edlm,afij,cbkn->abij
  ⟨-1, [g_abab [mₒ, nₒ, eᵥ, fᵥ], l2_aaaa [kₒ, lₒ, dᵥ, cᵥ], t2_aaaa [eᵥ, dᵥ, lₒ, mₒ], t2_abab [aᵥ, fᵥ, iₒ, jₒ], t2_abab [cᵥ, bᵥ, kₒ, nₒ]], [(1, [aᵥ, bᵥ, iₒ, jₒ])]⟩,
  -- line 3178: nmef,kldc,delm,afij,cbkn->abij
  ⟨-1, [g_bbbb [nₒ, mₒ, eᵥ, fᵥ], l2_aaaa [kₒ, lₒ, dᵥ, cᵥ], t2_abab [dᵥ, eᵥ, lₒ, mₒ], t2_abab [aᵥ, fᵥ, iₒ, jₒ], t2_abab [cᵥ, bᵥ, kₒ, nₒ]], [(1, [aᵥ, bᵥ, iₒ, jₒ])]⟩,
  -- line 3181: mnef,klcd,edml,afij,cbkn->abij
  ⟨-1, [g_abab [mₒ, nₒ, eᵥ, fᵥ], l2_abab [kₒ, lₒ, cᵥ, dᵥ], t2_abab [eᵥ, dᵥ, mₒ, lₒ], t2_abab [aᵥ, fᵥ, iₒ, jₒ], t2_abab [cᵥ, bᵥ, kₒ, nₒ]], [(1, [aᵥ, bᵥ, iₒ, jₒ])]⟩,
  -- line 3184: nmef,klcd,edlm,afij,cbkn->abij
  ⟨-1, [g_bbbb [nₒ, mₒ, eᵥ, fᵥ], l2_abab [kₒ, lₒ, cᵥ, dᵥ], t2_bbbb [eᵥ, dᵥ, lₒ, mₒ], t2_abab [aᵥ, fᵥ, iₒ, jₒ], t2_abab [cᵥ, bᵥ, kₒ, nₒ]], [(1, [aᵥ, bᵥ, iₒ, jₒ])]⟩,
  -- line 3187: mnef,lkdc,edlm,afij,cbkn->abij
  ⟨1, [g_abab [mₒ, nₒ, eᵥ, fᵥ], l2_abab [lₒ, kₒ, dᵥ, cᵥ], t2_aaaa [eᵥ, dᵥ, lₒ, mₒ], t2_abab [aᵥ, fᵥ, iₒ, jₒ], t2_bbbb [cᵥ, bᵥ, kₒ, nₒ]], [(1, [aᵥ, bᵥ, iₒ, jₒ])]⟩,
  -- line 3190: nmef,lkdc,delm,afij,cbkn->abij
  ⟨1, [g_bbbb [nₒ, mₒ, eᵥ, fᵥ], l2_abab [lₒ, kₒ, dᵥ, cᵥ], t2_abab [dᵥ, eᵥ, lₒ, mₒ], t2_abab [aᵥ, fᵥ, iₒ, jₒ], t2_bbbb [cᵥ, bᵥ, kₒ, nₒ]], [(1, [aᵥ, bᵥ, iₒ, jₒ])]⟩,
  -- line 3193: nmef,lkcd,edlm,afij,cbnk->abij
  ⟨-1, [g_abab [nₒ, mₒ, eᵥ, fᵥ], l2_abab [lₒ, kₒ, cᵥ, dᵥ], t2_abab [eᵥ, dᵥ, lₒ, mₒ], t2_abab [aᵥ, fᵥ, iₒ, jₒ], t2_abab [cᵥ, bᵥ, nₒ, kₒ]], [(1, [aᵥ, bᵥ, iₒ, jₒ])]⟩,
  -- line 3196: mnef,kldc,edml,afij,cbkn->abij
  ⟨1, [g_abab [mₒ, nₒ, eᵥ, fᵥ], l2_bbbb [kₒ, lₒ, dᵥ, cᵥ], t2_abab [eᵥ, dᵥ, mₒ, lₒ], t2_abab [aᵥ, fᵥ, iₒ, jₒ], t2_bbbb [cᵥ, bᵥ, kₒ, nₒ]], [(1, [aᵥ, bᵥ, iₒ, jₒ])]⟩,
  -- line 3199: nmef,kldc,edlm,afij,cbkn->abij
  ⟨1, [g_bbbb [nₒ, mₒ, eᵥ, fᵥ], l2_bbbb [kₒ, lₒ, dᵥ, cᵥ], t2_bbbb [eᵥ, dᵥ, lₒ, mₒ], t2_abab [aᵥ, fᵥ, iₒ, jₒ], t2_bbbb [cᵥ, bᵥ, kₒ, nₒ]], [(1, [aᵥ, bᵥ, iₒ, jₒ])]⟩,
  -- line 3202: nmef,kldc,edlm,fbij,cakn->abij
  ⟨1, [g_aaaa [nₒ, mₒ, eᵥ, fᵥ], l2_aaaa [kₒ, lₒ, dᵥ, cᵥ], t2_aaaa [eᵥ, dᵥ, lₒ, mₒ], t2_abab [fᵥ, bᵥ, iₒ, jₒ], t2_aaaa [cᵥ, aᵥ, kₒ, nₒ]], [(1, [aᵥ, bᵥ, iₒ, jₒ])]⟩,
  -- line 3205: nmfe,kldc,delm,fbij,cakn->abij
  ⟨1, [g_abab [nₒ, mₒ, fᵥ, eᵥ], l2_aaaa [kₒ, lₒ, dᵥ, cᵥ], t2_abab [dᵥ, eᵥ, lₒ, mₒ], t2_abab [fᵥ, bᵥ, iₒ, jₒ], t2_aaaa [cᵥ, aᵥ, kₒ, nₒ]], [(1, [aᵥ, bᵥ, iₒ, jₒ])]⟩,
  -- line 3208: mnfe,kldc,deml,fbij,ackn->abij
  ⟨-1, [g_abab [mₒ, nₒ, fᵥ, eᵥ], l2_abab [kₒ, lₒ, dᵥ, cᵥ], t2_abab [dᵥ, eᵥ, mₒ, lₒ], t2_abab [fᵥ, bᵥ, iₒ, jₒ], t2_abab [aᵥ, cᵥ, kₒ, nₒ]], [(1, [aᵥ, bᵥ, iₒ, jₒ])]⟩,
  -- line 3211: nmef,klcd,edml,fbij,cakn->abij
  ⟨1, [g_aaaa [nₒ, mₒ, eᵥ, fᵥ], l2_abab [kₒ, lₒ, cᵥ, dᵥ], t2_abab [eᵥ, dᵥ, mₒ, lₒ], t2_abab [fᵥ, bᵥ, iₒ, jₒ], t2_aaaa [cᵥ, aᵥ, kₒ, nₒ]], [(1, [aᵥ, bᵥ, iₒ, jₒ])]⟩,
  -- line 3214: nmfe,klcd,edlm,fbij,cakn->abij
  ⟨1, [g_abab [nₒ, mₒ, fᵥ, eᵥ], l2_abab [kₒ, lₒ, cᵥ, dᵥ], t2_bbbb [eᵥ, dᵥ, lₒ, mₒ], t2_abab [fᵥ, bᵥ, iₒ, jₒ], t2_aaaa [cᵥ, aᵥ, kₒ, nₒ]], [(1, [aᵥ, bᵥ, iₒ, jₒ])]⟩,
  -- line 3217: nmef,lkdc,edlm,fbij,acnk->abij
  ⟨-1, [g_aaaa [nₒ, mₒ, eᵥ, fᵥ], l2_abab [lₒ, kₒ, dᵥ, cᵥ], t2_aaaa [eᵥ, dᵥ, lₒ, mₒ], t2_abab [fᵥ, bᵥ, iₒ, jₒ], t2_abab [aᵥ, cᵥ, nₒ, kₒ]], [(1, [aᵥ, bᵥ, iₒ, jₒ])]⟩,
  -- line 3220: nmfe,lkdc,delm,fbij,acnk->abij
  ⟨-1, [g_abab [nₒ, mₒ, fᵥ, eᵥ], l2_abab [lₒ, kₒ, dᵥ, cᵥ], t2_abab [dᵥ, eᵥ, lₒ, mₒ], t2_abab [fᵥ, bᵥ, iₒ, jₒ], t2_abab [aᵥ, cᵥ, nₒ, kₒ]], [(1, [aᵥ, bᵥ, iₒ, jₒ])]⟩,
  -- line 3223: nmef,kldc,edml,fbij,acnk->abij
  ⟨-1, [g_aaaa [nₒ, mₒ, eᵥ, fᵥ], l2_bbbb [kₒ, lₒ, dᵥ, cᵥ], t2_abab [eᵥ, dᵥ, mₒ, lₒ], t2_abab [fᵥ, bᵥ, iₒ, jₒ], t2_abab [aᵥ, cᵥ, nₒ, kₒ]], [(1, [aᵥ, bᵥ, iₒ, jₒ])]⟩,
  -- line 3226: nmfe,kldc,edlm,fbij,acnk->abij
  ⟨-1, [g_abab [nₒ, mₒ, fᵥ, eᵥ], l2_bbbb [kₒ, lₒ, dᵥ, cᵥ], t2_bbbb [eᵥ, dᵥ, lₒ, mₒ], t2_abab [fᵥ, bᵥ, iₒ, jₒ], t2_abab [aᵥ, cᵥ, nₒ, kₒ]], [(1, [aᵥ, bᵥ, iₒ, jₒ])]⟩,
  -- line 3229: mnfe,kldc,demj,fckl,abin->abij
  ⟨1/2, [g_abab [mₒ, nₒ, fᵥ, eᵥ], l2_aaaa [kₒ, lₒ, dᵥ, cᵥ], t2_abab [dᵥ, eᵥ, mₒ, jₒ], t2_aaaa [fᵥ, cᵥ, kₒ, lₒ], t2_abab [aᵥ, bᵥ, iₒ, nₒ]], [(1, [aᵥ, bᵥ, iₒ, jₒ])]⟩,
  -- line 3232: mnfe,kldc,demj,fckl,abin->abij
  ⟨1/2, [g_abab [mₒ, nₒ, fᵥ, eᵥ], l2_abab [kₒ, lₒ, dᵥ, cᵥ], t2_abab [dᵥ, eᵥ, mₒ, jₒ], t2_abab [fᵥ, cᵥ, kₒ, lₒ], t2_abab [aᵥ, bᵥ, iₒ, nₒ]], [(1, [aᵥ, bᵥ, iₒ, jₒ])]⟩
  ]

/-- Part 5 of `residQf2_abab`. -/
def residQf2_abab_5 : Prog := [
  -- line 3235: mnef,klcd,edmj,cfkl,abin->abij
  ⟨1/2, [g_abab [mₒ, nₒ, eᵥ, fᵥ], l2_abab [kₒ, lₒ, cᵥ, dᵥ], t2_abab [eᵥ, dᵥ, mₒ, jₒ], t2_abab [cᵥ, fᵥ, kₒ, lₒ], t2_abab [aᵥ, bᵥ, iₒ, nₒ]], [(1, [aᵥ, bᵥ, iₒ, jₒ])]⟩,
  -- line 3238: nmef,klcd,edjm,cfkl,abin->abij
  ⟨1/2, [g_bbbb [nₒ, mₒ, eᵥ, fᵥ], l2_abab [kₒ, lₒ, cᵥ, dᵥ], t2_bbbb [eᵥ, dᵥ, jₒ, mₒ], t2_abab [cᵥ, fᵥ, kₒ, lₒ], t2_abab [aᵥ, bᵥ, iₒ, nₒ]], [(1, [aᵥ, bᵥ, iₒ, jₒ])]⟩,
  -- line 3241: mnfe,lkdc,demj,fclk,abin->abij
  ⟨1/2, [g_abab [mₒ, nₒ, fᵥ, eᵥ], l2_abab [lₒ, kₒ, dᵥ, cᵥ], t2_abab [dᵥ, eᵥ, mₒ, jₒ], t2_abab [fᵥ, cᵥ, lₒ, kₒ], t2_abab [aᵥ, bᵥ, iₒ, nₒ]], [(1, [aᵥ, bᵥ, iₒ, jₒ])]⟩,
  -- line 3244: mnef,lkcd,edmj,cflk,abin->abij
  ⟨1/2, [g_abab [mₒ, nₒ, eᵥ, fᵥ], l2_abab [lₒ, kₒ, cᵥ, dᵥ], t2_abab [eᵥ, dᵥ, mₒ, jₒ], t2_abab [cᵥ, fᵥ, lₒ, kₒ], t2_abab [aᵥ, bᵥ, iₒ, nₒ]], [(1, [aᵥ, bᵥ, iₒ, jₒ])]⟩,
  -- line 3247: nmef,lkcd,edjm,cflk,abin->abij
  ⟨1/2, [g_bbbb [nₒ, mₒ, eᵥ, fᵥ], l2_abab [lₒ, kₒ, cᵥ, dᵥ], t2_bbbb [eᵥ, dᵥ, jₒ, mₒ], t2_abab [cᵥ, fᵥ, lₒ, kₒ], t2_abab [aᵥ, bᵥ, iₒ, nₒ]], [(1, [aᵥ, bᵥ, iₒ, jₒ])]⟩,
  -- line 3250: mnef,kldc,edmj,fckl,abin->abij
  ⟨1/2, [g_abab [mₒ, nₒ, eᵥ, fᵥ], l2_bbbb [kₒ, lₒ, dᵥ, cᵥ], t2_abab [eᵥ, dᵥ, mₒ, jₒ], t2_bbbb [fᵥ, cᵥ, kₒ, lₒ], t2_abab [aᵥ, bᵥ, iₒ, nₒ]], [(1, [aᵥ, bᵥ, iₒ, jₒ])]⟩,
  -- line 3253: nmef,kldc,edjm,fckl,abin->abij
  ⟨1/2, [g_bbbb [nₒ, mₒ, eᵥ, fᵥ], l2_bbbb [kₒ, lₒ, dᵥ, cᵥ], t2_bbbb [eᵥ, dᵥ, jₒ, mₒ], t2_bbbb [fᵥ, cᵥ, kₒ, lₒ], t2_abab [aᵥ, bᵥ, iₒ, nₒ]], [(1, [aᵥ, bᵥ, iₒ, jₒ])]⟩,
  -- line 3256: nmef,kldc,edim,fckl,abnj->abij
  ⟨1/2, [g_aaaa [nₒ, mₒ, eᵥ, fᵥ], l2_aaaa [kₒ, lₒ, dᵥ, cᵥ], t2_aaaa [eᵥ, dᵥ, iₒ, mₒ], t2_aaaa [fᵥ, cᵥ, kₒ, lₒ], t2_abab [aᵥ, bᵥ, nₒ, jₒ]], [(1, [aᵥ, bᵥ, iₒ, jₒ])]⟩,
  -- line 3259: nmfe,kldc,deim,fckl,abnj->abij
  ⟨1/2, [g_abab [nₒ, mₒ, fᵥ, eᵥ], l2_aaaa [kₒ, lₒ, dᵥ, cᵥ], t2_abab [dᵥ, eᵥ, iₒ, mₒ], t2_aaaa [fᵥ, cᵥ, kₒ, lₒ], t2_abab [aᵥ, bᵥ, nₒ, jₒ]], [(1, [aᵥ, bᵥ, iₒ, jₒ])]⟩,
  -- line 3262: nmef,kldc,edim,fckl,abnj->abij
  ⟨1/2, [g_aaaa [nₒ, mₒ, eᵥ, fᵥ], l2_abab [kₒ, lₒ, dᵥ, cᵥ], t2_aaaa [eᵥ, dᵥ, iₒ, mₒ], t2_abab [fᵥ, cᵥ, kₒ, lₒ], t2_abab [aᵥ, bᵥ, nₒ, jₒ]], [(1, [aᵥ, bᵥ, iₒ, jₒ])]⟩,
  -- line 3265: nmfe,kldc,deim,fckl,abnj->abij
  ⟨1/2, [g_abab [nₒ, mₒ, fᵥ, eᵥ], l2_abab [kₒ, lₒ, dᵥ, cᵥ], t2_abab [dᵥ, eᵥ, iₒ, mₒ], t2_abab [fᵥ, cᵥ, kₒ, lₒ], t2_abab [aᵥ, bᵥ, nₒ, jₒ]], [(1, [aᵥ, bᵥ, iₒ, jₒ])]⟩,
  -- line 3268: nmef,klcd,edim,cfkl,abnj->abij
  ⟨1/2, [g_abab [nₒ, mₒ, eᵥ, fᵥ], l2_abab [kₒ, lₒ, cᵥ, dᵥ], t2_abab [eᵥ, dᵥ, iₒ, mₒ], t2_abab [cᵥ, fᵥ, kₒ, lₒ], t2_abab [aᵥ, bᵥ, nₒ, jₒ]], [(1, [aᵥ, bᵥ, iₒ, jₒ])]⟩,
  -- line 3271: nmef,lkdc,edim,fclk,abnj->abij
  ⟨1/2, [g_aaaa [nₒ, mₒ, eᵥ, fᵥ], l2_abab [lₒ, kₒ, dᵥ, cᵥ], t2_aaaa [eᵥ, dᵥ, iₒ, mₒ], t2_abab [fᵥ, cᵥ, lₒ, kₒ], t2_abab [aᵥ, bᵥ, nₒ, jₒ]], [(1, [aᵥ, bᵥ, iₒ, jₒ])]⟩,
  -- line 3274: nmfe,lkdc,deim,fclk,abnj->abij
  ⟨1/2, [g_abab [nₒ, mₒ, fᵥ, eᵥ], l2_abab [lₒ, kₒ, dᵥ, cᵥ], t2_abab [dᵥ, eᵥ, iₒ, mₒ], t2_abab [fᵥ, cᵥ, lₒ, kₒ], t2_abab [aᵥ, bᵥ, nₒ, jₒ]], [(1, [aᵥ, bᵥ, iₒ, jₒ])]⟩,
  -- line 3277: nmef,lkcd,edim,cflk,abnj->abij
  ⟨1/2, [g_abab [nₒ, mₒ, eᵥ, fᵥ], l2_abab [lₒ, kₒ, cᵥ, dᵥ], t2_abab [eᵥ, dᵥ, iₒ, mₒ], t2_abab [cᵥ, fᵥ, lₒ, kₒ], t2_abab [aᵥ, bᵥ, nₒ, jₒ]], [(1, [aᵥ, bᵥ, iₒ, jₒ])]⟩,
  -- line 3280: nmef,kldc,edim,fckl,abnj->abij
  ⟨1/2, [g_abab [nₒ, mₒ, eᵥ, fᵥ], l2_bbbb [kₒ, lₒ, dᵥ, cᵥ], t2_abab [eᵥ, dᵥ, iₒ, mₒ], t2_bbbb [fᵥ, cᵥ, kₒ, lₒ], t2_abab [aᵥ, bᵥ, nₒ, jₒ]], [(1, [aᵥ, bᵥ, iₒ, jₒ])]⟩,
  -- line 3283: mnfe,kldc,demj,fcil,abkn->abij
  ⟨-1, [g_abab [mₒ, nₒ, fᵥ, eᵥ], l2_aaaa [kₒ, lₒ, dᵥ, cᵥ], t2_abab [dᵥ, eᵥ, mₒ, jₒ], t2_aaaa [fᵥ, cᵥ, iₒ, lₒ], t2_abab [aᵥ, bᵥ, kₒ, nₒ]], [(1, [aᵥ, bᵥ, iₒ, jₒ])]⟩,
  -- line 3286: mnfe,kldc,demj,fcil,abkn->abij
  ⟨-1, [g_abab [mₒ, nₒ, fᵥ, eᵥ], l2_abab [kₒ, lₒ, dᵥ, cᵥ], t2_abab [dᵥ, eᵥ, mₒ, jₒ], t2_abab [fᵥ, cᵥ, iₒ, lₒ], t2_abab [aᵥ, bᵥ, kₒ, nₒ]], [(1, [aᵥ, bᵥ, iₒ, jₒ])]⟩,
  -- line 3289: mnef,klcd,edmj,cfil,abkn->abij
  ⟨-1, [g_abab [mₒ, nₒ, eᵥ, fᵥ], l2_abab [kₒ, lₒ, cᵥ, dᵥ], t2_abab [eᵥ, dᵥ, mₒ, jₒ], t2_abab [cᵥ, fᵥ, iₒ, lₒ], t2_abab [aᵥ, bᵥ, kₒ, nₒ]], [(1, [aᵥ, bᵥ, iₒ, jₒ])]⟩,
  -- line 3292: nmef,klcd,edjm,cfil,abkn->abij
  ⟨-1, [g_bbbb [nₒ, mₒ, eᵥ, fᵥ], l2_abab [kₒ, lₒ, cᵥ, dᵥ], t2_bbbb [eᵥ, dᵥ, jₒ, mₒ], t2_abab [cᵥ, fᵥ, iₒ, lₒ], t2_abab [aᵥ, bᵥ, kₒ, nₒ]], [(1, [aᵥ, bᵥ, iₒ, jₒ])]⟩,
  -- line 3295: nmef,lkcd,edmj,fcil,abnk->abij
  ⟨-1, [g_aaaa [nₒ, mₒ, eᵥ, fᵥ], l2_abab [lₒ, kₒ, cᵥ, dᵥ], t2_abab [eᵥ, dᵥ, mₒ, jₒ], t2_aaaa [fᵥ, cᵥ, iₒ, lₒ], t2_abab [aᵥ, bᵥ, nₒ, kₒ]], [(1, [aᵥ, bᵥ, iₒ, jₒ])]⟩,
  -- line 3298: nmfe,lkcd,edjm,fcil,abnk->abij
  ⟨-1, [g_abab [nₒ, mₒ, fᵥ, eᵥ], l2_abab [lₒ, kₒ, cᵥ, dᵥ], t2_bbbb [eᵥ, dᵥ, jₒ, mₒ], t2_aaaa [fᵥ, cᵥ, iₒ, lₒ], t2_abab [aᵥ, bᵥ, nₒ, kₒ]], [(1, [aᵥ, bᵥ, iₒ, jₒ])]⟩,
  -- line 3301: nmef,kldc,edmj,fcil,abnk->abij
  ⟨-1, [g_aaaa [nₒ, mₒ, eᵥ, fᵥ], l2_bbbb [kₒ, lₒ, dᵥ, cᵥ], t2_abab [eᵥ, dᵥ, mₒ, jₒ], t2_abab [fᵥ, cᵥ, iₒ, lₒ], t2_abab [aᵥ, bᵥ, nₒ, kₒ]], [(1, [aᵥ, bᵥ, iₒ, jₒ])]⟩,
  -- line 3304: nmfe,kldc,edjm,fcil,abnk->abij
  ⟨-1, [g_abab [nₒ, mₒ, fᵥ, eᵥ], l2_bbbb [kₒ, lₒ, dᵥ, cᵥ], t2_bbbb [eᵥ, dᵥ, jₒ, mₒ], t2_abab [fᵥ, cᵥ, iₒ, lₒ], t2_abab [aᵥ, bᵥ, nₒ, kₒ]], [(1, [aᵥ, bᵥ, iₒ, jₒ])]⟩,
  -- line 3307: mnef,kldc,edim,cflj,abkn->abij
  ⟨-1, [g_abab [mₒ, nₒ, eᵥ, fᵥ], l2_aaaa [kₒ, lₒ, dᵥ, cᵥ], t2_aaaa [eᵥ, dᵥ, iₒ, mₒ], t2_abab [cᵥ, fᵥ, lₒ, jₒ], t2_abab [aᵥ, bᵥ, kₒ, nₒ]], [(1, [aᵥ, bᵥ, iₒ, jₒ])]⟩,
  -- line 3310: nmef,kldc,deim,cflj,abkn->abij
  ⟨-1, [g_bbbb [nₒ, mₒ, eᵥ, fᵥ], l2_aaaa [kₒ, lₒ, dᵥ, cᵥ], t2_abab [dᵥ, eᵥ, iₒ, mₒ], t2_abab [cᵥ, fᵥ, lₒ, jₒ], t2_abab [aᵥ, bᵥ, kₒ, nₒ]], [(1, [aᵥ, bᵥ, iₒ, jₒ])]⟩,
  -- line 3313: mnef,kldc,edim,fcjl,abkn->abij
  ⟨-1, [g_abab [mₒ, nₒ, eᵥ, fᵥ], l2_abab [kₒ, lₒ, dᵥ, cᵥ], t2_aaaa [eᵥ, dᵥ, iₒ, mₒ], t2_bbbb [fᵥ, cᵥ, jₒ, lₒ], t2_abab [aᵥ, bᵥ, kₒ, nₒ]], [(1, [aᵥ, bᵥ, iₒ, jₒ])]⟩,
  -- line 3316: nmef,kldc,deim,fcjl,abkn->abij
  ⟨-1, [g_bbbb [nₒ, mₒ, eᵥ, fᵥ], l2_abab [kₒ, lₒ, dᵥ, cᵥ], t2_abab [dᵥ, eᵥ, iₒ, mₒ], t2_bbbb [fᵥ, cᵥ, jₒ, lₒ], t2_abab [aᵥ, bᵥ, kₒ, nₒ]], [(1, [aᵥ, bᵥ, iₒ, jₒ])]⟩,
  -- line 3319: nmef,lkdc,edim,fclj,abnk->abij
  ⟨-1, [g_aaaa [nₒ, mₒ, eᵥ, fᵥ], l2_abab [lₒ, kₒ, dᵥ, cᵥ], t2_aaaa [eᵥ, dᵥ, iₒ, mₒ], t2_abab [fᵥ, cᵥ, lₒ, jₒ], t2_abab [aᵥ, bᵥ, nₒ, kₒ]], [(1, [aᵥ, bᵥ, iₒ, jₒ])]⟩,
  -- line 3322: nmfe,lkdc,deim,fclj,abnk->abij
  ⟨-1, [g_abab [nₒ, mₒ, fᵥ, eᵥ], l2_abab [lₒ, kₒ, dᵥ, cᵥ], t2_abab [dᵥ, eᵥ, iₒ, mₒ], t2_abab [fᵥ, cᵥ, lₒ, jₒ], t2_abab [aᵥ, bᵥ, nₒ, kₒ]], [(1, [aᵥ, bᵥ, iₒ, jₒ])]⟩,
  -- line 3325: nmef,lkcd,edim,cflj,abnk->abij
  ⟨-1, [g_abab [nₒ, mₒ, eᵥ, fᵥ], l2_abab [lₒ, kₒ, cᵥ, dᵥ], t2_abab [eᵥ, dᵥ, iₒ, mₒ], t2_abab [cᵥ, fᵥ, lₒ, jₒ], t2_abab [aᵥ, bᵥ, nₒ, kₒ]], [(1, [aᵥ, bᵥ, iₒ, jₒ])]⟩,
  -- line 3328: nmef,kldc,edim,fcjl,abnk->abij
  ⟨-1, [g_abab [nₒ, mₒ, eᵥ, fᵥ], l2_bbbb [kₒ, lₒ, dᵥ, cᵥ], t2_abab [eᵥ, dᵥ, iₒ, mₒ], t2_bbbb [fᵥ, cᵥ, jₒ, lₒ], t2_abab [aᵥ, bᵥ, nₒ, kₒ]], [(1, [aᵥ, bᵥ, iₒ, jₒ])]⟩,
  -- line 3331: mnfe,kldc,demj,fakl,cbin->abij
  ⟨-1/2, [g_abab [mₒ, nₒ, fᵥ, eᵥ], l2_aaaa [kₒ, lₒ, dᵥ, cᵥ], t2_abab [dᵥ, eᵥ, mₒ, jₒ], t2_aaaa [fᵥ, aᵥ, kₒ, lₒ], t2_abab [cᵥ, bᵥ, iₒ, nₒ]], [(1, [aᵥ, bᵥ, iₒ, jₒ])]⟩,
  -- line 3334: mnef,klcd,edmj,afkl,cbin->abij
  ⟨-1/2, [g_abab [mₒ, nₒ, eᵥ, fᵥ], l2_abab [kₒ, lₒ, cᵥ, dᵥ], t2_abab [eᵥ, dᵥ, mₒ, jₒ], t2_abab [aᵥ, fᵥ, kₒ, lₒ], t2_abab [cᵥ, bᵥ, iₒ, nₒ]], [(1, [aᵥ, bᵥ, iₒ, jₒ])]⟩,
  -- line 3337: nmef,klcd,edjm,afkl,cbin->abij
  ⟨-1/2, [g_bbbb [nₒ, mₒ, eᵥ, fᵥ], l2_abab [kₒ, lₒ, cᵥ, dᵥ], t2_bbbb [eᵥ, dᵥ, jₒ, mₒ], t2_abab [aᵥ, fᵥ, kₒ, lₒ], t2_abab [cᵥ, bᵥ, iₒ, nₒ]], [(1, [aᵥ, bᵥ, iₒ, jₒ])]⟩,
  -- line 3340: mnef,lkcd,edmj,aflk,cbin->abij
  ⟨-1/2, [g_abab [mₒ, nₒ, eᵥ, fᵥ], l2_abab [lₒ, kₒ, cᵥ, dᵥ], t2_abab [eᵥ, dᵥ, mₒ, jₒ], t2_abab [aᵥ, fᵥ, lₒ, kₒ], t2_abab [cᵥ, bᵥ, iₒ, nₒ]], [(1, [aᵥ, bᵥ, iₒ, jₒ])]⟩,
  -- line 3343: nmef,lkcd,edjm,aflk,cbin->abij
  ⟨-1/2, [g_bbbb [nₒ, mₒ, eᵥ, fᵥ], l2_abab [lₒ, kₒ, cᵥ, dᵥ], t2_bbbb [eᵥ, dᵥ, jₒ, mₒ], t2_abab [aᵥ, fᵥ, lₒ, kₒ], t2_abab [cᵥ, bᵥ, iₒ, nₒ]], [(1, [aᵥ, bᵥ, iₒ, jₒ])]⟩,
  -- line 3346: mnfe,kldc,demj,fbkl,acin->abij
  ⟨-1/2, [g_abab [mₒ, nₒ, fᵥ, eᵥ], l2_abab [kₒ, lₒ, dᵥ, cᵥ], t2_abab [dᵥ, eᵥ, mₒ, jₒ], t2_abab [fᵥ, bᵥ, kₒ, lₒ], t2_abab [aᵥ, cᵥ, iₒ, nₒ]], [(1, [aᵥ, bᵥ, iₒ, jₒ])]⟩,
  -- line 3349: nmef,klcd,edmj,fbkl,cain->abij
  ⟨1/2, [g_aaaa [nₒ, mₒ, eᵥ, fᵥ], l2_abab [kₒ, lₒ, cᵥ, dᵥ], t2_abab [eᵥ, dᵥ, mₒ, jₒ], t2_abab [fᵥ, bᵥ, kₒ, lₒ], t2_aaaa [cᵥ, aᵥ, iₒ, nₒ]], [(1, [aᵥ, bᵥ, iₒ, jₒ])]⟩,
  -- line 3352: nmfe,klcd,edjm,fbkl,cain->abij
  ⟨1/2, [g_abab [nₒ, mₒ, fᵥ, eᵥ], l2_abab [kₒ, lₒ, cᵥ, dᵥ], t2_bbbb [eᵥ, dᵥ, jₒ, mₒ], t2_abab [fᵥ, bᵥ, kₒ, lₒ], t2_aaaa [cᵥ, aᵥ, iₒ, nₒ]], [(1, [aᵥ, bᵥ, iₒ, jₒ])]⟩
  ]

/-- Part 6 of `residQf2_abab`. -/
def residQf2_abab_6 : Prog := [
  -- line 3355: mnfe,lkdc,demj,fblk,acin->abij
  ⟨-1/2, [g_abab [mₒ, nₒ, fᵥ, eᵥ], l2_abab [lₒ, kₒ, dᵥ, cᵥ], t2_abab [dᵥ, eᵥ, mₒ, jₒ], t2_abab [fᵥ, bᵥ, lₒ, kₒ], t2_abab [aᵥ, cᵥ, iₒ, nₒ]], [(1, [aᵥ, bᵥ, iₒ, jₒ])]⟩,
  -- line 3358: nmef,lkcd,edmj,fblk,cain->abij
  ⟨1/2, [g_aaaa [nₒ, mₒ, eᵥ, fᵥ], l2_abab [lₒ, kₒ, cᵥ, dᵥ], t2_abab [eᵥ, dᵥ, mₒ, jₒ], t2_abab [fᵥ, bᵥ, lₒ, kₒ], t2_aaaa [cᵥ, aᵥ, iₒ, nₒ]], [(1, [aᵥ, bᵥ, iₒ, jₒ])]⟩,
  -- line 3361: nmfe,lkcd,edjm,fblk,cain->abij
  ⟨1/2, [g_abab [nₒ, mₒ, fᵥ, eᵥ], l2_abab [lₒ, kₒ, cᵥ, dᵥ], t2_bbbb [eᵥ, dᵥ, jₒ, mₒ], t2_abab [fᵥ, bᵥ, lₒ, kₒ], t2_aaaa [cᵥ, aᵥ, iₒ, nₒ]], [(1, [aᵥ, bᵥ, iₒ, jₒ])]⟩,
  -- line 3364: mnef,kldc,edmj,fbkl,acin->abij
  ⟨-1/2, [g_abab [mₒ, nₒ, eᵥ, fᵥ], l2_bbbb [kₒ, lₒ, dᵥ, cᵥ], t2_abab [eᵥ, dᵥ, mₒ, jₒ], t2_bbbb [fᵥ, bᵥ, kₒ, lₒ], t2_abab [aᵥ, cᵥ, iₒ, nₒ]], [(1, [aᵥ, bᵥ, iₒ, jₒ])]⟩,
  -- line 3367: nmef,kldc,edjm,fbkl,acin->abij
  ⟨-1/2, [g_bbbb [nₒ, mₒ, eᵥ, fᵥ], l2_bbbb [kₒ, lₒ, dᵥ, cᵥ], t2_bbbb [eᵥ, dᵥ, jₒ, mₒ], t2_bbbb [fᵥ, bᵥ, kₒ, lₒ], t2_abab [aᵥ, cᵥ, iₒ, nₒ]], [(1, [aᵥ, bᵥ, iₒ, jₒ])]⟩,
  -- line 3370: nmef,kldc,edim,fakl,cbnj->abij
  ⟨-1/2, [g_aaaa [nₒ, mₒ, eᵥ, fᵥ], l2_aaaa [kₒ, lₒ, dᵥ, cᵥ], t2_aaaa [eᵥ, dᵥ, iₒ, mₒ], t2_aaaa [fᵥ, aᵥ, kₒ, lₒ], t2_abab [cᵥ, bᵥ, nₒ, jₒ]], [(1, [aᵥ, bᵥ, iₒ, jₒ])]⟩,
  -- line 3373: nmfe,kldc,deim,fakl,cbnj->abij
  ⟨-1/2, [g_abab [nₒ, mₒ, fᵥ, eᵥ], l2_aaaa [kₒ, lₒ, dᵥ, cᵥ], t2_abab [dᵥ, eᵥ, iₒ, mₒ], t2_aaaa [fᵥ, aᵥ, kₒ, lₒ], t2_abab [cᵥ, bᵥ, nₒ, jₒ]], [(1, [aᵥ, bᵥ, iₒ, jₒ])]⟩,
  -- line 3376: mnef,kldc,edim,afkl,cbjn->abij
  ⟨1/2, [g_abab [mₒ, nₒ, eᵥ, fᵥ], l2_abab [kₒ, lₒ, dᵥ, cᵥ], t2_aaaa [eᵥ, dᵥ, iₒ, mₒ], t2_abab [aᵥ, fᵥ, kₒ, lₒ], t2_bbbb [cᵥ, bᵥ, jₒ, nₒ]], [(1, [aᵥ, bᵥ, iₒ, jₒ])]⟩,
  -- line 3379: nmef,kldc,deim,afkl,cbjn->abij
  ⟨1/2, [g_bbbb [nₒ, mₒ, eᵥ, fᵥ], l2_abab [kₒ, lₒ, dᵥ, cᵥ], t2_abab [dᵥ, eᵥ, iₒ, mₒ], t2_abab [aᵥ, fᵥ, kₒ, lₒ], t2_bbbb [cᵥ, bᵥ, jₒ, nₒ]], [(1, [aᵥ, bᵥ, iₒ, jₒ])]⟩,
  -- line 3382: nmef,klcd,edim,afkl,cbnj->abij
  ⟨-1/2, [g_abab [nₒ, mₒ, eᵥ, fᵥ], l2_abab [kₒ, lₒ, cᵥ, dᵥ], t2_abab [eᵥ, dᵥ, iₒ, mₒ], t2_abab [aᵥ, fᵥ, kₒ, lₒ], t2_abab [cᵥ, bᵥ, nₒ, jₒ]], [(1, [aᵥ, bᵥ, iₒ, jₒ])]⟩,
  -- line 3385: mnef,lkdc,edim,aflk,cbjn->abij
  ⟨1/2, [g_abab [mₒ, nₒ, eᵥ, fᵥ], l2_abab [lₒ, kₒ, dᵥ, cᵥ], t2_aaaa [eᵥ, dᵥ, iₒ, mₒ], t2_abab [aᵥ, fᵥ, lₒ, kₒ], t2_bbbb [cᵥ, bᵥ, jₒ, nₒ]], [(1, [aᵥ, bᵥ, iₒ, jₒ])]⟩,
  -- line 3388: nmef,lkdc,deim,aflk,cbjn->abij
  ⟨1/2, [g_bbbb [nₒ, mₒ, eᵥ, fᵥ], l2_abab [lₒ, kₒ, dᵥ, cᵥ], t2_abab [dᵥ, eᵥ, iₒ, mₒ], t2_abab [aᵥ, fᵥ, lₒ, kₒ], t2_bbbb [cᵥ, bᵥ, jₒ, nₒ]], [(1, [aᵥ, bᵥ, iₒ, jₒ])]⟩,
  -- line 3391: nmef,lkcd,edim,aflk,cbnj->abij
  ⟨-1/2, [g_abab [nₒ, mₒ, eᵥ, fᵥ], l2_abab [lₒ, kₒ, cᵥ, dᵥ], t2_abab [eᵥ, dᵥ, iₒ, mₒ], t2_abab [aᵥ, fᵥ, lₒ, kₒ], t2_abab [cᵥ, bᵥ, nₒ, jₒ]], [(1, [aᵥ, bᵥ, iₒ, jₒ])]⟩,
  -- line 3394: nmef,kldc,edim,fbkl,acnj->abij
  ⟨-1/2, [g_aaaa [nₒ, mₒ, eᵥ, fᵥ], l2_abab [kₒ, lₒ, dᵥ, cᵥ], t2_aaaa [eᵥ, dᵥ, iₒ, mₒ], t2_abab [fᵥ, bᵥ, kₒ, lₒ], t2_abab [aᵥ, cᵥ, nₒ, jₒ]], [(1, [aᵥ, bᵥ, iₒ, jₒ])]⟩,
  -- line 3397: nmfe,kldc,deim,fbkl,acnj->abij
  ⟨-1/2, [g_abab [nₒ, mₒ, fᵥ, eᵥ], l2_abab [kₒ, lₒ, dᵥ, cᵥ], t2_abab [dᵥ, eᵥ, iₒ, mₒ], t2_abab [fᵥ, bᵥ, kₒ, lₒ], t2_abab [aᵥ, cᵥ, nₒ, jₒ]], [(1, [aᵥ, bᵥ, iₒ, jₒ])]⟩,
  -- line 3400: nmef,lkdc,edim,fblk,acnj->abij
  ⟨-1/2, [g_aaaa [nₒ, mₒ, eᵥ, fᵥ], l2_abab [lₒ, kₒ, dᵥ, cᵥ], t2_aaaa [eᵥ, dᵥ, iₒ, mₒ], t2_abab [fᵥ, bᵥ, lₒ, kₒ], t2_abab [aᵥ, cᵥ, nₒ, jₒ]], [(1, [aᵥ, bᵥ, iₒ, jₒ])]⟩,
  -- line 3403: nmfe,lkdc,deim,fblk,acnj->abij
  ⟨-1/2, [g_abab [nₒ, mₒ, fᵥ, eᵥ], l2_abab [lₒ, kₒ, dᵥ, cᵥ], t2_abab [dᵥ, eᵥ, iₒ, mₒ], t2_abab [fᵥ, bᵥ, lₒ, kₒ], t2_abab [aᵥ, cᵥ, nₒ, jₒ]], [(1, [aᵥ, bᵥ, iₒ, jₒ])]⟩,
  -- line 3406: nmef,kldc,edim,fbkl,acnj->abij
  ⟨-1/2, [g_abab [nₒ, mₒ, eᵥ, fᵥ], l2_bbbb [kₒ, lₒ, dᵥ, cᵥ], t2_abab [eᵥ, dᵥ, iₒ, mₒ], t2_bbbb [fᵥ, bᵥ, kₒ, lₒ], t2_abab [aᵥ, cᵥ, nₒ, jₒ]], [(1, [aᵥ, bᵥ, iₒ, jₒ])]⟩,
  -- line 3409: mnfe,kldc,demj,fail,cbkn->abij
  ⟨1, [g_abab [mₒ, nₒ, fᵥ, eᵥ], l2_aaaa [kₒ, lₒ, dᵥ, cᵥ], t2_abab [dᵥ, eᵥ, mₒ, jₒ], t2_aaaa [fᵥ, aᵥ, iₒ, lₒ], t2_abab [cᵥ, bᵥ, kₒ, nₒ]], [(1, [aᵥ, bᵥ, iₒ, jₒ])]⟩,
  -- line 3412: mnef,klcd,edmj,afil,cbkn->abij
  ⟨1, [g_abab [mₒ, nₒ, eᵥ, fᵥ], l2_abab [kₒ, lₒ, cᵥ, dᵥ], t2_abab [eᵥ, dᵥ, mₒ, jₒ], t2_abab [aᵥ, fᵥ, iₒ, lₒ], t2_abab [cᵥ, bᵥ, kₒ, nₒ]], [(1, [aᵥ, bᵥ, iₒ, jₒ])]⟩,
  -- line 3415: nmef,klcd,edjm,afil,cbkn->abij
  ⟨1, [g_bbbb [nₒ, mₒ, eᵥ, fᵥ], l2_abab [kₒ, lₒ, cᵥ, dᵥ], t2_bbbb [eᵥ, dᵥ, jₒ, mₒ], t2_abab [aᵥ, fᵥ, iₒ, lₒ], t2_abab [cᵥ, bᵥ, kₒ, nₒ]], [(1, [aᵥ, bᵥ, iₒ, jₒ])]⟩,
  -- line 3418: mnfe,lkdc,demj,fail,cbkn->abij
  ⟨-1, [g_abab [mₒ, nₒ, fᵥ, eᵥ], l2_abab [lₒ, kₒ, dᵥ, cᵥ], t2_abab [dᵥ, eᵥ, mₒ, jₒ], t2_aaaa [fᵥ, aᵥ, iₒ, lₒ], t2_bbbb [cᵥ, bᵥ, kₒ, nₒ]], [(1, [aᵥ, bᵥ, iₒ, jₒ])]⟩,
  -- line 3421: nmef,lkcd,edmj,fail,cbnk->abij
  ⟨1, [g_aaaa [nₒ, mₒ, eᵥ, fᵥ], l2_abab [lₒ, kₒ, cᵥ, dᵥ], t2_abab [eᵥ, dᵥ, mₒ, jₒ], t2_aaaa [fᵥ, aᵥ, iₒ, lₒ], t2_abab [cᵥ, bᵥ, nₒ, kₒ]], [(1, [aᵥ, bᵥ, iₒ, jₒ])]⟩,
  -- line 3424: nmfe,lkcd,edjm,fail,cbnk->abij
  ⟨1, [g_abab [nₒ, mₒ, fᵥ, eᵥ], l2_abab [lₒ, kₒ, cᵥ, dᵥ], t2_bbbb [eᵥ, dᵥ, jₒ, mₒ], t2_aaaa [fᵥ, aᵥ, iₒ, lₒ], t2_abab [cᵥ, bᵥ, nₒ, kₒ]], [(1, [aᵥ, bᵥ, iₒ, jₒ])]⟩,
  -- line 3427: mnef,kldc,edmj,afil,cbkn->abij
  ⟨-1, [g_abab [mₒ, nₒ, eᵥ, fᵥ], l2_bbbb [kₒ, lₒ, dᵥ, cᵥ], t2_abab [eᵥ, dᵥ, mₒ, jₒ], t2_abab [aᵥ, fᵥ, iₒ, lₒ], t2_bbbb [cᵥ, bᵥ, kₒ, nₒ]], [(1, [aᵥ, bᵥ, iₒ, jₒ])]⟩,
  -- line 3430: nmef,kldc,edjm,afil,cbkn->abij
  ⟨-1, [g_bbbb [nₒ, mₒ, eᵥ, fᵥ], l2_bbbb [kₒ, lₒ, dᵥ, cᵥ], t2_bbbb [eᵥ, dᵥ, jₒ, mₒ], t2_abab [aᵥ, fᵥ, iₒ, lₒ], t2_bbbb [cᵥ, bᵥ, kₒ, nₒ]], [(1, [aᵥ, bᵥ, iₒ, jₒ])]⟩,
  -- line 3433: mnfe,kldc,demj,fbil,ackn->abij
  ⟨1, [g_abab [mₒ, nₒ, fᵥ, eᵥ], l2_abab [kₒ, lₒ, dᵥ, cᵥ], t2_abab [dᵥ, eᵥ, mₒ, jₒ], t2_abab [fᵥ, bᵥ, iₒ, lₒ], t2_abab [aᵥ, cᵥ, kₒ, nₒ]], [(1, [aᵥ, bᵥ, iₒ, jₒ])]⟩,
  -- line 3436: nmef,klcd,edmj,fbil,cakn->abij
  ⟨-1, [g_aaaa [nₒ, mₒ, eᵥ, fᵥ], l2_abab [kₒ, lₒ, cᵥ, dᵥ], t2_abab [eᵥ, dᵥ, mₒ, jₒ], t2_abab [fᵥ, bᵥ, iₒ, lₒ], t2_aaaa [cᵥ, aᵥ, kₒ, nₒ]], [(1, [aᵥ, bᵥ, iₒ, jₒ])]⟩,
  -- line 3439: nmfe,klcd,edjm,fbil,cakn->abij
  ⟨-1, [g_abab [nₒ, mₒ, fᵥ, eᵥ], l2_abab [kₒ, lₒ, cᵥ, dᵥ], t2_bbbb [eᵥ, dᵥ, jₒ, mₒ], t2_abab [fᵥ, bᵥ, iₒ, lₒ], t2_aaaa [cᵥ, aᵥ, kₒ, nₒ]], [(1, [aᵥ, bᵥ, iₒ, jₒ])]⟩,
  -- line 3442: nmef,kldc,edmj,fbil,acnk->abij
  ⟨1, [g_aaaa [nₒ, mₒ, eᵥ, fᵥ], l2_bbbb [kₒ, lₒ, dᵥ, cᵥ], t2_abab [eᵥ, dᵥ, mₒ, jₒ], t2_abab [fᵥ, bᵥ, iₒ, lₒ], t2_abab [aᵥ, cᵥ, nₒ, kₒ]], [(1, [aᵥ, bᵥ, iₒ, jₒ])]⟩,
  -- line 3445: nmfe,kldc,edjm,fbil,acnk->abij
  ⟨1, [g_abab [nₒ, mₒ, fᵥ, eᵥ], l2_bbbb [kₒ, lₒ, dᵥ, cᵥ], t2_bbbb [eᵥ, dᵥ, jₒ, mₒ], t2_abab [fᵥ, bᵥ, iₒ, lₒ], t2_abab [aᵥ, cᵥ, nₒ, kₒ]], [(1, [aᵥ, bᵥ, iₒ, jₒ])]⟩,
  -- line 3448: mnef,kldc,edim,aflj,cbkn->abij
  ⟨1, [g_abab [mₒ, nₒ, eᵥ, fᵥ], l2_aaaa [kₒ, lₒ, dᵥ, cᵥ], t2_aaaa [eᵥ, dᵥ, iₒ, mₒ], t2_abab [aᵥ, fᵥ, lₒ, jₒ], t2_abab [cᵥ, bᵥ, kₒ, nₒ]], [(1, [aᵥ, bᵥ, iₒ, jₒ])]⟩,
  -- line 3451: nmef,kldc,deim,aflj,cbkn->abij
  ⟨1, [g_bbbb [nₒ, mₒ, eᵥ, fᵥ], l2_aaaa [kₒ, lₒ, dᵥ, cᵥ], t2_abab [dᵥ, eᵥ, iₒ, mₒ], t2_abab [aᵥ, fᵥ, lₒ, jₒ], t2_abab [cᵥ, bᵥ, kₒ, nₒ]], [(1, [aᵥ, bᵥ, iₒ, jₒ])]⟩,
  -- line 3454: mnef,lkdc,edim,aflj,cbkn->abij
  ⟨-1, [g_abab [mₒ, nₒ, eᵥ, fᵥ], l2_abab [lₒ, kₒ, dᵥ, cᵥ], t2_aaaa [eᵥ, dᵥ, iₒ, mₒ], t2_abab [aᵥ, fᵥ, lₒ, jₒ], t2_bbbb [cᵥ, bᵥ, kₒ, nₒ]], [(1, [aᵥ, bᵥ, iₒ, jₒ])]⟩,
  -- line 3457: nmef,lkdc,deim,aflj,cbkn->abij
  ⟨-1, [g_bbbb [nₒ, mₒ, eᵥ, fᵥ], l2_abab [lₒ, kₒ, dᵥ, cᵥ], t2_abab [dᵥ, eᵥ, iₒ, mₒ], t2_abab [aᵥ, fᵥ, lₒ, jₒ], t2_bbbb [cᵥ, bᵥ, kₒ, nₒ]], [(1, [aᵥ, bᵥ, iₒ, jₒ])]⟩,
  -- line 3460: nmef,lkcd,edim,aflj,cbnk->abij
  ⟨1, [g_abab [nₒ, mₒ, eᵥ, fᵥ], l2_abab [lₒ, kₒ, cᵥ, dᵥ], t2_abab [eᵥ, dᵥ, iₒ, mₒ], t2_abab [aᵥ, fᵥ, lₒ, jₒ], t2_abab [cᵥ, bᵥ, nₒ, kₒ]], [(1, [aᵥ, bᵥ, iₒ, jₒ])]⟩,
  -- line 3463: nmef,kldc,edim,fblj,cakn->abij
  ⟨-1, [g_aaaa [nₒ, mₒ, eᵥ, fᵥ], l2_aaaa [kₒ, lₒ, dᵥ, cᵥ], t2_aaaa [eᵥ, dᵥ, iₒ, mₒ], t2_abab [fᵥ, bᵥ, lₒ, jₒ], t2_aaaa [cᵥ, aᵥ, kₒ, nₒ]], [(1, [aᵥ, bᵥ, iₒ, jₒ])]⟩,
  -- line 3466: nmfe,kldc,deim,fblj,cakn->abij
  ⟨-1, [g_abab [nₒ, mₒ, fᵥ, eᵥ], l2_aaaa [kₒ, lₒ, dᵥ, cᵥ], t2_abab [dᵥ, eᵥ, iₒ, mₒ], t2_abab [fᵥ, bᵥ, lₒ, jₒ], t2_aaaa [cᵥ, aᵥ, kₒ, nₒ]], [(1, [aᵥ, bᵥ, iₒ, jₒ])]⟩,
  -- line 3469: mnef,kldc,edim,fbjl,ackn->abij
  ⟨1, [g_abab [mₒ, nₒ, eᵥ, fᵥ], l2_abab [kₒ, lₒ, dᵥ, cᵥ], t2_aaaa [eᵥ, dᵥ, iₒ, mₒ], t2_bbbb [fᵥ, bᵥ, jₒ, lₒ], t2_abab [aᵥ, cᵥ, kₒ, nₒ]], [(1, [aᵥ, bᵥ, iₒ, jₒ])]⟩,
  -- line 3472: nmef,kldc,deim,fbjl,ackn->abij
  ⟨1, [g_bbbb [nₒ, mₒ, eᵥ, fᵥ], l2_abab [kₒ, lₒ, dᵥ, cᵥ], t2_abab [dᵥ, eᵥ, iₒ, mₒ], t2_bbbb [fᵥ, bᵥ, jₒ, lₒ], t2_abab [aᵥ, cᵥ, kₒ, nₒ]], [(1, [aᵥ, bᵥ, iₒ, jₒ])]⟩
  ]

/-- Part 7 of `residQf2_abab`. -/
def residQf2_abab_7 : Prog := [
  -- line 3475: nmef,klcd,edim,fbjl,cakn->abij
  ⟨-1, [g_abab [nₒ, mₒ, eᵥ, fᵥ], l2_abab [kₒ, lₒ, cᵥ, dᵥ], t2_abab [eᵥ, dᵥ, iₒ, mₒ], t2_bbbb [fᵥ, bᵥ, jₒ, lₒ], t2_aaaa [cᵥ, aᵥ, kₒ, nₒ]], [(1, [aᵥ, bᵥ, iₒ, jₒ])]⟩,
  -- line 3478: nmef,lkdc,edim,fblj,acnk->abij
  ⟨1, [g_aaaa [nₒ, mₒ, eᵥ, fᵥ], l2_abab [lₒ, kₒ, dᵥ, cᵥ], t2_aaaa [eᵥ, dᵥ, iₒ, mₒ], t2_abab [fᵥ, bᵥ, lₒ, jₒ], t2_abab [aᵥ, cᵥ, nₒ, kₒ]], [(1, [aᵥ, bᵥ, iₒ, jₒ])]⟩,
  -- line 3481: nmfe,lkdc,deim,fblj,acnk->abij
  ⟨1, [g_abab [nₒ, mₒ, fᵥ, eᵥ], l2_abab [lₒ, kₒ, dᵥ, cᵥ], t2_abab [dᵥ, eᵥ, iₒ, mₒ], t2_abab [fᵥ, bᵥ, lₒ, jₒ], t2_abab [aᵥ, cᵥ, nₒ, kₒ]], [(1, [aᵥ, bᵥ, iₒ, jₒ])]⟩,
  -- line 3484: nmef,kldc,edim,fbjl,acnk->abij
  ⟨1, [g_abab [nₒ, mₒ, eᵥ, fᵥ], l2_bbbb [kₒ, lₒ, dᵥ, cᵥ], t2_abab [eᵥ, dᵥ, iₒ, mₒ], t2_bbbb [fᵥ, bᵥ, jₒ, lₒ], t2_abab [aᵥ, cᵥ, nₒ, kₒ]], [(1, [aᵥ, bᵥ, iₒ, jₒ])]⟩,
  -- line 3487: nmef,kldc,edkl,cfij,abnm->abij
  ⟨1/4, [g_abab [nₒ, mₒ, eᵥ, fᵥ], l2_aaaa [kₒ, lₒ, dᵥ, cᵥ], t2_aaaa [eᵥ, dᵥ, kₒ, lₒ], t2_abab [cᵥ, fᵥ, iₒ, jₒ], t2_abab [aᵥ, bᵥ, nₒ, mₒ]], [(1, [aᵥ, bᵥ, iₒ, jₒ])]⟩,
  -- line 3490: mnef,kldc,edkl,cfij,abmn->abij
  ⟨1/4, [g_abab [mₒ, nₒ, eᵥ, fᵥ], l2_aaaa [kₒ, lₒ, dᵥ, cᵥ], t2_aaaa [eᵥ, dᵥ, kₒ, lₒ], t2_abab [cᵥ, fᵥ, iₒ, jₒ], t2_abab [aᵥ, bᵥ, mₒ, nₒ]], [(1, [aᵥ, bᵥ, iₒ, jₒ])]⟩,
  -- line 3493: nmfe,kldc,dekl,fcij,abnm->abij
  ⟨-1/4, [g_abab [nₒ, mₒ, fᵥ, eᵥ], l2_abab [kₒ, lₒ, dᵥ, cᵥ], t2_abab [dᵥ, eᵥ, kₒ, lₒ], t2_abab [fᵥ, cᵥ, iₒ, jₒ], t2_abab [aᵥ, bᵥ, nₒ, mₒ]], [(1, [aᵥ, bᵥ, iₒ, jₒ])]⟩,
  -- line 3496: mnfe,kldc,dekl,fcij,abmn->abij
  ⟨-1/4, [g_abab [mₒ, nₒ, fᵥ, eᵥ], l2_abab [kₒ, lₒ, dᵥ, cᵥ], t2_abab [dᵥ, eᵥ, kₒ, lₒ], t2_abab [fᵥ, cᵥ, iₒ, jₒ], t2_abab [aᵥ, bᵥ, mₒ, nₒ]], [(1, [aᵥ, bᵥ, iₒ, jₒ])]⟩,
  -- line 3499: nmef,klcd,edkl,cfij,abnm->abij
  ⟨-1/4, [g_abab [nₒ, mₒ, eᵥ, fᵥ], l2_abab [kₒ, lₒ, cᵥ, dᵥ], t2_abab [eᵥ, dᵥ, kₒ, lₒ], t2_abab [cᵥ, fᵥ, iₒ, jₒ], t2_abab [aᵥ, bᵥ, nₒ, mₒ]], [(1, [aᵥ, bᵥ, iₒ, jₒ])]⟩,
  -- line 3502: mnef,klcd,edkl,cfij,abmn->abij
  ⟨-1/4, [g_abab [mₒ, nₒ, eᵥ, fᵥ], l2_abab [kₒ, lₒ, cᵥ, dᵥ], t2_abab [eᵥ, dᵥ, kₒ, lₒ], t2_abab [cᵥ, fᵥ, iₒ, jₒ], t2_abab [aᵥ, bᵥ, mₒ, nₒ]], [(1, [aᵥ, bᵥ, iₒ, jₒ])]⟩,
  -- line 3505: nmfe,lkdc,delk,fcij,abnm->abij
  ⟨-1/4, [g_abab [nₒ, mₒ, fᵥ, eᵥ], l2_abab [lₒ, kₒ, dᵥ, cᵥ], t2_abab [dᵥ, eᵥ, lₒ, kₒ], t2_abab [fᵥ, cᵥ, iₒ, jₒ], t2_abab [aᵥ, bᵥ, nₒ, mₒ]], [(1, [aᵥ, bᵥ, iₒ, jₒ])]⟩,
  -- line 3508: mnfe,lkdc,delk,fcij,abmn->abij
  ⟨-1/4, [g_abab [mₒ, nₒ, fᵥ, eᵥ], l2_abab [lₒ, kₒ, dᵥ, cᵥ], t2_abab [dᵥ, eᵥ, lₒ, kₒ], t2_abab [fᵥ, cᵥ, iₒ, jₒ], t2_abab [aᵥ, bᵥ, mₒ, nₒ]], [(1, [aᵥ, bᵥ, iₒ, jₒ])]⟩,
  -- line 3511: nmef,lkcd,edlk,cfij,abnm->abij
  ⟨-1/4, [g_abab [nₒ, mₒ, eᵥ, fᵥ], l2_abab [lₒ, kₒ, cᵥ, dᵥ], t2_abab [eᵥ, dᵥ, lₒ, kₒ], t2_abab [cᵥ, fᵥ, iₒ, jₒ], t2_abab [aᵥ, bᵥ, nₒ, mₒ]], [(1, [aᵥ, bᵥ, iₒ, jₒ])]⟩,
  -- line 3514: mnef,lkcd,edlk,cfij,abmn->abij
  ⟨-1/4, [g_abab [mₒ, nₒ, eᵥ, fᵥ], l2_abab [lₒ, kₒ, cᵥ, dᵥ], t2_abab [eᵥ, dᵥ, lₒ, kₒ], t2_abab [cᵥ, fᵥ, iₒ, jₒ], t2_abab [aᵥ, bᵥ, mₒ, nₒ]], [(1, [aᵥ, bᵥ, iₒ, jₒ])]⟩,
  -- line 3517: nmfe,kldc,edkl,fcij,abnm->abij
  ⟨1/4, [g_abab [nₒ, mₒ, fᵥ, eᵥ], l2_bbbb [kₒ, lₒ, dᵥ, cᵥ], t2_bbbb [eᵥ, dᵥ, kₒ, lₒ], t2_abab [fᵥ, cᵥ, iₒ, jₒ], t2_abab [aᵥ, bᵥ, nₒ, mₒ]], [(1, [aᵥ, bᵥ, iₒ, jₒ])]⟩,
  -- line 3520: mnfe,kldc,edkl,fcij,abmn->abij
  ⟨1/4, [g_abab [mₒ, nₒ, fᵥ, eᵥ], l2_bbbb [kₒ, lₒ, dᵥ, cᵥ], t2_bbbb [eᵥ, dᵥ, kₒ, lₒ], t2_abab [fᵥ, cᵥ, iₒ, jₒ], t2_abab [aᵥ, bᵥ, mₒ, nₒ]], [(1, [aᵥ, bᵥ, iₒ, jₒ])]⟩,
  -- line 3523: mnef,kldc,edkl,afmj,cbin->abij
  ⟨1/2, [g_abab [mₒ, nₒ, eᵥ, fᵥ], l2_aaaa [kₒ, lₒ, dᵥ, cᵥ], t2_aaaa [eᵥ, dᵥ, kₒ, lₒ], t2_abab [aᵥ, fᵥ, mₒ, jₒ], t2_abab [cᵥ, bᵥ, iₒ, nₒ]], [(1, [aᵥ, bᵥ, iₒ, jₒ])]⟩,
  -- line 3526: mnef,klcd,edkl,afmj,cbin->abij
  ⟨-1/2, [g_abab [mₒ, nₒ, eᵥ, fᵥ], l2_abab [kₒ, lₒ, cᵥ, dᵥ], t2_abab [eᵥ, dᵥ, kₒ, lₒ], t2_abab [aᵥ, fᵥ, mₒ, jₒ], t2_abab [cᵥ, bᵥ, iₒ, nₒ]], [(1, [aᵥ, bᵥ, iₒ, jₒ])]⟩,
  -- line 3529: mnef,lkcd,edlk,afmj,cbin->abij
  ⟨-1/2, [g_abab [mₒ, nₒ, eᵥ, fᵥ], l2_abab [lₒ, kₒ, cᵥ, dᵥ], t2_abab [eᵥ, dᵥ, lₒ, kₒ], t2_abab [aᵥ, fᵥ, mₒ, jₒ], t2_abab [cᵥ, bᵥ, iₒ, nₒ]], [(1, [aᵥ, bᵥ, iₒ, jₒ])]⟩,
  -- line 3532: nmef,kldc,edkl,fbmj,cain->abij
  ⟨-1/2, [g_aaaa [nₒ, mₒ, eᵥ, fᵥ], l2_aaaa [kₒ, lₒ, dᵥ, cᵥ], t2_aaaa [eᵥ, dᵥ, kₒ, lₒ], t2_abab [fᵥ, bᵥ, mₒ, jₒ], t2_aaaa [cᵥ, aᵥ, iₒ, nₒ]], [(1, [aᵥ, bᵥ, iₒ, jₒ])]⟩,
  -- line 3535: nmef,kldc,edkl,fbjm,cain->abij
  ⟨1/2, [g_abab [nₒ, mₒ, eᵥ, fᵥ], l2_aaaa [kₒ, lₒ, dᵥ, cᵥ], t2_aaaa [eᵥ, dᵥ, kₒ, lₒ], t2_bbbb [fᵥ, bᵥ, jₒ, mₒ], t2_aaaa [cᵥ, aᵥ, iₒ, nₒ]], [(1, [aᵥ, bᵥ, iₒ, jₒ])]⟩,
  -- line 3538: mnfe,kldc,dekl,fbmj,acin->abij
  ⟨-1/2, [g_abab [mₒ, nₒ, fᵥ, eᵥ], l2_abab [kₒ, lₒ, dᵥ, cᵥ], t2_abab [dᵥ, eᵥ, kₒ, lₒ], t2_abab [fᵥ, bᵥ, mₒ, jₒ], t2_abab [aᵥ, cᵥ, iₒ, nₒ]], [(1, [aᵥ, bᵥ, iₒ, jₒ])]⟩,
  -- line 3541: nmef,kldc,dekl,fbjm,acin->abij
  ⟨1/2, [g_bbbb [nₒ, mₒ, eᵥ, fᵥ], l2_abab [kₒ, lₒ, dᵥ, cᵥ], t2_abab [dᵥ, eᵥ, kₒ, lₒ], t2_bbbb [fᵥ, bᵥ, jₒ, mₒ], t2_abab [aᵥ, cᵥ, iₒ, nₒ]], [(1, [aᵥ, bᵥ, iₒ, jₒ])]⟩,
  -- line 3544: nmef,klcd,edkl,fbmj,cain->abij
  ⟨1/2, [g_aaaa [nₒ, mₒ, eᵥ, fᵥ], l2_abab [kₒ, lₒ, cᵥ, dᵥ], t2_abab [eᵥ, dᵥ, kₒ, lₒ], t2_abab [fᵥ, bᵥ, mₒ, jₒ], t2_aaaa [cᵥ, aᵥ, iₒ, nₒ]], [(1, [aᵥ, bᵥ, iₒ, jₒ])]⟩,
  -- line 3547: nmef,klcd,edkl,fbjm,cain->abij
  ⟨-1/2, [g_abab [nₒ, mₒ, eᵥ, fᵥ], l2_abab [kₒ, lₒ, cᵥ, dᵥ], t2_abab [eᵥ, dᵥ, kₒ, lₒ], t2_bbbb [fᵥ, bᵥ, jₒ, mₒ], t2_aaaa [cᵥ, aᵥ, iₒ, nₒ]], [(1, [aᵥ, bᵥ, iₒ, jₒ])]⟩,
  -- line 3550: mnfe,lkdc,delk,fbmj,acin->abij
  ⟨-1/2, [g_abab [mₒ, nₒ, fᵥ, eᵥ], l2_abab [lₒ, kₒ, dᵥ, cᵥ], t2_abab [dᵥ, eᵥ, lₒ, kₒ], t2_abab [fᵥ, bᵥ, mₒ, jₒ], t2_abab [aᵥ, cᵥ, iₒ, nₒ]], [(1, [aᵥ, bᵥ, iₒ, jₒ])]⟩,
  -- line 3553: nmef,lkdc,delk,fbjm,acin->abij
  ⟨1/2, [g_bbbb [nₒ, mₒ, eᵥ, fᵥ], l2_abab [lₒ, kₒ, dᵥ, cᵥ], t2_abab [dᵥ, eᵥ, lₒ, kₒ], t2_bbbb [fᵥ, bᵥ, jₒ, mₒ], t2_abab [aᵥ, cᵥ, iₒ, nₒ]], [(1, [aᵥ, bᵥ, iₒ, jₒ])]⟩,
  -- line 3556: nmef,lkcd,edlk,fbmj,cain->abij
  ⟨1/2, [g_aaaa [nₒ, mₒ, eᵥ, fᵥ], l2_abab [lₒ, kₒ, cᵥ, dᵥ], t2_abab [eᵥ, dᵥ, lₒ, kₒ], t2_abab [fᵥ, bᵥ, mₒ, jₒ], t2_aaaa [cᵥ, aᵥ, iₒ, nₒ]], [(1, [aᵥ, bᵥ, iₒ, jₒ])]⟩,
  -- line 3559: nmef,lkcd,edlk,fbjm,cain->abij
  ⟨-1/2, [g_abab [nₒ, mₒ, eᵥ, fᵥ], l2_abab [lₒ, kₒ, cᵥ, dᵥ], t2_abab [eᵥ, dᵥ, lₒ, kₒ], t2_bbbb [fᵥ, bᵥ, jₒ, mₒ], t2_aaaa [cᵥ, aᵥ, iₒ, nₒ]], [(1, [aᵥ, bᵥ, iₒ, jₒ])]⟩,
  -- line 3562: mnfe,kldc,edkl,fbmj,acin->abij
  ⟨1/2, [g_abab [mₒ, nₒ, fᵥ, eᵥ], l2_bbbb [kₒ, lₒ, dᵥ, cᵥ], t2_bbbb [eᵥ, dᵥ, kₒ, lₒ], t2_abab [fᵥ, bᵥ, mₒ, jₒ], t2_abab [aᵥ, cᵥ, iₒ, nₒ]], [(1, [aᵥ, bᵥ, iₒ, jₒ])]⟩,
  -- line 3565: nmef,kldc,edkl,fbjm,acin->abij
  ⟨-1/2, [g_bbbb [nₒ, mₒ, eᵥ, fᵥ], l2_bbbb [kₒ, lₒ, dᵥ, cᵥ], t2_bbbb [eᵥ, dᵥ, kₒ, lₒ], t2_bbbb [fᵥ, bᵥ, jₒ, mₒ], t2_abab [aᵥ, cᵥ, iₒ, nₒ]], [(1, [aᵥ, bᵥ, iₒ, jₒ])]⟩,
  -- line 3568: nmef,kldc,edkl,faim,cbnj->abij
  ⟨-1/2, [g_aaaa [nₒ, mₒ, eᵥ, fᵥ], l2_aaaa [kₒ, lₒ, dᵥ, cᵥ], t2_aaaa [eᵥ, dᵥ, kₒ, lₒ], t2_aaaa [fᵥ, aᵥ, iₒ, mₒ], t2_abab [cᵥ, bᵥ, nₒ, jₒ]], [(1, [aᵥ, bᵥ, iₒ, jₒ])]⟩,
  -- line 3571: nmef,kldc,edkl,afim,cbnj->abij
  ⟨1/2, [g_abab [nₒ, mₒ, eᵥ, fᵥ], l2_aaaa [kₒ, lₒ, dᵥ, cᵥ], t2_aaaa [eᵥ, dᵥ, kₒ, lₒ], t2_abab [aᵥ, fᵥ, iₒ, mₒ], t2_abab [cᵥ, bᵥ, nₒ, jₒ]], [(1, [aᵥ, bᵥ, iₒ, jₒ])]⟩,
  -- line 3574: mnfe,kldc,dekl,faim,cbjn->abij
  ⟨-1/2, [g_abab [mₒ, nₒ, fᵥ, eᵥ], l2_abab [kₒ, lₒ, dᵥ, cᵥ], t2_abab [dᵥ, eᵥ, kₒ, lₒ], t2_aaaa [fᵥ, aᵥ, iₒ, mₒ], t2_bbbb [cᵥ, bᵥ, jₒ, nₒ]], [(1, [aᵥ, bᵥ, iₒ, jₒ])]⟩,
  -- line 3577: nmef,kldc,dekl,afim,cbjn->abij
  ⟨1/2, [g_bbbb [nₒ, mₒ, eᵥ, fᵥ], l2_abab [kₒ, lₒ, dᵥ, cᵥ], t2_abab [dᵥ, eᵥ, kₒ, lₒ], t2_abab [aᵥ, fᵥ, iₒ, mₒ], t2_bbbb [cᵥ, bᵥ, jₒ, nₒ]], [(1, [aᵥ, bᵥ, iₒ, jₒ])]⟩,
  -- line 3580: nmef,klcd,edkl,faim,cbnj->abij
  ⟨1/2, [g_aaaa [nₒ, mₒ, eᵥ, fᵥ], l2_abab [kₒ, lₒ, cᵥ, dᵥ], t2_abab [eᵥ, dᵥ, kₒ, lₒ], t2_aaaa [fᵥ, aᵥ, iₒ, mₒ], t2_abab [cᵥ, bᵥ, nₒ, jₒ]], [(1, [aᵥ, bᵥ, iₒ, jₒ])]⟩,
  -- line 3583: nmef,klcd,edkl,afim,cbnj->abij
  ⟨-1/2, [g_abab [nₒ, mₒ, eᵥ, fᵥ], l2_abab [kₒ, lₒ, cᵥ, dᵥ], t2_abab [eᵥ, dᵥ, kₒ, lₒ], t2_abab [aᵥ, fᵥ, iₒ, mₒ], t2_abab [cᵥ, bᵥ, nₒ, jₒ]], [(1, [aᵥ, bᵥ, iₒ, jₒ])]⟩,
  -- line 3586: mnfe,lkdc,delk,faim,cbjn->abij
  ⟨-1/2, [g_abab [mₒ, nₒ, fᵥ, eᵥ], l2_abab [lₒ, kₒ, dᵥ, cᵥ], t2_abab [dᵥ, eᵥ, lₒ, kₒ], t2_aaaa [fᵥ, aᵥ, iₒ, mₒ], t2_bbbb [cᵥ, bᵥ, jₒ, nₒ]], [(1, [aᵥ, bᵥ, iₒ, jₒ])]⟩,
  -- line 3589: nmef,lkdc,delk,afim,cbjn->abij
  ⟨1/2, [g_bbbb [nₒ, mₒ, eᵥ, fᵥ], l2_abab [lₒ, kₒ, dᵥ, cᵥ], t2_abab [dᵥ, eᵥ, lₒ, kₒ], t2_abab [aᵥ, fᵥ, iₒ, mₒ], t2_bbbb [cᵥ, bᵥ, jₒ, nₒ]], [(1, [aᵥ, bᵥ, iₒ, jₒ])]⟩,
  -- line 3592: nmef,lkcd,edlk,faim,cbnj->abij
  ⟨1/2, [g_aaaa [nₒ, mₒ, eᵥ, fᵥ], l2_abab [lₒ, kₒ, cᵥ, dᵥ], t2_abab [eᵥ, dᵥ, lₒ, kₒ], t2_aaaa [fᵥ, aᵥ, iₒ, mₒ], t2_abab [cᵥ, bᵥ, nₒ, jₒ]], [(1, [aᵥ, bᵥ, iₒ, jₒ])]⟩
  ]

/-- Part 8 of `residQf2_abab`. -/
def residQf2_abab_8 : Prog := [
  -- line 3595: nmef,lkcd,edlk,afim,cbnj->abij
  ⟨-1/2, [g_abab [nₒ, mₒ, eᵥ, fᵥ], l2_abab [lₒ, kₒ, cᵥ, dᵥ], t2_abab [eᵥ, dᵥ, lₒ, kₒ], t2_abab [aᵥ, fᵥ, iₒ, mₒ], t2_abab [cᵥ, bᵥ, nₒ, jₒ]], [(1, [aᵥ, bᵥ, iₒ, jₒ])]⟩,
  -- line 3598: mnfe,kldc,edkl,faim,cbjn->abij
  ⟨1/2, [g_abab [mₒ, nₒ, fᵥ, eᵥ], l2_bbbb [kₒ, lₒ, dᵥ, cᵥ], t2_bbbb [eᵥ, dᵥ, kₒ, lₒ], t2_aaaa [fᵥ, aᵥ, iₒ, mₒ], t2_bbbb [cᵥ, bᵥ, jₒ, nₒ]], [(1, [aᵥ, bᵥ, iₒ, jₒ])]⟩,
  -- line 3601: nmef,kldc,edkl,afim,cbjn->abij
  ⟨-1/2, [g_bbbb [nₒ, mₒ, eᵥ, fᵥ], l2_bbbb [kₒ, lₒ, dᵥ, cᵥ], t2_bbbb [eᵥ, dᵥ, kₒ, lₒ], t2_abab [aᵥ, fᵥ, iₒ, mₒ], t2_bbbb [cᵥ, bᵥ, jₒ, nₒ]], [(1, [aᵥ, bᵥ, iₒ, jₒ])]⟩,
  -- line 3604: nmfe,kldc,dekl,fbim,acnj->abij
  ⟨-1/2, [g_abab [nₒ, mₒ, fᵥ, eᵥ], l2_abab [kₒ, lₒ, dᵥ, cᵥ], t2_abab [dᵥ, eᵥ, kₒ, lₒ], t2_abab [fᵥ, bᵥ, iₒ, mₒ], t2_abab [aᵥ, cᵥ, nₒ, jₒ]], [(1, [aᵥ, bᵥ, iₒ, jₒ])]⟩,
  -- line 3607: nmfe,lkdc,delk,fbim,acnj->abij
  ⟨-1/2, [g_abab [nₒ, mₒ, fᵥ, eᵥ], l2_abab [lₒ, kₒ, dᵥ, cᵥ], t2_abab [dᵥ, eᵥ, lₒ, kₒ], t2_abab [fᵥ, bᵥ, iₒ, mₒ], t2_abab [aᵥ, cᵥ, nₒ, jₒ]], [(1, [aᵥ, bᵥ, iₒ, jₒ])]⟩,
  -- line 3610: nmfe,kldc,edkl,fbim,acnj->abij
  ⟨1/2, [g_abab [nₒ, mₒ, fᵥ, eᵥ], l2_bbbb [kₒ, lₒ, dᵥ, cᵥ], t2_bbbb [eᵥ, dᵥ, kₒ, lₒ], t2_abab [fᵥ, bᵥ, iₒ, mₒ], t2_abab [aᵥ, cᵥ, nₒ, jₒ]], [(1, [aᵥ, bᵥ, iₒ, jₒ])]⟩,
  -- line 3613: nmef,kldc,edkl,afij,cbnm->abij
  ⟨-1/4, [g_abab [nₒ, mₒ, eᵥ, fᵥ], l2_aaaa [kₒ, lₒ, dᵥ, cᵥ], t2_aaaa [eᵥ, dᵥ, kₒ, lₒ], t2_abab [aᵥ, fᵥ, iₒ, jₒ], t2_abab [cᵥ, bᵥ, nₒ, mₒ]], [(1, [aᵥ, bᵥ, iₒ, jₒ])]⟩,
  -- line 3616: mnef,kldc,edkl,afij,cbmn->abij
  ⟨-1/4, [g_abab [mₒ, nₒ, eᵥ, fᵥ], l2_aaaa [kₒ, lₒ, dᵥ, cᵥ], t2_aaaa [eᵥ, dᵥ, kₒ, lₒ], t2_abab [aᵥ, fᵥ, iₒ, jₒ], t2_abab [cᵥ, bᵥ, mₒ, nₒ]], [(1, [aᵥ, bᵥ, iₒ, jₒ])]⟩,
  -- line 3619: nmef,kldc,dekl,afij,cbnm->abij
  ⟨1/4, [g_bbbb [nₒ, mₒ, eᵥ, fᵥ], l2_abab [kₒ, lₒ, dᵥ, cᵥ], t2_abab [dᵥ, eᵥ, kₒ, lₒ], t2_abab [aᵥ, fᵥ, iₒ, jₒ], t2_bbbb [cᵥ, bᵥ, nₒ, mₒ]], [(1, [aᵥ, bᵥ, iₒ, jₒ])]⟩,
  -- line 3622: nmef,klcd,edkl,afij,cbnm->abij
  ⟨1/4, [g_abab [nₒ, mₒ, eᵥ, fᵥ], l2_abab [kₒ, lₒ, cᵥ, dᵥ], t2_abab [eᵥ, dᵥ, kₒ, lₒ], t2_abab [aᵥ, fᵥ, iₒ, jₒ], t2_abab [cᵥ, bᵥ, nₒ, mₒ]], [(1, [aᵥ, bᵥ, iₒ, jₒ])]⟩,
  -- line 3625: mnef,klcd,edkl,afij,cbmn->abij
  ⟨1/4, [g_abab [mₒ, nₒ, eᵥ, fᵥ], l2_abab [kₒ, lₒ, cᵥ, dᵥ], t2_abab [eᵥ, dᵥ, kₒ, lₒ], t2_abab [aᵥ, fᵥ, iₒ, jₒ], t2_abab [cᵥ, bᵥ, mₒ, nₒ]], [(1, [aᵥ, bᵥ, iₒ, jₒ])]⟩,
  -- line 3628: nmef,lkdc,delk,afij,cbnm->abij
  ⟨1/4, [g_bbbb [nₒ, mₒ, eᵥ, fᵥ], l2_abab [lₒ, kₒ, dᵥ, cᵥ], t2_abab [dᵥ, eᵥ, lₒ, kₒ], t2_abab [aᵥ, fᵥ, iₒ, jₒ], t2_bbbb [cᵥ, bᵥ, nₒ, mₒ]], [(1, [aᵥ, bᵥ, iₒ, jₒ])]⟩,
  -- line 3631: nmef,lkcd,edlk,afij,cbnm->abij
  ⟨1/4, [g_abab [nₒ, mₒ, eᵥ, fᵥ], l2_abab [lₒ, kₒ, cᵥ, dᵥ], t2_abab [eᵥ, dᵥ, lₒ, kₒ], t2_abab [aᵥ, fᵥ, iₒ, jₒ], t2_abab [cᵥ, bᵥ, nₒ, mₒ]], [(1, [aᵥ, bᵥ, iₒ, jₒ])]⟩,
  -- line 3634: mnef,lkcd,edlk,afij,cbmn->abij
  ⟨1/4, [g_abab [mₒ, nₒ, eᵥ, fᵥ], l2_abab [lₒ, kₒ, cᵥ, dᵥ], t2_abab [eᵥ, dᵥ, lₒ, kₒ], t2_abab [aᵥ, fᵥ, iₒ, jₒ], t2_abab [cᵥ, bᵥ, mₒ, nₒ]], [(1, [aᵥ, bᵥ, iₒ, jₒ])]⟩,
  -- line 3637: nmef,kldc,edkl,afij,cbnm->abij
  ⟨-1/4, [g_bbbb [nₒ, mₒ, eᵥ, fᵥ], l2_bbbb [kₒ, lₒ, dᵥ, cᵥ], t2_bbbb [eᵥ, dᵥ, kₒ, lₒ], t2_abab [aᵥ, fᵥ, iₒ, jₒ], t2_bbbb [cᵥ, bᵥ, nₒ, mₒ]], [(1, [aᵥ, bᵥ, iₒ, jₒ])]⟩,
  -- line 3640: nmef,kldc,edkl,fbij,canm->abij
  ⟨-1/4, [g_aaaa [nₒ, mₒ, eᵥ, fᵥ], l2_aaaa [kₒ, lₒ, dᵥ, cᵥ], t2_aaaa [eᵥ, dᵥ, kₒ, lₒ], t2_abab [fᵥ, bᵥ, iₒ, jₒ], t2_aaaa [cᵥ, aᵥ, nₒ, mₒ]], [(1, [aᵥ, bᵥ, iₒ, jₒ])]⟩,
  -- line 3643: nmfe,kldc,dekl,fbij,acnm->abij
  ⟨1/4, [g_abab [nₒ, mₒ, fᵥ, eᵥ], l2_abab [kₒ, lₒ, dᵥ, cᵥ], t2_abab [dᵥ, eᵥ, kₒ, lₒ], t2_abab [fᵥ, bᵥ, iₒ, jₒ], t2_abab [aᵥ, cᵥ, nₒ, mₒ]], [(1, [aᵥ, bᵥ, iₒ, jₒ])]⟩,
  -- line 3646: mnfe,kldc,dekl,fbij,acmn->abij
  ⟨1/4, [g_abab [mₒ, nₒ, fᵥ, eᵥ], l2_abab [kₒ, lₒ, dᵥ, cᵥ], t2_abab [dᵥ, eᵥ, kₒ, lₒ], t2_abab [fᵥ, bᵥ, iₒ, jₒ], t2_abab [aᵥ, cᵥ, mₒ, nₒ]], [(1, [aᵥ, bᵥ, iₒ, jₒ])]⟩,
  -- line 3649: nmef,klcd,edkl,fbij,canm->abij
  ⟨1/4, [g_aaaa [nₒ, mₒ, eᵥ, fᵥ], l2_abab [kₒ, lₒ, cᵥ, dᵥ], t2_abab [eᵥ, dᵥ, kₒ, lₒ], t2_abab [fᵥ, bᵥ, iₒ, jₒ], t2_aaaa [cᵥ, aᵥ, nₒ, mₒ]], [(1, [aᵥ, bᵥ, iₒ, jₒ])]⟩,
  -- line 3652: nmfe,lkdc,delk,fbij,acnm->abij
  ⟨1/4, [g_abab [nₒ, mₒ, fᵥ, eᵥ], l2_abab [lₒ, kₒ, dᵥ, cᵥ], t2_abab [dᵥ, eᵥ, lₒ, kₒ], t2_abab [fᵥ, bᵥ, iₒ, jₒ], t2_abab [aᵥ, cᵥ, nₒ, mₒ]], [(1, [aᵥ, bᵥ, iₒ, jₒ])]⟩,
  -- line 3655: mnfe,lkdc,delk,fbij,acmn->abij
  ⟨1/4, [g_abab [mₒ, nₒ, fᵥ, eᵥ], l2_abab [lₒ, kₒ, dᵥ, cᵥ], t2_abab [dᵥ, eᵥ, lₒ, kₒ], t2_abab [fᵥ, bᵥ, iₒ, jₒ], t2_abab [aᵥ, cᵥ, mₒ, nₒ]], [(1, [aᵥ, bᵥ, iₒ, jₒ])]⟩,
  -- line 3658: nmef,lkcd,edlk,fbij,canm->abij
  ⟨1/4, [g_aaaa [nₒ, mₒ, eᵥ, fᵥ], l2_abab [lₒ, kₒ, cᵥ, dᵥ], t2_abab [eᵥ, dᵥ, lₒ, kₒ], t2_abab [fᵥ, bᵥ, iₒ, jₒ], t2_aaaa [cᵥ, aᵥ, nₒ, mₒ]], [(1, [aᵥ, bᵥ, iₒ, jₒ])]⟩,
  -- line 3661: nmfe,kldc,edkl,fbij,acnm->abij
  ⟨-1/4, [g_abab [nₒ, mₒ, fᵥ, eᵥ], l2_bbbb [kₒ, lₒ, dᵥ, cᵥ], t2_bbbb [eᵥ, dᵥ, kₒ, lₒ], t2_abab [fᵥ, bᵥ, iₒ, jₒ], t2_abab [aᵥ, cᵥ, nₒ, mₒ]], [(1, [aᵥ, bᵥ, iₒ, jₒ])]⟩,
  -- line 3664: mnfe,kldc,edkl,fbij,acmn->abij
  ⟨-1/4, [g_abab [mₒ, nₒ, fᵥ, eᵥ], l2_bbbb [kₒ, lₒ, dᵥ, cᵥ], t2_bbbb [eᵥ, dᵥ, kₒ, lₒ], t2_abab [fᵥ, bᵥ, iₒ, jₒ], t2_abab [aᵥ, cᵥ, mₒ, nₒ]], [(1, [aᵥ, bᵥ, iₒ, jₒ])]⟩,
  -- line 3667: mnfe,kldc,delj,fckm,abin->abij
  ⟨-1/2, [g_abab [mₒ, nₒ, fᵥ, eᵥ], l2_aaaa [kₒ, lₒ, dᵥ, cᵥ], t2_abab [dᵥ, eᵥ, lₒ, jₒ], t2_aaaa [fᵥ, cᵥ, kₒ, mₒ], t2_abab [aᵥ, bᵥ, iₒ, nₒ]], [(1, [aᵥ, bᵥ, iₒ, jₒ])]⟩,
  -- line 3670: nmef,kldc,delj,cfkm,abin->abij
  ⟨1/2, [g_bbbb [nₒ, mₒ, eᵥ, fᵥ], l2_aaaa [kₒ, lₒ, dᵥ, cᵥ], t2_abab [dᵥ, eᵥ, lₒ, jₒ], t2_abab [cᵥ, fᵥ, kₒ, mₒ], t2_abab [aᵥ, bᵥ, iₒ, nₒ]], [(1, [aᵥ, bᵥ, iₒ, jₒ])]⟩,
  -- line 3673: mnfe,klcd,edjl,fckm,abin->abij
  ⟨1/2, [g_abab [mₒ, nₒ, fᵥ, eᵥ], l2_abab [kₒ, lₒ, cᵥ, dᵥ], t2_bbbb [eᵥ, dᵥ, jₒ, lₒ], t2_aaaa [fᵥ, cᵥ, kₒ, mₒ], t2_abab [aᵥ, bᵥ, iₒ, nₒ]], [(1, [aᵥ, bᵥ, iₒ, jₒ])]⟩,
  -- line 3676: nmef,klcd,edjl,cfkm,abin->abij
  ⟨-1/2, [g_bbbb [nₒ, mₒ, eᵥ, fᵥ], l2_abab [kₒ, lₒ, cᵥ, dᵥ], t2_bbbb [eᵥ, dᵥ, jₒ, lₒ], t2_abab [cᵥ, fᵥ, kₒ, mₒ], t2_abab [aᵥ, bᵥ, iₒ, nₒ]], [(1, [aᵥ, bᵥ, iₒ, jₒ])]⟩,
  -- line 3679: mnfe,lkdc,delj,fcmk,abin->abij
  ⟨-1/2, [g_abab [mₒ, nₒ, fᵥ, eᵥ], l2_abab [lₒ, kₒ, dᵥ, cᵥ], t2_abab [dᵥ, eᵥ, lₒ, jₒ], t2_abab [fᵥ, cᵥ, mₒ, kₒ], t2_abab [aᵥ, bᵥ, iₒ, nₒ]], [(1, [aᵥ, bᵥ, iₒ, jₒ])]⟩,
  -- line 3682: nmef,lkdc,delj,fckm,abin->abij
  ⟨1/2, [g_bbbb [nₒ, mₒ, eᵥ, fᵥ], l2_abab [lₒ, kₒ, dᵥ, cᵥ], t2_abab [dᵥ, eᵥ, lₒ, jₒ], t2_bbbb [fᵥ, cᵥ, kₒ, mₒ], t2_abab [aᵥ, bᵥ, iₒ, nₒ]], [(1, [aᵥ, bᵥ, iₒ, jₒ])]⟩,
  -- line 3685: mnef,lkcd,edlj,cfmk,abin->abij
  ⟨-1/2, [g_abab [mₒ, nₒ, eᵥ, fᵥ], l2_abab [lₒ, kₒ, cᵥ, dᵥ], t2_abab [eᵥ, dᵥ, lₒ, jₒ], t2_abab [cᵥ, fᵥ, mₒ, kₒ], t2_abab [aᵥ, bᵥ, iₒ, nₒ]], [(1, [aᵥ, bᵥ, iₒ, jₒ])]⟩,
  -- line 3688: mnfe,kldc,edjl,fcmk,abin->abij
  ⟨1/2, [g_abab [mₒ, nₒ, fᵥ, eᵥ], l2_bbbb [kₒ, lₒ, dᵥ, cᵥ], t2_bbbb [eᵥ, dᵥ, jₒ, lₒ], t2_abab [fᵥ, cᵥ, mₒ, kₒ], t2_abab [aᵥ, bᵥ, iₒ, nₒ]], [(1, [aᵥ, bᵥ, iₒ, jₒ])]⟩,
  -- line 3691: nmef,kldc,edjl,fckm,abin->abij
  ⟨-1/2, [g_bbbb [nₒ, mₒ, eᵥ, fᵥ], l2_bbbb [kₒ, lₒ, dᵥ, cᵥ], t2_bbbb [eᵥ, dᵥ, jₒ, lₒ], t2_bbbb [fᵥ, cᵥ, kₒ, mₒ], t2_abab [aᵥ, bᵥ, iₒ, nₒ]], [(1, [aᵥ, bᵥ, iₒ, jₒ])]⟩,
  -- line 3694: nmef,kldc,edil,fckm,abnj->abij
  ⟨-1/2, [g_aaaa [nₒ, mₒ, eᵥ, fᵥ], l2_aaaa [kₒ, lₒ, dᵥ, cᵥ], t2_aaaa [eᵥ, dᵥ, iₒ, lₒ], t2_aaaa [fᵥ, cᵥ, kₒ, mₒ], t2_abab [aᵥ, bᵥ, nₒ, jₒ]], [(1, [aᵥ, bᵥ, iₒ, jₒ])]⟩,
  -- line 3697: nmef,kldc,edil,cfkm,abnj->abij
  ⟨1/2, [g_abab [nₒ, mₒ, eᵥ, fᵥ], l2_aaaa [kₒ, lₒ, dᵥ, cᵥ], t2_aaaa [eᵥ, dᵥ, iₒ, lₒ], t2_abab [cᵥ, fᵥ, kₒ, mₒ], t2_abab [aᵥ, bᵥ, nₒ, jₒ]], [(1, [aᵥ, bᵥ, iₒ, jₒ])]⟩,
  -- line 3700: nmfe,kldc,deil,fckm,abnj->abij
  ⟨-1/2, [g_abab [nₒ, mₒ, fᵥ, eᵥ], l2_abab [kₒ, lₒ, dᵥ, cᵥ], t2_abab [dᵥ, eᵥ, iₒ, lₒ], t2_abab [fᵥ, cᵥ, kₒ, mₒ], t2_abab [aᵥ, bᵥ, nₒ, jₒ]], [(1, [aᵥ, bᵥ, iₒ, jₒ])]⟩,
  -- line 3703: nmef,klcd,edil,fckm,abnj->abij
  ⟨1/2, [g_aaaa [nₒ, mₒ, eᵥ, fᵥ], l2_abab [kₒ, lₒ, cᵥ, dᵥ], t2_abab [eᵥ, dᵥ, iₒ, lₒ], t2_aaaa [fᵥ, cᵥ, kₒ, mₒ], t2_abab [aᵥ, bᵥ, nₒ, jₒ]], [(1, [aᵥ, bᵥ, iₒ, jₒ])]⟩,
  -- line 3706: nmef,klcd,edil,cfkm,abnj->abij
  ⟨-1/2, [g_abab [nₒ, mₒ, eᵥ, fᵥ], l2_abab [kₒ, lₒ, cᵥ, dᵥ], t2_abab [eᵥ, dᵥ, iₒ, lₒ], t2_abab [cᵥ, fᵥ, kₒ, mₒ], t2_abab [aᵥ, bᵥ, nₒ, jₒ]], [(1, [aᵥ, bᵥ, iₒ, jₒ])]⟩,
  -- line 3709: nmef,lkdc,edil,fcmk,abnj->abij
  ⟨-1/2, [g_aaaa [nₒ, mₒ, eᵥ, fᵥ], l2_abab [lₒ, kₒ, dᵥ, cᵥ], t2_aaaa [eᵥ, dᵥ, iₒ, lₒ], t2_abab [fᵥ, cᵥ, mₒ, kₒ], t2_abab [aᵥ, bᵥ, nₒ, jₒ]], [(1, [aᵥ, bᵥ, iₒ, jₒ])]⟩,
  -- line 3712: nmef,lkdc,edil,fckm,abnj->abij
  ⟨1/2, [g_abab [nₒ, mₒ, eᵥ, fᵥ], l2_abab [lₒ, kₒ, dᵥ, cᵥ], t2_aaaa [eᵥ, dᵥ, iₒ, lₒ], t2_bbbb [fᵥ, cᵥ, kₒ, mₒ], t2_abab [aᵥ, bᵥ, nₒ, jₒ]], [(1, [aᵥ, bᵥ, iₒ, jₒ])]⟩
  ]

/-- Part 9 of `residQf2_abab`. -/
def residQf2_abab_9 : Prog := [
  -- line 3715: nmef,kldc,edil,fcmk,abnj->abij
  ⟨1/2, [g_aaaa [nₒ, mₒ, eᵥ, fᵥ], l2_bbbb [kₒ, lₒ, dᵥ, cᵥ], t2_abab [eᵥ, dᵥ, iₒ, lₒ], t2_abab [fᵥ, cᵥ, mₒ, kₒ], t2_abab [aᵥ, bᵥ, nₒ, jₒ]], [(1, [aᵥ, bᵥ, iₒ, jₒ])]⟩,
  -- line 3718: nmef,kldc,edil,fckm,abnj->abij
  ⟨-1/2, [g_abab [nₒ, mₒ, eᵥ, fᵥ], l2_bbbb [kₒ, lₒ, dᵥ, cᵥ], t2_abab [eᵥ, dᵥ, iₒ, lₒ], t2_bbbb [fᵥ, cᵥ, kₒ, mₒ], t2_abab [aᵥ, bᵥ, nₒ, jₒ]], [(1, [aᵥ, bᵥ, iₒ, jₒ])]⟩,
  -- line 3721: nmfe,kldc,delj,fcik,abnm->abij
  ⟨-1/4, [g_abab [nₒ, mₒ, fᵥ, eᵥ], l2_aaaa [kₒ, lₒ, dᵥ, cᵥ], t2_abab [dᵥ, eᵥ, lₒ, jₒ], t2_aaaa [fᵥ, cᵥ, iₒ, kₒ], t2_abab [aᵥ, bᵥ, nₒ, mₒ]], [(1, [aᵥ, bᵥ, iₒ, jₒ])]⟩,
  -- line 3724: mnfe,kldc,delj,fcik,abmn->abij
  ⟨-1/4, [g_abab [mₒ, nₒ, fᵥ, eᵥ], l2_aaaa [kₒ, lₒ, dᵥ, cᵥ], t2_abab [dᵥ, eᵥ, lₒ, jₒ], t2_aaaa [fᵥ, cᵥ, iₒ, kₒ], t2_abab [aᵥ, bᵥ, mₒ, nₒ]], [(1, [aᵥ, bᵥ, iₒ, jₒ])]⟩,
  -- line 3727: nmfe,klcd,edjl,fcik,abnm->abij
  ⟨1/4, [g_abab [nₒ, mₒ, fᵥ, eᵥ], l2_abab [kₒ, lₒ, cᵥ, dᵥ], t2_bbbb [eᵥ, dᵥ, jₒ, lₒ], t2_aaaa [fᵥ, cᵥ, iₒ, kₒ], t2_abab [aᵥ, bᵥ, nₒ, mₒ]], [(1, [aᵥ, bᵥ, iₒ, jₒ])]⟩,
  -- line 3730: mnfe,klcd,edjl,fcik,abmn->abij
  ⟨1/4, [g_abab [mₒ, nₒ, fᵥ, eᵥ], l2_abab [kₒ, lₒ, cᵥ, dᵥ], t2_bbbb [eᵥ, dᵥ, jₒ, lₒ], t2_aaaa [fᵥ, cᵥ, iₒ, kₒ], t2_abab [aᵥ, bᵥ, mₒ, nₒ]], [(1, [aᵥ, bᵥ, iₒ, jₒ])]⟩,
  -- line 3733: nmfe,lkdc,delj,fcik,abnm->abij
  ⟨1/4, [g_abab [nₒ, mₒ, fᵥ, eᵥ], l2_abab [lₒ, kₒ, dᵥ, cᵥ], t2_abab [dᵥ, eᵥ, lₒ, jₒ], t2_abab [fᵥ, cᵥ, iₒ, kₒ], t2_abab [aᵥ, bᵥ, nₒ, mₒ]], [(1, [aᵥ, bᵥ, iₒ, jₒ])]⟩,
  -- line 3736: mnfe,lkdc,delj,fcik,abmn->abij
  ⟨1/4, [g_abab [mₒ, nₒ, fᵥ, eᵥ], l2_abab [lₒ, kₒ, dᵥ, cᵥ], t2_abab [dᵥ, eᵥ, lₒ, jₒ], t2_abab [fᵥ, cᵥ, iₒ, kₒ], t2_abab [aᵥ, bᵥ, mₒ, nₒ]], [(1, [aᵥ, bᵥ, iₒ, jₒ])]⟩,
  -- line 3739: nmef,lkcd,edlj,cfik,abnm->abij
  ⟨1/4, [g_abab [nₒ, mₒ, eᵥ, fᵥ], l2_abab [lₒ, kₒ, cᵥ, dᵥ], t2_abab [eᵥ, dᵥ, lₒ, jₒ], t2_abab [cᵥ, fᵥ, iₒ, kₒ], t2_abab [aᵥ, bᵥ, nₒ, mₒ]], [(1, [aᵥ, bᵥ, iₒ, jₒ])]⟩,
  -- line 3742: mnef,lkcd,edlj,cfik,abmn->abij
  ⟨1/4, [g_abab [mₒ, nₒ, eᵥ, fᵥ], l2_abab [lₒ, kₒ, cᵥ, dᵥ], t2_abab [eᵥ, dᵥ, lₒ, jₒ], t2_abab [cᵥ, fᵥ, iₒ, kₒ], t2_abab [aᵥ, bᵥ, mₒ, nₒ]], [(1, [aᵥ, bᵥ, iₒ, jₒ])]⟩,
  -- line 3745: nmfe,kldc,edjl,fcik,abnm->abij
  ⟨-1/4, [g_abab [nₒ, mₒ, fᵥ, eᵥ], l2_bbbb [kₒ, lₒ, dᵥ, cᵥ], t2_bbbb [eᵥ, dᵥ, jₒ, lₒ], t2_abab [fᵥ, cᵥ, iₒ, kₒ], t2_abab [aᵥ, bᵥ, nₒ, mₒ]], [(1, [aᵥ, bᵥ, iₒ, jₒ])]⟩,
  -- line 3748: mnfe,kldc,edjl,fcik,abmn->abij
  ⟨-1/4, [g_abab [mₒ, nₒ, fᵥ, eᵥ], l2_bbbb [kₒ, lₒ, dᵥ, cᵥ], t2_bbbb [eᵥ, dᵥ, jₒ, lₒ], t2_abab [fᵥ, cᵥ, iₒ, kₒ], t2_abab [aᵥ, bᵥ, mₒ, nₒ]], [(1, [aᵥ, bᵥ, iₒ, jₒ])]⟩,
  -- line 3751: nmef,kldc,edil,cfkj,abnm->abij
  ⟨-1/4, [g_abab [nₒ, mₒ, eᵥ, fᵥ], l2_aaaa [kₒ, lₒ, dᵥ, cᵥ], t2_aaaa [eᵥ, dᵥ, iₒ, lₒ], t2_abab [cᵥ, fᵥ, kₒ, jₒ], t2_abab [aᵥ, bᵥ, nₒ, mₒ]], [(1, [aᵥ, bᵥ, iₒ, jₒ])]⟩,
  -- line 3754: mnef,kldc,edil,cfkj,abmn->abij
  ⟨-1/4, [g_abab [mₒ, nₒ, eᵥ, fᵥ], l2_aaaa [kₒ, lₒ, dᵥ, cᵥ], t2_aaaa [eᵥ, dᵥ, iₒ, lₒ], t2_abab [cᵥ, fᵥ, kₒ, jₒ], t2_abab [aᵥ, bᵥ, mₒ, nₒ]], [(1, [aᵥ, bᵥ, iₒ, jₒ])]⟩,
  -- line 3757: nmfe,kldc,deil,fckj,abnm->abij
  ⟨1/4, [g_abab [nₒ, mₒ, fᵥ, eᵥ], l2_abab [kₒ, lₒ, dᵥ, cᵥ], t2_abab [dᵥ, eᵥ, iₒ, lₒ], t2_abab [fᵥ, cᵥ, kₒ, jₒ], t2_abab [aᵥ, bᵥ, nₒ, mₒ]], [(1, [aᵥ, bᵥ, iₒ, jₒ])]⟩,
  -- line 3760: mnfe,kldc,deil,fckj,abmn->abij
  ⟨1/4, [g_abab [mₒ, nₒ, fᵥ, eᵥ], l2_abab [kₒ, lₒ, dᵥ, cᵥ], t2_abab [dᵥ, eᵥ, iₒ, lₒ], t2_abab [fᵥ, cᵥ, kₒ, jₒ], t2_abab [aᵥ, bᵥ, mₒ, nₒ]], [(1, [aᵥ, bᵥ, iₒ, jₒ])]⟩,
  -- line 3763: nmef,klcd,edil,cfkj,abnm->abij
  ⟨1/4, [g_abab [nₒ, mₒ, eᵥ, fᵥ], l2_abab [kₒ, lₒ, cᵥ, dᵥ], t2_abab [eᵥ, dᵥ, iₒ, lₒ], t2_abab [cᵥ, fᵥ, kₒ, jₒ], t2_abab [aᵥ, bᵥ, nₒ, mₒ]], [(1, [aᵥ, bᵥ, iₒ, jₒ])]⟩,
  -- line 3766: mnef,klcd,edil,cfkj,abmn->abij
  ⟨1/4, [g_abab [mₒ, nₒ, eᵥ, fᵥ], l2_abab [kₒ, lₒ, cᵥ, dᵥ], t2_abab [eᵥ, dᵥ, iₒ, lₒ], t2_abab [cᵥ, fᵥ, kₒ, jₒ], t2_abab [aᵥ, bᵥ, mₒ, nₒ]], [(1, [aᵥ, bᵥ, iₒ, jₒ])]⟩,
  -- line 3769: nmef,lkdc,edil,fcjk,abnm->abij
  ⟨1/4, [g_abab [nₒ, mₒ, eᵥ, fᵥ], l2_abab [lₒ, kₒ, dᵥ, cᵥ], t2_aaaa [eᵥ, dᵥ, iₒ, lₒ], t2_bbbb [fᵥ, cᵥ, jₒ, kₒ], t2_abab [aᵥ, bᵥ, nₒ, mₒ]], [(1, [aᵥ, bᵥ, iₒ, jₒ])]⟩,
  -- line 3772: mnef,lkdc,edil,fcjk,abmn->abij
  ⟨1/4, [g_abab [mₒ, nₒ, eᵥ, fᵥ], l2_abab [lₒ, kₒ, dᵥ, cᵥ], t2_aaaa [eᵥ, dᵥ, iₒ, lₒ], t2_bbbb [fᵥ, cᵥ, jₒ, kₒ], t2_abab [aᵥ, bᵥ, mₒ, nₒ]], [(1, [aᵥ, bᵥ, iₒ, jₒ])]⟩,
  -- line 3775: nmef,kldc,edil,fcjk,abnm->abij
  ⟨-1/4, [g_abab [nₒ, mₒ, eᵥ, fᵥ], l2_bbbb [kₒ, lₒ, dᵥ, cᵥ], t2_abab [eᵥ, dᵥ, iₒ, lₒ], t2_bbbb [fᵥ, cᵥ, jₒ, kₒ], t2_abab [aᵥ, bᵥ, nₒ, mₒ]], [(1, [aᵥ, bᵥ, iₒ, jₒ])]⟩,
  -- line 3778: mnef,kldc,edil,fcjk,abmn->abij
  ⟨-1/4, [g_abab [mₒ, nₒ, eᵥ, fᵥ], l2_bbbb [kₒ, lₒ, dᵥ, cᵥ], t2_abab [eᵥ, dᵥ, iₒ, lₒ], t2_bbbb [fᵥ, cᵥ, jₒ, kₒ], t2_abab [aᵥ, bᵥ, mₒ, nₒ]], [(1, [aᵥ, bᵥ, iₒ, jₒ])]⟩,
  -- line 3781: mnfe,kldc,delj,fakm,cbin->abij
  ⟨91666666666667/100000000000000, [g_abab [mₒ, nₒ, fᵥ, eᵥ], l2_aaaa [kₒ, lₒ, dᵥ, cᵥ], t2_abab [dᵥ, eᵥ, lₒ, jₒ], t2_aaaa [fᵥ, aᵥ, kₒ, mₒ], t2_abab [cᵥ, bᵥ, iₒ, nₒ]], [(1, [aᵥ, bᵥ, iₒ, jₒ])]⟩,
  -- line 3784: nmef,kldc,delj,afkm,cbin->abij
  ⟨-91666666666667/100000000000000, [g_bbbb [nₒ, mₒ, eᵥ, fᵥ], l2_aaaa [kₒ, lₒ, dᵥ, cᵥ], t2_abab [dᵥ, eᵥ, lₒ, jₒ], t2_abab [aᵥ, fᵥ, kₒ, mₒ], t2_abab [cᵥ, bᵥ, iₒ, nₒ]], [(1, [aᵥ, bᵥ, iₒ, jₒ])]⟩,
  -- line 3787: mnfe,klcd,edjl,fakm,cbin->abij
  ⟨-91666666666667/100000000000000, [g_abab [mₒ, nₒ, fᵥ, eᵥ], l2_abab [kₒ, lₒ, cᵥ, dᵥ], t2_bbbb [eᵥ, dᵥ, jₒ, lₒ], t2_aaaa [fᵥ, aᵥ, kₒ, mₒ], t2_abab [cᵥ, bᵥ, iₒ, nₒ]], [(1, [aᵥ, bᵥ, iₒ, jₒ])]⟩,
  -- line 3790: nmef,klcd,edjl,afkm,cbin->abij
  ⟨91666666666667/100000000000000, [g_bbbb [nₒ, mₒ, eᵥ, fᵥ], l2_abab [kₒ, lₒ, cᵥ, dᵥ], t2_bbbb [eᵥ, dᵥ, jₒ, lₒ], t2_abab [aᵥ, fᵥ, kₒ, mₒ], t2_abab [cᵥ, bᵥ, iₒ, nₒ]], [(1, [aᵥ, bᵥ, iₒ, jₒ])]⟩,
  -- line 3793: mnef,lkcd,edlj,afmk,cbin->abij
  ⟨91666666666667/100000000000000, [g_abab [mₒ, nₒ, eᵥ, fᵥ], l2_abab [lₒ, kₒ, cᵥ, dᵥ], t2_abab [eᵥ, dᵥ, lₒ, jₒ], t2_abab [aᵥ, fᵥ, mₒ, kₒ], t2_abab [cᵥ, bᵥ, iₒ, nₒ]], [(1, [aᵥ, bᵥ, iₒ, jₒ])]⟩,
  -- line 3796: nmfe,kldc,delj,fbkm,cain->abij
  ⟨91666666666667/100000000000000, [g_abab [nₒ, mₒ, fᵥ, eᵥ], l2_aaaa [kₒ, lₒ, dᵥ, cᵥ], t2_abab [dᵥ, eᵥ, lₒ, jₒ], t2_abab [fᵥ, bᵥ, kₒ, mₒ], t2_aaaa [cᵥ, aᵥ, iₒ, nₒ]], [(1, [aᵥ, bᵥ, iₒ, jₒ])]⟩,
  -- line 3799: nmfe,klcd,edjl,fbkm,cain->abij
  ⟨-91666666666667/100000000000000, [g_abab [nₒ, mₒ, fᵥ, eᵥ], l2_abab [kₒ, lₒ, cᵥ, dᵥ], t2_bbbb [eᵥ, dᵥ, jₒ, lₒ], t2_abab [fᵥ, bᵥ, kₒ, mₒ], t2_aaaa [cᵥ, aᵥ, iₒ, nₒ]], [(1, [aᵥ, bᵥ, iₒ, jₒ])]⟩,
  -- line 3802: mnfe,lkdc,delj,fbmk,acin->abij
  ⟨91666666666667/100000000000000, [g_abab [mₒ, nₒ, fᵥ, eᵥ], l2_abab [lₒ, kₒ, dᵥ, cᵥ], t2_abab [dᵥ, eᵥ, lₒ, jₒ], t2_abab [fᵥ, bᵥ, mₒ, kₒ], t2_abab [aᵥ, cᵥ, iₒ, nₒ]], [(1, [aᵥ, bᵥ, iₒ, jₒ])]⟩,
  -- line 3805: nmef,lkdc,delj,fbkm,acin->abij
  ⟨-91666666666667/100000000000000, [g_bbbb [nₒ, mₒ, eᵥ, fᵥ], l2_abab [lₒ, kₒ, dᵥ, cᵥ], t2_abab [dᵥ, eᵥ, lₒ, jₒ], t2_bbbb [fᵥ, bᵥ, kₒ, mₒ], t2_abab [aᵥ, cᵥ, iₒ, nₒ]], [(1, [aᵥ, bᵥ, iₒ, jₒ])]⟩,
  -- line 3808: nmef,lkcd,edlj,fbmk,cain->abij
  ⟨-91666666666667/100000000000000, [g_aaaa [nₒ, mₒ, eᵥ, fᵥ], l2_abab [lₒ, kₒ, cᵥ, dᵥ], t2_abab [eᵥ, dᵥ, lₒ, jₒ], t2_abab [fᵥ, bᵥ, mₒ, kₒ], t2_aaaa [cᵥ, aᵥ, iₒ, nₒ]], [(1, [aᵥ, bᵥ, iₒ, jₒ])]⟩,
  -- line 3811: nmef,lkcd,edlj,fbkm,cain->abij
  ⟨91666666666667/100000000000000, [g_abab [nₒ, mₒ, eᵥ, fᵥ], l2_abab [lₒ, kₒ, cᵥ, dᵥ], t2_abab [eᵥ, dᵥ, lₒ, jₒ], t2_bbbb [fᵥ, bᵥ, kₒ, mₒ], t2_aaaa [cᵥ, aᵥ, iₒ, nₒ]], [(1, [aᵥ, bᵥ, iₒ, jₒ])]⟩,
  -- line 3814: mnfe,kldc,edjl,fbmk,acin->abij
  ⟨-91666666666667/100000000000000, [g_abab [mₒ, nₒ, fᵥ, eᵥ], l2_bbbb [kₒ, lₒ, dᵥ, cᵥ], t2_bbbb [eᵥ, dᵥ, jₒ, lₒ], t2_abab [fᵥ, bᵥ, mₒ, kₒ], t2_abab [aᵥ, cᵥ, iₒ, nₒ]], [(1, [aᵥ, bᵥ, iₒ, jₒ])]⟩,
  -- line 3817: nmef,kldc,edjl,fbkm,acin->abij
  ⟨91666666666667/100000000000000, [g_bbbb [nₒ, mₒ, eᵥ, fᵥ], l2_bbbb [kₒ, lₒ, dᵥ, cᵥ], t2_bbbb [eᵥ, dᵥ, jₒ, lₒ], t2_bbbb [fᵥ, bᵥ, kₒ, mₒ], t2_abab [aᵥ, cᵥ, iₒ, nₒ]], [(1, [aᵥ, bᵥ, iₒ, jₒ])]⟩,
  -- line 3820: nmef,kldc,edil,fakm,cbnj->abij
  ⟨91666666666667/100000000000000, [g_aaaa [nₒ, mₒ, eᵥ, fᵥ], l2_aaaa [kₒ, lₒ, dᵥ, cᵥ], t2_aaaa [eᵥ, dᵥ, iₒ, lₒ], t2_aaaa [fᵥ, aᵥ, kₒ, mₒ], t2_abab [cᵥ, bᵥ, nₒ, jₒ]], [(1, [aᵥ, bᵥ, iₒ, jₒ])]⟩,
  -- line 3823: nmef,kldc,edil,afkm,cbnj->abij
  ⟨-91666666666667/100000000000000, [g_abab [nₒ, mₒ, eᵥ, fᵥ], l2_aaaa [kₒ, lₒ, dᵥ, cᵥ], t2_aaaa [eᵥ, dᵥ, iₒ, lₒ], t2_abab [aᵥ, fᵥ, kₒ, mₒ], t2_abab [cᵥ, bᵥ, nₒ, jₒ]], [(1, [aᵥ, bᵥ, iₒ, jₒ])]⟩,
  -- line 3826: mnfe,kldc,deil,fakm,cbjn->abij
  ⟨91666666666667/100000000000000, [g_abab [mₒ, nₒ, fᵥ, eᵥ], l2_abab [kₒ, lₒ, dᵥ, cᵥ], t2_abab [dᵥ, eᵥ, iₒ, lₒ], t2_aaaa [fᵥ, aᵥ, kₒ, mₒ], t2_bbbb [cᵥ, bᵥ, jₒ, nₒ]], [(1, [aᵥ, bᵥ, iₒ, jₒ])]⟩,
  -- line 3829: nmef,kldc,deil,afkm,cbjn->abij
  ⟨-91666666666667/100000000000000, [g_bbbb [nₒ, mₒ, eᵥ, fᵥ], l2_abab [kₒ, lₒ, dᵥ, cᵥ], t2_abab [dᵥ, eᵥ, iₒ, lₒ], t2_abab [aᵥ, fᵥ, kₒ, mₒ], t2_bbbb [cᵥ, bᵥ, jₒ, nₒ]], [(1, [aᵥ, bᵥ, iₒ, jₒ])]⟩,
  -- line 3832: nmef,klcd,edil,fakm,cbnj->abij
  ⟨-91666666666667/100000000000000, [g_aaaa [nₒ, mₒ, eᵥ, fᵥ], l2_abab [kₒ, lₒ, cᵥ, dᵥ], t2_abab [eᵥ, dᵥ, iₒ, lₒ], t2_aaaa [fᵥ, aᵥ, kₒ, mₒ], t2_abab [cᵥ, bᵥ, nₒ, jₒ]], [(1, [aᵥ, bᵥ, iₒ, jₒ])]⟩
  ]

/-- Part 10 of `residQf2_abab`. -/
def residQf2_abab_10 : Prog := [
  -- line 3835: nmef,klcd,edil,afkm,cbnj->abij
  ⟨91666666666667/100000000000000, [g_abab [nₒ, mₒ, eᵥ, fᵥ], l2_abab [kₒ, lₒ, cᵥ, dᵥ], t2_abab [eᵥ, dᵥ, iₒ, lₒ], t2_abab [aᵥ, fᵥ, kₒ, mₒ], t2_abab [cᵥ, bᵥ, nₒ, jₒ]], [(1, [aᵥ, bᵥ, iₒ, jₒ])]⟩,
  -- line 3838: mnef,lkdc,edil,afmk,cbjn->abij
  ⟨-91666666666667/100000000000000, [g_abab [mₒ, nₒ, eᵥ, fᵥ], l2_abab [lₒ, kₒ, dᵥ, cᵥ], t2_aaaa [eᵥ, dᵥ, iₒ, lₒ], t2_abab [aᵥ, fᵥ, mₒ, kₒ], t2_bbbb [cᵥ, bᵥ, jₒ, nₒ]], [(1, [aᵥ, bᵥ, iₒ, jₒ])]⟩,
  -- line 3841: mnef,kldc,edil,afmk,cbjn->abij
  ⟨91666666666667/100000000000000, [g_abab [mₒ, nₒ, eᵥ, fᵥ], l2_bbbb [kₒ, lₒ, dᵥ, cᵥ], t2_abab [eᵥ, dᵥ, iₒ, lₒ], t2_abab [aᵥ, fᵥ, mₒ, kₒ], t2_bbbb [cᵥ, bᵥ, jₒ, nₒ]], [(1, [aᵥ, bᵥ, iₒ, jₒ])]⟩,
  -- line 3844: nmfe,kldc,deil,fbkm,acnj->abij
  ⟨91666666666667/100000000000000, [g_abab [nₒ, mₒ, fᵥ, eᵥ], l2_abab [kₒ, lₒ, dᵥ, cᵥ], t2_abab [dᵥ, eᵥ, iₒ, lₒ], t2_abab [fᵥ, bᵥ, kₒ, mₒ], t2_abab [aᵥ, cᵥ, nₒ, jₒ]], [(1, [aᵥ, bᵥ, iₒ, jₒ])]⟩,
  -- line 3847: nmef,lkdc,edil,fbmk,acnj->abij
  ⟨91666666666667/100000000000000, [g_aaaa [nₒ, mₒ, eᵥ, fᵥ], l2_abab [lₒ, kₒ, dᵥ, cᵥ], t2_aaaa [eᵥ, dᵥ, iₒ, lₒ], t2_abab [fᵥ, bᵥ, mₒ, kₒ], t2_abab [aᵥ, cᵥ, nₒ, jₒ]], [(1, [aᵥ, bᵥ, iₒ, jₒ])]⟩,
  -- line 3850: nmef,lkdc,edil,fbkm,acnj->abij
  ⟨-91666666666667/100000000000000, [g_abab [nₒ, mₒ, eᵥ, fᵥ], l2_abab [lₒ, kₒ, dᵥ, cᵥ], t2_aaaa [eᵥ, dᵥ, iₒ, lₒ], t2_bbbb [fᵥ, bᵥ, kₒ, mₒ], t2_abab [aᵥ, cᵥ, nₒ, jₒ]], [(1, [aᵥ, bᵥ, iₒ, jₒ])]⟩,
  -- line 3853: nmef,kldc,edil,fbmk,acnj->abij
  ⟨-91666666666667/100000000000000, [g_aaaa [nₒ, mₒ, eᵥ, fᵥ], l2_bbbb [kₒ, lₒ, dᵥ, cᵥ], t2_abab [eᵥ, dᵥ, iₒ, lₒ], t2_abab [fᵥ, bᵥ, mₒ, kₒ], t2_abab [aᵥ, cᵥ, nₒ, jₒ]], [(1, [aᵥ, bᵥ, iₒ, jₒ])]⟩,
  -- line 3856: nmef,kldc,edil,fbkm,acnj->abij
  ⟨91666666666667/100000000000000, [g_abab [nₒ, mₒ, eᵥ, fᵥ], l2_bbbb [kₒ, lₒ, dᵥ, cᵥ], t2_abab [eᵥ, dᵥ, iₒ, lₒ], t2_bbbb [fᵥ, bᵥ, kₒ, mₒ], t2_abab [aᵥ, cᵥ, nₒ, jₒ]], [(1, [aᵥ, bᵥ, iₒ, jₒ])]⟩,
  -- line 3859: mnfe,kldc,delj,faim,cbkn->abij
  ⟨-1, [g_abab [mₒ, nₒ, fᵥ, eᵥ], l2_aaaa [kₒ, lₒ, dᵥ, cᵥ], t2_abab [dᵥ, eᵥ, lₒ, jₒ], t2_aaaa [fᵥ, aᵥ, iₒ, mₒ], t2_abab [cᵥ, bᵥ, kₒ, nₒ]], [(1, [aᵥ, bᵥ, iₒ, jₒ])]⟩,
  -- line 3862: nmef,kldc,delj,afim,cbkn->abij
  ⟨1, [g_bbbb [nₒ, mₒ, eᵥ, fᵥ], l2_aaaa [kₒ, lₒ, dᵥ, cᵥ], t2_abab [dᵥ, eᵥ, lₒ, jₒ], t2_abab [aᵥ, fᵥ, iₒ, mₒ], t2_abab [cᵥ, bᵥ, kₒ, nₒ]], [(1, [aᵥ, bᵥ, iₒ, jₒ])]⟩,
  -- line 3865: mnfe,klcd,edjl,faim,cbkn->abij
  ⟨1, [g_abab [mₒ, nₒ, fᵥ, eᵥ], l2_abab [kₒ, lₒ, cᵥ, dᵥ], t2_bbbb [eᵥ, dᵥ, jₒ, lₒ], t2_aaaa [fᵥ, aᵥ, iₒ, mₒ], t2_abab [cᵥ, bᵥ, kₒ, nₒ]], [(1, [aᵥ, bᵥ, iₒ, jₒ])]⟩,
  -- line 3868: nmef,klcd,edjl,afim,cbkn->abij
  ⟨-1, [g_bbbb [nₒ, mₒ, eᵥ, fᵥ], l2_abab [kₒ, lₒ, cᵥ, dᵥ], t2_bbbb [eᵥ, dᵥ, jₒ, lₒ], t2_abab [aᵥ, fᵥ, iₒ, mₒ], t2_abab [cᵥ, bᵥ, kₒ, nₒ]], [(1, [aᵥ, bᵥ, iₒ, jₒ])]⟩,
  -- line 3871: mnfe,lkdc,delj,faim,cbkn->abij
  ⟨1, [g_abab [mₒ, nₒ, fᵥ, eᵥ], l2_abab [lₒ, kₒ, dᵥ, cᵥ], t2_abab [dᵥ, eᵥ, lₒ, jₒ], t2_aaaa [fᵥ, aᵥ, iₒ, mₒ], t2_bbbb [cᵥ, bᵥ, kₒ, nₒ]], [(1, [aᵥ, bᵥ, iₒ, jₒ])]⟩,
  -- line 3874: nmef,lkdc,delj,afim,cbkn->abij
  ⟨-1, [g_bbbb [nₒ, mₒ, eᵥ, fᵥ], l2_abab [lₒ, kₒ, dᵥ, cᵥ], t2_abab [dᵥ, eᵥ, lₒ, jₒ], t2_abab [aᵥ, fᵥ, iₒ, mₒ], t2_bbbb [cᵥ, bᵥ, kₒ, nₒ]], [(1, [aᵥ, bᵥ, iₒ, jₒ])]⟩,
  -- line 3877: nmef,lkcd,edlj,faim,cbnk->abij
  ⟨-1, [g_aaaa [nₒ, mₒ, eᵥ, fᵥ], l2_abab [lₒ, kₒ, cᵥ, dᵥ], t2_abab [eᵥ, dᵥ, lₒ, jₒ], t2_aaaa [fᵥ, aᵥ, iₒ, mₒ], t2_abab [cᵥ, bᵥ, nₒ, kₒ]], [(1, [aᵥ, bᵥ, iₒ, jₒ])]⟩,
  -- line 3880: nmef,lkcd,edlj,afim,cbnk->abij
  ⟨1, [g_abab [nₒ, mₒ, eᵥ, fᵥ], l2_abab [lₒ, kₒ, cᵥ, dᵥ], t2_abab [eᵥ, dᵥ, lₒ, jₒ], t2_abab [aᵥ, fᵥ, iₒ, mₒ], t2_abab [cᵥ, bᵥ, nₒ, kₒ]], [(1, [aᵥ, bᵥ, iₒ, jₒ])]⟩,
  -- line 3883: mnfe,kldc,edjl,faim,cbkn->abij
  ⟨-1, [g_abab [mₒ, nₒ, fᵥ, eᵥ], l2_bbbb [kₒ, lₒ, dᵥ, cᵥ], t2_bbbb [eᵥ, dᵥ, jₒ, lₒ], t2_aaaa [fᵥ, aᵥ, iₒ, mₒ], t2_bbbb [cᵥ, bᵥ, kₒ, nₒ]], [(1, [aᵥ, bᵥ, iₒ, jₒ])]⟩,
  -- line 3886: nmef,kldc,edjl,afim,cbkn->abij
  ⟨1, [g_bbbb [nₒ, mₒ, eᵥ, fᵥ], l2_bbbb [kₒ, lₒ, dᵥ, cᵥ], t2_bbbb [eᵥ, dᵥ, jₒ, lₒ], t2_abab [aᵥ, fᵥ, iₒ, mₒ], t2_bbbb [cᵥ, bᵥ, kₒ, nₒ]], [(1, [aᵥ, bᵥ, iₒ, jₒ])]⟩,
  -- line 3889: nmfe,kldc,delj,fbim,cakn->abij
  ⟨-1, [g_abab [nₒ, mₒ, fᵥ, eᵥ], l2_aaaa [kₒ, lₒ, dᵥ, cᵥ], t2_abab [dᵥ, eᵥ, lₒ, jₒ], t2_abab [fᵥ, bᵥ, iₒ, mₒ], t2_aaaa [cᵥ, aᵥ, kₒ, nₒ]], [(1, [aᵥ, bᵥ, iₒ, jₒ])]⟩,
  -- line 3892: nmfe,klcd,edjl,fbim,cakn->abij
  ⟨1, [g_abab [nₒ, mₒ, fᵥ, eᵥ], l2_abab [kₒ, lₒ, cᵥ, dᵥ], t2_bbbb [eᵥ, dᵥ, jₒ, lₒ], t2_abab [fᵥ, bᵥ, iₒ, mₒ], t2_aaaa [cᵥ, aᵥ, kₒ, nₒ]], [(1, [aᵥ, bᵥ, iₒ, jₒ])]⟩,
  -- line 3895: nmfe,lkdc,delj,fbim,acnk->abij
  ⟨1, [g_abab [nₒ, mₒ, fᵥ, eᵥ], l2_abab [lₒ, kₒ, dᵥ, cᵥ], t2_abab [dᵥ, eᵥ, lₒ, jₒ], t2_abab [fᵥ, bᵥ, iₒ, mₒ], t2_abab [aᵥ, cᵥ, nₒ, kₒ]], [(1, [aᵥ, bᵥ, iₒ, jₒ])]⟩,
  -- line 3898: nmfe,kldc,edjl,fbim,acnk->abij
  ⟨-1, [g_abab [nₒ, mₒ, fᵥ, eᵥ], l2_bbbb [kₒ, lₒ, dᵥ, cᵥ], t2_bbbb [eᵥ, dᵥ, jₒ, lₒ], t2_abab [fᵥ, bᵥ, iₒ, mₒ], t2_abab [aᵥ, cᵥ, nₒ, kₒ]], [(1, [aᵥ, bᵥ, iₒ, jₒ])]⟩,
  -- line 3901: mnef,kldc,edil,afmj,cbkn->abij
  ⟨-1, [g_abab [mₒ, nₒ, eᵥ, fᵥ], l2_aaaa [kₒ, lₒ, dᵥ, cᵥ], t2_aaaa [eᵥ, dᵥ, iₒ, lₒ], t2_abab [aᵥ, fᵥ, mₒ, jₒ], t2_abab [cᵥ, bᵥ, kₒ, nₒ]], [(1, [aᵥ, bᵥ, iₒ, jₒ])]⟩,
  -- line 3904: mnef,klcd,edil,afmj,cbkn->abij
  ⟨1, [g_abab [mₒ, nₒ, eᵥ, fᵥ], l2_abab [kₒ, lₒ, cᵥ, dᵥ], t2_abab [eᵥ, dᵥ, iₒ, lₒ], t2_abab [aᵥ, fᵥ, mₒ, jₒ], t2_abab [cᵥ, bᵥ, kₒ, nₒ]], [(1, [aᵥ, bᵥ, iₒ, jₒ])]⟩,
  -- line 3907: mnef,lkdc,edil,afmj,cbkn->abij
  ⟨1, [g_abab [mₒ, nₒ, eᵥ, fᵥ], l2_abab [lₒ, kₒ, dᵥ, cᵥ], t2_aaaa [eᵥ, dᵥ, iₒ, lₒ], t2_abab [aᵥ, fᵥ, mₒ, jₒ], t2_bbbb [cᵥ, bᵥ, kₒ, nₒ]], [(1, [aᵥ, bᵥ, iₒ, jₒ])]⟩,
  -- line 3910: mnef,kldc,edil,afmj,cbkn->abij
  ⟨-1, [g_abab [mₒ, nₒ, eᵥ, fᵥ], l2_bbbb [kₒ, lₒ, dᵥ, cᵥ], t2_abab [eᵥ, dᵥ, iₒ, lₒ], t2_abab [aᵥ, fᵥ, mₒ, jₒ], t2_bbbb [cᵥ, bᵥ, kₒ, nₒ]], [(1, [aᵥ, bᵥ, iₒ, jₒ])]⟩,
  -- line 3913: nmef,kldc,edil,fbmj,cakn->abij
  ⟨1, [g_aaaa [nₒ, mₒ, eᵥ, fᵥ], l2_aaaa [kₒ, lₒ, dᵥ, cᵥ], t2_aaaa [eᵥ, dᵥ, iₒ, lₒ], t2_abab [fᵥ, bᵥ, mₒ, jₒ], t2_aaaa [cᵥ, aᵥ, kₒ, nₒ]], [(1, [aᵥ, bᵥ, iₒ, jₒ])]⟩,
  -- line 3916: nmef,kldc,edil,fbjm,cakn->abij
  ⟨-1, [g_abab [nₒ, mₒ, eᵥ, fᵥ], l2_aaaa [kₒ, lₒ, dᵥ, cᵥ], t2_aaaa [eᵥ, dᵥ, iₒ, lₒ], t2_bbbb [fᵥ, bᵥ, jₒ, mₒ], t2_aaaa [cᵥ, aᵥ, kₒ, nₒ]], [(1, [aᵥ, bᵥ, iₒ, jₒ])]⟩,
  -- line 3919: mnfe,kldc,deil,fbmj,ackn->abij
  ⟨1, [g_abab [mₒ, nₒ, fᵥ, eᵥ], l2_abab [kₒ, lₒ, dᵥ, cᵥ], t2_abab [dᵥ, eᵥ, iₒ, lₒ], t2_abab [fᵥ, bᵥ, mₒ, jₒ], t2_abab [aᵥ, cᵥ, kₒ, nₒ]], [(1, [aᵥ, bᵥ, iₒ, jₒ])]⟩,
  -- line 3922: nmef,kldc,deil,fbjm,ackn->abij
  ⟨-1, [g_bbbb [nₒ, mₒ, eᵥ, fᵥ], l2_abab [kₒ, lₒ, dᵥ, cᵥ], t2_abab [dᵥ, eᵥ, iₒ, lₒ], t2_bbbb [fᵥ, bᵥ, jₒ, mₒ], t2_abab [aᵥ, cᵥ, kₒ, nₒ]], [(1, [aᵥ, bᵥ, iₒ, jₒ])]⟩,
  -- line 3925: nmef,klcd,edil,fbmj,cakn->abij
  ⟨-1, [g_aaaa [nₒ, mₒ, eᵥ, fᵥ], l2_abab [kₒ, lₒ, cᵥ, dᵥ], t2_abab [eᵥ, dᵥ, iₒ, lₒ], t2_abab [fᵥ, bᵥ, mₒ, jₒ], t2_aaaa [cᵥ, aᵥ, kₒ, nₒ]], [(1, [aᵥ, bᵥ, iₒ, jₒ])]⟩,
  -- line 3928: nmef,klcd,edil,fbjm,cakn->abij
  ⟨1, [g_abab [nₒ, mₒ, eᵥ, fᵥ], l2_abab [kₒ, lₒ, cᵥ, dᵥ], t2_abab [eᵥ, dᵥ, iₒ, lₒ], t2_bbbb [fᵥ, bᵥ, jₒ, mₒ], t2_aaaa [cᵥ, aᵥ, kₒ, nₒ]], [(1, [aᵥ, bᵥ, iₒ, jₒ])]⟩,
  -- line 3931: nmef,lkdc,edil,fbmj,acnk->abij
  ⟨-1, [g_aaaa [nₒ, mₒ, eᵥ, fᵥ], l2_abab [lₒ, kₒ, dᵥ, cᵥ], t2_aaaa [eᵥ, dᵥ, iₒ, lₒ], t2_abab [fᵥ, bᵥ, mₒ, jₒ], t2_abab [aᵥ, cᵥ, nₒ, kₒ]], [(1, [aᵥ, bᵥ, iₒ, jₒ])]⟩,
  -- line 3934: nmef,lkdc,edil,fbjm,acnk->abij
  ⟨1, [g_abab [nₒ, mₒ, eᵥ, fᵥ], l2_abab [lₒ, kₒ, dᵥ, cᵥ], t2_aaaa [eᵥ, dᵥ, iₒ, lₒ], t2_bbbb [fᵥ, bᵥ, jₒ, mₒ], t2_abab [aᵥ, cᵥ, nₒ, kₒ]], [(1, [aᵥ, bᵥ, iₒ, jₒ])]⟩,
  -- line 3937: nmef,kldc,edil,fbmj,acnk->abij
  ⟨1, [g_aaaa [nₒ, mₒ, eᵥ, fᵥ], l2_bbbb [kₒ, lₒ, dᵥ, cᵥ], t2_abab [eᵥ, dᵥ, iₒ, lₒ], t2_abab [fᵥ, bᵥ, mₒ, jₒ], t2_abab [aᵥ, cᵥ, nₒ, kₒ]], [(1, [aᵥ, bᵥ, iₒ, jₒ])]⟩,
  -- line 3940: nmef,kldc,edil,fbjm,acnk->abij
  ⟨-1, [g_abab [nₒ, mₒ, eᵥ, fᵥ], l2_bbbb [kₒ, lₒ, dᵥ, cᵥ], t2_abab [eᵥ, dᵥ, iₒ, lₒ], t2_bbbb [fᵥ, bᵥ, jₒ, mₒ], t2_abab [aᵥ, cᵥ, nₒ, kₒ]], [(1, [aᵥ, bᵥ, iₒ, jₒ])]⟩,
  -- line 3943: nmfe,kldc,delj,faik,cbnm->abij
  ⟨1/2, [g_abab [nₒ, mₒ, fᵥ, eᵥ], l2_aaaa [kₒ, lₒ, dᵥ, cᵥ], t2_abab [dᵥ, eᵥ, lₒ, jₒ], t2_aaaa [fᵥ, aᵥ, iₒ, kₒ], t2_abab [cᵥ, bᵥ, nₒ, mₒ]], [(1, [aᵥ, bᵥ, iₒ, jₒ])]⟩,
  -- line 3946: mnfe,kldc,delj,faik,cbmn->abij
  ⟨1/2, [g_abab [mₒ, nₒ, fᵥ, eᵥ], l2_aaaa [kₒ, lₒ, dᵥ, cᵥ], t2_abab [dᵥ, eᵥ, lₒ, jₒ], t2_aaaa [fᵥ, aᵥ, iₒ, kₒ], t2_abab [cᵥ, bᵥ, mₒ, nₒ]], [(1, [aᵥ, bᵥ, iₒ, jₒ])]⟩,
  -- line 3949: nmfe,klcd,edjl,faik,cbnm->abij
  ⟨-1/2, [g_abab [nₒ, mₒ, fᵥ, eᵥ], l2_abab [kₒ, lₒ, cᵥ, dᵥ], t2_bbbb [eᵥ, dᵥ, jₒ, lₒ], t2_aaaa [fᵥ, aᵥ, iₒ, kₒ], t2_abab [cᵥ, bᵥ, nₒ, mₒ]], [(1, [aᵥ, bᵥ, iₒ, jₒ])]⟩,
  -- line 3952: mnfe,klcd,edjl,faik,cbmn->abij
  ⟨-1/2, [g_abab [mₒ, nₒ, fᵥ, eᵥ], l2_abab [kₒ, lₒ, cᵥ, dᵥ], t2_bbbb [eᵥ, dᵥ, jₒ, lₒ], t2_aaaa [fᵥ, aᵥ, iₒ, kₒ], t2_abab [cᵥ, bᵥ, mₒ, nₒ]], [(1, [aᵥ, bᵥ, iₒ, jₒ])]⟩
  ]

/-- Part 11 of `residQf2_abab`. -/
def residQf2_abab_11 : Prog := [
  -- line 3955: nmef,lkdc,delj,afik,cbnm->abij
  ⟨-1/2, [g_bbbb [nₒ, mₒ, eᵥ, fᵥ], l2_abab [lₒ, kₒ, dᵥ, cᵥ], t2_abab [dᵥ, eᵥ, lₒ, jₒ], t2_abab [aᵥ, fᵥ, iₒ, kₒ], t2_bbbb [cᵥ, bᵥ, nₒ, mₒ]], [(1, [aᵥ, bᵥ, iₒ, jₒ])]⟩,
  -- line 3958: nmef,lkcd,edlj,afik,cbnm->abij
  ⟨-1/2, [g_abab [nₒ, mₒ, eᵥ, fᵥ], l2_abab [lₒ, kₒ, cᵥ, dᵥ], t2_abab [eᵥ, dᵥ, lₒ, jₒ], t2_abab [aᵥ, fᵥ, iₒ, kₒ], t2_abab [cᵥ, bᵥ, nₒ, mₒ]], [(1, [aᵥ, bᵥ, iₒ, jₒ])]⟩,
  -- line 3961: mnef,lkcd,edlj,afik,cbmn->abij
  ⟨-1/2, [g_abab [mₒ, nₒ, eᵥ, fᵥ], l2_abab [lₒ, kₒ, cᵥ, dᵥ], t2_abab [eᵥ, dᵥ, lₒ, jₒ], t2_abab [aᵥ, fᵥ, iₒ, kₒ], t2_abab [cᵥ, bᵥ, mₒ, nₒ]], [(1, [aᵥ, bᵥ, iₒ, jₒ])]⟩,
  -- line 3964: nmef,kldc,edjl,afik,cbnm->abij
  ⟨1/2, [g_bbbb [nₒ, mₒ, eᵥ, fᵥ], l2_bbbb [kₒ, lₒ, dᵥ, cᵥ], t2_bbbb [eᵥ, dᵥ, jₒ, lₒ], t2_abab [aᵥ, fᵥ, iₒ, kₒ], t2_bbbb [cᵥ, bᵥ, nₒ, mₒ]], [(1, [aᵥ, bᵥ, iₒ, jₒ])]⟩,
  -- line 3967: nmfe,lkdc,delj,fbik,acnm->abij
  ⟨-1/2, [g_abab [nₒ, mₒ, fᵥ, eᵥ], l2_abab [lₒ, kₒ, dᵥ, cᵥ], t2_abab [dᵥ, eᵥ, lₒ, jₒ], t2_abab [fᵥ, bᵥ, iₒ, kₒ], t2_abab [aᵥ, cᵥ, nₒ, mₒ]], [(1, [aᵥ, bᵥ, iₒ, jₒ])]⟩,
  -- line 3970: mnfe,lkdc,delj,fbik,acmn->abij
  ⟨-1/2, [g_abab [mₒ, nₒ, fᵥ, eᵥ], l2_abab [lₒ, kₒ, dᵥ, cᵥ], t2_abab [dᵥ, eᵥ, lₒ, jₒ], t2_abab [fᵥ, bᵥ, iₒ, kₒ], t2_abab [aᵥ, cᵥ, mₒ, nₒ]], [(1, [aᵥ, bᵥ, iₒ, jₒ])]⟩,
  -- line 3973: nmef,lkcd,edlj,fbik,canm->abij
  ⟨-1/2, [g_aaaa [nₒ, mₒ, eᵥ, fᵥ], l2_abab [lₒ, kₒ, cᵥ, dᵥ], t2_abab [eᵥ, dᵥ, lₒ, jₒ], t2_abab [fᵥ, bᵥ, iₒ, kₒ], t2_aaaa [cᵥ, aᵥ, nₒ, mₒ]], [(1, [aᵥ, bᵥ, iₒ, jₒ])]⟩,
  -- line 3976: nmfe,kldc,edjl,fbik,acnm->abij
  ⟨1/2, [g_abab [nₒ, mₒ, fᵥ, eᵥ], l2_bbbb [kₒ, lₒ, dᵥ, cᵥ], t2_bbbb [eᵥ, dᵥ, jₒ, lₒ], t2_abab [fᵥ, bᵥ, iₒ, kₒ], t2_abab [aᵥ, cᵥ, nₒ, mₒ]], [(1, [aᵥ, bᵥ, iₒ, jₒ])]⟩,
  -- line 3979: mnfe,kldc,edjl,fbik,acmn->abij
  ⟨1/2, [g_abab [mₒ, nₒ, fᵥ, eᵥ], l2_bbbb [kₒ, lₒ, dᵥ, cᵥ], t2_bbbb [eᵥ, dᵥ, jₒ, lₒ], t2_abab [fᵥ, bᵥ, iₒ, kₒ], t2_abab [aᵥ, cᵥ, mₒ, nₒ]], [(1, [aᵥ, bᵥ, iₒ, jₒ])]⟩,
  -- line 3982: nmef,kldc,edil,afkj,cbnm->abij
  ⟨1/2, [g_abab [nₒ, mₒ, eᵥ, fᵥ], l2_aaaa [kₒ, lₒ, dᵥ, cᵥ], t2_aaaa [eᵥ, dᵥ, iₒ, lₒ], t2_abab [aᵥ, fᵥ, kₒ, jₒ], t2_abab [cᵥ, bᵥ, nₒ, mₒ]], [(1, [aᵥ, bᵥ, iₒ, jₒ])]⟩,
  -- line 3985: mnef,kldc,edil,afkj,cbmn->abij
  ⟨1/2, [g_abab [mₒ, nₒ, eᵥ, fᵥ], l2_aaaa [kₒ, lₒ, dᵥ, cᵥ], t2_aaaa [eᵥ, dᵥ, iₒ, lₒ], t2_abab [aᵥ, fᵥ, kₒ, jₒ], t2_abab [cᵥ, bᵥ, mₒ, nₒ]], [(1, [aᵥ, bᵥ, iₒ, jₒ])]⟩,
  -- line 3988: nmef,kldc,deil,afkj,cbnm->abij
  ⟨-1/2, [g_bbbb [nₒ, mₒ, eᵥ, fᵥ], l2_abab [kₒ, lₒ, dᵥ, cᵥ], t2_abab [dᵥ, eᵥ, iₒ, lₒ], t2_abab [aᵥ, fᵥ, kₒ, jₒ], t2_bbbb [cᵥ, bᵥ, nₒ, mₒ]], [(1, [aᵥ, bᵥ, iₒ, jₒ])]⟩,
  -- line 3991: nmef,klcd,edil,afkj,cbnm->abij
  ⟨-1/2, [g_abab [nₒ, mₒ, eᵥ, fᵥ], l2_abab [kₒ, lₒ, cᵥ, dᵥ], t2_abab [eᵥ, dᵥ, iₒ, lₒ], t2_abab [aᵥ, fᵥ, kₒ, jₒ], t2_abab [cᵥ, bᵥ, nₒ, mₒ]], [(1, [aᵥ, bᵥ, iₒ, jₒ])]⟩,
  -- line 3994: mnef,klcd,edil,afkj,cbmn->abij
  ⟨-1/2, [g_abab [mₒ, nₒ, eᵥ, fᵥ], l2_abab [kₒ, lₒ, cᵥ, dᵥ], t2_abab [eᵥ, dᵥ, iₒ, lₒ], t2_abab [aᵥ, fᵥ, kₒ, jₒ], t2_abab [cᵥ, bᵥ, mₒ, nₒ]], [(1, [aᵥ, bᵥ, iₒ, jₒ])]⟩,
  -- line 3997: nmef,kldc,edil,fbkj,canm->abij
  ⟨1/2, [g_aaaa [nₒ, mₒ, eᵥ, fᵥ], l2_aaaa [kₒ, lₒ, dᵥ, cᵥ], t2_aaaa [eᵥ, dᵥ, iₒ, lₒ], t2_abab [fᵥ, bᵥ, kₒ, jₒ], t2_aaaa [cᵥ, aᵥ, nₒ, mₒ]], [(1, [aᵥ, bᵥ, iₒ, jₒ])]⟩,
  -- line 4000: nmfe,kldc,deil,fbkj,acnm->abij
  ⟨-1/2, [g_abab [nₒ, mₒ, fᵥ, eᵥ], l2_abab [kₒ, lₒ, dᵥ, cᵥ], t2_abab [dᵥ, eᵥ, iₒ, lₒ], t2_abab [fᵥ, bᵥ, kₒ, jₒ], t2_abab [aᵥ, cᵥ, nₒ, mₒ]], [(1, [aᵥ, bᵥ, iₒ, jₒ])]⟩,
  -- line 4003: mnfe,kldc,deil,fbkj,acmn->abij
  ⟨-1/2, [g_abab [mₒ, nₒ, fᵥ, eᵥ], l2_abab [kₒ, lₒ, dᵥ, cᵥ], t2_abab [dᵥ, eᵥ, iₒ, lₒ], t2_abab [fᵥ, bᵥ, kₒ, jₒ], t2_abab [aᵥ, cᵥ, mₒ, nₒ]], [(1, [aᵥ, bᵥ, iₒ, jₒ])]⟩,
  -- line 4006: nmef,klcd,edil,fbkj,canm->abij
  ⟨-1/2, [g_aaaa [nₒ, mₒ, eᵥ, fᵥ], l2_abab [kₒ, lₒ, cᵥ, dᵥ], t2_abab [eᵥ, dᵥ, iₒ, lₒ], t2_abab [fᵥ, bᵥ, kₒ, jₒ], t2_aaaa [cᵥ, aᵥ, nₒ, mₒ]], [(1, [aᵥ, bᵥ, iₒ, jₒ])]⟩,
  -- line 4009: nmef,lkdc,edil,fbjk,acnm->abij
  ⟨-1/2, [g_abab [nₒ, mₒ, eᵥ, fᵥ], l2_abab [lₒ, kₒ, dᵥ, cᵥ], t2_aaaa [eᵥ, dᵥ, iₒ, lₒ], t2_bbbb [fᵥ, bᵥ, jₒ, kₒ], t2_abab [aᵥ, cᵥ, nₒ, mₒ]], [(1, [aᵥ, bᵥ, iₒ, jₒ])]⟩,
  -- line 4012: mnef,lkdc,edil,fbjk,acmn->abij
  ⟨-1/2, [g_abab [mₒ, nₒ, eᵥ, fᵥ], l2_abab [lₒ, kₒ, dᵥ, cᵥ], t2_aaaa [eᵥ, dᵥ, iₒ, lₒ], t2_bbbb [fᵥ, bᵥ, jₒ, kₒ], t2_abab [aᵥ, cᵥ, mₒ, nₒ]], [(1, [aᵥ, bᵥ, iₒ, jₒ])]⟩,
  -- line 4015: nmef,kldc,edil,fbjk,acnm->abij
  ⟨1/2, [g_abab [nₒ, mₒ, eᵥ, fᵥ], l2_bbbb [kₒ, lₒ, dᵥ, cᵥ], t2_abab [eᵥ, dᵥ, iₒ, lₒ], t2_bbbb [fᵥ, bᵥ, jₒ, kₒ], t2_abab [aᵥ, cᵥ, nₒ, mₒ]], [(1, [aᵥ, bᵥ, iₒ, jₒ])]⟩,
  -- line 4018: mnef,kldc,edil,fbjk,acmn->abij
  ⟨1/2, [g_abab [mₒ, nₒ, eᵥ, fᵥ], l2_bbbb [kₒ, lₒ, dᵥ, cᵥ], t2_abab [eᵥ, dᵥ, iₒ, lₒ], t2_bbbb [fᵥ, bᵥ, jₒ, kₒ], t2_abab [aᵥ, cᵥ, mₒ, nₒ]], [(1, [aᵥ, bᵥ, iₒ, jₒ])]⟩,
  -- line 4021: mnfe,kldc,deij,falm,cbkn->abij
  ⟨1, [g_abab [mₒ, nₒ, fᵥ, eᵥ], l2_aaaa [kₒ, lₒ, dᵥ, cᵥ], t2_abab [dᵥ, eᵥ, iₒ, jₒ], t2_aaaa [fᵥ, aᵥ, lₒ, mₒ], t2_abab [cᵥ, bᵥ, kₒ, nₒ]], [(1, [aᵥ, bᵥ, iₒ, jₒ])]⟩,
  -- line 4024: nmef,kldc,deij,aflm,cbkn->abij
  ⟨-1, [g_bbbb [nₒ, mₒ, eᵥ, fᵥ], l2_aaaa [kₒ, lₒ, dᵥ, cᵥ], t2_abab [dᵥ, eᵥ, iₒ, jₒ], t2_abab [aᵥ, fᵥ, lₒ, mₒ], t2_abab [cᵥ, bᵥ, kₒ, nₒ]], [(1, [aᵥ, bᵥ, iₒ, jₒ])]⟩,
  -- line 4027: mnef,klcd,edij,afml,cbkn->abij
  ⟨-1, [g_abab [mₒ, nₒ, eᵥ, fᵥ], l2_abab [kₒ, lₒ, cᵥ, dᵥ], t2_abab [eᵥ, dᵥ, iₒ, jₒ], t2_abab [aᵥ, fᵥ, mₒ, lₒ], t2_abab [cᵥ, bᵥ, kₒ, nₒ]], [(1, [aᵥ, bᵥ, iₒ, jₒ])]⟩,
  -- line 4030: mnfe,lkdc,deij,falm,cbkn->abij
  ⟨-1, [g_abab [mₒ, nₒ, fᵥ, eᵥ], l2_abab [lₒ, kₒ, dᵥ, cᵥ], t2_abab [dᵥ, eᵥ, iₒ, jₒ], t2_aaaa [fᵥ, aᵥ, lₒ, mₒ], t2_bbbb [cᵥ, bᵥ, kₒ, nₒ]], [(1, [aᵥ, bᵥ, iₒ, jₒ])]⟩,
  -- line 4033: nmef,lkdc,deij,aflm,cbkn->abij
  ⟨1, [g_bbbb [nₒ, mₒ, eᵥ, fᵥ], l2_abab [lₒ, kₒ, dᵥ, cᵥ], t2_abab [dᵥ, eᵥ, iₒ, jₒ], t2_abab [aᵥ, fᵥ, lₒ, mₒ], t2_bbbb [cᵥ, bᵥ, kₒ, nₒ]], [(1, [aᵥ, bᵥ, iₒ, jₒ])]⟩,
  -- line 4036: nmef,lkcd,edij,falm,cbnk->abij
  ⟨1, [g_aaaa [nₒ, mₒ, eᵥ, fᵥ], l2_abab [lₒ, kₒ, cᵥ, dᵥ], t2_abab [eᵥ, dᵥ, iₒ, jₒ], t2_aaaa [fᵥ, aᵥ, lₒ, mₒ], t2_abab [cᵥ, bᵥ, nₒ, kₒ]], [(1, [aᵥ, bᵥ, iₒ, jₒ])]⟩,
  -- line 4039: nmef,lkcd,edij,aflm,cbnk->abij
  ⟨-1, [g_abab [nₒ, mₒ, eᵥ, fᵥ], l2_abab [lₒ, kₒ, cᵥ, dᵥ], t2_abab [eᵥ, dᵥ, iₒ, jₒ], t2_abab [aᵥ, fᵥ, lₒ, mₒ], t2_abab [cᵥ, bᵥ, nₒ, kₒ]], [(1, [aᵥ, bᵥ, iₒ, jₒ])]⟩,
  -- line 4042: mnef,kldc,edij,afml,cbkn->abij
  ⟨1, [g_abab [mₒ, nₒ, eᵥ, fᵥ], l2_bbbb [kₒ, lₒ, dᵥ, cᵥ], t2_abab [eᵥ, dᵥ, iₒ, jₒ], t2_abab [aᵥ, fᵥ, mₒ, lₒ], t2_bbbb [cᵥ, bᵥ, kₒ, nₒ]], [(1, [aᵥ, bᵥ, iₒ, jₒ])]⟩,
  -- line 4045: nmfe,kldc,deij,fblm,cakn->abij
  ⟨1, [g_abab [nₒ, mₒ, fᵥ, eᵥ], l2_aaaa [kₒ, lₒ, dᵥ, cᵥ], t2_abab [dᵥ, eᵥ, iₒ, jₒ], t2_abab [fᵥ, bᵥ, lₒ, mₒ], t2_aaaa [cᵥ, aᵥ, kₒ, nₒ]], [(1, [aᵥ, bᵥ, iₒ, jₒ])]⟩,
  -- line 4048: mnfe,kldc,deij,fbml,ackn->abij
  ⟨-1, [g_abab [mₒ, nₒ, fᵥ, eᵥ], l2_abab [kₒ, lₒ, dᵥ, cᵥ], t2_abab [dᵥ, eᵥ, iₒ, jₒ], t2_abab [fᵥ, bᵥ, mₒ, lₒ], t2_abab [aᵥ, cᵥ, kₒ, nₒ]], [(1, [aᵥ, bᵥ, iₒ, jₒ])]⟩,
  -- line 4051: nmef,kldc,deij,fblm,ackn->abij
  ⟨1, [g_bbbb [nₒ, mₒ, eᵥ, fᵥ], l2_abab [kₒ, lₒ, dᵥ, cᵥ], t2_abab [dᵥ, eᵥ, iₒ, jₒ], t2_bbbb [fᵥ, bᵥ, lₒ, mₒ], t2_abab [aᵥ, cᵥ, kₒ, nₒ]], [(1, [aᵥ, bᵥ, iₒ, jₒ])]⟩,
  -- line 4054: nmef,klcd,edij,fbml,cakn->abij
  ⟨1, [g_aaaa [nₒ, mₒ, eᵥ, fᵥ], l2_abab [kₒ, lₒ, cᵥ, dᵥ], t2_abab [eᵥ, dᵥ, iₒ, jₒ], t2_abab [fᵥ, bᵥ, mₒ, lₒ], t2_aaaa [cᵥ, aᵥ, kₒ, nₒ]], [(1, [aᵥ, bᵥ, iₒ, jₒ])]⟩,
  -- line 4057: nmef,klcd,edij,fblm,cakn->abij
  ⟨-1, [g_abab [nₒ, mₒ, eᵥ, fᵥ], l2_abab [kₒ, lₒ, cᵥ, dᵥ], t2_abab [eᵥ, dᵥ, iₒ, jₒ], t2_bbbb [fᵥ, bᵥ, lₒ, mₒ], t2_aaaa [cᵥ, aᵥ, kₒ, nₒ]], [(1, [aᵥ, bᵥ, iₒ, jₒ])]⟩,
  -- line 4060: nmfe,lkdc,deij,fblm,acnk->abij
  ⟨-1, [g_abab [nₒ, mₒ, fᵥ, eᵥ], l2_abab [lₒ, kₒ, dᵥ, cᵥ], t2_abab [dᵥ, eᵥ, iₒ, jₒ], t2_abab [fᵥ, bᵥ, lₒ, mₒ], t2_abab [aᵥ, cᵥ, nₒ, kₒ]], [(1, [aᵥ, bᵥ, iₒ, jₒ])]⟩,
  -- line 4063: nmef,kldc,edij,fbml,acnk->abij
  ⟨-1, [g_aaaa [nₒ, mₒ, eᵥ, fᵥ], l2_bbbb [kₒ, lₒ, dᵥ, cᵥ], t2_abab [eᵥ, dᵥ, iₒ, jₒ], t2_abab [fᵥ, bᵥ, mₒ, lₒ], t2_abab [aᵥ, cᵥ, nₒ, kₒ]], [(1, [aᵥ, bᵥ, iₒ, jₒ])]⟩,
  -- line 4066: nmef,kldc,edij,fblm,acnk->abij
  ⟨1, [g_abab [nₒ, mₒ, eᵥ, fᵥ], l2_bbbb [kₒ, lₒ, dᵥ, cᵥ], t2_abab [eᵥ, dᵥ, iₒ, jₒ], t2_bbbb [fᵥ, bᵥ, lₒ, mₒ], t2_abab [aᵥ, cᵥ, nₒ, kₒ]], [(1, [aᵥ, bᵥ, iₒ, jₒ])]⟩,
  -- line 4069: nmfe,kldc,deij,fakl,cbnm->abij
  ⟨1/4, [g_abab [nₒ, mₒ, fᵥ, eᵥ], l2_aaaa [kₒ, lₒ, dᵥ, cᵥ], t2_abab [dᵥ, eᵥ, iₒ, jₒ], t2_aaaa [fᵥ, aᵥ, kₒ, lₒ], t2_abab [cᵥ, bᵥ, nₒ, mₒ]], [(1, [aᵥ, bᵥ, iₒ, jₒ])]⟩,
  -- line 4072: mnfe,kldc,deij,fakl,cbmn->abij
  ⟨1/4, [g_abab [mₒ, nₒ, fᵥ, eᵥ], l2_aaaa [kₒ, lₒ, dᵥ, cᵥ], t2_abab [dᵥ, eᵥ, iₒ, jₒ], t2_aaaa [fᵥ, aᵥ, kₒ, lₒ], t2_abab [cᵥ, bᵥ, mₒ, nₒ]], [(1, [aᵥ, bᵥ, iₒ, jₒ])]⟩
  ]

/-- Part 12 of `residQf2_abab`. -/
def residQf2_abab_12 : Prog := [
  -- line 4075: nmef,kldc,deij,afkl,cbnm->abij
  ⟨1/4, [g_bbbb [nₒ, mₒ, eᵥ, fᵥ], l2_abab [kₒ, lₒ, dᵥ, cᵥ], t2_abab [dᵥ, eᵥ, iₒ, jₒ], t2_abab [aᵥ, fᵥ, kₒ, lₒ], t2_bbbb [cᵥ, bᵥ, nₒ, mₒ]], [(1, [aᵥ, bᵥ, iₒ, jₒ])]⟩,
  -- line 4078: nmef,klcd,edij,afkl,cbnm->abij
  ⟨1/4, [g_abab [nₒ, mₒ, eᵥ, fᵥ], l2_abab [kₒ, lₒ, cᵥ, dᵥ], t2_abab [eᵥ, dᵥ, iₒ, jₒ], t2_abab [aᵥ, fᵥ, kₒ, lₒ], t2_abab [cᵥ, bᵥ, nₒ, mₒ]], [(1, [aᵥ, bᵥ, iₒ, jₒ])]⟩,
  -- line 4081: mnef,klcd,edij,afkl,cbmn->abij
  ⟨1/4, [g_abab [mₒ, nₒ, eᵥ, fᵥ], l2_abab [kₒ, lₒ, cᵥ, dᵥ], t2_abab [eᵥ, dᵥ, iₒ, jₒ], t2_abab [aᵥ, fᵥ, kₒ, lₒ], t2_abab [cᵥ, bᵥ, mₒ, nₒ]], [(1, [aᵥ, bᵥ, iₒ, jₒ])]⟩,
  -- line 4084: nmef,lkdc,deij,aflk,cbnm->abij
  ⟨1/4, [g_bbbb [nₒ, mₒ, eᵥ, fᵥ], l2_abab [lₒ, kₒ, dᵥ, cᵥ], t2_abab [dᵥ, eᵥ, iₒ, jₒ], t2_abab [aᵥ, fᵥ, lₒ, kₒ], t2_bbbb [cᵥ, bᵥ, nₒ, mₒ]], [(1, [aᵥ, bᵥ, iₒ, jₒ])]⟩,
  -- line 4087: nmef,lkcd,edij,aflk,cbnm->abij
  ⟨1/4, [g_abab [nₒ, mₒ, eᵥ, fᵥ], l2_abab [lₒ, kₒ, cᵥ, dᵥ], t2_abab [eᵥ, dᵥ, iₒ, jₒ], t2_abab [aᵥ, fᵥ, lₒ, kₒ], t2_abab [cᵥ, bᵥ, nₒ, mₒ]], [(1, [aᵥ, bᵥ, iₒ, jₒ])]⟩,
  -- line 4090: mnef,lkcd,edij,aflk,cbmn->abij
  ⟨1/4, [g_abab [mₒ, nₒ, eᵥ, fᵥ], l2_abab [lₒ, kₒ, cᵥ, dᵥ], t2_abab [eᵥ, dᵥ, iₒ, jₒ], t2_abab [aᵥ, fᵥ, lₒ, kₒ], t2_abab [cᵥ, bᵥ, mₒ, nₒ]], [(1, [aᵥ, bᵥ, iₒ, jₒ])]⟩,
  -- line 4093: nmfe,kldc,deij,fbkl,acnm->abij
  ⟨1/4, [g_abab [nₒ, mₒ, fᵥ, eᵥ], l2_abab [kₒ, lₒ, dᵥ, cᵥ], t2_abab [dᵥ, eᵥ, iₒ, jₒ], t2_abab [fᵥ, bᵥ, kₒ, lₒ], t2_abab [aᵥ, cᵥ, nₒ, mₒ]], [(1, [aᵥ, bᵥ, iₒ, jₒ])]⟩,
  -- line 4096: mnfe,kldc,deij,fbkl,acmn->abij
  ⟨1/4, [g_abab [mₒ, nₒ, fᵥ, eᵥ], l2_abab [kₒ, lₒ, dᵥ, cᵥ], t2_abab [dᵥ, eᵥ, iₒ, jₒ], t2_abab [fᵥ, bᵥ, kₒ, lₒ], t2_abab [aᵥ, cᵥ, mₒ, nₒ]], [(1, [aᵥ, bᵥ, iₒ, jₒ])]⟩,
  -- line 4099: nmef,klcd,edij,fbkl,canm->abij
  ⟨1/4, [g_aaaa [nₒ, mₒ, eᵥ, fᵥ], l2_abab [kₒ, lₒ, cᵥ, dᵥ], t2_abab [eᵥ, dᵥ, iₒ, jₒ], t2_abab [fᵥ, bᵥ, kₒ, lₒ], t2_aaaa [cᵥ, aᵥ, nₒ, mₒ]], [(1, [aᵥ, bᵥ, iₒ, jₒ])]⟩,
  -- line 4102: nmfe,lkdc,deij,fblk,acnm->abij
  ⟨1/4, [g_abab [nₒ, mₒ, fᵥ, eᵥ], l2_abab [lₒ, kₒ, dᵥ, cᵥ], t2_abab [dᵥ, eᵥ, iₒ, jₒ], t2_abab [fᵥ, bᵥ, lₒ, kₒ], t2_abab [aᵥ, cᵥ, nₒ, mₒ]], [(1, [aᵥ, bᵥ, iₒ, jₒ])]⟩,
  -- line 4105: mnfe,lkdc,deij,fblk,acmn->abij
  ⟨1/4, [g_abab [mₒ, nₒ, fᵥ, eᵥ], l2_abab [lₒ, kₒ, dᵥ, cᵥ], t2_abab [dᵥ, eᵥ, iₒ, jₒ], t2_abab [fᵥ, bᵥ, lₒ, kₒ], t2_abab [aᵥ, cᵥ, mₒ, nₒ]], [(1, [aᵥ, bᵥ, iₒ, jₒ])]⟩,
  -- line 4108: nmef,lkcd,edij,fblk,canm->abij
  ⟨1/4, [g_aaaa [nₒ, mₒ, eᵥ, fᵥ], l2_abab [lₒ, kₒ, cᵥ, dᵥ], t2_abab [eᵥ, dᵥ, iₒ, jₒ], t2_abab [fᵥ, bᵥ, lₒ, kₒ], t2_aaaa [cᵥ, aᵥ, nₒ, mₒ]], [(1, [aᵥ, bᵥ, iₒ, jₒ])]⟩,
  -- line 4111: nmef,kldc,edij,fbkl,acnm->abij
  ⟨1/4, [g_abab [nₒ, mₒ, eᵥ, fᵥ], l2_bbbb [kₒ, lₒ, dᵥ, cᵥ], t2_abab [eᵥ, dᵥ, iₒ, jₒ], t2_bbbb [fᵥ, bᵥ, kₒ, lₒ], t2_abab [aᵥ, cᵥ, nₒ, mₒ]], [(1, [aᵥ, bᵥ, iₒ, jₒ])]⟩,
  -- line 4114: mnef,kldc,edij,fbkl,acmn->abij
  ⟨1/4, [g_abab [mₒ, nₒ, eᵥ, fᵥ], l2_bbbb [kₒ, lₒ, dᵥ, cᵥ], t2_abab [eᵥ, dᵥ, iₒ, jₒ], t2_bbbb [fᵥ, bᵥ, kₒ, lₒ], t2_abab [aᵥ, cᵥ, mₒ, nₒ]], [(1, [aᵥ, bᵥ, iₒ, jₒ])]⟩,
  -- line 4117: nmef,kldc,ealm,fbkj,dcin->abij
  ⟨-1/2, [g_aaaa [nₒ, mₒ, eᵥ, fᵥ], l2_aaaa [kₒ, lₒ, dᵥ, cᵥ], t2_aaaa [eᵥ, aᵥ, lₒ, mₒ], t2_abab [fᵥ, bᵥ, kₒ, jₒ], t2_aaaa [dᵥ, cᵥ, iₒ, nₒ]], [(1, [aᵥ, bᵥ, iₒ, jₒ])]⟩,
  -- line 4120: nmfe,kldc,aelm,fbkj,dcin->abij
  ⟨-1/2, [g_abab [nₒ, mₒ, fᵥ, eᵥ], l2_aaaa [kₒ, lₒ, dᵥ, cᵥ], t2_abab [aᵥ, eᵥ, lₒ, mₒ], t2_abab [fᵥ, bᵥ, kₒ, jₒ], t2_aaaa [dᵥ, cᵥ, iₒ, nₒ]], [(1, [aᵥ, bᵥ, iₒ, jₒ])]⟩,
  -- line 4123: mnfe,kldc,aeml,fbkj,dcin->abij
  ⟨-1/2, [g_abab [mₒ, nₒ, fᵥ, eᵥ], l2_abab [kₒ, lₒ, dᵥ, cᵥ], t2_abab [aᵥ, eᵥ, mₒ, lₒ], t2_abab [fᵥ, bᵥ, kₒ, jₒ], t2_abab [dᵥ, cᵥ, iₒ, nₒ]], [(1, [aᵥ, bᵥ, iₒ, jₒ])]⟩,
  -- line 4126: mnfe,klcd,aeml,fbkj,cdin->abij
  ⟨-1/2, [g_abab [mₒ, nₒ, fᵥ, eᵥ], l2_abab [kₒ, lₒ, cᵥ, dᵥ], t2_abab [aᵥ, eᵥ, mₒ, lₒ], t2_abab [fᵥ, bᵥ, kₒ, jₒ], t2_abab [cᵥ, dᵥ, iₒ, nₒ]], [(1, [aᵥ, bᵥ, iₒ, jₒ])]⟩,
  -- line 4129: mnef,lkdc,ealm,fbjk,dcin->abij
  ⟨1/2, [g_abab [mₒ, nₒ, eᵥ, fᵥ], l2_abab [lₒ, kₒ, dᵥ, cᵥ], t2_aaaa [eᵥ, aᵥ, lₒ, mₒ], t2_bbbb [fᵥ, bᵥ, jₒ, kₒ], t2_abab [dᵥ, cᵥ, iₒ, nₒ]], [(1, [aᵥ, bᵥ, iₒ, jₒ])]⟩,
  -- line 4132: nmef,lkdc,aelm,fbjk,dcin->abij
  ⟨1/2, [g_bbbb [nₒ, mₒ, eᵥ, fᵥ], l2_abab [lₒ, kₒ, dᵥ, cᵥ], t2_abab [aᵥ, eᵥ, lₒ, mₒ], t2_bbbb [fᵥ, bᵥ, jₒ, kₒ], t2_abab [dᵥ, cᵥ, iₒ, nₒ]], [(1, [aᵥ, bᵥ, iₒ, jₒ])]⟩,
  -- line 4135: mnef,lkcd,ealm,fbjk,cdin->abij
  ⟨1/2, [g_abab [mₒ, nₒ, eᵥ, fᵥ], l2_abab [lₒ, kₒ, cᵥ, dᵥ], t2_aaaa [eᵥ, aᵥ, lₒ, mₒ], t2_bbbb [fᵥ, bᵥ, jₒ, kₒ], t2_abab [cᵥ, dᵥ, iₒ, nₒ]], [(1, [aᵥ, bᵥ, iₒ, jₒ])]⟩,
  -- line 4138: nmef,lkcd,aelm,fbjk,cdin->abij
  ⟨1/2, [g_bbbb [nₒ, mₒ, eᵥ, fᵥ], l2_abab [lₒ, kₒ, cᵥ, dᵥ], t2_abab [aᵥ, eᵥ, lₒ, mₒ], t2_bbbb [fᵥ, bᵥ, jₒ, kₒ], t2_abab [cᵥ, dᵥ, iₒ, nₒ]], [(1, [aᵥ, bᵥ, iₒ, jₒ])]⟩,
  -- line 4141: nmef,lkdc,ealm,fbik,dcnj->abij
  ⟨-1/2, [g_aaaa [nₒ, mₒ, eᵥ, fᵥ], l2_abab [lₒ, kₒ, dᵥ, cᵥ], t2_aaaa [eᵥ, aᵥ, lₒ, mₒ], t2_abab [fᵥ, bᵥ, iₒ, kₒ], t2_abab [dᵥ, cᵥ, nₒ, jₒ]], [(1, [aᵥ, bᵥ, iₒ, jₒ])]⟩,
  -- line 4144: nmfe,lkdc,aelm,fbik,dcnj->abij
  ⟨-1/2, [g_abab [nₒ, mₒ, fᵥ, eᵥ], l2_abab [lₒ, kₒ, dᵥ, cᵥ], t2_abab [aᵥ, eᵥ, lₒ, mₒ], t2_abab [fᵥ, bᵥ, iₒ, kₒ], t2_abab [dᵥ, cᵥ, nₒ, jₒ]], [(1, [aᵥ, bᵥ, iₒ, jₒ])]⟩,
  -- line 4147: nmef,lkcd,ealm,fbik,cdnj->abij
  ⟨-1/2, [g_aaaa [nₒ, mₒ, eᵥ, fᵥ], l2_abab [lₒ, kₒ, cᵥ, dᵥ], t2_aaaa [eᵥ, aᵥ, lₒ, mₒ], t2_abab [fᵥ, bᵥ, iₒ, kₒ], t2_abab [cᵥ, dᵥ, nₒ, jₒ]], [(1, [aᵥ, bᵥ, iₒ, jₒ])]⟩,
  -- line 4150: nmfe,lkcd,aelm,fbik,cdnj->abij
  ⟨-1/2, [g_abab [nₒ, mₒ, fᵥ, eᵥ], l2_abab [lₒ, kₒ, cᵥ, dᵥ], t2_abab [aᵥ, eᵥ, lₒ, mₒ], t2_abab [fᵥ, bᵥ, iₒ, kₒ], t2_abab [cᵥ, dᵥ, nₒ, jₒ]], [(1, [aᵥ, bᵥ, iₒ, jₒ])]⟩,
  -- line 4153: mnfe,kldc,aeml,fbik,dcjn->abij
  ⟨-1/2, [g_abab [mₒ, nₒ, fᵥ, eᵥ], l2_bbbb [kₒ, lₒ, dᵥ, cᵥ], t2_abab [aᵥ, eᵥ, mₒ, lₒ], t2_abab [fᵥ, bᵥ, iₒ, kₒ], t2_bbbb [dᵥ, cᵥ, jₒ, nₒ]], [(1, [aᵥ, bᵥ, iₒ, jₒ])]⟩,
  -- line 4156: nmef,kldc,ealm,fbij,dckn->abij
  ⟨3/8, [g_aaaa [nₒ, mₒ, eᵥ, fᵥ], l2_aaaa [kₒ, lₒ, dᵥ, cᵥ], t2_aaaa [eᵥ, aᵥ, lₒ, mₒ], t2_abab [fᵥ, bᵥ, iₒ, jₒ], t2_aaaa [dᵥ, cᵥ, kₒ, nₒ]], [(1, [aᵥ, bᵥ, iₒ, jₒ])]⟩,
  -- line 4159: nmfe,kldc,aelm,fbij,dckn->abij
  ⟨3/8, [g_abab [nₒ, mₒ, fᵥ, eᵥ], l2_aaaa [kₒ, lₒ, dᵥ, cᵥ], t2_abab [aᵥ, eᵥ, lₒ, mₒ], t2_abab [fᵥ, bᵥ, iₒ, jₒ], t2_aaaa [dᵥ, cᵥ, kₒ, nₒ]], [(1, [aᵥ, bᵥ, iₒ, jₒ])]⟩,
  -- line 4162: mnfe,kldc,aeml,fbij,dckn->abij
  ⟨3/8, [g_abab [mₒ, nₒ, fᵥ, eᵥ], l2_abab [kₒ, lₒ, dᵥ, cᵥ], t2_abab [aᵥ, eᵥ, mₒ, lₒ], t2_abab [fᵥ, bᵥ, iₒ, jₒ], t2_abab [dᵥ, cᵥ, kₒ, nₒ]], [(1, [aᵥ, bᵥ, iₒ, jₒ])]⟩,
  -- line 4165: mnfe,klcd,aeml,fbij,cdkn->abij
  ⟨3/8, [g_abab [mₒ, nₒ, fᵥ, eᵥ], l2_abab [kₒ, lₒ, cᵥ, dᵥ], t2_abab [aᵥ, eᵥ, mₒ, lₒ], t2_abab [fᵥ, bᵥ, iₒ, jₒ], t2_abab [cᵥ, dᵥ, kₒ, nₒ]], [(1, [aᵥ, bᵥ, iₒ, jₒ])]⟩,
  -- line 4168: nmef,lkdc,ealm,fbij,dcnk->abij
  ⟨3/8, [g_aaaa [nₒ, mₒ, eᵥ, fᵥ], l2_abab [lₒ, kₒ, dᵥ, cᵥ], t2_aaaa [eᵥ, aᵥ, lₒ, mₒ], t2_abab [fᵥ, bᵥ, iₒ, jₒ], t2_abab [dᵥ, cᵥ, nₒ, kₒ]], [(1, [aᵥ, bᵥ, iₒ, jₒ])]⟩,
  -- line 4171: nmfe,lkdc,aelm,fbij,dcnk->abij
  ⟨3/8, [g_abab [nₒ, mₒ, fᵥ, eᵥ], l2_abab [lₒ, kₒ, dᵥ, cᵥ], t2_abab [aᵥ, eᵥ, lₒ, mₒ], t2_abab [fᵥ, bᵥ, iₒ, jₒ], t2_abab [dᵥ, cᵥ, nₒ, kₒ]], [(1, [aᵥ, bᵥ, iₒ, jₒ])]⟩,
  -- line 4174: nmef,lkcd,ealm,fbij,cdnk->abij
  ⟨3/8, [g_aaaa [nₒ, mₒ, eᵥ, fᵥ], l2_abab [lₒ, kₒ, cᵥ, dᵥ], t2_aaaa [eᵥ, aᵥ, lₒ, mₒ], t2_abab [fᵥ, bᵥ, iₒ, jₒ], t2_abab [cᵥ, dᵥ, nₒ, kₒ]], [(1, [aᵥ, bᵥ, iₒ, jₒ])]⟩,
  -- line 4177: nmfe,lkcd,aelm,fbij,cdnk->abij
  ⟨3/8, [g_abab [nₒ, mₒ, fᵥ, eᵥ], l2_abab [lₒ, kₒ, cᵥ, dᵥ], t2_abab [aᵥ, eᵥ, lₒ, mₒ], t2_abab [fᵥ, bᵥ, iₒ, jₒ], t2_abab [cᵥ, dᵥ, nₒ, kₒ]], [(1, [aᵥ, bᵥ, iₒ, jₒ])]⟩,
  -- line 4180: mnfe,kldc,aeml,fbij,dckn->abij
  ⟨3/8, [g_abab [mₒ, nₒ, fᵥ, eᵥ], l2_bbbb [kₒ, lₒ, dᵥ, cᵥ], t2_abab [aᵥ, eᵥ, mₒ, lₒ], t2_abab [fᵥ, bᵥ, iₒ, jₒ], t2_bbbb [dᵥ, cᵥ, kₒ, nₒ]], [(1, [aᵥ, bᵥ, iₒ, jₒ])]⟩,
  -- line 4183: mnfe,kldc,aemj,fbkl,dcin->abij
  ⟨1/4, [g_abab [mₒ, nₒ, fᵥ, eᵥ], l2_abab [kₒ, lₒ, dᵥ, cᵥ], t2_abab [aᵥ, eᵥ, mₒ, jₒ], t2_abab [fᵥ, bᵥ, kₒ, lₒ], t2_abab [dᵥ, cᵥ, iₒ, nₒ]], [(1, [aᵥ, bᵥ, iₒ, jₒ])]⟩,
  -- line 4186: mnfe,klcd,aemj,fbkl,cdin->abij
  ⟨1/4, [g_abab [mₒ, nₒ, fᵥ, eᵥ], l2_abab [kₒ, lₒ, cᵥ, dᵥ], t2_abab [aᵥ, eᵥ, mₒ, jₒ], t2_abab [fᵥ, bᵥ, kₒ, lₒ], t2_abab [cᵥ, dᵥ, iₒ, nₒ]], [(1, [aᵥ, bᵥ, iₒ, jₒ])]⟩,
  -- line 4189: mnfe,lkdc,aemj,fblk,dcin->abij
  ⟨1/4, [g_abab [mₒ, nₒ, fᵥ, eᵥ], l2_abab [lₒ, kₒ, dᵥ, cᵥ], t2_abab [aᵥ, eᵥ, mₒ, jₒ], t2_abab [fᵥ, bᵥ, lₒ, kₒ], t2_abab [dᵥ, cᵥ, iₒ, nₒ]], [(1, [aᵥ, bᵥ, iₒ, jₒ])]⟩,
  -- line 4192: mnfe,lkcd,aemj,fblk,cdin->abij
  ⟨1/4, [g_abab [mₒ, nₒ, fᵥ, eᵥ], l2_abab [lₒ, kₒ, cᵥ, dᵥ], t2_abab [aᵥ, eᵥ, mₒ, jₒ], t2_abab [fᵥ, bᵥ, lₒ, kₒ], t2_abab [cᵥ, dᵥ, iₒ, nₒ]], [(1, [aᵥ, bᵥ, iₒ, jₒ])]⟩
  ]

/-- Part 13 of `residQf2_abab`. -/
def residQf2_abab_13 : Prog := [
  -- line 4195: nmef,kldc,eaim,fbkl,dcnj->abij
  ⟨1/4, [g_aaaa [nₒ, mₒ, eᵥ, fᵥ], l2_abab [kₒ, lₒ, dᵥ, cᵥ], t2_aaaa [eᵥ, aᵥ, iₒ, mₒ], t2_abab [fᵥ, bᵥ, kₒ, lₒ], t2_abab [dᵥ, cᵥ, nₒ, jₒ]], [(1, [aᵥ, bᵥ, iₒ, jₒ])]⟩,
  -- line 4198: nmfe,kldc,aeim,fbkl,dcnj->abij
  ⟨1/4, [g_abab [nₒ, mₒ, fᵥ, eᵥ], l2_abab [kₒ, lₒ, dᵥ, cᵥ], t2_abab [aᵥ, eᵥ, iₒ, mₒ], t2_abab [fᵥ, bᵥ, kₒ, lₒ], t2_abab [dᵥ, cᵥ, nₒ, jₒ]], [(1, [aᵥ, bᵥ, iₒ, jₒ])]⟩,
  -- line 4201: nmef,klcd,eaim,fbkl,cdnj->abij
  ⟨1/4, [g_aaaa [nₒ, mₒ, eᵥ, fᵥ], l2_abab [kₒ, lₒ, cᵥ, dᵥ], t2_aaaa [eᵥ, aᵥ, iₒ, mₒ], t2_abab [fᵥ, bᵥ, kₒ, lₒ], t2_abab [cᵥ, dᵥ, nₒ, jₒ]], [(1, [aᵥ, bᵥ, iₒ, jₒ])]⟩,
  -- line 4204: nmfe,klcd,aeim,fbkl,cdnj->abij
  ⟨1/4, [g_abab [nₒ, mₒ, fᵥ, eᵥ], l2_abab [kₒ, lₒ, cᵥ, dᵥ], t2_abab [aᵥ, eᵥ, iₒ, mₒ], t2_abab [fᵥ, bᵥ, kₒ, lₒ], t2_abab [cᵥ, dᵥ, nₒ, jₒ]], [(1, [aᵥ, bᵥ, iₒ, jₒ])]⟩,
  -- line 4207: nmef,lkdc,eaim,fblk,dcnj->abij
  ⟨1/4, [g_aaaa [nₒ, mₒ, eᵥ, fᵥ], l2_abab [lₒ, kₒ, dᵥ, cᵥ], t2_aaaa [eᵥ, aᵥ, iₒ, mₒ], t2_abab [fᵥ, bᵥ, lₒ, kₒ], t2_abab [dᵥ, cᵥ, nₒ, jₒ]], [(1, [aᵥ, bᵥ, iₒ, jₒ])]⟩,
  -- line 4210: nmfe,lkdc,aeim,fblk,dcnj->abij
  ⟨1/4, [g_abab [nₒ, mₒ, fᵥ, eᵥ], l2_abab [lₒ, kₒ, dᵥ, cᵥ], t2_abab [aᵥ, eᵥ, iₒ, mₒ], t2_abab [fᵥ, bᵥ, lₒ, kₒ], t2_abab [dᵥ, cᵥ, nₒ, jₒ]], [(1, [aᵥ, bᵥ, iₒ, jₒ])]⟩,
  -- line 4213: nmef,lkcd,eaim,fblk,cdnj->abij
  ⟨1/4, [g_aaaa [nₒ, mₒ, eᵥ, fᵥ], l2_abab [lₒ, kₒ, cᵥ, dᵥ], t2_aaaa [eᵥ, aᵥ, iₒ, mₒ], t2_abab [fᵥ, bᵥ, lₒ, kₒ], t2_abab [cᵥ, dᵥ, nₒ, jₒ]], [(1, [aᵥ, bᵥ, iₒ, jₒ])]⟩,
  -- line 4216: nmfe,lkcd,aeim,fblk,cdnj->abij
  ⟨1/4, [g_abab [nₒ, mₒ, fᵥ, eᵥ], l2_abab [lₒ, kₒ, cᵥ, dᵥ], t2_abab [aᵥ, eᵥ, iₒ, mₒ], t2_abab [fᵥ, bᵥ, lₒ, kₒ], t2_abab [cᵥ, dᵥ, nₒ, jₒ]], [(1, [aᵥ, bᵥ, iₒ, jₒ])]⟩,
  -- line 4219: mnef,kldc,eaim,fbkl,dcjn->abij
  ⟨1/4, [g_abab [mₒ, nₒ, eᵥ, fᵥ], l2_bbbb [kₒ, lₒ, dᵥ, cᵥ], t2_aaaa [eᵥ, aᵥ, iₒ, mₒ], t2_bbbb [fᵥ, bᵥ, kₒ, lₒ], t2_bbbb [dᵥ, cᵥ, jₒ, nₒ]], [(1, [aᵥ, bᵥ, iₒ, jₒ])]⟩,
  -- line 4222: nmef,kldc,aeim,fbkl,dcjn->abij
  ⟨1/4, [g_bbbb [nₒ, mₒ, eᵥ, fᵥ], l2_bbbb [kₒ, lₒ, dᵥ, cᵥ], t2_abab [aᵥ, eᵥ, iₒ, mₒ], t2_bbbb [fᵥ, bᵥ, kₒ, lₒ], t2_bbbb [dᵥ, cᵥ, jₒ, nₒ]], [(1, [aᵥ, bᵥ, iₒ, jₒ])]⟩,
  -- line 4225: mnfe,kldc,aemj,fbil,dckn->abij
  ⟨-3/8, [g_abab [mₒ, nₒ, fᵥ, eᵥ], l2_abab [kₒ, lₒ, dᵥ, cᵥ], t2_abab [aᵥ, eᵥ, mₒ, jₒ], t2_abab [fᵥ, bᵥ, iₒ, lₒ], t2_abab [dᵥ, cᵥ, kₒ, nₒ]], [(1, [aᵥ, bᵥ, iₒ, jₒ])]⟩,
  -- line 4228: mnfe,klcd,aemj,fbil,cdkn->abij
  ⟨-3/8, [g_abab [mₒ, nₒ, fᵥ, eᵥ], l2_abab [kₒ, lₒ, cᵥ, dᵥ], t2_abab [aᵥ, eᵥ, mₒ, jₒ], t2_abab [fᵥ, bᵥ, iₒ, lₒ], t2_abab [cᵥ, dᵥ, kₒ, nₒ]], [(1, [aᵥ, bᵥ, iₒ, jₒ])]⟩,
  -- line 4231: mnfe,kldc,aemj,fbil,dckn->abij
  ⟨-3/8, [g_abab [mₒ, nₒ, fᵥ, eᵥ], l2_bbbb [kₒ, lₒ, dᵥ, cᵥ], t2_abab [aᵥ, eᵥ, mₒ, jₒ], t2_abab [fᵥ, bᵥ, iₒ, lₒ], t2_bbbb [dᵥ, cᵥ, kₒ, nₒ]], [(1, [aᵥ, bᵥ, iₒ, jₒ])]⟩,
  -- line 4234: nmef,kldc,eaim,fblj,dckn->abij
  ⟨-3/8, [g_aaaa [nₒ, mₒ, eᵥ, fᵥ], l2_aaaa [kₒ, lₒ, dᵥ, cᵥ], t2_aaaa [eᵥ, aᵥ, iₒ, mₒ], t2_abab [fᵥ, bᵥ, lₒ, jₒ], t2_aaaa [dᵥ, cᵥ, kₒ, nₒ]], [(1, [aᵥ, bᵥ, iₒ, jₒ])]⟩,
  -- line 4237: nmfe,kldc,aeim,fblj,dckn->abij
  ⟨-3/8, [g_abab [nₒ, mₒ, fᵥ, eᵥ], l2_aaaa [kₒ, lₒ, dᵥ, cᵥ], t2_abab [aᵥ, eᵥ, iₒ, mₒ], t2_abab [fᵥ, bᵥ, lₒ, jₒ], t2_aaaa [dᵥ, cᵥ, kₒ, nₒ]], [(1, [aᵥ, bᵥ, iₒ, jₒ])]⟩,
  -- line 4240: mnef,kldc,eaim,fbjl,dckn->abij
  ⟨-3/8, [g_abab [mₒ, nₒ, eᵥ, fᵥ], l2_abab [kₒ, lₒ, dᵥ, cᵥ], t2_aaaa [eᵥ, aᵥ, iₒ, mₒ], t2_bbbb [fᵥ, bᵥ, jₒ, lₒ], t2_abab [dᵥ, cᵥ, kₒ, nₒ]], [(1, [aᵥ, bᵥ, iₒ, jₒ])]⟩,
  -- line 4243: nmef,kldc,aeim,fbjl,dckn->abij
  ⟨-3/8, [g_bbbb [nₒ, mₒ, eᵥ, fᵥ], l2_abab [kₒ, lₒ, dᵥ, cᵥ], t2_abab [aᵥ, eᵥ, iₒ, mₒ], t2_bbbb [fᵥ, bᵥ, jₒ, lₒ], t2_abab [dᵥ, cᵥ, kₒ, nₒ]], [(1, [aᵥ, bᵥ, iₒ, jₒ])]⟩,
  -- line 4246: mnef,klcd,eaim,fbjl,cdkn->abij
  ⟨-3/8, [g_abab [mₒ, nₒ, eᵥ, fᵥ], l2_abab [kₒ, lₒ, cᵥ, dᵥ], t2_aaaa [eᵥ, aᵥ, iₒ, mₒ], t2_bbbb [fᵥ, bᵥ, jₒ, lₒ], t2_abab [cᵥ, dᵥ, kₒ, nₒ]], [(1, [aᵥ, bᵥ, iₒ, jₒ])]⟩,
  -- line 4249: nmef,klcd,aeim,fbjl,cdkn->abij
  ⟨-3/8, [g_bbbb [nₒ, mₒ, eᵥ, fᵥ], l2_abab [kₒ, lₒ, cᵥ, dᵥ], t2_abab [aᵥ, eᵥ, iₒ, mₒ], t2_bbbb [fᵥ, bᵥ, jₒ, lₒ], t2_abab [cᵥ, dᵥ, kₒ, nₒ]], [(1, [aᵥ, bᵥ, iₒ, jₒ])]⟩,
  -- line 4252: nmef,lkdc,eaim,fblj,dcnk->abij
  ⟨-3/8, [g_aaaa [nₒ, mₒ, eᵥ, fᵥ], l2_abab [lₒ, kₒ, dᵥ, cᵥ], t2_aaaa [eᵥ, aᵥ, iₒ, mₒ], t2_abab [fᵥ, bᵥ, lₒ, jₒ], t2_abab [dᵥ, cᵥ, nₒ, kₒ]], [(1, [aᵥ, bᵥ, iₒ, jₒ])]⟩,
  -- line 4255: nmfe,lkdc,aeim,fblj,dcnk->abij
  ⟨-3/8, [g_abab [nₒ, mₒ, fᵥ, eᵥ], l2_abab [lₒ, kₒ, dᵥ, cᵥ], t2_abab [aᵥ, eᵥ, iₒ, mₒ], t2_abab [fᵥ, bᵥ, lₒ, jₒ], t2_abab [dᵥ, cᵥ, nₒ, kₒ]], [(1, [aᵥ, bᵥ, iₒ, jₒ])]⟩,
  -- line 4258: nmef,lkcd,eaim,fblj,cdnk->abij
  ⟨-3/8, [g_aaaa [nₒ, mₒ, eᵥ, fᵥ], l2_abab [lₒ, kₒ, cᵥ, dᵥ], t2_aaaa [eᵥ, aᵥ, iₒ, mₒ], t2_abab [fᵥ, bᵥ, lₒ, jₒ], t2_abab [cᵥ, dᵥ, nₒ, kₒ]], [(1, [aᵥ, bᵥ, iₒ, jₒ])]⟩,
  -- line 4261: nmfe,lkcd,aeim,fblj,cdnk->abij
  ⟨-3/8, [g_abab [nₒ, mₒ, fᵥ, eᵥ], l2_abab [lₒ, kₒ, cᵥ, dᵥ], t2_abab [aᵥ, eᵥ, iₒ, mₒ], t2_abab [fᵥ, bᵥ, lₒ, jₒ], t2_abab [cᵥ, dᵥ, nₒ, kₒ]], [(1, [aᵥ, bᵥ, iₒ, jₒ])]⟩,
  -- line 4264: mnef,kldc,eaim,fbjl,dckn->abij
  ⟨-3/8, [g_abab [mₒ, nₒ, eᵥ, fᵥ], l2_bbbb [kₒ, lₒ, dᵥ, cᵥ], t2_aaaa [eᵥ, aᵥ, iₒ, mₒ], t2_bbbb [fᵥ, bᵥ, jₒ, lₒ], t2_bbbb [dᵥ, cᵥ, kₒ, nₒ]], [(1, [aᵥ, bᵥ, iₒ, jₒ])]⟩,
  -- line 4267: nmef,kldc,aeim,fbjl,dckn->abij
  ⟨-3/8, [g_bbbb [nₒ, mₒ, eᵥ, fᵥ], l2_bbbb [kₒ, lₒ, dᵥ, cᵥ], t2_abab [aᵥ, eᵥ, iₒ, mₒ], t2_bbbb [fᵥ, bᵥ, jₒ, lₒ], t2_bbbb [dᵥ, cᵥ, kₒ, nₒ]], [(1, [aᵥ, bᵥ, iₒ, jₒ])]⟩,
  -- line 4270: nmef,kldc,eakl,fbmj,dcin->abij
  ⟨-1/4, [g_aaaa [nₒ, mₒ, eᵥ, fᵥ], l2_aaaa [kₒ, lₒ, dᵥ, cᵥ], t2_aaaa [eᵥ, aᵥ, kₒ, lₒ], t2_abab [fᵥ, bᵥ, mₒ, jₒ], t2_aaaa [dᵥ, cᵥ, iₒ, nₒ]], [(1, [aᵥ, bᵥ, iₒ, jₒ])]⟩,
  -- line 4273: nmef,kldc,eakl,fbjm,dcin->abij
  ⟨1/4, [g_abab [nₒ, mₒ, eᵥ, fᵥ], l2_aaaa [kₒ, lₒ, dᵥ, cᵥ], t2_aaaa [eᵥ, aᵥ, kₒ, lₒ], t2_bbbb [fᵥ, bᵥ, jₒ, mₒ], t2_aaaa [dᵥ, cᵥ, iₒ, nₒ]], [(1, [aᵥ, bᵥ, iₒ, jₒ])]⟩,
  -- line 4276: mnfe,kldc,aekl,fbmj,dcin->abij
  ⟨1/4, [g_abab [mₒ, nₒ, fᵥ, eᵥ], l2_abab [kₒ, lₒ, dᵥ, cᵥ], t2_abab [aᵥ, eᵥ, kₒ, lₒ], t2_abab [fᵥ, bᵥ, mₒ, jₒ], t2_abab [dᵥ, cᵥ, iₒ, nₒ]], [(1, [aᵥ, bᵥ, iₒ, jₒ])]⟩,
  -- line 4279: nmef,kldc,aekl,fbjm,dcin->abij
  ⟨-1/4, [g_bbbb [nₒ, mₒ, eᵥ, fᵥ], l2_abab [kₒ, lₒ, dᵥ, cᵥ], t2_abab [aᵥ, eᵥ, kₒ, lₒ], t2_bbbb [fᵥ, bᵥ, jₒ, mₒ], t2_abab [dᵥ, cᵥ, iₒ, nₒ]], [(1, [aᵥ, bᵥ, iₒ, jₒ])]⟩,
  -- line 4282: mnfe,klcd,aekl,fbmj,cdin->abij
  ⟨1/4, [g_abab [mₒ, nₒ, fᵥ, eᵥ], l2_abab [kₒ, lₒ, cᵥ, dᵥ], t2_abab [aᵥ, eᵥ, kₒ, lₒ], t2_abab [fᵥ, bᵥ, mₒ, jₒ], t2_abab [cᵥ, dᵥ, iₒ, nₒ]], [(1, [aᵥ, bᵥ, iₒ, jₒ])]⟩,
  -- line 4285: nmef,klcd,aekl,fbjm,cdin->abij
  ⟨-1/4, [g_bbbb [nₒ, mₒ, eᵥ, fᵥ], l2_abab [kₒ, lₒ, cᵥ, dᵥ], t2_abab [aᵥ, eᵥ, kₒ, lₒ], t2_bbbb [fᵥ, bᵥ, jₒ, mₒ], t2_abab [cᵥ, dᵥ, iₒ, nₒ]], [(1, [aᵥ, bᵥ, iₒ, jₒ])]⟩,
  -- line 4288: mnfe,lkdc,aelk,fbmj,dcin->abij
  ⟨1/4, [g_abab [mₒ, nₒ, fᵥ, eᵥ], l2_abab [lₒ, kₒ, dᵥ, cᵥ], t2_abab [aᵥ, eᵥ, lₒ, kₒ], t2_abab [fᵥ, bᵥ, mₒ, jₒ], t2_abab [dᵥ, cᵥ, iₒ, nₒ]], [(1, [aᵥ, bᵥ, iₒ, jₒ])]⟩,
  -- line 4291: nmef,lkdc,aelk,fbjm,dcin->abij
  ⟨-1/4, [g_bbbb [nₒ, mₒ, eᵥ, fᵥ], l2_abab [lₒ, kₒ, dᵥ, cᵥ], t2_abab [aᵥ, eᵥ, lₒ, kₒ], t2_bbbb [fᵥ, bᵥ, jₒ, mₒ], t2_abab [dᵥ, cᵥ, iₒ, nₒ]], [(1, [aᵥ, bᵥ, iₒ, jₒ])]⟩,
  -- line 4294: mnfe,lkcd,aelk,fbmj,cdin->abij
  ⟨1/4, [g_abab [mₒ, nₒ, fᵥ, eᵥ], l2_abab [lₒ, kₒ, cᵥ, dᵥ], t2_abab [aᵥ, eᵥ, lₒ, kₒ], t2_abab [fᵥ, bᵥ, mₒ, jₒ], t2_abab [cᵥ, dᵥ, iₒ, nₒ]], [(1, [aᵥ, bᵥ, iₒ, jₒ])]⟩,
  -- line 4297: nmef,lkcd,aelk,fbjm,cdin->abij
  ⟨-1/4, [g_bbbb [nₒ, mₒ, eᵥ, fᵥ], l2_abab [lₒ, kₒ, cᵥ, dᵥ], t2_abab [aᵥ, eᵥ, lₒ, kₒ], t2_bbbb [fᵥ, bᵥ, jₒ, mₒ], t2_abab [cᵥ, dᵥ, iₒ, nₒ]], [(1, [aᵥ, bᵥ, iₒ, jₒ])]⟩,
  -- line 4300: nmfe,kldc,aekl,fbim,dcnj->abij
  ⟨1/4, [g_abab [nₒ, mₒ, fᵥ, eᵥ], l2_abab [kₒ, lₒ, dᵥ, cᵥ], t2_abab [aᵥ, eᵥ, kₒ, lₒ], t2_abab [fᵥ, bᵥ, iₒ, mₒ], t2_abab [dᵥ, cᵥ, nₒ, jₒ]], [(1, [aᵥ, bᵥ, iₒ, jₒ])]⟩,
  -- line 4303: nmfe,klcd,aekl,fbim,cdnj->abij
  ⟨1/4, [g_abab [nₒ, mₒ, fᵥ, eᵥ], l2_abab [kₒ, lₒ, cᵥ, dᵥ], t2_abab [aᵥ, eᵥ, kₒ, lₒ], t2_abab [fᵥ, bᵥ, iₒ, mₒ], t2_abab [cᵥ, dᵥ, nₒ, jₒ]], [(1, [aᵥ, bᵥ, iₒ, jₒ])]⟩,
  -- line 4306: nmfe,lkdc,aelk,fbim,dcnj->abij
  ⟨1/4, [g_abab [nₒ, mₒ, fᵥ, eᵥ], l2_abab [lₒ, kₒ, dᵥ, cᵥ], t2_abab [aᵥ, eᵥ, lₒ, kₒ], t2_abab [fᵥ, bᵥ, iₒ, mₒ], t2_abab [dᵥ, cᵥ, nₒ, jₒ]], [(1, [aᵥ, bᵥ, iₒ, jₒ])]⟩,
  -- line 4309: nmfe,lkcd,aelk,fbim,cdnj->abij
  ⟨1/4, [g_abab [nₒ, mₒ, fᵥ, eᵥ], l2_abab [lₒ, kₒ, cᵥ, dᵥ], t2_abab [aᵥ, eᵥ, lₒ, kₒ], t2_abab [fᵥ, bᵥ, iₒ, mₒ], t2_abab [cᵥ, dᵥ, nₒ, jₒ]], [(1, [aᵥ, bᵥ, iₒ, jₒ])]⟩,
  -- line 4312: nmef,kldc,eakl,fbij,dcnm->abij
  ⟨-1/8, [g_aaaa [nₒ, mₒ, eᵥ, fᵥ], l2_aaaa [kₒ, lₒ, dᵥ, cᵥ], t2_aaaa [eᵥ, aᵥ, kₒ, lₒ], t2_abab [fᵥ, bᵥ, iₒ, jₒ], t2_aaaa [dᵥ, cᵥ, nₒ, mₒ]], [(1, [aᵥ, bᵥ, iₒ, jₒ])]⟩
  ]

/-- Part 14 of `residQf2_abab`. -/
def residQf2_abab_14 : Prog := [
  -- line 4315: nmfe,kldc,aekl,fbij,dcnm->abij
  ⟨-1/8, [g_abab [nₒ, mₒ, fᵥ, eᵥ], l2_abab [kₒ, lₒ, dᵥ, cᵥ], t2_abab [aᵥ, eᵥ, kₒ, lₒ], t2_abab [fᵥ, bᵥ, iₒ, jₒ], t2_abab [dᵥ, cᵥ, nₒ, mₒ]], [(1, [aᵥ, bᵥ, iₒ, jₒ])]⟩,
  -- line 4318: mnfe,kldc,aekl,fbij,dcmn->abij
  ⟨-1/8, [g_abab [mₒ, nₒ, fᵥ, eᵥ], l2_abab [kₒ, lₒ, dᵥ, cᵥ], t2_abab [aᵥ, eᵥ, kₒ, lₒ], t2_abab [fᵥ, bᵥ, iₒ, jₒ], t2_abab [dᵥ, cᵥ, mₒ, nₒ]], [(1, [aᵥ, bᵥ, iₒ, jₒ])]⟩,
  -- line 4321: nmfe,klcd,aekl,fbij,cdnm->abij
  ⟨-1/8, [g_abab [nₒ, mₒ, fᵥ, eᵥ], l2_abab [kₒ, lₒ, cᵥ, dᵥ], t2_abab [aᵥ, eᵥ, kₒ, lₒ], t2_abab [fᵥ, bᵥ, iₒ, jₒ], t2_abab [cᵥ, dᵥ, nₒ, mₒ]], [(1, [aᵥ, bᵥ, iₒ, jₒ])]⟩,
  -- line 4324: mnfe,klcd,aekl,fbij,cdmn->abij
  ⟨-1/8, [g_abab [mₒ, nₒ, fᵥ, eᵥ], l2_abab [kₒ, lₒ, cᵥ, dᵥ], t2_abab [aᵥ, eᵥ, kₒ, lₒ], t2_abab [fᵥ, bᵥ, iₒ, jₒ], t2_abab [cᵥ, dᵥ, mₒ, nₒ]], [(1, [aᵥ, bᵥ, iₒ, jₒ])]⟩,
  -- line 4327: nmfe,lkdc,aelk,fbij,dcnm->abij
  ⟨-1/8, [g_abab [nₒ, mₒ, fᵥ, eᵥ], l2_abab [lₒ, kₒ, dᵥ, cᵥ], t2_abab [aᵥ, eᵥ, lₒ, kₒ], t2_abab [fᵥ, bᵥ, iₒ, jₒ], t2_abab [dᵥ, cᵥ, nₒ, mₒ]], [(1, [aᵥ, bᵥ, iₒ, jₒ])]⟩,
  -- line 4330: mnfe,lkdc,aelk,fbij,dcmn->abij
  ⟨-1/8, [g_abab [mₒ, nₒ, fᵥ, eᵥ], l2_abab [lₒ, kₒ, dᵥ, cᵥ], t2_abab [aᵥ, eᵥ, lₒ, kₒ], t2_abab [fᵥ, bᵥ, iₒ, jₒ], t2_abab [dᵥ, cᵥ, mₒ, nₒ]], [(1, [aᵥ, bᵥ, iₒ, jₒ])]⟩,
  -- line 4333: nmfe,lkcd,aelk,fbij,cdnm->abij
  ⟨-1/8, [g_abab [nₒ, mₒ, fᵥ, eᵥ], l2_abab [lₒ, kₒ, cᵥ, dᵥ], t2_abab [aᵥ, eᵥ, lₒ, kₒ], t2_abab [fᵥ, bᵥ, iₒ, jₒ], t2_abab [cᵥ, dᵥ, nₒ, mₒ]], [(1, [aᵥ, bᵥ, iₒ, jₒ])]⟩,
  -- line 4336: mnfe,lkcd,aelk,fbij,cdmn->abij
  ⟨-1/8, [g_abab [mₒ, nₒ, fᵥ, eᵥ], l2_abab [lₒ, kₒ, cᵥ, dᵥ], t2_abab [aᵥ, eᵥ, lₒ, kₒ], t2_abab [fᵥ, bᵥ, iₒ, jₒ], t2_abab [cᵥ, dᵥ, mₒ, nₒ]], [(1, [aᵥ, bᵥ, iₒ, jₒ])]⟩,
  -- line 4339: nmfe,kldc,aelj,fbkm,dcin->abij
  ⟨1/2, [g_abab [nₒ, mₒ, fᵥ, eᵥ], l2_aaaa [kₒ, lₒ, dᵥ, cᵥ], t2_abab [aᵥ, eᵥ, lₒ, jₒ], t2_abab [fᵥ, bᵥ, kₒ, mₒ], t2_aaaa [dᵥ, cᵥ, iₒ, nₒ]], [(1, [aᵥ, bᵥ, iₒ, jₒ])]⟩,
  -- line 4342: mnfe,lkdc,aelj,fbmk,dcin->abij
  ⟨-1/2, [g_abab [mₒ, nₒ, fᵥ, eᵥ], l2_abab [lₒ, kₒ, dᵥ, cᵥ], t2_abab [aᵥ, eᵥ, lₒ, jₒ], t2_abab [fᵥ, bᵥ, mₒ, kₒ], t2_abab [dᵥ, cᵥ, iₒ, nₒ]], [(1, [aᵥ, bᵥ, iₒ, jₒ])]⟩,
  -- line 4345: nmef,lkdc,aelj,fbkm,dcin->abij
  ⟨1/2, [g_bbbb [nₒ, mₒ, eᵥ, fᵥ], l2_abab [lₒ, kₒ, dᵥ, cᵥ], t2_abab [aᵥ, eᵥ, lₒ, jₒ], t2_bbbb [fᵥ, bᵥ, kₒ, mₒ], t2_abab [dᵥ, cᵥ, iₒ, nₒ]], [(1, [aᵥ, bᵥ, iₒ, jₒ])]⟩,
  -- line 4348: mnfe,lkcd,aelj,fbmk,cdin->abij
  ⟨-1/2, [g_abab [mₒ, nₒ, fᵥ, eᵥ], l2_abab [lₒ, kₒ, cᵥ, dᵥ], t2_abab [aᵥ, eᵥ, lₒ, jₒ], t2_abab [fᵥ, bᵥ, mₒ, kₒ], t2_abab [cᵥ, dᵥ, iₒ, nₒ]], [(1, [aᵥ, bᵥ, iₒ, jₒ])]⟩,
  -- line 4351: nmef,lkcd,aelj,fbkm,cdin->abij
  ⟨1/2, [g_bbbb [nₒ, mₒ, eᵥ, fᵥ], l2_abab [lₒ, kₒ, cᵥ, dᵥ], t2_abab [aᵥ, eᵥ, lₒ, jₒ], t2_bbbb [fᵥ, bᵥ, kₒ, mₒ], t2_abab [cᵥ, dᵥ, iₒ, nₒ]], [(1, [aᵥ, bᵥ, iₒ, jₒ])]⟩,
  -- line 4354: nmfe,kldc,aeil,fbkm,dcnj->abij
  ⟨-1/2, [g_abab [nₒ, mₒ, fᵥ, eᵥ], l2_abab [kₒ, lₒ, dᵥ, cᵥ], t2_abab [aᵥ, eᵥ, iₒ, lₒ], t2_abab [fᵥ, bᵥ, kₒ, mₒ], t2_abab [dᵥ, cᵥ, nₒ, jₒ]], [(1, [aᵥ, bᵥ, iₒ, jₒ])]⟩,
  -- line 4357: nmfe,klcd,aeil,fbkm,cdnj->abij
  ⟨-1/2, [g_abab [nₒ, mₒ, fᵥ, eᵥ], l2_abab [kₒ, lₒ, cᵥ, dᵥ], t2_abab [aᵥ, eᵥ, iₒ, lₒ], t2_abab [fᵥ, bᵥ, kₒ, mₒ], t2_abab [cᵥ, dᵥ, nₒ, jₒ]], [(1, [aᵥ, bᵥ, iₒ, jₒ])]⟩,
  -- line 4360: nmef,lkdc,eail,fbmk,dcnj->abij
  ⟨-1/2, [g_aaaa [nₒ, mₒ, eᵥ, fᵥ], l2_abab [lₒ, kₒ, dᵥ, cᵥ], t2_aaaa [eᵥ, aᵥ, iₒ, lₒ], t2_abab [fᵥ, bᵥ, mₒ, kₒ], t2_abab [dᵥ, cᵥ, nₒ, jₒ]], [(1, [aᵥ, bᵥ, iₒ, jₒ])]⟩,
  -- line 4363: nmef,lkdc,eail,fbkm,dcnj->abij
  ⟨1/2, [g_abab [nₒ, mₒ, eᵥ, fᵥ], l2_abab [lₒ, kₒ, dᵥ, cᵥ], t2_aaaa [eᵥ, aᵥ, iₒ, lₒ], t2_bbbb [fᵥ, bᵥ, kₒ, mₒ], t2_abab [dᵥ, cᵥ, nₒ, jₒ]], [(1, [aᵥ, bᵥ, iₒ, jₒ])]⟩,
  -- line 4366: nmef,lkcd,eail,fbmk,cdnj->abij
  ⟨-1/2, [g_aaaa [nₒ, mₒ, eᵥ, fᵥ], l2_abab [lₒ, kₒ, cᵥ, dᵥ], t2_aaaa [eᵥ, aᵥ, iₒ, lₒ], t2_abab [fᵥ, bᵥ, mₒ, kₒ], t2_abab [cᵥ, dᵥ, nₒ, jₒ]], [(1, [aᵥ, bᵥ, iₒ, jₒ])]⟩,
  -- line 4369: nmef,lkcd,eail,fbkm,cdnj->abij
  ⟨1/2, [g_abab [nₒ, mₒ, eᵥ, fᵥ], l2_abab [lₒ, kₒ, cᵥ, dᵥ], t2_aaaa [eᵥ, aᵥ, iₒ, lₒ], t2_bbbb [fᵥ, bᵥ, kₒ, mₒ], t2_abab [cᵥ, dᵥ, nₒ, jₒ]], [(1, [aᵥ, bᵥ, iₒ, jₒ])]⟩,
  -- line 4372: mnfe,kldc,aeil,fbmk,dcjn->abij
  ⟨1/2, [g_abab [mₒ, nₒ, fᵥ, eᵥ], l2_bbbb [kₒ, lₒ, dᵥ, cᵥ], t2_abab [aᵥ, eᵥ, iₒ, lₒ], t2_abab [fᵥ, bᵥ, mₒ, kₒ], t2_bbbb [dᵥ, cᵥ, jₒ, nₒ]], [(1, [aᵥ, bᵥ, iₒ, jₒ])]⟩,
  -- line 4375: nmef,kldc,aeil,fbkm,dcjn->abij
  ⟨-1/2, [g_bbbb [nₒ, mₒ, eᵥ, fᵥ], l2_bbbb [kₒ, lₒ, dᵥ, cᵥ], t2_abab [aᵥ, eᵥ, iₒ, lₒ], t2_bbbb [fᵥ, bᵥ, kₒ, mₒ], t2_bbbb [dᵥ, cᵥ, jₒ, nₒ]], [(1, [aᵥ, bᵥ, iₒ, jₒ])]⟩,
  -- line 4378: nmfe,kldc,aelj,fbim,dckn->abij
  ⟨-1/2, [g_abab [nₒ, mₒ, fᵥ, eᵥ], l2_aaaa [kₒ, lₒ, dᵥ, cᵥ], t2_abab [aᵥ, eᵥ, lₒ, jₒ], t2_abab [fᵥ, bᵥ, iₒ, mₒ], t2_aaaa [dᵥ, cᵥ, kₒ, nₒ]], [(1, [aᵥ, bᵥ, iₒ, jₒ])]⟩,
  -- line 4381: nmfe,lkdc,aelj,fbim,dcnk->abij
  ⟨-1/2, [g_abab [nₒ, mₒ, fᵥ, eᵥ], l2_abab [lₒ, kₒ, dᵥ, cᵥ], t2_abab [aᵥ, eᵥ, lₒ, jₒ], t2_abab [fᵥ, bᵥ, iₒ, mₒ], t2_abab [dᵥ, cᵥ, nₒ, kₒ]], [(1, [aᵥ, bᵥ, iₒ, jₒ])]⟩,
  -- line 4384: nmfe,lkcd,aelj,fbim,cdnk->abij
  ⟨-1/2, [g_abab [nₒ, mₒ, fᵥ, eᵥ], l2_abab [lₒ, kₒ, cᵥ, dᵥ], t2_abab [aᵥ, eᵥ, lₒ, jₒ], t2_abab [fᵥ, bᵥ, iₒ, mₒ], t2_abab [cᵥ, dᵥ, nₒ, kₒ]], [(1, [aᵥ, bᵥ, iₒ, jₒ])]⟩,
  -- line 4387: nmef,kldc,eail,fbmj,dckn->abij
  ⟨1/2, [g_aaaa [nₒ, mₒ, eᵥ, fᵥ], l2_aaaa [kₒ, lₒ, dᵥ, cᵥ], t2_aaaa [eᵥ, aᵥ, iₒ, lₒ], t2_abab [fᵥ, bᵥ, mₒ, jₒ], t2_aaaa [dᵥ, cᵥ, kₒ, nₒ]], [(1, [aᵥ, bᵥ, iₒ, jₒ])]⟩,
  -- line 4390: nmef,kldc,eail,fbjm,dckn->abij
  ⟨-1/2, [g_abab [nₒ, mₒ, eᵥ, fᵥ], l2_aaaa [kₒ, lₒ, dᵥ, cᵥ], t2_aaaa [eᵥ, aᵥ, iₒ, lₒ], t2_bbbb [fᵥ, bᵥ, jₒ, mₒ], t2_aaaa [dᵥ, cᵥ, kₒ, nₒ]], [(1, [aᵥ, bᵥ, iₒ, jₒ])]⟩,
  -- line 4393: mnfe,kldc,aeil,fbmj,dckn->abij
  ⟨-1/2, [g_abab [mₒ, nₒ, fᵥ, eᵥ], l2_abab [kₒ, lₒ, dᵥ, cᵥ], t2_abab [aᵥ, eᵥ, iₒ, lₒ], t2_abab [fᵥ, bᵥ, mₒ, jₒ], t2_abab [dᵥ, cᵥ, kₒ, nₒ]], [(1, [aᵥ, bᵥ, iₒ, jₒ])]⟩,
  -- line 4396: nmef,kldc,aeil,fbjm,dckn->abij
  ⟨1/2, [g_bbbb [nₒ, mₒ, eᵥ, fᵥ], l2_abab [kₒ, lₒ, dᵥ, cᵥ], t2_abab [aᵥ, eᵥ, iₒ, lₒ], t2_bbbb [fᵥ, bᵥ, jₒ, mₒ], t2_abab [dᵥ, cᵥ, kₒ, nₒ]], [(1, [aᵥ, bᵥ, iₒ, jₒ])]⟩,
  -- line 4399: mnfe,klcd,aeil,fbmj,cdkn->abij
  ⟨-1/2, [g_abab [mₒ, nₒ, fᵥ, eᵥ], l2_abab [kₒ, lₒ, cᵥ, dᵥ], t2_abab [aᵥ, eᵥ, iₒ, lₒ], t2_abab [fᵥ, bᵥ, mₒ, jₒ], t2_abab [cᵥ, dᵥ, kₒ, nₒ]], [(1, [aᵥ, bᵥ, iₒ, jₒ])]⟩,
  -- line 4402: nmef,klcd,aeil,fbjm,cdkn->abij
  ⟨1/2, [g_bbbb [nₒ, mₒ, eᵥ, fᵥ], l2_abab [kₒ, lₒ, cᵥ, dᵥ], t2_abab [aᵥ, eᵥ, iₒ, lₒ], t2_bbbb [fᵥ, bᵥ, jₒ, mₒ], t2_abab [cᵥ, dᵥ, kₒ, nₒ]], [(1, [aᵥ, bᵥ, iₒ, jₒ])]⟩,
  -- line 4405: nmef,lkdc,eail,fbmj,dcnk->abij
  ⟨1/2, [g_aaaa [nₒ, mₒ, eᵥ, fᵥ], l2_abab [lₒ, kₒ, dᵥ, cᵥ], t2_aaaa [eᵥ, aᵥ, iₒ, lₒ], t2_abab [fᵥ, bᵥ, mₒ, jₒ], t2_abab [dᵥ, cᵥ, nₒ, kₒ]], [(1, [aᵥ, bᵥ, iₒ, jₒ])]⟩,
  -- line 4408: nmef,lkdc,eail,fbjm,dcnk->abij
  ⟨-1/2, [g_abab [nₒ, mₒ, eᵥ, fᵥ], l2_abab [lₒ, kₒ, dᵥ, cᵥ], t2_aaaa [eᵥ, aᵥ, iₒ, lₒ], t2_bbbb [fᵥ, bᵥ, jₒ, mₒ], t2_abab [dᵥ, cᵥ, nₒ, kₒ]], [(1, [aᵥ, bᵥ, iₒ, jₒ])]⟩,
  -- line 4411: nmef,lkcd,eail,fbmj,cdnk->abij
  ⟨1/2, [g_aaaa [nₒ, mₒ, eᵥ, fᵥ], l2_abab [lₒ, kₒ, cᵥ, dᵥ], t2_aaaa [eᵥ, aᵥ, iₒ, lₒ], t2_abab [fᵥ, bᵥ, mₒ, jₒ], t2_abab [cᵥ, dᵥ, nₒ, kₒ]], [(1, [aᵥ, bᵥ, iₒ, jₒ])]⟩,
  -- line 4414: nmef,lkcd,eail,fbjm,cdnk->abij
  ⟨-1/2, [g_abab [nₒ, mₒ, eᵥ, fᵥ], l2_abab [lₒ, kₒ, cᵥ, dᵥ], t2_aaaa [eᵥ, aᵥ, iₒ, lₒ], t2_bbbb [fᵥ, bᵥ, jₒ, mₒ], t2_abab [cᵥ, dᵥ, nₒ, kₒ]], [(1, [aᵥ, bᵥ, iₒ, jₒ])]⟩,
  -- line 4417: mnfe,kldc,aeil,fbmj,dckn->abij
  ⟨-1/2, [g_abab [mₒ, nₒ, fᵥ, eᵥ], l2_bbbb [kₒ, lₒ, dᵥ, cᵥ], t2_abab [aᵥ, eᵥ, iₒ, lₒ], t2_abab [fᵥ, bᵥ, mₒ, jₒ], t2_bbbb [dᵥ, cᵥ, kₒ, nₒ]], [(1, [aᵥ, bᵥ, iₒ, jₒ])]⟩,
  -- line 4420: nmef,kldc,aeil,fbjm,dckn->abij
  ⟨1/2, [g_bbbb [nₒ, mₒ, eᵥ, fᵥ], l2_bbbb [kₒ, lₒ, dᵥ, cᵥ], t2_abab [aᵥ, eᵥ, iₒ, lₒ], t2_bbbb [fᵥ, bᵥ, jₒ, mₒ], t2_bbbb [dᵥ, cᵥ, kₒ, nₒ]], [(1, [aᵥ, bᵥ, iₒ, jₒ])]⟩,
  -- line 4423: nmfe,lkdc,aelj,fbik,dcnm->abij
  ⟨1/4, [g_abab [nₒ, mₒ, fᵥ, eᵥ], l2_abab [lₒ, kₒ, dᵥ, cᵥ], t2_abab [aᵥ, eᵥ, lₒ, jₒ], t2_abab [fᵥ, bᵥ, iₒ, kₒ], t2_abab [dᵥ, cᵥ, nₒ, mₒ]], [(1, [aᵥ, bᵥ, iₒ, jₒ])]⟩,
  -- line 4426: mnfe,lkdc,aelj,fbik,dcmn->abij
  ⟨1/4, [g_abab [mₒ, nₒ, fᵥ, eᵥ], l2_abab [lₒ, kₒ, dᵥ, cᵥ], t2_abab [aᵥ, eᵥ, lₒ, jₒ], t2_abab [fᵥ, bᵥ, iₒ, kₒ], t2_abab [dᵥ, cᵥ, mₒ, nₒ]], [(1, [aᵥ, bᵥ, iₒ, jₒ])]⟩,
  -- line 4429: nmfe,lkcd,aelj,fbik,cdnm->abij
  ⟨1/4, [g_abab [nₒ, mₒ, fᵥ, eᵥ], l2_abab [lₒ, kₒ, cᵥ, dᵥ], t2_abab [aᵥ, eᵥ, lₒ, jₒ], t2_abab [fᵥ, bᵥ, iₒ, kₒ], t2_abab [cᵥ, dᵥ, nₒ, mₒ]], [(1, [aᵥ, bᵥ, iₒ, jₒ])]⟩,
  -- line 4432: mnfe,lkcd,aelj,fbik,cdmn->abij
  ⟨1/4, [g_abab [mₒ, nₒ, fᵥ, eᵥ], l2_abab [lₒ, kₒ, cᵥ, dᵥ], t2_abab [aᵥ, eᵥ, lₒ, jₒ], t2_abab [fᵥ, bᵥ, iₒ, kₒ], t2_abab [cᵥ, dᵥ, mₒ, nₒ]], [(1, [aᵥ, bᵥ, iₒ, jₒ])]⟩
  ]

/-- Part 15 of `residQf2_abab`. -/
def residQf2_abab_15 : Prog := [
  -- line 4435: nmef,kldc,eail,fbkj,dcnm->abij
  ⟨1/4, [g_aaaa [nₒ, mₒ, eᵥ, fᵥ], l2_aaaa [kₒ, lₒ, dᵥ, cᵥ], t2_aaaa [eᵥ, aᵥ, iₒ, lₒ], t2_abab [fᵥ, bᵥ, kₒ, jₒ], t2_aaaa [dᵥ, cᵥ, nₒ, mₒ]], [(1, [aᵥ, bᵥ, iₒ, jₒ])]⟩,
  -- line 4438: nmfe,kldc,aeil,fbkj,dcnm->abij
  ⟨1/4, [g_abab [nₒ, mₒ, fᵥ, eᵥ], l2_abab [kₒ, lₒ, dᵥ, cᵥ], t2_abab [aᵥ, eᵥ, iₒ, lₒ], t2_abab [fᵥ, bᵥ, kₒ, jₒ], t2_abab [dᵥ, cᵥ, nₒ, mₒ]], [(1, [aᵥ, bᵥ, iₒ, jₒ])]⟩,
  -- line 4441: mnfe,kldc,aeil,fbkj,dcmn->abij
  ⟨1/4, [g_abab [mₒ, nₒ, fᵥ, eᵥ], l2_abab [kₒ, lₒ, dᵥ, cᵥ], t2_abab [aᵥ, eᵥ, iₒ, lₒ], t2_abab [fᵥ, bᵥ, kₒ, jₒ], t2_abab [dᵥ, cᵥ, mₒ, nₒ]], [(1, [aᵥ, bᵥ, iₒ, jₒ])]⟩,
  -- line 4444: nmfe,klcd,aeil,fbkj,cdnm->abij
  ⟨1/4, [g_abab [nₒ, mₒ, fᵥ, eᵥ], l2_abab [kₒ, lₒ, cᵥ, dᵥ], t2_abab [aᵥ, eᵥ, iₒ, lₒ], t2_abab [fᵥ, bᵥ, kₒ, jₒ], t2_abab [cᵥ, dᵥ, nₒ, mₒ]], [(1, [aᵥ, bᵥ, iₒ, jₒ])]⟩,
  -- line 4447: mnfe,klcd,aeil,fbkj,cdmn->abij
  ⟨1/4, [g_abab [mₒ, nₒ, fᵥ, eᵥ], l2_abab [kₒ, lₒ, cᵥ, dᵥ], t2_abab [aᵥ, eᵥ, iₒ, lₒ], t2_abab [fᵥ, bᵥ, kₒ, jₒ], t2_abab [cᵥ, dᵥ, mₒ, nₒ]], [(1, [aᵥ, bᵥ, iₒ, jₒ])]⟩,
  -- line 4450: nmef,lkdc,eail,fbjk,dcnm->abij
  ⟨1/4, [g_abab [nₒ, mₒ, eᵥ, fᵥ], l2_abab [lₒ, kₒ, dᵥ, cᵥ], t2_aaaa [eᵥ, aᵥ, iₒ, lₒ], t2_bbbb [fᵥ, bᵥ, jₒ, kₒ], t2_abab [dᵥ, cᵥ, nₒ, mₒ]], [(1, [aᵥ, bᵥ, iₒ, jₒ])]⟩,
  -- line 4453: mnef,lkdc,eail,fbjk,dcmn->abij
  ⟨1/4, [g_abab [mₒ, nₒ, eᵥ, fᵥ], l2_abab [lₒ, kₒ, dᵥ, cᵥ], t2_aaaa [eᵥ, aᵥ, iₒ, lₒ], t2_bbbb [fᵥ, bᵥ, jₒ, kₒ], t2_abab [dᵥ, cᵥ, mₒ, nₒ]], [(1, [aᵥ, bᵥ, iₒ, jₒ])]⟩,
  -- line 4456: nmef,lkcd,eail,fbjk,cdnm->abij
  ⟨1/4, [g_abab [nₒ, mₒ, eᵥ, fᵥ], l2_abab [lₒ, kₒ, cᵥ, dᵥ], t2_aaaa [eᵥ, aᵥ, iₒ, lₒ], t2_bbbb [fᵥ, bᵥ, jₒ, kₒ], t2_abab [cᵥ, dᵥ, nₒ, mₒ]], [(1, [aᵥ, bᵥ, iₒ, jₒ])]⟩,
  -- line 4459: mnef,lkcd,eail,fbjk,cdmn->abij
  ⟨1/4, [g_abab [mₒ, nₒ, eᵥ, fᵥ], l2_abab [lₒ, kₒ, cᵥ, dᵥ], t2_aaaa [eᵥ, aᵥ, iₒ, lₒ], t2_bbbb [fᵥ, bᵥ, jₒ, kₒ], t2_abab [cᵥ, dᵥ, mₒ, nₒ]], [(1, [aᵥ, bᵥ, iₒ, jₒ])]⟩,
  -- line 4462: nmef,kldc,aeil,fbjk,dcnm->abij
  ⟨1/4, [g_bbbb [nₒ, mₒ, eᵥ, fᵥ], l2_bbbb [kₒ, lₒ, dᵥ, cᵥ], t2_abab [aᵥ, eᵥ, iₒ, lₒ], t2_bbbb [fᵥ, bᵥ, jₒ, kₒ], t2_bbbb [dᵥ, cᵥ, nₒ, mₒ]], [(1, [aᵥ, bᵥ, iₒ, jₒ])]⟩,
  -- line 4465: nmfe,kldc,aekj,dbim,fcln->abij
  ⟨-1/4, [g_abab [nₒ, mₒ, fᵥ, eᵥ], l2_aaaa [kₒ, lₒ, dᵥ, cᵥ], t2_abab [aᵥ, eᵥ, kₒ, jₒ], t2_abab [dᵥ, bᵥ, iₒ, mₒ], t2_aaaa [fᵥ, cᵥ, lₒ, nₒ]], [(1, [aᵥ, bᵥ, iₒ, jₒ])]⟩,
  -- line 4468: nmef,kldc,aekj,dbim,cfln->abij
  ⟨-1/4, [g_bbbb [nₒ, mₒ, eᵥ, fᵥ], l2_aaaa [kₒ, lₒ, dᵥ, cᵥ], t2_abab [aᵥ, eᵥ, kₒ, jₒ], t2_abab [dᵥ, bᵥ, iₒ, mₒ], t2_abab [cᵥ, fᵥ, lₒ, nₒ]], [(1, [aᵥ, bᵥ, iₒ, jₒ])]⟩,
  -- line 4471: nmfe,kldc,aekj,dbim,fcnl->abij
  ⟨1/4, [g_abab [nₒ, mₒ, fᵥ, eᵥ], l2_abab [kₒ, lₒ, dᵥ, cᵥ], t2_abab [aᵥ, eᵥ, kₒ, jₒ], t2_abab [dᵥ, bᵥ, iₒ, mₒ], t2_abab [fᵥ, cᵥ, nₒ, lₒ]], [(1, [aᵥ, bᵥ, iₒ, jₒ])]⟩,
  -- line 4474: nmef,kldc,aekj,dbim,fcln->abij
  ⟨1/4, [g_bbbb [nₒ, mₒ, eᵥ, fᵥ], l2_abab [kₒ, lₒ, dᵥ, cᵥ], t2_abab [aᵥ, eᵥ, kₒ, jₒ], t2_abab [dᵥ, bᵥ, iₒ, mₒ], t2_bbbb [fᵥ, cᵥ, lₒ, nₒ]], [(1, [aᵥ, bᵥ, iₒ, jₒ])]⟩,
  -- line 4477: nmef,kldc,ebkj,daim,fcln->abij
  ⟨1/4, [g_aaaa [nₒ, mₒ, eᵥ, fᵥ], l2_aaaa [kₒ, lₒ, dᵥ, cᵥ], t2_abab [eᵥ, bᵥ, kₒ, jₒ], t2_aaaa [dᵥ, aᵥ, iₒ, mₒ], t2_aaaa [fᵥ, cᵥ, lₒ, nₒ]], [(1, [aᵥ, bᵥ, iₒ, jₒ])]⟩,
  -- line 4480: mnef,kldc,ebkj,daim,cfln->abij
  ⟨1/4, [g_abab [mₒ, nₒ, eᵥ, fᵥ], l2_aaaa [kₒ, lₒ, dᵥ, cᵥ], t2_abab [eᵥ, bᵥ, kₒ, jₒ], t2_aaaa [dᵥ, aᵥ, iₒ, mₒ], t2_abab [cᵥ, fᵥ, lₒ, nₒ]], [(1, [aᵥ, bᵥ, iₒ, jₒ])]⟩,
  -- line 4483: nmef,kldc,ebkj,daim,fcnl->abij
  ⟨-1/4, [g_aaaa [nₒ, mₒ, eᵥ, fᵥ], l2_abab [kₒ, lₒ, dᵥ, cᵥ], t2_abab [eᵥ, bᵥ, kₒ, jₒ], t2_aaaa [dᵥ, aᵥ, iₒ, mₒ], t2_abab [fᵥ, cᵥ, nₒ, lₒ]], [(1, [aᵥ, bᵥ, iₒ, jₒ])]⟩,
  -- line 4486: mnef,kldc,ebkj,daim,fcln->abij
  ⟨-1/4, [g_abab [mₒ, nₒ, eᵥ, fᵥ], l2_abab [kₒ, lₒ, dᵥ, cᵥ], t2_abab [eᵥ, bᵥ, kₒ, jₒ], t2_aaaa [dᵥ, aᵥ, iₒ, mₒ], t2_bbbb [fᵥ, cᵥ, lₒ, nₒ]], [(1, [aᵥ, bᵥ, iₒ, jₒ])]⟩,
  -- line 4489: nmef,klcd,ebkj,adim,cfnl->abij
  ⟨1/4, [g_abab [nₒ, mₒ, eᵥ, fᵥ], l2_abab [kₒ, lₒ, cᵥ, dᵥ], t2_abab [eᵥ, bᵥ, kₒ, jₒ], t2_abab [aᵥ, dᵥ, iₒ, mₒ], t2_abab [cᵥ, fᵥ, nₒ, lₒ]], [(1, [aᵥ, bᵥ, iₒ, jₒ])]⟩,
  -- line 4492: mnfe,lkdc,ebjk,daim,fcln->abij
  ⟨1/4, [g_abab [mₒ, nₒ, fᵥ, eᵥ], l2_abab [lₒ, kₒ, dᵥ, cᵥ], t2_bbbb [eᵥ, bᵥ, jₒ, kₒ], t2_aaaa [dᵥ, aᵥ, iₒ, mₒ], t2_abab [fᵥ, cᵥ, lₒ, nₒ]], [(1, [aᵥ, bᵥ, iₒ, jₒ])]⟩,
  -- line 4495: nmfe,lkcd,ebjk,adim,fcln->abij
  ⟨-1/4, [g_abab [nₒ, mₒ, fᵥ, eᵥ], l2_abab [lₒ, kₒ, cᵥ, dᵥ], t2_bbbb [eᵥ, bᵥ, jₒ, kₒ], t2_abab [aᵥ, dᵥ, iₒ, mₒ], t2_aaaa [fᵥ, cᵥ, lₒ, nₒ]], [(1, [aᵥ, bᵥ, iₒ, jₒ])]⟩,
  -- line 4498: nmef,lkcd,ebjk,adim,cfln->abij
  ⟨-1/4, [g_bbbb [nₒ, mₒ, eᵥ, fᵥ], l2_abab [lₒ, kₒ, cᵥ, dᵥ], t2_bbbb [eᵥ, bᵥ, jₒ, kₒ], t2_abab [aᵥ, dᵥ, iₒ, mₒ], t2_abab [cᵥ, fᵥ, lₒ, nₒ]], [(1, [aᵥ, bᵥ, iₒ, jₒ])]⟩,
  -- line 4501: nmfe,kldc,ebjk,adim,fcnl->abij
  ⟨1/4, [g_abab [nₒ, mₒ, fᵥ, eᵥ], l2_bbbb [kₒ, lₒ, dᵥ, cᵥ], t2_bbbb [eᵥ, bᵥ, jₒ, kₒ], t2_abab [aᵥ, dᵥ, iₒ, mₒ], t2_abab [fᵥ, cᵥ, nₒ, lₒ]], [(1, [aᵥ, bᵥ, iₒ, jₒ])]⟩,
  -- line 4504: nmef,kldc,ebjk,adim,fcln->abij
  ⟨1/4, [g_bbbb [nₒ, mₒ, eᵥ, fᵥ], l2_bbbb [kₒ, lₒ, dᵥ, cᵥ], t2_bbbb [eᵥ, bᵥ, jₒ, kₒ], t2_abab [aᵥ, dᵥ, iₒ, mₒ], t2_bbbb [fᵥ, cᵥ, lₒ, nₒ]], [(1, [aᵥ, bᵥ, iₒ, jₒ])]⟩,
  -- line 4507: nmef,kldc,eaik,dbmj,fcln->abij
  ⟨1/4, [g_aaaa [nₒ, mₒ, eᵥ, fᵥ], l2_aaaa [kₒ, lₒ, dᵥ, cᵥ], t2_aaaa [eᵥ, aᵥ, iₒ, kₒ], t2_abab [dᵥ, bᵥ, mₒ, jₒ], t2_aaaa [fᵥ, cᵥ, lₒ, nₒ]], [(1, [aᵥ, bᵥ, iₒ, jₒ])]⟩,
  -- line 4510: mnef,kldc,eaik,dbmj,cfln->abij
  ⟨1/4, [g_abab [mₒ, nₒ, eᵥ, fᵥ], l2_aaaa [kₒ, lₒ, dᵥ, cᵥ], t2_aaaa [eᵥ, aᵥ, iₒ, kₒ], t2_abab [dᵥ, bᵥ, mₒ, jₒ], t2_abab [cᵥ, fᵥ, lₒ, nₒ]], [(1, [aᵥ, bᵥ, iₒ, jₒ])]⟩,
  -- line 4513: nmef,kldc,eaik,dbmj,fcnl->abij
  ⟨-1/4, [g_aaaa [nₒ, mₒ, eᵥ, fᵥ], l2_abab [kₒ, lₒ, dᵥ, cᵥ], t2_aaaa [eᵥ, aᵥ, iₒ, kₒ], t2_abab [dᵥ, bᵥ, mₒ, jₒ], t2_abab [fᵥ, cᵥ, nₒ, lₒ]], [(1, [aᵥ, bᵥ, iₒ, jₒ])]⟩,
  -- line 4516: mnef,kldc,eaik,dbmj,fcln->abij
  ⟨-1/4, [g_abab [mₒ, nₒ, eᵥ, fᵥ], l2_abab [kₒ, lₒ, dᵥ, cᵥ], t2_aaaa [eᵥ, aᵥ, iₒ, kₒ], t2_abab [dᵥ, bᵥ, mₒ, jₒ], t2_bbbb [fᵥ, cᵥ, lₒ, nₒ]], [(1, [aᵥ, bᵥ, iₒ, jₒ])]⟩,
  -- line 4519: nmef,klcd,eaik,dbjm,cfnl->abij
  ⟨1/4, [g_abab [nₒ, mₒ, eᵥ, fᵥ], l2_abab [kₒ, lₒ, cᵥ, dᵥ], t2_aaaa [eᵥ, aᵥ, iₒ, kₒ], t2_bbbb [dᵥ, bᵥ, jₒ, mₒ], t2_abab [cᵥ, fᵥ, nₒ, lₒ]], [(1, [aᵥ, bᵥ, iₒ, jₒ])]⟩,
  -- line 4522: mnfe,lkdc,aeik,dbmj,fcln->abij
  ⟨1/4, [g_abab [mₒ, nₒ, fᵥ, eᵥ], l2_abab [lₒ, kₒ, dᵥ, cᵥ], t2_abab [aᵥ, eᵥ, iₒ, kₒ], t2_abab [dᵥ, bᵥ, mₒ, jₒ], t2_abab [fᵥ, cᵥ, lₒ, nₒ]], [(1, [aᵥ, bᵥ, iₒ, jₒ])]⟩,
  -- line 4525: nmfe,lkcd,aeik,dbjm,fcln->abij
  ⟨-1/4, [g_abab [nₒ, mₒ, fᵥ, eᵥ], l2_abab [lₒ, kₒ, cᵥ, dᵥ], t2_abab [aᵥ, eᵥ, iₒ, kₒ], t2_bbbb [dᵥ, bᵥ, jₒ, mₒ], t2_aaaa [fᵥ, cᵥ, lₒ, nₒ]], [(1, [aᵥ, bᵥ, iₒ, jₒ])]⟩,
  -- line 4528: nmef,lkcd,aeik,dbjm,cfln->abij
  ⟨-1/4, [g_bbbb [nₒ, mₒ, eᵥ, fᵥ], l2_abab [lₒ, kₒ, cᵥ, dᵥ], t2_abab [aᵥ, eᵥ, iₒ, kₒ], t2_bbbb [dᵥ, bᵥ, jₒ, mₒ], t2_abab [cᵥ, fᵥ, lₒ, nₒ]], [(1, [aᵥ, bᵥ, iₒ, jₒ])]⟩,
  -- line 4531: nmfe,kldc,aeik,dbjm,fcnl->abij
  ⟨1/4, [g_abab [nₒ, mₒ, fᵥ, eᵥ], l2_bbbb [kₒ, lₒ, dᵥ, cᵥ], t2_abab [aᵥ, eᵥ, iₒ, kₒ], t2_bbbb [dᵥ, bᵥ, jₒ, mₒ], t2_abab [fᵥ, cᵥ, nₒ, lₒ]], [(1, [aᵥ, bᵥ, iₒ, jₒ])]⟩,
  -- line 4534: nmef,kldc,aeik,dbjm,fcln->abij
  ⟨1/4, [g_bbbb [nₒ, mₒ, eᵥ, fᵥ], l2_bbbb [kₒ, lₒ, dᵥ, cᵥ], t2_abab [aᵥ, eᵥ, iₒ, kₒ], t2_bbbb [dᵥ, bᵥ, jₒ, mₒ], t2_bbbb [fᵥ, cᵥ, lₒ, nₒ]], [(1, [aᵥ, bᵥ, iₒ, jₒ])]⟩,
  -- line 4537: nmef,lkcd,ebik,admj,fcln->abij
  ⟨1/4, [g_aaaa [nₒ, mₒ, eᵥ, fᵥ], l2_abab [lₒ, kₒ, cᵥ, dᵥ], t2_abab [eᵥ, bᵥ, iₒ, kₒ], t2_abab [aᵥ, dᵥ, mₒ, jₒ], t2_aaaa [fᵥ, cᵥ, lₒ, nₒ]], [(1, [aᵥ, bᵥ, iₒ, jₒ])]⟩,
  -- line 4540: mnef,lkcd,ebik,admj,cfln->abij
  ⟨1/4, [g_abab [mₒ, nₒ, eᵥ, fᵥ], l2_abab [lₒ, kₒ, cᵥ, dᵥ], t2_abab [eᵥ, bᵥ, iₒ, kₒ], t2_abab [aᵥ, dᵥ, mₒ, jₒ], t2_abab [cᵥ, fᵥ, lₒ, nₒ]], [(1, [aᵥ, bᵥ, iₒ, jₒ])]⟩,
  -- line 4543: nmef,kldc,ebik,admj,fcnl->abij
  ⟨-1/4, [g_aaaa [nₒ, mₒ, eᵥ, fᵥ], l2_bbbb [kₒ, lₒ, dᵥ, cᵥ], t2_abab [eᵥ, bᵥ, iₒ, kₒ], t2_abab [aᵥ, dᵥ, mₒ, jₒ], t2_abab [fᵥ, cᵥ, nₒ, lₒ]], [(1, [aᵥ, bᵥ, iₒ, jₒ])]⟩,
  -- line 4546: mnef,kldc,ebik,admj,fcln->abij
  ⟨-1/4, [g_abab [mₒ, nₒ, eᵥ, fᵥ], l2_bbbb [kₒ, lₒ, dᵥ, cᵥ], t2_abab [eᵥ, bᵥ, iₒ, kₒ], t2_abab [aᵥ, dᵥ, mₒ, jₒ], t2_bbbb [fᵥ, cᵥ, lₒ, nₒ]], [(1, [aᵥ, bᵥ, iₒ, jₒ])]⟩,
  -- line 4549: nmfe,kldc,aeij,fblm,dckn->abij
  ⟨1/2, [g_abab [nₒ, mₒ, fᵥ, eᵥ], l2_aaaa [kₒ, lₒ, dᵥ, cᵥ], t2_abab [aᵥ, eᵥ, iₒ, jₒ], t2_abab [fᵥ, bᵥ, lₒ, mₒ], t2_aaaa [dᵥ, cᵥ, kₒ, nₒ]], [(1, [aᵥ, bᵥ, iₒ, jₒ])]⟩,
  -- line 4552: mnfe,kldc,aeij,fbml,dckn->abij
  ⟨1/2, [g_abab [mₒ, nₒ, fᵥ, eᵥ], l2_abab [kₒ, lₒ, dᵥ, cᵥ], t2_abab [aᵥ, eᵥ, iₒ, jₒ], t2_abab [fᵥ, bᵥ, mₒ, lₒ], t2_abab [dᵥ, cᵥ, kₒ, nₒ]], [(1, [aᵥ, bᵥ, iₒ, jₒ])]⟩
  ]

/-- Part 16 of `residQf2_abab`. -/
def residQf2_abab_16 : Prog := [
  -- line 4555: nmef,kldc,aeij,fblm,dckn->abij
  ⟨-1/2, [g_bbbb [nₒ, mₒ, eᵥ, fᵥ], l2_abab [kₒ, lₒ, dᵥ, cᵥ], t2_abab [aᵥ, eᵥ, iₒ, jₒ], t2_bbbb [fᵥ, bᵥ, lₒ, mₒ], t2_abab [dᵥ, cᵥ, kₒ, nₒ]], [(1, [aᵥ, bᵥ, iₒ, jₒ])]⟩,
  -- line 4558: mnfe,klcd,aeij,fbml,cdkn->abij
  ⟨1/2, [g_abab [mₒ, nₒ, fᵥ, eᵥ], l2_abab [kₒ, lₒ, cᵥ, dᵥ], t2_abab [aᵥ, eᵥ, iₒ, jₒ], t2_abab [fᵥ, bᵥ, mₒ, lₒ], t2_abab [cᵥ, dᵥ, kₒ, nₒ]], [(1, [aᵥ, bᵥ, iₒ, jₒ])]⟩,
  -- line 4561: nmef,klcd,aeij,fblm,cdkn->abij
  ⟨-1/2, [g_bbbb [nₒ, mₒ, eᵥ, fᵥ], l2_abab [kₒ, lₒ, cᵥ, dᵥ], t2_abab [aᵥ, eᵥ, iₒ, jₒ], t2_bbbb [fᵥ, bᵥ, lₒ, mₒ], t2_abab [cᵥ, dᵥ, kₒ, nₒ]], [(1, [aᵥ, bᵥ, iₒ, jₒ])]⟩,
  -- line 4564: nmfe,lkdc,aeij,fblm,dcnk->abij
  ⟨1/2, [g_abab [nₒ, mₒ, fᵥ, eᵥ], l2_abab [lₒ, kₒ, dᵥ, cᵥ], t2_abab [aᵥ, eᵥ, iₒ, jₒ], t2_abab [fᵥ, bᵥ, lₒ, mₒ], t2_abab [dᵥ, cᵥ, nₒ, kₒ]], [(1, [aᵥ, bᵥ, iₒ, jₒ])]⟩,
  -- line 4567: nmfe,lkcd,aeij,fblm,cdnk->abij
  ⟨1/2, [g_abab [nₒ, mₒ, fᵥ, eᵥ], l2_abab [lₒ, kₒ, cᵥ, dᵥ], t2_abab [aᵥ, eᵥ, iₒ, jₒ], t2_abab [fᵥ, bᵥ, lₒ, mₒ], t2_abab [cᵥ, dᵥ, nₒ, kₒ]], [(1, [aᵥ, bᵥ, iₒ, jₒ])]⟩,
  -- line 4570: mnfe,kldc,aeij,fbml,dckn->abij
  ⟨1/2, [g_abab [mₒ, nₒ, fᵥ, eᵥ], l2_bbbb [kₒ, lₒ, dᵥ, cᵥ], t2_abab [aᵥ, eᵥ, iₒ, jₒ], t2_abab [fᵥ, bᵥ, mₒ, lₒ], t2_bbbb [dᵥ, cᵥ, kₒ, nₒ]], [(1, [aᵥ, bᵥ, iₒ, jₒ])]⟩,
  -- line 4573: nmef,kldc,aeij,fblm,dckn->abij
  ⟨-1/2, [g_bbbb [nₒ, mₒ, eᵥ, fᵥ], l2_bbbb [kₒ, lₒ, dᵥ, cᵥ], t2_abab [aᵥ, eᵥ, iₒ, jₒ], t2_bbbb [fᵥ, bᵥ, lₒ, mₒ], t2_bbbb [dᵥ, cᵥ, kₒ, nₒ]], [(1, [aᵥ, bᵥ, iₒ, jₒ])]⟩,
  -- line 4576: nmfe,kldc,aeij,fbkl,dcnm->abij
  ⟨-1/8, [g_abab [nₒ, mₒ, fᵥ, eᵥ], l2_abab [kₒ, lₒ, dᵥ, cᵥ], t2_abab [aᵥ, eᵥ, iₒ, jₒ], t2_abab [fᵥ, bᵥ, kₒ, lₒ], t2_abab [dᵥ, cᵥ, nₒ, mₒ]], [(1, [aᵥ, bᵥ, iₒ, jₒ])]⟩,
  -- line 4579: mnfe,kldc,aeij,fbkl,dcmn->abij
  ⟨-1/8, [g_abab [mₒ, nₒ, fᵥ, eᵥ], l2_abab [kₒ, lₒ, dᵥ, cᵥ], t2_abab [aᵥ, eᵥ, iₒ, jₒ], t2_abab [fᵥ, bᵥ, kₒ, lₒ], t2_abab [dᵥ, cᵥ, mₒ, nₒ]], [(1, [aᵥ, bᵥ, iₒ, jₒ])]⟩,
  -- line 4582: nmfe,klcd,aeij,fbkl,cdnm->abij
  ⟨-1/8, [g_abab [nₒ, mₒ, fᵥ, eᵥ], l2_abab [kₒ, lₒ, cᵥ, dᵥ], t2_abab [aᵥ, eᵥ, iₒ, jₒ], t2_abab [fᵥ, bᵥ, kₒ, lₒ], t2_abab [cᵥ, dᵥ, nₒ, mₒ]], [(1, [aᵥ, bᵥ, iₒ, jₒ])]⟩,
  -- line 4585: mnfe,klcd,aeij,fbkl,cdmn->abij
  ⟨-1/8, [g_abab [mₒ, nₒ, fᵥ, eᵥ], l2_abab [kₒ, lₒ, cᵥ, dᵥ], t2_abab [aᵥ, eᵥ, iₒ, jₒ], t2_abab [fᵥ, bᵥ, kₒ, lₒ], t2_abab [cᵥ, dᵥ, mₒ, nₒ]], [(1, [aᵥ, bᵥ, iₒ, jₒ])]⟩,
  -- line 4588: nmfe,lkdc,aeij,fblk,dcnm->abij
  ⟨-1/8, [g_abab [nₒ, mₒ, fᵥ, eᵥ], l2_abab [lₒ, kₒ, dᵥ, cᵥ], t2_abab [aᵥ, eᵥ, iₒ, jₒ], t2_abab [fᵥ, bᵥ, lₒ, kₒ], t2_abab [dᵥ, cᵥ, nₒ, mₒ]], [(1, [aᵥ, bᵥ, iₒ, jₒ])]⟩,
  -- line 4591: mnfe,lkdc,aeij,fblk,dcmn->abij
  ⟨-1/8, [g_abab [mₒ, nₒ, fᵥ, eᵥ], l2_abab [lₒ, kₒ, dᵥ, cᵥ], t2_abab [aᵥ, eᵥ, iₒ, jₒ], t2_abab [fᵥ, bᵥ, lₒ, kₒ], t2_abab [dᵥ, cᵥ, mₒ, nₒ]], [(1, [aᵥ, bᵥ, iₒ, jₒ])]⟩,
  -- line 4594: nmfe,lkcd,aeij,fblk,cdnm->abij
  ⟨-1/8, [g_abab [nₒ, mₒ, fᵥ, eᵥ], l2_abab [lₒ, kₒ, cᵥ, dᵥ], t2_abab [aᵥ, eᵥ, iₒ, jₒ], t2_abab [fᵥ, bᵥ, lₒ, kₒ], t2_abab [cᵥ, dᵥ, nₒ, mₒ]], [(1, [aᵥ, bᵥ, iₒ, jₒ])]⟩,
  -- line 4597: mnfe,lkcd,aeij,fblk,cdmn->abij
  ⟨-1/8, [g_abab [mₒ, nₒ, fᵥ, eᵥ], l2_abab [lₒ, kₒ, cᵥ, dᵥ], t2_abab [aᵥ, eᵥ, iₒ, jₒ], t2_abab [fᵥ, bᵥ, lₒ, kₒ], t2_abab [cᵥ, dᵥ, mₒ, nₒ]], [(1, [aᵥ, bᵥ, iₒ, jₒ])]⟩,
  -- line 4600: nmef,kldc,aeij,fbkl,dcnm->abij
  ⟨1/8, [g_bbbb [nₒ, mₒ, eᵥ, fᵥ], l2_bbbb [kₒ, lₒ, dᵥ, cᵥ], t2_abab [aᵥ, eᵥ, iₒ, jₒ], t2_bbbb [fᵥ, bᵥ, kₒ, lₒ], t2_bbbb [dᵥ, cᵥ, nₒ, mₒ]], [(1, [aᵥ, bᵥ, iₒ, jₒ])]⟩,
  -- line 4603: nmef,kldc,ebkj,dclm,fain->abij
  ⟨1/8, [g_aaaa [nₒ, mₒ, eᵥ, fᵥ], l2_aaaa [kₒ, lₒ, dᵥ, cᵥ], t2_abab [eᵥ, bᵥ, kₒ, jₒ], t2_aaaa [dᵥ, cᵥ, lₒ, mₒ], t2_aaaa [fᵥ, aᵥ, iₒ, nₒ]], [(1, [aᵥ, bᵥ, iₒ, jₒ])]⟩,
  -- line 4606: mnef,kldc,ebkj,dclm,afin->abij
  ⟨1/8, [g_abab [mₒ, nₒ, eᵥ, fᵥ], l2_aaaa [kₒ, lₒ, dᵥ, cᵥ], t2_abab [eᵥ, bᵥ, kₒ, jₒ], t2_aaaa [dᵥ, cᵥ, lₒ, mₒ], t2_abab [aᵥ, fᵥ, iₒ, nₒ]], [(1, [aᵥ, bᵥ, iₒ, jₒ])]⟩,
  -- line 4609: nmef,kldc,ebkj,dcml,fain->abij
  ⟨-1/8, [g_aaaa [nₒ, mₒ, eᵥ, fᵥ], l2_abab [kₒ, lₒ, dᵥ, cᵥ], t2_abab [eᵥ, bᵥ, kₒ, jₒ], t2_abab [dᵥ, cᵥ, mₒ, lₒ], t2_aaaa [fᵥ, aᵥ, iₒ, nₒ]], [(1, [aᵥ, bᵥ, iₒ, jₒ])]⟩,
  -- line 4612: mnef,kldc,ebkj,dcml,afin->abij
  ⟨-1/8, [g_abab [mₒ, nₒ, eᵥ, fᵥ], l2_abab [kₒ, lₒ, dᵥ, cᵥ], t2_abab [eᵥ, bᵥ, kₒ, jₒ], t2_abab [dᵥ, cᵥ, mₒ, lₒ], t2_abab [aᵥ, fᵥ, iₒ, nₒ]], [(1, [aᵥ, bᵥ, iₒ, jₒ])]⟩,
  -- line 4615: nmef,klcd,ebkj,cdml,fain->abij
  ⟨-1/8, [g_aaaa [nₒ, mₒ, eᵥ, fᵥ], l2_abab [kₒ, lₒ, cᵥ, dᵥ], t2_abab [eᵥ, bᵥ, kₒ, jₒ], t2_abab [cᵥ, dᵥ, mₒ, lₒ], t2_aaaa [fᵥ, aᵥ, iₒ, nₒ]], [(1, [aᵥ, bᵥ, iₒ, jₒ])]⟩,
  -- line 4618: mnef,klcd,ebkj,cdml,afin->abij
  ⟨-1/8, [g_abab [mₒ, nₒ, eᵥ, fᵥ], l2_abab [kₒ, lₒ, cᵥ, dᵥ], t2_abab [eᵥ, bᵥ, kₒ, jₒ], t2_abab [cᵥ, dᵥ, mₒ, lₒ], t2_abab [aᵥ, fᵥ, iₒ, nₒ]], [(1, [aᵥ, bᵥ, iₒ, jₒ])]⟩,
  -- line 4621: nmfe,lkdc,ebjk,dclm,fain->abij
  ⟨-1/8, [g_abab [nₒ, mₒ, fᵥ, eᵥ], l2_abab [lₒ, kₒ, dᵥ, cᵥ], t2_bbbb [eᵥ, bᵥ, jₒ, kₒ], t2_abab [dᵥ, cᵥ, lₒ, mₒ], t2_aaaa [fᵥ, aᵥ, iₒ, nₒ]], [(1, [aᵥ, bᵥ, iₒ, jₒ])]⟩,
  -- line 4624: nmef,lkdc,ebjk,dclm,afin->abij
  ⟨-1/8, [g_bbbb [nₒ, mₒ, eᵥ, fᵥ], l2_abab [lₒ, kₒ, dᵥ, cᵥ], t2_bbbb [eᵥ, bᵥ, jₒ, kₒ], t2_abab [dᵥ, cᵥ, lₒ, mₒ], t2_abab [aᵥ, fᵥ, iₒ, nₒ]], [(1, [aᵥ, bᵥ, iₒ, jₒ])]⟩,
  -- line 4627: nmfe,lkcd,ebjk,cdlm,fain->abij
  ⟨-1/8, [g_abab [nₒ, mₒ, fᵥ, eᵥ], l2_abab [lₒ, kₒ, cᵥ, dᵥ], t2_bbbb [eᵥ, bᵥ, jₒ, kₒ], t2_abab [cᵥ, dᵥ, lₒ, mₒ], t2_aaaa [fᵥ, aᵥ, iₒ, nₒ]], [(1, [aᵥ, bᵥ, iₒ, jₒ])]⟩,
  -- line 4630: nmef,lkcd,ebjk,cdlm,afin->abij
  ⟨-1/8, [g_bbbb [nₒ, mₒ, eᵥ, fᵥ], l2_abab [lₒ, kₒ, cᵥ, dᵥ], t2_bbbb [eᵥ, bᵥ, jₒ, kₒ], t2_abab [cᵥ, dᵥ, lₒ, mₒ], t2_abab [aᵥ, fᵥ, iₒ, nₒ]], [(1, [aᵥ, bᵥ, iₒ, jₒ])]⟩,
  -- line 4633: nmfe,kldc,ebjk,dclm,fain->abij
  ⟨1/8, [g_abab [nₒ, mₒ, fᵥ, eᵥ], l2_bbbb [kₒ, lₒ, dᵥ, cᵥ], t2_bbbb [eᵥ, bᵥ, jₒ, kₒ], t2_bbbb [dᵥ, cᵥ, lₒ, mₒ], t2_aaaa [fᵥ, aᵥ, iₒ, nₒ]], [(1, [aᵥ, bᵥ, iₒ, jₒ])]⟩,
  -- line 4636: nmef,kldc,ebjk,dclm,afin->abij
  ⟨1/8, [g_bbbb [nₒ, mₒ, eᵥ, fᵥ], l2_bbbb [kₒ, lₒ, dᵥ, cᵥ], t2_bbbb [eᵥ, bᵥ, jₒ, kₒ], t2_bbbb [dᵥ, cᵥ, lₒ, mₒ], t2_abab [aᵥ, fᵥ, iₒ, nₒ]], [(1, [aᵥ, bᵥ, iₒ, jₒ])]⟩,
  -- line 4639: nmef,lkdc,ebik,dclm,afnj->abij
  ⟨-1/8, [g_abab [nₒ, mₒ, eᵥ, fᵥ], l2_abab [lₒ, kₒ, dᵥ, cᵥ], t2_abab [eᵥ, bᵥ, iₒ, kₒ], t2_abab [dᵥ, cᵥ, lₒ, mₒ], t2_abab [aᵥ, fᵥ, nₒ, jₒ]], [(1, [aᵥ, bᵥ, iₒ, jₒ])]⟩,
  -- line 4642: nmef,lkcd,ebik,cdlm,afnj->abij
  ⟨-1/8, [g_abab [nₒ, mₒ, eᵥ, fᵥ], l2_abab [lₒ, kₒ, cᵥ, dᵥ], t2_abab [eᵥ, bᵥ, iₒ, kₒ], t2_abab [cᵥ, dᵥ, lₒ, mₒ], t2_abab [aᵥ, fᵥ, nₒ, jₒ]], [(1, [aᵥ, bᵥ, iₒ, jₒ])]⟩,
  -- line 4645: nmef,kldc,ebik,dclm,afnj->abij
  ⟨1/8, [g_abab [nₒ, mₒ, eᵥ, fᵥ], l2_bbbb [kₒ, lₒ, dᵥ, cᵥ], t2_abab [eᵥ, bᵥ, iₒ, kₒ], t2_bbbb [dᵥ, cᵥ, lₒ, mₒ], t2_abab [aᵥ, fᵥ, nₒ, jₒ]], [(1, [aᵥ, bᵥ, iₒ, jₒ])]⟩,
  -- line 4648: nmef,kldc,ebij,dclm,fakn->abij
  ⟨-1/8, [g_aaaa [nₒ, mₒ, eᵥ, fᵥ], l2_aaaa [kₒ, lₒ, dᵥ, cᵥ], t2_abab [eᵥ, bᵥ, iₒ, jₒ], t2_aaaa [dᵥ, cᵥ, lₒ, mₒ], t2_aaaa [fᵥ, aᵥ, kₒ, nₒ]], [(1, [aᵥ, bᵥ, iₒ, jₒ])]⟩,
  -- line 4651: mnef,kldc,ebij,dclm,afkn->abij
  ⟨-1/8, [g_abab [mₒ, nₒ, eᵥ, fᵥ], l2_aaaa [kₒ, lₒ, dᵥ, cᵥ], t2_abab [eᵥ, bᵥ, iₒ, jₒ], t2_aaaa [dᵥ, cᵥ, lₒ, mₒ], t2_abab [aᵥ, fᵥ, kₒ, nₒ]], [(1, [aᵥ, bᵥ, iₒ, jₒ])]⟩,
  -- line 4654: nmef,kldc,ebij,dcml,fakn->abij
  ⟨1/8, [g_aaaa [nₒ, mₒ, eᵥ, fᵥ], l2_abab [kₒ, lₒ, dᵥ, cᵥ], t2_abab [eᵥ, bᵥ, iₒ, jₒ], t2_abab [dᵥ, cᵥ, mₒ, lₒ], t2_aaaa [fᵥ, aᵥ, kₒ, nₒ]], [(1, [aᵥ, bᵥ, iₒ, jₒ])]⟩,
  -- line 4657: mnef,kldc,ebij,dcml,afkn->abij
  ⟨1/8, [g_abab [mₒ, nₒ, eᵥ, fᵥ], l2_abab [kₒ, lₒ, dᵥ, cᵥ], t2_abab [eᵥ, bᵥ, iₒ, jₒ], t2_abab [dᵥ, cᵥ, mₒ, lₒ], t2_abab [aᵥ, fᵥ, kₒ, nₒ]], [(1, [aᵥ, bᵥ, iₒ, jₒ])]⟩,
  -- line 4660: nmef,klcd,ebij,cdml,fakn->abij
  ⟨1/8, [g_aaaa [nₒ, mₒ, eᵥ, fᵥ], l2_abab [kₒ, lₒ, cᵥ, dᵥ], t2_abab [eᵥ, bᵥ, iₒ, jₒ], t2_abab [cᵥ, dᵥ, mₒ, lₒ], t2_aaaa [fᵥ, aᵥ, kₒ, nₒ]], [(1, [aᵥ, bᵥ, iₒ, jₒ])]⟩,
  -- line 4663: mnef,klcd,ebij,cdml,afkn->abij
  ⟨1/8, [g_abab [mₒ, nₒ, eᵥ, fᵥ], l2_abab [kₒ, lₒ, cᵥ, dᵥ], t2_abab [eᵥ, bᵥ, iₒ, jₒ], t2_abab [cᵥ, dᵥ, mₒ, lₒ], t2_abab [aᵥ, fᵥ, kₒ, nₒ]], [(1, [aᵥ, bᵥ, iₒ, jₒ])]⟩,
  -- line 4666: nmef,lkdc,ebij,dclm,afnk->abij
  ⟨1/8, [g_abab [nₒ, mₒ, eᵥ, fᵥ], l2_abab [lₒ, kₒ, dᵥ, cᵥ], t2_abab [eᵥ, bᵥ, iₒ, jₒ], t2_abab [dᵥ, cᵥ, lₒ, mₒ], t2_abab [aᵥ, fᵥ, nₒ, kₒ]], [(1, [aᵥ, bᵥ, iₒ, jₒ])]⟩,
  -- line 4669: nmef,lkcd,ebij,cdlm,afnk->abij
  ⟨1/8, [g_abab [nₒ, mₒ, eᵥ, fᵥ], l2_abab [lₒ, kₒ, cᵥ, dᵥ], t2_abab [eᵥ, bᵥ, iₒ, jₒ], t2_abab [cᵥ, dᵥ, lₒ, mₒ], t2_abab [aᵥ, fᵥ, nₒ, kₒ]], [(1, [aᵥ, bᵥ, iₒ, jₒ])]⟩,
  -- line 4672: nmef,kldc,ebij,dclm,afnk->abij
  ⟨-1/8, [g_abab [nₒ, mₒ, eᵥ, fᵥ], l2_bbbb [kₒ, lₒ, dᵥ, cᵥ], t2_abab [eᵥ, bᵥ, iₒ, jₒ], t2_bbbb [dᵥ, cᵥ, lₒ, mₒ], t2_abab [aᵥ, fᵥ, nₒ, kₒ]], [(1, [aᵥ, bᵥ, iₒ, jₒ])]⟩
  ]

/-- Part 17 of `residQf2_abab`. -/
def residQf2_abab_17 : Prog := [
  -- line 4675: mnef,klcd,admj,ebkn,cfil->abij
  ⟨8333333333333/100000000000000, [g_abab [mₒ, nₒ, eᵥ, fᵥ], l2_abab [kₒ, lₒ, cᵥ, dᵥ], t2_abab [aᵥ, dᵥ, mₒ, jₒ], t2_abab [eᵥ, bᵥ, kₒ, nₒ], t2_abab [cᵥ, fᵥ, iₒ, lₒ]], [(1, [aᵥ, bᵥ, iₒ, jₒ])]⟩,
  -- line 4678: nmef,lkcd,admj,ebnk,fcil->abij
  ⟨8333333333333/100000000000000, [g_aaaa [nₒ, mₒ, eᵥ, fᵥ], l2_abab [lₒ, kₒ, cᵥ, dᵥ], t2_abab [aᵥ, dᵥ, mₒ, jₒ], t2_abab [eᵥ, bᵥ, nₒ, kₒ], t2_aaaa [fᵥ, cᵥ, iₒ, lₒ]], [(1, [aᵥ, bᵥ, iₒ, jₒ])]⟩,
  -- line 4681: mnfe,lkcd,admj,ebkn,fcil->abij
  ⟨-8333333333333/100000000000000, [g_abab [mₒ, nₒ, fᵥ, eᵥ], l2_abab [lₒ, kₒ, cᵥ, dᵥ], t2_abab [aᵥ, dᵥ, mₒ, jₒ], t2_bbbb [eᵥ, bᵥ, kₒ, nₒ], t2_aaaa [fᵥ, cᵥ, iₒ, lₒ]], [(1, [aᵥ, bᵥ, iₒ, jₒ])]⟩,
  -- line 4684: nmef,kldc,admj,ebnk,fcil->abij
  ⟨8333333333333/100000000000000, [g_aaaa [nₒ, mₒ, eᵥ, fᵥ], l2_bbbb [kₒ, lₒ, dᵥ, cᵥ], t2_abab [aᵥ, dᵥ, mₒ, jₒ], t2_abab [eᵥ, bᵥ, nₒ, kₒ], t2_abab [fᵥ, cᵥ, iₒ, lₒ]], [(1, [aᵥ, bᵥ, iₒ, jₒ])]⟩,
  -- line 4687: mnfe,kldc,admj,ebkn,fcil->abij
  ⟨-8333333333333/100000000000000, [g_abab [mₒ, nₒ, fᵥ, eᵥ], l2_bbbb [kₒ, lₒ, dᵥ, cᵥ], t2_abab [aᵥ, dᵥ, mₒ, jₒ], t2_bbbb [eᵥ, bᵥ, kₒ, nₒ], t2_abab [fᵥ, cᵥ, iₒ, lₒ]], [(1, [aᵥ, bᵥ, iₒ, jₒ])]⟩,
  -- line 4690: nmef,kldc,dbmj,eakn,fcil->abij
  ⟨-8333333333333/100000000000000, [g_aaaa [nₒ, mₒ, eᵥ, fᵥ], l2_aaaa [kₒ, lₒ, dᵥ, cᵥ], t2_abab [dᵥ, bᵥ, mₒ, jₒ], t2_aaaa [eᵥ, aᵥ, kₒ, nₒ], t2_aaaa [fᵥ, cᵥ, iₒ, lₒ]], [(1, [aᵥ, bᵥ, iₒ, jₒ])]⟩,
  -- line 4693: mnfe,kldc,dbmj,aekn,fcil->abij
  ⟨8333333333333/100000000000000, [g_abab [mₒ, nₒ, fᵥ, eᵥ], l2_aaaa [kₒ, lₒ, dᵥ, cᵥ], t2_abab [dᵥ, bᵥ, mₒ, jₒ], t2_abab [aᵥ, eᵥ, kₒ, nₒ], t2_aaaa [fᵥ, cᵥ, iₒ, lₒ]], [(1, [aᵥ, bᵥ, iₒ, jₒ])]⟩,
  -- line 4696: nmef,kldc,dbmj,eakn,fcil->abij
  ⟨-8333333333333/100000000000000, [g_aaaa [nₒ, mₒ, eᵥ, fᵥ], l2_abab [kₒ, lₒ, dᵥ, cᵥ], t2_abab [dᵥ, bᵥ, mₒ, jₒ], t2_aaaa [eᵥ, aᵥ, kₒ, nₒ], t2_abab [fᵥ, cᵥ, iₒ, lₒ]], [(1, [aᵥ, bᵥ, iₒ, jₒ])]⟩,
  -- line 4699: mnfe,kldc,dbmj,aekn,fcil->abij
  ⟨8333333333333/100000000000000, [g_abab [mₒ, nₒ, fᵥ, eᵥ], l2_abab [kₒ, lₒ, dᵥ, cᵥ], t2_abab [dᵥ, bᵥ, mₒ, jₒ], t2_abab [aᵥ, eᵥ, kₒ, nₒ], t2_abab [fᵥ, cᵥ, iₒ, lₒ]], [(1, [aᵥ, bᵥ, iₒ, jₒ])]⟩,
  -- line 4702: nmef,klcd,dbjm,eakn,cfil->abij
  ⟨8333333333333/100000000000000, [g_abab [nₒ, mₒ, eᵥ, fᵥ], l2_abab [kₒ, lₒ, cᵥ, dᵥ], t2_bbbb [dᵥ, bᵥ, jₒ, mₒ], t2_aaaa [eᵥ, aᵥ, kₒ, nₒ], t2_abab [cᵥ, fᵥ, iₒ, lₒ]], [(1, [aᵥ, bᵥ, iₒ, jₒ])]⟩,
  -- line 4705: nmef,klcd,dbjm,aekn,cfil->abij
  ⟨-8333333333333/100000000000000, [g_bbbb [nₒ, mₒ, eᵥ, fᵥ], l2_abab [kₒ, lₒ, cᵥ, dᵥ], t2_bbbb [dᵥ, bᵥ, jₒ, mₒ], t2_abab [aᵥ, eᵥ, kₒ, nₒ], t2_abab [cᵥ, fᵥ, iₒ, lₒ]], [(1, [aᵥ, bᵥ, iₒ, jₒ])]⟩,
  -- line 4708: nmfe,lkcd,dbjm,aenk,fcil->abij
  ⟨-8333333333333/100000000000000, [g_abab [nₒ, mₒ, fᵥ, eᵥ], l2_abab [lₒ, kₒ, cᵥ, dᵥ], t2_bbbb [dᵥ, bᵥ, jₒ, mₒ], t2_abab [aᵥ, eᵥ, nₒ, kₒ], t2_aaaa [fᵥ, cᵥ, iₒ, lₒ]], [(1, [aᵥ, bᵥ, iₒ, jₒ])]⟩,
  -- line 4711: nmfe,kldc,dbjm,aenk,fcil->abij
  ⟨-8333333333333/100000000000000, [g_abab [nₒ, mₒ, fᵥ, eᵥ], l2_bbbb [kₒ, lₒ, dᵥ, cᵥ], t2_bbbb [dᵥ, bᵥ, jₒ, mₒ], t2_abab [aᵥ, eᵥ, nₒ, kₒ], t2_abab [fᵥ, cᵥ, iₒ, lₒ]], [(1, [aᵥ, bᵥ, iₒ, jₒ])]⟩,
  -- line 4714: mnef,kldc,daim,ebkn,cflj->abij
  ⟨-8333333333333/100000000000000, [g_abab [mₒ, nₒ, eᵥ, fᵥ], l2_aaaa [kₒ, lₒ, dᵥ, cᵥ], t2_aaaa [dᵥ, aᵥ, iₒ, mₒ], t2_abab [eᵥ, bᵥ, kₒ, nₒ], t2_abab [cᵥ, fᵥ, lₒ, jₒ]], [(1, [aᵥ, bᵥ, iₒ, jₒ])]⟩,
  -- line 4717: mnef,kldc,daim,ebkn,fcjl->abij
  ⟨-8333333333333/100000000000000, [g_abab [mₒ, nₒ, eᵥ, fᵥ], l2_abab [kₒ, lₒ, dᵥ, cᵥ], t2_aaaa [dᵥ, aᵥ, iₒ, mₒ], t2_abab [eᵥ, bᵥ, kₒ, nₒ], t2_bbbb [fᵥ, cᵥ, jₒ, lₒ]], [(1, [aᵥ, bᵥ, iₒ, jₒ])]⟩,
  -- line 4720: nmef,lkdc,daim,ebnk,fclj->abij
  ⟨-8333333333333/100000000000000, [g_aaaa [nₒ, mₒ, eᵥ, fᵥ], l2_abab [lₒ, kₒ, dᵥ, cᵥ], t2_aaaa [dᵥ, aᵥ, iₒ, mₒ], t2_abab [eᵥ, bᵥ, nₒ, kₒ], t2_abab [fᵥ, cᵥ, lₒ, jₒ]], [(1, [aᵥ, bᵥ, iₒ, jₒ])]⟩,
  -- line 4723: mnfe,lkdc,daim,ebkn,fclj->abij
  ⟨8333333333333/100000000000000, [g_abab [mₒ, nₒ, fᵥ, eᵥ], l2_abab [lₒ, kₒ, dᵥ, cᵥ], t2_aaaa [dᵥ, aᵥ, iₒ, mₒ], t2_bbbb [eᵥ, bᵥ, kₒ, nₒ], t2_abab [fᵥ, cᵥ, lₒ, jₒ]], [(1, [aᵥ, bᵥ, iₒ, jₒ])]⟩,
  -- line 4726: nmef,lkcd,adim,ebnk,cflj->abij
  ⟨8333333333333/100000000000000, [g_abab [nₒ, mₒ, eᵥ, fᵥ], l2_abab [lₒ, kₒ, cᵥ, dᵥ], t2_abab [aᵥ, dᵥ, iₒ, mₒ], t2_abab [eᵥ, bᵥ, nₒ, kₒ], t2_abab [cᵥ, fᵥ, lₒ, jₒ]], [(1, [aᵥ, bᵥ, iₒ, jₒ])]⟩,
  -- line 4729: nmef,lkcd,adim,ebkn,cflj->abij
  ⟨-8333333333333/100000000000000, [g_bbbb [nₒ, mₒ, eᵥ, fᵥ], l2_abab [lₒ, kₒ, cᵥ, dᵥ], t2_abab [aᵥ, dᵥ, iₒ, mₒ], t2_bbbb [eᵥ, bᵥ, kₒ, nₒ], t2_abab [cᵥ, fᵥ, lₒ, jₒ]], [(1, [aᵥ, bᵥ, iₒ, jₒ])]⟩,
  -- line 4732: nmef,kldc,adim,ebnk,fcjl->abij
  ⟨8333333333333/100000000000000, [g_abab [nₒ, mₒ, eᵥ, fᵥ], l2_bbbb [kₒ, lₒ, dᵥ, cᵥ], t2_abab [aᵥ, dᵥ, iₒ, mₒ], t2_abab [eᵥ, bᵥ, nₒ, kₒ], t2_bbbb [fᵥ, cᵥ, jₒ, lₒ]], [(1, [aᵥ, bᵥ, iₒ, jₒ])]⟩,
  -- line 4735: nmef,kldc,adim,ebkn,fcjl->abij
  ⟨-8333333333333/100000000000000, [g_bbbb [nₒ, mₒ, eᵥ, fᵥ], l2_bbbb [kₒ, lₒ, dᵥ, cᵥ], t2_abab [aᵥ, dᵥ, iₒ, mₒ], t2_bbbb [eᵥ, bᵥ, kₒ, nₒ], t2_bbbb [fᵥ, cᵥ, jₒ, lₒ]], [(1, [aᵥ, bᵥ, iₒ, jₒ])]⟩,
  -- line 4738: nmef,kldc,dbim,eakn,cflj->abij
  ⟨-8333333333333/100000000000000, [g_abab [nₒ, mₒ, eᵥ, fᵥ], l2_aaaa [kₒ, lₒ, dᵥ, cᵥ], t2_abab [dᵥ, bᵥ, iₒ, mₒ], t2_aaaa [eᵥ, aᵥ, kₒ, nₒ], t2_abab [cᵥ, fᵥ, lₒ, jₒ]], [(1, [aᵥ, bᵥ, iₒ, jₒ])]⟩,
  -- line 4741: nmef,kldc,dbim,aekn,cflj->abij
  ⟨8333333333333/100000000000000, [g_bbbb [nₒ, mₒ, eᵥ, fᵥ], l2_aaaa [kₒ, lₒ, dᵥ, cᵥ], t2_abab [dᵥ, bᵥ, iₒ, mₒ], t2_abab [aᵥ, eᵥ, kₒ, nₒ], t2_abab [cᵥ, fᵥ, lₒ, jₒ]], [(1, [aᵥ, bᵥ, iₒ, jₒ])]⟩,
  -- line 4744: nmef,kldc,dbim,eakn,fcjl->abij
  ⟨-8333333333333/100000000000000, [g_abab [nₒ, mₒ, eᵥ, fᵥ], l2_abab [kₒ, lₒ, dᵥ, cᵥ], t2_abab [dᵥ, bᵥ, iₒ, mₒ], t2_aaaa [eᵥ, aᵥ, kₒ, nₒ], t2_bbbb [fᵥ, cᵥ, jₒ, lₒ]], [(1, [aᵥ, bᵥ, iₒ, jₒ])]⟩,
  -- line 4747: nmef,kldc,dbim,aekn,fcjl->abij
  ⟨8333333333333/100000000000000, [g_bbbb [nₒ, mₒ, eᵥ, fᵥ], l2_abab [kₒ, lₒ, dᵥ, cᵥ], t2_abab [dᵥ, bᵥ, iₒ, mₒ], t2_abab [aᵥ, eᵥ, kₒ, nₒ], t2_bbbb [fᵥ, cᵥ, jₒ, lₒ]], [(1, [aᵥ, bᵥ, iₒ, jₒ])]⟩,
  -- line 4750: nmfe,lkdc,dbim,aenk,fclj->abij
  ⟨8333333333333/100000000000000, [g_abab [nₒ, mₒ, fᵥ, eᵥ], l2_abab [lₒ, kₒ, dᵥ, cᵥ], t2_abab [dᵥ, bᵥ, iₒ, mₒ], t2_abab [aᵥ, eᵥ, nₒ, kₒ], t2_abab [fᵥ, cᵥ, lₒ, jₒ]], [(1, [aᵥ, bᵥ, iₒ, jₒ])]⟩
  ]

/-- `UT2/modify_T2resid_T4Qf2.py` 2620-4752, `residQf2_abab`. -/
def residQf2_abab : Prog := residQf2_abab_0 ++ (residQf2_abab_1 ++ (residQf2_abab_2 ++ (residQf2_abab_3 ++ (residQf2_abab_4 ++ (residQf2_abab_5 ++ (residQf2_abab_6 ++ (residQf2_abab_7 ++ (residQf2_abab_8 ++ (residQf2_abab_9 ++ (residQf2_abab_10 ++ (residQf2_abab_11 ++ (residQf2_abab_12 ++ (residQf2_abab_13 ++ (residQf2_abab_14 ++ (residQf2_abab_15 ++ (residQf2_abab_16 ++ (residQf2_abab_17)))))))))))))))))

end Verif.Gen
