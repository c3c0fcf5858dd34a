import Verif.Ein.Names
import Verif.Gen.Antisym

/-! Written by `/verif/tools/gen.py`. Programs read from `/repo/UT2`. -/

set_option maxRecDepth 100000

namespace Verif.Gen

open Verif.Ein Verif.Ein.N


/-- `UT2/fullCCenergy.py` 230-342, `energy_pertQf`. -/
def si_energy_pertQf_t4 : Prog := [
  -- line 233: lkcd,ijba,cdbaijlk
  ⟨1/16, [g_aaaa [lₒ, kₒ, cᵥ, dᵥ], l2_aaaa [iₒ, jₒ, bᵥ, aᵥ], t4_aaaaaaaa [cᵥ, dᵥ, bᵥ, aᵥ, iₒ, jₒ, lₒ, kₒ]], [(1, [])]⟩,
  -- line 236: lkcd,ijba,cabdijlk
  ⟨-1/16, [g_abab [lₒ, kₒ, cᵥ, dᵥ], l2_aaaa [iₒ, jₒ, bᵥ, aᵥ], t4_aaabaaab [cᵥ, aᵥ, bᵥ, dᵥ, iₒ, jₒ, lₒ, kₒ]], [(1, [])]⟩,
  -- line 239: klcd,ijba,cabdijkl
  ⟨-1/16, [g_abab [kₒ, lₒ, cᵥ, dᵥ], l2_aaaa [iₒ, jₒ, bᵥ, aᵥ], t4_aaabaaab [cᵥ, aᵥ, bᵥ, dᵥ, iₒ, jₒ, kₒ, lₒ]], [(1, [])]⟩,
  -- line 242: lkdc,ijba,adbcijlk
  ⟨1/16, [g_abab [lₒ, kₒ, dᵥ, cᵥ], l2_aaaa [iₒ, jₒ, bᵥ, aᵥ], t4_aaabaaab [aᵥ, dᵥ, bᵥ, cᵥ, iₒ, jₒ, lₒ, kₒ]], [(1, [])]⟩,
  -- line 245: kldc,ijba,adbcijkl
  ⟨1/16, [g_abab [kₒ, lₒ, dᵥ, cᵥ], l2_aaaa [iₒ, jₒ, bᵥ, aᵥ], t4_aaabaaab [aᵥ, dᵥ, bᵥ, cᵥ, iₒ, jₒ, kₒ, lₒ]], [(1, [])]⟩,
  -- line 248: lkcd,ijba,bacdijlk
  ⟨1/16, [g_bbbb [lₒ, kₒ, cᵥ, dᵥ], l2_aaaa [iₒ, jₒ, bᵥ, aᵥ], t4_aabbaabb [bᵥ, aᵥ, cᵥ, dᵥ, iₒ, jₒ, lₒ, kₒ]], [(1, [])]⟩,
  -- line 251: lkcd,ijba,cdbaiklj
  ⟨-1/16, [g_aaaa [lₒ, kₒ, cᵥ, dᵥ], l2_abab [iₒ, jₒ, bᵥ, aᵥ], t4_aaabaaab [cᵥ, dᵥ, bᵥ, aᵥ, iₒ, kₒ, lₒ, jₒ]], [(1, [])]⟩,
  -- line 254: lkcd,ijba,cbdailjk
  ⟨1/16, [g_abab [lₒ, kₒ, cᵥ, dᵥ], l2_abab [iₒ, jₒ, bᵥ, aᵥ], t4_aabbaabb [cᵥ, bᵥ, dᵥ, aᵥ, iₒ, lₒ, jₒ, kₒ]], [(1, [])]⟩,
  -- line 257: klcd,ijba,cbdaiklj
  ⟨-1/16, [g_abab [kₒ, lₒ, cᵥ, dᵥ], l2_abab [iₒ, jₒ, bᵥ, aᵥ], t4_aabbaabb [cᵥ, bᵥ, dᵥ, aᵥ, iₒ, kₒ, lₒ, jₒ]], [(1, [])]⟩,
  -- line 260: lkdc,ijba,bdcailjk
  ⟨-1/16, [g_abab [lₒ, kₒ, dᵥ, cᵥ], l2_abab [iₒ, jₒ, bᵥ, aᵥ], t4_aabbaabb [bᵥ, dᵥ, cᵥ, aᵥ, iₒ, lₒ, jₒ, kₒ]], [(1, [])]⟩,
  -- line 263: kldc,ijba,bdcaiklj
  ⟨1/16, [g_abab [kₒ, lₒ, dᵥ, cᵥ], l2_abab [iₒ, jₒ, bᵥ, aᵥ], t4_aabbaabb [bᵥ, dᵥ, cᵥ, aᵥ, iₒ, kₒ, lₒ, jₒ]], [(1, [])]⟩,
  -- line 266: lkcd,ijba,bdcaijlk
  ⟨-1/16, [g_bbbb [lₒ, kₒ, cᵥ, dᵥ], l2_abab [iₒ, jₒ, bᵥ, aᵥ], t4_abbbabbb [bᵥ, dᵥ, cᵥ, aᵥ, iₒ, jₒ, lₒ, kₒ]], [(1, [])]⟩,
  -- line 269: lkcd,ijab,cdabiklj
  ⟨-1/16, [g_aaaa [lₒ, kₒ, cᵥ, dᵥ], l2_abab [iₒ, jₒ, aᵥ, bᵥ], t4_aaabaaab [cᵥ, dᵥ, aᵥ, bᵥ, iₒ, kₒ, lₒ, jₒ]], [(1, [])]⟩,
  -- line 272: lkcd,ijab,cabdiljk
  ⟨-1/16, [g_abab [lₒ, kₒ, cᵥ, dᵥ], l2_abab [iₒ, jₒ, aᵥ, bᵥ], t4_aabbaabb [cᵥ, aᵥ, bᵥ, dᵥ, iₒ, lₒ, jₒ, kₒ]], [(1, [])]⟩,
  -- line 275: klcd,ijab,cabdiklj
  ⟨1/16, [g_abab [kₒ, lₒ, cᵥ, dᵥ], l2_abab [iₒ, jₒ, aᵥ, bᵥ], t4_aabbaabb [cᵥ, aᵥ, bᵥ, dᵥ, iₒ, kₒ, lₒ, jₒ]], [(1, [])]⟩,
  -- line 278: lkdc,ijab,adbciljk
  ⟨1/16, [g_abab [lₒ, kₒ, dᵥ, cᵥ], l2_abab [iₒ, jₒ, aᵥ, bᵥ], t4_aabbaabb [aᵥ, dᵥ, bᵥ, cᵥ, iₒ, lₒ, jₒ, kₒ]], [(1, [])]⟩,
  -- line 281: kldc,ijab,adbciklj
  ⟨-1/16, [g_abab [kₒ, lₒ, dᵥ, cᵥ], l2_abab [iₒ, jₒ, aᵥ, bᵥ], t4_aabbaabb [aᵥ, dᵥ, bᵥ, cᵥ, iₒ, kₒ, lₒ, jₒ]], [(1, [])]⟩,
  -- line 284: lkcd,ijab,adbcijlk
  ⟨1/16, [g_bbbb [lₒ, kₒ, cᵥ, dᵥ], l2_abab [iₒ, jₒ, aᵥ, bᵥ], t4_abbbabbb [aᵥ, dᵥ, bᵥ, cᵥ, iₒ, jₒ, lₒ, kₒ]], [(1, [])]⟩,
  -- line 287: lkcd,jiba,cdbakjli
  ⟨1/16, [g_aaaa [lₒ, kₒ, cᵥ, dᵥ], l2_abab [jₒ, iₒ, bᵥ, aᵥ], t4_aaabaaab [cᵥ, dᵥ, bᵥ, aᵥ, kₒ, jₒ, lₒ, iₒ]], [(1, [])]⟩,
  -- line 290: lkcd,jiba,cbdaljik
  ⟨-1/16, [g_abab [lₒ, kₒ, cᵥ, dᵥ], l2_abab [jₒ, iₒ, bᵥ, aᵥ], t4_aabbaabb [cᵥ, bᵥ, dᵥ, aᵥ, lₒ, jₒ, iₒ, kₒ]], [(1, [])]⟩,
  -- line 293: klcd,jiba,cbdakjli
  ⟨1/16, [g_abab [kₒ, lₒ, cᵥ, dᵥ], l2_abab [jₒ, iₒ, bᵥ, aᵥ], t4_aabbaabb [cᵥ, bᵥ, dᵥ, aᵥ, kₒ, jₒ, lₒ, iₒ]], [(1, [])]⟩,
  -- line 296: lkdc,jiba,bdcaljik
  ⟨1/16, [g_abab [lₒ, kₒ, dᵥ, cᵥ], l2_abab [jₒ, iₒ, bᵥ, aᵥ], t4_aabbaabb [bᵥ, dᵥ, cᵥ, aᵥ, lₒ, jₒ, iₒ, kₒ]], [(1, [])]⟩,
  -- line 299: kldc,jiba,bdcakjli
  ⟨-1/16, [g_abab [kₒ, lₒ, dᵥ, cᵥ], l2_abab [jₒ, iₒ, bᵥ, aᵥ], t4_aabbaabb [bᵥ, dᵥ, cᵥ, aᵥ, kₒ, jₒ, lₒ, iₒ]], [(1, [])]⟩,
  -- line 302: lkcd,jiba,bdcajilk
  ⟨-1/16, [g_bbbb [lₒ, kₒ, cᵥ, dᵥ], l2_abab [jₒ, iₒ, bᵥ, aᵥ], t4_abbbabbb [bᵥ, dᵥ, cᵥ, aᵥ, jₒ, iₒ, lₒ, kₒ]], [(1, [])]⟩,
  -- line 305: lkcd,jiab,cdabkjli
  ⟨1/16, [g_aaaa [lₒ, kₒ, cᵥ, dᵥ], l2_abab [jₒ, iₒ, aᵥ, bᵥ], t4_aaabaaab [cᵥ, dᵥ, aᵥ, bᵥ, kₒ, jₒ, lₒ, iₒ]], [(1, [])]⟩,
  -- line 308: lkcd,jiab,cabdljik
  ⟨1/16, [g_abab [lₒ, kₒ, cᵥ, dᵥ], l2_abab [jₒ, iₒ, aᵥ, bᵥ], t4_aabbaabb [cᵥ, aᵥ, bᵥ, dᵥ, lₒ, jₒ, iₒ, kₒ]], [(1, [])]⟩,
  -- line 311: klcd,jiab,cabdkjli
  ⟨-1/16, [g_abab [kₒ, lₒ, cᵥ, dᵥ], l2_abab [jₒ, iₒ, aᵥ, bᵥ], t4_aabbaabb [cᵥ, aᵥ, bᵥ, dᵥ, kₒ, jₒ, lₒ, iₒ]], [(1, [])]⟩,
  -- line 314: lkdc,jiab,adbcljik
  ⟨-1/16, [g_abab [lₒ, kₒ, dᵥ, cᵥ], l2_abab [jₒ, iₒ, aᵥ, bᵥ], t4_aabbaabb [aᵥ, dᵥ, bᵥ, cᵥ, lₒ, jₒ, iₒ, kₒ]], [(1, [])]⟩,
  -- line 317: kldc,jiab,adbckjli
  ⟨1/16, [g_abab [kₒ, lₒ, dᵥ, cᵥ], l2_abab [jₒ, iₒ, aᵥ, bᵥ], t4_aabbaabb [aᵥ, dᵥ, bᵥ, cᵥ, kₒ, jₒ, lₒ, iₒ]], [(1, [])]⟩,
  -- line 320: lkcd,jiab,adbcjilk
  ⟨1/16, [g_bbbb [lₒ, kₒ, cᵥ, dᵥ], l2_abab [jₒ, iₒ, aᵥ, bᵥ], t4_abbbabbb [aᵥ, dᵥ, bᵥ, cᵥ, jₒ, iₒ, lₒ, kₒ]], [(1, [])]⟩,
  -- line 323: lkcd,ijba,cdbalkij
  ⟨1/16, [g_aaaa [lₒ, kₒ, cᵥ, dᵥ], l2_bbbb [iₒ, jₒ, bᵥ, aᵥ], t4_aabbaabb [cᵥ, dᵥ, bᵥ, aᵥ, lₒ, kₒ, iₒ, jₒ]], [(1, [])]⟩,
  -- line 326: lkcd,ijba,cdbaljik
  ⟨-1/16, [g_abab [lₒ, kₒ, cᵥ, dᵥ], l2_bbbb [iₒ, jₒ, bᵥ, aᵥ], t4_abbbabbb [cᵥ, dᵥ, bᵥ, aᵥ, lₒ, jₒ, iₒ, kₒ]], [(1, [])]⟩,
  -- line 329: klcd,ijba,cdbakjli
  ⟨1/16, [g_abab [kₒ, lₒ, cᵥ, dᵥ], l2_bbbb [iₒ, jₒ, bᵥ, aᵥ], t4_abbbabbb [cᵥ, dᵥ, bᵥ, aᵥ, kₒ, jₒ, lₒ, iₒ]], [(1, [])]⟩,
  -- line 332: lkdc,ijba,dcbaljik
  ⟨-1/16, [g_abab [lₒ, kₒ, dᵥ, cᵥ], l2_bbbb [iₒ, jₒ, bᵥ, aᵥ], t4_abbbabbb [dᵥ, cᵥ, bᵥ, aᵥ, lₒ, jₒ, iₒ, kₒ]], [(1, [])]⟩,
  -- line 335: kldc,ijba,dcbakjli
  ⟨1/16, [g_abab [kₒ, lₒ, dᵥ, cᵥ], l2_bbbb [iₒ, jₒ, bᵥ, aᵥ], t4_abbbabbb [dᵥ, cᵥ, bᵥ, aᵥ, kₒ, jₒ, lₒ, iₒ]], [(1, [])]⟩,
  -- line 338: lkcd,ijba,cdbaijlk
  ⟨1/16, [g_bbbb [lₒ, kₒ, cᵥ, dᵥ], l2_bbbb [iₒ, jₒ, bᵥ, aᵥ], t4_bbbbbbbb [cᵥ, dᵥ, bᵥ, aᵥ, iₒ, jₒ, lₒ, kₒ]], [(1, [])]⟩
  ]

end Verif.Gen
