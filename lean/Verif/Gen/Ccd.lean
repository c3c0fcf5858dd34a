import Verif.Ein.Names
import Verif.Gen.Antisym

/-! Written by `/verif/tools/gen.py`. Programs read from `/repo/UT2`. -/

set_option maxRecDepth 100000

namespace Verif.Gen

open Verif.Ein Verif.Ein.N


/-- `UT2/t2residEqnsSlow.py` 141-180, `ccd_t2residual`. -/
def ccd_t2residual : Prog := [
  -- line 143: kj,abik->abij
  ⟨-1, [f [kₒ, jₒ], t2 [aᵥ, bᵥ, iₒ, kₒ]], [(1, [aᵥ, bᵥ, iₒ, jₒ]), (-1, [aᵥ, bᵥ, jₒ, iₒ])]⟩,
  -- line 147: ac,cbij->abij
  ⟨1, [f [aᵥ, cᵥ], t2 [cᵥ, bᵥ, iₒ, jₒ]], [(1, [aᵥ, bᵥ, iₒ, jₒ]), (-1, [bᵥ, aᵥ, iₒ, jₒ])]⟩,
  -- line 151: abij->abij
  ⟨1, [g [aᵥ, bᵥ, iₒ, jₒ]], [(1, [aᵥ, bᵥ, iₒ, jₒ])]⟩,
  -- line 154: lkij,ablk->abij
  ⟨1/2, [g [lₒ, kₒ, iₒ, jₒ], t2 [aᵥ, bᵥ, lₒ, kₒ]], [(1, [aᵥ, bᵥ, iₒ, jₒ])]⟩,
  -- line 157: kacj,cbik->abij
  ⟨1, [g [kₒ, aᵥ, cᵥ, jₒ], t2 [cᵥ, bᵥ, iₒ, kₒ]], [(1, [aᵥ, bᵥ, iₒ, jₒ]), (-1, [aᵥ, bᵥ, jₒ, iₒ]), (-1, [bᵥ, aᵥ, iₒ, jₒ]), (1, [bᵥ, aᵥ, jₒ, iₒ])]⟩,
  -- line 161: abcd,cdij->abij
  ⟨1/2, [g [aᵥ, bᵥ, cᵥ, dᵥ], t2 [cᵥ, dᵥ, iₒ, jₒ]], [(1, [aᵥ, bᵥ, iₒ, jₒ])]⟩,
  -- line 164: lkcd,cdjk,abil->abij
  ⟨-1/2, [g [lₒ, kₒ, cᵥ, dᵥ], t2 [cᵥ, dᵥ, jₒ, kₒ], t2 [aᵥ, bᵥ, iₒ, lₒ]], [(1, [aᵥ, bᵥ, iₒ, jₒ]), (-1, [aᵥ, bᵥ, jₒ, iₒ])]⟩,
  -- line 168: lkcd,cdij,ablk->abij
  ⟨1/4, [g [lₒ, kₒ, cᵥ, dᵥ], t2 [cᵥ, dᵥ, iₒ, jₒ], t2 [aᵥ, bᵥ, lₒ, kₒ]], [(1, [aᵥ, bᵥ, iₒ, jₒ])]⟩,
  -- line 171: lkcd,calk,dbij->abij
  ⟨-1/2, [g [lₒ, kₒ, cᵥ, dᵥ], t2 [cᵥ, aᵥ, lₒ, kₒ], t2 [dᵥ, bᵥ, iₒ, jₒ]], [(1, [aᵥ, bᵥ, iₒ, jₒ])]⟩,
  -- line 174: lkcd,cajk,dbil->abij
  ⟨1, [g [lₒ, kₒ, cᵥ, dᵥ], t2 [cᵥ, aᵥ, jₒ, kₒ], t2 [dᵥ, bᵥ, iₒ, lₒ]], [(1, [aᵥ, bᵥ, iₒ, jₒ]), (-1, [aᵥ, bᵥ, jₒ, iₒ])]⟩,
  -- line 178: lkcd,caij,dblk->abij
  ⟨-1/2, [g [lₒ, kₒ, cᵥ, dᵥ], t2 [cᵥ, aᵥ, iₒ, jₒ], t2 [dᵥ, bᵥ, lₒ, kₒ]], [(1, [aᵥ, bᵥ, iₒ, jₒ])]⟩
  ]

/-- `UT2/t2residEqnsSlow.py` 182-200, `doubles_resLCCDoffset`. -/
def doubles_resLCCDoffset : Prog := [
  -- line 184: lkcd,cdjk,abil->abij
  ⟨-1/2, [g [lₒ, kₒ, cᵥ, dᵥ], t2 [cᵥ, dᵥ, jₒ, kₒ], t2 [aᵥ, bᵥ, iₒ, lₒ]], [(1, [aᵥ, bᵥ, iₒ, jₒ]), (-1, [aᵥ, bᵥ, jₒ, iₒ])]⟩,
  -- line 188: lkcd,cdij,ablk->abij
  ⟨1/4, [g [lₒ, kₒ, cᵥ, dᵥ], t2 [cᵥ, dᵥ, iₒ, jₒ], t2 [aᵥ, bᵥ, lₒ, kₒ]], [(1, [aᵥ, bᵥ, iₒ, jₒ])]⟩,
  -- line 191: lkcd,calk,dbij->abij
  ⟨-1/2, [g [lₒ, kₒ, cᵥ, dᵥ], t2 [cᵥ, aᵥ, lₒ, kₒ], t2 [dᵥ, bᵥ, iₒ, jₒ]], [(1, [aᵥ, bᵥ, iₒ, jₒ])]⟩,
  -- line 194: lkcd,cajk,dbil->abij
  ⟨1, [g [lₒ, kₒ, cᵥ, dᵥ], t2 [cᵥ, aᵥ, jₒ, kₒ], t2 [dᵥ, bᵥ, iₒ, lₒ]], [(1, [aᵥ, bᵥ, iₒ, jₒ]), (-1, [aᵥ, bᵥ, jₒ, iₒ])]⟩,
  -- line 198: lkcd,caij,dblk->abij
  ⟨-1/2, [g [lₒ, kₒ, cᵥ, dᵥ], t2 [cᵥ, aᵥ, iₒ, jₒ], t2 [dᵥ, bᵥ, lₒ, kₒ]], [(1, [aᵥ, bᵥ, iₒ, jₒ])]⟩
  ]

/-- `UT2/t2energySlow.py` 101-120, `ccdEnergy`. -/
def ccdEnergy : Prog := [
  -- line 114: ii
  ⟨1, [f [iₒ, iₒ]], [(1, [])]⟩,
  -- line 116: jiji
  ⟨-1/2, [g [jₒ, iₒ, jₒ, iₒ]], [(1, [])]⟩,
  -- line 118: jiab,abji
  ⟨1/4, [g [jₒ, iₒ, aᵥ, bᵥ], t2 [aᵥ, bᵥ, jₒ, iₒ]], [(1, [])]⟩
  ]

/-- `UT2/t2energySlow.py` 95-99, `pccdEnergy`. -/
def pccdEnergy : Prog := [
  -- line 96: ii
  ⟨1, [f [iₒ, iₒ]], [(1, [])]⟩,
  -- line 97: jiji
  ⟨-1/2, [g [jₒ, iₒ, jₒ, iₒ]], [(1, [])]⟩,
  -- line 98: iiaa,aaii
  ⟨1/4, [g [iₒ, iₒ, aᵥ, aᵥ], t2 [aᵥ, aᵥ, iₒ, iₒ]], [(1, [])]⟩
  ]

end Verif.Gen
