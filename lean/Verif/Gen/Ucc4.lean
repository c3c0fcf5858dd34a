import Verif.Ein.Names
import Verif.Gen.Antisym

/-! Written by `/verif/tools/gen.py`. Programs read from `/repo/UT2`. -/

set_option maxRecDepth 100000

namespace Verif.Gen

open Verif.Ein Verif.Ein.N


/-- `UT2/drive_ucc4.py` 97-112, `t1_residEqns`. -/
def t1_residEqns : Prog := [
  -- line 99: kjbi,bakj->ai
  ⟨-1/2, [g [kₒ, jₒ, bᵥ, iₒ], t2 [bᵥ, aᵥ, kₒ, jₒ]], [(1, [aᵥ, iₒ])]⟩,
  -- line 102: jabc,bcij->ai
  ⟨-1/2, [g [jₒ, aᵥ, bᵥ, cᵥ], t2 [bᵥ, cᵥ, iₒ, jₒ]], [(1, [aᵥ, iₒ])]⟩,
  -- line 105: ai->ai
  ⟨1, [f [aᵥ, iₒ]], [(1, [aᵥ, iₒ])]⟩,
  -- line 108: ji,aj->ai
  ⟨-1, [f [jₒ, iₒ], t1 [aᵥ, jₒ]], [(1, [aᵥ, iₒ])]⟩,
  -- line 111: ab,bi->ai
  ⟨1, [f [aᵥ, bᵥ], t1 [bᵥ, iₒ]], [(1, [aᵥ, iₒ])]⟩
  ]

/-- `UT2/drive_ucc4.py` 123-167, `t3_resid`. -/
def t3_resid : Prog := [
  -- line 125: lk,abcijl->abcijk
  ⟨-1, [f [lₒ, kₒ], t3 [aᵥ, bᵥ, cᵥ, iₒ, jₒ, lₒ]], [(1, [aᵥ, bᵥ, cᵥ, iₒ, jₒ, kₒ]), (-1, [aᵥ, bᵥ, cᵥ, iₒ, kₒ, jₒ])]⟩,
  -- line 129: li,abcjkl->abcijk
  ⟨-1, [f [lₒ, iₒ], t3 [aᵥ, bᵥ, cᵥ, jₒ, kₒ, lₒ]], [(1, [aᵥ, bᵥ, cᵥ, iₒ, jₒ, kₒ])]⟩,
  -- line 132: ad,dbcijk->abcijk
  ⟨1, [f [aᵥ, dᵥ], t3 [dᵥ, bᵥ, cᵥ, iₒ, jₒ, kₒ]], [(1, [aᵥ, bᵥ, cᵥ, iₒ, jₒ, kₒ]), (-1, [bᵥ, aᵥ, cᵥ, iₒ, jₒ, kₒ])]⟩,
  -- line 136: cd,dabijk->abcijk
  ⟨1, [f [cᵥ, dᵥ], t3 [dᵥ, aᵥ, bᵥ, iₒ, jₒ, kₒ]], [(1, [aᵥ, bᵥ, cᵥ, iₒ, jₒ, kₒ])]⟩,
  -- line 139: lajk,bcil->abcijk
  ⟨-1, [g [lₒ, aᵥ, jₒ, kₒ], t2 [bᵥ, cᵥ, iₒ, lₒ]], [(1, [aᵥ, bᵥ, cᵥ, iₒ, jₒ, kₒ]), (-1, [aᵥ, bᵥ, cᵥ, jₒ, iₒ, kₒ]), (-1, [bᵥ, aᵥ, cᵥ, iₒ, jₒ, kₒ]), (1, [bᵥ, aᵥ, cᵥ, jₒ, iₒ, kₒ])]⟩,
  -- line 143: laij,bckl->abcijk
  ⟨-1, [g [lₒ, aᵥ, iₒ, jₒ], t2 [bᵥ, cᵥ, kₒ, lₒ]], [(1, [aᵥ, bᵥ, cᵥ, iₒ, jₒ, kₒ]), (-1, [bᵥ, aᵥ, cᵥ, iₒ, jₒ, kₒ])]⟩,
  -- line 147: lcjk,abil->abcijk
  ⟨-1, [g [lₒ, cᵥ, jₒ, kₒ], t2 [aᵥ, bᵥ, iₒ, lₒ]], [(1, [aᵥ, bᵥ, cᵥ, iₒ, jₒ, kₒ]), (-1, [aᵥ, bᵥ, cᵥ, jₒ, iₒ, kₒ])]⟩,
  -- line 151: lcij,abkl->abcijk
  ⟨-1, [g [lₒ, cᵥ, iₒ, jₒ], t2 [aᵥ, bᵥ, kₒ, lₒ]], [(1, [aᵥ, bᵥ, cᵥ, iₒ, jₒ, kₒ])]⟩,
  -- line 154: abdk,dcij->abcijk
  ⟨-1, [g [aᵥ, bᵥ, dᵥ, kₒ], t2 [dᵥ, cᵥ, iₒ, jₒ]], [(1, [aᵥ, bᵥ, cᵥ, iₒ, jₒ, kₒ]), (-1, [aᵥ, bᵥ, cᵥ, iₒ, kₒ, jₒ]), (-1, [aᵥ, cᵥ, bᵥ, iₒ, jₒ, kₒ]), (1, [aᵥ, cᵥ, bᵥ, iₒ, kₒ, jₒ])]⟩,
  -- line 158: abdi,dcjk->abcijk
  ⟨-1, [g [aᵥ, bᵥ, dᵥ, iₒ], t2 [dᵥ, cᵥ, jₒ, kₒ]], [(1, [aᵥ, bᵥ, cᵥ, iₒ, jₒ, kₒ]), (-1, [aᵥ, cᵥ, bᵥ, iₒ, jₒ, kₒ])]⟩,
  -- line 162: bcdk,daij->abcijk
  ⟨-1, [g [bᵥ, cᵥ, dᵥ, kₒ], t2 [dᵥ, aᵥ, iₒ, jₒ]], [(1, [aᵥ, bᵥ, cᵥ, iₒ, jₒ, kₒ]), (-1, [aᵥ, bᵥ, cᵥ, iₒ, kₒ, jₒ])]⟩,
  -- line 166: bcdi,dajk->abcijk
  ⟨-1, [g [bᵥ, cᵥ, dᵥ, iₒ], t2 [dᵥ, aᵥ, jₒ, kₒ]], [(1, [aᵥ, bᵥ, cᵥ, iₒ, jₒ, kₒ])]⟩
  ]

/-- `UT2/drive_ucc4.py` 175-193, `offset_t2resid_t2squared`. -/
def offset_t2resid_t2squared : Prog := [
  -- line 177: lkcd,cdjk,abil->abij
  ⟨-1/4, [g [lₒ, kₒ, cᵥ, dᵥ], t2 [cᵥ, dᵥ, jₒ, kₒ], t2 [aᵥ, bᵥ, iₒ, lₒ]], [(1, [aᵥ, bᵥ, iₒ, jₒ]), (-1, [aᵥ, bᵥ, jₒ, iₒ])]⟩,
  -- line 181: lkcd,cdij,ablk->abij
  ⟨1/8, [g [lₒ, kₒ, cᵥ, dᵥ], t2 [cᵥ, dᵥ, iₒ, jₒ], t2 [aᵥ, bᵥ, lₒ, kₒ]], [(1, [aᵥ, bᵥ, iₒ, jₒ])]⟩,
  -- line 184: lkcd,calk,dbij->abij
  ⟨-1/4, [g [lₒ, kₒ, cᵥ, dᵥ], t2 [cᵥ, aᵥ, lₒ, kₒ], t2 [dᵥ, bᵥ, iₒ, jₒ]], [(1, [aᵥ, bᵥ, iₒ, jₒ])]⟩,
  -- line 187: lkcd,cajk,dbil->abij
  ⟨1/2, [g [lₒ, kₒ, cᵥ, dᵥ], t2 [cᵥ, aᵥ, jₒ, kₒ], t2 [dᵥ, bᵥ, iₒ, lₒ]], [(1, [aᵥ, bᵥ, iₒ, jₒ]), (-1, [aᵥ, bᵥ, jₒ, iₒ])]⟩,
  -- line 191: lkcd,caij,dblk->abij
  ⟨-1/4, [g [lₒ, kₒ, cᵥ, dᵥ], t2 [cᵥ, aᵥ, iₒ, jₒ], t2 [dᵥ, bᵥ, lₒ, kₒ]], [(1, [aᵥ, bᵥ, iₒ, jₒ])]⟩
  ]

/-- `UT2/drive_ucc4.py` 195-213, `offset_t2resid_t2dag_w_t2`. -/
def offset_t2resid_t2dag_w_t2 : Prog := [
  -- line 197: lkcd,cdjk,abil->abij
  ⟨-1/2, [l2 [lₒ, kₒ, cᵥ, dᵥ], g [cᵥ, dᵥ, jₒ, kₒ], t2 [aᵥ, bᵥ, iₒ, lₒ]], [(1, [aᵥ, bᵥ, iₒ, jₒ]), (-1, [aᵥ, bᵥ, jₒ, iₒ])]⟩,
  -- line 201: lkcd,cdij,ablk->abij
  ⟨1/4, [l2 [lₒ, kₒ, cᵥ, dᵥ], g [cᵥ, dᵥ, iₒ, jₒ], t2 [aᵥ, bᵥ, lₒ, kₒ]], [(1, [aᵥ, bᵥ, iₒ, jₒ])]⟩,
  -- line 204: lkcd,calk,dbij->abij
  ⟨-1/2, [l2 [lₒ, kₒ, cᵥ, dᵥ], g [cᵥ, aᵥ, lₒ, kₒ], t2 [dᵥ, bᵥ, iₒ, jₒ]], [(1, [aᵥ, bᵥ, iₒ, jₒ])]⟩,
  -- line 207: lkcd,cajk,dbil->abij
  ⟨1, [l2 [lₒ, kₒ, cᵥ, dᵥ], g [cᵥ, aᵥ, jₒ, kₒ], t2 [dᵥ, bᵥ, iₒ, lₒ]], [(1, [aᵥ, bᵥ, iₒ, jₒ]), (-1, [aᵥ, bᵥ, jₒ, iₒ])]⟩,
  -- line 211: lkcd,caij,dblk->abij
  ⟨-1/2, [l2 [lₒ, kₒ, cᵥ, dᵥ], g [cᵥ, aᵥ, iₒ, jₒ], t2 [dᵥ, bᵥ, lₒ, kₒ]], [(1, [aᵥ, bᵥ, iₒ, jₒ])]⟩
  ]

/-- `UT2/drive_ucc4.py` 215-237, `offset_t2resid_T1_T3`. -/
def offset_t2resid_T1_T3 : Prog := [
  -- line 220: kaij,bk->abij
  ⟨1, [g [kₒ, aᵥ, iₒ, jₒ], t1 [bᵥ, kₒ]], [(1, [aᵥ, bᵥ, iₒ, jₒ]), (-1, [bᵥ, aᵥ, iₒ, jₒ])]⟩,
  -- line 224: abcj,ci->abij
  ⟨1, [g [aᵥ, bᵥ, cᵥ, jₒ], t1 [cᵥ, iₒ]], [(1, [aᵥ, bᵥ, iₒ, jₒ]), (-1, [aᵥ, bᵥ, jₒ, iₒ])]⟩,
  -- line 230: lkcj,cabilk->abij
  ⟨1/2, [g [lₒ, kₒ, cᵥ, jₒ], t3 [cᵥ, aᵥ, bᵥ, iₒ, lₒ, kₒ]], [(1, [aᵥ, bᵥ, iₒ, jₒ]), (-1, [aᵥ, bᵥ, jₒ, iₒ])]⟩,
  -- line 234: kacd,cdbijk->abij
  ⟨1/2, [g [kₒ, aᵥ, cᵥ, dᵥ], t3 [cᵥ, dᵥ, bᵥ, iₒ, jₒ, kₒ]], [(1, [aᵥ, bᵥ, iₒ, jₒ]), (-1, [bᵥ, aᵥ, iₒ, jₒ])]⟩
  ]

end Verif.Gen
