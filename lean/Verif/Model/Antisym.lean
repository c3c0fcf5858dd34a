import Verif.Ein.Anti
import Verif.Gen.Antisym
import Verif.Gen.Antisym2

/-!
# The antisymmetrising functions

`tamps.py` 53-692 `antisym_T2`, `antisym_T3`, `antisym_T4` and `wicked_T3corr.py` 146-195 `antisym_T3`,
`antisym_T2`. Each builds its result as a sum of `einsum("ijab->jiab", R)` calls with signs. The tables of signs
and transposes are read off the text by `/verif/tools/ein.py` (`Verif/Gen/Antisym.lean`); here they act on arrays,
written as functions of the index list.
-/

namespace Verif.UT2

open Verif.Ein

variable {I K : Type} [Field K] [Inhabited I]

/-- `tamps.py` 53-61: `antisym_T2(Roovv)`; also bound as `antisym_t2` by the callers. -/
def antisym_T2 (R : List I → K) : List I → K := antisym Gen.tamps_antisym_T2 R

/-- `tamps.py` 65-107: `antisym_T3(Rooovvv)`. -/
def antisym_T3 (R : List I → K) : List I → K := antisym Gen.tamps_antisym_T3 R

/-- `tamps.py` 110-692: `antisym_T4(Roooovvvv)`. -/
def antisym_T4 (R : List I → K) : List I → K := antisym Gen.tamps_antisym_T4 R

/-- `wicked_T3corr.py` 188-195: `antisym_T2(Roovv)`. -/
def wicked_antisym_T2 (R : List I → K) : List I → K := antisym Gen.wicked_antisym_T2 R

/-- `wicked_T3corr.py` 146-185: `antisym_T3(Rooovvv)`. -/
def wicked_antisym_T3 (R : List I → K) : List I → K := antisym Gen.wicked_antisym_T3 R

/-- `antisym_t4resids.py` 125-132: `antisymmetrize_residual_2_2(Roovv, nocc, nvir)`. -/
def antisymmetrize_residual_2_2 (R : List I → K) : List I → K := antisym Gen.t4resids_antisymmetrize_residual_2_2 R

/-- `antisym_t4resids.py` 475-1054: `antisym_t4_residual(Roooovvvv,nocc,nvirt)`. -/
def antisym_t4_residual (R : List I → K) : List I → K := antisym Gen.t4resids_antisym_t4_residual R

/-- `antisym_t4resids.py` 149-198: `antisym_T3(Roooovvvv)`, which acts on arrays with two and four axes. -/
def t4resids_antisym_T3 (R : List I → K) : List I → K := antisym Gen.t4resids_antisym_T3 R

end Verif.UT2
