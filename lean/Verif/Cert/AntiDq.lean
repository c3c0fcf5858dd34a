import Verif.Ein.Ops2
import Verif.Gen.Ccdq

/-! Written by `/verif/tools/gen.py`. Checks of einsum programs. -/

set_option maxRecDepth 100000

namespace Verif.Cert

open Verif.Ein Verif.Ein.N


open Verif.Gen

def ccdq_t2_anti0_cert_0 : List Nat := [67903552,
  67903552,
  67895362,
  67895362,
  67379392,
  67379392,
  67371202,
  67371202,
  5369503808,
  5369503808,
  5369495618,
  5369495618,
  5368979648,
  5368979648,
  5368971458,
  5368971458,
  31066673651776,
  31066673651776,
  31066673643586,
  31066673643586,
  31066673127616,
  31066673127616,
  31066673119426,
  31066673119426,
  31204079050816,
  31204079050816,
  31204079042626,
  31204079042626,
  31204078526656,
  31204078526656,
  31204078518466,
  31204078518466,
  412384763968,
  412384763968,
  412384755778,
  412384755778,
  412384239808,
  412384239808,
  412384231618,
  412384231618,
  31204079050816,
  31204079050816,
  31204079042626,
  31204079042626,
  22410132988096,
  22410132988096,
  22410132979906,
  22410132979906,
  31204079050816,
  31204079050816,
  31204079042626,
  31204079042626,
  22272727589056,
  22272727589056,
  22272727580866,
  22272727580866,
  5436612672,
  5436612672,
  5436604482,
  5436604482,
  5436088512,
  5436088512,
  5436080322,
  5436080322,
  30791695081536,
  30791695081536,
  30791695073346,
  30791695073346,
  30791694557376,
  30791694557376,
  30791694549186,
  30791694549186,
  31204079050816,
  31204079050816,
  31204079042626,
  31204079042626,
  31204078526656,
  31204078526656,
  31204078518466,
  31204078518466,
  794688,
  794688,
  786498,
  786498,
  270528,
  270528,
  262338,
  262338,
  67379392,
  67379392,
  67371202,
  67371202,
  67903552,
  67903552,
  67895362,
  67895362,
  5368979648,
  5368979648,
  5368971458,
  5368971458,
  5369503808,
  5369503808,
  5369495618,
  5369495618,
  31066673127616,
  31066673127616,
  31066673119426,
  31066673119426,
  31066673651776,
  31066673651776,
  31066673643586,
  31066673643586,
  31204078526656,
  31204078526656,
  31204078518466,
  31204078518466,
  31204079050816,
  31204079050816,
  31204079042626,
  31204079042626,
  412384239808,
  412384239808,
  412384231618,
  412384231618,
  412384763968,
  412384763968,
  412384755778,
  412384755778,
  22410132988096,
  22410132988096,
  22410132979906,
  22410132979906,
  31204079050816,
  31204079050816,
  31204079042626,
  31204079042626,
  22272727589056,
  22272727589056,
  22272727580866,
  22272727580866,
  31204079050816,
  31204079050816,
  31204079042626,
  31204079042626,
  5436088512,
  5436088512,
  5436080322,
  5436080322,
  5436612672,
  5436612672,
  5436604482,
  5436604482,
  30791694557376,
  30791694557376,
  30791694549186,
  30791694549186,
  30791695081536,
  30791695081536,
  30791695073346,
  30791695073346,
  31204078526656,
  31204078526656,
  31204078518466,
  31204078518466,
  31204079050816,
  31204079050816,
  31204079042626,
  31204079042626,
  270528,
  270528,
  262338,
  262338,
  794688,
  794688,
  786498,
  786498]

/-- Check ccdq_t2_anti0. Antisymmetry of ccdq_t2 under [1, 0, 2, 3]. -/
theorem ccdq_t2_anti0 : isZero kinds [aᵥ, bᵥ, iₒ, jₒ] 16
    (Prog.outs [2, 3, 0, 1] (ccdq_t2eqns) ++ (Prog.outs [1, 0, 2, 3] (Prog.outs [2, 3, 0, 1] (ccdq_t2eqns))))
    (ccdq_t2_anti0_cert_0) = true := by decide +kernel

def ccdq_t2_anti1_cert_0 : List Nat := [67903552,
  67903552,
  67895362,
  67895362,
  67379392,
  67379392,
  67371202,
  67371202,
  5369503808,
  5369503808,
  5369495618,
  5369495618,
  5368979648,
  5368979648,
  5368971458,
  5368971458,
  31066673651776,
  31066673651776,
  31066673643586,
  31066673643586,
  31066673127616,
  31066673127616,
  31066673119426,
  31066673119426,
  31204079050816,
  31204079050816,
  31204079042626,
  31204079042626,
  31204078526656,
  31204078526656,
  31204078518466,
  31204078518466,
  412384763968,
  412384763968,
  412384755778,
  412384755778,
  412384239808,
  412384239808,
  412384231618,
  412384231618,
  31204079050816,
  31204079050816,
  31204079042626,
  31204079042626,
  22410132988096,
  22410132988096,
  22410132979906,
  22410132979906,
  31204079050816,
  31204079050816,
  31204079042626,
  31204079042626,
  22272727589056,
  22272727589056,
  22272727580866,
  22272727580866,
  5436612672,
  5436612672,
  5436604482,
  5436604482,
  5436088512,
  5436088512,
  5436080322,
  5436080322,
  30791695081536,
  30791695081536,
  30791695073346,
  30791695073346,
  30791694557376,
  30791694557376,
  30791694549186,
  30791694549186,
  31204079050816,
  31204079050816,
  31204079042626,
  31204079042626,
  31204078526656,
  31204078526656,
  31204078518466,
  31204078518466,
  794688,
  794688,
  786498,
  786498,
  270528,
  270528,
  262338,
  262338,
  67895362,
  67895362,
  67903552,
  67903552,
  67371202,
  67371202,
  67379392,
  67379392,
  5369495618,
  5369495618,
  5369503808,
  5369503808,
  5368971458,
  5368971458,
  5368979648,
  5368979648,
  31066673643586,
  31066673643586,
  31066673651776,
  31066673651776,
  31066673119426,
  31066673119426,
  31066673127616,
  31066673127616,
  31204079042626,
  31204079042626,
  31204079050816,
  31204079050816,
  31204078518466,
  31204078518466,
  31204078526656,
  31204078526656,
  412384755778,
  412384755778,
  412384763968,
  412384763968,
  412384231618,
  412384231618,
  412384239808,
  412384239808,
  31204079042626,
  31204079042626,
  31204079050816,
  31204079050816,
  22410132979906,
  22410132979906,
  22410132988096,
  22410132988096,
  31204079042626,
  31204079042626,
  31204079050816,
  31204079050816,
  22272727580866,
  22272727580866,
  22272727589056,
  22272727589056,
  5436604482,
  5436604482,
  5436612672,
  5436612672,
  5436080322,
  5436080322,
  5436088512,
  5436088512,
  30791695073346,
  30791695073346,
  30791695081536,
  30791695081536,
  30791694549186,
  30791694549186,
  30791694557376,
  30791694557376,
  31204079042626,
  31204079042626,
  31204079050816,
  31204079050816,
  31204078518466,
  31204078518466,
  31204078526656,
  31204078526656,
  786498,
  786498,
  794688,
  794688,
  262338,
  262338,
  270528,
  270528]

/-- Check ccdq_t2_anti1. Antisymmetry of ccdq_t2 under [0, 1, 3, 2]. -/
theorem ccdq_t2_anti1 : isZero kinds [aᵥ, bᵥ, iₒ, jₒ] 16
    (Prog.outs [2, 3, 0, 1] (ccdq_t2eqns) ++ (Prog.outs [0, 1, 3, 2] (Prog.outs [2, 3, 0, 1] (ccdq_t2eqns))))
    (ccdq_t2_anti1_cert_0) = true := by decide +kernel

end Verif.Cert
