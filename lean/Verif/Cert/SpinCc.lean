import Verif.Ein.Spin
import Verif.Gen.Ccsd
import Verif.Gen.Ccsdt
import Verif.Gen.Ccdq
import Verif.Gen.SiCcsdt
import Verif.Gen.SiCcdq

/-! Written by `/verif/tools/gen.py`. Checks of einsum programs. -/

set_option maxRecDepth 100000

namespace Verif.Cert

open Verif.Ein Verif.Ein.N


open Verif.Gen

def ccsd_energy_cert_0 : List Nat := [615656346818663737691860001564743965704370926101022604186692084441339402679643915803347910232576806887603562348544,
  0,
  615656346818663737691860001564743965704370926101022604186692084441339402679643915803347910232576806887603562348544,
  0,
  2,
  2,
  2,
  2,
  8192,
  8192,
  2,
  2,
  794688,
  794688,
  794688,
  794688,
  786498,
  786498,
  270528,
  270528,
  262338,
  262338,
  794688,
  794688,
  64,
  64,
  64,
  64,
  794688,
  794688,
  794688,
  794688,
  262338,
  262338,
  794688,
  794688,
  615656346818663737691860001564743965704370926101022604186692084441339402679643915803347910232576806887603562348544,
  0,
  615656346818663737691860001564743965704370926101022604186692084441339402679643915803347910232576806887603562348544,
  0,
  64,
  64,
  64,
  64,
  2,
  2,
  2,
  2,
  8192,
  8192,
  2,
  2,
  786498,
  786498,
  786498,
  786498,
  794688,
  794688,
  262338,
  262338,
  270528,
  270528,
  786498,
  786498,
  262338,
  262338,
  794688,
  794688,
  262338,
  262338,
  262338,
  262338]

/-- Check ccsd_energy. Spin-integrated CCSD energy. -/
theorem ccsd_energy : isZeroSpin kinds [] 4 []
    (spinorbitalCCSDE)
    (Prog.scale (-1) (ccsd_energy_with_spin))
    (ccsd_energy_cert_0) = true := by decide +kernel

def ccsdt_t1_aa_cert_0 : List Nat := [8256,
  8256,
  794688,
  794688,
  794688,
  794688,
  794688,
  794688,
  64,
  64,
  786496,
  786496,
  3256107072,
  3256107072,
  5436612672,
  5436612672,
  34357312,
  34357312,
  67903552,
  67903552,
  5436612672,
  5436612672,
  5436612672,
  5436612672,
  3289653312,
  3289653312,
  3222544448,
  3222544448,
  5369503808,
  5369503808,
  5436612672,
  5436612672,
  5436612672,
  5436612672,
  5403066432,
  5403066432,
  5436612672,
  5436612672,
  5436612672,
  5436612672,
  3256107072,
  3256107072,
  5436612672,
  5436612672,
  794688,
  794688,
  794688,
  794688,
  67903552,
  67903552,
  67903552,
  67903552,
  34357312,
  34357312,
  5369503808,
  5369503808,
  5369503808,
  5369503808,
  3222544448,
  3222544448,
  5436612672,
  5436612672,
  5436612672,
  5436612672,
  5403066432,
  5403066432,
  3289653312,
  3289653312,
  3256107072,
  3256107072,
  5436612672,
  5436612672,
  64,
  64,
  8256,
  8256,
  786496,
  786496,
  794688,
  794688,
  794688,
  794688,
  794688,
  794688,
  794688,
  794688,
  794688,
  794688,
  34357312,
  34357312,
  34357312,
  34357312,
  67903552,
  67903552,
  5369503808,
  5369503808,
  5369503808,
  5369503808,
  3222544448,
  3222544448,
  5403066432,
  5403066432,
  5403066432,
  5403066432,
  5436612672,
  5436612672,
  3256107072,
  3256107072,
  3289653312,
  3289653312,
  5403066432,
  5403066432,
  5436612672,
  5436612672,
  5436612672,
  5436612672,
  3256107072,
  3256107072,
  5436612672,
  5436612672,
  5403066432,
  5403066432,
  5403066432,
  5403066432,
  5436612672,
  5436612672,
  5436612672,
  5436612672,
  5436612672,
  5436612672,
  3289653312,
  3289653312,
  67903552,
  67903552,
  34357312,
  34357312,
  5369503808,
  5369503808,
  3222544448,
  3222544448,
  5436612672,
  5436612672,
  3256107072,
  3256107072]

/-- Check ccsdt_t1_aa.  -/
theorem ccsdt_t1_aa : isZeroSpin kinds [aᵥ, iₒ] 4 [false, false]
    (Prog.outs [1, 0] (ccsdt_t1eqns))
    (Prog.scale (-1) (ccsdt_t1_aa))
    (ccsdt_t1_aa_cert_0) = true := by decide +kernel

def ccsdt_t1_bb_cert_0 : List Nat := [8256,
  8256,
  794688,
  794688,
  794688,
  794688,
  794688,
  794688,
  64,
  64,
  786496,
  786496,
  3256107072,
  3256107072,
  3256107072,
  3256107072,
  34357312,
  34357312,
  34357312,
  34357312,
  5403066432,
  5403066432,
  3256107072,
  3256107072,
  5436612672,
  5436612672,
  3222544448,
  3222544448,
  3222544448,
  3222544448,
  3289653312,
  3289653312,
  3256107072,
  3256107072,
  5436612672,
  5436612672,
  5436612672,
  5436612672,
  5436612672,
  5436612672,
  3256107072,
  3256107072,
  5436612672,
  5436612672,
  794688,
  794688,
  794688,
  794688,
  67903552,
  67903552,
  34357312,
  34357312,
  67903552,
  67903552,
  5369503808,
  5369503808,
  3222544448,
  3222544448,
  5369503808,
  5369503808,
  5436612672,
  5436612672,
  5436612672,
  5436612672,
  5403066432,
  5403066432,
  3289653312,
  3289653312,
  3256107072,
  3256107072,
  5436612672,
  5436612672,
  64,
  64,
  8256,
  8256,
  786496,
  786496,
  794688,
  794688,
  794688,
  794688,
  794688,
  794688,
  794688,
  794688,
  794688,
  794688,
  34357312,
  34357312,
  67903552,
  67903552,
  34357312,
  34357312,
  5369503808,
  5369503808,
  3222544448,
  3222544448,
  5369503808,
  5369503808,
  5403066432,
  5403066432,
  5403066432,
  5403066432,
  5436612672,
  5436612672,
  3256107072,
  3256107072,
  3289653312,
  3289653312,
  5403066432,
  5403066432,
  5436612672,
  5436612672,
  5436612672,
  5436612672,
  3256107072,
  3256107072,
  5436612672,
  5436612672,
  3256107072,
  3256107072,
  3289653312,
  3289653312,
  5403066432,
  5403066432,
  5403066432,
  5403066432,
  3256107072,
  3256107072,
  5436612672,
  5436612672,
  67903552,
  67903552,
  67903552,
  67903552,
  5369503808,
  5369503808,
  5369503808,
  5369503808,
  5436612672,
  5436612672,
  5436612672,
  5436612672]

/-- Check ccsdt_t1_bb.  -/
theorem ccsdt_t1_bb : isZeroSpin kinds [aᵥ, iₒ] 4 [true, true]
    (Prog.outs [1, 0] (ccsdt_t1eqns))
    (Prog.scale (-1) (ccsdt_t1_bb))
    (ccsdt_t1_bb_cert_0) = true := by decide +kernel

def ccsdt_t2_aaaa_cert_0 : List Nat := [67903552,
  67903552,
  67895362,
  67895362,
  67379392,
  67379392,
  67371202,
  67371202,
  5436612672,
  5436612672,
  5436604482,
  5436604482,
  5436088512,
  5436088512,
  5436080322,
  5436080322,
  5436612672,
  5436612672,
  5436604482,
  5436604482,
  5436088512,
  5436088512,
  5436080322,
  5436080322,
  5436612672,
  5436612672,
  5436612672,
  5436612672,
  5436604482,
  5436604482,
  5436604482,
  5436604482,
  5436088512,
  5436088512,
  5436088512,
  5436088512,
  5436080322,
  5436080322,
  5436080322,
  5436080322,
  5369503808,
  5369503808,
  5369495618,
  5369495618,
  5368979648,
  5368979648,
  5368971458,
  5368971458,
  31204079050816,
  31204079050816,
  22410133504066,
  22410133504066,
  31066673127616,
  31066673127616,
  22272727580866,
  22272727580866,
  417753473088,
  417753473088,
  417753464898,
  417753464898,
  280347549888,
  280347549888,
  280347541698,
  280347541698,
  31204079050816,
  31204079050816,
  31204079042626,
  31204079042626,
  31066673127616,
  31066673127616,
  31066673119426,
  31066673119426,
  412384763968,
  412384763968,
  412384755778,
  412384755778,
  274978840768,
  274978840768,
  274978832578,
  274978832578,
  30791762190400,
  30791762190400,
  21997816643650,
  21997816643650,
  30791761666240,
  30791761666240,
  21997816119490,
  21997816119490,
  31204079050816,
  31204079050816,
  31204079050816,
  31204079050816,
  31204079042626,
  31204079042626,
  31204079042626,
  31204079042626,
  31204078526656,
  31204078526656,
  31204078526656,
  31204078526656,
  31204078518466,
  31204078518466,
  31204078518466,
  31204078518466,
  5436612672,
  5436612672,
  5436604482,
  5436604482,
  5436088512,
  5436088512,
  5436080322,
  5436080322,
  31066673651776,
  31066673651776,
  22410133512256,
  22410133512256,
  31066673643586,
  31066673643586,
  22410133504066,
  22410133504066,
  31066673127616,
  31066673127616,
  22410132988096,
  22410132988096,
  31066673119426,
  31066673119426,
  22410132979906,
  22410132979906,
  417753473088,
  417753473088,
  417753473088,
  417753473088,
  417753464898,
  417753464898,
  417753464898,
  417753464898,
  417752948928,
  417752948928,
  417752948928,
  417752948928,
  417752940738,
  417752940738,
  417752940738,
  417752940738,
  30791762190400,
  30791762190400,
  30791762182210,
  30791762182210,
  30791761666240,
  30791761666240,
  30791761658050,
  30791761658050,
  31204079050816,
  31204079050816,
  31204079050816,
  31204079050816,
  22410133512256,
  22410133512256,
  31204079042626,
  31204079042626,
  31204079042626,
  31204079042626,
  22410133504066,
  22410133504066,
  31204078526656,
  31204078526656,
  31204078526656,
  31204078526656,
  22410132988096,
  22410132988096,
  31204078518466,
  31204078518466,
  31204078518466,
  31204078518466,
  22410132979906,
  22410132979906,
  67903552,
  67903552,
  67895362,
  67895362,
  67379392,
  67379392,
  67371202,
  67371202,
  31204079050816,
  31204079050816,
  22410133504066,
  22410133504066,
  31204078526656,
  31204078526656,
  22410132979906,
  22410132979906,
  30791695081536,
  30791695081536,
  21997749534786,
  21997749534786,
  30791694557376,
  30791694557376,
  21997749010626,
  21997749010626,
  22410133512256,
  22410133512256,
  31066673651776,
  31066673651776,
  22410133504066,
  22410133504066,
  31066673643586,
  31066673643586,
  22410132988096,
  22410132988096,
  31066673127616,
  31066673127616,
  22410132979906,
  22410132979906,
  31066673119426,
  31066673119426,
  417753473088,
  417753473088,
  417753464898,
  417753464898,
  417752948928,
  417752948928,
  417752940738,
  417752940738,
  30791762190400,
  30791762190400,
  30791762190400,
  30791762190400,
  30791762182210,
  30791762182210,
  30791762182210,
  30791762182210,
  30791761666240,
  30791761666240,
  30791761666240,
  30791761666240,
  30791761658050,
  30791761658050,
  30791761658050,
  30791761658050,
  31204079050816,
  31204079050816,
  31204079050816,
  31204079050816,
  31066673651776,
  31066673651776,
  31204079042626,
  31204079042626,
  31204079042626,
  31204079042626,
  31066673643586,
  31066673643586,
  31204078526656,
  31204078526656,
  31204078526656,
  31204078526656,
  31066673127616,
  31066673127616,
  31204078518466,
  31204078518466,
  31204078518466,
  31204078518466,
  31066673119426,
  31066673119426,
  5369503808,
  5369503808,
  5369495618,
  5369495618,
  5368979648,
  5368979648,
  5368971458,
  5368971458,
  417753473088,
  417753473088,
  280348074048,
  280348074048,
  417753464898,
  417753464898,
  280348065858,
  280348065858,
  417752948928,
  417752948928,
  280347549888,
  280347549888,
  417752940738,
  417752940738,
  280347541698,
  280347541698,
  30791762190400,
  30791762190400,
  21997816651840,
  21997816651840,
  30791762182210,
  30791762182210,
  21997816643650,
  21997816643650,
  30791761666240,
  30791761666240,
  21997816127680,
  21997816127680,
  30791761658050,
  30791761658050,
  21997816119490,
  21997816119490,
  31204079050816,
  31204079050816,
  31204079050816,
  31204079050816,
  22272728113216,
  22272728113216,
  31204079050816,
  31204079050816,
  31204079042626,
  31204079042626,
  31204079042626,
  31204079042626,
  22272728105026,
  22272728105026,
  31204079042626,
  31204079042626,
  31204078526656,
  31204078526656,
  31204078526656,
  31204078526656,
  22272727589056,
  22272727589056,
  31204078526656,
  31204078526656,
  31204078518466,
  31204078518466,
  31204078518466,
  31204078518466,
  22272727580866,
  22272727580866,
  31204078518466,
  31204078518466,
  31066673651776,
  31066673651776,
  31204079050816,
  31204079050816,
  22410133512256,
  22410133512256,
  31066673643586,
  31066673643586,
  31204079042626,
  31204079042626,
  22410133504066,
  22410133504066,
  31066673127616,
  31066673127616,
  31204078526656,
  31204078526656,
  22410132988096,
  22410132988096,
  31066673119426,
  31066673119426,
  31204078518466,
  31204078518466,
  22410132979906,
  22410132979906,
  31204079050816,
  31204079050816,
  31204079042626,
  31204079042626,
  31204078526656,
  31204078526656,
  31204078518466,
  31204078518466,
  412384763968,
  412384763968,
  412384755778,
  412384755778,
  412384239808,
  412384239808,
  412384231618,
  412384231618,
  31204079050816,
  31204079050816,
  31204079050816,
  31204079050816,
  31066673651776,
  31066673651776,
  31204079042626,
  31204079042626,
  31204079042626,
  31204079042626,
  31066673643586,
  31066673643586,
  22410132988096,
  22410132988096,
  31204078526656,
  31204078526656,
  31066673127616,
  31066673127616,
  22410132979906,
  22410132979906,
  31204078518466,
  31204078518466,
  31066673119426,
  31066673119426]
def ccsdt_t2_aaaa_cert_1 : List Nat := [31204079050816,
  31204079050816,
  31204079050816,
  31204079050816,
  22272728113216,
  22272728113216,
  31204079050816,
  31204079050816,
  31204079042626,
  31204079042626,
  31204079042626,
  31204079042626,
  22272728105026,
  22272728105026,
  31204079042626,
  31204079042626,
  22272727589056,
  22272727589056,
  31204078526656,
  31204078526656,
  22272727589056,
  22272727589056,
  22272727589056,
  22272727589056,
  22272727580866,
  22272727580866,
  31204078518466,
  31204078518466,
  22272727580866,
  22272727580866,
  22272727580866,
  22272727580866,
  5436612672,
  5436612672,
  5436612672,
  5436612672,
  5436604482,
  5436604482,
  5436604482,
  5436604482,
  5436088512,
  5436088512,
  5436088512,
  5436088512,
  5436080322,
  5436080322,
  5436080322,
  5436080322,
  30791695081536,
  30791695081536,
  30791695073346,
  30791695073346,
  30791694557376,
  30791694557376,
  30791694549186,
  30791694549186,
  417753473088,
  417753473088,
  417753473088,
  417753473088,
  280348074048,
  280348074048,
  417753464898,
  417753464898,
  417753464898,
  417753464898,
  280348065858,
  280348065858,
  417752948928,
  417752948928,
  417752948928,
  417752948928,
  280347549888,
  280347549888,
  417752940738,
  417752940738,
  417752940738,
  417752940738,
  280347541698,
  280347541698,
  30791762190400,
  30791762190400,
  30791762190400,
  30791762190400,
  21997816651840,
  21997816651840,
  30791762182210,
  30791762182210,
  30791762182210,
  30791762182210,
  21997816643650,
  21997816643650,
  30791761666240,
  30791761666240,
  30791761666240,
  30791761666240,
  21997816127680,
  21997816127680,
  30791761658050,
  30791761658050,
  30791761658050,
  30791761658050,
  21997816119490,
  21997816119490,
  794688,
  794688,
  786498,
  786498,
  270528,
  270528,
  262338,
  262338,
  67903552,
  67903552,
  67895362,
  67895362,
  5369503808,
  5369503808,
  5368979648,
  5368979648,
  5436612672,
  5436612672,
  5436612672,
  5436612672,
  5436612672,
  5436612672,
  5436604482,
  5436604482,
  5436612672,
  5436612672,
  5436088512,
  5436088512,
  794688,
  794688,
  67903552,
  67903552,
  67379392,
  67379392,
  5369503808,
  5369503808,
  5369495618,
  5369495618,
  274979364928,
  274979364928,
  5436612672,
  5436612672,
  5436604482,
  5436604482,
  5436088512,
  5436088512,
  5436080322,
  5436080322,
  5436612672,
  5436612672,
  5436604482,
  5436604482,
  5436088512,
  5436088512,
  5436080322,
  5436080322,
  30791695081536,
  30791695081536,
  280348074048,
  280348074048,
  280348065858,
  280348065858,
  280348074048,
  280348074048,
  280348065858,
  280348065858,
  417753473088,
  417753473088,
  417753464898,
  417753464898,
  30791762190400,
  30791762190400,
  30791761666240,
  30791761666240,
  30791762190400,
  30791762190400,
  30791761666240,
  30791761666240,
  21997816651840,
  21997816651840,
  21997816127680,
  21997816127680,
  417753473088,
  417753473088,
  417753464898,
  417753464898,
  280348074048,
  280348074048,
  280348065858,
  280348065858,
  280348074048,
  280348074048,
  280348065858,
  280348065858,
  417753473088,
  417753473088,
  417753464898,
  417753464898,
  417752948928,
  417752948928,
  417752940738,
  417752940738,
  417753473088,
  417753473088,
  417753464898,
  417753464898,
  417752948928,
  417752948928,
  417752940738,
  417752940738,
  30791762190400,
  30791762190400,
  30791761666240,
  30791761666240,
  21997816651840,
  21997816651840,
  21997816127680,
  21997816127680,
  30791762190400,
  30791762190400,
  30791762182210,
  30791762182210,
  30791761666240,
  30791761666240,
  30791761658050,
  30791761658050,
  30791762190400,
  30791762190400,
  30791762182210,
  30791762182210,
  30791761666240,
  30791761666240,
  30791761658050,
  30791761658050,
  30791762190400,
  30791762190400,
  30791761666240,
  30791761666240,
  31204079050816,
  31204079050816,
  31204079050816,
  31204079050816,
  22272728113216,
  22272728113216,
  31204079050816,
  31204079050816,
  31066673651776,
  31066673651776,
  31066673643586,
  31066673643586,
  31066673651776,
  31066673651776,
  31066673643586,
  31066673643586,
  31204079050816,
  31204079050816,
  31204079042626,
  31204079042626,
  31204079050816,
  31204079050816,
  31204078526656,
  31204078526656,
  31204079050816,
  31204079050816,
  31204078526656,
  31204078526656,
  22410133512256,
  22410133512256,
  22410132988096,
  22410132988096,
  412384763968,
  412384763968,
  5436612672,
  5436612672,
  5436604482,
  5436604482,
  5436088512,
  5436088512,
  5436080322,
  5436080322,
  21997749542976,
  21997749542976,
  31204079050816,
  31204079050816,
  31204079042626,
  31204079042626,
  31066673651776,
  31066673651776,
  31066673643586,
  31066673643586,
  22272728113216,
  22272728113216,
  22272728105026,
  22272728105026,
  31066673651776,
  31066673651776,
  31066673651776,
  31066673651776,
  22272728113216,
  22272728113216,
  22410133512256,
  22410133512256,
  31204079050816,
  31204079050816,
  31204079042626,
  31204079042626,
  31204079050816,
  31204079050816,
  31204079042626,
  31204079042626,
  22272728113216,
  22272728113216,
  22272728105026,
  22272728105026,
  31204079050816,
  31204079050816,
  31204079042626,
  31204079042626,
  31066673651776,
  31066673651776,
  31066673651776,
  31066673651776,
  31204079050816,
  31204079050816,
  31204079050816,
  31204079050816,
  31204079042626,
  31204079042626,
  22272728113216,
  22272728113216,
  22272728105026,
  22272728105026,
  31204079050816,
  31204079050816,
  31204078526656,
  31204078526656,
  22272728113216,
  22272728113216,
  22272727589056,
  22272727589056,
  22272728113216,
  22272728113216,
  31204079050816,
  31204079050816,
  31204079042626,
  31204079042626,
  31204078526656,
  31204078526656,
  31204078518466,
  31204078518466,
  31204079050816,
  31204079050816,
  31204079042626,
  31204079042626,
  31204078526656,
  31204078526656,
  31204078518466,
  31204078518466,
  31204079050816,
  31204079050816,
  417753473088,
  417753473088,
  417753464898,
  417753464898,
  21997816651840,
  21997816651840,
  21997816127680,
  21997816127680,
  22410133512256,
  22410133512256]

/-- Check ccsdt_t2_aaaa.  -/
theorem ccsdt_t2_aaaa : isZeroSpin kinds [aᵥ, bᵥ, iₒ, jₒ] 16 [false, false, false, false]
    (Prog.outs [2, 3, 0, 1] (ccsdt_t2eqns))
    (Prog.scale (-1) (ccsdt_t2_aaaa))
    (ccsdt_t2_aaaa_cert_0 ++ (ccsdt_t2_aaaa_cert_1)) = true := by decide +kernel

def ccdq_t2_aaaa_cert_0 : List Nat := [67903552,
  67903552,
  67895362,
  67895362,
  67379392,
  67379392,
  67371202,
  67371202,
  5369503808,
  5369503808,
  5369495618,
  5369495618,
  5368979648,
  5368979648,
  5368971458,
  5368971458,
  31066673651776,
  31066673651776,
  31204079050816,
  31204079050816,
  22410133512256,
  22410133512256,
  31066673643586,
  31066673643586,
  31204079042626,
  31204079042626,
  22410133504066,
  22410133504066,
  31066673127616,
  31066673127616,
  31204078526656,
  31204078526656,
  22410132988096,
  22410132988096,
  31066673119426,
  31066673119426,
  31204078518466,
  31204078518466,
  22410132979906,
  22410132979906,
  31204079050816,
  31204079050816,
  31204079042626,
  31204079042626,
  31204078526656,
  31204078526656,
  31204078518466,
  31204078518466,
  412384763968,
  412384763968,
  412384755778,
  412384755778,
  412384239808,
  412384239808,
  412384231618,
  412384231618,
  31204079050816,
  31204079050816,
  31204079050816,
  31204079050816,
  31066673651776,
  31066673651776,
  31204079042626,
  31204079042626,
  31204079042626,
  31204079042626,
  31066673643586,
  31066673643586,
  22410132988096,
  22410132988096,
  31204078526656,
  31204078526656,
  31066673127616,
  31066673127616,
  22410132979906,
  22410132979906,
  31204078518466,
  31204078518466,
  31066673119426,
  31066673119426,
  31204079050816,
  31204079050816,
  31204079050816,
  31204079050816,
  22272728113216,
  22272728113216,
  31204079050816,
  31204079050816,
  31204079042626,
  31204079042626,
  31204079042626,
  31204079042626,
  22272728105026,
  22272728105026,
  31204079042626,
  31204079042626,
  22272727589056,
  22272727589056,
  31204078526656,
  31204078526656,
  22272727589056,
  22272727589056,
  22272727589056,
  22272727589056,
  22272727580866,
  22272727580866,
  31204078518466,
  31204078518466,
  22272727580866,
  22272727580866,
  22272727580866,
  22272727580866,
  5436612672,
  5436612672,
  5436612672,
  5436612672,
  5436604482,
  5436604482,
  5436604482,
  5436604482,
  5436088512,
  5436088512,
  5436088512,
  5436088512,
  5436080322,
  5436080322,
  5436080322,
  5436080322,
  30791695081536,
  30791695081536,
  30791695073346,
  30791695073346,
  30791694557376,
  30791694557376,
  30791694549186,
  30791694549186,
  31204079050816,
  31204079050816,
  31204079050816,
  31204079050816,
  31066673651776,
  31066673651776,
  22410133512256,
  22410133512256,
  22272728113216,
  22272728113216,
  31204079050816,
  31204079050816,
  31204079042626,
  31204079042626,
  31204079042626,
  31204079042626,
  31066673643586,
  31066673643586,
  22410133504066,
  22410133504066,
  22272728105026,
  22272728105026,
  31204079042626,
  31204079042626,
  31204078526656,
  31204078526656,
  31204078526656,
  31204078526656,
  31066673127616,
  31066673127616,
  22410132988096,
  22410132988096,
  22272727589056,
  22272727589056,
  31204078526656,
  31204078526656,
  31204078518466,
  31204078518466,
  31204078518466,
  31204078518466,
  31066673119426,
  31066673119426,
  22410132979906,
  22410132979906,
  22272727580866,
  22272727580866,
  31204078518466,
  31204078518466,
  794688,
  794688,
  786498,
  786498,
  270528,
  270528,
  262338,
  262338,
  67903552,
  67903552,
  67895362,
  67895362,
  5369503808,
  5369503808,
  5368979648,
  5368979648,
  794688,
  794688,
  274979364928,
  274979364928,
  5436612672,
  5436612672,
  5436604482,
  5436604482,
  5436088512,
  5436088512,
  5436080322,
  5436080322,
  5436612672,
  5436612672,
  5436604482,
  5436604482,
  5436088512,
  5436088512,
  5436080322,
  5436080322,
  30791695081536,
  30791695081536,
  31066673651776,
  31066673651776,
  31066673651776,
  31066673651776,
  31204079050816,
  31204079050816,
  22272728113216,
  22272728113216,
  22410133512256,
  22410133512256,
  31066673651776,
  31066673651776,
  31204079050816,
  31204079050816,
  31204079042626,
  31204079042626,
  31066673651776,
  31066673651776,
  31066673643586,
  31066673643586,
  22272728113216,
  22272728113216,
  22272728105026,
  22272728105026,
  31066673651776,
  31066673651776,
  31066673651776,
  31066673651776,
  22272728113216,
  22272728113216,
  22410133512256,
  22410133512256,
  31204079050816,
  31204079050816,
  31204079042626,
  31204079042626,
  31204079050816,
  31204079050816,
  31204079042626,
  31204079042626,
  22272728113216,
  22272728113216,
  22272728105026,
  22272728105026,
  31204079050816,
  31204079050816,
  31204079042626,
  31204079042626,
  31066673651776,
  31066673651776,
  31066673651776,
  31066673651776,
  31204079050816,
  31204079050816]

/-- Check ccdq_t2_aaaa.  -/
theorem ccdq_t2_aaaa : isZeroSpin kinds [aᵥ, bᵥ, iₒ, jₒ] 16 [false, false, false, false]
    (Prog.outs [2, 3, 0, 1] (ccdq_t2eqns))
    (Prog.scale (-1) (ccdq_t2_aaaa))
    (ccdq_t2_aaaa_cert_0) = true := by decide +kernel

def ccsdt_t2_abab_cert_0 : List Nat := [67903552,
  67903552,
  67895362,
  67895362,
  67379392,
  67379392,
  67371202,
  67371202,
  5436612672,
  5436612672,
  5436604482,
  5436604482,
  5436088512,
  5436088512,
  5436080322,
  5436080322,
  5436612672,
  5436612672,
  5436604482,
  5436604482,
  5436088512,
  5436088512,
  5436080322,
  5436080322,
  5436612672,
  5436612672,
  5436612672,
  5436612672,
  5436604482,
  5436604482,
  5436604482,
  5436604482,
  5436088512,
  5436088512,
  5436088512,
  5436088512,
  5436080322,
  5436080322,
  5436080322,
  5436080322,
  5369503808,
  5369503808,
  5369495618,
  5369495618,
  5368979648,
  5368979648,
  5368971458,
  5368971458,
  31204079050816,
  31204079050816,
  22410133504066,
  22410133504066,
  31066673127616,
  31066673127616,
  22272727580866,
  22272727580866,
  417753473088,
  417753473088,
  417753464898,
  417753464898,
  280347549888,
  280347549888,
  280347541698,
  280347541698,
  31204079050816,
  31204079050816,
  22410133512256,
  22410133512256,
  31204079042626,
  31204079042626,
  22410133504066,
  22410133504066,
  31066673127616,
  31066673127616,
  22272727589056,
  22272727589056,
  31066673119426,
  31066673119426,
  22272727580866,
  22272727580866,
  412384763968,
  412384763968,
  412384755778,
  412384755778,
  274978840768,
  274978840768,
  274978832578,
  274978832578,
  30791762190400,
  30791762190400,
  21997816643650,
  21997816643650,
  30791761666240,
  30791761666240,
  21997816119490,
  21997816119490,
  31204079050816,
  31204079050816,
  31204079050816,
  31204079050816,
  22410133504066,
  22410133504066,
  31066673127616,
  31066673127616,
  22272727580866,
  22272727580866,
  31204078518466,
  31204078518466,
  5436612672,
  5436612672,
  5436604482,
  5436604482,
  5436088512,
  5436088512,
  5436080322,
  5436080322,
  31066673651776,
  31066673651776,
  22410133512256,
  22410133512256,
  31066673643586,
  31066673643586,
  22410133504066,
  22410133504066,
  31066673127616,
  31066673127616,
  31066673127616,
  31066673127616,
  31066673119426,
  31066673119426,
  31066673119426,
  31066673119426,
  417753473088,
  417753473088,
  417753464898,
  417753464898,
  417753464898,
  417753464898,
  280347549888,
  280347549888,
  417752948928,
  417752948928,
  280347541698,
  280347541698,
  30791762190400,
  30791762190400,
  21997816651840,
  21997816651840,
  30791762182210,
  30791762182210,
  21997816643650,
  21997816643650,
  30791761666240,
  30791761666240,
  21997816127680,
  21997816127680,
  30791761658050,
  30791761658050,
  21997816119490,
  21997816119490,
  31204079050816,
  31204079050816,
  31204079050816,
  31204079050816,
  22410133512256,
  22410133512256,
  31204079042626,
  31204079042626,
  31204079042626,
  31204079042626,
  22410133504066,
  22410133504066,
  31066673127616,
  31066673127616,
  22272727589056,
  22272727589056,
  31204078526656,
  31204078526656,
  31066673119426,
  31066673119426,
  22272727580866,
  22272727580866,
  31204078518466,
  31204078518466,
  67903552,
  67903552,
  67895362,
  67895362,
  67379392,
  67379392,
  67371202,
  67371202,
  31204079050816,
  31204079050816,
  31066673651776,
  31066673651776,
  22410133504066,
  22410133504066,
  22272728105026,
  22272728105026,
  31204078526656,
  31204078526656,
  31066673127616,
  31066673127616,
  22410132979906,
  22410132979906,
  22272727580866,
  22272727580866,
  30791695081536,
  30791695081536,
  21997749534786,
  21997749534786,
  30791694557376,
  30791694557376,
  21997749010626,
  21997749010626,
  22410133512256,
  22410133512256,
  31066673651776,
  31066673651776,
  22410133504066,
  22410133504066,
  22410133504066,
  22410133504066,
  22410132988096,
  22410132988096,
  31066673127616,
  31066673127616,
  22410132979906,
  22410132979906,
  22410132979906,
  22410132979906,
  417753473088,
  417753473088,
  280348074048,
  280348074048,
  417753464898,
  417753464898,
  280348065858,
  280348065858,
  417752948928,
  417752948928,
  280347549888,
  280347549888,
  417752940738,
  417752940738,
  280347541698,
  280347541698,
  30791762190400,
  30791762190400,
  21997816643650,
  21997816643650,
  30791762182210,
  30791762182210,
  30791761666240,
  30791761666240,
  30791761666240,
  30791761666240,
  21997816119490,
  21997816119490,
  31204079050816,
  31204079050816,
  31204079050816,
  31204079050816,
  31066673651776,
  31066673651776,
  22410133504066,
  22410133504066,
  22272728105026,
  22272728105026,
  31204079042626,
  31204079042626,
  31204078526656,
  31204078526656,
  31204078526656,
  31204078526656,
  31066673127616,
  31066673127616,
  22410132979906,
  22410132979906,
  22272727580866,
  22272727580866,
  31204078518466,
  31204078518466,
  5369503808,
  5369503808,
  5369495618,
  5369495618,
  5368979648,
  5368979648,
  5368971458,
  5368971458,
  417753473088,
  417753473088,
  417753473088,
  417753473088,
  417753464898,
  417753464898,
  280348065858,
  280348065858,
  417752948928,
  417752948928,
  417752948928,
  417752948928,
  417752940738,
  417752940738,
  280347541698,
  280347541698,
  30791762190400,
  30791762190400,
  30791762190400,
  30791762190400,
  30791762182210,
  30791762182210,
  30791762182210,
  30791762182210,
  30791761666240,
  30791761666240,
  21997816127680,
  21997816127680,
  30791761658050,
  30791761658050,
  21997816119490,
  21997816119490,
  31204079050816,
  31204079050816,
  31204079050816,
  31204079050816,
  22272728113216,
  22272728113216,
  31204079050816,
  31204079050816,
  31204079042626,
  31204079042626,
  31204079042626,
  31204079042626,
  22272728105026,
  22272728105026,
  31204079042626,
  31204079042626,
  31204078526656,
  31204078526656,
  31204078526656,
  31204078526656,
  22272727589056,
  22272727589056,
  31204078526656,
  31204078526656,
  31204078518466,
  31204078518466,
  31204078518466,
  31204078518466,
  22272727580866,
  22272727580866,
  31204078518466,
  31204078518466,
  31066673651776,
  31066673651776,
  22272728113216,
  22272728113216,
  31204079050816,
  31204079050816,
  31066673643586,
  31066673643586,
  31204079042626,
  31204079042626,
  22410133504066,
  22410133504066,
  31066673127616,
  31066673127616,
  22272727589056,
  22272727589056,
  31204078526656,
  31204078526656,
  31066673119426,
  31066673119426,
  31204078518466,
  31204078518466,
  22410132979906,
  22410132979906,
  31204079050816,
  31204079050816,
  22410133512256,
  22410133512256,
  31066673651776,
  31066673651776,
  22272728113216,
  22272728113216,
  31204079042626,
  31204079042626,
  22410133504066,
  22410133504066,
  31066673643586,
  31066673643586,
  22272728105026,
  22272728105026,
  31204078526656,
  31204078526656,
  22410132988096,
  22410132988096]
def ccsdt_t2_abab_cert_1 : List Nat := [31066673127616,
  31066673127616,
  22272727589056,
  22272727589056,
  31204078518466,
  31204078518466,
  22410132979906,
  22410132979906,
  31066673119426,
  31066673119426,
  22272727580866,
  22272727580866,
  412384763968,
  412384763968,
  274979364928,
  274979364928,
  412384755778,
  412384755778,
  274979356738,
  274979356738,
  412384239808,
  412384239808,
  274978840768,
  274978840768,
  412384231618,
  412384231618,
  274978832578,
  274978832578,
  22410133512256,
  22410133512256,
  22272728113216,
  22272728113216,
  31204079050816,
  31204079050816,
  22410133504066,
  22410133504066,
  22272728105026,
  22272728105026,
  31204079042626,
  31204079042626,
  22410132988096,
  22410132988096,
  31204078526656,
  31204078526656,
  31066673127616,
  31066673127616,
  22410132979906,
  22410132979906,
  31204078518466,
  31204078518466,
  31066673119426,
  31066673119426,
  31204079050816,
  31204079050816,
  31204079050816,
  31204079050816,
  22272728113216,
  22272728113216,
  31204079050816,
  31204079050816,
  22410133504066,
  22410133504066,
  31066673127616,
  31066673127616,
  22272727580866,
  22272727580866,
  31204078518466,
  31204078518466,
  22272727580866,
  22272727580866,
  22272727580866,
  22272727580866,
  5436612672,
  5436612672,
  5436612672,
  5436612672,
  5436604482,
  5436604482,
  5436088512,
  5436088512,
  5436080322,
  5436080322,
  5436080322,
  5436080322,
  30791695081536,
  30791695081536,
  21997749542976,
  21997749542976,
  30791695073346,
  30791695073346,
  21997749534786,
  21997749534786,
  30791694557376,
  30791694557376,
  21997749018816,
  21997749018816,
  30791694549186,
  30791694549186,
  21997749010626,
  21997749010626,
  417753473088,
  417753473088,
  280348074048,
  280348074048,
  417753473088,
  417753473088,
  417753464898,
  417753464898,
  417753464898,
  417753464898,
  280348065858,
  280348065858,
  417752948928,
  417752948928,
  280347549888,
  280347549888,
  417752948928,
  417752948928,
  417752940738,
  417752940738,
  417752940738,
  417752940738,
  280347541698,
  280347541698,
  30791762190400,
  30791762190400,
  21997816651840,
  21997816651840,
  30791762190400,
  30791762190400,
  30791762182210,
  30791762182210,
  21997816643650,
  21997816643650,
  30791762182210,
  30791762182210,
  30791761666240,
  30791761666240,
  30791761666240,
  30791761666240,
  21997816127680,
  21997816127680,
  30791761658050,
  30791761658050,
  30791761658050,
  30791761658050,
  21997816119490,
  21997816119490,
  794688,
  794688,
  786498,
  786498,
  270528,
  270528,
  262338,
  262338,
  67903552,
  67903552,
  67903552,
  67903552,
  5369503808,
  5369503808,
  5369503808,
  5369503808,
  5436612672,
  5436612672,
  5436612672,
  5436612672,
  5436612672,
  5436612672,
  5436612672,
  5436612672,
  5436612672,
  5436612672,
  5436612672,
  5436612672,
  794688,
  794688,
  67903552,
  67903552,
  67903552,
  67903552,
  5369503808,
  5369503808,
  5369503808,
  5369503808,
  274979364928,
  274979364928,
  412384763968,
  412384763968,
  5436612672,
  5436612672,
  5436612672,
  5436612672,
  5436612672,
  5436612672,
  5436612672,
  5436612672,
  5436612672,
  5436612672,
  5436612672,
  5436612672,
  30791695081536,
  30791695081536,
  21997749542976,
  21997749542976,
  280348074048,
  280348074048,
  417753473088,
  417753473088,
  280348074048,
  280348074048,
  280348074048,
  280348074048,
  280348074048,
  280348074048,
  417753473088,
  417753473088,
  30791762190400,
  30791762190400,
  30791762190400,
  30791762190400,
  21997816651840,
  21997816651840,
  30791762190400,
  30791762190400,
  21997816651840,
  21997816651840,
  30791762190400,
  30791762190400,
  417753473088,
  417753473088,
  417753473088,
  417753473088,
  417753473088,
  417753473088,
  280348074048,
  280348074048,
  280348074048,
  280348074048,
  417753473088,
  417753473088,
  280348074048,
  280348074048,
  417753473088,
  417753473088,
  417753473088,
  417753473088,
  280348074048,
  280348074048,
  417753473088,
  417753473088,
  417753473088,
  417753473088,
  417753473088,
  417753473088,
  280348074048,
  280348074048,
  30791762190400,
  30791762190400,
  21997816651840,
  21997816651840,
  30791762190400,
  30791762190400,
  30791762190400,
  30791762190400,
  21997816651840,
  21997816651840,
  21997816651840,
  21997816651840,
  30791762190400,
  30791762190400,
  30791762190400,
  30791762190400,
  30791762190400,
  30791762190400,
  30791762190400,
  30791762190400,
  30791762190400,
  30791762190400,
  21997816651840,
  21997816651840,
  30791762190400,
  30791762190400,
  21997816651840,
  21997816651840,
  31204079050816,
  31204079050816,
  31204079050816,
  31204079050816,
  22272728113216,
  22272728113216,
  31204079050816,
  31204079050816,
  22272728113216,
  22272728113216,
  22410133512256,
  22410133512256,
  31066673651776,
  31066673651776,
  31066673651776,
  31066673651776,
  31066673651776,
  31066673651776,
  31204079050816,
  31204079050816,
  31204079050816,
  31204079050816,
  31204079050816,
  31204079050816,
  22410133512256,
  22410133512256,
  31066673651776,
  31066673651776,
  22272728113216,
  22272728113216,
  31204079050816,
  31204079050816,
  412384763968,
  412384763968,
  5436612672,
  5436612672,
  5436612672,
  5436612672,
  5436612672,
  5436612672,
  5436612672,
  5436612672,
  21997749542976,
  21997749542976,
  31204079050816,
  31204079050816,
  22410133512256,
  22410133512256,
  31066673651776,
  31066673651776,
  31204079050816,
  31204079050816,
  31066673651776,
  31066673651776,
  22272728113216,
  22272728113216,
  31066673651776,
  31066673651776,
  31204079050816,
  31204079050816,
  22272728113216,
  22272728113216,
  22410133512256,
  22410133512256,
  31066673651776,
  31066673651776,
  22272728113216,
  22272728113216,
  22410133512256,
  22410133512256,
  22410133512256,
  22410133512256,
  31204079050816,
  31204079050816,
  31204079050816,
  31204079050816,
  22272728113216,
  22272728113216,
  31204079050816,
  31204079050816,
  22272728113216,
  22272728113216,
  22410133512256,
  22410133512256,
  31066673651776,
  31066673651776,
  31204079050816,
  31204079050816,
  31204079050816,
  31204079050816,
  31204079050816,
  31204079050816,
  22272728113216,
  22272728113216,
  31204079050816,
  31204079050816,
  22272728113216,
  22272728113216,
  31204079050816,
  31204079050816,
  31204079050816,
  31204079050816,
  22272728113216,
  22272728113216,
  22410133512256,
  22410133512256,
  22410133512256,
  22410133512256,
  22272728113216,
  22272728113216,
  31204079050816,
  31204079050816,
  31204079050816,
  31204079050816]
def ccsdt_t2_abab_cert_2 : List Nat := [31204079050816,
  31204079050816,
  31066673651776,
  31066673651776,
  31204079050816,
  31204079050816,
  22410133512256,
  22410133512256,
  417753473088,
  417753473088,
  417753473088,
  417753473088,
  21997816651840,
  21997816651840,
  21997816651840,
  21997816651840,
  22410133512256,
  22410133512256]

/-- Check ccsdt_t2_abab.  -/
theorem ccsdt_t2_abab : isZeroSpin kinds [aᵥ, bᵥ, iₒ, jₒ] 16 [false, true, false, true]
    (Prog.outs [2, 3, 0, 1] (ccsdt_t2eqns))
    (Prog.scale (-1) (ccsdt_t2_abab))
    (ccsdt_t2_abab_cert_0 ++ (ccsdt_t2_abab_cert_1 ++ (ccsdt_t2_abab_cert_2))) = true := by decide +kernel

def ccdq_t2_abab_cert_0 : List Nat := [67903552,
  67903552,
  67895362,
  67895362,
  67379392,
  67379392,
  67371202,
  67371202,
  5369503808,
  5369503808,
  5369495618,
  5369495618,
  5368979648,
  5368979648,
  5368971458,
  5368971458,
  31066673651776,
  31066673651776,
  22272728113216,
  22272728113216,
  31204079050816,
  31204079050816,
  31066673643586,
  31066673643586,
  31204079042626,
  31204079042626,
  22410133504066,
  22410133504066,
  31066673127616,
  31066673127616,
  22272727589056,
  22272727589056,
  31204078526656,
  31204078526656,
  31066673119426,
  31066673119426,
  31204078518466,
  31204078518466,
  22410132979906,
  22410132979906,
  31204079050816,
  31204079050816,
  22410133512256,
  22410133512256,
  31066673651776,
  31066673651776,
  22272728113216,
  22272728113216,
  31204079042626,
  31204079042626,
  22410133504066,
  22410133504066,
  31066673643586,
  31066673643586,
  22272728105026,
  22272728105026,
  31204078526656,
  31204078526656,
  22410132988096,
  22410132988096,
  31066673127616,
  31066673127616,
  22272727589056,
  22272727589056,
  31204078518466,
  31204078518466,
  22410132979906,
  22410132979906,
  31066673119426,
  31066673119426,
  22272727580866,
  22272727580866,
  412384763968,
  412384763968,
  274979364928,
  274979364928,
  412384755778,
  412384755778,
  274979356738,
  274979356738,
  412384239808,
  412384239808,
  274978840768,
  274978840768,
  412384231618,
  412384231618,
  274978832578,
  274978832578,
  22410133512256,
  22410133512256,
  22272728113216,
  22272728113216,
  31204079050816,
  31204079050816,
  22410133504066,
  22410133504066,
  22272728105026,
  22272728105026,
  31204079042626,
  31204079042626,
  22410132988096,
  22410132988096,
  31204078526656,
  31204078526656,
  31066673127616,
  31066673127616,
  22410132979906,
  22410132979906,
  31204078518466,
  31204078518466,
  31066673119426,
  31066673119426,
  31204079050816,
  31204079050816,
  31204079050816,
  31204079050816,
  22272728113216,
  22272728113216,
  31204079050816,
  31204079050816,
  22410133504066,
  22410133504066,
  31066673127616,
  31066673127616,
  22272727580866,
  22272727580866,
  31204078518466,
  31204078518466,
  22272727580866,
  22272727580866,
  22272727580866,
  22272727580866,
  5436612672,
  5436612672,
  5436612672,
  5436612672,
  5436604482,
  5436604482,
  5436088512,
  5436088512,
  5436080322,
  5436080322,
  5436080322,
  5436080322,
  30791695081536,
  30791695081536,
  21997749542976,
  21997749542976,
  30791695073346,
  30791695073346,
  21997749534786,
  21997749534786,
  30791694557376,
  30791694557376,
  21997749018816,
  21997749018816,
  30791694549186,
  30791694549186,
  21997749010626,
  21997749010626,
  31204079050816,
  31204079050816,
  31204079050816,
  31204079050816,
  31066673651776,
  31066673651776,
  22410133512256,
  22410133512256,
  22272728113216,
  22272728113216,
  31204079050816,
  31204079050816,
  31204079042626,
  31204079042626,
  31204079042626,
  31204079042626,
  31066673643586,
  31066673643586,
  22410133504066,
  22410133504066,
  22272728105026,
  22272728105026,
  31204079042626,
  31204079042626,
  31204078526656,
  31204078526656,
  31204078526656,
  31204078526656,
  31066673127616,
  31066673127616,
  22410132988096,
  22410132988096,
  22272727589056,
  22272727589056,
  31204078526656,
  31204078526656,
  31204078518466,
  31204078518466,
  31204078518466,
  31204078518466,
  31066673119426,
  31066673119426,
  22410132979906,
  22410132979906,
  22272727580866,
  22272727580866,
  31204078518466,
  31204078518466,
  794688,
  794688,
  786498,
  786498,
  270528,
  270528,
  262338,
  262338,
  67903552,
  67903552,
  67903552,
  67903552,
  5369503808,
  5369503808,
  5369503808,
  5369503808,
  794688,
  794688,
  274979364928,
  274979364928,
  412384763968,
  412384763968,
  5436612672,
  5436612672,
  5436612672,
  5436612672,
  5436612672,
  5436612672,
  5436612672,
  5436612672,
  5436612672,
  5436612672,
  5436612672,
  5436612672,
  30791695081536,
  30791695081536,
  21997749542976,
  21997749542976,
  31066673651776,
  31066673651776,
  31066673651776,
  31066673651776,
  31204079050816,
  31204079050816,
  22272728113216,
  22272728113216,
  22410133512256,
  22410133512256,
  31066673651776,
  31066673651776,
  31204079050816,
  31204079050816,
  22410133512256,
  22410133512256,
  31066673651776,
  31066673651776,
  31204079050816,
  31204079050816,
  31066673651776,
  31066673651776,
  22272728113216,
  22272728113216,
  31066673651776,
  31066673651776,
  31204079050816,
  31204079050816,
  22272728113216,
  22272728113216,
  22410133512256,
  22410133512256,
  31066673651776,
  31066673651776,
  22272728113216,
  22272728113216,
  22410133512256,
  22410133512256,
  22410133512256,
  22410133512256,
  31204079050816,
  31204079050816,
  31204079050816,
  31204079050816,
  22272728113216,
  22272728113216,
  31204079050816,
  31204079050816,
  22272728113216,
  22272728113216,
  22410133512256,
  22410133512256,
  31066673651776,
  31066673651776]

/-- Check ccdq_t2_abab.  -/
theorem ccdq_t2_abab : isZeroSpin kinds [aᵥ, bᵥ, iₒ, jₒ] 16 [false, true, false, true]
    (Prog.outs [2, 3, 0, 1] (ccdq_t2eqns))
    (Prog.scale (-1) (ccdq_t2_abab))
    (ccdq_t2_abab_cert_0) = true := by decide +kernel

def ccsdt_t2_bbbb_cert_0 : List Nat := [67903552,
  67903552,
  67895362,
  67895362,
  67379392,
  67379392,
  67371202,
  67371202,
  5436612672,
  5436612672,
  5436604482,
  5436604482,
  5436088512,
  5436088512,
  5436080322,
  5436080322,
  5436612672,
  5436612672,
  5436604482,
  5436604482,
  5436088512,
  5436088512,
  5436080322,
  5436080322,
  5436612672,
  5436612672,
  5436612672,
  5436612672,
  5436604482,
  5436604482,
  5436604482,
  5436604482,
  5436088512,
  5436088512,
  5436088512,
  5436088512,
  5436080322,
  5436080322,
  5436080322,
  5436080322,
  5369503808,
  5369503808,
  5369495618,
  5369495618,
  5368979648,
  5368979648,
  5368971458,
  5368971458,
  31204079050816,
  31204079050816,
  22410133504066,
  22410133504066,
  31066673127616,
  31066673127616,
  22272727580866,
  22272727580866,
  417753473088,
  417753473088,
  417753464898,
  417753464898,
  280347549888,
  280347549888,
  280347541698,
  280347541698,
  31204079050816,
  31204079050816,
  31204079042626,
  31204079042626,
  31066673127616,
  31066673127616,
  31066673119426,
  31066673119426,
  412384763968,
  412384763968,
  412384755778,
  412384755778,
  274978840768,
  274978840768,
  274978832578,
  274978832578,
  30791762190400,
  30791762190400,
  21997816643650,
  21997816643650,
  30791761666240,
  30791761666240,
  21997816119490,
  21997816119490,
  22272728113216,
  22272728113216,
  31204079050816,
  31204079050816,
  22272728105026,
  22272728105026,
  31204079042626,
  31204079042626,
  22272727589056,
  22272727589056,
  31204078526656,
  31204078526656,
  22272727580866,
  22272727580866,
  31204078518466,
  31204078518466,
  5436612672,
  5436612672,
  5436604482,
  5436604482,
  5436088512,
  5436088512,
  5436080322,
  5436080322,
  31066673651776,
  31066673651776,
  31066673651776,
  31066673651776,
  31066673643586,
  31066673643586,
  31066673643586,
  31066673643586,
  31066673127616,
  31066673127616,
  31066673127616,
  31066673127616,
  31066673119426,
  31066673119426,
  31066673119426,
  31066673119426,
  280348074048,
  280348074048,
  417753473088,
  417753473088,
  280348065858,
  280348065858,
  417753464898,
  417753464898,
  280347549888,
  280347549888,
  417752948928,
  417752948928,
  280347541698,
  280347541698,
  417752940738,
  417752940738,
  30791762190400,
  30791762190400,
  30791762182210,
  30791762182210,
  30791761666240,
  30791761666240,
  30791761658050,
  30791761658050,
  31066673651776,
  31066673651776,
  22272728113216,
  22272728113216,
  31204079050816,
  31204079050816,
  31066673643586,
  31066673643586,
  22272728105026,
  22272728105026,
  31204079042626,
  31204079042626,
  31066673127616,
  31066673127616,
  22272727589056,
  22272727589056,
  31204078526656,
  31204078526656,
  31066673119426,
  31066673119426,
  22272727580866,
  22272727580866,
  31204078518466,
  31204078518466,
  67903552,
  67903552,
  67895362,
  67895362,
  67379392,
  67379392,
  67371202,
  67371202,
  31204079050816,
  31204079050816,
  22410133504066,
  22410133504066,
  31204078526656,
  31204078526656,
  22410132979906,
  22410132979906,
  30791695081536,
  30791695081536,
  21997749534786,
  21997749534786,
  30791694557376,
  30791694557376,
  21997749010626,
  21997749010626,
  22410133512256,
  22410133512256,
  22410133512256,
  22410133512256,
  22410133504066,
  22410133504066,
  22410133504066,
  22410133504066,
  22410132988096,
  22410132988096,
  22410132988096,
  22410132988096,
  22410132979906,
  22410132979906,
  22410132979906,
  22410132979906,
  417753473088,
  417753473088,
  417753464898,
  417753464898,
  417752948928,
  417752948928,
  417752940738,
  417752940738,
  21997816651840,
  21997816651840,
  30791762190400,
  30791762190400,
  21997816643650,
  21997816643650,
  30791762182210,
  30791762182210,
  21997816127680,
  21997816127680,
  30791761666240,
  30791761666240,
  21997816119490,
  21997816119490,
  30791761658050,
  30791761658050,
  22410133512256,
  22410133512256,
  22272728113216,
  22272728113216,
  31204079050816,
  31204079050816,
  22410133504066,
  22410133504066,
  22272728105026,
  22272728105026,
  31204079042626,
  31204079042626,
  22410132988096,
  22410132988096,
  22272727589056,
  22272727589056,
  31204078526656,
  31204078526656,
  22410132979906,
  22410132979906,
  22272727580866,
  22272727580866,
  31204078518466,
  31204078518466,
  5369503808,
  5369503808,
  5369495618,
  5369495618,
  5368979648,
  5368979648,
  5368971458,
  5368971458,
  417753473088,
  417753473088,
  417753473088,
  417753473088,
  417753464898,
  417753464898,
  417753464898,
  417753464898,
  417752948928,
  417752948928,
  417752948928,
  417752948928,
  417752940738,
  417752940738,
  417752940738,
  417752940738,
  30791762190400,
  30791762190400,
  30791762190400,
  30791762190400,
  30791762182210,
  30791762182210,
  30791762182210,
  30791762182210,
  30791761666240,
  30791761666240,
  30791761666240,
  30791761666240,
  30791761658050,
  30791761658050,
  30791761658050,
  30791761658050,
  31204079050816,
  31204079050816,
  31204079050816,
  31204079050816,
  22272728113216,
  22272728113216,
  31204079050816,
  31204079050816,
  31204079042626,
  31204079042626,
  31204079042626,
  31204079042626,
  22272728105026,
  22272728105026,
  31204079042626,
  31204079042626,
  31204078526656,
  31204078526656,
  31204078526656,
  31204078526656,
  22272727589056,
  22272727589056,
  31204078526656,
  31204078526656,
  31204078518466,
  31204078518466,
  31204078518466,
  31204078518466,
  22272727580866,
  22272727580866,
  31204078518466,
  31204078518466,
  31066673651776,
  31066673651776,
  22272728113216,
  22272728113216,
  31066673651776,
  31066673651776,
  31066673643586,
  31066673643586,
  22272728105026,
  22272728105026,
  31066673643586,
  31066673643586,
  31066673127616,
  31066673127616,
  22272727589056,
  22272727589056,
  31066673127616,
  31066673127616,
  31066673119426,
  31066673119426,
  22272727580866,
  22272727580866,
  31066673119426,
  31066673119426,
  31204079050816,
  31204079050816,
  31204079042626,
  31204079042626,
  31204078526656,
  31204078526656,
  31204078518466,
  31204078518466,
  412384763968,
  412384763968,
  412384755778,
  412384755778,
  412384239808,
  412384239808,
  412384231618,
  412384231618,
  22410133512256,
  22410133512256,
  22272728113216,
  22272728113216,
  31204079050816,
  31204079050816,
  22410133504066,
  22410133504066,
  22272728105026,
  22272728105026,
  31204079042626,
  31204079042626,
  22410132988096,
  22410132988096,
  22272727589056,
  22272727589056,
  22410132988096,
  22410132988096,
  22410132979906,
  22410132979906,
  22272727580866,
  22272727580866,
  22410132979906,
  22410132979906]
def ccsdt_t2_bbbb_cert_1 : List Nat := [31204079050816,
  31204079050816,
  31204079050816,
  31204079050816,
  22272728113216,
  22272728113216,
  31204079050816,
  31204079050816,
  31204079042626,
  31204079042626,
  31204079042626,
  31204079042626,
  22272728105026,
  22272728105026,
  31204079042626,
  31204079042626,
  22272727589056,
  22272727589056,
  31204078526656,
  31204078526656,
  22272727589056,
  22272727589056,
  22272727589056,
  22272727589056,
  22272727580866,
  22272727580866,
  31204078518466,
  31204078518466,
  22272727580866,
  22272727580866,
  22272727580866,
  22272727580866,
  5436612672,
  5436612672,
  5436612672,
  5436612672,
  5436604482,
  5436604482,
  5436604482,
  5436604482,
  5436088512,
  5436088512,
  5436088512,
  5436088512,
  5436080322,
  5436080322,
  5436080322,
  5436080322,
  30791695081536,
  30791695081536,
  30791695073346,
  30791695073346,
  30791694557376,
  30791694557376,
  30791694549186,
  30791694549186,
  417753473088,
  417753473088,
  280348074048,
  280348074048,
  417753473088,
  417753473088,
  417753464898,
  417753464898,
  280348065858,
  280348065858,
  417753464898,
  417753464898,
  417752948928,
  417752948928,
  280347549888,
  280347549888,
  417752948928,
  417752948928,
  417752940738,
  417752940738,
  280347541698,
  280347541698,
  417752940738,
  417752940738,
  30791762190400,
  30791762190400,
  21997816651840,
  21997816651840,
  30791762190400,
  30791762190400,
  30791762182210,
  30791762182210,
  21997816643650,
  21997816643650,
  30791762182210,
  30791762182210,
  30791761666240,
  30791761666240,
  21997816127680,
  21997816127680,
  30791761666240,
  30791761666240,
  30791761658050,
  30791761658050,
  21997816119490,
  21997816119490,
  30791761658050,
  30791761658050,
  794688,
  794688,
  786498,
  786498,
  270528,
  270528,
  262338,
  262338,
  67903552,
  67903552,
  67895362,
  67895362,
  5369503808,
  5369503808,
  5368979648,
  5368979648,
  5436612672,
  5436612672,
  5436612672,
  5436612672,
  5436612672,
  5436612672,
  5436604482,
  5436604482,
  5436612672,
  5436612672,
  5436088512,
  5436088512,
  794688,
  794688,
  67903552,
  67903552,
  67379392,
  67379392,
  5369503808,
  5369503808,
  5369495618,
  5369495618,
  274979364928,
  274979364928,
  5436612672,
  5436612672,
  5436604482,
  5436604482,
  5436088512,
  5436088512,
  5436080322,
  5436080322,
  5436612672,
  5436612672,
  5436604482,
  5436604482,
  5436088512,
  5436088512,
  5436080322,
  5436080322,
  30791695081536,
  30791695081536,
  280348074048,
  280348074048,
  280348065858,
  280348065858,
  417753473088,
  417753473088,
  417753464898,
  417753464898,
  280348074048,
  280348074048,
  280348065858,
  280348065858,
  30791762190400,
  30791762190400,
  30791761666240,
  30791761666240,
  21997816651840,
  21997816651840,
  21997816127680,
  21997816127680,
  30791762190400,
  30791762190400,
  30791761666240,
  30791761666240,
  417753473088,
  417753473088,
  417753464898,
  417753464898,
  417753473088,
  417753473088,
  417753464898,
  417753464898,
  280348074048,
  280348074048,
  280348065858,
  280348065858,
  280348074048,
  280348074048,
  280348065858,
  280348065858,
  280347549888,
  280347549888,
  280347541698,
  280347541698,
  417753473088,
  417753473088,
  417753464898,
  417753464898,
  417752948928,
  417752948928,
  417752940738,
  417752940738,
  30791762190400,
  30791762190400,
  30791761666240,
  30791761666240,
  30791762190400,
  30791762190400,
  30791761666240,
  30791761666240,
  21997816651840,
  21997816651840,
  21997816643650,
  21997816643650,
  21997816127680,
  21997816127680,
  21997816119490,
  21997816119490,
  30791762190400,
  30791762190400,
  30791762182210,
  30791762182210,
  30791761666240,
  30791761666240,
  30791761658050,
  30791761658050,
  30791762190400,
  30791762190400,
  30791761666240,
  30791761666240,
  31204079050816,
  31204079050816,
  31204079050816,
  31204079050816,
  22272728113216,
  22272728113216,
  31204079050816,
  31204079050816,
  22272728113216,
  22272728113216,
  22272728105026,
  22272728105026,
  22410133512256,
  22410133512256,
  22410133504066,
  22410133504066,
  31066673651776,
  31066673651776,
  31066673643586,
  31066673643586,
  31066673651776,
  31066673651776,
  31066673127616,
  31066673127616,
  22272728113216,
  22272728113216,
  22272727589056,
  22272727589056,
  31204079050816,
  31204079050816,
  31204078526656,
  31204078526656,
  412384763968,
  412384763968,
  5436612672,
  5436612672,
  5436604482,
  5436604482,
  5436088512,
  5436088512,
  5436080322,
  5436080322,
  21997749542976,
  21997749542976,
  31204079050816,
  31204079050816,
  31204079042626,
  31204079042626,
  22410133512256,
  22410133512256,
  22410133504066,
  22410133504066,
  31204079050816,
  31204079050816,
  31204079042626,
  31204079042626,
  31066673651776,
  31066673651776,
  31066673651776,
  31066673651776,
  31204079050816,
  31204079050816,
  31066673651776,
  31066673651776,
  31204079050816,
  31204079050816,
  31204079042626,
  31204079042626,
  31204079050816,
  31204079050816,
  31204079042626,
  31204079042626,
  22272728113216,
  22272728113216,
  22272728105026,
  22272728105026,
  31204079050816,
  31204079050816,
  31204079042626,
  31204079042626,
  22272728113216,
  22272728113216,
  22410133512256,
  22410133512256,
  31066673651776,
  31066673651776,
  31204079050816,
  31204079050816,
  31204079042626,
  31204079042626,
  31204079050816,
  31204079050816,
  31204079042626,
  31204079042626,
  31204079050816,
  31204079050816,
  31204078526656,
  31204078526656,
  31204079050816,
  31204079050816,
  31204078526656,
  31204078526656,
  22272728113216,
  22272728113216,
  22272728113216,
  22272728113216,
  22272728105026,
  22272728105026,
  22272727589056,
  22272727589056,
  22272727580866,
  22272727580866,
  31204079050816,
  31204079050816,
  31204079042626,
  31204079042626,
  31204078526656,
  31204078526656,
  31204078518466,
  31204078518466,
  31204079050816,
  31204079050816,
  417753473088,
  417753473088,
  417753464898,
  417753464898,
  21997816651840,
  21997816651840,
  21997816127680,
  21997816127680,
  22410133512256,
  22410133512256]

/-- Check ccsdt_t2_bbbb.  -/
theorem ccsdt_t2_bbbb : isZeroSpin kinds [aᵥ, bᵥ, iₒ, jₒ] 16 [true, true, true, true]
    (Prog.outs [2, 3, 0, 1] (ccsdt_t2eqns))
    (Prog.scale (-1) (ccsdt_t2_bbbb))
    (ccsdt_t2_bbbb_cert_0 ++ (ccsdt_t2_bbbb_cert_1)) = true := by decide +kernel

def ccdq_t2_bbbb_cert_0 : List Nat := [67903552,
  67903552,
  67895362,
  67895362,
  67379392,
  67379392,
  67371202,
  67371202,
  5369503808,
  5369503808,
  5369495618,
  5369495618,
  5368979648,
  5368979648,
  5368971458,
  5368971458,
  31066673651776,
  31066673651776,
  22272728113216,
  22272728113216,
  31066673651776,
  31066673651776,
  31066673643586,
  31066673643586,
  22272728105026,
  22272728105026,
  31066673643586,
  31066673643586,
  31066673127616,
  31066673127616,
  22272727589056,
  22272727589056,
  31066673127616,
  31066673127616,
  31066673119426,
  31066673119426,
  22272727580866,
  22272727580866,
  31066673119426,
  31066673119426,
  31204079050816,
  31204079050816,
  31204079042626,
  31204079042626,
  31204078526656,
  31204078526656,
  31204078518466,
  31204078518466,
  412384763968,
  412384763968,
  412384755778,
  412384755778,
  412384239808,
  412384239808,
  412384231618,
  412384231618,
  22410133512256,
  22410133512256,
  22272728113216,
  22272728113216,
  31204079050816,
  31204079050816,
  22410133504066,
  22410133504066,
  22272728105026,
  22272728105026,
  31204079042626,
  31204079042626,
  22410132988096,
  22410132988096,
  22272727589056,
  22272727589056,
  22410132988096,
  22410132988096,
  22410132979906,
  22410132979906,
  22272727580866,
  22272727580866,
  22410132979906,
  22410132979906,
  31204079050816,
  31204079050816,
  31204079050816,
  31204079050816,
  22272728113216,
  22272728113216,
  31204079050816,
  31204079050816,
  31204079042626,
  31204079042626,
  31204079042626,
  31204079042626,
  22272728105026,
  22272728105026,
  31204079042626,
  31204079042626,
  22272727589056,
  22272727589056,
  31204078526656,
  31204078526656,
  22272727589056,
  22272727589056,
  22272727589056,
  22272727589056,
  22272727580866,
  22272727580866,
  31204078518466,
  31204078518466,
  22272727580866,
  22272727580866,
  22272727580866,
  22272727580866,
  5436612672,
  5436612672,
  5436612672,
  5436612672,
  5436604482,
  5436604482,
  5436604482,
  5436604482,
  5436088512,
  5436088512,
  5436088512,
  5436088512,
  5436080322,
  5436080322,
  5436080322,
  5436080322,
  30791695081536,
  30791695081536,
  30791695073346,
  30791695073346,
  30791694557376,
  30791694557376,
  30791694549186,
  30791694549186,
  31204079050816,
  31204079050816,
  31204079050816,
  31204079050816,
  31066673651776,
  31066673651776,
  22410133512256,
  22410133512256,
  22272728113216,
  22272728113216,
  31204079050816,
  31204079050816,
  31204079042626,
  31204079042626,
  31204079042626,
  31204079042626,
  31066673643586,
  31066673643586,
  22410133504066,
  22410133504066,
  22272728105026,
  22272728105026,
  31204079042626,
  31204079042626,
  31204078526656,
  31204078526656,
  31204078526656,
  31204078526656,
  31066673127616,
  31066673127616,
  22410132988096,
  22410132988096,
  22272727589056,
  22272727589056,
  31204078526656,
  31204078526656,
  31204078518466,
  31204078518466,
  31204078518466,
  31204078518466,
  31066673119426,
  31066673119426,
  22410132979906,
  22410132979906,
  22272727580866,
  22272727580866,
  31204078518466,
  31204078518466,
  794688,
  794688,
  786498,
  786498,
  270528,
  270528,
  262338,
  262338,
  67903552,
  67903552,
  67895362,
  67895362,
  5369503808,
  5369503808,
  5368979648,
  5368979648,
  794688,
  794688,
  274979364928,
  274979364928,
  5436612672,
  5436612672,
  5436604482,
  5436604482,
  5436088512,
  5436088512,
  5436080322,
  5436080322,
  5436612672,
  5436612672,
  5436604482,
  5436604482,
  5436088512,
  5436088512,
  5436080322,
  5436080322,
  30791695081536,
  30791695081536,
  31066673651776,
  31066673651776,
  31066673651776,
  31066673651776,
  31204079050816,
  31204079050816,
  22272728113216,
  22272728113216,
  22410133512256,
  22410133512256,
  31066673651776,
  31066673651776,
  31204079050816,
  31204079050816,
  31204079042626,
  31204079042626,
  22410133512256,
  22410133512256,
  22410133504066,
  22410133504066,
  31204079050816,
  31204079050816,
  31204079042626,
  31204079042626,
  31066673651776,
  31066673651776,
  31066673651776,
  31066673651776,
  31204079050816,
  31204079050816,
  31066673651776,
  31066673651776,
  31204079050816,
  31204079050816,
  31204079042626,
  31204079042626,
  31204079050816,
  31204079050816,
  31204079042626,
  31204079042626,
  22272728113216,
  22272728113216,
  22272728105026,
  22272728105026,
  31204079050816,
  31204079050816,
  31204079042626,
  31204079042626,
  22272728113216,
  22272728113216,
  22410133512256,
  22410133512256,
  31066673651776,
  31066673651776]

/-- Check ccdq_t2_bbbb.  -/
theorem ccdq_t2_bbbb : isZeroSpin kinds [aᵥ, bᵥ, iₒ, jₒ] 16 [true, true, true, true]
    (Prog.outs [2, 3, 0, 1] (ccdq_t2eqns))
    (Prog.scale (-1) (ccdq_t2_bbbb))
    (ccdq_t2_bbbb_cert_0) = true := by decide +kernel

end Verif.Cert
