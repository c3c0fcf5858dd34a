import Verif.Ein.Ops2
import Verif.Gen.Ccd
import Verif.Gen.Ccsd
import Verif.Gen.Ccsdt
import Verif.Gen.Ccdq
import Verif.Gen.Ucc4
import Verif.Gen.Triples
import Verif.Gen.Qf

/-! Written by `/verif/tools/gen.py`. Checks of einsum programs. -/

set_option maxRecDepth 100000

namespace Verif.Cert

open Verif.Ein Verif.Ein.N


open Verif.Gen

def ccd_wicked_cert_0 : List Nat := [67903552,
  67903552,
  67895362,
  67895362,
  67379392,
  67379392,
  67371202,
  67371202,
  5369503808,
  5369503808,
  5369495618,
  5369495618,
  5368979648,
  5368979648,
  5368971458,
  5368971458,
  31066673651776,
  31066673651776,
  31066673643586,
  31066673643586,
  31066673127616,
  31066673127616,
  31066673119426,
  31066673119426,
  31204079050816,
  31204079050816,
  31204079042626,
  31204079042626,
  31204078526656,
  31204078526656,
  31204078518466,
  31204078518466,
  412384763968,
  412384763968,
  412384755778,
  412384755778,
  412384239808,
  412384239808,
  412384231618,
  412384231618,
  31204079050816,
  31204079050816,
  31204079042626,
  31204079042626,
  22410132988096,
  22410132988096,
  22410132979906,
  22410132979906,
  31204079050816,
  31204079050816,
  31204079042626,
  31204079042626,
  22272727589056,
  22272727589056,
  22272727580866,
  22272727580866,
  5436612672,
  5436612672,
  5436604482,
  5436604482,
  5436088512,
  5436088512,
  5436080322,
  5436080322,
  30791695081536,
  30791695081536,
  30791695073346,
  30791695073346,
  30791694557376,
  30791694557376,
  30791694549186,
  30791694549186,
  794688,
  794688,
  786498,
  786498,
  270528,
  270528,
  262338,
  262338,
  67903552,
  67903552,
  67895362,
  67895362,
  5369503808,
  5369503808,
  5368979648,
  5368979648,
  794688,
  794688,
  274979364928,
  274979364928,
  5436612672,
  5436612672,
  5436604482,
  5436604482,
  5436088512,
  5436088512,
  5436080322,
  5436080322,
  30791695081536,
  30791695081536,
  31204079050816,
  31204079050816,
  31204079042626,
  31204079042626,
  31066673651776,
  31066673651776,
  31066673651776,
  31066673651776,
  31204079050816,
  31204079050816,
  31204079042626,
  31204079042626,
  31066673651776,
  31066673651776]

/-- Check ccd_wicked. C37 -/
theorem ccd_wicked : isZero kinds [aᵥ, bᵥ, iₒ, jₒ] 16
    (Prog.outs [2, 3, 0, 1] (Prog.drop [31] (ccsd_t2resid)) ++ (Prog.scale (-1) (ccd_t2residual)))
    (ccd_wicked_cert_0) = true := by decide +kernel

def ccdq_t4_zero_cert_0 : List Nat := [67903552,
  67903552,
  67895362,
  67895362,
  67379392,
  67379392,
  67371202,
  67371202,
  5369503808,
  5369503808,
  5369495618,
  5369495618,
  5368979648,
  5368979648,
  5368971458,
  5368971458,
  31066673651776,
  31066673651776,
  31066673643586,
  31066673643586,
  31066673127616,
  31066673127616,
  31066673119426,
  31066673119426,
  31204079050816,
  31204079050816,
  31204079042626,
  31204079042626,
  31204078526656,
  31204078526656,
  31204078518466,
  31204078518466,
  412384763968,
  412384763968,
  412384755778,
  412384755778,
  412384239808,
  412384239808,
  412384231618,
  412384231618,
  31204079050816,
  31204079050816,
  31204079042626,
  31204079042626,
  22410132988096,
  22410132988096,
  22410132979906,
  22410132979906,
  31204079050816,
  31204079050816,
  31204079042626,
  31204079042626,
  22272727589056,
  22272727589056,
  22272727580866,
  22272727580866,
  5436612672,
  5436612672,
  5436604482,
  5436604482,
  5436088512,
  5436088512,
  5436080322,
  5436080322,
  30791695081536,
  30791695081536,
  30791695073346,
  30791695073346,
  30791694557376,
  30791694557376,
  30791694549186,
  30791694549186,
  794688,
  794688,
  786498,
  786498,
  270528,
  270528,
  262338,
  262338,
  67903552,
  67903552,
  67895362,
  67895362,
  5369503808,
  5369503808,
  5368979648,
  5368979648,
  794688,
  794688,
  274979364928,
  274979364928,
  5436612672,
  5436612672,
  5436604482,
  5436604482,
  5436088512,
  5436088512,
  5436080322,
  5436080322,
  30791695081536,
  30791695081536,
  31204079050816,
  31204079050816,
  31204079042626,
  31204079042626,
  31066673651776,
  31066673651776,
  31066673651776,
  31066673651776,
  31204079050816,
  31204079050816,
  31204079042626,
  31204079042626,
  31066673651776,
  31066673651776]

/-- Check ccdq_t4_zero. C38 -/
theorem ccdq_t4_zero : isZero kinds [aᵥ, bᵥ, iₒ, jₒ] 16
    (Prog.outs [2, 3, 0, 1] (Prog.drop [55] (ccdq_t2eqns)) ++ (Prog.scale (-1) (ccd_t2residual)))
    (ccdq_t4_zero_cert_0) = true := by decide +kernel

def ccsdt_t1_t3_zero_cert_0 : List Nat := [8256,
  8256,
  794688,
  794688,
  794688,
  794688,
  64,
  64,
  786496,
  786496,
  3256107072,
  3256107072,
  34357312,
  34357312,
  5436612672,
  5436612672,
  3222544448,
  3222544448,
  5436612672,
  5436612672,
  5436612672,
  5436612672,
  794688,
  794688,
  67903552,
  67903552,
  5369503808,
  5369503808,
  8256,
  8256,
  794688,
  794688,
  794688,
  794688,
  64,
  64,
  786496,
  786496,
  3256107072,
  3256107072,
  34357312,
  34357312,
  5436612672,
  5436612672,
  3222544448,
  3222544448,
  5436612672,
  5436612672,
  5436612672,
  5436612672,
  794688,
  794688,
  67903552,
  67903552,
  5369503808,
  5369503808]

/-- Check ccsdt_t1_t3_zero. C38 -/
theorem ccsdt_t1_t3_zero : isZero kinds [aᵥ, iₒ] 2
    (Prog.outs [1, 0] (Prog.drop [47] (ccsdt_t1eqns)) ++ (Prog.scale (-1) (Prog.outs [1, 0] (ccsd_t1resid))))
    (ccsdt_t1_t3_zero_cert_0) = true := by decide +kernel

def ccsdt_t2_t3_zero_cert_0 : List Nat := [67903552,
  67903552,
  67895362,
  67895362,
  67379392,
  67379392,
  67371202,
  67371202,
  5436612672,
  5436612672,
  5436604482,
  5436604482,
  5436088512,
  5436088512,
  5436080322,
  5436080322,
  5436612672,
  5436612672,
  5436604482,
  5436604482,
  5436088512,
  5436088512,
  5436080322,
  5436080322,
  5369503808,
  5369503808,
  5369495618,
  5369495618,
  5368979648,
  5368979648,
  5368971458,
  5368971458,
  31204079050816,
  31204079050816,
  22410133504066,
  22410133504066,
  31066673127616,
  31066673127616,
  22272727580866,
  22272727580866,
  417753473088,
  417753473088,
  417753464898,
  417753464898,
  280347549888,
  280347549888,
  280347541698,
  280347541698,
  31204079050816,
  31204079050816,
  31204079042626,
  31204079042626,
  31066673127616,
  31066673127616,
  31066673119426,
  31066673119426,
  412384763968,
  412384763968,
  412384755778,
  412384755778,
  274978840768,
  274978840768,
  274978832578,
  274978832578,
  30791762190400,
  30791762190400,
  21997816643650,
  21997816643650,
  30791761666240,
  30791761666240,
  21997816119490,
  21997816119490,
  31204079050816,
  31204079050816,
  31204079042626,
  31204079042626,
  31204078526656,
  31204078526656,
  31204078518466,
  31204078518466,
  5436612672,
  5436612672,
  5436604482,
  5436604482,
  5436088512,
  5436088512,
  5436080322,
  5436080322,
  31066673651776,
  31066673651776,
  31066673643586,
  31066673643586,
  31066673127616,
  31066673127616,
  31066673119426,
  31066673119426,
  417753473088,
  417753473088,
  417753464898,
  417753464898,
  417752948928,
  417752948928,
  417752940738,
  417752940738,
  30791762190400,
  30791762190400,
  30791762182210,
  30791762182210,
  30791761666240,
  30791761666240,
  30791761658050,
  30791761658050,
  67903552,
  67903552,
  67895362,
  67895362,
  67379392,
  67379392,
  67371202,
  67371202,
  31204079050816,
  31204079050816,
  22410133504066,
  22410133504066,
  31204078526656,
  31204078526656,
  22410132979906,
  22410132979906,
  30791695081536,
  30791695081536,
  21997749534786,
  21997749534786,
  30791694557376,
  30791694557376,
  21997749010626,
  21997749010626,
  22410133512256,
  22410133512256,
  22410133504066,
  22410133504066,
  22410132988096,
  22410132988096,
  22410132979906,
  22410132979906,
  417753473088,
  417753473088,
  417753464898,
  417753464898,
  417752948928,
  417752948928,
  417752940738,
  417752940738,
  30791762190400,
  30791762190400,
  30791762182210,
  30791762182210,
  30791761666240,
  30791761666240,
  30791761658050,
  30791761658050,
  5369503808,
  5369503808,
  5369495618,
  5369495618,
  5368979648,
  5368979648,
  5368971458,
  5368971458,
  417753473088,
  417753473088,
  417753464898,
  417753464898,
  417752948928,
  417752948928,
  417752940738,
  417752940738,
  30791762190400,
  30791762190400,
  30791762182210,
  30791762182210,
  30791761666240,
  30791761666240,
  30791761658050,
  30791761658050,
  31066673651776,
  31066673651776,
  31066673643586,
  31066673643586,
  31066673127616,
  31066673127616,
  31066673119426,
  31066673119426,
  31204079050816,
  31204079050816,
  31204079042626,
  31204079042626,
  31204078526656,
  31204078526656,
  31204078518466,
  31204078518466,
  412384763968,
  412384763968,
  412384755778,
  412384755778,
  412384239808,
  412384239808,
  412384231618,
  412384231618,
  31204079050816,
  31204079050816,
  31204079042626,
  31204079042626,
  22410132988096,
  22410132988096,
  22410132979906,
  22410132979906,
  31204079050816,
  31204079050816,
  31204079042626,
  31204079042626,
  22272727589056,
  22272727589056,
  22272727580866,
  22272727580866,
  5436612672,
  5436612672,
  5436604482,
  5436604482,
  5436088512,
  5436088512,
  5436080322,
  5436080322,
  30791695081536,
  30791695081536,
  30791695073346,
  30791695073346,
  30791694557376,
  30791694557376,
  30791694549186,
  30791694549186,
  794688,
  794688,
  786498,
  786498,
  270528,
  270528,
  262338,
  262338,
  67903552,
  67903552,
  67895362,
  67895362,
  67379392,
  67379392,
  67371202,
  67371202,
  5436612672,
  5436612672,
  5436604482,
  5436604482,
  5436088512,
  5436088512,
  5436080322,
  5436080322,
  5436612672,
  5436612672,
  5436604482,
  5436604482,
  5436088512,
  5436088512,
  5436080322,
  5436080322,
  5369503808,
  5369503808,
  5369495618,
  5369495618,
  5368979648,
  5368979648,
  5368971458,
  5368971458,
  31204079050816,
  31204079050816,
  22410133504066,
  22410133504066,
  31066673127616,
  31066673127616,
  22272727580866,
  22272727580866,
  417753473088,
  417753473088,
  417753464898,
  417753464898,
  280347549888,
  280347549888,
  280347541698,
  280347541698,
  31204079050816,
  31204079050816,
  31204079042626,
  31204079042626,
  31066673127616,
  31066673127616,
  31066673119426,
  31066673119426,
  412384763968,
  412384763968,
  412384755778,
  412384755778,
  274978840768,
  274978840768,
  274978832578,
  274978832578,
  30791762190400,
  30791762190400,
  21997816643650,
  21997816643650,
  30791761666240,
  30791761666240,
  21997816119490,
  21997816119490,
  31204079050816,
  31204079050816,
  31204079042626,
  31204079042626,
  31204078526656,
  31204078526656,
  31204078518466,
  31204078518466,
  5436612672,
  5436612672,
  5436604482,
  5436604482,
  5436088512,
  5436088512,
  5436080322,
  5436080322,
  31066673651776,
  31066673651776,
  31066673643586,
  31066673643586,
  31066673127616,
  31066673127616,
  31066673119426,
  31066673119426,
  417753473088,
  417753473088,
  417753464898,
  417753464898,
  417752948928,
  417752948928,
  417752940738,
  417752940738,
  30791762190400,
  30791762190400,
  30791762182210,
  30791762182210,
  30791761666240,
  30791761666240,
  30791761658050,
  30791761658050,
  67903552,
  67903552,
  67895362,
  67895362,
  67379392,
  67379392,
  67371202,
  67371202,
  31204079050816,
  31204079050816,
  22410133504066,
  22410133504066,
  31204078526656,
  31204078526656,
  22410132979906,
  22410132979906,
  30791695081536,
  30791695081536,
  21997749534786,
  21997749534786,
  30791694557376,
  30791694557376,
  21997749010626,
  21997749010626,
  22410133512256,
  22410133512256,
  22410133504066,
  22410133504066,
  22410132988096,
  22410132988096,
  22410132979906,
  22410132979906,
  417753473088,
  417753473088,
  417753464898,
  417753464898,
  417752948928,
  417752948928,
  417752940738,
  417752940738]
def ccsdt_t2_t3_zero_cert_1 : List Nat := [30791762190400,
  30791762190400,
  30791762182210,
  30791762182210,
  30791761666240,
  30791761666240,
  30791761658050,
  30791761658050,
  5369503808,
  5369503808,
  5369495618,
  5369495618,
  5368979648,
  5368979648,
  5368971458,
  5368971458,
  417753473088,
  417753473088,
  417753464898,
  417753464898,
  417752948928,
  417752948928,
  417752940738,
  417752940738,
  30791762190400,
  30791762190400,
  30791762182210,
  30791762182210,
  30791761666240,
  30791761666240,
  30791761658050,
  30791761658050,
  31066673651776,
  31066673651776,
  31066673643586,
  31066673643586,
  31066673127616,
  31066673127616,
  31066673119426,
  31066673119426,
  31204079050816,
  31204079050816,
  31204079042626,
  31204079042626,
  31204078526656,
  31204078526656,
  31204078518466,
  31204078518466,
  412384763968,
  412384763968,
  412384755778,
  412384755778,
  412384239808,
  412384239808,
  412384231618,
  412384231618,
  31204079050816,
  31204079050816,
  31204079042626,
  31204079042626,
  22410132988096,
  22410132988096,
  22410132979906,
  22410132979906,
  31204079050816,
  31204079050816,
  31204079042626,
  31204079042626,
  22272727589056,
  22272727589056,
  22272727580866,
  22272727580866,
  5436612672,
  5436612672,
  5436604482,
  5436604482,
  5436088512,
  5436088512,
  5436080322,
  5436080322,
  30791695081536,
  30791695081536,
  30791695073346,
  30791695073346,
  30791694557376,
  30791694557376,
  30791694549186,
  30791694549186,
  794688,
  794688,
  786498,
  786498,
  270528,
  270528,
  262338,
  262338]

/-- Check ccsdt_t2_t3_zero. C38 -/
theorem ccsdt_t2_t3_zero : isZero kinds [aᵥ, bᵥ, iₒ, jₒ] 16
    (Prog.outs [2, 3, 0, 1] (Prog.drop [47] (ccsdt_t2eqns)) ++ (Prog.scale (-1) (Prog.outs [2, 3, 0, 1] (ccsd_t2resid))))
    (ccsdt_t2_t3_zero_cert_0 ++ (ccsdt_t2_t3_zero_cert_1)) = true := by decide +kernel

def ccd_energy_wicked_cert_0 : List Nat := [615656346818663737691860001564743965704370926101022604186692084441339402679643915803347910232576806887603562348544,
  0,
  2,
  2,
  794688,
  794688,
  615656346818663737691860001564743965704370926101022604186692084441339402679643915803347910232576806887603562348544,
  0,
  2,
  2,
  786498,
  786498]

/-- Check ccd_energy_wicked.  -/
theorem ccd_energy_wicked : isZero kinds [] 4
    (spinorbitalCCDE ++ (Prog.scale (-1) (ccdEnergy)))
    (ccd_energy_wicked_cert_0) = true := by decide +kernel

def ccsd_energy_pdagq_cert_0 : List Nat := [615656346818663737691860001564743965704370926101022604186692084441339402679643915803347910232576806887603562348544,
  0,
  64,
  64,
  2,
  2,
  786498,
  786498,
  262338,
  262338,
  615656346818663737691860001564743965704370926101022604186692084441339402679643915803347910232576806887603562348544,
  0,
  2,
  2,
  794688,
  794688,
  64,
  64,
  794688,
  794688]

/-- Check ccsd_energy_pdagq.  -/
theorem ccsd_energy_pdagq : isZero kinds [] 4
    (pdagq_ccsd_energy ++ (Prog.scale (-1) (spinorbitalCCSDE)))
    (ccsd_energy_pdagq_cert_0) = true := by decide +kernel

def lccd_offset_cert_0 : List Nat := [31204079050816,
  31204079050816,
  31204079042626,
  31204079042626,
  31066673651776,
  31066673651776,
  31066673651776,
  31066673651776,
  31204079050816,
  31204079050816,
  31204079042626,
  31204079042626,
  31066673651776,
  31066673651776,
  31204079050816,
  31204079050816,
  31204079042626,
  31204079042626,
  31066673651776,
  31066673651776,
  31066673651776,
  31066673651776,
  31204079050816,
  31204079050816,
  31204079042626,
  31204079042626,
  31066673651776,
  31066673651776]

/-- Check lccd_offset.  -/
theorem lccd_offset : isZero kinds [aᵥ, bᵥ, iₒ, jₒ] 4
    (doubles_resLCCDoffset ++ (Prog.scale (-1) (Prog.part [[23, 39, 39]] (ccd_t2residual))))
    (lccd_offset_cert_0) = true := by decide +kernel

def ucc4_offset_cert_0 : List Nat := [31204079050816,
  31204079050816,
  31204079042626,
  31204079042626,
  31066673651776,
  31066673651776,
  31066673651776,
  31066673651776,
  31204079050816,
  31204079050816,
  31204079042626,
  31204079042626,
  31066673651776,
  31066673651776,
  31204079050816,
  31204079050816,
  31204079042626,
  31204079042626,
  31066673651776,
  31066673651776,
  31066673651776,
  31066673651776,
  31204079050816,
  31204079050816,
  31204079042626,
  31204079042626,
  31066673651776,
  31066673651776]

/-- Check ucc4_offset.  -/
theorem ucc4_offset : isZero kinds [aᵥ, bᵥ, iₒ, jₒ] 4
    (Prog.scale (2) (offset_t2resid_t2squared) ++ (Prog.scale (-1) (doubles_resLCCDoffset)))
    (ucc4_offset_cert_0) = true := by decide +kernel

def ucc4_t1_cert_0 : List Nat := [34357312,
  34357312,
  5369503808,
  5369503808,
  64,
  64,
  8256,
  8256,
  786496,
  786496,
  8256,
  8256,
  64,
  64,
  786496,
  786496,
  67903552,
  67903552,
  5369503808,
  5369503808]

/-- Check ucc4_t1.  -/
theorem ucc4_t1 : isZero kinds [aᵥ, iₒ] 2
    (t1_residEqns ++ (Prog.scale (-1) (Prog.outs [1, 0] (Prog.part [[15], [15, 31], [23, 39]] (ccsdt_t1eqns)))))
    (ucc4_t1_cert_0) = true := by decide +kernel

def ucc4_t1t3_cert_0 : List Nat := [67903552,
  67903552,
  67379392,
  67379392,
  5369503808,
  5369503808,
  5369495618,
  5369495618,
  280348074048,
  280348074048,
  280348065858,
  280348065858,
  30791762190400,
  30791762190400,
  30791761666240,
  30791761666240,
  67903552,
  67903552,
  67895362,
  67895362,
  67379392,
  67379392,
  67371202,
  67371202,
  5369503808,
  5369503808,
  5369495618,
  5369495618,
  5368979648,
  5368979648,
  5368971458,
  5368971458,
  417753473088,
  417753473088,
  417753464898,
  417753464898,
  417752948928,
  417752948928,
  417752940738,
  417752940738,
  30791762190400,
  30791762190400,
  30791762182210,
  30791762182210,
  30791761666240,
  30791761666240,
  30791761658050,
  30791761658050]

/-- Check ucc4_t1t3.  -/
theorem ucc4_t1t3 : isZero kinds [aᵥ, bᵥ, iₒ, jₒ] 4
    (offset_t2resid_T1_T3 ++ (Prog.scale (-1) (Prog.outs [2, 3, 0, 1] (Prog.part [[23, 31], [23, 47]] (ccsdt_t2eqns)))))
    (ucc4_t1t3_cert_0) = true := by decide +kernel

def netT1_cert_0 : List Nat := [67903552,
  67903552,
  5369503808,
  5369503808,
  67903552,
  67903552,
  5369503808,
  5369503808]

/-- Check netT1.  -/
theorem netT1 : isZero kinds [aᵥ, iₒ] 2
    (Prog.outs [1, 0] (get_netT1_fromT2) ++ (Prog.scale (-1) (Prog.outs [1, 0] (Prog.part [[23, 39]] (ccsdt_t1eqns)))))
    (netT1_cert_0) = true := by decide +kernel

def netT2_cert_0 : List Nat := [417753473088,
  417753473088,
  417753464898,
  417753464898,
  417752948928,
  417752948928,
  417752940738,
  417752940738,
  30791762190400,
  30791762190400,
  30791762182210,
  30791762182210,
  30791761666240,
  30791761666240,
  30791761658050,
  30791761658050,
  417753473088,
  417753473088,
  417753464898,
  417753464898,
  417752948928,
  417752948928,
  417752940738,
  417752940738,
  30791762190400,
  30791762190400,
  30791762182210,
  30791762182210,
  30791761666240,
  30791761666240,
  30791761658050,
  30791761658050]

/-- Check netT2.  -/
theorem netT2 : isZero kinds [aᵥ, bᵥ, iₒ, jₒ] 4
    (Prog.outs [2, 3, 0, 1] (Prog.through tamps_antisym_T2 (build_netT2)) ++ (Prog.scale (-1) (Prog.outs [2, 3, 0, 1] (Prog.part [[23, 47]] (ccsdt_t2eqns)))))
    (netT2_cert_0) = true := by decide +kernel

def T1bar_cert_0 : List Nat := [67903552,
  67903552,
  67895362,
  67895362,
  67379392,
  67379392,
  67371202,
  67371202,
  5369503808,
  5369503808,
  5369495618,
  5369495618,
  5368979648,
  5368979648,
  5368971458,
  5368971458,
  67903552,
  67903552,
  67895362,
  67895362,
  67379392,
  67379392,
  67371202,
  67371202,
  5369503808,
  5369503808,
  5369495618,
  5369495618,
  5368979648,
  5368979648,
  5368971458,
  5368971458]

/-- Check T1bar.  -/
theorem T1bar : isZero kinds [aᵥ, bᵥ, iₒ, jₒ] 2
    (Prog.outs [2, 3, 0, 1] (Prog.through tamps_antisym_T2 (get_T2resid_fromT1bar)) ++ (Prog.scale (-1) (Prog.outs [2, 3, 0, 1] (Prog.part [[23, 31]] (ccsdt_t2eqns)))))
    (T1bar_cert_0) = true := by decide +kernel

def squareT_cert_0 : List Nat := [138580590918,
  1141662018,
  21993454059970,
  4405597569220,
  4403416023490,
  4403449561540,
  1142169798,
  3288604998]

/-- Check squareT.  -/
theorem squareT : isZero kinds [] 4
    (pdagq_T3energy ++ (Prog.scale (-1) (getE_squareBrackT)))
    (squareT_cert_0) = true := by decide +kernel

def optWnT3_eq_cert_0 : List Nat := [2283003892736064,
  2283003892736064,
  1720191378268224,
  1720191378268224,
  1157241458401344,
  1719916567470144,
  162160790664388672,
  162160790664388672,
  162160790664388672,
  162160790664388672,
  2283003892736064,
  2283003892736064,
  1720191378268224,
  1720191378268224,
  1157241458401344,
  1719916567470144,
  126140789738446912,
  126140789738446912,
  126140789738446912,
  126140789738446912,
  90111994866966592,
  126123201847369792,
  90111994866966592,
  126123201847369792,
  2283003892736064,
  2283003892736064,
  1720191378268224,
  1720191378268224,
  1157241458401344,
  1719916567470144,
  162160790664388672,
  162160790664388672,
  162160790664388672,
  162160790664388672,
  2283003892736064,
  2283003892736064,
  1720191378268224,
  1720191378268224,
  1157241458401344,
  1719916567470144,
  126140789738446912,
  126140789738446912,
  126140789738446912,
  126140789738446912,
  90111994866966592,
  126123201847369792,
  90111994866966592,
  126123201847369792]

/-- Check optWnT3_eq.  -/
theorem optWnT3_eq : isZero kinds [aᵥ, bᵥ, iₒ, jₒ] 8
    (Prog.outs [2, 3, 0, 1] (optWnT3) ++ (Prog.scale (-1) (Prog.outs [2, 3, 0, 1] (T3portion_Qf))))
    (optWnT3_eq_cert_0) = true := by decide +kernel

def Qf1_wicked_cert_0 : List Nat := [91229238300778560,
  91791913409847360,
  91229238300770370,
  91791913409839170,
  91229238300254400,
  91791913409323200,
  91229238300246210,
  91791913409315010,
  6918686269166592064,
  4613406347311718464,
  6918686269166583874,
  4613406347311710274,
  6918686269166067904,
  4613406347311194304,
  6918686269166059714,
  4613406347311186114,
  128375001661055040,
  92363794680651840,
  128375001661046850,
  92363794680643650,
  128375001660530880,
  92363794680127680,
  128375001660522690,
  92363794680119490,
  4613406347311718464,
  6918686269166592064,
  4613406347311710274,
  6918686269166583874,
  4613406347311194304,
  6918686269166067904,
  4613406347311186114,
  6918686269166059714,
  91229100895379520,
  91229100895379520,
  91229100895371330,
  91229100895371330,
  91229100894855360,
  91229100894855360,
  91229100894847170,
  91229100894847170,
  91791913409847360,
  91229238300778560,
  91791913409839170,
  91229238300770370,
  91791913409323200,
  91229238300254400,
  91791913409315010,
  91229238300246210,
  4613406209906319424,
  4613406209906319424,
  4613406209906311234,
  4613406209906311234,
  4613406209905795264,
  4613406209905795264,
  4613406209905787074,
  4613406209905787074,
  4613969022420787264,
  4613969022420787264,
  4613969022420779074,
  4613969022420779074,
  4613969022420263104,
  4613969022420263104,
  4613969022420254914,
  4613969022420254914,
  516598954856974917696,
  516598954856974917696,
  516598954856974909506,
  516598954856974909506,
  516598946063028854976,
  369061031064316944576,
  516598946063028846786,
  369061031064316936386,
  91237894840918080,
  127249101821321280,
  91237894840909890,
  127249101821313090,
  91237894840393920,
  127249101820797120,
  91237894840385730,
  127249101820788930,
  369061031064317468736,
  516598946063029379136,
  369061031064317460546,
  516598946063029370946,
  369061031064316944576,
  516598946063028854976,
  369061031064316936386,
  516598946063028846786,
  163849503152808000,
  163286828043739200,
  163849503152799810,
  163286828043731010,
  163849503152283840,
  163286828043215040,
  163849503152275650,
  163286828043206850,
  516598954856974917696,
  516598954856974917696,
  516598954856974909506,
  516598954856974909506,
  516598945925623455936,
  369061030926911545536,
  516598945925623447746,
  369061030926911537346,
  91237894840918080,
  127249101821321280,
  91237894840909890,
  127249101821313090,
  91237894840393920,
  127249101820797120,
  91237894840385730,
  127249101820788930,
  6918686406571991104,
  6918686406571991104,
  6918686406571982914,
  6918686406571982914,
  6918677475220529344,
  4613397553365655744,
  6918677475220521154,
  4613397553365647554,
  91238032246317120,
  127811914335789120,
  91238032246308930,
  127811914335780930,
  91237894840393920,
  127249101820797120,
  91237894840385730,
  127249101820788930,
  4613969297231585344,
  6919811894195527744,
  4613969297231577154,
  6919811894195519554,
  4613397553365655744,
  6918677475220529344,
  4613397553365647554,
  6918677475220521154,
  369061030926912069696,
  516598945925623980096,
  369061030926912061506,
  516598945925623971906,
  369061030926911545536,
  516598945925623455936,
  369061030926911537346,
  516598945925623447746,
  163286690638340160,
  163286690638340160,
  163286690638331970,
  163286690638331970,
  163286690637816000,
  163286690637816000,
  163286690637807810,
  163286690637807810,
  91229238300778560,
  91791913409847360,
  91229238300770370,
  91791913409839170,
  91229238300254400,
  91791913409323200,
  91229238300246210,
  91791913409315010,
  163286690638340160,
  163286690638340160,
  163286690638331970,
  163286690638331970,
  163286690637816000,
  163286690637816000,
  163286690637807810,
  163286690637807810,
  92355000735113280,
  92355000735113280,
  92355000735105090,
  92355000735105090,
  92355000734589120,
  92355000734589120,
  92355000734580930,
  92355000734580930,
  91238032246317120,
  127811914335789120,
  91238032246308930,
  127811914335780930,
  91238032245792960,
  127811914335264960,
  91238032245784770,
  127811914335256770,
  6920374844115394624,
  9224529415752130624,
  6920374844115386434,
  9224529415752122434,
  4613960228474724544,
  4613960228474724544,
  4613960228474716354,
  4613960228474716354,
  369061031064317468736,
  516598946063029379136,
  369061031064317460546,
  516598946063029370946,
  369061031064316944576,
  516598946063028854976,
  369061031064316936386,
  516598946063028846786,
  91229100895379520,
  91229100895379520,
  91229100895371330,
  91229100895371330,
  91229100894855360,
  91229100894855360,
  91229100894847170,
  91229100894847170,
  163286828043739200,
  163849503152808000,
  163286828043731010,
  163849503152799810,
  163286828043215040,
  163849503152283840,
  163286828043206850,
  163849503152275650,
  91791913409847360,
  91229238300778560,
  91791913409839170,
  91229238300770370,
  91791913409323200,
  91229238300254400,
  91791913409315010,
  91229238300246210,
  369097042271297871936,
  369097042271297871936,
  369097042271297863746,
  369097042271297863746,
  369097042271297347776,
  369097042271297347776,
  369097042271297339586,
  369097042271297339586,
  516707014859752742976,
  664172907444503846976,
  369097042133892464706,
  369097042133892464706,
  516707014859752218816,
  664172907444503322816,
  369097042133891940546,
  369097042133891940546,
  11531489256015667264,
  11531489256015667264,
  11531489256015659074,
  11531489256015659074,
  11531489256015667264,
  11531489256015667264,
  11531489256015659074,
  11531489256015659074,
  9225083159510261824,
  4614523315800514624,
  9225083159510253634,
  4614523315800506434,
  9225083159510261824,
  4614523315800514624,
  9225083159510253634,
  4614523315800506434,
  9225083159510261824,
  4614523315800514624,
  9225083159510253634,
  4614523315800506434,
  9225083159510261824,
  4614523315800514624,
  9225083159510253634,
  4614523315800506434,
  6918677475221053504,
  4613397553366179904,
  6918677475221053504,
  4613397553366179904,
  4613406347311194304,
  6918686269166067904,
  127811914335789120,
  91238032246317120,
  127811914335780930,
  91238032246308930,
  127811914335789120,
  91238032246317120,
  127811914335789120,
  91238032246317120,
  127811914335780930,
  91238032246308930,
  127811914335264960,
  91238032245792960,
  127811914335256770,
  91238032245784770,
  127811914335789120,
  91238032246317120,
  127811914335264960,
  91238032245792960,
  91229238300778560,
  91791913409847360,
  91229238300770370,
  91791913409839170,
  127249101821321280,
  91237894840918080,
  127249101821313090,
  91237894840909890,
  127249239226720320,
  91800707355385920,
  127249239226712130,
  91800707355377730,
  127249239226196160,
  91800707354861760,
  127249239226187970,
  91800707354853570,
  127249101821321280,
  91237894840918080,
  127249101821313090,
  91237894840909890,
  127249239226196160,
  91800707354861760,
  127249239226187970,
  91800707354853570,
  91791913409847360,
  91229238300778560,
  91791913409839170,
  91229238300770370,
  91791913409323200,
  91229238300254400,
  91791913409315010,
  91229238300246210,
  91791913409847360,
  91229238300778560,
  91791913409323200,
  91229238300254400,
  91791913409847360,
  91229238300778560,
  91791913409839170,
  91229238300770370,
  91791913409323200,
  91229238300254400,
  91791913409315010,
  91229238300246210,
  91229100895379520,
  91229100895379520,
  91229100894855360,
  91229100894855360,
  91229238300778560,
  91791913409847360,
  91229238300770370,
  91791913409839170,
  91229238300254400,
  91791913409323200,
  91229238300246210,
  91791913409315010,
  91229100895379520,
  91229100895379520,
  91229100895371330,
  91229100895371330,
  91229100894855360,
  91229100894855360,
  91229100894847170,
  91229100894847170,
  91229238300778560,
  91791913409847360,
  91229238300770370,
  91791913409839170,
  91229238300254400,
  91791913409323200,
  91229238300246210,
  91791913409315010,
  91229238300778560,
  91791913409847360,
  91229238300770370,
  91791913409839170,
  91229238300254400,
  91791913409323200,
  91229238300246210,
  91791913409315010,
  811818891239939121216,
  811818891239939121216,
  811818891102533722176,
  811818891102533722176,
  811818891102533713986,
  811818891102533713986,
  811818891239939121216,
  811818891239939121216,
  664208909857538711616,
  369133079860114890816,
  664208909857538187456,
  369133079860114366656,
  664208909720133312576,
  369133079722709491776,
  664208909720133304386,
  369133079722709483586,
  664208909720132788416,
  369133079722708967616,
  664208909720132780226,
  369133079722708959426,
  664208909857538711616,
  369133079860114890816,
  664208909857538187456,
  369133079860114366656,
  516598946063029379136,
  369061031064317468736,
  369061031064317468736,
  516598946063029379136,
  516598945925623971906,
  369061030926912061506]

/-- Check Qf1_wicked.  -/
theorem Qf1_wicked : isZero kinds [aᵥ, bᵥ, iₒ, jₒ] 8
    (Prog.outs [2, 3, 0, 1] (Prog.through tamps_antisym_T2 (optWnT2sqr)) ++ (Prog.scale (-1) (Prog.rep 71 39 [2, 3, 0, 1] (residQf1))))
    (Qf1_wicked_cert_0) = true := by decide +kernel

end Verif.Cert
