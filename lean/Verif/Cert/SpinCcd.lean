import Verif.Ein.Spin
import Verif.Gen.Ccd
import Verif.Gen.SiCcd

/-! Written by `/verif/tools/gen.py`. Checks of einsum programs. -/

set_option maxRecDepth 100000

namespace Verif.Cert

open Verif.Ein Verif.Ein.N


open Verif.Gen

def ccd_aaaa_cert_0 : List Nat := [67903552,
  67903552,
  67895362,
  67895362,
  5369503808,
  5369503808,
  5368979648,
  5368979648,
  794688,
  794688,
  274979364928,
  274979364928,
  5436612672,
  5436612672,
  5436612672,
  5436612672,
  5436604482,
  5436604482,
  5436604482,
  5436604482,
  5436088512,
  5436088512,
  5436088512,
  5436088512,
  5436080322,
  5436080322,
  5436080322,
  5436080322,
  30791695081536,
  30791695081536,
  31204079050816,
  31204079050816,
  31066673651776,
  31066673651776,
  22272728113216,
  22272728113216,
  31204079042626,
  31204079042626,
  31066673643586,
  31066673643586,
  22272728105026,
  22272728105026,
  31066673651776,
  31066673651776,
  31066673651776,
  31066673651776,
  22272728113216,
  22272728113216,
  22410133512256,
  22410133512256,
  31204079050816,
  31204079050816,
  22272728113216,
  22272728113216,
  31204079050816,
  31204079050816,
  31204079050816,
  31204079050816,
  31204079042626,
  31204079042626,
  22272728105026,
  22272728105026,
  31204079042626,
  31204079042626,
  31204079042626,
  31204079042626,
  31066673651776,
  31066673651776,
  31066673651776,
  31066673651776,
  31204079050816,
  31204079050816,
  223684786292237795332,
  2925128,
  221379506232977522692,
  2916938,
  223684786292237795648,
  1076666952,
  76146862499580346688,
  1076142792,
  223684786292237795328,
  2925128,
  223684786292237811718,
  36479560,
  223684786292237795652,
  1076666952,
  221379506232977523012,
  1076658762,
  76146862499580346692,
  1076142792,
  73841582440320074052,
  1076134602,
  223684786292237795652,
  1076666952,
  221379506232977523012,
  1076658762,
  76146862499580346692,
  1076142792,
  73841582440320074052,
  1076134602,
  223684786292239630656,
  13195216200264,
  223684786292239655236,
  13332655153736,
  221379506232979382596,
  13332655145546,
  223684786292239647046,
  13195249754696,
  221379506232979374406,
  13195249746506,
  223684786292239122886,
  4401304216136,
  221379506232978850246,
  4401304207946,
  223684786292239647046,
  13195249754696,
  223684786292239647046,
  13195249754696,
  223684786292239122886,
  4401304216136,
  223684786292239131076,
  4538709615176,
  223684786292239655236,
  13332655153736,
  221379506232979382596,
  13332655145546,
  223684786292239655236,
  13332655153736,
  221379506232979382596,
  13332655145546,
  223684786292239122886,
  4401304216136,
  221379506232978850246,
  4401304207946,
  223684786292239655236,
  13332655153736,
  221379506232979382596,
  13332655145546,
  223684786292239647046,
  13195249754696,
  223684786292239647046,
  13195249754696,
  223684786292239655236,
  13332655153736]

/-- Check ccd_aaaa. Spin-integrated CCD residual, block aaaa. -/
theorem ccd_aaaa : isZeroSpin kinds [aᵥ, bᵥ, iₒ, jₒ] 4 [false, false, false, false]
    (ccd_t2residual)
    (Prog.scale (-1) (ccd_t2_aaaa))
    (ccd_aaaa_cert_0) = true := by decide +kernel

def ccd_abab_cert_0 : List Nat := [67903552,
  67903552,
  67895362,
  67895362,
  5369503808,
  5369503808,
  5368979648,
  5368979648,
  794688,
  794688,
  274979364928,
  274979364928,
  412384763968,
  412384763968,
  5436612672,
  5436612672,
  5436604482,
  5436604482,
  5436604482,
  5436604482,
  5436088512,
  5436088512,
  5436088512,
  5436088512,
  5436080322,
  5436080322,
  30791695081536,
  30791695081536,
  21997749542976,
  21997749542976,
  31204079050816,
  31204079050816,
  22410133512256,
  22410133512256,
  31066673651776,
  31066673651776,
  31204079042626,
  31204079042626,
  31066673643586,
  31066673643586,
  22272728105026,
  22272728105026,
  31066673651776,
  31066673651776,
  22272728113216,
  22272728113216,
  31204079050816,
  31204079050816,
  22410133512256,
  22410133512256,
  31066673651776,
  31066673651776,
  22272728113216,
  22272728113216,
  22410133512256,
  22410133512256,
  22410133512256,
  22410133512256,
  31204079042626,
  31204079042626,
  22272728105026,
  22272728105026,
  31204079042626,
  31204079042626,
  31204079042626,
  31204079042626,
  22272728113216,
  22272728113216,
  22410133512256,
  22410133512256,
  31066673651776,
  31066673651776,
  223684786292237795332,
  2925128,
  223684786292237795332,
  2925128,
  223684786292237795648,
  1076666952,
  223684786292237795648,
  1076666952,
  223684786292237795328,
  2925128,
  223684786292237811718,
  36479560,
  223684786292237819908,
  137441878600,
  223684786292237795652,
  1076666952,
  223684786292237795652,
  1076666952,
  223684786292237795652,
  1076666952,
  223684786292237795652,
  1076666952,
  223684786292237795652,
  1076666952,
  223684786292237795652,
  1076666952,
  223684786292239630656,
  13195216200264,
  223684786292239106496,
  4401270661704,
  223684786292239655236,
  13332655153736,
  223684786292239131076,
  4538709615176,
  223684786292239647046,
  13195249754696,
  223684786292239655236,
  13332655153736,
  223684786292239647046,
  13195249754696,
  223684786292239122886,
  4401304216136,
  223684786292239647046,
  13195249754696,
  223684786292239655236,
  13332655153736,
  223684786292239122886,
  4401304216136,
  223684786292239131076,
  4538709615176,
  223684786292239647046,
  13195249754696,
  223684786292239122886,
  4401304216136,
  223684786292239131076,
  4538709615176,
  223684786292239131076,
  4538709615176,
  223684786292239655236,
  13332655153736,
  223684786292239655236,
  13332655153736,
  223684786292239122886,
  4401304216136,
  223684786292239655236,
  13332655153736,
  223684786292239122886,
  4401304216136,
  223684786292239131076,
  4538709615176,
  223684786292239647046,
  13195249754696]

/-- Check ccd_abab. Spin-integrated CCD residual, block abab. -/
theorem ccd_abab : isZeroSpin kinds [aᵥ, bᵥ, iₒ, jₒ] 4 [false, true, false, true]
    (ccd_t2residual)
    (Prog.scale (-1) (ccd_t2_abab))
    (ccd_abab_cert_0) = true := by decide +kernel

def ccd_bbbb_cert_0 : List Nat := [67903552,
  67903552,
  67895362,
  67895362,
  5369503808,
  5369503808,
  5368979648,
  5368979648,
  794688,
  794688,
  274979364928,
  274979364928,
  5436612672,
  5436612672,
  5436612672,
  5436612672,
  5436604482,
  5436604482,
  5436604482,
  5436604482,
  5436088512,
  5436088512,
  5436088512,
  5436088512,
  5436080322,
  5436080322,
  5436080322,
  5436080322,
  30791695081536,
  30791695081536,
  31204079050816,
  31204079050816,
  22410133512256,
  22410133512256,
  31204079050816,
  31204079050816,
  31204079042626,
  31204079042626,
  22410133504066,
  22410133504066,
  31204079042626,
  31204079042626,
  31066673651776,
  31066673651776,
  31066673651776,
  31066673651776,
  31204079050816,
  31204079050816,
  31066673651776,
  31066673651776,
  31204079050816,
  31204079050816,
  22272728113216,
  22272728113216,
  31204079050816,
  31204079050816,
  31204079050816,
  31204079050816,
  31204079042626,
  31204079042626,
  22272728105026,
  22272728105026,
  31204079042626,
  31204079042626,
  31204079042626,
  31204079042626,
  22272728113216,
  22272728113216,
  22410133512256,
  22410133512256,
  31066673651776,
  31066673651776,
  223684786292237795332,
  2925128,
  221379506232977522692,
  2916938,
  223684786292237795648,
  1076666952,
  76146862499580346688,
  1076142792,
  223684786292237795328,
  2925128,
  223684786292237811718,
  36479560,
  223684786292237795652,
  1076666952,
  221379506232977523012,
  1076658762,
  76146862499580346692,
  1076142792,
  73841582440320074052,
  1076134602,
  223684786292237795652,
  1076666952,
  221379506232977523012,
  1076658762,
  76146862499580346692,
  1076142792,
  73841582440320074052,
  1076134602,
  223684786292239630656,
  13195216200264,
  223684786292239655236,
  13332655153736,
  221379506232979382596,
  13332655145546,
  223684786292239131076,
  4538709615176,
  221379506232978858436,
  4538709606986,
  223684786292239655236,
  13332655153736,
  221379506232979382596,
  13332655145546,
  223684786292239647046,
  13195249754696,
  223684786292239647046,
  13195249754696,
  223684786292239655236,
  13332655153736,
  223684786292239647046,
  13195249754696,
  223684786292239655236,
  13332655153736,
  221379506232979382596,
  13332655145546,
  223684786292239655236,
  13332655153736,
  221379506232979382596,
  13332655145546,
  223684786292239122886,
  4401304216136,
  221379506232978850246,
  4401304207946,
  223684786292239655236,
  13332655153736,
  221379506232979382596,
  13332655145546,
  223684786292239122886,
  4401304216136,
  223684786292239131076,
  4538709615176,
  223684786292239647046,
  13195249754696]

/-- Check ccd_bbbb. Spin-integrated CCD residual, block bbbb. -/
theorem ccd_bbbb : isZeroSpin kinds [aᵥ, bᵥ, iₒ, jₒ] 4 [true, true, true, true]
    (ccd_t2residual)
    (Prog.scale (-1) (ccd_t2_bbbb))
    (ccd_bbbb_cert_0) = true := by decide +kernel

def ccd_energy_cert_0 : List Nat := [615656346818663737691860001564743965704370926101022604186692084441339402679643915803347910232576806887603562348544,
  0,
  615656346818663737691860001564743965704370926101022604186692084441339402679643915803347910232576806887603562348544,
  0,
  2,
  2,
  2,
  2,
  8192,
  8192,
  2,
  2,
  786498,
  786498,
  786498,
  786498,
  262338,
  262338,
  794688,
  794688,
  270528,
  270528,
  786498,
  786498,
  615656346818663737691860001564743965704370926101022604186692084441339402679643915803347910232576806887603562348544,
  0,
  615656346818663737691860001564743965704370926101022604186692084441339402679643915803347910232576806887603562348544,
  0,
  2,
  2,
  2,
  2,
  8192,
  8192,
  2,
  2,
  786498,
  786498,
  786498,
  786498,
  794688,
  794688,
  262338,
  262338,
  270528,
  270528,
  786498,
  786498]

/-- Check ccd_energy. Spin-integrated CCD energy. -/
theorem ccd_energy : isZeroSpin kinds [] 4 []
    (ccdEnergy)
    (Prog.scale (-1) (ccd_energy_with_spin))
    (ccd_energy_cert_0) = true := by decide +kernel

end Verif.Cert
