import Verif.Ein.Ops2
import Verif.Gen.Ccd
import Verif.Gen.Qf
import Verif.Gen.Ucc4
import Verif.Gen.SiCcd
import Verif.Gen.Triples

/-! Written by `/verif/tools/gen.py`. Checks of einsum programs. -/

set_option maxRecDepth 100000

namespace Verif.Cert

open Verif.Ein Verif.Ein.N


open Verif.Gen

def ccd_t2residual_anti0_cert_0 : List Nat := [67903552,
  67903552,
  67895362,
  67895362,
  5369503808,
  5369503808,
  5368979648,
  5368979648,
  794688,
  794688,
  274979364928,
  274979364928,
  5436612672,
  5436612672,
  5436604482,
  5436604482,
  5436088512,
  5436088512,
  5436080322,
  5436080322,
  30791695081536,
  30791695081536,
  31204079050816,
  31204079050816,
  31204079042626,
  31204079042626,
  31066673651776,
  31066673651776,
  31066673651776,
  31066673651776,
  31204079050816,
  31204079050816,
  31204079042626,
  31204079042626,
  31066673651776,
  31066673651776,
  67379392,
  67379392,
  67371202,
  67371202,
  5368979648,
  5368979648,
  5369503808,
  5369503808,
  270528,
  270528,
  274978840768,
  274978840768,
  5436088512,
  5436088512,
  5436080322,
  5436080322,
  5436612672,
  5436612672,
  5436604482,
  5436604482,
  30791694557376,
  30791694557376,
  31204078526656,
  31204078526656,
  31204078518466,
  31204078518466,
  31066673127616,
  31066673127616,
  22272727589056,
  22272727589056,
  22272727589056,
  22272727589056,
  22272727580866,
  22272727580866,
  22272727589056,
  22272727589056]

/-- Check ccd_t2residual_anti0. Antisymmetry of ccd_t2residual under [1, 0, 2, 3]. -/
theorem ccd_t2residual_anti0 : isZero kinds [aᵥ, bᵥ, iₒ, jₒ] 4
    (ccd_t2residual ++ (Prog.outs [1, 0, 2, 3] (ccd_t2residual)))
    (ccd_t2residual_anti0_cert_0) = true := by decide +kernel

def ccd_t2residual_anti1_cert_0 : List Nat := [67903552,
  67903552,
  67895362,
  67895362,
  5369503808,
  5369503808,
  5368979648,
  5368979648,
  794688,
  794688,
  274979364928,
  274979364928,
  5436612672,
  5436612672,
  5436604482,
  5436604482,
  5436088512,
  5436088512,
  5436080322,
  5436080322,
  30791695081536,
  30791695081536,
  31204079050816,
  31204079050816,
  31204079042626,
  31204079042626,
  31066673651776,
  31066673651776,
  31066673651776,
  31066673651776,
  31204079050816,
  31204079050816,
  31204079042626,
  31204079042626,
  31066673651776,
  31066673651776,
  67895362,
  67895362,
  67903552,
  67903552,
  5369495618,
  5369495618,
  5368971458,
  5368971458,
  786498,
  786498,
  274979356738,
  274979356738,
  5436604482,
  5436604482,
  5436612672,
  5436612672,
  5436080322,
  5436080322,
  5436088512,
  5436088512,
  30791695073346,
  30791695073346,
  31204079042626,
  31204079042626,
  31204079050816,
  31204079050816,
  31066673643586,
  31066673643586,
  31066673643586,
  31066673643586,
  31204079042626,
  31204079042626,
  31204079050816,
  31204079050816,
  31066673643586,
  31066673643586]

/-- Check ccd_t2residual_anti1. Antisymmetry of ccd_t2residual under [0, 1, 3, 2]. -/
theorem ccd_t2residual_anti1 : isZero kinds [aᵥ, bᵥ, iₒ, jₒ] 4
    (ccd_t2residual ++ (Prog.outs [0, 1, 3, 2] (ccd_t2residual)))
    (ccd_t2residual_anti1_cert_0) = true := by decide +kernel

def doubles_resLCCDoffset_anti0_cert_0 : List Nat := [31204079050816,
  31204079050816,
  31204079042626,
  31204079042626,
  31066673651776,
  31066673651776,
  31066673651776,
  31066673651776,
  31204079050816,
  31204079050816,
  31204079042626,
  31204079042626,
  31066673651776,
  31066673651776,
  31204078526656,
  31204078526656,
  31204078518466,
  31204078518466,
  31066673127616,
  31066673127616,
  22272727589056,
  22272727589056,
  22272727589056,
  22272727589056,
  22272727580866,
  22272727580866,
  22272727589056,
  22272727589056]

/-- Check doubles_resLCCDoffset_anti0. Antisymmetry of doubles_resLCCDoffset under [1, 0, 2, 3]. -/
theorem doubles_resLCCDoffset_anti0 : isZero kinds [aᵥ, bᵥ, iₒ, jₒ] 4
    (doubles_resLCCDoffset ++ (Prog.outs [1, 0, 2, 3] (doubles_resLCCDoffset)))
    (doubles_resLCCDoffset_anti0_cert_0) = true := by decide +kernel

def doubles_resLCCDoffset_anti1_cert_0 : List Nat := [31204079050816,
  31204079050816,
  31204079042626,
  31204079042626,
  31066673651776,
  31066673651776,
  31066673651776,
  31066673651776,
  31204079050816,
  31204079050816,
  31204079042626,
  31204079042626,
  31066673651776,
  31066673651776,
  31204079042626,
  31204079042626,
  31204079050816,
  31204079050816,
  31066673643586,
  31066673643586,
  31066673643586,
  31066673643586,
  31204079042626,
  31204079042626,
  31204079050816,
  31204079050816,
  31066673643586,
  31066673643586]

/-- Check doubles_resLCCDoffset_anti1. Antisymmetry of doubles_resLCCDoffset under [0, 1, 3, 2]. -/
theorem doubles_resLCCDoffset_anti1 : isZero kinds [aᵥ, bᵥ, iₒ, jₒ] 4
    (doubles_resLCCDoffset ++ (Prog.outs [0, 1, 3, 2] (doubles_resLCCDoffset)))
    (doubles_resLCCDoffset_anti1_cert_0) = true := by decide +kernel

def residQf1_anti0_cert_0 : List Nat := [11531489256015667264,
  11531489256015667264,
  11531489256015659074,
  11531489256015659074,
  11531489256015667264,
  11531489256015667264,
  11531489256015659074,
  11531489256015659074,
  9225083159510261824,
  4614523315800514624,
  9225083159510253634,
  4614523315800506434,
  9225083159510261824,
  4614523315800514624,
  9225083159510253634,
  4614523315800506434,
  9225083159510261824,
  4614523315800514624,
  9225083159510253634,
  4614523315800506434,
  9225083159510261824,
  4614523315800514624,
  9225083159510253634,
  4614523315800506434,
  6918677475221053504,
  4613397553366179904,
  6918677475221053504,
  4613397553366179904,
  4613406347311194304,
  6918686269166067904,
  127811914335789120,
  91238032246317120,
  127811914335780930,
  91238032246308930,
  127811914335789120,
  91238032246317120,
  127811914335789120,
  91238032246317120,
  127811914335780930,
  91238032246308930,
  127811914335264960,
  91238032245792960,
  127811914335256770,
  91238032245784770,
  127811914335789120,
  91238032246317120,
  127811914335264960,
  91238032245792960,
  127249239226720320,
  91800707355385920,
  127249239226712130,
  91800707355377730,
  127249101821321280,
  91237894840918080,
  127249101821313090,
  91237894840909890,
  127249239226720320,
  91800707355385920,
  127249239226712130,
  91800707355377730,
  127249239226196160,
  91800707354861760,
  127249239226187970,
  91800707354853570,
  127249101821321280,
  91237894840918080,
  127249101821313090,
  91237894840909890,
  127249239226196160,
  91800707354861760,
  127249239226187970,
  91800707354853570,
  91791913409847360,
  91229238300778560,
  91791913409839170,
  91229238300770370,
  91791913409323200,
  91229238300254400,
  91791913409315010,
  91229238300246210,
  91791913409847360,
  91229238300778560,
  91791913409323200,
  91229238300254400,
  91791913409847360,
  91229238300778560,
  91791913409839170,
  91229238300770370,
  91791913409323200,
  91229238300254400,
  91791913409315010,
  91229238300246210,
  91791913409847360,
  91229238300778560,
  91791913409323200,
  91229238300254400,
  91229238300778560,
  91791913409847360,
  91229238300770370,
  91791913409839170,
  91229238300254400,
  91791913409323200,
  91229238300246210,
  91791913409315010,
  91229100895379520,
  91229100895379520,
  91229100895371330,
  91229100895371330,
  91229100894855360,
  91229100894855360,
  91229100894847170,
  91229100894847170,
  91229238300778560,
  91791913409847360,
  91229238300770370,
  91791913409839170,
  91229238300254400,
  91791913409323200,
  91229238300246210,
  91791913409315010,
  91229238300778560,
  91791913409847360,
  91229238300770370,
  91791913409839170,
  91229238300254400,
  91791913409323200,
  91229238300246210,
  91791913409315010,
  811818891239939121216,
  811818891239939121216,
  811818891102533722176,
  811818891102533722176,
  811818891102533713986,
  811818891102533713986,
  811818891239939121216,
  811818891239939121216,
  664208909857538711616,
  369133079860114890816,
  664208909857538187456,
  369133079860114366656,
  664208909720133312576,
  369133079722709491776,
  664208909720133304386,
  369133079722709483586,
  664208909720132788416,
  369133079722708967616,
  664208909720132780226,
  369133079722708959426,
  664208909857538711616,
  369133079860114890816,
  664208909857538187456,
  369133079860114366656,
  516598946063029379136,
  369061031064317468736,
  369061031064317468736,
  516598946063029379136,
  516598945925623971906,
  369061030926912061506,
  11531489256015143104,
  11531489256015143104,
  11531489256015134914,
  11531489256015134914,
  9226217990700409024,
  9226217990700409024,
  9226217990700400834,
  9226217990700400834,
  9225083159509737664,
  4614523315799990464,
  9225083159509729474,
  4614523315799982274,
  9225083159509737664,
  4614523315799990464,
  9225083159509729474,
  4614523315799982274,
  6919811894195003584,
  4613969297231061184,
  6919811894194995394,
  4613969297231052994,
  6919811894195003584,
  4613969297231061184,
  6919811894194995394,
  4613969297231052994,
  6918677475220529344,
  4613397553365655744,
  4613406347311194304,
  6918686269166067904,
  6918677475221053504,
  4613397553366179904,
  127811914335264960,
  91238032245792960,
  127811914335256770,
  91238032245784770,
  127811914335264960,
  91238032245792960,
  127811914335264960,
  91238032245792960,
  127811914335256770,
  91238032245784770,
  127811914335789120,
  91238032246317120,
  127811914335780930,
  91238032246308930,
  127811914335264960,
  91238032245792960,
  127811914335789120,
  91238032246317120,
  127249239226196160,
  91800707354861760,
  127249239226187970,
  91800707354853570,
  127249101820797120,
  91237894840393920,
  127249101820788930,
  91237894840385730,
  127249239226196160,
  91800707354861760,
  127249239226187970,
  91800707354853570,
  127249239226720320,
  91800707355385920,
  127249239226712130,
  91800707355377730,
  127249239226196160,
  91800707354861760,
  127249239226187970,
  91800707354853570,
  127249101821321280,
  91237894840918080,
  127249101821313090,
  91237894840909890,
  91791913409323200,
  91229238300254400,
  91791913409315010,
  91229238300246210,
  91791913409847360,
  91229238300778560,
  91791913409839170,
  91229238300770370,
  91791913409323200,
  91229238300254400,
  91791913409847360,
  91229238300778560,
  91791913409323200,
  91229238300254400,
  91791913409315010,
  91229238300246210,
  91791913409847360,
  91229238300778560,
  91791913409839170,
  91229238300770370,
  91791913409323200,
  91229238300254400,
  91791913409847360,
  91229238300778560,
  91229238300254400,
  91791913409323200,
  91229238300246210,
  91791913409315010,
  91229238300778560,
  91791913409847360,
  91229238300770370,
  91791913409839170,
  91229100894855360,
  91229100894855360,
  91229100894847170,
  91229100894847170,
  91229100895379520,
  91229100895379520,
  91229100895371330,
  91229100895371330,
  91229238300254400,
  91791913409323200,
  91229238300246210,
  91791913409315010,
  91229238300778560,
  91791913409847360,
  91229238300770370,
  91791913409839170,
  91229238300254400,
  91791913409323200,
  91229238300246210,
  91791913409315010,
  91229238300778560,
  91791913409847360,
  91229238300770370,
  91791913409839170,
  664280967447281148096,
  664280967447281148096,
  664280967447281148096,
  664280967447281148096,
  664280967447281139906,
  664280967447281139906,
  664280967447281148096,
  664280967447281148096,
  664208909857538187456,
  369133079860114366656,
  664208909857538711616,
  369133079860114890816,
  664208909720132788416,
  369133079722708967616,
  664208909720132780226,
  369133079722708959426,
  664208909720133312576,
  369133079722709491776,
  664208909720133304386,
  369133079722709483586,
  664208909857538187456,
  369133079860114366656,
  664208909857538711616,
  369133079860114890816,
  516598946063028854976,
  369061031064316944576,
  369061031064316944576,
  516598946063028854976,
  516598945925623447746,
  369061030926911537346]

/-- Check residQf1_anti0. Antisymmetry of residQf1 under [1, 0, 2, 3]. -/
theorem residQf1_anti0 : isZero kinds [aᵥ, bᵥ, iₒ, jₒ] 4
    (residQf1 ++ (Prog.outs [1, 0, 2, 3] (residQf1)))
    (residQf1_anti0_cert_0) = true := by decide +kernel

def residQf1_anti1_cert_0 : List Nat := [11531489256015667264,
  11531489256015667264,
  11531489256015659074,
  11531489256015659074,
  11531489256015667264,
  11531489256015667264,
  11531489256015659074,
  11531489256015659074,
  9225083159510261824,
  4614523315800514624,
  9225083159510253634,
  4614523315800506434,
  9225083159510261824,
  4614523315800514624,
  9225083159510253634,
  4614523315800506434,
  9225083159510261824,
  4614523315800514624,
  9225083159510253634,
  4614523315800506434,
  9225083159510261824,
  4614523315800514624,
  9225083159510253634,
  4614523315800506434,
  6918677475221053504,
  4613397553366179904,
  6918677475221053504,
  4613397553366179904,
  4613406347311194304,
  6918686269166067904,
  127811914335789120,
  91238032246317120,
  127811914335780930,
  91238032246308930,
  127811914335789120,
  91238032246317120,
  127811914335789120,
  91238032246317120,
  127811914335780930,
  91238032246308930,
  127811914335264960,
  91238032245792960,
  127811914335256770,
  91238032245784770,
  127811914335789120,
  91238032246317120,
  127811914335264960,
  91238032245792960,
  127249239226720320,
  91800707355385920,
  127249239226712130,
  91800707355377730,
  127249101821321280,
  91237894840918080,
  127249101821313090,
  91237894840909890,
  127249239226720320,
  91800707355385920,
  127249239226712130,
  91800707355377730,
  127249239226196160,
  91800707354861760,
  127249239226187970,
  91800707354853570,
  127249101821321280,
  91237894840918080,
  127249101821313090,
  91237894840909890,
  127249239226196160,
  91800707354861760,
  127249239226187970,
  91800707354853570,
  91791913409847360,
  91229238300778560,
  91791913409839170,
  91229238300770370,
  91791913409323200,
  91229238300254400,
  91791913409315010,
  91229238300246210,
  91791913409847360,
  91229238300778560,
  91791913409323200,
  91229238300254400,
  91791913409847360,
  91229238300778560,
  91791913409839170,
  91229238300770370,
  91791913409323200,
  91229238300254400,
  91791913409315010,
  91229238300246210,
  91791913409847360,
  91229238300778560,
  91791913409323200,
  91229238300254400,
  91229238300778560,
  91791913409847360,
  91229238300770370,
  91791913409839170,
  91229238300254400,
  91791913409323200,
  91229238300246210,
  91791913409315010,
  91229100895379520,
  91229100895379520,
  91229100895371330,
  91229100895371330,
  91229100894855360,
  91229100894855360,
  91229100894847170,
  91229100894847170,
  91229238300778560,
  91791913409847360,
  91229238300770370,
  91791913409839170,
  91229238300254400,
  91791913409323200,
  91229238300246210,
  91791913409315010,
  91229238300778560,
  91791913409847360,
  91229238300770370,
  91791913409839170,
  91229238300254400,
  91791913409323200,
  91229238300246210,
  91791913409315010,
  811818891239939121216,
  811818891239939121216,
  811818891102533722176,
  811818891102533722176,
  811818891102533713986,
  811818891102533713986,
  811818891239939121216,
  811818891239939121216,
  664208909857538711616,
  369133079860114890816,
  664208909857538187456,
  369133079860114366656,
  664208909720133312576,
  369133079722709491776,
  664208909720133304386,
  369133079722709483586,
  664208909720132788416,
  369133079722708967616,
  664208909720132780226,
  369133079722708959426,
  664208909857538711616,
  369133079860114890816,
  664208909857538187456,
  369133079860114366656,
  516598946063029379136,
  369061031064317468736,
  369061031064317468736,
  516598946063029379136,
  516598945925623971906,
  369061030926912061506,
  11531489256015659074,
  11531489256015659074,
  11531489256015667264,
  11531489256015667264,
  11531489256015659074,
  11531489256015659074,
  11531489256015667264,
  11531489256015667264,
  9225083159510253634,
  4614523315800506434,
  9225083159510261824,
  4614523315800514624,
  9225083159510253634,
  4614523315800506434,
  9225083159510261824,
  4614523315800514624,
  9225083159510253634,
  4614523315800506434,
  9225083159510261824,
  4614523315800514624,
  9225083159510253634,
  4614523315800506434,
  9225083159510261824,
  4614523315800514624,
  6918677475221045314,
  4613397553366171714,
  6918677475221045314,
  4613397553366171714,
  4613406347311186114,
  6918686269166059714,
  127811914335780930,
  91238032246308930,
  127811914335789120,
  91238032246317120,
  127811914335780930,
  91238032246308930,
  127811914335780930,
  91238032246308930,
  127811914335789120,
  91238032246317120,
  127811914335256770,
  91238032245784770,
  127811914335264960,
  91238032245792960,
  127811914335780930,
  91238032246308930,
  127811914335256770,
  91238032245784770,
  127249239226712130,
  91800707355377730,
  127249239226720320,
  91800707355385920,
  127249101821313090,
  91237894840909890,
  127249101821321280,
  91237894840918080,
  127249239226712130,
  91800707355377730,
  127249239226720320,
  91800707355385920,
  127249239226187970,
  91800707354853570,
  127249239226196160,
  91800707354861760,
  127249101821313090,
  91237894840909890,
  127249101821321280,
  91237894840918080,
  127249239226187970,
  91800707354853570,
  127249239226196160,
  91800707354861760,
  91791913409839170,
  91229238300770370,
  91791913409847360,
  91229238300778560,
  91791913409315010,
  91229238300246210,
  91791913409323200,
  91229238300254400,
  91791913409839170,
  91229238300770370,
  91791913409315010,
  91229238300246210,
  91791913409839170,
  91229238300770370,
  91791913409847360,
  91229238300778560,
  91791913409315010,
  91229238300246210,
  91791913409323200,
  91229238300254400,
  91791913409839170,
  91229238300770370,
  91791913409315010,
  91229238300246210,
  91229238300770370,
  91791913409839170,
  91229238300778560,
  91791913409847360,
  91229238300246210,
  91791913409315010,
  91229238300254400,
  91791913409323200,
  91229100895371330,
  91229100895371330,
  91229100895379520,
  91229100895379520,
  91229100894847170,
  91229100894847170,
  91229100894855360,
  91229100894855360,
  91229238300770370,
  91791913409839170,
  91229238300778560,
  91791913409847360,
  91229238300246210,
  91791913409315010,
  91229238300254400,
  91791913409323200,
  91229238300770370,
  91791913409839170,
  91229238300778560,
  91791913409847360,
  91229238300246210,
  91791913409315010,
  91229238300254400,
  91791913409323200,
  811818891239939113026,
  811818891239939113026,
  811818891102533713986,
  811818891102533713986,
  811818891102533722176,
  811818891102533722176,
  811818891239939113026,
  811818891239939113026,
  664208909857538703426,
  369133079860114882626,
  664208909857538179266,
  369133079860114358466,
  664208909720133304386,
  369133079722709483586,
  664208909720133312576,
  369133079722709491776,
  664208909720132780226,
  369133079722708959426,
  664208909720132788416,
  369133079722708967616,
  664208909857538703426,
  369133079860114882626,
  664208909857538179266,
  369133079860114358466,
  516598946063029370946,
  369061031064317460546,
  516598945925623971906,
  369061030926912061506,
  369061031064317468736,
  516598946063029379136]

/-- Check residQf1_anti1. Antisymmetry of residQf1 under [0, 1, 3, 2]. -/
theorem residQf1_anti1 : isZero kinds [aᵥ, bᵥ, iₒ, jₒ] 4
    (residQf1 ++ (Prog.outs [0, 1, 3, 2] (residQf1)))
    (residQf1_anti1_cert_0) = true := by decide +kernel

def offset_t2resid_t2squared_anti0_cert_0 : List Nat := [31204079050816,
  31204079050816,
  31204079042626,
  31204079042626,
  31066673651776,
  31066673651776,
  31066673651776,
  31066673651776,
  31204079050816,
  31204079050816,
  31204079042626,
  31204079042626,
  31066673651776,
  31066673651776,
  31204078526656,
  31204078526656,
  31204078518466,
  31204078518466,
  31066673127616,
  31066673127616,
  22272727589056,
  22272727589056,
  22272727589056,
  22272727589056,
  22272727580866,
  22272727580866,
  22272727589056,
  22272727589056]

/-- Check offset_t2resid_t2squared_anti0. Antisymmetry of offset_t2resid_t2squared under [1, 0, 2, 3]. -/
theorem offset_t2resid_t2squared_anti0 : isZero kinds [aᵥ, bᵥ, iₒ, jₒ] 8
    (offset_t2resid_t2squared ++ (Prog.outs [1, 0, 2, 3] (offset_t2resid_t2squared)))
    (offset_t2resid_t2squared_anti0_cert_0) = true := by decide +kernel

def offset_t2resid_t2squared_anti1_cert_0 : List Nat := [31204079050816,
  31204079050816,
  31204079042626,
  31204079042626,
  31066673651776,
  31066673651776,
  31066673651776,
  31066673651776,
  31204079050816,
  31204079050816,
  31204079042626,
  31204079042626,
  31066673651776,
  31066673651776,
  31204079042626,
  31204079042626,
  31204079050816,
  31204079050816,
  31066673643586,
  31066673643586,
  31066673643586,
  31066673643586,
  31204079042626,
  31204079042626,
  31204079050816,
  31204079050816,
  31066673643586,
  31066673643586]

/-- Check offset_t2resid_t2squared_anti1. Antisymmetry of offset_t2resid_t2squared under [0, 1, 3, 2]. -/
theorem offset_t2resid_t2squared_anti1 : isZero kinds [aᵥ, bᵥ, iₒ, jₒ] 8
    (offset_t2resid_t2squared ++ (Prog.outs [0, 1, 3, 2] (offset_t2resid_t2squared)))
    (offset_t2resid_t2squared_anti1_cert_0) = true := by decide +kernel

def offset_t2resid_t2dag_w_t2_anti1_cert_0 : List Nat := [31204079050816,
  31204079050816,
  31204079042626,
  31204079042626,
  31066673651776,
  31066673651776,
  31066673651776,
  31066673651776,
  31204079050816,
  31204079050816,
  31204079042626,
  31204079042626,
  31066673651776,
  31066673651776,
  31204079042626,
  31204079042626,
  31204079050816,
  31204079050816,
  31066673643586,
  31066673643586,
  31066673643586,
  31066673643586,
  31204079042626,
  31204079042626,
  31204079050816,
  31204079050816,
  31066673643586,
  31066673643586]

/-- Check offset_t2resid_t2dag_w_t2_anti1. Antisymmetry of offset_t2resid_t2dag_w_t2 under [0, 1, 3, 2]. -/
theorem offset_t2resid_t2dag_w_t2_anti1 : isZero kinds [aᵥ, bᵥ, iₒ, jₒ] 4
    (offset_t2resid_t2dag_w_t2 ++ (Prog.outs [0, 1, 3, 2] (offset_t2resid_t2dag_w_t2)))
    (offset_t2resid_t2dag_w_t2_anti1_cert_0) = true := by decide +kernel

def offset_t2resid_T1_T3_anti0_cert_0 : List Nat := [67903552,
  67903552,
  67379392,
  67379392,
  5369503808,
  5369503808,
  5369495618,
  5369495618,
  280348074048,
  280348074048,
  280348065858,
  280348065858,
  30791762190400,
  30791762190400,
  30791761666240,
  30791761666240,
  67379392,
  67379392,
  67903552,
  67903552,
  5368979648,
  5368979648,
  5368971458,
  5368971458,
  280347549888,
  280347549888,
  280347541698,
  280347541698,
  30791761666240,
  30791761666240,
  30791762190400,
  30791762190400]

/-- Check offset_t2resid_T1_T3_anti0. Antisymmetry of offset_t2resid_T1_T3 under [1, 0, 2, 3]. -/
theorem offset_t2resid_T1_T3_anti0 : isZero kinds [aᵥ, bᵥ, iₒ, jₒ] 2
    (offset_t2resid_T1_T3 ++ (Prog.outs [1, 0, 2, 3] (offset_t2resid_T1_T3)))
    (offset_t2resid_T1_T3_anti0_cert_0) = true := by decide +kernel

def offset_t2resid_T1_T3_anti1_cert_0 : List Nat := [67903552,
  67903552,
  67379392,
  67379392,
  5369503808,
  5369503808,
  5369495618,
  5369495618,
  280348074048,
  280348074048,
  280348065858,
  280348065858,
  30791762190400,
  30791762190400,
  30791761666240,
  30791761666240,
  67895362,
  67895362,
  67371202,
  67371202,
  5369495618,
  5369495618,
  5369503808,
  5369503808,
  280348065858,
  280348065858,
  280348074048,
  280348074048,
  30791762182210,
  30791762182210,
  30791761658050,
  30791761658050]

/-- Check offset_t2resid_T1_T3_anti1. Antisymmetry of offset_t2resid_T1_T3 under [0, 1, 3, 2]. -/
theorem offset_t2resid_T1_T3_anti1 : isZero kinds [aᵥ, bᵥ, iₒ, jₒ] 2
    (offset_t2resid_T1_T3 ++ (Prog.outs [0, 1, 3, 2] (offset_t2resid_T1_T3)))
    (offset_t2resid_T1_T3_anti1_cert_0) = true := by decide +kernel

def ccd_t2_aaaa_anti0_cert_0 : List Nat := [223684786292237795332,
  2925128,
  221379506232977522692,
  2916938,
  223684786292237795648,
  1076666952,
  76146862499580346688,
  1076142792,
  223684786292237795328,
  2925128,
  223684786292237811718,
  36479560,
  223684786292237795652,
  1076666952,
  221379506232977523012,
  1076658762,
  76146862499580346692,
  1076142792,
  73841582440320074052,
  1076134602,
  223684786292237795652,
  1076666952,
  221379506232977523012,
  1076658762,
  76146862499580346692,
  1076142792,
  73841582440320074052,
  1076134602,
  223684786292239630656,
  13195216200264,
  223684786292239655236,
  13332655153736,
  221379506232979382596,
  13332655145546,
  223684786292239647046,
  13195249754696,
  221379506232979374406,
  13195249746506,
  223684786292239122886,
  4401304216136,
  221379506232978850246,
  4401304207946,
  223684786292239647046,
  13195249754696,
  223684786292239647046,
  13195249754696,
  223684786292239122886,
  4401304216136,
  223684786292239131076,
  4538709615176,
  223684786292239655236,
  13332655153736,
  221379506232979382596,
  13332655145546,
  223684786292239655236,
  13332655153736,
  221379506232979382596,
  13332655145546,
  223684786292239122886,
  4401304216136,
  221379506232978850246,
  4401304207946,
  223684786292239655236,
  13332655153736,
  221379506232979382596,
  13332655145546,
  223684786292239647046,
  13195249754696,
  223684786292239647046,
  13195249754696,
  223684786292239655236,
  13332655153736,
  76146862499580346372,
  2400968,
  73841582440320073732,
  2392778,
  76146862499580346688,
  1076142792,
  223684786292237795648,
  1076666952,
  76146862499580346368,
  2400968,
  76146862499580362758,
  35955400,
  76146862499580346692,
  1076142792,
  73841582440320074052,
  1076134602,
  223684786292237795652,
  1076666952,
  221379506232977523012,
  1076658762,
  76146862499580346692,
  1076142792,
  73841582440320074052,
  1076134602,
  223684786292237795652,
  1076666952,
  221379506232977523012,
  1076658762,
  76146862499582181696,
  13195215676104,
  76146862499582206276,
  13332654629576,
  73841582440321933636,
  13332654621386,
  76146862499582198086,
  13195249230536,
  73841582440321925446,
  13195249222346,
  76146862499581673926,
  4401303691976,
  73841582440321401286,
  4401303683786,
  76146862499582198086,
  13195249230536,
  76146862499581673926,
  4401303691976,
  76146862499581673926,
  4401303691976,
  76146862499581682116,
  4538709091016,
  76146862499581673926,
  4401303691976,
  73841582440321401286,
  4401303683786,
  76146862499582206276,
  13332654629576,
  73841582440321933636,
  13332654621386,
  76146862499581673926,
  4401303691976,
  73841582440321401286,
  4401303683786,
  76146862499581673926,
  4401303691976,
  73841582440321401286,
  4401303683786,
  76146862499581673926,
  4401303691976,
  76146862499582198086,
  13195249230536,
  76146862499582206276,
  13332654629576]

/-- Check ccd_t2_aaaa_anti0. Antisymmetry of ccd_t2_aaaa under [1, 0, 2, 3]. -/
theorem ccd_t2_aaaa_anti0 : isZero kinds [aᵥ, bᵥ, iₒ, jₒ] 4
    (ccd_t2_aaaa ++ (Prog.outs [1, 0, 2, 3] (ccd_t2_aaaa)))
    (ccd_t2_aaaa_anti0_cert_0) = true := by decide +kernel

def ccd_t2_aaaa_anti1_cert_0 : List Nat := [223684786292237795332,
  2925128,
  221379506232977522692,
  2916938,
  223684786292237795648,
  1076666952,
  76146862499580346688,
  1076142792,
  223684786292237795328,
  2925128,
  223684786292237811718,
  36479560,
  223684786292237795652,
  1076666952,
  221379506232977523012,
  1076658762,
  76146862499580346692,
  1076142792,
  73841582440320074052,
  1076134602,
  223684786292237795652,
  1076666952,
  221379506232977523012,
  1076658762,
  76146862499580346692,
  1076142792,
  73841582440320074052,
  1076134602,
  223684786292239630656,
  13195216200264,
  223684786292239655236,
  13332655153736,
  221379506232979382596,
  13332655145546,
  223684786292239647046,
  13195249754696,
  221379506232979374406,
  13195249746506,
  223684786292239122886,
  4401304216136,
  221379506232978850246,
  4401304207946,
  223684786292239647046,
  13195249754696,
  223684786292239647046,
  13195249754696,
  223684786292239122886,
  4401304216136,
  223684786292239131076,
  4538709615176,
  223684786292239655236,
  13332655153736,
  221379506232979382596,
  13332655145546,
  223684786292239655236,
  13332655153736,
  221379506232979382596,
  13332655145546,
  223684786292239122886,
  4401304216136,
  221379506232978850246,
  4401304207946,
  223684786292239655236,
  13332655153736,
  221379506232979382596,
  13332655145546,
  223684786292239647046,
  13195249754696,
  223684786292239647046,
  13195249754696,
  223684786292239655236,
  13332655153736,
  221379506232977522692,
  2916938,
  223684786292237795332,
  2925128,
  221379506232977523008,
  1076658762,
  73841582440320074048,
  1076134602,
  221379506232977522688,
  2916938,
  221379506232977539078,
  36471370,
  221379506232977523012,
  1076658762,
  223684786292237795652,
  1076666952,
  73841582440320074052,
  1076134602,
  76146862499580346692,
  1076142792,
  221379506232977523012,
  1076658762,
  223684786292237795652,
  1076666952,
  73841582440320074052,
  1076134602,
  76146862499580346692,
  1076142792,
  221379506232979358016,
  13195216192074,
  221379506232979382596,
  13332655145546,
  223684786292239655236,
  13332655153736,
  221379506232979374406,
  13195249746506,
  223684786292239647046,
  13195249754696,
  221379506232978850246,
  4401304207946,
  223684786292239122886,
  4401304216136,
  221379506232979374406,
  13195249746506,
  221379506232979374406,
  13195249746506,
  221379506232978850246,
  4401304207946,
  221379506232978858436,
  4538709606986,
  221379506232979382596,
  13332655145546,
  223684786292239655236,
  13332655153736,
  221379506232979382596,
  13332655145546,
  223684786292239655236,
  13332655153736,
  221379506232978850246,
  4401304207946,
  223684786292239122886,
  4401304216136,
  221379506232979382596,
  13332655145546,
  223684786292239655236,
  13332655153736,
  221379506232979374406,
  13195249746506,
  221379506232979374406,
  13195249746506,
  221379506232979382596,
  13332655145546]

/-- Check ccd_t2_aaaa_anti1. Antisymmetry of ccd_t2_aaaa under [0, 1, 3, 2]. -/
theorem ccd_t2_aaaa_anti1 : isZero kinds [aᵥ, bᵥ, iₒ, jₒ] 4
    (ccd_t2_aaaa ++ (Prog.outs [0, 1, 3, 2] (ccd_t2_aaaa)))
    (ccd_t2_aaaa_anti1_cert_0) = true := by decide +kernel

def ccd_t2_bbbb_anti0_cert_0 : List Nat := [223684786292237795332,
  2925128,
  221379506232977522692,
  2916938,
  223684786292237795648,
  1076666952,
  76146862499580346688,
  1076142792,
  223684786292237795328,
  2925128,
  223684786292237811718,
  36479560,
  223684786292237795652,
  1076666952,
  221379506232977523012,
  1076658762,
  76146862499580346692,
  1076142792,
  73841582440320074052,
  1076134602,
  223684786292237795652,
  1076666952,
  221379506232977523012,
  1076658762,
  76146862499580346692,
  1076142792,
  73841582440320074052,
  1076134602,
  223684786292239630656,
  13195216200264,
  223684786292239655236,
  13332655153736,
  221379506232979382596,
  13332655145546,
  223684786292239131076,
  4538709615176,
  221379506232978858436,
  4538709606986,
  223684786292239655236,
  13332655153736,
  221379506232979382596,
  13332655145546,
  223684786292239647046,
  13195249754696,
  223684786292239647046,
  13195249754696,
  223684786292239655236,
  13332655153736,
  223684786292239647046,
  13195249754696,
  223684786292239655236,
  13332655153736,
  221379506232979382596,
  13332655145546,
  223684786292239655236,
  13332655153736,
  221379506232979382596,
  13332655145546,
  223684786292239122886,
  4401304216136,
  221379506232978850246,
  4401304207946,
  223684786292239655236,
  13332655153736,
  221379506232979382596,
  13332655145546,
  223684786292239122886,
  4401304216136,
  223684786292239131076,
  4538709615176,
  223684786292239647046,
  13195249754696,
  76146862499580346372,
  2400968,
  73841582440320073732,
  2392778,
  76146862499580346688,
  1076142792,
  223684786292237795648,
  1076666952,
  76146862499580346368,
  2400968,
  76146862499580362758,
  35955400,
  76146862499580346692,
  1076142792,
  73841582440320074052,
  1076134602,
  223684786292237795652,
  1076666952,
  221379506232977523012,
  1076658762,
  76146862499580346692,
  1076142792,
  73841582440320074052,
  1076134602,
  223684786292237795652,
  1076666952,
  221379506232977523012,
  1076658762,
  76146862499582181696,
  13195215676104,
  76146862499582206276,
  13332654629576,
  73841582440321933636,
  13332654621386,
  76146862499581682116,
  4538709091016,
  73841582440321409476,
  4538709082826,
  76146862499582206276,
  13332654629576,
  73841582440321933636,
  13332654621386,
  76146862499582198086,
  13195249230536,
  76146862499582198086,
  13195249230536,
  76146862499582206276,
  13332654629576,
  76146862499581673926,
  4401303691976,
  76146862499581673926,
  4401303691976,
  73841582440321401286,
  4401303683786,
  76146862499582206276,
  13332654629576,
  73841582440321933636,
  13332654621386,
  76146862499581673926,
  4401303691976,
  73841582440321401286,
  4401303683786,
  76146862499581673926,
  4401303691976,
  73841582440321401286,
  4401303683786,
  76146862499581673926,
  4401303691976,
  76146862499581682116,
  4538709091016,
  76146862499581673926,
  4401303691976]

/-- Check ccd_t2_bbbb_anti0. Antisymmetry of ccd_t2_bbbb under [1, 0, 2, 3]. -/
theorem ccd_t2_bbbb_anti0 : isZero kinds [aᵥ, bᵥ, iₒ, jₒ] 4
    (ccd_t2_bbbb ++ (Prog.outs [1, 0, 2, 3] (ccd_t2_bbbb)))
    (ccd_t2_bbbb_anti0_cert_0) = true := by decide +kernel

def ccd_t2_bbbb_anti1_cert_0 : List Nat := [223684786292237795332,
  2925128,
  221379506232977522692,
  2916938,
  223684786292237795648,
  1076666952,
  76146862499580346688,
  1076142792,
  223684786292237795328,
  2925128,
  223684786292237811718,
  36479560,
  223684786292237795652,
  1076666952,
  221379506232977523012,
  1076658762,
  76146862499580346692,
  1076142792,
  73841582440320074052,
  1076134602,
  223684786292237795652,
  1076666952,
  221379506232977523012,
  1076658762,
  76146862499580346692,
  1076142792,
  73841582440320074052,
  1076134602,
  223684786292239630656,
  13195216200264,
  223684786292239655236,
  13332655153736,
  221379506232979382596,
  13332655145546,
  223684786292239131076,
  4538709615176,
  221379506232978858436,
  4538709606986,
  223684786292239655236,
  13332655153736,
  221379506232979382596,
  13332655145546,
  223684786292239647046,
  13195249754696,
  223684786292239647046,
  13195249754696,
  223684786292239655236,
  13332655153736,
  223684786292239647046,
  13195249754696,
  223684786292239655236,
  13332655153736,
  221379506232979382596,
  13332655145546,
  223684786292239655236,
  13332655153736,
  221379506232979382596,
  13332655145546,
  223684786292239122886,
  4401304216136,
  221379506232978850246,
  4401304207946,
  223684786292239655236,
  13332655153736,
  221379506232979382596,
  13332655145546,
  223684786292239122886,
  4401304216136,
  223684786292239131076,
  4538709615176,
  223684786292239647046,
  13195249754696,
  221379506232977522692,
  2916938,
  223684786292237795332,
  2925128,
  221379506232977523008,
  1076658762,
  73841582440320074048,
  1076134602,
  221379506232977522688,
  2916938,
  221379506232977539078,
  36471370,
  221379506232977523012,
  1076658762,
  223684786292237795652,
  1076666952,
  73841582440320074052,
  1076134602,
  76146862499580346692,
  1076142792,
  221379506232977523012,
  1076658762,
  223684786292237795652,
  1076666952,
  73841582440320074052,
  1076134602,
  76146862499580346692,
  1076142792,
  221379506232979358016,
  13195216192074,
  221379506232979382596,
  13332655145546,
  223684786292239655236,
  13332655153736,
  221379506232978858436,
  4538709606986,
  223684786292239131076,
  4538709615176,
  221379506232979382596,
  13332655145546,
  223684786292239655236,
  13332655153736,
  221379506232979374406,
  13195249746506,
  221379506232979374406,
  13195249746506,
  221379506232979382596,
  13332655145546,
  221379506232979374406,
  13195249746506,
  221379506232979382596,
  13332655145546,
  223684786292239655236,
  13332655153736,
  221379506232979382596,
  13332655145546,
  223684786292239655236,
  13332655153736,
  221379506232978850246,
  4401304207946,
  223684786292239122886,
  4401304216136,
  221379506232979382596,
  13332655145546,
  223684786292239655236,
  13332655153736,
  221379506232978850246,
  4401304207946,
  221379506232978858436,
  4538709606986,
  221379506232979374406,
  13195249746506]

/-- Check ccd_t2_bbbb_anti1. Antisymmetry of ccd_t2_bbbb under [0, 1, 3, 2]. -/
theorem ccd_t2_bbbb_anti1 : isZero kinds [aᵥ, bᵥ, iₒ, jₒ] 4
    (ccd_t2_bbbb ++ (Prog.outs [0, 1, 3, 2] (ccd_t2_bbbb)))
    (ccd_t2_bbbb_anti1_cert_0) = true := by decide +kernel

def build_T3_anti0_cert_0 : List Nat := [417753473088,
  417753473088,
  417753464898,
  417753464898,
  417752948928,
  417752948928,
  417752940738,
  417752940738,
  417753473088,
  417753473088,
  417752948928,
  417752948928,
  417753473088,
  417753473088,
  417753464898,
  417753464898,
  417753473088,
  417753473088,
  30791762190400,
  30791762190400,
  30791728644160,
  30791728644160,
  30789615231040,
  30789615231040,
  30789581684800,
  30789581684800,
  30791762190400,
  30791762190400,
  30789615231040,
  30789615231040,
  30791762190400,
  30791762190400,
  30791728644160,
  30791728644160,
  30791762190400,
  30791762190400,
  417752948928,
  417752948928,
  417752940738,
  417752940738,
  417753473088,
  417753473088,
  417753464898,
  417753464898,
  417752948928,
  417752948928,
  417753473088,
  417753473088,
  417752948928,
  417752948928,
  417752940738,
  417752940738,
  417752948928,
  417752948928,
  30791761666240,
  30791761666240,
  30791728120000,
  30791728120000,
  30787467747520,
  30789614182720,
  30787434201280,
  30789580636480,
  30791761666240,
  30791761666240,
  30787467747520,
  30789614182720,
  30791761666240,
  30791761666240,
  30791728120000,
  30791728120000,
  30791761666240,
  30791761666240]

/-- Check build_T3_anti0. Antisymmetry of build_T3 under [1, 0, 2, 3, 4, 5]. -/
theorem build_T3_anti0 : isZero kinds [aᵥ, bᵥ, cᵥ, iₒ, jₒ, kₒ] 1
    (build_T3 ++ (Prog.outs [1, 0, 2, 3, 4, 5] (build_T3)))
    (build_T3_anti0_cert_0) = true := by decide +kernel

def build_T3_anti1_cert_0 : List Nat := [417753473088,
  417753473088,
  417753464898,
  417753464898,
  417752948928,
  417752948928,
  417752940738,
  417752940738,
  417753473088,
  417753473088,
  417752948928,
  417752948928,
  417753473088,
  417753473088,
  417753464898,
  417753464898,
  417753473088,
  417753473088,
  30791762190400,
  30791762190400,
  30791728644160,
  30791728644160,
  30789615231040,
  30789615231040,
  30789581684800,
  30789581684800,
  30791762190400,
  30791762190400,
  30789615231040,
  30789615231040,
  30791762190400,
  30791762190400,
  30791728644160,
  30791728644160,
  30791762190400,
  30791762190400,
  415606513728,
  415606513728,
  415606505538,
  415606505538,
  415605465408,
  413459030208,
  415605457218,
  413459022018,
  415606513728,
  415606513728,
  415605465408,
  413459030208,
  415606513728,
  415606513728,
  415606505538,
  415606505538,
  415606513728,
  415606513728,
  30789615231040,
  30789615231040,
  30789581684800,
  30789581684800,
  30791762190400,
  30791762190400,
  30791728644160,
  30791728644160,
  30789615231040,
  30789615231040,
  30791762190400,
  30791762190400,
  30789615231040,
  30789615231040,
  30789581684800,
  30789581684800,
  30789615231040,
  30789615231040]

/-- Check build_T3_anti1. Antisymmetry of build_T3 under [0, 2, 1, 3, 4, 5]. -/
theorem build_T3_anti1 : isZero kinds [aᵥ, bᵥ, cᵥ, iₒ, jₒ, kₒ] 1
    (build_T3 ++ (Prog.outs [0, 2, 1, 3, 4, 5] (build_T3)))
    (build_T3_anti1_cert_0) = true := by decide +kernel

def build_T3_anti2_cert_0 : List Nat := [417753473088,
  417753473088,
  417753464898,
  417753464898,
  417752948928,
  417752948928,
  417752940738,
  417752940738,
  417753473088,
  417753473088,
  417752948928,
  417752948928,
  417753473088,
  417753473088,
  417753464898,
  417753464898,
  417753473088,
  417753473088,
  30791762190400,
  30791762190400,
  30791728644160,
  30791728644160,
  30789615231040,
  30789615231040,
  30789581684800,
  30789581684800,
  30791762190400,
  30791762190400,
  30789615231040,
  30789615231040,
  30791762190400,
  30791762190400,
  30791728644160,
  30791728644160,
  30791762190400,
  30791762190400,
  417753464898,
  417753464898,
  417753473088,
  417753473088,
  417752940738,
  417752940738,
  417752948928,
  417752948928,
  417753464898,
  417753464898,
  417752940738,
  417752940738,
  417753464898,
  417753464898,
  417753473088,
  417753473088,
  417753464898,
  417753464898,
  30791762182210,
  30791762182210,
  30791695089730,
  30791728627780,
  30789615222850,
  30789615222850,
  30789548130370,
  30789581668420,
  30791762182210,
  30791762182210,
  30789615222850,
  30789615222850,
  30791762182210,
  30791762182210,
  30791695089730,
  30791728627780,
  30791762182210,
  30791762182210]

/-- Check build_T3_anti2. Antisymmetry of build_T3 under [0, 1, 2, 4, 3, 5]. -/
theorem build_T3_anti2 : isZero kinds [aᵥ, bᵥ, cᵥ, iₒ, jₒ, kₒ] 1
    (build_T3 ++ (Prog.outs [0, 1, 2, 4, 3, 5] (build_T3)))
    (build_T3_anti2_cert_0) = true := by decide +kernel

def build_T3_anti3_cert_0 : List Nat := [417753473088,
  417753473088,
  417753464898,
  417753464898,
  417752948928,
  417752948928,
  417752940738,
  417752940738,
  417753473088,
  417753473088,
  417752948928,
  417752948928,
  417753473088,
  417753473088,
  417753464898,
  417753464898,
  417753473088,
  417753473088,
  30791762190400,
  30791762190400,
  30791728644160,
  30791728644160,
  30789615231040,
  30789615231040,
  30789581684800,
  30789581684800,
  30791762190400,
  30791762190400,
  30789615231040,
  30789615231040,
  30791762190400,
  30791762190400,
  30791728644160,
  30791728644160,
  30791762190400,
  30791762190400,
  417719926848,
  417719926848,
  417719910468,
  417686372418,
  417719402688,
  417719402688,
  417719386308,
  417685848258,
  417719926848,
  417719926848,
  417719402688,
  417719402688,
  417719926848,
  417719926848,
  417719910468,
  417686372418,
  417719926848,
  417719926848,
  30791728644160,
  30791728644160,
  30791762190400,
  30791762190400,
  30789581684800,
  30789581684800,
  30789615231040,
  30789615231040,
  30791728644160,
  30791728644160,
  30789581684800,
  30789581684800,
  30791728644160,
  30791728644160,
  30791762190400,
  30791762190400,
  30791728644160,
  30791728644160]

/-- Check build_T3_anti3. Antisymmetry of build_T3 under [0, 1, 2, 3, 5, 4]. -/
theorem build_T3_anti3 : isZero kinds [aᵥ, bᵥ, cᵥ, iₒ, jₒ, kₒ] 1
    (build_T3 ++ (Prog.outs [0, 1, 2, 3, 5, 4] (build_T3)))
    (build_T3_anti3_cert_0) = true := by decide +kernel

def t3_resid_anti0_cert_0 : List Nat := [417753473088,
  417753473088,
  417719926848,
  417719926848,
  417753473088,
  417753473088,
  30791762190400,
  30791762190400,
  30791761666240,
  30791761666240,
  30791762190400,
  30791762190400,
  417753473088,
  417753473088,
  417753464898,
  417753464898,
  417752948928,
  417752948928,
  417752940738,
  417752940738,
  417753473088,
  417753473088,
  417752948928,
  417752948928,
  417753473088,
  417753473088,
  417753464898,
  417753464898,
  417753473088,
  417753473088,
  30791762190400,
  30791762190400,
  30791728644160,
  30791728644160,
  30789615231040,
  30789615231040,
  30789581684800,
  30789581684800,
  30791762190400,
  30791762190400,
  30789615231040,
  30789615231040,
  30791762190400,
  30791762190400,
  30791728644160,
  30791728644160,
  30791762190400,
  30791762190400,
  417752948928,
  417752948928,
  417719402688,
  417719402688,
  417752948928,
  417752948928,
  30791761666240,
  30791761666240,
  30791762190400,
  30791762190400,
  30791761666240,
  30791761666240,
  417752948928,
  417752948928,
  417752940738,
  417752940738,
  417753473088,
  417753473088,
  417753464898,
  417753464898,
  417752948928,
  417752948928,
  417753473088,
  417753473088,
  417752948928,
  417752948928,
  417752940738,
  417752940738,
  417752948928,
  417752948928,
  30791761666240,
  30791761666240,
  30791728120000,
  30791728120000,
  30787467747520,
  30789614182720,
  30787434201280,
  30789580636480,
  30791761666240,
  30791761666240,
  30787467747520,
  30789614182720,
  30791761666240,
  30791761666240,
  30791728120000,
  30791728120000,
  30791761666240,
  30791761666240]

/-- Check t3_resid_anti0. Antisymmetry of t3_resid under [1, 0, 2, 3, 4, 5]. -/
theorem t3_resid_anti0 : isZero kinds [aᵥ, bᵥ, cᵥ, iₒ, jₒ, kₒ] 1
    (t3_resid ++ (Prog.outs [1, 0, 2, 3, 4, 5] (t3_resid)))
    (t3_resid_anti0_cert_0) = true := by decide +kernel

def t3_resid_anti1_cert_0 : List Nat := [417753473088,
  417753473088,
  417719926848,
  417719926848,
  417753473088,
  417753473088,
  30791762190400,
  30791762190400,
  30791761666240,
  30791761666240,
  30791762190400,
  30791762190400,
  417753473088,
  417753473088,
  417753464898,
  417753464898,
  417752948928,
  417752948928,
  417752940738,
  417752940738,
  417753473088,
  417753473088,
  417752948928,
  417752948928,
  417753473088,
  417753473088,
  417753464898,
  417753464898,
  417753473088,
  417753473088,
  30791762190400,
  30791762190400,
  30791728644160,
  30791728644160,
  30789615231040,
  30789615231040,
  30789581684800,
  30789581684800,
  30791762190400,
  30791762190400,
  30789615231040,
  30789615231040,
  30791762190400,
  30791762190400,
  30791728644160,
  30791728644160,
  30791762190400,
  30791762190400,
  415606513728,
  415606513728,
  415572967488,
  415572967488,
  415606513728,
  415606513728,
  30789615231040,
  30789615231040,
  30789614182720,
  30787467747520,
  30789615231040,
  30789615231040,
  415606513728,
  415606513728,
  415606505538,
  415606505538,
  415605465408,
  413459030208,
  415605457218,
  413459022018,
  415606513728,
  415606513728,
  415605465408,
  413459030208,
  415606513728,
  415606513728,
  415606505538,
  415606505538,
  415606513728,
  415606513728,
  30789615231040,
  30789615231040,
  30789581684800,
  30789581684800,
  30791762190400,
  30791762190400,
  30791728644160,
  30791728644160,
  30789615231040,
  30789615231040,
  30791762190400,
  30791762190400,
  30789615231040,
  30789615231040,
  30789581684800,
  30789581684800,
  30789615231040,
  30789615231040]

/-- Check t3_resid_anti1. Antisymmetry of t3_resid under [0, 2, 1, 3, 4, 5]. -/
theorem t3_resid_anti1 : isZero kinds [aᵥ, bᵥ, cᵥ, iₒ, jₒ, kₒ] 1
    (t3_resid ++ (Prog.outs [0, 2, 1, 3, 4, 5] (t3_resid)))
    (t3_resid_anti1_cert_0) = true := by decide +kernel

def t3_resid_anti2_cert_0 : List Nat := [417753473088,
  417753473088,
  417719926848,
  417719926848,
  417753473088,
  417753473088,
  30791762190400,
  30791762190400,
  30791761666240,
  30791761666240,
  30791762190400,
  30791762190400,
  417753473088,
  417753473088,
  417753464898,
  417753464898,
  417752948928,
  417752948928,
  417752940738,
  417752940738,
  417753473088,
  417753473088,
  417752948928,
  417752948928,
  417753473088,
  417753473088,
  417753464898,
  417753464898,
  417753473088,
  417753473088,
  30791762190400,
  30791762190400,
  30791728644160,
  30791728644160,
  30789615231040,
  30789615231040,
  30789581684800,
  30789581684800,
  30791762190400,
  30791762190400,
  30789615231040,
  30789615231040,
  30791762190400,
  30791762190400,
  30791728644160,
  30791728644160,
  30791762190400,
  30791762190400,
  417753464898,
  417753464898,
  417686372418,
  417719910468,
  417753464898,
  417753464898,
  30791762182210,
  30791762182210,
  30791761658050,
  30791761658050,
  30791762182210,
  30791762182210,
  417753464898,
  417753464898,
  417753473088,
  417753473088,
  417752940738,
  417752940738,
  417752948928,
  417752948928,
  417753464898,
  417753464898,
  417752940738,
  417752940738,
  417753464898,
  417753464898,
  417753473088,
  417753473088,
  417753464898,
  417753464898,
  30791762182210,
  30791762182210,
  30791695089730,
  30791728627780,
  30789615222850,
  30789615222850,
  30789548130370,
  30789581668420,
  30791762182210,
  30791762182210,
  30789615222850,
  30789615222850,
  30791762182210,
  30791762182210,
  30791695089730,
  30791728627780,
  30791762182210,
  30791762182210]

/-- Check t3_resid_anti2. Antisymmetry of t3_resid under [0, 1, 2, 4, 3, 5]. -/
theorem t3_resid_anti2 : isZero kinds [aᵥ, bᵥ, cᵥ, iₒ, jₒ, kₒ] 1
    (t3_resid ++ (Prog.outs [0, 1, 2, 4, 3, 5] (t3_resid)))
    (t3_resid_anti2_cert_0) = true := by decide +kernel

def t3_resid_anti3_cert_0 : List Nat := [417753473088,
  417753473088,
  417719926848,
  417719926848,
  417753473088,
  417753473088,
  30791762190400,
  30791762190400,
  30791761666240,
  30791761666240,
  30791762190400,
  30791762190400,
  417753473088,
  417753473088,
  417753464898,
  417753464898,
  417752948928,
  417752948928,
  417752940738,
  417752940738,
  417753473088,
  417753473088,
  417752948928,
  417752948928,
  417753473088,
  417753473088,
  417753464898,
  417753464898,
  417753473088,
  417753473088,
  30791762190400,
  30791762190400,
  30791728644160,
  30791728644160,
  30789615231040,
  30789615231040,
  30789581684800,
  30789581684800,
  30791762190400,
  30791762190400,
  30789615231040,
  30789615231040,
  30791762190400,
  30791762190400,
  30791728644160,
  30791728644160,
  30791762190400,
  30791762190400,
  417719926848,
  417719926848,
  417753473088,
  417753473088,
  417719926848,
  417719926848,
  30791728644160,
  30791728644160,
  30791728120000,
  30791728120000,
  30791728644160,
  30791728644160,
  417719926848,
  417719926848,
  417719910468,
  417686372418,
  417719402688,
  417719402688,
  417719386308,
  417685848258,
  417719926848,
  417719926848,
  417719402688,
  417719402688,
  417719926848,
  417719926848,
  417719910468,
  417686372418,
  417719926848,
  417719926848,
  30791728644160,
  30791728644160,
  30791762190400,
  30791762190400,
  30789581684800,
  30789581684800,
  30789615231040,
  30789615231040,
  30791728644160,
  30791728644160,
  30789581684800,
  30789581684800,
  30791728644160,
  30791728644160,
  30791762190400,
  30791762190400,
  30791728644160,
  30791728644160]

/-- Check t3_resid_anti3. Antisymmetry of t3_resid under [0, 1, 2, 3, 5, 4]. -/
theorem t3_resid_anti3 : isZero kinds [aᵥ, bᵥ, cᵥ, iₒ, jₒ, kₒ] 1
    (t3_resid ++ (Prog.outs [0, 1, 2, 3, 5, 4] (t3_resid)))
    (t3_resid_anti3_cert_0) = true := by decide +kernel

end Verif.Cert
