import Verif.Ein.Spin
import Verif.Gen.Qf
import Verif.Gen.SiQf1_aaaa
import Verif.Gen.SiQf1_abab
import Verif.Gen.SiQf1_bbbb

/-! Written by `/verif/tools/gen.py`. Checks of einsum programs. -/

set_option maxRecDepth 100000

namespace Verif.Cert

open Verif.Ein Verif.Ein.N


open Verif.Gen

def residQf1_aaaa_cert_0 : List Nat := [11531489256015667264,
  11531489256015667264,
  6920366324980654144,
  9225083571726458944,
  6920375118926192704,
  9225092365671997504,
  6920366050169856064,
  9224520621806592064,
  6920374844115394624,
  9224529415752130624,
  11531489256015659074,
  11531489256015659074,
  6920366324980645954,
  9225083571726450754,
  6920375118926184514,
  9225092365671989314,
  6920366050169847874,
  9224520621806583874,
  6920374844115386434,
  9224529415752122434,
  11531489256015667264,
  11531489256015667264,
  6920375118926192704,
  9225092365671997504,
  6920374844115394624,
  9224529415752130624,
  11530926443501199424,
  11530926443501199424,
  11530926168690401344,
  11530363493581332544,
  11531489256015667264,
  11531489256015667264,
  11531489256015659074,
  11531489256015659074,
  6920375118926184514,
  9225092365671989314,
  6920374844115386434,
  9224529415752122434,
  11530926443501191234,
  11530926443501191234,
  11530926168690393154,
  11530363493581324354,
  11531489256015659074,
  11531489256015659074,
  9225083159510261824,
  4614523315800514624,
  6919803100249989184,
  4613960503286046784,
  6919811894195527744,
  4613969297231585344,
  4613960228475248704,
  4613960228475248704,
  4613969022420787264,
  4613969022420787264,
  4613960228475248704,
  4613960228475248704,
  9225083159510253634,
  4614523315800506434,
  6919803100249980994,
  4613960503286038594,
  6919811894195519554,
  4613969297231577154,
  4613960228475240514,
  4613960228475240514,
  4613969022420779074,
  4613969022420779074,
  4613960228475240514,
  4613960228475240514,
  9225083159510261824,
  4614523315800514624,
  4613960228475248704,
  4613960228475248704,
  4613969022420787264,
  4613969022420787264,
  9225083159510253634,
  4614523315800506434,
  4613960228475240514,
  4613960228475240514,
  4613969022420779074,
  4613969022420779074,
  9225083159510261824,
  4614523315800514624,
  6919811894195527744,
  4613969297231585344,
  4613969022420787264,
  4613969022420787264,
  9224520346995793984,
  4614523178395115584,
  9224520346995793984,
  4614523178395115584,
  9225083159510253634,
  4614523315800506434,
  6919811894195519554,
  4613969297231577154,
  4613969022420779074,
  4613969022420779074,
  9224520346995785794,
  4614523178395107394,
  9224520346995785794,
  4614523178395107394,
  9225083159510261824,
  4614523315800514624,
  9225083159510261824,
  4614523315800514624,
  4613969022420787264,
  4613969022420787264,
  4613960228475248704,
  4613960228475248704,
  9224520346995793984,
  4614523178395115584,
  9225083159510253634,
  4614523315800506434,
  9225083159510253634,
  4614523315800506434,
  4613969022420779074,
  4613969022420779074,
  4613960228475240514,
  4613960228475240514,
  9224520346995785794,
  4614523178395107394,
  6918677475221053504,
  4613397553366179904,
  4613397553366179904,
  6918677475221053504,
  4613406347311718464,
  6918686269166592064,
  6918677475221053504,
  4613397553366179904,
  4613406347311718464,
  6918686269166592064,
  6918677475221053504,
  4613397553366179904,
  6918677475221053504,
  4613397553366179904,
  4613406347311194304,
  6918686269166067904,
  4613406347311194304,
  6918686269166067904,
  6918677475220529344,
  4613397553365655744,
  4613406347311194304,
  6918686269166067904,
  127811914335789120,
  91238032246317120,
  127811914335789120,
  91238032246317120,
  91229100895379520,
  91229100895379520,
  91229100895379520,
  91229100895379520,
  127811914335789120,
  91238032246317120,
  127811914335780930,
  91238032246308930,
  127811914335780930,
  91238032246308930,
  91229100895371330,
  91229100895371330,
  91229100895371330,
  91229100895371330,
  127811914335780930,
  91238032246308930,
  127811914335789120,
  91238032246317120,
  91229100895379520,
  91229100895379520,
  127811914335789120,
  91238032246317120,
  91229100895379520,
  91229100895379520,
  127811914335789120,
  91238032246317120,
  127811914335789120,
  91238032246317120,
  127811914335789120,
  91238032246317120,
  127811914335789120,
  91238032246317120,
  127811914335780930,
  91238032246308930,
  91229100895371330,
  91229100895371330,
  127811914335780930,
  91238032246308930,
  127811914335780930,
  91238032246308930,
  127811914335780930,
  91238032246308930,
  127811914335780930,
  91238032246308930,
  127811914335264960,
  91238032245792960,
  91229100894855360,
  91229100894855360,
  127811914335264960,
  91238032245792960,
  127811914335264960,
  91238032245792960,
  127811914335264960,
  91238032245792960,
  127811914335264960,
  91238032245792960,
  127811914335256770,
  91238032245784770,
  91229100894847170,
  91229100894847170,
  127811914335256770,
  91238032245784770,
  127811914335256770,
  91238032245784770,
  127811914335256770,
  91238032245784770,
  127811914335256770,
  91238032245784770,
  127811914335789120,
  91238032246317120,
  127811914335789120,
  91238032246317120,
  91229100895379520,
  91229100895379520,
  91229100895379520,
  91229100895379520,
  127811914335789120,
  91238032246317120,
  127811914335264960,
  91238032245792960,
  127811914335264960,
  91238032245792960,
  91229100894855360,
  91229100894855360,
  91229100894855360,
  91229100894855360,
  127811914335264960,
  91238032245792960,
  127249239226720320,
  91800707355385920,
  127249239226720320,
  91800707355385920,
  127249101821321280,
  91237894840918080,
  127249239226720320,
  91800707355385920,
  127249101821321280,
  91237894840918080,
  127249239226720320,
  91800707355385920,
  127249239226712130,
  91800707355377730,
  127249239226712130,
  91800707355377730,
  127249101821313090,
  91237894840909890,
  127249239226712130,
  91800707355377730,
  127249101821313090,
  91237894840909890,
  127249239226712130,
  91800707355377730,
  127249101821321280,
  91237894840918080,
  127249239226720320,
  91800707355385920,
  127249239226720320,
  91800707355385920,
  127249101821313090,
  91237894840909890,
  127249239226712130,
  91800707355377730,
  127249239226712130,
  91800707355377730,
  127249239226720320,
  91800707355385920,
  127249239226720320,
  91800707355385920,
  127249101821321280,
  91237894840918080,
  127249239226720320,
  91800707355385920,
  127249101821321280,
  91237894840918080,
  127249239226712130,
  91800707355377730,
  127249239226712130,
  91800707355377730,
  127249101821313090,
  91237894840909890,
  127249239226712130,
  91800707355377730,
  127249101821313090,
  91237894840909890,
  127249239226196160,
  91800707354861760,
  127249239226196160,
  91800707354861760,
  127249101820797120,
  91237894840393920,
  127249239226196160,
  91800707354861760,
  127249101820797120,
  91237894840393920,
  127249239226187970,
  91800707354853570,
  127249239226187970,
  91800707354853570,
  127249101820788930,
  91237894840385730,
  127249239226187970,
  91800707354853570,
  127249101820788930,
  91237894840385730,
  127249101821321280,
  91237894840918080,
  127249101821321280,
  91237894840918080,
  127249239226720320,
  91800707355385920,
  127249101821321280,
  91237894840918080,
  127249239226720320,
  91800707355385920,
  127249101821313090,
  91237894840909890,
  127249101821313090,
  91237894840909890,
  127249239226712130,
  91800707355377730,
  127249101821313090,
  91237894840909890,
  127249239226712130,
  91800707355377730,
  127249239226196160,
  91800707354861760,
  127249101820797120,
  91237894840393920,
  127249239226196160,
  91800707354861760,
  127249239226196160,
  91800707354861760,
  127249239226196160,
  91800707354861760,
  127249239226187970,
  91800707354853570,
  127249101820788930,
  91237894840385730,
  127249239226187970,
  91800707354853570,
  127249239226187970,
  91800707354853570,
  127249239226187970,
  91800707354853570,
  91791913409847360,
  91229238300778560,
  91800707355385920,
  127249239226720320,
  91791913409847360,
  91229238300778560,
  91791913409847360,
  91229238300778560,
  91791913409847360,
  91229238300778560,
  91791913409839170,
  91229238300770370,
  91800707355377730,
  127249239226712130,
  91791913409839170,
  91229238300770370,
  91791913409839170,
  91229238300770370,
  91791913409839170,
  91229238300770370,
  91791913409323200,
  91229238300254400,
  91800707354861760,
  127249239226196160,
  91791913409323200,
  91229238300254400,
  91791913409323200,
  91229238300254400,
  91791913409323200,
  91229238300254400,
  91791913409315010,
  91229238300246210,
  91800707354853570,
  127249239226187970,
  91791913409315010,
  91229238300246210,
  91791913409315010,
  91229238300246210,
  91791913409315010,
  91229238300246210,
  91791913409847360,
  91229238300778560,
  91791913409847360,
  91229238300778560,
  91791913409847360,
  91229238300778560,
  91791913409323200,
  91229238300254400,
  91791913409323200,
  91229238300254400]
def residQf1_aaaa_cert_1 : List Nat := [91791913409323200,
  91229238300254400,
  91791913409847360,
  91229238300778560,
  91791913409847360,
  91229238300778560,
  91800707355385920,
  127249239226720320,
  91791913409847360,
  91229238300778560,
  91800707355385920,
  127249239226720320,
  91791913409839170,
  91229238300770370,
  91791913409839170,
  91229238300770370,
  91800707355377730,
  127249239226712130,
  91791913409839170,
  91229238300770370,
  91800707355377730,
  127249239226712130,
  91791913409323200,
  91229238300254400,
  91791913409323200,
  91229238300254400,
  91800707354861760,
  127249239226196160,
  91791913409323200,
  91229238300254400,
  91800707354861760,
  127249239226196160,
  91791913409315010,
  91229238300246210,
  91791913409315010,
  91229238300246210,
  91800707354853570,
  127249239226187970,
  91791913409315010,
  91229238300246210,
  91800707354853570,
  127249239226187970,
  91791913409847360,
  91229238300778560,
  91791913409847360,
  91229238300778560,
  91800707355385920,
  127249239226720320,
  91791913409847360,
  91229238300778560,
  91800707355385920,
  127249239226720320,
  91791913409847360,
  91229238300778560,
  91791913409323200,
  91229238300254400,
  91791913409323200,
  91229238300254400,
  91800707354861760,
  127249239226196160,
  91791913409323200,
  91229238300254400,
  91800707354861760,
  127249239226196160,
  91791913409323200,
  91229238300254400,
  91229238300778560,
  91791913409847360,
  91238032246317120,
  127811914335789120,
  91237894840918080,
  127249101821321280,
  91229238300778560,
  91791913409847360,
  91229100895379520,
  91229100895379520,
  91238032246317120,
  127811914335789120,
  91229238300770370,
  91791913409839170,
  91238032246308930,
  127811914335780930,
  91237894840909890,
  127249101821313090,
  91229238300770370,
  91791913409839170,
  91229100895371330,
  91229100895371330,
  91238032246308930,
  127811914335780930,
  91229238300254400,
  91791913409323200,
  91238032245792960,
  127811914335264960,
  91237894840393920,
  127249101820797120,
  91229238300254400,
  91791913409323200,
  91229100894855360,
  91229100894855360,
  91238032245792960,
  127811914335264960,
  91229238300246210,
  91791913409315010,
  91238032245784770,
  127811914335256770,
  91237894840385730,
  127249101820788930,
  91229238300246210,
  91791913409315010,
  91229100894847170,
  91229100894847170,
  91238032245784770,
  127811914335256770,
  91229100895379520,
  91229100895379520,
  91238032246317120,
  127811914335789120,
  91229100895379520,
  91229100895379520,
  91229100895379520,
  91229100895379520,
  91229238300778560,
  91791913409847360,
  91229100895371330,
  91229100895371330,
  91238032246308930,
  127811914335780930,
  91229100895371330,
  91229100895371330,
  91229100895371330,
  91229100895371330,
  91229238300770370,
  91791913409839170,
  91229100894855360,
  91229100894855360,
  91238032245792960,
  127811914335264960,
  91229100894855360,
  91229100894855360,
  91229100894855360,
  91229100894855360,
  91229238300254400,
  91791913409323200,
  91229100894847170,
  91229100894847170,
  91238032245784770,
  127811914335256770,
  91229100894847170,
  91229100894847170,
  91229100894847170,
  91229100894847170,
  91229238300246210,
  91791913409315010,
  91229238300778560,
  91791913409847360,
  91229238300778560,
  91791913409847360,
  91238032246317120,
  127811914335789120,
  91229100895379520,
  91229100895379520,
  91237894840918080,
  127249101821321280,
  91229238300770370,
  91791913409839170,
  91229238300770370,
  91791913409839170,
  91238032246308930,
  127811914335780930,
  91229100895371330,
  91229100895371330,
  91237894840909890,
  127249101821313090,
  91229238300254400,
  91791913409323200,
  91229238300254400,
  91791913409323200,
  91238032245792960,
  127811914335264960,
  91229100894855360,
  91229100894855360,
  91237894840393920,
  127249101820797120,
  91229238300246210,
  91791913409315010,
  91229238300246210,
  91791913409315010,
  91238032245784770,
  127811914335256770,
  91229100894847170,
  91229100894847170,
  91237894840385730,
  127249101820788930,
  91229238300778560,
  91791913409847360,
  91229100895379520,
  91229100895379520,
  91237894840918080,
  127249101821321280,
  91229238300778560,
  91791913409847360,
  91238032246317120,
  127811914335789120,
  91229100895379520,
  91229100895379520,
  91229238300770370,
  91791913409839170,
  91229100895371330,
  91229100895371330,
  91237894840909890,
  127249101821313090,
  91229238300770370,
  91791913409839170,
  91238032246308930,
  127811914335780930,
  91229100895371330,
  91229100895371330,
  91229238300254400,
  91791913409323200,
  91229100894855360,
  91229100894855360,
  91237894840393920,
  127249101820797120,
  91229238300254400,
  91791913409323200,
  91238032245792960,
  127811914335264960,
  91229100894855360,
  91229100894855360,
  91229238300246210,
  91791913409315010,
  91229100894847170,
  91229100894847170,
  91237894840385730,
  127249101820788930,
  91229238300246210,
  91791913409315010,
  91238032245784770,
  127811914335256770,
  91229100894847170,
  91229100894847170,
  811818891239939121216,
  811818891239939121216,
  516707014859752742976,
  664172907444503846976,
  516707014722347343936,
  664172907307098447936,
  516707032447643820096,
  664208936239375327296,
  516707032310238421056,
  664208936101969928256,
  811818891102533722176,
  811818891102533722176,
  811782862307662241856,
  811746851100681838656,
  516707014859752742976,
  664172907444503846976,
  811782879895553318976,
  811782879895553318976,
  516707032447643820096,
  664208936239375327296,
  811818891102533722176,
  811818891102533722176,
  811818891102533713986,
  811818891102533713986,
  811782862307662233666,
  811746851100681830466,
  516707014859752734786,
  664172907444503838786,
  811782879895553310786,
  811782879895553310786,
  516707032447643811906,
  664208936239375319106,
  811818891102533713986,
  811818891102533713986,
  811818891239939121216,
  811818891239939121216,
  811782862445067640896,
  811746851238087237696,
  811782862307662241856,
  811746851100681838656,
  811782880032958718016,
  811782880032958718016,
  811782879895553318976,
  811782879895553318976,
  664208909857538711616,
  369133079860114890816,
  516670986064881262656,
  369097059859188949056,
  516670985927475863616,
  369097059721783550016,
  369097042271297871936,
  369097042271297871936,
  369097042133892472896,
  369097042133892472896,
  369097042271297871936,
  369097042271297871936,
  664208909857538187456,
  369133079860114366656,
  516670986064880738496,
  369097059859188424896,
  516670985927475339456,
  369097059721783025856,
  369097042271297347776,
  369097042271297347776,
  369097042133891948736,
  369097042133891948736,
  369097042271297347776,
  369097042271297347776,
  664208909720133312576,
  369133079722709491776,
  516670986064881262656,
  369097059859188949056,
  664172889719207370816,
  369133070928763953216,
  664172889719207370816,
  369133070928763953216,
  369097042271297871936,
  369097042271297871936,
  664208909720133304386,
  369133079722709483586,
  516670986064881254466,
  369097059859188940866,
  664172889719207362626,
  369133070928763945026,
  664172889719207362626,
  369133070928763945026,
  369097042271297863746,
  369097042271297863746,
  664208909720132788416,
  369133079722708967616,
  516670986064880738496,
  369097059859188424896,
  664172889719206846656,
  369133070928763429056,
  664172889719206846656,
  369133070928763429056,
  369097042271297347776,
  369097042271297347776,
  664208909720132780226,
  369133079722708959426,
  516670986064880730306,
  369097059859188416706,
  664172889719206838466,
  369133070928763420866,
  664172889719206838466,
  369133070928763420866,
  369097042271297339586,
  369097042271297339586,
  664208909857538711616,
  369133079860114890816,
  664172889856612769856,
  369133071066169352256,
  664172889719207370816,
  369133070928763953216,
  664208909857538187456,
  369133079860114366656,
  664172889856612245696,
  369133071066168828096,
  664172889719206846656,
  369133070928763429056,
  516598946063029379136,
  369061031064317468736,
  369061031064317468736,
  516598946063029379136,
  369061030926912069696,
  516598945925623980096,
  369061031064317468736,
  516598946063029379136,
  369061031064317468736,
  516598946063029379136,
  516598945925623980096,
  369061030926912069696,
  369061031064317468736,
  516598946063029379136,
  516598945925623971906,
  369061030926912061506,
  369061031064317460546,
  516598946063029370946,
  516598945925623971906,
  369061030926912061506,
  516598945925623971906,
  369061030926912061506,
  11531489256015667264,
  11531489256015667264,
  11531489256015659074,
  11531489256015659074,
  6920366324980654144,
  9225083571726458944,
  6920366324980645954,
  9225083571726450754,
  6920375118926192704,
  9225092365671997504,
  6920375118926184514,
  9225092365671989314,
  6920366050169856064,
  9224520621806592064,
  6920366050169847874,
  9224520621806583874]
def residQf1_aaaa_cert_2 : List Nat := [6920374844115394624,
  9224529415752130624,
  6920374844115386434,
  9224529415752122434,
  11531489256015667264,
  11531489256015667264,
  11531489256015659074,
  11531489256015659074,
  11530926443501199424,
  11530926443501199424,
  11530926443501191234,
  11530926443501191234,
  6920375118926192704,
  9225092365671997504,
  6920375118926184514,
  9225092365671989314,
  11530926168690401344,
  11530363493581332544,
  11530926168690393154,
  11530363493581324354,
  6920374844115394624,
  9224529415752130624,
  6920374844115386434,
  9224529415752122434,
  11531489256015667264,
  11531489256015667264,
  11531489256015659074,
  11531489256015659074,
  9225083159510261824,
  4614523315800514624,
  9225083159510253634,
  4614523315800506434,
  4613960228475248704,
  4613960228475248704,
  4613960228475240514,
  4613960228475240514,
  4613969022420787264,
  4613969022420787264,
  4613969022420779074,
  4613969022420779074,
  6919803100249989184,
  4613960503286046784,
  6919803100249980994,
  4613960503286038594,
  6919811894195527744,
  4613969297231585344,
  6919811894195519554,
  4613969297231577154,
  4613960228475248704,
  4613960228475248704,
  4613960228475240514,
  4613960228475240514,
  9225083159510261824,
  4614523315800514624,
  9225083159510253634,
  4614523315800506434,
  4613960228475248704,
  4613960228475248704,
  4613960228475240514,
  4613960228475240514,
  4613969022420787264,
  4613969022420787264,
  4613969022420779074,
  4613969022420779074,
  9225083159510261824,
  4614523315800514624,
  9225083159510253634,
  4614523315800506434,
  9224520346995793984,
  4614523178395115584,
  9224520346995785794,
  4614523178395107394,
  4613969022420787264,
  4613969022420787264,
  4613969022420779074,
  4613969022420779074,
  6919811894195527744,
  4613969297231585344,
  6919811894195519554,
  4613969297231577154,
  9224520346995793984,
  4614523178395115584,
  9224520346995785794,
  4614523178395107394,
  9225083159510261824,
  4614523315800514624,
  9225083159510253634,
  4614523315800506434,
  9224520346995793984,
  4614523178395115584,
  9224520346995785794,
  4614523178395107394,
  4613969022420787264,
  4613969022420787264,
  4613969022420779074,
  4613969022420779074,
  9225083159510261824,
  4614523315800514624,
  9225083159510253634,
  4614523315800506434,
  4613960228475248704,
  4613960228475248704,
  4613960228475240514,
  4613960228475240514,
  6918677475221053504,
  4613397553366179904,
  4613397553366179904,
  6918677475221053504,
  4613406347311718464,
  6918686269166592064,
  6918677475221053504,
  4613397553366179904,
  4613406347311194304,
  6918686269166067904,
  4613406347311718464,
  6918686269166592064,
  4613406347311194304,
  6918686269166067904,
  6918677475221053504,
  4613397553366179904,
  6918677475220529344,
  4613397553365655744,
  6918677475221053504,
  4613397553366179904,
  4613406347311194304,
  6918686269166067904,
  127811914335789120,
  91238032246317120,
  127811914335780930,
  91238032246308930,
  91229100895379520,
  91229100895379520,
  91229100895371330,
  91229100895371330,
  127811914335789120,
  91238032246317120,
  127811914335780930,
  91238032246308930,
  127811914335789120,
  91238032246317120,
  127811914335780930,
  91238032246308930,
  91229100895379520,
  91229100895379520,
  91229100895371330,
  91229100895371330,
  127811914335789120,
  91238032246317120,
  91229100895379520,
  91229100895379520,
  127811914335789120,
  91238032246317120,
  127811914335780930,
  91238032246308930,
  127811914335264960,
  91238032245792960,
  127811914335256770,
  91238032245784770,
  127811914335789120,
  91238032246317120,
  127811914335780930,
  91238032246308930,
  127811914335264960,
  91238032245792960,
  127811914335256770,
  91238032245784770,
  91229100895379520,
  91229100895379520,
  91229100895371330,
  91229100895371330,
  91229100894855360,
  91229100894855360,
  91229100894847170,
  91229100894847170,
  127811914335789120,
  91238032246317120,
  127811914335780930,
  91238032246308930,
  127811914335264960,
  91238032245792960,
  127811914335256770,
  91238032245784770,
  127811914335789120,
  91238032246317120,
  127811914335780930,
  91238032246308930,
  127811914335264960,
  91238032245792960,
  127811914335256770,
  91238032245784770,
  127811914335789120,
  91238032246317120,
  127811914335780930,
  91238032246308930,
  127811914335264960,
  91238032245792960,
  127811914335256770,
  91238032245784770,
  127811914335789120,
  91238032246317120,
  127811914335264960,
  91238032245792960,
  127811914335789120,
  91238032246317120,
  127811914335264960,
  91238032245792960,
  91229100895379520,
  91229100895379520,
  91229100894855360,
  91229100894855360,
  127811914335789120,
  91238032246317120,
  127811914335264960,
  91238032245792960,
  91229100895379520,
  91229100895379520,
  91229100894855360,
  91229100894855360,
  127249239226720320,
  91800707355385920,
  127249239226712130,
  91800707355377730,
  127249239226720320,
  91800707355385920,
  127249239226712130,
  91800707355377730,
  127249239226720320,
  91800707355385920,
  127249239226712130,
  91800707355377730,
  127249101821321280,
  91237894840918080,
  127249101821313090,
  91237894840909890,
  127249101821321280,
  91237894840918080,
  127249101821313090,
  91237894840909890,
  127249239226720320,
  91800707355385920,
  127249239226712130,
  91800707355377730,
  127249101821321280,
  91237894840918080,
  127249101821313090,
  91237894840909890,
  127249239226720320,
  91800707355385920,
  127249239226712130,
  91800707355377730,
  127249239226720320,
  91800707355385920,
  127249239226712130,
  91800707355377730,
  127249239226720320,
  91800707355385920,
  127249239226712130,
  91800707355377730,
  127249239226196160,
  91800707354861760,
  127249239226187970,
  91800707354853570,
  127249239226720320,
  91800707355385920,
  127249239226712130,
  91800707355377730,
  127249239226196160,
  91800707354861760,
  127249239226187970,
  91800707354853570,
  127249239226720320,
  91800707355385920,
  127249239226712130,
  91800707355377730,
  127249239226196160,
  91800707354861760,
  127249239226187970,
  91800707354853570,
  127249101821321280,
  91237894840918080,
  127249101821313090,
  91237894840909890,
  127249101820797120,
  91237894840393920,
  127249101820788930,
  91237894840385730,
  127249101821321280,
  91237894840918080,
  127249101821313090,
  91237894840909890,
  127249101820797120,
  91237894840393920,
  127249101820788930,
  91237894840385730,
  127249101821321280,
  91237894840918080,
  127249101821313090,
  91237894840909890,
  127249239226196160,
  91800707354861760,
  127249239226187970,
  91800707354853570,
  127249239226720320,
  91800707355385920,
  127249239226712130,
  91800707355377730,
  127249239226196160,
  91800707354861760,
  127249239226187970,
  91800707354853570,
  127249239226720320,
  91800707355385920,
  127249239226712130,
  91800707355377730,
  127249239226196160,
  91800707354861760,
  127249239226187970,
  91800707354853570,
  127249101821321280,
  91237894840918080,
  127249101821313090,
  91237894840909890,
  127249101820797120,
  91237894840393920,
  127249101820788930,
  91237894840385730,
  127249101821321280,
  91237894840918080,
  127249101821313090,
  91237894840909890,
  127249239226196160,
  91800707354861760,
  127249239226187970,
  91800707354853570,
  91791913409847360,
  91229238300778560,
  91791913409839170,
  91229238300770370,
  91791913409323200,
  91229238300254400,
  91791913409315010,
  91229238300246210,
  91791913409847360,
  91229238300778560,
  91791913409839170,
  91229238300770370,
  91791913409323200,
  91229238300254400,
  91791913409315010,
  91229238300246210,
  91791913409847360,
  91229238300778560,
  91791913409839170,
  91229238300770370,
  91791913409323200,
  91229238300254400,
  91791913409315010,
  91229238300246210,
  91800707355385920,
  127249239226720320,
  91800707355377730,
  127249239226712130,
  91800707354861760,
  127249239226196160,
  91800707354853570,
  127249239226187970,
  91791913409847360,
  91229238300778560,
  91791913409839170,
  91229238300770370,
  91791913409323200,
  91229238300254400,
  91791913409315010,
  91229238300246210,
  91791913409847360,
  91229238300778560,
  91791913409323200,
  91229238300254400,
  91791913409847360,
  91229238300778560,
  91791913409323200,
  91229238300254400,
  91791913409847360,
  91229238300778560,
  91791913409323200,
  91229238300254400,
  91791913409847360,
  91229238300778560,
  91791913409839170,
  91229238300770370,
  91791913409323200,
  91229238300254400,
  91791913409315010,
  91229238300246210,
  91791913409847360,
  91229238300778560,
  91791913409839170,
  91229238300770370,
  91791913409323200,
  91229238300254400]
def residQf1_aaaa_cert_3 : List Nat := [91791913409315010,
  91229238300246210,
  91800707355385920,
  127249239226720320,
  91800707355377730,
  127249239226712130,
  91800707354861760,
  127249239226196160,
  91800707354853570,
  127249239226187970,
  91791913409847360,
  91229238300778560,
  91791913409839170,
  91229238300770370,
  91791913409323200,
  91229238300254400,
  91791913409315010,
  91229238300246210,
  91800707355385920,
  127249239226720320,
  91800707355377730,
  127249239226712130,
  91800707354861760,
  127249239226196160,
  91800707354853570,
  127249239226187970,
  91791913409847360,
  91229238300778560,
  91791913409323200,
  91229238300254400,
  91791913409847360,
  91229238300778560,
  91791913409323200,
  91229238300254400,
  91800707355385920,
  127249239226720320,
  91800707354861760,
  127249239226196160,
  91791913409847360,
  91229238300778560,
  91791913409323200,
  91229238300254400,
  91800707355385920,
  127249239226720320,
  91800707354861760,
  127249239226196160,
  91791913409847360,
  91229238300778560,
  91791913409323200,
  91229238300254400,
  91229238300778560,
  91791913409847360,
  91229238300770370,
  91791913409839170,
  91229238300254400,
  91791913409323200,
  91229238300246210,
  91791913409315010,
  91229238300778560,
  91791913409847360,
  91229238300770370,
  91791913409839170,
  91229238300254400,
  91791913409323200,
  91229238300246210,
  91791913409315010,
  91238032246317120,
  127811914335789120,
  91238032246308930,
  127811914335780930,
  91238032245792960,
  127811914335264960,
  91238032245784770,
  127811914335256770,
  91229100895379520,
  91229100895379520,
  91229100895371330,
  91229100895371330,
  91229100894855360,
  91229100894855360,
  91229100894847170,
  91229100894847170,
  91237894840918080,
  127249101821321280,
  91237894840909890,
  127249101821313090,
  91237894840393920,
  127249101820797120,
  91237894840385730,
  127249101820788930,
  91238032246317120,
  127811914335789120,
  91238032246308930,
  127811914335780930,
  91238032245792960,
  127811914335264960,
  91238032245784770,
  127811914335256770,
  91229100895379520,
  91229100895379520,
  91229100895371330,
  91229100895371330,
  91229100894855360,
  91229100894855360,
  91229100894847170,
  91229100894847170,
  91229238300778560,
  91791913409847360,
  91229238300770370,
  91791913409839170,
  91229238300254400,
  91791913409323200,
  91229238300246210,
  91791913409315010,
  91238032246317120,
  127811914335789120,
  91238032246308930,
  127811914335780930,
  91238032245792960,
  127811914335264960,
  91238032245784770,
  127811914335256770,
  91229100895379520,
  91229100895379520,
  91229100895371330,
  91229100895371330,
  91229100894855360,
  91229100894855360,
  91229100894847170,
  91229100894847170,
  91229100895379520,
  91229100895379520,
  91229100895371330,
  91229100895371330,
  91229100894855360,
  91229100894855360,
  91229100894847170,
  91229100894847170,
  91229238300778560,
  91791913409847360,
  91229238300770370,
  91791913409839170,
  91229238300254400,
  91791913409323200,
  91229238300246210,
  91791913409315010,
  91229238300778560,
  91791913409847360,
  91229238300770370,
  91791913409839170,
  91229238300254400,
  91791913409323200,
  91229238300246210,
  91791913409315010,
  91238032246317120,
  127811914335789120,
  91238032246308930,
  127811914335780930,
  91238032245792960,
  127811914335264960,
  91238032245784770,
  127811914335256770,
  91229100895379520,
  91229100895379520,
  91229100895371330,
  91229100895371330,
  91229100894855360,
  91229100894855360,
  91229100894847170,
  91229100894847170,
  91237894840918080,
  127249101821321280,
  91237894840909890,
  127249101821313090,
  91237894840393920,
  127249101820797120,
  91237894840385730,
  127249101820788930,
  91229238300778560,
  91791913409847360,
  91229238300770370,
  91791913409839170,
  91229238300254400,
  91791913409323200,
  91229238300246210,
  91791913409315010,
  91229238300778560,
  91791913409847360,
  91229238300770370,
  91791913409839170,
  91229238300254400,
  91791913409323200,
  91229238300246210,
  91791913409315010,
  91238032246317120,
  127811914335789120,
  91238032246308930,
  127811914335780930,
  91238032245792960,
  127811914335264960,
  91238032245784770,
  127811914335256770,
  91229100895379520,
  91229100895379520,
  91229100895371330,
  91229100895371330,
  91229100894855360,
  91229100894855360,
  91229100894847170,
  91229100894847170,
  91237894840918080,
  127249101821321280,
  91237894840909890,
  127249101821313090,
  91237894840393920,
  127249101820797120,
  91237894840385730,
  127249101820788930,
  91229100895379520,
  91229100895379520,
  91229100895371330,
  91229100895371330,
  91229100894855360,
  91229100894855360,
  91229100894847170,
  91229100894847170,
  811818891239939121216,
  811818891239939121216,
  516707014859752742976,
  664172907444503846976,
  516707032447643820096,
  664208936239375327296,
  516707014722347343936,
  664172907307098447936,
  516707032310238421056,
  664208936101969928256,
  811818891102533722176,
  811818891102533722176,
  811818891102533713986,
  811818891102533713986,
  516707014859752742976,
  664172907444503846976,
  516707014859752734786,
  664172907444503838786,
  516707032447643820096,
  664208936239375327296,
  516707032447643811906,
  664208936239375319106,
  811782862307662241856,
  811746851100681838656,
  811782862307662233666,
  811746851100681830466,
  811782879895553318976,
  811782879895553318976,
  811782879895553310786,
  811782879895553310786,
  811818891102533722176,
  811818891102533722176,
  811818891102533713986,
  811818891102533713986,
  811818891239939121216,
  811818891239939121216,
  811782862445067640896,
  811746851238087237696,
  811782880032958718016,
  811782880032958718016,
  811782862307662241856,
  811746851100681838656,
  811782879895553318976,
  811782879895553318976,
  664208909857538711616,
  369133079860114890816,
  664208909857538187456,
  369133079860114366656,
  516670986064881262656,
  369097059859188949056,
  516670986064880738496,
  369097059859188424896,
  369097042271297871936,
  369097042271297871936,
  369097042271297347776,
  369097042271297347776,
  516670985927475863616,
  369097059721783550016,
  516670985927475339456,
  369097059721783025856,
  369097042133892472896,
  369097042133892472896,
  369097042133891948736,
  369097042133891948736,
  369097042271297871936,
  369097042271297871936,
  369097042271297347776,
  369097042271297347776,
  664208909720133312576,
  369133079722709491776,
  664208909720133304386,
  369133079722709483586,
  664208909720132788416,
  369133079722708967616,
  664208909720132780226,
  369133079722708959426,
  516670986064881262656,
  369097059859188949056,
  516670986064881254466,
  369097059859188940866,
  516670986064880738496,
  369097059859188424896,
  516670986064880730306,
  369097059859188416706,
  369097042271297871936,
  369097042271297871936,
  369097042271297863746,
  369097042271297863746,
  369097042271297347776,
  369097042271297347776,
  369097042271297339586,
  369097042271297339586,
  664172889719207370816,
  369133070928763953216,
  664172889719207362626,
  369133070928763945026,
  664172889719206846656,
  369133070928763429056,
  664172889719206838466,
  369133070928763420866,
  664172889719207370816,
  369133070928763953216,
  664172889719207362626,
  369133070928763945026,
  664172889719206846656,
  369133070928763429056,
  664172889719206838466,
  369133070928763420866,
  664208909857538711616,
  369133079860114890816,
  664208909857538187456,
  369133079860114366656,
  664172889856612769856,
  369133071066169352256,
  664172889856612245696,
  369133071066168828096,
  664172889719207370816,
  369133070928763953216,
  664172889719206846656,
  369133070928763429056,
  516598946063029379136,
  369061031064317468736,
  369061031064317468736,
  516598946063029379136,
  369061030926912069696,
  516598945925623980096,
  369061031064317468736,
  516598946063029379136,
  516598945925623971906,
  369061030926912061506,
  369061031064317468736,
  516598946063029379136,
  369061031064317460546,
  516598946063029370946,
  516598945925623980096,
  369061030926912069696,
  516598945925623971906,
  369061030926912061506,
  369061031064317468736,
  516598946063029379136,
  516598945925623971906,
  369061030926912061506]

/-- Check residQf1_aaaa.  -/
theorem residQf1_aaaa : isZeroSpin kinds [aᵥ, bᵥ, iₒ, jₒ] 4 [false, false, false, false]
    (residQf1)
    (Prog.scale (-1) (residQf1_aaaa))
    (residQf1_aaaa_cert_0 ++ (residQf1_aaaa_cert_1 ++ (residQf1_aaaa_cert_2 ++ (residQf1_aaaa_cert_3)))) = true := by decide +kernel

def residQf1_abab_cert_0 : List Nat := [11530926443501199424,
  11530926443501199424,
  11530935237446737984,
  11530935237446737984,
  11530926168690401344,
  11530363493581332544,
  11530934962635939904,
  11530372287526871104,
  9226209196755394624,
  9226209196755394624,
  11531489256015659074,
  11531489256015659074,
  6920366324980645954,
  9225083571726450754,
  6920375118926184514,
  9225092365671989314,
  6920366050169847874,
  9224520621806583874,
  6920374844115386434,
  9224529415752122434,
  11530935237446737984,
  11530935237446737984,
  11530934962635939904,
  11530372287526871104,
  11531489256015659074,
  11531489256015659074,
  6920375118926184514,
  9225092365671989314,
  6920374844115386434,
  9224529415752122434,
  11530926443501191234,
  11530926443501191234,
  11530926168690393154,
  11530363493581324354,
  11531489256015659074,
  11531489256015659074,
  9225083159510261824,
  4614523315800514624,
  9225083159510261824,
  4614523315800514624,
  9225091953455800384,
  4614532109746053184,
  9225083159510261824,
  4614523315800514624,
  9225091953455800384,
  4614532109746053184,
  6919803100249989184,
  4613960503286046784,
  9225083159510253634,
  4614523315800506434,
  9225083159510253634,
  4614523315800506434,
  9225091953455792194,
  4614532109746044994,
  4613960228475240514,
  4613960228475240514,
  4613969022420779074,
  4613969022420779074,
  4613960228475240514,
  4613960228475240514,
  6919803100249989184,
  4613960503286046784,
  6919811894195527744,
  4613969297231585344,
  9225083159510261824,
  4614523315800514624,
  9225083159510261824,
  4614523315800514624,
  9225091953455800384,
  4614532109746053184,
  9225083159510253634,
  4614523315800506434,
  9225091953455792194,
  4614532109746044994,
  4613960228475240514,
  4613960228475240514,
  9224520346995785794,
  4614523178395107394,
  9224529140941324354,
  4614531972340645954,
  9225083159510261824,
  4614523315800514624,
  9225091953455800384,
  4614532109746053184,
  6919811894195527744,
  4613969297231585344,
  9225083159510253634,
  4614523315800506434,
  6919811894195519554,
  4613969297231577154,
  4613969022420779074,
  4613969022420779074,
  9224520346995785794,
  4614523178395107394,
  9224520346995785794,
  4614523178395107394,
  6919811894195527744,
  4613969297231585344,
  9225083159510261824,
  4614523315800514624,
  9225083159510261824,
  4614523315800514624,
  6919811894195527744,
  4613969297231585344,
  9225083159510261824,
  4614523315800514624,
  6919811894195519554,
  4613969297231577154,
  9224529140941324354,
  4614531972340645954,
  9224520346995785794,
  4614523178395107394,
  4613397415960780864,
  4613397415960780864,
  4613406209906319424,
  4613406209906319424,
  4613397553366179904,
  6918677475221053504,
  6918677475221053504,
  4613397553366179904,
  6918677612626452544,
  6918677612626452544,
  6918686406571991104,
  6918686406571991104,
  4613406209906319424,
  4613406209906319424,
  6918677475221053504,
  4613397553366179904,
  6918686406571991104,
  6918686406571991104,
  6918677475221053504,
  4613397553366179904,
  6918677475221053504,
  4613397553366179904,
  4613406347311194304,
  6918686269166067904,
  4613406347311194304,
  6918686269166067904,
  4613397415960256704,
  4613397415960256704,
  4613406347311194304,
  6918686269166067904,
  6918677612625928384,
  6918677612625928384,
  127811914335789120,
  91238032246317120,
  127811914335789120,
  91238032246317120,
  127811914335789120,
  91238032246317120,
  127811914335789120,
  91238032246317120,
  127811914335789120,
  91238032246317120,
  127811914335780930,
  91238032246308930,
  127811914335780930,
  91238032246308930,
  91229100895371330,
  91229100895371330,
  91229100895371330,
  91229100895371330,
  127811914335780930,
  91238032246308930,
  127811914335789120,
  91238032246317120,
  91229100895379520,
  91229100895379520,
  127811914335789120,
  91238032246317120,
  127811914335789120,
  91238032246317120,
  127811914335789120,
  91238032246317120,
  127811914335789120,
  91238032246317120,
  127811914335789120,
  91238032246317120,
  127811914335789120,
  91238032246317120,
  127811914335780930,
  91238032246308930,
  91229100895371330,
  91229100895371330,
  127811914335780930,
  91238032246308930,
  127811914335780930,
  91238032246308930,
  127811914335780930,
  91238032246308930,
  127811914335780930,
  91238032246308930,
  127811914335264960,
  91238032245792960,
  91229100894855360,
  91229100894855360,
  127811914335264960,
  91238032245792960,
  127811914335264960,
  91238032245792960,
  127811914335264960,
  91238032245792960,
  127811914335264960,
  91238032245792960,
  127811914335256770,
  91238032245784770,
  91229100894847170,
  91229100894847170,
  127811914335789120,
  91238032246317120,
  127811914335789120,
  91238032246317120,
  127811914335789120,
  91238032246317120,
  127811914335789120,
  91238032246317120,
  127811914335789120,
  91238032246317120,
  127811914335264960,
  91238032245792960,
  127811914335264960,
  91238032245792960,
  91229100894855360,
  91229100894855360,
  91229100894855360,
  91229100894855360,
  127811914335264960,
  91238032245792960,
  127249239226720320,
  91800707355385920,
  127249239226720320,
  91800707355385920,
  127249101821321280,
  91237894840918080,
  127249239226720320,
  91800707355385920,
  127249101821321280,
  91237894840918080,
  127249239226720320,
  91800707355385920,
  127249239226712130,
  91800707355377730,
  127249239226712130,
  91800707355377730,
  127249101821313090,
  91237894840909890,
  127249239226712130,
  91800707355377730,
  127249101821313090,
  91237894840909890,
  127249239226712130,
  91800707355377730,
  91229100895379520,
  91229100895379520,
  91229100895379520,
  91229100895379520,
  127249101821321280,
  91237894840918080,
  127249239226720320,
  91800707355385920,
  127249239226720320,
  91800707355385920,
  127249101821313090,
  91237894840909890,
  127249101821313090,
  91237894840909890,
  127249239226712130,
  91800707355377730,
  127249101821313090,
  91237894840909890,
  127249239226712130,
  91800707355377730,
  127249239226720320,
  91800707355385920,
  127249239226720320,
  91800707355385920,
  127249101821321280,
  91237894840918080,
  127249239226712130,
  91800707355377730,
  127249239226712130,
  91800707355377730,
  127249101821313090,
  91237894840909890,
  127249239226712130,
  91800707355377730,
  127249101821313090,
  91237894840909890,
  91229238300254400,
  91791913409323200,
  91229100894855360,
  91229100894855360,
  127249239226196160,
  91800707354861760,
  127249101820797120,
  91237894840393920,
  127249239226196160,
  91800707354861760,
  127249239226187970,
  91800707354853570,
  127249101820788930,
  91237894840385730,
  127249239226187970,
  91800707354853570,
  91229100895379520,
  91229100895379520,
  127249101821321280,
  91237894840918080,
  127249101821321280,
  91237894840918080,
  127249239226720320,
  91800707355385920,
  127249101821321280,
  91237894840918080,
  127249101821313090,
  91237894840909890,
  127249239226712130,
  91800707355377730,
  127249101821313090,
  91237894840909890,
  91229238300254400,
  91791913409323200,
  91229100894855360,
  91229100894855360,
  127249239226196160,
  91800707354861760,
  127249239226187970,
  91800707354853570,
  127249101820788930,
  91237894840385730,
  127249239226187970,
  91800707354853570,
  127249239226187970,
  91800707354853570,
  127249239226187970,
  91800707354853570,
  91800707355385920,
  127249239226720320,
  91791913409847360,
  91229238300778560,
  91800707355385920,
  127249239226720320,
  91791913409839170,
  91229238300770370,
  91800707355377730,
  127249239226712130,
  91791913409839170,
  91229238300770370,
  91791913409839170,
  91229238300770370,
  91791913409839170,
  91229238300770370,
  91237894840393920,
  127249101820797120,
  91800707354861760,
  127249239226196160,
  91800707354861760,
  127249239226196160,
  91791913409323200,
  91229238300254400,
  91800707354861760,
  127249239226196160,
  91229100894847170,
  91229100894847170,
  91229100894847170,
  91229100894847170,
  91791913409315010,
  91229238300246210,
  91800707355385920,
  127249239226720320,
  91800707355385920,
  127249239226720320,
  91791913409847360,
  91229238300778560,
  91791913409847360,
  91229238300778560,
  91791913409847360,
  91229238300778560,
  91237894840393920,
  127249101820797120,
  91229100894855360,
  91229100894855360,
  91800707354861760,
  127249239226196160,
  91791913409323200,
  91229238300254400,
  91791913409323200,
  91229238300254400,
  91791913409847360,
  91229238300778560,
  91791913409847360,
  91229238300778560,
  91800707355385920,
  127249239226720320,
  91791913409847360,
  91229238300778560,
  91800707355385920,
  127249239226720320,
  91791913409839170,
  91229238300770370]
def residQf1_abab_cert_1 : List Nat := [91800707355377730,
  127249239226712130,
  91791913409839170,
  91229238300770370,
  91791913409323200,
  91229238300254400,
  91791913409323200,
  91229238300254400,
  91800707354861760,
  127249239226196160,
  91229100894847170,
  91229100894847170,
  91237894840385730,
  127249101820788930,
  91791913409315010,
  91229238300246210,
  91800707354853570,
  127249239226187970,
  91791913409315010,
  91229238300246210,
  91791913409847360,
  91229238300778560,
  91791913409847360,
  91229238300778560,
  91800707355385920,
  127249239226720320,
  91791913409847360,
  91229238300778560,
  91800707355385920,
  127249239226720320,
  91791913409847360,
  91229238300778560,
  91791913409323200,
  91229238300254400,
  91791913409323200,
  91229238300254400,
  91800707354861760,
  127249239226196160,
  91791913409323200,
  91229238300254400,
  91800707354861760,
  127249239226196160,
  91791913409323200,
  91229238300254400,
  91229238300778560,
  91791913409847360,
  91238032246317120,
  127811914335789120,
  91237894840918080,
  127249101821321280,
  91229238300770370,
  91791913409839170,
  91238032246308930,
  127811914335780930,
  91237894840909890,
  127249101821313090,
  91229238300770370,
  91791913409839170,
  91229100895371330,
  91229100895371330,
  91229238300770370,
  91791913409839170,
  91229238300254400,
  91791913409323200,
  91238032245792960,
  127811914335264960,
  91237894840393920,
  127249101820797120,
  91229238300254400,
  91791913409323200,
  91229100894855360,
  91229100894855360,
  91238032245792960,
  127811914335264960,
  91229238300246210,
  91791913409315010,
  91229100894847170,
  91229100894847170,
  91238032245784770,
  127811914335256770,
  91229100895379520,
  91229100895379520,
  91238032246317120,
  127811914335789120,
  91229100895379520,
  91229100895379520,
  91229100895379520,
  91229100895379520,
  91237894840909890,
  127249101821313090,
  91229100895371330,
  91229100895371330,
  91238032246308930,
  127811914335780930,
  91229100895371330,
  91229100895371330,
  91229100895371330,
  91229100895371330,
  91229100894855360,
  91229100894855360,
  91238032245792960,
  127811914335264960,
  91229100894855360,
  91229100894855360,
  91229100894855360,
  91229100894855360,
  91229238300254400,
  91791913409323200,
  91238032245784770,
  127811914335256770,
  91238032245784770,
  127811914335256770,
  91229100894847170,
  91229100894847170,
  91238032245784770,
  127811914335256770,
  91229238300778560,
  91791913409847360,
  91238032246317120,
  127811914335789120,
  91229100895379520,
  91229100895379520,
  91237894840918080,
  127249101821321280,
  91229238300770370,
  91791913409839170,
  91238032246308930,
  127811914335780930,
  91229100895371330,
  91229100895371330,
  91237894840909890,
  127249101821313090,
  91229238300770370,
  91791913409839170,
  91229238300254400,
  91791913409323200,
  91229238300254400,
  91791913409323200,
  91238032245792960,
  127811914335264960,
  91229100894855360,
  91229100894855360,
  91237894840393920,
  127249101820797120,
  91229238300246210,
  91791913409315010,
  91238032245784770,
  127811914335256770,
  91229100894847170,
  91229100894847170,
  91237894840385730,
  127249101820788930,
  91229238300778560,
  91791913409847360,
  91238032246317120,
  127811914335789120,
  91229100895379520,
  91229100895379520,
  91229238300770370,
  91791913409839170,
  91229100895371330,
  91229100895371330,
  91237894840909890,
  127249101821313090,
  91229238300770370,
  91791913409839170,
  91238032246308930,
  127811914335780930,
  91229238300770370,
  91791913409839170,
  91229238300254400,
  91791913409323200,
  91229100894855360,
  91229100894855360,
  91237894840393920,
  127249101820797120,
  91229238300254400,
  91791913409323200,
  91238032245792960,
  127811914335264960,
  91229100894855360,
  91229100894855360,
  91229238300246210,
  91791913409315010,
  91229100894847170,
  91229100894847170,
  91237894840385730,
  127249101820788930,
  811818891239939121216,
  811818891239939121216,
  516707014859752742976,
  664172907444503846976,
  516707014722347343936,
  664172907307098447936,
  516707032447643820096,
  664208936239375327296,
  516707032310238421056,
  664208936101969928256,
  516707014722347343936,
  664172907307098447936,
  516707032310238421056,
  664208936101969928256,
  811818891102533713986,
  811818891102533713986,
  811782862307662233666,
  811746851100681830466,
  516707014859752734786,
  664172907444503838786,
  811782879895553310786,
  811782879895553310786,
  516707032447643811906,
  664208936239375319106,
  811818891102533713986,
  811818891102533713986,
  516707014859752742976,
  664172907444503846976,
  516707014722347343936,
  664172907307098447936,
  516707032447643820096,
  664208936239375327296,
  516707032310238421056,
  664208936101969928256,
  811818891239939121216,
  811818891239939121216,
  664208909857538711616,
  369133079860114890816,
  664208909857538711616,
  369133079860114890816,
  664208909720133312576,
  369133079722709491776,
  369097042271297871936,
  369097042271297871936,
  369097042133892472896,
  369097042133892472896,
  369097042271297871936,
  369097042271297871936,
  664208909857538187456,
  369133079860114366656,
  664208909857538187456,
  369133079860114366656,
  664208909720132788416,
  369133079722708967616,
  664208909857538187456,
  369133079860114366656,
  664208909720132788416,
  369133079722708967616,
  516670986064880738496,
  369097059859188424896,
  664208909720133312576,
  369133079722709491776,
  369097042133892472896,
  369097042133892472896,
  369097042271297871936,
  369097042271297871936,
  664208909720133304386,
  369133079722709483586,
  664208909857538703426,
  369133079860114882626,
  664172889719207362626,
  369133070928763945026,
  664172889719207362626,
  369133070928763945026,
  369097042271297863746,
  369097042271297863746,
  664208909720132788416,
  369133079722708967616,
  516670986064880738496,
  369097059859188424896,
  516670986064880738496,
  369097059859188424896,
  664208909720132788416,
  369133079722708967616,
  516670986064880738496,
  369097059859188424896,
  664208909720132780226,
  369133079722708959426,
  664208909857538179266,
  369133079860114358466,
  664208909857538179266,
  369133079860114358466,
  664208909857538711616,
  369133079860114890816,
  664208909720133312576,
  369133079722709491776,
  664172889856612769856,
  369133071066169352256,
  369097042271297871936,
  369097042271297871936,
  369097042133892472896,
  369097042133892472896,
  664208909857538187456,
  369133079860114366656,
  664208909720132788416,
  369133079722708967616,
  516670986064880738496,
  369097059859188424896,
  664208909857538187456,
  369133079860114366656,
  664208909720132788416,
  369133079722708967616,
  516598946063029379136,
  369061031064317468736,
  516598954856974917696,
  516598954856974917696,
  516598954719569518656,
  516598954719569518656,
  369061022270371930176,
  369061022270371930176,
  369061022132966531136,
  369061022132966531136,
  369061031064317468736,
  516598946063029379136,
  516598954719569518656,
  516598954719569518656,
  369061031064317468736,
  516598946063029379136,
  369061031064317468736,
  516598946063029379136,
  369061022132966531136,
  369061022132966531136,
  369061031064317468736,
  516598946063029379136,
  516598945925623971906,
  369061030926912061506,
  516598954856974909506,
  516598954856974909506,
  516598945925623971906,
  369061030926912061506,
  516598945925623971906,
  369061030926912061506,
  369061022270371921986,
  369061022270371921986,
  11530926443501199424,
  11530926443501199424,
  11530935237446737984,
  11530935237446737984,
  11530926168690401344,
  11530363493581332544,
  11530934962635939904,
  11530372287526871104,
  9226209196755394624,
  9226209196755394624,
  11531489256015667264,
  11531489256015667264,
  6920366324980654144,
  9225083571726458944,
  6920375118926192704,
  9225092365671997504,
  6920366050169856064,
  9224520621806592064,
  6920374844115394624,
  9224529415752130624,
  11530935237446737984,
  11530935237446737984,
  11530934962635939904,
  11530372287526871104,
  11531489256015667264,
  11531489256015667264,
  11530926443501199424,
  11530926443501199424,
  6920375118926192704,
  9225092365671997504,
  11530926168690401344,
  11530363493581332544,
  6920374844115394624,
  9224529415752130624,
  11531489256015667264,
  11531489256015667264,
  9225083159510261824,
  4614523315800514624,
  9225083159510261824,
  4614523315800514624,
  9225091953455800384,
  4614532109746053184,
  9225083159510261824,
  4614523315800514624,
  9225091953455800384,
  4614532109746053184,
  6919803100249989184,
  4613960503286046784,
  9225083159510261824,
  4614523315800514624,
  4613960228475248704,
  4613960228475248704,
  4613969022420787264,
  4613969022420787264,
  9225083159510261824,
  4614523315800514624,
  9225091953455800384,
  4614532109746053184,
  4613960228475248704,
  4613960228475248704,
  9225083159510261824,
  4614523315800514624,
  9225083159510261824,
  4614523315800514624,
  9225091953455800384,
  4614532109746053184,
  6919803100249989184,
  4613960503286046784]
def residQf1_abab_cert_2 : List Nat := [6919811894195527744,
  4613969297231585344,
  9224520346995793984,
  4614523178395115584,
  9224529140941332544,
  4614531972340654144,
  9225083159510261824,
  4614523315800514624,
  9225091953455800384,
  4614532109746053184,
  4613960228475248704,
  4613960228475248704,
  9225083159510261824,
  4614523315800514624,
  6919811894195527744,
  4613969297231585344,
  9225091953455800384,
  4614532109746053184,
  9225083159510261824,
  4614523315800514624,
  9224520346995793984,
  4614523178395115584,
  4613969022420787264,
  4613969022420787264,
  6919811894195527744,
  4613969297231585344,
  9224520346995793984,
  4614523178395115584,
  9225083159510261824,
  4614523315800514624,
  6919811894195527744,
  4613969297231585344,
  9225083159510261824,
  4614523315800514624,
  6919811894195527744,
  4613969297231585344,
  9225083159510261824,
  4614523315800514624,
  9224529140941332544,
  4614531972340654144,
  6919811894195527744,
  4613969297231585344,
  9224520346995793984,
  4614523178395115584,
  6918677475221053504,
  4613397553366179904,
  6918677612626452544,
  6918677612626452544,
  6918686406571991104,
  6918686406571991104,
  4613397415960780864,
  4613397415960780864,
  4613406209906319424,
  4613406209906319424,
  4613397553366179904,
  6918677475221053504,
  6918677475221053504,
  4613397553366179904,
  6918686406571991104,
  6918686406571991104,
  6918677475221053504,
  4613397553366179904,
  4613406209906319424,
  4613406209906319424,
  6918677475221053504,
  4613397553366179904,
  4613406347311718464,
  6918686269166592064,
  6918677612626452544,
  6918677612626452544,
  4613406347311718464,
  6918686269166592064,
  4613397415960780864,
  4613397415960780864,
  4613406347311718464,
  6918686269166592064,
  127811914335789120,
  91238032246317120,
  127811914335789120,
  91238032246317120,
  127811914335789120,
  91238032246317120,
  127811914335789120,
  91238032246317120,
  127811914335789120,
  91238032246317120,
  127811914335789120,
  91238032246317120,
  91229100895379520,
  91229100895379520,
  127811914335789120,
  91238032246317120,
  127811914335789120,
  91238032246317120,
  91229100895379520,
  91229100895379520,
  127811914335789120,
  91238032246317120,
  127811914335789120,
  91238032246317120,
  127811914335789120,
  91238032246317120,
  127811914335789120,
  91238032246317120,
  127811914335789120,
  91238032246317120,
  91229100895379520,
  91229100895379520,
  127811914335789120,
  91238032246317120,
  127811914335789120,
  91238032246317120,
  127811914335789120,
  91238032246317120,
  127811914335789120,
  91238032246317120,
  91229100895379520,
  91229100895379520,
  127811914335789120,
  91238032246317120,
  127811914335789120,
  91238032246317120,
  127811914335789120,
  91238032246317120,
  127811914335789120,
  91238032246317120,
  127811914335789120,
  91238032246317120,
  91229100895379520,
  91229100895379520,
  127811914335789120,
  91238032246317120,
  127811914335789120,
  91238032246317120,
  127811914335789120,
  91238032246317120,
  127811914335789120,
  91238032246317120,
  91229100895379520,
  91229100895379520,
  127811914335789120,
  91238032246317120,
  127811914335789120,
  91238032246317120,
  127811914335789120,
  91238032246317120,
  127811914335789120,
  91238032246317120,
  127811914335789120,
  91238032246317120,
  127811914335789120,
  91238032246317120,
  127811914335789120,
  91238032246317120,
  91229100895379520,
  91229100895379520,
  127811914335789120,
  91238032246317120,
  91229100895379520,
  91229100895379520,
  127249239226720320,
  91800707355385920,
  127249239226720320,
  91800707355385920,
  127249239226720320,
  91800707355385920,
  127249101821321280,
  91237894840918080,
  127249101821321280,
  91237894840918080,
  127249239226720320,
  91800707355385920,
  127249239226720320,
  91800707355385920,
  127249239226720320,
  91800707355385920,
  127249239226720320,
  91800707355385920,
  127249101821321280,
  91237894840918080,
  127249101821321280,
  91237894840918080,
  127249239226720320,
  91800707355385920,
  127249101821321280,
  91237894840918080,
  127249239226720320,
  91800707355385920,
  127249239226720320,
  91800707355385920,
  91229100895379520,
  91229100895379520,
  91229100895379520,
  91229100895379520,
  127249101821321280,
  91237894840918080,
  127249239226720320,
  91800707355385920,
  127249101821321280,
  91237894840918080,
  127249101821321280,
  91237894840918080,
  127249239226720320,
  91800707355385920,
  127249239226720320,
  91800707355385920,
  127249239226720320,
  91800707355385920,
  127249101821321280,
  91237894840918080,
  127249239226720320,
  91800707355385920,
  91229238300778560,
  91791913409847360,
  127249101821321280,
  91237894840918080,
  91229100895379520,
  91229100895379520,
  127249239226720320,
  91800707355385920,
  127249239226720320,
  91800707355385920,
  127249239226720320,
  91800707355385920,
  127249239226720320,
  91800707355385920,
  127249101821321280,
  91237894840918080,
  127249101821321280,
  91237894840918080,
  127249239226720320,
  91800707355385920,
  127249101821321280,
  91237894840918080,
  127249239226720320,
  91800707355385920,
  127249101821321280,
  91237894840918080,
  127249239226720320,
  91800707355385920,
  127249101821321280,
  91237894840918080,
  91229100895379520,
  91229100895379520,
  127249101821321280,
  91237894840918080,
  127249239226720320,
  91800707355385920,
  91229238300778560,
  91791913409847360,
  91229100895379520,
  91229100895379520,
  127249239226720320,
  91800707355385920,
  127249101821321280,
  91237894840918080,
  127249101821321280,
  91237894840918080,
  127249239226720320,
  91800707355385920,
  127249239226720320,
  91800707355385920,
  127249239226720320,
  91800707355385920,
  127249101821321280,
  91237894840918080,
  127249239226720320,
  91800707355385920,
  91791913409847360,
  91229238300778560,
  91800707355385920,
  127249239226720320,
  91800707355385920,
  127249239226720320,
  91800707355385920,
  127249239226720320,
  91791913409847360,
  91229238300778560,
  91237894840918080,
  127249101821321280,
  91800707355385920,
  127249239226720320,
  91800707355385920,
  127249239226720320,
  91791913409847360,
  91229238300778560,
  91791913409847360,
  91229238300778560,
  91791913409847360,
  91229238300778560,
  91800707355385920,
  127249239226720320,
  91791913409847360,
  91229238300778560,
  91229100895379520,
  91229100895379520,
  91791913409847360,
  91229238300778560,
  91229100895379520,
  91229100895379520,
  91791913409847360,
  91229238300778560,
  91800707355385920,
  127249239226720320,
  91791913409847360,
  91229238300778560,
  91800707355385920,
  127249239226720320,
  91791913409847360,
  91229238300778560,
  91800707355385920,
  127249239226720320,
  91791913409847360,
  91229238300778560,
  91237894840918080,
  127249101821321280,
  91791913409847360,
  91229238300778560,
  91229100895379520,
  91229100895379520,
  91791913409847360,
  91229238300778560,
  91791913409847360,
  91229238300778560,
  91800707355385920,
  127249239226720320,
  91791913409847360,
  91229238300778560,
  91800707355385920,
  127249239226720320,
  91791913409847360,
  91229238300778560,
  91791913409847360,
  91229238300778560,
  91800707355385920,
  127249239226720320,
  91791913409847360,
  91229238300778560,
  91800707355385920,
  127249239226720320,
  91791913409847360,
  91229238300778560,
  91229100895379520,
  91229100895379520,
  91237894840918080,
  127249101821321280,
  91791913409847360,
  91229238300778560,
  91800707355385920,
  127249239226720320,
  91791913409847360,
  91229238300778560,
  91791913409847360,
  91229238300778560,
  91791913409847360,
  91229238300778560,
  91800707355385920,
  127249239226720320,
  91791913409847360,
  91229238300778560,
  91800707355385920,
  127249239226720320,
  91791913409847360,
  91229238300778560,
  91791913409847360,
  91229238300778560,
  91791913409847360,
  91229238300778560,
  91800707355385920,
  127249239226720320,
  91791913409847360,
  91229238300778560,
  91800707355385920,
  127249239226720320,
  91791913409847360,
  91229238300778560,
  91229238300778560,
  91791913409847360,
  91238032246317120,
  127811914335789120,
  91237894840918080,
  127249101821321280,
  91229238300778560,
  91791913409847360,
  91229238300778560,
  91791913409847360,
  91238032246317120,
  127811914335789120,
  91229100895379520,
  91229100895379520,
  91237894840918080,
  127249101821321280,
  91238032246317120,
  127811914335789120,
  91229238300778560,
  91791913409847360,
  91229238300778560,
  91791913409847360,
  91238032246317120,
  127811914335789120]
def residQf1_abab_cert_3 : List Nat := [91229100895379520,
  91229100895379520,
  91237894840918080,
  127249101821321280,
  91229238300778560,
  91791913409847360,
  91229238300778560,
  91791913409847360,
  91229100895379520,
  91229100895379520,
  91238032246317120,
  127811914335789120,
  91229100895379520,
  91229100895379520,
  91238032246317120,
  127811914335789120,
  91229100895379520,
  91229100895379520,
  91229100895379520,
  91229100895379520,
  91229100895379520,
  91229100895379520,
  91229238300778560,
  91791913409847360,
  91238032246317120,
  127811914335789120,
  91229100895379520,
  91229100895379520,
  91229100895379520,
  91229100895379520,
  91229100895379520,
  91229100895379520,
  91238032246317120,
  127811914335789120,
  91229100895379520,
  91229100895379520,
  91237894840918080,
  127249101821321280,
  91229100895379520,
  91229100895379520,
  91238032246317120,
  127811914335789120,
  91238032246317120,
  127811914335789120,
  91229100895379520,
  91229100895379520,
  91238032246317120,
  127811914335789120,
  91229238300778560,
  91791913409847360,
  91238032246317120,
  127811914335789120,
  91229100895379520,
  91229100895379520,
  91237894840918080,
  127249101821321280,
  91229238300778560,
  91791913409847360,
  91229238300778560,
  91791913409847360,
  91238032246317120,
  127811914335789120,
  91229100895379520,
  91229100895379520,
  91237894840918080,
  127249101821321280,
  91229238300778560,
  91791913409847360,
  91238032246317120,
  127811914335789120,
  91229100895379520,
  91229100895379520,
  91237894840918080,
  127249101821321280,
  91229238300778560,
  91791913409847360,
  91229238300778560,
  91791913409847360,
  91238032246317120,
  127811914335789120,
  91229100895379520,
  91229100895379520,
  91237894840918080,
  127249101821321280,
  91229238300778560,
  91791913409847360,
  91238032246317120,
  127811914335789120,
  91229100895379520,
  91229100895379520,
  91229238300778560,
  91791913409847360,
  91229238300778560,
  91791913409847360,
  91238032246317120,
  127811914335789120,
  91229100895379520,
  91229100895379520,
  91237894840918080,
  127249101821321280,
  91229100895379520,
  91229100895379520,
  91229238300778560,
  91791913409847360,
  91229238300778560,
  91791913409847360,
  91238032246317120,
  127811914335789120,
  91229100895379520,
  91229100895379520,
  91237894840918080,
  127249101821321280,
  91229238300778560,
  91791913409847360,
  91229238300778560,
  91791913409847360,
  91229100895379520,
  91229100895379520,
  91237894840918080,
  127249101821321280,
  811818891239939121216,
  811818891239939121216,
  516707014859752742976,
  664172907444503846976,
  516707032447643820096,
  664208936239375327296,
  516707014722347343936,
  664172907307098447936,
  516707032310238421056,
  664208936101969928256,
  516707014722347343936,
  664172907307098447936,
  516707032310238421056,
  664208936101969928256,
  811818891102533722176,
  811818891102533722176,
  516707014859752742976,
  664172907444503846976,
  516707032447643820096,
  664208936239375327296,
  811782862307662241856,
  811746851100681838656,
  811782879895553318976,
  811782879895553318976,
  811818891102533722176,
  811818891102533722176,
  516707014859752742976,
  664172907444503846976,
  516707032447643820096,
  664208936239375327296,
  516707014722347343936,
  664172907307098447936,
  516707032310238421056,
  664208936101969928256,
  811818891239939121216,
  811818891239939121216,
  664208909857538711616,
  369133079860114890816,
  664208909857538711616,
  369133079860114890816,
  369097042271297871936,
  369097042271297871936,
  664208909720133312576,
  369133079722709491776,
  369097042133892472896,
  369097042133892472896,
  369097042271297871936,
  369097042271297871936,
  664208909857538711616,
  369133079860114890816,
  664208909857538711616,
  369133079860114890816,
  664208909857538711616,
  369133079860114890816,
  664208909720133312576,
  369133079722709491776,
  664208909720133312576,
  369133079722709491776,
  516670986064881262656,
  369097059859188949056,
  664208909720133312576,
  369133079722709491776,
  369097042133892472896,
  369097042133892472896,
  369097042271297871936,
  369097042271297871936,
  516670986064881262656,
  369097059859188949056,
  516670986064881262656,
  369097059859188949056,
  664208909720133312576,
  369133079722709491776,
  664208909720133312576,
  369133079722709491776,
  516670986064881262656,
  369097059859188949056,
  664208909720133312576,
  369133079722709491776,
  664208909857538711616,
  369133079860114890816,
  369097042271297871936,
  369097042271297871936,
  664172889719207370816,
  369133070928763953216,
  664172889719207370816,
  369133070928763953216,
  664208909720133312576,
  369133079722709491776,
  664208909857538711616,
  369133079860114890816,
  664208909857538711616,
  369133079860114890816,
  664208909857538711616,
  369133079860114890816,
  369097042271297871936,
  369097042271297871936,
  664208909720133312576,
  369133079722709491776,
  369097042133892472896,
  369097042133892472896,
  664172889856612769856,
  369133071066169352256,
  516670986064881262656,
  369097059859188949056,
  664208909857538711616,
  369133079860114890816,
  664208909857538711616,
  369133079860114890816,
  664208909720133312576,
  369133079722709491776,
  664208909720133312576,
  369133079722709491776,
  516598946063029379136,
  369061031064317468736,
  369061022270371930176,
  369061022270371930176,
  516598954856974917696,
  516598954856974917696,
  369061022132966531136,
  369061022132966531136,
  516598954719569518656,
  516598954719569518656,
  369061031064317468736,
  516598946063029379136,
  369061031064317468736,
  516598946063029379136,
  369061031064317468736,
  516598946063029379136,
  369061022132966531136,
  369061022132966531136,
  516598954719569518656,
  516598954719569518656,
  369061031064317468736,
  516598946063029379136,
  516598945925623980096,
  369061030926912069696,
  369061022270371930176,
  369061022270371930176,
  516598954856974917696,
  516598954856974917696,
  516598945925623980096,
  369061030926912069696,
  516598945925623980096,
  369061030926912069696]

/-- Check residQf1_abab.  -/
theorem residQf1_abab : isZeroSpin kinds [aᵥ, bᵥ, iₒ, jₒ] 4 [false, true, false, true]
    (residQf1)
    (Prog.scale (-1) (residQf1_abab))
    (residQf1_abab_cert_0 ++ (residQf1_abab_cert_1 ++ (residQf1_abab_cert_2 ++ (residQf1_abab_cert_3)))) = true := by decide +kernel

def residQf1_bbbb_cert_0 : List Nat := [11530926443501199424,
  11530926443501199424,
  11530935237446737984,
  11530935237446737984,
  11530926168690401344,
  11530363493581332544,
  11530934962635939904,
  11530372287526871104,
  11531489256015667264,
  11531489256015667264,
  11530926443501191234,
  11530926443501191234,
  11530935237446729794,
  11530935237446729794,
  11530926168690393154,
  11530363493581324354,
  11530934962635931714,
  11530372287526862914,
  11531489256015659074,
  11531489256015659074,
  11531489256015667264,
  11531489256015667264,
  6920375118926192704,
  9225092365671997504,
  6920374844115394624,
  9224529415752130624,
  11530926443501199424,
  11530926443501199424,
  11530926168690401344,
  11530363493581332544,
  11531489256015667264,
  11531489256015667264,
  11531489256015659074,
  11531489256015659074,
  6920375118926184514,
  9225092365671989314,
  6920374844115386434,
  9224529415752122434,
  11530926443501191234,
  11530926443501191234,
  11530926168690393154,
  11530363493581324354,
  11531489256015659074,
  11531489256015659074,
  9225083159510261824,
  4614523315800514624,
  9225083159510261824,
  4614523315800514624,
  9225091953455800384,
  4614532109746053184,
  9225083159510261824,
  4614523315800514624,
  9225091953455800384,
  4614532109746053184,
  9225083159510261824,
  4614523315800514624,
  9225083159510253634,
  4614523315800506434,
  9225083159510253634,
  4614523315800506434,
  9225091953455792194,
  4614532109746044994,
  9225083159510253634,
  4614523315800506434,
  9225091953455792194,
  4614532109746044994,
  9225083159510253634,
  4614523315800506434,
  9225083159510261824,
  4614523315800514624,
  9225091953455800384,
  4614532109746053184,
  9225083159510261824,
  4614523315800514624,
  9225083159510253634,
  4614523315800506434,
  9225091953455792194,
  4614532109746044994,
  9225083159510253634,
  4614523315800506434,
  6919803100249989184,
  4613960503286046784,
  6919811894195527744,
  4613969297231585344,
  9225083159510261824,
  4614523315800514624,
  9225083159510261824,
  4614523315800514624,
  9225083159510261824,
  4614523315800514624,
  6919803100249980994,
  4613960503286038594,
  6919811894195519554,
  4613969297231577154,
  9225083159510253634,
  4614523315800506434,
  9225083159510253634,
  4614523315800506434,
  9225083159510253634,
  4614523315800506434,
  6919811894195527744,
  4613969297231585344,
  9225083159510261824,
  4614523315800514624,
  9225083159510261824,
  4614523315800514624,
  6919811894195527744,
  4613969297231585344,
  9225083159510261824,
  4614523315800514624,
  6919811894195519554,
  4613969297231577154,
  9225083159510253634,
  4614523315800506434,
  9225083159510253634,
  4614523315800506434,
  6919811894195519554,
  4613969297231577154,
  9225083159510253634,
  4614523315800506434,
  6918677475221053504,
  4613397553366179904,
  6918686269166592064,
  4613406347311718464,
  6918677475221053504,
  4613397553366179904,
  6918677475221053504,
  4613397553366179904,
  4613406347311718464,
  6918686269166592064,
  6918677475221053504,
  4613397553366179904,
  6918677475221053504,
  4613397553366179904,
  4613406347311194304,
  6918686269166067904,
  4613406347311194304,
  6918686269166067904,
  6918677475220529344,
  4613397553365655744,
  4613406347311194304,
  6918686269166067904,
  127811914335789120,
  91238032246317120,
  127811914335789120,
  91238032246317120,
  127811914335789120,
  91238032246317120,
  127811914335789120,
  91238032246317120,
  127811914335789120,
  91238032246317120,
  127811914335780930,
  91238032246308930,
  127811914335780930,
  91238032246308930,
  127811914335780930,
  91238032246308930,
  127811914335780930,
  91238032246308930,
  127811914335780930,
  91238032246308930,
  127811914335789120,
  91238032246317120,
  127811914335789120,
  91238032246317120,
  127811914335789120,
  91238032246317120,
  91229100895379520,
  91229100895379520,
  127811914335789120,
  91238032246317120,
  127811914335789120,
  91238032246317120,
  127811914335789120,
  91238032246317120,
  127811914335789120,
  91238032246317120,
  127811914335780930,
  91238032246308930,
  91229100895371330,
  91229100895371330,
  127811914335780930,
  91238032246308930,
  127811914335780930,
  91238032246308930,
  127811914335780930,
  91238032246308930,
  127811914335780930,
  91238032246308930,
  127811914335264960,
  91238032245792960,
  91229100894855360,
  91229100894855360,
  127811914335264960,
  91238032245792960,
  127811914335264960,
  91238032245792960,
  127811914335264960,
  91238032245792960,
  127811914335264960,
  91238032245792960,
  127811914335256770,
  91238032245784770,
  91229100894847170,
  91229100894847170,
  127811914335256770,
  91238032245784770,
  127811914335256770,
  91238032245784770,
  127811914335256770,
  91238032245784770,
  127811914335256770,
  91238032245784770,
  127811914335789120,
  91238032246317120,
  127811914335789120,
  91238032246317120,
  127811914335789120,
  91238032246317120,
  127811914335789120,
  91238032246317120,
  127811914335789120,
  91238032246317120,
  127811914335264960,
  91238032245792960,
  127811914335264960,
  91238032245792960,
  127811914335264960,
  91238032245792960,
  127811914335264960,
  91238032245792960,
  127811914335264960,
  91238032245792960,
  127249239226720320,
  91800707355385920,
  127249239226720320,
  91800707355385920,
  127249101821321280,
  91237894840918080,
  127249239226720320,
  91800707355385920,
  127249101821321280,
  91237894840918080,
  127249239226720320,
  91800707355385920,
  127249239226712130,
  91800707355377730,
  127249239226712130,
  91800707355377730,
  127249101821313090,
  91237894840909890,
  127249239226712130,
  91800707355377730,
  127249101821313090,
  91237894840909890,
  127249239226712130,
  91800707355377730,
  127249101821321280,
  91237894840918080,
  127249101821321280,
  91237894840918080,
  127249101821321280,
  91237894840918080,
  127249101821313090,
  91237894840909890,
  127249101821313090,
  91237894840909890,
  127249101821313090,
  91237894840909890,
  91229238300778560,
  91791913409847360,
  91229100895379520,
  91229100895379520,
  127249239226720320,
  91800707355385920,
  127249101821321280,
  91237894840918080,
  127249239226720320,
  91800707355385920,
  91229238300770370,
  91791913409839170,
  91229100895371330,
  91229100895371330,
  127249239226712130,
  91800707355377730,
  127249101821313090,
  91237894840909890,
  127249239226712130,
  91800707355377730,
  91229238300254400,
  91791913409323200,
  91229100894855360,
  91229100894855360,
  127249239226196160,
  91800707354861760,
  127249101820797120,
  91237894840393920,
  127249239226196160,
  91800707354861760,
  91229238300246210,
  91791913409315010,
  91229100894847170,
  91229100894847170,
  127249239226187970,
  91800707354853570,
  127249101820788930,
  91237894840385730,
  127249239226187970,
  91800707354853570,
  91229100895379520,
  91229100895379520,
  127249101821321280,
  91237894840918080,
  127249101821321280,
  91237894840918080,
  127249239226720320,
  91800707355385920,
  127249101821321280,
  91237894840918080,
  91229100895371330,
  91229100895371330,
  127249101821313090,
  91237894840909890,
  127249101821313090,
  91237894840909890,
  127249239226712130,
  91800707355377730,
  127249101821313090,
  91237894840909890,
  91229100894855360,
  91229100894855360,
  127249239226196160,
  91800707354861760,
  127249101820797120,
  91237894840393920,
  127249239226196160,
  91800707354861760,
  127249239226196160,
  91800707354861760,
  91229100894847170,
  91229100894847170,
  127249239226187970,
  91800707354853570,
  127249101820788930,
  91237894840385730,
  127249239226187970,
  91800707354853570,
  127249239226187970,
  91800707354853570,
  91237894840918080,
  127249101821321280,
  91791913409847360,
  91229238300778560,
  91800707355385920,
  127249239226720320,
  91791913409847360,
  91229238300778560,
  91791913409847360,
  91229238300778560,
  91237894840909890,
  127249101821313090,
  91791913409839170,
  91229238300770370,
  91800707355377730,
  127249239226712130,
  91791913409839170,
  91229238300770370,
  91791913409839170,
  91229238300770370,
  91237894840393920,
  127249101820797120,
  91791913409323200,
  91229238300254400,
  91800707354861760,
  127249239226196160,
  91791913409323200,
  91229238300254400,
  91791913409323200,
  91229238300254400,
  91237894840385730,
  127249101820788930,
  91791913409315010,
  91229238300246210,
  91800707354853570,
  127249239226187970,
  91791913409315010,
  91229238300246210,
  91791913409315010,
  91229238300246210,
  91800707355385920,
  127249239226720320,
  91800707355385920,
  127249239226720320,
  91791913409847360,
  91229238300778560,
  91800707354861760,
  127249239226196160,
  91800707354861760,
  127249239226196160]
def residQf1_bbbb_cert_1 : List Nat := [91791913409323200,
  91229238300254400,
  91229100895379520,
  91229100895379520,
  91237894840918080,
  127249101821321280,
  91791913409847360,
  91229238300778560,
  91800707355385920,
  127249239226720320,
  91791913409847360,
  91229238300778560,
  91229100895371330,
  91229100895371330,
  91237894840909890,
  127249101821313090,
  91791913409839170,
  91229238300770370,
  91800707355377730,
  127249239226712130,
  91791913409839170,
  91229238300770370,
  91229100894855360,
  91229100894855360,
  91237894840393920,
  127249101820797120,
  91791913409323200,
  91229238300254400,
  91800707354861760,
  127249239226196160,
  91791913409323200,
  91229238300254400,
  91229100894847170,
  91229100894847170,
  91237894840385730,
  127249101820788930,
  91791913409315010,
  91229238300246210,
  91800707354853570,
  127249239226187970,
  91791913409315010,
  91229238300246210,
  91791913409847360,
  91229238300778560,
  91791913409847360,
  91229238300778560,
  91800707355385920,
  127249239226720320,
  91791913409847360,
  91229238300778560,
  91800707355385920,
  127249239226720320,
  91791913409847360,
  91229238300778560,
  91791913409323200,
  91229238300254400,
  91791913409323200,
  91229238300254400,
  91800707354861760,
  127249239226196160,
  91791913409323200,
  91229238300254400,
  91800707354861760,
  127249239226196160,
  91791913409323200,
  91229238300254400,
  91229238300778560,
  91791913409847360,
  91238032246317120,
  127811914335789120,
  91237894840918080,
  127249101821321280,
  91229238300778560,
  91791913409847360,
  91229100895379520,
  91229100895379520,
  91229238300778560,
  91791913409847360,
  91229238300770370,
  91791913409839170,
  91238032246308930,
  127811914335780930,
  91237894840909890,
  127249101821313090,
  91229238300770370,
  91791913409839170,
  91229100895371330,
  91229100895371330,
  91229238300770370,
  91791913409839170,
  91229238300254400,
  91791913409323200,
  91238032245792960,
  127811914335264960,
  91237894840393920,
  127249101820797120,
  91229238300254400,
  91791913409323200,
  91229100894855360,
  91229100894855360,
  91229238300254400,
  91791913409323200,
  91229238300246210,
  91791913409315010,
  91238032245784770,
  127811914335256770,
  91237894840385730,
  127249101820788930,
  91229238300246210,
  91791913409315010,
  91229100894847170,
  91229100894847170,
  91229238300246210,
  91791913409315010,
  91237894840918080,
  127249101821321280,
  91229100895379520,
  91229100895379520,
  91238032246317120,
  127811914335789120,
  91229100895379520,
  91229100895379520,
  91229100895379520,
  91229100895379520,
  91237894840909890,
  127249101821313090,
  91229100895371330,
  91229100895371330,
  91238032246308930,
  127811914335780930,
  91229100895371330,
  91229100895371330,
  91229100895371330,
  91229100895371330,
  91237894840393920,
  127249101820797120,
  91229100894855360,
  91229100894855360,
  91238032245792960,
  127811914335264960,
  91229100894855360,
  91229100894855360,
  91229100894855360,
  91229100894855360,
  91237894840385730,
  127249101820788930,
  91229100894847170,
  91229100894847170,
  91238032245784770,
  127811914335256770,
  91229100894847170,
  91229100894847170,
  91229100894847170,
  91229100894847170,
  91229238300778560,
  91791913409847360,
  91238032246317120,
  127811914335789120,
  91229100895379520,
  91229100895379520,
  91237894840918080,
  127249101821321280,
  91229238300778560,
  91791913409847360,
  91229238300770370,
  91791913409839170,
  91238032246308930,
  127811914335780930,
  91229100895371330,
  91229100895371330,
  91237894840909890,
  127249101821313090,
  91229238300770370,
  91791913409839170,
  91229238300254400,
  91791913409323200,
  91238032245792960,
  127811914335264960,
  91229100894855360,
  91229100894855360,
  91237894840393920,
  127249101820797120,
  91229238300254400,
  91791913409323200,
  91229238300246210,
  91791913409315010,
  91238032245784770,
  127811914335256770,
  91229100894847170,
  91229100894847170,
  91237894840385730,
  127249101820788930,
  91229238300246210,
  91791913409315010,
  91229238300778560,
  91791913409847360,
  91229100895379520,
  91229100895379520,
  91237894840918080,
  127249101821321280,
  91229238300778560,
  91791913409847360,
  91238032246317120,
  127811914335789120,
  91229238300778560,
  91791913409847360,
  91229238300770370,
  91791913409839170,
  91229100895371330,
  91229100895371330,
  91237894840909890,
  127249101821313090,
  91229238300770370,
  91791913409839170,
  91238032246308930,
  127811914335780930,
  91229238300770370,
  91791913409839170,
  91229238300254400,
  91791913409323200,
  91229100894855360,
  91229100894855360,
  91237894840393920,
  127249101820797120,
  91229238300254400,
  91791913409323200,
  91238032245792960,
  127811914335264960,
  91229238300254400,
  91791913409323200,
  91229238300246210,
  91791913409315010,
  91229100894847170,
  91229100894847170,
  91237894840385730,
  127249101820788930,
  91229238300246210,
  91791913409315010,
  91238032245784770,
  127811914335256770,
  91229238300246210,
  91791913409315010,
  811782862445067640896,
  811746851238087237696,
  811782862307662241856,
  811746851100681838656,
  811782880032958718016,
  811782880032958718016,
  811782879895553318976,
  811782879895553318976,
  811818891239939121216,
  811818891239939121216,
  811818891102533722176,
  811818891102533722176,
  811782862307662241856,
  811746851100681838656,
  516707014859752742976,
  664172907444503846976,
  811782879895553318976,
  811782879895553318976,
  516707032447643820096,
  664208936239375327296,
  811818891102533722176,
  811818891102533722176,
  811818891102533713986,
  811818891102533713986,
  811782862307662233666,
  811746851100681830466,
  516707014859752734786,
  664172907444503838786,
  811782879895553310786,
  811782879895553310786,
  516707032447643811906,
  664208936239375319106,
  811818891102533713986,
  811818891102533713986,
  516707014859752742976,
  664172907444503846976,
  516707014722347343936,
  664172907307098447936,
  516707032447643820096,
  664208936239375327296,
  516707032310238421056,
  664208936101969928256,
  811818891239939121216,
  811818891239939121216,
  664208909857538711616,
  369133079860114890816,
  664208909857538711616,
  369133079860114890816,
  664208909720133312576,
  369133079722709491776,
  664208909857538711616,
  369133079860114890816,
  664208909720133312576,
  369133079722709491776,
  664208909857538711616,
  369133079860114890816,
  664208909857538187456,
  369133079860114366656,
  664208909857538187456,
  369133079860114366656,
  664208909720132788416,
  369133079722708967616,
  664208909857538187456,
  369133079860114366656,
  664208909720132788416,
  369133079722708967616,
  664208909857538187456,
  369133079860114366656,
  664208909720133312576,
  369133079722709491776,
  516670985927475863616,
  369097059721783550016,
  516670986064881262656,
  369097059859188949056,
  664208909720133312576,
  369133079722709491776,
  664208909720133312576,
  369133079722709491776,
  664208909720133304386,
  369133079722709483586,
  516670985927475855426,
  369097059721783541826,
  516670986064881254466,
  369097059859188940866,
  664208909720133304386,
  369133079722709483586,
  664208909720133304386,
  369133079722709483586,
  664208909720132788416,
  369133079722708967616,
  516670985927475339456,
  369097059721783025856,
  516670986064880738496,
  369097059859188424896,
  664208909720132788416,
  369133079722708967616,
  664208909720132788416,
  369133079722708967616,
  664208909720132780226,
  369133079722708959426,
  516670985927475331266,
  369097059721783017666,
  516670986064880730306,
  369097059859188416706,
  664208909720132780226,
  369133079722708959426,
  664208909720132780226,
  369133079722708959426,
  516670986064881262656,
  369097059859188949056,
  516670985927475863616,
  369097059721783550016,
  664208909857538711616,
  369133079860114890816,
  516670986064880738496,
  369097059859188424896,
  516670985927475339456,
  369097059721783025856,
  664208909857538187456,
  369133079860114366656,
  516598946063029379136,
  369061031064317468736,
  516598945925623980096,
  369061030926912069696,
  516598946063029379136,
  369061031064317468736,
  369061031064317468736,
  516598946063029379136,
  369061031064317468736,
  516598946063029379136,
  516598945925623980096,
  369061030926912069696,
  369061031064317468736,
  516598946063029379136,
  516598945925623971906,
  369061030926912061506,
  369061031064317460546,
  516598946063029370946,
  516598945925623971906,
  369061030926912061506,
  516598945925623971906,
  369061030926912061506,
  11530926443501199424,
  11530926443501199424,
  11530926443501191234,
  11530926443501191234,
  11530935237446737984,
  11530935237446737984,
  11530935237446729794,
  11530935237446729794,
  11530926168690401344,
  11530363493581332544,
  11530926168690393154,
  11530363493581324354,
  11530934962635939904,
  11530372287526871104,
  11530934962635931714,
  11530372287526862914]
def residQf1_bbbb_cert_2 : List Nat := [11531489256015667264,
  11531489256015667264,
  11531489256015659074,
  11531489256015659074,
  11531489256015667264,
  11531489256015667264,
  11531489256015659074,
  11531489256015659074,
  11530926443501199424,
  11530926443501199424,
  11530926443501191234,
  11530926443501191234,
  6920375118926192704,
  9225092365671997504,
  6920375118926184514,
  9225092365671989314,
  11530926168690401344,
  11530363493581332544,
  11530926168690393154,
  11530363493581324354,
  6920374844115394624,
  9224529415752130624,
  6920374844115386434,
  9224529415752122434,
  11531489256015667264,
  11531489256015667264,
  11531489256015659074,
  11531489256015659074,
  9225083159510261824,
  4614523315800514624,
  9225083159510253634,
  4614523315800506434,
  9225083159510261824,
  4614523315800514624,
  9225083159510253634,
  4614523315800506434,
  9225091953455800384,
  4614532109746053184,
  9225091953455792194,
  4614532109746044994,
  9225083159510261824,
  4614523315800514624,
  9225083159510253634,
  4614523315800506434,
  9225091953455800384,
  4614532109746053184,
  9225091953455792194,
  4614532109746044994,
  9225083159510261824,
  4614523315800514624,
  9225083159510253634,
  4614523315800506434,
  9225083159510261824,
  4614523315800514624,
  9225083159510253634,
  4614523315800506434,
  9225091953455800384,
  4614532109746053184,
  9225091953455792194,
  4614532109746044994,
  9225083159510261824,
  4614523315800514624,
  9225083159510253634,
  4614523315800506434,
  6919803100249989184,
  4613960503286046784,
  6919803100249980994,
  4613960503286038594,
  9225083159510261824,
  4614523315800514624,
  9225083159510253634,
  4614523315800506434,
  9225083159510261824,
  4614523315800514624,
  9225083159510253634,
  4614523315800506434,
  6919811894195527744,
  4613969297231585344,
  6919811894195519554,
  4613969297231577154,
  9225083159510261824,
  4614523315800514624,
  9225083159510253634,
  4614523315800506434,
  9225083159510261824,
  4614523315800514624,
  9225083159510253634,
  4614523315800506434,
  6919811894195527744,
  4613969297231585344,
  6919811894195519554,
  4613969297231577154,
  9225083159510261824,
  4614523315800514624,
  9225083159510253634,
  4614523315800506434,
  6919811894195527744,
  4613969297231585344,
  6919811894195519554,
  4613969297231577154,
  9225083159510261824,
  4614523315800514624,
  9225083159510253634,
  4614523315800506434,
  6918677475221053504,
  4613397553366179904,
  6918686269166592064,
  4613406347311718464,
  6918677475221053504,
  4613397553366179904,
  6918677475221053504,
  4613397553366179904,
  4613406347311194304,
  6918686269166067904,
  4613406347311718464,
  6918686269166592064,
  4613406347311194304,
  6918686269166067904,
  6918677475221053504,
  4613397553366179904,
  6918677475220529344,
  4613397553365655744,
  6918677475221053504,
  4613397553366179904,
  4613406347311194304,
  6918686269166067904,
  127811914335789120,
  91238032246317120,
  127811914335780930,
  91238032246308930,
  127811914335789120,
  91238032246317120,
  127811914335780930,
  91238032246308930,
  127811914335789120,
  91238032246317120,
  127811914335780930,
  91238032246308930,
  127811914335789120,
  91238032246317120,
  127811914335780930,
  91238032246308930,
  127811914335789120,
  91238032246317120,
  127811914335780930,
  91238032246308930,
  127811914335789120,
  91238032246317120,
  127811914335789120,
  91238032246317120,
  127811914335789120,
  91238032246317120,
  127811914335780930,
  91238032246308930,
  127811914335264960,
  91238032245792960,
  127811914335256770,
  91238032245784770,
  127811914335789120,
  91238032246317120,
  127811914335780930,
  91238032246308930,
  127811914335264960,
  91238032245792960,
  127811914335256770,
  91238032245784770,
  91229100895379520,
  91229100895379520,
  91229100895371330,
  91229100895371330,
  91229100894855360,
  91229100894855360,
  91229100894847170,
  91229100894847170,
  127811914335789120,
  91238032246317120,
  127811914335780930,
  91238032246308930,
  127811914335264960,
  91238032245792960,
  127811914335256770,
  91238032245784770,
  127811914335789120,
  91238032246317120,
  127811914335780930,
  91238032246308930,
  127811914335264960,
  91238032245792960,
  127811914335256770,
  91238032245784770,
  127811914335789120,
  91238032246317120,
  127811914335780930,
  91238032246308930,
  127811914335264960,
  91238032245792960,
  127811914335256770,
  91238032245784770,
  127811914335789120,
  91238032246317120,
  127811914335264960,
  91238032245792960,
  127811914335789120,
  91238032246317120,
  127811914335264960,
  91238032245792960,
  127811914335789120,
  91238032246317120,
  127811914335264960,
  91238032245792960,
  127811914335789120,
  91238032246317120,
  127811914335264960,
  91238032245792960,
  127811914335789120,
  91238032246317120,
  127811914335264960,
  91238032245792960,
  127249239226720320,
  91800707355385920,
  127249239226712130,
  91800707355377730,
  127249239226720320,
  91800707355385920,
  127249239226712130,
  91800707355377730,
  127249239226720320,
  91800707355385920,
  127249239226712130,
  91800707355377730,
  127249101821321280,
  91237894840918080,
  127249101821313090,
  91237894840909890,
  127249101821321280,
  91237894840918080,
  127249101821313090,
  91237894840909890,
  127249239226720320,
  91800707355385920,
  127249239226712130,
  91800707355377730,
  127249101821321280,
  91237894840918080,
  127249101821313090,
  91237894840909890,
  127249101821321280,
  91237894840918080,
  127249101821313090,
  91237894840909890,
  127249101821321280,
  91237894840918080,
  127249101821313090,
  91237894840909890,
  127249239226720320,
  91800707355385920,
  127249239226712130,
  91800707355377730,
  127249239226196160,
  91800707354861760,
  127249239226187970,
  91800707354853570,
  91229238300778560,
  91791913409847360,
  91229238300770370,
  91791913409839170,
  91229238300254400,
  91791913409323200,
  91229238300246210,
  91791913409315010,
  127249101821321280,
  91237894840918080,
  127249101821313090,
  91237894840909890,
  127249101820797120,
  91237894840393920,
  127249101820788930,
  91237894840385730,
  91229100895379520,
  91229100895379520,
  91229100895371330,
  91229100895371330,
  91229100894855360,
  91229100894855360,
  91229100894847170,
  91229100894847170,
  127249239226720320,
  91800707355385920,
  127249239226712130,
  91800707355377730,
  127249239226196160,
  91800707354861760,
  127249239226187970,
  91800707354853570,
  127249101821321280,
  91237894840918080,
  127249101821313090,
  91237894840909890,
  127249239226196160,
  91800707354861760,
  127249239226187970,
  91800707354853570,
  127249239226720320,
  91800707355385920,
  127249239226712130,
  91800707355377730,
  127249239226196160,
  91800707354861760,
  127249239226187970,
  91800707354853570,
  127249101821321280,
  91237894840918080,
  127249101821313090,
  91237894840909890,
  127249101820797120,
  91237894840393920,
  127249101820788930,
  91237894840385730,
  91229100895379520,
  91229100895379520,
  91229100895371330,
  91229100895371330,
  91229100894855360,
  91229100894855360,
  91229100894847170,
  91229100894847170,
  127249101821321280,
  91237894840918080,
  127249101821313090,
  91237894840909890,
  127249239226196160,
  91800707354861760,
  127249239226187970,
  91800707354853570,
  91791913409847360,
  91229238300778560,
  91791913409839170,
  91229238300770370,
  91791913409323200,
  91229238300254400,
  91791913409315010,
  91229238300246210,
  91791913409847360,
  91229238300778560,
  91791913409839170,
  91229238300770370,
  91791913409323200,
  91229238300254400,
  91791913409315010,
  91229238300246210,
  91237894840918080,
  127249101821321280,
  91237894840909890,
  127249101821313090,
  91237894840393920,
  127249101820797120,
  91237894840385730,
  127249101820788930,
  91800707355385920,
  127249239226720320,
  91800707355377730,
  127249239226712130,
  91800707354861760,
  127249239226196160,
  91800707354853570,
  127249239226187970,
  91791913409847360,
  91229238300778560,
  91791913409839170,
  91229238300770370,
  91791913409323200,
  91229238300254400,
  91791913409315010,
  91229238300246210,
  91800707355385920,
  127249239226720320,
  91800707354861760,
  127249239226196160,
  91800707355385920,
  127249239226720320,
  91800707354861760,
  127249239226196160,
  91791913409847360,
  91229238300778560,
  91791913409323200,
  91229238300254400,
  91229100895379520,
  91229100895379520,
  91229100895371330,
  91229100895371330,
  91229100894855360,
  91229100894855360,
  91229100894847170,
  91229100894847170,
  91237894840918080,
  127249101821321280,
  91237894840909890,
  127249101821313090,
  91237894840393920,
  127249101820797120]
def residQf1_bbbb_cert_3 : List Nat := [91237894840385730,
  127249101820788930,
  91791913409847360,
  91229238300778560,
  91791913409839170,
  91229238300770370,
  91791913409323200,
  91229238300254400,
  91791913409315010,
  91229238300246210,
  91800707355385920,
  127249239226720320,
  91800707355377730,
  127249239226712130,
  91800707354861760,
  127249239226196160,
  91800707354853570,
  127249239226187970,
  91791913409847360,
  91229238300778560,
  91791913409839170,
  91229238300770370,
  91791913409323200,
  91229238300254400,
  91791913409315010,
  91229238300246210,
  91791913409847360,
  91229238300778560,
  91791913409323200,
  91229238300254400,
  91791913409847360,
  91229238300778560,
  91791913409323200,
  91229238300254400,
  91800707355385920,
  127249239226720320,
  91800707354861760,
  127249239226196160,
  91791913409847360,
  91229238300778560,
  91791913409323200,
  91229238300254400,
  91800707355385920,
  127249239226720320,
  91800707354861760,
  127249239226196160,
  91791913409847360,
  91229238300778560,
  91791913409323200,
  91229238300254400,
  91229238300778560,
  91791913409847360,
  91229238300770370,
  91791913409839170,
  91229238300254400,
  91791913409323200,
  91229238300246210,
  91791913409315010,
  91229238300778560,
  91791913409847360,
  91229238300770370,
  91791913409839170,
  91229238300254400,
  91791913409323200,
  91229238300246210,
  91791913409315010,
  91238032246317120,
  127811914335789120,
  91238032246308930,
  127811914335780930,
  91238032245792960,
  127811914335264960,
  91238032245784770,
  127811914335256770,
  91229100895379520,
  91229100895379520,
  91229100895371330,
  91229100895371330,
  91229100894855360,
  91229100894855360,
  91229100894847170,
  91229100894847170,
  91237894840918080,
  127249101821321280,
  91237894840909890,
  127249101821313090,
  91237894840393920,
  127249101820797120,
  91237894840385730,
  127249101820788930,
  91229238300778560,
  91791913409847360,
  91229238300770370,
  91791913409839170,
  91229238300254400,
  91791913409323200,
  91229238300246210,
  91791913409315010,
  91229100895379520,
  91229100895379520,
  91229100895371330,
  91229100895371330,
  91229100894855360,
  91229100894855360,
  91229100894847170,
  91229100894847170,
  91238032246317120,
  127811914335789120,
  91238032246308930,
  127811914335780930,
  91238032245792960,
  127811914335264960,
  91238032245784770,
  127811914335256770,
  91229100895379520,
  91229100895379520,
  91229100895371330,
  91229100895371330,
  91229100894855360,
  91229100894855360,
  91229100894847170,
  91229100894847170,
  91237894840918080,
  127249101821321280,
  91237894840909890,
  127249101821313090,
  91237894840393920,
  127249101820797120,
  91237894840385730,
  127249101820788930,
  91229100895379520,
  91229100895379520,
  91229100895371330,
  91229100895371330,
  91229100894855360,
  91229100894855360,
  91229100894847170,
  91229100894847170,
  91229238300778560,
  91791913409847360,
  91229238300770370,
  91791913409839170,
  91229238300254400,
  91791913409323200,
  91229238300246210,
  91791913409315010,
  91238032246317120,
  127811914335789120,
  91238032246308930,
  127811914335780930,
  91238032245792960,
  127811914335264960,
  91238032245784770,
  127811914335256770,
  91229100895379520,
  91229100895379520,
  91229100895371330,
  91229100895371330,
  91229100894855360,
  91229100894855360,
  91229100894847170,
  91229100894847170,
  91237894840918080,
  127249101821321280,
  91237894840909890,
  127249101821313090,
  91237894840393920,
  127249101820797120,
  91237894840385730,
  127249101820788930,
  91229238300778560,
  91791913409847360,
  91229238300770370,
  91791913409839170,
  91229238300254400,
  91791913409323200,
  91229238300246210,
  91791913409315010,
  91229238300778560,
  91791913409847360,
  91229238300770370,
  91791913409839170,
  91229238300254400,
  91791913409323200,
  91229238300246210,
  91791913409315010,
  91229238300778560,
  91791913409847360,
  91229238300770370,
  91791913409839170,
  91229238300254400,
  91791913409323200,
  91229238300246210,
  91791913409315010,
  91238032246317120,
  127811914335789120,
  91238032246308930,
  127811914335780930,
  91238032245792960,
  127811914335264960,
  91238032245784770,
  127811914335256770,
  91229100895379520,
  91229100895379520,
  91229100895371330,
  91229100895371330,
  91229100894855360,
  91229100894855360,
  91229100894847170,
  91229100894847170,
  91237894840918080,
  127249101821321280,
  91237894840909890,
  127249101821313090,
  91237894840393920,
  127249101820797120,
  91237894840385730,
  127249101820788930,
  91229238300778560,
  91791913409847360,
  91229238300770370,
  91791913409839170,
  91229238300254400,
  91791913409323200,
  91229238300246210,
  91791913409315010,
  811782862445067640896,
  811746851238087237696,
  811782880032958718016,
  811782880032958718016,
  811782862307662241856,
  811746851100681838656,
  811782879895553318976,
  811782879895553318976,
  811818891239939121216,
  811818891239939121216,
  811818891102533722176,
  811818891102533722176,
  811818891102533713986,
  811818891102533713986,
  516707014859752742976,
  664172907444503846976,
  516707014859752734786,
  664172907444503838786,
  516707032447643820096,
  664208936239375327296,
  516707032447643811906,
  664208936239375319106,
  811782862307662241856,
  811746851100681838656,
  811782862307662233666,
  811746851100681830466,
  811782879895553318976,
  811782879895553318976,
  811782879895553310786,
  811782879895553310786,
  811818891102533722176,
  811818891102533722176,
  811818891102533713986,
  811818891102533713986,
  516707014859752742976,
  664172907444503846976,
  516707032447643820096,
  664208936239375327296,
  516707014722347343936,
  664172907307098447936,
  516707032310238421056,
  664208936101969928256,
  811818891239939121216,
  811818891239939121216,
  664208909857538711616,
  369133079860114890816,
  664208909857538187456,
  369133079860114366656,
  664208909857538711616,
  369133079860114890816,
  664208909857538187456,
  369133079860114366656,
  664208909857538711616,
  369133079860114890816,
  664208909857538187456,
  369133079860114366656,
  664208909720133312576,
  369133079722709491776,
  664208909720132788416,
  369133079722708967616,
  664208909720133312576,
  369133079722709491776,
  664208909720132788416,
  369133079722708967616,
  664208909857538711616,
  369133079860114890816,
  664208909857538187456,
  369133079860114366656,
  516670985927475863616,
  369097059721783550016,
  516670985927475855426,
  369097059721783541826,
  516670985927475339456,
  369097059721783025856,
  516670985927475331266,
  369097059721783017666,
  516670986064881262656,
  369097059859188949056,
  516670986064881254466,
  369097059859188940866,
  516670986064880738496,
  369097059859188424896,
  516670986064880730306,
  369097059859188416706,
  664208909720133312576,
  369133079722709491776,
  664208909720133304386,
  369133079722709483586,
  664208909720132788416,
  369133079722708967616,
  664208909720132780226,
  369133079722708959426,
  664208909720133312576,
  369133079722709491776,
  664208909720133304386,
  369133079722709483586,
  664208909720132788416,
  369133079722708967616,
  664208909720132780226,
  369133079722708959426,
  664208909720133312576,
  369133079722709491776,
  664208909720133304386,
  369133079722709483586,
  664208909720132788416,
  369133079722708967616,
  664208909720132780226,
  369133079722708959426,
  516670986064881262656,
  369097059859188949056,
  516670986064880738496,
  369097059859188424896,
  516670985927475863616,
  369097059721783550016,
  516670985927475339456,
  369097059721783025856,
  664208909857538711616,
  369133079860114890816,
  664208909857538187456,
  369133079860114366656,
  516598946063029379136,
  369061031064317468736,
  516598945925623980096,
  369061030926912069696,
  516598946063029379136,
  369061031064317468736,
  369061031064317468736,
  516598946063029379136,
  516598945925623971906,
  369061030926912061506,
  369061031064317468736,
  516598946063029379136,
  369061031064317460546,
  516598946063029370946,
  516598945925623980096,
  369061030926912069696,
  516598945925623971906,
  369061030926912061506,
  369061031064317468736,
  516598946063029379136,
  516598945925623971906,
  369061030926912061506]

/-- Check residQf1_bbbb.  -/
theorem residQf1_bbbb : isZeroSpin kinds [aᵥ, bᵥ, iₒ, jₒ] 4 [true, true, true, true]
    (residQf1)
    (Prog.scale (-1) (residQf1_bbbb))
    (residQf1_bbbb_cert_0 ++ (residQf1_bbbb_cert_1 ++ (residQf1_bbbb_cert_2 ++ (residQf1_bbbb_cert_3)))) = true := by decide +kernel

end Verif.Cert
