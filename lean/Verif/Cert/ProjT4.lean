import Verif.Ein.Ops2
import Verif.Wick.Project
import Verif.Gen.Ccdq
import Verif.Wick.Delta

/-! Written by `/verif/tools/gen.py`. Checks of einsum programs. -/

set_option maxRecDepth 100000

namespace Verif.Cert

open Verif.Ein Verif.Ein.N


open Verif.Gen

def ccdq_t2_proj_cert_0 : List Nat := [794688,
  794688,
  794688,
  794688,
  794688,
  794688,
  794688,
  794688,
  912751261562120304057780804105720350567358472739138904663421806190374691551132065047037878336,
  227514820337728,
  118571099379011784113736688648896417641748464297615937576404566024103044752089152,
  738992192,
  118571099379011784113736688648896417641748464297615937576404566024103044752089152,
  738992192,
  177885597090827005219460925719596798439586013942590316505616713432156545410146368,
  3024362414144,
  177885597090827005219460925719596798439586013942590316505616713432156545410146368,
  3024362414144,
  38853377844514581418389238136470378132848136781042790425036248194778085704104170758208,
  50466660416,
  38853377844514581418389238136470378132848136781042790425036248194778085704104170758208,
  50466660416,
  38853377873462603727718286992363124385020113744360286591446389204642481706082453168192,
  51171303488,
  38853377873462603727718286992363124385020113744360286591446389204642481706082453168192,
  51171303488,
  485845079705500785406036081738853071287064332459481304219317709283762225868429860928,
  3024429523008,
  485845079705500785406036081738853071287064332459481304219317709283762225868429860928,
  3024429523008,
  485845079705500785406036081738853071287064332459481304219317709283762225868429860928,
  3024429523008,
  485845079705500785406036081738853071287064332459481304219317709283762225868429860928,
  3024429523008,
  728619405684027413378911951747468486408544313108849936407006058218113209996705275968,
  3161834922048,
  728619405684027413378911951747468486408544313108849936407006058218113209996705275968,
  3161834922048,
  728619405684027413378911951747468486408544313108849936407006058218113209996705275968,
  3161834922048,
  728619405684027413378911951747468486408544313108849936407006058218113209996705275968,
  3161834922048,
  728619405684027413378911951747468486408544313108849936407006058218113209996705275968,
  3161834922048,
  728619405684027413378911951747468486408544313108849936407006058218113209996705275968,
  3161834922048,
  651851512427154118705281632075114748225118782390741348667862559730978420490291849023439249472,
  55499825216,
  651851512427154118705281632075114748225118782390741348667862559730978420490291849023439249472,
  55499825216,
  651851512427154118705281632075114748225118782390741348667862559730978420490291849023439249472,
  55499825216,
  651851512427154118705281632075114748225118782390741348667862559730978420490291849023439249472,
  55499825216,
  651851512427154118705281632075114748225118782390741348667862559730978420490291849023439249472,
  55499825216,
  651851512427154118705281632075114748225118782390741348667862559730978420490291849023439249472,
  55499825216,
  159143435769702824868734103520719357481042385896899733878564410182215605068113724922667072,
  53352341568,
  159143435769702824868734103520719357481042385896899733878564410182215605068113724922667072,
  53352341568,
  159143435769702824868734103520719357481042385896899733878564410182215605068113724922667072,
  53352341568,
  159143435769702824868734103520719357481042385896899733878564410182215605068113724922667072,
  53352341568,
  159143435769702824868734103520719357481042385896899733878564410182215605068113724922667072,
  53352341568,
  159143435769702824868734103520719357481042385896899733878564410182215605068113724922667072,
  53352341568,
  651851512912702770662334888020866488242349612633701309966599824106355118358993817279990079552,
  55533379648,
  651851512912702770662334888020866488242349612633701309966599824106355118358993817279990079552,
  55533379648,
  651851512912702770662334888020866488242349612633701309966599824106355118358993817279990079552,
  55533379648,
  651851512912702770662334888020866488242349612633701309966599824106355118358993817279990079552,
  55533379648,
  651851512912702770662334888020866488242349612633701309966599824106355118358993817279990079552,
  55533379648,
  651851512912702770662334888020866488242349612633701309966599824106355118358993817279990079552,
  55533379648,
  159143921318354781921990049272459374711872628856861032615828785558913473770081981473497152,
  53385896000,
  159143921318354781921990049272459374711872628856861032615828785558913473770081981473497152,
  53385896000,
  159143921318354781921990049272459374711872628856861032615828785558913473770081981473497152,
  53385896000,
  159143921318354781921990049272459374711872628856861032615828785558913473770081981473497152,
  53385896000,
  159143921318354781921990049272459374711872628856861032615828785558913473770081981473497152,
  53385896000,
  159143921318354781921990049272459374711872628856861032615828785558913473770081981473497152,
  53385896000,
  912751260833500898373753390726808398819889986330594591554571869783368633333018855050333397056,
  224352986210368,
  912751260833500898373753390726808398819889986330594591554571869783368633333018855050333397056,
  224352986210368,
  912751261319345978079254176132844480558743057617658924014053174002686342616781080918762463296,
  227377414938688,
  912751261319345978079254176132844480558743057617658924014053174002686342616781080918762463296,
  227377414938688,
  912751261562120304057780804105720350567358472739138904663421806190374691551132065047037878336,
  227514820337728,
  912751261562120304057780804105720350567358472739138904663421806190374691551132065047037878336,
  227514820337728,
  912751261562120304057780804105720350567358472739138904663421806190374691551132065047037878336,
  227514820337728,
  912751261562120304057780804105720350567358472739138904663421806190374691551132065047037878336,
  227514820337728,
  652074313965566537705615644917082739020303376737201125089828208062056209597042570927631245376,
  218720874799168,
  912751261319345978079254176132844480558743057617658924014053174002686342616781080918762463296,
  227377414938688,
  912751261562120304057780804105720350567358472739138904663421806190374691551132065047037878336,
  227514820337728,
  652074313965566537705615644917082739020303376737201125089828208062056209597042570927631245376,
  218720874799168,
  652074313722792211727089016944206869011687961615721144440459575874367860662691586799355830336,
  218583469400128,
  912751261319345978079254176132844480558743057617658924014053174002686342616781080918762463296,
  227377414938688,
  912751261562120304057780804105720350567358472739138904663421806190374691551132065047037878336,
  227514820337728,
  652074313965566537705615644917082739020303376737201125089828208062056209597042570927631245376,
  218720874799168,
  652074313722792211727089016944206869011687961615721144440459575874367860662691586799355830336,
  218583469400128,
  912751261562120304057780804105720350567358472739138904663421806190374691551132065047037878336,
  227514820337728,
  652074313965566537705615644917082739020303376737201125089828208062056209597042570927631245376,
  218720874799168,
  912751261319345978079254176132844480558743057617658924014053174002686342616781080918762463296,
  227377414938688,
  912751261319345978079254176132844480558743057617658924014053174002686342616781080918762463296,
  227377414938688,
  912751261562120304057780804105720350567358472739138904663421806190374691551132065047037878336,
  227514820337728,
  912751261562120304057780804105720350567358472739138904663421806190374691551132065047037878336,
  227514820337728,
  912751261562120304057780804105720350567358472739138904663421806190374691551132065047037878336,
  227514820337728,
  912751261562120304057780804105720350567358472739138904663421806190374691551132065047037878336,
  227514820337728,
  652074313965566537705615644917082739020303376737201125089828208062056209597042570927631245376,
  218720874799168,
  912751261319345978079254176132844480558743057617658924014053174002686342616781080918762463296,
  227377414938688,
  912751261562120304057780804105720350567358472739138904663421806190374691551132065047037878336,
  227514820337728,
  652074313965566537705615644917082739020303376737201125089828208062056209597042570927631245376,
  218720874799168,
  652074313722792211727089016944206869011687961615721144440459575874367860662691586799355830336,
  218583469400128,
  912751261319345978079254176132844480558743057617658924014053174002686342616781080918762463296,
  227377414938688,
  912751261562120304057780804105720350567358472739138904663421806190374691551132065047037878336,
  227514820337728,
  652074313965566537705615644917082739020303376737201125089828208062056209597042570927631245376,
  218720874799168,
  652074313722792211727089016944206869011687961615721144440459575874367860662691586799355830336,
  218583469400128,
  912751261562120304057780804105720350567358472739138904663421806190374691551132065047037878336,
  227514820337728,
  652074313965566537705615644917082739020303376737201125089828208062056209597042570927631245376,
  218720874799168,
  67903552,
  67903552,
  67895362,
  67895362,
  67379392,
  67379392,
  67371202,
  67371202,
  5369503808,
  5369503808,
  5369495618,
  5369495618,
  5368979648,
  5368979648,
  5368971458,
  5368971458,
  31066673651776,
  31066673651776,
  31066673643586,
  31066673643586,
  31066673127616,
  31066673127616,
  31066673119426,
  31066673119426,
  31204079050816,
  31204079050816,
  31204079042626,
  31204079042626,
  31204078526656,
  31204078526656,
  31204078518466,
  31204078518466,
  412384763968,
  412384763968,
  412384755778,
  412384755778,
  412384239808,
  412384239808,
  412384231618,
  412384231618,
  31204079050816,
  31204079050816,
  31204079042626,
  31204079042626,
  22410132988096,
  22410132988096,
  22410132979906,
  22410132979906,
  31204079050816,
  31204079050816,
  31204079042626,
  31204079042626,
  22272727589056,
  22272727589056,
  22272727580866,
  22272727580866,
  5436612672,
  5436612672,
  5436604482,
  5436604482,
  5436088512,
  5436088512,
  5436080322,
  5436080322,
  30791695081536,
  30791695081536,
  30791695073346,
  30791695073346,
  30791694557376,
  30791694557376,
  30791694549186,
  30791694549186,
  31204079050816,
  31204079050816,
  31204079042626,
  31204079042626,
  31204078526656,
  31204078526656,
  31204078518466,
  31204078518466,
  794688,
  794688,
  786498,
  786498,
  270528,
  270528,
  262338,
  262338]

/-- Check ccdq_t2_proj. C75 -/
theorem ccdq_t2_proj : isZero kinds [aᵥ, bᵥ, iₒ, jₒ] 2304
    (Wick.projP ⟨1, [], [(true, 0), (true, 2), (false, 3), (false, 1)]⟩ [1, 3, 0, 2] [([], 1/4), ([4], 1/2304), ([2], 1/16), ([4, 4], 1/2654208), ([2, 4], 1/9216), ([2, 2], 1/128)] ++ (Prog.scale (-1) (Prog.outs [2, 3, 0, 1] (ccdq_t2eqns))))
    (ccdq_t2_proj_cert_0) = true := by decide +kernel

def ccdq_t4_proj_cert_0 : List Nat := [59285549689505892056868344324448208820874232148807968788202283012055923711828424,
  4538775290350,
  242952182627595145649046475041588759747942603345815056094052955783387143096772100554,
  567626838761962,
  23313923844298813039579362668900609222391150044054436110022971389923237093176307367942,
  54065193323088710,
  23313923844298813039579362668900609222391150044054436110022971389923237093313779884040,
  54065330795604842,
  994646591390672663322548610030330329097329943343159732496865530190885018132512872104394,
  567626838770158,
  4074071952787543271915903160932493010751833204973620965569896836285167165550780858487833034,
  567626838778350,
  995375092225257311724143408245389148687320845907804284817334959844537107239464724627914,
  570513056793074,
  995132140042629716578494361770347559927572903304458469761240906888753720100769422934474,
  567626872324588,
  4074072438336195228969159106684233027982663447933582264307161211661865034252749115038663114,
  567626872332780,
  391110915226956183016147361744505102560282006362307990562845859252079050793189861928240177160,
  54065330796809200,
  391110915226896897466457855852448234215957558153487116330697051283290848510177810543303483400,
  54065330796653548,
  95493832066247938210117069491816895374914150580446970306654090813125579043569364193533960,
  54065330796129260,
  95493832125533487899622961548685239699362359401321202455462059601327862055620749130227720,
  54065330796284914,
  391110907700952077681821894585353132293204137596428590432418261433740233828309353951702310920,
  54065330796817264,
  391110907458118466153605760720420393940264274266127735550900821277263682610946318438490202120,
  54065330796653422,
  95486063287816625358021937463976619681630263221066190510424084785959679812077259380252680,
  54065330796129134,
  95486306121428153574155802396714972621493593521921072027864241262510897175112772592361480,
  54065330796292978,
  912751268609867880046862240042115387169112640947025874049415519794285691457792981613492060166,
  369061206616788192198,
  391142736386185166436855650503414741808588224107811645257572596138183736222729932082714509764,
  968727099823075814508,
  391142736386185166436855650503414741808588224107811645257572596138261107475185268349895705024,
  968727099823310695532,
  391142736143410840458329022530538871799972808986331664608203963950495387288378947954439094724,
  968727099823075806318,
  130465788789631400084690491314777130261533128105873865683978998007466141791271945609323741184,
  821117180009265949932,
  130465788789631400084690491314777130261533128105873865683978998007388770538816609342142545924,
  821117180009031068908,
  130465788546857074106163863341901260252917712984393885034610365819700421604465625213867130884,
  821117180009031060718,
  130465788789631400084690491314777130261533128105873865683978998007388742204617712124271280134,
  821117179184430902508,
  391142736143410840458329022530538871799972808986331664608203963945542418869698757262814740484,
  673507189839128087662,
  391142736386185166436855650503414741808588224107811645257572596133230739469850844173218889734,
  673507189014527929452,
  391142736386185166436855650503414741808588224107811645257572596133230767804049741391090155524,
  673507189839128095852,
  391142736386185166436855650503414741808588224107811645257572596135707224158707206243677913094,
  821117179184431426668,
  391142736143410840458329022530538871799972808986331664608203963948018903558555119333273763844,
  821117180009031584878,
  391142736386185166436855650503414741808588224107811645257572596135707252492906103461549178884,
  821117180009031593068,
  391142736386185166436855650503414741808588224107811645257572596135784623745361439728730374144,
  821117180009266474092,
  995375092225257311724143408245389148687320845907804284817334959844906171032076980322504,
  9223414792919122162,
  995375092225257311724143408245389148687320845907804284817334959844610950506353637196234,
  2259362918105842,
  391110915226956183016147361744505102560282006362307990562845859252079051166738096272902455880,
  18028154397314032,
  391110915226956183016147361744505102560282006362307990562845859252079051309863055380689731590,
  164429768178977776,
  95493832125533487899622961548685239699362359401321202455462059601328235603855093792506440,
  18028154396789746,
  95493832125533487899622961548685239699362359401321202455462059601328378728814201579782150,
  164429768178453490,
  391110907700952077681821894585353132293204137596428590432418261433740234201857588296364589640,
  18028154397322096,
  391110907700952077681821894585353132293204137596428590432418261433740234344982547404151865350,
  164429768178985840,
  95486306121428153574155802396714972621493593521921072027864241262511270723347117254640200,
  18028154396797810,
  95486306121428153574155802396714972621493593521921072027864241262511413848306225041915910,
  164429768178461554,
  652074321013314113694697080853477775622057544945088094475821921665967210319973562011332378626,
  811710998547723979714,
  652074321013314113694697080853477775622057544945088094475821921665967210167786797503322275846,
  221559302827204185034,
  391142736386185166436855650503414741808588224107811645257573894676622532436509403346160058824,
  673504322575097850988,
  130465788546857074106163863341901260252917712984393885034757697868218318308302268082008883914,
  73845607901786721518,
  391142736143410840458329022530538871799972808986331664608307810193433921178438076437706834634,
  73843320376569810030,
  391142736386185166436855650503414741808588224107811645257759575382854211963709999900418900424,
  1273167619608844102764,
  130465788546857074106163863341901260252917712984393885034714212065115439224348582318300201674,
  73843320376569285870,
  391142736143410840458329022530538871799972808986331664608351295996536800262391762201415516874,
  73845607901787245678,
  391142736386185166436855650503414741808588224107811645257573894676622532141288877622816932554,
  73843311984237276268,
  130465788789631400084690491314777130261533128105873865684126979251470309129247742677794161344,
  92292914238288489708,
  130465788789631400084690491314777130261533128105873865684126330055906667242653252210284298954,
  73845607901786729708,
  391142736386185166436855650503414741808588224107811645257676442381122270112789060565982249674,
  73843320376569818220,
  391142736386185166436855650503414741808588224107811645257676478192251726041454412824813241034,
  73845598427122953324,
  130465788789631400084690491314777130261533128105873865684084142485474746896441780216912937664,
  83067255775727906028,
  130465788789631400084690491314777130261533128105873865684082844252803788158699566446575616714,
  73843320376569294060,
  391142736386185166436855650503414741808588224107811645257719928184225149196742746329690931914,
  73845607901787253868,
  130465788546857074106163863341901260252917712984393885034757697868218318603650020494825226244,
  673508905476698852590,
  391142736143410840458329022530538871799972808986331664608307810193433921319293221333299388424,
  673504330426264505454,
  130465788789631400084690491314777130261533128105873865684126979251470309419980431372462604294,
  682732839226590031084,
  130465788789631400084690491314777130261533128105873865684126330055906667538001004623100641284,
  673508905476698860780,
  391142736386185166436855650503414741808588224107811645257676442381122270253644205461574803464,
  673504330426264513644,
  130465788546857074106163863341901260252917712984393885034797345066847381594084761675771412484,
  1273169915526393548014,
  391142736143410840458329022530538871799972808986331664608390943195165863393681648277954256904,
  1273167628001176636526,
  130465788789631400084690491314777130261533128105873865684165976462254105388098775827774455814,
  1263947105752330988780,
  130465788789631400084690491314777130261533128105873865684165977254535730528435745804046827524,
  1273169915526393556204,
  391142736386185166436855650503414741808588224107811645257759575382854212328032632406229671944,
  1273167628001176644716,
  391142736386185166436855650503414741808588224107811645257759575382854212328159859095701045254,
  1273169906051729779820,
  130465788546857074106163863341901260252917712984393885034714212065115439365203727213892755464,
  673504330426263981294,
  391142736143410840458329022530538871799972808986331664608351295996536800557739514614231859204,
  673508905476699376750,
  391142736386185166436855650503414741808588224107811645257676478192251726701124797743438512134,
  673508895460869205100,
  130465788789631400084690491314777130261533128105873865684084142485474747034987704403571277834,
  664281522301468863724,
  130465788789631400084690491314777130261533128105873865684082844252803788299554711342168170504,
  673504330426263989484,
  391142736386185166436855650503414741808588224107811645257719928184225149492090498742507274244,
  673508905476699384940,
  130465788546857074106163863341901260252917712984393885034797345066847381439592154158547623944,
  1273167628001176112366,
  391142736143410840458329022530538871799972808986331664608390943195165863548174255795178045444,
  1273169915526394072174,
  130465788789631400084690491314777130261533128105873865684165976462254105235912011319764353034,
  1254721447289770405100,
  130465788789631400084690491314777130261533128105873865684165977254535730373943138286823038984,
  1273167628001176120556,
  391142736386185166436855650503414741808588224107811645257759575382854212482525239923453460484,
  1273169915526394080364,
  594291504988224,
  1719916466831424,
  54083197848526912,
  126123195406491712,
  223684835092798939464,
  518904762673228718664,
  6918685856681992264,
  2305874488237776964,
  73841604713083855434,
  221380091318221701834,
  54610549000126920,
  54047873857520070,
  223684835367743938884,
  523517574316617933384,
  223684817771263976004,
  228297629139708191304,
  223684835367743938884,
  523517574316617933384,
  516598919664014991936,
  221378992083585212736,
  223684835367743938884,
  523517574316617933384,
  223684835367743938884,
  523517574316617933384,
  223684835367743938884,
  523517574316617933384,
  223684835367743938884,
  523517574316617933384,
  223684835367743938884,
  523517574316617933384,
  6918685856681992264,
  2305874488237776964,
  54610553328132420,
  91211225108873670,
  516598919664014991936,
  221378992083585212736]

/-- Check ccdq_t4_proj. C75 -/
theorem ccdq_t4_proj : isZero kinds [] 5308416
    (Wick.matX (Wick.braX 4) [(1/2304, [], .all), (1/1327104, [4], .all), (1/9216, [2], .all), (1/1528823808, [4, 4], .all), (1/5308416, [2, 4], .all), (1/73728, [2, 2], .all), (1/2641807540224, [4, 4, 4], .all), (1/6115295232, [2, 4, 4], .all), (1/42467328, [2, 2, 4], .all), (1/884736, [2, 2, 2], .all)] ++ (Prog.scale (-1) (Prog.cap 0 119 (Prog.ideal (ccdq_t4eqns_0)))))
    (ccdq_t4_proj_cert_0) = true := by decide +kernel

end Verif.Cert
