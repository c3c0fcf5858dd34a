import Verif.Gen.Xccd
import Verif.Ein.Ops2
import Verif.Wick.Delta

/-! Written by `/verif/tools/gen.py`. Checks of einsum programs. -/

set_option maxRecDepth 100000

namespace Verif.Cert

open Verif.Ein Verif.Ein.N


open Verif.Gen

def xccd5_mat_cert_0 : List Nat := [995375092225257311724143408245389148687320845907804284817334959844906171032076980322504,
  9223414792919122162,
  995375092225257311724143408245389148687320845907804284817334959844610950506353637196234,
  2259362918105842,
  391110915226956183016147361744505102560282006362307990562845859252079051166738096272902455880,
  18028154397314032,
  391110915226956183016147361744505102560282006362307990562845859252079051309863055380689731590,
  164429768178977776,
  95493832125533487899622961548685239699362359401321202455462059601328235603855093792506440,
  18028154396789746,
  95493832125533487899622961548685239699362359401321202455462059601328378728814201579782150,
  164429768178453490,
  391110907700952077681821894585353132293204137596428590432418261433740234201857588296364589640,
  18028154397322096,
  391110907700952077681821894585353132293204137596428590432418261433740234344982547404151865350,
  164429768178985840,
  95486306121428153574155802396714972621493593521921072027864241262511270723347117254640200,
  18028154396797810,
  95486306121428153574155802396714972621493593521921072027864241262511413848306225041915910,
  164429768178461554,
  652074321013314113694697080853477775622057544945088094475821921665967210319973562011332378626,
  811710998547723979714,
  652074321013314113694697080853477775622057544945088094475821921665967210167786797503322275846,
  221559302827204185034,
  6918685856681992264,
  2305874488237776964,
  54610549000126920,
  54047873857520070,
  516598919664014991936,
  221378992083585212736]

/-- Check xccd5_mat. C78 -/
theorem xccd5_mat : isZero kinds [] 73728
    (Wick.matX (Wick.braX 4) [(1/73728, [2, 2], .fluct)] ++ (Prog.scale (-1) (Prog.cap 0 119 (xccd5_quad))))
    (xccd5_mat_cert_0) = true := by decide +kernel

def xccd6_mat_cert_0 : List Nat := [391142736386185166436855650503414741808588224107811645257573894676622532436509403346160058824,
  673504322575097850988,
  130465788546857074106163863341901260252917712984393885034757697868218318308302268082008883914,
  73845607901786721518,
  391142736143410840458329022530538871799972808986331664608307810193433921178438076437706834634,
  73843320376569810030,
  391142736386185166436855650503414741808588224107811645257759575382854211963709999900418900424,
  1273167619608844102764,
  130465788546857074106163863341901260252917712984393885034714212065115439224348582318300201674,
  73843320376569285870,
  391142736143410840458329022530538871799972808986331664608351295996536800262391762201415516874,
  73845607901787245678,
  391142736386185166436855650503414741808588224107811645257573894676622532141288877622816932554,
  73843311984237276268,
  130465788789631400084690491314777130261533128105873865684126979251470309129247742677794161344,
  92292914238288489708,
  130465788789631400084690491314777130261533128105873865684126330055906667242653252210284298954,
  73845607901786729708,
  391142736386185166436855650503414741808588224107811645257676442381122270112789060565982249674,
  73843320376569818220,
  391142736386185166436855650503414741808588224107811645257676478192251726041454412824813241034,
  73845598427122953324,
  130465788789631400084690491314777130261533128105873865684084142485474746896441780216912937664,
  83067255775727906028,
  130465788789631400084690491314777130261533128105873865684082844252803788158699566446575616714,
  73843320376569294060,
  391142736386185166436855650503414741808588224107811645257719928184225149196742746329690931914,
  73845607901787253868,
  130465788546857074106163863341901260252917712984393885034757697868218318603650020494825226244,
  673508905476698852590,
  391142736143410840458329022530538871799972808986331664608307810193433921319293221333299388424,
  673504330426264505454,
  130465788789631400084690491314777130261533128105873865684126979251470309419980431372462604294,
  682732839226590031084,
  130465788789631400084690491314777130261533128105873865684126330055906667538001004623100641284,
  673508905476698860780,
  391142736386185166436855650503414741808588224107811645257676442381122270253644205461574803464,
  673504330426264513644,
  130465788546857074106163863341901260252917712984393885034797345066847381594084761675771412484,
  1273169915526393548014,
  391142736143410840458329022530538871799972808986331664608390943195165863393681648277954256904,
  1273167628001176636526,
  130465788789631400084690491314777130261533128105873865684165976462254105388098775827774455814,
  1263947105752330988780,
  130465788789631400084690491314777130261533128105873865684165977254535730528435745804046827524,
  1273169915526393556204,
  391142736386185166436855650503414741808588224107811645257759575382854212328032632406229671944,
  1273167628001176644716,
  391142736386185166436855650503414741808588224107811645257759575382854212328159859095701045254,
  1273169906051729779820,
  130465788546857074106163863341901260252917712984393885034714212065115439365203727213892755464,
  673504330426263981294,
  391142736143410840458329022530538871799972808986331664608351295996536800557739514614231859204,
  673508905476699376750,
  391142736386185166436855650503414741808588224107811645257676478192251726701124797743438512134,
  673508895460869205100,
  130465788789631400084690491314777130261533128105873865684084142485474747034987704403571277834,
  664281522301468863724,
  130465788789631400084690491314777130261533128105873865684082844252803788299554711342168170504,
  673504330426263989484,
  391142736386185166436855650503414741808588224107811645257719928184225149492090498742507274244,
  673508905476699384940,
  130465788546857074106163863341901260252917712984393885034797345066847381439592154158547623944,
  1273167628001176112366,
  391142736143410840458329022530538871799972808986331664608390943195165863548174255795178045444,
  1273169915526394072174,
  130465788789631400084690491314777130261533128105873865684165976462254105235912011319764353034,
  1254721447289770405100,
  130465788789631400084690491314777130261533128105873865684165977254535730373943138286823038984,
  1273167628001176120556,
  391142736386185166436855650503414741808588224107811645257759575382854212482525239923453460484,
  1273169915526394080364,
  223684835092798939464,
  518904762673228718664,
  73841604713083855434,
  221380091318221701834,
  223684817771263976004,
  228297629139708191304]

/-- Check xccd6_mat. C78 -/
theorem xccd6_mat : isZero kinds [] 884736
    (Wick.matX (Wick.braX 4) [(1/884736, [2, 2, 2], .fluct)] ++ (Prog.scale (-1) (Prog.cap 0 119 (xccd6_quad))))
    (xccd6_mat_cert_0) = true := by decide +kernel

def xccd7_mat_cert_0 : List Nat := [23556757455827029173444295407253549085721450898935953550190592754383597553537990787524,
  968727099823074765676,
  23556757455827029173444295407253549085721450898935953550190670125636052889805171982784,
  968727099823309646700,
  23313983129848502545471419537244933670599970918286584918002904405449246569409715372484,
  968727099823074757486,
  8019200593201324983180239726702162517946732137376361090176139310107766076974380089344,
  821117180009264901100,
  8019200593201324983180239726702162517946732137376361090176061938855310740707198894084,
  821117180009030020076,
  7776426267222798355207363856693547102825252156726992457988373589920959756578923479044,
  821117180009030011886,
  8019200593201324983180239726702162517946732137376361090176061910521111843489327628294,
  821117179184429853676,
  23313983129848502545471419537244933670599970918286584917997951437030566378718091018244,
  673507189839127038830,
  23556757455827029173444295407253549085721450898935953550185639757630718465628495167494,
  673507189014526880620,
  23556757455827029173444295407253549085721450898935953550185639785964917362846366433284,
  673507189839127047020,
  23556757455827029173444295407253549085721450898935953550188116242319574827698954190854,
  821117179184430377836,
  23313983129848502545471419537244933670599970918286584918000427921719422740788550041604,
  821117180009030536046,
  23556757455827029173444295407253549085721450898935953550188116270653773724916825456644,
  821117180009030544236,
  23556757455827029173444295407253549085721450898935953550188193641906229061184006651904,
  821117180009265425260,
  223684835367743938884,
  523517574316617933384,
  223684835367743938884,
  523517574316617933384,
  223684835367743938884,
  523517574316617933384,
  223684835367743938884,
  523517574316617933384,
  223684835367743938884,
  523517574316617933384,
  223684835367743938884,
  523517574316617933384,
  223684835367743938884,
  523517574316617933384]

/-- Check xccd7_mat. C78 -/
theorem xccd7_mat : isZero kinds [] 5308416
    (Wick.matX (Wick.braX 4) [(1/5308416, [2, 4], .l2)] ++ (Prog.scale (-1) (Prog.cap 0 119 (Prog.ideal (get_xcc7residual)))))
    (xccd7_mat_cert_0) = true := by decide +kernel

end Verif.Cert
