import Verif.Gen.Qf
import Verif.Ein.Ops2
import Verif.Wick.Delta

/-! Written by `/verif/tools/gen.py`. Checks of einsum programs. -/

set_option maxRecDepth 100000

namespace Verif.Cert

open Verif.Ein Verif.Ein.N


open Verif.Gen

def T4_quad_mat_cert_0 : List Nat := [995375092225257311724143408245389148687320845907804284817334959844906171032076980322504,
  9223414792919122162,
  995375092225257311724143408245389148687320845907804284817334959844610950506353637196234,
  2259362918105842,
  391110915226956183016147361744505102560282006362307990562845859252079051166738096272902455880,
  18028154397314032,
  391110915226956183016147361744505102560282006362307990562845859252079051309863055380689731590,
  164429768178977776,
  95493832125533487899622961548685239699362359401321202455462059601328235603855093792506440,
  18028154396789746,
  95493832125533487899622961548685239699362359401321202455462059601328378728814201579782150,
  164429768178453490,
  391110907700952077681821894585353132293204137596428590432418261433740234201857588296364589640,
  18028154397322096,
  391110907700952077681821894585353132293204137596428590432418261433740234344982547404151865350,
  164429768178985840,
  95486306121428153574155802396714972621493593521921072027864241262511270723347117254640200,
  18028154396797810,
  95486306121428153574155802396714972621493593521921072027864241262511413848306225041915910,
  164429768178461554,
  652074321013314113694697080853477775622057544945088094475821921665967210319973562011332378626,
  811710998547723979714,
  652074321013314113694697080853477775622057544945088094475821921665967210167786797503322275846,
  221559302827204185034,
  6918685856681992264,
  2305874488237776964,
  54610549000126920,
  54047873857520070,
  516598919664014991936,
  221378992083585212736]

/-- Check T4_quad_mat. C77 -/
theorem T4_quad_mat : isZero kinds [] 73728
    (Wick.matX (Wick.braX 4) [(1/73728, [2, 2], .fluct)] ++ (Prog.scale (-1) (Prog.cap 0 119 (Prog.part [[23, 39, 39]] (wnT2cubed_toT4_0)))))
    (T4_quad_mat_cert_0) = true := by decide +kernel

def T4_cub_mat_cert_0 : List Nat := [391142736386185166436855650503414741808588224107811645257573894676622532436509403346160058824,
  673504322575097850988,
  130465788546857074106163863341901260252917712984393885034757697868218318308302268082008883914,
  73845607901786721518,
  391142736143410840458329022530538871799972808986331664608307810193433921178438076437706834634,
  73843320376569810030,
  391142736386185166436855650503414741808588224107811645257759575382854211963709999900418900424,
  1273167619608844102764,
  130465788546857074106163863341901260252917712984393885034714212065115439224348582318300201674,
  73843320376569285870,
  391142736143410840458329022530538871799972808986331664608351295996536800262391762201415516874,
  73845607901787245678,
  391142736386185166436855650503414741808588224107811645257573894676622532141288877622816932554,
  73843311984237276268,
  130465788789631400084690491314777130261533128105873865684126979251470309129247742677794161344,
  92292914238288489708,
  130465788789631400084690491314777130261533128105873865684126330055906667242653252210284298954,
  73845607901786729708,
  391142736386185166436855650503414741808588224107811645257676442381122270112789060565982249674,
  73843320376569818220,
  391142736386185166436855650503414741808588224107811645257676478192251726041454412824813241034,
  73845598427122953324,
  130465788789631400084690491314777130261533128105873865684084142485474746896441780216912937664,
  83067255775727906028,
  130465788789631400084690491314777130261533128105873865684082844252803788158699566446575616714,
  73843320376569294060,
  391142736386185166436855650503414741808588224107811645257719928184225149196742746329690931914,
  73845607901787253868,
  130465788546857074106163863341901260252917712984393885034757697868218318603650020494825226244,
  673508905476698852590,
  391142736143410840458329022530538871799972808986331664608307810193433921319293221333299388424,
  673504330426264505454,
  130465788789631400084690491314777130261533128105873865684126979251470309419980431372462604294,
  682732839226590031084,
  130465788789631400084690491314777130261533128105873865684126330055906667538001004623100641284,
  673508905476698860780,
  391142736386185166436855650503414741808588224107811645257676442381122270253644205461574803464,
  673504330426264513644,
  130465788546857074106163863341901260252917712984393885034797345066847381594084761675771412484,
  1273169915526393548014,
  391142736143410840458329022530538871799972808986331664608390943195165863393681648277954256904,
  1273167628001176636526,
  130465788789631400084690491314777130261533128105873865684165976462254105388098775827774455814,
  1263947105752330988780,
  130465788789631400084690491314777130261533128105873865684165977254535730528435745804046827524,
  1273169915526393556204,
  391142736386185166436855650503414741808588224107811645257759575382854212328032632406229671944,
  1273167628001176644716,
  391142736386185166436855650503414741808588224107811645257759575382854212328159859095701045254,
  1273169906051729779820,
  130465788546857074106163863341901260252917712984393885034714212065115439365203727213892755464,
  673504330426263981294,
  391142736143410840458329022530538871799972808986331664608351295996536800557739514614231859204,
  673508905476699376750,
  391142736386185166436855650503414741808588224107811645257676478192251726701124797743438512134,
  673508895460869205100,
  130465788789631400084690491314777130261533128105873865684084142485474747034987704403571277834,
  664281522301468863724,
  130465788789631400084690491314777130261533128105873865684082844252803788299554711342168170504,
  673504330426263989484,
  391142736386185166436855650503414741808588224107811645257719928184225149492090498742507274244,
  673508905476699384940,
  130465788546857074106163863341901260252917712984393885034797345066847381439592154158547623944,
  1273167628001176112366,
  391142736143410840458329022530538871799972808986331664608390943195165863548174255795178045444,
  1273169915526394072174,
  130465788789631400084690491314777130261533128105873865684165976462254105235912011319764353034,
  1254721447289770405100,
  130465788789631400084690491314777130261533128105873865684165977254535730373943138286823038984,
  1273167628001176120556,
  391142736386185166436855650503414741808588224107811645257759575382854212482525239923453460484,
  1273169915526394080364,
  223684835092798939464,
  518904762673228718664,
  73841604713083855434,
  221380091318221701834,
  223684817771263976004,
  228297629139708191304]

/-- Check T4_cub_mat. C77 -/
theorem T4_cub_mat : isZero kinds [] 884736
    (Wick.matX (Wick.braX 4) [(1/884736, [2, 2, 2], .fluct)] ++ (Prog.scale (-1) (Prog.cap 0 119 (Prog.part [[23, 39, 39, 39]] (wnT2cubed_toT4_0)))))
    (T4_cub_mat_cert_0) = true := by decide +kernel

def T4_t2t3_mat_cert_0 : List Nat := [7770734854452605789569904495638400074778448230440706892976039985866321388602303185220,
  9424403170539260906,
  7770734854452605789569904495638400074778448230440706892976039352921800861066753490950,
  9388364765712010218,
  130370302971133618127302297680122547357498152064042504035896677040423824196084971060637466950,
  9424402346677292272,
  130370302485466395070870029950257070651618425403440794272861796727470750095557796977206624580,
  9424403170539261166,
  130370302971133618127302297680122547357498152064042504035896677040423852530283868278508749120,
  9424403171311013104,
  130370302728359292148775669707246677348882736942562523386528044852735475261733986932362051910,
  9424402346643746032,
  130370302728240721049396657923132940660233840524920774922230428915159099029908781105482039620,
  9424403170539269356,
  130370302728359292148775669707246677348882736942562523386528044852734870651412356614683623430,
  9388364766416661744,
  130370302485466395070870029950257070651618425403440794272861796727470117151037269441656930310,
  9388364765712010478,
  130370302971133618127302297680122547357498152064042504035896677040423219576539968706104287240,
  9385550154122054896,
  130370302971133618127302297680122547357498152064042504035896677040423219585763340742959038470,
  9388364766450207984,
  130370302728240721049396657923132940660233840524920774922230428915158466085388253569932345350,
  9388364765712018668,
  31828687189511894787450355938264878090877402471904486064997663311509118513049917503308100,
  9424403170539261038,
  31829172856734951219718085803741583970604063073614249099877976264583219040224000934150470,
  9424402346677292146,
  31829172856734951219718085803741583970604063073614249099877976264611553239121218805432640,
  9424403171311012978,
  31828929963837873314078328814134886706292523951885135433629850999858052864034045778723140,
  9424403170539269228,
  31828930082408972693090112927871575355188941593633599731245788576234284689239872658735430,
  9424402346643745906,
  31828687189511894787450355938264878090877402471904486064997663310876173992522381953613830,
  9388364765712010350,
  31828930082408972693090112927871575355188941593633599731245788575629674367609554980306950,
  9388364766416661618,
  31829172856734951219718085803741583970604063073614249099877976263978599495221646400970760,
  9385550154122054770,
  31828929963837873314078328814134886706292523951885135433629850999225108343506510229028870,
  9388364765712018540,
  31829172856734951219718085803741583970604063073614249099877976263978608718593683255721990,
  9388364766450207858,
  651947006259101795544112737360492828431844800123680047173871597884218484945700945743891399234,
  959250971967529159660,
  391270058662548029191947578171855216884789704121742267600277999755899399340358383553117683714,
  811893192157819571180,
  391270058662548029191947578171855216884789704121742267600277999755899380450892452074536837124,
  811893192157618252780,
  651947006259101795544112737360492828431844800123680047173871597884217257794696344673282170884,
  664283254753534946284,
  651947006259101795544112737360492828431844800123680047173871597884217862404981946193943470084,
  811893192159765212140,
  651947006259101795544112737360492828431844800123680047173871597884217881294447877672524316674,
  811893192159966530540,
  651946998490323364231260642228464988156151516236320666394075367878191319046469453639078117954,
  959250971967529159534,
  391270050893769597879095483039827376609096420234382886820481769749872233441126891448304402434,
  811893192157819571054,
  391270050893769597879095483039827376609096420234382886820481769749872214551660959969723555844,
  811893192157618252654,
  651946998490323364231260642228464988156151516236320666394075367878190091895464852568468889604,
  664283254753534946158,
  651946998490323364231260642228464988156151516236320666394075367878190696505750454089130188804,
  811893192159765212014,
  651946998490323364231260642228464988156151516236320666394075367878190715395216385567711035394,
  811893192159966530414,
  4630302956994199750,
  4738371751569031750,
  368988929629436002754,
  368990618204351234504,
  4630302956994199750,
  4738371751569031750,
  4630302956994199750,
  4738371751569031750,
  368988929629436002754,
  368990618204351234504,
  4630302956994199750,
  4738371751569031750,
  368988929629436002754,
  368990618204351234504,
  368988929629436002754,
  368990618204351234504]

/-- Check T4_t2t3_mat. C77 -/
theorem T4_t2t3_mat : isZero kinds [] 331776
    (Wick.matX (Wick.braX 4) [(1/331776, [2, 3], .fluct)] ++ (Prog.scale (-1) (Prog.cap 0 119 (Prog.ideal (wnT2T3_toT4_0)))))
    (T4_t2t3_mat_cert_0) = true := by decide +kernel

end Verif.Cert
