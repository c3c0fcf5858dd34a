import Verif.Ein.Ops2
import Verif.Gen.Ccd
import Verif.Gen.Ccsd
import Verif.Gen.Ccsdt
import Verif.Gen.Ccdq
import Verif.Gen.Ucc4
import Verif.Gen.Triples
import Verif.Gen.Qf

/-! Written by `/verif/tools/gen.py`. Checks of einsum programs. -/

set_option maxRecDepth 100000

namespace Verif.Cert

open Verif.Ein Verif.Ein.N


open Verif.Gen

def T4_quad_cert_0 : List Nat := [11531498049961205824,
  11531498049961205824,
  11531489256015667264,
  11531489256015667264,
  11531498047814246464,
  11531498047814246464,
  11531489251721748544,
  11531480459923169344,
  11531480457776209984,
  11531480457776209984,
  11531480459923169344,
  11531489251721748544,
  11531498049960681664,
  11531498049960681664,
  11531489256015143104,
  11531489256015143104,
  11531498047813198144,
  11531498045666762944,
  11531489251720176064,
  11531471663830147264,
  11531480457774637504,
  11531471661683187904,
  11531480459922121024,
  11531489249574265024,
  9226217986405966144,
  9226217986405966144,
  9226209190312944064,
  9226191604569350464,
  9226217986406490304,
  9226217988552925504,
  9226209190313992384,
  9226200400661848384,
  9226200394220970304,
  9226200394220970304,
  9226200394220446144,
  9226191600275431744,
  9226191602421866944,
  9226191602421866944,
  9226191604569350464,
  9226209190312944064,
  9226191600274907584,
  9226191600274907584,
  9226191600275431744,
  9226200394220446144,
  9226191602422915264,
  9226200398514364864,
  9226191604569874624,
  9226209192459903424,
  11531497912555806784,
  11531497912555806784,
  11531489118610268224,
  11531489118610268224,
  11531497910408847424,
  11531497910408847424,
  11531489114316349504,
  11531480322517770304,
  11531480320370810944,
  11531480320370810944,
  11531480322517770304,
  11531489114316349504,
  11531497912555282624,
  11531497912555282624,
  11531489118609744064,
  11531489118609744064,
  11531497910407799104,
  11531497908261363904,
  11531489114314777024,
  11531471526424748224,
  11531480320369238464,
  11531471524277788864,
  11531480322516721984,
  11531489112168865984,
  9226217849000567104,
  9226217849000567104,
  9226209052907545024,
  9226191467163951424,
  9226217849001091264,
  9226217851147526464,
  9226209052908593344,
  9226200263256449344,
  9226200256815571264,
  9226200256815571264,
  9226200256815047104,
  9226191462870032704,
  9226191465016467904,
  9226191465016467904,
  9226191467163951424,
  9226209052907545024,
  9226191462869508544,
  9226191462869508544,
  9226191462870032704,
  9226200256815047104,
  9226191465017516224,
  9226200261108965824,
  9226191467164475584,
  9226209055054504384,
  11531498049927659584,
  11531498049927659584,
  11531489255982121024,
  11531489255982121024,
  11531498047780700224,
  11531498047780700224,
  11531489251688202304,
  11531480459889623104,
  11531480457742663744,
  11531480457742663744,
  11531480459889623104,
  11531489251688202304,
  11531498049927135424,
  11531498049927135424,
  11531489255981596864,
  11531489255981596864,
  11531498047779651904,
  11531498045633216704,
  11531489251686629824,
  11531471663796601024,
  11531480457741091264,
  11531471661649641664,
  11531480459888574784,
  11531489249540718784,
  9226217986372419904,
  9226217986372419904,
  9226209190279397824,
  9226191604535804224,
  9226217986372944064,
  9226217988519379264,
  9226209190280446144,
  9226200400628302144,
  9226200394187424064,
  9226200394187424064,
  9226200394186899904,
  9226191600241885504,
  9226191602388320704,
  9226191602388320704,
  9226191604535804224,
  9226209190279397824,
  9226191600241361344,
  9226191600241361344,
  9226191600241885504,
  9226200394186899904,
  9226191602389369024,
  9226200398480818624,
  9226191604536328384,
  9226209192426357184,
  11531497912488714304,
  11531497775116861504,
  11531489118543175744,
  11531488981171322944,
  11531497910341754944,
  11531497772969902144,
  11531489114249257024,
  11531480185078825024,
  11531480320303718464,
  11531480182931865664,
  11531480322450677824,
  11531488976877404224,
  11531497912488190144,
  11531497775116337344,
  11531489118542651584,
  11531488981170798784,
  11531497910340706624,
  11531497770822418624,
  11531489114247684544,
  11531471388985802944,
  11531480320302145984,
  11531471386838843584,
  11531480322449629504,
  11531488974729920704,
  9226217848933474624,
  9226217711561621824,
  9226209052840452544,
  9226191329725006144,
  9226217848933998784,
  9226217713708581184,
  9226209052841500864,
  9226200125817504064,
  9226200256748478784,
  9226200119376625984,
  9226200256747954624,
  9226191325431087424,
  9226191464949375424,
  9226191327577522624,
  9226191467096858944,
  9226208915468599744,
  9226191462802416064,
  9226191325430563264,
  9226191462802940224,
  9226200119376101824,
  9226191464950423744,
  9226200123670020544,
  9226191467097383104,
  9226208917615559104,
  11531497775083315264,
  11531497775083315264,
  11531488981137776704,
  11531488981137776704,
  11531497772936355904,
  11531497772936355904,
  11531488976843857984,
  11531480185045278784,
  11531480182898319424,
  11531480182898319424,
  11531480185045278784,
  11531488976843857984,
  11531497775082791104,
  11531497775082791104,
  11531488981137252544,
  11531488981137252544,
  11531497772935307584,
  11531497770788872384,
  11531488976842285504,
  11531471388952256704,
  11531480182896746944,
  11531471386805297344,
  11531480185044230464,
  11531488974696374464,
  9226217711528075584,
  9226217711528075584,
  9226208915435053504,
  9226191329691459904,
  9226217711528599744,
  9226217713675034944,
  9226208915436101824,
  9226200125783957824,
  9226200119343079744,
  9226200119343079744,
  9226200119342555584,
  9226191325397541184,
  9226191327543976384,
  9226191327543976384,
  9226191329691459904,
  9226208915435053504,
  9226191325397017024,
  9226191325397017024,
  9226191325397541184,
  9226200119342555584,
  9226191327545024704,
  9226200123636474304,
  9226191329691984064,
  9226208917582012864,
  11531497775116861504,
  11531497912488714304,
  11531488981171322944,
  11531489118543175744,
  11531497772969902144,
  11531497910341754944,
  11531488976877404224,
  11531480322450677824,
  11531480182931865664,
  11531480320303718464,
  11531480185078825024,
  11531489114249257024,
  11531497775116337344,
  11531497912488190144,
  11531488981170798784,
  11531489118542651584,
  11531497772968853824,
  11531497908194271424,
  11531488976875831744,
  11531471526357655744,
  11531480182930293184,
  11531471524210696384,
  11531480185077776704,
  11531489112101773504,
  9226217711561621824,
  9226217848933474624,
  9226208915468599744,
  9226191467096858944,
  9226217711562145984,
  9226217851080433984,
  9226208915469648064,
  9226200263189356864,
  9226200119376625984,
  9226200256748478784,
  9226200119376101824,
  9226191462802940224,
  9226191327577522624,
  9226191464949375424,
  9226191329725006144,
  9226209052840452544,
  9226191325430563264,
  9226191462802416064,
  9226191325431087424,
  9226200256747954624,
  9226191327578570944,
  9226200261041873344,
  9226191329725530304,
  9226209054987411904,
  11531498049961197634,
  11531498049961197634,
  11531489256015659074,
  11531489256015659074,
  11531498047814238274,
  11531498047814238274,
  11531489251721740354,
  11531480459923161154,
  11531480457776201794,
  11531480457776201794,
  11531480459923161154,
  11531489251721740354,
  11531498049960673474,
  11531498049960673474,
  11531489256015134914,
  11531489256015134914,
  11531498047813189954,
  11531498045666754754,
  11531489251720167874,
  11531471663830139074,
  11531480457774629314,
  11531471661683179714,
  11531480459922112834,
  11531489249574256834,
  9226217986405957954,
  9226217986405957954,
  9226209190312935874,
  9226191604569342274,
  9226217986406482114,
  9226217988552917314,
  9226209190313984194,
  9226200400661840194,
  9226200394220962114,
  9226200394220962114,
  9226200394220437954,
  9226191600275423554,
  9226191602421858754,
  9226191602421858754,
  9226191604569342274,
  9226209190312935874,
  9226191600274899394,
  9226191600274899394,
  9226191600275423554,
  9226200394220437954,
  9226191602422907074,
  9226200398514356674,
  9226191604569866434,
  9226209192459895234,
  11531497912555798594,
  11531497912555798594,
  11531489118610260034,
  11531489118610260034,
  11531497910408839234,
  11531497910408839234,
  11531489114316341314,
  11531480322517762114,
  11531480320370802754,
  11531480320370802754,
  11531480322517762114,
  11531489114316341314,
  11531497912555274434,
  11531497912555274434,
  11531489118609735874,
  11531489118609735874,
  11531497910407790914,
  11531497908261355714,
  11531489114314768834,
  11531471526424740034,
  11531480320369230274,
  11531471524277780674,
  11531480322516713794,
  11531489112168857794,
  9226217849000558914,
  9226217849000558914,
  9226209052907536834,
  9226191467163943234,
  9226217849001083074,
  9226217851147518274,
  9226209052908585154,
  9226200263256441154,
  9226200256815563074,
  9226200256815563074,
  9226200256815038914,
  9226191462870024514,
  9226191465016459714,
  9226191465016459714,
  9226191467163943234,
  9226209052907536834,
  9226191462869500354,
  9226191462869500354,
  9226191462870024514,
  9226200256815038914,
  9226191465017508034,
  9226200261108957634,
  9226191467164467394,
  9226209055054496194,
  11531498049927643204,
  11531498049894105154,
  11531489255982104644,
  11531489255948566594,
  11531498047780683844,
  11531498047747145794,
  11531489251688185924,
  11531480459856068674,
  11531480457742647364,
  11531480457709109314,
  11531480459889606724,
  11531489251654647874,
  11531498049927119044,
  11531498049893580994,
  11531489255981580484,
  11531489255948042434]
def T4_quad_cert_1 : List Nat := [11531498047779635524,
  11531498045599662274,
  11531489251686613444,
  11531471663763046594,
  11531480457741074884,
  11531471661616087234,
  11531480459888558404,
  11531489249507164354,
  9226217986372403524,
  9226217986338865474,
  9226209190279381444,
  9226191604502249794,
  9226217986372927684,
  9226217988485824834,
  9226209190280429764,
  9226200400594747714,
  9226200394187407684,
  9226200394153869634,
  9226200394186883524,
  9226191600208331074,
  9226191602388304324,
  9226191602354766274,
  9226191604535787844,
  9226209190245843394,
  9226191600241344964,
  9226191600207806914,
  9226191600241869124,
  9226200394153345474,
  9226191602389352644,
  9226200398447264194,
  9226191604536312004,
  9226209192392802754,
  11531497912488689734,
  11531497637677908034,
  11531489118543151174,
  11531488843732369474,
  11531497910341730374,
  11531497635530948674,
  11531489114249232454,
  11531480047639871554,
  11531480320303693894,
  11531480045492912194,
  11531480322450653254,
  11531488839438450754,
  11531497912488165574,
  11531497637677383874,
  11531489118542627014,
  11531488843731845314,
  11531497910340682054,
  11531497633383465154,
  11531489114247659974,
  11531471251546849474,
  11531480320302121414,
  11531471249399890114,
  11531480322449604934,
  11531488837290967234,
  9226217848933450054,
  9226217574122668354,
  9226209052840427974,
  9226191192286052674,
  9226217848933974214,
  9226217576269627714,
  9226209052841476294,
  9226199988378550594,
  9226200256748454214,
  9226199981937672514,
  9226200256747930054,
  9226191187992133954,
  9226191464949350854,
  9226191190138569154,
  9226191467096834374,
  9226208778029646274,
  9226191462802391494,
  9226191187991609794,
  9226191462802915654,
  9226199981937148354,
  9226191464950399174,
  9226199986231067074,
  9226191467097358534,
  9226208780176605634,
  11531497775083290694,
  11531497637644361794,
  11531488981137752134,
  11531488843698823234,
  11531497772936331334,
  11531497635497402434,
  11531488976843833414,
  11531480047606325314,
  11531480182898294854,
  11531480045459365954,
  11531480185045254214,
  11531488839404904514,
  11531497775082766534,
  11531497637643837634,
  11531488981137227974,
  11531488843698299074,
  11531497772935283014,
  11531497633349918914,
  11531488976842260934,
  11531471251513303234,
  11531480182896722374,
  11531471249366343874,
  11531480185044205894,
  11531488837257420994,
  9226217711528051014,
  9226217574089122114,
  9226208915435028934,
  9226191192252506434,
  9226217711528575174,
  9226217576236081474,
  9226208915436077254,
  9226199988345004354,
  9226200119343055174,
  9226199981904126274,
  9226200119342531014,
  9226191187958587714,
  9226191327543951814,
  9226191190105022914,
  9226191329691435334,
  9226208777996100034,
  9226191325396992454,
  9226191187958063554,
  9226191325397516614,
  9226199981903602114,
  9226191327545000134,
  9226199986197520834,
  9226191329691959494,
  9226208780143059394,
  11531497775116845124,
  11531497912455159874,
  11531488981171306564,
  11531489118509621314,
  11531497772969885764,
  11531497910308200514,
  11531488976877387844,
  11531480322417123394,
  11531480182931849284,
  11531480320270164034,
  11531480185078808644,
  11531489114215702594,
  11531497775116320964,
  11531497912454635714,
  11531488981170782404,
  11531489118509097154,
  11531497772968837444,
  11531497908160716994,
  11531488976875815364,
  11531471526324101314,
  11531480182930276804,
  11531471524177141954,
  11531480185077760324,
  11531489112068219074,
  9226217711561605444,
  9226217848899920194,
  9226208915468583364,
  9226191467063304514,
  9226217711562129604,
  9226217851046879554,
  9226208915469631684,
  9226200263155802434,
  9226200119376609604,
  9226200256714924354,
  9226200119376085444,
  9226191462769385794,
  9226191327577506244,
  9226191464915820994,
  9226191329724989764,
  9226209052806898114,
  9226191325430546884,
  9226191462768861634,
  9226191325431071044,
  9226200256714400194,
  9226191327578554564,
  9226200261008318914,
  9226191329725513924,
  9226209054953857474,
  11531498049894096964,
  11531498049894096964,
  11531489255948558404,
  11531489255948558404,
  11531498047747137604,
  11531498047747137604,
  11531489251654639684,
  11531480459856060484,
  11531480457709101124,
  11531480457709101124,
  11531480459856060484,
  11531489251654639684,
  11531498049893572804,
  11531498049893572804,
  11531489255948034244,
  11531489255948034244,
  11531498047746089284,
  11531498045599654084,
  11531489251653067204,
  11531471663763038404,
  11531480457707528644,
  11531471661616079044,
  11531480459855012164,
  11531489249507156164,
  9226217986338857284,
  9226217986338857284,
  9226209190245835204,
  9226191604502241604,
  9226217986339381444,
  9226217988485816644,
  9226209190246883524,
  9226200400594739524,
  9226200394153861444,
  9226200394153861444,
  9226200394153337284,
  9226191600208322884,
  9226191602354758084,
  9226191602354758084,
  9226191604502241604,
  9226209190245835204,
  9226191600207798724,
  9226191600207798724,
  9226191600208322884,
  9226200394153337284,
  9226191602355806404,
  9226200398447256004,
  9226191604502765764,
  9226209192392794564,
  11531497912455143494,
  11531497637677899844,
  11531489118509604934,
  11531488843732361284,
  11531497910308184134,
  11531497635530940484,
  11531489114215686214,
  11531480047639863364,
  11531480320270147654,
  11531480045492904004,
  11531480322417107014,
  11531488839438442564,
  11531497912454619334,
  11531497637677375684,
  11531489118509080774,
  11531488843731837124,
  11531497910307135814,
  11531497633383456964,
  11531489114214113734,
  11531471251546841284,
  11531480320268575174,
  11531471249399881924,
  11531480322416058694,
  11531488837290959044,
  9226217848899903814,
  9226217574122660164,
  9226209052806881734,
  9226191192286044484,
  9226217848900427974,
  9226217576269619524,
  9226209052807930054,
  9226199988378542404,
  9226200256714907974,
  9226199981937664324,
  9226200256714383814,
  9226191187992125764,
  9226191464915804614,
  9226191190138560964,
  9226191467063288134,
  9226208778029638084,
  9226191462768845254,
  9226191187991601604,
  9226191462769369414,
  9226199981937140164,
  9226191464916852934,
  9226199986231058884,
  9226191467063812294,
  9226208780176597444,
  11531498049894105154,
  11531498049927643204,
  11531489255948566594,
  11531489255982104644,
  11531498047747145794,
  11531498047780683844,
  11531489251654647874,
  11531480459889606724,
  11531480457709109314,
  11531480457742647364,
  11531480459856068674,
  11531489251688185924,
  11531498049893580994,
  11531498049927119044,
  11531489255948042434,
  11531489255981580484,
  11531498047746097474,
  11531498045633200324,
  11531489251653075394,
  11531471663796584644,
  11531480457707536834,
  11531471661649625284,
  11531480459855020354,
  11531489249540702404,
  9226217986338865474,
  9226217986372403524,
  9226209190245843394,
  9226191604535787844,
  9226217986339389634,
  9226217988519362884,
  9226209190246891714,
  9226200400628285764,
  9226200394153869634,
  9226200394187407684,
  9226200394153345474,
  9226191600241869124,
  9226191602354766274,
  9226191602388304324,
  9226191604502249794,
  9226209190279381444,
  9226191600207806914,
  9226191600241344964,
  9226191600208331074,
  9226200394186883524,
  9226191602355814594,
  9226200398480802244,
  9226191604502773954,
  9226209192426340804,
  11531497912455159874,
  11531497775116845124,
  11531489118509621314,
  11531488981171306564,
  11531497910308200514,
  11531497772969885764,
  11531489114215702594,
  11531480185078808644,
  11531480320270164034,
  11531480182931849284,
  11531480322417123394,
  11531488976877387844,
  11531497912454635714,
  11531497775116320964,
  11531489118509097154,
  11531488981170782404,
  11531497910307152194,
  11531497770822402244,
  11531489114214130114,
  11531471388985786564,
  11531480320268591554,
  11531471386838827204,
  11531480322416075074,
  11531488974729904324,
  9226217848899920194,
  9226217711561605444,
  9226209052806898114,
  9226191329724989764,
  9226217848900444354,
  9226217713708564804,
  9226209052807946434,
  9226200125817487684,
  9226200256714924354,
  9226200119376609604,
  9226200256714400194,
  9226191325431071044,
  9226191464915820994,
  9226191327577506244,
  9226191467063304514,
  9226208915468583364,
  9226191462768861634,
  9226191325430546884,
  9226191462769385794,
  9226200119376085444,
  9226191464916869314,
  9226200123670004164,
  9226191467063828674,
  9226208917615542724,
  11531497775016206404,
  11531497775016206404,
  11531488981070667844,
  11531488981070667844,
  11531497772869247044,
  11531497772869247044,
  11531488976776749124,
  11531480184978169924,
  11531480182831210564,
  11531480182831210564,
  11531480184978169924,
  11531488976776749124,
  11531497775015682244,
  11531497775015682244,
  11531488981070143684,
  11531488981070143684,
  11531497772868198724,
  11531497770721763524,
  11531488976775176644,
  11531471388885147844,
  11531480182829638084,
  11531471386738188484,
  11531480184977121604,
  11531488974629265604,
  9226217711460966724,
  9226217711460966724,
  9226208915367944644,
  9226191329624351044,
  9226217711461490884,
  9226217713607926084,
  9226208915368992964,
  9226200125716848964]
def T4_quad_cert_2 : List Nat := [9226200119275970884,
  9226200119275970884,
  9226200119275446724,
  9226191325330432324,
  9226191327476867524,
  9226191327476867524,
  9226191329624351044,
  9226208915367944644,
  9226191325329908164,
  9226191325329908164,
  9226191325330432324,
  9226200119275446724,
  9226191327477915844,
  9226200123569365444,
  9226191329624875204,
  9226208917514904004,
  11531497775016198214,
  11531497637610807364,
  11531488981070659654,
  11531488843665268804,
  11531497772869238854,
  11531497635463848004,
  11531488976776740934,
  11531480047572770884,
  11531480182831202374,
  11531480045425811524,
  11531480184978161734,
  11531488839371350084,
  11531497775015674054,
  11531497637610283204,
  11531488981070135494,
  11531488843664744644,
  11531497772868190534,
  11531497633316364484,
  11531488976775168454,
  11531471251479748804,
  11531480182829629894,
  11531471249332789444,
  11531480184977113414,
  11531488837223866564,
  9226217711460958534,
  9226217574055567684,
  9226208915367936454,
  9226191192218952004,
  9226217711461482694,
  9226217576202527044,
  9226208915368984774,
  9226199988311449924,
  9226200119275962694,
  9226199981870571844,
  9226200119275438534,
  9226191187925033284,
  9226191327476859334,
  9226191190071468484,
  9226191329624342854,
  9226208777962545604,
  9226191325329899974,
  9226191187924509124,
  9226191325330424134,
  9226199981870047684,
  9226191327477907654,
  9226199986163966404,
  9226191329624867014,
  9226208780109504964,
  11531497637644345414,
  11531497637644345414,
  11531488843698806854,
  11531488843698806854,
  11531497635497386054,
  11531497635497386054,
  11531488839404888134,
  11531480047606308934,
  11531480045459349574,
  11531480045459349574,
  11531480047606308934,
  11531488839404888134,
  11531497637643821254,
  11531497637643821254,
  11531488843698282694,
  11531488843698282694,
  11531497635496337734,
  11531497633349902534,
  11531488839403315654,
  11531471251513286854,
  11531480045457777094,
  11531471249366327494,
  11531480047605260614,
  11531488837257404614,
  9226217574089105734,
  9226217574089105734,
  9226208777996083654,
  9226191192252490054,
  9226217574089629894,
  9226217576236065094,
  9226208777997131974,
  9226199988344987974,
  9226199981904109894,
  9226199981904109894,
  9226199981903585734,
  9226191187958571334,
  9226191190105006534,
  9226191190105006534,
  9226191192252490054,
  9226208777996083654,
  9226191187958047174,
  9226191187958047174,
  9226191187958571334,
  9226199981903585734,
  9226191190106054854,
  9226199986197504454,
  9226191192253014214,
  9226208780143043014,
  11531497637677899844,
  11531497912455143494,
  11531488843732361284,
  11531489118509604934,
  11531497635530940484,
  11531497910308184134,
  11531488839438442564,
  11531480322417107014,
  11531480045492904004,
  11531480320270147654,
  11531480047639863364,
  11531489114215686214,
  11531497637677375684,
  11531497912454619334,
  11531488843731837124,
  11531489118509080774,
  11531497635529892164,
  11531497908160700614,
  11531488839436870084,
  11531471526324084934,
  11531480045491331524,
  11531471524177125574,
  11531480047638815044,
  11531489112068202694,
  9226217574122660164,
  9226217848899903814,
  9226208778029638084,
  9226191467063288134,
  9226217574123184324,
  9226217851046863174,
  9226208778030686404,
  9226200263155786054,
  9226199981937664324,
  9226200256714907974,
  9226199981937140164,
  9226191462769369414,
  9226191190138560964,
  9226191464915804614,
  9226191192286044484,
  9226209052806881734,
  9226191187991601604,
  9226191462768845254,
  9226191187992125764,
  9226200256714383814,
  9226191190139609284,
  9226200261008302534,
  9226191192286568644,
  9226209054953841094,
  11531497637610799174,
  11531497637610799174,
  11531488843665260614,
  11531488843665260614,
  11531497635463839814,
  11531497635463839814,
  11531488839371341894,
  11531480047572762694,
  11531480045425803334,
  11531480045425803334,
  11531480047572762694,
  11531488839371341894,
  11531497637610275014,
  11531497637610275014,
  11531488843664736454,
  11531488843664736454,
  11531497635462791494,
  11531497633316356294,
  11531488839369769414,
  11531471251479740614,
  11531480045424230854,
  11531471249332781254,
  11531480047571714374,
  11531488837223858374,
  9226217574055559494,
  9226217574055559494,
  9226208777962537414,
  9226191192218943814,
  9226217574056083654,
  9226217576202518854,
  9226208777963585734,
  9226199988311441734,
  9226199981870563654,
  9226199981870563654,
  9226199981870039494,
  9226191187925025094,
  9226191190071460294,
  9226191190071460294,
  9226191192218943814,
  9226208777962537414,
  9226191187924500934,
  9226191187924500934,
  9226191187925025094,
  9226199981870039494,
  9226191190072508614,
  9226199986163958214,
  9226191192219467974,
  9226208780109496774,
  11531497637610807364,
  11531497775016198214,
  11531488843665268804,
  11531488981070659654,
  11531497635463848004,
  11531497772869238854,
  11531488839371350084,
  11531480184978161734,
  11531480045425811524,
  11531480182831202374,
  11531480047572770884,
  11531488976776740934,
  11531497637610283204,
  11531497775015674054,
  11531488843664744644,
  11531488981070135494,
  11531497635462799684,
  11531497770721755334,
  11531488839369777604,
  11531471388885139654,
  11531480045424239044,
  11531471386738180294,
  11531480047571722564,
  11531488974629257414,
  9226217574055567684,
  9226217711460958534,
  9226208777962545604,
  9226191329624342854,
  9226217574056091844,
  9226217713607917894,
  9226208777963593924,
  9226200125716840774,
  9226199981870571844,
  9226200119275962694,
  9226199981870047684,
  9226191325330424134,
  9226191190071468484,
  9226191327476859334,
  9226191192218952004,
  9226208915367936454,
  9226191187924509124,
  9226191325329899974,
  9226191187925033284,
  9226200119275438534,
  9226191190072516804,
  9226200123569357254,
  9226191192219476164,
  9226208917514895814,
  11531497637644361794,
  11531497775083290694,
  11531488843698823234,
  11531488981137752134,
  11531497635497402434,
  11531497772936331334,
  11531488839404904514,
  11531480185045254214,
  11531480045459365954,
  11531480182898294854,
  11531480047606325314,
  11531488976843833414,
  11531497637643837634,
  11531497775082766534,
  11531488843698299074,
  11531488981137227974,
  11531497635496354114,
  11531497770788847814,
  11531488839403332034,
  11531471388952232134,
  11531480045457793474,
  11531471386805272774,
  11531480047605276994,
  11531488974696349894,
  9226217574089122114,
  9226217711528051014,
  9226208777996100034,
  9226191329691435334,
  9226217574089646274,
  9226217713675010374,
  9226208777997148354,
  9226200125783933254,
  9226199981904126274,
  9226200119343055174,
  9226199981903602114,
  9226191325397516614,
  9226191190105022914,
  9226191327543951814,
  9226191192252506434,
  9226208915435028934,
  9226191187958063554,
  9226191325396992454,
  9226191187958587714,
  9226200119342531014,
  9226191190106071234,
  9226200123636449734,
  9226191192253030594,
  9226208917581988294,
  11531497637677908034,
  11531497912488689734,
  11531488843732369474,
  11531489118543151174,
  11531497635530948674,
  11531497910341730374,
  11531488839438450754,
  11531480322450653254,
  11531480045492912194,
  11531480320303693894,
  11531480047639871554,
  11531489114249232454,
  11531497637677383874,
  11531497912488165574,
  11531488843731845314,
  11531489118542627014,
  11531497635529900354,
  11531497908194246854,
  11531488839436878274,
  11531471526357631174,
  11531480045491339714,
  11531471524210671814,
  11531480047638823234,
  11531489112101748934,
  9226217574122668354,
  9226217848933450054,
  9226208778029646274,
  9226191467096834374,
  9226217574123192514,
  9226217851080409414,
  9226208778030694594,
  9226200263189332294,
  9226199981937672514,
  9226200256748454214,
  9226199981937148354,
  9226191462802915654,
  9226191190138569154,
  9226191464949350854,
  9226191192286052674,
  9226209052840427974,
  9226191187991609794,
  9226191462802391494,
  9226191187992133954,
  9226200256747930054,
  9226191190139617474,
  9226200261041848774,
  9226191192286576834,
  9226209054987387334,
  164412590478073920,
  164412590478073920,
  164403796532535360,
  164403796532535360,
  164412588331114560,
  164412588331114560,
  164403792238616640,
  164395000440037440,
  164394998293078080,
  164394998293078080,
  164395000440037440,
  164403792238616640,
  164412590477549760,
  164412590477549760,
  164403796532011200,
  164403796532011200,
  164412588330066240,
  164412586183631040,
  164403792237044160,
  164386204347015360,
  164394998291505600,
  164386202200056000,
  164395000438989120,
  164403790091133120,
  164412586183106880,
  164412586183106880,
  164403790090084800,
  164386204346491200,
  164412586183631040,
  164412588330066240,
  164403790091133120,
  164395000438989120,
  164394993998111040,
  164394993998111040,
  164394993997586880,
  164386200052572480,
  164386202199007680,
  164386202199007680,
  164386204346491200,
  164403790090084800,
  164386200052048320,
  164386200052048320,
  164386200052572480,
  164394993997586880,
  164386202200056000,
  164394998291505600,
  164386204347015360,
  164403792237044160]
def T4_quad_cert_3 : List Nat := [164412453072674880,
  164412453072674880,
  164403659127136320,
  164403659127136320,
  164412450925715520,
  164412450925715520,
  164403654833217600,
  164394863034638400,
  164394860887679040,
  164394860887679040,
  164394863034638400,
  164403654833217600,
  164412453072150720,
  164412453072150720,
  164403659126612160,
  164403659126612160,
  164412450924667200,
  164412448778232000,
  164403654831645120,
  164386066941616320,
  164394860886106560,
  164386064794656960,
  164394863033590080,
  164403652685734080,
  164412448777707840,
  164412448777707840,
  164403652684685760,
  164386066941092160,
  164412448778232000,
  164412450924667200,
  164403652685734080,
  164394863033590080,
  164394856592712000,
  164394856592712000,
  164394856592187840,
  164386062647173440,
  164386064793608640,
  164386064793608640,
  164386066941092160,
  164403652684685760,
  164386062646649280,
  164386062646649280,
  164386062647173440,
  164394856592187840,
  164386064794656960,
  164394860886106560,
  164386066941616320,
  164403654831645120,
  164412590444527680,
  164412590444527680,
  164403796498989120,
  164403796498989120,
  164412588297568320,
  164412588297568320,
  164403792205070400,
  164395000406491200,
  164394998259531840,
  164394998259531840,
  164395000406491200,
  164403792205070400,
  164412590444003520,
  164412590444003520,
  164403796498464960,
  164403796498464960,
  164412588296520000,
  164412586150084800,
  164403792203497920,
  164386204313469120,
  164394998257959360,
  164386202166509760,
  164395000405442880,
  164403790057586880,
  164412586149560640,
  164412586149560640,
  164403790056538560,
  164386204312944960,
  164412586150084800,
  164412588296520000,
  164403790057586880,
  164395000405442880,
  164394993964564800,
  164394993964564800,
  164394993964040640,
  164386200019026240,
  164386202165461440,
  164386202165461440,
  164386204312944960,
  164403790056538560,
  164386200018502080,
  164386200018502080,
  164386200019026240,
  164394993964040640,
  164386202166509760,
  164394998257959360,
  164386204313469120,
  164403792203497920,
  164412453005582400,
  164412315633729600,
  164403659060043840,
  164403521688191040,
  164412450858623040,
  164412313486770240,
  164403654766125120,
  164394725595693120,
  164394860820586560,
  164394723448733760,
  164394862967545920,
  164403517394272320,
  164412453005058240,
  164412315633205440,
  164403659059519680,
  164403521687666880,
  164412450857574720,
  164412311339286720,
  164403654764552640,
  164385929502671040,
  164394860819014080,
  164385927355711680,
  164394862966497600,
  164403515246788800,
  164412448710615360,
  164412311338762560,
  164403652617593280,
  164385929502146880,
  164412448711139520,
  164412313485721920,
  164403652618641600,
  164394725594644800,
  164394856525619520,
  164394719153766720,
  164394856525095360,
  164385925208228160,
  164386064726516160,
  164385927354663360,
  164386066873999680,
  164403515245740480,
  164386062579556800,
  164385925207704000,
  164386062580080960,
  164394719153242560,
  164386064727564480,
  164394723447161280,
  164386066874523840,
  164403517392699840,
  164412315600183360,
  164412315600183360,
  164403521654644800,
  164403521654644800,
  164412313453224000,
  164412313453224000,
  164403517360726080,
  164394725562146880,
  164394723415187520,
  164394723415187520,
  164394725562146880,
  164403517360726080,
  164412315599659200,
  164412315599659200,
  164403521654120640,
  164403521654120640,
  164412313452175680,
  164412311305740480,
  164403517359153600,
  164385929469124800,
  164394723413615040,
  164385927322165440,
  164394725561098560,
  164403515213242560,
  164412311305216320,
  164412311305216320,
  164403515212194240,
  164385929468600640,
  164412311305740480,
  164412313452175680,
  164403515213242560,
  164394725561098560,
  164394719120220480,
  164394719120220480,
  164394719119696320,
  164385925174681920,
  164385927321117120,
  164385927321117120,
  164385929468600640,
  164403515212194240,
  164385925174157760,
  164385925174157760,
  164385925174681920,
  164394719119696320,
  164385927322165440,
  164394723413615040,
  164385929469124800,
  164403517359153600,
  164412315633729600,
  164412453005582400,
  164403521688191040,
  164403659060043840,
  164412313486770240,
  164412450858623040,
  164403517394272320,
  164394862967545920,
  164394723448733760,
  164394860820586560,
  164394725595693120,
  164403654766125120,
  164412315633205440,
  164412453005058240,
  164403521687666880,
  164403659059519680,
  164412313485721920,
  164412448711139520,
  164403517392699840,
  164386066874523840,
  164394723447161280,
  164386064727564480,
  164394725594644800,
  164403652618641600,
  164412311338762560,
  164412448710615360,
  164403515245740480,
  164386066873999680,
  164412311339286720,
  164412450857574720,
  164403515246788800,
  164394862966497600,
  164394719153766720,
  164394856525619520,
  164394719153242560,
  164386062580080960,
  164385927354663360,
  164386064726516160,
  164385929502146880,
  164403652617593280,
  164385925207704000,
  164386062579556800,
  164385925208228160,
  164394856525095360,
  164385927355711680,
  164394860819014080,
  164385929502671040,
  164403654764552640,
  164412590478065730,
  164412590478065730,
  164403796532527170,
  164403796532527170,
  164412588331106370,
  164412588331106370,
  164403792238608450,
  164395000440029250,
  164394998293069890,
  164394998293069890,
  164395000440029250,
  164403792238608450,
  164412590477541570,
  164412590477541570,
  164403796532003010,
  164403796532003010,
  164412588330058050,
  164412586183622850,
  164403792237035970,
  164386204347007170,
  164394998291497410,
  164386202200047810,
  164395000438980930,
  164403790091124930,
  164412586183098690,
  164412586183098690,
  164403790090076610,
  164386204346483010,
  164412586183622850,
  164412588330058050,
  164403790091124930,
  164395000438980930,
  164394993998102850,
  164394993998102850,
  164394993997578690,
  164386200052564290,
  164386202198999490,
  164386202198999490,
  164386204346483010,
  164403790090076610,
  164386200052040130,
  164386200052040130,
  164386200052564290,
  164394993997578690,
  164386202200047810,
  164394998291497410,
  164386204347007170,
  164403792237035970,
  164412453072666690,
  164412453072666690,
  164403659127128130,
  164403659127128130,
  164412450925707330,
  164412450925707330,
  164403654833209410,
  164394863034630210,
  164394860887670850,
  164394860887670850,
  164394863034630210,
  164403654833209410,
  164412453072142530,
  164412453072142530,
  164403659126603970,
  164403659126603970,
  164412450924659010,
  164412448778223810,
  164403654831636930,
  164386066941608130,
  164394860886098370,
  164386064794648770,
  164394863033581890,
  164403652685725890,
  164412448777699650,
  164412448777699650,
  164403652684677570,
  164386066941083970,
  164412448778223810,
  164412450924659010,
  164403652685725890,
  164394863033581890,
  164394856592703810,
  164394856592703810,
  164394856592179650,
  164386062647165250,
  164386064793600450,
  164386064793600450,
  164386066941083970,
  164403652684677570,
  164386062646641090,
  164386062646641090,
  164386062647165250,
  164394856592179650,
  164386064794648770,
  164394860886098370,
  164386066941608130,
  164403654831636930,
  164412590444511300,
  164412590410973250,
  164403796498972740,
  164403796465434690,
  164412588297551940,
  164412588264013890,
  164403792205054020,
  164395000372936770,
  164394998259515460,
  164394998225977410,
  164395000406474820,
  164403792171515970,
  164412590443987140,
  164412590410449090,
  164403796498448580,
  164403796464910530,
  164412588296503620,
  164412586116530370,
  164403792203481540,
  164386204279914690,
  164394998257942980,
  164386202132955330,
  164395000405426500,
  164403790024032450,
  164412586149544260,
  164412586116006210,
  164403790056522180,
  164386204279390530,
  164412586150068420,
  164412588262965570,
  164403790057570500,
  164395000371888450,
  164394993964548420,
  164394993931010370,
  164394993964024260,
  164386199985471810,
  164386202165445060,
  164386202131907010,
  164386204312928580,
  164403790022984130,
  164386200018485700,
  164386199984947650,
  164386200019009860,
  164394993930486210,
  164386202166493380,
  164394998224404930,
  164386204313452740,
  164403792169943490,
  164412453005557830,
  164412178194776130,
  164403659060019270,
  164403384249237570,
  164412450858598470,
  164412176047816770,
  164403654766100550,
  164394588156739650,
  164394860820561990,
  164394586009780290,
  164394862967521350,
  164403379955318850,
  164412453005033670,
  164412178194251970,
  164403659059495110,
  164403384248713410]
def T4_quad_cert_4 : List Nat := [164412450857550150,
  164412173900333250,
  164403654764528070,
  164385792063717570,
  164394860818989510,
  164385789916758210,
  164394862966473030,
  164403377807835330,
  164412448710590790,
  164412173899809090,
  164403652617568710,
  164385792063193410,
  164412448711114950,
  164412176046768450,
  164403652618617030,
  164394588155691330,
  164394856525594950,
  164394581714813250,
  164394856525070790,
  164385787769274690,
  164386064726491590,
  164385789915709890,
  164386066873975110,
  164403377806787010,
  164386062579532230,
  164385787768750530,
  164386062580056390,
  164394581714289090,
  164386064727539910,
  164394586008207810,
  164386066874499270,
  164403379953746370,
  164412315600158790,
  164412178161229890,
  164403521654620230,
  164403384215691330,
  164412313453199430,
  164412176014270530,
  164403517360701510,
  164394588123193410,
  164394723415162950,
  164394585976234050,
  164394725562122310,
  164403379921772610,
  164412315599634630,
  164412178160705730,
  164403521654096070,
  164403384215167170,
  164412313452151110,
  164412173866787010,
  164403517359129030,
  164385792030171330,
  164394723413590470,
  164385789883211970,
  164394725561073990,
  164403377774289090,
  164412311305191750,
  164412173866262850,
  164403515212169670,
  164385792029647170,
  164412311305715910,
  164412176013222210,
  164403515213217990,
  164394588122145090,
  164394719120195910,
  164394581681267010,
  164394719119671750,
  164385787735728450,
  164385927321092550,
  164385789882163650,
  164385929468576070,
  164403377773240770,
  164385925174133190,
  164385787735204290,
  164385925174657350,
  164394581680742850,
  164385927322140870,
  164394585974661570,
  164385929469100230,
  164403379920200130,
  164412315633713220,
  164412452972027970,
  164403521688174660,
  164403659026489410,
  164412313486753860,
  164412450825068610,
  164403517394255940,
  164394862933991490,
  164394723448717380,
  164394860787032130,
  164394725595676740,
  164403654732570690,
  164412315633189060,
  164412452971503810,
  164403521687650500,
  164403659025965250,
  164412313485705540,
  164412448677585090,
  164403517392683460,
  164386066840969410,
  164394723447144900,
  164386064694010050,
  164394725594628420,
  164403652585087170,
  164412311338746180,
  164412448677060930,
  164403515245724100,
  164386066840445250,
  164412311339270340,
  164412450824020290,
  164403515246772420,
  164394862932943170,
  164394719153750340,
  164394856492065090,
  164394719153226180,
  164386062546526530,
  164385927354646980,
  164386064692961730,
  164385929502130500,
  164403652584038850,
  164385925207687620,
  164386062546002370,
  164385925208211780,
  164394856491540930,
  164385927355695300,
  164394860785459650,
  164385929502654660,
  164403654730998210,
  164412590410965060,
  164412590410965060,
  164403796465426500,
  164403796465426500,
  164412588264005700,
  164412588264005700,
  164403792171507780,
  164395000372928580,
  164394998225969220,
  164394998225969220,
  164395000372928580,
  164403792171507780,
  164412590410440900,
  164412590410440900,
  164403796464902340,
  164403796464902340,
  164412588262957380,
  164412586116522180,
  164403792169935300,
  164386204279906500,
  164394998224396740,
  164386202132947140,
  164395000371880260,
  164403790024024260,
  164412586115998020,
  164412586115998020,
  164403790022975940,
  164386204279382340,
  164412586116522180,
  164412588262957380,
  164403790024024260,
  164395000371880260,
  164394993931002180,
  164394993931002180,
  164394993930478020,
  164386199985463620,
  164386202131898820,
  164386202131898820,
  164386204279382340,
  164403790022975940,
  164386199984939460,
  164386199984939460,
  164386199985463620,
  164394993930478020,
  164386202132947140,
  164394998224396740,
  164386204279906500,
  164403792169935300,
  164412452972011590,
  164412178194767940,
  164403659026473030,
  164403384249229380,
  164412450825052230,
  164412176047808580,
  164403654732554310,
  164394588156731460,
  164394860787015750,
  164394586009772100,
  164394862933975110,
  164403379955310660,
  164412452971487430,
  164412178194243780,
  164403659025948870,
  164403384248705220,
  164412450824003910,
  164412173900325060,
  164403654730981830,
  164385792063709380,
  164394860785443270,
  164385789916750020,
  164394862932926790,
  164403377807827140,
  164412448677044550,
  164412173899800900,
  164403652584022470,
  164385792063185220,
  164412448677568710,
  164412176046760260,
  164403652585070790,
  164394588155683140,
  164394856492048710,
  164394581714805060,
  164394856491524550,
  164385787769266500,
  164386064692945350,
  164385789915701700,
  164386066840428870,
  164403377806778820,
  164386062545985990,
  164385787768742340,
  164386062546510150,
  164394581714280900,
  164386064693993670,
  164394586008199620,
  164386066840953030,
  164403379953738180,
  164412590410973250,
  164412590444511300,
  164403796465434690,
  164403796498972740,
  164412588264013890,
  164412588297551940,
  164403792171515970,
  164395000406474820,
  164394998225977410,
  164394998259515460,
  164395000372936770,
  164403792205054020,
  164412590410449090,
  164412590443987140,
  164403796464910530,
  164403796498448580,
  164412588262965570,
  164412586150068420,
  164403792169943490,
  164386204313452740,
  164394998224404930,
  164386202166493380,
  164395000371888450,
  164403790057570500,
  164412586116006210,
  164412586149544260,
  164403790022984130,
  164386204312928580,
  164412586116530370,
  164412588296503620,
  164403790024032450,
  164395000405426500,
  164394993931010370,
  164394993964548420,
  164394993930486210,
  164386200019009860,
  164386202131907010,
  164386202165445060,
  164386204279390530,
  164403790056522180,
  164386199984947650,
  164386200018485700,
  164386199985471810,
  164394993964024260,
  164386202132955330,
  164394998257942980,
  164386204279914690,
  164403792203481540,
  164412452972027970,
  164412315633713220,
  164403659026489410,
  164403521688174660,
  164412450825068610,
  164412313486753860,
  164403654732570690,
  164394725595676740,
  164394860787032130,
  164394723448717380,
  164394862933991490,
  164403517394255940,
  164412452971503810,
  164412315633189060,
  164403659025965250,
  164403521687650500,
  164412450824020290,
  164412311339270340,
  164403654730998210,
  164385929502654660,
  164394860785459650,
  164385927355695300,
  164394862932943170,
  164403515246772420,
  164412448677060930,
  164412311338746180,
  164403652584038850,
  164385929502130500,
  164412448677585090,
  164412313485705540,
  164403652585087170,
  164394725594628420,
  164394856492065090,
  164394719153750340,
  164394856491540930,
  164385925208211780,
  164386064692961730,
  164385927354646980,
  164386066840445250,
  164403515245724100,
  164386062546002370,
  164385925207687620,
  164386062546526530,
  164394719153226180,
  164386064694010050,
  164394723447144900,
  164386066840969410,
  164403517392683460,
  164412315533074500,
  164412315533074500,
  164403521587535940,
  164403521587535940,
  164412313386115140,
  164412313386115140,
  164403517293617220,
  164394725495038020,
  164394723348078660,
  164394723348078660,
  164394725495038020,
  164403517293617220,
  164412315532550340,
  164412315532550340,
  164403521587011780,
  164403521587011780,
  164412313385066820,
  164412311238631620,
  164403517292044740,
  164385929402015940,
  164394723346506180,
  164385927255056580,
  164394725493989700,
  164403515146133700,
  164412311238107460,
  164412311238107460,
  164403515145085380,
  164385929401491780,
  164412311238631620,
  164412313385066820,
  164403515146133700,
  164394725493989700,
  164394719053111620,
  164394719053111620,
  164394719052587460,
  164385925107573060,
  164385927254008260,
  164385927254008260,
  164385929401491780,
  164403515145085380,
  164385925107048900,
  164385925107048900,
  164385925107573060,
  164394719052587460,
  164385927255056580,
  164394723346506180,
  164385929402015940,
  164403517292044740,
  164412315533066310,
  164412178127675460,
  164403521587527750,
  164403384182136900,
  164412313386106950,
  164412175980716100,
  164403517293609030,
  164394588089638980,
  164394723348070470,
  164394585942679620,
  164394725495029830,
  164403379888218180,
  164412315532542150,
  164412178127151300,
  164403521587003590,
  164403384181612740,
  164412313385058630,
  164412173833232580,
  164403517292036550,
  164385791996616900,
  164394723346497990,
  164385789849657540,
  164394725493981510,
  164403377740734660,
  164412311238099270,
  164412173832708420,
  164403515145077190,
  164385791996092740,
  164412311238623430,
  164412175979667780,
  164403515146125510,
  164394588088590660]
def T4_quad_cert_5 : List Nat := [164394719053103430,
  164394581647712580,
  164394719052579270,
  164385787702174020,
  164385927254000070,
  164385789848609220,
  164385929401483590,
  164403377739686340,
  164385925107040710,
  164385787701649860,
  164385925107564870,
  164394581647188420,
  164385927255048390,
  164394585941107140,
  164385929402007750,
  164403379886645700,
  164412178161213510,
  164412178161213510,
  164403384215674950,
  164403384215674950,
  164412176014254150,
  164412176014254150,
  164403379921756230,
  164394588123177030,
  164394585976217670,
  164394585976217670,
  164394588123177030,
  164403379921756230,
  164412178160689350,
  164412178160689350,
  164403384215150790,
  164403384215150790,
  164412176013205830,
  164412173866770630,
  164403379920183750,
  164385792030154950,
  164394585974645190,
  164385789883195590,
  164394588122128710,
  164403377774272710,
  164412173866246470,
  164412173866246470,
  164403377773224390,
  164385792029630790,
  164412173866770630,
  164412176013205830,
  164403377774272710,
  164394588122128710,
  164394581681250630,
  164394581681250630,
  164394581680726470,
  164385787735712070,
  164385789882147270,
  164385789882147270,
  164385792029630790,
  164403377773224390,
  164385787735187910,
  164385787735187910,
  164385787735712070,
  164394581680726470,
  164385789883195590,
  164394585974645190,
  164385792030154950,
  164403379920183750,
  164412178194767940,
  164412452972011590,
  164403384249229380,
  164403659026473030,
  164412176047808580,
  164412450825052230,
  164403379955310660,
  164394862933975110,
  164394586009772100,
  164394860787015750,
  164394588156731460,
  164403654732554310,
  164412178194243780,
  164412452971487430,
  164403384248705220,
  164403659025948870,
  164412176046760260,
  164412448677568710,
  164403379953738180,
  164386066840953030,
  164394586008199620,
  164386064693993670,
  164394588155683140,
  164403652585070790,
  164412173899800900,
  164412448677044550,
  164403377806778820,
  164386066840428870,
  164412173900325060,
  164412450824003910,
  164403377807827140,
  164394862932926790,
  164394581714805060,
  164394856492048710,
  164394581714280900,
  164386062546510150,
  164385789915701700,
  164386064692945350,
  164385792063185220,
  164403652584022470,
  164385787768742340,
  164386062545985990,
  164385787769266500,
  164394856491524550,
  164385789916750020,
  164394860785443270,
  164385792063709380,
  164403654730981830,
  164412178127667270,
  164412178127667270,
  164403384182128710,
  164403384182128710,
  164412175980707910,
  164412175980707910,
  164403379888209990,
  164394588089630790,
  164394585942671430,
  164394585942671430,
  164394588089630790,
  164403379888209990,
  164412178127143110,
  164412178127143110,
  164403384181604550,
  164403384181604550,
  164412175979659590,
  164412173833224390,
  164403379886637510,
  164385791996608710,
  164394585941098950,
  164385789849649350,
  164394588088582470,
  164403377740726470,
  164412173832700230,
  164412173832700230,
  164403377739678150,
  164385791996084550,
  164412173833224390,
  164412175979659590,
  164403377740726470,
  164394588088582470,
  164394581647704390,
  164394581647704390,
  164394581647180230,
  164385787702165830,
  164385789848601030,
  164385789848601030,
  164385791996084550,
  164403377739678150,
  164385787701641670,
  164385787701641670,
  164385787702165830,
  164394581647180230,
  164385789849649350,
  164394585941098950,
  164385791996608710,
  164403379886637510,
  164412178127675460,
  164412315533066310,
  164403384182136900,
  164403521587527750,
  164412175980716100,
  164412313386106950,
  164403379888218180,
  164394725495029830,
  164394585942679620,
  164394723348070470,
  164394588089638980,
  164403517293609030,
  164412178127151300,
  164412315532542150,
  164403384181612740,
  164403521587003590,
  164412175979667780,
  164412311238623430,
  164403379886645700,
  164385929402007750,
  164394585941107140,
  164385927255048390,
  164394588088590660,
  164403515146125510,
  164412173832708420,
  164412311238099270,
  164403377739686340,
  164385929401483590,
  164412173833232580,
  164412313385058630,
  164403377740734660,
  164394725493981510,
  164394581647712580,
  164394719053103430,
  164394581647188420,
  164385925107564870,
  164385789848609220,
  164385927254000070,
  164385791996092740,
  164403515145077190,
  164385787701649860,
  164385925107040710,
  164385787702174020,
  164394719052579270,
  164385789849657540,
  164394723346497990,
  164385791996616900,
  164403517292036550,
  164412178161229890,
  164412315600158790,
  164403384215691330,
  164403521654620230,
  164412176014270530,
  164412313453199430,
  164403379921772610,
  164394725562122310,
  164394585976234050,
  164394723415162950,
  164394588123193410,
  164403517360701510,
  164412178160705730,
  164412315599634630,
  164403384215167170,
  164403521654096070,
  164412176013222210,
  164412311305715910,
  164403379920200130,
  164385929469100230,
  164394585974661570,
  164385927322140870,
  164394588122145090,
  164403515213217990,
  164412173866262850,
  164412311305191750,
  164403377773240770,
  164385929468576070,
  164412173866787010,
  164412313452151110,
  164403377774289090,
  164394725561073990,
  164394581681267010,
  164394719120195910,
  164394581680742850,
  164385925174657350,
  164385789882163650,
  164385927321092550,
  164385792029647170,
  164403515212169670,
  164385787735204290,
  164385925174133190,
  164385787735728450,
  164394719119671750,
  164385789883211970,
  164394723413590470,
  164385792030171330,
  164403517359129030,
  164412178194776130,
  164412453005557830,
  164403384249237570,
  164403659060019270,
  164412176047816770,
  164412450858598470,
  164403379955318850,
  164394862967521350,
  164394586009780290,
  164394860820561990,
  164394588156739650,
  164403654766100550,
  164412178194251970,
  164412453005033670,
  164403384248713410,
  164403659059495110,
  164412176046768450,
  164412448711114950,
  164403379953746370,
  164386066874499270,
  164394586008207810,
  164386064727539910,
  164394588155691330,
  164403652618617030,
  164412173899809090,
  164412448710590790,
  164403377806787010,
  164386066873975110,
  164412173900333250,
  164412450857550150,
  164403377807835330,
  164394862966473030,
  164394581714813250,
  164394856525594950,
  164394581714289090,
  164386062580056390,
  164385789915709890,
  164386064726491590,
  164385792063193410,
  164403652617568710,
  164385787768750530,
  164386062579532230,
  164385787769274690,
  164394856525070790,
  164385789916758210,
  164394860818989510,
  164385792063717570,
  164403654764528070,
  811818900033884659776,
  811818900033884659776,
  811818891239939121216,
  811818891239939121216,
  811818900031737700416,
  811818900031737700416,
  811818891235645202496,
  811818882443846623296,
  811818882441699663936,
  811818882441699663936,
  811818882443846623296,
  811818891235645202496,
  664280976241226686656,
  664280976241226686656,
  664280967447281148096,
  664280967447281148096,
  664280976239079203136,
  664280976236932767936,
  664280967442986181056,
  664280949855096152256,
  664280958649040642496,
  664280949852949192896,
  664280958651188126016,
  664280967440840270016,
  664280976236932243776,
  664280976236932243776,
  664280967440839221696,
  664280949855095628096,
  811818900029590216896,
  811818900031736652096,
  811818891233497718976,
  811818882443845574976,
  811818882437404696896,
  811818882437404696896,
  664280958644746723776,
  664280949850801709376,
  664280949852948144576,
  664280949852948144576,
  664280949855095628096,
  664280967440839221696,
  664280949850801185216,
  664280949850801185216,
  811818873643459158336,
  811818882437404172736,
  811818873645606641856,
  811818882441698091456,
  811818873647753601216,
  811818891235643630016,
  811818899896479260736,
  811818899896479260736,
  811818891102533722176,
  811818891102533722176,
  811818899894332301376,
  811818899894332301376,
  811818891098239803456,
  811818882306441224256,
  811818882304294264896,
  811818882304294264896,
  811818882306441224256,
  811818891098239803456,
  664280976103821287616,
  664280976103821287616,
  664280967309875749056,
  664280967309875749056,
  664280976101673804096,
  664280976099527368896,
  664280967305580782016,
  664280949717690753216,
  664280958511635243456,
  664280949715543793856,
  664280958513782726976,
  664280967303434870976,
  664280976099526844736,
  664280976099526844736,
  664280967303433822656,
  664280949717690229056,
  811818899892184817856,
  811818899894331253056,
  811818891096092319936,
  811818882306440175936,
  811818882299999297856,
  811818882299999297856,
  664280958507341324736,
  664280949713396310336,
  664280949715542745536,
  664280949715542745536,
  664280949717690229056,
  664280967303433822656,
  664280949713395786176,
  664280949713395786176,
  811818873506053759296,
  811818882299998773696,
  811818873508201242816,
  811818882304292692416,
  811818873510348202176,
  811818891098238230976]
def T4_quad_cert_6 : List Nat := [811818900033851113536,
  811818900033851113536,
  811818891239905574976,
  811818891239905574976,
  811818900031704154176,
  811818900031704154176,
  811818891235611656256,
  811818882443813077056,
  811818882441666117696,
  811818882441666117696,
  811818882443813077056,
  811818891235611656256,
  664280976241193140416,
  664280976241193140416,
  664280967447247601856,
  664280967447247601856,
  664280976239045656896,
  664280976236899221696,
  664280967442952634816,
  664280949855062606016,
  664280958649007096256,
  664280949852915646656,
  664280958651154579776,
  664280967440806723776,
  664280976236898697536,
  664280976236898697536,
  664280967440805675456,
  664280949855062081856,
  811818900029556670656,
  811818900031703105856,
  811818891233464172736,
  811818882443812028736,
  811818882437371150656,
  811818882437371150656,
  664280958644713177536,
  664280949850768163136,
  664280949852914598336,
  664280949852914598336,
  664280949855062081856,
  664280967440805675456,
  664280949850767638976,
  664280949850767638976,
  811818873643425612096,
  811818882437370626496,
  811818873645573095616,
  811818882441664545216,
  811818873647720054976,
  811818891235610083776,
  811818899896412168256,
  811818899759040315456,
  811818891102466629696,
  811818890965094776896,
  811818899894265208896,
  811818899756893356096,
  811818891098172710976,
  811818882169002278976,
  811818882304227172416,
  811818882166855319616,
  811818882306374131776,
  811818890960800858176,
  664280976103754195136,
  664280975966382342336,
  664280967309808656576,
  664280967172436803776,
  664280976101606711616,
  664280975962088423616,
  664280967305513689536,
  664280949580251807936,
  664280958511568150976,
  664280949578104848576,
  664280958513715634496,
  664280967165995925696,
  664280976099459752256,
  664280975962087899456,
  664280967303366730176,
  664280949580251283776,
  811818899892117725376,
  811818899756892307776,
  811818891096025227456,
  811818882169001230656,
  811818882299932205376,
  811818882162560352576,
  664280958507274232256,
  664280949575957365056,
  664280949715475653056,
  664280949578103800256,
  664280949717623136576,
  664280967165994877376,
  664280949713328693696,
  664280949575956840896,
  811818873505986666816,
  811818882162559828416,
  811818873508134150336,
  811818882166853747136,
  811818873510281109696,
  811818890960799285696,
  811818899759006769216,
  811818899759006769216,
  811818890965061230656,
  811818890965061230656,
  811818899756859809856,
  811818899756859809856,
  811818890960767311936,
  811818882168968732736,
  811818882166821773376,
  811818882166821773376,
  811818882168968732736,
  811818890960767311936,
  664280975966348796096,
  664280975966348796096,
  664280967172403257536,
  664280967172403257536,
  664280975964201312576,
  664280975962054877376,
  664280967168108290496,
  664280949580218261696,
  664280958374162751936,
  664280949578071302336,
  664280958376310235456,
  664280967165962379456,
  664280975962054353216,
  664280975962054353216,
  664280967165961331136,
  664280949580217737536,
  811818899754712326336,
  811818899756858761536,
  811818890958619828416,
  811818882168967684416,
  811818882162526806336,
  811818882162526806336,
  664280958369868833216,
  664280949575923818816,
  664280949578070254016,
  664280949578070254016,
  664280949580217737536,
  664280967165961331136,
  664280949575923294656,
  664280949575923294656,
  811818873368581267776,
  811818882162526282176,
  811818873370728751296,
  811818882166820200896,
  811818873372875710656,
  811818890960765739456,
  811818899759040315456,
  811818899896412168256,
  811818890965094776896,
  811818891102466629696,
  811818899756893356096,
  811818899894265208896,
  811818890960800858176,
  811818882306374131776,
  811818882166855319616,
  811818882304227172416,
  811818882169002278976,
  811818891098172710976,
  664280975966382342336,
  664280976103754195136,
  664280967172436803776,
  664280967309808656576,
  664280975964234858816,
  664280976099460276416,
  664280967168141836736,
  664280949717623660736,
  664280958374196298176,
  664280949715476701376,
  664280958376343781696,
  664280967303367778496,
  664280975962087899456,
  664280976099459752256,
  664280967165994877376,
  664280949717623136576,
  811818899754745872576,
  811818899894264160576,
  811818890958653374656,
  811818882306373083456,
  811818882162560352576,
  811818882299932205376,
  664280958369902379456,
  664280949713329217856,
  664280949578103800256,
  664280949715475653056,
  664280949580251283776,
  664280967303366730176,
  664280949575956840896,
  664280949713328693696,
  811818873368614814016,
  811818882299931681216,
  811818873370762297536,
  811818882304225599936,
  811818873372909256896,
  811818891098171138496,
  811818900033884651586,
  811818900033884651586,
  811818891239939113026,
  811818891239939113026,
  811818900031737692226,
  811818900031737692226,
  811818891235645194306,
  811818882443846615106,
  811818882441699655746,
  811818882441699655746,
  811818882443846615106,
  811818891235645194306,
  664280976241226678466,
  664280976241226678466,
  664280967447281139906,
  664280967447281139906,
  664280976239079194946,
  664280976236932759746,
  664280967442986172866,
  664280949855096144066,
  664280958649040634306,
  664280949852949184706,
  664280958651188117826,
  664280967440840261826,
  664280976236932235586,
  664280976236932235586,
  664280967440839213506,
  664280949855095619906,
  811818900029590208706,
  811818900031736643906,
  811818891233497710786,
  811818882443845566786,
  811818882437404688706,
  811818882437404688706,
  664280958644746715586,
  664280949850801701186,
  664280949852948136386,
  664280949852948136386,
  664280949855095619906,
  664280967440839213506,
  664280949850801177026,
  664280949850801177026,
  811818873643459150146,
  811818882437404164546,
  811818873645606633666,
  811818882441698083266,
  811818873647753593026,
  811818891235643621826,
  811818899896479252546,
  811818899896479252546,
  811818891102533713986,
  811818891102533713986,
  811818899894332293186,
  811818899894332293186,
  811818891098239795266,
  811818882306441216066,
  811818882304294256706,
  811818882304294256706,
  811818882306441216066,
  811818891098239795266,
  664280976103821279426,
  664280976103821279426,
  664280967309875740866,
  664280967309875740866,
  664280976101673795906,
  664280976099527360706,
  664280967305580773826,
  664280949717690745026,
  664280958511635235266,
  664280949715543785666,
  664280958513782718786,
  664280967303434862786,
  664280976099526836546,
  664280976099526836546,
  664280967303433814466,
  664280949717690220866,
  811818899892184809666,
  811818899894331244866,
  811818891096092311746,
  811818882306440167746,
  811818882299999289666,
  811818882299999289666,
  664280958507341316546,
  664280949713396302146,
  664280949715542737346,
  664280949715542737346,
  664280949717690220866,
  664280967303433814466,
  664280949713395777986,
  664280949713395777986,
  811818873506053751106,
  811818882299998765506,
  811818873508201234626,
  811818882304292684226,
  811818873510348193986,
  811818891098238222786,
  811818900033851097156,
  811818900033817559106,
  811818891239905558596,
  811818891239872020546,
  811818900031704137796,
  811818900031670599746,
  811818891235611639876,
  811818882443779522626,
  811818882441666101316,
  811818882441632563266,
  811818882443813060676,
  811818891235578101826,
  664280976241193124036,
  664280976241159585986,
  664280967447247585476,
  664280967447214047426,
  664280976239045640516,
  664280976236865667266,
  664280967442952618436,
  664280949855029051586,
  664280958649007079876,
  664280949852882092226,
  664280958651154563396,
  664280967440773169346,
  664280976236898681156,
  664280976236865143106,
  664280967440805659076,
  664280949855028527426,
  811818900029556654276,
  811818900031669551426,
  811818891233464156356,
  811818882443778474306,
  811818882437371134276,
  811818882437337596226,
  664280958644713161156,
  664280949850734608706,
  664280949852914581956,
  664280949852881043906,
  664280949855062065476,
  664280967440772121026,
  664280949850767622596,
  664280949850734084546,
  811818873643425595716,
  811818882437337072066,
  811818873645573079236,
  811818882441630990786,
  811818873647720038596,
  811818891235576529346,
  811818899896412143686,
  811818899621601361986,
  811818891102466605126,
  811818890827655823426,
  811818899894265184326,
  811818899619454402626,
  811818891098172686406,
  811818882031563325506,
  811818882304227147846,
  811818882029416366146,
  811818882306374107206,
  811818890823361904706,
  664280976103754170566,
  664280975828943388866,
  664280967309808632006,
  664280967034997850306,
  664280976101606687046,
  664280975824649470146,
  664280967305513664966,
  664280949442812854466,
  664280958511568126406,
  664280949440665895106,
  664280958513715609926,
  664280967028556972226,
  664280976099459727686,
  664280975824648945986,
  664280967303366705606,
  664280949442812330306,
  811818899892117700806,
  811818899619453354306,
  811818891096025202886,
  811818882031562277186,
  811818882299932180806,
  811818882025121399106,
  664280958507274207686,
  664280949438518411586,
  664280949715475628486,
  664280949440664846786,
  664280949717623112006,
  664280967028555923906,
  664280949713328669126,
  664280949438517887426,
  811818873505986642246,
  811818882025120874946,
  811818873508134125766,
  811818882029414793666,
  811818873510281085126,
  811818890823360332226,
  811818899759006744646,
  811818899621567815746,
  811818890965061206086,
  811818890827622277186,
  811818899756859785286,
  811818899619420856386,
  811818890960767287366,
  811818882031529779266,
  811818882166821748806,
  811818882029382819906,
  811818882168968708166,
  811818890823328358466,
  664280975966348771526,
  664280975828909842626,
  664280967172403232966,
  664280967034964304066]
def T4_quad_cert_7 : List Nat := [664280975964201288006,
  664280975824615923906,
  664280967168108265926,
  664280949442779308226,
  664280958374162727366,
  664280949440632348866,
  664280958376310210886,
  664280967028523425986,
  664280975962054328646,
  664280975824615399746,
  664280967165961306566,
  664280949442778784066,
  811818899754712301766,
  811818899619419808066,
  811818890958619803846,
  811818882031528730946,
  811818882162526781766,
  811818882025087852866,
  664280958369868808646,
  664280949438484865346,
  664280949578070229446,
  664280949440631300546,
  664280949580217712966,
  664280967028522377666,
  664280949575923270086,
  664280949438484341186,
  811818873368581243206,
  811818882025087328706,
  811818873370728726726,
  811818882029381247426,
  811818873372875686086,
  811818890823326785986,
  811818899759040299076,
  811818899896378613826,
  811818890965094760516,
  811818891102433075266,
  811818899756893339716,
  811818899894231654466,
  811818890960800841796,
  811818882306340577346,
  811818882166855303236,
  811818882304193617986,
  811818882169002262596,
  811818891098139156546,
  664280975966382325956,
  664280976103720640706,
  664280967172436787396,
  664280967309775102146,
  664280975964234842436,
  664280976099426721986,
  664280967168141820356,
  664280949717590106306,
  664280958374196281796,
  664280949715443146946,
  664280958376343765316,
  664280967303334224066,
  664280975962087883076,
  664280976099426197826,
  664280967165994860996,
  664280949717589582146,
  811818899754745856196,
  811818899894230606146,
  811818890958653358276,
  811818882306339529026,
  811818882162560336196,
  811818882299898650946,
  664280958369902363076,
  664280949713295663426,
  664280949578103783876,
  664280949715442098626,
  664280949580251267396,
  664280967303333175746,
  664280949575956824516,
  664280949713295139266,
  811818873368614797636,
  811818882299898126786,
  811818873370762281156,
  811818882304192045506,
  811818873372909240516,
  811818891098137584066,
  811818900033817550916,
  811818900033817550916,
  811818891239872012356,
  811818891239872012356,
  811818900031670591556,
  811818900031670591556,
  811818891235578093636,
  811818882443779514436,
  811818882441632555076,
  811818882441632555076,
  811818882443779514436,
  811818891235578093636,
  664280976241159577796,
  664280976241159577796,
  664280967447214039236,
  664280967447214039236,
  664280976239012094276,
  664280976236865659076,
  664280967442919072196,
  664280949855029043396,
  664280958648973533636,
  664280949852882084036,
  664280958651121017156,
  664280967440773161156,
  664280976236865134916,
  664280976236865134916,
  664280967440772112836,
  664280949855028519236,
  811818900029523108036,
  811818900031669543236,
  811818891233430610116,
  811818882443778466116,
  811818882437337588036,
  811818882437337588036,
  664280958644679614916,
  664280949850734600516,
  664280949852881035716,
  664280949852881035716,
  664280949855028519236,
  664280967440772112836,
  664280949850734076356,
  664280949850734076356,
  811818873643392049476,
  811818882437337063876,
  811818873645539532996,
  811818882441630982596,
  811818873647686492356,
  811818891235576521156,
  811818899896378597446,
  811818899621601353796,
  811818891102433058886,
  811818890827655815236,
  811818899894231638086,
  811818899619454394436,
  811818891098139140166,
  811818882031563317316,
  811818882304193601606,
  811818882029416357956,
  811818882306340560966,
  811818890823361896516,
  664280976103720624326,
  664280975828943380676,
  664280967309775085766,
  664280967034997842116,
  664280976101573140806,
  664280975824649461956,
  664280967305480118726,
  664280949442812846276,
  664280958511534580166,
  664280949440665886916,
  664280958513682063686,
  664280967028556964036,
  664280976099426181446,
  664280975824648937796,
  664280967303333159366,
  664280949442812322116,
  811818899892084154566,
  811818899619453346116,
  811818891095991656646,
  811818882031562268996,
  811818882299898634566,
  811818882025121390916,
  664280958507240661446,
  664280949438518403396,
  664280949715442082246,
  664280949440664838596,
  664280949717589565766,
  664280967028555915716,
  664280949713295122886,
  664280949438517879236,
  811818873505953096006,
  811818882025120866756,
  811818873508100579526,
  811818882029414785476,
  811818873510247538886,
  811818890823360324036,
  811818900033817559106,
  811818900033851097156,
  811818891239872020546,
  811818891239905558596,
  811818900031670599746,
  811818900031704137796,
  811818891235578101826,
  811818882443813060676,
  811818882441632563266,
  811818882441666101316,
  811818882443779522626,
  811818891235611639876,
  664280976241159585986,
  664280976241193124036,
  664280967447214047426,
  664280967447247585476,
  664280976239012102466,
  664280976236899205316,
  664280967442919080386,
  664280949855062589636,
  664280958648973541826,
  664280949852915630276,
  664280958651121025346,
  664280967440806707396,
  664280976236865143106,
  664280976236898681156,
  664280967440772121026,
  664280949855062065476,
  811818900029523116226,
  811818900031703089476,
  811818891233430618306,
  811818882443812012356,
  811818882437337596226,
  811818882437371134276,
  664280958644679623106,
  664280949850768146756,
  664280949852881043906,
  664280949852914581956,
  664280949855028527426,
  664280967440805659076,
  664280949850734084546,
  664280949850767622596,
  811818873643392057666,
  811818882437370610116,
  811818873645539541186,
  811818882441664528836,
  811818873647686500546,
  811818891235610067396,
  811818899896378613826,
  811818899759040299076,
  811818891102433075266,
  811818890965094760516,
  811818899894231654466,
  811818899756893339716,
  811818891098139156546,
  811818882169002262596,
  811818882304193617986,
  811818882166855303236,
  811818882306340577346,
  811818890960800841796,
  664280976103720640706,
  664280975966382325956,
  664280967309775102146,
  664280967172436787396,
  664280976101573157186,
  664280975962088407236,
  664280967305480135106,
  664280949580251791556,
  664280958511534596546,
  664280949578104832196,
  664280958513682080066,
  664280967165995909316,
  664280976099426197826,
  664280975962087883076,
  664280967303333175746,
  664280949580251267396,
  811818899892084170946,
  811818899756892291396,
  811818891095991673026,
  811818882169001214276,
  811818882299898650946,
  811818882162560336196,
  664280958507240677826,
  664280949575957348676,
  664280949715442098626,
  664280949578103783876,
  664280949717589582146,
  664280967165994860996,
  664280949713295139266,
  664280949575956824516,
  811818873505953112386,
  811818882162559812036,
  811818873508100595906,
  811818882166853730756,
  811818873510247555266,
  811818890960799269316,
  811818899758939660356,
  811818899758939660356,
  811818890964994121796,
  811818890964994121796,
  811818899756792700996,
  811818899756792700996,
  811818890960700203076,
  811818882168901623876,
  811818882166754664516,
  811818882166754664516,
  811818882168901623876,
  811818890960700203076,
  664280975966281687236,
  664280975966281687236,
  664280967172336148676,
  664280967172336148676,
  664280975964134203716,
  664280975961987768516,
  664280967168041181636,
  664280949580151152836,
  664280958374095643076,
  664280949578004193476,
  664280958376243126596,
  664280967165895270596,
  664280975961987244356,
  664280975961987244356,
  664280967165894222276,
  664280949580150628676,
  811818899754645217476,
  811818899756791652676,
  811818890958552719556,
  811818882168900575556,
  811818882162459697476,
  811818882162459697476,
  664280958369801724356,
  664280949575856709956,
  664280949578003145156,
  664280949578003145156,
  664280949580150628676,
  664280967165894222276,
  664280949575856185796,
  664280949575856185796,
  811818873368514158916,
  811818882162459173316,
  811818873370661642436,
  811818882166753092036,
  811818873372808601796,
  811818890960698630596,
  811818899758939652166,
  811818899621534261316,
  811818890964994113606,
  811818890827588722756,
  811818899756792692806,
  811818899619387301956,
  811818890960700194886,
  811818882031496224836,
  811818882166754656326,
  811818882029349265476,
  811818882168901615686,
  811818890823294804036,
  664280975966281679046,
  664280975828876288196,
  664280967172336140486,
  664280967034930749636,
  664280975964134195526,
  664280975824582369476,
  664280967168041173446,
  664280949442745753796,
  664280958374095634886,
  664280949440598794436,
  664280958376243118406,
  664280967028489871556,
  664280975961987236166,
  664280975824581845316,
  664280967165894214086,
  664280949442745229636,
  811818899754645209286,
  811818899619386253636,
  811818890958552711366,
  811818882031495176516,
  811818882162459689286,
  811818882025054298436,
  664280958369801716166,
  664280949438451310916,
  664280949578003136966,
  664280949440597746116,
  664280949580150620486,
  664280967028488823236,
  664280949575856177606,
  664280949438450786756,
  811818873368514150726,
  811818882025053774276,
  811818873370661634246,
  811818882029347692996,
  811818873372808593606,
  811818890823293231556,
  811818899621567799366,
  811818899621567799366,
  811818890827622260806,
  811818890827622260806,
  811818899619420840006,
  811818899619420840006,
  811818890823328342086,
  811818882031529762886,
  811818882029382803526,
  811818882029382803526,
  811818882031529762886,
  811818890823328342086,
  664280975828909826246,
  664280975828909826246,
  664280967034964287686,
  664280967034964287686,
  664280975826762342726,
  664280975824615907526,
  664280967030669320646,
  664280949442779291846,
  664280958236723782086,
  664280949440632332486,
  664280958238871265606,
  664280967028523409606,
  664280975824615383366,
  664280975824615383366,
  664280967028522361286,
  664280949442778767686,
  811818899617273356486,
  811818899619419791686,
  811818890821180858566,
  811818882031528714566]
def T4_quad_cert_8 : List Nat := [811818882025087836486,
  811818882025087836486,
  664280958232429863366,
  664280949438484848966,
  664280949440631284166,
  664280949440631284166,
  664280949442778767686,
  664280967028522361286,
  664280949438484324806,
  664280949438484324806,
  811818873231142297926,
  811818882025087312326,
  811818873233289781446,
  811818882029381231046,
  811818873235436740806,
  811818890823326769606,
  811818899621601353796,
  811818899896378597446,
  811818890827655815236,
  811818891102433058886,
  811818899619454394436,
  811818899894231638086,
  811818890823361896516,
  811818882306340560966,
  811818882029416357956,
  811818882304193601606,
  811818882031563317316,
  811818891098139140166,
  664280975828943380676,
  664280976103720624326,
  664280967034997842116,
  664280967309775085766,
  664280975826795897156,
  664280976099426705606,
  664280967030702875076,
  664280949717590089926,
  664280958236757336516,
  664280949715443130566,
  664280958238904820036,
  664280967303334207686,
  664280975824648937796,
  664280976099426181446,
  664280967028555915716,
  664280949717589565766,
  811818899617306910916,
  811818899894230589766,
  811818890821214412996,
  811818882306339512646,
  811818882025121390916,
  811818882299898634566,
  664280958232463417796,
  664280949713295647046,
  664280949440664838596,
  664280949715442082246,
  664280949442812322116,
  664280967303333159366,
  664280949438517879236,
  664280949713295122886,
  811818873231175852356,
  811818882299898110406,
  811818873233323335876,
  811818882304192029126,
  811818873235470295236,
  811818891098137567686,
  811818899621534253126,
  811818899621534253126,
  811818890827588714566,
  811818890827588714566,
  811818899619387293766,
  811818899619387293766,
  811818890823294795846,
  811818882031496216646,
  811818882029349257286,
  811818882029349257286,
  811818882031496216646,
  811818890823294795846,
  664280975828876280006,
  664280975828876280006,
  664280967034930741446,
  664280967034930741446,
  664280975826728796486,
  664280975824582361286,
  664280967030635774406,
  664280949442745745606,
  664280958236690235846,
  664280949440598786246,
  664280958238837719366,
  664280967028489863366,
  664280975824581837126,
  664280975824581837126,
  664280967028488815046,
  664280949442745221446,
  811818899617239810246,
  811818899619386245446,
  811818890821147312326,
  811818882031495168326,
  811818882025054290246,
  811818882025054290246,
  664280958232396317126,
  664280949438451302726,
  664280949440597737926,
  664280949440597737926,
  664280949442745221446,
  664280967028488815046,
  664280949438450778566,
  664280949438450778566,
  811818873231108751686,
  811818882025053766086,
  811818873233256235206,
  811818882029347684806,
  811818873235403194566,
  811818890823293223366,
  811818899621534261316,
  811818899758939652166,
  811818890827588722756,
  811818890964994113606,
  811818899619387301956,
  811818899756792692806,
  811818890823294804036,
  811818882168901615686,
  811818882029349265476,
  811818882166754656326,
  811818882031496224836,
  811818890960700194886,
  664280975828876288196,
  664280975966281679046,
  664280967034930749636,
  664280967172336140486,
  664280975826728804676,
  664280975961987760326,
  664280967030635782596,
  664280949580151144646,
  664280958236690244036,
  664280949578004185286,
  664280958238837727556,
  664280967165895262406,
  664280975824581845316,
  664280975961987236166,
  664280967028488823236,
  664280949580150620486,
  811818899617239818436,
  811818899756791644486,
  811818890821147320516,
  811818882168900567366,
  811818882025054298436,
  811818882162459689286,
  664280958232396325316,
  664280949575856701766,
  664280949440597746116,
  664280949578003136966,
  664280949442745229636,
  664280967165894214086,
  664280949438450786756,
  664280949575856177606,
  811818873231108759876,
  811818882162459165126,
  811818873233256243396,
  811818882166753083846,
  811818873235403202756,
  811818890960698622406,
  811818899621567815746,
  811818899759006744646,
  811818890827622277186,
  811818890965061206086,
  811818899619420856386,
  811818899756859785286,
  811818890823328358466,
  811818882168968708166,
  811818882029382819906,
  811818882166821748806,
  811818882031529779266,
  811818890960767287366,
  664280975828909842626,
  664280975966348771526,
  664280967034964304066,
  664280967172403232966,
  664280975826762359106,
  664280975962054852806,
  664280967030669337026,
  664280949580218237126,
  664280958236723798466,
  664280949578071277766,
  664280958238871281986,
  664280967165962354886,
  664280975824615399746,
  664280975962054328646,
  664280967028522377666,
  664280949580217712966,
  811818899617273372866,
  811818899756858736966,
  811818890821180874946,
  811818882168967659846,
  811818882025087852866,
  811818882162526781766,
  664280958232429879746,
  664280949575923794246,
  664280949440631300546,
  664280949578070229446,
  664280949442778784066,
  664280967165961306566,
  664280949438484341186,
  664280949575923270086,
  811818873231142314306,
  811818882162526257606,
  811818873233289797826,
  811818882166820176326,
  811818873235436757186,
  811818890960765714886,
  811818899621601361986,
  811818899896412143686,
  811818890827655823426,
  811818891102466605126,
  811818899619454402626,
  811818899894265184326,
  811818890823361904706,
  811818882306374107206,
  811818882029416366146,
  811818882304227147846,
  811818882031563325506,
  811818891098172686406,
  664280975828943388866,
  664280976103754170566,
  664280967034997850306,
  664280967309808632006,
  664280975826795905346,
  664280976099460251846,
  664280967030702883266,
  664280949717623636166,
  664280958236757344706,
  664280949715476676806,
  664280958238904828226,
  664280967303367753926,
  664280975824648945986,
  664280976099459727686,
  664280967028555923906,
  664280949717623112006,
  811818899617306919106,
  811818899894264136006,
  811818890821214421186,
  811818882306373058886,
  811818882025121399106,
  811818882299932180806,
  664280958232463425986,
  664280949713329193286,
  664280949440664846786,
  664280949715475628486,
  664280949442812330306,
  664280967303366705606,
  664280949438517887426,
  664280949713328669126,
  811818873231175860546,
  811818882299931656646,
  811818873233323344066,
  811818882304225575366,
  811818873235470303426,
  811818891098171113926,
  11531498049961205824,
  11531498049961205824,
  11531497912555806784,
  11531497912555806784,
  11531498049927659584,
  11531498049927659584,
  11531497912488714304,
  11531497775116861504,
  11531497775083315264,
  11531497775083315264,
  11531497775116861504,
  11531497912488714304,
  11531498049961197634,
  11531498049961197634,
  11531497912555798594,
  11531497912555798594,
  11531498049927643204,
  11531498049894105154,
  11531497912488689734,
  11531497637677908034,
  11531497775083290694,
  11531497637644361794,
  11531497775116845124,
  11531497912455159874,
  11531498049894096964,
  11531498049894096964,
  11531497912455143494,
  11531497637677899844,
  11531498049894105154,
  11531498049927643204,
  11531497912455159874,
  11531497775116845124,
  11531497775016206404,
  11531497775016206404,
  11531497775016198214,
  11531497637610807364,
  11531497637644345414,
  11531497637644345414,
  11531497637677899844,
  11531497912455143494,
  11531497637610799174,
  11531497637610799174,
  11531497637610807364,
  11531497775016198214,
  11531497637644361794,
  11531497775083290694,
  11531497637677908034,
  11531497912488689734,
  11531489256015667264,
  11531489256015667264,
  11531489118610268224,
  11531489118610268224,
  11531489255982121024,
  11531489255982121024,
  11531489118543175744,
  11531488981171322944,
  11531488981137776704,
  11531488981137776704,
  11531488981171322944,
  11531489118543175744,
  11531489256015659074,
  11531489256015659074,
  11531489118610260034,
  11531489118610260034,
  11531489255982104644,
  11531489255948566594,
  11531489118543151174,
  11531488843732369474,
  11531488981137752134,
  11531488843698823234,
  11531488981171306564,
  11531489118509621314,
  11531489255948558404,
  11531489255948558404,
  11531489118509604934,
  11531488843732361284,
  11531489255948566594,
  11531489255982104644,
  11531489118509621314,
  11531488981171306564,
  11531488981070667844,
  11531488981070667844,
  11531488981070659654,
  11531488843665268804,
  11531488843698806854,
  11531488843698806854,
  11531488843732361284,
  11531489118509604934,
  11531488843665260614,
  11531488843665260614,
  11531488843665268804,
  11531488981070659654,
  11531488843698823234,
  11531488981137752134,
  11531488843732369474,
  11531489118543151174,
  11531498047814246464,
  11531498047814246464,
  11531497910408847424,
  11531497910408847424,
  11531498047780700224,
  11531498047780700224,
  11531497910341754944,
  11531497772969902144,
  11531497772936355904,
  11531497772936355904,
  11531497772969902144,
  11531497910341754944,
  11531498047814238274,
  11531498047814238274,
  11531497910408839234,
  11531497910408839234,
  11531498047780683844,
  11531498047747145794,
  11531497910341730374,
  11531497635530948674,
  11531497772936331334,
  11531497635497402434,
  11531497772969885764,
  11531497910308200514,
  11531498047747137604,
  11531498047747137604,
  11531497910308184134,
  11531497635530940484,
  11531498047747145794,
  11531498047780683844,
  11531497910308200514,
  11531497772969885764,
  11531497772869247044,
  11531497772869247044,
  11531497772869238854,
  11531497635463848004,
  11531497635497386054,
  11531497635497386054,
  11531497635530940484,
  11531497910308184134,
  11531497635463839814,
  11531497635463839814,
  11531497635463848004,
  11531497772869238854,
  11531497635497402434,
  11531497772936331334,
  11531497635530948674,
  11531497910341730374]
def T4_quad_cert_9 : List Nat := [11531489251721748544,
  11531480459923169344,
  11531489114316349504,
  11531480322517770304,
  11531489251688202304,
  11531480459889623104,
  11531489114249257024,
  11531480185078825024,
  11531488976843857984,
  11531480185045278784,
  11531488976877404224,
  11531480322450677824,
  11531489251721740354,
  11531480459923161154,
  11531489114316341314,
  11531480322517762114,
  11531489251688185924,
  11531480459856068674,
  11531489114249232454,
  11531480047639871554,
  11531488976843833414,
  11531480047606325314,
  11531488976877387844,
  11531480322417123394,
  11531489251654639684,
  11531480459856060484,
  11531489114215686214,
  11531480047639863364,
  11531489251654647874,
  11531480459889606724,
  11531489114215702594,
  11531480185078808644,
  11531488976776749124,
  11531480184978169924,
  11531488976776740934,
  11531480047572770884,
  11531488839404888134,
  11531480047606308934,
  11531488839438442564,
  11531480322417107014,
  11531488839371341894,
  11531480047572762694,
  11531488839371350084,
  11531480184978161734,
  11531488839404904514,
  11531480185045254214,
  11531488839438450754,
  11531480322450653254,
  11531480457776209984,
  11531480457776209984,
  11531480320370810944,
  11531480320370810944,
  11531480457742663744,
  11531480457742663744,
  11531480320303718464,
  11531480182931865664,
  11531480182898319424,
  11531480182898319424,
  11531480182931865664,
  11531480320303718464,
  11531480457776201794,
  11531480457776201794,
  11531480320370802754,
  11531480320370802754,
  11531480457742647364,
  11531480457709109314,
  11531480320303693894,
  11531480045492912194,
  11531480182898294854,
  11531480045459365954,
  11531480182931849284,
  11531480320270164034,
  11531480457709101124,
  11531480457709101124,
  11531480320270147654,
  11531480045492904004,
  11531480457709109314,
  11531480457742647364,
  11531480320270164034,
  11531480182931849284,
  11531480182831210564,
  11531480182831210564,
  11531480182831202374,
  11531480045425811524,
  11531480045459349574,
  11531480045459349574,
  11531480045492904004,
  11531480320270147654,
  11531480045425803334,
  11531480045425803334,
  11531480045425811524,
  11531480182831202374,
  11531480045459365954,
  11531480182898294854,
  11531480045492912194,
  11531480320303693894,
  11531480459923169344,
  11531489251721748544,
  11531480322517770304,
  11531489114316349504,
  11531480459889623104,
  11531489251688202304,
  11531480322450677824,
  11531488976877404224,
  11531480185045278784,
  11531488976843857984,
  11531480185078825024,
  11531489114249257024,
  11531480459923161154,
  11531489251721740354,
  11531480322517762114,
  11531489114316341314,
  11531480459889606724,
  11531489251654647874,
  11531480322450653254,
  11531488839438450754,
  11531480185045254214,
  11531488839404904514,
  11531480185078808644,
  11531489114215702594,
  11531480459856060484,
  11531489251654639684,
  11531480322417107014,
  11531488839438442564,
  11531480459856068674,
  11531489251688185924,
  11531480322417123394,
  11531488976877387844,
  11531480184978169924,
  11531488976776749124,
  11531480184978161734,
  11531488839371350084,
  11531480047606308934,
  11531488839404888134,
  11531480047639863364,
  11531489114215686214,
  11531480047572762694,
  11531488839371341894,
  11531480047572770884,
  11531488976776740934,
  11531480047606325314,
  11531488976843833414,
  11531480047639871554,
  11531489114249232454,
  11531498049960681664,
  11531498049960681664,
  11531497912555282624,
  11531497912555282624,
  11531498049927135424,
  11531498049927135424,
  11531497912488190144,
  11531497775116337344,
  11531497775082791104,
  11531497775082791104,
  11531497775116337344,
  11531497912488190144,
  11531498049960673474,
  11531498049960673474,
  11531497912555274434,
  11531497912555274434,
  11531498049927119044,
  11531498049893580994,
  11531497912488165574,
  11531497637677383874,
  11531497775082766534,
  11531497637643837634,
  11531497775116320964,
  11531497912454635714,
  11531498049893572804,
  11531498049893572804,
  11531497912454619334,
  11531497637677375684,
  11531498049893580994,
  11531498049927119044,
  11531497912454635714,
  11531497775116320964,
  11531497775015682244,
  11531497775015682244,
  11531497775015674054,
  11531497637610283204,
  11531497637643821254,
  11531497637643821254,
  11531497637677375684,
  11531497912454619334,
  11531497637610275014,
  11531497637610275014,
  11531497637610283204,
  11531497775015674054,
  11531497637643837634,
  11531497775082766534,
  11531497637677383874,
  11531497912488165574,
  11531489256015143104,
  11531489256015143104,
  11531489118609744064,
  11531489118609744064,
  11531489255981596864,
  11531489255981596864,
  11531489118542651584,
  11531488981170798784,
  11531488981137252544,
  11531488981137252544,
  11531488981170798784,
  11531489118542651584,
  11531489256015134914,
  11531489256015134914,
  11531489118609735874,
  11531489118609735874,
  11531489255981580484,
  11531489255948042434,
  11531489118542627014,
  11531488843731845314,
  11531488981137227974,
  11531488843698299074,
  11531488981170782404,
  11531489118509097154,
  11531489255948034244,
  11531489255948034244,
  11531489118509080774,
  11531488843731837124,
  11531489255948042434,
  11531489255981580484,
  11531489118509097154,
  11531488981170782404,
  11531488981070143684,
  11531488981070143684,
  11531488981070135494,
  11531488843664744644,
  11531488843698282694,
  11531488843698282694,
  11531488843731837124,
  11531489118509080774,
  11531488843664736454,
  11531488843664736454,
  11531488843664744644,
  11531488981070135494,
  11531488843698299074,
  11531488981137227974,
  11531488843731845314,
  11531489118542627014,
  11531498047813198144,
  11531498045666762944,
  11531497910407799104,
  11531497908261363904,
  11531498047779651904,
  11531498045633216704,
  11531497910340706624,
  11531497770822418624,
  11531497772935307584,
  11531497770788872384,
  11531497772968853824,
  11531497908194271424,
  11531498047813189954,
  11531498045666754754,
  11531497910407790914,
  11531497908261355714,
  11531498047779635524,
  11531498045599662274,
  11531497910340682054,
  11531497633383465154,
  11531497772935283014,
  11531497633349918914,
  11531497772968837444,
  11531497908160716994,
  11531498047746089284,
  11531498045599654084,
  11531497910307135814,
  11531497633383456964,
  11531498047746097474,
  11531498045633200324,
  11531497910307152194,
  11531497770822402244,
  11531497772868198724,
  11531497770721763524,
  11531497772868190534,
  11531497633316364484,
  11531497635496337734,
  11531497633349902534,
  11531497635529892164,
  11531497908160700614,
  11531497635462791494,
  11531497633316356294,
  11531497635462799684,
  11531497770721755334,
  11531497635496354114,
  11531497770788847814,
  11531497635529900354,
  11531497908194246854,
  11531489251720176064,
  11531471663830147264,
  11531489114314777024,
  11531471526424748224,
  11531489251686629824,
  11531471663796601024,
  11531489114247684544,
  11531471388985802944,
  11531488976842285504,
  11531471388952256704,
  11531488976875831744,
  11531471526357655744,
  11531489251720167874,
  11531471663830139074,
  11531489114314768834,
  11531471526424740034,
  11531489251686613444,
  11531471663763046594,
  11531489114247659974,
  11531471251546849474,
  11531488976842260934,
  11531471251513303234,
  11531488976875815364,
  11531471526324101314,
  11531489251653067204,
  11531471663763038404,
  11531489114214113734,
  11531471251546841284,
  11531489251653075394,
  11531471663796584644,
  11531489114214130114,
  11531471388985786564,
  11531488976775176644,
  11531471388885147844,
  11531488976775168454,
  11531471251479748804,
  11531488839403315654,
  11531471251513286854,
  11531488839436870084,
  11531471526324084934,
  11531488839369769414,
  11531471251479740614,
  11531488839369777604,
  11531471388885139654,
  11531488839403332034,
  11531471388952232134,
  11531488839436878274,
  11531471526357631174,
  11531480457774637504,
  11531471661683187904,
  11531480320369238464,
  11531471524277788864,
  11531480457741091264,
  11531471661649641664,
  11531480320302145984,
  11531471386838843584,
  11531480182896746944,
  11531471386805297344,
  11531480182930293184,
  11531471524210696384,
  11531480457774629314,
  11531471661683179714,
  11531480320369230274,
  11531471524277780674,
  11531480457741074884,
  11531471661616087234,
  11531480320302121414,
  11531471249399890114,
  11531480182896722374,
  11531471249366343874,
  11531480182930276804,
  11531471524177141954,
  11531480457707528644,
  11531471661616079044,
  11531480320268575174,
  11531471249399881924,
  11531480457707536834,
  11531471661649625284,
  11531480320268591554,
  11531471386838827204,
  11531480182829638084,
  11531471386738188484,
  11531480182829629894,
  11531471249332789444,
  11531480045457777094,
  11531471249366327494,
  11531480045491331524,
  11531471524177125574,
  11531480045424230854,
  11531471249332781254,
  11531480045424239044,
  11531471386738180294,
  11531480045457793474,
  11531471386805272774,
  11531480045491339714,
  11531471524210671814,
  11531480459922121024,
  11531489249574265024,
  11531480322516721984,
  11531489112168865984,
  11531480459888574784,
  11531489249540718784,
  11531480322449629504,
  11531488974729920704,
  11531480185044230464,
  11531488974696374464,
  11531480185077776704,
  11531489112101773504,
  11531480459922112834,
  11531489249574256834,
  11531480322516713794,
  11531489112168857794]
def T4_quad_cert_10 : List Nat := [11531480459888558404,
  11531489249507164354,
  11531480322449604934,
  11531488837290967234,
  11531480185044205894,
  11531488837257420994,
  11531480185077760324,
  11531489112068219074,
  11531480459855012164,
  11531489249507156164,
  11531480322416058694,
  11531488837290959044,
  11531480459855020354,
  11531489249540702404,
  11531480322416075074,
  11531488974729904324,
  11531480184977121604,
  11531488974629265604,
  11531480184977113414,
  11531488837223866564,
  11531480047605260614,
  11531488837257404614,
  11531480047638815044,
  11531489112068202694,
  11531480047571714374,
  11531488837223858374,
  11531480047571722564,
  11531488974629257414,
  11531480047605276994,
  11531488974696349894,
  11531480047638823234,
  11531489112101748934,
  9226217986405966144,
  9226217986405966144,
  9226217849000567104,
  9226217849000567104,
  9226217986372419904,
  9226217986372419904,
  9226217848933474624,
  9226217711561621824,
  9226217711528075584,
  9226217711528075584,
  9226217711561621824,
  9226217848933474624,
  9226217986405957954,
  9226217986405957954,
  9226217849000558914,
  9226217849000558914,
  9226217986372403524,
  9226217986338865474,
  9226217848933450054,
  9226217574122668354,
  9226217711528051014,
  9226217574089122114,
  9226217711561605444,
  9226217848899920194,
  9226217986338857284,
  9226217986338857284,
  9226217848899903814,
  9226217574122660164,
  9226217986338865474,
  9226217986372403524,
  9226217848899920194,
  9226217711561605444,
  9226217711460966724,
  9226217711460966724,
  9226217711460958534,
  9226217574055567684,
  9226217574089105734,
  9226217574089105734,
  9226217574122660164,
  9226217848899903814,
  9226217574055559494,
  9226217574055559494,
  9226217574055567684,
  9226217711460958534,
  9226217574089122114,
  9226217711528051014,
  9226217574122668354,
  9226217848933450054,
  9226209190312944064,
  9226191604569350464,
  9226209052907545024,
  9226191467163951424,
  9226209190279397824,
  9226191604535804224,
  9226209052840452544,
  9226191329725006144,
  9226208915435053504,
  9226191329691459904,
  9226208915468599744,
  9226191467096858944,
  9226209190312935874,
  9226191604569342274,
  9226209052907536834,
  9226191467163943234,
  9226209190279381444,
  9226191604502249794,
  9226209052840427974,
  9226191192286052674,
  9226208915435028934,
  9226191192252506434,
  9226208915468583364,
  9226191467063304514,
  9226209190245835204,
  9226191604502241604,
  9226209052806881734,
  9226191192286044484,
  9226209190245843394,
  9226191604535787844,
  9226209052806898114,
  9226191329724989764,
  9226208915367944644,
  9226191329624351044,
  9226208915367936454,
  9226191192218952004,
  9226208777996083654,
  9226191192252490054,
  9226208778029638084,
  9226191467063288134,
  9226208777962537414,
  9226191192218943814,
  9226208777962545604,
  9226191329624342854,
  9226208777996100034,
  9226191329691435334,
  9226208778029646274,
  9226191467096834374,
  9226217986406490304,
  9226217988552925504,
  9226217849001091264,
  9226217851147526464,
  9226217986372944064,
  9226217988519379264,
  9226217848933998784,
  9226217713708581184,
  9226217711528599744,
  9226217713675034944,
  9226217711562145984,
  9226217851080433984,
  9226217986406482114,
  9226217988552917314,
  9226217849001083074,
  9226217851147518274,
  9226217986372927684,
  9226217988485824834,
  9226217848933974214,
  9226217576269627714,
  9226217711528575174,
  9226217576236081474,
  9226217711562129604,
  9226217851046879554,
  9226217986339381444,
  9226217988485816644,
  9226217848900427974,
  9226217576269619524,
  9226217986339389634,
  9226217988519362884,
  9226217848900444354,
  9226217713708564804,
  9226217711461490884,
  9226217713607926084,
  9226217711461482694,
  9226217576202527044,
  9226217574089629894,
  9226217576236065094,
  9226217574123184324,
  9226217851046863174,
  9226217574056083654,
  9226217576202518854,
  9226217574056091844,
  9226217713607917894,
  9226217574089646274,
  9226217713675010374,
  9226217574123192514,
  9226217851080409414,
  9226209190313992384,
  9226200400661848384,
  9226209052908593344,
  9226200263256449344,
  9226209190280446144,
  9226200400628302144,
  9226209052841500864,
  9226200125817504064,
  9226208915436101824,
  9226200125783957824,
  9226208915469648064,
  9226200263189356864,
  9226209190313984194,
  9226200400661840194,
  9226209052908585154,
  9226200263256441154,
  9226209190280429764,
  9226200400594747714,
  9226209052841476294,
  9226199988378550594,
  9226208915436077254,
  9226199988345004354,
  9226208915469631684,
  9226200263155802434,
  9226209190246883524,
  9226200400594739524,
  9226209052807930054,
  9226199988378542404,
  9226209190246891714,
  9226200400628285764,
  9226209052807946434,
  9226200125817487684,
  9226208915368992964,
  9226200125716848964,
  9226208915368984774,
  9226199988311449924,
  9226208777997131974,
  9226199988344987974,
  9226208778030686404,
  9226200263155786054,
  9226208777963585734,
  9226199988311441734,
  9226208777963593924,
  9226200125716840774,
  9226208777997148354,
  9226200125783933254,
  9226208778030694594,
  9226200263189332294,
  9226200394220970304,
  9226200394220970304,
  9226200256815571264,
  9226200256815571264,
  9226200394187424064,
  9226200394187424064,
  9226200256748478784,
  9226200119376625984,
  9226200119343079744,
  9226200119343079744,
  9226200119376625984,
  9226200256748478784,
  9226200394220962114,
  9226200394220962114,
  9226200256815563074,
  9226200256815563074,
  9226200394187407684,
  9226200394153869634,
  9226200256748454214,
  9226199981937672514,
  9226200119343055174,
  9226199981904126274,
  9226200119376609604,
  9226200256714924354,
  9226200394153861444,
  9226200394153861444,
  9226200256714907974,
  9226199981937664324,
  9226200394153869634,
  9226200394187407684,
  9226200256714924354,
  9226200119376609604,
  9226200119275970884,
  9226200119275970884,
  9226200119275962694,
  9226199981870571844,
  9226199981904109894,
  9226199981904109894,
  9226199981937664324,
  9226200256714907974,
  9226199981870563654,
  9226199981870563654,
  9226199981870571844,
  9226200119275962694,
  9226199981904126274,
  9226200119343055174,
  9226199981937672514,
  9226200256748454214,
  9226200394220446144,
  9226191600275431744,
  9226200256815047104,
  9226191462870032704,
  9226200394186899904,
  9226191600241885504,
  9226200256747954624,
  9226191325431087424,
  9226200119342555584,
  9226191325397541184,
  9226200119376101824,
  9226191462802940224,
  9226200394220437954,
  9226191600275423554,
  9226200256815038914,
  9226191462870024514,
  9226200394186883524,
  9226191600208331074,
  9226200256747930054,
  9226191187992133954,
  9226200119342531014,
  9226191187958587714,
  9226200119376085444,
  9226191462769385794,
  9226200394153337284,
  9226191600208322884,
  9226200256714383814,
  9226191187992125764,
  9226200394153345474,
  9226191600241869124,
  9226200256714400194,
  9226191325431071044,
  9226200119275446724,
  9226191325330432324,
  9226200119275438534,
  9226191187925033284,
  9226199981903585734,
  9226191187958571334,
  9226199981937140164,
  9226191462769369414,
  9226199981870039494,
  9226191187925025094,
  9226199981870047684,
  9226191325330424134,
  9226199981903602114,
  9226191325397516614,
  9226199981937148354,
  9226191462802915654,
  9226191602421866944,
  9226191602421866944,
  9226191465016467904,
  9226191465016467904,
  9226191602388320704,
  9226191602388320704,
  9226191464949375424,
  9226191327577522624,
  9226191327543976384,
  9226191327543976384,
  9226191327577522624,
  9226191464949375424,
  9226191602421858754,
  9226191602421858754,
  9226191465016459714,
  9226191465016459714,
  9226191602388304324,
  9226191602354766274,
  9226191464949350854,
  9226191190138569154,
  9226191327543951814,
  9226191190105022914,
  9226191327577506244,
  9226191464915820994,
  9226191602354758084,
  9226191602354758084,
  9226191464915804614,
  9226191190138560964,
  9226191602354766274,
  9226191602388304324,
  9226191464915820994,
  9226191327577506244,
  9226191327476867524,
  9226191327476867524,
  9226191327476859334,
  9226191190071468484,
  9226191190105006534,
  9226191190105006534,
  9226191190138560964,
  9226191464915804614,
  9226191190071460294,
  9226191190071460294,
  9226191190071468484,
  9226191327476859334,
  9226191190105022914,
  9226191327543951814,
  9226191190138569154,
  9226191464949350854,
  9226191604569350464,
  9226209190312944064,
  9226191467163951424,
  9226209052907545024,
  9226191604535804224,
  9226209190279397824,
  9226191467096858944,
  9226208915468599744,
  9226191329691459904,
  9226208915435053504,
  9226191329725006144,
  9226209052840452544,
  9226191604569342274,
  9226209190312935874,
  9226191467163943234,
  9226209052907536834,
  9226191604535787844,
  9226209190245843394,
  9226191467096834374,
  9226208778029646274,
  9226191329691435334,
  9226208777996100034,
  9226191329724989764,
  9226209052806898114,
  9226191604502241604,
  9226209190245835204,
  9226191467063288134,
  9226208778029638084,
  9226191604502249794,
  9226209190279381444,
  9226191467063304514,
  9226208915468583364]
def T4_quad_cert_11 : List Nat := [9226191329624351044,
  9226208915367944644,
  9226191329624342854,
  9226208777962545604,
  9226191192252490054,
  9226208777996083654,
  9226191192286044484,
  9226209052806881734,
  9226191192218943814,
  9226208777962537414,
  9226191192218952004,
  9226208915367936454,
  9226191192252506434,
  9226208915435028934,
  9226191192286052674,
  9226209052840427974,
  9226191600274907584,
  9226191600274907584,
  9226191462869508544,
  9226191462869508544,
  9226191600241361344,
  9226191600241361344,
  9226191462802416064,
  9226191325430563264,
  9226191325397017024,
  9226191325397017024,
  9226191325430563264,
  9226191462802416064,
  9226191600274899394,
  9226191600274899394,
  9226191462869500354,
  9226191462869500354,
  9226191600241344964,
  9226191600207806914,
  9226191462802391494,
  9226191187991609794,
  9226191325396992454,
  9226191187958063554,
  9226191325430546884,
  9226191462768861634,
  9226191600207798724,
  9226191600207798724,
  9226191462768845254,
  9226191187991601604,
  9226191600207806914,
  9226191600241344964,
  9226191462768861634,
  9226191325430546884,
  9226191325329908164,
  9226191325329908164,
  9226191325329899974,
  9226191187924509124,
  9226191187958047174,
  9226191187958047174,
  9226191187991601604,
  9226191462768845254,
  9226191187924500934,
  9226191187924500934,
  9226191187924509124,
  9226191325329899974,
  9226191187958063554,
  9226191325396992454,
  9226191187991609794,
  9226191462802391494,
  9226191600275431744,
  9226200394220446144,
  9226191462870032704,
  9226200256815047104,
  9226191600241885504,
  9226200394186899904,
  9226191462802940224,
  9226200119376101824,
  9226191325397541184,
  9226200119342555584,
  9226191325431087424,
  9226200256747954624,
  9226191600275423554,
  9226200394220437954,
  9226191462870024514,
  9226200256815038914,
  9226191600241869124,
  9226200394153345474,
  9226191462802915654,
  9226199981937148354,
  9226191325397516614,
  9226199981903602114,
  9226191325431071044,
  9226200256714400194,
  9226191600208322884,
  9226200394153337284,
  9226191462769369414,
  9226199981937140164,
  9226191600208331074,
  9226200394186883524,
  9226191462769385794,
  9226200119376085444,
  9226191325330432324,
  9226200119275446724,
  9226191325330424134,
  9226199981870047684,
  9226191187958571334,
  9226199981903585734,
  9226191187992125764,
  9226200256714383814,
  9226191187925025094,
  9226199981870039494,
  9226191187925033284,
  9226200119275438534,
  9226191187958587714,
  9226200119342531014,
  9226191187992133954,
  9226200256747930054,
  9226191602422915264,
  9226200398514364864,
  9226191465017516224,
  9226200261108965824,
  9226191602389369024,
  9226200398480818624,
  9226191464950423744,
  9226200123670020544,
  9226191327545024704,
  9226200123636474304,
  9226191327578570944,
  9226200261041873344,
  9226191602422907074,
  9226200398514356674,
  9226191465017508034,
  9226200261108957634,
  9226191602389352644,
  9226200398447264194,
  9226191464950399174,
  9226199986231067074,
  9226191327545000134,
  9226199986197520834,
  9226191327578554564,
  9226200261008318914,
  9226191602355806404,
  9226200398447256004,
  9226191464916852934,
  9226199986231058884,
  9226191602355814594,
  9226200398480802244,
  9226191464916869314,
  9226200123670004164,
  9226191327477915844,
  9226200123569365444,
  9226191327477907654,
  9226199986163966404,
  9226191190106054854,
  9226199986197504454,
  9226191190139609284,
  9226200261008302534,
  9226191190072508614,
  9226199986163958214,
  9226191190072516804,
  9226200123569357254,
  9226191190106071234,
  9226200123636449734,
  9226191190139617474,
  9226200261041848774,
  9226191604569874624,
  9226209192459903424,
  9226191467164475584,
  9226209055054504384,
  9226191604536328384,
  9226209192426357184,
  9226191467097383104,
  9226208917615559104,
  9226191329691984064,
  9226208917582012864,
  9226191329725530304,
  9226209054987411904,
  9226191604569866434,
  9226209192459895234,
  9226191467164467394,
  9226209055054496194,
  9226191604536312004,
  9226209192392802754,
  9226191467097358534,
  9226208780176605634,
  9226191329691959494,
  9226208780143059394,
  9226191329725513924,
  9226209054953857474,
  9226191604502765764,
  9226209192392794564,
  9226191467063812294,
  9226208780176597444,
  9226191604502773954,
  9226209192426340804,
  9226191467063828674,
  9226208917615542724,
  9226191329624875204,
  9226208917514904004,
  9226191329624867014,
  9226208780109504964,
  9226191192253014214,
  9226208780143043014,
  9226191192286568644,
  9226209054953841094,
  9226191192219467974,
  9226208780109496774,
  9226191192219476164,
  9226208917514895814,
  9226191192253030594,
  9226208917581988294,
  9226191192286576834,
  9226209054987387334,
  164412590478073920,
  164412590478073920,
  164412453072674880,
  164412453072674880,
  164412590444527680,
  164412590444527680,
  164412453005582400,
  164412315633729600,
  164412315600183360,
  164412315600183360,
  164412315633729600,
  164412453005582400,
  164412590478065730,
  164412590478065730,
  164412453072666690,
  164412453072666690,
  164412590444511300,
  164412590410973250,
  164412453005557830,
  164412178194776130,
  164412315600158790,
  164412178161229890,
  164412315633713220,
  164412452972027970,
  164412590410965060,
  164412590410965060,
  164412452972011590,
  164412178194767940,
  164412590410973250,
  164412590444511300,
  164412452972027970,
  164412315633713220,
  164412315533074500,
  164412315533074500,
  164412315533066310,
  164412178127675460,
  164412178161213510,
  164412178161213510,
  164412178194767940,
  164412452972011590,
  164412178127667270,
  164412178127667270,
  164412178127675460,
  164412315533066310,
  164412178161229890,
  164412315600158790,
  164412178194776130,
  164412453005557830,
  164403796532535360,
  164403796532535360,
  164403659127136320,
  164403659127136320,
  164403796498989120,
  164403796498989120,
  164403659060043840,
  164403521688191040,
  164403521654644800,
  164403521654644800,
  164403521688191040,
  164403659060043840,
  164403796532527170,
  164403796532527170,
  164403659127128130,
  164403659127128130,
  164403796498972740,
  164403796465434690,
  164403659060019270,
  164403384249237570,
  164403521654620230,
  164403384215691330,
  164403521688174660,
  164403659026489410,
  164403796465426500,
  164403796465426500,
  164403659026473030,
  164403384249229380,
  164403796465434690,
  164403796498972740,
  164403659026489410,
  164403521688174660,
  164403521587535940,
  164403521587535940,
  164403521587527750,
  164403384182136900,
  164403384215674950,
  164403384215674950,
  164403384249229380,
  164403659026473030,
  164403384182128710,
  164403384182128710,
  164403384182136900,
  164403521587527750,
  164403384215691330,
  164403521654620230,
  164403384249237570,
  164403659060019270,
  164412588331114560,
  164412588331114560,
  164412450925715520,
  164412450925715520,
  164412588297568320,
  164412588297568320,
  164412450858623040,
  164412313486770240,
  164412313453224000,
  164412313453224000,
  164412313486770240,
  164412450858623040,
  164412588331106370,
  164412588331106370,
  164412450925707330,
  164412450925707330,
  164412588297551940,
  164412588264013890,
  164412450858598470,
  164412176047816770,
  164412313453199430,
  164412176014270530,
  164412313486753860,
  164412450825068610,
  164412588264005700,
  164412588264005700,
  164412450825052230,
  164412176047808580,
  164412588264013890,
  164412588297551940,
  164412450825068610,
  164412313486753860,
  164412313386115140,
  164412313386115140,
  164412313386106950,
  164412175980716100,
  164412176014254150,
  164412176014254150,
  164412176047808580,
  164412450825052230,
  164412175980707910,
  164412175980707910,
  164412175980716100,
  164412313386106950,
  164412176014270530,
  164412313453199430,
  164412176047816770,
  164412450858598470,
  164403792238616640,
  164395000440037440,
  164403654833217600,
  164394863034638400,
  164403792205070400,
  164395000406491200,
  164403654766125120,
  164394725595693120,
  164403517360726080,
  164394725562146880,
  164403517394272320,
  164394862967545920,
  164403792238608450,
  164395000440029250,
  164403654833209410,
  164394863034630210,
  164403792205054020,
  164395000372936770,
  164403654766100550,
  164394588156739650,
  164403517360701510,
  164394588123193410,
  164403517394255940,
  164394862933991490,
  164403792171507780,
  164395000372928580,
  164403654732554310,
  164394588156731460,
  164403792171515970,
  164395000406474820,
  164403654732570690,
  164394725595676740,
  164403517293617220,
  164394725495038020,
  164403517293609030,
  164394588089638980,
  164403379921756230,
  164394588123177030,
  164403379955310660,
  164394862933975110,
  164403379888209990,
  164394588089630790,
  164403379888218180,
  164394725495029830,
  164403379921772610,
  164394725562122310,
  164403379955318850,
  164394862967521350]
def T4_quad_cert_12 : List Nat := [164394998293078080,
  164394998293078080,
  164394860887679040,
  164394860887679040,
  164394998259531840,
  164394998259531840,
  164394860820586560,
  164394723448733760,
  164394723415187520,
  164394723415187520,
  164394723448733760,
  164394860820586560,
  164394998293069890,
  164394998293069890,
  164394860887670850,
  164394860887670850,
  164394998259515460,
  164394998225977410,
  164394860820561990,
  164394586009780290,
  164394723415162950,
  164394585976234050,
  164394723448717380,
  164394860787032130,
  164394998225969220,
  164394998225969220,
  164394860787015750,
  164394586009772100,
  164394998225977410,
  164394998259515460,
  164394860787032130,
  164394723448717380,
  164394723348078660,
  164394723348078660,
  164394723348070470,
  164394585942679620,
  164394585976217670,
  164394585976217670,
  164394586009772100,
  164394860787015750,
  164394585942671430,
  164394585942671430,
  164394585942679620,
  164394723348070470,
  164394585976234050,
  164394723415162950,
  164394586009780290,
  164394860820561990,
  164395000440037440,
  164403792238616640,
  164394863034638400,
  164403654833217600,
  164395000406491200,
  164403792205070400,
  164394862967545920,
  164403517394272320,
  164394725562146880,
  164403517360726080,
  164394725595693120,
  164403654766125120,
  164395000440029250,
  164403792238608450,
  164394863034630210,
  164403654833209410,
  164395000406474820,
  164403792171515970,
  164394862967521350,
  164403379955318850,
  164394725562122310,
  164403379921772610,
  164394725595676740,
  164403654732570690,
  164395000372928580,
  164403792171507780,
  164394862933975110,
  164403379955310660,
  164395000372936770,
  164403792205054020,
  164394862933991490,
  164403517394255940,
  164394725495038020,
  164403517293617220,
  164394725495029830,
  164403379888218180,
  164394588123177030,
  164403379921756230,
  164394588156731460,
  164403654732554310,
  164394588089630790,
  164403379888209990,
  164394588089638980,
  164403517293609030,
  164394588123193410,
  164403517360701510,
  164394588156739650,
  164403654766100550,
  164412590477549760,
  164412590477549760,
  164412453072150720,
  164412453072150720,
  164412590444003520,
  164412590444003520,
  164412453005058240,
  164412315633205440,
  164412315599659200,
  164412315599659200,
  164412315633205440,
  164412453005058240,
  164412590477541570,
  164412590477541570,
  164412453072142530,
  164412453072142530,
  164412590443987140,
  164412590410449090,
  164412453005033670,
  164412178194251970,
  164412315599634630,
  164412178160705730,
  164412315633189060,
  164412452971503810,
  164412590410440900,
  164412590410440900,
  164412452971487430,
  164412178194243780,
  164412590410449090,
  164412590443987140,
  164412452971503810,
  164412315633189060,
  164412315532550340,
  164412315532550340,
  164412315532542150,
  164412178127151300,
  164412178160689350,
  164412178160689350,
  164412178194243780,
  164412452971487430,
  164412178127143110,
  164412178127143110,
  164412178127151300,
  164412315532542150,
  164412178160705730,
  164412315599634630,
  164412178194251970,
  164412453005033670,
  164403796532011200,
  164403796532011200,
  164403659126612160,
  164403659126612160,
  164403796498464960,
  164403796498464960,
  164403659059519680,
  164403521687666880,
  164403521654120640,
  164403521654120640,
  164403521687666880,
  164403659059519680,
  164403796532003010,
  164403796532003010,
  164403659126603970,
  164403659126603970,
  164403796498448580,
  164403796464910530,
  164403659059495110,
  164403384248713410,
  164403521654096070,
  164403384215167170,
  164403521687650500,
  164403659025965250,
  164403796464902340,
  164403796464902340,
  164403659025948870,
  164403384248705220,
  164403796464910530,
  164403796498448580,
  164403659025965250,
  164403521687650500,
  164403521587011780,
  164403521587011780,
  164403521587003590,
  164403384181612740,
  164403384215150790,
  164403384215150790,
  164403384248705220,
  164403659025948870,
  164403384181604550,
  164403384181604550,
  164403384181612740,
  164403521587003590,
  164403384215167170,
  164403521654096070,
  164403384248713410,
  164403659059495110,
  164412588330066240,
  164412586183631040,
  164412450924667200,
  164412448778232000,
  164412588296520000,
  164412586150084800,
  164412450857574720,
  164412311339286720,
  164412313452175680,
  164412311305740480,
  164412313485721920,
  164412448711139520,
  164412588330058050,
  164412586183622850,
  164412450924659010,
  164412448778223810,
  164412588296503620,
  164412586116530370,
  164412450857550150,
  164412173900333250,
  164412313452151110,
  164412173866787010,
  164412313485705540,
  164412448677585090,
  164412588262957380,
  164412586116522180,
  164412450824003910,
  164412173900325060,
  164412588262965570,
  164412586150068420,
  164412450824020290,
  164412311339270340,
  164412313385066820,
  164412311238631620,
  164412313385058630,
  164412173833232580,
  164412176013205830,
  164412173866770630,
  164412176046760260,
  164412448677568710,
  164412175979659590,
  164412173833224390,
  164412175979667780,
  164412311238623430,
  164412176013222210,
  164412311305715910,
  164412176046768450,
  164412448711114950,
  164403792237044160,
  164386204347015360,
  164403654831645120,
  164386066941616320,
  164403792203497920,
  164386204313469120,
  164403654764552640,
  164385929502671040,
  164403517359153600,
  164385929469124800,
  164403517392699840,
  164386066874523840,
  164403792237035970,
  164386204347007170,
  164403654831636930,
  164386066941608130,
  164403792203481540,
  164386204279914690,
  164403654764528070,
  164385792063717570,
  164403517359129030,
  164385792030171330,
  164403517392683460,
  164386066840969410,
  164403792169935300,
  164386204279906500,
  164403654730981830,
  164385792063709380,
  164403792169943490,
  164386204313452740,
  164403654730998210,
  164385929502654660,
  164403517292044740,
  164385929402015940,
  164403517292036550,
  164385791996616900,
  164403379920183750,
  164385792030154950,
  164403379953738180,
  164386066840953030,
  164403379886637510,
  164385791996608710,
  164403379886645700,
  164385929402007750,
  164403379920200130,
  164385929469100230,
  164403379953746370,
  164386066874499270,
  164394998291505600,
  164386202200056000,
  164394860886106560,
  164386064794656960,
  164394998257959360,
  164386202166509760,
  164394860819014080,
  164385927355711680,
  164394723413615040,
  164385927322165440,
  164394723447161280,
  164386064727564480,
  164394998291497410,
  164386202200047810,
  164394860886098370,
  164386064794648770,
  164394998257942980,
  164386202132955330,
  164394860818989510,
  164385789916758210,
  164394723413590470,
  164385789883211970,
  164394723447144900,
  164386064694010050,
  164394998224396740,
  164386202132947140,
  164394860785443270,
  164385789916750020,
  164394998224404930,
  164386202166493380,
  164394860785459650,
  164385927355695300,
  164394723346506180,
  164385927255056580,
  164394723346497990,
  164385789849657540,
  164394585974645190,
  164385789883195590,
  164394586008199620,
  164386064693993670,
  164394585941098950,
  164385789849649350,
  164394585941107140,
  164385927255048390,
  164394585974661570,
  164385927322140870,
  164394586008207810,
  164386064727539910,
  164395000438989120,
  164403790091133120,
  164394863033590080,
  164403652685734080,
  164395000405442880,
  164403790057586880,
  164394862966497600,
  164403515246788800,
  164394725561098560,
  164403515213242560,
  164394725594644800,
  164403652618641600,
  164395000438980930,
  164403790091124930,
  164394863033581890,
  164403652685725890,
  164395000405426500,
  164403790024032450,
  164394862966473030,
  164403377807835330,
  164394725561073990,
  164403377774289090,
  164394725594628420,
  164403652585087170,
  164395000371880260,
  164403790024024260,
  164394862932926790,
  164403377807827140,
  164395000371888450,
  164403790057570500,
  164394862932943170,
  164403515246772420,
  164394725493989700,
  164403515146133700,
  164394725493981510,
  164403377740734660,
  164394588122128710,
  164403377774272710,
  164394588155683140,
  164403652585070790,
  164394588088582470,
  164403377740726470,
  164394588088590660,
  164403515146125510,
  164394588122145090,
  164403515213217990,
  164394588155691330,
  164403652618617030,
  164412586183106880,
  164412586183106880,
  164412448777707840,
  164412448777707840,
  164412586149560640,
  164412586149560640,
  164412448710615360,
  164412311338762560,
  164412311305216320,
  164412311305216320,
  164412311338762560,
  164412448710615360,
  164412586183098690,
  164412586183098690,
  164412448777699650,
  164412448777699650]
def T4_quad_cert_13 : List Nat := [164412586149544260,
  164412586116006210,
  164412448710590790,
  164412173899809090,
  164412311305191750,
  164412173866262850,
  164412311338746180,
  164412448677060930,
  164412586115998020,
  164412586115998020,
  164412448677044550,
  164412173899800900,
  164412586116006210,
  164412586149544260,
  164412448677060930,
  164412311338746180,
  164412311238107460,
  164412311238107460,
  164412311238099270,
  164412173832708420,
  164412173866246470,
  164412173866246470,
  164412173899800900,
  164412448677044550,
  164412173832700230,
  164412173832700230,
  164412173832708420,
  164412311238099270,
  164412173866262850,
  164412311305191750,
  164412173899809090,
  164412448710590790,
  164403790090084800,
  164386204346491200,
  164403652684685760,
  164386066941092160,
  164403790056538560,
  164386204312944960,
  164403652617593280,
  164385929502146880,
  164403515212194240,
  164385929468600640,
  164403515245740480,
  164386066873999680,
  164403790090076610,
  164386204346483010,
  164403652684677570,
  164386066941083970,
  164403790056522180,
  164386204279390530,
  164403652617568710,
  164385792063193410,
  164403515212169670,
  164385792029647170,
  164403515245724100,
  164386066840445250,
  164403790022975940,
  164386204279382340,
  164403652584022470,
  164385792063185220,
  164403790022984130,
  164386204312928580,
  164403652584038850,
  164385929502130500,
  164403515145085380,
  164385929401491780,
  164403515145077190,
  164385791996092740,
  164403377773224390,
  164385792029630790,
  164403377806778820,
  164386066840428870,
  164403377739678150,
  164385791996084550,
  164403377739686340,
  164385929401483590,
  164403377773240770,
  164385929468576070,
  164403377806787010,
  164386066873975110,
  164412586183631040,
  164412588330066240,
  164412448778232000,
  164412450924667200,
  164412586150084800,
  164412588296520000,
  164412448711139520,
  164412313485721920,
  164412311305740480,
  164412313452175680,
  164412311339286720,
  164412450857574720,
  164412586183622850,
  164412588330058050,
  164412448778223810,
  164412450924659010,
  164412586150068420,
  164412588262965570,
  164412448711114950,
  164412176046768450,
  164412311305715910,
  164412176013222210,
  164412311339270340,
  164412450824020290,
  164412586116522180,
  164412588262957380,
  164412448677568710,
  164412176046760260,
  164412586116530370,
  164412588296503620,
  164412448677585090,
  164412313485705540,
  164412311238631620,
  164412313385066820,
  164412311238623430,
  164412175979667780,
  164412173866770630,
  164412176013205830,
  164412173900325060,
  164412450824003910,
  164412173833224390,
  164412175979659590,
  164412173833232580,
  164412313385058630,
  164412173866787010,
  164412313452151110,
  164412173900333250,
  164412450857550150,
  164403790091133120,
  164395000438989120,
  164403652685734080,
  164394863033590080,
  164403790057586880,
  164395000405442880,
  164403652618641600,
  164394725594644800,
  164403515213242560,
  164394725561098560,
  164403515246788800,
  164394862966497600,
  164403790091124930,
  164395000438980930,
  164403652685725890,
  164394863033581890,
  164403790057570500,
  164395000371888450,
  164403652618617030,
  164394588155691330,
  164403515213217990,
  164394588122145090,
  164403515246772420,
  164394862932943170,
  164403790024024260,
  164395000371880260,
  164403652585070790,
  164394588155683140,
  164403790024032450,
  164395000405426500,
  164403652585087170,
  164394725594628420,
  164403515146133700,
  164394725493989700,
  164403515146125510,
  164394588088590660,
  164403377774272710,
  164394588122128710,
  164403377807827140,
  164394862932926790,
  164403377740726470,
  164394588088582470,
  164403377740734660,
  164394725493981510,
  164403377774289090,
  164394725561073990,
  164403377807835330,
  164394862966473030,
  164394993998111040,
  164394993998111040,
  164394856592712000,
  164394856592712000,
  164394993964564800,
  164394993964564800,
  164394856525619520,
  164394719153766720,
  164394719120220480,
  164394719120220480,
  164394719153766720,
  164394856525619520,
  164394993998102850,
  164394993998102850,
  164394856592703810,
  164394856592703810,
  164394993964548420,
  164394993931010370,
  164394856525594950,
  164394581714813250,
  164394719120195910,
  164394581681267010,
  164394719153750340,
  164394856492065090,
  164394993931002180,
  164394993931002180,
  164394856492048710,
  164394581714805060,
  164394993931010370,
  164394993964548420,
  164394856492065090,
  164394719153750340,
  164394719053111620,
  164394719053111620,
  164394719053103430,
  164394581647712580,
  164394581681250630,
  164394581681250630,
  164394581714805060,
  164394856492048710,
  164394581647704390,
  164394581647704390,
  164394581647712580,
  164394719053103430,
  164394581681267010,
  164394719120195910,
  164394581714813250,
  164394856525594950,
  164394993997586880,
  164386200052572480,
  164394856592187840,
  164386062647173440,
  164394993964040640,
  164386200019026240,
  164394856525095360,
  164385925208228160,
  164394719119696320,
  164385925174681920,
  164394719153242560,
  164386062580080960,
  164394993997578690,
  164386200052564290,
  164394856592179650,
  164386062647165250,
  164394993964024260,
  164386199985471810,
  164394856525070790,
  164385787769274690,
  164394719119671750,
  164385787735728450,
  164394719153226180,
  164386062546526530,
  164394993930478020,
  164386199985463620,
  164394856491524550,
  164385787769266500,
  164394993930486210,
  164386200019009860,
  164394856491540930,
  164385925208211780,
  164394719052587460,
  164385925107573060,
  164394719052579270,
  164385787702174020,
  164394581680726470,
  164385787735712070,
  164394581714280900,
  164386062546510150,
  164394581647180230,
  164385787702165830,
  164394581647188420,
  164385925107564870,
  164394581680742850,
  164385925174657350,
  164394581714289090,
  164386062580056390,
  164386202199007680,
  164386202199007680,
  164386064793608640,
  164386064793608640,
  164386202165461440,
  164386202165461440,
  164386064726516160,
  164385927354663360,
  164385927321117120,
  164385927321117120,
  164385927354663360,
  164386064726516160,
  164386202198999490,
  164386202198999490,
  164386064793600450,
  164386064793600450,
  164386202165445060,
  164386202131907010,
  164386064726491590,
  164385789915709890,
  164385927321092550,
  164385789882163650,
  164385927354646980,
  164386064692961730,
  164386202131898820,
  164386202131898820,
  164386064692945350,
  164385789915701700,
  164386202131907010,
  164386202165445060,
  164386064692961730,
  164385927354646980,
  164385927254008260,
  164385927254008260,
  164385927254000070,
  164385789848609220,
  164385789882147270,
  164385789882147270,
  164385789915701700,
  164386064692945350,
  164385789848601030,
  164385789848601030,
  164385789848609220,
  164385927254000070,
  164385789882163650,
  164385927321092550,
  164385789915709890,
  164386064726491590,
  164386204346491200,
  164403790090084800,
  164386066941092160,
  164403652684685760,
  164386204312944960,
  164403790056538560,
  164386066873999680,
  164403515245740480,
  164385929468600640,
  164403515212194240,
  164385929502146880,
  164403652617593280,
  164386204346483010,
  164403790090076610,
  164386066941083970,
  164403652684677570,
  164386204312928580,
  164403790022984130,
  164386066873975110,
  164403377806787010,
  164385929468576070,
  164403377773240770,
  164385929502130500,
  164403652584038850,
  164386204279382340,
  164403790022975940,
  164386066840428870,
  164403377806778820,
  164386204279390530,
  164403790056522180,
  164386066840445250,
  164403515245724100,
  164385929401491780,
  164403515145085380,
  164385929401483590,
  164403377739686340,
  164385792029630790,
  164403377773224390,
  164385792063185220,
  164403652584022470,
  164385791996084550,
  164403377739678150,
  164385791996092740,
  164403515145077190,
  164385792029647170,
  164403515212169670,
  164385792063193410,
  164403652617568710,
  164386200052048320,
  164386200052048320,
  164386062646649280,
  164386062646649280,
  164386200018502080,
  164386200018502080,
  164386062579556800,
  164385925207704000,
  164385925174157760,
  164385925174157760,
  164385925207704000,
  164386062579556800,
  164386200052040130,
  164386200052040130,
  164386062646641090,
  164386062646641090,
  164386200018485700,
  164386199984947650,
  164386062579532230,
  164385787768750530,
  164385925174133190,
  164385787735204290,
  164385925207687620,
  164386062546002370,
  164386199984939460,
  164386199984939460,
  164386062545985990,
  164385787768742340,
  164386199984947650,
  164386200018485700,
  164386062546002370,
  164385925207687620]
def T4_quad_cert_14 : List Nat := [164385925107048900,
  164385925107048900,
  164385925107040710,
  164385787701649860,
  164385787735187910,
  164385787735187910,
  164385787768742340,
  164386062545985990,
  164385787701641670,
  164385787701641670,
  164385787701649860,
  164385925107040710,
  164385787735204290,
  164385925174133190,
  164385787768750530,
  164386062579532230,
  164386200052572480,
  164394993997586880,
  164386062647173440,
  164394856592187840,
  164386200019026240,
  164394993964040640,
  164386062580080960,
  164394719153242560,
  164385925174681920,
  164394719119696320,
  164385925208228160,
  164394856525095360,
  164386200052564290,
  164394993997578690,
  164386062647165250,
  164394856592179650,
  164386200019009860,
  164394993930486210,
  164386062580056390,
  164394581714289090,
  164385925174657350,
  164394581680742850,
  164385925208211780,
  164394856491540930,
  164386199985463620,
  164394993930478020,
  164386062546510150,
  164394581714280900,
  164386199985471810,
  164394993964024260,
  164386062546526530,
  164394719153226180,
  164385925107573060,
  164394719052587460,
  164385925107564870,
  164394581647188420,
  164385787735712070,
  164394581680726470,
  164385787769266500,
  164394856491524550,
  164385787702165830,
  164394581647180230,
  164385787702174020,
  164394719052579270,
  164385787735728450,
  164394719119671750,
  164385787769274690,
  164394856525070790,
  164386202200056000,
  164394998291505600,
  164386064794656960,
  164394860886106560,
  164386202166509760,
  164394998257959360,
  164386064727564480,
  164394723447161280,
  164385927322165440,
  164394723413615040,
  164385927355711680,
  164394860819014080,
  164386202200047810,
  164394998291497410,
  164386064794648770,
  164394860886098370,
  164386202166493380,
  164394998224404930,
  164386064727539910,
  164394586008207810,
  164385927322140870,
  164394585974661570,
  164385927355695300,
  164394860785459650,
  164386202132947140,
  164394998224396740,
  164386064693993670,
  164394586008199620,
  164386202132955330,
  164394998257942980,
  164386064694010050,
  164394723447144900,
  164385927255056580,
  164394723346506180,
  164385927255048390,
  164394585941107140,
  164385789883195590,
  164394585974645190,
  164385789916750020,
  164394860785443270,
  164385789849649350,
  164394585941098950,
  164385789849657540,
  164394723346497990,
  164385789883211970,
  164394723413590470,
  164385789916758210,
  164394860818989510,
  164386204347015360,
  164403792237044160,
  164386066941616320,
  164403654831645120,
  164386204313469120,
  164403792203497920,
  164386066874523840,
  164403517392699840,
  164385929469124800,
  164403517359153600,
  164385929502671040,
  164403654764552640,
  164386204347007170,
  164403792237035970,
  164386066941608130,
  164403654831636930,
  164386204313452740,
  164403792169943490,
  164386066874499270,
  164403379953746370,
  164385929469100230,
  164403379920200130,
  164385929502654660,
  164403654730998210,
  164386204279906500,
  164403792169935300,
  164386066840953030,
  164403379953738180,
  164386204279914690,
  164403792203481540,
  164386066840969410,
  164403517392683460,
  164385929402015940,
  164403517292044740,
  164385929402007750,
  164403379886645700,
  164385792030154950,
  164403379920183750,
  164385792063709380,
  164403654730981830,
  164385791996608710,
  164403379886637510,
  164385791996616900,
  164403517292036550,
  164385792030171330,
  164403517359129030,
  164385792063717570,
  164403654764528070,
  811818900033884659776,
  811818900033884659776,
  811818899896479260736,
  811818899896479260736,
  811818900033851113536,
  811818900033851113536,
  811818899896412168256,
  811818899759040315456,
  811818899759006769216,
  811818899759006769216,
  811818899759040315456,
  811818899896412168256,
  811818900033884651586,
  811818900033884651586,
  811818899896479252546,
  811818899896479252546,
  811818900033851097156,
  811818900033817559106,
  811818899896412143686,
  811818899621601361986,
  811818899759006744646,
  811818899621567815746,
  811818899759040299076,
  811818899896378613826,
  811818900033817550916,
  811818900033817550916,
  811818899896378597446,
  811818899621601353796,
  811818900033817559106,
  811818900033851097156,
  811818899896378613826,
  811818899759040299076,
  811818899758939660356,
  811818899758939660356,
  811818899758939652166,
  811818899621534261316,
  811818899621567799366,
  811818899621567799366,
  811818899621601353796,
  811818899896378597446,
  811818899621534253126,
  811818899621534253126,
  811818899621534261316,
  811818899758939652166,
  811818899621567815746,
  811818899759006744646,
  811818899621601361986,
  811818899896412143686,
  811818891239939121216,
  811818891239939121216,
  811818891102533722176,
  811818891102533722176,
  811818891239905574976,
  811818891239905574976,
  811818891102466629696,
  811818890965094776896,
  811818890965061230656,
  811818890965061230656,
  811818890965094776896,
  811818891102466629696,
  811818891239939113026,
  811818891239939113026,
  811818891102533713986,
  811818891102533713986,
  811818891239905558596,
  811818891239872020546,
  811818891102466605126,
  811818890827655823426,
  811818890965061206086,
  811818890827622277186,
  811818890965094760516,
  811818891102433075266,
  811818891239872012356,
  811818891239872012356,
  811818891102433058886,
  811818890827655815236,
  811818891239872020546,
  811818891239905558596,
  811818891102433075266,
  811818890965094760516,
  811818890964994121796,
  811818890964994121796,
  811818890964994113606,
  811818890827588722756,
  811818890827622260806,
  811818890827622260806,
  811818890827655815236,
  811818891102433058886,
  811818890827588714566,
  811818890827588714566,
  811818890827588722756,
  811818890964994113606,
  811818890827622277186,
  811818890965061206086,
  811818890827655823426,
  811818891102466605126,
  811818900031737700416,
  811818900031737700416,
  811818899894332301376,
  811818899894332301376,
  811818900031704154176,
  811818900031704154176,
  811818899894265208896,
  811818899756893356096,
  811818899756859809856,
  811818899756859809856,
  811818899756893356096,
  811818899894265208896,
  811818900031737692226,
  811818900031737692226,
  811818899894332293186,
  811818899894332293186,
  811818900031704137796,
  811818900031670599746,
  811818899894265184326,
  811818899619454402626,
  811818899756859785286,
  811818899619420856386,
  811818899756893339716,
  811818899894231654466,
  811818900031670591556,
  811818900031670591556,
  811818899894231638086,
  811818899619454394436,
  811818900031670599746,
  811818900031704137796,
  811818899894231654466,
  811818899756893339716,
  811818899756792700996,
  811818899756792700996,
  811818899756792692806,
  811818899619387301956,
  811818899619420840006,
  811818899619420840006,
  811818899619454394436,
  811818899894231638086,
  811818899619387293766,
  811818899619387293766,
  811818899619387301956,
  811818899756792692806,
  811818899619420856386,
  811818899756859785286,
  811818899619454402626,
  811818899894265184326,
  811818891235645202496,
  811818882443846623296,
  811818891098239803456,
  811818882306441224256,
  811818891235611656256,
  811818882443813077056,
  811818891098172710976,
  811818882169002278976,
  811818890960767311936,
  811818882168968732736,
  811818890960800858176,
  811818882306374131776,
  811818891235645194306,
  811818882443846615106,
  811818891098239795266,
  811818882306441216066,
  811818891235611639876,
  811818882443779522626,
  811818891098172686406,
  811818882031563325506,
  811818890960767287366,
  811818882031529779266,
  811818890960800841796,
  811818882306340577346,
  811818891235578093636,
  811818882443779514436,
  811818891098139140166,
  811818882031563317316,
  811818891235578101826,
  811818882443813060676,
  811818891098139156546,
  811818882169002262596,
  811818890960700203076,
  811818882168901623876,
  811818890960700194886,
  811818882031496224836,
  811818890823328342086,
  811818882031529762886,
  811818890823361896516,
  811818882306340560966,
  811818890823294795846,
  811818882031496216646,
  811818890823294804036,
  811818882168901615686,
  811818890823328358466,
  811818882168968708166,
  811818890823361904706,
  811818882306374107206,
  811818882441699663936,
  811818882441699663936,
  811818882304294264896,
  811818882304294264896,
  811818882441666117696,
  811818882441666117696,
  811818882304227172416,
  811818882166855319616,
  811818882166821773376,
  811818882166821773376,
  811818882166855319616,
  811818882304227172416,
  811818882441699655746,
  811818882441699655746,
  811818882304294256706,
  811818882304294256706,
  811818882441666101316,
  811818882441632563266,
  811818882304227147846,
  811818882029416366146,
  811818882166821748806,
  811818882029382819906,
  811818882166855303236,
  811818882304193617986,
  811818882441632555076,
  811818882441632555076,
  811818882304193601606,
  811818882029416357956,
  811818882441632563266,
  811818882441666101316,
  811818882304193617986,
  811818882166855303236,
  811818882166754664516,
  811818882166754664516,
  811818882166754656326,
  811818882029349265476,
  811818882029382803526,
  811818882029382803526,
  811818882029416357956,
  811818882304193601606,
  811818882029349257286,
  811818882029349257286,
  811818882029349265476,
  811818882166754656326,
  811818882029382819906,
  811818882166821748806,
  811818882029416366146,
  811818882304227147846]
def T4_quad_cert_15 : List Nat := [811818882443846623296,
  811818891235645202496,
  811818882306441224256,
  811818891098239803456,
  811818882443813077056,
  811818891235611656256,
  811818882306374131776,
  811818890960800858176,
  811818882168968732736,
  811818890960767311936,
  811818882169002278976,
  811818891098172710976,
  811818882443846615106,
  811818891235645194306,
  811818882306441216066,
  811818891098239795266,
  811818882443813060676,
  811818891235578101826,
  811818882306374107206,
  811818890823361904706,
  811818882168968708166,
  811818890823328358466,
  811818882169002262596,
  811818891098139156546,
  811818882443779514436,
  811818891235578093636,
  811818882306340560966,
  811818890823361896516,
  811818882443779522626,
  811818891235611639876,
  811818882306340577346,
  811818890960800841796,
  811818882168901623876,
  811818890960700203076,
  811818882168901615686,
  811818890823294804036,
  811818882031529762886,
  811818890823328342086,
  811818882031563317316,
  811818891098139140166,
  811818882031496216646,
  811818890823294795846,
  811818882031496224836,
  811818890960700194886,
  811818882031529779266,
  811818890960767287366,
  811818882031563325506,
  811818891098172686406,
  664280976241226686656,
  664280976241226686656,
  664280976103821287616,
  664280976103821287616,
  664280976241193140416,
  664280976241193140416,
  664280976103754195136,
  664280975966382342336,
  664280975966348796096,
  664280975966348796096,
  664280975966382342336,
  664280976103754195136,
  664280976241226678466,
  664280976241226678466,
  664280976103821279426,
  664280976103821279426,
  664280976241193124036,
  664280976241159585986,
  664280976103754170566,
  664280975828943388866,
  664280975966348771526,
  664280975828909842626,
  664280975966382325956,
  664280976103720640706,
  664280976241159577796,
  664280976241159577796,
  664280976103720624326,
  664280975828943380676,
  664280976241159585986,
  664280976241193124036,
  664280976103720640706,
  664280975966382325956,
  664280975966281687236,
  664280975966281687236,
  664280975966281679046,
  664280975828876288196,
  664280975828909826246,
  664280975828909826246,
  664280975828943380676,
  664280976103720624326,
  664280975828876280006,
  664280975828876280006,
  664280975828876288196,
  664280975966281679046,
  664280975828909842626,
  664280975966348771526,
  664280975828943388866,
  664280976103754170566,
  664280967447281148096,
  664280967447281148096,
  664280967309875749056,
  664280967309875749056,
  664280967447247601856,
  664280967447247601856,
  664280967309808656576,
  664280967172436803776,
  664280967172403257536,
  664280967172403257536,
  664280967172436803776,
  664280967309808656576,
  664280967447281139906,
  664280967447281139906,
  664280967309875740866,
  664280967309875740866,
  664280967447247585476,
  664280967447214047426,
  664280967309808632006,
  664280967034997850306,
  664280967172403232966,
  664280967034964304066,
  664280967172436787396,
  664280967309775102146,
  664280967447214039236,
  664280967447214039236,
  664280967309775085766,
  664280967034997842116,
  664280967447214047426,
  664280967447247585476,
  664280967309775102146,
  664280967172436787396,
  664280967172336148676,
  664280967172336148676,
  664280967172336140486,
  664280967034930749636,
  664280967034964287686,
  664280967034964287686,
  664280967034997842116,
  664280967309775085766,
  664280967034930741446,
  664280967034930741446,
  664280967034930749636,
  664280967172336140486,
  664280967034964304066,
  664280967172403232966,
  664280967034997850306,
  664280967309808632006,
  664280976239079203136,
  664280976236932767936,
  664280976101673804096,
  664280976099527368896,
  664280976239045656896,
  664280976236899221696,
  664280976101606711616,
  664280975962088423616,
  664280975964201312576,
  664280975962054877376,
  664280975964234858816,
  664280976099460276416,
  664280976239079194946,
  664280976236932759746,
  664280976101673795906,
  664280976099527360706,
  664280976239045640516,
  664280976236865667266,
  664280976101606687046,
  664280975824649470146,
  664280975964201288006,
  664280975824615923906,
  664280975964234842436,
  664280976099426721986,
  664280976239012094276,
  664280976236865659076,
  664280976101573140806,
  664280975824649461956,
  664280976239012102466,
  664280976236899205316,
  664280976101573157186,
  664280975962088407236,
  664280975964134203716,
  664280975961987768516,
  664280975964134195526,
  664280975824582369476,
  664280975826762342726,
  664280975824615907526,
  664280975826795897156,
  664280976099426705606,
  664280975826728796486,
  664280975824582361286,
  664280975826728804676,
  664280975961987760326,
  664280975826762359106,
  664280975962054852806,
  664280975826795905346,
  664280976099460251846,
  664280967442986181056,
  664280949855096152256,
  664280967305580782016,
  664280949717690753216,
  664280967442952634816,
  664280949855062606016,
  664280967305513689536,
  664280949580251807936,
  664280967168108290496,
  664280949580218261696,
  664280967168141836736,
  664280949717623660736,
  664280967442986172866,
  664280949855096144066,
  664280967305580773826,
  664280949717690745026,
  664280967442952618436,
  664280949855029051586,
  664280967305513664966,
  664280949442812854466,
  664280967168108265926,
  664280949442779308226,
  664280967168141820356,
  664280949717590106306,
  664280967442919072196,
  664280949855029043396,
  664280967305480118726,
  664280949442812846276,
  664280967442919080386,
  664280949855062589636,
  664280967305480135106,
  664280949580251791556,
  664280967168041181636,
  664280949580151152836,
  664280967168041173446,
  664280949442745753796,
  664280967030669320646,
  664280949442779291846,
  664280967030702875076,
  664280949717590089926,
  664280967030635774406,
  664280949442745745606,
  664280967030635782596,
  664280949580151144646,
  664280967030669337026,
  664280949580218237126,
  664280967030702883266,
  664280949717623636166,
  664280958649040642496,
  664280949852949192896,
  664280958511635243456,
  664280949715543793856,
  664280958649007096256,
  664280949852915646656,
  664280958511568150976,
  664280949578104848576,
  664280958374162751936,
  664280949578071302336,
  664280958374196298176,
  664280949715476701376,
  664280958649040634306,
  664280949852949184706,
  664280958511635235266,
  664280949715543785666,
  664280958649007079876,
  664280949852882092226,
  664280958511568126406,
  664280949440665895106,
  664280958374162727366,
  664280949440632348866,
  664280958374196281796,
  664280949715443146946,
  664280958648973533636,
  664280949852882084036,
  664280958511534580166,
  664280949440665886916,
  664280958648973541826,
  664280949852915630276,
  664280958511534596546,
  664280949578104832196,
  664280958374095643076,
  664280949578004193476,
  664280958374095634886,
  664280949440598794436,
  664280958236723782086,
  664280949440632332486,
  664280958236757336516,
  664280949715443130566,
  664280958236690235846,
  664280949440598786246,
  664280958236690244036,
  664280949578004185286,
  664280958236723798466,
  664280949578071277766,
  664280958236757344706,
  664280949715476676806,
  664280958651188126016,
  664280967440840270016,
  664280958513782726976,
  664280967303434870976,
  664280958651154579776,
  664280967440806723776,
  664280958513715634496,
  664280967165995925696,
  664280958376310235456,
  664280967165962379456,
  664280958376343781696,
  664280967303367778496,
  664280958651188117826,
  664280967440840261826,
  664280958513782718786,
  664280967303434862786,
  664280958651154563396,
  664280967440773169346,
  664280958513715609926,
  664280967028556972226,
  664280958376310210886,
  664280967028523425986,
  664280958376343765316,
  664280967303334224066,
  664280958651121017156,
  664280967440773161156,
  664280958513682063686,
  664280967028556964036,
  664280958651121025346,
  664280967440806707396,
  664280958513682080066,
  664280967165995909316,
  664280958376243126596,
  664280967165895270596,
  664280958376243118406,
  664280967028489871556,
  664280958238871265606,
  664280967028523409606,
  664280958238904820036,
  664280967303334207686,
  664280958238837719366,
  664280967028489863366,
  664280958238837727556,
  664280967165895262406,
  664280958238871281986,
  664280967165962354886,
  664280958238904828226,
  664280967303367753926,
  664280976236932243776,
  664280976236932243776,
  664280976099526844736,
  664280976099526844736,
  664280976236898697536,
  664280976236898697536,
  664280976099459752256,
  664280975962087899456,
  664280975962054353216,
  664280975962054353216,
  664280975962087899456,
  664280976099459752256,
  664280976236932235586,
  664280976236932235586,
  664280976099526836546,
  664280976099526836546,
  664280976236898681156,
  664280976236865143106,
  664280976099459727686,
  664280975824648945986,
  664280975962054328646,
  664280975824615399746,
  664280975962087883076,
  664280976099426197826,
  664280976236865134916,
  664280976236865134916,
  664280976099426181446,
  664280975824648937796,
  664280976236865143106,
  664280976236898681156,
  664280976099426197826,
  664280975962087883076,
  664280975961987244356,
  664280975961987244356,
  664280975961987236166,
  664280975824581845316,
  664280975824615383366,
  664280975824615383366,
  664280975824648937796,
  664280976099426181446,
  664280975824581837126,
  664280975824581837126,
  664280975824581845316,
  664280975961987236166,
  664280975824615399746,
  664280975962054328646,
  664280975824648945986,
  664280976099459727686,
  664280967440839221696,
  664280949855095628096,
  664280967303433822656,
  664280949717690229056,
  664280967440805675456,
  664280949855062081856,
  664280967303366730176,
  664280949580251283776,
  664280967165961331136,
  664280949580217737536,
  664280967165994877376,
  664280949717623136576,
  664280967440839213506,
  664280949855095619906,
  664280967303433814466,
  664280949717690220866]
def T4_quad_cert_16 : List Nat := [664280967440805659076,
  664280949855028527426,
  664280967303366705606,
  664280949442812330306,
  664280967165961306566,
  664280949442778784066,
  664280967165994860996,
  664280949717589582146,
  664280967440772112836,
  664280949855028519236,
  664280967303333159366,
  664280949442812322116,
  664280967440772121026,
  664280949855062065476,
  664280967303333175746,
  664280949580251267396,
  664280967165894222276,
  664280949580150628676,
  664280967165894214086,
  664280949442745229636,
  664280967028522361286,
  664280949442778767686,
  664280967028555915716,
  664280949717589565766,
  664280967028488815046,
  664280949442745221446,
  664280967028488823236,
  664280949580150620486,
  664280967028522377666,
  664280949580217712966,
  664280967028555923906,
  664280949717623112006,
  811818900029590216896,
  811818900031736652096,
  811818899892184817856,
  811818899894331253056,
  811818900029556670656,
  811818900031703105856,
  811818899892117725376,
  811818899756892307776,
  811818899754712326336,
  811818899756858761536,
  811818899754745872576,
  811818899894264160576,
  811818900029590208706,
  811818900031736643906,
  811818899892184809666,
  811818899894331244866,
  811818900029556654276,
  811818900031669551426,
  811818899892117700806,
  811818899619453354306,
  811818899754712301766,
  811818899619419808066,
  811818899754745856196,
  811818899894230606146,
  811818900029523108036,
  811818900031669543236,
  811818899892084154566,
  811818899619453346116,
  811818900029523116226,
  811818900031703089476,
  811818899892084170946,
  811818899756892291396,
  811818899754645217476,
  811818899756791652676,
  811818899754645209286,
  811818899619386253636,
  811818899617273356486,
  811818899619419791686,
  811818899617306910916,
  811818899894230589766,
  811818899617239810246,
  811818899619386245446,
  811818899617239818436,
  811818899756791644486,
  811818899617273372866,
  811818899756858736966,
  811818899617306919106,
  811818899894264136006,
  811818891233497718976,
  811818882443845574976,
  811818891096092319936,
  811818882306440175936,
  811818891233464172736,
  811818882443812028736,
  811818891096025227456,
  811818882169001230656,
  811818890958619828416,
  811818882168967684416,
  811818890958653374656,
  811818882306373083456,
  811818891233497710786,
  811818882443845566786,
  811818891096092311746,
  811818882306440167746,
  811818891233464156356,
  811818882443778474306,
  811818891096025202886,
  811818882031562277186,
  811818890958619803846,
  811818882031528730946,
  811818890958653358276,
  811818882306339529026,
  811818891233430610116,
  811818882443778466116,
  811818891095991656646,
  811818882031562268996,
  811818891233430618306,
  811818882443812012356,
  811818891095991673026,
  811818882169001214276,
  811818890958552719556,
  811818882168900575556,
  811818890958552711366,
  811818882031495176516,
  811818890821180858566,
  811818882031528714566,
  811818890821214412996,
  811818882306339512646,
  811818890821147312326,
  811818882031495168326,
  811818890821147320516,
  811818882168900567366,
  811818890821180874946,
  811818882168967659846,
  811818890821214421186,
  811818882306373058886,
  811818882437404696896,
  811818882437404696896,
  811818882299999297856,
  811818882299999297856,
  811818882437371150656,
  811818882437371150656,
  811818882299932205376,
  811818882162560352576,
  811818882162526806336,
  811818882162526806336,
  811818882162560352576,
  811818882299932205376,
  811818882437404688706,
  811818882437404688706,
  811818882299999289666,
  811818882299999289666,
  811818882437371134276,
  811818882437337596226,
  811818882299932180806,
  811818882025121399106,
  811818882162526781766,
  811818882025087852866,
  811818882162560336196,
  811818882299898650946,
  811818882437337588036,
  811818882437337588036,
  811818882299898634566,
  811818882025121390916,
  811818882437337596226,
  811818882437371134276,
  811818882299898650946,
  811818882162560336196,
  811818882162459697476,
  811818882162459697476,
  811818882162459689286,
  811818882025054298436,
  811818882025087836486,
  811818882025087836486,
  811818882025121390916,
  811818882299898634566,
  811818882025054290246,
  811818882025054290246,
  811818882025054298436,
  811818882162459689286,
  811818882025087852866,
  811818882162526781766,
  811818882025121399106,
  811818882299932180806,
  664280958644746723776,
  664280949850801709376,
  664280958507341324736,
  664280949713396310336,
  664280958644713177536,
  664280949850768163136,
  664280958507274232256,
  664280949575957365056,
  664280958369868833216,
  664280949575923818816,
  664280958369902379456,
  664280949713329217856,
  664280958644746715586,
  664280949850801701186,
  664280958507341316546,
  664280949713396302146,
  664280958644713161156,
  664280949850734608706,
  664280958507274207686,
  664280949438518411586,
  664280958369868808646,
  664280949438484865346,
  664280958369902363076,
  664280949713295663426,
  664280958644679614916,
  664280949850734600516,
  664280958507240661446,
  664280949438518403396,
  664280958644679623106,
  664280949850768146756,
  664280958507240677826,
  664280949575957348676,
  664280958369801724356,
  664280949575856709956,
  664280958369801716166,
  664280949438451310916,
  664280958232429863366,
  664280949438484848966,
  664280958232463417796,
  664280949713295647046,
  664280958232396317126,
  664280949438451302726,
  664280958232396325316,
  664280949575856701766,
  664280958232429879746,
  664280949575923794246,
  664280958232463425986,
  664280949713329193286,
  664280949852948144576,
  664280949852948144576,
  664280949715542745536,
  664280949715542745536,
  664280949852914598336,
  664280949852914598336,
  664280949715475653056,
  664280949578103800256,
  664280949578070254016,
  664280949578070254016,
  664280949578103800256,
  664280949715475653056,
  664280949852948136386,
  664280949852948136386,
  664280949715542737346,
  664280949715542737346,
  664280949852914581956,
  664280949852881043906,
  664280949715475628486,
  664280949440664846786,
  664280949578070229446,
  664280949440631300546,
  664280949578103783876,
  664280949715442098626,
  664280949852881035716,
  664280949852881035716,
  664280949715442082246,
  664280949440664838596,
  664280949852881043906,
  664280949852914581956,
  664280949715442098626,
  664280949578103783876,
  664280949578003145156,
  664280949578003145156,
  664280949578003136966,
  664280949440597746116,
  664280949440631284166,
  664280949440631284166,
  664280949440664838596,
  664280949715442082246,
  664280949440597737926,
  664280949440597737926,
  664280949440597746116,
  664280949578003136966,
  664280949440631300546,
  664280949578070229446,
  664280949440664846786,
  664280949715475628486,
  664280949855095628096,
  664280967440839221696,
  664280949717690229056,
  664280967303433822656,
  664280949855062081856,
  664280967440805675456,
  664280949717623136576,
  664280967165994877376,
  664280949580217737536,
  664280967165961331136,
  664280949580251283776,
  664280967303366730176,
  664280949855095619906,
  664280967440839213506,
  664280949717690220866,
  664280967303433814466,
  664280949855062065476,
  664280967440772121026,
  664280949717623112006,
  664280967028555923906,
  664280949580217712966,
  664280967028522377666,
  664280949580251267396,
  664280967303333175746,
  664280949855028519236,
  664280967440772112836,
  664280949717589565766,
  664280967028555915716,
  664280949855028527426,
  664280967440805659076,
  664280949717589582146,
  664280967165994860996,
  664280949580150628676,
  664280967165894222276,
  664280949580150620486,
  664280967028488823236,
  664280949442778767686,
  664280967028522361286,
  664280949442812322116,
  664280967303333159366,
  664280949442745221446,
  664280967028488815046,
  664280949442745229636,
  664280967165894214086,
  664280949442778784066,
  664280967165961306566,
  664280949442812330306,
  664280967303366705606,
  664280949850801185216,
  664280949850801185216,
  664280949713395786176,
  664280949713395786176,
  664280949850767638976,
  664280949850767638976,
  664280949713328693696,
  664280949575956840896,
  664280949575923294656,
  664280949575923294656,
  664280949575956840896,
  664280949713328693696,
  664280949850801177026,
  664280949850801177026,
  664280949713395777986,
  664280949713395777986,
  664280949850767622596,
  664280949850734084546,
  664280949713328669126,
  664280949438517887426,
  664280949575923270086,
  664280949438484341186,
  664280949575956824516,
  664280949713295139266,
  664280949850734076356,
  664280949850734076356,
  664280949713295122886,
  664280949438517879236,
  664280949850734084546,
  664280949850767622596,
  664280949713295139266,
  664280949575956824516,
  664280949575856185796,
  664280949575856185796,
  664280949575856177606,
  664280949438450786756,
  664280949438484324806,
  664280949438484324806,
  664280949438517879236,
  664280949713295122886,
  664280949438450778566,
  664280949438450778566,
  664280949438450786756,
  664280949575856177606,
  664280949438484341186,
  664280949575923270086,
  664280949438517887426,
  664280949713328669126,
  811818873643459158336,
  811818882437404172736,
  811818873506053759296,
  811818882299998773696,
  811818873643425612096,
  811818882437370626496,
  811818873505986666816,
  811818882162559828416,
  811818873368581267776,
  811818882162526282176,
  811818873368614814016,
  811818882299931681216,
  811818873643459150146,
  811818882437404164546,
  811818873506053751106,
  811818882299998765506,
  811818873643425595716,
  811818882437337072066,
  811818873505986642246,
  811818882025120874946,
  811818873368581243206,
  811818882025087328706,
  811818873368614797636,
  811818882299898126786,
  811818873643392049476,
  811818882437337063876,
  811818873505953096006,
  811818882025120866756,
  811818873643392057666,
  811818882437370610116,
  811818873505953112386,
  811818882162559812036]
def T4_quad_cert_17 : List Nat := [811818873368514158916,
  811818882162459173316,
  811818873368514150726,
  811818882025053774276,
  811818873231142297926,
  811818882025087312326,
  811818873231175852356,
  811818882299898110406,
  811818873231108751686,
  811818882025053766086,
  811818873231108759876,
  811818882162459165126,
  811818873231142314306,
  811818882162526257606,
  811818873231175860546,
  811818882299931656646,
  811818873645606641856,
  811818882441698091456,
  811818873508201242816,
  811818882304292692416,
  811818873645573095616,
  811818882441664545216,
  811818873508134150336,
  811818882166853747136,
  811818873370728751296,
  811818882166820200896,
  811818873370762297536,
  811818882304225599936,
  811818873645606633666,
  811818882441698083266,
  811818873508201234626,
  811818882304292684226,
  811818873645573079236,
  811818882441630990786,
  811818873508134125766,
  811818882029414793666,
  811818873370728726726,
  811818882029381247426,
  811818873370762281156,
  811818882304192045506,
  811818873645539532996,
  811818882441630982596,
  811818873508100579526,
  811818882029414785476,
  811818873645539541186,
  811818882441664528836,
  811818873508100595906,
  811818882166853730756,
  811818873370661642436,
  811818882166753092036,
  811818873370661634246,
  811818882029347692996,
  811818873233289781446,
  811818882029381231046,
  811818873233323335876,
  811818882304192029126,
  811818873233256235206,
  811818882029347684806,
  811818873233256243396,
  811818882166753083846,
  811818873233289797826,
  811818882166820176326,
  811818873233323344066,
  811818882304225575366,
  811818873647753601216,
  811818891235643630016,
  811818873510348202176,
  811818891098238230976,
  811818873647720054976,
  811818891235610083776,
  811818873510281109696,
  811818890960799285696,
  811818873372875710656,
  811818890960765739456,
  811818873372909256896,
  811818891098171138496,
  811818873647753593026,
  811818891235643621826,
  811818873510348193986,
  811818891098238222786,
  811818873647720038596,
  811818891235576529346,
  811818873510281085126,
  811818890823360332226,
  811818873372875686086,
  811818890823326785986,
  811818873372909240516,
  811818891098137584066,
  811818873647686492356,
  811818891235576521156,
  811818873510247538886,
  811818890823360324036,
  811818873647686500546,
  811818891235610067396,
  811818873510247555266,
  811818890960799269316,
  811818873372808601796,
  811818890960698630596,
  811818873372808593606,
  811818890823293231556,
  811818873235436740806,
  811818890823326769606,
  811818873235470295236,
  811818891098137567686,
  811818873235403194566,
  811818890823293223366,
  811818873235403202756,
  811818890960698622406,
  811818873235436757186,
  811818890960765714886,
  811818873235470303426,
  811818891098171113926]

/-- Check T4_quad.  -/
theorem T4_quad : isZero kinds [aᵥ, bᵥ, cᵥ, dᵥ, iₒ, jₒ, kₒ, lₒ] 16
    (Prog.outs [4, 5, 6, 7, 0, 1, 2, 3] (Prog.part [[23, 39, 39]] (wnT2cubed_toT4)) ++ (Prog.scale (-1) (Prog.through tamps_antisym_T4 (unsym_residQf1))))
    (T4_quad_cert_0 ++ (T4_quad_cert_1 ++ (T4_quad_cert_2 ++ (T4_quad_cert_3 ++ (T4_quad_cert_4 ++ (T4_quad_cert_5 ++ (T4_quad_cert_6 ++ (T4_quad_cert_7 ++ (T4_quad_cert_8 ++ (T4_quad_cert_9 ++ (T4_quad_cert_10 ++ (T4_quad_cert_11 ++ (T4_quad_cert_12 ++ (T4_quad_cert_13 ++ (T4_quad_cert_14 ++ (T4_quad_cert_15 ++ (T4_quad_cert_16 ++ (T4_quad_cert_17)))))))))))))))))) = true := by decide +kernel

def T4_cub_cert_0 : List Nat := [823350366879766814784,
  823350366879766814784,
  823350358085821276224,
  823350358085821276224,
  823350366877619855424,
  823350366877619855424,
  823350358081527357504,
  823350349289728778304,
  823350349287581818944,
  823350349287581818944,
  823350349289728778304,
  823350358081527357504,
  823350366879766290624,
  823350366879766290624,
  823350358085820752064,
  823350358085820752064,
  823350366877618807104,
  823350366875472371904,
  823350358081525785024,
  823350340493635756224,
  823350349287580246464,
  823350340491488796864,
  823350349289727729984,
  823350358079379873984,
  821045086816211575104,
  821045086816211575104,
  821045078020118553024,
  821045060434374959424,
  821045086816212099264,
  821045086818358534464,
  821045078020119601344,
  821045069230467457344,
  821045069224026579264,
  821045069224026579264,
  821045069224026055104,
  821045060430081040704,
  821045060432227475904,
  821045060432227475904,
  821045060434374959424,
  821045078020118553024,
  821045060430080516544,
  821045060430080516544,
  821045060430081040704,
  821045069224026055104,
  821045060432228524224,
  821045069228319973824,
  821045060434375483584,
  821045078022265512384,
  823350366742361415744,
  823350366742361415744,
  823350357948415877184,
  823350357948415877184,
  823350366740214456384,
  823350366740214456384,
  823350357944121958464,
  823350349152323379264,
  823350349150176419904,
  823350349150176419904,
  823350349152323379264,
  823350357944121958464,
  823350366742360891584,
  823350366742360891584,
  823350357948415353024,
  823350357948415353024,
  823350366740213408064,
  823350366738066972864,
  823350357944120385984,
  823350340356230357184,
  823350349150174847424,
  823350340354083397824,
  823350349152322330944,
  823350357941974474944,
  821045086678806176064,
  821045086678806176064,
  821045077882713153984,
  821045060296969560384,
  821045086678806700224,
  821045086680953135424,
  821045077882714202304,
  821045069093062058304,
  821045069086621180224,
  821045069086621180224,
  821045069086620656064,
  821045060292675641664,
  821045060294822076864,
  821045060294822076864,
  821045060296969560384,
  821045077882713153984,
  821045060292675117504,
  821045060292675117504,
  821045060292675641664,
  821045069086620656064,
  821045060294823125184,
  821045069090914574784,
  821045060296970084544,
  821045077884860113344,
  823350366879733268544,
  823350366879733268544,
  823350358085787729984,
  823350358085787729984,
  823350366877586309184,
  823350366877586309184,
  823350358081493811264,
  823350349289695232064,
  823350349287548272704,
  823350349287548272704,
  823350349289695232064,
  823350358081493811264,
  823350366879732744384,
  823350366879732744384,
  823350358085787205824,
  823350358085787205824,
  823350366877585260864,
  823350366875438825664,
  823350358081492238784,
  823350340493602209984,
  823350349287546700224,
  823350340491455250624,
  823350349289694183744,
  823350358079346327744,
  821045086816178028864,
  821045086816178028864,
  821045078020085006784,
  821045060434341413184,
  821045086816178553024,
  821045086818324988224,
  821045078020086055104,
  821045069230433911104,
  821045069223993033024,
  821045069223993033024,
  821045069223992508864,
  821045060430047494464,
  821045060432193929664,
  821045060432193929664,
  821045060434341413184,
  821045078020085006784,
  821045060430046970304,
  821045060430046970304,
  821045060430047494464,
  821045069223992508864,
  821045060432194977984,
  821045069228286427584,
  821045060434341937344,
  821045078022231966144,
  823350366742294323264,
  823350366604922470464,
  823350357948348784704,
  823350357810976931904,
  823350366740147363904,
  823350366602775511104,
  823350357944054865984,
  823350349014884433984,
  823350349150109327424,
  823350349012737474624,
  823350349152256286784,
  823350357806683013184,
  823350366742293799104,
  823350366604921946304,
  823350357948348260544,
  823350357810976407744,
  823350366740146315584,
  823350366600628027584,
  823350357944053293504,
  823350340218791411904,
  823350349150107754944,
  823350340216644452544,
  823350349152255238464,
  823350357804535529664,
  821045086678739083584,
  821045086541367230784,
  821045077882646061504,
  821045060159530615104,
  821045086678739607744,
  821045086543514190144,
  821045077882647109824,
  821045068955623113024,
  821045069086554087744,
  821045068949182234944,
  821045069086553563584,
  821045060155236696384,
  821045060294754984384,
  821045060157383131584,
  821045060296902467904,
  821045077745274208704,
  821045060292608025024,
  821045060155236172224,
  821045060292608549184,
  821045068949181710784,
  821045060294756032704,
  821045068953475629504,
  821045060296902992064,
  821045077747421168064,
  823350366604888924224,
  823350366604888924224,
  823350357810943385664,
  823350357810943385664,
  823350366602741964864,
  823350366602741964864,
  823350357806649466944,
  823350349014850887744,
  823350349012703928384,
  823350349012703928384,
  823350349014850887744,
  823350357806649466944,
  823350366604888400064,
  823350366604888400064,
  823350357810942861504,
  823350357810942861504,
  823350366602740916544,
  823350366600594481344,
  823350357806647894464,
  823350340218757865664,
  823350349012702355904,
  823350340216610906304,
  823350349014849839424,
  823350357804501983424,
  821045086541333684544,
  821045086541333684544,
  821045077745240662464,
  821045060159497068864,
  821045086541334208704,
  821045086543480643904,
  821045077745241710784,
  821045068955589566784,
  821045068949148688704,
  821045068949148688704,
  821045068949148164544,
  821045060155203150144,
  821045060157349585344,
  821045060157349585344,
  821045060159497068864,
  821045077745240662464,
  821045060155202625984,
  821045060155202625984,
  821045060155203150144,
  821045068949148164544,
  821045060157350633664,
  821045068953442083264,
  821045060159497593024,
  821045077747387621824,
  823350366604922470464,
  823350366742294323264,
  823350357810976931904,
  823350357948348784704,
  823350366602775511104,
  823350366740147363904,
  823350357806683013184,
  823350349152256286784,
  823350349012737474624,
  823350349150109327424,
  823350349014884433984,
  823350357944054865984,
  823350366604921946304,
  823350366742293799104,
  823350357810976407744,
  823350357948348260544,
  823350366602774462784,
  823350366737999880384,
  823350357806681440704,
  823350340356163264704,
  823350349012735902144,
  823350340354016305344,
  823350349014883385664,
  823350357941907382464,
  821045086541367230784,
  821045086678739083584,
  821045077745274208704,
  821045060296902467904,
  821045086541367754944,
  821045086680886042944,
  821045077745275257024,
  821045069092994965824,
  821045068949182234944,
  821045069086554087744,
  821045068949181710784,
  821045060292608549184,
  821045060157383131584,
  821045060294754984384,
  821045060159530615104,
  821045077882646061504,
  821045060155236172224,
  821045060292608025024,
  821045060155236696384,
  821045069086553563584,
  821045060157384179904,
  821045069090847482304,
  821045060159531139264,
  821045077884793020864,
  823350366879766806594,
  823350366879766806594,
  823350358085821268034,
  823350358085821268034,
  823350366877619847234,
  823350366877619847234,
  823350358081527349314,
  823350349289728770114,
  823350349287581810754,
  823350349287581810754,
  823350349289728770114,
  823350358081527349314,
  823350366879766282434,
  823350366879766282434,
  823350358085820743874,
  823350358085820743874,
  823350366877618798914,
  823350366875472363714,
  823350358081525776834,
  823350340493635748034,
  823350349287580238274,
  823350340491488788674,
  823350349289727721794,
  823350358079379865794,
  821045086816211566914,
  821045086816211566914,
  821045078020118544834,
  821045060434374951234,
  821045086816212091074,
  821045086818358526274,
  821045078020119593154,
  821045069230467449154,
  821045069224026571074,
  821045069224026571074,
  821045069224026046914,
  821045060430081032514,
  821045060432227467714,
  821045060432227467714,
  821045060434374951234,
  821045078020118544834,
  821045060430080508354,
  821045060430080508354,
  821045060430081032514,
  821045069224026046914,
  821045060432228516034,
  821045069228319965634,
  821045060434375475394,
  821045078022265504194,
  823350366742361407554,
  823350366742361407554,
  823350357948415868994,
  823350357948415868994,
  823350366740214448194,
  823350366740214448194,
  823350357944121950274,
  823350349152323371074,
  823350349150176411714,
  823350349150176411714,
  823350349152323371074,
  823350357944121950274,
  823350366742360883394,
  823350366742360883394,
  823350357948415344834,
  823350357948415344834,
  823350366740213399874,
  823350366738066964674,
  823350357944120377794,
  823350340356230348994,
  823350349150174839234,
  823350340354083389634,
  823350349152322322754,
  823350357941974466754,
  821045086678806167874,
  821045086678806167874,
  821045077882713145794,
  821045060296969552194,
  821045086678806692034,
  821045086680953127234,
  821045077882714194114,
  821045069093062050114,
  821045069086621172034,
  821045069086621172034,
  821045069086620647874,
  821045060292675633474,
  821045060294822068674,
  821045060294822068674,
  821045060296969552194,
  821045077882713145794,
  821045060292675109314,
  821045060292675109314,
  821045060292675633474,
  821045069086620647874,
  821045060294823116994,
  821045069090914566594,
  821045060296970076354,
  821045077884860105154,
  823350366879733252164,
  823350366879699714114,
  823350358085787713604,
  823350358085754175554,
  823350366877586292804,
  823350366877552754754,
  823350358081493794884,
  823350349289661677634,
  823350349287548256324,
  823350349287514718274,
  823350349289695215684,
  823350358081460256834,
  823350366879732728004,
  823350366879699189954,
  823350358085787189444,
  823350358085753651394]
def T4_cub_cert_1 : List Nat := [823350366877585244484,
  823350366875405271234,
  823350358081492222404,
  823350340493568655554,
  823350349287546683844,
  823350340491421696194,
  823350349289694167364,
  823350358079312773314,
  821045086816178012484,
  821045086816144474434,
  821045078020084990404,
  821045060434307858754,
  821045086816178536644,
  821045086818291433794,
  821045078020086038724,
  821045069230400356674,
  821045069223993016644,
  821045069223959478594,
  821045069223992492484,
  821045060430013940034,
  821045060432193913284,
  821045060432160375234,
  821045060434341396804,
  821045078020051452354,
  821045060430046953924,
  821045060430013415874,
  821045060430047478084,
  821045069223958954434,
  821045060432194961604,
  821045069228252873154,
  821045060434341920964,
  821045078022198411714,
  823350366742294298694,
  823350366467483516994,
  823350357948348760134,
  823350357673537978434,
  823350366740147339334,
  823350366465336557634,
  823350357944054841414,
  823350348877445480514,
  823350349150109302854,
  823350348875298521154,
  823350349152256262214,
  823350357669244059714,
  823350366742293774534,
  823350366467482992834,
  823350357948348235974,
  823350357673537454274,
  823350366740146291014,
  823350366463189074114,
  823350357944053268934,
  823350340081352458434,
  823350349150107730374,
  823350340079205499074,
  823350349152255213894,
  823350357667096576194,
  821045086678739059014,
  821045086403928277314,
  821045077882646036934,
  821045060022091661634,
  821045086678739583174,
  821045086406075236674,
  821045077882647085254,
  821045068818184159554,
  821045069086554063174,
  821045068811743281474,
  821045069086553539014,
  821045060017797742914,
  821045060294754959814,
  821045060019944178114,
  821045060296902443334,
  821045077607835255234,
  821045060292608000454,
  821045060017797218754,
  821045060292608524614,
  821045068811742757314,
  821045060294756008134,
  821045068816036676034,
  821045060296902967494,
  821045077609982214594,
  823350366604888899654,
  823350366467449970754,
  823350357810943361094,
  823350357673504432194,
  823350366602741940294,
  823350366465303011394,
  823350357806649442374,
  823350348877411934274,
  823350349012703903814,
  823350348875264974914,
  823350349014850863174,
  823350357669210513474,
  823350366604888375494,
  823350366467449446594,
  823350357810942836934,
  823350357673503908034,
  823350366602740891974,
  823350366463155527874,
  823350357806647869894,
  823350340081318912194,
  823350349012702331334,
  823350340079171952834,
  823350349014849814854,
  823350357667063029954,
  821045086541333659974,
  821045086403894731074,
  821045077745240637894,
  821045060022058115394,
  821045086541334184134,
  821045086406041690434,
  821045077745241686214,
  821045068818150613314,
  821045068949148664134,
  821045068811709735234,
  821045068949148139974,
  821045060017764196674,
  821045060157349560774,
  821045060019910631874,
  821045060159497044294,
  821045077607801708994,
  821045060155202601414,
  821045060017763672514,
  821045060155203125574,
  821045068811709211074,
  821045060157350609094,
  821045068816003129794,
  821045060159497568454,
  821045077609948668354,
  823350366604922454084,
  823350366742260768834,
  823350357810976915524,
  823350357948315230274,
  823350366602775494724,
  823350366740113809474,
  823350357806682996804,
  823350349152222732354,
  823350349012737458244,
  823350349150075772994,
  823350349014884417604,
  823350357944021311554,
  823350366604921929924,
  823350366742260244674,
  823350357810976391364,
  823350357948314706114,
  823350366602774446404,
  823350366737966325954,
  823350357806681424324,
  823350340356129710274,
  823350349012735885764,
  823350340353982750914,
  823350349014883369284,
  823350357941873828034,
  821045086541367214404,
  821045086678705529154,
  821045077745274192324,
  821045060296868913474,
  821045086541367738564,
  821045086680852488514,
  821045077745275240644,
  821045069092961411394,
  821045068949182218564,
  821045069086520533314,
  821045068949181694404,
  821045060292574994754,
  821045060157383115204,
  821045060294721429954,
  821045060159530598724,
  821045077882612507074,
  821045060155236155844,
  821045060292574470594,
  821045060155236680004,
  821045069086520009154,
  821045060157384163524,
  821045069090813927874,
  821045060159531122884,
  821045077884759466434,
  823350366879699705924,
  823350366879699705924,
  823350358085754167364,
  823350358085754167364,
  823350366877552746564,
  823350366877552746564,
  823350358081460248644,
  823350349289661669444,
  823350349287514710084,
  823350349287514710084,
  823350349289661669444,
  823350358081460248644,
  823350366879699181764,
  823350366879699181764,
  823350358085753643204,
  823350358085753643204,
  823350366877551698244,
  823350366875405263044,
  823350358081458676164,
  823350340493568647364,
  823350349287513137604,
  823350340491421688004,
  823350349289660621124,
  823350358079312765124,
  821045086816144466244,
  821045086816144466244,
  821045078020051444164,
  821045060434307850564,
  821045086816144990404,
  821045086818291425604,
  821045078020052492484,
  821045069230400348484,
  821045069223959470404,
  821045069223959470404,
  821045069223958946244,
  821045060430013931844,
  821045060432160367044,
  821045060432160367044,
  821045060434307850564,
  821045078020051444164,
  821045060430013407684,
  821045060430013407684,
  821045060430013931844,
  821045069223958946244,
  821045060432161415364,
  821045069228252864964,
  821045060434308374724,
  821045078022198403524,
  823350366742260752454,
  823350366467483508804,
  823350357948315213894,
  823350357673537970244,
  823350366740113793094,
  823350366465336549444,
  823350357944021295174,
  823350348877445472324,
  823350349150075756614,
  823350348875298512964,
  823350349152222715974,
  823350357669244051524,
  823350366742260228294,
  823350366467482984644,
  823350357948314689734,
  823350357673537446084,
  823350366740112744774,
  823350366463189065924,
  823350357944019722694,
  823350340081352450244,
  823350349150074184134,
  823350340079205490884,
  823350349152221667654,
  823350357667096568004,
  821045086678705512774,
  821045086403928269124,
  821045077882612490694,
  821045060022091653444,
  821045086678706036934,
  821045086406075228484,
  821045077882613539014,
  821045068818184151364,
  821045069086520516934,
  821045068811743273284,
  821045069086519992774,
  821045060017797734724,
  821045060294721413574,
  821045060019944169924,
  821045060296868897094,
  821045077607835247044,
  821045060292574454214,
  821045060017797210564,
  821045060292574978374,
  821045068811742749124,
  821045060294722461894,
  821045068816036667844,
  821045060296869421254,
  821045077609982206404,
  823350366879699714114,
  823350366879733252164,
  823350358085754175554,
  823350358085787713604,
  823350366877552754754,
  823350366877586292804,
  823350358081460256834,
  823350349289695215684,
  823350349287514718274,
  823350349287548256324,
  823350349289661677634,
  823350358081493794884,
  823350366879699189954,
  823350366879732728004,
  823350358085753651394,
  823350358085787189444,
  823350366877551706434,
  823350366875438809284,
  823350358081458684354,
  823350340493602193604,
  823350349287513145794,
  823350340491455234244,
  823350349289660629314,
  823350358079346311364,
  821045086816144474434,
  821045086816178012484,
  821045078020051452354,
  821045060434341396804,
  821045086816144998594,
  821045086818324971844,
  821045078020052500674,
  821045069230433894724,
  821045069223959478594,
  821045069223993016644,
  821045069223958954434,
  821045060430047478084,
  821045060432160375234,
  821045060432193913284,
  821045060434307858754,
  821045078020084990404,
  821045060430013415874,
  821045060430046953924,
  821045060430013940034,
  821045069223992492484,
  821045060432161423554,
  821045069228286411204,
  821045060434308382914,
  821045078022231949764,
  823350366742260768834,
  823350366604922454084,
  823350357948315230274,
  823350357810976915524,
  823350366740113809474,
  823350366602775494724,
  823350357944021311554,
  823350349014884417604,
  823350349150075772994,
  823350349012737458244,
  823350349152222732354,
  823350357806682996804,
  823350366742260244674,
  823350366604921929924,
  823350357948314706114,
  823350357810976391364,
  823350366740112761154,
  823350366600628011204,
  823350357944019739074,
  823350340218791395524,
  823350349150074200514,
  823350340216644436164,
  823350349152221684034,
  823350357804535513284,
  821045086678705529154,
  821045086541367214404,
  821045077882612507074,
  821045060159530598724,
  821045086678706053314,
  821045086543514173764,
  821045077882613555394,
  821045068955623096644,
  821045069086520533314,
  821045068949182218564,
  821045069086520009154,
  821045060155236680004,
  821045060294721429954,
  821045060157383115204,
  821045060296868913474,
  821045077745274192324,
  821045060292574470594,
  821045060155236155844,
  821045060292574994754,
  821045068949181694404,
  821045060294722478274,
  821045068953475613124,
  821045060296869437634,
  821045077747421151684,
  823350366604821815364,
  823350366604821815364,
  823350357810876276804,
  823350357810876276804,
  823350366602674856004,
  823350366602674856004,
  823350357806582358084,
  823350349014783778884,
  823350349012636819524,
  823350349012636819524,
  823350349014783778884,
  823350357806582358084,
  823350366604821291204,
  823350366604821291204,
  823350357810875752644,
  823350357810875752644,
  823350366602673807684,
  823350366600527372484,
  823350357806580785604,
  823350340218690756804,
  823350349012635247044,
  823350340216543797444,
  823350349014782730564,
  823350357804434874564,
  821045086541266575684,
  821045086541266575684,
  821045077745173553604,
  821045060159429960004,
  821045086541267099844,
  821045086543413535044,
  821045077745174601924,
  821045068955522457924]
def T4_cub_cert_2 : List Nat := [821045068949081579844,
  821045068949081579844,
  821045068949081055684,
  821045060155136041284,
  821045060157282476484,
  821045060157282476484,
  821045060159429960004,
  821045077745173553604,
  821045060155135517124,
  821045060155135517124,
  821045060155136041284,
  821045068949081055684,
  821045060157283524804,
  821045068953374974404,
  821045060159430484164,
  821045077747320512964,
  823350366604821807174,
  823350366467416416324,
  823350357810876268614,
  823350357673470877764,
  823350366602674847814,
  823350366465269456964,
  823350357806582349894,
  823350348877378379844,
  823350349012636811334,
  823350348875231420484,
  823350349014783770694,
  823350357669176959044,
  823350366604821283014,
  823350366467415892164,
  823350357810875744454,
  823350357673470353604,
  823350366602673799494,
  823350366463121973444,
  823350357806580777414,
  823350340081285357764,
  823350349012635238854,
  823350340079138398404,
  823350349014782722374,
  823350357667029475524,
  821045086541266567494,
  821045086403861176644,
  821045077745173545414,
  821045060022024560964,
  821045086541267091654,
  821045086406008136004,
  821045077745174593734,
  821045068818117058884,
  821045068949081571654,
  821045068811676180804,
  821045068949081047494,
  821045060017730642244,
  821045060157282468294,
  821045060019877077444,
  821045060159429951814,
  821045077607768154564,
  821045060155135508934,
  821045060017730118084,
  821045060155136033094,
  821045068811675656644,
  821045060157283516614,
  821045068815969575364,
  821045060159430475974,
  821045077609915113924,
  823350366467449954374,
  823350366467449954374,
  823350357673504415814,
  823350357673504415814,
  823350366465302995014,
  823350366465302995014,
  823350357669210497094,
  823350348877411917894,
  823350348875264958534,
  823350348875264958534,
  823350348877411917894,
  823350357669210497094,
  823350366467449430214,
  823350366467449430214,
  823350357673503891654,
  823350357673503891654,
  823350366465301946694,
  823350366463155511494,
  823350357669208924614,
  823350340081318895814,
  823350348875263386054,
  823350340079171936454,
  823350348877410869574,
  823350357667063013574,
  821045086403894714694,
  821045086403894714694,
  821045077607801692614,
  821045060022058099014,
  821045086403895238854,
  821045086406041674054,
  821045077607802740934,
  821045068818150596934,
  821045068811709718854,
  821045068811709718854,
  821045068811709194694,
  821045060017764180294,
  821045060019910615494,
  821045060019910615494,
  821045060022058099014,
  821045077607801692614,
  821045060017763656134,
  821045060017763656134,
  821045060017764180294,
  821045068811709194694,
  821045060019911663814,
  821045068816003113414,
  821045060022058623174,
  821045077609948651974,
  823350366467483508804,
  823350366742260752454,
  823350357673537970244,
  823350357948315213894,
  823350366465336549444,
  823350366740113793094,
  823350357669244051524,
  823350349152222715974,
  823350348875298512964,
  823350349150075756614,
  823350348877445472324,
  823350357944021295174,
  823350366467482984644,
  823350366742260228294,
  823350357673537446084,
  823350357948314689734,
  823350366465335501124,
  823350366737966309574,
  823350357669242479044,
  823350340356129693894,
  823350348875296940484,
  823350340353982734534,
  823350348877444424004,
  823350357941873811654,
  821045086403928269124,
  821045086678705512774,
  821045077607835247044,
  821045060296868897094,
  821045086403928793284,
  821045086680852472134,
  821045077607836295364,
  821045069092961395014,
  821045068811743273284,
  821045069086520516934,
  821045068811742749124,
  821045060292574978374,
  821045060019944169924,
  821045060294721413574,
  821045060022091653444,
  821045077882612490694,
  821045060017797210564,
  821045060292574454214,
  821045060017797734724,
  821045069086519992774,
  821045060019945218244,
  821045069090813911494,
  821045060022092177604,
  821045077884759450054,
  823350366467416408134,
  823350366467416408134,
  823350357673470869574,
  823350357673470869574,
  823350366465269448774,
  823350366465269448774,
  823350357669176950854,
  823350348877378371654,
  823350348875231412294,
  823350348875231412294,
  823350348877378371654,
  823350357669176950854,
  823350366467415883974,
  823350366467415883974,
  823350357673470345414,
  823350357673470345414,
  823350366465268400454,
  823350366463121965254,
  823350357669175378374,
  823350340081285349574,
  823350348875229839814,
  823350340079138390214,
  823350348877377323334,
  823350357667029467334,
  821045086403861168454,
  821045086403861168454,
  821045077607768146374,
  821045060022024552774,
  821045086403861692614,
  821045086406008127814,
  821045077607769194694,
  821045068818117050694,
  821045068811676172614,
  821045068811676172614,
  821045068811675648454,
  821045060017730634054,
  821045060019877069254,
  821045060019877069254,
  821045060022024552774,
  821045077607768146374,
  821045060017730109894,
  821045060017730109894,
  821045060017730634054,
  821045068811675648454,
  821045060019878117574,
  821045068815969567174,
  821045060022025076934,
  821045077609915105734,
  823350366467416416324,
  823350366604821807174,
  823350357673470877764,
  823350357810876268614,
  823350366465269456964,
  823350366602674847814,
  823350357669176959044,
  823350349014783770694,
  823350348875231420484,
  823350349012636811334,
  823350348877378379844,
  823350357806582349894,
  823350366467415892164,
  823350366604821283014,
  823350357673470353604,
  823350357810875744454,
  823350366465268408644,
  823350366600527364294,
  823350357669175386564,
  823350340218690748614,
  823350348875229848004,
  823350340216543789254,
  823350348877377331524,
  823350357804434866374,
  821045086403861176644,
  821045086541266567494,
  821045077607768154564,
  821045060159429951814,
  821045086403861700804,
  821045086543413526854,
  821045077607769202884,
  821045068955522449734,
  821045068811676180804,
  821045068949081571654,
  821045068811675656644,
  821045060155136033094,
  821045060019877077444,
  821045060157282468294,
  821045060022024560964,
  821045077745173545414,
  821045060017730118084,
  821045060155135508934,
  821045060017730642244,
  821045068949081047494,
  821045060019878125764,
  821045068953374966214,
  821045060022025085124,
  821045077747320504774,
  823350366467449970754,
  823350366604888899654,
  823350357673504432194,
  823350357810943361094,
  823350366465303011394,
  823350366602741940294,
  823350357669210513474,
  823350349014850863174,
  823350348875264974914,
  823350349012703903814,
  823350348877411934274,
  823350357806649442374,
  823350366467449446594,
  823350366604888375494,
  823350357673503908034,
  823350357810942836934,
  823350366465301963074,
  823350366600594456774,
  823350357669208940994,
  823350340218757841094,
  823350348875263402434,
  823350340216610881734,
  823350348877410885954,
  823350357804501958854,
  821045086403894731074,
  821045086541333659974,
  821045077607801708994,
  821045060159497044294,
  821045086403895255234,
  821045086543480619334,
  821045077607802757314,
  821045068955589542214,
  821045068811709735234,
  821045068949148664134,
  821045068811709211074,
  821045060155203125574,
  821045060019910631874,
  821045060157349560774,
  821045060022058115394,
  821045077745240637894,
  821045060017763672514,
  821045060155202601414,
  821045060017764196674,
  821045068949148139974,
  821045060019911680194,
  821045068953442058694,
  821045060022058639554,
  821045077747387597254,
  823350366467483516994,
  823350366742294298694,
  823350357673537978434,
  823350357948348760134,
  823350366465336557634,
  823350366740147339334,
  823350357669244059714,
  823350349152256262214,
  823350348875298521154,
  823350349150109302854,
  823350348877445480514,
  823350357944054841414,
  823350366467482992834,
  823350366742293774534,
  823350357673537454274,
  823350357948348235974,
  823350366465335509314,
  823350366737999855814,
  823350357669242487234,
  823350340356163240134,
  823350348875296948674,
  823350340354016280774,
  823350348877444432194,
  823350357941907357894,
  821045086403928277314,
  821045086678739059014,
  821045077607835255234,
  821045060296902443334,
  821045086403928801474,
  821045086680886018374,
  821045077607836303554,
  821045069092994941254,
  821045068811743281474,
  821045069086554063174,
  821045068811742757314,
  821045060292608524614,
  821045060019944178114,
  821045060294754959814,
  821045060022091661634,
  821045077882646036934,
  821045060017797218754,
  821045060292608000454,
  821045060017797742914,
  821045069086553539014,
  821045060019945226434,
  821045069090847457734,
  821045060022092185794,
  821045077884792996294,
  821045086820506542144,
  821045086820506542144,
  673507154233903554624,
  673507154233903554624,
  821045086818359582784,
  821045086818359582784,
  821045078022267084864,
  821045069230468505664,
  673507145435664097344,
  673507145435664097344,
  673507145437811056704,
  673507154229609635904,
  821045086820506017984,
  821045086820506017984,
  673507154233903030464,
  673507154233903030464,
  821045086818358534464,
  821045086816212099264,
  821045078022265512384,
  821045060434375483584,
  673507145435662524864,
  673507136639571075264,
  673507145437810008384,
  673507154227462152384,
  821045086816211575104,
  821045086816211575104,
  821045078020118553024,
  821045060434374959424,
  821045086816212099264,
  821045086818358534464,
  821045078020119601344,
  821045069230467457344,
  821045069224026579264,
  821045069224026579264,
  821045069224026055104,
  821045060430081040704,
  673507136639570026944,
  673507136639570026944,
  673507136641717510464,
  673507154227461104064,
  673507136637423067584,
  673507136637423067584,
  673507136637423591744,
  673507145431368606144,
  673507136639571075264,
  673507145435662524864,
  673507136641718034624,
  673507154229608063424]
def T4_cub_cert_3 : List Nat := [821045086683101143104,
  821045086683101143104,
  673507154096498155584,
  673507154096498155584,
  821045086680954183744,
  821045086680954183744,
  821045077884861685824,
  821045069093063106624,
  673507145298258698304,
  673507145298258698304,
  673507145300405657664,
  673507154092204236864,
  821045086683100618944,
  821045086683100618944,
  673507154096497631424,
  673507154096497631424,
  821045086680953135424,
  821045086678806700224,
  821045077884860113344,
  821045060296970084544,
  673507145298257125824,
  673507136502165676224,
  673507145300404609344,
  673507154090056753344,
  821045086678806176064,
  821045086678806176064,
  821045077882713153984,
  821045060296969560384,
  821045086678806700224,
  821045086680953135424,
  821045077882714202304,
  821045069093062058304,
  821045069086621180224,
  821045069086621180224,
  821045069086620656064,
  821045060292675641664,
  673507136502164627904,
  673507136502164627904,
  673507136504312111424,
  673507154090055705024,
  673507136500017668544,
  673507136500017668544,
  673507136500018192704,
  673507145293963207104,
  673507136502165676224,
  673507145298257125824,
  673507136504312635584,
  673507154092202664384,
  821045086820472995904,
  821045086820472995904,
  673507154233870008384,
  673507154233870008384,
  821045086818326036544,
  821045086818326036544,
  821045078022233538624,
  821045069230434959424,
  673507145435630551104,
  673507145435630551104,
  673507145437777510464,
  673507154229576089664,
  821045086820472471744,
  821045086820472471744,
  673507154233869484224,
  673507154233869484224,
  821045086818324988224,
  821045086816178553024,
  821045078022231966144,
  821045060434341937344,
  673507145435628978624,
  673507136639537529024,
  673507145437776462144,
  673507154227428606144,
  821045086816178028864,
  821045086816178028864,
  821045078020085006784,
  821045060434341413184,
  821045086816178553024,
  821045086818324988224,
  821045078020086055104,
  821045069230433911104,
  821045069223993033024,
  821045069223993033024,
  821045069223992508864,
  821045060430047494464,
  673507136639536480704,
  673507136639536480704,
  673507136641683964224,
  673507154227427557824,
  673507136637389521344,
  673507136637389521344,
  673507136637390045504,
  673507145431335059904,
  673507136639537529024,
  673507145435628978624,
  673507136641684488384,
  673507154229574517184,
  821045086683034050624,
  821045086545662197824,
  673507154096431063104,
  673507153959059210304,
  821045086680887091264,
  821045086543515238464,
  821045077884794593344,
  821045068955624161344,
  673507145298191605824,
  673507145160819753024,
  673507145300338565184,
  673507153954765291584,
  821045086683033526464,
  821045086545661673664,
  673507154096430538944,
  673507153959058686144,
  821045086680886042944,
  821045086541367754944,
  821045077884793020864,
  821045060159531139264,
  673507145298190033344,
  673507136364726730944,
  673507145300337516864,
  673507153952617808064,
  821045086678739083584,
  821045086541367230784,
  821045077882646061504,
  821045060159530615104,
  821045086678739607744,
  821045086543514190144,
  821045077882647109824,
  821045068955623113024,
  821045069086554087744,
  821045068949182234944,
  821045069086553563584,
  821045060155236696384,
  673507136502097535424,
  673507136364725682624,
  673507136504245018944,
  673507153952616759744,
  673507136499950576064,
  673507136362578723264,
  673507136499951100224,
  673507145156524261824,
  673507136502098583744,
  673507145160818180544,
  673507136504245543104,
  673507153954763719104,
  821045086545628651584,
  821045086545628651584,
  673507153959025664064,
  673507153959025664064,
  821045086543481692224,
  821045086543481692224,
  821045077747389194304,
  821045068955590615104,
  673507145160786206784,
  673507145160786206784,
  673507145162933166144,
  673507153954731745344,
  821045086545628127424,
  821045086545628127424,
  673507153959025139904,
  673507153959025139904,
  821045086543480643904,
  821045086541334208704,
  821045077747387621824,
  821045060159497593024,
  673507145160784634304,
  673507136364693184704,
  673507145162932117824,
  673507153952584261824,
  821045086541333684544,
  821045086541333684544,
  821045077745240662464,
  821045060159497068864,
  821045086541334208704,
  821045086543480643904,
  821045077745241710784,
  821045068955589566784,
  821045068949148688704,
  821045068949148688704,
  821045068949148164544,
  821045060155203150144,
  673507136364692136384,
  673507136364692136384,
  673507136366839619904,
  673507153952583213504,
  673507136362545177024,
  673507136362545177024,
  673507136362545701184,
  673507145156490715584,
  673507136364693184704,
  673507145160784634304,
  673507136366840144064,
  673507153954730172864,
  821045086545662197824,
  821045086683034050624,
  673507153959059210304,
  673507154096431063104,
  821045086543515238464,
  821045086680887091264,
  821045077747422740544,
  821045069092996014144,
  673507145160819753024,
  673507145298191605824,
  673507145162966712384,
  673507154092137144384,
  821045086545661673664,
  821045086683033526464,
  673507153959058686144,
  673507154096430538944,
  821045086543514190144,
  821045086678739607744,
  821045077747421168064,
  821045060296902992064,
  673507145160818180544,
  673507136502098583744,
  673507145162965664064,
  673507154089989660864,
  821045086541367230784,
  821045086678739083584,
  821045077745274208704,
  821045060296902467904,
  821045086541367754944,
  821045086680886042944,
  821045077745275257024,
  821045069092994965824,
  821045068949182234944,
  821045069086554087744,
  821045068949181710784,
  821045060292608549184,
  673507136364725682624,
  673507136502097535424,
  673507136366873166144,
  673507154089988612544,
  673507136362578723264,
  673507136499950576064,
  673507136362579247424,
  673507145293896114624,
  673507136364726730944,
  673507145298190033344,
  673507136366873690304,
  673507154092135571904,
  821045086820506533954,
  821045086820506533954,
  673507154233903546434,
  673507154233903546434,
  821045086818359574594,
  821045086818359574594,
  821045078022267076674,
  821045069230468497474,
  673507145435664089154,
  673507145435664089154,
  673507145437811048514,
  673507154229609627714,
  821045086820506009794,
  821045086820506009794,
  673507154233903022274,
  673507154233903022274,
  821045086818358526274,
  821045086816212091074,
  821045078022265504194,
  821045060434375475394,
  673507145435662516674,
  673507136639571067074,
  673507145437810000194,
  673507154227462144194,
  821045086816211566914,
  821045086816211566914,
  821045078020118544834,
  821045060434374951234,
  821045086816212091074,
  821045086818358526274,
  821045078020119593154,
  821045069230467449154,
  821045069224026571074,
  821045069224026571074,
  821045069224026046914,
  821045060430081032514,
  673507136639570018754,
  673507136639570018754,
  673507136641717502274,
  673507154227461095874,
  673507136637423059394,
  673507136637423059394,
  673507136637423583554,
  673507145431368597954,
  673507136639571067074,
  673507145435662516674,
  673507136641718026434,
  673507154229608055234,
  821045086683101134914,
  821045086683101134914,
  673507154096498147394,
  673507154096498147394,
  821045086680954175554,
  821045086680954175554,
  821045077884861677634,
  821045069093063098434,
  673507145298258690114,
  673507145298258690114,
  673507145300405649474,
  673507154092204228674,
  821045086683100610754,
  821045086683100610754,
  673507154096497623234,
  673507154096497623234,
  821045086680953127234,
  821045086678806692034,
  821045077884860105154,
  821045060296970076354,
  673507145298257117634,
  673507136502165668034,
  673507145300404601154,
  673507154090056745154,
  821045086678806167874,
  821045086678806167874,
  821045077882713145794,
  821045060296969552194,
  821045086678806692034,
  821045086680953127234,
  821045077882714194114,
  821045069093062050114,
  821045069086621172034,
  821045069086621172034,
  821045069086620647874,
  821045060292675633474,
  673507136502164619714,
  673507136502164619714,
  673507136504312103234,
  673507154090055696834,
  673507136500017660354,
  673507136500017660354,
  673507136500018184514,
  673507145293963198914,
  673507136502165668034,
  673507145298257117634,
  673507136504312627394,
  673507154092202656194,
  821045086820472979524,
  821045086820439441474,
  673507154233869992004,
  673507154233836453954,
  821045086818326020164,
  821045086818292482114,
  821045078022233522244,
  821045069230401404994,
  673507145435630534724,
  673507145435596996674,
  673507145437777494084,
  673507154229542535234,
  821045086820472455364,
  821045086820438917314,
  673507154233869467844,
  673507154233835929794,
  821045086818324971844,
  821045086816144998594,
  821045078022231949764,
  821045060434308382914,
  673507145435628962244,
  673507136639503974594,
  673507145437776445764,
  673507154227395051714,
  821045086816178012484,
  821045086816144474434,
  821045078020084990404,
  821045060434307858754,
  821045086816178536644,
  821045086818291433794,
  821045078020086038724,
  821045069230400356674,
  821045069223993016644,
  821045069223959478594,
  821045069223992492484,
  821045060430013940034,
  673507136639536464324,
  673507136639502926274,
  673507136641683947844,
  673507154227394003394,
  673507136637389504964,
  673507136637355966914,
  673507136637390029124,
  673507145431301505474,
  673507136639537512644,
  673507145435595424194,
  673507136641684472004,
  673507154229540962754,
  821045086683034026054,
  821045086408223244354,
  673507154096431038534,
  673507153821620256834,
  821045086680887066694,
  821045086406076284994,
  821045077884794568774,
  821045068818185207874,
  673507145298191581254,
  673507145023380799554,
  673507145300338540614,
  673507153817326338114,
  821045086683033501894,
  821045086408222720194,
  673507154096430514374,
  673507153821619732674]
def T4_cub_cert_4 : List Nat := [821045086680886018374,
  821045086403928801474,
  821045077884792996294,
  821045060022092185794,
  673507145298190008774,
  673507136227287777474,
  673507145300337492294,
  673507153815178854594,
  821045086678739059014,
  821045086403928277314,
  821045077882646036934,
  821045060022091661634,
  821045086678739583174,
  821045086406075236674,
  821045077882647085254,
  821045068818184159554,
  821045069086554063174,
  821045068811743281474,
  821045069086553539014,
  821045060017797742914,
  673507136502097510854,
  673507136227286729154,
  673507136504244994374,
  673507153815177806274,
  673507136499950551494,
  673507136225139769794,
  673507136499951075654,
  673507145019085308354,
  673507136502098559174,
  673507145023379227074,
  673507136504245518534,
  673507153817324765634,
  821045086545628627014,
  821045086408189698114,
  673507153959025639494,
  673507153821586710594,
  821045086543481667654,
  821045086406042738754,
  821045077747389169734,
  821045068818151661634,
  673507145160786182214,
  673507145023347253314,
  673507145162933141574,
  673507153817292791874,
  821045086545628102854,
  821045086408189173954,
  673507153959025115334,
  673507153821586186434,
  821045086543480619334,
  821045086403895255234,
  821045077747387597254,
  821045060022058639554,
  673507145160784609734,
  673507136227254231234,
  673507145162932093254,
  673507153815145308354,
  821045086541333659974,
  821045086403894731074,
  821045077745240637894,
  821045060022058115394,
  821045086541334184134,
  821045086406041690434,
  821045077745241686214,
  821045068818150613314,
  821045068949148664134,
  821045068811709735234,
  821045068949148139974,
  821045060017764196674,
  673507136364692111814,
  673507136227253182914,
  673507136366839595334,
  673507153815144260034,
  673507136362545152454,
  673507136225106223554,
  673507136362545676614,
  673507145019051762114,
  673507136364693160134,
  673507145023345680834,
  673507136366840119494,
  673507153817291219394,
  821045086545662181444,
  821045086683000496194,
  673507153959059193924,
  673507154096397508674,
  821045086543515222084,
  821045086680853536834,
  821045077747422724164,
  821045069092962459714,
  673507145160819736644,
  673507145298158051394,
  673507145162966696004,
  673507154092103589954,
  821045086545661657284,
  821045086682999972034,
  673507153959058669764,
  673507154096396984514,
  821045086543514173764,
  821045086678706053314,
  821045077747421151684,
  821045060296869437634,
  673507145160818164164,
  673507136502065029314,
  673507145162965647684,
  673507154089956106434,
  821045086541367214404,
  821045086678705529154,
  821045077745274192324,
  821045060296868913474,
  821045086541367738564,
  821045086680852488514,
  821045077745275240644,
  821045069092961411394,
  821045068949182218564,
  821045069086520533314,
  821045068949181694404,
  821045060292574994754,
  673507136364725666244,
  673507136502063980994,
  673507136366873149764,
  673507154089955058114,
  673507136362578706884,
  673507136499917021634,
  673507136362579231044,
  673507145293862560194,
  673507136364726714564,
  673507145298156478914,
  673507136366873673924,
  673507154092102017474,
  821045086820439433284,
  821045086820439433284,
  673507154233836445764,
  673507154233836445764,
  821045086818292473924,
  821045086818292473924,
  821045078022199976004,
  821045069230401396804,
  673507145435596988484,
  673507145435596988484,
  673507145437743947844,
  673507154229542527044,
  821045086820438909124,
  821045086820438909124,
  673507154233835921604,
  673507154233835921604,
  821045086818291425604,
  821045086816144990404,
  821045078022198403524,
  821045060434308374724,
  673507145435595416004,
  673507136639503966404,
  673507145437742899524,
  673507154227395043524,
  821045086816144466244,
  821045086816144466244,
  821045078020051444164,
  821045060434307850564,
  821045086816144990404,
  821045086818291425604,
  821045078020052492484,
  821045069230400348484,
  821045069223959470404,
  821045069223959470404,
  821045069223958946244,
  821045060430013931844,
  673507136639502918084,
  673507136639502918084,
  673507136641650401604,
  673507154227393995204,
  673507136637355958724,
  673507136637355958724,
  673507136637356482884,
  673507145431301497284,
  673507136639503966404,
  673507145435595416004,
  673507136641650925764,
  673507154229540954564,
  821045086683000479814,
  821045086408223236164,
  673507154096397492294,
  673507153821620248644,
  821045086680853520454,
  821045086406076276804,
  821045077884761022534,
  821045068818185199684,
  673507145298158035014,
  673507145023380791364,
  673507145300304994374,
  673507153817326329924,
  821045086682999955654,
  821045086408222712004,
  673507154096396968134,
  673507153821619724484,
  821045086680852472134,
  821045086403928793284,
  821045077884759450054,
  821045060022092177604,
  673507145298156462534,
  673507136227287769284,
  673507145300303946054,
  673507153815178846404,
  821045086678705512774,
  821045086403928269124,
  821045077882612490694,
  821045060022091653444,
  821045086678706036934,
  821045086406075228484,
  821045077882613539014,
  821045068818184151364,
  821045069086520516934,
  821045068811743273284,
  821045069086519992774,
  821045060017797734724,
  673507136502063964614,
  673507136227286720964,
  673507136504211448134,
  673507153815177798084,
  673507136499917005254,
  673507136225139761604,
  673507136499917529414,
  673507145019085300164,
  673507136502065012934,
  673507145023379218884,
  673507136504211972294,
  673507153817324757444,
  821045086820439441474,
  821045086820472979524,
  673507154233836453954,
  673507154233869992004,
  821045086818292482114,
  821045086818326020164,
  821045078022199984194,
  821045069230434943044,
  673507145435596996674,
  673507145435630534724,
  673507145437743956034,
  673507154229576073284,
  821045086820438917314,
  821045086820472455364,
  673507154233835929794,
  673507154233869467844,
  821045086818291433794,
  821045086816178536644,
  821045078022198411714,
  821045060434341920964,
  673507145435595424194,
  673507136639537512644,
  673507145437742907714,
  673507154227428589764,
  821045086816144474434,
  821045086816178012484,
  821045078020051452354,
  821045060434341396804,
  821045086816144998594,
  821045086818324971844,
  821045078020052500674,
  821045069230433894724,
  821045069223959478594,
  821045069223993016644,
  821045069223958954434,
  821045060430047478084,
  673507136639502926274,
  673507136639536464324,
  673507136641650409794,
  673507154227427541444,
  673507136637355966914,
  673507136637389504964,
  673507136637356491074,
  673507145431335043524,
  673507136639503974594,
  673507145435628962244,
  673507136641650933954,
  673507154229574500804,
  821045086683000496194,
  821045086545662181444,
  673507154096397508674,
  673507153959059193924,
  821045086680853536834,
  821045086543515222084,
  821045077884761038914,
  821045068955624144964,
  673507145298158051394,
  673507145160819736644,
  673507145300305010754,
  673507153954765275204,
  821045086682999972034,
  821045086545661657284,
  673507154096396984514,
  673507153959058669764,
  821045086680852488514,
  821045086541367738564,
  821045077884759466434,
  821045060159531122884,
  673507145298156478914,
  673507136364726714564,
  673507145300303962434,
  673507153952617791684,
  821045086678705529154,
  821045086541367214404,
  821045077882612507074,
  821045060159530598724,
  821045086678706053314,
  821045086543514173764,
  821045077882613555394,
  821045068955623096644,
  821045069086520533314,
  821045068949182218564,
  821045069086520009154,
  821045060155236680004,
  673507136502063980994,
  673507136364725666244,
  673507136504211464514,
  673507153952616743364,
  673507136499917021634,
  673507136362578706884,
  673507136499917545794,
  673507145156524245444,
  673507136502065029314,
  673507145160818164164,
  673507136504211988674,
  673507153954763702724,
  821045086545561542724,
  821045086545561542724,
  673507153958958555204,
  673507153958958555204,
  821045086543414583364,
  821045086543414583364,
  821045077747322085444,
  821045068955523506244,
  673507145160719097924,
  673507145160719097924,
  673507145162866057284,
  673507153954664636484,
  821045086545561018564,
  821045086545561018564,
  673507153958958031044,
  673507153958958031044,
  821045086543413535044,
  821045086541267099844,
  821045077747320512964,
  821045060159430484164,
  673507145160717525444,
  673507136364626075844,
  673507145162865008964,
  673507153952517152964,
  821045086541266575684,
  821045086541266575684,
  821045077745173553604,
  821045060159429960004,
  821045086541267099844,
  821045086543413535044,
  821045077745174601924,
  821045068955522457924,
  821045068949081579844,
  821045068949081579844,
  821045068949081055684,
  821045060155136041284,
  673507136364625027524,
  673507136364625027524,
  673507136366772511044,
  673507153952516104644,
  673507136362478068164,
  673507136362478068164,
  673507136362478592324,
  673507145156423606724,
  673507136364626075844,
  673507145160717525444,
  673507136366773035204,
  673507153954663064004,
  821045086545561534534,
  821045086408156143684,
  673507153958958547014,
  673507153821553156164,
  821045086543414575174,
  821045086406009184324,
  821045077747322077254,
  821045068818118107204,
  673507145160719089734,
  673507145023313698884,
  673507145162866049094,
  673507153817259237444,
  821045086545561010374,
  821045086408155619524,
  673507153958958022854,
  673507153821552632004,
  821045086543413526854,
  821045086403861700804,
  821045077747320504774,
  821045060022025085124,
  673507145160717517254,
  673507136227220676804,
  673507145162865000774,
  673507153815111753924,
  821045086541266567494,
  821045086403861176644,
  821045077745173545414,
  821045060022024560964,
  821045086541267091654,
  821045086406008136004,
  821045077745174593734,
  821045068818117058884]
def T4_cub_cert_5 : List Nat := [821045068949081571654,
  821045068811676180804,
  821045068949081047494,
  821045060017730642244,
  673507136364625019334,
  673507136227219628484,
  673507136366772502854,
  673507153815110705604,
  673507136362478059974,
  673507136225072669124,
  673507136362478584134,
  673507145019018207684,
  673507136364626067654,
  673507145023312126404,
  673507136366773027014,
  673507153817257664964,
  821045086408189681734,
  821045086408189681734,
  673507153821586694214,
  673507153821586694214,
  821045086406042722374,
  821045086406042722374,
  821045077609950224454,
  821045068818151645254,
  673507145023347236934,
  673507145023347236934,
  673507145025494196294,
  673507153817292775494,
  821045086408189157574,
  821045086408189157574,
  673507153821586170054,
  673507153821586170054,
  821045086406041674054,
  821045086403895238854,
  821045077609948651974,
  821045060022058623174,
  673507145023345664454,
  673507136227254214854,
  673507145025493147974,
  673507153815145291974,
  821045086403894714694,
  821045086403894714694,
  821045077607801692614,
  821045060022058099014,
  821045086403895238854,
  821045086406041674054,
  821045077607802740934,
  821045068818150596934,
  821045068811709718854,
  821045068811709718854,
  821045068811709194694,
  821045060017764180294,
  673507136227253166534,
  673507136227253166534,
  673507136229400650054,
  673507153815144243654,
  673507136225106207174,
  673507136225106207174,
  673507136225106731334,
  673507145019051745734,
  673507136227254214854,
  673507145023345664454,
  673507136229401174214,
  673507153817291203014,
  821045086408223236164,
  821045086683000479814,
  673507153821620248644,
  673507154096397492294,
  821045086406076276804,
  821045086680853520454,
  821045077609983778884,
  821045069092962443334,
  673507145023380791364,
  673507145298158035014,
  673507145025527750724,
  673507154092103573574,
  821045086408222712004,
  821045086682999955654,
  673507153821619724484,
  673507154096396968134,
  821045086406075228484,
  821045086678706036934,
  821045077609982206404,
  821045060296869421254,
  673507145023379218884,
  673507136502065012934,
  673507145025526702404,
  673507154089956090054,
  821045086403928269124,
  821045086678705512774,
  821045077607835247044,
  821045060296868897094,
  821045086403928793284,
  821045086680852472134,
  821045077607836295364,
  821045069092961395014,
  821045068811743273284,
  821045069086520516934,
  821045068811742749124,
  821045060292574978374,
  673507136227286720964,
  673507136502063964614,
  673507136229434204484,
  673507154089955041734,
  673507136225139761604,
  673507136499917005254,
  673507136225140285764,
  673507145293862543814,
  673507136227287769284,
  673507145298156462534,
  673507136229434728644,
  673507154092102001094,
  821045086408156135494,
  821045086408156135494,
  673507153821553147974,
  673507153821553147974,
  821045086406009176134,
  821045086406009176134,
  821045077609916678214,
  821045068818118099014,
  673507145023313690694,
  673507145023313690694,
  673507145025460650054,
  673507153817259229254,
  821045086408155611334,
  821045086408155611334,
  673507153821552623814,
  673507153821552623814,
  821045086406008127814,
  821045086403861692614,
  821045077609915105734,
  821045060022025076934,
  673507145023312118214,
  673507136227220668614,
  673507145025459601734,
  673507153815111745734,
  821045086403861168454,
  821045086403861168454,
  821045077607768146374,
  821045060022024552774,
  821045086403861692614,
  821045086406008127814,
  821045077607769194694,
  821045068818117050694,
  821045068811676172614,
  821045068811676172614,
  821045068811675648454,
  821045060017730634054,
  673507136227219620294,
  673507136227219620294,
  673507136229367103814,
  673507153815110697414,
  673507136225072660934,
  673507136225072660934,
  673507136225073185094,
  673507145019018199494,
  673507136227220668614,
  673507145023312118214,
  673507136229367627974,
  673507153817257656774,
  821045086408156143684,
  821045086545561534534,
  673507153821553156164,
  673507153958958547014,
  821045086406009184324,
  821045086543414575174,
  821045077609916686404,
  821045068955523498054,
  673507145023313698884,
  673507145160719089734,
  673507145025460658244,
  673507153954664628294,
  821045086408155619524,
  821045086545561010374,
  673507153821552632004,
  673507153958958022854,
  821045086406008136004,
  821045086541267091654,
  821045077609915113924,
  821045060159430475974,
  673507145023312126404,
  673507136364626067654,
  673507145025459609924,
  673507153952517144774,
  821045086403861176644,
  821045086541266567494,
  821045077607768154564,
  821045060159429951814,
  821045086403861700804,
  821045086543413526854,
  821045077607769202884,
  821045068955522449734,
  821045068811676180804,
  821045068949081571654,
  821045068811675656644,
  821045060155136033094,
  673507136227219628484,
  673507136364625019334,
  673507136229367112004,
  673507153952516096454,
  673507136225072669124,
  673507136362478059974,
  673507136225073193284,
  673507145156423598534,
  673507136227220676804,
  673507145160717517254,
  673507136229367636164,
  673507153954663055814,
  821045086408189698114,
  821045086545628627014,
  673507153821586710594,
  673507153959025639494,
  821045086406042738754,
  821045086543481667654,
  821045077609950240834,
  821045068955590590534,
  673507145023347253314,
  673507145160786182214,
  673507145025494212674,
  673507153954731720774,
  821045086408189173954,
  821045086545628102854,
  673507153821586186434,
  673507153959025115334,
  821045086406041690434,
  821045086541334184134,
  821045077609948668354,
  821045060159497568454,
  673507145023345680834,
  673507136364693160134,
  673507145025493164354,
  673507153952584237254,
  821045086403894731074,
  821045086541333659974,
  821045077607801708994,
  821045060159497044294,
  821045086403895255234,
  821045086543480619334,
  821045077607802757314,
  821045068955589542214,
  821045068811709735234,
  821045068949148664134,
  821045068811709211074,
  821045060155203125574,
  673507136227253182914,
  673507136364692111814,
  673507136229400666434,
  673507153952583188934,
  673507136225106223554,
  673507136362545152454,
  673507136225106747714,
  673507145156490691014,
  673507136227254231234,
  673507145160784609734,
  673507136229401190594,
  673507153954730148294,
  821045086408223244354,
  821045086683034026054,
  673507153821620256834,
  673507154096431038534,
  821045086406076284994,
  821045086680887066694,
  821045077609983787074,
  821045069092995989574,
  673507145023380799554,
  673507145298191581254,
  673507145025527758914,
  673507154092137119814,
  821045086408222720194,
  821045086683033501894,
  673507153821619732674,
  673507154096430514374,
  821045086406075236674,
  821045086678739583174,
  821045077609982214594,
  821045060296902967494,
  673507145023379227074,
  673507136502098559174,
  673507145025526710594,
  673507154089989636294,
  821045086403928277314,
  821045086678739059014,
  821045077607835255234,
  821045060296902443334,
  821045086403928801474,
  821045086680886018374,
  821045077607836303554,
  821045069092994941254,
  821045068811743281474,
  821045069086554063174,
  821045068811742757314,
  821045060292608524614,
  673507136227286729154,
  673507136502097510854,
  673507136229434212674,
  673507154089988587974,
  673507136225139769794,
  673507136499950551494,
  673507136225140293954,
  673507145293896090054,
  673507136227287777474,
  673507145298190008774,
  673507136229434736834,
  673507154092135547334,
  823350366879766814784,
  823350366879766814784,
  675812434293163827264,
  675812434293163827264,
  823350366877619855424,
  823350366877619855424,
  823350358081527357504,
  823350349289728778304,
  675812425494924369984,
  675812425494924369984,
  675812425497071329344,
  675812434288869908544,
  823350366879766290624,
  823350366879766290624,
  675812434293163303104,
  675812434293163303104,
  823350366877618807104,
  823350366875472371904,
  823350358081525785024,
  823350340493635756224,
  675812425494922797504,
  675812416698831347904,
  675812425497070281024,
  675812434286722425024,
  823350366875471847744,
  823350366875471847744,
  823350358079378825664,
  823350340493635232064,
  823350366875472371904,
  823350366877618807104,
  823350358079379873984,
  823350349289727729984,
  823350349283286851904,
  823350349283286851904,
  823350349283286327744,
  823350340489341313344,
  675812416698830299584,
  675812416698830299584,
  675812416700977783104,
  675812434286721376704,
  675812416696683340224,
  675812416696683340224,
  675812416696683864384,
  675812425490628878784,
  675812416698831347904,
  675812425494922797504,
  675812416700978307264,
  675812434288868336064,
  823350366742361415744,
  823350366742361415744,
  675812434155758428224,
  675812434155758428224,
  823350366740214456384,
  823350366740214456384,
  823350357944121958464,
  823350349152323379264,
  675812425357518970944,
  675812425357518970944,
  675812425359665930304,
  675812434151464509504,
  823350366742360891584,
  823350366742360891584,
  675812434155757904064,
  675812434155757904064,
  823350366740213408064,
  823350366738066972864,
  823350357944120385984,
  823350340356230357184,
  675812425357517398464,
  675812416561425948864,
  675812425359664881984,
  675812434149317025984,
  823350366738066448704,
  823350366738066448704,
  823350357941973426624,
  823350340356229833024,
  823350366738066972864,
  823350366740213408064,
  823350357941974474944,
  823350349152322330944,
  823350349145881452864,
  823350349145881452864,
  823350349145880928704,
  823350340351935914304,
  675812416561424900544,
  675812416561424900544,
  675812416563572384064,
  675812434149315977664,
  675812416559277941184,
  675812416559277941184,
  675812416559278465344,
  675812425353223479744,
  675812416561425948864,
  675812425357517398464,
  675812416563572908224,
  675812434151462937024]
def T4_cub_cert_6 : List Nat := [823350366879733268544,
  823350366879733268544,
  675812434293130281024,
  675812434293130281024,
  823350366877586309184,
  823350366877586309184,
  823350358081493811264,
  823350349289695232064,
  675812425494890823744,
  675812425494890823744,
  675812425497037783104,
  675812434288836362304,
  823350366879732744384,
  823350366879732744384,
  675812434293129756864,
  675812434293129756864,
  823350366877585260864,
  823350366875438825664,
  823350358081492238784,
  823350340493602209984,
  675812425494889251264,
  675812416698797801664,
  675812425497036734784,
  675812434286688878784,
  823350366875438301504,
  823350366875438301504,
  823350358079345279424,
  823350340493601685824,
  823350366875438825664,
  823350366877585260864,
  823350358079346327744,
  823350349289694183744,
  823350349283253305664,
  823350349283253305664,
  823350349283252781504,
  823350340489307767104,
  675812416698796753344,
  675812416698796753344,
  675812416700944236864,
  675812434286687830464,
  675812416696649793984,
  675812416696649793984,
  675812416696650318144,
  675812425490595332544,
  675812416698797801664,
  675812425494889251264,
  675812416700944761024,
  675812434288834789824,
  823350366742294323264,
  823350366604922470464,
  675812434155691335744,
  675812434018319482944,
  823350366740147363904,
  823350366602775511104,
  823350357944054865984,
  823350349014884433984,
  675812425357451878464,
  675812425220080025664,
  675812425359598837824,
  675812434014025564224,
  823350366742293799104,
  823350366604921946304,
  675812434155690811584,
  675812434018318958784,
  823350366740146315584,
  823350366600628027584,
  823350357944053293504,
  823350340218791411904,
  675812425357450305984,
  675812416423987003584,
  675812425359597789504,
  675812434011878080704,
  823350366737999356224,
  823350366600627503424,
  823350357941906334144,
  823350340218790887744,
  823350366737999880384,
  823350366602774462784,
  823350357941907382464,
  823350349014883385664,
  823350349145814360384,
  823350349008442507584,
  823350349145813836224,
  823350340214496969024,
  675812416561357808064,
  675812416423985955264,
  675812416563505291584,
  675812434011877032384,
  675812416559210848704,
  675812416421838995904,
  675812416559211372864,
  675812425215784534464,
  675812416561358856384,
  675812425220078453184,
  675812416563505815744,
  675812434014023991744,
  823350366604888924224,
  823350366604888924224,
  675812434018285936704,
  675812434018285936704,
  823350366602741964864,
  823350366602741964864,
  823350357806649466944,
  823350349014850887744,
  675812425220046479424,
  675812425220046479424,
  675812425222193438784,
  675812434013992017984,
  823350366604888400064,
  823350366604888400064,
  675812434018285412544,
  675812434018285412544,
  823350366602740916544,
  823350366600594481344,
  823350357806647894464,
  823350340218757865664,
  675812425220044906944,
  675812416423953457344,
  675812425222192390464,
  675812434011844534464,
  823350366600593957184,
  823350366600593957184,
  823350357804500935104,
  823350340218757341504,
  823350366600594481344,
  823350366602740916544,
  823350357804501983424,
  823350349014849839424,
  823350349008408961344,
  823350349008408961344,
  823350349008408437184,
  823350340214463422784,
  675812416423952409024,
  675812416423952409024,
  675812416426099892544,
  675812434011843486144,
  675812416421805449664,
  675812416421805449664,
  675812416421805973824,
  675812425215750988224,
  675812416423953457344,
  675812425220044906944,
  675812416426100416704,
  675812434013990445504,
  823350366604922470464,
  823350366742294323264,
  675812434018319482944,
  675812434155691335744,
  823350366602775511104,
  823350366740147363904,
  823350357806683013184,
  823350349152256286784,
  675812425220080025664,
  675812425357451878464,
  675812425222226985024,
  675812434151397417024,
  823350366604921946304,
  823350366742293799104,
  675812434018318958784,
  675812434155690811584,
  823350366602774462784,
  823350366737999880384,
  823350357806681440704,
  823350340356163264704,
  675812425220078453184,
  675812416561358856384,
  675812425222225936704,
  675812434149249933504,
  823350366600627503424,
  823350366737999356224,
  823350357804534481344,
  823350340356162740544,
  823350366600628027584,
  823350366740146315584,
  823350357804535529664,
  823350349152255238464,
  823350349008442507584,
  823350349145814360384,
  823350349008441983424,
  823350340351868821824,
  675812416423985955264,
  675812416561357808064,
  675812416426133438784,
  675812434149248885184,
  675812416421838995904,
  675812416559210848704,
  675812416421839520064,
  675812425353156387264,
  675812416423987003584,
  675812425357450305984,
  675812416426133962944,
  675812434151395844544,
  823350366879766806594,
  823350366879766806594,
  675812434293163819074,
  675812434293163819074,
  823350366877619847234,
  823350366877619847234,
  823350358081527349314,
  823350349289728770114,
  675812425494924361794,
  675812425494924361794,
  675812425497071321154,
  675812434288869900354,
  823350366879766282434,
  823350366879766282434,
  675812434293163294914,
  675812434293163294914,
  823350366877618798914,
  823350366875472363714,
  823350358081525776834,
  823350340493635748034,
  675812425494922789314,
  675812416698831339714,
  675812425497070272834,
  675812434286722416834,
  823350366875471839554,
  823350366875471839554,
  823350358079378817474,
  823350340493635223874,
  823350366875472363714,
  823350366877618798914,
  823350358079379865794,
  823350349289727721794,
  823350349283286843714,
  823350349283286843714,
  823350349283286319554,
  823350340489341305154,
  675812416698830291394,
  675812416698830291394,
  675812416700977774914,
  675812434286721368514,
  675812416696683332034,
  675812416696683332034,
  675812416696683856194,
  675812425490628870594,
  675812416698831339714,
  675812425494922789314,
  675812416700978299074,
  675812434288868327874,
  823350366742361407554,
  823350366742361407554,
  675812434155758420034,
  675812434155758420034,
  823350366740214448194,
  823350366740214448194,
  823350357944121950274,
  823350349152323371074,
  675812425357518962754,
  675812425357518962754,
  675812425359665922114,
  675812434151464501314,
  823350366742360883394,
  823350366742360883394,
  675812434155757895874,
  675812434155757895874,
  823350366740213399874,
  823350366738066964674,
  823350357944120377794,
  823350340356230348994,
  675812425357517390274,
  675812416561425940674,
  675812425359664873794,
  675812434149317017794,
  823350366738066440514,
  823350366738066440514,
  823350357941973418434,
  823350340356229824834,
  823350366738066964674,
  823350366740213399874,
  823350357941974466754,
  823350349152322322754,
  823350349145881444674,
  823350349145881444674,
  823350349145880920514,
  823350340351935906114,
  675812416561424892354,
  675812416561424892354,
  675812416563572375874,
  675812434149315969474,
  675812416559277932994,
  675812416559277932994,
  675812416559278457154,
  675812425353223471554,
  675812416561425940674,
  675812425357517390274,
  675812416563572900034,
  675812434151462928834,
  823350366879733252164,
  823350366879699714114,
  675812434293130264644,
  675812434293096726594,
  823350366877586292804,
  823350366877552754754,
  823350358081493794884,
  823350349289661677634,
  675812425494890807364,
  675812425494857269314,
  675812425497037766724,
  675812434288802807874,
  823350366879732728004,
  823350366879699189954,
  675812434293129740484,
  675812434293096202434,
  823350366877585244484,
  823350366875405271234,
  823350358081492222404,
  823350340493568655554,
  675812425494889234884,
  675812416698764247234,
  675812425497036718404,
  675812434286655324354,
  823350366875438285124,
  823350366875404747074,
  823350358079345263044,
  823350340493568131394,
  823350366875438809284,
  823350366877551706434,
  823350358079346311364,
  823350349289660629314,
  823350349283253289284,
  823350349283219751234,
  823350349283252765124,
  823350340489274212674,
  675812416698796736964,
  675812416698763198914,
  675812416700944220484,
  675812434286654276034,
  675812416696649777604,
  675812416696616239554,
  675812416696650301764,
  675812425490561778114,
  675812416698797785284,
  675812425494855696834,
  675812416700944744644,
  675812434288801235394,
  823350366742294298694,
  823350366467483516994,
  675812434155691311174,
  675812433880880529474,
  823350366740147339334,
  823350366465336557634,
  823350357944054841414,
  823350348877445480514,
  675812425357451853894,
  675812425082641072194,
  675812425359598813254,
  675812433876586610754,
  823350366742293774534,
  823350366467482992834,
  675812434155690787014,
  675812433880880005314,
  823350366740146291014,
  823350366463189074114,
  823350357944053268934,
  823350340081352458434,
  675812425357450281414,
  675812416286548050114,
  675812425359597764934,
  675812433874439127234,
  823350366737999331654,
  823350366463188549954,
  823350357941906309574,
  823350340081351934274,
  823350366737999855814,
  823350366465335509314,
  823350357941907357894,
  823350348877444432194,
  823350349145814335814,
  823350348871003554114,
  823350349145813811654,
  823350340077058015554,
  675812416561357783494,
  675812416286547001794,
  675812416563505267014,
  675812433874438078914,
  675812416559210824134,
  675812416284400042434,
  675812416559211348294,
  675812425078345580994,
  675812416561358831814,
  675812425082639499714,
  675812416563505791174,
  675812433876585038274,
  823350366604888899654,
  823350366467449970754,
  675812434018285912134,
  675812433880846983234,
  823350366602741940294,
  823350366465303011394,
  823350357806649442374,
  823350348877411934274,
  675812425220046454854,
  675812425082607525954,
  675812425222193414214,
  675812433876553064514,
  823350366604888375494,
  823350366467449446594,
  675812434018285387974,
  675812433880846459074]
def T4_cub_cert_7 : List Nat := [823350366602740891974,
  823350366463155527874,
  823350357806647869894,
  823350340081318912194,
  675812425220044882374,
  675812416286514503874,
  675812425222192365894,
  675812433874405580994,
  823350366600593932614,
  823350366463155003714,
  823350357804500910534,
  823350340081318388034,
  823350366600594456774,
  823350366465301963074,
  823350357804501958854,
  823350348877410885954,
  823350349008408936774,
  823350348870970007874,
  823350349008408412614,
  823350340077024469314,
  675812416423952384454,
  675812416286513455554,
  675812416426099867974,
  675812433874404532674,
  675812416421805425094,
  675812416284366496194,
  675812416421805949254,
  675812425078312034754,
  675812416423953432774,
  675812425082605953474,
  675812416426100392134,
  675812433876551492034,
  823350366604922454084,
  823350366742260768834,
  675812434018319466564,
  675812434155657781314,
  823350366602775494724,
  823350366740113809474,
  823350357806682996804,
  823350349152222732354,
  675812425220080009284,
  675812425357418324034,
  675812425222226968644,
  675812434151363862594,
  823350366604921929924,
  823350366742260244674,
  675812434018318942404,
  675812434155657257154,
  823350366602774446404,
  823350366737966325954,
  823350357806681424324,
  823350340356129710274,
  675812425220078436804,
  675812416561325301954,
  675812425222225920324,
  675812434149216379074,
  823350366600627487044,
  823350366737965801794,
  823350357804534464964,
  823350340356129186114,
  823350366600628011204,
  823350366740112761154,
  823350357804535513284,
  823350349152221684034,
  823350349008442491204,
  823350349145780805954,
  823350349008441967044,
  823350340351835267394,
  675812416423985938884,
  675812416561324253634,
  675812416426133422404,
  675812434149215330754,
  675812416421838979524,
  675812416559177294274,
  675812416421839503684,
  675812425353122832834,
  675812416423986987204,
  675812425357416751554,
  675812416426133946564,
  675812434151362290114,
  823350366879699705924,
  823350366879699705924,
  675812434293096718404,
  675812434293096718404,
  823350366877552746564,
  823350366877552746564,
  823350358081460248644,
  823350349289661669444,
  675812425494857261124,
  675812425494857261124,
  675812425497004220484,
  675812434288802799684,
  823350366879699181764,
  823350366879699181764,
  675812434293096194244,
  675812434293096194244,
  823350366877551698244,
  823350366875405263044,
  823350358081458676164,
  823350340493568647364,
  675812425494855688644,
  675812416698764239044,
  675812425497003172164,
  675812434286655316164,
  823350366875404738884,
  823350366875404738884,
  823350358079311716804,
  823350340493568123204,
  823350366875405263044,
  823350366877551698244,
  823350358079312765124,
  823350349289660621124,
  823350349283219743044,
  823350349283219743044,
  823350349283219218884,
  823350340489274204484,
  675812416698763190724,
  675812416698763190724,
  675812416700910674244,
  675812434286654267844,
  675812416696616231364,
  675812416696616231364,
  675812416696616755524,
  675812425490561769924,
  675812416698764239044,
  675812425494855688644,
  675812416700911198404,
  675812434288801227204,
  823350366742260752454,
  823350366467483508804,
  675812434155657764934,
  675812433880880521284,
  823350366740113793094,
  823350366465336549444,
  823350357944021295174,
  823350348877445472324,
  675812425357418307654,
  675812425082641064004,
  675812425359565267014,
  675812433876586602564,
  823350366742260228294,
  823350366467482984644,
  675812434155657240774,
  675812433880879997124,
  823350366740112744774,
  823350366463189065924,
  823350357944019722694,
  823350340081352450244,
  675812425357416735174,
  675812416286548041924,
  675812425359564218694,
  675812433874439119044,
  823350366737965785414,
  823350366463188541764,
  823350357941872763334,
  823350340081351926084,
  823350366737966309574,
  823350366465335501124,
  823350357941873811654,
  823350348877444424004,
  823350349145780789574,
  823350348871003545924,
  823350349145780265414,
  823350340077058007364,
  675812416561324237254,
  675812416286546993604,
  675812416563471720774,
  675812433874438070724,
  675812416559177277894,
  675812416284400034244,
  675812416559177802054,
  675812425078345572804,
  675812416561325285574,
  675812425082639491524,
  675812416563472244934,
  675812433876585030084,
  823350366879699714114,
  823350366879733252164,
  675812434293096726594,
  675812434293130264644,
  823350366877552754754,
  823350366877586292804,
  823350358081460256834,
  823350349289695215684,
  675812425494857269314,
  675812425494890807364,
  675812425497004228674,
  675812434288836345924,
  823350366879699189954,
  823350366879732728004,
  675812434293096202434,
  675812434293129740484,
  823350366877551706434,
  823350366875438809284,
  823350358081458684354,
  823350340493602193604,
  675812425494855696834,
  675812416698797785284,
  675812425497003180354,
  675812434286688862404,
  823350366875404747074,
  823350366875438285124,
  823350358079311724994,
  823350340493601669444,
  823350366875405271234,
  823350366877585244484,
  823350358079312773314,
  823350349289694167364,
  823350349283219751234,
  823350349283253289284,
  823350349283219227074,
  823350340489307750724,
  675812416698763198914,
  675812416698796736964,
  675812416700910682434,
  675812434286687814084,
  675812416696616239554,
  675812416696649777604,
  675812416696616763714,
  675812425490595316164,
  675812416698764247234,
  675812425494889234884,
  675812416700911206594,
  675812434288834773444,
  823350366742260768834,
  823350366604922454084,
  675812434155657781314,
  675812434018319466564,
  823350366740113809474,
  823350366602775494724,
  823350357944021311554,
  823350349014884417604,
  675812425357418324034,
  675812425220080009284,
  675812425359565283394,
  675812434014025547844,
  823350366742260244674,
  823350366604921929924,
  675812434155657257154,
  675812434018318942404,
  823350366740112761154,
  823350366600628011204,
  823350357944019739074,
  823350340218791395524,
  675812425357416751554,
  675812416423986987204,
  675812425359564235074,
  675812434011878064324,
  823350366737965801794,
  823350366600627487044,
  823350357941872779714,
  823350340218790871364,
  823350366737966325954,
  823350366602774446404,
  823350357941873828034,
  823350349014883369284,
  823350349145780805954,
  823350349008442491204,
  823350349145780281794,
  823350340214496952644,
  675812416561324253634,
  675812416423985938884,
  675812416563471737154,
  675812434011877016004,
  675812416559177294274,
  675812416421838979524,
  675812416559177818434,
  675812425215784518084,
  675812416561325301954,
  675812425220078436804,
  675812416563472261314,
  675812434014023975364,
  823350366604821815364,
  823350366604821815364,
  675812434018218827844,
  675812434018218827844,
  823350366602674856004,
  823350366602674856004,
  823350357806582358084,
  823350349014783778884,
  675812425219979370564,
  675812425219979370564,
  675812425222126329924,
  675812434013924909124,
  823350366604821291204,
  823350366604821291204,
  675812434018218303684,
  675812434018218303684,
  823350366602673807684,
  823350366600527372484,
  823350357806580785604,
  823350340218690756804,
  675812425219977798084,
  675812416423886348484,
  675812425222125281604,
  675812434011777425604,
  823350366600526848324,
  823350366600526848324,
  823350357804433826244,
  823350340218690232644,
  823350366600527372484,
  823350366602673807684,
  823350357804434874564,
  823350349014782730564,
  823350349008341852484,
  823350349008341852484,
  823350349008341328324,
  823350340214396313924,
  675812416423885300164,
  675812416423885300164,
  675812416426032783684,
  675812434011776377284,
  675812416421738340804,
  675812416421738340804,
  675812416421738864964,
  675812425215683879364,
  675812416423886348484,
  675812425219977798084,
  675812416426033307844,
  675812434013923336644,
  823350366604821807174,
  823350366467416416324,
  675812434018218819654,
  675812433880813428804,
  823350366602674847814,
  823350366465269456964,
  823350357806582349894,
  823350348877378379844,
  675812425219979362374,
  675812425082573971524,
  675812425222126321734,
  675812433876519510084,
  823350366604821283014,
  823350366467415892164,
  675812434018218295494,
  675812433880812904644,
  823350366602673799494,
  823350366463121973444,
  823350357806580777414,
  823350340081285357764,
  675812425219977789894,
  675812416286480949444,
  675812425222125273414,
  675812433874372026564,
  823350366600526840134,
  823350366463121449284,
  823350357804433818054,
  823350340081284833604,
  823350366600527364294,
  823350366465268408644,
  823350357804434866374,
  823350348877377331524,
  823350349008341844294,
  823350348870936453444,
  823350349008341320134,
  823350340076990914884,
  675812416423885291974,
  675812416286479901124,
  675812416426032775494,
  675812433874370978244,
  675812416421738332614,
  675812416284332941764,
  675812416421738856774,
  675812425078278480324,
  675812416423886340294,
  675812425082572399044,
  675812416426033299654,
  675812433876517937604,
  823350366467449954374,
  823350366467449954374,
  675812433880846966854,
  675812433880846966854,
  823350366465302995014,
  823350366465302995014,
  823350357669210497094,
  823350348877411917894,
  675812425082607509574,
  675812425082607509574,
  675812425084754468934,
  675812433876553048134,
  823350366467449430214,
  823350366467449430214,
  675812433880846442694,
  675812433880846442694,
  823350366465301946694,
  823350366463155511494,
  823350357669208924614,
  823350340081318895814,
  675812425082605937094,
  675812416286514487494,
  675812425084753420614,
  675812433874405564614,
  823350366463154987334,
  823350366463154987334,
  823350357667061965254,
  823350340081318371654,
  823350366463155511494,
  823350366465301946694,
  823350357667063013574,
  823350348877410869574]
def T4_cub_cert_8 : List Nat := [823350348870969991494,
  823350348870969991494,
  823350348870969467334,
  823350340077024452934,
  675812416286513439174,
  675812416286513439174,
  675812416288660922694,
  675812433874404516294,
  675812416284366479814,
  675812416284366479814,
  675812416284367003974,
  675812425078312018374,
  675812416286514487494,
  675812425082605937094,
  675812416288661446854,
  675812433876551475654,
  823350366467483508804,
  823350366742260752454,
  675812433880880521284,
  675812434155657764934,
  823350366465336549444,
  823350366740113793094,
  823350357669244051524,
  823350349152222715974,
  675812425082641064004,
  675812425357418307654,
  675812425084788023364,
  675812434151363846214,
  823350366467482984644,
  823350366742260228294,
  675812433880879997124,
  675812434155657240774,
  823350366465335501124,
  823350366737966309574,
  823350357669242479044,
  823350340356129693894,
  675812425082639491524,
  675812416561325285574,
  675812425084786975044,
  675812434149216362694,
  823350366463188541764,
  823350366737965785414,
  823350357667095519684,
  823350340356129169734,
  823350366463189065924,
  823350366740112744774,
  823350357667096568004,
  823350349152221667654,
  823350348871003545924,
  823350349145780789574,
  823350348871003021764,
  823350340351835251014,
  675812416286546993604,
  675812416561324237254,
  675812416288694477124,
  675812434149215314374,
  675812416284400034244,
  675812416559177277894,
  675812416284400558404,
  675812425353122816454,
  675812416286548041924,
  675812425357416735174,
  675812416288695001284,
  675812434151362273734,
  823350366467416408134,
  823350366467416408134,
  675812433880813420614,
  675812433880813420614,
  823350366465269448774,
  823350366465269448774,
  823350357669176950854,
  823350348877378371654,
  675812425082573963334,
  675812425082573963334,
  675812425084720922694,
  675812433876519501894,
  823350366467415883974,
  823350366467415883974,
  675812433880812896454,
  675812433880812896454,
  823350366465268400454,
  823350366463121965254,
  823350357669175378374,
  823350340081285349574,
  675812425082572390854,
  675812416286480941254,
  675812425084719874374,
  675812433874372018374,
  823350366463121441094,
  823350366463121441094,
  823350357667028419014,
  823350340081284825414,
  823350366463121965254,
  823350366465268400454,
  823350357667029467334,
  823350348877377323334,
  823350348870936445254,
  823350348870936445254,
  823350348870935921094,
  823350340076990906694,
  675812416286479892934,
  675812416286479892934,
  675812416288627376454,
  675812433874370970054,
  675812416284332933574,
  675812416284332933574,
  675812416284333457734,
  675812425078278472134,
  675812416286480941254,
  675812425082572390854,
  675812416288627900614,
  675812433876517929414,
  823350366467416416324,
  823350366604821807174,
  675812433880813428804,
  675812434018218819654,
  823350366465269456964,
  823350366602674847814,
  823350357669176959044,
  823350349014783770694,
  675812425082573971524,
  675812425219979362374,
  675812425084720930884,
  675812434013924900934,
  823350366467415892164,
  823350366604821283014,
  675812433880812904644,
  675812434018218295494,
  823350366465268408644,
  823350366600527364294,
  823350357669175386564,
  823350340218690748614,
  675812425082572399044,
  675812416423886340294,
  675812425084719882564,
  675812434011777417414,
  823350366463121449284,
  823350366600526840134,
  823350357667028427204,
  823350340218690224454,
  823350366463121973444,
  823350366602673799494,
  823350357667029475524,
  823350349014782722374,
  823350348870936453444,
  823350349008341844294,
  823350348870935929284,
  823350340214396305734,
  675812416286479901124,
  675812416423885291974,
  675812416288627384644,
  675812434011776369094,
  675812416284332941764,
  675812416421738332614,
  675812416284333465924,
  675812425215683871174,
  675812416286480949444,
  675812425219977789894,
  675812416288627908804,
  675812434013923328454,
  823350366467449970754,
  823350366604888899654,
  675812433880846983234,
  675812434018285912134,
  823350366465303011394,
  823350366602741940294,
  823350357669210513474,
  823350349014850863174,
  675812425082607525954,
  675812425220046454854,
  675812425084754485314,
  675812434013991993414,
  823350366467449446594,
  823350366604888375494,
  675812433880846459074,
  675812434018285387974,
  823350366465301963074,
  823350366600594456774,
  823350357669208940994,
  823350340218757841094,
  675812425082605953474,
  675812416423953432774,
  675812425084753436994,
  675812434011844509894,
  823350366463155003714,
  823350366600593932614,
  823350357667061981634,
  823350340218757316934,
  823350366463155527874,
  823350366602740891974,
  823350357667063029954,
  823350349014849814854,
  823350348870970007874,
  823350349008408936774,
  823350348870969483714,
  823350340214463398214,
  675812416286513455554,
  675812416423952384454,
  675812416288660939074,
  675812434011843461574,
  675812416284366496194,
  675812416421805425094,
  675812416284367020354,
  675812425215750963654,
  675812416286514503874,
  675812425220044882374,
  675812416288661463234,
  675812434013990420934,
  823350366467483516994,
  823350366742294298694,
  675812433880880529474,
  675812434155691311174,
  823350366465336557634,
  823350366740147339334,
  823350357669244059714,
  823350349152256262214,
  675812425082641072194,
  675812425357451853894,
  675812425084788031554,
  675812434151397392454,
  823350366467482992834,
  823350366742293774534,
  675812433880880005314,
  675812434155690787014,
  823350366465335509314,
  823350366737999855814,
  823350357669242487234,
  823350340356163240134,
  675812425082639499714,
  675812416561358831814,
  675812425084786983234,
  675812434149249908934,
  823350366463188549954,
  823350366737999331654,
  823350357667095527874,
  823350340356162715974,
  823350366463189074114,
  823350366740146291014,
  823350357667096576194,
  823350349152255213894,
  823350348871003554114,
  823350349145814335814,
  823350348871003029954,
  823350340351868797254,
  675812416286547001794,
  675812416561357783494,
  675812416288694485314,
  675812434149248860614,
  675812416284400042434,
  675812416559210824134,
  675812416284400566594,
  675812425353156362694,
  675812416286548050114,
  675812425357450281414,
  675812416288695009474,
  675812434151395819974,
  823350366879766814784,
  823350366879766814784,
  823350366742361415744,
  823350366742361415744,
  823350366879733268544,
  823350366879733268544,
  823350366742294323264,
  823350366604922470464,
  823350366604888924224,
  823350366604888924224,
  823350366604922470464,
  823350366742294323264,
  823350366879766806594,
  823350366879766806594,
  823350366742361407554,
  823350366742361407554,
  823350366879733252164,
  823350366879699714114,
  823350366742294298694,
  823350366467483516994,
  823350366604888899654,
  823350366467449970754,
  823350366604922454084,
  823350366742260768834,
  823350366879699705924,
  823350366879699705924,
  823350366742260752454,
  823350366467483508804,
  823350366879699714114,
  823350366879733252164,
  823350366742260768834,
  823350366604922454084,
  823350366604821815364,
  823350366604821815364,
  823350366604821807174,
  823350366467416416324,
  823350366467449954374,
  823350366467449954374,
  823350366467483508804,
  823350366742260752454,
  823350366467416408134,
  823350366467416408134,
  823350366467416416324,
  823350366604821807174,
  823350366467449970754,
  823350366604888899654,
  823350366467483516994,
  823350366742294298694,
  823350358085821276224,
  823350358085821276224,
  823350357948415877184,
  823350357948415877184,
  823350358085787729984,
  823350358085787729984,
  823350357948348784704,
  823350357810976931904,
  823350357810943385664,
  823350357810943385664,
  823350357810976931904,
  823350357948348784704,
  823350358085821268034,
  823350358085821268034,
  823350357948415868994,
  823350357948415868994,
  823350358085787713604,
  823350358085754175554,
  823350357948348760134,
  823350357673537978434,
  823350357810943361094,
  823350357673504432194,
  823350357810976915524,
  823350357948315230274,
  823350358085754167364,
  823350358085754167364,
  823350357948315213894,
  823350357673537970244,
  823350358085754175554,
  823350358085787713604,
  823350357948315230274,
  823350357810976915524,
  823350357810876276804,
  823350357810876276804,
  823350357810876268614,
  823350357673470877764,
  823350357673504415814,
  823350357673504415814,
  823350357673537970244,
  823350357948315213894,
  823350357673470869574,
  823350357673470869574,
  823350357673470877764,
  823350357810876268614,
  823350357673504432194,
  823350357810943361094,
  823350357673537978434,
  823350357948348760134,
  823350366877619855424,
  823350366877619855424,
  823350366740214456384,
  823350366740214456384,
  823350366877586309184,
  823350366877586309184,
  823350366740147363904,
  823350366602775511104,
  823350366602741964864,
  823350366602741964864,
  823350366602775511104,
  823350366740147363904,
  823350366877619847234,
  823350366877619847234,
  823350366740214448194,
  823350366740214448194,
  823350366877586292804,
  823350366877552754754,
  823350366740147339334,
  823350366465336557634,
  823350366602741940294,
  823350366465303011394,
  823350366602775494724,
  823350366740113809474,
  823350366877552746564,
  823350366877552746564,
  823350366740113793094,
  823350366465336549444,
  823350366877552754754,
  823350366877586292804,
  823350366740113809474,
  823350366602775494724,
  823350366602674856004,
  823350366602674856004,
  823350366602674847814,
  823350366465269456964,
  823350366465302995014,
  823350366465302995014,
  823350366465336549444,
  823350366740113793094,
  823350366465269448774,
  823350366465269448774,
  823350366465269456964,
  823350366602674847814,
  823350366465303011394,
  823350366602741940294,
  823350366465336557634,
  823350366740147339334]
def T4_cub_cert_9 : List Nat := [823350358081527357504,
  823350349289728778304,
  823350357944121958464,
  823350349152323379264,
  823350358081493811264,
  823350349289695232064,
  823350357944054865984,
  823350349014884433984,
  823350357806649466944,
  823350349014850887744,
  823350357806683013184,
  823350349152256286784,
  823350358081527349314,
  823350349289728770114,
  823350357944121950274,
  823350349152323371074,
  823350358081493794884,
  823350349289661677634,
  823350357944054841414,
  823350348877445480514,
  823350357806649442374,
  823350348877411934274,
  823350357806682996804,
  823350349152222732354,
  823350358081460248644,
  823350349289661669444,
  823350357944021295174,
  823350348877445472324,
  823350358081460256834,
  823350349289695215684,
  823350357944021311554,
  823350349014884417604,
  823350357806582358084,
  823350349014783778884,
  823350357806582349894,
  823350348877378379844,
  823350357669210497094,
  823350348877411917894,
  823350357669244051524,
  823350349152222715974,
  823350357669176950854,
  823350348877378371654,
  823350357669176959044,
  823350349014783770694,
  823350357669210513474,
  823350349014850863174,
  823350357669244059714,
  823350349152256262214,
  823350349287581818944,
  823350349287581818944,
  823350349150176419904,
  823350349150176419904,
  823350349287548272704,
  823350349287548272704,
  823350349150109327424,
  823350349012737474624,
  823350349012703928384,
  823350349012703928384,
  823350349012737474624,
  823350349150109327424,
  823350349287581810754,
  823350349287581810754,
  823350349150176411714,
  823350349150176411714,
  823350349287548256324,
  823350349287514718274,
  823350349150109302854,
  823350348875298521154,
  823350349012703903814,
  823350348875264974914,
  823350349012737458244,
  823350349150075772994,
  823350349287514710084,
  823350349287514710084,
  823350349150075756614,
  823350348875298512964,
  823350349287514718274,
  823350349287548256324,
  823350349150075772994,
  823350349012737458244,
  823350349012636819524,
  823350349012636819524,
  823350349012636811334,
  823350348875231420484,
  823350348875264958534,
  823350348875264958534,
  823350348875298512964,
  823350349150075756614,
  823350348875231412294,
  823350348875231412294,
  823350348875231420484,
  823350349012636811334,
  823350348875264974914,
  823350349012703903814,
  823350348875298521154,
  823350349150109302854,
  823350349289728778304,
  823350358081527357504,
  823350349152323379264,
  823350357944121958464,
  823350349289695232064,
  823350358081493811264,
  823350349152256286784,
  823350357806683013184,
  823350349014850887744,
  823350357806649466944,
  823350349014884433984,
  823350357944054865984,
  823350349289728770114,
  823350358081527349314,
  823350349152323371074,
  823350357944121950274,
  823350349289695215684,
  823350358081460256834,
  823350349152256262214,
  823350357669244059714,
  823350349014850863174,
  823350357669210513474,
  823350349014884417604,
  823350357944021311554,
  823350349289661669444,
  823350358081460248644,
  823350349152222715974,
  823350357669244051524,
  823350349289661677634,
  823350358081493794884,
  823350349152222732354,
  823350357806682996804,
  823350349014783778884,
  823350357806582358084,
  823350349014783770694,
  823350357669176959044,
  823350348877411917894,
  823350357669210497094,
  823350348877445472324,
  823350357944021295174,
  823350348877378371654,
  823350357669176950854,
  823350348877378379844,
  823350357806582349894,
  823350348877411934274,
  823350357806649442374,
  823350348877445480514,
  823350357944054841414,
  823350366879766290624,
  823350366879766290624,
  823350366742360891584,
  823350366742360891584,
  823350366879732744384,
  823350366879732744384,
  823350366742293799104,
  823350366604921946304,
  823350366604888400064,
  823350366604888400064,
  823350366604921946304,
  823350366742293799104,
  823350366879766282434,
  823350366879766282434,
  823350366742360883394,
  823350366742360883394,
  823350366879732728004,
  823350366879699189954,
  823350366742293774534,
  823350366467482992834,
  823350366604888375494,
  823350366467449446594,
  823350366604921929924,
  823350366742260244674,
  823350366879699181764,
  823350366879699181764,
  823350366742260228294,
  823350366467482984644,
  823350366879699189954,
  823350366879732728004,
  823350366742260244674,
  823350366604921929924,
  823350366604821291204,
  823350366604821291204,
  823350366604821283014,
  823350366467415892164,
  823350366467449430214,
  823350366467449430214,
  823350366467482984644,
  823350366742260228294,
  823350366467415883974,
  823350366467415883974,
  823350366467415892164,
  823350366604821283014,
  823350366467449446594,
  823350366604888375494,
  823350366467482992834,
  823350366742293774534,
  823350358085820752064,
  823350358085820752064,
  823350357948415353024,
  823350357948415353024,
  823350358085787205824,
  823350358085787205824,
  823350357948348260544,
  823350357810976407744,
  823350357810942861504,
  823350357810942861504,
  823350357810976407744,
  823350357948348260544,
  823350358085820743874,
  823350358085820743874,
  823350357948415344834,
  823350357948415344834,
  823350358085787189444,
  823350358085753651394,
  823350357948348235974,
  823350357673537454274,
  823350357810942836934,
  823350357673503908034,
  823350357810976391364,
  823350357948314706114,
  823350358085753643204,
  823350358085753643204,
  823350357948314689734,
  823350357673537446084,
  823350358085753651394,
  823350358085787189444,
  823350357948314706114,
  823350357810976391364,
  823350357810875752644,
  823350357810875752644,
  823350357810875744454,
  823350357673470353604,
  823350357673503891654,
  823350357673503891654,
  823350357673537446084,
  823350357948314689734,
  823350357673470345414,
  823350357673470345414,
  823350357673470353604,
  823350357810875744454,
  823350357673503908034,
  823350357810942836934,
  823350357673537454274,
  823350357948348235974,
  823350366877618807104,
  823350366875472371904,
  823350366740213408064,
  823350366738066972864,
  823350366877585260864,
  823350366875438825664,
  823350366740146315584,
  823350366600628027584,
  823350366602740916544,
  823350366600594481344,
  823350366602774462784,
  823350366737999880384,
  823350366877618798914,
  823350366875472363714,
  823350366740213399874,
  823350366738066964674,
  823350366877585244484,
  823350366875405271234,
  823350366740146291014,
  823350366463189074114,
  823350366602740891974,
  823350366463155527874,
  823350366602774446404,
  823350366737966325954,
  823350366877551698244,
  823350366875405263044,
  823350366740112744774,
  823350366463189065924,
  823350366877551706434,
  823350366875438809284,
  823350366740112761154,
  823350366600628011204,
  823350366602673807684,
  823350366600527372484,
  823350366602673799494,
  823350366463121973444,
  823350366465301946694,
  823350366463155511494,
  823350366465335501124,
  823350366737966309574,
  823350366465268400454,
  823350366463121965254,
  823350366465268408644,
  823350366600527364294,
  823350366465301963074,
  823350366600594456774,
  823350366465335509314,
  823350366737999855814,
  823350358081525785024,
  823350340493635756224,
  823350357944120385984,
  823350340356230357184,
  823350358081492238784,
  823350340493602209984,
  823350357944053293504,
  823350340218791411904,
  823350357806647894464,
  823350340218757865664,
  823350357806681440704,
  823350340356163264704,
  823350358081525776834,
  823350340493635748034,
  823350357944120377794,
  823350340356230348994,
  823350358081492222404,
  823350340493568655554,
  823350357944053268934,
  823350340081352458434,
  823350357806647869894,
  823350340081318912194,
  823350357806681424324,
  823350340356129710274,
  823350358081458676164,
  823350340493568647364,
  823350357944019722694,
  823350340081352450244,
  823350358081458684354,
  823350340493602193604,
  823350357944019739074,
  823350340218791395524,
  823350357806580785604,
  823350340218690756804,
  823350357806580777414,
  823350340081285357764,
  823350357669208924614,
  823350340081318895814,
  823350357669242479044,
  823350340356129693894,
  823350357669175378374,
  823350340081285349574,
  823350357669175386564,
  823350340218690748614,
  823350357669208940994,
  823350340218757841094,
  823350357669242487234,
  823350340356163240134,
  823350349287580246464,
  823350340491488796864,
  823350349150174847424,
  823350340354083397824,
  823350349287546700224,
  823350340491455250624,
  823350349150107754944,
  823350340216644452544,
  823350349012702355904,
  823350340216610906304,
  823350349012735902144,
  823350340354016305344,
  823350349287580238274,
  823350340491488788674,
  823350349150174839234,
  823350340354083389634,
  823350349287546683844,
  823350340491421696194,
  823350349150107730374,
  823350340079205499074,
  823350349012702331334,
  823350340079171952834,
  823350349012735885764,
  823350340353982750914,
  823350349287513137604,
  823350340491421688004,
  823350349150074184134,
  823350340079205490884,
  823350349287513145794,
  823350340491455234244,
  823350349150074200514,
  823350340216644436164,
  823350349012635247044,
  823350340216543797444,
  823350349012635238854,
  823350340079138398404,
  823350348875263386054,
  823350340079171936454,
  823350348875296940484,
  823350340353982734534,
  823350348875229839814,
  823350340079138390214,
  823350348875229848004,
  823350340216543789254,
  823350348875263402434,
  823350340216610881734,
  823350348875296948674,
  823350340354016280774,
  823350349289727729984,
  823350358079379873984,
  823350349152322330944,
  823350357941974474944,
  823350349289694183744,
  823350358079346327744,
  823350349152255238464,
  823350357804535529664,
  823350349014849839424,
  823350357804501983424,
  823350349014883385664,
  823350357941907382464,
  823350349289727721794,
  823350358079379865794,
  823350349152322322754,
  823350357941974466754]
def T4_cub_cert_10 : List Nat := [823350349289694167364,
  823350358079312773314,
  823350349152255213894,
  823350357667096576194,
  823350349014849814854,
  823350357667063029954,
  823350349014883369284,
  823350357941873828034,
  823350349289660621124,
  823350358079312765124,
  823350349152221667654,
  823350357667096568004,
  823350349289660629314,
  823350358079346311364,
  823350349152221684034,
  823350357804535513284,
  823350349014782730564,
  823350357804434874564,
  823350349014782722374,
  823350357667029475524,
  823350348877410869574,
  823350357667063013574,
  823350348877444424004,
  823350357941873811654,
  823350348877377323334,
  823350357667029467334,
  823350348877377331524,
  823350357804434866374,
  823350348877410885954,
  823350357804501958854,
  823350348877444432194,
  823350357941907357894,
  821045086816211575104,
  821045086816211575104,
  821045086678806176064,
  821045086678806176064,
  821045086816178028864,
  821045086816178028864,
  821045086678739083584,
  821045086541367230784,
  821045086541333684544,
  821045086541333684544,
  821045086541367230784,
  821045086678739083584,
  821045086816211566914,
  821045086816211566914,
  821045086678806167874,
  821045086678806167874,
  821045086816178012484,
  821045086816144474434,
  821045086678739059014,
  821045086403928277314,
  821045086541333659974,
  821045086403894731074,
  821045086541367214404,
  821045086678705529154,
  821045086816144466244,
  821045086816144466244,
  821045086678705512774,
  821045086403928269124,
  821045086816144474434,
  821045086816178012484,
  821045086678705529154,
  821045086541367214404,
  821045086541266575684,
  821045086541266575684,
  821045086541266567494,
  821045086403861176644,
  821045086403894714694,
  821045086403894714694,
  821045086403928269124,
  821045086678705512774,
  821045086403861168454,
  821045086403861168454,
  821045086403861176644,
  821045086541266567494,
  821045086403894731074,
  821045086541333659974,
  821045086403928277314,
  821045086678739059014,
  821045078020118553024,
  821045060434374959424,
  821045077882713153984,
  821045060296969560384,
  821045078020085006784,
  821045060434341413184,
  821045077882646061504,
  821045060159530615104,
  821045077745240662464,
  821045060159497068864,
  821045077745274208704,
  821045060296902467904,
  821045078020118544834,
  821045060434374951234,
  821045077882713145794,
  821045060296969552194,
  821045078020084990404,
  821045060434307858754,
  821045077882646036934,
  821045060022091661634,
  821045077745240637894,
  821045060022058115394,
  821045077745274192324,
  821045060296868913474,
  821045078020051444164,
  821045060434307850564,
  821045077882612490694,
  821045060022091653444,
  821045078020051452354,
  821045060434341396804,
  821045077882612507074,
  821045060159530598724,
  821045077745173553604,
  821045060159429960004,
  821045077745173545414,
  821045060022024560964,
  821045077607801692614,
  821045060022058099014,
  821045077607835247044,
  821045060296868897094,
  821045077607768146374,
  821045060022024552774,
  821045077607768154564,
  821045060159429951814,
  821045077607801708994,
  821045060159497044294,
  821045077607835255234,
  821045060296902443334,
  821045086816212099264,
  821045086818358534464,
  821045086678806700224,
  821045086680953135424,
  821045086816178553024,
  821045086818324988224,
  821045086678739607744,
  821045086543514190144,
  821045086541334208704,
  821045086543480643904,
  821045086541367754944,
  821045086680886042944,
  821045086816212091074,
  821045086818358526274,
  821045086678806692034,
  821045086680953127234,
  821045086816178536644,
  821045086818291433794,
  821045086678739583174,
  821045086406075236674,
  821045086541334184134,
  821045086406041690434,
  821045086541367738564,
  821045086680852488514,
  821045086816144990404,
  821045086818291425604,
  821045086678706036934,
  821045086406075228484,
  821045086816144998594,
  821045086818324971844,
  821045086678706053314,
  821045086543514173764,
  821045086541267099844,
  821045086543413535044,
  821045086541267091654,
  821045086406008136004,
  821045086403895238854,
  821045086406041674054,
  821045086403928793284,
  821045086680852472134,
  821045086403861692614,
  821045086406008127814,
  821045086403861700804,
  821045086543413526854,
  821045086403895255234,
  821045086543480619334,
  821045086403928801474,
  821045086680886018374,
  821045078020119601344,
  821045069230467457344,
  821045077882714202304,
  821045069093062058304,
  821045078020086055104,
  821045069230433911104,
  821045077882647109824,
  821045068955623113024,
  821045077745241710784,
  821045068955589566784,
  821045077745275257024,
  821045069092994965824,
  821045078020119593154,
  821045069230467449154,
  821045077882714194114,
  821045069093062050114,
  821045078020086038724,
  821045069230400356674,
  821045077882647085254,
  821045068818184159554,
  821045077745241686214,
  821045068818150613314,
  821045077745275240644,
  821045069092961411394,
  821045078020052492484,
  821045069230400348484,
  821045077882613539014,
  821045068818184151364,
  821045078020052500674,
  821045069230433894724,
  821045077882613555394,
  821045068955623096644,
  821045077745174601924,
  821045068955522457924,
  821045077745174593734,
  821045068818117058884,
  821045077607802740934,
  821045068818150596934,
  821045077607836295364,
  821045069092961395014,
  821045077607769194694,
  821045068818117050694,
  821045077607769202884,
  821045068955522449734,
  821045077607802757314,
  821045068955589542214,
  821045077607836303554,
  821045069092994941254,
  821045069224026579264,
  821045069224026579264,
  821045069086621180224,
  821045069086621180224,
  821045069223993033024,
  821045069223993033024,
  821045069086554087744,
  821045068949182234944,
  821045068949148688704,
  821045068949148688704,
  821045068949182234944,
  821045069086554087744,
  821045069224026571074,
  821045069224026571074,
  821045069086621172034,
  821045069086621172034,
  821045069223993016644,
  821045069223959478594,
  821045069086554063174,
  821045068811743281474,
  821045068949148664134,
  821045068811709735234,
  821045068949182218564,
  821045069086520533314,
  821045069223959470404,
  821045069223959470404,
  821045069086520516934,
  821045068811743273284,
  821045069223959478594,
  821045069223993016644,
  821045069086520533314,
  821045068949182218564,
  821045068949081579844,
  821045068949081579844,
  821045068949081571654,
  821045068811676180804,
  821045068811709718854,
  821045068811709718854,
  821045068811743273284,
  821045069086520516934,
  821045068811676172614,
  821045068811676172614,
  821045068811676180804,
  821045068949081571654,
  821045068811709735234,
  821045068949148664134,
  821045068811743281474,
  821045069086554063174,
  821045069224026055104,
  821045060430081040704,
  821045069086620656064,
  821045060292675641664,
  821045069223992508864,
  821045060430047494464,
  821045069086553563584,
  821045060155236696384,
  821045068949148164544,
  821045060155203150144,
  821045068949181710784,
  821045060292608549184,
  821045069224026046914,
  821045060430081032514,
  821045069086620647874,
  821045060292675633474,
  821045069223992492484,
  821045060430013940034,
  821045069086553539014,
  821045060017797742914,
  821045068949148139974,
  821045060017764196674,
  821045068949181694404,
  821045060292574994754,
  821045069223958946244,
  821045060430013931844,
  821045069086519992774,
  821045060017797734724,
  821045069223958954434,
  821045060430047478084,
  821045069086520009154,
  821045060155236680004,
  821045068949081055684,
  821045060155136041284,
  821045068949081047494,
  821045060017730642244,
  821045068811709194694,
  821045060017764180294,
  821045068811742749124,
  821045060292574978374,
  821045068811675648454,
  821045060017730634054,
  821045068811675656644,
  821045060155136033094,
  821045068811709211074,
  821045060155203125574,
  821045068811742757314,
  821045060292608524614,
  821045060432227475904,
  821045060432227475904,
  821045060294822076864,
  821045060294822076864,
  821045060432193929664,
  821045060432193929664,
  821045060294754984384,
  821045060157383131584,
  821045060157349585344,
  821045060157349585344,
  821045060157383131584,
  821045060294754984384,
  821045060432227467714,
  821045060432227467714,
  821045060294822068674,
  821045060294822068674,
  821045060432193913284,
  821045060432160375234,
  821045060294754959814,
  821045060019944178114,
  821045060157349560774,
  821045060019910631874,
  821045060157383115204,
  821045060294721429954,
  821045060432160367044,
  821045060432160367044,
  821045060294721413574,
  821045060019944169924,
  821045060432160375234,
  821045060432193913284,
  821045060294721429954,
  821045060157383115204,
  821045060157282476484,
  821045060157282476484,
  821045060157282468294,
  821045060019877077444,
  821045060019910615494,
  821045060019910615494,
  821045060019944169924,
  821045060294721413574,
  821045060019877069254,
  821045060019877069254,
  821045060019877077444,
  821045060157282468294,
  821045060019910631874,
  821045060157349560774,
  821045060019944178114,
  821045060294754959814,
  821045060434374959424,
  821045078020118553024,
  821045060296969560384,
  821045077882713153984,
  821045060434341413184,
  821045078020085006784,
  821045060296902467904,
  821045077745274208704,
  821045060159497068864,
  821045077745240662464,
  821045060159530615104,
  821045077882646061504,
  821045060434374951234,
  821045078020118544834,
  821045060296969552194,
  821045077882713145794,
  821045060434341396804,
  821045078020051452354,
  821045060296902443334,
  821045077607835255234,
  821045060159497044294,
  821045077607801708994,
  821045060159530598724,
  821045077882612507074,
  821045060434307850564,
  821045078020051444164,
  821045060296868897094,
  821045077607835247044,
  821045060434307858754,
  821045078020084990404,
  821045060296868913474,
  821045077745274192324]
def T4_cub_cert_11 : List Nat := [821045060159429960004,
  821045077745173553604,
  821045060159429951814,
  821045077607768154564,
  821045060022058099014,
  821045077607801692614,
  821045060022091653444,
  821045077882612490694,
  821045060022024552774,
  821045077607768146374,
  821045060022024560964,
  821045077745173545414,
  821045060022058115394,
  821045077745240637894,
  821045060022091661634,
  821045077882646036934,
  821045060430080516544,
  821045060430080516544,
  821045060292675117504,
  821045060292675117504,
  821045060430046970304,
  821045060430046970304,
  821045060292608025024,
  821045060155236172224,
  821045060155202625984,
  821045060155202625984,
  821045060155236172224,
  821045060292608025024,
  821045060430080508354,
  821045060430080508354,
  821045060292675109314,
  821045060292675109314,
  821045060430046953924,
  821045060430013415874,
  821045060292608000454,
  821045060017797218754,
  821045060155202601414,
  821045060017763672514,
  821045060155236155844,
  821045060292574470594,
  821045060430013407684,
  821045060430013407684,
  821045060292574454214,
  821045060017797210564,
  821045060430013415874,
  821045060430046953924,
  821045060292574470594,
  821045060155236155844,
  821045060155135517124,
  821045060155135517124,
  821045060155135508934,
  821045060017730118084,
  821045060017763656134,
  821045060017763656134,
  821045060017797210564,
  821045060292574454214,
  821045060017730109894,
  821045060017730109894,
  821045060017730118084,
  821045060155135508934,
  821045060017763672514,
  821045060155202601414,
  821045060017797218754,
  821045060292608000454,
  821045060430081040704,
  821045069224026055104,
  821045060292675641664,
  821045069086620656064,
  821045060430047494464,
  821045069223992508864,
  821045060292608549184,
  821045068949181710784,
  821045060155203150144,
  821045068949148164544,
  821045060155236696384,
  821045069086553563584,
  821045060430081032514,
  821045069224026046914,
  821045060292675633474,
  821045069086620647874,
  821045060430047478084,
  821045069223958954434,
  821045060292608524614,
  821045068811742757314,
  821045060155203125574,
  821045068811709211074,
  821045060155236680004,
  821045069086520009154,
  821045060430013931844,
  821045069223958946244,
  821045060292574978374,
  821045068811742749124,
  821045060430013940034,
  821045069223992492484,
  821045060292574994754,
  821045068949181694404,
  821045060155136041284,
  821045068949081055684,
  821045060155136033094,
  821045068811675656644,
  821045060017764180294,
  821045068811709194694,
  821045060017797734724,
  821045069086519992774,
  821045060017730634054,
  821045068811675648454,
  821045060017730642244,
  821045068949081047494,
  821045060017764196674,
  821045068949148139974,
  821045060017797742914,
  821045069086553539014,
  821045060432228524224,
  821045069228319973824,
  821045060294823125184,
  821045069090914574784,
  821045060432194977984,
  821045069228286427584,
  821045060294756032704,
  821045068953475629504,
  821045060157350633664,
  821045068953442083264,
  821045060157384179904,
  821045069090847482304,
  821045060432228516034,
  821045069228319965634,
  821045060294823116994,
  821045069090914566594,
  821045060432194961604,
  821045069228252873154,
  821045060294756008134,
  821045068816036676034,
  821045060157350609094,
  821045068816003129794,
  821045060157384163524,
  821045069090813927874,
  821045060432161415364,
  821045069228252864964,
  821045060294722461894,
  821045068816036667844,
  821045060432161423554,
  821045069228286411204,
  821045060294722478274,
  821045068953475613124,
  821045060157283524804,
  821045068953374974404,
  821045060157283516614,
  821045068815969575364,
  821045060019911663814,
  821045068816003113414,
  821045060019945218244,
  821045069090813911494,
  821045060019878117574,
  821045068815969567174,
  821045060019878125764,
  821045068953374966214,
  821045060019911680194,
  821045068953442058694,
  821045060019945226434,
  821045069090847457734,
  821045060434375483584,
  821045078022265512384,
  821045060296970084544,
  821045077884860113344,
  821045060434341937344,
  821045078022231966144,
  821045060296902992064,
  821045077747421168064,
  821045060159497593024,
  821045077747387621824,
  821045060159531139264,
  821045077884793020864,
  821045060434375475394,
  821045078022265504194,
  821045060296970076354,
  821045077884860105154,
  821045060434341920964,
  821045078022198411714,
  821045060296902967494,
  821045077609982214594,
  821045060159497568454,
  821045077609948668354,
  821045060159531122884,
  821045077884759466434,
  821045060434308374724,
  821045078022198403524,
  821045060296869421254,
  821045077609982206404,
  821045060434308382914,
  821045078022231949764,
  821045060296869437634,
  821045077747421151684,
  821045060159430484164,
  821045077747320512964,
  821045060159430475974,
  821045077609915113924,
  821045060022058623174,
  821045077609948651974,
  821045060022092177604,
  821045077884759450054,
  821045060022025076934,
  821045077609915105734,
  821045060022025085124,
  821045077747320504774,
  821045060022058639554,
  821045077747387597254,
  821045060022092185794,
  821045077884792996294,
  821045086820506542144,
  821045086820506542144,
  821045086683101143104,
  821045086683101143104,
  821045086820472995904,
  821045086820472995904,
  821045086683034050624,
  821045086545662197824,
  821045086545628651584,
  821045086545628651584,
  821045086545662197824,
  821045086683034050624,
  821045086820506533954,
  821045086820506533954,
  821045086683101134914,
  821045086683101134914,
  821045086820472979524,
  821045086820439441474,
  821045086683034026054,
  821045086408223244354,
  821045086545628627014,
  821045086408189698114,
  821045086545662181444,
  821045086683000496194,
  821045086820439433284,
  821045086820439433284,
  821045086683000479814,
  821045086408223236164,
  821045086820439441474,
  821045086820472979524,
  821045086683000496194,
  821045086545662181444,
  821045086545561542724,
  821045086545561542724,
  821045086545561534534,
  821045086408156143684,
  821045086408189681734,
  821045086408189681734,
  821045086408223236164,
  821045086683000479814,
  821045086408156135494,
  821045086408156135494,
  821045086408156143684,
  821045086545561534534,
  821045086408189698114,
  821045086545628627014,
  821045086408223244354,
  821045086683034026054,
  673507154233903554624,
  673507154233903554624,
  673507154096498155584,
  673507154096498155584,
  673507154233870008384,
  673507154233870008384,
  673507154096431063104,
  673507153959059210304,
  673507153959025664064,
  673507153959025664064,
  673507153959059210304,
  673507154096431063104,
  673507154233903546434,
  673507154233903546434,
  673507154096498147394,
  673507154096498147394,
  673507154233869992004,
  673507154233836453954,
  673507154096431038534,
  673507153821620256834,
  673507153959025639494,
  673507153821586710594,
  673507153959059193924,
  673507154096397508674,
  673507154233836445764,
  673507154233836445764,
  673507154096397492294,
  673507153821620248644,
  673507154233836453954,
  673507154233869992004,
  673507154096397508674,
  673507153959059193924,
  673507153958958555204,
  673507153958958555204,
  673507153958958547014,
  673507153821553156164,
  673507153821586694214,
  673507153821586694214,
  673507153821620248644,
  673507154096397492294,
  673507153821553147974,
  673507153821553147974,
  673507153821553156164,
  673507153958958547014,
  673507153821586710594,
  673507153959025639494,
  673507153821620256834,
  673507154096431038534,
  821045086818359582784,
  821045086818359582784,
  821045086680954183744,
  821045086680954183744,
  821045086818326036544,
  821045086818326036544,
  821045086680887091264,
  821045086543515238464,
  821045086543481692224,
  821045086543481692224,
  821045086543515238464,
  821045086680887091264,
  821045086818359574594,
  821045086818359574594,
  821045086680954175554,
  821045086680954175554,
  821045086818326020164,
  821045086818292482114,
  821045086680887066694,
  821045086406076284994,
  821045086543481667654,
  821045086406042738754,
  821045086543515222084,
  821045086680853536834,
  821045086818292473924,
  821045086818292473924,
  821045086680853520454,
  821045086406076276804,
  821045086818292482114,
  821045086818326020164,
  821045086680853536834,
  821045086543515222084,
  821045086543414583364,
  821045086543414583364,
  821045086543414575174,
  821045086406009184324,
  821045086406042722374,
  821045086406042722374,
  821045086406076276804,
  821045086680853520454,
  821045086406009176134,
  821045086406009176134,
  821045086406009184324,
  821045086543414575174,
  821045086406042738754,
  821045086543481667654,
  821045086406076284994,
  821045086680887066694,
  821045078022267084864,
  821045069230468505664,
  821045077884861685824,
  821045069093063106624,
  821045078022233538624,
  821045069230434959424,
  821045077884794593344,
  821045068955624161344,
  821045077747389194304,
  821045068955590615104,
  821045077747422740544,
  821045069092996014144,
  821045078022267076674,
  821045069230468497474,
  821045077884861677634,
  821045069093063098434,
  821045078022233522244,
  821045069230401404994,
  821045077884794568774,
  821045068818185207874,
  821045077747389169734,
  821045068818151661634,
  821045077747422724164,
  821045069092962459714,
  821045078022199976004,
  821045069230401396804,
  821045077884761022534,
  821045068818185199684,
  821045078022199984194,
  821045069230434943044,
  821045077884761038914,
  821045068955624144964,
  821045077747322085444,
  821045068955523506244,
  821045077747322077254,
  821045068818118107204,
  821045077609950224454,
  821045068818151645254,
  821045077609983778884,
  821045069092962443334,
  821045077609916678214,
  821045068818118099014,
  821045077609916686404,
  821045068955523498054,
  821045077609950240834,
  821045068955590590534,
  821045077609983787074,
  821045069092995989574]
def T4_cub_cert_12 : List Nat := [673507145435664097344,
  673507145435664097344,
  673507145298258698304,
  673507145298258698304,
  673507145435630551104,
  673507145435630551104,
  673507145298191605824,
  673507145160819753024,
  673507145160786206784,
  673507145160786206784,
  673507145160819753024,
  673507145298191605824,
  673507145435664089154,
  673507145435664089154,
  673507145298258690114,
  673507145298258690114,
  673507145435630534724,
  673507145435596996674,
  673507145298191581254,
  673507145023380799554,
  673507145160786182214,
  673507145023347253314,
  673507145160819736644,
  673507145298158051394,
  673507145435596988484,
  673507145435596988484,
  673507145298158035014,
  673507145023380791364,
  673507145435596996674,
  673507145435630534724,
  673507145298158051394,
  673507145160819736644,
  673507145160719097924,
  673507145160719097924,
  673507145160719089734,
  673507145023313698884,
  673507145023347236934,
  673507145023347236934,
  673507145023380791364,
  673507145298158035014,
  673507145023313690694,
  673507145023313690694,
  673507145023313698884,
  673507145160719089734,
  673507145023347253314,
  673507145160786182214,
  673507145023380799554,
  673507145298191581254,
  673507145437811056704,
  673507154229609635904,
  673507145300405657664,
  673507154092204236864,
  673507145437777510464,
  673507154229576089664,
  673507145300338565184,
  673507153954765291584,
  673507145162933166144,
  673507153954731745344,
  673507145162966712384,
  673507154092137144384,
  673507145437811048514,
  673507154229609627714,
  673507145300405649474,
  673507154092204228674,
  673507145437777494084,
  673507154229542535234,
  673507145300338540614,
  673507153817326338114,
  673507145162933141574,
  673507153817292791874,
  673507145162966696004,
  673507154092103589954,
  673507145437743947844,
  673507154229542527044,
  673507145300304994374,
  673507153817326329924,
  673507145437743956034,
  673507154229576073284,
  673507145300305010754,
  673507153954765275204,
  673507145162866057284,
  673507153954664636484,
  673507145162866049094,
  673507153817259237444,
  673507145025494196294,
  673507153817292775494,
  673507145025527750724,
  673507154092103573574,
  673507145025460650054,
  673507153817259229254,
  673507145025460658244,
  673507153954664628294,
  673507145025494212674,
  673507153954731720774,
  673507145025527758914,
  673507154092137119814,
  821045086820506017984,
  821045086820506017984,
  821045086683100618944,
  821045086683100618944,
  821045086820472471744,
  821045086820472471744,
  821045086683033526464,
  821045086545661673664,
  821045086545628127424,
  821045086545628127424,
  821045086545661673664,
  821045086683033526464,
  821045086820506009794,
  821045086820506009794,
  821045086683100610754,
  821045086683100610754,
  821045086820472455364,
  821045086820438917314,
  821045086683033501894,
  821045086408222720194,
  821045086545628102854,
  821045086408189173954,
  821045086545661657284,
  821045086682999972034,
  821045086820438909124,
  821045086820438909124,
  821045086682999955654,
  821045086408222712004,
  821045086820438917314,
  821045086820472455364,
  821045086682999972034,
  821045086545661657284,
  821045086545561018564,
  821045086545561018564,
  821045086545561010374,
  821045086408155619524,
  821045086408189157574,
  821045086408189157574,
  821045086408222712004,
  821045086682999955654,
  821045086408155611334,
  821045086408155611334,
  821045086408155619524,
  821045086545561010374,
  821045086408189173954,
  821045086545628102854,
  821045086408222720194,
  821045086683033501894,
  673507154233903030464,
  673507154233903030464,
  673507154096497631424,
  673507154096497631424,
  673507154233869484224,
  673507154233869484224,
  673507154096430538944,
  673507153959058686144,
  673507153959025139904,
  673507153959025139904,
  673507153959058686144,
  673507154096430538944,
  673507154233903022274,
  673507154233903022274,
  673507154096497623234,
  673507154096497623234,
  673507154233869467844,
  673507154233835929794,
  673507154096430514374,
  673507153821619732674,
  673507153959025115334,
  673507153821586186434,
  673507153959058669764,
  673507154096396984514,
  673507154233835921604,
  673507154233835921604,
  673507154096396968134,
  673507153821619724484,
  673507154233835929794,
  673507154233869467844,
  673507154096396984514,
  673507153959058669764,
  673507153958958031044,
  673507153958958031044,
  673507153958958022854,
  673507153821552632004,
  673507153821586170054,
  673507153821586170054,
  673507153821619724484,
  673507154096396968134,
  673507153821552623814,
  673507153821552623814,
  673507153821552632004,
  673507153958958022854,
  673507153821586186434,
  673507153959025115334,
  673507153821619732674,
  673507154096430514374,
  821045086818358534464,
  821045086816212099264,
  821045086680953135424,
  821045086678806700224,
  821045086818324988224,
  821045086816178553024,
  821045086680886042944,
  821045086541367754944,
  821045086543480643904,
  821045086541334208704,
  821045086543514190144,
  821045086678739607744,
  821045086818358526274,
  821045086816212091074,
  821045086680953127234,
  821045086678806692034,
  821045086818324971844,
  821045086816144998594,
  821045086680886018374,
  821045086403928801474,
  821045086543480619334,
  821045086403895255234,
  821045086543514173764,
  821045086678706053314,
  821045086818291425604,
  821045086816144990404,
  821045086680852472134,
  821045086403928793284,
  821045086818291433794,
  821045086816178536644,
  821045086680852488514,
  821045086541367738564,
  821045086543413535044,
  821045086541267099844,
  821045086543413526854,
  821045086403861700804,
  821045086406041674054,
  821045086403895238854,
  821045086406075228484,
  821045086678706036934,
  821045086406008127814,
  821045086403861692614,
  821045086406008136004,
  821045086541267091654,
  821045086406041690434,
  821045086541334184134,
  821045086406075236674,
  821045086678739583174,
  821045078022265512384,
  821045060434375483584,
  821045077884860113344,
  821045060296970084544,
  821045078022231966144,
  821045060434341937344,
  821045077884793020864,
  821045060159531139264,
  821045077747387621824,
  821045060159497593024,
  821045077747421168064,
  821045060296902992064,
  821045078022265504194,
  821045060434375475394,
  821045077884860105154,
  821045060296970076354,
  821045078022231949764,
  821045060434308382914,
  821045077884792996294,
  821045060022092185794,
  821045077747387597254,
  821045060022058639554,
  821045077747421151684,
  821045060296869437634,
  821045078022198403524,
  821045060434308374724,
  821045077884759450054,
  821045060022092177604,
  821045078022198411714,
  821045060434341920964,
  821045077884759466434,
  821045060159531122884,
  821045077747320512964,
  821045060159430484164,
  821045077747320504774,
  821045060022025085124,
  821045077609948651974,
  821045060022058623174,
  821045077609982206404,
  821045060296869421254,
  821045077609915105734,
  821045060022025076934,
  821045077609915113924,
  821045060159430475974,
  821045077609948668354,
  821045060159497568454,
  821045077609982214594,
  821045060296902967494,
  673507145435662524864,
  673507136639571075264,
  673507145298257125824,
  673507136502165676224,
  673507145435628978624,
  673507136639537529024,
  673507145298190033344,
  673507136364726730944,
  673507145160784634304,
  673507136364693184704,
  673507145160818180544,
  673507136502098583744,
  673507145435662516674,
  673507136639571067074,
  673507145298257117634,
  673507136502165668034,
  673507145435628962244,
  673507136639503974594,
  673507145298190008774,
  673507136227287777474,
  673507145160784609734,
  673507136227254231234,
  673507145160818164164,
  673507136502065029314,
  673507145435595416004,
  673507136639503966404,
  673507145298156462534,
  673507136227287769284,
  673507145435595424194,
  673507136639537512644,
  673507145298156478914,
  673507136364726714564,
  673507145160717525444,
  673507136364626075844,
  673507145160717517254,
  673507136227220676804,
  673507145023345664454,
  673507136227254214854,
  673507145023379218884,
  673507136502065012934,
  673507145023312118214,
  673507136227220668614,
  673507145023312126404,
  673507136364626067654,
  673507145023345680834,
  673507136364693160134,
  673507145023379227074,
  673507136502098559174,
  673507145437810008384,
  673507154227462152384,
  673507145300404609344,
  673507154090056753344,
  673507145437776462144,
  673507154227428606144,
  673507145300337516864,
  673507153952617808064,
  673507145162932117824,
  673507153952584261824,
  673507145162965664064,
  673507154089989660864,
  673507145437810000194,
  673507154227462144194,
  673507145300404601154,
  673507154090056745154,
  673507145437776445764,
  673507154227395051714,
  673507145300337492294,
  673507153815178854594,
  673507145162932093254,
  673507153815145308354,
  673507145162965647684,
  673507154089956106434,
  673507145437742899524,
  673507154227395043524,
  673507145300303946054,
  673507153815178846404,
  673507145437742907714,
  673507154227428589764,
  673507145300303962434,
  673507153952617791684,
  673507145162865008964,
  673507153952517152964,
  673507145162865000774,
  673507153815111753924,
  673507145025493147974,
  673507153815145291974,
  673507145025526702404,
  673507154089956090054,
  673507145025459601734,
  673507153815111745734,
  673507145025459609924,
  673507153952517144774,
  673507145025493164354,
  673507153952584237254,
  673507145025526710594,
  673507154089989636294,
  821045086816211575104,
  821045086816211575104,
  821045086678806176064,
  821045086678806176064,
  821045086816178028864,
  821045086816178028864,
  821045086678739083584,
  821045086541367230784,
  821045086541333684544,
  821045086541333684544,
  821045086541367230784,
  821045086678739083584,
  821045086816211566914,
  821045086816211566914,
  821045086678806167874,
  821045086678806167874]
def T4_cub_cert_13 : List Nat := [821045086816178012484,
  821045086816144474434,
  821045086678739059014,
  821045086403928277314,
  821045086541333659974,
  821045086403894731074,
  821045086541367214404,
  821045086678705529154,
  821045086816144466244,
  821045086816144466244,
  821045086678705512774,
  821045086403928269124,
  821045086816144474434,
  821045086816178012484,
  821045086678705529154,
  821045086541367214404,
  821045086541266575684,
  821045086541266575684,
  821045086541266567494,
  821045086403861176644,
  821045086403894714694,
  821045086403894714694,
  821045086403928269124,
  821045086678705512774,
  821045086403861168454,
  821045086403861168454,
  821045086403861176644,
  821045086541266567494,
  821045086403894731074,
  821045086541333659974,
  821045086403928277314,
  821045086678739059014,
  821045078020118553024,
  821045060434374959424,
  821045077882713153984,
  821045060296969560384,
  821045078020085006784,
  821045060434341413184,
  821045077882646061504,
  821045060159530615104,
  821045077745240662464,
  821045060159497068864,
  821045077745274208704,
  821045060296902467904,
  821045078020118544834,
  821045060434374951234,
  821045077882713145794,
  821045060296969552194,
  821045078020084990404,
  821045060434307858754,
  821045077882646036934,
  821045060022091661634,
  821045077745240637894,
  821045060022058115394,
  821045077745274192324,
  821045060296868913474,
  821045078020051444164,
  821045060434307850564,
  821045077882612490694,
  821045060022091653444,
  821045078020051452354,
  821045060434341396804,
  821045077882612507074,
  821045060159530598724,
  821045077745173553604,
  821045060159429960004,
  821045077745173545414,
  821045060022024560964,
  821045077607801692614,
  821045060022058099014,
  821045077607835247044,
  821045060296868897094,
  821045077607768146374,
  821045060022024552774,
  821045077607768154564,
  821045060159429951814,
  821045077607801708994,
  821045060159497044294,
  821045077607835255234,
  821045060296902443334,
  821045086816212099264,
  821045086818358534464,
  821045086678806700224,
  821045086680953135424,
  821045086816178553024,
  821045086818324988224,
  821045086678739607744,
  821045086543514190144,
  821045086541334208704,
  821045086543480643904,
  821045086541367754944,
  821045086680886042944,
  821045086816212091074,
  821045086818358526274,
  821045086678806692034,
  821045086680953127234,
  821045086816178536644,
  821045086818291433794,
  821045086678739583174,
  821045086406075236674,
  821045086541334184134,
  821045086406041690434,
  821045086541367738564,
  821045086680852488514,
  821045086816144990404,
  821045086818291425604,
  821045086678706036934,
  821045086406075228484,
  821045086816144998594,
  821045086818324971844,
  821045086678706053314,
  821045086543514173764,
  821045086541267099844,
  821045086543413535044,
  821045086541267091654,
  821045086406008136004,
  821045086403895238854,
  821045086406041674054,
  821045086403928793284,
  821045086680852472134,
  821045086403861692614,
  821045086406008127814,
  821045086403861700804,
  821045086543413526854,
  821045086403895255234,
  821045086543480619334,
  821045086403928801474,
  821045086680886018374,
  821045078020119601344,
  821045069230467457344,
  821045077882714202304,
  821045069093062058304,
  821045078020086055104,
  821045069230433911104,
  821045077882647109824,
  821045068955623113024,
  821045077745241710784,
  821045068955589566784,
  821045077745275257024,
  821045069092994965824,
  821045078020119593154,
  821045069230467449154,
  821045077882714194114,
  821045069093062050114,
  821045078020086038724,
  821045069230400356674,
  821045077882647085254,
  821045068818184159554,
  821045077745241686214,
  821045068818150613314,
  821045077745275240644,
  821045069092961411394,
  821045078020052492484,
  821045069230400348484,
  821045077882613539014,
  821045068818184151364,
  821045078020052500674,
  821045069230433894724,
  821045077882613555394,
  821045068955623096644,
  821045077745174601924,
  821045068955522457924,
  821045077745174593734,
  821045068818117058884,
  821045077607802740934,
  821045068818150596934,
  821045077607836295364,
  821045069092961395014,
  821045077607769194694,
  821045068818117050694,
  821045077607769202884,
  821045068955522449734,
  821045077607802757314,
  821045068955589542214,
  821045077607836303554,
  821045069092994941254,
  821045069224026579264,
  821045069224026579264,
  821045069086621180224,
  821045069086621180224,
  821045069223993033024,
  821045069223993033024,
  821045069086554087744,
  821045068949182234944,
  821045068949148688704,
  821045068949148688704,
  821045068949182234944,
  821045069086554087744,
  821045069224026571074,
  821045069224026571074,
  821045069086621172034,
  821045069086621172034,
  821045069223993016644,
  821045069223959478594,
  821045069086554063174,
  821045068811743281474,
  821045068949148664134,
  821045068811709735234,
  821045068949182218564,
  821045069086520533314,
  821045069223959470404,
  821045069223959470404,
  821045069086520516934,
  821045068811743273284,
  821045069223959478594,
  821045069223993016644,
  821045069086520533314,
  821045068949182218564,
  821045068949081579844,
  821045068949081579844,
  821045068949081571654,
  821045068811676180804,
  821045068811709718854,
  821045068811709718854,
  821045068811743273284,
  821045069086520516934,
  821045068811676172614,
  821045068811676172614,
  821045068811676180804,
  821045068949081571654,
  821045068811709735234,
  821045068949148664134,
  821045068811743281474,
  821045069086554063174,
  821045069224026055104,
  821045060430081040704,
  821045069086620656064,
  821045060292675641664,
  821045069223992508864,
  821045060430047494464,
  821045069086553563584,
  821045060155236696384,
  821045068949148164544,
  821045060155203150144,
  821045068949181710784,
  821045060292608549184,
  821045069224026046914,
  821045060430081032514,
  821045069086620647874,
  821045060292675633474,
  821045069223992492484,
  821045060430013940034,
  821045069086553539014,
  821045060017797742914,
  821045068949148139974,
  821045060017764196674,
  821045068949181694404,
  821045060292574994754,
  821045069223958946244,
  821045060430013931844,
  821045069086519992774,
  821045060017797734724,
  821045069223958954434,
  821045060430047478084,
  821045069086520009154,
  821045060155236680004,
  821045068949081055684,
  821045060155136041284,
  821045068949081047494,
  821045060017730642244,
  821045068811709194694,
  821045060017764180294,
  821045068811742749124,
  821045060292574978374,
  821045068811675648454,
  821045060017730634054,
  821045068811675656644,
  821045060155136033094,
  821045068811709211074,
  821045060155203125574,
  821045068811742757314,
  821045060292608524614,
  673507136639570026944,
  673507136639570026944,
  673507136502164627904,
  673507136502164627904,
  673507136639536480704,
  673507136639536480704,
  673507136502097535424,
  673507136364725682624,
  673507136364692136384,
  673507136364692136384,
  673507136364725682624,
  673507136502097535424,
  673507136639570018754,
  673507136639570018754,
  673507136502164619714,
  673507136502164619714,
  673507136639536464324,
  673507136639502926274,
  673507136502097510854,
  673507136227286729154,
  673507136364692111814,
  673507136227253182914,
  673507136364725666244,
  673507136502063980994,
  673507136639502918084,
  673507136639502918084,
  673507136502063964614,
  673507136227286720964,
  673507136639502926274,
  673507136639536464324,
  673507136502063980994,
  673507136364725666244,
  673507136364625027524,
  673507136364625027524,
  673507136364625019334,
  673507136227219628484,
  673507136227253166534,
  673507136227253166534,
  673507136227286720964,
  673507136502063964614,
  673507136227219620294,
  673507136227219620294,
  673507136227219628484,
  673507136364625019334,
  673507136227253182914,
  673507136364692111814,
  673507136227286729154,
  673507136502097510854,
  673507136641717510464,
  673507154227461104064,
  673507136504312111424,
  673507154090055705024,
  673507136641683964224,
  673507154227427557824,
  673507136504245018944,
  673507153952616759744,
  673507136366839619904,
  673507153952583213504,
  673507136366873166144,
  673507154089988612544,
  673507136641717502274,
  673507154227461095874,
  673507136504312103234,
  673507154090055696834,
  673507136641683947844,
  673507154227394003394,
  673507136504244994374,
  673507153815177806274,
  673507136366839595334,
  673507153815144260034,
  673507136366873149764,
  673507154089955058114,
  673507136641650401604,
  673507154227393995204,
  673507136504211448134,
  673507153815177798084,
  673507136641650409794,
  673507154227427541444,
  673507136504211464514,
  673507153952616743364,
  673507136366772511044,
  673507153952516104644,
  673507136366772502854,
  673507153815110705604,
  673507136229400650054,
  673507153815144243654,
  673507136229434204484,
  673507154089955041734,
  673507136229367103814,
  673507153815110697414,
  673507136229367112004,
  673507153952516096454,
  673507136229400666434,
  673507153952583188934,
  673507136229434212674,
  673507154089988587974,
  673507136637423067584,
  673507136637423067584,
  673507136500017668544,
  673507136500017668544,
  673507136637389521344,
  673507136637389521344,
  673507136499950576064,
  673507136362578723264,
  673507136362545177024,
  673507136362545177024,
  673507136362578723264,
  673507136499950576064,
  673507136637423059394,
  673507136637423059394,
  673507136500017660354,
  673507136500017660354,
  673507136637389504964,
  673507136637355966914,
  673507136499950551494,
  673507136225139769794,
  673507136362545152454,
  673507136225106223554,
  673507136362578706884,
  673507136499917021634,
  673507136637355958724,
  673507136637355958724,
  673507136499917005254,
  673507136225139761604,
  673507136637355966914,
  673507136637389504964,
  673507136499917021634,
  673507136362578706884]
def T4_cub_cert_14 : List Nat := [673507136362478068164,
  673507136362478068164,
  673507136362478059974,
  673507136225072669124,
  673507136225106207174,
  673507136225106207174,
  673507136225139761604,
  673507136499917005254,
  673507136225072660934,
  673507136225072660934,
  673507136225072669124,
  673507136362478059974,
  673507136225106223554,
  673507136362545152454,
  673507136225139769794,
  673507136499950551494,
  673507136637423591744,
  673507145431368606144,
  673507136500018192704,
  673507145293963207104,
  673507136637390045504,
  673507145431335059904,
  673507136499951100224,
  673507145156524261824,
  673507136362545701184,
  673507145156490715584,
  673507136362579247424,
  673507145293896114624,
  673507136637423583554,
  673507145431368597954,
  673507136500018184514,
  673507145293963198914,
  673507136637390029124,
  673507145431301505474,
  673507136499951075654,
  673507145019085308354,
  673507136362545676614,
  673507145019051762114,
  673507136362579231044,
  673507145293862560194,
  673507136637356482884,
  673507145431301497284,
  673507136499917529414,
  673507145019085300164,
  673507136637356491074,
  673507145431335043524,
  673507136499917545794,
  673507145156524245444,
  673507136362478592324,
  673507145156423606724,
  673507136362478584134,
  673507145019018207684,
  673507136225106731334,
  673507145019051745734,
  673507136225140285764,
  673507145293862543814,
  673507136225073185094,
  673507145019018199494,
  673507136225073193284,
  673507145156423598534,
  673507136225106747714,
  673507145156490691014,
  673507136225140293954,
  673507145293896090054,
  673507136639571075264,
  673507145435662524864,
  673507136502165676224,
  673507145298257125824,
  673507136639537529024,
  673507145435628978624,
  673507136502098583744,
  673507145160818180544,
  673507136364693184704,
  673507145160784634304,
  673507136364726730944,
  673507145298190033344,
  673507136639571067074,
  673507145435662516674,
  673507136502165668034,
  673507145298257117634,
  673507136639537512644,
  673507145435595424194,
  673507136502098559174,
  673507145023379227074,
  673507136364693160134,
  673507145023345680834,
  673507136364726714564,
  673507145298156478914,
  673507136639503966404,
  673507145435595416004,
  673507136502065012934,
  673507145023379218884,
  673507136639503974594,
  673507145435628962244,
  673507136502065029314,
  673507145160818164164,
  673507136364626075844,
  673507145160717525444,
  673507136364626067654,
  673507145023312126404,
  673507136227254214854,
  673507145023345664454,
  673507136227287769284,
  673507145298156462534,
  673507136227220668614,
  673507145023312118214,
  673507136227220676804,
  673507145160717517254,
  673507136227254231234,
  673507145160784609734,
  673507136227287777474,
  673507145298190008774,
  673507136641718034624,
  673507154229608063424,
  673507136504312635584,
  673507154092202664384,
  673507136641684488384,
  673507154229574517184,
  673507136504245543104,
  673507153954763719104,
  673507136366840144064,
  673507153954730172864,
  673507136366873690304,
  673507154092135571904,
  673507136641718026434,
  673507154229608055234,
  673507136504312627394,
  673507154092202656194,
  673507136641684472004,
  673507154229540962754,
  673507136504245518534,
  673507153817324765634,
  673507136366840119494,
  673507153817291219394,
  673507136366873673924,
  673507154092102017474,
  673507136641650925764,
  673507154229540954564,
  673507136504211972294,
  673507153817324757444,
  673507136641650933954,
  673507154229574500804,
  673507136504211988674,
  673507153954763702724,
  673507136366773035204,
  673507153954663064004,
  673507136366773027014,
  673507153817257664964,
  673507136229401174214,
  673507153817291203014,
  673507136229434728644,
  673507154092102001094,
  673507136229367627974,
  673507153817257656774,
  673507136229367636164,
  673507153954663055814,
  673507136229401190594,
  673507153954730148294,
  673507136229434736834,
  673507154092135547334,
  823350366879766814784,
  823350366879766814784,
  823350366742361415744,
  823350366742361415744,
  823350366879733268544,
  823350366879733268544,
  823350366742294323264,
  823350366604922470464,
  823350366604888924224,
  823350366604888924224,
  823350366604922470464,
  823350366742294323264,
  823350366879766806594,
  823350366879766806594,
  823350366742361407554,
  823350366742361407554,
  823350366879733252164,
  823350366879699714114,
  823350366742294298694,
  823350366467483516994,
  823350366604888899654,
  823350366467449970754,
  823350366604922454084,
  823350366742260768834,
  823350366879699705924,
  823350366879699705924,
  823350366742260752454,
  823350366467483508804,
  823350366879699714114,
  823350366879733252164,
  823350366742260768834,
  823350366604922454084,
  823350366604821815364,
  823350366604821815364,
  823350366604821807174,
  823350366467416416324,
  823350366467449954374,
  823350366467449954374,
  823350366467483508804,
  823350366742260752454,
  823350366467416408134,
  823350366467416408134,
  823350366467416416324,
  823350366604821807174,
  823350366467449970754,
  823350366604888899654,
  823350366467483516994,
  823350366742294298694,
  675812434293163827264,
  675812434293163827264,
  675812434155758428224,
  675812434155758428224,
  675812434293130281024,
  675812434293130281024,
  675812434155691335744,
  675812434018319482944,
  675812434018285936704,
  675812434018285936704,
  675812434018319482944,
  675812434155691335744,
  675812434293163819074,
  675812434293163819074,
  675812434155758420034,
  675812434155758420034,
  675812434293130264644,
  675812434293096726594,
  675812434155691311174,
  675812433880880529474,
  675812434018285912134,
  675812433880846983234,
  675812434018319466564,
  675812434155657781314,
  675812434293096718404,
  675812434293096718404,
  675812434155657764934,
  675812433880880521284,
  675812434293096726594,
  675812434293130264644,
  675812434155657781314,
  675812434018319466564,
  675812434018218827844,
  675812434018218827844,
  675812434018218819654,
  675812433880813428804,
  675812433880846966854,
  675812433880846966854,
  675812433880880521284,
  675812434155657764934,
  675812433880813420614,
  675812433880813420614,
  675812433880813428804,
  675812434018218819654,
  675812433880846983234,
  675812434018285912134,
  675812433880880529474,
  675812434155691311174,
  823350366877619855424,
  823350366877619855424,
  823350366740214456384,
  823350366740214456384,
  823350366877586309184,
  823350366877586309184,
  823350366740147363904,
  823350366602775511104,
  823350366602741964864,
  823350366602741964864,
  823350366602775511104,
  823350366740147363904,
  823350366877619847234,
  823350366877619847234,
  823350366740214448194,
  823350366740214448194,
  823350366877586292804,
  823350366877552754754,
  823350366740147339334,
  823350366465336557634,
  823350366602741940294,
  823350366465303011394,
  823350366602775494724,
  823350366740113809474,
  823350366877552746564,
  823350366877552746564,
  823350366740113793094,
  823350366465336549444,
  823350366877552754754,
  823350366877586292804,
  823350366740113809474,
  823350366602775494724,
  823350366602674856004,
  823350366602674856004,
  823350366602674847814,
  823350366465269456964,
  823350366465302995014,
  823350366465302995014,
  823350366465336549444,
  823350366740113793094,
  823350366465269448774,
  823350366465269448774,
  823350366465269456964,
  823350366602674847814,
  823350366465303011394,
  823350366602741940294,
  823350366465336557634,
  823350366740147339334,
  823350358081527357504,
  823350349289728778304,
  823350357944121958464,
  823350349152323379264,
  823350358081493811264,
  823350349289695232064,
  823350357944054865984,
  823350349014884433984,
  823350357806649466944,
  823350349014850887744,
  823350357806683013184,
  823350349152256286784,
  823350358081527349314,
  823350349289728770114,
  823350357944121950274,
  823350349152323371074,
  823350358081493794884,
  823350349289661677634,
  823350357944054841414,
  823350348877445480514,
  823350357806649442374,
  823350348877411934274,
  823350357806682996804,
  823350349152222732354,
  823350358081460248644,
  823350349289661669444,
  823350357944021295174,
  823350348877445472324,
  823350358081460256834,
  823350349289695215684,
  823350357944021311554,
  823350349014884417604,
  823350357806582358084,
  823350349014783778884,
  823350357806582349894,
  823350348877378379844,
  823350357669210497094,
  823350348877411917894,
  823350357669244051524,
  823350349152222715974,
  823350357669176950854,
  823350348877378371654,
  823350357669176959044,
  823350349014783770694,
  823350357669210513474,
  823350349014850863174,
  823350357669244059714,
  823350349152256262214,
  675812425494924369984,
  675812425494924369984,
  675812425357518970944,
  675812425357518970944,
  675812425494890823744,
  675812425494890823744,
  675812425357451878464,
  675812425220080025664,
  675812425220046479424,
  675812425220046479424,
  675812425220080025664,
  675812425357451878464,
  675812425494924361794,
  675812425494924361794,
  675812425357518962754,
  675812425357518962754,
  675812425494890807364,
  675812425494857269314,
  675812425357451853894,
  675812425082641072194,
  675812425220046454854,
  675812425082607525954,
  675812425220080009284,
  675812425357418324034,
  675812425494857261124,
  675812425494857261124,
  675812425357418307654,
  675812425082641064004,
  675812425494857269314,
  675812425494890807364,
  675812425357418324034,
  675812425220080009284,
  675812425219979370564,
  675812425219979370564,
  675812425219979362374,
  675812425082573971524,
  675812425082607509574,
  675812425082607509574,
  675812425082641064004,
  675812425357418307654,
  675812425082573963334,
  675812425082573963334,
  675812425082573971524,
  675812425219979362374,
  675812425082607525954,
  675812425220046454854,
  675812425082641072194,
  675812425357451853894]
def T4_cub_cert_15 : List Nat := [675812425497071329344,
  675812434288869908544,
  675812425359665930304,
  675812434151464509504,
  675812425497037783104,
  675812434288836362304,
  675812425359598837824,
  675812434014025564224,
  675812425222193438784,
  675812434013992017984,
  675812425222226985024,
  675812434151397417024,
  675812425497071321154,
  675812434288869900354,
  675812425359665922114,
  675812434151464501314,
  675812425497037766724,
  675812434288802807874,
  675812425359598813254,
  675812433876586610754,
  675812425222193414214,
  675812433876553064514,
  675812425222226968644,
  675812434151363862594,
  675812425497004220484,
  675812434288802799684,
  675812425359565267014,
  675812433876586602564,
  675812425497004228674,
  675812434288836345924,
  675812425359565283394,
  675812434014025547844,
  675812425222126329924,
  675812434013924909124,
  675812425222126321734,
  675812433876519510084,
  675812425084754468934,
  675812433876553048134,
  675812425084788023364,
  675812434151363846214,
  675812425084720922694,
  675812433876519501894,
  675812425084720930884,
  675812434013924900934,
  675812425084754485314,
  675812434013991993414,
  675812425084788031554,
  675812434151397392454,
  823350366879766290624,
  823350366879766290624,
  823350366742360891584,
  823350366742360891584,
  823350366879732744384,
  823350366879732744384,
  823350366742293799104,
  823350366604921946304,
  823350366604888400064,
  823350366604888400064,
  823350366604921946304,
  823350366742293799104,
  823350366879766282434,
  823350366879766282434,
  823350366742360883394,
  823350366742360883394,
  823350366879732728004,
  823350366879699189954,
  823350366742293774534,
  823350366467482992834,
  823350366604888375494,
  823350366467449446594,
  823350366604921929924,
  823350366742260244674,
  823350366879699181764,
  823350366879699181764,
  823350366742260228294,
  823350366467482984644,
  823350366879699189954,
  823350366879732728004,
  823350366742260244674,
  823350366604921929924,
  823350366604821291204,
  823350366604821291204,
  823350366604821283014,
  823350366467415892164,
  823350366467449430214,
  823350366467449430214,
  823350366467482984644,
  823350366742260228294,
  823350366467415883974,
  823350366467415883974,
  823350366467415892164,
  823350366604821283014,
  823350366467449446594,
  823350366604888375494,
  823350366467482992834,
  823350366742293774534,
  675812434293163303104,
  675812434293163303104,
  675812434155757904064,
  675812434155757904064,
  675812434293129756864,
  675812434293129756864,
  675812434155690811584,
  675812434018318958784,
  675812434018285412544,
  675812434018285412544,
  675812434018318958784,
  675812434155690811584,
  675812434293163294914,
  675812434293163294914,
  675812434155757895874,
  675812434155757895874,
  675812434293129740484,
  675812434293096202434,
  675812434155690787014,
  675812433880880005314,
  675812434018285387974,
  675812433880846459074,
  675812434018318942404,
  675812434155657257154,
  675812434293096194244,
  675812434293096194244,
  675812434155657240774,
  675812433880879997124,
  675812434293096202434,
  675812434293129740484,
  675812434155657257154,
  675812434018318942404,
  675812434018218303684,
  675812434018218303684,
  675812434018218295494,
  675812433880812904644,
  675812433880846442694,
  675812433880846442694,
  675812433880879997124,
  675812434155657240774,
  675812433880812896454,
  675812433880812896454,
  675812433880812904644,
  675812434018218295494,
  675812433880846459074,
  675812434018285387974,
  675812433880880005314,
  675812434155690787014,
  823350366877618807104,
  823350366875472371904,
  823350366740213408064,
  823350366738066972864,
  823350366877585260864,
  823350366875438825664,
  823350366740146315584,
  823350366600628027584,
  823350366602740916544,
  823350366600594481344,
  823350366602774462784,
  823350366737999880384,
  823350366877618798914,
  823350366875472363714,
  823350366740213399874,
  823350366738066964674,
  823350366877585244484,
  823350366875405271234,
  823350366740146291014,
  823350366463189074114,
  823350366602740891974,
  823350366463155527874,
  823350366602774446404,
  823350366737966325954,
  823350366877551698244,
  823350366875405263044,
  823350366740112744774,
  823350366463189065924,
  823350366877551706434,
  823350366875438809284,
  823350366740112761154,
  823350366600628011204,
  823350366602673807684,
  823350366600527372484,
  823350366602673799494,
  823350366463121973444,
  823350366465301946694,
  823350366463155511494,
  823350366465335501124,
  823350366737966309574,
  823350366465268400454,
  823350366463121965254,
  823350366465268408644,
  823350366600527364294,
  823350366465301963074,
  823350366600594456774,
  823350366465335509314,
  823350366737999855814,
  823350358081525785024,
  823350340493635756224,
  823350357944120385984,
  823350340356230357184,
  823350358081492238784,
  823350340493602209984,
  823350357944053293504,
  823350340218791411904,
  823350357806647894464,
  823350340218757865664,
  823350357806681440704,
  823350340356163264704,
  823350358081525776834,
  823350340493635748034,
  823350357944120377794,
  823350340356230348994,
  823350358081492222404,
  823350340493568655554,
  823350357944053268934,
  823350340081352458434,
  823350357806647869894,
  823350340081318912194,
  823350357806681424324,
  823350340356129710274,
  823350358081458676164,
  823350340493568647364,
  823350357944019722694,
  823350340081352450244,
  823350358081458684354,
  823350340493602193604,
  823350357944019739074,
  823350340218791395524,
  823350357806580785604,
  823350340218690756804,
  823350357806580777414,
  823350340081285357764,
  823350357669208924614,
  823350340081318895814,
  823350357669242479044,
  823350340356129693894,
  823350357669175378374,
  823350340081285349574,
  823350357669175386564,
  823350340218690748614,
  823350357669208940994,
  823350340218757841094,
  823350357669242487234,
  823350340356163240134,
  675812425494922797504,
  675812416698831347904,
  675812425357517398464,
  675812416561425948864,
  675812425494889251264,
  675812416698797801664,
  675812425357450305984,
  675812416423987003584,
  675812425220044906944,
  675812416423953457344,
  675812425220078453184,
  675812416561358856384,
  675812425494922789314,
  675812416698831339714,
  675812425357517390274,
  675812416561425940674,
  675812425494889234884,
  675812416698764247234,
  675812425357450281414,
  675812416286548050114,
  675812425220044882374,
  675812416286514503874,
  675812425220078436804,
  675812416561325301954,
  675812425494855688644,
  675812416698764239044,
  675812425357416735174,
  675812416286548041924,
  675812425494855696834,
  675812416698797785284,
  675812425357416751554,
  675812416423986987204,
  675812425219977798084,
  675812416423886348484,
  675812425219977789894,
  675812416286480949444,
  675812425082605937094,
  675812416286514487494,
  675812425082639491524,
  675812416561325285574,
  675812425082572390854,
  675812416286480941254,
  675812425082572399044,
  675812416423886340294,
  675812425082605953474,
  675812416423953432774,
  675812425082639499714,
  675812416561358831814,
  675812425497070281024,
  675812434286722425024,
  675812425359664881984,
  675812434149317025984,
  675812425497036734784,
  675812434286688878784,
  675812425359597789504,
  675812434011878080704,
  675812425222192390464,
  675812434011844534464,
  675812425222225936704,
  675812434149249933504,
  675812425497070272834,
  675812434286722416834,
  675812425359664873794,
  675812434149317017794,
  675812425497036718404,
  675812434286655324354,
  675812425359597764934,
  675812433874439127234,
  675812425222192365894,
  675812433874405580994,
  675812425222225920324,
  675812434149216379074,
  675812425497003172164,
  675812434286655316164,
  675812425359564218694,
  675812433874439119044,
  675812425497003180354,
  675812434286688862404,
  675812425359564235074,
  675812434011878064324,
  675812425222125281604,
  675812434011777425604,
  675812425222125273414,
  675812433874372026564,
  675812425084753420614,
  675812433874405564614,
  675812425084786975044,
  675812434149216362694,
  675812425084719874374,
  675812433874372018374,
  675812425084719882564,
  675812434011777417414,
  675812425084753436994,
  675812434011844509894,
  675812425084786983234,
  675812434149249908934,
  823350366875471847744,
  823350366875471847744,
  823350366738066448704,
  823350366738066448704,
  823350366875438301504,
  823350366875438301504,
  823350366737999356224,
  823350366600627503424,
  823350366600593957184,
  823350366600593957184,
  823350366600627503424,
  823350366737999356224,
  823350366875471839554,
  823350366875471839554,
  823350366738066440514,
  823350366738066440514,
  823350366875438285124,
  823350366875404747074,
  823350366737999331654,
  823350366463188549954,
  823350366600593932614,
  823350366463155003714,
  823350366600627487044,
  823350366737965801794,
  823350366875404738884,
  823350366875404738884,
  823350366737965785414,
  823350366463188541764,
  823350366875404747074,
  823350366875438285124,
  823350366737965801794,
  823350366600627487044,
  823350366600526848324,
  823350366600526848324,
  823350366600526840134,
  823350366463121449284,
  823350366463154987334,
  823350366463154987334,
  823350366463188541764,
  823350366737965785414,
  823350366463121441094,
  823350366463121441094,
  823350366463121449284,
  823350366600526840134,
  823350366463155003714,
  823350366600593932614,
  823350366463188549954,
  823350366737999331654,
  823350358079378825664,
  823350340493635232064,
  823350357941973426624,
  823350340356229833024,
  823350358079345279424,
  823350340493601685824,
  823350357941906334144,
  823350340218790887744,
  823350357804500935104,
  823350340218757341504,
  823350357804534481344,
  823350340356162740544,
  823350358079378817474,
  823350340493635223874,
  823350357941973418434,
  823350340356229824834]
def T4_cub_cert_16 : List Nat := [823350358079345263044,
  823350340493568131394,
  823350357941906309574,
  823350340081351934274,
  823350357804500910534,
  823350340081318388034,
  823350357804534464964,
  823350340356129186114,
  823350358079311716804,
  823350340493568123204,
  823350357941872763334,
  823350340081351926084,
  823350358079311724994,
  823350340493601669444,
  823350357941872779714,
  823350340218790871364,
  823350357804433826244,
  823350340218690232644,
  823350357804433818054,
  823350340081284833604,
  823350357667061965254,
  823350340081318371654,
  823350357667095519684,
  823350340356129169734,
  823350357667028419014,
  823350340081284825414,
  823350357667028427204,
  823350340218690224454,
  823350357667061981634,
  823350340218757316934,
  823350357667095527874,
  823350340356162715974,
  823350366875472371904,
  823350366877618807104,
  823350366738066972864,
  823350366740213408064,
  823350366875438825664,
  823350366877585260864,
  823350366737999880384,
  823350366602774462784,
  823350366600594481344,
  823350366602740916544,
  823350366600628027584,
  823350366740146315584,
  823350366875472363714,
  823350366877618798914,
  823350366738066964674,
  823350366740213399874,
  823350366875438809284,
  823350366877551706434,
  823350366737999855814,
  823350366465335509314,
  823350366600594456774,
  823350366465301963074,
  823350366600628011204,
  823350366740112761154,
  823350366875405263044,
  823350366877551698244,
  823350366737966309574,
  823350366465335501124,
  823350366875405271234,
  823350366877585244484,
  823350366737966325954,
  823350366602774446404,
  823350366600527372484,
  823350366602673807684,
  823350366600527364294,
  823350366465268408644,
  823350366463155511494,
  823350366465301946694,
  823350366463189065924,
  823350366740112744774,
  823350366463121965254,
  823350366465268400454,
  823350366463121973444,
  823350366602673799494,
  823350366463155527874,
  823350366602740891974,
  823350366463189074114,
  823350366740146291014,
  823350358079379873984,
  823350349289727729984,
  823350357941974474944,
  823350349152322330944,
  823350358079346327744,
  823350349289694183744,
  823350357941907382464,
  823350349014883385664,
  823350357804501983424,
  823350349014849839424,
  823350357804535529664,
  823350349152255238464,
  823350358079379865794,
  823350349289727721794,
  823350357941974466754,
  823350349152322322754,
  823350358079346311364,
  823350349289660629314,
  823350357941907357894,
  823350348877444432194,
  823350357804501958854,
  823350348877410885954,
  823350357804535513284,
  823350349152221684034,
  823350358079312765124,
  823350349289660621124,
  823350357941873811654,
  823350348877444424004,
  823350358079312773314,
  823350349289694167364,
  823350357941873828034,
  823350349014883369284,
  823350357804434874564,
  823350349014782730564,
  823350357804434866374,
  823350348877377331524,
  823350357667063013574,
  823350348877410869574,
  823350357667096568004,
  823350349152221667654,
  823350357667029467334,
  823350348877377323334,
  823350357667029475524,
  823350349014782722374,
  823350357667063029954,
  823350349014849814854,
  823350357667096576194,
  823350349152255213894,
  823350349283286851904,
  823350349283286851904,
  823350349145881452864,
  823350349145881452864,
  823350349283253305664,
  823350349283253305664,
  823350349145814360384,
  823350349008442507584,
  823350349008408961344,
  823350349008408961344,
  823350349008442507584,
  823350349145814360384,
  823350349283286843714,
  823350349283286843714,
  823350349145881444674,
  823350349145881444674,
  823350349283253289284,
  823350349283219751234,
  823350349145814335814,
  823350348871003554114,
  823350349008408936774,
  823350348870970007874,
  823350349008442491204,
  823350349145780805954,
  823350349283219743044,
  823350349283219743044,
  823350349145780789574,
  823350348871003545924,
  823350349283219751234,
  823350349283253289284,
  823350349145780805954,
  823350349008442491204,
  823350349008341852484,
  823350349008341852484,
  823350349008341844294,
  823350348870936453444,
  823350348870969991494,
  823350348870969991494,
  823350348871003545924,
  823350349145780789574,
  823350348870936445254,
  823350348870936445254,
  823350348870936453444,
  823350349008341844294,
  823350348870970007874,
  823350349008408936774,
  823350348871003554114,
  823350349145814335814,
  823350349283286327744,
  823350340489341313344,
  823350349145880928704,
  823350340351935914304,
  823350349283252781504,
  823350340489307767104,
  823350349145813836224,
  823350340214496969024,
  823350349008408437184,
  823350340214463422784,
  823350349008441983424,
  823350340351868821824,
  823350349283286319554,
  823350340489341305154,
  823350349145880920514,
  823350340351935906114,
  823350349283252765124,
  823350340489274212674,
  823350349145813811654,
  823350340077058015554,
  823350349008408412614,
  823350340077024469314,
  823350349008441967044,
  823350340351835267394,
  823350349283219218884,
  823350340489274204484,
  823350349145780265414,
  823350340077058007364,
  823350349283219227074,
  823350340489307750724,
  823350349145780281794,
  823350340214496952644,
  823350349008341328324,
  823350340214396313924,
  823350349008341320134,
  823350340076990914884,
  823350348870969467334,
  823350340077024452934,
  823350348871003021764,
  823350340351835251014,
  823350348870935921094,
  823350340076990906694,
  823350348870935929284,
  823350340214396305734,
  823350348870969483714,
  823350340214463398214,
  823350348871003029954,
  823350340351868797254,
  675812416698830299584,
  675812416698830299584,
  675812416561424900544,
  675812416561424900544,
  675812416698796753344,
  675812416698796753344,
  675812416561357808064,
  675812416423985955264,
  675812416423952409024,
  675812416423952409024,
  675812416423985955264,
  675812416561357808064,
  675812416698830291394,
  675812416698830291394,
  675812416561424892354,
  675812416561424892354,
  675812416698796736964,
  675812416698763198914,
  675812416561357783494,
  675812416286547001794,
  675812416423952384454,
  675812416286513455554,
  675812416423985938884,
  675812416561324253634,
  675812416698763190724,
  675812416698763190724,
  675812416561324237254,
  675812416286546993604,
  675812416698763198914,
  675812416698796736964,
  675812416561324253634,
  675812416423985938884,
  675812416423885300164,
  675812416423885300164,
  675812416423885291974,
  675812416286479901124,
  675812416286513439174,
  675812416286513439174,
  675812416286546993604,
  675812416561324237254,
  675812416286479892934,
  675812416286479892934,
  675812416286479901124,
  675812416423885291974,
  675812416286513455554,
  675812416423952384454,
  675812416286547001794,
  675812416561357783494,
  675812416700977783104,
  675812434286721376704,
  675812416563572384064,
  675812434149315977664,
  675812416700944236864,
  675812434286687830464,
  675812416563505291584,
  675812434011877032384,
  675812416426099892544,
  675812434011843486144,
  675812416426133438784,
  675812434149248885184,
  675812416700977774914,
  675812434286721368514,
  675812416563572375874,
  675812434149315969474,
  675812416700944220484,
  675812434286654276034,
  675812416563505267014,
  675812433874438078914,
  675812416426099867974,
  675812433874404532674,
  675812416426133422404,
  675812434149215330754,
  675812416700910674244,
  675812434286654267844,
  675812416563471720774,
  675812433874438070724,
  675812416700910682434,
  675812434286687814084,
  675812416563471737154,
  675812434011877016004,
  675812416426032783684,
  675812434011776377284,
  675812416426032775494,
  675812433874370978244,
  675812416288660922694,
  675812433874404516294,
  675812416288694477124,
  675812434149215314374,
  675812416288627376454,
  675812433874370970054,
  675812416288627384644,
  675812434011776369094,
  675812416288660939074,
  675812434011843461574,
  675812416288694485314,
  675812434149248860614,
  675812416696683340224,
  675812416696683340224,
  675812416559277941184,
  675812416559277941184,
  675812416696649793984,
  675812416696649793984,
  675812416559210848704,
  675812416421838995904,
  675812416421805449664,
  675812416421805449664,
  675812416421838995904,
  675812416559210848704,
  675812416696683332034,
  675812416696683332034,
  675812416559277932994,
  675812416559277932994,
  675812416696649777604,
  675812416696616239554,
  675812416559210824134,
  675812416284400042434,
  675812416421805425094,
  675812416284366496194,
  675812416421838979524,
  675812416559177294274,
  675812416696616231364,
  675812416696616231364,
  675812416559177277894,
  675812416284400034244,
  675812416696616239554,
  675812416696649777604,
  675812416559177294274,
  675812416421838979524,
  675812416421738340804,
  675812416421738340804,
  675812416421738332614,
  675812416284332941764,
  675812416284366479814,
  675812416284366479814,
  675812416284400034244,
  675812416559177277894,
  675812416284332933574,
  675812416284332933574,
  675812416284332941764,
  675812416421738332614,
  675812416284366496194,
  675812416421805425094,
  675812416284400042434,
  675812416559210824134,
  675812416696683864384,
  675812425490628878784,
  675812416559278465344,
  675812425353223479744,
  675812416696650318144,
  675812425490595332544,
  675812416559211372864,
  675812425215784534464,
  675812416421805973824,
  675812425215750988224,
  675812416421839520064,
  675812425353156387264,
  675812416696683856194,
  675812425490628870594,
  675812416559278457154,
  675812425353223471554,
  675812416696650301764,
  675812425490561778114,
  675812416559211348294,
  675812425078345580994,
  675812416421805949254,
  675812425078312034754,
  675812416421839503684,
  675812425353122832834,
  675812416696616755524,
  675812425490561769924,
  675812416559177802054,
  675812425078345572804,
  675812416696616763714,
  675812425490595316164,
  675812416559177818434,
  675812425215784518084]
def T4_cub_cert_17 : List Nat := [675812416421738864964,
  675812425215683879364,
  675812416421738856774,
  675812425078278480324,
  675812416284367003974,
  675812425078312018374,
  675812416284400558404,
  675812425353122816454,
  675812416284333457734,
  675812425078278472134,
  675812416284333465924,
  675812425215683871174,
  675812416284367020354,
  675812425215750963654,
  675812416284400566594,
  675812425353156362694,
  675812416698831347904,
  675812425494922797504,
  675812416561425948864,
  675812425357517398464,
  675812416698797801664,
  675812425494889251264,
  675812416561358856384,
  675812425220078453184,
  675812416423953457344,
  675812425220044906944,
  675812416423987003584,
  675812425357450305984,
  675812416698831339714,
  675812425494922789314,
  675812416561425940674,
  675812425357517390274,
  675812416698797785284,
  675812425494855696834,
  675812416561358831814,
  675812425082639499714,
  675812416423953432774,
  675812425082605953474,
  675812416423986987204,
  675812425357416751554,
  675812416698764239044,
  675812425494855688644,
  675812416561325285574,
  675812425082639491524,
  675812416698764247234,
  675812425494889234884,
  675812416561325301954,
  675812425220078436804,
  675812416423886348484,
  675812425219977798084,
  675812416423886340294,
  675812425082572399044,
  675812416286514487494,
  675812425082605937094,
  675812416286548041924,
  675812425357416735174,
  675812416286480941254,
  675812425082572390854,
  675812416286480949444,
  675812425219977789894,
  675812416286514503874,
  675812425220044882374,
  675812416286548050114,
  675812425357450281414,
  675812416700978307264,
  675812434288868336064,
  675812416563572908224,
  675812434151462937024,
  675812416700944761024,
  675812434288834789824,
  675812416563505815744,
  675812434014023991744,
  675812416426100416704,
  675812434013990445504,
  675812416426133962944,
  675812434151395844544,
  675812416700978299074,
  675812434288868327874,
  675812416563572900034,
  675812434151462928834,
  675812416700944744644,
  675812434288801235394,
  675812416563505791174,
  675812433876585038274,
  675812416426100392134,
  675812433876551492034,
  675812416426133946564,
  675812434151362290114,
  675812416700911198404,
  675812434288801227204,
  675812416563472244934,
  675812433876585030084,
  675812416700911206594,
  675812434288834773444,
  675812416563472261314,
  675812434014023975364,
  675812416426033307844,
  675812434013923336644,
  675812416426033299654,
  675812433876517937604,
  675812416288661446854,
  675812433876551475654,
  675812416288695001284,
  675812434151362273734,
  675812416288627900614,
  675812433876517929414,
  675812416288627908804,
  675812434013923328454,
  675812416288661463234,
  675812434013990420934,
  675812416288695009474,
  675812434151395819974]

/-- Check T4_cub.  -/
theorem T4_cub : isZero kinds [aᵥ, bᵥ, cᵥ, dᵥ, iₒ, jₒ, kₒ, lₒ] 32
    (Prog.outs [4, 5, 6, 7, 0, 1, 2, 3] (Prog.part [[23, 39, 39, 39]] (wnT2cubed_toT4)) ++ (Prog.scale (-1) (Prog.through tamps_antisym_T4 (unsym_residQf2))))
    (T4_cub_cert_0 ++ (T4_cub_cert_1 ++ (T4_cub_cert_2 ++ (T4_cub_cert_3 ++ (T4_cub_cert_4 ++ (T4_cub_cert_5 ++ (T4_cub_cert_6 ++ (T4_cub_cert_7 ++ (T4_cub_cert_8 ++ (T4_cub_cert_9 ++ (T4_cub_cert_10 ++ (T4_cub_cert_11 ++ (T4_cub_cert_12 ++ (T4_cub_cert_13 ++ (T4_cub_cert_14 ++ (T4_cub_cert_15 ++ (T4_cub_cert_16 ++ (T4_cub_cert_17)))))))))))))))))) = true := by decide +kernel

def T4_pdagq_cert_0 : List Nat := [11531498049961205824,
  11531498049961205824,
  11531498049961197634,
  11531498049961197634,
  11531498047814246464,
  11531498047814246464,
  11531498047814238274,
  11531498047814238274,
  11531498049961205824,
  11531498049961205824,
  11531498049961197634,
  11531498049961197634,
  11531498049961205824,
  11531498049961205824,
  11531498049894096964,
  11531498049894096964,
  11531498047814246464,
  11531498047814246464,
  11531498047747137604,
  11531498047747137604,
  11531498049961205824,
  11531498049961205824,
  11531498049894096964,
  11531498049894096964,
  11531498049961205824,
  11531498049961205824,
  11531498049927659584,
  11531498049927659584,
  11531498047814246464,
  11531498047814246464,
  11531498047780700224,
  11531498047780700224,
  11531498049961205824,
  11531498049961205824,
  11531498049927659584,
  11531498049927659584,
  11531498049961205824,
  11531498049961205824,
  11531497637644345414,
  11531497637644345414,
  11531498047814246464,
  11531498047814246464,
  11531497635497386054,
  11531497635497386054,
  11531498049961205824,
  11531498049961205824,
  11531497637644345414,
  11531497637644345414,
  11531498049961205824,
  11531498049961205824,
  11531497775083315264,
  11531497775083315264,
  11531498047814246464,
  11531498047814246464,
  11531497772936355904,
  11531497772936355904,
  11531498049961205824,
  11531498049961205824,
  11531497775083315264,
  11531497775083315264,
  11531498049961205824,
  11531498049961205824,
  11531497912555806784,
  11531497912555806784,
  11531498047814246464,
  11531498047814246464,
  11531497910408847424,
  11531497910408847424,
  11531498049961205824,
  11531498049961205824,
  11531497912555806784,
  11531497912555806784,
  164412590478073920,
  164412590478073920,
  164412590478065730,
  164412590478065730,
  164412588331114560,
  164412588331114560,
  164412588331106370,
  164412588331106370,
  164412590478073920,
  164412590478073920,
  164412453072674880,
  164412453072674880,
  164412588331114560,
  164412588331114560,
  164412450925715520,
  164412450925715520,
  164412590478073920,
  164412590478073920,
  164412590478065730,
  164412590478065730,
  164412590477549760,
  164412590477549760,
  164412590477541570,
  164412590477541570,
  164412590478073920,
  164412590478073920,
  164412453072674880,
  164412453072674880,
  164412590477549760,
  164412590477549760,
  164412453072150720,
  164412453072150720,
  164412590478073920,
  164412590478073920,
  164412590478065730,
  164412590478065730,
  164412588331114560,
  164412588331114560,
  164412588331106370,
  164412588331106370,
  164412590478073920,
  164412590478073920,
  164412590478065730,
  164412590478065730,
  164412590477549760,
  164412590477549760,
  164412590477541570,
  164412590477541570,
  164412590478073920,
  164412590478073920,
  164412590410965060,
  164412590410965060,
  164412588331114560,
  164412588331114560,
  164412588264005700,
  164412588264005700,
  164412590478073920,
  164412590478073920,
  164412590478065730,
  164412590478065730,
  164412588331114560,
  164412588331114560,
  164412588331106370,
  164412588331106370,
  164412590478073920,
  164412590478073920,
  164412590410965060,
  164412590410965060,
  164412590477549760,
  164412590477549760,
  164412590410440900,
  164412590410440900,
  164412590478073920,
  164412590478073920,
  164412590478065730,
  164412590478065730,
  164412590477549760,
  164412590477549760,
  164412590477541570,
  164412590477541570,
  164412590478073920,
  164412590478073920,
  164412590444527680,
  164412590444527680,
  164412588331114560,
  164412588331114560,
  164412588297568320,
  164412588297568320,
  164412590478073920,
  164412590478073920,
  164412590444527680,
  164412590444527680,
  164412590477549760,
  164412590477549760,
  164412590444003520,
  164412590444003520,
  164412590478073920,
  164412590478073920,
  164412590478065730,
  164412590478065730,
  164412586183106880,
  164412586183106880,
  164412586183098690,
  164412586183098690,
  164412590478073920,
  164412590478073920,
  164412453072674880,
  164412453072674880,
  164412586183106880,
  164412586183106880,
  164412448777707840,
  164412448777707840,
  164412590478073920,
  164412590478073920,
  164412590478065730,
  164412590478065730,
  164412586183106880,
  164412586183106880,
  164412586183098690,
  164412586183098690,
  164412590478073920,
  164412590478073920,
  164412590410965060,
  164412590410965060,
  164412586183106880,
  164412586183106880,
  164412586115998020,
  164412586115998020,
  164412590478073920,
  164412590478073920,
  164412590478065730,
  164412590478065730,
  164412586183106880,
  164412586183106880,
  164412586183098690,
  164412586183098690,
  164412590478073920,
  164412590478073920,
  164412590444527680,
  164412590444527680,
  164412586183106880,
  164412586183106880,
  164412586149560640,
  164412586149560640,
  164412590478073920,
  164412590478073920,
  164412590478065730,
  164412590478065730,
  164412590477549760,
  164412590477549760,
  164412590477541570,
  164412590477541570,
  164412590478073920,
  164412590478073920,
  164412453072674880,
  164412453072674880,
  164412590477549760,
  164412590477549760,
  164412453072150720,
  164412453072150720,
  164412590478073920,
  164412590478073920,
  164412590478065730,
  164412590478065730,
  164403796532535360,
  164403796532535360,
  164403796532527170,
  164403796532527170,
  164412590478073920,
  164412590478073920,
  164412453072674880,
  164412453072674880,
  164403796532535360,
  164403796532535360,
  164403659127136320,
  164403659127136320,
  164412590478073920,
  164412590478073920,
  164412590478065730,
  164412590478065730,
  164412590477549760,
  164412590477549760,
  164412590477541570,
  164412590477541570,
  164412590478073920,
  164412590478073920,
  164412590478065730,
  164412590478065730,
  164403796532535360,
  164403796532535360,
  164403796532527170,
  164403796532527170,
  164412590478073920,
  164412590478073920,
  164412590410965060,
  164412590410965060,
  164412590477549760,
  164412590477549760,
  164412590410440900,
  164412590410440900,
  164412590478073920,
  164412590478073920,
  164412590478065730,
  164412590478065730,
  164412590477549760,
  164412590477549760,
  164412590477541570,
  164412590477541570,
  164412590478073920,
  164412590478073920,
  164412590410965060,
  164412590410965060,
  164403796532535360,
  164403796532535360,
  164403796465426500,
  164403796465426500,
  164412590478073920,
  164412590478073920,
  164412590478065730,
  164412590478065730,
  164403796532535360,
  164403796532535360,
  164403796532527170,
  164403796532527170,
  164412590478073920,
  164412590478073920,
  164412590444527680,
  164412590444527680,
  164412590477549760,
  164412590477549760,
  164412590444003520,
  164412590444003520,
  164412590478073920,
  164412590478073920,
  164412590444527680,
  164412590444527680,
  164403796532535360,
  164403796532535360,
  164403796498989120,
  164403796498989120,
  164412590478073920,
  164412590478073920,
  164412590478065730,
  164412590478065730,
  164412590477549760,
  164412590477549760,
  164412590477541570,
  164412590477541570,
  164412590478073920,
  164412590478073920,
  164412453072674880,
  164412453072674880,
  164412590477549760,
  164412590477549760,
  164412453072150720,
  164412453072150720,
  164412590478073920,
  164412590478073920,
  164412590478065730,
  164412590478065730,
  164412590477549760,
  164412590477549760,
  164412590477541570,
  164412590477541570,
  164412590478073920,
  164412590478073920,
  164412590410965060,
  164412590410965060,
  164412590477549760,
  164412590477549760,
  164412590410440900,
  164412590410440900,
  164412590478073920,
  164412590478073920,
  164412590478065730,
  164412590478065730,
  164412590477549760,
  164412590477549760,
  164412590477541570,
  164412590477541570,
  164412590478073920,
  164412590478073920,
  164412590444527680,
  164412590444527680,
  164412590477549760,
  164412590477549760,
  164412590444003520,
  164412590444003520,
  811818900033884659776,
  811818900033884659776,
  811818900033851113536,
  811818900033851113536,
  811818900031737700416,
  811818900031737700416,
  811818900031704154176,
  811818900031704154176,
  811818900033884659776,
  811818900033884659776,
  811818899896479260736,
  811818899896479260736,
  811818900031737700416,
  811818900031737700416,
  811818899894332301376,
  811818899894332301376,
  811818900033884659776,
  811818900033884659776,
  811818900033817550916,
  811818900033817550916,
  811818900031737700416,
  811818900031737700416,
  811818900031670591556,
  811818900031670591556,
  811818900033884659776,
  811818900033884659776,
  811818900033851113536,
  811818900033851113536,
  811818900033884135616,
  811818900033884135616,
  811818900033850589376,
  811818900033850589376,
  811818900033884659776,
  811818900033884659776,
  811818899896479260736,
  811818899896479260736,
  811818900033884135616,
  811818900033884135616,
  811818899896478736576,
  811818899896478736576]
def T4_pdagq_cert_1 : List Nat := [811818900033884659776,
  811818900033884659776,
  811818900033817550916,
  811818900033817550916,
  811818900033884135616,
  811818900033884135616,
  811818900033817026756,
  811818900033817026756,
  811818900033884659776,
  811818900033884659776,
  811818900033851113536,
  811818900033851113536,
  811818882441699663936,
  811818882441699663936,
  811818882441666117696,
  811818882441666117696,
  811818900033884659776,
  811818900033884659776,
  811818899896479260736,
  811818899896479260736,
  811818882441699663936,
  811818882441699663936,
  811818882304294264896,
  811818882304294264896,
  811818900033884659776,
  811818900033884659776,
  811818900033817550916,
  811818900033817550916,
  811818882441699663936,
  811818882441699663936,
  811818882441632555076,
  811818882441632555076,
  11531498049961205824,
  11531498049961205824,
  11531497912555806784,
  11531497912555806784,
  11531498049927659584,
  11531498049927659584,
  11531497912488714304,
  11531497775116861504,
  11531497775083315264,
  11531497775083315264,
  11531497775116861504,
  11531497912488714304,
  11531498049961197634,
  11531498049961197634,
  11531497912555798594,
  11531497912555798594,
  11531498049927643204,
  11531498049894105154,
  11531497912488689734,
  11531497637677908034,
  11531497775083290694,
  11531497637644361794,
  11531497775116845124,
  11531497912455159874,
  11531498049894096964,
  11531498049894096964,
  11531497912455143494,
  11531497637677899844,
  11531498049894105154,
  11531498049927643204,
  11531497912455159874,
  11531497775116845124,
  11531497775016206404,
  11531497775016206404,
  11531497775016198214,
  11531497637610807364,
  11531497637644345414,
  11531497637644345414,
  11531497637677899844,
  11531497912455143494,
  11531497637610799174,
  11531497637610799174,
  11531497637610807364,
  11531497775016198214,
  11531497637644361794,
  11531497775083290694,
  11531497637677908034,
  11531497912488689734,
  11531489256015667264,
  11531489256015667264,
  11531489118610268224,
  11531489118610268224,
  11531489255982121024,
  11531489255982121024,
  11531489118543175744,
  11531488981171322944,
  11531488981137776704,
  11531488981137776704,
  11531488981171322944,
  11531489118543175744,
  11531489256015659074,
  11531489256015659074,
  11531489118610260034,
  11531489118610260034,
  11531489255982104644,
  11531489255948566594,
  11531489118543151174,
  11531488843732369474,
  11531488981137752134,
  11531488843698823234,
  11531488981171306564,
  11531489118509621314,
  11531489255948558404,
  11531489255948558404,
  11531489118509604934,
  11531488843732361284,
  11531489255948566594,
  11531489255982104644,
  11531489118509621314,
  11531488981171306564,
  11531488981070667844,
  11531488981070667844,
  11531488981070659654,
  11531488843665268804,
  11531488843698806854,
  11531488843698806854,
  11531488843732361284,
  11531489118509604934,
  11531488843665260614,
  11531488843665260614,
  11531488843665268804,
  11531488981070659654,
  11531488843698823234,
  11531488981137752134,
  11531488843732369474,
  11531489118543151174,
  11531498047814246464,
  11531498047814246464,
  11531497910408847424,
  11531497910408847424,
  11531498047780700224,
  11531498047780700224,
  11531497910341754944,
  11531497772969902144,
  11531497772936355904,
  11531497772936355904,
  11531497772969902144,
  11531497910341754944,
  11531498047814238274,
  11531498047814238274,
  11531497910408839234,
  11531497910408839234,
  11531498047780683844,
  11531498047747145794,
  11531497910341730374,
  11531497635530948674,
  11531497772936331334,
  11531497635497402434,
  11531497772969885764,
  11531497910308200514,
  11531498047747137604,
  11531498047747137604,
  11531497910308184134,
  11531497635530940484,
  11531498047747145794,
  11531498047780683844,
  11531497910308200514,
  11531497772969885764,
  11531497772869247044,
  11531497772869247044,
  11531497772869238854,
  11531497635463848004,
  11531497635497386054,
  11531497635497386054,
  11531497635530940484,
  11531497910308184134,
  11531497635463839814,
  11531497635463839814,
  11531497635463848004,
  11531497772869238854,
  11531497635497402434,
  11531497772936331334,
  11531497635530948674,
  11531497910341730374,
  11531489251721748544,
  11531480459923169344,
  11531489114316349504,
  11531480322517770304,
  11531489251688202304,
  11531480459889623104,
  11531489114249257024,
  11531480185078825024,
  11531488976843857984,
  11531480185045278784,
  11531488976877404224,
  11531480322450677824,
  11531489251721740354,
  11531480459923161154,
  11531489114316341314,
  11531480322517762114,
  11531489251688185924,
  11531480459856068674,
  11531489114249232454,
  11531480047639871554,
  11531488976843833414,
  11531480047606325314,
  11531488976877387844,
  11531480322417123394,
  11531489251654639684,
  11531480459856060484,
  11531489114215686214,
  11531480047639863364,
  11531489251654647874,
  11531480459889606724,
  11531489114215702594,
  11531480185078808644,
  11531488976776749124,
  11531480184978169924,
  11531488976776740934,
  11531480047572770884,
  11531488839404888134,
  11531480047606308934,
  11531488839438442564,
  11531480322417107014,
  11531488839371341894,
  11531480047572762694,
  11531488839371350084,
  11531480184978161734,
  11531488839404904514,
  11531480185045254214,
  11531488839438450754,
  11531480322450653254,
  11531480457776209984,
  11531480457776209984,
  11531480320370810944,
  11531480320370810944,
  11531480457742663744,
  11531480457742663744,
  11531480320303718464,
  11531480182931865664,
  11531480182898319424,
  11531480182898319424,
  11531480182931865664,
  11531480320303718464,
  11531480457776201794,
  11531480457776201794,
  11531480320370802754,
  11531480320370802754,
  11531480457742647364,
  11531480457709109314,
  11531480320303693894,
  11531480045492912194,
  11531480182898294854,
  11531480045459365954,
  11531480182931849284,
  11531480320270164034,
  11531480457709101124,
  11531480457709101124,
  11531480320270147654,
  11531480045492904004,
  11531480457709109314,
  11531480457742647364,
  11531480320270164034,
  11531480182931849284,
  11531480182831210564,
  11531480182831210564,
  11531480182831202374,
  11531480045425811524,
  11531480045459349574,
  11531480045459349574,
  11531480045492904004,
  11531480320270147654,
  11531480045425803334,
  11531480045425803334,
  11531480045425811524,
  11531480182831202374,
  11531480045459365954,
  11531480182898294854,
  11531480045492912194,
  11531480320303693894,
  11531480459923169344,
  11531489251721748544,
  11531480322517770304,
  11531489114316349504,
  11531480459889623104,
  11531489251688202304,
  11531480322450677824,
  11531488976877404224,
  11531480185045278784,
  11531488976843857984,
  11531480185078825024,
  11531489114249257024,
  11531480459923161154,
  11531489251721740354,
  11531480322517762114,
  11531489114316341314,
  11531480459889606724,
  11531489251654647874,
  11531480322450653254,
  11531488839438450754,
  11531480185045254214,
  11531488839404904514,
  11531480185078808644,
  11531489114215702594,
  11531480459856060484,
  11531489251654639684,
  11531480322417107014,
  11531488839438442564,
  11531480459856068674,
  11531489251688185924,
  11531480322417123394,
  11531488976877387844,
  11531480184978169924,
  11531488976776749124,
  11531480184978161734,
  11531488839371350084,
  11531480047606308934,
  11531488839404888134,
  11531480047639863364,
  11531489114215686214,
  11531480047572762694,
  11531488839371341894,
  11531480047572770884,
  11531488976776740934,
  11531480047606325314,
  11531488976843833414,
  11531480047639871554,
  11531489114249232454,
  11531498049960681664,
  11531498049960681664,
  11531497912555282624,
  11531497912555282624,
  11531498049927135424,
  11531498049927135424,
  11531497912488190144,
  11531497775116337344,
  11531497775082791104,
  11531497775082791104,
  11531497775116337344,
  11531497912488190144,
  11531498049960673474,
  11531498049960673474,
  11531497912555274434,
  11531497912555274434,
  11531498049927119044,
  11531498049893580994,
  11531497912488165574,
  11531497637677383874,
  11531497775082766534,
  11531497637643837634,
  11531497775116320964,
  11531497912454635714,
  11531498049893572804,
  11531498049893572804,
  11531497912454619334,
  11531497637677375684,
  11531498049893580994,
  11531498049927119044,
  11531497912454635714,
  11531497775116320964,
  11531497775015682244,
  11531497775015682244,
  11531497775015674054,
  11531497637610283204,
  11531497637643821254,
  11531497637643821254,
  11531497637677375684,
  11531497912454619334,
  11531497637610275014,
  11531497637610275014,
  11531497637610283204,
  11531497775015674054,
  11531497637643837634,
  11531497775082766534,
  11531497637677383874,
  11531497912488165574,
  11531489256015143104,
  11531489256015143104,
  11531489118609744064,
  11531489118609744064,
  11531489255981596864,
  11531489255981596864,
  11531489118542651584,
  11531488981170798784,
  11531488981137252544,
  11531488981137252544,
  11531488981170798784,
  11531489118542651584,
  11531489256015134914,
  11531489256015134914,
  11531489118609735874,
  11531489118609735874,
  11531489255981580484,
  11531489255948042434,
  11531489118542627014,
  11531488843731845314,
  11531488981137227974,
  11531488843698299074,
  11531488981170782404,
  11531489118509097154,
  11531489255948034244,
  11531489255948034244,
  11531489118509080774,
  11531488843731837124,
  11531489255948042434,
  11531489255981580484,
  11531489118509097154,
  11531488981170782404]
def T4_pdagq_cert_2 : List Nat := [11531488981070143684,
  11531488981070143684,
  11531488981070135494,
  11531488843664744644,
  11531488843698282694,
  11531488843698282694,
  11531488843731837124,
  11531489118509080774,
  11531488843664736454,
  11531488843664736454,
  11531488843664744644,
  11531488981070135494,
  11531488843698299074,
  11531488981137227974,
  11531488843731845314,
  11531489118542627014,
  11531498047813198144,
  11531498045666762944,
  11531497910407799104,
  11531497908261363904,
  11531498047779651904,
  11531498045633216704,
  11531497910340706624,
  11531497770822418624,
  11531497772935307584,
  11531497770788872384,
  11531497772968853824,
  11531497908194271424,
  11531498047813189954,
  11531498045666754754,
  11531497910407790914,
  11531497908261355714,
  11531498047779635524,
  11531498045599662274,
  11531497910340682054,
  11531497633383465154,
  11531497772935283014,
  11531497633349918914,
  11531497772968837444,
  11531497908160716994,
  11531498047746089284,
  11531498045599654084,
  11531497910307135814,
  11531497633383456964,
  11531498047746097474,
  11531498045633200324,
  11531497910307152194,
  11531497770822402244,
  11531497772868198724,
  11531497770721763524,
  11531497772868190534,
  11531497633316364484,
  11531497635496337734,
  11531497633349902534,
  11531497635529892164,
  11531497908160700614,
  11531497635462791494,
  11531497633316356294,
  11531497635462799684,
  11531497770721755334,
  11531497635496354114,
  11531497770788847814,
  11531497635529900354,
  11531497908194246854,
  11531489251720176064,
  11531471663830147264,
  11531489114314777024,
  11531471526424748224,
  11531489251686629824,
  11531471663796601024,
  11531489114247684544,
  11531471388985802944,
  11531488976842285504,
  11531471388952256704,
  11531488976875831744,
  11531471526357655744,
  11531489251720167874,
  11531471663830139074,
  11531489114314768834,
  11531471526424740034,
  11531489251686613444,
  11531471663763046594,
  11531489114247659974,
  11531471251546849474,
  11531488976842260934,
  11531471251513303234,
  11531488976875815364,
  11531471526324101314,
  11531489251653067204,
  11531471663763038404,
  11531489114214113734,
  11531471251546841284,
  11531489251653075394,
  11531471663796584644,
  11531489114214130114,
  11531471388985786564,
  11531488976775176644,
  11531471388885147844,
  11531488976775168454,
  11531471251479748804,
  11531488839403315654,
  11531471251513286854,
  11531488839436870084,
  11531471526324084934,
  11531488839369769414,
  11531471251479740614,
  11531488839369777604,
  11531471388885139654,
  11531488839403332034,
  11531471388952232134,
  11531488839436878274,
  11531471526357631174,
  11531480457774637504,
  11531471661683187904,
  11531480320369238464,
  11531471524277788864,
  11531480457741091264,
  11531471661649641664,
  11531480320302145984,
  11531471386838843584,
  11531480182896746944,
  11531471386805297344,
  11531480182930293184,
  11531471524210696384,
  11531480457774629314,
  11531471661683179714,
  11531480320369230274,
  11531471524277780674,
  11531480457741074884,
  11531471661616087234,
  11531480320302121414,
  11531471249399890114,
  11531480182896722374,
  11531471249366343874,
  11531480182930276804,
  11531471524177141954,
  11531480457707528644,
  11531471661616079044,
  11531480320268575174,
  11531471249399881924,
  11531480457707536834,
  11531471661649625284,
  11531480320268591554,
  11531471386838827204,
  11531480182829638084,
  11531471386738188484,
  11531480182829629894,
  11531471249332789444,
  11531480045457777094,
  11531471249366327494,
  11531480045491331524,
  11531471524177125574,
  11531480045424230854,
  11531471249332781254,
  11531480045424239044,
  11531471386738180294,
  11531480045457793474,
  11531471386805272774,
  11531480045491339714,
  11531471524210671814,
  11531480459922121024,
  11531489249574265024,
  11531480322516721984,
  11531489112168865984,
  11531480459888574784,
  11531489249540718784,
  11531480322449629504,
  11531488974729920704,
  11531480185044230464,
  11531488974696374464,
  11531480185077776704,
  11531489112101773504,
  11531480459922112834,
  11531489249574256834,
  11531480322516713794,
  11531489112168857794,
  11531480459888558404,
  11531489249507164354,
  11531480322449604934,
  11531488837290967234,
  11531480185044205894,
  11531488837257420994,
  11531480185077760324,
  11531489112068219074,
  11531480459855012164,
  11531489249507156164,
  11531480322416058694,
  11531488837290959044,
  11531480459855020354,
  11531489249540702404,
  11531480322416075074,
  11531488974729904324,
  11531480184977121604,
  11531488974629265604,
  11531480184977113414,
  11531488837223866564,
  11531480047605260614,
  11531488837257404614,
  11531480047638815044,
  11531489112068202694,
  11531480047571714374,
  11531488837223858374,
  11531480047571722564,
  11531488974629257414,
  11531480047605276994,
  11531488974696349894,
  11531480047638823234,
  11531489112101748934,
  9226217986405966144,
  9226217986405966144,
  9226217849000567104,
  9226217849000567104,
  9226217986372419904,
  9226217986372419904,
  9226217848933474624,
  9226217711561621824,
  9226217711528075584,
  9226217711528075584,
  9226217711561621824,
  9226217848933474624,
  9226217986405957954,
  9226217986405957954,
  9226217849000558914,
  9226217849000558914,
  9226217986372403524,
  9226217986338865474,
  9226217848933450054,
  9226217574122668354,
  9226217711528051014,
  9226217574089122114,
  9226217711561605444,
  9226217848899920194,
  9226217986338857284,
  9226217986338857284,
  9226217848899903814,
  9226217574122660164,
  9226217986338865474,
  9226217986372403524,
  9226217848899920194,
  9226217711561605444,
  9226217711460966724,
  9226217711460966724,
  9226217711460958534,
  9226217574055567684,
  9226217574089105734,
  9226217574089105734,
  9226217574122660164,
  9226217848899903814,
  9226217574055559494,
  9226217574055559494,
  9226217574055567684,
  9226217711460958534,
  9226217574089122114,
  9226217711528051014,
  9226217574122668354,
  9226217848933450054,
  9226209190312944064,
  9226191604569350464,
  9226209052907545024,
  9226191467163951424,
  9226209190279397824,
  9226191604535804224,
  9226209052840452544,
  9226191329725006144,
  9226208915435053504,
  9226191329691459904,
  9226208915468599744,
  9226191467096858944,
  9226209190312935874,
  9226191604569342274,
  9226209052907536834,
  9226191467163943234,
  9226209190279381444,
  9226191604502249794,
  9226209052840427974,
  9226191192286052674,
  9226208915435028934,
  9226191192252506434,
  9226208915468583364,
  9226191467063304514,
  9226209190245835204,
  9226191604502241604,
  9226209052806881734,
  9226191192286044484,
  9226209190245843394,
  9226191604535787844,
  9226209052806898114,
  9226191329724989764,
  9226208915367944644,
  9226191329624351044,
  9226208915367936454,
  9226191192218952004,
  9226208777996083654,
  9226191192252490054,
  9226208778029638084,
  9226191467063288134,
  9226208777962537414,
  9226191192218943814,
  9226208777962545604,
  9226191329624342854,
  9226208777996100034,
  9226191329691435334,
  9226208778029646274,
  9226191467096834374,
  9226217986406490304,
  9226217988552925504,
  9226217849001091264,
  9226217851147526464,
  9226217986372944064,
  9226217988519379264,
  9226217848933998784,
  9226217713708581184,
  9226217711528599744,
  9226217713675034944,
  9226217711562145984,
  9226217851080433984,
  9226217986406482114,
  9226217988552917314,
  9226217849001083074,
  9226217851147518274,
  9226217986372927684,
  9226217988485824834,
  9226217848933974214,
  9226217576269627714,
  9226217711528575174,
  9226217576236081474,
  9226217711562129604,
  9226217851046879554,
  9226217986339381444,
  9226217988485816644,
  9226217848900427974,
  9226217576269619524,
  9226217986339389634,
  9226217988519362884,
  9226217848900444354,
  9226217713708564804,
  9226217711461490884,
  9226217713607926084,
  9226217711461482694,
  9226217576202527044,
  9226217574089629894,
  9226217576236065094,
  9226217574123184324,
  9226217851046863174,
  9226217574056083654,
  9226217576202518854,
  9226217574056091844,
  9226217713607917894,
  9226217574089646274,
  9226217713675010374,
  9226217574123192514,
  9226217851080409414,
  9226209190313992384,
  9226200400661848384,
  9226209052908593344,
  9226200263256449344,
  9226209190280446144,
  9226200400628302144,
  9226209052841500864,
  9226200125817504064,
  9226208915436101824,
  9226200125783957824,
  9226208915469648064,
  9226200263189356864,
  9226209190313984194,
  9226200400661840194,
  9226209052908585154,
  9226200263256441154,
  9226209190280429764,
  9226200400594747714,
  9226209052841476294,
  9226199988378550594,
  9226208915436077254,
  9226199988345004354,
  9226208915469631684,
  9226200263155802434,
  9226209190246883524,
  9226200400594739524,
  9226209052807930054,
  9226199988378542404,
  9226209190246891714,
  9226200400628285764,
  9226209052807946434,
  9226200125817487684,
  9226208915368992964,
  9226200125716848964,
  9226208915368984774,
  9226199988311449924,
  9226208777997131974,
  9226199988344987974,
  9226208778030686404,
  9226200263155786054,
  9226208777963585734,
  9226199988311441734,
  9226208777963593924,
  9226200125716840774,
  9226208777997148354,
  9226200125783933254,
  9226208778030694594,
  9226200263189332294]
def T4_pdagq_cert_3 : List Nat := [9226200394220970304,
  9226200394220970304,
  9226200256815571264,
  9226200256815571264,
  9226200394187424064,
  9226200394187424064,
  9226200256748478784,
  9226200119376625984,
  9226200119343079744,
  9226200119343079744,
  9226200119376625984,
  9226200256748478784,
  9226200394220962114,
  9226200394220962114,
  9226200256815563074,
  9226200256815563074,
  9226200394187407684,
  9226200394153869634,
  9226200256748454214,
  9226199981937672514,
  9226200119343055174,
  9226199981904126274,
  9226200119376609604,
  9226200256714924354,
  9226200394153861444,
  9226200394153861444,
  9226200256714907974,
  9226199981937664324,
  9226200394153869634,
  9226200394187407684,
  9226200256714924354,
  9226200119376609604,
  9226200119275970884,
  9226200119275970884,
  9226200119275962694,
  9226199981870571844,
  9226199981904109894,
  9226199981904109894,
  9226199981937664324,
  9226200256714907974,
  9226199981870563654,
  9226199981870563654,
  9226199981870571844,
  9226200119275962694,
  9226199981904126274,
  9226200119343055174,
  9226199981937672514,
  9226200256748454214,
  9226200394220446144,
  9226191600275431744,
  9226200256815047104,
  9226191462870032704,
  9226200394186899904,
  9226191600241885504,
  9226200256747954624,
  9226191325431087424,
  9226200119342555584,
  9226191325397541184,
  9226200119376101824,
  9226191462802940224,
  9226200394220437954,
  9226191600275423554,
  9226200256815038914,
  9226191462870024514,
  9226200394186883524,
  9226191600208331074,
  9226200256747930054,
  9226191187992133954,
  9226200119342531014,
  9226191187958587714,
  9226200119376085444,
  9226191462769385794,
  9226200394153337284,
  9226191600208322884,
  9226200256714383814,
  9226191187992125764,
  9226200394153345474,
  9226191600241869124,
  9226200256714400194,
  9226191325431071044,
  9226200119275446724,
  9226191325330432324,
  9226200119275438534,
  9226191187925033284,
  9226199981903585734,
  9226191187958571334,
  9226199981937140164,
  9226191462769369414,
  9226199981870039494,
  9226191187925025094,
  9226199981870047684,
  9226191325330424134,
  9226199981903602114,
  9226191325397516614,
  9226199981937148354,
  9226191462802915654,
  9226191602421866944,
  9226191602421866944,
  9226191465016467904,
  9226191465016467904,
  9226191602388320704,
  9226191602388320704,
  9226191464949375424,
  9226191327577522624,
  9226191327543976384,
  9226191327543976384,
  9226191327577522624,
  9226191464949375424,
  9226191602421858754,
  9226191602421858754,
  9226191465016459714,
  9226191465016459714,
  9226191602388304324,
  9226191602354766274,
  9226191464949350854,
  9226191190138569154,
  9226191327543951814,
  9226191190105022914,
  9226191327577506244,
  9226191464915820994,
  9226191602354758084,
  9226191602354758084,
  9226191464915804614,
  9226191190138560964,
  9226191602354766274,
  9226191602388304324,
  9226191464915820994,
  9226191327577506244,
  9226191327476867524,
  9226191327476867524,
  9226191327476859334,
  9226191190071468484,
  9226191190105006534,
  9226191190105006534,
  9226191190138560964,
  9226191464915804614,
  9226191190071460294,
  9226191190071460294,
  9226191190071468484,
  9226191327476859334,
  9226191190105022914,
  9226191327543951814,
  9226191190138569154,
  9226191464949350854,
  9226191604569350464,
  9226209190312944064,
  9226191467163951424,
  9226209052907545024,
  9226191604535804224,
  9226209190279397824,
  9226191467096858944,
  9226208915468599744,
  9226191329691459904,
  9226208915435053504,
  9226191329725006144,
  9226209052840452544,
  9226191604569342274,
  9226209190312935874,
  9226191467163943234,
  9226209052907536834,
  9226191604535787844,
  9226209190245843394,
  9226191467096834374,
  9226208778029646274,
  9226191329691435334,
  9226208777996100034,
  9226191329724989764,
  9226209052806898114,
  9226191604502241604,
  9226209190245835204,
  9226191467063288134,
  9226208778029638084,
  9226191604502249794,
  9226209190279381444,
  9226191467063304514,
  9226208915468583364,
  9226191329624351044,
  9226208915367944644,
  9226191329624342854,
  9226208777962545604,
  9226191192252490054,
  9226208777996083654,
  9226191192286044484,
  9226209052806881734,
  9226191192218943814,
  9226208777962537414,
  9226191192218952004,
  9226208915367936454,
  9226191192252506434,
  9226208915435028934,
  9226191192286052674,
  9226209052840427974,
  9226191600274907584,
  9226191600274907584,
  9226191462869508544,
  9226191462869508544,
  9226191600241361344,
  9226191600241361344,
  9226191462802416064,
  9226191325430563264,
  9226191325397017024,
  9226191325397017024,
  9226191325430563264,
  9226191462802416064,
  9226191600274899394,
  9226191600274899394,
  9226191462869500354,
  9226191462869500354,
  9226191600241344964,
  9226191600207806914,
  9226191462802391494,
  9226191187991609794,
  9226191325396992454,
  9226191187958063554,
  9226191325430546884,
  9226191462768861634,
  9226191600207798724,
  9226191600207798724,
  9226191462768845254,
  9226191187991601604,
  9226191600207806914,
  9226191600241344964,
  9226191462768861634,
  9226191325430546884,
  9226191325329908164,
  9226191325329908164,
  9226191325329899974,
  9226191187924509124,
  9226191187958047174,
  9226191187958047174,
  9226191187991601604,
  9226191462768845254,
  9226191187924500934,
  9226191187924500934,
  9226191187924509124,
  9226191325329899974,
  9226191187958063554,
  9226191325396992454,
  9226191187991609794,
  9226191462802391494,
  9226191600275431744,
  9226200394220446144,
  9226191462870032704,
  9226200256815047104,
  9226191600241885504,
  9226200394186899904,
  9226191462802940224,
  9226200119376101824,
  9226191325397541184,
  9226200119342555584,
  9226191325431087424,
  9226200256747954624,
  9226191600275423554,
  9226200394220437954,
  9226191462870024514,
  9226200256815038914,
  9226191600241869124,
  9226200394153345474,
  9226191462802915654,
  9226199981937148354,
  9226191325397516614,
  9226199981903602114,
  9226191325431071044,
  9226200256714400194,
  9226191600208322884,
  9226200394153337284,
  9226191462769369414,
  9226199981937140164,
  9226191600208331074,
  9226200394186883524,
  9226191462769385794,
  9226200119376085444,
  9226191325330432324,
  9226200119275446724,
  9226191325330424134,
  9226199981870047684,
  9226191187958571334,
  9226199981903585734,
  9226191187992125764,
  9226200256714383814,
  9226191187925025094,
  9226199981870039494,
  9226191187925033284,
  9226200119275438534,
  9226191187958587714,
  9226200119342531014,
  9226191187992133954,
  9226200256747930054,
  9226191602422915264,
  9226200398514364864,
  9226191465017516224,
  9226200261108965824,
  9226191602389369024,
  9226200398480818624,
  9226191464950423744,
  9226200123670020544,
  9226191327545024704,
  9226200123636474304,
  9226191327578570944,
  9226200261041873344,
  9226191602422907074,
  9226200398514356674,
  9226191465017508034,
  9226200261108957634,
  9226191602389352644,
  9226200398447264194,
  9226191464950399174,
  9226199986231067074,
  9226191327545000134,
  9226199986197520834,
  9226191327578554564,
  9226200261008318914,
  9226191602355806404,
  9226200398447256004,
  9226191464916852934,
  9226199986231058884,
  9226191602355814594,
  9226200398480802244,
  9226191464916869314,
  9226200123670004164,
  9226191327477915844,
  9226200123569365444,
  9226191327477907654,
  9226199986163966404,
  9226191190106054854,
  9226199986197504454,
  9226191190139609284,
  9226200261008302534,
  9226191190072508614,
  9226199986163958214,
  9226191190072516804,
  9226200123569357254,
  9226191190106071234,
  9226200123636449734,
  9226191190139617474,
  9226200261041848774,
  9226191604569874624,
  9226209192459903424,
  9226191467164475584,
  9226209055054504384,
  9226191604536328384,
  9226209192426357184,
  9226191467097383104,
  9226208917615559104,
  9226191329691984064,
  9226208917582012864,
  9226191329725530304,
  9226209054987411904,
  9226191604569866434,
  9226209192459895234,
  9226191467164467394,
  9226209055054496194,
  9226191604536312004,
  9226209192392802754,
  9226191467097358534,
  9226208780176605634,
  9226191329691959494,
  9226208780143059394,
  9226191329725513924,
  9226209054953857474,
  9226191604502765764,
  9226209192392794564,
  9226191467063812294,
  9226208780176597444,
  9226191604502773954,
  9226209192426340804,
  9226191467063828674,
  9226208917615542724,
  9226191329624875204,
  9226208917514904004,
  9226191329624867014,
  9226208780109504964,
  9226191192253014214,
  9226208780143043014,
  9226191192286568644,
  9226209054953841094,
  9226191192219467974,
  9226208780109496774,
  9226191192219476164,
  9226208917514895814,
  9226191192253030594,
  9226208917581988294,
  9226191192286576834,
  9226209054987387334,
  164412590478073920,
  164412590478073920,
  164412453072674880,
  164412453072674880,
  164412590444527680,
  164412590444527680,
  164412453005582400,
  164412315633729600,
  164412315600183360,
  164412315600183360,
  164412315633729600,
  164412453005582400,
  164412590478065730,
  164412590478065730,
  164412453072666690,
  164412453072666690]
def T4_pdagq_cert_4 : List Nat := [164412590444511300,
  164412590410973250,
  164412453005557830,
  164412178194776130,
  164412315600158790,
  164412178161229890,
  164412315633713220,
  164412452972027970,
  164412590410965060,
  164412590410965060,
  164412452972011590,
  164412178194767940,
  164412590410973250,
  164412590444511300,
  164412452972027970,
  164412315633713220,
  164412315533074500,
  164412315533074500,
  164412315533066310,
  164412178127675460,
  164412178161213510,
  164412178161213510,
  164412178194767940,
  164412452972011590,
  164412178127667270,
  164412178127667270,
  164412178127675460,
  164412315533066310,
  164412178161229890,
  164412315600158790,
  164412178194776130,
  164412453005557830,
  164403796532535360,
  164403796532535360,
  164403659127136320,
  164403659127136320,
  164403796498989120,
  164403796498989120,
  164403659060043840,
  164403521688191040,
  164403521654644800,
  164403521654644800,
  164403521688191040,
  164403659060043840,
  164403796532527170,
  164403796532527170,
  164403659127128130,
  164403659127128130,
  164403796498972740,
  164403796465434690,
  164403659060019270,
  164403384249237570,
  164403521654620230,
  164403384215691330,
  164403521688174660,
  164403659026489410,
  164403796465426500,
  164403796465426500,
  164403659026473030,
  164403384249229380,
  164403796465434690,
  164403796498972740,
  164403659026489410,
  164403521688174660,
  164403521587535940,
  164403521587535940,
  164403521587527750,
  164403384182136900,
  164403384215674950,
  164403384215674950,
  164403384249229380,
  164403659026473030,
  164403384182128710,
  164403384182128710,
  164403384182136900,
  164403521587527750,
  164403384215691330,
  164403521654620230,
  164403384249237570,
  164403659060019270,
  164412588331114560,
  164412588331114560,
  164412450925715520,
  164412450925715520,
  164412588297568320,
  164412588297568320,
  164412450858623040,
  164412313486770240,
  164412313453224000,
  164412313453224000,
  164412313486770240,
  164412450858623040,
  164412588331106370,
  164412588331106370,
  164412450925707330,
  164412450925707330,
  164412588297551940,
  164412588264013890,
  164412450858598470,
  164412176047816770,
  164412313453199430,
  164412176014270530,
  164412313486753860,
  164412450825068610,
  164412588264005700,
  164412588264005700,
  164412450825052230,
  164412176047808580,
  164412588264013890,
  164412588297551940,
  164412450825068610,
  164412313486753860,
  164412313386115140,
  164412313386115140,
  164412313386106950,
  164412175980716100,
  164412176014254150,
  164412176014254150,
  164412176047808580,
  164412450825052230,
  164412175980707910,
  164412175980707910,
  164412175980716100,
  164412313386106950,
  164412176014270530,
  164412313453199430,
  164412176047816770,
  164412450858598470,
  164403792238616640,
  164395000440037440,
  164403654833217600,
  164394863034638400,
  164403792205070400,
  164395000406491200,
  164403654766125120,
  164394725595693120,
  164403517360726080,
  164394725562146880,
  164403517394272320,
  164394862967545920,
  164403792238608450,
  164395000440029250,
  164403654833209410,
  164394863034630210,
  164403792205054020,
  164395000372936770,
  164403654766100550,
  164394588156739650,
  164403517360701510,
  164394588123193410,
  164403517394255940,
  164394862933991490,
  164403792171507780,
  164395000372928580,
  164403654732554310,
  164394588156731460,
  164403792171515970,
  164395000406474820,
  164403654732570690,
  164394725595676740,
  164403517293617220,
  164394725495038020,
  164403517293609030,
  164394588089638980,
  164403379921756230,
  164394588123177030,
  164403379955310660,
  164394862933975110,
  164403379888209990,
  164394588089630790,
  164403379888218180,
  164394725495029830,
  164403379921772610,
  164394725562122310,
  164403379955318850,
  164394862967521350,
  164394998293078080,
  164394998293078080,
  164394860887679040,
  164394860887679040,
  164394998259531840,
  164394998259531840,
  164394860820586560,
  164394723448733760,
  164394723415187520,
  164394723415187520,
  164394723448733760,
  164394860820586560,
  164394998293069890,
  164394998293069890,
  164394860887670850,
  164394860887670850,
  164394998259515460,
  164394998225977410,
  164394860820561990,
  164394586009780290,
  164394723415162950,
  164394585976234050,
  164394723448717380,
  164394860787032130,
  164394998225969220,
  164394998225969220,
  164394860787015750,
  164394586009772100,
  164394998225977410,
  164394998259515460,
  164394860787032130,
  164394723448717380,
  164394723348078660,
  164394723348078660,
  164394723348070470,
  164394585942679620,
  164394585976217670,
  164394585976217670,
  164394586009772100,
  164394860787015750,
  164394585942671430,
  164394585942671430,
  164394585942679620,
  164394723348070470,
  164394585976234050,
  164394723415162950,
  164394586009780290,
  164394860820561990,
  164395000440037440,
  164403792238616640,
  164394863034638400,
  164403654833217600,
  164395000406491200,
  164403792205070400,
  164394862967545920,
  164403517394272320,
  164394725562146880,
  164403517360726080,
  164394725595693120,
  164403654766125120,
  164395000440029250,
  164403792238608450,
  164394863034630210,
  164403654833209410,
  164395000406474820,
  164403792171515970,
  164394862967521350,
  164403379955318850,
  164394725562122310,
  164403379921772610,
  164394725595676740,
  164403654732570690,
  164395000372928580,
  164403792171507780,
  164394862933975110,
  164403379955310660,
  164395000372936770,
  164403792205054020,
  164394862933991490,
  164403517394255940,
  164394725495038020,
  164403517293617220,
  164394725495029830,
  164403379888218180,
  164394588123177030,
  164403379921756230,
  164394588156731460,
  164403654732554310,
  164394588089630790,
  164403379888209990,
  164394588089638980,
  164403517293609030,
  164394588123193410,
  164403517360701510,
  164394588156739650,
  164403654766100550,
  164412590477549760,
  164412590477549760,
  164412453072150720,
  164412453072150720,
  164412590444003520,
  164412590444003520,
  164412453005058240,
  164412315633205440,
  164412315599659200,
  164412315599659200,
  164412315633205440,
  164412453005058240,
  164412590477541570,
  164412590477541570,
  164412453072142530,
  164412453072142530,
  164412590443987140,
  164412590410449090,
  164412453005033670,
  164412178194251970,
  164412315599634630,
  164412178160705730,
  164412315633189060,
  164412452971503810,
  164412590410440900,
  164412590410440900,
  164412452971487430,
  164412178194243780,
  164412590410449090,
  164412590443987140,
  164412452971503810,
  164412315633189060,
  164412315532550340,
  164412315532550340,
  164412315532542150,
  164412178127151300,
  164412178160689350,
  164412178160689350,
  164412178194243780,
  164412452971487430,
  164412178127143110,
  164412178127143110,
  164412178127151300,
  164412315532542150,
  164412178160705730,
  164412315599634630,
  164412178194251970,
  164412453005033670,
  164403796532011200,
  164403796532011200,
  164403659126612160,
  164403659126612160,
  164403796498464960,
  164403796498464960,
  164403659059519680,
  164403521687666880,
  164403521654120640,
  164403521654120640,
  164403521687666880,
  164403659059519680,
  164403796532003010,
  164403796532003010,
  164403659126603970,
  164403659126603970,
  164403796498448580,
  164403796464910530,
  164403659059495110,
  164403384248713410,
  164403521654096070,
  164403384215167170,
  164403521687650500,
  164403659025965250,
  164403796464902340,
  164403796464902340,
  164403659025948870,
  164403384248705220,
  164403796464910530,
  164403796498448580,
  164403659025965250,
  164403521687650500,
  164403521587011780,
  164403521587011780,
  164403521587003590,
  164403384181612740,
  164403384215150790,
  164403384215150790,
  164403384248705220,
  164403659025948870,
  164403384181604550,
  164403384181604550,
  164403384181612740,
  164403521587003590,
  164403384215167170,
  164403521654096070,
  164403384248713410,
  164403659059495110,
  164412588330066240,
  164412586183631040,
  164412450924667200,
  164412448778232000,
  164412588296520000,
  164412586150084800,
  164412450857574720,
  164412311339286720,
  164412313452175680,
  164412311305740480,
  164412313485721920,
  164412448711139520,
  164412588330058050,
  164412586183622850,
  164412450924659010,
  164412448778223810,
  164412588296503620,
  164412586116530370,
  164412450857550150,
  164412173900333250,
  164412313452151110,
  164412173866787010,
  164412313485705540,
  164412448677585090,
  164412588262957380,
  164412586116522180,
  164412450824003910,
  164412173900325060,
  164412588262965570,
  164412586150068420,
  164412450824020290,
  164412311339270340]
def T4_pdagq_cert_5 : List Nat := [164412313385066820,
  164412311238631620,
  164412313385058630,
  164412173833232580,
  164412176013205830,
  164412173866770630,
  164412176046760260,
  164412448677568710,
  164412175979659590,
  164412173833224390,
  164412175979667780,
  164412311238623430,
  164412176013222210,
  164412311305715910,
  164412176046768450,
  164412448711114950,
  164403792237044160,
  164386204347015360,
  164403654831645120,
  164386066941616320,
  164403792203497920,
  164386204313469120,
  164403654764552640,
  164385929502671040,
  164403517359153600,
  164385929469124800,
  164403517392699840,
  164386066874523840,
  164403792237035970,
  164386204347007170,
  164403654831636930,
  164386066941608130,
  164403792203481540,
  164386204279914690,
  164403654764528070,
  164385792063717570,
  164403517359129030,
  164385792030171330,
  164403517392683460,
  164386066840969410,
  164403792169935300,
  164386204279906500,
  164403654730981830,
  164385792063709380,
  164403792169943490,
  164386204313452740,
  164403654730998210,
  164385929502654660,
  164403517292044740,
  164385929402015940,
  164403517292036550,
  164385791996616900,
  164403379920183750,
  164385792030154950,
  164403379953738180,
  164386066840953030,
  164403379886637510,
  164385791996608710,
  164403379886645700,
  164385929402007750,
  164403379920200130,
  164385929469100230,
  164403379953746370,
  164386066874499270,
  164394998291505600,
  164386202200056000,
  164394860886106560,
  164386064794656960,
  164394998257959360,
  164386202166509760,
  164394860819014080,
  164385927355711680,
  164394723413615040,
  164385927322165440,
  164394723447161280,
  164386064727564480,
  164394998291497410,
  164386202200047810,
  164394860886098370,
  164386064794648770,
  164394998257942980,
  164386202132955330,
  164394860818989510,
  164385789916758210,
  164394723413590470,
  164385789883211970,
  164394723447144900,
  164386064694010050,
  164394998224396740,
  164386202132947140,
  164394860785443270,
  164385789916750020,
  164394998224404930,
  164386202166493380,
  164394860785459650,
  164385927355695300,
  164394723346506180,
  164385927255056580,
  164394723346497990,
  164385789849657540,
  164394585974645190,
  164385789883195590,
  164394586008199620,
  164386064693993670,
  164394585941098950,
  164385789849649350,
  164394585941107140,
  164385927255048390,
  164394585974661570,
  164385927322140870,
  164394586008207810,
  164386064727539910,
  164395000438989120,
  164403790091133120,
  164394863033590080,
  164403652685734080,
  164395000405442880,
  164403790057586880,
  164394862966497600,
  164403515246788800,
  164394725561098560,
  164403515213242560,
  164394725594644800,
  164403652618641600,
  164395000438980930,
  164403790091124930,
  164394863033581890,
  164403652685725890,
  164395000405426500,
  164403790024032450,
  164394862966473030,
  164403377807835330,
  164394725561073990,
  164403377774289090,
  164394725594628420,
  164403652585087170,
  164395000371880260,
  164403790024024260,
  164394862932926790,
  164403377807827140,
  164395000371888450,
  164403790057570500,
  164394862932943170,
  164403515246772420,
  164394725493989700,
  164403515146133700,
  164394725493981510,
  164403377740734660,
  164394588122128710,
  164403377774272710,
  164394588155683140,
  164403652585070790,
  164394588088582470,
  164403377740726470,
  164394588088590660,
  164403515146125510,
  164394588122145090,
  164403515213217990,
  164394588155691330,
  164403652618617030,
  164412586183106880,
  164412586183106880,
  164412448777707840,
  164412448777707840,
  164412586149560640,
  164412586149560640,
  164412448710615360,
  164412311338762560,
  164412311305216320,
  164412311305216320,
  164412311338762560,
  164412448710615360,
  164412586183098690,
  164412586183098690,
  164412448777699650,
  164412448777699650,
  164412586149544260,
  164412586116006210,
  164412448710590790,
  164412173899809090,
  164412311305191750,
  164412173866262850,
  164412311338746180,
  164412448677060930,
  164412586115998020,
  164412586115998020,
  164412448677044550,
  164412173899800900,
  164412586116006210,
  164412586149544260,
  164412448677060930,
  164412311338746180,
  164412311238107460,
  164412311238107460,
  164412311238099270,
  164412173832708420,
  164412173866246470,
  164412173866246470,
  164412173899800900,
  164412448677044550,
  164412173832700230,
  164412173832700230,
  164412173832708420,
  164412311238099270,
  164412173866262850,
  164412311305191750,
  164412173899809090,
  164412448710590790,
  164403790090084800,
  164386204346491200,
  164403652684685760,
  164386066941092160,
  164403790056538560,
  164386204312944960,
  164403652617593280,
  164385929502146880,
  164403515212194240,
  164385929468600640,
  164403515245740480,
  164386066873999680,
  164403790090076610,
  164386204346483010,
  164403652684677570,
  164386066941083970,
  164403790056522180,
  164386204279390530,
  164403652617568710,
  164385792063193410,
  164403515212169670,
  164385792029647170,
  164403515245724100,
  164386066840445250,
  164403790022975940,
  164386204279382340,
  164403652584022470,
  164385792063185220,
  164403790022984130,
  164386204312928580,
  164403652584038850,
  164385929502130500,
  164403515145085380,
  164385929401491780,
  164403515145077190,
  164385791996092740,
  164403377773224390,
  164385792029630790,
  164403377806778820,
  164386066840428870,
  164403377739678150,
  164385791996084550,
  164403377739686340,
  164385929401483590,
  164403377773240770,
  164385929468576070,
  164403377806787010,
  164386066873975110,
  164412586183631040,
  164412588330066240,
  164412448778232000,
  164412450924667200,
  164412586150084800,
  164412588296520000,
  164412448711139520,
  164412313485721920,
  164412311305740480,
  164412313452175680,
  164412311339286720,
  164412450857574720,
  164412586183622850,
  164412588330058050,
  164412448778223810,
  164412450924659010,
  164412586150068420,
  164412588262965570,
  164412448711114950,
  164412176046768450,
  164412311305715910,
  164412176013222210,
  164412311339270340,
  164412450824020290,
  164412586116522180,
  164412588262957380,
  164412448677568710,
  164412176046760260,
  164412586116530370,
  164412588296503620,
  164412448677585090,
  164412313485705540,
  164412311238631620,
  164412313385066820,
  164412311238623430,
  164412175979667780,
  164412173866770630,
  164412176013205830,
  164412173900325060,
  164412450824003910,
  164412173833224390,
  164412175979659590,
  164412173833232580,
  164412313385058630,
  164412173866787010,
  164412313452151110,
  164412173900333250,
  164412450857550150,
  164403790091133120,
  164395000438989120,
  164403652685734080,
  164394863033590080,
  164403790057586880,
  164395000405442880,
  164403652618641600,
  164394725594644800,
  164403515213242560,
  164394725561098560,
  164403515246788800,
  164394862966497600,
  164403790091124930,
  164395000438980930,
  164403652685725890,
  164394863033581890,
  164403790057570500,
  164395000371888450,
  164403652618617030,
  164394588155691330,
  164403515213217990,
  164394588122145090,
  164403515246772420,
  164394862932943170,
  164403790024024260,
  164395000371880260,
  164403652585070790,
  164394588155683140,
  164403790024032450,
  164395000405426500,
  164403652585087170,
  164394725594628420,
  164403515146133700,
  164394725493989700,
  164403515146125510,
  164394588088590660,
  164403377774272710,
  164394588122128710,
  164403377807827140,
  164394862932926790,
  164403377740726470,
  164394588088582470,
  164403377740734660,
  164394725493981510,
  164403377774289090,
  164394725561073990,
  164403377807835330,
  164394862966473030,
  164394993998111040,
  164394993998111040,
  164394856592712000,
  164394856592712000,
  164394993964564800,
  164394993964564800,
  164394856525619520,
  164394719153766720,
  164394719120220480,
  164394719120220480,
  164394719153766720,
  164394856525619520,
  164394993998102850,
  164394993998102850,
  164394856592703810,
  164394856592703810,
  164394993964548420,
  164394993931010370,
  164394856525594950,
  164394581714813250,
  164394719120195910,
  164394581681267010,
  164394719153750340,
  164394856492065090,
  164394993931002180,
  164394993931002180,
  164394856492048710,
  164394581714805060,
  164394993931010370,
  164394993964548420,
  164394856492065090,
  164394719153750340,
  164394719053111620,
  164394719053111620,
  164394719053103430,
  164394581647712580,
  164394581681250630,
  164394581681250630,
  164394581714805060,
  164394856492048710,
  164394581647704390,
  164394581647704390,
  164394581647712580,
  164394719053103430,
  164394581681267010,
  164394719120195910,
  164394581714813250,
  164394856525594950]
def T4_pdagq_cert_6 : List Nat := [164394993997586880,
  164386200052572480,
  164394856592187840,
  164386062647173440,
  164394993964040640,
  164386200019026240,
  164394856525095360,
  164385925208228160,
  164394719119696320,
  164385925174681920,
  164394719153242560,
  164386062580080960,
  164394993997578690,
  164386200052564290,
  164394856592179650,
  164386062647165250,
  164394993964024260,
  164386199985471810,
  164394856525070790,
  164385787769274690,
  164394719119671750,
  164385787735728450,
  164394719153226180,
  164386062546526530,
  164394993930478020,
  164386199985463620,
  164394856491524550,
  164385787769266500,
  164394993930486210,
  164386200019009860,
  164394856491540930,
  164385925208211780,
  164394719052587460,
  164385925107573060,
  164394719052579270,
  164385787702174020,
  164394581680726470,
  164385787735712070,
  164394581714280900,
  164386062546510150,
  164394581647180230,
  164385787702165830,
  164394581647188420,
  164385925107564870,
  164394581680742850,
  164385925174657350,
  164394581714289090,
  164386062580056390,
  164386202199007680,
  164386202199007680,
  164386064793608640,
  164386064793608640,
  164386202165461440,
  164386202165461440,
  164386064726516160,
  164385927354663360,
  164385927321117120,
  164385927321117120,
  164385927354663360,
  164386064726516160,
  164386202198999490,
  164386202198999490,
  164386064793600450,
  164386064793600450,
  164386202165445060,
  164386202131907010,
  164386064726491590,
  164385789915709890,
  164385927321092550,
  164385789882163650,
  164385927354646980,
  164386064692961730,
  164386202131898820,
  164386202131898820,
  164386064692945350,
  164385789915701700,
  164386202131907010,
  164386202165445060,
  164386064692961730,
  164385927354646980,
  164385927254008260,
  164385927254008260,
  164385927254000070,
  164385789848609220,
  164385789882147270,
  164385789882147270,
  164385789915701700,
  164386064692945350,
  164385789848601030,
  164385789848601030,
  164385789848609220,
  164385927254000070,
  164385789882163650,
  164385927321092550,
  164385789915709890,
  164386064726491590,
  164386204346491200,
  164403790090084800,
  164386066941092160,
  164403652684685760,
  164386204312944960,
  164403790056538560,
  164386066873999680,
  164403515245740480,
  164385929468600640,
  164403515212194240,
  164385929502146880,
  164403652617593280,
  164386204346483010,
  164403790090076610,
  164386066941083970,
  164403652684677570,
  164386204312928580,
  164403790022984130,
  164386066873975110,
  164403377806787010,
  164385929468576070,
  164403377773240770,
  164385929502130500,
  164403652584038850,
  164386204279382340,
  164403790022975940,
  164386066840428870,
  164403377806778820,
  164386204279390530,
  164403790056522180,
  164386066840445250,
  164403515245724100,
  164385929401491780,
  164403515145085380,
  164385929401483590,
  164403377739686340,
  164385792029630790,
  164403377773224390,
  164385792063185220,
  164403652584022470,
  164385791996084550,
  164403377739678150,
  164385791996092740,
  164403515145077190,
  164385792029647170,
  164403515212169670,
  164385792063193410,
  164403652617568710,
  164386200052048320,
  164386200052048320,
  164386062646649280,
  164386062646649280,
  164386200018502080,
  164386200018502080,
  164386062579556800,
  164385925207704000,
  164385925174157760,
  164385925174157760,
  164385925207704000,
  164386062579556800,
  164386200052040130,
  164386200052040130,
  164386062646641090,
  164386062646641090,
  164386200018485700,
  164386199984947650,
  164386062579532230,
  164385787768750530,
  164385925174133190,
  164385787735204290,
  164385925207687620,
  164386062546002370,
  164386199984939460,
  164386199984939460,
  164386062545985990,
  164385787768742340,
  164386199984947650,
  164386200018485700,
  164386062546002370,
  164385925207687620,
  164385925107048900,
  164385925107048900,
  164385925107040710,
  164385787701649860,
  164385787735187910,
  164385787735187910,
  164385787768742340,
  164386062545985990,
  164385787701641670,
  164385787701641670,
  164385787701649860,
  164385925107040710,
  164385787735204290,
  164385925174133190,
  164385787768750530,
  164386062579532230,
  164386200052572480,
  164394993997586880,
  164386062647173440,
  164394856592187840,
  164386200019026240,
  164394993964040640,
  164386062580080960,
  164394719153242560,
  164385925174681920,
  164394719119696320,
  164385925208228160,
  164394856525095360,
  164386200052564290,
  164394993997578690,
  164386062647165250,
  164394856592179650,
  164386200019009860,
  164394993930486210,
  164386062580056390,
  164394581714289090,
  164385925174657350,
  164394581680742850,
  164385925208211780,
  164394856491540930,
  164386199985463620,
  164394993930478020,
  164386062546510150,
  164394581714280900,
  164386199985471810,
  164394993964024260,
  164386062546526530,
  164394719153226180,
  164385925107573060,
  164394719052587460,
  164385925107564870,
  164394581647188420,
  164385787735712070,
  164394581680726470,
  164385787769266500,
  164394856491524550,
  164385787702165830,
  164394581647180230,
  164385787702174020,
  164394719052579270,
  164385787735728450,
  164394719119671750,
  164385787769274690,
  164394856525070790,
  164386202200056000,
  164394998291505600,
  164386064794656960,
  164394860886106560,
  164386202166509760,
  164394998257959360,
  164386064727564480,
  164394723447161280,
  164385927322165440,
  164394723413615040,
  164385927355711680,
  164394860819014080,
  164386202200047810,
  164394998291497410,
  164386064794648770,
  164394860886098370,
  164386202166493380,
  164394998224404930,
  164386064727539910,
  164394586008207810,
  164385927322140870,
  164394585974661570,
  164385927355695300,
  164394860785459650,
  164386202132947140,
  164394998224396740,
  164386064693993670,
  164394586008199620,
  164386202132955330,
  164394998257942980,
  164386064694010050,
  164394723447144900,
  164385927255056580,
  164394723346506180,
  164385927255048390,
  164394585941107140,
  164385789883195590,
  164394585974645190,
  164385789916750020,
  164394860785443270,
  164385789849649350,
  164394585941098950,
  164385789849657540,
  164394723346497990,
  164385789883211970,
  164394723413590470,
  164385789916758210,
  164394860818989510,
  164386204347015360,
  164403792237044160,
  164386066941616320,
  164403654831645120,
  164386204313469120,
  164403792203497920,
  164386066874523840,
  164403517392699840,
  164385929469124800,
  164403517359153600,
  164385929502671040,
  164403654764552640,
  164386204347007170,
  164403792237035970,
  164386066941608130,
  164403654831636930,
  164386204313452740,
  164403792169943490,
  164386066874499270,
  164403379953746370,
  164385929469100230,
  164403379920200130,
  164385929502654660,
  164403654730998210,
  164386204279906500,
  164403792169935300,
  164386066840953030,
  164403379953738180,
  164386204279914690,
  164403792203481540,
  164386066840969410,
  164403517392683460,
  164385929402015940,
  164403517292044740,
  164385929402007750,
  164403379886645700,
  164385792030154950,
  164403379920183750,
  164385792063709380,
  164403654730981830,
  164385791996608710,
  164403379886637510,
  164385791996616900,
  164403517292036550,
  164385792030171330,
  164403517359129030,
  164385792063717570,
  164403654764528070,
  811818900033884659776,
  811818900033884659776,
  811818899896479260736,
  811818899896479260736,
  811818900033851113536,
  811818900033851113536,
  811818899896412168256,
  811818899759040315456,
  811818899759006769216,
  811818899759006769216,
  811818899759040315456,
  811818899896412168256,
  811818900033884651586,
  811818900033884651586,
  811818899896479252546,
  811818899896479252546,
  811818900033851097156,
  811818900033817559106,
  811818899896412143686,
  811818899621601361986,
  811818899759006744646,
  811818899621567815746,
  811818899759040299076,
  811818899896378613826,
  811818900033817550916,
  811818900033817550916,
  811818899896378597446,
  811818899621601353796,
  811818900033817559106,
  811818900033851097156,
  811818899896378613826,
  811818899759040299076,
  811818899758939660356,
  811818899758939660356,
  811818899758939652166,
  811818899621534261316,
  811818899621567799366,
  811818899621567799366,
  811818899621601353796,
  811818899896378597446,
  811818899621534253126,
  811818899621534253126,
  811818899621534261316,
  811818899758939652166,
  811818899621567815746,
  811818899759006744646,
  811818899621601361986,
  811818899896412143686,
  811818891239939121216,
  811818891239939121216,
  811818891102533722176,
  811818891102533722176,
  811818891239905574976,
  811818891239905574976,
  811818891102466629696,
  811818890965094776896,
  811818890965061230656,
  811818890965061230656,
  811818890965094776896,
  811818891102466629696,
  811818891239939113026,
  811818891239939113026,
  811818891102533713986,
  811818891102533713986]
def T4_pdagq_cert_7 : List Nat := [811818891239905558596,
  811818891239872020546,
  811818891102466605126,
  811818890827655823426,
  811818890965061206086,
  811818890827622277186,
  811818890965094760516,
  811818891102433075266,
  811818891239872012356,
  811818891239872012356,
  811818891102433058886,
  811818890827655815236,
  811818891239872020546,
  811818891239905558596,
  811818891102433075266,
  811818890965094760516,
  811818890964994121796,
  811818890964994121796,
  811818890964994113606,
  811818890827588722756,
  811818890827622260806,
  811818890827622260806,
  811818890827655815236,
  811818891102433058886,
  811818890827588714566,
  811818890827588714566,
  811818890827588722756,
  811818890964994113606,
  811818890827622277186,
  811818890965061206086,
  811818890827655823426,
  811818891102466605126,
  811818900031737700416,
  811818900031737700416,
  811818899894332301376,
  811818899894332301376,
  811818900031704154176,
  811818900031704154176,
  811818899894265208896,
  811818899756893356096,
  811818899756859809856,
  811818899756859809856,
  811818899756893356096,
  811818899894265208896,
  811818900031737692226,
  811818900031737692226,
  811818899894332293186,
  811818899894332293186,
  811818900031704137796,
  811818900031670599746,
  811818899894265184326,
  811818899619454402626,
  811818899756859785286,
  811818899619420856386,
  811818899756893339716,
  811818899894231654466,
  811818900031670591556,
  811818900031670591556,
  811818899894231638086,
  811818899619454394436,
  811818900031670599746,
  811818900031704137796,
  811818899894231654466,
  811818899756893339716,
  811818899756792700996,
  811818899756792700996,
  811818899756792692806,
  811818899619387301956,
  811818899619420840006,
  811818899619420840006,
  811818899619454394436,
  811818899894231638086,
  811818899619387293766,
  811818899619387293766,
  811818899619387301956,
  811818899756792692806,
  811818899619420856386,
  811818899756859785286,
  811818899619454402626,
  811818899894265184326,
  811818891235645202496,
  811818882443846623296,
  811818891098239803456,
  811818882306441224256,
  811818891235611656256,
  811818882443813077056,
  811818891098172710976,
  811818882169002278976,
  811818890960767311936,
  811818882168968732736,
  811818890960800858176,
  811818882306374131776,
  811818891235645194306,
  811818882443846615106,
  811818891098239795266,
  811818882306441216066,
  811818891235611639876,
  811818882443779522626,
  811818891098172686406,
  811818882031563325506,
  811818890960767287366,
  811818882031529779266,
  811818890960800841796,
  811818882306340577346,
  811818891235578093636,
  811818882443779514436,
  811818891098139140166,
  811818882031563317316,
  811818891235578101826,
  811818882443813060676,
  811818891098139156546,
  811818882169002262596,
  811818890960700203076,
  811818882168901623876,
  811818890960700194886,
  811818882031496224836,
  811818890823328342086,
  811818882031529762886,
  811818890823361896516,
  811818882306340560966,
  811818890823294795846,
  811818882031496216646,
  811818890823294804036,
  811818882168901615686,
  811818890823328358466,
  811818882168968708166,
  811818890823361904706,
  811818882306374107206,
  811818882441699663936,
  811818882441699663936,
  811818882304294264896,
  811818882304294264896,
  811818882441666117696,
  811818882441666117696,
  811818882304227172416,
  811818882166855319616,
  811818882166821773376,
  811818882166821773376,
  811818882166855319616,
  811818882304227172416,
  811818882441699655746,
  811818882441699655746,
  811818882304294256706,
  811818882304294256706,
  811818882441666101316,
  811818882441632563266,
  811818882304227147846,
  811818882029416366146,
  811818882166821748806,
  811818882029382819906,
  811818882166855303236,
  811818882304193617986,
  811818882441632555076,
  811818882441632555076,
  811818882304193601606,
  811818882029416357956,
  811818882441632563266,
  811818882441666101316,
  811818882304193617986,
  811818882166855303236,
  811818882166754664516,
  811818882166754664516,
  811818882166754656326,
  811818882029349265476,
  811818882029382803526,
  811818882029382803526,
  811818882029416357956,
  811818882304193601606,
  811818882029349257286,
  811818882029349257286,
  811818882029349265476,
  811818882166754656326,
  811818882029382819906,
  811818882166821748806,
  811818882029416366146,
  811818882304227147846,
  811818882443846623296,
  811818891235645202496,
  811818882306441224256,
  811818891098239803456,
  811818882443813077056,
  811818891235611656256,
  811818882306374131776,
  811818890960800858176,
  811818882168968732736,
  811818890960767311936,
  811818882169002278976,
  811818891098172710976,
  811818882443846615106,
  811818891235645194306,
  811818882306441216066,
  811818891098239795266,
  811818882443813060676,
  811818891235578101826,
  811818882306374107206,
  811818890823361904706,
  811818882168968708166,
  811818890823328358466,
  811818882169002262596,
  811818891098139156546,
  811818882443779514436,
  811818891235578093636,
  811818882306340560966,
  811818890823361896516,
  811818882443779522626,
  811818891235611639876,
  811818882306340577346,
  811818890960800841796,
  811818882168901623876,
  811818890960700203076,
  811818882168901615686,
  811818890823294804036,
  811818882031529762886,
  811818890823328342086,
  811818882031563317316,
  811818891098139140166,
  811818882031496216646,
  811818890823294795846,
  811818882031496224836,
  811818890960700194886,
  811818882031529779266,
  811818890960767287366,
  811818882031563325506,
  811818891098172686406,
  664280976241226686656,
  664280976241226686656,
  664280976103821287616,
  664280976103821287616,
  664280976241193140416,
  664280976241193140416,
  664280976103754195136,
  664280975966382342336,
  664280975966348796096,
  664280975966348796096,
  664280975966382342336,
  664280976103754195136,
  664280976241226678466,
  664280976241226678466,
  664280976103821279426,
  664280976103821279426,
  664280976241193124036,
  664280976241159585986,
  664280976103754170566,
  664280975828943388866,
  664280975966348771526,
  664280975828909842626,
  664280975966382325956,
  664280976103720640706,
  664280976241159577796,
  664280976241159577796,
  664280976103720624326,
  664280975828943380676,
  664280976241159585986,
  664280976241193124036,
  664280976103720640706,
  664280975966382325956,
  664280975966281687236,
  664280975966281687236,
  664280975966281679046,
  664280975828876288196,
  664280975828909826246,
  664280975828909826246,
  664280975828943380676,
  664280976103720624326,
  664280975828876280006,
  664280975828876280006,
  664280975828876288196,
  664280975966281679046,
  664280975828909842626,
  664280975966348771526,
  664280975828943388866,
  664280976103754170566,
  664280967447281148096,
  664280967447281148096,
  664280967309875749056,
  664280967309875749056,
  664280967447247601856,
  664280967447247601856,
  664280967309808656576,
  664280967172436803776,
  664280967172403257536,
  664280967172403257536,
  664280967172436803776,
  664280967309808656576,
  664280967447281139906,
  664280967447281139906,
  664280967309875740866,
  664280967309875740866,
  664280967447247585476,
  664280967447214047426,
  664280967309808632006,
  664280967034997850306,
  664280967172403232966,
  664280967034964304066,
  664280967172436787396,
  664280967309775102146,
  664280967447214039236,
  664280967447214039236,
  664280967309775085766,
  664280967034997842116,
  664280967447214047426,
  664280967447247585476,
  664280967309775102146,
  664280967172436787396,
  664280967172336148676,
  664280967172336148676,
  664280967172336140486,
  664280967034930749636,
  664280967034964287686,
  664280967034964287686,
  664280967034997842116,
  664280967309775085766,
  664280967034930741446,
  664280967034930741446,
  664280967034930749636,
  664280967172336140486,
  664280967034964304066,
  664280967172403232966,
  664280967034997850306,
  664280967309808632006,
  664280976239079203136,
  664280976236932767936,
  664280976101673804096,
  664280976099527368896,
  664280976239045656896,
  664280976236899221696,
  664280976101606711616,
  664280975962088423616,
  664280975964201312576,
  664280975962054877376,
  664280975964234858816,
  664280976099460276416,
  664280976239079194946,
  664280976236932759746,
  664280976101673795906,
  664280976099527360706,
  664280976239045640516,
  664280976236865667266,
  664280976101606687046,
  664280975824649470146,
  664280975964201288006,
  664280975824615923906,
  664280975964234842436,
  664280976099426721986,
  664280976239012094276,
  664280976236865659076,
  664280976101573140806,
  664280975824649461956,
  664280976239012102466,
  664280976236899205316,
  664280976101573157186,
  664280975962088407236,
  664280975964134203716,
  664280975961987768516,
  664280975964134195526,
  664280975824582369476,
  664280975826762342726,
  664280975824615907526,
  664280975826795897156,
  664280976099426705606,
  664280975826728796486,
  664280975824582361286,
  664280975826728804676,
  664280975961987760326,
  664280975826762359106,
  664280975962054852806,
  664280975826795905346,
  664280976099460251846,
  664280967442986181056,
  664280949855096152256,
  664280967305580782016,
  664280949717690753216,
  664280967442952634816,
  664280949855062606016,
  664280967305513689536,
  664280949580251807936,
  664280967168108290496,
  664280949580218261696,
  664280967168141836736,
  664280949717623660736,
  664280967442986172866,
  664280949855096144066,
  664280967305580773826,
  664280949717690745026,
  664280967442952618436,
  664280949855029051586,
  664280967305513664966,
  664280949442812854466,
  664280967168108265926,
  664280949442779308226,
  664280967168141820356,
  664280949717590106306,
  664280967442919072196,
  664280949855029043396,
  664280967305480118726,
  664280949442812846276,
  664280967442919080386,
  664280949855062589636,
  664280967305480135106,
  664280949580251791556]
def T4_pdagq_cert_8 : List Nat := [664280967168041181636,
  664280949580151152836,
  664280967168041173446,
  664280949442745753796,
  664280967030669320646,
  664280949442779291846,
  664280967030702875076,
  664280949717590089926,
  664280967030635774406,
  664280949442745745606,
  664280967030635782596,
  664280949580151144646,
  664280967030669337026,
  664280949580218237126,
  664280967030702883266,
  664280949717623636166,
  664280958649040642496,
  664280949852949192896,
  664280958511635243456,
  664280949715543793856,
  664280958649007096256,
  664280949852915646656,
  664280958511568150976,
  664280949578104848576,
  664280958374162751936,
  664280949578071302336,
  664280958374196298176,
  664280949715476701376,
  664280958649040634306,
  664280949852949184706,
  664280958511635235266,
  664280949715543785666,
  664280958649007079876,
  664280949852882092226,
  664280958511568126406,
  664280949440665895106,
  664280958374162727366,
  664280949440632348866,
  664280958374196281796,
  664280949715443146946,
  664280958648973533636,
  664280949852882084036,
  664280958511534580166,
  664280949440665886916,
  664280958648973541826,
  664280949852915630276,
  664280958511534596546,
  664280949578104832196,
  664280958374095643076,
  664280949578004193476,
  664280958374095634886,
  664280949440598794436,
  664280958236723782086,
  664280949440632332486,
  664280958236757336516,
  664280949715443130566,
  664280958236690235846,
  664280949440598786246,
  664280958236690244036,
  664280949578004185286,
  664280958236723798466,
  664280949578071277766,
  664280958236757344706,
  664280949715476676806,
  664280958651188126016,
  664280967440840270016,
  664280958513782726976,
  664280967303434870976,
  664280958651154579776,
  664280967440806723776,
  664280958513715634496,
  664280967165995925696,
  664280958376310235456,
  664280967165962379456,
  664280958376343781696,
  664280967303367778496,
  664280958651188117826,
  664280967440840261826,
  664280958513782718786,
  664280967303434862786,
  664280958651154563396,
  664280967440773169346,
  664280958513715609926,
  664280967028556972226,
  664280958376310210886,
  664280967028523425986,
  664280958376343765316,
  664280967303334224066,
  664280958651121017156,
  664280967440773161156,
  664280958513682063686,
  664280967028556964036,
  664280958651121025346,
  664280967440806707396,
  664280958513682080066,
  664280967165995909316,
  664280958376243126596,
  664280967165895270596,
  664280958376243118406,
  664280967028489871556,
  664280958238871265606,
  664280967028523409606,
  664280958238904820036,
  664280967303334207686,
  664280958238837719366,
  664280967028489863366,
  664280958238837727556,
  664280967165895262406,
  664280958238871281986,
  664280967165962354886,
  664280958238904828226,
  664280967303367753926,
  664280976236932243776,
  664280976236932243776,
  664280976099526844736,
  664280976099526844736,
  664280976236898697536,
  664280976236898697536,
  664280976099459752256,
  664280975962087899456,
  664280975962054353216,
  664280975962054353216,
  664280975962087899456,
  664280976099459752256,
  664280976236932235586,
  664280976236932235586,
  664280976099526836546,
  664280976099526836546,
  664280976236898681156,
  664280976236865143106,
  664280976099459727686,
  664280975824648945986,
  664280975962054328646,
  664280975824615399746,
  664280975962087883076,
  664280976099426197826,
  664280976236865134916,
  664280976236865134916,
  664280976099426181446,
  664280975824648937796,
  664280976236865143106,
  664280976236898681156,
  664280976099426197826,
  664280975962087883076,
  664280975961987244356,
  664280975961987244356,
  664280975961987236166,
  664280975824581845316,
  664280975824615383366,
  664280975824615383366,
  664280975824648937796,
  664280976099426181446,
  664280975824581837126,
  664280975824581837126,
  664280975824581845316,
  664280975961987236166,
  664280975824615399746,
  664280975962054328646,
  664280975824648945986,
  664280976099459727686,
  664280967440839221696,
  664280949855095628096,
  664280967303433822656,
  664280949717690229056,
  664280967440805675456,
  664280949855062081856,
  664280967303366730176,
  664280949580251283776,
  664280967165961331136,
  664280949580217737536,
  664280967165994877376,
  664280949717623136576,
  664280967440839213506,
  664280949855095619906,
  664280967303433814466,
  664280949717690220866,
  664280967440805659076,
  664280949855028527426,
  664280967303366705606,
  664280949442812330306,
  664280967165961306566,
  664280949442778784066,
  664280967165994860996,
  664280949717589582146,
  664280967440772112836,
  664280949855028519236,
  664280967303333159366,
  664280949442812322116,
  664280967440772121026,
  664280949855062065476,
  664280967303333175746,
  664280949580251267396,
  664280967165894222276,
  664280949580150628676,
  664280967165894214086,
  664280949442745229636,
  664280967028522361286,
  664280949442778767686,
  664280967028555915716,
  664280949717589565766,
  664280967028488815046,
  664280949442745221446,
  664280967028488823236,
  664280949580150620486,
  664280967028522377666,
  664280949580217712966,
  664280967028555923906,
  664280949717623112006,
  811818900029590216896,
  811818900031736652096,
  811818899892184817856,
  811818899894331253056,
  811818900029556670656,
  811818900031703105856,
  811818899892117725376,
  811818899756892307776,
  811818899754712326336,
  811818899756858761536,
  811818899754745872576,
  811818899894264160576,
  811818900029590208706,
  811818900031736643906,
  811818899892184809666,
  811818899894331244866,
  811818900029556654276,
  811818900031669551426,
  811818899892117700806,
  811818899619453354306,
  811818899754712301766,
  811818899619419808066,
  811818899754745856196,
  811818899894230606146,
  811818900029523108036,
  811818900031669543236,
  811818899892084154566,
  811818899619453346116,
  811818900029523116226,
  811818900031703089476,
  811818899892084170946,
  811818899756892291396,
  811818899754645217476,
  811818899756791652676,
  811818899754645209286,
  811818899619386253636,
  811818899617273356486,
  811818899619419791686,
  811818899617306910916,
  811818899894230589766,
  811818899617239810246,
  811818899619386245446,
  811818899617239818436,
  811818899756791644486,
  811818899617273372866,
  811818899756858736966,
  811818899617306919106,
  811818899894264136006,
  811818891233497718976,
  811818882443845574976,
  811818891096092319936,
  811818882306440175936,
  811818891233464172736,
  811818882443812028736,
  811818891096025227456,
  811818882169001230656,
  811818890958619828416,
  811818882168967684416,
  811818890958653374656,
  811818882306373083456,
  811818891233497710786,
  811818882443845566786,
  811818891096092311746,
  811818882306440167746,
  811818891233464156356,
  811818882443778474306,
  811818891096025202886,
  811818882031562277186,
  811818890958619803846,
  811818882031528730946,
  811818890958653358276,
  811818882306339529026,
  811818891233430610116,
  811818882443778466116,
  811818891095991656646,
  811818882031562268996,
  811818891233430618306,
  811818882443812012356,
  811818891095991673026,
  811818882169001214276,
  811818890958552719556,
  811818882168900575556,
  811818890958552711366,
  811818882031495176516,
  811818890821180858566,
  811818882031528714566,
  811818890821214412996,
  811818882306339512646,
  811818890821147312326,
  811818882031495168326,
  811818890821147320516,
  811818882168900567366,
  811818890821180874946,
  811818882168967659846,
  811818890821214421186,
  811818882306373058886,
  811818882437404696896,
  811818882437404696896,
  811818882299999297856,
  811818882299999297856,
  811818882437371150656,
  811818882437371150656,
  811818882299932205376,
  811818882162560352576,
  811818882162526806336,
  811818882162526806336,
  811818882162560352576,
  811818882299932205376,
  811818882437404688706,
  811818882437404688706,
  811818882299999289666,
  811818882299999289666,
  811818882437371134276,
  811818882437337596226,
  811818882299932180806,
  811818882025121399106,
  811818882162526781766,
  811818882025087852866,
  811818882162560336196,
  811818882299898650946,
  811818882437337588036,
  811818882437337588036,
  811818882299898634566,
  811818882025121390916,
  811818882437337596226,
  811818882437371134276,
  811818882299898650946,
  811818882162560336196,
  811818882162459697476,
  811818882162459697476,
  811818882162459689286,
  811818882025054298436,
  811818882025087836486,
  811818882025087836486,
  811818882025121390916,
  811818882299898634566,
  811818882025054290246,
  811818882025054290246,
  811818882025054298436,
  811818882162459689286,
  811818882025087852866,
  811818882162526781766,
  811818882025121399106,
  811818882299932180806,
  664280958644746723776,
  664280949850801709376,
  664280958507341324736,
  664280949713396310336,
  664280958644713177536,
  664280949850768163136,
  664280958507274232256,
  664280949575957365056,
  664280958369868833216,
  664280949575923818816,
  664280958369902379456,
  664280949713329217856,
  664280958644746715586,
  664280949850801701186,
  664280958507341316546,
  664280949713396302146,
  664280958644713161156,
  664280949850734608706,
  664280958507274207686,
  664280949438518411586,
  664280958369868808646,
  664280949438484865346,
  664280958369902363076,
  664280949713295663426,
  664280958644679614916,
  664280949850734600516,
  664280958507240661446,
  664280949438518403396,
  664280958644679623106,
  664280949850768146756,
  664280958507240677826,
  664280949575957348676,
  664280958369801724356,
  664280949575856709956,
  664280958369801716166,
  664280949438451310916,
  664280958232429863366,
  664280949438484848966,
  664280958232463417796,
  664280949713295647046,
  664280958232396317126,
  664280949438451302726,
  664280958232396325316,
  664280949575856701766,
  664280958232429879746,
  664280949575923794246,
  664280958232463425986,
  664280949713329193286]
def T4_pdagq_cert_9 : List Nat := [664280949852948144576,
  664280949852948144576,
  664280949715542745536,
  664280949715542745536,
  664280949852914598336,
  664280949852914598336,
  664280949715475653056,
  664280949578103800256,
  664280949578070254016,
  664280949578070254016,
  664280949578103800256,
  664280949715475653056,
  664280949852948136386,
  664280949852948136386,
  664280949715542737346,
  664280949715542737346,
  664280949852914581956,
  664280949852881043906,
  664280949715475628486,
  664280949440664846786,
  664280949578070229446,
  664280949440631300546,
  664280949578103783876,
  664280949715442098626,
  664280949852881035716,
  664280949852881035716,
  664280949715442082246,
  664280949440664838596,
  664280949852881043906,
  664280949852914581956,
  664280949715442098626,
  664280949578103783876,
  664280949578003145156,
  664280949578003145156,
  664280949578003136966,
  664280949440597746116,
  664280949440631284166,
  664280949440631284166,
  664280949440664838596,
  664280949715442082246,
  664280949440597737926,
  664280949440597737926,
  664280949440597746116,
  664280949578003136966,
  664280949440631300546,
  664280949578070229446,
  664280949440664846786,
  664280949715475628486,
  664280949855095628096,
  664280967440839221696,
  664280949717690229056,
  664280967303433822656,
  664280949855062081856,
  664280967440805675456,
  664280949717623136576,
  664280967165994877376,
  664280949580217737536,
  664280967165961331136,
  664280949580251283776,
  664280967303366730176,
  664280949855095619906,
  664280967440839213506,
  664280949717690220866,
  664280967303433814466,
  664280949855062065476,
  664280967440772121026,
  664280949717623112006,
  664280967028555923906,
  664280949580217712966,
  664280967028522377666,
  664280949580251267396,
  664280967303333175746,
  664280949855028519236,
  664280967440772112836,
  664280949717589565766,
  664280967028555915716,
  664280949855028527426,
  664280967440805659076,
  664280949717589582146,
  664280967165994860996,
  664280949580150628676,
  664280967165894222276,
  664280949580150620486,
  664280967028488823236,
  664280949442778767686,
  664280967028522361286,
  664280949442812322116,
  664280967303333159366,
  664280949442745221446,
  664280967028488815046,
  664280949442745229636,
  664280967165894214086,
  664280949442778784066,
  664280967165961306566,
  664280949442812330306,
  664280967303366705606,
  664280949850801185216,
  664280949850801185216,
  664280949713395786176,
  664280949713395786176,
  664280949850767638976,
  664280949850767638976,
  664280949713328693696,
  664280949575956840896,
  664280949575923294656,
  664280949575923294656,
  664280949575956840896,
  664280949713328693696,
  664280949850801177026,
  664280949850801177026,
  664280949713395777986,
  664280949713395777986,
  664280949850767622596,
  664280949850734084546,
  664280949713328669126,
  664280949438517887426,
  664280949575923270086,
  664280949438484341186,
  664280949575956824516,
  664280949713295139266,
  664280949850734076356,
  664280949850734076356,
  664280949713295122886,
  664280949438517879236,
  664280949850734084546,
  664280949850767622596,
  664280949713295139266,
  664280949575956824516,
  664280949575856185796,
  664280949575856185796,
  664280949575856177606,
  664280949438450786756,
  664280949438484324806,
  664280949438484324806,
  664280949438517879236,
  664280949713295122886,
  664280949438450778566,
  664280949438450778566,
  664280949438450786756,
  664280949575856177606,
  664280949438484341186,
  664280949575923270086,
  664280949438517887426,
  664280949713328669126,
  811818873643459158336,
  811818882437404172736,
  811818873506053759296,
  811818882299998773696,
  811818873643425612096,
  811818882437370626496,
  811818873505986666816,
  811818882162559828416,
  811818873368581267776,
  811818882162526282176,
  811818873368614814016,
  811818882299931681216,
  811818873643459150146,
  811818882437404164546,
  811818873506053751106,
  811818882299998765506,
  811818873643425595716,
  811818882437337072066,
  811818873505986642246,
  811818882025120874946,
  811818873368581243206,
  811818882025087328706,
  811818873368614797636,
  811818882299898126786,
  811818873643392049476,
  811818882437337063876,
  811818873505953096006,
  811818882025120866756,
  811818873643392057666,
  811818882437370610116,
  811818873505953112386,
  811818882162559812036,
  811818873368514158916,
  811818882162459173316,
  811818873368514150726,
  811818882025053774276,
  811818873231142297926,
  811818882025087312326,
  811818873231175852356,
  811818882299898110406,
  811818873231108751686,
  811818882025053766086,
  811818873231108759876,
  811818882162459165126,
  811818873231142314306,
  811818882162526257606,
  811818873231175860546,
  811818882299931656646,
  811818873645606641856,
  811818882441698091456,
  811818873508201242816,
  811818882304292692416,
  811818873645573095616,
  811818882441664545216,
  811818873508134150336,
  811818882166853747136,
  811818873370728751296,
  811818882166820200896,
  811818873370762297536,
  811818882304225599936,
  811818873645606633666,
  811818882441698083266,
  811818873508201234626,
  811818882304292684226,
  811818873645573079236,
  811818882441630990786,
  811818873508134125766,
  811818882029414793666,
  811818873370728726726,
  811818882029381247426,
  811818873370762281156,
  811818882304192045506,
  811818873645539532996,
  811818882441630982596,
  811818873508100579526,
  811818882029414785476,
  811818873645539541186,
  811818882441664528836,
  811818873508100595906,
  811818882166853730756,
  811818873370661642436,
  811818882166753092036,
  811818873370661634246,
  811818882029347692996,
  811818873233289781446,
  811818882029381231046,
  811818873233323335876,
  811818882304192029126,
  811818873233256235206,
  811818882029347684806,
  811818873233256243396,
  811818882166753083846,
  811818873233289797826,
  811818882166820176326,
  811818873233323344066,
  811818882304225575366,
  811818873647753601216,
  811818891235643630016,
  811818873510348202176,
  811818891098238230976,
  811818873647720054976,
  811818891235610083776,
  811818873510281109696,
  811818890960799285696,
  811818873372875710656,
  811818890960765739456,
  811818873372909256896,
  811818891098171138496,
  811818873647753593026,
  811818891235643621826,
  811818873510348193986,
  811818891098238222786,
  811818873647720038596,
  811818891235576529346,
  811818873510281085126,
  811818890823360332226,
  811818873372875686086,
  811818890823326785986,
  811818873372909240516,
  811818891098137584066,
  811818873647686492356,
  811818891235576521156,
  811818873510247538886,
  811818890823360324036,
  811818873647686500546,
  811818891235610067396,
  811818873510247555266,
  811818890960799269316,
  811818873372808601796,
  811818890960698630596,
  811818873372808593606,
  811818890823293231556,
  811818873235436740806,
  811818890823326769606,
  811818873235470295236,
  811818891098137567686,
  811818873235403194566,
  811818890823293223366,
  811818873235403202756,
  811818890960698622406,
  811818873235436757186,
  811818890960765714886,
  811818873235470303426,
  811818891098171113926]

/-- Check T4_pdagq.  -/
theorem T4_pdagq : isZero kinds [aᵥ, bᵥ, cᵥ, dᵥ, iₒ, jₒ, kₒ, lₒ] 16
    (t4_test_residual ++ (Prog.scale (-1) (Prog.through tamps_antisym_T4 (unsym_residQf1))))
    (T4_pdagq_cert_0 ++ (T4_pdagq_cert_1 ++ (T4_pdagq_cert_2 ++ (T4_pdagq_cert_3 ++ (T4_pdagq_cert_4 ++ (T4_pdagq_cert_5 ++ (T4_pdagq_cert_6 ++ (T4_pdagq_cert_7 ++ (T4_pdagq_cert_8 ++ (T4_pdagq_cert_9)))))))))) = true := by decide +kernel

end Verif.Cert
