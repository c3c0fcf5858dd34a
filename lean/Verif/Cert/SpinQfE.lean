import Verif.Ein.Spin
import Verif.Gen.Qf
import Verif.Gen.SiQfE

/-! Written by `/verif/tools/gen.py`. Checks of einsum programs. -/

set_option maxRecDepth 100000

namespace Verif.Cert

open Verif.Ein Verif.Ein.N


open Verif.Gen

def pertQf_cert_0 : List Nat := [6918659466255958474,
  568038551478724,
  6918659466255958474,
  568038551478724,
  6918659466256482634,
  576832497017284,
  2307554131700916424,
  2305865556819222724,
  2307562925646454984,
  2305874350764761284,
  2307536537367904714,
  567903225946564,
  2307554125258981834,
  567905373430084,
  2307536537368953034,
  576699318444484,
  2307554125260030154,
  576701465928004,
  2307553856890118344,
  2305865556785668294,
  2307562650835656904,
  2305874350731206854,
  2307536262557106634,
  567903192392134,
  2307553850448183754,
  567905339875654,
  2307536262558154954,
  576699284890054,
  2307553850449232074,
  576701432373574,
  6918096655888458184,
  2305848099925164484,
  6918114243779535304,
  2305848102072648004,
  6918096655889506504,
  2305856896017662404,
  6918114243780583624,
  2305856898165145924,
  6918096653741490634,
  568038517932484,
  6918105447687029194,
  568038518456644,
  6918096381077660104,
  2305848099891610054,
  6918113968968737224,
  2305848102039093574,
  6918096381078708424,
  2305856895984107974,
  6918113968969785544,
  2305856898131591494,
  6918096378930692554,
  568038484378054,
  6918105172876231114,
  568038484902214,
  4613397003475656904,
  2305865556886315204,
  4613397003476181064,
  2305865556886839364,
  6918659466255958474,
  568038551478724,
  4613388200941756744,
  2305856754352415044,
  4613388200941756744,
  2305856754352415044,
  6918659466255958474,
  568038551478724,
  4613388200941756744,
  2305856754352415044,
  2307562925646979144,
  2305874350765285444,
  2307554125260038344,
  2305856760726200644,
  2307554125258981834,
  567905373430084,
  2307536537368953034,
  576699318444484,
  2307545329167016264,
  2305856754285322564,
  2307562650836181064,
  2305874350731731014,
  2307553850449240264,
  2305856760692646214,
  2307553850448183754,
  567905339875654,
  2307536262558154954,
  576699284890054,
  2307545054356218184,
  2305856754251768134,
  6918114250221453514,
  585634997895364,
  6918114243779535304,
  2305848102072648004,
  6918096655889506504,
  2305856896017662404,
  6918096655888449994,
  568040664891844,
  6918096653741490634,
  568038517932484,
  6918113975410655434,
  585634964340934,
  6918113968968737224,
  2305848102039093574,
  6918096381078708424,
  2305856895984107974,
  6918096381077651914,
  568040631337414,
  6918096378930692554,
  568038484378054,
  4613405797421719624,
  2305874350832377924,
  4613405797421719624,
  2305874350832377924,
  6918677062735921354,
  585635031441604,
  4613388200941756744,
  2305856754352415044,
  4613397003643388104,
  4611708566100009154,
  4613397003643388104,
  4611708566100009154,
  4613405797588926664,
  4611717360045547714,
  6918659328951198154,
  1130988504883654,
  4613388207550366024,
  4611708559659131074,
  4613405795441443144,
  4611717355751628994,
  6918659328951722314,
  1139782450422214,
  4613388207551414344,
  4611708561806614594,
  4613405795442491464,
  4611717357899112514,
  2307554131868647624,
  4611708566032916674,
  2307562925814186184,
  4611717359978455234,
  2307554131868647624,
  4611708566032916674,
  2307545335742071114,
  1148441071493314,
  2307562923633148234,
  1157237163991234,
  2307554131868647624,
  4611708566032916674,
  2307545335743119434,
  1148443218976834,
  2307562923634196554,
  1157239311474754,
  2307554131869171784,
  4611708566033440834,
  6918096378997785034,
  1130988404244934,
  6918096381178298824,
  4611691109071749574,
  6918113969069375944,
  4611691111219233094,
  6918096378998309194,
  1139782349783494,
  6918096381179347144,
  4611699905164247494,
  6918113969070424264,
  4611699907311731014,
  6918096378997785034,
  1130988404244934,
  6918096378997785034,
  1130988404244934,
  6918105172943323594,
  1130988404769094,
  4613388207550366024,
  4611708559659131074,
  4613405795441443144,
  4611717355751628994,
  4613397003643388104,
  4611708566100009154,
  4613388207551414344,
  4611708561806614594,
  4613405795442491464,
  4611717357899112514,
  4613397003643912264,
  4611708566100533314,
  6918659328951198154,
  1130988504883654,
  6918668122896736714,
  1130988505407814,
  4613397003643388104,
  4611708566100009154,
  6918659466423697864,
  4611691107025445314,
  6918659468570657224,
  4611691109172404674,
  6918677056461734344,
  4611691111319888194,
  6918659468571705544,
  4611699905264902594,
  6918677056462782664,
  4611699907412386114,
  2307554131868647624,
  4611708566032916674,
  2307562925814186184,
  4611717359978455234,
  2307554131868647624,
  4611708566032916674,
  2307554131869171784,
  4611708566033440834,
  2307536262657753544,
  4611690971632804294,
  2307553850548830664,
  4611690973780287814,
  2307536262658801864,
  4611699767725302214,
  2307553850549878984,
  4611699769872785734,
  6918105454262616394,
  1148578510438594,
  6918123042153693514,
  1157374602936514,
  6918105454263664714,
  1148580657922114,
  6918123042154741834,
  1157376750420034,
  6918096378997785034,
  1130988404244934,
  6918096378998309194,
  1139782349783494,
  6918096378997785034,
  1130988404244934,
  6918105172943323594,
  1130988404769094,
  6918659468570657224,
  4611691109172404674,
  6918677056461734344,
  4611691111319888194,
  6918659468571705544,
  4611699905264902594,
  6918677056462782664,
  4611699907412386114,
  6918659466423697864,
  4611691107025445314,
  4613405795442491464,
  4611717357899112514,
  4613405797589450824,
  4611717360046071874,
  6918659328951198154,
  1130988504883654,
  4613405793294483784,
  4611717355751104834,
  4613388205404454984,
  4611699767861076034,
  2307562925814710344,
  4611717359978979394,
  2307562923633148234,
  1157237163991234,
  2307545335743119434,
  1148443218976834,
  2307562925814710344,
  4611717359978979394,
  2307545054423302474,
  1139644911362374,
  2307553850549878984,
  4611699769872785734,
  2307545054423302474,
  1139644911362374,
  2307545054423302474,
  1139644911362374,
  6918114250389192904,
  4611708703471861954,
  6918114250389192904,
  4611708703471861954,
  6918105454262616394,
  1148578510438594,
  6918114250389192904,
  4611708703471861954,
  6918096378997785034,
  1130988404244934,
  6918113969069375944,
  4611691111219233094,
  6918096381179347144,
  4611699905164247494,
  6918096378997785034,
  1130988404244934,
  4613405793294483784,
  4611717355751104834,
  4613388205404454984,
  4611699767861076034,
  4613405797589450824,
  4611717360046071874,
  6918659328951198154,
  1130988504883654,
  4613405795442491464,
  4611717357899112514,
  6918668266810638664,
  4611708697064530114,
  6918677062903660744,
  4611708703505408194,
  6918677058608693704,
  4611691111320412354,
  4613388063636988234,
  1139645045547334,
  6918659470718664904,
  4611708699210441154,
  2307562925814710344,
  4611717359978979394,
  2307562925814710344,
  4611717359978979394,
  2307562923634196554,
  1157239311474754,
  2307562925814710344,
  4611717359978979394,
  2307553850548830664,
  4611690973780287814,
  2307545054423302474,
  1139644911362374,
  2307536262658801864,
  4611699767725302214,
  2307545054423302474,
  1139644911362374,
  6918114250389192904,
  4611708703471861954,
  6918123042153693514,
  1157374602936514,
  6918114250389192904,
  4611708703471861954,
  6918105454263664714,
  1148580657922114,
  6918096378997785034,
  1130988404244934,
  6918096381178298824,
  4611691109071749574,
  6918096378997785034,
  1130988404244934,
  6918096378997785034,
  1130988404244934,
  6918677058608693704,
  4611691111320412354,
  6918677062903660744,
  4611708703505408194,
  6918659470718664904,
  4611708699210441154,
  4613388063636988234,
  1139645045547334,
  6918668266810638664,
  4611708697064530114,
  4613397553365655744,
  6918677475220529344,
  4613397553365655744,
  6918677475220529344,
  4613406347311194304,
  6918686269166067904,
  2307545610653548864,
  4613397409385193664,
  2307563198544625984,
  4613406205477691584,
  2307554544151969984,
  6918677475086344384,
  2307545610654597184,
  4613397411532677184,
  2307563198545674304,
  4613406207625175104,
  2307554544152494144,
  6918677475086868544,
  2307545610653532484,
  4613397409351639234,
  2307563198544609604,
  4613406205444137154,
  2307554544151953604,
  6918677475052789954,
  2307545610654580804,
  4613397411499122754,
  2307563198545657924,
  4613406207591620674,
  2307554544152477764,
  6918677475053314114,
  6918096928787153344,
  4613379956785054144,
  6918105866579493184,
  6918677606084411584,
  6918123454470570304,
  6918686402176909504,
  6918096928787677504,
  4613388750730592704,
  6918105866580541504,
  6918677608231895104,
  6918123454471618624,
  6918686404324393024,
  6918096928787136964,
  4613379956751499714,
  6918105866579476804,
  6918677606050857154,
  6918123454470553924,
  6918686402143355074,
  6918096928787661124,
  4613388750697038274,
  6918105866580525124,
  6918677608198340674,
  6918123454471602244,
  6918686404290838594,
  6918659878740566464,
  4613379956885692864]
def pertQf_cert_1 : List Nat := [6918668672686105024,
  4613379956886217024,
  4613397553365655744,
  6918677475220529344,
  4613406347311718464,
  6918686269166592064,
  4613406347311718464,
  6918686269166592064,
  6918677475220529344,
  4613397553365655744,
  4613406347311718464,
  6918686269166592064,
  2307563198544625984,
  4613406205477691584,
  2307545741618069824,
  6918668672552444224,
  2307563335951073344,
  6918686266885447744,
  2307545610654597184,
  4613397411532677184,
  2307563338098032704,
  6918686269032407104,
  2307563198544609604,
  4613406205444137154,
  2307545741618053444,
  6918668672518889794,
  2307563335951056964,
  6918686266851893314,
  2307545610654580804,
  4613397411499122754,
  2307563338098016324,
  6918686268998852674,
  6918096928787153344,
  4613379956785054144,
  6918123454470570304,
  6918686402176909504,
  6918105729174094144,
  4613397546824138944,
  6918114525267116224,
  4613397553265017024,
  6918105866580541504,
  6918677608231895104,
  6918096928787136964,
  4613379956751499714,
  6918123454470553924,
  6918686402143355074,
  6918105729174077764,
  4613397546790584514,
  6918114525267099844,
  4613397553231462594,
  6918105866580525124,
  6918677608198340674,
  4613388750831755584,
  6918668672686629184,
  4613388750831755584,
  6918668672686629184,
  6918659878740566464,
  4613379956885692864,
  4613406347311718464,
  6918686269166592064,
  54610548966056520,
  18027735526179270,
  54610553327608260,
  91202431163335110,
  54610548966056520,
  18027735526179270,
  54610551146562120,
  18036666877116870,
  54610548966580680,
  54047736452121030,
  54610551147610440,
  54065461748597190,
  18027739887190470,
  91202293757403720,
  18027739887198660,
  91202431162802760,
  18027735525646920,
  18027735525646920,
  18027739887190470,
  91202293757403720,
  18027735526171080,
  54047736451588680,
  18027739887714630,
  91211087702942280,
  54610553327608260,
  91202431163335110,
  54610548999602760,
  18027872931578310,
  54610549000126920,
  54047873857520070,
  54610551113024070,
  18599341986185670,
  54610551114072390,
  54628136857665990,
  54610548966056520,
  18027735526179270,
  54610548966064710,
  18590548040647110,
  54610553294062020,
  90639618648867270,
  54610548966588870,
  54610548966588870,
  54610553294586180,
  90648412594405830,
  54610548966056520,
  18027735526179270,
  54610548966056520,
  18027735526179270,
  54610548966064710,
  18590548040647110,
  54610553327608260,
  91202431163335110,
  54610548966588870,
  54610548966588870,
  54610553328132420,
  91211225108873670,
  54610548966056520,
  18027735526179270,
  54610548966056520,
  18027735526179270,
  54610548966064710,
  18590548040647110,
  54610551146578500,
  18599616796983750,
  54610551147626820,
  54628411668464070,
  54610551146562120,
  18036666877116870,
  54610551147610440,
  54065461748597190,
  18027739887198660,
  91202431162802760,
  18027739887198660,
  91202431162802760,
  18027739887722820,
  91211225108341320,
  18027739887190470,
  91202293757403720,
  18027739887714630,
  91211087702942280,
  54610548999619140,
  18590822851445190,
  54610549000143300,
  54610823777386950,
  54610548999602760,
  18027872931578310,
  54610549000126920,
  54047873857520070,
  54610551113024070,
  18599341986185670,
  54610551114072390,
  54628136857665990,
  54610551113015880,
  18036529471717830,
  54610551114064200,
  54065324343198150,
  54610548966064710,
  18590548040647110,
  54610548966588870,
  54610548966588870,
  54610548966056520,
  18027735526179270,
  54610548966580680,
  54047736452121030,
  54610548966064710,
  18590548040647110,
  54610548966064710,
  18590548040647110,
  54610548966588870,
  54610548966588870,
  54610548966056520,
  18027735526179270,
  54610548966580680,
  54047736452121030,
  54610548966064710,
  18590548040647110,
  54610548966056520,
  18027735526179270,
  54610548966588870,
  54610548966588870,
  54610548966056520,
  18027735526179270,
  54610551147610440,
  54065461748597190,
  54610548966056520,
  18027735526179270,
  18027739887190470,
  91202293757403720,
  18027737707217220,
  54628411667931720,
  18027737672606280,
  18036529471185480,
  18027739887714630,
  91211087702942280,
  18027735525646920,
  18027735525646920,
  54610553328132420,
  91211225108873670,
  54610549000143300,
  54610823777386950,
  54610548999602760,
  18027872931578310,
  54610548966588870,
  54610548966588870,
  54610553327600070,
  91202293757936070,
  54610551114072390,
  54628136857665990,
  54610551113015880,
  18036529471717830,
  54610548966056520,
  18027735526179270,
  54610553327600070,
  91202293757936070,
  54610548966064710,
  18590548040647110,
  54610551147626820,
  54628411668464070,
  54610551146562120,
  18036666877116870,
  54610548966056520,
  18027735526179270,
  54610553327600070,
  91202293757936070,
  54610548966064710,
  18590548040647110,
  54610553328132420,
  91211225108873670,
  54610553327600070,
  91202293757936070,
  54610548966056520,
  18027735526179270,
  54610548966064710,
  18590548040647110,
  54610553327608260,
  91202431163335110,
  54610548966588870,
  54610548966588870,
  54610551147626820,
  54628411668464070,
  54610548966580680,
  54047736452121030,
  54610551147610440,
  54065461748597190,
  18027739887198660,
  91202431162802760,
  18027739887198660,
  91202431162802760,
  18027735526179270,
  54610548966056520,
  18027739887722820,
  91211225108341320,
  18027735526171080,
  54047736451588680,
  18027739887714630,
  91211087702942280,
  54610548999619140,
  18590822851445190,
  54610548999602760,
  18027872931578310,
  54610548966588870,
  54610548966588870,
  54610553327608260,
  91202431163335110,
  54610551114072390,
  54628136857665990,
  54610551114064200,
  54065324343198150,
  54610548966064710,
  18590548040647110,
  54610551180124740,
  19162429311451590,
  54610548966056520,
  18027735526179270,
  54610551180116550,
  19162291906052550,
  54610548966588870,
  54610548966588870,
  54610548966064710,
  18590548040647110,
  54610548966064710,
  18590548040647110,
  54610553327608260,
  91202431163335110,
  54610548966056520,
  18027735526179270,
  54610553327600070,
  91202293757936070,
  54610548966588870,
  54610548966588870,
  54610548966064710,
  18590548040647110,
  54611103049843140,
  91765518555709890,
  54611103049843140,
  91765518555709890,
  54610965644444100,
  91202706041242050,
  54610961282892360,
  18028010404086210,
  54611103016288710,
  91765243744911810,
  54610828205490630,
  91202293825044930,
  54610961283416520,
  54048011330027970,
  54611103016812870,
  91774037690450370,
  54610828206014790,
  91211087770583490,
  54611103049843140,
  91765518555709890,
  54610965644444100,
  91202706041242050,
  54611103049843140,
  91765518555709890,
  54611100868805190,
  19725241893028290,
  54610826058007110,
  19162291973161410,
  54611103049843140,
  91765518555709890,
  54611100869853510,
  55754036764508610,
  54610826059055430,
  55191086844641730,
  54611103050367300,
  91774312501248450,
  54610961282892360,
  18028010404086210,
  54611103049843140,
  91765518555709890,
  54610965644444100,
  91202706041242050,
  54610961283416520,
  54048011330027970,
  54611103050367300,
  91774312501248450,
  54610965644968260,
  91211499986780610,
  54610961282892360,
  18028010404086210,
  54610961282892360,
  18028010404086210,
  54610823877493320,
  18027872998687170,
  54611100902359620,
  19725516703826370,
  54610963496960580,
  19162704189358530,
  54611103049843140,
  91765518555709890,
  54611100903407940,
  55754311575306690,
  54610963498008900,
  55191499060838850,
  54611103050367300,
  91774312501248450,
  54610961282892360,
  18028010404086210,
  54610823877493320,
  18027872998687170,
  54611103049843140,
  91765518555709890,
  54610965644444100,
  91202706041242050,
  54611103049843140,
  91765518555709890,
  54610828205490630,
  91202293825044930,
  54610828206014790,
  91211087770583490,
  18028010470646340,
  19153910243271240,
  18028014765089220,
  91202706040693320,
  18028010471170500,
  55173911169213000,
  18028014765613380,
  91211499986231880,
  54611103049843140,
  91765518555709890,
  54610826058007110,
  19162291973161410,
  54611103049843140,
  91765518555709890,
  54610826059055430,
  55191086844641730,
  54611103050367300,
  91774312501248450,
  54610823877493320,
  18027872998687170,
  54611103049843140,
  91765518555709890,
  54610823878017480,
  54047873924628930,
  54611103050367300,
  91774312501248450,
  54610823877493320,
  18027872998687170]
def pertQf_cert_2 : List Nat := [54610823877493320,
  18027872998687170,
  54611103016288710,
  91765243744911810,
  54610823878017480,
  54047873924628930,
  54611103016812870,
  91774037690450370,
  54611100902359620,
  19725516703826370,
  54611100903407940,
  55754311575306690,
  54610823877493320,
  18027872998687170,
  54610965644444100,
  91202706041242050,
  54611103049843140,
  91765518555709890,
  54610961282892360,
  18028010404086210,
  54611103016812870,
  91774037690450370,
  54610828206014790,
  91211087770583490,
  18028150024053060,
  55754311574757960,
  18028012618654020,
  55191499060290120,
  18028010403537480,
  18028010403537480,
  18027872998138440,
  18027872998138440,
  54611103050367300,
  91774312501248450,
  54610965644968260,
  91211499986780610,
  54611100868805190,
  19725241893028290,
  54610826058007110,
  19162291973161410,
  54611103050367300,
  91774312501248450,
  54610961282892360,
  18028010404086210,
  54611103050367300,
  91774312501248450,
  54610965644968260,
  91211499986780610,
  54610961282892360,
  18028010404086210,
  54610823877493320,
  18027872998687170,
  54611103049843140,
  91765518555709890,
  54610965644444100,
  91202706041242050,
  54610965577335240,
  90076806201508290,
  54610828171936200,
  90076668796109250,
  54611100902359620,
  19725516703826370,
  54610963496960580,
  19162704189358530,
  54611103050367300,
  91774312501248450,
  54611103049843140,
  91765518555709890,
  54610965644444100,
  91202706041242050,
  54610965644444100,
  91202706041242050,
  54610961283416520,
  54048011330027970,
  54610828206014790,
  91211087770583490,
  18028012617605700,
  19162704188809800,
  18028147843015110,
  55736448872882760,
  18028014765613380,
  91211499986231880,
  18027872998138440,
  18027872998138440,
  54611103050367300,
  91774312501248450,
  54610965644444100,
  91202706041242050,
  54610826058007110,
  19162291973161410,
  54611100869853510,
  55754036764508610,
  54611103050367300,
  91774312501248450,
  54610823877493320,
  18027872998687170,
  54610965644444100,
  91202706041242050,
  54611103050367300,
  91774312501248450,
  54610823877493320,
  18027872998687170,
  54610823877493320,
  18027872998687170,
  54611103049843140,
  91765518555709890,
  54610961282892360,
  18028010404086210,
  54610828205490630,
  91202293825044930,
  54611100869853510,
  55754036764508610,
  54611100902359620,
  19725516703826370,
  54610965644444100,
  91202706041242050,
  54610961283416520,
  54048011330027970,
  54610965644444100,
  91202706041242050,
  54628143298011720,
  18036533766684870,
  54645735551164740,
  127248818220859590,
  54628143298011720,
  18036533766684870,
  54636937277096520,
  18045465117622470,
  18054125984710980,
  126686005704811080,
  18036535912587720,
  90076535616987720,
  18045332072710470,
  91228679887938120,
  18045327710642760,
  18045327710642760,
  54636937243558470,
  18608140226691270,
  54645733370134980,
  126668417815314630,
  54628145479041480,
  90076673023967430,
  54628143298011720,
  18036533766684870,
  54636937243558470,
  18608140226691270,
  54636941605617990,
  91228679889518790,
  54636941605617990,
  91228679889518790,
  54636937243558470,
  18608140226691270,
  54628143298011720,
  18036533766684870,
  54636941605617990,
  91228679889518790,
  54636941605626180,
  91228817294917830,
  54628143298019910,
  18599346281152710,
  54645733370134980,
  126668417815314630,
  54628143331557960,
  18036671172083910,
  54628145445503430,
  90639348133036230,
  54645735551164740,
  127248818220859590,
  54628143298011720,
  18036533766684870,
  54628143298011720,
  18036533766684870,
  54628143298019910,
  18599346281152710,
  54636941605626180,
  91228817294917830,
  54636937277112900,
  18608415037489350,
  54636937277096520,
  18045465117622470,
  18054123803673030,
  126668143002935880,
  18045332072718660,
  91228817293337160,
  18054123803664840,
  126105330488468040,
  18045332072710470,
  91228679887938120,
  54636937243558470,
  18608140226691270,
  54628145479057860,
  90639622943834310,
  54636937243550280,
  18045327712223430,
  54628145479041480,
  90076673023967430,
  54636937243558470,
  18608140226691270,
  54636941605626180,
  91228817294917830,
  54636937243558470,
  18608140226691270,
  54636941605626180,
  91228817294917830,
  54636937243550280,
  18045327712223430,
  54636941605617990,
  91228679889518790,
  54628143298019910,
  18599346281152710,
  54628143365120580,
  19162433606418630,
  54628143298011720,
  18036533766684870,
  54628143365112390,
  19162296201019590,
  54628145445503430,
  90639348133036230,
  54628145445495240,
  90076535618568390,
  54636937243558470,
  18608140226691270,
  54628143298019910,
  18599346281152710,
  54628143298011720,
  18036533766684870,
  54628143298019910,
  18599346281152710,
  54628143331557960,
  18036671172083910,
  54636937277096520,
  18045465117622470,
  18045332005609800,
  90102917453603400,
  18054125951148360,
  126122918379545160,
  18036533765104200,
  18036533765104200,
  18045327710642760,
  18045327710642760,
  54628143298019910,
  18599346281152710,
  54628145479041480,
  90076673023967430,
  54645733370118600,
  126105467895447750,
  54628143298019910,
  18599346281152710,
  54636937243558470,
  18608140226691270,
  54636941605617990,
  91228679889518790,
  54645735551156550,
  127248680815460550,
  54628143298019910,
  18599346281152710,
  54636937243558470,
  18608140226691270,
  54636941605617990,
  91228679889518790,
  54636941605617990,
  91228679889518790,
  54645735551156550,
  127248680815460550,
  54628143331574340,
  18599621091950790,
  54636937277112900,
  18608415037489350,
  54628145445503430,
  90639348133036230,
  54645733336580550,
  126668143004516550,
  54636941605617990,
  91228679889518790,
  54628143298011720,
  18036533766684870,
  54628143298019910,
  18599346281152710,
  54636941605626180,
  91228817294917830,
  54645735551164740,
  127248818220859590,
  54628143298019910,
  18599346281152710,
  54628143331574340,
  18599621091950790,
  54636937277112900,
  18608415037489350,
  54628143298011720,
  18036533766684870,
  54628143331557960,
  18036671172083910,
  54636937277096520,
  18045465117622470,
  54628143298019910,
  18599346281152710,
  54628145479057860,
  90639622943834310,
  54645733370134980,
  126668417815314630,
  54628143298011720,
  18036533766684870,
  54628145479041480,
  90076673023967430,
  54645733370118600,
  126105467895447750,
  54628143298019910,
  18599346281152710,
  54628143298019910,
  18599346281152710,
  54636937243558470,
  18608140226691270,
  54636941605626180,
  91228817294917830,
  54645735551164740,
  127248818220859590,
  54636941605626180,
  91228817294917830,
  54628143298019910,
  18599346281152710,
  54636937243558470,
  18608140226691270,
  54636941605626180,
  91228817294917830,
  54628143298011720,
  18036533766684870,
  54636937243550280,
  18045327712223430,
  54636941605617990,
  91228679889518790,
  54628145445503430,
  90639348133036230,
  54645733336580550,
  126668143004516550,
  54636941605626180,
  91228817294917830,
  54628145445495240,
  90076535618568390,
  54645733336572360,
  126105330490048710,
  54636941605617990,
  91228679889518790,
  54628143298019910,
  18599346281152710,
  54636937243558470,
  18608140226691270,
  54628143298019910,
  18599346281152710,
  54637491327861060,
  91791904687292610,
  54646285273399620,
  127811905613234370,
  54646147868000580,
  127249093098766530,
  54628555614847560,
  18036808644591810,
  54646283092361670,
  127794042911359170,
  54646008281563590,
  127231092991492290,
  18036808642994760,
  18036808642994760,
  18054538301546820,
  127811905611637320,
  18054400896147780,
  127249093097169480,
  18036808642994760,
  18036808642994760,
  18045602588533320,
  18045602588533320,
  18045465183134280,
  18045465183134280,
  54637491294306630,
  91791629876494530,
  54637216483508550,
  91228679956627650,
  54646285273399620,
  127811905613234370,
  54628555614847560,
  18036808644591810,
  54646283125916100,
  127794317722157250,
  54646145720517060,
  127231505207689410,
  54637491327861060,
  91791904687292610,
  54637353922462020,
  91229092172824770,
  54646285273399620,
  127811905613234370,
  54628557762331080,
  90076810496475330,
  54628420356932040,
  90076673091076290,
  54637491327861060,
  91791904687292610,
  54637491327861060,
  91791904687292610,
  54637353922462020,
  91229092172824770]
def pertQf_cert_3 : List Nat := [54646285273399620,
  127811905613234370,
  54628555614847560,
  18036808644591810,
  54628418209448520,
  18036671239192770,
  54637491327861060,
  91791904687292610,
  54637353922462020,
  91229092172824770,
  54646285273399620,
  127811905613234370,
  54637353922462020,
  91229092172824770,
  54637353922462020,
  91229092172824770,
  54646008281563590,
  127231092991492290,
  18036671237595720,
  18036671237595720,
  18054536120508870,
  127794042909762120,
  18036810857587140,
  91202710334612040,
  18045606950609220,
  91229092171227720,
  18045465183134280,
  18045465183134280,
  54637349560386120,
  18045602590130370,
  54646285239845190,
  127811630802436290,
  54637216483508550,
  91228679956627650,
  54646285273399620,
  127811905613234370,
  54628418209448520,
  18036671239192770,
  54646283125916100,
  127794317722157250,
  54628557829439940,
  91202710336209090,
  54637353922462020,
  91229092172824770,
  54637491327861060,
  91791904687292610,
  54628418209448520,
  18036671239192770,
  54646283092361670,
  127794042911359170,
  54628420390486470,
  91202298120011970,
  54637353922462020,
  91229092172824770,
  54637491327861060,
  91791904687292610,
  54628418209448520,
  18036671239192770,
  54637349560386120,
  18045602590130370,
  54628418209448520,
  18036671239192770,
  54637353922462020,
  91229092172824770,
  54637491327861060,
  91791904687292610,
  54628695201284550,
  91765248039878850,
  54646283092361670,
  127794042911359170,
  54628420390486470,
  91202298120011970,
  54646008281563590,
  127231092991492290,
  18036808642994760,
  18036808642994760,
  18036808642994760,
  18036808642994760,
  18045602588533320,
  18045602588533320,
  18036671237595720,
  18036671237595720,
  18045465183134280,
  18045465183134280,
  54637491294306630,
  91791629876494530,
  54646285239845190,
  127811630802436290,
  54637216483508550,
  91228679956627650,
  54646010429047110,
  127248680882569410,
  54628695234838980,
  91765522850676930,
  54646283125916100,
  127794317722157250,
  54628557829439940,
  91202710336209090,
  54646145720517060,
  127231505207689410,
  54637491327861060,
  91791904687292610,
  54646285273399620,
  127811905613234370,
  54637353922462020,
  91229092172824770,
  54646147868000580,
  127249093098766530,
  54637491327861060,
  91791904687292610,
  54637491327861060,
  91791904687292610,
  54646285273399620,
  127811905613234370,
  54637353922462020,
  91229092172824770,
  54646147868000580,
  127249093098766530,
  54637491327861060,
  91791904687292610,
  54637353922462020,
  91229092172824770,
  54637353922462020,
  91229092172824770,
  54646147868000580,
  127249093098766530,
  54628555614847560,
  18036808644591810,
  54628420390486470,
  91202298120011970,
  54646008281563590,
  127231092991492290,
  18036671237595720,
  18036671237595720,
  18045606950609220,
  91229092171227720,
  18054400896147780,
  127249093097169480,
  18036808642994760,
  18036808642994760,
  18036671237595720,
  18036671237595720,
  18045465183134280,
  18045465183134280,
  54628555614847560,
  18036808644591810,
  54637216483508550,
  91228679956627650,
  54646010429047110,
  127248680882569410,
  54628695234838980,
  91765522850676930,
  54646283125916100,
  127794317722157250,
  54637353922462020,
  91229092172824770,
  54637491327861060,
  91791904687292610,
  54646285273399620,
  127811905613234370,
  54637353922462020,
  91229092172824770,
  54628693053801030,
  19725246187995330,
  54637486999339590,
  19734040133533890,
  54637353922462020,
  91229092172824770,
  54637491327861060,
  91791904687292610,
  54646285273399620,
  127811905613234370,
  54637353922462020,
  91229092172824770,
  54628555614847560,
  18036808644591810,
  54637349560386120,
  18045602590130370,
  54637353922462020,
  91229092172824770,
  516598910595123929796,
  73841068015982240196,
  516598910595123929796,
  73841068015982240196,
  516598910595123921606,
  73841067878576841156,
  516562881937691927106,
  221378991804446409156,
  516562881662881129026,
  221378991804412854726,
  516562881937691910726,
  221378991667007463876,
  516562881662881112646,
  221378991666973909446,
  516562881800252449476,
  73841068011688321476,
  516562881662847050436,
  73841068011688313286,
  221487034489883075136,
  221378983283198271936,
  221487034352477676096,
  221378983145792872896,
  221487034352376505026,
  73841059215696462276,
  221487034077565706946,
  73841059215662907846,
  221487034352376488646,
  73841059078257516996,
  221487034077565690566,
  73841059078223962566,
  516562899525583004226,
  221378991806593892676,
  516562899250772206146,
  221378991806560338246,
  516562899525582987846,
  221378991669154947396,
  516562899250772189766,
  221378991669121392966,
  516562899388143526596,
  73841068013835804996,
  516562899250738127556,
  73841068013835796806,
  221487052077774152256,
  221378983285345755456,
  221487051940368753216,
  221378983147940356416,
  221487051940267582146,
  73841059217843945796,
  221487051665456784066,
  73841059217810391366,
  221487051940267565766,
  73841059080405000516,
  221487051665456767686,
  73841059080371446086,
  369060987077412004416,
  221378983289639150016,
  369060987077411996226,
  221378983289639141826,
  516598910595123929796,
  73841068015982240196,
  369060986802467004996,
  221378983014694150596,
  369060986802467004996,
  221378983014694150596,
  516598910457718522566,
  73841067878576832966,
  369060986802467004996,
  221378983014694150596,
  516562881937792041666,
  73841068149227913666,
  516562881662881129026,
  221378991804412854726,
  516562881662880588486,
  73841067874316460486,
  516562881937691910726,
  221378991667007463876,
  516562881662847042246,
  73841067874282914246,
  221487034489883075136,
  221378983283198271936,
  221487034077565706946,
  73841059215662907846,
  221487034352377029186,
  221378983008353911236,
  221487034352376488646,
  73841059078257516996,
  221487034214938075716,
  221378983008253272516,
  516562899525683118786,
  73841068151375397186,
  516562899250772206146,
  221378991806560338246,
  516562899250771665606,
  73841067876463944006,
  516562899525582987846,
  221378991669154947396,
  516562899250738119366,
  73841067876430397766,
  221487052077774152256,
  221378983285345755456,
  221487051665456784066,
  73841059217810391366,
  221487051940268106306,
  221378983010501394756,
  221487051940267565766,
  73841059080405000516,
  221487051802829152836,
  221378983010400756036,
  369060987077412004416,
  221378983289639150016,
  369060987077412004416,
  221378983289639150016,
  516598910732663521986,
  73841068153521832386,
  369060986802467004996,
  221378983014694150596,
  369060995882092339776,
  368952935879316086976,
  369060995882092339776,
  368952935879316086976,
  369060995744686940736,
  368952935741910687936,
  516598910601564807876,
  73877096813000679876,
  369060995882058793536,
  368952935879282540736,
  369060995607247995456,
  368952935741843595456,
  516598910601564799686,
  73877096675595280836,
  369060995882058777156,
  368952935879248986306,
  369060995607247979076,
  368952935741810041026,
  516562881804546368196,
  73877096806559801796,
  516562881944132805186,
  368952944391975338436,
  516562881669322007106,
  368952944391941784006,
  516562881804546360006,
  73877096669154402756,
  516562881944132788806,
  368952944254536393156,
  516562881669321990726,
  368952944254502838726,
  516562881804546368196,
  73877096806559801796,
  516562881804546368196,
  73877096806559801796,
  516562881667140969156,
  73877096806559793606,
  221487052088508949056,
  368952935875022168256,
  221487051951103550016,
  368952935737616769216,
  221487052088508949056,
  368952935875022168256,
  221487052086327919296,
  73877088289673724096,
  221487051811517121216,
  73877088152234778816,
  221487052088508949056,
  368952935875022168256,
  221487052086327902916,
  73877088289640169666,
  221487051811517104836,
  73877088152201224386,
  221487052088508940866,
  368952935875022160066,
  369060995882058793536,
  368952935879282540736,
  369060995607247995456,
  368952935741843595456,
  369060995882092339776,
  368952935879316086976,
  369060995882058777156,
  368952935879248986306,
  369060995607247979076,
  368952935741810041026,
  369060995882092331586,
  368952935879316078786,
  516598910601564807876,
  73877096813000679876,
  516598910464159408836,
  73877096813000671686,
  369060995882092339776,
  368952935879316086976,
  369060995882058793536,
  368952935879282540736,
  369060995882092339776,
  368952935879316086976,
  369060995607214449216,
  368952935604438196416,
  516598910464159400646,
  73877096675595272646,
  516598919535129789126,
  73877096675663429826,
  516562881669322007106,
  368952944391941784006,
  516562881667140960966,
  73877096669154394566,
  516562881944132788806,
  368952944254536393156,
  516562881667140960966,
  73877096669154394566,
  221487034219231470276,
  73877088010467303876,
  221487034358817907266,
  368952935595882840516,
  221487034219231470276,
  73877088010467303876,
  221487034219231470276,
  73877088010467303876,
  516562899536418439746,
  368952944533709258946,
  516562899536418439746,
  368952944533709258946,
  516562899396832002756,
  73877096948293722306]
def pertQf_cert_4 : List Nat := [516562899536418439746,
  368952944533709258946,
  221487052088508949056,
  368952935875022168256,
  221487051811517121216,
  73877088152234778816,
  221487052088508949056,
  368952935875022168256,
  221487052086327902916,
  73877088289640169666,
  369060995607214449216,
  368952935604438196416,
  369060995882092339776,
  368952935879316086976,
  516598919535129789126,
  73877096675663429826,
  516598910464159400646,
  73877096675595272646,
  369060995882058793536,
  368952935879282540736,
  516598919672602305216,
  73877097087946727616,
  516598919672568758976,
  73877097087913181376,
  516598919397757960896,
  73877096950474236096,
  516598919672568742596,
  73877097087879626946,
  516598919397757944516,
  73877096950440681666,
  516562881944132805186,
  368952944391975338436,
  516562881669322007106,
  368952944391941784006,
  516562881944132788806,
  368952944254536393156,
  516562881669321990726,
  368952944254502838726,
  221487034219231470276,
  73877088010467303876,
  221487034219231462086,
  73877087873061904836,
  221487034219231470276,
  73877088010467303876,
  221487034081826071236,
  73877088010467295686,
  516562899673823846976,
  368952944671114666176,
  516562899536418447936,
  368952944533709267136,
  516562899673823846976,
  368952944671114666176,
  516562899673823838786,
  368952944671114657986,
  221487052086327919296,
  73877088289673724096,
  221487051811517121216,
  73877088152234778816,
  221487052086327902916,
  73877088289640169666,
  221487051811517104836,
  73877088152201224386,
  516598919672568758976,
  73877097087913181376,
  516598919397757960896,
  73877096950474236096,
  516598919672568742596,
  73877097087879626946,
  516598919397757944516,
  73877096950440681666,
  516598919672602305216,
  73877097087946727616,
  369060986946348409026,
  221451040608831668676,
  516598919537346478146,
  368988973332875182146,
  369060986808909455556,
  221451040608731029956,
  369060995605069586496,
  221451040608799711296,
  516598919537279369286,
  368988973057997291586,
  516562881667142533446,
  221451049256683323846,
  516562881669323039046,
  368988973049374319046,
  516562881667142533446,
  221451049256683323846,
  516562881667142533446,
  221451049256683323846,
  221487034219233042756,
  221451040597996233156,
  221487034084008157506,
  368988964390720766406,
  221487034358818939206,
  368988964253315375556,
  221487034219233042756,
  221451040597996233156,
  516562899536420536386,
  368988973330728222786,
  516562899396834639936,
  221451049538003689536,
  516562899671645421636,
  221451049675409080386,
  516562899536420536386,
  368988973330728222786,
  221487052088511045696,
  368988964672041132096,
  221487052088511045696,
  368988964672041132096,
  221487052086330540096,
  221451040879350136896,
  221487052088511045696,
  368988964672041132096,
  369060995605069586496,
  221451040608799711296,
  516598919537279369286,
  368988973057997291586,
  516598919537346478146,
  368988973332875182146,
  369060986808909455556,
  221451040608731029956,
  369060986946348409026,
  221451040608831668676,
  369061031064316944576,
  516598946063028854976,
  369061031064316944576,
  516598946063028854976,
  369061030926911545536,
  516598945925623455936,
  516562916991064891716,
  369061030780784107716,
  516562926059921883456,
  516598954848353009856,
  516562925785111085376,
  516598954710914064576,
  516562916991064883526,
  369061030643378708676,
  516562926059921867076,
  516598954848319455426,
  516562925785111068996,
  516598954710880510146,
  221487069680661446976,
  369061022259603062976,
  221487069405850648896,
  369061022122164117696,
  221487078474640531776,
  516598946052294058176,
  221487069680661430596,
  369061022259569508546,
  221487069405850632516,
  369061022122130563266,
  221487078474640523586,
  516598946052294049986,
  516562916991065940036,
  369061030782931591236,
  516562926059922931776,
  516598954850500493376,
  516562925785112133696,
  516598954713061548096,
  516562916991065931846,
  369061030645526192196,
  516562926059922915396,
  516598954850466938946,
  516562925785112117316,
  516598954713027993666,
  221487069680662495296,
  369061022261750546496,
  221487069405851697216,
  369061022124311601216,
  221487078474641580096,
  516598946054441541696,
  221487069680662478916,
  369061022261716992066,
  221487069405851680836,
  369061022124278046786,
  221487078474641571906,
  516598946054441533506,
  516598945788083855556,
  369061030789371945156,
  516598945650678456516,
  369061030789371936966,
  369061031064316944576,
  516598946063028854976,
  369061031064316944576,
  516598946063028854976,
  369061031064316944576,
  516598946063028854976,
  516598945925623447746,
  369061030926911537346,
  369061031064316944576,
  516598946063028854976,
  516562925785111085376,
  516598954710914064576,
  516562916853659484486,
  369061030643378700486,
  516562926059921867076,
  516598954848319455426,
  516562916991165530436,
  369061030918223061186,
  516562917128604483906,
  369061030918323699906,
  221487078199695532356,
  516598945777349058756,
  221487078474606985536,
  516598946052260511936,
  221487069405850648896,
  369061022122164117696,
  221487078474640531776,
  516598946052294058176,
  221487069680661430596,
  369061022259569508546,
  516562925785112133696,
  516598954713061548096,
  516562916853660532806,
  369061030645526184006,
  516562926059922915396,
  516598954850466938946,
  516562916991166578756,
  369061030920370544706,
  516562917128605532226,
  369061030920471183426,
  221487078199696580676,
  516598945779496542276,
  221487078474608033856,
  516598946054407995456,
  221487069405851697216,
  369061022124311601216,
  221487078474641580096,
  516598946054441541696,
  221487069680662478916,
  369061022261716992066,
  369061030789371945156,
  516598945788083855556,
  369061030789371945156,
  516598945788083855556,
  516598945650678448326,
  369061030651966537926,
  369061031064316944576,
  516598946063028854976,
  6918659466255958474,
  568038551478724,
  2307554131700916424,
  2305865556819222724,
  2307562925646454984,
  2305874350764761284,
  2307553856890118344,
  2305865556785668294,
  2307562650835656904,
  2305874350731206854,
  6918096655888458184,
  2305848099925164484,
  6918114243779535304,
  2305848102072648004,
  6918096381077660104,
  2305848099891610054,
  6918113968968737224,
  2305848102039093574,
  4613397003475656904,
  2305865556886315204,
  6918096655889506504,
  2305856896017662404,
  6918114243780583624,
  2305856898165145924,
  6918096381078708424,
  2305856895984107974,
  6918113968969785544,
  2305856898131591494,
  4613397003476181064,
  2305865556886839364,
  6918659466255958474,
  568038551478724,
  2307536537367904714,
  567903225946564,
  2307554125258981834,
  567905373430084,
  2307536262557106634,
  567903192392134,
  2307553850448183754,
  567905339875654,
  6918659466256482634,
  576832497017284,
  2307536537368953034,
  576699318444484,
  2307554125260030154,
  576701465928004,
  2307536262558154954,
  576699284890054,
  2307553850449232074,
  576701432373574,
  6918096653741490634,
  568038517932484,
  6918105447687029194,
  568038518456644,
  6918096378930692554,
  568038484378054,
  6918105172876231114,
  568038484902214,
  6918659466255958474,
  568038551478724,
  4613388200941756744,
  2305856754352415044,
  6918114250221453514,
  585634997895364,
  2307562925646979144,
  2305874350765285444,
  6918113975410655434,
  585634964340934,
  2307562650836181064,
  2305874350731731014,
  4613405797421719624,
  2305874350832377924,
  6918114243779535304,
  2305848102072648004,
  6918113968968737224,
  2305848102039093574,
  4613388200941756744,
  2305856754352415044,
  6918096655889506504,
  2305856896017662404,
  2307554125260038344,
  2305856760726200644,
  6918096381078708424,
  2305856895984107974,
  2307553850449240264,
  2305856760692646214,
  4613405797421719624,
  2305874350832377924,
  6918659466255958474,
  568038551478724,
  6918096655888449994,
  568040664891844,
  2307554125258981834,
  567905373430084,
  6918096381077651914,
  568040631337414,
  2307553850448183754,
  567905339875654,
  6918677062735921354,
  585635031441604,
  2307536537368953034,
  576699318444484,
  2307536262558154954,
  576699284890054,
  4613388200941756744,
  2305856754352415044,
  6918096653741490634,
  568038517932484,
  2307545329167016264,
  2305856754285322564,
  6918096378930692554,
  568038484378054,
  2307545054356218184,
  2305856754251768134,
  4613388200941756744,
  2305856754352415044,
  4613397003643388104,
  4611708566100009154,
  2307554131868647624,
  4611708566032916674,
  2307562925814186184,
  4611717359978455234,
  4613397003643388104,
  4611708566100009154,
  4613405797588926664,
  4611717360045547714,
  2307554131868647624,
  4611708566032916674,
  6918096378997785034,
  1130988404244934,
  4613388207550366024,
  4611708559659131074,
  4613405795441443144,
  4611717355751628994,
  6918096381178298824,
  4611691109071749574,
  6918113969069375944,
  4611691111219233094,
  4613397003643388104,
  4611708566100009154,
  6918096378998309194,
  1139782349783494,
  4613388207551414344,
  4611708561806614594,
  4613405795442491464,
  4611717357899112514,
  6918096381179347144,
  4611699905164247494,
  6918113969070424264,
  4611699907311731014,
  4613397003643912264,
  4611708566100533314,
  6918659328951198154,
  1130988504883654,
  2307545335742071114,
  1148441071493314,
  2307562923633148234,
  1157237163991234,
  4613388207550366024,
  4611708559659131074]
def pertQf_cert_5 : List Nat := [4613405795441443144,
  4611717355751628994,
  2307554131868647624,
  4611708566032916674,
  6918659328951722314,
  1139782450422214,
  2307545335743119434,
  1148443218976834,
  2307562923634196554,
  1157239311474754,
  4613388207551414344,
  4611708561806614594,
  4613405795442491464,
  4611717357899112514,
  2307554131869171784,
  4611708566033440834,
  6918096378997785034,
  1130988404244934,
  6918659328951198154,
  1130988504883654,
  6918668122896736714,
  1130988505407814,
  6918096378997785034,
  1130988404244934,
  6918105172943323594,
  1130988404769094,
  4613397003643388104,
  4611708566100009154,
  6918659466423697864,
  4611691107025445314,
  2307554131868647624,
  4611708566032916674,
  2307562925814186184,
  4611717359978455234,
  6918096378997785034,
  1130988404244934,
  6918659468570657224,
  4611691109172404674,
  6918677056461734344,
  4611691111319888194,
  2307536262657753544,
  4611690971632804294,
  2307553850548830664,
  4611690973780287814,
  6918096378998309194,
  1139782349783494,
  6918659468571705544,
  4611699905264902594,
  6918677056462782664,
  4611699907412386114,
  2307536262658801864,
  4611699767725302214,
  2307553850549878984,
  4611699769872785734,
  6918105454262616394,
  1148578510438594,
  6918123042153693514,
  1157374602936514,
  6918659468570657224,
  4611691109172404674,
  6918677056461734344,
  4611691111319888194,
  2307554131868647624,
  4611708566032916674,
  6918105454263664714,
  1148580657922114,
  6918123042154741834,
  1157376750420034,
  6918659468571705544,
  4611699905264902594,
  6918677056462782664,
  4611699907412386114,
  2307554131869171784,
  4611708566033440834,
  6918096378997785034,
  1130988404244934,
  6918105172943323594,
  1130988404769094,
  6918659466423697864,
  4611691107025445314,
  4613405795442491464,
  4611717357899112514,
  6918114250389192904,
  4611708703471861954,
  2307562925814710344,
  4611717359978979394,
  4613405797589450824,
  4611717360046071874,
  6918114250389192904,
  4611708703471861954,
  6918096378997785034,
  1130988404244934,
  4613405793294483784,
  4611717355751104834,
  6918113969069375944,
  4611691111219233094,
  2307545054423302474,
  1139644911362374,
  4613388205404454984,
  4611699767861076034,
  6918096381179347144,
  4611699905164247494,
  2307553850549878984,
  4611699769872785734,
  4613405797589450824,
  4611717360046071874,
  6918659328951198154,
  1130988504883654,
  6918105454262616394,
  1148578510438594,
  2307562923633148234,
  1157237163991234,
  4613405793294483784,
  4611717355751104834,
  6918114250389192904,
  4611708703471861954,
  2307545335743119434,
  1148443218976834,
  4613388205404454984,
  4611699767861076034,
  2307562925814710344,
  4611717359978979394,
  2307545054423302474,
  1139644911362374,
  6918659328951198154,
  1130988504883654,
  6918096378997785034,
  1130988404244934,
  2307545054423302474,
  1139644911362374,
  4613405795442491464,
  4611717357899112514,
  6918668266810638664,
  4611708697064530114,
  6918114250389192904,
  4611708703471861954,
  2307562925814710344,
  4611717359978979394,
  6918677062903660744,
  4611708703505408194,
  2307562925814710344,
  4611717359978979394,
  6918096378997785034,
  1130988404244934,
  6918677058608693704,
  4611691111320412354,
  6918096381178298824,
  4611691109071749574,
  2307553850548830664,
  4611690973780287814,
  6918677062903660744,
  4611708703505408194,
  2307545054423302474,
  1139644911362374,
  6918659470718664904,
  4611708699210441154,
  2307536262658801864,
  4611699767725302214,
  6918123042153693514,
  1157374602936514,
  6918677058608693704,
  4611691111320412354,
  6918114250389192904,
  4611708703471861954,
  4613388063636988234,
  1139645045547334,
  6918105454263664714,
  1148580657922114,
  2307562923634196554,
  1157239311474754,
  6918659470718664904,
  4611708699210441154,
  2307562925814710344,
  4611717359978979394,
  6918096378997785034,
  1130988404244934,
  4613388063636988234,
  1139645045547334,
  6918096378997785034,
  1130988404244934,
  2307545054423302474,
  1139644911362374,
  6918668266810638664,
  4611708697064530114,
  4613397553365655744,
  6918677475220529344,
  4613397553365655744,
  6918677475220529344,
  4613406347311194304,
  6918686269166067904,
  6918096928787153344,
  4613379956785054144,
  6918105866579493184,
  6918677606084411584,
  6918123454470570304,
  6918686402176909504,
  2307545610653548864,
  4613397409385193664,
  2307563198544625984,
  4613406205477691584,
  2307554544151969984,
  6918677475086344384,
  6918096928787677504,
  4613388750730592704,
  6918105866580541504,
  6918677608231895104,
  6918123454471618624,
  6918686404324393024,
  2307545610654597184,
  4613397411532677184,
  2307563198545674304,
  4613406207625175104,
  2307554544152494144,
  6918677475086868544,
  6918096928787136964,
  4613379956751499714,
  6918105866579476804,
  6918677606050857154,
  6918123454470553924,
  6918686402143355074,
  2307545610653532484,
  4613397409351639234,
  2307563198544609604,
  4613406205444137154,
  2307554544151953604,
  6918677475052789954,
  6918096928787661124,
  4613388750697038274,
  6918105866580525124,
  6918677608198340674,
  6918123454471602244,
  6918686404290838594,
  2307545610654580804,
  4613397411499122754,
  2307563198545657924,
  4613406207591620674,
  2307554544152477764,
  6918677475053314114,
  6918659878740566464,
  4613379956885692864,
  6918668672686105024,
  4613379956886217024,
  4613397553365655744,
  6918677475220529344,
  4613406347311718464,
  6918686269166592064,
  4613406347311718464,
  6918686269166592064,
  6918677475220529344,
  4613397553365655744,
  4613406347311718464,
  6918686269166592064,
  6918096928787153344,
  4613379956785054144,
  6918123454470570304,
  6918686402176909504,
  6918105729174094144,
  4613397546824138944,
  2307563198544625984,
  4613406205477691584,
  6918114525267116224,
  4613397553265017024,
  2307545741618069824,
  6918668672552444224,
  6918105866580541504,
  6918677608231895104,
  2307563335951073344,
  6918686266885447744,
  2307545610654597184,
  4613397411532677184,
  2307563338098032704,
  6918686269032407104,
  6918096928787136964,
  4613379956751499714,
  6918123454470553924,
  6918686402143355074,
  6918105729174077764,
  4613397546790584514,
  2307563198544609604,
  4613406205444137154,
  6918114525267099844,
  4613397553231462594,
  2307545741618053444,
  6918668672518889794,
  6918105866580525124,
  6918677608198340674,
  2307563335951056964,
  6918686266851893314,
  2307545610654580804,
  4613397411499122754,
  2307563338098016324,
  6918686268998852674,
  4613388750831755584,
  6918668672686629184,
  4613388750831755584,
  6918668672686629184,
  6918659878740566464,
  4613379956885692864,
  4613406347311718464,
  6918686269166592064,
  54610548966056520,
  18027735526179270,
  18027739887190470,
  91202293757403720,
  54610553327608260,
  91202431163335110,
  54610553327608260,
  91202431163335110,
  18027739887198660,
  91202431162802760,
  54610548966064710,
  18590548040647110,
  54610551113024070,
  18599341986185670,
  54610548966064710,
  18590548040647110,
  54610553294062020,
  90639618648867270,
  54610553327608260,
  91202431163335110,
  54610548966588870,
  54610548966588870,
  54610551114072390,
  54628136857665990,
  54610548966588870,
  54610548966588870,
  54610553294586180,
  90648412594405830,
  54610553328132420,
  91211225108873670,
  54610548966056520,
  18027735526179270,
  18027735525646920,
  18027735525646920,
  54610551146562120,
  18036666877116870,
  54610548999602760,
  18027872931578310,
  18027739887190470,
  91202293757403720,
  54610548966580680,
  54047736452121030,
  18027735526171080,
  54047736451588680,
  54610551147610440,
  54065461748597190,
  54610549000126920,
  54047873857520070,
  18027739887714630,
  91211087702942280,
  54610548966056520,
  18027735526179270,
  54610548966056520,
  18027735526179270,
  54610548966056520,
  18027735526179270,
  54610548966056520,
  18027735526179270,
  54610548966056520,
  18027735526179270,
  54610548966064710,
  18590548040647110,
  18027739887198660,
  91202431162802760,
  54610548966064710,
  18590548040647110,
  54610551113024070,
  18599341986185670,
  54610548966064710,
  18590548040647110,
  54610551146578500,
  18599616796983750,
  54610548999619140,
  18590822851445190,
  18027739887198660,
  91202431162802760,
  54610548966588870,
  54610548966588870,
  54610551114072390,
  54628136857665990,
  54610548966588870,
  54610548966588870,
  54610551147626820,
  54628411668464070,
  54610549000143300,
  54610823777386950,
  18027739887722820,
  91211225108341320,
  54610548966056520,
  18027735526179270,
  54610551113015880,
  18036529471717830,
  54610548966056520,
  18027735526179270,
  54610551146562120,
  18036666877116870,
  54610548999602760,
  18027872931578310,
  18027739887190470,
  91202293757403720]
def pertQf_cert_6 : List Nat := [54610548966580680,
  54047736452121030,
  54610551114064200,
  54065324343198150,
  54610548966580680,
  54047736452121030,
  54610551147610440,
  54065461748597190,
  54610549000126920,
  54047873857520070,
  18027739887714630,
  91211087702942280,
  54610548966064710,
  18590548040647110,
  54610548966064710,
  18590548040647110,
  54610548966056520,
  18027735526179270,
  54610553327600070,
  91202293757936070,
  18027739887190470,
  91202293757403720,
  54610553327600070,
  91202293757936070,
  54610553328132420,
  91211225108873670,
  54610553327600070,
  91202293757936070,
  54610548966064710,
  18590548040647110,
  54610548966064710,
  18590548040647110,
  54610548966588870,
  54610548966588870,
  54610551114072390,
  54628136857665990,
  18027737707217220,
  54628411667931720,
  54610551147626820,
  54628411668464070,
  54610549000143300,
  54610823777386950,
  54610553328132420,
  91211225108873670,
  54610548966056520,
  18027735526179270,
  54610551113015880,
  18036529471717830,
  18027737672606280,
  18036529471185480,
  54610551146562120,
  18036666877116870,
  54610548999602760,
  18027872931578310,
  54610553327600070,
  91202293757936070,
  54610551147610440,
  54065461748597190,
  18027739887714630,
  91211087702942280,
  54610548966056520,
  18027735526179270,
  54610548966056520,
  18027735526179270,
  18027735525646920,
  18027735525646920,
  54610548966056520,
  18027735526179270,
  54610548966588870,
  54610548966588870,
  54610548966056520,
  18027735526179270,
  54610548966064710,
  18590548040647110,
  54610553327608260,
  91202431163335110,
  18027739887198660,
  91202431162802760,
  54610553327608260,
  91202431163335110,
  18027739887198660,
  91202431162802760,
  54610548966064710,
  18590548040647110,
  54610548966064710,
  18590548040647110,
  54610551180124740,
  19162429311451590,
  54610548999619140,
  18590822851445190,
  54610553327608260,
  91202431163335110,
  54610548966588870,
  54610548966588870,
  54610551114072390,
  54628136857665990,
  18027735526179270,
  54610548966056520,
  54610551147626820,
  54628411668464070,
  18027739887722820,
  91211225108341320,
  54610548966056520,
  18027735526179270,
  54610548966056520,
  18027735526179270,
  54610551180116550,
  19162291906052550,
  54610548999602760,
  18027872931578310,
  54610553327600070,
  91202293757936070,
  54610548966580680,
  54047736452121030,
  54610551114064200,
  54065324343198150,
  18027735526171080,
  54047736451588680,
  54610551147610440,
  54065461748597190,
  18027739887714630,
  91211087702942280,
  54610548966588870,
  54610548966588870,
  54610548966588870,
  54610548966588870,
  54610548966064710,
  18590548040647110,
  54610548966588870,
  54610548966588870,
  54610548966064710,
  18590548040647110,
  54611103049843140,
  91765518555709890,
  54611103049843140,
  91765518555709890,
  54611103049843140,
  91765518555709890,
  54610965644444100,
  91202706041242050,
  54610965644444100,
  91202706041242050,
  54611103049843140,
  91765518555709890,
  54610961282892360,
  18028010404086210,
  54611103049843140,
  91765518555709890,
  54611100902359620,
  19725516703826370,
  54610965644444100,
  91202706041242050,
  54610963496960580,
  19162704189358530,
  54611103049843140,
  91765518555709890,
  54610961283416520,
  54048011330027970,
  54611103050367300,
  91774312501248450,
  54611100903407940,
  55754311575306690,
  54610965644968260,
  91211499986780610,
  54610963498008900,
  55191499060838850,
  54611103050367300,
  91774312501248450,
  54610961282892360,
  18028010404086210,
  54611103016288710,
  91765243744911810,
  54611100868805190,
  19725241893028290,
  54610828205490630,
  91202293825044930,
  54610826058007110,
  19162291973161410,
  54611103049843140,
  91765518555709890,
  54610961283416520,
  54048011330027970,
  54611103016812870,
  91774037690450370,
  54611100869853510,
  55754036764508610,
  54610828206014790,
  91211087770583490,
  54610826059055430,
  55191086844641730,
  54611103050367300,
  91774312501248450,
  54610961282892360,
  18028010404086210,
  54610961282892360,
  18028010404086210,
  54610961282892360,
  18028010404086210,
  54610823877493320,
  18027872998687170,
  54610823877493320,
  18027872998687170,
  54611103049843140,
  91765518555709890,
  54610965644444100,
  91202706041242050,
  54611103049843140,
  91765518555709890,
  54611103049843140,
  91765518555709890,
  54610823877493320,
  18027872998687170,
  54611103049843140,
  91765518555709890,
  54611100902359620,
  19725516703826370,
  18028010470646340,
  19153910243271240,
  18028014765089220,
  91202706040693320,
  54610823878017480,
  54047873924628930,
  54611103050367300,
  91774312501248450,
  54611100903407940,
  55754311575306690,
  18028010471170500,
  55173911169213000,
  18028014765613380,
  91211499986231880,
  54610823877493320,
  18027872998687170,
  54611103016288710,
  91765243744911810,
  54610828205490630,
  91202293825044930,
  54610826058007110,
  19162291973161410,
  54611103049843140,
  91765518555709890,
  54610823878017480,
  54047873924628930,
  54611103016812870,
  91774037690450370,
  54610828206014790,
  91211087770583490,
  54610826059055430,
  55191086844641730,
  54611103050367300,
  91774312501248450,
  54610823877493320,
  18027872998687170,
  54610823877493320,
  18027872998687170,
  54610965644444100,
  91202706041242050,
  54611103049843140,
  91765518555709890,
  54611103049843140,
  91765518555709890,
  54611103050367300,
  91774312501248450,
  54610965644444100,
  91202706041242050,
  54610965644968260,
  91211499986780610,
  54610961282892360,
  18028010404086210,
  54611100902359620,
  19725516703826370,
  54610963496960580,
  19162704189358530,
  54611103050367300,
  91774312501248450,
  18028150024053060,
  55754311574757960,
  54610965644968260,
  91211499986780610,
  18028012618654020,
  55191499060290120,
  54611103050367300,
  91774312501248450,
  54610961282892360,
  18028010404086210,
  54610965577335240,
  90076806201508290,
  54611100868805190,
  19725241893028290,
  54610828171936200,
  90076668796109250,
  54610826058007110,
  19162291973161410,
  54611103016812870,
  91774037690450370,
  54610828206014790,
  91211087770583490,
  54611103050367300,
  91774312501248450,
  54610961282892360,
  18028010404086210,
  18028010403537480,
  18028010403537480,
  54610823877493320,
  18027872998687170,
  18027872998138440,
  18027872998138440,
  54611103049843140,
  91765518555709890,
  54610965644444100,
  91202706041242050,
  54611103049843140,
  91765518555709890,
  54611103050367300,
  91774312501248450,
  54610965644444100,
  91202706041242050,
  54610965644444100,
  91202706041242050,
  54610823877493320,
  18027872998687170,
  54611100902359620,
  19725516703826370,
  54610965644444100,
  91202706041242050,
  18028012617605700,
  19162704188809800,
  54610965644444100,
  91202706041242050,
  54611103050367300,
  91774312501248450,
  18028147843015110,
  55736448872882760,
  18028014765613380,
  91211499986231880,
  54610961282892360,
  18028010404086210,
  54610828205490630,
  91202293825044930,
  54610826058007110,
  19162291973161410,
  54610961283416520,
  54048011330027970,
  54611100869853510,
  55754036764508610,
  54611100869853510,
  55754036764508610,
  54610828206014790,
  91211087770583490,
  54611103050367300,
  91774312501248450,
  54610823877493320,
  18027872998687170,
  54610961283416520,
  54048011330027970,
  54610823877493320,
  18027872998687170,
  18027872998138440,
  18027872998138440,
  54610965644444100,
  91202706041242050,
  54628143298011720,
  18036533766684870,
  54636941605617990,
  91228679889518790,
  54636941605626180,
  91228817294917830,
  54645735551164740,
  127248818220859590,
  54636941605617990,
  91228679889518790,
  54628143298019910,
  18599346281152710,
  54636937243558470,
  18608140226691270,
  54645733370134980,
  126668417815314630,
  54636937243558470,
  18608140226691270,
  54628145445503430,
  90639348133036230,
  18054125984710980,
  126686005704811080,
  54645733370134980,
  126668417815314630,
  54645735551164740,
  127248818220859590,
  54628143298011720,
  18036533766684870,
  54628143298011720,
  18036533766684870,
  54628143331557960,
  18036671172083910,
  54636937277096520,
  18045465117622470,
  54636941605617990,
  91228679889518790,
  18036535912587720,
  90076535616987720,
  54628145479041480,
  90076673023967430]
def pertQf_cert_7 : List Nat := [18045332072710470,
  91228679887938120,
  54628143298011720,
  18036533766684870,
  54628143298011720,
  18036533766684870,
  18045327710642760,
  18045327710642760,
  54636937243558470,
  18608140226691270,
  54628143298011720,
  18036533766684870,
  54628143298019910,
  18599346281152710,
  54636941605626180,
  91228817294917830,
  54636941605626180,
  91228817294917830,
  54628143298019910,
  18599346281152710,
  54636937243558470,
  18608140226691270,
  54628143365120580,
  19162433606418630,
  54636937277112900,
  18608415037489350,
  54636941605626180,
  91228817294917830,
  54636937243558470,
  18608140226691270,
  54628145445503430,
  90639348133036230,
  18054123803673030,
  126668143002935880,
  54628145479057860,
  90639622943834310,
  18045332072718660,
  91228817293337160,
  54628143298011720,
  18036533766684870,
  54636937243550280,
  18045327712223430,
  54628143365112390,
  19162296201019590,
  54636937277096520,
  18045465117622470,
  54636941605617990,
  91228679889518790,
  54636937243550280,
  18045327712223430,
  54628145445495240,
  90076535618568390,
  18054123803664840,
  126105330488468040,
  54628145479041480,
  90076673023967430,
  18045332072710470,
  91228679887938120,
  54636937243558470,
  18608140226691270,
  54636937243558470,
  18608140226691270,
  54628143298019910,
  18599346281152710,
  54628143298011720,
  18036533766684870,
  54636941605617990,
  91228679889518790,
  54645735551156550,
  127248680815460550,
  54636941605617990,
  91228679889518790,
  54645735551156550,
  127248680815460550,
  54628143298019910,
  18599346281152710,
  54628143298019910,
  18599346281152710,
  54636937243558470,
  18608140226691270,
  54628143331574340,
  18599621091950790,
  54636937277112900,
  18608415037489350,
  54628143298019910,
  18599346281152710,
  54628145445503430,
  90639348133036230,
  54645733336580550,
  126668143004516550,
  54628143331557960,
  18036671172083910,
  54636937277096520,
  18045465117622470,
  54636941605617990,
  91228679889518790,
  18045332005609800,
  90102917453603400,
  18054125951148360,
  126122918379545160,
  54628145479041480,
  90076673023967430,
  54645733370118600,
  126105467895447750,
  54636941605617990,
  91228679889518790,
  18036533765104200,
  18036533765104200,
  18045327710642760,
  18045327710642760,
  54628143298019910,
  18599346281152710,
  54636937243558470,
  18608140226691270,
  54628143298011720,
  18036533766684870,
  54628143298019910,
  18599346281152710,
  54636941605626180,
  91228817294917830,
  54645735551164740,
  127248818220859590,
  54636941605626180,
  91228817294917830,
  54645735551164740,
  127248818220859590,
  54636941605626180,
  91228817294917830,
  54628143298019910,
  18599346281152710,
  54628143298019910,
  18599346281152710,
  54636937243558470,
  18608140226691270,
  54628143331574340,
  18599621091950790,
  54636937277112900,
  18608415037489350,
  54636941605626180,
  91228817294917830,
  54628143298019910,
  18599346281152710,
  54628145445503430,
  90639348133036230,
  54645733336580550,
  126668143004516550,
  54628145479057860,
  90639622943834310,
  54645733370134980,
  126668417815314630,
  54636941605626180,
  91228817294917830,
  54628143298011720,
  18036533766684870,
  54628143298011720,
  18036533766684870,
  54636937243550280,
  18045327712223430,
  54628143331557960,
  18036671172083910,
  54636937277096520,
  18045465117622470,
  54636941605617990,
  91228679889518790,
  54628143298011720,
  18036533766684870,
  54628145445495240,
  90076535618568390,
  54645733336572360,
  126105330490048710,
  54628145479041480,
  90076673023967430,
  54645733370118600,
  126105467895447750,
  54636941605617990,
  91228679889518790,
  54628143298019910,
  18599346281152710,
  54628143298019910,
  18599346281152710,
  54636937243558470,
  18608140226691270,
  54628143298019910,
  18599346281152710,
  54636937243558470,
  18608140226691270,
  54628143298019910,
  18599346281152710,
  54637491327861060,
  91791904687292610,
  54637491327861060,
  91791904687292610,
  54646285273399620,
  127811905613234370,
  54637353922462020,
  91229092172824770,
  54646147868000580,
  127249093098766530,
  54646285273399620,
  127811905613234370,
  54628555614847560,
  18036808644591810,
  54646283125916100,
  127794317722157250,
  54646145720517060,
  127231505207689410,
  18036808642994760,
  18036808642994760,
  54637491327861060,
  91791904687292610,
  18054538301546820,
  127811905611637320,
  54637353922462020,
  91229092172824770,
  18054400896147780,
  127249093097169480,
  54646285273399620,
  127811905613234370,
  54628555614847560,
  18036808644591810,
  54628557762331080,
  90076810496475330,
  54646283092361670,
  127794042911359170,
  54628420356932040,
  90076673091076290,
  54646008281563590,
  127231092991492290,
  54637491327861060,
  91791904687292610,
  54637491294306630,
  91791629876494530,
  54637216483508550,
  91228679956627650,
  54646285273399620,
  127811905613234370,
  18036808642994760,
  18036808642994760,
  54628555614847560,
  18036808644591810,
  18045602588533320,
  18045602588533320,
  54628418209448520,
  18036671239192770,
  18045465183134280,
  18045465183134280,
  54637491327861060,
  91791904687292610,
  54637353922462020,
  91229092172824770,
  54637491327861060,
  91791904687292610,
  54646285273399620,
  127811905613234370,
  54637353922462020,
  91229092172824770,
  54637353922462020,
  91229092172824770,
  54628418209448520,
  18036671239192770,
  54646283125916100,
  127794317722157250,
  54628557829439940,
  91202710336209090,
  54637353922462020,
  91229092172824770,
  18036671237595720,
  18036671237595720,
  54637491327861060,
  91791904687292610,
  18054536120508870,
  127794042909762120,
  18036810857587140,
  91202710334612040,
  18045606950609220,
  91229092171227720,
  54628418209448520,
  18036671239192770,
  54646283092361670,
  127794042911359170,
  54628420390486470,
  91202298120011970,
  54646008281563590,
  127231092991492290,
  54637353922462020,
  91229092172824770,
  54637349560386120,
  18045602590130370,
  54646285239845190,
  127811630802436290,
  54637216483508550,
  91228679956627650,
  54646285273399620,
  127811905613234370,
  54628418209448520,
  18036671239192770,
  54637349560386120,
  18045602590130370,
  54628418209448520,
  18036671239192770,
  18045465183134280,
  18045465183134280,
  54637353922462020,
  91229092172824770,
  54637491327861060,
  91791904687292610,
  54637491327861060,
  91791904687292610,
  54646285273399620,
  127811905613234370,
  54637353922462020,
  91229092172824770,
  54646147868000580,
  127249093098766530,
  54628695234838980,
  91765522850676930,
  54646283125916100,
  127794317722157250,
  54628557829439940,
  91202710336209090,
  54646145720517060,
  127231505207689410,
  18036808642994760,
  18036808642994760,
  54637491327861060,
  91791904687292610,
  54646285273399620,
  127811905613234370,
  54637353922462020,
  91229092172824770,
  54646147868000580,
  127249093098766530,
  54628695201284550,
  91765248039878850,
  54646283092361670,
  127794042911359170,
  54628420390486470,
  91202298120011970,
  54646008281563590,
  127231092991492290,
  54637491327861060,
  91791904687292610,
  54637491294306630,
  91791629876494530,
  54646285239845190,
  127811630802436290,
  54637216483508550,
  91228679956627650,
  54646010429047110,
  127248680882569410,
  18036808642994760,
  18036808642994760,
  18045602588533320,
  18045602588533320,
  18036671237595720,
  18036671237595720,
  18045465183134280,
  18045465183134280,
  54637491327861060,
  91791904687292610,
  54637353922462020,
  91229092172824770,
  54637491327861060,
  91791904687292610,
  54646285273399620,
  127811905613234370,
  54637353922462020,
  91229092172824770,
  54646147868000580,
  127249093098766530,
  54637353922462020,
  91229092172824770,
  54628695234838980,
  91765522850676930,
  54646283125916100,
  127794317722157250,
  54637353922462020,
  91229092172824770,
  18036671237595720,
  18036671237595720,
  54637491327861060,
  91791904687292610,
  54646285273399620,
  127811905613234370,
  18045606950609220,
  91229092171227720,
  18054400896147780,
  127249093097169480,
  54637353922462020,
  91229092172824770,
  54628555614847560,
  18036808644591810,
  54628693053801030,
  19725246187995330,
  54637486999339590,
  19734040133533890,
  54628420390486470,
  91202298120011970,
  54646008281563590,
  127231092991492290]
def pertQf_cert_8 : List Nat := [54637353922462020,
  91229092172824770,
  54628555614847560,
  18036808644591810,
  54637216483508550,
  91228679956627650,
  54646010429047110,
  127248680882569410,
  18036808642994760,
  18036808642994760,
  54628555614847560,
  18036808644591810,
  54637349560386120,
  18045602590130370,
  18036671237595720,
  18036671237595720,
  18045465183134280,
  18045465183134280,
  54637353922462020,
  91229092172824770,
  516598910595123929796,
  73841068015982240196,
  221487034489883075136,
  221378983283198271936,
  221487052077774152256,
  221378983285345755456,
  221487034352477676096,
  221378983145792872896,
  221487051940368753216,
  221378983147940356416,
  516598910595123929796,
  73841068015982240196,
  221487034352376505026,
  73841059215696462276,
  221487051940267582146,
  73841059217843945796,
  221487034077565706946,
  73841059215662907846,
  221487051665456784066,
  73841059217810391366,
  516562881937691927106,
  221378991804446409156,
  516562899525583004226,
  221378991806593892676,
  516562881662881129026,
  221378991804412854726,
  516562899250772206146,
  221378991806560338246,
  369060987077412004416,
  221378983289639150016,
  516598910595123921606,
  73841067878576841156,
  221487034352376488646,
  73841059078257516996,
  221487051940267565766,
  73841059080405000516,
  221487034077565690566,
  73841059078223962566,
  221487051665456767686,
  73841059080371446086,
  516562881937691910726,
  221378991667007463876,
  516562899525582987846,
  221378991669154947396,
  516562881662881112646,
  221378991666973909446,
  516562899250772189766,
  221378991669121392966,
  369060987077411996226,
  221378983289639141826,
  516562881800252449476,
  73841068011688321476,
  516562899388143526596,
  73841068013835804996,
  516562881662847050436,
  73841068011688313286,
  516562899250738127556,
  73841068013835796806,
  516598910595123929796,
  73841068015982240196,
  369060986802467004996,
  221378983014694150596,
  221487034489883075136,
  221378983283198271936,
  221487052077774152256,
  221378983285345755456,
  516562881937792041666,
  73841068149227913666,
  516562899525683118786,
  73841068151375397186,
  369060987077412004416,
  221378983289639150016,
  221487034077565706946,
  73841059215662907846,
  221487051665456784066,
  73841059217810391366,
  369060986802467004996,
  221378983014694150596,
  221487034352377029186,
  221378983008353911236,
  221487051940268106306,
  221378983010501394756,
  516562881662881129026,
  221378991804412854726,
  516562899250772206146,
  221378991806560338246,
  369060987077412004416,
  221378983289639150016,
  516598910457718522566,
  73841067878576832966,
  221487034352376488646,
  73841059078257516996,
  221487051940267565766,
  73841059080405000516,
  516562881662880588486,
  73841067874316460486,
  516562899250771665606,
  73841067876463944006,
  516598910732663521986,
  73841068153521832386,
  516562881937691910726,
  221378991667007463876,
  516562899525582987846,
  221378991669154947396,
  369060986802467004996,
  221378983014694150596,
  221487034214938075716,
  221378983008253272516,
  221487051802829152836,
  221378983010400756036,
  516562881662847042246,
  73841067874282914246,
  516562899250738119366,
  73841067876430397766,
  369060986802467004996,
  221378983014694150596,
  369060995882092339776,
  368952935879316086976,
  369060995882092339776,
  368952935879316086976,
  221487052088508949056,
  368952935875022168256,
  369060995744686940736,
  368952935741910687936,
  221487051951103550016,
  368952935737616769216,
  221487052088508949056,
  368952935875022168256,
  516598910601564807876,
  73877096813000679876,
  369060995882058793536,
  368952935879282540736,
  221487052086327919296,
  73877088289673724096,
  369060995607247995456,
  368952935741843595456,
  221487051811517121216,
  73877088152234778816,
  221487052088508949056,
  368952935875022168256,
  516562881804546368196,
  73877096806559801796,
  516562881944132805186,
  368952944391975338436,
  369060995882058793536,
  368952935879282540736,
  516562881669322007106,
  368952944391941784006,
  369060995607247995456,
  368952935741843595456,
  369060995882092339776,
  368952935879316086976,
  516598910601564799686,
  73877096675595280836,
  369060995882058777156,
  368952935879248986306,
  221487052086327902916,
  73877088289640169666,
  369060995607247979076,
  368952935741810041026,
  221487051811517104836,
  73877088152201224386,
  221487052088508940866,
  368952935875022160066,
  516562881804546360006,
  73877096669154402756,
  516562881944132788806,
  368952944254536393156,
  369060995882058777156,
  368952935879248986306,
  516562881669321990726,
  368952944254502838726,
  369060995607247979076,
  368952935741810041026,
  369060995882092331586,
  368952935879316078786,
  516562881804546368196,
  73877096806559801796,
  516562881804546368196,
  73877096806559801796,
  516598910601564807876,
  73877096813000679876,
  516562881667140969156,
  73877096806559793606,
  516598910464159408836,
  73877096813000671686,
  369060995882092339776,
  368952935879316086976,
  369060995882058793536,
  368952935879282540736,
  369060995882092339776,
  368952935879316086976,
  221487052088508949056,
  368952935875022168256,
  516562899536418439746,
  368952944533709258946,
  516562899536418439746,
  368952944533709258946,
  369060995607214449216,
  368952935604438196416,
  221487051811517121216,
  73877088152234778816,
  221487052088508949056,
  368952935875022168256,
  221487034219231470276,
  73877088010467303876,
  221487034358817907266,
  368952935595882840516,
  516562881669322007106,
  368952944391941784006,
  369060995607214449216,
  368952935604438196416,
  369060995882092339776,
  368952935879316086976,
  516598910464159400646,
  73877096675595272646,
  516598919535129789126,
  73877096675663429826,
  221487052086327902916,
  73877088289640169666,
  516562899396832002756,
  73877096948293722306,
  516562899536418439746,
  368952944533709258946,
  516562881667140960966,
  73877096669154394566,
  516562881944132788806,
  368952944254536393156,
  516598919535129789126,
  73877096675663429826,
  221487034219231470276,
  73877088010467303876,
  221487034219231470276,
  73877088010467303876,
  516562881667140960966,
  73877096669154394566,
  516598910464159400646,
  73877096675595272646,
  369060995882058793536,
  368952935879282540736,
  516598919672602305216,
  73877097087946727616,
  516562899673823846976,
  368952944671114666176,
  516562899536418447936,
  368952944533709267136,
  516598919672568758976,
  73877097087913181376,
  221487052086327919296,
  73877088289673724096,
  516598919397757960896,
  73877096950474236096,
  221487051811517121216,
  73877088152234778816,
  516562899673823846976,
  368952944671114666176,
  221487034219231470276,
  73877088010467303876,
  516562881944132805186,
  368952944391975338436,
  516598919672568758976,
  73877097087913181376,
  516562881669322007106,
  368952944391941784006,
  516598919397757960896,
  73877096950474236096,
  516598919672568742596,
  73877097087879626946,
  221487052086327902916,
  73877088289640169666,
  516598919397757944516,
  73877096950440681666,
  221487051811517104836,
  73877088152201224386,
  516562899673823838786,
  368952944671114657986,
  221487034219231462086,
  73877087873061904836,
  516562881944132788806,
  368952944254536393156,
  516598919672568742596,
  73877097087879626946,
  516562881669321990726,
  368952944254502838726,
  516598919397757944516,
  73877096950440681666,
  221487034219231470276,
  73877088010467303876,
  221487034081826071236,
  73877088010467295686,
  516598919672602305216,
  73877097087946727616,
  369060986946348409026,
  221451040608831668676,
  221487052088511045696,
  368988964672041132096,
  516598919537346478146,
  368988973332875182146,
  516562899536420536386,
  368988973330728222786,
  221487052088511045696,
  368988964672041132096,
  221487034219233042756,
  221451040597996233156,
  221487034084008157506,
  368988964390720766406,
  369060995605069586496,
  221451040608799711296,
  369060986808909455556,
  221451040608731029956,
  221487052086330540096,
  221451040879350136896,
  369060995605069586496,
  221451040608799711296,
  516562899396834639936,
  221451049538003689536,
  221487052088511045696,
  368988964672041132096,
  516562881667142533446,
  221451049256683323846,
  221487034358818939206,
  368988964253315375556,
  516598919537279369286,
  368988973057997291586,
  516562881669323039046,
  368988973049374319046,
  516598919537346478146,
  368988973332875182146,
  516598919537279369286,
  368988973057997291586,
  516562899671645421636,
  221451049675409080386,
  516562899536420536386,
  368988973330728222786,
  516562881667142533446,
  221451049256683323846,
  221487034219233042756,
  221451040597996233156,
  369060986808909455556,
  221451040608731029956,
  516562881667142533446,
  221451049256683323846,
  369060986946348409026,
  221451040608831668676,
  369061031064316944576,
  516598946063028854976,
  369061031064316944576,
  516598946063028854976,
  369061030926911545536,
  516598945925623455936,
  516562916991064891716,
  369061030780784107716,
  221487069680661446976,
  369061022259603062976,
  516562926059921883456,
  516598954848353009856,
  221487069405850648896,
  369061022122164117696,
  516562925785111085376,
  516598954710914064576,
  221487078474640531776,
  516598946052294058176,
  516562916991065940036,
  369061030782931591236,
  221487069680662495296,
  369061022261750546496,
  516562926059922931776,
  516598954850500493376,
  221487069405851697216,
  369061022124311601216,
  516562925785112133696,
  516598954713061548096,
  221487078474641580096,
  516598946054441541696,
  516562916991064883526,
  369061030643378708676,
  221487069680661430596,
  369061022259569508546,
  516562926059921867076,
  516598954848319455426]
def pertQf_cert_9 : List Nat := [221487069405850632516,
  369061022122130563266,
  516562925785111068996,
  516598954710880510146,
  221487078474640523586,
  516598946052294049986,
  516562916991065931846,
  369061030645526192196,
  221487069680662478916,
  369061022261716992066,
  516562926059922915396,
  516598954850466938946,
  221487069405851680836,
  369061022124278046786,
  516562925785112117316,
  516598954713027993666,
  221487078474641571906,
  516598946054441533506,
  516598945788083855556,
  369061030789371945156,
  516598945650678456516,
  369061030789371936966,
  369061031064316944576,
  516598946063028854976,
  369061031064316944576,
  516598946063028854976,
  369061031064316944576,
  516598946063028854976,
  516598945925623447746,
  369061030926911537346,
  369061031064316944576,
  516598946063028854976,
  221487078199695532356,
  516598945777349058756,
  221487078474606985536,
  516598946052260511936,
  221487069405850648896,
  369061022122164117696,
  516562925785111085376,
  516598954710914064576,
  221487078474640531776,
  516598946052294058176,
  221487078199696580676,
  516598945779496542276,
  221487078474608033856,
  516598946054407995456,
  221487069405851697216,
  369061022124311601216,
  516562925785112133696,
  516598954713061548096,
  221487078474641580096,
  516598946054441541696,
  516562916853659484486,
  369061030643378700486,
  221487069680661430596,
  369061022259569508546,
  516562926059921867076,
  516598954848319455426,
  516562916991165530436,
  369061030918223061186,
  516562917128604483906,
  369061030918323699906,
  516562916853660532806,
  369061030645526184006,
  221487069680662478916,
  369061022261716992066,
  516562926059922915396,
  516598954850466938946,
  516562916991166578756,
  369061030920370544706,
  516562917128605532226,
  369061030920471183426,
  369061030789371945156,
  516598945788083855556,
  369061030789371945156,
  516598945788083855556,
  516598945650678448326,
  369061030651966537926,
  369061031064316944576,
  516598946063028854976]

/-- Check pertQf.  -/
theorem pertQf : isZeroSpin kinds [] 8 []
    (energy_pertQf)
    (Prog.scale (-1) (si_energy_pertQf))
    (pertQf_cert_0 ++ (pertQf_cert_1 ++ (pertQf_cert_2 ++ (pertQf_cert_3 ++ (pertQf_cert_4 ++ (pertQf_cert_5 ++ (pertQf_cert_6 ++ (pertQf_cert_7 ++ (pertQf_cert_8 ++ (pertQf_cert_9)))))))))) = true := by decide +kernel

end Verif.Cert
